import Verif.Model.IniText

/-!
What an ini-file shows to its reader: sections of options with values, comments and empty lines (C133), and what its copy has to show (C132).
-/

namespace Hyvr.Spec

/-- The blanks of Unicode, by number: tab, line feed, vertical tab, form feed, carriage return, the four separators of ASCII, space, next line,
no-break space, Ogham space, the spaces of fixed width, line and paragraph separator, narrow no-break space, mathematical space, ideographic space. -/
def blanks : List ℕ :=
  [9, 10, 11, 12, 13, 28, 29, 30, 31, 32, 133, 160, 5760, 8192, 8193, 8194, 8195, 8196, 8197, 8198, 8199, 8200, 8201, 8202, 8232, 8233, 8239, 8287, 12288]

/-- A blank of any kind. -/
def Blank (c : Char) : Prop := c.toNat ∈ blanks

instance (c : Char) : Decidable (Blank c) := inferInstanceAs (Decidable (_ ∈ _))

/-- Blanks of any kind within a line. -/
def White (s : List Char) : Prop := ∀ c ∈ s, Blank c ∧ c ≠ '\n' ∧ c ≠ '\r'

/-- Part of a line. -/
def Plain (s : List Char) : Prop := '\n' ∉ s ∧ '\r' ∉ s

/-- Part of a line that neither starts nor ends with a blank of any kind. -/
def Trim (s : List Char) : Prop :=
  Plain s ∧ (∀ c ∈ s.head?, ¬ Blank c) ∧ ∀ c ∈ s.getLast?, ¬ Blank c

/-- Starts with a sign for comments. -/
def Marked (s : List Char) : Prop := ∃ c ∈ s.head?, c = '#' ∨ c = ';'

/-- A comment line; the comment may be indented. -/
def Comment (l : List Char) : Prop := ∃ w t, l = w ++ t ∧ White w ∧ Marked t ∧ Plain t

/-- A line that says nothing. -/
def Skipped (l : List Char) : Prop := White l ∨ Comment l

/-- A further line of a value, comment lines before it, and what surrounds its text. -/
structure IniMore where
  comments : List (List Char)
  indent : List Char
  text : List Char
  trail : List Char

/-- An option: its name as it is written, the sign between name and value, the lines of the value, the blanks around them, lines after it
that say nothing, and the blanks before the name. -/
structure IniOption where
  key : List Char
  gap : List Char
  delim : Char
  gap' : List Char
  first : List Char
  trail : List Char
  more : List IniMore
  after : List (List Char)
  indent : List Char

/-- A section: its name, what follows the bracket, lines that say nothing, options, and lines that say nothing. -/
structure IniSection where
  name : List Char
  rest : List Char
  after : List (List Char)
  options : List IniOption
  tail : List (List Char)

/-- An ini-file: lines that say nothing, and sections. -/
structure IniDoc where
  before : List (List Char)
  sections : List IniSection

/-! ### The text -/

def IniMore.lines (m : IniMore) : List (List Char) := m.comments ++ [m.indent ++ m.text ++ m.trail]

def IniOption.lines (o : IniOption) : List (List Char) :=
  (o.indent ++ (o.key ++ o.gap ++ [o.delim] ++ o.gap' ++ o.first ++ o.trail)) :: (o.more.flatMap IniMore.lines ++ o.after)

def IniSection.lines (s : IniSection) : List (List Char) :=
  ('[' :: s.name ++ ']' :: s.rest) :: (s.after ++ s.options.flatMap IniOption.lines ++ s.tail)

def IniDoc.lines (d : IniDoc) : List (List Char) := d.before ++ d.sections.flatMap IniSection.lines

/-- The text, with the given line ends. -/
def IniDoc.text (eol : List Char) (d : IniDoc) : List Char := d.lines.flatMap (· ++ eol)

/-! ### Which layouts are meant -/

structure IniMore.Fits (m : IniMore) : Prop where
  comments : ∀ l ∈ m.comments, Comment l
  indent : White m.indent ∧ m.indent ≠ []
  text : Trim m.text ∧ ¬ Marked m.text
  trail : White m.trail

structure IniOption.Fits (o : IniOption) : Prop where
  key : Trim o.key ∧ o.key ≠ [] ∧ ¬ Marked o.key ∧ '=' ∉ o.key ∧ ':' ∉ o.key
  bracket : ∀ t, o.key = '[' :: t → ']' ∉ t.tail ∧ ']' ∉ o.first
  gap : White o.gap ∧ White o.gap' ∧ White o.trail
  delim : o.delim = '=' ∨ o.delim = ':'
  first : Trim o.first
  more : ∀ m ∈ o.more, m.Fits
  last : ∀ m ∈ o.more.getLast?, m.text ≠ []
  after : ∀ l ∈ o.after, Skipped l
  indent : White o.indent
  deeper : ∀ m ∈ o.more, o.indent.length < m.indent.length

structure IniSection.Fits (s : IniSection) : Prop where
  name : s.name ≠ [] ∧ Plain s.name
  rest : Plain s.rest ∧ ']' ∉ s.rest
  after : ∀ l ∈ s.after, Skipped l
  options : ∀ o ∈ s.options, o.Fits
  distinct : (s.options.map fun o => o.key.map Char.toLower).Nodup
  tail : ∀ l ∈ s.tail, Skipped l
  /-- No option is indented more than one before it. -/
  indents : s.options.Pairwise fun o o' => o'.indent.length ≤ o.indent.length

structure IniDoc.Fits (d : IniDoc) : Prop where
  before : ∀ l ∈ d.before, Skipped l
  sections : ∀ s ∈ d.sections, s.Fits
  distinct : (d.sections.map (·.name)).Nodup

/-! ### What is shown -/

/-- The value: its lines, without the blanks around them. -/
def IniOption.value (o : IniOption) : List Char := List.intercalate ['\n'] (o.first :: o.more.map (·.text))

/-- The options of a section, their names in lower case. -/
def IniSection.table (s : IniSection) : List (List Char × List Char) := s.options.map fun o => (o.key.map Char.toLower, o.value)

/-- The sections in order, except the one for defaults, and the options in order. -/
structure IniDoc.Shows (d : IniDoc) (c : IniText.Config) : Prop where
  sections : c.sections = (d.sections.map (·.name)).filter fun n => decide (n ≠ "DEFAULT".toList)
  options : ∀ s ∈ d.sections, c.opts s.name = s.table
  others : ∀ n, n ∉ d.sections.map (·.name) → c.opts n = []

end Hyvr.Spec
