import Verif.Model.Main
import Mathlib.Logic.Function.Basic

/-!
The text of an ini-file: how `configparser.ConfigParser()`, which hyvr calls with its default settings, reads a file and writes it again
(hyvr/input/parameters.py:97-104, 485-490, 519-521), and runs that start from a file.

The lines quoted as `configparser.py` are those of Python 3.11. Simplifications: a file is the text that its bytes stand for in UTF-8, which
is also taken to be the encoding of `open(…, 'w')`; all exceptions of `configparser` are `PyErr.configError`.
-/

namespace Hyvr

open Py

namespace IniText

/-! ### Texts -/

/-- `c.isspace()`, also `\s` in regular expressions. configparser.py:606,1058; hyvr/input/parameters.py:99. -/
def isSpace (c : Char) : Bool :=
  (9 ≤ c.toNat && c.toNat ≤ 13) || (28 ≤ c.toNat && c.toNat ≤ 32) || c.toNat == 0x85 || c.toNat == 0xa0 || c.toNat == 0x1680 ||
    (0x2000 ≤ c.toNat && c.toNat ≤ 0x200a) || c.toNat == 0x2028 || c.toNat == 0x2029 || c.toNat == 0x202f || c.toNat == 0x205f ||
    c.toNat == 0x3000

/-- `s.lstrip()`. configparser.py:1058; hyvr/input/parameters.py:99. -/
def lstrip (s : List Char) : List Char := s.dropWhile isSpace

/-- `s.rstrip()`. configparser.py:1110,1143; hyvr/input/parameters.py:99. -/
def rstrip (s : List Char) : List Char := (s.reverse.dropWhile isSpace).reverse

/-- `s.strip()`. configparser.py:1053,1058,1119; hyvr/input/parameters.py:99. -/
def strip (s : List Char) : List Char := rstrip (lstrip s)

/-- The translation of line ends of a file opened as text. hyvr/input/parameters.py:99,102. -/
def newlines : List Char → List Char
  | [] => []
  | '\r' :: '\n' :: t => '\n' :: newlines t
  | '\r' :: t => '\n' :: newlines t
  | c :: t => c :: newlines t

/-- The lines of a file, without the line ends. configparser.py:1037; hyvr/input/parameters.py:99. -/
def lines : List Char → List (List Char)
  | [] => []
  | c :: t =>
    if c = '\n' then [] :: lines t
    else match lines t with
      | [] => [[c]]
      | l :: ls => (c :: l) :: ls

/-! ### Reading -/

/-- The exceptions of `configparser` when reading. configparser.py:1087,1102,1113,1134; hyvr/input/parameters.py:100. -/
inductive ReadErr
  | missingHeader
  | duplicate
  | parsing
  deriving DecidableEq

/-- `[` and `]` around a name: the regular expression `\[(?P<header>.+)\]`, which takes as much as it can. configparser.py:573-577,1082-1084;
hyvr/input/parameters.py:99. -/
def sectHeader : List Char → Option (List Char)
  | '[' :: rest =>
    match rest.reverse.dropWhile (fun c => decide (c ≠ ']')) with
    | [] => none
    | _ :: b => if b = [] then none else some b.reverse
  | _ => none

/-- Whether the character separates names of options from values. configparser.py:612; hyvr/input/parameters.py:97. -/
def isDelim (c : Char) : Bool := c == '=' || c == ':'

/-- The regular expression for options, `(?P<option>.*?)\s*(?P<vi>=|:)\s*(?P<value>.*)$`, and the following `strip`.
configparser.py:578-585,1105-1110,1118-1120; hyvr/input/parameters.py:99. -/
def splitOption (value : List Char) : Option (List Char × List Char) :=
  match value.dropWhile (fun c => !isDelim c) with
  | [] => none
  | _ :: v => some (rstrip (value.takeWhile fun c => !isDelim c), strip v)

/-- Whether a stripped line is a comment. configparser.py:613,1052-1055; hyvr/input/parameters.py:97. -/
def isComment (value : List Char) : Bool :=
  match value with
  | c :: _ => c == '#' || c == ';'
  | [] => false

/-- The name of the section with default values. configparser.py:615,1091; hyvr/input/parameters.py:97. -/
def defaultName : List Char := "DEFAULT".toList

/-- The variables of the loop of `_read`: the sections in order, the options of each section with the lines of their values
(`DEFAULT` included), the current section, the current option, `indent_level` and whether there was a line that is neither a header nor an
option. configparser.py:1029-1035; hyvr/input/parameters.py:99. -/
structure Reader where
  sections : List (List Char)
  opts : List Char → List (List Char × List (List Char))
  cur : Option (List Char)
  opt : Option (List Char)
  indent : ℕ
  bad : Bool

/-- The state before the first line. configparser.py:1029-1035; hyvr/input/parameters.py:97. -/
def Reader.init : Reader := { sections := [], opts := fun _ => [], cur := none, opt := none, indent := 0, bad := false }

/-- `cursect[optname].append(value)`. configparser.py:1067,1077; hyvr/input/parameters.py:99. -/
def Reader.append (r : Reader) (s k value : List Char) : Reader :=
  { r with opts := Function.update r.opts s ((r.opts s).map fun e => if e.1 = k then (e.1, e.2 ++ [value]) else e) }

/-- An option line in section `s`. configparser.py:1104-1129; hyvr/input/parameters.py:99. Simplification: `optionxform` is `lower` of
ASCII texts. An empty name counts as a line that cannot be read, but is entered. -/
def Reader.option (r : Reader) (s value : List Char) : Except ReadErr Reader :=
  match splitOption value with
  | none => .ok { r with bad := true }
  | some (name, v) =>
    let k := lower name
    if k ∈ (r.opts s).map (·.1) then .error .duplicate
    else .ok { r with
      opts := Function.update r.opts s (r.opts s ++ [(k, [v])])
      opt := if k = [] then none else some k
      bad := r.bad || decide (k = []) }

/-- A header or option line. configparser.py:1079-1129; hyvr/input/parameters.py:99. -/
def Reader.entry (r : Reader) (indent : ℕ) (value : List Char) : Except ReadErr Reader :=
  let r := { r with indent }
  match sectHeader value with
  | some name =>
    if name ∈ r.sections then .error .duplicate
    else if name = defaultName then .ok { r with cur := some name, opt := none }
    else .ok { r with sections := r.sections ++ [name], cur := some name, opt := none }
  | none =>
    match r.cur with
    | none => .error .missingHeader
    | some s => r.option s value

/-- One pass of the loop of `_read`. configparser.py:1037-1129; hyvr/input/parameters.py:99. -/
def Reader.step (r : Reader) (line : List Char) : Except ReadErr Reader :=
  let value := strip line
  if isComment value then .ok r
  else
    match r.cur, r.opt with
    | some s, some k =>
      if value = [] then .ok (r.append s k [])
      else if r.indent < (line.takeWhile isSpace).length then .ok (r.append s k value)
      else r.entry (line.takeWhile isSpace).length value
    | _, _ => if value = [] then .ok r else r.entry (line.takeWhile isSpace).length value

/-- What has been read: the section names in order and the options of each section, those of `DEFAULT` included, with their raw values.
configparser.py:617-623,1136-1147; hyvr/input/parameters.py:97-104. -/
structure Config where
  sections : List (List Char)
  opts : List Char → List (List Char × List Char)

/-- `'\n'.join(ls)`. configparser.py:1143; hyvr/input/parameters.py:99. -/
def joinLines : List (List Char) → List Char
  | [] => []
  | [l] => l
  | l :: ls => l ++ '\n' :: joinLines ls

/-- `_join_multiline_values` and the exception for lines that could not be read. configparser.py:1130-1147; hyvr/input/parameters.py:99. -/
def Reader.finish (r : Reader) : Except ReadErr Config :=
  if r.bad then .error .parsing
  else .ok { sections := r.sections, opts := fun s => (r.opts s).map fun e => (e.1, rstrip (joinLines e.2)) }

/-- `p.read` of a file with the given text, by a new parser. configparser.py:1012-1134; hyvr/input/parameters.py:97-99. -/
def read (text : List Char) : Except ReadErr Config := do
  let r ← (lines (newlines text)).foldlM Reader.step Reader.init
  r.finish

/-- The text without a byte order mark, `encoding='utf-8-sig'`. hyvr/input/parameters.py:102. -/
def dropBom : List Char → List Char
  | '\uFEFF' :: t => t
  | t => t

/-- The parser after both attempts; the first leaves nothing in the parser if it ends with this exception. hyvr/input/parameters.py:98-102,486-490. -/
def readIni (text : List Char) : Except ReadErr Config :=
  match read text with
  | .error .missingHeader => read (dropBom text)
  | r => r

/-! ### Writing -/

/-- One option of `_write_section`. configparser.py:944-950; hyvr/input/parameters.py:521. -/
def writeOption (e : List Char × List Char) : List Char :=
  e.1 ++ " = ".toList ++ e.2.flatMap (fun c => if c = '\n' then ['\n', '\t'] else [c]) ++ ['\n']

/-- `_write_section`. configparser.py:939-952; hyvr/input/parameters.py:521. -/
def writeSection (name : List Char) (os : List (List Char × List Char)) : List Char :=
  '[' :: name ++ [']', '\n'] ++ os.flatMap writeOption ++ ['\n']

/-- `p.write(f)`. configparser.py:921-937; hyvr/input/parameters.py:520-521. -/
def writeIni (c : Config) : List Char :=
  (if c.opts defaultName = [] then [] else writeSection defaultName (c.opts defaultName)) ++
    c.sections.flatMap fun s => writeSection s (c.opts s)

/-! ### Values -/

/-- The name in `%(name)s`, after the first two characters, and the rest: the regular expression `%\(([^)]+)\)s`.
configparser.py:392,425-431; hyvr/input/parameters.py:104,199. -/
def refName (t : List Char) : Option (List Char × List Char) :=
  match t.dropWhile (fun c => decide (c ≠ ')')) with
  | ')' :: 's' :: rest => if t.takeWhile (fun c => decide (c ≠ ')')) = [] then none else some (t.takeWhile fun c => decide (c ≠ ')'), rest)
  | _ => none

/-- The loop of `_interpolate_some`, with the calls for the values that are named; the number bounds the passes.
configparser.py:412-446; hyvr/input/parameters.py:104,199. -/
def expandWith (sub : List Char → Except PyErr (List Char)) (vals : List Char → Option (List Char)) :
    ℕ → List Char → Except PyErr (List Char)
  | 0, _ => .ok []
  | _ + 1, [] => .ok []
  | n + 1, '%' :: '%' :: t => do
    let u ← expandWith sub vals n t
    return '%' :: u
  | n + 1, '%' :: '(' :: t =>
    match refName t with
    | none => .error .configError
    | some (name, rest) =>
      match vals (lower name) with
      | none => .error .configError
      | some v => do
        let a ← if '%' ∈ v then sub v else .ok v
        let b ← expandWith sub vals n rest
        return a ++ b
  | _ + 1, '%' :: _ => .error .configError
  | n + 1, c :: t => do
    let u ← expandWith sub vals n t
    return c :: u

/-- `_interpolate_some` where so many nested values are still allowed. configparser.py:408-411; hyvr/input/parameters.py:104,199. -/
def expand (vals : List Char → Option (List Char)) : ℕ → List Char → Except PyErr (List Char)
  | 0, _ => .error .configError
  | d + 1, t => expandWith (expand vals d) vals (t.length + 1) t

/-- The raw value of an option: that of the section, else that of `DEFAULT`. configparser.py:1160-1180; hyvr/input/parameters.py:104,199. -/
def Config.raw (c : Config) (s k : List Char) : Option (List Char) :=
  match (c.opts s).lookup k with
  | some v => some v
  | none => (c.opts defaultName).lookup k

/-- `p[s][k]`. configparser.py:394-397,780-815; hyvr/input/parameters.py:104,199. -/
def Config.value (c : Config) (s k : List Char) : Option (Except PyErr (List Char)) := (c.raw s k).map (expand (c.raw s) 10)

/-- Whether all values of a section can be looked up. hyvr/input/parameters.py:104,199,205,210,219,237,249. -/
def Config.valuesOk (c : Config) (s : List Char) : Bool :=
  (c.opts s ++ c.opts defaultName).all fun e => match c.value s e.1 with
    | some (.error _) => false
    | _ => true

/-- The parser as the rest of the model sees it: `dict(p[s])` of each section. hyvr/input/parameters.py:104,199,205,210,219,237,249.
Simplification: every section is looked up, and this before anything else; `parse_inifile` looks up every section too. -/
def toIni (c : Config) : Except PyErr Ini :=
  if c.sections.all c.valuesOk then
    .ok {
      sections := c.sections.map String.ofList
      get := fun s k => if s.toList ∈ c.sections then
          match c.value s.toList k.toList with
          | some (.ok v) => some (.leaf (.text v))
          | _ => none
        else none }
  else .error .configError

/-! ### Runs from a file -/

/-- What the parser holds after reading the file; it stays empty if there is no such file. hyvr/input/parameters.py:97-102, 485-490.
Of the exceptions only that there was one. -/
def load (fs : FS) (path : Path) : Except PyErr Config :=
  match fs.get path with
  | some (.file t) =>
    match readIni t.toList with
    | .ok c => .ok c
    | .error _ => .error .configError
  | _ => .ok { sections := [], opts := fun _ => [] }

end IniText

/-- `run(inifile, flag_ow)` for the file `ini` in the directory `iniDir`. hyvr/sim.py:19-58. The file is read a second time in
`set_up_directories` (hyvr/input/parameters.py:485-490), before anything is changed. -/
noncomputable def runPath (C : Convs) (iniDir : Path) (ini : List Char) (answer : Path) (flag : Option Bool)
    (write : Writers) (ch : ℕ → Chance) (w : World) : Option (World × Option PyErr) :=
  match IniText.load w.fs (iniDir ++ [String.ofList ini]) with
  | .error e => some (w, some e)
  | .ok c =>
    match IniText.toIni c with
    | .error e => some (w, some e)
    | .ok p => runHyvr C p (String.ofList (IniText.writeIni c)) iniDir ini answer flag write ch w

end Hyvr
