import Verif.Py.Seq
import Mathlib.Data.List.SplitOn

/-!
Reading lists and booleans from the texts of an ini-file, hyvr/input/option_parsing.py:444-498.

Texts are lists of characters. The type converters `str`, `int`, `float` of Python are a parameter `conv`; nothing is
assumed about them.
-/

namespace Hyvr

open Py

/-- A Python value that is either a single value or a (possibly nested) list.
hyvr/input/option_parsing.py:451-482 (result of `parse_list`). -/
inductive Tree (α : Type)
  | leaf (a : α)
  | node (l : List (Tree α))
  deriving Repr, Inhabited

mutual
/-- Equality of nested values is decidable (`==` of Python lists, hyvr/input/option_parsing.py:284). -/
def Tree.decEq {α : Type} [DecidableEq α] : (a b : Tree α) → Decidable (a = b)
  | .leaf a, .leaf b => if h : a = b then isTrue (h ▸ rfl) else isFalse fun e => h (Tree.leaf.inj e)
  | .leaf _, .node _ => isFalse nofun
  | .node _, .leaf _ => isFalse nofun
  | .node l, .node m =>
    match Tree.decEqs l m with
    | isTrue h => isTrue (h ▸ rfl)
    | isFalse h => isFalse fun e => h (Tree.node.inj e)
/-- Equality of lists of nested values (hyvr/input/option_parsing.py:284). -/
def Tree.decEqs {α : Type} [DecidableEq α] : (a b : List (Tree α)) → Decidable (a = b)
  | [], [] => isTrue rfl
  | [], _ :: _ => isFalse nofun
  | _ :: _, [] => isFalse nofun
  | t :: l, u :: m =>
    match Tree.decEq t u, Tree.decEqs l m with
    | isTrue h, isTrue h' => isTrue (by rw [h, h'])
    | isFalse h, _ => isFalse fun e => h (List.cons.inj e).1
    | _, isFalse h => isFalse fun e => h (List.cons.inj e).2
end

instance {α : Type} [DecidableEq α] : DecidableEq (Tree α) := Tree.decEq

/-- `string.replace(' ', '')`. hyvr/input/option_parsing.py:469. -/
def stripSpaces (s : List Char) : List Char := s.filter fun c => c ≠ ' '

/-- `s.split('],')` for the two character separator `a b`. hyvr/input/option_parsing.py:475. -/
def split2 (a b : Char) : List Char → List (List Char)
  | [] => [[]]
  | [c] => [[c]]
  | c :: d :: s =>
    if c = a ∧ d = b then [] :: split2 a b s
    else
      match split2 a b (d :: s) with
      | [] => [[c]]
      | p :: ps => (c :: p) :: ps

/-- The loop giving the removed closing bracket back to all parts but the last. hyvr/input/option_parsing.py:476-477. -/
def closePieces : List (List Char) → List (List Char)
  | [] => []
  | [p] => [p]
  | p :: q :: ps => (p ++ [']']) :: closePieces (q :: ps)

/-- `list(map(f, l))`: the first exception ends the map. hyvr/input/option_parsing.py:478,481. -/
def mapPy {α β : Type} (f : α → Except PyErr β) : List α → Except PyErr (List β)
  | [] => .ok []
  | a :: l => do
    let b ← f a
    let bs ← mapPy f l
    return b :: bs

/-- `parse_list` with a bound on the recursion depth; see `parseList`. hyvr/input/option_parsing.py:451-482. -/
def parseListF {α : Type} (conv : List Char → Except PyErr α) : ℕ → List Char → Except PyErr (Tree α)
  | 0, _ => .error .indexError
  | n + 1, string =>
    match stripSpaces string with
    | [] => .error .indexError
    | c :: cs =>
      if c = '[' then
        let s := cs.dropLast
        match s with
        | [] => .error .indexError
        | d :: _ =>
          if d = '[' then do
            let l ← mapPy (parseListF conv n) (closePieces (split2 ']' ',' s))
            return .node l
          else do
            let l ← mapPy conv (s.splitOn ',')
            return .node (l.map .leaf)
      else do
        let v ← conv (c :: cs)
        return .leaf v

/-- `parse_list(string, dtype)`. hyvr/input/option_parsing.py:451-482. The recursion of the code is given one level
more than the text has characters; theorem `parseList_unfold` shows that the bound is never reached, i.e. that the
recursive equation of the code holds. Simplification: only blanks are removed, as in the code; other white space is
left to `conv`. -/
def parseList {α : Type} (conv : List Char → Except PyErr α) (string : List Char) : Except PyErr (Tree α) :=
  parseListF conv (string.length + 1) string

/-- `str.lower` on ASCII texts. hyvr/input/option_parsing.py:490,492. -/
def lower (s : List Char) : List Char := s.map Char.toLower

/-- `int(string)` of a string of ASCII digits. hyvr/input/option_parsing.py:495. -/
def digitsValue (s : List Char) : ℕ := s.foldl (fun n c => 10 * n + (c.toNat - '0'.toNat)) 0

/-- `parse_bool`. hyvr/input/option_parsing.py:484-498. Simplification: `lower` and `isdigit` are those of ASCII texts
(Python also lowers and accepts some non-ASCII characters). -/
def parseBool (s : List Char) : Except PyErr Bool :=
  if lower s = "true".toList ∨ lower s = "yes".toList then .ok true
  else if lower s = "false".toList ∨ lower s = "no".toList then .ok false
  else if s ≠ [] ∧ s.all Char.isDigit = true then .ok (decide (digitsValue s ≠ 0))
  else .error .valueError

/-- `all_true`. hyvr/input/option_parsing.py:444-448. -/
def allTrue {α : Type} (f : α → Bool) : Tree α → Bool
  | .leaf a => f a
  | .node l => go l
where
  /-- The comprehension of `all_true` over a list. hyvr/input/option_parsing.py:448. -/
  go : List (Tree α) → Bool
  | [] => true
  | t :: l => allTrue f t && go l

end Hyvr
