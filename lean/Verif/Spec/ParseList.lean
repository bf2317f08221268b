import Verif.Model.ParseList

/-!
Specification vocabulary for texts of lists: how a nested list is written, and how blanks may be added.
-/

namespace Hyvr
namespace Spec

/-- The items separated by commas. -/
def commas : List (List Char) → List Char
  | [] => []
  | [x] => x
  | x :: y :: l => x ++ ',' :: commas (y :: l)

/-- How a nested list of tokens is written without blanks. -/
def render : Tree (List Char) → List Char
  | .leaf t => t
  | .node l => '[' :: (commas (go l) ++ [']'])
where
  /-- The texts of the elements. -/
  go : List (Tree (List Char)) → List (List Char)
  | [] => []
  | t :: l => render t :: go l

/-- `s` is `r` with blanks added at arbitrary places. -/
inductive Spaced : List Char → List Char → Prop
  | nil : Spaced [] []
  | blank {r s} : Spaced r s → Spaced r (' ' :: s)
  | keep {r s} (c : Char) : Spaced r s → Spaced (c :: r) (c :: s)

/-- A token: not empty, no brackets, commas or blanks. -/
def Token (t : List Char) : Prop := t ≠ [] ∧ '[' ∉ t ∧ ']' ∉ t ∧ ',' ∉ t ∧ ' ' ∉ t

/-- A single token, a non-empty list of tokens, or a non-empty list of non-empty lists of tokens. -/
inductive Shallow : Tree (List Char) → Prop
  | scalar {t} : Token t → Shallow (.leaf t)
  | flat (l : List (List Char)) : l ≠ [] → (∀ t ∈ l, Token t) → Shallow (.node (l.map .leaf))
  | nested (ll : List (List (List Char))) : ll ≠ [] → (∀ l ∈ ll, l ≠ [] ∧ ∀ t ∈ l, Token t) →
      Shallow (.node (ll.map fun l => .node (l.map .leaf)))

/-- Converting all tokens from left to right; the first failure is the result. -/
def convert {α : Type} (conv : List Char → Except Py.PyErr α) : Tree (List Char) → Except Py.PyErr (Tree α)
  | .leaf t =>
    match conv t with
    | .ok v => .ok (.leaf v)
    | .error e => .error e
  | .node l =>
    match go l with
    | .ok vs => .ok (.node vs)
    | .error e => .error e
where
  /-- The elements from left to right. -/
  go : List (Tree (List Char)) → Except Py.PyErr (List (Tree α))
  | [] => .ok []
  | t :: l =>
    match convert conv t with
    | .error e => .error e
    | .ok v =>
      match go l with
      | .ok vs => .ok (v :: vs)
      | .error e => .error e

end Spec
end Hyvr
