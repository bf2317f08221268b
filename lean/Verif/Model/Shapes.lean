import Verif.Model.ParseList

/-!
Shapes of nested lists, hyvr/input/option_parsing.py:308-441.

A shape is itself a nested list of integers, `Tree ℤ`; a list of per-dimension entries is a `List (Tree ℤ)`.
-/

namespace Hyvr

open Py

mutual
/-- `numdim`: nesting depth, looking at the last element only; `IndexError` on an empty list.
hyvr/input/option_parsing.py:308-318. -/
def numdim {α : Type} : Tree α → Except PyErr ℕ
  | .leaf _ => .ok 0
  | .node l => do
    let d ← numdimLast l
    return 1 + d
/-- `numdim(l[-1])`. hyvr/input/option_parsing.py:318. -/
def numdimLast {α : Type} : List (Tree α) → Except PyErr ℕ
  | [] => .error .indexError
  | [t] => numdim t
  | _ :: t :: l => numdimLast (t :: l)
end

mutual
/-- `_get_shape`. hyvr/input/option_parsing.py:321-328. -/
def shapeTop {α : Type} : Tree α → Except PyErr (Tree ℤ)
  | .leaf _ => .ok (.leaf (-1))
  | .node l => do
    let depth ← numdim (.node l)
    if depth = 1 then return .leaf l.length
    else do
      let s ← shapeTops l
      return .node s
/-- The comprehension in `_get_shape`. hyvr/input/option_parsing.py:328. -/
def shapeTops {α : Type} : List (Tree α) → Except PyErr (List (Tree ℤ))
  | [] => .ok []
  | t :: l => do
    let s ← shapeTop t
    let ss ← shapeTops l
    return s :: ss
end

/-- The loop of `get_shape`, collecting the shapes of the shapes. hyvr/input/option_parsing.py:347-350. -/
def shapeLoop : ℕ → Tree ℤ → List (Tree ℤ) → Except PyErr (List (Tree ℤ))
  | 0, _, shape => .ok shape
  | n + 1, s, shape => do
    let s' ← shapeTop s
    shapeLoop n s' (shape ++ [s'])

/-- `get_shape`: `1` for a single value, a list with one entry per dimension otherwise.
hyvr/input/option_parsing.py:330-350. -/
def getShape {α : Type} (l : Tree α) : Except PyErr (Tree ℤ) := do
  let s ← shapeTop l
  match s with
  | .leaf n =>
    if n = -1 then return .leaf 1 else return .node [.leaf n]
  | .node _ => do
    let n ← numdim s
    let shape ← shapeLoop n s [s]
    return .node shape.reverse

/-- `is_flat`; `all` stops at the first entry that is a list. hyvr/input/option_parsing.py:352-353. -/
def isFlat : List (Tree ℤ) → Except PyErr Bool
  | [] => .ok true
  | t :: l => do
    let d ← numdim t
    if d = 0 then isFlat l else return false

mutual
/-- `unroll`. hyvr/input/option_parsing.py:380-389. At depth one the list itself is returned, whatever it contains. -/
def unroll : Tree ℤ → Except PyErr (List (Tree ℤ))
  | .leaf n => .ok [.leaf n]
  | .node l => do
    let d ← numdim (.node l)
    if d = 1 then return l else unrolls l
/-- The loop of `unroll`. hyvr/input/option_parsing.py:386-389. -/
def unrolls : List (Tree ℤ) → Except PyErr (List (Tree ℤ))
  | [] => .ok []
  | t :: l => do
    let a ← unroll t
    let b ← unrolls l
    return a ++ b
end

/-- Python's `==` of two nested lists of integers. hyvr/input/option_parsing.py:284,360,434. -/
def Tree.beq : Tree ℤ → Tree ℤ → Bool
  | .leaf a, .leaf b => decide (a = b)
  | .node l, .node m => go l m
  | _, _ => false
where
  /-- Elementwise equality of two lists. hyvr/input/option_parsing.py:284. -/
  go : List (Tree ℤ) → List (Tree ℤ) → Bool
  | [], [] => true
  | t :: l, u :: m => Tree.beq t u && go l m
  | _, _ => false

/-- One step of the loop of `try_flattening_shape`. hyvr/input/option_parsing.py:359-363. -/
def flattenStep (t : Tree ℤ) : Except PyErr (Tree ℤ) := do
  let flat ← unroll t
  match flat with
  | [] => .error .indexError
  | a :: l => if (a :: l).all (fun x => Tree.beq x a) then return a else return .leaf (-1)

/-- `try_flattening_shape`. hyvr/input/option_parsing.py:355-364. The loop visits `shape[1] … shape[depth-1]`. -/
def tryFlattening (shape : List (Tree ℤ)) : Except PyErr (List (Tree ℤ)) := do
  let depth ← numdim (.node shape)
  let first ← pyGet shape 0
  let rest ← mapPy (fun i : ℕ => do
    let t ← pyGet shape (i : ℤ)
    flattenStep t) ((List.range (depth - 1)).map (· + 1))
  return first :: rest

/-- `l[i] = v` on a Python list, negative indices counting from the end. hyvr/input/option_parsing.py:374. -/
def pySet {α : Type} (l : List α) (i : ℤ) (v : α) : Except PyErr (List α) :=
  if 0 ≤ i then
    if i < l.length then .ok (l.set i.toNat v) else .error .indexError
  else if -(l.length : ℤ) ≤ i then .ok (l.set (i + l.length).toNat v)
  else .error .indexError

/-- One pass of the loop of `get_positive_shape`. hyvr/input/option_parsing.py:373-374. -/
def positiveStep (file : List (Tree ℤ)) (shape : List (Tree ℤ)) (i : ℕ) : Except PyErr (List (Tree ℤ)) := do
  let t ← pyGet shape ((shape.length : ℤ) - 1 - i)
  if Tree.beq t (.leaf (-1)) then do
    let f ← pyGet file ((file.length : ℤ) - 1 - i)
    pySet shape ((shape.length : ℤ) - 1 - i) f
  else return shape

/-- `get_positive_shape`. hyvr/input/option_parsing.py:366-375. -/
def positiveShape (shape file : List (Tree ℤ)) : Except PyErr (List (Tree ℤ)) :=
  (List.range file.length).foldlM (positiveStep file) shape

/-- An integer used as a repetition count; other values are a `TypeError`. hyvr/input/option_parsing.py:403,405. -/
def repeatCount : Tree ℤ → Except PyErr ℕ
  | .leaf n => .ok n.toNat
  | .node _ => .error .typeError

/-- The inner loop of `expand_shape` over `j`. hyvr/input/option_parsing.py:404-405. -/
def expandInner (shape : List (Tree ℤ)) (next : Tree ℤ) (j : ℕ) : Except PyErr (Tree ℤ) := do
  let t ← pyGet shape (j : ℤ)
  let c ← repeatCount t
  return .node (List.replicate c next)

/-- One pass of the outer loop of `expand_shape`. hyvr/input/option_parsing.py:403-406. -/
def expandEntry (shape : List (Tree ℤ)) (i : ℕ) : Except PyErr (Tree ℤ) := do
  let t ← pyGet shape (i : ℤ)
  let p ← pyGet shape ((i : ℤ) - 1)
  let c ← repeatCount p
  ((List.range (i - 1)).map (· + 1)).foldlM (expandInner shape) (.node (List.replicate c t))

/-- `expand_shape`. hyvr/input/option_parsing.py:392-407. -/
def expandShape (shape : List (Tree ℤ)) : Except PyErr (List (Tree ℤ)) := do
  let first ← pyGet shape 0
  let rest ← mapPy (expandEntry shape) ((List.range (shape.length - 1)).map (· + 1))
  return first :: rest

/-- `_expand_to_shape`. hyvr/input/option_parsing.py:415-420. -/
def expandInto {α : Type} (value : Tree α) : Tree ℤ → Tree α
  | .leaf n => .node (List.replicate n.toNat value)
  | .node l => .node (go l)
where
  /-- The comprehension of `_expand_to_shape`. hyvr/input/option_parsing.py:420. -/
  go : List (Tree ℤ) → List (Tree α)
  | [] => []
  | s :: l => expandInto value s :: go l

/-- `expand_to_shape`. hyvr/input/option_parsing.py:409-413. -/
def expandToShape {α : Type} (shape : List (Tree ℤ)) (value : Tree α) : Except PyErr (Tree α) := do
  let depth ← numdim value
  if depth ≠ shape.length then do
    let s ← pyGet shape (-1 - (depth : ℤ))
    return expandInto value s
  else return value

/-- The test of one entry in `compare_shapes`. hyvr/input/option_parsing.py:434. -/
def entriesAgree (a b : Tree ℤ) : Bool :=
  Tree.beq a b || Tree.beq a (.leaf (-1)) || Tree.beq b (.leaf (-1))

/-- `compare_shapes`. hyvr/input/option_parsing.py:422-436. -/
def compareShapes (s1 s2 : Tree ℤ) : Except PyErr Bool := do
  let d1 ← numdim s1
  let d2 ← numdim s2
  if d1 ≠ d2 then return false
  else do
    let l1 ← unroll s1
    let l2 ← unroll s2
    if l1.length ≠ l2.length then return false
    else return (l1.zip l2).all fun p => entriesAgree p.1 p.2

end Hyvr
