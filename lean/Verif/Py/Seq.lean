import Verif.Py.Err
import Mathlib.Data.Int.Notation
import Mathlib.Data.List.Dedup

/-!
Sequence primitives of Python / numpy used by the modelled code. Documented behaviour of the language and of
numpy, not code of /repo (part of the trusted base).
-/

namespace Hyvr
namespace Py

/-- Python `l[i]` on a list: a negative index counts from the end, anything else out of range is an
`IndexError`. Used by e.g. hyvr/geo/model.py:205,211,218. -/
def pyGet {α : Type} (l : List α) (i : ℤ) : Except PyErr α :=
  if 0 ≤ i then
    match l[i.toNat]? with
    | some v => .ok v
    | none => .error .indexError
  else if -(l.length : ℤ) ≤ i then
    match l[(i + l.length).toNat]? with
    | some v => .ok v
    | none => .error .indexError
  else .error .indexError

/-- `np.unique` of an integer array given as a flat list: the distinct values in increasing order. Used by
hyvr/geo/model.py:192-193. -/
def npUnique (l : List ℤ) : List ℤ := l.dedup.mergeSort (fun a b => decide (a ≤ b))

end Py
end Hyvr
