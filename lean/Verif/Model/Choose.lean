import Verif.Py.Err
import Mathlib.Algebra.Order.Field.Basic
import Mathlib.Algebra.BigOperators.Group.List.Basic

/-!
Model of the choice of AE types (hyvr/geo/stratum.py:prob_choose).
-/

namespace Hyvr

open Py

variable {α β : Type} [Field α] [LinearOrder α]

/-- `np.cumsum`. -/
def cumsum : α → List α → List α
  | _, [] => []
  | a, p :: rest => (a + p) :: cumsum (a + p) rest

/-- `np.random.choice(types, p=p)`: numpy raises `ValueError` for a wrong number of probabilities, a negative one or a sum other than 1
(tolerance not modelled), and otherwise returns the entry at `searchsorted(cumsum(p), u, side='right')`, i.e. at the number of
cumulative sums that are at most `u`, the result of `random_sample()` in [0, 1). The division of the cumulative sums by the last of
them, which is 1 in exact arithmetic, is left out. hyvr/geo/stratum.py:8. -/
def npChoice (types : List β) (p : List α) (u : α) : Except PyErr β :=
  if types.length ≠ p.length then .error .valueError
  else if p.any (· < 0) then .error .valueError
  else if p.sum ≠ 1 then .error .valueError
  else match types[((cumsum 0 p).countP (· ≤ u))]? with
    | some t => .ok t
    | none => .error .indexError

/-- `prob_choose`. hyvr/geo/stratum.py:6-8. If the weights sum up to zero the quotients are NaN or infinite and `np.random.choice` raises
`ValueError`. -/
def probChoose (types : List β) (weights : List α) (u : α) : Except PyErr β :=
  if weights.sum = 0 then .error .valueError
  else npChoice types (weights.map (· / weights.sum)) u

end Hyvr
