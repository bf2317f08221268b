import Verif.Py.Err
import Mathlib.Data.List.Basic
import Mathlib.Data.Int.Basic

/-!
Model of the generation of layer sequences (hyvr/utils.py:get_alternating_facies) and of the table look-up.
-/

namespace Hyvr

open Py

/-- `np.random.choice(l)` for a list: `ValueError` for an empty list, otherwise some entry. The draw is an arbitrary natural
number, reduced modulo the length, so that all draws are covered. hyvr/utils.py:396, 401, 404,
hyvr/geo/trough.pyx:117, 174. -/
def choice {β : Type} (l : List β) (draw : ℕ) : Except PyErr β :=
  match l[draw % l.length]? with
  | some b => .ok b
  | none => .error .valueError

/-- One layer from the previous one. hyvr/utils.py:398-404: `facies.index(prev)` is a `ValueError` if absent,
`altfacies[fac_idx]` an `IndexError` if the table is too short. -/
def nextFacies (facies : List ℤ) (alt : Option (List (List ℤ))) (prev : ℤ) (draw : ℕ) : Except PyErr ℤ :=
  match alt with
  | some table =>
    if prev ∈ facies then
      match table[facies.idxOf prev]? with
      | some row => choice row draw
      | none => .error .indexError
    else .error .valueError
  | none => choice facies draw

/-- The loop `for i in range(1, num_facies)`, `k` rounds left, `i` the index to fill, `prev` the entry `i-1`.
hyvr/utils.py:398-404. -/
def altLoop (facies : List ℤ) (alt : Option (List (List ℤ))) (draws : ℕ → ℕ) : ℕ → ℕ → ℤ → Except PyErr (List ℤ)
  | 0, _, _ => .ok []
  | k + 1, i, prev => do
    let f ← nextFacies facies alt prev (draws i)
    let rest ← altLoop facies alt draws k (i + 1) f
    return f :: rest

/-- `get_alternating_facies`. hyvr/utils.py:390-405. `np.zeros` of a negative size is a `ValueError`, `facies[0] = ...` on an
empty array an `IndexError`. int32 overflow is not modelled. -/
def altFacies (num : ℤ) (facies : List ℤ) (alt : Option (List (List ℤ))) (draws : ℕ → ℕ) : Except PyErr (List ℤ) :=
  if num < 0 then .error .valueError
  else do
    let f ← choice facies (draws 0)
    if num = 0 then .error .indexError
    else do
      let rest ← altLoop facies alt draws (num.toNat - 1) 1 f
      return f :: rest

/-- The facies of the layers of an object, whose number is calculated by dividing by the layer distance. hyvr/geo/sheet.py:78-79,
hyvr/geo/trough.pyx:171-172, 184-185, hyvr/geo/channel.pyx:99-104. A missing distance (`None`) is 0 here. Simplification: the exception is
always `zeroDivision`; in the code it is a `TypeError` for `None`, and in sheet.py the `OverflowError` of `int(inf)`, as numpy divides there. -/
def layerTable {α : Type} [Zero α] [DecidableEq α] (dist : α) (num : ℤ) (facies : List ℤ) (alt : Option (List (List ℤ)))
    (draws : ℕ → ℕ) : Except PyErr (List ℤ) :=
  if dist = 0 then .error .zeroDivision else altFacies num facies alt draws

/-- Answer of an object's test for a point. `outside n` stands for a read of the facies table at an index `n` not in the table
(undefined behaviour in the compiled code: bounds checks are off, hyvr/geo/trough_ae.pyx:87-90, 196, 288). -/
inductive Answer (α : Type)
  | miss
  | hit (facies : ℤ) (azim dip : α)
  | outside (n : ℤ)
  | error (e : PyErr)

/-- `object_facies_array[oi, n]`. hyvr/geo/trough_ae.pyx:196, 288. Simplification: the code's array is padded with zeros to the
longest table of the AE (hyvr/geo/ae_realization.py:132-140); reading the padding is also counted as outside. -/
def tableHit {α : Type} (table : List ℤ) (n : ℤ) (azim dip : α) : Answer α :=
  if n < 0 then .outside n
  else match table[n.toNat]? with
    | some f => .hit f azim dip
    | none => .outside n

end Hyvr
