import Verif.Model.KTensor
import Mathlib.Order.Defs.LinearOrder

/-!
Model of hyvr/assign_points.py.

Only comparisons of elevations occur here, so elevations are elements of an arbitrary linear order.
NaN in the angle arrays is `none`.
-/

namespace Hyvr

variable {α : Type} [LinearOrder α]

/-- The two containers `geo_ids = [facies, ae, ha, hat]` and `angles = [azim, dip]` that are passed down and altered in
place. hyvr/assign_points.py:68-70, 96-101. -/
structure Geo (α : Type) where
  facies : ℤ
  ae : ℤ
  ha : ℤ
  hat : ℤ
  azim : Option α
  dip : Option α
  deriving DecidableEq

/-- The reset at the start of each cell. hyvr/assign_points.py:96-101. -/
def Geo.fresh : Geo α :=
  { facies := -1, ae := -1, ha := -1, hat := -1, azim := none, dip := none }

/-- What an object writes when a cell is inside it: facies, ha number and the two angles
(hyvr/geo/sheet_ae.py:150-160, trough_ae.pyx:174-292, channel_ae.pyx:281-310). -/
structure Hit (α : Type) where
  facies : ℤ
  ha : ℤ
  azim : Option α
  dip : Option α
  deriving DecidableEq

/-- A geometrical object as seen by the search: vertical range (`object_zmins[oi]`, `object_zmaxs[oi]`) and its
membership test. hyvr/assign_points.py:275-276, 291-300. Simplifications: `x`, `y` are functions of the column
`(x_idx, y_idx)`, hence not passed; the test has no state of its own. The only state of the code is the array `dont_check` of channels: `marks` is what
a test does to it; it is not used here but in `Verif/Model/Cached.lean`, the assignment with these arrays. -/
structure Obj (α : Type) where
  zmin : α
  zmax : α
  test : ℕ → ℕ → α → Option (Hit α)
  marks : ℕ → ℕ → α → (ℕ → ℕ → Bool) → ℕ → ℕ → Bool := fun _ _ _ k => k

/-- An AE realization as seen by the search. hyvr/assign_points.py:272-279, 312-323, hyvr/geo/ae_realization.py:73-108. -/
structure AE (α : Type) where
  zmin : α
  isSheet : Bool
  num : ℤ
  typeId : ℤ
  bgFacies : ℤ
  bgAzim : Option α
  bgDip : Option α
  top : ℕ → ℕ → α
  bottom : ℕ → ℕ → α
  objs : List (Obj α)

/-- A stratum as seen by the search. hyvr/assign_points.py:112-128. -/
structure Stratum (α : Type) where
  zmin : α
  aes : List (AE α)

/-- Effect of `ae.maybe_assign_points_to_object` on the containers: a rejecting test sets `geo_ids[0] = -1` only, an
accepting one sets facies, ha and the angles. hyvr/geo/sheet_ae.py:145-160, trough_ae.pyx:154-292,
channel_ae.pyx:206-316. -/
def Obj.assign (o : Obj α) (xi yi : ℕ) (z : α) (g : Geo α) : Geo α :=
  match o.test xi yi z with
  | none => { g with facies := -1 }
  | some h => { g with facies := h.facies, ha := h.ha, azim := h.azim, dip := h.dip }

/-- The `while oi < n_objects` loop of `maybe_assign_points_to_ae`, on the objects from index `oi` on.
Result: containers and the index at which an object accepted. hyvr/assign_points.py:291-308. -/
def objLoop (xi yi : ℕ) (z : α) (num typeId : ℤ) : List (Obj α) → ℕ → Geo α → Geo α × Option ℕ
  | [], _, g => (g, none)
  | o :: rest, oi, g =>
    if z > o.zmax then (g, none)
    else if z < o.zmin then objLoop xi yi z num typeId rest (oi + 1) g
    else
      let g' := o.assign xi yi z g
      if g'.facies ≠ -1 then ({ g' with ae := num, hat := typeId }, some oi)
      else objLoop xi yi z num typeId rest (oi + 1) g'

/-- `maybe_assign_points_to_ae`. hyvr/assign_points.py:235-329. Returns containers and the object index to resume from. -/
def assignAE (a : AE α) (xi yi : ℕ) (z : α) (oi : ℕ) (g : Geo α) : Geo α × ℕ :=
  match objLoop xi yi z a.num a.typeId (a.objs.drop oi) oi g with
  | (g', some oi') => (g', oi')
  | (g', none) =>
    if a.isSheet then (g', 0)
    else if a.bottom xi yi < z ∧ z < a.top xi yi then
      ({ g' with facies := a.bgFacies, azim := a.bgAzim, dip := a.bgDip, ae := a.num, hat := a.typeId }, oi)
    else (g', 0)

/-- The `while aei < n_ae` loop of `maybe_assign_points_to_stratum`, on the AEs from index `aei` on.
hyvr/assign_points.py:202-231. -/
def aeLoop (xi yi : ℕ) (z : α) : List (AE α) → ℕ → ℕ → Geo α → Geo α × ℕ × ℕ
  | [], _, _, g => ({ g with facies := -1 }, 0, 0)
  | a :: rest, aei, oi, g =>
    if z < a.zmin then aeLoop xi yi z rest (aei + 1) 0 g
    else
      let r := assignAE a xi yi z oi g
      if r.1.facies ≠ -1 then (r.1, aei, r.2)
      else aeLoop xi yi z rest (aei + 1) 0 r.1

/-- `maybe_assign_points_to_stratum`. hyvr/assign_points.py:160-231. -/
def assignStratum (s : Stratum α) (xi yi : ℕ) (z : α) (aei oi : ℕ) (g : Geo α) : Geo α × ℕ × ℕ :=
  aeLoop xi yi z (s.aes.drop aei) aei oi g

/-- The three indices remembered between the cells of a column. hyvr/assign_points.py:90-92. -/
structure Pos where
  si : ℕ
  aei : ℕ
  oi : ℕ
  deriving DecidableEq, Repr

/-- The `while si < n_strata` loop, on the strata from index `si` on. Result: what is written to the arrays (with the
stratum index), if anything, and the indices afterwards. hyvr/assign_points.py:113-143. -/
def strataLoop (xi yi : ℕ) (z : α) : List (Stratum α) → Pos → Geo α → Option (Geo α × ℕ) × Pos
  | [], p, _ => (none, p)
  | s :: rest, p, g =>
    if z < s.zmin then strataLoop xi yi z rest ⟨p.si + 1, 0, 0⟩ g
    else
      let r := assignStratum s xi yi z p.aei p.oi g
      if r.1.facies ≠ -1 then (some (r.1, p.si), ⟨p.si, r.2.1, r.2.2⟩)
      else strataLoop xi yi z rest ⟨p.si + 1, 0, 0⟩ r.1

/-- Body of the loop over the cells of a column: reset the containers and search from the remembered position.
hyvr/assign_points.py:94-146. -/
def assignCell (strata : List (Stratum α)) (xi yi : ℕ) (z : α) (p : Pos) : Option (Geo α × ℕ) × Pos :=
  strataLoop xi yi z (strata.drop p.si) p Geo.fresh

/-- The seven output arrays. hyvr/assign_points.py:45-65, 149-155. -/
structure Cells (α : Type) where
  facies : Arr3 ℤ
  strata : Arr3 ℤ
  ae : Arr3 ℤ
  ha : Arr3 ℤ
  hat : Arr3 ℤ
  azim : Arr3 (Option α)
  dip : Arr3 (Option α)

/-- Initial values. hyvr/assign_points.py:45-65. -/
def Cells.init [Zero α] : Cells α :=
  { facies := fun _ _ _ => 0, strata := fun _ _ _ => 0, ae := fun _ _ _ => -1, ha := fun _ _ _ => -1,
    hat := fun _ _ _ => -1, azim := fun _ _ _ => some 0, dip := fun _ _ _ => some 0 }

/-- The seven array assignments for one cell. hyvr/assign_points.py:131-137. -/
def Cells.write (c : Cells α) (i j k : ℕ) (g : Geo α) (si : ℕ) : Cells α :=
  { facies := c.facies.set i j k g.facies
    azim := c.azim.set i j k g.azim
    dip := c.dip.set i j k g.dip
    ae := c.ae.set i j k g.ae
    ha := c.ha.set i j k g.ha
    hat := c.hat.set i j k g.hat
    strata := c.strata.set i j k si }

/-- One cell of a column. hyvr/assign_points.py:94-146. -/
def cellStep (strata : List (Stratum α)) (gridz : ℕ → α) (xi yi : ℕ) (st : Cells α × Pos) (zi : ℕ) :
    Cells α × Pos :=
  match assignCell strata xi yi (gridz zi) st.2 with
  | (some (g, si), p) => (st.1.write xi yi zi g si, p)
  | (none, p) => (st.1, p)

/-- One column: `for z_idx in range(nz-1, -1, -1)` starting from position (0,0,0). hyvr/assign_points.py:80-146. -/
def column (strata : List (Stratum α)) (gridz : ℕ → α) (nz : ℕ) (xi yi : ℕ) (c : Cells α) : Cells α :=
  ((List.range nz).reverse.foldl (cellStep strata gridz xi yi) (c, ⟨0, 0, 0⟩)).1

/-- `assign_points`: `for loop_idx in range(nx*ny)` with `x_idx = loop_idx // ny`, `y_idx = loop_idx % ny`.
hyvr/assign_points.py:16-156. -/
def assignPoints [Zero α] (strata : List (Stratum α)) (gridz : ℕ → α) (nx ny nz : ℕ) : Cells α :=
  (List.range (nx * ny)).foldl (fun c l => column strata gridz nz (l / ny) (l % ny) c) Cells.init

end Hyvr
