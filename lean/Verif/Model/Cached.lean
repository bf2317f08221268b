import Verif.Model.Parameters

/-!
hyvr/assign_points.py with the arrays `dont_check` of the objects, which tests read and write. Only those of channels are ever changed
(hyvr/geo/channel_ae.pyx:219-220, 261-277, 314).
-/

namespace Hyvr

open Py

section Search

variable {α : Type} [LinearOrder α]

/-- The arrays `object_dont_check[oi]` of the AEs `aei` of the strata `si`. hyvr/geo/channel_ae.pyx:35-39. -/
abbrev Store := ℕ → ℕ → ℕ → Cache

/-- All entries 0. hyvr/geo/channel.pyx:41, hyvr/geo/channel_ae.pyx:39, 56-58. -/
def Store.empty : Store := fun _ _ _ => Cache.empty

/-- Replacing the array of one object. -/
def Store.put (K : Store) (si aei oi : ℕ) (k : Cache) : Store := fun a b c => if a = si ∧ b = aei ∧ c = oi then k else K a b c

/-- `ae.maybe_assign_points_to_object`: a marked column is rejected, otherwise the cell is tested; then the marks are updated.
hyvr/geo/channel_ae.pyx:204-316. The test whether the cell is above the channel comes first in the code; it also rejects. -/
def Obj.assignC (o : Obj α) (k : Cache) (xi yi : ℕ) (z : α) (g : Geo α) : Geo α × Cache :=
  (if k xi yi then { g with facies := -1 } else o.assign xi yi z g, o.marks xi yi z k)

/-- The `while oi < n_objects` loop. hyvr/assign_points.py:291-308. -/
def objLoopC (xi yi : ℕ) (z : α) (num typeId : ℤ) (si aei : ℕ) : List (Obj α) → ℕ → Geo α → Store → (Geo α × Option ℕ) × Store
  | [], _, g, K => ((g, none), K)
  | o :: rest, oi, g, K =>
    if z > o.zmax then ((g, none), K)
    else if z < o.zmin then objLoopC xi yi z num typeId si aei rest (oi + 1) g K
    else
      let r := o.assignC (K si aei oi) xi yi z g
      let K' := K.put si aei oi r.2
      if r.1.facies ≠ -1 then (({ r.1 with ae := num, hat := typeId }, some oi), K')
      else objLoopC xi yi z num typeId si aei rest (oi + 1) r.1 K'

/-- `maybe_assign_points_to_ae`. hyvr/assign_points.py:235-329. -/
def assignAEC (a : AE α) (xi yi : ℕ) (z : α) (si aei oi : ℕ) (g : Geo α) (K : Store) : (Geo α × ℕ) × Store :=
  match objLoopC xi yi z a.num a.typeId si aei (a.objs.drop oi) oi g K with
  | ((g', some oi'), K') => ((g', oi'), K')
  | ((g', none), K') =>
    if a.isSheet then ((g', 0), K')
    else if a.bottom xi yi < z ∧ z < a.top xi yi then
      (({ g' with facies := a.bgFacies, azim := a.bgAzim, dip := a.bgDip, ae := a.num, hat := a.typeId }, oi), K')
    else ((g', 0), K')

/-- The `while aei < n_ae` loop. hyvr/assign_points.py:202-231. -/
def aeLoopC (xi yi : ℕ) (z : α) (si : ℕ) : List (AE α) → ℕ → ℕ → Geo α → Store → (Geo α × ℕ × ℕ) × Store
  | [], _, _, g, K => (({ g with facies := -1 }, 0, 0), K)
  | a :: rest, aei, oi, g, K =>
    if z < a.zmin then aeLoopC xi yi z si rest (aei + 1) 0 g K
    else
      let r := assignAEC a xi yi z si aei oi g K
      if r.1.1.facies ≠ -1 then ((r.1.1, aei, r.1.2), r.2)
      else aeLoopC xi yi z si rest (aei + 1) 0 r.1.1 r.2

/-- The `while si < n_strata` loop. hyvr/assign_points.py:113-143. -/
def strataLoopC (xi yi : ℕ) (z : α) : List (Stratum α) → Pos → Geo α → Store → (Option (Geo α × ℕ) × Pos) × Store
  | [], p, _, K => ((none, p), K)
  | s :: rest, p, g, K =>
    if z < s.zmin then strataLoopC xi yi z rest ⟨p.si + 1, 0, 0⟩ g K
    else
      let r := aeLoopC xi yi z p.si (s.aes.drop p.aei) p.aei p.oi g K
      if r.1.1.facies ≠ -1 then ((some (r.1.1, p.si), ⟨p.si, r.1.2.1, r.1.2.2⟩), r.2)
      else strataLoopC xi yi z rest ⟨p.si + 1, 0, 0⟩ r.1.1 r.2

/-- One cell of a column. hyvr/assign_points.py:94-146. -/
def cellStepC (strata : List (Stratum α)) (gridz : ℕ → α) (xi yi : ℕ) (st : (Cells α × Pos) × Store) (zi : ℕ) : (Cells α × Pos) × Store :=
  match strataLoopC xi yi (gridz zi) (strata.drop st.1.2.si) st.1.2 Geo.fresh st.2 with
  | ((some (g, si), p), K) => ((st.1.1.write xi yi zi g si, p), K)
  | ((none, p), K) => ((st.1.1, p), K)

/-- One column. hyvr/assign_points.py:80-146. -/
def columnC (strata : List (Stratum α)) (gridz : ℕ → α) (nz : ℕ) (xi yi : ℕ) (c : Cells α × Store) : Cells α × Store :=
  let r := (List.range nz).reverse.foldl (cellStepC strata gridz xi yi) ((c.1, ⟨0, 0, 0⟩), c.2)
  (r.1.1, r.2)

/-- `assign_points`. hyvr/assign_points.py:16-156. The arrays `dont_check` are those of new objects. -/
def assignPointsC [Zero α] (strata : List (Stratum α)) (gridz : ℕ → α) (nx ny nz : ℕ) : Cells α :=
  ((List.range (nx * ny)).foldl (fun c l => columnC strata gridz nz (l / ny) (l % ny) c) (Cells.init, Store.empty)).1

end Search

/-- Objects whose tests skip nothing by themselves. -/
def ObjRandoms.unskipped (r : ObjRandoms) : ObjRandoms := { r with skip := fun _ _ _ _ => false }

/-- One realisation up to the outputs, the tests of channels skipping what is marked in their arrays. hyvr/sim.py:36-41, hyvr/assign_points.py:16-45. -/
noncomputable def simulateC (P : Parsed) (ids : List (String × ℕ)) (r : Randoms ℝ) (o : ℕ → ℕ → ObjRandoms) (d : ℕ → StratumDraw ℝ)
    (field : FieldSource) : Except Stop Simulation := do
  let (m, _) ← generateObjects P ids r (fun si n => (o si n).unskipped) d
  let g ← liftErr (readGrid P.model)
  let s : Shape := ⟨g.nx, g.ny, g.nz⟩
  let c := assignPointsC m.search (coord g.z) g.nx g.ny g.nz
  let h ← liftErr (paramsOf P s m field c)
  return { shape := s, model := m, cells := c, params := h }

end Hyvr
