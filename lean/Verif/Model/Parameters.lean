import Verif.Model.Objects
import Verif.Model.Hydraulics

/-!
Hydraulic parameters of a model generated from an ini-file: how hyvr/geo/model.py:154-293 reads the section `hydraulics`, the
section `model` and the element sections, and one realisation of hyvr/sim.py:34-40 up to the outputs.

Simplification: the entries are read before the first one is used, in the code each when it is used.
-/

namespace Hyvr

open Py

/-- A table `hydraulics[k]` with a number for each facies. hyvr/geo/model.py:200-222, 240-257, 287-289. -/
noncomputable def tableOf (d : Dict) (k : String) : Except PyErr (List ℝ) := do
  let v ← d.get k
  let l ← numsOf v
  return l.map Rat.cast

/-- The correlation lengths of one facies. hyvr/utils.py:486-488. Further numbers are not used. -/
noncomputable def lengthsOf (v : Val) : Except PyErr (ℝ × ℝ × ℝ) := do
  let l ← numsOf v
  match l with
  | a :: b :: c :: _ => return ((a : ℝ), (b : ℝ), (c : ℝ))
  | _ => .error .indexError

/-- A table `hydraulics[k]` with correlation lengths for each facies. hyvr/geo/model.py:202, 211, 242, 251. -/
noncomputable def lengthTable (d : Dict) (k : String) : Except PyErr (List (ℝ × ℝ × ℝ)) := do
  let v ← d.get k
  let l ← pyItems v
  mapPy lengthsOf l

/-- A trend: `None` or the two factors. hyvr/geo/model.py:260-281. -/
noncomputable def factorsOf (d : Dict) (k : String) : Except PyErr (Option (ℝ × ℝ)) := do
  let v ← d.get k
  let t ← trendOf v
  return t.map fun f => ((f.1 : ℝ), (f.2 : ℝ))

/-- The key `hydro`, which only the converted section of an old ini-file has. hyvr/geo/model.py:285, hyvr/input/parameters.py:310. -/
def hydroOf (d : Dict) : Except PyErr (Option (List String)) :=
  match d "hydro" with
  | none => .ok none
  | some v => do
    let l ← pyItems v
    let names ← mapPy nameOf l
    return some names

/-- The section `hydraulics`. hyvr/geo/model.py:200-289. -/
noncomputable def readHydraulics (d : Dict) : Except PyErr HydTables := do
  let hydro ← hydroOf d
  let kh ← tableOf d "k_h"
  let n ← tableOf d "n"
  let kRatio ← tableOf d "k_ratio"
  let sigY ← tableOf d "sig_y"
  let ycorl ← lengthTable d "ycorlengths"
  let sigN ← tableOf d "sig_n"
  let ncorl ← lengthTable d "ncorlengths"
  let kZtrend ← factorsOf d "k_ztrend"
  let kXtrend ← factorsOf d "k_xtrend"
  let nZtrend ← factorsOf d "n_ztrend"
  let nXtrend ← factorsOf d "n_xtrend"
  return { hydro, kh, n, kRatio, sigY, ycorl, sigN, ncorl, kZtrend, kXtrend, nZtrend, nXtrend }

/-- What is read of an AE; `type_params` is the section of its element. hyvr/geo/model.py:231-266. -/
noncomputable def backgroundOf (P : Parsed) (a : AEReal ℝ) : Except PyErr AEBg :=
  match P.elements.lookup a.name with
  | some e => do
    let kZtrend ← factorsOf e.dict "k_ztrend"
    let kXtrend ← factorsOf e.dict "k_xtrend"
    return { num := a.num, bgFacies := a.bgFacies, kZtrend, kXtrend }
  | none => .error .keyError

/-- The arrays `k_iso`, `poros`, `anirat` and `ktensors`. Simplification: `none` stands for a tensor computed with an angle that is NaN.
hyvr/geo/model.py:177-183, 292-293. -/
structure HydData where
  kIso : Arr3 ℝ
  poros : Arr3 ℝ
  anirat : Arr3 ℝ
  ktensors : Arr3 (Option (Matrix (Fin 3) (Fin 3) ℝ))

/-- A number in the place of an angle that may be NaN; the tensor is not modelled if it is. hyvr/geo/model.py:293. -/
noncomputable def angles (A : Arr3 (Option ℝ)) : Arr3 ℝ := fun i j k => (A i j k).getD 0

/-- `model.generate_hydraulic_parameters(hydraulics)` for the model `m` with the arrays `c` of `assign_points`; `field` are the random
fields. hyvr/geo/model.py:56-59, 154-293. -/
noncomputable def hydraulicsOf (P : Parsed) (s : Shape) (m : GenModel ℝ) (field : FieldSource) (c : Cells ℝ) : Except PyErr HydData := do
  let H ← readHydraulics P.hydraulics
  let hv ← P.model.get "heterogeneity"
  let het ← boolOf hv
  let lv ← P.model.get "heterogeneity_level"
  let level ← nameOf lv
  let aes ← mapPy (fun st : StratumReal ℝ => mapPy (backgroundOf P) st.aes) m.strata
  let out ← generateHydraulics s het level H aes field c.ha c.facies c.ae (angles c.azim) (angles c.dip)
  return { kIso := out.kIso, poros := out.poros, anirat := out.anirat
           ktensors := fun i j k => if (c.azim i j k).isSome ∧ (c.dip i j k).isSome then some (out.ktensors i j k) else none }

/-- What a realisation leaves: the generated model, the arrays of `assign_points` and, if they are asked for, the hydraulic parameters.
hyvr/sim.py:36-41. -/
structure Simulation where
  shape : Shape
  model : GenModel ℝ
  cells : Cells ℝ
  params : Option HydData

/-- The hydraulic parameters, if the option `hydraulics` is `True`. hyvr/sim.py:40-41. -/
noncomputable def paramsOf (P : Parsed) (s : Shape) (m : GenModel ℝ) (field : FieldSource) (c : Cells ℝ) : Except PyErr (Option HydData) := do
  let v ← P.model.get "hydraulics"
  if v = .leaf (.bool true) then (hydraulicsOf P s m field c).map some else .ok none

/-- One realisation up to the outputs: `generate_model`, `assign_points` and `generate_hydraulic_parameters`. hyvr/sim.py:36-41,
hyvr/assign_points.py:16-45. -/
noncomputable def simulate (P : Parsed) (ids : List (String × ℕ)) (r : Randoms ℝ) (o : ℕ → ℕ → ObjRandoms) (d : ℕ → StratumDraw ℝ)
    (field : FieldSource) : Except Stop Simulation := do
  let (m, _) ← generateObjects P ids r o d
  let g ← liftErr (readGrid P.model)
  let s : Shape := ⟨g.nx, g.ny, g.nz⟩
  let c := assignPoints m.search (coord g.z) g.nx g.ny g.nz
  let h ← liftErr (paramsOf P s m field c)
  return { shape := s, model := m, cells := c, params := h }

end Hyvr
