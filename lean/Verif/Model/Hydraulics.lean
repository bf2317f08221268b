import Verif.Model.Masks
import Verif.Py.Num
import Mathlib.Analysis.SpecialFunctions.Exp

/-!
Model of `Model.generate_hydraulic_parameters`, hyvr/geo/model.py:154-293.
-/

namespace Hyvr

open Py

/-- The parsed `[hydraulics]` section. `hydro` is the list of facies names; the section of a new-format file has no
such key (hyvr/input/options.py:147-168), which is `none` here. hyvr/geo/model.py:154-293 lists the keys used.
Simplification: correlation lengths are triples and trends pairs, as the parser produces them. -/
structure HydTables where
  hydro : Option (List String)
  kh : List ℝ
  n : List ℝ
  kRatio : List ℝ
  sigY : List ℝ
  ycorl : List (ℝ × ℝ × ℝ)
  sigN : List ℝ
  ncorl : List (ℝ × ℝ × ℝ)
  kZtrend : Option (ℝ × ℝ)
  kXtrend : Option (ℝ × ℝ)
  nZtrend : Option (ℝ × ℝ)
  nXtrend : Option (ℝ × ℝ)

/-- What the method reads of an architectural element. hyvr/geo/model.py:231-266. -/
structure AEBg where
  num : ℤ
  bgFacies : ℤ
  kZtrend : Option (ℝ × ℝ)
  kXtrend : Option (ℝ × ℝ)

/-- An array known under two names: `stored` is `self.data[...]`, `loc` the local variable, and `same` says whether both
still name one object. hyvr/geo/model.py:177-188,266,274,281. -/
structure Aliased where
  stored : Arr3 ℝ
  loc : Arr3 ℝ
  same : Bool

/-- An in-place change of the local array to the contents `A`. hyvr/geo/model.py:206,214,218,245,263. -/
def Aliased.write (a : Aliased) (A : Arr3 ℝ) : Aliased :=
  if a.same then ⟨A, A, true⟩ else ⟨a.stored, A, false⟩

/-- Binding the local name to a new array with contents `A`. hyvr/geo/model.py:266,274,281. -/
def Aliased.rebind (a : Aliased) (A : Arr3 ℝ) : Aliased := ⟨a.stored, A, false⟩

/-- Local state of the method: the three arrays and the number of `specsim` calls so far (the random numbers of
different calls differ). hyvr/geo/model.py:186-188. -/
structure HydState where
  k : Aliased
  n : Aliased
  anirat : Arr3 ℝ
  calls : ℕ

/-- The random field of one call of `specsim`: number of the call, variance, correlation lengths and box give the field
on the box. hyvr/utils.py:411-521; arbitrary here, constructed in Model/Specsim.lean. -/
abbrev FieldSource := ℕ → ℝ → ℝ × ℝ × ℝ → Box → Arr3 ℝ

/-- Conductivity and porosity with internal heterogeneity for the cells of a mask, parameters of facies `fi`.
hyvr/geo/model.py:199-214 (objects) and, with the same statements, 239-254 (background). -/
noncomputable def internalFill (s : Shape) (H : HydTables) (field : FieldSource) (m : Arr3 Bool) (fi : ℤ)
    (st : HydState) : Except PyErr HydState := do
  let sy ← pyGet H.sigY fi
  let cy ← pyGet H.ycorl fi
  let kFlat ← specsimMasked s m (field st.calls sy cy)
  let kh ← pyGet H.kh fi
  let kNew ← maskScatter s m (kFlat.map fun y => Real.exp y * kh) st.k.loc
  let sn ← pyGet H.sigN fi
  let cn ← pyGet H.ncorl fi
  let nFlat ← specsimMasked s m (field (st.calls + 1) sn cn)
  let n ← pyGet H.n fi
  let nNew ← maskScatter s m (nFlat.map fun y => y + n) st.n.loc
  return { st with k := st.k.write kNew, n := st.n.write nNew, calls := st.calls + 2 }

/-- The three cases of the level of heterogeneity for the cells of one mask. hyvr/geo/model.py:196-219. -/
noncomputable def levelFill (s : Shape) (level : String) (H : HydTables) (field : FieldSource) (m : Arr3 Bool) (fi : ℤ)
    (st : HydState) : Except PyErr HydState :=
  if level = "internal" then internalFill s H field m fi st
  else if level = "facies" then do
    let kh ← pyGet H.kh fi
    let n ← pyGet H.n fi
    return { st with k := st.k.write (maskFill m kh st.k.loc), n := st.n.write (maskFill m n st.n.loc) }
  else .ok st

/-- Body of the two nested loops over `ha` and facies values. hyvr/geo/model.py:194-222. -/
noncomputable def hetStep (s : Shape) (level : String) (H : HydTables) (field : FieldSource) (ha fac : Arr3 ℤ)
    (st : HydState) (p : ℤ × ℤ) : Except PyErr HydState := do
  let m : Arr3 Bool := fun i j k => decide (ha i j k = p.1) && decide (fac i j k = p.2)
  let st ← levelFill s level H field m p.2 st
  let r ← pyGet H.kRatio p.2
  return { st with anirat := maskFill m r st.anirat }

/-- The pairs the two nested loops run through. hyvr/geo/model.py:192-193. -/
def hetPairs (s : Shape) (ha fac : Arr3 ℤ) : List (ℤ × ℤ) :=
  (npUnique ((cells s).map fun c => ha c.1 c.2.1 c.2.2)).flatMap fun mi =>
    (npUnique (maskGather s (fun i j k => decide (ha i j k = mi)) fac)).map fun fi => (mi, fi)

/-- Factor of layer (column) `q` of a trend, `np.linspace(*trend, n)[q]`. hyvr/geo/model.py:262,265. -/
noncomputable def trendFactor (t : ℝ × ℝ) (n q : ℕ) : ℝ := (linspace t.1 t.2 n).getD q 0

/-- `arr *= zf_vec`: in place, broadcast along the last axis. hyvr/geo/model.py:260-263,269-271,276-278. -/
noncomputable def applyZ (s : Shape) (t : Option (ℝ × ℝ)) (a : Aliased) : Aliased :=
  match t with
  | none => a
  | some t => a.write fun i j k => a.loc i j k * trendFactor t s.nz k

/-- `arr = np.transpose(arr.transpose() * xf_vec)`: a new array. hyvr/geo/model.py:264-266,272-274,279-281. -/
noncomputable def applyX (s : Shape) (t : Option (ℝ × ℝ)) (a : Aliased) : Aliased :=
  match t with
  | none => a
  | some t => a.rebind fun i j k => a.loc i j k * trendFactor t s.nx i

/-- Body of the loop over architectural elements. hyvr/geo/model.py:230-266. -/
noncomputable def bgStep (s : Shape) (H : HydTables) (field : FieldSource) (ha ae : Arr3 ℤ) (st : HydState)
    (e : AEBg) : Except PyErr HydState := do
  let m : Arr3 Bool := fun i j k => decide (ha i j k = 0) && decide (ae i j k = e.num)
  if maskCells s m = [] then return st
  else
    let st ← internalFill s H field m e.bgFacies st
    let r ← pyGet H.kRatio e.bgFacies
    let st : HydState := { st with anirat := maskFill m r st.anirat }
    return { st with k := applyX s e.kXtrend (applyZ s e.kZtrend st.k) }

/-- The heterogeneous branch. hyvr/geo/model.py:190-281. -/
noncomputable def hetBranch (s : Shape) (level : String) (H : HydTables) (strata : List (List AEBg))
    (field : FieldSource) (ha fac ae : Arr3 ℤ) (st : HydState) : Except PyErr HydState := do
  let st ← (hetPairs s ha fac).foldlM (hetStep s level H field ha fac) st
  if level = "internal" then
    let st ← strata.foldlM (fun st aes => aes.foldlM (bgStep s H field ha ae) st) st
    return { st with k := applyX s H.kXtrend (applyZ s H.kZtrend st.k),
                     n := applyX s H.nXtrend (applyZ s H.nZtrend st.n) }
  else return st

/-- Loop body of the homogeneous branch. hyvr/geo/model.py:286-289. -/
noncomputable def homStep (H : HydTables) (fac : Arr3 ℤ) (st : HydState) (idx : ℕ) : Except PyErr HydState := do
  let m : Arr3 Bool := fun i j k => decide (fac i j k = (idx : ℤ))
  let kh ← pyGet H.kh idx
  let n ← pyGet H.n idx
  let r ← pyGet H.kRatio idx
  return { st with k := st.k.write (maskFill m kh st.k.loc), n := st.n.write (maskFill m n st.n.loc),
                   anirat := maskFill m r st.anirat }

/-- The homogeneous branch; `KeyError` without the key `hydro`. hyvr/geo/model.py:283-289. -/
noncomputable def homBranch (H : HydTables) (fac : Arr3 ℤ) (st : HydState) : Except PyErr HydState :=
  match H.hydro with
  | none => .error .keyError
  | some names => (List.range names.length).foldlM (homStep H fac) st

/-- The arrays in `self.data` after the call. hyvr/geo/model.py:177-183,292-293. -/
structure HydOut where
  kIso : Arr3 ℝ
  poros : Arr3 ℝ
  anirat : Arr3 ℝ
  ktensors : Arr3 (Matrix (Fin 3) (Fin 3) ℝ)

/-- The initial arrays. hyvr/geo/model.py:177-188. -/
def HydState.init : HydState :=
  ⟨⟨fun _ _ _ => 0, fun _ _ _ => 0, true⟩, ⟨fun _ _ _ => 0, fun _ _ _ => 0, true⟩, fun _ _ _ => 1, 0⟩

/-- The choice between the two branches. hyvr/geo/model.py:190-289. -/
noncomputable def hydBranch (s : Shape) (het : Bool) (level : String) (H : HydTables) (strata : List (List AEBg))
    (field : FieldSource) (ha fac ae : Arr3 ℤ) : Except PyErr HydState :=
  if het then hetBranch s level H strata field ha fac ae HydState.init
  else homBranch H fac HydState.init

/-- `Model.generate_hydraulic_parameters`, hyvr/geo/model.py:154-293. Angles are stored in degrees and converted at line
293; the tensors are computed from the local `k_iso`. -/
noncomputable def generateHydraulics (s : Shape) (het : Bool) (level : String) (H : HydTables)
    (strata : List (List AEBg)) (field : FieldSource) (ha fac ae : Arr3 ℤ) (azim dip : Arr3 ℝ) :
    Except PyErr HydOut := do
  let st ← hydBranch s het level H strata field ha fac ae
  return { kIso := st.k.stored, poros := st.n.stored, anirat := st.anirat,
           ktensors := setAnisotropicKTensor s.nx s.ny s.nz (fun _ _ _ => 0) st.k.loc
             (fun i j k => azim i j k * Real.pi / 180) (fun i j k => dip i j k * Real.pi / 180) st.anirat }

end Hyvr
