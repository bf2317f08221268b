import Verif.Lemmas.SkipGen
import Verif.Lemmas.Near

/-!
Generation and assignment of points in another unit of length (C125).
-/

namespace Hyvr

open Py

variable {c : ℝ}

/-! ### Scaled data -/

def Surface.scale (c : ℝ) (s : Surface ℝ) : Surface ℝ := { vals := fun i j => c * s.vals i j, zmean := c * s.zmean, zmin := c * s.zmin, zmax := c * s.zmax }

def Heap.scale (c : ℝ) (h : Heap ℝ) : Heap ℝ := { h with get := fun r => (h.get r).scale c }

section
variable {K : Type} [Field K]

def ContactModel.scale (c : K) (m : ContactModel K) : ContactModel K :=
  { mode := m.mode, z := m.z.map (c * ·), var := m.var.map (c ^ 2 * ·), corlx := m.corlx.map (c * ·), corly := m.corly.map (c * ·) }

open Classical in
noncomputable def ElemParams.scale (c : K) (t : ElemParams K) : ElemParams K := { t with lensThickness := if t.lensThickness = -1 then -1 else c * t.lensThickness }

/-- The number -1, which stands for the whole thickness of the AE, does not come from another thickness. -/
def ElemParams.Safe (c : K) (t : ElemParams K) : Prop := t.lensThickness ≠ -1 → c * t.lensThickness ≠ -1

def StratumParams.scale (c : K) (s : StratumParams K) : StratumParams K := { s with aeZMean := s.aeZMean.map (c * ·) }

noncomputable def StrataDict.scale (c : K) (sd : StrataDict K) : StrataDict K :=
  { n := sd.n, contacts := sd.contacts.map (ContactModel.scale c), params := sd.params.map (StratumParams.scale c)
    types := sd.types.map fun ts => ts.map (ElemParams.scale c) }

def GridZ.scale (c : K) (g : GridZ K) : GridZ K := { z0 := c * g.z0, lz := c * g.lz }

end

noncomputable def GObj.scale (c : ℝ) (o : GObj ℝ) : GObj ℝ :=
  { zmin := c * o.zmin, zmax := c * o.zmax, answer := fun i j z => o.answer i j (z / c), numHa := o.numHa, marks := fun i j z k => o.marks i j (z / c) k }

def Extent.scale (c : ℝ) (e : Extent ℝ) : Extent ℝ := { zmin := c * e.zmin, zmax := c * e.zmax }

noncomputable def AEReal.scale (c : ℝ) (a : AEReal ℝ) : AEReal ℝ := { a with ext := a.ext.scale c, objs := a.objs.map (GObj.scale c) }

noncomputable def StratumReal.scale (c : ℝ) (s : StratumReal ℝ) : StratumReal ℝ := { s with ext := s.ext.scale c, aes := s.aes.map (AEReal.scale c) }

noncomputable def GenModel.scale (c : ℝ) (m : GenModel ℝ) : GenModel ℝ := { heap := m.heap.scale c, strata := m.strata.map (StratumReal.scale c) }

def SheetRaw.scale (c : ℝ) (s : SheetRaw ℝ) : SheetRaw ℝ := { s with zmin := c * s.zmin, zmax := c * s.zmax, zmean := c * s.zmean }

noncomputable def Payload.scale (c : ℝ) (p : Payload ℝ) : Payload ℝ := fun i j z => p i j (z / c)

noncomputable def scaleObjs (c : ℝ) (x : Option (Except PyErr (List (GObj ℝ)))) : Option (Except PyErr (List (GObj ℝ))) :=
  x.map fun e => e.map (List.map (GObj.scale c))

structure ScaledDraw (c : ℝ) (d d' : AEDraw ℝ) : Prop where
  height : d'.height = c * d.height
  avulU : d'.avulU = d.avulU
  avulAmt : d'.avulAmt = c * d.avulAmt
  next : d'.next = d.next
  field : ∀ i j, d'.field i j = c * d.field i j
  sheetFuel : d'.sheetFuel = d.sheetFuel
  objs : ∀ fuel t b tp, d'.objs fuel (t.scale c) (b.scale c) (tp.scale c) = scaleObjs c (d.objs fuel t b tp)
  sheet : ∀ t n z, d'.sheet (t.scale c) n (c * z) = (d.sheet t n z).map (Payload.scale c)

structure ScaledStratumDraw (c : ℝ) (d d' : StratumDraw ℝ) : Prop where
  field : ∀ i j, d'.field i j = c * d.field i j
  first : d'.first = d.first
  fuel : d'.fuel = d.fuel
  aes : ∀ n, ScaledDraw c (d.aes n) (d'.aes n)

/-! ### Surfaces -/

theorem min?_scale (hc : 0 < c) (l : List ℝ) : (l.map (c * ·)).min? = l.min?.map (c * ·) := by
  cases l with
  | nil => rfl
  | cons a l =>
    rw [List.map_cons, List.min?_cons', List.min?_cons', Option.map_some, List.foldl_map]
    congr 1
    exact (List.foldl_hom (c * ·) fun x y => (mul_min_of_nonneg _ _ hc.le).symm)

theorem max?_scale (hc : 0 < c) (l : List ℝ) : (l.map (c * ·)).max? = l.max?.map (c * ·) := by
  cases l with
  | nil => rfl
  | cons a l =>
    rw [List.map_cons, List.max?_cons', List.max?_cons', Option.map_some, List.foldl_map]
    congr 1
    exact (List.foldl_hom (c * ·) fun x y => (mul_max_of_nonneg _ _ hc.le).symm)

theorem entries_scale (nx ny : ℕ) (v : ℕ → ℕ → ℝ) : entries nx ny (fun i j => c * v i j) = (entries nx ny v).map (c * ·) := by
  unfold entries
  rw [List.map_flatMap]
  congr 1
  funext i
  rw [List.map_map]
  rfl

theorem npMin_scale (hc : 0 < c) (nx ny : ℕ) (v : ℕ → ℕ → ℝ) : npMin nx ny (fun i j => c * v i j) = (npMin nx ny v).map (c * ·) := by
  unfold npMin
  rw [entries_scale, min?_scale hc]
  cases (entries nx ny v).min? <;> rfl

theorem npMax_scale (hc : 0 < c) (nx ny : ℕ) (v : ℕ → ℕ → ℝ) : npMax nx ny (fun i j => c * v i j) = (npMax nx ny v).map (c * ·) := by
  unfold npMax
  rw [entries_scale, max?_scale hc]
  cases (entries nx ny v).max? <;> rfl

theorem npMean_scale (nx ny : ℕ) (v : ℕ → ℕ → ℝ) : npMean nx ny (fun i j => c * v i j) = c * npMean nx ny v := by
  unfold npMean
  rw [entries_scale, List.sum_map_mul_left, List.map_id', mul_div_assoc]

theorem Surface.init_scale (hc : 0 < c) (nx ny : ℕ) (cm : ContactModel ℝ) {f f' : ℕ → ℕ → ℝ} (hf : ∀ i j, f' i j = c * f i j) :
    Surface.init nx ny (cm.scale c) f' = (Surface.init nx ny cm f).map (Surface.scale c) := by
  unfold Surface.init ContactModel.scale
  dsimp only
  cases cm.z with
  | none => rfl
  | some z =>
    have e : (fun i j => f' i j + c * z * 1) = fun i j => c * (f i j + z * 1) := by
      funext i j
      rw [hf]
      ring
    dsimp only [Option.map_some]
    simp only [Option.isNone_map, e]
    split_ifs
    · rfl
    · refine map_bind_map (npMax_scale hc _ _ _) fun zmax _ => map_bind_map (npMin_scale hc _ _ _) fun zmin _ => ?_
      rw [npMean_scale]
      rfl
    · simp only [Except.map, Surface.scale, mul_assoc]
    · rfl

theorem Heap.scale_update (h : Heap ℝ) (r : ℕ) (s : Surface ℝ) :
    ({ h with get := Function.update h.get r s } : Heap ℝ).scale c = { h.scale c with get := Function.update (h.scale c).get r (s.scale c) } := by
  unfold Heap.scale
  dsimp only
  congr 1
  exact Function.comp_update (Surface.scale c) h.get r s

theorem Heap.create_scale (hc : 0 < c) (h : Heap ℝ) (cm : ContactModel ℝ) {f f' : ℕ → ℕ → ℝ} (hf : ∀ i j, f' i j = c * f i j) :
    (h.scale c).create (cm.scale c) f' = (h.create cm f).map fun x => (x.1.scale c, x.2) := by
  unfold Heap.create
  refine map_bind_map (Surface.init_scale hc _ _ _ hf) fun s _ => ?_
  have := Heap.scale_update (c := c) { h with next := h.next + 1 } h.next s
  exact congrArg (fun x => Except.ok (x, h.next)) this.symm

theorem Heap.setVal_scale (h : Heap ℝ) (s i j : ℕ) (v : ℝ) : (h.scale c).setVal s i j (c * v) = (h.setVal s i j v).scale c := by
  unfold Heap.setVal
  dsimp only
  rw [Heap.scale_update]
  congr 2
  unfold Surface.scale Heap.scale
  dsimp only
  congr 1
  funext i' j'
  dsimp only [Surface.scale]
  split_ifs <;> rfl

theorem Heap.lowerLoop_scale (hc : 0 < c) (h : Heap ℝ) (s o : ℕ) : (h.scale c).lowerLoop s o = (h.lowerLoop s o).scale c := by
  unfold Heap.lowerLoop
  refine List.foldl_hom (Heap.scale c) fun h i => List.foldl_hom (Heap.scale c) fun h j => ?_
  have : ((h.scale c).get s).vals i j > ((h.scale c).get o).vals i j ↔ (h.get s).vals i j > (h.get o).vals i j := mul_lt_mul_iff_right₀ hc
  by_cases hlt : (h.get s).vals i j > (h.get o).vals i j
  · rw [if_pos hlt, if_pos (this.2 hlt)]
    exact Heap.setVal_scale h s i j _
  · rw [if_neg hlt, if_neg (mt this.1 hlt)]

theorem Heap.higherLoop_scale (hc : 0 < c) (h : Heap ℝ) (s o : ℕ) : (h.scale c).higherLoop s o = (h.higherLoop s o).scale c := by
  unfold Heap.higherLoop
  refine List.foldl_hom (Heap.scale c) fun h i => List.foldl_hom (Heap.scale c) fun h j => ?_
  have : ((h.scale c).get s).vals i j < ((h.scale c).get o).vals i j ↔ (h.get s).vals i j < (h.get o).vals i j := mul_lt_mul_iff_right₀ hc
  by_cases hlt : (h.get s).vals i j < (h.get o).vals i j
  · rw [if_pos hlt, if_pos (this.2 hlt)]
    exact Heap.setVal_scale h s i j _
  · rw [if_neg hlt, if_neg (mt this.1 hlt)]

theorem Heap.useLower_scale (hc : 0 < c) (h : Heap ℝ) (s o : ℕ) : (h.scale c).useLower s o = (h.useLower s o).map (Heap.scale c) := by
  unfold Heap.useLower
  dsimp only
  rw [Heap.lowerLoop_scale hc]
  refine map_bind_map (npMin_scale hc _ _ _) fun m _ => ?_
  exact congrArg Except.ok (Heap.scale_update (c := c) (h.lowerLoop s o) s { (h.lowerLoop s o).get s with zmin := m }).symm

theorem Heap.useHigher_scale (hc : 0 < c) (h : Heap ℝ) (s o : ℕ) : (h.scale c).useHigher s o = (h.useHigher s o).map (Heap.scale c) := by
  unfold Heap.useHigher
  dsimp only
  rw [Heap.higherLoop_scale hc]
  refine map_bind_map (npMax_scale hc _ _ _) fun m _ => ?_
  exact congrArg Except.ok (Heap.scale_update (c := c) (h.higherLoop s o) s { (h.higherLoop s o).get s with zmax := m }).symm

theorem liftErr_thru {β γ : Type} (x : Except PyErr β) (f : β → γ) : liftErr (x.map f) = (liftErr x).map f := by cases x <;> rfl

theorem flat_scale (z : ℝ) : (ContactModel.flat z).scale c = ContactModel.flat (c * z) := rfl

/-! ### Sheets -/

theorem Extent.add_scale (hc : 0 < c) (e : Extent ℝ) (a b : ℝ) : (e.scale c).add (c * a) (c * b) = (e.add a b).scale c := by
  unfold Extent.add Extent.scale
  simp only [mul_lt_mul_iff_right₀ hc, gt_iff_lt, mul_ite]

theorem interp2_scale (hc : 0 < c) (x x0 x1 y0 y1 : ℝ) : interp2 (c * x) (c * x0) (c * x1) y0 y1 = interp2 x x0 x1 y0 y1 := by
  unfold interp2
  simp only [mul_le_mul_iff_right₀ hc, ← mul_sub, mul_assoc, mul_div_mul_left _ _ hc.ne']

theorem sheetThickness_scale (hc : 0 < c) (g : GridZ ℝ) {t : ElemParams ℝ} (ht : t.Safe c) (e : Extent ℝ) :
    sheetThickness (g.scale c) (t.scale c) (e.scale c) = c * sheetThickness g t e := by
  unfold sheetThickness
  by_cases h : t.lensThickness = -1
  · have h' : (t.scale c).lensThickness = -1 := if_pos h
    rw [if_pos h, if_pos h', mul_sub]
    rfl
  · have h' : (t.scale c).lensThickness = c * t.lensThickness := if_neg h
    rw [if_neg h, h', if_neg (ht h), show (t.scale c).sizeZtrend = t.sizeZtrend from rfl]
    cases t.sizeZtrend with
    | none => rfl
    | some f =>
      dsimp only
      have e1 : ((e.scale c).zmin + (e.scale c).zmax) / 2 = c * ((e.zmin + e.zmax) / 2) := by
        unfold Extent.scale
        ring
      have e2 : (g.scale c).zmax = c * g.zmax := by
        unfold GridZ.zmax GridZ.scale
        ring
      rw [e1, e2, show (g.scale c).z0 = c * g.z0 from rfl, interp2_scale hc, mul_assoc]

theorem SheetRaw.new_scale (h : Heap ℝ) (b tp : ℕ) : SheetRaw.new (h.scale c) b tp = (SheetRaw.new h b tp).scale c := rfl

theorem sheetLoop_scale (hc : 0 < c) (aeBottom : ℕ) (th : ℝ) (fuel : ℕ) (h : Heap ℝ) (zb : ℝ) (top : ℕ) (e : Extent ℝ) :
    sheetLoop aeBottom (c * th) fuel (h.scale c) (c * zb) top (e.scale c) =
      (sheetLoop aeBottom th fuel h zb top e).map fun x => (x.1.scale c, x.2.1.scale c, x.2.2.map (SheetRaw.scale c)) := by
  induction fuel generalizing h zb top e with
  | zero => rfl
  | succ fuel ih =>
    unfold sheetLoop
    have : c * zb > (e.scale c).zmin ↔ zb > e.zmin := mul_lt_mul_iff_right₀ hc
    by_cases hz : zb > e.zmin
    · rw [if_pos hz, if_pos (this.2 hz), ← flat_scale]
      refine map_bind_map (F := fun x : Heap ℝ × ℕ => (x.1.scale c, x.2)) ?_ fun x _ => ?_
      · rw [← liftErr_thru, Heap.create_scale hc h _ (f := fun _ _ => 0) fun _ _ => by rw [mul_zero]]
      refine map_bind_map (F := Heap.scale c) ?_ fun h2 _ => ?_
      · rw [← liftErr_thru, Heap.useLower_scale hc]
      refine map_bind_map (F := Heap.scale c) ?_ fun h3 _ => ?_
      · rw [← liftErr_thru, Heap.useHigher_scale hc]
      rw [← mul_sub, SheetRaw.new_scale]
      refine map_bind_map (F := fun x : Heap ℝ × Extent ℝ × List (SheetRaw ℝ) => (x.1.scale c, x.2.1.scale c, x.2.2.map (SheetRaw.scale c))) ?_ fun r _ => rfl
      rw [← ih, ← Extent.add_scale hc]
      rfl
    · rw [if_neg hz, if_neg (mt this.1 hz)]
      have := Extent.add_scale hc e (SheetRaw.new h aeBottom top).zmin (SheetRaw.new h aeBottom top).zmax
      exact congrArg (fun x => Except.ok (h.scale c, x, [(SheetRaw.new h aeBottom top).scale c])) this

theorem SheetRaw.toObj_scale (hc : 0 < c) (h : Heap ℝ) (p : Payload ℝ) (s : SheetRaw ℝ) :
    (s.scale c).toObj (h.scale c) (Payload.scale c p) = (s.toObj h p).scale c := by
  unfold SheetRaw.toObj GObj.scale
  dsimp only
  congr 1
  funext i j z
  have h1 : z < ((h.scale c).get (s.scale c).bottom).vals i j ↔ z / c < (h.get s.bottom).vals i j := (div_lt_iff₀' hc).symm
  have h2 : z > ((h.scale c).get (s.scale c).top).vals i j ↔ z / c > (h.get s.top).vals i j := (lt_div_iff₀' hc).symm
  simp only [h1, h2]
  rfl

theorem sheetObjs_scale (hc : 0 < c) {mk mk' : ℕ → ℝ → Except PyErr (Payload ℝ)} (hm : ∀ n z, mk' n (c * z) = (mk n z).map (Payload.scale c)) (h : Heap ℝ) (n : ℕ)
    (l : List (SheetRaw ℝ)) : sheetObjs (h.scale c) mk' n (l.map (SheetRaw.scale c)) = (sheetObjs h mk n l).map (List.map (GObj.scale c)) := by
  induction l generalizing n with
  | nil => rfl
  | cons s l ih =>
    rw [List.map_cons]
    unfold sheetObjs
    refine map_bind_map (hm n s.zmean) fun p _ => map_bind_map (ih (n + 1)) fun os _ => ?_
    rw [SheetRaw.toObj_scale hc]
    rfl

/-! ### AEs and strata -/

theorem ext_scale {β : Type} (hc : 0 < c) {F : β → β} {lo hi : β → ℝ} (h1 : ∀ b, lo (F b) = c * lo b) (h2 : ∀ b, hi (F b) = c * hi b) (l : List β) (e : Extent ℝ) :
    (l.map F).foldl (fun e o => e.add (lo o) (hi o)) (e.scale c) = (l.foldl (fun e o => e.add (lo o) (hi o)) e).scale c := by
  rw [List.foldl_map]
  refine List.foldl_hom (Extent.scale c) fun e b => ?_
  rw [h1, h2, Extent.add_scale hc]

theorem bgValues_scale (t : ElemParams ℝ) (s : StratumParams ℝ) : bgValues (t.scale c) (s.scale c) = bgValues t s := rfl

theorem genAE_scale (hc : 0 < c) {d d' : AEDraw ℝ} (hd : ScaledDraw c d d') (g : GridZ ℝ) (sp : StratumParams ℝ) {t : ElemParams ℝ} (ht : t.Safe c) (h : Heap ℝ)
    (bottom top : ℕ) : genAE (g.scale c) (sp.scale c) (t.scale c) d' (h.scale c) bottom top =
      (genAE g sp t d h bottom top).map fun x => (x.1.scale c, x.2.scale c) := by
  unfold genAE
  dsimp only
  rw [hd.sheetFuel, bgValues_scale, show (t.scale c).geometry = t.geometry from rfl]
  have he : ({ zmin := ((h.scale c).get bottom).zmin, zmax := ((h.scale c).get top).zmax } : Extent ℝ) =
    Extent.scale c { zmin := (h.get bottom).zmin, zmax := (h.get top).zmax } := rfl
  rw [he]
  split_ifs
  · refine map_bind_map (F := List.map (GObj.scale c)) ?_ fun l _ => ?_
    · have := hd.objs d.sheetFuel t (h.get bottom) (h.get top)
      rw [show (h.scale c).get bottom = (h.get bottom).scale c from rfl, show (h.scale c).get top = (h.get top).scale c from rfl, this]
      cases d.objs d.sheetFuel t (h.get bottom) (h.get top) with
      | none => rfl
      | some x => exact liftErr_thru x _
    · refine congrArg Except.ok ?_
      unfold AEReal.scale
      dsimp only
      rw [ext_scale hc (F := GObj.scale c) (lo := GObj.zmin) (hi := GObj.zmax) (fun _ => rfl) (fun _ => rfl)]
      simp only [List.map_map]
      rfl
  · rw [sheetThickness_scale hc g ht]
    refine map_bind_map (F := fun x : Heap ℝ × Extent ℝ × List (SheetRaw ℝ) => (x.1.scale c, x.2.1.scale c, x.2.2.map (SheetRaw.scale c))) ?_ fun r _ => ?_
    · rw [← sheetLoop_scale hc, mul_sub]
      rfl
    refine map_bind_map (F := List.map (GObj.scale c)) ?_ fun l _ => ?_
    · rw [← liftErr_thru, ← sheetObjs_scale hc (hd.sheet t)]
    · refine congrArg Except.ok ?_
      unfold AEReal.scale
      simp only [List.map_map]
      rfl
  · rfl

noncomputable def scaleContacts (c : ℝ) (m : Contacts ℝ) : Contacts ℝ := fun n => (m n).scale c

theorem chooseType_scale (l : List (ElemParams ℝ)) (n : ℕ) : chooseType (l.map (ElemParams.scale c)) n = (chooseType l n).map (ElemParams.scale c) := by
  unfold chooseType
  rw [List.getElem?_map]
  cases l[n]? <;> rfl

theorem meanHeight_scale (hc : 0 < c) (l : List (ElemParams ℝ)) (sp : StratumParams ℝ) (t : ElemParams ℝ) :
    meanHeight (l.map (ElemParams.scale c)) (sp.scale c) (t.scale c) = (meanHeight l sp t).map (c * ·) := by
  unfold meanHeight StratumParams.scale
  have : (l.map (ElemParams.scale c)).map ElemParams.name = l.map ElemParams.name := by
    rw [List.map_map]
    rfl
  rw [this, List.getElem?_map, show (t.scale c).name = t.name from rfl]
  cases sp.aeZMean[(l.map ElemParams.name).idxOf t.name]? with
  | none => rfl
  | some m =>
    simp only [Option.map_some, mul_neg_iff, hc, hc.not_gt, true_and, false_and, or_false]
    split_ifs <;> rfl

theorem nextZ_scale {d d' : AEDraw ℝ} (hd : ScaledDraw c d d') (sp : StratumParams ℝ) (z : ℝ) : nextZ (sp.scale c) d' (c * z) = c * nextZ sp d z := by
  unfold nextZ
  rw [hd.height, hd.avulU, hd.avulAmt, show (sp.scale c).avulProb = sp.avulProb from rfl]
  split_ifs <;> ring

theorem aeBottom_scale (hc : 0 < c) (bottom : ℕ) (h : Heap ℝ) (cms : Contacts ℝ) (name : String) {f f' : ℕ → ℕ → ℝ} (hf : ∀ i j, f' i j = c * f i j) (z : ℝ) :
    aeBottom bottom (h.scale c) (scaleContacts c cms) name f' (c * z) =
      (aeBottom bottom h cms name f z).map fun x => (x.1.scale c, scaleContacts c x.2.1, x.2.2.1, c * x.2.2.2) := by
  unfold aeBottom
  have : c * z ≤ ((h.scale c).get bottom).zmean ↔ z ≤ (h.get bottom).zmean := mul_le_mul_iff_right₀ hc
  by_cases hz : z ≤ (h.get bottom).zmean
  · rw [if_pos hz, if_pos (this.2 hz)]
    rfl
  · rw [if_neg hz, if_neg (mt this.1 hz)]
    dsimp only
    have e : ({ scaleContacts c cms name with z := some (c * z) } : ContactModel ℝ) = ContactModel.scale c { cms name with z := some z } := rfl
    rw [e]
    refine map_bind_map (F := fun x : Heap ℝ × ℕ => (x.1.scale c, x.2)) ?_ fun x _ => ?_
    · rw [← liftErr_thru, Heap.create_scale hc _ _ hf]
    · show Except.ok _ = Except.ok _
      congr 3
      exact (Function.comp_update (ContactModel.scale c) cms name _).symm

theorem aeGenLoop_scale (hc : 0 < c) {draws draws' : ℕ → AEDraw ℝ} (hd : ∀ n, ScaledDraw c (draws n) (draws' n)) (g : GridZ ℝ) (sp : StratumParams ℝ)
    {types : List (ElemParams ℝ)} (ht : ∀ t ∈ types, t.Safe c) (bottom fuel n : ℕ) (h : Heap ℝ) (cms : Contacts ℝ) (z : ℝ) (top : ℕ) {curr : ElemParams ℝ}
    (hcur : curr.Safe c) :
    aeGenLoop (g.scale c) (sp.scale c) (types.map (ElemParams.scale c)) bottom draws' fuel n (h.scale c) (scaleContacts c cms) (c * z) top (curr.scale c) =
      (aeGenLoop g sp types bottom draws fuel n h cms z top curr).map fun x => (x.1.scale c, scaleContacts c x.2.1, x.2.2.map (AEReal.scale c)) := by
  induction fuel generalizing n h cms z top curr with
  | zero =>
    unfold aeGenLoop
    have : c * z > ((h.scale c).get bottom).zmean ↔ z > (h.get bottom).zmean := mul_lt_mul_iff_right₀ hc
    by_cases hz : z > (h.get bottom).zmean
    · rw [if_pos hz, if_pos (this.2 hz)]
      rfl
    · rw [if_neg hz, if_neg (mt this.1 hz)]
      rfl
  | succ fuel ih =>
    unfold aeGenLoop
    have : c * z > ((h.scale c).get bottom).zmean ↔ z > (h.get bottom).zmean := mul_lt_mul_iff_right₀ hc
    by_cases hz : z > (h.get bottom).zmean
    · rw [if_pos hz, if_pos (this.2 hz), (hd n).next]
      refine map_bind_map (meanHeight_scale hc _ _ _) fun _ _ => map_bind_map (chooseType_scale _ _) fun next hn => ?_
      rw [nextZ_scale (hd n)]
      refine map_bind_map (aeBottom_scale hc bottom h cms next.name (hd n).field _) fun x _ => ?_
      refine map_bind_map (F := Heap.scale c) ?_ fun h2 _ => ?_
      · rw [← liftErr_thru, ← Heap.useLower_scale hc]
      refine map_bind_map (F := Heap.scale c) ?_ fun h3 _ => ?_
      · rw [← liftErr_thru, ← Heap.useHigher_scale hc]
      refine map_bind_map (genAE_scale hc (hd n) g sp hcur h3 _ _) fun y _ => ?_
      exact map_bind_map (ih (n + 1) y.1 x.2.1 x.2.2.2 x.2.2.1 (ht _ (chooseType_mem hn))) fun r _ => rfl
    · rw [if_neg hz, if_neg (mt this.1 hz)]
      rfl

theorem genStratum_scale (hc : 0 < c) {d d' : StratumDraw ℝ} (hd : ScaledStratumDraw c d d') (g : GridZ ℝ) (sp : StratumParams ℝ) {types : List (ElemParams ℝ)}
    (ht : ∀ t ∈ types, t.Safe c) (h : Heap ℝ) (cms : Contacts ℝ) (bottom top : ℕ) :
    genStratum (g.scale c) (sp.scale c) (types.map (ElemParams.scale c)) d' (h.scale c) (scaleContacts c cms) bottom top =
      (genStratum g sp types d h cms bottom top).map fun x => (x.1.scale c, scaleContacts c x.2.1, x.2.2.scale c) := by
  unfold genStratum
  dsimp only
  rw [hd.first, hd.fuel]
  refine map_bind_map (chooseType_scale _ _) fun first hf => ?_
  refine map_bind_map (aeGenLoop_scale hc hd.aes g sp ht bottom d.fuel 0 h cms _ top (ht _ (chooseType_mem hf))) fun x _ => ?_
  refine congrArg Except.ok ?_
  unfold StratumReal.scale
  dsimp only
  have := ext_scale hc (F := AEReal.scale c) (lo := fun a => a.ext.zmin) (hi := fun a => a.ext.zmax) (fun _ => rfl) (fun _ => rfl) x.2.2
    { zmin := (h.get bottom).zmin, zmax := (h.get top).zmax }
  rw [← this]
  rfl

/-! ### The model -/

theorem fromEnd_scale {β γ : Type} (F : β → γ) (l : List β) (si : ℕ) : fromEnd (l.map F) si = (fromEnd l si).map F := by
  unfold fromEnd
  rw [← List.map_reverse, List.getElem?_map]
  cases l.reverse[si]? <;> rfl

theorem stratumBottom_scale (hc : 0 < c) (g : GridZ ℝ) (sd : StrataDict ℝ) (h : Heap ℝ) (si : ℕ) {f f' : ℕ → ℕ → ℝ} (hf : ∀ i j, f' i j = c * f i j) :
    stratumBottom (g.scale c) (sd.scale c) (h.scale c) si f' = (stratumBottom g sd h si f).map fun x => (x.1.scale c, x.2) := by
  unfold stratumBottom
  rw [show (sd.scale c).n = sd.n from rfl]
  split_ifs
  · rw [← liftErr_thru, ← Heap.create_scale hc _ _ hf]
    rfl
  · refine map_bind_map (fromEnd_scale (ContactModel.scale c) _ _) fun cm _ => ?_
    rw [← liftErr_thru, ← Heap.create_scale hc _ _ hf]

theorem strataGenLoop_scale (hc : 0 < c) {draws draws' : ℕ → StratumDraw ℝ} (g : GridZ ℝ) {sd : StrataDict ℝ} (ht : ∀ ts ∈ sd.types, ∀ t ∈ ts, t.Safe c) (k si : ℕ)
    (hd : ∀ i, si ≤ i → i < si + k → ScaledStratumDraw c (draws i) (draws' i)) (h : Heap ℝ) (cms : Contacts ℝ) (top : ℕ) :
    strataGenLoop (g.scale c) (sd.scale c) draws' k si (h.scale c) (scaleContacts c cms) top =
      (strataGenLoop g sd draws k si h cms top).map fun x => (x.1.scale c, scaleContacts c x.2.1, x.2.2.map (StratumReal.scale c)) := by
  induction k generalizing si h cms top with
  | zero => rfl
  | succ k ih =>
    have h0 := hd si le_rfl (by omega)
    unfold strataGenLoop
    refine map_bind_map (stratumBottom_scale hc g sd h si h0.field) fun x _ => ?_
    refine map_bind_map (F := Heap.scale c) ?_ fun h2 _ => ?_
    · rw [← liftErr_thru, ← Heap.useLower_scale hc]
    refine map_bind_map (fromEnd_scale (StratumParams.scale c) _ _) fun sp _ => ?_
    refine map_bind_map (fromEnd_scale (fun ts : List (ElemParams ℝ) => ts.map (ElemParams.scale c)) _ _) fun types hty => ?_
    refine map_bind_map (genStratum_scale hc h0 g sp (ht _ (fromEnd_mem hty)) h2 cms x.2 top) fun y _ => ?_
    exact map_bind_map (ih (si + 1) (fun i h1 h2 => hd i (by omega) (by omega)) y.1 y.2.1 x.2) fun r _ => rfl

theorem numberObjs_scale (n : ℤ) (l : List (GObj ℝ)) : numberObjs n (l.map (GObj.scale c)) = ((numberObjs n l).1, (numberObjs n l).2.map (GObj.scale c)) := by
  induction l generalizing n with
  | nil => rfl
  | cons o l ih =>
    rw [List.map_cons]
    unfold numberObjs
    dsimp only
    rw [ih]
    rfl

theorem numberAEs_scale (na nh : ℤ) (l : List (AEReal ℝ)) :
    numberAEs na nh (l.map (AEReal.scale c)) = ((numberAEs na nh l).1, (numberAEs na nh l).2.1, (numberAEs na nh l).2.2.map (AEReal.scale c)) := by
  induction l generalizing na nh with
  | nil => rfl
  | cons a l ih =>
    rw [List.map_cons]
    unfold numberAEs
    dsimp only
    rw [show (a.scale c).objs = a.objs.map (GObj.scale c) from rfl, numberObjs_scale]
    dsimp only
    rw [ih]
    rfl

theorem numberStrata_scale (na nh : ℤ) (l : List (StratumReal ℝ)) :
    numberStrata na nh (l.map (StratumReal.scale c)) = (numberStrata na nh l).map (StratumReal.scale c) := by
  induction l generalizing na nh with
  | nil => rfl
  | cons s l ih =>
    rw [List.map_cons]
    unfold numberStrata
    dsimp only
    rw [show (s.scale c).aes = s.aes.map (AEReal.scale c) from rfl, numberAEs_scale]
    dsimp only
    rw [ih]
    rfl

theorem generateModel_scale (hc : 0 < c) {draws draws' : ℕ → StratumDraw ℝ} (nx ny : ℕ) (g : GridZ ℝ) {sd : StrataDict ℝ}
    (ht : ∀ ts ∈ sd.types, ∀ t ∈ ts, t.Safe c) (hd : ∀ i < sd.n, ScaledStratumDraw c (draws i) (draws' i)) (cms : Contacts ℝ) :
    generateModel nx ny (g.scale c) (sd.scale c) (scaleContacts c cms) draws' =
      (generateModel nx ny g sd cms draws).map fun x => (x.1.scale c, scaleContacts c x.2) := by
  unfold generateModel
  dsimp only
  have e : ({ nx, ny, next := 0, get := fun _ => { vals := fun _ _ => 0, zmean := 0, zmin := 0, zmax := 0 } } : Heap ℝ) =
      Heap.scale c { nx, ny, next := 0, get := fun _ => { vals := fun _ _ => 0, zmean := 0, zmin := 0, zmax := 0 } } := by
    unfold Heap.scale Surface.scale
    simp only [mul_zero]
  refine map_bind_map (F := fun x : Heap ℝ × ℕ => (x.1.scale c, x.2)) ?_ fun x _ => ?_
  · rw [← liftErr_thru]
    conv_lhs => rw [e]
    rw [← Heap.create_scale hc _ _ (f' := fun _ _ => 0) (f := fun _ _ => 0) fun _ _ => by rw [mul_zero]]
    rfl
  refine map_bind_map (strataGenLoop_scale hc g ht sd.n 0 (fun i _ hi => hd i (by omega)) x.1 cms x.2) fun y _ => ?_
  refine congrArg Except.ok ?_
  unfold GenModel.scale
  dsimp only
  rw [numberStrata_scale]

/-! ### Assignment of points -/

noncomputable def Obj.scale (c : ℝ) (o : Obj ℝ) : Obj ℝ :=
  { zmin := c * o.zmin, zmax := c * o.zmax, test := fun i j z => o.test i j (z / c), marks := fun i j z k => o.marks i j (z / c) k }

noncomputable def AE.scale (c : ℝ) (a : AE ℝ) : AE ℝ :=
  { a with zmin := c * a.zmin, top := fun i j => c * a.top i j, bottom := fun i j => c * a.bottom i j, objs := a.objs.map (Obj.scale c) }

noncomputable def Stratum.scale (c : ℝ) (s : Stratum ℝ) : Stratum ℝ := { zmin := c * s.zmin, aes := s.aes.map (AE.scale c) }

theorem objLoop_scale (hc : 0 < c) (xi yi : ℕ) (z : ℝ) (num ty : ℤ) (l : List (Obj ℝ)) (oi : ℕ) (g : Geo ℝ) :
    objLoop xi yi (c * z) num ty (l.map (Obj.scale c)) oi g = objLoop xi yi z num ty l oi g := by
  induction l generalizing oi g with
  | nil => rfl
  | cons o l ih =>
    rw [List.map_cons]
    unfold objLoop
    have h1 : c * z > (o.scale c).zmax ↔ z > o.zmax := mul_lt_mul_iff_right₀ hc
    have h2 : c * z < (o.scale c).zmin ↔ z < o.zmin := mul_lt_mul_iff_right₀ hc
    have h3 : (o.scale c).assign xi yi (c * z) g = o.assign xi yi z g := by
      unfold Obj.assign Obj.scale
      dsimp only
      rw [mul_div_cancel_left₀ _ hc.ne']
    simp only [h1, h2, h3, ih]

theorem assignAE_scale (hc : 0 < c) (a : AE ℝ) (xi yi : ℕ) (z : ℝ) (oi : ℕ) (g : Geo ℝ) : assignAE (a.scale c) xi yi (c * z) oi g = assignAE a xi yi z oi g := by
  unfold assignAE
  have h1 : (a.scale c).bottom xi yi < c * z ↔ a.bottom xi yi < z := mul_lt_mul_iff_right₀ hc
  have h2 : c * z < (a.scale c).top xi yi ↔ z < a.top xi yi := mul_lt_mul_iff_right₀ hc
  have h3 : (a.scale c).objs.drop oi = (a.objs.drop oi).map (Obj.scale c) := by
    unfold AE.scale
    rw [List.map_drop]
  simp only [h1, h2, h3, objLoop_scale hc]
  rfl

theorem aeLoop_scale (hc : 0 < c) (xi yi : ℕ) (z : ℝ) (l : List (AE ℝ)) (aei oi : ℕ) (g : Geo ℝ) :
    aeLoop xi yi (c * z) (l.map (AE.scale c)) aei oi g = aeLoop xi yi z l aei oi g := by
  induction l generalizing aei oi g with
  | nil => rfl
  | cons a l ih =>
    rw [List.map_cons]
    unfold aeLoop
    have h1 : c * z < (a.scale c).zmin ↔ z < a.zmin := mul_lt_mul_iff_right₀ hc
    simp only [h1, assignAE_scale hc, ih]

theorem strataLoop_scale (hc : 0 < c) (xi yi : ℕ) (z : ℝ) (l : List (Stratum ℝ)) (p : Pos) (g : Geo ℝ) :
    strataLoop xi yi (c * z) (l.map (Stratum.scale c)) p g = strataLoop xi yi z l p g := by
  induction l generalizing p g with
  | nil => rfl
  | cons s l ih =>
    rw [List.map_cons]
    unfold strataLoop assignStratum
    have h1 : c * z < (s.scale c).zmin ↔ z < s.zmin := mul_lt_mul_iff_right₀ hc
    have h2 : ∀ n, (s.scale c).aes.drop n = (s.aes.drop n).map (AE.scale c) := fun n => by
      unfold Stratum.scale
      rw [List.map_drop]
    simp only [h1, h2, aeLoop_scale hc, ih]

theorem assignPoints_scale (hc : 0 < c) (strata : List (Stratum ℝ)) {z z' : ℕ → ℝ} (hz : ∀ k, z' k = c * z k) (nx ny nz : ℕ) :
    assignPoints (strata.map (Stratum.scale c)) z' nx ny nz = assignPoints strata z nx ny nz := by
  have h : ∀ xi yi, cellStep (strata.map (Stratum.scale c)) z' xi yi = cellStep strata z xi yi := by
    intro xi yi
    funext st zi
    unfold cellStep assignCell
    rw [hz, ← List.map_drop, strataLoop_scale hc]
  unfold assignPoints column
  simp only [h]

theorem AEReal.search_scale (h : Heap ℝ) (a : AEReal ℝ) : (a.scale c).search (h.scale c) = (a.search h).scale c := by
  unfold AEReal.search AE.scale
  dsimp only
  congr 1
  show ((a.objs.map (GObj.scale c)).mapIdx (a.scale c).searchObj) = (a.objs.mapIdx a.searchObj).map (Obj.scale c)
  refine List.ext_getElem? fun n => ?_
  rw [List.getElem?_mapIdx, List.getElem?_map, List.getElem?_map, List.getElem?_mapIdx]
  cases a.objs[n]? <;> rfl

theorem GenModel.search_scale (m : GenModel ℝ) : (m.scale c).search = m.search.map (Stratum.scale c) := by
  unfold GenModel.search
  rw [List.map_map, show (m.scale c).strata = m.strata.map (StratumReal.scale c) from rfl, List.map_map]
  refine List.map_congr_left fun s _ => ?_
  unfold Function.comp StratumReal.search Stratum.scale
  dsimp only
  congr 1
  rw [List.map_map, show (s.scale c).aes = s.aes.map (AEReal.scale c) from rfl, List.map_map]
  exact List.map_congr_left fun a _ => AEReal.search_scale m.heap a

end Hyvr
