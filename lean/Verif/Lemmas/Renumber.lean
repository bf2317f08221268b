import Verif.Lemmas.Near

/-!
Generation and assignment of points only pass numbers of facies and of element types on (C123, C124).
-/

namespace Hyvr

open Py

/-! ### Renumbered data -/

def ElemParams.renum {α : Type} (σ π : ℤ → ℤ) (t : ElemParams α) : ElemParams α := { t with aeId := σ t.aeId, bgFacies := π t.bgFacies }

def StratumParams.renum {α : Type} (π : ℤ → ℤ) (s : StratumParams α) : StratumParams α := { s with bgFacies := π s.bgFacies }

def StrataDict.renum {α : Type} (σ π : ℤ → ℤ) (sd : StrataDict α) : StrataDict α :=
  { sd with params := sd.params.map (StratumParams.renum π), types := sd.types.map fun ts => ts.map (ElemParams.renum σ π) }

structure RenumObj (π : ℤ → ℤ) (o o' : GObj ℝ) : Prop where
  zmin : o'.zmin = o.zmin
  zmax : o'.zmax = o.zmax
  numHa : o'.numHa = o.numHa
  answer : ∀ i j z, o'.answer i j z = (o.answer i j z).map fun r => (π r.1, r.2)

structure RenumAE (σ π : ℤ → ℤ) (a a' : AEReal ℝ) : Prop where
  same : a' = { a with typeId := σ a.typeId, bgFacies := π a.bgFacies, objs := a'.objs }
  objs : List.Forall₂ (RenumObj π) a.objs a'.objs

structure RenumStratum (σ π : ℤ → ℤ) (s s' : StratumReal ℝ) : Prop where
  same : s' = { s with aes := s'.aes }
  aes : List.Forall₂ (RenumAE σ π) s.aes s'.aes

structure RenumModel (σ π : ℤ → ℤ) (m m' : GenModel ℝ) : Prop where
  heap : m'.heap = m.heap
  strata : List.Forall₂ (RenumStratum σ π) m.strata m'.strata

def RenumPlaced (π : ℤ → ℤ) : Option (Except PyErr (List (GObj ℝ))) → Option (Except PyErr (List (GObj ℝ))) → Prop
  | some x, some y => RelX (List.Forall₂ (RenumObj π)) x y
  | none, none => True
  | _, _ => False

/-- Insides of a sheet that differ in the numbers of the facies. -/
def RenumPayload (π : ℤ → ℤ) (p p' : Payload ℝ) : Prop := ∀ i j z, p' i j z = (π (p i j z).1, (p i j z).2)

structure RenumDraw (σ π : ℤ → ℤ) (d d' : AEDraw ℝ) : Prop where
  same : d' = { d with objs := d'.objs, sheet := d'.sheet }
  objs : ∀ fuel t b tp, RenumPlaced π (d.objs fuel t b tp) (d'.objs fuel (t.renum σ π) b tp)
  sheet : ∀ t n z, RelX (RenumPayload π) (d.sheet t n z) (d'.sheet (t.renum σ π) n z)

structure RenumStratumDraw (σ π : ℤ → ℤ) (d d' : StratumDraw ℝ) : Prop where
  same : d' = { d with aes := d'.aes }
  aes : ∀ n, RenumDraw σ π (d.aes n) (d'.aes n)

variable {σ π : ℤ → ℤ}

/-! ### Generation -/

theorem renum_ext {l l' : List (GObj ℝ)} (h : List.Forall₂ (RenumObj π) l l') (e : Extent ℝ) :
    l'.foldl (fun e o => e.add o.zmin o.zmax) e = l.foldl (fun e o => e.add o.zmin o.zmax) e := by
  induction h generalizing e with
  | nil => rfl
  | cons h _ ih => rw [List.foldl_cons, List.foldl_cons, h.zmin, h.zmax, ih]

theorem renum_numHa {l l' : List (GObj ℝ)} (h : List.Forall₂ (RenumObj π) l l') : l'.map GObj.numHa = l.map GObj.numHa := by
  induction h with
  | nil => rfl
  | cons h _ ih => rw [List.map_cons, List.map_cons, h.numHa, ih]

theorem sheetObjs_renum {mk mk' : ℕ → ℝ → Except PyErr (Payload ℝ)} (hm : ∀ n z, RelX (RenumPayload π) (mk n z) (mk' n z)) (h : Heap ℝ) (n : ℕ)
    (l : List (SheetRaw ℝ)) : RelX (List.Forall₂ (RenumObj π)) (sheetObjs h mk n l) (sheetObjs h mk' n l) := by
  induction l generalizing n with
  | nil => exact List.Forall₂.nil
  | cons s rest ih =>
    unfold sheetObjs
    refine (hm n s.zmean).bind fun p p' hp => (ih (n + 1)).bind fun os os' hos => ?_
    refine List.Forall₂.cons ⟨rfl, rfl, rfl, fun i j z => ?_⟩ hos
    unfold SheetRaw.toObj
    dsimp only
    rw [hp i j z]
    split_ifs <;> rfl

theorem bgValues_renum (hπ : ∀ f, π f = -1 ↔ f = -1) (t : ElemParams ℝ) (s : StratumParams ℝ) :
    bgValues (t.renum σ π) (s.renum π) = (π (bgValues t s).1, (bgValues t s).2) := by
  unfold bgValues ElemParams.renum StratumParams.renum
  dsimp only
  by_cases h : t.bgFacies = -1
  · rw [if_neg (by simpa using (hπ _).2 h), if_neg (by simpa using h)]
  · rw [if_pos (by simpa [hπ] using h), if_pos h]

theorem genAE_renum (hπ : ∀ f, π f = -1 ↔ f = -1) {d d' : AEDraw ℝ} (hd : RenumDraw σ π d d') (g : GridZ ℝ) (sp : StratumParams ℝ) (t : ElemParams ℝ)
    (h : Heap ℝ) (bottom top : ℕ) :
    RelX (fun x y : Heap ℝ × AEReal ℝ => y.1 = x.1 ∧ RenumAE σ π x.2 y.2) (genAE g sp t d h bottom top)
      (genAE g (sp.renum π) (t.renum σ π) d' h bottom top) := by
  have e1 : d'.sheetFuel = d.sheetFuel := by rw [hd.same]
  have e2 : (t.renum σ π).geometry = t.geometry := rfl
  have e3 : ∀ e, sheetThickness g (t.renum σ π) e = sheetThickness g t e := fun _ => rfl
  unfold genAE
  dsimp only
  rw [e1, e2, e3, bgValues_renum hπ]
  split_ifs with h1 h2
  · refine RelX.bind (R := List.Forall₂ (RenumObj π)) ?_ fun l l' hl => ⟨rfl, ?_⟩
    · have := hd.objs d.sheetFuel t (h.get bottom) (h.get top)
      revert this
      cases d.objs d.sheetFuel t (h.get bottom) (h.get top) <;> cases d'.objs d.sheetFuel (t.renum σ π) (h.get bottom) (h.get top) <;> intro this <;>
        first | exact this.elim | skip
      · exact rfl
      · exact RelX.lift this
    · refine ⟨?_, hl⟩
      dsimp only
      rw [renum_ext hl, renum_numHa hl]
      rfl
  · refine RelX.same fun x _ => RelX.bind (RelX.lift (sheetObjs_renum (hd.sheet t) x.1 0 x.2.2)) fun l l' hl => ⟨rfl, ?_⟩
    refine ⟨?_, hl⟩
    dsimp only
    rw [renum_numHa hl]
    rfl
  · exact rfl

theorem chooseType_renum (types : List (ElemParams ℝ)) (n : ℕ) :
    RelX (fun t t' : ElemParams ℝ => t' = t.renum σ π) (chooseType types n) (chooseType (types.map (ElemParams.renum σ π)) n) := by
  unfold chooseType
  rw [List.getElem?_map]
  cases types[n]? <;> exact rfl

theorem meanHeight_renum (types : List (ElemParams ℝ)) (sp : StratumParams ℝ) (t : ElemParams ℝ) :
    meanHeight (types.map (ElemParams.renum σ π)) (sp.renum π) (t.renum σ π) = meanHeight types sp t := by
  unfold meanHeight
  rw [List.map_map]
  rfl

theorem aeGenLoop_renum (hπ : ∀ f, π f = -1 ↔ f = -1) {draws draws' : ℕ → AEDraw ℝ} (hd : ∀ n, RenumDraw σ π (draws n) (draws' n)) (g : GridZ ℝ)
    (sp : StratumParams ℝ) (types : List (ElemParams ℝ)) (bottom fuel n : ℕ) (h : Heap ℝ) (cms : Contacts ℝ) (znow : ℝ) (top : ℕ) (curr : ElemParams ℝ) :
    RelX (fun x y : Heap ℝ × Contacts ℝ × List (AEReal ℝ) => y.1 = x.1 ∧ y.2.1 = x.2.1 ∧ List.Forall₂ (RenumAE σ π) x.2.2 y.2.2)
      (aeGenLoop g sp types bottom draws fuel n h cms znow top curr)
      (aeGenLoop g (sp.renum π) (types.map (ElemParams.renum σ π)) bottom draws' fuel n h cms znow top (curr.renum σ π)) := by
  induction fuel generalizing n h cms znow top curr with
  | zero =>
    unfold aeGenLoop
    split_ifs
    · exact rfl
    · exact ⟨rfl, rfl, .nil⟩
  | succ fuel ih =>
    have e1 : (draws' n).next = (draws n).next := by rw [(hd n).same]
    have e2 : (draws' n).field = (draws n).field := by rw [(hd n).same]
    have e3 : nextZ (sp.renum π) (draws' n) znow = nextZ sp (draws n) znow := by
      unfold nextZ
      rw [(hd n).same]
      rfl
    unfold aeGenLoop
    rw [e1, e2, e3, meanHeight_renum]
    split_ifs with hz
    · refine RelX.same fun _ _ => RelX.bind (chooseType_renum types (draws n).next) ?_
      rintro next _ rfl
      refine RelX.same fun x _ => RelX.same fun h2 _ => RelX.same fun h3 _ => ?_
      refine RelX.bind (genAE_renum hπ (hd n) g sp curr h3 x.2.2.1 top) ?_
      rintro ⟨h4, a⟩ ⟨h4', a'⟩ ⟨rfl, ha⟩
      refine RelX.bind (ih (n + 1) h4' x.2.1 x.2.2.2 x.2.2.1 next) ?_
      rintro ⟨h5, c, l⟩ ⟨h5', c', l'⟩ ⟨rfl, rfl, hl⟩
      exact ⟨rfl, rfl, .cons ha hl⟩
    · exact ⟨rfl, rfl, .nil⟩

theorem renum_exts {l l' : List (AEReal ℝ)} (h : List.Forall₂ (RenumAE σ π) l l') (e : Extent ℝ) :
    l'.foldl (fun e a => e.add a.ext.zmin a.ext.zmax) e = l.foldl (fun e a => e.add a.ext.zmin a.ext.zmax) e := by
  induction h generalizing e with
  | nil => rfl
  | @cons a a' _ _ h _ ih =>
    have : a'.ext = a.ext := by rw [h.same]
    rw [List.foldl_cons, List.foldl_cons, this, ih]

theorem genStratum_renum (hπ : ∀ f, π f = -1 ↔ f = -1) {d d' : StratumDraw ℝ} (hd : RenumStratumDraw σ π d d') (g : GridZ ℝ) (sp : StratumParams ℝ)
    (types : List (ElemParams ℝ)) (h : Heap ℝ) (cms : Contacts ℝ) (bottom top : ℕ) :
    RelX (fun x y : Heap ℝ × Contacts ℝ × StratumReal ℝ => y.1 = x.1 ∧ y.2.1 = x.2.1 ∧ RenumStratum σ π x.2.2 y.2.2)
      (genStratum g sp types d h cms bottom top) (genStratum g (sp.renum π) (types.map (ElemParams.renum σ π)) d' h cms bottom top) := by
  have e1 : d'.first = d.first := by rw [hd.same]
  have e2 : d'.fuel = d.fuel := by rw [hd.same]
  unfold genStratum
  rw [e1, e2]
  refine RelX.bind (chooseType_renum types d.first) ?_
  rintro first _ rfl
  refine RelX.bind (aeGenLoop_renum hπ hd.aes g sp types bottom d.fuel 0 h cms _ top first) ?_
  rintro ⟨h5, c, l⟩ ⟨h5', c', l'⟩ ⟨rfl, rfl, hl⟩
  exact ⟨rfl, rfl, by dsimp only; rw [renum_exts hl], hl⟩

theorem fromEnd_map {β γ : Type} (f : β → γ) (l : List β) (si : ℕ) : RelX (fun a b => b = f a) (fromEnd l si) (fromEnd (l.map f) si) := by
  unfold fromEnd
  rw [← List.map_reverse, List.getElem?_map]
  cases l.reverse[si]? <;> exact rfl

theorem strataGenLoop_renum (hπ : ∀ f, π f = -1 ↔ f = -1) {draws draws' : ℕ → StratumDraw ℝ} (hd : ∀ si, RenumStratumDraw σ π (draws si) (draws' si))
    (g : GridZ ℝ) (sd : StrataDict ℝ) (k si : ℕ) (h : Heap ℝ) (cms : Contacts ℝ) (top : ℕ) :
    RelX (fun x y : Heap ℝ × Contacts ℝ × List (StratumReal ℝ) => y.1 = x.1 ∧ y.2.1 = x.2.1 ∧ List.Forall₂ (RenumStratum σ π) x.2.2 y.2.2)
      (strataGenLoop g sd draws k si h cms top) (strataGenLoop g (sd.renum σ π) draws' k si h cms top) := by
  induction k generalizing si h cms top with
  | zero => exact ⟨rfl, rfl, .nil⟩
  | succ k ih =>
    have e1 : (draws' si).field = (draws si).field := by rw [(hd si).same]
    have e2 : ∀ f, stratumBottom g (sd.renum σ π) h si f = stratumBottom g sd h si f := fun _ => rfl
    unfold strataGenLoop
    rw [e1, e2]
    refine RelX.same fun x _ => RelX.same fun h2 _ => RelX.bind (fromEnd_map (StratumParams.renum π) sd.params si) ?_
    rintro sp _ rfl
    refine RelX.bind (fromEnd_map (fun ts => ts.map (ElemParams.renum σ π)) sd.types si) ?_
    rintro types _ rfl
    refine RelX.bind (genStratum_renum hπ (hd si) g sp types h2 cms x.2 top) ?_
    rintro ⟨h4, c, s⟩ ⟨h4', c', s'⟩ ⟨rfl, rfl, hs⟩
    refine RelX.bind (ih (si + 1) h4' c' x.2) ?_
    rintro ⟨h5, c, l⟩ ⟨h5', c', l'⟩ ⟨rfl, rfl, hl⟩
    exact ⟨rfl, rfl, .cons hs hl⟩

/-! ### Numbering -/

theorem numberObjs_renum {l l' : List (GObj ℝ)} (h : List.Forall₂ (RenumObj π) l l') (n : ℤ) :
    (numberObjs n l').1 = (numberObjs n l).1 ∧ List.Forall₂ (RenumObj π) (numberObjs n l).2 (numberObjs n l').2 := by
  induction h generalizing n with
  | nil => exact ⟨rfl, .nil⟩
  | cons h _ ih =>
    simp only [numberObjs]
    exact ⟨(ih _).1, .cons ⟨h.zmin, h.zmax, rfl, h.answer⟩ (ih _).2⟩

theorem numberAEs_renum {l l' : List (AEReal ℝ)} (h : List.Forall₂ (RenumAE σ π) l l') (na nh : ℤ) :
    (numberAEs na nh l').1 = (numberAEs na nh l).1 ∧ (numberAEs na nh l').2.1 = (numberAEs na nh l).2.1 ∧
    List.Forall₂ (RenumAE σ π) (numberAEs na nh l).2.2 (numberAEs na nh l').2.2 := by
  induction h generalizing na nh with
  | nil => exact ⟨rfl, rfl, .nil⟩
  | @cons a a' _ _ h _ ih =>
    simp only [numberAEs]
    obtain ⟨h1, h2⟩ := numberObjs_renum h.objs nh
    rw [h1]
    obtain ⟨i1, i2, i3⟩ := ih (na + 1) (numberObjs nh a.objs).1
    refine ⟨i1, i2, .cons ⟨?_, h2⟩ i3⟩
    rw [h.same]

theorem numberStrata_renum {l l' : List (StratumReal ℝ)} (h : List.Forall₂ (RenumStratum σ π) l l') (na nh : ℤ) :
    List.Forall₂ (RenumStratum σ π) (numberStrata na nh l) (numberStrata na nh l') := by
  induction h generalizing na nh with
  | nil => exact .nil
  | @cons s s' _ _ h _ ih =>
    simp only [numberStrata]
    obtain ⟨h1, h2, h3⟩ := numberAEs_renum h.aes na nh
    rw [h1, h2]
    refine .cons ⟨?_, h3⟩ (ih _ _)
    rw [h.same]

theorem generateModel_renum (hπ : ∀ f, π f = -1 ↔ f = -1) {draws draws' : ℕ → StratumDraw ℝ} (hd : ∀ si, RenumStratumDraw σ π (draws si) (draws' si))
    (mx my : ℕ) (g : GridZ ℝ) (sd : StrataDict ℝ) (cms : Contacts ℝ) :
    RelX (fun x y : GenModel ℝ × Contacts ℝ => RenumModel σ π x.1 y.1 ∧ y.2 = x.2) (generateModel mx my g sd cms draws)
      (generateModel mx my g (sd.renum σ π) cms draws') := by
  unfold generateModel
  refine RelX.same fun x _ => RelX.bind (strataGenLoop_renum hπ hd g sd sd.n 0 x.1 cms x.2) ?_
  rintro ⟨h5, c, l⟩ ⟨h5', c', l'⟩ ⟨rfl, rfl, hl⟩
  exact ⟨⟨rfl, numberStrata_renum hl 0 0⟩, rfl⟩

/-! ### Assignment -/

structure RenumTest (π : ℤ → ℤ) (o o' : Obj ℝ) : Prop where
  zmin : o'.zmin = o.zmin
  zmax : o'.zmax = o.zmax
  test : ∀ i j z, o'.test i j z = (o.test i j z).map fun h => { h with facies := π h.facies }

structure RenumSearchAE (σ π : ℤ → ℤ) (a a' : AE ℝ) : Prop where
  same : a' = { a with typeId := σ a.typeId, bgFacies := π a.bgFacies, objs := a'.objs }
  objs : List.Forall₂ (RenumTest π) a.objs a'.objs

structure RenumSearch (σ π : ℤ → ℤ) (s s' : Stratum ℝ) : Prop where
  zmin : s'.zmin = s.zmin
  aes : List.Forall₂ (RenumSearchAE σ π) s.aes s'.aes

def Geo.renum (σ π : ℤ → ℤ) (g : Geo ℝ) : Geo ℝ := { g with facies := π g.facies, hat := σ g.hat }

theorem objLoop_renum (hπ : ∀ f, π f = -1 ↔ f = -1) {l l' : List (Obj ℝ)} (h : List.Forall₂ (RenumTest π) l l') (i j : ℕ) (z : ℝ) (num typeId : ℤ) (oi : ℕ)
    (g : Geo ℝ) : objLoop i j z num (σ typeId) l' oi (g.renum σ π) = ((objLoop i j z num typeId l oi g).1.renum σ π, (objLoop i j z num typeId l oi g).2) := by
  induction h generalizing oi g with
  | nil => rfl
  | @cons o o' _ _ h _ ih =>
    have e : o'.assign i j z (g.renum σ π) = (o.assign i j z g).renum σ π := by
      unfold Obj.assign
      rw [h.test]
      cases o.test i j z with
      | none =>
        simp only [Option.map_none, Geo.renum, (hπ (-1)).2 rfl]
      | some hit => rfl
    have ef : ((o.assign i j z g).renum σ π).facies ≠ -1 ↔ (o.assign i j z g).facies ≠ -1 := not_congr (hπ _)
    simp only [objLoop]
    rw [h.zmin, h.zmax, e]
    split_ifs with c1 c2 c3 c4 c4
    · rfl
    · exact ih _ _
    · rfl
    · exact absurd (ef.1 c3) c4
    · exact absurd (ef.2 c4) c3
    · exact ih _ _

theorem assignAE_renum (hπ : ∀ f, π f = -1 ↔ f = -1) {a a' : AE ℝ} (h : RenumSearchAE σ π a a') (i j : ℕ) (z : ℝ) (oi : ℕ) (g : Geo ℝ) :
    assignAE a' i j z oi (g.renum σ π) = ((assignAE a i j z oi g).1.renum σ π, (assignAE a i j z oi g).2) := by
  have e0 := objLoop_renum (σ := σ) hπ (List.forall₂_drop oi h.objs) i j z a.num a.typeId oi g
  have e1 : a'.num = a.num := by rw [h.same]
  have e2 : a'.typeId = σ a.typeId := by rw [h.same]
  have e3 : a'.isSheet = a.isSheet := by rw [h.same]
  have e4 : a'.bottom = a.bottom := by rw [h.same]
  have e5 : a'.top = a.top := by rw [h.same]
  have e6 : a'.bgFacies = π a.bgFacies := by rw [h.same]
  have e7 : a'.bgAzim = a.bgAzim := by rw [h.same]
  have e8 : a'.bgDip = a.bgDip := by rw [h.same]
  unfold assignAE
  rw [e1, e2, e3, e4, e5, e6, e7, e8, e0]
  rcases objLoop i j z a.num a.typeId (a.objs.drop oi) oi g with ⟨g', _ | oi'⟩
  · dsimp only
    split_ifs <;> rfl
  · rfl

theorem aeLoop_renum (hπ : ∀ f, π f = -1 ↔ f = -1) {l l' : List (AE ℝ)} (h : List.Forall₂ (RenumSearchAE σ π) l l') (i j : ℕ) (z : ℝ) (aei oi : ℕ) (g : Geo ℝ) :
    aeLoop i j z l' aei oi (g.renum σ π) = ((aeLoop i j z l aei oi g).1.renum σ π, (aeLoop i j z l aei oi g).2) := by
  induction h generalizing aei oi g with
  | nil => simp only [aeLoop, Geo.renum, (hπ (-1)).2 rfl]
  | @cons a a' _ _ h _ ih =>
    have e : a'.zmin = a.zmin := by rw [h.same]
    have ef : ((assignAE a i j z oi g).1.renum σ π).facies ≠ -1 ↔ (assignAE a i j z oi g).1.facies ≠ -1 := not_congr (hπ _)
    simp only [aeLoop]
    rw [e, assignAE_renum hπ h]
    split_ifs with c1 c2 c3 c3
    · exact ih _ _ _
    · rfl
    · exact absurd (ef.1 c2) c3
    · exact absurd (ef.2 c3) c2
    · exact ih _ _ _

theorem strataLoop_renum (hπ : ∀ f, π f = -1 ↔ f = -1) {l l' : List (Stratum ℝ)} (h : List.Forall₂ (RenumSearch σ π) l l') (i j : ℕ) (z : ℝ) (p : Pos) (g : Geo ℝ) :
    strataLoop i j z l' p (g.renum σ π) = ((strataLoop i j z l p g).1.map fun x => (x.1.renum σ π, x.2), (strataLoop i j z l p g).2) := by
  induction h generalizing p g with
  | nil => rfl
  | @cons s s' _ _ h _ ih =>
    have e : assignStratum s' i j z p.aei p.oi (g.renum σ π) = ((assignStratum s i j z p.aei p.oi g).1.renum σ π, (assignStratum s i j z p.aei p.oi g).2) := by
      unfold assignStratum
      exact aeLoop_renum hπ (List.forall₂_drop p.aei h.aes) i j z _ _ g
    have ef : ((assignStratum s i j z p.aei p.oi g).1.renum σ π).facies ≠ -1 ↔ (assignStratum s i j z p.aei p.oi g).1.facies ≠ -1 := not_congr (hπ _)
    simp only [strataLoop]
    rw [h.zmin, e]
    split_ifs with c1 c2 c3 c3
    · exact ih _ _
    · rfl
    · exact absurd (ef.1 c2) c3
    · exact absurd (ef.2 c3) c2
    · exact ih _ _

/-- Arrays that differ in the numbers of the facies of assigned cells and of the types. -/
structure RenumCells (σ π : ℤ → ℤ) (c c' : Cells ℝ) : Prop where
  same : c' = { c with facies := c'.facies, hat := fun i j k => σ (c.hat i j k) }
  facies : ∀ i j k, c'.facies i j k = π (c.facies i j k) ∨ (c.ae i j k = -1 ∧ c.facies i j k = 0 ∧ c'.facies i j k = 0)

theorem write_renum {c c' : Cells ℝ} (h : RenumCells σ π c c') (i j k : ℕ) (g : Geo ℝ) (si : ℕ) :
    RenumCells σ π (c.write i j k g si) (c'.write i j k (g.renum σ π) si) := by
  refine ⟨?_, fun i' j' k' => ?_⟩
  · have hh : (c'.hat.set i j k (σ g.hat)) = fun i' j' k' => σ (c.hat.set i j k g.hat i' j' k') := by
      funext i' j' k'
      rw [h.same]
      unfold Arr3.set
      split_ifs <;> rfl
    unfold Cells.write Geo.renum
    dsimp only
    rw [hh]
    rw [h.same]
  · have := h.facies i' j' k'
    unfold Cells.write Geo.renum Arr3.set
    dsimp only
    split_ifs
    · exact Or.inl rfl
    · exact this

theorem assignPoints_renum (hπ : ∀ f, π f = -1 ↔ f = -1) (hσ : σ (-1) = -1) {l l' : List (Stratum ℝ)} (h : List.Forall₂ (RenumSearch σ π) l l') (gridz : ℕ → ℝ)
    (nx ny nz : ℕ) : RenumCells σ π (assignPoints l gridz nx ny nz) (assignPoints l' gridz nx ny nz) := by
  have hfresh : Geo.renum σ π Geo.fresh = Geo.fresh := by
    unfold Geo.renum Geo.fresh
    rw [hσ, (hπ (-1)).2 rfl]
  have hcol : ∀ i j c c', RenumCells σ π c c' → RenumCells σ π (column l gridz nz i j c) (column l' gridz nz i j c') := by
    intro i j c c' hc
    unfold column
    have key : ∀ (ks : List ℕ) (st st' : Cells ℝ × Pos), RenumCells σ π st.1 st'.1 → st'.2 = st.2 →
        RenumCells σ π (ks.foldl (cellStep l gridz i j) st).1 (ks.foldl (cellStep l' gridz i j) st').1 := by
      intro ks
      induction ks with
      | nil => exact fun _ _ h _ => h
      | cons k ks ih =>
        intro st st' h1 h2
        rw [List.foldl_cons, List.foldl_cons]
        have e : assignCell l' i j (gridz k) st'.2 =
            ((assignCell l i j (gridz k) st.2).1.map fun x => (x.1.renum σ π, x.2), (assignCell l i j (gridz k) st.2).2) := by
          unfold assignCell
          rw [h2]
          conv_lhs => rw [← hfresh]
          exact strataLoop_renum hπ (List.forall₂_drop st.2.si h) i j _ _ _
        refine ih _ _ ?_ ?_
        · unfold cellStep
          rw [e]
          rcases assignCell l i j (gridz k) st.2 with ⟨_ | ⟨g, si⟩, p⟩
          · exact h1
          · exact write_renum h1 i j k g si
        · unfold cellStep
          rw [e]
          rcases assignCell l i j (gridz k) st.2 with ⟨_ | ⟨g, si⟩, p⟩ <;> rfl
    exact key _ _ _ hc rfl
  unfold assignPoints
  have key : ∀ (ns : List ℕ) (c c' : Cells ℝ), RenumCells σ π c c' →
      RenumCells σ π (ns.foldl (fun c l_1 => column l gridz nz (l_1 / ny) (l_1 % ny) c) c) (ns.foldl (fun c l_1 => column l' gridz nz (l_1 / ny) (l_1 % ny) c) c') := by
    intro ns
    induction ns with
    | nil => exact fun _ _ h => h
    | cons n ns ih => exact fun c c' h => ih _ _ (hcol _ _ _ _ h)
  refine key _ _ _ ⟨?_, fun i j k => Or.inr ⟨rfl, rfl, rfl⟩⟩
  unfold Cells.init
  simp only [hσ]

theorem searchObjs_renum {a a' : AEReal ℝ} (hn : a'.objectNumHa = a.objectNumHa) {l l' : List (GObj ℝ)}
    (h : List.Forall₂ (RenumObj π) l l') : List.Forall₂ (RenumTest π) (l.mapIdx a.searchObj) (l'.mapIdx a'.searchObj) := by
  rw [List.forall₂_iff_get]
  obtain ⟨hlen, hget⟩ := List.forall₂_iff_get.1 h
  refine ⟨by simp [hlen], fun n h1 h2 => ?_⟩
  rw [List.length_mapIdx] at h1 h2
  have ho := hget n h1 h2
  simp only [List.get_eq_getElem, List.getElem_mapIdx] at ho ⊢
  refine ⟨ho.zmin, ho.zmax, fun i j z => ?_⟩
  unfold AEReal.searchObj
  dsimp only
  rw [ho.answer i j z, hn, Option.map_map, Option.map_map]
  rfl

theorem search_renum {m m' : GenModel ℝ} (h : RenumModel σ π m m') : List.Forall₂ (RenumSearch σ π) m.search m'.search := by
  unfold GenModel.search
  rw [h.heap, List.forall₂_map_left_iff, List.forall₂_map_right_iff]
  refine h.strata.imp fun s s' hs => ⟨?_, ?_⟩
  · show s'.ext.zmin = s.ext.zmin
    rw [hs.same]
  · unfold StratumReal.search
    dsimp only
    rw [List.forall₂_map_left_iff, List.forall₂_map_right_iff]
    refine hs.aes.imp fun a a' ha => ⟨?_, ?_⟩
    · unfold AEReal.search
      dsimp only
      rw [ha.same]
    · exact searchObjs_renum (by rw [ha.same]) ha.objs

end Hyvr
