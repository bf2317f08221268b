import Verif.Model.Parameters
import Mathlib.Data.List.Forall2

/-!
Generation and assignment of points use the objects of an AE only through their vertical ranges and their answers for the columns of the grid (C122).
-/

namespace Hyvr

open Py

/-! ### Results that are related, or the same exception -/

def RelX {ε β γ : Type} (R : β → γ → Prop) : Except ε β → Except ε γ → Prop
  | .ok a, .ok b => R a b
  | .error e, .error e' => e = e'
  | _, _ => False

theorem RelX.bind {ε β β' γ γ' : Type} {R : β → β' → Prop} {S : γ → γ' → Prop} {x : Except ε β} {y : Except ε β'} (h : RelX R x y)
    {k : β → Except ε γ} {k' : β' → Except ε γ'} (hk : ∀ a b, R a b → RelX S (k a) (k' b)) : RelX S (x >>= k) (y >>= k') := by
  cases x <;> cases y <;> first | exact h.elim | skip
  · exact h
  · exact hk _ _ h

theorem RelX.same {ε β γ γ' : Type} {S : γ → γ' → Prop} {x : Except ε β} {k : β → Except ε γ} {k' : β → Except ε γ'}
    (hk : ∀ a, x = .ok a → RelX S (k a) (k' a)) : RelX S (x >>= k) (x >>= k') := by
  cases x with
  | error e => exact rfl
  | ok a => exact hk a rfl

theorem RelX.eq {ε β : Type} {x y : Except ε β} (h : RelX (fun a b => a = b) x y) : x = y := by
  cases x <;> cases y <;> first | exact h.elim | skip
  · exact congrArg _ h
  · exact congrArg _ h

theorem RelX.mono {ε β γ : Type} {R S : β → γ → Prop} {x : Except ε β} {y : Except ε γ} (h : RelX R x y) (hRS : ∀ a b, R a b → S a b) : RelX S x y := by
  cases x <;> cases y <;> first | exact h.elim | skip
  · exact h
  · exact hRS _ _ h

theorem RelX.ok {ε β γ : Type} {R : β → γ → Prop} {x : Except ε β} {y : Except ε γ} (h : RelX R x y) {a : β} (hx : x = .ok a) : ∃ b, y = .ok b ∧ R a b := by
  subst hx
  cases y with
  | error e => exact h.elim
  | ok b => exact ⟨b, rfl, h⟩

theorem RelX.lift {β γ : Type} {R : β → γ → Prop} {x : Except PyErr β} {y : Except PyErr γ} (h : RelX R x y) : RelX R (liftErr x) (liftErr y) := by
  cases x <;> cases y <;> first | exact h.elim | skip
  · exact congrArg Stop.err h
  · exact h

/-! ### Objects that agree in the columns of the grid -/

structure NearObj (nx ny : ℕ) (o o' : GObj ℝ) : Prop where
  zmin : o'.zmin = o.zmin
  zmax : o'.zmax = o.zmax
  numHa : o'.numHa = o.numHa
  answer : ∀ i j z, i < nx → j < ny → o'.answer i j z = o.answer i j z

structure NearAE (nx ny : ℕ) (a a' : AEReal ℝ) : Prop where
  same : a' = { a with objs := a'.objs }
  objs : List.Forall₂ (NearObj nx ny) a.objs a'.objs

structure NearStratum (nx ny : ℕ) (s s' : StratumReal ℝ) : Prop where
  same : s' = { s with aes := s'.aes }
  aes : List.Forall₂ (NearAE nx ny) s.aes s'.aes

structure NearModel (nx ny : ℕ) (m m' : GenModel ℝ) : Prop where
  heap : m'.heap = m.heap
  strata : List.Forall₂ (NearStratum nx ny) m.strata m'.strata

/-- Placed objects, or none if a loop did not end. -/
def NearPlaced (nx ny : ℕ) : Option (Except PyErr (List (GObj ℝ))) → Option (Except PyErr (List (GObj ℝ))) → Prop
  | some x, some y => RelX (List.Forall₂ (NearObj nx ny)) x y
  | none, none => True
  | _, _ => False

structure NearDraw (nx ny : ℕ) (d d' : AEDraw ℝ) : Prop where
  same : d' = { d with objs := d'.objs, sheet := d'.sheet }
  objs : ∀ fuel t b tp, NearPlaced nx ny (d.objs fuel t b tp) (d'.objs fuel t b tp)
  sheet : ∀ t n z, RelX (fun p p' : Payload ℝ => ∀ i j w, i < nx → j < ny → p' i j w = p i j w) (d.sheet t n z) (d'.sheet t n z)

structure NearStratumDraw (nx ny : ℕ) (d d' : StratumDraw ℝ) : Prop where
  same : d' = { d with aes := d'.aes }
  aes : ∀ n, NearDraw nx ny (d.aes n) (d'.aes n)

variable {nx ny : ℕ}

/-! ### Generation -/

theorem near_ext {l l' : List (GObj ℝ)} (h : List.Forall₂ (NearObj nx ny) l l') (e : Extent ℝ) :
    l'.foldl (fun e o => e.add o.zmin o.zmax) e = l.foldl (fun e o => e.add o.zmin o.zmax) e := by
  induction h generalizing e with
  | nil => rfl
  | cons h _ ih => rw [List.foldl_cons, List.foldl_cons, h.zmin, h.zmax, ih]

theorem near_numHa {l l' : List (GObj ℝ)} (h : List.Forall₂ (NearObj nx ny) l l') : l'.map GObj.numHa = l.map GObj.numHa := by
  induction h with
  | nil => rfl
  | cons h _ ih => rw [List.map_cons, List.map_cons, h.numHa, ih]

theorem sheetObjs_near {mk mk' : ℕ → ℝ → Except PyErr (Payload ℝ)}
    (hm : ∀ n z, RelX (fun p p' : Payload ℝ => ∀ i j w, i < nx → j < ny → p' i j w = p i j w) (mk n z) (mk' n z)) (h : Heap ℝ) (n : ℕ) (l : List (SheetRaw ℝ)) :
    RelX (List.Forall₂ (NearObj nx ny)) (sheetObjs h mk n l) (sheetObjs h mk' n l) := by
  induction l generalizing n with
  | nil => exact List.Forall₂.nil
  | cons s rest ih =>
    unfold sheetObjs
    refine (hm n s.zmean).bind fun p p' hp => (ih (n + 1)).bind fun os os' hos => ?_
    refine List.Forall₂.cons ⟨rfl, rfl, rfl, fun i j z hi hj => ?_⟩ hos
    unfold SheetRaw.toObj
    dsimp only
    rw [hp i j z hi hj]

theorem genAE_near {d d' : AEDraw ℝ} (hd : NearDraw nx ny d d') (g : GridZ ℝ) (sp : StratumParams ℝ) (t : ElemParams ℝ) (h : Heap ℝ) (bottom top : ℕ) :
    RelX (fun x y : Heap ℝ × AEReal ℝ => y.1 = x.1 ∧ NearAE nx ny x.2 y.2) (genAE g sp t d h bottom top) (genAE g sp t d' h bottom top) := by
  have e1 : d'.sheetFuel = d.sheetFuel := by rw [hd.same]
  unfold genAE
  dsimp only
  rw [e1]
  split_ifs with h1 h2
  · refine RelX.bind (R := List.Forall₂ (NearObj nx ny)) ?_ fun l l' hl => ⟨rfl, ?_⟩
    · have := hd.objs d.sheetFuel t (h.get bottom) (h.get top)
      revert this
      cases d.objs d.sheetFuel t (h.get bottom) (h.get top) <;> cases d'.objs d.sheetFuel t (h.get bottom) (h.get top) <;> intro this <;>
        first | exact this.elim | skip
      · exact rfl
      · exact RelX.lift this
    · refine ⟨?_, hl⟩
      dsimp only
      rw [near_ext hl, near_numHa hl]
  · refine RelX.same fun x _ => RelX.bind (RelX.lift (sheetObjs_near (hd.sheet t) x.1 0 x.2.2)) fun l l' hl => ⟨rfl, ?_⟩
    refine ⟨?_, hl⟩
    dsimp only
    rw [near_numHa hl]
  · exact rfl

theorem aeGenLoop_near {draws draws' : ℕ → AEDraw ℝ} (hd : ∀ n, NearDraw nx ny (draws n) (draws' n)) (g : GridZ ℝ) (sp : StratumParams ℝ)
    (types : List (ElemParams ℝ)) (bottom fuel n : ℕ) (h : Heap ℝ) (cms : Contacts ℝ) (znow : ℝ) (top : ℕ) (curr : ElemParams ℝ) :
    RelX (fun x y : Heap ℝ × Contacts ℝ × List (AEReal ℝ) => y.1 = x.1 ∧ y.2.1 = x.2.1 ∧ List.Forall₂ (NearAE nx ny) x.2.2 y.2.2)
      (aeGenLoop g sp types bottom draws fuel n h cms znow top curr) (aeGenLoop g sp types bottom draws' fuel n h cms znow top curr) := by
  induction fuel generalizing n h cms znow top curr with
  | zero =>
    unfold aeGenLoop
    split_ifs
    · exact rfl
    · exact ⟨rfl, rfl, .nil⟩
  | succ fuel ih =>
    have e1 : (draws' n).next = (draws n).next := by rw [(hd n).same]
    have e2 : (draws' n).field = (draws n).field := by rw [(hd n).same]
    have e3 : nextZ sp (draws' n) znow = nextZ sp (draws n) znow := by
      unfold nextZ
      rw [(hd n).same]
    unfold aeGenLoop
    rw [e1, e2, e3]
    split_ifs with hz
    · refine RelX.same fun _ _ => RelX.same fun next _ => RelX.same fun x _ => RelX.same fun h2 _ => RelX.same fun h3 _ => ?_
      refine RelX.bind (genAE_near (hd n) g sp curr h3 x.2.2.1 top) ?_
      rintro ⟨h4, a⟩ ⟨h4', a'⟩ ⟨rfl, ha⟩
      refine RelX.bind (ih (n + 1) h4' x.2.1 x.2.2.2 x.2.2.1 next) ?_
      rintro ⟨h5, c, l⟩ ⟨h5', c', l'⟩ ⟨rfl, rfl, hl⟩
      exact ⟨rfl, rfl, .cons ha hl⟩
    · exact ⟨rfl, rfl, .nil⟩

theorem near_exts {l l' : List (AEReal ℝ)} (h : List.Forall₂ (NearAE nx ny) l l') (e : Extent ℝ) :
    l'.foldl (fun e a => e.add a.ext.zmin a.ext.zmax) e = l.foldl (fun e a => e.add a.ext.zmin a.ext.zmax) e := by
  induction h generalizing e with
  | nil => rfl
  | @cons a a' _ _ h _ ih =>
    have : a'.ext = a.ext := by rw [h.same]
    rw [List.foldl_cons, List.foldl_cons, this, ih]

theorem genStratum_near {d d' : StratumDraw ℝ} (hd : NearStratumDraw nx ny d d') (g : GridZ ℝ) (sp : StratumParams ℝ) (types : List (ElemParams ℝ)) (h : Heap ℝ)
    (cms : Contacts ℝ) (bottom top : ℕ) :
    RelX (fun x y : Heap ℝ × Contacts ℝ × StratumReal ℝ => y.1 = x.1 ∧ y.2.1 = x.2.1 ∧ NearStratum nx ny x.2.2 y.2.2)
      (genStratum g sp types d h cms bottom top) (genStratum g sp types d' h cms bottom top) := by
  have e1 : d'.first = d.first := by rw [hd.same]
  have e2 : d'.fuel = d.fuel := by rw [hd.same]
  unfold genStratum
  rw [e1, e2]
  refine RelX.same fun first _ => RelX.bind (aeGenLoop_near hd.aes g sp types bottom d.fuel 0 h cms _ top first) ?_
  rintro ⟨h5, c, l⟩ ⟨h5', c', l'⟩ ⟨rfl, rfl, hl⟩
  exact ⟨rfl, rfl, by dsimp only; rw [near_exts hl], hl⟩

theorem strataGenLoop_near {draws draws' : ℕ → StratumDraw ℝ} (hd : ∀ si, NearStratumDraw nx ny (draws si) (draws' si)) (g : GridZ ℝ) (sd : StrataDict ℝ)
    (k si : ℕ) (h : Heap ℝ) (cms : Contacts ℝ) (top : ℕ) :
    RelX (fun x y : Heap ℝ × Contacts ℝ × List (StratumReal ℝ) => y.1 = x.1 ∧ y.2.1 = x.2.1 ∧ List.Forall₂ (NearStratum nx ny) x.2.2 y.2.2)
      (strataGenLoop g sd draws k si h cms top) (strataGenLoop g sd draws' k si h cms top) := by
  induction k generalizing si h cms top with
  | zero => exact ⟨rfl, rfl, .nil⟩
  | succ k ih =>
    have e1 : (draws' si).field = (draws si).field := by rw [(hd si).same]
    unfold strataGenLoop
    rw [e1]
    refine RelX.same fun x _ => RelX.same fun h2 _ => RelX.same fun sp _ => RelX.same fun types _ => ?_
    refine RelX.bind (genStratum_near (hd si) g sp types h2 cms x.2 top) ?_
    rintro ⟨h4, c, s⟩ ⟨h4', c', s'⟩ ⟨rfl, rfl, hs⟩
    refine RelX.bind (ih (si + 1) h4' c' x.2) ?_
    rintro ⟨h5, c, l⟩ ⟨h5', c', l'⟩ ⟨rfl, rfl, hl⟩
    exact ⟨rfl, rfl, .cons hs hl⟩

/-! ### Numbering -/

theorem numberObjs_near {l l' : List (GObj ℝ)} (h : List.Forall₂ (NearObj nx ny) l l') (n : ℤ) :
    (numberObjs n l').1 = (numberObjs n l).1 ∧ List.Forall₂ (NearObj nx ny) (numberObjs n l).2 (numberObjs n l').2 := by
  induction h generalizing n with
  | nil => exact ⟨rfl, .nil⟩
  | cons h _ ih =>
    simp only [numberObjs]
    exact ⟨(ih _).1, .cons ⟨h.zmin, h.zmax, rfl, h.answer⟩ (ih _).2⟩

theorem numberAEs_near {l l' : List (AEReal ℝ)} (h : List.Forall₂ (NearAE nx ny) l l') (na nh : ℤ) :
    (numberAEs na nh l').1 = (numberAEs na nh l).1 ∧ (numberAEs na nh l').2.1 = (numberAEs na nh l).2.1 ∧
    List.Forall₂ (NearAE nx ny) (numberAEs na nh l).2.2 (numberAEs na nh l').2.2 := by
  induction h generalizing na nh with
  | nil => exact ⟨rfl, rfl, .nil⟩
  | @cons a a' _ _ h _ ih =>
    simp only [numberAEs]
    obtain ⟨h1, h2⟩ := numberObjs_near h.objs nh
    rw [h1]
    obtain ⟨i1, i2, i3⟩ := ih (na + 1) (numberObjs nh a.objs).1
    refine ⟨i1, i2, .cons ⟨?_, h2⟩ i3⟩
    rw [h.same]

theorem numberStrata_near {l l' : List (StratumReal ℝ)} (h : List.Forall₂ (NearStratum nx ny) l l') (na nh : ℤ) :
    List.Forall₂ (NearStratum nx ny) (numberStrata na nh l) (numberStrata na nh l') := by
  induction h generalizing na nh with
  | nil => exact .nil
  | @cons s s' _ _ h _ ih =>
    simp only [numberStrata]
    obtain ⟨h1, h2, h3⟩ := numberAEs_near h.aes na nh
    rw [h1, h2]
    refine .cons ⟨?_, h3⟩ (ih _ _)
    rw [h.same]

theorem generateModel_near {draws draws' : ℕ → StratumDraw ℝ} (hd : ∀ si, NearStratumDraw nx ny (draws si) (draws' si)) (mx my : ℕ) (g : GridZ ℝ)
    (sd : StrataDict ℝ) (cms : Contacts ℝ) :
    RelX (fun x y : GenModel ℝ × Contacts ℝ => NearModel nx ny x.1 y.1 ∧ y.2 = x.2) (generateModel mx my g sd cms draws) (generateModel mx my g sd cms draws') := by
  unfold generateModel
  refine RelX.same fun x _ => RelX.bind (strataGenLoop_near hd g sd sd.n 0 x.1 cms x.2) ?_
  rintro ⟨h5, c, l⟩ ⟨h5', c', l'⟩ ⟨rfl, rfl, hl⟩
  exact ⟨⟨rfl, numberStrata_near hl 0 0⟩, rfl⟩

theorem generateIni_near {P : Parsed} {ids : List (String × ℕ)} {r : Randoms ℝ} {d d' : ℕ → StratumDraw ℝ} (hd : ∀ si, NearStratumDraw nx ny (d si) (d' si)) :
    RelX (fun x y : GenModel ℝ × Contacts ℝ => NearModel nx ny x.1 y.1 ∧ y.2 = x.2) (generateIni P ids r d) (generateIni P ids r d') := by
  unfold generateIni
  refine RelX.same fun I _ => generateModel_near (fun si => ?_) _ _ _ _ _
  unfold GenInput.draws
  cases hI : I.reads[si]? with
  | none => exact hd si
  | some s =>
    refine ⟨?_, fun n => ⟨?_, ((hd si).aes n).objs, ((hd si).aes n).sheet⟩⟩
    · unfold drawStratum
      dsimp only
      rw [(hd si).same]
    · unfold drawStratum
      dsimp only
      rw [((hd si).aes n).same]

/-! ### Assignment -/

/-- Objects of the search that agree in a column. -/
structure NearTest (i j : ℕ) (o o' : Obj ℝ) : Prop where
  zmin : o'.zmin = o.zmin
  zmax : o'.zmax = o.zmax
  test : ∀ z, o'.test i j z = o.test i j z

structure NearSearchAE (i j : ℕ) (a a' : AE ℝ) : Prop where
  same : a' = { a with objs := a'.objs }
  objs : List.Forall₂ (NearTest i j) a.objs a'.objs

structure NearSearch (i j : ℕ) (s s' : Stratum ℝ) : Prop where
  zmin : s'.zmin = s.zmin
  aes : List.Forall₂ (NearSearchAE i j) s.aes s'.aes

theorem objLoop_near {i j : ℕ} {l l' : List (Obj ℝ)} (h : List.Forall₂ (NearTest i j) l l') (z : ℝ) (num typeId : ℤ) (oi : ℕ) (g : Geo ℝ) :
    objLoop i j z num typeId l' oi g = objLoop i j z num typeId l oi g := by
  induction h generalizing oi g with
  | nil => rfl
  | @cons o o' _ _ h _ ih =>
    have e : o'.assign i j z g = o.assign i j z g := by
      unfold Obj.assign
      rw [h.test]
    simp only [objLoop]
    rw [h.zmin, h.zmax, e, ih, ih]

theorem assignAE_near {i j : ℕ} {a a' : AE ℝ} (h : NearSearchAE i j a a') (z : ℝ) (oi : ℕ) (g : Geo ℝ) : assignAE a' i j z oi g = assignAE a i j z oi g := by
  have e : ∀ a1 a2 : AE ℝ, a2 = { a1 with objs := a2.objs } → ∀ l l', List.Forall₂ (NearTest i j) l l' →
      objLoop i j z a2.num a2.typeId l' oi g = objLoop i j z a1.num a1.typeId l oi g := by
    intro a1 a2 h12 l l' hl
    rw [objLoop_near hl, h12]
  unfold assignAE
  rw [e a a' h.same _ _ (List.forall₂_drop oi h.objs), h.same]

theorem aeLoop_near {i j : ℕ} {l l' : List (AE ℝ)} (h : List.Forall₂ (NearSearchAE i j) l l') (z : ℝ) (aei oi : ℕ) (g : Geo ℝ) :
    aeLoop i j z l' aei oi g = aeLoop i j z l aei oi g := by
  induction h generalizing aei oi g with
  | nil => rfl
  | @cons a a' _ _ h _ ih =>
    have e : a'.zmin = a.zmin := by rw [h.same]
    simp only [aeLoop]
    rw [e, assignAE_near h, ih, ih]

theorem strataLoop_near {i j : ℕ} {l l' : List (Stratum ℝ)} (h : List.Forall₂ (NearSearch i j) l l') (z : ℝ) (p : Pos) (g : Geo ℝ) :
    strataLoop i j z l' p g = strataLoop i j z l p g := by
  induction h generalizing p g with
  | nil => rfl
  | @cons s s' _ _ h _ ih =>
    have e : assignStratum s' i j z p.aei p.oi g = assignStratum s i j z p.aei p.oi g := by
      unfold assignStratum
      exact aeLoop_near (List.forall₂_drop p.aei h.aes) z _ _ g
    simp only [strataLoop]
    rw [h.zmin, e, ih, ih]

theorem column_near {i j : ℕ} {l l' : List (Stratum ℝ)} (h : List.Forall₂ (NearSearch i j) l l') (gridz : ℕ → ℝ) (nz : ℕ) (c : Cells ℝ) :
    column l' gridz nz i j c = column l gridz nz i j c := by
  have e : cellStep l' gridz i j = cellStep l gridz i j := by
    funext st zi
    unfold cellStep assignCell
    rw [strataLoop_near (List.forall₂_drop st.2.si h)]
  unfold column
  rw [e]

theorem assignPoints_near {l l' : List (Stratum ℝ)} (h : ∀ i j, i < nx → j < ny → List.Forall₂ (NearSearch i j) l l') (gridz : ℕ → ℝ) (nz : ℕ) :
    assignPoints l' gridz nx ny nz = assignPoints l gridz nx ny nz := by
  unfold assignPoints
  refine List.foldl_ext _ _ _ fun c n hn => ?_
  rw [List.mem_range] at hn
  have hy : 0 < ny := by
    rcases Nat.eq_zero_or_pos ny with rfl | h
    · simp at hn
    · exact h
  exact column_near (h _ _ (Nat.div_lt_of_lt_mul (by rwa [mul_comm] at hn)) (Nat.mod_lt _ hy)) gridz nz c

theorem searchObjs_near {i j : ℕ} (hi : i < nx) (hj : j < ny) {a a' : AEReal ℝ} (hn : a'.objectNumHa = a.objectNumHa) {l l' : List (GObj ℝ)}
    (h : List.Forall₂ (NearObj nx ny) l l') : List.Forall₂ (NearTest i j) (l.mapIdx a.searchObj) (l'.mapIdx a'.searchObj) := by
  rw [List.forall₂_iff_get]
  obtain ⟨hlen, hget⟩ := List.forall₂_iff_get.1 h
  refine ⟨by simp [hlen], fun n h1 h2 => ?_⟩
  rw [List.length_mapIdx] at h1 h2
  have ho := hget n h1 h2
  simp only [List.get_eq_getElem, List.getElem_mapIdx] at ho ⊢
  refine ⟨ho.zmin, ho.zmax, fun z => ?_⟩
  unfold AEReal.searchObj
  dsimp only
  rw [ho.answer i j z hi hj, hn]

theorem search_near {m m' : GenModel ℝ} (h : NearModel nx ny m m') {i j : ℕ} (hi : i < nx) (hj : j < ny) : List.Forall₂ (NearSearch i j) m.search m'.search := by
  unfold GenModel.search
  rw [h.heap, List.forall₂_map_left_iff, List.forall₂_map_right_iff]
  refine h.strata.imp fun s s' hs => ⟨?_, ?_⟩
  · show s'.ext.zmin = s.ext.zmin
    rw [hs.same]
  · unfold StratumReal.search
    dsimp only
    rw [List.forall₂_map_left_iff, List.forall₂_map_right_iff]
    refine hs.aes.imp fun a a' ha => ⟨?_, ?_⟩
    · unfold AEReal.search
      dsimp only
      rw [ha.same]
    · exact searchObjs_near hi hj (by rw [ha.same]) ha.objs

theorem mapPy_forall₂_eq {β γ : Type} {R : β → β → Prop} {f : β → Except PyErr γ} (hf : ∀ b b', R b b' → f b' = f b) {l l' : List β}
    (h : List.Forall₂ R l l') : mapPy f l' = mapPy f l := by
  induction h with
  | nil => rfl
  | cons h _ ih =>
    simp only [mapPy]
    rw [hf _ _ h, ih]

theorem paramsOf_near {m m' : GenModel ℝ} (h : NearModel nx ny m m') (P : Parsed) (s : Shape) (field : FieldSource) (c : Cells ℝ) :
    paramsOf P s m' field c = paramsOf P s m field c := by
  unfold paramsOf hydraulicsOf
  have e : mapPy (fun st : StratumReal ℝ => mapPy (backgroundOf P) st.aes) m'.strata = mapPy (fun st : StratumReal ℝ => mapPy (backgroundOf P) st.aes) m.strata :=
    mapPy_forall₂_eq (fun s s' hs => mapPy_forall₂_eq (fun a a' ha => by
      rw [ha.same]
      rfl) hs.aes) h.strata
  rw [e]

end Hyvr
