import Verif.Lemmas.Skip

/-!
Generation does not depend on which tests the search will skip (C114).
-/

namespace Hyvr

open Py Spec

def GObj.skipping (σ : ℕ → ℕ → ℝ → Bool) (o : GObj ℝ) : GObj ℝ := { o with answer := fun i j z => if σ i j z then none else o.answer i j z }

def AEReal.skipping (chan : String → Bool) (σ : ℕ → ℕ → ℕ → ℝ → Bool) (a : AEReal ℝ) : AEReal ℝ :=
  if a.isSheet = false ∧ chan a.name = true then { a with objs := a.objs.mapIdx fun oi o => o.skipping (σ oi) } else a

def StratumReal.skipping (chan : String → Bool) (σ : ℕ → ℕ → ℕ → ℕ → ℝ → Bool) (s : StratumReal ℝ) : StratumReal ℝ :=
  { s with aes := s.aes.mapIdx fun n a => a.skipping chan (σ n) }

/-- A model with objects of the given names that skip some cells. -/
def GenModel.skipping (chan : String → Bool) (σ : Skips ℝ) (m : GenModel ℝ) : GenModel ℝ :=
  { m with strata := m.strata.mapIdx fun si s => s.skipping chan (σ si) }

theorem bind_map {ε β γ δ : Type} {x : Except ε β} {k : β → Except ε γ} {k' : β → Except ε δ} {f : γ → δ} (h : ∀ b, x = .ok b → k' b = (k b).map f) :
    (x >>= k') = (x >>= k).map f := by
  cases x with
  | error e => rfl
  | ok b => exact h b rfl

theorem map_bind_map {ε β β' γ δ : Type} {x : Except ε β} {x' : Except ε β'} {F : β → β'} {k : β → Except ε γ} {k' : β' → Except ε δ} {f : γ → δ}
    (hx : x' = x.map F) (h : ∀ b, x = .ok b → k' (F b) = (k b).map f) : (x' >>= k') = (x >>= k).map f := by
  subst hx
  cases x with
  | error e => rfl
  | ok b => exact h b rfl

/-! ### Lists -/

theorem foldl_ext_skipping (σ : ℕ → ℕ → ℕ → ℝ → Bool) (l : List (GObj ℝ)) (e : Extent ℝ) :
    (l.mapIdx fun oi o => GObj.skipping (σ oi) o).foldl (fun e o => e.add o.zmin o.zmax) e = l.foldl (fun e o => e.add o.zmin o.zmax) e := by
  induction l generalizing σ e with
  | nil => rfl
  | cons o rest ih =>
    rw [List.mapIdx_cons, List.foldl_cons, List.foldl_cons]
    exact ih (fun k => σ (k + 1)) _

theorem numHa_skipping (σ : ℕ → ℕ → ℕ → ℝ → Bool) (l : List (GObj ℝ)) :
    (l.mapIdx fun oi o => GObj.skipping (σ oi) o).map GObj.numHa = l.map GObj.numHa := by
  apply List.ext_getElem?
  intro i
  simp only [List.getElem?_map, List.getElem?_mapIdx, Option.map_map]
  rfl

theorem numberObjs_skipping (σ : ℕ → ℕ → ℕ → ℝ → Bool) (n : ℤ) (l : List (GObj ℝ)) :
    numberObjs n (l.mapIdx fun oi o => GObj.skipping (σ oi) o) =
      ((numberObjs n l).1, (numberObjs n l).2.mapIdx fun oi o => GObj.skipping (σ oi) o) := by
  induction l generalizing σ n with
  | nil => rfl
  | cons o rest ih =>
    rw [List.mapIdx_cons]
    simp only [numberObjs]
    have := ih (fun k => σ (k + 1)) (n + 1)
    rw [this, List.mapIdx_cons]
    rfl

theorem AEReal.skipping_ext (chan : String → Bool) (σ : ℕ → ℕ → ℕ → ℝ → Bool) (a : AEReal ℝ) : (a.skipping chan σ).ext = a.ext := by
  unfold AEReal.skipping
  split_ifs <;> rfl

theorem numberAEs_skipping (chan : String → Bool) (σ : ℕ → ℕ → ℕ → ℕ → ℝ → Bool) (na nh : ℤ) (l : List (AEReal ℝ)) :
    numberAEs na nh (l.mapIdx fun n a => a.skipping chan (σ n)) =
      ((numberAEs na nh l).1, (numberAEs na nh l).2.1, (numberAEs na nh l).2.2.mapIdx fun n a => a.skipping chan (σ n)) := by
  induction l generalizing σ na nh with
  | nil => rfl
  | cons a rest ih =>
    rw [List.mapIdx_cons]
    simp only [numberAEs]
    have := fun m => ih (fun k => σ (k + 1)) (na + 1) m
    by_cases h : a.isSheet = false ∧ chan a.name = true
    · have e1 : a.skipping chan (σ 0) = { a with objs := a.objs.mapIdx fun oi o => o.skipping (σ 0 oi) } := if_pos h
      have e2 : ∀ (x : ℤ) (os : List (GObj ℝ)), AEReal.skipping chan (σ 0) { a with num := x, objs := os } =
        { a with num := x, objs := os.mapIdx fun oi o => o.skipping (σ 0 oi) } := fun x os => if_pos h
      rw [e1]
      dsimp only
      rw [numberObjs_skipping, this, List.mapIdx_cons, e2]
    · have e1 : a.skipping chan (σ 0) = a := if_neg h
      have e2 : ∀ (x : ℤ) (os : List (GObj ℝ)), AEReal.skipping chan (σ 0) { a with num := x, objs := os } = { a with num := x, objs := os } :=
        fun x os => if_neg h
      rw [e1, this, List.mapIdx_cons, e2]

theorem numberStrata_skipping (chan : String → Bool) (σ : Skips ℝ) (na nh : ℤ) (l : List (StratumReal ℝ)) :
    numberStrata na nh (l.mapIdx fun si s => s.skipping chan (σ si)) = (numberStrata na nh l).mapIdx fun si s => s.skipping chan (σ si) := by
  induction l generalizing σ na nh with
  | nil => rfl
  | cons s rest ih =>
    rw [List.mapIdx_cons]
    simp only [numberStrata]
    have e : (s.skipping chan (σ 0)).aes = s.aes.mapIdx fun n a => a.skipping chan (σ 0 n) := rfl
    rw [e, numberAEs_skipping, List.mapIdx_cons]
    dsimp only
    rw [ih (fun k => σ (k + 1))]
    rfl

/-! ### Generation -/

/-- The same draws, but with objects that skip some cells. -/
structure DrawSkips (chan : String → Bool) (σ : ℕ → ℕ → ℕ → ℝ → Bool) (d d' : AEDraw ℝ) : Prop where
  same : d' = { d with objs := d'.objs }
  objs : ∀ fuel t b tp, d'.objs fuel t b tp =
    (d.objs fuel t b tp).map fun e => e.map fun l => if chan t.name then l.mapIdx fun oi o => o.skipping (σ oi) else l

theorem genAE_skipping {chan : String → Bool} {σ : ℕ → ℕ → ℕ → ℝ → Bool} {d d' : AEDraw ℝ} (hd : DrawSkips chan σ d d') (g : GridZ ℝ)
    (sp : StratumParams ℝ) (t : ElemParams ℝ) (h : Heap ℝ) (bottom top : ℕ) :
    genAE g sp t d' h bottom top = (genAE g sp t d h bottom top).map fun x => (x.1, x.2.skipping chan σ) := by
  have e1 : d'.sheetFuel = d.sheetFuel := by rw [hd.same]
  have e2 : d'.sheet = d.sheet := by rw [hd.same]
  unfold genAE
  dsimp only
  rw [e1, e2, hd.objs]
  obtain ⟨F, hF⟩ : ∃ F : List (GObj ℝ) → List (GObj ℝ), F = fun l => if chan t.name then l.mapIdx fun oi o => GObj.skipping (σ oi) o else l :=
    ⟨_, rfl⟩
  rw [← hF]
  split_ifs with h1 h2
  · refine map_bind_map (F := F) ?_ (fun l _ => ?_)
    · cases d.objs d.sheetFuel t (h.get bottom) (h.get top) with
      | none => rfl
      | some e =>
        cases e <;> rfl
    · subst hF
      by_cases hc : chan t.name = true
      · simp only [if_pos hc, foldl_ext_skipping, numHa_skipping]
        simp [pure, Except.pure, Except.map, AEReal.skipping, hc]
      · simp only [if_neg hc]
        simp [pure, Except.pure, Except.map, AEReal.skipping, hc]
  · refine bind_map fun x _ => bind_map fun os _ => ?_
    simp [pure, Except.pure, Except.map, AEReal.skipping]
  · rfl

theorem aeGenLoop_skipping {chan : String → Bool} {σ : ℕ → ℕ → ℕ → ℕ → ℝ → Bool} {draws draws' : ℕ → AEDraw ℝ}
    (hd : ∀ n, DrawSkips chan (σ n) (draws n) (draws' n)) (g : GridZ ℝ) (sp : StratumParams ℝ) (types : List (ElemParams ℝ)) (bottom fuel : ℕ) (n : ℕ)
    (h : Heap ℝ) (cms : Contacts ℝ) (znow : ℝ) (top : ℕ) (curr : ElemParams ℝ) :
    aeGenLoop g sp types bottom draws' fuel n h cms znow top curr =
      (aeGenLoop g sp types bottom draws fuel n h cms znow top curr).map
        fun x => (x.1, x.2.1, x.2.2.mapIdx fun k a => a.skipping chan (σ (n + k))) := by
  induction fuel generalizing n h cms znow top curr with
  | zero =>
    unfold aeGenLoop
    split_ifs <;> rfl
  | succ fuel ih =>
    have e1 : (draws' n).next = (draws n).next := by rw [(hd n).same]
    have e2 : (draws' n).field = (draws n).field := by rw [(hd n).same]
    have e3 : nextZ sp (draws' n) znow = nextZ sp (draws n) znow := by
      unfold nextZ
      rw [(hd n).same]
    unfold aeGenLoop
    rw [e1, e2, e3]
    split_ifs with hz
    · refine bind_map fun _ _ => bind_map fun next _ => bind_map fun x _ => bind_map fun h2 _ => bind_map fun h3 _ => ?_
      refine map_bind_map (genAE_skipping (hd n) g sp curr h3 x.2.2.1 top) fun y _ => ?_
      refine map_bind_map (ih (n + 1) y.1 x.2.1 x.2.2.2 x.2.2.1 next) fun w _ => ?_
      simp only [pure, Except.pure, Except.map, List.mapIdx_cons]
      congr 5
      funext k a
      rw [show n + 1 + k = n + (k + 1) by omega]
    · rfl

theorem foldl_aes_skipping (chan : String → Bool) (σ : ℕ → ℕ → ℕ → ℕ → ℝ → Bool) (l : List (AEReal ℝ)) (e : Extent ℝ) :
    (l.mapIdx fun n a => AEReal.skipping chan (σ n) a).foldl (fun e a => e.add a.ext.zmin a.ext.zmax) e =
      l.foldl (fun e a => e.add a.ext.zmin a.ext.zmax) e := by
  induction l generalizing σ e with
  | nil => rfl
  | cons a rest ih =>
    rw [List.mapIdx_cons, List.foldl_cons, List.foldl_cons, AEReal.skipping_ext]
    exact ih (fun k => σ (k + 1)) _

/-- The same for a stratum. -/
structure StratumSkips (chan : String → Bool) (σ : ℕ → ℕ → ℕ → ℕ → ℝ → Bool) (d d' : StratumDraw ℝ) : Prop where
  same : d' = { d with aes := d'.aes }
  aes : ∀ n, DrawSkips chan (σ n) (d.aes n) (d'.aes n)

theorem genStratum_skipping {chan : String → Bool} {σ : ℕ → ℕ → ℕ → ℕ → ℝ → Bool} {d d' : StratumDraw ℝ} (hd : StratumSkips chan σ d d') (g : GridZ ℝ)
    (sp : StratumParams ℝ) (types : List (ElemParams ℝ)) (h : Heap ℝ) (cms : Contacts ℝ) (bottom top : ℕ) :
    genStratum g sp types d' h cms bottom top =
      (genStratum g sp types d h cms bottom top).map fun x => (x.1, x.2.1, x.2.2.skipping chan σ) := by
  have e1 : d'.first = d.first := by rw [hd.same]
  have e2 : d'.fuel = d.fuel := by rw [hd.same]
  unfold genStratum
  rw [e1, e2]
  refine bind_map fun first _ => map_bind_map (aeGenLoop_skipping hd.aes g sp types bottom d.fuel 0 h cms _ top first) fun x _ => ?_
  simp only [pure, Except.pure, Except.map, StratumReal.skipping, Nat.zero_add, foldl_aes_skipping]

theorem strataGenLoop_skipping {chan : String → Bool} {σ : Skips ℝ} {draws draws' : ℕ → StratumDraw ℝ}
    (hd : ∀ si, StratumSkips chan (σ si) (draws si) (draws' si)) (g : GridZ ℝ) (sd : StrataDict ℝ) (k si : ℕ) (h : Heap ℝ) (cms : Contacts ℝ) (top : ℕ) :
    strataGenLoop g sd draws' k si h cms top = (strataGenLoop g sd draws k si h cms top).map
      fun x => (x.1, x.2.1, x.2.2.mapIdx fun k s => s.skipping chan (σ (si + k))) := by
  induction k generalizing si h cms top with
  | zero => rfl
  | succ k ih =>
    have e1 : (draws' si).field = (draws si).field := by rw [(hd si).same]
    unfold strataGenLoop
    rw [e1]
    refine bind_map fun x _ => bind_map fun h2 _ => bind_map fun sp _ => bind_map fun types _ => ?_
    refine map_bind_map (genStratum_skipping (hd si) g sp types h2 cms x.2 top) fun y _ => ?_
    refine map_bind_map (ih (si + 1) y.1 y.2.1 x.2) fun w _ => ?_
    simp only [pure, Except.pure, Except.map, List.mapIdx_cons]
    congr 5
    funext k s
    rw [show si + 1 + k = si + (k + 1) by omega]

theorem generateModel_skipping {chan : String → Bool} {σ : Skips ℝ} {draws draws' : ℕ → StratumDraw ℝ}
    (hd : ∀ si, StratumSkips chan (σ si) (draws si) (draws' si)) (nx ny : ℕ) (g : GridZ ℝ) (sd : StrataDict ℝ) (cms : Contacts ℝ) :
    generateModel nx ny g sd cms draws' = (generateModel nx ny g sd cms draws).map fun x => (x.1.skipping chan σ, x.2) := by
  unfold generateModel
  refine bind_map fun x _ => map_bind_map (strataGenLoop_skipping hd g sd sd.n 0 x.1 cms x.2) fun y _ => ?_
  simp only [pure, Except.pure, Except.map, GenModel.skipping, Nat.zero_add, numberStrata_skipping]

/-! ### From the ini-file -/

/-- The random numbers with the given skips. -/
def ObjRandoms.skipAt (r : ObjRandoms) (σ : ℕ → ℕ → ℕ → ℝ → Bool) : ObjRandoms := { r with skip := σ }

theorem numbered_eq {β γ : Type} (f : ℕ → β → γ) (l : List β) : numbered f 0 l = l.mapIdx f := by
  apply List.ext_getElem?
  intro i
  rw [numbered_get, List.getElem?_mapIdx, Nat.zero_add]

def isChannel (shapes : List (String × ShapeRead)) (name : String) : Bool :=
  match shapes.lookup name with
  | some (.channel _) => true
  | _ => false

theorem objectsOf_skipping (g : Grid) (shapes : List (String × ShapeRead)) (r : ObjRandoms) (σ : ℕ → ℕ → ℕ → ℝ → Bool) (fuel : ℕ) (t : ElemParams ℝ)
    (bottom top : Surface ℝ) : objectsOf g shapes (r.skipAt σ) fuel t bottom top =
      (objectsOf g shapes r.unskipped fuel t bottom top).map fun e => e.map fun l =>
        if isChannel shapes t.name then l.mapIdx fun oi o => o.skipping (σ oi) else l := by
  unfold objectsOf isChannel
  cases hs : shapes.lookup t.name with
  | none => rfl
  | some s =>
    cases s with
    | sheet q => rfl
    | trough q =>
      show some ((placeTroughs q g r bottom top).map (numbered (fun n => Trough.toObj g (r.stray n)) 0)) =
        (some ((placeTroughs q g r bottom top).map (numbered (fun n => Trough.toObj g (r.stray n)) 0))).map fun e => e.map fun l => l
      cases placeTroughs q g r bottom top <;> rfl
    | channel q =>
      show ((placeChannels q g r fuel bottom top).map fun e => e.map (numbered (fun n => Channel.toObj g (σ n) (r.stray n)) 0)) =
        ((placeChannels q g r fuel bottom top).map fun e => e.map (numbered (fun n => Channel.toObj g (fun _ _ _ => false) (r.stray n)) 0)).map
          fun e => e.map fun l => l.mapIdx fun oi o => o.skipping (σ oi)
      cases placeChannels q g r fuel bottom top with
      | none => rfl
      | some e =>
        cases e with
        | error x => rfl
        | ok cs =>
          show some (Except.ok _) = some (Except.ok _)
          congr 2
          rw [numbered_eq, numbered_eq]
          dsimp only
          rw [List.mapIdx_mapIdx]
          rfl

theorem generateObjects_skipping {P : Parsed} {shapes : List (String × ShapeRead)} (hs : readShapes P = .ok shapes) (ids : List (String × ℕ))
    (r : Randoms ℝ) (o : ℕ → ℕ → ObjRandoms) (σ : Skips ℝ) (d : ℕ → StratumDraw ℝ) :
    generateObjects P ids r (fun si n => (o si n).skipAt (σ si n)) d =
      (generateObjects P ids r (fun si n => (o si n).unskipped) d).map fun x => (x.1.skipping (isChannel shapes) σ, x.2) := by
  unfold generateObjects
  rw [hs]
  refine bind_map fun g _ => bind_map fun sh hsh => ?_
  cases hsh
  unfold generateIni
  refine bind_map fun I _ => generateModel_skipping (fun si => ?_) _ _ _ _ _
  unfold GenInput.draws
  cases hI : I.reads[si]? with
  | none =>
    exact ⟨rfl, fun n => ⟨rfl, fun fuel t b tp => objectsOf_skipping g shapes (o si n) (σ si n) fuel t b tp⟩⟩
  | some s =>
    exact ⟨rfl, fun n => ⟨rfl, fun fuel t b tp => objectsOf_skipping g shapes (o si n) (σ si n) fuel t b tp⟩⟩

/-! ### What the search and the hydraulic parameters see -/

theorem ext_mapIdx {β γ : Type} {f f' : ℕ → β → γ} {l : List β} (h : ∀ i b, l[i]? = some b → f i b = f' i b) : l.mapIdx f = l.mapIdx f' := by
  apply List.ext_getElem?
  intro i
  rw [List.getElem?_mapIdx, List.getElem?_mapIdx]
  cases hb : l[i]? with
  | none => rfl
  | some b => exact congrArg some (h i b hb)

theorem map_eq_mapIdx {β γ : Type} (f : β → γ) (l : List β) : l.map f = l.mapIdx fun _ b => f b := by
  apply List.ext_getElem?
  intro i
  rw [List.getElem?_map, List.getElem?_mapIdx]

theorem AEReal.searchObj_skipping (a : AEReal ℝ) (oi : ℕ) (o : GObj ℝ) (σ : ℕ → ℕ → ℝ → Bool) :
    a.searchObj oi (o.skipping σ) = (a.searchObj oi o).skipping σ := by
  unfold AEReal.searchObj Obj.skipping GObj.skipping
  dsimp only
  congr 1
  funext i j z
  split_ifs <;> rfl

theorem Obj.skipping_nothing {o : Obj ℝ} {σ : ℕ → ℕ → ℝ → Bool} (h : ∀ i j z, σ i j z = false) : o.skipping σ = o := by
  unfold Obj.skipping
  simp [h]

/-- Skipping cells in the objects of a model is skipping them in the search, if no other objects skip cells. -/
theorem search_skipping {m : GenModel ℝ} {chan : String → Bool} {σ : Skips ℝ}
    (h : ∀ si s n a, m.strata[si]? = some s → s.aes[n]? = some a → ¬ (a.isSheet = false ∧ chan a.name = true) →
      ∀ oi o, a.objs[oi]? = some o → ∀ i j z, σ si n oi i j z = false) :
    (m.skipping chan σ).search = skipping σ m.search := by
  unfold GenModel.search GenModel.skipping skipping
  dsimp only
  rw [map_eq_mapIdx, map_eq_mapIdx, List.mapIdx_mapIdx, List.mapIdx_mapIdx]
  refine ext_mapIdx fun si s hs => ?_
  show StratumReal.search m.heap (s.skipping chan (σ si)) = (StratumReal.search m.heap s).skipping (σ si)
  unfold StratumReal.search StratumReal.skipping Stratum.skipping
  dsimp only
  congr 1
  rw [map_eq_mapIdx, map_eq_mapIdx, List.mapIdx_mapIdx, List.mapIdx_mapIdx]
  refine ext_mapIdx fun n a ha => ?_
  show AEReal.search m.heap (a.skipping chan (σ si n)) = (AEReal.search m.heap a).skipping (σ si n)
  by_cases hc : a.isSheet = false ∧ chan a.name = true
  · have e : a.skipping chan (σ si n) = { a with objs := a.objs.mapIdx fun oi o => o.skipping (σ si n oi) } := if_pos hc
    rw [e]
    unfold AEReal.search AE.skipping
    dsimp only
    congr 1
    rw [List.mapIdx_mapIdx, List.mapIdx_mapIdx]
    exact ext_mapIdx fun oi o _ => AEReal.searchObj_skipping a oi o (σ si n oi)
  · have e : a.skipping chan (σ si n) = a := if_neg hc
    rw [e]
    unfold AEReal.search AE.skipping
    dsimp only
    congr 1
    rw [List.mapIdx_mapIdx]
    exact ext_mapIdx fun oi o ho => (Obj.skipping_nothing (h si s n a hs ha hc oi o ho)).symm

theorem mapPy_mapIdx {β γ : Type} {f : β → Except PyErr γ} {F : ℕ → β → β} (h : ∀ i b, f (F i b) = f b) (l : List β) :
    mapPy f (l.mapIdx F) = mapPy f l := by
  induction l generalizing F with
  | nil => rfl
  | cons b rest ih =>
    rw [List.mapIdx_cons]
    simp only [mapPy]
    rw [h, ih (F := fun i => F (i + 1)) fun i b => h (i + 1) b]

theorem backgroundOf_skipping (P : Parsed) (chan : String → Bool) (σ : ℕ → ℕ → ℕ → ℝ → Bool) (a : AEReal ℝ) :
    backgroundOf P (a.skipping chan σ) = backgroundOf P a := by
  unfold AEReal.skipping
  split_ifs <;> rfl

theorem paramsOf_skipping (P : Parsed) (s : Shape) (m : GenModel ℝ) (chan : String → Bool) (σ : Skips ℝ) (field : FieldSource) (c : Cells ℝ) :
    paramsOf P s (m.skipping chan σ) field c = paramsOf P s m field c := by
  unfold paramsOf hydraulicsOf
  have e : mapPy (fun st : StratumReal ℝ => mapPy (backgroundOf P) st.aes) (m.skipping chan σ).strata =
      mapPy (fun st : StratumReal ℝ => mapPy (backgroundOf P) st.aes) m.strata :=
    mapPy_mapIdx (fun i b => mapPy_mapIdx (fun j a => backgroundOf_skipping P chan _ a) b.aes) m.strata
  rw [e]

end Hyvr
