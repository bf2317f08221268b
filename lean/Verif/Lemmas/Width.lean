import Verif.Lemmas.Near
import Verif.Lemmas.Surface
import Verif.Lemmas.Sweep
import Verif.Lemmas.Made

/-!
Generation between flat contacts in two grids with different numbers of columns, in lockstep, and assignment in a column of each (C135).
-/

namespace Hyvr

open Py

/-! ### Level surfaces -/

/-- Two surfaces at the same constant level on grids of different sizes. -/
structure SameLevel (nx ny nx' ny' : ℕ) (s s' : Surface ℝ) : Prop where
  level : ∃ c, (∀ i < nx, ∀ j < ny, s.vals i j = c) ∧ ∀ i < nx', ∀ j < ny', s'.vals i j = c
  zmean : s'.zmean = s.zmean
  zmin : s'.zmin = s.zmin
  zmax : s'.zmax = s.zmax

/-- Two states of the surfaces, on grids with columns, in which all surfaces are at the same constant levels. -/
structure LevelHeap (nx ny nx' ny' : ℕ) (h h' : Heap ℝ) : Prop where
  cols : h.nx = nx
  rows : h.ny = ny
  cols' : h'.nx = nx'
  rows' : h'.ny = ny'
  next : h'.next = h.next
  get : ∀ r, SameLevel nx ny nx' ny' (h.get r) (h'.get r)

variable {nx ny nx' ny' : ℕ}

theorem flat_mode {z : ℝ} : (ContactModel.flat z).mode ≠ "random" := by
  show "flat" ≠ "random"
  decide

theorem surface_level (a b a' b' : ℕ) {cm : ContactModel ℝ} (hc : cm.mode ≠ "random") (f f' : ℕ → ℕ → ℝ) :
    RelX (SameLevel nx ny nx' ny') (Surface.init a b cm f) (Surface.init a' b' cm f') := by
  unfold Surface.init
  cases cm.z with
  | none => exact rfl
  | some z =>
    dsimp only
    rw [if_neg hc]
    split_ifs
    · exact ⟨⟨z * 1, fun _ _ _ _ => rfl, fun _ _ _ _ => rfl⟩, rfl, rfl, rfl⟩
    · exact rfl

theorem create_level {h h' : Heap ℝ} (H : LevelHeap nx ny nx' ny' h h') {cm : ContactModel ℝ} (hc : cm.mode ≠ "random") (f f' : ℕ → ℕ → ℝ) :
    RelX (fun x y : Heap ℝ × ℕ => LevelHeap nx ny nx' ny' x.1 y.1 ∧ y.2 = x.2) (h.create cm f) (h'.create cm f') := by
  unfold Heap.create
  refine (surface_level (nx := nx) (ny := ny) (nx' := nx') (ny' := ny') _ _ _ _ hc f f').bind fun s s' hs => ?_
  refine ⟨⟨H.cols, H.rows, H.cols', H.rows', ?_, fun r => ?_⟩, H.next⟩
  · exact congrArg (· + 1) H.next
  · dsimp only
    rw [H.next]
    by_cases hr : r = h.next
    · rw [hr, Function.update_self, Function.update_self]
      exact hs
    · rw [Function.update_of_ne hr, Function.update_of_ne hr]
      exact H.get r

theorem lower_level {h h' : Heap ℝ} (H : LevelHeap nx ny nx' ny' h h') (hx : 0 < nx) (hy : 0 < ny) (hx' : 0 < nx') (hy' : 0 < ny') (s o : ℕ) :
    RelX (LevelHeap nx ny nx' ny') (h.useLower s o) (h'.useLower s o) := by
  obtain ⟨k, hk⟩ := (useLower_isOk h s o).2 ⟨H.cols ▸ hx, H.rows ▸ hy⟩
  obtain ⟨k', hk'⟩ := (useLower_isOk h' s o).2 ⟨H.cols' ▸ hx', H.rows' ▸ hy'⟩
  have e := useLower_effect hk
  have e' := useLower_effect hk'
  rw [hk, hk']
  refine ⟨e.nx.trans H.cols, e.ny.trans H.rows, e'.nx.trans H.cols', e'.ny.trans H.rows', e'.next.trans (H.next.trans e.next.symm), fun r => ?_⟩
  by_cases hr : r = s
  · subst hr
    obtain ⟨c, c1, c2⟩ := (H.get r).level
    obtain ⟨b, b1, b2⟩ := (H.get o).level
    have q1 : ∀ i < nx, ∀ j < ny, (k.get r).vals i j = min c b := fun i hi j hj => by
      rw [e.inside i (H.cols ▸ hi) j (H.rows ▸ hj), c1 i hi j hj, b1 i hi j hj]
    have q2 : ∀ i < nx', ∀ j < ny', (k'.get r).vals i j = min c b := fun i hi j hj => by
      rw [e'.inside i (H.cols' ▸ hi) j (H.rows' ▸ hj), c2 i hi j hj, b2 i hi j hj]
    obtain ⟨i, hi, j, hj, hm⟩ := e.zmin_mem
    obtain ⟨i', hi', j', hj', hm'⟩ := e'.zmin_mem
    refine ⟨⟨min c b, q1, q2⟩, ?_, ?_, ?_⟩
    · rw [e.zmean, e'.zmean, (H.get r).zmean]
    · rw [← hm, ← hm', q1 i (H.cols ▸ hi) j (H.rows ▸ hj), q2 i' (H.cols' ▸ hi') j' (H.rows' ▸ hj')]
    · rw [e.zmax, e'.zmax, (H.get r).zmax]
  · rw [e.other r hr, e'.other r hr]
    exact H.get r

theorem higher_level {h h' : Heap ℝ} (H : LevelHeap nx ny nx' ny' h h') (hx : 0 < nx) (hy : 0 < ny) (hx' : 0 < nx') (hy' : 0 < ny') (s o : ℕ) :
    RelX (LevelHeap nx ny nx' ny') (h.useHigher s o) (h'.useHigher s o) := by
  obtain ⟨k, hk⟩ := (useHigher_isOk h s o).2 ⟨H.cols ▸ hx, H.rows ▸ hy⟩
  obtain ⟨k', hk'⟩ := (useHigher_isOk h' s o).2 ⟨H.cols' ▸ hx', H.rows' ▸ hy'⟩
  have e := useHigher_effect hk
  have e' := useHigher_effect hk'
  rw [hk, hk']
  refine ⟨e.nx.trans H.cols, e.ny.trans H.rows, e'.nx.trans H.cols', e'.ny.trans H.rows', e'.next.trans (H.next.trans e.next.symm), fun r => ?_⟩
  by_cases hr : r = s
  · subst hr
    obtain ⟨c, c1, c2⟩ := (H.get r).level
    obtain ⟨b, b1, b2⟩ := (H.get o).level
    have q1 : ∀ i < nx, ∀ j < ny, (k.get r).vals i j = max c b := fun i hi j hj => by
      rw [e.inside i (H.cols ▸ hi) j (H.rows ▸ hj), c1 i hi j hj, b1 i hi j hj]
    have q2 : ∀ i < nx', ∀ j < ny', (k'.get r).vals i j = max c b := fun i hi j hj => by
      rw [e'.inside i (H.cols' ▸ hi) j (H.rows' ▸ hj), c2 i hi j hj, b2 i hi j hj]
    obtain ⟨i, hi, j, hj, hm⟩ := e.zmax_mem
    obtain ⟨i', hi', j', hj', hm'⟩ := e'.zmax_mem
    refine ⟨⟨max c b, q1, q2⟩, ?_, ?_, ?_⟩
    · rw [e.zmean, e'.zmean, (H.get r).zmean]
    · rw [e.zmin, e'.zmin, (H.get r).zmin]
    · rw [← hm, ← hm', q1 i (H.cols ▸ hi) j (H.rows ▸ hj), q2 i' (H.cols' ▸ hi') j' (H.rows' ▸ hj')]
  · rw [e.other r hr, e'.other r hr]
    exact H.get r

/-! ### Generated parts that agree in one column of each grid -/

structure AtObj (i j i' j' : ℕ) (o o' : GObj ℝ) : Prop where
  zmin : o'.zmin = o.zmin
  zmax : o'.zmax = o.zmax
  numHa : o'.numHa = o.numHa
  answer : ∀ z, o'.answer i' j' z = o.answer i j z

structure AtAE (i j i' j' : ℕ) (a a' : AEReal ℝ) : Prop where
  same : a' = { a with objs := a'.objs }
  objs : List.Forall₂ (AtObj i j i' j') a.objs a'.objs

structure AtStratum (i j i' j' : ℕ) (s s' : StratumReal ℝ) : Prop where
  same : s' = { s with aes := s'.aes }
  aes : List.Forall₂ (AtAE i j i' j') s.aes s'.aes

def AtPlaced (i j i' j' : ℕ) : Option (Except PyErr (List (GObj ℝ))) → Option (Except PyErr (List (GObj ℝ))) → Prop
  | some x, some y => RelX (List.Forall₂ (AtObj i j i' j')) x y
  | none, none => True
  | _, _ => False

structure AtDraw (nx ny nx' ny' i j i' j' : ℕ) (d d' : AEDraw ℝ) : Prop where
  height : d'.height = d.height
  avulU : d'.avulU = d.avulU
  avulAmt : d'.avulAmt = d.avulAmt
  next : d'.next = d.next
  sheetFuel : d'.sheetFuel = d.sheetFuel
  objs : ∀ fuel t b b' u u', SameLevel nx ny nx' ny' b b' → SameLevel nx ny nx' ny' u u' → AtPlaced i j i' j' (d.objs fuel t b u) (d'.objs fuel t b' u')
  sheet : ∀ t n z, RelX (fun p p' : Payload ℝ => ∀ w, p' i' j' w = p i j w) (d.sheet t n z) (d'.sheet t n z)

structure AtStratumDraw (nx ny nx' ny' i j i' j' : ℕ) (d d' : StratumDraw ℝ) : Prop where
  first : d'.first = d.first
  fuel : d'.fuel = d.fuel
  aes : ∀ n, AtDraw nx ny nx' ny' i j i' j' (d.aes n) (d'.aes n)

variable {i j i' j' : ℕ}

theorem at_ext {l l' : List (GObj ℝ)} (h : List.Forall₂ (AtObj i j i' j') l l') (e : Extent ℝ) :
    l'.foldl (fun e o => e.add o.zmin o.zmax) e = l.foldl (fun e o => e.add o.zmin o.zmax) e := by
  induction h generalizing e with
  | nil => rfl
  | cons h _ ih => rw [List.foldl_cons, List.foldl_cons, h.zmin, h.zmax, ih]

theorem at_numHa {l l' : List (GObj ℝ)} (h : List.Forall₂ (AtObj i j i' j') l l') : l'.map GObj.numHa = l.map GObj.numHa := by
  induction h with
  | nil => rfl
  | cons h _ ih => rw [List.map_cons, List.map_cons, h.numHa, ih]

theorem sheetRaw_level {h h' : Heap ℝ} (H : LevelHeap nx ny nx' ny' h h') (b t : ℕ) : SheetRaw.new h' b t = SheetRaw.new h b t := by
  unfold SheetRaw.new
  rw [(H.get b).zmin, (H.get t).zmax, (H.get b).zmean]

theorem sheetLoop_level (hx : 0 < nx) (hy : 0 < ny) (hx' : 0 < nx') (hy' : 0 < ny') (ab : ℕ) (th : ℝ) (fuel : ℕ) {h h' : Heap ℝ}
    (H : LevelHeap nx ny nx' ny' h h') (zb : ℝ) (top : ℕ) (e : Extent ℝ) :
    RelX (fun x y : Heap ℝ × Extent ℝ × List (SheetRaw ℝ) => LevelHeap nx ny nx' ny' x.1 y.1 ∧ y.2 = x.2) (sheetLoop ab th fuel h zb top e)
      (sheetLoop ab th fuel h' zb top e) := by
  induction fuel generalizing h h' zb top e with
  | zero => exact rfl
  | succ fuel ih =>
    unfold sheetLoop
    split_ifs
    · refine (RelX.lift (create_level H flat_mode _ _)).bind ?_
      rintro ⟨h1, b⟩ ⟨h1', b'⟩ ⟨H1, rfl⟩
      refine (RelX.lift (lower_level H1 hx hy hx' hy' _ _)).bind fun h2 h2' H2 => ?_
      refine (RelX.lift (higher_level H2 hx hy hx' hy' _ _)).bind fun h3 h3' H3 => ?_
      dsimp only
      rw [sheetRaw_level H3]
      refine (ih H3 _ _ _).bind ?_
      rintro ⟨h4, e4, l4⟩ ⟨h4', e4', l4'⟩ ⟨H4, h5⟩
      cases h5
      exact ⟨H4, rfl⟩
    · dsimp only
      rw [sheetRaw_level H]
      exact ⟨H, rfl⟩

theorem sheetObjs_at {h h' : Heap ℝ} (H : LevelHeap nx ny nx' ny' h h') (hi : i < nx) (hj : j < ny) (hi' : i' < nx') (hj' : j' < ny')
    {mk mk' : ℕ → ℝ → Except PyErr (Payload ℝ)} (hm : ∀ n z, RelX (fun p p' : Payload ℝ => ∀ w, p' i' j' w = p i j w) (mk n z) (mk' n z)) (n : ℕ)
    (l : List (SheetRaw ℝ)) : RelX (List.Forall₂ (AtObj i j i' j')) (sheetObjs h mk n l) (sheetObjs h' mk' n l) := by
  induction l generalizing n with
  | nil => exact List.Forall₂.nil
  | cons s rest ih =>
    unfold sheetObjs
    refine (hm n s.zmean).bind fun p p' hp => (ih (n + 1)).bind fun os os' hos => ?_
    refine List.Forall₂.cons ⟨rfl, rfl, rfl, fun z => ?_⟩ hos
    obtain ⟨b, b1, b2⟩ := (H.get s.bottom).level
    obtain ⟨t, t1, t2⟩ := (H.get s.top).level
    unfold SheetRaw.toObj
    dsimp only
    rw [hp z, b1 i hi j hj, b2 i' hi' j' hj', t1 i hi j hj, t2 i' hi' j' hj']

theorem genAE_at {d d' : AEDraw ℝ} (hd : AtDraw nx ny nx' ny' i j i' j' d d') (hi : i < nx) (hj : j < ny) (hi' : i' < nx')
    (hj' : j' < ny') (g : GridZ ℝ) (sp : StratumParams ℝ) (t : ElemParams ℝ) {h h' : Heap ℝ} (H : LevelHeap nx ny nx' ny' h h') (bottom top : ℕ) :
    RelX (fun x y : Heap ℝ × AEReal ℝ => LevelHeap nx ny nx' ny' x.1 y.1 ∧ AtAE i j i' j' x.2 y.2) (genAE g sp t d h bottom top) (genAE g sp t d' h' bottom top) := by
  unfold genAE
  dsimp only
  rw [hd.sheetFuel, (H.get bottom).zmin, (H.get top).zmax]
  split_ifs with h1 h2
  · refine RelX.bind (R := List.Forall₂ (AtObj i j i' j')) ?_ fun l l' hl => ⟨H, ?_⟩
    · have := hd.objs d.sheetFuel t _ _ _ _ (H.get bottom) (H.get top)
      revert this
      cases d.objs d.sheetFuel t (h.get bottom) (h.get top) <;> cases d'.objs d.sheetFuel t (h'.get bottom) (h'.get top) <;> intro this <;>
        first | exact this.elim | skip
      · exact rfl
      · exact RelX.lift this
    · refine ⟨?_, hl⟩
      dsimp only
      rw [at_ext hl, at_numHa hl]
  · refine (sheetLoop_level (Nat.zero_lt_of_lt hi) (Nat.zero_lt_of_lt hj) (Nat.zero_lt_of_lt hi') (Nat.zero_lt_of_lt hj') bottom _ _ H _ top _).bind ?_
    rintro ⟨h3, e3, l3⟩ ⟨h3', e3', l3'⟩ ⟨H3, h4⟩
    cases h4
    refine RelX.bind (RelX.lift (sheetObjs_at H3 hi hj hi' hj' (hd.sheet t) 0 l3)) fun l l' hl => ⟨H3, ?_⟩
    refine ⟨?_, hl⟩
    dsimp only
    rw [at_numHa hl]
  · exact rfl

/-- All contact models are other than random. -/
def NoRandom (cms : Contacts ℝ) : Prop := ∀ n, (cms n).mode ≠ "random"

theorem aeBottom_level {h h' : Heap ℝ} (H : LevelHeap nx ny nx' ny' h h') {cms : Contacts ℝ} (hc : NoRandom cms) (bottom : ℕ) (n : String)
    (f f' : ℕ → ℕ → ℝ) (z : ℝ) :
    RelX (fun x y : Heap ℝ × Contacts ℝ × ℕ × ℝ => LevelHeap nx ny nx' ny' x.1 y.1 ∧ y.2 = x.2 ∧ NoRandom x.2.1) (aeBottom bottom h cms n f z)
      (aeBottom bottom h' cms n f' z) := by
  unfold aeBottom
  rw [(H.get bottom).zmean]
  split_ifs
  · exact ⟨H, rfl, hc⟩
  · refine (RelX.lift (create_level H (cm := { cms n with z := some z }) (hc n) f f')).bind ?_
    rintro ⟨h1, b⟩ ⟨h1', b'⟩ ⟨H1, rfl⟩
    refine ⟨H1, rfl, fun m => ?_⟩
    dsimp only
    by_cases hm : m = n
    · rw [hm, Function.update_self]
      exact hc n
    · rw [Function.update_of_ne hm]
      exact hc m

theorem aeGenLoop_at {draws draws' : ℕ → AEDraw ℝ} (hd : ∀ n, AtDraw nx ny nx' ny' i j i' j' (draws n) (draws' n)) (hi : i < nx)
    (hj : j < ny) (hi' : i' < nx') (hj' : j' < ny') (g : GridZ ℝ) (sp : StratumParams ℝ) (types : List (ElemParams ℝ))
    (bottom fuel n : ℕ) {h h' : Heap ℝ} (H : LevelHeap nx ny nx' ny' h h') {cms : Contacts ℝ} (hc : NoRandom cms) (znow : ℝ) (top : ℕ)
    (curr : ElemParams ℝ) :
    RelX (fun x y : Heap ℝ × Contacts ℝ × List (AEReal ℝ) => LevelHeap nx ny nx' ny' x.1 y.1 ∧ y.2.1 = x.2.1 ∧ NoRandom x.2.1 ∧
        List.Forall₂ (AtAE i j i' j') x.2.2 y.2.2)
      (aeGenLoop g sp types bottom draws fuel n h cms znow top curr) (aeGenLoop g sp types bottom draws' fuel n h' cms znow top curr) := by
  induction fuel generalizing n h h' cms znow top curr with
  | zero =>
    unfold aeGenLoop
    rw [(H.get bottom).zmean]
    split_ifs
    · exact rfl
    · exact ⟨H, rfl, hc, .nil⟩
  | succ fuel ih =>
    have e3 : nextZ sp (draws' n) znow = nextZ sp (draws n) znow := by
      unfold nextZ
      rw [(hd n).height, (hd n).avulU, (hd n).avulAmt]
    unfold aeGenLoop
    rw [(hd n).next, e3, (H.get bottom).zmean]
    split_ifs with hz
    · refine RelX.same fun _ _ => RelX.same fun next _ => (aeBottom_level H hc bottom next.name _ _ _).bind ?_
      rintro ⟨h1, c1, b, z1⟩ ⟨h1', y⟩ ⟨H1, h5, hc1⟩
      cases h5
      have p1 := Nat.zero_lt_of_lt hi
      have p2 := Nat.zero_lt_of_lt hj
      have p3 := Nat.zero_lt_of_lt hi'
      have p4 := Nat.zero_lt_of_lt hj'
      refine (RelX.lift (lower_level H1 p1 p2 p3 p4 _ _)).bind fun h2 h2' H2 => ?_
      refine (RelX.lift (higher_level H2 p1 p2 p3 p4 _ _)).bind fun h3 h3' H3 => ?_
      refine RelX.bind (genAE_at (hd n) hi hj hi' hj' g sp curr H3 b top) ?_
      rintro ⟨h4, a⟩ ⟨h4', a'⟩ ⟨H4, ha⟩
      refine RelX.bind (ih (n + 1) H4 hc1 z1 b next) ?_
      rintro ⟨h5, c, l⟩ ⟨h5', c', l'⟩ ⟨H5, rfl, hc5, hl⟩
      exact ⟨H5, rfl, hc5, .cons ha hl⟩
    · exact ⟨H, rfl, hc, .nil⟩

theorem at_exts {l l' : List (AEReal ℝ)} (h : List.Forall₂ (AtAE i j i' j') l l') (e : Extent ℝ) :
    l'.foldl (fun e a => e.add a.ext.zmin a.ext.zmax) e = l.foldl (fun e a => e.add a.ext.zmin a.ext.zmax) e := by
  induction h generalizing e with
  | nil => rfl
  | @cons a a' _ _ h _ ih =>
    have : a'.ext = a.ext := by rw [h.same]
    rw [List.foldl_cons, List.foldl_cons, this, ih]

theorem genStratum_at {d d' : StratumDraw ℝ} (hd : AtStratumDraw nx ny nx' ny' i j i' j' d d') (hi : i < nx) (hj : j < ny)
    (hi' : i' < nx') (hj' : j' < ny') (g : GridZ ℝ) (sp : StratumParams ℝ) (types : List (ElemParams ℝ)) {h h' : Heap ℝ}
    (H : LevelHeap nx ny nx' ny' h h') {cms : Contacts ℝ} (hc : NoRandom cms) (bottom top : ℕ) :
    RelX (fun x y : Heap ℝ × Contacts ℝ × StratumReal ℝ => LevelHeap nx ny nx' ny' x.1 y.1 ∧ y.2.1 = x.2.1 ∧ NoRandom x.2.1 ∧ AtStratum i j i' j' x.2.2 y.2.2)
      (genStratum g sp types d h cms bottom top) (genStratum g sp types d' h' cms bottom top) := by
  unfold genStratum
  dsimp only
  rw [hd.first, hd.fuel, (H.get bottom).zmin, (H.get top).zmax, (H.get top).zmean]
  refine RelX.same fun first _ => RelX.bind (aeGenLoop_at hd.aes hi hj hi' hj' g sp types bottom d.fuel 0 H hc _ top first) ?_
  rintro ⟨h5, c, l⟩ ⟨h5', c', l'⟩ ⟨H5, rfl, hc5, hl⟩
  exact ⟨H5, rfl, hc5, by dsimp only; rw [at_exts hl], hl⟩

theorem strataGenLoop_at {draws draws' : ℕ → StratumDraw ℝ} (hd : ∀ si, AtStratumDraw nx ny nx' ny' i j i' j' (draws si) (draws' si))
    (hi : i < nx) (hj : j < ny) (hi' : i' < nx') (hj' : j' < ny') (g : GridZ ℝ) (sd : StrataDict ℝ) (hs : ∀ cm ∈ sd.contacts, cm.mode ≠ "random")
    (k si : ℕ) {h h' : Heap ℝ} (H : LevelHeap nx ny nx' ny' h h') {cms : Contacts ℝ} (hc : NoRandom cms) (top : ℕ) :
    RelX (fun x y : Heap ℝ × Contacts ℝ × List (StratumReal ℝ) => LevelHeap nx ny nx' ny' x.1 y.1 ∧ y.2.1 = x.2.1 ∧
        List.Forall₂ (AtStratum i j i' j') x.2.2 y.2.2)
      (strataGenLoop g sd draws k si h cms top) (strataGenLoop g sd draws' k si h' cms top) := by
  induction k generalizing si h h' cms top with
  | zero => exact ⟨H, rfl, .nil⟩
  | succ k ih =>
    unfold strataGenLoop
    refine RelX.bind (R := fun x y : Heap ℝ × ℕ => LevelHeap nx ny nx' ny' x.1 y.1 ∧ y.2 = x.2) ?_ ?_
    · unfold stratumBottom
      split_ifs
      · exact RelX.lift (create_level H flat_mode _ _)
      · exact RelX.same fun cm hcm => RelX.lift (create_level H (hs cm (fromEnd_mem hcm)) _ _)
    rintro ⟨h1, b⟩ ⟨h1', b'⟩ ⟨H1, rfl⟩
    refine (RelX.lift (lower_level H1 (Nat.zero_lt_of_lt hi) (Nat.zero_lt_of_lt hj) (Nat.zero_lt_of_lt hi') (Nat.zero_lt_of_lt hj') _ _)).bind fun h2 h2' H2 => ?_
    refine RelX.same fun sp _ => RelX.same fun types _ => ?_
    refine RelX.bind (genStratum_at (hd si) hi hj hi' hj' g sp types H2 hc _ top) ?_
    rintro ⟨h4, c, s⟩ ⟨h4', c', s'⟩ ⟨H4, rfl, hc4, hs4⟩
    refine RelX.bind (ih (si + 1) H4 hc4 _) ?_
    rintro ⟨h5, c, l⟩ ⟨h5', c', l'⟩ ⟨H5, rfl, hl⟩
    exact ⟨H5, rfl, .cons hs4 hl⟩

theorem numberObjs_at {l l' : List (GObj ℝ)} (h : List.Forall₂ (AtObj i j i' j') l l') (n : ℤ) :
    (numberObjs n l').1 = (numberObjs n l).1 ∧ List.Forall₂ (AtObj i j i' j') (numberObjs n l).2 (numberObjs n l').2 := by
  induction h generalizing n with
  | nil => exact ⟨rfl, .nil⟩
  | cons h _ ih =>
    simp only [numberObjs]
    exact ⟨(ih _).1, .cons ⟨h.zmin, h.zmax, rfl, h.answer⟩ (ih _).2⟩

theorem numberAEs_at {l l' : List (AEReal ℝ)} (h : List.Forall₂ (AtAE i j i' j') l l') (na nh : ℤ) :
    (numberAEs na nh l').1 = (numberAEs na nh l).1 ∧ (numberAEs na nh l').2.1 = (numberAEs na nh l).2.1 ∧
    List.Forall₂ (AtAE i j i' j') (numberAEs na nh l).2.2 (numberAEs na nh l').2.2 := by
  induction h generalizing na nh with
  | nil => exact ⟨rfl, rfl, .nil⟩
  | @cons a a' _ _ h _ ih =>
    simp only [numberAEs]
    obtain ⟨h1, h2⟩ := numberObjs_at h.objs nh
    rw [h1]
    obtain ⟨i1, i2, i3⟩ := ih (na + 1) (numberObjs nh a.objs).1
    refine ⟨i1, i2, .cons ⟨?_, h2⟩ i3⟩
    rw [h.same]

theorem numberStrata_at {l l' : List (StratumReal ℝ)} (h : List.Forall₂ (AtStratum i j i' j') l l') (na nh : ℤ) :
    List.Forall₂ (AtStratum i j i' j') (numberStrata na nh l) (numberStrata na nh l') := by
  induction h generalizing na nh with
  | nil => exact .nil
  | @cons s s' _ _ h _ ih =>
    simp only [numberStrata]
    obtain ⟨h1, h2, h3⟩ := numberAEs_at h.aes na nh
    rw [h1, h2]
    refine .cons ⟨?_, h3⟩ (ih _ _)
    rw [h.same]

/-- Models that agree in one column of each grid. -/
structure AtModel (nx ny nx' ny' i j i' j' : ℕ) (m m' : GenModel ℝ) : Prop where
  heap : LevelHeap nx ny nx' ny' m.heap m'.heap
  strata : List.Forall₂ (AtStratum i j i' j') m.strata m'.strata

theorem generateModel_at {draws draws' : ℕ → StratumDraw ℝ} (hd : ∀ si, AtStratumDraw nx ny nx' ny' i j i' j' (draws si) (draws' si))
    (hi : i < nx) (hj : j < ny) (hi' : i' < nx') (hj' : j' < ny') (g : GridZ ℝ) (sd : StrataDict ℝ) (hs : ∀ cm ∈ sd.contacts, cm.mode ≠ "random")
    {cms : Contacts ℝ} (hc : NoRandom cms) :
    RelX (fun x y : GenModel ℝ × Contacts ℝ => AtModel nx ny nx' ny' i j i' j' x.1 y.1 ∧ y.2 = x.2) (generateModel nx ny g sd cms draws)
      (generateModel nx' ny' g sd cms draws') := by
  unfold generateModel
  have H0 : LevelHeap nx ny nx' ny' { nx, ny, next := 0, get := fun _ => { vals := fun _ _ => 0, zmean := 0, zmin := 0, zmax := 0 } }
      { nx := nx', ny := ny', next := 0, get := fun _ => { vals := fun _ _ => 0, zmean := 0, zmin := 0, zmax := 0 } } :=
    ⟨rfl, rfl, rfl, rfl, rfl, fun r => ⟨⟨0, fun _ _ _ _ => rfl, fun _ _ _ _ => rfl⟩, rfl, rfl, rfl⟩⟩
  refine RelX.bind (RelX.lift (create_level H0 flat_mode _ _)) ?_
  rintro ⟨h1, b⟩ ⟨h1', b'⟩ ⟨H1, rfl⟩
  refine RelX.bind (strataGenLoop_at hd hi hj hi' hj' g sd hs sd.n 0 H1 hc _) ?_
  rintro ⟨h5, c, l⟩ ⟨h5', c', l'⟩ ⟨H5, rfl, hl⟩
  exact ⟨⟨H5, numberStrata_at hl 0 0⟩, rfl⟩

/-! ### Assignment -/

structure AtTest (i j i' j' : ℕ) (o o' : Obj ℝ) : Prop where
  zmin : o'.zmin = o.zmin
  zmax : o'.zmax = o.zmax
  test : ∀ z, o'.test i' j' z = o.test i j z

structure AtSearchAE (i j i' j' : ℕ) (a a' : AE ℝ) : Prop where
  zmin : a'.zmin = a.zmin
  isSheet : a'.isSheet = a.isSheet
  num : a'.num = a.num
  typeId : a'.typeId = a.typeId
  bgFacies : a'.bgFacies = a.bgFacies
  bgAzim : a'.bgAzim = a.bgAzim
  bgDip : a'.bgDip = a.bgDip
  top : a'.top i' j' = a.top i j
  bottom : a'.bottom i' j' = a.bottom i j
  objs : List.Forall₂ (AtTest i j i' j') a.objs a'.objs

structure AtSearch (i j i' j' : ℕ) (s s' : Stratum ℝ) : Prop where
  zmin : s'.zmin = s.zmin
  aes : List.Forall₂ (AtSearchAE i j i' j') s.aes s'.aes

theorem objLoop_at {l l' : List (Obj ℝ)} (h : List.Forall₂ (AtTest i j i' j') l l') (z : ℝ) (num typeId : ℤ) (oi : ℕ) (g : Geo ℝ) :
    objLoop i' j' z num typeId l' oi g = objLoop i j z num typeId l oi g := by
  induction h generalizing oi g with
  | nil => rfl
  | @cons o o' _ _ h _ ih =>
    have e : o'.assign i' j' z g = o.assign i j z g := by
      unfold Obj.assign
      rw [h.test]
    simp only [objLoop]
    rw [h.zmin, h.zmax, e, ih, ih]

theorem assignAE_at {a a' : AE ℝ} (h : AtSearchAE i j i' j' a a') (z : ℝ) (oi : ℕ) (g : Geo ℝ) : assignAE a' i' j' z oi g = assignAE a i j z oi g := by
  unfold assignAE
  rw [h.num, h.typeId, objLoop_at (List.forall₂_drop oi h.objs), h.isSheet, h.bgFacies, h.bgAzim, h.bgDip, h.top, h.bottom]

theorem aeLoop_at {l l' : List (AE ℝ)} (h : List.Forall₂ (AtSearchAE i j i' j') l l') (z : ℝ) (aei oi : ℕ) (g : Geo ℝ) :
    aeLoop i' j' z l' aei oi g = aeLoop i j z l aei oi g := by
  induction h generalizing aei oi g with
  | nil => rfl
  | @cons a a' _ _ h _ ih =>
    simp only [aeLoop]
    rw [h.zmin, assignAE_at h, ih, ih]

theorem strataLoop_at {l l' : List (Stratum ℝ)} (h : List.Forall₂ (AtSearch i j i' j') l l') (z : ℝ) (p : Pos) (g : Geo ℝ) :
    strataLoop i' j' z l' p g = strataLoop i j z l p g := by
  induction h generalizing p g with
  | nil => rfl
  | @cons s s' _ _ h _ ih =>
    have e : assignStratum s' i' j' z p.aei p.oi g = assignStratum s i j z p.aei p.oi g := by
      unfold assignStratum
      exact aeLoop_at (List.forall₂_drop p.aei h.aes) z _ _ g
    simp only [strataLoop]
    rw [h.zmin, e, ih, ih]

theorem assignCell_at {l l' : List (Stratum ℝ)} (h : List.Forall₂ (AtSearch i j i' j') l l') (z : ℝ) (p : Pos) :
    assignCell l' i' j' z p = assignCell l i j z p := by
  unfold assignCell
  exact strataLoop_at (List.forall₂_drop p.si h) z p _

theorem posAfter_at {l l' : List (Stratum ℝ)} (h : List.Forall₂ (AtSearch i j i' j') l l') (gridz : ℕ → ℝ) (nz m : ℕ) :
    posAfter l' gridz nz i' j' m = posAfter l gridz nz i j m := by
  induction m with
  | zero => rfl
  | succ m ih =>
    unfold posAfter
    rw [ih, assignCell_at h]

theorem cells_at {l l' : List (Stratum ℝ)} (h : List.Forall₂ (AtSearch i j i' j') l l') (gridz : ℕ → ℝ) (nz : ℕ) (hi : i < nx) (hj : j < ny) (hi' : i' < nx')
    (hj' : j' < ny') (k : ℕ) : (assignPoints l' gridz nx' ny' nz).at i' j' k = (assignPoints l gridz nx ny nz).at i j k := by
  rw [assignPoints_at, assignPoints_at]
  unfold sweepResult
  rw [posAfter_at h, assignCell_at h]
  simp only [hi, hj, hi', hj']

theorem searchObjs_at {a a' : AEReal ℝ} (hn : a'.objectNumHa = a.objectNumHa) {l l' : List (GObj ℝ)} (h : List.Forall₂ (AtObj i j i' j') l l') :
    List.Forall₂ (AtTest i j i' j') (l.mapIdx a.searchObj) (l'.mapIdx a'.searchObj) := by
  rw [List.forall₂_iff_get]
  obtain ⟨hlen, hget⟩ := List.forall₂_iff_get.1 h
  refine ⟨by simp [hlen], fun n h1 h2 => ?_⟩
  rw [List.length_mapIdx] at h1 h2
  have ho := hget n h1 h2
  simp only [List.get_eq_getElem, List.getElem_mapIdx] at ho ⊢
  refine ⟨ho.zmin, ho.zmax, fun z => ?_⟩
  unfold AEReal.searchObj
  dsimp only
  rw [ho.answer z, hn]

theorem search_at {m m' : GenModel ℝ} (h : AtModel nx ny nx' ny' i j i' j' m m') (hi : i < nx) (hj : j < ny) (hi' : i' < nx') (hj' : j' < ny') :
    List.Forall₂ (AtSearch i j i' j') m.search m'.search := by
  have hv : ∀ r, (m'.heap.get r).vals i' j' = (m.heap.get r).vals i j := fun r => by
    obtain ⟨c, c1, c2⟩ := (h.heap.get r).level
    rw [c1 i hi j hj, c2 i' hi' j' hj']
  unfold GenModel.search
  rw [List.forall₂_map_left_iff, List.forall₂_map_right_iff]
  refine h.strata.imp fun s s' hs => ⟨?_, ?_⟩
  · show s'.ext.zmin = s.ext.zmin
    rw [hs.same]
  · unfold StratumReal.search
    dsimp only
    rw [List.forall₂_map_left_iff, List.forall₂_map_right_iff]
    refine hs.aes.imp fun a a' ha => ?_
    have hs := ha.same
    unfold AEReal.search
    refine ⟨?_, ?_, ?_, ?_, ?_, ?_, ?_, ?_, ?_, searchObjs_at (by rw [hs]) ha.objs⟩ <;> dsimp only <;> rw [hs]
    · exact hv _
    · exact hv _

end Hyvr
