import Verif.Model.Strata
import Verif.Props.Surface

/-!
Invariants of the generation of sheets, AEs and strata.
-/

set_option linter.unusedSectionVars false

namespace Hyvr

open Py

variable {α : Type} [Field α] [LinearOrder α]

/-! ### Except plumbing -/

theorem liftErr_ok {β : Type} {x : Except PyErr β} {b : β} : liftErr x = .ok b ↔ x = .ok b := by
  cases x <;> simp [liftErr]

theorem bind_ok {ε β γ : Type} {x : Except ε β} {f : β → Except ε γ} {c : γ} :
    (x >>= f) = .ok c ↔ ∃ b, x = .ok b ∧ f b = .ok c := by
  cases x <;> simp [bind, Except.bind]

theorem pure_ok {ε β : Type} {b c : β} : (pure b : Except ε β) = .ok c ↔ b = c := by
  simp [pure, Except.pure]

/-! ### Heaps -/

/-- All existing surfaces are bounded by their cached extrema. -/
def HeapOK (h : Heap α) : Prop := ∀ r < h.next, Bounds h.nx h.ny (h.get r)

/-- Surface `a` is nowhere above surface `b`. -/
def Below (h : Heap α) (a b : ℕ) : Prop := ∀ i < h.nx, ∀ j < h.ny, (h.get a).vals i j ≤ (h.get b).vals i j

/-- `h'` arises from `h` without changing values or means of existing surfaces. -/
structure Keep (h h' : Heap α) : Prop where
  nx : h'.nx = h.nx
  ny : h'.ny = h.ny
  next : h.next ≤ h'.next
  vals : ∀ r < h.next, ∀ i < h.nx, ∀ j < h.ny, (h'.get r).vals i j = (h.get r).vals i j
  zmean : ∀ r < h.next, (h'.get r).zmean = (h.get r).zmean

theorem Keep.refl (h : Heap α) : Keep h h := ⟨rfl, rfl, le_rfl, fun _ _ _ _ _ _ => rfl, fun _ _ => rfl⟩

theorem Keep.trans {h h' h'' : Heap α} (k : Keep h h') (k' : Keep h' h'') : Keep h h'' where
  nx := k'.nx.trans k.nx
  ny := k'.ny.trans k.ny
  next := k.next.trans k'.next
  vals r hr i hi j hj := by
    rw [k'.vals r (lt_of_lt_of_le hr k.next) i (by rw [k.nx]; exact hi) j (by rw [k.ny]; exact hj), k.vals r hr i hi j hj]
  zmean r hr := by rw [k'.zmean r (lt_of_lt_of_le hr k.next), k.zmean r hr]

theorem Keep.below {h h' : Heap α} (k : Keep h h') {a b : ℕ} (ha : a < h.next) (hb : b < h.next) :
    Below h' a b ↔ Below h a b := by
  unfold Below
  rw [k.nx, k.ny]
  constructor
  · intro hh i hi j hj
    rw [← k.vals a ha i hi j hj, ← k.vals b hb i hi j hj]; exact hh i hi j hj
  · intro hh i hi j hj
    rw [k.vals a ha i hi j hj, k.vals b hb i hi j hj]; exact hh i hi j hj

theorem Below.trans {h : Heap α} {a b c : ℕ} (h1 : Below h a b) (h2 : Below h b c) : Below h a c :=
  fun i hi j hj => (h1 i hi j hj).trans (h2 i hi j hj)

theorem Below.refl (h : Heap α) (a : ℕ) : Below h a a := fun _ _ _ _ => le_rfl

theorem keep_create {h h' : Heap α} {cm field r} (hc : h.create cm field = .ok (h', r)) : Keep h h' := by
  obtain ⟨s, -, -, rfl⟩ := create_ok hc
  refine ⟨rfl, rfl, Nat.le_succ _, ?_, ?_⟩
  · intro r hr i _ j _
    simp [Function.update_of_ne hr.ne]
  · intro r hr
    simp [Function.update_of_ne hr.ne]

theorem heapOK_create {h h' : Heap α} {cm field r} (hok : HeapOK h) (hc : h.create cm field = .ok (h', r)) :
    HeapOK h' := by
  obtain ⟨s, hs, -, rfl⟩ := create_ok hc
  intro r hr
  rcases Nat.lt_succ_iff_lt_or_eq.1 hr with hlt | rfl
  · simpa [Function.update_of_ne hlt.ne] using hok r hlt
  · simpa using init_bounds hs

theorem heapOK_lower {h h' : Heap α} {s o : ℕ} (hok : HeapOK h) (e : LowerEffect h s o h') : HeapOK h' := by
  intro r hr
  rw [e.next] at hr
  rw [e.nx, e.ny]
  by_cases hrs : r = s
  · subst hrs
    intro i hi j hj
    refine ⟨e.zmin_le i hi j hj, ?_⟩
    rw [e.inside i hi j hj, e.zmax]
    exact (min_le_left _ _).trans (hok r hr i hi j hj).2
  · rw [e.other r hrs]; exact hok r hr

theorem heapOK_higher {h h' : Heap α} {s o : ℕ} (hok : HeapOK h) (e : HigherEffect h s o h') : HeapOK h' := by
  intro r hr
  rw [e.next] at hr
  rw [e.nx, e.ny]
  by_cases hrs : r = s
  · subst hrs
    intro i hi j hj
    refine ⟨?_, e.le_zmax i hi j hj⟩
    rw [e.inside i hi j hj, e.zmin]
    exact (hok r hr i hi j hj).1.trans (le_max_left _ _)
  · rw [e.other r hrs]; exact hok r hr

/-- Clipping a surface that does not exist in `h0`, or clipping without effect, keeps `h0`. -/
theorem keep_lower {h0 h h' : Heap α} {s o : ℕ} (k : Keep h0 h) (e : LowerEffect h s o h')
    (hs : s < h0.next → Below h s o) : Keep h0 h' where
  nx := e.nx.trans k.nx
  ny := e.ny.trans k.ny
  next := by rw [e.next]; exact k.next
  vals r hr i hi j hj := by
    rw [← k.vals r hr i hi j hj]
    by_cases hrs : r = s
    · subst hrs
      have hb := hs hr
      rw [e.inside i (by rw [k.nx]; exact hi) j (by rw [k.ny]; exact hj)]
      exact min_eq_left (hb i (by rw [k.nx]; exact hi) j (by rw [k.ny]; exact hj))
    · rw [e.other r hrs]
  zmean r hr := by
    rw [← k.zmean r hr]
    by_cases hrs : r = s
    · subst hrs; exact e.zmean
    · rw [e.other r hrs]

theorem keep_higher {h0 h h' : Heap α} {s o : ℕ} (k : Keep h0 h) (e : HigherEffect h s o h')
    (hs : s < h0.next → Below h o s) : Keep h0 h' where
  nx := e.nx.trans k.nx
  ny := e.ny.trans k.ny
  next := by rw [e.next]; exact k.next
  vals r hr i hi j hj := by
    rw [← k.vals r hr i hi j hj]
    by_cases hrs : r = s
    · subst hrs
      have hb := hs hr
      rw [e.inside i (by rw [k.nx]; exact hi) j (by rw [k.ny]; exact hj)]
      exact max_eq_left (hb i (by rw [k.nx]; exact hi) j (by rw [k.ny]; exact hj))
    · rw [e.other r hrs]
  zmean r hr := by
    rw [← k.zmean r hr]
    by_cases hrs : r = s
    · subst hrs; exact e.zmean
    · rw [e.other r hrs]

/-! ### Extents -/

theorem Extent.add_spec (e : Extent α) (a b : α) :
    (e.add a b).zmin ≤ e.zmin ∧ (e.add a b).zmin ≤ a ∧ e.zmax ≤ (e.add a b).zmax ∧ b ≤ (e.add a b).zmax := by
  unfold Extent.add
  dsimp only
  refine ⟨?_, ?_, ?_, ?_⟩
  · split_ifs with h; exacts [h.le, le_rfl]
  · split_ifs with h; exacts [le_rfl, not_lt.1 h]
  · split_ifs with h; exacts [le_of_lt h, le_rfl]
  · split_ifs with h; exacts [le_rfl, not_lt.1 h]

theorem Extent.foldl_spec {β : Type} (lo hi : β → α) (l : List β) (e : Extent α) :
    (l.foldl (fun e o => e.add (lo o) (hi o)) e).zmin ≤ e.zmin ∧
    e.zmax ≤ (l.foldl (fun e o => e.add (lo o) (hi o)) e).zmax ∧
    ∀ o ∈ l, (l.foldl (fun e o => e.add (lo o) (hi o)) e).zmin ≤ lo o ∧
      hi o ≤ (l.foldl (fun e o => e.add (lo o) (hi o)) e).zmax := by
  induction l generalizing e with
  | nil => simp
  | cons b l ih =>
    obtain ⟨h1, h2, h3⟩ := ih (e.add (lo b) (hi b))
    obtain ⟨a1, a2, a3, a4⟩ := e.add_spec (lo b) (hi b)
    refine ⟨h1.trans a1, a3.trans h2, ?_⟩
    intro o ho
    rcases List.mem_cons.1 ho with rfl | ho
    · exact ⟨h1.trans a2, a4.trans h2⟩
    · exact h3 o ho

/-! ### Sheets -/

/-- The copied extrema of a sheet bound its surfaces in the final heap. -/
def SheetOK (h : Heap α) (s : SheetRaw α) : Prop :=
  ∀ i < h.nx, ∀ j < h.ny, s.zmin ≤ (h.get s.bottom).vals i j ∧ (h.get s.top).vals i j ≤ s.zmax

/-- Sheets stacked from surface `top` down to surface `aeB`; all but the last have their bottom not above their top and
their top not below `aeB`. -/
def SheetsFrom (h : Heap α) (aeB : ℕ) : ℕ → List (SheetRaw α) → Prop
  | _, [] => False
  | top, s :: rest => s.top = top ∧ SheetOK h s ∧
      ((rest = [] ∧ s.bottom = aeB) ∨
        (Below h aeB s.top ∧ Below h s.bottom s.top ∧ SheetsFrom h aeB s.bottom rest))

/-- The loop invariant of sheet generation, stated for any starting point of the loop. -/
theorem sheetLoop_spec {aeB : ℕ} {th : α} {fuel : ℕ} {h h' : Heap α} {zb : α} {top : ℕ} {e e' : Extent α}
    {ss : List (SheetRaw α)} (hok : HeapOK h) (htop : top < h.next) (hB : aeB < h.next)
    (hr : sheetLoop aeB th fuel h zb top e = .ok (h', e', ss)) :
    HeapOK h' ∧ h'.nx = h.nx ∧ h'.ny = h.ny ∧ h.next ≤ h'.next ∧
    (∀ r < h.next, r ≠ top → h'.get r = h.get r) ∧
    (h'.get top).zmean = (h.get top).zmean ∧
    (∀ i < h.nx, ∀ j < h.ny, (h.get top).vals i j ≤ (h'.get top).vals i j ∧
      (h'.get top).vals i j ≤ max ((h.get top).vals i j) ((h.get aeB).vals i j)) ∧
    SheetsFrom h' aeB top ss ∧
    (e'.zmin ≤ e.zmin ∧ e.zmax ≤ e'.zmax ∧ ∀ s ∈ ss, e'.zmin ≤ s.zmin ∧ s.zmax ≤ e'.zmax) := by
  induction fuel generalizing h zb top e e' ss with
  | zero => simp [sheetLoop] at hr
  | succ fuel ih =>
    unfold sheetLoop at hr
    split_ifs at hr with hz
    · simp only [bind_ok, liftErr_ok, pure_ok] at hr
      obtain ⟨⟨h1, b⟩, hc, h2, hl, h3, hg, ⟨h4, e4, rest⟩, hrec, heq⟩ := hr
      simp only [Prod.mk.injEq] at heq
      obtain ⟨rfl, rfl, rfl⟩ := heq
      have k1 := keep_create hc
      have ok1 := heapOK_create hok hc
      obtain ⟨sf, hsf, hb, he1⟩ := create_ok hc
      have hn1 : h1.next = h.next + 1 := by rw [he1]
      have eL := useLower_effect hl
      have ok2 := heapOK_lower ok1 eL
      have eH := useHigher_effect hg
      have ok3 := heapOK_higher ok2 eH
      have htb : top ≠ b := by omega
      have hBb : aeB ≠ b := by omega
      -- values in h3
      have hx1 := k1.nx
      have hy1 := k1.ny
      have hx2 : h2.nx = h.nx := eL.nx.trans hx1
      have hy2 : h2.ny = h.ny := eL.ny.trans hy1
      have hx3 : h3.nx = h.nx := eH.nx.trans hx2
      have hy3 : h3.ny = h.ny := eH.ny.trans hy2
      have hn3 : h3.next = h.next + 1 := by rw [eH.next, eL.next, hn1]
      have g1 : ∀ r < h.next, h1.get r = h.get r := by
        intro r hr
        rw [he1]
        simp [Function.update_of_ne hr.ne]
      have g2 : ∀ r < h.next, h2.get r = h.get r := by
        intro r hr
        rw [eL.other r (by omega), g1 r hr]
      have v3top : ∀ i < h.nx, ∀ j < h.ny,
          (h3.get top).vals i j = max ((h.get top).vals i j) ((h.get aeB).vals i j) := by
        intro i hi j hj
        rw [eH.inside i (by rw [hx2]; exact hi) j (by rw [hy2]; exact hj), g2 top htop, g2 aeB hB]
      have v3B : ∀ i < h.nx, ∀ j < h.ny, (h3.get aeB).vals i j = (h.get aeB).vals i j := by
        intro i hi j hj
        by_cases hBt : aeB = top
        · subst hBt
          rw [v3top i hi j hj, max_self]
        · rw [eH.other aeB hBt, g2 aeB hB]
      have v3b : ∀ i < h.nx, ∀ j < h.ny, (h3.get b).vals i j ≤ (h.get top).vals i j := by
        intro i hi j hj
        rw [eH.other b htb.symm, eL.inside i (by rw [hx1]; exact hi) j (by rw [hy1]; exact hj), g1 top htop]
        exact min_le_right _ _
      obtain ⟨r1, r2, r3, r4, r5, r6, r7, r8, r9, r10, r11⟩ := ih ok3 (by omega) (by omega) hrec
      have gtop : h4.get top = h3.get top := r5 top (by omega) htb
      have gB : h4.get aeB = h3.get aeB := r5 aeB (by omega) hBb
      refine ⟨r1, r2.trans hx3, r3.trans hy3, by omega, ?_, ?_, ?_, ?_, ?_⟩
      · intro r hr hrt
        rw [r5 r (by omega) (by omega), eH.other r hrt, g2 r hr]
      · rw [gtop, eH.zmean, g2 top htop]
      · intro i hi j hj
        rw [gtop, v3top i hi j hj]
        exact ⟨le_max_left _ _, le_rfl⟩
      · refine ⟨rfl, ?_, Or.inr ⟨?_, ?_, r8⟩⟩
        · intro i hi j hj
          rw [r2] at hi; rw [r3] at hj
          constructor
          · exact (ok3 b (by omega) i hi j hj).1.trans (r7 i hi j hj).1
          · show (h4.get top).vals i j ≤ (h3.get top).zmax
            rw [gtop]
            exact (ok3 top (by omega) i hi j hj).2
        · intro i hi j hj
          rw [r2, hx3] at hi; rw [r3, hy3] at hj
          show (h4.get aeB).vals i j ≤ (h4.get top).vals i j
          rw [gB, gtop, v3B i hi j hj, v3top i hi j hj]
          exact le_max_right _ _
        · intro i hi j hj
          rw [r2, hx3] at hi; rw [r3, hy3] at hj
          show (h4.get b).vals i j ≤ (h4.get top).vals i j
          have h7 := (r7 i (by rw [hx3]; exact hi) j (by rw [hy3]; exact hj)).2
          rw [v3B i hi j hj] at h7
          rw [gtop, v3top i hi j hj]
          exact h7.trans (max_le_max_right _ (v3b i hi j hj))
      · obtain ⟨a1, a2, a3, a4⟩ := e.add_spec (SheetRaw.new h3 b top).zmin (SheetRaw.new h3 b top).zmax
        refine ⟨r9.trans a1, a3.trans r10, ?_⟩
        intro s hs
        rcases List.mem_cons.1 hs with rfl | hs
        · exact ⟨r9.trans a2, a4.trans r10⟩
        · exact r11 s hs
    · simp only [Except.ok.injEq, Prod.mk.injEq] at hr
      obtain ⟨rfl, rfl, rfl⟩ := hr
      refine ⟨hok, rfl, rfl, le_rfl, fun _ _ _ => rfl, rfl, fun i _ j _ => ⟨le_rfl, le_max_left _ _⟩, ?_, ?_⟩
      · refine ⟨rfl, ?_, Or.inl ⟨rfl, rfl⟩⟩
        intro i hi j hj
        exact ⟨(hok aeB hB i hi j hj).1, (hok top htop i hi j hj).2⟩
      · obtain ⟨a1, a2, a3, a4⟩ := e.add_spec (SheetRaw.new h aeB top).zmin (SheetRaw.new h aeB top).zmax
        refine ⟨a1, a3, ?_⟩
        intro s hs
        rw [List.mem_singleton] at hs
        subst hs
        exact ⟨a2, a4⟩

/-- What the sheets of an AE look like in one column, seen from the test used by point assignment: intervals stacked
from `t` down to `bot`. -/
def SheetChain (i j : ℕ) (bot : α) : α → List (GObj α) → Prop
  | _, [] => False
  | t, o :: rest => ∃ b, (∀ z, o.answer i j z ≠ none ↔ b ≤ z ∧ z ≤ t) ∧ o.zmin ≤ b ∧ t ≤ o.zmax ∧
      ((rest = [] ∧ b = bot) ∨ (bot ≤ t ∧ b ≤ t ∧ SheetChain i j bot b rest))

theorem toObj_answer (h : Heap α) (p : ℕ → ℕ → α → ℤ × Option α × Option α) (s : SheetRaw α) (i j : ℕ) (z : α) :
    (s.toObj h p).answer i j z ≠ none ↔ (h.get s.bottom).vals i j ≤ z ∧ z ≤ (h.get s.top).vals i j := by
  unfold SheetRaw.toObj
  simp only
  split_ifs with hc
  · simp only [ne_eq, not_true_eq_false, false_iff, not_and_or, not_le]
    exact hc
  · simp only [not_or, not_lt] at hc
    simp only [ne_eq, reduceCtorEq, not_false_eq_true, true_iff]
    exact hc

theorem sheetChain_of_from {h : Heap α} {aeB top : ℕ} {ss : List (SheetRaw α)} (hs : SheetsFrom h aeB top ss)
    {i j : ℕ} (hi : i < h.nx) (hj : j < h.ny) (p : ℕ → ℕ → ℕ → α → ℤ × Option α × Option α) :
    SheetChain i j ((h.get aeB).vals i j) ((h.get top).vals i j) (ss.mapIdx fun n s => s.toObj h (p n)) := by
  induction ss generalizing top p with
  | nil => exact hs.elim
  | cons s rest ih =>
    obtain ⟨rfl, h2, h3⟩ := hs
    rw [List.mapIdx_cons]
    refine ⟨(h.get s.bottom).vals i j, toObj_answer h (p 0) s i j, (h2 i hi j hj).1, (h2 i hi j hj).2, ?_⟩
    rcases h3 with ⟨rfl, rfl⟩ | ⟨h4, h5, h6⟩
    · exact Or.inl ⟨by simp, rfl⟩
    · exact Or.inr ⟨h4 i hi j hj, h5 i hi j hj, ih h6 (fun n => p (n + 1))⟩

theorem sheetObjs_ok {h : Heap α} {mk : ℕ → α → Except PyErr (Payload α)} {n : ℕ} {ss : List (SheetRaw α)} {os : List (GObj α)}
    (hr : sheetObjs h mk n ss = .ok os) :
    ∃ p : ℕ → Payload α, os = (ss.mapIdx fun k s => s.toObj h (p k)) ∧ ∀ k s, ss[k]? = some s → mk (n + k) s.zmean = .ok (p k) := by
  induction ss generalizing n os with
  | nil =>
    simp only [sheetObjs, Except.ok.injEq] at hr
    exact ⟨fun _ _ _ _ => (0, none, none), by simp [← hr], by simp⟩
  | cons s rest ih =>
    simp only [sheetObjs, bind_ok, pure_ok] at hr
    obtain ⟨p0, hp0, os', hos, rfl⟩ := hr
    obtain ⟨p, e1, e2⟩ := ih hos
    refine ⟨fun k => match k with | 0 => p0 | k + 1 => p k, by rw [List.mapIdx_cons, e1], ?_⟩
    intro k s' hk
    cases k with
    | zero =>
      simp only [List.getElem?_cons_zero, Option.some.injEq] at hk
      subst hk
      exact hp0
    | succ k =>
      rw [List.getElem?_cons_succ] at hk
      rw [show n + (k + 1) = n + 1 + k by omega]
      exact e2 k s' hk

theorem liftObjs_ok {β : Type} {x : Option (Except PyErr β)} {b : β} : liftObjs x = .ok b ↔ x = some (.ok b) := by
  rcases x with _ | x
  · simp [liftObjs]
  · simp [liftObjs, liftErr_ok]

/-! ### One AE -/

/-- What is true of every AE after construction. -/
structure AEOK (h : Heap α) (a : AEReal α) : Prop where
  bottom_lt : a.bottom < h.next
  top_lt : a.top < h.next
  below : Below h a.bottom a.top
  ext : ∀ i < h.nx, ∀ j < h.ny, a.ext.zmin ≤ (h.get a.bottom).vals i j ∧ (h.get a.top).vals i j ≤ a.ext.zmax
  objs : ∀ o ∈ a.objs, a.ext.zmin ≤ o.zmin ∧ o.zmax ≤ a.ext.zmax
  chain : a.isSheet = true → ∀ i < h.nx, ∀ j < h.ny,
    SheetChain i j ((h.get a.bottom).vals i j) ((h.get a.top).vals i j) a.objs

theorem AEOK.keep {h h' : Heap α} {a : AEReal α} (k : Keep h h') (ok : AEOK h a) : AEOK h' a where
  bottom_lt := lt_of_lt_of_le ok.bottom_lt k.next
  top_lt := lt_of_lt_of_le ok.top_lt k.next
  below := (k.below ok.bottom_lt ok.top_lt).2 ok.below
  ext i hi j hj := by
    rw [k.nx] at hi; rw [k.ny] at hj
    rw [k.vals _ ok.bottom_lt i hi j hj, k.vals _ ok.top_lt i hi j hj]
    exact ok.ext i hi j hj
  objs := ok.objs
  chain hs i hi j hj := by
    rw [k.nx] at hi; rw [k.ny] at hj
    rw [k.vals _ ok.bottom_lt i hi j hj, k.vals _ ok.top_lt i hi j hj]
    exact ok.chain hs i hi j hj

theorem genAE_spec {g : GridZ α} {sp : StratumParams α} {t : ElemParams α} {d : AEDraw α} {h h' : Heap α} {bottom top : ℕ}
    {a : AEReal α} (hok : HeapOK h) (hb : bottom < h.next) (ht : top < h.next) (hbt : Below h bottom top)
    (hr : genAE g sp t d h bottom top = .ok (h', a)) :
    HeapOK h' ∧ Keep h h' ∧ AEOK h' a ∧ a.bottom = bottom ∧ a.top = top := by
  unfold genAE at hr
  dsimp only at hr
  split_ifs at hr with h1 h2
  · simp only [bind_ok, pure_ok] at hr
    obtain ⟨os, -, heq⟩ := hr
    simp only [Prod.mk.injEq] at heq
    obtain ⟨rfl, rfl⟩ := heq
    obtain ⟨f1, f2, f3⟩ := Extent.foldl_spec (fun o : GObj α => o.zmin) (fun o : GObj α => o.zmax) os
      { zmin := (h.get bottom).zmin, zmax := (h.get top).zmax }
    refine ⟨hok, Keep.refl h, ⟨hb, ht, hbt, ?_, f3, ?_⟩, rfl, rfl⟩
    · intro i hi j hj
      exact ⟨f1.trans (hok bottom hb i hi j hj).1, (hok top ht i hi j hj).2.trans f2⟩
    · intro hs; cases hs
  · simp only [bind_ok, pure_ok] at hr
    obtain ⟨⟨h1, e1, ss⟩, hl, os, hos, heq⟩ := hr
    simp only [Prod.mk.injEq] at heq
    obtain ⟨rfl, rfl⟩ := heq
    obtain ⟨p, rfl, -⟩ := sheetObjs_ok (liftErr_ok.1 hos)
    obtain ⟨r1, r2, r3, r4, r5, r6, r7, r8, r9, r10, r11⟩ := sheetLoop_spec hok ht hb hl
    have hk : Keep h h1 := by
      refine ⟨r2, r3, r4, ?_, ?_⟩
      · intro r hr i hi j hj
        by_cases hrt : r = top
        · subst hrt
          obtain ⟨a1, a2⟩ := r7 i hi j hj
          rw [max_eq_left (hbt i hi j hj)] at a2
          exact le_antisymm a2 a1
        · rw [r5 r hr hrt]
      · intro r hr
        by_cases hrt : r = top
        · subst hrt; exact r6
        · rw [r5 r hr hrt]
    refine ⟨r1, hk, ?_, rfl, rfl⟩
    refine ⟨lt_of_lt_of_le hb r4, lt_of_lt_of_le ht r4, (hk.below hb ht).2 hbt, ?_, ?_, ?_⟩
    · intro i hi j hj
      rw [r2] at hi; rw [r3] at hj
      show e1.zmin ≤ _ ∧ _ ≤ e1.zmax
      rw [hk.vals bottom hb i hi j hj, hk.vals top ht i hi j hj]
      exact ⟨r9.trans (hok bottom hb i hi j hj).1, (hok top ht i hi j hj).2.trans r10⟩
    · intro o ho
      simp only [List.mem_mapIdx] at ho
      obtain ⟨n, hn, rfl⟩ := ho
      exact r11 _ (List.getElem_mem hn)
    · intro _ i hi j hj
      exact sheetChain_of_from r8 hi hj p

/-! ### The AE loop -/

/-- AEs stacked from surface `top` down to surface `bot`. -/
def AEsFrom (h : Heap α) (bot : ℕ) : ℕ → List (AEReal α) → Prop
  | _, [] => False
  | top, a :: rest => a.top = top ∧ AEOK h a ∧ Below h bot a.bottom ∧
      ((rest = [] ∧ a.bottom = bot) ∨ AEsFrom h bot a.bottom rest)

theorem AEsFrom.keep {h h' : Heap α} (k : Keep h h') {bot : ℕ} (hbot : bot < h.next) {as : List (AEReal α)} {top : ℕ}
    (hf : AEsFrom h bot top as) : AEsFrom h' bot top as := by
  induction as generalizing top with
  | nil => exact hf.elim
  | cons a rest ih =>
    obtain ⟨h1, h2, h3, h4⟩ := hf
    refine ⟨h1, h2.keep k, (k.below hbot h2.bottom_lt).2 h3, ?_⟩
    rcases h4 with h4 | h4
    · exact Or.inl h4
    · exact Or.inr (ih h4)

theorem aeBottom_spec {bottom : ℕ} {h h1 : Heap α} {cms cms1 : Contacts α} {nm : String} {field : ℕ → ℕ → α} {z z1 : α} {b : ℕ}
    (hok : HeapOK h) (hb : bottom < h.next)
    (hr : aeBottom bottom h cms nm field z = .ok (h1, cms1, b, z1)) :
    HeapOK h1 ∧ Keep h h1 ∧ b < h1.next ∧
      ((b = bottom ∧ z1 = (h.get bottom).zmean) ∨ (b = h.next ∧ z1 = z ∧ (h.get bottom).zmean < z1)) := by
  unfold aeBottom at hr
  split_ifs at hr with hz
  · simp only [Except.ok.injEq, Prod.mk.injEq] at hr
    obtain ⟨rfl, rfl, rfl, rfl⟩ := hr
    exact ⟨hok, Keep.refl h, hb, Or.inl ⟨rfl, rfl⟩⟩
  · simp only [bind_ok, liftErr_ok, pure_ok] at hr
    obtain ⟨⟨h2, b2⟩, hc, heq⟩ := hr
    simp only [Prod.mk.injEq] at heq
    obtain ⟨rfl, rfl, rfl, rfl⟩ := heq
    obtain ⟨s, -, hbn, he⟩ := create_ok hc
    refine ⟨heapOK_create hok hc, keep_create hc, ?_, Or.inr ⟨hbn, rfl, not_le.1 hz⟩⟩
    rw [he, hbn]
    exact Nat.lt_succ_self _

theorem aeGenLoop_spec {g : GridZ α} {sp : StratumParams α} {types : List (ElemParams α)} {bottom : ℕ}
    {draws : ℕ → AEDraw α} {fuel n : ℕ} {h h' : Heap α} {cms cms' : Contacts α} {znow : α} {top : ℕ}
    {curr : ElemParams α} {as : List (AEReal α)}
    (hok : HeapOK h) (hb : bottom < h.next) (ht : top < h.next) (hbt : Below h bottom top)
    (hr : aeGenLoop g sp types bottom draws fuel n h cms znow top curr = .ok (h', cms', as)) :
    HeapOK h' ∧ Keep h h' ∧ (znow ≤ (h.get bottom).zmean → as = []) ∧
      ((h.get bottom).zmean < znow → AEsFrom h' bottom top as) := by
  induction fuel generalizing n h cms znow top curr as with
  | zero =>
    unfold aeGenLoop at hr
    split_ifs at hr with hz
    simp only [Except.ok.injEq, Prod.mk.injEq] at hr
    obtain ⟨rfl, rfl, rfl⟩ := hr
    exact ⟨hok, Keep.refl h, fun _ => rfl, fun hlt => absurd hlt hz⟩
  | succ fuel ih =>
    unfold aeGenLoop at hr
    split_ifs at hr with hz
    · simp only [bind_ok, liftErr_ok, pure_ok] at hr
      obtain ⟨mh, -, nx, -, ⟨h1, cms1, b, z1⟩, hB, h2, hl, h3, hg, ⟨h4, a⟩, hA, ⟨h5, cms5, rest⟩, hrec, heq⟩ := hr
      simp only [Prod.mk.injEq] at heq
      obtain ⟨rfl, rfl, rfl⟩ := heq
      obtain ⟨ok1, k1, hb1, hcase⟩ := aeBottom_spec hok hb hB
      have eL := useLower_effect hl
      have eH := useHigher_effect hg
      have ok2 := heapOK_lower ok1 eL
      have ok3 := heapOK_higher ok2 eH
      have hbot1 : bottom < h1.next := lt_of_lt_of_le hb k1.next
      have htop1 : top < h1.next := lt_of_lt_of_le ht k1.next
      have hbt1 : Below h1 bottom top := (k1.below hb ht).2 hbt
      -- the clip from above keeps all old surfaces
      have k2 : Keep h h2 := by
        refine keep_lower k1 eL ?_
        intro hlt
        rcases hcase with ⟨rfl, -⟩ | ⟨rfl, -⟩
        · exact hbt1
        · exact absurd hlt (lt_irrefl _)
      have k3 : Keep h h3 := by
        refine keep_higher k2 eH ?_
        intro hlt
        rcases hcase with ⟨rfl, -⟩ | ⟨rfl, -⟩
        · exact Below.refl h2 _
        · exact absurd hlt (lt_irrefl _)
      have hn3 : h3.next = h1.next := eH.next.trans eL.next
      have hbt3 : Below h3 bottom top := (k3.below hb ht).2 hbt
      -- the new bottom is between the stratum bottom and the AE top
      have hb_bot : Below h3 bottom b := by
        intro i hi j hj
        exact (C03_higher hg).2.2 i (by rw [← eH.nx]; exact hi) j (by rw [← eH.ny]; exact hj)
      have hb_top : Below h3 b top := by
        intro i hi j hj
        have hi2 : i < h2.nx := by rw [← eH.nx]; exact hi
        have hj2 : j < h2.ny := by rw [← eH.ny]; exact hj
        have hi1 : i < h1.nx := by rw [← eL.nx]; exact hi2
        have hj1 : j < h1.ny := by rw [← eL.ny]; exact hj2
        by_cases hbeq : b = bottom
        · rw [hbeq]; exact hbt3 i hi j hj
        · have hbt2 : (h2.get b).vals i j ≤ (h2.get top).vals i j := (C03_lower hl).2.2 i hi1 j hj1
          have hbot2 : (h2.get bottom).vals i j ≤ (h2.get top).vals i j :=
            ((k2.below hb ht).2 hbt) i hi2 j hj2
          have htb : top ≠ b := by
            rcases hcase with ⟨rfl, -⟩ | ⟨rfl, -⟩
            · exact absurd rfl hbeq
            · exact ht.ne
          rw [eH.other top htb, eH.inside i hi2 j hj2]
          exact max_le hbt2 hbot2
      obtain ⟨ok4, k4, hae, hab, hat⟩ := genAE_spec ok3 (by omega) (by omega) hb_top hA
      have k04 : Keep h h4 := k3.trans k4
      have hb4 : bottom < h4.next := lt_of_lt_of_le hb k04.next
      have hbb4 : b < h4.next := by have := k4.next; omega
      have hbelow4 : Below h4 bottom b := (k4.below (by omega) (by omega)).2 hb_bot
      obtain ⟨ok5, k5, hnil, hcons⟩ := ih ok4 hb4 hbb4 hbelow4 hrec
      refine ⟨ok5, k04.trans k5, fun hle => absurd hz (not_lt.2 hle), fun _ => ?_⟩
      refine ⟨hat, hae.keep k5, ?_, ?_⟩
      · rw [hab]; exact (k5.below hb4 hbb4).2 hbelow4
      · rw [k04.zmean bottom hb] at hnil hcons
        rw [hab]
        rcases hcase with ⟨rfl, hz1⟩ | ⟨-, -, hz1⟩
        · exact Or.inl ⟨hnil (le_of_eq hz1), rfl⟩
        · exact Or.inr (hcons hz1)
    · simp only [Except.ok.injEq, Prod.mk.injEq] at hr
      obtain ⟨rfl, rfl, rfl⟩ := hr
      exact ⟨hok, Keep.refl h, fun _ => rfl, fun hlt => absurd hlt hz⟩

/-! ### One stratum -/

/-- What is true of every stratum after construction. -/
structure StratumOK (h : Heap α) (s : StratumReal α) : Prop where
  bottom_lt : s.bottom < h.next
  top_lt : s.top < h.next
  below : Below h s.bottom s.top
  ext : ∀ i < h.nx, ∀ j < h.ny, s.ext.zmin ≤ (h.get s.bottom).vals i j ∧ (h.get s.top).vals i j ≤ s.ext.zmax
  aes_ext : ∀ a ∈ s.aes, s.ext.zmin ≤ a.ext.zmin ∧ a.ext.zmax ≤ s.ext.zmax
  nil_iff : s.aes = [] ↔ (h.get s.top).zmean ≤ (h.get s.bottom).zmean
  from_ : s.aes ≠ [] → AEsFrom h s.bottom s.top s.aes

theorem StratumOK.keep {h h' : Heap α} {s : StratumReal α} (k : Keep h h') (ok : StratumOK h s) : StratumOK h' s where
  bottom_lt := lt_of_lt_of_le ok.bottom_lt k.next
  top_lt := lt_of_lt_of_le ok.top_lt k.next
  below := (k.below ok.bottom_lt ok.top_lt).2 ok.below
  ext i hi j hj := by
    rw [k.nx] at hi; rw [k.ny] at hj
    rw [k.vals _ ok.bottom_lt i hi j hj, k.vals _ ok.top_lt i hi j hj]
    exact ok.ext i hi j hj
  aes_ext := ok.aes_ext
  nil_iff := by rw [k.zmean _ ok.bottom_lt, k.zmean _ ok.top_lt]; exact ok.nil_iff
  from_ hne := (ok.from_ hne).keep k ok.bottom_lt

theorem genStratum_spec {g : GridZ α} {sp : StratumParams α} {types : List (ElemParams α)} {d : StratumDraw α}
    {h h' : Heap α} {cms cms' : Contacts α} {bottom top : ℕ} {s : StratumReal α}
    (hok : HeapOK h) (hb : bottom < h.next) (ht : top < h.next) (hbt : Below h bottom top)
    (hr : genStratum g sp types d h cms bottom top = .ok (h', cms', s)) :
    HeapOK h' ∧ Keep h h' ∧ StratumOK h' s ∧ s.bottom = bottom ∧ s.top = top := by
  unfold genStratum at hr
  simp only [bind_ok, pure_ok] at hr
  obtain ⟨first, -, ⟨h1, cms1, as⟩, hl, heq⟩ := hr
  simp only [Prod.mk.injEq] at heq
  obtain ⟨rfl, rfl, rfl⟩ := heq
  obtain ⟨ok1, k1, hnil, hcons⟩ := aeGenLoop_spec hok hb ht hbt hl
  obtain ⟨f1, f2, f3⟩ := Extent.foldl_spec (fun a : AEReal α => a.ext.zmin) (fun a : AEReal α => a.ext.zmax) as
    { zmin := (h.get bottom).zmin, zmax := (h.get top).zmax }
  refine ⟨ok1, k1, ⟨lt_of_lt_of_le hb k1.next, lt_of_lt_of_le ht k1.next, (k1.below hb ht).2 hbt, ?_, f3, ?_, ?_⟩,
    rfl, rfl⟩
  · intro i hi j hj
    rw [k1.nx] at hi; rw [k1.ny] at hj
    simp only
    rw [k1.vals _ hb i hi j hj, k1.vals _ ht i hi j hj]
    exact ⟨f1.trans (hok bottom hb i hi j hj).1, (hok top ht i hi j hj).2.trans f2⟩
  · simp only
    rw [k1.zmean _ hb, k1.zmean _ ht]
    refine ⟨fun hn => ?_, hnil⟩
    by_contra hlt
    have := hcons (not_le.1 hlt)
    rw [hn] at this
    exact this
  · intro hne
    refine hcons ?_
    by_contra hlt
    exact hne (hnil (not_lt.1 hlt))

/-! ### All strata -/

/-- Strata stacked below surface `top`; `bot` is the last bottom. -/
def StrataFrom (h : Heap α) (bot : ℕ) : ℕ → List (StratumReal α) → Prop
  | top, [] => top = bot
  | top, s :: rest => s.top = top ∧ StratumOK h s ∧ StrataFrom h bot s.bottom rest

theorem stratumBottom_spec {g : GridZ α} {sd : StrataDict α} {h h1 : Heap α} {si b : ℕ} {field : ℕ → ℕ → α}
    (hok : HeapOK h) (hr : stratumBottom g sd h si field = .ok (h1, b)) :
    HeapOK h1 ∧ Keep h h1 ∧ b = h.next ∧ h1.next = h.next + 1 ∧
      (si + 1 = sd.n → ∀ i j, (h1.get b).vals i j = g.z0) := by
  unfold stratumBottom at hr
  split_ifs at hr with hlast
  · rw [liftErr_ok] at hr
    obtain ⟨s, hs, rfl, he⟩ := create_ok hr
    refine ⟨heapOK_create hok hr, keep_create hr, rfl, by rw [he], fun _ i j => ?_⟩
    rw [he]
    simp only [Surface.init, ContactModel.flat, String.reduceEq, if_false, if_true, Except.ok.injEq] at hs
    subst hs
    simp
  · simp only [bind_ok, liftErr_ok] at hr
    obtain ⟨cm, -, hc⟩ := hr
    obtain ⟨s, hs, rfl, he⟩ := create_ok hc
    exact ⟨heapOK_create hok hc, keep_create hc, rfl, by rw [he], fun h => absurd h hlast⟩

theorem strataGenLoop_spec {g : GridZ α} {sd : StrataDict α} {draws : ℕ → StratumDraw α} {k si : ℕ} {h h' : Heap α}
    {cms cms' : Contacts α} {top : ℕ} {ss : List (StratumReal α)}
    (hok : HeapOK h) (ht : top < h.next)
    (hr : strataGenLoop g sd draws k si h cms top = .ok (h', cms', ss)) :
    HeapOK h' ∧ Keep h h' ∧ ss.length = k ∧ ∃ bot < h'.next, StrataFrom h' bot top ss ∧
      (si + k = sd.n → 0 < k → ∀ i < h'.nx, ∀ j < h'.ny, (h'.get bot).vals i j ≤ g.z0) := by
  induction k generalizing si h cms top ss with
  | zero =>
    simp only [strataGenLoop, Except.ok.injEq, Prod.mk.injEq] at hr
    obtain ⟨rfl, rfl, rfl⟩ := hr
    exact ⟨hok, Keep.refl h, rfl, top, ht, rfl, fun _ h0 => absurd h0 (lt_irrefl _)⟩
  | succ k ih =>
    unfold strataGenLoop at hr
    simp only [bind_ok, liftErr_ok, pure_ok] at hr
    obtain ⟨⟨h1, b⟩, hB, h2, hl, sp, -, types, -, ⟨h3, cms3, s⟩, hS, ⟨h4, cms4, rest⟩, hrec, heq⟩ := hr
    simp only [Prod.mk.injEq] at heq
    obtain ⟨rfl, rfl, rfl⟩ := heq
    obtain ⟨ok1, k1, hbn, hn1, hz0⟩ := stratumBottom_spec hok hB
    have eL := useLower_effect hl
    have ok2 := heapOK_lower ok1 eL
    have k2 : Keep h h2 := keep_lower k1 eL (fun hlt => by omega)
    have hb2 : b < h2.next := by
      have hn2 : h2.next = h1.next := eL.next
      omega
    have ht2 : top < h2.next := lt_of_lt_of_le ht k2.next
    have hbt2 : Below h2 b top := by
      intro i hi j hj
      exact (C03_lower hl).2.2 i (by rw [← eL.nx]; exact hi) j (by rw [← eL.ny]; exact hj)
    obtain ⟨ok3, k3, hs, hsb, hst⟩ := genStratum_spec ok2 hb2 ht2 hbt2 hS
    have hb3 : b < h3.next := lt_of_lt_of_le hb2 k3.next
    obtain ⟨ok4, k4, hlen, bot, hbot, hfrom, hlow⟩ := ih ok3 hb3 hrec
    refine ⟨ok4, k2.trans (k3.trans k4), by simp [hlen], bot, hbot, ⟨hst, hs.keep k4, by rw [hsb]; exact hfrom⟩, ?_⟩
    intro hsum _ i hi j hj
    rcases Nat.eq_zero_or_pos k with rfl | hk
    · -- last stratum
      have hbeq : b = bot := by
        have := List.length_eq_zero_iff.1 hlen
        subst this
        exact hfrom
      have k24 := k3.trans k4
      have hi2 : i < h2.nx := by rw [← k24.nx]; exact hi
      have hj2 : j < h2.ny := by rw [← k24.ny]; exact hj
      rw [← hbeq, k24.vals b hb2 i hi2 j hj2,
        eL.inside i (by rw [← eL.nx]; exact hi2) j (by rw [← eL.ny]; exact hj2), hz0 (by omega)]
      exact min_le_left _ _
    · exact hlow (by omega) hk i hi j hj

end Hyvr
