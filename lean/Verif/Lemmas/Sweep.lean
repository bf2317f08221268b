import Verif.Lemmas.Assign
import Mathlib.Data.List.Range
import Mathlib.Data.Nat.Lattice

/-!
The sweep over columns and cells, described cell by cell.
-/

set_option linter.unusedSectionVars false

namespace Hyvr

open Spec

variable {α : Type} [LinearOrder α]

/-- The seven values stored for one cell. -/
structure CellRec (α : Type) where
  facies : ℤ
  strata : ℤ
  ae : ℤ
  ha : ℤ
  hat : ℤ
  azim : Option α
  dip : Option α
  deriving DecidableEq

/-- The record of cell `(i,j,k)`. -/
def Cells.at (c : Cells α) (i j k : ℕ) : CellRec α :=
  ⟨c.facies i j k, c.strata i j k, c.ae i j k, c.ha i j k, c.hat i j k, c.azim i j k, c.dip i j k⟩

/-- The record of an assigned cell. -/
def recOf (g : Geo α) (si : ℕ) : CellRec α := ⟨g.facies, si, g.ae, g.ha, g.hat, g.azim, g.dip⟩

/-- The record of an unassigned cell. -/
def defaultRec [Zero α] : CellRec α := ⟨0, 0, -1, -1, -1, some 0, some 0⟩

theorem Cells.write_at (c : Cells α) (i j k : ℕ) (g : Geo α) (si i' j' k' : ℕ) :
    (c.write i j k g si).at i' j' k' = if i' = i ∧ j' = j ∧ k' = k then recOf g si else c.at i' j' k' := by
  unfold Cells.write Cells.at recOf Arr3.set
  by_cases h : i' = i ∧ j' = j ∧ k' = k
  · simp only [h, and_self, if_true]
  · simp only [if_neg h]

/-- Position after the uppermost `m` cells of column `(xi, yi)` of height `nz`. -/
def posAfter (strata : List (Stratum α)) (gridz : ℕ → α) (nz xi yi : ℕ) : ℕ → Pos
  | 0 => ⟨0, 0, 0⟩
  | m + 1 => (assignCell strata xi yi (gridz (nz - 1 - m)) (posAfter strata gridz nz xi yi m)).2

/-- What the sweep finds for cell `k` of a column (searching from the position left by the cells above). -/
def sweepResult (strata : List (Stratum α)) (gridz : ℕ → α) (nz xi yi k : ℕ) : Option (Geo α × ℕ) :=
  (assignCell strata xi yi (gridz k) (posAfter strata gridz nz xi yi (nz - 1 - k))).1

theorem cellStep_at (strata : List (Stratum α)) (gridz : ℕ → α) (xi yi : ℕ) (st : Cells α × Pos) (zi i j k : ℕ) :
    (cellStep strata gridz xi yi st zi).1.at i j k =
      if i = xi ∧ j = yi ∧ k = zi then
        match (assignCell strata xi yi (gridz zi) st.2).1 with
        | some (g, si) => recOf g si
        | none => st.1.at i j k
      else st.1.at i j k := by
  unfold cellStep
  rcases h : assignCell strata xi yi (gridz zi) st.2 with ⟨r, p⟩
  rcases r with - | ⟨g, si⟩
  · simp
  · simp [Cells.write_at]

theorem cellStep_pos (strata : List (Stratum α)) (gridz : ℕ → α) (xi yi : ℕ) (st : Cells α × Pos) (zi : ℕ) :
    (cellStep strata gridz xi yi st zi).2 = (assignCell strata xi yi (gridz zi) st.2).2 := by
  unfold cellStep
  rcases h : assignCell strata xi yi (gridz zi) st.2 with ⟨r, p⟩
  rcases r with - | ⟨g, si⟩ <;> rfl

/-- The first `m` cells of the downward sweep. -/
theorem column_prefix (strata : List (Stratum α)) (gridz : ℕ → α) (nz xi yi : ℕ) (c : Cells α) (m : ℕ) (hm : m ≤ nz) :
    let st := ((List.range m).map (fun t => nz - 1 - t)).foldl (cellStep strata gridz xi yi) (c, ⟨0, 0, 0⟩)
    st.2 = posAfter strata gridz nz xi yi m ∧
    ∀ i j k, st.1.at i j k =
      if i = xi ∧ j = yi ∧ k < nz ∧ nz - 1 - k < m then
        match sweepResult strata gridz nz xi yi k with
        | some (g, si) => recOf g si
        | none => c.at i j k
      else c.at i j k := by
  induction m with
  | zero => simp [posAfter]
  | succ m ih =>
    obtain ⟨ih1, ih2⟩ := ih (by omega)
    intro st
    have hst : st = cellStep strata gridz xi yi
        (((List.range m).map (fun t => nz - 1 - t)).foldl (cellStep strata gridz xi yi) (c, ⟨0, 0, 0⟩))
        (nz - 1 - m) := by
      simp only [st, List.range_succ, List.map_append, List.foldl_append, List.map_cons, List.map_nil,
        List.foldl_cons, List.foldl_nil]
    rw [hst]
    constructor
    · rw [cellStep_pos, ih1]; rfl
    · intro i j k
      rw [cellStep_at, ih1, ih2]
      by_cases h1 : i = xi ∧ j = yi ∧ k = nz - 1 - m
      · obtain ⟨rfl, rfl, rfl⟩ := h1
        have hk : nz - 1 - (nz - 1 - m) = m := by omega
        have hlt : nz - 1 - m < nz := by omega
        simp only [sweepResult, hk, hlt, Nat.lt_irrefl, and_false, and_self, if_false, if_true, true_and,
          Nat.lt_succ_self]
      · rw [if_neg h1]
        by_cases h2 : i = xi ∧ j = yi ∧ k < nz ∧ nz - 1 - k < m
        · rw [if_pos h2, if_pos ⟨h2.1, h2.2.1, h2.2.2.1, by omega⟩]
        · rw [if_neg h2, if_neg]
          rintro ⟨ha, hb, hc, hd⟩
          have : nz - 1 - k ≠ m := fun e => h1 ⟨ha, hb, by omega⟩
          exact h2 ⟨ha, hb, hc, by omega⟩

theorem reverse_range_eq (n : ℕ) : (List.range n).reverse = (List.range n).map (fun t => n - 1 - t) := by
  apply List.ext_getElem
  · simp
  · intro i h1 h2
    simp

/-- Effect of one column. -/
theorem column_at (strata : List (Stratum α)) (gridz : ℕ → α) (nz xi yi : ℕ) (c : Cells α) (i j k : ℕ) :
    (column strata gridz nz xi yi c).at i j k =
      if i = xi ∧ j = yi ∧ k < nz then
        match sweepResult strata gridz nz xi yi k with
        | some (g, si) => recOf g si
        | none => c.at i j k
      else c.at i j k := by
  unfold column
  rw [reverse_range_eq]
  rw [(column_prefix strata gridz nz xi yi c nz le_rfl).2 i j k]
  have : (i = xi ∧ j = yi ∧ k < nz ∧ nz - 1 - k < nz) ↔ (i = xi ∧ j = yi ∧ k < nz) := by
    constructor
    · rintro ⟨a, b, c, d⟩; exact ⟨a, b, c⟩
    · rintro ⟨a, b, c⟩; exact ⟨a, b, c, by omega⟩
  simp only [this]

theorem divmod_unique {ny l i j : ℕ} (hj : j < ny) : (i = l / ny ∧ j = l % ny) ↔ l = i * ny + j := by
  constructor
  · rintro ⟨rfl, rfl⟩
    exact (Nat.div_add_mod' l ny).symm
  · rintro rfl
    have hpos : 0 < ny := by omega
    constructor
    · rw [Nat.add_comm, Nat.add_mul_div_right _ _ hpos, Nat.div_eq_of_lt hj, Nat.zero_add]
    · rw [Nat.add_comm, Nat.add_mul_mod_self_right, Nat.mod_eq_of_lt hj]

/-- The first `L` columns. -/
theorem assign_prefix [Zero α] (strata : List (Stratum α)) (gridz : ℕ → α) (ny nz L : ℕ) (hny : 0 < ny) (i j k : ℕ) :
    ((List.range L).foldl (fun c l => column strata gridz nz (l / ny) (l % ny) c) Cells.init).at i j k =
      if j < ny ∧ i * ny + j < L ∧ k < nz then
        match sweepResult strata gridz nz i j k with
        | some (g, si) => recOf g si
        | none => defaultRec
      else defaultRec := by
  induction L with
  | zero => simp [Cells.init, Cells.at, defaultRec]
  | succ L ih =>
    rw [List.range_succ, List.foldl_append]
    simp only [List.foldl_cons, List.foldl_nil]
    rw [column_at, ih]
    by_cases h1 : i = L / ny ∧ j = L % ny ∧ k < nz
    · have hj : j < ny := by rw [h1.2.1]; exact Nat.mod_lt _ hny
      have hL : L = i * ny + j := (divmod_unique hj).1 ⟨h1.1, h1.2.1⟩
      rw [if_pos h1, ← h1.1, ← h1.2.1]
      have hc : j < ny ∧ i * ny + j < L + 1 ∧ k < nz := ⟨hj, by omega, h1.2.2⟩
      have hc' : ¬ (j < ny ∧ i * ny + j < L ∧ k < nz) := by rintro ⟨-, h, -⟩; omega
      rw [if_pos hc, if_neg hc']
    · rw [if_neg h1]
      by_cases h2 : j < ny ∧ i * ny + j < L ∧ k < nz
      · rw [if_pos h2, if_pos ⟨h2.1, by omega, h2.2.2⟩]
      · rw [if_neg h2, if_neg]
        rintro ⟨ha, hb, hc⟩
        have hne : L ≠ i * ny + j := by
          intro he
          obtain ⟨e1, e2⟩ := (divmod_unique ha).2 he
          exact h1 ⟨e1, e2, hc⟩
        exact h2 ⟨ha, by omega, hc⟩

/-- Description of the output of `assign_points`, cell by cell. -/
theorem assignPoints_at [Zero α] (strata : List (Stratum α)) (gridz : ℕ → α) (nx ny nz i j k : ℕ) :
    (assignPoints strata gridz nx ny nz).at i j k =
      if i < nx ∧ j < ny ∧ k < nz then
        match sweepResult strata gridz nz i j k with
        | some (g, si) => recOf g si
        | none => defaultRec
      else defaultRec := by
  unfold assignPoints
  rcases Nat.eq_zero_or_pos ny with rfl | hny
  · simp [Cells.init, Cells.at, defaultRec]
  · rw [assign_prefix strata gridz ny nz (nx * ny) hny]
    have : (j < ny ∧ i * ny + j < nx * ny ∧ k < nz) ↔ (i < nx ∧ j < ny ∧ k < nz) := by
      constructor
      · rintro ⟨a, b, c⟩
        refine ⟨?_, a, c⟩
        by_contra h
        have : nx * ny ≤ i * ny := Nat.mul_le_mul_right _ (by omega)
        omega
      · rintro ⟨a, b, c⟩
        refine ⟨b, ?_, c⟩
        have : (i + 1) * ny ≤ nx * ny := Nat.mul_le_mul_right _ (by omega)
        rw [Nat.add_mul] at this
        omega
    simp only [this]

/-! ### Positions never go up -/

/-- Order of remembered positions (stratum, AE). -/
def Pos.sle (p p' : Pos) : Prop := p.si < p'.si ∨ (p.si = p'.si ∧ p.aei ≤ p'.aei)

theorem Pos.sle_refl (p : Pos) : p.sle p := Or.inr ⟨rfl, le_rfl⟩

theorem Pos.sle_trans {p q r : Pos} (h1 : p.sle q) (h2 : q.sle r) : p.sle r := by
  unfold Pos.sle at *
  omega

theorem aeLoop_mono {xi yi : ℕ} {z : α} {as : List (AE α)} {aei oi : ℕ} {g : Geo α} :
    (aeLoop xi yi z as aei oi g).1.facies ≠ -1 → aei ≤ (aeLoop xi yi z as aei oi g).2.1 ∧
      (aeLoop xi yi z as aei oi g).2.1 < aei + as.length := by
  induction as generalizing aei oi g with
  | nil => simp [aeLoop]
  | cons a rest ih =>
    unfold aeLoop
    dsimp only
    split_ifs with h1 h2
    · intro h; have := ih h; simp only [List.length_cons]; omega
    · intro _; simp
    · intro h; have := ih h; simp only [List.length_cons]; omega

/-- Where the strata loop ends: nothing found and all strata used up, or found at a position not above the start. -/
theorem strataLoop_mono {xi yi : ℕ} {z : α} {ss : List (Stratum α)} {p : Pos} {g : Geo α} :
    ((strataLoop xi yi z ss p g).1 = none → (strataLoop xi yi z ss p g).2.si = p.si + ss.length) ∧
    (∀ g' si, (strataLoop xi yi z ss p g).1 = some (g', si) → (strataLoop xi yi z ss p g).2.si = si ∧
      si < p.si + ss.length ∧ p.sle (strataLoop xi yi z ss p g).2) := by
  induction ss generalizing p g with
  | nil => simp [strataLoop]
  | cons s rest ih =>
    have lift : ∀ g, ((strataLoop xi yi z rest ⟨p.si + 1, 0, 0⟩ g).1 = none →
          (strataLoop xi yi z rest ⟨p.si + 1, 0, 0⟩ g).2.si = p.si + (s :: rest).length) ∧
        (∀ g' si, (strataLoop xi yi z rest ⟨p.si + 1, 0, 0⟩ g).1 = some (g', si) →
          (strataLoop xi yi z rest ⟨p.si + 1, 0, 0⟩ g).2.si = si ∧
          si < p.si + (s :: rest).length ∧ p.sle (strataLoop xi yi z rest ⟨p.si + 1, 0, 0⟩ g).2) := by
      intro g
      have := @ih ⟨p.si + 1, 0, 0⟩ g
      refine ⟨fun h => ?_, fun g' si h => ?_⟩
      · have := this.1 h; simp only [List.length_cons] at *; omega
      · obtain ⟨h1, h2, h3⟩ := this.2 g' si h
        refine ⟨h1, by simp only [List.length_cons] at *; omega, ?_⟩
        unfold Pos.sle at h3 ⊢
        left
        simp only at h3
        omega
    unfold strataLoop
    dsimp only
    split_ifs with h1 h2
    · exact lift g
    · simp only [reduceCtorEq, false_implies, Option.some.injEq, Prod.mk.injEq, and_imp, true_and]
      rintro g' si - rfl
      refine ⟨rfl, by simp, Or.inr ⟨rfl, ?_⟩⟩
      exact (aeLoop_mono h2).1
    · exact lift _

theorem assignCell_mono {strata : List (Stratum α)} {xi yi : ℕ} {z : α} {p : Pos} :
    ((assignCell strata xi yi z p).1 = none → strata.length ≤ (assignCell strata xi yi z p).2.si) ∧
    (∀ g' si, (assignCell strata xi yi z p).1 = some (g', si) → (assignCell strata xi yi z p).2.si = si ∧
      si < strata.length) ∧
    p.sle (assignCell strata xi yi z p).2 := by
  have h := @strataLoop_mono α _ xi yi z (strata.drop p.si) p Geo.fresh
  unfold assignCell
  rw [List.length_drop] at h
  refine ⟨fun hn => ?_, fun g' si hs => ?_, ?_⟩
  · have := h.1 hn; omega
  · obtain ⟨h1, h2, h3⟩ := h.2 g' si hs
    refine ⟨h1, ?_⟩
    rcases Nat.lt_or_ge p.si strata.length with hlt | hge
    · omega
    · rw [List.drop_eq_nil_of_le hge] at hs
      simp [strataLoop] at hs
  · cases hr : (strataLoop xi yi z (strata.drop p.si) p Geo.fresh).1 with
    | some r => exact (h.2 r.1 r.2 hr).2.2
    | none =>
      rcases Nat.lt_or_ge p.si strata.length with hlt | hge
      · have := h.1 hr
        left; omega
      · rw [List.drop_eq_nil_of_le hge]
        simp [strataLoop, Pos.sle_refl]

theorem posAfter_mono (strata : List (Stratum α)) (gridz : ℕ → α) (nz xi yi : ℕ) {m m' : ℕ} (h : m ≤ m') :
    (posAfter strata gridz nz xi yi m).sle (posAfter strata gridz nz xi yi m') := by
  induction m', h using Nat.le_induction with
  | base => exact Pos.sle_refl _
  | succ m' _ ih => exact Pos.sle_trans ih assignCell_mono.2.2

/-- The AE that was found: the position after the cell names it. -/
theorem aeLoop_found {xi yi : ℕ} {z : α} {as : List (AE α)} {aei oi : ℕ} {g : Geo α} (hg : g.facies = -1)
    (hgr : g = Geo.fresh)
    (hb : ∀ a ∈ as, a.bgFacies ≠ -1)
    (hf : ∀ a ∈ as, ∀ o ∈ a.objs, ∀ h, o.test xi yi z = some h → h.facies ≠ -1) :
    (aeLoop xi yi z as aei oi g = (Geo.fresh, 0, 0)) ∨
    ∃ k a, as[k]? = some a ∧ (aeLoop xi yi z as aei oi g).2.1 = aei + k ∧
      ((∃ o h, a.objs[(aeLoop xi yi z as aei oi g).2.2]? = some o ∧ objHit xi yi z o = some h ∧
          (aeLoop xi yi z as aei oi g).1 = hitRec a h) ∨
       (inBg xi yi z a ∧ (aeLoop xi yi z as aei oi g).1 = bgRec a)) := by
  subst hgr
  induction as generalizing aei oi with
  | nil => left; simp [aeLoop, Geo.fresh]
  | cons a rest ih =>
    have ih' := @ih (aei + 1) 0 (fun a ha => hb a (List.mem_cons_of_mem _ ha))
      (fun a ha => hf a (List.mem_cons_of_mem _ ha))
    have lift : ∀ R : Geo α × ℕ × ℕ,
        ((R = (Geo.fresh, 0, 0)) ∨
          ∃ k a, rest[k]? = some a ∧ R.2.1 = aei + 1 + k ∧
          ((∃ o h, a.objs[R.2.2]? = some o ∧ objHit xi yi z o = some h ∧ R.1 = hitRec a h) ∨
           (inBg xi yi z a ∧ R.1 = bgRec a))) →
        ((R = (Geo.fresh, 0, 0)) ∨
          ∃ k a', (a :: rest)[k]? = some a' ∧ R.2.1 = aei + k ∧
          ((∃ o h, a'.objs[R.2.2]? = some o ∧ objHit xi yi z o = some h ∧ R.1 = hitRec a' h) ∨
           (inBg xi yi z a' ∧ R.1 = bgRec a'))) := by
      rintro R (h | ⟨k, a', h1, h2, h3⟩)
      · exact Or.inl h
      · exact Or.inr ⟨k + 1, a', by simpa using h1, by omega, h3⟩
    unfold aeLoop
    dsimp only
    have hba := hb a List.mem_cons_self
    have hfa := hf a List.mem_cons_self
    have hAE : (assignAE a xi yi z oi Geo.fresh = (Geo.fresh, 0)) ∨
        ((assignAE a xi yi z oi Geo.fresh).1.facies ≠ -1 ∧
         ((∃ o h, a.objs[(assignAE a xi yi z oi Geo.fresh).2]? = some o ∧ objHit xi yi z o = some h ∧
            (assignAE a xi yi z oi Geo.fresh).1 = hitRec a h) ∨
          (inBg xi yi z a ∧ (assignAE a xi yi z oi Geo.fresh).1 = bgRec a))) := by
      unfold assignAE
      rcases objLoop_cases (num := a.num) (typeId := a.typeId) (oi := oi) (g := (Geo.fresh : Geo α)) rfl
        (fun o ho => hfa o (List.mem_of_mem_drop ho)) with h | ⟨k, o, h, h1, h2, h3⟩
      · rw [h]
        dsimp only
        split_ifs with hs hin
        · left; rfl
        · right; exact ⟨hba, Or.inr ⟨⟨by simpa using hs, hin⟩, rfl⟩⟩
        · left; rfl
      · rw [h3]
        right
        dsimp only
        rw [List.getElem?_drop] at h1
        refine ⟨?_, Or.inl ⟨o, h, h1, h2, rfl⟩⟩
        have h2' := h2
        unfold objHit at h2'
        split_ifs at h2'
        exact hfa o (List.mem_of_getElem? h1) h h2'
    split_ifs with h1 h2
    · exact lift _ ih'
    · rcases hAE with h | h
      · exact absurd (by rw [h]; rfl) h2
      · exact Or.inr ⟨0, a, by simp, by simp, h.2⟩
    · rcases hAE with h | h
      · rw [h]; exact lift _ ih'
      · exact absurd h.1 h2

/-- The unit that was found by the strata loop. -/
theorem strataLoop_found {xi yi : ℕ} {z : α} {ss : List (Stratum α)} {p : Pos}
    (hb : ∀ s ∈ ss, ∀ a ∈ s.aes, a.bgFacies ≠ -1)
    (hf : ∀ s ∈ ss, ∀ a ∈ s.aes, ∀ o ∈ a.objs, ∀ h, o.test xi yi z = some h → h.facies ≠ -1)
    {g : Geo α} {si : ℕ} (hr : (strataLoop xi yi z ss p Geo.fresh).1 = some (g, si)) :
    ∃ k s a, si = p.si + k ∧ ss[k]? = some s ∧ s.aes[(strataLoop xi yi z ss p Geo.fresh).2.aei]? = some a ∧
      ((∃ o h, a.objs[(strataLoop xi yi z ss p Geo.fresh).2.oi]? = some o ∧ objHit xi yi z o = some h ∧
          g = hitRec a h) ∨ (inBg xi yi z a ∧ g = bgRec a)) := by
  induction ss generalizing p with
  | nil => simp [strataLoop] at hr
  | cons s rest ih =>
    have lift : ∀ R : Option (Geo α × ℕ) × Pos,
        (∃ k s a, si = p.si + 1 + k ∧ rest[k]? = some s ∧ s.aes[R.2.aei]? = some a ∧
          ((∃ o h, a.objs[R.2.oi]? = some o ∧ objHit xi yi z o = some h ∧
          g = hitRec a h) ∨ (inBg xi yi z a ∧ g = bgRec a))) →
        (∃ k s' a, si = p.si + k ∧ (s :: rest)[k]? = some s' ∧ s'.aes[R.2.aei]? = some a ∧
          ((∃ o h, a.objs[R.2.oi]? = some o ∧ objHit xi yi z o = some h ∧
          g = hitRec a h) ∨ (inBg xi yi z a ∧ g = bgRec a))) := by
      rintro R ⟨k, s', a, h1, h2, h3⟩
      exact ⟨k + 1, s', a, by omega, by simpa using h2, h3⟩
    have ih' := @ih ⟨p.si + 1, 0, 0⟩ (fun s hs => hb s (List.mem_cons_of_mem _ hs))
      (fun s hs => hf s (List.mem_cons_of_mem _ hs))
    unfold strataLoop at hr ⊢
    dsimp only at hr ⊢
    have hfound := aeLoop_found (xi := xi) (yi := yi) (z := z) (as := s.aes.drop p.aei) (aei := p.aei) (oi := p.oi)
      (g := Geo.fresh) rfl rfl (fun a ha => hb s List.mem_cons_self a (List.mem_of_mem_drop ha))
      (fun a ha => hf s List.mem_cons_self a (List.mem_of_mem_drop ha))
    split_ifs at hr ⊢ with h1 h2
    · exact lift _ (ih' hr)
    · simp only [Option.some.injEq, Prod.mk.injEq] at hr
      obtain ⟨hg, rfl⟩ := hr
      unfold assignStratum at *
      rcases hfound with h | ⟨k, a, ha1, ha2, ha3⟩
      · exact absurd (by rw [h]; rfl) h2
      · refine ⟨0, s, a, by simp, by simp, ?_, ?_⟩
        · rw [ha2]; rwa [List.getElem?_drop] at ha1
        · rw [← hg]; exact ha3
    · unfold assignStratum at *
      rcases hfound with h | ⟨k, a, ha1, ha2, ha3⟩
      · rw [h] at hr ⊢
        exact lift _ (ih' hr)
      · exfalso
        apply h2
        have ham := List.mem_of_mem_drop (List.mem_of_getElem? ha1)
        rcases ha3 with ⟨o, h, ho1, ho2, ho3⟩ | ⟨_, ho3⟩
        · rw [ho3]
          unfold objHit at ho2
          split_ifs at ho2
          exact hf s List.mem_cons_self a ham o (List.mem_of_getElem? ho1) h ho2
        · rw [ho3]; exact hb s List.mem_cons_self a ham

theorem assignCell_found {strata : List (Stratum α)} {xi yi : ℕ} {z : α} {p : Pos} (hok : FaciesOK strata)
    {g : Geo α} {si : ℕ} (hr : (assignCell strata xi yi z p).1 = some (g, si)) :
    ∃ s a, strata[si]? = some s ∧ s.aes[(assignCell strata xi yi z p).2.aei]? = some a ∧
      ((∃ o h, a.objs[(assignCell strata xi yi z p).2.oi]? = some o ∧ objHit xi yi z o = some h ∧
          g = hitRec a h) ∨ (inBg xi yi z a ∧ g = bgRec a)) := by
  obtain ⟨k, s, a, h1, h2, h3, h4⟩ := strataLoop_found (p := p)
    (fun s hs a ha => (hok s (List.mem_of_mem_drop hs) a ha).1)
    (fun s hs a ha o ho h hh => (hok s (List.mem_of_mem_drop hs) a ha).2 o ho xi yi z h hh) hr
  rw [List.getElem?_drop, ← h1] at h2
  exact ⟨s, a, h2, h3, h4⟩

/-- Explicit reading of `firstPlace`. -/
theorem firstPlace_some {xi yi : ℕ} {z : α} {ss : List (Stratum α)} {q : Place} {g : Geo α}
    (h : firstPlace xi yi z ss = some (q, g)) :
    ∃ s, ss[q.si]? = some s ∧ firstAE xi yi z s.aes = some (q.aei, q.oi, g) ∧
      ∀ k < q.si, ∀ s', ss[k]? = some s' → firstAE xi yi z s'.aes = none := by
  induction ss generalizing q with
  | nil => simp [firstPlace] at h
  | cons s rest ih =>
    simp only [firstPlace] at h
    cases hs : firstAE xi yi z s.aes with
    | some v =>
      obtain ⟨k, o, g'⟩ := v
      simp only [hs, Option.some.injEq, Prod.mk.injEq] at h
      obtain ⟨rfl, rfl⟩ := h
      exact ⟨s, by simp, hs, fun k hk => absurd hk (Nat.not_lt_zero _)⟩
    | none =>
      simp only [hs, Option.map_eq_some_iff] at h
      obtain ⟨⟨q1, g1⟩, h1, he⟩ := h
      simp only [Prod.mk.injEq] at he
      obtain ⟨rfl, rfl⟩ := he
      obtain ⟨s1, a1, a2, a3⟩ := ih h1
      refine ⟨s1, by simpa using a1, a2, ?_⟩
      intro k hk s' hs'
      cases k with
      | zero => simp at hs'; subst hs'; exact hs
      | succ k => exact a3 k (by simp only at hk; omega) s' (by simpa using hs')

end Hyvr
