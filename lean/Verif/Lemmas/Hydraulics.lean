import Verif.Lemmas.Strata
import Verif.Lemmas.Masks
import Verif.Model.Hydraulics

/-!
Lemmas about the loops of `generate_hydraulic_parameters`.
-/

namespace Hyvr

open Py

/-! ### Folds in `Except` -/

section fold
variable {σ β ε : Type}

theorem foldlM_cons_ok {step : σ → β → Except ε σ} {x : β} {L : List β} {s t : σ} :
    (x :: L).foldlM step s = .ok t ↔ ∃ u, step s x = .ok u ∧ L.foldlM step u = .ok t := by
  rw [List.foldlM_cons, bind_ok]

theorem foldlM_nil_ok {step : σ → β → Except ε σ} {s t : σ} : ([] : List β).foldlM step s = .ok t ↔ s = t := by
  rw [List.foldlM_nil, pure_ok]

theorem foldlM_inv {step : σ → β → Except ε σ} (I : σ → Prop) (L : List β)
    (hs : ∀ s x t, x ∈ L → I s → step s x = .ok t → I t) {s t : σ} (h : L.foldlM step s = .ok t) (h0 : I s) : I t := by
  induction L generalizing s with
  | nil => rw [foldlM_nil_ok] at h; exact h ▸ h0
  | cons x L ih =>
    obtain ⟨u, hu, h⟩ := foldlM_cons_ok.1 h
    exact ih (fun s y t hy => hs s y t (List.mem_cons_of_mem _ hy)) h (hs _ _ _ List.mem_cons_self h0 hu)

/-- The step for `x₀` establishes `P`, the other steps keep it. -/
theorem foldlM_last {step : σ → β → Except ε σ} (I P : σ → Prop) (L : List β) (x₀ : β) (hx : x₀ ∈ L)
    (hI : ∀ s x t, x ∈ L → I s → step s x = .ok t → I t)
    (hgood : ∀ s t, I s → step s x₀ = .ok t → P t)
    (hkeep : ∀ s x t, x ∈ L → x ≠ x₀ → I s → step s x = .ok t → P s → P t)
    {s t : σ} (h : L.foldlM step s = .ok t) (h0 : I s) : P t := by
  induction L generalizing s with
  | nil => simp at hx
  | cons x L ih =>
    obtain ⟨u, hu, h'⟩ := foldlM_cons_ok.1 h
    have hIu : I u := hI _ _ _ List.mem_cons_self h0 hu
    by_cases hxL : x₀ ∈ L
    · exact ih hxL (fun s y t hy => hI s y t (List.mem_cons_of_mem _ hy))
        (fun s y t hy => hkeep s y t (List.mem_cons_of_mem _ hy)) h' hIu
    · have hxx : x₀ = x := by
        rcases List.mem_cons.1 hx with h | h
        · exact h
        · exact (hxL h).elim
      subst hxx
      have hP : P u := hgood _ _ h0 hu
      have := foldlM_inv (fun s => I s ∧ P s) L
        (fun s y t hy hs hst => ⟨hI s y t (List.mem_cons_of_mem _ hy) hs.1 hst,
          hkeep s y t (List.mem_cons_of_mem _ hy) (fun e => hxL (e ▸ hy)) hs.1 hst hs.2⟩) h' ⟨hIu, hP⟩
      exact this.2

theorem foldlM_total {step : σ → β → Except ε σ} (L : List β)
    (hs : ∀ s x, x ∈ L → ∃ t, step s x = .ok t) (s : σ) : ∃ t, L.foldlM step s = .ok t := by
  induction L generalizing s with
  | nil => exact ⟨s, by rw [foldlM_nil_ok]⟩
  | cons x L ih =>
    obtain ⟨u, hu⟩ := hs s x List.mem_cons_self
    obtain ⟨t, ht⟩ := ih (fun s y hy => hs s y (List.mem_cons_of_mem _ hy)) u
    exact ⟨t, foldlM_cons_ok.2 ⟨u, hu, ht⟩⟩

theorem foldlM_flatten (step : σ → β → Except ε σ) (LL : List (List β)) (s : σ) :
    LL.foldlM (fun s L => L.foldlM step s) s = LL.flatten.foldlM step s := by
  induction LL generalizing s with
  | nil => rfl
  | cons L LL ih =>
    rw [List.foldlM_cons, List.flatten_cons, List.foldlM_append]
    congr 1
    funext s'
    exact ih s'

end fold

/-! ### Table lookups and unique values -/

theorem pyGet_nat {α : Type} (l : List α) (a : ℕ) : pyGet l (a : ℤ) = match l[a]? with
    | some v => .ok v
    | none => .error .indexError := by
  unfold pyGet
  rw [if_pos (Int.natCast_nonneg a), Int.toNat_natCast]
  cases l[a]? <;> rfl

theorem mem_npUnique {l : List ℤ} {a : ℤ} : a ∈ npUnique l ↔ a ∈ l := by
  unfold npUnique
  rw [List.mem_mergeSort, List.mem_dedup]

theorem mem_hetPairs {s : Shape} {ha fac : Arr3 ℤ} {i j k : ℕ} (hi : i < s.nx) (hj : j < s.ny) (hk : k < s.nz) :
    (ha i j k, fac i j k) ∈ hetPairs s ha fac := by
  unfold hetPairs
  rw [List.mem_flatMap]
  refine ⟨ha i j k, ?_, ?_⟩
  · rw [mem_npUnique, List.mem_map]
    exact ⟨(i, j, k), mem_cells.2 ⟨hi, hj, hk⟩, rfl⟩
  · rw [List.mem_map]
    refine ⟨fac i j k, ?_, rfl⟩
    rw [mem_npUnique]
    unfold maskGather
    rw [List.mem_map]
    exact ⟨(i, j, k), mem_maskCells.2 ⟨hi, hj, hk, by simp⟩, rfl⟩

theorem of_mem_hetPairs {s : Shape} {ha fac : Arr3 ℤ} {p : ℤ × ℤ} (h : p ∈ hetPairs s ha fac) :
    ∃ i j k, i < s.nx ∧ j < s.ny ∧ k < s.nz ∧ ha i j k = p.1 ∧ fac i j k = p.2 := by
  unfold hetPairs at h
  rw [List.mem_flatMap] at h
  obtain ⟨mi, _, h⟩ := h
  rw [List.mem_map] at h
  obtain ⟨fi, hfi, rfl⟩ := h
  rw [mem_npUnique] at hfi
  unfold maskGather at hfi
  rw [List.mem_map] at hfi
  obtain ⟨⟨i, j, k⟩, hc, rfl⟩ := hfi
  have := mem_maskCells.1 hc
  exact ⟨i, j, k, this.1, this.2.1, this.2.2.1, by simpa using this.2.2.2, rfl⟩

/-! ### Single steps -/

theorem pyGet_ok_nonneg {α : Type} {l : List α} {f : ℤ} {v : α} (hf : 0 ≤ f) (h : pyGet l f = .ok v) :
    ∃ a : ℕ, f = a ∧ l[a]? = some v := by
  obtain ⟨a, rfl⟩ := Int.eq_ofNat_of_zero_le hf
  rw [pyGet_nat] at h
  refine ⟨a, rfl, ?_⟩
  split at h
  · simp only [Except.ok.injEq] at h; subst h; assumption
  · simp at h

/-- No aliasing problem so far. -/
def Aliased.Ok (a : Aliased) : Prop := a.same = true ∧ a.stored = a.loc

theorem Aliased.Ok.write {a : Aliased} (h : a.Ok) (A : Arr3 ℝ) : (a.write A).Ok ∧ (a.write A).stored = A ∧
    (a.write A).loc = A := by
  unfold Aliased.write
  rw [if_pos h.1]
  exact ⟨⟨rfl, rfl⟩, rfl, rfl⟩

theorem Aliased.write_loc (a : Aliased) (A : Arr3 ℝ) : (a.write A).loc = A := by
  unfold Aliased.write
  split <;> rfl

/-- The arrays the loops write to. -/
def HydState.Ok (st : HydState) : Prop := st.k.Ok ∧ st.n.Ok

theorem HydState.init_ok : HydState.init.Ok := ⟨⟨rfl, rfl⟩, ⟨rfl, rfl⟩⟩

/-- Result of filling a mask with simulated values. -/
theorem internalFill_spec {s : Shape} {H : HydTables} {field : FieldSource} {m : Arr3 Bool} {fi : ℤ} {st st' : HydState}
    (h : internalFill s H field m fi st = .ok st') :
    ∃ b sy cy kh sn cn n K N, boundingBox (maskCells s m) = .ok b ∧ pyGet H.sigY fi = .ok sy ∧
      pyGet H.ycorl fi = .ok cy ∧ pyGet H.kh fi = .ok kh ∧ pyGet H.sigN fi = .ok sn ∧ pyGet H.ncorl fi = .ok cn ∧
      pyGet H.n fi = .ok n ∧
      st' = { st with k := st.k.write K, n := st.n.write N, calls := st.calls + 2 } ∧
      (∀ i j k, K i j k = if (i, j, k) ∈ maskCells s m then
        Real.exp (field st.calls sy cy b (i - b.x0) (j - b.y0) (k - b.z0)) * kh else st.k.loc i j k) ∧
      (∀ i j k, N i j k = if (i, j, k) ∈ maskCells s m then
        field (st.calls + 1) sn cn b (i - b.x0) (j - b.y0) (k - b.z0) + n else st.n.loc i j k) := by
  unfold internalFill at h
  simp only [bind_ok, pure_ok] at h
  obtain ⟨sy, hsy, cy, hcy, kF, hkF, kh, hkh, K, hK, sn, hsn, cn, hcn, nF, hnF, n, hn, N, hN, he⟩ := h
  have hb : ∃ b, boundingBox (maskCells s m) = .ok b := by
    unfold specsimMasked at hkF
    rw [bind_ok] at hkF
    obtain ⟨b, hb, _⟩ := hkF
    exact ⟨b, hb⟩
  obtain ⟨b, hb⟩ := hb
  rw [specsimMasked_eq hb, Except.ok.injEq] at hkF hnF
  subst hkF hnF
  rw [List.map_map] at hK hN
  obtain ⟨K', hK', hKv⟩ := maskScatter_map s m
    ((fun y => Real.exp y * kh) ∘ fun c => field st.calls sy cy b (c.1 - b.x0) (c.2.1 - b.y0) (c.2.2 - b.z0)) st.k.loc
  obtain ⟨N', hN', hNv⟩ := maskScatter_map s m
    ((fun y => y + n) ∘ fun c => field (st.calls + 1) sn cn b (c.1 - b.x0) (c.2.1 - b.y0) (c.2.2 - b.z0)) st.n.loc
  rw [hK', Except.ok.injEq] at hK
  rw [hN', Except.ok.injEq] at hN
  subst hK hN
  exact ⟨b, sy, cy, kh, sn, cn, n, K', N', hb, hsy, hcy, hkh, hsn, hcn, hn, he.symm, hKv, hNv⟩

/-- Filling a non-empty mask succeeds if the tables have the entries. -/
theorem internalFill_ok {s : Shape} {H : HydTables} {field : FieldSource} {m : Arr3 Bool} {fi : ℤ} {st : HydState}
    {sy kh sn n : ℝ} {cy cn : ℝ × ℝ × ℝ} (hne : maskCells s m ≠ [])
    (h1 : pyGet H.sigY fi = .ok sy) (h2 : pyGet H.ycorl fi = .ok cy) (h3 : pyGet H.kh fi = .ok kh)
    (h4 : pyGet H.sigN fi = .ok sn) (h5 : pyGet H.ncorl fi = .ok cn) (h6 : pyGet H.n fi = .ok n) :
    ∃ st', internalFill s H field m fi st = .ok st' := by
  obtain ⟨b, hb⟩ := boundingBox_ok hne
  obtain ⟨K', hK', hKv⟩ := maskScatter_map s m
    ((fun y => Real.exp y * kh) ∘ fun c => field st.calls sy cy b (c.1 - b.x0) (c.2.1 - b.y0) (c.2.2 - b.z0)) st.k.loc
  obtain ⟨N', hN', hNv⟩ := maskScatter_map s m
    ((fun y => y + n) ∘ fun c => field (st.calls + 1) sn cn b (c.1 - b.x0) (c.2.1 - b.y0) (c.2.2 - b.z0)) st.n.loc
  refine ⟨{ st with k := st.k.write K', n := st.n.write N', calls := st.calls + 2 }, ?_⟩
  unfold internalFill
  simp only [bind_ok, pure_ok]
  refine ⟨sy, h1, cy, h2, _, specsimMasked_eq hb, kh, h3, K', ?_, sn, h4, cn, h5, _, specsimMasked_eq hb, n, h6, N', ?_,
    rfl⟩
  · rw [List.map_map]; exact hK'
  · rw [List.map_map]; exact hN'

end Hyvr
