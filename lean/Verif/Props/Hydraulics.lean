import Verif.Lemmas.Hydraulics
import Verif.Spec.Hydraulics
import Verif.Props.KTensor

/-!
C35–C38: hydraulic parameters.
-/

namespace Hyvr

open Py Spec

/-! ### Facies level (C35) -/

/-- What holds of a cell with the table values of facies `f`. -/
def CellTable (H : HydTables) (f : ℤ) (i j k : ℕ) (st : HydState) : Prop :=
  pyGet H.kh f = .ok (st.k.loc i j k) ∧ pyGet H.n f = .ok (st.n.loc i j k) ∧ pyGet H.kRatio f = .ok (st.anirat i j k)

theorem hetStep_facies {s : Shape} {H : HydTables} {field : FieldSource} {ha fac : Arr3 ℤ} {st st' : HydState}
    {p : ℤ × ℤ} (h : hetStep s "facies" H field ha fac st p = .ok st') :
    ∃ kh n r, pyGet H.kh p.2 = .ok kh ∧ pyGet H.n p.2 = .ok n ∧ pyGet H.kRatio p.2 = .ok r ∧
      st' = { st with
        k := st.k.write (maskFill (fun i j k => decide (ha i j k = p.1) && decide (fac i j k = p.2)) kh st.k.loc),
        n := st.n.write (maskFill (fun i j k => decide (ha i j k = p.1) && decide (fac i j k = p.2)) n st.n.loc),
        anirat := maskFill (fun i j k => decide (ha i j k = p.1) && decide (fac i j k = p.2)) r st.anirat } := by
  unfold hetStep levelFill at h
  simp only [bind_ok, pure_ok, if_neg (show ("facies" : String) ≠ "internal" by decide),
    if_true] at h
  obtain ⟨st1, ⟨kh, hk, n, hn, rfl⟩, r, hr, he⟩ := h
  exact ⟨kh, n, r, hk, hn, hr, he.symm⟩

theorem facies_cells {s : Shape} {H : HydTables} {field : FieldSource} {ha fac : Arr3 ℤ} {st : HydState}
    (h : (hetPairs s ha fac).foldlM (hetStep s "facies" H field ha fac) HydState.init = .ok st) :
    st.Ok ∧ ∀ i j k, i < s.nx → j < s.ny → k < s.nz → CellTable H (fac i j k) i j k st := by
  have hI : ∀ (s1 : HydState) (x : ℤ × ℤ) (t : HydState), x ∈ hetPairs s ha fac → s1.Ok →
      hetStep s "facies" H field ha fac s1 x = .ok t → t.Ok := by
    intro s1 x t _ h1 hst
    obtain ⟨kh, n, r, _, _, _, rfl⟩ := hetStep_facies hst
    exact ⟨(h1.1.write _).1, (h1.2.write _).1⟩
  refine ⟨foldlM_inv HydState.Ok _ hI h HydState.init_ok, fun i j k hi hj hk => ?_⟩
  refine foldlM_last HydState.Ok (CellTable H (fac i j k) i j k) _ (ha i j k, fac i j k) (mem_hetPairs hi hj hk) hI
    ?_ ?_ h HydState.init_ok
  · intro s1 t h1 hst
    obtain ⟨kh, n, r, hkh, hn, hr, rfl⟩ := hetStep_facies hst
    refine ⟨?_, ?_, ?_⟩
    · rw [Aliased.write_loc, hkh]; simp [maskFill]
    · rw [Aliased.write_loc, hn]; simp [maskFill]
    · rw [hr]; simp [maskFill]
  · intro s1 x t _ hx h1 hst hP
    obtain ⟨kh, n, r, hkh, hn, hr, rfl⟩ := hetStep_facies hst
    have hm : (decide (ha i j k = x.1) && decide (fac i j k = x.2)) = false := by
      rw [Bool.and_eq_false_iff]
      by_contra hc
      push Not at hc
      apply hx
      obtain ⟨a, b⟩ := hc
      simp only [ne_eq, decide_eq_false_iff_not, not_not] at a b
      exact Prod.ext a.symm b.symm
    obtain ⟨p1, p2, p3⟩ := hP
    refine ⟨?_, ?_, ?_⟩
    · rw [Aliased.write_loc, p1]; simp [maskFill, hm]
    · rw [Aliased.write_loc, p2]; simp [maskFill, hm]
    · rw [p3]; simp [maskFill, hm]

theorem generate_ok {s : Shape} {het : Bool} {level : String} {H : HydTables} {strata : List (List AEBg)}
    {field : FieldSource} {ha fac ae : Arr3 ℤ} {azim dip : Arr3 ℝ} {out : HydOut}
    (h : generateHydraulics s het level H strata field ha fac ae azim dip = .ok out) :
    ∃ st, hydBranch s het level H strata field ha fac ae = .ok st ∧ out.kIso = st.k.stored ∧ out.poros = st.n.stored ∧ out.anirat = st.anirat ∧
      ∀ i j k, i < s.nx → j < s.ny → k < s.nz →
        out.ktensors i j k = tensor (st.k.loc i j k) (azim i j k) (dip i j k) (st.anirat i j k) := by
  unfold generateHydraulics at h
  simp only [bind_ok, pure_ok] at h
  obtain ⟨st, hst, rfl⟩ := h
  refine ⟨st, hst, rfl, rfl, rfl, fun i j k hi hj hk => ?_⟩
  simp only
  rw [C39_array, if_pos ⟨hi, hj, hk⟩]
  rfl

/-- **C35.** With facies-level heterogeneity every cell has the conductivity, porosity and anisotropy ratio that the
tables give for its facies, whatever the `ha` values are, and its tensor is the documented one for these values. -/
theorem C35_lookup (s : Shape) (H : HydTables) (strata : List (List AEBg)) (field : FieldSource) (ha fac ae : Arr3 ℤ)
    (azim dip : Arr3 ℝ) (out : HydOut)
    (h : generateHydraulics s true "facies" H strata field ha fac ae azim dip = .ok out) (i j k : ℕ)
    (hi : i < s.nx) (hj : j < s.ny) (hk : k < s.nz) (hf : 0 ≤ fac i j k) :
    Entry H.kh (fac i j k) (out.kIso i j k) ∧ Entry H.n (fac i j k) (out.poros i j k) ∧
      Entry H.kRatio (fac i j k) (out.anirat i j k) ∧
      out.ktensors i j k = tensor (out.kIso i j k) (azim i j k) (dip i j k) (out.anirat i j k) := by
  obtain ⟨st, hst, e1, e2, e3, e4⟩ := generate_ok h
  unfold hydBranch hetBranch at hst
  rw [if_pos rfl] at hst
  simp only [bind_ok, if_neg (show ("facies" : String) ≠ "internal" by decide), pure_ok] at hst
  obtain ⟨st1, hst1, rfl⟩ := hst
  obtain ⟨hok, hc⟩ := facies_cells hst1
  obtain ⟨c1, c2, c3⟩ := hc i j k hi hj hk
  rw [e1, e2, e3, hok.1.2, hok.2.2]
  exact ⟨pyGet_ok_nonneg hf c1, pyGet_ok_nonneg hf c2, pyGet_ok_nonneg hf c3, e4 i j k hi hj hk⟩

theorem pyGet_lt {α : Type} {l : List α} {f : ℤ} (h0 : 0 ≤ f) (h : f < l.length) : ∃ v, pyGet l f = .ok v := by
  obtain ⟨a, rfl⟩ := Int.eq_ofNat_of_zero_le h0
  rw [pyGet_nat]
  have ha : a < l.length := by omega
  rw [List.getElem?_eq_getElem ha]
  exact ⟨_, rfl⟩

/-- **C35.** The call succeeds whenever the tables cover the facies that occur. -/
theorem C35_total (s : Shape) (H : HydTables) (strata : List (List AEBg)) (field : FieldSource) (ha fac ae : Arr3 ℤ)
    (azim dip : Arr3 ℝ)
    (hcov : ∀ i j k, i < s.nx → j < s.ny → k < s.nz → Covers H (fac i j k)) :
    ∃ out, generateHydraulics s true "facies" H strata field ha fac ae azim dip = .ok out := by
  have : ∃ st, (hetPairs s ha fac).foldlM (hetStep s "facies" H field ha fac) HydState.init = .ok st := by
    apply foldlM_total
    intro st p hp
    obtain ⟨i, j, k, hi, hj, hk, _, hfac⟩ := of_mem_hetPairs hp
    obtain ⟨h0, h1, h2, h3⟩ := hcov i j k hi hj hk
    rw [hfac] at h0 h1 h2 h3
    obtain ⟨kh, hkh⟩ := pyGet_lt h0 h1
    obtain ⟨n, hn⟩ := pyGet_lt h0 h2
    obtain ⟨r, hr⟩ := pyGet_lt h0 h3
    unfold hetStep levelFill
    simp only [bind_ok, pure_ok, if_neg (show ("facies" : String) ≠ "internal" by decide),
      if_true]
    exact ⟨_, _, ⟨kh, hkh, n, hn, rfl⟩, r, hr, rfl⟩
  obtain ⟨st, hst⟩ := this
  unfold generateHydraulics hydBranch
  simp only [if_true, bind_ok, pure_ok]
  refine ⟨_, st, ?_, rfl⟩
  unfold hetBranch
  simp only [bind_ok, if_neg (show ("facies" : String) ≠ "internal" by decide), pure_ok]
  exact ⟨st, hst, rfl⟩

/-! ### Homogeneous parameters (C36) -/

theorem homStep_spec {H : HydTables} {fac : Arr3 ℤ} {st st' : HydState} {idx : ℕ}
    (h : homStep H fac st idx = .ok st') :
    ∃ kh n r, pyGet H.kh idx = .ok kh ∧ pyGet H.n idx = .ok n ∧ pyGet H.kRatio idx = .ok r ∧
      st' = { st with
        k := st.k.write (maskFill (fun i j k => decide (fac i j k = (idx : ℤ))) kh st.k.loc),
        n := st.n.write (maskFill (fun i j k => decide (fac i j k = (idx : ℤ))) n st.n.loc),
        anirat := maskFill (fun i j k => decide (fac i j k = (idx : ℤ))) r st.anirat } := by
  unfold homStep at h
  simp only [bind_ok, pure_ok] at h
  obtain ⟨kh, hk, n, hn, r, hr, he⟩ := h
  exact ⟨kh, n, r, hk, hn, hr, he.symm⟩

/-- **C36 (old format).** Without heterogeneity every cell whose facies is one of the named ones has the table values
of its facies. Missing: new-format files, see `C36_refuted`. -/
theorem C36_lookup_partial (s : Shape) (level : String) (H : HydTables) (names : List String)
    (strata : List (List AEBg)) (field : FieldSource) (ha fac ae : Arr3 ℤ) (azim dip : Arr3 ℝ) (out : HydOut)
    (hn : H.hydro = some names)
    (h : generateHydraulics s false level H strata field ha fac ae azim dip = .ok out) (i j k : ℕ)
    (hi : i < s.nx) (hj : j < s.ny) (hk : k < s.nz) (hf : 0 ≤ fac i j k) (hf' : fac i j k < names.length) :
    Entry H.kh (fac i j k) (out.kIso i j k) ∧ Entry H.n (fac i j k) (out.poros i j k) ∧
      Entry H.kRatio (fac i j k) (out.anirat i j k) ∧
      out.ktensors i j k = tensor (out.kIso i j k) (azim i j k) (dip i j k) (out.anirat i j k) := by
  obtain ⟨st, hst, e1, e2, e3, e4⟩ := generate_ok h
  unfold hydBranch homBranch at hst
  simp only [Bool.false_eq_true, if_false, hn] at hst
  have hI : ∀ (s1 : HydState) (x : ℕ) (t : HydState), x ∈ List.range names.length → s1.Ok →
      homStep H fac s1 x = .ok t → t.Ok := by
    intro s1 x t _ h1 hst
    obtain ⟨kh, n, r, _, _, _, rfl⟩ := homStep_spec hst
    exact ⟨(h1.1.write _).1, (h1.2.write _).1⟩
  have hok := foldlM_inv HydState.Ok _ hI hst HydState.init_ok
  have hc : CellTable H (fac i j k) i j k st := by
    obtain ⟨a, ha⟩ := Int.eq_ofNat_of_zero_le hf
    refine foldlM_last HydState.Ok (CellTable H (fac i j k) i j k) _ a
      (List.mem_range.2 (by omega)) hI ?_ ?_ hst HydState.init_ok
    · intro s1 t h1 hst
      obtain ⟨kh, n, r, hkh, hn, hr, rfl⟩ := homStep_spec hst
      have ha' : fac i j k = (a : ℤ) := ha
      rw [← ha'] at hkh hn hr
      refine ⟨?_, ?_, ?_⟩
      · rw [Aliased.write_loc, hkh]; simp [maskFill, ha]
      · rw [Aliased.write_loc, hn]; simp [maskFill, ha]
      · rw [hr]; simp [maskFill, ha]
    · intro s1 x t _ hx h1 hst hP
      obtain ⟨kh, n, r, hkh, hn, hr, rfl⟩ := homStep_spec hst
      obtain ⟨p1, p2, p3⟩ := hP
      have hx' : (a : ℤ) ≠ (x : ℤ) := fun e => hx (by omega)
      refine ⟨?_, ?_, ?_⟩
      · rw [Aliased.write_loc, p1]; simp [maskFill, ha, hx']
      · rw [Aliased.write_loc, p2]; simp [maskFill, ha, hx']
      · rw [p3]; simp [maskFill, ha, hx']
  obtain ⟨c1, c2, c3⟩ := hc
  rw [e1, e2, e3, hok.1.2, hok.2.2]
  exact ⟨pyGet_ok_nonneg hf c1, pyGet_ok_nonneg hf c2, pyGet_ok_nonneg hf c3, e4 i j k hi hj hk⟩

/-- **C36 (old format).** The call succeeds if the three tables are as long as the list of names. -/
theorem C36_total_partial (s : Shape) (level : String) (H : HydTables) (names : List String)
    (strata : List (List AEBg)) (field : FieldSource) (ha fac ae : Arr3 ℤ) (azim dip : Arr3 ℝ)
    (hn : H.hydro = some names) (h1 : names.length ≤ H.kh.length) (h2 : names.length ≤ H.n.length)
    (h3 : names.length ≤ H.kRatio.length) :
    ∃ out, generateHydraulics s false level H strata field ha fac ae azim dip = .ok out := by
  have : ∃ st, (List.range names.length).foldlM (homStep H fac) HydState.init = .ok st := by
    apply foldlM_total
    intro st p hp
    rw [List.mem_range] at hp
    obtain ⟨kh, hkh⟩ := pyGet_lt (l := H.kh) (f := (p : ℤ)) (by omega) (by omega)
    obtain ⟨n, hn⟩ := pyGet_lt (l := H.n) (f := (p : ℤ)) (by omega) (by omega)
    obtain ⟨r, hr⟩ := pyGet_lt (l := H.kRatio) (f := (p : ℤ)) (by omega) (by omega)
    unfold homStep
    simp only [bind_ok, pure_ok]
    exact ⟨_, kh, hkh, n, hn, r, hr, rfl⟩
  obtain ⟨st, hst⟩ := this
  unfold generateHydraulics hydBranch
  simp only [Bool.false_eq_true, if_false, bind_ok, pure_ok]
  refine ⟨_, st, ?_, rfl⟩
  unfold homBranch
  simp only [hn]
  exact hst

/-- **C36 is violated for new-format files**: their hydraulics section has no key `hydro`, and every homogeneous run
ends in a `KeyError`. -/
theorem C36_refuted (s : Shape) (level : String) (H : HydTables) (strata : List (List AEBg)) (field : FieldSource)
    (ha fac ae : Arr3 ℤ) (azim dip : Arr3 ℝ) (hn : H.hydro = none) :
    generateHydraulics s false level H strata field ha fac ae azim dip = .error .keyError := by
  unfold generateHydraulics hydBranch homBranch
  simp only [hn]
  rfl

/-! ### Internal heterogeneity (C37) -/

/-- What the loops establish for a cell. -/
def CellSim (s : Shape) (H : HydTables) (field : FieldSource) (m : Arr3 Bool) (f : ℤ) (i j k : ℕ) (st : HydState) : Prop :=
  Simulated s H field m f i j k (st.k.loc i j k) (st.n.loc i j k) (st.anirat i j k)

theorem internalFill_cell {s : Shape} {H : HydTables} {field : FieldSource} {m : Arr3 Bool} {f : ℤ} {st st' : HydState}
    {r : ℝ} {i j k : ℕ} (h : internalFill s H field m f st = .ok st') (hr : pyGet H.kRatio f = .ok r) (hf : 0 ≤ f)
    (hm : (i, j, k) ∈ maskCells s m) (st2 : HydState) (hk : st2.k.loc i j k = st'.k.loc i j k)
    (hn : st2.n.loc i j k = st'.n.loc i j k) (ha : st2.anirat i j k = r) : CellSim s H field m f i j k st2 := by
  obtain ⟨b, sy, cy, kh, sn, cn, n, K, N, hb, hsy, hcy, hkh, hsn, hcn, hnn, rfl, hK, hN⟩ := internalFill_spec h
  refine ⟨b, st.calls, sy, cy, kh, sn, cn, n, boundingBox_isBox hb, pyGet_ok_nonneg hf hsy, pyGet_ok_nonneg hf hcy,
    pyGet_ok_nonneg hf hkh, pyGet_ok_nonneg hf hsn, pyGet_ok_nonneg hf hcn, pyGet_ok_nonneg hf hnn, ?_, ?_, ?_⟩
  · rw [ha]; exact pyGet_ok_nonneg hf hr
  · rw [hk, Aliased.write_loc, hK, if_pos hm]
  · rw [hn, Aliased.write_loc, hN, if_pos hm, add_comm]

theorem internalFill_other {s : Shape} {H : HydTables} {field : FieldSource} {m : Arr3 Bool} {f : ℤ}
    {st st' : HydState} {i j k : ℕ} (h : internalFill s H field m f st = .ok st') (hm : (i, j, k) ∉ maskCells s m) :
    st'.k.loc i j k = st.k.loc i j k ∧ st'.n.loc i j k = st.n.loc i j k := by
  obtain ⟨b, sy, cy, kh, sn, cn, n, K, N, hb, hsy, hcy, hkh, hsn, hcn, hnn, rfl, hK, hN⟩ := internalFill_spec h
  exact ⟨by rw [Aliased.write_loc, hK, if_neg hm], by rw [Aliased.write_loc, hN, if_neg hm]⟩

theorem internalFill_Ok {s : Shape} {H : HydTables} {field : FieldSource} {m : Arr3 Bool} {f : ℤ}
    {st st' : HydState} (h : internalFill s H field m f st = .ok st') (h0 : st.Ok) :
    st'.Ok ∧ st'.anirat = st.anirat := by
  obtain ⟨b, sy, cy, kh, sn, cn, n, K, N, hb, hsy, hcy, hkh, hsn, hcn, hnn, rfl, hK, hN⟩ := internalFill_spec h
  exact ⟨⟨(h0.1.write _).1, (h0.2.write _).1⟩, rfl⟩

/-- Mask of the object loop. -/
def pairMask (ha fac : Arr3 ℤ) (p : ℤ × ℤ) : Arr3 Bool :=
  fun i j k => decide (ha i j k = p.1) && decide (fac i j k = p.2)

theorem hetStep_internal {s : Shape} {H : HydTables} {field : FieldSource} {ha fac : Arr3 ℤ} {st st' : HydState}
    {p : ℤ × ℤ} (h : hetStep s "internal" H field ha fac st p = .ok st') :
    ∃ st1 r, internalFill s H field (pairMask ha fac p) p.2 st = .ok st1 ∧ pyGet H.kRatio p.2 = .ok r ∧
      st' = { st1 with anirat := maskFill (pairMask ha fac p) r st1.anirat } := by
  unfold hetStep levelFill at h
  simp only [bind_ok, pure_ok, if_true] at h
  obtain ⟨st1, h1, r, hr, he⟩ := h
  exact ⟨st1, r, h1, hr, he.symm⟩

theorem internal_cells {s : Shape} {H : HydTables} {field : FieldSource} {ha fac : Arr3 ℤ} {st : HydState}
    (h : (hetPairs s ha fac).foldlM (hetStep s "internal" H field ha fac) HydState.init = .ok st) :
    st.Ok ∧ ∀ i j k, i < s.nx → j < s.ny → k < s.nz → 0 ≤ fac i j k →
      CellSim s H field (pairMask ha fac (ha i j k, fac i j k)) (fac i j k) i j k st := by
  have hI : ∀ (s1 : HydState) (x : ℤ × ℤ) (t : HydState), x ∈ hetPairs s ha fac → s1.Ok →
      hetStep s "internal" H field ha fac s1 x = .ok t → t.Ok := by
    intro s1 x t _ h1 hst
    obtain ⟨st1, r, hf, _, rfl⟩ := hetStep_internal hst
    exact (internalFill_Ok hf h1).1
  refine ⟨foldlM_inv HydState.Ok _ hI h HydState.init_ok, fun i j k hi hj hk h0 => ?_⟩
  refine foldlM_last HydState.Ok (CellSim s H field (pairMask ha fac (ha i j k, fac i j k)) (fac i j k) i j k) _
    (ha i j k, fac i j k) (mem_hetPairs hi hj hk) hI ?_ ?_ h HydState.init_ok
  · intro s1 t h1 hst
    obtain ⟨st1, r, hf, hr, rfl⟩ := hetStep_internal hst
    refine internalFill_cell hf hr h0 (mem_maskCells.2 ⟨hi, hj, hk, by simp [pairMask]⟩) _ rfl rfl ?_
    simp [maskFill, pairMask]
  · intro s1 x t _ hx h1 hst hP
    obtain ⟨st1, r, hf, hr, rfl⟩ := hetStep_internal hst
    have hm : pairMask ha fac x i j k = false := by
      unfold pairMask
      rw [Bool.and_eq_false_iff]
      by_contra hc
      push Not at hc
      apply hx
      obtain ⟨a, b⟩ := hc
      simp only [ne_eq, decide_eq_false_iff_not, not_not] at a b
      exact Prod.ext a.symm b.symm
    have ho := internalFill_other (i := i) (j := j) (k := k) hf (fun hc => by
      have := (mem_maskCells.1 hc).2.2.2
      rw [hm] at this
      simp at this)
    have ha' := (internalFill_Ok hf h1).2
    unfold CellSim at hP ⊢
    simp only [ho.1, ho.2, ha', maskFill, hm]
    exact hP

/-- Mask of the background loop. -/
def bgMask (ha ae : Arr3 ℤ) (num : ℤ) : Arr3 Bool := fun i j k => decide (ha i j k = 0) && decide (ae i j k = num)

theorem bgStep_spec {s : Shape} {H : HydTables} {field : FieldSource} {ha ae : Arr3 ℤ} {st st' : HydState} {e : AEBg}
    (h : bgStep s H field ha ae st e = .ok st') :
    (maskCells s (bgMask ha ae e.num) = [] ∧ st' = st) ∨
    (maskCells s (bgMask ha ae e.num) ≠ [] ∧ ∃ st1 r, internalFill s H field (bgMask ha ae e.num) e.bgFacies st = .ok st1 ∧
      pyGet H.kRatio e.bgFacies = .ok r ∧
      st' = { st1 with anirat := maskFill (bgMask ha ae e.num) r st1.anirat,
                       k := applyX s e.kXtrend (applyZ s e.kZtrend st1.k) }) := by
  unfold bgStep at h
  simp only at h
  split at h
  · rename_i hm
    rw [pure_ok] at h
    exact Or.inl ⟨hm, h.symm⟩
  · rename_i hm
    simp only [bind_ok, pure_ok] at h
    obtain ⟨st1, h1, r, hr, he⟩ := h
    exact Or.inr ⟨hm, st1, r, h1, hr, he.symm⟩

/-- No trends anywhere. -/
def NoAETrend (strata : List (List AEBg)) : Prop := ∀ aes ∈ strata, ∀ e ∈ aes, e.kZtrend = none ∧ e.kXtrend = none

theorem bgStep_plain {s : Shape} {H : HydTables} {field : FieldSource} {ha ae : Arr3 ℤ} {st st' : HydState} {e : AEBg}
    (h : bgStep s H field ha ae st e = .ok st') (hz : e.kZtrend = none) (hx : e.kXtrend = none) :
    (maskCells s (bgMask ha ae e.num) = [] ∧ st' = st) ∨
    (∃ st1 r, internalFill s H field (bgMask ha ae e.num) e.bgFacies st = .ok st1 ∧
      pyGet H.kRatio e.bgFacies = .ok r ∧
      st' = { st1 with anirat := maskFill (bgMask ha ae e.num) r st1.anirat }) := by
  rcases bgStep_spec h with h | ⟨_, st1, r, h1, hr, he⟩
  · exact Or.inl h
  · refine Or.inr ⟨st1, r, h1, hr, ?_⟩
    rw [he, hz, hx]
    rfl

theorem bgStep_Ok {s : Shape} {H : HydTables} {field : FieldSource} {ha ae : Arr3 ℤ} {st st' : HydState} {e : AEBg}
    (h : bgStep s H field ha ae st e = .ok st') (hz : e.kZtrend = none) (hx : e.kXtrend = none) (h0 : st.Ok) :
    st'.Ok := by
  rcases bgStep_plain h hz hx with ⟨_, rfl⟩ | ⟨st1, r, h1, hr, rfl⟩
  · exact h0
  · exact (internalFill_Ok h1 h0).1

theorem bgStep_other {s : Shape} {H : HydTables} {field : FieldSource} {ha ae : Arr3 ℤ} {st st' : HydState} {e : AEBg}
    {i j k : ℕ} (h : bgStep s H field ha ae st e = .ok st') (hz : e.kZtrend = none) (hx : e.kXtrend = none)
    (h0 : st.Ok) (hm : bgMask ha ae e.num i j k = false) :
    st'.k.loc i j k = st.k.loc i j k ∧ st'.n.loc i j k = st.n.loc i j k ∧ st'.anirat i j k = st.anirat i j k := by
  rcases bgStep_plain h hz hx with ⟨_, rfl⟩ | ⟨st1, r, h1, hr, rfl⟩
  · exact ⟨rfl, rfl, rfl⟩
  · have ho := internalFill_other (i := i) (j := j) (k := k) h1 (fun hc => by
      have := (mem_maskCells.1 hc).2.2.2
      rw [hm] at this
      simp at this)
    refine ⟨ho.1, ho.2, ?_⟩
    simp only [maskFill, hm, (internalFill_Ok h1 h0).2]
    rfl

/-- The state after the loops when no trends are given. -/
theorem internal_states {s : Shape} {H : HydTables} {strata : List (List AEBg)} {field : FieldSource}
    {ha fac ae : Arr3 ℤ} {azim dip : Arr3 ℝ} {out : HydOut}
    (h : generateHydraulics s true "internal" H strata field ha fac ae azim dip = .ok out) (hA : NoAETrend strata)
    (hH : H.kZtrend = none ∧ H.kXtrend = none ∧ H.nZtrend = none ∧ H.nXtrend = none) :
    ∃ st1 st, (hetPairs s ha fac).foldlM (hetStep s "internal" H field ha fac) HydState.init = .ok st1 ∧
      strata.flatten.foldlM (bgStep s H field ha ae) st1 = .ok st ∧ st1.Ok ∧ st.Ok ∧
      out.kIso = st.k.loc ∧ out.poros = st.n.loc ∧ out.anirat = st.anirat ∧
      ∀ i j k, i < s.nx → j < s.ny → k < s.nz →
        out.ktensors i j k = tensor (st.k.loc i j k) (azim i j k) (dip i j k) (st.anirat i j k) := by
  obtain ⟨st, hst, e1, e2, e3, e4⟩ := generate_ok h
  unfold hydBranch hetBranch at hst
  rw [if_pos rfl] at hst
  simp only [bind_ok, if_true, pure_ok, foldlM_flatten] at hst
  obtain ⟨st1, h1, st2, h2, he⟩ := hst
  rw [hH.1, hH.2.1, hH.2.2.1, hH.2.2.2] at he
  have he' : st2 = st := he
  subst he'
  have o1 := (internal_cells h1).1
  have o2 : st2.Ok := foldlM_inv HydState.Ok _ (fun s1 x t hx h0 hs => by
    obtain ⟨aes, haes, hx⟩ := List.mem_flatten.1 hx
    exact bgStep_Ok hs (hA aes haes x hx).1 (hA aes haes x hx).2 h0) h2 o1
  exact ⟨st1, st2, h1, h2, o1, o2, by rw [e1, o2.1.2], by rw [e2, o2.2.2], e3, e4⟩

/-- **C37 (cells that are not background cells).** With internal heterogeneity and no trends, a cell whose `ha` is not
zero has conductivity, porosity and anisotropy ratio of its own facies: log conductivity and porosity are the table
values plus a random field with the facies' variance and correlation lengths on the smallest box around the cells
that share its `ha` and facies. -/
theorem C37_object_partial (s : Shape) (H : HydTables) (strata : List (List AEBg)) (field : FieldSource)
    (ha fac ae : Arr3 ℤ) (azim dip : Arr3 ℝ) (out : HydOut)
    (h : generateHydraulics s true "internal" H strata field ha fac ae azim dip = .ok out) (hA : NoAETrend strata)
    (hH : H.kZtrend = none ∧ H.kXtrend = none ∧ H.nZtrend = none ∧ H.nXtrend = none) (i j k : ℕ)
    (hi : i < s.nx) (hj : j < s.ny) (hk : k < s.nz) (hf : 0 ≤ fac i j k)
    (hobj : ha i j k ≠ 0 ∨ ∀ aes ∈ strata, ∀ e ∈ aes, e.num ≠ ae i j k) :
    Simulated s H field (fun i' j' k' => decide (ha i' j' k' = ha i j k) && decide (fac i' j' k' = fac i j k))
      (fac i j k) i j k (out.kIso i j k) (out.poros i j k) (out.anirat i j k) ∧
    out.ktensors i j k = tensor (out.kIso i j k) (azim i j k) (dip i j k) (out.anirat i j k) := by
  obtain ⟨st1, st, h1, h2, o1, o2, e1, e2, e3, e4⟩ := internal_states h hA hH
  have hc := (internal_cells h1).2 i j k hi hj hk hf
  have hfin : st.Ok ∧ CellSim s H field (pairMask ha fac (ha i j k, fac i j k)) (fac i j k) i j k st := by
    refine foldlM_inv (fun t => t.Ok ∧ CellSim s H field (pairMask ha fac (ha i j k, fac i j k)) (fac i j k) i j k t) _
      (fun s1 x t hx h0 hs => ?_) h2 ⟨o1, hc⟩
    obtain ⟨aes, haes, hx⟩ := List.mem_flatten.1 hx
    have hm : bgMask ha ae x.num i j k = false := by
      unfold bgMask
      rw [Bool.and_eq_false_iff]
      rcases hobj with hobj | hobj
      · left; simpa using hobj
      · right; simpa using fun e => hobj aes haes x hx e.symm
    obtain ⟨ez, ex⟩ := hA aes haes x hx
    obtain ⟨a1, a2, a3⟩ := bgStep_other hs ez ex h0.1 hm
    refine ⟨bgStep_Ok hs ez ex h0.1, ?_⟩
    unfold CellSim
    rw [a1, a2, a3]
    exact h0.2
  rw [e1, e2, e3]
  exact ⟨hfin.2, e4 i j k hi hj hk⟩

/-- **C37 (background).** A cell with `ha = 0` in an architectural element of the model has the parameters of the
element's background facies: table values plus random fields of that facies on the smallest box around the
element's cells with `ha = 0`. -/
theorem C37_background (s : Shape) (H : HydTables) (strata : List (List AEBg)) (field : FieldSource)
    (ha fac ae : Arr3 ℤ) (azim dip : Arr3 ℝ) (out : HydOut)
    (h : generateHydraulics s true "internal" H strata field ha fac ae azim dip = .ok out) (hA : NoAETrend strata)
    (hH : H.kZtrend = none ∧ H.kXtrend = none ∧ H.nZtrend = none ∧ H.nXtrend = none)
    (hnum : ∀ e ∈ strata.flatten, ∀ e' ∈ strata.flatten, e.num = e'.num → e = e') (i j k : ℕ)
    (hi : i < s.nx) (hj : j < s.ny) (hk : k < s.nz) (hha : ha i j k = 0) (e : AEBg) (he : e ∈ strata.flatten)
    (hae : ae i j k = e.num) (hbg : 0 ≤ e.bgFacies) :
    Simulated s H field (fun i' j' k' => decide (ha i' j' k' = 0) && decide (ae i' j' k' = e.num))
      e.bgFacies i j k (out.kIso i j k) (out.poros i j k) (out.anirat i j k) ∧
    out.ktensors i j k = tensor (out.kIso i j k) (azim i j k) (dip i j k) (out.anirat i j k) := by
  obtain ⟨st1, st, h1, h2, o1, o2, e1, e2, e3, e4⟩ := internal_states h hA hH
  have htr : ∀ x ∈ strata.flatten, x.kZtrend = none ∧ x.kXtrend = none := fun x hx => by
    obtain ⟨aes, haes, hx⟩ := List.mem_flatten.1 hx
    exact hA aes haes x hx
  have hin : (i, j, k) ∈ maskCells s (bgMask ha ae e.num) :=
    mem_maskCells.2 ⟨hi, hj, hk, by simp [bgMask, hha, hae]⟩
  have hfin : CellSim s H field (bgMask ha ae e.num) e.bgFacies i j k st := by
    refine foldlM_last HydState.Ok (CellSim s H field (bgMask ha ae e.num) e.bgFacies i j k) _ e he
      (fun s1 x t hx h0 hs => bgStep_Ok hs (htr x hx).1 (htr x hx).2 h0) ?_ ?_ h2 o1
    · intro s1 t h0 hs
      rcases bgStep_plain hs (htr e he).1 (htr e he).2 with ⟨hm, rfl⟩ | ⟨st1, r, hf, hr, rfl⟩
      · rw [hm] at hin; simp at hin
      · refine internalFill_cell hf hr hbg hin _ rfl rfl ?_
        simp [maskFill, bgMask, hha, hae]
    · intro s1 x t hx hne h0 hs hP
      have hm : bgMask ha ae x.num i j k = false := by
        unfold bgMask
        rw [Bool.and_eq_false_iff]
        right
        rw [hae]
        simpa using fun e' => hne (hnum x hx e he e'.symm)
      obtain ⟨a1, a2, a3⟩ := bgStep_other hs (htr x hx).1 (htr x hx).2 h0 hm
      unfold CellSim
      rw [a1, a2, a3]
      exact hP
  rw [e1, e2, e3]
  exact ⟨hfin, e4 i j k hi hj hk⟩

theorem Spec.Simulated.pos {s : Shape} {H : HydTables} {field : FieldSource} {m : Arr3 Bool} {f : ℤ} {i j k : ℕ}
    {kv nv rv : ℝ} (h : Simulated s H field m f i j k kv nv rv) (hp : ∀ v ∈ H.kh, 0 < v) : 0 < kv := by
  obtain ⟨b, q, sy, cy, kh, sn, cn, n, _, _, _, ⟨a, _, hkh⟩, _, _, _, _, rfl, _⟩ := h
  exact mul_pos (Real.exp_pos _) (hp _ (List.mem_of_getElem? hkh))

theorem CellSim.pos {s : Shape} {H : HydTables} {field : FieldSource} {m : Arr3 Bool} {f : ℤ} {i j k : ℕ} {st : HydState}
    (h : CellSim s H field m f i j k st) (hp : ∀ v ∈ H.kh, 0 < v) : 0 < st.k.loc i j k :=
  Spec.Simulated.pos h hp

/-- **C37 (positivity).** With internal heterogeneity and no trends every cell's conductivity is positive if all
table values are, for every random field. -/
theorem C37_positive (s : Shape) (H : HydTables) (strata : List (List AEBg)) (field : FieldSource)
    (ha fac ae : Arr3 ℤ) (azim dip : Arr3 ℝ) (out : HydOut)
    (h : generateHydraulics s true "internal" H strata field ha fac ae azim dip = .ok out) (hA : NoAETrend strata)
    (hH : H.kZtrend = none ∧ H.kXtrend = none ∧ H.nZtrend = none ∧ H.nXtrend = none)
    (hf : ∀ i j k, i < s.nx → j < s.ny → k < s.nz → 0 ≤ fac i j k) (hbg : ∀ e ∈ strata.flatten, 0 ≤ e.bgFacies)
    (hp : ∀ v ∈ H.kh, 0 < v) (i j k : ℕ) (hi : i < s.nx) (hj : j < s.ny) (hk : k < s.nz) :
    0 < out.kIso i j k := by
  obtain ⟨st1, st, h1, h2, o1, o2, e1, e2, e3, e4⟩ := internal_states h hA hH
  have hc := (internal_cells h1).2 i j k hi hj hk (hf i j k hi hj hk)
  have htr : ∀ x ∈ strata.flatten, x.kZtrend = none ∧ x.kXtrend = none := fun x hx => by
    obtain ⟨aes, haes, hx⟩ := List.mem_flatten.1 hx
    exact hA aes haes x hx
  rw [e1]
  refine (foldlM_inv (fun t => t.Ok ∧ 0 < t.k.loc i j k) _ (fun s1 x t hx h0 hs => ?_) h2
    ⟨o1, hc.pos hp⟩).2
  refine ⟨bgStep_Ok hs (htr x hx).1 (htr x hx).2 h0.1, ?_⟩
  rcases hm : bgMask ha ae x.num i j k with _ | _
  · rw [(bgStep_other hs (htr x hx).1 (htr x hx).2 h0.1 hm).1]
    exact h0.2
  · have hin : (i, j, k) ∈ maskCells s (bgMask ha ae x.num) := mem_maskCells.2 ⟨hi, hj, hk, hm⟩
    rcases bgStep_plain hs (htr x hx).1 (htr x hx).2 with ⟨hm', rfl⟩ | ⟨st1, r, hf, hr, rfl⟩
    · rw [hm'] at hin; simp at hin
    · have : CellSim s H field (bgMask ha ae x.num) x.bgFacies i j k
          { st1 with anirat := maskFill (bgMask ha ae x.num) r st1.anirat } :=
        internalFill_cell hf hr (hbg x hx) hin _ rfl rfl (by simp [maskFill, hm])
      exact this.pos hp

/-- The call succeeds whenever the tables cover the facies that occur, with any trends. -/
theorem C37_total (s : Shape) (H : HydTables) (strata : List (List AEBg)) (field : FieldSource) (ha fac ae : Arr3 ℤ)
    (azim dip : Arr3 ℝ)
    (hcov : ∀ i j k, i < s.nx → j < s.ny → k < s.nz → CoversSim H (fac i j k))
    (hbg : ∀ e ∈ strata.flatten, CoversSim H e.bgFacies) :
    ∃ out, generateHydraulics s true "internal" H strata field ha fac ae azim dip = .ok out := by
  have fill : ∀ (m : Arr3 Bool) (f : ℤ) (st : HydState), maskCells s m ≠ [] → CoversSim H f →
      (∃ st', internalFill s H field m f st = .ok st') ∧ ∃ r, pyGet H.kRatio f = .ok r := by
    rintro m f st hne ⟨⟨h0, h1, h2, h3⟩, h4, h5, h6, h7⟩
    obtain ⟨v1, e1⟩ := pyGet_lt h0 h1
    obtain ⟨v2, e2⟩ := pyGet_lt h0 h2
    obtain ⟨v3, e3⟩ := pyGet_lt h0 h3
    obtain ⟨v4, e4⟩ := pyGet_lt h0 h4
    obtain ⟨v5, e5⟩ := pyGet_lt h0 h5
    obtain ⟨v6, e6⟩ := pyGet_lt h0 h6
    obtain ⟨v7, e7⟩ := pyGet_lt h0 h7
    exact ⟨internalFill_ok hne e4 e5 e1 e6 e7 e2, v3, e3⟩
  have l1 : ∃ st, (hetPairs s ha fac).foldlM (hetStep s "internal" H field ha fac) HydState.init = .ok st := by
    apply foldlM_total
    intro st p hp
    obtain ⟨i, j, k, hi, hj, hk, hh, hfac⟩ := of_mem_hetPairs hp
    have hc := hcov i j k hi hj hk
    rw [hfac] at hc
    obtain ⟨⟨st', hst'⟩, r, hr⟩ := fill (pairMask ha fac p) p.2 st
      (List.ne_nil_of_mem (mem_maskCells.2 ⟨hi, hj, hk, by simp [pairMask, hh, hfac]⟩)) hc
    unfold hetStep levelFill
    simp only [bind_ok, pure_ok, if_true]
    exact ⟨_, st', hst', r, hr, rfl⟩
  obtain ⟨st1, hst1⟩ := l1
  have l2 : ∃ st, strata.flatten.foldlM (bgStep s H field ha ae) st1 = .ok st := by
    apply foldlM_total
    intro st e he
    unfold bgStep
    simp only
    split
    · exact ⟨st, rfl⟩
    · rename_i hne
      obtain ⟨⟨st', hst'⟩, r, hr⟩ := fill _ e.bgFacies st hne (hbg e he)
      simp only [bind_ok, pure_ok]
      exact ⟨_, st', hst', r, hr, rfl⟩
  obtain ⟨st2, hst2⟩ := l2
  unfold generateHydraulics hydBranch
  simp only [if_true, bind_ok, pure_ok]
  refine ⟨_, { st2 with k := applyX s H.kXtrend (applyZ s H.kZtrend st2.k),
                        n := applyX s H.nXtrend (applyZ s H.nZtrend st2.n) }, ?_, rfl⟩
  unfold hetBranch
  simp only [bind_ok, if_true, pure_ok, foldlM_flatten]
  exact ⟨st1, hst1, st2, hst2, rfl⟩

/-! ### A small table for the examples -/

/-- Three facies; no trends, no `hydro` key. -/
noncomputable def exHydH : HydTables where
  hydro := none
  kh := [1, 100, 5]
  n := [0.2, 0.3, 0.4]
  kRatio := [1, 10, 2]
  sigY := [0, 0, 0]
  ycorl := [(1, 1, 1), (1, 1, 1), (1, 1, 1)]
  sigN := [0, 0, 0]
  ncorl := [(1, 1, 1), (1, 1, 1), (1, 1, 1)]
  kZtrend := none
  kXtrend := none
  nZtrend := none
  nXtrend := none

/-- One stratum with one architectural element, background facies 0. -/
def exHydS : List (List AEBg) := [[⟨0, 0, none, none⟩]]

theorem exHydH_covers {f : ℤ} (h0 : 0 ≤ f) (h : f < 3) : CoversSim exHydH f := by
  refine ⟨⟨h0, ?_, ?_, ?_⟩, ?_, ?_, ?_, ?_⟩ <;> simpa [exHydH] using h

/-- `C35_total` and, through it, `C35_lookup` apply: two cells, facies 1 and 2, different `ha`. -/
example : ∃ out, generateHydraulics ⟨2, 1, 1⟩ true "facies" exHydH exHydS (fun _ _ _ _ _ _ _ => 0)
    (fun i _ _ => if i = 0 then -1 else 0) (fun i _ _ => if i = 0 then 1 else 2) (fun _ _ _ => 0)
    (fun _ _ _ => 30) (fun _ _ _ => 10) = .ok out ∧ Entry exHydH.kh 1 (out.kIso 0 0 0) := by
  obtain ⟨out, h⟩ := C35_total ⟨2, 1, 1⟩ exHydH exHydS (fun _ _ _ _ _ _ _ => 0)
    (fun i _ _ => if i = 0 then -1 else 0) (fun i _ _ => if i = 0 then 1 else 2) (fun _ _ _ => 0)
    (fun _ _ _ => 30) (fun _ _ _ => 10) (fun i j k _ _ _ => by
      refine (exHydH_covers ?_ ?_).1 <;> split <;> norm_num)
  exact ⟨out, h, by simpa using (C35_lookup _ _ _ _ _ _ _ _ _ _ h 0 0 0 (by norm_num) (by norm_num) (by norm_num)
    (by norm_num)).1⟩

/-- `C36_total_partial` and `C36_lookup_partial` apply to an old-format table with three names. -/
example : ∃ out, generateHydraulics ⟨2, 1, 1⟩ false "facies" { exHydH with hydro := some ["a", "b", "c"] } exHydS
    (fun _ _ _ _ _ _ _ => 0) (fun _ _ _ => -1) (fun i _ _ => if i = 0 then 1 else 2) (fun _ _ _ => 0)
    (fun _ _ _ => 30) (fun _ _ _ => 10) = .ok out ∧ Entry exHydH.n 2 (out.poros 1 0 0) := by
  obtain ⟨out, h⟩ := C36_total_partial ⟨2, 1, 1⟩ "facies" { exHydH with hydro := some ["a", "b", "c"] } ["a", "b", "c"]
    exHydS (fun _ _ _ _ _ _ _ => 0) (fun _ _ _ => -1) (fun i _ _ => if i = 0 then 1 else 2) (fun _ _ _ => 0)
    (fun _ _ _ => 30) (fun _ _ _ => 10) rfl (by simp [exHydH]) (by simp [exHydH]) (by simp [exHydH])
  exact ⟨out, h, by simpa using (C36_lookup_partial _ _ _ _ _ _ _ _ _ _ _ _ rfl h 1 0 0 (by norm_num) (by norm_num)
    (by norm_num) (by norm_num) (by norm_num)).2.1⟩

/-- `C36_refuted` applies to every new-format table, e.g. this one. -/
example : exHydH.hydro = none := rfl

/-- The hypotheses of `C37_object_partial`, `C37_background` and `C37_positive` are met by two cells, the first outside
every object (`ha = -1`), the second with `ha = 0`. -/
example : ∃ out, generateHydraulics ⟨2, 1, 1⟩ true "internal" exHydH exHydS (fun _ _ _ _ i _ _ => i)
    (fun i _ _ => if i = 0 then -1 else 0) (fun i _ _ => if i = 0 then 1 else 2) (fun _ _ _ => 0)
    (fun _ _ _ => 30) (fun _ _ _ => 10) = .ok out ∧ NoAETrend exHydS ∧ 0 < out.kIso 1 0 0 ∧
    Entry exHydH.kRatio 1 (out.anirat 0 0 0) ∧ Entry exHydH.kRatio 0 (out.anirat 1 0 0) := by
  obtain ⟨out, h⟩ := C37_total ⟨2, 1, 1⟩ exHydH exHydS (fun _ _ _ _ i _ _ => i)
    (fun i _ _ => if i = 0 then -1 else 0) (fun i _ _ => if i = 0 then 1 else 2) (fun _ _ _ => 0)
    (fun _ _ _ => 30) (fun _ _ _ => 10) (fun i j k _ _ _ => by
      refine exHydH_covers ?_ ?_ <;> split <;> norm_num) (fun e he => by
      have : e = ⟨0, 0, none, none⟩ := by simpa [exHydS] using he
      subst this
      exact exHydH_covers (by norm_num) (by norm_num))
  have hA : NoAETrend exHydS := by
    intro aes haes e he
    have : aes = [⟨0, 0, none, none⟩] := by simpa [exHydS] using haes
    subst this
    have : e = ⟨0, 0, none, none⟩ := by simpa using he
    subst this
    exact ⟨rfl, rfl⟩
  refine ⟨out, h, hA, ?_, ?_, ?_⟩
  · refine C37_positive _ _ _ _ _ _ _ _ _ _ h hA ⟨rfl, rfl, rfl, rfl⟩ (fun i j k _ _ _ => ?_) (fun e he => ?_)
      (fun v hv => ?_) 1 0 0 (by norm_num) (by norm_num) (by norm_num)
    · split <;> norm_num
    · have : e = ⟨0, 0, none, none⟩ := by simpa [exHydS] using he
      subst this
      norm_num
    · have : v = 1 ∨ v = 100 ∨ v = 5 := by simpa [exHydH] using hv
      rcases this with rfl | rfl | rfl <;> norm_num
  · obtain ⟨⟨b, q, sy, cy, kh, sn, cn, n, _, _, _, _, _, _, _, hr, _⟩, _⟩ := C37_object_partial _ _ _ _ _ _ _ _ _ _ h hA
      ⟨rfl, rfl, rfl, rfl⟩ 0 0 0 (by norm_num) (by norm_num) (by norm_num) (by norm_num) (Or.inl (by norm_num))
    simpa using hr
  · obtain ⟨⟨b, q, sy, cy, kh, sn, cn, n, _, _, _, _, _, _, _, hr, _⟩, _⟩ := C37_background _ _ _ _ _ _ _ _ _ _ h hA
      ⟨rfl, rfl, rfl, rfl⟩ (by simp [exHydS]) 1 0 0 (by norm_num) (by norm_num) (by norm_num) (by norm_num)
      ⟨0, 0, none, none⟩ (by simp [exHydS]) rfl (by norm_num)
    simpa using hr

/-- **C37 is violated for cells of objects with number 0**: the background selection is `ha = 0`, so a cell of facies 1
inside such an object gets the conductivity and the anisotropy ratio of the background facies 0 (here with a random
field that is zero). Which generated cells have `ha = 0` is the subject of C16. -/
theorem C37_refuted : ∃ (s : Shape) (H : HydTables) (strata : List (List AEBg)) (field : FieldSource)
    (ha fac ae : Arr3 ℤ) (azim dip : Arr3 ℝ) (out : HydOut),
    generateHydraulics s true "internal" H strata field ha fac ae azim dip = .ok out ∧ 0 < s.nx ∧ 0 < s.ny ∧ 0 < s.nz ∧
    (∀ q v c b i j k, field q v c b i j k = 0) ∧ fac 0 0 0 = 1 ∧ Entry H.kh 1 100 ∧ Entry H.kRatio 1 10 ∧
    out.kIso 0 0 0 = 1 ∧ out.anirat 0 0 0 = 1 := by
  obtain ⟨out, h⟩ := C37_total ⟨1, 1, 1⟩ exHydH exHydS (fun _ _ _ _ _ _ _ => 0)
    (fun _ _ _ => 0) (fun _ _ _ => 1) (fun _ _ _ => 0) (fun _ _ _ => 30) (fun _ _ _ => 10)
    (fun i j k _ _ _ => exHydH_covers (by norm_num) (by norm_num)) (fun e he => by
      have : e = ⟨0, 0, none, none⟩ := by simpa [exHydS] using he
      subst this
      exact exHydH_covers (by norm_num) (by norm_num))
  have hA : NoAETrend exHydS := by
    intro aes haes e he
    have : aes = [⟨0, 0, none, none⟩] := by simpa [exHydS] using haes
    subst this
    have : e = ⟨0, 0, none, none⟩ := by simpa using he
    subst this
    exact ⟨rfl, rfl⟩
  obtain ⟨⟨b, q, sy, cy, kh, sn, cn, n, _, _, _, ⟨a, ea, hk⟩, _, _, _, ⟨a', ea', hr⟩, hkv, _⟩, _⟩ :=
    C37_background _ _ _ _ _ _ _ _ _ _ h hA ⟨rfl, rfl, rfl, rfl⟩ (by simp [exHydS]) 0 0 0 (by norm_num) (by norm_num)
      (by norm_num) rfl ⟨0, 0, none, none⟩ (by simp [exHydS]) rfl (by norm_num)
  have ea0 : a = 0 := by simpa using ea.symm
  have ea0' : a' = 0 := by simpa using ea'.symm
  subst ea0 ea0'
  refine ⟨_, _, _, _, _, _, _, _, _, out, h, by norm_num, by norm_num, by norm_num, fun _ _ _ _ _ _ _ => rfl, rfl,
    ⟨1, rfl, by simp [exHydH]⟩, ⟨1, rfl, by simp [exHydH]⟩, ?_, ?_⟩
  · have : kh = 1 := by simpa [exHydH] using hk.symm
    rw [hkv, this]
    simp
  · simpa [exHydH] using hr.symm

/-! ### Trends (C38) -/

theorem trendFactor_eq (t : ℝ × ℝ) (n q : ℕ) (hq : q < n) : trendFactor t n q = linearFactor t n q := by
  unfold trendFactor linspace linearFactor
  rw [List.getD_eq_getElem?_getD, List.getElem?_map, List.getElem?_range hq]
  simp only [Option.map_some, Option.getD_some]
  split
  · rename_i h
    have : q = 0 := by omega
    subst this h
    simp
  · rw [div_eq_mul_inv, div_eq_mul_inv]; ring

/-- First layer first factor, last layer last factor, equal steps in between. -/
theorem C38_factor (t : ℝ × ℝ) (n : ℕ) (hn : 2 ≤ n) :
    linearFactor t n 0 = t.1 ∧ linearFactor t n (n - 1) = t.2 ∧
      ∀ q, linearFactor t n (q + 1) - linearFactor t n q = (t.2 - t.1) / ((n : ℝ) - 1) := by
  have h1 : ((n : ℝ) - 1) ≠ 0 := by
    have : (2 : ℝ) ≤ n := by exact_mod_cast hn
    linarith
  refine ⟨by simp [linearFactor], ?_, fun q => ?_⟩
  · unfold linearFactor
    rw [Nat.cast_sub (by omega), Nat.cast_one, div_self h1]; ring
  · unfold linearFactor
    push_cast
    field_simp
    ring

/-- Tables without global trends. -/
def HydTables.noTrend (H : HydTables) : HydTables :=
  { H with kZtrend := none, kXtrend := none, nZtrend := none, nXtrend := none }

/-- The run with global trends is the run without them followed by the four trend statements. -/
theorem hetBranch_trend {s : Shape} {H : HydTables} {strata : List (List AEBg)} {field : FieldSource}
    {ha fac ae : Arr3 ℤ} {st : HydState}
    (h : hydBranch s true "internal" H strata field ha fac ae = .ok st) :
    ∃ st0, hydBranch s true "internal" H.noTrend strata field ha fac ae = .ok st0 ∧
      st = { st0 with k := applyX s H.kXtrend (applyZ s H.kZtrend st0.k),
                      n := applyX s H.nXtrend (applyZ s H.nZtrend st0.n) } := by
  unfold hydBranch hetBranch at h ⊢
  simp only [bind_ok, if_true, pure_ok] at h ⊢
  obtain ⟨st1, h1, st2, h2, he⟩ := h
  exact ⟨st2, ⟨st1, h1, st2, h2, rfl⟩, he.symm⟩

theorem applyZ_Ok {s : Shape} {t : Option (ℝ × ℝ)} {a : Aliased} (h : a.Ok) : (applyZ s t a).Ok ∧
    ∀ i j k, k < s.nz → (applyZ s t a).loc i j k = a.loc i j k * (match t with
      | none => 1
      | some t => linearFactor t s.nz k) := by
  cases t with
  | none => exact ⟨h, fun i j k _ => by simp [applyZ]⟩
  | some t =>
    refine ⟨(h.write _).1, fun i j k hk => ?_⟩
    show (a.write _).loc i j k = _
    rw [(h.write _).2.2, trendFactor_eq _ _ _ hk]

/-- A factor for every layer: one without a trend. -/
noncomputable def Spec.optFactor (t : Option (ℝ × ℝ)) (n q : ℕ) : ℝ :=
  match t with
  | none => 1
  | some t => linearFactor t n q

theorem generate_states {s : Shape} {H : HydTables} {strata : List (List AEBg)} {field : FieldSource}
    {ha fac ae : Arr3 ℤ} {azim dip : Arr3 ℝ} {out : HydOut}
    (h : generateHydraulics s true "internal" H strata field ha fac ae azim dip = .ok out) (hA : NoAETrend strata) :
    ∃ out0 : HydOut, generateHydraulics s true "internal" H.noTrend strata field ha fac ae azim dip = .ok out0 ∧
      ∃ st0 : HydState, st0.Ok ∧ out0.kIso = st0.k.loc ∧ out0.poros = st0.n.loc ∧ out0.anirat = st0.anirat ∧
        out.kIso = (applyX s H.kXtrend (applyZ s H.kZtrend st0.k)).stored ∧
        out.poros = (applyX s H.nXtrend (applyZ s H.nZtrend st0.n)).stored ∧ out.anirat = st0.anirat ∧
        ∀ i j k, i < s.nx → j < s.ny → k < s.nz → out.ktensors i j k =
          tensor ((applyX s H.kXtrend (applyZ s H.kZtrend st0.k)).loc i j k) (azim i j k) (dip i j k)
            (st0.anirat i j k) := by
  obtain ⟨st, hst, e1, e2, e3, e4⟩ := generate_ok h
  obtain ⟨st0, h0, rfl⟩ := hetBranch_trend hst
  have hg : ∃ out0, generateHydraulics s true "internal" H.noTrend strata field ha fac ae azim dip = .ok out0 := by
    unfold generateHydraulics
    simp only [bind_ok, pure_ok]
    exact ⟨_, st0, h0, rfl⟩
  obtain ⟨out0, hg⟩ := hg
  obtain ⟨st0', h0', f1, f2, f3, f4⟩ := generate_ok hg
  rw [h0, Except.ok.injEq] at h0'
  subst h0'
  have hok : st0.Ok := by
    unfold hydBranch hetBranch at h0
    simp only [bind_ok, if_true, pure_ok, foldlM_flatten] at h0
    obtain ⟨st1, h1, st2, h2, he⟩ := h0
    have he' : st2 = st0 := he
    subst he'
    exact foldlM_inv HydState.Ok _ (fun s1 x t hx h0 hs => by
      obtain ⟨aes, haes, hx⟩ := List.mem_flatten.1 hx
      exact bgStep_Ok hs (hA aes haes x hx).1 (hA aes haes x hx).2 h0) h2 (internal_cells h1).1
  exact ⟨out0, hg, st0, hok, by rw [f1, hok.1.2], by rw [f2, hok.2.2], f3, e1, e2, e3, e4⟩

/-- **C38 (vertical trends).** With global vertical trends of conductivity and porosity and no other trends, every
stored value is the value without trends times the linearly interpolated factor of its layer, and the tensors belong
to the stored conductivities. Missing: longitudinal trends, see `C38_refuted`. -/
theorem C38_vertical_partial (s : Shape) (H : HydTables) (strata : List (List AEBg)) (field : FieldSource)
    (ha fac ae : Arr3 ℤ) (azim dip : Arr3 ℝ) (out : HydOut)
    (h : generateHydraulics s true "internal" H strata field ha fac ae azim dip = .ok out) (hA : NoAETrend strata)
    (hx : H.kXtrend = none) (hxn : H.nXtrend = none) :
    ∃ out0, generateHydraulics s true "internal" H.noTrend strata field ha fac ae azim dip = .ok out0 ∧
      out.anirat = out0.anirat ∧
      ∀ i j k, i < s.nx → j < s.ny → k < s.nz →
        out.kIso i j k = out0.kIso i j k * optFactor H.kZtrend s.nz k ∧
        out.poros i j k = out0.poros i j k * optFactor H.nZtrend s.nz k ∧
        out.ktensors i j k = tensor (out.kIso i j k) (azim i j k) (dip i j k) (out.anirat i j k) := by
  obtain ⟨out0, hg, st0, hok, a1, a2, a3, b1, b2, b3, b4⟩ := generate_states h hA
  rw [hx] at b1 b4
  rw [hxn] at b2
  have zk := applyZ_Ok (s := s) (t := H.kZtrend) hok.1
  have zn := applyZ_Ok (s := s) (t := H.nZtrend) hok.2
  have b1' : out.kIso = (applyZ s H.kZtrend st0.k).loc := by rw [b1]; exact zk.1.2
  have b2' : out.poros = (applyZ s H.nZtrend st0.n).loc := by rw [b2]; exact zn.1.2
  refine ⟨out0, hg, by rw [b3, a3], fun i j k hi hj hk => ⟨?_, ?_, ?_⟩⟩
  · rw [b1', a1, zk.2 i j k hk]; rfl
  · rw [b2', a2, zn.2 i j k hk]; rfl
  · rw [b4 i j k hi hj hk, b1', b3]; rfl

/-- **C38 is violated for longitudinal trends**: the stored conductivity and porosity do not change at all, while the
tensors are computed from the conductivity multiplied by the factor of the column. (General form, for every
model.) -/
theorem C38_longitudinal_lost (s : Shape) (H : HydTables) (strata : List (List AEBg)) (field : FieldSource)
    (ha fac ae : Arr3 ℤ) (azim dip : Arr3 ℝ) (out : HydOut)
    (h : generateHydraulics s true "internal" H strata field ha fac ae azim dip = .ok out) (hA : NoAETrend strata)
    (hz : H.kZtrend = none) (hzn : H.nZtrend = none) (t : ℝ × ℝ) (hx : H.kXtrend = some t) :
    ∃ out0, generateHydraulics s true "internal" H.noTrend strata field ha fac ae azim dip = .ok out0 ∧
      out.kIso = out0.kIso ∧ out.poros = out0.poros ∧
      ∀ i j k, i < s.nx → j < s.ny → k < s.nz →
        out.ktensors i j k =
          tensor (out.kIso i j k * linearFactor t s.nx i) (azim i j k) (dip i j k) (out.anirat i j k) := by
  obtain ⟨out0, hg, st0, hok, a1, a2, a3, b1, b2, b3, b4⟩ := generate_states h hA
  rw [hx, hz] at b1 b4
  rw [hzn] at b2
  have b1' : out.kIso = out0.kIso := by rw [b1, a1, ← hok.1.2]; rfl
  refine ⟨out0, hg, b1', ?_, fun i j k hi hj hk => ?_⟩
  · rw [b2, a2, ← hok.2.2]
    cases H.nXtrend <;> rfl
  · rw [b4 i j k hi hj hk, b1', b3, a1, ← trendFactor_eq _ _ _ hi]; rfl

/-- Two columns with a longitudinal trend from 1 to 3. -/
theorem exHydX : ∃ out, generateHydraulics ⟨2, 1, 1⟩ true "internal" { exHydH with kXtrend := some (1, 3) } exHydS
    (fun _ _ _ _ _ _ _ => 0) (fun _ _ _ => -1) (fun _ _ _ => 1) (fun _ _ _ => 0) (fun _ _ _ => 0) (fun _ _ _ => 0)
    = .ok out ∧ NoAETrend exHydS := by
  obtain ⟨out, h⟩ := C37_total ⟨2, 1, 1⟩ { exHydH with kXtrend := some (1, 3) } exHydS (fun _ _ _ _ _ _ _ => 0)
    (fun _ _ _ => -1) (fun _ _ _ => 1) (fun _ _ _ => 0) (fun _ _ _ => 0) (fun _ _ _ => 0)
    (fun i j k _ _ _ => exHydH_covers (by norm_num) (by norm_num)) (fun e he => by
      have : e = ⟨0, 0, none, none⟩ := by simpa [exHydS] using he
      subst this
      exact exHydH_covers (by norm_num) (by norm_num))
  refine ⟨out, h, ?_⟩
  intro aes haes e he
  have : aes = [⟨0, 0, none, none⟩] := by simpa [exHydS] using haes
  subst this
  have : e = ⟨0, 0, none, none⟩ := by simpa using he
  subst this
  exact ⟨rfl, rfl⟩

/-- **C38 is violated**, concrete case: a longitudinal trend from 1 to 3 over two columns of conductivity 100 leaves the
stored value 100 in the last column, and the stored tensor there has the entry 300. -/
theorem C38_refuted : ∃ (s : Shape) (H : HydTables) (strata : List (List AEBg)) (field : FieldSource)
    (ha fac ae : Arr3 ℤ) (azim dip : Arr3 ℝ) (out : HydOut),
    generateHydraulics s true "internal" H strata field ha fac ae azim dip = .ok out ∧ H.kXtrend = some (1, 3) ∧
    s.nx = 2 ∧ 0 < s.ny ∧ 0 < s.nz ∧ (∀ q v c b i j k, field q v c b i j k = 0) ∧
    Entry H.kh (fac 1 0 0) 100 ∧ out.kIso 1 0 0 = 100 ∧ out.ktensors 1 0 0 0 0 = 300 := by
  obtain ⟨out, h, hA⟩ := exHydX
  obtain ⟨out0, h0, e1, e2, e3⟩ := C38_longitudinal_lost _ _ _ _ _ _ _ _ _ _ h hA rfl rfl (1, 3) rfl
  obtain ⟨⟨b, q, sy, cy, kh, sn, cn, n, _, _, _, ⟨a, ea, hk⟩, _, _, _, _, hkv, _⟩, _⟩ :=
    C37_object_partial _ _ _ _ _ _ _ _ _ _ h0 hA ⟨rfl, rfl, rfl, rfl⟩ 1 0 0 (by norm_num) (by norm_num)
      (by norm_num) (by norm_num) (Or.inl (by norm_num))
  have ea1 : a = 1 := by simpa using ea.symm
  subst ea1
  have hkh : kh = 100 := by simpa [exHydH, HydTables.noTrend] using hk.symm
  have hk100 : out.kIso 1 0 0 = 100 := by
    rw [e1, hkv, hkh]; simp
  refine ⟨_, _, _, _, _, _, _, _, _, out, h, rfl, rfl, by norm_num, by norm_num, fun _ _ _ _ _ _ _ => rfl,
    ⟨1, rfl, by simp [exHydH]⟩, hk100, ?_⟩
  rw [e3 1 0 0 (by norm_num) (by norm_num) (by norm_num), hk100]
  simp only [tensor, linearFactor, rot, ratios, Matrix.smul_apply, Matrix.mul_apply, Fin.sum_univ_three,
    Matrix.transpose_apply]
  simp
  norm_num

/-- The hypotheses of `C38_vertical_partial` are met with a vertical trend from 2 to 1 over three layers. -/
example : ∃ out, generateHydraulics ⟨1, 1, 3⟩ true "internal" { exHydH with kZtrend := some (2, 1) } exHydS
    (fun _ _ _ _ _ _ _ => 0) (fun _ _ _ => -1) (fun _ _ _ => 1) (fun _ _ _ => 0) (fun _ _ _ => 0) (fun _ _ _ => 0)
    = .ok out ∧ optFactor (some ((2 : ℝ), (1 : ℝ))) 3 1 = 3 / 2 := by
  obtain ⟨out, h⟩ := C37_total ⟨1, 1, 3⟩ { exHydH with kZtrend := some (2, 1) } exHydS (fun _ _ _ _ _ _ _ => 0)
    (fun _ _ _ => -1) (fun _ _ _ => 1) (fun _ _ _ => 0) (fun _ _ _ => 0) (fun _ _ _ => 0)
    (fun i j k _ _ _ => exHydH_covers (by norm_num) (by norm_num)) (fun e he => by
      have : e = ⟨0, 0, none, none⟩ := by simpa [exHydS] using he
      subst this
      exact exHydH_covers (by norm_num) (by norm_num))
  exact ⟨out, h, by norm_num [optFactor, linearFactor]⟩

/-! ### Trends of architectural elements (C75) -/

/-- In a model with a single architectural element that has background cells and a vertical trend, the trend multiplies
the conductivity of every cell of the grid, in the element or not. -/
theorem C75_everywhere (s : Shape) (H : HydTables) (e : AEBg) (t : ℝ × ℝ) (field : FieldSource) (ha fac ae : Arr3 ℤ)
    (azim dip : Arr3 ℝ) (out : HydOut) (hz : e.kZtrend = some t) (hx : e.kXtrend = none)
    (hH : H.kZtrend = none ∧ H.kXtrend = none ∧ H.nZtrend = none ∧ H.nXtrend = none)
    (hbg : ∃ i j k, i < s.nx ∧ j < s.ny ∧ k < s.nz ∧ ha i j k = 0 ∧ ae i j k = e.num)
    (h : generateHydraulics s true "internal" H [[e]] field ha fac ae azim dip = .ok out) :
    ∃ out0, generateHydraulics s true "internal" H [[{ e with kZtrend := none }]] field ha fac ae azim dip = .ok out0 ∧
      ∀ i j k, k < s.nz → out.kIso i j k = out0.kIso i j k * linearFactor t s.nz k := by
  obtain ⟨i0, j0, k0, hi0, hj0, hk0, h00, hn0⟩ := hbg
  obtain ⟨st, hst, e1, e2, e3, e4⟩ := generate_ok h
  unfold hydBranch hetBranch at hst
  simp only [bind_ok, if_true, pure_ok, foldlM_flatten, List.flatten_cons, List.flatten_nil, List.append_nil,
    foldlM_cons_ok, foldlM_nil_ok] at hst
  obtain ⟨st1, h1, st2, ⟨st3, h3, rfl⟩, he⟩ := hst
  rw [hH.1, hH.2.1, hH.2.2.1, hH.2.2.2] at he
  have he' : st3 = st := he
  subst he'
  rcases bgStep_spec h3 with ⟨hm, _⟩ | ⟨hne, st4, r, h4, hr, rfl⟩
  · have : (i0, j0, k0) ∈ maskCells s (bgMask ha ae e.num) :=
      mem_maskCells.2 ⟨hi0, hj0, hk0, by simp [bgMask, h00, hn0]⟩
    rw [hm] at this
    simp at this
  · have o4 := internalFill_Ok h4 (internal_cells h1).1
    have hstep : bgStep s H field ha ae st1 { e with kZtrend := none } =
        .ok { st4 with anirat := maskFill (bgMask ha ae e.num) r st4.anirat } := by
      unfold bgStep
      simp only
      split
      · exact absurd ‹_› hne
      · simp only [bind_ok, pure_ok]
        exact ⟨st4, h4, r, hr, by rw [hx]; rfl⟩
    have hb : hydBranch s true "internal" H [[{ e with kZtrend := none }]] field ha fac ae =
        .ok { st4 with anirat := maskFill (bgMask ha ae e.num) r st4.anirat } := by
      unfold hydBranch hetBranch
      simp only [bind_ok, if_true, pure_ok, foldlM_flatten, List.flatten_cons, List.flatten_nil, List.append_nil,
        foldlM_cons_ok, foldlM_nil_ok]
      refine ⟨st1, h1, _, ⟨_, hstep, rfl⟩, ?_⟩
      rw [hH.1, hH.2.1, hH.2.2.1, hH.2.2.2]
      rfl
    have hg : ∃ out0, generateHydraulics s true "internal" H [[{ e with kZtrend := none }]] field ha fac ae azim dip
        = .ok out0 := by
      unfold generateHydraulics
      simp only [bind_ok, pure_ok]
      exact ⟨_, _, hb, rfl⟩
    obtain ⟨out0, hg⟩ := hg
    refine ⟨out0, hg, fun i j k hk => ?_⟩
    obtain ⟨st', h0', f1, f2, f3, f4⟩ := generate_ok hg
    rw [hb, Except.ok.injEq] at h0'
    subst h0'
    rw [e1, f1]
    simp only
    rw [hx, hz]
    have z := applyZ_Ok (s := s) (t := some t) o4.1.1
    show (applyZ s (some t) st4.k).stored i j k = _
    rw [z.1.2, z.2 i j k hk, o4.1.1.2]

/-- **C75 is violated**: a trend of element 0 doubles the conductivity of a cell of element 1. -/
theorem C75_refuted : ∃ (s : Shape) (H : HydTables) (e : AEBg) (field : FieldSource) (ha fac ae : Arr3 ℤ)
    (azim dip : Arr3 ℝ) (out : HydOut),
    generateHydraulics s true "internal" H [[e]] field ha fac ae azim dip = .ok out ∧ 1 < s.nx ∧ 0 < s.ny ∧ 0 < s.nz ∧
    (∀ q v c b i j k, field q v c b i j k = 0) ∧ ae 1 0 0 ≠ e.num ∧ Entry H.kh (fac 1 0 0) 100 ∧
    out.kIso 1 0 0 = 200 := by
  have hA : NoAETrend [[⟨0, 0, none, none⟩]] := by
    intro aes haes e he
    have : aes = [⟨0, 0, none, none⟩] := by simpa using haes
    subst this
    have : e = ⟨0, 0, none, none⟩ := by simpa using he
    subst this
    exact ⟨rfl, rfl⟩
  obtain ⟨out, h⟩ := C37_total ⟨2, 1, 1⟩ exHydH [[⟨0, 0, some (2, 2), none⟩]] (fun _ _ _ _ _ _ _ => 0)
    (fun i _ _ => if i = 0 then 0 else -1) (fun _ _ _ => 1) (fun i _ _ => i) (fun _ _ _ => 0) (fun _ _ _ => 0)
    (fun i j k _ _ _ => exHydH_covers (by norm_num) (by norm_num)) (fun e he => by
      have : e = ⟨0, 0, some (2, 2), none⟩ := by simpa using he
      subst this
      exact exHydH_covers (by norm_num) (by norm_num))
  obtain ⟨out0, h0, e1⟩ := C75_everywhere _ _ _ (2, 2) _ _ _ _ _ _ _ rfl rfl ⟨rfl, rfl, rfl, rfl⟩
    ⟨0, 0, 0, by norm_num, by norm_num, by norm_num, by norm_num, by norm_num⟩ h
  obtain ⟨⟨b, q, sy, cy, kh, sn, cn, n, _, _, _, ⟨a, ea, hk⟩, _, _, _, _, hkv, _⟩, _⟩ :=
    C37_object_partial _ _ _ _ _ _ _ _ _ _ h0 hA ⟨rfl, rfl, rfl, rfl⟩ 1 0 0 (by norm_num) (by norm_num)
      (by norm_num) (by norm_num) (Or.inl (by norm_num))
  have ea1 : a = 1 := by simpa using ea.symm
  subst ea1
  have hkh : kh = 100 := by simpa [exHydH] using hk.symm
  refine ⟨_, _, _, _, _, _, _, _, _, out, h, by norm_num, by norm_num, by norm_num, fun _ _ _ _ _ _ _ => rfl,
    by norm_num, ⟨1, rfl, by simp [exHydH]⟩, ?_⟩
  rw [e1 1 0 0 (by norm_num), hkv, hkh]
  norm_num [linearFactor]

end Hyvr
