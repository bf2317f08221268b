import Verif.Model.Ferguson
import Verif.Lemmas.Channel
import Mathlib.Analysis.SpecificLimits.Normed
import Mathlib.Tactic.NormNum
import Mathlib.Tactic.Abel

/-!
C30, C31, C65, C71, C73: centrelines of channels.
-/

namespace Hyvr

open Py Spec Real

/-! ### C31: resampling -/

/-- Length of a polygon from point `a` to point `b`. -/
noncomputable def Spec.pathLen (P : List (ℝ × ℝ)) (a b : ℕ) : ℝ :=
  ∑ i ∈ Finset.Ico a b, √(((P.getD (i + 1) (0, 0)).1 - (P.getD i (0, 0)).1) ^ 2 + ((P.getD (i + 1) (0, 0)).2 - (P.getD i (0, 0)).2) ^ 2)

/-- The picks made from position `ic` on among the first `nc` points: each is the first point whose path from `ic` is longer than `tol`; the search
goes on behind it. -/
def Spec.Picks (P : List (ℝ × ℝ)) (tol : ℝ) (nc : ℕ) : ℕ → List ℕ → Prop
  | ic, [] => ∀ i, ic < i → i < nc → pathLen P ic i ≤ tol
  | ic, j :: rest => (ic < j ∧ j < nc ∧ tol < pathLen P ic j ∧ ∀ i, ic < i → i < j → pathLen P ic i ≤ tol) ∧ Picks P tol nc (j + 1) rest

theorem pathLen_self (P : List (ℝ × ℝ)) (a : ℕ) : pathLen P a a = 0 := by simp [pathLen]

theorem pathLen_succ (P : List (ℝ × ℝ)) {a b : ℕ} (h : a ≤ b) :
    pathLen P a (b + 1) = pathLen P a b +
      √(((P.getD (b + 1) (0, 0)).1 - (P.getD b (0, 0)).1) ^ 2 + ((P.getD (b + 1) (0, 0)).2 - (P.getD b (0, 0)).2) ^ 2) := by
  unfold pathLen
  rw [Finset.sum_Ico_succ_top h]

theorem pathLen_nonneg (P : List (ℝ × ℝ)) (a b : ℕ) : 0 ≤ pathLen P a b := Finset.sum_nonneg fun _ _ => Real.sqrt_nonneg _

theorem pathLen_mono_left (P : List (ℝ × ℝ)) {a a' b : ℕ} (h : a ≤ a') : pathLen P a' b ≤ pathLen P a b :=
  Finset.sum_le_sum_of_subset_of_nonneg (Finset.Ico_subset_Ico h le_rfl) fun _ _ _ => Real.sqrt_nonneg _

theorem findNext_spec (P : List (ℝ × ℝ)) (tol : ℝ) (ic : ℕ) (m : ℕ) : ∀ j, ic < j →
    match findNext P tol m j (pathLen P ic (j - 1)) with
    | .error e => e = .indexError ∧ P.length < j + m
    | .ok none => ∀ i, j ≤ i → i < j + m → pathLen P ic i ≤ tol
    | .ok (some r) => j ≤ r ∧ r < j + m ∧ r < P.length ∧ tol < pathLen P ic r ∧ ∀ i, j ≤ i → i < r → pathLen P ic i ≤ tol := by
  induction m with
  | zero => intro j hj; simp only [findNext]; intro i h1 h2; omega
  | succ m ih =>
    intro j hj
    unfold findNext
    by_cases hl : j < P.length
    · have hl' : j - 1 < P.length := by omega
      rw [List.getElem?_eq_getElem hl, List.getElem?_eq_getElem hl']
      simp only
      have hstep : pathLen P ic j = pathLen P ic (j - 1) + √((P[j].1 - P[j - 1].1) ^ 2 + (P[j].2 - P[j - 1].2) ^ 2) := by
        have := pathLen_succ P (a := ic) (b := j - 1) (by omega)
        rw [Nat.sub_add_cancel (by omega)] at this
        rw [this]
        simp [List.getD_eq_getElem?_getD, List.getElem?_eq_getElem hl, List.getElem?_eq_getElem hl']
      rw [← hstep]
      by_cases hc : pathLen P ic j > tol
      · rw [if_pos hc]
        exact ⟨le_refl _, by omega, hl, hc, fun i h1 h2 => by omega⟩
      · rw [if_neg hc]
        have := ih (j + 1) (by omega)
        rw [Nat.add_sub_cancel] at this
        have hle : ∀ i, j ≤ i → i < j + 1 → pathLen P ic i ≤ tol := by
          intro i h1 h2
          have : i = j := by omega
          subst this; exact not_lt.1 hc
        generalize findNext P tol m (j + 1) (pathLen P ic j) = r at this
        match r, this with
        | .error e, this => exact ⟨this.1, by have := this.2; omega⟩
        | .ok none, this =>
          intro i h1 h2
          by_cases h : i = j
          · exact hle i (by omega) (by omega)
          · exact this i (by omega) (by omega)
        | .ok (some r), this =>
          obtain ⟨h1, h2, h3, h4, h5⟩ := this
          refine ⟨by omega, by omega, h3, h4, ?_⟩
          intro i h6 h7
          by_cases h : i = j
          · exact hle i (by omega) (by omega)
          · exact h5 i (by omega) h7
    · rw [List.getElem?_eq_none (by omega)]
      simp only
      exact ⟨trivial, by omega⟩

theorem pickLoop_spec (P : List (ℝ × ℝ)) (tol : ℝ) (nc : ℕ) (fuel : ℕ) : ∀ ic, nc ≤ ic + fuel →
    (∃ idx, pickLoop P tol nc fuel ic = some (.ok idx) ∧ Picks P tol nc ic idx ∧ ∀ j ∈ idx, j < P.length) ∨
    (pickLoop P tol nc fuel ic = some (.error .indexError) ∧ P.length < nc) := by
  induction fuel with
  | zero =>
    intro ic h
    left
    refine ⟨[], ?_, fun i _ _ => by omega, by simp⟩
    unfold pickLoop
    rw [if_neg (by omega)]
  | succ fuel ih =>
    intro ic h
    unfold pickLoop
    by_cases hc : ic < nc
    · rw [if_pos hc]
      have hs := findNext_spec P tol ic (nc - (ic + 1)) (ic + 1) (by omega)
      rw [Nat.add_sub_cancel, pathLen_self] at hs
      generalize findNext P tol (nc - (ic + 1)) (ic + 1) 0 = r at hs
      match r, hs with
      | .error e, hs => right; rw [hs.1]; exact ⟨rfl, by have := hs.2; omega⟩
      | .ok (some j), hs =>
        obtain ⟨h1, h2, h3, h4, h5⟩ := hs
        rcases ih (j + 1) (by omega) with ⟨idx, hi, hp, hlt⟩ | ⟨hi, hl⟩
        · left
          refine ⟨j :: idx, by simp only [hi], ⟨⟨by omega, by omega, h4, fun i h6 h7 => h5 i (by omega) h7⟩, hp⟩, ?_⟩
          intro j' hj'
          rcases List.mem_cons.1 hj' with rfl | hj'
          · exact h3
          · exact hlt j' hj'
        · right
          exact ⟨by simp only [hi], hl⟩
      | .ok none, hs =>
        have hge : nc ≤ (if ic + 1 < nc then nc - 1 else ic + 1) + 1 := by split_ifs <;> omega
        rcases ih ((if ic + 1 < nc then nc - 1 else ic + 1) + 1) (by omega) with ⟨idx, hi, hp, hlt⟩ | ⟨hi, hl⟩
        · left
          have : idx = [] := by
            cases idx with
            | nil => rfl
            | cons j rest => obtain ⟨⟨h1, h2, -⟩, -⟩ := hp; omega
          subst this
          exact ⟨[], hi, fun i h1 h2 => hs i (by omega) (by omega), by simp⟩
        · right; exact ⟨hi, hl⟩
    · rw [if_neg hc]
      left
      exact ⟨[], rfl, fun i _ _ => by omega, by simp⟩

/-- **C31, termination.** Resampling always ends, for all curves and spacings. -/
theorem C31_terminates (xc yc : List ℝ) (spacing : ℝ) : curveInterp xc yc spacing ≠ none := by
  unfold curveInterp
  split_ifs
  · simp
  · simp
  · rcases pickLoop_spec (finePts xc yc spacing) spacing xc.length (xc.length + 1) 0 (by omega) with ⟨idx, h, -⟩ | ⟨h, -⟩
    · rw [h]
      simp only
      split <;> simp
    · rw [h]
      simp

theorem mapM_getElem? {β : Type} (P : List β) (idx : List ℕ) (l : List β) (h : (idx.mapM fun i => P[i]?) = some l) :
    l.length = idx.length ∧ ∀ (i j : ℕ), idx[i]? = some j → l[i]? = P[j]? := by
  induction idx generalizing l with
  | nil => simp at h; subst h; simp
  | cons i idx ih =>
    simp only [List.mapM_cons, Option.bind_eq_bind, Option.pure_def, Option.bind_eq_some_iff] at h
    obtain ⟨a, ha, l', hl', h⟩ := h
    cases h
    obtain ⟨h1, h2⟩ := ih l' hl'
    refine ⟨by simp [h1], ?_⟩
    intro n j hn
    cases n with
    | zero => simp at hn ⊢; subst hn; exact ha.symm
    | succ n => simp at hn ⊢; exact h2 n j hn

theorem mapM_getElem?_isSome {β : Type} (P : List β) (idx : List ℕ) (h : ∀ i ∈ idx, i < P.length) :
    ∃ l, (idx.mapM fun i => P[i]?) = some l := by
  induction idx with
  | nil => exact ⟨[], rfl⟩
  | cons i idx ih =>
    obtain ⟨l, hl⟩ := ih fun j hj => h j (List.mem_cons_of_mem _ hj)
    refine ⟨P[i]'(h i List.mem_cons_self) :: l, ?_⟩
    simp only [List.mapM_cons, Option.bind_eq_bind, Option.pure_def, Option.bind_eq_some_iff]
    exact ⟨_, List.getElem?_eq_getElem _, l, hl, rfl⟩

/-- **C31, picks.** A successful resampling returns the points of the interpolated curve at the indices `0 :: idx`, where `idx` are the greedy picks
among the first `nc` points. -/
theorem C31_picks {xc yc : List ℝ} {spacing : ℝ} {l : List (ℝ × ℝ)} (h : curveInterp xc yc spacing = some (.ok l)) :
    ∃ idx, Picks (finePts xc yc spacing) spacing xc.length 0 idx ∧ l.length = idx.length + 1 ∧
      ∀ (i j : ℕ), (0 :: idx)[i]? = some j → j < (finePts xc yc spacing).length ∧
        l[i]? = some (interpNodes xc (xc.getD 0 0 + j * (spacing * (1 / 10))), interpNodes yc (xc.getD 0 0 + j * (spacing * (1 / 10)))) := by
  unfold curveInterp at h
  split_ifs at h with h1 h2
  · simp at h
  · simp at h
  rcases pickLoop_spec (finePts xc yc spacing) spacing xc.length (xc.length + 1) 0 (by omega) with ⟨idx, hi, hp, -⟩ | ⟨hi, -⟩
  · rw [hi] at h
    simp only at h
    cases hm : (0 :: idx).mapM fun i => (finePts xc yc spacing)[i]? with
    | none => rw [hm] at h; simp at h
    | some l' =>
      rw [hm] at h
      simp only [Option.some.injEq, Except.ok.injEq] at h
      subst h
      obtain ⟨h3, h4⟩ := mapM_getElem? _ _ _ hm
      refine ⟨idx, hp, by simpa using h3, ?_⟩
      intro i j hij
      have hl := h4 i j hij
      have hi : i < l'.length := by
        obtain ⟨hh, -⟩ := List.getElem?_eq_some_iff.1 hij
        omega
      rw [List.getElem?_eq_getElem hi] at hl
      obtain ⟨hj, -⟩ := List.getElem?_eq_some_iff.1 hl.symm
      refine ⟨hj, ?_⟩
      rw [List.getElem?_eq_getElem hi, hl]
      unfold finePts
      rw [List.getElem?_map, arange_getElem?]
      have : j < (⌈((xc.length : ℝ) - xc.getD 0 0) / (spacing * (1 / 10))⌉).toNat := by
        unfold finePts at hj
        rwa [List.length_map, arange_length] at hj
      rw [if_pos this]
      rfl
  · rw [hi] at h; simp at h

theorem Spec.Picks.mem_bounds {P : List (ℝ × ℝ)} {tol : ℝ} {nc ic : ℕ} {idx : List ℕ} (h : Picks P tol nc ic idx) :
    ∀ j ∈ idx, ic < j ∧ j < nc := by
  induction idx generalizing ic with
  | nil => simp
  | cons j rest ih =>
    obtain ⟨⟨h1, h2, -⟩, h3⟩ := h
    intro j' hj'
    rcases List.mem_cons.1 hj' with rfl | hj'
    · exact ⟨h1, h2⟩
    · have := ih h3 j' hj'; omega

theorem Spec.Picks.pairwise {P : List (ℝ × ℝ)} {tol : ℝ} {nc ic : ℕ} {idx : List ℕ} (h : Picks P tol nc ic idx) :
    (ic :: idx).Pairwise (· < ·) := by
  induction idx generalizing ic with
  | nil => simp
  | cons j rest ih =>
    have hb := h.mem_bounds
    rw [List.pairwise_cons]
    refine ⟨fun j' hj' => (hb j' hj').1, ?_⟩
    have h3 := ih h.2
    rw [List.pairwise_cons] at h3 ⊢
    exact ⟨fun a ha => lt_trans (Nat.lt_succ_self j) (h3.1 a ha), h3.2⟩

theorem Spec.Picks.chain {P : List (ℝ × ℝ)} {tol : ℝ} {nc ic : ℕ} {idx : List ℕ} (h : Picks P tol nc ic idx) :
    ∀ a ≤ ic, (a :: idx).IsChain fun a b => tol < pathLen P a b := by
  induction idx generalizing ic with
  | nil => intro a _; simp
  | cons j rest ih =>
    intro a ha
    rw [List.isChain_cons_cons]
    exact ⟨lt_of_lt_of_le h.1.2.2.1 (pathLen_mono_left P ha), ih h.2 j (Nat.le_succ j)⟩

theorem Spec.Picks.count {P : List (ℝ × ℝ)} {tol : ℝ} {nc ic : ℕ} {idx : List ℕ} (h : Picks P tol nc ic idx) : 2 * idx.length ≤ nc - ic := by
  induction idx generalizing ic with
  | nil => simp
  | cons j rest ih =>
    have := ih h.2
    obtain ⟨⟨h1, h2, -⟩, -⟩ := h
    simp only [List.length_cons]
    omega

/-- **C31, order and spacing.** The picked positions start with the first point, are strictly increasing, stay below the number of given points, and
the path between two successive picks is longer than the spacing. -/
theorem C31_spacing {xc yc : List ℝ} {spacing : ℝ} {l : List (ℝ × ℝ)} (h : curveInterp xc yc spacing = some (.ok l)) :
    ∃ idx : List ℕ, idx.length = l.length ∧ idx[0]? = some 0 ∧ idx.Pairwise (· < ·) ∧
      (∀ j ∈ idx, j < xc.length ∧ j < (finePts xc yc spacing).length) ∧
      (idx.IsChain fun a b => spacing < pathLen (finePts xc yc spacing) a b) ∧
      ∀ (i j : ℕ), idx[i]? = some j → l[i]? = (finePts xc yc spacing)[j]? := by
  have hne : 0 < xc.length := by
    unfold curveInterp at h
    by_contra hcon
    rw [if_pos (by omega)] at h
    simp at h
  obtain ⟨idx, hp, hl, hv⟩ := C31_picks h
  refine ⟨0 :: idx, by simp [hl], rfl, hp.pairwise, ?_, hp.chain 0 le_rfl, ?_⟩
  · intro j hj
    obtain ⟨i, hi, rfl⟩ := List.mem_iff_getElem.1 hj
    refine ⟨?_, (hv i _ (List.getElem?_eq_getElem hi)).1⟩
    rcases List.mem_cons.1 hj with h0 | hj
    · rw [h0]; exact hne
    · exact (hp.mem_bounds _ hj).2
  · intro i j hij
    obtain ⟨hj, he⟩ := hv i j hij
    rw [he]
    unfold finePts at hj ⊢
    rw [List.getElem?_map, arange_getElem?]
    rw [List.length_map, arange_length] at hj
    rw [if_pos hj]
    rfl

/-- **C31, success.** Resampling succeeds whenever the curve is not empty, starts at 0 and the spacing is positive and at most 10. -/
theorem C31_success {xc yc : List ℝ} {spacing : ℝ} (hne : xc ≠ []) (h0 : xc.getD 0 0 = 0) (hs : 0 < spacing) (hs' : spacing ≤ 10) :
    ∃ l, curveInterp xc yc spacing = some (.ok l) := by
  have hlen : xc.length ≤ (finePts xc yc spacing).length := by
    unfold finePts
    rw [List.length_map, arange_length, h0, sub_zero]
    have h1 : (xc.length : ℝ) ≤ (xc.length : ℝ) / (spacing * (1 / 10)) := by
      rw [le_div_iff₀ (by positivity)]
      have : (0 : ℝ) ≤ xc.length := Nat.cast_nonneg _
      nlinarith
    have h2 := h1.trans (Int.le_ceil _)
    have h3 : (xc.length : ℤ) ≤ ⌈(xc.length : ℝ) / (spacing * (1 / 10))⌉ := by exact_mod_cast h2
    omega
  have hpos : 0 < xc.length := List.length_pos_of_ne_nil hne
  unfold curveInterp
  rw [if_neg (by omega), if_neg hs.ne']
  rcases pickLoop_spec (finePts xc yc spacing) spacing xc.length (xc.length + 1) 0 (by omega) with ⟨idx, hi, hp, hlt⟩ | ⟨hi, hl⟩
  · rw [hi]
    simp only
    obtain ⟨l, hl⟩ := mapM_getElem?_isSome (finePts xc yc spacing) (0 :: idx) (by
      intro i hi
      rcases List.mem_cons.1 hi with rfl | hi
      · omega
      · exact hlt i hi)
    rw [hl]
    exact ⟨l, rfl⟩
  · omega

/-- A curve of two points 100 apart, resampled with spacing 1/2, gives two points. -/
example : ∃ l, curveInterp [0, 100] [0, 0] (1 / 2) = some (.ok l) ∧ l.length = 2 := by
  obtain ⟨l, hl⟩ := C31_success (xc := [0, 100]) (yc := [0, 0]) (spacing := 1 / 2) (by simp) (by simp) (by norm_num) (by norm_num)
  refine ⟨l, hl, ?_⟩
  obtain ⟨idx, hp, hlen, -⟩ := C31_picks hl
  have hval : pathLen (finePts [0, 100] [0, 0] (1 / 2)) 0 1 = 5 := by
    have hf : ∀ i : ℕ, i < 2 → (finePts [0, 100] [0, 0] (1 / 2)).getD i (0, 0) = (5 * (i : ℝ), 0) := by
      intro i hi
      unfold finePts
      rw [List.getD_eq_getElem?_getD, List.getElem?_map, arange_getElem?]
      have : (⌈((([0, 100] : List ℝ).length : ℝ) - ([0, 100] : List ℝ).getD 0 0) / (1 / 2 * (1 / 10))⌉).toNat = 40 := by norm_num; rfl
      rw [this, if_pos (by omega)]
      have hi' : i = 0 ∨ i = 1 := by omega
      rcases hi' with rfl | rfl
      · simp [interpNodes]
      · have hfl : ⌊(1 / 2 * (1 / 10) : ℝ)⌋₊ = 0 := by rw [Nat.floor_eq_zero]; norm_num
        simp only [interpNodes, Nat.cast_one, one_mul, List.getD_cons_zero, zero_add, Option.map_some, Option.getD_some, hfl]
        norm_num
    unfold pathLen
    rw [Nat.Ico_zero_eq_range, Finset.sum_range_one, hf 0 (by norm_num), hf 1 (by norm_num)]
    norm_num
    rw [show (25 : ℝ) = 5 ^ 2 by norm_num]
    exact Real.sqrt_sq (by norm_num)
  cases idx with
  | nil => have := hp 1 (by norm_num) (by norm_num); rw [hval] at this; norm_num at this
  | cons j rest =>
    have := hp.count
    simp only [List.length_cons, List.length_nil] at this hlen
    omega

/-! ### C30: the chain of steps -/

theorem walk_length (ds : ℝ) (th : List ℝ) : ∀ x y, (walk ds x y th).length = th.length := by
  induction th with
  | nil => intro x y; rfl
  | cons t th ih => intro x y; simp [walk, ih]

theorem walk_head (ds x y : ℝ) (th : List ℝ) (q : CPoint) (h : (walk ds x y th)[0]? = some q) : q.x = x ∧ q.y = y := by
  cases th with
  | nil => simp [walk] at h
  | cons t th => simp [walk] at h; subst h; exact ⟨rfl, rfl⟩

theorem walk_velocity (ds : ℝ) (th : List ℝ) : ∀ (x y : ℝ) (i : ℕ) (q : CPoint) (t : ℝ), (walk ds x y th)[i]? = some q → th[i]? = some t →
    q.vx = ds * cos t ∧ q.vy = ds * sin t := by
  induction th with
  | nil => intro x y i q t h; simp [walk] at h
  | cons t th ih =>
    intro x y i q t' h ht
    cases i with
    | zero => simp [walk] at h ht; subst h; subst ht; exact ⟨rfl, rfl⟩
    | succ i => simp only [walk, List.getElem?_cons_succ] at h ht; exact ih _ _ i q t' h ht

theorem walk_step (ds : ℝ) (th : List ℝ) : ∀ (x y : ℝ) (i : ℕ) (q q' : CPoint), (walk ds x y th)[i]? = some q →
    (walk ds x y th)[i + 1]? = some q' → q'.x = q.x + q.vx ∧ q'.y = q.y + q.vy := by
  induction th with
  | nil => intro x y i q q' h; simp [walk] at h
  | cons t th ih =>
    intro x y i q q' h h'
    cases i with
    | zero =>
      simp [walk] at h h'
      subst h
      have := walk_head _ _ _ _ q' (by simpa using h')
      exact this
    | succ i => simp only [walk, List.getElem?_cons_succ] at h h'; exact ih _ _ i q q' h h'

/-- **C30, rotation.** The rotation and the shift preserve all distances. -/
theorem C30_isometry (ang xs ys : ℝ) (q q' : CPoint) :
    ((q.move ang xs ys).x - (q'.move ang xs ys).x) ^ 2 + ((q.move ang xs ys).y - (q'.move ang xs ys).y) ^ 2 =
      (q.x - q'.x) ^ 2 + (q.y - q'.y) ^ 2 := by
  unfold CPoint.move
  dsimp only
  linear_combination ((q.x - q'.x) ^ 2 + (q.y - q'.y) ^ 2) * sin_sq_add_cos_sq ang

theorem sum_map_add_const (l : List ℝ) (a : ℝ) : (l.map (· + a)).sum = l.sum + l.length * a := by
  induction l with
  | nil => simp
  | cons b l ih => simp only [List.map_cons, List.sum_cons, ih, List.length_cons]; push_cast; ring

/-- **C30, chain.** Before trimming, the centreline made from the directions `th` starts at the given point; there are directions `φ`, differing from `th`
by a constant angle and having the flow angle as mean, such that every point's velocity is `ds` in direction `φ i` and leads to the next
point. -/
theorem C30_chain {ds flow xs ys : ℝ} {th : List ℝ} (hne : th ≠ []) :
    (centreline ds flow xs ys th).length = th.length ∧
    (∃ q, (centreline ds flow xs ys th)[0]? = some q ∧ q.x = xs ∧ q.y = ys) ∧
    ∃ φ : List ℝ, φ.length = th.length ∧ φ.sum / φ.length = flow ∧ (∃ δ, ∀ (i : ℕ) (a b : ℝ), th[i]? = some a → φ[i]? = some b → b = a + δ) ∧
      (∀ (i : ℕ) (q : CPoint) (a : ℝ), (centreline ds flow xs ys th)[i]? = some q → φ[i]? = some a →
        q.vx = ds * cos a ∧ q.vy = ds * sin a) ∧
      ∀ (i : ℕ) (q q' : CPoint), (centreline ds flow xs ys th)[i]? = some q → (centreline ds flow xs ys th)[i + 1]? = some q' →
        q'.x = q.x + q.vx ∧ q'.y = q.y + q.vy ∧ (q'.x - q.x) ^ 2 + (q'.y - q.y) ^ 2 = ds ^ 2 := by
  have hlen : 0 < th.length := List.length_pos_of_ne_nil hne
  have hget : ∀ (i : ℕ) (q : CPoint), (centreline ds flow xs ys th)[i]? = some q → ∃ w, (walk ds 0 0 th)[i]? = some w ∧
      q = w.move (-mean th + flow) xs ys := by
    intro i q h
    unfold centreline at h
    rw [List.getElem?_map, Option.map_eq_some_iff] at h
    obtain ⟨w, hw, rfl⟩ := h
    exact ⟨w, hw, rfl⟩
  refine ⟨by simp [centreline, walk_length], ?_, th.map (· + (-mean th + flow)), by simp, ?_, ⟨-mean th + flow, ?_⟩, ?_, ?_⟩
  · have h0 : 0 < (walk ds 0 0 th).length := by rw [walk_length]; exact hlen
    refine ⟨((walk ds 0 0 th)[0]).move (-mean th + flow) xs ys, by simp [centreline, h0], ?_⟩
    obtain ⟨h1, h2⟩ := walk_head ds 0 0 th _ (List.getElem?_eq_getElem h0)
    unfold CPoint.move
    simp [h1, h2]
  · rw [sum_map_add_const, List.length_map, add_div, mul_div_assoc, mul_div_cancel₀]
    · unfold mean; ring
    · exact_mod_cast hlen.ne'
  · intro i a b ha hb
    rw [List.getElem?_map, ha] at hb
    simp only [Option.map_some, Option.some.injEq] at hb
    exact hb.symm
  · intro i q a hq ha
    obtain ⟨w, hw, rfl⟩ := hget i q hq
    rw [List.getElem?_map, Option.map_eq_some_iff] at ha
    obtain ⟨t, ht, rfl⟩ := ha
    obtain ⟨h1, h2⟩ := walk_velocity ds th 0 0 i w t hw ht
    unfold CPoint.move
    simp only [h1, h2]
    rw [cos_add t, sin_add t]
    constructor <;> ring
  · intro i q q' hq hq'
    obtain ⟨w, hw, rfl⟩ := hget i q hq
    obtain ⟨w', hw', rfl⟩ := hget (i + 1) q' hq'
    obtain ⟨h1, h2⟩ := walk_step ds th 0 0 i w w' hw hw'
    refine ⟨?_, ?_, ?_⟩
    · unfold CPoint.move; simp only [h1, h2]; ring
    · unfold CPoint.move; simp only [h1, h2]; ring
    · rw [C30_isometry, h1, h2]
      have hi : i < th.length := by
        obtain ⟨h, -⟩ := List.getElem?_eq_some_iff.1 hw
        rwa [walk_length] at h
      obtain ⟨h3, h4⟩ := walk_velocity ds th 0 0 i w _ hw (List.getElem?_eq_getElem hi)
      rw [h3, h4]
      linear_combination ds ^ 2 * sin_sq_add_cos_sq th[i]

/-- **C30, trimming.** The centreline returned consists of exactly those points of the whole chain (with steps of length `ds + 1e-10` from the requested
start point) whose x-coordinate is within one channel width of the domain, in the order of the chain. -/
theorem C30_trim {g : Grid} {h k ds eps flow dl xs ys w : ℝ} {noise : ℕ → ℝ} {kept : List CPoint}
    (hc : fergusonCurve g h k ds eps flow dl xs ys w noise = some (.ok kept)) :
    ∃ th, th ≠ [] ∧ kept.Sublist (centreline (ds + 1 / 10 ^ 10) flow xs ys th) ∧
      ∀ q, q ∈ kept ↔ q ∈ centreline (ds + 1 / 10 ^ 10) flow xs ys th ∧ g.x0 - w ≤ q.x ∧ q.x ≤ g.x0 + g.lx + w := by
  unfold fergusonCurve at hc
  cases hd : fergusonDirections h k ds eps dl noise with
  | none => rw [hd] at hc; simp at hc
  | some r =>
    cases r with
    | error e => rw [hd] at hc; simp at hc
    | ok l =>
      rw [hd] at hc
      simp only [Option.some.injEq, Except.ok.injEq] at hc
      subst hc
      refine ⟨l.map Prod.snd, ?_, List.filter_sublist, ?_⟩
      · obtain ⟨idx, -, hlen, -⟩ := C31_picks hd
        intro h0
        have := congrArg List.length h0
        simp at this
        rw [this] at hlen
        simp at hlen
      · intro q
        unfold trim
        rw [List.mem_filter]
        simp only [Bool.and_eq_true, decide_eq_true_eq]
        exact Iff.rfl

/-! ### C71: length of the centreline -/

theorem chain_reach {ds flow xs ys : ℝ} (hds : 0 ≤ ds) {th : List ℝ} (hne : th ≠ []) (i : ℕ) :
    ∀ q, (centreline ds flow xs ys th)[i]? = some q → √((q.x - xs) ^ 2 + (q.y - ys) ^ 2) ≤ i * ds := by
  obtain ⟨-, ⟨q0, hq0, hx, hy⟩, -, -, -, -, -, hstep⟩ := C30_chain (ds := ds) (flow := flow) (xs := xs) (ys := ys) hne
  induction i with
  | zero =>
    intro q hq
    rw [hq0] at hq
    cases hq
    simp [hx, hy]
  | succ i ih =>
    intro q' hq'
    have hi : i < (centreline ds flow xs ys th).length := by
      obtain ⟨h, -⟩ := List.getElem?_eq_some_iff.1 hq'
      omega
    obtain ⟨-, -, h3⟩ := hstep i _ q' (List.getElem?_eq_getElem hi) hq'
    have h1 := ih _ (List.getElem?_eq_getElem hi)
    generalize (centreline ds flow xs ys th)[i] = q at h1 h3
    have := sqrt_triangle (q.x - xs) (q.y - ys) (q'.x - q.x) (q'.y - q.y)
    rw [h3, Real.sqrt_sq hds, show q.x - xs + (q'.x - q.x) = q'.x - xs by ring, show q.y - ys + (q'.y - q.y) = q'.y - ys by ring] at this
    push_cast
    linarith

/-- Every point of a centreline is less than `dl + (ds + 1e-10)/2` away from its start. -/
theorem curve_reach {g : Grid} {h k ds eps flow dl xs ys w : ℝ} {noise : ℕ → ℝ} {kept : List CPoint} (hds : 0 < ds) (hdl : 0 < dl)
    (hc : fergusonCurve g h k ds eps flow dl xs ys w noise = some (.ok kept)) (q : CPoint) (hq : q ∈ kept) :
    √((q.x - xs) ^ 2 + (q.y - ys) ^ 2) < dl + (ds + 1 / 10 ^ 10) / 2 := by
  unfold fergusonCurve at hc
  cases hd : fergusonDirections h k ds eps dl noise with
  | none => rw [hd] at hc; simp at hc
  | some r =>
    cases r with
    | error e => rw [hd] at hc; simp at hc
    | ok l =>
      rw [hd] at hc
      simp only [Option.some.injEq, Except.ok.injEq] at hc
      subst hc
      have hq' := (List.mem_filter.1 hq).1
      obtain ⟨i, hi, rfl⟩ := List.mem_iff_getElem.1 hq'
      obtain ⟨idx, hp, hlen, -⟩ := C31_picks hd
      have hpos : (0 : ℝ) < ds + 1 / 10 ^ 10 := by positivity
      have hne : l.map Prod.snd ≠ [] := by
        intro h0
        have := congrArg List.length h0
        simp at this
        rw [this] at hlen
        simp at hlen
      refine lt_of_le_of_lt (chain_reach hpos.le hne i _ (List.getElem?_eq_getElem hi)) ?_
      have hcount := hp.count
      rw [Nat.sub_zero, arange_length, sub_zero] at hcount
      have hil : i ≤ idx.length := by
        simp only [centreline, List.length_map, walk_length] at hi
        omega
      have h1 : (2 * i : ℤ) ≤ ⌈dl * 2 / (ds + 1 / 10 ^ 10)⌉ := by
        have : 0 < ⌈dl * 2 / (ds + 1 / 10 ^ 10)⌉ := Int.ceil_pos.2 (by positivity)
        omega
      have h2 : ((2 * i : ℤ) : ℝ) < dl * 2 / (ds + 1 / 10 ^ 10) + 1 :=
        lt_of_le_of_lt (by exact_mod_cast h1) (Int.ceil_lt_add_one _)
      push_cast at h2
      have h3 := mul_lt_mul_of_pos_right h2 hpos
      rw [add_mul, div_mul_cancel₀ _ hpos.ne', one_mul] at h3
      nlinarith

/-- **C71 fails.** No channel crosses the domain: whatever the noise, all points of the centreline, measured along the flow direction from the centre
used by the code, are upstream of the downstream edge `domain_length/2`, provided that the step `ds` is shorter than the channel width. -/
theorem C71_refuted {g : Grid} {h k ds eps flow w ystart : ℝ} {noise : ℕ → ℝ} {kept : List CPoint} (hds : 0 < ds)
    (hw : ds + 1 / 10 ^ 10 ≤ w) (hL : 0 < domainLength g flow)
    (hc : fergusonCurve g h k ds eps flow (domainLength g flow) (channelStart g flow w ystart).1 (channelStart g flow w ystart).2 w noise =
      some (.ok kept)) (q : CPoint) (hq : q ∈ kept) :
    (q.x - (g.x0 + g.lx) / 2) * cos flow + (q.y - (g.y0 + g.ly) / 2) * sin flow < domainLength g flow / 2 := by
  have hr := curve_reach hds hL hc q hq
  set X := q.x - (channelStart g flow w ystart).1 with hX
  set Y := q.y - (channelStart g flow w ystart).2 with hY
  have hproj : X * cos flow + Y * sin flow ≤ √(X ^ 2 + Y ^ 2) := by
    apply Real.le_sqrt_of_sq_le
    have := sin_sq_add_cos_sq flow
    nlinarith [sq_nonneg (X * sin flow - Y * cos flow)]
  have e : (q.x - (g.x0 + g.lx) / 2) * cos flow + (q.y - (g.y0 + g.ly) / 2) * sin flow =
      X * cos flow + Y * sin flow - (domainLength g flow + w) / 2 := by
    rw [hX, hY]
    unfold channelStart
    dsimp only
    linear_combination (-(domainLength g flow + w) / 2) * sin_sq_add_cos_sq flow
  rw [e]
  linarith

/-- The hypotheses of the previous theorem are met e.g. by a domain of 100 x 50 with flow in x-direction: a centreline is produced and all of it is
at `x < 100`. -/
example : ∃ (g : Grid) (kept : List CPoint), g.x0 = 0 ∧ g.lx = 100 ∧
    fergusonCurve g (1 / 2) 1 1 (1 / 10) 0 (domainLength g 0) (channelStart g 0 5 3).1 (channelStart g 0 5 3).2 5 (fun i => i) =
      some (.ok kept) ∧ kept ≠ [] ∧ ∀ q ∈ kept, q.x < 100 := by
  obtain ⟨g, hg⟩ : ∃ g : Grid, g = { x0 := 0, y0 := 0, z0 := 0, dx := 1, dy := 1, dz := 1, lx := 100, ly := 50, lz := 10, periodic := false } :=
    ⟨_, rfl⟩
  have hL : domainLength g 0 = 100 := by simp [domainLength, hg]
  have hlen : 0 < (arange 0 (domainLength g 0 * 2) (1 + 1 / 10 ^ 10)).length := by
    rw [arange_length, hL]
    have : 0 < ⌈((100 : ℝ) * 2 - 0) / (1 + 1 / 10 ^ 10)⌉ := Int.ceil_pos.2 (by positivity)
    omega
  obtain ⟨l, hl⟩ := C31_success (xc := arange 0 (domainLength g 0 * 2) (1 + 1 / 10 ^ 10))
    (yc := (List.range (arange 0 (domainLength g 0 * 2) (1 + 1 / 10 ^ 10)).length).map (theta (fun i => i) (1 / 10) 1 (1 / 2)))
    (spacing := 1 / 10) (List.ne_nil_of_length_pos hlen) (by
      rw [List.getD_eq_getElem?_getD, arange_getElem?, if_pos (by rw [← arange_length]; exact hlen)]
      simp) (by norm_num) (by norm_num)
  have hd : fergusonDirections (1 / 2) 1 1 (1 / 10) (domainLength g 0) (fun i => i) = some (.ok l) := hl
  have hf : fergusonCurve g (1 / 2) 1 1 (1 / 10) 0 (domainLength g 0) (channelStart g 0 5 3).1 (channelStart g 0 5 3).2 5 (fun i => i) =
      some (.ok (trim g 5 (centreline (1 + 1 / 10 ^ 10) 0 (channelStart g 0 5 3).1 (channelStart g 0 5 3).2 (l.map Prod.snd)))) := by
    unfold fergusonCurve
    rw [hd]
  have hne : l.map Prod.snd ≠ [] := by
    obtain ⟨idx, -, hlen, -⟩ := C31_picks hd
    intro h0
    have := congrArg List.length h0
    simp at this
    rw [this] at hlen
    simp at hlen
  refine ⟨g, _, by rw [hg], by rw [hg], hf, ?_, ?_⟩
  · obtain ⟨-, ⟨q, hq, hx, -⟩, -⟩ := C30_chain (ds := 1 + 1 / 10 ^ 10) (flow := 0) (xs := (channelStart g 0 5 3).1)
      (ys := (channelStart g 0 5 3).2) hne
    have hst : (channelStart g 0 5 3).1 = -5 / 2 := by
      unfold channelStart; rw [hL, hg]; norm_num
    have : q ∈ trim g 5 (centreline (1 + 1 / 10 ^ 10) 0 (channelStart g 0 5 3).1 (channelStart g 0 5 3).2 (l.map Prod.snd)) := by
      unfold trim
      rw [List.mem_filter]
      refine ⟨List.mem_of_getElem? hq, ?_⟩
      rw [hx, hst, hg]
      norm_num [Grid.xmax]
    exact List.ne_nil_of_mem this
  · intro q hq
    have := C71_refuted (by norm_num) (by norm_num) (by rw [hL]; norm_num) hf q hq
    rw [hL, hg] at this
    norm_num at this
    linarith

/-! ### C73: start points -/

/-- **C73, domains beginning at the origin.** A channel starts half a width upstream of the domain (`(domain_length + width)/2` before the centre of the
domain, measured along the flow, whereas all corners of the domain are within `domain_length/2`), displaced sideways by the drawn value.
Missing: domains with `x0 ≠ 0` or `y0 ≠ 0` (`C73_refuted`). -/
theorem C73_start_partial (g : Grid) (ang w ystart : ℝ) (hx : g.x0 = 0) (hy : g.y0 = 0) (hlx : 0 ≤ g.lx) (hly : 0 ≤ g.ly) :
    ((channelStart g ang w ystart).1 - (g.x0 + g.lx / 2)) * cos ang + ((channelStart g ang w ystart).2 - (g.y0 + g.ly / 2)) * sin ang =
      -(domainLength g ang + w) / 2 ∧
    -((channelStart g ang w ystart).1 - (g.x0 + g.lx / 2)) * sin ang + ((channelStart g ang w ystart).2 - (g.y0 + g.ly / 2)) * cos ang =
      ystart ∧
    ∀ x y, g.x0 ≤ x → x ≤ g.xmax → g.y0 ≤ y → y ≤ g.ymax →
      -(domainLength g ang) / 2 ≤ (x - (g.x0 + g.lx / 2)) * cos ang + (y - (g.y0 + g.ly / 2)) * sin ang ∧
      (x - (g.x0 + g.lx / 2)) * cos ang + (y - (g.y0 + g.ly / 2)) * sin ang ≤ domainLength g ang / 2 := by
  refine ⟨?_, ?_, ?_⟩
  · unfold channelStart
    dsimp only
    rw [hx, hy]
    linear_combination (-(domainLength g ang + w) / 2) * sin_sq_add_cos_sq ang
  · unfold channelStart
    dsimp only
    rw [hx, hy]
    linear_combination ystart * sin_sq_add_cos_sq ang
  · intro x y h1 h2 h3 h4
    unfold Grid.xmax at h2
    unfold Grid.ymax at h4
    have hX : |(x - (g.x0 + g.lx / 2)) * cos ang| ≤ |g.lx * cos ang| / 2 := by
      rw [abs_mul, abs_mul, abs_of_nonneg hlx]
      have : |x - (g.x0 + g.lx / 2)| ≤ g.lx / 2 := abs_le.2 ⟨by linarith, by linarith⟩
      have := mul_le_mul_of_nonneg_right this (abs_nonneg (cos ang))
      linarith
    have hY : |(y - (g.y0 + g.ly / 2)) * sin ang| ≤ |g.ly * sin ang| / 2 := by
      rw [abs_mul, abs_mul, abs_of_nonneg hly]
      have : |y - (g.y0 + g.ly / 2)| ≤ g.ly / 2 := abs_le.2 ⟨by linarith, by linarith⟩
      have := mul_le_mul_of_nonneg_right this (abs_nonneg (sin ang))
      linarith
    obtain ⟨a1, a2⟩ := abs_le.1 hX
    obtain ⟨b1, b2⟩ := abs_le.1 hY
    unfold domainLength
    constructor <;> linarith

/-- **C73 fails for shifted domains.** In a domain from `x = -100` to `x = -90` a channel flowing in x-direction starts downstream of the domain; no point
of its centreline can be kept if the steps lead further downstream. -/
theorem C73_refuted : ∃ (g : Grid) (w : ℝ), 0 < g.lx ∧ 0 < g.ly ∧ 0 < w ∧ ∀ ystart, g.xmax + w < (channelStart g 0 w ystart).1 := by
  refine ⟨{ x0 := -100, y0 := 0, z0 := 0, dx := 1, dy := 1, dz := 1, lx := 10, ly := 10, lz := 10, periodic := false }, 2, by norm_num, by norm_num,
    by norm_num, ?_⟩
  intro ystart
  norm_num [channelStart, domainLength, Grid.xmax]

/-- Start point for a domain of 10 x 10, flow in x-direction, width 2, lateral displacement 3. -/
example : channelStart { x0 := 0, y0 := 0, z0 := 0, dx := 1, dy := 1, dz := 1, lx := 10, ly := 10, lz := 10, periodic := false } 0 2 3 = (-1, 8) := by
  norm_num [channelStart, domainLength]

/-! ### C65: directions -/

/-- **C65, no noise.** Without noise all directions are zero. -/
theorem C65_zero {noise : ℕ → ℝ} {eps k h : ℝ} (h0 : ∀ i, noise i * eps = 0) (n : ℕ) : theta noise eps k h n = 0 := by
  induction n using Nat.strong_induction_on with
  | _ n ih =>
    match n with
    | 0 => simp [theta, thetaAR2]
    | 1 => rw [theta, ih 0 (by omega), h0]; simp [thetaAR2]
    | n + 2 => rw [theta, ih n (by omega), ih (n + 1) (by omega), h0]; simp [thetaAR2]

/-- **C65, linearity.** The directions depend linearly on the noise. -/
theorem C65_linear (a b : ℝ) (u v : ℕ → ℝ) (eps k h : ℝ) (n : ℕ) :
    theta (fun i => a * u i + b * v i) eps k h n = a * theta u eps k h n + b * theta v eps k h n := by
  induction n using Nat.strong_induction_on with
  | _ n ih =>
    match n with
    | 0 => simp [theta, thetaAR2]
    | 1 => simp only [theta]; unfold thetaAR2; ring
    | n + 2 => rw [theta, theta, theta, ih n (by omega), ih (n + 1) (by omega)]; unfold thetaAR2; ring

/-- The recurrence as written in the documentation. -/
theorem theta_rec (noise : ℕ → ℝ) (eps k h : ℝ) (n : ℕ) :
    theta noise eps k h (n + 2) - 2 * exp (-k * h) * cos (k * arcsin h) * theta noise eps k h (n + 1) -
      -exp (-2 * k * h) * theta noise eps k h n = noise (n + 2) * eps := by
  rw [theta]; unfold thetaAR2; ring

/-- The factorised recurrence: `w n = θ (n+1) - r e^{iφ} θ n` satisfies a recurrence of first order. -/
theorem theta_factor (noise : ℕ → ℝ) (eps k h : ℝ) (n : ℕ) :
    (theta noise eps k h (n + 2) : ℂ) - (exp (-k * h) : ℝ) * Complex.exp ((k * arcsin h : ℝ) * Complex.I) * theta noise eps k h (n + 1) =
      (exp (-k * h) : ℝ) * Complex.exp (-((k * arcsin h : ℝ) * Complex.I)) *
        ((theta noise eps k h (n + 1) : ℂ) - (exp (-k * h) : ℝ) * Complex.exp ((k * arcsin h : ℝ) * Complex.I) * theta noise eps k h n) +
      (noise (n + 2) * eps : ℝ) := by
  have hr := theta_rec noise eps k h n
  have hr' := congrArg (fun x : ℝ => (x : ℂ)) hr
  have h2 : exp (-2 * k * h) = exp (-k * h) * exp (-k * h) := by rw [← Real.exp_add]; congr 1; ring
  rw [h2] at hr'
  push_cast at hr'
  have hee : Complex.exp ((k * arcsin h : ℝ) * Complex.I) * Complex.exp (-((k * arcsin h : ℝ) * Complex.I)) = 1 := by
    rw [← Complex.exp_add]; simp
  have hcos : Complex.exp ((k * arcsin h : ℝ) * Complex.I) + Complex.exp (-((k * arcsin h : ℝ) * Complex.I)) = 2 * Complex.cos ((k * arcsin h : ℝ)) := by
    rw [Complex.cos]; ring_nf
  push_cast at hee hcos ⊢
  linear_combination hr' + (-Complex.exp (-(k : ℂ) * h) * theta noise eps k h (n + 1)) * hcos +
    Complex.exp (-(k : ℂ) * h) ^ 2 * theta noise eps k h n * hee

/-- The first-order remainder. -/
noncomputable def wRem (noise : ℕ → ℝ) (eps k h : ℝ) (n : ℕ) : ℂ :=
  (theta noise eps k h (n + 1) : ℂ) - (exp (-k * h) : ℝ) * Complex.exp ((k * arcsin h : ℝ) * Complex.I) * theta noise eps k h n

theorem norm_exp_I (x : ℝ) : ‖Complex.exp ((x : ℝ) * Complex.I)‖ = 1 := Complex.norm_exp_ofReal_mul_I x

theorem norm_exp_neg_I (x : ℝ) : ‖Complex.exp (-((x : ℝ) * Complex.I))‖ = 1 := by
  have := Complex.norm_exp_ofReal_mul_I (-x)
  push_cast at this
  rwa [neg_mul] at this

theorem wRem_succ (noise : ℕ → ℝ) (eps k h : ℝ) (n : ℕ) :
    ‖wRem noise eps k h (n + 1)‖ ≤ exp (-k * h) * ‖wRem noise eps k h n‖ + |noise (n + 2) * eps| := by
  have : wRem noise eps k h (n + 1) = (exp (-k * h) : ℝ) * Complex.exp (-((k * arcsin h : ℝ) * Complex.I)) * wRem noise eps k h n +
      (noise (n + 2) * eps : ℝ) := by
    unfold wRem; exact theta_factor noise eps k h n
  rw [this]
  refine (norm_add_le _ _).trans ?_
  rw [norm_mul, norm_mul, norm_exp_neg_I, Complex.norm_real, Complex.norm_real, Real.norm_eq_abs, Real.norm_eq_abs,
    abs_of_pos (Real.exp_pos _), mul_one]

theorem theta_succ (noise : ℕ → ℝ) (eps k h : ℝ) (n : ℕ) :
    |theta noise eps k h (n + 1)| ≤ exp (-k * h) * |theta noise eps k h n| + ‖wRem noise eps k h n‖ := by
  have : (theta noise eps k h (n + 1) : ℂ) =
      (exp (-k * h) : ℝ) * Complex.exp ((k * arcsin h : ℝ) * Complex.I) * theta noise eps k h n + wRem noise eps k h n := by
    unfold wRem; ring
  have h2 := congrArg norm this
  rw [Complex.norm_real, Real.norm_eq_abs] at h2
  rw [h2]
  refine (norm_add_le _ _).trans ?_
  rw [norm_mul, norm_mul, norm_exp_I, Complex.norm_real, Complex.norm_real, Real.norm_eq_abs, Real.norm_eq_abs,
    abs_of_pos (Real.exp_pos _), mul_one]

/-- **C65, boundedness.** If all disturbances are at most `E` and `k*h > 0`, all directions are at most `E/(1 - e^{-kh})^2`. -/
theorem C65_bounded {noise : ℕ → ℝ} {eps k h E : ℝ} (hkh : 0 < k * h) (hE : ∀ i, |noise i * eps| ≤ E) (n : ℕ) :
    |theta noise eps k h n| ≤ E / (1 - exp (-k * h)) ^ 2 := by
  have hr : exp (-k * h) < 1 := by rw [Real.exp_lt_one_iff]; linarith
  have hr0 := Real.exp_pos (-k * h)
  set r := exp (-k * h) with hrdef
  have hE0 : 0 ≤ E := (abs_nonneg _).trans (hE 0)
  have h1r : 0 < 1 - r := by linarith
  have hth0 : theta noise eps k h 0 = 0 := by simp [theta, thetaAR2]
  have hw : ∀ n, ‖wRem noise eps k h n‖ ≤ E / (1 - r) := by
    intro n
    induction n with
    | zero =>
      have : wRem noise eps k h 0 = (noise 1 * eps : ℝ) := by
        unfold wRem
        rw [hth0]
        simp [theta, thetaAR2]
      rw [this, Complex.norm_real, Real.norm_eq_abs]
      refine (hE 1).trans ?_
      rw [le_div_iff₀ h1r]
      nlinarith
    | succ n ih =>
      refine (wRem_succ noise eps k h n).trans ?_
      have h1 := mul_le_mul_of_nonneg_left ih hr0.le
      have h2 := hE (n + 2)
      have h3 : r * (E / (1 - r)) + E = E / (1 - r) := by field_simp; ring
      linarith
  induction n with
  | zero => rw [hth0, abs_zero]; positivity
  | succ n ih =>
    refine (theta_succ noise eps k h n).trans ?_
    have h1 := mul_le_mul_of_nonneg_left ih hr0.le
    have h2 := hw n
    have h3 : r * (E / (1 - r) ^ 2) + E / (1 - r) = E / (1 - r) ^ 2 := by field_simp; ring
    linarith

/-- **C65, decay.** If the noise stops after round `n`, the directions from then on decay at least like `m e^{-khm}`. -/
theorem C65_decay {noise : ℕ → ℝ} {eps k h : ℝ} {n : ℕ} (h0 : ∀ i, n + 1 < i → noise i * eps = 0) :
    ∃ C : ℝ, ∀ m : ℕ, |theta noise eps k h (n + m)| ≤ C * (m + 1) * exp (-k * h) ^ m := by
  set r := exp (-k * h) with hr
  have hr0 : 0 < r := Real.exp_pos _
  have hw : ∀ m, ‖wRem noise eps k h (n + m)‖ ≤ r ^ m * ‖wRem noise eps k h n‖ := by
    intro m
    induction m with
    | zero => simp
    | succ m ih =>
      have := wRem_succ noise eps k h (n + m)
      rw [h0 (n + m + 2) (by omega), abs_zero, add_zero, ← hr] at this
      refine this.trans ?_
      rw [pow_succ']
      have := mul_le_mul_of_nonneg_left ih hr0.le
      linarith
  refine ⟨|theta noise eps k h n| + ‖wRem noise eps k h n‖ / r, ?_⟩
  have key : ∀ m : ℕ, |theta noise eps k h (n + m)| ≤ r ^ m * (|theta noise eps k h n| + m * (‖wRem noise eps k h n‖ / r)) := by
    intro m
    induction m with
    | zero => simp
    | succ m ih =>
      have h1 := theta_succ noise eps k h (n + m)
      rw [← hr] at h1
      have h2 := mul_le_mul_of_nonneg_left ih hr0.le
      have h3 := hw m
      have h4 : r * (r ^ m * (|theta noise eps k h n| + m * (‖wRem noise eps k h n‖ / r))) + r ^ m * ‖wRem noise eps k h n‖ =
          r ^ (m + 1) * (|theta noise eps k h n| + ((m + 1 : ℕ) : ℝ) * (‖wRem noise eps k h n‖ / r)) := by
        push_cast
        field_simp
        ring
      rw [← h4]
      have : |theta noise eps k h (n + (m + 1))| ≤ r * |theta noise eps k h (n + m)| + ‖wRem noise eps k h (n + m)‖ := h1
      linarith
  intro m
  refine (key m).trans ?_
  have hm : (0 : ℝ) ≤ m := Nat.cast_nonneg m
  have hrm : 0 < r ^ m := by positivity
  have h5 : 0 ≤ ‖wRem noise eps k h n‖ / r := by positivity
  have h6 := abs_nonneg (theta noise eps k h n)
  rw [mul_comm (r ^ m)]
  apply mul_le_mul_of_nonneg_right _ hrm.le
  nlinarith [mul_nonneg hm h6]

/-- Meanders do occur: with a single disturbance 1 the second direction is 1, and all directions stay bounded. -/
example : theta (fun i => if i = 1 then 1 else 0) 1 1 (1 / 2) 1 = 1 ∧
    ∀ n, |theta (fun i => if i = 1 then 1 else 0) 1 1 (1 / 2) n| ≤ 1 / (1 - exp (-1 * (1 / 2))) ^ 2 := by
  constructor
  · simp [theta, thetaAR2]
  · intro n
    exact C65_bounded (by norm_num) (by intro i; split_ifs <;> simp) n

end Hyvr
