import Verif.Props.Trough
import Mathlib.Analysis.Calculus.Deriv.Mul
import Mathlib.Analysis.Calculus.Deriv.Add

/-!
C23: angles of bulb structures.
-/

namespace Hyvr

open Py Spec Real

/-! ### Specification -/

/-- Partial derivatives of the quadratic form of the ellipsoids: the outward normal direction of the concentric ellipsoid through a point. -/
noncomputable def Spec.ellipsoidGrad (X Y Z a b c ang x y z : ℝ) : Fin 3 → ℝ :=
  let P := ((x - X) * cos ang + (y - Y) * sin ang) / a
  let Q := (-(x - X) * sin ang + (y - Y) * cos ang) / b
  ![2 * (P / a * cos ang - Q / b * sin ang), 2 * (P / a * sin ang + Q / b * cos ang), 2 * ((z - Z) / c / c)]

/-- `ellipsoidGrad` is the gradient of `ellipsoidForm`. -/
theorem ellipsoidGrad_deriv (X Y Z a b c ang x y z : ℝ) :
    HasDerivAt (fun s => ellipsoidForm X Y Z a b c ang s y z) (ellipsoidGrad X Y Z a b c ang x y z 0) x ∧
    HasDerivAt (fun s => ellipsoidForm X Y Z a b c ang x s z) (ellipsoidGrad X Y Z a b c ang x y z 1) y ∧
    HasDerivAt (fun s => ellipsoidForm X Y Z a b c ang x y s) (ellipsoidGrad X Y Z a b c ang x y z 2) z := by
  have lin : ∀ u v w s : ℝ, HasDerivAt (fun s : ℝ => ((s - u) * v + w) ) v s := by
    intro u v w s
    have h := ((((hasDerivAt_id s).sub_const u).mul_const v).add_const w)
    simpa using h
  refine ⟨?_, ?_, ?_⟩
  · have h1 := ((lin X (cos ang) ((y - Y) * sin ang) x).div_const a).pow 2
    have h2 := ((lin X (-sin ang) ((y - Y) * cos ang) x).div_const b).pow 2
    have h3 := (h1.add h2).add_const (((z - Z) / c) ^ 2)
    refine (h3.congr_deriv ?_).congr_of_eventuallyEq (Filter.Eventually.of_forall fun s => ?_)
    · simp [ellipsoidGrad]; ring
    · simp only [ellipsoidForm, Pi.add_apply, Pi.pow_apply]; ring
  · have h1 := ((lin Y (sin ang) ((x - X) * cos ang) y).div_const a).pow 2
    have h2 := ((lin Y (cos ang) (-(x - X) * sin ang) y).div_const b).pow 2
    have h3 := (h1.add h2).add_const (((z - Z) / c) ^ 2)
    refine (h3.congr_deriv ?_).congr_of_eventuallyEq (Filter.Eventually.of_forall fun s => ?_)
    · simp [ellipsoidGrad]; ring
    · simp [ellipsoidForm]; ring
  · have h1 := ((lin Z 1 0 z).div_const c).pow 2
    have h3 := h1.const_add ((((x - X) * cos ang + (y - Y) * sin ang) / a) ^ 2 +
      ((-(x - X) * sin ang + (y - Y) * cos ang) / b) ^ 2)
    refine (h3.congr_deriv ?_).congr_of_eventuallyEq (Filter.Eventually.of_forall fun s => ?_)
    · simp [ellipsoidGrad]; ring
    · simp [ellipsoidForm]

/-! ### Lemmas on the angles -/

theorem pySign_cases (x : ℝ) : (0 ≤ x ∧ pySign x = 1) ∨ (x < 0 ∧ pySign x = -1) := by
  unfold pySign
  rcases le_or_gt 0 x with h | h
  · left; simp [h, not_lt.2 h]
  · right; simp [h, not_le.2 h]

theorem pySign_abs (x : ℝ) : |pySign x| = 1 := by
  rcases pySign_cases x with ⟨_, h⟩ | ⟨_, h⟩ <;> rw [h] <;> simp

theorem atanDiv_abs (u v : ℝ) : |atanDiv u v| ≤ π / 2 := by
  have hp := pi_pos
  unfold atanDiv
  split_ifs
  · rw [abs_of_pos (by linarith)]
  · rw [abs_neg, abs_of_pos (by linarith)]
  · simp; linarith
  · exact abs_le.2 ⟨(neg_pi_div_two_lt_arctan _).le, (arctan_lt_pi_div_two _).le⟩

/-- The azimuth angle points along the horizontal part of the normal vector. -/
theorem atanDiv_cos_sin {nx ny ρ : ℝ} (hρ : 0 < ρ) (h : nx ^ 2 + ny ^ 2 = ρ ^ 2) :
    cos (atanDiv (pySign nx * ny) |nx|) = |nx| / ρ ∧ sin (atanDiv (pySign nx * ny) |nx|) = pySign nx * ny / ρ := by
  by_cases hx : nx = 0
  · subst hx
    have hs : pySign 0 = 1 := by simp [pySign]
    have hy : |ny| = ρ := by
      rw [← abs_of_pos hρ, ← sq_eq_sq_iff_abs_eq_abs]; linarith
    unfold atanDiv
    rw [hs, one_mul, abs_zero, if_pos rfl]
    rcases lt_trichotomy ny 0 with h0 | h0 | h0
    · rw [abs_of_neg h0] at hy
      rw [if_neg (by linarith), if_pos h0, cos_neg, sin_neg, cos_pi_div_two, sin_pi_div_two]
      exact ⟨by simp, by rw [← hy, div_neg, div_self h0.ne]⟩
    · rw [h0, abs_zero] at hy; linarith
    · rw [abs_of_pos h0] at hy
      rw [if_pos h0, cos_pi_div_two, sin_pi_div_two]
      exact ⟨by simp, by rw [← hy]; field_simp⟩
  · have hax : 0 < |nx| := abs_pos.2 hx
    have hs2 : pySign nx ^ 2 = 1 := by
      rw [← sq_abs, pySign_abs]; norm_num
    unfold atanDiv
    rw [if_neg hax.ne', cos_arctan, sin_arctan]
    have hr : √(1 + (pySign nx * ny / |nx|) ^ 2) = ρ / |nx| := by
      have e : 1 + (pySign nx * ny / |nx|) ^ 2 = (ρ / |nx|) ^ 2 := by
        rw [div_pow, div_pow, sq_abs, mul_pow, hs2, ← h]
        field_simp
      rw [e, Real.sqrt_sq (by positivity)]
    rw [hr]
    constructor <;> field_simp

theorem arccos_cos_sin {nx ny nz ρ : ℝ} (hρ : 0 < ρ) (h : nx ^ 2 + ny ^ 2 = ρ ^ 2) (h1 : nx ^ 2 + ny ^ 2 + nz ^ 2 = 1) :
    cos (arccos |nz|) = |nz| ∧ sin (arccos |nz|) = ρ := by
  have h2 : |nz| ≤ 1 := abs_le_of_sq_le_sq (by nlinarith [sq_nonneg nx, sq_nonneg ny]) (by norm_num)
  constructor
  · exact cos_arccos (by linarith [abs_nonneg nz]) h2
  · rw [sin_arccos, sq_abs, show 1 - nz ^ 2 = ρ ^ 2 by linarith, Real.sqrt_sq hρ.le]

/-- Bedding normal of the angles computed from a unit vector `(nx, ny, nz)`; `σ` is the sign factor of the dip. -/
theorem bedding_of_angles {nx ny nz σ : ℝ} (h1 : nx ^ 2 + ny ^ 2 + nz ^ 2 = 1) (h0 : nx ^ 2 + ny ^ 2 ≠ 0) (hσ : |σ| = 1) :
    beddingNormal (-atanDiv (pySign nx * ny) |nx| / π * 180 * π / 180) (-arccos |nz| * σ / π * 180 * π / 180) =
      ![-(|nx| * σ), -(pySign nx * ny * σ), |nz|] := by
  have hp := pi_pos.ne'
  have hpos : 0 < nx ^ 2 + ny ^ 2 := lt_of_le_of_ne (by positivity) (Ne.symm h0)
  have hρ : 0 < √(nx ^ 2 + ny ^ 2) := Real.sqrt_pos.2 hpos
  have hρ2 : nx ^ 2 + ny ^ 2 = √(nx ^ 2 + ny ^ 2) ^ 2 := (Real.sq_sqrt hpos.le).symm
  obtain ⟨c1, s1⟩ := atanDiv_cos_sin hρ hρ2
  obtain ⟨c2, s2⟩ := arccos_cos_sin hρ hρ2 h1
  have e1 : -atanDiv (pySign nx * ny) |nx| / π * 180 * π / 180 = -atanDiv (pySign nx * ny) |nx| := by field_simp
  have e2 : -arccos |nz| * σ / π * 180 * π / 180 = -(arccos |nz| * σ) := by field_simp
  rw [e1, e2]
  unfold beddingNormal
  rw [cos_neg, sin_neg, cos_neg, sin_neg, c1, s1]
  have hσ' : σ = 1 ∨ σ = -1 := by
    rcases abs_choice σ with h | h <;> rw [h] at hσ
    · exact Or.inl hσ
    · right; linarith
  have e3 : sin (arccos |nz| * σ) = √(nx ^ 2 + ny ^ 2) * σ := by
    rcases hσ' with rfl | rfl
    · rw [mul_one, mul_one, s2]
    · rw [mul_neg_one, mul_neg_one, sin_neg, s2]
  have e4 : cos (arccos |nz| * σ) = |nz| := by
    rcases hσ' with rfl | rfl
    · rw [mul_one, c2]
    · rw [mul_neg_one, cos_neg, c2]
  rw [e3, e4]
  obtain ⟨ρ, hρe⟩ : ∃ ρ, ρ = √(nx ^ 2 + ny ^ 2) := ⟨_, rfl⟩
  rw [← hρe] at hρ ⊢
  congr 1
  · field_simp
  · congr 1
    field_simp

/-- The computed normal vector has length one. -/
theorem bulbNormal_unit {t : Trough} (hsk : t.sinalpha ^ 2 + t.cosalpha ^ 2 = 1) {aaa bbb ccc : ℝ}
    (h : √(aaa ^ 2 + bbb ^ 2 + ccc ^ 2) ≠ 0) :
    (bulbNormal t aaa bbb ccc).1 ^ 2 + (bulbNormal t aaa bbb ccc).2.1 ^ 2 + (bulbNormal t aaa bbb ccc).2.2 ^ 2 = 1 := by
  unfold bulbNormal
  dsimp only
  rw [div_pow, div_pow, div_pow, ← add_div, ← add_div, div_eq_one_iff_eq (pow_ne_zero 2 h), Real.sq_sqrt (by positivity)]
  linear_combination (aaa ^ 2 + bbb ^ 2) * hsk

theorem bulbAngles_bounds (t : Trough) (u v w : ℝ) : |(bulbAngles t u v w).1| ≤ 90 ∧ |(bulbAngles t u v w).2| ≤ 90 := by
  have hp := pi_pos
  have dipb : ∀ n s : ℝ, |s| = 1 → |-arccos |n| * s / π * 180| ≤ 90 := by
    intro n s hs
    have ha0 := arccos_nonneg |n|
    have ha1 : arccos |n| ≤ π / 2 := arccos_le_pi_div_two.2 (abs_nonneg n)
    rw [abs_mul, abs_div, abs_mul, abs_neg, hs, mul_one, abs_of_nonneg ha0, abs_of_pos hp, abs_of_pos (by norm_num : (0 : ℝ) < 180)]
    rw [div_mul_eq_mul_div, div_le_iff₀ hp]
    linarith
  unfold bulbAngles
  dsimp only
  split_ifs with h1 h2 h3
  · norm_num
  · refine ⟨?_, dipb _ _ (pySign_abs _)⟩
    have := atanDiv_abs (pySign (bulbNormal t (u / t.a) (v / t.b) (w / t.c)).1 * (bulbNormal t (u / t.a) (v / t.b) (w / t.c)).2.1)
      |(bulbNormal t (u / t.a) (v / t.b) (w / t.c)).1|
    rw [abs_mul, abs_div, abs_neg, abs_of_pos hp, abs_of_pos (by norm_num : (0 : ℝ) < 180), div_mul_eq_mul_div, div_le_iff₀ hp]
    linarith
  · refine ⟨?_, dipb _ _ (pySign_abs _)⟩
    have := atanDiv_abs (pySign (bulbNormal t (u / t.a) (v / t.b) (w / t.c)).1 * (bulbNormal t (u / t.a) (v / t.b) (w / t.c)).2.1)
      |(bulbNormal t (u / t.a) (v / t.b) (w / t.c)).1|
    rw [abs_mul, abs_div, abs_neg, abs_of_pos hp, abs_of_pos (by norm_num : (0 : ℝ) < 180), div_mul_eq_mul_div, div_le_iff₀ hp]
    linarith
  · norm_num

theorem limitDip_abs {d m : ℝ} (hm : 0 ≤ m) : |limitDip d m| ≤ m := by
  unfold limitDip
  split_ifs with h1 h2
  · rw [abs_of_nonneg hm]
  · rw [abs_neg, abs_of_nonneg hm]
  · exact abs_le.2 ⟨not_lt.1 h2, not_lt.1 h1⟩

theorem limitDip_of_le {d m : ℝ} (h : |d| ≤ m) : limitDip d m = d := by
  have := abs_le.1 h
  unfold limitDip
  rw [if_neg (by linarith), if_neg (by linarith)]

/-- The angles of a hit in a bulb structure. -/
theorem bulb_hit {t : Trough} (hk : t.kind = 2 ∨ t.kind = 3) {g : Grid} {x y z : ℝ} {f : ℤ} {az dp : ℝ}
    (h : t.test g x y z = .hit f az dp) :
    (az = 0 ∧ dp = 0) ∨
      (az = (bulbAngles t (t.normalized (t.dist g x y).1 (t.dist g x y).2 (z - t.z)).1
          (t.normalized (t.dist g x y).1 (t.dist g x y).2 (z - t.z)).2.1
          (t.normalized (t.dist g x y).1 (t.dist g x y).2 (z - t.z)).2.2).1 ∧
       dp = limitDip (bulbAngles t (t.normalized (t.dist g x y).1 (t.dist g x y).2 (z - t.z)).1
          (t.normalized (t.dist g x y).1 (t.dist g x y).2 (z - t.z)).2.1
          (t.normalized (t.dist g x y).1 (t.dist g x y).2 (z - t.z)).2.2).2 t.dip) := by
  have hne : t.test g x y z ≠ .miss := by rw [h]; simp
  rw [Trough.test_inside hne] at h
  split_ifs at h
  · cases h; exact Or.inl ⟨rfl, rfl⟩
  · right
    unfold Trough.inner at h
    dsimp only at h
    rw [if_neg (by omega), if_neg (by omega), if_pos hk] at h
    split_ifs at h
    · cases h; exact ⟨rfl, rfl⟩
    · unfold tableHit at h
      split_ifs at h
      split at h
      · cases h; exact ⟨rfl, rfl⟩
      · cases h

/-! ### C23 -/

/-- **C23, bounds.** In a bulb structure with non-negative maximum dip every assigned dip is at most the maximum dip in magnitude and every assigned
azimuth is between -90 and 90 degrees. -/
theorem C23_bounds {t : Trough} (hk : t.kind = 2 ∨ t.kind = 3) (hd : 0 ≤ t.dip) {g : Grid} {x y z : ℝ} {f : ℤ} {az dp : ℝ}
    (h : t.test g x y z = .hit f az dp) : |dp| ≤ t.dip ∧ |az| ≤ 90 := by
  rcases bulb_hit hk h with ⟨rfl, rfl⟩ | ⟨rfl, rfl⟩
  · simp [hd]
  · exact ⟨limitDip_abs hd, (bulbAngles_bounds _ _ _ _).1⟩

/-- **C23, axis.** At the centre and on the vertical axis through the centre both angles are 0. -/
theorem C23_axis {t : Trough} (hk : t.kind = 2 ∨ t.kind = 3) (hd : 0 ≤ t.dip) {g : Grid} (hg : g.periodic = false) {z : ℝ}
    {f : ℤ} {az dp : ℝ} (h : t.test g t.x t.y z = .hit f az dp) : az = 0 ∧ dp = 0 := by
  have hdist : t.dist g t.x t.y = (0, 0) := by unfold Trough.dist; rw [hg]; simp
  have hang : ∀ w, bulbAngles t 0 0 w = (0, 0) := by
    intro w
    unfold bulbAngles bulbNormal
    simp
  rcases bulb_hit hk h with h | ⟨h1, h2⟩
  · exact h
  · rw [hdist] at h1 h2
    unfold Trough.normalized at h1 h2
    simp only [zero_mul, neg_zero, add_zero, zero_div, hang] at h1 h2
    refine ⟨h1, ?_⟩
    rw [h2]
    exact limitDip_of_le (by simpa using hd)

/-- **C23, normal direction (partial).** For a bulb trough that is not turned, with no limit on the dip and no lag, at a point strictly below the top plane:
off the plane through the centre normal to the x-axis the azimuth and the *negated* dip describe the normal of the concentric ellipsoid
through the point; on that plane azimuth and dip describe it. Missing for the full property: the assigned dip has the wrong sign in the first
case (`C23_dip_sign_refuted`) and in turned troughs the normal vector is turned the wrong way (`C23_rotation_refuted`). -/
theorem C23_normal_partial {p : TroughParams} {d : TroughDraw} {x y z a b c : ℝ} {t : Trough}
    (ht : Trough.new p d x y z a b c 0 = .ok t) (hk : t.kind = 2) (ha : 0 < a) (hb : 0 < b) (hc : 0 < c) (hdip : 90 ≤ t.dip)
    (hlag : p.lagHeight = 0) {g : Grid} (hg : g.periodic = false) {x' y' z' : ℝ} (hz : z' < z) {f : ℤ} {az dp : ℝ}
    (h : t.test g x' y' z' = .hit f az dp) :
    (x' ≠ x → ∃ k : ℝ, k < 0 ∧ beddingNormal (az * π / 180) (-dp * π / 180) = k • ellipsoidGrad x y z a b c 0 x' y' z') ∧
    (x' = x → y' ≠ y → ∃ k : ℝ, k < 0 ∧ beddingNormal (az * π / 180) (dp * π / 180) = k • ellipsoidGrad x y z a b c 0 x' y' z') := by
  have hB := (Trough.new_made ht).base
  have hs : t.sinalpha = 0 := by rw [hB.hsin]; simp
  have hco : t.cosalpha = 1 := by rw [hB.hcos]; simp
  have hsk : t.sinalpha ^ 2 + t.cosalpha ^ 2 = 1 := by rw [hs, hco]; norm_num
  have hne : t.test g x' y' z' ≠ .miss := by rw [h]; simp
  have hdist : t.dist g x' y' = (x' - x, y' - y) := by unfold Trough.dist; rw [hg, hB.hx, hB.hy]; simp
  have hrange := (C19_range ht ha hb hc g x' y' z' hne).1
  rw [hB.hzmin] at hrange
  rw [Trough.test_inside hne, if_neg (by rw [hB.hz, hB.hc, hB.hlag, hlag]; linarith)] at h
  unfold Trough.inner at h
  dsimp only at h
  rw [if_neg (by omega), if_neg (by omega), if_pos (Or.inl hk), if_pos hk,
    limitDip_of_le ((bulbAngles_bounds _ _ _ _).2.trans hdip), hdist] at h
  unfold Trough.normalized at h
  dsimp only at h
  rw [hs, hco, hB.ha, hB.hb, hB.hc, hB.hz] at h
  simp only [mul_one, mul_zero, add_zero, zero_add] at h
  -- the three scaled components
  obtain ⟨A, hA⟩ : ∃ A, A = (x' - x) / a / a := ⟨_, rfl⟩
  obtain ⟨B, hBB⟩ : ∃ B, B = (y' - y) / b / b := ⟨_, rfl⟩
  obtain ⟨C, hC⟩ : ∃ C, C = (z' - z) / c / c := ⟨_, rfl⟩
  have hC0 : C < 0 := by
    rw [hC, div_div]; exact div_neg_of_neg_of_pos (by linarith) (by positivity)
  have hgrad : ellipsoidGrad x y z a b c 0 x' y' z' = ![2 * A, 2 * B, 2 * C] := by
    unfold ellipsoidGrad
    simp [hA, hBB, hC]
  have hL : 0 < √(A ^ 2 + B ^ 2 + C ^ 2) := Real.sqrt_pos.2 (by nlinarith [sq_nonneg A, sq_nonneg B, sq_pos_of_neg hC0])
  obtain ⟨L, hLe⟩ : ∃ L, L = √(A ^ 2 + B ^ 2 + C ^ 2) := ⟨_, rfl⟩
  have hn : bulbNormal t A B C = (A / L, B / L, C / L) := by
    unfold bulbNormal; rw [hs, hco, ← hLe]; simp
  have hunit := bulbNormal_unit hsk (aaa := A) (bbb := B) (ccc := C) hL.ne'
  rw [hn] at hunit
  dsimp only at hunit
  rw [← hLe] at hL
  have hnz : C / L < 0 := div_neg_of_neg_of_pos hC0 hL
  have hang : ∀ (hxy : (A / L) ^ 2 + (B / L) ^ 2 ≠ 0), bulbAngles t ((x' - x) / a) ((y' - y) / b) ((z' - z) / c) =
      (-atanDiv (pySign (A / L) * (B / L)) |A / L| / π * 180,
        -arccos |C / L| * pySign (A / L * (C / L)) / π * 180) := by
    intro hxy
    have hxy' : √((A / L) ^ 2 + (B / L) ^ 2) ≠ 0 := by
      rw [Real.sqrt_ne_zero (by positivity)]; exact hxy
    unfold bulbAngles
    dsimp only
    rw [hB.ha, hB.hb, hB.hc, ← hA, ← hBB, ← hC, if_pos (by rw [← hLe]; exact hL.ne'), hn]
    dsimp only
    rw [if_neg hxy', if_neg hnz.ne]
  have hsq : ∀ u v : ℝ, u ≠ 0 → u ^ 2 + v ^ 2 ≠ 0 := fun u v hu => by
    have := lt_of_le_of_ne (sq_nonneg u) (Ne.symm (pow_ne_zero 2 hu)); nlinarith [sq_nonneg v]
  refine ⟨fun hx => ?_, fun hx hy => ?_⟩
  · have hA0 : A ≠ 0 := by
      rw [hA]; exact div_ne_zero (div_ne_zero (sub_ne_zero.2 hx) ha.ne') ha.ne'
    have hAL : A / L ≠ 0 := div_ne_zero hA0 hL.ne'
    have hxy := hsq _ (B / L) hAL
    rw [hang hxy] at h
    cases h
    have hbed := bedding_of_angles hunit hxy (σ := -pySign (A / L * (C / L))) (by rw [abs_neg, pySign_abs])
    refine ⟨-1 / (2 * L), div_neg_of_neg_of_pos (by norm_num) (by positivity), ?_⟩
    rw [hgrad]
    have e : -(-arccos |C / L| * pySign (A / L * (C / L)) / π * 180) * π / 180 =
        -arccos |C / L| * -pySign (A / L * (C / L)) / π * 180 * π / 180 := by ring
    rw [e, hbed, abs_of_neg hnz]
    have key : (|A / L| * -pySign (A / L * (C / L)) = A / L) ∧ (pySign (A / L) * (B / L) * -pySign (A / L * (C / L)) = B / L) := by
      rcases lt_or_gt_of_ne hAL with h0 | h0
      · have h1 : 0 < A / L * (C / L) := mul_pos_of_neg_of_neg h0 hnz
        rcases pySign_cases (A / L) with ⟨h2, _⟩ | ⟨_, h2⟩
        · linarith
        rcases pySign_cases (A / L * (C / L)) with ⟨_, h3⟩ | ⟨h3, _⟩
        · rw [h2, h3, abs_of_neg h0]; constructor <;> ring
        · linarith
      · have h1 : A / L * (C / L) < 0 := mul_neg_of_pos_of_neg h0 hnz
        rcases pySign_cases (A / L) with ⟨_, h2⟩ | ⟨h2, _⟩
        · rcases pySign_cases (A / L * (C / L)) with ⟨h3, _⟩ | ⟨_, h3⟩
          · linarith
          · rw [h2, h3, abs_of_pos h0]; constructor <;> ring
        · linarith
    rw [key.1, key.2]
    simp only [Matrix.smul_cons, smul_eq_mul, Matrix.smul_empty]
    congr 1
    · field_simp
    · congr 1
      · field_simp
      · congr 1
        field_simp
  · have hA0 : A / L = 0 := by rw [hA, hx]; simp
    have hB0 : B / L ≠ 0 := by
      rw [hBB]; exact div_ne_zero (div_ne_zero (div_ne_zero (sub_ne_zero.2 hy) hb.ne') hb.ne') hL.ne'
    have hxy : (A / L) ^ 2 + (B / L) ^ 2 ≠ 0 := by
      rw [hA0]; simpa using hB0
    rw [hang hxy] at h
    cases h
    have hbed := bedding_of_angles hunit hxy (σ := pySign (A / L * (C / L))) (pySign_abs _)
    refine ⟨-1 / (2 * L), div_neg_of_neg_of_pos (by norm_num) (by positivity), ?_⟩
    rw [hbed, hgrad, hA0, abs_of_neg hnz]
    have hA' : A = 0 := by rw [hA, hx]; simp
    have hs0 : pySign 0 = 1 := by simp [pySign]
    simp only [zero_mul, hs0, hA']
    simp only [Matrix.smul_cons, smul_eq_mul, Matrix.smul_empty]
    congr 1
    · simp
    · congr 1
      · field_simp
      · congr 1
        field_simp

/-- A bulb trough with half-axes 2, 1, 2 used in the examples. -/
noncomputable def exBP : TroughParams := { exTP with struct := "bulb", lagHeight := 0 }

/-- Its draws: maximum dip 90 degrees. -/
noncomputable def exBD : TroughDraw := { exTD with dip := 90 }

theorem exB_new (alpha a b c : ℝ) : ∃ t, Trough.new exBP exBD 0 0 0 a b c alpha = .ok t ∧ t.kind = 2 ∧ t.dip = 90 :=
  ⟨_, rfl, rfl, rfl⟩

/-- Points of a bulb trough without lag get the angles of `bulbAngles`. -/
theorem exB_hit {alpha a b c : ℝ} {t : Trough} (ht : Trough.new exBP exBD 0 0 0 a b c alpha = .ok t) (hk : t.kind = 2)
    (hd : t.dip = 90) (ha : 0 < a) (hb : 0 < b) (hc : 0 < c) {x y z : ℝ} (hz : z ≤ 0)
    (hin : InEllipsoid 0 0 0 a b c (alpha * π / 180) x y z) :
    t.test (exTG false) x y z = .hit t.facies
      (bulbAngles t (t.normalized x y z).1 (t.normalized x y z).2.1 (t.normalized x y z).2.2).1
      (bulbAngles t (t.normalized x y z).1 (t.normalized x y z).2.1 (t.normalized x y z).2.2).2 := by
  have hB := (Trough.new_made ht).base
  have hne := (C19_membership ht ha hb hc (exTG false) rfl x y z).2 ⟨hz, hin⟩
  have hr := (C19_range ht ha hb hc _ _ _ _ hne).1
  rw [hB.hzmin] at hr
  have hdist : t.dist (exTG false) x y = (x, y) := by
    unfold Trough.dist; rw [hB.hx, hB.hy]; simp [exTG]
  rw [Trough.test_inside hne, if_neg (by rw [hB.hz, hB.hc, hB.hlag]; simp only [exBP]; linarith), hdist, hB.hz, sub_zero]
  unfold Trough.inner
  dsimp only
  rw [if_neg (by omega), if_neg (by omega), if_pos (Or.inl hk), if_pos hk,
    limitDip_of_le ((bulbAngles_bounds _ _ _ _).2.trans hd.ge)]

/-- The point (1, 0, -1) of a ball of radius 2: the hypotheses of the partial theorem hold. -/
theorem exB_ball : ∃ t, Trough.new exBP exBD 0 0 0 2 2 2 0 = .ok t ∧ t.kind = 2 ∧ 90 ≤ t.dip ∧
    ∃ f az dp, t.test (exTG false) 1 0 (-1) = .hit f az dp := by
  obtain ⟨t, ht, hk, hd⟩ := exB_new 0 2 2 2
  refine ⟨t, ht, hk, hd.ge, _, _, _, exB_hit ht hk hd (by norm_num) (by norm_num) (by norm_num) (by norm_num) ?_⟩
  exact ⟨1 / 2, 0, -1 / 2, by norm_num, by norm_num, by norm_num, by norm_num⟩

/-- **C23 refuted: sign of the dip.** In a trough that is not turned (a ball of radius 2), at the point (1, 0, -1), the assigned azimuth and dip do not
describe the normal of the concentric ellipsoid: the bedding normal is not parallel to the gradient. -/
theorem C23_dip_sign_refuted : ∃ t f az dp, Trough.new exBP exBD 0 0 0 2 2 2 0 = .ok t ∧
    t.test (exTG false) 1 0 (-1) = .hit f az dp ∧
    ¬ ∃ k : ℝ, beddingNormal (az * π / 180) (dp * π / 180) = k • ellipsoidGrad 0 0 0 2 2 2 0 1 0 (-1) := by
  obtain ⟨t, ht, hk, hd, f, az, dp, h⟩ := exB_ball
  refine ⟨t, f, az, dp, ht, h, ?_⟩
  rintro ⟨k', hk'⟩
  obtain ⟨k, hk0, hkk⟩ := (C23_normal_partial ht hk (by norm_num) (by norm_num) (by norm_num) hd rfl (g := exTG false) rfl
    (by norm_num) h).1 (by norm_num)
  have hg : ellipsoidGrad 0 0 0 2 2 2 0 1 0 (-1) = ![1 / 2, 0, -1 / 2] := by
    unfold ellipsoidGrad; norm_num
  rw [hg] at hk' hkk
  have a0 := congrFun hk' 0
  have a2 := congrFun hk' 2
  have b0 := congrFun hkk 0
  have b2 := congrFun hkk 2
  have e : -dp * π / 180 = -(dp * π / 180) := by ring
  rw [e] at b0 b2
  simp only [beddingNormal, cos_neg, sin_neg, Matrix.cons_val_zero, Matrix.cons_val, Pi.smul_apply, smul_eq_mul] at a0 a2 b0 b2
  linarith

/-- **C23 refuted: turned troughs.** In a trough with half-axes 2, 1, 2 turned by 45 degrees, at the point (1/2, 1/2, -1), the assigned angles do not
describe the normal of the concentric ellipsoid, with either sign of the dip. -/
theorem C23_rotation_refuted : ∃ t f az dp, Trough.new exBP exBD 0 0 0 2 1 2 45 = .ok t ∧
    t.test (exTG false) (1 / 2) (1 / 2) (-1) = .hit f az dp ∧
    ∀ s : ℝ, s = 1 ∨ s = -1 → ¬ ∃ k : ℝ, beddingNormal (az * π / 180) (s * dp * π / 180) =
      k • ellipsoidGrad 0 0 0 2 1 2 (45 * π / 180) (1 / 2) (1 / 2) (-1) := by
  obtain ⟨t, ht, hk, hd⟩ := exB_new 45 2 1 2
  have hB := (Trough.new_made ht).base
  have hang : (45 * π / 180 : ℝ) = π / 4 := by ring
  have h2 : (√2 : ℝ) ^ 2 = 2 := Real.sq_sqrt (by norm_num)
  have h2p : (0 : ℝ) < √2 := Real.sqrt_pos.2 (by norm_num)
  have hin : InEllipsoid 0 0 0 2 1 2 (45 * π / 180) (1 / 2) (1 / 2) (-1) := by
    rw [inEllipsoid_iff (by norm_num) (by norm_num) (by norm_num), hang]
    unfold ellipsoidForm
    rw [cos_pi_div_four, sin_pi_div_four]
    nlinarith
  have h := exB_hit ht hk hd (by norm_num) (by norm_num) (by norm_num) (by norm_num) hin
  have hs : t.sinalpha = √2 / 2 := by rw [hB.hsin, hang, sin_pi_div_four]
  have hc : t.cosalpha = √2 / 2 := by rw [hB.hcos, hang, cos_pi_div_four]
  have hsk : t.sinalpha ^ 2 + t.cosalpha ^ 2 = 1 := by rw [hB.hsin, hB.hcos]; exact sin_sq_add_cos_sq _
  have hnorm : t.normalized (1 / 2) (1 / 2) (-1) = (√2 / 4, 0, -1 / 2) := by
    unfold Trough.normalized
    rw [hs, hc, hB.ha, hB.hb, hB.hc]
    ext <;> dsimp only <;> ring
  rw [hnorm] at h
  obtain ⟨L, hL⟩ : ∃ L, L = √((√2 / 8 : ℝ) ^ 2 + 0 ^ 2 + (-1 / 4) ^ 2) := ⟨_, rfl⟩
  have hLp : 0 < L := by rw [hL]; exact Real.sqrt_pos.2 (by positivity)
  have hn : bulbNormal t (√2 / 8) 0 (-1 / 4) = (1 / 8 / L, -(1 / 8 / L), -1 / 4 / L) := by
    unfold bulbNormal
    rw [hs, hc, ← hL]
    ext <;> dsimp only
    · rw [show √2 / 8 * (√2 / 2) + 0 * (√2 / 2) = √2 ^ 2 / 16 by ring, h2]; norm_num
    · rw [show -(√2 / 8) * (√2 / 2) + 0 * (√2 / 2) = -(√2 ^ 2 / 16) by ring, h2]; ring
  have hunit := bulbNormal_unit hsk (aaa := √2 / 8) (bbb := 0) (ccc := -1 / 4) (by rw [← hL]; exact hLp.ne')
  rw [hn] at hunit
  dsimp only at hunit
  have hq : 0 < 1 / 8 / L := by positivity
  have hz : -1 / 4 / L < 0 := div_neg_of_neg_of_pos (by norm_num) hLp
  have hxy : (1 / 8 / L) ^ 2 + (-(1 / 8 / L)) ^ 2 ≠ 0 := by positivity
  have hb : bulbAngles t (√2 / 4) 0 (-1 / 2) =
      (-atanDiv (pySign (1 / 8 / L) * -(1 / 8 / L)) |1 / 8 / L| / π * 180,
        -arccos |-1 / 4 / L| * pySign (1 / 8 / L * (-1 / 4 / L)) / π * 180) := by
    unfold bulbAngles
    dsimp only
    rw [hB.ha, hB.hb, hB.hc, show √2 / 4 / 2 = √2 / 8 by ring, show (0 : ℝ) / 1 = 0 by norm_num,
      show (-1 / 2 : ℝ) / 2 = -1 / 4 by norm_num, if_pos (by rw [← hL]; exact hLp.ne'), hn]
    dsimp only
    rw [if_neg ((Real.sqrt_ne_zero (by positivity)).2 hxy), if_neg hz.ne]
  rw [hb] at h
  refine ⟨t, _, _, _, ht, h, ?_⟩
  have hg0 : ellipsoidGrad 0 0 0 2 1 2 (45 * π / 180) (1 / 2) (1 / 2) (-1) 0 = 1 / 4 := by
    rw [hang]
    simp only [ellipsoidGrad, cos_pi_div_four, sin_pi_div_four, Matrix.cons_val_zero]
    nlinarith
  have hg1 : ellipsoidGrad 0 0 0 2 1 2 (45 * π / 180) (1 / 2) (1 / 2) (-1) 1 = 1 / 4 := by
    rw [hang]
    simp only [ellipsoidGrad, cos_pi_div_four, sin_pi_div_four, Matrix.cons_val_one, Matrix.cons_val_zero]
    nlinarith
  intro s hs' ⟨k, hk'⟩
  have e : s * (-arccos |-1 / 4 / L| * pySign (1 / 8 / L * (-1 / 4 / L)) / π * 180) * π / 180 =
      -arccos |-1 / 4 / L| * (s * pySign (1 / 8 / L * (-1 / 4 / L))) / π * 180 * π / 180 := by ring
  have hσ : |s * pySign (1 / 8 / L * (-1 / 4 / L))| = 1 := by
    rw [abs_mul, pySign_abs]
    rcases hs' with rfl | rfl <;> simp
  rw [e, bedding_of_angles hunit hxy hσ] at hk'
  have a0 := congrFun hk' 0
  have a1 := congrFun hk' 1
  have hp : pySign (1 / 8 / L) = 1 := by
    rcases pySign_cases (1 / 8 / L) with ⟨_, h⟩ | ⟨h, _⟩
    · exact h
    · linarith
  simp only [Pi.smul_apply, smul_eq_mul, hg0, hg1, hp, Matrix.cons_val_one, Matrix.cons_val_zero, abs_of_pos hq] at a0 a1
  have hσ0 : s * pySign (1 / 8 / L * (-1 / 4 / L)) ≠ 0 := by
    intro h0; rw [h0] at hσ; simp at hσ
  have : (1 / 8 / L) * (s * pySign (1 / 8 / L * (-1 / 4 / L))) = 0 := by linarith
  rcases mul_eq_zero.1 this with h | h
  · linarith
  · exact hσ0 h

/-- Bounds and axis theorems apply to the same trough (maximum dip 90, bulb structure); on its axis it gives angle 0. -/
example : ∃ t f, Trough.new exBP exBD 0 0 0 2 2 2 0 = .ok t ∧ (t.kind = 2 ∨ t.kind = 3) ∧ 0 ≤ t.dip ∧
    t.test (exTG false) t.x t.y (-1) = .hit f 0 0 := by
  obtain ⟨t, ht, hk, hd⟩ := exB_new 0 2 2 2
  have hB := (Trough.new_made ht).base
  have h := exB_hit ht hk hd (by norm_num) (by norm_num) (by norm_num) (x := 0) (y := 0) (z := -1) (by norm_num)
    ⟨0, 0, -1 / 2, by norm_num, by norm_num, by norm_num, by norm_num⟩
  have h' := h
  rw [show t.test (exTG false) 0 0 (-1) = t.test (exTG false) t.x t.y (-1) by rw [hB.hx, hB.hy]] at h'
  obtain ⟨e1, e2⟩ := C23_axis (Or.inl hk) (by rw [hd]; norm_num) rfl h'
  rw [e1, e2] at h'
  exact ⟨t, t.facies, ht, Or.inl hk, by rw [hd]; norm_num, h'⟩

end Hyvr
