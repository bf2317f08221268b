import Verif.Model.Trough
import Verif.Lemmas.Facies
import Mathlib.Tactic.Linarith
import Mathlib.Tactic.FieldSimp
import Mathlib.Tactic.Ring
import Mathlib.Tactic.Positivity

/-!
Lemmas on troughs: geometry of the rotated ellipsoid, table indices, the constructor.
-/

namespace Hyvr

open Py Spec Real

/-! ### Geometry -/

/-- Length of the distance vector of a point whose normalised squared distance is at most `w`. -/
theorem dist_sq_le {a b c M s k dx dy dz w : ℝ} (ha : 0 < a) (hb : 0 < b) (hc : 0 < c) (hMa : a ≤ M) (hMb : b ≤ M)
    (hMc : c ≤ M) (hsk : s ^ 2 + k ^ 2 = 1)
    (h : ((dx * k + dy * s) / a) ^ 2 + ((-dx * s + dy * k) / b) ^ 2 + (dz / c) ^ 2 ≤ w) :
    dx ^ 2 + dy ^ 2 + dz ^ 2 ≤ M ^ 2 * w := by
  obtain ⟨P, hP⟩ : ∃ P, P = (dx * k + dy * s) / a := ⟨_, rfl⟩
  obtain ⟨Q, hQ⟩ : ∃ Q, Q = (-dx * s + dy * k) / b := ⟨_, rfl⟩
  obtain ⟨R, hR⟩ : ∃ R, R = dz / c := ⟨_, rfl⟩
  rw [← hP, ← hQ, ← hR] at h
  have hP' : dx * k + dy * s = a * P := by rw [hP]; field_simp
  have hQ' : -dx * s + dy * k = b * Q := by rw [hQ]; field_simp
  have hR' : dz = c * R := by rw [hR]; field_simp
  have hrot : dx ^ 2 + dy ^ 2 = (a * P) ^ 2 + (b * Q) ^ 2 := by
    rw [← hP', ← hQ']
    linear_combination (-(dx ^ 2 + dy ^ 2)) * hsk
  have e1 : (a * P) ^ 2 ≤ M ^ 2 * P ^ 2 := by
    rw [mul_pow]; exact mul_le_mul_of_nonneg_right (pow_le_pow_left₀ ha.le hMa 2) (sq_nonneg P)
  have e2 : (b * Q) ^ 2 ≤ M ^ 2 * Q ^ 2 := by
    rw [mul_pow]; exact mul_le_mul_of_nonneg_right (pow_le_pow_left₀ hb.le hMb 2) (sq_nonneg Q)
  have e3 : (c * R) ^ 2 ≤ M ^ 2 * R ^ 2 := by
    rw [mul_pow]; exact mul_le_mul_of_nonneg_right (pow_le_pow_left₀ hc.le hMc 2) (sq_nonneg R)
  have e4 : M ^ 2 * (P ^ 2 + Q ^ 2 + R ^ 2) ≤ M ^ 2 * w := mul_le_mul_of_nonneg_left h (sq_nonneg M)
  rw [hrot, hR']
  linarith [e1, e2, e3, e4, mul_add (M ^ 2) (P ^ 2 + Q ^ 2) (R ^ 2), mul_add (M ^ 2) (P ^ 2) (Q ^ 2)]

/-- The bounding box of the rough check contains the ellipsoid. -/
theorem in_box {a b c s k dx dy dz : ℝ} (ha : 0 < a) (hb : 0 < b) (hsk : s ^ 2 + k ^ 2 = 1)
    (h : ((dx * k + dy * s) / a) ^ 2 + ((-dx * s + dy * k) / b) ^ 2 + (dz / c) ^ 2 ≤ 1) :
    |dx| ≤ max a b ∧ |dy| ≤ max a b := by
  have h' : ((dx * k + dy * s) / a) ^ 2 + ((-dx * s + dy * k) / b) ^ 2 + (0 / a) ^ 2 ≤ 1 := by
    have := sq_nonneg (dz / c)
    simp only [zero_div]
    linarith
  have h0 := dist_sq_le ha hb ha (le_max_left a b) (le_max_right a b) (le_max_left a b) hsk h'
  have hM : 0 ≤ max a b := ha.le.trans (le_max_left a b)
  constructor
  · exact abs_le_of_sq_le_sq (by nlinarith [sq_nonneg dy]) hM
  · exact abs_le_of_sq_le_sq (by nlinarith [sq_nonneg dx]) hM

/-- The normalised squared distance describes the rotated ellipsoid. -/
theorem inEllipsoid_iff {X Y Z a b c ang x y z : ℝ} (ha : 0 < a) (hb : 0 < b) (hc : 0 < c) :
    InEllipsoid X Y Z a b c ang x y z ↔ ellipsoidForm X Y Z a b c ang x y z ≤ 1 := by
  have hsk := sin_sq_add_cos_sq ang
  unfold InEllipsoid ellipsoidForm
  constructor
  · rintro ⟨u, v, w, h, rfl, rfl, rfl⟩
    have e1 : (X + (a * u * cos ang - b * v * sin ang) - X) * cos ang + (Y + (a * u * sin ang + b * v * cos ang) - Y) * sin ang
        = a * u := by linear_combination (a * u) * hsk
    have e2 : -(X + (a * u * cos ang - b * v * sin ang) - X) * sin ang +
        (Y + (a * u * sin ang + b * v * cos ang) - Y) * cos ang = b * v := by linear_combination (b * v) * hsk
    rw [e1, e2, add_sub_cancel_left, mul_div_cancel_left₀ _ ha.ne', mul_div_cancel_left₀ _ hb.ne',
      mul_div_cancel_left₀ _ hc.ne']
    exact h
  · intro h
    refine ⟨_, _, _, h, ?_, ?_, ?_⟩
    · rw [mul_div_cancel₀ _ ha.ne', mul_div_cancel₀ _ hb.ne']
      linear_combination (-(x - X)) * hsk
    · rw [mul_div_cancel₀ _ ha.ne', mul_div_cancel₀ _ hb.ne']
      linear_combination (-(y - Y)) * hsk
    · rw [mul_div_cancel₀ _ hc.ne']
      ring

/-! ### Table indices -/

/-- `int(t/ld) + num//2` stays inside a table of `num = ceil((2M + shift)/ld) + 2` entries if `-M ≤ t - shift ≤ M`. -/
theorem dip_index_bounds {M shift ld t : ℝ} (hM : 0 ≤ M) (hld : 0 < ld) (hs0 : 0 ≤ shift) (hs1 : shift ≤ ld)
    (h1 : -M + shift ≤ t) (h2 : t ≤ M + shift) :
    let num : ℤ := ⌈(2 * M + shift) / ld⌉ + 2
    0 ≤ pyInt (t / ld) + num / 2 ∧ pyInt (t / ld) + num / 2 < num := by
  intro num
  obtain ⟨u, hu⟩ : ∃ u, u = M / ld := ⟨_, rfl⟩
  obtain ⟨σ, hσ⟩ : ∃ σ, σ = shift / ld := ⟨_, rfl⟩
  obtain ⟨τ, hτ⟩ : ∃ τ, τ = t / ld := ⟨_, rfl⟩
  have hu0 : 0 ≤ u := by rw [hu]; positivity
  have hσ0 : 0 ≤ σ := by rw [hσ]; positivity
  have hσ1 : σ ≤ 1 := by rw [hσ, div_le_one hld]; exact hs1
  have ht1 : -u + σ ≤ τ := by
    rw [hu, hσ, hτ, ← neg_div, ← add_div]
    exact div_le_div_of_nonneg_right h1 hld.le
  have ht2 : τ ≤ u + σ := by
    rw [hu, hσ, hτ, ← add_div]
    exact div_le_div_of_nonneg_right h2 hld.le
  have hnum : num = ⌈2 * u + σ⌉ + 2 := by
    have : (2 * M + shift) / ld = 2 * u + σ := by rw [hu, hσ]; ring
    simp only [num, this]
  have hceil : 2 * u + σ ≤ (⌈2 * u + σ⌉ : ℝ) := Int.le_ceil _
  obtain ⟨n, hn⟩ : ∃ n, n = ⌈2 * u + σ⌉ := ⟨_, rfl⟩
  rw [← hn] at hceil hnum
  rw [← hτ]
  unfold pyInt
  split_ifs with h0
  · have hf0 : 0 ≤ ⌊τ⌋ := Int.floor_nonneg.2 h0
    have hf : (⌊τ⌋ : ℝ) ≤ τ := Int.floor_le τ
    have hn0 : (0 : ℝ) ≤ n := by linarith
    have hn0' : 0 ≤ n := by exact_mod_cast hn0
    have h3 : 2 * ⌊τ⌋ ≤ n + 1 := by
      have : (2 * ⌊τ⌋ : ℝ) ≤ n + 1 := by linarith
      exact_mod_cast this
    omega
  · have hτn : τ < 0 := not_le.1 h0
    have hc0 : ⌈τ⌉ ≤ 0 := by
      have : ⌈τ⌉ ≤ ⌈(0 : ℝ)⌉ := Int.ceil_le_ceil hτn.le
      simpa using this
    have hc : τ ≤ (⌈τ⌉ : ℝ) := Int.le_ceil τ
    have h3 : -n ≤ 2 * ⌈τ⌉ := by
      have : (-n : ℝ) ≤ 2 * ⌈τ⌉ := by linarith
      exact_mod_cast this
    have hn0 : (0 : ℝ) ≤ n := by linarith
    have hn0' : 0 ≤ n := by exact_mod_cast hn0
    omega

theorem pyInt_intCast (n : ℤ) : pyInt (n : ℝ) = n := by
  unfold pyInt
  split_ifs <;> simp

/-- `ceil((r + shift)*c/ld)` stays inside a table of `ceil((1 + shift)*c/ld) + 1` entries for `0 ≤ r ≤ 1`. -/
theorem bulb_index_bounds {r shift c ld : ℝ} (hr0 : 0 ≤ r) (hr1 : r ≤ 1) (hs : 0 ≤ shift) (hc : 0 < c) (hld : 0 < ld) :
    0 ≤ ⌈(r + shift) * c / ld⌉ ∧ ⌈(r + shift) * c / ld⌉ < ⌈(1 + shift) * c / ld⌉ + 1 := by
  constructor
  · have h0 : (0 : ℝ) ≤ (r + shift) * c / ld := by positivity
    have : (0 : ℝ) ≤ ⌈(r + shift) * c / ld⌉ := h0.trans (Int.le_ceil _)
    exact_mod_cast this
  · have : (r + shift) * c / ld ≤ (1 + shift) * c / ld :=
      div_le_div_of_nonneg_right (mul_le_mul_of_nonneg_right (by linarith) hc.le) hld.le
    have := Int.ceil_le_ceil this
    omega

theorem tableHit_ne_outside {α : Type} {table : List ℤ} {n : ℤ} {az dp : α} (h0 : 0 ≤ n) (h1 : n < table.length) :
    (∀ m, tableHit table n az dp ≠ .outside m) ∧ ∀ e, tableHit table n az dp ≠ .error e := by
  unfold tableHit
  rw [if_neg (by omega), List.getElem?_eq_getElem (by omega)]
  simp

/-- The scalar product with a unit vector is at most the length. -/
theorem dot_le {dx dy dz nx ny nz M : ℝ} (hn : nx ^ 2 + ny ^ 2 + nz ^ 2 = 1) (hM : 0 ≤ M)
    (hd : dx ^ 2 + dy ^ 2 + dz ^ 2 ≤ M ^ 2) : |dx * nx + dy * ny + dz * nz| ≤ M := by
  refine abs_le_of_sq_le_sq ?_ hM
  have : (dx * nx + dy * ny + dz * nz) ^ 2 ≤ (dx ^ 2 + dy ^ 2 + dz ^ 2) * (nx ^ 2 + ny ^ 2 + nz ^ 2) := by
    nlinarith [sq_nonneg (dx * ny - dy * nx), sq_nonneg (dx * nz - dz * nx), sq_nonneg (dy * nz - dz * ny)]
  rw [hn, mul_one] at this
  linarith

/-! ### The constructor -/

/-- What the constructor guarantees, by structure number. -/
inductive Made (p : TroughParams) (d : TroughDraw) (x y z a b c alpha : ℝ) : Trough → Prop
  | massive (f : ℤ) (hf : f ∈ p.facies) : Made p d x y z a b c alpha
      { Trough.base p x y z a b c alpha with kind := 0, facies := f, azim := d.azim + alpha, dip := d.dip }
  | dip (table : List ℤ) (h : altFacies (⌈(2 * max (max a b) c + d.shift) / p.dipsetDist⌉ + 2) p.facies p.altFacies d.layers = .ok table) :
      Made p d x y z a b c alpha
      { Trough.base p x y z a b c alpha with
        kind := 1, layerDist := p.dipsetDist, azim := d.azim + alpha, dip := d.dip
        nvx := sin (d.dip * π / 180) * cos ((d.azim + alpha) * π / 180)
        nvy := -sin (d.dip * π / 180) * sin ((d.azim + alpha) * π / 180)
        nvz := cos (d.dip * π / 180)
        shift := d.shift, numFacies := ⌈(2 * max (max a b) c + d.shift) / p.dipsetDist⌉ + 2, table }
  | bulb (f : ℤ) (hf : f ∈ p.facies) : Made p d x y z a b c alpha
      { Trough.base p x y z a b c alpha with kind := 2, facies := f, dip := d.dip }
  | bulbSets (table : List ℤ) (h : altFacies (⌈(1 + d.shift) * c / p.bulbsetDist⌉ + 1) p.facies p.altFacies d.layers = .ok table) :
      Made p d x y z a b c alpha
      { Trough.base p x y z a b c alpha with
        kind := 3, layerDist := p.bulbsetDist, shift := d.shift
        numFacies := ⌈(1 + d.shift) * c / p.bulbsetDist⌉ + 1, table, dip := d.dip }

theorem Trough.new_made {p : TroughParams} {d : TroughDraw} {x y z a b c alpha : ℝ} {t : Trough}
    (h : Trough.new p d x y z a b c alpha = .ok t) : Made p d x y z a b c alpha t := by
  unfold Trough.new at h
  simp only [bind_ok] at h
  obtain ⟨kind, -, h⟩ := h
  split_ifs at h with h0 h1 h2 h3
  · simp only [bind_ok, pure_ok] at h
    obtain ⟨f, hf, rfl⟩ := h
    rw [h0]
    exact .massive f (choice_ok hf)
  · simp only [bind_ok, pure_ok, pyInt_intCast] at h
    obtain ⟨table, ht, rfl⟩ := h
    rw [h1]
    exact .dip table (layerTable_ok ht).2
  · simp only [bind_ok, pure_ok] at h
    obtain ⟨f, hf, rfl⟩ := h
    rw [h2]
    exact .bulb f (choice_ok hf)
  · simp only [bind_ok, pure_ok, pyInt_intCast] at h
    obtain ⟨table, ht, rfl⟩ := h
    rw [h3]
    exact .bulbSets table (layerTable_ok ht).2

/-- The attributes that do not depend on the structure. -/
structure Trough.Base (p : TroughParams) (x y z a b c alpha : ℝ) (t : Trough) : Prop where
  hx : t.x = x
  hy : t.y = y
  hz : t.z = z
  ha : t.a = a
  hb : t.b = b
  hc : t.c = c
  hmax : t.maxAB = max a b
  hzmin : t.zmin = z - c
  hzmax : t.zmax = z
  hsin : t.sinalpha = sin (alpha * π / 180)
  hcos : t.cosalpha = cos (alpha * π / 180)
  hlag : t.lag = p.lagHeight
  hlagf : t.lagFacies = p.lagFacies

theorem Made.base {p : TroughParams} {d : TroughDraw} {x y z a b c alpha : ℝ} {t : Trough}
    (h : Made p d x y z a b c alpha t) : t.Base p x y z a b c alpha := by
  cases h <;> exact ⟨rfl, rfl, rfl, rfl, rfl, rfl, rfl, rfl, rfl, rfl, rfl, rfl, rfl⟩

/-! ### The test -/

theorem Trough.inner_ne_miss (t : Trough) (dx dy dz : ℝ) : t.inner dx dy dz ≠ .miss := by
  have hth : ∀ (l : List ℤ) (n : ℤ) (u v : ℝ), tableHit l n u v ≠ .miss := by
    intro l n u v
    unfold tableHit
    split_ifs
    · simp
    · split <;> simp
  unfold Trough.inner
  dsimp only
  split_ifs <;> first | exact hth _ _ _ _ | simp

/-- The acceptance condition in terms of the wrapped distances. -/
theorem Trough.test_miss_iff {t : Trough} {g : Grid} {x y z : ℝ} (ha : 0 < t.a) (hb : 0 < t.b) (hm : t.maxAB = max t.a t.b)
    (hsk : t.sinalpha ^ 2 + t.cosalpha ^ 2 = 1) :
    t.test g x y z ≠ .miss ↔
      z ≤ t.z ∧ l2 (t.normalized (t.dist g x y).1 (t.dist g x y).2 (z - t.z)) ≤ 1 := by
  constructor
  · intro h
    unfold Trough.test at h
    dsimp only at h
    split_ifs at h with h1 h2 <;> first | (exact absurd rfl h) | skip
    all_goals
      push Not at h1
      exact ⟨by linarith [h1.2.2.2.2], not_lt.1 h2⟩
  · rintro ⟨h1, h2⟩
    have hbox := in_box ha hb hsk (c := t.c) (dz := z - t.z) h2
    rw [← hm] at hbox
    unfold Trough.test
    dsimp only
    rw [if_neg, if_neg (not_lt.2 h2)]
    · split_ifs
      · simp
      · exact t.inner_ne_miss _ _ _
    · have b1 := abs_le.1 hbox.1
      have b2 := abs_le.1 hbox.2
      rintro (h | h | h | h | h) <;> linarith

/-- The answer for an accepted point. -/
theorem Trough.test_inside {t : Trough} {g : Grid} {x y z : ℝ} (h : t.test g x y z ≠ .miss) :
    t.test g x y z = if z < t.z - t.c + t.lag then .hit t.lagFacies 0 0
      else t.inner (t.dist g x y).1 (t.dist g x y).2 (z - t.z) := by
  unfold Trough.test at h ⊢
  dsimp only at h ⊢
  split_ifs at h ⊢ <;> first | (exact absurd rfl h) | rfl

/-- Acceptance does not depend on anything but the shape. -/
theorem Trough.test_miss_lag {t : Trough} {g : Grid} {x y z lag : ℝ} {f : ℤ} (h : t.test g x y z ≠ .miss) :
    Trough.test { t with lag := lag, lagFacies := f } g x y z ≠ .miss := by
  unfold Trough.test at h ⊢
  dsimp only at h ⊢
  rw [show Trough.dist { t with lag := lag, lagFacies := f } g = t.dist g from rfl]
  rw [show Trough.normalized { t with lag := lag, lagFacies := f } = t.normalized from rfl]
  split_ifs at h ⊢ <;> first | (exact absurd rfl h) | exact Trough.inner_ne_miss _ _ _ _ | simp

end Hyvr
