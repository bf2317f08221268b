import Verif.Model.Channel
import Verif.Spec.Channel
import Verif.Lemmas.Strata
import Verif.Lemmas.Facies
import Verif.Lemmas.Trough
import Verif.Lemmas.Arange

/-!
Lemmas on channels: distance to the centreline, the skip-cache, layers, levels.
-/

namespace Hyvr

open Py Real Spec

/-! ### Distance to the centreline -/

/-- Squared horizontal distance to a centreline point. -/
def CPoint.sq (q : CPoint) (x y : ℝ) : ℝ := (x - q.x) ^ 2 + (y - q.y) ^ 2

theorem CPoint.sq_nonneg (q : CPoint) (x y : ℝ) : 0 ≤ q.sq x y := by unfold CPoint.sq; positivity

/-- Running minimum with a strict comparison. -/
theorem foldl_min_spec {β : Type} (f : β → ℝ) (l : List β) (m : ℝ) :
    let r := l.foldl (fun m q => if f q < m then f q else m) m
    r ≤ m ∧ (∀ q ∈ l, r ≤ f q) ∧ (r = m ∨ ∃ q ∈ l, r = f q) := by
  induction l generalizing m with
  | nil => simp
  | cons q l ih =>
    simp only [List.foldl_cons]
    obtain ⟨h1, h2, h3⟩ := ih (if f q < m then f q else m)
    refine ⟨h1.trans ?_, ?_, ?_⟩
    · split_ifs with h
      · exact h.le
      · exact le_refl _
    · intro q' hq'
      rcases List.mem_cons.1 hq' with rfl | hq'
      · refine h1.trans ?_
        split_ifs with h
        · exact le_refl _
        · exact not_lt.1 h
      · exact h2 q' hq'
    · rcases h3 with h3 | ⟨q', hq', h3⟩
      · rw [h3]
        split_ifs with h
        · exact Or.inr ⟨q, List.mem_cons_self, rfl⟩
        · exact Or.inl rfl
      · exact Or.inr ⟨q', List.mem_cons_of_mem _ hq', h3⟩

theorem scanStep_dist (x y : ℝ) (l : List CPoint) (s : Scan) :
    (l.foldl (scanStep x y) s).dist = l.foldl (fun m q => if √(q.sq x y) < m then √(q.sq x y) else m) s.dist := by
  induction l generalizing s with
  | nil => rfl
  | cons q l ih => rw [List.foldl_cons, ih, List.foldl_cons]; rfl

/-- The value of an empty loop. -/
noncomputable def Channel.cap (c : Channel) : ℝ := if c.dipsets then 10 ^ 100 else 10 ^ 50

/-- `xy_dist` is the smallest distance to a centreline point (capped). -/
theorem xyDist_spec (c : Channel) (x y : ℝ) :
    c.xyDist x y ≤ c.cap ∧ (∀ q ∈ c.pts, c.xyDist x y ≤ √(q.sq x y)) ∧
      (c.xyDist x y = c.cap ∨ ∃ q ∈ c.pts, c.xyDist x y = √(q.sq x y)) := by
  unfold Channel.xyDist Channel.cap
  cases c.dipsets with
  | true =>
    simp only [if_true]
    unfold scanDip
    rw [scanStep_dist]
    exact foldl_min_spec (fun q : CPoint => √(q.sq x y)) c.pts (10 ^ 100)
  | false =>
    simp only [Bool.false_eq_true, if_false]
    unfold scanDist
    obtain ⟨h1, h2, h3⟩ := foldl_min_spec (fun q : CPoint => q.sq x y) c.pts (10 ^ 100)
    have hr : √((10 : ℝ) ^ 100) = 10 ^ 50 := by
      rw [show (10 : ℝ) ^ 100 = (10 ^ 50) ^ 2 by norm_num]
      exact Real.sqrt_sq (by positivity)
    refine ⟨?_, fun q hq => Real.sqrt_le_sqrt (h2 q hq), ?_⟩
    · rw [← hr]; exact Real.sqrt_le_sqrt h1
    · rcases h3 with h3 | ⟨q, hq, h3⟩
      · left; rw [← hr]; exact congrArg Real.sqrt h3
      · right; exact ⟨q, hq, congrArg Real.sqrt h3⟩

theorem cap_ge (c : Channel) : (10 : ℝ) ^ 50 ≤ c.cap := by
  unfold Channel.cap
  split_ifs
  · exact pow_le_pow_right₀ (by norm_num) (by norm_num)
  · exact le_refl _

theorem cap_pos (c : Channel) : 0 < c.cap := lt_of_lt_of_le (by positivity) (cap_ge c)

theorem xyDist_nonneg (c : Channel) (x y : ℝ) : 0 ≤ c.xyDist x y := by
  rcases (xyDist_spec c x y).2.2 with h | ⟨q, -, h⟩ <;> rw [h]
  · exact (cap_pos c).le
  · exact Real.sqrt_nonneg _

/-- Triangle inequality in the plane. -/
theorem sqrt_triangle (a b u v : ℝ) : √((a + u) ^ 2 + (b + v) ^ 2) ≤ √(a ^ 2 + b ^ 2) + √(u ^ 2 + v ^ 2) := by
  apply Real.sqrt_le_iff.2
  refine ⟨by positivity, ?_⟩
  have h1 := Real.sq_sqrt (show 0 ≤ a ^ 2 + b ^ 2 by positivity)
  have h2 := Real.sq_sqrt (show 0 ≤ u ^ 2 + v ^ 2 by positivity)
  have h3 : a * u + b * v ≤ √(a ^ 2 + b ^ 2) * √(u ^ 2 + v ^ 2) := by
    rw [← Real.sqrt_mul (by positivity)]
    apply Real.le_sqrt_of_sq_le
    nlinarith [sq_nonneg (a * v - b * u)]
  nlinarith

/-- `xy_dist` is 1-Lipschitz. -/
theorem xyDist_lipschitz (c : Channel) (x y x' y' : ℝ) :
    c.xyDist x y ≤ c.xyDist x' y' + √((x - x') ^ 2 + (y - y') ^ 2) := by
  obtain ⟨h1, h2, -⟩ := xyDist_spec c x y
  rcases (xyDist_spec c x' y').2.2 with h | ⟨q, hq, h⟩
  · rw [h]
    have := Real.sqrt_nonneg ((x - x') ^ 2 + (y - y') ^ 2)
    linarith
  · rw [h]
    refine (h2 q hq).trans ?_
    have := sqrt_triangle (x' - q.x) (y' - q.y) (x - x') (y - y')
    unfold CPoint.sq
    have e1 : x' - q.x + (x - x') = x - q.x := by ring
    have e2 : y' - q.y + (y - y') = y - q.y := by ring
    rw [e1, e2] at this
    exact this

/-! ### The cache -/

theorem mark_iff (k : Cache) (i j a b : ℕ) : (k.mark i j) a b = true ↔ k a b = true ∨ (a = i ∧ b = j) := by
  unfold Cache.mark
  split_ifs with h <;> simp [h]

/-- Fold of a monotone marking step over a range. -/
theorem foldl_mark_iff (n : ℕ) (step : Cache → ℕ → Cache) (P : ℕ → ℕ → ℕ → Prop)
    (hstep : ∀ k i a b, step k i a b = true ↔ k a b = true ∨ P i a b) (k : Cache) (a b : ℕ) :
    ((List.range n).foldl step k) a b = true ↔ k a b = true ∨ ∃ i < n, P i a b := by
  induction n with
  | zero => simp
  | succ n ih =>
    rw [List.range_succ, List.foldl_append, List.foldl_cons, List.foldl_nil, hstep, ih]
    constructor
    · rintro ((h | ⟨i, hi, h⟩) | h)
      · exact Or.inl h
      · exact Or.inr ⟨i, by omega, h⟩
      · exact Or.inr ⟨n, by omega, h⟩
    · rintro (h | ⟨i, hi, h⟩)
      · exact Or.inl (Or.inl h)
      · rcases Nat.lt_succ_iff_lt_or_eq.1 hi with hi | rfl
        · exact Or.inl (Or.inr ⟨i, hi, h⟩)
        · exact Or.inr h

/-- Which cells get marked. -/
theorem around_iff (k : Cache) (xi yi nx ny : ℕ) (dx radius : ℝ) (a b : ℕ) :
    (k.around xi yi nx ny dx radius) a b = true ↔
      k a b = true ∨ ∃ i < (pyInt (radius / dx)).toNat, (i ≤ xi ∧ xi + i < nx) ∧
        ∃ j < (pyInt (√(radius ^ 2 - (i * dx) ^ 2))).toNat, (j ≤ yi ∧ yi + j < ny) ∧
          (a = xi + i ∨ a = xi - i) ∧ (b = yi + j ∨ b = yi - j) := by
  unfold Cache.around
  apply foldl_mark_iff (P := fun i a b => (i ≤ xi ∧ xi + i < nx) ∧
        ∃ j < (pyInt (√(radius ^ 2 - (i * dx) ^ 2))).toNat, (j ≤ yi ∧ yi + j < ny) ∧
          (a = xi + i ∨ a = xi - i) ∧ (b = yi + j ∨ b = yi - j))
  intro k i a b
  by_cases hi : i ≤ xi ∧ xi + i < nx
  · rw [if_pos hi]
    simp only [hi, true_and, and_self]
    rw [foldl_mark_iff (P := fun j a b => (j ≤ yi ∧ yi + j < ny) ∧ (a = xi + i ∨ a = xi - i) ∧ (b = yi + j ∨ b = yi - j))]
    intro k j a b
    by_cases hj : j ≤ yi ∧ yi + j < ny
    · rw [if_pos hj]
      simp only [hj, true_and, and_self, mark_iff]
      tauto
    · rw [if_neg hj]
      simp only [hj, false_and, or_false]
  · rw [if_neg hi]
    simp only [hi, false_and, or_false]

theorem lt_pyInt_toNat {x : ℝ} {i : ℕ} (h : i < (pyInt x).toNat) : (i : ℝ) + 1 ≤ x := by
  unfold pyInt at h
  split_ifs at h with h0
  · have h1 : (i : ℤ) + 1 ≤ ⌊x⌋ := by omega
    have h2 := Int.le_floor.1 h1
    push_cast at h2
    exact h2
  · have : ⌈x⌉ ≤ 0 := by
      have : ⌈x⌉ ≤ ⌈(0 : ℝ)⌉ := Int.ceil_le_ceil (not_le.1 h0).le
      simpa using this
    omega

theorem lt_pyInt_toNat_iff {x : ℝ} {i : ℕ} : i < (pyInt x).toNat ↔ (i : ℝ) + 1 ≤ x := by
  constructor
  · exact lt_pyInt_toNat
  · intro h
    unfold pyInt
    rw [if_pos (by have : (0 : ℝ) ≤ i := Nat.cast_nonneg i; linarith)]
    have : (i : ℤ) + 1 ≤ ⌊x⌋ := Int.le_floor.2 (by push_cast; exact h)
    omega

/-- Marked cells are closer than `radius` if `dy ≤ 1`. -/
theorem marked_close {dx dy radius : ℝ} {i j : ℕ} (hdy0 : 0 ≤ dy) (hdy : dy ≤ 1)
    (hj : j < (pyInt (√(radius ^ 2 - (i * dx) ^ 2))).toNat) (hr : 0 ≤ radius) :
    √((i * dx) ^ 2 + (j * dy) ^ 2) ≤ radius := by
  apply Real.sqrt_le_iff.2
  refine ⟨hr, ?_⟩
  have hj' := lt_pyInt_toNat hj
  have hj0 : (0 : ℝ) ≤ j := Nat.cast_nonneg j
  have h1 : (j : ℝ) * dy ≤ √(radius ^ 2 - (i * dx) ^ 2) := by nlinarith
  have h2 : 0 ≤ (j : ℝ) * dy := by positivity
  have h3 : ((j : ℝ) * dy) ^ 2 ≤ √(radius ^ 2 - (i * dx) ^ 2) ^ 2 := pow_le_pow_left₀ h2 h1 2
  have h4 : 0 < radius ^ 2 - (i * dx) ^ 2 := by
    by_contra hn
    rw [Real.sqrt_eq_zero_of_nonpos (not_lt.1 hn)] at hj'
    linarith
  rw [Real.sq_sqrt h4.le] at h3
  linarith

/-! ### The constructor -/

/-- What the constructor always sets. -/
theorem Channel.new_basic {p : ChannelParams} {d : ChannelDraw} {g : Grid} {pts : List CPoint} {z w dep : ℝ} {c : Channel}
    (h : Channel.new p d g pts z w dep = .ok c) :
    w ≠ 0 ∧ c.pts = pts ∧ c.a = 4 * dep / w ^ 2 ∧ c.width = w ∧ c.depth = dep ∧ c.minDxDy = min g.dx g.dy ∧ c.ztop = z ∧
      c.zmax = z ∧ c.zmin = z - dep ∧ c.lagHeight = p.lagHeight ∧ c.lagFacies = p.lagFacies ∧ c.dip = d.dip ∧ c.azim = 0 := by
  unfold Channel.new at h
  split_ifs at h with hw hs
  · simp only [bind_ok, pure_ok] at h
    obtain ⟨t, -, rfl⟩ := h
    simp [hw]
  · simp only [bind_ok, pure_ok] at h
    obtain ⟨t, -, rfl⟩ := h
    simp [hw]

/-- The structure. -/
theorem Channel.new_massive {p : ChannelParams} {d : ChannelDraw} {g : Grid} {pts : List CPoint} {z w dep : ℝ} {c : Channel}
    (h : Channel.new p d g pts z w dep = .ok c) (hs : p.struct ≠ "dip") :
    c.dipsets = false ∧ c.facies ∈ p.facies := by
  unfold Channel.new at h
  split_ifs at h with hw
  simp only [bind_ok, pure_ok] at h
  obtain ⟨t, ht, rfl⟩ := h
  exact ⟨rfl, (choice_ok ht)⟩

theorem Channel.new_dip {p : ChannelParams} {d : ChannelDraw} {g : Grid} {pts : List CPoint} {z w dep : ℝ} {c : Channel}
    (h : Channel.new p d g pts z w dep = .ok c) (hs : p.struct = "dip") :
    c.dipsets = true ∧ c.layerDist = p.dipsetDist ∧ c.sinDip = sin (d.dip * π / 180) ∧ c.cosDip = cos (d.dip * π / 180) ∧
      c.shift = d.shift ∧
      altFacies (pyInt ((⌈curveLength pts * sin (d.dip * π / 180) / p.dipsetDist + d.shift⌉ : ℝ) +
        (⌈dep / p.dipsetDist⌉ : ℝ)) + 10) p.facies p.altFacies d.layers = .ok c.table := by
  unfold Channel.new at h
  split_ifs at h with hw
  simp only [bind_ok, pure_ok] at h
  obtain ⟨t, ht, rfl⟩ := h
  exact ⟨rfl, rfl, rfl, rfl, rfl, (layerTable_ok ht).2⟩

/-! ### Membership -/

/-- The parabola test as a bound on the distance. -/
theorem parabola_iff {w dep D dz : ℝ} (hw : 0 < w) (hd : 0 < dep) :
    dz ≥ 4 * dep / w ^ 2 * D ^ 2 - dep ↔ D ^ 2 ≤ w ^ 2 / 4 + w ^ 2 * dz / (4 * dep) := by
  have e : w ^ 2 / 4 + w ^ 2 * dz / (4 * dep) - D ^ 2 = w ^ 2 / (4 * dep) * (dz - (4 * dep / w ^ 2 * D ^ 2 - dep)) := by
    field_simp
    ring
  have hp : 0 < w ^ 2 / (4 * dep) := by positivity
  constructor
  · intro h
    have := mul_nonneg hp.le (sub_nonneg.2 h)
    linarith
  · intro h
    by_contra hn
    have := mul_neg_of_pos_of_neg hp (sub_neg.2 (not_le.1 hn))
    linarith

theorem sq_le_of_dist {w dep D dz : ℝ} (hw : 0 < w) (hd : 0 < dep) (hdz : dz ≤ 0) (hD : 0 ≤ D)
    (h : dz ≥ 4 * dep / w ^ 2 * D ^ 2 - dep) : D ≤ w / 2 := by
  rw [parabola_iff hw hd] at h
  have h1 : w ^ 2 * dz / (4 * dep) ≤ 0 :=
    div_nonpos_of_nonpos_of_nonneg (mul_nonpos_of_nonneg_of_nonpos (by positivity) hdz) (by positivity)
  have h2 : D ^ 2 ≤ (w / 2) ^ 2 := by linarith [show (w / 2) ^ 2 = w ^ 2 / 4 by ring]
  exact le_of_sq_le_sq h2 (by positivity)

/-! ### Position along the centreline -/

theorem px_of_lt {pts : List CPoint} {i : ℕ} (h : i < pts.length) : px pts i = pts[i].x := by
  unfold px; rw [List.getElem?_eq_getElem h]; rfl

theorem py_of_lt {pts : List CPoint} {i : ℕ} (h : i < pts.length) : py pts i = pts[i].y := by
  unfold py; rw [List.getElem?_eq_getElem h]; rfl

theorem arc_nonneg (pts : List CPoint) (k : ℕ) : 0 ≤ arc pts k := Finset.sum_nonneg fun _ _ => Real.sqrt_nonneg _

theorem arc_mono (pts : List CPoint) {j k : ℕ} (h : j ≤ k) : arc pts j ≤ arc pts k :=
  Finset.sum_le_sum_of_subset_of_nonneg (Finset.range_mono h) fun _ _ _ => Real.sqrt_nonneg _

theorem curveLength_eq (pts : List CPoint) : curveLength pts = arc pts (pts.length - 1) := by
  induction pts with
  | nil => rfl
  | cons p l ih =>
    cases l with
    | nil => rfl
    | cons q l =>
      rw [curveLength, ih]
      have e1 : (p :: q :: l).length - 1 = (q :: l).length - 1 + 1 := by simp
      unfold arc
      rw [e1, Finset.sum_range_succ']
      rw [add_comm]
      congr 1

/-- State of the loop after `n` points. -/
theorem scan_spec (pts : List CPoint) (x y : ℝ) (n : ℕ) (hn : n ≤ pts.length) :
    let s := scanDip (pts.take n) x y
    s.prev = (if n = 0 then none else pts[n - 1]?) ∧ s.alongTmp = arc pts (n - 1) ∧
      ((s.dist = 10 ^ 100 ∧ ∀ i < n, (10 : ℝ) ^ 100 ≤ distTo pts x y i) ∨
        ∃ k < n, s.dist = distTo pts x y k ∧ s.along = arc pts k ∧ (∀ i < n, distTo pts x y k ≤ distTo pts x y i) ∧
          (∀ i < k, distTo pts x y k < distTo pts x y i)  ∧ distTo pts x y k < 10 ^ 100) := by
  induction n with
  | zero => simp [scanDip, arc]
  | succ n ih =>
    have hlt : n < pts.length := hn
    obtain ⟨h1, h2, h3⟩ := ih hlt.le
    have e : scanDip (pts.take (n + 1)) x y = scanStep x y (scanDip (pts.take n) x y) pts[n] := by
      unfold scanDip
      rw [List.take_succ_eq_append_getElem hlt, List.foldl_append, List.foldl_cons, List.foldl_nil]
    simp only [e]
    obtain ⟨s, hs⟩ : ∃ s, s = scanDip (pts.take n) x y := ⟨_, rfl⟩
    rw [← hs] at h1 h2 h3 ⊢
    have hd : √((x - pts[n].x) ^ 2 + (y - pts[n].y) ^ 2) = distTo pts x y n := by
      unfold distTo; rw [px_of_lt hlt, py_of_lt hlt]
    have htmp : (scanStep x y s pts[n]).alongTmp = arc pts n := by
      unfold scanStep
      simp only
      rw [h1]
      cases n with
      | zero => simpa using h2
      | succ n =>
        have hlt' : n < pts.length := by omega
        simp only [Nat.add_one_ne_zero, if_false, Nat.add_sub_cancel, List.getElem?_eq_getElem hlt']
        rw [h2]
        unfold arc
        rw [Nat.add_sub_cancel, Finset.sum_range_succ, px_of_lt hlt', px_of_lt hlt, py_of_lt hlt', py_of_lt hlt]
    refine ⟨?_, ?_, ?_⟩
    · rw [if_neg (Nat.succ_ne_zero n), Nat.add_sub_cancel, List.getElem?_eq_getElem hlt]; rfl
    · exact htmp
    · have hdist : (scanStep x y s pts[n]).dist = if distTo pts x y n < s.dist then distTo pts x y n else s.dist := by
        unfold scanStep; simp only [hd]
      have halong : (scanStep x y s pts[n]).along = if distTo pts x y n < s.dist then arc pts n else s.along := by
        rw [← htmp]; unfold scanStep; simp only [hd]
      rw [hdist, halong]
      by_cases hc : distTo pts x y n < s.dist
      · simp only [if_pos hc]
        right
        refine ⟨n, by omega, rfl, rfl, ?_, ?_, ?_⟩
        · intro i hi
          rcases Nat.lt_succ_iff_lt_or_eq.1 hi with hi | rfl
          · rcases h3 with ⟨h3, h4⟩ | ⟨k, hk, h3, -, h4, -⟩
            · rw [h3] at hc; exact (hc.trans_le (h4 i hi)).le
            · rw [h3] at hc; exact (hc.trans_le (h4 i hi)).le
          · exact le_refl _
        · intro i hi
          rcases h3 with ⟨h3, h4⟩ | ⟨k, hk, h3, -, h4, -⟩
          · rw [h3] at hc; exact hc.trans_le (h4 i hi)
          · rw [h3] at hc; exact hc.trans_le (h4 i hi)
        · rcases h3 with ⟨h3, h4⟩ | ⟨k, hk, h3, -, h4, -, h5⟩
          · rw [h3] at hc; exact hc
          · rw [h3] at hc; exact hc.trans h5
      · simp only [if_neg hc]
        rcases h3 with ⟨h3, h4⟩ | ⟨k, hk, h3, h5, h4, h6, h7⟩
        · left
          refine ⟨h3, ?_⟩
          intro i hi
          rcases Nat.lt_succ_iff_lt_or_eq.1 hi with hi | rfl
          · exact h4 i hi
          · rw [h3] at hc; exact not_lt.1 hc
        · right
          refine ⟨k, by omega, h3, h5, ?_, h6, h7⟩
          intro i hi
          rcases Nat.lt_succ_iff_lt_or_eq.1 hi with hi | rfl
          · exact h4 i hi
          · rw [h3] at hc; exact not_lt.1 hc

end Hyvr
