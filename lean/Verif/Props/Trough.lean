import Verif.Lemmas.Trough
import Verif.Spec.KTensor
import Verif.Props.Grid
import Mathlib.Analysis.Calculus.Deriv.Pow
import Mathlib.Tactic.NormNum

/-!
C19 - C23, C34: shape and filling of troughs, layer sequences.
-/

set_option linter.unusedSectionVars false

namespace Hyvr

open Py Spec Real

/-! ### C34 -/

/-- **C34.** A generated layer sequence has the requested length, starts with a facies of the element, and every layer may follow the
one below it in the list according to the element's table; if the table is closed all layers are facies of the element. -/
theorem C34_sequence {num : ℤ} {facies : List ℤ} {alt : Option (List (List ℤ))} {draws : ℕ → ℕ} {l : List ℤ}
    (h : altFacies num facies alt draws = .ok l) :
    (l.length : ℤ) = num ∧ (∃ f ∈ facies, l[0]? = some f) ∧
    (∀ (i : ℕ) (f f' : ℤ), l[i]? = some f → l[i + 1]? = some f' → Follows facies alt f f') ∧
    ((∀ table, alt = some table → ∀ row ∈ table, ∀ f ∈ row, f ∈ facies) → ∀ f ∈ l, f ∈ facies) := by
  obtain ⟨h1, h2, ⟨f0, hf0, hh⟩, h4⟩ := altFacies_ok h
  have hchain : ∀ (i : ℕ) (f f' : ℤ), l[i]? = some f → l[i + 1]? = some f' → Follows facies alt f f' := by
    intro i f f' hf hf'
    obtain ⟨hi, rfl⟩ := List.getElem?_eq_some_iff.1 hf
    obtain ⟨hi', rfl⟩ := List.getElem?_eq_some_iff.1 hf'
    exact List.isChain_iff_getElem.1 h4 i hi'
  have h0 : l[0]? = some f0 := by rw [← List.head?_eq_getElem?]; exact hh
  refine ⟨h1, ⟨f0, hf0, h0⟩, hchain, ?_⟩
  intro hclosed f hf
  obtain ⟨i, hi, rfl⟩ := List.mem_iff_getElem.1 hf
  cases i with
  | zero =>
    have := List.getElem?_eq_getElem hi
    rw [h0] at this
    simp only [Option.some.injEq] at this
    rw [← this]; exact hf0
  | succ i =>
    have hfo := hchain i _ _ (List.getElem?_eq_getElem (Nat.lt_of_succ_lt hi)) (List.getElem?_eq_getElem hi)
    unfold Follows at hfo
    split at hfo
    · exact hfo
    · rename_i table
      obtain ⟨k, row, -, -, hr, hm⟩ := hfo
      exact hclosed table rfl row (List.mem_of_getElem? hr) _ hm

/-- **C34, errors.** Generation fails exactly if no layers are requested, the element has no facies, or the sequence drawn so far ends in a
facies that has no alternatives (it is not in the element's list, its row is missing or its row is empty). -/
theorem C34_errors {num : ℤ} {facies : List ℤ} {alt : Option (List (List ℤ))} {draws : ℕ → ℕ} :
    (∃ e, altFacies num facies alt draws = .error e) ↔
      num < 1 ∨ facies = [] ∨ ∃ m : ℤ, m < num ∧ ∃ l g, altFacies m facies alt draws = .ok l ∧ l.getLast? = some g ∧
        ¬ ∃ f', Follows facies alt g f' := by
  constructor
  · rintro ⟨e, h⟩
    by_cases hn : num < 1
    · exact Or.inl hn
    · unfold altFacies at h
      simp only [if_neg (show ¬ num < 0 by omega), if_neg (show ¬ num = 0 by omega)] at h
      simp only [bind_error, bind_ok, pure_error] at h
      rcases h with h | ⟨f, hf, h | ⟨_, _, h⟩⟩
      · exact Or.inr (Or.inl (choice_error.1 h).1)
      · obtain ⟨m, hm, l, g, h1, h2, h3⟩ := (altLoop_error _).1 ⟨e, h⟩
        refine Or.inr (Or.inr ⟨m + 1, by omega, f :: l, g, ?_, h2, h3⟩)
        unfold altFacies
        simp only [if_neg (show ¬ ((m : ℤ) + 1 < 0) by omega), if_neg (show ¬ ((m : ℤ) + 1 = 0) by omega)]
        simp only [bind_ok, pure_ok]
        exact ⟨f, hf, l, by simpa using h1, rfl⟩
      · cases h
  · rintro (h | h | ⟨m, hm, l, g, h1, h2, h3⟩)
    · by_cases h0 : num < 0
      · exact ⟨_, by unfold altFacies; rw [if_pos h0]⟩
      · have hz : num = 0 := by omega
        cases hc : choice facies (draws 0) with
        | error e =>
          exact ⟨e, by unfold altFacies; simp only [if_neg h0, if_pos hz]; simp only [bind_error]; exact Or.inl hc⟩
        | ok f =>
          exact ⟨.indexError, by
            unfold altFacies; simp only [if_neg h0, if_pos hz]; simp only [bind_error]; exact Or.inr ⟨f, hc, trivial⟩⟩
    · by_cases h0 : num < 0
      · exact ⟨_, by unfold altFacies; rw [if_pos h0]⟩
      · refine ⟨.valueError, ?_⟩
        unfold altFacies
        rw [if_neg h0]
        simp only [bind_error]
        exact Or.inl (choice_error.2 ⟨h, rfl⟩)
    · obtain ⟨hl, hpos, -, -⟩ := altFacies_ok h1
      unfold altFacies at h1 ⊢
      simp only [if_neg (show ¬ m < 0 by omega), if_neg (show ¬ m = 0 by omega)] at h1
      simp only [if_neg (show ¬ num < 0 by omega), if_neg (show ¬ num = 0 by omega)]
      simp only [bind_ok, pure_ok] at h1
      obtain ⟨f, hf, rest, hr, rfl⟩ := h1
      obtain ⟨e, he⟩ := (altLoop_error (facies := facies) (alt := alt) (draws := draws) (num.toNat - 1) (i := 1) (f := f)).2
        ⟨m.toNat - 1, by omega, rest, g, hr, h2, h3⟩
      exact ⟨e, by simp only [bind_error]; exact Or.inr ⟨f, hf, Or.inl he⟩⟩

/-- A table of three facies; four layers drawn. -/
example : altFacies 4 [5, 6, 7] (some [[6, 7], [5], [5, 6]]) (fun i => i) = .ok [5, 7, 5, 7] ∧
    (∀ table, some [[6, 7], [5], [5, 6]] = some table → ∀ row ∈ table, ∀ f ∈ row, f ∈ ([5, 6, 7] : List ℤ)) := by
  constructor
  · rfl
  · intro table h
    cases h
    decide

/-- A table with an entry that is no facies of the element: the third layer cannot be drawn. -/
example : altFacies 3 [5, 6] (some [[9], [5]]) (fun _ => 0) = .error .valueError := rfl

/-! ### C19 -/

theorem Trough.Base.spec {p : TroughParams} {x y z a b c alpha : ℝ} {t : Trough} (h : t.Base p x y z a b c alpha)
    (ha : 0 < a) (hb : 0 < b) (hc : 0 < c) (dx dy z' : ℝ) :
    l2 (t.normalized dx dy (z' - t.z)) ≤ 1 ↔ InEllipsoid x y z a b c (alpha * π / 180) (x + dx) (y + dy) z' := by
  rw [inEllipsoid_iff ha hb hc]
  unfold l2 Trough.normalized ellipsoidForm
  rw [h.ha, h.hb, h.hc, h.hsin, h.hcos, h.hz, add_sub_cancel_left, add_sub_cancel_left]

/-- The acceptance condition of a constructed trough on the wrapped distances. -/
theorem Trough.Base.accept {p : TroughParams} {x y z a b c alpha : ℝ} {t : Trough} (h : t.Base p x y z a b c alpha)
    (ha : 0 < a) (hb : 0 < b) (hc : 0 < c) (g : Grid) (x' y' z' : ℝ) :
    t.test g x' y' z' ≠ .miss ↔
      z' ≤ z ∧ InEllipsoid x y z a b c (alpha * π / 180) (x + (t.dist g x' y').1) (y + (t.dist g x' y').2) z' := by
  have hsk : t.sinalpha ^ 2 + t.cosalpha ^ 2 = 1 := by rw [h.hsin, h.hcos]; exact sin_sq_add_cos_sq _
  rw [Trough.test_miss_iff (by rw [h.ha]; exact ha) (by rw [h.hb]; exact hb) (by rw [h.hmax, h.ha, h.hb]) hsk,
    h.spec ha hb hc, h.hz]

/-- **C19.** In a non-periodic domain a point is accepted by a trough iff it is not above the top plane and lies in the ellipsoid with the
trough's half-axes turned by the paleoflow angle (degrees). In particular the rough box check rejects no inside point. -/
theorem C19_membership {p : TroughParams} {d : TroughDraw} {x y z a b c alpha : ℝ} {t : Trough}
    (ht : Trough.new p d x y z a b c alpha = .ok t) (ha : 0 < a) (hb : 0 < b) (hc : 0 < c) (g : Grid)
    (hg : g.periodic = false) (x' y' z' : ℝ) :
    t.test g x' y' z' ≠ .miss ↔ z' ≤ z ∧ InEllipsoid x y z a b c (alpha * π / 180) x' y' z' := by
  have h := (Trough.new_made ht).base
  rw [h.accept ha hb hc]
  unfold Trough.dist
  rw [hg, h.hx, h.hy]
  simp

/-- **C19, vertical range.** Every accepted point lies in the vertical range that the trough reports. -/
theorem C19_range {p : TroughParams} {d : TroughDraw} {x y z a b c alpha : ℝ} {t : Trough}
    (ht : Trough.new p d x y z a b c alpha = .ok t) (ha : 0 < a) (hb : 0 < b) (hc : 0 < c) (g : Grid) (x' y' z' : ℝ)
    (hin : t.test g x' y' z' ≠ .miss) : t.zmin ≤ z' ∧ z' ≤ t.zmax := by
  have h := (Trough.new_made ht).base
  obtain ⟨h1, u, v, w, hw, -, -, rfl⟩ := (h.accept ha hb hc g x' y' z').1 hin
  rw [h.hzmin, h.hzmax]
  refine ⟨?_, h1⟩
  have : -1 ≤ w := by nlinarith [sq_nonneg u, sq_nonneg v]
  nlinarith

/-- A massive trough of length 4, width 2, depth 1 used in the examples. -/
noncomputable def exTP : TroughParams :=
  { lagHeight := 1 / 4, lagFacies := 9, struct := "massive", facies := [5, 6], altFacies := none, dipsetDist := 1 / 2,
    bulbsetDist := 1 / 4, length := 4, width := 2, depth := 1, agg := 1, buffer := 0, migrate := false
    sizeZtrend := none, teXyz := none }

/-- Draws for the examples: no rotation. -/
noncomputable def exTD : TroughDraw :=
  { alpha := 0, kind := 0, facies := 0, azim := 10, dip := 20, shift := 1 / 8, layers := fun i => i }

/-- A grid for the examples. -/
noncomputable def exTG (periodic : Bool) : Grid :=
  { x0 := 0, y0 := 0, z0 := 0, dx := 1, dy := 1, dz := 1, lx := 10, ly := 10, lz := 10, periodic }

theorem exT_new (x y z alpha : ℝ) : ∃ t, Trough.new exTP exTD x y z 2 1 1 alpha = .ok t ∧ t.kind = 0 := ⟨_, rfl, rfl⟩

/-- The point (1, 0, -1/2) relative to the centre is inside the example trough turned by 0 degrees. -/
example : ∃ t, Trough.new exTP exTD 5 5 5 2 1 1 0 = .ok t ∧ t.test (exTG false) 6 5 (9 / 2) ≠ .miss := by
  obtain ⟨t, ht, -⟩ := exT_new 5 5 5 0
  refine ⟨t, ht, ?_⟩
  rw [C19_membership ht (by norm_num) (by norm_num) (by norm_num) _ rfl]
  refine ⟨by norm_num, 1 / 2, 0, -1 / 2, by norm_num, ?_, ?_, ?_⟩ <;> norm_num

/-! ### C20 -/

/-- **C20 (partial).** In a periodic domain a point is accepted iff it lies in the lower half of some copy of the ellipsoid shifted by integer
multiples of the domain lengths. Missing for the full property: it is only true if the trough is narrower than the
domain and its centre is at most one and a half domain lengths away from the point; see `C20_far_refuted`,
`C20_wide_refuted`. Centres that were drawn inside the domain satisfy the distance condition. -/
theorem C20_wrap_partial {p : TroughParams} {d : TroughDraw} {x y z a b c alpha : ℝ} {t : Trough}
    (ht : Trough.new p d x y z a b c alpha = .ok t) (ha : 0 < a) (hb : 0 < b) (hc : 0 < c) (g : Grid)
    (hg : g.periodic = true) (x' y' z' : ℝ) (hwx : max a b < g.lx / 2) (hwy : max a b < g.ly / 2)
    (hdx : |x' - x| ≤ 3 * g.lx / 2) (hdy : |y' - y| ≤ 3 * g.ly / 2) :
    t.test g x' y' z' ≠ .miss ↔
      z' ≤ z ∧ ∃ m n : ℤ, InEllipsoid (x + m * g.lx) (y + n * g.ly) z a b c (alpha * π / 180) x' y' z' := by
  have h := (Trough.new_made ht).base
  have hab : 0 < max a b := ha.trans_le (le_max_left a b)
  have wspec : ∀ d l : ℝ, 0 < l → |d| ≤ 3 * l / 2 → ∃ m : ℤ, wrap1 d l = d - m * l ∧ |wrap1 d l| ≤ l / 2 := by
    intro d l hl hd
    have := abs_le.1 hd
    unfold wrap1
    split_ifs with h1 h2
    · exact ⟨1, by push_cast; ring, abs_le.2 ⟨by linarith, by linarith⟩⟩
    · exact ⟨-1, by push_cast; ring, abs_le.2 ⟨by linarith, by linarith⟩⟩
    · exact ⟨0, by push_cast; ring, abs_le.2 ⟨by linarith, by linarith⟩⟩
  have wuniq : ∀ (d l : ℝ) (m m' : ℤ), 0 < l → |d - m * l| ≤ l / 2 → |d - m' * l| < l / 2 → m = m' := by
    intro d l m m' hl h1 h2
    have h1 := abs_le.1 h1
    have h2 := abs_lt.1 h2
    by_contra hne
    rcases lt_or_gt_of_ne hne with hlt | hlt
    · have : (m : ℝ) + 1 ≤ m' := by exact_mod_cast hlt
      nlinarith
    · have : (m' : ℝ) + 1 ≤ m := by exact_mod_cast hlt
      nlinarith
  have shift : ∀ (u v : ℝ) (X Y : ℝ), InEllipsoid (x + u) (y + v) z a b c (alpha * π / 180) X Y z' ↔
      InEllipsoid x y z a b c (alpha * π / 180) (X - u) (Y - v) z' := by
    intro u v X Y
    rw [inEllipsoid_iff ha hb hc, inEllipsoid_iff ha hb hc]
    unfold ellipsoidForm
    rw [show X - (x + u) = X - u - x by ring, show Y - (y + v) = Y - v - y by ring]
  have box : ∀ X Y, InEllipsoid x y z a b c (alpha * π / 180) X Y z' → |X - x| ≤ max a b ∧ |Y - y| ≤ max a b := by
    intro X Y hin
    rw [inEllipsoid_iff ha hb hc] at hin
    exact in_box ha hb (sin_sq_add_cos_sq _) hin
  have hlx : 0 < g.lx := by linarith
  have hly : 0 < g.ly := by linarith
  obtain ⟨m, hm1, hm2⟩ := wspec (x' - x) g.lx hlx hdx
  obtain ⟨n, hn1, hn2⟩ := wspec (y' - y) g.ly hly hdy
  have hdist : t.dist g x' y' = (x' - x - m * g.lx, y' - y - n * g.ly) := by
    unfold Trough.dist
    rw [hg, h.hx, h.hy, if_pos rfl, hm1, hn1]
  rw [h.accept ha hb hc, hdist]
  dsimp only
  rw [show x + (x' - x - m * g.lx) = x' - m * g.lx by ring, show y + (y' - y - n * g.ly) = y' - n * g.ly by ring]
  refine and_congr_right fun _ => ⟨fun hin => ⟨m, n, (shift _ _ _ _).2 hin⟩, ?_⟩
  rintro ⟨m', n', hin⟩
  rw [shift] at hin
  obtain ⟨b1, b2⟩ := box _ _ hin
  rw [hm1] at hm2
  rw [hn1] at hn2
  have em : m = m' := wuniq (x' - x) g.lx m m' hlx hm2 (by
    rw [show x' - x - m' * g.lx = x' - m' * g.lx - x by ring]; exact b1.trans_lt hwx)
  have en : n = n' := wuniq (y' - y) g.ly n n' hly hn2 (by
    rw [show y' - y - n' * g.ly = y' - n' * g.ly - y by ring]; exact b2.trans_lt hwy)
  rw [em, en]
  exact hin

/-- The example trough centred at (1/2, 5) in the periodic domain of length 10 contains a point at x = 19/2 (its copy is shifted by one
domain length), and all hypotheses hold. -/
example : ∃ t, Trough.new exTP exTD (1 / 2) 5 5 2 1 1 0 = .ok t ∧ t.test (exTG true) (19 / 2) 5 (9 / 2) ≠ .miss := by
  obtain ⟨t, ht, -⟩ := exT_new (1 / 2) 5 5 0
  refine ⟨t, ht, ?_⟩
  rw [C20_wrap_partial ht (by norm_num) (by norm_num) (by norm_num) _ rfl _ _ _ (by norm_num [exTG]) (by norm_num [exTG])
    (by norm_num [exTG, abs_le]) (by norm_num [exTG, abs_le])]
  refine ⟨by norm_num, 1, 0, -1 / 2, 0, -1 / 2, by norm_num, ?_, ?_, ?_⟩ <;> norm_num [exTG]

/-- **C20 refuted for far centres.** A trough that has migrated two domain lengths away is not wrapped back, although the point is the centre of
one of its copies. -/
theorem C20_far_refuted : ∃ t, Trough.new exTP exTD (-15) 5 5 2 1 1 0 = .ok t ∧
    t.test (exTG true) 5 5 5 = .miss ∧
    InEllipsoid (-15 + (2 : ℤ) * (exTG true).lx) (5 + (0 : ℤ) * (exTG true).ly) 5 2 1 1 (0 * π / 180) 5 5 5 := by
  obtain ⟨t, ht, -⟩ := exT_new (-15) 5 5 0
  have h := (Trough.new_made ht).base
  refine ⟨t, ht, ?_, 0, 0, 0, by norm_num, by norm_num [exTG], by norm_num [exTG], by norm_num⟩
  by_contra hne
  rw [← ne_eq, h.accept (by norm_num) (by norm_num) (by norm_num)] at hne
  obtain ⟨-, hin⟩ := hne
  rw [inEllipsoid_iff (by norm_num) (by norm_num) (by norm_num)] at hin
  have := (in_box (by norm_num) (by norm_num) (sin_sq_add_cos_sq _) hin).1
  have hd : t.dist (exTG true) 5 5 = (10, 0) := by
    unfold Trough.dist wrap1
    rw [h.hx, h.hy]
    norm_num [exTG]
  rw [hd] at this
  norm_num at this

/-- **C20 refuted for wide troughs.** A trough wider than the domain and turned by 45 degrees loses points of its own unshifted copy. Half-axes
9, 3, 1, domain lengths 10, point at distance (6, 4) from the centre. -/
theorem C20_wide_refuted : ∃ t, Trough.new exTP exTD 1 1 5 9 3 1 45 = .ok t ∧ t.test (exTG true) 7 5 5 = .miss ∧
    InEllipsoid (1 + (0 : ℤ) * (exTG true).lx) (1 + (0 : ℤ) * (exTG true).ly) 5 9 3 1 (45 * π / 180) 7 5 5 := by
  have hang : (45 * π / 180 : ℝ) = π / 4 := by ring
  have h2 : (√2 : ℝ) ^ 2 = 2 := Real.sq_sqrt (by norm_num)
  have ht : ∃ t, Trough.new exTP exTD 1 1 5 9 3 1 45 = .ok t := ⟨_, rfl⟩
  obtain ⟨t, ht⟩ := ht
  have h := (Trough.new_made ht).base
  refine ⟨t, ht, ?_, ?_⟩
  · by_contra hne
    rw [← ne_eq, h.accept (by norm_num) (by norm_num) (by norm_num)] at hne
    obtain ⟨-, hin⟩ := hne
    rw [inEllipsoid_iff (by norm_num) (by norm_num) (by norm_num)] at hin
    have hd : t.dist (exTG true) 7 5 = (-4, 4) := by
      unfold Trough.dist wrap1
      rw [h.hx, h.hy]
      norm_num [exTG]
    rw [hd] at hin
    unfold ellipsoidForm at hin
    rw [hang, cos_pi_div_four, sin_pi_div_four] at hin
    norm_num at hin
    have := (abs_le.1 hin).2
    nlinarith [Real.sqrt_nonneg 2]
  · rw [inEllipsoid_iff (by norm_num) (by norm_num) (by norm_num)]
    unfold ellipsoidForm
    rw [hang, cos_pi_div_four, sin_pi_div_four]
    norm_num [exTG]
    nlinarith

/-! ### C21, troughs -/

/-- **C21, troughs.** A point inside a trough gets the lag facies with zero angles if it is less than `lag_height` above the deepest point of the
trough; otherwise the lag has no effect at all (the answer is the same as for a trough without lag). -/
theorem C21_trough {p : TroughParams} {d : TroughDraw} {x y z a b c alpha : ℝ} {t : Trough}
    (ht : Trough.new p d x y z a b c alpha = .ok t) (g : Grid) (x' y' z' : ℝ) (hin : t.test g x' y' z' ≠ .miss) :
    (z' - (z - c) < p.lagHeight → t.test g x' y' z' = .hit p.lagFacies 0 0) ∧
    (p.lagHeight ≤ z' - (z - c) → 0 ≤ p.lagHeight → ∀ f,
      t.test g x' y' z' = Trough.test { t with lag := 0, lagFacies := f } g x' y' z') := by
  have h := (Trough.new_made ht).base
  rw [Trough.test_inside hin]
  constructor
  · intro hl
    rw [if_pos (by rw [h.hz, h.hc, h.hlag]; linarith), h.hlagf]
  · intro hl h0 f
    rw [Trough.test_inside (Trough.test_miss_lag hin), if_neg (by rw [h.hz, h.hc, h.hlag]; linarith),
      if_neg (by dsimp only; rw [h.hz, h.hc]; linarith)]
    rfl

/-- **C21, troughs, no lag.** With `lag_height = 0` the lag facies is never used: the answer is the same whatever the lag facies is. -/
theorem C21_trough_no_lag {p : TroughParams} {d : TroughDraw} {x y z a b c alpha : ℝ} {t : Trough}
    (ht : Trough.new p d x y z a b c alpha = .ok t) (ha : 0 < a) (hb : 0 < b) (hc : 0 < c) (hlag : p.lagHeight = 0)
    (g : Grid) (x' y' z' : ℝ) (f : ℤ) : t.test g x' y' z' = Trough.test { t with lagFacies := f } g x' y' z' := by
  have h := (Trough.new_made ht).base
  have h0 : t.lag = 0 := by rw [h.hlag, hlag]
  have e : ({ t with lagFacies := f } : Trough) = { t with lag := 0, lagFacies := f } := by rw [← h0]
  by_cases hin : t.test g x' y' z' = .miss
  · rw [hin]
    by_contra hne
    have := Trough.test_miss_lag (lag := t.lag) (f := t.lagFacies) (Ne.symm hne)
    exact this hin
  · have hr := (C19_range ht ha hb hc g x' y' z' hin).1
    rw [h.hzmin] at hr
    rw [e]
    exact (C21_trough ht g x' y' z' hin).2 (by rw [hlag]; linarith) (by rw [hlag]) f

/-- The example trough has lag height 1/4: the point 1/8 above its deepest point gets facies 9, the point at half depth gets facies 5. -/
example : ∃ t, Trough.new exTP exTD 5 5 5 2 1 1 0 = .ok t ∧ t.test (exTG false) 5 5 (4 + 1 / 8) = .hit 9 0 0 ∧
    t.test (exTG false) 5 5 (4 + 1 / 2) = .hit 5 10 20 := by
  have hm : ∀ z : ℝ, -1 ≤ z - 5 → z ≤ 5 → InEllipsoid 5 5 5 2 1 1 (0 * π / 180) 5 5 z := by
    intro z h1 h2
    exact ⟨0, 0, z - 5, by nlinarith, by ring, by ring, by ring⟩
  have h0 : exTP.lagHeight = 1 / 4 := rfl
  obtain ⟨t, ht, hk, hf, haz, hdp⟩ : ∃ t, Trough.new exTP exTD 5 5 5 2 1 1 0 = .ok t ∧ t.kind = 0 ∧ t.facies = 5 ∧
      t.azim = 10 ∧ t.dip = 20 := ⟨_, rfl, rfl, rfl, by norm_num [exTD], rfl⟩
  have hb := (Trough.new_made ht).base
  refine ⟨t, ht, ?_, ?_⟩
  · have hin := (C19_membership ht (by norm_num) (by norm_num) (by norm_num) (exTG false) rfl
      5 5 (4 + 1 / 8)).2 ⟨by norm_num, hm _ (by norm_num) (by norm_num)⟩
    exact (C21_trough ht _ _ _ _ hin).1 (by rw [h0]; norm_num)
  · have hin := (C19_membership ht (by norm_num) (by norm_num) (by norm_num) (exTG false) rfl
      5 5 (4 + 1 / 2)).2 ⟨by norm_num, hm _ (by norm_num) (by norm_num)⟩
    rw [Trough.test_inside hin, if_neg (by rw [hb.hz, hb.hc, hb.hlag, h0]; norm_num)]
    simp [Trough.inner, hk, hf, haz, hdp]

/-! ### C22 -/

/-- **C22.** For every trough made by the constructor with positive axes and layer thicknesses and a shift in the range of its random generator,
and every point in any domain, the test never reads outside the facies table and never fails. -/
theorem C22_table {p : TroughParams} {d : TroughDraw} {x y z a b c alpha : ℝ} {t : Trough}
    (ht : Trough.new p d x y z a b c alpha = .ok t) (ha : 0 < a) (hb : 0 < b) (hc : 0 < c) (hs0 : 0 ≤ d.shift)
    (hdip : t.kind = 1 → 0 < p.dipsetDist ∧ d.shift ≤ p.dipsetDist) (hbulb : t.kind = 3 → 0 < p.bulbsetDist)
    (g : Grid) (x' y' z' : ℝ) :
    (∀ n, t.test g x' y' z' ≠ .outside n) ∧ ∀ e, t.test g x' y' z' ≠ .error e := by
  have hm := Trough.new_made ht
  have h := hm.base
  have hsk : t.sinalpha ^ 2 + t.cosalpha ^ 2 = 1 := by rw [h.hsin, h.hcos]; exact sin_sq_add_cos_sq _
  by_cases hmiss : t.test g x' y' z' = .miss
  · rw [hmiss]; simp
  obtain ⟨-, hl2⟩ := (Trough.test_miss_iff (by rw [h.ha]; exact ha) (by rw [h.hb]; exact hb)
    (by rw [h.hmax, h.ha, h.hb]) hsk).1 hmiss
  rw [Trough.test_inside hmiss]
  obtain ⟨dx, hdx⟩ : ∃ dx, dx = (t.dist g x' y').1 := ⟨_, rfl⟩
  obtain ⟨dy, hdy⟩ : ∃ dy, dy = (t.dist g x' y').2 := ⟨_, rfl⟩
  obtain ⟨dz, hdz⟩ : ∃ dz, dz = z' - t.z := ⟨_, rfl⟩
  rw [← hdx, ← hdy, ← hdz] at hl2 ⊢
  split_ifs with hlag
  · simp
  clear hlag hmiss
  unfold Trough.inner
  cases hm with
  | massive f hf => simp
  | bulb f hf => simp
  | dip table htab =>
    obtain ⟨hld, hs1⟩ := hdip rfl
    dsimp only [Nat.one_ne_zero]
    rw [if_neg (by omega), if_pos rfl]
    have hM : 0 ≤ max (max a b) c := ha.le.trans ((le_max_left a b).trans (le_max_left _ c))
    have hd := dist_sq_le (M := max (max a b) c) ha hb hc ((le_max_left a b).trans (le_max_left _ c))
      ((le_max_right a b).trans (le_max_left _ c)) (le_max_right _ c) hsk hl2
    rw [mul_one] at hd
    have hn : (sin (d.dip * π / 180) * cos ((d.azim + alpha) * π / 180)) ^ 2 +
        (-sin (d.dip * π / 180) * sin ((d.azim + alpha) * π / 180)) ^ 2 + cos (d.dip * π / 180) ^ 2 = 1 := by
      have s1 := sin_sq_add_cos_sq (d.dip * π / 180)
      have s2 := sin_sq_add_cos_sq ((d.azim + alpha) * π / 180)
      linear_combination s1 + (sin (d.dip * π / 180)) ^ 2 * s2
    have hdot := abs_le.1 (dot_le hn hM hd)
    have hidx := dip_index_bounds hM hld hs0 hs1 (t := dx * (sin (d.dip * π / 180) * cos ((d.azim + alpha) * π / 180)) +
        dy * (-sin (d.dip * π / 180) * sin ((d.azim + alpha) * π / 180)) + dz * cos (d.dip * π / 180) + d.shift)
      (by linarith [hdot.1]) (by linarith [hdot.2])
    have hlen := (altFacies_ok htab).1
    exact tableHit_ne_outside hidx.1 (by rw [hlen]; exact hidx.2)
  | bulbSets table htab =>
    have hld := hbulb rfl
    dsimp only
    rw [if_neg (by omega), if_neg (by omega), if_pos (by omega), if_neg (by omega), pyInt_intCast]
    have hr1 : √(l2 (Trough.normalized { Trough.base p x y z a b c alpha with
        kind := 3, layerDist := p.bulbsetDist, shift := d.shift
        numFacies := ⌈(1 + d.shift) * c / p.bulbsetDist⌉ + 1, table, dip := d.dip } dx dy dz)) ≤ 1 := by
      exact Real.sqrt_le_one.2 hl2
    have hidx := bulb_index_bounds (Real.sqrt_nonneg _) hr1 hs0 hc hld
    have hlen := (altFacies_ok htab).1
    exact tableHit_ne_outside hidx.1 (by rw [hlen]; exact hidx.2)

/-- A trough with dipping layers of thickness 1/2 whose shift is as large as possible meets the hypotheses. -/
example : ∃ t, Trough.new { exTP with struct := "dip" } { exTD with shift := 1 / 2 } 5 5 5 2 1 1 30 = .ok t ∧ t.kind = 1 ∧
    t.numFacies = 11 := by
  have hc : (⌈(2 * max (max (2 : ℝ) 1) 1 + 1 / 2) / (1 / 2)⌉ : ℤ) = 9 := by
    rw [Int.ceil_eq_iff]
    norm_num
  have htab : ∃ l, altFacies (9 + 2) [5, 6] none (fun i => i) = .ok l := ⟨_, rfl⟩
  obtain ⟨l, hl⟩ := htab
  simp only [Trough.new, layerTable, structureNumber, exTP, exTD, pyInt_intCast, hc, hl, bind, Except.bind, pure, Except.pure]
  simp

end Hyvr
