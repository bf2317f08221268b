import Verif.Lemmas.Channel
import Verif.Props.Sheet
import Verif.Props.Trough
import Mathlib.Tactic.NormNum

/-!
C21 (channels), C26 - C29, C70: shape, cache, filling and levels of channels.
-/

namespace Hyvr

open Py Spec Real

/-! ### C26 -/

theorem tableHit_ne_miss {α : Type} (t : List ℤ) (n : ℤ) (a b : α) : tableHit t n a b ≠ .miss := by
  unfold tableHit
  split_ifs
  · simp
  · split <;> simp

theorem Channel.inner_ne_miss (c : Channel) (x y z : ℝ) : c.inner x y z ≠ .miss := by
  unfold Channel.inner
  split_ifs
  · simp
  · exact tableHit_ne_miss _ _ _ _
  · simp

/-- The test with a fresh cache. -/
theorem Channel.test_fresh (c : Channel) (g : Grid) (x y z : ℝ) (xi yi : ℕ) :
    (c.test g Cache.empty x y z xi yi).1 =
      if z ≤ c.ztop ∧ z - c.ztop ≥ c.a * c.xyDist x y ^ 2 - c.depth then c.inner x y z else .miss := by
  unfold Channel.test Cache.empty
  by_cases h1 : z ≤ c.ztop
  · rw [if_neg (by linarith)]
    simp only [Bool.false_eq_true, if_false, h1, true_and]
    split_ifs <;> rfl
  · rw [if_pos (by linarith)]
    simp only [h1, false_and, if_false]

/-- Being above the parabola, in terms of the nearest centreline point. -/
theorem Channel.above_iff {c : Channel} {w dep : ℝ} (ha : c.a = 4 * dep / w ^ 2) (hdp : c.depth = dep) (hw : 0 < w)
    (hw' : w < 2 * 10 ^ 50) (hd : 0 < dep) {x y z : ℝ} (hz : z ≤ c.ztop) :
    z - c.ztop ≥ c.a * c.xyDist x y ^ 2 - c.depth ↔
      ∃ q ∈ c.pts, (x - q.x) ^ 2 + (y - q.y) ^ 2 ≤ w ^ 2 / 4 + w ^ 2 * (z - c.ztop) / (4 * dep) := by
  obtain ⟨h1, h2, h3⟩ := xyDist_spec c x y
  rw [ha, hdp]
  constructor
  · intro h
    have hD := sq_le_of_dist hw hd (sub_nonpos.2 hz) (xyDist_nonneg c x y) h
    rcases h3 with h3 | ⟨q, hq, h3⟩
    · have := cap_ge c
      rw [h3] at hD
      linarith
    · refine ⟨q, hq, ?_⟩
      rw [parabola_iff hw hd, h3, Real.sq_sqrt (q.sq_nonneg x y)] at h
      exact h
  · rintro ⟨q, hq, h⟩
    rw [parabola_iff hw hd]
    refine le_trans ?_ h
    have := pow_le_pow_left₀ (xyDist_nonneg c x y) (h2 q hq) 2
    rwa [Real.sq_sqrt (q.sq_nonneg x y)] at this

/-- **C26.** With a fresh cache a point belongs to a channel exactly if it is not above the channel top and the squared horizontal distance
`D²` to some (equivalently the nearest) centreline point is at most `w²/4 + w² (z - ztop)/(4 depth)`. The width is below the code's
starting value for the distance. -/
theorem C26_parabola {p : ChannelParams} {d : ChannelDraw} {g : Grid} {pts : List CPoint} {ztop w dep : ℝ} {c : Channel}
    (h : Channel.new p d g pts ztop w dep = .ok c) (hw : 0 < w) (hw' : w < 2 * 10 ^ 50) (hd : 0 < dep) (x y z : ℝ) (xi yi : ℕ) :
    (c.test g Cache.empty x y z xi yi).1 ≠ .miss ↔ InChannel pts ztop w dep x y z := by
  obtain ⟨-, hp, ha, hwd, hdp, -, hzt, -⟩ := Channel.new_basic h
  rw [Channel.test_fresh]
  unfold InChannel
  by_cases hz : z ≤ c.ztop
  · have hab := Channel.above_iff (x := x) (y := y) ha hdp hw hw' hd hz
    simp only [hz, true_and]
    rw [hp, hzt] at hab
    rw [hzt] at hz
    split_ifs with hh
    · rw [hzt] at hh
      exact ⟨fun _ => ⟨hz, hab.1 hh⟩, fun _ => Channel.inner_ne_miss c x y z⟩
    · rw [hzt] at hh
      exact ⟨fun h => absurd rfl h, fun h => absurd (hab.2 h.2) hh⟩
  · rw [if_neg (fun h => hz h.1)]
    rw [hzt] at hz
    exact ⟨fun h => absurd rfl h, fun h => absurd h.1 hz⟩

/-- **C26, range.** Every point of a channel is between the `zmin` and `zmax` by which the code pre-selects channels, and closer than half the
width to the centreline. -/
theorem C26_range {p : ChannelParams} {d : ChannelDraw} {g : Grid} {pts : List CPoint} {ztop w dep : ℝ} {c : Channel}
    (h : Channel.new p d g pts ztop w dep = .ok c) (hw : 0 < w) (hw' : w < 2 * 10 ^ 50) (hd : 0 < dep) (x y z : ℝ) (xi yi : ℕ)
    (k : Cache) (hin : (c.test g k x y z xi yi).1 ≠ .miss) :
    c.zmin ≤ z ∧ z ≤ c.zmax ∧ ∃ q ∈ pts, (x - q.x) ^ 2 + (y - q.y) ^ 2 ≤ (w / 2) ^ 2 := by
  obtain ⟨-, hp, ha, hwd, hdp, -, hzt, hzx, hzn, -⟩ := Channel.new_basic h
  have hz : z ≤ c.ztop := by
    by_contra hn
    unfold Channel.test at hin
    rw [if_pos (by linarith)] at hin
    exact hin rfl
  have hab : z - c.ztop ≥ c.a * c.xyDist x y ^ 2 - c.depth := by
    by_contra hn
    unfold Channel.test at hin
    rw [if_neg (by linarith)] at hin
    simp only [if_neg hn] at hin
    split_ifs at hin <;> exact hin rfl
  obtain ⟨q, hq, hle⟩ := (Channel.above_iff ha hdp hw hw' hd hz).1 hab
  have h1 : w ^ 2 * (z - c.ztop) / (4 * dep) ≤ 0 :=
    div_nonpos_of_nonpos_of_nonneg (mul_nonpos_of_nonneg_of_nonpos (by positivity) (by linarith)) (by positivity)
  refine ⟨?_, ?_, q, hp ▸ hq, by linarith [show (w / 2) ^ 2 = w ^ 2 / 4 by ring]⟩
  · rw [hzn, ← hzt]
    rw [ha, hdp] at hab
    have : 0 ≤ 4 * dep / w ^ 2 * c.xyDist x y ^ 2 := by positivity
    linarith
  · rw [hzx, ← hzt]; exact hz

/-! ### C21, channels -/

/-- **C21, channels.** A point inside a channel gets the lag facies with zero angles if it is less than `lag_height` above the deepest point of
the channel; otherwise the lag has no effect at all. -/
theorem C21_channel {p : ChannelParams} {d : ChannelDraw} {g : Grid} {pts : List CPoint} {ztop w dep : ℝ} {c : Channel}
    (h : Channel.new p d g pts ztop w dep = .ok c) (x y z : ℝ) (xi yi : ℕ) (k : Cache)
    (hin : (c.test g k x y z xi yi).1 ≠ .miss) :
    (z - (ztop - dep) < p.lagHeight → (c.test g k x y z xi yi).1 = .hit p.lagFacies 0 0) ∧
    (p.lagHeight ≤ z - (ztop - dep) → 0 ≤ p.lagHeight → ∀ f,
      (c.test g k x y z xi yi).1 = (Channel.test { c with lagHeight := 0, lagFacies := f } g k x y z xi yi).1) := by
  obtain ⟨-, hp, ha, hwd, hdp, -, hzt, hzx, hzn, hlh, hlf, -⟩ := Channel.new_basic h
  have key : ∀ c' : Channel, c'.ztop = c.ztop → c'.a = c.a → c'.depth = c.depth → c'.pts = c.pts → c'.dipsets = c.dipsets →
      (c'.test g k x y z xi yi).1 = c'.inner x y z := by
    intro c' e1 e2 e3 e4 e5
    have e6 : c'.xyDist x y = c.xyDist x y := by unfold Channel.xyDist; rw [e4, e5]
    unfold Channel.test at hin ⊢
    rw [e1, e2, e3, e6]
    by_cases h1 : z - c.ztop > 0
    · rw [if_pos h1] at hin; exact absurd rfl hin
    · rw [if_neg h1] at hin ⊢
      by_cases h2 : k xi yi = true
      · rw [if_pos h2] at hin; exact absurd rfl hin
      · rw [if_neg h2] at hin ⊢
        by_cases h3 : z - c.ztop ≥ c.a * c.xyDist x y ^ 2 - c.depth
        · simp only [if_pos h3]
        · simp only [if_neg h3] at hin
          exact absurd rfl hin
  constructor
  · intro hl
    rw [key c rfl rfl rfl rfl rfl]
    unfold Channel.inner
    rw [if_pos (by rw [hzt, hdp, hlh]; linarith), hlf]
  · intro hl h0 f
    rw [key c rfl rfl rfl rfl rfl, key { c with lagHeight := 0, lagFacies := f } rfl rfl rfl rfl rfl]
    have e1 : ¬ z < c.ztop - c.depth + c.lagHeight := by rw [hzt, hdp, hlh]; linarith
    have e2 : ¬ z < c.ztop - c.depth + 0 := by rw [hzt, hdp]; linarith
    simp only [Channel.inner, if_neg e1, if_neg e2]

/-- **C21, channels, no lag.** With `lag_height = 0` the lag facies is never used: the answer is the same whatever the lag facies is. -/
theorem C21_channel_no_lag {p : ChannelParams} {d : ChannelDraw} {g : Grid} {pts : List CPoint} {ztop w dep : ℝ} {c : Channel}
    (h : Channel.new p d g pts ztop w dep = .ok c) (hw : 0 < w) (hw' : w < 2 * 10 ^ 50) (hd : 0 < dep) (hlag : p.lagHeight = 0)
    (x y z : ℝ) (xi yi : ℕ) (k : Cache) (f : ℤ) :
    (c.test g k x y z xi yi).1 = (Channel.test { c with lagFacies := f } g k x y z xi yi).1 := by
  obtain ⟨-, hp, ha, hwd, hdp, -, hzt, hzx, hzn, hlh, hlf, -⟩ := Channel.new_basic h
  by_cases hin : (c.test g k x y z xi yi).1 = .miss
  · rw [hin]
    unfold Channel.test at hin ⊢
    dsimp only [Channel.xyDist] at hin ⊢
    split_ifs at hin ⊢ <;> first | rfl | exact absurd hin (Channel.inner_ne_miss c x y z)
  · have hr := (C26_range h hw hw' hd x y z xi yi k hin).1
    rw [hzn] at hr
    have e : ({ c with lagFacies := f } : Channel) = { c with lagHeight := 0, lagFacies := f } := by
      rw [← hlag, ← hlh]
    rw [e]
    exact (C21_channel h x y z xi yi k hin).2 (by rw [hlag]; linarith) (by rw [hlag]) f

/-- A massive channel 4 wide and 1 deep along one centreline point, with a lag of 1/4. -/
noncomputable def exCP : ChannelParams :=
  { lagHeight := 1 / 4, lagFacies := 9, struct := "massive", facies := [5], altFacies := none, dipsetDist := 1, width := 4
    depth := 1, agg := 1, buffer := 1, channelNo := 2, sizeZtrend := none }
/-- Random numbers of the example. -/
def exCD : ChannelDraw := { dip := 30, shift := 0, facies := 0, layers := fun _ => 0 }
/-- Example grid. -/
noncomputable def exCG (dy ly : ℝ) : Grid :=
  { x0 := 0, y0 := 0, z0 := 0, dx := 1, dy := dy, dz := 1, lx := 41, ly := ly, lz := 10, periodic := false }

/-- The example point 1 away from the centreline and 1/2 below the top is inside and above the lag; the point at the bottom is in the lag; the
point 2 away is on the rim at the top and outside below. -/
example : ∃ c, Channel.new exCP exCD (exCG 1 10) [⟨5, 5, 1, 0⟩] 5 4 1 = .ok c ∧
    InChannel [⟨5, 5, 1, 0⟩] 5 4 1 6 5 (9 / 2) ∧ ¬ InChannel [⟨5, 5, 1, 0⟩] 5 4 1 7 5 (9 / 2) ∧
    (c.test (exCG 1 10) Cache.empty 6 5 (9 / 2) 5 5).1 ≠ .miss ∧
    (c.test (exCG 1 10) Cache.empty 5 5 4 4 4).1 = .hit 9 0 0 := by
  obtain ⟨c, hc⟩ : ∃ c, Channel.new exCP exCD (exCG 1 10) [⟨5, 5, 1, 0⟩] 5 4 1 = .ok c := by
    unfold Channel.new
    rw [if_neg (by norm_num), if_neg (by decide)]
    exact ⟨_, rfl⟩
  have h1 : InChannel [⟨5, 5, 1, 0⟩] 5 4 1 6 5 (9 / 2) := ⟨by norm_num, _, List.mem_singleton_self _, by norm_num⟩
  have h2 : InChannel [⟨5, 5, 1, 0⟩] 5 4 1 5 5 4 := ⟨by norm_num, _, List.mem_singleton_self _, by norm_num⟩
  refine ⟨c, hc, h1, ?_, ?_, ?_⟩
  · rintro ⟨-, q, hq, h⟩
    rw [List.mem_singleton] at hq
    subst hq
    norm_num at h
  · exact (C26_parabola hc (by norm_num) (by norm_num) (by norm_num) 6 5 (9 / 2) 5 5).2 h1
  · have := (C26_parabola hc (by norm_num) (by norm_num) (by norm_num) 5 5 4 4 4).2 h2
    exact (C21_channel hc 5 5 4 4 4 Cache.empty this).1 (by norm_num [exCP])

/-! ### C27 -/

/-- A question put to a channel: a grid cell and its coordinates. -/
structure Query where
  x : ℝ
  y : ℝ
  z : ℝ
  xi : ℕ
  yi : ℕ

/-- The coordinates are those of the cell. -/
def Query.Valid (g : Grid) (q : Query) : Prop := g.x[q.xi]? = some q.x ∧ g.y[q.yi]? = some q.y

/-- The answers to a sequence of questions, the cache being carried along. -/
noncomputable def runQueries (c : Channel) (g : Grid) : Cache → List Query → List (Answer ℝ)
  | _, [] => []
  | k, q :: qs => (c.test g k q.x q.y q.z q.xi q.yi).1 :: runQueries c g (c.test g k q.x q.y q.z q.xi q.yi).2 qs

theorem axis_diff {g : Grid} {i j : ℕ} {u v : ℝ} (hi : g.x[i]? = some u) (hj : g.x[j]? = some v) :
    u - v = ((i : ℝ) - j) * g.dx := by
  unfold Grid.x at hi hj
  rw [arange_getElem?] at hi hj
  split_ifs at hi hj
  cases hi; cases hj
  ring

theorem axis_diff_y {g : Grid} {i j : ℕ} {u v : ℝ} (hi : g.y[i]? = some u) (hj : g.y[j]? = some v) :
    u - v = ((i : ℝ) - j) * g.dy := by
  unfold Grid.y at hi hj
  rw [arange_getElem?] at hi hj
  split_ifs at hi hj
  cases hi; cases hj
  ring

theorem sq_index {a xi i : ℕ} (hi : i ≤ xi) (h : a = xi + i ∨ a = xi - i) (d : ℝ) :
    (((xi : ℝ) - a) * d) ^ 2 = (i * d) ^ 2 := by
  rcases h with rfl | rfl
  · push_cast; ring
  · rw [Nat.cast_sub hi]; ring

/-- Not in the channel for the fresh test. -/
def Channel.Out (c : Channel) (q : Query) : Prop :=
  ¬ (q.z ≤ c.ztop ∧ q.z - c.ztop ≥ c.a * c.xyDist q.x q.y ^ 2 - c.depth)

/-- What a test marks is not in the channel: neither at the level of the tested cell nor below. -/
theorem test_marks {c : Channel} {g : Grid} {w dep : ℝ} (ha : c.a = 4 * dep / w ^ 2) (hdp : c.depth = dep) (hwd : c.width = w)
    (hmin : c.minDxDy = min g.dx g.dy) (hw : 0 < w) (hd : 0 < dep) (hdx : 0 < g.dx) (hdy0 : 0 < g.dy) (hdy : g.dy ≤ 1) {q q' : Query}
    (hvq : q.Valid g) (hvq' : q'.Valid g) (hdown : q.xi = q'.xi → q.yi = q'.yi → q'.z ≤ q.z) {k : Cache}
    (hmark : (c.test g k q.x q.y q.z q.xi q.yi).2 q'.xi q'.yi = true) : k q'.xi q'.yi = true ∨ c.Out q' := by
  unfold Channel.test at hmark
  by_cases h1 : q.z - c.ztop > 0
  · rw [if_pos h1] at hmark; exact Or.inl hmark
  · rw [if_neg h1] at hmark
    by_cases h2 : k q.xi q.yi = true
    · rw [if_pos h2] at hmark; exact Or.inl hmark
    · rw [if_neg h2] at hmark
      have hnear : (if c.xyDist q.x q.y - c.width > c.minDxDy then
          k.around q.xi q.yi g.nx g.ny g.dx (c.xyDist q.x q.y - c.width) else k) q'.xi q'.yi = true → k q'.xi q'.yi = true ∨ c.Out q' := by
        intro hm
        by_cases h3 : c.xyDist q.x q.y - c.width > c.minDxDy
        · rw [if_pos h3, around_iff] at hm
          rcases hm with hm | ⟨i, -, ⟨hi, -⟩, j, hj, ⟨hj', -⟩, hxa, hyb⟩
          · exact Or.inl hm
          · have hr : 0 ≤ c.xyDist q.x q.y - c.width := by
              have : 0 < min g.dx g.dy := lt_min hdx hdy0
              rw [hmin] at h3
              linarith
            have hclose := marked_close (dx := g.dx) hdy0.le hdy hj hr
            have hlip := xyDist_lipschitz c q.x q.y q'.x q'.y
            rw [axis_diff hvq.1 hvq'.1, axis_diff_y hvq.2 hvq'.2, sq_index hi hxa, sq_index hj' hyb] at hlip
            have hD : w ≤ c.xyDist q'.x q'.y := by rw [hwd] at *; linarith
            refine Or.inr ?_
            rintro ⟨h5, h6⟩
            rw [ha, hdp] at h6
            have := sq_le_of_dist hw hd (sub_nonpos.2 h5) (xyDist_nonneg c _ _) h6
            linarith
        · rw [if_neg h3] at hm; exact Or.inl hm
      by_cases h4 : q.z - c.ztop ≥ c.a * c.xyDist q.x q.y ^ 2 - c.depth
      · simp only [if_pos h4] at hmark
        exact hnear hmark
      · simp only [if_neg h4, mark_iff] at hmark
        rcases hmark with hmark | ⟨hx, hy⟩
        · exact hnear hmark
        · have ex : q'.x = q.x := by
            have := hvq'.1; rw [hx, hvq.1] at this; exact (Option.some.inj this).symm
          have ey : q'.y = q.y := by
            have := hvq'.2; rw [hy, hvq.2] at this; exact (Option.some.inj this).symm
          have hz := hdown hx.symm hy.symm
          refine Or.inr ?_
          rintro ⟨h5, h6⟩
          rw [ex, ey] at h6
          exact h4 (by linarith)

theorem runQueries_eq {c : Channel} {g : Grid} {w dep : ℝ} (ha : c.a = 4 * dep / w ^ 2) (hdp : c.depth = dep) (hwd : c.width = w)
    (hmin : c.minDxDy = min g.dx g.dy) (hw : 0 < w) (hd : 0 < dep) (hdx : 0 < g.dx) (hdy0 : 0 < g.dy) (hdy : g.dy ≤ 1)
    (qs : List Query) (hv : ∀ q ∈ qs, q.Valid g)
    (hdown : qs.Pairwise fun q q' => q.xi = q'.xi → q.yi = q'.yi → q'.z ≤ q.z) (k : Cache)
    (hk : ∀ q ∈ qs, k q.xi q.yi = true → c.Out q) :
    runQueries c g k qs = qs.map fun q => (c.test g Cache.empty q.x q.y q.z q.xi q.yi).1 := by
  induction qs generalizing k with
  | nil => rfl
  | cons q qs ih =>
    have hvq := hv q List.mem_cons_self
    rw [List.pairwise_cons] at hdown
    rw [runQueries, List.map_cons]
    congr 1
    · rw [Channel.test_fresh]
      have hkq := hk q List.mem_cons_self
      unfold Channel.test
      by_cases h1 : q.z ≤ c.ztop
      · rw [if_neg (by linarith)]
        by_cases h2 : k q.xi q.yi = true
        · rw [if_pos h2, if_neg (hkq h2)]
        · rw [if_neg h2]
          simp only [h1, true_and]
          split_ifs <;> rfl
      · rw [if_pos (by linarith), if_neg (fun h => h1 h.1)]
    · apply ih (fun q' hq' => hv q' (List.mem_cons_of_mem _ hq')) hdown.2
      intro q' hq' hmark
      rcases test_marks ha hdp hwd hmin hw hd hdx hdy0 hdy hvq (hv q' (List.mem_cons_of_mem _ hq')) (hdown.1 q' hq') hmark with h | h
      · exact hk q' (List.mem_cons_of_mem _ hq') h
      · exact h

/-- **C27, for cells at most 1 unit wide in y.** Whatever cells are examined, as long as each column is visited downwards, every answer is the one
a channel with a fresh cache would give. Missing: `dy > 1`, where the statement is false (`C27_refuted`), because the number of rows
to skip is computed without dividing by `dy`. -/
theorem C27_cache_partial {p : ChannelParams} {d : ChannelDraw} {g : Grid} {pts : List CPoint} {ztop w dep : ℝ} {c : Channel}
    (h : Channel.new p d g pts ztop w dep = .ok c) (hw : 0 < w) (hd : 0 < dep) (hdx : 0 < g.dx) (hdy0 : 0 < g.dy) (hdy : g.dy ≤ 1)
    (qs : List Query) (hv : ∀ q ∈ qs, q.Valid g)
    (hdown : qs.Pairwise fun q q' => q.xi = q'.xi → q.yi = q'.yi → q'.z ≤ q.z) :
    runQueries c g Cache.empty qs = qs.map fun q => (c.test g Cache.empty q.x q.y q.z q.xi q.yi).1 := by
  obtain ⟨-, -, ha, hwd, hdp, hmin, -⟩ := Channel.new_basic h
  exact runQueries_eq ha hdp hwd hmin hw hd hdx hdy0 hdy qs hv hdown _ (fun q _ h => by simp [Cache.empty] at h)

theorem exCG_x {dy ly : ℝ} {i : ℕ} (hi : i < 41) : (exCG dy ly).x[i]? = some ((i : ℝ) + 1 / 2) := by
  unfold Grid.x
  rw [arange_getElem?]
  have : (⌈((exCG dy ly).x0 + (exCG dy ly).lx - ((exCG dy ly).x0 + (exCG dy ly).dx / 2)) / (exCG dy ly).dx⌉).toNat = 41 := by
    simp only [exCG]; norm_num; rfl
  rw [this, if_pos hi]
  simp only [exCG]; norm_num; ring

theorem exCG_y {i : ℕ} (hi : i < 12) : (exCG 10 120).y[i]? = some ((i : ℝ) * 10 + 5) := by
  unfold Grid.y
  rw [arange_getElem?]
  have : (⌈((exCG 10 120).y0 + (exCG 10 120).ly - ((exCG 10 120).y0 + (exCG 10 120).dy / 2)) / (exCG 10 120).dy⌉).toNat = 12 := by
    simp only [exCG]; norm_num; rfl
  rw [this, if_pos hi]
  simp only [exCG]; norm_num; ring

/-- **C27 fails for `dy > 1`.** With cells of 1 × 10 units and a channel 1 unit wide through the cell (20, 8), asking for the cell (20, 5) in the
same layer marks the cell (20, 8) as not worth checking, so that this cell is missed although it lies on the centreline. -/
theorem C27_refuted : ∃ (p : ChannelParams) (d : ChannelDraw) (g : Grid) (pts : List CPoint) (ztop w dep : ℝ) (c : Channel)
    (qs : List Query), Channel.new p d g pts ztop w dep = .ok c ∧ 0 < w ∧ 0 < dep ∧ 0 < g.dx ∧ 0 < g.dy ∧
    (∀ q ∈ qs, q.Valid g) ∧ (qs.Pairwise fun q q' => q.xi = q'.xi → q.yi = q'.yi → q'.z ≤ q.z) ∧
    runQueries c g Cache.empty qs ≠ qs.map fun q => (c.test g Cache.empty q.x q.y q.z q.xi q.yi).1 := by
  obtain ⟨c, hc, hds⟩ : ∃ c, Channel.new exCP exCD (exCG 10 120) [⟨20 + 1 / 2, 85, 1, 0⟩] 5 1 1 = .ok c ∧ c.dipsets = false := by
    unfold Channel.new
    rw [if_neg (by norm_num), if_neg (by decide)]
    exact ⟨_, rfl, rfl⟩
  obtain ⟨-, hp, ha, hwd, hdp, hmin, hzt, -⟩ := Channel.new_basic hc
  have hD : c.xyDist (20 + 1 / 2) 55 = 30 := by
    unfold Channel.xyDist
    rw [hds, hp]
    simp only [Bool.false_eq_true, if_false, scanDist, List.foldl_cons, List.foldl_nil]
    rw [if_pos (by norm_num)]
    rw [show ((20 + 1 / 2 - (20 + 1 / 2)) ^ 2 + (55 - 85) ^ 2 : ℝ) = 30 ^ 2 by norm_num]
    exact Real.sqrt_sq (by norm_num)
  refine ⟨exCP, exCD, exCG 10 120, _, 5, 1, 1, c, [⟨20 + 1 / 2, 55, 5, 20, 5⟩, ⟨20 + 1 / 2, 85, 5, 20, 8⟩], hc, by norm_num, by norm_num,
    by norm_num [exCG], by norm_num [exCG], ?_, ?_, ?_⟩
  · intro q hq
    simp only [List.mem_cons, List.not_mem_nil, or_false] at hq
    rcases hq with rfl | rfl
    · exact ⟨by rw [exCG_x (by norm_num)]; norm_num, by rw [exCG_y (by norm_num)]; norm_num⟩
    · exact ⟨by rw [exCG_x (by norm_num)]; norm_num, by rw [exCG_y (by norm_num)]; norm_num⟩
  · simp
  · intro heq
    have hfresh := (C26_parabola hc (by norm_num) (by norm_num) (by norm_num) (20 + 1 / 2) 85 5 20 8).2
      ⟨by norm_num, _, List.mem_singleton_self _, by norm_num⟩
    simp only [runQueries, List.map_cons, List.map_nil, List.cons.injEq, and_true, true_and] at heq
    rw [← heq] at hfresh
    apply hfresh
    have hm : (c.test (exCG 10 120) Cache.empty (20 + 1 / 2) 55 5 20 5).2 20 8 = true := by
      unfold Channel.test
      rw [if_neg (by rw [hzt]; norm_num)]
      simp only [Cache.empty, Bool.false_eq_true, if_false]
      rw [hD, hwd, hmin]
      have hmd : (30 : ℝ) - 1 > min (exCG 10 120).dx (exCG 10 120).dy := by norm_num [exCG]
      simp only [if_pos hmd]
      have hnx : 20 < (exCG 10 120).nx := by
        have := exCG_x (dy := 10) (ly := 120) (i := 20) (by norm_num)
        obtain ⟨h, -⟩ := List.getElem?_eq_some_iff.1 this
        exact h
      have hny : 8 < (exCG 10 120).ny := by
        obtain ⟨h, -⟩ := List.getElem?_eq_some_iff.1 (exCG_y (i := 8) (by norm_num))
        exact h
      have : (Cache.around (fun _ _ => false) 20 5 (exCG 10 120).nx (exCG 10 120).ny (exCG 10 120).dx (30 - 1)) 20 8 = true := by
        rw [around_iff]
        right
        refine ⟨0, ?_, ⟨by norm_num, by omega⟩, 3, ?_, ⟨by norm_num, by omega⟩, by norm_num, by norm_num⟩
        · rw [lt_pyInt_toNat_iff]; norm_num [exCG]
        · rw [lt_pyInt_toNat_iff]
          apply Real.le_sqrt_of_sq_le
          norm_num [exCG]
      split_ifs
      · exact this
      · rw [mark_iff]; exact Or.inl this
    have : (c.test (exCG 10 120) (c.test (exCG 10 120) Cache.empty (20 + 1 / 2) 55 5 20 5).2 (20 + 1 / 2) 85 5 20 8).1 = .miss := by
      generalize (c.test (exCG 10 120) Cache.empty (20 + 1 / 2) 55 5 20 5).2 = k at hm
      unfold Channel.test
      rw [if_neg (by rw [hzt]; norm_num), if_pos hm]
    exact this

/-- The hypotheses of `C27_cache_partial` hold e.g. for three cells of which two are in one column. -/
example : ∃ (c : Channel) (qs : List Query), Channel.new exCP exCD (exCG 1 10) [⟨5, 5, 1, 0⟩] 5 4 1 = .ok c ∧ qs.length = 3 ∧
    (∀ q ∈ qs, q.Valid (exCG 1 10)) ∧ (qs.Pairwise fun q q' => q.xi = q'.xi → q.yi = q'.yi → q'.z ≤ q.z) := by
  obtain ⟨c, hc⟩ : ∃ c, Channel.new exCP exCD (exCG 1 10) [⟨5, 5, 1, 0⟩] 5 4 1 = .ok c := by
    unfold Channel.new
    rw [if_neg (by norm_num), if_neg (by decide)]
    exact ⟨_, rfl⟩
  have hy : ∀ i : ℕ, i < 10 → (exCG 1 10).y[i]? = some ((i : ℝ) + 1 / 2) := by
    intro i hi
    unfold Grid.y
    rw [arange_getElem?]
    have : (⌈((exCG 1 10).y0 + (exCG 1 10).ly - ((exCG 1 10).y0 + (exCG 1 10).dy / 2)) / (exCG 1 10).dy⌉).toNat = 10 := by
      simp only [exCG]; norm_num; rfl
    rw [this, if_pos hi]
    simp only [exCG]; norm_num; ring
  refine ⟨c, [⟨20 + 1 / 2, 5 + 1 / 2, 5, 20, 5⟩, ⟨4 + 1 / 2, 5 + 1 / 2, 5, 4, 5⟩, ⟨4 + 1 / 2, 5 + 1 / 2, 4, 4, 5⟩], hc, rfl, ?_, ?_⟩
  · intro q hq
    simp only [List.mem_cons, List.not_mem_nil, or_false] at hq
    rcases hq with rfl | rfl | rfl
    · exact ⟨by rw [exCG_x (by norm_num)]; norm_num, by rw [hy 5 (by norm_num)]; norm_num⟩
    · exact ⟨by rw [exCG_x (by norm_num)]; norm_num, by rw [hy 5 (by norm_num)]; norm_num⟩
    · exact ⟨by rw [exCG_x (by norm_num)]; norm_num, by rw [hy 5 (by norm_num)]; norm_num⟩
  · norm_num [List.pairwise_cons]

/-! ### C28, C72 -/

/-- Answer inside, above the lag. -/
theorem Channel.test_inside {c : Channel} {g : Grid} {k : Cache} {x y z : ℝ} {xi yi : ℕ}
    (hin : (c.test g k x y z xi yi).1 ≠ .miss) :
    (c.test g k x y z xi yi).1 = c.inner x y z ∧ z ≤ c.ztop ∧ z - c.ztop ≥ c.a * c.xyDist x y ^ 2 - c.depth := by
  unfold Channel.test at hin ⊢
  by_cases h1 : z - c.ztop > 0
  · rw [if_pos h1] at hin; exact absurd rfl hin
  · rw [if_neg h1] at hin ⊢
    by_cases h2 : k xi yi = true
    · rw [if_pos h2] at hin; exact absurd rfl hin
    · rw [if_neg h2] at hin ⊢
      by_cases h3 : z - c.ztop ≥ c.a * c.xyDist x y ^ 2 - c.depth
      · simp only [if_pos h3]
        exact ⟨trivial, by linarith, h3⟩
      · simp only [if_neg h3] at hin
        exact absurd rfl hin

/-- The layer coordinate of a point: distance to the plane through the beginning of the centreline, measured along the normal of layers dipping
with `dip` against the direction of the centreline, plus the random shift. -/
noncomputable def Spec.layerCoord (pts : List CPoint) (ztop dip shift z : ℝ) (k : ℕ) : ℝ :=
  arc pts k * sin (dip * π / 180) + (z - ztop) * cos (dip * π / 180) + shift

/-- **C28, upper end.** For a point inside a channel with dipping layers, not in the lag, the layer is number `int(t/ld)` of the generated table, `t`
being the layer coordinate at the nearest centreline point; this entry exists if `t > -ld`, and the look-up is outside the table if
`t ≤ -ld`. Missing: the look-up is always inside the table, which is false (`C28_refuted`). -/
theorem C28_lookup_partial {p : ChannelParams} {d : ChannelDraw} {g : Grid} {pts : List CPoint} {ztop w dep : ℝ} {c : Channel}
    (h : Channel.new p d g pts ztop w dep = .ok c) (hs : p.struct = "dip") (hw : 0 < w) (hw' : w < 2 * 10 ^ 50) (hd : 0 < dep)
    (hld : 0 < p.dipsetDist) (hsh0 : 0 ≤ d.shift) (hsh : d.shift ≤ p.dipsetDist) (hdip0 : 0 ≤ d.dip) (hdip : d.dip ≤ 90)
    (x y z : ℝ) (xi yi : ℕ) (k : Cache) (hin : (c.test g k x y z xi yi).1 ≠ .miss) (hlag : ztop - dep + p.lagHeight ≤ z) :
    ∃ n, Nearest pts x y n ∧
      (-p.dipsetDist < layerCoord pts ztop d.dip d.shift z n → ∃ f az,
        c.table[(pyInt (layerCoord pts ztop d.dip d.shift z n / p.dipsetDist)).toNat]? = some f ∧
        0 ≤ pyInt (layerCoord pts ztop d.dip d.shift z n / p.dipsetDist) ∧
        (c.test g k x y z xi yi).1 = .hit f az d.dip) ∧
      (layerCoord pts ztop d.dip d.shift z n ≤ -p.dipsetDist →
        (c.test g k x y z xi yi).1 = .outside (pyInt (layerCoord pts ztop d.dip d.shift z n / p.dipsetDist))) := by
  obtain ⟨-, hp, ha, hwd, hdp, hmin, hzt, -, -, hlh, -, hdipc, -⟩ := Channel.new_basic h
  obtain ⟨hds, hldc, hsin, hcos, hshc, htab⟩ := Channel.new_dip h hs
  obtain ⟨he, hz, hab⟩ := Channel.test_inside hin
  rw [he]
  have hD : c.xyDist x y ≤ w / 2 := by
    rw [ha, hdp] at hab
    exact sq_le_of_dist hw hd (by linarith) (xyDist_nonneg c x y) hab
  have hscan := (scan_spec pts x y pts.length le_rfl).2.2
  rw [List.take_length] at hscan
  have hxy : c.xyDist x y = (scanDip pts x y).dist := by unfold Channel.xyDist; rw [hds, hp]; rfl
  rcases hscan with ⟨h1, -⟩ | ⟨n, hn, -, hal, hnear, hfirst, -⟩
  · exfalso
    rw [hxy, h1] at hD
    have : (10 : ℝ) ^ 50 ≤ 10 ^ 100 := pow_le_pow_right₀ (by norm_num) (by norm_num)
    linarith
  · refine ⟨n, ⟨hn, hnear, hfirst⟩, ?_⟩
    have hinner : c.inner x y z = tableHit c.table (pyInt (layerCoord pts ztop d.dip d.shift z n / p.dipsetDist))
        (Complex.arg ⟨(scanDip pts x y).vx / (scanDip pts x y).weights, (scanDip pts x y).vy / (scanDip pts x y).weights⟩ / π * 180)
        d.dip := by
      unfold Channel.inner layerCoord
      rw [if_neg (by rw [hzt, hdp, hlh]; linarith), hds, if_pos rfl, hp]
      simp only [hal, hsin, hcos, hshc, hzt, hldc, hdipc]
    rw [hinner]
    set t := layerCoord pts ztop d.dip d.shift z n with ht
    have hrad0 : 0 ≤ d.dip * π / 180 := by positivity
    have hrad1 : d.dip * π / 180 ≤ π / 2 := by
      have := mul_le_mul_of_nonneg_right hdip pi_pos.le
      linarith
    have hs0 : 0 ≤ sin (d.dip * π / 180) := sin_nonneg_of_nonneg_of_le_pi hrad0 (by linarith [pi_pos])
    have hc0 : 0 ≤ cos (d.dip * π / 180) := cos_nonneg_of_neg_pi_div_two_le_of_le (by linarith [pi_pos]) hrad1
    have htop : t ≤ curveLength pts * sin (d.dip * π / 180) + d.shift := by
      rw [ht, curveLength_eq]
      unfold layerCoord
      have h1 : arc pts n * sin (d.dip * π / 180) ≤ arc pts (pts.length - 1) * sin (d.dip * π / 180) :=
        mul_le_mul_of_nonneg_right (arc_mono pts (by omega)) hs0
      have h2 : (z - ztop) * cos (d.dip * π / 180) ≤ 0 := mul_nonpos_of_nonpos_of_nonneg (by rw [← hzt]; linarith) hc0
      linarith
    have hlen := (C34_sequence htab).1
    constructor
    · intro hlow
      have hidx0 : 0 ≤ pyInt (t / p.dipsetDist) := by
        unfold pyInt
        split_ifs with h0
        · exact Int.floor_nonneg.2 h0
        · have : -1 < t / p.dipsetDist := by rw [lt_div_iff₀ hld]; linarith
          have : (-1 : ℤ) < ⌈t / p.dipsetDist⌉ := Int.lt_ceil.2 (by push_cast; exact this)
          omega
      have hidx1 : pyInt (t / p.dipsetDist) < (c.table.length : ℤ) := by
        rw [hlen]
        have hA : 0 ≤ curveLength pts * sin (d.dip * π / 180) / p.dipsetDist := by
          rw [curveLength_eq]; exact div_nonneg (mul_nonneg (arc_nonneg _ _) hs0) hld.le
        have h1 : t / p.dipsetDist ≤ curveLength pts * sin (d.dip * π / 180) / p.dipsetDist + 1 := by
          rw [div_le_iff₀ hld, add_mul, div_mul_cancel₀ _ hld.ne']
          linarith
        have h2 : (pyInt (t / p.dipsetDist) : ℝ) ≤ t / p.dipsetDist + 1 := by
          unfold pyInt
          split_ifs
          · linarith [Int.floor_le (t / p.dipsetDist)]
          · exact (Int.ceil_lt_add_one _).le
        have h3 := Int.le_ceil (curveLength pts * sin (d.dip * π / 180) / p.dipsetDist + d.shift)
        have h4 : (0 : ℝ) ≤ ⌈dep / p.dipsetDist⌉ := (div_pos hd hld).le.trans (Int.le_ceil _)
        have h5 : pyInt ((⌈curveLength pts * sin (d.dip * π / 180) / p.dipsetDist + d.shift⌉ : ℝ) + (⌈dep / p.dipsetDist⌉ : ℝ)) =
            ⌈curveLength pts * sin (d.dip * π / 180) / p.dipsetDist + d.shift⌉ + ⌈dep / p.dipsetDist⌉ := by
          rw [← Int.cast_add, pyInt_intCast]
        rw [h5]
        have : (pyInt (t / p.dipsetDist) : ℝ) <
            ((⌈curveLength pts * sin (d.dip * π / 180) / p.dipsetDist + d.shift⌉ + ⌈dep / p.dipsetDist⌉ + 10 : ℤ) : ℝ) := by
          push_cast
          linarith
        exact_mod_cast this
      have hlt : (pyInt (t / p.dipsetDist)).toNat < c.table.length := by omega
      generalize Complex.arg _ / π * 180 = az
      refine ⟨c.table[(pyInt (t / p.dipsetDist)).toNat], az, List.getElem?_eq_getElem hlt, hidx0, ?_⟩
      unfold tableHit
      rw [if_neg (by omega), List.getElem?_eq_getElem hlt]
    · intro hlow
      have hneg : pyInt (t / p.dipsetDist) < 0 := by
        have h1 : t / p.dipsetDist ≤ -1 := by rw [div_le_iff₀ hld]; linarith
        unfold pyInt
        rw [if_neg (by linarith)]
        have : ⌈t / p.dipsetDist⌉ ≤ (-1 : ℤ) := Int.ceil_le.2 (by push_cast; exact h1)
        omega
      unfold tableHit
      rw [if_pos hneg]

/-- A channel with dipping layers of thickness 1/2. -/
noncomputable def exCPdip : ChannelParams := { exCP with struct := "dip", facies := [1, 2], altFacies := some [[2], [1]],
                                                         dipsetDist := 1 / 2, lagHeight := 0 }
/-- Its random numbers: the dip is 60 degrees. -/
def exCDdip : ChannelDraw := { exCD with dip := 60 }

theorem exC_dip (g : Grid) (pts : List CPoint) (ztop : ℝ) : ∃ c, Channel.new exCPdip exCDdip g pts ztop 4 2 = .ok c := by
  obtain ⟨l, hl⟩ := alternating_table (num := pyInt ((⌈curveLength pts * sin (exCDdip.dip * π / 180) / exCPdip.dipsetDist +
    exCDdip.shift⌉ : ℝ) + (⌈2 / exCPdip.dipsetDist⌉ : ℝ)) + 10) (by
      rw [← Int.cast_add, pyInt_intCast]
      have hs : 0 ≤ sin (60 * π / 180) := sin_nonneg_of_nonneg_of_le_pi (by positivity) (by linarith [pi_pos])
      have h1 : 0 ≤ curveLength pts * sin (60 * π / 180) / (1 / 2) + 0 := by
        rw [curveLength_eq]
        have := arc_nonneg pts (pts.length - 1)
        positivity
      have h2 : (0 : ℝ) ≤ ⌈curveLength pts * sin (60 * π / 180) / (1 / 2) + 0⌉ := h1.trans (Int.le_ceil _)
      have h3 : (0 : ℤ) ≤ ⌈curveLength pts * sin (60 * π / 180) / (1 / 2) + 0⌉ := by exact_mod_cast h2
      have h4 : (0 : ℤ) ≤ ⌈(2 : ℝ) / (1 / 2)⌉ := by
        have : (0 : ℝ) ≤ ⌈(2 : ℝ) / (1 / 2)⌉ := le_trans (by norm_num) (Int.le_ceil _)
        exact_mod_cast this
      simp only [exCDdip, exCPdip, exCD]
      omega) exCDdip.layers
  unfold Channel.new
  rw [if_neg (by norm_num)]
  simp only [if_pos (show exCPdip.struct = "dip" from rfl), bind_ok, pure_ok]
  exact ⟨_, l, (layerTable_eq (by norm_num [exCPdip])).trans hl, rfl⟩

/-- **C28 fails.** Near the upstream end of a channel 2 deep with layers of thickness 1/2 dipping with 60 degrees, a point 3/2 below the top is inside
the channel but its layer has number -1. -/
theorem C28_refuted : ∃ (p : ChannelParams) (d : ChannelDraw) (g : Grid) (pts : List CPoint) (ztop w dep : ℝ) (c : Channel) (x y z : ℝ),
    Channel.new p d g pts ztop w dep = .ok c ∧ p.struct = "dip" ∧ 0 < w ∧ 0 < dep ∧ 0 < p.dipsetDist ∧ 0 ≤ d.shift ∧
    d.shift ≤ p.dipsetDist ∧ 0 ≤ d.dip ∧ d.dip ≤ 90 ∧ InChannel pts ztop w dep x y z ∧
    (c.test g Cache.empty x y z 0 0).1 = .outside (-1) := by
  obtain ⟨c, hc⟩ := exC_dip (exCG 1 10) [⟨5, 5, 1, 0⟩] 5
  have hIn : InChannel [⟨5, 5, 1, 0⟩] 5 4 2 5 5 (7 / 2) := ⟨by norm_num, _, List.mem_singleton_self _, by norm_num⟩
  refine ⟨exCPdip, exCDdip, exCG 1 10, [⟨5, 5, 1, 0⟩], 5, 4, 2, c, 5, 5, 7 / 2, hc, rfl, by norm_num, by norm_num, by norm_num [exCPdip],
    by norm_num [exCDdip, exCD], by norm_num [exCDdip, exCD, exCPdip], by norm_num [exCDdip], by norm_num [exCDdip], hIn, ?_⟩
  have hin := (C26_parabola hc (by norm_num) (by norm_num) (by norm_num) 5 5 (7 / 2) 0 0).2 hIn
  obtain ⟨n, ⟨hn, -⟩, -, h2⟩ := C28_lookup_partial hc rfl (by norm_num) (by norm_num) (by norm_num) (by norm_num [exCPdip])
    (by norm_num [exCDdip, exCD]) (by norm_num [exCDdip, exCD, exCPdip]) (by norm_num [exCDdip]) (by norm_num [exCDdip])
    5 5 (7 / 2) 0 0 Cache.empty hin (by norm_num [exCPdip])
  have hn0 : n = 0 := by simpa using hn
  subst hn0
  have hcos : cos (60 * π / 180) = 1 / 2 := by
    rw [show 60 * π / 180 = π / 3 by ring]; exact cos_pi_div_three
  have ht : layerCoord [⟨5, 5, 1, 0⟩] 5 exCDdip.dip exCDdip.shift (7 / 2) 0 = -3 / 4 := by
    unfold layerCoord arc
    simp only [exCDdip, exCD, hcos]
    norm_num
  rw [ht] at h2
  rw [h2 (by norm_num [exCPdip])]
  congr 1
  unfold pyInt
  rw [if_neg (by norm_num [exCPdip])]
  norm_num [exCPdip, Int.ceil_eq_iff]

/-- The point 1/4 below the top of the same channel is in an existing layer. -/
example : ∃ c f az, Channel.new exCPdip exCDdip (exCG 1 10) [⟨5, 5, 1, 0⟩] 5 4 2 = .ok c ∧
    (c.test (exCG 1 10) Cache.empty 5 5 (19 / 4) 0 0).1 = .hit f az 60 := by
  obtain ⟨c, hc⟩ := exC_dip (exCG 1 10) [⟨5, 5, 1, 0⟩] 5
  have hIn : InChannel [⟨5, 5, 1, 0⟩] 5 4 2 5 5 (19 / 4) := ⟨by norm_num, _, List.mem_singleton_self _, by norm_num⟩
  have hin := (C26_parabola hc (by norm_num) (by norm_num) (by norm_num) 5 5 (19 / 4) 0 0).2 hIn
  obtain ⟨n, ⟨hn, -⟩, h1, -⟩ := C28_lookup_partial hc rfl (by norm_num) (by norm_num) (by norm_num) (by norm_num [exCPdip])
    (by norm_num [exCDdip, exCD]) (by norm_num [exCDdip, exCD, exCPdip]) (by norm_num [exCDdip]) (by norm_num [exCDdip])
    5 5 (19 / 4) 0 0 Cache.empty hin (by norm_num [exCPdip])
  have hn0 : n = 0 := by simpa using hn
  subst hn0
  have hcos : cos (60 * π / 180) = 1 / 2 := by
    rw [show 60 * π / 180 = π / 3 by ring]; exact cos_pi_div_three
  have ht : layerCoord [⟨5, 5, 1, 0⟩] 5 exCDdip.dip exCDdip.shift (19 / 4) 0 = -1 / 8 := by
    unfold layerCoord arc
    simp only [exCDdip, exCD, hcos]
    norm_num
  rw [ht] at h1
  obtain ⟨f, az, -, -, h⟩ := h1 (by norm_num [exCPdip])
  exact ⟨c, f, az, hc, h⟩

/-- The weighted sums of the loop when all velocities have the same direction. -/
theorem scan_direction (φ x y : ℝ) (pts : List CPoint) (hv : ∀ q ∈ pts, ∃ r > 0, q.vx = r * cos φ ∧ q.vy = r * sin φ) :
    ∀ s : Scan, ∃ R, (0 ≤ R ∧ (pts ≠ [] → 0 < R)) ∧ (pts.foldl (scanStep x y) s).vx = s.vx + R * cos φ ∧
      (pts.foldl (scanStep x y) s).vy = s.vy + R * sin φ ∧
      s.weights ≤ (pts.foldl (scanStep x y) s).weights ∧ (pts ≠ [] → s.weights < (pts.foldl (scanStep x y) s).weights) := by
  induction pts with
  | nil => intro s; exact ⟨0, by simp⟩
  | cons q pts ih =>
    intro s
    obtain ⟨r, hr, hx, hy⟩ := hv q List.mem_cons_self
    obtain ⟨R, ⟨hR, -⟩, h1, h2, h3, -⟩ := ih (fun q hq => hv q (List.mem_cons_of_mem _ hq)) (scanStep x y s q)
    rw [List.foldl_cons]
    obtain ⟨wt, hwt⟩ : ∃ wt, wt = 1 / (√((x - q.x) ^ 2 + (y - q.y) ^ 2) + 1 / 10 ^ 20) := ⟨_, rfl⟩
    have hpos : 0 < wt := by rw [hwt]; positivity
    have e1 : (scanStep x y s q).vx = s.vx + q.vx * wt := by rw [hwt]; rfl
    have e2 : (scanStep x y s q).vy = s.vy + q.vy * wt := by rw [hwt]; rfl
    have e3 : (scanStep x y s q).weights = s.weights + wt := by rw [hwt]; rfl
    refine ⟨r * wt + R, ⟨by positivity, fun _ => by positivity⟩, ?_, ?_, ?_, fun _ => ?_⟩
    · rw [h1, e1, hx]; ring
    · rw [h2, e2, hy]; ring
    · rw [e3] at h3; linarith
    · rw [e3] at h3; linarith

/-- **C72, channels with dipping layers.** If the flow has the same direction `φ` all along the centreline, every cell of the channel above the lag
gets this direction (in degrees) as azimuth and the channel's dip as dip, wherever it is. Missing: massive channels, for which the
`azimuth` range of the input is ignored (`C72_massive_refuted`). -/
theorem C72_azimuth_partial {p : ChannelParams} {d : ChannelDraw} {g : Grid} {pts : List CPoint} {ztop w dep : ℝ} {c : Channel}
    (h : Channel.new p d g pts ztop w dep = .ok c) (hs : p.struct = "dip") {φ : ℝ} (hφ : -π < φ ∧ φ ≤ π)
    (hne : pts ≠ []) (hv : ∀ q ∈ pts, ∃ r > 0, q.vx = r * cos φ ∧ q.vy = r * sin φ) (x y z : ℝ) (xi yi : ℕ) (k : Cache) {f : ℤ} {az dp : ℝ}
    (hlag : ztop - dep + p.lagHeight ≤ z) (hit : (c.test g k x y z xi yi).1 = .hit f az dp) :
    az = φ * 180 / π ∧ dp = d.dip := by
  obtain ⟨-, hp, -, -, hdp, -, hzt, -, -, hlh, -, hdipc, -⟩ := Channel.new_basic h
  obtain ⟨hds, -⟩ := Channel.new_dip h hs
  obtain ⟨he, -, -⟩ := Channel.test_inside (c := c) (g := g) (k := k) (x := x) (y := y) (z := z) (xi := xi) (yi := yi)
    (by rw [hit]; simp)
  rw [he] at hit
  unfold Channel.inner at hit
  rw [if_neg (by rw [hzt, hdp, hlh]; linarith), hds, if_pos rfl] at hit
  have harg : ∀ n a b, tableHit c.table n a b = Answer.hit f az dp → az = a ∧ dp = b := by
    intro n a b hh
    unfold tableHit at hh
    split_ifs at hh
    split at hh
    · cases hh; exact ⟨rfl, rfl⟩
    · cases hh
  obtain ⟨h1, h2⟩ := harg _ _ _ hit
  rw [hp] at h1
  obtain ⟨R, ⟨-, hR⟩, e1, e2, -, e3⟩ := scan_direction φ x y pts hv
    { along := 0, alongTmp := 0, dist := 10 ^ 100, vx := 0, vy := 0, weights := 0, prev := none }
  have hR := hR hne
  have hW := e3 hne
  rw [zero_add] at e1 e2
  have e1' : (scanDip pts x y).vx = R * cos φ := e1
  have e2' : (scanDip pts x y).vy = R * sin φ := e2
  have hW' : 0 < (scanDip pts x y).weights := hW
  refine ⟨?_, h2.trans hdipc⟩
  rw [h1, e1', e2']
  have : (⟨R * cos φ / (scanDip pts x y).weights, R * sin φ / (scanDip pts x y).weights⟩ : ℂ) =
      ((R / (scanDip pts x y).weights : ℝ) : ℂ) * (Complex.cos φ + Complex.sin φ * Complex.I) := by
    apply Complex.ext
    · simp [Complex.cos_ofReal_re, Complex.sin_ofReal_im, Complex.cos_ofReal_im, Complex.sin_ofReal_re]; ring
    · simp [Complex.cos_ofReal_re, Complex.sin_ofReal_im, Complex.cos_ofReal_im, Complex.sin_ofReal_re]; ring
  rw [this, Complex.arg_mul_cos_add_sin_mul_I (by positivity) ⟨hφ.1, hφ.2⟩]
  ring

/-- **C72 fails for massive channels.** The azimuth of the cells of a massive channel is 0 whatever the flow direction; nothing of the input enters.
In particular there is a channel flowing in y-direction whose cells have azimuth 0. -/
theorem C72_massive_refuted :
    (∀ (p : ChannelParams) (d : ChannelDraw) (g : Grid) (pts : List CPoint) (ztop w dep : ℝ) (c : Channel),
      Channel.new p d g pts ztop w dep = .ok c → p.struct ≠ "dip" → ∀ (x y z : ℝ) (xi yi : ℕ) (k : Cache) (f : ℤ) (az dp : ℝ),
      (c.test g k x y z xi yi).1 = .hit f az dp → az = 0) ∧
    ∃ c, Channel.new exCP exCD (exCG 1 10) [⟨5, 5, 0, 1⟩] 5 4 1 = .ok c ∧
      (c.test (exCG 1 10) Cache.empty 5 5 5 0 0).1 = .hit 5 0 30 := by
  constructor
  · intro p d g pts ztop w dep c h hs x y z xi yi k f az dp hit
    obtain ⟨-, -, -, -, -, -, -, -, -, -, -, -, haz⟩ := Channel.new_basic h
    obtain ⟨hds, -⟩ := Channel.new_massive h hs
    obtain ⟨he, -, -⟩ := Channel.test_inside (c := c) (g := g) (k := k) (x := x) (y := y) (z := z) (xi := xi) (yi := yi)
      (by rw [hit]; simp)
    rw [he] at hit
    unfold Channel.inner at hit
    simp only [hds, Bool.false_eq_true, if_false] at hit
    split_ifs at hit
    · cases hit; rfl
    · cases hit; exact haz
  · obtain ⟨c, hc, hf, haz, hdp, hds⟩ : ∃ c, Channel.new exCP exCD (exCG 1 10) [⟨5, 5, 0, 1⟩] 5 4 1 = .ok c ∧ c.facies = 5 ∧
        c.azim = 0 ∧ c.dip = 30 ∧ c.dipsets = false := by
      unfold Channel.new
      rw [if_neg (by norm_num), if_neg (by decide)]
      exact ⟨_, rfl, rfl, rfl, rfl, rfl⟩
    obtain ⟨-, -, -, -, hdep, -, hzt, -, -, hlh, -⟩ := Channel.new_basic hc
    have hin := (C26_parabola hc (by norm_num) (by norm_num) (by norm_num) 5 5 5 0 0).2
      ⟨by norm_num, _, List.mem_singleton_self _, by norm_num⟩
    refine ⟨c, hc, ?_⟩
    rw [(Channel.test_inside hin).1]
    unfold Channel.inner
    rw [if_neg (by rw [hzt, hdep, hlh]; norm_num [exCP]), hds, hf, haz, hdp]
    rfl

/-- The hypotheses of `C72_azimuth_partial` hold for the example with dipping layers and flow in x-direction. -/
example : ∃ c f, Channel.new exCPdip exCDdip (exCG 1 10) [⟨5, 5, 1, 0⟩] 5 4 2 = .ok c ∧
    (c.test (exCG 1 10) Cache.empty 5 5 5 0 0).1 = .hit f 0 60 := by
  obtain ⟨c, hc⟩ := exC_dip (exCG 1 10) [⟨5, 5, 1, 0⟩] 5
  have hin := (C26_parabola hc (by norm_num) (by norm_num) (by norm_num) 5 5 5 0 0).2
    ⟨by norm_num, _, List.mem_singleton_self _, by norm_num⟩
  obtain ⟨n, ⟨hn, -⟩, h1, -⟩ := C28_lookup_partial hc rfl (by norm_num) (by norm_num) (by norm_num) (by norm_num [exCPdip])
    (by norm_num [exCDdip, exCD]) (by norm_num [exCDdip, exCD, exCPdip]) (by norm_num [exCDdip]) (by norm_num [exCDdip])
    5 5 5 0 0 Cache.empty hin (by norm_num [exCPdip])
  have hn0 : n = 0 := by simpa using hn
  subst hn0
  have ht : layerCoord [⟨5, 5, 1, 0⟩] 5 exCDdip.dip exCDdip.shift 5 0 = 0 := by
    unfold layerCoord arc
    simp [exCDdip, exCD]
  rw [ht] at h1
  obtain ⟨f, az, -, -, h⟩ := h1 (by norm_num [exCPdip])
  have := C72_azimuth_partial hc rfl (φ := 0) ⟨by linarith [pi_pos], pi_pos.le⟩ (by simp)
    (by intro q hq; rw [List.mem_singleton] at hq; subst hq; exact ⟨1, by norm_num, by simp, by simp⟩) 5 5 5 0 0 Cache.empty
    (by norm_num [exCPdip]) h
  refine ⟨c, f, hc, ?_⟩
  rw [h, this.1]
  norm_num [exCDdip]

/-! ### C29, C70 -/

theorem channelsOnLevel_spec {p : ChannelParams} {g : Grid} {draws : ℕ → ChannelDraw} {curve : ℕ → ℝ → Except PyErr (List CPoint)} {z : ℝ} {m n : ℕ}
    {cs : List Channel} (h : channelsOnLevel p g draws curve z m n = .ok cs) :
    cs.length = m ∧ ∀ c ∈ cs, c.ztop = z ∧ c.width = p.width * channelFactor p g z ∧ c.depth = p.depth * channelFactor p g z := by
  induction m generalizing n cs with
  | zero => unfold channelsOnLevel at h; cases h; simp
  | succ m ih =>
    unfold channelsOnLevel at h
    simp only [bind_ok, pure_ok] at h
    obtain ⟨pts, -, c, hc, rest, hr, rfl⟩ := h
    obtain ⟨h1, h2⟩ := ih hr
    obtain ⟨-, -, -, hw, hd, -, hz, -⟩ := Channel.new_basic hc
    refine ⟨by simp [h1], ?_⟩
    intro c' hc'
    rcases List.mem_cons.1 hc' with rfl | hc'
    · exact ⟨hz, hw, hd⟩
    · exact h2 c' hc'

/-- Elevation of level `i`, counted from the top. -/
def Spec.level (top agg : ℝ) (i : ℕ) : ℝ := top - (i + 1) * agg

/-- What the levels look like. -/
def Spec.OnLevels (top agg : ℝ) (perLevel levels : ℕ) (size : ℝ → ℝ × ℝ) (cs : List Channel) : Prop :=
  cs.length = levels * perLevel ∧ ∀ (i j : ℕ), i < levels → j < perLevel → ∃ c, cs[i * perLevel + j]? = some c ∧
    c.ztop = level top agg i ∧ c.width = (size (level top agg i)).1 ∧ c.depth = (size (level top agg i)).2

theorem channelLevels_spec {p : ChannelParams} {g : Grid} {draws : ℕ → ChannelDraw} {curve : ℕ → ℝ → Except PyErr (List CPoint)} {zb : ℝ} {fuel : ℕ}
    {top : ℝ} {n : ℕ} {cs : List Channel} (h : channelLevels p g draws curve zb fuel (top - p.agg) n = some (.ok cs)) :
    ∃ m, (∀ i < m, zb < level top p.agg i) ∧ level top p.agg m ≤ zb ∧
      OnLevels top p.agg p.channelNo m (fun z => (p.width * channelFactor p g z, p.depth * channelFactor p g z)) cs := by
  have base : ∀ {top}, ¬ (top - p.agg > zb) → ∃ m, (∀ i < m, zb < level top p.agg i) ∧ level top p.agg m ≤ zb ∧
      OnLevels top p.agg p.channelNo m (fun z => (p.width * channelFactor p g z, p.depth * channelFactor p g z)) [] := by
    intro top hn
    exact ⟨0, by simp, by simp [level]; linarith, by simp [OnLevels]⟩
  induction fuel generalizing top n cs with
  | zero =>
    unfold channelLevels at h
    split_ifs at h with hz
    cases h
    exact base hz
  | succ fuel ih =>
    unfold channelLevels at h
    split_ifs at h with hz
    · cases h1 : channelsOnLevel p g draws curve (top - p.agg) p.channelNo n with
      | error e => rw [h1] at h; simp at h
      | ok cs1 =>
        rw [h1] at h
        simp only at h
        cases h2 : channelLevels p g draws curve zb fuel (top - p.agg - p.agg) (n + p.channelNo) with
        | none => rw [h2] at h; simp at h
        | some r =>
          rw [h2] at h
          cases r with
          | error e => simp at h
          | ok cs2 =>
            simp only [Option.some.injEq, Except.ok.injEq] at h
            subst h
            obtain ⟨m, hm1, hm2, hlen, hm3⟩ := ih h2
            obtain ⟨hl1, hs1⟩ := channelsOnLevel_spec h1
            have elev : ∀ i : ℕ, level (top - p.agg) p.agg i = level top p.agg (i + 1) := by
              intro i; simp only [level]; push_cast; ring
            refine ⟨m + 1, ?_, by rw [← elev]; exact hm2, ?_, ?_⟩
            · intro i hi
              cases i with
              | zero => simp only [level]; push_cast; linarith
              | succ i => rw [← elev]; exact hm1 i (by omega)
            · rw [List.length_append, hl1, hlen]; ring
            · intro i j hi hj
              cases i with
              | zero =>
                have hj' : j < cs1.length := by omega
                refine ⟨cs1[j], by rw [zero_mul, zero_add, List.getElem?_append_left hj', List.getElem?_eq_getElem hj'], ?_⟩
                have e0 : level top p.agg 0 = top - p.agg := by simp [level]
                rw [e0]
                exact hs1 _ (List.getElem_mem hj')
              | succ i =>
                obtain ⟨c, hc, hp⟩ := hm3 i j (by omega) hj
                rw [elev] at hp
                refine ⟨c, ?_, hp⟩
                have : (i + 1) * p.channelNo + j = cs1.length + (i * p.channelNo + j) := by rw [hl1]; ring
                rw [this, List.getElem?_append_right (by omega), Nat.add_sub_cancel_left, hc]
    · cases h
      exact base hz

/-- **C29.** If the generation of channels ends without error, the channels are exactly `channel_no` per level on the levels `top - agg`,
`top - 2 agg`, ... that are strictly above the mean bottom plus `buffer * depth`, in descending order, all with the given width and depth. -/
theorem C29_levels {p : ChannelParams} {g : Grid} {draws : ℕ → ChannelDraw} {curve : ℕ → ℝ → Except PyErr (List CPoint)} {bottom top : ℝ} {fuel : ℕ}
    {cs : List Channel} (h : generateChannels p g draws curve bottom top fuel = some (.ok cs)) :
    ∃ m, (∀ i < m, bottom + p.buffer * p.depth < level top p.agg i) ∧ level top p.agg m ≤ bottom + p.buffer * p.depth ∧
      OnLevels top p.agg p.channelNo m (fun _ => (p.width, p.depth)) cs := by
  unfold generateChannels channelBufferFactor at h
  cases ht : p.sizeZtrend with
  | some t => rw [ht] at h; simp at h
  | none =>
    rw [ht] at h
    simp only at h
    obtain ⟨m, h1, h2, h3⟩ := channelLevels_spec h
    have e : bottom + p.depth * 1 * p.buffer = bottom + p.buffer * p.depth := by ring
    have ef : ∀ z, channelFactor p g z = 1 := by intro z; unfold channelFactor; rw [ht]
    simp only [ef, mul_one] at h3
    rw [e] at h1 h2
    exact ⟨m, h1, h2, h3⟩

/-- **C29, order.** The list of channels is ordered by descending top, as the look-up of objects by elevation requires. -/
theorem C29_descending {p : ChannelParams} {g : Grid} {draws : ℕ → ChannelDraw} {curve : ℕ → ℝ → Except PyErr (List CPoint)} {bottom top : ℝ} {fuel : ℕ}
    {cs : List Channel} (hagg : 0 ≤ p.agg) (h : generateChannels p g draws curve bottom top fuel = some (.ok cs)) :
    cs.Pairwise fun c c' => c'.ztop ≤ c.ztop := by
  obtain ⟨m, -, -, hlen, hcs⟩ := C29_levels h
  rw [List.pairwise_iff_getElem]
  intro i j hi hj hij
  have hn : 0 < p.channelNo := by
    rcases Nat.eq_zero_or_pos p.channelNo with h0 | h0
    · rw [hlen, h0] at hi; omega
    · exact h0
  have key : ∀ (i : ℕ) (hi : i < cs.length), cs[i].ztop = level top p.agg (i / p.channelNo) := by
    intro i hi
    obtain ⟨c, hc, hz, -⟩ := hcs (i / p.channelNo) (i % p.channelNo) (Nat.div_lt_of_lt_mul (by rw [hlen] at hi; linarith)) (Nat.mod_lt _ hn)
    rw [Nat.div_add_mod'] at hc
    obtain ⟨_, rfl⟩ := List.getElem?_eq_some_iff.1 hc
    exact hz
  rw [key i hi, key j hj]
  unfold level
  have : ((i / p.channelNo : ℕ) : ℝ) ≤ ((j / p.channelNo : ℕ) : ℝ) := by exact_mod_cast Nat.div_le_div_right hij.le
  nlinarith

theorem channelLevels_terminates {p : ChannelParams} (g : Grid) (draws : ℕ → ChannelDraw) (curve : ℕ → ℝ → Except PyErr (List CPoint)) (zb : ℝ)
    (fuel : ℕ) : ∀ (z : ℝ) (n : ℕ), z - fuel * p.agg ≤ zb → channelLevels p g draws curve zb fuel z n ≠ none := by
  induction fuel with
  | zero =>
    intro z n hz
    unfold channelLevels
    rw [if_neg (by push_cast at hz; linarith)]
    simp
  | succ fuel ih =>
    intro z n hz
    unfold channelLevels
    split_ifs
    · cases channelsOnLevel p g draws curve z p.channelNo n with
      | error e => simp
      | ok cs =>
        have := ih (z - p.agg) (n + p.channelNo) (by push_cast at hz; linarith)
        simp only
        split <;> simp_all
    · simp

/-- **C29, termination.** For positive `agg` the generation ends, with channels or with an error. -/
theorem C29_terminates {p : ChannelParams} (g : Grid) (draws : ℕ → ChannelDraw) (curve : ℕ → ℝ → Except PyErr (List CPoint)) (bottom top : ℝ)
    (hagg : 0 < p.agg) : ∃ fuel, generateChannels p g draws curve bottom top fuel ≠ none := by
  unfold generateChannels
  cases channelBufferFactor p with
  | error e => exact ⟨0, by simp⟩
  | ok f =>
    obtain ⟨fuel, hf⟩ := exists_nat_ge ((top - p.agg - (bottom + p.depth * f * p.buffer)) / p.agg)
    refine ⟨fuel, ?_⟩
    apply channelLevels_terminates
    rw [div_le_iff₀ hagg] at hf
    linarith

/-- **C70 fails.** With a vertical size trend the generation of channels always fails with a `ValueError`. -/
theorem C70_refuted (p : ChannelParams) (g : Grid) (draws : ℕ → ChannelDraw) (curve : ℕ → ℝ → Except PyErr (List CPoint)) (bottom top : ℝ) (fuel : ℕ)
    (t : ℝ × ℝ) (ht : p.sizeZtrend = some t) : generateChannels p g draws curve bottom top fuel = some (.error .valueError) := by
  unfold generateChannels channelBufferFactor
  rw [ht]

/-- **C70, away from the failing statement.** The sizes used on the levels, once the loop is reached, follow the trend: the size at the bottom of
the domain is the given one times the first factor, at the top times the second, and in between linear. Missing: the loop is never
reached with a trend (`C70_refuted`). -/
theorem C70_trend_partial {p : ChannelParams} {g : Grid} {draws : ℕ → ChannelDraw} {curve : ℕ → ℝ → Except PyErr (List CPoint)} {zb top : ℝ} {fuel n : ℕ}
    {cs : List Channel} {f0 f1 : ℝ} (ht : p.sizeZtrend = some (f0, f1)) (hlz : 0 < g.lz)
    (h : channelLevels p g draws curve zb fuel (top - p.agg) n = some (.ok cs)) (c : Channel) (hc : c ∈ cs) (h0 : g.z0 ≤ c.ztop)
    (h1 : c.ztop ≤ g.z0 + g.lz) :
    c.width = p.width * (f0 + (f1 - f0) * (c.ztop - g.z0) / g.lz) ∧ c.depth = p.depth * (f0 + (f1 - f0) * (c.ztop - g.z0) / g.lz) := by
  obtain ⟨m, -, -, hlen, hcs⟩ := channelLevels_spec h
  obtain ⟨i, hi, rfl⟩ := List.mem_iff_getElem.1 hc
  have hn : 0 < p.channelNo := by
    rcases Nat.eq_zero_or_pos p.channelNo with h0 | h0
    · rw [hlen, h0] at hi; omega
    · exact h0
  obtain ⟨c, hc', hz, hw, hd⟩ := hcs (i / p.channelNo) (i % p.channelNo) (Nat.div_lt_of_lt_mul (by rw [hlen] at hi; linarith)) (Nat.mod_lt _ hn)
  rw [Nat.div_add_mod'] at hc'
  obtain ⟨_, rfl⟩ := List.getElem?_eq_some_iff.1 hc'
  have hf : channelFactor p g cs[i].ztop = f0 + (f1 - f0) * (cs[i].ztop - g.z0) / g.lz := by
    unfold channelFactor interp2 Grid.zmax
    rw [ht]
    simp only
    split_ifs with e1 e2
    · have : cs[i].ztop = g.z0 := le_antisymm e1 h0
      rw [this]; ring
    · have : cs[i].ztop = g.z0 + g.lz := le_antisymm h1 e2
      rw [this, add_sub_cancel_left, mul_div_assoc, div_self hlz.ne']; ring
    · rw [add_sub_cancel_left]; ring
  simp only at hw hd
  rw [← hz] at hw hd
  rw [hw, hd, hf]
  exact ⟨rfl, rfl⟩

/-- Two channels per level, levels 4, 3 and 2 between the bottom at 0 (with buffer 1) and the top at 5. -/
example : ∃ cs, generateChannels exCP (exCG 1 10) (fun _ => exCD) (fun _ _ => .ok []) 0 5 5 = some (.ok cs) ∧ cs.length = 6 := by
  have hnew : ∀ z, ∃ c, Channel.new exCP exCD (exCG 1 10) [] z (exCP.width * channelFactor exCP (exCG 1 10) z)
      (exCP.depth * channelFactor exCP (exCG 1 10) z) = .ok c := by
    intro z
    unfold Channel.new
    rw [if_neg (by norm_num [channelFactor, exCP]), if_neg (by decide)]
    exact ⟨_, rfl⟩
  have hlev : ∀ z n, ∃ cs, channelsOnLevel exCP (exCG 1 10) (fun _ => exCD) (fun _ _ => .ok []) z exCP.channelNo n = .ok cs := by
    intro z n
    obtain ⟨c, hc⟩ := hnew z
    refine ⟨[c, c], ?_⟩
    show channelsOnLevel exCP (exCG 1 10) (fun _ => exCD) (fun _ _ => .ok []) z 2 n = .ok [c, c]
    simp only [channelsOnLevel, bind, Except.bind, hc]
    rfl
  have hall : ∀ (fuel : ℕ) (z : ℝ) (n : ℕ), z - fuel * exCP.agg ≤ 1 →
      ∃ cs, channelLevels exCP (exCG 1 10) (fun _ => exCD) (fun _ _ => .ok []) 1 fuel z n = some (.ok cs) := by
    intro fuel
    induction fuel with
    | zero => intro z n hz; unfold channelLevels; rw [if_neg (by push_cast at hz; linarith)]; exact ⟨_, rfl⟩
    | succ fuel ih =>
      intro z n hz
      unfold channelLevels
      split_ifs
      · obtain ⟨cs, hcs⟩ := hlev z n
        obtain ⟨cs', hcs'⟩ := ih (z - exCP.agg) (n + exCP.channelNo) (by push_cast at hz; linarith)
        rw [hcs, hcs']
        exact ⟨_, rfl⟩
      · exact ⟨_, rfl⟩
  obtain ⟨cs, hcs⟩ := hall 5 (5 - exCP.agg) 0 (by norm_num [exCP])
  have hgen : generateChannels exCP (exCG 1 10) (fun _ => exCD) (fun _ _ => .ok []) 0 5 5 = some (.ok cs) := by
    have e : (0 : ℝ) + exCP.depth * 1 * exCP.buffer = 1 := by norm_num [exCP]
    unfold generateChannels channelBufferFactor
    simp only [show exCP.sizeZtrend = none from rfl, e]
    exact hcs
  refine ⟨cs, hgen, ?_⟩
  obtain ⟨m, h1, h2, h3, -⟩ := C29_levels hgen
  have hm : m = 3 := by
    simp only [exCP, level] at h1 h2
    have a1 : 3 ≤ m := by
      by_contra hn
      have : (m : ℝ) ≤ 2 := by exact_mod_cast (show m ≤ 2 by omega)
      linarith
    by_contra hne
    have := h1 3 (by omega)
    norm_num at this
  rw [h3, hm]
  rfl

end Hyvr
