import Verif.Lemmas.Share
import Verif.Props.Density

/-!
C138: the share of the background between troughs.
-/

namespace Hyvr

open Py Spec MeasureTheory ProbabilityTheory Real
open scoped ENNReal

/-! ### Positions in the list of troughs -/

/-- Entry `n` of a list of points level by level. -/
theorem levels_get {β : Type} (N : ℕ → ℕ) (G : ℕ → ℕ → β) (L n : ℕ) (q : β) :
    ((List.range L).flatMap fun i => (List.range (N i)).map (G i))[n]? = some q ↔
      ∃ i < L, ∃ k < N i, n = ∑ j ∈ Finset.range i, N j + k ∧ q = G i k := by
  have hlen : ∀ L, ((List.range L).flatMap fun i => (List.range (N i)).map (G i)).length = ∑ j ∈ Finset.range L, N j := by
    intro L
    induction L with
    | zero => simp
    | succ L ih => rw [List.range_succ, List.flatMap_append, List.length_append, ih, Finset.sum_range_succ]; simp
  induction L with
  | zero => simp
  | succ L ih =>
    have hmono : ∀ i < L, ∀ k < N i, ∑ j ∈ Finset.range i, N j + k < ∑ j ∈ Finset.range L, N j := by
      intro i hi k hk
      calc ∑ j ∈ Finset.range i, N j + k < ∑ j ∈ Finset.range (i + 1), N j := by rw [Finset.sum_range_succ]; omega
        _ ≤ _ := Finset.sum_le_sum_of_subset (Finset.range_subset_range.2 hi)
    rw [List.range_succ, List.flatMap_append, List.getElem?_append, hlen]
    split_ifs with hn
    · refine ih.trans ⟨?_, ?_⟩
      · rintro ⟨i, hi, h⟩
        exact ⟨i, by omega, h⟩
      · rintro ⟨i, hi, k, hk, e1, e2⟩
        rcases Nat.lt_succ_iff_lt_or_eq.1 hi with h | rfl
        · exact ⟨i, h, k, hk, e1, e2⟩
        · omega
    · simp only [List.flatMap_cons, List.flatMap_nil, List.append_nil, List.getElem?_map, Option.map_eq_some_iff, List.getElem?_eq_some_iff, List.length_range, List.getElem_range]
      constructor
      · rintro ⟨a, ⟨h1, rfl⟩, rfl⟩
        exact ⟨L, Nat.lt_succ_self L, n - ∑ j ∈ Finset.range L, N j, h1, (Nat.add_sub_of_le (not_lt.1 hn)).symm, rfl⟩
      · rintro ⟨i, hi, k, hk, e1, e2⟩
        rcases Nat.lt_succ_iff_lt_or_eq.1 hi with h | rfl
        · exact absurd (e1 ▸ hmono i h k hk) hn
        · exact ⟨k, ⟨by omega, by omega⟩, e2.symm⟩

theorem trend_unique {m d : Dict} {z f f' : ℝ} {lz : ℚ} (hlz : m "lz" = some (numVal lz)) (h0 : lz ≠ 0) (h : TrendFactor m d z f) (h' : TrendFactor m d z f') :
    f = f' := by
  cases h with
  | constant a b =>
    cases h' with
    | constant a' b' => rw [b, b']
    | linear f0 f1 z0 lz' t => rw [a] at t; cases t
  | linear f0 f1 z0 lz1 t b c v =>
    cases numVal_some_inj c hlz
    cases h' with
    | constant a' b' => rw [a'] at t; cases t
    | linear g0 g1 w0 lz2 t' b' c' v' =>
      cases numVal_some_inj c' hlz
      cases numVal_some_inj b b'
      rw [t] at t'
      have e := numList_inj (Option.some.inj t')
      simp only [List.cons.injEq, and_true] at e
      rw [v h0, v' h0, e.1, e.2]

/-! ### Troughs that miss a point -/

/-- The numbers drawn for direction and centre of a trough on the level `Z`, of the size given by the factor `F`, that covers the point. -/
def covering (p : TroughRead) (x0 lx y0 ly : ℚ) (F Z x y z : ℝ) : Set (ℝ × ℝ × ℝ) :=
  {v | z ≤ Z ∧ InEllipsoid (placeIn x0 lx y0 ly v.2).1 (placeIn x0 lx y0 ly v.2).2 Z (F * p.length / 2) (F * p.erosive.width / 2) (F * p.erosive.depth)
    (uniform p.paleoflow.1 p.paleoflow.2 v.1 * π / 180) x y z}

theorem covering_measurable {p : TroughRead} {x0 lx y0 ly : ℚ} {F Z x y z : ℝ} (h1 : 0 < F * p.length / 2) (h2 : 0 < F * p.erosive.width / 2)
    (h3 : 0 < F * p.erosive.depth) : MeasurableSet (covering p x0 lx y0 ly F Z x y z) := by
  unfold covering
  simp only [inEllipsoid_iff h1 h2 h3]
  refine MeasurableSet.inter (s₁ := {_v | z ≤ Z}) (MeasurableSet.const _) (s₂ := {v | ellipsoidForm _ _ _ _ _ _ _ _ _ _ ≤ 1}) (measurableSet_le ?_ measurable_const)
  unfold ellipsoidForm placeIn uniform
  fun_prop

/-- The troughs of a section all miss a point iff none of the numbers drawn is covering it. -/
theorem troughs_miss {m d : Dict} {p : TroughRead} (hread : readTrough d = .ok p) {g : Grid} (hg : readGrid m = .ok g) {bottom top : Surface ℝ} {r : ObjRandoms}
    {ts : List Trough} (hts : placeTroughs p g r bottom top = .ok ts) {density length width depth agg buffer x0 lx y0 ly lz : ℚ}
    (hdensity : d "trough_density" = some (numVal density)) (hlength : d "length" = some (numVal length)) (hwidth : d "width" = some (numVal width))
    (hdepth : d "depth" = some (numVal depth)) (hagg : d "agg" = some (numVal agg)) (hbuffer : d "buffer" = some (numVal buffer))
    (hte : d "te_xyz" = some (.leaf .none)) (hmig : d "migrate" = some (.leaf .none)) (hx0 : m "x0" = some (numVal x0)) (hlx : m "lx" = some (numVal lx))
    (hy0 : m "y0" = some (numVal y0)) (hly : m "ly" = some (numVal ly)) (hlz : m "lz" = some (numVal lz)) (hper : m "periodic" = some (.leaf (.bool false)))
    (h0 : 0 < agg) (h1 : lz ≠ 0) (h2 : 0 < length) (h3 : 0 < width) (h4 : 0 < depth) {L : ℕ}
    (hL : ∀ i : ℕ, i < L ↔ bottom.zmax + depth * buffer < top.zmean - i * agg) {F : ℕ → ℝ} (hF : ∀ i < L, TrendFactor m d (top.zmean - i * agg) (F i) ∧ 0 < F i)
    (x y z : ℝ) : (∀ t ∈ ts, t.test g x y z = .miss) ↔
      ∀ i < L, ∀ k < r.count (density * lx * ly) i, (r.alpha (∑ j ∈ Finset.range i, r.count (density * lx * ly) j + k), r.pos i k) ∉
        covering p x0 lx y0 ly (F i) (top.zmean - i * agg) x y z := by
  have hp := readTrough_from hread
  have hgf := readGrid_from hg
  obtain ⟨x0', -, lx', x1, -, x2, x3, -, x4⟩ := hgf.x
  obtain ⟨y0', -, ly', y1, -, y2, y3, -, y4⟩ := hgf.y
  cases numVal_some_inj x1 hx0
  cases numVal_some_inj x2 hlx
  cases numVal_some_inj y1 hy0
  cases numVal_some_inj y2 hly
  cases numVal_some_inj hp.density hdensity
  cases numVal_some_inj hp.length hlength
  cases numVal_some_inj hp.erosive.width hwidth
  cases numVal_some_inj hp.erosive.agg hagg
  cases numVal_some_inj hp.erosive.depth hdepth
  cases numVal_some_inj hp.erosive.buffer hbuffer
  have hper' : g.periodic = false := by
    have := hgf.periodic
    rw [hper] at this
    simpa using this.symm
  simp only [placeTroughs, bind_ok] at hts
  obtain ⟨_, -, h⟩ := hts
  obtain ⟨te, hte', hmk⟩ := generateTroughs_split h
  have hxyz : p.params.teXyz = none := by
    cases hc : p.teXyz with
    | none => simp [TroughRead.params, hc]
    | some pts =>
      obtain ⟨v, e1, e2, -⟩ := hp.fixed pts hc
      rw [hte] at e1
      exact absurd (Option.some.inj e1).symm e2
  have hmg : p.params.migrate = false := by
    cases hc : p.migrate with
    | none => simp [TroughRead.params, hc]
    | some mg =>
      obtain ⟨rest, e1⟩ := hp.moves mg hc
      rw [hmig] at e1
      cases e1
  rw [hxyz] at hte'
  have hagg' : 0 < p.params.agg := by
    show (0 : ℝ) < (p.erosive.agg : ℝ)
    exact_mod_cast h0
  obtain ⟨L', hL', hpos⟩ := C24_positions (p := p.params) (d := r.place p g) (bz := bottom.zmax) (tz := top.zmean) hagg' hmg
  have hLL : L' = L := by
    have h1 : ∀ i, i < L' ↔ i < L := fun i => (hL' i).trans (hL i).symm
    exact le_antisymm (not_lt.1 fun hc => absurd ((h1 L).1 hc) (lt_irrefl _)) (not_lt.1 fun hc => absurd ((h1 L').2 hc) (lt_irrefl _))
  subst hLL
  rw [hpos] at hte'
  cases hte'
  have hcount : (r.place p g).count = r.count (p.density * lx * ly) := by rw [← x4, ← y4]; rfl
  have hlen := (makeTroughs_spec hmk).length_eq
  have hget := levels_get (r.place p g).count (fun i k => (((r.place p g).pos i k).1, ((r.place p g).pos i k).2, top.zmean - i * p.params.agg)) L'
  have key : ∀ n t, ts[n]? = some t → ∀ i < L', ∀ k < (r.place p g).count i, n = ∑ j ∈ Finset.range i, (r.place p g).count j + k →
      (t.test g x y z ≠ .miss ↔ (r.alpha n, r.pos i k) ∈ covering p x0 lx y0 ly (F i) (top.zmean - i * p.erosive.agg) x y z) := by
    intro n t ht i hi k hk hn
    obtain ⟨q, hq, hnew⟩ := makeTroughs_get hmk ht
    rw [(hget n _).2 ⟨i, hi, k, hk, hn, rfl⟩, Option.some.injEq] at hq
    subst hq
    have axes : ∀ Z, ∃ F, TrendFactor m d Z F ∧ (troughAxes p.params g.z0 g.lz Z).1 = F * (p.length : ℝ) / 2 ∧
        (troughAxes p.params g.z0 g.lz Z).2.1 = F * (p.erosive.width : ℝ) / 2 ∧ (troughAxes p.params g.z0 g.lz Z).2.2 = F * (p.erosive.depth : ℝ) := fun Z =>
      ⟨_, trend_factor hgf hp.erosive _, by rw [mul_comm]; rfl, by rw [mul_comm]; rfl, by rw [mul_comm]; rfl⟩
    obtain ⟨F', hF', e1, e2, e3⟩ := axes (top.zmean - i * p.params.agg)
    dsimp only at hnew
    rw [e1, e2, e3] at hnew
    cases trend_unique hlz h1 hF' (hF i hi).1
    have f0 := (hF i hi).2
    have c2 : (0 : ℝ) < p.length := by exact_mod_cast h2
    have c3 : (0 : ℝ) < p.erosive.width := by exact_mod_cast h3
    have c4 : (0 : ℝ) < p.erosive.depth := by exact_mod_cast h4
    rw [C19_membership hnew (by positivity) (by positivity) (by positivity) g hper' x y z, uniform_place x3 x4 y3 y4, zero_add]
    rfl
  rw [← hcount]
  constructor
  · intro hall i hi k hk hin
    have hb : ∑ j ∈ Finset.range i, (r.place p g).count j + k < ts.length := by
      rw [← hlen]
      exact (List.getElem?_eq_some_iff.1 ((hget _ _).2 ⟨i, hi, k, hk, rfl, rfl⟩)).1
    exact (key _ _ (List.getElem?_eq_getElem hb) i hi k hk rfl).2 hin (hall _ (List.getElem_mem hb))
  · intro hall t ht
    obtain ⟨n, hn⟩ := List.mem_iff_getElem?.1 ht
    obtain ⟨q, hq, -⟩ := makeTroughs_get hmk hn
    obtain ⟨i, hi, k, hk, e, -⟩ := (hget n q).1 hq
    by_contra hc
    refine hall i hi k hk ?_
    rw [← e]
    exact (key n t hn i hi k hk e).1 hc

/-- The probability that none of the numbers drawn is covering a point. -/
theorem clear_probability {Ω : Type} [MeasurableSpace Ω] {μ : Measure Ω} {r : Ω → ObjRandoms} (hr : RandomTroughs μ r) {p : TroughRead} {density x0 lx y0 ly : ℚ}
    (hd : 0 ≤ density) (h2 : 0 < p.length) (h3 : 0 < p.erosive.width) (h4 : 0 < p.erosive.depth) (h5 : 0 < lx) (h6 : 0 < ly) {L : ℕ} {F Z : ℕ → ℝ} {x y z : ℝ}
    (hF : ∀ i < L, 0 < F i ∧ x0 ≤ x - F i * max (p.length : ℝ) p.erosive.width / 2 ∧ x + F i * max (p.length : ℝ) p.erosive.width / 2 < x0 + lx ∧
      y0 ≤ y - F i * max (p.length : ℝ) p.erosive.width / 2 ∧ y + F i * max (p.length : ℝ) p.erosive.width / 2 < y0 + ly) :
    μ {ω | ∀ i < L, ∀ k < (r ω).count (density * lx * ly) i, ((r ω).alpha (∑ j ∈ Finset.range i, (r ω).count (density * lx * ly) j + k), (r ω).pos i k) ∉
        covering p x0 lx y0 ly (F i) (Z i) x y z} =
      ENNReal.ofReal (exp (-(density * ∑ i ∈ Finset.range L, crossSection (F i * p.length) (F i * p.erosive.width) (F i * p.erosive.depth) (Z i - z)))) := by
  have hlx' : (0 : ℝ) < lx := by exact_mod_cast h5
  have hly' : (0 : ℝ) < ly := by exact_mod_cast h6
  have hd' : (0 : ℝ) ≤ density := by exact_mod_cast hd
  have c2 : (0 : ℝ) < p.length := by exact_mod_cast h2
  have c3 : (0 : ℝ) < p.erosive.width := by exact_mod_cast h3
  have c4 : (0 : ℝ) < p.erosive.depth := by exact_mod_cast h4
  obtain ⟨mean, hmean⟩ : ∃ mean : NNReal, (mean : ℝ) = density * lx * ly := ⟨⟨_, by positivity⟩, rfl⟩
  have hprob : IsProbabilityMeasure μ := (hr.levels mean).isProbabilityMeasure
  have hcs : ∀ a b c h : ℝ, 0 < a → 0 < b → 0 < c → 0 ≤ crossSection a b c h := by
    intro a b c h ha hb hc
    unfold crossSection
    split_ifs with hh
    · have q1 : h / c ≤ 1 := (div_le_one hc).2 hh.2
      have q0 : 0 ≤ h / c := div_nonneg hh.1 hc.le
      have : 0 ≤ 1 - (h / c) ^ 2 := by nlinarith
      have := pi_pos
      positivity
    · exact le_rfl
  have key := points_void (β := ℝ × ℝ) (ν := unitLaw.prod unitLaw) (N := fun ω i => (r ω).count mean i) (T := fun ω => (r ω).alpha)
    (Y := fun ω ik => (r ω).pos ik.1 ik.2) (hr.numbers mean) (hr.levels mean) hr.directions hr.points (hr.independent mean)
    (B := fun i => {v | i < L ∧ v ∈ covering p x0 lx y0 ly (F i) (Z i) x y z})
    (fun i => by
      by_cases hi : i < L
      · have f0 := (hF i hi).1
        simp only [hi, true_and]
        exact covering_measurable (by positivity) (by positivity) (by positivity)
      · simp [hi])
    (q := fun i => if i < L then crossSection (F i * p.length) (F i * p.erosive.width) (F i * p.erosive.depth) (Z i - z) / (lx * ly) else 0)
    (fun i => by
      split_ifs with hi
      · have f0 := (hF i hi).1
        exact div_nonneg (hcs _ _ _ _ (by positivity) (by positivity) (by positivity)) (by positivity)
      · exact le_rfl)
    (fun i t => by
      by_cases hi : i < L
      · obtain ⟨f0, w1, w2, w3, w4⟩ := hF i hi
        have hmax : F i * max (p.length : ℝ) p.erosive.width / 2 = max (F i * p.length / 2) (F i * p.erosive.width / 2) := by
          rw [mul_max_of_nonneg _ _ f0.le, max_div_div_right zero_le_two]
        rw [hmax] at w1 w2 w3 w4
        have := covered_area (a := F i * p.length / 2) (b := F i * p.erosive.width / 2) (c := F i * p.erosive.depth)
          (ang := uniform p.paleoflow.1 p.paleoflow.2 t * π / 180) (x := x) (y := y) (z := z) (Z := Z i) (by positivity) (by positivity) (by positivity) h5 h6 w1 w2 w3 w4
        simp only [hi, true_and, if_true]
        rw [mul_div_cancel₀ _ (two_ne_zero), mul_div_cancel₀ _ (two_ne_zero)] at this
        exact this
      · simp [hi]) L
  have e : {ω | ∀ i < L, ∀ k < (r ω).count (density * lx * ly) i, ((r ω).alpha (∑ j ∈ Finset.range i, (r ω).count (density * lx * ly) j + k), (r ω).pos i k) ∉
      covering p x0 lx y0 ly (F i) (Z i) x y z} = {ω | ∀ i < L, ∀ k < (r ω).count mean i,
      ((r ω).alpha (∑ j ∈ Finset.range i, (r ω).count mean j + k), (r ω).pos i k) ∉ {v | i < L ∧ v ∈ covering p x0 lx y0 ly (F i) (Z i) x y z}} := by
    ext ω
    simp only [← hmean, Set.mem_ofPred_eq]
    exact ⟨fun h i hi k hk hc => h i hi k hk hc.2, fun h i hi k hk hc => h i hi k hk ⟨hi, hc⟩⟩
  rw [e, key, hmean]
  congr 3
  rw [Finset.sum_congr rfl (fun i hi => if_pos (Finset.mem_range.1 hi)), ← Finset.sum_div]
  generalize ∑ i ∈ Finset.range L, crossSection (F i * p.length) (F i * p.erosive.width) (F i * p.erosive.depth) (Z i - z) = S
  field_simp

/-- **C138 (one element).** The probability that no trough covers a point away from the lateral edges of the domain is `exp (-trough_density * S)`, where `S` is the sum
of the areas of the horizontal sections of a trough, one from each level above the bottom of the AE, at the elevation of the point. It depends neither on where the
point is within the level nor on the distribution of the directions. -/
theorem C138_clear {Ω : Type} [MeasurableSpace Ω] {μ : Measure Ω} (m d : Dict) (p : TroughRead) (hread : readTrough d = .ok p) (g : Grid)
    (hg : readGrid m = .ok g) (bottom top : Surface ℝ) (r : Ω → ObjRandoms) (hr : RandomTroughs μ r) (ts : Ω → List Trough)
    (hts : ∀ᵐ ω ∂μ, placeTroughs p g (r ω) bottom top = .ok (ts ω)) (density length width depth agg buffer x0 lx y0 ly lz : ℚ)
    (hdensity : d "trough_density" = some (numVal density)) (hlength : d "length" = some (numVal length)) (hwidth : d "width" = some (numVal width))
    (hdepth : d "depth" = some (numVal depth)) (hagg : d "agg" = some (numVal agg)) (hbuffer : d "buffer" = some (numVal buffer))
    (hte : d "te_xyz" = some (.leaf .none)) (hmig : d "migrate" = some (.leaf .none)) (hx0 : m "x0" = some (numVal x0)) (hlx : m "lx" = some (numVal lx))
    (hy0 : m "y0" = some (numVal y0)) (hly : m "ly" = some (numVal ly)) (hlz : m "lz" = some (numVal lz)) (hper : m "periodic" = some (.leaf (.bool false)))
    (h0 : 0 < agg) (h1 : 0 ≤ density) (h2 : 0 < length) (h3 : 0 < width) (h4 : 0 < depth) (h5 : 0 < lx) (h6 : 0 < ly) (h7 : lz ≠ 0) (L : ℕ)
    (hL : ∀ i : ℕ, i < L ↔ bottom.zmax + depth * buffer < top.zmean - i * agg) (F : ℕ → ℝ) (hF : ∀ i < L, TrendFactor m d (top.zmean - i * agg) (F i) ∧ 0 < F i)
    (x y z : ℝ) (hin : ∀ i < L, x0 ≤ x - F i * max (length : ℝ) width / 2 ∧ x + F i * max (length : ℝ) width / 2 < x0 + lx ∧
      y0 ≤ y - F i * max (length : ℝ) width / 2 ∧ y + F i * max (length : ℝ) width / 2 < y0 + ly) :
    μ {ω | ∀ t ∈ ts ω, t.test g x y z = .miss} =
      ENNReal.ofReal (exp (-(density * ∑ i ∈ Finset.range L, crossSection (F i * length) (F i * width) (F i * depth) (top.zmean - i * agg - z)))) := by
  have hp := readTrough_from hread
  have e : {ω | ∀ t ∈ ts ω, t.test g x y z = .miss} =ᵐ[μ] {ω | ∀ i < L, ∀ k < (r ω).count (density * lx * ly) i,
      ((r ω).alpha (∑ j ∈ Finset.range i, (r ω).count (density * lx * ly) j + k), (r ω).pos i k) ∉ covering p x0 lx y0 ly (F i) (top.zmean - i * agg) x y z} := by
    filter_upwards [hts] with ω h
    exact propext (troughs_miss hread hg h hdensity hlength hwidth hdepth hagg hbuffer hte hmig hx0 hlx hy0 hly hlz hper h0 h7 h2 h3 h4 hL hF x y z)
  cases numVal_some_inj hp.length hlength
  cases numVal_some_inj hp.erosive.width hwidth
  cases numVal_some_inj hp.erosive.depth hdepth
  rw [measure_congr e]
  exact clear_probability hr h1 h2 h3 h4 h5 h6 fun i hi => ⟨(hF i hi).2, hin i hi⟩

/-! ### Realisations -/

/-- How the troughs of an AE are placed. -/
theorem trough_objects {C : Convs} {p : Ini} {P : Parsed} (h : parseInifile C p = .ok P) {ids : List (String × ℕ)} {r : Randoms ℝ}
    {o : ℕ → ℕ → ObjRandoms} {d : ℕ → StratumDraw ℝ} {m : GenModel ℝ} {cms' : Contacts ℝ}
    (hr : generateObjects P ids r o d = .ok (m, cms')) {si : ℕ} {s : StratumReal ℝ} (hs : m.strata[si]? = some s) {n : ℕ} {a : AEReal ℝ}
    (ha : s.aes[n]? = some a) {e : Element} (he : (a.name, e) ∈ P.elements) (hg : written e.dict "geometry" "trough") :
    ∃ g q bottom top ts k, readGrid P.model = .ok g ∧ readTrough e.dict = .ok q ∧ m.heap.nx = g.nx ∧ m.heap.ny = g.ny ∧
      Highest m.heap.nx m.heap.ny (m.heap.get a.bottom).vals bottom.zmax ∧ (m.heap.get a.top).zmean = top.zmean ∧
      placeTroughs q g (o si n) bottom top = .ok ts ∧ a.objs = (numberObjs k (numbered (fun k => Trough.toObj g ((o si n).stray k)) 0 ts)).2 := by
  obtain ⟨g, shapes, hgr, hsh, hnx, hny, hall⟩ := ae_parts h hr
  obtain ⟨e', i, t, sp, gz, a0, dd, Q, he', hname, hre, hrun, hsame, hobjs, -⟩ := hall si s n a hs ha
  cases element_unique h he' he
  have hgeo := geometry_read hre hg
  obtain ⟨H, H', hok, hb, ht, -, -, hkeep, hmax, -, hgen⟩ := hrun.run
  have hgeo' : (t.cast : ElemParams ℝ).geometry = "trough" := hgeo
  unfold genAE at hgen
  dsimp only at hgen
  rw [if_pos (Or.inl hgeo')] at hgen
  simp only [bind_ok, pure_ok] at hgen
  obtain ⟨os, hos, heq⟩ := hgen
  have hos := liftObjs_ok.1 hos
  simp only [Prod.mk.injEq] at heq
  obtain ⟨-, heq⟩ := heq
  have hobjs0 : a0.objs = os := by rw [← heq]
  rw [hobjs] at hos
  unfold objectsOf at hos
  rw [show (t.cast : ElemParams ℝ).name = a.name from hname] at hos
  split at hos
  · rename_i q hq
    obtain ⟨e2, he2, hrs⟩ := shape_of hsh hq
    cases element_unique h he2 he
    rcases readShape_geometry hrs with ⟨q', hqq, hread, -⟩ | ⟨_, hqq, -⟩ | ⟨_, hqq, -⟩ <;> cases hqq
    rw [Option.some.injEq] at hos
    cases hts : placeTroughs q g (o si n) (H.get a0.bottom) (H.get a0.top) with
    | error x => rw [hts] at hos; cases hos
    | ok ts =>
      rw [hts] at hos
      have hos' : numbered (fun k => Trough.toObj g ((o si n).stray k)) 0 ts = os := Except.ok.inj hos
      obtain ⟨k, hk⟩ := hsame.objs
      refine ⟨g, q, H.get a0.bottom, H.get a0.top, ts, k, hgr, hread, hnx, hny, ⟨fun i hi j hj => ?_, ?_⟩, ?_, hts, ?_⟩
      · rw [hsame.bottom, hkeep.vals _ hb i (by rw [← hkeep.nx]; exact hi) j (by rw [← hkeep.ny]; exact hj)]
        exact ((hok _ hb) i (by rw [← hkeep.nx]; exact hi) j (by rw [← hkeep.ny]; exact hj)).2
      · obtain ⟨i, hi, j, hj, hij⟩ := hmax
        exact ⟨i, by rw [hkeep.nx]; exact hi, j, by rw [hkeep.ny]; exact hj, by rw [hsame.bottom, hkeep.vals _ hb i hi j hj, hij]⟩
      · rw [hsame.top, hkeep.zmean _ ht]
      · rw [hk, hobjs0, ← hos']
  · rename_i q hq
    obtain ⟨e2, he2, hrs⟩ := shape_of hsh hq
    cases element_unique h he2 he
    rcases readShape_geometry hrs with ⟨q', hqq, hread, -⟩ | ⟨_, hqq, -, hc⟩ | ⟨_, hqq, -⟩ <;> cases hqq
    exact absurd (written_eq hg hc) (by decide)
  · cases hos

/-- **C138.** In the realisations of an ini-file, the probability that a cell of an AE of a trough section, away from the lateral edges of the domain, is in none of its
troughs and therefore background is `exp (-trough_density * S)`, where `S` is the sum of the areas of the horizontal sections of a trough, one from each level above
the bottom of the AE, at the elevation of the cell. The AE is that number `n` of stratum `si`; the mean of its top and the highest point of its bottom are the same in
all realisations, as between flat contacts. -/
theorem C138 {Ω : Type} [MeasurableSpace Ω] {μ : Measure Ω} (C : Convs) (p : Ini) (P : Parsed) (h : parseInifile C p = .ok P) (ids : List (String × ℕ))
    (r : Ω → Randoms ℝ) (o : Ω → ℕ → ℕ → ObjRandoms) (d : Ω → ℕ → StratumDraw ℝ) (m : Ω → GenModel ℝ)
    (cms : Ω → Contacts ℝ) (hm : ∀ ω, generateObjects P ids (r ω) (o ω) (d ω) = .ok (m ω, cms ω)) (si n : ℕ) (hr : RandomTroughs μ fun ω => o ω si n)
    (s : Ω → StratumReal ℝ) (hs : ∀ ω, (m ω).strata[si]? = some (s ω)) (a : Ω → AEReal ℝ) (ha : ∀ ω, (s ω).aes[n]? = some (a ω)) (name : String)
    (hname : ∀ ω, (a ω).name = name) (e : Element) (he : (name, e) ∈ P.elements) (hgeo : written e.dict "geometry" "trough") (bz tz : ℝ)
    (hb : ∀ ω, Highest (m ω).heap.nx (m ω).heap.ny ((m ω).heap.get (a ω).bottom).vals bz) (ht : ∀ ω, ((m ω).heap.get (a ω).top).zmean = tz)
    (density length width depth agg buffer x0 lx y0 ly lz : ℚ)
    (hdensity : e.dict "trough_density" = some (numVal density)) (hlength : e.dict "length" = some (numVal length)) (hwidth : e.dict "width" = some (numVal width))
    (hdepth : e.dict "depth" = some (numVal depth)) (hagg : e.dict "agg" = some (numVal agg)) (hbuffer : e.dict "buffer" = some (numVal buffer))
    (hte : e.dict "te_xyz" = some (.leaf .none)) (hmig : e.dict "migrate" = some (.leaf .none))
    (hx0 : P.model "x0" = some (numVal x0)) (hlx : P.model "lx" = some (numVal lx)) (hy0 : P.model "y0" = some (numVal y0))
    (hly : P.model "ly" = some (numVal ly)) (hlz : P.model "lz" = some (numVal lz)) (hper : P.model "periodic" = some (.leaf (.bool false)))
    (h0 : 0 < agg) (h1 : 0 ≤ density) (h2 : 0 < length) (h3 : 0 < width) (h4 : 0 < depth) (h5 : 0 < lx) (h6 : 0 < ly) (h7 : lz ≠ 0) (L : ℕ)
    (hL : ∀ i : ℕ, i < L ↔ bz + depth * buffer < tz - i * agg) (F : ℕ → ℝ) (hF : ∀ i < L, TrendFactor P.model e.dict (tz - i * agg) (F i) ∧ 0 < F i)
    (i j : ℕ) (hij : ∀ ω, i < (m ω).heap.nx ∧ j < (m ω).heap.ny) (x y z : ℝ) (hc : CellCentre P.model i j x y)
    (hin : ∀ l < L, x0 ≤ x - F l * max (length : ℝ) width / 2 ∧ x + F l * max (length : ℝ) width / 2 < x0 + lx ∧
      y0 ≤ y - F l * max (length : ℝ) width / 2 ∧ y + F l * max (length : ℝ) width / 2 < y0 + ly) :
    μ {ω | ∀ ob ∈ (a ω).objs, ob.answer i j z = none} =
      ENNReal.ofReal (exp (-(density * ∑ l ∈ Finset.range L, crossSection (F l * length) (F l * width) (F l * depth) (tz - l * agg - z)))) := by
  have hprob : IsProbabilityMeasure μ := (hr.levels 0).isProbabilityMeasure
  obtain ⟨ω0⟩ := nonempty_of_isProbabilityMeasure μ
  obtain ⟨g, q, -, -, -, -, hg, hread, -⟩ := trough_objects h (hm ω0) (hs ω0) (ha ω0) (by rw [hname]; exact he) hgeo
  have hp := readTrough_from hread
  have key : ∀ ω, (∀ ob ∈ (a ω).objs, ob.answer i j z = none) ↔ ∀ l < L, ∀ k < (o ω si n).count (density * lx * ly) l,
      ((o ω si n).alpha (∑ j ∈ Finset.range l, (o ω si n).count (density * lx * ly) j + k), (o ω si n).pos l k) ∉
        covering q x0 lx y0 ly (F l) (tz - l * agg) x y z := by
    intro ω
    obtain ⟨g', q', bottom, top, ts, k, hg', hread', hnx, hny, hlow, hmean, hts, hobjs⟩ :=
      trough_objects h (hm ω) (hs ω) (ha ω) (by rw [hname]; exact he) hgeo
    rw [hg] at hg'
    cases hg'
    rw [hread] at hread'
    cases hread'
    have hbz : bottom.zmax = bz := by
      obtain ⟨w1, i1, j1, k1, l1, f1⟩ := hlow
      obtain ⟨w2, i2, j2, k2, l2, f2⟩ := hb ω
      exact le_antisymm (f1 ▸ w2 i1 j1 k1 l1) (f2 ▸ w1 i2 j2 k2 l2)
    have htz : top.zmean = tz := by rw [← hmean, ht]
    subst hbz htz
    rw [← troughs_miss hread hg hts hdensity hlength hwidth hdepth hagg hbuffer hte hmig hx0 hlx hy0 hly hlz hper h0 h7 h2 h3 h4 hL hF x y z]
    obtain ⟨hx, hy⟩ := cell_coord (readGrid_from hg) (by rw [← hnx]; exact (hij ω).1) (by rw [← hny]; exact (hij ω).2) hc
    have hnew : ∀ (k : ℕ) (t : Trough), ts[k]? = some t → ∀ st, (t.toObj g st).answer i j z = none ↔ t.test g x y z = .miss := by
      intro k t hk st
      simp only [placeTroughs, bind_ok] at hts
      obtain ⟨_, -, hts⟩ := hts
      obtain ⟨te, -, hmk⟩ := generateTroughs_split hts
      obtain ⟨q, -, hn⟩ := makeTroughs_get hmk hk
      show (t.test g (coord g.x i) (coord g.y j) z).toCell st = none ↔ _
      rw [hx, hy]
      exact not_iff_not.1 (toCell_ne_none (Trough.test_no_error hn g x y z))
    constructor
    · intro hall t htm
      obtain ⟨l, hl⟩ := List.mem_iff_getElem?.1 htm
      have hmem : (numberObjs k (numbered (fun k => Trough.toObj g ((o ω si n).stray k)) 0 ts)).2[l]? = some
          { t.toObj g ((o ω si n).stray (0 + l)) with numHa := k + (l : ℤ) } := by
        rw [numberObjs_get, numbered_get, hl]
        rfl
      rw [← hobjs] at hmem
      have := hall _ (List.mem_of_getElem? hmem)
      exact (hnew l t hl ((o ω si n).stray (0 + l))).1 this
    · intro hall ob hob
      rw [hobjs] at hob
      obtain ⟨ob', hob', -, -, hans⟩ := numberObjs_mem hob
      obtain ⟨l, hl⟩ := List.mem_iff_getElem?.1 hob'
      rw [numbered_get, Option.map_eq_some_iff] at hl
      obtain ⟨t, htl, rfl⟩ := hl
      rw [hans]
      exact (hnew l t htl _).2 (hall t (List.mem_of_getElem? htl))
  simp only [key]
  cases numVal_some_inj hp.length hlength
  cases numVal_some_inj hp.erosive.width hwidth
  cases numVal_some_inj hp.erosive.depth hdepth
  exact clear_probability hr h1 h2 h3 h4 h5 h6 fun i hi => ⟨(hF i hi).2, hin i hi⟩

/-! ### Example -/

/-- Poisson numbers for all means and levels, and points for all troughs, all independent. -/
noncomputable def troughsLaw : Measure ((NNReal × ℕ → ℕ) × (ℕ × ℕ → ℝ × ℝ)) :=
  (Measure.infinitePi fun mi : NNReal × ℕ => poissonMeasure mi.1).prod (Measure.infinitePi fun _ => unitLaw.prod unitLaw)

instance : IsProbabilityMeasure troughsLaw := by
  unfold troughsLaw
  infer_instance

/-- Random troughs; other numbers as in the examples above. -/
noncomputable def exTroughs (ω : (NNReal × ℕ → ℕ) × (ℕ × ℕ → ℝ × ℝ)) : ObjRandoms :=
  { exObjReals with
    count := fun mean i => ω.1 (mean.toNNReal, i)
    pos := fun i k => (intoUnit (ω.2 (i, k)).1, intoUnit (ω.2 (i, k)).2) }

theorem exTroughs_unit (ω : (NNReal × ℕ → ℕ) × (ℕ × ℕ → ℝ × ℝ)) : UniformObjs (exTroughs ω) :=
  { exObjReals_unit with pos := fun i k => ⟨(intoUnit_unit (ω.2 (i, k)).1).1, (intoUnit_unit (ω.2 (i, k)).1).2, (intoUnit_unit (ω.2 (i, k)).2).1,
      (intoUnit_unit (ω.2 (i, k)).2).2⟩ }

theorem exTroughs_random : RandomTroughs troughsLaw exTroughs := by
  have hc : ∀ (mean : NNReal) (i : ℕ), (fun ω => (exTroughs ω).count mean i) = Function.eval (mean, i) ∘ Prod.fst := by
    intro mean i
    funext ω
    show ω.1 (Real.toNNReal (mean : ℝ), i) = _
    rw [Real.toNNReal_coe]
    rfl
  have hu : Measurable fun q : ℝ × ℝ => (intoUnit q.1, intoUnit q.2) :=
    (intoUnit_measurable.comp measurable_fst).prodMk (intoUnit_measurable.comp measurable_snd)
  have hu' : Measurable fun (f : ℕ × ℕ → ℝ × ℝ) (ik : ℕ × ℕ) => (intoUnit (f ik).1, intoUnit (f ik).2) :=
    measurable_pi_lambda _ fun ik => hu.comp (measurable_pi_apply ik)
  have hm : ∀ (mean : NNReal) (i : ℕ), Measurable (fun ω => (exTroughs ω).count mean i) := by
    intro mean i
    rw [hc]
    exact (measurable_pi_apply _).comp measurable_fst
  refine ⟨fun mean i => ?_, fun mean => ?_, ?_, fun n => measurable_const.aemeasurable, fun mean => ?_⟩
  · refine ⟨(hm mean i).aemeasurable, ?_⟩
    rw [hc, ← Measure.map_map (measurable_pi_apply (mean, i)) measurable_fst]
    unfold troughsLaw
    rw [Measure.map_fst_prod]
    simp only [measure_univ, one_smul]
    exact Measure.infinitePi_map_eval (fun mi : NNReal × ℕ => poissonMeasure mi.1) (mean, i)
  · rw [iIndepFun_iff_measure_inter_preimage_eq_mul]
    intro S sets hsets
    have hind := iIndepFun_infinitePi (P := fun mi : NNReal × ℕ => poissonMeasure mi.1) (X := fun _ n => n) (fun _ => measurable_id)
    have hind' := hind.precomp (g := fun i : ℕ => (mean, i)) (fun a b hab => by simpa using hab)
    have hfst : ∀ A, troughsLaw (Prod.fst ⁻¹' A) = (Measure.infinitePi fun mi : NNReal × ℕ => poissonMeasure mi.1) A := by
      intro A
      unfold troughsLaw
      rw [← Set.prod_univ, Measure.prod_prod, measure_univ, mul_one]
    have := (iIndepFun_iff_measure_inter_preimage_eq_mul.1 hind') S hsets
    simp only [hc, Set.preimage_comp, ← Set.preimage_iInter₂, hfst]
    exact this
  · have e : (fun ω (ik : ℕ × ℕ) => (exTroughs ω).pos ik.1 ik.2) = (fun f ik => (intoUnit (f ik).1, intoUnit (f ik).2)) ∘ Prod.snd := rfl
    rw [e]
    refine ⟨(hu'.comp measurable_snd).aemeasurable, ?_⟩
    rw [← Measure.map_map hu' measurable_snd]
    unfold troughsLaw
    rw [Measure.map_snd_prod]
    simp only [measure_univ, one_smul]
    have h1 : ∀ᵐ q ∂(unitLaw.prod unitLaw), (intoUnit q.1, intoUnit q.2) = q := by
      filter_upwards [(Measure.quasiMeasurePreserving_fst (μ := unitLaw) (ν := unitLaw)).ae intoUnit_same,
        (Measure.quasiMeasurePreserving_snd (μ := unitLaw) (ν := unitLaw)).ae intoUnit_same] with q h1 h2
      rw [h1, h2]
    have h2 : ∀ᵐ f ∂(Measure.infinitePi fun _ : ℕ × ℕ => unitLaw.prod unitLaw), (fun ik => (intoUnit (f ik).1, intoUnit (f ik).2)) = f := by
      have : ∀ᵐ f ∂(Measure.infinitePi fun _ : ℕ × ℕ => unitLaw.prod unitLaw), ∀ ik : ℕ × ℕ, (intoUnit (f ik).1, intoUnit (f ik).2) = f ik := by
        rw [ae_all_iff]
        intro ik
        exact (measurePreserving_eval_infinitePi (fun _ : ℕ × ℕ => unitLaw.prod unitLaw) ik).quasiMeasurePreserving.ae h1
      filter_upwards [this] with f hf
      exact funext hf
    rw [Measure.map_congr h2, Measure.map_id']
  · exact indepFun_prod (μ := Measure.infinitePi fun mi : NNReal × ℕ => poissonMeasure mi.1) (ν := Measure.infinitePi fun _ : ℕ × ℕ => unitLaw.prod unitLaw)
      (X := fun f : NNReal × ℕ → ℕ => ((fun i => f (Real.toNNReal (mean : ℝ), i), exObjReals.alpha) : (ℕ → ℕ) × (ℕ → ℝ)))
      (Y := fun (f : ℕ × ℕ → ℝ × ℝ) (ik : ℕ × ℕ) => (intoUnit (f ik).1, intoUnit (f ik).2))
      ((measurable_pi_lambda _ fun i => measurable_pi_apply _).prodMk measurable_const) hu'

/-- The domain of the example is not periodic. -/
theorem exTrench_open : ∃ st, settings exMinus (exTrench "1" "5") ["m"] "a.ini".toList [] = .ok st ∧
    (trenchB 1 5 st.parsed && (decide (st.parsed.model "x0" = some (numVal 0)) && (decide (st.parsed.model "y0" = some (numVal 0)) &&
      (decide (st.parsed.model "periodic" = some (.leaf (.bool false))) &&
      st.parsed.elements.any fun q => decide (q.1 = "trench") && writtenB q.2.dict "geometry" "trough")))) = true := ok_check (by decide +kernel)

/-- C138 applies to the example: the cell with centre (47.5, 22.5, 8.5) is below the levels 10 and 9 by 3/2 and 1/2, at depths where the sections of the troughs have the areas
7/16 and 15/16 of an ellipse with the diameters 10 and 5. -/
example (field : FieldSource) : ∃ (st : Settings) (m : (NNReal × ℕ → ℕ) × (ℕ × ℕ → ℝ × ℝ) → GenModel ℝ) (a : (NNReal × ℕ → ℕ) × (ℕ × ℕ → ℝ × ℝ) → AEReal ℝ),
    settings exMinus (exTrench "1" "5") ["m"] "a.ini".toList [] = .ok st ∧
    (∀ ω, ∃ (d : ℕ → StratumDraw ℝ) (S : Simulation), simulate st.parsed st.ids exReals (fun _ _ => exTroughs ω) d field = .ok S ∧ S.model = m ω) ∧
    (∀ ω, ∃ s ∈ (m ω).strata, a ω ∈ s.aes) ∧
    troughsLaw {ω | ∀ ob ∈ (a ω).objs, ob.answer 9 4 (17 / 2) = none} = ENNReal.ofReal (exp (-(π * (25 / 2) * (7 / 16) + π * (25 / 2) * (15 / 16)))) := by
  obtain ⟨st, hst, hb⟩ := exTrench_open
  simp only [Bool.and_eq_true, decide_eq_true_eq] at hb
  obtain ⟨hb, hx0, hy0, hper, hel⟩ := hb
  obtain ⟨⟨nm, e⟩, he, hel⟩ := List.any_eq_true.1 hel
  simp only [Bool.and_eq_true, decide_eq_true_eq] at hel
  obtain ⟨rfl, hgeo⟩ := hel
  have hgeo := written_check hgeo
  have ht := trench_of hb
  obtain ⟨p1, p2, -⟩ := settings_facts (trench_new "1" "5") hst
  have run : ∀ ω, ∃ N S, simulate st.parsed st.ids exReals (fun _ _ => exTroughs ω) (fun si => withFuel N (exRealDraws si)) field = .ok S := by
    intro ω
    obtain ⟨F, S, -, hF⟩ := C108_finishes exMinus exMinus_number exMinus_whole (exTrench "1" "5") (trench_new "1" "5") _ _ _ st hst (trench_filled ht)
      (trench_placeable ht) (trench_tabled "1" "5") (trench_layers ht) (fun _ => ht.heterogeneity) _ ht.names _ _ (by norm_num) (trench_thick ht) exReals exReals_unit
      (by intro si n; simp only [exReals]; norm_num) (fun _ _ => exTroughs ω) (fun _ _ => exTroughs_unit ω) exRealDraws field
    exact ⟨F, S, hF F le_rfl⟩
  choose N S hS using run
  have gen : ∀ ω, ∃ cms' s a, generateObjects st.parsed st.ids exReals (fun _ _ => exTroughs ω) (fun si => withFuel (N ω) (exRealDraws si)) = .ok ((S ω).model, cms') ∧
      (S ω).model.strata[0]? = some s ∧ s.aes[0]? = some a ∧ a.name = "trench" ∧
      Highest (S ω).model.heap.nx (S ω).model.heap.ny ((S ω).model.heap.get a.bottom).vals 4 ∧ ((S ω).model.heap.get a.top).zmean = 10 ∧
      (9 < (S ω).model.heap.nx ∧ 4 < (S ω).model.heap.ny) := by
    intro ω
    obtain ⟨cms', -, hr, -⟩ := simulate_grid (hS ω)
    obtain ⟨hlen, hflat⟩ := flat_strata p1 (trench_contacts ht) hr
    obtain ⟨hx, hy⟩ := shape_heap p1 (hS ω)
    rw [trench_shape ht (hS ω)] at hx hy
    obtain ⟨s, hs⟩ : ∃ s, (S ω).model.strata[0]? = some s := ⟨_, List.getElem?_eq_getElem (by rw [hlen]; simp)⟩
    obtain ⟨a, ha, c1, c2, c3⟩ := trench_one hst ht hr hs
    obtain ⟨b, t, q1, q2, q3, q4, q5⟩ := hflat 0 s hs
    have eb : b = 4 := by
      simp [planes] at q1
      exact q1.symm
    have et : t = 10 := by
      simp [planes] at q2
      exact q2.symm
    subst eb et
    refine ⟨cms', s, a, hr, hs, by rw [ha]; rfl, c3 rfl, ?_, ?_, by rw [hx]; norm_num, by rw [hy]; norm_num⟩
    · rw [c1]
      refine ⟨fun i hi j hj => ?_, 0, by rw [hx]; norm_num, 0, by rw [hy]; norm_num, ?_⟩
      · rw [(q5 i hi j hj).1]
        norm_num
      · rw [(q5 0 (by rw [hx]; norm_num) 0 (by rw [hy]; norm_num)).1]
        norm_num
    · rw [c2, q4]
      norm_num
  choose cms s a hm hs ha hname hlow hhigh hcell using gen
  have hkind : ∀ b ∈ [("length", (10 : ℚ)), ("width", 5), ("depth", 2), ("agg", 1), ("trough_density", 1), ("buffer", 0), ("lag_height", 0)],
      e.dict b.1 = some (numVal b.2) := by
    rcases ht.kinds _ _ he with ⟨h1, -⟩ | ⟨-, h2, -⟩
    · exact absurd (written_eq h1 hgeo) (by decide)
    · exact h2
  have hnone : ∀ k ∈ ["te_xyz", "size_ztrend", "migrate"], e.dict k = some (.leaf .none) := by
    rcases ht.kinds _ _ he with ⟨h1, -⟩ | ⟨-, -, h2⟩
    · exact absurd (written_eq h1 hgeo) (by decide)
    · exact h2
  refine ⟨st, fun ω => (S ω).model, a, hst, fun ω => ⟨_, S ω, hS ω, rfl⟩, fun ω => ⟨s ω, List.mem_of_getElem? (hs ω), List.mem_of_getElem? (ha ω)⟩, ?_⟩
  have key := C138 (μ := troughsLaw) exMinus _ _ p1 st.ids (fun _ => exReals) (fun ω _ _ => exTroughs ω)
    (fun ω si => withFuel (N ω) (exRealDraws si)) (fun ω => (S ω).model) cms hm 0 0 exTroughs_random s hs a ha "trench" hname e he hgeo 4 10 hlow hhigh 1 10 5 2 1 0 0 100 0 50 10
    (hkind ("trough_density", 1) (by simp)) (hkind ("length", 10) (by simp)) (hkind ("width", 5) (by simp)) (hkind ("depth", 2) (by simp)) (hkind ("agg", 1) (by simp))
    (hkind ("buffer", 0) (by simp)) (hnone _ (by simp)) (hnone _ (by simp)) hx0 (ht.domain ("lx", 100) (by simp)) hy0 (ht.domain ("ly", 50) (by simp))
    (ht.domain ("lz", 10) (by simp)) hper one_pos zero_le_one (by norm_num) (by norm_num) (by norm_num) (by norm_num) (by norm_num) (by norm_num) 6
    (fun i => by
      have : i < 6 ↔ (i : ℝ) < 6 := by exact_mod_cast Iff.rfl
      rw [this]
      push_cast
      constructor <;> intro h <;> linarith) (fun _ => 1) (fun i _ => ⟨.constant (hnone _ (by simp)) rfl, one_pos⟩) 9 4 hcell (95 / 2) (45 / 2) (17 / 2)
    ⟨0, 5, 0, 5, hx0, ht.domain ("dx", 5) (by simp), hy0, ht.domain ("dy", 5) (by simp), by norm_num, by norm_num⟩ (fun _ _ => by norm_num)
  have area : ((1 : ℚ) : ℝ) * ∑ l ∈ Finset.range 6, crossSection (1 * ((10 : ℚ) : ℝ)) (1 * ((5 : ℚ) : ℝ)) (1 * ((2 : ℚ) : ℝ)) (10 - (l : ℝ) * ((1 : ℚ) : ℝ) - 17 / 2) =
      π * (25 / 2) * (7 / 16) + π * (25 / 2) * (15 / 16) := by
    simp only [Finset.sum_range_succ, Finset.sum_range_zero, crossSection]
    norm_num
    ring
  rw [key, area]

/-- C138 applies to the section of troughs of the example between planes at 4 and 10: the point (20, 30, 9) is as likely free of troughs as (80, 10, 9). -/
example : ∃ (d m : Dict) (p : TroughRead) (g : Grid) (bottom top : Surface ℝ) (ts : (NNReal × ℕ → ℕ) × (ℕ × ℕ → ℝ × ℝ) → List Trough),
    readTrough d = .ok p ∧ readGrid m = .ok g ∧ (∀ ω, placeTroughs p g (exTroughs ω) bottom top = .ok (ts ω)) ∧
    troughsLaw {ω | ∀ t ∈ ts ω, t.test g 20 30 9 = .miss} = ENNReal.ofReal (exp (-(π * (25 / 2) * (3 / 4) + π * (25 / 2)))) ∧
    troughsLaw {ω | ∀ t ∈ ts ω, t.test g 80 10 9 = .miss} = ENNReal.ofReal (exp (-(π * (25 / 2) * (3 / 4) + π * (25 / 2)))) := by
  obtain ⟨st, hst, hb⟩ := exTrench_open
  simp only [Bool.and_eq_true, decide_eq_true_eq] at hb
  obtain ⟨hb, hx0, hy0, hper, hel⟩ := hb
  obtain ⟨⟨nm, e⟩, he, hel⟩ := List.any_eq_true.1 hel
  simp only [Bool.and_eq_true, decide_eq_true_eq] at hel
  obtain ⟨rfl, hgeo⟩ := hel
  have hgeo := written_check hgeo
  have ht := trench_of hb
  obtain ⟨p1, p2, -⟩ := settings_facts (trench_new "1" "5") hst
  obtain ⟨F, S, -, hF⟩ := trench_simulated hst ht (fun _ _ _ _ => 0)
  obtain ⟨-, g, -, hg, -⟩ := simulate_grid (hF F le_rfl)
  obtain ⟨x, hx, hfits⟩ := shape_read exMinus_number exMinus_whole p1 (trench_filled ht) (trench_placeable ht) he
  cases hfits with
  | sheet h1 => exact absurd (written_eq h1 hgeo) (by decide)
  | channel h1 => exact absurd (written_eq h1 hgeo) (by decide)
  | @trough p _ place =>
    have hread : readTrough e.dict = .ok p := by
      unfold readShape at hx
      simp only [bind_ok, dget_ok] at hx
      obtain ⟨gv, h1, t, h2, h3⟩ := hx
      unfold written at hgeo
      rw [hgeo] at h1
      cases h1
      cases h2
      rw [if_pos rfl] at h3
      simp only [bind_ok, pure_ok] at h3
      obtain ⟨p', h4, h5⟩ := h3
      cases h5
      exact h4
    have hkind : ∀ b ∈ [("length", (10 : ℚ)), ("width", 5), ("depth", 2), ("agg", 1), ("trough_density", 1), ("buffer", 0), ("lag_height", 0)],
        e.dict b.1 = some (numVal b.2) := by
      rcases ht.kinds _ _ he with ⟨h1, -⟩ | ⟨-, h2, -⟩
      · exact absurd (written_eq h1 hgeo) (by decide)
      · exact h2
    have hnone : ∀ k ∈ ["te_xyz", "size_ztrend", "migrate"], e.dict k = some (.leaf .none) := by
      rcases ht.kinds _ _ he with ⟨h1, -⟩ | ⟨-, -, h2⟩
      · exact absurd (written_eq h1 hgeo) (by decide)
      · exact h2
    have glx : g.lx = 100 := by
      obtain ⟨q, e1, e2⟩ := (grid_of hg).lx
      rw [e2, numVal_some_inj e1 (ht.domain ("lx", 100) (by simp))]
      norm_num
    have gly : g.ly = 50 := by
      obtain ⟨q, e1, e2⟩ := (grid_of hg).ly
      rw [e2, numVal_some_inj e1 (ht.domain ("ly", 50) (by simp))]
      norm_num
    have placed := fun ω => place g (exTroughs ω) ⟨fun _ _ => 4, 4, 4, 4⟩ ⟨fun _ _ => 10, 10, 10, 10⟩ (by rw [glx]; norm_num) (by rw [gly]; norm_num) (exTroughs_unit ω)
    choose ts hts using placed
    have clear := fun x y hin => C138_clear (μ := troughsLaw) _ _ _ hread _ hg _ _ _ exTroughs_random ts (.of_forall hts) 1 10 5 2 1 0 0 100 0 50 10
      (hkind ("trough_density", 1) (by simp)) (hkind ("length", 10) (by simp)) (hkind ("width", 5) (by simp)) (hkind ("depth", 2) (by simp)) (hkind ("agg", 1) (by simp))
      (hkind ("buffer", 0) (by simp)) (hnone _ (by simp)) (hnone _ (by simp)) hx0 (ht.domain ("lx", 100) (by simp)) hy0 (ht.domain ("ly", 50) (by simp))
      (ht.domain ("lz", 10) (by simp)) hper one_pos zero_le_one (by norm_num) (by norm_num) (by norm_num) (by norm_num) (by norm_num) (by norm_num) 6
      (fun i => by
        have : i < 6 ↔ (i : ℝ) < 6 := by exact_mod_cast Iff.rfl
        rw [this]
        push_cast
        constructor <;> intro h <;> linarith) (fun _ => 1) (fun i _ => ⟨.constant (hnone _ (by simp)) rfl, one_pos⟩) x y 9 hin
    have area : ((1 : ℚ) : ℝ) * ∑ l ∈ Finset.range 6, crossSection (1 * ((10 : ℚ) : ℝ)) (1 * ((5 : ℚ) : ℝ)) (1 * ((2 : ℚ) : ℝ)) (10 - (l : ℝ) * ((1 : ℚ) : ℝ) - 9) =
        π * (25 / 2) * (3 / 4) + π * (25 / 2) := by
      simp only [Finset.sum_range_succ, Finset.sum_range_zero, crossSection]
      norm_num
      ring
    refine ⟨e.dict, st.parsed.model, p, g, _, _, ts, hread, hg, hts, ?_, ?_⟩
    · rw [clear 20 30 (fun _ _ => by norm_num), area]
    · rw [clear 80 10 (fun _ _ => by norm_num), area]

end Hyvr
