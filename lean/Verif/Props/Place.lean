import Verif.Props.Trough
import Verif.Lemmas.Arange
import Verif.Lemmas.Term

/-!
C24 (placement of troughs) and C25 (trend of the sizes).
-/

namespace Hyvr

open Py

/-! ### Levels -/

/-- Number of levels: index `i` is a level iff its elevation is above the lowest allowed one. -/
theorem planesZ_eq {p : TroughParams} {bz tz : ℝ} (hagg : 0 < p.agg) : ∃ L : ℕ,
    planesZ p bz tz = (List.range L).map (fun i : ℕ => tz - i * p.agg) ∧
    ∀ i : ℕ, i < L ↔ bz + p.depth * p.buffer < tz - i * p.agg := by
  refine ⟨arangeLen tz (bz + p.depth * p.buffer) (-p.agg), ?_, ?_⟩
  · unfold planesZ arange
    apply List.map_congr_left
    intro i _
    ring
  · intro i
    have e : (bz + p.depth * p.buffer - tz) / -p.agg = (tz - (bz + p.depth * p.buffer)) / p.agg := by
      rw [div_neg, ← neg_div]; ring
    unfold arangeLen
    rw [e, Int.lt_toNat, Int.lt_ceil, lt_div_iff₀ hagg]
    push_cast
    constructor <;> intro h <;> linarith

theorem zip_range_map (L : ℕ) (f : ℕ → ℝ) :
    (List.range ((List.range L).map f).length).zip ((List.range L).map f) = (List.range L).map fun i => (i, f i) := by
  rw [List.length_map, List.length_range]
  conv_lhs => rw [← List.map_id (List.range L)]
  rw [List.map_id, List.zip_map_right, List.zip_eq_zipWith, List.zipWith_self, List.map_map]
  rfl

theorem placeNew_eq (d : PlaceDraw) (i n : ℕ) (z : ℝ) (te : List (ℝ × ℝ × ℝ)) :
    placeNew d i n z te = te ++ (List.range n).map fun k => ((d.pos i k).1, (d.pos i k).2, z) := by
  unfold placeNew
  induction n with
  | zero => simp
  | succ n ih => rw [List.range_succ, List.foldl_append, ih]; simp

/-- Displacing the `n` centres of level `i - 1`, which are the last of the list. -/
theorem placeMoved_eq (d : PlaceDraw) (i n : ℕ) (z : ℝ) (te : List (ℝ × ℝ × ℝ)) (q : ℕ → ℝ × ℝ)
    (hq : ∀ k < n, ∃ z', te[k + (i - 1) * n]? = some ((q k).1, (q k).2, z')) :
    placeMoved d i n z te = .ok (te ++ (List.range n).map fun k =>
      ((q k).1 + (d.move i k).1, (q k).2 + (d.move i k).2, z)) := by
  have key : ∀ m ≤ n, (List.range m).foldlM (fun te k =>
      match te[k + (i - 1) * n]? with
      | some q => Except.ok (te ++ [(q.1 + (d.move i k).1, q.2.1 + (d.move i k).2, z)])
      | none => .error PyErr.indexError) te = .ok (te ++ (List.range m).map fun k =>
      ((q k).1 + (d.move i k).1, (q k).2 + (d.move i k).2, z)) := by
    intro m
    induction m with
    | zero => intro _; simp [pure, Except.pure]
    | succ m ih =>
      intro hm
      obtain ⟨z', hz'⟩ := hq m (by omega)
      have hlt : m + (i - 1) * n < te.length := by
        by_contra hc
        rw [List.getElem?_eq_none (by omega)] at hz'
        simp at hz'
      rw [List.range_succ, List.foldlM_append, ih (by omega)]
      simp only [bind, Except.bind, List.foldlM_cons, List.foldlM_nil, List.map_append, List.map_cons, List.map_nil]
      rw [List.getElem?_append_left hlt, hz']
      simp [pure, Except.pure]
  exact key n le_rfl

/-! ### C24 -/

namespace Spec

/-- Displacement of trough `k` of level 0 after `i` levels. -/
noncomputable def drift (move : ℕ → ℕ → ℝ × ℝ) (k : ℕ) (i : ℕ) : ℝ × ℝ :=
  (((List.range i).map fun j => (move (j + 1) k).1).sum, ((List.range i).map fun j => (move (j + 1) k).2).sum)

theorem drift_succ (move : ℕ → ℕ → ℝ × ℝ) (k i : ℕ) :
    drift move k (i + 1) = ((drift move k i).1 + (move (i + 1) k).1, (drift move k i).2 + (move (i + 1) k).2) := by
  simp [drift, List.range_succ]

end Spec

open Spec

/-- **C24 (without migration).** The generated centres are, level by level from the top, the drawn positions on the levels at the AE's mean top
minus multiples of `agg`; the levels are exactly those above the AE bottom's maximum plus the buffer. Generation never fails. -/
theorem C24_positions {p : TroughParams} {d : PlaceDraw} {bz tz : ℝ} (hagg : 0 < p.agg) (hm : p.migrate = false) :
    ∃ L : ℕ, (∀ i : ℕ, i < L ↔ bz + p.depth * p.buffer < tz - i * p.agg) ∧
    troughPositions p d bz tz = .ok ((List.range L).flatMap fun i =>
      (List.range (d.count i)).map fun k => ((d.pos i k).1, (d.pos i k).2, tz - i * p.agg)) := by
  obtain ⟨L, hL, hlev⟩ := planesZ_eq (bz := bz) (tz := tz) hagg
  refine ⟨L, hlev, ?_⟩
  unfold troughPositions
  dsimp only
  rw [hL, zip_range_map]
  have key : ∀ M : ℕ, ∃ c, ((List.range M).map fun i : ℕ => (i, tz - i * p.agg)).foldlM (placeLevel p d)
      (([] : List (ℝ × ℝ × ℝ)), 0) = .ok ((List.range M).flatMap fun i =>
      (List.range (d.count i)).map fun k => ((d.pos i k).1, (d.pos i k).2, tz - i * p.agg), c) := by
    intro M
    induction M with
    | zero => exact ⟨0, rfl⟩
    | succ M ih =>
      obtain ⟨c, ih⟩ := ih
      refine ⟨d.count M, ?_⟩
      rw [List.range_succ, List.map_append, List.foldlM_append, ih, List.flatMap_append]
      simp only [bind, Except.bind, List.map_cons, List.map_nil, List.foldlM_cons, List.foldlM_nil, placeLevel]
      rw [if_pos (Or.inr hm), placeNew_eq]
      simp [pure, Except.pure]
  obtain ⟨c, hc⟩ := key L
  rw [hc]
  rfl

/-- **C24 (with migration).** Every level has as many troughs as the first; trough `k` of level `i` is trough `k` of the first level displaced by
the sum of the displacements drawn for the levels in between. Generation never fails. -/
theorem C24_migration {p : TroughParams} {d : PlaceDraw} {bz tz : ℝ} (hagg : 0 < p.agg) (hm : p.migrate = true) :
    ∃ L : ℕ, (∀ i : ℕ, i < L ↔ bz + p.depth * p.buffer < tz - i * p.agg) ∧
    troughPositions p d bz tz = .ok ((List.range L).flatMap fun i =>
      (List.range (d.count 0)).map fun k =>
        ((d.pos 0 k).1 + (drift d.move k i).1, (d.pos 0 k).2 + (drift d.move k i).2, tz - i * p.agg)) := by
  obtain ⟨L, hL, hlev⟩ := planesZ_eq (bz := bz) (tz := tz) hagg
  refine ⟨L, hlev, ?_⟩
  unfold troughPositions
  dsimp only
  rw [hL, zip_range_map]
  obtain ⟨n, hn⟩ : ∃ n, n = d.count 0 := ⟨_, rfl⟩
  rw [← hn]
  obtain ⟨f, hf⟩ : ∃ f : ℕ → ℕ → ℝ × ℝ × ℝ, f = fun i k =>
    ((d.pos 0 k).1 + (drift d.move k i).1, (d.pos 0 k).2 + (drift d.move k i).2, tz - i * p.agg) := ⟨_, rfl⟩
  have hlen : ∀ M : ℕ, ((List.range M).flatMap fun i => (List.range n).map (f i)).length = M * n := by
    intro M
    induction M with
    | zero => simp
    | succ M ih => rw [List.range_succ, List.flatMap_append, List.length_append, ih]; simp [Nat.succ_mul]
  have key : ∀ M : ℕ, ((List.range (M + 1)).map fun i : ℕ => (i, tz - i * p.agg)).foldlM (placeLevel p d)
      (([] : List (ℝ × ℝ × ℝ)), 0) = .ok ((List.range (M + 1)).flatMap fun i =>
      (List.range n).map (f i), n) := by
    intro M
    induction M with
    | zero =>
      simp only [zero_add, List.range_one, List.map_cons, List.map_nil, List.foldlM_cons, List.foldlM_nil, placeLevel, bind,
        Except.bind]
      rw [if_pos (Or.inl trivial), placeNew_eq, ← hn]
      simp [pure, Except.pure, hf, drift]
    | succ M ih =>
      rw [List.range_succ, List.map_append, List.foldlM_append, ih, List.flatMap_append]
      simp only [bind, Except.bind, List.map_cons, List.map_nil, List.foldlM_cons, List.foldlM_nil, placeLevel]
      rw [if_neg (by rw [hm]; simp)]
      rw [placeMoved_eq d (M + 1) n _ _ (fun k => ((f M k).1, (f M k).2.1))]
      · simp only [List.flatMap_cons, List.flatMap_nil, List.append_nil, pure, Except.pure]
        congr 4
        funext k
        rw [hf]
        dsimp only
        rw [drift_succ]
        ext <;> dsimp only <;> ring
      · intro k hk
        refine ⟨(f M k).2.2, ?_⟩
        rw [Nat.add_sub_cancel, List.range_succ, List.flatMap_append, List.getElem?_append_right (by rw [hlen]; omega), hlen]
        simp [hk]
  cases L with
  | zero => simp [List.foldlM, pure, Except.pure, bind, Except.bind]
  | succ M =>
    rw [key M, hf]
    rfl

/-- **C24 (consequences).** All centres lie at or below the AE's mean top and above the AE bottom's maximum plus the buffer; they are listed with
descending elevation; without migration they lie in the domain whenever the draws do. -/
theorem C24_within {p : TroughParams} {d : PlaceDraw} {bz tz : ℝ} (hagg : 0 < p.agg) {te : List (ℝ × ℝ × ℝ)}
    (h : troughPositions p d bz tz = .ok te) :
    (∀ q ∈ te, bz + p.depth * p.buffer < q.2.2 ∧ q.2.2 ≤ tz) ∧ te.Pairwise (fun q q' => q'.2.2 ≤ q.2.2) ∧
    (p.migrate = false → ∀ (x0 xmax y0 ymax : ℝ),
      (∀ i k, (x0 ≤ (d.pos i k).1 ∧ (d.pos i k).1 ≤ xmax) ∧ y0 ≤ (d.pos i k).2 ∧ (d.pos i k).2 ≤ ymax) →
      ∀ q ∈ te, (x0 ≤ q.1 ∧ q.1 ≤ xmax) ∧ y0 ≤ q.2.1 ∧ q.2.1 ≤ ymax) := by
  have main : ∀ (L : ℕ) (n : ℕ → ℕ) (f : ℕ → ℕ → ℝ × ℝ × ℝ), (∀ i k, (f i k).2.2 = tz - i * p.agg) →
      (∀ i : ℕ, i < L ↔ bz + p.depth * p.buffer < tz - i * p.agg) →
      (∀ q ∈ (List.range L).flatMap fun i => (List.range (n i)).map (f i),
        bz + p.depth * p.buffer < q.2.2 ∧ q.2.2 ≤ tz) ∧
      ((List.range L).flatMap fun i => (List.range (n i)).map (f i)).Pairwise (fun q q' => q'.2.2 ≤ q.2.2) := by
    intro L n f hf hL
    constructor
    · intro q hq
      simp only [List.mem_flatMap, List.mem_range, List.mem_map] at hq
      obtain ⟨i, hi, k, -, rfl⟩ := hq
      rw [hf]
      refine ⟨(hL i).1 hi, ?_⟩
      have : 0 ≤ (i : ℝ) * p.agg := by positivity
      linarith
    · clear hL
      induction L with
      | zero => simp
      | succ L ih =>
        rw [List.range_succ, List.flatMap_append, List.pairwise_append]
        refine ⟨ih, ?_, ?_⟩
        · simp only [List.flatMap_cons, List.flatMap_nil, List.append_nil]
          rw [List.pairwise_map]
          exact List.pairwise_of_forall (fun {a b} => by rw [hf, hf])
        · intro q hq q' hq'
          simp only [List.flatMap_cons, List.flatMap_nil, List.append_nil, List.mem_flatMap, List.mem_range, List.mem_map] at hq hq'
          obtain ⟨i, hi, k, -, rfl⟩ := hq
          obtain ⟨k', -, rfl⟩ := hq'
          rw [hf, hf]
          have : (i : ℝ) * p.agg ≤ L * p.agg := by
            have : (i : ℝ) ≤ L := by exact_mod_cast hi.le
            nlinarith
          linarith
  cases hm : p.migrate with
  | false =>
    obtain ⟨L, hL, heq⟩ := C24_positions (d := d) (bz := bz) (tz := tz) hagg hm
    rw [heq] at h
    cases h
    obtain ⟨m1, m2⟩ := main L d.count (fun i k => ((d.pos i k).1, (d.pos i k).2, tz - i * p.agg)) (fun _ _ => rfl) hL
    refine ⟨m1, m2, ?_⟩
    intro _ x0 xmax y0 ymax hd q hq
    simp only [List.mem_flatMap, List.mem_range, List.mem_map] at hq
    obtain ⟨i, hi, k, -, rfl⟩ := hq
    exact hd i k
  | true =>
    obtain ⟨L, hL, heq⟩ := C24_migration (d := d) (bz := bz) (tz := tz) hagg hm
    rw [heq] at h
    cases h
    obtain ⟨m1, m2⟩ := main L (fun _ => d.count 0) (fun i k =>
      ((d.pos 0 k).1 + (drift d.move k i).1, (d.pos 0 k).2 + (drift d.move k i).2, tz - i * p.agg)) (fun _ _ => rfl) hL
    exact ⟨m1, m2, fun hf => absurd hf (by simp)⟩

/-! ### Generated troughs -/

/-- Trough `t` was made at centre `q` with the axes of the size trend. -/
def AtCentre (p : TroughParams) (z0 lz : ℝ) (q : ℝ × ℝ × ℝ) (t : Trough) : Prop :=
  t.x = q.1 ∧ t.y = q.2.1 ∧ t.z = q.2.2 ∧ t.zmax = q.2.2 ∧ t.zmin = q.2.2 - t.c ∧
    (t.a, t.b, t.c) = troughAxes p z0 lz q.2.2

theorem makeTroughs_spec {p : TroughParams} {z0 lz : ℝ} {draws : ℕ → TroughDraw} {n : ℕ} {te : List (ℝ × ℝ × ℝ)}
    {ts : List Trough} (h : makeTroughs p z0 lz draws n te = .ok ts) : List.Forall₂ (AtCentre p z0 lz) te ts := by
  induction te generalizing n ts with
  | nil => simp only [makeTroughs, Except.ok.injEq] at h; subst h; exact .nil
  | cons q rest ih =>
    simp only [makeTroughs, bind_ok, pure_ok] at h
    obtain ⟨t, ht, ts', hts, rfl⟩ := h
    have hB := (Trough.new_made ht).base
    refine .cons ⟨hB.hx, hB.hy, hB.hz, hB.hzmax, ?_, ?_⟩ (ih hts)
    · rw [hB.hzmin, hB.hc]
    · rw [hB.ha, hB.hb, hB.hc]

theorem generateTroughs_split {p : TroughParams} {g : Grid} {pd : PlaceDraw} {draws : ℕ → TroughDraw} {bz tz : ℝ}
    {ts : List Trough} (h : generateTroughs p g pd draws bz tz = .ok ts) :
    ∃ te, (match p.teXyz with | none => troughPositions p pd bz tz = .ok te | some l => te = l) ∧
      makeTroughs p g.z0 g.lz draws 0 te = .ok ts := by
  unfold generateTroughs at h
  cases hp : p.teXyz with
  | none => rw [hp] at h; simp only [bind_ok] at h; exact h
  | some l => rw [hp] at h; exact ⟨l, rfl, h⟩

/-- **C24 (troughs).** One trough is made per centre, in the same order, also for given centres `te_xyz`; so the generated troughs have descending
tops, which is what the search of point assignment needs. -/
theorem C24_troughs {p : TroughParams} {g : Grid} {pd : PlaceDraw} {draws : ℕ → TroughDraw} {bz tz : ℝ}
    {ts : List Trough} (h : generateTroughs p g pd draws bz tz = .ok ts) :
    ∃ te, (match p.teXyz with | none => troughPositions p pd bz tz = .ok te | some l => te = l) ∧
      ts.map (fun t => (t.x, t.y, t.z)) = te ∧ (∀ t ∈ ts, t.zmax = t.z ∧ t.zmin = t.z - t.c) ∧
      (p.teXyz = none → 0 < p.agg → ts.Pairwise (fun t t' => t'.zmax ≤ t.zmax)) := by
  obtain ⟨te, hte, hmk⟩ := generateTroughs_split h
  clear h
  have hF := makeTroughs_spec hmk
  have hmap : ts.map (fun t => (t.x, t.y, t.z)) = te := by
    clear hmk hte
    induction hF with
    | nil => rfl
    | cons hq _ ih =>
      obtain ⟨h1, h2, h3, -⟩ := hq
      rw [List.map_cons, ih, h1, h2, h3]
  have hz : ∀ t ∈ ts, t.zmax = t.z ∧ t.zmin = t.z - t.c := by
    clear hmk hte hmap
    induction hF with
    | nil => simp
    | cons hq _ ih =>
      obtain ⟨h1, h2, h3, h4, h5, -⟩ := hq
      intro t ht
      rcases List.mem_cons.1 ht with rfl | ht
      · exact ⟨h4.trans h3.symm, by rw [h5, h3]⟩
      · exact ih t ht
  refine ⟨te, hte, hmap, hz, ?_⟩
  · intro hp hagg
    rw [hp] at hte
    have := (C24_within hagg hte).2.1
    rw [← hmap, List.pairwise_map] at this
    refine this.imp_of_mem ?_
    intro t t' ht ht' hle
    rw [(hz t ht).1, (hz t' ht').1]
    exact hle

/-! ### C25 -/

/-- **C25.** The half axes and the depth of every generated trough are the input values times one common factor: 1 without a trend; with a trend
the linear interpolation between `f0` at the bottom and `f1` at the top of the domain, at the elevation of the trough's top. -/
theorem C25_trend {p : TroughParams} {g : Grid} {pd : PlaceDraw} {draws : ℕ → TroughDraw} {bz tz : ℝ}
    {ts : List Trough} (h : generateTroughs p g pd draws bz tz = .ok ts) (hlz : g.lz ≠ 0) :
    ∀ t ∈ ts, ∃ f : ℝ, t.a = f * (p.length / 2) ∧ t.b = f * (p.width / 2) ∧ t.c = f * p.depth ∧
      (p.sizeZtrend = none → f = 1) ∧
      ∀ f0 f1, p.sizeZtrend = some (f0, f1) →
        (∃ s, t.z = (1 - s) * g.z0 + s * (g.z0 + g.lz) ∧ f = (1 - s) * f0 + s * f1) ∧
        (t.z = g.z0 → f = f0) ∧ (t.z = g.z0 + g.lz → f = f1) := by
  obtain ⟨te, -, hmk⟩ := generateTroughs_split h
  clear h
  have hF := makeTroughs_spec hmk
  clear hmk
  intro t ht
  obtain ⟨q, hq⟩ : ∃ q, AtCentre p g.z0 g.lz q t := by
    induction hF with
    | nil => simp at ht
    | cons hq _ ih =>
      rcases List.mem_cons.1 ht with rfl | ht
      · exact ⟨_, hq⟩
      · exact ih ht
  obtain ⟨-, -, h3, -, -, hax⟩ := hq
  unfold troughAxes at hax
  rw [← h3] at hax
  rcases hs : p.sizeZtrend with _ | ⟨f0, f1⟩
  · rw [hs] at hax
    simp only [Prod.mk.injEq] at hax
    obtain ⟨ha, hb, hc⟩ := hax
    exact ⟨1, ha.trans (by ring), hb.trans (by ring), hc.trans (by ring), fun _ => rfl, fun _ _ h => by simp at h⟩
  · rw [hs] at hax
    simp only [Prod.mk.injEq] at hax
    obtain ⟨ha, hb, hc⟩ := hax
    refine ⟨_, ha.trans (by ring), hb.trans (by ring), hc.trans (mul_comm _ _), fun h => by simp at h, ?_⟩
    intro f0' f1' h
    simp only [Option.some.injEq, Prod.mk.injEq] at h
    obtain ⟨rfl, rfl⟩ := h
    refine ⟨⟨(t.z - g.z0) / g.lz, ?_, ?_⟩, ?_, ?_⟩
    · field_simp; ring
    · field_simp; ring
    · intro hz; rw [hz]; simp
    · intro hz; rw [hz]; field_simp; ring

/-! ### Example: two levels of two migrating troughs -/

noncomputable def exPP : TroughParams :=
  { exTP with migrate := true, agg := 2, sizeZtrend := some (1, 3) }
noncomputable def exPD : PlaceDraw :=
  { count := fun _ => 2, pos := fun _ k => (k, 5), move := fun i _ => (i, -1) }

/-- Levels 8 and 6 lie above 5, level 4 does not. The second level is the first moved by (1, -1). -/
example : 0 < exPP.agg ∧ exPP.migrate = true ∧
    troughPositions exPP exPD 5 8 = .ok [(0, 5, 8), (1, 5, 8), (0 + 1, 5 + -1, 6), (1 + 1, 5 + -1, 6)] := by
  have hagg : (0 : ℝ) < exPP.agg := by norm_num [exPP]
  refine ⟨hagg, rfl, ?_⟩
  obtain ⟨L, hL, h⟩ := C24_migration (d := exPD) (bz := 5) (tz := 8) hagg rfl
  have h2 : L = 2 := by
    have h1 := (hL 1).2 (by norm_num [exPP, exTP])
    have h2 := mt (hL 2).1 (by norm_num [exPP, exTP])
    omega
  rw [h, h2]
  simp [List.range_succ, exPD, drift, exPP]
  norm_num

/-- The troughs themselves are generated; with the trend (1, 3) on a domain from 0 to 10. -/
example : ∃ ts, generateTroughs { exPP with teXyz := some [(1, 2, 10), (3, 4, 0)] } (exTG false) exPD (fun _ => exTD) 5 8 = .ok ts ∧
    (exTG false).lz ≠ 0 ∧ ts.map (fun t => (t.a, t.c)) = [(6, 3), (2, 1)] := by
  refine ⟨_, rfl, by norm_num [exTG], ?_⟩
  simp only [List.map_cons, List.map_nil, troughAxes, exPP, exTP, exTG, Trough.base]
  norm_num

end Hyvr
