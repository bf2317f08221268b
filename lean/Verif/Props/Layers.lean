import Verif.Props.Bulb
import Verif.Props.Sheet
import Verif.Props.Channel

/-!
C68 (thickness of dipping layers), C69 (orientation of dipping layers), C74 (the structure configured is the one used).
-/

namespace Hyvr

open Py Spec Real

/-- Signed distance of a point from the plane through `(X, Y, Z)` with azimuth `az` and dip `dp` (degrees). -/
noncomputable def Spec.planeDist (X Y Z az dp x y z : ℝ) : ℝ :=
  (x - X) * beddingNormal (az * π / 180) (dp * π / 180) 0 + (y - Y) * beddingNormal (az * π / 180) (dp * π / 180) 1 +
    (z - Z) * beddingNormal (az * π / 180) (dp * π / 180) 2

/-- The layer number with layers of thickness `ld` on both sides of the plane, except that the two layers beside the plane are one. -/
noncomputable def Spec.mergedLayer (D ld : ℝ) : ℤ := if 0 ≤ D then ⌊D / ld⌋ else ⌈D / ld⌉

theorem pyInt_merged {D ld : ℝ} (hld : 0 < ld) : pyInt (D / ld) = mergedLayer D ld := by
  unfold pyInt mergedLayer
  by_cases h : 0 ≤ D
  · rw [if_pos h, if_pos (div_nonneg h hld.le)]
  · rw [if_neg h, if_neg (by rw [div_nonneg_iff]; push Not at h ⊢; exact ⟨fun h' => absurd h' (by linarith), fun _ => hld⟩)]

theorem tableHit_hit {α : Type} {table : List ℤ} {n : ℤ} {az dp az' dp' : α} {f : ℤ} (h : tableHit table n az dp = .hit f az' dp') :
    0 ≤ n ∧ table[n.toNat]? = some f ∧ az' = az ∧ dp' = dp := by
  unfold tableHit at h
  split_ifs at h with hn
  split at h
  · rename_i b hb
    cases h
    exact ⟨by omega, hb, rfl, rfl⟩
  · simp at h

/-- The structure number recorded in a trough is the one of its configured structure. -/
theorem Trough.new_kind {p : TroughParams} {d : TroughDraw} {x y z a b c alpha : ℝ} {t : Trough}
    (h : Trough.new p d x y z a b c alpha = .ok t) : structureNumber p.struct d.kind = .ok t.kind := by
  unfold Trough.new at h
  simp only [bind_ok] at h
  obtain ⟨kind, hk, h⟩ := h
  rw [hk]
  split_ifs at h with h0 h1 h2 h3
  all_goals
    simp only [bind_ok, pure_ok] at h
    try (obtain ⟨_, -, rfl⟩ := h; rfl)

/-- The answer of a trough inside and above the lag. -/
theorem Trough.hit_cases {p : TroughParams} {d : TroughDraw} {x y z a b c alpha : ℝ} {t : Trough}
    (ht : Trough.new p d x y z a b c alpha = .ok t) {g : Grid} {x' y' z' : ℝ} {f : ℤ} {az dp : ℝ} (h : t.test g x' y' z' = .hit f az dp) :
    (z' < z - c + p.lagHeight ∧ f = p.lagFacies ∧ az = 0 ∧ dp = 0) ∨
    (z - c + p.lagHeight ≤ z' ∧ t.inner (t.dist g x' y').1 (t.dist g x' y').2 (z' - z) = .hit f az dp) := by
  have hB := (Trough.new_made ht).base
  have hne : t.test g x' y' z' ≠ .miss := by rw [h]; simp
  rw [Trough.test_inside hne, hB.hz, hB.hc, hB.hlag] at h
  split_ifs at h with hl
  · left
    rw [hB.hlagf] at h
    cases h
    exact ⟨hl, rfl, rfl, rfl⟩
  · exact Or.inr ⟨not_lt.1 hl, h⟩

/-! ### C74 -/

/-- **C74, names.** Only the five documented names are accepted for the structure of troughs. -/
theorem C74_names {p : TroughParams} {d : TroughDraw} {x y z a b c alpha : ℝ}
    (h : p.struct ∉ ["massive", "dip", "bulb", "bulb_sets", "random"]) : Trough.new p d x y z a b c alpha = .error .valueError := by
  simp only [List.mem_cons, List.not_mem_nil, or_false, not_or] at h
  have : structureNumber p.struct d.kind = .error .valueError := by
    unfold structureNumber
    rw [if_neg h.1, if_neg h.2.1, if_neg h.2.2.1, if_neg h.2.2.2.1, if_neg h.2.2.2.2]
  unfold Trough.new
  rw [this]
  rfl

/-- **C74, structures.** With structure 'massive' all cells of a trough outside the lag get one of the configured facies, always the same, and the same
azimuth (drawn value plus trough angle) and dip; with 'dip' they all get the same azimuth and dip and a facies of the layer table; with
'bulb' all get the same facies; with 'bulb_sets' the facies is that of a shell: it is determined by the number of whole layers between the point
and the centre, measured along the depth axis of the ellipsoid. -/
theorem C74_structures {p : TroughParams} {d : TroughDraw} {x y z a b c alpha : ℝ} {t : Trough}
    (ht : Trough.new p d x y z a b c alpha = .ok t) (g : Grid) (hg : g.periodic = false) :
    (p.struct = "massive" → ∃ f0 ∈ p.facies, ∀ x' y' z' f az dp, t.test g x' y' z' = .hit f az dp → z - c + p.lagHeight ≤ z' →
      f = f0 ∧ az = d.azim + alpha ∧ dp = d.dip) ∧
    (p.struct = "dip" → ∀ x' y' z' f az dp, t.test g x' y' z' = .hit f az dp → z - c + p.lagHeight ≤ z' →
      f ∈ t.table ∧ az = d.azim + alpha ∧ dp = d.dip) ∧
    (p.struct = "bulb" → ∃ f0 ∈ p.facies, ∀ x' y' z' f az dp, t.test g x' y' z' = .hit f az dp → z - c + p.lagHeight ≤ z' → f = f0) ∧
    (p.struct = "bulb_sets" → altFacies (⌈(1 + d.shift) * c / p.bulbsetDist⌉ + 1) p.facies p.altFacies d.layers = .ok t.table ∧
      ∀ x' y' z' f az dp, t.test g x' y' z' = .hit f az dp → z - c + p.lagHeight ≤ z' →
        t.table[(⌈(√(ellipsoidForm x y z a b c (alpha * π / 180) x' y' z') + d.shift) * c / p.bulbsetDist⌉).toNat]? = some f) := by
  have hk := Trough.new_kind ht
  have hm := Trough.new_made ht
  have hB := hm.base
  have hin : ∀ x' y' z' f az dp, t.test g x' y' z' = .hit f az dp → z - c + p.lagHeight ≤ z' →
      t.inner (x' - x) (y' - y) (z' - z) = .hit f az dp := by
    intro x' y' z' f az dp h hz
    rcases Trough.hit_cases ht h with ⟨h1, -⟩ | ⟨-, h1⟩
    · linarith
    · unfold Trough.dist at h1
      rw [hg, hB.hx, hB.hy] at h1
      simpa using h1
  refine ⟨?_, ?_, ?_, ?_⟩
  · intro hs
    have hk0 : t.kind = 0 := by
      rw [hs] at hk; unfold structureNumber at hk; simpa using hk.symm
    cases hm with
    | massive f0 hf =>
      refine ⟨f0, hf, ?_⟩
      intro x' y' z' f az dp h hz
      have := hin _ _ _ _ _ _ h hz
      unfold Trough.inner at this
      simp only [if_true] at this
      cases this
      exact ⟨rfl, rfl, rfl⟩
    | dip => simp at hk0
    | bulb => simp at hk0
    | bulbSets => simp at hk0
  · intro hs
    have hk0 : t.kind = 1 := by
      rw [hs] at hk; unfold structureNumber at hk; simpa using hk.symm
    cases hm with
    | massive => simp at hk0
    | dip table _ =>
      intro x' y' z' f az dp h hz
      have := hin _ _ _ _ _ _ h hz
      unfold Trough.inner at this
      simp only [one_ne_zero, if_false, if_true] at this
      obtain ⟨-, h2, h3, h4⟩ := tableHit_hit this
      exact ⟨List.mem_of_getElem? h2, h3, h4⟩
    | bulb => simp at hk0
    | bulbSets => simp at hk0
  · intro hs
    have hk0 : t.kind = 2 := by
      rw [hs] at hk; unfold structureNumber at hk; simpa using hk.symm
    cases hm with
    | massive => simp at hk0
    | dip => simp at hk0
    | bulb f0 hf =>
      refine ⟨f0, hf, ?_⟩
      intro x' y' z' f az dp h hz
      have := hin _ _ _ _ _ _ h hz
      unfold Trough.inner at this
      simp only [OfNat.ofNat_ne_zero, OfNat.ofNat_ne_one, if_false, true_or, if_true] at this
      cases this
      rfl
    | bulbSets => simp at hk0
  · intro hs
    have hk0 : t.kind = 3 := by
      rw [hs] at hk; unfold structureNumber at hk; simpa using hk.symm
    have hform : ∀ x' y' z', l2 (t.normalized (x' - x) (y' - y) (z' - z)) = ellipsoidForm x y z a b c (alpha * π / 180) x' y' z' := by
      intro x' y' z'
      unfold l2 Trough.normalized ellipsoidForm
      rw [hB.hsin, hB.hcos, hB.ha, hB.hb, hB.hc]
    cases hm with
    | massive => simp at hk0
    | dip => simp at hk0
    | bulb => simp at hk0
    | bulbSets table htab =>
      refine ⟨htab, ?_⟩
      intro x' y' z' f az dp h hz
      have := hin _ _ _ _ _ _ h hz
      unfold Trough.inner at this
      dsimp only at this
      rw [if_neg (by norm_num), if_neg (by norm_num), if_pos (Or.inr rfl), if_neg (by norm_num)] at this
      obtain ⟨-, h2, -, -⟩ := tableHit_hit this
      rw [pyInt_intCast] at h2
      have hf := hform x' y' z'
      unfold Trough.normalized at hf h2
      rw [hf] at h2
      exact h2

/-- **C74, success.** Every documented structure can be built for positive sizes and a non-empty list of facies, if the layer distances that the
structure needs are positive and, in layered troughs, a table of successors has a row of facies of the list for each facies. -/
theorem C74_accepts {p : TroughParams} {d : TroughDraw} {x y z a b c alpha : ℝ}
    (h : p.struct ∈ ["massive", "dip", "bulb", "bulb_sets", "random"]) (hf : p.facies ≠ []) (ha : 0 < a)
    (halt : p.struct ∈ ["dip", "bulb_sets", "random"] → Successors p.facies p.altFacies)
    (hc : 0 < c) (hs : 0 ≤ d.shift) (hd : p.struct ∈ ["dip", "random"] → 0 < p.dipsetDist)
    (hb : p.struct ∈ ["bulb_sets", "random"] → 0 < p.bulbsetDist) : ∃ t, Trough.new p d x y z a b c alpha = .ok t := by
  obtain ⟨kind, hk, hk4, hd, hb⟩ : ∃ kind, structureNumber p.struct d.kind = .ok kind ∧ kind < 4 ∧
      (kind = 1 → 0 < p.dipsetDist ∧ Successors p.facies p.altFacies) ∧ (kind = 3 → 0 < p.bulbsetDist ∧ Successors p.facies p.altFacies) := by
    simp only [List.mem_cons, List.not_mem_nil, or_false] at h
    rcases h with h | h | h | h | h <;> rw [h] at hd hb halt ⊢ <;> unfold structureNumber
    · exact ⟨0, by simp, by norm_num, by simp, by simp⟩
    · exact ⟨1, by simp, by norm_num, fun _ => ⟨hd (by simp), halt (by simp)⟩, by simp⟩
    · exact ⟨2, by simp, by norm_num, by simp, by simp⟩
    · exact ⟨3, by simp, by norm_num, by simp, fun _ => ⟨hb (by simp), halt (by simp)⟩⟩
    · exact ⟨d.kind % 4, by simp, Nat.mod_lt _ (by norm_num), fun _ => ⟨hd (by simp), halt (by simp)⟩, fun _ => ⟨hb (by simp), halt (by simp)⟩⟩
  obtain ⟨f, hf'⟩ := choice_total hf d.facies
  have hM : 0 < max (max a b) c := lt_max_of_lt_left (lt_max_of_lt_left ha)
  unfold Trough.new
  rw [hk]
  have : kind = 0 ∨ kind = 1 ∨ kind = 2 ∨ kind = 3 := by omega
  rcases this with rfl | rfl | rfl | rfl
  · simp only [bind, Except.bind, hf', if_true]; exact ⟨_, rfl⟩
  · obtain ⟨t1, ht1⟩ := altFacies_total hf (hd rfl).2 d.layers (num := pyInt ⌈(2 * max (max a b) c + d.shift) / p.dipsetDist⌉ + 2) (by
      rw [pyInt_intCast]
      have : 0 < ⌈(2 * max (max a b) c + d.shift) / p.dipsetDist⌉ := Int.ceil_pos.2 (div_pos (by linarith) (hd rfl).1)
      omega)
    rw [← layerTable_eq (hd rfl).1.ne'] at ht1
    simp only [bind, Except.bind, ht1, one_ne_zero, if_false, if_true]; exact ⟨_, rfl⟩
  · simp only [bind, Except.bind, hf', OfNat.ofNat_ne_zero, OfNat.ofNat_ne_one, if_false, if_true]; exact ⟨_, rfl⟩
  · obtain ⟨t3, ht3⟩ := altFacies_total hf (hb rfl).2 d.layers (num := pyInt ⌈(1 + d.shift) * c / p.bulbsetDist⌉ + 1) (by
      rw [pyInt_intCast]
      have : 0 < ⌈(1 + d.shift) * c / p.bulbsetDist⌉ := Int.ceil_pos.2 (div_pos (mul_pos (by linarith) hc) (hb rfl).1)
      omega)
    rw [← layerTable_eq (hb rfl).1.ne'] at ht3
    simp only [bind, Except.bind, ht3, OfNat.ofNat_ne_zero, OfNat.ofNat_ne_one, if_false, if_true,
      show ¬ (3 : ℕ) = 2 by norm_num]; exact ⟨_, rfl⟩

/-- All five structures can be built with the parameters of the examples; a misspelt one cannot. -/
example : (∀ s ∈ ["massive", "dip", "bulb", "bulb_sets", "random"], ∃ t, Trough.new { exTP with struct := s } exTD 5 5 5 2 1 1 0 = .ok t) ∧
    Trough.new { exTP with struct := "bulbsets" } exTD 5 5 5 2 1 1 0 = .error .valueError := by
  refine ⟨fun s hs => C74_accepts hs (by simp [exTP]) (by norm_num) (by simp [Successors, exTP]) (by norm_num) ?_ ?_ ?_, C74_names (by decide)⟩ <;>
    norm_num [exTP, exTD]

/-- In the massive example trough the point (6, 5, 4.5) gets the drawn facies, azimuth and dip. -/
example : ∃ t, Trough.new exTP exTD 5 5 5 2 1 1 0 = .ok t ∧ t.test (exTG false) 6 5 (9 / 2) = .hit 5 10 20 := by
  obtain ⟨t, ht, hk⟩ := exT_new 5 5 5 0
  refine ⟨t, ht, ?_⟩
  have hne : t.test (exTG false) 6 5 (9 / 2) ≠ .miss := by
    rw [C19_membership ht (by norm_num) (by norm_num) (by norm_num) _ rfl]
    refine ⟨by norm_num, 1 / 2, 0, -1 / 2, by norm_num, ?_, ?_, ?_⟩ <;> norm_num
  have hB := (Trough.new_made ht).base
  rw [Trough.test_inside hne, if_neg (by rw [hB.hz, hB.hc, hB.hlag]; norm_num [exTP])]
  unfold Trough.inner
  dsimp only
  rw [if_pos hk]
  have : t = { Trough.base exTP 5 5 5 2 1 1 0 with kind := 0, facies := 5, azim := 10 + 0, dip := 20 } := by
    have : Trough.new exTP exTD 5 5 5 2 1 1 0 = .ok { Trough.base exTP 5 5 5 2 1 1 0 with kind := 0, facies := 5, azim := 10 + 0, dip := 20 } := rfl
    rw [this] at ht
    cases ht
    rfl
  rw [this]
  simp

/-! ### C68, C69: troughs -/

/-- **C68, troughs, partial.** In a trough with dipping layers the facies is looked up by the layer number at the signed distance to the layer plane through
the trough centre (shifted): layers have thickness `dipset_dist`. Missing: the two layers beside the plane are one (`C68_trough_refuted`). -/
theorem C68_trough_partial {p : TroughParams} {d : TroughDraw} {x y z a b c alpha : ℝ} {t : Trough}
    (ht : Trough.new p d x y z a b c alpha = .ok t) (hs : p.struct = "dip") (hld : 0 < p.dipsetDist) (g : Grid) (hg : g.periodic = false)
    {x' y' z' : ℝ} {f : ℤ} {az dp : ℝ} (h : t.test g x' y' z' = .hit f az dp) (hz : z - c + p.lagHeight ≤ z') :
    altFacies t.numFacies p.facies p.altFacies d.layers = .ok t.table ∧
    0 ≤ mergedLayer (planeDist x y z az dp x' y' z' + d.shift) p.dipsetDist + t.numFacies / 2 ∧
    t.table[(mergedLayer (planeDist x y z az dp x' y' z' + d.shift) p.dipsetDist + t.numFacies / 2).toNat]? = some f := by
  obtain ⟨-, hang, -⟩ := C74_structures ht g hg
  obtain ⟨-, haz, hdp⟩ := hang hs _ _ _ _ _ _ h hz
  have hk := Trough.new_kind ht
  have hk0 : t.kind = 1 := by
    rw [hs] at hk; unfold structureNumber at hk; simpa using hk.symm
  have hm := Trough.new_made ht
  have hB := hm.base
  have hin : t.inner (x' - x) (y' - y) (z' - z) = .hit f az dp := by
    rcases Trough.hit_cases ht h with ⟨h1, -⟩ | ⟨-, h1⟩
    · linarith
    · unfold Trough.dist at h1
      rw [hg, hB.hx, hB.hy] at h1
      simpa using h1
  cases hm with
  | massive => simp at hk0
  | bulb => simp at hk0
  | bulbSets => simp at hk0
  | dip table htab =>
    unfold Trough.inner at hin
    simp only [one_ne_zero, if_false, if_true] at hin
    obtain ⟨h1, h2, -, -⟩ := tableHit_hit hin
    have hD : (x' - x) * (sin (d.dip * π / 180) * cos ((d.azim + alpha) * π / 180)) +
        (y' - y) * (-sin (d.dip * π / 180) * sin ((d.azim + alpha) * π / 180)) + (z' - z) * cos (d.dip * π / 180) + d.shift =
        planeDist x y z az dp x' y' z' + d.shift := by
      rw [haz, hdp]
      unfold planeDist beddingNormal
      simp only [Matrix.cons_val_zero, Matrix.cons_val_one, Matrix.cons_val]
      ring
    rw [hD, pyInt_merged hld] at h1 h2
    exact ⟨htab, h1, h2⟩

/-- **C69, troughs.** Two cells of a trough with dipping layers lying in one plane with the azimuth and dip recorded for them have the same
facies. -/
theorem C69_trough {p : TroughParams} {d : TroughDraw} {x y z a b c alpha : ℝ} {t : Trough}
    (ht : Trough.new p d x y z a b c alpha = .ok t) (hs : p.struct = "dip") (hld : 0 < p.dipsetDist) (g : Grid) (hg : g.periodic = false)
    {x1 y1 z1 x2 y2 z2 : ℝ} {f1 f2 : ℤ} {az1 dp1 az2 dp2 : ℝ} (h1 : t.test g x1 y1 z1 = .hit f1 az1 dp1)
    (h2 : t.test g x2 y2 z2 = .hit f2 az2 dp2) (hz1 : z - c + p.lagHeight ≤ z1) (hz2 : z - c + p.lagHeight ≤ z2)
    (hplane : planeDist x1 y1 z1 az1 dp1 x2 y2 z2 = 0) : az1 = az2 ∧ dp1 = dp2 ∧ f1 = f2 := by
  obtain ⟨-, hang, -⟩ := C74_structures ht g hg
  obtain ⟨-, a1, b1⟩ := hang hs _ _ _ _ _ _ h1 hz1
  obtain ⟨-, a2, b2⟩ := hang hs _ _ _ _ _ _ h2 hz2
  have hA : az1 = az2 := a1.trans a2.symm
  have hD : dp1 = dp2 := b1.trans b2.symm
  refine ⟨hA, hD, ?_⟩
  obtain ⟨-, -, t1⟩ := C68_trough_partial ht hs hld g hg h1 hz1
  obtain ⟨-, -, t2⟩ := C68_trough_partial ht hs hld g hg h2 hz2
  have : planeDist x y z az2 dp2 x2 y2 z2 = planeDist x y z az1 dp1 x1 y1 z1 := by
    rw [← hA, ← hD]
    have e : planeDist x y z az1 dp1 x2 y2 z2 = planeDist x y z az1 dp1 x1 y1 z1 + planeDist x1 y1 z1 az1 dp1 x2 y2 z2 := by
      unfold planeDist; ring
    rw [e, hplane, add_zero]
  rw [this, t1] at t2
  exact Option.some.inj t2

/-- If two facies take turns, none follows itself. -/
theorem follows_ne {f f' : ℤ} (h : Follows [1, 2] (some [[2], [1]]) f f') : f ≠ f' := by
  obtain ⟨k, row, h1, -, h3, h4⟩ := h
  match k with
  | 0 => simp at h1 h3; subst h1; subst h3; simp at h4; omega
  | 1 => simp at h1 h3; subst h1; subst h3; simp at h4; omega
  | k + 2 => simp at h1

/-- Horizontal layers of thickness 1/2, two facies taking turns. -/
noncomputable def exLP : TroughParams := { exTP with struct := "dip", facies := [1, 2], altFacies := some [[2], [1]], lagHeight := 0 }
noncomputable def exLD : TroughDraw := { exTD with azim := 0, dip := 0, shift := 1 / 4 }

theorem exL_new : ∃ t, Trough.new exLP exLD 0 0 0 2 2 2 0 = .ok t := by
  obtain ⟨l, hl⟩ := alternating_table (num := ⌈(2 * max (max 2 2) 2 + 1 / 4 : ℝ) / (1 / 2)⌉ + 2) (by
    have : 0 < ⌈(2 * max (max 2 2) 2 + 1 / 4 : ℝ) / (1 / 2)⌉ := Int.ceil_pos.2 (by norm_num)
    omega) exLD.layers
  have hk : structureNumber exLP.struct exLD.kind = .ok 1 := by decide
  unfold Trough.new
  rw [hk]
  simp only [bind, Except.bind, pyInt_intCast, one_ne_zero, if_false, if_true]
  have : altFacies (⌈(2 * max (max 2 2) 2 + exLD.shift : ℝ) / exLP.dipsetDist⌉ + 2) exLP.facies exLP.altFacies exLD.layers = .ok l := hl
  rw [layerTable_eq (by norm_num [exLP, exTP]), this]
  exact ⟨_, rfl⟩

/-- Points on the axis of the example trough are inside. -/
theorem exL_hit {t : Trough} (ht : Trough.new exLP exLD 0 0 0 2 2 2 0 = .ok t) {z : ℝ} (h0 : -2 ≤ z) (h1 : z ≤ 0) :
    ∃ f, t.test (exTG false) 0 0 z = .hit f 0 0 := by
  have hne : t.test (exTG false) 0 0 z ≠ .miss := by
    rw [C19_membership ht (by norm_num) (by norm_num) (by norm_num) _ rfl]
    refine ⟨h1, 0, 0, z / 2, ?_, ?_, ?_, ?_⟩
    · nlinarith
    · ring
    · ring
    · ring
  obtain ⟨hno, hne'⟩ := C22_table ht (by norm_num) (by norm_num) (by norm_num) (by norm_num [exLD])
    (fun _ => by norm_num [exLP, exLD, exTP]) (fun _ => by norm_num [exLP, exTP]) (exTG false) 0 0 z
  cases hc : t.test (exTG false) 0 0 z with
  | miss => exact absurd hc hne
  | outside n => exact absurd hc (hno n)
  | error e => exact absurd hc (hne' e)
  | hit f az dp =>
    obtain ⟨-, hang, -⟩ := C74_structures ht (exTG false) rfl
    obtain ⟨-, rfl, rfl⟩ := hang rfl _ _ _ _ _ _ hc (by norm_num [exLP]; linarith)
    exact ⟨f, by norm_num [exLD]⟩

/-- **C68 fails, troughs.** Two facies take turns in horizontal layers of configured thickness 1/2; nevertheless one facies fills a stretch of height
7/10 (rounding towards zero merges the two layers beside the zero plane). -/
theorem C68_trough_refuted : ∃ t f, Trough.new exLP exLD 0 0 0 2 2 2 0 = .ok t ∧ exLP.dipsetDist = 1 / 2 ∧
    (∀ f', Follows exLP.facies exLP.altFacies f f' → f' ≠ f) ∧
    ∀ z : ℝ, -7 / 10 ≤ z → z ≤ 0 → t.test (exTG false) 0 0 z = .hit f 0 0 := by
  obtain ⟨t, ht⟩ := exL_new
  have hval : ∀ (z : ℝ) (f : ℤ), -7 / 10 ≤ z → z ≤ 0 → t.test (exTG false) 0 0 z = .hit f 0 0 → t.table[(t.numFacies / 2).toNat]? = some f := by
    intro z f h0 h1 h
    obtain ⟨-, -, h2⟩ := C68_trough_partial ht rfl (by norm_num [exLP, exTP]) _ rfl h (by norm_num [exLP]; linarith)
    have : mergedLayer (planeDist 0 0 0 0 0 0 0 z + exLD.shift) exLP.dipsetDist = 0 := by
      have e : planeDist 0 0 0 0 0 0 0 z + exLD.shift = z + 1 / 4 := by
        simp [planeDist, beddingNormal, exLD]
      have e2 : exLP.dipsetDist = 1 / 2 := rfl
      rw [e, e2]
      unfold mergedLayer
      split_ifs with hc
      · rw [Int.floor_eq_iff]
        constructor
        · push_cast; positivity
        · rw [div_lt_iff₀ (by norm_num)]; push_cast; linarith
      · rw [Int.ceil_eq_iff]
        constructor
        · rw [lt_div_iff₀ (by norm_num)]; push_cast; linarith
        · rw [div_le_iff₀ (by norm_num)]; push_cast; linarith
    rw [this, zero_add] at h2
    exact h2
  obtain ⟨f, hf⟩ := exL_hit ht (z := 0) (by norm_num) le_rfl
  have hv := hval 0 f (by norm_num) le_rfl hf
  refine ⟨t, f, ht, rfl, ?_, ?_⟩
  · intro f' hf' he
    subst he
    exact follows_ne hf' rfl
  · intro z h0 h1
    obtain ⟨f', hf'⟩ := exL_hit ht (z := z) (by linarith) h1
    have := hval z f' h0 h1 hf'
    rw [hv] at this
    cases this
    exact hf'

/-- Two points of one layer, and two points of different layers, meeting the hypotheses of `C68_trough_partial` and `C69_trough`. -/
example : ∃ t f f', Trough.new exLP exLD 0 0 0 2 2 2 0 = .ok t ∧ t.test (exTG false) 0 0 (-1) = .hit f 0 0 ∧
    t.test (exTG false) 0 0 (-7 / 4) = .hit f' 0 0 ∧ planeDist 0 0 (-1) 0 0 0 0 (-7 / 4) = -3 / 4 := by
  obtain ⟨t, ht⟩ := exL_new
  obtain ⟨f, hf⟩ := exL_hit ht (z := -1) (by norm_num) (by norm_num)
  obtain ⟨f', hf'⟩ := exL_hit ht (z := -7 / 4) (by norm_num) (by norm_num)
  exact ⟨t, f, f', ht, hf, hf', by simp [planeDist, beddingNormal]; norm_num⟩

/-! ### C68, C69: sheets -/

/-- **C68, sheets, partial.** The layers of a sheet have thickness `dipset_dist`, measured perpendicular to a plane with the recorded azimuth but the opposite
dip. Missing: the two layers beside the plane are one (`C68_sheet_refuted`). -/
theorem C68_sheet_partial {p : SheetParams} {d : SheetDraw} {g : Grid} {zmean : ℝ} {s : SheetObj} (hp : p.struct = "dip")
    (hs : SheetObj.new p d g zmean = .ok s) (hld : 0 < p.dipsetDist) {zb za x y z : ℝ} {f : ℤ} {az dp : ℝ}
    (h : s.test zb za x y z = .hit f az dp) :
    az = d.azim ∧ dp = d.dip ∧ altFacies s.numFacies p.facies p.altFacies d.layers = .ok s.table ∧
    0 ≤ mergedLayer (planeDist (g.x0 + g.lx / 2) (g.y0 + g.ly / 2) zmean az (-dp) x y z - d.u * p.dipsetDist) p.dipsetDist + s.numFacies / 2 ∧
    s.table[(mergedLayer (planeDist (g.x0 + g.lx / 2) (g.y0 + g.ly / 2) zmean az (-dp) x y z - d.u * p.dipsetDist) p.dipsetDist +
      s.numFacies / 2).toNat]? = some f := by
  obtain ⟨h1, h2, h3, h4, h5, h6, h7, h8, h9, h10⟩ := SheetObj.new_dip hp hs
  unfold SheetObj.test at h
  split_ifs at h
  unfold SheetObj.inner at h
  rw [if_pos h1] at h
  obtain ⟨k1, k2, k3, k4⟩ := tableHit_hit h
  rw [h2, pyInt_merged hld] at k1 k2
  have e : s.nvx * x + s.nvy * y + s.nvz * z - s.shift =
      planeDist (g.x0 + g.lx / 2) (g.y0 + g.ly / 2) zmean az (-dp) x y z - d.u * p.dipsetDist := by
    rw [h8, h5, h6, h7, k3, k4, h3, h4]
    unfold planeDist beddingNormal
    simp only [Matrix.cons_val_zero, Matrix.cons_val_one, Matrix.cons_val, neg_mul, neg_div, sin_neg, cos_neg]
    ring
  rw [e] at k1 k2
  exact ⟨k3.trans h3, k4.trans h4, h10, k1, k2⟩

/-- **C69, sheets, partial.** Cells in one plane with the recorded azimuth and the recorded dip mirrored have the same facies; this is the property for horizontal
layers. Missing: layers with non-zero dip (`C69_sheet_refuted`). -/
theorem C69_sheet_partial {p : SheetParams} {d : SheetDraw} {g : Grid} {zmean : ℝ} {s : SheetObj} (hp : p.struct = "dip")
    (hs : SheetObj.new p d g zmean = .ok s) (hld : 0 < p.dipsetDist) {zb1 za1 zb2 za2 x1 y1 z1 x2 y2 z2 : ℝ} {f1 f2 : ℤ}
    {az1 dp1 az2 dp2 : ℝ} (h1 : s.test zb1 za1 x1 y1 z1 = .hit f1 az1 dp1) (h2 : s.test zb2 za2 x2 y2 z2 = .hit f2 az2 dp2)
    (hplane : planeDist x1 y1 z1 az1 (-dp1) x2 y2 z2 = 0) : az1 = az2 ∧ dp1 = dp2 ∧ f1 = f2 := by
  obtain ⟨a1, b1, -, -, t1⟩ := C68_sheet_partial hp hs hld h1
  obtain ⟨a2, b2, -, -, t2⟩ := C68_sheet_partial hp hs hld h2
  refine ⟨a1.trans a2.symm, b1.trans b2.symm, ?_⟩
  rw [a1, b1] at t1 hplane
  rw [a2, b2] at t2
  have e : planeDist (g.x0 + g.lx / 2) (g.y0 + g.ly / 2) zmean d.azim (-d.dip) x2 y2 z2 =
      planeDist (g.x0 + g.lx / 2) (g.y0 + g.ly / 2) zmean d.azim (-d.dip) x1 y1 z1 + planeDist x1 y1 z1 d.azim (-d.dip) x2 y2 z2 := by
    unfold planeDist; ring
  rw [e, hplane, add_zero, t1] at t2
  exact Option.some.inj t2

/-- Adjacent entries of a table of two facies taking turns differ. -/
theorem alternating_ne {num : ℤ} {draws : ℕ → ℕ} {l : List ℤ} (h : altFacies num [1, 2] (some [[2], [1]]) draws = .ok l) {i : ℕ} {f f' : ℤ}
    (hf : l[i]? = some f) (hf' : l[i + 1]? = some f') : f ≠ f' := by
  obtain ⟨-, -, hfol, hmem⟩ := C34_sequence h
  exact follows_ne (hfol i f f' hf hf')

/-- Layers of thickness √2 dipping by 45 degrees in a sheet through a cube of side 100 around the origin. -/
noncomputable def exS45P : SheetParams := { exShP with dipsetDist := √2 }
noncomputable def exS45D : SheetDraw := { exShD with dip := 45 }
noncomputable def exS45G : Grid := { exShG with x0 := -50, y0 := -50 }

/-- **C69 fails, sheets.** The points (0, 0, 5) and (1, 0, 4) of a sheet lie in one plane with the azimuth and dip recorded for both, but get different
facies: the layers dip the other way. -/
theorem C69_sheet_refuted : ∃ s f f' az dp, SheetObj.new exS45P exS45D exS45G 0 = .ok s ∧ s.test 0 10 0 0 5 = .hit f az dp ∧
    s.test 0 10 1 0 4 = .hit f' az dp ∧ planeDist 0 0 5 az dp 1 0 4 = 0 ∧ f ≠ f' := by
  have hang : (45 : ℝ) * π / 180 = π / 4 := by ring
  have h2 : (√2 : ℝ) * √2 = 2 := Real.mul_self_sqrt (by norm_num)
  have h2p : (0 : ℝ) < √2 := Real.sqrt_pos.2 (by norm_num)
  obtain ⟨num, hnum⟩ : ∃ num : ℤ, num = ⌈((100 : ℝ) + 0) / √2⌉ + 10 := ⟨_, rfl⟩
  have hnum10 : 10 ≤ num := by
    have : 0 ≤ ⌈((100 : ℝ) + 0) / √2⌉ := Int.ceil_nonneg (by positivity)
    omega
  obtain ⟨l, hl⟩ := alternating_table (num := num) (by omega) (fun _ => 0)
  obtain ⟨s, hs⟩ : ∃ s, SheetObj.new exS45P exS45D exS45G 0 = .ok s := by
    have hsh : -sin (exS45D.dip * π / 180) * cos (exS45D.azim * π / 180) * (exS45G.x0 + exS45G.lx / 2) +
        sin (exS45D.dip * π / 180) * sin (exS45D.azim * π / 180) * (exS45G.y0 + exS45G.ly / 2) + cos (exS45D.dip * π / 180) * 0 +
        exS45D.u * exS45P.dipsetDist = 0 := by
      norm_num [exS45D, exS45G, exShG, exShD]
    have htab : altFacies (⌈(max exS45G.ly exS45G.lz + 0) / exS45P.dipsetDist⌉ + 10) exS45P.facies exS45P.altFacies exS45D.layers = .ok l := by
      have : (max exS45G.ly exS45G.lz + 0) / exS45P.dipsetDist = ((100 : ℝ) + 0) / √2 := by norm_num [exS45G, exShG, exS45P]
      rw [this, ← hnum]
      exact hl
    unfold SheetObj.new
    rw [if_pos (show exS45P.struct = "dip" from rfl)]
    rw [← layerTable_eq (show exS45P.dipsetDist ≠ 0 by norm_num [exS45P])] at htab
    simp only [pyInt_intCast, max_self, hsh, htab, bind, Except.bind]
    exact ⟨_, rfl⟩
  obtain ⟨h1, h2', h3, h4, h5, h6, h7, h8, h9, h10⟩ := SheetObj.new_dip rfl hs
  have e5 : s.nvx = -(√2 / 2) := by rw [h5]; simp [exS45D, exShD, hang]
  have e6 : s.nvy = 0 := by rw [h6]; simp [exS45D, exShD]
  have e7 : s.nvz = √2 / 2 := by rw [h7]; simp [exS45D, hang]
  have e8 : s.shift = 0 := by
    rw [h8, e5, e6, e7]; norm_num [exS45D, exS45G, exShG, exShD]
  have e9 : s.numFacies = num := by
    rw [h9, e8, hnum]; norm_num [exS45G, exShG, exS45P]
  have hq : ∀ u : ℝ, (√2 / 2 * u) / √2 = u / 2 := by intro u; field_simp
  have hlen : (s.table.length : ℤ) = num := by rw [← e9]; exact (C34_sequence h10).1
  have t1 : s.test 0 10 0 0 5 = tableHit s.table (2 + num / 2) s.azim s.dip := by
    unfold SheetObj.test SheetObj.inner
    rw [if_neg (by norm_num), if_pos h1, e5, e6, e7, e8, e9, h2']
    dsimp only
    rw [show -(√2 / 2) * 0 + 0 * 0 + √2 / 2 * 5 - (0 : ℝ) = √2 / 2 * 5 by ring, show exS45P.dipsetDist = √2 from rfl, hq]
    congr 2
    unfold pyInt
    rw [if_pos (by norm_num), Int.floor_eq_iff]
    norm_num
  have t2 : s.test 0 10 1 0 4 = tableHit s.table (1 + num / 2) s.azim s.dip := by
    unfold SheetObj.test SheetObj.inner
    rw [if_neg (by norm_num), if_pos h1, e5, e6, e7, e8, e9, h2']
    dsimp only
    rw [show -(√2 / 2) * 1 + 0 * 0 + √2 / 2 * 4 - (0 : ℝ) = √2 / 2 * 3 by ring, show exS45P.dipsetDist = √2 from rfl, hq]
    congr 2
    unfold pyInt
    rw [if_pos (by norm_num), Int.floor_eq_iff]
    norm_num
  have hi1 : (2 + num / 2).toNat < s.table.length := by omega
  have hi2 : (1 + num / 2).toNat < s.table.length := by omega
  refine ⟨s, s.table[(2 + num / 2).toNat], s.table[(1 + num / 2).toNat], s.azim, s.dip, hs, ?_, ?_, ?_, ?_⟩
  · rw [t1]
    unfold tableHit
    rw [if_neg (by omega), List.getElem?_eq_getElem hi1]
  · rw [t2]
    unfold tableHit
    rw [if_neg (by omega), List.getElem?_eq_getElem hi2]
  · rw [h3, h4]
    simp [planeDist, beddingNormal, exS45D, exShD, hang]
    ring
  · have e : (2 + num / 2).toNat = (1 + num / 2).toNat + 1 := by omega
    have := alternating_ne (i := (1 + num / 2).toNat) h10 (List.getElem?_eq_getElem hi2) (by rw [← e]; exact List.getElem?_eq_getElem hi1)
    exact this.symm

/-- **C68 fails, sheets.** In horizontal layers of thickness 1 in a sheet with mean bottom height 5 one facies, which cannot follow itself, fills all heights
strictly between 4 and 6. -/
theorem C68_sheet_refuted : ∃ s f, SheetObj.new exShP exShD exShG 5 = .ok s ∧ exShP.dipsetDist = 1 ∧
    ∀ z : ℝ, 4 < z → z < 6 → s.test 0 10 50 50 z = .hit f 0 0 := by
  obtain ⟨s, hs⟩ := exSh_new 5 (by norm_num)
  obtain ⟨h1, h2, h3, h4, h5, h6, h7, h8, h9, h10⟩ := SheetObj.new_dip rfl hs
  have e5 : s.nvx = 0 := by rw [h5]; simp [exShD]
  have e6 : s.nvy = 0 := by rw [h6]; simp [exShD]
  have e7 : s.nvz = 1 := by rw [h7]; simp [exShD]
  have e8 : s.shift = 5 := by rw [h8, e5, e6, e7]; norm_num [exShD, exShG]
  have e9 : s.numFacies = 115 := by
    rw [h9, e8]
    have : ⌈(max exShG.ly exShG.lz + 5) / exShP.dipsetDist⌉ = 105 := by
      rw [Int.ceil_eq_iff]; norm_num [exShG, exShP]
    rw [this]; norm_num
  have hlen : (s.table.length : ℤ) = 115 := by rw [← e9]; exact (C34_sequence h10).1
  have hi : 57 < s.table.length := by omega
  refine ⟨s, s.table[57], hs, rfl, ?_⟩
  intro z hz1 hz2
  unfold SheetObj.test SheetObj.inner
  rw [if_neg (by push Not; constructor <;> linarith), if_pos h1, e5, e6, e7, e8, e9, h2, h3, h4]
  dsimp only
  have : pyInt ((0 * 50 + 0 * 50 + 1 * z - 5) / exShP.dipsetDist) = 0 := by
    rw [show exShP.dipsetDist = 1 from rfl, pyInt_merged one_pos]
    unfold mergedLayer
    split_ifs
    · rw [Int.floor_eq_iff]; push_cast; constructor <;> linarith
    · rw [Int.ceil_eq_iff]; push_cast; constructor <;> linarith
  rw [this]
  unfold tableHit
  rw [if_neg (by norm_num)]
  have e : ((0 : ℤ) + 115 / 2).toNat = 57 := by decide
  rw [e, List.getElem?_eq_getElem hi]
  rfl

/-- Two points at the height 4.5 meet the hypotheses of the two partial theorems. -/
example : ∃ s f f', SheetObj.new exShP exShD exShG 5 = .ok s ∧ s.test 0 10 50 50 (9 / 2) = .hit f 0 0 ∧ s.test 0 10 60 50 (9 / 2) = .hit f' 0 0 ∧
    planeDist 50 50 (9 / 2) 0 (-0) 60 50 (9 / 2) = 0 ∧ f = f' := by
  obtain ⟨s, f, hs, -, h⟩ := C68_sheet_refuted
  have hp : planeDist 50 50 (9 / 2) 0 (-0) 60 50 (9 / 2) = 0 := by norm_num [planeDist, beddingNormal]
  have h1 := h (9 / 2) (by norm_num) (by norm_num)
  have h2 : ∃ f', s.test 0 10 60 50 (9 / 2) = .hit f' 0 0 := by
    obtain ⟨-, -, -, -, h5, h6, h7, -⟩ := SheetObj.new_dip rfl hs
    have e5 : s.nvx = 0 := by rw [h5]; simp [exShD]
    refine ⟨f, ?_⟩
    rw [← h1]
    unfold SheetObj.test SheetObj.inner
    rw [e5]
    simp
  obtain ⟨f', h2⟩ := h2
  exact ⟨s, f, f', hs, h1, h2, hp, (C69_sheet_partial rfl hs (by norm_num [exShP]) h1 h2 hp).2.2⟩

/-! ### C69: channels -/

/-- **C69 fails, channels.** In a channel flowing in y-direction with layers dipping by 45 degrees the points (0, 0, -1) and (0, 1, 0) lie in one plane with the azimuth (90
degrees) and dip recorded for both, but get different facies. -/
theorem C69_channel_refuted : ∃ (p : ChannelParams) (d : ChannelDraw) (g : Grid) (c : Channel) (f f' : ℤ) (az dp : ℝ),
    Channel.new p d g [⟨0, 0, 0, 1⟩, ⟨0, 1, 0, 1⟩] 0 4 2 = .ok c ∧ p.struct = "dip" ∧
    (c.test g Cache.empty 0 0 (-1) 0 0).1 = .hit f az dp ∧ (c.test g Cache.empty 0 1 0 0 1).1 = .hit f' az dp ∧
    planeDist 0 0 (-1) az dp 0 1 0 = 0 ∧ f ≠ f' := by
  have hang : (45 : ℝ) * π / 180 = π / 4 := by ring
  have h2p : (0 : ℝ) < √2 := Real.sqrt_pos.2 (by norm_num)
  obtain ⟨P, hP⟩ : ∃ P : ChannelParams, P = { exCPdip with dipsetDist := √2 } := ⟨_, rfl⟩
  obtain ⟨D, hD⟩ : ∃ D : ChannelDraw, D = { exCDdip with dip := 45, shift := √2 } := ⟨_, rfl⟩
  have hld : P.dipsetDist = √2 := by rw [hP]
  have hdip : D.dip = 45 := by rw [hD]
  have hsh : D.shift = √2 := by rw [hD]
  have hstruct : P.struct = "dip" := by rw [hP]; rfl
  have hlag : P.lagHeight = 0 := by rw [hP]; rfl
  have hfac : P.facies = [1, 2] := by rw [hP]; rfl
  have halt : P.altFacies = some [[2], [1]] := by rw [hP]; rfl
  obtain ⟨pts, hpts⟩ : ∃ pts : List CPoint, pts = [⟨0, 0, 0, 1⟩, ⟨0, 1, 0, 1⟩] := ⟨_, rfl⟩
  obtain ⟨c, hc⟩ : ∃ c, Channel.new P D (exCG 1 10) pts 0 4 2 = .ok c := by
    obtain ⟨l, hl⟩ := alternating_table (num := pyInt ((⌈curveLength pts * sin (D.dip * π / 180) / P.dipsetDist + D.shift⌉ : ℝ) +
        (⌈2 / P.dipsetDist⌉ : ℝ)) + 10) (by
      rw [← Int.cast_add, pyInt_intCast, hld, hdip, hsh, hang]
      have h1 : 0 ≤ curveLength pts * sin (π / 4) / √2 + √2 := by
        rw [curveLength_eq]
        have := arc_nonneg pts (pts.length - 1)
        have hs : 0 ≤ sin (π / 4) := by rw [sin_pi_div_four]; positivity
        positivity
      have h3 : (0 : ℤ) ≤ ⌈curveLength pts * sin (π / 4) / √2 + √2⌉ := Int.ceil_nonneg h1
      have h4 : (0 : ℤ) ≤ ⌈(2 : ℝ) / √2⌉ := Int.ceil_nonneg (by positivity)
      omega) D.layers
    unfold Channel.new
    rw [if_neg (by norm_num)]
    simp only [if_pos hstruct, bind_ok, pure_ok, hfac, halt]
    exact ⟨_, l, (layerTable_eq (by rw [hld]; exact h2p.ne')).trans hl, rfl⟩
  have key : ∀ (y z : ℝ) (yi n : ℕ), z ≤ 0 → -2 ≤ z → n < 2 → y = n → ∃ f, (c.test (exCG 1 10) Cache.empty 0 y z 0 yi).1 = .hit f 90 45 ∧
      (-√2 < n * (√2 / 2) + z * (√2 / 2) + √2 → c.table[(pyInt ((n * (√2 / 2) + z * (√2 / 2) + √2) / √2)).toNat]? = some f) ∨
      n * (√2 / 2) + z * (√2 / 2) + √2 ≤ -√2 := by
    intro y z yi n hz0 hz2 hn hy
    have hIn : InChannel pts 0 4 2 0 y z := by
      refine ⟨hz0, ⟨0, n, 0, 1⟩, ?_, ?_⟩
      · rw [hpts]
        have : n = 0 ∨ n = 1 := by omega
        rcases this with rfl | rfl <;> simp
      · rw [hy]; norm_num; linarith
    have hin := (C26_parabola hc (by norm_num) (by norm_num) (by norm_num) 0 y z 0 yi).2 hIn
    obtain ⟨m, ⟨hm, hnear, -⟩, h1, -⟩ := C28_lookup_partial hc hstruct (by norm_num) (by norm_num) (by norm_num) (by rw [hld]; exact h2p)
      (by rw [hsh]; exact h2p.le) (by rw [hsh, hld]) (by rw [hdip]; norm_num) (by rw [hdip]; norm_num) 0 y z 0 yi Cache.empty hin
      (by rw [hlag]; linarith)
    have hmn : m = n := by
      have hd0 : distTo pts 0 y n = 0 := by
        unfold distTo px py
        rw [hy, hpts]
        have : n = 0 ∨ n = 1 := by omega
        rcases this with rfl | rfl <;> simp
      have hle := hnear n (by rw [hpts]; exact hn)
      rw [hd0] at hle
      rw [hpts] at hm
      simp only [List.length_cons, List.length_nil] at hm
      unfold distTo px py at hle
      rw [hy, hpts] at hle
      have h0 : n = 0 ∨ n = 1 := by omega
      have h0' : m = 0 ∨ m = 1 := by omega
      rcases h0 with rfl | rfl <;> rcases h0' with rfl | rfl <;> first | rfl | (exfalso; norm_num at hle)
    subst hmn
    have harc : arc pts m = m := by
      unfold arc px py
      rw [hpts]
      have : m = 0 ∨ m = 1 := by omega
      rcases this with rfl | rfl <;> simp
    have hlc : layerCoord pts 0 D.dip D.shift z m = m * (√2 / 2) + z * (√2 / 2) + √2 := by
      unfold layerCoord
      rw [harc, hdip, hsh, hang, sin_pi_div_four, cos_pi_div_four, sub_zero]
    rw [hlc, hld] at h1
    by_cases hcase : -√2 < m * (√2 / 2) + z * (√2 / 2) + √2
    · obtain ⟨f, az, t1, -, t3⟩ := h1 hcase
      have haz := C72_azimuth_partial hc hstruct (φ := π / 2) ⟨by linarith [pi_pos], by linarith [pi_pos]⟩ (by rw [hpts]; simp)
        (by
          intro q hq
          rw [hpts] at hq
          simp only [List.mem_cons, List.not_mem_nil, or_false] at hq
          rcases hq with rfl | rfl <;> exact ⟨1, one_pos, by simp, by simp⟩) 0 y z 0 yi Cache.empty (by rw [hlag]; linarith) t3
      have e90 : az = 90 := by
        rw [haz.1]; field_simp; norm_num
      refine ⟨f, Or.inl ⟨?_, fun _ => t1⟩⟩
      rw [t3, e90, hdip]
    · exact ⟨0, Or.inr (not_lt.1 hcase)⟩
  obtain ⟨f, h1⟩ := key 0 (-1) 0 0 (by norm_num) (by norm_num) (by norm_num) (by norm_num)
  obtain ⟨f', h2⟩ := key 1 0 1 1 (by norm_num) (by norm_num) (by norm_num) (by norm_num)
  rcases h1 with ⟨h1, t1⟩ | h1
  swap
  · exfalso; push_cast at h1; linarith
  rcases h2 with ⟨h2, t2⟩ | h2
  swap
  · exfalso; push_cast at h2; linarith
  have t1 := t1 (by push_cast; linarith)
  have t2 := t2 (by push_cast; linarith)
  have i1 : pyInt (((0 : ℕ) * (√2 / 2) + -1 * (√2 / 2) + √2) / √2) = 0 := by
    rw [show (((0 : ℕ) : ℝ) * (√2 / 2) + -1 * (√2 / 2) + √2) / √2 = 1 / 2 by push_cast; field_simp; ring]
    unfold pyInt
    rw [if_pos (by norm_num), Int.floor_eq_iff]
    norm_num
  have i2 : pyInt (((1 : ℕ) * (√2 / 2) + 0 * (√2 / 2) + √2) / √2) = 1 := by
    rw [show (((1 : ℕ) : ℝ) * (√2 / 2) + 0 * (√2 / 2) + √2) / √2 = 3 / 2 by push_cast; field_simp; ring]
    unfold pyInt
    rw [if_pos (by norm_num), Int.floor_eq_iff]
    norm_num
  rw [i1] at t1
  rw [i2] at t2
  obtain ⟨-, -, -, -, -, htab⟩ := Channel.new_dip hc hstruct
  rw [hfac, halt] at htab
  refine ⟨P, D, exCG 1 10, c, f, f', 90, 45, by rw [← hpts]; exact hc, hstruct, h1, h2, ?_, alternating_ne htab t1 t2⟩
  have h90 : (90 : ℝ) * π / 180 = π / 2 := by ring
  simp [planeDist, beddingNormal, hang, h90]

end Hyvr
