import Verif.Spec.Inside
import Verif.Lemmas.Written
import Verif.Props.Place
import Verif.Props.Layers
import Verif.Props.Bulb
import Verif.Props.Sheet
import Verif.Props.Channel

/-!
What objects placed from an ini-file give the cells inside (C102, C103).
-/

namespace Hyvr

open Py Spec Real

/-! ### Reading -/

theorem wholesOf_mem {v : Val} {fs : List ℤ} (h : wholesOf v = .ok fs) {f : ℤ} (hf : f ∈ fs) : ∃ l, v = .node l ∧ numVal f ∈ l := by
  simp only [wholesOf, bind_ok] at h
  obtain ⟨l, hl, hm⟩ := h
  obtain ⟨w, hw, hwf⟩ := mapPy_from hm hf
  have := wholeOf_ok hwf
  rcases items_ok hl with rfl | ⟨s, rfl, rfl⟩
  · exact ⟨l, rfl, by rw [← this]; exact hw⟩
  · obtain ⟨c, -, hc⟩ := List.mem_map.1 hw
    rw [← hc] at this
    cases this

theorem altOf_mem {v : Val} {rows : List (List ℤ)} (h : altOf v = .ok (some rows)) {row : List ℤ} (hr : row ∈ rows) {f : ℤ} (hf : f ∈ row) :
    ∃ l lrow, v = .node l ∧ .node lrow ∈ l ∧ numVal f ∈ lrow := by
  unfold altOf at h
  by_cases hv : v = .leaf .none
  · rw [if_pos hv] at h; cases h
  rw [if_neg hv] at h
  simp only [bind_ok, pure_ok] at h
  obtain ⟨l, hl, rows', hm, heq⟩ := h
  cases heq
  obtain ⟨w, hw, hwf⟩ := mapPy_from hm hr
  obtain ⟨lrow, rfl, hmem⟩ := wholesOf_mem hwf hf
  rcases items_ok hl with rfl | ⟨s, rfl, rfl⟩
  · exact ⟨l, lrow, rfl, hw, hmem⟩
  · obtain ⟨c, -, hc⟩ := List.mem_map.1 hw
    cases hc

theorem rangeOf_ok {v : Val} {q : ℚ × ℚ} (h : rangeOf v = .ok q) : v = numList [q.1, q.2] := by
  simp only [rangeOf, bind_ok] at h
  obtain ⟨l, hl, hp⟩ := h
  unfold pairOf at hp
  split at hp
  · cases hp
    exact (numsOf_ok hl).2 (by simp)
  · cases hp

theorem distOf_pos {v : Val} {q q' : ℚ} (h : distOf v = .ok q) (hv : v = numVal q') : q = q' := by
  subst hv
  unfold distOf at h
  rw [if_neg (by simp)] at h
  have := numOf_ok h
  cases this
  rfl

/-- The structure that is written and the one that is used. -/
theorem structOf_ok {v : Val} {s : String} (h : structOf v = .ok s) :
    (v = .leaf (.text "flat".toList) ∧ s = "massive") ∨ v = .leaf (.text s.toList) := by
  simp only [structOf, bind_ok, pure_ok] at h
  obtain ⟨t, ht, rfl⟩ := h
  unfold asText at ht
  split at ht
  · cases ht
    by_cases hf : t = "flat".toList
    · left
      rw [if_pos hf, hf]
      exact ⟨rfl, rfl⟩
    · right
      rw [if_neg hf]
      simp
  · cases ht

/-- What was read from a section for the inside of objects. -/
structure InsideFrom (d : Dict) (i : InsideRead) : Prop where
  struct : (written d "structure" "flat" ∧ i.struct = "massive") ∨ written d "structure" i.struct
  facies : ∀ f ∈ i.facies, InFacies d f
  alt : ∀ rows, i.altFacies = some rows → ∀ row ∈ rows, ∀ f ∈ row, InAltFacies d f
  azimuth : d "azimuth" = some (numList [i.azimuth.1, i.azimuth.2])
  dip : d "dip" = some (numList [i.dip.1, i.dip.2])
  dist : ∀ q, d "dipset_dist" = some (numVal q) → i.dipsetDist = q

theorem readInside_from {d : Dict} {i : InsideRead} (h : readInside d = .ok i) : InsideFrom d i := by
  simp only [readInside, bind_ok, pure_ok, dget_ok] at h
  obtain ⟨sv, hsv, s, hs, fv, hfv, fs, hfs, av, hav, alt, halt, zv, hzv, az, haz, pv, hpv, dp, hdp, dv, hdv, ds, hds, rfl⟩ := h
  refine ⟨?_, ?_, ?_, ?_, ?_, ?_⟩
  · rcases structOf_ok hs with ⟨rfl, rfl⟩ | rfl
    · exact Or.inl ⟨hsv, rfl⟩
    · exact Or.inr hsv
  · intro f hf
    obtain ⟨l, rfl, hl⟩ := wholesOf_mem hfs hf
    exact ⟨l, hfv, hl⟩
  · intro rows hrows row hrow f hf
    simp only at hrows
    subst hrows
    obtain ⟨l, lrow, rfl, h1, h2⟩ := altOf_mem halt hrow hf
    exact ⟨l, lrow, hav, h1, h2⟩
  · rw [hzv, rangeOf_ok haz]
  · rw [hpv, rangeOf_ok hdp]
  · intro q hq
    rw [hdv] at hq
    exact distOf_pos hds (Option.some.inj hq)

theorem between_uniform {d : Dict} {k : String} {q : ℚ × ℚ} (h : d k = some (numList [q.1, q.2])) {u : ℝ} (h0 : 0 ≤ u) (h1 : u < 1) :
    Between d k (uniform q.1 q.2 u) := by
  refine ⟨q.1, q.2, h, ?_, ?_⟩
  · unfold uniform
    rcases le_total (q.1 : ℝ) q.2 with hl | hl
    · rw [min_eq_left hl]
      nlinarith
    · rw [min_eq_right hl]
      nlinarith
  · unfold uniform
    rcases le_total (q.1 : ℝ) q.2 with hl | hl
    · rw [max_eq_right hl]
      nlinarith
    · rw [max_eq_left hl]
      nlinarith

/-- Facies of a table of layers. -/
theorem layer_facies {d : Dict} {i : InsideRead} (hi : InsideFrom d i) (hs : StructureIn d ["dip", "bulb_sets", "random"]) {num : ℤ}
    {draws : ℕ → ℕ} {l : List ℤ} (h : altFacies num i.facies i.altFacies draws = .ok l) {f : ℤ} (hf : f ∈ l) : ObjectFacies d f := by
  obtain ⟨-, -, ⟨f0, hf0, hhead⟩, hchain⟩ := altFacies_ok h
  have key : ∀ (l : List ℤ), (∀ x, l.head? = some x → ObjectFacies d x) → l.IsChain (Follows i.facies i.altFacies) → ∀ x ∈ l, ObjectFacies d x := by
    intro l
    induction l with
    | nil => simp
    | cons a l ih =>
      intro h1 h2 x hx
      rcases List.mem_cons.1 hx with rfl | hx
      · exact h1 x rfl
      · refine ih ?_ (List.IsChain.tail h2) x hx
        intro y hy
        cases l with
        | nil => cases hy
        | cons b l =>
          cases hy
          have hfol := (List.isChain_cons_cons.1 h2).1
          unfold Follows at hfol
          cases halt : i.altFacies with
          | none =>
            rw [halt] at hfol
            exact Or.inl (hi.facies _ hfol)
          | some rows =>
            rw [halt] at hfol
            obtain ⟨k, row, -, -, hrow, hmem⟩ := hfol
            exact Or.inr ⟨hs, hi.alt rows halt row (List.mem_of_getElem? hrow) _ hmem⟩
  exact key l (fun x hx => by rw [hhead] at hx; cases hx; exact Or.inl (hi.facies _ hf0)) hchain f hf

/-- What was read from a section for erosive objects. -/
structure ErosiveFrom (d : Dict) (e : ErosiveRead) : Prop where
  lagHeight : d "lag_height" = some (numVal e.lagHeight)
  lagFacies : d "lag_facies" = some (numVal e.lagFacies)
  agg : d "agg" = some (numVal e.agg)
  buffer : d "buffer" = some (numVal e.buffer)
  width : d "width" = some (numVal e.width)
  depth : d "depth" = some (numVal e.depth)
  trend : d "size_ztrend" = some (.leaf .none) ↔ e.sizeZtrend = none
  factors : ∀ f0 f1, e.sizeZtrend = some (f0, f1) → d "size_ztrend" = some (numList [f0, f1])

theorem trendOf_some {v : Val} {f0 f1 : ℚ} (h : trendOf v = .ok (some (f0, f1))) : v = numList [f0, f1] := by
  unfold trendOf at h
  by_cases hv : v = .leaf .none
  · rw [if_pos hv] at h
    cases h
  · rw [if_neg hv] at h
    simp only [bind_ok] at h
    obtain ⟨l, hl, h⟩ := h
    split at h
    · cases h
      exact (numsOf_ok hl).2 (by simp)
    · cases h

theorem trendOf_none {v : Val} {t : Option (ℚ × ℚ)} (h : trendOf v = .ok t) : v = .leaf .none ↔ t = none := by
  unfold trendOf at h
  by_cases hv : v = .leaf .none
  · rw [if_pos hv] at h
    cases h
    simp [hv]
  · rw [if_neg hv] at h
    simp only [bind_ok] at h
    obtain ⟨l, -, h⟩ := h
    split at h
    · cases h
      simp [hv]
    · cases h

theorem readErosive_from {d : Dict} {e : ErosiveRead} (h : readErosive d = .ok e) : ErosiveFrom d e := by
  simp only [readErosive, bind_ok, pure_ok, dget_ok] at h
  obtain ⟨hv, h1, lh, h2, fv, h3, lf, h4, av, h5, ag, h6, bv, h7, bu, h8, wv, h9, wi, h10, dv, h11, de, h12, tv, h13, tr, h14, rfl⟩ := h
  refine ⟨by rw [h1, numOf_ok h2], by rw [h3, wholeOf_ok h4], by rw [h5, numOf_ok h6], by rw [h7, numOf_ok h8], by rw [h9, numOf_ok h10],
    by rw [h11, numOf_ok h12], ?_, ?_⟩
  · rw [h13, ← trendOf_none h14, Option.some.injEq]
  · intro f0 f1 h
    simp only at h
    subst h
    rw [h13, trendOf_some h14]

/-- What was read from a section for troughs. -/
structure TroughFrom (d : Dict) (p : TroughRead) : Prop where
  inside : InsideFrom d p.inside
  erosive : ErosiveFrom d p.erosive
  dist : ∀ q, d "bulbset_dist" = some (numVal q) → p.bulbsetDist = q
  length : d "length" = some (numVal p.length)
  density : d "trough_density" = some (numVal p.density)
  paleoflow : d "paleoflow" = some (numList [p.paleoflow.1, p.paleoflow.2])
  still : p.migrate = none → d "migrate" = some (.leaf .none)
  moves : ∀ m, p.migrate = some m → ∃ rest, d "migrate" = some (numList (m.1.1 :: m.1.2 :: m.2.1 :: m.2.2 :: rest))
  free : p.teXyz = none → d "te_xyz" = some (.leaf .none)
  fixed : ∀ pts, p.teXyz = some pts → ∃ v, d "te_xyz" = some v ∧ v ≠ .leaf .none ∧
    (pts ≠ [] → v = .node (pts.map fun q => numList [q.1, q.2.1, q.2.2]))

theorem migrateOf_cases {v : Val} {o : Option ((ℚ × ℚ) × (ℚ × ℚ))} (h : migrateOf v = .ok o) :
    (o = none → v = .leaf .none) ∧ ∀ m, o = some m → ∃ rest, v = numList (m.1.1 :: m.1.2 :: m.2.1 :: m.2.2 :: rest) := by
  unfold migrateOf at h
  by_cases hv : v = .leaf .none
  · rw [if_pos hv] at h
    cases h
    exact ⟨fun _ => hv, fun _ hm => by cases hm⟩
  · rw [if_neg hv] at h
    simp only [bind_ok] at h
    obtain ⟨l, hl, h⟩ := h
    split at h
    · cases h
      refine ⟨fun hc => (by cases hc), fun m hm => ?_⟩
      cases hm
      exact ⟨_, (numsOf_ok hl).2 (by simp)⟩
    · cases h

theorem pointOf_ok {v : Val} {q : ℚ × ℚ × ℚ} (h : pointOf v = .ok q) : v = numList [q.1, q.2.1, q.2.2] := by
  simp only [pointOf, bind_ok] at h
  obtain ⟨l, hl, h⟩ := h
  split at h
  · cases h
    exact (numsOf_ok hl).2 (by simp)
  · cases h

theorem points_ok {l : List Val} {pts : List (ℚ × ℚ × ℚ)} (h : mapPy pointOf l = .ok pts) : l = pts.map fun q => numList [q.1, q.2.1, q.2.2] := by
  have := mapPy_ok.1 h
  clear h
  induction this with
  | nil => rfl
  | cons hq _ ih => rw [pointOf_ok hq, ih]; rfl

theorem pointsOf_cases {v : Val} {o : Option (List (ℚ × ℚ × ℚ))} (h : pointsOf v = .ok o) :
    (o = none → v = .leaf .none) ∧ ∀ pts, o = some pts → v ≠ .leaf .none ∧ (pts ≠ [] → v = .node (pts.map fun q => numList [q.1, q.2.1, q.2.2])) := by
  unfold pointsOf at h
  by_cases hv : v = .leaf .none
  · rw [if_pos hv] at h
    cases h
    exact ⟨fun _ => hv, fun _ hm => by cases hm⟩
  · rw [if_neg hv] at h
    simp only [bind_ok, pure_ok] at h
    obtain ⟨l, hl, pts, hp, rfl⟩ := h
    refine ⟨fun hc => (by cases hc), fun pts' hm => ?_⟩
    cases hm
    refine ⟨hv, fun hne => ?_⟩
    have hpl := points_ok hp
    rcases items_ok hl with rfl | ⟨s, rfl, rfl⟩
    · rw [hpl]
    · cases s with
      | nil => cases pts with
        | nil => exact absurd rfl hne
        | cons q pts => cases hpl
      | cons c s => cases pts with
        | nil => exact absurd rfl hne
        | cons q pts =>
          simp only [List.map_cons, List.cons.injEq] at hpl
          cases hpl.1

theorem readTrough_from {d : Dict} {p : TroughRead} (h : readTrough d = .ok p) : TroughFrom d p := by
  simp only [readTrough, bind_ok, pure_ok, dget_ok] at h
  obtain ⟨i, h1, e, h2, bv, h3, bd, h4, lv, h5, le, h6, dv, h7, de, h8, pv, h9, pf, h10, mv, h11, mi, h12, tv, h13, te, h14, rfl⟩ := h
  refine ⟨readInside_from h1, readErosive_from h2, ?_, by rw [h5, numOf_ok h6], by rw [h7, numOf_ok h8], by rw [h9, rangeOf_ok h10], ?_, ?_, ?_, ?_⟩
  · intro q hq
    rw [h3] at hq
    exact distOf_pos h4 (Option.some.inj hq)
  · intro hm
    rw [h11, (migrateOf_cases h12).1 hm]
  · intro m hm
    obtain ⟨rest, hv⟩ := (migrateOf_cases h12).2 m hm
    exact ⟨rest, by rw [h11, hv]⟩
  · intro ht
    rw [h13, (pointsOf_cases h14).1 ht]
  · intro pts hpts
    obtain ⟨hv, hv2⟩ := (pointsOf_cases h14).2 pts hpts
    exact ⟨tv, h13, hv, hv2⟩

/-- What was read from a section for channels. -/
structure ChannelFrom (d : Dict) (p : ChannelRead) : Prop where
  inside : InsideFrom d p.inside
  erosive : ErosiveFrom d p.erosive
  count : d "channel_no" = some (numVal p.channelNo)
  h : d "h" = some (numVal p.h)
  k : d "k" = some (numVal p.k)
  ds : d "ds" = some (numVal p.ds)
  eps : d "eps_factor" = some (numVal p.epsFactor)
  flow : d "flow_angle" = some (numVal p.flowAngle)
  mig : d "mig" = some (numVal p.mig)

theorem readChannel_from {d : Dict} {p : ChannelRead} (h : readChannel d = .ok p) : ChannelFrom d p := by
  simp only [readChannel, bind_ok, pure_ok, dget_ok] at h
  obtain ⟨i, h1, e, h2, nv, h3, n, h4, hv, h5, hh, h6, kv, h7, k, h8, sv, h9, ds, h10, ev, h11, ep, h12, fv, h13, fl, h14, mv, h15, mi, h16, rfl⟩ := h
  exact ⟨readInside_from h1, readErosive_from h2, by rw [h3, wholeOf_ok h4], by rw [h5, numOf_ok h6], by rw [h7, numOf_ok h8],
    by rw [h9, numOf_ok h10], by rw [h11, numOf_ok h12], by rw [h13, numOf_ok h14], by rw [h15, numOf_ok h16]⟩

/-! ### Troughs -/

/-- Trough number `n` of a list was made with the random numbers number `n`. -/
theorem makeTroughs_get {p : TroughParams} {z0 lz : ℝ} {draws : ℕ → TroughDraw} {n : ℕ} {te : List (ℝ × ℝ × ℝ)} {ts : List Trough}
    (h : makeTroughs p z0 lz draws n te = .ok ts) {k : ℕ} {t : Trough} (hk : ts[k]? = some t) :
    ∃ q, te[k]? = some q ∧ Trough.new p (draws (n + k)) q.1 q.2.1 q.2.2 (troughAxes p z0 lz q.2.2).1 (troughAxes p z0 lz q.2.2).2.1
      (troughAxes p z0 lz q.2.2).2.2 (draws (n + k)).alpha = .ok t := by
  induction te generalizing n ts k with
  | nil =>
    simp only [makeTroughs, Except.ok.injEq] at h
    subst h
    simp at hk
  | cons q rest ih =>
    simp only [makeTroughs, bind_ok, pure_ok] at h
    obtain ⟨t0, ht0, ts', hts, rfl⟩ := h
    cases k with
    | zero =>
      simp only [List.getElem?_cons_zero, Option.some.injEq] at hk
      subst hk
      exact ⟨q, rfl, ht0⟩
    | succ k =>
      obtain ⟨q', h1, h2⟩ := ih hts (by simpa using hk)
      exact ⟨q', by simpa using h1, by rw [show n + (k + 1) = n + 1 + k by omega]; exact h2⟩

theorem limitDip_le (d m : ℝ) : |limitDip d m| ≤ |m| := by
  unfold limitDip
  split_ifs with h1 h2
  · exact le_rfl
  · rw [abs_neg]
  · exact (abs_le.2 ⟨not_lt.1 h2, not_lt.1 h1⟩).trans (le_abs_self m)

/-- Which structures have which number. -/
theorem structure_kind {d : Dict} {i : InsideRead} (hi : InsideFrom d i) {n kind : ℕ} (h : structureNumber i.struct n = .ok kind) :
    (kind = 0 → StructureIn d ["massive", "flat", "dip", "random"]) ∧
    (kind = 1 → StructureIn d ["dip", "random"]) ∧
    (kind = 2 → StructureIn d ["bulb", "bulb_sets", "random"]) ∧
    (kind = 3 → StructureIn d ["bulb_sets", "random"]) := by
  have hw : ∀ s, i.struct = s → s ≠ "massive" → written d "structure" s := by
    intro s hs hne
    rcases hi.struct with ⟨-, h1⟩ | h1
    · exact absurd (hs.symm.trans h1) hne
    · rw [← hs]; exact h1
  unfold structureNumber at h
  split_ifs at h with h0 h1 h2 h3 h4
  · cases h
    refine ⟨fun _ => ?_, by omega, by omega, by omega⟩
    rcases hi.struct with ⟨h, -⟩ | h
    · exact ⟨_, by simp, h⟩
    · rw [h0] at h
      exact ⟨_, by simp, h⟩
  · cases h
    exact ⟨by omega, fun _ => ⟨_, by simp, hw _ h1 (by decide)⟩, by omega, by omega⟩
  · cases h
    exact ⟨by omega, by omega, fun _ => ⟨_, by simp, hw _ h2 (by decide)⟩, by omega⟩
  · cases h
    exact ⟨by omega, by omega, by omega, fun _ => ⟨_, by simp, hw _ h3 (by decide)⟩⟩
  · have hr := hw _ h4 (by decide)
    exact ⟨fun _ => ⟨_, by simp, hr⟩, fun _ => ⟨_, by simp, hr⟩, fun _ => ⟨_, by simp, hr⟩, fun _ => ⟨_, by simp, hr⟩⟩

theorem structureIn_mono {d : Dict} {l l' : List String} (h : StructureIn d l) (hl : ∀ s ∈ l, s ∈ l') : StructureIn d l' := by
  obtain ⟨s, hs, h⟩ := h
  exact ⟨s, hl s hs, h⟩

/-- What a trough of a section may answer at or above its reported bottom. -/
theorem trough_values {d : Dict} {p : TroughRead} (hp : TroughFrom d p) (hg : written d "geometry" "trough") {r : ObjRandoms} (hu : UniformObjs r)
    {n : ℕ} {x y z a b c : ℝ} {t : Trough} (ht : Trough.new p.params (r.trough p n) x y z a b c (r.trough p n).alpha = .ok t) {g : Grid}
    {x' y' z' : ℝ} (hz : t.zmin ≤ z') :
    (∀ f az dp, t.test g x' y' z' = .hit f az dp → ObjectValues d f az dp) ∧ (∀ m, t.test g x' y' z' = .outside m → HasLayers d) := by
  have hm := Trough.new_made ht
  have hB := hm.base
  have hk := Trough.new_kind ht
  obtain ⟨k0, k1, k2, k3⟩ := structure_kind hp.inside (show structureNumber p.inside.struct (r.kind n) = .ok t.kind from hk)
  have haz : Between d "azimuth" (r.trough p n).azim := between_uniform hp.inside.azimuth (hu.azim n).1 (hu.azim n).2
  have hdp : Between d "dip" (r.trough p n).dip := between_uniform hp.inside.dip (hu.dip n).1 (hu.dip n).2
  have hal : Between d "paleoflow" (r.trough p n).alpha := between_uniform hp.paleoflow (hu.alpha n).1 (hu.alpha n).2
  constructor
  · intro f az dp h
    rcases Trough.hit_cases ht h with ⟨h1, h2, h3, h4⟩ | ⟨-, h1⟩
    · rw [h2, h3, h4]
      refine .lag (Or.inl hg) ⟨hp.erosive.lagFacies, p.erosive.lagHeight, hp.erosive.lagHeight, ?_⟩
      intro h0
      rw [hB.hzmin] at hz
      have : (p.params.lagHeight : ℝ) = 0 := by
        show ((p.erosive.lagHeight : ℚ) : ℝ) = 0
        rw [h0, Rat.cast_zero]
      rw [this] at h1
      linarith
    · have h1' := h1
      unfold Trough.inner at h1
      dsimp only at h1
      cases hm with
      | massive f0 hf =>
        rw [if_pos rfl] at h1
        cases h1
        exact .straight hg (k0 rfl) (Or.inl (hp.inside.facies _ hf)) haz hal hdp
      | dip table htab =>
        rw [if_neg (by simp), if_pos rfl] at h1
        obtain ⟨-, h2, rfl, rfl⟩ := tableHit_hit h1
        exact .straight hg (structureIn_mono (k1 rfl) (by simp)) (layer_facies hp.inside (structureIn_mono (k1 rfl) (by simp)) htab (List.mem_of_getElem? h2)) haz hal hdp
      | bulb f0 hf =>
        rw [if_neg (by simp), if_neg (by simp), if_pos (by simp), if_pos rfl] at h1
        cases h1
        exact .bulb hg (k2 rfl) (Or.inl (hp.inside.facies _ hf)) (bulbAngles_bounds _ _ _ _).1 hdp (limitDip_le _ _)
      | bulbSets table htab =>
        rw [if_neg (by simp), if_neg (by simp), if_pos (by simp), if_neg (by simp)] at h1
        obtain ⟨-, h2, rfl, rfl⟩ := tableHit_hit h1
        exact .bulb hg (structureIn_mono (k3 rfl) (by simp)) (layer_facies hp.inside (structureIn_mono (k3 rfl) (by simp)) htab (List.mem_of_getElem? h2))
          (bulbAngles_bounds _ _ _ _).1 hdp (limitDip_le _ _)
  · intro m h
    have hne : t.test g x' y' z' ≠ .miss := by rw [h]; simp
    rw [Trough.test_inside hne] at h
    split_ifs at h
    refine Or.inl ⟨hg, ?_⟩
    unfold Trough.inner at h
    dsimp only at h
    cases hm with
    | massive f0 hf => rw [if_pos rfl] at h; cases h
    | dip table htab => exact structureIn_mono (k1 rfl) (by simp)
    | bulb f0 hf =>
      rw [if_neg (by simp), if_neg (by simp), if_pos (by simp), if_pos rfl] at h
      cases h
    | bulbSets table htab => exact structureIn_mono (k3 rfl) (by simp)

/-- Sound troughs are never looked up outside of their table. -/
theorem trough_sound {d : Dict} {p : TroughRead} (hp : TroughFrom d p) (hs : SoundTrough d) {r : ObjRandoms} (hu : UniformObjs r)
    {n : ℕ} {x y z z0 lz : ℝ} {t : Trough} (ht : Trough.new p.params (r.trough p n) x y z (troughAxes p.params z0 lz z).1
      (troughAxes p.params z0 lz z).2.1 (troughAxes p.params z0 lz z).2.2 (r.trough p n).alpha = .ok t) {g : Grid} {x' y' z' : ℝ} (m : ℤ) :
    t.test g x' y' z' ≠ .outside m := by
  have htr : p.params.sizeZtrend = none := by
    have := hp.erosive.trend.1 hs.trend
    show p.erosive.sizeZtrend.map _ = none
    rw [this]
    rfl
  have pos : ∀ k (q : ℚ), k ∈ ["length", "width", "depth"] → d k = some (numVal q) → (0 : ℝ) < q := by
    intro k q hk hq
    obtain ⟨q', h1, h2⟩ := hs.size k hk
    rw [h1] at hq
    cases hq
    exact_mod_cast h2
  have hl : (0 : ℝ) < p.params.length := pos "length" _ (by simp) hp.length
  have hw : (0 : ℝ) < p.params.width := pos "width" _ (by simp) hp.erosive.width
  have hd : (0 : ℝ) < p.params.depth := pos "depth" _ (by simp) hp.erosive.depth
  have hk := Trough.new_kind ht
  obtain ⟨-, k1, -, k3⟩ := structure_kind hp.inside (show structureNumber p.inside.struct (r.kind n) = .ok t.kind from hk)
  have hdip : t.kind = 1 → (0 : ℝ) < p.inside.dipsetDist := by
    intro h1
    obtain ⟨q, hq, hq0⟩ := hs.dipsets (k1 h1)
    rw [hp.inside.dist q hq]
    exact_mod_cast hq0
  have hshift : t.kind = 1 → (r.trough p n).shift = p.inside.dipsetDist * r.shift n := by
    intro h1
    have hk' : structureNumber p.inside.struct (r.kind n) = .ok 1 := by rw [← h1]; exact hk
    unfold ObjRandoms.trough
    simp only [hk', uniform]
    ring
  have hshift' : t.kind ≠ 1 → (r.trough p n).shift = r.shift n := by
    intro h1
    unfold ObjRandoms.trough
    simp only
    split
    · rename_i h2
      have : structureNumber p.inside.struct (r.kind n) = .ok t.kind := hk
      rw [h2] at this
      exact absurd (Except.ok.inj this).symm h1
    · rfl
  have hu0 := hu.shift n
  refine (C22_table ht ?_ ?_ ?_ ?_ ?_ ?_ g x' y' z').1 m
  · simp only [troughAxes, htr]; linarith
  · simp only [troughAxes, htr]; linarith
  · simp only [troughAxes, htr]; linarith
  · by_cases h1 : t.kind = 1
    · rw [hshift h1]
      exact mul_nonneg (hdip h1).le hu0.1
    · rw [hshift' h1]
      exact hu0.1
  · intro h1
    refine ⟨hdip h1, ?_⟩
    rw [hshift h1]
    have := hdip h1
    show p.inside.dipsetDist * r.shift n ≤ ((p.inside.dipsetDist : ℚ) : ℝ)
    nlinarith
  · intro h3
    obtain ⟨q, hq, hq0⟩ := hs.bulbsets (k3 h3)
    show (0 : ℝ) < ((p.bulbsetDist : ℚ) : ℝ)
    rw [hp.dist q hq]
    exact_mod_cast hq0

/-! ### Channels -/

theorem channelsOnLevel_get {p : ChannelParams} {g : Grid} {draws : ℕ → ChannelDraw} {curve : ℕ → ℝ → Except PyErr (List CPoint)} {z : ℝ} {m n : ℕ}
    {cs : List Channel} (h : channelsOnLevel p g draws curve z m n = .ok cs) {k : ℕ} {c : Channel} (hk : cs[k]? = some c) :
    ∃ pts, Channel.new p (draws (n + k)) g pts z (p.width * channelFactor p g z) (p.depth * channelFactor p g z) = .ok c := by
  induction m generalizing n cs k with
  | zero =>
    unfold channelsOnLevel at h
    cases h
    simp at hk
  | succ m ih =>
    unfold channelsOnLevel at h
    simp only [bind_ok, pure_ok] at h
    obtain ⟨pts, -, c0, hc, rest, hr, rfl⟩ := h
    cases k with
    | zero =>
      simp only [List.getElem?_cons_zero, Option.some.injEq] at hk
      subst hk
      exact ⟨pts, hc⟩
    | succ k =>
      rw [show n + (k + 1) = n + 1 + k by omega]
      exact ih hr (by simpa using hk)

/-- Channel number `k` was made with the random numbers number `k`. -/
theorem channelLevels_get {p : ChannelParams} {g : Grid} {draws : ℕ → ChannelDraw} {curve : ℕ → ℝ → Except PyErr (List CPoint)} {zb : ℝ} {fuel : ℕ}
    {z : ℝ} {n : ℕ} {cs : List Channel} (h : channelLevels p g draws curve zb fuel z n = some (.ok cs)) {k : ℕ} {c : Channel}
    (hk : cs[k]? = some c) : ∃ pts z w dep, Channel.new p (draws (n + k)) g pts z w dep = .ok c := by
  induction fuel generalizing z n cs k with
  | zero =>
    unfold channelLevels at h
    split_ifs at h
    cases h
    simp at hk
  | succ fuel ih =>
    unfold channelLevels at h
    split_ifs at h with hz
    · cases h1 : channelsOnLevel p g draws curve z p.channelNo n with
      | error e => rw [h1] at h; simp at h
      | ok cs1 =>
        rw [h1] at h
        simp only at h
        have hlen := (channelsOnLevel_spec h1).1
        cases h2 : channelLevels p g draws curve zb fuel (z - p.agg) (n + p.channelNo) with
        | none => rw [h2] at h; cases h
        | some e =>
          rw [h2] at h
          cases e with
          | error e => cases h
          | ok rest =>
            simp only [Option.some.injEq, Except.ok.injEq] at h
            subst h
            by_cases hlt : k < cs1.length
            · rw [List.getElem?_append_left hlt] at hk
              obtain ⟨pts, hc⟩ := channelsOnLevel_get h1 hk
              exact ⟨pts, _, _, _, hc⟩
            · rw [List.getElem?_append_right (by omega)] at hk
              obtain ⟨pts, z', w, dep, hc⟩ := ih h2 hk
              refine ⟨pts, z', w, dep, ?_⟩
              rw [show n + k = n + p.channelNo + (k - cs1.length) by omega]
              exact hc
    · cases h
      simp at hk

/-- What a channel of a section may answer at or above its reported bottom. -/
theorem channel_values {d : Dict} {p : ChannelRead} (hp : ChannelFrom d p) (hg : written d "geometry" "channel") {r : ObjRandoms} (hu : UniformObjs r)
    {n : ℕ} {g : Grid} {pts : List CPoint} {ztop w dep : ℝ} {c : Channel} (hc : Channel.new p.params (r.channel p n) g pts ztop w dep = .ok c)
    {x y z : ℝ} {xi yi : ℕ} {k : Cache} (hz : c.zmin ≤ z) :
    (∀ f az dp, (c.test g k x y z xi yi).1 = .hit f az dp → ObjectValues d f az dp) ∧
      (∀ m, (c.test g k x y z xi yi).1 = .outside m → HasLayers d) := by
  obtain ⟨-, -, -, -, hdep, -, hzt, -, hzmin, hlh, hlf, hdip, haz⟩ := Channel.new_basic hc
  have hdp : Between d "dip" c.dip := by
    rw [hdip]
    exact between_uniform hp.inside.dip (hu.dip n).1 (hu.dip n).2
  have inner : ∀ A, (c.test g k x y z xi yi).1 = A → A ≠ .miss → c.inner x y z = A := by
    intro A h hne
    unfold Channel.test at h
    split_ifs at h
    · exact absurd h.symm hne
    · exact absurd h.symm hne
    · exact h
    · exact absurd h.symm hne
  have nodip : p.inside.struct ≠ "dip" → ¬ written d "structure" "dip" := by
    intro h1 h2
    rcases hp.inside.struct with ⟨h3, -⟩ | h3
    · have := h3.symm.trans h2
      simp at this
    · have := h3.symm.trans h2
      simp only [Option.some.injEq, Tree.leaf.injEq, Atom.text.injEq] at this
      exact h1 (String.toList_injective this)
  have isdip : p.inside.struct = "dip" → written d "structure" "dip" := by
    intro h1
    rcases hp.inside.struct with ⟨-, h3⟩ | h3
    · rw [h1] at h3
      exact absurd h3 (by decide)
    · rw [← h1]; exact h3
  constructor
  · intro f az dp h
    have hin := inner _ h (by simp)
    unfold Channel.inner at hin
    by_cases hlag : z < c.ztop - c.depth + c.lagHeight
    · rw [if_pos hlag] at hin
      cases hin
      rw [hlf]
      refine .lag (Or.inr hg) ⟨hp.erosive.lagFacies, p.erosive.lagHeight, hp.erosive.lagHeight, ?_⟩
      intro h0
      have : c.lagHeight = 0 := by
        rw [hlh]
        show ((p.erosive.lagHeight : ℚ) : ℝ) = 0
        rw [h0, Rat.cast_zero]
      rw [this, hzt, hdep] at hlag
      rw [hzmin] at hz
      linarith
    · rw [if_neg hlag] at hin
      by_cases hs : p.inside.struct = "dip"
      · obtain ⟨h1, -, -, -, -, htab⟩ := Channel.new_dip hc hs
        rw [if_pos h1] at hin
        obtain ⟨-, h2, rfl, rfl⟩ := tableHit_hit hin
        refine .channel hg (layer_facies hp.inside ⟨_, by simp, isdip hs⟩ htab (List.mem_of_getElem? h2)) ?_ (fun h => absurd (isdip hs) h) hdp
        intro _
        have hpi := pi_pos
        have a1 := Complex.neg_pi_lt_arg ⟨(scanDip c.pts x y).vx / (scanDip c.pts x y).weights, (scanDip c.pts x y).vy / (scanDip c.pts x y).weights⟩
        have a2 := Complex.arg_le_pi ⟨(scanDip c.pts x y).vx / (scanDip c.pts x y).weights, (scanDip c.pts x y).vy / (scanDip c.pts x y).weights⟩
        generalize Complex.arg ⟨(scanDip c.pts x y).vx / (scanDip c.pts x y).weights, (scanDip c.pts x y).vy / (scanDip c.pts x y).weights⟩ = θ at *
        constructor
        · rw [div_mul_eq_mul_div, lt_div_iff₀ hpi]
          linarith
        · rw [div_mul_eq_mul_div, div_le_iff₀ hpi]
          linarith
      · obtain ⟨h1, h2⟩ := Channel.new_massive hc hs
        rw [if_neg (by rw [h1]; simp)] at hin
        cases hin
        exact .channel hg (Or.inl (hp.inside.facies _ h2)) (fun h => absurd h (nodip hs)) (fun _ => haz) hdp
  · intro m h
    have hin := inner _ h (by simp)
    unfold Channel.inner at hin
    split_ifs at hin with hlag hds
    refine Or.inr ⟨Or.inl hg, ?_⟩
    by_cases hs : p.inside.struct = "dip"
    · exact isdip hs
    · have := (Channel.new_massive hc hs).1
      rw [hds] at this
      cases this

/-! ### Sheets -/

/-- What a sheet of a section may answer. -/
theorem sheet_values {d : Dict} {p : SheetRead} (hp : InsideFrom d p.inside) (hg : written d "geometry" "sheet") {r : ObjRandoms} (hu : UniformObjs r)
    {n : ℕ} {g : Grid} {zmean : ℝ} {s : SheetObj} (hs : SheetObj.new p.params (r.sheet p n) g zmean = .ok s) {x y z : ℝ} :
    (∃ f az dp, s.inner x y z = .hit f az dp ∧ ObjectValues d f az dp) ∨ (∃ m, s.inner x y z = .outside m) ∧ HasLayers d := by
  have haz : Between d "azimuth" (r.sheet p n).azim := between_uniform hp.azimuth (hu.azim n).1 (hu.azim n).2
  have hdp : Between d "dip" (r.sheet p n).dip := between_uniform hp.dip (hu.dip n).1 (hu.dip n).2
  by_cases hst : p.inside.struct = "dip"
  · have hw : written d "structure" "dip" := by
      rcases hp.struct with ⟨-, h3⟩ | h3
      · rw [hst] at h3
        exact absurd h3 (by decide)
      · rw [← hst]; exact h3
    obtain ⟨h1, -, h3, h4, -, -, -, -, -, htab⟩ := SheetObj.new_dip hst hs
    unfold SheetObj.inner
    rw [if_pos h1]
    dsimp only
    unfold tableHit
    split_ifs with hn
    · exact Or.inr ⟨⟨_, rfl⟩, Or.inr ⟨Or.inr hg, hw⟩⟩
    · split
      · rename_i f hf
        refine Or.inl ⟨f, _, _, rfl, .sheet hg (layer_facies hp ⟨_, by simp, hw⟩ htab (List.mem_of_getElem? hf)) ?_ ?_⟩
        · rw [h3]; exact haz
        · rw [h4]; exact hdp
      · exact Or.inr ⟨⟨_, rfl⟩, Or.inr ⟨Or.inr hg, hw⟩⟩
  · unfold SheetObj.new at hs
    rw [if_neg (show ¬ p.params.struct = "dip" from hst)] at hs
    simp only [bind_ok, pure_ok] at hs
    obtain ⟨f, hf, rfl⟩ := hs
    left
    refine ⟨f, _, _, rfl, .sheet hg (Or.inl (hp.facies _ (choice_ok hf))) haz hdp⟩

end Hyvr
