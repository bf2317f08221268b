import Verif.Lemmas.Site
import Verif.Props.Placing

/-!
Where the objects of a model generated from an ini-file are and how large they are (C105, C106, C107).
-/

namespace Hyvr

open Py Spec Real

theorem geometry_read {name : String} {i : ℕ} {e : Element} {t : ElemParams ℚ} (h : readElement name i e = .ok t) {s : String}
    (hw : written e.dict "geometry" s) : t.geometry = s := by
  simp only [readElement, bind_ok, pure_ok, dget_ok] at h
  obtain ⟨gv, hgv, g, hg, _, -, _, -, _, -, _, -, _, -, _, -, _, -, _, -, _, -, rfl⟩ := h
  unfold written at hw
  rw [hw] at hgv
  cases hgv
  cases hg
  exact String.ofList_toList

theorem TroughAt.congr {m d : Dict} {nx ny : ℕ} {c : ℝ × ℝ × ℝ} {o o' : GObj ℝ} (h : TroughAt m d nx ny c o) (h1 : o'.zmin = o.zmin)
    (h2 : o'.zmax = o.zmax) (h3 : o'.answer = o.answer) : TroughAt m d nx ny c o' := by
  obtain ⟨s, l⟩ := h
  constructor
  · rw [h1, h2, h3]; exact s
  · rw [h1, h3]; exact l

theorem numbered_objs {β : Type} {R : β → GObj ℝ → Prop} (hR : ∀ c o n, R c o → R c { o with numHa := n }) {cs : List β} {os : List (GObj ℝ)}
    (h : List.Forall₂ R cs os) (n : ℤ) : List.Forall₂ R cs (numberObjs n os).2 := by
  induction h generalizing n with
  | nil => exact .nil
  | cons hr _ ih => exact .cons (hR _ _ _ hr) (ih _)

/-- **C105.** The troughs of every AE of a trough section are one for each centre that the section prescribes, in that order: the centres are the
points of `te_xyz` or, without it, points on levels `agg` apart, from the mean level of the AE's top down to `depth * buffer` above the highest
point of its bottom. The cells of a trough are those whose centres lie in the half ellipsoid below its centre with the diameters `length` and
`width` and the depth `depth`, all times the factor of the trend at the centre, turned by an angle of `paleoflow`; in periodic domains also
those in copies of it. The lag at its bottom is `lag_height` thick. -/
theorem C105_troughs (C : Convs) (p : Ini) (P : Parsed) (h : parseInifile C p = .ok P) (ids : List (String × ℕ)) (r : Randoms ℝ)
    (o : ℕ → ℕ → ObjRandoms) (hu : ∀ si n, UniformObjs (o si n)) (d : ℕ → StratumDraw ℝ) (m : GenModel ℝ) (cms' : Contacts ℝ)
    (hr : generateObjects P ids r o d = .ok (m, cms')) (si : ℕ) (s : StratumReal ℝ) (hs : m.strata[si]? = some s) (n : ℕ) (a : AEReal ℝ)
    (ha : s.aes[n]? = some a) (e : Element) (he : (a.name, e) ∈ P.elements) (hg : written e.dict "geometry" "trough") :
    ∃ bz cs, Highest m.heap.nx m.heap.ny (m.heap.get a.bottom).vals bz ∧ Centres P.model e.dict (o si n) (m.heap.get a.top).zmean bz cs ∧
      List.Forall₂ (TroughAt P.model e.dict m.heap.nx m.heap.ny) cs a.objs := by
  obtain ⟨g, shapes, hgr, hsh, hnx, hny, hall⟩ := ae_parts h hr
  obtain ⟨e', i, t, sp, gz, a0, dd, Q, he', hname, hre, hrun, hsame, hobjs, -⟩ := hall si s n a hs ha
  cases element_unique h he' he
  have hgeo := geometry_read hre hg
  obtain ⟨H, H', hok, hb, ht, -, -, hkeep, hmax, -, hgen⟩ := hrun.run
  have hgeo' : (t.cast : ElemParams ℝ).geometry = "trough" := hgeo
  unfold genAE at hgen
  dsimp only at hgen
  rw [if_pos (Or.inl hgeo')] at hgen
  simp only [bind_ok, pure_ok] at hgen
  obtain ⟨os, hos, heq⟩ := hgen
  have hos := liftObjs_ok.1 hos
  simp only [Prod.mk.injEq] at heq
  obtain ⟨-, heq⟩ := heq
  have hobjs0 : a0.objs = os := by rw [← heq]
  rw [hobjs] at hos
  unfold objectsOf at hos
  rw [show (t.cast : ElemParams ℝ).name = a.name from hname] at hos
  split at hos
  · rename_i q hq
    obtain ⟨e2, he2, hrs⟩ := shape_of hsh hq
    cases element_unique h he2 he
    rcases readShape_geometry hrs with ⟨q', hqq, hread, -⟩ | ⟨_, hqq, -⟩ | ⟨_, hqq, -⟩ <;> cases hqq
    rw [Option.some.injEq] at hos
    cases hts : placeTroughs q g (o si n) (H.get a0.bottom) (H.get a0.top) with
    | error x => rw [hts] at hos; cases hos
    | ok ts =>
      rw [hts] at hos
      have hos' : numbered (fun k => Trough.toObj g ((o si n).stray k)) 0 ts = os := Except.ok.inj hos
      obtain ⟨cs, h1, h2⟩ := troughs_at (readGrid_from hgr) (readTrough_from hread) (hu si n) hts
      refine ⟨(H.get a0.bottom).zmax, cs, ⟨fun i hi j hj => ?_, ?_⟩, ?_, ?_⟩
      · rw [hsame.bottom, hkeep.vals _ hb i (by rw [← hkeep.nx]; exact hi) j (by rw [← hkeep.ny]; exact hj)]
        exact ((hok _ hb) i (by rw [← hkeep.nx]; exact hi) j (by rw [← hkeep.ny]; exact hj)).2
      · obtain ⟨i, hi, j, hj, hij⟩ := hmax
        exact ⟨i, by rw [hkeep.nx]; exact hi, j, by rw [hkeep.ny]; exact hj, by rw [hsame.bottom, hkeep.vals _ hb i hi j hj, hij]⟩
      · rw [hsame.top, hkeep.zmean _ ht]
        exact h1
      · obtain ⟨k, hk⟩ := hsame.objs
        rw [hk, hobjs0, ← hos', hnx, hny]
        exact numbered_objs (fun c o n hR => TroughAt.congr hR rfl rfl rfl) h2 k
  · rename_i q hq
    obtain ⟨e2, he2, hrs⟩ := shape_of hsh hq
    cases element_unique h he2 he
    rcases readShape_geometry hrs with ⟨q', hqq, hread, -⟩ | ⟨_, hqq, -, hc⟩ | ⟨_, hqq, -⟩ <;> cases hqq
    exact absurd (written_eq hg hc) (by decide)
  · cases hos

theorem ChannelAt.congr {m d : Dict} {r : ObjRandoms} {nx ny l i n : ℕ} {top : ℝ} {o o' : GObj ℝ} (h : ChannelAt m d r nx ny l i n top o)
    (h1 : o'.zmin = o.zmin) (h2 : o'.zmax = o.zmax) (h3 : o'.answer = o.answer) : ChannelAt m d r nx ny l i n top o' := by
  obtain ⟨s, l⟩ := h
  constructor
  · rw [h1, h2, h3]; exact s
  · rw [h1, h3]; exact l

theorem Channels.numbered {m d : Dict} {r : ObjRandoms} {nx ny : ℕ} {tz bz : ℝ} {os : List (GObj ℝ)} (h : Channels m d r nx ny tz bz os) (k : ℤ) :
    Channels m d r nx ny tz bz (numberObjs k os).2 := by
  obtain ⟨tr, no, L, agg, depth, buffer, h1, h2, h3, h4, h5, h6, h7, h8⟩ := h
  refine ⟨tr, no, L, agg, depth, buffer, h1, h2, h3, h4, h5, h6, ?_, fun l hl i hi => ?_⟩
  · rw [← h7]
    have := numberObjs_get k os
    apply le_antisymm
    · by_contra hc
      have h9 := this os.length
      rw [List.getElem?_eq_none (l := os) le_rfl, List.getElem?_eq_getElem (by omega)] at h9
      cases h9
    · by_contra hc
      have h9 := this (numberObjs k os).2.length
      rw [List.getElem?_eq_none (l := (numberObjs k os).2) le_rfl, List.getElem?_eq_getElem (by omega)] at h9
      cases h9
  · obtain ⟨o, ho, hat⟩ := h8 l hl i hi
    exact ⟨{ o with numHa := k + ((l * no + i : ℕ) : ℤ) }, by rw [numberObjs_get, ho]; rfl, ChannelAt.congr hat rfl rfl rfl⟩

/-- **C106.** The channels of every AE of a channel section are `channel_no` on each level; the levels are `agg` apart, from `agg` below the mean level
of the AE's top down to `depth * buffer` above the mean level of its bottom. The cells of a channel are those whose centres lie below its top and
above the parabola over the nearest point of its centreline that is `width` wide at the top and `depth` deep, except cells that the test skips. The
centreline is a chain of points with steps `ds` and mean direction `flow_angle`, the directions following Ferguson's process with the options `h`, `k`,
`eps_factor`. The lag is `lag_height` thick. In particular generation has not ended if the section has a vertical trend or a negative number of channels. -/
theorem C106_channels (C : Convs) (p : Ini) (P : Parsed) (h : parseInifile C p = .ok P) (ids : List (String × ℕ)) (r : Randoms ℝ)
    (o : ℕ → ℕ → ObjRandoms) (d : ℕ → StratumDraw ℝ) (m : GenModel ℝ) (cms' : Contacts ℝ)
    (hr : generateObjects P ids r o d = .ok (m, cms')) (si : ℕ) (s : StratumReal ℝ) (hs : m.strata[si]? = some s) (n : ℕ) (a : AEReal ℝ)
    (ha : s.aes[n]? = some a) (e : Element) (he : (a.name, e) ∈ P.elements) (hg : written e.dict "geometry" "channel") :
    Channels P.model e.dict (o si n) m.heap.nx m.heap.ny (m.heap.get a.top).zmean (m.heap.get a.bottom).zmean a.objs := by
  obtain ⟨g, shapes, hgr, hsh, hnx, hny, hall⟩ := ae_parts h hr
  obtain ⟨e', i, t, sp, gz, a0, dd, Q, he', hname, hre, hrun, hsame, hobjs, -⟩ := hall si s n a hs ha
  cases element_unique h he' he
  have hgeo := geometry_read hre hg
  obtain ⟨H, H', hok, hb, ht, -, -, hkeep, hmax, -, hgen⟩ := hrun.run
  have hgeo' : (t.cast : ElemParams ℝ).geometry = "channel" := hgeo
  unfold genAE at hgen
  dsimp only at hgen
  rw [if_pos (Or.inr hgeo')] at hgen
  simp only [bind_ok, pure_ok] at hgen
  obtain ⟨os, hos, heq⟩ := hgen
  have hos := liftObjs_ok.1 hos
  simp only [Prod.mk.injEq] at heq
  obtain ⟨-, heq⟩ := heq
  have hobjs0 : a0.objs = os := by rw [← heq]
  rw [hobjs] at hos
  unfold objectsOf at hos
  rw [show (t.cast : ElemParams ℝ).name = a.name from hname] at hos
  split at hos
  · rename_i q hq
    obtain ⟨e2, he2, hrs⟩ := shape_of hsh hq
    cases element_unique h he2 he
    rcases readShape_geometry hrs with ⟨q', hqq, hread, hc⟩ | ⟨_, hqq, -⟩ | ⟨_, hqq, -⟩ <;> cases hqq
    exact absurd (written_eq hg hc) (by decide)
  · rename_i q hq
    obtain ⟨e2, he2, hrs⟩ := shape_of hsh hq
    cases element_unique h he2 he
    rcases readShape_geometry hrs with ⟨q', hqq, -⟩ | ⟨q', hqq, hread, -⟩ | ⟨_, hqq, -⟩ <;> cases hqq
    cases hts : placeChannels q g (o si n) dd.sheetFuel (H.get a0.bottom) (H.get a0.top) with
    | none => rw [hts] at hos; cases hos
    | some x =>
      rw [hts] at hos
      cases x with
      | error x => cases hos
      | ok ts =>
        have hos' : Hyvr.numbered (fun k => Channel.toObj g ((o si n).skip k) ((o si n).stray k)) 0 ts = os := Except.ok.inj (Option.some.inj hos)
        have h1 := channels_at (readGrid_from hgr) (readChannel_from hread) hts
        obtain ⟨k, hk⟩ := hsame.objs
        rw [hsame.top, hkeep.zmean _ ht, hsame.bottom, hkeep.zmean _ hb, hk, hobjs0, ← hos', hnx, hny]
        exact Channels.numbered h1 k
  · cases hos

theorem sheet_factor {m : Dict} {name : String} {i : ℕ} {e : Element} {t : ElemParams ℚ} (h : readElement name i e = .ok t) {g : Grid}
    (hg : GridFrom m g) {gz : GridZ ℝ} (h0 : gz.z0 = g.z0) (h1 : gz.lz = g.lz) (z : ℝ) :
    SheetFactor m e.dict z (match (t.cast : ElemParams ℝ).sizeZtrend with
      | some (f0, f1) => interp2 z gz.z0 gz.zmax f0 f1
      | none => 1) := by
  simp only [readElement, bind_ok, pure_ok, dget_ok] at h
  obtain ⟨gv, -, g', -, _, -, _, -, _, -, _, -, _, -, _, -, _, -, tv, htv, tr, htr, rfl⟩ := h
  simp only [ElemParams.cast]
  obtain ⟨z0, lz, e1, e2, e3, e4⟩ := hg.z
  cases tr with
  | none => exact .constant (by rw [htv, (trendOf_none htr).2 rfl]) rfl
  | some f =>
    refine .linear f.1 f.2 z0 lz (by rw [htv, trendOf_some htr]) e1 e2 fun hlz => ?_
    have hlz' : (0 : ℝ) < lz := by exact_mod_cast hlz
    simp only [Option.map_some, interp2, GridZ.zmax, h0, h1, e3, e4]
    split_ifs with c1 c2
    · rw [max_eq_left ((min_le_right _ _).trans (div_nonpos_of_nonpos_of_nonneg (by linarith) hlz'.le)), mul_zero, add_zero]
    · rw [min_eq_left ((one_le_div hlz').2 (by linarith)), max_eq_right zero_le_one]
      ring
    · push Not at c1 c2
      rw [min_eq_right ((div_le_one hlz').2 (by linarith)), max_eq_right (div_nonneg (by linarith) hlz'.le)]
      rw [add_sub_cancel_left]
      ring

theorem sheet_single {g : GridZ ℝ} {sp : StratumParams ℝ} {t : ElemParams ℝ} {d : AEDraw ℝ} {h h' : Heap ℝ} {bottom top : ℕ} {a : AEReal ℝ}
    (hgeo : t.geometry = "sheet") (hl : t.lensThickness = -1) (hr : genAE g sp t d h bottom top = .ok (h', a)) :
    ∃ o, a.objs = [o] ∧ ∀ i j z, o.answer i j z ≠ none ↔ (h.get bottom).vals i j ≤ z ∧ z ≤ (h.get top).vals i j := by
  unfold genAE sheetThickness at hr
  dsimp only at hr
  rw [if_neg (by rw [hgeo]; decide), if_pos hgeo, if_pos hl, sub_sub_cancel] at hr
  cases hN : d.sheetFuel with
  | zero =>
    rw [hN] at hr
    cases hr
  | succ N =>
    rw [hN] at hr
    simp only [sheetLoop, gt_iff_lt, lt_self_iff_false, if_false, bind_ok, pure_ok, Except.ok.injEq] at hr
    obtain ⟨⟨h1, e1, ss⟩, heq, os, hos, heq2⟩ := hr
    simp only [Prod.mk.injEq] at heq heq2
    obtain ⟨rfl, rfl, rfl⟩ := heq
    obtain ⟨rfl, rfl⟩ := heq2
    have hos := liftErr_ok.1 hos
    simp only [sheetObjs, bind_ok, pure_ok] at hos
    obtain ⟨p, -, _, hw, rfl⟩ := hos
    cases hw
    refine ⟨_, rfl, fun i j z => ?_⟩
    unfold SheetRaw.toObj SheetRaw.new
    dsimp only
    split_ifs with hc
    · simp only [ne_eq, not_true_eq_false, false_iff]
      rintro ⟨h1, h2⟩
      rcases hc with hc | hc
      · exact absurd h1 (not_le.2 hc)
      · exact absurd h2 (not_le.2 hc)
    · rw [not_or] at hc
      exact ⟨fun _ => ⟨not_lt.1 hc.1, not_lt.1 hc.2⟩, fun _ => by simp⟩

/-- **C107.** The sheets of every AE of a sheet section: with a `lens_thickness` of -1 a single sheet from the AE's bottom to its top; otherwise the AE is
cut by horizontal planes, `lens_thickness` times the factor of the trend at the middle of the AE apart, counted from an elevation `zhi` down to an
elevation `zlo`. No point of the AE's top is above `zhi` and none of its bottom below `zlo`. `zhi` is the highest point of the top, except for the first
AE below an empty stratum. -/
theorem C107_sheets (C : Convs) (p : Ini) (P : Parsed) (h : parseInifile C p = .ok P) (ids : List (String × ℕ)) (r : Randoms ℝ)
    (o : ℕ → ℕ → ObjRandoms) (d : ℕ → StratumDraw ℝ) (m : GenModel ℝ) (cms' : Contacts ℝ)
    (hr : generateObjects P ids r o d = .ok (m, cms')) (si : ℕ) (s : StratumReal ℝ) (hs : m.strata[si]? = some s) (n : ℕ) (a : AEReal ℝ)
    (ha : s.aes[n]? = some a) (e : Element) (he : (a.name, e) ∈ P.elements) (hg : written e.dict "geometry" "sheet") :
    ∃ zlo zhi, Sheets P.model e.dict m.heap.nx m.heap.ny zlo zhi (m.heap.get a.top).vals (m.heap.get a.bottom).vals a.objs ∧
      (∀ i < m.heap.nx, ∀ j < m.heap.ny, zlo ≤ (m.heap.get a.bottom).vals i j ∧ (m.heap.get a.bottom).vals i j ≤ (m.heap.get a.top).vals i j ∧
        (m.heap.get a.top).vals i j ≤ zhi) ∧
      ((0 < n ∨ si = 0 ∨ ∃ s', m.strata[si - 1]? = some s' ∧ s'.aes ≠ []) → Highest m.heap.nx m.heap.ny (m.heap.get a.top).vals zhi) := by
  obtain ⟨g, shapes, hgr, hsh, hnx, hny, hall⟩ := ae_parts h hr
  obtain ⟨e', i, t, sp, gz, a0, dd, Q, he', hname, hre, hrun, hsame, -, -, hz0, hlz, hQ⟩ := hall si s n a hs ha
  cases element_unique h he' he
  have hgeo := geometry_read hre hg
  obtain ⟨H, H', hok, hb, ht, hne, hbt, hkeep, hmax, htight, hgen⟩ := hrun.run
  have hgeo' : (t.cast : ElemParams ℝ).geometry = "sheet" := hgeo
  have hlens : e.dict "lens_thickness" = some (numVal t.lensThickness) := by
    have hre' := hre
    simp only [readElement, bind_ok, pure_ok, dget_ok] at hre'
    obtain ⟨gv, hgv, g', hg', _, -, _, -, _, -, _, -, _, -, _, -, lt, hlt, _, -, _, -, hteq⟩ := hre'
    unfold written at hg
    rw [hg] at hgv
    cases hgv
    cases hg'
    unfold lensOf at hlt
    rw [if_pos rfl] at hlt
    simp only [bind_ok, dget_ok] at hlt
    obtain ⟨v, hv, hq⟩ := hlt
    rw [hv, numOf_ok hq, ← hteq]
  obtain ⟨k0, hk0⟩ := hsame.objs
  have hlen : a.objs.length = a0.objs.length := by
    rw [hk0]
    have := numberObjs_get k0 a0.objs
    apply le_antisymm
    · by_contra hc
      have h9 := this a0.objs.length
      rw [List.getElem?_eq_none (l := a0.objs) le_rfl, List.getElem?_eq_getElem (by omega)] at h9
      cases h9
    · by_contra hc
      have h9 := this (numberObjs k0 a0.objs).2.length
      rw [List.getElem?_eq_none (l := (numberObjs k0 a0.objs).2) le_rfl, List.getElem?_eq_getElem (by omega)] at h9
      cases h9
  have hget : ∀ (k : ℕ) o, a.objs[k]? = some o → ∃ o', a0.objs[k]? = some o' ∧ o.answer = o'.answer := by
    intro k o ho
    rw [hk0, numberObjs_get, Option.map_eq_some_iff] at ho
    obtain ⟨o', ho', rfl⟩ := ho
    exact ⟨o', ho', rfl⟩
  have hT : ∀ i < m.heap.nx, ∀ j < m.heap.ny, (m.heap.get a.top).vals i j = (H.get a0.top).vals i j := fun i hi j hj => by
    rw [hsame.top]; exact hkeep.vals _ ht i (by rw [← hkeep.nx]; exact hi) j (by rw [← hkeep.ny]; exact hj)
  have hB : ∀ i < m.heap.nx, ∀ j < m.heap.ny, (m.heap.get a.bottom).vals i j = (H.get a0.bottom).vals i j := fun i hi j hj => by
    rw [hsame.bottom]; exact hkeep.vals _ hb i (by rw [← hkeep.nx]; exact hi) j (by rw [← hkeep.ny]; exact hj)
  have hbounds : ∀ i < m.heap.nx, ∀ j < m.heap.ny, (H.get a0.bottom).zmin ≤ (m.heap.get a.bottom).vals i j ∧
      (m.heap.get a.bottom).vals i j ≤ (m.heap.get a.top).vals i j ∧ (m.heap.get a.top).vals i j ≤ (H.get a0.top).zmax := by
    intro i hi j hj
    have hi' : i < H.nx := by rw [← hkeep.nx]; exact hi
    have hj' : j < H.ny := by rw [← hkeep.ny]; exact hj
    rw [hT i hi j hj, hB i hi j hj]
    exact ⟨(hok _ hb i hi' j hj').1, hbt i hi' j hj', (hok _ ht i hi' j hj').2⟩
  refine ⟨(H.get a0.bottom).zmin, (H.get a0.top).zmax, ⟨t.lensThickness, hlens, fun hl => ?_, fun hl => ?_⟩, hbounds,
    fun hc => ⟨fun i hi j hj => (hbounds i hi j hj).2.2, ?_⟩⟩
  · obtain ⟨o1, h1, h2⟩ := sheet_single hgeo' (by show (t.lensThickness : ℝ) = -1; rw [hl]; norm_num) hgen
    rw [h1] at hlen
    obtain ⟨o2, ho2⟩ := List.length_eq_one_iff.1 hlen
    refine ⟨o2, ho2, fun i hi j hj z => ?_⟩
    obtain ⟨o3, h3, h4⟩ := hget 0 o2 (by rw [ho2]; rfl)
    rw [h1] at h3
    cases h3
    rw [h4, hT i hi j hj, hB i hi j hj]
    exact h2 i j z
  · refine ⟨_, sheet_factor hre (readGrid_from hgr) hz0 hlz _, fun hpos => ?_⟩
    have hth : (t.lensThickness : ℝ) * (match (t.cast : ElemParams ℝ).sizeZtrend with
        | some (f0, f1) => interp2 (((H.get a0.bottom).zmin + (H.get a0.top).zmax) / 2) gz.z0 gz.zmax f0 f1
        | none => 1) = sheetThickness gz t.cast ⟨(H.get a0.bottom).zmin, (H.get a0.top).zmax⟩ := by
      unfold sheetThickness
      rw [if_neg (show (t.cast : ElemParams ℝ).lensThickness ≠ -1 by
        show (t.lensThickness : ℝ) ≠ -1
        intro hc
        exact hl (by exact_mod_cast hc))]
      split
      · rename_i hs; rw [hs]; rfl
      · rename_i hs; rw [hs, mul_one]; rfl
    obtain ⟨b1, b2⟩ := C32_boundaries hok hb ht hne hbt hgeo' hth hpos hgen
    rw [hlen]
    refine ⟨b1, fun i hi j hj k o1 ho1 z => ?_⟩
    obtain ⟨o2, h3, h4⟩ := hget k o1 ho1
    rw [h4, hT i hi j hj, hB i hi j hj]
    exact b2 i (by rw [← hkeep.nx]; exact hi) j (by rw [← hkeep.ny]; exact hj) k o2 h3 z
  · obtain ⟨i, hi, j, hj, -⟩ := hmax
    obtain ⟨i, hi, j, hj, hij⟩ := htight (hQ hc (by rw [hkeep.nx]; exact Nat.zero_lt_of_lt hi) (by rw [hkeep.ny]; exact Nat.zero_lt_of_lt hj))
    have hi' : i < m.heap.nx := by rw [hkeep.nx]; exact hi
    have hj' : j < m.heap.ny := by rw [hkeep.ny]; exact hj
    exact ⟨i, hi', j, hj', by rw [hT i hi' j hj', hij]⟩

/-! ### Examples -/

theorem model_top {nx ny : ℕ} {g : GridZ ℝ} {sd : StrataDict ℝ} {cms cms' : Contacts ℝ}
    {draws : ℕ → StratumDraw ℝ} {m : GenModel ℝ} (hr : generateModel nx ny g sd cms draws = .ok (m, cms')) (s : StratumReal ℝ)
    (hs : m.strata[0]? = some s) : (m.heap.get s.top).zmean = g.lz := by
  obtain ⟨-, -, -, -, -, bot, -, hfrom, -⟩ := generateModel_spec hr
  have htop : s.top = 0 := by
    cases hm : m.strata with
    | nil => rw [hm] at hs; cases hs
    | cons s0 rest =>
      rw [hm] at hs hfrom
      cases hs
      exact hfrom.1
  rw [htop]
  unfold generateModel at hr
  simp only [bind_ok, liftErr_ok, pure_ok] at hr
  obtain ⟨⟨h1, top⟩, hc, ⟨h2, cms2, ss⟩, hl, heq⟩ := hr
  simp only [Prod.mk.injEq] at heq
  obtain ⟨rfl, rfl⟩ := heq
  obtain ⟨s0, hs0, rfl, he⟩ := create_ok hc
  have ok0 : HeapOK ({ nx, ny, next := 0, get := fun _ => { vals := fun _ _ => 0, zmean := 0, zmin := 0, zmax := 0 } } : Heap ℝ) :=
    fun r hr => absurd hr (Nat.not_lt_zero r)
  have hn1 : h1.next = 1 := by rw [he]
  obtain ⟨-, k2, -⟩ := strataGenLoop_spec (heapOK_create ok0 hc) (show (0 : ℕ) < h1.next by omega) hl
  show (h2.get 0).zmean = g.lz
  rw [k2.zmean 0 (by omega), he]
  simp only [Surface.init, ContactModel.flat, String.reduceEq, if_false, if_true, Except.ok.injEq] at hs0
  subst hs0
  simp

/-- The example's random numbers with another one for the first AE of each stratum. -/
noncomputable def riverReals (u : ℝ) : Randoms ℝ := { exReals with first := fun _ => u }

/-- The example's draws with flat contact surfaces. -/
noncomputable def riverDraws : ℕ → StratumDraw ℝ := fun si => { exRealDraws si with field := fun _ _ => 0 }

/-- Check of the sections and of the levels of the example. -/
def riverLevelsB (P : Parsed) : Bool :=
  P.elements.all (fun e => writtenB e.2.dict "geometry" (if e.1 = "sheets" then "sheet" else if e.1 = "scour" then "trough" else "channel")) &&
  (decide (P.model "z0" = some (numVal 0)) && (decide (P.model "lz" = some (numVal 10)) && match P.contacts with
    | [c] => decide (c.z = some (.num 4))
    | _ => false))

theorem exRiver_levels : ∃ st, settings exConvs exRiver ["m"] "a.ini".toList [] = .ok st ∧ riverLevelsB st.parsed = true := ok_check (by decide +kernel)

theorem chosen_two {c : ℚ} (hc : 0 < c) {u : ℝ} {j : ℕ} {n n' : String} {a : String} (h : Chosen [1, c] u j)
    (hn : [Tree.leaf (Atom.text n.toList), .leaf (.text n'.toList)][j]? = some (.leaf (.text a.toList))) :
    (u < 1 / (1 + c) → a = n) ∧ (1 / (1 + c) ≤ u → a = n') := by
  have hc' : (0 : ℝ) < c := by exact_mod_cast hc
  obtain ⟨h1, h2⟩ := h
  rcases j with _ | _ | j
  · simp only [shareBelow, List.take_succ_cons, List.take_zero, List.sum_cons, List.sum_nil, add_zero] at h1 h2
    push_cast at h2
    simp only [List.getElem?_cons_zero, Option.some.injEq, Tree.leaf.injEq, Atom.text.injEq] at hn
    exact ⟨fun _ => (String.toList_injective hn).symm, fun h => absurd h2 (not_lt.2 h)⟩
  · simp only [shareBelow, List.take_succ_cons, List.take_zero, List.sum_cons, List.sum_nil, add_zero] at h1 h2
    push_cast at h1
    simp only [List.getElem?_cons_zero, List.getElem?_cons_succ, Option.some.injEq, Tree.leaf.injEq, Atom.text.injEq] at hn
    exact ⟨fun h => absurd h (not_lt.2 h1), fun _ => (String.toList_injective hn).symm⟩
  · simp at hn

/-- The first AE of both strata in a run of the example. -/
theorem river_first (u : ℝ) (h0 : 0 ≤ u) (h1 : u < 1) : ∃ (P : Parsed) (ids : List (String × ℕ)) (N : ℕ) (m : GenModel ℝ) (cms' : Contacts ℝ)
    (s t : StratumReal ℝ) (a b : AEReal ℝ) (e f : Element), parseInifile exConvs exRiver = .ok P ∧
    generateObjects P ids (riverReals u) (fun _ _ => exObjReals) (fun si => withFuel N (riverDraws si)) = .ok (m, cms') ∧
    m.strata[0]? = some s ∧ s.aes[0]? = some a ∧ m.strata[1]? = some t ∧ t.aes[0]? = some b ∧ (a.name, e) ∈ P.elements ∧ (b.name, f) ∈ P.elements ∧
    (u < 1 / 4 → written e.dict "geometry" "sheet" ∧ written f.dict "geometry" "sheet") ∧
    (1 / 3 ≤ u → written e.dict "geometry" "trough" ∧ written f.dict "geometry" "channel") := by
  obtain ⟨st, hst, hr⟩ := exRiver_parsed
  obtain ⟨st', hst', hl⟩ := exRiver_levels
  rw [hst] at hst'
  cases hst'
  obtain ⟨h2, h3⟩ := river_thick hr
  have hunit : Uniforms (riverReals u) := ⟨fun _ => ⟨h0, h1⟩, exReals_unit.next, exReals_unit.avulU, exReals_unit.avulV⟩
  obtain ⟨N, m, cms', hlen, h⟩ := C104_finishes exConvs exConvs_number exConvs_whole exRiver (by decide +kernel) _ _ _ st hst (river_filled hr)
    (river_placeable hr) _ h2 _ _ (by norm_num) h3 (riverReals u) hunit (by intro si n; simp only [riverReals, exReals]; norm_num)
    (fun _ _ => exObjReals) (fun _ _ => exObjReals_unit) riverDraws
  have hrun := h N le_rfl
  obtain ⟨p1, p2, -⟩ := settings_facts (by decide +kernel) hst
  obtain ⟨g, shapes, hgr, hsh, hgen⟩ := generateObjects_ok hrun
  obtain ⟨names, hnames, -, hel⟩ := C100_elements _ _ _ p1 _ p2 _ hunit _ _ _ hgen
  obtain ⟨names', _, _, _, _, z0, hnames', -, -, -, -, -, -, hz0, hlev⟩ := C101_ini _ _ _ p1 _ _ _ _ _ hgen
  rw [h2] at hnames hnames'
  cases hnames
  cases hnames'
  simp only [riverLevelsB, Bool.and_eq_true] at hl
  obtain ⟨hgeo, l1, l2, l3⟩ := hl
  cases numVal_some_inj (of_decide_eq_true l1) hz0
  obtain ⟨s, t, hst2⟩ := length_two (l := m.strata) hlen
  have hs : m.strata[0]? = some s := by rw [hst2]; rfl
  have ht : m.strata[1]? = some t := by rw [hst2]; rfl
  have hmid : (m.heap.get s.bottom).zmean = 4 := by
    obtain ⟨⟨mode, z, q1, -, -, q2⟩, -⟩ := hlev 0 s hs
    obtain ⟨c, hc, -, hz⟩ := q2 (by decide)
    split at l3
    · rename_i c' hc'
      rw [hc'] at hc
      cases hc
      have := of_decide_eq_true l3
      rw [this] at hz
      cases hz
      rw [q1]
      simp [meanLevel, withFuel, withObjects, riverDraws]
    · cases l3
  have hlow : (m.heap.get t.bottom).zmean = 0 := by
    obtain ⟨⟨mode, z, q1, -, q2, -⟩, -⟩ := hlev 1 t ht
    obtain ⟨rfl, rfl⟩ := q2 rfl
    rw [q1]
    simp [meanLevel]
  have hnext : t.top = s.bottom := by
    obtain ⟨I, _, -, -, -, hg, -, -⟩ := stratum_parts p1 hgen
    exact (C05_strata hg).2.2.1 0 s t hs ht
  have hhigh : (m.heap.get s.top).zmean = 10 := by
    obtain ⟨I, _, -, -, hin, hg, -, -⟩ := stratum_parts p1 hgen
    rw [model_top hg s hs]
    show ((I.grid.lz : ℚ) : ℝ) = 10
    rw [← numVal_some_inj (of_decide_eq_true l2) hin.lz]
    norm_num
  have hne : ∀ (si : ℕ) (S : StratumReal ℝ), m.strata[si]? = some S → (m.heap.get S.bottom).zmean < (m.heap.get S.top).zmean → ∃ a, S.aes[0]? = some a := by
    intro si S hS hlt
    obtain ⟨-, _, _, _, _, thick, -, -, -, -, hend, -⟩ := hlev si S hS
    cases hA : S.aes with
    | nil =>
      rw [hA] at hend
      exact absurd hlt (not_lt.2 hend)
    | cons a _ => exact ⟨a, rfl⟩
  obtain ⟨a, ha⟩ := hne 0 s hs (by rw [hmid, hhigh]; norm_num)
  obtain ⟨b, hb⟩ := hne 1 t ht (by rw [hnext, hmid, hlow]; norm_num)
  simp only [riverB, Bool.and_eq_true] at hr
  obtain ⟨-, r1, r2, -⟩ := hr
  have r1 := of_decide_eq_true r1
  have r2 := of_decide_eq_true r2
  have hgeo' := List.all_eq_true.1 hgeo
  obtain ⟨_, _, _, lv, listed, -, -, -, ⟨l4, w1, -, w2⟩, hit, hk⟩ := hel 0 s hs
  rw [r1] at w1
  cases w1
  cases w2
  obtain ⟨w, j, _, e, ⟨l5, w3, -, w4⟩, hch, -, -, hname, he⟩ := hk 0 a ha
  rw [r2] at w3
  cases w3
  have w4 := numList_inj (Option.some.inj w4)
  obtain ⟨_, _, _, lv', listed', -, -, -, ⟨l6, w5, -, w6⟩, hit', hk'⟩ := hel 1 t ht
  rw [r1] at w5
  cases w5
  cases w6
  obtain ⟨w', j', _, f, ⟨l7, w7, -, w8⟩, hch', -, -, hname', hf⟩ := hk' 0 b hb
  rw [r2] at w7
  cases w7
  have w8 := numList_inj (Option.some.inj w8)
  subst w4 w8
  rcases hit with hit | ⟨_, hit, -⟩ <;> cases hit
  rcases hit' with hit' | ⟨_, hit', -⟩ <;> cases hit'
  refine ⟨st.parsed, st.ids, N, m, cms', s, t, a, b, e, f, p1, hrun, hs, ha, ht, hb, he.mem, hf.mem, fun hu => ?_, fun hu => ?_⟩
  · have n1 : a.name = "sheets" := (chosen_two (by norm_num) hch hname).1 (by show u < _; push_cast; linarith)
    have n2 : b.name = "sheets" := (chosen_two (by norm_num) hch' hname').1 (by show u < _; push_cast; linarith)
    have g1 := of_decide_eq_true (hgeo' _ he.mem)
    have g2 := of_decide_eq_true (hgeo' _ hf.mem)
    simp only [n1, n2, if_true] at g1 g2
    exact ⟨g1, g2⟩
  · have n1 : a.name = "scour" := (chosen_two (by norm_num) hch hname).2 (by show _ ≤ u; push_cast; linarith)
    have n2 : b.name = "river" := (chosen_two (by norm_num) hch' hname').2 (by show _ ≤ u; push_cast; linarith)
    have g1 := of_decide_eq_true (hgeo' _ he.mem)
    have g2 := of_decide_eq_true (hgeo' _ hf.mem)
    simp only [n1, n2, String.reduceEq, if_false, if_true] at g1 g2
    exact ⟨g1, g2⟩

/-- C105 and C106 apply to runs of the example: the first AE of the upper stratum is a trough AE, that of the lower one a channel AE. -/
example : ∃ (P : Parsed) (m : GenModel ℝ) (s t : StratumReal ℝ) (a b : AEReal ℝ) (e f : Element) (bz : ℝ) (cs : List (ℝ × ℝ × ℝ)),
    m.strata[0]? = some s ∧ s.aes[0]? = some a ∧ m.strata[1]? = some t ∧ t.aes[0]? = some b ∧
    Centres P.model e.dict exObjReals (m.heap.get a.top).zmean bz cs ∧ List.Forall₂ (TroughAt P.model e.dict m.heap.nx m.heap.ny) cs a.objs ∧
    Channels P.model f.dict exObjReals m.heap.nx m.heap.ny (m.heap.get b.top).zmean (m.heap.get b.bottom).zmean b.objs := by
  obtain ⟨P, ids, N, m, cms', s, t, a, b, e, f, h1, h2, h3, h4, h5, h6, h7, h8, -, h9⟩ := river_first (1 / 2) (by norm_num) (by norm_num)
  obtain ⟨g1, g2⟩ := h9 (by norm_num)
  obtain ⟨bz, cs, -, c1, c2⟩ := C105_troughs _ _ _ h1 _ _ _ (fun _ _ => exObjReals_unit) _ _ _ h2 0 s h3 0 a h4 e h7 g1
  exact ⟨P, m, s, t, a, b, e, f, bz, cs, h3, h4, h5, h6, c1, c2, C106_channels _ _ _ h1 _ _ _ _ _ _ h2 1 t h5 0 b h6 f h8 g2⟩

/-- C107 applies to a run of the example; the planes are counted from the highest point of the top in the upper and in the lower stratum. -/
example : ∃ (P : Parsed) (m : GenModel ℝ) (s t : StratumReal ℝ) (a b : AEReal ℝ) (e f : Element) (zlo zhi : ℝ) (zlo' zhi' : ℝ),
    m.strata[0]? = some s ∧ s.aes[0]? = some a ∧ m.strata[1]? = some t ∧ t.aes[0]? = some b ∧
    Sheets P.model e.dict m.heap.nx m.heap.ny zlo zhi (m.heap.get a.top).vals (m.heap.get a.bottom).vals a.objs ∧
    Highest m.heap.nx m.heap.ny (m.heap.get a.top).vals zhi ∧
    Sheets P.model f.dict m.heap.nx m.heap.ny zlo' zhi' (m.heap.get b.top).vals (m.heap.get b.bottom).vals b.objs ∧
    Highest m.heap.nx m.heap.ny (m.heap.get b.top).vals zhi' := by
  obtain ⟨P, ids, N, m, cms', s, t, a, b, e, f, h1, h2, h3, h4, h5, h6, h7, h8, h9, -⟩ := river_first 0 le_rfl (by norm_num)
  obtain ⟨g1, g2⟩ := h9 (by norm_num)
  obtain ⟨zlo, zhi, c1, -, c2⟩ := C107_sheets _ _ _ h1 _ _ _ _ _ _ h2 0 s h3 0 a h4 e h7 g1
  obtain ⟨zlo', zhi', c3, -, c4⟩ := C107_sheets _ _ _ h1 _ _ _ _ _ _ h2 1 t h5 0 b h6 f h8 g2
  exact ⟨P, m, s, t, a, b, e, f, zlo, zhi, zlo', zhi', h3, h4, h5, h6, c1, c2 (Or.inr (Or.inl rfl)), c3,
    c4 (Or.inr (Or.inr ⟨s, h3, fun hn => by rw [hn] at h4; cases h4⟩))⟩

end Hyvr
