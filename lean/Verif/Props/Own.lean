import Verif.Spec.Own
import Verif.Props.Site
import Verif.Props.Density
import Mathlib.Probability.Independence.InfinitePi

/-!
C137: objects get their values from the numbers drawn for them.
-/

namespace Hyvr

open Py Spec MeasureTheory ProbabilityTheory

theorem wholesOf_list {v : Val} {fs : List ℤ} (h : wholesOf v = .ok fs) {k : ℕ} {f : ℤ} (hf : fs[k]? = some f) :
    ∃ l, v = .node l ∧ l.length = fs.length ∧ l[k]? = some (numVal f) := by
  simp only [wholesOf, bind_ok] at h
  obtain ⟨l, hl, hm⟩ := h
  have hlen := mapPy_len hm
  obtain ⟨hk, hkf⟩ := List.getElem?_eq_some_iff.1 hf
  have hk' : k < l.length := by omega
  have hwf : wholeOf l[k] = .ok f := by
    have := (List.forall₂_iff_get.1 (mapPy_ok.1 hm)).2 k hk' hk
    rw [← hkf]
    simpa using this
  have hw : l[k]? = some l[k] := List.getElem?_eq_getElem hk'
  have := wholeOf_ok hwf
  rcases items_ok hl with rfl | ⟨s, rfl, rfl⟩
  · exact ⟨l, rfl, hlen.symm, by rw [← this]; exact hw⟩
  · obtain ⟨c, -, hc⟩ := List.mem_map.1 (List.mem_of_getElem? hw)
    rw [← hc] at this
    cases this

theorem picked {d : Dict} {i : InsideRead} (h : readInside d = .ok i) {c : ℕ} {f : ℤ} (hc : choice i.facies c = .ok f) : PickedFacies d c f := by
  simp only [readInside, bind_ok, pure_ok, dget_ok] at h
  obtain ⟨sv, hsv, s, hs, fv, hfv, fs, hfs, av, hav, alt, halt, zv, hzv, az, haz, pv, hpv, dp, hdp, dv, hdv, ds, hds, rfl⟩ := h
  unfold choice at hc
  split at hc
  · rename_i b hb
    cases hc
    obtain ⟨l, rfl, h1, h2⟩ := wholesOf_list hfs hb
    exact ⟨l, hfv, by rw [h1]; exact h2⟩
  · cases hc

theorem readTrough_inside {d : Dict} {p : TroughRead} (h : readTrough d = .ok p) : readInside d = .ok p.inside := by
  simp only [readTrough, bind_ok, pure_ok] at h
  obtain ⟨i, h1, e, h2, bv, h3, bd, h4, lv, h5, le, h6, dv, h7, de, h8, pv, h9, pf, h10, mv, h11, mi, h12, tv, h13, te, h14, rfl⟩ := h
  exact h1

theorem readChannel_inside {d : Dict} {p : ChannelRead} (h : readChannel d = .ok p) : readInside d = .ok p.inside := by
  simp only [readChannel, bind_ok, pure_ok] at h
  obtain ⟨i, h1, e, h2, nv, h3, n, h4, hv, h5, hh, h6, kv, h7, k, h8, sv, h9, ds, h10, ev, h11, ep, h12, fv, h13, fl, h14, mv, h15, mi, h16, rfl⟩ := h
  exact h1

/-- Sections without internal layers. -/
theorem plain_struct {d : Dict} {i : InsideRead} (hi : InsideFrom d i) (hp : StructureIn d ["massive", "flat"]) : i.struct = "massive" ∨ i.struct = "flat" := by
  obtain ⟨s, hs, hw⟩ := hp
  rcases hi.struct with ⟨-, h⟩ | h
  · exact Or.inl h
  · have : i.struct = s := written_eq h hw
    simp only [List.mem_cons, List.not_mem_nil, or_false] at hs
    rw [this]
    exact hs

theorem partWay {d : Dict} {k : String} {q : ℚ × ℚ} (h : d k = some (numList [q.1, q.2])) (u : ℝ) : PartWay d k u (uniform q.1 q.2 u) :=
  ⟨q.1, q.2, h, rfl⟩

/-- A trough without internal layers. -/
theorem trough_own {d : Dict} {p : TroughRead} (hr : readTrough d = .ok p) (hg : written d "geometry" "trough") (hpl : StructureIn d ["massive", "flat"])
    {r : ObjRandoms} {n : ℕ} {x y z a b c : ℝ} {t : Trough} (ht : Trough.new p.params (r.trough p n) x y z a b c (r.trough p n).alpha = .ok t) :
    ∃ f az dp, OwnValues d r n f az dp ∧ ∀ (g : Grid) x' y' z', t.test g x' y' z' = .miss ∨ t.test g x' y' z' = .hit f az dp ∨
      (InLag d t.zmin z' ∧ t.test g x' y' z' = .hit p.params.lagFacies 0 0) := by
  have hp := readTrough_from hr
  have hm := Trough.new_made ht
  have hB := hm.base
  have hs : p.params.struct = "massive" := by
    rcases plain_struct hp.inside hpl with h | h
    · exact h
    · exfalso
      have := Trough.new_kind ht
      rw [show p.params.struct = "flat" from h] at this
      unfold structureNumber at this
      simp at this
  have h0 : structureNumber p.params.struct (r.trough p n).kind = .ok 0 := by rw [hs]; rfl
  unfold Trough.new at ht
  rw [h0] at ht
  simp only [bind_ok] at ht
  obtain ⟨k, hk, ht⟩ := ht
  cases hk
  rw [if_pos rfl] at ht
  simp only [bind_ok, pure_ok] at ht
  obtain ⟨f, hf, rfl⟩ := ht
  refine ⟨f, _, _, .trough hg (picked (readTrough_inside hr) hf) (partWay hp.inside.azimuth _) (partWay hp.paleoflow _) (partWay hp.inside.dip _), fun g x' y' z' => ?_⟩
  unfold Trough.test
  dsimp only
  split_ifs with h1 h2 h3
  · exact Or.inl rfl
  · exact Or.inl rfl
  · exact Or.inr (Or.inr ⟨⟨Or.inl hg, _, hp.erosive.lagHeight, h3⟩, rfl⟩)
  · exact Or.inr (Or.inl rfl)

/-- A channel without internal layers. -/
theorem channel_own {d : Dict} {p : ChannelRead} (hr : readChannel d = .ok p) (hg : written d "geometry" "channel") (hpl : StructureIn d ["massive", "flat"])
    {r : ObjRandoms} {n : ℕ} {g : Grid} {pts : List CPoint} {ztop w dep : ℝ} {c : Channel}
    (hc : Channel.new p.params (r.channel p n) g pts ztop w dep = .ok c) :
    ∃ f dp, OwnValues d r n f 0 dp ∧ ∀ (g : Grid) k x y z xi yi, (c.test g k x y z xi yi).1 = .miss ∨ (c.test g k x y z xi yi).1 = .hit f 0 dp ∨
      (InLag d c.zmin z ∧ (c.test g k x y z xi yi).1 = .hit p.params.lagFacies 0 0) := by
  have hp := readChannel_from hr
  have hs : ¬ p.params.struct = "dip" := by
    show ¬ p.inside.struct = "dip"
    rcases plain_struct hp.inside hpl with h | h <;> rw [h] <;> decide
  unfold Channel.new at hc
  split_ifs at hc with hw
  simp only [bind_ok, pure_ok] at hc
  obtain ⟨f, hf, heq⟩ := hc
  have e1 : c.dipsets = false := by rw [← heq]
  have e2 : c.azim = 0 := by rw [← heq]
  have e3 : c.ztop - c.depth = c.zmin := by rw [← heq]
  have e4 : c.lagHeight = p.params.lagHeight := by rw [← heq]
  have e5 : c.lagFacies = p.params.lagFacies := by rw [← heq]
  have e6 : c.facies = f := by rw [← heq]
  have e7 : c.dip = uniform p.inside.dip.1 p.inside.dip.2 (r.dip n) := by rw [← heq]; rfl
  refine ⟨f, _, .channel hg (picked (readChannel_inside hr) hf) (partWay hp.inside.dip _), fun g k x y z xi yi => ?_⟩
  have key : (c.test g k x y z xi yi).1 = .miss ∨ (c.test g k x y z xi yi).1 = c.inner x y z := by
    unfold Channel.test
    dsimp only
    split_ifs
    all_goals first
      | exact Or.inr rfl
      | exact Or.inl rfl
  rcases key with key | key
  · exact Or.inl key
  · rw [key]
    unfold Channel.inner
    by_cases h5 : z < c.ztop - c.depth + c.lagHeight
    · rw [if_pos h5, e5]
      exact Or.inr (Or.inr ⟨⟨Or.inr hg, _, hp.erosive.lagHeight, by rw [e3, e4] at h5; exact h5⟩, rfl⟩)
    · rw [if_neg h5, if_neg (by rw [e1]; simp), e2, e6, e7]
      exact Or.inr (Or.inl rfl)

/-- A sheet without internal layers. -/
theorem sheet_own {d : Dict} {p : SheetRead} (hr : readInside d = .ok p.inside) (hg : written d "geometry" "sheet") (hpl : StructureIn d ["massive", "flat"])
    {r : ObjRandoms} {n : ℕ} {g : Grid} {zmean : ℝ} {s : SheetObj} (hs : SheetObj.new p.params (r.sheet p n) g zmean = .ok s) :
    ∃ f az dp, OwnValues d r n f az dp ∧ ∀ x y z, s.inner x y z = .hit f az dp := by
  have hp := readInside_from hr
  have hst : ¬ p.params.struct = "dip" := by
    show ¬ p.inside.struct = "dip"
    rcases plain_struct hp hpl with h | h <;> rw [h] <;> decide
  unfold SheetObj.new at hs
  rw [if_neg hst] at hs
  simp only [bind_ok, pure_ok] at hs
  obtain ⟨f, hf, rfl⟩ := hs
  exact ⟨f, _, _, .sheet hg (picked hr hf) (partWay hp.azimuth _) (partWay hp.dip _), fun _ _ _ => rfl⟩

theorem objectsOf_own {C : Convs} {p : Ini} {P : Parsed} (h : parseInifile C p = .ok P) {shapes : List (String × ShapeRead)}
    (hsh : readShapes P = .ok shapes) {g : Grid} {r : ObjRandoms} {fuel : ℕ} {t : ElemParams ℝ} {bottom top : Surface ℝ}
    {os : List (GObj ℝ)} (ho : objectsOf g shapes r fuel t bottom top = some (.ok os)) {e : Element} (he : (t.name, e) ∈ P.elements)
    (hpl : StructureIn e.dict ["massive", "flat"]) {k : ℕ} {ob : GObj ℝ} (hk : os[k]? = some ob) :
    ∃ f az dp, OwnValues e.dict r k f az dp ∧ Homogeneous e.dict ob f az dp := by
  unfold objectsOf at ho
  split at ho
  · rename_i q hq
    obtain ⟨e', he', hre⟩ := shape_of hsh hq
    rw [element_unique h he' he] at hre
    rcases readShape_geometry hre with ⟨q', hqq, hread, hg⟩ | ⟨_, hqq, -⟩ | ⟨_, hqq, -⟩ <;> cases hqq
    rw [Option.some.injEq] at ho
    cases hts : placeTroughs q g r bottom top with
    | error x => rw [hts] at ho; cases ho
    | ok ts =>
      rw [hts] at ho
      cases ho
      rw [numbered_get, Option.map_eq_some_iff] at hk
      obtain ⟨t', ht', rfl⟩ := hk
      simp only [placeTroughs, bind_ok] at hts
      obtain ⟨_, -, hts⟩ := hts
      obtain ⟨te, -, hts⟩ := generateTroughs_split hts
      obtain ⟨pt, -, hnew⟩ := makeTroughs_get hts ht'
      rw [Nat.zero_add] at hnew
      obtain ⟨f, az, dp, h1, h2⟩ := trough_own hread hg hpl hnew
      refine ⟨f, az, dp, h1, fun i j z v hv => ?_⟩
      simp only [Trough.toObj] at hv ⊢
      rcases h2 g (coord g.x i) (coord g.y j) z with h3 | h3 | ⟨h3, h4⟩
      · rw [h3] at hv; cases hv
      · rw [h3] at hv; cases hv; exact Or.inl rfl
      · rw [h4] at hv; cases hv; exact Or.inr ⟨h3, _, (readTrough_from hread).erosive.lagFacies, rfl⟩
  · rename_i q hq
    obtain ⟨e', he', hre⟩ := shape_of hsh hq
    rw [element_unique h he' he] at hre
    rcases readShape_geometry hre with ⟨q', hqq, -⟩ | ⟨_, hqq, hread, hg⟩ | ⟨_, hqq, -⟩ <;> cases hqq
    rw [Option.map_eq_some_iff] at ho
    obtain ⟨cs, hcs, ho⟩ := ho
    cases cs with
    | error x => cases ho
    | ok cs =>
      cases ho
      rw [numbered_get, Option.map_eq_some_iff] at hk
      obtain ⟨c, hc, rfl⟩ := hk
      unfold placeChannels at hcs
      by_cases hneg : q.channelNo < 0
      · rw [if_pos hneg] at hcs; cases hcs
      rw [if_neg hneg] at hcs
      unfold generateChannels at hcs
      split at hcs
      · cases hcs
      obtain ⟨pts, ztop, w, dep, hnew⟩ := channelLevels_get hcs hc
      rw [Nat.zero_add] at hnew
      obtain ⟨f, dp, h1, h2⟩ := channel_own hread hg hpl hnew
      refine ⟨f, 0, dp, h1, fun i j z v hv => ?_⟩
      simp only [Channel.toObj] at hv ⊢
      by_cases hsk : r.skip (0 + k) i j z = true
      · rw [if_pos hsk] at hv; cases hv
      rw [if_neg hsk] at hv
      rcases h2 g Cache.empty (coord g.x i) (coord g.y j) z i j with h3 | h3 | ⟨h3, h4⟩
      · rw [h3] at hv; cases hv
      · rw [h3] at hv; cases hv; exact Or.inl rfl
      · rw [h4] at hv; cases hv; exact Or.inr ⟨h3, _, (readChannel_from hread).erosive.lagFacies, rfl⟩
  · cases ho

theorem sheetOf_own {C : Convs} {p : Ini} {P : Parsed} (h : parseInifile C p = .ok P) {shapes : List (String × ShapeRead)}
    (hsh : readShapes P = .ok shapes) {g : Grid} {r : ObjRandoms} {t : ElemParams ℝ} {n : ℕ} {zmean : ℝ}
    {pay : Payload ℝ} (ho : sheetOf g shapes r t n zmean = .ok pay) {e : Element} (he : (t.name, e) ∈ P.elements)
    (hpl : StructureIn e.dict ["massive", "flat"]) :
    ∃ f az dp, OwnValues e.dict r n f az dp ∧ ∀ i j z, pay i j z = (f, some az, some dp) := by
  unfold sheetOf at ho
  split at ho
  · rename_i q hq
    obtain ⟨e', he', hre⟩ := shape_of hsh hq
    rw [element_unique h he' he] at hre
    rcases readShape_geometry hre with ⟨q', hqq, -⟩ | ⟨_, hqq, -⟩ | ⟨_, hqq, hread, hg⟩ <;> cases hqq
    simp only [bind_ok, pure_ok] at ho
    obtain ⟨s, hs, rfl⟩ := ho
    obtain ⟨f, az, dp, h1, h2⟩ := sheet_own hread hg hpl hs
    refine ⟨f, az, dp, h1, fun i j z => ?_⟩
    simp only [h2]
    rfl
  · cases ho

/-- **C137, values.** Objects without internal layers are homogeneous: every cell assigned to object `k` of an AE gets the facies, azimuth and dip that follow from the
section of the element and the random numbers drawn for this object, `Spec.OwnValues`, or, in the lag at the bottom of a trough or channel, the facies
`lag_facies` with angles 0. -/
theorem C137_values (C : Convs) (p : Ini) (P : Parsed) (h : parseInifile C p = .ok P) (ids : List (String × ℕ)) (r : Randoms ℝ)
    (o : ℕ → ℕ → ObjRandoms) (d : ℕ → StratumDraw ℝ) (m : GenModel ℝ) (cms' : Contacts ℝ)
    (hr : generateObjects P ids r o d = .ok (m, cms')) (si : ℕ) (s : StratumReal ℝ) (hs : m.strata[si]? = some s) (n : ℕ) (a : AEReal ℝ)
    (ha : s.aes[n]? = some a) (e : Element) (he : (a.name, e) ∈ P.elements) (hpl : StructureIn e.dict ["massive", "flat"]) (k : ℕ) (ob : GObj ℝ)
    (hk : a.objs[k]? = some ob) :
    ∃ f az dp, OwnValues e.dict (o si n) k f az dp ∧ Homogeneous e.dict ob f az dp := by
  obtain ⟨g, shapes, hgr, hsh, hnx, hny, hall⟩ := ae_parts h hr
  obtain ⟨e', i, t, sp, gz, a0, dd, Q, he', hname, hre, hrun, hsame, hobjs, hsheet, -⟩ := hall si s n a hs ha
  obtain ⟨H, H', hok, hb, ht, -, -, hkeep, hmax, -, hgen⟩ := hrun.run
  obtain ⟨q, hq⟩ := hsame.objs
  rw [hq, numberObjs_get, Option.map_eq_some_iff] at hk
  obtain ⟨ob0, hob0, rfl⟩ := hk
  suffices ∃ f az dp, OwnValues e.dict (o si n) k f az dp ∧ Homogeneous e.dict ob0 f az dp from this
  have hn : (t.cast : ElemParams ℝ).name = a.name := hname
  unfold genAE at hgen
  dsimp only at hgen
  split_ifs at hgen with h1 h2
  · simp only [bind_ok, pure_ok] at hgen
    obtain ⟨os, hos, heq⟩ := hgen
    have hos := liftObjs_ok.1 hos
    simp only [Prod.mk.injEq] at heq
    obtain ⟨-, heq⟩ := heq
    have hobjs0 : a0.objs = os := by rw [← heq]
    rw [hobjs] at hos
    rw [hobjs0] at hob0
    exact objectsOf_own h hsh hos (by rw [hn]; exact he) hpl hob0
  · simp only [bind_ok, pure_ok, liftErr_ok] at hgen
    obtain ⟨⟨h', e1, sheets⟩, -, os, hos, heq⟩ := hgen
    simp only [Prod.mk.injEq] at heq
    obtain ⟨-, heq⟩ := heq
    have hobjs0 : a0.objs = os := by rw [← heq]
    obtain ⟨pl, e2, e3⟩ := sheetObjs_ok hos
    rw [hobjs0, e2, List.getElem?_mapIdx, Option.map_eq_some_iff] at hob0
    obtain ⟨sh, hsh', rfl⟩ := hob0
    have hp := e3 k sh hsh'
    rw [hsheet, Nat.zero_add] at hp
    obtain ⟨f, az, dp, q1, q2⟩ := sheetOf_own h hsh hp (by rw [hn]; exact he) hpl
    refine ⟨f, az, dp, q1, fun i j z v hv => Or.inl ?_⟩
    unfold SheetRaw.toObj at hv
    dsimp only at hv
    split_ifs at hv
    rw [q2] at hv
    exact (Option.some.inj hv).symm

/-! ### The distribution -/

/-- The entries of a list that are `f`, counted by their indices. -/
theorem count_indices (fs : List ℤ) (f : ℤ) : ((Finset.range fs.length).filter fun c => fs.getD c 0 = f).card = fs.count f := by
  have e : fs = (List.range fs.length).map fun c => fs.getD c 0 := by
    refine List.ext_getElem (by simp) fun i h1 h2 => ?_
    simp [List.getD_eq_getElem?_getD, List.getElem?_eq_getElem h1]
  conv_rhs => rw [e]
  rw [List.count, List.countP_map, List.countP_eq_length_filter]
  have : (Finset.range fs.length).filter (fun c => fs.getD c 0 = f) = ((List.range fs.length).filter fun c => decide (fs.getD c 0 = f)).toFinset := by
    ext c
    simp
  rw [this, List.toFinset_card_of_nodup (List.nodup_range.filter _)]
  congr 1

theorem numVal_int {a b : ℤ} (h : (numVal a : Val) = numVal b) : a = b := by
  have : ((a : ℤ) : ℚ) = b := by
    cases h
    rfl
  exact_mod_cast this

/-- **C137, law.** The facies of the objects of an AE without internal layers are chosen independently of each other, each of them with the probability that
it has among the listed facies, and their dips are independent, equally likely everywhere between the two given numbers. -/
theorem C137_law {Ω : Type} [MeasurableSpace Ω] {μ : Measure Ω} [IsProbabilityMeasure μ] (C : Convs) (p : Ini) (P : Parsed) (h : parseInifile C p = .ok P)
    (ids : List (String × ℕ)) (r : Ω → Randoms ℝ) (o : Ω → ℕ → ℕ → ObjRandoms) (d : Ω → ℕ → StratumDraw ℝ) (m : Ω → GenModel ℝ)
    (cms : Ω → Contacts ℝ) (hm : ∀ ω, generateObjects P ids (r ω) (o ω) (d ω) = .ok (m ω, cms ω)) (si n : ℕ)
    (s : Ω → StratumReal ℝ) (hs : ∀ ω, (m ω).strata[si]? = some (s ω)) (a : Ω → AEReal ℝ) (ha : ∀ ω, (s ω).aes[n]? = some (a ω)) (name : String)
    (hname : ∀ ω, (a ω).name = name) (e : Element) (he : (name, e) ∈ P.elements) (hpl : StructureIn e.dict ["massive", "flat"]) (fs : List ℤ) (hne : fs ≠ [])
    (hfs : e.dict "facies" = some (.node (fs.map fun f : ℤ => numVal (f : ℚ)))) (hr : RandomChoices μ (fun ω => o ω si n) fs.length) (lo hi : ℚ)
    (hdip : e.dict "dip" = some (numList [lo, hi])) (hd : RandomDips μ fun ω => o ω si n) :
    ∃ (F : ℕ → Ω → ℤ) (D : ℕ → Ω → ℝ), (∀ ω k ob, (a ω).objs[k]? = some ob → ∃ az, Homogeneous e.dict ob (F k ω) az (D k ω)) ∧
      (∀ k f, μ.real {ω | F k ω = f} = fs.count f / fs.length) ∧ iIndepFun F μ ∧
      (lo < hi → ∀ k x y, (lo : ℝ) ≤ x → x ≤ y → y ≤ hi → μ.real {ω | x ≤ D k ω ∧ D k ω < y} = (y - x) / (hi - lo)) ∧ iIndepFun D μ := by
  have hlen : 0 < fs.length := List.length_pos_iff.2 hne
  refine ⟨fun k ω => fs.getD ((o ω si n).facies k % fs.length) 0, fun k ω => lo + (hi - lo) * (o ω si n).dip k, ?_, ?_, ?_, ?_, ?_⟩
  · intro ω k ob hk
    obtain ⟨f, az, dp, h1, h2⟩ := C137_values C p P h ids (r ω) (o ω) (d ω) (m ω) (cms ω) (hm ω) si (s ω) (hs ω) n (a ω) (ha ω) e (by rw [hname]; exact he) hpl k ob hk
    have pick : ∀ f, PickedFacies e.dict ((o ω si n).facies k) f → f = fs.getD ((o ω si n).facies k % fs.length) 0 := by
      rintro f ⟨l, hl, hlf⟩
      rw [hfs] at hl
      cases hl
      rw [List.length_map, List.getElem?_map, Option.map_eq_some_iff] at hlf
      obtain ⟨f', hf', heq⟩ := hlf
      rw [List.getD_eq_getElem?_getD, hf', ← numVal_int heq]
      rfl
    have way : ∀ dp, PartWay e.dict "dip" ((o ω si n).dip k) dp → dp = lo + (hi - lo) * (o ω si n).dip k := by
      rintro dp ⟨lo', hi', hl, rfl⟩
      rw [hdip] at hl
      simp only [numList, List.map_cons, List.map_nil, Option.some.injEq, Tree.node.injEq, List.cons.injEq, and_true] at hl
      cases hl.1
      cases hl.2
      rfl
    refine ⟨az, ?_⟩
    dsimp only
    cases h1 with
    | sheet geo facies azim dip => rw [← pick _ facies, ← way _ dip]; exact h2
    | channel geo facies dip => rw [← pick _ facies, ← way _ dip]; exact h2
    | trough geo facies azim flow dip => rw [← pick _ facies, ← way _ dip]; exact h2
  · intro k f
    have e1 : {ω | fs.getD ((o ω si n).facies k % fs.length) 0 = f} =
        ⋃ c ∈ (Finset.range fs.length).filter (fun c => fs.getD c 0 = f), {ω | (o ω si n).facies k % fs.length = c} := by
      ext ω
      simp only [Set.mem_ofPred_eq, Set.mem_iUnion, Finset.mem_filter, Finset.mem_range, exists_prop]
      constructor
      · intro h
        exact ⟨_, ⟨Nat.mod_lt _ hlen, h⟩, rfl⟩
      · rintro ⟨c, ⟨-, h1⟩, h2⟩
        rw [h2]
        exact h1
    rw [e1, measureReal_biUnion_finset, Finset.sum_congr rfl fun c hc => hr.even k c (Finset.mem_range.1 (Finset.mem_filter.1 hc).1), Finset.sum_const,
      count_indices, nsmul_eq_mul, mul_one_div]
    · intro c _ c' _ hcc
      refine Set.disjoint_left.2 fun ω h1 h2 => hcc ?_
      exact h1.symm.trans h2
    · intro c _
      exact hr.measurable k (measurableSet_singleton c)
  · exact hr.independent.comp (fun _ c => fs.getD c 0) fun _ => measurable_of_countable _
  · intro hlt k x y hx hxy hy
    have hlt' : (0 : ℝ) < hi - lo := by
      have : (lo : ℝ) < hi := by exact_mod_cast hlt
      linarith
    have e1 : {ω | x ≤ lo + (hi - lo) * (o ω si n).dip k ∧ lo + (hi - lo) * (o ω si n).dip k < y} =
        (fun ω => (o ω si n).dip k) ⁻¹' Set.Ico ((x - lo) / (hi - lo)) ((y - lo) / (hi - lo)) := by
      ext ω
      simp only [Set.mem_ofPred_eq, Set.mem_preimage, Set.mem_Ico, div_le_iff₀ hlt', lt_div_iff₀ hlt']
      constructor <;> rintro ⟨h1, h2⟩ <;> constructor <;> linarith
    rw [e1, measureReal_def, ← Measure.map_apply_of_aemeasurable (hd.law k).aemeasurable measurableSet_Ico, (hd.law k).map_eq,
      unit_piece (div_nonneg (by linarith) hlt'.le) (by rw [div_le_one hlt']; linarith), ENNReal.toReal_ofReal, ← sub_div]
    · congr 1
      ring
    · rw [← sub_div]
      exact div_nonneg (by linarith) hlt'.le
  · exact hd.independent.comp (fun _ u => (lo : ℝ) + (hi - lo) * u) fun _ => by fun_prop

/-! ### Example -/

/-- The uniform distribution on 0, 1, 2. -/
noncomputable def thirds : Measure ℕ := (1 / 3 : ENNReal) • (Measure.dirac 0 + Measure.dirac 1 + Measure.dirac 2)

instance : IsProbabilityMeasure thirds := by
  refine ⟨?_⟩
  unfold thirds
  simp only [Measure.smul_apply, Measure.add_apply, measure_univ, smul_eq_mul]
  rw [show (1 + 1 + 1 : ENNReal) = 3 by norm_num, one_div]
  exact ENNReal.inv_mul_cancel (by simp) (by simp)

/-- Choices from three entries and uniform numbers, one after the other. -/
noncomputable def ownLaw : Measure (ℕ → ℕ × ℝ) := Measure.infinitePi fun _ : ℕ => thirds.prod unitLaw

instance : IsProbabilityMeasure ownLaw := by
  unfold ownLaw
  infer_instance

/-- Random facies and dips of troughs; other numbers as in the examples above. -/
noncomputable def exOwn (ω : ℕ → ℕ × ℝ) : ObjRandoms := { exObjReals with facies := fun n => (ω n).1, dip := fun n => intoUnit (ω n).2 }

theorem exOwn_unit (ω : ℕ → ℕ × ℝ) : UniformObjs (exOwn ω) := { exObjReals_unit with dip := fun n => intoUnit_unit (ω n).2 }

theorem exOwn_choices : RandomChoices ownLaw exOwn 3 where
  measurable n := (measurable_of_countable fun c : ℕ => c % 3).comp (measurable_fst.comp (measurable_pi_apply n))
  even n c hc := by
    have hm : Measurable fun ω : ℕ → ℕ × ℝ => (ω n).1 := measurable_fst.comp (measurable_pi_apply n)
    have e : {ω : ℕ → ℕ × ℝ | (exOwn ω).facies n % 3 = c} = (fun ω => (ω n).1) ⁻¹' {k | k % 3 = c} := rfl
    have hmap : ownLaw.map (fun ω : ℕ → ℕ × ℝ => (ω n).1) = thirds := by
      show ownLaw.map (Prod.fst ∘ Function.eval n) = thirds
      rw [← Measure.map_map measurable_fst (measurable_pi_apply n)]
      unfold ownLaw
      rw [Measure.infinitePi_map_eval, Measure.map_fst_prod]
      simp
    rw [e, measureReal_def, ← Measure.map_apply hm (MeasurableSet.of_discrete), hmap]
    unfold thirds
    simp only [Measure.smul_apply, Measure.add_apply, Measure.dirac_apply, smul_eq_mul]
    interval_cases c <;> simp [Set.indicator]
  independent := iIndepFun_infinitePi (P := fun _ : ℕ => thirds.prod unitLaw) (X := fun _ q => q.1 % 3)
    fun _ => (measurable_of_countable fun c : ℕ => c % 3).comp measurable_fst

theorem exOwn_dips : RandomDips ownLaw exOwn where
  law n := by
    have e : (fun ω => (exOwn ω).dip n) = (intoUnit ∘ Prod.snd) ∘ Function.eval n := rfl
    have hm : Measurable (intoUnit ∘ (Prod.snd : ℕ × ℝ → ℝ)) := intoUnit_measurable.comp measurable_snd
    rw [e]
    refine ⟨(hm.comp (measurable_pi_apply n)).aemeasurable, ?_⟩
    rw [← Measure.map_map hm (measurable_pi_apply n)]
    unfold ownLaw
    rw [Measure.infinitePi_map_eval, ← Measure.map_map intoUnit_measurable measurable_snd, Measure.map_snd_prod]
    simp only [measure_univ, one_smul]
    rw [Measure.map_congr intoUnit_same, Measure.map_id']
  independent := iIndepFun_infinitePi (P := fun _ : ℕ => thirds.prod unitLaw) (X := fun _ q => intoUnit q.2) fun _ => intoUnit_measurable.comp measurable_snd

/-- The section of troughs in the example: facies numbers 2, 1, 2 and dips between 0 and 30. -/
theorem exTrench_own : ∃ st, settings exMinus (exTrench "1" "5") ["m"] "a.ini".toList [] = .ok st ∧
    (trenchB 1 5 st.parsed && st.parsed.elements.any fun q => decide (q.1 = "trench") && (writtenB q.2.dict "geometry" "trough" &&
      (decide (q.2.dict "facies" = some (.node [numVal 2, numVal 1, numVal 2])) && decide (q.2.dict "dip" = some (numList [0, 30]))))) = true :=
  ok_check (by decide +kernel)

/-- C137 applies to the example: two thirds of the troughs are cobbles (facies number 2), one third sand, half of them dip by less than 15 degrees. -/
example (field : FieldSource) : ∃ (st : Settings) (e : Element) (m : (ℕ → ℕ × ℝ) → GenModel ℝ) (a : (ℕ → ℕ × ℝ) → AEReal ℝ) (F : ℕ → (ℕ → ℕ × ℝ) → ℤ)
    (D : ℕ → (ℕ → ℕ × ℝ) → ℝ), settings exMinus (exTrench "1" "5") ["m"] "a.ini".toList [] = .ok st ∧
    (∀ ω, ∃ (d : ℕ → StratumDraw ℝ) (S : Simulation), simulate st.parsed st.ids exReals (fun _ _ => exOwn ω) d field = .ok S ∧ S.model = m ω) ∧
    (∀ ω, ∃ s ∈ (m ω).strata, a ω ∈ s.aes) ∧
    (∀ ω k ob, (a ω).objs[k]? = some ob → ∃ az, Homogeneous e.dict ob (F k ω) az (D k ω)) ∧
    (∀ k, ownLaw.real {ω | F k ω = 2} = 2 / 3 ∧ ownLaw.real {ω | F k ω = 1} = 1 / 3 ∧ ownLaw.real {ω | 0 ≤ D k ω ∧ D k ω < 15} = 1 / 2) ∧ iIndepFun F ownLaw := by
  obtain ⟨st, hst, hb⟩ := exTrench_own
  simp only [Bool.and_eq_true] at hb
  obtain ⟨hb, hel⟩ := hb
  obtain ⟨⟨nm, e⟩, he, hel⟩ := List.any_eq_true.1 hel
  simp only [Bool.and_eq_true, decide_eq_true_eq] at hel
  obtain ⟨rfl, hgeo, hfac, hdip⟩ := hel
  have ht := trench_of hb
  obtain ⟨p1, p2, -⟩ := settings_facts (trench_new "1" "5") hst
  have run : ∀ ω, ∃ N S, simulate st.parsed st.ids exReals (fun _ _ => exOwn ω) (fun si => withFuel N (exRealDraws si)) field = .ok S := by
    intro ω
    obtain ⟨F, S, -, hF⟩ := C108_finishes exMinus exMinus_number exMinus_whole (exTrench "1" "5") (trench_new "1" "5") _ _ _ st hst (trench_filled ht)
      (trench_placeable ht) (trench_tabled "1" "5") (trench_layers ht) (fun _ => ht.heterogeneity) _ ht.names _ _ (by norm_num) (trench_thick ht) exReals exReals_unit
      (by intro si n; simp only [exReals]; norm_num) (fun _ _ => exOwn ω) (fun _ _ => exOwn_unit ω) exRealDraws field
    exact ⟨F, S, hF F le_rfl⟩
  choose N S hS using run
  have gen : ∀ ω, ∃ cms' s a, generateObjects st.parsed st.ids exReals (fun _ _ => exOwn ω) (fun si => withFuel (N ω) (exRealDraws si)) = .ok ((S ω).model, cms') ∧
      (S ω).model.strata[0]? = some s ∧ s.aes[0]? = some a ∧ a.name = "trench" := by
    intro ω
    obtain ⟨cms', -, hr, -⟩ := simulate_grid (hS ω)
    obtain ⟨hlen, hflat⟩ := flat_strata p1 (trench_contacts ht) hr
    obtain ⟨s, hs⟩ : ∃ s, (S ω).model.strata[0]? = some s := ⟨_, List.getElem?_eq_getElem (by rw [hlen]; simp)⟩
    obtain ⟨a, ha, c1, c2, c3⟩ := trench_one hst ht hr hs
    exact ⟨cms', s, a, hr, hs, by rw [ha]; rfl, c3 rfl⟩
  choose cms s a hm hs ha hname using gen
  obtain ⟨F, D, h1, h2, h3, h4, -⟩ := C137_law (μ := ownLaw) exMinus _ _ p1 st.ids (fun _ => exReals) (fun ω _ _ => exOwn ω)
    (fun ω si => withFuel (N ω) (exRealDraws si)) (fun ω => (S ω).model) cms hm 0 0 s hs a ha "trench" hname e he ⟨_, by simp, ht.massive _ _ he⟩ [2, 1, 2] (by simp)
    hfac exOwn_choices 0 30 hdip exOwn_dips
  refine ⟨st, e, fun ω => (S ω).model, a, F, D, hst, fun ω => ⟨_, S ω, hS ω, rfl⟩, fun ω => ⟨s ω, List.mem_of_getElem? (hs ω), List.mem_of_getElem? (ha ω)⟩, h1,
    fun k => ⟨?_, ?_, ?_⟩, h3⟩
  · rw [h2, show ([2, 1, 2] : List ℤ).count 2 = 2 by decide]
    norm_num
  · rw [h2, show ([2, 1, 2] : List ℤ).count 1 = 1 by decide]
    norm_num
  · rw [h4 (by norm_num) k 0 15 (by norm_num) (by norm_num) (by norm_num)]
    norm_num

end Hyvr
