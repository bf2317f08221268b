import Verif.Spec.Resolution
import Verif.Lemmas.Hanging
import Verif.Props.Filled

/-!
C128, C12 for realisations of ini-files with sheets and troughs: off the contacts, no cell depends on the cells above it.
-/

namespace Hyvr

open Py Spec

/-- The section of an AE. -/
theorem ae_section {C : Convs} {p : Ini} {P : Parsed} (h : parseInifile C p = .ok P) {ids : List (String × ℕ)} (hids : aeIds P = .ok ids)
    {r : Randoms ℝ} {o : ℕ → ℕ → ObjRandoms} {d : ℕ → StratumDraw ℝ} {m : GenModel ℝ} {cms' : Contacts ℝ} (hr : generateObjects P ids r o d = .ok (m, cms'))
    {si n : ℕ} {s : StratumReal ℝ} {a : AEReal ℝ} (hs : m.strata[si]? = some s) (ha : s.aes[n]? = some a) :
    ∃ e, (a.name, e) ∈ P.elements ∧ (a.isSheet = true ↔ written e.dict "geometry" "sheet") := by
  obtain ⟨g, shapes, -, hsh, hgen⟩ := generateObjects_ok hr
  obtain ⟨I, names, hI, hnames, hin, hg, hlen, hall⟩ := stratum_parts h hgen
  obtain ⟨-, sr, hf, hd, first, hfirst, hp⟩ := hall si s hs
  obtain ⟨t, ht, hmade⟩ := kind_at hfirst hp ha
  obtain ⟨e, ei, he, hti, hi, hre⟩ := hf.elements t (List.mem_of_getElem? ht)
  have hfe := fromElement h hids he hti hi hre hmade
  exact ⟨e, hfe.mem, hfe.sheet⟩

theorem hanging_levels {tz bz agg : ℝ} (hagg : 0 < agg) {L : ℕ} (hL : ∀ i : ℕ, i < L → bz < tz - i * agg) (n : ℕ → ℕ) (f : ℕ → ℕ → ℝ × ℝ × ℝ)
    (hf : ∀ i k, (f i k).2.2 = tz - i * agg) :
    (∀ q ∈ (List.range L).flatMap fun i => (List.range (n i)).map (f i), bz < q.2.2) ∧
      ((List.range L).flatMap fun i => (List.range (n i)).map (f i)).Pairwise (fun q q' => q'.2.2 ≤ q.2.2) := by
  constructor
  · intro q hq
    simp only [List.mem_flatMap, List.mem_range, List.mem_map] at hq
    obtain ⟨i, hi, k, -, rfl⟩ := hq
    rw [hf]
    exact hL i hi
  · clear hL
    induction L with
    | zero => simp
    | succ L ih =>
      rw [List.range_succ, List.flatMap_append, List.pairwise_append]
      refine ⟨ih, ?_, ?_⟩
      · simp only [List.flatMap_cons, List.flatMap_nil, List.append_nil]
        rw [List.pairwise_map]
        exact List.pairwise_of_forall (fun {a b} => by rw [hf, hf])
      · intro q hq q' hq'
        simp only [List.flatMap_cons, List.flatMap_nil, List.append_nil, List.mem_flatMap, List.mem_range, List.mem_map] at hq hq'
        obtain ⟨i, hi, k, -, rfl⟩ := hq
        obtain ⟨k', -, rfl⟩ := hq'
        rw [hf, hf]
        have : (i : ℝ) * agg ≤ L * agg := by
          have : (i : ℝ) ≤ L := by exact_mod_cast hi.le
          nlinarith
        linarith

theorem centres_hang {m d : Dict} {r : ObjRandoms} {tz bz : ℝ} {cs : List (ℝ × ℝ × ℝ)} (hd : HangingTroughs d) (h : Centres m d r tz bz cs) :
    (∀ q ∈ cs, bz < q.2.2) ∧ cs.Pairwise (fun q q' => q'.2.2 ≤ q.2.2) := by
  cases h with
  | given v pts te some _ _ =>
    rw [hd.free] at te
    exact absurd (Option.some.inj te).symm some
  | drawn agg depth buffer density x0 lx y0 ly te hagg hdepth hbuffer hdensity hx0 hlx hy0 hly levels =>
    obtain ⟨q1, a1, a2⟩ := hd.agg
    cases numVal_some_inj hagg a1
    obtain ⟨q2, b1, b2⟩ := hd.buffer
    cases numVal_some_inj hbuffer b1
    obtain ⟨q3, c1, c2⟩ := hd.sound.size "depth" (by simp)
    cases numVal_some_inj hdepth c1
    obtain ⟨L, hL, -, l1, l2⟩ := levels a2
    have hagg' : (0 : ℝ) < agg := by exact_mod_cast a2
    have hL' : ∀ i : ℕ, i < L → bz < tz - i * (agg : ℝ) := by
      intro i hi
      have := (hL i).1 hi
      have h0 : (0 : ℝ) ≤ depth * buffer := mul_nonneg (by exact_mod_cast c2.le) (by exact_mod_cast b2)
      linarith
    by_cases hm : d "migrate" = some (.leaf .none)
    · rw [l1 hm]
      exact hanging_levels hagg' hL' _ _ fun _ _ => rfl
    · obtain ⟨mx, sx, my, sy, rest, -, -, e⟩ := l2 hm
      rw [e]
      exact hanging_levels hagg' hL' (fun _ => r.count (density * lx * ly) 0) _ fun _ _ => rfl

/-- The object hangs from the level `z`. -/
structure HangsFrom (z : ℝ) (o : GObj ℝ) : Prop where
  top : o.zmax = z
  closed : ∀ i j z, o.answer i j z ≠ none → o.zmin ≤ z ∧ z ≤ o.zmax ∧ ∀ z', z ≤ z' → z' ≤ o.zmax → o.answer i j z' ≠ none

theorem trough_hangs {m d : Dict} {nx ny : ℕ} {c : ℝ × ℝ × ℝ} {o : GObj ℝ} (hd : HangingTroughs d) (h : TroughAt m d nx ny c o) : HangsFrom c.2.2 o := by
  obtain ⟨len, wid, dep, ang, f, h1, h2, h3, -, hf, htop, -, hall⟩ := h.shape
  have hf1 : f = 1 := by
    cases hf with
    | constant _ one => exact one
    | linear f0 f1 z0 lz trend _ _ _ =>
      rw [hd.sound.trend] at trend
      cases trend
  subst hf1
  have pos : ∀ k ∈ ["length", "width", "depth"], ∀ q : ℚ, d k = some (numVal q) → (0 : ℝ) < 1 * q := by
    intro k hk q hq
    obtain ⟨q', e1, e2⟩ := hd.sound.size k hk
    cases numVal_some_inj hq e1
    rw [one_mul]
    exact_mod_cast e2
  exact ⟨htop, (hall (pos _ (by simp) _ h1) (pos _ (by simp) _ h2) (pos _ (by simp) _ h3)).1⟩

/-- The objects of such AEs hang. -/
theorem troughs_hang {C : Convs} {p : Ini} {P : Parsed} (h : parseInifile C p = .ok P) {ids : List (String × ℕ)}
    {r : Randoms ℝ} {o : ℕ → ℕ → ObjRandoms} (hu : ∀ si n, UniformObjs (o si n)) {d : ℕ → StratumDraw ℝ} {m : GenModel ℝ} {cms' : Contacts ℝ}
    (hr : generateObjects P ids r o d = .ok (m, cms')) {si n : ℕ} {s : StratumReal ℝ} {a : AEReal ℝ} (hs : m.strata[si]? = some s)
    (ha : s.aes[n]? = some a) {e : Element} (he : (a.name, e) ∈ P.elements) (hd : HangingTroughs e.dict) :
    (∀ o ∈ a.objs, ∃ z, HangsFrom z o) ∧ ∀ i < m.heap.nx, ∀ j < m.heap.ny, Hanging i j (a.search m.heap) := by
  obtain ⟨bz, cs, hbz, hcs, hF⟩ := C105_troughs C p P h ids r o hu d m cms' hr si s hs n a ha e he hd.sound.geo
  obtain ⟨c1, c2⟩ := centres_hang hd hcs
  have hF : List.Forall₂ (fun c o => HangsFrom c.2.2 o) cs a.objs := hF.imp fun c o hc => trough_hangs hd hc
  have each : ∀ (k : ℕ) (ob : GObj ℝ), a.objs[k]? = some ob → ∃ c, cs[k]? = some c ∧ HangsFrom c.2.2 ob := fun k ob hk => forall₂_get hF hk
  refine ⟨fun ob hob => ?_, fun i hi j hj => ?_⟩
  · obtain ⟨k, hk⟩ := List.mem_iff_getElem?.1 hob
    obtain ⟨c, -, hc⟩ := each k ob hk
    exact ⟨_, hc⟩
  · have mem : ∀ O ∈ (a.search m.heap).objs, ∃ (c : ℝ × ℝ × ℝ) (ob : GObj ℝ), c ∈ cs ∧ HangsFrom c.2.2 ob ∧ O.zmin = ob.zmin ∧ O.zmax = ob.zmax ∧
        ∀ z, O.test i j z ≠ none ↔ ob.answer i j z ≠ none := by
      intro O hO
      obtain ⟨k, hk⟩ := List.mem_iff_getElem?.1 hO
      simp only [AEReal.search] at hk
      rw [List.getElem?_mapIdx, Option.map_eq_some_iff] at hk
      obtain ⟨ob, hob, rfl⟩ := hk
      obtain ⟨c, hc, hh⟩ := each k ob hob
      exact ⟨c, ob, List.mem_of_getElem? hc, hh, rfl, rfl, fun z => by simp [AEReal.searchObj]⟩
    refine ⟨fun O hO => ?_, fun O hO z z' hz hzz hz' => ?_, ?_⟩
    · obtain ⟨c, ob, hc, hh, -, e2, -⟩ := mem O hO
      rw [e2, hh.top]
      exact (hbz.1 i hi j hj).trans (c1 c hc).le
    · obtain ⟨c, ob, hc, hh, e1, e2, e3⟩ := mem O hO
      obtain ⟨h1, h2, h3⟩ := objHit_ne_none.1 hz
      have := hh.closed i j z ((e3 z).1 h3)
      exact objHit_ne_none.2 ⟨h1.trans hzz, hz', (e3 z').2 (this.2.2 z' hzz (by rw [← e2]; exact hz'))⟩
    · simp only [AEReal.search]
      rw [List.pairwise_iff_getElem]
      intro k k' hk hk' hlt
      simp only [List.length_mapIdx] at hk hk'
      simp only [List.getElem_mapIdx, AEReal.searchObj]
      obtain ⟨c, g1, g2⟩ := each k _ (List.getElem?_eq_getElem hk)
      obtain ⟨c', g1', g2'⟩ := each k' _ (List.getElem?_eq_getElem hk')
      rw [g2.top, g2'.top]
      obtain ⟨l1, f1⟩ := List.getElem?_eq_some_iff.1 g1
      obtain ⟨l2, f2⟩ := List.getElem?_eq_some_iff.1 g1'
      have := List.pairwise_iff_getElem.1 c2 k k' l1 l2 hlt
      rw [f1, f2] at this
      exact this

/-- No unit of such a model writes the mark of an empty cell. -/
theorem hanging_facies {C : Convs} {p : Ini} {P : Parsed} (h : parseInifile C p = .ok P) {ids : List (String × ℕ)} (hids : aeIds P = .ok ids)
    (hst : SheetsAndTroughs P) {r : Randoms ℝ} {o : ℕ → ℕ → ObjRandoms} (hu : ∀ si n, UniformObjs (o si n)) (hm' : NoStrayMark P o)
    {d : ℕ → StratumDraw ℝ} {m : GenModel ℝ} {cms' : Contacts ℝ} (hr : generateObjects P ids r o d = .ok (m, cms')) : FaciesOK m.search := by
  obtain ⟨g, shapes, -, hsh, hgen⟩ := generateObjects_ok hr
  obtain ⟨I, names, hI, hnames, hin, hg, hlen, hall⟩ := stratum_parts h hgen
  obtain ⟨_, hydro, _, _, -, -, -, -, -, hh, -, -, -, -, hm⟩ := parseInifile_ok h
  intro S hS A hA
  obtain ⟨s, hs, rfl⟩ := List.mem_map.1 hS
  simp only [StratumReal.search] at hA
  obtain ⟨a, ha, rfl⟩ := List.mem_map.1 hA
  obtain ⟨si, hsi⟩ := List.mem_iff_getElem?.1 hs
  obtain ⟨n, hn⟩ := List.mem_iff_getElem?.1 ha
  obtain ⟨-, sr, hf, hd, first, hfirst, hp⟩ := hall si s hsi
  obtain ⟨t, ht, hmade⟩ := kind_at hfirst hp hn
  obtain ⟨e, ei, he, hti, hi, hre⟩ := hf.elements t (List.mem_of_getElem? ht)
  have hfe := fromElement h hids he hti hi hre hmade
  obtain ⟨raw, hraw⟩ : ∃ raw, parseElement C hydro raw = .ok e := by
    obtain ⟨s', -, h'⟩ := mapPy_from hm he
    simp only [parseNamedElement, bind_ok, pure_ok] at h'
    obtain ⟨e', he, heq⟩ := h'
    cases heq
    exact ⟨_, he⟩
  constructor
  · simp only [AEReal.search]
    obtain ⟨own, h1, h2⟩ := hfe.facies
    unfold ownOr at h2
    split_ifs at h2 with hown
    · obtain ⟨i, hi, hi'⟩ := strata_facies h hh hf.facies
      rw [natVal_num (h2.trans hi')]
      omega
    · intro hc
      rw [hc] at h2
      exact hown (by rw [← h2]; norm_num)
  · intro O hO i j z v hv
    simp only [AEReal.search] at hO
    obtain ⟨oi, hoi⟩ := List.mem_iff_getElem?.1 hO
    rw [List.getElem?_mapIdx, Option.map_eq_some_iff] at hoi
    obtain ⟨o0, ho0, rfl⟩ := hoi
    simp only [AEReal.searchObj, Option.map_eq_some_iff] at hv
    obtain ⟨w, hw, rfl⟩ := hv
    have ho0 := List.mem_of_getElem? ho0
    obtain ⟨t', ht', _, -, -, -, -, -, -, -, hcase⟩ := hmade.made
    rw [List.mem_singleton.1 ht'] at hcase
    have hans : Answers e.dict (o si n) w := by
      rcases hcase with ⟨hns, N, b, tt, os, hos, -, hobjs⟩ | ⟨-, -, hobjs⟩
      · obtain ⟨o1, ho1, e1, e2, -⟩ := hobjs o0 ho0
        have hd : HangingTroughs e.dict := by
          rcases hst _ _ he with hsheet | hd
          · have hg' : (t.cast : ElemParams ℝ).geometry = "sheet" := geometry_read (e := e) hre hsheet
            rw [hg'] at hns
            exact absurd hns (by decide)
          · exact hd
        obtain ⟨zt, hz⟩ := (troughs_hang h hu hr hsi hn hfe.mem hd).1 o0 ho0
        have hz := (hz.closed i j z (by rw [hw]; simp)).1
        rw [e2] at hz
        rw [e1] at hw
        refine objectsOf_answers h hsh (hu si n) (fuel := N) (t := t.cast) (bottom := b) (top := tt) (g := g) ?_ he ho1 hz hw
        simpa [drawStratum, withObjects] using hos
      · obtain ⟨k', zm, pay, hpay, hv'⟩ := hobjs o0 ho0
        rw [hv' _ _ _ _ hw]
        refine sheetOf_answers h hsh (hu si n) (t := t.cast) (n := k') (zmean := zm) (g := g) ?_ he _ _ _
        simpa [drawStratum, withObjects] using hpay
    have facies : ∀ f, ObjectFacies e.dict f → f ≠ -1 := by
      intro f hf2 hc
      rw [hc] at hf2
      obtain ⟨n', -, ⟨v, hv1, hv2⟩, halt, -, -⟩ := C49_element C hydro raw e hraw
      rcases hf2 with ⟨l, h1, h2⟩ | ⟨-, rows, row, h1, h2, h3⟩
      · rw [hv1] at h1
        obtain ⟨i, -, hi⟩ := numbers_mem hv2 (Option.some.inj h1) h2
        omega
      · rcases halt with halt | ⟨l, hl, -, hall⟩
        · rw [halt] at h1
          cases h1
        · rw [hl] at h1
          cases h1
          obtain ⟨m', hm'⟩ := hall _ h2
          obtain ⟨i, -, hi⟩ := numbers_mem hm' rfl h3
          omega
    rcases hans with ⟨az, dp, -, -, v3⟩ | ⟨hpos, l, q, hq⟩
    · simp only
      cases v3 with
      | sheet _ hf2 _ _ => exact facies _ hf2
      | lag hg2 hl =>
        rcases hst _ _ he with hsheet | hd
        · rcases hg2 with hg2 | hg2 <;> · have := hsheet.symm.trans hg2; simp at this
        · exact hd.lag _ hl
      | channel _ hf2 _ _ _ => exact facies _ hf2
      | straight _ _ hf2 _ _ _ => exact facies _ hf2
      | bulb _ _ hf2 _ _ _ => exact facies _ hf2
    · simp only
      rw [hq]
      exact hm' _ _ he hpos si n l q

/-- The AEs of such a model that are not sheets hang. -/
theorem model_hangs {C : Convs} {p : Ini} {P : Parsed} (h : parseInifile C p = .ok P) {ids : List (String × ℕ)} (hids : aeIds P = .ok ids)
    (hst : SheetsAndTroughs P) {r : Randoms ℝ} {o : ℕ → ℕ → ObjRandoms} (hu : ∀ si n, UniformObjs (o si n)) {d : ℕ → StratumDraw ℝ} {m : GenModel ℝ}
    {cms' : Contacts ℝ} (hr : generateObjects P ids r o d = .ok (m, cms')) :
    ∀ i < m.heap.nx, ∀ j < m.heap.ny, ∀ s ∈ m.search, ∀ a ∈ s.aes, a.isSheet = false → Hanging i j a := by
  intro i hi j hj s hs a ha hsh
  obtain ⟨s0, hs0, rfl⟩ := List.mem_map.1 hs
  simp only [StratumReal.search] at ha
  obtain ⟨a0, ha0, rfl⟩ := List.mem_map.1 ha
  obtain ⟨si, hsi⟩ := List.mem_iff_getElem?.1 hs0
  obtain ⟨n, hn⟩ := List.mem_iff_getElem?.1 ha0
  obtain ⟨e, he, hsheet⟩ := ae_section h hids hr hsi hn
  rcases hst _ _ he with h2 | hd
  · exact absurd (hsheet.2 h2) (by rw [show a0.isSheet = false from hsh]; simp)
  · exact (troughs_hang h hu hr hsi hn he hd).2 i hi j hj

/-- The records of a column of such a model. -/
theorem hanging_record {P : Parsed} {S : Simulation} {z0 dz : ℚ} {g : Grid} {i j : ℕ} (F : ColumnFacts P S z0 dz g i j) (hf : FaciesOK S.model.search)
    (hh : ∀ s ∈ S.model.search, ∀ a ∈ s.aes, a.isSheet = false → Hanging i j a) (hne : ∀ s ∈ S.model.strata, s.aes ≠ []) {k : ℕ} (hi : i < S.shape.nx)
    (hj : j < S.shape.ny) (hk : k < S.shape.nz) (hoff : OffContacts S z0 dz i j) :
    ∃ q g, firstPlace i j ((z0 + (k + 1 / 2) * dz : ℚ) : ℝ) S.model.search = some (q, g) ∧
      S.cells.at i j k = ⟨g.facies, q.si, g.ae, g.ha, g.hat, g.azim, g.dip⟩ := by
  unfold OffContacts at hoff
  rw [F.shape] at hi hj hk hoff
  simp only at hi hj hk hoff
  have := hanging_column (F.tiled hf) hh F.thick F.encloses F.mono (nx := g.nx) (ny := g.ny) ?_ hi hj hk
  · rw [F.cells, ← F.centre k hk]
    exact this
  · intro k hk
    obtain ⟨s, hs, a, ha, a1, a2⟩ := F.covered hne k hk
    refine ⟨s, hs, a, ha, ?_⟩
    cases hsh : a.isSheet
    · obtain ⟨s0, hs0, rfl⟩ := List.mem_map.1 hs
      simp only [StratumReal.search] at ha
      obtain ⟨a0, ha0, rfl⟩ := List.mem_map.1 ha
      obtain ⟨n1, n2⟩ := hoff s0 hs0 a0 ha0 hsh k hk
      rw [← F.centre k hk] at n1 n2
      exact Or.inl ⟨hsh, lt_of_le_of_ne a1 n1.symm, lt_of_le_of_ne a2 n2⟩
    · exact Or.inr ⟨hsh, a1, a2⟩

theorem shape_heap {C : Convs} {p : Ini} {P : Parsed} (h : parseInifile C p = .ok P) {ids : List (String × ℕ)} {r : Randoms ℝ} {o : ℕ → ℕ → ObjRandoms}
    {d : ℕ → StratumDraw ℝ} {field : FieldSource} {S : Simulation} (hS : simulate P ids r o d field = .ok S) :
    S.model.heap.nx = S.shape.nx ∧ S.model.heap.ny = S.shape.ny := by
  obtain ⟨cms', g', hr, hg', hs, -⟩ := simulate_grid hS
  obtain ⟨g'', shapes', hgr'', -, hnx, hny, -⟩ := ae_parts h hr
  cases Except.ok.inj (hg'.symm.trans hgr'')
  rw [hs]
  exact ⟨hnx, hny⟩

/-- **C128.** Let all sections be sheets, or troughs that are drawn on levels at or above the highest point of the bottom of
their AE. In a realisation in which no stratum is empty, in a column without a cell centre on a contact of a trough AE, every cell has the record of the first unit
from the top that claims its centre: what the search remembers from the cells above does not matter. In particular every cell of the column is assigned. (The domain
must not start above elevation 0: see C05.) -/
theorem C128 (C : Convs) (p : Ini) (P : Parsed) (h : parseInifile C p = .ok P) (ids : List (String × ℕ)) (hids : aeIds P = .ok ids)
    (hst : SheetsAndTroughs P) (z0 dz : ℚ) (h0 : P.model "z0" = some (numVal z0)) (h0' : z0 ≤ 0) (h1 : P.model "dz" = some (numVal dz)) (h1' : 0 < dz)
    (r : Randoms ℝ) (o : ℕ → ℕ → ObjRandoms) (hu : ∀ si n, UniformObjs (o si n)) (hm : NoStrayMark P o) (d : ℕ → StratumDraw ℝ) (field : FieldSource)
    (S : Simulation) (hS : simulate P ids r o d field = .ok S) (hne : ∀ s ∈ S.model.strata, s.aes ≠ []) (i j k : ℕ) (hi : i < S.shape.nx)
    (hj : j < S.shape.ny) (hk : k < S.shape.nz) (hoff : OffContacts S z0 dz i j) :
    ∃ q g, firstPlace i j ((z0 + (k + 1 / 2) * dz : ℚ) : ℝ) S.model.search = some (q, g) ∧
      S.cells.at i j k = ⟨g.facies, q.si, g.ae, g.ha, g.hat, g.azim, g.dip⟩ := by
  obtain ⟨g, F⟩ := column_facts h h0 h0' h1 h1' hS hi hj
  obtain ⟨cms', -, hr, -⟩ := simulate_grid hS
  obtain ⟨e1, e2⟩ := shape_heap h hS
  exact hanging_record F (hanging_facies h hids hst hu hm hr) (model_hangs h hids hst hu hr i (by rw [e1]; exact hi) j (by rw [e2]; exact hj)) hne hi hj hk hoff

end Hyvr
