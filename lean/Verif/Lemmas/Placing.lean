import Verif.Spec.Placing
import Verif.Lemmas.Inside
import Verif.Lemmas.Generate
import Verif.Props.Ferguson
import Verif.Props.Inside
import Verif.Props.Layers
import Verif.Props.Place
import Verif.Props.Channel

/-!
Objects can be placed from well filled element sections (C104).
-/

namespace Hyvr

open Py Spec Real

/-! ### The values of an accepted section -/

theorem scalar_num {conv : List Char → Except PyErr Atom} (hc : ∀ t a, conv t = .ok a → ∃ q, a = .num q) {opts : List Opt} (hw : WellNamed opts)
    {raw d : Dict} (h : parseSection opts raw = .ok d) {o : Opt} (ho : o ∈ opts) (hk : o.kind = .scalar conv) (ha : o.alternatives = []) :
    d o.name = some o.default ∧ o.isOptional = true ∨ ∃ q, d o.name = some (numVal q) := by
  obtain ⟨pre, post, hpp⟩ := List.append_of_mem ho
  obtain ⟨h1, h2⟩ := C46_present _ hw _ _ h pre post _ hpp
  rw [given_simple ha] at h1 h2
  cases hn : raw o.name with
  | none => exact Or.inl ⟨(h2 hn).2, (h2 hn).1⟩
  | some r =>
    obtain ⟨ctx, v, hcx, hv, hd, _⟩ := h1 r hn
    obtain ⟨t, a, -, hta, rfl⟩ := scalar_value hk hcx hv
    obtain ⟨q, rfl⟩ := hc t a hta
    exact Or.inr ⟨q, hd⟩

/-- An option that is a list of numbers. -/
theorem list_nums {C : Convs} (hfloat : ∀ t a, C.float t = .ok a → ∃ q, a = .num q) {opts : List Opt} (hw : WellNamed opts)
    {raw d : Dict} (h : parseSection opts raw = .ok d) {o : Opt} (ho : o ∈ opts) {n : ℕ} (hk : o.kind = .list C.float (.num n))
    (ha : o.alternatives = []) (ht : ∀ t, raw o.name = some (.leaf (.text t)) → WellWritten t) :
    d o.name = some o.default ∧ o.isOptional = true ∨ ∃ l : List ℚ, d o.name = some (numList l) ∧ l.length = n := by
  obtain ⟨pre, post, hpp⟩ := List.append_of_mem ho
  obtain ⟨h1, h2⟩ := C46_present _ hw _ _ h pre post _ hpp
  rw [given_simple ha] at h1 h2
  cases hn : raw o.name with
  | none => exact Or.inl ⟨(h2 hn).2, (h2 hn).1⟩
  | some r =>
    obtain ⟨ctx, v, hcx, hv, hd, _⟩ := h1 r hn
    have hne : ShapeDecl.num (n : ℤ) ≠ .num (-1) := by simp
    obtain ⟨t, _, _, ht', _⟩ := optValue_shape hk hne hv
    have hrt : r = .leaf (.text t) := by
      rw [ht'] at hcx
      exact (Option.some.inj hcx).symm
    subst hrt
    have hwt := ht t hn
    obtain ⟨l, rfl, hl⟩ := flat_of_matches (C44_fixed_partial _ _ _ n hk (Or.inl ⟨rfl, by omega⟩) ctx t hcx hwt _ hv)
    obtain ⟨qs, rfl⟩ := all_num (l := l) fun a ha => by
      obtain ⟨t, ht⟩ := option_leaf hk hne hv hcx hwt (leafOf_flat.2 ha)
      exact hfloat t a ht
    rw [flatList_num] at hd
    rw [List.length_map] at hl
    exact Or.inr ⟨qs, hd, by omega⟩

/-- An option that is a table of numbers. -/
theorem table_nums {C : Convs} (hfloat : ∀ t a, C.float t = .ok a → ∃ q, a = .num q) {opts : List Opt} (hw : WellNamed opts)
    {raw d : Dict} (h : parseSection opts raw = .ok d) {o : Opt} (ho : o ∈ opts) {n : ℕ} (hk : o.kind = .list C.float (.dims [.num (-1), .num n]))
    (ha : o.alternatives = []) (ht : ∀ t, raw o.name = some (.leaf (.text t)) → WellWritten t) :
    d o.name = some o.default ∧ o.isOptional = true ∨
      ∃ ll : List (List ℚ), d o.name = some (numTable ll) ∧ ∀ l ∈ ll, l.length = n := by
  obtain ⟨pre, post, hpp⟩ := List.append_of_mem ho
  obtain ⟨h1, h2⟩ := C46_present _ hw _ _ h pre post _ hpp
  rw [given_simple ha] at h1 h2
  cases hn : raw o.name with
  | none => exact Or.inl ⟨(h2 hn).2, (h2 hn).1⟩
  | some r =>
    obtain ⟨ctx, v, hcx, hv, hd, _⟩ := h1 r hn
    have hne : ShapeDecl.dims [.num (-1), .num (n : ℤ)] ≠ .num (-1) := by simp
    obtain ⟨t, _, _, ht', _⟩ := optValue_shape hk hne hv
    have hrt : r = .leaf (.text t) := by
      rw [ht'] at hcx
      exact (Option.some.inj hcx).symm
    subst hrt
    have hwt := ht t hn
    obtain ⟨ll, rfl, hl⟩ := flats_of_matches (C44_matrix_partial _ _ _ n hk ctx t hcx hwt _ hv)
    obtain ⟨qs, rfl⟩ := all_nums (ll := ll) fun l hl a ha => by
      obtain ⟨t, ht⟩ := option_leaf hk hne hv hcx hwt (leafOf_flats.2 ⟨l, hl, ha⟩)
      exact hfloat t a ht
    rw [flatLists_num] at hd
    refine Or.inr ⟨qs, hd, fun l hm => ?_⟩
    have := hl _ (List.mem_map_of_mem hm)
    rw [List.length_map] at this
    omega

/-- A required text option has one of the values that are allowed. -/
theorem required_valid {opts : List Opt} (hw : WellNamed opts) {C : Convs} {raw d : Dict} (h : parseSection opts raw = .ok d) {o : Opt}
    (ho : o ∈ opts) (hk : o.kind = .scalar C.str) {l : List String} (hv : o.valid = oneOf l) (hreq : o.isOptional = false) :
    ∃ s ∈ l, written d o.name s := by
  obtain ⟨pre, post, rfl⟩ := List.append_of_mem ho
  obtain ⟨ctx, r, v, _, _, hov, hd, _⟩ := section_required hw h pre post o rfl hreq
  unfold optValue at hov
  rw [bind_ok] at hov
  obtain ⟨t, ht, hov⟩ := hov
  simp only [hk, bind_ok] at hov
  obtain ⟨a, hat, hov⟩ := hov
  unfold validated at hov
  split_ifs at hov with hb
  cases hov
  rw [hv, oneOf, List.any_eq_true] at hb
  obtain ⟨s, hs, hs'⟩ := hb
  refine ⟨s, hs, ?_⟩
  rw [decide_eq_true_eq] at hs'
  subst hs'
  exact hd

theorem wholesOf_nums (ns : List ℕ) : wholesOf (.node (ns.map natVal)) = .ok (ns.map fun n : ℕ => (n : ℤ)) := by
  have : ∀ l : List ℕ, mapPy wholeOf (l.map natVal) = .ok (l.map fun n : ℕ => (n : ℤ)) := by
    intro l
    induction l with
    | nil => rfl
    | cons q l ih => exact mapPy_ok.2 (.cons (by simp [wholeOf, natVal]) (mapPy_ok.1 ih))
  simp only [wholesOf, pyItems, bind_ok]
  exact ⟨_, rfl, this ns⟩

theorem rangeOf_list (a b : ℚ) : rangeOf (numList [a, b]) = .ok (a, b) := by
  simp only [rangeOf, bind_ok]
  exact ⟨_, numsOf_list _, rfl⟩

theorem distOf_total {v : Val} (h : v = .leaf .none ∨ ∃ q, v = numVal q) : ∃ q, distOf v = .ok q := by
  rcases h with rfl | ⟨q, rfl⟩
  · exact ⟨0, rfl⟩
  · exact ⟨q, rfl⟩

theorem range_option {d : Dict} {k : String} {dflt : Val} (hd : dflt = numList [0, 0])
    (h : (d k = some dflt ∧ True) ∨ ∃ l : List ℚ, d k = some (numList l) ∧ l.length = 2) : ∃ v q, d k = some v ∧ rangeOf v = .ok q := by
  rcases h with ⟨h, -⟩ | ⟨l, h, hl⟩
  · subst hd
    exact ⟨_, _, h, rangeOf_list 0 0⟩
  · obtain ⟨a, b, rfl⟩ := List.length_eq_two.1 hl
    exact ⟨_, _, h, rangeOf_list a b⟩

/-! ### Reading of the sections -/

/-- The inside of what was read can be made. -/
structure InsideFits (d : Dict) (i : InsideRead) : Prop where
  struct : i.struct ≠ "flat"
  facies : i.facies ≠ []
  follow : Followers d → Successors i.facies i.altFacies

theorem natVal_inj {m n : ℕ} (h : natVal m = natVal n) : m = n := by
  simpa [natVal] using h

theorem facies_read {C : Convs} {hydro : List Val} {raw : Dict} {e : Element} (h : parseElement C hydro raw = .ok e) :
    ∃ fv fs av alt, e.dict "facies" = some fv ∧ wholesOf fv = .ok fs ∧ e.dict "altfacies" = some av ∧ altOf av = .ok alt ∧ fs ≠ [] ∧
      (Followers e.dict → Successors fs alt) := by
  obtain ⟨n, hn, ⟨v, hv, ns, rfl, hlen, -⟩, hA, -, -⟩ := C49_element C hydro raw e h
  have hne : (ns.map fun n : ℕ => (n : ℤ)) ≠ [] := by
    intro h0
    rw [List.map_eq_nil_iff] at h0
    subst h0
    simp at hlen
    omega
  rcases hA with ha | ⟨l, ha, hl, hrows⟩
  · exact ⟨_, _, _, none, hv, wholesOf_nums ns, ha, rfl, hne, fun _ rows hr => by cases hr⟩
  · obtain ⟨rows, hr⟩ := mapPy_total (f := wholesOf) (l := l) fun v hv => by
      obtain ⟨m, ms, rfl, -⟩ := hrows v hv
      exact ⟨_, wholesOf_nums ms⟩
    refine ⟨_, _, _, some rows, hv, wholesOf_nums ns, ha, ?_, hne, fun hfol rows' hr' => ?_⟩
    · unfold altOf
      rw [if_neg (by simp)]
      exact (of_ok (b := l) rfl).trans ((of_ok hr).trans rfl)
    · cases hr'
      refine ⟨by rw [mapPy_len hr, hl, List.length_map, hlen], fun row hrow => ?_⟩
      obtain ⟨v, hvl, hvr⟩ := mapPy_from hr hrow
      obtain ⟨m, ms, rfl, -⟩ := hrows v hvl
      rw [wholesOf_nums] at hvr
      cases hvr
      obtain ⟨h1, h2⟩ := hfol _ _ hv ha _ hvl
      refine ⟨fun h0 => h1 (by rw [List.map_eq_nil_iff] at h0 ⊢; exact h0), fun f hf => ?_⟩
      obtain ⟨k, hk, rfl⟩ := List.mem_map.1 hf
      obtain ⟨k', hk', heq⟩ := List.mem_map.1 (h2 (natVal k) (List.mem_map_of_mem hk))
      rw [natVal_inj heq] at hk'
      exact List.mem_map_of_mem hk'

theorem dipset_mem {C : Convs} {g : List Char} {opts : List Opt} (h : geometryOpts C g = .ok opts) :
    ({ name := "dipset_dist", kind := .scalar C.float, isOptional := true } : Opt) ∈ opts := by
  unfold geometryOpts at h
  split_ifs at h <;> cases h <;> simp [optsTrough, optsChannel, optsSheet]

theorem inside_read {C : Convs} (hfloat : ∀ t a, C.float t = .ok a → ∃ q, a = .num q) {hydro : List Val} {raw : Dict} {e : Element}
    (h : parseElement C hydro raw = .ok e) (hl : ∀ k ∈ objectLists, ∀ t, raw k = some (.leaf (.text t)) → WellWritten t) :
    ∃ i, readInside e.dict = .ok i ∧ InsideFits e.dict i := by
  obtain ⟨g, opts, d0, cm, hg, ho, hp, -, hk, -⟩ := element_kept h
  obtain ⟨hn, more, hmore⟩ := geometryOpts_form ho
  obtain ⟨fv, fs, av, alt, hfv, hfs, hav, halt, hne, hfol⟩ := facies_read h
  obtain ⟨t, -, hst⟩ := structure_kept ho hp
  rw [← hk _ (by decide) (by decide) (by decide) (by decide)] at hst
  have hsome : ∃ s, structOf (.leaf (.text t)) = .ok s ∧ s ≠ "flat" := by
    refine ⟨_, rfl, ?_⟩
    split_ifs with hf
    · decide
    · intro h0
      apply hf
      rw [← h0]
      simp
  obtain ⟨s, hs, hsf⟩ := hsome
  have range : ∀ k, k = "dip" ∨ k = "azimuth" → ∃ v q, d0 k = some v ∧ rangeOf v = .ok q := by
    intro k hkk
    have ho : ({ name := k, kind := .list C.float (.num (2 : ℕ)), isOptional := true, default := .node [.leaf (.num 0), .leaf (.num 0)] } : Opt) ∈ opts := by
      rw [hmore]
      rcases hkk with rfl | rfl <;> simp [optsElement]
    have := list_nums hfloat hn hp ho (n := 2) rfl rfl (hl k (by rcases hkk with rfl | rfl <;> simp [objectLists]))
    exact range_option rfl (this.imp_left fun h => ⟨h.1, trivial⟩)
  obtain ⟨zv, az, hzv, haz⟩ := range "azimuth" (Or.inr rfl)
  obtain ⟨pv, dp, hpv, hdp⟩ := range "dip" (Or.inl rfl)
  have hdist : ∃ v q, d0 "dipset_dist" = some v ∧ distOf v = .ok q := by
    rcases scalar_num hfloat hn hp (dipset_mem ho) rfl rfl with ⟨h, -⟩ | ⟨q, h⟩
    · exact ⟨_, _, h, rfl⟩
    · exact ⟨_, _, h, rfl⟩
  obtain ⟨dv, dd, hdv, hdd⟩ := hdist
  rw [← hk _ (by decide) (by decide) (by decide) (by decide)] at hzv hpv hdv
  refine ⟨⟨s, fs, alt, az, dp, dd⟩, ?_, hsf, hne, hfol⟩
  refine (of_ok (dget_ok.2 hst)).trans ?_
  refine (of_ok hs).trans ?_
  refine (of_ok (dget_ok.2 hfv)).trans ?_
  refine (of_ok hfs).trans ?_
  refine (of_ok (dget_ok.2 hav)).trans ?_
  refine (of_ok halt).trans ?_
  refine (of_ok (dget_ok.2 hzv)).trans ?_
  refine (of_ok haz).trans ?_
  refine (of_ok (dget_ok.2 hpv)).trans ?_
  refine (of_ok hdp).trans ?_
  refine (of_ok (dget_ok.2 hdv)).trans ?_
  exact (of_ok hdd).trans rfl

/-- A scalar option of a section, required or with a number as default. -/
theorem num_read {conv : List Char → Except PyErr Atom} (hc : ∀ t a, conv t = .ok a → ∃ q, a = .num q) {opts : List Opt} (hw : WellNamed opts)
    {raw d : Dict} (h : parseSection opts raw = .ok d) {o : Opt} (ho : o ∈ opts) (hk : o.kind = .scalar conv) (ha : o.alternatives = [])
    (hd : o.isOptional = false ∨ ∃ q, o.default = numVal q) : ∃ q, d o.name = some (numVal q) := by
  rcases scalar_num hc hw h ho hk ha with ⟨h1, h2⟩ | h
  · rcases hd with hd | ⟨q, hd⟩
    · rw [hd] at h2
      cases h2
    · exact ⟨q, by rw [h1, hd]⟩
  · exact h

/-- The section of an element of known geometry. -/
theorem element_opts {C : Convs} {hydro : List Val} {raw : Dict} {e : Element} (h : parseElement C hydro raw = .ok e) {s : String}
    (hg : written e.dict "geometry" s) : ∃ opts d0, geometryOpts C s.toList = .ok opts ∧ WellNamed opts ∧ parseSection opts raw = .ok d0 ∧
      (∀ k, k ≠ "facies" → k ≠ "altfacies" → k ≠ "bg_facies" → k ≠ "lag_facies" → e.dict k = d0 k) ∧
      raw "geometry" = some (.leaf (.text s.toList)) := by
  obtain ⟨g, opts, d0, cm, hgo, ho, hp, -, hk, -⟩ := element_kept h
  obtain ⟨hn, more, hmore⟩ := geometryOpts_form ho
  obtain ⟨gt, hg1, hg2⟩ := required_scalar (C := C) hn hp (o := { name := "geometry", kind := .scalar C.str, valid := oneOf ["trough", "channel", "sheet"] })
    (by rw [hmore]; simp [optsElement]) rfl rfl rfl
  have hg1' : raw "geometry" = some (.leaf (.text gt)) := hg1
  have hgg := element_geometry h hg1'
  unfold written at hg
  rw [hgg] at hg
  cases hg
  have : g = s.toList := by
    unfold geometryOf at hgo
    rw [hg1'] at hgo
    cases hgo
    rfl
  subst this
  exact ⟨opts, d0, ho, hn, hp, hk, hg1'⟩

theorem erosive_read {C : Convs} (hfloat : ∀ t a, C.float t = .ok a → ∃ q, a = .num q) {hydro : List Val} {raw : Dict} {e : Element}
    (h : parseElement C hydro raw = .ok e) {s : String} (hs : s = "trough" ∨ s = "channel") (hg : written e.dict "geometry" s)
    (ht : ∀ t, raw "size_ztrend" = some (.leaf (.text t)) → WellWritten t) : ∃ i, readErosive e.dict = .ok i := by
  obtain ⟨opts, d0, ho, hn, hp, hk, hraw⟩ := element_opts h hg
  obtain ⟨-, more, hmore⟩ := geometryOpts_form ho
  have hin : ∀ o ∈ [({ name := "agg", kind := .scalar C.float } : Opt),
      { name := "buffer", kind := .scalar C.float, isOptional := true, default := .leaf (.num 0) },
      { name := "lag_height", kind := .scalar C.float, isOptional := true, default := .leaf (.num 0) },
      { name := "width", kind := .scalar C.float }, { name := "depth", kind := .scalar C.float }], o ∈ opts := by
    intro o hmem
    rcases hs with rfl | rfl <;> unfold geometryOpts at ho
    · rw [if_pos rfl] at ho
      cases ho
      simp only [List.mem_cons, List.not_mem_nil, or_false] at hmem
      rcases hmem with rfl | rfl | rfl | rfl | rfl <;> simp [optsTrough, optsErosive]
    · rw [if_neg (by decide), if_pos rfl] at ho
      cases ho
      simp only [List.mem_cons, List.not_mem_nil, or_false] at hmem
      rcases hmem with rfl | rfl | rfl | rfl | rfl <;> simp [optsChannel, optsErosive]
  obtain ⟨q1, h1⟩ := num_read hfloat hn hp (hin { name := "agg", kind := .scalar C.float } (by simp)) rfl rfl (Or.inl rfl)
  obtain ⟨q2, h2⟩ := num_read hfloat hn hp
    (hin { name := "buffer", kind := .scalar C.float, isOptional := true, default := .leaf (.num 0) } (by simp)) rfl rfl (Or.inr ⟨0, rfl⟩)
  obtain ⟨q3, h3⟩ := num_read hfloat hn hp
    (hin { name := "lag_height", kind := .scalar C.float, isOptional := true, default := .leaf (.num 0) } (by simp)) rfl rfl (Or.inr ⟨0, rfl⟩)
  obtain ⟨q4, h4⟩ := num_read hfloat hn hp (hin { name := "width", kind := .scalar C.float } (by simp)) rfl rfl (Or.inl rfl)
  obtain ⟨q5, h5⟩ := num_read hfloat hn hp (hin { name := "depth", kind := .scalar C.float } (by simp)) rfl rfl (Or.inl rfl)
  obtain ⟨vt, tr, ht1, ht2⟩ := trend_option hfloat hn hp "size_ztrend" [_, _, _, _] _ (by rw [hmore]; rfl) ht
  simp only at h1 h2 h3 h4 h5
  rw [← hk _ (by decide) (by decide) (by decide) (by decide)] at h1 h2 h3 h4 h5 ht1
  obtain ⟨n, -, -, -, -, hlag⟩ := C49_element C hydro raw e h
  obtain ⟨lv, hlv, hlf⟩ := hlag (by rw [hraw]; rcases hs with rfl | rfl <;> decide)
  obtain ⟨z, hz⟩ : ∃ z, wholeOf lv = .ok z := by
    rcases hlf with rfl | ⟨i, -, rfl⟩
    · exact ⟨-1, by simp [wholeOf]⟩
    · exact ⟨i, by simp [wholeOf, natVal]⟩
  refine ⟨⟨q3, z, q1, q2, q4, q5, tr⟩, ?_⟩
  refine (of_ok (dget_ok.2 h3)).trans ?_
  refine (of_ok (b := q3) rfl).trans ?_
  refine (of_ok (dget_ok.2 hlv)).trans ?_
  refine (of_ok hz).trans ?_
  refine (of_ok (dget_ok.2 h1)).trans ?_
  refine (of_ok (b := q1) rfl).trans ?_
  refine (of_ok (dget_ok.2 h2)).trans ?_
  refine (of_ok (b := q2) rfl).trans ?_
  refine (of_ok (dget_ok.2 h4)).trans ?_
  refine (of_ok (b := q4) rfl).trans ?_
  refine (of_ok (dget_ok.2 h5)).trans ?_
  refine (of_ok (b := q5) rfl).trans ?_
  refine (of_ok (dget_ok.2 ht1)).trans ?_
  exact (of_ok ht2).trans rfl

theorem pointsOf_table {ll : List (List ℚ)} (h : ∀ l ∈ ll, l.length = 3) : ∃ r, pointsOf (numTable ll) = .ok r := by
  have hp : ∃ pts, mapPy pointOf (ll.map numList) = .ok pts := by
    refine mapPy_total fun v hv => ?_
    obtain ⟨l, hl, rfl⟩ := List.mem_map.1 hv
    obtain ⟨a, b, c, rfl⟩ := List.length_eq_three.1 (h l hl)
    exact ⟨(a, b, c), (of_ok (numsOf_list _)).trans rfl⟩
  obtain ⟨pts, hpts⟩ := hp
  refine ⟨some pts, ?_⟩
  unfold pointsOf
  rw [if_neg (by simp [numTable])]
  exact (of_ok (b := ll.map numList) rfl).trans ((of_ok hpts).trans rfl)

theorem migrateOf_list {l : List ℚ} (h : l.length = 4) : ∃ a b c d, l = [a, b, c, d] ∧ migrateOf (numList l) = .ok (some ((a, b), (c, d))) := by
  obtain ⟨a, b, c, d, rfl⟩ : ∃ a b c d, l = [a, b, c, d] := by
    match l, h with
    | [a, b, c, d], _ => exact ⟨a, b, c, d, rfl⟩
  refine ⟨a, b, c, d, rfl, ?_⟩
  unfold migrateOf
  rw [if_neg (by simp)]
  exact (of_ok (numsOf_list _)).trans rfl

/-- A trough section can be read. -/
theorem trough_read {C : Convs} (hfloat : ∀ t a, C.float t = .ok a → ∃ q, a = .num q) {hydro : List Val} {raw : Dict} {e : Element}
    (h : parseElement C hydro raw = .ok e) (hg : written e.dict "geometry" "trough")
    (ht : ∀ t, raw "size_ztrend" = some (.leaf (.text t)) → WellWritten t)
    (hl : ∀ k ∈ objectLists, ∀ t, raw k = some (.leaf (.text t)) → WellWritten t) :
    ∃ p, readTrough e.dict = .ok p ∧ InsideFits e.dict p.inside ∧ 
      (∀ m, p.migrate = some m → e.dict "migrate" = some (numList [m.1.1, m.1.2, m.2.1, m.2.2])) ∧
      ∃ s ∈ ["massive", "dip", "bulb", "bulb_sets", "random", "flat"], written e.dict "structure" s := by
  obtain ⟨i, hi, hfits⟩ := inside_read hfloat h hl
  obtain ⟨er, her⟩ := erosive_read hfloat h (Or.inl rfl) hg ht
  obtain ⟨opts, d0, ho, hn, hp, hk, hraw⟩ := element_opts h hg
  have hopts : opts = optsTrough C := by
    unfold geometryOpts at ho
    rw [if_pos rfl] at ho
    exact (Except.ok.inj ho).symm
  subst hopts
  obtain ⟨s, hs, hsw⟩ := required_valid hn (C := C) hp (o := { name := "structure", kind := .scalar C.str, valid := oneOf ["massive", "dip", "bulb", "bulb_sets", "random", "flat"] })
    (by simp [optsTrough]) rfl rfl rfl
  have hbd : ∃ v q, d0 "bulbset_dist" = some v ∧ distOf v = .ok q := by
    rcases scalar_num hfloat hn hp (o := { name := "bulbset_dist", kind := .scalar C.float, isOptional := true }) (by simp [optsTrough]) rfl rfl
      with ⟨h, -⟩ | ⟨q, h⟩
    · exact ⟨_, _, h, rfl⟩
    · exact ⟨_, _, h, rfl⟩
  obtain ⟨bv, bd, hbv, hbd⟩ := hbd
  obtain ⟨q1, h1⟩ := num_read hfloat hn hp (o := { name := "length", kind := .scalar C.float }) (by simp [optsTrough]) rfl rfl (Or.inl rfl)
  obtain ⟨q2, h2⟩ := num_read hfloat hn hp (o := { name := "trough_density", kind := .scalar C.float }) (by simp [optsTrough]) rfl rfl (Or.inl rfl)
  have hpf : ∃ v q, d0 "paleoflow" = some v ∧ rangeOf v = .ok q := by
    rcases list_nums hfloat hn hp (o := { name := "paleoflow", kind := .list C.float (.num (2 : ℕ)) }) (by simp [optsTrough]) (n := 2) rfl rfl
      (hl _ (by simp [objectLists])) with ⟨-, h⟩ | ⟨l, h, hlen⟩
    · cases h
    · obtain ⟨a, b, rfl⟩ := List.length_eq_two.1 hlen
      exact ⟨_, _, h, rangeOf_list a b⟩
  obtain ⟨pv, pf, hpv, hpf⟩ := hpf
  have hmi : ∃ v m, d0 "migrate" = some v ∧ migrateOf v = .ok m ∧ ∀ x, m = some x → v = numList [x.1.1, x.1.2, x.2.1, x.2.2] := by
    rcases list_nums hfloat hn hp (o := { name := "migrate", kind := .list C.float (.num (4 : ℕ)), isOptional := true }) (by simp [optsTrough]) (n := 4) rfl rfl
      (hl _ (by simp [objectLists])) with ⟨h, -⟩ | ⟨l, h, hlen⟩
    · exact ⟨_, none, h, rfl, by simp⟩
    · obtain ⟨a, b, c, d, rfl, hm⟩ := migrateOf_list hlen
      exact ⟨_, _, h, hm, fun x hx => by cases hx; rfl⟩
  obtain ⟨mv, m, hmv, hm, hmx⟩ := hmi
  have hte : ∃ v r, d0 "te_xyz" = some v ∧ pointsOf v = .ok r := by
    rcases table_nums hfloat hn hp (o := { name := "te_xyz", kind := .list C.float (.dims [.num (-1), .num (3 : ℕ)]), isOptional := true }) (by simp [optsTrough]) (n := 3) rfl rfl
      (hl _ (by simp [objectLists])) with ⟨h, -⟩ | ⟨l, h, hlen⟩
    · exact ⟨_, none, h, rfl⟩
    · obtain ⟨r, hr⟩ := pointsOf_table hlen
      exact ⟨_, _, h, hr⟩
  obtain ⟨tv, te, htv, hte⟩ := hte
  simp only at h1 h2 hsw
  unfold written at hsw
  rw [← hk _ (by decide) (by decide) (by decide) (by decide)] at h1 h2 hbv hpv hmv htv hsw
  refine ⟨⟨i, er, bd, q1, q2, pf, m, te⟩, ?_, hfits, fun x hx => ?_, s, hs, hsw⟩
  · refine (of_ok hi).trans ?_
    refine (of_ok her).trans ?_
    refine (of_ok (dget_ok.2 hbv)).trans ?_
    refine (of_ok hbd).trans ?_
    refine (of_ok (dget_ok.2 h1)).trans ?_
    refine (of_ok (b := q1) rfl).trans ?_
    refine (of_ok (dget_ok.2 h2)).trans ?_
    refine (of_ok (b := q2) rfl).trans ?_
    refine (of_ok (dget_ok.2 hpv)).trans ?_
    refine (of_ok hpf).trans ?_
    refine (of_ok (dget_ok.2 hmv)).trans ?_
    refine (of_ok hm).trans ?_
    refine (of_ok (dget_ok.2 htv)).trans ?_
    exact (of_ok hte).trans rfl
  · rw [hmv, hmx x hx]

/-- A channel section can be read. -/
theorem channel_read {C : Convs} (hfloat : ∀ t a, C.float t = .ok a → ∃ q, a = .num q) (hint : ∀ t a, C.int t = .ok a → ∃ n : ℤ, a = .num n)
    {hydro : List Val} {raw : Dict} {e : Element} (h : parseElement C hydro raw = .ok e) (hg : written e.dict "geometry" "channel")
    (ht : ∀ t, raw "size_ztrend" = some (.leaf (.text t)) → WellWritten t)
    (hl : ∀ k ∈ objectLists, ∀ t, raw k = some (.leaf (.text t)) → WellWritten t) :
    ∃ p, readChannel e.dict = .ok p ∧ InsideFits e.dict p.inside ∧ e.dict "ds" = some (numVal p.ds) := by
  obtain ⟨i, hi, hfits⟩ := inside_read hfloat h hl
  obtain ⟨er, her⟩ := erosive_read hfloat h (Or.inr rfl) hg ht
  obtain ⟨opts, d0, ho, hn, hp, hk, hraw⟩ := element_opts h hg
  have hopts : opts = optsChannel C := by
    unfold geometryOpts at ho
    rw [if_neg (by decide), if_pos rfl] at ho
    exact (Except.ok.inj ho).symm
  subst hopts
  obtain ⟨q1, h1⟩ := num_read hfloat hn hp (o := { name := "h", kind := .scalar C.float }) (by simp [optsChannel]) rfl rfl (Or.inl rfl)
  obtain ⟨q2, h2⟩ := num_read hfloat hn hp (o := { name := "k", kind := .scalar C.float }) (by simp [optsChannel]) rfl rfl (Or.inl rfl)
  obtain ⟨q3, h3⟩ := num_read hfloat hn hp (o := { name := "ds", kind := .scalar C.float }) (by simp [optsChannel]) rfl rfl (Or.inl rfl)
  obtain ⟨q4, h4⟩ := num_read hfloat hn hp (o := { name := "eps_factor", kind := .scalar C.float }) (by simp [optsChannel]) rfl rfl (Or.inl rfl)
  obtain ⟨q5, h5⟩ := num_read hfloat hn hp (o := { name := "flow_angle", kind := .scalar C.float, isOptional := true, default := .leaf (.num 0) })
    (by simp [optsChannel]) rfl rfl (Or.inr ⟨0, rfl⟩)
  obtain ⟨q6, h6⟩ := num_read hfloat hn hp (o := { name := "mig", kind := .scalar C.float, isOptional := true, default := .leaf (.num 0) })
    (by simp [optsChannel]) rfl rfl (Or.inr ⟨0, rfl⟩)
  have hno : ∃ n : ℤ, d0 "channel_no" = some (numVal n) := by
    obtain ⟨pre, post, hpp⟩ := List.append_of_mem (a := ({ name := "channel_no", kind := .scalar C.int } : Opt)) (l := optsChannel C) (by simp [optsChannel])
    obtain ⟨ctx, r, v, -, hcx, hv, hd, -⟩ := section_required hn hp pre post _ hpp rfl
    obtain ⟨t, a, -, hta, rfl⟩ := scalar_value rfl hcx hv
    obtain ⟨n, rfl⟩ := hint t a hta
    exact ⟨n, hd⟩
  obtain ⟨n, hno⟩ := hno
  simp only at h1 h2 h3 h4 h5 h6
  rw [← hk _ (by decide) (by decide) (by decide) (by decide)] at h1 h2 h3 h4 h5 h6 hno
  refine ⟨⟨i, er, n, q1, q2, q3, q4, q5, q6⟩, ?_, hfits, h3⟩
  refine (of_ok hi).trans ?_
  refine (of_ok her).trans ?_
  refine (of_ok (dget_ok.2 hno)).trans ?_
  refine (of_ok (b := n) (by simp [wholeOf])).trans ?_
  refine (of_ok (dget_ok.2 h1)).trans ?_
  refine (of_ok (b := q1) rfl).trans ?_
  refine (of_ok (dget_ok.2 h2)).trans ?_
  refine (of_ok (b := q2) rfl).trans ?_
  refine (of_ok (dget_ok.2 h3)).trans ?_
  refine (of_ok (b := q3) rfl).trans ?_
  refine (of_ok (dget_ok.2 h4)).trans ?_
  refine (of_ok (b := q4) rfl).trans ?_
  refine (of_ok (dget_ok.2 h5)).trans ?_
  refine (of_ok (b := q5) rfl).trans ?_
  refine (of_ok (dget_ok.2 h6)).trans ?_
  exact (of_ok (b := q6) rfl).trans rfl

/-! ### Troughs -/

theorem makeTroughs_total {p : TroughParams} {z0 lz : ℝ} {draws : ℕ → TroughDraw}
    (h : ∀ n x y z, ∃ t, Trough.new p (draws n) x y z (troughAxes p z0 lz z).1 (troughAxes p z0 lz z).2.1 (troughAxes p z0 lz z).2.2
      (draws n).alpha = .ok t) (n : ℕ) (te : List (ℝ × ℝ × ℝ)) : ∃ ts, makeTroughs p z0 lz draws n te = .ok ts := by
  induction te generalizing n with
  | nil => exact ⟨[], rfl⟩
  | cons q te ih =>
    obtain ⟨t, ht⟩ := h n q.1 q.2.1 q.2.2
    obtain ⟨ts, hts⟩ := ih (n + 1)
    exact ⟨t :: ts, (of_ok ht).trans ((of_ok hts).trans rfl)⟩

theorem has_num {d : Dict} {k : String} {P : ℚ → Prop} (h : HasNumber d k P) {q : ℚ} (hq : d k = some (numVal q)) : P q := by
  obtain ⟨q', h1, h2⟩ := h
  rw [hq] at h1
  cases h1
  exact h2

theorem written_eq {d : Dict} {k s s' : String} (h : written d k s) (h' : written d k s') : s = s' := by
  unfold written at h h'
  rw [h] at h'
  simp only [Option.some.injEq, Tree.leaf.injEq, Atom.text.injEq] at h'
  exact String.toList_injective h'

theorem struct_written {d : Dict} {i : InsideRead} (hi : InsideFrom d i) {l : List String} (h : i.struct ∈ l) (hl : "massive" ∉ l) :
    StructureIn d l := by
  rcases hi.struct with ⟨-, hm⟩ | hw
  · rw [hm] at h
    exact absurd h hl
  · exact ⟨_, h, hw⟩

/-- Troughs of a placeable section can be placed. -/
theorem placeTroughs_total {d : Dict} {p : TroughRead} (hp : TroughFrom d p) (hf : InsideFits d p.inside)
    (hm : ∀ m, p.migrate = some m → d "migrate" = some (numList [m.1.1, m.1.2, m.2.1, m.2.2]))
    (hst : ∃ s ∈ ["massive", "dip", "bulb", "bulb_sets", "random", "flat"], written d "structure" s) (hpl : PlaceableTrough d)
    {g : Grid} (hx : 0 < g.lx) (hy : 0 < g.ly) {r : ObjRandoms} (hu : UniformObjs r) (b t : Surface ℝ) :
    ∃ ts, placeTroughs p g r b t = .ok ts := by
  have hagg : 0 < p.erosive.agg := has_num (hpl.size "agg" (by simp)) hp.erosive.agg
  have hwid : 0 < p.erosive.width := has_num (hpl.size "width" (by simp)) hp.erosive.width
  have hdep : 0 < p.erosive.depth := has_num (hpl.size "depth" (by simp)) hp.erosive.depth
  have hlen : 0 < p.length := has_num (hpl.size "length" (by simp)) hp.length
  have hden : 0 ≤ p.density := has_num hpl.density hp.density
  have htr : p.erosive.sizeZtrend = none := hp.erosive.trend.1 hpl.trend
  have hstruct : p.inside.struct ∈ ["massive", "dip", "bulb", "bulb_sets", "random"] := by
    rcases hp.inside.struct with ⟨-, hm⟩ | hw
    · rw [hm]
      simp
    · obtain ⟨s, hs, hs'⟩ := hst
      rw [written_eq hw hs']
      have := hf.struct
      rw [written_eq hw hs'] at this
      simp only [List.mem_cons, List.not_mem_nil, or_false] at hs ⊢
      tauto
  have hguard : troughGuard p g r (planesZ p.params b.zmax t.zmean).length = .ok () := by
    unfold troughGuard
    split_ifs with h1 h2 h3
    · rfl
    · exact absurd h2 hagg.ne'
    · have : (0 : ℝ) ≤ p.density * g.lx * g.ly := mul_nonneg (mul_nonneg (by exact_mod_cast hden) hx.le) hy.le
      exact absurd h3.2 (not_lt.2 this)
    · split
      · rename_i m hmm
        obtain ⟨m1, m2⟩ := hpl.moves _ _ _ _ (hm m hmm)
        rw [if_neg]
        rintro ⟨-, -, h | h⟩
        · exact absurd h (not_lt.2 (by exact_mod_cast m1))
        · exact absurd h (not_lt.2 (by exact_mod_cast m2))
      · rfl
  have hte : ∃ te, (match p.params.teXyz with
      | none => troughPositions p.params (r.place p g) b.zmax t.zmean
      | some te => .ok te) = .ok te := by
    split
    · have hagg' : 0 < p.params.agg := by
        show (0 : ℝ) < p.erosive.agg
        exact_mod_cast hagg
      cases hmi : p.params.migrate with
      | false =>
        obtain ⟨L, -, h⟩ := C24_positions (d := r.place p g) (bz := b.zmax) (tz := t.zmean) hagg' hmi
        exact ⟨_, h⟩
      | true =>
        obtain ⟨L, -, h⟩ := C24_migration (d := r.place p g) (bz := b.zmax) (tz := t.zmean) hagg' hmi
        exact ⟨_, h⟩
    · exact ⟨_, rfl⟩
  obtain ⟨te, hte⟩ := hte
  have hnew : ∀ n x y z, ∃ t, Trough.new p.params (r.trough p n) x y z (troughAxes p.params g.z0 g.lz z).1 (troughAxes p.params g.z0 g.lz z).2.1
      (troughAxes p.params g.z0 g.lz z).2.2 (r.trough p n).alpha = .ok t := by
    intro n x y z
    have hax : troughAxes p.params g.z0 g.lz z = ((p.length : ℝ) * 1 / 2, (p.erosive.width : ℝ) * 1 / 2, (p.erosive.depth : ℝ) * 1) := by
      unfold troughAxes TroughRead.params
      rw [htr]
      rfl
    have l' : (0 : ℝ) < p.length := by exact_mod_cast hlen
    have d' : (0 : ℝ) < p.erosive.depth := by exact_mod_cast hdep
    rw [hax]
    have hdip : p.inside.struct ∈ ["dip", "random"] → 0 < p.inside.dipsetDist := by
      intro h
      obtain ⟨q, hq, hq'⟩ := hpl.dipsets (struct_written hp.inside h (by decide))
      rw [hp.inside.dist q hq]
      exact hq'
    refine C74_accepts hstruct hf.facies (by simp only; linarith) (fun h => ?_) (by simp only; linarith) ?_ (fun h => ?_) (fun h => ?_)
    · exact hf.follow (hpl.followers (struct_written hp.inside h (by decide)))
    · simp only [ObjRandoms.trough]
      split
      · rename_i hk
        have hin : p.inside.struct ∈ ["dip", "random"] := by
          unfold structureNumber at hk
          split_ifs at hk <;> simp_all
        unfold uniform
        have := mul_nonneg (show (0 : ℝ) ≤ p.inside.dipsetDist by exact_mod_cast (hdip hin).le) (hu.shift n).1
        linarith
      · exact (hu.shift n).1
    · have := hdip h
      show (0 : ℝ) < p.inside.dipsetDist
      exact_mod_cast this
    · obtain ⟨q, hq, hq'⟩ := hpl.bulbsets (struct_written hp.inside h (by decide))
      show (0 : ℝ) < p.bulbsetDist
      rw [hp.dist q hq]
      exact_mod_cast hq'
  obtain ⟨ts, hts⟩ := makeTroughs_total hnew 0 te
  refine ⟨ts, (of_ok hguard).trans ?_⟩
  unfold generateTroughs
  cases hx : p.params.teXyz with
  | none =>
    rw [hx] at hte
    exact (of_ok hte).trans hts
  | some te' =>
    rw [hx] at hte
    cases hte
    exact hts

/-! ### Channels -/

theorem domainLength_pos {g : Grid} (hx : 0 < g.lx) (hy : 0 < g.ly) (ang : ℝ) : 0 < domainLength g ang := by
  unfold domainLength
  by_cases h : sin ang = 0
  · have hc : cos ang ≠ 0 := by
      intro h0
      have := sin_sq_add_cos_sq ang
      rw [h, h0] at this
      norm_num at this
    have := abs_pos.2 (mul_ne_zero hx.ne' hc)
    have := abs_nonneg (g.ly * sin ang)
    linarith
  · have := abs_pos.2 (mul_ne_zero hy.ne' h)
    have := abs_nonneg (g.lx * cos ang)
    linarith

theorem curve_total {p : ChannelParams} {g : Grid} (hx : 0 < g.lx) (hy : 0 < g.ly) {h k ds eps ang : ℝ} (hds : 0 < ds) {first : ℕ → ℝ}
    {mig : Option (ℕ → ℕ → ℝ)} {noise : ℕ → ℕ → ℝ} (n : ℕ) (w : ℝ) : ∃ l, channelCurve p g h k ds eps ang first mig noise n w = .ok l := by
  have hpos : 0 < (⌈(domainLength g ang * 2 - 0) / (ds + 1 / 10 ^ 10)⌉).toNat := by
    have : 0 < ⌈(domainLength g ang * 2 - 0) / (ds + 1 / 10 ^ 10)⌉ :=
      Int.ceil_pos.2 (div_pos (by linarith [domainLength_pos hx hy ang]) (by positivity))
    omega
  have hlen := arange_length 0 (domainLength g ang * 2) (ds + 1 / 10 ^ 10)
  have h0 : (arange 0 (domainLength g ang * 2) (ds + 1 / 10 ^ 10)).getD 0 0 = 0 := by
    rw [List.getD_eq_getElem?_getD, arange_getElem?, if_pos hpos]
    simp
  have hne : arange 0 (domainLength g ang * 2) (ds + 1 / 10 ^ 10) ≠ [] := by
    intro h0
    rw [h0] at hlen
    simp only [List.length_nil] at hlen
    omega
  unfold channelCurve fergusonCurve fergusonDirections
  obtain ⟨l, hl⟩ := C31_success (yc := (List.range (arange 0 (domainLength g ang * 2) (ds + 1 / 10 ^ 10)).length).map (theta (noise n) eps k h))
    hne h0 (spacing := 1 / 10) (by norm_num) (by norm_num)
  simp only [hl, Option.getD_some]
  exact ⟨_, rfl⟩

theorem curveLength_nonneg (l : List CPoint) : 0 ≤ curveLength l := by
  induction l with
  | nil => simp [curveLength]
  | cons p l ih =>
    cases l with
    | nil => simp [curveLength]
    | cons q l =>
      rw [curveLength]
      have := Real.sqrt_nonneg ((q.x - p.x) ^ 2 + (q.y - p.y) ^ 2)
      linarith

theorem channelNew_total {p : ChannelParams} {d : ChannelDraw} {g : Grid} {pts : List CPoint} {z w depth : ℝ} (hw : w ≠ 0) (hf : p.facies ≠ [])
    (hdip : p.struct = "dip" → 0 < p.dipsetDist ∧ Successors p.facies p.altFacies ∧ 0 ≤ sin (d.dip * π / 180) ∧ 0 ≤ d.shift) (hdepth : 0 ≤ depth) :
    ∃ c, Channel.new p d g pts z w depth = .ok c := by
  unfold Channel.new
  rw [if_neg hw]
  dsimp only
  by_cases hs : p.struct = "dip"
  · rw [if_pos hs]
    obtain ⟨h1, h2, h3, h4⟩ := hdip hs
    obtain ⟨tb, htb⟩ := altFacies_total hf h2 d.layers
      (num := pyInt ((⌈curveLength pts * sin (d.dip * π / 180) / p.dipsetDist + d.shift⌉ : ℝ) + (⌈depth / p.dipsetDist⌉ : ℝ)) + 10) (by
        have e : ((⌈curveLength pts * sin (d.dip * π / 180) / p.dipsetDist + d.shift⌉ : ℝ) + (⌈depth / p.dipsetDist⌉ : ℝ)) =
          ((⌈curveLength pts * sin (d.dip * π / 180) / p.dipsetDist + d.shift⌉ + ⌈depth / p.dipsetDist⌉ : ℤ) : ℝ) := by push_cast; rfl
        rw [e, pyInt_intCast]
        have a1 : 0 ≤ ⌈curveLength pts * sin (d.dip * π / 180) / p.dipsetDist + d.shift⌉ :=
          Int.ceil_nonneg (add_nonneg (div_nonneg (mul_nonneg (curveLength_nonneg _) h3) h1.le) h4)
        have a2 : 0 ≤ ⌈depth / p.dipsetDist⌉ := Int.ceil_nonneg (div_nonneg hdepth h1.le)
        omega)
    rw [← layerTable_eq h1.ne'] at htb
    exact ⟨_, (of_ok htb).trans rfl⟩
  · rw [if_neg hs]
    obtain ⟨f, hf'⟩ := choice_total hf d.facies
    exact ⟨_, (of_ok hf').trans rfl⟩

theorem channelsOnLevel_total {p : ChannelParams} {g : Grid} {draws : ℕ → ChannelDraw} {curve : ℕ → ℝ → Except PyErr (List CPoint)} {z : ℝ}
    (hc : ∀ n w, ∃ l, curve n w = .ok l)
    (h : ∀ n pts, ∃ c, Channel.new p (draws n) g pts z (p.width * channelFactor p g z) (p.depth * channelFactor p g z) = .ok c) (m n : ℕ) :
    ∃ cs, channelsOnLevel p g draws curve z m n = .ok cs := by
  induction m generalizing n with
  | zero => exact ⟨[], rfl⟩
  | succ m ih =>
    obtain ⟨l, hl⟩ := hc n (p.width * channelFactor p g z)
    obtain ⟨c, hc'⟩ := h n l
    obtain ⟨cs, hcs⟩ := ih (n + 1)
    exact ⟨c :: cs, (of_ok hl).trans ((of_ok hc').trans ((of_ok hcs).trans rfl))⟩

theorem channelLevels_quiet {p : ChannelParams} {g : Grid} {draws : ℕ → ChannelDraw} {curve : ℕ → ℝ → Except PyErr (List CPoint)} {zb : ℝ}
    (h : ∀ z m n, ∃ cs, channelsOnLevel p g draws curve z m n = .ok cs) (fuel : ℕ) (z : ℝ) (n : ℕ) (e : PyErr) :
    channelLevels p g draws curve zb fuel z n ≠ some (.error e) := by
  induction fuel generalizing z n with
  | zero =>
    unfold channelLevels
    split_ifs <;> simp
  | succ fuel ih =>
    unfold channelLevels
    split_ifs
    · obtain ⟨cs, hcs⟩ := h z p.channelNo n
      rw [hcs]
      simp only
      have := ih (z - p.agg) (n + p.channelNo)
      split
      · simp
      · rename_i e' he'
        intro h0
        cases h0
        exact this he'
      · simp
    · simp

theorem channelLevels_more {p : ChannelParams} {g : Grid} {draws : ℕ → ChannelDraw} {curve : ℕ → ℝ → Except PyErr (List CPoint)} {zb : ℝ}
    {fuel : ℕ} {z : ℝ} {n : ℕ} {r : Except PyErr (List Channel)} (h : channelLevels p g draws curve zb fuel z n = some r) {N : ℕ} (hN : fuel ≤ N) :
    channelLevels p g draws curve zb N z n = some r := by
  induction fuel generalizing z n r N with
  | zero =>
    unfold channelLevels at h
    split_ifs at h with hz
    cases h
    cases N <;> unfold channelLevels <;> rw [if_neg hz]
  | succ fuel ih =>
    obtain ⟨N, rfl⟩ : ∃ M, N = M + 1 := ⟨N - 1, by omega⟩
    unfold channelLevels at h ⊢
    split_ifs at h ⊢ with hz
    · cases hcs : channelsOnLevel p g draws curve z p.channelNo n with
      | error e =>
        rw [hcs] at h
        exact h
      | ok cs =>
        rw [hcs] at h
        simp only at h ⊢
        cases hr : channelLevels p g draws curve zb fuel (z - p.agg) (n + p.channelNo) with
        | none =>
          rw [hr] at h
          cases h
        | some r' =>
          rw [ih hr (by omega)]
          rw [hr] at h
          exact h
    · exact h

/-- Channels of a placeable section can be placed. -/
theorem placeChannels_total {d : Dict} {p : ChannelRead} (hp : ChannelFrom d p) (hf : InsideFits d p.inside) (hds : d "ds" = some (numVal p.ds))
    (hpl : PlaceableChannel d) {g : Grid} (hx : 0 < g.lx) (hy : 0 < g.ly) {r : ObjRandoms} (hu : UniformObjs r) (b t : Surface ℝ) :
    (∀ N e, placeChannels p g r N b t ≠ some (.error e)) ∧ ∃ F x, ∀ N ≥ F, placeChannels p g r N b t = some x := by
  have hagg : 0 < p.erosive.agg := has_num (hpl.positive "agg" (by simp)) hp.erosive.agg
  have hwid : 0 < p.erosive.width := has_num (hpl.positive "width" (by simp)) hp.erosive.width
  have hds' : 0 < p.ds := has_num (hpl.positive "ds" (by simp)) hds
  have hdep : 0 ≤ p.erosive.depth := has_num (hpl.count "depth" (by simp)) hp.erosive.depth
  have hno : (0 : ℚ) ≤ p.channelNo := has_num (hpl.count "channel_no" (by simp)) hp.count
  have hno' : ¬ p.channelNo < 0 := not_lt.2 (by exact_mod_cast hno)
  have htr : p.erosive.sizeZtrend = none := hp.erosive.trend.1 hpl.trend
  have hpt : p.params.sizeZtrend = none := by
    unfold ChannelRead.params
    rw [htr]
    rfl
  have hfac : ∀ z, channelFactor p.params g z = 1 := by
    intro z
    unfold channelFactor
    rw [hpt]
  have hbuf : channelBufferFactor p.params = .ok 1 := by
    unfold channelBufferFactor
    rw [hpt]
  have hlev : ∀ z m n, ∃ cs, channelsOnLevel p.params g (r.channel p) (r.curve p g) z m n = .ok cs := by
    intro z m n
    refine channelsOnLevel_total (fun n w => curve_total hx hy (by exact_mod_cast hds') n w) (fun n pts => ?_) m n
    rw [hfac]
    refine channelNew_total ?_ hf.facies (fun hs => ?_) ?_
    · have : (0 : ℝ) < p.erosive.width := by exact_mod_cast hwid
      show (p.erosive.width : ℝ) * 1 ≠ 0
      rw [mul_one]
      exact this.ne'
    · have hw : written d "structure" "dip" := by
        obtain ⟨s, hs', hw⟩ := struct_written hp.inside (l := ["dip"]) (by rw [List.mem_singleton]; exact hs) (by decide)
        rw [List.mem_singleton] at hs'
        subst hs'
        exact hw
      obtain ⟨q, hq, hq'⟩ := hpl.dipsets hw
      have hdd : 0 < p.inside.dipsetDist := by
        rw [hp.inside.dist q hq]
        exact hq'
      have hdd' : (0 : ℝ) < p.inside.dipsetDist := by exact_mod_cast hdd
      obtain ⟨⟨l0, l1⟩, u0, u1⟩ := hpl.dips hw _ _ hp.inside.dip
      refine ⟨hdd', hf.follow (hpl.followers hw), ?_, ?_⟩
      · have a0 : (0 : ℝ) ≤ p.inside.dip.1 := by exact_mod_cast l0
        have a1 : (p.inside.dip.1 : ℝ) ≤ 180 := by exact_mod_cast l1
        have b0 : (0 : ℝ) ≤ p.inside.dip.2 := by exact_mod_cast u0
        have b1 : (p.inside.dip.2 : ℝ) ≤ 180 := by exact_mod_cast u1
        obtain ⟨v0, v1⟩ := hu.dip n
        have c0 : 0 ≤ uniform p.inside.dip.1 p.inside.dip.2 (r.dip n) := by
          unfold uniform
          nlinarith
        have c1 : uniform p.inside.dip.1 p.inside.dip.2 (r.dip n) ≤ 180 := by
          unfold uniform
          nlinarith
        apply sin_nonneg_of_nonneg_of_le_pi
        · show 0 ≤ uniform p.inside.dip.1 p.inside.dip.2 (r.dip n) * π / 180
          have := pi_pos
          positivity
        · show uniform p.inside.dip.1 p.inside.dip.2 (r.dip n) * π / 180 ≤ π
          have := pi_pos
          rw [div_le_iff₀ (by norm_num)]
          nlinarith
      · show 0 ≤ uniform 0 p.inside.dipsetDist (r.shift n)
        unfold uniform
        have := mul_nonneg hdd'.le (hu.shift n).1
        linarith
    · have : (0 : ℝ) ≤ p.erosive.depth := by exact_mod_cast hdep
      show (0 : ℝ) ≤ (p.erosive.depth : ℝ) * 1
      linarith
  have hpc : ∀ N, placeChannels p g r N b t = channelLevels p.params g (r.channel p) (r.curve p g) (b.zmean + p.params.depth * 1 * p.params.buffer) N
      (t.zmean - p.params.agg) 0 := by
    intro N
    unfold placeChannels generateChannels
    rw [if_neg hno', hbuf]
  refine ⟨fun N e => by rw [hpc]; exact channelLevels_quiet hlev N _ _ e, ?_⟩
  have hagg' : 0 < p.params.agg := by
    show (0 : ℝ) < p.erosive.agg
    exact_mod_cast hagg
  obtain ⟨F, hF⟩ := exists_nat_ge ((t.zmean - p.params.agg - (b.zmean + p.params.depth * 1 * p.params.buffer)) / p.params.agg)
  have hend := channelLevels_terminates (p := p.params) g (r.channel p) (r.curve p g) (b.zmean + p.params.depth * 1 * p.params.buffer) F
    (t.zmean - p.params.agg) 0 (by
      rw [div_le_iff₀ hagg'] at hF
      linarith)
  obtain ⟨x, hx⟩ := Option.ne_none_iff_exists'.1 hend
  exact ⟨F, x, fun N hN => by rw [hpc]; exact channelLevels_more hx hN⟩

end Hyvr
