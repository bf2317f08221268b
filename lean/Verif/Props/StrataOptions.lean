import Verif.Props.FaciesNames
import Verif.Props.Units

/-!
C52: which entries of the strata options are used for which stratum; C82: number of strata; C83: `avul_prob`.
-/

namespace Hyvr

open Py

/-! ### Accepted strata sections -/

theorem dlen_ok {d : Dict} {k : String} {l : List Val} (h : d k = some (.node l)) : d.len k = .ok (l.length : ℤ) := by
  simp [Dict.len, h]

/-- The passes of `parseStrata`. -/
theorem parseStrata_ok {C : Convs} {hydro : List Val} {raw d : Dict} {cs : List (ContactModel Atom)}
    (h : parseStrata C hydro raw = .ok (d, cs)) :
    ∃ n d0 items bg bgv, 2 ≤ n ∧ parseSection (optsStrata C) raw = .ok d0 ∧
      (∀ k ∈ "ae_in_strata" :: stratumNames, ∃ l, d0 k = some (.node l) ∧ l.length = n) ∧
      d0 "strata_contact_models" = some (.node items) ∧ items.length = n - 1 ∧
      mapPy (fun v => parseContactModel C v true) items = .ok cs ∧ d0 "bg_facies" = some (.node bg) ∧
      parseFacies (.node bg) hydro = .ok bgv ∧ d = d0.set "bg_facies" bgv := by
  simp only [parseStrata, bind_ok, pure_ok, dget_ok, orRaise_ok, Prod.mk.injEq] at h
  obtain ⟨d0, hd0, m, hm, k, hk, u, hu, cv, hcv, items, hi, cs', hcs, bg, hbg, bgv, hbgv, rfl, rfl⟩ := h
  obtain ⟨n, hn, hlens, l, hl, hne⟩ := strata_lens hd0
  rw [hl] at hcv
  cases hcv
  cases hi
  obtain ⟨names, hnames, hnl⟩ := hlens "strata" (by simp [stratumNames])
  rw [dlen_ok hl] at hm
  rw [dlen_ok hnames] at hk
  cases hm
  cases hk
  unfold contactsCheck at hu
  split_ifs at hu with hc
  rw [not_not] at hc
  have := List.length_pos_of_ne_nil hne
  obtain ⟨bl, hbl, _⟩ := hlens "bg_facies" (by simp [stratumNames])
  rw [hbg] at hbl
  cases hbl
  exact ⟨n, d0, items, bl, bgv, by omega, hd0, hlens, hl, by omega, hcs, hbg, hbgv, rfl⟩

/-- The passes of `parseInifile`. -/
theorem parseInifile_ok {C : Convs} {p : Ini} {P : Parsed} (h : parseInifile C p = .ok P) :
    ∃ m0 hydro outs outputs, (∀ s ∈ mustHaves, s ∈ p.sections) ∧ parseSection (optsRun C) (p.get "run") = .ok P.run ∧
      parseSection (optsHydraulics C) (p.get "hydraulics") = .ok P.hydraulics ∧
      parseSection (optsModel C) (p.get "model") = .ok m0 ∧ parseModel C (p.get "model") = .ok P.model ∧
      P.hydraulics "hydrofacies" = some (.node hydro) ∧
      parseStrata C hydro (p.get "strata") = .ok (P.strata, P.contacts) ∧ P.run "outputs" = some outs ∧
      pyItems outs = .ok outputs ∧ parseFlowtrans C p outputs = .ok P.flowtrans ∧
      mapPy (parseNamedElement C hydro p) (elementSections p) = .ok P.elements := by
  simp only [parseInifile, bind_ok, pure_ok, dget_ok] at h
  obtain ⟨u, hu, run, hrun, hyd, hhyd, model, hmodel, hv, hhv, hydro, hh, ⟨st, cs⟩, hst, outs, houts, outputs, ho, fl, hfl,
    els, hels, rfl⟩ := h
  have hm := hmodel
  simp only [parseModel, bind_ok] at hm
  obtain ⟨m0, hm0, _⟩ := hm
  obtain ⟨_, _, v, _, _, hv', hd, _⟩ := section_required (hydraulics_named C) hhyd [] _ _ rfl rfl
  obtain ⟨hl, rfl, _⟩ := optValue_len_fixed rfl (Or.inr rfl) hv'
  have hd : hyd "hydrofacies" = some (.node hl) := hd
  rw [hhv] at hd
  cases hd
  cases hh
  refine ⟨m0, hydro, outs, outputs, ?_, hrun, hhyd, hm0, hmodel, hhv, hst, houts, ho, hfl, hels⟩
  unfold sectionsCheck at hu
  split_ifs at hu with hall
  intro s hs
  simpa using List.all_eq_true.1 hall s hs

theorem pyGet_fromEnd {α : Type} {l : List α} {si : ℕ} (h : si < l.length) :
    pyGet l (-1 - (si : ℤ)) = .ok (l[l.length - 1 - si]'(by omega)) := by
  unfold pyGet
  rw [if_neg (by omega), if_pos (by omega)]
  have : (-1 - (si : ℤ) + l.length).toNat = l.length - 1 - si := by omega
  rw [this, List.getElem?_eq_getElem (by omega)]

/-- **C82**, refuted: no ini-file describing a single stratum is accepted. Every accepted ini-file (new format) has at least
two strata: the list of contact models must have one entry less than `strata`, and an empty list is never accepted. -/
theorem C82_refuted (C : Convs) (p : Ini) (P : Parsed) (h : parseInifile C p = .ok P) :
    ∃ l, P.strata "strata" = some (.node l) ∧ 2 ≤ l.length := by
  obtain ⟨_, hydro, _, _, _, _, _, _, _, _, hst, _⟩ := parseInifile_ok h
  obtain ⟨n, d0, items, bg, bgv, hn, _, hl, _, _, _, _, _, hd⟩ := parseStrata_ok hst
  obtain ⟨l, hl, hln⟩ := hl "strata" (by simp [stratumNames])
  exact ⟨l, by rw [hd, set_ne _ _ (by decide), hl], by omega⟩

/-! ### C52 -/

theorem strata_entries {C : Convs} {p : Ini} {P : Parsed} (h : parseInifile C p = .ok P) :
    ∃ n, 2 ≤ n ∧ P.contacts.length = n - 1 ∧
      ∀ k ∈ "ae_in_strata" :: stratumNames, ∃ l, P.strata k = some (.node l) ∧ l.length = n := by
  obtain ⟨_, hydro, _, _, _, _, _, _, _, _, hst, _⟩ := parseInifile_ok h
  obtain ⟨n, d0, items, bg, bgv, hn, _, hl, hi, hin, hcs, hbg, hbgv, hd⟩ := parseStrata_ok hst
  refine ⟨n, hn, by rw [mapPy_len hcs, hin], ?_⟩
  intro k hk
  by_cases hkb : k = "bg_facies"
  · subst hkb
    obtain ⟨ns, rfl, hns⟩ := (C49_numbers _ _ _).1 hbgv
    refine ⟨_, by rw [hd, set_same], ?_⟩
    obtain ⟨l, hl, hln⟩ := hl _ hk
    rw [hbg] at hl
    cases hl
    rw [List.length_map, ← hns.length_eq, hln]
  · obtain ⟨l, hl, hln⟩ := hl k hk
    exact ⟨l, by rw [hd, set_ne _ _ hkb, hl], hln⟩

/-- **C52**, options: for every accepted ini-file with `n` strata, the `si`-th stratum from the top (counted from 0) gets the
entry `n - 1 - si` of each strata option; no access is out of range. -/
theorem C52_options (C : Convs) (p : Ini) (P : Parsed) (h : parseInifile C p = .ok P) :
    ∃ names, P.strata "strata" = some (.node names) ∧ ∀ si < names.length, ∀ k ∈ "ae_in_strata" :: stratumNames,
      ∃ l v, P.strata k = some (.node l) ∧ l.length = names.length ∧ l[names.length - 1 - si]? = some v ∧
        stratumEntry P.strata k si = .ok v := by
  obtain ⟨n, hn, _, hl⟩ := strata_entries h
  obtain ⟨names, hnames, hnn⟩ := hl "strata" (by simp [stratumNames])
  refine ⟨names, hnames, ?_⟩
  intro si hsi k hk
  obtain ⟨l, hlk, hln⟩ := hl k hk
  have hsi' : si < l.length := by omega
  refine ⟨l, l[l.length - 1 - si]'(by omega), hlk, by omega, ?_, ?_⟩
  · rw [show names.length - 1 - si = l.length - 1 - si by omega, List.getElem?_eq_getElem]
  · simp only [stratumEntry, dget_ok.2 hlk, pyItems, Bind.bind, Except.bind]
    exact pyGet_fromEnd hsi'

/-- **C52**, contacts: the bottom of stratum `si` from the top is made from contact model `n - 2 - si`, the top contact of
the stratum listed before it; the last stratum uses none; no access is out of range. -/
theorem C52_contacts (C : Convs) (p : Ini) (P : Parsed) (h : parseInifile C p = .ok P) :
    ∃ names, P.strata "strata" = some (.node names) ∧ P.contacts.length + 1 = names.length ∧
      (∀ si, si + 1 < names.length → ∃ c, P.contacts[names.length - 2 - si]? = some c ∧
        stratumContact P.contacts names.length si = .ok (some c)) ∧
      stratumContact P.contacts names.length (names.length - 1) = .ok none := by
  obtain ⟨n, hn, hc, hl⟩ := strata_entries h
  obtain ⟨names, hnames, hnn⟩ := hl "strata" (by simp [stratumNames])
  refine ⟨names, hnames, by omega, ?_, ?_⟩
  · intro si hsi
    refine ⟨P.contacts[P.contacts.length - 1 - si]'(by omega), ?_, ?_⟩
    · rw [show names.length - 2 - si = P.contacts.length - 1 - si by omega, List.getElem?_eq_getElem]
    · unfold stratumContact
      rw [if_neg (by omega), pyGet_fromEnd (by omega)]
      rfl
  · unfold stratumContact
    rw [if_pos (by omega)]

/-- **C52**, contact texts: contact model `i` is what `parse_contact_model` makes of entry `i` of the option. -/
theorem C52_contact_texts (C : Convs) (p : Ini) (P : Parsed) (h : parseInifile C p = .ok P) :
    ∃ items, P.strata "strata_contact_models" = some (.node items) ∧
      List.Forall₂ (fun v c => parseContactModel C v true = .ok c) items P.contacts := by
  obtain ⟨_, hydro, _, _, _, _, _, _, _, _, hst, _⟩ := parseInifile_ok h
  obtain ⟨n, d0, items, bg, bgv, hn, _, hl, hi, hin, hcs, hbg, hbgv, hd⟩ := parseStrata_ok hst
  exact ⟨items, by rw [hd, set_ne _ _ (by decide), hi], mapPy_ok.1 hcs⟩

/-- A well-written table with one list per entry of another option: no list is empty. -/
theorem table_written {o : Opt} {conv : List Char → Except PyErr Atom} {k : String} {d : Dict} {refs : List Val}
    (hk : o.kind = .list conv (.dims [.len k, .num (-1)])) (href : d k = some (.node refs)) {t : List Char}
    (ht : d o.name = some (.leaf (.text t))) (hw : Spec.WellWritten t) {v : Val} (h : optValue o d = .ok v) :
    ∃ ll : List (List Atom), v = flatLists ll ∧ ll.length = refs.length ∧ ll ≠ [] ∧ ∀ l ∈ ll, l ≠ [] := by
  obtain ⟨t', value, shape, ht', hp, _, hr, hv⟩ := optValue_shape hk (by simp) h
  rw [ht] at ht'
  cases ht'
  have hr' : resolveShape d (.dims [.len k, .num (-1)]) = .ok [.leaf (refs.length : ℤ), .leaf (-1)] := by
    simp only [resolveShape, mapPy, resolveDim, Dict.len, href, Bind.bind, Except.bind]
    rfl
  rw [hr] at hr'
  cases hr'
  rcases writes_value hw hp with ⟨x, rfl⟩ | ⟨l, hl, rfl⟩ | ⟨ll, hll, hl, rfl⟩
  · rw [shapeValue_two_leaf] at hv
    split at hv <;> cases hv
  · rw [shapeValue_two_flat _ _ l hl] at hv
    rw [if_neg (by simp), if_neg (by omega)] at hv
    by_cases h3 : (refs.length : ℤ) ≤ 0
    · rw [if_pos h3] at hv
      cases hv
    · rw [if_neg h3] at hv
      cases hv
      have hpos : 0 < refs.length := by omega
      refine ⟨_, rfl, by simp, ?_, ?_⟩
      · intro he
        have := congrArg List.length he
        simp only [List.length_replicate, List.length_nil] at this
        omega
      · intro m hm
        rw [List.eq_of_mem_replicate hm]
        exact hl
  · rw [shapeValue_two_flats _ _ ll hll hl] at hv
    by_cases h1 : refs.length = ll.length
    · rw [if_pos ⟨Or.inr (by omega), Or.inl rfl⟩] at hv
      cases hv
      exact ⟨ll, rfl, by omega, hll, hl⟩
    · rw [if_neg (by omega)] at hv
      cases hv

/-- **C52**, tables per stratum: if `ae_in_strata`, `ae_prob`, `ae_z_mean` are well written, then in every accepted
strata section each stratum has at least one element name, as many probabilities and as many mean thicknesses. -/
theorem C52_tables (C : Convs) (raw d : Dict) (h : parseSection (optsStrata C) raw = .ok d)
    (hw : ∀ k ∈ ["ae_in_strata", "ae_prob", "ae_z_mean"], ∀ t, raw k = some (.leaf (.text t)) → Spec.WellWritten t) :
    ∃ names probs means : List (List Atom), d "ae_in_strata" = some (flatLists names) ∧ (∀ l ∈ names, l ≠ []) ∧
      d "ae_prob" = some (flatLists probs) ∧ d "ae_z_mean" = some (flatLists means) ∧
      probs.map List.length = names.map List.length ∧ means.map List.length = names.map List.length := by
  have hn := strata_named C
  have hgiven : ∀ (k : String) (kind : Kind) (r : Val), Spec.given raw { name := k, kind := kind } = some r → raw k = some r := by
    intro k kind r hr
    simp only [Spec.given, Spec.names, List.findSome?_cons, List.findSome?_nil] at hr
    cases hk : raw k with
    | none => simp [hk] at hr
    | some r' => simpa [hk] using hr
  obtain ⟨l, hl, -⟩ := (strata_lens h).choose_spec.2.1 "strata" (by simp [stratumNames])
  obtain ⟨ctx, r, v, hg, hc, hv, hd, hctx⟩ := section_required hn h [_, _, _] _ _ rfl rfl
  have hd2 : d "ae_in_strata" = some v := hd
  have hcs : ctx "strata" = some (.node l) := (hctx "strata" (by simp)).trans hl
  obtain ⟨t, _, _, ht, _⟩ := optValue_shape rfl (by simp) hv
  have hct : ctx "ae_in_strata" = some (.leaf (.text t)) := ht
  have hrt : r = .leaf (.text t) := by
    have : ctx "ae_in_strata" = some r := hc
    rw [hct] at this
    exact (Option.some.inj this).symm
  subst hrt
  obtain ⟨names, rfl, _, hne, hall⟩ := table_written rfl hcs hct (hw _ (by simp) t (hgiven _ _ _ hg)) hv
  have like : ∀ (name : String) (pre post : List Opt), name ∈ ["ae_in_strata", "ae_prob", "ae_z_mean"] →
      optsStrata C = pre ++ ({ name := name, kind := .list C.float (.same "ae_in_strata") } : Opt) :: post →
      "ae_in_strata" ∈ pre.map (·.name) →
      ∃ ll : List (List Atom), d name = some (flatLists ll) ∧ ll.map List.length = names.map List.length := by
    intro name pre post hname ho hmem
    obtain ⟨ctx, r, v, hg, hc, hv, hd, hctx⟩ := section_required hn h pre post _ ho rfl
    obtain ⟨t, _, _, ht, _⟩ := optValue_shape rfl (by simp) hv
    have hct : ctx name = some (.leaf (.text t)) := ht
    have hrt : r = .leaf (.text t) := by
      have : ctx name = some r := hc
      rw [hct] at this
      exact (Option.some.inj this).symm
    subst hrt
    obtain ⟨ll, rfl, hll⟩ := C44_like_partial _ _ _ rfl ctx names hne hall ((hctx _ hmem).trans hd2) t hct
      (hw _ hname t (hgiven _ _ _ hg)) v hv
    exact ⟨ll, hd, hll⟩
  obtain ⟨probs, hp1, hp2⟩ := like "ae_prob" [_, _, _, _] _ (by simp) rfl (by simp)
  obtain ⟨means, hm1, hm2⟩ := like "ae_z_mean" [_, _, _, _, _] _ (by simp) rfl (by simp)
  exact ⟨names, probs, means, hd2, hall, hp1, hm1, hp2, hm2⟩

/-! ### C83 -/

/-- The option `avul_prob`. -/
def avulProbOpt (C : Convs) : Opt := { name := "avul_prob", kind := .list C.float (.dims [.len "strata", .num 1]) }

/-- **C83**, refuted: the documented form of `avul_prob`, one number for each of at least two strata in a flat list, is never
accepted. -/
theorem C83_refuted (C : Convs) (raw : Dict) (t : List Char) (ht : raw "avul_prob" = some (.leaf (.text t)))
    (l : List (List Char)) (hw : Spec.Writes t (.node (l.map .leaf))) (hl : 2 ≤ l.length) (d : Dict) :
    parseSection (optsStrata C) raw ≠ .ok d := by
  intro h
  obtain ⟨ctx, r, v, hg, hc, hv, hd, hctx⟩ := section_required (strata_named C) h [_, _, _, _, _, _] _ _ rfl rfl
  have hr : r = .leaf (.text t) := by
    simp only [Spec.given, Spec.names, List.findSome?_cons, List.findSome?_nil, ht] at hg
    exact (Option.some.inj hg).symm
  subst hr
  obtain ⟨names, hnames, -⟩ := (strata_lens h).choose_spec.2.1 "strata" (by simp [stratumNames])
  have hcs : ctx "strata" = some (.node names) := (hctx "strata" (by simp)).trans hnames
  obtain ⟨t', value, shape, ht', hp, _, hr, hv'⟩ := optValue_shape rfl (by simp) hv
  have hc' : ctx "avul_prob" = some (.leaf (.text t)) := hc
  have ht'' : ctx "avul_prob" = some (.leaf (.text t')) := ht'
  rw [hc'] at ht''
  cases ht''
  have hr' : resolveShape ctx (.dims [.len "strata", .num 1]) = .ok [.leaf (names.length : ℤ), .leaf 1] := by
    simp only [resolveShape, mapPy, resolveDim, Dict.len, hcs, Bind.bind, Except.bind]
    rfl
  rw [hr] at hr'
  cases hr'
  rw [C43_roundtrip _ _ hw.1 _ hw.2] at hp
  obtain ⟨m, rfl, hm⟩ := convert_flat hp
  have hml := mapPy_len hm
  rw [shapeValue_two_flat _ _ m (by rintro rfl; simp at hml; omega), if_pos (by omega)] at hv'
  cases hv'

/-- **C83**, what is accepted instead: one list with one number for each stratum. -/
theorem C83_partial (C : Convs) (ctx : Dict) (names : List Val) (hs : ctx "strata" = some (.node names))
    (t : List Char) (ht : ctx "avul_prob" = some (.leaf (.text t))) (ps : List Atom)
    (hp : parseList C.float t = .ok (flatLists (ps.map fun p => [p]))) (hlen : ps.length = names.length)
    (hne : ps ≠ []) :
    optValue (avulProbOpt C) ctx = .ok (flatLists (ps.map fun p => [p])) := by
  have hr : resolveShape ctx (.dims [.len "strata", .num 1]) = .ok [.leaf (names.length : ℤ), .leaf 1] := by
    simp only [resolveShape, mapPy, resolveDim, Dict.len, hs, Bind.bind, Except.bind]
    rfl
  have hall : allTrue (avulProbOpt C).valid (flatLists (ps.map fun p => [p])) = true :=
    (allTrue_iff _ _).2 fun _ _ => rfl
  rw [optValue_list (o := avulProbOpt C) rfl (by simp) ht hr hp, if_pos hall,
    shapeValue_two_flats _ _ _ (by simpa using hne) (by simp), if_pos]
  refine ⟨Or.inr (by simp [hlen]), Or.inr ?_⟩
  simp

section Generated

variable {α : Type} [Field α] [LinearOrder α]

theorem strataGenLoop_contact {g : GridZ α} {sd : StrataDict α} {draws : ℕ → StratumDraw α} {k si : ℕ} {h h' : Heap α}
    {cms cms' : Contacts α} {top : ℕ} {ss : List (StratumReal α)} (hok : HeapOK h) (ht : top < h.next)
    (hr : strataGenLoop g sd draws k si h cms top = .ok (h', cms', ss)) :
    ∀ n s, ss[n]? = some s → si + n + 1 ≠ sd.n → ∃ cm surf, fromEnd sd.contacts (si + n) = .ok cm ∧
      Surface.init h.nx h.ny cm (draws (si + n)).field = .ok surf ∧ ∀ i < h.nx, ∀ j < h.ny,
        (h'.get s.bottom).vals i j = min (surf.vals i j) ((h'.get s.top).vals i j) := by
  induction k generalizing si h cms top ss with
  | zero =>
    simp only [strataGenLoop, Except.ok.injEq, Prod.mk.injEq] at hr
    obtain ⟨rfl, rfl, rfl⟩ := hr
    simp
  | succ k ih =>
    unfold strataGenLoop at hr
    simp only [bind_ok, liftErr_ok, pure_ok] at hr
    obtain ⟨⟨h1, b⟩, hB, h2, hl, sp, -, types, -, ⟨h3, cms3, s0⟩, hS, ⟨h4, cms4, rest⟩, hrec, heq⟩ := hr
    simp only [Prod.mk.injEq] at heq
    obtain ⟨rfl, rfl, rfl⟩ := heq
    obtain ⟨ok1, k1, hbn, hn1, hz0⟩ := stratumBottom_spec hok hB
    have eL := useLower_effect hl
    have ok2 := heapOK_lower ok1 eL
    have k2 : Keep h h2 := keep_lower k1 eL (fun hlt => by omega)
    have hb2 : b < h2.next := by
      have hn2 : h2.next = h1.next := eL.next
      omega
    have ht2 : top < h2.next := lt_of_lt_of_le ht k2.next
    have hbt2 : Below h2 b top := by
      intro i hi j hj
      exact (C03_lower hl).2.2 i (by rw [← eL.nx]; exact hi) j (by rw [← eL.ny]; exact hj)
    obtain ⟨ok3, k3, hs, hsb, hst⟩ := genStratum_spec ok2 hb2 ht2 hbt2 hS
    have hb3 : b < h3.next := lt_of_lt_of_le hb2 k3.next
    obtain ⟨ok4, k4, hlen, bot, hbot, hfrom, hlow⟩ := strataGenLoop_spec ok3 hb3 hrec
    have k24 := k3.trans k4
    intro n s hn hlast
    cases n with
    | zero =>
      simp only [List.getElem?_cons_zero, Option.some.injEq] at hn
      subst hn
      unfold stratumBottom at hB
      rw [if_neg (by omega)] at hB
      simp only [bind_ok, liftErr_ok] at hB
      obtain ⟨cm, hcm, hc⟩ := hB
      obtain ⟨surf, hsurf, _, he⟩ := create_ok hc
      refine ⟨cm, surf, hcm, hsurf, ?_⟩
      intro i hi j hj
      have hi2 : i < h2.nx := by rw [k2.nx]; exact hi
      have hj2 : j < h2.ny := by rw [k2.ny]; exact hj
      have hi1 : i < h1.nx := by rw [k1.nx]; exact hi
      have hj1 : j < h1.ny := by rw [k1.ny]; exact hj
      rw [hsb, hst, k24.vals b hb2 i hi2 j hj2, k24.vals top ht2 i hi2 j hj2, eL.inside i hi1 j hj1,
        eL.other top (by omega)]
      have : h1.get b = surf := by
        rw [he, hbn]
        simp
      rw [this]
    | succ n =>
      simp only [List.getElem?_cons_succ] at hn
      have := ih ok3 hb3 hrec n s hn (by omega)
      rw [show si + 1 + n = si + (n + 1) by omega, (k2.trans k3).nx, (k2.trans k3).ny] at this
      exact this

/-- **C52**, generated surfaces: in every generated model, the bottom surface of stratum `si` from the top (other than the
last one) is the surface of contact model `si` counted from the end, cut off at the stratum's top. -/
theorem C52_surfaces {nx ny : ℕ} {g : GridZ α} {sd : StrataDict α} {cms cms' : Contacts α} {draws : ℕ → StratumDraw α}
    {m : GenModel α} (hr : generateModel nx ny g sd cms draws = .ok (m, cms')) (si : ℕ) (s : StratumReal α)
    (hs : m.strata[si]? = some s) (hlast : si + 1 < m.strata.length) :
    ∃ cm surf, sd.contacts.reverse[si]? = some cm ∧ Surface.init nx ny cm (draws si).field = .ok surf ∧
      ∀ i < nx, ∀ j < ny, (m.heap.get s.bottom).vals i j = min (surf.vals i j) ((m.heap.get s.top).vals i j) := by
  have hlen := (C05_strata hr).1
  unfold generateModel at hr
  simp only [bind_ok, liftErr_ok, pure_ok] at hr
  obtain ⟨⟨h1, top⟩, hc, ⟨h2, cms2, ss⟩, hl, heq⟩ := hr
  simp only [Prod.mk.injEq] at heq
  obtain ⟨rfl, rfl⟩ := heq
  obtain ⟨s0, hs0, rfl, he⟩ := create_ok hc
  have ok0 : HeapOK ({ nx, ny, next := 0, get := fun _ => { vals := fun _ _ => 0, zmean := 0, zmin := 0, zmax := 0 } } : Heap α) :=
    fun r hr => absurd hr (Nat.not_lt_zero r)
  have ok1 := heapOK_create ok0 hc
  have hn1 : h1.next = 1 := by rw [he]
  obtain ⟨s1, hs1, hsame⟩ := forall₂_get (numberStrata_same 0 0 ss) hs
  obtain ⟨cm, surf, h1', h2', h3'⟩ :=
    strataGenLoop_contact ok1 (show (0 : ℕ) < h1.next by omega) hl si s1 hs1 (by simp only at hlen hlast; omega)
  have hx1 : h1.nx = nx := by rw [he]
  have hy1 : h1.ny = ny := by rw [he]
  rw [Nat.zero_add] at h1' h2'
  rw [hx1, hy1] at h2' h3'
  refine ⟨cm, surf, ?_, h2', ?_⟩
  · unfold fromEnd at h1'
    cases hq : sd.contacts.reverse[si]? with
    | none => rw [hq] at h1'; simp at h1'
    | some b => rw [hq] at h1'; simpa using h1'
  · rw [hsame.bottom, hsame.top]
    exact h3'

end Generated

/-! ### Examples -/

example : ∃ P l, parseInifile exConvs exIni = .ok P ∧ P.strata "strata" = some (.node l) ∧ 2 ≤ l.length := by
  obtain ⟨P, hP⟩ := exIni_ok
  obtain ⟨l, hl, hn⟩ := C82_refuted _ _ P hP
  exact ⟨P, l, hP, hl, hn⟩

/-- The upper stratum of the example is `gravel`, listed last; the lower one is `clay`. -/
example : (match parseInifile exConvs exIni with
    | .ok P => (decide (stratumEntry P.strata "strata" 0 = .ok (.leaf (.text "gravel".toList))) &&
        decide (stratumEntry P.strata "bg_facies" 0 = .ok (natVal 1)) &&
        decide (stratumEntry P.strata "bg_facies" 1 = .ok (natVal 0)))
    | .error _ => false) = true := by decide +kernel

example : ∃ P names, parseInifile exConvs exIni = .ok P ∧ P.strata "strata" = some (.node names) ∧
    P.contacts.length + 1 = names.length := by
  obtain ⟨P, hP⟩ := exIni_ok
  obtain ⟨names, hn, hc, _⟩ := C52_contacts _ _ P hP
  exact ⟨P, names, hP, hn, hc⟩

theorem exRun_count : ∃ m c, exRun = .ok (m, c) ∧ m.strata.length = 2 := by
  obtain ⟨m, c, h, -⟩ := exRun_ok
  exact ⟨m, c, h, (C05_strata h).1⟩

example : ∃ m c cm surf, exRun = .ok (m, c) ∧ exSD.contacts.reverse[0]? = some cm ∧
    Surface.init 2 1 cm (exDraws 0).field = .ok surf := by
  obtain ⟨m, c, h, hn⟩ := exRun_count
  obtain ⟨cm, surf, h1, h2, _⟩ := C52_surfaces h 0 _ (List.getElem?_eq_getElem (by omega)) (by omega)
  exact ⟨m, c, cm, surf, h, h1, h2⟩

theorem writes_12 : Spec.Writes "[1, 2]".toList (.node ([['1'], ['2']].map .leaf)) := by
  refine ⟨.flat [['1'], ['2']] (by simp) (by simp [Spec.Token]), ?_⟩
  simp only [List.map_cons, List.map_nil, Spec.render, Spec.render.go, Spec.commas]
  repeat' first
    | exact Spec.Spaced.nil
    | apply Spec.Spaced.keep
    | apply Spec.Spaced.blank

/-- The strata section of the example with `avul_prob` in the documented form. -/
example (d : Dict) : parseSection (optsStrata exConvs) ((exIni.get "strata").set "avul_prob" (.leaf (.text "[1, 2]".toList))) ≠
    .ok d :=
  C83_refuted _ _ _ (set_same _ _ _) _ writes_12 (by simp) d

example (C : Convs) : avulProbOpt C ∈ optsStrata C := by simp [avulProbOpt, optsStrata]

example : optValue (avulProbOpt exConvs) (fun k => if k = "strata" then some (Spec.texts ["clay".toList, "gravel".toList])
      else some (.leaf (.text "[[0], [1]]".toList))) = .ok (flatLists ([Atom.num 0, .num 1].map fun p => [p])) :=
  C83_partial _ _ _ rfl _ rfl _ (by decide +kernel) rfl (by simp)

end Hyvr
