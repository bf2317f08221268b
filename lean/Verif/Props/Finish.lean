import Verif.Lemmas.Written
import Verif.Props.Strata

/-!
C99: generation raises nothing and ends.
-/

namespace Hyvr

open Py

section General

variable {α : Type} [Field α] [LinearOrder α] [IsStrictOrderedRing α]

/-- **C99 (generation).** If the lists of the strata section have the right lengths, the contact models can be used, the geometries are
known, no mean thickness is negative, the choices are among the types and objects can be placed, then generating the strata, AEs and sheets raises no exception,
whatever the random numbers, the surfaces and the clipping between them are. -/
theorem C99_no_exception {nx ny : ℕ} (hx : 0 < nx) (hy : 0 < ny) (g : GridZ α) (sd : StrataDict α) (cms : Contacts α)
    (draws : ℕ → StratumDraw α) (hu : Spec.UsableInput sd cms draws) (e : PyErr) :
    generateModel nx ny g sd cms draws ≠ .error (.err e) :=
  (generateModel_fine hx hy hu).2 e

theorem falls_of_bound [Archimedean α] {f : ℕ → α} {δ : α} (hδ : 0 < δ) (h : ∀ n, δ ≤ f n) (T : α) : ∃ k, T ≤ ∑ n ∈ Finset.range k, f n := by
  obtain ⟨k, hk⟩ := exists_nat_ge (T / δ)
  rw [div_le_iff₀ hδ] at hk
  refine ⟨k, hk.trans ?_⟩
  have := Finset.sum_le_sum fun n (_ : n ∈ Finset.range k) => h n
  simpa using this

/-- **C99 (end).** If moreover every AE is thicker than some positive bound after avulsion, sheets have a positive thickness and the placing
of objects ends, the loops end: with enough passes there is a model, with all strata, and more passes do not change it. -/
theorem C99_finishes [Archimedean α] {nx ny : ℕ} (hx : 0 < nx) (hy : 0 < ny) (g : GridZ α) (sd : StrataDict α) (cms : Contacts α)
    (draws : ℕ → StratumDraw α) (hu : Spec.UsableInput sd cms draws)
    (hpos : ∀ ts ∈ sd.types, ∀ t ∈ ts, t.geometry = "sheet" → Spec.PositiveSheets t)
    (hends : ∀ si < sd.n, ∀ ts, sd.types[sd.n - 1 - si]? = some ts → ∀ t ∈ ts, ∀ n, Spec.Ends t ((draws si).aes n)) (δ : α) (hδ : 0 < δ)
    (hd : ∀ si < sd.n, ∀ n, δ ≤ ((draws si).aes n).height ∧ δ ≤ ((draws si).aes n).height - ((draws si).aes n).avulAmt) :
    ∃ F m cms', m.strata.length = sd.n ∧ ∀ N ≥ F, generateModel nx ny g sd cms (fun si => Spec.withFuel N (draws si)) = .ok (m, cms') := by
  obtain ⟨F, ⟨m, cms'⟩, h⟩ := generateModel_done (g := g) hx hy hu hpos hends fun si hsi sp _ => falls_of_bound hδ fun n => by
    unfold aeFall
    split_ifs
    · rw [← sub_eq_add_neg]
      exact (hd si hsi n).2
    · rw [add_zero]
      exact (hd si hsi n).1
  exact ⟨F, m, cms', (C05_strata (h F le_rfl)).1, h⟩

end General

theorem exUsable : Spec.UsableInput exSD exCms exDraws where
  contacts := rfl
  params := rfl
  types := rfl
  surfaces := by
    intro c hc
    simp only [exSD, List.mem_cons, List.not_mem_nil, or_false] at hc
    subst hc
    exact ⟨rfl, Or.inl rfl⟩
  elements := fun _ _ _ _ => Or.inl rfl
  strata := by
    intro si hsi sp ts h1 h2
    have : si = 0 ∨ si = 1 := by
      have : exSD.n = 2 := rfl
      omega
    rcases this with rfl | rfl
    · simp only [exSD, show (2 - 1 - 0 : ℕ) = 1 from rfl, List.getElem?_cons_succ, List.getElem?_cons_zero, Option.some.injEq] at h1 h2
      subst h1 h2
      exact ⟨by simp [exDraws], by simp [exDraws], rfl, by simp, by simp [exTrough, exSheetT], fun t ht n => ⟨by simp [exDraws], by simp [exDraws]⟩⟩
    · simp only [exSD, show (2 - 1 - 1 : ℕ) = 0 from rfl, List.getElem?_cons_zero, Option.some.injEq] at h1 h2
      subst h1 h2
      exact ⟨by simp [exDraws], by simp [exDraws], rfl, by simp, by simp [exSheetT], fun t ht n => ⟨by simp [exDraws], by simp [exDraws]⟩⟩

example (e : PyErr) : generateModel 2 1 exGridZ exSD exCms exDraws ≠ .error (.err e) :=
  C99_no_exception (by decide) (by decide) _ _ _ _ exUsable e

example : ∃ F m cms', m.strata.length = 2 ∧ ∀ N ≥ F,
    generateModel 2 1 exGridZ exSD exCms (fun si => Spec.withFuel N (exDraws si)) = .ok (m, cms') :=
  C99_finishes (by decide) (by decide) _ exSD _ _ exUsable
    (by
      intro ts hts t ht _
      simp only [exSD, List.mem_cons, List.not_mem_nil, or_false] at hts
      rcases hts with rfl | rfl <;> simp only [List.mem_cons, List.not_mem_nil, or_false] at ht
      · subst ht
        simp [Spec.PositiveSheets, exSheetT]
      · rcases ht with rfl | rfl
        · simp_all [exTrough]
        · simp [Spec.PositiveSheets, exSheetT])
    (fun si _ ts _ t _ n _ b s => ⟨0, _, fun N _ => rfl⟩)
    1 (by norm_num) (by intro si _ n; simp only [exDraws]; norm_num)

/-! ### Ini-files -/

theorem settings_facts {C : Convs} {p : Ini} {iniDir : Path} {ini : List Char} {answer : Path} {st : Settings}
    (hnew : p.get "run" "dataoutputs" = none) (hst : settings C p iniDir ini answer = .ok st) :
    parseInifile C p = .ok st.parsed ∧ aeIds st.parsed = .ok st.ids ∧ ∃ u, gridCheck st.parsed.model = .ok u := by
  obtain ⟨h1, h2, h3⟩ := settings_ok hst
  obtain ⟨-, hP, -⟩ := parameters_ok h1
  refine ⟨parseAny_new hP hnew, h2, ?_⟩
  simp only [modelInit, bind_ok] at h3
  obtain ⟨u, hu, -⟩ := h3
  exact ⟨u, hu⟩

section Ini

variable {α : Type} [Field α] [LinearOrder α] [IsStrictOrderedRing α]

/-- **C99 (ini-files, partial).** If an ini-file in the new format is accepted and well filled (every element has a section, lists are
well written, modes of contact models in small letters, no negative weights or mean thicknesses, a positive weight for each stratum),
and the placing of objects raises no exception, then reading its values and generating the strata, AEs and sheets raises no exception,
for all normal and uniform random numbers, the uniform ones in [0, 1). Missing: accepted ini-files that are not well filled
(`C99_weights_refuted`, `C99_thickness_refuted`), and the old format. -/
theorem C99_ini_partial (C : Convs) (hfloat : ∀ t a, C.float t = .ok a → ∃ q, a = .num q) (p : Ini)
    (hnew : p.get "run" "dataoutputs" = none) (iniDir : Path) (ini : List Char) (answer : Path) (st : Settings)
    (hst : settings C p iniDir ini answer = .ok st) (hf : Spec.WellFilled p st.parsed) (r : Randoms α) (hr : Spec.Uniforms r)
    (d : ℕ → StratumDraw α) (hq : ∀ t si n, Spec.Quiet t ((d si).aes n)) (e : PyErr) :
    generateIni st.parsed st.ids r d ≠ .error (.err e) := by
  obtain ⟨h1, h2, _, h3⟩ := settings_facts hnew hst
  obtain ⟨I, names, hI, hx, hy, -, -, hus⟩ := genInput_usable hfloat h1 h2 h3 hf
  intro he
  unfold generateIni at he
  rw [of_ok (liftErr_ok.2 hI)] at he
  exact C99_no_exception hx hy _ _ _ _ (hus r d hr fun ts _ t _ si n => hq t.cast si n) e he

theorem draws_fuel (I : GenInput) (r : Randoms α) (d : ℕ → StratumDraw α) (N : ℕ) :
    I.draws r (fun si => Spec.withFuel N (d si)) = fun si => Spec.withFuel N (I.draws r d si) := by
  funext si
  unfold GenInput.draws
  cases I.reads[si]? <;> rfl

theorem rev_at {β : Type} {l : List β} {n si : ℕ} {b : β} (hl : l.length = n) (hsi : si < n) (h : l.reverse[si]? = some b) :
    l[n - 1 - si]? = some b := by
  rw [List.getElem?_reverse (by omega), hl] at h
  exact h

theorem meanAt_mem {s : StratumRead} {k : ℕ} (hk : k < s.types.length) (hlen : s.params.aeZMean.length = s.types.length) :
    meanAt s k ∈ s.params.aeZMean := by
  have hlt : (s.types.map ElemParams.name).idxOf (s.types[k]).name < s.params.aeZMean.length := by
    rw [hlen, ← List.length_map (f := ElemParams.name), List.idxOf_lt_length_iff]
    exact List.mem_map_of_mem (List.getElem_mem hk)
  unfold meanAt
  rw [List.getElem?_eq_getElem hk]
  simp only
  rw [List.getElem?_eq_getElem hlt, Option.getD_some]
  exact List.getElem_mem hlt

theorem thick_draws {P : Parsed} {ids : List (String × ℕ)} {n si : ℕ} {s : StratumRead} (hf : ReadFrom P ids n si s) {γ δ : ℚ} {r : Randoms α}
    (hr : Spec.Uniforms r) (ht : Spec.ThickEnough P n γ δ) (hγ : ∀ si n, (γ : α) ≤ 1 + r.normal si n / 10) (d : StratumDraw α)
    (hu : Spec.UsableStratum (s.params.cast : StratumParams α) (s.types.map ElemParams.cast) (drawStratum s r si d)) (k : ℕ) :
    (δ : α) ≤ ((drawStratum s r si d).aes k).height ∧
      (δ : α) ≤ ((drawStratum s r si d).aes k).height - ((drawStratum s r si d).aes k).avulAmt := by
  have hk : typeAt s r si k < s.types.length := by
    cases k with
    | zero => simpa [drawStratum] using hu.first
    | succ k => simpa [drawStratum] using hu.next k
  have hm := meanAt_mem hk (by simpa [StratumParams.cast] using hu.means)
  have h0 : (0 : α) ≤ (meanAt s (typeAt s r si k) : α) := hu.positive _ (List.mem_map_of_mem hm)
  obtain ⟨v, hv, hv2⟩ := hf.means
  rw [hv2 (List.ne_nil_of_mem hm)] at hv
  obtain ⟨t1, t2, t3⟩ := ht.aes si _ _ _ hv hf.avul _ hm
  have hg := mul_le_mul_of_nonneg_left (hγ si k) h0
  obtain ⟨v0, v1⟩ := hr.avulV si k
  simp only [drawStratum]
  generalize meanAt s (typeAt s r si k) = q at *
  have t1' : (δ : α) ≤ γ * q := by exact_mod_cast t1
  have t2' : (δ : α) + s.avul.1 ≤ γ * q := by exact_mod_cast t2
  have t3' : (δ : α) + s.avul.2 ≤ γ * q := by exact_mod_cast t3
  constructor
  · linarith
  · have : (s.avul.1 : α) + (s.avul.2 - s.avul.1) * r.avulV si k ≤ γ * q - δ := by
      have e : (s.avul.1 : α) + (s.avul.2 - s.avul.1) * r.avulV si k = (1 - r.avulV si k) * s.avul.1 + r.avulV si k * s.avul.2 := by ring
      rw [e]
      have a1 := mul_le_mul_of_nonneg_left (show (s.avul.1 : α) ≤ γ * q - δ by linarith) (show 0 ≤ 1 - r.avulV si k by linarith)
      have a2 := mul_le_mul_of_nonneg_left (show (s.avul.2 : α) ≤ γ * q - δ by linarith) v0
      linarith
    linarith

theorem positive_cast {t : ElemParams ℚ} (h : Spec.PositiveSheets t) : Spec.PositiveSheets (t.cast : ElemParams α) := by
  rcases h with h | ⟨h, h'⟩
  · refine Or.inl ?_
    simp only [ElemParams.cast, h]
    norm_num
  · refine Or.inr ⟨by simpa [ElemParams.cast] using h, fun f0 f1 hf => ?_⟩
    simp only [ElemParams.cast, Option.map_eq_some_iff, Prod.mk.injEq] at hf
    obtain ⟨⟨g0, g1⟩, hg, rfl, rfl⟩ := hf
    obtain ⟨a, b⟩ := h' g0 g1 hg
    exact ⟨by exact_mod_cast a, by exact_mod_cast b⟩

theorem positive_sheets {P : Parsed} (ht : Spec.ThickSheets P) {t : ElemParams ℚ} {e : Element} {i : ℕ}
    (he : (t.name, e) ∈ P.elements) (hre : readElement t.name i e = .ok t) (hg : t.geometry = "sheet") : Spec.PositiveSheets t := by
  simp only [readElement, bind_ok, pure_ok, dget_ok] at hre
  obtain ⟨gv, hgv, g, hgt, _, -, _, -, _, -, _, -, _, -, _, -, q, hq, tv, htv, tr, htr, hrt⟩ := hre
  obtain ⟨hb1, hb2, hb3⟩ : t.geometry = String.ofList g ∧ t.lensThickness = q ∧ t.sizeZtrend = tr := by
    rw [← hrt]
    exact ⟨rfl, rfl, rfl⟩
  have hgs : g = "sheet".toList := by
    rw [hb1] at hg
    rw [← hg]
    simp
  subst hgs
  have hgeo : e.dict "geometry" = some (.leaf (.text "sheet".toList)) := by
    rw [hgv]
    unfold asText at hgt
    split at hgt
    · cases hgt
      rfl
    · cases hgt
  rw [lensOf, if_pos rfl] at hq
  simp only [bind_ok, dget_ok] at hq
  obtain ⟨v, hv, hqv⟩ := hq
  rw [numOf_ok hqv] at hv
  rcases ht _ _ he hgeo _ hv with h | ⟨h, h'⟩
  · exact Or.inl (by rw [hb2, h])
  · refine Or.inr ⟨by rw [hb2]; exact h, fun f0 f1 hf => ?_⟩
    rw [hb3] at hf
    subst hf
    apply h'
    rw [htv]
    unfold trendOf at htr
    by_cases hn : tv = .leaf .none
    · rw [if_pos hn] at htr
      cases htr
    rw [if_neg hn] at htr
    simp only [bind_ok] at htr
    obtain ⟨l, hl, htr⟩ := htr
    split at htr
    · simp only [pure_ok, Option.some.injEq, Prod.mk.injEq] at htr
      obtain ⟨rfl, rfl⟩ := htr
      rw [(numsOf_ok hl).2 (by simp)]
    · cases htr

/-- The types of AEs come from sections of the ini-file. -/
theorem sections_of_types {C : Convs} {p : Ini} {P : Parsed} {ids : List (String × ℕ)} (h1 : parseInifile C p = .ok P) {names : List Val}
    (hnames : P.strata "strata" = some (.node names)) {I : GenInput} (hI : genInput P ids = .ok I) (hn : I.strata.n = names.length) :
    ∀ ts ∈ I.strata.types, ∀ t ∈ ts, ∃ e i, (t.name, e) ∈ P.elements ∧ readElement t.name i e = .ok t := by
  have hin := genInput_from h1 hnames hI
  have htl : I.strata.types.length = names.length := by
    simp only [genInput, bind_ok, pure_ok] at hI
    obtain ⟨_, -, _, -, _, -, _, -, _, -, _, -, _, -, _, -, _, -, _, -, _, hsv, n, hn', _, -, _, -, reads, hreads, rfl⟩ := hI
    simp only [List.length_map, List.length_reverse, mapPy_len hreads, List.length_range]
    exact hn
  intro ts hts t htt
  obtain ⟨k, hk, rfl⟩ := List.getElem_of_mem hts
  rw [htl] at hk
  obtain ⟨s, -, hfrom, -, hs⟩ := hin.reads (names.length - 1 - k) (by omega)
  have := rev_at htl (by omega) hs
  rw [show names.length - 1 - (names.length - 1 - k) = k by omega, List.getElem?_eq_getElem (by rw [htl]; exact hk)] at this
  rw [Option.some.inj this] at htt
  obtain ⟨e, i, he, -, -, hre⟩ := hfrom.elements t htt
  exact ⟨e, i, he, hre⟩

/-- Generation from an ini-file ends if the AEs of each stratum, put one below the other, come below every level. -/
theorem ini_falls [Archimedean α] {C : Convs} (hfloat : ∀ t a, C.float t = .ok a → ∃ q, a = .num q) {p : Ini}
    (hnew : p.get "run" "dataoutputs" = none) {iniDir : Path} {ini : List Char} {answer : Path} {st : Settings}
    (hst : settings C p iniDir ini answer = .ok st) (hf : Spec.WellFilled p st.parsed) {names : List Val}
    (hnames : st.parsed.strata "strata" = some (.node names)) (ht : Spec.ThickSheets st.parsed)
    {r : Randoms α} (hr : Spec.Uniforms r) {d : ℕ → StratumDraw α}
    (hq : ∀ t e i, (t.name, e) ∈ st.parsed.elements → readElement t.name i e = .ok t → ∀ si n,
      Spec.Quiet (t.cast : ElemParams α) ((d si).aes n) ∧ Spec.Ends (t.cast : ElemParams α) ((d si).aes n))
    (hfall : ∀ I, genInput st.parsed st.ids = .ok I → ∀ si < names.length, ∀ s, I.reads[si]? = some s → ReadFrom st.parsed st.ids names.length si s →
      Spec.UsableStratum (s.params.cast : StratumParams α) (s.types.map ElemParams.cast) (drawStratum s r si (d si)) →
      ∀ T, ∃ k, T ≤ ∑ n ∈ Finset.range k, aeFall (s.params.cast : StratumParams α) ((drawStratum s r si (d si)).aes n)) :
    ∃ F m cms', m.strata.length = names.length ∧
      ∀ N ≥ F, generateIni st.parsed st.ids r (fun si => Spec.withFuel N (d si)) = .ok (m, cms') := by
  obtain ⟨h1, h2, _, h3⟩ := settings_facts hnew hst
  obtain ⟨I, names', hI, hx, hy, hnames', hn, hus⟩ := genInput_usable hfloat h1 h2 h3 hf
  rw [hnames] at hnames'
  cases hnames'
  have hin := genInput_from h1 hnames hI
  have htl : I.strata.types.length = names.length := by
    simp only [genInput, bind_ok, pure_ok] at hI
    obtain ⟨_, -, _, -, _, -, _, -, _, -, _, -, _, -, _, -, _, -, _, -, _, hsv, n, hn', _, -, _, -, reads, hreads, rfl⟩ := hI
    simp only [List.length_map, List.length_reverse, mapPy_len hreads, List.length_range]
    exact hn
  have htypes := sections_of_types h1 hnames hI hn
  have hu := hus r d hr fun ts hts t htt si n => by
    obtain ⟨e, i, he, hre⟩ := htypes ts hts t htt
    exact (hq t e i he hre si n).1
  obtain ⟨F, ⟨m, cms'⟩, h⟩ := generateModel_done hx hy (g := I.grid.cast) (sd := I.strata.cast) (cms := fun n => (I.contacts n).cast)
    (draws := I.draws r d) hu
    (by
      intro ts hts t htt hg
      obtain ⟨ts0, hts0, rfl⟩ := List.mem_map.1 hts
      obtain ⟨t0, ht0, rfl⟩ := List.mem_map.1 htt
      obtain ⟨e, i, he, hre⟩ := htypes ts0 hts0 t0 ht0
      exact positive_cast (positive_sheets ht he hre hg))
    (by
      intro si _ ts hts t htt n
      obtain ⟨ts0, hts0, rfl⟩ := List.mem_map.1 (List.mem_of_getElem? hts)
      obtain ⟨t0, ht0, rfl⟩ := List.mem_map.1 htt
      obtain ⟨e, i, he, hre⟩ := htypes ts0 hts0 t0 ht0
      have : ((I.draws r d si).aes n).objs = ((d si).aes n).objs := by
        unfold GenInput.draws
        cases I.reads[si]? <;> rfl
      unfold Spec.Ends
      rw [this]
      exact (hq t0 e i he hre si n).2)
    fun si hsi sp hsp => by
      have hsi : si < names.length := by
        rw [← hn]
        exact hsi
      obtain ⟨s, hs, hfrom, hp, hts⟩ := hin.reads si hsi
      have hpl : I.strata.params.length = names.length := by
        have := hu.params
        simp only [StrataDict.cast, List.length_map] at this
        exact this.trans hn
      have := hu.strata si (by simp only [StrataDict.cast]; rw [hn]; exact hsi) s.params.cast (s.types.map ElemParams.cast)
        (by simp only [StrataDict.cast, List.getElem?_map]; rw [hn, rev_at hpl hsi hp]; rfl)
        (by simp only [StrataDict.cast, List.getElem?_map]; rw [hn, rev_at htl hsi hts]; rfl)
      have hd : I.draws r d si = drawStratum s r si (d si) := by
        unfold GenInput.draws
        rw [hs]
      have hsp' : sp = s.params.cast := by
        simp only [StrataDict.cast, List.getElem?_map] at hsp
        rw [hn, rev_at hpl hsi hp] at hsp
        exact (Option.some.inj hsp).symm
      rw [hd] at this ⊢
      rw [hsp']
      exact hfall I hI si hsi s hs hfrom this
  refine ⟨F, m, cms', (C05_strata (h F le_rfl)).1.trans hn, fun N hN => ?_⟩
  unfold generateIni
  rw [of_ok (liftErr_ok.2 hI), draws_fuel]
  exact h N hN

/-- Generation from an ini-file ends; `C99_ini_finishes_partial` with less asked of the placing of objects. -/
theorem ini_finishes [Archimedean α] {C : Convs} (hfloat : ∀ t a, C.float t = .ok a → ∃ q, a = .num q) {p : Ini}
    (hnew : p.get "run" "dataoutputs" = none) {iniDir : Path} {ini : List Char} {answer : Path} {st : Settings}
    (hst : settings C p iniDir ini answer = .ok st) (hf : Spec.WellFilled p st.parsed) {names : List Val}
    (hnames : st.parsed.strata "strata" = some (.node names)) {γ δ : ℚ} (hδ : 0 < δ) (ht : Spec.ThickEnough st.parsed names.length γ δ)
    {r : Randoms α} (hr : Spec.Uniforms r) (hγ : ∀ si n, (γ : α) ≤ 1 + r.normal si n / 10) {d : ℕ → StratumDraw α}
    (hq : ∀ t e i, (t.name, e) ∈ st.parsed.elements → readElement t.name i e = .ok t → ∀ si n,
      Spec.Quiet (t.cast : ElemParams α) ((d si).aes n) ∧ Spec.Ends (t.cast : ElemParams α) ((d si).aes n)) :
    ∃ F m cms', m.strata.length = names.length ∧
      ∀ N ≥ F, generateIni st.parsed st.ids r (fun si => Spec.withFuel N (d si)) = .ok (m, cms') :=
  ini_falls hfloat hnew hst hf hnames ht.sheets hr hq fun _ _ si _ s _ hs hu =>
    falls_of_bound (δ := (δ : α)) (by exact_mod_cast hδ) fun n => by
      obtain ⟨a1, a2⟩ := thick_draws hs hr ht hγ _ hu n
      unfold aeFall
      split_ifs
      · rw [← sub_eq_add_neg]
        exact a2
      · rw [add_zero]
        exact a1

/-- **C99 (ini-files, end, partial).** If moreover the mean thicknesses exceed the avulsions, lens thicknesses of sheets are positive,
the normal random numbers are not too far below zero and the placing of objects ends, then generation ends, with one stratum for each
name in the option `strata`. Missing: as above. -/
theorem C99_ini_finishes_partial [Archimedean α] (C : Convs) (hfloat : ∀ t a, C.float t = .ok a → ∃ q, a = .num q) (p : Ini)
    (hnew : p.get "run" "dataoutputs" = none) (iniDir : Path) (ini : List Char) (answer : Path) (st : Settings)
    (hst : settings C p iniDir ini answer = .ok st) (hf : Spec.WellFilled p st.parsed) (names : List Val)
    (hnames : st.parsed.strata "strata" = some (.node names)) (γ δ : ℚ) (hδ : 0 < δ) (ht : Spec.ThickEnough st.parsed names.length γ δ)
    (r : Randoms α) (hr : Spec.Uniforms r) (hγ : ∀ si n, (γ : α) ≤ 1 + r.normal si n / 10) (d : ℕ → StratumDraw α)
    (hq : ∀ t si n, Spec.Quiet t ((d si).aes n) ∧ Spec.Ends t ((d si).aes n)) :
    ∃ F m cms', m.strata.length = names.length ∧
      ∀ N ≥ F, generateIni st.parsed st.ids r (fun si => Spec.withFuel N (d si)) = .ok (m, cms') :=
  ini_finishes hfloat hnew hst hf hnames hδ ht hr hγ fun t _ _ _ _ si n => hq t.cast si n

end Ini

/-! ### A well filled ini-file -/

/-- Check for `Spec.Token`. -/
def tokenB (t : List Char) : Bool := decide (t ≠ [] ∧ '[' ∉ t ∧ ']' ∉ t ∧ ',' ∉ t ∧ ' ' ∉ t)

/-- Check for a leaf that is a token. -/
def leafB : Tree (List Char) → Bool
  | .leaf t => tokenB t
  | .node _ => false

/-- Check for a list of tokens that is not empty. -/
def rowB : Tree (List Char) → Bool
  | .leaf _ => false
  | .node [] => false
  | .node (t :: l) => (t :: l).all leafB

/-- Check for `Spec.Shallow`. -/
def shallowB : Tree (List Char) → Bool
  | .leaf t => tokenB t
  | .node [] => false
  | .node (t :: l) => (t :: l).all leafB || (t :: l).all rowB

theorem leaves_of {l : List (Tree (List Char))} (h : l.all leafB = true) : ∃ m : List (List Char), l = m.map .leaf ∧ ∀ t ∈ m, Spec.Token t := by
  induction l with
  | nil => exact ⟨[], rfl, by simp⟩
  | cons t l ih =>
    simp only [List.all_cons, Bool.and_eq_true] at h
    obtain ⟨m, rfl, hm⟩ := ih h.2
    cases t with
    | node _ => simp [leafB] at h
    | leaf t =>
      refine ⟨t :: m, rfl, ?_⟩
      simp only [List.mem_cons, forall_eq_or_imp]
      exact ⟨by simpa [leafB, tokenB, Spec.Token] using h.1, hm⟩

theorem rows_of {l : List (Tree (List Char))} (h : l.all rowB = true) :
    ∃ mm : List (List (List Char)), (l = mm.map fun m => .node (m.map .leaf)) ∧ ∀ m ∈ mm, m ≠ [] ∧ ∀ t ∈ m, Spec.Token t := by
  induction l with
  | nil => exact ⟨[], rfl, by simp⟩
  | cons t l ih =>
    simp only [List.all_cons, Bool.and_eq_true] at h
    obtain ⟨mm, rfl, hm⟩ := ih h.2
    cases t with
    | leaf _ => simp [rowB] at h
    | node ts =>
      cases ts with
      | nil => simp [rowB] at h
      | cons a ts =>
        obtain ⟨m, e, hm'⟩ := leaves_of (l := a :: ts) (by simpa [rowB] using h.1)
        refine ⟨m :: mm, by rw [e]; rfl, ?_⟩
        simp only [List.mem_cons, forall_eq_or_imp]
        refine ⟨⟨?_, hm'⟩, hm⟩
        rintro rfl
        simp at e

theorem shallow_of {t : Tree (List Char)} (h : shallowB t = true) : Spec.Shallow t := by
  cases t with
  | leaf t => exact .scalar (by simpa [shallowB, tokenB, Spec.Token] using h)
  | node l =>
    cases l with
    | nil => simp [shallowB] at h
    | cons a l =>
      simp only [shallowB, Bool.or_eq_true] at h
      rcases h with h | h
      · obtain ⟨m, e, hm⟩ := leaves_of h
        rw [e]
        refine .flat m ?_ hm
        rintro rfl
        simp at e
      · obtain ⟨m, e, hm⟩ := rows_of h
        rw [e]
        refine .nested m ?_ hm
        rintro rfl
        simp at e

theorem spaced_filter (s : List Char) : Spec.Spaced (s.filter (· ≠ ' ')) s := by
  induction s with
  | nil => exact .nil
  | cons c s ih =>
    by_cases h : c = ' '
    · subst h
      simpa using ih.blank
    · simpa [h] using ih.keep c

/-- Check that a text writes a list. -/
def writesB (s : List Char) (t : Tree (List Char)) : Bool := shallowB t && decide (Spec.render t = s.filter (· ≠ ' '))

theorem written_of {s : List Char} {t : Tree (List Char)} (h : writesB s t = true) : Spec.WellWritten s := by
  simp only [writesB, Bool.and_eq_true] at h
  refine ⟨t, shallow_of h.1, ?_⟩
  rw [of_decide_eq_true h.2]
  exact spaced_filter s

/-- A token of the example. -/
def tok (s : String) : Tree (List Char) := .leaf s.toList

/-- A list of tokens. -/
def toks (l : List String) : Tree (List Char) := .node (l.map tok)

/-- What the list options of the example write. -/
def exLists : List (String × Tree (List Char)) :=
  [("strata", toks ["clay", "gravel"]), ("strata_contact_models", .node [toks ["random", "4", "1", "20", "20"]]),
    ("ae", toks ["sheets", "scour"]), ("ae_in_strata", .node [toks ["sheets"], toks ["sheets", "scour"]]),
    ("ae_prob", .node [toks ["1"], toks ["1", "2"]]), ("ae_z_mean", .node [toks ["2"], toks ["2", "3"]]),
    ("avul_prob", .node [toks ["0"], toks ["1"]]), ("avul", .node [toks ["0", "1"], toks ["1", "2"]]),
    ("bg_facies", toks ["silt", "sand"]), ("bg_azim", tok "0"), ("bg_dip", toks ["0", "3"])]

/-- Check of the list options. -/
def listsB (p : Ini) : Bool := Spec.strataLists.all fun k =>
  match p.get "strata" k, exLists.lookup k with
  | some (.leaf (.text s)), some t => writesB s t
  | _, _ => false

theorem lists_of {p : Ini} (h : listsB p = true) (k : String) (hk : k ∈ Spec.strataLists) (t : List Char)
    (ht : p.get "strata" k = some (.leaf (.text t))) : Spec.WellWritten t := by
  have := List.all_eq_true.1 h k hk
  rw [ht] at this
  cases hl : exLists.lookup k with
  | none => simp [hl] at this
  | some w =>
    rw [hl] at this
    exact written_of this

theorem numTable_inj {l l' : List (List ℚ)} (h : numTable l = numTable l') : l = l' := by
  simp only [numTable, Tree.node.injEq] at h
  refine List.map_injective_iff.2 ?_ h
  intro a b hab
  simp only [numList, Tree.node.injEq] at hab
  refine List.map_injective_iff.2 ?_ hab
  intro x y hxy
  simpa [numVal] using hxy

/-- The example, written so that `exNames_known` applies. -/
def exFill : Ini := iniOf (withOptions "run" [] exSections)

/-- What the example is parsed to, as far as `Spec.WellFilled` needs it. -/
def filledB (P : Parsed) : Bool :=
  decide (P.strata "ae_in_strata" = some (.node [
      .node [.leaf (.text "sheets".toList)], .node [.leaf (.text "sheets".toList), .leaf (.text "scour".toList)]])) &&
  (decide (P.strata "ae_prob" = some (numTable [[1], [1, 2]])) && (decide (P.strata "ae_z_mean" = some (numTable [[2], [2, 3]])) &&
  (P.contacts.all (fun c => decide (c.mode.toList.map Char.toLower = c.mode.toList)) &&
   P.elements.all fun e => decide (e.2.contact.mode.toList.map Char.toLower = e.2.contact.mode.toList))))

theorem filled_of {P : Parsed} (h : filledB P = true) : Spec.WellFilled exFill P := by
  simp only [filledB, Bool.and_eq_true] at h
  obtain ⟨h1, h2, h3, h4, h5⟩ := h
  have hsec : elementSections exFill = ["sheets", "scour"] := by rfl
  refine ⟨exNames_known [] P h1, fun k hk t ht => lists_of (p := exFill) (by decide +kernel) k hk t ht, ?_, ?_, ?_, ?_, ?_⟩
  · intro s hs t ht
    rw [hsec] at hs
    have : ∀ s ∈ ["sheets", "scour"], exFill.get s "size_ztrend" = none := by decide +kernel
    rw [this s hs] at ht
    cases ht
  · intro c hc
    have := of_decide_eq_true (List.all_eq_true.1 h4 c hc)
    exact this
  · intro c hc
    have := of_decide_eq_true (List.all_eq_true.1 h5 c hc)
    exact this
  · intro ll hll
    rw [of_decide_eq_true h2] at hll
    have := numTable_inj (Option.some.inj hll)
    subst this
    decide +kernel
  · intro ll hll
    rw [of_decide_eq_true h3] at hll
    have := numTable_inj (Option.some.inj hll)
    subst this
    decide +kernel

/-- What the example is parsed to, as far as `Spec.ThickEnough` needs it. -/
def thickB (P : Parsed) : Bool :=
  decide (P.strata "strata" = some (.node [.leaf (.text "clay".toList), .leaf (.text "gravel".toList)])) &&
  (decide (P.strata "ae_z_mean" = some (numTable [[2], [2, 3]])) && (decide (P.strata "avul" = some (numTable [[0, 1], [1, 2]])) &&
  P.elements.all fun e => decide (e.2.dict "size_ztrend" = some (.leaf .none)) &&
    match e.2.dict "lens_thickness" with
    | some (.leaf (.num q)) => decide (0 < q)
    | _ => true))

theorem numList_inj {l l' : List ℚ} (h : numList l = numList l') : l = l' := by
  simp only [numList, Tree.node.injEq] at h
  refine List.map_injective_iff.2 ?_ h
  intro x y hxy
  simpa [numVal] using hxy

theorem thick_of {P : Parsed} (h : thickB P = true) :
    P.strata "strata" = some (.node [.leaf (.text "clay".toList), .leaf (.text "gravel".toList)]) ∧
      Spec.ThickEnough P 2 (21 / 20) (1 / 10) := by
  simp only [thickB, Bool.and_eq_true] at h
  obtain ⟨h1, h2, h3, h4⟩ := h
  replace h2 := of_decide_eq_true h2
  replace h3 := of_decide_eq_true h3
  refine ⟨of_decide_eq_true h1, ?_, ?_⟩
  · rintro si means lo hi ⟨l, e1, -, g1⟩ ⟨l', e2, -, g2⟩ m hm
    rw [h2] at e1
    rw [h3] at e2
    cases e1
    cases e2
    cases si with
    | zero =>
      have q1 := numList_inj (Option.some.inj g1)
      have q2 := numList_inj (Option.some.inj g2)
      cases q2
      subst q1
      simp only [List.mem_cons, List.not_mem_nil, or_false] at hm
      rcases hm with rfl | rfl <;> norm_num
    | succ k =>
      rw [show 2 - 1 - (k + 1) = 0 by omega] at g1 g2
      have q1 := numList_inj (Option.some.inj g1)
      have q2 := numList_inj (Option.some.inj g2)
      cases q2
      subst q1
      simp only [List.mem_cons, List.not_mem_nil, or_false] at hm
      subst hm
      norm_num
  · intro name e he _ q hq
    have := List.all_eq_true.1 h4 _ he
    rw [Bool.and_eq_true] at this
    obtain ⟨t1, t2⟩ := this
    simp only [hq] at t2
    refine Or.inr ⟨of_decide_eq_true t2, fun f0 f1 hf => ?_⟩
    rw [of_decide_eq_true t1] at hf
    cases hf

theorem exFill_ok : ∃ st, settings exConvs exFill ["m"] "a.ini".toList [] = .ok st ∧ (filledB st.parsed && thickB st.parsed) = true :=
  ok_check (by decide +kernel)

theorem exConvs_number (t : List Char) (a : Atom) (h : exConvs.float t = .ok a) : ∃ q, a = .num q := by
  simp only [exConvs] at h
  split_ifs at h
  cases h
  exact ⟨_, rfl⟩

theorem exDraws_quiet (t : ElemParams ℚ) (si n : ℕ) : Spec.Quiet t ((exDraws si).aes n) ∧ Spec.Ends t ((exDraws si).aes n) :=
  ⟨⟨by simp [exDraws], by simp [exDraws]⟩, fun _ b s => ⟨0, _, fun N _ => rfl⟩⟩

/-- Uniform numbers for the example. -/
def exUniform (_ n : ℕ) : ℚ := 1 / (n + 2)

theorem exUniform_unit (si n : ℕ) : 0 ≤ exUniform si n ∧ exUniform si n < 1 := by
  have : (0 : ℚ) ≤ n := by positivity
  unfold exUniform
  refine ⟨by positivity, ?_⟩
  rw [div_lt_one (by positivity)]
  linarith

/-- Random numbers for the example. -/
def exRandoms : Randoms ℚ where
  first _ := 0
  next := exUniform
  normal _ _ := 1 / 2
  avulU := exUniform
  avulV := exUniform

theorem exRandoms_unit : Spec.Uniforms exRandoms where
  first _ := ⟨le_rfl, one_pos⟩
  next := exUniform_unit
  avulU := exUniform_unit
  avulV := exUniform_unit

example (e : PyErr) : ∃ st, settings exConvs exFill ["m"] "a.ini".toList [] = .ok st ∧
    generateIni st.parsed st.ids exRandoms exDraws ≠ .error (.err e) := by
  obtain ⟨st, hst, hf⟩ := exFill_ok
  rw [Bool.and_eq_true] at hf
  exact ⟨st, hst, C99_ini_partial exConvs exConvs_number exFill (by decide +kernel) _ _ _ st hst (filled_of hf.1) _ exRandoms_unit _
    (fun t si n => (exDraws_quiet t si n).1) e⟩

theorem exFill_run : ∃ st F m cms', settings exConvs exFill ["m"] "a.ini".toList [] = .ok st ∧ thickB st.parsed = true ∧ m.strata.length = 2 ∧
    ∀ N ≥ F, generateIni st.parsed st.ids exRandoms (fun si => Spec.withFuel N (exDraws si)) = .ok (m, cms') := by
  obtain ⟨st, hst, hf⟩ := exFill_ok
  rw [Bool.and_eq_true] at hf
  obtain ⟨h1, h2⟩ := thick_of hf.2
  obtain ⟨F, m, cms', h⟩ := C99_ini_finishes_partial exConvs exConvs_number exFill (by decide +kernel) _ _ _ st hst (filled_of hf.1) _ h1 _ _
    (by norm_num) h2 exRandoms exRandoms_unit (by intro si n; simp only [exRandoms]; norm_num) exDraws exDraws_quiet
  exact ⟨st, F, m, cms', hst, hf.2, h⟩

/-! ### Accepted ini-files that generation cannot use -/

/-- The example on a coarse grid, with the given options of the section `strata`. -/
def exWith (os : List (String × String)) : Ini :=
  iniOf (withOptions "strata" os (withOptions "model" [("lx", "10"), ("ly", "5")] exSections))

/-- Converters for the examples: strings of digits are numbers, also with a minus sign. -/
def exMinus : Convs where
  int s := exConvs.int s
  float s := match s with
    | '-' :: t => if t ≠ [] ∧ t.all Char.isDigit = true then .ok (.num (-digitsValue t)) else .error .valueError
    | _ => exConvs.float s

/-- How generation from the settings ends. -/
def endOf (r : Except PyErr Settings) : Option PyErr :=
  match r with
  | .error _ => none
  | .ok st =>
    match generateIni st.parsed st.ids exRandoms exDraws with
    | .error (.err e) => some e
    | _ => none

theorem endOf_some {r : Except PyErr Settings} {e : PyErr} (h : endOf r = some e) :
    ∃ st, r = .ok st ∧ generateIni st.parsed st.ids exRandoms exDraws = .error (.err e) := by
  cases r with
  | error _ => cases h
  | ok st =>
    refine ⟨st, rfl, ?_⟩
    simp only [endOf] at h
    split at h
    · rename_i e' heq
      cases h
      exact heq
    · cases h

/-- **C99 refuted (weights).** An ini-file whose weights of a stratum are all zero is accepted; generation then ends with a
`ValueError`. -/
theorem C99_weights_refuted : ∃ st, settings exConvs (exWith [("ae_prob", "[[1], [0, 0]]")]) ["m"] "a.ini".toList [] = .ok st ∧
    generateIni st.parsed st.ids exRandoms exDraws = .error (.err .valueError) :=
  endOf_some (by decide +kernel)

/-- **C99 refuted (thickness).** An ini-file with a negative mean thickness is accepted; generation then ends with a `ValueError`. -/
theorem C99_thickness_refuted : ∃ st, settings exMinus (exWith [("ae_z_mean", "[[2], [-2, 3]]")]) ["m"] "a.ini".toList [] = .ok st ∧
    generateIni st.parsed st.ids exRandoms exDraws = .error (.err .valueError) :=
  endOf_some (by decide +kernel)

end Hyvr
