import Verif.Lemmas.Translate
import Verif.Props.Placing

/-!
C113: an old-format ini-file and a new-format ini-file that says the same give the same realisation.
-/

namespace Hyvr

open Py Spec

/-- **C113.** If an ini-file of the old format and one of the new format are both accepted and the second says the same as the first under the new names
(`Spec.Translation`: sheets and truncated ellipsoids, backgrounds of elements with equal azimuth and dip), with heterogeneity, then they give the same
realisation from the same random numbers: the numbers of the elements, the model, the cells, and the hydraulic parameters or the exception are the same. -/
theorem C113_same (C : Convs) (p q : Ini) (o : OldParsed) (P Q : Parsed) (ho : parseDeprecated C p = .ok o)
    (hp : (p.get "run" "dataoutputs").isSome) (hP : parseAny C p = .ok P) (hq : q.get "run" "dataoutputs" = none) (hQ : parseAny C q = .ok Q)
    (ht : Translation p o q Q) (hhet : Q.model "heterogeneity" = some (.leaf (.bool true))) (hhy : q.get "hydraulics" "hydro" = none) :
    aeIds P = aeIds Q ∧ (∀ ids r o d, generateObjects P ids r o d = generateObjects Q ids r o d) ∧
      ∀ ids r o d field, simulate P ids r o d field = simulate Q ids r o d field := by
  have hP' : convertOld o = .ok P := by
    unfold parseAny at hP
    split_ifs at hP
    rw [ho] at hP
    exact hP
  have := translation_same ho hP' (parseAny_new hQ hq) ht hhet hhy
  exact ⟨aeIds_agree this, generateObjects_agree this, simulate_agree this⟩

theorem settings_any {C : Convs} {p : Ini} {iniDir : Path} {ini : List Char} {answer : Path} {st : Settings}
    (h : settings C p iniDir ini answer = .ok st) : parseAny C p = .ok st.parsed ∧ aeIds st.parsed = .ok st.ids := by
  obtain ⟨h1, h2, -⟩ := settings_ok h
  exact ⟨(parameters_ok h1).2.1, h2⟩

theorem settings_generate {C : Convs} {p q : Ini} {o : OldParsed} {dp dq : Path} {ip iq : List Char} {ap aq : Path} {sp sq : Settings}
    (ho : parseDeprecated C p = .ok o) (hp : (p.get "run" "dataoutputs").isSome) (hsp : settings C p dp ip ap = .ok sp)
    (hq : q.get "run" "dataoutputs" = none) (hsq : settings C q dq iq aq = .ok sq) (ht : Translation p o q sq.parsed)
    (hhet : sq.parsed.model "heterogeneity" = some (.leaf (.bool true))) (hhy : q.get "hydraulics" "hydro" = none) (r : Randoms ℝ)
    (ob : ℕ → ℕ → ObjRandoms) (d : ℕ → StratumDraw ℝ) : generateObjects sp.parsed sp.ids r ob d = generateObjects sq.parsed sq.ids r ob d := by
  obtain ⟨p1, p2⟩ := settings_any hsp
  obtain ⟨q1, q2⟩ := settings_any hsq
  obtain ⟨h1, h2, -⟩ := C113_same C p q o _ _ ho hp p1 hq q1 ht hhet hhy
  rw [h2, Except.ok.inj (p2.symm.trans (h1.trans q2))]

/-- **C113 (no exception).** An accepted old-format file raises no exception in the generation of strata, AEs, troughs and sheets if the
new-format file that says the same is accepted and well filled and its objects can be placed. -/
theorem C113_no_exception (C : Convs) (hfloat : ∀ t a, C.float t = .ok a → ∃ q, a = .num q) (hint : ∀ t a, C.int t = .ok a → ∃ n : ℤ, a = .num n)
    (p q : Ini) (o : OldParsed) (ho : parseDeprecated C p = .ok o) (hp : (p.get "run" "dataoutputs").isSome) (hq : q.get "run" "dataoutputs" = none)
    (dp dq : Path) (ip iq : List Char) (ap aq : Path) (sp sq : Settings) (hsp : settings C p dp ip ap = .ok sp) (hsq : settings C q dq iq aq = .ok sq)
    (ht : Translation p o q sq.parsed) (hhet : sq.parsed.model "heterogeneity" = some (.leaf (.bool true))) (hhy : q.get "hydraulics" "hydro" = none)
    (hf : WellFilled q sq.parsed) (hpl : Placeable q sq.parsed) (r : Randoms ℝ) (hr : Uniforms r) (ob : ℕ → ℕ → ObjRandoms)
    (hu : ∀ si n, UniformObjs (ob si n)) (d : ℕ → StratumDraw ℝ) (e : PyErr) : generateObjects sp.parsed sp.ids r ob d ≠ .error (.err e) := by
  rw [settings_generate ho hp hsp hq hsq ht hhet hhy]
  exact C104_no_exception C hfloat hint q hq dq iq aq sq hsq hf hpl r hr ob hu d e

/-- **C113 (end).** If moreover the mean thicknesses of the new-format file exceed the avulsions, lens thicknesses of sheets are positive and the normal
random numbers for the thicknesses are not too far below zero, then the generation from the old-format file ends with a model. -/
theorem C113_finishes (C : Convs) (hfloat : ∀ t a, C.float t = .ok a → ∃ q, a = .num q) (hint : ∀ t a, C.int t = .ok a → ∃ n : ℤ, a = .num n)
    (p q : Ini) (o : OldParsed) (ho : parseDeprecated C p = .ok o) (hp : (p.get "run" "dataoutputs").isSome) (hq : q.get "run" "dataoutputs" = none)
    (dp dq : Path) (ip iq : List Char) (ap aq : Path) (sp sq : Settings) (hsp : settings C p dp ip ap = .ok sp) (hsq : settings C q dq iq aq = .ok sq)
    (ht : Translation p o q sq.parsed) (hhet : sq.parsed.model "heterogeneity" = some (.leaf (.bool true))) (hhy : q.get "hydraulics" "hydro" = none)
    (hf : WellFilled q sq.parsed) (hpl : Placeable q sq.parsed) (names : List Val) (hnames : sq.parsed.strata "strata" = some (.node names)) (γ δ : ℚ)
    (hδ : 0 < δ) (hth : ThickEnough sq.parsed names.length γ δ) (r : Randoms ℝ) (hr : Uniforms r) (hγ : ∀ si n, (γ : ℝ) ≤ 1 + r.normal si n / 10)
    (ob : ℕ → ℕ → ObjRandoms) (hu : ∀ si n, UniformObjs (ob si n)) (d : ℕ → StratumDraw ℝ) :
    ∃ F m cms', m.strata.length = names.length ∧
      ∀ N ≥ F, generateObjects sp.parsed sp.ids r ob (fun si => withFuel N (d si)) = .ok (m, cms') := by
  obtain ⟨F, m, cms', h1, h2⟩ := C104_finishes C hfloat hint q hq dq iq aq sq hsq hf hpl names hnames γ δ hδ hth r hr hγ ob hu d
  exact ⟨F, m, cms', h1, fun N hN => by rw [settings_generate ho hp hsp hq hsq ht hhet hhy, h2 N hN]⟩

/-! ### An example -/

/-- An old-format file with two strata, sheets and troughs. -/
def exBefore : Ini := iniOf
  [("run", [("dataoutputs", "[vtr]"), ("flag_het", "true")]),
   ("model", [("dx", "5"), ("dz", "1"), ("lx", "100"), ("ly", "50"), ("lz", "10"), ("hetlev", "internal"), ("flag_periodic", "true")]),
   ("strata", [("l_seq", "[clay, gravel]"), ("r_ssm_top", "[4, 10]"), ("ssm_contact", "random"), ("ll_ssm_contact_model", "[[1, 20, 20], [1, 20, 20]]"),
      ("l_ae", "[sheets, scour, river]"), ("ll_ssm_ae", "[[sheets, river], [sheets, scour]]"), ("ll_ae_prob", "[[1, 3], [1, 2]]"),
      ("ll_ae_z_mean", "[[2, 2], [2, 3]]"), ("ll_avul_prob", "[[0], [1]]"), ("ll_avul", "[[0, 1], [1, 2]]"), ("bg", "[1, 10, 45]")]),
   ("hydraulics", [("flag_gen", "true"), ("l_hydro", "[silt, sand, cobbles]"), ("r_k_h", "[1, 2, 3]"), ("r_sig_y", "1"), ("r_k_ratio", "2"), ("r_n", "1"),
      ("r_sig_n", "0"), ("ll_ycorlengths", "[1, 2, 3]"), ("ll_ncorlengths", "[1, 2, 3]")]),
   ("flowtrans", []),
   ("sheets", [("geometry", "sheet"), ("structure", "massive"), ("contact", "flat"), ("l_facies", "[0, 1]"), ("ll_altfacies", "[[1], [0, 1]]"),
      ("lens_thickness", "1")]),
   ("scour", [("geometry", "trunc_ellip"), ("structure", "dip"), ("contact", "random"), ("r_contact_model", "[1, 9, 9]"), ("l_facies", "[2]"),
      ("bg", "[1, 10, 10]"), ("agg", "1"), ("dipset_d", "3"), ("r_lag", "[2, 1]"), ("r_dip", "[0, 10]"), ("length", "10"), ("width", "5"), ("depth", "2"),
      ("el_z", "4"), ("r_paleoflow", "[0, 45]"), ("r_azimuth", "[0, 45]")]),
   ("river", [("geometry", "sheet"), ("structure", "massive"), ("contact", "flat"), ("facies", "[1]"), ("lens_thickness", "2"), ("r_k_ztrend", "[1, 2]")])]

/-- The new-format file that says the same. -/
def exAfter : Ini := iniOf
  [("run", [("numsim", "2"), ("outputs", "[vtr, npz]")]),
   ("model", [("dx", "5"), ("dz", "1"), ("lx", "100"), ("ly", "50"), ("lz", "10"), ("heterogeneity_level", "internal"), ("periodic", "true"),
      ("hydraulics", "true"), ("heterogeneity", "true")]),
   ("strata", [("strata", "[clay, gravel]"), ("strata_contact_models", "[[random, 4, 1, 20, 20]]"),
      ("ae", "[sheets, scour, river]"), ("ae_in_strata", "[[sheets, river], [sheets, scour]]"), ("ae_prob", "[[1, 3], [1, 2]]"),
      ("ae_z_mean", "[[2, 2], [2, 3]]"), ("avul_prob", "[[0], [1]]"), ("avul", "[[0, 1], [1, 2]]"), ("bg_facies", "[sand, sand]"),
      ("bg_azim", "10"), ("bg_dip", "45")]),
   ("hydraulics", [("hydrofacies", "[silt, sand, cobbles]"), ("k_h", "[1, 2, 3]"), ("sig_y", "1"), ("k_ratio", "2"), ("n", "1"),
      ("sig_n", "0"), ("ycorlengths", "[1, 2, 3]"), ("ncorlengths", "[1, 2, 3]")]),
   ("sheets", [("geometry", "sheet"), ("structure", "massive"), ("contact_model", "[flat]"), ("facies", "[silt, sand]"),
      ("altfacies", "[[sand], [silt, sand]]"), ("lens_thickness", "1")]),
   ("scour", [("geometry", "trough"), ("structure", "dip"), ("contact_model", "[random, 1, 9, 9]"), ("facies", "[cobbles]"),
      ("bg_facies", "sand"), ("bg_azim", "10"), ("bg_dip", "10"), ("agg", "1"), ("dipset_dist", "3"), ("lag_height", "2"), ("lag_facies", "sand"),
      ("dip", "[0, 10]"), ("length", "10"), ("width", "5"), ("depth", "2"), ("trough_density", "4"), ("paleoflow", "[0, 45]"), ("azimuth", "[0, 45]")]),
   ("river", [("geometry", "sheet"), ("structure", "massive"), ("contact_model", "[flat]"), ("facies", "[sand]"), ("lens_thickness", "2"),
      ("k_ztrend", "[1, 2]")])]

/-- Check of `Spec.Renames`. -/
def renamesB (table : List (String × List String)) (old new : Dict) : Bool := table.all fun r => decide (new r.1 = firstOf old r.2)

theorem renames_of {table : List (String × List String)} {old new : Dict} (h : renamesB table old new = true) : Renames table old new :=
  fun r hr => of_decide_eq_true (List.all_eq_true.1 h r hr)

theorem written_true {d : Dict} {k s : String} (h : writtenB d k s = true) : written d k s := by
  have := of_decide_eq_true h
  exact this

/-- Check of `Spec.OldContact`. -/
def contactB (mode : List Char) (z : Option Atom) (numbers : Option Val) (cm : ContactModel Atom) : Bool :=
  decide (cm.mode = String.ofList mode) && (decide (cm.z = z) &&
  (decide (lower mode = "flat".toList ∧ cm.var = none ∧ cm.corlx = none ∧ cm.corly = none) ||
    decide (lower mode = "random".toList) && match numbers with
      | some (.node [.leaf a, .leaf b, .leaf c]) => decide (cm.var = some a ∧ cm.corlx = some b ∧ cm.corly = some c)
      | _ => false))

theorem contact_of {mode : List Char} {z : Option Atom} {numbers : Option Val} {cm : ContactModel Atom} (h : contactB mode z numbers cm = true) :
    OldContact mode z numbers cm := by
  simp only [contactB, Bool.and_eq_true, Bool.or_eq_true, decide_eq_true_eq] at h
  obtain ⟨h1, h2, h3 | ⟨h3, h4⟩⟩ := h
  · exact ⟨h1, h2, Or.inl h3⟩
  · refine ⟨h1, h2, Or.inr ⟨h3, ?_⟩⟩
    split at h4
    · rename_i a b c
      have := of_decide_eq_true h4
      exact ⟨_, rfl, a, b, c, rfl, rfl, rfl, this⟩
    · cases h4

/-- Check of the lag of a trough. -/
def lagB (x : Dict) (y : Element) : Bool :=
  match x "lag" with
  | some (.leaf .none) => decide (y.dict "lag_height" = some (.leaf (.num 0))) && decide (y.dict "lag_facies" = some (.leaf (.num (-1))))
  | some (.node [h, f]) => decide (y.dict "lag_height" = some h) && decide (y.dict "lag_facies" = some f)
  | _ => false

/-- Check of the background of an element. -/
def groundB (x : Dict) (y : Element) : Bool :=
  match x "bg" with
  | some (.leaf .none) => decide (y.dict "bg_facies" = some (.leaf (.num (-1)))) && (decide (y.dict "bg_azim" = some (.leaf .nan)) &&
      decide (y.dict "bg_dip" = some (.leaf .nan)))
  | some (.node [f, a, b]) => decide (a = b) && (decide (y.dict "bg_facies" = some f) && (decide (y.dict "bg_azim" = some a) && decide (y.dict "bg_dip" = some a)))
  | _ => false

/-- Check of `Spec.SameSection`. -/
def sectionB (old new x : Dict) (y : Element) : Bool :=
  renamesB elementNames old new && ((writtenB old "geometry" "sheet" && (writtenB new "geometry" "sheet" && renamesB sheetNames old new) ||
    writtenB old "geometry" "trunc_ellip" && (writtenB new "geometry" "trough" && (renamesB troughNames old new && lagB x y))) &&
  (decide (y.dict "facies" = x "facies") && (decide (y.dict "altfacies" = x "altfacies") && (groundB x y && match x "contact" with
    | some (.leaf (.text mode)) => contactB mode none (x "contact_model") y.contact
    | _ => false))))

theorem section_of {old new x : Dict} {y : Element} (h : sectionB old new x y = true) : SameSection old new x y := by
  simp only [sectionB, Bool.and_eq_true, Bool.or_eq_true] at h
  obtain ⟨h1, h2, h3, h4, h5, h6⟩ := h
  refine ⟨renames_of h1, ?_, of_decide_eq_true h3, of_decide_eq_true h4, ?_, ?_⟩
  · rcases h2 with ⟨a, b, c⟩ | ⟨a, b, c, e⟩
    · exact Or.inl ⟨written_true a, written_true b, renames_of c⟩
    · refine Or.inr ⟨written_true a, written_true b, renames_of c, ?_⟩
      unfold lagB at e
      split at e
      · rename_i hl
        rw [Bool.and_eq_true] at e
        exact Or.inl ⟨hl, of_decide_eq_true e.1, of_decide_eq_true e.2⟩
      · rename_i h f hl
        rw [Bool.and_eq_true] at e
        exact Or.inr ⟨h, f, hl, of_decide_eq_true e.1, of_decide_eq_true e.2⟩
      · cases e
  · unfold groundB at h5
    split at h5
    · rename_i hl
      simp only [Bool.and_eq_true] at h5
      exact Or.inl ⟨hl, of_decide_eq_true h5.1, of_decide_eq_true h5.2.1, of_decide_eq_true h5.2.2⟩
    · rename_i f a b hl
      simp only [Bool.and_eq_true] at h5
      rw [← of_decide_eq_true h5.1] at hl
      exact Or.inr ⟨f, a, hl, of_decide_eq_true h5.2.1, of_decide_eq_true h5.2.2.1, of_decide_eq_true h5.2.2.2⟩
    · cases h5
  · split at h6
    · rename_i mode hm
      exact ⟨mode, hm, contact_of h6⟩
    · cases h6

/-- Check of the background of the strata. -/
def strataGroundB (o : OldParsed) (Q : Parsed) : Bool :=
  match o.strata "ssm", o.strata "bg" with
  | some (.node names), some (.node [.leaf (.num f), a, x]) => decide ((f.num : ℚ) = f) && (decide (Q.strata "bg_facies" = some (.node (List.replicate names.length (.leaf (.num f))))) &&
    (decide (Q.strata "bg_azim" = some (.node (List.replicate names.length a))) && decide (Q.strata "bg_dip" = some (.node (List.replicate names.length x)))))
  | _, _ => false

/-- Check of the contact models of the strata: one contact. -/
def strataContactB (o : OldParsed) (Q : Parsed) : Bool :=
  match o.strata "ssm_contact", o.strata "ssm_top", Q.contacts with
  | some (.leaf (.text mode)), some tops, [c] => match entry tops 0 with
    | some (.leaf z) => contactB mode (some z) ((o.strata "ssm_contact_model").bind fun v => entry v 0) c
    | _ => false
  | _, _, _ => false

/-- Check of `Spec.Translation`. -/
def translationB (p : Ini) (o : OldParsed) (q : Ini) (Q : Parsed) : Bool :=
  renamesB modelNames (p.get "model") (q.get "model") && (decide (q.get "model" "hydraulics" = firstOf (p.get "hydraulics") ["gen", "flag_gen"]) &&
  (decide (q.get "model" "heterogeneity" = firstOf (p.get "run") ["het", "flag_het"]) && (renamesB strataNames (p.get "strata") (q.get "strata") &&
  (strataGroundB o Q && (strataContactB o Q && (renamesB hydraulicsNames (p.get "hydraulics") (q.get "hydraulics") &&
  (decide (o.hydraulics "hydro" = some (.node (["silt", "sand", "cobbles"].map fun t => .leaf (.text t.toList)))) &&
  (decide (elementSections q = oldElementSections p) &&
  o.elements.all fun x => Q.elements.all fun y => !decide (x.1 = y.1) || sectionB (p.get x.1) (q.get x.1) x.2 y.2))))))))

theorem translation_of {p q : Ini} {o : OldParsed} {Q : Parsed} (h : translationB p o q Q = true) : Translation p o q Q := by
  simp only [translationB, Bool.and_eq_true] at h
  obtain ⟨h1, h2, h3, h4, h5, h6, h7, h8, h9, h10⟩ := h
  refine ⟨renames_of h1, of_decide_eq_true h2, of_decide_eq_true h3, renames_of h4, ?_, ?_, renames_of h7,
    ⟨["silt", "sand", "cobbles"].map String.toList, by rw [List.map_map]; exact of_decide_eq_true h8⟩, of_decide_eq_true h9, ?_⟩
  · unfold strataGroundB at h5
    split at h5
    · rename_i names f a x e1 e2
      simp only [Bool.and_eq_true] at h5
      obtain ⟨k0, k1, k2, k3⟩ := h5
      rw [← of_decide_eq_true k0] at e2 k1
      exact ⟨names, f.num, a, x, e1, e2, of_decide_eq_true k1, of_decide_eq_true k2, of_decide_eq_true k3⟩
    · cases h5
  · intro i c hc
    unfold strataContactB at h6
    split at h6
    · rename_i mode tops c' e1 e2 e3
      rw [e3] at hc
      cases i with
      | zero =>
        cases hc
        split at h6
        · rename_i z e4
          exact ⟨mode, tops, z, e1, e2, e4, contact_of h6⟩
        · cases h6
      | succ k => simp at hc
    · cases h6
  · intro s x y hx hy
    have := List.all_eq_true.1 (List.all_eq_true.1 h10 _ hx) _ hy
    simp only [decide_true, Bool.not_true, Bool.false_or] at this
    exact section_of this

/-- Tests what the old-format file of the example is parsed to. -/
def exOldB (f : OldParsed → Bool) : Bool :=
  match parseDeprecated exConvs exBefore with
  | .ok o => f o
  | .error _ => false

/-- Tests what the new-format file of the example is parsed to. -/
def exNewB (f : Parsed → Bool) : Bool :=
  match parseInifile exConvs exAfter with
  | .ok Q => f Q
  | .error _ => false

theorem exAfter_checked : exOldB (fun o => exNewB fun Q => translationB exBefore o exAfter Q) = true := by decide +kernel

theorem exAfter_fluvial : exNewB (fun Q => decide (Q.model "heterogeneity" = some (.leaf (.bool true))) && fluvialB Q) = true := by decide +kernel

theorem exBefore_settings : ∃ sp, settings exConvs exBefore ["m"] "a.ini".toList [] = .ok sp := isOk_iff.1 (by decide +kernel)

theorem exAfter_settings : ∃ sq, settings exConvs exAfter ["m"] "b.ini".toList [] = .ok sq := isOk_iff.1 (by decide +kernel)

theorem exOld_of {f : OldParsed → Bool} (h : exOldB f = true) {o : OldParsed} (ho : parseDeprecated exConvs exBefore = .ok o) : f o = true := by
  unfold exOldB at h
  rw [ho] at h
  exact h

theorem exNew_of {f : Parsed → Bool} (h : exNewB f = true) {Q : Parsed} (hQ : parseInifile exConvs exAfter = .ok Q) : f Q = true := by
  unfold exNewB at h
  rw [hQ] at h
  exact h

theorem exBefore_ok : ∃ o, parseDeprecated exConvs exBefore = .ok o := isOk_iff.1 (by decide +kernel)

theorem exAfter_new : exAfter.get "run" "dataoutputs" = none := by decide +kernel

/-- The two files are accepted and the second says the same as the first. -/
theorem exBefore_after : ∃ (o : OldParsed) (sp sq : Settings), parseDeprecated exConvs exBefore = .ok o ∧
    settings exConvs exBefore ["m"] "a.ini".toList [] = .ok sp ∧ settings exConvs exAfter ["m"] "b.ini".toList [] = .ok sq ∧
    Translation exBefore o exAfter sq.parsed ∧ sq.parsed.model "heterogeneity" = some (.leaf (.bool true)) ∧ fluvialB sq.parsed = true := by
  obtain ⟨sp, hsp⟩ := exBefore_settings
  obtain ⟨sq, hsq⟩ := exAfter_settings
  obtain ⟨o, ho⟩ := exBefore_ok
  have hQ := (settings_facts exAfter_new hsq).1
  have h := exNew_of (exOld_of exAfter_checked ho) hQ
  have h2 := exNew_of exAfter_fluvial hQ
  rw [Bool.and_eq_true] at h2
  exact ⟨o, sp, sq, ho, hsp, hsq, translation_of h, of_decide_eq_true h2.1, h2.2⟩

/-- What the list options of the new-format file write. -/
def exAfterLists : List (String × Tree (List Char)) :=
  [("bg_facies", toks ["sand", "sand"]), ("bg_azim", tok "10"), ("bg_dip", tok "45"), ("azimuth", toks ["0", "45"])] ++ exRiverLists

/-- C113 applies to the two files: the same realisation for all random numbers. -/
example : ∃ P Q, parseAny exConvs exBefore = .ok P ∧ parseAny exConvs exAfter = .ok Q ∧
    ∀ ids r o d field, simulate P ids r o d field = simulate Q ids r o d field := by
  obtain ⟨o, sp, sq, ho, hsp, hsq, ht, hh, -⟩ := exBefore_after
  exact ⟨_, _, (settings_any hsp).1, (settings_any hsq).1,
    (C113_same exConvs _ _ o _ _ ho (by decide +kernel) (settings_any hsp).1 (by decide +kernel) (settings_any hsq).1 ht hh (by decide +kernel)).2.2⟩

/-- The generation from the old-format file of the example raises no exception, and ends. -/
example : ∃ sp, settings exConvs exBefore ["m"] "a.ini".toList [] = .ok sp ∧
    (∀ e, generateObjects sp.parsed sp.ids exReals (fun _ _ => exObjReals) exRealDraws ≠ .error (.err e)) ∧
    ∃ F m cms', m.strata.length = 2 ∧
      ∀ N ≥ F, generateObjects sp.parsed sp.ids exReals (fun _ _ => exObjReals) (fun si => withFuel N (exRealDraws si)) = .ok (m, cms') := by
  obtain ⟨o, sp, sq, ho, hsp, hsq, ht, hh, hb⟩ := exBefore_after
  have hf := fluvial_filled (w := exAfterLists) (p := exAfter) (by decide +kernel) hb
  have hp := fluvial_placeable (w := exAfterLists) (p := exAfter) (by decide +kernel) hb
  obtain ⟨hn, hth⟩ := fluvial_thick hb
  refine ⟨sp, hsp, fun e => ?_, ?_⟩
  · exact C113_no_exception exConvs exConvs_number exConvs_whole _ exAfter o ho (by decide +kernel) (by decide +kernel) _ _ _ _ _ _ sp sq hsp hsq ht hh
      (by decide +kernel) hf hp exReals exReals_unit _ (fun _ _ => exObjReals_unit) exRealDraws e
  · exact C113_finishes exConvs exConvs_number exConvs_whole _ exAfter o ho (by decide +kernel) (by decide +kernel) _ _ _ _ _ _ sp sq hsp hsq ht hh
      (by decide +kernel) hf hp _ hn (21 / 20) (1 / 10) (by norm_num) hth exReals exReals_unit (by intro si n; norm_num [exReals]) _
      (fun _ _ => exObjReals_unit) exRealDraws

end Hyvr
