import Verif.Lemmas.ScaledRead
import Verif.Model.Specsim
import Verif.Props.Ferguson
import Verif.Props.Moved

/-!
C125: the unit of length.
-/

namespace Hyvr

open Py Real Spec

theorem alikeIn_of {c : ℝ} (x : Except Stop Simulation) : AlikeIn c x (x.map (Simulation.scale c)) := by
  cases x with
  | error e => rfl
  | ok S => exact ⟨rfl, rfl, rfl, rfl, fun _ _ _ => rfl, fun _ => rfl⟩

/-- **C125 (partial).** Two accepted ini-files that describe the same model in two units of length, and whose elements are sheets and troughs, give the same cells and
hydraulic parameters, and contact surfaces at the same elevations, expressed in the two units; or both stop in the same way. The random numbers are the same, random
fields of elevations are converted, and those of hydraulic parameters the same if the correlation lengths are. (`C125_elevations` and `C125_parameters`: the fields
calculated by `specsim` are like that.)
Missing: channels, for which it is false (`C125_channels_refuted`). -/
theorem C125_partial (C : Convs) (p p' : Ini) (hp : p.get "run" "dataoutputs" = none) (hp' : p'.get "run" "dataoutputs" = none) (dir dir' : Path)
    (ini ini' : List Char) (answer answer' : Path) (st st' : Settings) (hst : settings C p dir ini answer = .ok st)
    (hst' : settings C p' dir' ini' answer' = .ok st') (c : ℚ) (hc : 0 < c) (hu : InUnitOf c st.parsed st'.parsed)
    (he : ∀ x ∈ st.parsed.elements, ¬ written x.2.dict "geometry" "channel") :
    st'.ids = st.ids ∧ ∀ ids r o d d' (field field' : FieldSource), FieldsIn c d d' →
      (∀ n v l b, field' n v ((c : ℝ) * l.1, (c : ℝ) * l.2.1, (c : ℝ) * l.2.2) b = field n v l b) →
      AlikeIn c (simulate st.parsed ids r o d field) (simulate st'.parsed ids r o d' field') := by
  obtain ⟨p1, p2, -, -⟩ := settings_facts hp hst
  obtain ⟨-, q2, -, -⟩ := settings_facts hp' hst'
  have hs := same_of_inUnit (parsed_same p1 p1 ⟨rfl, fun _ _ _ => rfl⟩) hu
  refine ⟨Except.ok.inj (q2.symm.trans ((aeIds_agree hs).symm.trans ((aeIds_in _).trans p2))), fun ids r o d d' field field' hd hf => ?_⟩
  rw [← simulate_agree hs, simulate_in hc (safe_of_inUnit hu) (scalable_shapes he) ids r o hd hf]
  exact alikeIn_of _

/-! ### Random fields -/

theorem getD_scale {c : ℝ} (o : Option ℝ) : (o.map (c * ·)).getD 0 = c * o.getD 0 := by
  cases o with
  | none => exact (mul_zero c).symm
  | some x => rfl

theorem centred_scale {c : ℝ} (hc : 0 < c) (l : List ℝ) (i : ℕ) : centredCoord (l.map (c * ·)) i = c * centredCoord l i := by
  unfold centredCoord
  rw [min?_scale hc, max?_scale hc, getD_scale, getD_scale, List.getD_eq_getElem?_getD, List.getD_eq_getElem?_getD, List.getElem?_map, getD_scale]
  ring

theorem covModel_scale {c : ℝ} (covmod : String) (var h2 : ℝ) : covModel covmod (c ^ 2 * var) h2 = (covModel covmod var h2).map (c ^ 2 * ·) := by
  unfold covModel
  split_ifs
  · exact congrArg Except.ok (by ring)
  · exact congrArg Except.ok (by ring)
  · rfl

theorem spectrum2_scale {c : ℝ} (nx ny : ℕ) (ryy : ℕ → ℕ → ℝ) (a b : ℕ) :
    spectrum2 nx ny (fun i j => c ^ 2 * ryy i j) a b = c ^ 2 * spectrum2 nx ny ryy a b := by
  unfold spectrum2
  split_ifs
  · rw [mul_zero]
  · have : fft2 nx ny (fun i j => ((c ^ 2 * ryy (shiftIdx nx i) (shiftIdx ny j) : ℝ) : ℂ)) a b =
        ((c ^ 2 : ℝ) : ℂ) * fft2 nx ny (fun i j => ((ryy (shiftIdx nx i) (shiftIdx ny j) : ℝ) : ℂ)) a b := by
      unfold fft2
      simp only [Finset.mul_sum, Complex.ofReal_mul, mul_assoc]
    rw [this, mul_div_assoc, norm_mul, Complex.norm_real, Real.norm_of_nonneg (sq_nonneg c)]

theorem synth2_scale {c : ℝ} (hc : 0 < c) (nx ny : ℕ) (syy re im : ℕ → ℕ → ℝ) (i j : ℕ) :
    synth2 nx ny (fun a b => c ^ 2 * syy a b) re im i j = c * synth2 nx ny syy re im i j := by
  unfold synth2
  rw [← Complex.re_ofReal_mul]
  congr 1
  unfold ifft2
  rw [← mul_div_assoc, Finset.mul_sum]
  simp only [Finset.mul_sum, Real.sqrt_mul (sq_nonneg c), Real.sqrt_sq hc.le, Complex.ofReal_mul]
  congr 1
  refine Finset.sum_congr rfl fun a _ => Finset.sum_congr rfl fun b _ => ?_
  ring

/-- **C125, random fields of elevations.** With all coordinates and correlation lengths in another unit, and the variance in its square, `specsim` gives the same
elevations in the other unit. -/
theorem C125_elevations (c : ℝ) (hc : 0 < c) (xs ys : List ℝ) (covmod : String) (var cx cy : ℝ) (re im : ℕ → ℕ → ℝ) :
    specsim2 (xs.map (c * ·)) (ys.map (c * ·)) covmod (c ^ 2 * var) (c * cx) (c * cy) re im =
      (specsim2 xs ys covmod var cx cy re im).map fun f i j => c * f i j := by
  unfold specsim2
  rw [covModel_scale]
  cases covModel covmod var 0 with
  | error e => rfl
  | ok v =>
    refine congrArg Except.ok (funext fun i => funext fun j => ?_)
    rw [List.length_map, List.length_map]
    have : (fun i j => match covModel covmod (c ^ 2 * var) ((centredCoord (xs.map (c * ·)) i / (c * cx)) ^ 2 + (centredCoord (ys.map (c * ·)) j / (c * cy)) ^ 2) with
        | .ok v => v
        | .error _ => 0) = fun i j => c ^ 2 * (match covModel covmod var ((centredCoord xs i / cx) ^ 2 + (centredCoord ys j / cy) ^ 2) with
        | .ok v => v
        | .error _ => 0) := by
      funext i j
      rw [centred_scale hc, centred_scale hc, mul_div_mul_left _ _ hc.ne', mul_div_mul_left _ _ hc.ne', covModel_scale]
      cases covModel covmod var ((centredCoord xs i / cx) ^ 2 + (centredCoord ys j / cy) ^ 2) with
      | error e => exact (mul_zero _).symm
      | ok v => rfl
    refine (congrArg (fun R => synth2 xs.length ys.length (spectrum2 xs.length ys.length R) re im i j) this).trans ?_
    dsimp only
    refine (congrArg (fun R => synth2 xs.length ys.length R re im i j) (funext fun a => funext fun b => spectrum2_scale _ _ _ a b)).trans ?_
    exact synth2_scale hc _ _ _ _ _ _ _

/-- **C125, random fields of hydraulic parameters.** With all coordinates and correlation lengths in another unit, `specsim` gives the same field. -/
theorem C125_parameters (c : ℝ) (hc : 0 < c) (xs ys zs : List ℝ) (re im : ℕ → Arr3 ℝ) (n : ℕ) (v : ℝ) (l : ℝ × ℝ × ℝ) (b : Box) :
    specField (xs.map (c * ·)) (ys.map (c * ·)) (zs.map (c * ·)) re im n v (c * l.1, c * l.2.1, c * l.2.2) b = specField xs ys zs re im n v l b := by
  unfold specField
  simp only [← List.map_drop, ← List.map_take, centred_scale hc, mul_div_mul_left _ _ hc.ne']

/-- **C125 with the fields of hydraulic parameters that `specsim` calculates (partial).** They need not be assumed to be the same: they are calculated on the two grids.
Missing: as for `C125_partial`. -/
theorem C125_specsim_partial (C : Convs) (p p' : Ini) (hp : p.get "run" "dataoutputs" = none) (hp' : p'.get "run" "dataoutputs" = none) (dir dir' : Path)
    (ini ini' : List Char) (answer answer' : Path) (st st' : Settings) (hst : settings C p dir ini answer = .ok st)
    (hst' : settings C p' dir' ini' answer' = .ok st') (c : ℚ) (hc : 0 < c) (hu : InUnitOf c st.parsed st'.parsed)
    (he : ∀ x ∈ st.parsed.elements, ¬ written x.2.dict "geometry" "channel") (g g' : Grid) (hg : readGrid st.parsed.model = .ok g)
    (hg' : readGrid st'.parsed.model = .ok g') (ids : List (String × ℕ)) (r : Randoms ℝ) (o : ℕ → ℕ → ObjRandoms) (d d' : ℕ → StratumDraw ℝ) (hd : FieldsIn c d d')
    (re im : ℕ → Arr3 ℝ) :
    AlikeIn c (simulate st.parsed ids r o d (specField g.x g.y g.z re im)) (simulate st'.parsed ids r o d' (specField g'.x g'.y g'.z re im)) := by
  have hc' : (0 : ℝ) < c := by exact_mod_cast hc
  refine (C125_partial C p p' hp hp' dir dir' ini ini' answer answer' st st' hst hst' c hc hu he).2 ids r o d d' _ _ hd fun n v l b => ?_
  obtain ⟨p1, -, -, -⟩ := settings_facts hp hst
  have hs := same_of_inUnit (parsed_same p1 p1 ⟨rfl, fun _ _ _ => rfl⟩) hu
  have : g' = g.scale c := by
    rw [← readGrid_agree hs.model, show (st.parsed.scale c).model = unitDict modelPower c st.parsed.model from rfl, readGrid_in, hg] at hg'
    exact (Except.ok.inj hg').symm
  rw [this, scale_x hc', scale_y hc', scale_z hc']
  exact C125_parameters c hc' _ _ _ re im n v l b

/-! ### Example -/

/-- Check of a contact model in another unit. -/
def contactInB (c : ℚ) (m m' : ContactModel Atom) : Bool :=
  decide (m'.mode = m.mode) && (decide (m'.z = m.z.map (atomIn c)) && (decide (m'.var = m.var.map (atomIn (c ^ 2))) && (decide (m'.corlx = m.corlx.map (atomIn c)) &&
  decide (m'.corly = m.corly.map (atomIn c)))))

theorem contactIn_of {c : ℚ} {m m' : ContactModel Atom} (h : contactInB c m m' = true) : m' = contactIn c m := by
  simp only [contactInB, Bool.and_eq_true, decide_eq_true_eq] at h
  obtain ⟨h1, h2, h3, h4, h5⟩ := h
  cases m'
  simp only [contactIn, ContactModel.mk.injEq]
  exact ⟨h1, h2, h3, h4, h5⟩

/-- Check of an element section in another unit. -/
def elementInB (c : ℚ) (e e' : String × Element) : Bool :=
  decide (e'.1 = e.1) && (contactInB c e.2.contact e'.2.contact && ((match e.2.dict "geometry" with
    | some (.leaf (.text g)) => (elementUsed g).all fun k => decide (k = "contact_model") || decide (e'.2.dict k = (e.2.dict k).map (entryIn c k))
    | _ => true) &&
  (match e.2.dict "lens_thickness" with
    | some (.leaf (.num q)) => decide (q = -1) || decide (c * q ≠ -1)
    | _ => true)))

theorem elementIn_of {c : ℚ} {e e' : String × Element} (h : elementInB c e e' = true) : e'.1 = e.1 ∧ ElementIn c e.2 e'.2 := by
  simp only [elementInB, Bool.and_eq_true] at h
  obtain ⟨h1, h2, h3, h4⟩ := h
  refine ⟨of_decide_eq_true h1, contactIn_of h2, fun g k hg hk hne => ?_, fun q hq hne => ?_⟩
  · rw [hg] at h3
    have := List.all_eq_true.1 h3 k hk
    simp only [Bool.or_eq_true, decide_eq_true_eq] at this
    exact this.resolve_left hne
  · rw [hq] at h4
    simp only [Bool.or_eq_true, decide_eq_true_eq] at h4
    exact h4.resolve_left hne

/-- Check of two lists, entry by entry. -/
def allB {β : Type} (f : β → β → Bool) : List β → List β → Bool
  | [], [] => true
  | a :: l, b :: l' => f a b && allB f l l'
  | _, _ => false

theorem all_of {β : Type} {f : β → β → Bool} : ∀ {l l' : List β}, allB f l l' = true → List.Forall₂ (fun a b => f a b = true) l l'
  | [], [], _ => .nil
  | a :: l, b :: l', h => by
    simp only [allB, Bool.and_eq_true] at h
    exact .cons h.1 (all_of h.2)
  | [], _ :: _, h => by simp [allB] at h
  | _ :: _, [], h => by simp [allB] at h

/-- Check of `Spec.InUnitOf`. -/
def inUnitB (c : ℚ) (P P' : Parsed) : Bool :=
  (modelUsed.all fun k => decide (P'.model k = (P.model k).map (inUnits (c ^ modelPower k)))) &&
  ((strataUsed.all fun k => decide (k = "strata_contact_models") || decide (P'.strata k = (P.strata k).map (inUnits (c ^ strataPower k)))) &&
  (allB (contactInB c) P.contacts P'.contacts && ((hydraulicsUsed.all fun k => decide (P'.hydraulics k = (P.hydraulics k).map (inUnits (c ^ hydraulicsPower k)))) &&
  allB (elementInB c) P.elements P'.elements)))

theorem inUnit_of {c : ℚ} {P P' : Parsed} (h : inUnitB c P P' = true) : InUnitOf c P P' := by
  simp only [inUnitB, Bool.and_eq_true, List.all_eq_true, Bool.or_eq_true, decide_eq_true_eq] at h
  obtain ⟨h1, h2, h3, h4, h5⟩ := h
  refine ⟨h1, fun k hk hne => (h2 k hk).resolve_left hne, ?_, h4, (all_of h5).imp fun _ _ => elementIn_of⟩
  have := all_of h3
  generalize P.contacts = l at this
  generalize P'.contacts = l' at this
  induction this with
  | nil => rfl
  | cons hx _ ih => rw [List.map_cons, contactIn_of hx, ih]

/-- The example of an ini-file with sheets and troughs, with fewer troughs per square metre... -/
def exMetres : Ini := iniOf (withOptions "scour" [("trough_density", "100")] exSections)

/-- ... and the same in decimetres. -/
def exDecimetres : Ini := iniOf
  [("run", [("numsim", "2"), ("outputs", "[vtr, npz]")]),
   ("model", [("dx", "50"), ("dz", "10"), ("lx", "1000"), ("ly", "500"), ("lz", "100")]),
   ("strata", [("strata", "[clay, gravel]"), ("strata_contact_models", "[[random, 40, 100, 200, 200]]"),
      ("ae", "[sheets, scour]"), ("ae_in_strata", "[[sheets], [sheets, scour]]"), ("ae_prob", "[[1], [1, 2]]"),
      ("ae_z_mean", "[[20], [20, 30]]"), ("avul_prob", "[[0], [1]]"), ("avul", "[[0, 10], [10, 20]]"),
      ("bg_facies", "[silt, sand]"), ("bg_azim", "0"), ("bg_dip", "[0, 3]")]),
   ("hydraulics", [("hydrofacies", "[silt, sand, cobbles]"), ("k_h", "[1, 2, 3]"), ("sig_y", "1"), ("k_ratio", "2"),
      ("n", "1"), ("sig_n", "0"), ("ycorlengths", "[10, 20, 30]"), ("ncorlengths", "[10, 20, 30]")]),
   ("sheets", [("geometry", "sheet"), ("structure", "massive"), ("contact_model", "[flat]"), ("facies", "[silt, sand]"),
      ("lens_thickness", "10"), ("altfacies", "[[sand], [silt, cobbles]]")]),
   ("scour", [("geometry", "trough"), ("structure", "dip"), ("dipset_dist", "10"), ("contact_model", "[random, 100, 90, 90]"),
      ("facies", "[cobbles]"), ("bg_facies", "sand"), ("agg", "10"), ("lag_height", "10"), ("lag_facies", "cobbles"),
      ("length", "100"), ("width", "50"), ("depth", "20"), ("trough_density", "1"), ("paleoflow", "[0, 45]")])]

theorem exUnits_ok : ∃ x, (do
    let st ← settings exConvs exMetres ["m"] "a.ini".toList []
    let st' ← settings exConvs exDecimetres ["m"] "b.ini".toList []
    return (st, st') : Except PyErr (Settings × Settings)) = .ok x ∧ (inUnitB 10 x.1.parsed x.2.parsed && ((x.1.parsed.elements.all fun e =>
      writtenB e.2.dict "geometry" "sheet" || writtenB e.2.dict "geometry" "trough") && (decide (x.1.parsed.model "lx" = some (numVal 100)) &&
      decide (x.2.parsed.model "lx" = some (numVal 1000))))) = true := ok_check (by decide +kernel)

theorem no_channel {d : Dict} (h : (writtenB d "geometry" "sheet" || writtenB d "geometry" "trough") = true) : ¬ written d "geometry" "channel" := by
  intro hc
  rcases Bool.or_eq_true _ _ ▸ h with h | h
  · exact absurd (written_eq hc (written_true h)) (by decide)
  · exact absurd (written_eq hc (written_true h)) (by decide)

/-- C125 applies to the example in metres and in decimetres. -/
example : ∃ st st', settings exConvs exMetres ["m"] "a.ini".toList [] = .ok st ∧ settings exConvs exDecimetres ["m"] "b.ini".toList [] = .ok st' ∧
    st.parsed.model "lx" = some (numVal 100) ∧ st'.parsed.model "lx" = some (numVal 1000) ∧
    ∀ ids r o d d' (field field' : FieldSource), FieldsIn (10 : ℚ) d d' →
      (∀ n v l b, field' n v (((10 : ℚ) : ℝ) * l.1, ((10 : ℚ) : ℝ) * l.2.1, ((10 : ℚ) : ℝ) * l.2.2) b = field n v l b) →
      AlikeIn (10 : ℚ) (simulate st.parsed ids r o d field) (simulate st'.parsed ids r o d' field') := by
  obtain ⟨⟨st, st'⟩, h1, h2⟩ := exUnits_ok
  simp only [bind_ok, pure_ok] at h1
  obtain ⟨a, ha, b, hb, hab⟩ := h1
  cases hab
  simp only [Bool.and_eq_true, List.all_eq_true] at h2
  obtain ⟨h2, h3, h4, h5⟩ := h2
  exact ⟨st, st', ha, hb, of_decide_eq_true h4, of_decide_eq_true h5, (C125_partial exConvs exMetres exDecimetres (by decide +kernel) (by decide +kernel) _ _ _ _ _ _ st st'
    ha hb 10 (by norm_num) (inUnit_of h2) fun x hx => no_channel (h3 x hx)).2⟩

/-- The example of two flat strata in decimetres. -/
def exCakeTen : Ini := iniOf
  [("run", [("numsim", "2"), ("outputs", "[vtr, mf6]")]),
   ("model", [("dx", "50"), ("dz", "10"), ("lx", "1000"), ("ly", "500"), ("lz", "100")]),
   ("strata", [("strata", "[clay, gravel]"), ("strata_contact_models", "[[flat, 40]]"), ("ae", "[mud, stones]"), ("ae_in_strata", "[[mud], [stones]]"),
      ("ae_prob", "[[1], [1]]"), ("ae_z_mean", "[[20], [30]]"), ("avul_prob", "[[0], [1]]"), ("avul", "[[0, 10], [10, 20]]"),
      ("bg_facies", "[silt, sand]"), ("bg_azim", "0"), ("bg_dip", "[0, 3]")]),
   ("hydraulics", [("hydrofacies", "[silt, sand, cobbles]"), ("k_h", "[1, 2, 3]"), ("sig_y", "1"), ("k_ratio", "2"),
      ("n", "1"), ("sig_n", "0"), ("ycorlengths", "[10, 20, 30]"), ("ncorlengths", "[10, 20, 30]")]),
   ("mud", [("geometry", "sheet"), ("structure", "massive"), ("contact_model", "[flat]"), ("facies", "[silt]"), ("lens_thickness", "-1"),
      ("azimuth", "[30, 30]"), ("dip", "[10, 10]")]),
   ("stones", [("geometry", "sheet"), ("structure", "massive"), ("contact_model", "[random, 100, 90, 90]"), ("facies", "[cobbles]"), ("lens_thickness", "-1"),
      ("azimuth", "[90, 90]"), ("dip", "[20, 20]")]),
   ("flowtrans", [("hin", "[1, 0, 0]"), ("hout", "[0, 0, 0]")])]

theorem exCakes_ok : ∃ x, (do
    let st ← settings exMinus (exCake []) ["m"] "a.ini".toList []
    let st' ← settings exMinus exCakeTen ["m"] "a.ini".toList []
    return (st, st') : Except PyErr (Settings × Settings)) = .ok x ∧ (inUnitB 10 x.1.parsed x.2.parsed && (cakeB "internal" 5 x.1.parsed &&
      x.1.parsed.elements.all fun e => writtenB e.2.dict "geometry" "sheet" || writtenB e.2.dict "geometry" "trough")) = true :=
  ok_check (by decide +kernel)

/-- Draws with converted fields of elevations. -/
def convert (c : ℝ) (d : ℕ → StratumDraw ℝ) : ℕ → StratumDraw ℝ := fun si =>
  { d si with field := fun i j => c * (d si).field i j, aes := fun n => { (d si).aes n with field := fun i j => c * ((d si).aes n).field i j } }

/-- The realisations that are compared exist: the example of two flat strata has them in both units, with fields from `specsim`. -/
example (re im : ℕ → Arr3 ℝ) : ∃ st st' g g' S S', settings exMinus (exCake []) ["m"] "a.ini".toList [] = .ok st ∧
    settings exMinus exCakeTen ["m"] "a.ini".toList [] = .ok st' ∧ readGrid st.parsed.model = .ok g ∧ readGrid st'.parsed.model = .ok g' ∧ ∃ d d',
    simulate st.parsed st.ids exReals (fun _ _ => exObjReals) d (specField g.x g.y g.z re im) = .ok S ∧
    simulate st'.parsed st'.ids exReals (fun _ _ => exObjReals) d' (specField g'.x g'.y g'.z re im) = .ok S' ∧ RealisationIn (10 : ℚ) S S' := by
  obtain ⟨⟨st, st'⟩, h1, h2⟩ := exCakes_ok
  simp only [bind_ok, pure_ok] at h1
  obtain ⟨a, ha, b, hb, hab⟩ := h1
  cases hab
  simp only [Bool.and_eq_true, List.all_eq_true] at h2
  obtain ⟨h2, h3, h4⟩ := h2
  have he : ∀ x ∈ st.parsed.elements, ¬ written x.2.dict "geometry" "channel" := fun x hx => no_channel (h4 x hx)
  obtain ⟨F, S, -, hF⟩ := cake_simulated ha (cake_of h3) (specField [] [] [] re im)
  obtain ⟨g, hg⟩ : ∃ g, readGrid st.parsed.model = .ok g := by
    have := hF F le_rfl
    unfold simulate generateObjects at this
    cases hq : readGrid st.parsed.model with
    | ok g => exact ⟨g, rfl⟩
    | error e => rw [hq] at this; cases this
  obtain ⟨p1, -, -, -⟩ := settings_facts (cake_new _) ha
  have hs := same_of_inUnit (parsed_same p1 p1 ⟨rfl, fun _ _ _ => rfl⟩) (inUnit_of h2)
  have hg' : readGrid st'.parsed.model = .ok (g.scale (10 : ℚ)) := by
    rw [← readGrid_agree hs.model, show (st.parsed.scale 10).model = unitDict modelPower 10 st.parsed.model from rfl, readGrid_in, hg]
    rfl
  obtain ⟨F, S, -, hF⟩ := cake_simulated ha (cake_of h3) (specField g.x g.y g.z re im)
  have hnew : exCakeTen.get "run" "dataoutputs" = none := by decide +kernel
  have hA := C125_specsim_partial exMinus _ _ (cake_new _) hnew _ _ _ _ _ _ st st' ha hb 10 (by norm_num) (inUnit_of h2) he g _ hg hg' st.ids
    exReals (fun _ _ => exObjReals) (fun si => withFuel F (exRealDraws si)) (convert (10 : ℚ) fun si => withFuel F (exRealDraws si))
    ⟨fun _ _ _ => rfl, fun _ _ _ _ => rfl, fun _ => rfl, fun _ _ => rfl⟩ re im
  have hi := (C125_partial exMinus _ _ (cake_new _) hnew _ _ _ _ _ _ st st' ha hb 10 (by norm_num) (inUnit_of h2) he).1
  rw [hF F le_rfl] at hA
  generalize hX : simulate st'.parsed st.ids exReals (fun _ _ => exObjReals) (convert (10 : ℚ) fun si => withFuel F (exRealDraws si))
    (specField (g.scale (10 : ℚ)).x (g.scale (10 : ℚ)).y (g.scale (10 : ℚ)).z re im) = X at hA
  cases X with
  | error e => exact hA.elim
  | ok S' => exact ⟨st, st', g, _, S, S', ha, hb, hg, hg', _, _, hF F le_rfl, hi ▸ hX, hA⟩

/-! ### Channels -/

/-- Points of a straight centreline that has three nodes, as the resampling sees them. -/
theorem fine_three {N D : ℝ} (hlen : (arange 0 N D).length = 3) {yc : List ℝ} (hy : ∀ i, yc.getD i 0 = 0) {n : ℕ} (hn : n < 3) :
    (finePts (arange 0 N D) yc (1 / 10))[n]? = some (n * (1 / 100) * D, 0) := by
  have hx : ∀ i < 3, (arange 0 N D).getD i 0 = i * D := by
    intro i hi
    rw [List.getD_eq_getElem?_getD, arange_getElem?, if_pos (by rw [← arange_length, hlen]; exact hi)]
    simp
  have h0 : ∀ t, interpNodes yc t = 0 := by
    intro t
    unfold interpNodes
    simp only [hy]
    split_ifs <;> simp
  unfold finePts
  rw [hx 0 (by norm_num), hlen, List.getElem?_map, arange_getElem?, if_pos]
  · simp only [Option.map_some, h0, Option.some.injEq, Prod.mk.injEq, and_true]
    unfold interpNodes
    rw [hlen]
    have hn' : (n : ℝ) ≤ 2 := by exact_mod_cast Nat.lt_succ_iff.1 hn
    have hn0 : (0 : ℝ) ≤ n := n.cast_nonneg
    have e : ((0 : ℕ) : ℝ) * D + (n : ℝ) * (1 / 10 * (1 / 10)) = n * (1 / 100) := by push_cast; ring
    rw [e]
    split_ifs with h1 h2
    · have : (n : ℝ) = 0 := by linarith
      rw [hx 0 (by norm_num), this]
      push_cast
      ring
    · push_cast at h2
      linarith
    · have : ⌊(n : ℝ) * (1 / 100)⌋₊ = 0 := Nat.floor_eq_zero.2 (by linarith)
      rw [this, hx 0 (by norm_num), hx 1 (by norm_num)]
      push_cast
      ring
  · have : (300 : ℤ) ≤ ⌈((3 : ℕ) - ((0 : ℕ) : ℝ) * D) / (1 / 10 * (1 / 10))⌉ := by
      rw [Int.le_ceil_iff]
      push_cast
      norm_num
    omega

theorem straight (noise : ℕ → ℝ) (k h : ℝ) (n i : ℕ) : ((List.range n).map (theta noise 0 k h)).getD i 0 = 0 := by
  rw [List.getD_eq_getElem?_getD, List.getElem?_map]
  cases (List.range n)[i]? with
  | none => rfl
  | some j => exact C65_zero (fun i => mul_zero _) j

/-- The resampled directions of such a channel. -/
theorem directions_three {h k ds dl : ℝ} (noise : ℕ → ℝ) (hds : 0 < ds) (hlen : (arange 0 (dl * 2) (ds + 1 / 10 ^ 10)).length = 3) :
    (ds + 1 / 10 ^ 10 ≤ 5 → ∃ l, fergusonDirections h k ds 0 dl noise = some (.ok l) ∧ l.map Prod.snd = [0]) ∧
    (10 < ds + 1 / 10 ^ 10 → ∃ l, fergusonDirections h k ds 0 dl noise = some (.ok l) ∧ l.map Prod.snd = [0, 0]) := by
  unfold fergusonDirections
  generalize hD : ds + 1 / 10 ^ 10 = D at hlen ⊢
  have hpos : 0 < D := by rw [← hD]; positivity
  have hf := fun {n : ℕ} (hn : n < 3) => fine_three hlen (straight noise k h (arange 0 (dl * 2) D).length) hn
  have f0 := hf (n := 0) (by norm_num)
  have f1 := hf (n := 1) (by norm_num)
  have f2 := hf (n := 2) (by norm_num)
  unfold curveInterp
  generalize finePts (arange 0 (dl * 2) D) ((List.range (arange 0 (dl * 2) D).length).map (theta noise 0 k h)) (1 / 10) = P at f0 f1 f2 ⊢
  have e1 : √((((1 : ℕ) : ℝ) * (1 / 100) * D - ((0 : ℕ) : ℝ) * (1 / 100) * D) ^ 2 + ((0 : ℝ) - 0) ^ 2) = D / 100 := by
    rw [show (((1 : ℕ) : ℝ) * (1 / 100) * D - ((0 : ℕ) : ℝ) * (1 / 100) * D) ^ 2 + ((0 : ℝ) - 0) ^ 2 = (D / 100) ^ 2 by push_cast; ring, Real.sqrt_sq (by positivity)]
  have e2 : √((((2 : ℕ) : ℝ) * (1 / 100) * D - ((1 : ℕ) : ℝ) * (1 / 100) * D) ^ 2 + ((0 : ℝ) - 0) ^ 2) = D / 100 := by
    rw [show (((2 : ℕ) : ℝ) * (1 / 100) * D - ((1 : ℕ) : ℝ) * (1 / 100) * D) ^ 2 + ((0 : ℝ) - 0) ^ 2 = (D / 100) ^ 2 by push_cast; ring, Real.sqrt_sq (by positivity)]
  rw [hlen, if_neg (by norm_num), if_neg (by norm_num)]
  refine ⟨fun hs => ?_, fun hs => ?_⟩
  · have hn : findNext P (1 / 10) 2 1 0 = .ok none := by
      rw [findNext, f1, show (1 - 1 : ℕ) = 0 from rfl, f0]
      dsimp only
      rw [e1, if_neg (by linarith), findNext, show 1 + 1 = 2 from rfl, f2, show (2 - 1 : ℕ) = 1 from rfl, f1]
      dsimp only
      rw [e2, if_neg (by linarith), findNext]
    have hp : pickLoop P (1 / 10) 3 (3 + 1) 0 = some (.ok []) := by
      rw [pickLoop, if_pos (by norm_num)]
      show (match findNext P (1 / 10) 2 1 0 with
        | .error e => _
        | .ok (some j) => _
        | .ok none => _) = _
      rw [hn]
      rfl
    rw [hp]
    refine ⟨[(((0 : ℕ) : ℝ) * (1 / 100) * D, 0)], ?_, rfl⟩
    simp only [List.mapM_cons, List.mapM_nil, f0]
    rfl
  · have hn : findNext P (1 / 10) 2 1 0 = .ok (some 1) := by
      rw [findNext, f1, show (1 - 1 : ℕ) = 0 from rfl, f0]
      dsimp only
      rw [e1, if_pos (by linarith)]
    have hp : pickLoop P (1 / 10) 3 (3 + 1) 0 = some (.ok [1]) := by
      rw [pickLoop, if_pos (by norm_num)]
      show (match findNext P (1 / 10) 2 1 0 with
        | .error e => _
        | .ok (some j) => _
        | .ok none => _) = _
      rw [hn]
      rfl
    rw [hp]
    refine ⟨[(((0 : ℕ) : ℝ) * (1 / 100) * D, 0), (((1 : ℕ) : ℝ) * (1 / 100) * D, 0)], ?_, rfl⟩
    simp only [List.mapM_cons, List.mapM_nil, f0, f1]
    rfl

/-- **C125 fails for channels.** A straight channel of width 10 in a domain of length 3/2, with `ds = 1`: whatever the random numbers, its centreline has one point. In a
unit of which the old one has 100 it has two, from the same random numbers. Centrelines are resampled in steps of 0.1 units, whatever the unit is. -/
theorem C125_channels_refuted : ∃ g : Grid, g.lx = 3 / 2 ∧ ∀ (p p' : ChannelParams) (h k : ℝ) (first : ℕ → ℝ) (mig : Option (ℕ → ℕ → ℝ)) (noise : ℕ → ℕ → ℝ) (n : ℕ),
    (∃ l, channelCurve p g h k 1 0 0 first mig noise n 10 = .ok l ∧ l.length = 1) ∧
    ∃ l, channelCurve p' (g.scale 100) h k (100 * 1) 0 0 (fun i => 100 * first i) (mig.map fun u i j => 100 * u i j) noise n (100 * 10) = .ok l ∧ l.length = 2 := by
  refine ⟨{ x0 := 0, y0 := 0, z0 := 0, dx := 1 / 2, dy := 1 / 2, dz := 1, lx := 3 / 2, ly := 1, lz := 1, periodic := false }, rfl, fun p p' h k first mig noise n => ⟨?_, ?_⟩⟩
  · have hL : domainLength { x0 := 0, y0 := 0, z0 := 0, dx := 1 / 2, dy := 1 / 2, dz := 1, lx := 3 / 2, ly := 1, lz := 1, periodic := false } 0 = 3 / 2 := by
      norm_num [domainLength]
    have hlen : (arange 0 (3 / 2 * 2 : ℝ) (1 + 1 / 10 ^ 10)).length = 3 := by
      rw [arange_length]
      have : ⌈((3 / 2 * 2 : ℝ) - 0) / (1 + 1 / 10 ^ 10)⌉ = 3 := by
        rw [Int.ceil_eq_iff]
        norm_num
      rw [this]
      rfl
    obtain ⟨l, h1, h2⟩ := (directions_three (h := h) (k := k) (noise n) one_pos hlen).1 (by norm_num)
    unfold channelCurve fergusonCurve channelStart
    rw [hL, h1]
    dsimp only
    rw [h2]
    refine ⟨_, rfl, ?_⟩
    norm_num [trim, centreline, walk, mean, CPoint.move, Grid.xmax]
  · have hL : domainLength (Grid.scale 100 { x0 := 0, y0 := 0, z0 := 0, dx := 1 / 2, dy := 1 / 2, dz := 1, lx := 3 / 2, ly := 1, lz := 1, periodic := false }) 0 = 150 := by
      norm_num [domainLength, Grid.scale]
    have hlen : (arange 0 (150 * 2 : ℝ) (100 * 1 + 1 / 10 ^ 10)).length = 3 := by
      rw [arange_length]
      have : ⌈((150 * 2 : ℝ) - 0) / (100 * 1 + 1 / 10 ^ 10)⌉ = 3 := by
        rw [Int.ceil_eq_iff]
        norm_num
      rw [this]
      rfl
    obtain ⟨l, h1, h2⟩ := (directions_three (h := h) (k := k) (noise n) (by norm_num) hlen).2 (by norm_num)
    unfold channelCurve fergusonCurve channelStart
    rw [hL, h1]
    dsimp only
    rw [h2]
    refine ⟨_, rfl, ?_⟩
    norm_num [trim, centreline, walk, mean, CPoint.move, Grid.xmax, Grid.scale]

end Hyvr
