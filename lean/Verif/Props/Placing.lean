import Verif.Lemmas.Placing
import Verif.Props.Finish

/-!
C104: generation with the objects of an ini-file raises nothing and ends.
-/

namespace Hyvr

open Py Spec Real

/-! ### Reading -/

theorem bool_read {opts : List Opt} (hw : WellNamed opts) {raw d : Dict} (h : parseSection opts raw = .ok d) {o : Opt} (ho : o ∈ opts)
    (hk : o.kind = .bool) (ha : o.alternatives = []) (hd : ∃ b, o.default = .leaf (.bool b)) : ∃ b, d o.name = some (.leaf (.bool b)) := by
  obtain ⟨pre, post, hpp⟩ := List.append_of_mem ho
  obtain ⟨h1, h2⟩ := C46_present _ hw _ _ h pre post _ hpp
  rw [given_simple ha] at h1 h2
  cases hn : raw o.name with
  | none =>
    obtain ⟨b, hb⟩ := hd
    exact ⟨b, by rw [(h2 hn).2, hb]⟩
  | some r =>
    obtain ⟨ctx, v, hcx, hv, hd, _⟩ := h1 r hn
    unfold optValue at hv
    rw [bind_ok] at hv
    obtain ⟨t, -, hv⟩ := hv
    simp only [hk, bind_ok] at hv
    obtain ⟨b, -, hv⟩ := hv
    unfold validated at hv
    split_ifs at hv
    cases hv
    exact ⟨b, hd⟩

/-- The grid of an accepted ini-file. -/
theorem grid_read {C : Convs} {p : Ini} {P : Parsed} (h : parseInifile C p = .ok P) {u : Unit} (hg : gridCheck P.model = .ok u)
    (hd : ∀ k ∈ ["lx", "ly"], HasNumber P.model k fun q => 0 < q) : ∃ g, readGrid P.model = .ok g ∧ 0 < g.lx ∧ 0 < g.ly := by
  obtain ⟨m0, _, _, _, -, -, -, hm0, hmodel, -⟩ := parseInifile_ok h
  obtain ⟨b, hb⟩ := bool_read (model_named C) hm0 (o := { name := "periodic", kind := .bool, isOptional := true, default := .leaf (.bool false) })
    (by simp [optsModel]) rfl rfl ⟨false, rfl⟩
  have hper : P.model "periodic" = some (.leaf (.bool b)) := by
    simp only [parseModel, bind_ok] at hmodel
    obtain ⟨m1, hm1, m2, hm2, hm3⟩ := hmodel
    rw [hm0] at hm1
    cases hm1
    have e2 : m2 "periodic" = m0 "periodic" := by
      rcases defaultTo_ok hm2 with ⟨-, w, -, rfl⟩ | ⟨_, -, -, rfl⟩
      · exact set_ne _ _ (by decide)
      · rfl
    have e3 : P.model "periodic" = m2 "periodic" := by
      rcases defaultTo_ok hm3 with ⟨-, w, -, he⟩ | ⟨_, -, -, he⟩ <;> rw [he]
      exact set_ne _ _ (by decide)
    rw [e3, e2]
    exact hb
  simp only [gridCheck, bind_ok, dget_ok] at hg
  obtain ⟨x0, hx0, y0, hy0, z0, hz0, dx, hdx, dy, hdy, dz, hdz, lx, hlx, ly, hly, lz, hlz, -, -, u1, h1, u2, h2, h3⟩ := hg
  obtain ⟨qx0, qdx, qlx, rfl, rfl, rfl, -⟩ := axisCheck_num h1
  obtain ⟨qy0, qdy, qly, rfl, rfl, rfl, -⟩ := axisCheck_num h2
  obtain ⟨qz0, qdz, qlz, rfl, rfl, rfl, -⟩ := axisCheck_num h3
  have hx : 0 < qlx := has_num (hd "lx" (by simp)) hlx
  have hy : 0 < qly := has_num (hd "ly" (by simp)) hly
  refine ⟨⟨qx0, qy0, qz0, qdx, qdy, qdz, qlx, qly, qlz, b⟩, ?_, by simp only; exact_mod_cast hx, by simp only; exact_mod_cast hy⟩
  refine (of_ok (dget_ok.2 hx0)).trans ?_
  refine (of_ok (b := qx0) rfl).trans ?_
  refine (of_ok (dget_ok.2 hy0)).trans ?_
  refine (of_ok (b := qy0) rfl).trans ?_
  refine (of_ok (dget_ok.2 hz0)).trans ?_
  refine (of_ok (b := qz0) rfl).trans ?_
  refine (of_ok (dget_ok.2 hdx)).trans ?_
  refine (of_ok (b := qdx) rfl).trans ?_
  refine (of_ok (dget_ok.2 hdy)).trans ?_
  refine (of_ok (b := qdy) rfl).trans ?_
  refine (of_ok (dget_ok.2 hdz)).trans ?_
  refine (of_ok (b := qdz) rfl).trans ?_
  refine (of_ok (dget_ok.2 hlx)).trans ?_
  refine (of_ok (b := qlx) rfl).trans ?_
  refine (of_ok (dget_ok.2 hly)).trans ?_
  refine (of_ok (b := qly) rfl).trans ?_
  refine (of_ok (dget_ok.2 hlz)).trans ?_
  refine (of_ok (b := qlz) rfl).trans ?_
  refine (of_ok (dget_ok.2 hper)).trans ?_
  exact (of_ok (b := b) rfl).trans rfl

/-- What is read from a placeable section can be placed. -/
inductive ShapeFits (d : Dict) : ShapeRead → Prop
  | sheet {p : SheetRead} (geo : written d "geometry" "sheet") (struct : p.inside.struct ≠ "dip") (facies : p.inside.facies ≠ []) :
      ShapeFits d (.sheet p)
  | trough {p : TroughRead} (geo : written d "geometry" "trough")
      (place : ∀ (g : Grid) (r : ObjRandoms) (b t : Surface ℝ), 0 < g.lx → 0 < g.ly → UniformObjs r → ∃ ts, placeTroughs p g r b t = .ok ts) :
      ShapeFits d (.trough p)
  | channel {p : ChannelRead} (geo : written d "geometry" "channel")
      (place : ∀ (g : Grid) (r : ObjRandoms) (b t : Surface ℝ), 0 < g.lx → 0 < g.ly → UniformObjs r →
        (∀ N e, placeChannels p g r N b t ≠ some (.error e)) ∧ ∃ F x, ∀ N ≥ F, placeChannels p g r N b t = some x) :
      ShapeFits d (.channel p)

theorem shape_read {C : Convs} (hfloat : ∀ t a, C.float t = .ok a → ∃ q, a = .num q) (hint : ∀ t a, C.int t = .ok a → ∃ n : ℤ, a = .num n)
    {p : Ini} {P : Parsed} (h : parseInifile C p = .ok P) (hf : WellFilled p P) (hp : Placeable p P) {s : String} {e : Element}
    (he : (s, e) ∈ P.elements) : ∃ x, readShape e.dict = .ok x ∧ ShapeFits e.dict x := by
  obtain ⟨hydro, hsec, hpe⟩ := element_section h he
  have ht := hf.trends s hsec
  have hl := hp.lists s hsec
  obtain ⟨g, opts, d0, cm, hgo, ho, hp0, -, hk, -⟩ := element_kept hpe
  have hraw : p.get s "geometry" = some (.leaf (.text g)) := by
    obtain ⟨hn, more, hmore⟩ := geometryOpts_form ho
    obtain ⟨gt, hg1, -⟩ := required_scalar (C := C) hn hp0 (o := { name := "geometry", kind := .scalar C.str, valid := oneOf ["trough", "channel", "sheet"] })
      (by rw [hmore]; simp [optsElement]) rfl rfl rfl
    have hg1' : p.get s "geometry" = some (.leaf (.text gt)) := hg1
    unfold geometryOf at hgo
    rw [hg1'] at hgo
    cases hgo
    exact hg1'
  have hgeo := element_geometry hpe hraw
  have hcases : g = "trough".toList ∨ g = "channel".toList ∨ g = "sheet".toList := by
    unfold geometryOpts at ho
    split_ifs at ho with h1 h2 h3
    · exact Or.inl h1
    · exact Or.inr (Or.inl h2)
    · exact Or.inr (Or.inr h3)
  rcases hcases with rfl | rfl | rfl
  · have hw : written e.dict "geometry" "trough" := hgeo
    obtain ⟨q, hq, hfits, hmig, hst⟩ := trough_read hfloat hpe hw ht hl
    refine ⟨.trough q, ?_, .trough hw fun g r b t hx hy hu =>
      placeTroughs_total (readTrough_from hq) hfits hmig hst (hp.troughs s e he hw) hx hy hu b t⟩
    refine (of_ok (dget_ok.2 hgeo)).trans ((of_ok (b := "trough".toList) rfl).trans ?_)
    rw [if_pos rfl]
    exact (of_ok hq).trans rfl
  · have hw : written e.dict "geometry" "channel" := hgeo
    obtain ⟨q, hq, hfits, hds⟩ := channel_read hfloat hint hpe hw ht hl
    refine ⟨.channel q, ?_, .channel hw fun g r b t hx hy hu =>
      placeChannels_total (readChannel_from hq) hfits hds (hp.channels s e he hw) hx hy hu b t⟩
    refine (of_ok (dget_ok.2 hgeo)).trans ((of_ok (b := "channel".toList) rfl).trans ?_)
    rw [if_neg (by decide), if_pos rfl]
    exact (of_ok hq).trans rfl
  · have hw : written e.dict "geometry" "sheet" := hgeo
    obtain ⟨q, hq, hfits⟩ := inside_read hfloat hpe hl
    refine ⟨.sheet ⟨q⟩, ?_, .sheet hw (fun hs => hp.sheets s e he hw ?_) hfits.facies⟩
    · refine (of_ok (dget_ok.2 hgeo)).trans ((of_ok (b := "sheet".toList) rfl).trans ?_)
      rw [if_neg (by decide), if_neg (by decide), if_pos rfl]
      exact (of_ok hq).trans rfl
    · obtain ⟨s', hs', hw'⟩ := struct_written (readInside_from hq) (l := ["dip"]) (by rw [List.mem_singleton]; exact hs) (by decide)
      rw [List.mem_singleton] at hs'
      subst hs'
      exact hw'

theorem shapes_read {C : Convs} (hfloat : ∀ t a, C.float t = .ok a → ∃ q, a = .num q) (hint : ∀ t a, C.int t = .ok a → ∃ n : ℤ, a = .num n)
    {p : Ini} {P : Parsed} (h : parseInifile C p = .ok P) (hf : WellFilled p P) (hp : Placeable p P) :
    ∃ shapes, readShapes P = .ok shapes ∧ ∀ s e, (s, e) ∈ P.elements → ∃ x, shapes.lookup s = some x ∧ ShapeFits e.dict x := by
  obtain ⟨shapes, hs⟩ : ∃ shapes, readShapes P = .ok shapes := mapPy_total fun x hx => by
    obtain ⟨y, hy, -⟩ := shape_read hfloat hint h hf hp (s := x.1) (e := x.2) hx
    exact ⟨(x.1, y), (of_ok hy).trans rfl⟩
  refine ⟨shapes, hs, fun s e he => ?_⟩
  obtain ⟨y, hy, h1⟩ := mapPy_mem hs he
  simp only [bind_ok, pure_ok] at h1
  obtain ⟨x, -, rfl⟩ := h1
  obtain ⟨c, hc, -⟩ := lookup_mem hy
  obtain ⟨e', he', hre⟩ := shape_of hs hc
  rw [element_unique h he' he] at hre
  obtain ⟨x', hx', hfit⟩ := shape_read hfloat hint h hf hp he
  rw [hre] at hx'
  cases hx'
  exact ⟨c, hc, hfit⟩

/-! ### Placing -/

theorem element_written {t : ElemParams ℚ} {e : Element} {i : ℕ} (h : readElement t.name i e = .ok t) : written e.dict "geometry" t.geometry := by
  simp only [readElement, bind_ok, pure_ok, dget_ok] at h
  obtain ⟨gv, hgv, g, hgt, _, -, _, -, _, -, _, -, _, -, _, -, q, -, tv, -, tr, -, hrt⟩ := h
  have hb : t.geometry = String.ofList g := by rw [← hrt]
  unfold written
  rw [hgv, hb]
  unfold asText at hgt
  split at hgt
  · cases hgt
    simp
  · cases hgt

theorem objects_quiet {P : Parsed} {shapes : List (String × ShapeRead)}
    (hs : ∀ s e, (s, e) ∈ P.elements → ∃ x, shapes.lookup s = some x ∧ ShapeFits e.dict x) {g : Grid} (hx : 0 < g.lx) (hy : 0 < g.ly)
    {o : ℕ → ℕ → ObjRandoms} (hu : ∀ si n, UniformObjs (o si n)) (d : ℕ → StratumDraw ℝ) {t : ElemParams ℚ} {e : Element} {i : ℕ}
    (he : (t.name, e) ∈ P.elements) (hre : readElement t.name i e = .ok t) (si n : ℕ) :
    Quiet (t.cast : ElemParams ℝ) ((withObjects g shapes o d si).aes n) ∧ Ends (t.cast : ElemParams ℝ) ((withObjects g shapes o d si).aes n) := by
  obtain ⟨x, hx', hfit⟩ := hs _ _ he
  have hw := element_written hre
  have hobj : ∀ N b tp, ((withObjects g shapes o d si).aes n).objs N t.cast b tp = objectsOf g shapes (o si n) N t.cast b tp := fun _ _ _ => rfl
  have hname : (t.cast : ElemParams ℝ).name = t.name := rfl
  have hgeo : (t.cast : ElemParams ℝ).geometry = t.geometry := rfl
  cases hfit with
  | @sheet p geo struct facies =>
    have hts : t.geometry = "sheet" := written_eq hw geo
    refine ⟨⟨fun h => ?_, fun _ k z e' => ?_⟩, fun h => ?_⟩
    · rw [hgeo, hts] at h
      simp at h
    · show sheetOf g shapes (o si n) t.cast k z ≠ _
      unfold sheetOf
      rw [hname, hx']
      simp only
      obtain ⟨f, hf⟩ := choice_total facies ((o si n).sheet p k).facies
      have : ∃ s, SheetObj.new p.params ((o si n).sheet p k) g z = .ok s := by
        unfold SheetObj.new
        rw [if_neg (show ¬ p.params.struct = "dip" from struct)]
        exact ⟨_, (of_ok hf).trans rfl⟩
      obtain ⟨s, hs⟩ := this
      rw [of_ok hs]
      intro h0
      cases h0
    · rw [hgeo, hts] at h
      simp at h
  | @trough p geo place =>
    have hts : t.geometry = "trough" := written_eq hw geo
    have key : ∀ N b tp, ∃ os, objectsOf g shapes (o si n) N t.cast b tp = some (.ok os) ∧
        ∀ M, objectsOf g shapes (o si n) M t.cast b tp = objectsOf g shapes (o si n) N t.cast b tp := by
      intro N b tp
      unfold objectsOf
      rw [hname, hx']
      simp only
      obtain ⟨ts, hts⟩ := place g (o si n) b tp hx hy (hu si n)
      rw [hts]
      exact ⟨_, rfl, fun _ => trivial⟩
    refine ⟨⟨fun _ N b tp e' => ?_, fun h => ?_⟩, fun _ b tp => ?_⟩
    · obtain ⟨os, hos, -⟩ := key N b tp
      rw [hobj, hos]
      simp
    · rw [hgeo, hts] at h
      simp at h
    · obtain ⟨os, hos, hsame⟩ := key 0 b tp
      exact ⟨0, .ok os, fun N _ => by rw [hobj, hsame N, hos]⟩
  | @channel p geo place =>
    have hts : t.geometry = "channel" := written_eq hw geo
    have key : ∀ N b tp, objectsOf g shapes (o si n) N t.cast b tp = (placeChannels p g (o si n) N b tp).map fun e =>
        e.map (numbered (fun k => Channel.toObj g ((o si n).skip k) ((o si n).stray k)) 0) := by
      intro N b tp
      unfold objectsOf
      rw [hname, hx']
    refine ⟨⟨fun _ N b tp e' => ?_, fun h => ?_⟩, fun _ b tp => ?_⟩
    · rw [hobj, key]
      have := (place g (o si n) b tp hx hy (hu si n)).1 N
      cases hc : placeChannels p g (o si n) N b tp with
      | none => simp
      | some r =>
        cases r with
        | error e0 => exact absurd hc (this e0)
        | ok cs => simp [Except.map]
    · rw [hgeo, hts] at h
      simp at h
    · obtain ⟨F, r, hF⟩ := (place g (o si n) b tp hx hy (hu si n)).2
      exact ⟨F, _, fun N hN => by rw [hobj, key, hF N hN]; rfl⟩

/-! ### Generation -/

/-- **C104 (no exception).** If an ini-file in the new format is accepted and well filled and its objects can be placed (`Spec.Placeable`), then reading
its sections, generating strata, AEs and sheets, and placing the troughs, channels and sheets raises no exception, for all random numbers, the uniform ones in
[0, 1). -/
theorem C104_no_exception (C : Convs) (hfloat : ∀ t a, C.float t = .ok a → ∃ q, a = .num q) (hint : ∀ t a, C.int t = .ok a → ∃ n : ℤ, a = .num n)
    (p : Ini) (hnew : p.get "run" "dataoutputs" = none) (iniDir : Path) (ini : List Char) (answer : Path) (st : Settings)
    (hst : settings C p iniDir ini answer = .ok st) (hf : WellFilled p st.parsed) (hp : Placeable p st.parsed) (r : Randoms ℝ) (hr : Uniforms r)
    (o : ℕ → ℕ → ObjRandoms) (hu : ∀ si n, UniformObjs (o si n)) (d : ℕ → StratumDraw ℝ) (e : PyErr) :
    generateObjects st.parsed st.ids r o d ≠ .error (.err e) := by
  obtain ⟨h1, h2, u, h3⟩ := settings_facts hnew hst
  obtain ⟨g, hg, hx, hy⟩ := grid_read h1 h3 hp.domain
  obtain ⟨shapes, hsh, hs⟩ := shapes_read hfloat hint h1 hf hp
  obtain ⟨I, names, hI, hnx, hny, hnames, hn, hus⟩ := genInput_usable hfloat h1 h2 h3 hf
  intro he
  unfold generateObjects at he
  rw [of_ok (liftErr_ok.2 hg), of_ok (liftErr_ok.2 hsh)] at he
  unfold generateIni at he
  rw [of_ok (liftErr_ok.2 hI)] at he
  refine C99_no_exception hnx hny _ _ _ _ (hus r _ hr fun ts hts t htt si n => ?_) e he
  obtain ⟨e, i, hel, hre⟩ := sections_of_types h1 hnames hI hn ts hts t htt
  exact (objects_quiet hs hx hy hu d hel hre si n).1

/-- **C104 (end).** If moreover the mean thicknesses exceed the avulsions, lens thicknesses of sheets are positive and the normal random numbers
for the thicknesses are not too far below zero, the generation ends: with enough passes granted to the loops there is a model, with one stratum for each name
in the option `strata`, and more passes do not change it. -/
theorem C104_finishes (C : Convs) (hfloat : ∀ t a, C.float t = .ok a → ∃ q, a = .num q) (hint : ∀ t a, C.int t = .ok a → ∃ n : ℤ, a = .num n)
    (p : Ini) (hnew : p.get "run" "dataoutputs" = none) (iniDir : Path) (ini : List Char) (answer : Path) (st : Settings)
    (hst : settings C p iniDir ini answer = .ok st) (hf : WellFilled p st.parsed) (hp : Placeable p st.parsed) (names : List Val)
    (hnames : st.parsed.strata "strata" = some (.node names)) (γ δ : ℚ) (hδ : 0 < δ) (ht : ThickEnough st.parsed names.length γ δ)
    (r : Randoms ℝ) (hr : Uniforms r) (hγ : ∀ si n, (γ : ℝ) ≤ 1 + r.normal si n / 10) (o : ℕ → ℕ → ObjRandoms)
    (hu : ∀ si n, UniformObjs (o si n)) (d : ℕ → StratumDraw ℝ) :
    ∃ F m cms', m.strata.length = names.length ∧
      ∀ N ≥ F, generateObjects st.parsed st.ids r o (fun si => withFuel N (d si)) = .ok (m, cms') := by
  obtain ⟨h1, h2, u, h3⟩ := settings_facts hnew hst
  obtain ⟨g, hg, hx, hy⟩ := grid_read h1 h3 hp.domain
  obtain ⟨shapes, hsh, hs⟩ := shapes_read hfloat hint h1 hf hp
  obtain ⟨F, m, cms', hlen, hF⟩ := ini_finishes hfloat hnew hst hf hnames hδ ht hr hγ (d := withObjects g shapes o d)
    fun t e i hel hre si n => objects_quiet hs hx hy hu d hel hre si n
  refine ⟨F, m, cms', hlen, fun N hN => ?_⟩
  unfold generateObjects
  rw [of_ok (liftErr_ok.2 hg), of_ok (liftErr_ok.2 hsh)]
  exact hF N hN

/-! ### An example -/

/-- Sections of the example with a section of channels. -/
def exRiverSections : List (String × List (String × String)) := withOptions "strata" [("ae", "[sheets, scour, river]"), ("ae_in_strata", "[[sheets, river], [sheets, scour]]"),
    ("ae_prob", "[[1, 3], [1, 2]]"), ("ae_z_mean", "[[2, 2], [2, 3]]")] exSections ++
  [("river", [("geometry", "channel"), ("structure", "massive"), ("contact_model", "[flat]"), ("facies", "[cobbles, sand]"), ("agg", "2"),
      ("width", "4"), ("depth", "1"), ("h", "1"), ("k", "1"), ("ds", "1"), ("eps_factor", "1"), ("channel_no", "2"), ("dip", "[0, 10]")])]

/-- The example with a section of channels. -/
def exRiver : Ini := iniOf exRiverSections

/-- What the list options of the example write. -/
def exRiverLists : List (String × Tree (List Char)) :=
  [("ae", toks ["sheets", "scour", "river"]), ("ae_in_strata", .node [toks ["sheets", "river"], toks ["sheets", "scour"]]),
    ("ae_prob", .node [toks ["1", "3"], toks ["1", "2"]]), ("ae_z_mean", .node [toks ["2", "2"], toks ["2", "3"]])] ++ exLists ++
  [("paleoflow", toks ["0", "45"]), ("dip", toks ["0", "10"])]

/-- The list options `ks` of the section `s` are well written: what they write is in the table. -/
def listsIn (w : List (String × Tree (List Char))) (p : Ini) (s : String) (ks : List String) : Bool := ks.all fun k =>
  match p.get s k, w.lookup k with
  | some (.leaf (.text s)), some t => writesB s t
  | some (.leaf (.text _)), none => false
  | _, _ => true

theorem lists_in {w : List (String × Tree (List Char))} {p : Ini} {s : String} {ks : List String} (h : listsIn w p s ks = true) (k : String) (hk : k ∈ ks) (t : List Char)
    (ht : p.get s k = some (.leaf (.text t))) : WellWritten t := by
  have := List.all_eq_true.1 h k hk
  rw [ht] at this
  cases hl : w.lookup k with
  | none => simp [hl] at this
  | some w =>
    rw [hl] at this
    exact written_of this

/-- Check of `Spec.HasNumber`. -/
def numberB (d : Dict) (k : String) (f : ℚ → Bool) : Bool :=
  match d k with
  | some (.leaf (.num q)) => f q
  | _ => false

theorem number_of {d : Dict} {k : String} {P : ℚ → Prop} [DecidablePred P] (h : numberB d k (fun q => decide (P q)) = true) : HasNumber d k P := by
  unfold numberB at h
  split at h
  · rename_i q hq
    exact ⟨q, hq, of_decide_eq_true h⟩
  · cases h

/-- Check of `Spec.Followers`. -/
def followersB (d : Dict) : Bool :=
  match d "facies", d "altfacies" with
  | some (.node fs), some (.node rows) => rows.all fun
    | .node row => decide (row ≠ []) && row.all fun f => decide (f ∈ fs)
    | _ => true
  | _, _ => true

theorem followers_of {d : Dict} (h : followersB d = true) : Followers d := by
  intro fs rows h1 h2 row hrow
  unfold followersB at h
  simp only [h1, h2] at h
  have := List.all_eq_true.1 h _ hrow
  simp only [Bool.and_eq_true] at this
  exact ⟨of_decide_eq_true this.1, fun f hf => of_decide_eq_true (List.all_eq_true.1 this.2 f hf)⟩

/-- Check of `Spec.written`. -/
def writtenB (d : Dict) (k s : String) : Bool := decide (d k = some (.leaf (.text s.toList)))

theorem written_not {d : Dict} {k s s' : String} (h : writtenB d k s = true) (h' : written d k s') : s' = s := by
  have := of_decide_eq_true h
  exact written_eq h' this

/-- Check of a range. -/
def rangeB (d : Dict) (k : String) (B : ℚ) : Bool :=
  match d k with
  | some (.node [.leaf (.num lo), .leaf (.num hi)]) => decide (|lo| ≤ B) && decide (|hi| ≤ B)
  | some (.leaf (.num q)) => decide (|q| ≤ B)
  | _ => true

/-- Check of a section of the example. -/
def riverSectionB (e : Element) : Bool :=
  decide (e.contact.mode.toList.map Char.toLower = e.contact.mode.toList) && ((rangeB e.dict "dip" 10 && rangeB e.dict "bg_dip" 10) && (decide (e.dict "size_ztrend" = some (.leaf .none)) &&
  (writtenB e.dict "geometry" "sheet" && (numberB e.dict "lens_thickness" (fun q => decide (0 < q)) &&
      writtenB e.dict "structure" "massive") ||
  (writtenB e.dict "geometry" "trough" && (["length", "width", "depth", "agg", "dipset_dist"].all (fun k => numberB e.dict k fun q => decide (0 < q)) &&
      (numberB e.dict "trough_density" (fun q => decide (0 ≤ q)) && (decide (e.dict "migrate" = some (.leaf .none)) &&
      (writtenB e.dict "structure" "dip" && followersB e.dict)))) ||
  writtenB e.dict "geometry" "channel" && (["width", "agg", "ds"].all (fun k => numberB e.dict k fun q => decide (0 < q)) &&
      (["depth", "channel_no"].all (fun k => numberB e.dict k fun q => decide (0 ≤ q)) &&
      (numberB e.dict "h" (fun q => decide (|q| ≤ 1)) && writtenB e.dict "structure" "massive")))))))

/-- Check of what an ini-file like the example is parsed to. -/
def fluvialB (P : Parsed) : Bool :=
  decide (P.strata "strata" = some (.node [.leaf (.text "clay".toList), .leaf (.text "gravel".toList)])) &&
  (decide (P.strata "ae_in_strata" = some (.node [.node [.leaf (.text "sheets".toList), .leaf (.text "river".toList)],
      .node [.leaf (.text "sheets".toList), .leaf (.text "scour".toList)]])) &&
  (decide (P.strata "ae_prob" = some (numTable [[1, 3], [1, 2]])) && (decide (P.strata "ae_z_mean" = some (numTable [[2, 2], [2, 3]])) &&
  (decide (P.strata "avul" = some (numTable [[0, 1], [1, 2]])) && (["lx", "ly"].all (fun k => numberB P.model k fun q => decide (0 < q)) &&
  (P.contacts.all (fun c => decide (c.mode.toList.map Char.toLower = c.mode.toList)) && P.elements.all (fun e => riverSectionB e.2)))))))

/-- Check of what the example is parsed to. -/
def riverB (P : Parsed) : Bool :=
  decide (P.strata "strata" = some (.node [.leaf (.text "clay".toList), .leaf (.text "gravel".toList)])) &&
  (decide (P.strata "ae_in_strata" = some (.node [.node [.leaf (.text "sheets".toList), .leaf (.text "river".toList)],
      .node [.leaf (.text "sheets".toList), .leaf (.text "scour".toList)]])) &&
  (decide (P.strata "ae_prob" = some (numTable [[1, 3], [1, 2]])) && (decide (P.strata "ae_z_mean" = some (numTable [[2, 2], [2, 3]])) &&
  (decide (P.strata "avul" = some (numTable [[0, 1], [1, 2]])) && (["lx", "ly"].all (fun k => numberB P.model k fun q => decide (0 < q)) &&
  (P.contacts.all (fun c => decide (c.mode.toList.map Char.toLower = c.mode.toList)) && (P.elements.all (fun e => riverSectionB e.2) &&
  (decide (P.strata "bg_dip" = some (numList [0, 3])) && match P.hydraulics "hydrofacies" with
    | some (.node l) => decide (l.length = 3)
    | _ => false))))))))

theorem exRiver_parsed : ∃ st, settings exConvs exRiver ["m"] "a.ini".toList [] = .ok st ∧ riverB st.parsed = true := ok_check (by decide +kernel)

theorem river_sections : elementSections exRiver = ["sheets", "scour", "river"] := by rfl

/-- Check of the sections and lists of an ini-file like the example. -/
def fluvialIniB (w : List (String × Tree (List Char))) (p : Ini) : Bool := decide (elementSections p = ["sheets", "scour", "river"]) && (listsIn w p "strata" strataLists &&
  ["sheets", "scour", "river"].all fun s => decide (p.get s "size_ztrend" = none) && listsIn w p s objectLists)

theorem fluvial_filled {w : List (String × Tree (List Char))} {p : Ini} {P : Parsed} (hp : fluvialIniB w p = true) (h : fluvialB P = true) : WellFilled p P := by
  simp only [fluvialIniB, Bool.and_eq_true] at hp
  obtain ⟨hsec, hlist, htrend⟩ := hp
  replace hsec := of_decide_eq_true hsec
  simp only [fluvialB, Bool.and_eq_true] at h
  obtain ⟨-, h1, h2, h3, -, -, h4, h5⟩ := h
  refine ⟨?_, fun k hk t ht => lists_in hlist k hk t ht, ?_, ?_, ?_, ?_, ?_⟩
  · intro l hl v hv
    rw [of_decide_eq_true h1] at hl
    cases hl
    simp only [hsec]
    simp only [List.mem_cons, List.not_mem_nil, or_false] at hv
    rcases hv with rfl | rfl
    · exact ⟨_, rfl, by simp⟩
    · exact ⟨_, rfl, by simp⟩
  · intro s hs t ht
    rw [hsec] at hs
    have := List.all_eq_true.1 htrend s hs
    rw [Bool.and_eq_true] at this
    rw [of_decide_eq_true this.1] at ht
    cases ht
  · intro c hc
    have := of_decide_eq_true (List.all_eq_true.1 h4 c hc)
    exact this
  · intro c hc
    have := List.all_eq_true.1 h5 c hc
    simp only [riverSectionB, Bool.and_eq_true] at this
    have := of_decide_eq_true this.1
    exact this
  · intro ll hll
    rw [of_decide_eq_true h2] at hll
    have := numTable_inj (Option.some.inj hll)
    subst this
    decide +kernel
  · intro ll hll
    rw [of_decide_eq_true h3] at hll
    have := numTable_inj (Option.some.inj hll)
    subst this
    decide +kernel

theorem fluvial_placeable {w : List (String × Tree (List Char))} {p : Ini} {P : Parsed} (hp : fluvialIniB w p = true) (h : fluvialB P = true) : Placeable p P := by
  simp only [fluvialIniB, Bool.and_eq_true] at hp
  obtain ⟨hnames, -, hlists⟩ := hp
  replace hnames := of_decide_eq_true hnames
  simp only [fluvialB, Bool.and_eq_true] at h
  obtain ⟨-, -, -, -, -, hm, -, h5⟩ := h
  have hsec : ∀ s e, (s, e) ∈ P.elements → riverSectionB e = true := fun s e he => List.all_eq_true.1 h5 _ he
  refine ⟨?_, fun k hk => number_of (List.all_eq_true.1 hm k hk), fun s e he hg hs => ?_, fun s e he hg => ?_, fun s e he hg => ?_⟩
  · intro s hs
    rw [hnames] at hs
    have := List.all_eq_true.1 hlists s hs
    rw [Bool.and_eq_true] at this
    exact lists_in this.2
  all_goals
    have h := hsec s e he
    simp only [riverSectionB, Bool.and_eq_true, Bool.or_eq_true] at h
    obtain ⟨-, -, ht, ⟨k1, k2, k3⟩ | ⟨k1, k2, k3, k4, k5, k6⟩ | ⟨k1, k2, k3, k4, k5⟩⟩ := h <;> have hg' := written_not k1 hg
  · exact absurd (written_not k3 hs) (by decide)
  · exact absurd hg' (by decide)
  · exact absurd hg' (by decide)
  · exact absurd hg' (by decide)
  · have hst : ∀ l, StructureIn e.dict l → "dip" ∈ l := by
      rintro l ⟨x, hx, hw⟩
      rw [← written_not k5 hw]
      exact hx
    refine ⟨fun k hk => number_of (List.all_eq_true.1 k2 k ?_), number_of k3, of_decide_eq_true ht, fun a b c e' hm => ?_,
      fun _ => number_of (List.all_eq_true.1 k2 _ (by simp)), fun hs => ?_, fun _ => followers_of k6⟩
    · simp only [List.mem_cons, List.not_mem_nil, or_false] at hk ⊢
      tauto
    · rw [of_decide_eq_true k4] at hm
      cases hm
    · have := hst _ hs
      simp at this
  · exact absurd hg' (by decide)
  · exact absurd hg' (by decide)
  · exact absurd hg' (by decide)
  · have hst : ¬ written e.dict "structure" "dip" := fun hw => by
      exact absurd (written_not k5 hw) (by decide)
    exact ⟨fun k hk => number_of (List.all_eq_true.1 k2 k hk), fun k hk => number_of (List.all_eq_true.1 k3 k hk), of_decide_eq_true ht,
      number_of k4, fun hw => absurd hw hst, fun hw => absurd hw hst, fun hw => absurd hw hst⟩

theorem fluvial_thick {P : Parsed} (h : fluvialB P = true) :
    P.strata "strata" = some (.node [.leaf (.text "clay".toList), .leaf (.text "gravel".toList)]) ∧ ThickEnough P 2 (21 / 20) (1 / 10) := by
  simp only [fluvialB, Bool.and_eq_true] at h
  obtain ⟨h1, -, -, h2, h3, -, -, h4⟩ := h
  replace h2 := of_decide_eq_true h2
  replace h3 := of_decide_eq_true h3
  refine ⟨of_decide_eq_true h1, ?_, ?_⟩
  · rintro si means lo hi ⟨l, e1, -, g1⟩ ⟨l', e2, -, g2⟩ m hm
    rw [h2] at e1
    rw [h3] at e2
    cases e1
    cases e2
    cases si with
    | zero =>
      have q1 := numList_inj (Option.some.inj g1)
      have q2 := numList_inj (Option.some.inj g2)
      cases q2
      subst q1
      simp only [List.mem_cons, List.not_mem_nil, or_false] at hm
      rcases hm with rfl | rfl <;> norm_num
    | succ k =>
      rw [show 2 - 1 - (k + 1) = 0 by omega] at g1 g2
      have q1 := numList_inj (Option.some.inj g1)
      have q2 := numList_inj (Option.some.inj g2)
      cases q2
      subst q1
      simp only [List.mem_cons, List.not_mem_nil, or_false] at hm
      rcases hm with rfl | rfl <;> norm_num
  · intro name e he hg q hq
    have h := List.all_eq_true.1 h4 _ he
    simp only [riverSectionB, Bool.and_eq_true, Bool.or_eq_true] at h
    obtain ⟨-, -, ht, ⟨k1, k2, k3⟩ | ⟨k1, k2, k3, k4, k5, k6⟩ | ⟨k1, k2, k3, k4, k5⟩⟩ := h <;> have hg' := written_not k1 hg
    · refine Or.inr ⟨has_num (number_of k2) hq, fun f0 f1 hf => ?_⟩
      rw [of_decide_eq_true ht] at hf
      cases hf
    · exact absurd hg' (by decide)
    · exact absurd hg' (by decide)

theorem river_fluvial {P : Parsed} (h : riverB P = true) : fluvialB P = true := by
  simp only [riverB, Bool.and_eq_true] at h
  simp only [fluvialB, Bool.and_eq_true]
  tauto

theorem river_filled {P : Parsed} (h : riverB P = true) : WellFilled exRiver P := fluvial_filled (w := exRiverLists) (by decide +kernel) (river_fluvial h)

theorem river_placeable {P : Parsed} (h : riverB P = true) : Placeable exRiver P := fluvial_placeable (w := exRiverLists) (by decide +kernel) (river_fluvial h)

theorem river_thick {P : Parsed} (h : riverB P = true) :
    P.strata "strata" = some (.node [.leaf (.text "clay".toList), .leaf (.text "gravel".toList)]) ∧ ThickEnough P 2 (21 / 20) (1 / 10) :=
  fluvial_thick (river_fluvial h)

/-- Random numbers for the strata of the example. -/
noncomputable def exReals : Randoms ℝ where
  first _ := 0
  next _ _ := 1 / 2
  normal _ _ := 1 / 2
  avulU _ _ := 1 / 2
  avulV _ _ := 1 / 3

theorem exReals_unit : Uniforms exReals where
  first _ := ⟨le_rfl, one_pos⟩
  next _ _ := by constructor <;> norm_num [exReals]
  avulU _ _ := by constructor <;> norm_num [exReals]
  avulV _ _ := by constructor <;> norm_num [exReals]

/-- Random numbers for the objects of the example. -/
noncomputable def exObjReals : ObjRandoms where
  count _ i := i % 3
  pos i k := (1 / (i + 2), 1 / (k + 2))
  move _ _ := (1, -1)
  alpha n := 1 / (n + 2)
  azim n := 1 / (n + 2)
  dip n := 1 / (n + 2)
  shift n := 1 / (n + 2)
  kind n := n
  facies n := n
  layers n k := n + k
  start n := 1 / (n + 2)
  mig _ n := 1 / (n + 2)
  noise _ n := n
  skip _ _ _ _ := false
  stray _ _ := (7, none, none)

theorem exObjReals_unit : UniformObjs exObjReals := by
  have h : ∀ n : ℕ, (0 : ℝ) ≤ 1 / ((n : ℝ) + 2) ∧ 1 / ((n : ℝ) + 2) < 1 := by
    intro n
    have : (0 : ℝ) ≤ n := by positivity
    refine ⟨by positivity, ?_⟩
    rw [div_lt_one (by positivity)]
    linarith
  exact ⟨fun i k => ⟨(h i).1, (h i).2, (h k).1, (h k).2⟩, h, h, h, h, h, fun _ => h⟩

/-- Contact surfaces and passes for the example. -/
noncomputable def exRealDraws : ℕ → StratumDraw ℝ := fun _ =>
  { field := fun i j => i + j, first := 0, fuel := 5
    aes := fun _ => { height := 3, avulU := 1, avulAmt := 0, next := 0, field := fun i j => i - j, objs := fun _ _ _ _ => none
                      sheet := fun _ _ _ => .error .keyError, sheetFuel := 9 } }

theorem exConvs_whole (t : List Char) (a : Atom) (h : exConvs.int t = .ok a) : ∃ n : ℤ, a = .num n := by
  simp only [exConvs] at h
  split_ifs at h
  cases h
  exact ⟨_, rfl⟩

example (e : PyErr) : ∃ st, settings exConvs exRiver ["m"] "a.ini".toList [] = .ok st ∧
    generateObjects st.parsed st.ids exReals (fun _ _ => exObjReals) exRealDraws ≠ .error (.err e) := by
  obtain ⟨st, hst, hr⟩ := exRiver_parsed
  exact ⟨st, hst, C104_no_exception exConvs exConvs_number exConvs_whole exRiver (by decide +kernel) _ _ _ st hst (river_filled hr) (river_placeable hr) _
    exReals_unit _ (fun _ _ => exObjReals_unit) _ e⟩

theorem exRiver_run : ∃ st F m cms', settings exConvs exRiver ["m"] "a.ini".toList [] = .ok st ∧ riverB st.parsed = true ∧ m.strata.length = 2 ∧
    ∀ N ≥ F, generateObjects st.parsed st.ids exReals (fun _ _ => exObjReals) (fun si => withFuel N (exRealDraws si)) = .ok (m, cms') := by
  obtain ⟨st, hst, hr⟩ := exRiver_parsed
  obtain ⟨h1, h2⟩ := river_thick hr
  obtain ⟨F, m, cms', h⟩ := C104_finishes exConvs exConvs_number exConvs_whole exRiver (by decide +kernel) _ _ _ st hst (river_filled hr)
    (river_placeable hr) _ h1 _ _ (by norm_num) h2 exReals exReals_unit (by intro si n; simp only [exReals]; norm_num) (fun _ _ => exObjReals)
    (fun _ _ => exObjReals_unit) exRealDraws
  exact ⟨st, F, m, cms', hst, hr, h⟩

/-- The example has no section with stray reads. -/
theorem river_sound {P : Parsed} (h : riverB P = true) (name : String) (e : Element) (he : (name, e) ∈ P.elements) : ¬ StrayPossible e.dict := by
  rintro ⟨hl, hn⟩
  have hp := river_placeable h
  rcases hl with ⟨hg, -⟩ | ⟨hg | hg, hs⟩
  · obtain ⟨h1, h2, h3, h4, h5, h6, h7⟩ := hp.troughs name e he hg
    exact hn ⟨hg, fun k hk => h1 k (by simp only [List.mem_cons, List.not_mem_nil, or_false] at hk ⊢; tauto), h3, h5, h6⟩
  · simp only [riverB, Bool.and_eq_true] at h
    have h := List.all_eq_true.1 h.2.2.2.2.2.2.2.1 _ he
    simp only [riverSectionB, Bool.and_eq_true, Bool.or_eq_true] at h
    obtain ⟨-, -, ht, ⟨k1, k2, k3⟩ | ⟨k1, k2, k3, k4, k5, k6⟩ | ⟨k1, k2, k3, k4, k5⟩⟩ := h <;> have hg' := written_not k1 hg
    · exact absurd hg' (by decide)
    · exact absurd hg' (by decide)
    · exact absurd (written_not k5 hs) (by decide)
  · exact hp.sheets name e he hg hs

theorem range_of {d : Dict} {k : String} {B : ℚ} (h : rangeB d k B = true) :
    (∀ lo hi, d k = some (numList [lo, hi]) → |lo| ≤ B ∧ |hi| ≤ B) ∧ ∀ q, d k = some (numVal q) → |q| ≤ B := by
  constructor
  · intro lo hi hd
    unfold rangeB at h
    rw [hd] at h
    simp only [numList, numVal, List.map_cons, List.map_nil, Bool.and_eq_true] at h
    exact ⟨of_decide_eq_true h.1, of_decide_eq_true h.2⟩
  · intro q hd
    unfold rangeB at h
    rw [hd] at h
    exact of_decide_eq_true h

theorem river_dips {P : Parsed} (h : riverB P = true) : DipsWithin P 10 := by
  simp only [riverB, Bool.and_eq_true] at h
  obtain ⟨-, -, -, -, -, -, -, h1, h2, -⟩ := h
  have hsec : ∀ s e, (s, e) ∈ P.elements → rangeB e.dict "dip" 10 = true ∧ rangeB e.dict "bg_dip" 10 = true := by
    intro s e he
    have := List.all_eq_true.1 h1 _ he
    simp only [riverSectionB, Bool.and_eq_true] at this
    exact this.2.1
  refine ⟨by norm_num, fun s e he => (range_of (hsec s e he).1).1, fun s e he => (range_of (hsec s e he).2).2, ?_⟩
  rintro n si q ⟨l, hl, -, hq⟩
  rw [of_decide_eq_true h2] at hl
  cases hl
  have hm := List.mem_of_getElem? hq
  simp only [List.map_cons, List.map_nil, List.mem_cons, List.not_mem_nil, or_false, numVal, Tree.leaf.injEq, Atom.num.injEq] at hm
  rcases hm with rfl | rfl <;> norm_num

theorem river_hydro {P : Parsed} (h : riverB P = true) : ∃ hydro, P.hydraulics "hydrofacies" = some (.node hydro) ∧ hydro.length = 3 := by
  simp only [riverB, Bool.and_eq_true] at h
  obtain ⟨-, -, -, -, -, -, -, -, -, h⟩ := h
  split at h
  · rename_i l hl
    exact ⟨l, hl, of_decide_eq_true h⟩
  · cases h

/-- C102 and C103 apply to a run of the example: all facies numbers are 0, 1 or 2 and all dips at most 10. -/
example : ∃ (st : Settings) (N : ℕ) (m : GenModel ℝ) (cms' : Contacts ℝ),
    generateObjects st.parsed st.ids exReals (fun _ _ => exObjReals) (fun si => withFuel N (exRealDraws si)) = .ok (m, cms') ∧ m.strata.length = 2 ∧
    ∀ i j k, (∃ f : ℕ, f < 3 ∧ (assignPoints m.search (fun k => k) 20 10 10).facies i j k = f) ∧
      ∀ x, (assignPoints m.search (fun k => k) 20 10 10).dip i j k = some x → |x| ≤ 10 := by
  obtain ⟨st, F, m, cms', hst, hb, hlen, hF⟩ := exRiver_run
  have hr := hF F le_rfl
  obtain ⟨h1, h2, -⟩ := settings_facts (by decide +kernel) hst
  refine ⟨st, F, m, cms', hr, hlen, fun i j k => ⟨?_, fun x hx => ?_⟩⟩
  · obtain ⟨hydro, hh, f, hf, he⟩ := C103_declared exConvs exRiver st.parsed h1 st.ids h2 (river_sound hb) _ _ (fun _ _ => exObjReals_unit) _ m cms' hr
      (fun k => k) 20 10 10 i j k
    obtain ⟨hydro', hh', hl⟩ := river_hydro hb
    rw [hh] at hh'
    cases hh'
    rw [hl] at hf
    exact ⟨f, hf, he⟩
  · have := C103_dips exConvs exRiver st.parsed h1 st.ids h2 (river_sound hb) 10 (river_dips hb) _ _ (fun _ _ => exObjReals_unit) _ m cms' hr
      (fun k => k) 20 10 10 i j k x hx
    exact_mod_cast this

end Hyvr
