import Verif.Spec.Width
import Verif.Lemmas.Width
import Verif.Lemmas.Moved
import Verif.Lemmas.Resolution
import Verif.Lemmas.Site

/-!
Generation between flat contacts does not use the width of the cells (C135).
-/

namespace Hyvr

open Py Spec

/-- The options of the section `model` but for `dx`, `dy` and `dz`. -/
def modelCore : List String := ["x0", "y0", "z0", "lx", "ly", "lz", "periodic", "hydraulics", "heterogeneity", "heterogeneity_level"]

theorem parseModel_core {C : Convs} {d d' r r' : Dict} (h : AgreeOn modelCore d d') (hr : parseModel C d = .ok r) (hr' : parseModel C d' = .ok r') :
    AgreeOn modelCore r r' := by
  simp only [parseModel, bind_ok] at hr hr'
  obtain ⟨a, ha, b, hb, hr⟩ := hr
  obtain ⟨a', ha', b', hb', hr'⟩ := hr'
  have hc : closedB modelCore (optsModel C) = true := by rfl
  have hab := parseSection_agree hc h ha ha'
  have h1 := defaultTo_outside (U := modelCore) (by decide) hb
  have h2 := defaultTo_outside (U := modelCore) (by decide) hr
  have h1' := defaultTo_outside (U := modelCore) (by decide) hb'
  have h2' := defaultTo_outside (U := modelCore) (by decide) hr'
  exact fun k hk => (h2 k hk).symm.trans ((h1 k hk).symm.trans ((hab k hk).trans ((h1' k hk).trans (h2' k hk))))

/-- What is parsed is the same but for the sizes of the cells. -/
theorem same_but_width {C : Convs} {p p' : Ini} {P P' : Parsed} (h : parseInifile C p = .ok P) (h' : parseInifile C p' = .ok P')
    (hs : SameButWidth p p') : AgreeOn modelCore P.model P'.model ∧ SameParsed { P with model := P'.model } P' := by
  obtain ⟨m0, hydro, outs, outputs, -, -, -, -, q2, -⟩ := parseInifile_ok h
  obtain ⟨m0', hydro', outs', outputs', -, -, -, -, q2', -⟩ := parseInifile_ok h'
  have hm : AgreeOn modelCore P.model P'.model := parseModel_core (fun k hk => by
    have : ∀ k ∈ modelCore, k ∈ modelUsed ∧ k ≠ "dx" ∧ k ≠ "dy" ∧ k ≠ "dz" := by decide
    replace hk := this k hk
    exact hs.options _ _ (.model hk.1) fun hc => hc.2.elim hk.2.1 hk.2.2.1) q2 q2'
  exact ⟨hm, parsed_rest (m' := P'.model) h h' hs.sections (fun s k hu hne => hs.options s k hu fun hc => hne hc.1) (fun _ _ => rfl)⟩

/-! ### Grids -/

theorem grid_width {d d' : Dict} (h : AgreeOn modelCore d d') (hz : d' "dz" = d "dz") {g g' : Grid} (hg : readGrid d = .ok g) (hg' : readGrid d' = .ok g') :
    g' = { g with dx := g'.dx, dy := g'.dy } := by
  have q : ∀ k ∈ modelCore, d'.get k = d.get k := fun k hk => (h.get hk).symm
  have qz : d'.get "dz" = d.get "dz" := by
    unfold Dict.get
    rw [hz]
  simp only [readGrid, q "x0" (by decide), q "y0" (by decide), q "z0" (by decide), q "lx" (by decide), q "ly" (by decide), q "lz" (by decide),
    q "periodic" (by decide), qz, bind_ok, pure_ok] at hg hg'
  obtain ⟨_, a1, _, b1, _, a2, _, b2, _, a3, _, b3, _, -, _, -, _, -, _, -, _, a6, _, b6, _, a7, _, b7, _, a8, _, b8, _, a9, _, b9, _, a10, _, b10, rfl⟩ := hg
  obtain ⟨_, a1', _, b1', _, a2', _, b2', _, a3', _, b3', _, -, _, -, _, -, _, -, _, a6', _, b6', _, a7', _, b7', _, a8', _, b8', _, a9', _, b9', _, a10', _, b10', rfl⟩ := hg'
  cases Except.ok.inj (a1.symm.trans a1')
  cases Except.ok.inj (a2.symm.trans a2')
  cases Except.ok.inj (a3.symm.trans a3')
  cases Except.ok.inj (a6.symm.trans a6')
  cases Except.ok.inj (a7.symm.trans a7')
  cases Except.ok.inj (a8.symm.trans a8')
  cases Except.ok.inj (a9.symm.trans a9')
  cases Except.ok.inj (a10.symm.trans a10')
  cases Except.ok.inj (b1.symm.trans b1')
  cases Except.ok.inj (b2.symm.trans b2')
  cases Except.ok.inj (b3.symm.trans b3')
  cases Except.ok.inj (b6.symm.trans b6')
  cases Except.ok.inj (b7.symm.trans b7')
  cases Except.ok.inj (b8.symm.trans b8')
  cases Except.ok.inj (b9.symm.trans b9')
  cases Except.ok.inj (b10.symm.trans b10')
  rfl

/-- What was read is no channel. -/
def ShapeRead.Still : ShapeRead → Prop
  | .channel _ => False
  | _ => True

theorem still_shapes {P : Parsed} (hm : NoChannels P) {shapes : List (String × ShapeRead)} (hs : readShapes P = .ok shapes) :
    ∀ x ∈ shapes, x.2.Still := by
  intro x hx
  obtain ⟨⟨n, e⟩, he, h1⟩ := mapPy_from hs hx
  simp only [bind_ok, pure_ok] at h1
  obtain ⟨s, h1, rfl⟩ := h1
  have key : ∀ {a b : String}, written e.dict "geometry" a → written e.dict "geometry" b → a = b := by
    intro a b ha hb
    have := ha.symm.trans hb
    simp only [Option.some.injEq, Tree.leaf.injEq, Atom.text.injEq] at this
    exact String.toList_injective this
  rcases readShape_geometry h1 with ⟨q, rfl, hread, hg⟩ | ⟨q, rfl, hread, hg⟩ | ⟨q, rfl, hread, hg⟩
  · trivial
  · rcases hm n e he with hg' | hg'
    · exact absurd (key hg hg') (by decide)
    · exact absurd (key hg hg') (by decide)
  · trivial

variable {i j i' j' : ℕ} {g : Grid} {dx dy : ℝ}

theorem Trough.test_width (t : Trough) (x y z : ℝ) : t.test { g with dx := dx, dy := dy } x y z = t.test g x y z := by
  have : t.dist { g with dx := dx, dy := dy } x y = t.dist g x y := by
    unfold Trough.dist
    rfl
  unfold Trough.test
  rw [this]

theorem toObj_width (hx : coord ({ g with dx := dx, dy := dy } : Grid).x i' = coord g.x i) (hy : coord ({ g with dx := dx, dy := dy } : Grid).y j' = coord g.y j)
    (st : ℤ → ℤ × Option ℝ × Option ℝ) (t : Trough) : AtObj i j i' j' (t.toObj g st) (t.toObj { g with dx := dx, dy := dy } st) := by
  unfold Trough.toObj
  refine ⟨rfl, rfl, rfl, fun z => ?_⟩
  dsimp only
  rw [hx, hy, Trough.test_width]

theorem numbered_at (hx : coord ({ g with dx := dx, dy := dy } : Grid).x i' = coord g.x i) (hy : coord ({ g with dx := dx, dy := dy } : Grid).y j' = coord g.y j)
    (r : ObjRandoms) (l : List Trough) (n : ℕ) :
    List.Forall₂ (AtObj i j i' j') (numbered (fun n => Trough.toObj g (r.stray n)) n l)
      (numbered (fun n => Trough.toObj { g with dx := dx, dy := dy } (r.stray n)) n l) := by
  induction l generalizing n with
  | nil => exact .nil
  | cons t l ih =>
    simp only [numbered]
    exact .cons (toObj_width hx hy _ t) (ih (n + 1))

theorem placeTroughs_level {nx ny nx' ny' : ℕ} {p : TroughRead} {r : ObjRandoms} {b b' u u' : Surface ℝ} (hb : SameLevel nx ny nx' ny' b b')
    (hu : SameLevel nx ny nx' ny' u u') : placeTroughs p { g with dx := dx, dy := dy } r b' u' = placeTroughs p g r b u := by
  unfold placeTroughs
  rw [hb.zmax, hu.zmean]
  rfl

/-- A channel of a grid with other cells: it notes columns at another distance. -/
noncomputable def Channel.onGrid (dx dy : ℝ) (c : Channel) : Channel := { c with minDxDy := min dx dy }

theorem Channel.new_width (p : ChannelParams) (d : ChannelDraw) (pts : List CPoint) (z w dep : ℝ) :
    Channel.new p d { g with dx := dx, dy := dy } pts z w dep = (Channel.new p d g pts z w dep).map (Channel.onGrid dx dy) := by
  unfold Channel.new
  split_ifs
  · rfl
  · dsimp only
    exact bind_map fun _ _ => rfl
  · dsimp only
    exact bind_map fun _ _ => rfl

theorem channelsOnLevel_width (p : ChannelParams) (draws : ℕ → ChannelDraw) (curve : ℕ → ℝ → Except PyErr (List CPoint)) (z : ℝ) (m n : ℕ) :
    channelsOnLevel p { g with dx := dx, dy := dy } draws curve z m n =
      (channelsOnLevel p g draws curve z m n).map (List.map (Channel.onGrid dx dy)) := by
  induction m generalizing n with
  | zero => rfl
  | succ m ih =>
    simp only [channelsOnLevel]
    rw [ih, show channelFactor p { g with dx := dx, dy := dy } z = channelFactor p g z from rfl]
    refine bind_map fun pts _ => ?_
    rw [Channel.new_width]
    cases Channel.new p (draws n) g pts z (p.width * channelFactor p g z) (p.depth * channelFactor p g z) with
    | error e => rfl
    | ok c =>
      cases channelsOnLevel p g draws curve z m (n + 1) with
      | error e => rfl
      | ok l => rfl

theorem channelLevels_width (p : ChannelParams) (draws : ℕ → ChannelDraw) (curve : ℕ → ℝ → Except PyErr (List CPoint)) (zb : ℝ) (fuel : ℕ) (z : ℝ) (n : ℕ) :
    channelLevels p { g with dx := dx, dy := dy } draws curve zb fuel z n =
      (channelLevels p g draws curve zb fuel z n).map fun e => e.map (List.map (Channel.onGrid dx dy)) := by
  induction fuel generalizing z n with
  | zero =>
    unfold channelLevels
    split_ifs <;> rfl
  | succ fuel ih =>
    unfold channelLevels
    rw [channelsOnLevel_width, ih]
    split_ifs
    · cases channelsOnLevel p g draws curve z p.channelNo n with
      | error e => rfl
      | ok cs =>
        cases channelLevels p g draws curve zb fuel (z - p.agg) (n + p.channelNo) with
        | none => rfl
        | some e =>
          cases e with
          | error e => rfl
          | ok l =>
            show some (Except.ok (cs.map _ ++ l.map _)) = some (Except.ok ((cs ++ l).map _))
            rw [List.map_append]
    · rfl

theorem placeChannels_level {nx ny nx' ny' : ℕ} {p : ChannelRead} {r : ObjRandoms} {fuel : ℕ} {b b' u u' : Surface ℝ} (hb : SameLevel nx ny nx' ny' b b')
    (hu : SameLevel nx ny nx' ny' u u') : placeChannels p { g with dx := dx, dy := dy } r fuel b' u' =
      (placeChannels p g r fuel b u).map fun e => e.map (List.map (Channel.onGrid dx dy)) := by
  unfold placeChannels
  split_ifs
  · rfl
  · unfold generateChannels
    cases channelBufferFactor p.params with
    | error e => rfl
    | ok f =>
      dsimp only
      rw [hb.zmean, hu.zmean, channelLevels_width]
      rfl

theorem Channel.toObj_width (hx : coord ({ g with dx := dx, dy := dy } : Grid).x i' = coord g.x i)
    (hy : coord ({ g with dx := dx, dy := dy } : Grid).y j' = coord g.y j) {skip : ℕ → ℕ → ℝ → Bool} (hs : skip = fun _ _ _ => false)
    (st : ℤ → ℤ × Option ℝ × Option ℝ) (c : Channel) :
    AtObj i j i' j' (c.toObj g skip st) ((c.onGrid dx dy).toObj { g with dx := dx, dy := dy } skip st) := by
  subst hs
  unfold Channel.toObj
  refine ⟨rfl, rfl, rfl, fun z => ?_⟩
  simp only [hx, hy]
  have : ∀ (g g' : Grid) (x y : ℝ) (i j i' j' : ℕ),
      ((c.onGrid dx dy).test g' Cache.empty x y z i' j').1 = (c.test g Cache.empty x y z i j).1 := by
    intro g g' x y i j i' j'
    have e1 : (c.onGrid dx dy).ztop = c.ztop := rfl
    have e2 : (c.onGrid dx dy).a = c.a := rfl
    have e3 : (c.onGrid dx dy).xyDist x y = c.xyDist x y := rfl
    have e4 : (c.onGrid dx dy).depth = c.depth := rfl
    have e5 : (c.onGrid dx dy).inner x y z = c.inner x y z := rfl
    unfold Channel.test
    simp only [Cache.empty, e1, e2, e3, e4, e5]
    split_ifs <;> rfl
  rw [this g]

theorem numbered_channel_at (hx : coord ({ g with dx := dx, dy := dy } : Grid).x i' = coord g.x i)
    (hy : coord ({ g with dx := dx, dy := dy } : Grid).y j' = coord g.y j) {r : ObjRandoms} (hs : r.skip = fun _ _ _ _ => false) (l : List Channel) (n : ℕ) :
    List.Forall₂ (AtObj i j i' j') (numbered (fun n => Channel.toObj g (r.skip n) (r.stray n)) n l)
      (numbered (fun n => Channel.toObj { g with dx := dx, dy := dy } (r.skip n) (r.stray n)) n (l.map (Channel.onGrid dx dy))) := by
  induction l generalizing n with
  | nil => exact .nil
  | cons c l ih =>
    simp only [numbered, List.map_cons]
    exact .cons (Channel.toObj_width hx hy (by rw [hs]) _ c) (ih (n + 1))

theorem objectsOf_width {shapes : List (String × ShapeRead)} {r : ObjRandoms} (hs : (∀ x ∈ shapes, x.2.Still) ∨ r.skip = fun _ _ _ _ => false)
    (hx : coord ({ g with dx := dx, dy := dy } : Grid).x i' = coord g.x i) (hy : coord ({ g with dx := dx, dy := dy } : Grid).y j' = coord g.y j)
    (fuel : ℕ) (t : ElemParams ℝ) {nx ny nx' ny' : ℕ} {b b' u u' : Surface ℝ} (hb : SameLevel nx ny nx' ny' b b')
    (hu : SameLevel nx ny nx' ny' u u') :
    AtPlaced i j i' j' (objectsOf g shapes r fuel t b u) (objectsOf { g with dx := dx, dy := dy } shapes r fuel t b' u') := by
  unfold objectsOf
  cases hl : shapes.lookup t.name with
  | none => exact rfl
  | some s =>
    cases s with
    | sheet p => exact rfl
    | channel p =>
      rcases hs with hm | hm
      · exact (hm _ (mem_of_lookup hl)).elim
      dsimp only
      rw [placeChannels_level hb hu]
      cases placeChannels p g r fuel b u with
      | none => trivial
      | some e =>
        cases e with
        | error e => exact rfl
        | ok cs => exact numbered_channel_at hx hy hm cs 0
    | trough p =>
      dsimp only
      rw [placeTroughs_level hb hu]
      cases placeTroughs p g r b u with
      | error e => exact rfl
      | ok ts => exact numbered_at hx hy r ts 0

theorem sheetOf_width {shapes : List (String × ShapeRead)} (hx : coord ({ g with dx := dx, dy := dy } : Grid).x i' = coord g.x i)
    (hy : coord ({ g with dx := dx, dy := dy } : Grid).y j' = coord g.y j) (r : ObjRandoms) (t : ElemParams ℝ) (n : ℕ) (zmean : ℝ) :
    RelX (fun p p' : Payload ℝ => ∀ w, p' i' j' w = p i j w) (sheetOf g shapes r t n zmean) (sheetOf { g with dx := dx, dy := dy } shapes r t n zmean) := by
  unfold sheetOf
  cases hl : shapes.lookup t.name with
  | none => exact rfl
  | some s =>
    cases s with
    | trough p => exact rfl
    | channel p => exact rfl
    | sheet p =>
      dsimp only
      have e : SheetObj.new p.params (r.sheet p n) { g with dx := dx, dy := dy } zmean = SheetObj.new p.params (r.sheet p n) g zmean := rfl
      rw [e]
      cases SheetObj.new p.params (r.sheet p n) g zmean with
      | error e => exact rfl
      | ok s =>
        intro w
        dsimp only
        rw [hx, hy]

/-! ### Generation -/

theorem readContact_mode {c : ContactModel Atom} {c' : ContactModel ℚ} (h : readContact c = .ok c') : c'.mode = c.mode := by
  simp only [readContact, bind_ok, pure_ok] at h
  obtain ⟨_, -, _, -, _, -, _, -, rfl⟩ := h
  rfl

theorem genInput_width {P : Parsed} {m' : Dict} (h : AgreeOn modelCore P.model m') {ids : List (String × ℕ)} {g g' : Grid} (hg : readGrid P.model = .ok g)
    (hg' : readGrid m' = .ok g') :
    RelX (fun I I' : GenInput => genInput P ids = .ok I ∧ I.nx = g.nx ∧ I.ny = g.ny ∧ I' = { I with nx := g'.nx, ny := g'.ny }) (genInput P ids)
      (genInput { P with model := m' } ids) := by
  have axis : ∀ {d : Dict} {g : Grid}, readGrid d = .ok g → ∃ a b c e, d.get "dx" = .ok a ∧ d.get "lx" = .ok b ∧ axisCells a b = .ok g.nx ∧
      d.get "dy" = .ok c ∧ d.get "ly" = .ok e ∧ axisCells c e = .ok g.ny := by
    intro d g hg
    have gf := readGrid_from hg
    obtain ⟨x0, dx', lx', -, e1, e2, e3, e4, e5⟩ := gf.x
    obtain ⟨y0, dy', ly', -, f1, f2, f3, f4, f5⟩ := gf.y
    refine ⟨_, _, _, _, dget_ok.2 e1, dget_ok.2 e2, ?_, dget_ok.2 f1, dget_ok.2 f2, ?_⟩
    · rw [Grid.nx, Grid.x, e3, e4, e5, axis_cells]
      rfl
    · rw [Grid.ny, Grid.y, f3, f4, f5, axis_cells]
      rfl
  obtain ⟨a, b, c, e, a1, a2, a3, a4, a5, a6⟩ := axis hg
  obtain ⟨a', b', c', e', a1', a2', a3', a4', a5', a6'⟩ := axis hg'
  have q : ∀ k ∈ modelCore, m'.get k = P.model.get k := fun k hk => (h.get hk).symm
  have hr : readStratum { P with model := m' } ids = readStratum P ids := rfl
  have key : genInput { P with model := m' } ids = (genInput P ids).map fun I => { I with nx := g'.nx, ny := g'.ny } := by
    have ob : ∀ {β γ : Type} (b : β) (f : β → Except PyErr γ), (Except.ok b >>= f) = f b := fun _ _ => rfl
    unfold genInput
    simp only [a1, a2, a3, a4, a5, a6, a1', a2', a3', a4', a5', a6', ob, hr, q "z0" (by decide), q "lz" (by decide)]
    refine bind_map fun _ _ => bind_map fun _ _ => bind_map fun _ _ => bind_map fun _ _ => bind_map fun _ _ => bind_map fun _ _ => bind_map fun _ _ =>
      bind_map fun _ _ => bind_map fun _ _ => ?_
    rfl
  refine (RelX.ofMap key).mono ?_
  rintro I I' ⟨hI, rfl⟩
  refine ⟨hI, ?_⟩
  simp only [genInput, a1, a2, a4, a5, bind_ok, pure_ok] at hI
  obtain ⟨_, h1, _, h2, _, h3, _, h4, _, h5, _, h6, _, -, _, -, _, -, _, -, _, -, _, -, _, -, _, -, _, -, rfl⟩ := hI
  cases h1
  cases h2
  cases h4
  cases h5
  refine ⟨?_, ?_, rfl⟩
  · rw [a3] at h3
    exact (Except.ok.inj h3).symm
  · rw [a6] at h6
    exact (Except.ok.inj h6).symm

theorem input_flat {P : Parsed} (hf : AllFlat P) {ids : List (String × ℕ)} {I : GenInput} (hI : genInput P ids = .ok I) :
    (∀ cm ∈ (I.strata.cast : StrataDict ℝ).contacts, cm.mode ≠ "random") ∧ NoRandom fun n => (I.contacts n).cast := by
  simp only [genInput, bind_ok, pure_ok] at hI
  obtain ⟨_, -, _, -, _, -, _, -, _, -, _, -, _, -, _, -, _, -, _, -, _, -, _, -, cs, hcs, es, hes, _, -, rfl⟩ := hI
  constructor
  · intro cm hcm
    simp only [StrataDict.cast, List.mem_map] at hcm
    obtain ⟨c, hc, rfl⟩ := hcm
    obtain ⟨a, ha, h⟩ := mapPy_from hcs hc
    show c.mode ≠ "random"
    rw [readContact_mode h, hf.strata a ha]
    decide
  · intro n
    show (contactsOf es n).mode ≠ "random"
    unfold contactsOf
    cases hl : es.lookup n with
    | none =>
      dsimp only
      decide
    | some c =>
      obtain ⟨⟨m, e⟩, he, h⟩ := mapPy_from hes (mem_of_lookup hl)
      simp only [bind_ok, pure_ok, Prod.mk.injEq] at h
      obtain ⟨c', h, rfl, rfl⟩ := h
      dsimp only
      rw [readContact_mode h, hf.elements m e he]
      decide

theorem generateObjects_width {P : Parsed} {m' : Dict} (h : AgreeOn modelCore P.model m') (hz : m' "dz" = P.model "dz") (hf : AllFlat P)
    {ids : List (String × ℕ)} {g g' : Grid} (hg : readGrid P.model = .ok g) (hg' : readGrid m' = .ok g') (hi : i < g.nx) (hj : j < g.ny) (hi' : i' < g'.nx)
    (hj' : j' < g'.ny) (hx : coord g'.x i' = coord g.x i) (hy : coord g'.y j' = coord g.y j) (r : Randoms ℝ) {o : ℕ → ℕ → ObjRandoms}
    (hn : NoChannels P ∨ ∀ si n, (o si n).skip = fun _ _ _ _ => false) {d d' : ℕ → StratumDraw ℝ} (hd : SameButFields d d') :
    RelX (fun x y : GenModel ℝ × Contacts ℝ => AtModel g.nx g.ny g'.nx g'.ny i j i' j' x.1 y.1 ∧ y.2 = x.2) (generateObjects P ids r o d)
      (generateObjects { P with model := m' } ids r o d') := by
  have hgg := grid_width h hz hg hg'
  have hsh : readShapes { P with model := m' } = readShapes P := rfl
  unfold generateObjects
  dsimp only
  rw [hg, hg', hsh]
  refine RelX.same (x := liftErr (readShapes P)) fun shapes hs => ?_
  have hst := hn.imp (fun hn => still_shapes hn (liftErr_ok.1 hs)) id
  unfold generateIni
  refine (RelX.lift (genInput_width h hg hg')).bind ?_
  rintro I I' ⟨hI, e1, e2, rfl⟩
  obtain ⟨c1, c2⟩ := input_flat hf hI
  dsimp only
  rw [e1, e2]
  refine generateModel_at (fun si => ?_) hi hj hi' hj' _ _ c1 c2
  have ho : ∀ n, (∀ fuel t b b' u u', SameLevel g.nx g.ny g'.nx g'.ny b b' → SameLevel g.nx g.ny g'.nx g'.ny u u' →
      AtPlaced i j i' j' (objectsOf g shapes (o si n) fuel t b u) (objectsOf g' shapes (o si n) fuel t b' u')) ∧
      ∀ t k z, RelX (fun p p' : Payload ℝ => ∀ w, p' i' j' w = p i j w) (sheetOf g shapes (o si n) t k z) (sheetOf g' shapes (o si n) t k z) := by
    intro n
    rw [hgg] at hx hy
    constructor
    · intro fuel t b b' u u' hb hu
      have := objectsOf_width (hst.imp id fun h => h si n) hx hy fuel t hb hu
      rw [← hgg] at this
      exact this
    · intro t k z
      have := sheetOf_width (shapes := shapes) hx hy (o si n) t k z
      rw [← hgg] at this
      exact this
  obtain ⟨f, fs, hds⟩ := hd si
  unfold GenInput.draws
  dsimp only
  unfold withObjects
  rw [hds]
  cases I.reads[si]? with
  | none => exact ⟨rfl, rfl, fun n => ⟨rfl, rfl, rfl, rfl, rfl, (ho n).1, (ho n).2⟩⟩
  | some s => exact ⟨rfl, rfl, fun n => ⟨rfl, rfl, rfl, rfl, rfl, (ho n).1, (ho n).2⟩⟩

end Hyvr
