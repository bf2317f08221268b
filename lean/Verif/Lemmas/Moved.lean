import Verif.Spec.Moved
import Verif.Lemmas.Near
import Verif.Lemmas.Idle
import Verif.Lemmas.Inside
import Verif.Lemmas.Arange
import Verif.Lemmas.SkipGen
import Verif.Props.Placing

/-!
A realisation of massive sheets and troughs does not depend on the horizontal origin (C122).
-/

namespace Hyvr

open Py Real Spec

/-! ### Grids -/

/-- The grid with its origin moved by `(a, b)`. -/
noncomputable def Grid.moved (g : Grid) (a b : ℝ) : Grid := { g with x0 := g.x0 + a, y0 := g.y0 + b }

theorem arange_shift (s e d a : ℝ) : arange (s + a) (e + a) d = (arange s e d).map (· + a) := by
  refine List.ext_getElem? fun i => ?_
  rw [arange_getElem?, List.getElem?_map, arange_getElem?]
  have : e + a - (s + a) = e - s := by ring
  rw [this]
  split_ifs
  · simp only [Option.map_some, Option.some.injEq]
    ring
  · rfl

theorem moved_x (g : Grid) (a b : ℝ) : (g.moved a b).x = g.x.map (· + a) := by
  have := arange_shift (g.x0 + g.dx / 2) (g.x0 + g.lx) g.dx a
  rw [add_right_comm, add_right_comm g.x0 g.lx] at this
  exact this

theorem moved_y (g : Grid) (a b : ℝ) : (g.moved a b).y = g.y.map (· + b) := by
  have := arange_shift (g.y0 + g.dy / 2) (g.y0 + g.ly) g.dy b
  rw [add_right_comm, add_right_comm g.y0 g.ly] at this
  exact this

theorem coord_map {l : List ℝ} {a : ℝ} {i : ℕ} (h : i < l.length) : coord (l.map (· + a)) i = coord l i + a := by
  unfold coord
  rw [List.getD_eq_getElem?_getD, List.getD_eq_getElem?_getD, List.getElem?_map, List.getElem?_eq_getElem h]
  rfl

/-! ### Troughs -/

/-- The trough with its centre moved. -/
noncomputable def Trough.moved (t : Trough) (a b : ℝ) : Trough := { t with x := t.x + a, y := t.y + b }

/-- A centre moved. -/
noncomputable def movedPoint (a b : ℝ) (q : ℝ × ℝ × ℝ) : ℝ × ℝ × ℝ := (q.1 + a, q.2.1 + b, q.2.2)

theorem Trough.test_moved (t : Trough) (g : Grid) (a b x y z : ℝ) : (t.moved a b).test (g.moved a b) (x + a) (y + b) z = t.test g x y z := by
  have h1 : x + a - (t.x + a) = x - t.x := by ring
  have h2 : y + b - (t.y + b) = y - t.y := by ring
  have hd : (t.moved a b).dist (g.moved a b) (x + a) (y + b) = t.dist g x y := by
    unfold Trough.dist Trough.moved Grid.moved
    dsimp only
    rw [h1, h2]
  unfold Trough.test
  rw [hd]
  rfl

theorem Trough.new_moved (p : TroughParams) (d : TroughDraw) (x y z a b c al u v : ℝ) :
    Trough.new p d (x + u) (y + v) z a b c al = (Trough.new p d x y z a b c al).map fun t => t.moved u v := by
  unfold Trough.new
  refine bind_map fun k _ => ?_
  split_ifs
  · exact bind_map fun _ _ => rfl
  · exact bind_map fun _ _ => rfl
  · exact bind_map fun _ _ => rfl
  · exact bind_map fun _ _ => rfl
  · rfl

theorem makeTroughs_moved (p : TroughParams) (z0 lz : ℝ) (draws : ℕ → TroughDraw) (a b : ℝ) (n : ℕ) (l : List (ℝ × ℝ × ℝ)) :
    makeTroughs p z0 lz draws n (l.map (movedPoint a b)) = (makeTroughs p z0 lz draws n l).map fun ts => ts.map fun t => t.moved a b := by
  induction l generalizing n with
  | nil => rfl
  | cons q l ih =>
    simp only [List.map_cons, makeTroughs]
    exact map_bind_map (Trough.new_moved _ _ _ _ _ _ _ _ _ a b) fun t _ => map_bind_map (ih (n + 1)) fun ts _ => rfl

/-- Draws of positions moved. -/
structure MovedDraws (a b : ℝ) (d d' : PlaceDraw) : Prop where
  count : d'.count = d.count
  move : d'.move = d.move
  pos : ∀ i k, d'.pos i k = ((d.pos i k).1 + a, (d.pos i k).2 + b)

theorem placeNew_moved {a b : ℝ} {d d' : PlaceDraw} (h : MovedDraws a b d d') (i n : ℕ) (z : ℝ) (te : List (ℝ × ℝ × ℝ)) :
    placeNew d' i n z (te.map (movedPoint a b)) = (placeNew d i n z te).map (movedPoint a b) := by
  unfold placeNew
  refine List.foldl_hom (List.map (movedPoint a b)) fun te k => ?_
  rw [h.pos]
  simp [movedPoint]

theorem foldlM_map {β γ δ : Type} {f : β → δ → Except PyErr β} {f' : γ → δ → Except PyErr γ} {F : β → γ} (h : ∀ b x, f' (F b) x = (f b x).map F) (l : List δ) (b : β) :
    l.foldlM f' (F b) = (l.foldlM f b).map F := by
  induction l generalizing b with
  | nil => rfl
  | cons x l ih =>
    simp only [List.foldlM_cons]
    exact map_bind_map (h b x) fun b' _ => ih b'

theorem placeMoved_moved {a b : ℝ} {d d' : PlaceDraw} (h : MovedDraws a b d d') (i n : ℕ) (z : ℝ) (te : List (ℝ × ℝ × ℝ)) :
    placeMoved d' i n z (te.map (movedPoint a b)) = (placeMoved d i n z te).map (List.map (movedPoint a b)) := by
  unfold placeMoved
  refine foldlM_map (F := List.map (movedPoint a b)) (fun te k => ?_) _ te
  rw [h.move, List.getElem?_map]
  cases te[k + (i - 1) * n]? with
  | none => rfl
  | some q =>
    simp only [Option.map_some, Except.map, List.map_append, List.map_cons, List.map_nil, movedPoint, add_right_comm]

theorem troughPositions_moved {a b : ℝ} {d d' : PlaceDraw} (h : MovedDraws a b d d') (p : TroughParams) (zb zt : ℝ) :
    troughPositions p d' zb zt = (troughPositions p d zb zt).map (List.map (movedPoint a b)) := by
  unfold troughPositions
  refine map_bind_map (F := fun st : List (ℝ × ℝ × ℝ) × ℕ => (st.1.map (movedPoint a b), st.2)) ?_ fun st _ => rfl
  refine foldlM_map (F := fun st : List (ℝ × ℝ × ℝ) × ℕ => (st.1.map (movedPoint a b), st.2)) (fun st iz => ?_) _ ([], 0)
  unfold placeLevel
  dsimp only
  rw [h.count]
  split_ifs
  · rw [placeNew_moved h]
    rfl
  · exact map_bind_map (placeMoved_moved h _ _ _ _) fun te _ => rfl

theorem place_moved (r : ObjRandoms) (p : TroughRead) (g : Grid) (a b : ℝ) : MovedDraws a b (r.place p g) (r.place p (g.moved a b)) := by
  refine ⟨rfl, rfl, fun i k => ?_⟩
  simp only [ObjRandoms.place, uniform, Grid.moved, Grid.xmax, Grid.ymax, Prod.mk.injEq]
  constructor <;> ring

theorem placeTroughs_moved {p : TroughRead} (hp : p.teXyz = none) (g : Grid) (r : ObjRandoms) (bottom top : Surface ℝ) (a b : ℝ) :
    placeTroughs p (g.moved a b) r bottom top = (placeTroughs p g r bottom top).map fun ts => ts.map fun t => t.moved a b := by
  unfold placeTroughs
  have hg : ∀ n, troughGuard p (g.moved a b) r n = troughGuard p g r n := fun n => rfl
  rw [hg]
  refine bind_map fun _ _ => ?_
  have ht : p.params.teXyz = none := by
    unfold TroughRead.params
    rw [hp]
    rfl
  unfold generateTroughs
  rw [ht]
  exact map_bind_map (troughPositions_moved (place_moved r p g a b) _ _ _) fun te _ => makeTroughs_moved _ _ _ _ a b 0 te

theorem Trough.near_moved (t : Trough) (g : Grid) (a b : ℝ) (stray : ℤ → ℤ × Option ℝ × Option ℝ) :
    NearObj g.nx g.ny (t.toObj g stray) ((t.moved a b).toObj (g.moved a b) stray) := by
  refine ⟨rfl, rfl, rfl, fun i j z hi hj => ?_⟩
  unfold Trough.toObj
  dsimp only
  rw [moved_x, moved_y, coord_map hi, coord_map hj, Trough.test_moved]

theorem numbered_near (g : Grid) (r : ObjRandoms) (a b : ℝ) (l : List Trough) (n : ℕ) :
    List.Forall₂ (NearObj g.nx g.ny) (numbered (fun n => Trough.toObj g (r.stray n)) n l)
      (numbered (fun n => Trough.toObj (g.moved a b) (r.stray n)) n (l.map fun t => t.moved a b)) := by
  induction l generalizing n with
  | nil => exact .nil
  | cons t l ih => exact .cons (t.near_moved g a b _) (ih (n + 1))

/-! ### Objects -/

/-- What was read of an element that may be moved. -/
def ShapeRead.Movable : ShapeRead → Prop
  | .sheet p => p.inside.struct ≠ "dip"
  | .trough p => p.teXyz = none
  | .channel _ => False

theorem objectsOf_moved {shapes : List (String × ShapeRead)} (hs : ∀ x ∈ shapes, x.2.Movable) (g : Grid) (a b : ℝ) (r : ObjRandoms) (fuel : ℕ)
    (t : ElemParams ℝ) (bottom top : Surface ℝ) :
    NearPlaced g.nx g.ny (objectsOf g shapes r fuel t bottom top) (objectsOf (g.moved a b) shapes r fuel t bottom top) := by
  unfold objectsOf
  cases hl : shapes.lookup t.name with
  | none => exact rfl
  | some s =>
    have hm := hs _ (mem_of_lookup hl)
    cases s with
    | sheet p => exact rfl
    | channel p => exact hm.elim
    | trough p =>
      dsimp only
      rw [placeTroughs_moved hm]
      cases placeTroughs p g r bottom top with
      | error e => exact rfl
      | ok ts => exact numbered_near g r a b ts 0

theorem sheetOf_moved {shapes : List (String × ShapeRead)} (hs : ∀ x ∈ shapes, x.2.Movable) (g : Grid) (a b : ℝ) (r : ObjRandoms)
    (t : ElemParams ℝ) (n : ℕ) (zmean : ℝ) :
    RelX (fun p p' : Payload ℝ => ∀ i j w, i < g.nx → j < g.ny → p' i j w = p i j w) (sheetOf g shapes r t n zmean) (sheetOf (g.moved a b) shapes r t n zmean) := by
  unfold sheetOf
  cases hl : shapes.lookup t.name with
  | none => exact rfl
  | some s =>
    have hm := hs _ (mem_of_lookup hl)
    cases s with
    | trough p => exact rfl
    | channel p => exact rfl
    | sheet p =>
      dsimp only
      have e : ∀ g, SheetObj.new p.params (r.sheet p n) g zmean = do
          let f ← choice p.params.facies (r.sheet p n).facies
          return { dipsets := false, layerDist := 0, azim := (r.sheet p n).azim, dip := (r.sheet p n).dip, nvx := 0, nvy := 0, nvz := 0, shift := 0
                   numFacies := 0, table := [], facies := f } := by
        intro g
        unfold SheetObj.new
        exact if_neg (show ¬ p.params.struct = "dip" from hm)
      rw [e, e]
      cases choice p.params.facies (r.sheet p n).facies with
      | error e => exact rfl
      | ok f => exact fun i j w _ _ => rfl

theorem withObjects_moved {shapes : List (String × ShapeRead)} (hs : ∀ x ∈ shapes, x.2.Movable) (g : Grid) (a b : ℝ) (o : ℕ → ℕ → ObjRandoms)
    (d : ℕ → StratumDraw ℝ) (si : ℕ) : NearStratumDraw g.nx g.ny (withObjects g shapes o d si) (withObjects (g.moved a b) shapes o d si) :=
  ⟨rfl, fun n => ⟨rfl, fun fuel t bt tp => objectsOf_moved hs g a b (o si n) fuel t bt tp, fun t k z => sheetOf_moved hs g a b (o si n) t k z⟩⟩


/-! ### Realisations -/

theorem movable_shapes {P : Parsed} (hm : ∀ x ∈ P.elements, Movable x.2.dict) {shapes : List (String × ShapeRead)} (hs : readShapes P = .ok shapes) :
    ∀ x ∈ shapes, x.2.Movable := by
  intro x hx
  obtain ⟨⟨n, e⟩, he, h1⟩ := mapPy_from hs hx
  simp only [bind_ok, pure_ok] at h1
  obtain ⟨s, h1, rfl⟩ := h1
  have hme := hm _ he
  have key : ∀ {a b : String}, written e.dict "geometry" a → written e.dict "geometry" b → a = b := by
    intro a b ha hb
    have := ha.symm.trans hb
    simp only [Option.some.injEq, Tree.leaf.injEq, Atom.text.injEq] at this
    exact String.toList_injective this
  rcases readShape_geometry h1 with ⟨q, rfl, hread, hg⟩ | ⟨q, rfl, hread, hg⟩ | ⟨q, rfl, hread, hg⟩
  · rcases hme with ⟨hg', -⟩ | ⟨-, ht⟩
    · exact absurd (key hg hg') (by decide)
    · simp only [readTrough, bind_ok, pure_ok, dget_ok] at hread
      obtain ⟨_, -, _, -, _, -, _, -, _, -, _, -, _, -, _, -, _, -, _, -, _, -, _, -, tv, htv, te, hte, rfl⟩ := hread
      rw [ht] at htv
      cases htv
      exact (Except.ok.inj hte).symm
  · rcases hme with ⟨hg', -⟩ | ⟨hg', -⟩
    · exact absurd (key hg hg') (by decide)
    · exact absurd (key hg hg') (by decide)
  · rcases hme with ⟨-, hst⟩ | ⟨hg', -⟩
    · intro hd
      rcases (readInside_from hread).struct with ⟨-, hc⟩ | hc
      · rw [hd] at hc
        exact absurd hc (by decide)
      · rw [hd] at hc
        exact hst hc
    · exact absurd (key hg hg') (by decide)

/-- The section `model` with another origin. -/
def originAt (d : Dict) (x y : Val) : Dict := (d.set "x0" x).set "y0" y

theorem originAt_other (d : Dict) (x y : Val) {k : String} (h1 : k ≠ "x0") (h2 : k ≠ "y0") : originAt d x y k = d k := by
  unfold originAt
  rw [set_ne _ _ h2, set_ne _ _ h1]

theorem originAt_get (d : Dict) (x y : Val) {k : String} (h1 : k ≠ "x0") (h2 : k ≠ "y0") : (originAt d x y).get k = d.get k := by
  unfold Dict.get
  rw [originAt_other d x y h1 h2]

theorem readGrid_moved {d : Dict} {x y x' y' : ℚ} (hx : d "x0" = some (numVal x)) (hy : d "y0" = some (numVal y)) :
    readGrid (originAt d (numVal x') (numVal y')) = (readGrid d).map fun g => g.moved ((x' : ℝ) - x) ((y' : ℝ) - y) := by
  have hx' : originAt d (numVal x') (numVal y') "x0" = some (numVal x') := by
    unfold originAt
    rw [set_ne _ _ (by decide), set_same]
  have hy' : originAt d (numVal x') (numVal y') "y0" = some (numVal y') := set_same _ _ _
  unfold readGrid
  refine (of_ok (dget_ok.2 hx')).trans (Eq.trans ?_ (congrArg _ (of_ok (dget_ok.2 hx)).symm))
  refine (of_ok (b := x') rfl).trans (Eq.trans ?_ (congrArg _ (of_ok (b := x) rfl).symm))
  refine (of_ok (dget_ok.2 hy')).trans (Eq.trans ?_ (congrArg _ (of_ok (dget_ok.2 hy)).symm))
  refine (of_ok (b := y') rfl).trans (Eq.trans ?_ (congrArg _ (of_ok (b := y) rfl).symm))
  simp only [originAt_get d _ _ (show "z0" ≠ "x0" by decide) (show "z0" ≠ "y0" by decide), originAt_get d _ _ (show "dx" ≠ "x0" by decide) (show "dx" ≠ "y0" by decide),
    originAt_get d _ _ (show "dy" ≠ "x0" by decide) (show "dy" ≠ "y0" by decide), originAt_get d _ _ (show "dz" ≠ "x0" by decide) (show "dz" ≠ "y0" by decide),
    originAt_get d _ _ (show "lx" ≠ "x0" by decide) (show "lx" ≠ "y0" by decide), originAt_get d _ _ (show "ly" ≠ "x0" by decide) (show "ly" ≠ "y0" by decide),
    originAt_get d _ _ (show "lz" ≠ "x0" by decide) (show "lz" ≠ "y0" by decide),
    originAt_get d _ _ (show "periodic" ≠ "x0" by decide) (show "periodic" ≠ "y0" by decide)]
  refine bind_map fun _ _ => bind_map fun _ _ => bind_map fun _ _ => bind_map fun _ _ => bind_map fun _ _ => bind_map fun _ _ => bind_map fun _ _ =>
    bind_map fun _ _ => bind_map fun _ _ => bind_map fun _ _ => bind_map fun _ _ => bind_map fun _ _ => bind_map fun _ _ => bind_map fun _ _ =>
    bind_map fun _ _ => bind_map fun _ _ => ?_
  simp [pure, Except.pure, Except.map, Grid.moved]

theorem genInput_moved (P : Parsed) (ids : List (String × ℕ)) (x y : Val) : genInput { P with model := originAt P.model x y } ids = genInput P ids := by
  unfold genInput
  simp only [originAt_get P.model _ _ (show "z0" ≠ "x0" by decide) (show "z0" ≠ "y0" by decide),
    originAt_get P.model _ _ (show "dx" ≠ "x0" by decide) (show "dx" ≠ "y0" by decide), originAt_get P.model _ _ (show "dy" ≠ "x0" by decide) (show "dy" ≠ "y0" by decide),
    originAt_get P.model _ _ (show "lx" ≠ "x0" by decide) (show "lx" ≠ "y0" by decide), originAt_get P.model _ _ (show "ly" ≠ "x0" by decide) (show "ly" ≠ "y0" by decide),
    originAt_get P.model _ _ (show "lz" ≠ "x0" by decide) (show "lz" ≠ "y0" by decide)]
  rfl

theorem paramsOf_moved (P : Parsed) (x y : Val) (s : Shape) (m : GenModel ℝ) (field : FieldSource) (c : Cells ℝ) :
    paramsOf { P with model := originAt P.model x y } s m field c = paramsOf P s m field c := by
  unfold paramsOf hydraulicsOf
  simp only [originAt_get P.model _ _ (show "hydraulics" ≠ "x0" by decide) (show "hydraulics" ≠ "y0" by decide),
    originAt_get P.model _ _ (show "heterogeneity" ≠ "x0" by decide) (show "heterogeneity" ≠ "y0" by decide),
    originAt_get P.model _ _ (show "heterogeneity_level" ≠ "x0" by decide) (show "heterogeneity_level" ≠ "y0" by decide)]
  rfl

theorem RelX.ofMap {ε β γ : Type} {x : Except ε β} {y : Except ε γ} {F : β → γ} (h : y = x.map F) : RelX (fun a b => x = .ok a ∧ b = F a) x y := by
  subst h
  cases x with
  | error e => exact rfl
  | ok a => exact ⟨rfl, rfl⟩

theorem liftErr_map {β γ : Type} {x : Except PyErr β} {F : β → γ} : liftErr (x.map F) = (liftErr x).map F := by
  cases x <;> rfl

theorem simulate_moved {P : Parsed} (hm : ∀ x ∈ P.elements, Movable x.2.dict) {x y x' y' : ℚ} (hx : P.model "x0" = some (numVal x))
    (hy : P.model "y0" = some (numVal y)) (ids : List (String × ℕ)) (r : Randoms ℝ) (o : ℕ → ℕ → ObjRandoms) (d : ℕ → StratumDraw ℝ) (field : FieldSource) :
    RelX SameArrays (simulate P ids r o d field) (simulate { P with model := originAt P.model (numVal x') (numVal y') } ids r o d field) := by
  have hg := readGrid_moved (x' := x') (y' := y') hx hy
  cases hgr : readGrid P.model with
  | error e =>
    have h2 : readGrid (originAt P.model (numVal x') (numVal y')) = .error e := by rw [hg, hgr]; rfl
    have e1 : simulate P ids r o d field = .error (.err e) := by
      simp only [simulate, generateObjects, hgr]
      rfl
    have e2 : simulate { P with model := originAt P.model (numVal x') (numVal y') } ids r o d field = .error (.err e) := by
      simp only [simulate, generateObjects, h2]
      rfl
    rw [e1, e2]
    exact rfl
  | ok g =>
    have h2 : readGrid (originAt P.model (numVal x') (numVal y')) = .ok (g.moved ((x' : ℝ) - x) ((y' : ℝ) - y)) := by rw [hg, hgr]; rfl
    have key : RelX (fun a b : GenModel ℝ × Contacts ℝ => NearModel g.nx g.ny a.1 b.1 ∧ b.2 = a.2) (generateObjects P ids r o d)
        (generateObjects { P with model := originAt P.model (numVal x') (numVal y') } ids r o d) := by
      unfold generateObjects
      dsimp only
      rw [hgr, h2]
      show RelX _ (liftErr (readShapes P) >>= _) (liftErr (readShapes P) >>= _)
      refine RelX.same fun shapes hsh => ?_
      have hsh' : readShapes P = .ok shapes := by
        cases hq : readShapes P with
        | error e => rw [hq] at hsh; cases hsh
        | ok s => rw [hq] at hsh; cases hsh; rfl
      have hI : ∀ D, generateIni { P with model := originAt P.model (numVal x') (numVal y') } ids r D = generateIni P ids r D := by
        intro D
        unfold generateIni
        rw [genInput_moved]
      rw [hI]
      exact generateIni_near fun si => withObjects_moved (movable_shapes hm hsh') g _ _ o d si
    unfold simulate
    refine RelX.bind key ?_
    rintro ⟨m, c⟩ ⟨m', c'⟩ ⟨hn, -⟩
    dsimp only
    rw [hgr, h2]
    have hnx : (g.moved ((x' : ℝ) - x) ((y' : ℝ) - y)).nx = g.nx := by
      unfold Grid.nx
      rw [moved_x, List.length_map]
    have hny : (g.moved ((x' : ℝ) - x) ((y' : ℝ) - y)).ny = g.ny := by
      unfold Grid.ny
      rw [moved_y, List.length_map]
    have hz : (g.moved ((x' : ℝ) - x) ((y' : ℝ) - y)).z = g.z := rfl
    have hnz : (g.moved ((x' : ℝ) - x) ((y' : ℝ) - y)).nz = g.nz := rfl
    have hl : RelX (fun a b => a = g ∧ b = g.moved ((x' : ℝ) - x) ((y' : ℝ) - y)) (liftErr (.ok g)) (liftErr (.ok (g.moved ((x' : ℝ) - x) ((y' : ℝ) - y)))) := ⟨rfl, rfl⟩
    refine RelX.bind hl ?_
    rintro _ _ ⟨rfl, rfl⟩
    rw [hnx, hny, hnz, hz, assignPoints_near (fun i j hi hj => search_near hn hi hj), paramsOf_moved, paramsOf_near hn]
    exact RelX.same fun h _ => ⟨rfl, hn.heap, rfl, rfl⟩

/-! ### Parsing -/

/-- The options of the section `model` that a realisation uses, without the origin. -/
def modelFixed : List String := ["z0", "dx", "dy", "dz", "lx", "ly", "lz", "periodic", "hydraulics", "heterogeneity", "heterogeneity_level"]

theorem parseModel_fixed {C : Convs} {d d' r r' : Dict} (h : AgreeOn modelFixed d d') (hr : parseModel C d = .ok r) (hr' : parseModel C d' = .ok r') :
    AgreeOn modelFixed r r' := by
  simp only [parseModel, bind_ok] at hr hr'
  obtain ⟨a, ha, b, hb, hr⟩ := hr
  obtain ⟨a', ha', b', hb', hr'⟩ := hr'
  have hc : closedB modelFixed (optsModel C) = true := by rfl
  exact defaultTo_agree (by decide) (by decide) (defaultTo_agree (by decide) (by decide) (parseSection_agree hc h ha ha') hb hb') hr hr'

theorem parsed_moved {C : Convs} {p p' : Ini} {P P' : Parsed} (h : parseInifile C p = .ok P) (h' : parseInifile C p' = .ok P') (hs : Moved p p')
    {x y : Val} (hx : P'.model "x0" = some x) (hy : P'.model "y0" = some y) : SameParsed { P with model := originAt P.model x y } P' := by
  obtain ⟨m0, hydro, outs, outputs, -, -, -, -, q2, -⟩ := parseInifile_ok h
  obtain ⟨m0', hydro', outs', outputs', -, -, -, -, q2', -⟩ := parseInifile_ok h'
  have hne : ∀ k ∈ modelFixed, k ∈ modelUsed ∧ k ≠ "x0" ∧ k ≠ "y0" := by decide
  have hf := parseModel_fixed (fun k hk => hs.options _ _ (.model (hne k hk).1) fun hc => by
    rcases hc.2 with hc | hc
    · exact (hne k hk).2.1 hc
    · exact (hne k hk).2.2 hc) q2 q2'
  refine parsed_rest h h' hs.sections (fun s k hu hm => hs.options s k hu fun hc => hm hc.1) fun k hk => ?_
  by_cases h1 : k = "x0"
  · subst h1
    rw [hx]
    unfold originAt
    rw [set_ne _ _ (by decide), set_same]
  · by_cases h2 : k = "y0"
    · subst h2
      rw [hy]
      exact set_same _ _ _
    · rw [originAt_other _ _ _ h1 h2]
      refine hf k ?_
      have : ∀ k ∈ modelUsed, k ≠ "x0" → k ≠ "y0" → k ∈ modelFixed := by decide
      exact this k hk h1 h2

theorem origin_number {m : Dict} {u : Unit} (hg : gridCheck m = .ok u) : ∃ x y : ℚ, m "x0" = some (numVal x) ∧ m "y0" = some (numVal y) := by
  simp only [gridCheck, bind_ok, dget_ok] at hg
  obtain ⟨x0, hx0, y0, hy0, z0, hz0, dx, hdx, dy, hdy, dz, hdz, lx, hlx, ly, hly, lz, hlz, -, -, u1, h1, u2, h2, h3⟩ := hg
  obtain ⟨qx0, qdx, qlx, rfl, rfl, rfl, -⟩ := axisCheck_num h1
  obtain ⟨qy0, qdy, qly, rfl, rfl, rfl, -⟩ := axisCheck_num h2
  exact ⟨qx0, qy0, hx0, hy0⟩

theorem alike_of {x y : Except Stop Simulation} (h : RelX SameArrays x y) : Alike x y := by
  cases x <;> cases y <;> exact h

end Hyvr
