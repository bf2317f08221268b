import Verif.Lemmas.Scaled
import Verif.Lemmas.Arange
import Verif.Lemmas.Moved

/-!
Objects in another unit of length (C125).
-/

namespace Hyvr

open Py Real

variable {c : ℝ}

/-! ### Grids -/

/-- The grid in another unit. -/
noncomputable def Grid.scale (c : ℝ) (g : Grid) : Grid :=
  { x0 := c * g.x0, y0 := c * g.y0, z0 := c * g.z0, dx := c * g.dx, dy := c * g.dy, dz := c * g.dz, lx := c * g.lx, ly := c * g.ly, lz := c * g.lz, periodic := g.periodic }

theorem arange_scale (hc : 0 < c) (s e d : ℝ) : arange (c * s) (c * e) (c * d) = (arange s e d).map (c * ·) := by
  refine List.ext_getElem? fun i => ?_
  rw [arange_getElem?, List.getElem?_map, arange_getElem?, ← mul_sub, mul_div_mul_left _ _ hc.ne']
  split_ifs
  · simp only [Option.map_some, Option.some.injEq]
    ring
  · rfl

theorem scale_x (hc : 0 < c) (g : Grid) : (g.scale c).x = g.x.map (c * ·) := by
  unfold Grid.x
  rw [← arange_scale hc]
  unfold Grid.scale
  ring_nf

theorem scale_y (hc : 0 < c) (g : Grid) : (g.scale c).y = g.y.map (c * ·) := by
  unfold Grid.y
  rw [← arange_scale hc]
  unfold Grid.scale
  ring_nf

theorem scale_z (hc : 0 < c) (g : Grid) : (g.scale c).z = g.z.map (c * ·) := by
  unfold Grid.z
  rw [← arange_scale hc]
  unfold Grid.scale
  ring_nf

theorem coord_scale (l : List ℝ) (i : ℕ) : coord (l.map (c * ·)) i = c * coord l i := by
  unfold coord
  rw [List.getD_eq_getElem?_getD, List.getD_eq_getElem?_getD, List.getElem?_map]
  cases l[i]? with
  | none => exact (mul_zero c).symm
  | some x => rfl

/-! ### Sheets -/

def SheetParams.scale (c : ℝ) (p : SheetParams) : SheetParams := { p with dipsetDist := c * p.dipsetDist }

def SheetObj.scale (c : ℝ) (s : SheetObj) : SheetObj := { s with layerDist := c * s.layerDist, shift := c * s.shift }

theorem layerTable_scale (hc : 0 < c) (dist : ℝ) (num : ℤ) (facies : List ℤ) (alt : Option (List (List ℤ))) (draws : ℕ → ℕ) :
    layerTable (c * dist) num facies alt draws = layerTable dist num facies alt draws := by
  unfold layerTable
  simp only [mul_eq_zero, hc.ne', false_or]

theorem SheetObj.new_scale (hc : 0 < c) (p : SheetParams) (d : SheetDraw) (g : Grid) (zmean : ℝ) :
    SheetObj.new (p.scale c) d (g.scale c) (c * zmean) = (SheetObj.new p d g zmean).map (SheetObj.scale c) := by
  unfold SheetObj.new
  rw [show (p.scale c).struct = p.struct from rfl]
  split_ifs
  · dsimp only [SheetParams.scale, Grid.scale]
    rw [layerTable_scale hc, ← mul_max_of_nonneg _ _ hc.le, ← mul_max_of_nonneg _ _ hc.le]
    have e : -sin (d.dip * π / 180) * cos (d.azim * π / 180) * (c * g.x0 + c * g.lx / 2) + sin (d.dip * π / 180) * sin (d.azim * π / 180) * (c * g.y0 + c * g.ly / 2) +
        cos (d.dip * π / 180) * (c * zmean) + d.u * (c * p.dipsetDist) =
      c * (-sin (d.dip * π / 180) * cos (d.azim * π / 180) * (g.x0 + g.lx / 2) + sin (d.dip * π / 180) * sin (d.azim * π / 180) * (g.y0 + g.ly / 2) +
        cos (d.dip * π / 180) * zmean + d.u * p.dipsetDist) := by ring
    rw [e, ← mul_add, mul_div_mul_left _ _ hc.ne']
    exact bind_map fun _ _ => rfl
  · refine bind_map fun f _ => ?_
    simp only [pure, Except.pure, Except.map, SheetObj.scale, mul_zero]

theorem SheetObj.inner_scale (hc : 0 < c) (s : SheetObj) (x y z : ℝ) : (s.scale c).inner (c * x) (c * y) (c * z) = s.inner x y z := by
  unfold SheetObj.inner SheetObj.scale
  dsimp only
  have e : s.nvx * (c * x) + s.nvy * (c * y) + s.nvz * (c * z) - c * s.shift = c * (s.nvx * x + s.nvy * y + s.nvz * z - s.shift) := by ring
  rw [e, mul_div_mul_left _ _ hc.ne']

/-! ### Troughs -/

def TroughParams.scale (c : ℝ) (p : TroughParams) : TroughParams :=
  { p with lagHeight := c * p.lagHeight, dipsetDist := c * p.dipsetDist, bulbsetDist := c * p.bulbsetDist, length := c * p.length, width := c * p.width
           depth := c * p.depth, agg := c * p.agg, teXyz := p.teXyz.map fun l => l.map fun q => (c * q.1, c * q.2.1, c * q.2.2) }

noncomputable def TroughDraw.scale (c : ℝ) (p : TroughParams) (d : TroughDraw) : TroughDraw :=
  { d with shift := match structureNumber p.struct d.kind with
      | .ok 1 => c * d.shift
      | _ => d.shift }

noncomputable def Trough.scale (c : ℝ) (t : Trough) : Trough :=
  { t with x := c * t.x, y := c * t.y, z := c * t.z, a := c * t.a, b := c * t.b, c := c * t.c, maxAB := c * t.maxAB, zmin := c * t.zmin, zmax := c * t.zmax
           lag := c * t.lag, layerDist := c * t.layerDist, shift := if t.kind = 1 then c * t.shift else t.shift }

theorem Trough.base_scale (hc : 0 < c) (p : TroughParams) (x y z a b d alpha : ℝ) :
    Trough.base (p.scale c) (c * x) (c * y) (c * z) (c * a) (c * b) (c * d) alpha = (Trough.base p x y z a b d alpha).scale c := by
  simp only [Trough.base, Trough.scale, TroughParams.scale, mul_zero, mul_sub, mul_max_of_nonneg _ _ hc.le, ite_self]

theorem Trough.new_scale (hc : 0 < c) (p : TroughParams) (d : TroughDraw) (x y z a b e alpha : ℝ) :
    Trough.new (p.scale c) (d.scale c p) (c * x) (c * y) (c * z) (c * a) (c * b) (c * e) alpha = (Trough.new p d x y z a b e alpha).map (Trough.scale c) := by
  unfold Trough.new
  dsimp only
  rw [Trough.base_scale hc]
  refine bind_map (x := structureNumber p.struct d.kind) fun kind hk => ?_
  have hs : (d.scale c p).shift = if kind = 1 then c * d.shift else d.shift := by
    unfold TroughDraw.scale
    dsimp only
    rw [hk]
    by_cases h : kind = 1
    · subst h
      rfl
    · rw [if_neg h]
      split
      · rename_i h'
        cases h'
        exact absurd rfl h
      · rfl
  split_ifs with h0 h1 h2 h3
  · subst h0
    exact bind_map fun f _ => by simp [Trough.scale, Trough.base, TroughDraw.scale, pure, Except.pure, Except.map]
  · subst h1
    rw [if_pos rfl] at hs
    rw [hs]
    dsimp only [TroughParams.scale]
    rw [layerTable_scale hc, ← mul_max_of_nonneg _ _ hc.le, ← mul_max_of_nonneg _ _ hc.le, mul_left_comm, ← mul_add, mul_div_mul_left _ _ hc.ne']
    exact bind_map fun f _ => by simp [Trough.scale, Trough.base, TroughDraw.scale, pure, Except.pure, Except.map]
  · subst h2
    exact bind_map fun f _ => by simp [Trough.scale, Trough.base, TroughDraw.scale, pure, Except.pure, Except.map]
  · subst h3
    rw [if_neg (by decide)] at hs
    rw [hs]
    dsimp only [TroughParams.scale]
    rw [layerTable_scale hc, mul_left_comm, mul_div_mul_left _ _ hc.ne']
    exact bind_map fun f _ => by simp [Trough.scale, Trough.base, TroughDraw.scale, pure, Except.pure, Except.map]
  · rfl

theorem wrap1_scale (hc : 0 < c) (d l : ℝ) : wrap1 (c * d) (c * l) = c * wrap1 d l := by
  unfold wrap1
  have h1 : c * d > c * l / 2 ↔ d > l / 2 := by
    rw [mul_div_assoc]
    exact mul_lt_mul_iff_right₀ hc
  have h2 : c * d < -(c * l) / 2 ↔ d < -l / 2 := by
    rw [← mul_neg, mul_div_assoc]
    exact mul_lt_mul_iff_right₀ hc
  simp only [h1, h2]
  split_ifs <;> ring

theorem Trough.dist_scale (hc : 0 < c) (t : Trough) (g : Grid) (x y : ℝ) :
    (t.scale c).dist (g.scale c) (c * x) (c * y) = (c * (t.dist g x y).1, c * (t.dist g x y).2) := by
  unfold Trough.dist Trough.scale Grid.scale
  dsimp only
  rw [← mul_sub, ← mul_sub]
  split_ifs
  · rw [wrap1_scale hc, wrap1_scale hc]
  · rfl

theorem Trough.normalized_scale (hc : 0 < c) (t : Trough) (dx dy dz : ℝ) : (t.scale c).normalized (c * dx) (c * dy) (c * dz) = t.normalized dx dy dz := by
  unfold Trough.normalized Trough.scale
  dsimp only
  have e1 : c * dx * t.cosalpha + c * dy * t.sinalpha = c * (dx * t.cosalpha + dy * t.sinalpha) := by ring
  have e2 : -(c * dx) * t.sinalpha + c * dy * t.cosalpha = c * (-dx * t.sinalpha + dy * t.cosalpha) := by ring
  rw [e1, e2, mul_div_mul_left _ _ hc.ne', mul_div_mul_left _ _ hc.ne', mul_div_mul_left _ _ hc.ne']

theorem len_scale (hc : 0 < c) (a b d : ℝ) : √((a / c) ^ 2 + (b / c) ^ 2 + (d / c) ^ 2) = √(a ^ 2 + b ^ 2 + d ^ 2) / c := by
  rw [div_pow, div_pow, div_pow, ← add_div, ← add_div, sqrt_div' _ (sq_nonneg c), sqrt_sq hc.le]

theorem bulbAngles_scale (hc : 0 < c) (t : Trough) (n1 n2 n3 : ℝ) : bulbAngles (t.scale c) n1 n2 n3 = bulbAngles t n1 n2 n3 := by
  have hd : ∀ n a : ℝ, n / (c * a) = n / a / c := fun n a => by rw [mul_comm, div_div]
  have hl := len_scale hc (n1 / t.a) (n2 / t.b) (n3 / t.c)
  have hn : bulbNormal (t.scale c) (n1 / t.a / c) (n2 / t.b / c) (n3 / t.c / c) = bulbNormal t (n1 / t.a) (n2 / t.b) (n3 / t.c) := by
    unfold bulbNormal
    dsimp only
    rw [hl]
    have e : ∀ p q L : ℝ, p = q / c → p / (L / c) = q / L := fun p q L h => by rw [h, div_div_div_cancel_right₀ hc.ne']
    dsimp only [Trough.scale]
    rw [e _ (n1 / t.a * t.cosalpha + n2 / t.b * t.sinalpha) _ (by ring), e _ (-(n1 / t.a) * t.sinalpha + n2 / t.b * t.cosalpha) _ (by ring), e _ (n3 / t.c) _ rfl]
  unfold bulbAngles
  dsimp only
  rw [show (t.scale c).a = c * t.a from rfl, show (t.scale c).b = c * t.b from rfl, show (t.scale c).c = c * t.c from rfl, hd, hd, hd, hl, hn]
  simp only [ne_eq, div_eq_zero_iff, hc.ne', or_false]

theorem Trough.inner_scale (hc : 0 < c) (t : Trough) (dx dy dz : ℝ) : (t.scale c).inner (c * dx) (c * dy) (c * dz) = t.inner dx dy dz := by
  unfold Trough.inner
  dsimp only
  rw [Trough.normalized_scale hc, bulbAngles_scale hc]
  dsimp only [Trough.scale]
  by_cases h1 : t.kind = 1
  · have e : c * dx * t.nvx + c * dy * t.nvy + c * dz * t.nvz + c * t.shift = c * (dx * t.nvx + dy * t.nvy + dz * t.nvz + t.shift) := by ring
    simp only [h1, if_true, e, mul_div_mul_left _ _ hc.ne']
  · have e : ∀ x : ℝ, (x + t.shift) * (c * t.c) / (c * t.layerDist) = (x + t.shift) * t.c / t.layerDist := fun x => by
      rw [mul_left_comm, mul_div_mul_left _ _ hc.ne']
    simp only [h1, if_false, e]

theorem Trough.test_scale (hc : 0 < c) (t : Trough) (g : Grid) (x y z : ℝ) : (t.scale c).test (g.scale c) (c * x) (c * y) (c * z) = t.test g x y z := by
  unfold Trough.test
  dsimp only
  rw [Trough.dist_scale hc]
  dsimp only
  have hz : c * z - (t.scale c).z = c * (z - t.z) := (mul_sub _ _ _).symm
  have hm : (t.scale c).maxAB = c * t.maxAB := rfl
  have hl : (t.scale c).z - (t.scale c).c + (t.scale c).lag = c * (t.z - t.c + t.lag) := by
    dsimp only [Trough.scale]
    ring
  rw [hz, hm, hl, Trough.normalized_scale hc, Trough.inner_scale hc]
  simp only [gt_iff_lt, ← mul_neg, mul_lt_mul_iff_right₀ hc, mul_pos_iff_of_pos_left hc]
  rfl

/-! ### Placing of troughs -/

noncomputable def scalePoint (c : ℝ) (q : ℝ × ℝ × ℝ) : ℝ × ℝ × ℝ := (c * q.1, c * q.2.1, c * q.2.2)

theorem troughAxes_scale (hc : 0 < c) (p : TroughParams) (z0 lz z : ℝ) :
    troughAxes (p.scale c) (c * z0) (c * lz) (c * z) = scalePoint c (troughAxes p z0 lz z) := by
  unfold troughAxes scalePoint
  dsimp only [TroughParams.scale]
  have e : ∀ f : ℝ, (c * z - c * z0) * f / (c * lz) = (z - z0) * f / lz := fun f => by
    rw [← mul_sub, mul_assoc, mul_div_mul_left _ _ hc.ne']
  cases p.sizeZtrend with
  | none =>
    simp only [Prod.mk.injEq]
    refine ⟨?_, ?_, ?_⟩ <;> ring
  | some f =>
    dsimp only
    rw [e]
    simp only [Prod.mk.injEq]
    refine ⟨?_, ?_, ?_⟩ <;> ring

theorem makeTroughs_scale (hc : 0 < c) (p : TroughParams) (z0 lz : ℝ) (draws : ℕ → TroughDraw) (n : ℕ) (l : List (ℝ × ℝ × ℝ)) :
    makeTroughs (p.scale c) (c * z0) (c * lz) (fun n => (draws n).scale c p) n (l.map (scalePoint c)) =
      (makeTroughs p z0 lz draws n l).map (List.map (Trough.scale c)) := by
  induction l generalizing n with
  | nil => rfl
  | cons q l ih =>
    simp only [List.map_cons, makeTroughs]
    rw [show (scalePoint c q).2.2 = c * q.2.2 from rfl, troughAxes_scale hc]
    exact map_bind_map (Trough.new_scale hc p (draws n) _ _ _ _ _ _ _) fun t _ => map_bind_map (ih (n + 1)) fun ts _ => rfl

structure ScaledPlace (c : ℝ) (d d' : PlaceDraw) : Prop where
  count : d'.count = d.count
  move : ∀ i k, d'.move i k = (c * (d.move i k).1, c * (d.move i k).2)
  pos : ∀ i k, d'.pos i k = (c * (d.pos i k).1, c * (d.pos i k).2)

theorem placeNew_scale {d d' : PlaceDraw} (h : ScaledPlace c d d') (i n : ℕ) (z : ℝ) (te : List (ℝ × ℝ × ℝ)) :
    placeNew d' i n (c * z) (te.map (scalePoint c)) = (placeNew d i n z te).map (scalePoint c) := by
  unfold placeNew
  refine List.foldl_hom (List.map (scalePoint c)) fun te k => ?_
  rw [h.pos]
  simp [scalePoint]

theorem placeMoved_scale {d d' : PlaceDraw} (h : ScaledPlace c d d') (i n : ℕ) (z : ℝ) (te : List (ℝ × ℝ × ℝ)) :
    placeMoved d' i n (c * z) (te.map (scalePoint c)) = (placeMoved d i n z te).map (List.map (scalePoint c)) := by
  unfold placeMoved
  refine foldlM_map (F := List.map (scalePoint c)) (fun te k => ?_) _ te
  rw [h.move, List.getElem?_map]
  cases te[k + (i - 1) * n]? with
  | none => rfl
  | some q =>
    simp only [Option.map_some, Except.map, List.map_append, List.map_cons, List.map_nil, scalePoint, mul_add]

theorem planesZ_scale (hc : 0 < c) (p : TroughParams) (zb zt : ℝ) : planesZ (p.scale c) (c * zb) (c * zt) = (planesZ p zb zt).map (c * ·) := by
  unfold planesZ
  rw [← arange_scale hc]
  dsimp only [TroughParams.scale]
  congr 1 <;> ring

theorem foldlM_both {β γ δ δ' : Type} {f : β → δ → Except PyErr β} {f' : γ → δ' → Except PyErr γ} {F : β → γ} {G : δ → δ'}
    (h : ∀ b x, f' (F b) (G x) = (f b x).map F) (l : List δ) (b : β) : (l.map G).foldlM f' (F b) = (l.foldlM f b).map F := by
  induction l generalizing b with
  | nil => rfl
  | cons x l ih =>
    simp only [List.map_cons, List.foldlM_cons]
    exact map_bind_map (h b x) fun b' _ => ih b'

theorem troughPositions_scale (hc : 0 < c) {d d' : PlaceDraw} (h : ScaledPlace c d d') (p : TroughParams) (zb zt : ℝ) :
    troughPositions (p.scale c) d' (c * zb) (c * zt) = (troughPositions p d zb zt).map (List.map (scalePoint c)) := by
  unfold troughPositions
  dsimp only
  rw [planesZ_scale hc]
  refine map_bind_map (F := fun st : List (ℝ × ℝ × ℝ) × ℕ => (st.1.map (scalePoint c), st.2)) ?_ fun st _ => rfl
  have e : (List.range ((planesZ p zb zt).map (c * ·)).length).zip ((planesZ p zb zt).map (c * ·)) =
      ((List.range (planesZ p zb zt).length).zip (planesZ p zb zt)).map fun iz => (iz.1, c * iz.2) := by
    rw [List.length_map, List.zip_map_right]
    rfl
  rw [e]
  refine foldlM_both (F := fun st : List (ℝ × ℝ × ℝ) × ℕ => (st.1.map (scalePoint c), st.2)) (fun st iz => ?_) _ ([], 0)
  unfold placeLevel
  dsimp only
  rw [h.count, show (p.scale c).migrate = p.migrate from rfl]
  split_ifs
  · rw [placeNew_scale h]
    rfl
  · exact map_bind_map (placeMoved_scale h _ _ _ _) fun te _ => rfl

/-! ### What is read of an element -/

section
variable (c : ℚ)

def InsideRead.scale (p : InsideRead) : InsideRead := { p with dipsetDist := c * p.dipsetDist }

def ErosiveRead.scale (p : ErosiveRead) : ErosiveRead := { p with lagHeight := c * p.lagHeight, agg := c * p.agg, width := c * p.width, depth := c * p.depth }

def TroughRead.scale (p : TroughRead) : TroughRead :=
  { p with inside := p.inside.scale c, erosive := p.erosive.scale c, bulbsetDist := c * p.bulbsetDist, length := c * p.length, density := c ^ (-2 : ℤ) * p.density
           migrate := p.migrate.map fun m => ((c * m.1.1, c * m.1.2), (c * m.2.1, c * m.2.2))
           teXyz := p.teXyz.map fun l => l.map fun q => (c * q.1, c * q.2.1, c * q.2.2) }

def ChannelRead.scale (p : ChannelRead) : ChannelRead := { p with inside := p.inside.scale c, erosive := p.erosive.scale c, ds := c * p.ds, mig := c * p.mig }

def ShapeRead.scale : ShapeRead → ShapeRead
  | .sheet p => .sheet { inside := p.inside.scale c }
  | .trough p => .trough (p.scale c)
  | .channel p => .channel (p.scale c)

def scaleShapes (l : List (String × ShapeRead)) : List (String × ShapeRead) := l.map fun x => (x.1, x.2.scale c)

end

theorem lookup_scale (c : ℚ) (shapes : List (String × ShapeRead)) (n : String) : (scaleShapes c shapes).lookup n = (shapes.lookup n).map (ShapeRead.scale c) := by
  induction shapes with
  | nil => rfl
  | cons x l ih =>
    obtain ⟨k, s⟩ := x
    simp only [scaleShapes, List.map_cons, List.lookup_cons] at ih ⊢
    cases n == k with
    | true => rfl
    | false => exact ih

theorem TroughRead.params_scale (c : ℚ) (p : TroughRead) : (p.scale c).params = p.params.scale (c : ℝ) := by
  unfold TroughRead.params TroughParams.scale TroughRead.scale InsideRead.scale ErosiveRead.scale
  dsimp only
  congr 1
  all_goals first
    | exact Rat.cast_mul _ _
    | skip
  · rw [Option.isSome_map]
  · rw [Option.map_map, Option.map_map]
    congr 1
    funext l
    simp only [Function.comp, List.map_map, List.map_inj_left, Prod.mk.injEq]
    exact fun q _ => ⟨Rat.cast_mul _ _, Rat.cast_mul _ _, Rat.cast_mul _ _⟩

theorem SheetRead.params_scale (c : ℚ) (p : SheetRead) : SheetRead.params { inside := p.inside.scale c } = p.params.scale (c : ℝ) := by
  unfold SheetRead.params SheetParams.scale InsideRead.scale
  dsimp only
  rw [Rat.cast_mul]

theorem ObjRandoms.trough_scale (c : ℚ) (r : ObjRandoms) (p : TroughRead) (n : ℕ) : r.trough (p.scale c) n = (r.trough p n).scale (c : ℝ) p.params := by
  unfold ObjRandoms.trough TroughDraw.scale
  dsimp only
  congr 1
  rw [show (p.scale c).inside.struct = p.inside.struct from rfl, show p.params.struct = p.inside.struct from rfl]
  rcases hk : structureNumber p.inside.struct (r.kind n) with e | k
  · rfl
  · match k with
    | 0 => rfl
    | 1 =>
      show uniform 0 ((c * p.inside.dipsetDist : ℚ) : ℝ) (r.shift n) = c * uniform 0 (p.inside.dipsetDist : ℝ) (r.shift n)
      unfold uniform
      rw [Rat.cast_mul]
      ring
    | k + 2 => rfl

theorem uniform_scale (a b u : ℝ) : uniform (c * a) (c * b) u = c * uniform a b u := by
  unfold uniform
  ring

theorem mean_scale {c : ℚ} (hc : 0 < c) (p : TroughRead) (g : Grid) :
    ((p.scale c).density : ℝ) * (g.scale (c : ℝ)).lx * (g.scale (c : ℝ)).ly = p.density * g.lx * g.ly := by
  have hc' : (0 : ℝ) < c := Rat.cast_pos.2 hc
  show ((c ^ (-2 : ℤ) * p.density : ℚ) : ℝ) * (c * g.lx) * (c * g.ly) = _
  rw [Rat.cast_mul, Rat.cast_zpow, zpow_neg, zpow_ofNat]
  field_simp

theorem ObjRandoms.place_scale {c : ℚ} (hc : 0 < c) (r : ObjRandoms) (p : TroughRead) (g : Grid) : ScaledPlace (c : ℝ) (r.place p g) (r.place (p.scale c) (g.scale c)) := by
  refine ⟨congrArg r.count (mean_scale hc p g), fun i k => ?_, fun i k => ?_⟩
  · unfold ObjRandoms.place
    dsimp only [TroughRead.scale]
    cases p.migrate with
    | none => simp
    | some m =>
      simp only [Option.map_some, Rat.cast_mul, Prod.mk.injEq]
      constructor <;> ring
  · unfold ObjRandoms.place
    dsimp only
    have e1 : (g.scale (c : ℝ)).xmax = c * g.xmax := (mul_add _ _ _).symm
    have e2 : (g.scale (c : ℝ)).ymax = c * g.ymax := (mul_add _ _ _).symm
    rw [e1, e2, show (g.scale (c : ℝ)).x0 = c * g.x0 from rfl, show (g.scale (c : ℝ)).y0 = c * g.y0 from rfl, uniform_scale, uniform_scale]

theorem troughGuard_scale {c : ℚ} (hc : 0 < c) (p : TroughRead) (g : Grid) (r : ObjRandoms) (n : ℕ) :
    troughGuard (p.scale c) (g.scale c) r n = troughGuard p g r n := by
  have hc' : (0 : ℝ) < c := Rat.cast_pos.2 hc
  unfold troughGuard
  have h1 : (p.scale c).teXyz.isSome = p.teXyz.isSome := Option.isSome_map ..
  have h2 : (p.scale c).erosive.agg = 0 ↔ p.erosive.agg = 0 := by
    show c * p.erosive.agg = 0 ↔ _
    simp [hc.ne']
  have h3 := mean_scale hc p g
  rw [h1, h3]
  simp only [h2]
  have hm : (p.scale c).migrate = p.migrate.map fun m => ((c * m.1.1, c * m.1.2), (c * m.2.1, c * m.2.2)) := rfl
  rw [hm]
  cases p.migrate with
  | none => rfl
  | some m =>
    have hn : ∀ q : ℚ, c * q < 0 ↔ q < 0 := fun q => by simp [mul_neg_iff, hc, hc.not_gt]
    simp only [Option.map_some, hn]

theorem placeTroughs_scale {c : ℚ} (hc : 0 < c) (p : TroughRead) (g : Grid) (r : ObjRandoms) (bottom top : Surface ℝ) :
    placeTroughs (p.scale c) (g.scale c) r (bottom.scale c) (top.scale c) = (placeTroughs p g r bottom top).map (List.map (Trough.scale c)) := by
  have hc' : (0 : ℝ) < c := Rat.cast_pos.2 hc
  unfold placeTroughs
  rw [TroughRead.params_scale, show (bottom.scale (c : ℝ)).zmax = c * bottom.zmax from rfl, show (top.scale (c : ℝ)).zmean = c * top.zmean from rfl,
    planesZ_scale hc', List.length_map, troughGuard_scale hc]
  refine bind_map fun _ _ => ?_
  have hd : r.trough (p.scale c) = fun n => (r.trough p n).scale (c : ℝ) p.params := funext fun n => r.trough_scale c p n
  unfold generateTroughs
  rw [hd]
  rw [show (p.params.scale (c : ℝ)).teXyz = p.params.teXyz.map fun l => l.map (scalePoint c) from rfl]
  cases p.params.teXyz with
  | none => exact map_bind_map (troughPositions_scale hc' (ObjRandoms.place_scale hc r p g) _ _ _) fun te _ => makeTroughs_scale hc' _ _ _ _ 0 te
  | some l => exact makeTroughs_scale hc' _ _ _ _ 0 l

theorem Trough.toObj_scale (hc : 0 < c) (t : Trough) (g : Grid) (stray : ℤ → ℤ × Option ℝ × Option ℝ) :
    (t.scale c).toObj (g.scale c) stray = (t.toObj g stray).scale c := by
  unfold Trough.toObj GObj.scale
  dsimp only
  congr 1
  funext i j z
  have := Trough.test_scale hc t g (coord g.x i) (coord g.y j) (z / c)
  rw [mul_div_cancel₀ _ hc.ne'] at this
  rw [scale_x hc, scale_y hc, coord_scale, coord_scale, this]

theorem numbered_scale (hc : 0 < c) (g : Grid) (r : ObjRandoms) (n : ℕ) (l : List Trough) :
    numbered (fun n => Trough.toObj (g.scale c) (r.stray n)) n (l.map (Trough.scale c)) = (numbered (fun n => Trough.toObj g (r.stray n)) n l).map (GObj.scale c) := by
  induction l generalizing n with
  | nil => rfl
  | cons t l ih =>
    simp only [List.map_cons, numbered]
    rw [ih, Trough.toObj_scale hc]

/-! ### Objects -/

def ShapeRead.Scalable : ShapeRead → Prop
  | .channel _ => False
  | _ => True

theorem objectsOf_scale {c : ℚ} (hc : 0 < c) {shapes : List (String × ShapeRead)} (hs : ∀ x ∈ shapes, x.2.Scalable) (g : Grid) (r : ObjRandoms) (fuel : ℕ)
    (t : ElemParams ℝ) (b tp : Surface ℝ) :
    objectsOf (g.scale c) (scaleShapes c shapes) r fuel (t.scale c) (b.scale c) (tp.scale c) = scaleObjs c (objectsOf g shapes r fuel t b tp) := by
  have hc' : (0 : ℝ) < c := Rat.cast_pos.2 hc
  unfold objectsOf
  rw [show (t.scale (c : ℝ)).name = t.name from rfl, lookup_scale]
  cases hl : shapes.lookup t.name with
  | none => rfl
  | some s =>
    have hm := hs _ (mem_of_lookup hl)
    cases s with
    | sheet p => rfl
    | channel p => exact hm.elim
    | trough p =>
      simp only [Option.map_some, ShapeRead.scale, scaleObjs, placeTroughs_scale hc]
      cases placeTroughs p g r b tp with
      | error e => rfl
      | ok ts => simp only [Except.map, numbered_scale hc']

theorem sheetOf_scale {c : ℚ} (hc : 0 < c) {shapes : List (String × ShapeRead)} (g : Grid) (r : ObjRandoms) (t : ElemParams ℝ) (n : ℕ) (z : ℝ) :
    sheetOf (g.scale c) (scaleShapes c shapes) r (t.scale c) n (c * z) = (sheetOf g shapes r t n z).map (Payload.scale c) := by
  have hc' : (0 : ℝ) < c := Rat.cast_pos.2 hc
  unfold sheetOf
  rw [show (t.scale (c : ℝ)).name = t.name from rfl, lookup_scale]
  cases hl : shapes.lookup t.name with
  | none => rfl
  | some s =>
    cases s with
    | trough p => rfl
    | channel p => rfl
    | sheet p =>
      simp only [Option.map_some, ShapeRead.scale, SheetRead.params_scale]
      refine map_bind_map (SheetObj.new_scale hc' p.params (r.sheet p n) g z) fun s _ => ?_
      refine congrArg Except.ok ?_
      funext i j z
      show _ = ((s.inner (coord g.x i) (coord g.y j) (z / c)).toCell (r.stray n)).getD (r.stray n 0)
      have := SheetObj.inner_scale hc' s (coord g.x i) (coord g.y j) (z / c)
      rw [mul_div_cancel₀ _ hc'.ne'] at this
      rw [scale_x hc', scale_y hc', coord_scale, coord_scale, this]

end Hyvr
