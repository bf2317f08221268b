import Verif.Model.Facies
import Verif.Model.Grid
import Verif.Model.Strata
import Mathlib.Analysis.SpecialFunctions.Trigonometric.Inverse
import Mathlib.Analysis.SpecialFunctions.Trigonometric.Arctan

/-!
Model of truncated ellipsoids ("troughs"): hyvr/geo/trough.pyx, hyvr/geo/trough_ae.pyx, hyvr/geo/trough_utils.py.
-/

namespace Hyvr

open Py Real

/-- The entries of an element section read for troughs. hyvr/geo/trough.pyx:98-187, hyvr/geo/trough_utils.py:28-70,
hyvr/geo/trough_ae.pyx:68. -/
structure TroughParams where
  lagHeight : ℝ
  lagFacies : ℤ
  struct : String
  facies : List ℤ
  altFacies : Option (List (List ℤ))
  dipsetDist : ℝ
  bulbsetDist : ℝ
  length : ℝ
  width : ℝ
  depth : ℝ
  agg : ℝ
  buffer : ℝ
  migrate : Bool
  sizeZtrend : Option (ℝ × ℝ)
  teXyz : Option (List (ℝ × ℝ × ℝ))

/-- Random numbers of one trough: `alpha` (`uniform(*paleoflow)`), `kind` (`randint(4)`), `facies` (`choice`), `azim`, `dip`
(`uniform(*azimuth)`, `uniform(*dip)`), `shift` (`uniform(0, layer_dist)` for dipping layers, `uniform()` for bulb sets), draws
of the layer sequence. hyvr/geo/trough.pyx:113-187, hyvr/geo/trough_utils.py:70. -/
structure TroughDraw where
  alpha : ℝ
  kind : ℕ
  facies : ℕ
  azim : ℝ
  dip : ℝ
  shift : ℝ
  layers : ℕ → ℕ

/-- Attributes of a `Trough`; those never set have Cython's default 0. hyvr/geo/trough.pyx:20-35. The attribute `cosdip` (never
used) is left out; `num_ha` is handled in `Verif/Model/Strata.lean`. -/
structure Trough where
  x : ℝ
  y : ℝ
  z : ℝ
  a : ℝ
  b : ℝ
  c : ℝ
  maxAB : ℝ
  zmin : ℝ
  zmax : ℝ
  alpha : ℝ
  sinalpha : ℝ
  cosalpha : ℝ
  lag : ℝ
  lagFacies : ℤ
  kind : ℕ
  layerDist : ℝ
  shift : ℝ
  azim : ℝ
  dip : ℝ
  facies : ℤ
  nvx : ℝ
  nvy : ℝ
  nvz : ℝ
  numFacies : ℤ
  table : List ℤ

/-- The common part of the constructor. hyvr/geo/trough.pyx:40-49, 82-83, 98-99. -/
noncomputable def Trough.base (p : TroughParams) (x y z a b c alpha : ℝ) : Trough :=
  { x, y, z, a, b, c, maxAB := max a b, zmin := z - c, zmax := z, alpha
    sinalpha := sin (alpha * π / 180), cosalpha := cos (alpha * π / 180)
    lag := p.lagHeight, lagFacies := p.lagFacies, kind := 0, layerDist := 0, shift := 0, azim := 0, dip := 0
    facies := 0, nvx := 0, nvy := 0, nvz := 0, numFacies := 0, table := [] }

/-- `['massive', 'dip', 'bulb', 'bulb_sets', 'random'].index(structure)` and the replacement of 4 by `randint(4)`.
hyvr/geo/trough.pyx:111-113. `randint(4)` is in 0..3, so the draw is reduced modulo 4. -/
def structureNumber (s : String) (draw : ℕ) : Except PyErr ℕ :=
  if s = "massive" then .ok 0
  else if s = "dip" then .ok 1
  else if s = "bulb" then .ok 2
  else if s = "bulb_sets" then .ok 3
  else if s = "random" then .ok (draw % 4)
  else .error .valueError

/-- `Trough.__init__`. hyvr/geo/trough.pyx:37-190. -/
noncomputable def Trough.new (p : TroughParams) (d : TroughDraw) (x y z a b c alpha : ℝ) : Except PyErr Trough := do
  let t := Trough.base p x y z a b c alpha
  let kind ← structureNumber p.struct d.kind
  if kind = 0 then do
    let f ← choice p.facies d.facies
    return { t with kind, facies := f, azim := d.azim + alpha, dip := d.dip }
  else if kind = 1 then do
    let azim := d.azim + alpha
    let num : ℤ := pyInt ⌈(2 * max (max a b) c + d.shift) / p.dipsetDist⌉ + 2
    let table ← layerTable p.dipsetDist num p.facies p.altFacies d.layers
    return { t with
      kind, layerDist := p.dipsetDist, azim, dip := d.dip
      nvx := sin (d.dip * π / 180) * cos (azim * π / 180)
      nvy := -sin (d.dip * π / 180) * sin (azim * π / 180)
      nvz := cos (d.dip * π / 180)
      shift := d.shift, numFacies := num, table }
  else if kind = 2 then do
    let f ← choice p.facies d.facies
    return { t with kind, facies := f, dip := d.dip }
  else if kind = 3 then do
    let num : ℤ := pyInt ⌈(1 + d.shift) * c / p.bulbsetDist⌉ + 1
    let table ← layerTable p.bulbsetDist num p.facies p.altFacies d.layers
    return { t with kind, layerDist := p.bulbsetDist, shift := d.shift, numFacies := num, table, dip := d.dip }
  else .error .notImplemented

/-- The wrapping of one horizontal distance in a periodic domain of length `l`. hyvr/geo/trough_ae.pyx:144-151. -/
noncomputable def wrap1 (d l : ℝ) : ℝ := if d > l / 2 then d - l else if d < -l / 2 then d + l else d

/-- `ho.sign`. hyvr/optimized.py:72-73. -/
noncomputable def pySign (x : ℝ) : ℝ := (if x ≥ 0 then 1 else 0) - (if x < 0 then 1 else 0)

/-- `atan(num/den)` for `den ≥ 0` in C arithmetic with `cdivision`: a quotient by zero is an infinity, `atan` of which is `± pi/2`.
hyvr/geo/trough_ae.pyx:90, 263 (`num = 0 = den` does not occur there because of line 236; the model gives 0). -/
noncomputable def atanDiv (num den : ℝ) : ℝ :=
  if den = 0 then (if num > 0 then π / 2 else if num < 0 then -(π / 2) else 0) else arctan (num / den)

/-- `normvec_x, normvec_y, normvec_z` from `aaa, bbb, ccc` (for non-zero length). hyvr/geo/trough_ae.pyx:228-234. -/
noncomputable def bulbNormal (t : Trough) (aaa bbb ccc : ℝ) : ℝ × ℝ × ℝ :=
  let len := √(aaa ^ 2 + bbb ^ 2 + ccc ^ 2)
  ((aaa * t.cosalpha + bbb * t.sinalpha) / len, (-aaa * t.sinalpha + bbb * t.cosalpha) / len, ccc / len)

/-- Azimuth and dip of bulb structures before limiting the dip. hyvr/geo/trough_ae.pyx:225-269. -/
noncomputable def bulbAngles (t : Trough) (ndx ndy ndz : ℝ) : ℝ × ℝ :=
  let aaa := ndx / t.a
  let bbb := ndy / t.b
  let ccc := ndz / t.c
  if √(aaa ^ 2 + bbb ^ 2 + ccc ^ 2) ≠ 0 then
    let n := bulbNormal t aaa bbb ccc
    if √(n.1 ^ 2 + n.2.1 ^ 2) = 0 then (0, 0)
    else
      (-atanDiv (pySign n.1 * n.2.1) |n.1| / π * 180,
       if n.2.2 = 0 then -arccos |n.2.2| * pySign n.1 / π * 180
       else -arccos |n.2.2| * pySign (n.1 * n.2.2) / π * 180)
  else (0, 0)

/-- Limiting the dip. hyvr/geo/trough_ae.pyx:272-275. -/
noncomputable def limitDip (dip maxDip : ℝ) : ℝ := if dip > maxDip then maxDip else if dip < -maxDip then -maxDip else dip

/-- The distances after wrapping. hyvr/geo/trough_ae.pyx:140-151. -/
noncomputable def Trough.dist (t : Trough) (g : Grid) (x y : ℝ) : ℝ × ℝ :=
  if g.periodic then (wrap1 (x - t.x) g.lx, wrap1 (y - t.y) g.ly) else (x - t.x, y - t.y)

/-- Normalised distances. hyvr/geo/trough_ae.pyx:162-164. -/
noncomputable def Trough.normalized (t : Trough) (dx dy dz : ℝ) : ℝ × ℝ × ℝ :=
  ((dx * t.cosalpha + dy * t.sinalpha) / t.a, (-dx * t.sinalpha + dy * t.cosalpha) / t.b, dz / t.c)

/-- `l2`. hyvr/geo/trough_ae.pyx:165. -/
def l2 (n : ℝ × ℝ × ℝ) : ℝ := n.1 ^ 2 + n.2.1 ^ 2 + n.2.2 ^ 2

/-- The values given to a point that is inside and above the lag. hyvr/geo/trough_ae.pyx:182-295. -/
noncomputable def Trough.inner (t : Trough) (dx dy dz : ℝ) : Answer ℝ :=
  let n := t.normalized dx dy dz
  if t.kind = 0 then .hit t.facies t.azim t.dip
  else if t.kind = 1 then
    let planeDist := dx * t.nvx + dy * t.nvy + dz * t.nvz + t.shift
    tableHit t.table (pyInt (planeDist / t.layerDist) + t.numFacies / 2) t.azim t.dip
  else if t.kind = 2 ∨ t.kind = 3 then
    let ang := bulbAngles t n.1 n.2.1 n.2.2
    let dip := limitDip ang.2 t.dip
    if t.kind = 2 then .hit t.facies ang.1 dip
    else tableHit t.table (pyInt ⌈(√(l2 n) + t.shift) * t.c / t.layerDist⌉) ang.1 dip
  else .error .notImplemented

/-- `maybe_assign_points_to_object` of a trough. hyvr/geo/trough_ae.pyx:91-295. -/
noncomputable def Trough.test (t : Trough) (g : Grid) (x y z : ℝ) : Answer ℝ :=
  let dx := (t.dist g x y).1
  let dy := (t.dist g x y).2
  let dz := z - t.z
  if dx > t.maxAB ∨ -dx > t.maxAB ∨ dy > t.maxAB ∨ -dy > t.maxAB ∨ dz > 0 then .miss
  else if l2 (t.normalized dx dy dz) > 1 then .miss
  else if z < t.z - t.c + t.lag then .hit t.lagFacies 0 0
  else t.inner dx dy dz

/-! ### Placement -/

/-- `rand_trough_params` without the random angle: the half-axes at elevation `z`. hyvr/geo/trough_utils.py:58-69. -/
noncomputable def troughAxes (p : TroughParams) (z0 lz z : ℝ) : ℝ × ℝ × ℝ :=
  let zfactor := match p.sizeZtrend with
    | some (f0, f1) => f0 + (z - z0) * (f1 - f0) / lz
    | none => 1
  (p.length * zfactor / 2, p.width * zfactor / 2, p.depth * zfactor)

/-- Random numbers of the placement: number of troughs on a level (`poisson`), positions (`uniform`) and displacements (`normal`) of
trough `k` on level `i`. hyvr/geo/trough_utils.py:38-52. -/
structure PlaceDraw where
  count : ℕ → ℕ
  pos : ℕ → ℕ → ℝ × ℝ
  move : ℕ → ℕ → ℝ × ℝ

/-- `planes_z`. hyvr/geo/trough_utils.py:28-31. `bottomZmax` is `bottom_surface.zmax`, `topZmean` is `top_surface.zmean`. -/
noncomputable def planesZ (p : TroughParams) (bottomZmax topZmean : ℝ) : List ℝ :=
  arange topZmean (bottomZmax + p.depth * p.buffer) (-p.agg)

/-- `for k in range(n_troughs): te_xyz.append(...)` with new positions. hyvr/geo/trough_utils.py:40-43. -/
def placeNew (d : PlaceDraw) (i n : ℕ) (z : ℝ) (te : List (ℝ × ℝ × ℝ)) : List (ℝ × ℝ × ℝ) :=
  (List.range n).foldl (fun te k => te ++ [((d.pos i k).1, (d.pos i k).2, z)]) te

/-- `for k in range(n_troughs): ...` with positions displaced from `te_xyz[k + (i-1)*n_troughs]`; `IndexError` if there is no
such entry. hyvr/geo/trough_utils.py:47-53. -/
def placeMoved (d : PlaceDraw) (i n : ℕ) (z : ℝ) (te : List (ℝ × ℝ × ℝ)) : Except PyErr (List (ℝ × ℝ × ℝ)) :=
  (List.range n).foldlM (fun te k =>
    match te[k + (i - 1) * n]? with
    | some q => .ok (te ++ [(q.1 + (d.move i k).1, q.2.1 + (d.move i k).2, z)])
    | none => .error .indexError) te

/-- One level of the loop over `planes_z`; the state is `te_xyz` and `n_troughs` (the initial value of the latter is never
read, as level 0 sets it). hyvr/geo/trough_utils.py:35-53. -/
def placeLevel (p : TroughParams) (d : PlaceDraw) (st : List (ℝ × ℝ × ℝ) × ℕ) (iz : ℕ × ℝ) :
    Except PyErr (List (ℝ × ℝ × ℝ) × ℕ) :=
  if iz.1 = 0 ∨ p.migrate = false then .ok (placeNew d iz.1 (d.count iz.1) iz.2 st.1, d.count iz.1)
  else do
    let te ← placeMoved d iz.1 st.2 iz.2 st.1
    return (te, st.2)

/-- `generate_trough_positions`. hyvr/geo/trough_utils.py:4-55. -/
noncomputable def troughPositions (p : TroughParams) (d : PlaceDraw) (bottomZmax topZmean : ℝ) :
    Except PyErr (List (ℝ × ℝ × ℝ)) := do
  let planes := planesZ p bottomZmax topZmean
  let st ← ((List.range planes.length).zip planes).foldlM (placeLevel p d) (([] : List (ℝ × ℝ × ℝ)), 0)
  return st.1

/-- The loop of `TroughAE.generate_objects` over the centres, `n` the number of the first. hyvr/geo/trough_ae.pyx:76-82. -/
noncomputable def makeTroughs (p : TroughParams) (z0 lz : ℝ) (draws : ℕ → TroughDraw) :
    ℕ → List (ℝ × ℝ × ℝ) → Except PyErr (List Trough)
  | _, [] => .ok []
  | n, q :: rest => do
    let axes := troughAxes p z0 lz q.2.2
    let t ← Trough.new p (draws n) q.1 q.2.1 q.2.2 axes.1 axes.2.1 axes.2.2 (draws n).alpha
    let ts ← makeTroughs p z0 lz draws (n + 1) rest
    return t :: ts

/-- `TroughAE.generate_objects`. hyvr/geo/trough_ae.pyx:62-82. -/
noncomputable def generateTroughs (p : TroughParams) (g : Grid) (pd : PlaceDraw) (draws : ℕ → TroughDraw)
    (bottomZmax topZmean : ℝ) : Except PyErr (List Trough) := do
  let te ← match p.teXyz with
    | none => troughPositions p pd bottomZmax topZmean
    | some te => .ok te
  makeTroughs p g.z0 g.lz draws 0 te

end Hyvr
