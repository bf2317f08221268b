import Verif.Model.Facies
import Verif.Model.Grid
import Verif.Py.Num
import Mathlib.Analysis.SpecialFunctions.Complex.Arg
import Mathlib.Analysis.SpecialFunctions.Trigonometric.Basic

/-!
Model of channels: hyvr/geo/channel.pyx and the test and the generation in hyvr/geo/channel_ae.pyx.
-/

namespace Hyvr

open Py Real

/-- The entries of `type_params` used for channels. hyvr/geo/channel.pyx:69-108, hyvr/geo/channel_ae.pyx:103-161. -/
structure ChannelParams where
  lagHeight : ℝ
  lagFacies : ℤ
  struct : String
  facies : List ℤ
  altFacies : Option (List (List ℤ))
  dipsetDist : ℝ
  width : ℝ
  depth : ℝ
  agg : ℝ
  buffer : ℝ
  channelNo : ℕ
  sizeZtrend : Option (ℝ × ℝ)

/-- Random numbers of one channel: `dip` (`uniform`), `shift` (`uniform(0, layer_dist)`), `facies` (`choice`), draws of the
layer sequence. hyvr/geo/channel.pyx:85-89, 104, 107-108. -/
structure ChannelDraw where
  dip : ℝ
  shift : ℝ
  facies : ℕ
  layers : ℕ → ℕ

/-- One centreline point: `x_center[i], y_center[i], vx[i], vy[i]`. -/
structure CPoint where
  x : ℝ
  y : ℝ
  vx : ℝ
  vy : ℝ

/-- Attributes of a `Channel`; those never set (`azim`, and those of the other structure) have Cython's default 0.
hyvr/geo/channel.pyx:15-27. `dont_check` is a separate state, `num_ha` is handled in `Verif/Model/Strata.lean`. -/
structure Channel where
  pts : List CPoint
  a : ℝ
  width : ℝ
  depth : ℝ
  minDxDy : ℝ
  zmin : ℝ
  zmax : ℝ
  ztop : ℝ
  azim : ℝ
  dip : ℝ
  sinDip : ℝ
  cosDip : ℝ
  shift : ℝ
  layerDist : ℝ
  lagHeight : ℝ
  lagFacies : ℤ
  facies : ℤ
  numFacies : ℤ
  table : List ℤ
  dipsets : Bool

/-- The loop summing the distances between successive centreline points. hyvr/geo/channel.pyx:94-98. -/
noncomputable def curveLength : List CPoint → ℝ
  | p :: q :: rest => √((q.x - p.x) ^ 2 + (q.y - p.y) ^ 2) + curveLength (q :: rest)
  | _ => 0

/-- `Channel.__init__`. hyvr/geo/channel.pyx:30-108. `ZeroDivisionError` for zero width. -/
noncomputable def Channel.new (p : ChannelParams) (d : ChannelDraw) (g : Grid) (pts : List CPoint) (z width depth : ℝ) :
    Except PyErr Channel :=
  if width = 0 then .error .zeroDivision
  else
    let c : Channel :=
      { pts, a := 4 * depth / width ^ 2, width, depth, minDxDy := min g.dx g.dy, zmin := z - depth, zmax := z, ztop := z
        azim := 0, dip := d.dip, sinDip := 0, cosDip := 0, shift := 0, layerDist := 0, lagHeight := p.lagHeight
        lagFacies := p.lagFacies, facies := 0, numFacies := 0, table := [], dipsets := false }
    if p.struct = "dip" then do
      let s := sin (d.dip * π / 180)
      let num : ℤ := pyInt ((⌈curveLength pts * s / p.dipsetDist + d.shift⌉ : ℝ) + (⌈depth / p.dipsetDist⌉ : ℝ)) + 10
      let table ← layerTable p.dipsetDist num p.facies p.altFacies d.layers
      return { c with dipsets := true, layerDist := p.dipsetDist, sinDip := s, cosDip := cos (d.dip * π / 180)
                      shift := d.shift, numFacies := num, table }
    else do
      let f ← choice p.facies d.facies
      return { c with facies := f }

/-- Local variables of the loop over the centreline with dip sets. hyvr/geo/channel_ae.pyx:227-247. -/
structure Scan where
  along : ℝ
  alongTmp : ℝ
  dist : ℝ
  vx : ℝ
  vy : ℝ
  weights : ℝ
  prev : Option CPoint

/-- One pass of that loop. hyvr/geo/channel_ae.pyx:234-247. The unused `closest_idx` is left out. -/
noncomputable def scanStep (x y : ℝ) (s : Scan) (q : CPoint) : Scan :=
  let tmp := match s.prev with
    | some p => s.alongTmp + √((q.x - p.x) ^ 2 + (q.y - p.y) ^ 2)
    | none => s.alongTmp
  let dist := √((x - q.x) ^ 2 + (y - q.y) ^ 2)
  let weight := 1 / (dist + 1 / 10 ^ 20)
  { along := if dist < s.dist then tmp else s.along
    alongTmp := tmp
    dist := if dist < s.dist then dist else s.dist
    vx := s.vx + q.vx * weight
    vy := s.vy + q.vy * weight
    weights := s.weights + weight
    prev := some q }

/-- The whole loop. hyvr/geo/channel_ae.pyx:227-247. -/
noncomputable def scanDip (pts : List CPoint) (x y : ℝ) : Scan :=
  pts.foldl (scanStep x y) { along := 0, alongTmp := 0, dist := 10 ^ 100, vx := 0, vy := 0, weights := 0, prev := none }

/-- The loop without dip sets: squared distances, square root at the end. hyvr/geo/channel_ae.pyx:232, 250-256. -/
noncomputable def scanDist (pts : List CPoint) (x y : ℝ) : ℝ :=
  √(pts.foldl (fun m q => if (x - q.x) ^ 2 + (y - q.y) ^ 2 < m then (x - q.x) ^ 2 + (y - q.y) ^ 2 else m) (10 ^ 100))

/-- `xy_dist` after either loop. hyvr/geo/channel_ae.pyx:227-256. -/
noncomputable def Channel.xyDist (c : Channel) (x y : ℝ) : ℝ :=
  if c.dipsets then (scanDip c.pts x y).dist else scanDist c.pts x y

/-- `object_dont_check` of one channel. -/
abbrev Cache := ℕ → ℕ → Bool

/-- Setting one entry to 1. -/
def Cache.mark (k : Cache) (i j : ℕ) : Cache := fun i' j' => if i' = i ∧ j' = j then true else k i' j'

/-- Marking the cells around `(xi, yi)`. hyvr/geo/channel_ae.pyx:261-277. `nx`, `ny` are the grid's numbers of cells. -/
noncomputable def Cache.around (k : Cache) (xi yi nx ny : ℕ) (dx radius : ℝ) : Cache :=
  (List.range (pyInt (radius / dx)).toNat).foldl (fun k i =>
    if i ≤ xi ∧ xi + i < nx then
      (List.range (pyInt (√(radius ^ 2 - (i * dx) ^ 2))).toNat).foldl (fun k j =>
        if j ≤ yi ∧ yi + j < ny then
          (((k.mark (xi + i) (yi + j)).mark (xi + i) (yi - j)).mark (xi - i) (yi + j)).mark (xi - i) (yi - j)
        else k) k
    else k) k

/-- Facies and angles of a point inside. hyvr/geo/channel_ae.pyx:248-249, 284-310. `atan2(vy, vx)` is the argument of `vx + i vy`. -/
noncomputable def Channel.inner (c : Channel) (x y z : ℝ) : Answer ℝ :=
  if z < c.ztop - c.depth + c.lagHeight then .hit c.lagFacies 0 0
  else if c.dipsets then
    let s := scanDip c.pts x y
    let d := s.along * c.sinDip + (z - c.ztop) * c.cosDip + c.shift
    tableHit c.table (pyInt (d / c.layerDist)) (Complex.arg ⟨s.vx / s.weights, s.vy / s.weights⟩ / π * 180) c.dip
  else .hit c.facies c.azim c.dip

/-- `maybe_assign_points_to_object`: answer and new cache. hyvr/geo/channel_ae.pyx:204-316. -/
noncomputable def Channel.test (c : Channel) (g : Grid) (k : Cache) (x y z : ℝ) (xi yi : ℕ) : Answer ℝ × Cache :=
  if z - c.ztop > 0 then (.miss, k)
  else if k xi yi then (.miss, k)
  else
    let radius := c.xyDist x y - c.width
    let k1 := if radius > c.minDxDy then k.around xi yi g.nx g.ny g.dx radius else k
    if z - c.ztop ≥ c.a * c.xyDist x y ^ 2 - c.depth then (c.inner x y z, k1)
    else (.miss, k1.mark xi yi)

/-- The initial cache. hyvr/geo/channel.pyx:41. -/
def Cache.empty : Cache := fun _ _ => false

/-! ### Generation of the channels of an AE -/

/-- `zfactor` at elevation `z` inside the loop. hyvr/geo/channel_ae.pyx:127-130. -/
noncomputable def channelFactor (p : ChannelParams) (g : Grid) (z : ℝ) : ℝ :=
  match p.sizeZtrend with
  | some (f0, f1) => interp2 z g.z0 g.zmax f0 f1
  | none => 1

/-- `np.interp(z, [grid.z0, grid.zmax], *size_ztrend)` passes the first factor as array of values and the second as `left`: numpy
raises `ValueError` because a number is not an array of two values. hyvr/geo/channel_ae.pyx:113-117. -/
noncomputable def channelBufferFactor (p : ChannelParams) : Except PyErr ℝ :=
  match p.sizeZtrend with
  | some _ => .error .valueError
  | none => .ok 1

/-- `for i in range(n_channels)` on one level. `curve i width` is the centreline of channel `i` (modelled in
`Verif/Model/Ferguson.lean`), `n` the number of the first channel made. hyvr/geo/channel_ae.pyx:131-132, 134-161. -/
noncomputable def channelsOnLevel (p : ChannelParams) (g : Grid) (draws : ℕ → ChannelDraw) (curve : ℕ → ℝ → Except PyErr (List CPoint))
    (z : ℝ) : ℕ → ℕ → Except PyErr (List Channel)
  | 0, _ => .ok []
  | m + 1, n => do
    let pts ← curve n (p.width * channelFactor p g z)
    let c ← Channel.new p (draws n) g pts z (p.width * channelFactor p g z) (p.depth * channelFactor p g z)
    let rest ← channelsOnLevel p g draws curve z m (n + 1)
    return c :: rest

/-- `while z > zbottom`; `none` if the fuel does not suffice. hyvr/geo/channel_ae.pyx:122-163. -/
noncomputable def channelLevels (p : ChannelParams) (g : Grid) (draws : ℕ → ChannelDraw) (curve : ℕ → ℝ → Except PyErr (List CPoint))
    (zbottom : ℝ) : ℕ → ℝ → ℕ → Option (Except PyErr (List Channel))
  | 0, z, _ => if z > zbottom then none else some (.ok [])
  | fuel + 1, z, n =>
    if z > zbottom then
      match channelsOnLevel p g draws curve z p.channelNo n with
      | .error e => some (.error e)
      | .ok cs => match channelLevels p g draws curve zbottom fuel (z - p.agg) (n + p.channelNo) with
        | none => none
        | some (.error e) => some (.error e)
        | some (.ok rest) => some (.ok (cs ++ rest))
    else some (.ok [])

/-- `ChannelAE.generate_objects`. hyvr/geo/channel_ae.pyx:103-163. `bottomZmean`, `topZmean` are the mean heights of the AE's
surfaces. -/
noncomputable def generateChannels (p : ChannelParams) (g : Grid) (draws : ℕ → ChannelDraw) (curve : ℕ → ℝ → Except PyErr (List CPoint))
    (bottomZmean topZmean : ℝ) (fuel : ℕ) : Option (Except PyErr (List Channel)) :=
  match channelBufferFactor p with
  | .error e => some (.error e)
  | .ok f => channelLevels p g draws curve (bottomZmean + p.depth * f * p.buffer) fuel (topZmean - p.agg) 0

end Hyvr
