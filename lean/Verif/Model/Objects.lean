import Verif.Model.Generate
import Verif.Model.Sheet
import Verif.Model.Trough
import Verif.Model.Ferguson

/-!
Placing of troughs, channels and the layers of sheets from a parsed ini-file: how hyvr/geo/trough_ae.pyx, hyvr/geo/trough_utils.py,
hyvr/geo/trough.pyx, hyvr/geo/channel_ae.pyx, hyvr/geo/channel.pyx and hyvr/geo/sheet.py read the element sections and draw random
numbers. With this, generation from an ini-file depends on random numbers only.

Simplification: all element sections are read before the first stratum is generated, in the code each when it is used.
-/

namespace Hyvr

open Py Real

/-! ### Reading of the element sections -/

/-- The two arguments of `np.random.uniform(*range)`. hyvr/geo/sheet.py:46-47, 82-83, hyvr/geo/trough.pyx:118-119, 154-155, 176, 187,
hyvr/geo/trough_utils.py:70, hyvr/geo/channel.pyx:85, 107. -/
def rangeOf (v : Val) : Except PyErr (ℚ × ℚ) := do
  let l ← numsOf v
  pairOf l

/-- A list of facies numbers. hyvr/utils.py:396, hyvr/geo/sheet.py:84. -/
def wholesOf (v : Val) : Except PyErr (List ℤ) := do
  let l ← pyItems v
  mapPy wholeOf l

/-- `type_params['altfacies']`: `None` or one list for each facies. hyvr/utils.py:399-404. -/
def altOf (v : Val) : Except PyErr (Option (List (List ℤ))) :=
  if v = .leaf .none then .ok none
  else do
    let l ← pyItems v
    let rows ← mapPy wholesOf l
    return some rows

/-- A layer distance; a missing one is 0, see `layerTable`. hyvr/geo/sheet.py:43, hyvr/geo/trough.pyx:125, 182, hyvr/geo/channel.pyx:84. -/
def distOf (v : Val) : Except PyErr ℚ := if v = .leaf .none then .ok 0 else numOf v

/-- `type_params['structure']`, where `flat` has been replaced. hyvr/geo/ae_types.py:41-42. -/
def structOf (v : Val) : Except PyErr String := do
  let s ← asText v
  return if s = "flat".toList then "massive" else String.ofList s

/-- The entries for the internal structure that all geometries share. hyvr/geo/sheet.py:37-84, hyvr/geo/trough.pyx:111-187,
hyvr/geo/channel.pyx:74-108. -/
structure InsideRead where
  struct : String
  facies : List ℤ
  altFacies : Option (List (List ℤ))
  azimuth : ℚ × ℚ
  dip : ℚ × ℚ
  dipsetDist : ℚ

/-- Reading them. hyvr/geo/sheet.py:37-84, hyvr/geo/trough.pyx:111-187, hyvr/geo/channel.pyx:74-108. Channels do not use `azimuth`. -/
def readInside (d : Dict) : Except PyErr InsideRead := do
  let sv ← d.get "structure"
  let struct ← structOf sv
  let fv ← d.get "facies"
  let facies ← wholesOf fv
  let av ← d.get "altfacies"
  let altFacies ← altOf av
  let zv ← d.get "azimuth"
  let azimuth ← rangeOf zv
  let pv ← d.get "dip"
  let dip ← rangeOf pv
  let dv ← d.get "dipset_dist"
  let dipsetDist ← distOf dv
  return { struct, facies, altFacies, azimuth, dip, dipsetDist }

/-- The entries for erosive objects that troughs and channels share. hyvr/geo/trough.pyx:98-99, hyvr/geo/channel.pyx:69-70,
hyvr/geo/trough_utils.py:28-31, 67-69, hyvr/geo/channel_ae.pyx:112-119. -/
structure ErosiveRead where
  lagHeight : ℚ
  lagFacies : ℤ
  agg : ℚ
  buffer : ℚ
  width : ℚ
  depth : ℚ
  sizeZtrend : Option (ℚ × ℚ)

/-- Reading them. hyvr/geo/trough.pyx:98-99, hyvr/geo/channel.pyx:69-70, hyvr/geo/trough_utils.py:28-31, 58-69,
hyvr/geo/channel_ae.pyx:112-119. -/
def readErosive (d : Dict) : Except PyErr ErosiveRead := do
  let hv ← d.get "lag_height"
  let lagHeight ← numOf hv
  let fv ← d.get "lag_facies"
  let lagFacies ← wholeOf fv
  let av ← d.get "agg"
  let agg ← numOf av
  let bv ← d.get "buffer"
  let buffer ← numOf bv
  let wv ← d.get "width"
  let width ← numOf wv
  let dv ← d.get "depth"
  let depth ← numOf dv
  let tv ← d.get "size_ztrend"
  let sizeZtrend ← trendOf tv
  return { lagHeight, lagFacies, agg, buffer, width, depth, sizeZtrend }

/-- `type_params['migrate']`: `None` or mean and standard deviation in both directions. hyvr/geo/trough_utils.py:36, 49-52. -/
def migrateOf (v : Val) : Except PyErr (Option ((ℚ × ℚ) × (ℚ × ℚ))) :=
  if v = .leaf .none then .ok none
  else do
    let l ← numsOf v
    match l with
    | a :: b :: c :: d :: _ => return some ((a, b), (c, d))
    | _ => .error .indexError

/-- One entry of `te_xyz`, unpacked into three numbers. hyvr/geo/trough_ae.pyx:76. -/
def pointOf (v : Val) : Except PyErr (ℚ × ℚ × ℚ) := do
  let l ← numsOf v
  match l with
  | [a, b, c] => return (a, b, c)
  | _ => .error .valueError

/-- `type_params['te_xyz']`: `None` or the centres of the troughs. hyvr/geo/trough_ae.pyx:68-76. -/
def pointsOf (v : Val) : Except PyErr (Option (List (ℚ × ℚ × ℚ))) :=
  if v = .leaf .none then .ok none
  else do
    let l ← pyItems v
    let pts ← mapPy pointOf l
    return some pts

/-- The entries read for sheets. hyvr/geo/sheet.py:37-84. -/
structure SheetRead where
  inside : InsideRead

/-- The entries read for troughs. hyvr/geo/trough_ae.pyx:62-82, hyvr/geo/trough_utils.py:28-70, hyvr/geo/trough.pyx:98-187. -/
structure TroughRead where
  inside : InsideRead
  erosive : ErosiveRead
  bulbsetDist : ℚ
  length : ℚ
  density : ℚ
  paleoflow : ℚ × ℚ
  migrate : Option ((ℚ × ℚ) × (ℚ × ℚ))
  teXyz : Option (List (ℚ × ℚ × ℚ))

/-- The entries read for channels. hyvr/geo/channel_ae.pyx:103-163, hyvr/geo/channel.pyx:69-108. -/
structure ChannelRead where
  inside : InsideRead
  erosive : ErosiveRead
  channelNo : ℤ
  h : ℚ
  k : ℚ
  ds : ℚ
  epsFactor : ℚ
  flowAngle : ℚ
  mig : ℚ

/-- Reading a trough section. hyvr/geo/trough_ae.pyx:62-82, hyvr/geo/trough_utils.py:28-70, hyvr/geo/trough.pyx:98-187. -/
def readTrough (d : Dict) : Except PyErr TroughRead := do
  let inside ← readInside d
  let erosive ← readErosive d
  let bv ← d.get "bulbset_dist"
  let bulbsetDist ← distOf bv
  let lv ← d.get "length"
  let length ← numOf lv
  let dv ← d.get "trough_density"
  let density ← numOf dv
  let pv ← d.get "paleoflow"
  let paleoflow ← rangeOf pv
  let mv ← d.get "migrate"
  let migrate ← migrateOf mv
  let tv ← d.get "te_xyz"
  let teXyz ← pointsOf tv
  return { inside, erosive, bulbsetDist, length, density, paleoflow, migrate, teXyz }

/-- Reading a channel section. hyvr/geo/channel_ae.pyx:103-163, hyvr/geo/channel.pyx:69-108. Simplification: `mig` is a number; its default is
0, and `None` cannot be written in an ini-file. -/
def readChannel (d : Dict) : Except PyErr ChannelRead := do
  let inside ← readInside d
  let erosive ← readErosive d
  let nv ← d.get "channel_no"
  let channelNo ← wholeOf nv
  let hv ← d.get "h"
  let h ← numOf hv
  let kv ← d.get "k"
  let k ← numOf kv
  let sv ← d.get "ds"
  let ds ← numOf sv
  let ev ← d.get "eps_factor"
  let epsFactor ← numOf ev
  let fv ← d.get "flow_angle"
  let flowAngle ← numOf fv
  let mv ← d.get "mig"
  let mig ← numOf mv
  return { inside, erosive, channelNo, h, k, ds, epsFactor, flowAngle, mig }

/-- What is read from an element section, by geometry. hyvr/geo/ae_types.py:36-68. -/
inductive ShapeRead
  | sheet (p : SheetRead)
  | trough (p : TroughRead)
  | channel (p : ChannelRead)

/-- The geometry decides which entries are read. hyvr/geo/ae_types.py:61-68. -/
def readShape (d : Dict) : Except PyErr ShapeRead := do
  let gv ← d.get "geometry"
  let g ← asText gv
  if g = "trough".toList then do
    let p ← readTrough d
    return .trough p
  else if g = "channel".toList then do
    let p ← readChannel d
    return .channel p
  else if g = "sheet".toList then do
    let p ← readInside d
    return .sheet { inside := p }
  else .error .valueError

/-- All element sections, by name. hyvr/geo/model.py:93-121. -/
def readShapes (P : Parsed) : Except PyErr (List (String × ShapeRead)) :=
  mapPy (fun x : String × Element => do
    let s ← readShape x.2.dict
    return (x.1, s)) P.elements

/-- The option `periodic`, used as a condition. hyvr/geo/trough_ae.pyx:144. -/
def boolOf : Val → Except PyErr Bool
  | .leaf (.bool b) => .ok b
  | _ => .error .typeError

/-- The grid. hyvr/geo/model.py:39-50. -/
noncomputable def readGrid (d : Dict) : Except PyErr Grid := do
  let v ← d.get "x0"
  let x0 ← numOf v
  let v ← d.get "y0"
  let y0 ← numOf v
  let v ← d.get "z0"
  let z0 ← numOf v
  let v ← d.get "dx"
  let dx ← numOf v
  let v ← d.get "dy"
  let dy ← numOf v
  let v ← d.get "dz"
  let dz ← numOf v
  let v ← d.get "lx"
  let lx ← numOf v
  let v ← d.get "ly"
  let ly ← numOf v
  let v ← d.get "lz"
  let lz ← numOf v
  let v ← d.get "periodic"
  let periodic ← boolOf v
  return { x0, y0, z0, dx, dy, dz, lx, ly, lz, periodic }

/-! ### In calculations with real numbers -/

/-- What sheets are made of. hyvr/geo/sheet.py:37-84. -/
noncomputable def SheetRead.params (p : SheetRead) : SheetParams :=
  { struct := p.inside.struct, facies := p.inside.facies, altFacies := p.inside.altFacies, dipsetDist := p.inside.dipsetDist }

/-- What troughs are made of. hyvr/geo/trough_utils.py:28-70, hyvr/geo/trough.pyx:98-187. -/
noncomputable def TroughRead.params (p : TroughRead) : TroughParams :=
  { lagHeight := p.erosive.lagHeight, lagFacies := p.erosive.lagFacies, struct := p.inside.struct, facies := p.inside.facies
    altFacies := p.inside.altFacies, dipsetDist := p.inside.dipsetDist, bulbsetDist := p.bulbsetDist, length := p.length
    width := p.erosive.width, depth := p.erosive.depth, agg := p.erosive.agg, buffer := p.erosive.buffer
    migrate := p.migrate.isSome, sizeZtrend := p.erosive.sizeZtrend.map fun f => (f.1, f.2)
    teXyz := p.teXyz.map fun l => l.map fun q => (q.1, q.2.1, q.2.2) }

/-- What channels are made of. hyvr/geo/channel_ae.pyx:103-163, hyvr/geo/channel.pyx:69-108. -/
noncomputable def ChannelRead.params (p : ChannelRead) : ChannelParams :=
  { lagHeight := p.erosive.lagHeight, lagFacies := p.erosive.lagFacies, struct := p.inside.struct, facies := p.inside.facies
    altFacies := p.inside.altFacies, dipsetDist := p.inside.dipsetDist, width := p.erosive.width, depth := p.erosive.depth
    agg := p.erosive.agg, buffer := p.erosive.buffer, channelNo := p.channelNo.toNat
    sizeZtrend := p.erosive.sizeZtrend.map fun f => (f.1, f.2) }

/-! ### Random numbers -/

/-- What `np.random` returns while the objects of one AE are placed: `count lam` numbers of troughs on each level, with Poisson distribution of mean `lam`, `pos`, `alpha`,
`azim`, `dip`, `shift`, `start`, `mig` uniform numbers, `move`, `noise` normal numbers, `kind`, `facies`, `layers` choices.
hyvr/geo/trough_utils.py:38-53, 70, hyvr/geo/trough.pyx:113-187, hyvr/geo/channel_ae.pyx:108, 161, hyvr/geo/channel.pyx:85-108,
hyvr/geo/channel_utils.py:104-137, hyvr/geo/sheet.py:46-84. Also not fixed by the model: `skip`, whether the cache of channel `n` makes the test skip a
cell (hyvr/geo/channel_ae.pyx:219-220; it is a state that depends on the cells tested before, see `Channel.test`; `Model/Cached`
has it as state, and C114 compares the two), and `stray`, what is read from outside the table of the layers of object `n` (see `tableHit`). -/
structure ObjRandoms where
  count : ℝ → ℕ → ℕ
  pos : ℕ → ℕ → ℝ × ℝ
  move : ℕ → ℕ → ℝ × ℝ
  alpha : ℕ → ℝ
  azim : ℕ → ℝ
  dip : ℕ → ℝ
  shift : ℕ → ℝ
  kind : ℕ → ℕ
  facies : ℕ → ℕ
  layers : ℕ → ℕ → ℕ
  start : ℕ → ℝ
  mig : ℕ → ℕ → ℝ
  noise : ℕ → ℕ → ℝ
  skip : ℕ → ℕ → ℕ → ℝ → Bool
  stray : ℕ → ℤ → ℤ × Option ℝ × Option ℝ

/-- `np.random.uniform(low, high)` from a uniform number in [0, 1). numpy's documented behaviour. -/
noncomputable def uniform (low high u : ℝ) : ℝ := low + (high - low) * u

/-- The random numbers of sheet `n`. hyvr/geo/sheet.py:46-47, 73, 79, 82-84. -/
noncomputable def ObjRandoms.sheet (r : ObjRandoms) (p : SheetRead) (n : ℕ) : SheetDraw :=
  { azim := uniform p.inside.azimuth.1 p.inside.azimuth.2 (r.azim n), dip := uniform p.inside.dip.1 p.inside.dip.2 (r.dip n)
    u := r.shift n, facies := r.facies n, layers := r.layers n }

/-- The random numbers of trough `n`; the shift is `uniform(0, layer_dist)` for dipping layers and `uniform()` for bulb sets.
hyvr/geo/trough.pyx:111-187, hyvr/geo/trough_utils.py:70. -/
noncomputable def ObjRandoms.trough (r : ObjRandoms) (p : TroughRead) (n : ℕ) : TroughDraw :=
  { alpha := uniform p.paleoflow.1 p.paleoflow.2 (r.alpha n), kind := r.kind n, facies := r.facies n
    azim := uniform p.inside.azimuth.1 p.inside.azimuth.2 (r.azim n), dip := uniform p.inside.dip.1 p.inside.dip.2 (r.dip n)
    shift := match structureNumber p.inside.struct (r.kind n) with
      | .ok 1 => uniform 0 p.inside.dipsetDist (r.shift n)
      | _ => r.shift n
    layers := r.layers n }

/-- The random numbers of the positions. hyvr/geo/trough_utils.py:38-53. -/
noncomputable def ObjRandoms.place (r : ObjRandoms) (p : TroughRead) (g : Grid) : PlaceDraw :=
  { count := r.count (p.density * g.lx * g.ly)
    pos := fun i k => (uniform g.x0 g.xmax (r.pos i k).1, uniform g.y0 g.ymax (r.pos i k).2)
    move := fun i k => match p.migrate with
      | some m => (m.1.1 + m.1.2 * (r.move i k).1, m.2.1 + m.2.2 * (r.move i k).2)
      | none => (0, 0) }

/-- The random numbers of channel `n`. hyvr/geo/channel.pyx:85-108. -/
noncomputable def ObjRandoms.channel (r : ObjRandoms) (p : ChannelRead) (n : ℕ) : ChannelDraw :=
  { dip := uniform p.inside.dip.1 p.inside.dip.2 (r.dip n), shift := uniform 0 p.inside.dipsetDist (r.shift n)
    facies := r.facies n, layers := r.layers n }

/-! ### Placing -/

/-- The exceptions of `np.arange` with step 0, of `np.random.poisson` with a negative mean and of `np.random.normal` with a negative
standard deviation; `planes` is the number of levels. They do not occur if the centres are given. hyvr/geo/trough_utils.py:31, 38-39, 49-52. -/
noncomputable def troughGuard (p : TroughRead) (g : Grid) (r : ObjRandoms) (planes : ℕ) : Except PyErr Unit :=
  if p.teXyz.isSome then .ok ()
  else if p.erosive.agg = 0 then .error .zeroDivision
  else if 0 < planes ∧ p.density * g.lx * g.ly < 0 then .error .valueError
  else match p.migrate with
    | some m => if 1 < planes ∧ 0 < r.count (p.density * g.lx * g.ly) 0 ∧ (m.1.2 < 0 ∨ m.2.2 < 0) then .error .valueError else .ok ()
    | none => .ok ()

/-- The troughs of an AE between two surfaces. hyvr/geo/trough_ae.pyx:62-82. -/
noncomputable def placeTroughs (p : TroughRead) (g : Grid) (r : ObjRandoms) (bottom top : Surface ℝ) : Except PyErr (List Trough) := do
  let _ ← troughGuard p g r (planesZ p.params bottom.zmax top.zmean).length
  generateTroughs p.params g (r.place p g) (r.trough p) bottom.zmax top.zmean

/-- The centreline of channel `n`. hyvr/geo/channel_ae.pyx:103-108, 131-161. -/
noncomputable def ObjRandoms.curve (r : ObjRandoms) (p : ChannelRead) (g : Grid) : ℕ → ℝ → Except PyErr (List CPoint) :=
  channelCurve p.params g p.h p.k p.ds p.epsFactor (p.flowAngle * π / 180)
    (fun i => uniform (-(domainWidth g (p.flowAngle * π / 180) / 2)) (domainWidth g (p.flowAngle * π / 180) / 2) (r.start i))
    (some fun l i => uniform (-p.mig) p.mig (r.mig l i)) r.noise

/-- The channels of an AE between two surfaces; `np.random.uniform` raises `ValueError` for a negative number of values.
hyvr/geo/channel_ae.pyx:103-163. -/
noncomputable def placeChannels (p : ChannelRead) (g : Grid) (r : ObjRandoms) (fuel : ℕ) (bottom top : Surface ℝ) :
    Option (Except PyErr (List Channel)) :=
  if p.channelNo < 0 then some (.error .valueError)
  else generateChannels p.params g (r.channel p) (r.curve p g) bottom.zmean top.zmean fuel

/-! ### What point assignment gets -/

/-- Facies and angles that a test writes, `none` if it rejects the cell. hyvr/geo/trough_ae.pyx:154-292, hyvr/geo/channel_ae.pyx:206-316,
hyvr/geo/sheet_ae.py:145-160. `stray` is what is read outside of a table. The exception of an unknown structure counts as a rejection; it does not
occur, as the constructor has raised it before (hyvr/geo/trough.pyx:188-190). -/
def Answer.toCell (stray : ℤ → ℤ × Option ℝ × Option ℝ) : Answer ℝ → Option (ℤ × Option ℝ × Option ℝ)
  | .miss => none
  | .hit f az dp => some (f, some az, some dp)
  | .outside n => some (stray n)
  | .error _ => none

/-- Entry `i` of a list of coordinates `grid.x` or `grid.y`. hyvr/assign_points.py:88-89. -/
def coord (l : List ℝ) (i : ℕ) : ℝ := l.getD i 0

/-- A trough as an object of the search: vertical range and answer for the cell of column `(i, j)`. hyvr/geo/ae_realization.py:163-169,
hyvr/assign_points.py:291-300. -/
noncomputable def Trough.toObj (g : Grid) (stray : ℤ → ℤ × Option ℝ × Option ℝ) (t : Trough) : GObj ℝ :=
  { zmin := t.zmin, zmax := t.zmax, numHa := 0
    answer := fun i j z => (t.test g (coord g.x i) (coord g.y j) z).toCell stray }

/-- A channel as an object of the search. hyvr/geo/ae_realization.py:163-169, hyvr/assign_points.py:291-300. -/
noncomputable def Channel.toObj (g : Grid) (skip : ℕ → ℕ → ℝ → Bool) (stray : ℤ → ℤ × Option ℝ × Option ℝ) (c : Channel) : GObj ℝ :=
  { zmin := c.zmin, zmax := c.zmax, numHa := 0
    answer := fun i j z =>
      if skip i j z then none else (c.test g Cache.empty (coord g.x i) (coord g.y j) z i j).1.toCell stray
    marks := fun i j z k => (c.test g k (coord g.x i) (coord g.y j) z i j).2 }

/-- Numbering the objects of a list. hyvr/geo/ae_realization.py:157-169. -/
def numbered {β γ : Type} (f : ℕ → β → γ) : ℕ → List β → List γ
  | _, [] => []
  | n, b :: rest => f n b :: numbered f (n + 1) rest

/-- The objects of a trough or channel AE. hyvr/geo/ae_types.py:61-68, hyvr/geo/trough_ae.pyx:62-82, hyvr/geo/channel_ae.pyx:103-163. -/
noncomputable def objectsOf (g : Grid) (shapes : List (String × ShapeRead)) (r : ObjRandoms) (fuel : ℕ) (t : ElemParams ℝ)
    (bottom top : Surface ℝ) : Option (Except PyErr (List (GObj ℝ))) :=
  match shapes.lookup t.name with
  | some (.trough p) => some ((placeTroughs p g r bottom top).map (numbered (fun n => Trough.toObj g (r.stray n)) 0))
  | some (.channel p) => (placeChannels p g r fuel bottom top).map fun e =>
      e.map (numbered (fun n => Channel.toObj g (r.skip n) (r.stray n)) 0)
  | _ => some (.error .keyError)

/-- The inside of sheet `n` of an AE, whose bottom has the mean level `zmean`. hyvr/geo/sheet.py:37-84, hyvr/geo/sheet_ae.py:149-160. -/
noncomputable def sheetOf (g : Grid) (shapes : List (String × ShapeRead)) (r : ObjRandoms) (t : ElemParams ℝ) (n : ℕ) (zmean : ℝ) :
    Except PyErr (Payload ℝ) :=
  match shapes.lookup t.name with
  | some (.sheet p) => do
    let s ← SheetObj.new p.params (r.sheet p n) g zmean
    return fun i j z => ((s.inner (coord g.x i) (coord g.y j) z).toCell (r.stray n)).getD (r.stray n 0)
  | _ => .error .keyError

/-- The draws of all strata with the placing of objects, `o si n` being the random numbers of the objects of AE `n` of stratum `si`.
hyvr/geo/stratum.py:92. -/
noncomputable def withObjects (g : Grid) (shapes : List (String × ShapeRead)) (o : ℕ → ℕ → ObjRandoms) (d : ℕ → StratumDraw ℝ) (si : ℕ) :
    StratumDraw ℝ :=
  { d si with aes := fun n => { (d si).aes n with objs := objectsOf g shapes (o si n), sheet := sheetOf g shapes (o si n) } }

/-- `generate_model` on a parsed ini-file with its objects. `d` contributes the random fields and the numbers of passes granted to loops.
hyvr/geo/model.py:39-50, 81-149. -/
noncomputable def generateObjects (P : Parsed) (ids : List (String × ℕ)) (r : Randoms ℝ) (o : ℕ → ℕ → ObjRandoms) (d : ℕ → StratumDraw ℝ) :
    Except Stop (GenModel ℝ × Contacts ℝ) := do
  let g ← liftErr (readGrid P.model)
  let shapes ← liftErr (readShapes P)
  generateIni P ids r (withObjects g shapes o d)

end Hyvr
