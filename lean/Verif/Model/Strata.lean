import Verif.Model.Surface
import Verif.Model.Assign
import Verif.Py.Num

/-!
Model of the generation of strata, AEs and sheets:
hyvr/geo/model.py, hyvr/geo/stratum.py, hyvr/geo/ae_types.py, hyvr/geo/ae_realization.py, hyvr/geo/sheet_ae.py,
hyvr/geo/sheet.py.

Random numbers are arguments. `while` loops have a fuel argument; running out of fuel is an outcome of its own.
-/

namespace Hyvr

open Py

variable {α : Type} [Field α] [LinearOrder α]

/-- Why generation stopped without a result: a Python exception, or a `while` loop that did not end within the given
number of iterations (hyvr/geo/stratum.py:51, hyvr/geo/sheet_ae.py:77, hyvr/geo/channel_ae.pyx:123). -/
inductive Stop
  | err (e : PyErr)
  | aeRunning
  | sheetRunning
  | channelRunning
  deriving DecidableEq

/-- Exceptions inside the loops are passed on (no `try` in the modelled code: hyvr/geo/stratum.py:51-107). -/
def liftErr {β : Type} : Except PyErr β → Except Stop β
  | .ok b => .ok b
  | .error e => .error (.err e)

/-! ### Element types -/

/-- The entries of an element section (`type_params`) that generation reads, without `contact_model`.
hyvr/geo/ae_types.py:36-38, hyvr/geo/ae_realization.py:75-100, hyvr/geo/sheet_ae.py:62-71. A missing angle (NaN) is `none`,
a missing background facies is -1 (hyvr/input/parameters.py:269-270). -/
structure ElemParams (α : Type) where
  name : String
  geometry : String
  aeId : ℤ
  bgFacies : ℤ
  bgAzim : Option α
  bgDip : Option α
  lensThickness : α
  sizeZtrend : Option (α × α)

/-- The attributes of a stratum that its AEs and the AE loop read. hyvr/geo/stratum.py:31-37, 58, 62. -/
structure StratumParams (α : Type) where
  bgFacies : ℤ
  bgAzim : Option α
  bgDip : Option α
  aeZMean : List α
  avulProb : α

/-- What the grid contributes to generation. hyvr/geo/model.py:109,113, hyvr/geo/sheet_ae.py:67,
hyvr/geo/grid.py:41,44,50. -/
structure GridZ (α : Type) where
  z0 : α
  lz : α

/-- `grid.zmax`. hyvr/geo/grid.py:50. -/
def GridZ.zmax (g : GridZ α) : α := g.z0 + g.lz

/-! ### Objects and AEs -/

/-- A geometrical object: reported vertical range, its answer for a cell (facies and angles) and its attribute
`num_ha`. hyvr/geo/ae_realization.py:112-140, hyvr/geo/sheet_ae.py:107-160. The answer does not include the ha number,
which is read from `object_num_ha`. `marks` is what a test does to the array `dont_check` of the object; only channels have one
(hyvr/geo/channel_ae.pyx:261-277, 314). -/
structure GObj (α : Type) where
  zmin : α
  zmax : α
  answer : ℕ → ℕ → α → Option (ℤ × Option α × Option α)
  numHa : ℤ
  marks : ℕ → ℕ → α → (ℕ → ℕ → Bool) → ℕ → ℕ → Bool := fun _ _ _ k => k

/-- `self.zmin`, `self.zmax` of an AE or stratum. hyvr/geo/ae_realization.py:85-86, hyvr/geo/stratum.py:40-41. -/
structure Extent (α : Type) where
  zmin : α
  zmax : α

/-- The update of the extent in `_add_object`. hyvr/geo/ae_realization.py:164-169; the same statements for AEs of a stratum
are hyvr/geo/stratum.py:95-102. -/
def Extent.add (e : Extent α) (zmin zmax : α) : Extent α :=
  { zmin := if zmin < e.zmin then zmin else e.zmin
    zmax := if zmax > e.zmax then zmax else e.zmax }

/-- An AE realization after construction. `objectNumHa` is the array copied from the objects' `num_ha`.
hyvr/geo/ae_realization.py:73-108, 123-129, `num`: hyvr/geo/model.py:145. -/
structure AEReal (α : Type) where
  bottom : ℕ
  top : ℕ
  name : String
  isSheet : Bool
  typeId : ℤ
  ext : Extent α
  bgFacies : ℤ
  bgAzim : Option α
  bgDip : Option α
  objs : List (GObj α)
  objectNumHa : List ℤ
  num : ℤ

/-- The three background choices. hyvr/geo/ae_realization.py:88-100. -/
def bgValues (t : ElemParams α) (s : StratumParams α) : ℤ × Option α × Option α :=
  (if t.bgFacies ≠ -1 then t.bgFacies else s.bgFacies,
   match t.bgAzim with | some v => some v | none => s.bgAzim,
   match t.bgDip with | some v => some v | none => s.bgDip)

/-! ### Sheets -/

/-- A `Sheet` object directly after creation: its two surfaces, the copied extrema and the mean level of the bottom, which its layers
refer to. hyvr/geo/sheet.py:33-36, 71-73. -/
structure SheetRaw (α : Type) where
  bottom : ℕ
  top : ℕ
  zmin : α
  zmax : α
  zmean : α

/-- The constructor's reads of the two surfaces. hyvr/geo/sheet.py:33-36, 71-73. -/
def SheetRaw.new (h : Heap α) (bottom top : ℕ) : SheetRaw α :=
  { bottom, top, zmin := (h.get bottom).zmin, zmax := (h.get top).zmax, zmean := (h.get bottom).zmean }

/-- `thickness`, hyvr/geo/sheet_ae.py:62-71. -/
def sheetThickness (g : GridZ α) (t : ElemParams α) (e : Extent α) : α :=
  if t.lensThickness = -1 then e.zmax - e.zmin
  else match t.sizeZtrend with
    | some (f0, f1) => t.lensThickness * interp2 ((e.zmin + e.zmax) / 2) g.z0 g.zmax f0 f1
    | none => t.lensThickness

/-- The `while not last_sheet` loop. hyvr/geo/sheet_ae.py:77-102. `zb` is `zbottom`, `top` the variable `top_surface`,
`aeBottom` is `self.bottom_surface`. Result: heap, extent and sheets in order. Note that `self.zmin` in the loop
condition is the running extent. -/
def sheetLoop (aeBottom : ℕ) (thickness : α) :
    ℕ → Heap α → α → ℕ → Extent α → Except Stop (Heap α × Extent α × List (SheetRaw α))
  | 0, _, _, _, _ => .error .sheetRunning
  | fuel + 1, h, zb, top, e =>
    if zb > e.zmin then do
      let (h1, b) ← liftErr (h.create (.flat zb) (fun _ _ => 0))
      let h2 ← liftErr (h1.useLower b top)
      let h3 ← liftErr (h2.useHigher top aeBottom)
      let s := SheetRaw.new h3 b top
      let (h', e', rest) ← sheetLoop aeBottom thickness fuel h3 (zb - thickness) b (e.add s.zmin s.zmax)
      return (h', e', s :: rest)
    else
      let s := SheetRaw.new h aeBottom top
      .ok (h, e.add s.zmin s.zmax, [s])

/-- `create_object_arrays` copies the surface values; the test of `maybe_assign_points_to_object` uses the copies.
`payload` is the facies and the angles of a cell inside (hyvr/geo/sheet_ae.py:149-160, modelled in
`Verif/Model/Sheet.lean`). hyvr/geo/sheet_ae.py:32-45, 140-147. -/
def SheetRaw.toObj (h : Heap α) (payload : ℕ → ℕ → α → ℤ × Option α × Option α) (s : SheetRaw α) : GObj α :=
  { zmin := s.zmin, zmax := s.zmax
    answer := fun i j z =>
      if z < (h.get s.bottom).vals i j ∨ z > (h.get s.top).vals i j then none else some (payload i j z)
    numHa := 0 }

/-- The facies and angles of a cell inside an object. -/
abbrev Payload (α : Type) := ℕ → ℕ → α → ℤ × Option α × Option α

/-- The internal structures of the sheets, `n` the number of the first. hyvr/geo/sheet_ae.py:97. `mk n zmean` is the structure of sheet
number `n` whose bottom had the mean level `zmean`, or the exception of its constructor. Simplification: they are made after the loop, in the code inside
it; an exception there can so come after those of the surfaces. -/
def sheetObjs (h : Heap α) (mk : ℕ → α → Except PyErr (Payload α)) : ℕ → List (SheetRaw α) → Except PyErr (List (GObj α))
  | _, [] => .ok []
  | n, s :: rest => do
    let p ← mk n s.zmean
    let os ← sheetObjs h mk (n + 1) rest
    return s.toObj h p :: os

/-! ### AE realizations -/

/-- Everything random that one pass of the AE loop uses: thickness (`np.random.normal`), the two uniforms of the avulsion,
index of the next AE type, random field of the bottom contact. `objs` places the objects of a trough or channel AE between its bottom and
its top, `none` if a loop did not end in the given number of passes; `sheet` makes the internal structure of a sheet from its number and
the mean level of its bottom. Both are modelled in `Verif/Model/Trough.lean`, `Channel.lean`, `Sheet.lean`, and taken from the ini-file in `Objects.lean`. hyvr/geo/stratum.py:60-63, 72, 80, 92. -/
structure AEDraw (α : Type) where
  height : α
  avulU : α
  avulAmt : α
  next : ℕ
  field : ℕ → ℕ → α
  objs : ℕ → ElemParams α → Surface α → Surface α → Option (Except PyErr (List (GObj α)))
  sheet : ElemParams α → ℕ → α → Except PyErr (Payload α)
  sheetFuel : ℕ

/-- The outcome of placing objects. hyvr/geo/ae_realization.py:103. -/
def liftObjs {β : Type} : Option (Except PyErr β) → Except Stop β
  | some r => liftErr r
  | none => .error .channelRunning

/-- `generate_realization` with the constructor `AERealization.__init__`. hyvr/geo/ae_types.py:45-68,
hyvr/geo/ae_realization.py:73-108, 112-140, 157-169, hyvr/geo/sheet_ae.py:48-102. -/
def genAE (g : GridZ α) (sp : StratumParams α) (t : ElemParams α) (d : AEDraw α) (h : Heap α) (bottom top : ℕ) :
    Except Stop (Heap α × AEReal α) :=
  let e0 : Extent α := { zmin := (h.get bottom).zmin, zmax := (h.get top).zmax }
  let bg := bgValues t sp
  if t.geometry = "trough" ∨ t.geometry = "channel" then do
    let objs ← liftObjs (d.objs d.sheetFuel t (h.get bottom) (h.get top))
    return (h, { bottom, top, name := t.name, isSheet := false, typeId := t.aeId,
                 ext := objs.foldl (fun e o => e.add o.zmin o.zmax) e0,
                 bgFacies := bg.1, bgAzim := bg.2.1, bgDip := bg.2.2,
                 objs := objs, objectNumHa := objs.map GObj.numHa, num := 0 })
  else if t.geometry = "sheet" then do
    let thickness := sheetThickness g t e0
    let (h', e', sheets) ← sheetLoop bottom thickness d.sheetFuel h (e0.zmax - thickness) top e0
    let objs ← liftErr (sheetObjs h' (d.sheet t) 0 sheets)
    return (h', { bottom, top, name := t.name, isSheet := true, typeId := t.aeId, ext := e',
                  bgFacies := bg.1, bgAzim := bg.2.1, bgDip := bg.2.2,
                  objs := objs, objectNumHa := objs.map GObj.numHa, num := 0 })
  else .error (.err .valueError)

/-! ### The AE loop of a stratum -/

/-- The `contact_model` dictionaries of the element types, by element name. They are shared by all strata and all
realizations and get their `z` overwritten. hyvr/geo/stratum.py:78-79. -/
abbrev Contacts (α : Type) := String → ContactModel α

/-- Choice of an AE type: `np.random.choice` returns one of the given types (drawn index `n`), `ValueError` for none.
hyvr/geo/stratum.py:6-8. -/
def chooseType (types : List (ElemParams α)) (n : ℕ) : Except Stop (ElemParams α) :=
  match types[n]? with
  | some t => .ok t
  | none => .error (.err .valueError)

/-- `self.ae_type_names.index(curr_ae_type.name)` followed by `self.params['ae_z_mean'][num_type]`.
hyvr/geo/stratum.py:53, 58. The value parametrises the draw `height`: `np.random.normal` raises `ValueError` for a negative standard
deviation, which is a tenth of the mean (60). -/
def meanHeight (types : List (ElemParams α)) (sp : StratumParams α) (t : ElemParams α) : Except Stop α :=
  match sp.aeZMean[(types.map ElemParams.name).idxOf t.name]? with
  | some m => if m < 0 then .error (.err .valueError) else .ok m
  | none => .error (.err .indexError)

/-- `znow - (height + dz)`. hyvr/geo/stratum.py:62-66. -/
def nextZ (sp : StratumParams α) (d : AEDraw α) (znow : α) : α :=
  znow - (d.height + if d.avulU ≤ sp.avulProb then -d.avulAmt else 0)

/-- Choice of the bottom surface of an AE: the stratum's own bottom, or a new surface of the next type's contact model
with `z` set to `znow`. Result: heap, contact dictionaries, surface, new `znow`. hyvr/geo/stratum.py:73-80. -/
def aeBottom (bottom : ℕ) (h : Heap α) (cms : Contacts α) (nextName : String) (field : ℕ → ℕ → α) (znow : α) :
    Except Stop (Heap α × Contacts α × ℕ × α) :=
  if znow ≤ (h.get bottom).zmean then .ok (h, cms, bottom, (h.get bottom).zmean)
  else do
    let cm : ContactModel α := { cms nextName with z := some znow }
    let (h1, b) ← liftErr (h.create cm field)
    return (h1, Function.update cms nextName cm, b, znow)

/-- The `while znow > self.bottom_surface.zmean` loop. hyvr/geo/stratum.py:51-107. `n` counts the iterations and selects the
draws. Simplification: `self.zmin/zmax`, which the loop only updates, are computed from the list in `genStratum`. -/
def aeGenLoop (g : GridZ α) (sp : StratumParams α) (types : List (ElemParams α)) (bottom : ℕ) (draws : ℕ → AEDraw α) :
    ℕ → ℕ → Heap α → Contacts α → α → ℕ → ElemParams α → Except Stop (Heap α × Contacts α × List (AEReal α))
  | 0, _, h, cms, znow, _, _ =>
    if znow > (h.get bottom).zmean then .error .aeRunning else .ok (h, cms, [])
  | fuel + 1, n, h, cms, znow, top, curr =>
    if znow > (h.get bottom).zmean then do
      let _ ← meanHeight types sp curr
      let next ← chooseType types (draws n).next
      let (h1, cms1, b, znow1) ← aeBottom bottom h cms next.name (draws n).field (nextZ sp (draws n) znow)
      let h2 ← liftErr (h1.useLower b top)
      let h3 ← liftErr (h2.useHigher b bottom)
      let (h4, ae) ← genAE g sp curr (draws n) h3 b top
      let (h', cms', rest) ← aeGenLoop g sp types bottom draws fuel (n + 1) h4 cms1 znow1 b next
      return (h', cms', ae :: rest)
    else .ok (h, cms, [])

/-- A generated stratum. hyvr/geo/stratum.py:29-44. -/
structure StratumReal (α : Type) where
  bottom : ℕ
  top : ℕ
  ext : Extent α
  aes : List (AEReal α)

/-- Everything random that one stratum uses. hyvr/geo/model.py:115, hyvr/geo/stratum.py:49. -/
structure StratumDraw (α : Type) where
  field : ℕ → ℕ → α
  first : ℕ
  aes : ℕ → AEDraw α
  fuel : ℕ

/-- `Stratum.__init__`. hyvr/geo/stratum.py:12-113. -/
def genStratum (g : GridZ α) (sp : StratumParams α) (types : List (ElemParams α)) (d : StratumDraw α) (h : Heap α)
    (cms : Contacts α) (bottom top : ℕ) : Except Stop (Heap α × Contacts α × StratumReal α) := do
  let e0 : Extent α := { zmin := (h.get bottom).zmin, zmax := (h.get top).zmax }
  let first ← chooseType types d.first
  let (h', cms', aes) ← aeGenLoop g sp types bottom d.aes d.fuel 0 h cms (h.get top).zmean top first
  return (h', cms', { bottom, top, ext := aes.foldl (fun e a => e.add a.ext.zmin a.ext.zmax) e0, aes })

/-! ### The model -/

/-- The parameters of the strata section as `generate_model` uses them; all lists are in ini-file order (bottom stratum
first). hyvr/geo/model.py:93-121. `types` is `ae_in_strata` after the dictionary look-up of line 121. -/
structure StrataDict (α : Type) where
  n : ℕ
  contacts : List (ContactModel α)
  params : List (StratumParams α)
  types : List (List (ElemParams α))

/-- `l[-1-si]`. hyvr/geo/model.py:115, 120, 121. -/
def fromEnd {β : Type} (l : List β) (si : ℕ) : Except Stop β :=
  match l.reverse[si]? with
  | some b => .ok b
  | none => .error (.err .indexError)

/-- The bottom surface of stratum `si` before clipping. hyvr/geo/model.py:112-115. -/
def stratumBottom (g : GridZ α) (sd : StrataDict α) (h : Heap α) (si : ℕ) (field : ℕ → ℕ → α) :
    Except Stop (Heap α × ℕ) :=
  if si + 1 = sd.n then liftErr (h.create (.flat g.z0) field)
  else do
    let cm ← fromEnd sd.contacts si
    liftErr (h.create cm field)

/-- The loop over the strata, `k` of them left, `si` the next index. hyvr/geo/model.py:110-134. -/
def strataGenLoop (g : GridZ α) (sd : StrataDict α) (draws : ℕ → StratumDraw α) :
    ℕ → ℕ → Heap α → Contacts α → ℕ → Except Stop (Heap α × Contacts α × List (StratumReal α))
  | 0, _, h, cms, _ => .ok (h, cms, [])
  | k + 1, si, h, cms, top => do
    let (h1, b) ← stratumBottom g sd h si (draws si).field
    let h2 ← liftErr (h1.useLower b top)
    let sp ← fromEnd sd.params si
    let types ← fromEnd sd.types si
    let (h3, cms3, s) ← genStratum g sp types (draws si) h2 cms b top
    let (h', cms', rest) ← strataGenLoop g sd draws k (si + 1) h3 cms3 b
    return (h', cms', s :: rest)

/-- Numbering of the objects of one AE, starting from `n`. hyvr/geo/model.py:147-149. -/
def numberObjs : ℤ → List (GObj α) → ℤ × List (GObj α)
  | n, [] => (n, [])
  | n, o :: rest =>
    let r := numberObjs (n + 1) rest
    (r.1, { o with numHa := n } :: r.2)

/-- Numbering of the AEs of one stratum; the two counters are threaded through. hyvr/geo/model.py:144-149. The array
`objectNumHa` is not touched. -/
def numberAEs : ℤ → ℤ → List (AEReal α) → ℤ × ℤ × List (AEReal α)
  | na, nh, [] => (na, nh, [])
  | na, nh, a :: rest =>
    let o := numberObjs nh a.objs
    let r := numberAEs (na + 1) o.1 rest
    (r.1, r.2.1, { a with num := na, objs := o.2 } :: r.2.2)

/-- Numbering of all strata. hyvr/geo/model.py:141-149. -/
def numberStrata : ℤ → ℤ → List (StratumReal α) → List (StratumReal α)
  | _, _, [] => []
  | na, nh, s :: rest =>
    let r := numberAEs na nh s.aes
    { s with aes := r.2.2 } :: numberStrata r.1 r.2.1 rest

/-- A generated model with the final state of all surfaces. hyvr/geo/model.py:81-149. -/
structure GenModel (α : Type) where
  heap : Heap α
  strata : List (StratumReal α)

/-- `generate_model`. hyvr/geo/model.py:81-149. `nx`, `ny` are the numbers of columns of the grid; the heap starts without
surfaces. Also returned: the contact dictionaries afterwards (they survive into the next realization). -/
def generateModel (nx ny : ℕ) (g : GridZ α) (sd : StrataDict α) (cms : Contacts α) (draws : ℕ → StratumDraw α) :
    Except Stop (GenModel α × Contacts α) := do
  let h0 : Heap α := { nx, ny, next := 0, get := fun _ => { vals := fun _ _ => 0, zmean := 0, zmin := 0, zmax := 0 } }
  let (h1, top) ← liftErr (h0.create (.flat g.lz) (fun _ _ => 0))
  let (h', cms', strata) ← strataGenLoop g sd draws sd.n 0 h1 cms top
  return ({ heap := h', strata := numberStrata 0 0 strata }, cms')

/-! ### What point assignment sees -/

/-- Object `oi` of an AE as the search of `assign_points` sees it: range from the copied lists, `ha` from
`object_num_ha`. hyvr/assign_points.py:275-276, 299, hyvr/geo/sheet_ae.py:151. -/
def AEReal.searchObj (a : AEReal α) (oi : ℕ) (o : GObj α) : Obj α :=
  { zmin := o.zmin, zmax := o.zmax
    test := fun i j z => (o.answer i j z).map fun r => ⟨r.1, (a.objectNumHa[oi]?).getD 0, r.2.1, r.2.2⟩
    marks := o.marks }

/-- An AE as the search sees it. hyvr/assign_points.py:272-279, 303-304, 319-323, hyvr/geo/stratum.py:99. -/
def AEReal.search (h : Heap α) (a : AEReal α) : AE α :=
  { zmin := a.ext.zmin, isSheet := a.isSheet, num := a.num, typeId := a.typeId, bgFacies := a.bgFacies,
    bgAzim := a.bgAzim, bgDip := a.bgDip, top := (h.get a.top).vals, bottom := (h.get a.bottom).vals,
    objs := a.objs.mapIdx a.searchObj }

/-- A stratum as the search sees it. hyvr/assign_points.py:114, 123-128, hyvr/geo/model.py:137. -/
def StratumReal.search (h : Heap α) (s : StratumReal α) : Stratum α :=
  { zmin := s.ext.zmin, aes := s.aes.map (AEReal.search h) }

/-- The strata as the search sees them. hyvr/assign_points.py:16-40. -/
def GenModel.search (m : GenModel α) : List (Stratum α) := m.strata.map (StratumReal.search m.heap)

end Hyvr
