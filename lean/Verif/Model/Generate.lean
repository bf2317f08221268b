import Verif.Model.Setup
import Verif.Model.Strata
import Verif.Model.Choose

/-!
Generation of a model from a parsed ini-file: how hyvr/geo/model.py:91-121, hyvr/geo/stratum.py, hyvr/geo/ae_realization.py and
hyvr/geo/sheet_ae.py read the parsed dictionaries. The values of the ini-file are rational numbers; generation calculates with them in any
ordered field, such as the rational or the real numbers, in place of floating point numbers.

Simplification: all values are read before the first stratum is generated, in the code each when it is used.
-/

namespace Hyvr

open Py

/-- A number of the parsed ini-file used in arithmetic. hyvr/geo/stratum.py:58,62, hyvr/geo/sheet_ae.py:62-71. Simplification: the
values that are no number are one error, whether the code raises (`None`, a list) or goes on calculating (NaN). -/
def numOf : Val → Except PyErr ℚ
  | .leaf (.num q) => .ok q
  | _ => .error .typeError

/-- Several numbers. hyvr/geo/stratum.py:8,58, hyvr/geo/sheet_ae.py:65-67. -/
def numsOf (v : Val) : Except PyErr (List ℚ) := do
  let l ← pyItems v
  mapPy numOf l

/-- A whole number: a facies or an identifier. hyvr/geo/ae_realization.py:88-91, hyvr/geo/stratum.py:35. -/
def wholeOf : Val → Except PyErr ℤ
  | .leaf (.num q) => if q.den = 1 then .ok q.num else .error .typeError
  | _ => .error .typeError

/-- An angle; a missing one is NaN. hyvr/geo/ae_realization.py:92-100, hyvr/geo/stratum.py:36-37. -/
def angleOf : Val → Except PyErr (Option ℚ)
  | .leaf (.num q) => .ok (some q)
  | .leaf .nan => .ok none
  | _ => .error .typeError

/-- A number of a contact model. hyvr/geo/contact_surface.py:10-36. -/
def optNum : Option Atom → Except PyErr (Option ℚ)
  | none => .ok none
  | some (.num q) => .ok (some q)
  | some _ => .error .typeError

/-- A contact model as `ContactSurface` reads it. hyvr/geo/contact_surface.py:8-36. -/
def readContact (cm : ContactModel Atom) : Except PyErr (ContactModel ℚ) := do
  let z ← optNum cm.z
  let var ← optNum cm.var
  let corlx ← optNum cm.corlx
  let corly ← optNum cm.corly
  return { mode := cm.mode, z, var, corlx, corly }

/-- `params[name]` of a stratum. hyvr/geo/stratum.py:32-37, 49, 58, 62. -/
def StratumInput.option (i : StratumInput) (name : String) : Except PyErr Val :=
  match i.options.lookup name with
  | some v => .ok v
  | none => .error .keyError

/-- The factors of the vertical trend, or `None`. hyvr/geo/sheet_ae.py:65-68. -/
def trendOf (v : Val) : Except PyErr (Option (ℚ × ℚ)) :=
  if v = .leaf .none then .ok none
  else do
    let l ← numsOf v
    match l with
    | [a, b] => return some (a, b)
    | _ => .error .valueError

/-- The lens thickness, which is read for sheets only. hyvr/geo/sheet_ae.py:62-71. -/
def lensOf (g : List Char) (d : Dict) : Except PyErr ℚ :=
  if g = "sheet".toList then do
    let v ← d.get "lens_thickness"
    numOf v
  else .ok 0

/-- What generation reads from an element section; `name` and `id` are its name and its number in the option `ae`.
hyvr/geo/ae_types.py:36-38, hyvr/geo/ae_realization.py:75-100, hyvr/geo/sheet_ae.py:62-71. -/
def readElement (name : String) (id : ℕ) (e : Element) : Except PyErr (ElemParams ℚ) := do
  let g ← e.dict.get "geometry"
  let g ← asText g
  let bf ← e.dict.get "bg_facies"
  let bgFacies ← wholeOf bf
  let ba ← e.dict.get "bg_azim"
  let bgAzim ← angleOf ba
  let bd ← e.dict.get "bg_dip"
  let bgDip ← angleOf bd
  let lensThickness ← lensOf g e.dict
  let tv ← e.dict.get "size_ztrend"
  let sizeZtrend ← trendOf tv
  return { name, geometry := String.ofList g, aeId := id, bgFacies, bgAzim, bgDip, lensThickness, sizeZtrend }

/-- The name of an entry of `ae_in_strata`. hyvr/geo/model.py:121. -/
def nameOf (v : Val) : Except PyErr String := do
  let s ← asText v
  return String.ofList s

/-- `elements[name]['ae_id']`. hyvr/input/parameters.py:50-51. -/
def idOf (ids : List (String × ℕ)) (name : String) : Except PyErr ℕ :=
  match ids.lookup name with
  | some i => .ok i
  | none => .error .keyError

/-- The two arguments of `np.random.uniform(*avul)`. hyvr/geo/stratum.py:63. Simplification: another number of arguments is an error
here; numpy accepts up to three. -/
def pairOf : List ℚ → Except PyErr (ℚ × ℚ)
  | [a, b] => .ok (a, b)
  | _ => .error .typeError

/-- What one stratum is generated from. hyvr/geo/model.py:120-131, hyvr/geo/stratum.py:30-37. -/
structure StratumRead where
  params : StratumParams ℚ
  weights : List ℚ
  avul : ℚ × ℚ
  types : List (ElemParams ℚ)

/-- Stratum `si` of `n`, counted from the top. hyvr/geo/model.py:120-131, hyvr/geo/stratum.py:30-37, 49, 58, 62-63. -/
def readStratum (P : Parsed) (ids : List (String × ℕ)) (n si : ℕ) : Except PyErr StratumRead := do
  let i ← stratumInput P n si
  let bf ← i.option "bg_facies"
  let bgFacies ← wholeOf bf
  let ba ← i.option "bg_azim"
  let bgAzim ← angleOf ba
  let bd ← i.option "bg_dip"
  let bgDip ← angleOf bd
  let wv ← i.option "ae_prob"
  let weights ← numsOf wv
  let mv ← i.option "ae_z_mean"
  let aeZMean ← numsOf mv
  let vv ← i.option "avul"
  let vl ← numsOf vv
  let avul ← pairOf vl
  let av ← i.option "avul_prob"
  let al ← pyItems av
  let a0 ← pyGet al 0
  let avulProb ← numOf a0
  let nv ← stratumEntry P.strata "ae_in_strata" si
  let nl ← pyItems nv
  let names ← mapPy nameOf nl
  let types ← mapPy (fun x : String × Element => do
    let id ← idOf ids x.1
    readElement x.1 id x.2) (names.zip i.types)
  return { params := { bgFacies, bgAzim, bgDip, aeZMean, avulProb }, weights, avul, types }

/-- Number of cells along an axis. hyvr/geo/grid.py:54-68. -/
def axisCells (d l : Val) : Except PyErr ℕ := do
  let d ← numOf d
  let l ← numOf l
  return ⌈(l - d / 2) / d⌉.toNat

/-- Everything `generate_model` reads. hyvr/geo/model.py:39-50, 92-131. `reads` are the strata from the top, the lists of `strata` are
in the order of the ini-file. -/
structure GenInput where
  nx : ℕ
  ny : ℕ
  grid : GridZ ℚ
  strata : StrataDict ℚ
  reads : List StratumRead
  contacts : Contacts ℚ

/-- The contact models of the element types, by name. hyvr/geo/stratum.py:78. A name without element is never looked up. -/
def contactsOf (l : List (String × ContactModel ℚ)) : Contacts ℚ := fun name =>
  match l.lookup name with
  | some cm => cm
  | none => { mode := "", z := none, var := none, corlx := none, corly := none }

/-- Reading of all parameters. hyvr/geo/model.py:39-50, 92-131. -/
def genInput (P : Parsed) (ids : List (String × ℕ)) : Except PyErr GenInput := do
  let dx ← P.model.get "dx"
  let lx ← P.model.get "lx"
  let nx ← axisCells dx lx
  let dy ← P.model.get "dy"
  let ly ← P.model.get "ly"
  let ny ← axisCells dy ly
  let z0 ← P.model.get "z0"
  let z0 ← numOf z0
  let lz ← P.model.get "lz"
  let lz ← numOf lz
  let sv ← P.strata.get "strata"
  let n ← lenOf sv
  let contacts ← mapPy readContact P.contacts
  let elements ← mapPy (fun e : String × Element => do
    let c ← readContact e.2.contact
    return (e.1, c)) P.elements
  let reads ← mapPy (readStratum P ids n) (List.range n)
  return { nx, ny, grid := { z0, lz }, reads, contacts := contactsOf elements
           strata := { n, contacts, params := reads.reverse.map StratumRead.params, types := reads.reverse.map StratumRead.types } }

/-! ### Generation with numbers of any ordered field -/

variable {α : Type} [Field α] [LinearOrder α]

/-- A contact model in calculations. hyvr/geo/contact_surface.py:8-36. -/
def ContactModel.cast (cm : ContactModel ℚ) : ContactModel α :=
  { mode := cm.mode, z := cm.z.map Rat.cast, var := cm.var.map Rat.cast, corlx := cm.corlx.map Rat.cast, corly := cm.corly.map Rat.cast }

/-- An element's values in calculations. hyvr/geo/ae_realization.py:75-100, hyvr/geo/sheet_ae.py:62-71. -/
def ElemParams.cast (t : ElemParams ℚ) : ElemParams α :=
  { name := t.name, geometry := t.geometry, aeId := t.aeId, bgFacies := t.bgFacies, bgAzim := t.bgAzim.map Rat.cast
    bgDip := t.bgDip.map Rat.cast, lensThickness := t.lensThickness, sizeZtrend := t.sizeZtrend.map fun f => (f.1, f.2) }

/-- A stratum's values in calculations. hyvr/geo/stratum.py:30-37. -/
def StratumParams.cast (s : StratumParams ℚ) : StratumParams α :=
  { bgFacies := s.bgFacies, bgAzim := s.bgAzim.map Rat.cast, bgDip := s.bgDip.map Rat.cast, aeZMean := s.aeZMean.map Rat.cast
    avulProb := s.avulProb }

/-- The strata section in calculations. hyvr/geo/model.py:92-131. -/
def StrataDict.cast (sd : StrataDict ℚ) : StrataDict α :=
  { n := sd.n, contacts := sd.contacts.map ContactModel.cast, params := sd.params.map StratumParams.cast
    types := sd.types.map fun ts => ts.map ElemParams.cast }

/-- The grid's elevations in calculations. hyvr/geo/grid.py:41-50. -/
def GridZ.cast (g : GridZ ℚ) : GridZ α := { z0 := g.z0, lz := g.lz }

/-- The index that `prob_choose` draws among `m` types with the uniform number `u`; `m`, which is no index, stands for its
`ValueError` (`chooseType`). hyvr/geo/stratum.py:6-8. -/
def choiceIndex (m : ℕ) (w : List α) (u : α) : ℕ :=
  match probChoose (List.range m) w u with
  | .ok i => i
  | .error _ => m

/-- What `np.random` returns: uniform numbers for the first AE type of each stratum and for the next one in each pass of the AE loop,
standard normal numbers for the thicknesses, uniform numbers for whether there is an avulsion and how much.
hyvr/geo/stratum.py:49, 60-63, 72. -/
structure Randoms (α : Type) where
  first : ℕ → α
  next : ℕ → ℕ → α
  normal : ℕ → ℕ → α
  avulU : ℕ → ℕ → α
  avulV : ℕ → ℕ → α

/-- The index of the AE type of pass `n` of the AE loop of stratum `si`: the first choice, or the one of the pass before.
hyvr/geo/stratum.py:49, 72, 105. -/
def typeAt (s : StratumRead) (r : Randoms α) (si : ℕ) : ℕ → ℕ
  | 0 => choiceIndex s.types.length (s.weights.map Rat.cast) (r.first si)
  | n + 1 => choiceIndex s.types.length (s.weights.map Rat.cast) (r.next si n)

/-- `self.params['ae_z_mean'][self.ae_type_names.index(curr_ae_type.name)]` for type number `k`. hyvr/geo/stratum.py:53, 58. The value 0 for
a missing entry is never used, see `chooseType` and `meanHeight`. -/
def meanAt (s : StratumRead) (k : ℕ) : ℚ :=
  match s.types[k]? with
  | some t => (s.params.aeZMean[(s.types.map ElemParams.name).idxOf t.name]?).getD 0
  | none => 0

/-- The draws of stratum `si`: the types are chosen by `prob_choose`, the thickness is `np.random.normal(m, m*0.1)`, the avulsion
`np.random.uniform(*avul)`. hyvr/geo/stratum.py:49, 58-63, 72. -/
def drawStratum (s : StratumRead) (r : Randoms α) (si : ℕ) (d : StratumDraw α) : StratumDraw α :=
  { d with first := typeAt s r si 0
           aes := fun n => { d.aes n with
             next := typeAt s r si (n + 1)
             height := (meanAt s (typeAt s r si n) : α) + (meanAt s (typeAt s r si n) : α) * (1 / 10) * r.normal si n
             avulU := r.avulU si n
             avulAmt := (s.avul.1 : α) + ((s.avul.2 : α) - (s.avul.1 : α)) * r.avulV si n } }

/-- The draws of all strata. `d` are the remaining ones: random fields, the placing of objects and the filling of sheets, and the numbers
of passes granted to the loops. hyvr/geo/stratum.py:49, 58-63, 72. -/
def GenInput.draws (I : GenInput) (r : Randoms α) (d : ℕ → StratumDraw α) (si : ℕ) : StratumDraw α :=
  match I.reads[si]? with
  | some s => drawStratum s r si (d si)
  | none => d si

/-- `generate_model` on a parsed ini-file. hyvr/geo/model.py:39-50, 81-149. -/
def generateIni (P : Parsed) (ids : List (String × ℕ)) (r : Randoms α) (d : ℕ → StratumDraw α) : Except Stop (GenModel α × Contacts α) := do
  let I ← liftErr (genInput P ids)
  generateModel I.nx I.ny I.grid.cast I.strata.cast (fun n => (I.contacts n).cast) (I.draws r d)

end Hyvr
