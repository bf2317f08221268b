import Verif.Model.IniFile

/-!
Ini-files of the old format: hyvr/input/parameters.py:300-368 (conversion), 384-408 (contact models), 412-464 (parsing).
-/

namespace Hyvr

open Py

/-! ### Parsing -/

/-- The sections every ini-file of the old format needs. hyvr/input/parameters.py:427. -/
def oldMustHaves : List String := ["run", "model", "strata", "hydraulics", "flowtrans"]

/-- The loop over the sections every ini-file needs. hyvr/input/parameters.py:428-430. -/
def oldSectionsCheck (p : Ini) : Except PyErr Unit :=
  if oldMustHaves.all fun s => decide (s ∈ p.sections) then .ok () else .error .missingSection

/-- `old_options[geometry]`. hyvr/input/parameters.py:460-461. -/
def oldGeometryOpts (C : Convs) (geometry : List Char) : Except PyErr (List Opt) :=
  if geometry = "trunc_ellip".toList then .ok (oldOptsTruncEllip C)
  else if geometry = "ext_par".toList then .ok (oldOptsExtPar C)
  else if geometry = "sheet".toList then .ok (oldOptsSheet C)
  else .error .keyError

/-- The test of `ae_table`: the name `inifile` does not exist in this function. hyvr/input/parameters.py:444-447. -/
def aeTableCheck (d : Dict) : Except PyErr Unit := do
  let v ← d.get "ae_table"
  if v = .leaf .none then return () else .error .nameError

/-- One element section. hyvr/input/parameters.py:457-461. Simplification: `old_options` also has entries for the other
sections, so a geometry with the name of such a section is not a `KeyError` but fails in `Section.parse`. -/
def parseOldElement (C : Convs) (p : Ini) (s : String) : Except PyErr (String × Dict) := do
  let geometry ← geometryOf (p.get s)
  let opts ← oldGeometryOpts C geometry
  let d ← parseSection opts (p.get s)
  return (s, d)

/-- The result of `parse_deprecated_inifile`. hyvr/input/parameters.py:464. -/
structure OldParsed where
  run : Dict
  model : Dict
  strata : Dict
  hydraulics : Dict
  flowtrans : Dict
  elements : List (String × Dict)

/-- The sections that describe elements. hyvr/input/parameters.py:433,436,443,450,453,457. -/
def oldElementSections (p : Ini) : List String := p.sections.filter fun s => decide (s ∉ oldMustHaves)

/-- `parse_deprecated_inifile`. hyvr/input/parameters.py:412-464. Simplification: the warnings are not modelled. -/
def parseDeprecated (C : Convs) (p : Ini) : Except PyErr OldParsed := do
  oldSectionsCheck p
  let run ← parseSection (oldOptsRun C) (p.get "run")
  let model ← parseSection (oldOptsModel C) (p.get "model")
  let model ← defaultTo "dy" "dx" model
  let model ← defaultTo "dz" "dx" model
  let strata ← parseSection (oldOptsStrata C) (p.get "strata")
  aeTableCheck strata
  let hydraulics ← parseSection (oldOptsHydraulics C) (p.get "hydraulics")
  let flowtrans ← parseSection (oldOptsFlowtrans C) (p.get "flowtrans")
  let elements ← mapPy (parseOldElement C p) (oldElementSections p)
  return { run, model, strata, hydraulics, flowtrans, elements }

/-! ### Conversion -/

/-- `v[i]` for a list or text; `None` and numbers are a `TypeError`. hyvr/input/parameters.py:324-326,344-346,360-361. -/
def valAt (v : Val) (i : ℤ) : Except PyErr Val := do
  let l ← pyItems v
  pyGet l i

/-- `a + b` of two lists. hyvr/input/parameters.py:306. -/
def addLists : Val → Val → Except PyErr Val
  | .node a, .node b => .ok (.node (a ++ b))
  | _, _ => .error .typeError

/-- `int(x)` of a number: towards zero. hyvr/input/parameters.py:324. Simplification: texts are a `ValueError`. -/
def intOf : Val → Except PyErr Val
  | .leaf (.num q) => .ok (.leaf (.num (if 0 ≤ q then (q.floor : ℚ) else (q.ceil : ℚ))))
  | .leaf (.bool b) => .ok (.leaf (.num (if b then 1 else 0)))
  | .leaf .none => .error .typeError
  | .leaf _ => .error .valueError
  | .node _ => .error .typeError

/-- `len(v)`. hyvr/input/parameters.py:323. -/
def lenOf (v : Val) : Except PyErr ℕ := do
  let l ← pyItems v
  return l.length

/-- Whether Python takes the value for true. hyvr/input/parameters.py:318,330. -/
def truthy : Val → Bool
  | .leaf (.bool b) => b
  | .leaf .none => false
  | .leaf (.num q) => decide (q ≠ 0)
  | .leaf (.text s) => !s.isEmpty
  | .leaf .nan => true
  | .node l => !l.isEmpty

/-- The run section. hyvr/input/parameters.py:306-307. -/
def convertRun (run : Dict) : Except PyErr Dict := do
  let m ← run.get "modeloutputs"
  let o ← run.get "dataoutputs"
  let outs ← addLists m o
  let d := run.set "outputs" outs
  let ow ← d.get "flag_ow"
  return d.set "overwrite_old_output" ow

/-- The hydraulics section. hyvr/input/parameters.py:310. -/
def convertHydraulics (hydraulics : Dict) : Except PyErr Dict := do
  let v ← hydraulics.get "hydro"
  return hydraulics.set "hydrofacies" v

/-- The model section. hyvr/input/parameters.py:314-319. -/
def convertModel (run hydraulics model : Dict) : Except PyErr Dict := do
  let a ← run.get "anisotropy"
  let d := model.set "anisotropy" a
  let g ← hydraulics.get "gen"
  let d := d.set "hydraulics" g
  let h ← run.get "het"
  let d := d.set "heterogeneity" h
  let l ← d.get "hetlev"
  let d := d.set "heterogeneity_level" l
  let x ← d.get "display"
  if truthy x then .error .valueError else return d

/-- A single number of a contact model. hyvr/input/parameters.py:386,390-392,403-405. Simplification: a list in place of a
number (irregular nesting) is a `TypeError` here; the code stores it and fails when the number is used. -/
def atomOf : Val → Except PyErr Atom
  | .leaf a => .ok a
  | .node _ => .error .typeError

/-- The three numbers of a random contact model. hyvr/input/parameters.py:390-392,403-405. -/
def oldRandom (mode : List Char) (z : Option Atom) (v : Val) : Except PyErr (ContactModel Atom) := do
  let a ← valAt v 0
  let var ← atomOf a
  let a ← valAt v 1
  let corlx ← atomOf a
  let a ← valAt v 2
  let corly ← atomOf a
  return { mode := String.ofList mode, z, var := some var, corlx := some corlx, corly := some corly }

/-- The part common to `parse_old_strata_contact_model` and `parse_old_elem_contact_model`.
hyvr/input/parameters.py:387-395,400-408. -/
def oldContact (mode : List Char) (z : Option Atom) (numbers : Except PyErr Val) : Except PyErr (ContactModel Atom) :=
  if lower mode = "flat".toList then
    .ok { mode := String.ofList mode, z, var := none, corlx := none, corly := none }
  else if lower mode = "random".toList then do
    let v ← numbers
    oldRandom mode z v
  else .error .valueError

/-- `parse_old_strata_contact_model(strata, i)`. hyvr/input/parameters.py:384-395. -/
def oldStrataContact (d : Dict) (i : ℕ) : Except PyErr (ContactModel Atom) := do
  let m ← d.get "ssm_contact"
  let tops ← d.get "ssm_top"
  let t ← valAt tops i
  let z ← atomOf t
  let mode ← asText m
  oldContact mode (some z) do
    let l ← d.get "ssm_contact_model"
    valAt l i

/-- `parse_old_elem_contact_model(elem)`. hyvr/input/parameters.py:397-408. -/
def oldElemContact (d : Dict) : Except PyErr (ContactModel Atom) := do
  let m ← d.get "contact"
  let mode ← asText m
  oldContact mode none (d.get "contact_model")

/-- `[x] * n`. hyvr/input/parameters.py:324-326. -/
def repeatVal (v : Val) (n : ℕ) : Val := .node (List.replicate n v)

/-- The strata section: the dictionary and `strata['contact_models']`. hyvr/input/parameters.py:323-337. -/
def convertStrata (strata : Dict) : Except PyErr (Dict × List (ContactModel Atom)) := do
  let ssm ← strata.get "ssm"
  let n ← lenOf ssm
  let bg ← strata.get "bg"
  let f ← valAt bg 0
  let f ← intOf f
  let d := strata.set "bg_facies" (repeatVal f n)
  let a ← valAt bg 1
  let d := d.set "bg_azim" (repeatVal a n)
  let x ← valAt bg 2
  let d := d.set "bg_dip" (repeatVal x n)
  let d := d.set "strata" ssm
  let t ← d.get "ae_table"
  if t ≠ .leaf .none then .error .valueError
  else do
    let s ← d.get "save_aelu"
    if truthy s then .error .valueError
    else do
      let contacts ← mapPy (oldStrataContact d) (List.range (n - 1))
      let ae ← d.get "ssm_ae"
      return (d.set "ae_in_strata" ae, contacts)

/-- The background values of an element. hyvr/input/parameters.py:343-350. The dip is read from entry 1, not 2. -/
def convertBg (d : Dict) : Except PyErr Dict := do
  let bg ← d.get "bg"
  if bg ≠ .leaf .none then do
    let f ← valAt bg 0
    let a ← valAt bg 1
    let x ← valAt bg 1
    return ((d.set "bg_facies" f).set "bg_azim" a).set "bg_dip" x
  else return ((d.set "bg_facies" (.leaf (.num (-1)))).set "bg_azim" (.leaf .nan)).set "bg_dip" (.leaf .nan)

/-- The layer distances of an element. hyvr/input/parameters.py:351-353. -/
def convertDist (d : Dict) : Except PyErr Dict := do
  let v ← d.get "dipset_d"
  let d := d.set "dipset_dist" v
  match d "bulbset_d" with
  | some w => return d.set "bulbset_dist" w
  | none => return d

/-- The geometry of an element. hyvr/input/parameters.py:354-356. -/
def convertGeometry (d : Dict) : Except PyErr Dict := do
  let g ← d.get "geometry"
  if isText g "trunc_ellip" then do
    let d := d.set "geometry" (.leaf (.text "trough".toList))
    let z ← d.get "el_z"
    return d.set "trough_density" z
  else return d

/-- The lag of an element. hyvr/input/parameters.py:358-364. -/
def convertLag (d : Dict) : Except PyErr Dict := do
  let g ← d.get "geometry"
  if isText g "trough" || isText g "channel" then do
    let l ← d.get "lag"
    if l ≠ .leaf .none then do
      let h ← valAt l 0
      let f ← valAt l 1
      return (d.set "lag_height" h).set "lag_facies" f
    else return (d.set "lag_height" (.leaf (.num 0))).set "lag_facies" (.leaf (.num (-1)))
  else return d

/-- One element section. hyvr/input/parameters.py:341-364. -/
def convertElement (d : Dict) : Except PyErr Element := do
  let t ← d.get "geo_ztrend"
  let d ← convertBg (d.set "size_ztrend" t)
  let d ← convertDist d
  let d ← convertGeometry d
  let contact ← oldElemContact d
  let d ← convertLag d
  return { dict := d, contact }

/-- `get_new_parameters_from_deprecated`. hyvr/input/parameters.py:300-368. -/
def convertOld (o : OldParsed) : Except PyErr Parsed := do
  let run ← convertRun o.run
  let hydraulics ← convertHydraulics o.hydraulics
  let model ← convertModel run hydraulics o.model
  let (strata, contacts) ← convertStrata o.strata
  let elements ← mapPy (fun e : String × Dict => do
    let x ← convertElement e.2
    return (e.1, x)) o.elements
  return { run, model, strata, contacts, hydraulics, flowtrans := o.flowtrans, elements }

/-- The choice of the format. hyvr/input/parameters.py:106-112. Simplification: a file without run section is a
`KeyError` in both. -/
def parseAny (C : Convs) (p : Ini) : Except PyErr Parsed :=
  if "run" ∉ p.sections then .error .keyError
  else if (p.get "run" "dataoutputs").isSome then do
    let o ← parseDeprecated C p
    convertOld o
  else parseInifile C p

/-! ### Element types -/

/-- `AEType.__init__`: the structure `flat` of older ini-files is `massive`. hyvr/geo/ae_types.py:36-42. -/
def aeTypeInit (d : Dict) : Except PyErr Dict := do
  let _ ← d.get "geometry"
  let s ← d.get "structure"
  if isText s "flat" then return d.set "structure" (.leaf (.text "massive".toList)) else return d

end Hyvr
