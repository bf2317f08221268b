import Verif.Model.OptionTables
import Verif.Model.Surface

/-!
Reading a whole ini-file of the new format, hyvr/input/parameters.py:161-298 and 371-382, contact models,
hyvr/geo/contact_surface_utils.py, and the parts of `setup_from_inifile` and `Model` that look names up.

Numbers stay `Atom`s here, since the converters `int` and `float` are parameters.
-/

namespace Hyvr

open Py

/-! ### Contact models -/

/-- `s.strip("\"'")`. hyvr/geo/contact_surface_utils.py:4. -/
def stripQuotes (s : List Char) : List Char :=
  let quote : Char → Bool := fun c => c = '"' || c = '\''
  ((s.dropWhile quote).reverse.dropWhile quote).reverse

/-- The entries of a Python list or text; `None` and numbers have none (`TypeError`).
hyvr/geo/contact_surface_utils.py:4,7, hyvr/input/parameters.py:377. -/
def pyItems : Val → Except PyErr (List Val)
  | .node l => .ok l
  | .leaf (.text s) => .ok (s.map fun c => .leaf (.text [c]))
  | .leaf _ => .error .typeError

/-- A value on which text methods are called. hyvr/geo/contact_surface_utils.py:4. -/
def asText : Val → Except PyErr (List Char)
  | .leaf (.text s) => .ok s
  | _ => .error .attributeError

/-- `float(x)`. Simplification: values that are no texts (which do not occur in contact models) are a `TypeError`.
hyvr/geo/contact_surface_utils.py:11,17-19. -/
def asFloat (C : Convs) : Val → Except PyErr Atom
  | .leaf (.text s) => C.float s
  | _ => .error .typeError

/-- The depth entry of a contact model and the index of the next entry. hyvr/geo/contact_surface_utils.py:6-11. -/
def contactDepth (C : Convs) (params : List Val) (depth : Bool) : Except PyErr (Option Atom × ℕ) :=
  if depth then
    if params.length < 2 then .error .valueError
    else do
      let p ← pyGet params 1
      let z ← asFloat C p
      return (some z, 2)
  else .ok (none, 1)

/-- The test of the number of entries and the remaining values. hyvr/geo/contact_surface_utils.py:14-22. -/
def contactRest (C : Convs) (params : List Val) (mode : List Char) (z : Option Atom) (idx : ℕ) :
    Except PyErr (ContactModel Atom) :=
  if lower mode = "flat".toList ∧ params.length = idx then
    .ok { mode := String.ofList mode, z, var := none, corlx := none, corly := none }
  else if lower mode = "random".toList ∧ params.length = idx + 3 then do
    let p ← pyGet params idx
    let var ← asFloat C p
    let p ← pyGet params (idx + 1 : ℕ)
    let corlx ← asFloat C p
    let p ← pyGet params (idx + 2 : ℕ)
    let corly ← asFloat C p
    return { mode := String.ofList mode, z, var := some var, corlx := some corlx, corly := some corly }
  else .error .valueError

/-- `parse_contact_model`. hyvr/geo/contact_surface_utils.py:3-22. -/
def parseContactModel (C : Convs) (v : Val) (depth : Bool) : Except PyErr (ContactModel Atom) := do
  let params ← pyItems v
  let first ← pyGet params 0
  let s ← asText first
  let (z, idx) ← contactDepth C params depth
  contactRest C params (stripQuotes s) z idx

/-- The contact model with its numbers read as elements of another number type; the code uses the parsed numbers as they
are. hyvr/geo/contact_surface_utils.py:11,17-19. -/
def ContactModel.map {α β : Type} (f : α → β) (cm : ContactModel α) : ContactModel β :=
  { mode := cm.mode, z := cm.z.map f, var := cm.var.map f, corlx := cm.corlx.map f, corly := cm.corly.map f }

/-! ### Facies -/

/-- `l.index(v)`. hyvr/input/parameters.py:377. -/
def pyIndex (l : List Val) (v : Val) : Except PyErr ℕ :=
  match l.findIdx? fun w => decide (w = v) with
  | some i => .ok i
  | none => .error .valueError

/-- A Python integer as a value. hyvr/input/parameters.py:377. -/
def natVal (n : ℕ) : Val := .leaf (.num n)

/-- `parse_facies`. hyvr/input/parameters.py:371-378. -/
def parseFacies (facies : Val) (hydrofacies : List Val) : Except PyErr Val := do
  let fs ← pyItems facies
  let ns ← mapPy (pyIndex hydrofacies) fs
  return .node (ns.map natVal)

/-- `get_new_facies_list`. hyvr/input/parameters.py:380-381. -/
def getNewFaciesList (numbers : List ℤ) (hydrofacies : List Val) : Except PyErr (List Val) :=
  mapPy (pyGet hydrofacies) numbers

/-- `try: … except: raise e`. hyvr/input/parameters.py:226-229,257-260. -/
def orRaise {β : Type} (e : PyErr) (r : Except PyErr β) : Except PyErr β :=
  match r with
  | .ok b => .ok b
  | .error _ => .error e

/-- `d[k]`. hyvr/input/parameters.py:221. -/
def Dict.get (d : Dict) (k : String) : Except PyErr Val :=
  match d k with
  | some v => .ok v
  | none => .error .keyError

/-! ### Sections -/

/-- A `ConfigParser` object that has read an ini-file: the section names in order and the texts of each section.
hyvr/input/parameters.py:92-102,190. Simplification: a `DEFAULT` section is already merged into `get`. -/
structure Ini where
  sections : List String
  get : String → Dict

/-- `dy`/`dz` default to `dx`. hyvr/input/parameters.py:212-215. -/
def defaultTo (k dflt : String) (d : Dict) : Except PyErr Dict := do
  let v ← d.get k
  if v = .leaf .none then do
    let w ← d.get dflt
    return d.set k w
  else return d

/-- The model section. hyvr/input/parameters.py:210-215. -/
def parseModel (C : Convs) (raw : Dict) : Except PyErr Dict := do
  let d ← parseSection (optsModel C) raw
  let d ← defaultTo "dy" "dx" d
  defaultTo "dz" "dx" d

/-- The test of the number of contact models. hyvr/input/parameters.py:221-222. -/
def contactsCheck (contacts strata : ℤ) : Except PyErr Unit :=
  if contacts ≠ strata - 1 then .error .shapeError else .ok ()

/-- The strata section: the dictionary and `strata['contact_models']`. hyvr/input/parameters.py:219-229. The message of
the final error concatenates a text and a list, so a `TypeError` is raised instead of the intended `ValueError`. -/
def parseStrata (C : Convs) (hydrofacies : List Val) (raw : Dict) : Except PyErr (Dict × List (ContactModel Atom)) := do
  let d ← parseSection (optsStrata C) raw
  let m ← d.len "strata_contact_models"
  let n ← d.len "strata"
  contactsCheck m n
  let cs ← d.get "strata_contact_models"
  let items ← pyItems cs
  let contacts ← mapPy (fun v => parseContactModel C v true) items
  let bg ← d.get "bg_facies"
  let bg ← orRaise .typeError (parseFacies bg hydrofacies)
  return (d.set "bg_facies" bg, contacts)

/-- Whether the outputs include one that needs the flowtrans section. hyvr/input/parameters.py:235-239. -/
def needsFlowtrans (outputs : List Val) : Bool :=
  ["mf", "mf6", "hgs"].any fun o => outputs.any fun v => decide (v = .leaf (.text o.toList))

/-- The flowtrans section, an empty dictionary if there is none. hyvr/input/parameters.py:235-244. -/
def parseFlowtrans (C : Convs) (p : Ini) (outputs : List Val) : Except PyErr Dict :=
  if "flowtrans" ∈ p.sections then parseSection (optsFlowtrans C) (p.get "flowtrans")
  else if needsFlowtrans outputs then .error .missingSection
  else .ok fun _ => none

/-- An element section after parsing: the dictionary and the contact model stored in it.
hyvr/input/parameters.py:254-255. -/
structure Element where
  dict : Dict
  contact : ContactModel Atom

/-- The options for a geometry. hyvr/input/parameters.py:252-254. -/
def geometryOpts (C : Convs) (geometry : List Char) : Except PyErr (List Opt) :=
  if geometry = "trough".toList then .ok (optsTrough C)
  else if geometry = "channel".toList then .ok (optsChannel C)
  else if geometry = "sheet".toList then .ok (optsSheet C)
  else .error .valueError

/-- The geometry text of an element section. hyvr/input/parameters.py:249-251. -/
def geometryOf (raw : Dict) : Except PyErr (List Char) :=
  match raw "geometry" with
  | none => .error .missingOption
  | some v => asText v

/-- The alternating facies of an element. hyvr/input/parameters.py:262-268. -/
def setAltfacies (hydrofacies : List Val) (d : Dict) : Except PyErr Dict := do
  let v ← d.get "altfacies"
  if v = .leaf .none then return d
  else do
    let w ← orRaise .valueError do
      let items ← pyItems v
      mapPy (fun f => parseFacies f hydrofacies) items
    return d.set "altfacies" (.node w)

/-- The background facies of an element. hyvr/input/parameters.py:270-276. -/
def setBgFacies (hydrofacies : List Val) (d : Dict) : Except PyErr Dict := do
  let v ← d.get "bg_facies"
  if v = .leaf .none then return d.set "bg_facies" (.leaf (.num (-1)))
  else do
    let i ← orRaise .valueError (pyIndex hydrofacies v)
    return d.set "bg_facies" (natVal i)

/-- `assert_exists(k, dictionary, section)`. hyvr/input/option_parsing.py:440-442. -/
def assertExists (k : String) (raw : Dict) : Except PyErr Unit :=
  if (raw k).isSome then .ok () else .error .missingOption

/-- `x == text`. hyvr/input/parameters.py:280,283. -/
def isText (v : Val) (s : String) : Bool := decide (v = .leaf (.text s.toList))

/-- A distance option required for one structure and for `random`. hyvr/input/parameters.py:280-281,283-284. -/
def requireFor (v : Val) (structure_ option : String) (raw : Dict) : Except PyErr Unit :=
  if isText v structure_ || isText v "random" then assertExists option raw else .ok ()

/-- The distances required for the structure of the element. hyvr/input/parameters.py:279-284. -/
def requireDistances (raw d : Dict) : Except PyErr Unit := do
  let v ← d.get "structure"
  requireFor v "dip" "dipset_dist" raw
  requireFor v "bulb" "bulbset_dist" raw

/-- The lag facies of troughs and channels. hyvr/input/parameters.py:287-294. -/
def setLag (hydrofacies : List Val) (geometry : List Char) (d : Dict) : Except PyErr Dict :=
  if geometry = "sheet".toList then .ok d
  else do
    let h ← d.get "lag_height"
    if h = .leaf (.num 0) then return d.set "lag_facies" (.leaf (.num (-1)))
    else do
      let v ← d.get "lag_facies"
      let i ← orRaise .valueError (pyIndex hydrofacies v)
      return d.set "lag_facies" (natVal i)

/-- One element section. hyvr/input/parameters.py:248-294. -/
def parseElement (C : Convs) (hydrofacies : List Val) (raw : Dict) : Except PyErr Element := do
  let geometry ← geometryOf raw
  let opts ← geometryOpts C geometry
  let d ← parseSection opts raw
  let cm ← d.get "contact_model"
  let contact ← parseContactModel C cm false
  let f ← d.get "facies"
  let f ← orRaise .valueError (parseFacies f hydrofacies)
  let d ← setAltfacies hydrofacies (d.set "facies" f)
  let d ← setBgFacies hydrofacies d
  requireDistances raw d
  let d ← setLag hydrofacies geometry d
  return { dict := d, contact }

/-- The result of `parse_inifile`. hyvr/input/parameters.py:298. -/
structure Parsed where
  run : Dict
  model : Dict
  strata : Dict
  contacts : List (ContactModel Atom)
  hydraulics : Dict
  flowtrans : Dict
  elements : List (String × Element)

/-- The sections every ini-file needs. hyvr/input/parameters.py:193. -/
def mustHaves : List String := ["run", "model", "strata", "hydraulics"]

/-- The loop over the sections every ini-file needs. hyvr/input/parameters.py:194-196. -/
def sectionsCheck (p : Ini) : Except PyErr Unit :=
  if mustHaves.all fun s => decide (s ∈ p.sections) then .ok () else .error .missingSection

/-- The sections that describe elements: all but those removed with `del sections[…]`.
hyvr/input/parameters.py:201,206,211,220,242,248. -/
def elementSections (p : Ini) : List String :=
  p.sections.filter fun s => decide (s ∉ mustHaves ∧ s ≠ "flowtrans")

/-- One pass of the loop over the element sections. hyvr/input/parameters.py:248-294. -/
def parseNamedElement (C : Convs) (hydrofacies : List Val) (p : Ini) (s : String) :
    Except PyErr (String × Element) := do
  let e ← parseElement C hydrofacies (p.get s)
  return (s, e)

/-- `parse_inifile`. hyvr/input/parameters.py:161-298. Section names of a `ConfigParser` are distinct. -/
def parseInifile (C : Convs) (p : Ini) : Except PyErr Parsed := do
  sectionsCheck p
  let run ← parseSection (optsRun C) (p.get "run")
  let hydraulics ← parseSection (optsHydraulics C) (p.get "hydraulics")
  let model ← parseModel C (p.get "model")
  let hydro ← hydraulics.get "hydrofacies"
  let hydrofacies ← pyItems hydro
  let (strata, contacts) ← parseStrata C hydrofacies (p.get "strata")
  let outs ← run.get "outputs"
  let outputs ← pyItems outs
  let flowtrans ← parseFlowtrans C p outputs
  let elements ← mapPy (parseNamedElement C hydrofacies p) (elementSections p)
  return { run, model, strata, contacts, hydraulics, flowtrans, elements }

/-! ### Use of the parsed file -/

/-- `elements[element]['ae_id'] = strata_dict['ae'].index(element)`. hyvr/input/parameters.py:50-51. -/
def aeIds (P : Parsed) : Except PyErr (List (String × ℕ)) := do
  let ae ← P.strata.get "ae"
  let l ← pyItems ae
  mapPy (fun e : String × Element => do
    let i ← pyIndex l (.leaf (.text e.1.toList))
    return (e.1, i)) P.elements

/-- `self.ae_types[ae_type]`. hyvr/geo/model.py:72-79,121. -/
def aeType (elements : List (String × Element)) (v : Val) : Except PyErr Element :=
  match elements.find? fun e => decide (v = .leaf (.text e.1.toList)) with
  | some e => .ok e.2
  | none => .error .keyError

/-- `strata_dict[name][-1-si]`. hyvr/geo/model.py:120-121. -/
def stratumEntry (d : Dict) (name : String) (si : ℕ) : Except PyErr Val := do
  let v ← d.get name
  let l ← pyItems v
  pyGet l (-1 - (si : ℤ))

/-- The names of the options a stratum is given. hyvr/geo/model.py:98-107. -/
def stratumNames : List String :=
  ["bg_facies", "bg_azim", "bg_dip", "ae_prob", "ae_z_mean", "avul", "avul_prob", "strata"]

/-- The element types of stratum `si`. hyvr/geo/model.py:121. -/
def stratumTypes (P : Parsed) (si : ℕ) : Except PyErr (List Element) := do
  let v ← stratumEntry P.strata "ae_in_strata" si
  let names ← pyItems v
  mapPy (aeType P.elements) names

/-- What `generate_model` takes from the dictionaries for stratum `si`: the contact model of its bottom (none for the last
stratum), the options, the element types. hyvr/geo/model.py:110-121. -/
structure StratumInput where
  contact : Option (ContactModel Atom)
  options : List (String × Val)
  types : List Element

/-- The contact model for the bottom of stratum `si` of `n`. hyvr/geo/model.py:112-115. -/
def stratumContact (contacts : List (ContactModel Atom)) (n si : ℕ) : Except PyErr (Option (ContactModel Atom)) :=
  if si + 1 = n then .ok none
  else do
    let c ← pyGet contacts (-1 - (si : ℤ))
    return some c

/-- One pass of the loop of `generate_model`, up to the construction of the stratum. hyvr/geo/model.py:110-121. -/
def stratumInput (P : Parsed) (n si : ℕ) : Except PyErr StratumInput := do
  let contact ← stratumContact P.contacts n si
  let options ← mapPy (fun name : String => do
    let v ← stratumEntry P.strata name si
    return (name, v)) stratumNames
  let types ← stratumTypes P si
  return { contact, options, types }

end Hyvr
