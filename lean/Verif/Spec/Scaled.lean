import Verif.Spec.Idle
import Verif.Model.Parameters

/-!
Ini-files written in another unit of length (C125).
-/

namespace Hyvr.Spec

mutual
/-- A value with every number multiplied by `a`. -/
def inUnits (a : ℚ) : Val → Val
  | .leaf (.num q) => .leaf (.num (a * q))
  | .leaf .none => .leaf .none
  | .leaf .nan => .leaf .nan
  | .leaf (.text s) => .leaf (.text s)
  | .leaf (.bool b) => .leaf (.bool b)
  | .node l => .node (inUnitsAll a l)
/-- The same for the entries of a list. -/
def inUnitsAll (a : ℚ) : List Val → List Val
  | [] => []
  | v :: l => inUnits a v :: inUnitsAll a l
end

/-- The power of length in which the options of the section `model` are measured. -/
def modelPower (k : String) : ℤ := if k ∈ ["x0", "y0", "z0", "dx", "dy", "dz", "lx", "ly", "lz"] then 1 else 0

/-- The same for the section `strata`. -/
def strataPower (k : String) : ℤ := if k ∈ ["ae_z_mean", "avul"] then 1 else 0

/-- The same for the section `hydraulics`. The conductivities are left in their own unit. -/
def hydraulicsPower (k : String) : ℤ := if k ∈ ["ycorlengths", "ncorlengths"] then 1 else 0

/-- The same for element sections. The density of troughs is a number per area. -/
def elementPower (k : String) : ℤ :=
  if k = "trough_density" then -2
  else if k ∈ ["lens_thickness", "length", "width", "depth", "agg", "lag_height", "dipset_dist", "bulbset_dist", "migrate", "te_xyz", "ds", "mig"] then 1
  else 0

/-- A number of a contact model in the other unit. -/
def atomIn (a : ℚ) : Atom → Atom
  | .num q => .num (a * q)
  | x => x

/-- A contact model in the other unit. The variance is one of elevations. -/
def contactIn (c : ℚ) (m : ContactModel Atom) : ContactModel Atom :=
  { mode := m.mode, z := m.z.map (atomIn c), var := m.var.map (atomIn (c ^ 2)), corlx := m.corlx.map (atomIn c), corly := m.corly.map (atomIn c) }

/-- An entry of an element section in the other unit. The thickness -1 of sheets is no length: it stands for the thickness of the whole AE. -/
def entryIn (c : ℚ) (k : String) (v : Val) : Val :=
  if k = "lens_thickness" ∧ v = .leaf (.num (-1)) then v else inUnits (c ^ elementPower k) v

/-- An element section in the other unit, as far as a realisation uses it, in which no thickness becomes -1. -/
structure ElementIn (c : ℚ) (e e' : Element) : Prop where
  contact : e'.contact = contactIn c e.contact
  options : ∀ g k, e.dict "geometry" = some (.leaf (.text g)) → k ∈ elementUsed g → k ≠ "contact_model" → e'.dict k = (e.dict k).map (entryIn c k)
  thickness : ∀ q, e.dict "lens_thickness" = some (.leaf (.num q)) → q ≠ -1 → c * q ≠ -1

/-- The parsed ini-file in a unit of which the old one has `c`, as far as a realisation uses it. -/
structure InUnitOf (c : ℚ) (P P' : Parsed) : Prop where
  model : ∀ k ∈ modelUsed, P'.model k = (P.model k).map (inUnits (c ^ modelPower k))
  strata : ∀ k ∈ strataUsed, k ≠ "strata_contact_models" → P'.strata k = (P.strata k).map (inUnits (c ^ strataPower k))
  contacts : P'.contacts = P.contacts.map (contactIn c)
  hydraulics : ∀ k ∈ hydraulicsUsed, P'.hydraulics k = (P.hydraulics k).map (inUnits (c ^ hydraulicsPower k))
  elements : List.Forall₂ (fun e e' : String × Element => e'.1 = e.1 ∧ ElementIn c e.2 e'.2) P.elements P'.elements

/-- Draws whose random fields of elevations are `c` times as high; the numbers of passes granted to loops are the same. -/
structure FieldsIn (c : ℝ) (d d' : ℕ → StratumDraw ℝ) : Prop where
  field : ∀ si i j, (d' si).field i j = c * (d si).field i j
  fields : ∀ si n i j, ((d' si).aes n).field i j = c * ((d si).aes n).field i j
  fuel : ∀ si, (d' si).fuel = (d si).fuel
  fuels : ∀ si n, ((d' si).aes n).sheetFuel = ((d si).aes n).sheetFuel

/-- The same realisation in the other unit: the same cells and hydraulic parameters, and contact surfaces that are `c` times as high. -/
structure RealisationIn (c : ℝ) (S S' : Simulation) : Prop where
  shape : S'.shape = S.shape
  cells : S'.cells = S.cells
  params : S'.params = S.params
  count : S'.model.heap.next = S.model.heap.next
  surfaces : ∀ r i j, (S'.model.heap.get r).vals i j = c * (S.model.heap.get r).vals i j
  means : ∀ r, (S'.model.heap.get r).zmean = c * (S.model.heap.get r).zmean

/-- Both give such realisations, or both stop in the same way. -/
def AlikeIn (c : ℝ) : Except Stop Simulation → Except Stop Simulation → Prop
  | .ok S, .ok S' => RealisationIn c S S'
  | .error e, .error e' => e = e'
  | _, _ => False

end Hyvr.Spec
