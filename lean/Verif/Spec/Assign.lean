import Verif.Model.Assign

/-!
Specification of point assignment: every cell gets the first (uppermost) unit that claims it. No memory, no
shortcuts based on vertical ranges beyond the object's own range.
-/

namespace Hyvr.Spec

variable {α : Type} [LinearOrder α]

/-- What object `o` says about the cell: it must be in the vertical range and accepted by the test. -/
def objHit (xi yi : ℕ) (z : α) (o : Obj α) : Option (Hit α) :=
  if o.zmin ≤ z ∧ z ≤ o.zmax then o.test xi yi z else none

/-- The record of a cell of AE `a` inside an object. -/
def hitRec (a : AE α) (h : Hit α) : Geo α :=
  { facies := h.facies, ae := a.num, ha := h.ha, hat := a.typeId, azim := h.azim, dip := h.dip }

/-- The record of a background cell of AE `a`. -/
def bgRec (a : AE α) : Geo α :=
  { facies := a.bgFacies, ae := a.num, ha := -1, hat := a.typeId, azim := a.bgAzim, dip := a.bgDip }

/-- The background of a non-sheet AE is strictly between its surfaces. -/
def inBg (xi yi : ℕ) (z : α) (a : AE α) : Prop :=
  a.isSheet = false ∧ a.bottom xi yi < z ∧ z < a.top xi yi

instance (xi yi : ℕ) (z : α) (a : AE α) : Decidable (inBg xi yi z a) := by unfold inBg; infer_instance

/-- Index and answer of the first object that contains the cell. -/
def firstObj (xi yi : ℕ) (z : α) : List (Obj α) → Option (ℕ × Hit α)
  | [] => none
  | o :: rest => match objHit xi yi z o with
    | some h => some (0, h)
    | none => (firstObj xi yi z rest).map fun r => (r.1 + 1, r.2)

/-- What AE `a` says about the cell: first containing object, else background, else nothing. The first
component is the object index (`none` for background). -/
def aeRec (xi yi : ℕ) (z : α) (a : AE α) : Option (Option ℕ × Geo α) :=
  match firstObj xi yi z a.objs with
  | some (k, h) => some (some k, hitRec a h)
  | none => if inBg xi yi z a then some (none, bgRec a) else none

/-- First AE of a stratum that claims the cell. -/
def firstAE (xi yi : ℕ) (z : α) : List (AE α) → Option (ℕ × Option ℕ × Geo α)
  | [] => none
  | a :: rest => match aeRec xi yi z a with
    | some r => some (0, r)
    | none => (firstAE xi yi z rest).map fun r => (r.1 + 1, r.2)

/-- A place in the model: stratum, AE in the stratum, object in the AE (or background). -/
structure Place where
  si : ℕ
  aei : ℕ
  oi : Option ℕ
  deriving DecidableEq

/-- First unit of the whole model that claims the cell, with its record. -/
def firstPlace (xi yi : ℕ) (z : α) : List (Stratum α) → Option (Place × Geo α)
  | [] => none
  | s :: rest => match firstAE xi yi z s.aes with
    | some (aei, oi, g) => some (⟨0, aei, oi⟩, g)
    | none => (firstPlace xi yi z rest).map fun r => ({ r.1 with si := r.1.si + 1 }, r.2)

/-- `q` is not above `p`: later stratum, or same stratum and later AE, or same AE and, if both are objects, not an
earlier object. -/
def Place.NotAbove (p q : Place) : Prop :=
  p.si < q.si ∨ (p.si = q.si ∧ (p.aei < q.aei ∨ (p.aei = q.aei ∧ ∀ a ∈ p.oi, ∀ b ∈ q.oi, a ≤ b)))

/-- Facies numbers written by objects and backgrounds are never the marker value -1. -/
def FaciesOK (strata : List (Stratum α)) : Prop :=
  ∀ s ∈ strata, ∀ a ∈ s.aes, a.bgFacies ≠ -1 ∧
    ∀ o ∈ a.objs, ∀ xi yi z h, o.test xi yi z = some h → h.facies ≠ -1

/-- Objects are ordered from the top: an object is never claimed above the top of an earlier one. (Implied by
descending `zmax`.) -/
def Ordered (xi yi : ℕ) (z : α) (objs : List (Obj α)) : Prop :=
  objs.Pairwise fun o o' => objHit xi yi z o' ≠ none → z ≤ o.zmax

/-- The reported minima of AEs and strata enclose what they contain (property C09 shows it for generated models). -/
def Encloses (xi yi : ℕ) (z : α) (strata : List (Stratum α)) : Prop :=
  ∀ s ∈ strata, ∀ a ∈ s.aes, aeRec xi yi z a ≠ none → a.zmin ≤ z ∧ s.zmin ≤ z

end Hyvr.Spec
