import Verif.Model.Objects

/-!
What it means that two models have the same layers, and that two ini-files differ in what is inside the layers only.
-/

namespace Hyvr.Spec

/-- The same contact: the same elevation in every column of the grid, and the same mean elevation. -/
structure SameContact (nx ny : ℕ) (s s' : Surface ℝ) : Prop where
  vals : ∀ i < nx, ∀ j < ny, s'.vals i j = s.vals i j
  zmean : s'.zmean = s.zmean

/-- The same architectural element, apart from what is inside. `h`, `h'` hold the contacts of the two models. -/
structure SameAE (nx ny : ℕ) (h h' : Heap ℝ) (a a' : AEReal ℝ) : Prop where
  name : a'.name = a.name
  typeId : a'.typeId = a.typeId
  num : a'.num = a.num
  bottom : SameContact nx ny (h.get a.bottom) (h'.get a'.bottom)
  top : SameContact nx ny (h.get a.top) (h'.get a'.top)

/-- The same stratum, apart from what is inside its architectural elements. -/
structure SameStratum (nx ny : ℕ) (h h' : Heap ℝ) (s s' : StratumReal ℝ) : Prop where
  bottom : SameContact nx ny (h.get s.bottom) (h'.get s'.bottom)
  top : SameContact nx ny (h.get s.top) (h'.get s'.top)
  aes : List.Forall₂ (SameAE nx ny h h') s.aes s'.aes

/-- The same strata and architectural elements. -/
structure SameLayers (m m' : GenModel ℝ) : Prop where
  nx : m'.heap.nx = m.heap.nx
  ny : m'.heap.ny = m.heap.ny
  strata : List.Forall₂ (SameStratum m.heap.nx m.heap.ny m.heap m'.heap) m.strata m'.strata

/-- Two ini-files that agree in the extent and spacing of the grid, in the strata and in the contacts. Everything else in the sections of the elements
(geometry, sizes, density, structure, facies, angles) is free, and so are all other options of the model and the other sections. -/
structure SameFrame (P P' : Parsed) : Prop where
  grid : ∀ k ∈ ["dx", "dy", "lx", "ly", "z0", "lz"], P'.model k = P.model k
  strata : P'.strata = P.strata
  contacts : P'.contacts = P.contacts
  elements : P'.elements.map (fun e => (e.1, e.2.contact)) = P.elements.map fun e => (e.1, e.2.contact)

/-- The same as sections of ini-files: the same grid (cells may differ in height), the same section `strata`, the same names of facies, the same sections of elements with the
same option `contact_model`. -/
structure SameButInside (p p' : Ini) : Prop where
  grid : ∀ k ∈ ["dx", "dy", "lx", "ly", "z0", "lz"], p'.get "model" k = p.get "model" k
  strata : p'.get "strata" = p.get "strata"
  facies : p'.get "hydraulics" "hydrofacies" = p.get "hydraulics" "hydrofacies"
  sections : elementSections p' = elementSections p
  contacts : ∀ s ∈ elementSections p, p'.get s "contact_model" = p.get s "contact_model"

/-- The same random fields for the contacts. -/
structure SameFields (d d' : ℕ → StratumDraw ℝ) : Prop where
  strata : ∀ si, (d' si).field = (d si).field
  aes : ∀ si n, ((d' si).aes n).field = ((d si).aes n).field

end Hyvr.Spec
