import Verif.Spec.Scaled

/-!
Ini-files that give the conductivities in another unit (C126).
-/

namespace Hyvr.Spec

/-- Two ini-files that have the same element sections and write the same in the options that a realisation uses, but for the conductivities `k_h` of the facies. -/
structure SameButConductivity (p p' : Ini) : Prop where
  sections : elementSections p = elementSections p'
  options : ∀ s k, Used p s k → ¬ (s = "hydraulics" ∧ k = "k_h") → p.get s k = p'.get s k

/-- The same hydraulic parameters, with conductivities that are `c` times as large. A tensor is missing in both or in none. -/
structure ParamsIn (c : ℝ) (h h' : HydData) : Prop where
  kIso : ∀ i j k, h'.kIso i j k = c * h.kIso i j k
  poros : h'.poros = h.poros
  anirat : h'.anirat = h.anirat
  missing : ∀ i j k, h.ktensors i j k = none ↔ h'.ktensors i j k = none
  ktensors : ∀ i j k K K', h.ktensors i j k = some K → h'.ktensors i j k = some K' → ∀ a b, K' a b = c * K a b

/-- The same realisation, with conductivities that are `c` times as large. -/
structure ConductivityIn (c : ℝ) (S S' : Simulation) : Prop where
  shape : S'.shape = S.shape
  model : S'.model = S.model
  cells : S'.cells = S.cells
  missing : S.params = none ↔ S'.params = none
  params : ∀ h h', S.params = some h → S'.params = some h' → ParamsIn c h h'

/-- Both give such realisations, or both stop in the same way. -/
def ConductsAlike (c : ℝ) : Except Stop Simulation → Except Stop Simulation → Prop
  | .ok S, .ok S' => ConductivityIn c S S'
  | .error e, .error e' => e = e'
  | _, _ => False

end Hyvr.Spec
