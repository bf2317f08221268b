import Verif.Spec.Idle
import Verif.Spec.Site
import Verif.Spec.Inside
import Verif.Model.Parameters

/-!
Ini-files that differ in the horizontal resolution (C135).
-/

namespace Hyvr.Spec

/-- Two ini-files that have the same element sections and write the same in the options that a realisation uses, but for the width of the cells, `dx` and `dy`. -/
structure SameButWidth (p p' : Ini) : Prop where
  sections : elementSections p = elementSections p'
  options : ∀ s k, Used p s k → ¬ (s = "model" ∧ (k = "dx" ∨ k = "dy")) → p.get s k = p'.get s k

/-- All contacts, between strata and between AEs, are flat. -/
structure AllFlat (P : Parsed) : Prop where
  strata : ∀ c ∈ P.contacts, c.mode = "flat"
  elements : ∀ name e, (name, e) ∈ P.elements → e.contact.mode = "flat"

/-- The elements are sheets and troughs. -/
def NoChannels (P : Parsed) : Prop :=
  ∀ name e, (name, e) ∈ P.elements → written e.dict "geometry" "sheet" ∨ written e.dict "geometry" "trough"

/-- The same draws but for the random fields of contact surfaces. -/
def SameButFields (d d' : ℕ → StratumDraw ℝ) : Prop :=
  ∀ si, ∃ (f : ℕ → ℕ → ℝ) (fs : ℕ → ℕ → ℕ → ℝ), d' si = { d si with field := f, aes := fun n => { (d si).aes n with field := fs n } }

end Hyvr.Spec
