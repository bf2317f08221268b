import Verif.Model.Complete
import Verif.Spec.Generate
import Verif.Spec.Placing
import Verif.Spec.Finish

/-!
Vocabulary of C111: complete runs.
-/

namespace Hyvr
namespace Spec

open Py

/-- The simulation ends, with a model or with an exception. -/
def EndsIn (x : Except Stop Simulation) : Prop := (∃ S, x = .ok S) ∨ ∃ e, x = .error (.err e)

/-- The outputs listed in the ini-file. -/
def OutputsListed (P : Parsed) (fmts : List String) : Prop := P.run "outputs" = some (.node (fmts.map fun f => .leaf (.text f.toList)))

/-- The writers of the listed outputs fail at most for a missing library, and write into the directory of the realisation. -/
def WritersFit (write : Writers) (runname : List Char) (S : Simulation) (fmts : List String) : Prop :=
  ∀ f ∈ fmts, ((write runname S f).2 = none ∨ (write runname S f).2 = some .importError) ∧ ∀ x ∈ (write runname S f).1, x.1 ≠ []

/-- Random numbers as numpy gives them: uniform ones in their ranges, and factors of thicknesses that are at least `γ`. -/
structure Usual (γ : ℚ) (ch : Chance) : Prop where
  uniforms : Uniforms ch.randoms
  normals : ∀ si n, (γ : ℝ) ≤ 1 + ch.randoms.normal si n / 10
  objects : ∀ si n, UniformObjs (ch.objects si n)

/-- The same random numbers with `N` passes granted to each loop. -/
def passes (N : ℕ) (ch : Chance) : Chance := { ch with draws := fun si => withFuel N (ch.draws si) }

end Spec
end Hyvr
