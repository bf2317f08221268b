import Verif.Model.ParseList

/-!
Specification vocabulary for shapes of nested lists.
-/

namespace Hyvr
namespace Spec

/-- All values are nested exactly `d` levels deep. -/
def Uniform {α : Type} : ℕ → Tree α → Prop
  | 0, .leaf _ => True
  | 0, .node _ => False
  | _ + 1, .leaf _ => False
  | d + 1, .node l => ∀ t ∈ l, Uniform d t

/-- The nested list has the dimensions `ns`, where -1 stands for any length (possibly different ones). -/
def Matches {α : Type} : List ℤ → Tree α → Prop
  | [], .leaf _ => True
  | [], .node _ => False
  | _ :: _, .leaf _ => False
  | n :: ns, .node l => (n = -1 ∨ (l.length : ℤ) = n) ∧ ∀ t ∈ l, Matches ns t

end Spec
end Hyvr
