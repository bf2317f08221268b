import Verif.Model.Generate
import Verif.Props.Setup

/-!
What C99 assumes about an ini-file, beyond that it was accepted.
-/

namespace Hyvr

/-- A value of the parsed dictionary: a number. -/
abbrev numVal (q : ℚ) : Val := .leaf (.num q)

/-- A list of numbers. -/
abbrev numList (l : List ℚ) : Val := .node (l.map numVal)

/-- A table of numbers. -/
abbrev numTable (ll : List (List ℚ)) : Val := .node (ll.map numList)

namespace Spec

/-- The list options of the strata section. -/
def strataLists : List String :=
  ["strata", "strata_contact_models", "ae", "ae_in_strata", "ae_prob", "ae_z_mean", "avul_prob", "avul", "bg_facies", "bg_azim",
    "bg_dip"]

/-- The mode of the contact model is written in small letters. -/
def SmallMode (cm : ContactModel Atom) : Prop := cm.mode.toList.map Char.toLower = cm.mode.toList

/-- The ini-file `p`, parsed as `P`: every element of a stratum has a section; lists are well written; modes of contact models are in
small letters; no weight of `ae_prob` is negative and each stratum has a positive one; no mean thickness is negative. -/
structure WellFilled (p : Ini) (P : Parsed) : Prop where
  names : NamesKnown p P
  lists : ∀ k ∈ strataLists, ∀ t, p.get "strata" k = some (.leaf (.text t)) → WellWritten t
  trends : ∀ s ∈ elementSections p, ∀ t, p.get s "size_ztrend" = some (.leaf (.text t)) → WellWritten t
  contacts : ∀ c ∈ P.contacts, SmallMode c
  elements : ∀ e ∈ P.elements, SmallMode e.2.contact
  weights : ∀ ll, P.strata "ae_prob" = some (numTable ll) → ∀ l ∈ ll, (∀ w ∈ l, 0 ≤ w) ∧ ∃ w ∈ l, 0 < w
  means : ∀ ll, P.strata "ae_z_mean" = some (numTable ll) → ∀ l ∈ ll, ∀ m ∈ l, 0 ≤ m

/-- A uniform random number. -/
def InUnit {α : Type} [Field α] [LinearOrder α] (q : α) : Prop := 0 ≤ q ∧ q < 1

/-- The uniform random numbers are in [0, 1). -/
structure Uniforms {α : Type} [Field α] [LinearOrder α] (r : Randoms α) : Prop where
  first : ∀ si, InUnit (r.first si)
  next : ∀ si n, InUnit (r.next si n)
  avulU : ∀ si n, InUnit (r.avulU si n)
  avulV : ∀ si n, InUnit (r.avulV si n)

end Spec
end Hyvr
