import Verif.Spec.Surely

/-!
Strata in which AEs are thinner on average than avulsions are deep (C134).
-/

namespace Hyvr.Spec

/-- In stratum `si` of `n`, counted from the top, AEs are thinner on average than avulsions are deep. -/
def ThinOnAverage (P : Parsed) (n si : ℕ) : Prop :=
  ∃ lv listed weights means prob rest lo hi, EntryOf P "ae_in_strata" n si lv ∧ ItemsOf lv listed ∧
    EntryOf P "ae_prob" n si (numList weights) ∧ EntryOf P "ae_z_mean" n si (numList means) ∧
    EntryOf P "avul_prob" n si (.node (numVal prob :: rest)) ∧ EntryOf P "avul" n si (numList [lo, hi]) ∧
    averageThickness listed weights means < max 0 (min prob 1) * ((lo + hi) / 2)

/-- A contact between strata that is flat at the given level. -/
def FlatContact (P : Parsed) (i : ℕ) (z : ℚ) : Prop := ∃ c, P.contacts[i]? = some c ∧ c.mode = "flat" ∧ c.z = some (.num z)

/-- Stratum `si` of `n`, counted from the top, lies between flat surfaces at the given levels: contacts between strata, which are listed from the bottom, the top
of the domain or its bottom. -/
structure BetweenFlat (P : Parsed) (n si : ℕ) (top bottom : ℚ) : Prop where
  highest : si = 0 → P.model "lz" = some (numVal top)
  above : 0 < si → FlatContact P (n - 1 - si) top
  lowest : si + 1 = n → P.model "z0" = some (numVal bottom)
  below : si + 1 < n → FlatContact P (n - 2 - si) bottom

end Hyvr.Spec
