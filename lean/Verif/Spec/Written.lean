import Verif.Spec.Generate
import Verif.Spec.Stack
import Mathlib.Algebra.BigOperators.Group.Finset.Basic

/-!
What the values of an ini-file mean for the generated model (C100, C101).
-/

namespace Hyvr.Spec

/-- Entry of the option `k` of the section `strata` for stratum `si` of `n` counted from the top; the options list the strata from the
bottom. -/
def EntryOf (P : Parsed) (k : String) (n si : ℕ) (v : Val) : Prop :=
  ∃ l, P.strata k = some (.node l) ∧ l.length = n ∧ l[n - 1 - si]? = some v

/-- What Python iterates over: the items of a list, or the characters of a text. -/
def ItemsOf (v : Val) (l : List Val) : Prop := v = .node l ∨ ∃ s : List Char, v = .leaf (.text s) ∧ l = s.map fun c => .leaf (.text [c])

/-- An angle in the parsed ini-file; a missing one is NaN. -/
def angleVal : Option ℚ → Val
  | some q => .leaf (.num q)
  | none => .leaf .nan

/-- An element's own value, or the stratum's if the element has none (`missing`). -/
def ownOr (missing own stratum : Val) : Val := if own = missing then stratum else own

variable {α : Type} [Field α] [LinearOrder α]

/-- The share of the first `j` weights in the sum of all. -/
def shareBelow (w : List ℚ) (j : ℕ) : ℚ := (w.take j).sum / w.sum

/-- The uniform number that decides on the type of AE `k` of stratum `si`. -/
def decides (r : Randoms α) (si : ℕ) : ℕ → α
  | 0 => r.first si
  | k + 1 => r.next si k

/-- Type number `j` is the choice for `u`: its interval of the cumulated weights contains `u`. -/
def Chosen (w : List ℚ) (u : α) (j : ℕ) : Prop := (shareBelow w j : α) ≤ u ∧ u < (shareBelow w (j + 1) : α)

/-- The mean level of a contact surface before it is cut off. -/
def meanLevel (mode : String) (z : α) (nx ny : ℕ) (field : ℕ → ℕ → α) : α :=
  if mode = "random" then z + (∑ i ∈ Finset.range nx, ∑ j ∈ Finset.range ny, field i j) / (nx * ny) else z

/-- The thickness of an AE with mean thickness `q`, normal number `x`, and uniform numbers `u` and `v` for the avulsion. -/
def drawnThickness (q x prob lo hi u v : α) : α := q * (1 + x / 10) - if u ≤ prob then lo + (hi - lo) * v else 0

/-- Lens thicknesses of sheets are positive, or -1 for one sheet filling the AE, as are the factors of their trends. -/
def ThickSheets (P : Parsed) : Prop := ∀ name e, (name, e) ∈ P.elements → e.dict "geometry" = some (.leaf (.text "sheet".toList)) →
  ∀ q, e.dict "lens_thickness" = some (numVal q) → q = -1 ∨ 0 < q ∧ ∀ f0 f1, e.dict "size_ztrend" = some (numList [f0, f1]) → 0 < f0 ∧ 0 < f1

/-- The AEs and sheets of the ini-file are thick enough: a positive `δ` remains of `γ` times every mean thickness of a stratum even after
the greatest avulsion, and lens thicknesses of sheets are positive, or -1 for one sheet filling the AE, as are the factors of their
trends. -/
structure ThickEnough (P : Parsed) (n : ℕ) (γ δ : ℚ) : Prop where
  aes : ∀ si means lo hi, EntryOf P "ae_z_mean" n si (numList means) → EntryOf P "avul" n si (numList [lo, hi]) →
    ∀ m ∈ means, δ ≤ γ * m ∧ δ + lo ≤ γ * m ∧ δ + hi ≤ γ * m
  sheets : ThickSheets P

end Hyvr.Spec
