import Verif.Props.FaciesNames

/-!
C49 in numbers: the facies numbers stored for an element are the positions of the names, counted from zero, without the
model's own notation for integers.
-/

namespace Hyvr

open Py

/-- **C49**, translation into positions counted from zero: the value stored for a list of declared names has, at every place,
the number `i` for which `hydrofacies[i]` is the first entry equal to the name at that place. -/
theorem C49_positions (hydro fs : List Val) (hf : ∀ f ∈ fs, f ∈ hydro) : ∃ vs : List Val,
    parseFacies (.node fs) hydro = .ok (.node vs) ∧ vs.length = fs.length ∧
    ∀ (k : ℕ) (f : Val), fs[k]? = some f → ∃ i : ℕ, vs[k]? = some (.leaf (.num (i : ℚ))) ∧ hydro[i]? = some f ∧
      ∀ j < i, hydro[j]? ≠ some f := by
  cases h : parseFacies (.node fs) hydro with
  | error e =>
    obtain ⟨⟨f, h1, h2⟩, -⟩ := (C49_undeclared hydro fs e).1 h
    exact absurd (hf f h1) h2
  | ok v =>
    obtain ⟨ns, rfl, hns⟩ := (C49_numbers hydro fs v).1 h
    refine ⟨_, rfl, by rw [List.length_map, hns.length_eq], ?_⟩
    intro k f hk
    obtain ⟨hl, hall⟩ := List.forall₂_iff_get.1 hns
    have hk1 : k < fs.length := (List.getElem?_eq_some_iff.1 hk).1
    have hfk : fs[k] = f := (List.getElem?_eq_some_iff.1 hk).2
    have hat := hall k hk1 (hl ▸ hk1)
    simp only [List.get_eq_getElem, hfk] at hat
    refine ⟨ns[k]'(hl ▸ hk1), ?_, hat.1, hat.2⟩
    rw [List.getElem?_map, List.getElem?_eq_getElem (hl ▸ hk1)]
    rfl

example : ∃ vs : List Val, parseFacies (Spec.texts ["cobbles".toList, "silt".toList]) exHydro = .ok (.node vs) ∧
    vs.length = 2 :=
  let ⟨vs, h, hl, _⟩ := C49_positions exHydro _ (by decide +kernel)
  ⟨vs, h, hl⟩

end Hyvr
