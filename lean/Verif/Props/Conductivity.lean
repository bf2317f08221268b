import Verif.Lemmas.Conductivity
import Verif.Props.Scaled

/-!
C126: the unit of conductivity.
-/

namespace Hyvr

open Py Spec

theorem conductsAlike_of {c : ℝ} (x : Except Stop Simulation) : ConductsAlike c x (x.map (Simulation.times c)) := by
  cases x with
  | error e => rfl
  | ok S =>
    refine ⟨rfl, rfl, rfl, ?_, fun h h' e e' => ?_⟩
    · show S.params = none ↔ S.params.map (HydData.times c) = none
      simp
    · have : S.params.map (HydData.times c) = some h' := e'
      rw [e] at this
      cases this
      refine ⟨fun _ _ _ => rfl, rfl, rfl, fun i j k => ?_, fun i j k K K' hK hK' a b => ?_⟩
      · show h.ktensors i j k = none ↔ (h.ktensors i j k).map (c • ·) = none
        simp
      · have : (h.ktensors i j k).map (c • ·) = some K' := hK'
        rw [hK] at this
        cases this
        rfl

/-- **C126.** Two accepted ini-files that write the same but for the conductivities of the facies, all of which are multiplied by the same number, give from the same
random numbers the same strata, AE, objects and cells, the same porosities and anisotropies, and conductivities and conductivity tensors that are multiplied by that
number, in every cell, for every level of heterogeneity and all trends; or both stop in the same way. -/
theorem C126 (C : Convs) (p p' : Ini) (hp : p.get "run" "dataoutputs" = none) (hp' : p'.get "run" "dataoutputs" = none) (dir dir' : Path)
    (ini ini' : List Char) (answer answer' : Path) (st st' : Settings) (hst : settings C p dir ini answer = .ok st)
    (hst' : settings C p' dir' ini' answer' = .ok st') (hs : SameButConductivity p p') (c : ℚ)
    (hk : st'.parsed.hydraulics "k_h" = (st.parsed.hydraulics "k_h").map (inUnits c)) :
    st'.ids = st.ids ∧ ∀ ids r o d field, ConductsAlike c (simulate st.parsed ids r o d field) (simulate st'.parsed ids r o d field) := by
  obtain ⟨p1, p2, -, -⟩ := settings_facts hp hst
  obtain ⟨q1, q2, -, -⟩ := settings_facts hp' hst'
  have h := same_of_conductivity p1 q1 hs hk
  refine ⟨Except.ok.inj (q2.symm.trans ((aeIds_agree h).symm.trans p2)), fun ids r o d field => ?_⟩
  rw [← simulate_agree h, simulate_times]
  exact conductsAlike_of _

/-- The example of two flat strata with conductivities in a unit that is a tenth as large. -/
def exTenfold : Ini := iniOf (withOptions "hydraulics" [("k_h", "[10, 20, 30]")] (withOptions "model" [] exCakeSections))

theorem tenfold_same : SameButConductivity (exCake []) exTenfold := by
  refine ⟨?_, fun s k _ hne => ?_⟩
  · unfold elementSections
    rw [show exTenfold.sections = (exCake []).sections from same_sections _ _ _]
  · by_cases hs : s = "hydraulics"
    · subst hs
      have hk : ¬ "k_h" = k := fun h => hne ⟨rfl, h.symm⟩
      show table _ k = table (("k_h", "[10, 20, 30]") :: _) k
      unfold table
      rw [List.find?_cons_of_neg (by simpa using hk)]
      rfl
    · rw [show exTenfold.get s = (exCake []).get s from other_sections _ _ _ s hs]

theorem exTenfold_ok : ∃ x, (do
    let st ← settings exMinus (exCake []) ["m"] "a.ini".toList []
    let st' ← settings exMinus exTenfold ["m"] "a.ini".toList []
    return (st, st') : Except PyErr (Settings × Settings)) = .ok x ∧ (decide (x.2.parsed.hydraulics "k_h" = (x.1.parsed.hydraulics "k_h").map (inUnits 10)) &&
      (cakeB "internal" 5 x.1.parsed && decide (x.2.parsed.hydraulics "k_h" = some (numList [10, 20, 30])))) = true := ok_check (by decide +kernel)

/-- C126 applies to the example, whose conductivities are 1, 2 and 3 in one file and 10, 20 and 30 in the other; the realisations exist and have hydraulic parameters. -/
example (field : FieldSource) : ∃ st st' S S' h h', settings exMinus (exCake []) ["m"] "a.ini".toList [] = .ok st ∧
    settings exMinus exTenfold ["m"] "a.ini".toList [] = .ok st' ∧ ∃ d,
    simulate st.parsed st.ids exReals (fun _ _ => exObjReals) d field = .ok S ∧ simulate st'.parsed st'.ids exReals (fun _ _ => exObjReals) d field = .ok S' ∧
    S.params = some h ∧ S'.params = some h' ∧ (∀ i j k, h'.kIso i j k = ((10 : ℚ) : ℝ) * h.kIso i j k) ∧ ConductivityIn (10 : ℚ) S S' := by
  obtain ⟨⟨st, st'⟩, h1, h2⟩ := exTenfold_ok
  simp only [bind_ok, pure_ok] at h1
  obtain ⟨a, ha, b, hb, hab⟩ := h1
  cases hab
  simp only [Bool.and_eq_true] at h2
  obtain ⟨h2, h3, -⟩ := h2
  have hnew : exTenfold.get "run" "dataoutputs" = none := by decide +kernel
  obtain ⟨F, S, hS, hF⟩ := cake_simulated ha (cake_of h3) field
  obtain ⟨hi, hA⟩ := C126 exMinus _ _ (cake_new _) hnew _ _ _ _ _ _ st st' ha hb tenfold_same 10 (of_decide_eq_true h2)
  have hA := hA st.ids exReals (fun _ _ => exObjReals) (fun si => withFuel F (exRealDraws si)) field
  rw [hF F le_rfl] at hA
  generalize hX : simulate st'.parsed st.ids exReals (fun _ _ => exObjReals) (fun si => withFuel F (exRealDraws si)) field = X at hA
  cases X with
  | error e => exact hA.elim
  | ok S' =>
    have hA : ConductivityIn (10 : ℚ) S S' := hA
    obtain ⟨-, -, -, -, hq⟩ := simulate_ok (hF F le_rfl)
    obtain ⟨h, hh, -⟩ := paramsOf_on (cake_of h3).hydraulics hq
    obtain ⟨h', hh'⟩ : ∃ h', S'.params = some h' := Option.ne_none_iff_exists'.1 fun hn => by
      rw [hA.missing.2 hn] at hh
      cases hh
    exact ⟨st, st', S, S', h, h', ha, hb, _, hF F le_rfl, hi ▸ hX, hh, hh', (hA.params h h' hh hh').kIso, hA⟩

end Hyvr
