import Verif.Lemmas.Idle
import Verif.Props.Parameters

/-!
C110: options that have no effect on a realisation.
-/

namespace Hyvr

open Py Spec

/-- **C110.** Two accepted ini-files with the same element sections that write the same in the options that a realisation uses give the same
realisation, from the same random numbers: the numbers of the elements, the model, the cells, and the hydraulic parameters or the exception are the same. So the
sections `run` and `flowtrans`, unknown options, and the documented options `anisotropy`, `n_ztrend` and `n_xtrend` of the elements and `lag` have no effect. -/
theorem C110_unused (C : Convs) (p p' : Ini) (P P' : Parsed) (h : parseInifile C p = .ok P) (h' : parseInifile C p' = .ok P') (hs : SameUsed p p') :
    aeIds P = aeIds P' ∧ ∀ ids r o d field, simulate P ids r o d field = simulate P' ids r o d field :=
  ⟨aeIds_agree (parsed_same h h' hs), fun ids r o d field => simulate_agree (parsed_same h h' hs) ids r o d field⟩

/-- Options that are never used: whatever their value, the realisation is the same. -/
theorem C110_documented (C : Convs) (p p' : Ini) (P P' : Parsed) (h : parseInifile C p = .ok P) (h' : parseInifile C p' = .ok P')
    (hsec : p.sections = p'.sections)
    (hs : ∀ s k, p.get s k ≠ p'.get s k → (s = "model" ∧ k = "anisotropy") ∨ (s ∉ ["model", "strata", "hydraulics"] ∧ k ∈ ["n_ztrend", "n_xtrend", "lag"])) :
    aeIds P = aeIds P' ∧ ∀ ids r o d field, simulate P ids r o d field = simulate P' ids r o d field := by
  refine C110_unused C p p' P P' h h' ⟨by unfold elementSections; rw [hsec], fun s k hu => ?_⟩
  by_contra hne
  have := hs s k hne
  cases hu with
  | model hk =>
    rcases this with ⟨-, rfl⟩ | ⟨hm, -⟩
    · exact absurd hk (by decide)
    · exact hm (by decide)
  | strata hk =>
    rcases this with ⟨hm, -⟩ | ⟨hm, -⟩
    · exact absurd hm (by decide)
    · exact hm (by decide)
  | hydraulics hk =>
    rcases this with ⟨hm, -⟩ | ⟨hm, -⟩
    · exact absurd hm (by decide)
    · exact hm (by decide)
  | element hs hg hk =>
    rcases this with ⟨rfl, -⟩ | ⟨-, hm⟩
    · simp [elementSections, mustHaves] at hs
    · have : ∀ U ∈ [commonUsed, erosiveUsed, ["bulbset_dist", "length", "trough_density", "paleoflow", "te_xyz", "migrate"],
          ["h", "k", "ds", "eps_factor", "channel_no", "mig", "flow_angle"], ["lens_thickness"]], ∀ k ∈ ["n_ztrend", "n_xtrend", "lag"], k ∉ U := by decide
      simp only [List.mem_cons, List.not_mem_nil, or_false, forall_eq_or_imp, forall_eq] at this
      unfold elementUsed at hk
      split_ifs at hk <;> simp only [List.mem_append] at hk <;> simp only [List.mem_cons, List.not_mem_nil, or_false] at hm <;>
        rcases hm with rfl | rfl | rfl <;> simp_all

/-! ### An example -/

/-- Check of `Spec.SameUsed`. -/
def sameUsedB (p p' : Ini) : Bool :=
  decide (elementSections p = elementSections p') && ((modelUsed.all fun k => decide (p.get "model" k = p'.get "model" k)) &&
  ((strataUsed.all fun k => decide (p.get "strata" k = p'.get "strata" k)) && ((hydraulicsUsed.all fun k => decide (p.get "hydraulics" k = p'.get "hydraulics" k)) &&
  (elementSections p).all fun s => match p.get s "geometry" with
    | some (.leaf (.text g)) => (elementUsed g).all fun k => decide (p.get s k = p'.get s k)
    | _ => true)))

theorem same_used {p p' : Ini} (h : sameUsedB p p' = true) : SameUsed p p' := by
  simp only [sameUsedB, Bool.and_eq_true] at h
  obtain ⟨h1, h2, h3, h4, h5⟩ := h
  refine ⟨of_decide_eq_true h1, fun s k hu => ?_⟩
  cases hu with
  | model hk => exact of_decide_eq_true (List.all_eq_true.1 h2 _ hk)
  | strata hk => exact of_decide_eq_true (List.all_eq_true.1 h3 _ hk)
  | hydraulics hk => exact of_decide_eq_true (List.all_eq_true.1 h4 _ hk)
  | element hs hg hk =>
    have := List.all_eq_true.1 h5 _ hs
    rw [hg] at this
    exact of_decide_eq_true (List.all_eq_true.1 this _ hk)

/-- The example with options that are not used. -/
def exIdle : Ini := iniOf (withOptions "run" [("outputs", "[mat]")] (withOptions "scour" [("n_ztrend", "[1, 2]"), ("n_xtrend", "[3, 4]"), ("lag", "[1, 2]"),
  ("colour", "red")] (withOptions "sheets" [("agg", "1")] (withOptions "model" [("anisotropy", "false")] exRiverSections))))

theorem exIdle_ok : ∃ P, parseInifile exConvs exIdle = .ok P := isOk_iff.1 (by decide +kernel)

/-- C110 applies to the example: it is accepted, and its realisation is that of the example without these options, which succeeds. -/
example (field : FieldSource) : ∃ (P P' : Parsed) (ids : List (String × ℕ)) (d : ℕ → StratumDraw ℝ) (S : Simulation),
    parseInifile exConvs (exRiverWith []) = .ok P ∧ parseInifile exConvs exIdle = .ok P' ∧ aeIds P' = .ok ids ∧
    simulate P ids exReals (fun _ _ => exObjReals) d field = .ok S ∧ simulate P' ids exReals (fun _ _ => exObjReals) d field = .ok S := by
  obtain ⟨st, hst, hb⟩ := river_internal
  obtain ⟨F, S, -, hF⟩ := river_simulated hst (by decide +kernel) hb field
  obtain ⟨p1, p2, -⟩ := settings_facts (by decide +kernel) hst
  obtain ⟨P', hP'⟩ := exIdle_ok
  obtain ⟨h1, h2⟩ := C110_unused _ _ _ _ _ p1 hP' (same_used (by decide +kernel))
  exact ⟨_, P', _, _, S, p1, hP', h1.symm.trans p2, hF F le_rfl, (h2 _ _ _ _ _).symm.trans (hF F le_rfl)⟩

/-- The hypothesis of `C110_documented` is met by two files that differ in `anisotropy`. -/
example : ∀ s k, (exRiverWith []).get s k ≠ (exRiverWith [("anisotropy", "false")]).get s k → s = "model" ∧ k = "anisotropy" := by
  intro s k hne
  by_cases hs : s = "model"
  · subst hs
    refine ⟨rfl, ?_⟩
    by_contra hk
    refine hne ?_
    have e1 : (exRiverWith []).get "model" = table [("dx", "5"), ("dz", "1"), ("lx", "100"), ("ly", "50"), ("lz", "10")] := by rfl
    have e2 : (exRiverWith [("anisotropy", "false")]).get "model" =
        table [("anisotropy", "false"), ("dx", "5"), ("dz", "1"), ("lx", "100"), ("ly", "50"), ("lz", "10")] := by rfl
    rw [e1, e2]
    unfold table
    rw [List.find?_cons_of_neg (l := [("dx", "5"), ("dz", "1"), ("lx", "100"), ("ly", "50"), ("lz", "10")]) (by simpa using fun h => hk h.symm)]
  · exact absurd (by rw [river_with _ s hs, river_with _ s hs]) hne

end Hyvr
