import Verif.Lemmas.ShapeLength
import Verif.Props.Section
import Verif.Model.IniFile

/-!
Lengths of the lists of an accepted section, for arbitrary texts.
-/

namespace Hyvr

open Py

/-- A list option that is accepted went through `shapeValue`. -/
theorem optValue_shape {o : Opt} {conv : List Char → Except PyErr Atom} {decl : ShapeDecl} {d : Dict} {v : Val}
    (hk : o.kind = .list conv decl) (hd : decl ≠ .num (-1)) (h : optValue o d = .ok v) :
    ∃ s value shape, d o.name = some (.leaf (.text s)) ∧ parseList conv s = .ok value ∧
      allTrue o.valid value = true ∧ resolveShape d decl = .ok shape ∧ shapeValue shape value = .ok v := by
  unfold optValue at h
  rw [bind_ok] at h
  obtain ⟨s, hs, h⟩ := h
  simp only [hk, bind_ok] at h
  obtain ⟨value, hp, h⟩ := h
  unfold listValue at h
  split at h
  · rename_i hv
    have hs' : d o.name = some (.leaf (.text s)) := by
      unfold Dict.text at hs
      split at hs
      · rename_i he
        cases hs
        exact he
      · cases hs
      · cases hs
    split at h
    · exact absurd rfl hd
    · rw [bind_ok] at h
      obtain ⟨shape, hr, h⟩ := h
      exact ⟨s, value, shape, hs', hp, hv, hr, h⟩
  · cases h

theorem optValue_len_fixed {o : Opt} {conv : List Char → Except PyErr Atom} {decl : ShapeDecl} {n : ℤ} {d : Dict} {v : Val}
    (hk : o.kind = .list conv decl) (hd : (decl = .num n ∧ n ≠ -1) ∨ decl = .dims [.num n]) (h : optValue o d = .ok v) :
    ∃ l, v = .node l ∧ l ≠ [] ∧ (n = -1 ∨ (l.length : ℤ) = n) ∧ getShape v = .ok (.node [.leaf (l.length : ℤ)]) := by
  have hne : decl ≠ .num (-1) := by
    rcases hd with ⟨rfl, hn⟩ | rfl
    · intro e
      cases e
      exact hn rfl
    · simp
  obtain ⟨s, value, shape, _, _, _, hr, hv⟩ := optValue_shape hk hne h
  have hr' : resolveShape d decl = .ok [.leaf n] := by
    rcases hd with ⟨rfl, _⟩ | rfl <;> rfl
  rw [hr] at hr'
  cases hr'
  exact shapeValue_len_one hv

theorem optValue_len_table {o : Opt} {conv : List Char → Except PyErr Atom} {k : String} {m : ℤ} {d : Dict} {v : Val}
    {refs : List Val} (hk : o.kind = .list conv (.dims [.len k, .num m])) (href : d k = some (.node refs))
    (h : optValue o d = .ok v) :
    ∃ l ss, v = .node l ∧ l.length = refs.length ∧ l ≠ [] ∧ numdim (.node ss) = .ok 1 ∧
      getShape v = .ok (.node [.leaf (l.length : ℤ), .node ss]) := by
  obtain ⟨s, value, shape, _, _, _, hr, hv⟩ := optValue_shape hk (by simp) h
  have hr' : resolveShape d (.dims [.len k, .num m]) = .ok [.leaf (refs.length : ℤ), .leaf m] := by
    simp only [resolveShape, mapPy, resolveDim, Dict.len, href, Bind.bind, Except.bind]
    rfl
  rw [hr] at hr'
  cases hr'
  obtain ⟨l, ss, rfl, hne, hl, hss, hg⟩ := shapeValue_len_two hv
  exact ⟨l, ss, rfl, by omega, hne, hss, hg⟩

theorem optValue_len_matrix {o : Opt} {conv : List Char → Except PyErr Atom} {a b : ℤ} {d : Dict} {v : Val}
    (hk : o.kind = .list conv (.dims [.num a, .num b])) (h : optValue o d = .ok v) :
    ∃ l ss, v = .node l ∧ l ≠ [] ∧ (a = -1 ∨ (l.length : ℤ) = a) ∧ numdim (.node ss) = .ok 1 ∧
      getShape v = .ok (.node [.leaf (l.length : ℤ), .node ss]) := by
  obtain ⟨s, value, shape, _, _, _, hr, hv⟩ := optValue_shape hk (by simp) h
  have hr' : resolveShape d (.dims [.num a, .num b]) = .ok [.leaf a, .leaf b] := rfl
  rw [hr] at hr'
  cases hr'
  exact shapeValue_len_two hv

theorem resolve_same {d : Dict} {k : String} {v : Val} {r : List (Tree ℤ)} (hd : d k = some v)
    (hg : getShape v = .ok (.node r)) : resolveShape d (.same k) = .ok r := by
  simp only [resolveShape, hd, hg, Bind.bind, Except.bind]
  rfl

theorem optValue_len_same {o : Opt} {conv : List Char → Except PyErr Atom} {k : String} {d : Dict} {v : Val}
    {refs : List Val} (hk : o.kind = .list conv (.same k)) (href : d k = some (.node refs))
    (hg : getShape (.node refs) = .ok (.node [.leaf (refs.length : ℤ)])) (h : optValue o d = .ok v) :
    ∃ l, v = .node l ∧ l.length = refs.length ∧ l ≠ [] := by
  obtain ⟨s, value, shape, _, _, _, hr, hv⟩ := optValue_shape hk (by simp) h
  rw [resolve_same href hg] at hr
  cases hr
  obtain ⟨l, rfl, hne, hl, _⟩ := shapeValue_len_one hv
  exact ⟨l, rfl, by omega, hne⟩

theorem optValue_len_like {o : Opt} {conv : List Char → Except PyErr Atom} {k : String} {d : Dict} {v : Val}
    {refs : List Val} {ss : List (Tree ℤ)} (hk : o.kind = .list conv (.same k)) (href : d k = some (.node refs))
    (hss : numdim (.node ss) = .ok 1) (hg : getShape (.node refs) = .ok (.node [.leaf (refs.length : ℤ), .node ss]))
    (h : optValue o d = .ok v) : ∃ l, v = .node l ∧ l.length = refs.length ∧ l ≠ [] := by
  obtain ⟨s, value, shape, _, _, _, hr, hv⟩ := optValue_shape hk (by simp) h
  rw [resolve_same href hg] at hr
  cases hr
  obtain ⟨l, ss', rfl, hne, hl, _⟩ := shapeValue_len_like hss (by omega) hv
  exact ⟨l, rfl, by omega, hne⟩

/-- Distinct names without alternatives. -/
theorem wellNamed_simple {opts : List Opt} (ha : ∀ o ∈ opts, o.alternatives = []) (hn : (opts.map (·.name)).Nodup) :
    Spec.WellNamed opts := by
  refine ⟨?_, fun o ho => by simp [ha o ho]⟩
  rw [List.Nodup, List.pairwise_map] at hn
  refine hn.imp_of_mem ?_
  intro o p ho hp hne k hk
  simp only [Spec.names, ha o ho, ha p hp, List.mem_singleton] at hk ⊢
  rw [hk]
  exact hne

theorem strata_named (C : Convs) : Spec.WellNamed (optsStrata C) := by
  refine wellNamed_simple ?_ ?_
  · simp [optsStrata]
  · have : (optsStrata C).map (·.name) = ["strata", "strata_contact_models", "ae", "ae_in_strata", "ae_prob", "ae_z_mean",
      "avul_prob", "avul", "bg_facies", "bg_azim", "bg_dip"] := rfl
    rw [this]
    decide +kernel

theorem run_named (C : Convs) : Spec.WellNamed (optsRun C) := by
  refine wellNamed_simple ?_ ?_
  · simp [optsRun]
  · have : (optsRun C).map (·.name) = ["runname", "modeldir", "numsim", "outputs", "overwrite_old_output"] := rfl
    rw [this]
    decide +kernel

theorem model_named (C : Convs) : Spec.WellNamed (optsModel C) := by
  refine wellNamed_simple ?_ ?_
  · simp [optsModel]
  · have : (optsModel C).map (·.name) = ["x0", "y0", "z0", "dx", "dy", "dz", "lx", "ly", "lz", "periodic", "hydraulics", "anisotropy", "heterogeneity",
      "heterogeneity_level"] := rfl
    rw [this]
    decide +kernel

theorem hydraulics_named (C : Convs) : Spec.WellNamed (optsHydraulics C) := by
  refine wellNamed_simple ?_ ?_
  · simp [optsHydraulics]
  · have : (optsHydraulics C).map (·.name) = ["hydrofacies", "k_h", "sig_y", "k_ratio", "n", "sig_n", "ycorlengths", "ncorlengths", "k_ztrend", "k_xtrend",
      "n_ztrend", "n_xtrend"] := rfl
    rw [this]
    decide +kernel

theorem flowtrans_named (C : Convs) : Spec.WellNamed (optsFlowtrans C) := by
  refine wellNamed_simple ?_ ?_
  · simp [optsFlowtrans]
  · have : (optsFlowtrans C).map (·.name) = ["hin", "hout", "gradh", "q_in", "kw_gradh", "kw_q_in"] := rfl
    rw [this]
    decide +kernel

theorem trough_named (C : Convs) : Spec.WellNamed (optsTrough C) := by
  refine wellNamed_simple ?_ ?_
  · simp [optsTrough, optsElement, optsErosive]
  · have : (optsTrough C).map (·.name) = ["geometry", "contact_model", "facies", "altfacies", "size_ztrend", "k_ztrend", "k_xtrend", "n_xtrend",
      "n_ztrend", "dip", "azimuth", "bg_facies", "bg_azim", "bg_dip", "agg", "buffer", "lag", "lag_height",
      "lag_facies", "structure", "dipset_dist", "bulbset_dist", "length", "width", "depth", "trough_density",
      "paleoflow", "te_xyz", "migrate"] := rfl
    rw [this]
    decide +kernel

theorem channel_named (C : Convs) : Spec.WellNamed (optsChannel C) := by
  refine wellNamed_simple ?_ ?_
  · simp [optsChannel, optsElement, optsErosive]
  · have : (optsChannel C).map (·.name) = ["geometry", "contact_model", "facies", "altfacies", "size_ztrend", "k_ztrend", "k_xtrend", "n_xtrend",
      "n_ztrend", "dip", "azimuth", "bg_facies", "bg_azim", "bg_dip", "agg", "buffer", "lag", "lag_height",
      "lag_facies", "structure", "dipset_dist", "width", "depth", "h", "k", "ds", "eps_factor", "channel_no", "mig",
      "flow_angle"] := rfl
    rw [this]
    decide +kernel

theorem sheet_named (C : Convs) : Spec.WellNamed (optsSheet C) := by
  refine wellNamed_simple ?_ ?_
  · simp [optsSheet, optsElement, optsErosive]
  · have : (optsSheet C).map (·.name) = ["geometry", "contact_model", "facies", "altfacies", "size_ztrend", "k_ztrend", "k_xtrend", "n_xtrend",
      "n_ztrend", "dip", "azimuth", "bg_facies", "bg_azim", "bg_dip", "structure", "dipset_dist", "lens_thickness"] := rfl
    rw [this]
    decide +kernel

/-- A required option of an accepted section. -/
theorem section_required {opts : List Opt} (hw : Spec.WellNamed opts) {d d' : Dict} (h : parseSection opts d = .ok d')
    (pre post : List Opt) (o : Opt) (ho : opts = pre ++ o :: post) (hreq : o.isOptional = false) :
    ∃ ctx raw v, Spec.given d o = some raw ∧ ctx o.name = some raw ∧ optValue o ctx = .ok v ∧ d' o.name = some v ∧
      ∀ k ∈ pre.map (·.name), ctx k = d' k := by
  obtain ⟨h1, h2⟩ := C46_present opts hw d d' h pre post o ho
  cases hg : Spec.given d o with
  | none =>
    have := (h2 hg).1
    rw [hreq] at this
    cases this
  | some raw =>
    obtain ⟨ctx, v, a, b, c, e⟩ := h1 raw hg
    refine ⟨ctx, raw, v, rfl, a, b, c, ?_⟩
    intro k hk
    obtain ⟨p, hp, rfl⟩ := List.mem_map.1 hk
    exact e p hp

/-- All lists of an accepted strata section have one entry per stratum. -/
theorem strata_lens {C : Convs} {raw d : Dict} (h : parseSection (optsStrata C) raw = .ok d) :
    ∃ n, 1 ≤ n ∧ (∀ k ∈ "ae_in_strata" :: stratumNames, ∃ l, d k = some (.node l) ∧ l.length = n) ∧
      ∃ l, d "strata_contact_models" = some (.node l) ∧ l ≠ [] := by
  have hw := strata_named C
  obtain ⟨_, _, v, _, _, hv, hd, _⟩ := section_required hw h [] _ _ rfl rfl
  obtain ⟨names, rfl, hne, _, hg⟩ := optValue_len_fixed rfl (Or.inr rfl) hv
  have hd0 : d "strata" = some (.node names) := hd
  -- contact models
  obtain ⟨_, _, v, _, _, hv, hd, _⟩ := section_required hw h [_] _ _ rfl rfl
  obtain ⟨cs, _, rfl, hcs, _⟩ := optValue_len_matrix rfl hv
  have hd1 : d "strata_contact_models" = some (.node cs) := hd
  -- elements of each stratum
  obtain ⟨ctx, _, v, _, _, hv, hd, hctx⟩ := section_required hw h [_, _, _] _ _ rfl rfl
  have hc : ctx "strata" = some (.node names) := (hctx "strata" (by simp)).trans hd0
  obtain ⟨aes, ss, rfl, haes, haes0, hss, hgae⟩ := optValue_len_table rfl hc hv
  have hd2 : d "ae_in_strata" = some (.node aes) := hd
  obtain ⟨ctx, _, v, _, _, hv, hd, hctx⟩ := section_required hw h [_, _, _, _] _ _ rfl rfl
  have hc : ctx "ae_in_strata" = some (.node aes) := (hctx "ae_in_strata" (by simp)).trans hd2
  obtain ⟨l3, rfl, hl3, _⟩ := optValue_len_like rfl hc hss hgae hv
  have hd3 : d "ae_prob" = some (.node l3) := hd
  obtain ⟨ctx, _, v, _, _, hv, hd, hctx⟩ := section_required hw h [_, _, _, _, _] _ _ rfl rfl
  have hc : ctx "ae_in_strata" = some (.node aes) := (hctx "ae_in_strata" (by simp)).trans hd2
  obtain ⟨l4, rfl, hl4, _⟩ := optValue_len_like rfl hc hss hgae hv
  have hd4 : d "ae_z_mean" = some (.node l4) := hd
  -- avulsion
  obtain ⟨ctx, _, v, _, _, hv, hd, hctx⟩ := section_required hw h [_, _, _, _, _, _] _ _ rfl rfl
  have hc : ctx "strata" = some (.node names) := (hctx "strata" (by simp)).trans hd0
  obtain ⟨l5, _, rfl, hl5, _⟩ := optValue_len_table rfl hc hv
  have hd5 : d "avul_prob" = some (.node l5) := hd
  obtain ⟨ctx, _, v, _, _, hv, hd, hctx⟩ := section_required hw h [_, _, _, _, _, _, _] _ _ rfl rfl
  have hc : ctx "strata" = some (.node names) := (hctx "strata" (by simp)).trans hd0
  obtain ⟨l6, _, rfl, hl6, _⟩ := optValue_len_table rfl hc hv
  have hd6 : d "avul" = some (.node l6) := hd
  -- background
  obtain ⟨ctx, _, v, _, _, hv, hd, hctx⟩ := section_required hw h [_, _, _, _, _, _, _, _] _ _ rfl rfl
  have hc : ctx "strata" = some (.node names) := (hctx "strata" (by simp)).trans hd0
  obtain ⟨l7, rfl, hl7, _⟩ := optValue_len_same rfl hc hg hv
  have hd7 : d "bg_facies" = some (.node l7) := hd
  obtain ⟨ctx, _, v, _, _, hv, hd, hctx⟩ := section_required hw h [_, _, _, _, _, _, _, _, _] _ _ rfl rfl
  have hc : ctx "strata" = some (.node names) := (hctx "strata" (by simp)).trans hd0
  obtain ⟨l8, rfl, hl8, _⟩ := optValue_len_same rfl hc hg hv
  have hd8 : d "bg_azim" = some (.node l8) := hd
  obtain ⟨ctx, _, v, _, _, hv, hd, hctx⟩ := section_required hw h [_, _, _, _, _, _, _, _, _, _] _ _ rfl rfl
  have hc : ctx "strata" = some (.node names) := (hctx "strata" (by simp)).trans hd0
  obtain ⟨l9, rfl, hl9, _⟩ := optValue_len_same rfl hc hg hv
  have hd9 : d "bg_dip" = some (.node l9) := hd
  refine ⟨names.length, List.length_pos_iff.2 hne, ?_, cs, hd1, hcs⟩
  intro k hk
  simp only [stratumNames, List.mem_cons, List.not_mem_nil, or_false] at hk
  rcases hk with rfl | rfl | rfl | rfl | rfl | rfl | rfl | rfl | rfl
  · exact ⟨_, hd2, haes⟩
  · exact ⟨_, hd7, hl7⟩
  · exact ⟨_, hd8, hl8⟩
  · exact ⟨_, hd9, hl9⟩
  · exact ⟨_, hd3, hl3.trans haes⟩
  · exact ⟨_, hd4, hl4.trans haes⟩
  · exact ⟨_, hd6, hl6⟩
  · exact ⟨_, hd5, hl5⟩
  · exact ⟨_, hd0, rfl⟩

end Hyvr
