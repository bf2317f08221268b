import Verif.Spec.Translate
import Verif.Lemmas.Idle

/-!
Parsing an ini-file of the old format gives what parsing its translation gives (C113).
-/

namespace Hyvr

open Py Spec

/-! ### Single options -/

/-- No other option of the table takes or leaves a value under the names of option `n`, and later options do not change what its shape refers to. -/
def placedB (opts : List Opt) (n : ℕ) : Bool :=
  match opts[n]? with
  | none => false
  | some o => ((opts.take n).all fun p => (names o).all fun k => !decide (k ∈ names p)) && ((opts.drop (n + 1)).all fun p => !decide (o.name ∈ names p)) &&
    !decide (o.name ∈ o.alternatives) && o.refs.all fun r => !decide (r ∈ names o) && (opts.drop (n + 1)).all fun p => !decide (r ∈ names p)

theorem option_at {opts : List Opt} {raw d : Dict} (h : parseSection opts raw = .ok d) {n : ℕ} {o : Opt} (ho : opts[n]? = some o)
    (hp : placedB opts n = true) :
    ∃ ctx v, ctx o.name = given raw o ∧ parsePresent o ctx = .ok v ∧ d o.name = some v ∧ ∀ r ∈ o.refs, ctx r = d r := by
  simp only [placedB, ho, Bool.and_eq_true, List.all_eq_true, Bool.not_eq_true', decide_eq_false_iff_not] at hp
  obtain ⟨⟨⟨h1, h2⟩, h3⟩, h4⟩ := hp
  obtain ⟨hn, hon⟩ := List.getElem?_eq_some_iff.1 ho
  have he : opts = opts.take n ++ ([o] ++ opts.drop (n + 1)) := by
    rw [← hon, List.singleton_append, List.cons_getElem_drop_succ, List.take_append_drop]
  rw [he] at h
  obtain ⟨d1, h5, h6⟩ := parseSection_append h
  obtain ⟨d2, h7, h8⟩ := parseSection_append h6
  have h7 : parseOption d1 o = .ok d2 := by
    unfold parseSection at h7
    rw [List.foldlM_cons, bind_ok] at h7
    obtain ⟨x, hx, hx'⟩ := h7
    cases hx'
    exact hx
  have hg : given d1 o = given raw o := given_congr fun k hk => parseSection_frame h5 k fun p hp => h1 p hp k hk
  have hfr := h7
  simp only [parseOption, bind_ok, pure_ok] at h7
  obtain ⟨v, hv, rfl⟩ := h7
  refine ⟨_, v, ?_, hv, ?_, fun r hr => ?_⟩
  · rw [useAlternative_name _ _ _ h3, ← hg]
    rfl
  · rw [parseSection_frame h8 _ h2]
    simp [Dict.set]
  · obtain ⟨h9, h10⟩ := h4 r hr
    simp only [names, List.mem_cons, not_or] at h9
    rw [parseSection_frame h8 _ h10, useAlternative_frame _ _ _ _ h9.1 h9.2, Dict.set, Function.update_of_ne h9.1, useAlternative_frame _ _ _ _ h9.1 h9.2]

/-- Two entries of shapes that refer to the same values. -/
inductive SameDim (d d' : Dict) : Dim → Dim → Prop
  | num (n : ℤ) : SameDim d d' (.num n) (.num n)
  | len {k k' : String} : d k = d' k' → SameDim d d' (.len k) (.len k')

/-- Two shapes that refer to the same values. -/
inductive SameShape (d d' : Dict) : ShapeDecl → ShapeDecl → Prop
  | num (n : ℤ) : SameShape d d' (.num n) (.num n)
  | same {k k' : String} : d k = d' k' → SameShape d d' (.same k) (.same k')
  | dims {l l' : List Dim} : List.Forall₂ (SameDim d d') l l' → SameShape d d' (.dims l) (.dims l')

/-- Two kinds of options that read the same from the same text. -/
inductive SameKind (d d' : Dict) : Kind → Kind → Prop
  | bool : SameKind d d' .bool .bool
  | scalar (c : List Char → Except PyErr Atom) : SameKind d d' (.scalar c) (.scalar c)
  | list (c : List Char → Except PyErr Atom) {s s' : ShapeDecl} : SameShape d d' s s' → SameKind d d' (.list c s) (.list c s')

theorem sameDim_resolve {d d' ctx ctx' : Dict} {a b : Dim} (h : SameDim d d' a b) (h1 : ∀ r ∈ a.refs, ctx r = d r) (h2 : ∀ r ∈ b.refs, ctx' r = d' r) :
    resolveDim ctx a = resolveDim ctx' b := by
  cases h with
  | num n => rfl
  | len hk => simp only [resolveDim, Dict.len, h1 _ (List.mem_singleton_self _), h2 _ (List.mem_singleton_self _), hk]

theorem sameShape_resolve {d d' ctx ctx' : Dict} {s s' : ShapeDecl} (h : SameShape d d' s s') (h1 : ∀ r ∈ s.refs, ctx r = d r)
    (h2 : ∀ r ∈ s'.refs, ctx' r = d' r) : resolveShape ctx s = resolveShape ctx' s' := by
  cases h with
  | num n => rfl
  | same hk => simp only [resolveShape, h1 _ (List.mem_singleton_self _), h2 _ (List.mem_singleton_self _), hk]
  | @dims l l' hl =>
    simp only [resolveShape]
    induction hl with
    | nil => rfl
    | @cons a b l l' hab _ ih =>
      simp only [ShapeDecl.refs, List.flatMap_cons, List.mem_append] at h1 h2 ih
      rw [mapPy, mapPy, sameDim_resolve hab (fun r hr => h1 r (Or.inl hr)) (fun r hr => h2 r (Or.inl hr)),
        ih (fun r hr => h1 r (Or.inr hr)) (fun r hr => h2 r (Or.inr hr))]

theorem sameKind_value {d d' ctx ctx' : Dict} {o o' : Opt} (hk : SameKind d d' o.kind o'.kind) (h1 : ∀ r ∈ o.refs, ctx r = d r)
    (h2 : ∀ r ∈ o'.refs, ctx' r = d' r) (hn : ctx o.name = ctx' o'.name) {v v' : Val} (hv : optValue o ctx = .ok v) (hv' : optValue o' ctx' = .ok v') :
    v = v' := by
  have ht : ctx.text o.name = ctx'.text o'.name := by simp only [Dict.text, hn]
  simp only [optValue, bind_ok] at hv hv'
  obtain ⟨s, hs, hv⟩ := hv
  obtain ⟨s', hs', hv'⟩ := hv'
  rw [ht, hs'] at hs
  cases hs
  simp only [Opt.refs] at h1 h2
  generalize o.kind = K at hk hv h1
  generalize o'.kind = K' at hk hv' h2
  have hval : ∀ {o : Opt} {a : Atom} {v : Val}, validated o a = .ok v → v = .leaf a := by
    intro o a v h
    unfold validated at h
    split_ifs at h
    cases h
    rfl
  cases hk with
  | bool =>
    simp only [bind_ok] at hv hv'
    obtain ⟨b, hb, hv⟩ := hv
    obtain ⟨b', hb', hv'⟩ := hv'
    rw [hb] at hb'
    cases hb'
    rw [hval hv, hval hv']
  | scalar c =>
    simp only [bind_ok] at hv hv'
    obtain ⟨b, hb, hv⟩ := hv
    obtain ⟨b', hb', hv'⟩ := hv'
    rw [hb] at hb'
    cases hb'
    rw [hval hv, hval hv']
  | @list c sh sh' hsh =>
    simp only [bind_ok] at hv hv'
    obtain ⟨b, hb, hv⟩ := hv
    obtain ⟨b', hb', hv'⟩ := hv'
    rw [hb] at hb'
    cases hb'
    have hr := sameShape_resolve hsh h1 h2
    unfold listValue at hv hv'
    by_cases ha : allTrue o.valid b = true
    · by_cases ha' : allTrue o'.valid b = true
      · rw [if_pos ha] at hv
        rw [if_pos ha'] at hv'
        cases hsh with
        | num n =>
          exact Except.ok.inj (hv.symm.trans hv')
        | same hk =>
          simp only at hv hv'
          rw [hr, hv'] at hv
          cases hv
          rfl
        | dims hl =>
          simp only at hv hv'
          rw [hr, hv'] at hv
          cases hv
          rfl
      · rw [if_neg ha'] at hv'
        cases hv'
    · rw [if_neg ha] at hv
      cases hv

/-- An option of the new format gets the value that the old option gets, if it is written the same. -/
theorem option_same {opts opts' : List Opt} {raw raw' d d' : Dict} (h : parseSection opts raw = .ok d) (h' : parseSection opts' raw' = .ok d')
    (n n' : ℕ) {o o' : Opt} (ho : opts[n]? = some o) (ho' : opts'[n']? = some o') (hp : placedB opts n = true) (hp' : placedB opts' n' = true)
    (ha : o'.alternatives = []) (hk : SameKind d d' o.kind o'.kind) (hd : o.isOptional = true → o'.isOptional = true → o.default = o'.default)
    (hg : raw' o'.name = firstOf raw (names o)) : d o.name = d' o'.name := by
  obtain ⟨ctx, v, h1, h2, h3, h4⟩ := option_at h ho hp
  obtain ⟨ctx', v', h1', h2', h3', h4'⟩ := option_at h' ho' hp'
  rw [given_simple ha, hg] at h1'
  have hn : ctx o.name = ctx' o'.name := by
    rw [h1, h1']
    rfl
  rw [h3, h3']
  unfold parsePresent at h2 h2'
  rw [hn] at h2
  by_cases hs : (ctx' o'.name).isSome = true
  · rw [if_pos hs] at h2 h2'
    rw [sameKind_value hk h4 h4' hn h2 h2']
  · rw [if_neg hs] at h2 h2'
    by_cases hq : o.isOptional = true
    · by_cases hq' : o'.isOptional = true
      · rw [if_pos hq] at h2
        rw [if_pos hq'] at h2'
        cases h2
        cases h2'
        rw [hd hq hq']
      · rw [if_neg hq'] at h2'
        cases h2'
    · rw [if_neg hq] at h2
      cases h2

/-! ### Sections -/

theorem defaultTo_frame {k dflt : String} {d d' : Dict} (h : defaultTo k dflt d = .ok d') {k' : String} (hk : k' ≠ k) : d' k' = d k' := by
  simp only [defaultTo, bind_ok] at h
  obtain ⟨v, -, h⟩ := h
  by_cases hn : v = .leaf .none
  · rw [if_pos hn] at h
    simp only [bind_ok, pure_ok] at h
    obtain ⟨a, -, rfl⟩ := h
    exact set_ne _ _ hk
  · rw [if_neg hn] at h
    cases h
    rfl

/-- The options of the grid. -/
def gridUsed : List String := ["x0", "y0", "z0", "dx", "dy", "dz", "lx", "ly", "lz", "periodic"]

theorem grid_same {C : Convs} {raw raw' d d' : Dict} (h : parseSection (oldOptsModel C) raw = .ok d) (h' : parseSection (optsModel C) raw' = .ok d')
    (ht : Renames modelNames raw raw') : AgreeOn gridUsed d d' ∧ d "hetlev" = d' "heterogeneity_level" := by
  have g : ∀ k ∈ gridUsed, d k = d' k := by
    intro k hk
    simp only [gridUsed, List.mem_cons, List.not_mem_nil, or_false] at hk
    rcases hk with rfl | rfl | rfl | rfl | rfl | rfl | rfl | rfl | rfl | rfl
    · exact option_same h h' 0 0 rfl rfl rfl rfl rfl (.scalar _) (fun _ _ => rfl) (ht ("x0", ["x0"]) (by decide))
    · exact option_same h h' 1 1 rfl rfl rfl rfl rfl (.scalar _) (fun _ _ => rfl) (ht ("y0", ["y0"]) (by decide))
    · exact option_same h h' 2 2 rfl rfl rfl rfl rfl (.scalar _) (fun _ _ => rfl) (ht ("z0", ["z0"]) (by decide))
    · exact option_same h h' 3 3 rfl rfl rfl rfl rfl (.scalar _) (fun _ _ => rfl) (ht ("dx", ["dx"]) (by decide))
    · exact option_same h h' 4 4 rfl rfl rfl rfl rfl (.scalar _) (fun _ _ => rfl) (ht ("dy", ["dy"]) (by decide))
    · exact option_same h h' 5 5 rfl rfl rfl rfl rfl (.scalar _) (fun _ _ => rfl) (ht ("dz", ["dz"]) (by decide))
    · exact option_same h h' 6 6 rfl rfl rfl rfl rfl (.scalar _) (fun _ _ => rfl) (ht ("lx", ["lx"]) (by decide))
    · exact option_same h h' 7 7 rfl rfl rfl rfl rfl (.scalar _) (fun _ _ => rfl) (ht ("ly", ["ly"]) (by decide))
    · exact option_same h h' 8 8 rfl rfl rfl rfl rfl (.scalar _) (fun _ _ => rfl) (ht ("lz", ["lz"]) (by decide))
    · exact option_same h h' 9 9 rfl rfl rfl rfl rfl .bool (fun _ _ => rfl) (ht ("periodic", ["periodic", "flag_periodic"]) (by decide))
  exact ⟨g, option_same h h' 11 13 rfl rfl rfl rfl rfl (.scalar _) (fun h => absurd h (by simp)) (ht ("heterogeneity_level", ["hetlev"]) (by decide))⟩

theorem strata_same {C : Convs} {raw raw' d d' : Dict} (h : parseSection (oldOptsStrata C) raw = .ok d) (h' : parseSection (optsStrata C) raw' = .ok d')
    (ht : Renames strataNames raw raw') :
    d "ssm" = d' "strata" ∧ d "ae" = d' "ae" ∧ d "ssm_ae" = d' "ae_in_strata" ∧ d "ae_prob" = d' "ae_prob" ∧ d "ae_z_mean" = d' "ae_z_mean" ∧
      d "avul_prob" = d' "avul_prob" ∧ d "avul" = d' "avul" := by
  have e1 : d "ssm" = d' "strata" :=
    option_same h h' 0 0 rfl rfl rfl rfl rfl (.list _ (.dims (.cons (.num _) .nil))) (fun _ _ => rfl) (ht ("strata", ["ssm", "l_ssm", "l_seq"]) (by decide))
  have e2 : d "ae" = d' "ae" :=
    option_same h h' 6 2 rfl rfl rfl rfl rfl (.list _ (.dims (.cons (.num _) .nil))) (fun _ _ => rfl) (ht ("ae", ["ae", "l_ae"]) (by decide))
  have e3 : d "ssm_ae" = d' "ae_in_strata" :=
    option_same h h' 7 3 rfl rfl rfl rfl rfl (.list _ (.dims (.cons (.len e1) (.cons (.num _) .nil)))) (fun _ _ => rfl) (ht ("ae_in_strata", ["ssm_ae", "ll_ssm_ae"]) (by decide))
  have e4 : d "ae_prob" = d' "ae_prob" :=
    option_same h h' 8 4 rfl rfl rfl rfl rfl (.list _ (.same e3)) (fun _ _ => rfl) (ht ("ae_prob", ["ae_prob", "ll_ae_prob"]) (by decide))
  have e5 : d "ae_z_mean" = d' "ae_z_mean" :=
    option_same h h' 9 5 rfl rfl rfl rfl rfl (.list _ (.same e3)) (fun _ _ => rfl) (ht ("ae_z_mean", ["ae_z_mean", "ll_ae_z_mean"]) (by decide))
  have e6 : d "avul_prob" = d' "avul_prob" :=
    option_same h h' 10 6 rfl rfl rfl rfl rfl (.list _ (.dims (.cons (.len e1) (.cons (.num _) .nil)))) (fun _ _ => rfl) (ht ("avul_prob", ["avul_prob", "ll_avul_prob"]) (by decide))
  have e7 : d "avul" = d' "avul" :=
    option_same h h' 11 7 rfl rfl rfl rfl rfl (.list _ (.dims (.cons (.len e1) (.cons (.num _) .nil)))) (fun _ _ => rfl) (ht ("avul", ["avul", "ll_avul"]) (by decide))
  exact ⟨e1, e2, e3, e4, e5, e6, e7⟩

theorem hydraulics_same {C : Convs} {raw raw' d d' : Dict} (h : parseSection (oldOptsHydraulics C) raw = .ok d)
    (h' : parseSection (optsHydraulics C) raw' = .ok d') (ht : Renames hydraulicsNames raw raw') :
    d "hydro" = d' "hydrofacies" ∧ ∀ k ∈ hydraulicsRead, k ≠ "hydrofacies" → d k = d' k := by
  have e1 : d "hydro" = d' "hydrofacies" := option_same h h' 1 0 rfl rfl rfl rfl rfl (.list _ (.dims (.cons (.num _) .nil))) (fun _ _ => rfl) (ht ("hydrofacies", ["hydro", "l_hydro"]) (by decide))
  refine ⟨e1, fun k hk hne => ?_⟩
  simp only [hydraulicsRead, hydraulicsUsed, List.mem_filter, List.mem_cons, List.not_mem_nil, or_false, decide_eq_true_eq] at hk
  obtain ⟨rfl | rfl | rfl | rfl | rfl | rfl | rfl | rfl | rfl | rfl | rfl | rfl | rfl, hk⟩ := hk
  · exact absurd rfl hne
  · exact option_same h h' 2 1 rfl rfl rfl rfl rfl (.list _ (.same e1)) (fun _ _ => rfl) (ht ("k_h", ["k_h", "r_k_h"]) (by decide))
  · exact option_same h h' 3 2 rfl rfl rfl rfl rfl (.list _ (.same e1)) (fun _ _ => rfl) (ht ("sig_y", ["sig_y", "r_sig_y"]) (by decide))
  · exact option_same h h' 4 3 rfl rfl rfl rfl rfl (.list _ (.same e1)) (fun _ _ => rfl) (ht ("k_ratio", ["k_ratio", "r_k_ratio"]) (by decide))
  · exact option_same h h' 5 4 rfl rfl rfl rfl rfl (.list _ (.same e1)) (fun _ _ => rfl) (ht ("n", ["n", "r_n"]) (by decide))
  · exact option_same h h' 6 5 rfl rfl rfl rfl rfl (.list _ (.same e1)) (fun _ _ => rfl) (ht ("sig_n", ["sig_n", "r_sig_n"]) (by decide))
  · exact option_same h h' 7 6 rfl rfl rfl rfl rfl (.list _ (.dims (.cons (.len e1) (.cons (.num _) .nil)))) (fun _ _ => rfl) (ht ("ycorlengths", ["ycorlengths", "ll_ycorlengths"]) (by decide))
  · exact option_same h h' 8 7 rfl rfl rfl rfl rfl (.list _ (.dims (.cons (.len e1) (.cons (.num _) .nil)))) (fun _ _ => rfl) (ht ("ncorlengths", ["ncorlengths", "ll_ncorlengths"]) (by decide))
  · exact option_same h h' 9 8 rfl rfl rfl rfl rfl (.list _ (.num _)) (fun _ _ => rfl) (ht ("k_ztrend", ["k_ztrend", "r_k_ztrend"]) (by decide))
  · exact option_same h h' 10 9 rfl rfl rfl rfl rfl (.list _ (.num _)) (fun _ _ => rfl) (ht ("k_xtrend", ["k_xtrend", "r_k_xtrend"]) (by decide))
  · exact option_same h h' 11 10 rfl rfl rfl rfl rfl (.list _ (.num _)) (fun _ _ => rfl) (ht ("n_ztrend", ["n_ztrend", "r_n_ztrend"]) (by decide))
  · exact option_same h h' 12 11 rfl rfl rfl rfl rfl (.list _ (.num _)) (fun _ _ => rfl) (ht ("n_xtrend", ["n_xtrend", "r_n_xtrend"]) (by decide))
  · exact absurd rfl hk

/-! ### Elements -/

theorem str_kept {C : Convs} {k : String} {valid : Atom → Bool} {d d' : Dict}
    (h : parseOption d { name := k, kind := .scalar C.str, valid } = .ok d') : d' = d := by
  simp only [parseOption, useAlternative, bind_ok, pure_ok, parsePresent] at h
  obtain ⟨v, hv, rfl⟩ := h
  by_cases hs : (d k).isSome = true
  · rw [if_pos hs] at hv
    obtain ⟨r, hr⟩ := Option.isSome_iff_exists.1 hs
    obtain ⟨t, a, rfl, ha, rfl⟩ := scalar_value rfl hr hv
    cases ha
    funext k'
    unfold Dict.set
    by_cases he : k' = k
    · subst he
      rw [Function.update_self, hr]
    · rw [Function.update_of_ne he]
  · rw [if_neg hs] at hv
    cases hv

/-- The options of an old element section but the first two; `structure` is declared twice. -/
theorem old_rest {C : Convs} {g : List Char} {opts : List Opt} (ho : oldGeometryOpts C g = .ok opts) {raw d : Dict} (h : parseSection opts raw = .ok d) :
    parseSection (opts.drop 2) raw = .ok d := by
  have key : ∃ valid, opts = { name := "geometry", kind := .scalar C.str, valid } :: { name := "structure", kind := .scalar C.str } :: opts.drop 2 := by
    unfold oldGeometryOpts at ho
    split_ifs at ho <;> cases ho <;> exact ⟨_, rfl⟩
  obtain ⟨valid, key⟩ := key
  rw [key] at h
  simp only [parseSection, List.foldlM_cons, bind_ok] at h ⊢
  obtain ⟨d1, h1, d2, h2, h⟩ := h
  rw [str_kept h1] at h2
  rw [str_kept h2] at h
  exact h

theorem sheet_same {C : Convs} {raw raw' d d' : Dict} (h : parseSection ((oldOptsSheet C).drop 2) raw = .ok d)
    (h' : parseSection (optsSheet C) raw' = .ok d') (ht : Renames elementNames raw raw') (ht' : Renames sheetNames raw raw') :
    d "structure" = d' "structure" ∧
      d "geo_ztrend" = d' "size_ztrend" ∧
      d "k_ztrend" = d' "k_ztrend" ∧
      d "k_xtrend" = d' "k_xtrend" ∧
      d "dip" = d' "dip" ∧
      d "azimuth" = d' "azimuth" ∧
      d "dipset_d" = d' "dipset_dist" ∧
      d "lens_thickness" = d' "lens_thickness" := by
  have e_structure : d "structure" = d' "structure" :=
    option_same h h' 10 14 rfl rfl rfl rfl rfl (.scalar _) (fun _ _ => rfl) (ht ("structure", ["structure"]) (by decide))
  have e_size_ztrend : d "geo_ztrend" = d' "size_ztrend" :=
    option_same h h' 4 4 rfl rfl rfl rfl rfl (.list _ (.num _)) (fun _ _ => rfl) (ht ("size_ztrend", ["geo_ztrend", "r_geo_ztrend"]) (by decide))
  have e_k_ztrend : d "k_ztrend" = d' "k_ztrend" :=
    option_same h h' 5 5 rfl rfl rfl rfl rfl (.list _ (.num _)) (fun _ _ => rfl) (ht ("k_ztrend", ["k_ztrend", "r_k_ztrend"]) (by decide))
  have e_k_xtrend : d "k_xtrend" = d' "k_xtrend" :=
    option_same h h' 6 6 rfl rfl rfl rfl rfl (.list _ (.num _)) (fun _ _ => rfl) (ht ("k_xtrend", ["k_xtrend", "r_k_xtrend"]) (by decide))
  have e_dip : d "dip" = d' "dip" :=
    option_same h h' 13 9 rfl rfl rfl rfl rfl (.list _ (.num _)) (fun _ _ => rfl) (ht ("dip", ["dip", "r_dip"]) (by decide))
  have e_azimuth : d "azimuth" = d' "azimuth" :=
    option_same h h' 14 10 rfl rfl rfl rfl rfl (.list _ (.num _)) (fun _ _ => rfl) (ht ("azimuth", ["azimuth", "r_azimuth"]) (by decide))
  have e_dipset_dist : d "dipset_d" = d' "dipset_dist" :=
    option_same h h' 12 15 rfl rfl rfl rfl rfl (.scalar _) (fun _ _ => rfl) (ht ("dipset_dist", ["dipset_d"]) (by decide))
  have e_lens_thickness : d "lens_thickness" = d' "lens_thickness" :=
    option_same h h' 11 16 rfl rfl rfl rfl rfl (.scalar _) (fun _ _ => rfl) (ht' ("lens_thickness", ["lens_thickness"]) (by decide))
  exact ⟨e_structure, e_size_ztrend, e_k_ztrend, e_k_xtrend, e_dip, e_azimuth, e_dipset_dist, e_lens_thickness⟩

theorem trough_same {C : Convs} {raw raw' d d' : Dict} (h : parseSection ((oldOptsTruncEllip C).drop 2) raw = .ok d)
    (h' : parseSection (optsTrough C) raw' = .ok d') (ht : Renames elementNames raw raw') (ht' : Renames troughNames raw raw') :
    d "structure" = d' "structure" ∧
      d "geo_ztrend" = d' "size_ztrend" ∧
      d "k_ztrend" = d' "k_ztrend" ∧
      d "k_xtrend" = d' "k_xtrend" ∧
      d "dip" = d' "dip" ∧
      d "azimuth" = d' "azimuth" ∧
      d "dipset_d" = d' "dipset_dist" ∧
      d "agg" = d' "agg" ∧
      d "buffer" = d' "buffer" ∧
      d "width" = d' "width" ∧
      d "depth" = d' "depth" ∧
      d "length" = d' "length" ∧
      d "el_z" = d' "trough_density" ∧
      d "paleoflow" = d' "paleoflow" ∧
      d "bulbset_d" = d' "bulbset_dist" ∧
      d "te_xyz" = d' "te_xyz" ∧
      d "migrate" = d' "migrate" := by
  have e_structure : d "structure" = d' "structure" :=
    option_same h h' 16 19 rfl rfl rfl rfl rfl (.scalar _) (fun _ _ => rfl) (ht ("structure", ["structure"]) (by decide))
  have e_size_ztrend : d "geo_ztrend" = d' "size_ztrend" :=
    option_same h h' 4 4 rfl rfl rfl rfl rfl (.list _ (.num _)) (fun _ _ => rfl) (ht ("size_ztrend", ["geo_ztrend", "r_geo_ztrend"]) (by decide))
  have e_k_ztrend : d "k_ztrend" = d' "k_ztrend" :=
    option_same h h' 5 5 rfl rfl rfl rfl rfl (.list _ (.num _)) (fun _ _ => rfl) (ht ("k_ztrend", ["k_ztrend", "r_k_ztrend"]) (by decide))
  have e_k_xtrend : d "k_xtrend" = d' "k_xtrend" :=
    option_same h h' 6 6 rfl rfl rfl rfl rfl (.list _ (.num _)) (fun _ _ => rfl) (ht ("k_xtrend", ["k_xtrend", "r_k_xtrend"]) (by decide))
  have e_dip : d "dip" = d' "dip" :=
    option_same h h' 15 9 rfl rfl rfl rfl rfl (.list _ (.num _)) (fun h => absurd h (by simp)) (ht ("dip", ["dip", "r_dip"]) (by decide))
  have e_azimuth : d "azimuth" = d' "azimuth" :=
    option_same h h' 22 10 rfl rfl rfl rfl rfl (.list _ (.num _)) (fun h => absurd h (by simp)) (ht ("azimuth", ["azimuth", "r_azimuth"]) (by decide))
  have e_dipset_dist : d "dipset_d" = d' "dipset_dist" :=
    option_same h h' 12 20 rfl rfl rfl rfl rfl (.scalar _) (fun _ _ => rfl) (ht ("dipset_dist", ["dipset_d"]) (by decide))
  have e_agg : d "agg" = d' "agg" :=
    option_same h h' 10 14 rfl rfl rfl rfl rfl (.scalar _) (fun _ _ => rfl) (ht' ("agg", ["agg"]) (by decide))
  have e_buffer : d "buffer" = d' "buffer" :=
    option_same h h' 11 15 rfl rfl rfl rfl rfl (.scalar _) (fun _ _ => rfl) (ht' ("buffer", ["buffer"]) (by decide))
  have e_width : d "width" = d' "width" :=
    option_same h h' 18 23 rfl rfl rfl rfl rfl (.scalar _) (fun _ _ => rfl) (ht' ("width", ["width"]) (by decide))
  have e_depth : d "depth" = d' "depth" :=
    option_same h h' 19 24 rfl rfl rfl rfl rfl (.scalar _) (fun _ _ => rfl) (ht' ("depth", ["depth"]) (by decide))
  have e_length : d "length" = d' "length" :=
    option_same h h' 17 22 rfl rfl rfl rfl rfl (.scalar _) (fun _ _ => rfl) (ht' ("length", ["length"]) (by decide))
  have e_trough_density : d "el_z" = d' "trough_density" :=
    option_same h h' 20 25 rfl rfl rfl rfl rfl (.scalar _) (fun _ _ => rfl) (ht' ("trough_density", ["el_z"]) (by decide))
  have e_paleoflow : d "paleoflow" = d' "paleoflow" :=
    option_same h h' 21 26 rfl rfl rfl rfl rfl (.list _ (.num _)) (fun _ _ => rfl) (ht' ("paleoflow", ["paleoflow", "r_paleoflow"]) (by decide))
  have e_bulbset_dist : d "bulbset_d" = d' "bulbset_dist" :=
    option_same h h' 23 21 rfl rfl rfl rfl rfl (.scalar _) (fun _ _ => rfl) (ht' ("bulbset_dist", ["bulbset_d"]) (by decide))
  have e_te_xyz : d "te_xyz" = d' "te_xyz" :=
    option_same h h' 24 27 rfl rfl rfl rfl rfl (.list _ (.dims (.cons (.num _) (.cons (.num _) .nil)))) (fun _ _ => rfl) (ht' ("te_xyz", ["te_xyz", "ll_te_xyz"]) (by decide))
  have e_migrate : d "migrate" = d' "migrate" :=
    option_same h h' 13 28 rfl rfl rfl rfl rfl (.list _ (.num _)) (fun _ _ => rfl) (ht' ("migrate", ["migrate", "r_migrate"]) (by decide))
  exact ⟨e_structure, e_size_ztrend, e_k_ztrend, e_k_xtrend, e_dip, e_azimuth, e_dipset_dist, e_agg, e_buffer, e_width, e_depth, e_length, e_trough_density, e_paleoflow, e_bulbset_dist, e_te_xyz, e_migrate⟩

/-- The conversion of an old contact model has one result. -/
theorem oldContact_unique {mode : List Char} {z : Option Atom} {numbers : Option Val} {c c' : ContactModel Atom} (h : OldContact mode z numbers c)
    (h' : OldContact mode z numbers c') : c = c' := by
  obtain ⟨m, hz, hr⟩ := h
  obtain ⟨m', hz', hr'⟩ := h'
  obtain ⟨mo, z1, v1, x1, y1⟩ := c
  obtain ⟨mo', z1', v1', x1', y1'⟩ := c'
  simp only at m hz hr m' hz' hr'
  subst m m' hz hz'
  rcases hr with ⟨hf, rfl, rfl, rfl⟩ | ⟨hf, v, hv, a, b, e, h1, h2, h3, rfl, rfl, rfl⟩ <;>
    rcases hr' with ⟨hf', rfl, rfl, rfl⟩ | ⟨hf', v', hv', a', b', e', h1', h2', h3', rfl, rfl, rfl⟩
  · rfl
  · rw [hf] at hf'
    exact absurd hf' (by decide +kernel)
  · rw [hf] at hf'
    exact absurd hf' (by decide +kernel)
  · rw [hv] at hv'
    cases hv'
    rw [h1] at h1'
    rw [h2] at h2'
    rw [h3] at h3'
    cases h1'
    cases h2'
    cases h3'
    rfl

theorem sheet_geometry {d : Dict} {e : Element} (h : convertElement d = .ok e) (hg : written d "geometry" "sheet") : written e.dict "geometry" "sheet" := by
  obtain ⟨t, d1, d2, d3, ht, h1, h2, h3, _, h4⟩ := convertElement_ok h
  have hg2 : written d2 "geometry" "sheet" := by
    unfold written at hg ⊢
    rw [dist_frame h2 (by decide) (by decide), bg_frame h1 (by decide) (by decide) (by decide), set_ne _ _ (by decide), hg]
  rcases convertGeometry_ok h3 with ⟨hn, _⟩ | ⟨_, rfl⟩
  · unfold written at hg2 hn
    rw [hg2] at hn
    exact absurd hn (by decide +kernel)
  · unfold written at hg2 ⊢
    rw [lag_frame h4 (by decide) (by decide), hg2]

/-- The background of an old element section after conversion. -/
theorem background_same {x : Dict} {e y : Element} (h : convertElement x = .ok e)
    (hb : (x "bg" = some (.leaf .none) ∧ y.dict "bg_facies" = some (.leaf (.num (-1))) ∧ y.dict "bg_azim" = some (.leaf .nan) ∧
      y.dict "bg_dip" = some (.leaf .nan)) ∨
    ∃ f a, x "bg" = some (.node [f, a, a]) ∧ y.dict "bg_facies" = some f ∧ y.dict "bg_azim" = some a ∧ y.dict "bg_dip" = some a) :
    e.dict "bg_facies" = y.dict "bg_facies" ∧ e.dict "bg_azim" = y.dict "bg_azim" ∧ e.dict "bg_dip" = y.dict "bg_dip" := by
  obtain ⟨c1, c2⟩ := C51_background _ _ h
  rcases hb with ⟨h0, h1, h2, h3⟩ | ⟨f, a, h0, h1, h2, h3⟩
  · obtain ⟨g1, g2, g3⟩ := c1 h0
    rw [g1, g2, g3, h1, h2, h3]
    exact ⟨rfl, rfl, rfl⟩
  · obtain ⟨g1, g2, g3⟩ := c2 _ _ _ h0
    rw [g1, g2, g3, h1, h2, h3]
    exact ⟨rfl, rfl, rfl⟩

theorem element_same {C : Convs} {p q : Ini} {s : String} {hydro : List Val} {x : Dict} {e y : Element} (hx : parseOldElement C p s = .ok (s, x))
    (he : convertElement x = .ok e) (hy : parseElement C hydro (q.get s) = .ok y) (ht : SameSection (p.get s) (q.get s) x y) : SameElement e y := by
  simp only [parseOldElement, bind_ok, pure_ok, Prod.mk.injEq, true_and] at hx
  obtain ⟨g, hg, opts, ho, x', hx, rfl⟩ := hx
  obtain ⟨g', opts', d0, cm, hg', ho', hd0, hcm, hkeep, -⟩ := element_kept hy
  have hraw := geometry_text hg
  have hraw' := geometry_text hg'
  have hr := old_rest ho hx
  obtain ⟨c1, c2, c3, c4⟩ := C51_element_partial _ _ he
  obtain ⟨b1, b2, b3⟩ := background_same he ht.background
  have hcontact : e.contact = y.contact := by
    obtain ⟨mode, hm, hc⟩ := C51_element_contact _ _ he
    obtain ⟨mode', hm', hc'⟩ := ht.contact
    rw [hm] at hm'
    cases hm'
    exact oldContact_unique hc hc'
  have hfac : e.dict "facies" = y.dict "facies" := (c4 _ (by decide)).trans ht.facies.symm
  have halt : e.dict "altfacies" = y.dict "altfacies" := (c4 _ (by decide)).trans ht.altfacies.symm
  have hk : ∀ k, k ≠ "facies" → k ≠ "altfacies" → k ≠ "bg_facies" → k ≠ "lag_facies" → y.dict k = d0 k := hkeep
  rcases ht.geometry with ⟨w1, w2, hn⟩ | ⟨w1, w2, hn, hlag⟩
  · unfold written at w1 w2
    rw [hraw] at w1
    rw [hraw'] at w2
    cases w1
    cases w2
    obtain rfl : opts = oldOptsSheet C := (Except.ok.inj ho).symm
    obtain rfl : opts' = optsSheet C := (Except.ok.inj ho').symm
    obtain ⟨s1, s2, s3, s4, s5, s6, s7, s8⟩ := sheet_same hr hd0 ht.options hn
    have hgx : written x' "geometry" "sheet" := old_geometry ho hx hraw
    have hge := sheet_geometry he hgx
    have hgy : y.dict "geometry" = some (.leaf (.text "sheet".toList)) := element_geometry hy hraw'
    refine ⟨hcontact, "sheet".toList, hge, Or.inr (Or.inr rfl), fun k hk' => ?_⟩
    have hmem : k ∈ ["geometry", "facies", "altfacies", "size_ztrend", "k_ztrend", "k_xtrend", "dip", "azimuth", "bg_facies", "bg_azim", "bg_dip",
        "structure", "dipset_dist", "lens_thickness"] := by
      have e : elementRead "sheet".toList = ["geometry", "facies", "altfacies", "size_ztrend", "k_ztrend", "k_xtrend", "dip", "azimuth", "bg_facies",
        "bg_azim", "bg_dip", "structure", "dipset_dist", "lens_thickness"] := by decide +kernel
      rw [e] at hk'
      exact hk'
    simp only [List.mem_cons, List.not_mem_nil, or_false] at hmem
    rcases hmem with rfl | rfl | rfl | rfl | rfl | rfl | rfl | rfl | rfl | rfl | rfl | rfl | rfl | rfl
    · rw [hgy]
      exact hge
    · exact hfac
    · exact halt
    · rw [c1, s2, hk _ (by decide) (by decide) (by decide) (by decide)]
    · rw [c4 _ (by decide), s3, hk _ (by decide) (by decide) (by decide) (by decide)]
    · rw [c4 _ (by decide), s4, hk _ (by decide) (by decide) (by decide) (by decide)]
    · rw [c4 _ (by decide), s5, hk _ (by decide) (by decide) (by decide) (by decide)]
    · rw [c4 _ (by decide), s6, hk _ (by decide) (by decide) (by decide) (by decide)]
    · exact b1
    · exact b2
    · exact b3
    · rw [c4 _ (by decide), s1, hk _ (by decide) (by decide) (by decide) (by decide)]
    · rw [c2, s7, hk _ (by decide) (by decide) (by decide) (by decide)]
    · rw [c4 _ (by decide), s8, hk _ (by decide) (by decide) (by decide) (by decide)]
  · unfold written at w1 w2
    rw [hraw] at w1
    rw [hraw'] at w2
    cases w1
    cases w2
    obtain rfl : opts = oldOptsTruncEllip C := (Except.ok.inj ho).symm
    obtain rfl : opts' = optsTrough C := (Except.ok.inj ho').symm
    obtain ⟨s1, s2, s3, s4, s5, s6, s7, t1, t2, t3, t4, t5, t6, t7, t8, t9, t10⟩ := trough_same hr hd0 ht.options hn
    have hgx : written x' "geometry" "trunc_ellip" := old_geometry ho hx hraw
    obtain ⟨u1, u2, u3, u4⟩ := C51_trough _ _ he hgx
    have hgy : y.dict "geometry" = some (.leaf (.text "trough".toList)) := element_geometry hy hraw'
    obtain ⟨l1, l2⟩ : e.dict "lag_height" = y.dict "lag_height" ∧ e.dict "lag_facies" = y.dict "lag_facies" := by
      rcases hlag with ⟨h0, h1, h2⟩ | ⟨h, f, h0, h1, h2⟩
      · obtain ⟨g1, g2⟩ := u3 h0
        rw [g1, g2, h1, h2]
        exact ⟨rfl, rfl⟩
      · obtain ⟨g1, g2⟩ := u4 _ _ _ h0
        rw [g1, g2, h1, h2]
        exact ⟨rfl, rfl⟩
    have hbulb : e.dict "bulbset_dist" = x' "bulbset_d" := by
      obtain ⟨_, v, -, -, hv, -⟩ := option_at hr (n := 23) rfl rfl
      exact c3 (by rw [show x' "bulbset_d" = some v from hv]; simp)
    refine ⟨hcontact, "trough".toList, u1, Or.inl rfl, fun k hk' => ?_⟩
    have hmem : k ∈ ["geometry", "facies", "altfacies", "size_ztrend", "k_ztrend", "k_xtrend", "dip", "azimuth", "bg_facies", "bg_azim", "bg_dip",
        "structure", "dipset_dist", "agg", "buffer", "lag_height", "lag_facies", "width", "depth", "bulbset_dist", "length", "trough_density", "paleoflow",
        "te_xyz", "migrate"] := by
      have e : elementRead "trough".toList = ["geometry", "facies", "altfacies", "size_ztrend", "k_ztrend", "k_xtrend", "dip", "azimuth", "bg_facies",
        "bg_azim", "bg_dip", "structure", "dipset_dist", "agg", "buffer", "lag_height", "lag_facies", "width", "depth", "bulbset_dist", "length",
        "trough_density", "paleoflow", "te_xyz", "migrate"] := by decide +kernel
      rw [e] at hk'
      exact hk'
    simp only [List.mem_cons, List.not_mem_nil, or_false] at hmem
    rcases hmem with rfl | rfl | rfl | rfl | rfl | rfl | rfl | rfl | rfl | rfl | rfl | rfl | rfl | rfl | rfl | rfl | rfl | rfl | rfl | rfl | rfl | rfl |
      rfl | rfl | rfl
    · rw [hgy]
      exact u1
    · exact hfac
    · exact halt
    · rw [c1, s2, hk _ (by decide) (by decide) (by decide) (by decide)]
    · rw [c4 _ (by decide), s3, hk _ (by decide) (by decide) (by decide) (by decide)]
    · rw [c4 _ (by decide), s4, hk _ (by decide) (by decide) (by decide) (by decide)]
    · rw [c4 _ (by decide), s5, hk _ (by decide) (by decide) (by decide) (by decide)]
    · rw [c4 _ (by decide), s6, hk _ (by decide) (by decide) (by decide) (by decide)]
    · exact b1
    · exact b2
    · exact b3
    · rw [c4 _ (by decide), s1, hk _ (by decide) (by decide) (by decide) (by decide)]
    · rw [c2, s7, hk _ (by decide) (by decide) (by decide) (by decide)]
    · rw [c4 _ (by decide), t1, hk _ (by decide) (by decide) (by decide) (by decide)]
    · rw [c4 _ (by decide), t2, hk _ (by decide) (by decide) (by decide) (by decide)]
    · exact l1
    · exact l2
    · rw [c4 _ (by decide), t3, hk _ (by decide) (by decide) (by decide) (by decide)]
    · rw [c4 _ (by decide), t4, hk _ (by decide) (by decide) (by decide) (by decide)]
    · rw [hbulb, t8, hk _ (by decide) (by decide) (by decide) (by decide)]
    · rw [c4 _ (by decide), t5, hk _ (by decide) (by decide) (by decide) (by decide)]
    · rw [u2, t6, hk _ (by decide) (by decide) (by decide) (by decide)]
    · rw [c4 _ (by decide), t7, hk _ (by decide) (by decide) (by decide) (by decide)]
    · rw [c4 _ (by decide), t9, hk _ (by decide) (by decide) (by decide) (by decide)]
    · rw [c4 _ (by decide), t10, hk _ (by decide) (by decide) (by decide) (by decide)]

/-! ### The whole file -/

theorem translation_model {C : Convs} {p q : Ini} {o : OldParsed} {P Q : Parsed} (ho : parseDeprecated C p = .ok o) (hP : convertOld o = .ok P)
    (hQ : parseInifile C q = .ok Q) (ht : Translation p o q Q) : AgreeOn modelUsed P.model Q.model := by
  obtain ⟨m1, -, m3, -⟩ := convertOld_ok hP
  obtain ⟨k1, k2, k3, k4, k5⟩ := C51_model _ _ _ _ m3
  have hrun := (parseDeprecated_ok ho).2.1
  have hhyd := (parseDeprecated_ok ho).2.2.2.2.1
  obtain ⟨r1, r2, r3, r4, r5⟩ := C51_run _ _ _ _ m1 (convertOld_ok hP).2.1
  simp only [parseDeprecated, bind_ok, pure_ok] at ho
  obtain ⟨_, _, _, _, d0, h0, d1, h1, d2, h2, _, _, _, _, _, _, _, _, _, _, rfl⟩ := ho
  obtain ⟨_, _, _, _, -, -, -, -, hm, -⟩ := parseInifile_ok hQ
  simp only [parseModel, bind_ok] at hm
  obtain ⟨d0', h0', d1', h1', h2'⟩ := hm
  obtain ⟨g1, g2⟩ := grid_same h0 h0' ht.model
  have hag := defaultTo_agree (by decide) (by decide) (defaultTo_agree (by decide) (by decide) g1 h1 h1') h2 h2'
  have hfr : ∀ k, k ≠ "dy" → k ≠ "dz" → Q.model k = d0' k := fun k hy hz => by rw [defaultTo_frame h2' hz, defaultTo_frame h1' hy]
  intro k hk
  simp only [modelUsed, List.mem_cons, List.not_mem_nil, or_false] at hk
  rcases hk with rfl | rfl | rfl | rfl | rfl | rfl | rfl | rfl | rfl | rfl | rfl | rfl | rfl
  iterate 10 exact (k5 _ (by decide)).trans (hag _ (by decide))
  · rw [k2, r5 _ (by decide), hfr _ (by decide) (by decide)]
    exact option_same hhyd h0' 0 10 rfl rfl rfl rfl rfl .bool (fun _ _ => rfl) ht.hydraulicsOn
  · rw [k3, r3 _ (by decide), hfr _ (by decide) (by decide)]
    exact option_same hrun h0' 4 12 rfl rfl rfl rfl rfl .bool (fun _ _ => rfl) ht.heterogeneity
  · rw [k4, hfr _ (by decide) (by decide)]
    simp only
    rw [defaultTo_frame h2 (by decide), defaultTo_frame h1 (by decide), g2]

theorem translation_strata {C : Convs} {p q : Ini} {o : OldParsed} {P Q : Parsed} (ho : parseDeprecated C p = .ok o) (hP : convertOld o = .ok P)
    (hQ : parseInifile C q = .ok Q) (ht : Translation p o q Q) : AgreeOn strataRead P.strata Q.strata ∧ P.contacts = Q.contacts := by
  obtain ⟨-, -, -, m4, -⟩ := convertOld_ok hP
  obtain ⟨-, -, hst, -⟩ := parseDeprecated_ok ho
  obtain ⟨_, hydro, _, _, -, -, -, -, -, -, hs, -⟩ := parseInifile_ok hQ
  obtain ⟨n, d0, items, bg, bgv, hn, hd0, hlen, hi, hil, hcs, -, -, hd⟩ := parseStrata_ok hs
  obtain ⟨names, f, a, x, n1, n2, n3, n4, n5⟩ := ht.background
  obtain ⟨s1, s2, s3, s4, s5, s6⟩ := C51_strata _ _ _ m4 names n1 f a x [] n2
  obtain ⟨e1, e2, e3, e4, e5, e6, e7⟩ := strata_same hst hd0 ht.strata
  have hk : ∀ k, k ≠ "bg_facies" → Q.strata k = d0 k := fun k hk => by rw [hd, set_ne _ _ hk]
  refine ⟨fun k hk' => ?_, ?_⟩
  · have hmem : k ∈ ["strata", "ae", "ae_in_strata", "ae_prob", "ae_z_mean", "avul_prob", "avul", "bg_facies", "bg_azim", "bg_dip"] := by
      have e : strataRead = ["strata", "ae", "ae_in_strata", "ae_prob", "ae_z_mean", "avul_prob", "avul", "bg_facies", "bg_azim", "bg_dip"] := by decide +kernel
      rw [e] at hk'
      exact hk'
    simp only [List.mem_cons, List.not_mem_nil, or_false] at hmem
    rcases hmem with rfl | rfl | rfl | rfl | rfl | rfl | rfl | rfl | rfl | rfl
    · rw [s1, e1, hk _ (by decide)]
    · rw [s6 _ (by decide), e2, hk _ (by decide)]
    · rw [s2, e3, hk _ (by decide)]
    · rw [s6 _ (by decide), e4, hk _ (by decide)]
    · rw [s6 _ (by decide), e5, hk _ (by decide)]
    · rw [s6 _ (by decide), e6, hk _ (by decide)]
    · rw [s6 _ (by decide), e7, hk _ (by decide)]
    · rw [s3, n3]
    · rw [s4, n4]
    · rw [s5, n5]
  · obtain ⟨c1, c2⟩ := C51_strata_contacts _ _ _ m4 names n1
    obtain ⟨l, hl, hln⟩ := hlen "strata" (by simp [stratumNames])
    have hll : Q.contacts.length = P.contacts.length := by
      rw [← (mapPy_ok.1 hcs).length_eq, hil, c1, ← hln]
      rw [← e1, n1] at hl
      cases hl
      rfl
    refine List.ext_getElem? fun i => ?_
    cases hq : Q.contacts[i]? with
    | none =>
      rw [List.getElem?_eq_none_iff] at hq ⊢
      omega
    | some c =>
      obtain ⟨hi', -⟩ := List.getElem?_eq_some_iff.1 hq
      have hp : P.contacts[i]? = some (P.contacts[i]'(by omega)) := List.getElem?_eq_getElem _
      obtain ⟨mode, tops, z, a1, a2, a3, a4⟩ := c2 i _ hp
      obtain ⟨mode', tops', z', b1, b2, b3, b4⟩ := ht.contacts i c hq
      rw [a1] at b1
      cases b1
      rw [a2] at b2
      cases b2
      rw [a3] at b3
      cases b3
      rw [hp, oldContact_unique a4 b4]

theorem translation_hydraulics {C : Convs} {p q : Ini} {o : OldParsed} {P Q : Parsed} (ho : parseDeprecated C p = .ok o) (hP : convertOld o = .ok P)
    (hQ : parseInifile C q = .ok Q) (ht : Translation p o q Q) : AgreeOn hydraulicsRead P.hydraulics Q.hydraulics := by
  obtain ⟨m1, m2, -⟩ := convertOld_ok hP
  obtain ⟨-, -, -, r4, r5⟩ := C51_run _ _ _ _ m1 m2
  obtain ⟨-, -, -, -, hh, -⟩ := parseDeprecated_ok ho
  obtain ⟨_, hydro, _, _, -, -, hh', -⟩ := parseInifile_ok hQ
  obtain ⟨e1, e2⟩ := hydraulics_same hh hh' ht.hydraulics
  intro k hk
  by_cases hne : k = "hydrofacies"
  · subst hne
    rw [r4, e1]
  · rw [r5 _ hne, e2 k hk hne]

theorem hydroOf_texts {d : Dict} {ts : List (List Char)} (h : d "hydro" = some (.node (ts.map fun t => .leaf (.text t)))) : ∃ a, hydroOf d = .ok a := by
  have hm : ∀ ts : List (List Char), ∃ l, mapPy nameOf (ts.map fun t => (.leaf (.text t) : Val)) = .ok l := by
    intro ts
    induction ts with
    | nil => exact ⟨[], rfl⟩
    | cons t ts ih =>
      obtain ⟨l, hl⟩ := ih
      refine ⟨String.ofList t :: l, ?_⟩
      simp only [List.map_cons, mapPy, hl]
      rfl
  obtain ⟨l, hl⟩ := hm ts
  refine ⟨some l, ?_⟩
  simp only [hydroOf, h, pyItems]
  exact of_ok hl

theorem translation_elements {C : Convs} {p q : Ini} {o : OldParsed} {P Q : Parsed} (ho : parseDeprecated C p = .ok o) (hP : convertOld o = .ok P)
    (hQ : parseInifile C q = .ok Q) (ht : Translation p o q Q) :
    List.Forall₂ (fun e e' : String × Element => e.1 = e'.1 ∧ SameElement e.2 e'.2) P.elements Q.elements := by
  obtain ⟨-, -, -, -, -, hc⟩ := convertOld_ok hP
  obtain ⟨-, -, -, -, -, -, hx⟩ := parseDeprecated_ok ho
  obtain ⟨_, hydro, _, _, -, -, -, -, -, -, -, -, -, -, hy⟩ := parseInifile_ok hQ
  rw [ht.sections] at hy
  have he := ht.elements
  revert hc hx hy he
  generalize o.elements = xs
  generalize P.elements = es
  generalize Q.elements = ys
  generalize oldElementSections p = l
  intro hc hx hy he
  induction l generalizing xs es ys with
  | nil =>
    cases hx
    cases hy
    cases hc
    exact .nil
  | cons s l ih =>
    simp only [mapPy, bind_ok, pure_ok] at hx hy
    obtain ⟨a, ha, b, hb, rfl⟩ := hx
    obtain ⟨a', ha', b', hb', rfl⟩ := hy
    cases hc with
    | @cons _ e _ es' hce hcs =>
      refine .cons ?_ (ih _ _ _ hcs hb hb' fun s x y h1 h2 => he s x y (by simp [h1]) (by simp [h2]))
      simp only [parseNamedElement, bind_ok, pure_ok] at ha'
      obtain ⟨y, hy, rfl⟩ := ha'
      have hs : a.1 = s := by
        simp only [parseOldElement, bind_ok, pure_ok] at ha
        obtain ⟨_, -, _, -, _, -, rfl⟩ := ha
        rfl
      obtain ⟨s', x⟩ := a
      simp only at hs
      subst hs
      exact ⟨hce.1, element_same ha hce.2 hy (he _ x y (by simp) (by simp))⟩

/-- Both files are the same to a realisation with heterogeneity. -/
theorem translation_same {C : Convs} {p q : Ini} {o : OldParsed} {P Q : Parsed} (ho : parseDeprecated C p = .ok o) (hP : convertOld o = .ok P)
    (hQ : parseInifile C q = .ok Q) (ht : Translation p o q Q) (hhet : Q.model "heterogeneity" = some (.leaf (.bool true)))
    (hhy : q.get "hydraulics" "hydro" = none) : SameParsed P Q := by
  obtain ⟨s1, s2⟩ := translation_strata ho hP hQ ht
  have hm := translation_model ho hP hQ ht
  refine ⟨hm, s1, s2, translation_hydraulics ho hP hQ ht, Or.inr ⟨(hm _ (by decide)).trans hhet, ?_⟩, translation_elements ho hP hQ ht⟩
  obtain ⟨m1, m2, -⟩ := convertOld_ok hP
  obtain ⟨-, -, -, r4, r5⟩ := C51_run _ _ _ _ m1 m2
  obtain ⟨ts, hts⟩ := ht.names
  obtain ⟨a, ha⟩ := hydroOf_texts (d := P.hydraulics) (by rw [r5 _ (by decide)]; exact hts)
  obtain ⟨_, hydro, _, _, -, -, hh', -⟩ := parseInifile_ok hQ
  have hQh : Q.hydraulics "hydro" = none := by
    rw [parseSection_frame hh' "hydro" (by simp [optsHydraulics, names]), hhy]
  refine ⟨a, none, ha, ?_⟩
  simp only [hydroOf, hQh]

end Hyvr
