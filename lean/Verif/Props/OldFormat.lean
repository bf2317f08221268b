import Verif.Props.Lookup
import Verif.Model.OldFormat
import Verif.Model.Trough

/-!
C51: conversion of ini-files of the old format; C52, C82 for that format; C89: geometries and structures that can be
generated.
-/

namespace Hyvr

open Py

/-- Entry `i` of a list, or character `i` of a text. -/
def Spec.entry (v : Val) (i : ℕ) : Option Val :=
  match v with
  | .node l => l[i]?
  | .leaf (.text s) => s[i]?.map fun c => .leaf (.text [c])
  | .leaf _ => none

theorem valAt_nat {v w : Val} {i : ℕ} : valAt v i = .ok w ↔ Spec.entry v i = some w := by
  cases v with
  | node l => simpa [valAt, pyItems, Spec.entry, Bind.bind, Except.bind] using pyGet_natIdx
  | leaf a =>
    cases a <;> simp [valAt, pyItems, Spec.entry, Bind.bind, Except.bind]
    rename_i s
    rw [pyGet_natIdx]
    simp

theorem valAt_zero {v w : Val} : valAt v 0 = .ok w ↔ Spec.entry v 0 = some w := by simpa using valAt_nat (i := 0)
theorem valAt_one {v w : Val} : valAt v 1 = .ok w ↔ Spec.entry v 1 = some w := by simpa using valAt_nat (i := 1)
theorem valAt_two {v w : Val} : valAt v 2 = .ok w ↔ Spec.entry v 2 = some w := by simpa using valAt_nat (i := 2)

/-! ### Elements -/

theorem convertBg_ok {d d' : Dict} (h : convertBg d = .ok d') :
    (d "bg" = some (.leaf .none) ∧
      d' = ((d.set "bg_facies" (.leaf (.num (-1)))).set "bg_azim" (.leaf .nan)).set "bg_dip" (.leaf .nan)) ∨
    (∃ bg f a, d "bg" = some bg ∧ bg ≠ .leaf .none ∧ valAt bg 0 = .ok f ∧ valAt bg 1 = .ok a ∧
      d' = ((d.set "bg_facies" f).set "bg_azim" a).set "bg_dip" a) := by
  simp only [convertBg, bind_ok, dget_ok] at h
  obtain ⟨bg, hbg, h⟩ := h
  by_cases hn : bg = .leaf .none
  · subst hn
    rw [if_neg (by simp)] at h
    cases h
    exact Or.inl ⟨hbg, rfl⟩
  · rw [if_pos hn] at h
    simp only [bind_ok, pure_ok] at h
    obtain ⟨f, hf, a, ha, x, hx, rfl⟩ := h
    rw [ha] at hx
    cases hx
    exact Or.inr ⟨bg, f, a, hbg, hn, hf, ha, rfl⟩

theorem convertDist_ok {d d' : Dict} (h : convertDist d = .ok d') :
    ∃ v, d "dipset_d" = some v ∧ ((d "bulbset_d" = none ∧ d' = d.set "dipset_dist" v) ∨
      ∃ w, d "bulbset_d" = some w ∧ d' = (d.set "dipset_dist" v).set "bulbset_dist" w) := by
  simp only [convertDist, bind_ok, dget_ok] at h
  obtain ⟨v, hv, h⟩ := h
  refine ⟨v, hv, ?_⟩
  have hb : d.set "dipset_dist" v "bulbset_d" = d "bulbset_d" := set_ne _ _ (by decide)
  cases hw : d "bulbset_d" with
  | none =>
    rw [hb, hw] at h
    cases h
    exact Or.inl ⟨rfl, rfl⟩
  | some w =>
    rw [hb, hw] at h
    cases h
    exact Or.inr ⟨w, rfl, rfl⟩

theorem isText_iff {v : Val} {s : String} : isText v s = true ↔ v = .leaf (.text s.toList) := by simp [isText]

theorem convertGeometry_ok {d d' : Dict} (h : convertGeometry d = .ok d') :
    (Spec.written d "geometry" "trunc_ellip" ∧ ∃ z, d "el_z" = some z ∧
      d' = (d.set "geometry" (.leaf (.text "trough".toList))).set "trough_density" z) ∨
    (¬ Spec.written d "geometry" "trunc_ellip" ∧ d' = d) := by
  simp only [convertGeometry, bind_ok, dget_ok] at h
  obtain ⟨g, hg, h⟩ := h
  unfold Spec.written
  rw [hg]
  by_cases hn : isText g "trunc_ellip" = true
  · rw [if_pos hn] at h
    simp only [bind_ok, dget_ok, pure_ok] at h
    obtain ⟨z, hz, rfl⟩ := h
    rw [set_ne _ _ (by decide)] at hz
    exact Or.inl ⟨by rw [isText_iff.1 hn], z, hz, rfl⟩
  · rw [if_neg hn, pure_ok] at h
    refine Or.inr ⟨?_, h.symm⟩
    intro he
    exact hn (isText_iff.2 (Option.some.inj he))

theorem convertLag_ok {d d' : Dict} (h : convertLag d = .ok d') :
    ((Spec.written d "geometry" "trough" ∨ Spec.written d "geometry" "channel") ∧
      ((d "lag" = some (.leaf .none) ∧ d' = (d.set "lag_height" (.leaf (.num 0))).set "lag_facies" (.leaf (.num (-1)))) ∨
      ∃ l hh f, d "lag" = some l ∧ l ≠ .leaf .none ∧ valAt l 0 = .ok hh ∧ valAt l 1 = .ok f ∧
        d' = (d.set "lag_height" hh).set "lag_facies" f)) ∨
    (¬ (Spec.written d "geometry" "trough" ∨ Spec.written d "geometry" "channel") ∧ d' = d) := by
  simp only [convertLag, bind_ok, dget_ok] at h
  obtain ⟨g, hg, h⟩ := h
  unfold Spec.written
  rw [hg]
  simp only [Option.some.injEq]
  by_cases hn : (isText g "trough" || isText g "channel") = true
  · rw [if_pos hn] at h
    simp only [Bool.or_eq_true, isText_iff] at hn
    simp only [bind_ok, dget_ok] at h
    obtain ⟨l, hl, h⟩ := h
    refine Or.inl ⟨hn, ?_⟩
    by_cases hl0 : l = .leaf .none
    · subst hl0
      rw [if_neg (by simp)] at h
      cases h
      exact Or.inl ⟨hl, rfl⟩
    · rw [if_pos hl0] at h
      simp only [bind_ok, pure_ok] at h
      obtain ⟨hh, h1, f, h2, rfl⟩ := h
      exact Or.inr ⟨l, hh, f, hl, hl0, h1, h2, rfl⟩
  · rw [if_neg hn, pure_ok] at h
    simp only [Bool.or_eq_true, isText_iff] at hn
    exact Or.inr ⟨hn, h.symm⟩

/-- The passes of `convertElement`. -/
theorem convertElement_ok {d : Dict} {e : Element} (h : convertElement d = .ok e) :
    ∃ t d1 d2 d3, d "geo_ztrend" = some t ∧ convertBg (d.set "size_ztrend" t) = .ok d1 ∧ convertDist d1 = .ok d2 ∧
      convertGeometry d2 = .ok d3 ∧ oldElemContact d3 = .ok e.contact ∧ convertLag d3 = .ok e.dict := by
  simp only [convertElement, bind_ok, dget_ok, pure_ok] at h
  obtain ⟨t, ht, d1, h1, d2, h2, d3, h3, c, hc, d4, h4, rfl⟩ := h
  exact ⟨t, d1, d2, d3, ht, h1, h2, h3, hc, h4⟩

/-- The options the conversion of an element sets. -/
def Spec.newKeys : List String :=
  ["size_ztrend", "bg_facies", "bg_azim", "bg_dip", "dipset_dist", "bulbset_dist", "geometry", "trough_density",
    "lag_height", "lag_facies"]

theorem bg_frame {d d' : Dict} (h : convertBg d = .ok d') {k : String} (h1 : k ≠ "bg_facies") (h2 : k ≠ "bg_azim")
    (h3 : k ≠ "bg_dip") : d' k = d k := by
  rcases convertBg_ok h with ⟨_, rfl⟩ | ⟨_, _, _, _, _, _, _, rfl⟩ <;>
    rw [set_ne _ _ h3, set_ne _ _ h2, set_ne _ _ h1]

theorem dist_frame {d d' : Dict} (h : convertDist d = .ok d') {k : String} (h1 : k ≠ "dipset_dist")
    (h2 : k ≠ "bulbset_dist") : d' k = d k := by
  obtain ⟨v, _, ⟨_, rfl⟩ | ⟨w, _, rfl⟩⟩ := convertDist_ok h
  · rw [set_ne _ _ h1]
  · rw [set_ne _ _ h2, set_ne _ _ h1]

theorem geometry_frame {d d' : Dict} (h : convertGeometry d = .ok d') {k : String} (h1 : k ≠ "geometry")
    (h2 : k ≠ "trough_density") : d' k = d k := by
  rcases convertGeometry_ok h with ⟨_, _, _, rfl⟩ | ⟨_, rfl⟩
  · rw [set_ne _ _ h2, set_ne _ _ h1]
  · rfl

theorem lag_frame {d d' : Dict} (h : convertLag d = .ok d') {k : String} (h1 : k ≠ "lag_height")
    (h2 : k ≠ "lag_facies") : d' k = d k := by
  rcases convertLag_ok h with ⟨_, ⟨_, rfl⟩ | ⟨_, _, _, _, _, _, _, rfl⟩⟩ | ⟨_, rfl⟩
  · rw [set_ne _ _ h2, set_ne _ _ h1]
  · rw [set_ne _ _ h2, set_ne _ _ h1]
  · rfl

/-- **C51**, elements (partial): the trend of the size, the layer distances and everything that is not renamed are the old
values. Missing: the background dip (`C51_dip`). -/
theorem C51_element_partial (d : Dict) (e : Element) (h : convertElement d = .ok e) :
    e.dict "size_ztrend" = d "geo_ztrend" ∧ e.dict "dipset_dist" = d "dipset_d" ∧
    (d "bulbset_d" ≠ none → e.dict "bulbset_dist" = d "bulbset_d") ∧
    ∀ k, k ∉ Spec.newKeys → e.dict k = d k := by
  obtain ⟨t, d1, d2, d3, ht, h1, h2, h3, _, h4⟩ := convertElement_ok h
  refine ⟨?_, ?_, ?_, ?_⟩
  · rw [lag_frame h4 (by decide) (by decide), geometry_frame h3 (by decide) (by decide),
      dist_frame h2 (by decide) (by decide), bg_frame h1 (by decide) (by decide) (by decide), set_same, ht]
  · have hd : d1 "dipset_d" = d "dipset_d" := by
      rw [bg_frame h1 (by decide) (by decide) (by decide), set_ne _ _ (by decide)]
    rw [lag_frame h4 (by decide) (by decide), geometry_frame h3 (by decide) (by decide), ← hd]
    obtain ⟨v, hv, ⟨_, rfl⟩ | ⟨w, _, rfl⟩⟩ := convertDist_ok h2
    · rw [set_same, hv]
    · rw [set_ne _ _ (by decide), set_same, hv]
  · intro hb
    have hd : d1 "bulbset_d" = d "bulbset_d" := by
      rw [bg_frame h1 (by decide) (by decide) (by decide), set_ne _ _ (by decide)]
    rw [lag_frame h4 (by decide) (by decide), geometry_frame h3 (by decide) (by decide), ← hd]
    rw [← hd] at hb
    obtain ⟨v, hv, ⟨hn, rfl⟩ | ⟨w, hw, rfl⟩⟩ := convertDist_ok h2
    · exact absurd hn hb
    · rw [set_same, hw]
  · intro k hk
    simp only [Spec.newKeys, List.mem_cons, List.not_mem_nil, or_false, not_or] at hk
    obtain ⟨k1, k2, k3, k4, k5, k6, k7, k8, k9, k10⟩ := hk
    rw [lag_frame h4 k9 k10, geometry_frame h3 k7 k8, dist_frame h2 k5 k6, bg_frame h1 k2 k3 k4, set_ne _ _ k1]

/-- **C51**, background: facies and azimuth of an element are entries 0 and 1 of `bg`; without `bg` all three are unset. -/
theorem C51_background (d : Dict) (e : Element) (h : convertElement d = .ok e) :
    (d "bg" = some (.leaf .none) → e.dict "bg_facies" = some (.leaf (.num (-1))) ∧ e.dict "bg_azim" = some (.leaf .nan) ∧
      e.dict "bg_dip" = some (.leaf .nan)) ∧
    (∀ f a l, d "bg" = some (.node (f :: a :: l)) → e.dict "bg_facies" = some f ∧ e.dict "bg_azim" = some a ∧
      e.dict "bg_dip" = some a) := by
  obtain ⟨t, d1, d2, d3, ht, h1, h2, h3, _, h4⟩ := convertElement_ok h
  have fr : ∀ k ∈ ["bg_facies", "bg_azim", "bg_dip"], e.dict k = d1 k := by
    intro k hk
    simp only [List.mem_cons, List.not_mem_nil, or_false] at hk
    rcases hk with rfl | rfl | rfl <;>
      rw [lag_frame h4 (by decide) (by decide), geometry_frame h3 (by decide) (by decide),
        dist_frame h2 (by decide) (by decide)]
  rw [fr "bg_facies" (by simp), fr "bg_azim" (by simp), fr "bg_dip" (by simp)]
  rcases convertBg_ok h1 with ⟨hb, rfl⟩ | ⟨bg, f, a, hb, hn, hf, ha, rfl⟩
  · rw [set_ne _ _ (by decide)] at hb
    refine ⟨fun _ => ?_, ?_⟩
    · simp [Dict.set, Function.update]
    · intro f a l hb'
      rw [hb] at hb'
      cases hb'
  · rw [set_ne _ _ (by decide)] at hb
    constructor
    · intro hb'
      rw [hb] at hb'
      cases hb'
      exact absurd rfl hn
    · intro f' a' l hb'
      rw [hb] at hb'
      cases hb'
      have e1 : f' = f := Except.ok.inj hf
      have e2 : a' = a := Except.ok.inj ha
      subst e1
      subst e2
      simp [Dict.set, Function.update]

/-- **C51**, truncated ellipsoids: they become troughs with the same density, and their lag keeps thickness and facies. -/
theorem C51_trough (d : Dict) (e : Element) (h : convertElement d = .ok e) (hg : Spec.written d "geometry" "trunc_ellip") :
    Spec.written e.dict "geometry" "trough" ∧ e.dict "trough_density" = d "el_z" ∧
    (d "lag" = some (.leaf .none) → e.dict "lag_height" = some (.leaf (.num 0)) ∧
      e.dict "lag_facies" = some (.leaf (.num (-1)))) ∧
    (∀ hh f l, d "lag" = some (.node (hh :: f :: l)) → e.dict "lag_height" = some hh ∧ e.dict "lag_facies" = some f) := by
  obtain ⟨t, d1, d2, d3, ht, h1, h2, h3, _, h4⟩ := convertElement_ok h
  have fr : ∀ k ∈ ["geometry", "el_z", "lag"], d2 k = d k := by
    intro k hk
    simp only [List.mem_cons, List.not_mem_nil, or_false] at hk
    rcases hk with rfl | rfl | rfl <;>
      rw [dist_frame h2 (by decide) (by decide), bg_frame h1 (by decide) (by decide) (by decide), set_ne _ _ (by decide)]
  have hg2 : Spec.written d2 "geometry" "trunc_ellip" := by
    unfold Spec.written at hg ⊢
    rw [fr _ (by simp), hg]
  rcases convertGeometry_ok h3 with ⟨_, z, hz, rfl⟩ | ⟨hn, _⟩
  swap
  · exact absurd hg2 hn
  set d3 := (d2.set "geometry" (.leaf (.text "trough".toList))).set "trough_density" z with hd3
  have hgeo : Spec.written d3 "geometry" "trough" := by
    unfold Spec.written
    rw [hd3, set_ne _ _ (by decide), set_same]
  have hlag : d3 "lag" = d "lag" := by
    rw [hd3, set_ne _ _ (by decide), set_ne _ _ (by decide), fr _ (by simp)]
  refine ⟨?_, ?_, ?_, ?_⟩
  · unfold Spec.written at hgeo ⊢
    rw [lag_frame h4 (by decide) (by decide), hgeo]
  · rw [lag_frame h4 (by decide) (by decide), hd3, set_same, ← fr "el_z" (by simp), hz]
  · intro hl
    rcases convertLag_ok h4 with ⟨_, ⟨_, h⟩ | ⟨l, hh, f, hl', hne, _⟩⟩ | ⟨hn, _⟩
    · rw [h]
      simp [Dict.set, Function.update]
    · rw [hlag, hl] at hl'
      cases hl'
      exact absurd rfl hne
    · exact absurd (Or.inl hgeo) hn
  · intro hh f l hl
    rcases convertLag_ok h4 with ⟨_, ⟨hl', _⟩ | ⟨l', hh', f', hl', hne, e1, e2, h⟩⟩ | ⟨hn, _⟩
    · rw [hlag, hl] at hl'
      cases hl'
    · rw [hlag, hl] at hl'
      cases hl'
      have e1 : hh = hh' := Except.ok.inj e1
      have e2 : f = f' := Except.ok.inj e2
      subst e1
      subst e2
      rw [h]
      simp [Dict.set, Function.update]
    · exact absurd (Or.inl hgeo) hn

/-! ### Contact models -/

/-- The contact model an old-format mode and its three numbers stand for. -/
def Spec.OldContact (mode : List Char) (z : Option Atom) (numbers : Option Val) (cm : ContactModel Atom) : Prop :=
  cm.mode = String.ofList mode ∧ cm.z = z ∧
  ((lower mode = "flat".toList ∧ cm.var = none ∧ cm.corlx = none ∧ cm.corly = none) ∨
   (lower mode = "random".toList ∧ ∃ v, numbers = some v ∧ ∃ a b c, entry v 0 = some (.leaf a) ∧ entry v 1 = some (.leaf b) ∧
     entry v 2 = some (.leaf c) ∧ cm.var = some a ∧ cm.corlx = some b ∧ cm.corly = some c))

theorem atomOf_ok {v : Val} {a : Atom} : atomOf v = .ok a ↔ v = .leaf a := by
  cases v <;> simp [atomOf]

theorem oldContact_ok {mode : List Char} {z : Option Atom} {numbers : Except PyErr Val} {cm : ContactModel Atom} :
    oldContact mode z numbers = .ok cm ↔
      Spec.OldContact mode z (match numbers with | .ok v => some v | .error _ => none) cm := by
  have hne : "random".toList ≠ "flat".toList := by decide +kernel
  unfold oldContact Spec.OldContact
  generalize "flat".toList = fl at hne ⊢
  generalize "random".toList = ra at hne ⊢
  by_cases hf : lower mode = fl
  · rw [if_pos hf]
    constructor
    · intro h
      cases h
      exact ⟨rfl, rfl, Or.inl ⟨hf, rfl, rfl, rfl⟩⟩
    · rintro ⟨h1, h2, ⟨_, h3, h4, h5⟩ | ⟨hr, _⟩⟩
      · cases cm
        simp only at h1 h2 h3 h4 h5
        subst h1 h2 h3 h4 h5
        rfl
      · exact absurd (hr.symm.trans hf) hne
  · rw [if_neg hf]
    by_cases hr : lower mode = ra
    · rw [if_pos hr]
      cases numbers with
      | error e => simp [Bind.bind, Except.bind, hf]
      | ok v =>
        simp only [Bind.bind, Except.bind]
        have key : oldRandom mode z v = .ok cm ↔ ∃ a b c, Spec.entry v 0 = some (.leaf a) ∧ Spec.entry v 1 = some (.leaf b) ∧
            Spec.entry v 2 = some (.leaf c) ∧
            cm = { mode := String.ofList mode, z, var := some a, corlx := some b, corly := some c } := by
          simp only [oldRandom, bind_ok, pure_ok, atomOf_ok, valAt_zero, valAt_one, valAt_two]
          constructor
          · rintro ⟨_, h1, a, rfl, _, h2, b, rfl, _, h3, c, rfl, rfl⟩
            exact ⟨a, b, c, h1, h2, h3, rfl⟩
          · rintro ⟨a, b, c, h1, h2, h3, rfl⟩
            exact ⟨_, h1, a, rfl, _, h2, b, rfl, _, h3, c, rfl, rfl⟩
        rw [key]
        constructor
        · rintro ⟨a, b, c, h1, h2, h3, rfl⟩
          exact ⟨rfl, rfl, Or.inr ⟨hr, v, rfl, a, b, c, h1, h2, h3, rfl, rfl, rfl⟩⟩
        · rintro ⟨h1, h2, ⟨h, _⟩ | ⟨_, w, hw, a, b, c, e1, e2, e3, e4, e5, e6⟩⟩
          · exact absurd h hf
          · cases hw
            refine ⟨a, b, c, e1, e2, e3, ?_⟩
            cases cm
            simp only at h1 h2 e4 e5 e6
            subst h1 h2 e4 e5 e6
            rfl
    · rw [if_neg hr]
      simp [hf, hr]

/-- **C51**, contact models of elements: mode and numbers are those of the old options. -/
theorem C51_element_contact (d : Dict) (e : Element) (h : convertElement d = .ok e) :
    ∃ mode, d "contact" = some (.leaf (.text mode)) ∧ Spec.OldContact mode none (d "contact_model") e.contact := by
  obtain ⟨t, d1, d2, d3, ht, h1, h2, h3, hc, h4⟩ := convertElement_ok h
  have fr : ∀ k ∈ ["contact", "contact_model"], d3 k = d k := by
    intro k hk
    simp only [List.mem_cons, List.not_mem_nil, or_false] at hk
    rcases hk with rfl | rfl <;>
      rw [geometry_frame h3 (by decide) (by decide), dist_frame h2 (by decide) (by decide),
        bg_frame h1 (by decide) (by decide) (by decide), set_ne _ _ (by decide)]
  simp only [oldElemContact, bind_ok, dget_ok, fr "contact" (by simp)] at hc
  obtain ⟨m, hm, mode, hmode, hc⟩ := hc
  have hm' : m = .leaf (.text mode) := by
    cases m with
    | node l => cases hmode
    | leaf a =>
      cases a <;> first | cases hmode | skip
      rfl
  subst hm'
  refine ⟨mode, hm, ?_⟩
  have := oldContact_ok.1 hc
  rw [← fr "contact_model" (by simp)]
  have he : (match d3.get "contact_model" with | .ok v => some v | .error _ => none) = d3 "contact_model" := by
    unfold Dict.get
    cases d3 "contact_model" <;> rfl
  rwa [he] at this

/-! ### Strata -/

/-- The passes of `convertStrata`. -/
theorem convertStrata_ok {d d' : Dict} {cs : List (ContactModel Atom)} (h : convertStrata d = .ok (d', cs)) :
    ∃ ssm items bg f f' a x ae d0, d "ssm" = some ssm ∧ pyItems ssm = .ok items ∧ d "bg" = some bg ∧
      valAt bg 0 = .ok f ∧ intOf f = .ok f' ∧ valAt bg 1 = .ok a ∧ valAt bg 2 = .ok x ∧ d "ae_table" = some (.leaf .none) ∧
      (∃ s, d "save_aelu" = some s ∧ truthy s = false) ∧ d "ssm_ae" = some ae ∧
      d0 = (((d.set "bg_facies" (repeatVal f' items.length)).set "bg_azim" (repeatVal a items.length)).set "bg_dip"
        (repeatVal x items.length)).set "strata" ssm ∧
      mapPy (oldStrataContact d0) (List.range (items.length - 1)) = .ok cs ∧ d' = d0.set "ae_in_strata" ae := by
  simp only [convertStrata, bind_ok, dget_ok, lenOf, pure_ok] at h
  obtain ⟨ssm, hssm, n, ⟨items, hitems, rfl⟩, bg, hbg, f, hf, f', hf', a, ha, x, hx, t, ht, h⟩ := h
  rw [set_ne _ _ (by decide), set_ne _ _ (by decide), set_ne _ _ (by decide), set_ne _ _ (by decide)] at ht
  by_cases hn : t = .leaf .none
  · rw [if_neg (by simpa using hn)] at h
    subst hn
    simp only [bind_ok, dget_ok] at h
    obtain ⟨s, hs, h⟩ := h
    rw [set_ne _ _ (by decide), set_ne _ _ (by decide), set_ne _ _ (by decide), set_ne _ _ (by decide)] at hs
    by_cases ht2 : truthy s = true
    · rw [if_pos ht2] at h
      cases h
    · rw [if_neg ht2] at h
      simp only [bind_ok, dget_ok, pure_ok, Prod.mk.injEq] at h
      obtain ⟨cs', hcs, ae, hae, rfl, rfl⟩ := h
      rw [set_ne _ _ (by decide), set_ne _ _ (by decide), set_ne _ _ (by decide), set_ne _ _ (by decide)] at hae
      exact ⟨ssm, items, bg, f, f', a, x, ae, _, hssm, hitems, hbg, hf, hf', ha, hx, ht,
        ⟨s, hs, by simpa using ht2⟩, hae, rfl, hcs, rfl⟩
  · rw [if_pos hn] at h
    cases h

/-- **C51**, strata: names, elements and all options that keep their name are the old values; the three background values
of the section are given to each of the strata. -/
theorem C51_strata (d d' : Dict) (cs : List (ContactModel Atom)) (h : convertStrata d = .ok (d', cs)) (names : List Val)
    (hn : d "ssm" = some (.node names)) (f : ℤ) (a x : Val) (l : List Val)
    (hb : d "bg" = some (.node (.leaf (.num f) :: a :: x :: l))) :
    d' "strata" = d "ssm" ∧ d' "ae_in_strata" = d "ssm_ae" ∧
    d' "bg_facies" = some (.node (List.replicate names.length (.leaf (.num f)))) ∧
    d' "bg_azim" = some (.node (List.replicate names.length a)) ∧
    d' "bg_dip" = some (.node (List.replicate names.length x)) ∧
    ∀ k, k ∉ ["strata", "ae_in_strata", "bg_facies", "bg_azim", "bg_dip"] → d' k = d k := by
  obtain ⟨ssm, items, bg, f0, f', a', x', ae, d0, hssm, hitems, hbg, hf, hf', ha, hx, _, _, hae, hd0, _, rfl⟩ :=
    convertStrata_ok h
  rw [hn] at hssm
  cases hssm
  cases hitems
  rw [hb] at hbg
  cases hbg
  have e1 : Tree.leaf (Atom.num f) = f0 := Except.ok.inj hf
  have e2 : a = a' := Except.ok.inj ha
  have e3 : x = x' := Except.ok.inj hx
  subst e1 e2 e3
  have e4 : f' = .leaf (.num f) := by
    have := Except.ok.inj hf'
    rw [← this]
    split_ifs <;> simp [Rat.floor_intCast, Rat.ceil_intCast]
  subst e4
  subst hd0
  refine ⟨?_, ?_, ?_, ?_, ?_, ?_⟩
  · rw [set_ne _ _ (by decide), set_same, hn]
  · rw [set_same, hae]
  · rw [set_ne _ _ (by decide), set_ne _ _ (by decide), set_ne _ _ (by decide), set_ne _ _ (by decide), set_same]
    rfl
  · rw [set_ne _ _ (by decide), set_ne _ _ (by decide), set_ne _ _ (by decide), set_same]
    rfl
  · rw [set_ne _ _ (by decide), set_ne _ _ (by decide), set_same]
    rfl
  · intro k hk
    simp only [List.mem_cons, List.not_mem_nil, or_false, not_or] at hk
    rw [set_ne _ _ hk.2.1, set_ne _ _ hk.1, set_ne _ _ hk.2.2.2.2, set_ne _ _ hk.2.2.2.1, set_ne _ _ hk.2.2.1]

theorem asText_ok {v : Val} {s : List Char} : asText v = .ok s ↔ v = .leaf (.text s) := by
  cases v with
  | node l => simp [asText]
  | leaf a => cases a <;> simp [asText]

theorem oldStrataContact_ok {d : Dict} {i : ℕ} {cm : ContactModel Atom} (h : oldStrataContact d i = .ok cm) :
    ∃ mode tops z, d "ssm_contact" = some (.leaf (.text mode)) ∧ d "ssm_top" = some tops ∧
      Spec.entry tops i = some (.leaf z) ∧
      Spec.OldContact mode (some z) ((d "ssm_contact_model").bind fun v => Spec.entry v i) cm := by
  simp only [oldStrataContact, bind_ok, dget_ok, atomOf_ok, asText_ok, valAt_nat] at h
  obtain ⟨_, hm, tops, ht, _, hz, z, rfl, mode, rfl, h⟩ := h
  refine ⟨mode, tops, z, hm, ht, hz, ?_⟩
  have := oldContact_ok.1 h
  have he : (match (do let l ← d.get "ssm_contact_model"; valAt l i : Except PyErr Val) with
      | .ok v => some v | .error _ => none) = (d "ssm_contact_model").bind fun v => Spec.entry v i := by
    unfold Dict.get
    cases d "ssm_contact_model" with
    | none => rfl
    | some v =>
      simp only [Bind.bind, Except.bind, Option.bind]
      cases he : Spec.entry v i with
      | some w => rw [valAt_nat.2 he]
      | none =>
        cases hv : valAt v i with
        | error e => rfl
        | ok w =>
          rw [valAt_nat.1 hv] at he
          cases he
  rwa [he] at this

/-- **C51**, contact models of strata: there is one for each stratum but the last; the `i`-th one has the depth, the mode
and the numbers given by the `i`-th entries of the old options. -/
theorem C51_strata_contacts (d d' : Dict) (cs : List (ContactModel Atom)) (h : convertStrata d = .ok (d', cs))
    (names : List Val) (hn : d "ssm" = some (.node names)) :
    cs.length = names.length - 1 ∧ ∀ (i : ℕ) c, cs[i]? = some c → ∃ mode tops z, d "ssm_contact" = some (.leaf (.text mode)) ∧
      d "ssm_top" = some tops ∧ Spec.entry tops i = some (.leaf z) ∧
      Spec.OldContact mode (some z) ((d "ssm_contact_model").bind fun v => Spec.entry v i) c := by
  obtain ⟨ssm, items, bg, f0, f', a', x', ae, d0, hssm, hitems, _, _, _, _, _, _, _, _, hd0, hcs, _⟩ :=
    convertStrata_ok h
  rw [hn] at hssm
  cases hssm
  cases hitems
  have hl : cs.length = names.length - 1 := by
    have := mapPy_len hcs
    simpa using this
  refine ⟨hl, ?_⟩
  intro i c hc
  have hi : i < names.length - 1 := by
    rw [← hl]
    exact (List.getElem?_eq_some_iff.1 hc).1
  have hf := mapPy_ok.1 hcs
  have hr : (List.range (names.length - 1))[i]? = some i := by simp [hi]
  have hco : oldStrataContact d0 i = .ok c := by
    have := List.forall₂_iff_get.1 hf
    obtain ⟨hlen, hget⟩ := this
    have := hget i (by simpa using hi) (by rw [hl]; exact hi)
    obtain ⟨hlt, rfl⟩ := List.getElem?_eq_some_iff.1 hc
    simpa using this
  have fr : ∀ k, k ∉ ["strata", "bg_facies", "bg_azim", "bg_dip"] → d0 k = d k := by
    intro k hk
    simp only [List.mem_cons, List.not_mem_nil, or_false, not_or] at hk
    rw [hd0, set_ne _ _ hk.1, set_ne _ _ hk.2.2.2, set_ne _ _ hk.2.2.1, set_ne _ _ hk.2.1]
  have := oldStrataContact_ok hco
  rwa [fr _ (by decide), fr _ (by decide), fr _ (by decide)] at this

/-! ### The other sections -/

/-- **C51**, run and hydraulics: the outputs are those of both old lists, the flag and the facies names are kept. -/
theorem C51_run (run run' hyd hyd' : Dict) (h : convertRun run = .ok run') (hh : convertHydraulics hyd = .ok hyd') :
    (∃ m o, run "modeloutputs" = some (.node m) ∧ run "dataoutputs" = some (.node o) ∧
      run' "outputs" = some (.node (m ++ o))) ∧
    (run' "overwrite_old_output" = run "flag_ow") ∧
    (∀ k, k ∉ ["outputs", "overwrite_old_output"] → run' k = run k) ∧
    hyd' "hydrofacies" = hyd "hydro" ∧ ∀ k, k ≠ "hydrofacies" → hyd' k = hyd k := by
  simp only [convertRun, bind_ok, dget_ok, pure_ok] at h
  obtain ⟨m, hm, o, ho, outs, houts, w, hw, rfl⟩ := h
  simp only [convertHydraulics, bind_ok, dget_ok, pure_ok] at hh
  obtain ⟨v, hv, rfl⟩ := hh
  rw [set_ne _ _ (by decide)] at hw
  refine ⟨?_, ?_, ?_, ?_, ?_⟩
  · cases m with
    | leaf a => cases o <;> cases houts
    | node m =>
      cases o with
      | leaf a => cases houts
      | node o =>
        cases houts
        exact ⟨m, o, hm, ho, by rw [set_ne _ _ (by decide), set_same]⟩
  · rw [set_same, hw]
  · intro k hk
    simp only [List.mem_cons, List.not_mem_nil, or_false, not_or] at hk
    rw [set_ne _ _ hk.2, set_ne _ _ hk.1]
  · rw [set_same, hv]
  · intro k hk
    rw [set_ne _ _ hk]

/-- **C51**, model: the four settings come from where the old format has them; the rest of the section is kept. -/
theorem C51_model (run hyd model d' : Dict) (h : convertModel run hyd model = .ok d') :
    d' "anisotropy" = run "anisotropy" ∧ d' "hydraulics" = hyd "gen" ∧ d' "heterogeneity" = run "het" ∧
    d' "heterogeneity_level" = model "hetlev" ∧
    ∀ k, k ∉ ["anisotropy", "hydraulics", "heterogeneity", "heterogeneity_level"] → d' k = model k := by
  simp only [convertModel, bind_ok, dget_ok] at h
  obtain ⟨a, ha, g, hg, t, ht, l, hl, x, hx, h⟩ := h
  rw [set_ne _ _ (by decide), set_ne _ _ (by decide), set_ne _ _ (by decide)] at hl
  by_cases hd : truthy x = true
  · rw [if_pos hd] at h
    cases h
  · rw [if_neg hd, pure_ok] at h
    subst h
    refine ⟨?_, ?_, ?_, ?_, ?_⟩
    · rw [set_ne _ _ (by decide), set_ne _ _ (by decide), set_ne _ _ (by decide), set_same, ha]
    · rw [set_ne _ _ (by decide), set_ne _ _ (by decide), set_same, hg]
    · rw [set_ne _ _ (by decide), set_same, ht]
    · rw [set_same, hl]
    · intro k hk
      simp only [List.mem_cons, List.not_mem_nil, or_false, not_or] at hk
      rw [set_ne _ _ hk.2.2.2, set_ne _ _ hk.2.2.1, set_ne _ _ hk.2.1, set_ne _ _ hk.1]

/-- The values Python takes for false: nothing, `False`, zero, an empty text, an empty list. -/
def Spec.Off (v : Val) : Prop :=
  v = .leaf .none ∨ v = .leaf (.bool false) ∨ v = .leaf (.num 0) ∨ v = .leaf (.text []) ∨ v = .node []

theorem truthy_off (v : Val) : truthy v = false ↔ Spec.Off v := by
  cases v with
  | leaf a => cases a <;> simp [truthy, Spec.Off]
  | node l => simp [truthy, Spec.Off]

/-- **C51**, display: the model section of the old format is translated exactly if the settings it needs are there and the
option `display` is off. A file that asks for a display is rejected with a `ValueError` and not run without one. -/
theorem C51_display (run hyd model : Dict) (a g t l x : Val) (ha : run "anisotropy" = some a) (hg : hyd "gen" = some g)
    (ht : run "het" = some t) (hl : model "hetlev" = some l) (hx : model "display" = some x) :
    ((∃ d', convertModel run hyd model = .ok d') ↔ Spec.Off x) ∧
      (¬ Spec.Off x → convertModel run hyd model = .error .valueError) := by
  have h : convertModel run hyd model = if truthy x then .error .valueError else
      .ok ((((model.set "anisotropy" a).set "hydraulics" g).set "heterogeneity" t).set "heterogeneity_level" l) := by
    have e1 : run.get "anisotropy" = .ok a := (dget_ok ..).2 ha
    have e2 : hyd.get "gen" = .ok g := (dget_ok ..).2 hg
    have e3 : run.get "het" = .ok t := (dget_ok ..).2 ht
    have e4 : (((model.set "anisotropy" a).set "hydraulics" g).set "heterogeneity" t).get "hetlev" = .ok l := by
      rw [dget_ok, set_ne _ _ (by decide), set_ne _ _ (by decide), set_ne _ _ (by decide), hl]
    have e5 : ((((model.set "anisotropy" a).set "hydraulics" g).set "heterogeneity" t).set "heterogeneity_level" l).get
        "display" = .ok x := by
      rw [dget_ok, set_ne _ _ (by decide), set_ne _ _ (by decide), set_ne _ _ (by decide), set_ne _ _ (by decide), hx]
    simp only [convertModel, Bind.bind, Except.bind, e1, e2, e3, e4, e5]
    rfl
  rw [h, ← truthy_off]
  cases truthy x <;> simp

example (run hyd model : Dict) (a g t l : Val) (ha : run "anisotropy" = some a) (hg : hyd "gen" = some g)
    (ht : run "het" = some t) (hl : model "hetlev" = some l) :
    convertModel run hyd (model.set "display" (.leaf (.bool true))) = .error .valueError :=
  (C51_display run hyd _ a g t l _ ha hg ht (by rw [set_ne _ _ (by decide), hl]) (set_same ..)).2
    (by simp [Spec.Off])

/-! ### Accepted files -/

theorem oldStrata_named (C : Convs) : Spec.WellNamed (oldOptsStrata C) := by
  refine ⟨?_, ?_⟩
  · simp [oldOptsStrata, Spec.names]
  · simp [oldOptsStrata]

/-- Lengths in accepted strata sections of the old format. -/
theorem oldStrata_lens {C : Convs} {raw d : Dict} (h : parseSection (oldOptsStrata C) raw = .ok d) :
    ∃ names bg, names ≠ [] ∧ d "ssm" = some (.node names) ∧ d "bg" = some (.node bg) ∧ bg.length = 3 ∧
      ∀ k ∈ ["ssm_top", "ssm_ae", "ae_prob", "ae_z_mean", "avul_prob", "avul"], ∃ l, d k = some (.node l) ∧
        l.length = names.length := by
  have hw := oldStrata_named C
  obtain ⟨_, _, v, _, _, hv, hd, _⟩ := section_required hw h [] _ _ rfl rfl
  obtain ⟨names, rfl, hne, _, hg⟩ := optValue_len_fixed rfl (Or.inr rfl) hv
  have hd0 : d "ssm" = some (.node names) := hd
  obtain ⟨ctx, _, v, _, _, hv, hd, hctx⟩ := section_required hw h [_] _ _ rfl rfl
  have hc : ctx "ssm" = some (.node names) := (hctx "ssm" (by simp)).trans hd0
  obtain ⟨l1, rfl, hl1, _⟩ := optValue_len_same rfl hc hg hv
  have hd1 : d "ssm_top" = some (.node l1) := hd
  obtain ⟨ctx, _, v, _, _, hv, hd, hctx⟩ := section_required hw h [_, _, _, _, _, _, _] _ _ rfl rfl
  have hc : ctx "ssm" = some (.node names) := (hctx "ssm" (by simp)).trans hd0
  obtain ⟨aes, ss, rfl, haes, haes0, hss, hgae⟩ := optValue_len_table rfl hc hv
  have hd2 : d "ssm_ae" = some (.node aes) := hd
  obtain ⟨ctx, _, v, _, _, hv, hd, hctx⟩ := section_required hw h [_, _, _, _, _, _, _, _] _ _ rfl rfl
  have hc : ctx "ssm_ae" = some (.node aes) := (hctx "ssm_ae" (by simp)).trans hd2
  obtain ⟨l3, rfl, hl3, _⟩ := optValue_len_like rfl hc hss hgae hv
  have hd3 : d "ae_prob" = some (.node l3) := hd
  obtain ⟨ctx, _, v, _, _, hv, hd, hctx⟩ := section_required hw h [_, _, _, _, _, _, _, _, _] _ _ rfl rfl
  have hc : ctx "ssm_ae" = some (.node aes) := (hctx "ssm_ae" (by simp)).trans hd2
  obtain ⟨l4, rfl, hl4, _⟩ := optValue_len_like rfl hc hss hgae hv
  have hd4 : d "ae_z_mean" = some (.node l4) := hd
  obtain ⟨ctx, _, v, _, _, hv, hd, hctx⟩ := section_required hw h [_, _, _, _, _, _, _, _, _, _] _ _ rfl rfl
  have hc : ctx "ssm" = some (.node names) := (hctx "ssm" (by simp)).trans hd0
  obtain ⟨l5, _, rfl, hl5, _⟩ := optValue_len_table rfl hc hv
  have hd5 : d "avul_prob" = some (.node l5) := hd
  obtain ⟨ctx, _, v, _, _, hv, hd, hctx⟩ := section_required hw h [_, _, _, _, _, _, _, _, _, _, _] _ _ rfl rfl
  have hc : ctx "ssm" = some (.node names) := (hctx "ssm" (by simp)).trans hd0
  obtain ⟨l6, _, rfl, hl6, _⟩ := optValue_len_table rfl hc hv
  have hd6 : d "avul" = some (.node l6) := hd
  obtain ⟨_, _, v, _, _, hv, hd, _⟩ := section_required hw h [_, _, _, _, _, _, _, _, _, _, _, _] _ _ rfl rfl
  obtain ⟨bg, rfl, _, hb3, _⟩ := optValue_len_fixed (n := 3) rfl (Or.inl ⟨rfl, by decide⟩) hv
  have hd7 : d "bg" = some (.node bg) := hd
  refine ⟨names, bg, hne, hd0, hd7, by omega, ?_⟩
  intro k hk
  simp only [List.mem_cons, List.not_mem_nil, or_false] at hk
  rcases hk with rfl | rfl | rfl | rfl | rfl | rfl
  · exact ⟨_, hd1, hl1⟩
  · exact ⟨_, hd2, haes⟩
  · exact ⟨_, hd3, hl3.trans haes⟩
  · exact ⟨_, hd4, hl4.trans haes⟩
  · exact ⟨_, hd5, hl5⟩
  · exact ⟨_, hd6, hl6⟩

/-- The passes of `parseDeprecated`. -/
theorem parseDeprecated_ok {C : Convs} {p : Ini} {o : OldParsed} (h : parseDeprecated C p = .ok o) :
    (∀ s ∈ oldMustHaves, s ∈ p.sections) ∧ parseSection (oldOptsRun C) (p.get "run") = .ok o.run ∧
      parseSection (oldOptsStrata C) (p.get "strata") = .ok o.strata ∧ o.strata "ae_table" = some (.leaf .none) ∧
      parseSection (oldOptsHydraulics C) (p.get "hydraulics") = .ok o.hydraulics ∧
      parseSection (oldOptsFlowtrans C) (p.get "flowtrans") = .ok o.flowtrans ∧
      mapPy (parseOldElement C p) (oldElementSections p) = .ok o.elements := by
  simp only [parseDeprecated, bind_ok, pure_ok] at h
  obtain ⟨u, hu, run, hrun, _, _, _, _, _, _, strata, hst, u2, hu2, hyd, hhyd, fl, hfl, els, hels, rfl⟩ := h
  refine ⟨?_, hrun, hst, ?_, hhyd, hfl, hels⟩
  · unfold oldSectionsCheck at hu
    split_ifs at hu with hall
    intro s hs
    simpa using List.all_eq_true.1 hall s hs
  · simp only [aeTableCheck, bind_ok, dget_ok] at hu2
    obtain ⟨v, hv, hu2⟩ := hu2
    by_cases hn : v = .leaf .none
    · subst hn
      exact hv
    · rw [if_neg hn] at hu2
      cases hu2

/-- The passes of `convertOld`. -/
theorem convertOld_ok {o : OldParsed} {P : Parsed} (h : convertOld o = .ok P) :
    convertRun o.run = .ok P.run ∧ convertHydraulics o.hydraulics = .ok P.hydraulics ∧
      convertModel P.run P.hydraulics o.model = .ok P.model ∧ convertStrata o.strata = .ok (P.strata, P.contacts) ∧
      P.flowtrans = o.flowtrans ∧
      List.Forall₂ (fun x y : String × _ => y.1 = x.1 ∧ convertElement x.2 = .ok y.2) o.elements P.elements := by
  simp only [convertOld, bind_ok, pure_ok] at h
  obtain ⟨run, hrun, hyd, hhyd, model, hmodel, ⟨st, cs⟩, hst, els, hels, rfl⟩ := h
  refine ⟨hrun, hhyd, hmodel, hst, rfl, (mapPy_ok.1 hels).imp ?_⟩
  intro x y hxy
  simp only [bind_ok, pure_ok] at hxy
  obtain ⟨e, he, rfl⟩ := hxy
  exact ⟨rfl, he⟩

theorem old_entries {C : Convs} {p : Ini} {o : OldParsed} {P : Parsed} (ho : parseDeprecated C p = .ok o)
    (h : convertOld o = .ok P) :
    ∃ n, 1 ≤ n ∧ P.contacts.length = n - 1 ∧
      ∀ k ∈ "ae_in_strata" :: stratumNames, ∃ l, P.strata k = some (.node l) ∧ l.length = n := by
  obtain ⟨_, _, hst, _⟩ := parseDeprecated_ok ho
  obtain ⟨_, _, _, hc, _⟩ := convertOld_ok h
  obtain ⟨names, bg, hne, hnames, hbg, hb3, hl⟩ := oldStrata_lens hst
  obtain ⟨ssm, items, bg', f0, f', a', x', ae, d0, hssm, hitems, _, _, _, _, _, _, _, hae, hd0, hcs, hP⟩ :=
    convertStrata_ok hc
  rw [hnames] at hssm
  cases hssm
  cases hitems
  refine ⟨names.length, List.length_pos_iff.2 hne, (C51_strata_contacts _ _ _ hc _ hnames).1, ?_⟩
  have keep : ∀ k ∈ ["ae_prob", "ae_z_mean", "avul_prob", "avul"], ∃ l, P.strata k = some (.node l) ∧
      l.length = names.length := by
    intro k hk
    obtain ⟨l, h1, h2⟩ := hl k (by simp only [List.mem_cons, List.not_mem_nil, or_false] at hk ⊢; tauto)
    have hk2 : k ∉ ["ae_in_strata", "strata", "bg_dip", "bg_azim", "bg_facies"] := by
      simp only [List.mem_cons, List.not_mem_nil, or_false] at hk
      rcases hk with rfl | rfl | rfl | rfl <;> decide
    simp only [List.mem_cons, List.not_mem_nil, or_false, not_or] at hk2
    exact ⟨l, by rw [hP, set_ne _ _ hk2.1, hd0, set_ne _ _ hk2.2.1, set_ne _ _ hk2.2.2.1, set_ne _ _ hk2.2.2.2.1,
      set_ne _ _ hk2.2.2.2.2, h1], h2⟩
  intro k hk
  simp only [stratumNames, List.mem_cons, List.not_mem_nil, or_false] at hk
  rcases hk with rfl | rfl | rfl | rfl | rfl | rfl | rfl | rfl | rfl
  · obtain ⟨l, h1, h2⟩ := hl "ssm_ae" (by simp)
    rw [hae] at h1
    exact ⟨l, by rw [hP, set_same, h1], h2⟩
  · exact ⟨_, by rw [hP, set_ne _ _ (by decide), hd0, set_ne _ _ (by decide), set_ne _ _ (by decide),
      set_ne _ _ (by decide), set_same]; rfl, by simp⟩
  · exact ⟨_, by rw [hP, set_ne _ _ (by decide), hd0, set_ne _ _ (by decide), set_ne _ _ (by decide), set_same]; rfl,
      by simp⟩
  · exact ⟨_, by rw [hP, set_ne _ _ (by decide), hd0, set_ne _ _ (by decide), set_same]; rfl, by simp⟩
  · exact keep _ (by simp)
  · exact keep _ (by simp)
  · exact keep _ (by simp)
  · exact keep _ (by simp)
  · exact ⟨names, by rw [hP, set_ne _ _ (by decide), hd0, set_same], rfl⟩

/-- Entries per stratum, for both formats. -/
theorem any_entries {C : Convs} {p : Ini} {P : Parsed} (h : parseAny C p = .ok P) :
    ∃ n, 1 ≤ n ∧ P.contacts.length = n - 1 ∧
      ∀ k ∈ "ae_in_strata" :: stratumNames, ∃ l, P.strata k = some (.node l) ∧ l.length = n := by
  unfold parseAny at h
  by_cases h1 : "run" ∉ p.sections
  · rw [if_pos h1] at h
    cases h
  · rw [if_neg h1] at h
    by_cases h2 : (p.get "run" "dataoutputs").isSome = true
    · rw [if_pos h2] at h
      simp only [bind_ok] at h
      obtain ⟨o, ho, h⟩ := h
      exact old_entries ho h
    · rw [if_neg h2] at h
      obtain ⟨n, hn, hc, hl⟩ := strata_entries h
      exact ⟨n, by omega, hc, hl⟩

/-- **C52**, both formats: in every accepted ini-file with `n` strata, the `si`-th stratum from the top gets entry
`n - 1 - si` of each strata option, and contact model `n - 2 - si`; no access is out of range. -/
theorem C52_formats (C : Convs) (p : Ini) (P : Parsed) (h : parseAny C p = .ok P) :
    ∃ names, P.strata "strata" = some (.node names) ∧ P.contacts.length + 1 = names.length ∧ ∀ si < names.length,
      (∀ k ∈ "ae_in_strata" :: stratumNames, ∃ l v, P.strata k = some (.node l) ∧ l.length = names.length ∧
        l[names.length - 1 - si]? = some v ∧ stratumEntry P.strata k si = .ok v) ∧
      (si + 1 < names.length → ∃ c, P.contacts[names.length - 2 - si]? = some c ∧
        stratumContact P.contacts names.length si = .ok (some c)) ∧
      (si + 1 = names.length → stratumContact P.contacts names.length si = .ok none) := by
  obtain ⟨n, hn, hc, hl⟩ := any_entries h
  obtain ⟨names, hnames, hnn⟩ := hl "strata" (by simp [stratumNames])
  refine ⟨names, hnames, by omega, ?_⟩
  intro si hsi
  refine ⟨?_, ?_, ?_⟩
  · intro k hk
    obtain ⟨l, hlk, hln⟩ := hl k hk
    have hsi' : si < l.length := by omega
    refine ⟨l, l[l.length - 1 - si]'(by omega), hlk, by omega, ?_, ?_⟩
    · rw [show names.length - 1 - si = l.length - 1 - si by omega, List.getElem?_eq_getElem]
    · simp only [stratumEntry, dget_ok.2 hlk, pyItems, Bind.bind, Except.bind]
      exact pyGet_fromEnd hsi'
  · intro hsi2
    refine ⟨P.contacts[P.contacts.length - 1 - si]'(by omega), ?_, ?_⟩
    · rw [show names.length - 2 - si = P.contacts.length - 1 - si by omega, List.getElem?_eq_getElem]
    · unfold stratumContact
      rw [if_neg (by omega), pyGet_fromEnd (by omega)]
      rfl
  · intro hsi2
    unfold stratumContact
    rw [if_pos (by omega)]

/-! ### What can be generated -/

theorem geometry_kept {C : Convs} {g : List Char} {opts : List Opt} (hg : geometryOpts C g = .ok opts) {raw d : Dict}
    (h : parseSection opts raw = .ok d) : ∃ t, raw "geometry" = some (.leaf (.text t)) ∧
      d "geometry" = some (.leaf (.text t)) := by
  unfold geometryOpts at hg
  split_ifs at hg with h1 h2 h3 <;> cases hg
  · exact required_scalar (trough_named C) (C := C) h (o := { name := "geometry", kind := .scalar C.str, valid := oneOf ["trough", "channel", "sheet"] })
      (by simp [optsTrough, optsElement]) rfl rfl rfl
  · exact required_scalar (channel_named C) (C := C) h (o := { name := "geometry", kind := .scalar C.str, valid := oneOf ["trough", "channel", "sheet"] })
      (by simp [optsChannel, optsElement]) rfl rfl rfl
  · exact required_scalar (sheet_named C) (C := C) h (o := { name := "geometry", kind := .scalar C.str, valid := oneOf ["trough", "channel", "sheet"] })
      (by simp [optsSheet, optsElement]) rfl rfl rfl

/-- **C89** (partial): every element of an accepted new-format ini-file has a geometry that is generated, and if it is a
trough, a structure that is known for every draw. Missing: elements of the old format (`C89_refuted`). -/
theorem C89_partial (C : Convs) (hydro : List Val) (raw : Dict) (e : Element) (h : parseElement C hydro raw = .ok e) :
    ∃ g ∈ ["trough", "channel", "sheet"], ∃ d s, aeTypeInit e.dict = .ok d ∧ Spec.written d "geometry" g ∧
      Spec.written d "structure" s ∧ (g = "trough" → ∀ draw, ∃ k < 4, structureNumber s draw = .ok k) ∧
      (g ≠ "trough" → s = "massive" ∨ s = "dip") := by
  obtain ⟨g, opts, d0, cm, f, fv, d1, d2, hg, ho, hd0, _, _, hf, hfv, hd1, hd2, hr, hd3⟩ := parseElement_ok h
  obtain ⟨t, ht, ht'⟩ := geometry_kept ho hd0
  have htg : t = g := by
    unfold geometryOf at hg
    rw [ht] at hg
    exact Except.ok.inj hg
  subst htg
  have hgs : ∃ G ∈ ["trough", "channel", "sheet"], t = G.toList := by
    have := ho
    unfold geometryOpts at this
    split_ifs at this with h1 h2 h3
    · exact ⟨_, by simp, h1⟩
    · exact ⟨_, by simp, h2⟩
    · exact ⟨_, by simp, h3⟩
  obtain ⟨G, hG, rfl⟩ := hgs
  obtain ⟨s, hs, hst⟩ := C81_structure C G opts ho raw d0 hd0
  have hgeo : e.dict "geometry" = some (.leaf (.text G.toList)) := by
    rw [element_frame hd1 hd2 hd3 "geometry" (by decide), ht']
  have hstr : e.dict "structure" = some (.leaf (.text s.toList)) := by
    rw [element_frame hd1 hd2 hd3 "structure" (by decide), hst]
  refine ⟨G, hG, ?_⟩
  have hinj : ∀ {x : String}, s.toList = x.toList → s = x := fun h => String.toList_inj.1 h
  by_cases hfl : s = "flat"
  · subst hfl
    have hGt : G = "trough" := by
      simp only [List.mem_cons, List.not_mem_nil, or_false] at hG
      rcases hG with rfl | rfl | rfl
      · rfl
      · exact absurd hs (by decide)
      · exact absurd hs (by decide)
    subst hGt
    refine ⟨e.dict.set "structure" (.leaf (.text "massive".toList)), "massive", ?_, ?_, set_same _ _ _, ?_, by simp⟩
    · simp only [aeTypeInit, dget_ok.2 hgeo, dget_ok.2 hstr, Bind.bind, Except.bind]
      rw [if_pos (isText_iff.2 rfl)]
      rfl
    · unfold Spec.written
      rw [set_ne _ _ (by decide), hgeo]
    · intro _ draw
      exact ⟨0, by decide, rfl⟩
  · refine ⟨e.dict, s, ?_, hgeo, hstr, ?_, ?_⟩
    · simp only [aeTypeInit, dget_ok.2 hgeo, dget_ok.2 hstr, Bind.bind, Except.bind]
      rw [if_neg]
      · rfl
      · intro hi
        have := isText_iff.1 hi
        simp only [Tree.leaf.injEq, Atom.text.injEq] at this
        exact hfl (hinj this)
    · rintro rfl draw
      simp only [Spec.structures, List.mem_cons, List.not_mem_nil, or_false] at hs
      rcases hs with rfl | rfl | rfl | rfl | rfl | rfl
      · exact ⟨0, by decide, rfl⟩
      · exact ⟨1, by decide, rfl⟩
      · exact ⟨2, by decide, rfl⟩
      · exact ⟨3, by decide, rfl⟩
      · exact ⟨draw % 4, Nat.mod_lt _ (by decide), rfl⟩
      · exact absurd rfl hfl
    · intro hne
      simp only [List.mem_cons, List.not_mem_nil, or_false] at hG
      rcases hG with rfl | rfl | rfl
      · exact absurd rfl hne
      · simpa [Spec.structures] using hs
      · simpa [Spec.structures] using hs


/-- **C51**, channels: the geometry `ext_par` is not converted, and no element of this geometry can be generated. -/
theorem C51_channel_refuted (d : Dict) (e : Element) (h : convertElement d = .ok e)
    (hg : Spec.written d "geometry" "ext_par") : Spec.written e.dict "geometry" "ext_par" ∧
      ∀ {α : Type} [Field α] [LinearOrder α] (g : GridZ α) (sp : StratumParams α) (t : ElemParams α) (dr : AEDraw α)
        (hp : Heap α) (bottom top : ℕ), t.geometry = "ext_par" →
          genAE g sp t dr hp bottom top = .error (.err .valueError) := by
  obtain ⟨t, d1, d2, d3, ht, h1, h2, h3, _, h4⟩ := convertElement_ok h
  have hg2 : Spec.written d2 "geometry" "ext_par" := by
    unfold Spec.written at hg ⊢
    rw [dist_frame h2 (by decide) (by decide), bg_frame h1 (by decide) (by decide) (by decide), set_ne _ _ (by decide), hg]
  refine ⟨?_, ?_⟩
  · rcases convertGeometry_ok h3 with ⟨hn, _⟩ | ⟨_, rfl⟩
    · unfold Spec.written at hg2 hn
      rw [hg2] at hn
      exact absurd hn (by decide +kernel)
    · unfold Spec.written at hg2 ⊢
      rw [lag_frame h4 (by decide) (by decide), hg2]
  · intro α _ _ g sp t dr hp bottom top ht
    unfold genAE
    rw [ht, if_neg (by decide), if_neg (by decide)]

/-! ### Examples -/

/-- Options of an old-format ini-file with one stratum. -/
def exOldSections : List (String × List (String × String)) :=
  [("run", [("dataoutputs", "[vtr]"), ("l_modeloutputs", "[mf6]"), ("flag_ow", "true")]),
   ("model", [("dx", "5"), ("dz", "1"), ("lx", "100"), ("ly", "50"), ("lz", "10"), ("hetlev", "internal")]),
   ("strata", [("l_ssm", "[gravel]"), ("r_ssm_top", "[10]"), ("l_ae", "[scour]"), ("ll_ssm_ae", "[[scour]]"),
      ("ll_ae_prob", "[[1]]"), ("ll_ae_z_mean", "[[2]]"), ("ll_avul_prob", "[[0]]"), ("ll_avul", "[[0, 1]]"),
      ("bg", "[1, 10, 45]")]),
   ("hydraulics", [("l_hydro", "[silt, sand]"), ("r_k_h", "[1, 2]"), ("r_sig_y", "1"), ("r_k_ratio", "2"), ("r_n", "1"),
      ("r_sig_n", "0"), ("ll_ycorlengths", "[1, 2, 3]"), ("ll_ncorlengths", "[1, 2, 3]")]),
   ("flowtrans", []),
   ("scour", [("geometry", "trunc_ellip"), ("structure", "bulb_l"), ("contact", "random"), ("r_contact_model", "[1, 9, 9]"),
      ("l_facies", "[0, 1]"), ("r_geo_ztrend", "[1, 2]"), ("bg", "[1, 10, 45]"), ("agg", "1"), ("dipset_d", "3"),
      ("r_lag", "[2, 1]"), ("r_dip", "[5, 15]"), ("length", "10"), ("width", "5"), ("depth", "2"), ("el_z", "4"),
      ("r_paleoflow", "[0, 45]"), ("r_azimuth", "[0, 45]"), ("bulbset_d", "6")]),
   ("river", [("geometry", "ext_par"), ("structure", "dip"), ("contact", "flat"), ("l_facies", "[0]"), ("agg", "1"),
      ("r_dip", "[5, 15]"), ("width", "5"), ("depth", "2"), ("h", "1"), ("k", "1"), ("ds", "1"), ("eps_factor", "1"),
      ("channel_no", "3")])]

/-- The example. -/
def exOld : Ini := iniOf exOldSections

theorem exOld_ok : ∃ P, parseAny exConvs exOld = .ok P := isOk_iff.1 (by decide +kernel)

/-- Reads an option of the first element. -/
def firstElement (r : Except PyErr Parsed) (k : String) : Option Val :=
  match r with
  | .ok P => P.elements.head?.bind fun e => e.2.dict k
  | .error _ => none

theorem firstElement_some {r : Except PyErr Parsed} {k : String} {v : Val} (h : firstElement r k = some v) :
    ∃ P x, r = .ok P ∧ x ∈ P.elements ∧ x.2.dict k = some v := by
  cases r with
  | error e => cases h
  | ok P =>
    simp only [firstElement] at h
    cases he : P.elements with
    | nil =>
      rw [he] at h
      cases h
    | cons x l =>
      rw [he] at h
      exact ⟨P, x, rfl, by simp [he], h⟩

/-- Tests the first elements of an old-format file before and after conversion. -/
def checkOld (r : Except PyErr OldParsed) (f : String × Dict → String × Element → Bool) : Bool :=
  match r with
  | .ok o =>
    match convertOld o with
    | .ok P =>
      match o.elements, P.elements with
      | x :: _, y :: _ => f x y
      | _, _ => false
    | .error _ => false
  | .error _ => false

theorem checkOld_true {r : Except PyErr OldParsed} {f : String × Dict → String × Element → Bool} (h : checkOld r f = true) :
    ∃ o P x y, r = .ok o ∧ convertOld o = .ok P ∧ x ∈ o.elements ∧ y ∈ P.elements ∧ f x y = true := by
  cases r with
  | error e => cases h
  | ok o =>
    simp only [checkOld] at h
    cases hc : convertOld o with
    | error e =>
      rw [hc] at h
      cases h
    | ok P =>
      rw [hc] at h
      simp only at h
      cases he : o.elements with
      | nil =>
        rw [he] at h
        cases h
      | cons x l =>
        cases hp : P.elements with
        | nil =>
          rw [he, hp] at h
          cases h
        | cons y l' =>
          rw [he, hp] at h
          exact ⟨o, P, x, y, rfl, hc, by simp [he], by simp [hp], h⟩

/-- **C51**, refuted part: an accepted old-format file whose element has background `[1, 10, 45]` (facies, azimuth, dip)
is converted to one with background dip 10. -/
theorem C51_refuted : ∃ o P x y, parseDeprecated exConvs exOld = .ok o ∧ convertOld o = .ok P ∧ x ∈ o.elements ∧
    y ∈ P.elements ∧ x.1 = y.1 ∧
    x.2 "bg" = some (.node [.leaf (.num 1), .leaf (.num 10), .leaf (.num 45)]) ∧
    y.2.dict "bg_dip" = some (.leaf (.num 10)) := by
  obtain ⟨o, P, x, y, h1, h2, h3, h4, h5⟩ := checkOld_true (r := parseDeprecated exConvs exOld)
    (f := fun x y => decide (x.1 = y.1) &&
      decide (x.2 "bg" = some (.node [.leaf (.num 1), .leaf (.num 10), .leaf (.num 45)])) &&
      decide (y.2.dict "bg_dip" = some (.leaf (.num 10)))) (by decide +kernel)
  simp only [Bool.and_eq_true, decide_eq_true_eq] at h5
  exact ⟨o, P, x, y, h1, h2, h3, h4, h5.1.1, h5.1.2, h5.2⟩

/-- **C89**, refuted part: an accepted old-format file with a trough whose structure is unknown when it is generated. -/
theorem C89_refuted : ∃ P y d, parseAny exConvs exOld = .ok P ∧ y ∈ P.elements ∧ aeTypeInit y.2.dict = .ok d ∧
    Spec.written d "geometry" "trough" ∧ Spec.written d "structure" "bulb_l" ∧
    ∀ draw, structureNumber "bulb_l" draw = .error .valueError := by
  obtain ⟨o, P, x, y, h1, h2, h3, h4, h5⟩ := checkOld_true (r := parseDeprecated exConvs exOld)
    (f := fun _ y => match aeTypeInit y.2.dict with
      | .ok d => decide (d "geometry" = some (.leaf (.text "trough".toList))) &&
          decide (d "structure" = some (.leaf (.text "bulb_l".toList)))
      | .error _ => false) (by decide +kernel)
  cases hd : aeTypeInit y.2.dict with
  | error e =>
    rw [hd] at h5
    cases h5
  | ok d =>
    rw [hd] at h5
    simp only [Bool.and_eq_true, decide_eq_true_eq] at h5
    refine ⟨P, y, d, ?_, h4, hd, h5.1, h5.2, fun _ => rfl⟩
    unfold parseAny
    rw [if_neg (by decide +kernel), if_pos (by decide +kernel), h1]
    exact h2

/-- **C82** for the old format: one stratum is accepted. -/
theorem C82_old_single : ∃ P l, parseAny exConvs exOld = .ok P ∧ P.strata "strata" = some (.node l) ∧ l.length = 1 := by
  obtain ⟨P, hP⟩ := exOld_ok
  have h : (match parseAny exConvs exOld with
    | .ok P => decide (P.strata "strata" = some (.node [.leaf (.text "gravel".toList)]))
    | .error _ => false) = true := by decide +kernel
  generalize parseAny exConvs exOld = r at h hP
  subst hP
  exact ⟨P, _, rfl, of_decide_eq_true h, rfl⟩

/-- Every kind of conversion occurs in the example. -/
example : ∃ o P x y, parseDeprecated exConvs exOld = .ok o ∧ convertOld o = .ok P ∧ x ∈ o.elements ∧ y ∈ P.elements ∧
    convertElement x.2 = .ok y.2 ∧ Spec.written x.2 "geometry" "trunc_ellip" ∧
    x.2 "lag" = some (.node [.leaf (.num 2), .leaf (.num 1)]) ∧ y.2.dict "lag_height" = some (.leaf (.num 2)) ∧
    y.2.dict "trough_density" = some (.leaf (.num 4)) := by
  obtain ⟨o, P, x, y, h1, h2, h3, h4, h5⟩ := checkOld_true (r := parseDeprecated exConvs exOld)
    (f := fun x y => decide (x.1 = y.1) && decide (x.1 = "scour") &&
      decide (x.2 "geometry" = some (.leaf (.text "trunc_ellip".toList))) &&
      decide (x.2 "lag" = some (.node [.leaf (.num 2), .leaf (.num 1)])) &&
      decide (x.2 "el_z" = some (.leaf (.num 4))) &&
      (match convertElement x.2 with
        | .ok e => decide (e.dict "el_z" = y.2.dict "el_z")
        | .error _ => false)) (by decide +kernel)
  simp only [Bool.and_eq_true, decide_eq_true_eq] at h5
  obtain ⟨⟨⟨⟨⟨hxy, hx⟩, hg⟩, hl⟩, hz⟩, -⟩ := h5
  obtain ⟨y', hy', hyn, hc⟩ : ∃ y' ∈ P.elements, y'.1 = x.1 ∧ convertElement x.2 = .ok y'.2 := by
    have hf := (convertOld_ok h2).2.2.2.2.2
    obtain ⟨n, hn, rfl⟩ := List.mem_iff_getElem.1 h3
    have hlen := hf.length_eq
    refine ⟨P.elements[n]'(by omega), List.getElem_mem _, ?_⟩
    have := List.forall₂_iff_get.1 hf
    exact this.2 n hn (by omega)
  obtain ⟨_, h7, _, h8⟩ := C51_trough _ _ hc hg
  exact ⟨o, P, x, y', h1, h2, h3, hy', hc, hg, hl, (h8 _ _ _ hl).1, by rw [h7, hz]⟩

/-- The river of the example is accepted but keeps its old geometry. -/
example : ∃ P y, parseAny exConvs exOld = .ok P ∧ y ∈ P.elements ∧ Spec.written y.2.dict "geometry" "ext_par" := by
  obtain ⟨P, hP⟩ := exOld_ok
  have h : (match parseAny exConvs exOld with
    | .ok P => P.elements.any fun y => decide (y.2.dict "geometry" = some (.leaf (.text "ext_par".toList)))
    | .error _ => false) = true := by decide +kernel
  generalize parseAny exConvs exOld = r at h hP
  subst hP
  obtain ⟨y, hy, hg⟩ := List.any_eq_true.1 h
  exact ⟨P, y, rfl, hy, by simpa [Spec.written] using hg⟩

/-- Strata of an old-format file with two strata and random contacts. -/
def exOldStrata : Dict := fun k =>
  if k = "ssm" then some (.node [.leaf (.text "clay".toList), .leaf (.text "gravel".toList)])
  else if k = "ssm_top" then some (.node [.leaf (.num 4), .leaf (.num 10)])
  else if k = "ssm_contact" then some (.leaf (.text "random".toList))
  else if k = "ssm_contact_model" then some (.node [.node [.leaf (.num 1), .leaf (.num 8), .leaf (.num 9)], .node []])
  else if k = "bg" then some (.node [.leaf (.num 1), .leaf (.num 10), .leaf (.num 45)])
  else if k = "ae_table" then some (.leaf .none)
  else if k = "save_aelu" then some (.leaf (.bool false))
  else if k = "ssm_ae" then some (.node [.node [], .node []])
  else none

example : ∃ d' cs c, convertStrata exOldStrata = .ok (d', cs) ∧ cs[0]? = some c ∧ c.z = some (.num 4) ∧
    c.var = some (.num 1) ∧ c.corly = some (.num 9) ∧
    d' "bg_dip" = some (.node [.leaf (.num 45), .leaf (.num 45)]) := by
  have hk : isOk (convertStrata exOldStrata) = true := by decide +kernel
  obtain ⟨⟨d', cs⟩, h⟩ := isOk_iff.1 hk
  obtain ⟨hl, hcs⟩ := C51_strata_contacts _ _ _ h [.leaf (.text "clay".toList), .leaf (.text "gravel".toList)] rfl
  obtain ⟨c, hc⟩ : ∃ c, cs[0]? = some c := by
    rw [List.getElem?_eq_getElem (by rw [hl]; decide)]
    exact ⟨_, rfl⟩
  obtain ⟨mode, tops, z, hm, ht, hz, _, hcz, hr⟩ := hcs 0 c hc
  have hb := (C51_strata _ _ _ h _ rfl 1 (.leaf (.num 10)) (.leaf (.num 45)) [] rfl).2.2.2.2.1
  refine ⟨d', cs, c, h, hc, ?_, ?_⟩
  · cases ht
    cases hz
    exact hcz
  · cases hm
    rcases hr with ⟨hf, _⟩ | ⟨_, v, hv, a, b, e, h1, h2, h3, h4, h5, h6⟩
    · exact absurd hf (by decide +kernel)
    · cases hv
      cases h1
      cases h3
      exact ⟨h4, h6, hb⟩

/-! ### C91: sections -/

/-- **C91 (refused).** An ini-file of either format without one of the sections `run`, `model`, `strata`, `hydraulics` is
refused: with `MissingSectionError`, except for a missing section `run`, which is a `KeyError`. -/
theorem C91_refused (C : Convs) (p : Ini) (s : String) (hs : s ∈ ["run", "model", "strata", "hydraulics"])
    (hp : s ∉ p.sections) :
    parseAny C p = .error (if "run" ∈ p.sections then .missingSection else .keyError) := by
  by_cases hr : "run" ∈ p.sections
  · rw [if_pos hr]
    unfold parseAny
    rw [if_neg (not_not.2 hr)]
    by_cases ho : (p.get "run" "dataoutputs").isSome = true
    · rw [if_pos ho]
      have hc : oldSectionsCheck p = .error .missingSection := by
        unfold oldSectionsCheck
        rw [if_neg]
        intro h
        rw [List.all_eq_true] at h
        have hm : s ∈ oldMustHaves := by
          unfold oldMustHaves
          simp only [List.mem_cons, List.not_mem_nil, or_false] at hs ⊢
          tauto
        exact hp (by simpa using h s hm)
      simp only [parseDeprecated, hc, Bind.bind, Except.bind]
    · rw [if_neg ho]
      exact C91_missing C p s hs hp
  · rw [if_neg hr]
    unfold parseAny
    rw [if_pos hr]

theorem old_names {C : Convs} {p : Ini} {o : OldParsed} (h : parseDeprecated C p = .ok o) :
    o.elements.map (·.1) = oldElementSections p := by
  simp only [parseDeprecated, bind_ok, pure_ok] at h
  obtain ⟨_, _, _, _, _, _, _, _, _, _, _, _, _, _, _, _, _, _, els, hels, rfl⟩ := h
  rw [mapPy_ok] at hels
  refine List.ext_getElem (by simp [hels.length_eq]) ?_
  intro i h1 h2
  have := List.forall₂_iff_get.1 hels |>.2 i h2 (by simpa using h1)
  simp only [parseOldElement, bind_ok, pure_ok, List.get_eq_getElem] at this
  obtain ⟨_, _, _, _, _, _, he⟩ := this
  simp [← he]

theorem convertOld_names {o : OldParsed} {P : Parsed} (h : convertOld o = .ok P) :
    P.elements.map (·.1) = o.elements.map (·.1) := by
  simp only [convertOld, bind_ok, pure_ok] at h
  obtain ⟨_, _, _, _, _, _, ⟨_, _⟩, _, els, hels, rfl⟩ := h
  rw [mapPy_ok] at hels
  refine List.ext_getElem (by simp [hels.length_eq]) ?_
  intro i h1 h2
  have := List.forall₂_iff_get.1 hels |>.2 i (by simpa using h2) (by simpa using h1)
  simp only [bind_ok, pure_ok, List.get_eq_getElem] at this
  obtain ⟨_, _, he⟩ := this
  simp [← he]

/-- **C91 (elements, both formats).** In an accepted ini-file of either format, the elements are exactly the sections that have
no other meaning, with their names and in the order of the file. -/
theorem C91_any (C : Convs) (p : Ini) (P : Parsed) (h : parseAny C p = .ok P) :
    (P.elements.map (·.1)).Sublist p.sections ∧
    ∀ s, s ∈ P.elements.map (·.1) ↔
      s ∈ p.sections ∧ s ≠ "run" ∧ s ≠ "model" ∧ s ≠ "strata" ∧ s ≠ "hydraulics" ∧ s ≠ "flowtrans" := by
  unfold parseAny at h
  split_ifs at h
  · rw [bind_ok] at h
    obtain ⟨o, ho, hP⟩ := h
    rw [convertOld_names hP, old_names ho]
    refine ⟨List.filter_sublist, fun s => ?_⟩
    simp [oldElementSections, oldMustHaves, and_assoc]
  · exact (C91_elements C p P h).2

example : ∃ P, parseAny exConvs exOld = .ok P ∧ "flowtrans" ∉ P.elements.map (·.1) := by
  obtain ⟨P, hP⟩ := exOld_ok
  exact ⟨P, hP, fun hs => ((C91_any _ _ P hP).2 _ |>.1 hs).2.2.2.2.2 rfl⟩

/-! ### C86: grid spacings -/

theorem oldModel_named (C : Convs) : Spec.WellNamed (oldOptsModel C) := by
  refine ⟨?_, ?_⟩
  · simp [oldOptsModel, Spec.names]
  · simp [oldOptsModel]

/-- **C86 (both formats).** -/
theorem C86_any (C : Convs) (hC : ∀ t a, C.float t = .ok a → a ≠ .none) (p : Ini) (P : Parsed) (h : parseAny C p = .ok P) :
    Spec.Spacing C (p.get "model") P.model := by
  unfold parseAny at h
  split_ifs at h
  · rw [bind_ok] at h
    obtain ⟨o, ho, hP⟩ := h
    obtain ⟨_, _, hm, _⟩ := convertOld_ok hP
    have hkeep := (C51_model _ _ _ _ hm).2.2.2.2
    simp only [parseDeprecated, bind_ok, pure_ok] at ho
    obtain ⟨_, _, _, _, d0, h0, d1, h1, d2, h2, _, _, _, _, _, _, _, _, _, _, rfl⟩ := ho
    obtain ⟨dx, a1, a2, a3⟩ := spacing_of hC (oldModel_named C) h0 h1 h2 [_, _, _] _ [_, _, _, _] _ [_, _, _, _, _] _ rfl rfl rfl
    refine ⟨dx, a1, ?_, ?_⟩
    · rw [hkeep _ (by decide)]
      exact a2
    · intro k hk
      rw [hkeep k (by simp only [List.mem_cons, List.not_mem_nil, or_false] at hk; rcases hk with rfl | rfl <;> decide)]
      exact a3 k hk
  · obtain ⟨_, _, _, _, _, _, _, _, hm, _⟩ := parseInifile_ok h
    exact C86_spacing C hC _ _ hm

theorem exConvs_float : ∀ t a, exConvs.float t = .ok a → a ≠ .none := by
  intro t a h
  simp only [exConvs] at h
  split_ifs at h
  cases h
  simp

example : ∃ P dx, parseAny exConvs exOld = .ok P ∧ Spec.NumberWritten exConvs (exOld.get "model") "dx" dx ∧
    P.model "dy" = some (.leaf dx) := by
  obtain ⟨P, hP⟩ := exOld_ok
  obtain ⟨dx, h1, _, h3⟩ := C86_any exConvs exConvs_float exOld P hP
  exact ⟨P, dx, hP, h1, (h3 "dy" (by simp)).1 (by decide +kernel)⟩

/-! ### C51: numbers -/

theorem required_number {opts : List Opt} {conv : List Char → Except PyErr Atom} {raw d : Dict}
    (h : parseSection opts raw = .ok d) (k : String) (valid : Atom → Bool) (pre post : List Opt)
    (he : opts = pre ++ { name := k, kind := .scalar conv, valid } :: post) (hpre : ∀ o ∈ pre, k ∉ Spec.names o)
    (hpost : ∀ o ∈ post, k ∉ Spec.names o) :
    ∃ t a, raw k = some (.leaf (.text t)) ∧ conv t = .ok a ∧ d k = some (.leaf a) := by
  subst he
  obtain ⟨d1, h1, h2⟩ := parseSection_append h
  have h3 : parseSection ([{ name := k, kind := .scalar conv, valid }] ++ post) d1 = .ok d := h2
  obtain ⟨d2, h4, h5⟩ := parseSection_append h3
  obtain ⟨ctx, r, v, hg, hc, hv, hd, _⟩ := section_required (by simp [Spec.WellNamed, Spec.names]) h4 [] [] _ rfl rfl
  obtain ⟨t, a, rfl, ha, rfl⟩ := scalar_value rfl hc hv
  rw [given_simple rfl] at hg
  refine ⟨t, a, ?_, ha, ?_⟩
  · rw [← parseSection_frame h1 k hpre]
    exact hg
  · rw [parseSection_frame h5 k hpost]
    exact hd

theorem forall₂_right {α β : Type} {R : α → β → Prop} {l1 : List α} {l2 : List β} (h : List.Forall₂ R l1 l2) {y : β}
    (hy : y ∈ l2) : ∃ x ∈ l1, R x y := by
  induction h with
  | nil => cases hy
  | cons h1 _ ih =>
    rcases List.mem_cons.1 hy with rfl | hy
    · exact ⟨_, by simp, h1⟩
    · obtain ⟨x, hx, h2⟩ := ih hy
      exact ⟨x, by simp [hx], h2⟩

theorem old_geometry {C : Convs} {g : String} {opts : List Opt} (ho : oldGeometryOpts C g.toList = .ok opts) {raw d : Dict}
    (h : parseSection opts raw = .ok d) (hg : raw "geometry" = some (.leaf (.text g.toList))) : Spec.written d "geometry" g := by
  have key : opts = opts.take 0 ++ { name := "geometry", kind := .scalar C.str, valid := oneOf ["trunc_ellip", "ext_par", "sheet"] } ::
      opts.drop 1 ∧ ∀ o ∈ opts.drop 1, "geometry" ∉ Spec.names o := by
    unfold oldGeometryOpts at ho
    split_ifs at ho <;> cases ho
    · exact ⟨rfl, by simp [oldOptsTruncEllip, oldOptsElement, oldOptsErosive, Spec.names]⟩
    · exact ⟨rfl, by simp [oldOptsExtPar, oldOptsElement, oldOptsErosive, Spec.names]⟩
    · exact ⟨rfl, by simp [oldOptsSheet, oldOptsElement, Spec.names]⟩
  obtain ⟨t, a, h1, h2, h3⟩ := required_number h "geometry" _ _ _ key.1 (by simp) key.2
  rw [hg] at h1
  cases h1
  cases h2
  exact h3

/-- The options of the sections of the old format that are numbers and must be given, and their names after the conversion. -/
def Spec.oldNumbers (geometry : String) : List (String × String) :=
  if geometry = "trunc_ellip" then
    [("agg", "agg"), ("length", "length"), ("width", "width"), ("depth", "depth"), ("el_z", "trough_density")]
  else if geometry = "ext_par" then
    [("agg", "agg"), ("width", "width"), ("depth", "depth"), ("h", "h"), ("k", "k"), ("ds", "ds"), ("eps_factor", "eps_factor"),
      ("channel_no", "channel_no")]
  else [("lens_thickness", "lens_thickness")]

theorem old_numbers {C : Convs} {g : String} (hg : g ∈ ["trunc_ellip", "ext_par", "sheet"]) {opts : List Opt}
    (ho : oldGeometryOpts C g.toList = .ok opts) {raw d : Dict} (h : parseSection opts raw = .ok d) (x : String × String)
    (hx : x ∈ Spec.oldNumbers g) : ∃ a, Spec.NumberWritten C raw x.1 a ∧ d x.1 = some (.leaf a) := by
  have n1 : "ext_par".toList ≠ "trunc_ellip".toList := by decide +kernel
  have n2 : "sheet".toList ≠ "trunc_ellip".toList := by decide +kernel
  have n3 : "sheet".toList ≠ "ext_par".toList := by decide +kernel
  have key : ∀ (k : String) (n : ℕ), opts = opts.take n ++ { name := k, kind := .scalar C.float } :: opts.drop (n + 1) →
      (∀ o ∈ opts.take n, k ∉ Spec.names o) → (∀ o ∈ opts.drop (n + 1), k ∉ Spec.names o) →
      ∃ a, Spec.NumberWritten C raw k a ∧ d k = some (.leaf a) := by
    intro k n he h1 h2
    obtain ⟨t, a, h3, h4, h5⟩ := required_number h k _ _ _ he h1 h2
    exact ⟨a, ⟨t, h3, h4⟩, h5⟩
  unfold oldGeometryOpts at ho
  simp only [List.mem_cons, List.not_mem_nil, or_false] at hg
  rcases hg with rfl | rfl | rfl
  · rw [if_pos rfl] at ho
    cases ho
    simp only [Spec.oldNumbers, if_true, List.mem_cons, List.not_mem_nil, or_false] at hx
    rcases hx with rfl | rfl | rfl | rfl | rfl
    · exact key "agg" 12 rfl (by simp [oldOptsTruncEllip, oldOptsElement, oldOptsErosive, Spec.names]) (by simp [oldOptsTruncEllip, oldOptsElement, oldOptsErosive, Spec.names])
    · exact key "length" 19 rfl (by simp [oldOptsTruncEllip, oldOptsElement, oldOptsErosive, Spec.names]) (by simp [oldOptsTruncEllip, oldOptsElement, oldOptsErosive, Spec.names])
    · exact key "width" 20 rfl (by simp [oldOptsTruncEllip, oldOptsElement, oldOptsErosive, Spec.names]) (by simp [oldOptsTruncEllip, oldOptsElement, oldOptsErosive, Spec.names])
    · exact key "depth" 21 rfl (by simp [oldOptsTruncEllip, oldOptsElement, oldOptsErosive, Spec.names]) (by simp [oldOptsTruncEllip, oldOptsElement, oldOptsErosive, Spec.names])
    · exact key "el_z" 22 rfl (by simp [oldOptsTruncEllip, oldOptsElement, oldOptsErosive, Spec.names]) (by simp [oldOptsTruncEllip, oldOptsElement, oldOptsErosive, Spec.names])
  · rw [if_neg n1, if_pos rfl] at ho
    cases ho
    have hs : ("ext_par" : String) ≠ "trunc_ellip" := by decide
    simp only [Spec.oldNumbers, if_neg hs, if_true, List.mem_cons, List.not_mem_nil, or_false] at hx
    rcases hx with rfl | rfl | rfl | rfl | rfl | rfl | rfl | rfl
    · exact key "agg" 12 rfl (by simp [oldOptsExtPar, oldOptsElement, oldOptsErosive, Spec.names]) (by simp [oldOptsExtPar, oldOptsElement, oldOptsErosive, Spec.names])
    · exact key "width" 19 rfl (by simp [oldOptsExtPar, oldOptsElement, oldOptsErosive, Spec.names]) (by simp [oldOptsExtPar, oldOptsElement, oldOptsErosive, Spec.names])
    · exact key "depth" 20 rfl (by simp [oldOptsExtPar, oldOptsElement, oldOptsErosive, Spec.names]) (by simp [oldOptsExtPar, oldOptsElement, oldOptsErosive, Spec.names])
    · exact key "h" 21 rfl (by simp [oldOptsExtPar, oldOptsElement, oldOptsErosive, Spec.names]) (by simp [oldOptsExtPar, oldOptsElement, oldOptsErosive, Spec.names])
    · exact key "k" 22 rfl (by simp [oldOptsExtPar, oldOptsElement, oldOptsErosive, Spec.names]) (by simp [oldOptsExtPar, oldOptsElement, oldOptsErosive, Spec.names])
    · exact key "ds" 23 rfl (by simp [oldOptsExtPar, oldOptsElement, oldOptsErosive, Spec.names]) (by simp [oldOptsExtPar, oldOptsElement, oldOptsErosive, Spec.names])
    · exact key "eps_factor" 24 rfl (by simp [oldOptsExtPar, oldOptsElement, oldOptsErosive, Spec.names]) (by simp [oldOptsExtPar, oldOptsElement, oldOptsErosive, Spec.names])
    · exact key "channel_no" 25 rfl (by simp [oldOptsExtPar, oldOptsElement, oldOptsErosive, Spec.names]) (by simp [oldOptsExtPar, oldOptsElement, oldOptsErosive, Spec.names])
  · rw [if_neg n2, if_neg n3, if_pos rfl] at ho
    cases ho
    have hs : ("sheet" : String) ≠ "trunc_ellip" := by decide
    have hs' : ("sheet" : String) ≠ "ext_par" := by decide
    simp only [Spec.oldNumbers, if_neg hs, if_neg hs', List.mem_cons, List.not_mem_nil, or_false] at hx
    rcases hx with rfl
    · exact key "lens_thickness" 13 rfl (by simp [oldOptsSheet, oldOptsElement, Spec.names]) (by simp [oldOptsSheet, oldOptsElement, Spec.names])

/-- **C51 (numbers).** In an accepted ini-file of the old format the sizes, the density and the other required numbers of every element
are the numbers written in its section, whatever its geometry. -/
theorem C51_numbers (C : Convs) (p : Ini) (o : OldParsed) (P : Parsed) (ho : parseDeprecated C p = .ok o)
    (h : convertOld o = .ok P) (y : String × Element) (hy : y ∈ P.elements) :
    ∃ g ∈ ["trunc_ellip", "ext_par", "sheet"], Spec.written (p.get y.1) "geometry" g ∧
      ∀ x ∈ Spec.oldNumbers g, ∃ a, Spec.NumberWritten C (p.get y.1) x.1 a ∧ y.2.dict x.2 = some (.leaf a) := by
  obtain ⟨_, _, _, _, _, _, hels⟩ := parseDeprecated_ok ho
  obtain ⟨_, _, _, _, _, hconv⟩ := convertOld_ok h
  obtain ⟨x, hx, hyx, he⟩ := forall₂_right hconv hy
  have hs : parseOldElement C p x.1 = .ok x := by
    obtain ⟨a, -, h1⟩ := forall₂_right (mapPy_ok.1 hels) hx
    have : x.1 = a := by
      have h2 := h1
      simp only [parseOldElement, bind_ok, pure_ok] at h2
      obtain ⟨_, _, _, _, _, _, rfl⟩ := h2
      rfl
    rw [this]
    exact h1
  simp only [parseOldElement, bind_ok, pure_ok] at hs
  obtain ⟨g, hg, opts, hopts, d, hd, hxd⟩ := hs
  have hd2 : x.2 = d := by rw [← hxd]
  rw [hd2] at he
  rw [hyx]
  have hgw : p.get x.1 "geometry" = some (.leaf (.text g)) := geometry_text hg
  have hgm : ∃ G ∈ ["trunc_ellip", "ext_par", "sheet"], g = G.toList := by
    unfold oldGeometryOpts at hopts
    split_ifs at hopts with h1 h2 h3
    · exact ⟨_, by simp, h1⟩
    · exact ⟨_, by simp, h2⟩
    · exact ⟨_, by simp, h3⟩
  obtain ⟨G, hG, rfl⟩ := hgm
  refine ⟨G, hG, hgw, fun z hz => ?_⟩
  obtain ⟨a, ha, hda⟩ := old_numbers hG hopts hd z hz
  refine ⟨a, ha, ?_⟩
  have hnew : z.1 = z.2 ∧ z.2 ∉ Spec.newKeys ∨ G = "trunc_ellip" ∧ z = ("el_z", "trough_density") := by
    simp only [List.mem_cons, List.not_mem_nil, or_false] at hG
    clear ha hda
    rcases hG with rfl | rfl | rfl
    · revert z
      decide
    · revert z
      decide
    · revert z
      decide
  rcases hnew with ⟨h1, h2⟩ | ⟨rfl, rfl⟩
  · rw [(C51_element_partial _ _ he).2.2.2 _ h2, ← h1, hda]
  · rw [(C51_trough _ _ he ?_).2.1]
    · exact hda
    · exact old_geometry hopts hd hgw

example : ∃ o P y, parseDeprecated exConvs exOld = .ok o ∧ convertOld o = .ok P ∧ y ∈ P.elements ∧
    ∃ g ∈ ["trunc_ellip", "ext_par", "sheet"], ∀ x ∈ Spec.oldNumbers g, ∃ a, y.2.dict x.2 = some (.leaf a) := by
  obtain ⟨o, P, x, y, ho, hP, _, hy, _⟩ := C51_refuted
  obtain ⟨g, hg, _, h⟩ := C51_numbers _ _ o P ho hP y hy
  exact ⟨o, P, y, ho, hP, hy, g, hg, fun x hx => (h x hx).imp fun _ h => h.2⟩

end Hyvr
