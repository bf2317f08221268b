import Verif.Lemmas.Frame
import Verif.Lemmas.Resolution

/-!
Ini-files that differ in what is inside the layers only are parsed to the same layers (C139).
-/

namespace Hyvr

open Py Spec

/-- The options that place the layers on the grid. -/
def frameOptions : List String := ["dx", "dy", "lx", "ly", "z0", "lz"]

/-- An option that is not in the table keeps its value. -/
theorem parseSection_outside {k : String} {opts : List Opt} (hk : ∀ o ∈ opts, o.alternatives = [] ∧ o.name ≠ k) {d r : Dict} (h : parseSection opts d = .ok r) :
    r k = d k := by
  induction opts generalizing d with
  | nil =>
    cases h
    rfl
  | cons o opts ih =>
    obtain ⟨halt, hne⟩ := hk o (by simp)
    simp only [parseSection, List.foldlM_cons, bind_ok] at h
    obtain ⟨d1, h1, h⟩ := h
    simp only [parseOption, halt, useAlternative, bind_ok, pure_ok] at h1
    obtain ⟨v, -, rfl⟩ := h1
    rw [ih (fun o ho => hk o (by simp [ho])) h]
    exact Function.update_of_ne (Ne.symm hne) _ _

theorem parseSection_split {a b : List Opt} {d r : Dict} (h : parseSection (a ++ b) d = .ok r) : ∃ m, parseSection a d = .ok m ∧ parseSection b m = .ok r := by
  simp only [parseSection, List.foldlM_append, bind_ok] at h
  exact h

/-- All geometries have the same table of common options first. -/
theorem geometryOpts_common {C : Convs} {g : List Char} {opts : List Opt} (h : geometryOpts C g = .ok opts) :
    ∃ rest, opts = optsElement C ++ rest ∧ ∀ o ∈ rest, o.alternatives = [] ∧ o.name ≠ "contact_model" := by
  unfold geometryOpts at h
  split_ifs at h
  · cases h
    refine ⟨_, List.append_assoc _ _ _, ?_⟩
    simp [optsErosive]
  · cases h
    refine ⟨_, List.append_assoc _ _ _, ?_⟩
    simp [optsErosive]
  · cases h
    refine ⟨_, rfl, ?_⟩
    simp

/-- The contact model of an element depends on the option `contact_model` only, not even on the geometry. -/
theorem parseElement_contact {C : Convs} {hydro hydro' : List Val} {raw raw' : Dict} {e e' : Element} (hc : raw "contact_model" = raw' "contact_model")
    (h : parseElement C hydro raw = .ok e) (h' : parseElement C hydro' raw' = .ok e') : e'.contact = e.contact := by
  unfold parseElement at h h'
  simp only [bind_ok, pure_ok] at h h'
  obtain ⟨g, -, opts, ho, d, hd, cm, hcm, ct, hct, _, -, _, -, _, -, _, -, _, -, _, -, rfl⟩ := h
  obtain ⟨g', -, opts', ho', d', hd', cm', hcm', ct', hct', _, -, _, -, _, -, _, -, _, -, _, -, rfl⟩ := h'
  obtain ⟨rest, rfl, hr⟩ := geometryOpts_common ho
  obtain ⟨rest', rfl, hr'⟩ := geometryOpts_common ho'
  obtain ⟨m, h1, h2⟩ := parseSection_split hd
  obtain ⟨m', h1', h2'⟩ := parseSection_split hd'
  have hcl : closedB ["contact_model"] (optsElement C) = true := by rfl
  have hA : AgreeOn ["contact_model"] raw raw' := fun k hk => by
    obtain rfl := List.mem_singleton.1 hk
    exact hc
  have := parseSection_agree hcl hA h1 h1' "contact_model" (by simp)
  have : d.get "contact_model" = d'.get "contact_model" := by
    rw [Dict.get, Dict.get, parseSection_outside hr h2, parseSection_outside hr' h2', this]
  rw [this, hcm'] at hcm
  cases hcm
  rw [hct'] at hct
  cases hct
  rfl

theorem parseModel_frame {C : Convs} {d d' r r' : Dict} (h : AgreeOn frameOptions d d') (hr : parseModel C d = .ok r) (hr' : parseModel C d' = .ok r') :
    AgreeOn frameOptions r r' := by
  simp only [parseModel, bind_ok] at hr hr'
  obtain ⟨a, ha, b, hb, hr⟩ := hr
  obtain ⟨a', ha', b', hb', hr'⟩ := hr'
  have hc : closedB frameOptions (optsModel C) = true := by rfl
  have hab := defaultTo_agree (by decide) (by decide) (parseSection_agree hc h ha ha') hb hb'
  have h1 := defaultTo_outside (U := frameOptions) (by decide) hr
  have h2 := defaultTo_outside (U := frameOptions) (by decide) hr'
  exact fun k hk => (h1 k hk).symm.trans ((hab k hk).trans (h2 k hk))

/-- Such ini-files are parsed to the same layers. -/
theorem sameFrame_ini {C : Convs} {p p' : Ini} {P P' : Parsed} (h : parseInifile C p = .ok P) (h' : parseInifile C p' = .ok P') (hs : SameButInside p p') :
    SameFrame P P' := by
  obtain ⟨m0, hydro, outs, outputs, -, -, q1, -, q2, q3, q4, -, -, -, q5⟩ := parseInifile_ok h
  obtain ⟨m0', hydro', outs', outputs', -, -, q1', -, q2', q3', q4', -, -, -, q5'⟩ := parseInifile_ok h'
  have : hydro = hydro' := by
    have hc : closedB ["hydrofacies"] (optsHydraulics C) = true := by rfl
    have hA : AgreeOn ["hydrofacies"] (p.get "hydraulics") (p'.get "hydraulics") := fun k hk => by
      obtain rfl := List.mem_singleton.1 hk
      exact hs.facies.symm
    have := parseSection_agree hc hA q1 q1' "hydrofacies" (by simp)
    rw [q3, q3'] at this
    cases this
    rfl
  subst this
  rw [hs.strata, q4] at q4'
  have e := Except.ok.inj q4'
  refine ⟨fun k hk => (parseModel_frame (fun k hk => (hs.grid k hk).symm) q2 q2' k hk).symm, (congrArg Prod.fst e).symm, (congrArg Prod.snd e).symm, ?_⟩
  rw [hs.sections] at q5'
  have key : ∀ (l : List String), (∀ s ∈ l, s ∈ elementSections p) → ∀ es es', mapPy (parseNamedElement C hydro p) l = .ok es →
      mapPy (parseNamedElement C hydro p') l = .ok es' → es'.map (fun e => (e.1, e.2.contact)) = es.map fun e => (e.1, e.2.contact) := by
    intro l
    induction l with
    | nil =>
      intro _ es es' h1 h2
      cases h1
      cases h2
      rfl
    | cons s l ih =>
      intro hl es es' h1 h2
      simp only [mapPy, bind_ok, pure_ok] at h1 h2
      obtain ⟨a, ha, b, hb, rfl⟩ := h1
      obtain ⟨a', ha', b', hb', rfl⟩ := h2
      simp only [parseNamedElement, bind_ok, pure_ok] at ha ha'
      obtain ⟨e, he, rfl⟩ := ha
      obtain ⟨e', he', rfl⟩ := ha'
      rw [List.map_cons, List.map_cons, ih (fun s hs => hl s (by simp [hs])) b b' hb hb']
      dsimp only
      rw [parseElement_contact (hs.contacts s (hl s (by simp))).symm he he']
  exact key _ (fun _ h => h) _ _ q5 q5'

/-- The numbers of the types are the same. -/
theorem aeIds_frame {P P' : Parsed} (hs : SameFrame P P') : aeIds P' = aeIds P := by
  have he : P'.elements.map Prod.fst = P.elements.map Prod.fst := by
    have := congrArg (List.map Prod.fst) hs.elements
    rwa [List.map_map, List.map_map] at this
  unfold aeIds
  rw [hs.strata]
  have : ∀ l : List Val, mapPy (fun e : String × Element => do
      let i ← pyIndex l (.leaf (.text e.1.toList))
      return (e.1, i)) P'.elements = mapPy (fun e : String × Element => do
      let i ← pyIndex l (.leaf (.text e.1.toList))
      return (e.1, i)) P.elements := fun l => by
    have := congrArg (mapPy fun e : String => do
      let i ← pyIndex l (.leaf (.text e.toList))
      return (e, i)) he
    rwa [mapPy_comp, mapPy_comp] at this
  simp only [this]

end Hyvr
