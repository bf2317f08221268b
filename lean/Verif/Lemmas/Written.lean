import Verif.Spec.Written
import Verif.Lemmas.Generate
import Verif.Lemmas.Stack

/-!
Lemmas for C100 and C101: where the values that generation reads come from.
-/

namespace Hyvr

open Py Spec

theorem numOf_ok {v : Val} {q : ℚ} (h : numOf v = .ok q) : v = numVal q := by
  unfold numOf at h
  split at h
  · cases h
    rfl
  · cases h

theorem angleOf_ok {v : Val} {a : Option ℚ} (h : angleOf v = .ok a) : v = angleVal a := by
  unfold angleOf at h
  split at h
  · cases h
    rfl
  · cases h
    rfl
  · cases h

theorem wholeOf_ok {v : Val} {z : ℤ} (h : wholeOf v = .ok z) : v = numVal z := by
  unfold wholeOf at h
  split at h
  · split_ifs at h with hd
    cases h
    rename_i q
    have : ((q.num : ℤ) : ℚ) = q := (Rat.den_eq_one_iff q).1 hd
    rw [this]
  · cases h

theorem items_ok {v : Val} {l : List Val} (h : pyItems v = .ok l) : ItemsOf v l := by
  unfold pyItems at h
  split at h
  · cases h
    exact Or.inl rfl
  · cases h
    exact Or.inr ⟨_, rfl, rfl⟩
  · cases h

theorem mapPy_num {l : List Val} {qs : List ℚ} (h : mapPy numOf l = .ok qs) : l = qs.map numVal := by
  replace h := mapPy_ok.1 h
  induction h with
  | nil => rfl
  | cons h1 _ ih => rw [numOf_ok h1, ih]; rfl

/-- A list of numbers. -/
theorem numsOf_ok {v : Val} {qs : List ℚ} (h : numsOf v = .ok qs) : ItemsOf v (qs.map numVal) ∧ (qs ≠ [] → v = numList qs) := by
  simp only [numsOf, bind_ok] at h
  obtain ⟨l, hl, hm⟩ := h
  have hl' := items_ok hl
  rw [mapPy_num hm] at hl'
  refine ⟨hl', fun hne => ?_⟩
  rcases hl' with h1 | ⟨s, h1, h2⟩
  · exact h1
  · cases qs with
    | nil => exact absurd rfl hne
    | cons q qs =>
      cases s with
      | nil => simp at h2
      | cons c s => simp at h2

/-- The values of one stratum, and where they are written. -/
structure ReadFrom (P : Parsed) (ids : List (String × ℕ)) (n si : ℕ) (s : StratumRead) : Prop where
  facies : EntryOf P "bg_facies" n si (numVal s.params.bgFacies)
  azim : EntryOf P "bg_azim" n si (angleVal s.params.bgAzim)
  dip : EntryOf P "bg_dip" n si (angleVal s.params.bgDip)
  weights : ∃ v, EntryOf P "ae_prob" n si v ∧ (s.weights ≠ [] → v = numList s.weights)
  means : ∃ v, EntryOf P "ae_z_mean" n si v ∧ (s.params.aeZMean ≠ [] → v = numList s.params.aeZMean)
  avul : EntryOf P "avul" n si (numList [s.avul.1, s.avul.2])
  prob : ∃ rest, EntryOf P "avul_prob" n si (.node (numVal s.params.avulProb :: rest))
  types : ∃ v, EntryOf P "ae_in_strata" n si v ∧ ItemsOf v (s.types.map fun t => .leaf (.text t.name.toList))
  elements : ∀ t ∈ s.types, ∃ (e : Element) (i : ℕ), (t.name, e) ∈ P.elements ∧ t.aeId = (i : ℤ) ∧ idOf ids t.name = .ok i ∧ readElement t.name i e = .ok t

theorem readElement_name {name : String} {i : ℕ} {e : Element} {t : ElemParams ℚ} (h : readElement name i e = .ok t) :
    t.name = name ∧ t.aeId = (i : ℤ) := by
  simp only [readElement, bind_ok, pure_ok] at h
  obtain ⟨_, -, _, -, _, -, _, -, _, -, _, -, _, -, _, -, _, -, _, -, _, -, rfl⟩ := h
  exact ⟨rfl, rfl⟩

theorem types_from {P : Parsed} {ids : List (String × ℕ)} {vs : List Val} {names : List String} {es : List Element} {ts : List (ElemParams ℚ)}
    (h1 : mapPy nameOf vs = .ok names) (h2 : List.Forall₂ (fun v e => ∃ s, v = .leaf (.text s.toList) ∧ (s, e) ∈ P.elements) vs es)
    (h3 : mapPy (fun x : String × Element => do
      let id ← idOf ids x.1
      readElement x.1 id x.2) (names.zip es) = .ok ts) :
    (vs = ts.map fun t => .leaf (.text t.name.toList)) ∧
      ∀ t ∈ ts, ∃ (e : Element) (i : ℕ), (t.name, e) ∈ P.elements ∧ t.aeId = (i : ℤ) ∧ idOf ids t.name = .ok i ∧ readElement t.name i e = .ok t := by
  induction h2 generalizing names ts with
  | nil =>
    replace h1 := mapPy_ok.1 h1
    cases h1
    replace h3 := mapPy_ok.1 h3
    cases h3
    exact ⟨rfl, by simp⟩
  | @cons v e vs es hve _ ih =>
    obtain ⟨s, rfl, hs⟩ := hve
    replace h1 := mapPy_ok.1 h1
    cases h1 with
    | @cons _ nm _ names hn h1 =>
      have hnm : nm = s := by
        simp [nameOf, asText, Bind.bind, Except.bind, pure, Except.pure] at hn
        exact hn.symm
      subst hnm
      replace h3 := mapPy_ok.1 h3
      rw [List.zip_cons_cons] at h3
      cases h3 with
      | @cons _ t _ ts ht h3 =>
        simp only [bind_ok] at ht
        obtain ⟨i, hi, ht⟩ := ht
        obtain ⟨hn1, hn2⟩ := readElement_name ht
        obtain ⟨ih1, ih2⟩ := ih (mapPy_ok.2 h1) (mapPy_ok.2 h3)
        refine ⟨by rw [List.map_cons, hn1, ← ih1], ?_⟩
        intro t' ht'
        rcases List.mem_cons.1 ht' with rfl | ht'
        · exact ⟨e, i, by rw [hn1]; exact hs, hn2, by rw [hn1]; exact hi, by rw [hn1]; exact ht⟩
        · exact ih2 t' ht'

theorem readStratum_from {C : Convs} {p : Ini} {P : Parsed} (h : parseInifile C p = .ok P) {ids : List (String × ℕ)} {names : List Val}
    (hnames : P.strata "strata" = some (.node names)) {si : ℕ} (hsi : si < names.length) {s : StratumRead}
    (hr : readStratum P ids names.length si = .ok s) : ReadFrom P ids names.length si s := by
  obtain ⟨names', hnames', hopts⟩ := C52_options C p P h
  rw [hnames] at hnames'
  cases hnames'
  simp only [readStratum, bind_ok, pure_ok] at hr
  obtain ⟨i, hi, bf, hbf, f, hf, ba, hba, a, ha, bd, hbd, dd, hd, wv, hwv, ws, hws, mv, hmv, ms, hms, vv, hvv, vl, hvl, av, hav, pv, hpv,
    pl, hpl, p0, hp0, pr, hpr, nv, hnv, nl, hnl, ns, hns, ts, hts, rfl⟩ := hr
  simp only [stratumInput, bind_ok, pure_ok] at hi
  obtain ⟨c, -, os, hos, types, htypes, rfl⟩ := hi
  have opt : ∀ k ∈ stratumNames, ∀ v, StratumInput.option ⟨c, os, types⟩ k = .ok v → EntryOf P k names.length si v := by
    intro k hk v hv
    obtain ⟨l, w, a1, a2, a3, a4⟩ := hopts si hsi k (List.mem_cons_of_mem _ hk)
    obtain ⟨v', b1, b2⟩ := options_lookup (f := fun k => stratumEntry P.strata k si) hos hk
    have : v' = w := Except.ok.inj (b1.symm.trans a4)
    subst this
    unfold StratumInput.option at hv
    rw [b2] at hv
    cases hv
    exact ⟨l, a1, a2, a3⟩
  have hts' : List.Forall₂ (fun v e => ∃ s, v = .leaf (.text s.toList) ∧ (s, e) ∈ P.elements) nl types := by
    simp only [stratumTypes, bind_ok] at htypes
    obtain ⟨v, hv, l, hl, hm⟩ := htypes
    rw [hnv] at hv
    cases hv
    rw [hnl] at hl
    cases hl
    exact (mapPy_ok.1 hm).imp fun a b hab => aeType_ok hab
  obtain ⟨hty, hel⟩ := types_from hns hts' hts
  refine ⟨?_, ?_, ?_, ?_, ?_, ?_, ?_, ?_, hel⟩
  · have := opt "bg_facies" (by simp [stratumNames]) _ hbf
    rwa [wholeOf_ok hf] at this
  · have := opt "bg_azim" (by simp [stratumNames]) _ hba
    rwa [angleOf_ok ha] at this
  · have := opt "bg_dip" (by simp [stratumNames]) _ hbd
    rwa [angleOf_ok hd] at this
  · exact ⟨wv, opt "ae_prob" (by simp [stratumNames]) _ hwv, (numsOf_ok hws).2⟩
  · exact ⟨mv, opt "ae_z_mean" (by simp [stratumNames]) _ hmv, (numsOf_ok hms).2⟩
  · have := opt "avul" (by simp [stratumNames]) _ hvv
    unfold pairOf at hav
    split at hav
    · cases hav
      rwa [(numsOf_ok hvl).2 (by simp)] at this
    · cases hav
  · have := opt "avul_prob" (by simp [stratumNames]) _ hpv
    have hp1 := numOf_ok hpr
    subst hp1
    rcases items_ok hpl with rfl | ⟨t, rfl, rfl⟩
    · cases pl with
      | nil => simp [pyGet] at hp0
      | cons x pl =>
        simp [pyGet] at hp0
        exact ⟨pl, by rw [← hp0]; exact this⟩
    · cases t with
      | nil => simp [pyGet] at hp0
      | cons x t => simp [pyGet] at hp0
  · obtain ⟨l, v, a1, a2, a3, a4⟩ := hopts si hsi "ae_in_strata" (List.mem_cons_self ..)
    have : v = nv := Except.ok.inj (a4.symm.trans hnv)
    subst this
    exact ⟨v, ⟨l, a1, a2, a3⟩, by simp only; rw [← hty]; exact items_ok hnl⟩

/-! ### The whole input -/

theorem axisCells_ok {d l : Val} {n : ℕ} (h : axisCells d l = .ok n) :
    ∃ qd ql : ℚ, d = numVal qd ∧ l = numVal ql ∧ n = ⌈(ql - qd / 2) / qd⌉.toNat := by
  simp only [axisCells, bind_ok, pure_ok] at h
  obtain ⟨qd, hd, ql, hl, rfl⟩ := h
  exact ⟨qd, ql, numOf_ok hd, numOf_ok hl, rfl⟩

/-- What generation read, and where it is written. -/
structure InputFrom (P : Parsed) (ids : List (String × ℕ)) (names : List Val) (I : GenInput) : Prop where
  count : I.strata.n = names.length
  reads : ∀ si < names.length, ∃ s, I.reads[si]? = some s ∧ ReadFrom P ids names.length si s ∧
    I.strata.params.reverse[si]? = some s.params ∧ I.strata.types.reverse[si]? = some s.types
  nx : ∃ dx lx : ℚ, P.model "dx" = some (numVal dx) ∧ P.model "lx" = some (numVal lx) ∧ I.nx = ⌈(lx - dx / 2) / dx⌉.toNat
  ny : ∃ dy ly : ℚ, P.model "dy" = some (numVal dy) ∧ P.model "ly" = some (numVal ly) ∧ I.ny = ⌈(ly - dy / 2) / dy⌉.toNat
  z0 : P.model "z0" = some (numVal I.grid.z0)
  lz : P.model "lz" = some (numVal I.grid.lz)
  contacts : List.Forall₂ (fun a b => readContact a = .ok b) P.contacts I.strata.contacts
  elements : ∀ name e, (name, e) ∈ P.elements → ∃ e', (name, e') ∈ P.elements ∧ readContact e'.contact = .ok (I.contacts name)

theorem genInput_from {C : Convs} {p : Ini} {P : Parsed} (h : parseInifile C p = .ok P) {ids : List (String × ℕ)} {names : List Val}
    (hnames : P.strata "strata" = some (.node names)) {I : GenInput} (hI : genInput P ids = .ok I) : InputFrom P ids names I := by
  simp only [genInput, bind_ok, pure_ok, dget_ok] at hI
  obtain ⟨dx, hdx, lx, hlx, nx, hnx, dy, hdy, ly, hly, ny, hny, z0, hz0, qz0, hqz0, lz, hlz, qlz, hqlz, sv, hsv, n, hn, cs, hcs, els, hels,
    reads, hreads, rfl⟩ := hI
  rw [hnames] at hsv
  cases hsv
  cases hn
  have hrl : reads.length = names.length := by rw [mapPy_len hreads, List.length_range]
  refine ⟨rfl, ?_, ?_, ?_, ?_, ?_, mapPy_ok.1 hcs, ?_⟩
  · intro si hsi
    have h2 := mapPy_ok.1 hreads
    have h3 := (List.forall₂_iff_get.1 h2).2 si (by simpa using hsi) (by omega)
    refine ⟨reads[si]'(by omega), List.getElem?_eq_getElem _, readStratum_from h hnames hsi (by simpa using h3), ?_, ?_⟩
    · simp only [List.map_reverse, List.reverse_reverse, List.getElem?_map, List.getElem?_eq_getElem (by omega : si < reads.length)]
      rfl
    · simp only [List.map_reverse, List.reverse_reverse, List.getElem?_map, List.getElem?_eq_getElem (by omega : si < reads.length)]
      rfl
  · obtain ⟨qd, ql, rfl, rfl, h1⟩ := axisCells_ok hnx
    exact ⟨qd, ql, hdx, hlx, h1⟩
  · obtain ⟨qd, ql, rfl, rfl, h1⟩ := axisCells_ok hny
    exact ⟨qd, ql, hdy, hly, h1⟩
  · rw [hz0, numOf_ok hqz0]
  · rw [hlz, numOf_ok hqlz]
  · intro name e he
    obtain ⟨b, hb, hb2⟩ := mapPy_mem hels he
    simp only [bind_ok, pure_ok] at hb2
    obtain ⟨c, -, rfl⟩ := hb2
    obtain ⟨c', hl1, hl2⟩ := lookup_mem hb
    obtain ⟨⟨nm, e'⟩, he', hc'⟩ := mapPy_from hels hl2
    simp only [bind_ok, pure_ok] at hc'
    obtain ⟨c'', hc'', heq⟩ := hc'
    cases heq
    refine ⟨e', he', ?_⟩
    simp only [contactsOf, hl1]
    exact hc''

theorem readContact_ok {cm : ContactModel Atom} {c : ContactModel ℚ} (h : readContact cm = .ok c) :
    c.mode = cm.mode ∧ c.z.map Atom.num = cm.z := by
  simp only [readContact, bind_ok, pure_ok] at h
  obtain ⟨z, hz, _, -, _, -, _, -, rfl⟩ := h
  refine ⟨rfl, ?_⟩
  cases hc : cm.z with
  | none =>
    rw [hc] at hz
    cases hz
    rfl
  | some a =>
    rw [hc] at hz
    cases a with
    | num q =>
      cases hz
      rfl
    | _ => cases hz

/-! ### Choices -/

section
variable {α : Type} [Field α] [LinearOrder α] [IsStrictOrderedRing α]

/-- `Spec.shareBelow` for other numbers. -/
def shareOf (w : List α) (j : ℕ) : α := (w.take j).sum / w.sum

theorem probChoose_chosen {β : Type} {types : List β} {w : List α} {u : α} (h0 : 0 ≤ u) (h1 : u < 1) {t : β} (h : probChoose types w u = .ok t) :
    types.length = w.length ∧ ∃ (j : ℕ) (wj : α), types[j]? = some t ∧ w[j]? = some wj ∧ wj ≠ 0 ∧ shareOf w j ≤ u ∧ u < shareOf w (j + 1) := by
  have h' := h
  unfold probChoose at h'
  split_ifs at h' with hs
  have hn := h'
  unfold npChoice at h'
  split_ifs at h' with hl hneg hsum
  have hp1 : (w.map (· / w.sum)).sum = 1 := by simpa using hsum
  have hp0 : ∀ x ∈ w.map (· / w.sum), 0 ≤ x := by
    intro x hx
    by_contra hc
    exact hneg (List.any_eq_true.2 ⟨x, hx, by simpa using hc⟩)
  have hlen : types.length = (w.map (· / w.sum)).length := by
    by_contra hc
    exact hl hc
  obtain ⟨j, t', pj, g1, g2, g3, g4, g5, g6⟩ := C64_choice hlen hp0 (by rw [hp1]; norm_num) h0 h1
  have hsame : probChoose types (w.map (· / w.sum)) u = npChoice types (w.map (· / w.sum)) u := by
    unfold probChoose
    rw [hp1, if_neg (by norm_num)]
    congr 1
    simp
  rw [hsame, hn] at g6
  cases g6
  refine ⟨by simpa using hlen, j, ?_⟩
  rw [List.getElem?_map] at g2
  cases hw : w[j]? with
  | none => rw [hw] at g2; cases g2
  | some wj =>
    rw [hw] at g2
    have hpj : wj / w.sum = pj := Option.some.inj g2
    have hb : ∀ i, Spec.below (w.map (· / w.sum)) i = shareOf w i := by
      intro i
      unfold Spec.below shareOf
      rw [hp1, div_one, ← List.map_take, sum_map_div]
    refine ⟨wj, g1, rfl, ?_, ?_, ?_⟩
    · rintro rfl
      rw [zero_div] at hpj
      rw [← hpj] at g3
      exact lt_irrefl _ g3
    · rw [← hb]; exact g4
    · rw [← hb]; exact g5

theorem shareOf_cast (w : List ℚ) (j : ℕ) : shareOf (w.map (Rat.cast : ℚ → α)) j = (shareBelow w j : α) := by
  unfold shareOf shareBelow
  rw [← List.map_take, sum_cast, sum_cast, Rat.cast_div]

theorem choiceIndex_chosen {m : ℕ} {w : List ℚ} {u : α} (h0 : 0 ≤ u) (h1 : u < 1) (h : choiceIndex m (w.map (Rat.cast : ℚ → α)) u < m) :
    ∃ wj, w[choiceIndex m (w.map (Rat.cast : ℚ → α)) u]? = some wj ∧ wj ≠ 0 ∧ Chosen w u (choiceIndex m (w.map (Rat.cast : ℚ → α)) u) := by
  cases hc : probChoose (List.range m) (w.map (Rat.cast : ℚ → α)) u with
  | error e =>
    have : choiceIndex m (w.map (Rat.cast : ℚ → α)) u = m := by unfold choiceIndex; rw [hc]
    omega
  | ok i =>
    have hi : choiceIndex m (w.map (Rat.cast : ℚ → α)) u = i := by unfold choiceIndex; rw [hc]
    obtain ⟨-, j, wj, g1, g2, g3, g4⟩ := probChoose_chosen h0 h1 hc
    obtain ⟨hj, rfl⟩ := List.getElem?_eq_some_iff.1 g1
    rw [List.getElem_range] at *
    rw [hi]
    rw [shareOf_cast, shareOf_cast] at g4
    rw [List.getElem?_map, Option.map_eq_some_iff] at g2
    obtain ⟨q, hq, rfl⟩ := g2
    exact ⟨q, hq, by exact_mod_cast g3, g4⟩

theorem typeAt_chosen {s : StratumRead} {r : Randoms α} (hr : Uniforms r) {si k : ℕ} {t : ElemParams ℚ} (h : s.types[typeAt s r si k]? = some t) :
    ∃ w, s.weights[typeAt s r si k]? = some w ∧ w ≠ 0 ∧ Chosen s.weights (decides r si k) (typeAt s r si k) := by
  have hlt := (List.getElem?_eq_some_iff.1 h).1
  cases k with
  | zero => exact choiceIndex_chosen (hr.first si).1 (hr.first si).2 hlt
  | succ k => exact choiceIndex_chosen (hr.next si k).1 (hr.next si k).2 hlt

end

end Hyvr
