import Verif.Lemmas.Written
import Verif.Props.Lookup
import Verif.Props.StrataOptions
import Verif.Props.Finish

/-!
C100, C101: the values of the ini-file reach the generated model.
-/

namespace Hyvr

open Py Spec

/-! ### Any input -/

section General

variable {α : Type} [Field α] [LinearOrder α] [IsStrictOrderedRing α]

/-- **C101 (number of AEs).** In every generated model, a stratum gets AEs until their thicknesses, drawn one after the other and lessened
by the avulsions, add up to the distance of the mean levels of its top and its bottom: no AE fewer, none more. -/
theorem C101_count {nx ny : ℕ} {g : GridZ α} {sd : StrataDict α} {cms cms' : Contacts α} {draws : ℕ → StratumDraw α} {m : GenModel α}
    (hr : generateModel nx ny g sd cms draws = .ok (m, cms')) {si : ℕ} {s : StratumReal α} (hs : m.strata[si]? = some s) :
    ∃ sp, sd.params.reverse[si]? = some sp ∧
      (∀ k < s.aes.length, (m.heap.get s.bottom).zmean <
        levelAfter (m.heap.get s.top).zmean (fun k => thicknessOf sp.avulProb ((draws si).aes k)) k) ∧
      levelAfter (m.heap.get s.top).zmean (fun k => thicknessOf sp.avulProb ((draws si).aes k)) s.aes.length ≤ (m.heap.get s.bottom).zmean := by
  obtain ⟨sp, types, first, h1, -, -, h⟩ := (generateModel_layered hr hs).stack
  refine ⟨sp, h1, ?_, ?_⟩
  · simpa using h.passed
  · simpa using h.ended

/-- **C101 (types).** AE number `k` of a stratum, from the top, is built from the type chosen in the pass before, the first one from the type
chosen before the loop, and with the draws of its own pass. -/
theorem C101_types {nx ny : ℕ} {g : GridZ α} {sd : StrataDict α} {cms cms' : Contacts α} {draws : ℕ → StratumDraw α} {m : GenModel α}
    (hr : generateModel nx ny g sd cms draws = .ok (m, cms')) {si : ℕ} {s : StratumReal α} (hs : m.strata[si]? = some s) {k : ℕ}
    {a : AEReal α} (ha : s.aes[k]? = some a) :
    ∃ types t, sd.types.reverse[si]? = some types ∧ typeOfPass types (draws si).first (draws si).aes k = some t ∧ a.name = t.name ∧
      a.typeId = t.aeId ∧ (a.isSheet = true ↔ t.geometry = "sheet") := by
  obtain ⟨sp, types, first, -, h2, h3, h⟩ := (generateModel_layered hr hs).stack
  obtain ⟨t, t1, t2, ⟨t', ht', _, n1, n2, -, -, -, n3, -⟩⟩ := h.kind k a ha
  rw [List.mem_singleton.1 ht'] at n1 n2 n3
  refine ⟨types, t, h2, ?_, n1, n2, n3⟩
  cases k with
  | zero => rw [typeOfPass, h3, t1 rfl]
  | succ k => simpa [typeOfPass] using t2 k rfl

/-- **C101 (bottoms of AEs).** The bottom of an AE other than the last is the contact surface of the next AE's type at the level reached
so far, flat or with its random field, cut off by the AE's top and by the bottom of the stratum. -/
theorem C101_bottoms {nx ny : ℕ} {g : GridZ α} {sd : StrataDict α} {cms cms' : Contacts α} {draws : ℕ → StratumDraw α} {m : GenModel α}
    (hr : generateModel nx ny g sd cms draws = .ok (m, cms')) {si : ℕ} {s : StratumReal α} (hs : m.strata[si]? = some s) {k : ℕ}
    {a b : AEReal α} (ha : s.aes[k]? = some a) (hb : s.aes[k + 1]? = some b) :
    ∃ sp, sd.params.reverse[si]? = some sp ∧ ∀ i < nx, ∀ j < ny, (m.heap.get a.bottom).vals i j =
      max (min (contactAt (cms b.name).mode (levelAfter (m.heap.get s.top).zmean (fun k => thicknessOf sp.avulProb ((draws si).aes k)) (k + 1))
        ((draws si).aes k).field i j) ((m.heap.get a.top).vals i j)) ((m.heap.get s.bottom).vals i j) := by
  obtain ⟨hnx, hny, -⟩ := generateModel_spec hr
  obtain ⟨sp, types, first, h1, -, -, h⟩ := (generateModel_layered hr hs).stack
  obtain ⟨t, ht, hv⟩ := h.shape k a ha (List.getElem?_eq_some_iff.1 hb).1
  obtain ⟨t', -, t2, ⟨t'', ht'', _, n1, -⟩⟩ := h.kind (k + 1) b hb
  rw [List.mem_singleton.1 ht''] at n1
  have : t' = t := by
    have := t2 k rfl
    rw [ht] at this
    exact (Option.some.inj this).symm
  subst this
  refine ⟨sp, h1, fun i hi j hj => ?_⟩
  rw [n1, hv i (by rw [hnx]; exact hi) j (by rw [hny]; exact hj)]
  simp

end General

/-! ### Ini-files -/

section Ini

variable {α : Type} [Field α] [LinearOrder α] [IsStrictOrderedRing α]

/-- The AE comes from the element section `e` of its name; the background values of its stratum are used where the section has none. -/
structure Spec.FromElement (P : Parsed) (bf ba bd : Val) (a : AEReal α) (e : Element) : Prop where
  mem : (a.name, e) ∈ P.elements
  hat : ∃ i : ℕ, a.typeId = i ∧ HatOf P a.name i
  sheet : a.isSheet = true ↔ e.dict "geometry" = some (.leaf (.text "sheet".toList))
  facies : ∃ own, e.dict "bg_facies" = some own ∧ numVal a.bgFacies = ownOr (numVal (-1)) own bf
  azim : ∃ own q, e.dict "bg_azim" = some own ∧ a.bgAzim = q.map Rat.cast ∧ angleVal q = ownOr (.leaf .nan) own ba
  dip : ∃ own q, e.dict "bg_dip" = some own ∧ a.bgDip = q.map Rat.cast ∧ angleVal q = ownOr (.leaf .nan) own bd

theorem angleVal_or (x y : Option ℚ) : angleVal (match x with | some v => some v | none => y) = ownOr (.leaf .nan) (angleVal x) (angleVal y) := by
  cases x with
  | none => simp [ownOr, angleVal]
  | some q => simp [ownOr, angleVal]

theorem mem_of_lookup {β : Type} {l : List (String × β)} {k : String} {b : β} (h : l.lookup k = some b) : (k, b) ∈ l := by
  induction l with
  | nil => cases h
  | cons x l ih =>
    obtain ⟨k', b'⟩ := x
    rw [List.lookup_cons] at h
    by_cases hk : k = k'
    · subst hk
      simp only [beq_self_eq_true] at h
      cases h
      exact List.mem_cons_self
    · simp only [beq_eq_false_iff_ne.2 hk] at h
      exact List.mem_cons_of_mem _ (ih h)

theorem fromElement {C : Convs} {p : Ini} {P : Parsed} (h : parseInifile C p = .ok P) {ids : List (String × ℕ)} (hids : aeIds P = .ok ids)
    {t : ElemParams ℚ} {e : Element} {i : ℕ} (he : (t.name, e) ∈ P.elements) (hti : t.aeId = (i : ℤ)) (hi : idOf ids t.name = .ok i)
    (hre : readElement t.name i e = .ok t) {sp : StratumParams ℚ} {draws : ℕ → AEDraw α} {a : AEReal α} (ha : AEMade sp.cast [t.cast] draws a) :
    FromElement P (numVal sp.bgFacies) (angleVal sp.bgAzim) (angleVal sp.bgDip) a e := by
  obtain ⟨t', ht', _, n1, n2, n3, n4, n5, n6, -⟩ := ha.made
  rw [List.mem_singleton.1 ht'] at n1 n2 n3 n4 n5 n6
  simp only [readElement, bind_ok, pure_ok, dget_ok] at hre
  obtain ⟨gv, hgv, g, hg, bf, hbf, f, hf, ba, hba, az, haz, bd, hbd, dp, hdp, _, -, _, -, _, -, hrt⟩ := hre
  obtain ⟨hb1, hb2, hb3, hb4⟩ : t.geometry = String.ofList g ∧ t.bgFacies = f ∧ t.bgAzim = az ∧ t.bgDip = dp := by
    rw [← hrt]
    exact ⟨rfl, rfl, rfl, rfl⟩
  refine ⟨by rw [n1]; exact he, ⟨i, by rw [n2]; exact hti, ?_⟩, ?_, ⟨bf, hbf, ?_⟩, ⟨ba, _, hba, ?_, (angleVal_or az sp.bgAzim).trans ?_⟩,
    ⟨bd, _, hbd, ?_, (angleVal_or dp sp.bgDip).trans ?_⟩⟩
  · rw [n1]
    unfold idOf at hi
    split at hi
    · rename_i j hj
      cases hi
      exact (C17_hat C p P h ids hids).2.1 (t.name, i) (mem_of_lookup hj)
    · cases hi
  · rw [n6, show (t.cast : ElemParams α).geometry = _ from hb1, hgv]
    unfold asText at hg
    split at hg
    · cases hg
      simp only [Option.some.injEq, Tree.leaf.injEq, Atom.text.injEq]
      constructor
      · intro hs
        rw [← hs]
        simp
      · intro hs
        rw [hs]
        simp
    · cases hg
  · rw [n3, wholeOf_ok hf]
    simp only [bgValues, ownOr, ElemParams.cast, StratumParams.cast, hb2]
    by_cases hm : f = -1
    · rw [if_neg (by simp [hm]), if_pos (by simp [hm])]
    · rw [if_pos hm, if_neg]
      simp only [numVal, Tree.leaf.injEq, Atom.num.injEq]
      intro hc
      exact hm (by exact_mod_cast hc)
  · rw [n4]
    simp only [bgValues, ElemParams.cast, StratumParams.cast, hb3]
    cases az <;> rfl
  · rw [angleOf_ok haz]
  · rw [n5]
    simp only [bgValues, ElemParams.cast, StratumParams.cast, hb4]
    cases dp <;> rfl
  · rw [angleOf_ok hdp]

theorem generateIni_ok {P : Parsed} {ids : List (String × ℕ)} {r : Randoms α} {d : ℕ → StratumDraw α} {x : GenModel α × Contacts α}
    (h : generateIni P ids r d = .ok x) : 
    ∃ I, genInput P ids = .ok I ∧ generateModel I.nx I.ny I.grid.cast I.strata.cast (fun n => (I.contacts n).cast) (I.draws r d) = .ok x := by
  simp only [generateIni, bind_ok, liftErr_ok] at h
  exact h

/-- What one stratum of a model generated from an ini-file is made of. -/
theorem stratum_parts {C : Convs} {p : Ini} {P : Parsed} (h : parseInifile C p = .ok P) {ids : List (String × ℕ)} {r : Randoms α}
    {d : ℕ → StratumDraw α} {m : GenModel α} {cms' : Contacts α} (hr : generateIni P ids r d = .ok (m, cms')) :
    ∃ I names, genInput P ids = .ok I ∧ P.strata "strata" = some (.node names) ∧ InputFrom P ids names I ∧
      generateModel I.nx I.ny I.grid.cast I.strata.cast (fun n => (I.contacts n).cast) (I.draws r d) = .ok (m, cms') ∧ m.strata.length = names.length ∧
      ∀ si s, m.strata[si]? = some s → si < names.length ∧ ∃ sr, ReadFrom P ids names.length si sr ∧ I.draws r d si = drawStratum sr r si (d si) ∧
        ∃ first, sr.types[typeAt sr r si 0]? = some first ∧
        Piled sr.params.cast (sr.types.map ElemParams.cast) s.bottom (drawStratum sr r si (d si)).aes (fun n => (I.contacts n).cast) m.heap 0
          (m.heap.get s.top).zmean first.cast s.aes := by
  obtain ⟨I, hI, hg⟩ := generateIni_ok hr
  obtain ⟨names, hnames, -⟩ := C52_options C p P h
  have hin := genInput_from h hnames hI
  have hlen : m.strata.length = names.length := (C05_strata hg).1.trans hin.count
  refine ⟨I, names, hI, hnames, hin, hg, hlen, fun si s hs => ?_⟩
  have hsi : si < names.length := by
    rw [← hlen]
    exact (List.getElem?_eq_some_iff.1 hs).1
  obtain ⟨sr, hsr, hfrom, hp, ht⟩ := hin.reads si hsi
  have hd : I.draws r d si = drawStratum sr r si (d si) := by
    unfold GenInput.draws
    rw [hsr]
  obtain ⟨sp, types, first, h1, h2, h3, h4⟩ := (generateModel_layered hg hs).stack
  simp only [StrataDict.cast] at h1 h2
  rw [← List.map_reverse, List.getElem?_map, hp] at h1
  cases h1
  rw [← List.map_reverse, List.getElem?_map, ht] at h2
  cases h2
  rw [hd] at h3 h4
  rw [List.getElem?_map, Option.map_eq_some_iff] at h3
  obtain ⟨f0, hf0, rfl⟩ := h3
  exact ⟨hsi, sr, hfrom, hd, f0, hf0, h4⟩

theorem kind_at {sr : StratumRead} {r : Randoms α} {si : ℕ} {d : StratumDraw α} {bottom : ℕ} {cms : Contacts α} {H : Heap α} {z : α}
    {first : ElemParams ℚ} {as : List (AEReal α)} (hfirst : sr.types[typeAt sr r si 0]? = some first)
    (h : Piled sr.params.cast (sr.types.map ElemParams.cast) bottom (drawStratum sr r si d).aes cms H 0 z first.cast as) {k : ℕ} {a : AEReal α}
    (ha : as[k]? = some a) :
    ∃ t, sr.types[typeAt sr r si k]? = some t ∧ AEMade sr.params.cast [t.cast] (fun _ => (drawStratum sr r si d).aes (0 + k)) a := by
  obtain ⟨t, t1, t2, hm⟩ := h.kind k a ha
  cases k with
  | zero =>
    rw [t1 rfl] at hm
    exact ⟨first, hfirst, hm⟩
  | succ k =>
    have := t2 k rfl
    rw [Nat.zero_add, List.getElem?_map, Option.map_eq_some_iff] at this
    obtain ⟨t', ht', rfl⟩ := this
    exact ⟨t', ht', hm⟩

/-- **C100.** Whenever generation from an accepted ini-file in the new format ends with a model, there is one stratum for each name of the
option `strata`, the last name on top. Every AE is of an element listed for its stratum in `ae_in_strata`, namely the one whose
interval of the cumulated weights `ae_prob` contains the uniform number drawn for it, so its weight is not zero. Its type number, its
geometry and its background values are those of the element's section; background values missing there are those of the stratum. -/
theorem C100_elements (C : Convs) (p : Ini) (P : Parsed) (h : parseInifile C p = .ok P) (ids : List (String × ℕ)) (hids : aeIds P = .ok ids)
    (r : Randoms α) (hu : Uniforms r) (d : ℕ → StratumDraw α) (m : GenModel α) (cms' : Contacts α)
    (hr : generateIni P ids r d = .ok (m, cms')) :
    ∃ names, P.strata "strata" = some (.node names) ∧ m.strata.length = names.length ∧ ∀ si s, m.strata[si]? = some s →
      ∃ bf ba bd lv listed, EntryOf P "bg_facies" names.length si bf ∧ EntryOf P "bg_azim" names.length si ba ∧
        EntryOf P "bg_dip" names.length si bd ∧ EntryOf P "ae_in_strata" names.length si lv ∧ ItemsOf lv listed ∧
        ∀ k a, s.aes[k]? = some a → ∃ weights j w e, EntryOf P "ae_prob" names.length si (numList weights) ∧
          Chosen weights (decides r si k) j ∧ weights[j]? = some w ∧ w ≠ 0 ∧ listed[j]? = some (.leaf (.text a.name.toList)) ∧
          FromElement P bf ba bd a e := by
  obtain ⟨I, names, hI, hnames, hin, hg, hlen, hall⟩ := stratum_parts h hr
  refine ⟨names, hnames, hlen, fun si s hs => ?_⟩
  obtain ⟨hsi, sr, hf, hd, first, hfirst, hp⟩ := hall si s hs
  obtain ⟨lv, hlv, hit⟩ := hf.types
  refine ⟨_, _, _, lv, _, hf.facies, hf.azim, hf.dip, hlv, hit, fun k a ha => ?_⟩
  obtain ⟨t, ht, hm⟩ := kind_at hfirst hp ha
  obtain ⟨w, hw, hw0, hch⟩ := typeAt_chosen hu ht
  obtain ⟨wv, hwv, hwv2⟩ := hf.weights
  have hne : sr.weights ≠ [] := by
    rintro hn
    rw [hn] at hw
    simp at hw
  rw [hwv2 hne] at hwv
  obtain ⟨e, i, he, hti, hi, hre⟩ := hf.elements t (List.mem_of_getElem? ht)
  have hfe := fromElement h hids he hti hi hre hm
  obtain ⟨t', ht', _, n1, -⟩ := hm.made
  rw [List.mem_singleton.1 ht'] at n1
  refine ⟨sr.weights, typeAt sr r si k, w, e, hwv, hch, hw, hw0, ?_, hfe⟩
  rw [List.getElem?_map, ht, n1]
  rfl

omit [LinearOrder α] [IsStrictOrderedRing α] in
theorem entries_total (nx ny : ℕ) (vals : ℕ → ℕ → α) :
    (entries nx ny vals).sum = ∑ i ∈ Finset.range nx, ∑ j ∈ Finset.range ny, vals i j := by
  unfold entries
  rw [List.flatMap_def, List.sum_flatten, List.map_map]
  have h : ∀ (n : ℕ) (f : ℕ → α), ((List.range n).map f).sum = ∑ i ∈ Finset.range n, f i := by
    intro n f
    rw [Finset.sum_range, ← List.sum_ofFn, List.ofFn_eq_map]
    congr 1
    rw [← List.map_coe_finRange_eq_range, List.map_map]
    rfl
  rw [h]
  exact Finset.sum_congr rfl fun i _ => h ny _

theorem init_level {nx ny : ℕ} {cm : ContactModel α} {field : ℕ → ℕ → α} {S : Surface α} (h : Surface.init nx ny cm field = .ok S) :
    ∃ z, cm.z = some z ∧ S.zmean = meanLevel cm.mode z nx ny field ∧ ∀ i j, S.vals i j = contactAt cm.mode z field i j := by
  cases hz : cm.z with
  | none =>
    unfold Surface.init at h
    rw [hz] at h
    cases h
  | some z =>
    have hcm : ({ cm with z := some z } : ContactModel α) = cm := by
      rw [← hz]
    refine ⟨z, rfl, ?_, fun i j => init_vals (cm := cm) (by rw [hcm]; exact h) i j⟩
    unfold Surface.init at h
    simp only [hz] at h
    unfold meanLevel
    by_cases hm : cm.mode = "random"
    · rw [if_pos hm] at h ⊢
      split at h
      · cases h
      · simp only [bind_ok, pure_ok] at h
        obtain ⟨zmax, hmax, zmin, -, rfl⟩ := h
        have hne : (nx : α) * ny ≠ 0 := by
          intro hc
          have : entries nx ny (fun i j => field i j + z * 1) = [] := by
            unfold entries
            rcases mul_eq_zero.1 hc with h0 | h0
            · have : nx = 0 := by exact_mod_cast h0
              subst this
              rfl
            · have : ny = 0 := by exact_mod_cast h0
              subst this
              simp
          unfold npMax at hmax
          rw [this] at hmax
          cases hmax
        simp only [npMean, entries_total, Finset.sum_add_distrib, Finset.sum_const, Finset.card_range, nsmul_eq_mul]
        push_cast
        obtain ⟨h1, h2⟩ := mul_ne_zero_iff.1 hne
        field_simp
        ring
    · rw [if_neg hm] at h ⊢
      split at h
      · cases h
        rfl
      · cases h

theorem thickness_drawn (s : StratumRead) (r : Randoms α) (si : ℕ) (d : StratumDraw α) (k : ℕ) :
    thicknessOf (s.params.cast : StratumParams α).avulProb ((drawStratum s r si d).aes k) =
      drawnThickness (meanAt s (typeAt s r si k) : α) (r.normal si k) s.params.avulProb s.avul.1 s.avul.2 (r.avulU si k) (r.avulV si k) := by
  unfold thicknessOf drawnThickness drawStratum StratumParams.cast
  simp only
  split_ifs <;> ring

/-- **C101 (ini-files).** Whenever generation from an accepted ini-file in the new format ends with a model: the grid has as many
columns as cells of size `dx` and `dy` are needed; the bottom of each stratum is the surface of the contact model between it and the
stratum listed before it, cut off by its top, and flat at `z0` for the lowest one; each AE's thickness is drawn from the mean
thickness given for the first entry of its name in `ae_in_strata` and from its stratum's avulsion options; AEs are added until
the thicknesses reach from the top to the bottom of the stratum; and an AE is bounded below by the contact model in the section
of the next AE. -/
theorem C101_ini (C : Convs) (p : Ini) (P : Parsed) (h : parseInifile C p = .ok P) (ids : List (String × ℕ))
    (r : Randoms α) (d : ℕ → StratumDraw α) (m : GenModel α) (cms' : Contacts α)
    (hr : generateIni P ids r d = .ok (m, cms')) :
    ∃ names dx lx dy ly z0, P.strata "strata" = some (.node names) ∧
      P.model "dx" = some (numVal dx) ∧ P.model "lx" = some (numVal lx) ∧ m.heap.nx = ⌈(lx - dx / 2) / dx⌉.toNat ∧
      P.model "dy" = some (numVal dy) ∧ P.model "ly" = some (numVal ly) ∧ m.heap.ny = ⌈(ly - dy / 2) / dy⌉.toNat ∧
      P.model "z0" = some (numVal z0) ∧
      ∀ si s, m.strata[si]? = some s →
        (∃ (mode : String) (z : ℚ), (m.heap.get s.bottom).zmean = meanLevel mode (z : α) m.heap.nx m.heap.ny (d si).field ∧
          (∀ i < m.heap.nx, ∀ j < m.heap.ny, (m.heap.get s.bottom).vals i j =
            min (contactAt mode (z : α) (d si).field i j) ((m.heap.get s.top).vals i j)) ∧
          (si + 1 = names.length → mode = "flat" ∧ z = z0) ∧
          (si + 1 < names.length → ∃ c, P.contacts[names.length - 2 - si]? = some c ∧ c.mode = mode ∧ c.z = some (.num z))) ∧
        ∃ (prob : ℚ) (rest : List Val) (lo hi : ℚ) (thick : ℕ → α), EntryOf P "avul_prob" names.length si (.node (numVal prob :: rest)) ∧
          EntryOf P "avul" names.length si (numList [lo, hi]) ∧
          (∀ k a, s.aes[k]? = some a → ∃ lv listed j means, ∃ q : ℚ, EntryOf P "ae_in_strata" names.length si lv ∧ ItemsOf lv listed ∧
            FirstAt listed (.leaf (.text a.name.toList)) j ∧ EntryOf P "ae_z_mean" names.length si (numList means) ∧ means[j]? = some q ∧
            0 ≤ q ∧ thick k = drawnThickness (q : α) (r.normal si k) prob lo hi (r.avulU si k) (r.avulV si k)) ∧
          (∀ k < s.aes.length, (m.heap.get s.bottom).zmean < levelAfter (m.heap.get s.top).zmean thick k) ∧
          levelAfter (m.heap.get s.top).zmean thick s.aes.length ≤ (m.heap.get s.bottom).zmean ∧
          ∀ k a b, s.aes[k]? = some a → s.aes[k + 1]? = some b → ∃ e, (b.name, e) ∈ P.elements ∧
            ∀ i < m.heap.nx, ∀ j < m.heap.ny, (m.heap.get a.bottom).vals i j =
              max (min (contactAt e.contact.mode (levelAfter (m.heap.get s.top).zmean thick (k + 1)) ((d si).aes k).field i j)
                ((m.heap.get a.top).vals i j)) ((m.heap.get s.bottom).vals i j) := by
  obtain ⟨I, names, hI, hnames, hin, hg, hlen, hall⟩ := stratum_parts h hr
  obtain ⟨dx, lx, x1, x2, x3⟩ := hin.nx
  obtain ⟨dy, ly, y1, y2, y3⟩ := hin.ny
  obtain ⟨hnx, hny, -⟩ := generateModel_spec hg
  rw [← hnx] at x3
  rw [← hny] at y3
  refine ⟨names, dx, lx, dy, ly, _, hnames, x1, x2, x3, y1, y2, y3, hin.z0, fun si s hs => ?_⟩
  obtain ⟨hsi, sr, hf, hd, first, hfirst, hp⟩ := hall si s hs
  constructor
  · obtain ⟨cm, surf, c1, c2, c3, c4, c5⟩ := (generateModel_layered hg hs).surface
    rw [hd] at c3
    obtain ⟨z, hz, hzm, hv⟩ := init_level c3
    have hcount : (I.strata.cast : StrataDict α).n = names.length := hin.count
    rw [hcount] at c1 c2
    by_cases hl : si + 1 = names.length
    · have hcm := c1 hl
      have hz' : z = (I.grid.z0 : α) := by
        rw [hcm] at hz
        exact (Option.some.inj hz).symm
      refine ⟨cm.mode, I.grid.z0, ?_, ?_, fun _ => ⟨by rw [hcm]; rfl, rfl⟩, fun h => absurd hl (by omega)⟩
      · rw [c4, hzm, hnx, hny, hz']
        rfl
      · rw [hnx, hny]
        intro i hi j hj
        rw [c5 i hi j hj, hv, hz']
        rfl
    · obtain ⟨names', hn', hcl, hc', -⟩ := C52_contacts C p P h
      rw [hnames] at hn'
      cases hn'
      obtain ⟨c, hc, -⟩ := hc' si (by omega)
      have hcl' : I.strata.contacts.length = names.length - 1 := by
        rw [← hin.contacts.length_eq]
        omega
      have hq := c2 hl
      simp only [StrataDict.cast] at hq
      rw [← List.map_reverse, List.getElem?_map, Option.map_eq_some_iff] at hq
      obtain ⟨cm0, hq, rfl⟩ := hq
      rw [List.getElem?_reverse (by omega), hcl', show names.length - 1 - 1 - si = names.length - 2 - si by omega] at hq
      obtain ⟨c'', hc'', hr'⟩ := forall₂_get hin.contacts hq
      rw [hc] at hc''
      cases hc''
      obtain ⟨q1, q2⟩ := readContact_ok hr'
      simp only [ContactModel.cast, Option.map_eq_some_iff] at hz
      obtain ⟨z, hz, rfl⟩ := hz
      rw [hz] at q2
      refine ⟨cm0.mode, z, ?_, ?_, fun h => absurd h hl, fun _ => ⟨c, hc, q1.symm, q2.symm⟩⟩
      · rw [c4, hzm, hnx, hny]
        rfl
      · rw [hnx, hny]
        intro i hi j hj
        rw [c5 i hi j hj, hv]
        rfl
  · obtain ⟨rest, hprob⟩ := hf.prob
    have hth : (fun i => thicknessOf (sr.params.cast : StratumParams α).avulProb ((drawStratum sr r si (d si)).aes (0 + i))) = fun k =>
        drawnThickness (meanAt sr (typeAt sr r si k) : α) (r.normal si k) sr.params.avulProb sr.avul.1 sr.avul.2 (r.avulU si k) (r.avulV si k) := by
      funext k
      rw [Nat.zero_add, thickness_drawn]
    refine ⟨sr.params.avulProb, rest, sr.avul.1, sr.avul.2, fun k => drawnThickness (meanAt sr (typeAt sr r si k) : α) (r.normal si k)
      sr.params.avulProb sr.avul.1 sr.avul.2 (r.avulU si k) (r.avulV si k), hprob, hf.avul, ?_, by rw [← hth]; exact hp.passed,
      by rw [← hth]; exact hp.ended, ?_⟩
    · intro k a ha
      obtain ⟨t, ht, hm⟩ := kind_at hfirst hp ha
      obtain ⟨t', ht', _, n1, -⟩ := hm.made
      rw [List.mem_singleton.1 ht'] at n1
      have n1' : a.name = t.name := n1
      obtain ⟨q', hq, hq0⟩ := hp.mean a (List.mem_of_getElem? ha)
      have hnm : (sr.types.map (ElemParams.cast (α := α))).map ElemParams.name = sr.types.map ElemParams.name := by
        rw [List.map_map]
        rfl
      simp only [StratumParams.cast] at hq
      rw [hnm, List.getElem?_map, Option.map_eq_some_iff] at hq
      obtain ⟨q, hq, rfl⟩ := hq
      have hq0 : 0 ≤ q := by exact_mod_cast hq0
      obtain ⟨lv, hlv, hit⟩ := hf.types
      obtain ⟨mv, hmv, hmv2⟩ := hf.means
      rw [hmv2 (List.ne_nil_of_mem (List.mem_of_getElem? hq))] at hmv
      refine ⟨lv, _, _, _, q, hlv, hit, ?_, hmv, hq, hq0, ?_⟩
      · have hmem : a.name ∈ sr.types.map ElemParams.name := by
          rw [n1']
          exact List.mem_map_of_mem (List.mem_of_getElem? ht)
        have hlt := List.idxOf_lt_length_iff.2 hmem
        have hcomp : (sr.types.map fun t => (Tree.leaf (Atom.text t.name.toList) : Val)) =
            (sr.types.map ElemParams.name).map fun n => .leaf (.text n.toList) := by
          rw [List.map_map]
          rfl
        rw [hcomp]
        constructor
        · rw [List.getElem?_map, List.getElem?_eq_getElem hlt, List.getElem_idxOf]
          rfl
        · intro j hj hc
          rw [List.getElem?_map, Option.map_eq_some_iff] at hc
          obtain ⟨n, hn, hn'⟩ := hc
          have : n = a.name := by
            simp only [Tree.leaf.injEq, Atom.text.injEq] at hn'
            exact String.toList_injective hn'
          subst this
          have hjl := (List.getElem?_eq_some_iff.1 hn).1
          have := List.not_of_lt_findIdx (xs := sr.types.map ElemParams.name) (p := (· == a.name)) hj
          rw [List.getElem?_eq_getElem hjl] at hn
          rw [Option.some.inj hn] at this
          simp at this
      · have : meanAt sr (typeAt sr r si k) = q := by
          unfold meanAt
          rw [ht]
          simp only
          rw [← n1', hq]
          rfl
        simp only
        rw [this]
    · intro k a b ha hb
      obtain ⟨t, ht, hv⟩ := hp.shape k a ha (List.getElem?_eq_some_iff.1 hb).1
      obtain ⟨t2, ht2, hm⟩ := kind_at hfirst hp hb
      obtain ⟨t', ht', _, n1, -⟩ := hm.made
      rw [List.mem_singleton.1 ht'] at n1
      have n1' : b.name = t2.name := n1
      have : t = t2.cast := by
        rw [Nat.zero_add, List.getElem?_map, Option.map_eq_some_iff] at ht
        obtain ⟨t3, ht3, rfl⟩ := ht
        have ht4 : sr.types[typeAt sr r si (k + 1)]? = some t3 := ht3
        rw [ht2] at ht4
        rw [Option.some.inj ht4]
      subst this
      obtain ⟨e, i, he, -⟩ := hf.elements _ (List.mem_of_getElem? ht2)
      obtain ⟨e', he', hc⟩ := hin.elements _ _ he
      refine ⟨e', by rw [n1']; exact he', fun i hi j hj => ?_⟩
      rw [hv i hi j hj, hth, Nat.zero_add, ← (readContact_ok hc).1]
      rfl

end Ini

/-! ### Examples -/

theorem length_two {β : Type} {l : List β} (h : l.length = 2) : ∃ a b, l = [a, b] := List.length_eq_two.1 h

/-- The example's run (`exRun`, two strata with two AEs each). -/
example : ∃ m c s a b sp, exRun = .ok (m, c) ∧ m.strata[1]? = some s ∧ s.aes[0]? = some a ∧ s.aes[1]? = some b ∧
    exSD.params.reverse[1]? = some sp ∧ levelAfter (m.heap.get s.top).zmean (fun k => thicknessOf sp.avulProb ((exDraws 1).aes k)) 2 ≤
      (m.heap.get s.bottom).zmean ∧
    (∃ types t, exSD.types.reverse[1]? = some types ∧ typeOfPass types (exDraws 1).first (exDraws 1).aes 1 = some t ∧ b.name = t.name) ∧
    ∀ i < 2, ∀ j < 1, (m.heap.get a.bottom).vals i j ≤ max ((m.heap.get a.top).vals i j) ((m.heap.get s.bottom).vals i j) := by
  obtain ⟨m, c, h, hs⟩ := exRun_ok
  obtain ⟨s0, s1, e⟩ := length_two (l := m.strata) (by simpa using congrArg List.length hs)
  rw [e] at hs
  simp only [List.map_cons, List.map_nil, List.cons.injEq, and_true] at hs
  obtain ⟨a, b, ea⟩ := length_two (l := s1.aes) (by simpa using congrArg List.length hs.2)
  have hs1 : m.strata[1]? = some s1 := by rw [e]; rfl
  have ha : s1.aes[0]? = some a := by rw [ea]; rfl
  have hb : s1.aes[1]? = some b := by rw [ea]; rfl
  obtain ⟨sp, h1, h2, h3⟩ := C101_count h hs1
  obtain ⟨types, t, t1, t2, t3, -⟩ := C101_types h hs1 hb
  obtain ⟨_, -, h4⟩ := C101_bottoms h hs1 ha hb
  refine ⟨m, c, s1, a, b, sp, h, hs1, ha, hb, h1, by simpa [ea] using h3, ⟨types, t, t1, t2, t3⟩, fun i hi j hj => ?_⟩
  rw [h4 i hi j hj]
  exact max_le_max (min_le_right _ _) le_rfl

/-- Names, type numbers and facies of the AEs generated from the settings. -/
def runOf (r : Except PyErr Settings) : Option (List (List (String × ℤ × ℤ))) :=
  match r with
  | .error _ => none
  | .ok st =>
    match generateIni st.parsed st.ids exRandoms (fun si => Spec.withFuel 20 (exDraws si)) with
    | .ok (m, _) => some (m.strata.map fun s => s.aes.map fun a => (a.name, a.typeId, a.bgFacies))
    | .error _ => none

theorem runOf_some {r : Except PyErr Settings} {l : List (List (String × ℤ × ℤ))} (h : runOf r = some l) :
    ∃ st m cms', r = .ok st ∧ generateIni st.parsed st.ids exRandoms (fun si => Spec.withFuel 20 (exDraws si)) = .ok (m, cms') ∧
      (m.strata.map fun s => s.aes.map fun a => (a.name, a.typeId, a.bgFacies)) = l := by
  cases r with
  | error _ => cases h
  | ok st =>
    simp only [runOf] at h
    split at h
    · rename_i m c heq
      exact ⟨st, m, c, rfl, heq, Option.some.inj h⟩
    · cases h

theorem exWith_generated : ∃ P ids m cms', parseInifile exConvs (exWith []) = .ok P ∧ aeIds P = .ok ids ∧
    generateIni P ids exRandoms (fun si => Spec.withFuel 20 (exDraws si)) = .ok (m, cms') ∧
    (m.strata.map fun s => s.aes.map fun a => (a.name, a.typeId, a.bgFacies)) =
      [[("sheets", 0, 1), ("scour", 1, 1), ("scour", 1, 1), ("sheets", 0, 1), ("sheets", 0, 1)], [("sheets", 0, 0), ("sheets", 0, 0)]] := by
  obtain ⟨st, m, c, hst, hg, hl⟩ := runOf_some (r := settings exConvs (exWith []) ["m"] "a.ini".toList [])
    (l := [[("sheets", 0, 1), ("scour", 1, 1), ("scour", 1, 1), ("sheets", 0, 1), ("sheets", 0, 1)], [("sheets", 0, 0), ("sheets", 0, 0)]])
    (by decide +kernel)
  obtain ⟨h1, h2, -⟩ := settings_facts (by decide +kernel) hst
  exact ⟨_, _, m, c, h1, h2, hg, hl⟩

/-- Two strata are generated from the example's ini-file, with five and two AEs; C100 holds for the second AE of the upper one and C101 for
the lower one. -/
example : ∃ (P : Parsed) (m : GenModel ℚ) (s s' : StratumReal ℚ) (a : AEReal ℚ), m.strata[0]? = some s ∧ s.aes[1]? = some a ∧ a.name = "scour" ∧ m.strata[1]? = some s' ∧
    (∃ bf ba bd e, EntryOf P "bg_facies" 2 0 bf ∧ FromElement P bf ba bd a e) ∧
    (∃ w j, EntryOf P "ae_prob" 2 0 (numList w) ∧ Chosen w (1 / 2 : ℚ) j) ∧
    (∃ z0, P.model "z0" = some (numVal z0) ∧ (m.heap.get s'.bottom).zmean = z0) := by
  obtain ⟨P, ids, m, c, hP, hi, hg, hl⟩ := exWith_generated
  obtain ⟨names, hnames, hlen, hall⟩ := C100_elements _ _ _ hP _ hi _ exRandoms_unit _ _ _ hg
  obtain ⟨names', _, _, _, _, z0, hnames', -, -, -, -, -, -, hz0, hall'⟩ := C101_ini _ _ _ hP _ _ _ _ _ hg
  rw [hnames] at hnames'
  cases hnames'
  obtain ⟨s, s', e⟩ := length_two (l := m.strata) (by simpa using congrArg List.length hl)
  rw [e] at hl hlen
  simp only [List.map_cons, List.map_nil, List.cons.injEq, and_true] at hl
  have hn : names.length = 2 := hlen.symm
  rw [hn] at hall hall'
  have hs : m.strata[0]? = some s := by rw [e]; rfl
  have hs' : m.strata[1]? = some s' := by rw [e]; rfl
  obtain ⟨a, ha, hn'⟩ : ∃ a, s.aes[1]? = some a ∧ a.name = "scour" := by
    have := congrArg (fun l => l[1]?) hl.1
    simp only [List.getElem?_map, List.getElem?_cons_succ, List.getElem?_cons_zero, Option.map_eq_some_iff] at this
    obtain ⟨a, ha, h⟩ := this
    exact ⟨a, ha, congrArg Prod.fst h⟩
  obtain ⟨bf, ba, bd, lv, listed, b1, -, -, -, -, hk⟩ := hall 0 s hs
  obtain ⟨w, j, _, el, w1, w2, -, -, -, w3⟩ := hk 1 a ha
  obtain ⟨⟨mode, z, q1, -, q2, -⟩, -⟩ := hall' 1 s' hs'
  obtain ⟨rfl, rfl⟩ := q2 rfl
  refine ⟨P, m, s, s', a, hs, ha, hn', hs', ⟨bf, ba, bd, el, b1, w3⟩, ⟨w, j, w1, ?_⟩, z, hz0, ?_⟩
  · have : decides exRandoms 0 1 = 1 / 2 := by
      simp [decides, exRandoms, exUniform]
    rwa [this] at w2
  · rw [q1]
    simp [meanLevel]

end Hyvr
