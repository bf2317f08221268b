import Verif.Lemmas.Sweep

/-!
C10, C11, C12, C14, C18: assignment of grid cells.
-/

set_option linter.unusedSectionVars false

namespace Hyvr

open Spec

variable {α : Type} [LinearOrder α]

/-! ### C10 -/

/-- **C10.** For every model (with real facies numbers), every grid and every cell: the seven stored values are either
all defaults, or they are exactly those of one object of one AE of the stored stratum, whose range and test
accept the cell, or exactly those of the background of one AE of the stored stratum. -/
theorem C10_consistent [Zero α] (strata : List (Stratum α)) (hok : FaciesOK strata) (gridz : ℕ → α) (nx ny nz i j k : ℕ) :
    (assignPoints strata gridz nx ny nz).at i j k = ⟨0, 0, -1, -1, -1, some 0, some 0⟩ ∨
    (i < nx ∧ j < ny ∧ k < nz ∧ ∃ (si : ℕ) (s : Stratum α) (a : AE α), strata[si]? = some s ∧ a ∈ s.aes ∧
      ((∃ o ∈ a.objs, ∃ h, o.zmin ≤ gridz k ∧ gridz k ≤ o.zmax ∧ o.test i j (gridz k) = some h ∧
          (assignPoints strata gridz nx ny nz).at i j k = ⟨h.facies, si, a.num, h.ha, a.typeId, h.azim, h.dip⟩) ∨
       (a.isSheet = false ∧ a.bottom i j < gridz k ∧ gridz k < a.top i j ∧
          (assignPoints strata gridz nx ny nz).at i j k =
            ⟨a.bgFacies, si, a.num, -1, a.typeId, a.bgAzim, a.bgDip⟩))) := by
  rw [assignPoints_at]
  by_cases hin : i < nx ∧ j < ny ∧ k < nz
  · rw [if_pos hin]
    cases hr : sweepResult strata gridz nz i j k with
    | none => left; rfl
    | some r =>
      obtain ⟨g, si⟩ := r
      right
      refine ⟨hin.1, hin.2.1, hin.2.2, ?_⟩
      obtain ⟨s, a, h1, h2, h3⟩ := assignCell_found hok hr
      refine ⟨si, s, a, h1, List.mem_of_getElem? h2, ?_⟩
      rcases h3 with ⟨o, h, ho1, ho2, rfl⟩ | ⟨hb, rfl⟩
      · left
        unfold objHit at ho2
        split_ifs at ho2 with hz
        exact ⟨o, List.mem_of_getElem? ho1, h, hz.1, hz.2, ho2, rfl⟩
      · right
        exact ⟨hb.1, hb.2.1, hb.2.2, rfl⟩
  · rw [if_neg hin]
    left; rfl

/-! A small model used as an example: one stratum, an eroding object in the upper AE, a sheet below. -/

def exObj : Obj ℤ := { zmin := 3, zmax := 8, test := fun i _ z => if i = 0 ∧ 4 ≤ z then some ⟨7, 0, some 30, some 5⟩ else none }
def exAE0 : AE ℤ :=
  { zmin := 3, isSheet := false, num := 0, typeId := 2, bgFacies := 1, bgAzim := some 0, bgDip := some 0,
    top := fun _ _ => 10, bottom := fun _ _ => 5, objs := [exObj] }
def exSheet : Obj ℤ := { zmin := 0, zmax := 5, test := fun _ _ z => if 0 ≤ z ∧ z ≤ 5 then some ⟨4, 0, some 0, some 0⟩ else none }
def exAE1 : AE ℤ :=
  { zmin := 0, isSheet := true, num := 1, typeId := 3, bgFacies := 1, bgAzim := some 0, bgDip := some 0,
    top := fun _ _ => 5, bottom := fun _ _ => 0, objs := [exSheet] }
def exStrata : List (Stratum ℤ) := [{ zmin := 0, aes := [exAE0, exAE1] }]

theorem exStrata_faciesOK : FaciesOK exStrata := by
  intro s hs a ha
  simp only [exStrata, List.mem_singleton] at hs
  subst hs
  simp only [List.mem_cons, List.not_mem_nil, or_false] at ha
  rcases ha with rfl | rfl
  · refine ⟨by decide, ?_⟩
    intro o ho xi yi z h hh
    simp only [exAE0, List.mem_singleton] at ho
    subst ho
    simp only [exObj] at hh
    split_ifs at hh
    cases hh; decide
  · refine ⟨by decide, ?_⟩
    intro o ho xi yi z h hh
    simp only [exAE1, List.mem_singleton] at ho
    subst ho
    simp only [exSheet] at hh
    split_ifs at hh
    cases hh; decide

/-- The example model: background, object, erosion below the AE bottom, and the sheet below. -/
example : (assignPoints exStrata (fun k => 2 * (k : ℤ)) 2 1 5).at 0 0 4 = ⟨7, 0, 0, 0, 2, some 30, some 5⟩ ∧
    (assignPoints exStrata (fun k => 2 * (k : ℤ)) 2 1 5).at 0 0 2 = ⟨7, 0, 0, 0, 2, some 30, some 5⟩ ∧
    (assignPoints exStrata (fun k => 2 * (k : ℤ)) 2 1 5).at 0 0 1 = ⟨4, 0, 1, 0, 3, some 0, some 0⟩ ∧
    (assignPoints exStrata (fun k => 2 * (k : ℤ)) 2 1 5).at 1 0 4 = ⟨1, 0, 0, -1, 2, some 0, some 0⟩ := by decide

/-! ### C11 -/

/-- AE numbers do not decrease from the top of the first stratum to the bottom of the last (C17 proves that the
numbering of generated models has this property). -/
def NumOrdered (strata : List (Stratum α)) : Prop :=
  ((strata.flatMap Stratum.aes).map AE.num).Pairwise (· ≤ ·)

theorem numOrdered_le {strata : List (Stratum α)} (hn : NumOrdered strata) {p p' : Pos} {s s' : Stratum α} {a a' : AE α}
    (h1 : strata[p.si]? = some s) (h2 : s.aes[p.aei]? = some a)
    (h1' : strata[p'.si]? = some s') (h2' : s'.aes[p'.aei]? = some a') (hle : p.sle p') : a.num ≤ a'.num := by
  unfold NumOrdered at hn
  rw [List.pairwise_map, List.pairwise_flatMap] at hn
  obtain ⟨hn1, hn2⟩ := hn
  rcases hle with h | ⟨h, h'⟩
  · obtain ⟨hlt, rfl⟩ := List.getElem?_eq_some_iff.1 h1
    obtain ⟨hlt', rfl⟩ := List.getElem?_eq_some_iff.1 h1'
    exact (List.pairwise_iff_getElem.1 hn2 p.si p'.si hlt hlt' h) a (List.mem_of_getElem? h2) a'
      (List.mem_of_getElem? h2')
  · rw [← h, h1] at h1'
    cases h1'
    rcases Nat.lt_or_ge p.aei p'.aei with hlt | hge
    · obtain ⟨hl, rfl⟩ := List.getElem?_eq_some_iff.1 h2
      obtain ⟨hl', rfl⟩ := List.getElem?_eq_some_iff.1 h2'
      exact List.pairwise_iff_getElem.1 (hn1 s (List.mem_of_getElem? h1)) p.aei p'.aei hl hl' hlt
    · have : p.aei = p'.aei := le_antisymm h' hge
      rw [this, h2'] at h2
      cases h2
      exact le_refl _

/-- **C11.** In every column of every model with ordered AE numbers, of two assigned cells the lower one has a stratum
index and an AE number at least as large. Object tests are arbitrary. -/
theorem C11_monotone [Zero α] (strata : List (Stratum α)) (hok : FaciesOK strata) (hn : NumOrdered strata) (gridz : ℕ → α)
    (nx ny nz i j k k' : ℕ) (hij : i < nx ∧ j < ny) (hk : k < nz) (hkk : k' < k)
    {g g' : Geo α} {si si' : ℕ}
    (h : sweepResult strata gridz nz i j k = some (g, si)) (h' : sweepResult strata gridz nz i j k' = some (g', si')) :
    ((assignPoints strata gridz nx ny nz).at i j k).strata ≤ ((assignPoints strata gridz nx ny nz).at i j k').strata ∧
    ((assignPoints strata gridz nx ny nz).at i j k).ae ≤ ((assignPoints strata gridz nx ny nz).at i j k').ae := by
  rw [assignPoints_at, assignPoints_at, if_pos ⟨hij.1, hij.2, hk⟩, if_pos ⟨hij.1, hij.2, by omega⟩, h, h']
  -- position after cell k is not beyond the position after cell k'
  have hpos : ∀ t < nz, (assignCell strata i j (gridz t) (posAfter strata gridz nz i j (nz - 1 - t))).2 =
      posAfter strata gridz nz i j (nz - 1 - t + 1) := by
    intro t ht
    show _ = (assignCell strata i j (gridz (nz - 1 - (nz - 1 - t))) _).2
    rw [show nz - 1 - (nz - 1 - t) = t by omega]
  have hmono := posAfter_mono strata gridz nz i j (m := nz - 1 - k + 1) (m' := nz - 1 - k' + 1) (by omega)
  rw [← hpos k hk, ← hpos k' (by omega)] at hmono
  obtain ⟨s, a, e1, e2, e3⟩ := assignCell_found hok h
  obtain ⟨s', a', e1', e2', e3'⟩ := assignCell_found hok h'
  have m1 := (assignCell_mono.2.1 g si h).1
  have m1' := (assignCell_mono.2.1 g' si' h').1
  constructor
  · simp only [recOf]
    have : si ≤ si' := by
      unfold Pos.sle at hmono
      omega
    exact_mod_cast this
  · have hnum := numOrdered_le hn (by rw [m1]; exact e1) e2 (by rw [m1']; exact e1') e2' hmono
    have eg : g.ae = a.num := by rcases e3 with ⟨o, h, -, -, rfl⟩ | ⟨-, rfl⟩ <;> rfl
    have eg' : g'.ae = a'.num := by rcases e3' with ⟨o, h, -, -, rfl⟩ | ⟨-, rfl⟩ <;> rfl
    simp only [recOf, eg, eg']
    exact hnum

/-- The hypotheses of `C11_monotone` are met by the example. -/
example : NumOrdered exStrata ∧
    sweepResult exStrata (fun k => 2 * (k : ℤ)) 5 0 0 4 = some (⟨7, 0, 0, 2, some 30, some 5⟩, 0) ∧
    sweepResult exStrata (fun k => 2 * (k : ℤ)) 5 0 0 1 = some (⟨4, 1, 0, 3, some 0, some 0⟩, 0) := by
  refine ⟨?_, by decide, by decide⟩
  unfold NumOrdered; decide

/-! ### C12, C14 -/

/-- Well-formedness of the model along one column: real facies numbers, objects of an AE ordered from the top, and
reported minima enclosing what they contain. -/
structure ColumnOK (strata : List (Stratum α)) (xi yi : ℕ) (z : α) : Prop where
  facies : FaciesOK strata
  ordered : ∀ s ∈ strata, ∀ a ∈ s.aes, Ordered xi yi z a.objs
  encloses : Encloses xi yi z strata

theorem ColumnOK.strataOK {strata : List (Stratum α)} {xi yi : ℕ} {z : α} (h : ColumnOK strata xi yi z) :
    StrataOK xi yi z strata :=
  ⟨fun s hs => ⟨fun a ha => (h.facies s hs a ha).1, fun a ha o ho hh => (h.facies s hs a ha).2 o ho xi yi z hh,
    fun a ha => h.ordered s hs a ha, fun a ha hne => (h.encloses s hs a ha hne).1⟩,
   fun s hs a ha hne => (h.encloses s hs a ha hne).2⟩

/-- Descending tops give the order used above. -/
theorem ordered_of_zmax_desc {xi yi : ℕ} {z : α} {objs : List (Obj α)}
    (h : objs.Pairwise fun o o' => o'.zmax ≤ o.zmax) : Ordered xi yi z objs := by
  refine List.Pairwise.imp ?_ h
  intro o o' hle hne
  unfold objHit at hne
  split_ifs at hne with hz
  · exact hz.2.trans hle
  · exact absurd rfl hne

/-- A column is orderly if lower cells are never first-claimed by an earlier unit than higher cells. -/
def Orderly (strata : List (Stratum α)) (gridz : ℕ → α) (nz xi yi : ℕ) : Prop :=
  ∀ k k' q q' g g', k' < k → k < nz → firstPlace xi yi (gridz k) strata = some (q, g) →
    firstPlace xi yi (gridz k') strata = some (q', g') → q.NotAbove q'

/-- The remembered position is never beyond the first claiming unit of the cells still to come. -/
theorem posAfter_le {strata : List (Stratum α)} {gridz : ℕ → α} {nz xi yi : ℕ}
    (hok : ∀ k < nz, ColumnOK strata xi yi (gridz k)) (hord : Orderly strata gridz nz xi yi)
    (m : ℕ) (hm : m ≤ nz) (hass : ∀ t < m, firstPlace xi yi (gridz (nz - 1 - t)) strata ≠ none) :
    ∀ k q g, k < nz → m ≤ nz - 1 - k → firstPlace xi yi (gridz k) strata = some (q, g) →
      (posAfter strata gridz nz xi yi m).le q := by
  induction m with
  | zero =>
    intro k q g _ _ _
    unfold posAfter Pos.le
    simp only
    rcases Nat.eq_zero_or_pos q.si with h | h
    · refine Or.inr ⟨h.symm, ?_⟩
      rcases Nat.eq_zero_or_pos q.aei with h' | h'
      · exact Or.inr ⟨h'.symm, fun o _ => Nat.zero_le o⟩
      · exact Or.inl h'
    · exact Or.inl h
  | succ m ih =>
    have ih' := ih (by omega) (fun t ht => hass t (by omega))
    intro k q g hk hmk hq
    have hlt : nz - 1 - m < nz := by omega
    -- the cell that was just processed
    obtain ⟨r, hr⟩ := Option.ne_none_iff_exists'.1 (hass m (by omega))
    obtain ⟨q0, g0⟩ := r
    have hcell := (assignCell_eq (hok _ hlt).strataOK (p := posAfter strata gridz nz xi yi m) (by
      intro q1 g1 h1
      exact ih' (nz - 1 - m) q1 g1 hlt (by omega) h1)).1 q0 g0 hr
    have hpos : posAfter strata gridz nz xi yi (m + 1) = ⟨q0.si, q0.aei, q0.oi.getD
        (if q0.si = (posAfter strata gridz nz xi yi m).si ∧ q0.aei = (posAfter strata gridz nz xi yi m).aei
          then (posAfter strata gridz nz xi yi m).oi else 0)⟩ := by
      show (assignCell strata xi yi (gridz (nz - 1 - m)) (posAfter strata gridz nz xi yi m)).2 = _
      rw [hcell]
    rw [hpos]
    have hna := hord (nz - 1 - m) k q0 q g0 g (by omega) hlt hr hq
    have hold := ih' k q g hk (by omega) hq
    unfold Place.NotAbove at hna
    unfold Pos.le at hold ⊢
    simp only
    rcases hna with h | ⟨h, h'⟩
    · exact Or.inl h
    · refine Or.inr ⟨h, ?_⟩
      rcases h' with h' | ⟨h', h''⟩
      · exact Or.inl h'
      · refine Or.inr ⟨h', ?_⟩
        intro o ho
        cases hoi : q0.oi with
        | some b => simpa using h'' b hoi o ho
        | none =>
          simp only [Option.getD_none]
          split_ifs with hc
          · rcases hold with h1 | ⟨h1, h2⟩
            · omega
            · rcases h2 with h2 | ⟨h2, h3⟩
              · omega
              · exact h3 o ho
          · exact Nat.zero_le _

/-- **C12.** In an orderly column of a well-formed model, the sweep (which resumes from the previously found stratum, AE
and object) stores for every cell exactly the record of the first unit claiming that cell, searched from
scratch without any memory - as long as every cell above it is claimed by some unit. -/
theorem C12_memoryless [Zero α] (strata : List (Stratum α)) (gridz : ℕ → α) (nx ny nz i j k : ℕ)
    (hi : i < nx) (hj : j < ny) (hk : k < nz)
    (hok : ∀ k < nz, ColumnOK strata i j (gridz k)) (hord : Orderly strata gridz nz i j)
    (habove : ∀ k', k < k' → k' < nz → firstPlace i j (gridz k') strata ≠ none) :
    (assignPoints strata gridz nx ny nz).at i j k =
      match firstPlace i j (gridz k) strata with
      | some (q, g) => ⟨g.facies, q.si, g.ae, g.ha, g.hat, g.azim, g.dip⟩
      | none => ⟨0, 0, -1, -1, -1, some 0, some 0⟩ := by
  rw [assignPoints_at, if_pos ⟨hi, hj, hk⟩]
  have hp := posAfter_le hok hord (nz - 1 - k) (by omega) (fun t ht => habove _ (by omega) (by omega))
  have hcell := assignCell_eq (hok k hk).strataOK (p := posAfter strata gridz nz i j (nz - 1 - k))
    (fun q g hq => hp k q g hk le_rfl hq)
  unfold sweepResult
  cases hq : firstPlace i j (gridz k) strata with
  | none => rw [hcell.2 hq]; rfl
  | some r =>
    obtain ⟨q, g⟩ := r
    rw [hcell.1 q g hq]
    rfl

/-- **C14.** In the same situation: the cell's record is that of a place `q` such that no earlier stratum and no earlier
AE of the stratum claims the cell, no earlier object of the AE contains it, and it is background only if no
object of that AE contains it. -/
theorem C14_priority [Zero α] (strata : List (Stratum α)) (gridz : ℕ → α) (nx ny nz i j k : ℕ)
    (hi : i < nx) (hj : j < ny) (hk : k < nz)
    (hok : ∀ k < nz, ColumnOK strata i j (gridz k)) (hord : Orderly strata gridz nz i j)
    (habove : ∀ k', k ≤ k' → k' < nz → firstPlace i j (gridz k') strata ≠ none) :
    ∃ (si aei : ℕ) (s : Stratum α) (a : AE α), strata[si]? = some s ∧ s.aes[aei]? = some a ∧
      -- no earlier stratum or AE claims the cell
      (∀ si' < si, ∀ s', strata[si']? = some s' → ∀ a' ∈ s'.aes,
        (∀ o ∈ a'.objs, objHit i j (gridz k) o = none) ∧ ¬ inBg i j (gridz k) a') ∧
      (∀ aei' < aei, ∀ a', s.aes[aei']? = some a' →
        (∀ o ∈ a'.objs, objHit i j (gridz k) o = none) ∧ ¬ inBg i j (gridz k) a') ∧
      -- first object, or background and no object
      ((∃ (oi : ℕ) (o : Obj α) (h : Hit α), a.objs[oi]? = some o ∧ objHit i j (gridz k) o = some h ∧
          (∀ oi' < oi, ∀ o' : Obj α, a.objs[oi']? = some o' → objHit i j (gridz k) o' = none) ∧
          (assignPoints strata gridz nx ny nz).at i j k = ⟨h.facies, si, a.num, h.ha, a.typeId, h.azim, h.dip⟩) ∨
       ((∀ o ∈ a.objs, objHit i j (gridz k) o = none) ∧ inBg i j (gridz k) a ∧
          (assignPoints strata gridz nx ny nz).at i j k =
            ⟨a.bgFacies, si, a.num, -1, a.typeId, a.bgAzim, a.bgDip⟩)) := by
  have hrec := C12_memoryless strata gridz nx ny nz i j k hi hj hk hok hord
    (fun k' h1 h2 => habove k' h1.le h2)
  obtain ⟨⟨q, g⟩, hq⟩ := Option.ne_none_iff_exists'.1 (habove k le_rfl hk)
  rw [hq] at hrec
  obtain ⟨s, hs1, hs2, hs3⟩ := firstPlace_some hq
  obtain ⟨a, ha1, ha2, ha3⟩ := firstAE_some hs2
  have hnone : ∀ a', aeRec i j (gridz k) a' = none →
      (∀ o ∈ a'.objs, objHit i j (gridz k) o = none) ∧ ¬ inBg i j (gridz k) a' := by
    intro a' h
    unfold aeRec at h
    split at h
    · cases h
    · rename_i hfo
      split_ifs at h with hb
      exact ⟨firstObj_none_iff.1 hfo, hb⟩
  refine ⟨q.si, q.aei, s, a, hs1, ha1, ?_, ?_, ?_⟩
  · intro si' hlt s' hs' a' ha'
    exact hnone a' (firstAE_none_iff.1 (hs3 si' hlt s' hs') a' ha')
  · intro aei' hlt a' ha'
    exact hnone a' (ha3 aei' hlt a' ha')
  · unfold aeRec at ha2
    split at ha2
    · rename_i oi h hfo
      simp only [Option.some.injEq, Prod.mk.injEq] at ha2
      obtain ⟨-, rfl⟩ := ha2
      obtain ⟨o, ho1, ho2, ho3⟩ := firstObj_some hfo
      exact Or.inl ⟨oi, o, h, ho1, ho2, ho3, hrec⟩
    · rename_i hfo
      split_ifs at ha2 with hb
      simp only [Option.some.injEq, Prod.mk.injEq] at ha2
      obtain ⟨-, rfl⟩ := ha2
      exact Or.inr ⟨firstObj_none_iff.1 hfo, hb, hrec⟩

/-! The example model satisfies all hypotheses of C12 and C14 (column 0 of 5 cells). -/

theorem exStrata_columnOK (z : ℤ) : ColumnOK exStrata 0 0 z := by
  refine ⟨exStrata_faciesOK, ?_, ?_⟩
  · intro s hs a ha
    simp only [exStrata, List.mem_singleton] at hs
    subst hs
    simp only [List.mem_cons, List.not_mem_nil, or_false] at ha
    rcases ha with rfl | rfl <;> simp [exAE0, exAE1, Ordered]
  · intro s hs a ha hne
    simp only [exStrata, List.mem_singleton] at hs
    subst hs
    simp only [List.mem_cons, List.not_mem_nil, or_false] at ha
    rcases ha with rfl | rfl
    · by_cases h : (3 : ℤ) ≤ z
      · exact ⟨h, by simp only; omega⟩
      · exfalso; apply hne
        have h4 : ¬ (4 ≤ z) := by omega
        have h5 : ¬ (5 < z) := by omega
        simp [aeRec, firstObj, objHit, exAE0, exObj, inBg, h, h5]
    · by_cases h : (0 : ℤ) ≤ z
      · exact ⟨h, h⟩
      · exfalso; apply hne
        simp [aeRec, firstObj, objHit, exAE1, exSheet, inBg, h]

example : (∀ k : ℕ, k < 5 → ColumnOK exStrata 0 0 (2 * (k : ℤ))) ∧ Orderly exStrata (fun k => 2 * (k : ℤ)) 5 0 0 ∧
    (∀ k' : ℕ, k' < 5 → firstPlace 0 0 (2 * (k' : ℤ)) exStrata ≠ none) := by
  have hval : ∀ k : ℕ, k < 5 → firstPlace 0 0 (2 * (k : ℤ)) exStrata =
      if 2 ≤ k then some (⟨0, 0, some 0⟩, ⟨7, 0, 0, 2, some 30, some 5⟩)
      else some (⟨0, 1, some 0⟩, ⟨4, 1, 0, 3, some 0, some 0⟩) := by decide
  refine ⟨fun k _ => exStrata_columnOK _, ?_, ?_⟩
  · intro k k' q q' g g' h1 h2 hq hq'
    rw [hval k h2] at hq
    rw [hval k' (by omega)] at hq'
    unfold Place.NotAbove
    split_ifs at hq hq' <;> simp only [Option.some.injEq, Prod.mk.injEq] at hq hq' <;>
      obtain ⟨rfl, -⟩ := hq <;> obtain ⟨rfl, -⟩ := hq'
    · right; simp
    · right; simp
    · omega
    · right; simp
  · intro k' hk'
    rw [hval k' hk']
    split_ifs <;> simp

/-! Without orderliness the sweep can differ from the search from scratch: an object of the upper AE that in this column
lies below a lower AE's cell is not found any more. -/

def exOut : Obj ℤ := { zmin := 0, zmax := 3, test := fun _ _ z => if z ≤ 3 then some ⟨7, 0, some 0, some 0⟩ else none }
def exUneven : List (Stratum ℤ) :=
  [{ zmin := 0, aes :=
    [{ zmin := 0, isSheet := false, num := 0, typeId := 0, bgFacies := 1, bgAzim := some 0, bgDip := some 0,
       top := fun _ _ => 10, bottom := fun _ _ => 5, objs := [exOut] },
     { zmin := 0, isSheet := false, num := 1, typeId := 1, bgFacies := 2, bgAzim := some 0, bgDip := some 0,
       top := fun _ _ => 5, bottom := fun _ _ => 0, objs := [] }] }]

/-- **C12, need for orderliness.** Objects are ordered by descending top and reject everything below what they reject
within their range, and yet the stored facies of cell 1 (elevation 2) is 2 although the uppermost unit claiming it
is the object with facies 7. -/
theorem C12_unordered_refuted :
    ((assignPoints exUneven (fun k => 2 * (k : ℤ)) 1 1 5).at 0 0 1).facies = 2 ∧
    (firstPlace 0 0 2 exUneven).map (fun r => r.2.facies) = some 7 := by decide

/-! ### C18 -/

/-- **C18 (each column once).** The enumeration of columns used by the sweep lists every column of the grid and no other,
each exactly once. -/
theorem C18_columns (nx ny : ℕ) :
    ((List.range (nx * ny)).map fun l => (l / ny, l % ny)).Nodup ∧
    ∀ i j, (i, j) ∈ ((List.range (nx * ny)).map fun l => (l / ny, l % ny)) ↔ i < nx ∧ j < ny := by
  constructor
  · refine List.Nodup.map_on ?_ List.nodup_range
    intro l _ l' _ h
    simp only [Prod.mk.injEq] at h
    rw [← Nat.div_add_mod l ny, ← Nat.div_add_mod l' ny, h.1, h.2]
  · intro i j
    rw [List.mem_map]
    constructor
    · rintro ⟨l, hl, h⟩
      rw [List.mem_range] at hl
      simp only [Prod.mk.injEq] at h
      have hny : 0 < ny := by
        rcases Nat.eq_zero_or_pos ny with rfl | h; · simp at hl
        · exact h
      rw [← h.1, ← h.2]
      exact ⟨Nat.div_lt_of_lt_mul (by rwa [Nat.mul_comm]), Nat.mod_lt _ hny⟩
    · rintro ⟨hi, hj⟩
      refine ⟨i * ny + j, ?_, ?_⟩
      · rw [List.mem_range]
        have : (i + 1) * ny ≤ nx * ny := Nat.mul_le_mul_right _ (by omega)
        rw [Nat.add_mul] at this
        omega
      · obtain ⟨h1, h2⟩ := (divmod_unique (l := i * ny + j) hj).2 rfl
        rw [← h1, ← h2]

/-- The data of column `(i, j)` of an object, AE and stratum, as a model of its own. -/
def Obj.restrict (i j : ℕ) (o : Obj α) : Obj α := { o with test := fun _ _ z => o.test i j z }
def AE.restrict (i j : ℕ) (a : AE α) : AE α :=
  { a with top := fun _ _ => a.top i j, bottom := fun _ _ => a.bottom i j, objs := a.objs.map (Obj.restrict i j) }
def Stratum.restrict (i j : ℕ) (s : Stratum α) : Stratum α := { s with aes := s.aes.map (AE.restrict i j) }

theorem objLoop_restrict (i j x y : ℕ) (z : α) (num typeId : ℤ) (os : List (Obj α)) (oi : ℕ) (g : Geo α) :
    objLoop x y z num typeId (os.map (Obj.restrict i j)) oi g = objLoop i j z num typeId os oi g := by
  induction os generalizing oi g with
  | nil => rfl
  | cons o rest ih =>
    simp only [List.map_cons, objLoop, ih]
    rfl

theorem aeLoop_restrict (i j x y : ℕ) (z : α) (as : List (AE α)) (aei oi : ℕ) (g : Geo α) :
    aeLoop x y z (as.map (AE.restrict i j)) aei oi g = aeLoop i j z as aei oi g := by
  have hAE : ∀ (a : AE α) oi g, assignAE (a.restrict i j) x y z oi g = assignAE a i j z oi g := by
    intro a oi g
    unfold assignAE
    rw [show (a.restrict i j).objs = a.objs.map (Obj.restrict i j) from rfl, ← List.map_drop, objLoop_restrict]
    rfl
  induction as generalizing aei oi g with
  | nil => rfl
  | cons a rest ih =>
    simp only [List.map_cons, aeLoop, ih, hAE]
    rfl

theorem strataLoop_restrict (i j x y : ℕ) (z : α) (ss : List (Stratum α)) (p : Pos) (g : Geo α) :
    strataLoop x y z (ss.map (Stratum.restrict i j)) p g = strataLoop i j z ss p g := by
  have hS : ∀ (s : Stratum α) aei oi g, assignStratum (s.restrict i j) x y z aei oi g = assignStratum s i j z aei oi g := by
    intro s aei oi g
    unfold assignStratum
    rw [show (s.restrict i j).aes = s.aes.map (AE.restrict i j) from rfl, ← List.map_drop, aeLoop_restrict]
  induction ss generalizing p g with
  | nil => rfl
  | cons s rest ih =>
    simp only [List.map_cons, strataLoop, ih, hS]
    rfl

/-- **C18 (locality).** The values stored for column `(i, j)` are those of a single-column grid whose model only knows the
data of that column: nothing outside the column matters, whatever the grid size. -/
theorem C18_local [Zero α] (strata : List (Stratum α)) (gridz : ℕ → α) (nx ny nz i j k : ℕ) (hi : i < nx) (hj : j < ny) :
    (assignPoints strata gridz nx ny nz).at i j k =
      (assignPoints (strata.map (Stratum.restrict i j)) gridz 1 1 nz).at 0 0 k := by
  have hcell : ∀ z p, assignCell (strata.map (Stratum.restrict i j)) 0 0 z p = assignCell strata i j z p := by
    intro z p
    unfold assignCell
    rw [← List.map_drop, strataLoop_restrict]
  have hpos : ∀ m, posAfter (strata.map (Stratum.restrict i j)) gridz nz 0 0 m = posAfter strata gridz nz i j m := by
    intro m
    induction m with
    | zero => rfl
    | succ m ih => simp only [posAfter, ih, hcell]
  rw [assignPoints_at, assignPoints_at]
  simp only [sweepResult, hpos, hcell, hi, hj, Nat.lt_one_iff, true_and]

/-- **C18 (each cell once, from the top).** The cells of a column are visited in the order nz-1, ..., 0. -/
theorem C18_cells (nz : ℕ) : ((List.range nz).reverse).Nodup ∧ ((List.range nz).reverse).Pairwise (· > ·) ∧
    ∀ k, k ∈ (List.range nz).reverse ↔ k < nz := by
  refine ⟨List.nodup_reverse.2 List.nodup_range, ?_, by simp⟩
  rw [List.pairwise_reverse]
  exact List.pairwise_lt_range

end Hyvr
