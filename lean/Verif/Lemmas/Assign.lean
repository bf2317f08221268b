import Verif.Spec.Assign
import Mathlib.Order.Basic

/-!
Lemmas about the three search loops.
-/

set_option linter.unusedSectionVars false

namespace Hyvr

open Spec

variable {α : Type} [LinearOrder α]

/-! ### Objects -/

theorem firstObj_none_iff {xi yi : ℕ} {z : α} {os : List (Obj α)} :
    firstObj xi yi z os = none ↔ ∀ o ∈ os, objHit xi yi z o = none := by
  induction os with
  | nil => simp [firstObj]
  | cons o rest ih =>
    simp only [firstObj, List.mem_cons, forall_eq_or_imp]
    cases h : objHit xi yi z o with
    | some v => simp
    | none => simp [ih]

theorem firstObj_some {xi yi : ℕ} {z : α} {os : List (Obj α)} {k : ℕ} {h : Hit α}
    (hf : firstObj xi yi z os = some (k, h)) :
    ∃ o, os[k]? = some o ∧ objHit xi yi z o = some h ∧ ∀ k' < k, ∀ o', os[k']? = some o' → objHit xi yi z o' = none := by
  induction os generalizing k with
  | nil => simp [firstObj] at hf
  | cons o rest ih =>
    simp only [firstObj] at hf
    cases ho : objHit xi yi z o with
    | some v =>
      simp only [ho, Option.some.injEq, Prod.mk.injEq] at hf
      obtain ⟨rfl, rfl⟩ := hf
      exact ⟨o, by simp, ho, fun k' hk' => absurd hk' (Nat.not_lt_zero _)⟩
    | none =>
      simp only [ho, Option.map_eq_some_iff] at hf
      obtain ⟨⟨k1, h1⟩, hf1, he⟩ := hf
      simp only [Prod.mk.injEq] at he
      obtain ⟨rfl, rfl⟩ := he
      obtain ⟨o1, ho1, ho2, ho3⟩ := ih hf1
      refine ⟨o1, by simpa using ho1, ho2, ?_⟩
      intro k' hk' o' ho'
      cases k' with
      | zero => simp at ho'; subst ho'; exact ho
      | succ k' => exact ho3 k' (by omega) o' (by simpa using ho')

/-- The first containing object from index `oi` on is the first one overall if that is not before `oi`. -/
theorem firstObj_drop {xi yi : ℕ} {z : α} {os : List (Obj α)} {oi : ℕ}
    (h : ∀ k v, firstObj xi yi z os = some (k, v) → oi ≤ k) :
    firstObj xi yi z (os.drop oi) = (firstObj xi yi z os).map fun r => (r.1 - oi, r.2) := by
  induction os generalizing oi with
  | nil => simp [firstObj]
  | cons o rest ih =>
    cases oi with
    | zero => simp
    | succ oi =>
      rw [List.drop_succ_cons]
      cases ho : objHit xi yi z o with
      | some v =>
        have := h 0 v (by simp [firstObj, ho])
        omega
      | none =>
        have hh : ∀ k v, firstObj xi yi z rest = some (k, v) → oi ≤ k := by
          intro k v hk
          have := h (k + 1) v (by simp [firstObj, ho, hk])
          omega
        rw [ih hh]
        simp only [firstObj, ho, Option.map_map]
        congr 1
        funext r
        simp

theorem Obj.assign_reject {o : Obj α} {xi yi : ℕ} {z : α} {g : Geo α} (hg : g.facies = -1)
    (ht : o.test xi yi z = none) : o.assign xi yi z g = g := by
  unfold Obj.assign
  rw [ht]
  cases g; simp_all

/-- Record written by a hit. -/
def hitGeo (num typeId : ℤ) (h : Hit α) : Geo α :=
  { facies := h.facies, ae := num, ha := h.ha, hat := typeId, azim := h.azim, dip := h.dip }

/-- The object loop computes the first containing object, if later objects do not stick out above earlier ones. -/
theorem objLoop_eq {xi yi : ℕ} {z : α} {num typeId : ℤ} {os : List (Obj α)} {oi : ℕ} {g : Geo α}
    (hg : g.facies = -1) (hf : ∀ o ∈ os, ∀ h, o.test xi yi z = some h → h.facies ≠ -1)
    (hs : Ordered xi yi z os) :
    objLoop xi yi z num typeId os oi g =
      match firstObj xi yi z os with
      | some (k, h) => (hitGeo num typeId h,
          some (oi + k))
      | none => (g, none) := by
  induction os generalizing oi with
  | nil => simp [objLoop, firstObj]
  | cons o rest ih =>
    unfold Ordered at hs
    rw [List.pairwise_cons] at hs
    obtain ⟨hs1, hs2⟩ := hs
    have ih' := @ih (oi + 1) (fun o' ho' => hf o' (List.mem_cons_of_mem _ ho')) hs2
    have hcont : objHit xi yi z o = none →
        (match firstObj xi yi z (o :: rest) with
          | some (k, h) => (hitGeo num typeId h, some (oi + k))
          | none => (g, none)) =
        (match firstObj xi yi z rest with
          | some (k, h) => (hitGeo num typeId h, some (oi + 1 + k))
          | none => (g, none)) := by
      intro ho
      simp only [firstObj, ho]
      cases firstObj xi yi z rest with
      | none => simp
      | some r => simp; omega
    unfold objLoop
    dsimp only
    split_ifs with h1 h2 h3
    · -- z > zmax: nothing below
      have hno : objHit xi yi z o = none := by
        unfold objHit; rw [if_neg]; rintro ⟨_, h⟩; exact absurd h1 (not_lt.2 h)
      have hall : firstObj xi yi z (o :: rest) = none := by
        rw [firstObj_none_iff]
        intro o' ho'
        rcases List.mem_cons.1 ho' with rfl | hmem
        · exact hno
        · by_contra hne
          exact absurd h1 (not_lt.2 (hs1 o' hmem hne))
      rw [hall]
    · have hno : objHit xi yi z o = none := by
        unfold objHit; rw [if_neg]; rintro ⟨h, _⟩; exact absurd h2 (not_lt.2 h)
      rw [hcont hno]; exact ih'
    · -- accepted
      have hrange : o.zmin ≤ z ∧ z ≤ o.zmax := ⟨not_lt.1 h2, not_lt.1 h1⟩
      cases ht : o.test xi yi z with
      | none =>
        exact absurd (by rw [Obj.assign_reject hg ht]; exact hg) h3
      | some v =>
        have hv : objHit xi yi z o = some v := by unfold objHit; rw [if_pos hrange, ht]
        simp [firstObj, hv, Obj.assign, ht, hitGeo]
    · have hrange : o.zmin ≤ z ∧ z ≤ o.zmax := ⟨not_lt.1 h2, not_lt.1 h1⟩
      cases ht : o.test xi yi z with
      | none =>
        have hno : objHit xi yi z o = none := by unfold objHit; rw [if_pos hrange, ht]
        rw [hcont hno, Obj.assign_reject hg ht]
        exact ih'
      | some v =>
        exact absurd (hf o (List.mem_cons_self) v ht) (by simpa [Obj.assign, ht] using h3)

/-- Without any assumption on the order: the loop either changes nothing and reports nothing, or reports an object that
contains the cell. -/
theorem objLoop_cases {xi yi : ℕ} {z : α} {num typeId : ℤ} {os : List (Obj α)} {oi : ℕ} {g : Geo α}
    (hg : g.facies = -1) (hf : ∀ o ∈ os, ∀ h, o.test xi yi z = some h → h.facies ≠ -1) :
    objLoop xi yi z num typeId os oi g = (g, none) ∨
    ∃ k o h, os[k]? = some o ∧ objHit xi yi z o = some h ∧ objLoop xi yi z num typeId os oi g =
      (hitGeo num typeId h, some (oi + k)) := by
  induction os generalizing oi with
  | nil => left; simp [objLoop]
  | cons o rest ih =>
    have hf' := fun o' ho' => hf o' (List.mem_cons_of_mem o ho')
    have lift : (objLoop xi yi z num typeId rest (oi + 1) g = (g, none) ∨
        ∃ k o h, rest[k]? = some o ∧ objHit xi yi z o = some h ∧ objLoop xi yi z num typeId rest (oi + 1) g =
        (hitGeo num typeId h,
          some (oi + 1 + k))) →
        (objLoop xi yi z num typeId rest (oi + 1) g = (g, none) ∨
        ∃ k o' h, (o :: rest)[k]? = some o' ∧ objHit xi yi z o' = some h ∧ objLoop xi yi z num typeId rest (oi + 1) g =
        (hitGeo num typeId h,
          some (oi + k))) := by
      rintro (h | ⟨k, o', h, h1, h2, h3⟩)
      · exact Or.inl h
      · refine Or.inr ⟨k + 1, o', h, by simpa using h1, h2, ?_⟩
        rw [h3, show oi + (k + 1) = oi + 1 + k by omega]
    unfold objLoop
    dsimp only
    split_ifs with h1 h2 h3
    · left; rfl
    · exact lift (ih hf')
    · right
      cases ht : o.test xi yi z with
      | none => exact absurd (by rw [Obj.assign_reject hg ht]; exact hg) h3
      | some v =>
        refine ⟨0, o, v, by simp, ?_, by simp [Obj.assign, ht, hitGeo]⟩
        unfold objHit; rw [if_pos ⟨not_lt.1 h2, not_lt.1 h1⟩, ht]
    · cases ht : o.test xi yi z with
      | none => rw [Obj.assign_reject hg ht]; exact lift (ih hf')
      | some v => exact absurd (hf o (List.mem_cons_self) v ht) (by simpa [Obj.assign, ht] using h3)

/-! ### Architectural elements -/

/-- `assignAE` from object index `oi` on fresh containers, if no earlier object contains the cell. -/
theorem assignAE_eq {a : AE α} {xi yi : ℕ} {z : α} {oi : ℕ}
    (hf : ∀ o ∈ a.objs, ∀ h, o.test xi yi z = some h → h.facies ≠ -1)
    (hs : Ordered xi yi z a.objs) (hoi : ∀ k v, firstObj xi yi z a.objs = some (k, v) → oi ≤ k) :
    assignAE a xi yi z oi Geo.fresh =
      match aeRec xi yi z a with
      | some (o, g) => (g, o.getD oi)
      | none => (Geo.fresh, 0) := by
  unfold assignAE
  rw [objLoop_eq rfl (fun o ho => hf o (List.mem_of_mem_drop ho)) (hs.sublist (List.drop_sublist _ _)),
    firstObj_drop hoi]
  unfold aeRec
  cases hfo : firstObj xi yi z a.objs with
  | some r =>
    obtain ⟨k, v⟩ := r
    have := hoi k v hfo
    simp [hitGeo, hitRec, Nat.add_sub_cancel' this]
  | none =>
    by_cases hb : inBg xi yi z a
    · have hb' := hb
      obtain ⟨h1, h2⟩ := hb
      simp [h1, h2, hb', bgRec, Geo.fresh]
    · simp only [Option.map_none, if_neg hb]
      split_ifs with h1 h2
      · rfl
      · exact absurd ⟨by simpa using h1, h2⟩ hb
      · rfl

theorem firstAE_none_iff {xi yi : ℕ} {z : α} {as : List (AE α)} :
    firstAE xi yi z as = none ↔ ∀ a ∈ as, aeRec xi yi z a = none := by
  induction as with
  | nil => simp [firstAE]
  | cons o rest ih =>
    simp only [firstAE, List.mem_cons, forall_eq_or_imp]
    cases h : aeRec xi yi z o with
    | some v => simp
    | none => simp [ih]

theorem firstAE_some {xi yi : ℕ} {z : α} {as : List (AE α)} {k : ℕ} {o : Option ℕ} {g : Geo α}
    (hf : firstAE xi yi z as = some (k, o, g)) :
    ∃ a, as[k]? = some a ∧ aeRec xi yi z a = some (o, g) ∧
      ∀ k' < k, ∀ a', as[k']? = some a' → aeRec xi yi z a' = none := by
  induction as generalizing k with
  | nil => simp [firstAE] at hf
  | cons a rest ih =>
    simp only [firstAE] at hf
    cases ha : aeRec xi yi z a with
    | some v =>
      simp only [ha, Option.some.injEq, Prod.mk.injEq] at hf
      obtain ⟨rfl, rfl⟩ := hf
      exact ⟨a, by simp, by simp [ha], fun k' hk' => absurd hk' (Nat.not_lt_zero _)⟩
    | none =>
      simp only [ha, Option.map_eq_some_iff] at hf
      obtain ⟨⟨k1, h1⟩, hf1, he⟩ := hf
      simp only [Prod.mk.injEq] at he
      obtain ⟨rfl, rfl⟩ := he
      obtain ⟨a1, ha1, ha2, ha3⟩ := ih hf1
      refine ⟨a1, by simpa using ha1, ha2, ?_⟩
      intro k' hk' a' ha'
      cases k' with
      | zero => simp at ha'; subst ha'; exact ha
      | succ k' => exact ha3 k' (by omega) a' (by simpa using ha')

theorem firstAE_drop {xi yi : ℕ} {z : α} {as : List (AE α)} {n : ℕ}
    (h : ∀ k v, firstAE xi yi z as = some (k, v) → n ≤ k) :
    firstAE xi yi z (as.drop n) = (firstAE xi yi z as).map fun r => (r.1 - n, r.2) := by
  induction as generalizing n with
  | nil => simp [firstAE]
  | cons a rest ih =>
    cases n with
    | zero => simp
    | succ n =>
      rw [List.drop_succ_cons]
      cases ha : aeRec xi yi z a with
      | some v =>
        have := h 0 v (by simp [firstAE, ha])
        omega
      | none =>
        have hh : ∀ k v, firstAE xi yi z rest = some (k, v) → n ≤ k := by
          intro k v hk
          have := h (k + 1) v (by simp [firstAE, ha, hk])
          omega
        rw [ih hh]
        simp only [firstAE, ha, Option.map_map]
        congr 1
        funext r
        simp

/-- Conditions on a list of AEs under which the search does what the specification says. -/
structure AEsOK (xi yi : ℕ) (z : α) (as : List (AE α)) : Prop where
  bg : ∀ a ∈ as, a.bgFacies ≠ -1
  facies : ∀ a ∈ as, ∀ o ∈ a.objs, ∀ h, o.test xi yi z = some h → h.facies ≠ -1
  ordered : ∀ a ∈ as, Ordered xi yi z a.objs
  encl : ∀ a ∈ as, aeRec xi yi z a ≠ none → a.zmin ≤ z

theorem AEsOK.tail {xi yi : ℕ} {z : α} {a : AE α} {as : List (AE α)} (h : AEsOK xi yi z (a :: as)) :
    AEsOK xi yi z as :=
  ⟨fun a ha => h.bg a (List.mem_cons_of_mem _ ha), fun a ha => h.facies a (List.mem_cons_of_mem _ ha),
   fun a ha => h.ordered a (List.mem_cons_of_mem _ ha), fun a ha => h.encl a (List.mem_cons_of_mem _ ha)⟩

theorem AEsOK.drop {xi yi : ℕ} {z : α} {as : List (AE α)} (h : AEsOK xi yi z as) (n : ℕ) :
    AEsOK xi yi z (as.drop n) :=
  ⟨fun a ha => h.bg a (List.mem_of_mem_drop ha), fun a ha => h.facies a (List.mem_of_mem_drop ha),
   fun a ha => h.ordered a (List.mem_of_mem_drop ha), fun a ha => h.encl a (List.mem_of_mem_drop ha)⟩

theorem aeRec_facies {xi yi : ℕ} {z : α} {a : AE α} {o : Option ℕ} {g : Geo α} (hb : a.bgFacies ≠ -1)
    (hf : ∀ o ∈ a.objs, ∀ h, o.test xi yi z = some h → h.facies ≠ -1)
    (hr : aeRec xi yi z a = some (o, g)) : g.facies ≠ -1 := by
  unfold aeRec at hr
  split at hr
  · rename_i k h hfo
    cases hr
    obtain ⟨o1, ho1, ho2, -⟩ := firstObj_some hfo
    unfold objHit at ho2
    split_ifs at ho2
    exact hf o1 (List.mem_of_getElem? ho1) h ho2
  · split_ifs at hr
    cases hr
    exact hb

/-- Object index to resume from. -/
def resumeOi (oi k : ℕ) (o : Option ℕ) : ℕ := o.getD (if k = 0 then oi else 0)

theorem aeLoop_eq {xi yi : ℕ} {z : α} {as : List (AE α)} {aei oi : ℕ} (hok : AEsOK xi yi z as)
    (hoi : ∀ k g, firstAE xi yi z as = some (0, some k, g) → oi ≤ k) :
    aeLoop xi yi z as aei oi Geo.fresh =
      match firstAE xi yi z as with
      | some (k, o, g) => (g, aei + k, resumeOi oi k o)
      | none => (Geo.fresh, 0, 0) := by
  induction as generalizing aei oi with
  | nil => simp [aeLoop, firstAE, Geo.fresh]
  | cons a rest ih =>
    have key : aeRec xi yi z a = none →
        (match firstAE xi yi z (a :: rest) with
          | some (k, o, g) => (g, aei + k, resumeOi oi k o)
          | none => (Geo.fresh, 0, 0)) =
        (match firstAE xi yi z rest with
          | some (k, o, g) => (g, aei + 1 + k, resumeOi 0 k o)
          | none => (Geo.fresh, 0, 0)) := by
      intro ha
      simp only [firstAE, ha]
      cases firstAE xi yi z rest with
      | none => simp
      | some r => simp [resumeOi]; omega
    have ih' := @ih (aei + 1) 0 hok.tail (fun _ _ _ => Nat.zero_le _)
    unfold aeLoop
    by_cases hz : z < a.zmin
    · have ha : aeRec xi yi z a = none := by
        by_contra hne
        exact absurd hz (not_lt.2 (hok.encl a List.mem_cons_self hne))
      rw [if_pos hz, key ha]
      exact ih'
    · rw [if_neg hz]
      have hcond : ∀ k v, firstObj xi yi z a.objs = some (k, v) → oi ≤ k := by
        intro k v hk
        have har : aeRec xi yi z a = some (some k, hitRec a v) := by unfold aeRec; rw [hk]
        exact hoi k (hitRec a v) (by simp [firstAE, har])
      have hAE := assignAE_eq (a := a) (oi := oi) (hok.facies a List.mem_cons_self)
        (hok.ordered a List.mem_cons_self) hcond
      dsimp only
      cases har : aeRec xi yi z a with
      | none =>
        rw [har] at hAE
        rw [hAE, key har]
        simpa [Geo.fresh] using ih'
      | some r =>
        obtain ⟨o, g⟩ := r
        rw [har] at hAE
        rw [hAE]
        have hgf := aeRec_facies (hok.bg a List.mem_cons_self) (hok.facies a List.mem_cons_self) har
        simp [hgf, firstAE, har, resumeOi]

/-! ### Strata -/

/-- Remembered position `p` is not beyond place `q`. -/
def Pos.le (p : Pos) (q : Place) : Prop :=
  p.si < q.si ∨ (p.si = q.si ∧ (p.aei < q.aei ∨ (p.aei = q.aei ∧ ∀ o ∈ q.oi, p.oi ≤ o)))

structure StrataOK (xi yi : ℕ) (z : α) (strata : List (Stratum α)) : Prop where
  aes : ∀ s ∈ strata, AEsOK xi yi z s.aes
  encl : ∀ s ∈ strata, ∀ a ∈ s.aes, aeRec xi yi z a ≠ none → s.zmin ≤ z

theorem StrataOK.tail {xi yi : ℕ} {z : α} {s : Stratum α} {ss : List (Stratum α)} (h : StrataOK xi yi z (s :: ss)) :
    StrataOK xi yi z ss :=
  ⟨fun s hs => h.aes s (List.mem_cons_of_mem _ hs), fun s hs => h.encl s (List.mem_cons_of_mem _ hs)⟩

theorem StrataOK.drop {xi yi : ℕ} {z : α} {ss : List (Stratum α)} (h : StrataOK xi yi z ss) (n : ℕ) :
    StrataOK xi yi z (ss.drop n) :=
  ⟨fun s hs => h.aes s (List.mem_of_mem_drop hs), fun s hs => h.encl s (List.mem_of_mem_drop hs)⟩

theorem firstPlace_drop {xi yi : ℕ} {z : α} {ss : List (Stratum α)} {n : ℕ}
    (h : ∀ q g, firstPlace xi yi z ss = some (q, g) → n ≤ q.si) :
    firstPlace xi yi z (ss.drop n) = (firstPlace xi yi z ss).map fun r => ({ r.1 with si := r.1.si - n }, r.2) := by
  induction ss generalizing n with
  | nil => simp [firstPlace]
  | cons s rest ih =>
    cases n with
    | zero => simp
    | succ n =>
      rw [List.drop_succ_cons]
      cases hs : firstAE xi yi z s.aes with
      | some v =>
        obtain ⟨a, o, g⟩ := v
        have := h ⟨0, a, o⟩ g (by simp [firstPlace, hs])
        simp at this
      | none =>
        have hh : ∀ q g, firstPlace xi yi z rest = some (q, g) → n ≤ q.si := by
          intro q g hq
          have := h { q with si := q.si + 1 } g (by simp [firstPlace, hs, hq])
          simpa using this
        rw [ih hh]
        simp only [firstPlace, hs, Option.map_map]
        congr 1
        funext r
        simp

/-- Position after a cell was assigned to place `q`, coming from position `p` (stratum numbers relative to `p.si`). -/
def nextPos (p : Pos) (q : Place) : Pos :=
  ⟨p.si + q.si, q.aei, q.oi.getD (if q.si = 0 ∧ q.aei = p.aei then p.oi else 0)⟩

theorem strataLoop_eq {xi yi : ℕ} {z : α} {ss : List (Stratum α)} {p : Pos} (hok : StrataOK xi yi z ss)
    (hp : ∀ q g, firstPlace xi yi z ss = some (q, g) → Pos.le { p with si := 0 } q) :
    (∀ q g, firstPlace xi yi z ss = some (q, g) →
      strataLoop xi yi z ss p Geo.fresh = (some (g, p.si + q.si), nextPos p q)) ∧
    (firstPlace xi yi z ss = none → (strataLoop xi yi z ss p Geo.fresh).1 = none) := by
  induction ss generalizing p with
  | nil => simp [firstPlace, strataLoop]
  | cons s rest ih =>
    -- going on to the next stratum
    have key : firstAE xi yi z s.aes = none →
        (∀ q g, firstPlace xi yi z (s :: rest) = some (q, g) →
          strataLoop xi yi z rest ⟨p.si + 1, 0, 0⟩ Geo.fresh = (some (g, p.si + q.si), nextPos p q)) ∧
        (firstPlace xi yi z (s :: rest) = none →
          (strataLoop xi yi z rest ⟨p.si + 1, 0, 0⟩ Geo.fresh).1 = none) := by
      intro hs
      have ih' := @ih ⟨p.si + 1, 0, 0⟩ hok.tail (by
        intro q g _
        unfold Pos.le
        simp only
        rcases Nat.eq_zero_or_pos q.si with h | h
        · refine Or.inr ⟨h.symm, ?_⟩
          rcases Nat.eq_zero_or_pos q.aei with h' | h'
          · exact Or.inr ⟨h'.symm, fun o _ => Nat.zero_le o⟩
          · exact Or.inl h'
        · exact Or.inl h)
      constructor
      · intro q g hq
        simp only [firstPlace, hs, Option.map_eq_some_iff] at hq
        obtain ⟨⟨q1, g1⟩, hq1, he⟩ := hq
        simp only [Prod.mk.injEq] at he
        obtain ⟨rfl, rfl⟩ := he
        rw [ih'.1 q1 g1 hq1]
        simp only [nextPos, Prod.mk.injEq, Option.some.injEq]
        refine ⟨⟨trivial, by omega⟩, ?_⟩
        simp only [Pos.mk.injEq]
        refine ⟨by omega, trivial, ?_⟩
        cases q1.oi <;> simp
      · intro hn
        simp only [firstPlace, hs, Option.map_eq_none_iff] at hn
        exact ih'.2 hn
    unfold strataLoop
    dsimp only
    by_cases hz : z < s.zmin
    · have hs : firstAE xi yi z s.aes = none := by
        rw [firstAE_none_iff]
        intro a ha
        by_contra hne
        exact absurd hz (not_lt.2 (hok.encl s List.mem_cons_self a ha hne))
      simp only [if_pos hz]
      exact key hs
    · simp only [if_neg hz]
      have haok := hok.aes s List.mem_cons_self
      -- the remembered AE index is not beyond the first claiming AE
      have hle : ∀ k v, firstAE xi yi z s.aes = some (k, v) → p.aei ≤ k := by
        rintro k ⟨o, g⟩ hk
        have := hp ⟨0, k, o⟩ g (by simp [firstPlace, hk])
        simp only [Pos.le, Nat.lt_irrefl, false_or, true_and] at this
        rcases this with h | h
        · exact h.le
        · exact h.1.le
      have hdrop := firstAE_drop (n := p.aei) hle
      have hoi : ∀ k g, firstAE xi yi z (s.aes.drop p.aei) = some (0, some k, g) → p.oi ≤ k := by
        intro k g hk
        rw [hdrop, Option.map_eq_some_iff] at hk
        obtain ⟨⟨k1, o1, g1⟩, hk1, he⟩ := hk
        simp only [Prod.mk.injEq] at he
        obtain ⟨h0, rfl, rfl⟩ := he
        have h1 := hle k1 _ hk1
        have := hp ⟨0, k1, some k⟩ g1 (by simp [firstPlace, hk1])
        simp only [Pos.le, Nat.lt_irrefl, false_or, true_and] at this
        rcases this with h | h
        · omega
        · exact h.2 k rfl
      have hL := aeLoop_eq (aei := p.aei) (oi := p.oi) (haok.drop p.aei) hoi
      unfold assignStratum
      rw [hL, hdrop]
      cases hs : firstAE xi yi z s.aes with
      | none =>
        simpa [Geo.fresh] using key hs
      | some r =>
        obtain ⟨k, o, g⟩ := r
        obtain ⟨a, ha1, ha2, -⟩ := firstAE_some hs
        have ham := List.mem_of_getElem? ha1
        have hgf := aeRec_facies (haok.bg a ham) (haok.facies a ham) ha2
        have hk := hle k _ hs
        constructor
        · intro q g' hq
          simp only [firstPlace, hs, Option.some.injEq, Prod.mk.injEq] at hq
          obtain ⟨rfl, rfl⟩ := hq
          simp only [Option.map_some, hgf, ne_eq, not_false_eq_true, if_true, nextPos, Nat.add_zero, Prod.mk.injEq,
            true_and, Pos.mk.injEq, resumeOi]
          refine ⟨by omega, ?_⟩
          congr 1
          have : (k - p.aei = 0) ↔ k = p.aei := by omega
          simp [this]
        · intro hn
          simp [firstPlace, hs] at hn

/-- One cell: if the remembered position is not beyond the first claiming unit, exactly that unit is found. -/
theorem assignCell_eq {strata : List (Stratum α)} {xi yi : ℕ} {z : α} {p : Pos} (hok : StrataOK xi yi z strata)
    (hp : ∀ q g, firstPlace xi yi z strata = some (q, g) → Pos.le p q) :
    (∀ q g, firstPlace xi yi z strata = some (q, g) →
      assignCell strata xi yi z p = (some (g, q.si), ⟨q.si, q.aei,
        q.oi.getD (if q.si = p.si ∧ q.aei = p.aei then p.oi else 0)⟩)) ∧
    (firstPlace xi yi z strata = none → (assignCell strata xi yi z p).1 = none) := by
  have hsi : ∀ q g, firstPlace xi yi z strata = some (q, g) → p.si ≤ q.si := by
    intro q g hq
    rcases hp q g hq with h | h
    · exact h.le
    · exact h.1.le
  have hdrop := firstPlace_drop (n := p.si) hsi
  have := strataLoop_eq (p := p) (hok.drop p.si) (by
    intro q g hq
    rw [hdrop, Option.map_eq_some_iff] at hq
    obtain ⟨⟨q1, g1⟩, hq1, he⟩ := hq
    simp only [Prod.mk.injEq] at he
    obtain ⟨rfl, rfl⟩ := he
    have h1 := hp q1 g1 hq1
    unfold Pos.le at h1 ⊢
    simp only
    rcases h1 with h | h
    · left; omega
    · right; exact ⟨by omega, h.2⟩)
  unfold assignCell
  constructor
  · intro q g hq
    have h1 := hsi q g hq
    have h2 := this.1 { q with si := q.si - p.si } g (by rw [hdrop, hq]; rfl)
    rw [h2]
    simp only [nextPos, Nat.add_sub_cancel' h1, Prod.mk.injEq, true_and, Pos.mk.injEq]
    congr 1
    have : (q.si - p.si = 0) ↔ q.si = p.si := by omega
    simp [this]
  · intro hq
    exact this.2 (by rw [hdrop, hq]; rfl)

end Hyvr
