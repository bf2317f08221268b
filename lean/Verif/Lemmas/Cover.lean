import Verif.Lemmas.Sweep

/-!
The sweep finds a unit for every cell lying inside some AE, as long as this was so for all cells above.
-/

set_option linter.unusedSectionVars false

namespace Hyvr

open Spec

variable {α : Type} [LinearOrder α]

/-- The cell lies inside the AE: strictly between the surfaces, or between or on them for a sheet AE. -/
def InsideAE (xi yi : ℕ) (z : α) (a : AE α) : Prop :=
  (a.isSheet = false ∧ a.bottom xi yi < z ∧ z < a.top xi yi) ∨
  (a.isSheet = true ∧ a.bottom xi yi ≤ z ∧ z ≤ a.top xi yi)

/-- Stacked intervals seen through the object tests. -/
def ObjChain (i j : ℕ) (bot : α) : α → List (Obj α) → Prop
  | _, [] => False
  | t, o :: rest => ∃ b, (∀ z, o.test i j z ≠ none ↔ b ≤ z ∧ z ≤ t) ∧ o.zmin ≤ b ∧ t ≤ o.zmax ∧
      ((rest = [] ∧ b = bot) ∨ (bot ≤ t ∧ b ≤ t ∧ ObjChain i j bot b rest))

/-- The object loop reaches a containing object. -/
def Reaches (xi yi : ℕ) (z : α) : List (Obj α) → Prop
  | [] => False
  | o :: rest => objHit xi yi z o ≠ none ∨ (z ≤ o.zmax ∧ Reaches xi yi z rest)

theorem objHit_ne_none {xi yi : ℕ} {z : α} {o : Obj α} :
    objHit xi yi z o ≠ none ↔ o.zmin ≤ z ∧ z ≤ o.zmax ∧ o.test xi yi z ≠ none := by
  unfold objHit
  split_ifs with h
  · simp [h.1, h.2]
  · simp only [ne_eq, not_true_eq_false, false_iff]
    rintro ⟨h1, h2, -⟩
    exact h ⟨h1, h2⟩

theorem ObjChain.reaches {i j : ℕ} {bot t z : α} {os : List (Obj α)} (h : ObjChain i j bot t os) (h1 : bot ≤ z) (h2 : z ≤ t) :
    Reaches i j z os := by
  induction os generalizing t with
  | nil => exact h.elim
  | cons o rest ih =>
    obtain ⟨b, hb, hmin, hmax, hc⟩ := h
    by_cases hbz : b ≤ z
    · left
      rw [objHit_ne_none]
      exact ⟨hmin.trans hbz, h2.trans hmax, (hb z).2 ⟨hbz, h2⟩⟩
    · right
      refine ⟨h2.trans hmax, ?_⟩
      rcases hc with ⟨-, rfl⟩ | ⟨-, -, hc⟩
      · exact absurd h1 hbz
      · exact ih hc (not_le.1 hbz).le

theorem ObjChain.drop {i j : ℕ} {bot t z : α} {os : List (Obj α)} (h : ObjChain i j bot t os) {oi : ℕ} {o : Obj α}
    (ho : os[oi]? = some o) (hz : o.test i j z ≠ none) : ∃ t', ObjChain i j bot t' (os.drop oi) ∧ z ≤ t' := by
  induction os generalizing t oi with
  | nil => exact h.elim
  | cons o' rest ih =>
    cases oi with
    | zero =>
      simp only [List.getElem?_cons_zero, Option.some.injEq] at ho
      subst ho
      refine ⟨t, h, ?_⟩
      obtain ⟨b, hb, -⟩ := h
      exact ((hb z).1 hz).2
    | succ oi =>
      obtain ⟨b, hb, hmin, hmax, hc⟩ := h
      simp only [List.getElem?_cons_succ] at ho
      rcases hc with ⟨rfl, -⟩ | ⟨-, -, hc⟩
      · simp at ho
      · obtain ⟨t', h1, h2⟩ := ih hc ho
        exact ⟨t', by simpa using h1, h2⟩

theorem objLoop_reaches {xi yi : ℕ} {z : α} {num typeId : ℤ} {os : List (Obj α)} {oi : ℕ} {g : Geo α} (hg : g.facies = -1)
    (hf : ∀ o ∈ os, ∀ h, o.test xi yi z = some h → h.facies ≠ -1) (hr : Reaches xi yi z os) :
    (objLoop xi yi z num typeId os oi g).2 ≠ none ∧ (objLoop xi yi z num typeId os oi g).1.facies ≠ -1 := by
  induction os generalizing oi with
  | nil => exact hr.elim
  | cons o rest ih =>
    have hf' : ∀ o ∈ rest, ∀ h, o.test xi yi z = some h → h.facies ≠ -1 :=
      fun o' ho' => hf o' (List.mem_cons_of_mem _ ho')
    have hle : z ≤ o.zmax := by
      rcases hr with hr | hr
      · exact (objHit_ne_none.1 hr).2.1
      · exact hr.1
    unfold objLoop
    dsimp only
    split_ifs with h1 h2 h3
    · exact absurd h1 (not_lt.2 hle)
    · rcases hr with hr | hr
      · exact absurd h2 (not_lt.2 (objHit_ne_none.1 hr).1)
      · exact ih hf' hr.2
    · exact ⟨by simp, h3⟩
    · rcases hr with hr | hr
      · have ht := (objHit_ne_none.1 hr).2.2
        obtain ⟨v, hv⟩ := Option.ne_none_iff_exists'.1 ht
        exact absurd (hf o List.mem_cons_self v hv) (by
          simp only [Obj.assign, hv, not_not] at h3
          simpa using h3)
      · have hg' : (o.assign xi yi z g).facies = -1 := not_not.1 h3
        have hgg : o.assign xi yi z g = g := by
          cases ht : o.test xi yi z with
          | none => exact Obj.assign_reject hg ht
          | some v =>
            simp only [Obj.assign, ht] at hg'
            exact absurd hg' (hf o List.mem_cons_self v ht)
        rw [hgg]
        exact ih hf' hr.2

/-- An AE containing the cell answers, from any remembered object from which a sheet can be reached. -/
theorem assignAE_inside {a : AE α} {xi yi : ℕ} {z : α} {oi : ℕ} (hb : a.bgFacies ≠ -1)
    (hf : ∀ o ∈ a.objs, ∀ h, o.test xi yi z = some h → h.facies ≠ -1) (hin : InsideAE xi yi z a)
    (hs : a.isSheet = true → Reaches xi yi z (a.objs.drop oi)) :
    (assignAE a xi yi z oi Geo.fresh).1.facies ≠ -1 := by
  have hf' : ∀ o ∈ a.objs.drop oi, ∀ h, o.test xi yi z = some h → h.facies ≠ -1 :=
    fun o ho => hf o (List.mem_of_mem_drop ho)
  unfold assignAE
  rcases hin with ⟨h1, h2, h3⟩ | ⟨h1, h2, h3⟩
  · rcases ho : objLoop xi yi z a.num a.typeId (a.objs.drop oi) oi Geo.fresh with ⟨g', r⟩
    cases r with
    | none => simp only [h1, Bool.false_eq_true, if_false, if_pos (And.intro h2 h3)]; exact hb
    | some k =>
      have := @objLoop_cases α _ xi yi z a.num a.typeId (a.objs.drop oi) oi Geo.fresh rfl hf'
      rw [ho] at this
      simp only at this ⊢
      rcases this with h | ⟨k', o, h, hk1, hk2, h4⟩
      · simp at h
      · simp only [Prod.mk.injEq] at h4
        rw [h4.1]
        unfold objHit at hk2
        split_ifs at hk2
        exact hf' o (List.mem_of_getElem? hk1) h hk2
  · obtain ⟨r1, r2⟩ := @objLoop_reaches α _ xi yi z a.num a.typeId (a.objs.drop oi) oi Geo.fresh rfl hf' (hs h1)
    rcases ho : objLoop xi yi z a.num a.typeId (a.objs.drop oi) oi Geo.fresh with ⟨g', r⟩
    rw [ho] at r1 r2
    cases r with
    | none => exact absurd rfl r1
    | some k => exact r2

/-- A rejecting AE leaves the containers as they were. -/
theorem assignAE_fresh {a : AE α} {xi yi : ℕ} {z : α} {oi : ℕ} (hb : a.bgFacies ≠ -1)
    (hf : ∀ o ∈ a.objs, ∀ h, o.test xi yi z = some h → h.facies ≠ -1)
    (h : (assignAE a xi yi z oi Geo.fresh).1.facies = -1) : (assignAE a xi yi z oi Geo.fresh).1 = Geo.fresh := by
  have hf' : ∀ o ∈ a.objs.drop oi, ∀ h, o.test xi yi z = some h → h.facies ≠ -1 :=
    fun o ho => hf o (List.mem_of_mem_drop ho)
  unfold assignAE at h ⊢
  rcases @objLoop_cases α _ xi yi z a.num a.typeId (a.objs.drop oi) oi Geo.fresh rfl hf' with ho | ⟨k, o, v, hk1, hk2, ho⟩
  · rw [ho] at h ⊢
    simp only at h ⊢
    split_ifs at h ⊢
    · rfl
    · exact absurd h hb
    · rfl
  · rw [ho] at h
    unfold objHit at hk2
    split_ifs at hk2
    exact absurd h (hf' o (List.mem_of_getElem? hk1) v hk2)

theorem aeLoop_inside {xi yi : ℕ} {z : α} {as : List (AE α)} {aei oi : ℕ}
    (hb : ∀ a ∈ as, a.bgFacies ≠ -1) (hf : ∀ a ∈ as, ∀ o ∈ a.objs, ∀ h, o.test xi yi z = some h → h.facies ≠ -1)
    {k : ℕ} {a : AE α} (hk : as[k]? = some a) (hin : InsideAE xi yi z a) (hz : a.zmin ≤ z)
    (hs : a.isSheet = true → Reaches xi yi z (a.objs.drop (if k = 0 then oi else 0))) :
    (aeLoop xi yi z as aei oi Geo.fresh).1.facies ≠ -1 ∧ (aeLoop xi yi z as aei oi Geo.fresh).2.1 ≤ aei + k := by
  induction as generalizing aei oi k with
  | nil => simp at hk
  | cons a' rest ih =>
    have hb' : ∀ a ∈ rest, a.bgFacies ≠ -1 := fun a ha => hb a (List.mem_cons_of_mem _ ha)
    have hf' : ∀ a ∈ rest, ∀ o ∈ a.objs, ∀ h, o.test xi yi z = some h → h.facies ≠ -1 :=
      fun a ha => hf a (List.mem_cons_of_mem _ ha)
    have next : 0 < k → (aeLoop xi yi z rest (aei + 1) 0 Geo.fresh).1.facies ≠ -1 ∧
        (aeLoop xi yi z rest (aei + 1) 0 Geo.fresh).2.1 ≤ aei + k := by
      intro hpos
      obtain ⟨k, rfl⟩ : ∃ k', k = k' + 1 := ⟨k - 1, by omega⟩
      simp only [List.getElem?_cons_succ] at hk
      have := @ih (aei + 1) 0 hb' hf' k hk (by
        intro hsh
        have := hs hsh
        simpa using this)
      exact ⟨this.1, by omega⟩
    unfold aeLoop
    dsimp only
    split_ifs with h1 h2
    · rcases Nat.eq_zero_or_pos k with rfl | hpos
      · simp only [List.getElem?_cons_zero, Option.some.injEq] at hk
        subst hk
        exact absurd h1 (not_lt.2 hz)
      · exact next hpos
    · exact ⟨h2, Nat.le_add_right _ _⟩
    · have hrej := not_not.1 h2
      rcases Nat.eq_zero_or_pos k with rfl | hpos
      · simp only [List.getElem?_cons_zero, Option.some.injEq] at hk
        subst hk
        exact absurd hrej (assignAE_inside (hb a' List.mem_cons_self) (hf a' List.mem_cons_self) hin
          (by simpa using hs))
      · rw [assignAE_fresh (hb a' List.mem_cons_self) (hf a' List.mem_cons_self) hrej]
        exact next hpos

theorem aeLoop_fresh {xi yi : ℕ} {z : α} {as : List (AE α)} {aei oi : ℕ}
    (hb : ∀ a ∈ as, a.bgFacies ≠ -1) (hf : ∀ a ∈ as, ∀ o ∈ a.objs, ∀ h, o.test xi yi z = some h → h.facies ≠ -1)
    (h : (aeLoop xi yi z as aei oi Geo.fresh).1.facies = -1) : (aeLoop xi yi z as aei oi Geo.fresh).1 = Geo.fresh := by
  induction as generalizing aei oi with
  | nil => rfl
  | cons a' rest ih =>
    have ih' : ∀ aei oi, _ := fun aei oi => @ih aei oi (fun a ha => hb a (List.mem_cons_of_mem _ ha))
      (fun a ha => hf a (List.mem_cons_of_mem _ ha))
    unfold aeLoop at h ⊢
    dsimp only at h ⊢
    split_ifs at h ⊢ with h1 h2
    · exact ih' _ _ h
    · exact absurd h h2
    · rw [assignAE_fresh (hb a' List.mem_cons_self) (hf a' List.mem_cons_self) (not_not.1 h2)] at h ⊢
      exact ih' _ _ h

theorem strataLoop_inside {xi yi : ℕ} {z : α} {ss : List (Stratum α)} {p : Pos}
    (hb : ∀ s ∈ ss, ∀ a ∈ s.aes, a.bgFacies ≠ -1)
    (hf : ∀ s ∈ ss, ∀ a ∈ s.aes, ∀ o ∈ a.objs, ∀ h, o.test xi yi z = some h → h.facies ≠ -1)
    {k m : ℕ} {s : Stratum α} {a : AE α} (hk : ss[k]? = some s) (hm : s.aes[m]? = some a)
    (hin : InsideAE xi yi z a) (hz : a.zmin ≤ z) (hzs : s.zmin ≤ z) (hle : k = 0 → p.aei ≤ m)
    (hs : a.isSheet = true → Reaches xi yi z (a.objs.drop (if k = 0 ∧ m = p.aei then p.oi else 0))) :
    (strataLoop xi yi z ss p Geo.fresh).1 ≠ none ∧
      (strataLoop xi yi z ss p Geo.fresh).2.sle ⟨p.si + k, m, 0⟩ := by
  induction ss generalizing p k with
  | nil => simp at hk
  | cons s' rest ih =>
    have hb' : ∀ s ∈ rest, ∀ a ∈ s.aes, a.bgFacies ≠ -1 := fun s hs => hb s (List.mem_cons_of_mem _ hs)
    have hf' : ∀ s ∈ rest, ∀ a ∈ s.aes, ∀ o ∈ a.objs, ∀ h, o.test xi yi z = some h → h.facies ≠ -1 :=
      fun s hs => hf s (List.mem_cons_of_mem _ hs)
    have next : 0 < k → (strataLoop xi yi z rest ⟨p.si + 1, 0, 0⟩ Geo.fresh).1 ≠ none ∧
        (strataLoop xi yi z rest ⟨p.si + 1, 0, 0⟩ Geo.fresh).2.sle ⟨p.si + k, m, 0⟩ := by
      intro hpos
      obtain ⟨k, rfl⟩ : ∃ k', k = k' + 1 := ⟨k - 1, by omega⟩
      simp only [List.getElem?_cons_succ] at hk
      have := @ih ⟨p.si + 1, 0, 0⟩ hb' hf' k hk (fun _ => Nat.zero_le _) (by
        intro hsh
        have := hs hsh
        simp only [Nat.add_eq_zero_iff, one_ne_zero, and_false, false_and, if_false] at this
        split_ifs <;> exact this)
      refine ⟨this.1, ?_⟩
      have h2 := this.2
      unfold Pos.sle at h2 ⊢
      simp only at h2 ⊢
      omega
    have hbd : ∀ n, ∀ a ∈ s'.aes.drop n, a.bgFacies ≠ -1 :=
      fun n a ha => hb s' List.mem_cons_self a (List.mem_of_mem_drop ha)
    have hfd : ∀ n, ∀ a ∈ s'.aes.drop n, ∀ o ∈ a.objs, ∀ h, o.test xi yi z = some h → h.facies ≠ -1 :=
      fun n a ha => hf s' List.mem_cons_self a (List.mem_of_mem_drop ha)
    have here : k = 0 → (assignStratum s' xi yi z p.aei p.oi Geo.fresh).1.facies ≠ -1 ∧
        (assignStratum s' xi yi z p.aei p.oi Geo.fresh).2.1 ≤ m := by
      rintro rfl
      simp only [List.getElem?_cons_zero, Option.some.injEq] at hk
      subst hk
      have hpm := hle rfl
      have := @aeLoop_inside α _ xi yi z (s'.aes.drop p.aei) p.aei p.oi (hbd _) (hfd _) (m - p.aei) a
        (by rw [List.getElem?_drop, show p.aei + (m - p.aei) = m by omega]; exact hm) hin hz (by
          intro hsh
          have := hs hsh
          by_cases hmp : m = p.aei
          · rw [if_pos ⟨rfl, hmp⟩] at this
            rw [if_pos (by omega)]; exact this
          · rw [if_neg (fun h => hmp h.2)] at this
            rw [if_neg (by omega)]; exact this)
      exact ⟨this.1, by unfold assignStratum; omega⟩
    unfold strataLoop
    dsimp only
    split_ifs with h1 h2
    · rcases Nat.eq_zero_or_pos k with rfl | hpos
      · simp only [List.getElem?_cons_zero, Option.some.injEq] at hk
        subst hk
        exact absurd h1 (not_lt.2 hzs)
      · exact next hpos
    · refine ⟨by simp, ?_⟩
      rcases Nat.eq_zero_or_pos k with rfl | hpos
      · exact Or.inr ⟨rfl, (here rfl).2⟩
      · exact Or.inl (by simp only; omega)
    · have hrej := not_not.1 h2
      rcases Nat.eq_zero_or_pos k with rfl | hpos
      · exact absurd hrej (here rfl).1
      · have : (assignStratum s' xi yi z p.aei p.oi Geo.fresh).1 = Geo.fresh :=
          aeLoop_fresh (hbd _) (hfd _) hrej
        rw [this]
        exact next hpos

/-- A cell inside an AE is found if the remembered position is not beyond that AE (and, in a sheet AE, a containing
sheet can be reached from the remembered sheet). The new position is again not beyond that AE. -/
theorem assignCell_inside {strata : List (Stratum α)} (hok : FaciesOK strata) {xi yi : ℕ} {z : α} {p : Pos}
    {si m : ℕ} {s : Stratum α} {a : AE α} (hsi : strata[si]? = some s) (hm : s.aes[m]? = some a)
    (hin : InsideAE xi yi z a) (hz : a.zmin ≤ z) (hzs : s.zmin ≤ z) (hle : p.sle ⟨si, m, 0⟩)
    (hs : a.isSheet = true → Reaches xi yi z (a.objs.drop (if si = p.si ∧ m = p.aei then p.oi else 0))) :
    (assignCell strata xi yi z p).1 ≠ none ∧ (assignCell strata xi yi z p).2.sle ⟨si, m, 0⟩ := by
  unfold assignCell
  have hpsi : p.si ≤ si := by unfold Pos.sle at hle; simp only at hle; omega
  have := @strataLoop_inside α _ xi yi z (strata.drop p.si) p
    (fun s hs a ha => (hok s (List.mem_of_mem_drop hs) a ha).1)
    (fun s hs a ha o ho h hh => (hok s (List.mem_of_mem_drop hs) a ha).2 o ho xi yi z h hh) (si - p.si) m s a
    (by rw [List.getElem?_drop, show p.si + (si - p.si) = si by omega]; exact hsi) hm hin hz hzs
    (by intro h0; unfold Pos.sle at hle; simp only at hle; omega)
    (by
      intro hsh
      have h1 := hs hsh
      by_cases hc : si = p.si ∧ m = p.aei
      · rw [if_pos hc] at h1
        rw [if_pos ⟨by omega, hc.2⟩]; exact h1
      · rw [if_neg hc] at h1
        rw [if_neg (fun h => hc ⟨by omega, h.2⟩)]; exact h1)
  rw [show p.si + (si - p.si) = si by omega] at this
  exact this

/-- Facts about one column of a model, as generation establishes them. -/
structure ColTiled (strata : List (Stratum α)) (xi yi : ℕ) : Prop where
  facies : FaciesOK strata
  /-- a later AE is not above an earlier one -/
  order : ∀ (si m : ℕ) (s : Stratum α) (a : AE α), strata[si]? = some s → s.aes[m]? = some a →
    ∀ (si' m' : ℕ) (s' : Stratum α) (a' : AE α), strata[si']? = some s' →
    s'.aes[m']? = some a' → (si < si' ∨ (si = si' ∧ m < m')) → a'.top xi yi ≤ a.bottom xi yi
  /-- reported minima enclose AEs -/
  zmin : ∀ s ∈ strata, ∀ a ∈ s.aes, s.zmin ≤ a.zmin ∧ a.zmin ≤ a.bottom xi yi
  chain : ∀ s ∈ strata, ∀ a ∈ s.aes, a.isSheet = true → ObjChain xi yi (a.bottom xi yi) (a.top xi yi) a.objs

theorem InsideAE.bounds {xi yi : ℕ} {z : α} {a : AE α} (h : InsideAE xi yi z a) : a.bottom xi yi ≤ z ∧ z ≤ a.top xi yi := by
  rcases h with ⟨-, h1, h2⟩ | ⟨-, h1, h2⟩
  · exact ⟨h1.le, h2.le⟩
  · exact ⟨h1, h2⟩

/-- If all cells of a column from `nz-1` down to `k` lie inside AEs, they are all found. -/
theorem sweep_inside {strata : List (Stratum α)} {xi yi : ℕ} (hc : ColTiled strata xi yi) {gridz : ℕ → α} {nz : ℕ}
    (hmono : ∀ k k', k' < k → k < nz → gridz k' < gridz k) (k : ℕ) (hk : k < nz)
    (hin : ∀ k', k ≤ k' → k' < nz → ∃ s ∈ strata, ∃ a ∈ s.aes, InsideAE xi yi (gridz k') a) :
    sweepResult strata gridz nz xi yi k ≠ none := by
  -- invariant after the uppermost `t` cells
  have key : ∀ t, t ≤ nz - 1 - k → ∀ k', k ≤ k' → k' ≤ nz - 1 - t → k' < nz → ∀ si m s a, strata[si]? = some s →
      s.aes[m]? = some a → InsideAE xi yi (gridz k') a →
      (posAfter strata gridz nz xi yi t).sle ⟨si, m, 0⟩ ∧
      (a.isSheet = true → Reaches xi yi (gridz k')
        (a.objs.drop (if si = (posAfter strata gridz nz xi yi t).si ∧ m = (posAfter strata gridz nz xi yi t).aei
          then (posAfter strata gridz nz xi yi t).oi else 0))) := by
    intro t
    induction t with
    | zero =>
      intro _ k' _ _ _ si m s a hsi hm hia
      constructor
      · unfold posAfter Pos.sle; simp only; omega
      · intro hsh
        have hr := (hc.chain s (List.mem_of_getElem? hsi) a (List.mem_of_getElem? hm) hsh).reaches hia.bounds.1 hia.bounds.2
        have h0 : posAfter strata gridz nz xi yi 0 = ⟨0, 0, 0⟩ := rfl
        rw [h0]
        split_ifs <;> simpa using hr
    | succ t ih =>
      intro ht k' hkk' hk't hk'n si m s a hsi hm hia
      -- the cell just processed
      have hc0lt : nz - 1 - t < nz := by omega
      obtain ⟨s0, hs0, a0, ha0, hin0⟩ := hin (nz - 1 - t) (by omega) hc0lt
      obtain ⟨si0, hsi0⟩ := List.mem_iff_getElem?.1 hs0
      obtain ⟨m0, hm0⟩ := List.mem_iff_getElem?.1 ha0
      obtain ⟨i1, i2⟩ := ih (by omega) (nz - 1 - t) (by omega) (by omega) hc0lt si0 m0 s0 a0 hsi0 hm0 hin0
      have hzm := hc.zmin s0 hs0 a0 ha0
      obtain ⟨hne, hsle⟩ := assignCell_inside hc.facies hsi0 hm0 hin0 (hzm.2.trans hin0.bounds.1)
        ((hzm.1.trans hzm.2).trans hin0.bounds.1) i1 i2
      have hpos : posAfter strata gridz nz xi yi (t + 1) =
          (assignCell strata xi yi (gridz (nz - 1 - t)) (posAfter strata gridz nz xi yi t)).2 := rfl
      rw [← hpos] at hsle
      have hlt := hmono (nz - 1 - t) k' (by omega) hc0lt
      -- the AE of the lower cell is not before the AE of the upper cell
      have hord : si0 < si ∨ (si0 = si ∧ m0 ≤ m) := by
        by_contra hno
        have hb : si < si0 ∨ (si = si0 ∧ m < m0) := by omega
        have h1 := hc.order si m s a hsi hm si0 m0 s0 a0 hsi0 hm0 hb
        exact absurd (hlt.trans_le (hin0.bounds.2.trans (h1.trans hia.bounds.1))) (lt_irrefl _)
      refine ⟨Pos.sle_trans hsle ?_, ?_⟩
      · unfold Pos.sle; simp only; omega
      · intro hsh
        have hchain := hc.chain s (List.mem_of_getElem? hsi) a (List.mem_of_getElem? hm) hsh
        by_cases hsame : si = (posAfter strata gridz nz xi yi (t + 1)).si ∧
            m = (posAfter strata gridz nz xi yi (t + 1)).aei
        · rw [if_pos hsame]
          obtain ⟨⟨g, si'⟩, hfound⟩ := Option.ne_none_iff_exists'.1 hne
          obtain ⟨s', a', f1, f2, f3⟩ := assignCell_found hc.facies hfound
          have hsi' := (assignCell_mono.2.1 g si' hfound).1
          rw [← hpos] at f2 f3 hsi'
          rw [← hsi', ← hsame.1, hsi] at f1
          cases f1
          rw [← hsame.2, hm] at f2
          cases f2
          rcases f3 with ⟨o, v, ho1, ho2, -⟩ | ⟨hbg, -⟩
          · have ht' : o.test xi yi (gridz (nz - 1 - t)) ≠ none :=
              (objHit_ne_none.1 (by rw [ho2]; simp)).2.2
            obtain ⟨t', c1, c2⟩ := hchain.drop ho1 ht'
            exact c1.reaches hia.bounds.1 (hlt.le.trans c2)
          · exact absurd hbg.1 (by simp [hsh])
        · rw [if_neg hsame]
          exact hchain.reaches hia.bounds.1 hia.bounds.2
  obtain ⟨s, hs, a, ha, hia⟩ := hin k le_rfl hk
  obtain ⟨si, hsi⟩ := List.mem_iff_getElem?.1 hs
  obtain ⟨m, hm⟩ := List.mem_iff_getElem?.1 ha
  obtain ⟨i1, i2⟩ := key (nz - 1 - k) le_rfl k le_rfl (by omega) hk si m s a hsi hm hia
  have hzm := hc.zmin s hs a ha
  exact (assignCell_inside hc.facies hsi hm hia (hzm.2.trans hia.bounds.1)
    ((hzm.1.trans hzm.2).trans hia.bounds.1) i1 i2).1

end Hyvr
