import Verif.Lemmas.Cached

/-!
The search with the arrays `dont_check` of the objects is a search in which some tests are skipped (C114).
-/

namespace Hyvr

open Py Spec

section Search

variable {α : Type} [LinearOrder α]

/-- Which tests are skipped: stratum, AE, object, column, elevation. -/
abbrev Skips (α : Type) := ℕ → ℕ → ℕ → ℕ → ℕ → α → Bool

def Obj.skipping (σ : ℕ → ℕ → α → Bool) (o : Obj α) : Obj α := { o with test := fun i j z => if σ i j z then none else o.test i j z }

def AE.skipping (σ : ℕ → ℕ → ℕ → α → Bool) (a : AE α) : AE α := { a with objs := a.objs.mapIdx fun oi o => o.skipping (σ oi) }

def Stratum.skipping (σ : ℕ → ℕ → ℕ → ℕ → α → Bool) (s : Stratum α) : Stratum α := { s with aes := s.aes.mapIdx fun n a => a.skipping (σ n) }

/-- The strata with the tests skipped. -/
def skipping (σ : Skips α) (strata : List (Stratum α)) : List (Stratum α) := strata.mapIdx fun si s => s.skipping (σ si)

theorem mapIdx_drop {β γ : Type} (f : ℕ → β → γ) (l : List β) (n : ℕ) : (l.mapIdx f).drop n = (l.drop n).mapIdx fun i => f (n + i) := by
  apply List.ext_getElem?
  intro i
  simp [List.getElem?_drop, List.getElem?_mapIdx]

theorem Obj.skipping_assign {σ : ℕ → ℕ → α → Bool} {o : Obj α} {k : Cache} {xi yi : ℕ} {z : α} (h : σ xi yi z = k xi yi) (g : Geo α) :
    (o.skipping σ).assign xi yi z g = (o.assignC k xi yi z g).1 := by
  unfold Obj.assign Obj.assignC Obj.skipping
  dsimp only
  rw [h]
  by_cases hk : k xi yi = true
  · simp only [if_pos hk]
  · simp only [if_neg hk]
    rfl

/-- The object there, if any, has no marks. -/
def Plain (strata : List (Stratum α)) (si aei oi : ℕ) : Prop := ∀ o, ObjAt strata si aei oi o → o.marks = fun _ _ _ k => k

/-- The arrays of plain objects are those of `K`. -/
def KeepsPlain (strata : List (Stratum α)) (K K' : Store) : Prop := ∀ si aei oi, Plain strata si aei oi → K' si aei oi = K si aei oi

theorem KeepsPlain.put {strata : List (Stratum α)} {K K' : Store} (h : KeepsPlain strata K K') {si aei oi : ℕ} {o : Obj α}
    (ho : ObjAt strata si aei oi o) (xi yi : ℕ) (z : α) : KeepsPlain strata K (K'.put si aei oi (o.marks xi yi z (K' si aei oi))) := by
  intro a b c hp
  unfold Store.put
  split_ifs with he
  · obtain ⟨rfl, rfl, rfl⟩ := he
    rw [hp o ho]
    exact h _ _ _ hp
  · exact h _ _ _ hp

theorem objLoopC_skip {strata : List (Stratum α)} {xi yi : ℕ} {z : α} {σ : Skips α} {num typeId : ℤ} {si aei : ℕ} {K0 : Store} (l : List (Obj α)) (oi : ℕ)
    (hl : ∀ k o, l[k]? = some o → ObjAt strata si aei (oi + k) o) (g : Geo α) (K : Store) (hσ : ∀ k, σ si aei (oi + k) xi yi z = K si aei (oi + k) xi yi)
    (hp : KeepsPlain strata K0 K) :
    (objLoopC xi yi z num typeId si aei l oi g K).1 =
      objLoop xi yi z num typeId (l.mapIdx fun k o => o.skipping (σ si aei (oi + k))) oi g ∧
    KeepsPlain strata K0 (objLoopC xi yi z num typeId si aei l oi g K).2 ∧
    ∀ a b c, ¬ (a = si ∧ b = aei) → (objLoopC xi yi z num typeId si aei l oi g K).2 a b c = K a b c := by
  induction l generalizing oi g K with
  | nil => exact ⟨rfl, hp, fun _ _ _ _ => rfl⟩
  | cons o rest ih =>
    have ho : ObjAt strata si aei oi o := hl 0 o rfl
    have hrest : ∀ k o', rest[k]? = some o' → ObjAt strata si aei (oi + 1 + k) o' := by
      intro k o' hk
      have := hl (k + 1) o' hk
      rwa [show oi + 1 + k = oi + (k + 1) by omega]
    have hσ' : ∀ k, σ si aei (oi + 1 + k) xi yi z = K si aei (oi + 1 + k) xi yi := fun k => by
      rw [show oi + 1 + k = oi + (k + 1) by omega]
      exact hσ (k + 1)
    have hshift : (fun k o => Obj.skipping (σ si aei (oi + (k + 1))) o) = fun k (o : Obj α) => o.skipping (σ si aei (oi + 1 + k)) := by
      funext k o
      rw [show oi + 1 + k = oi + (k + 1) by omega]
    rw [List.mapIdx_cons, Nat.add_zero]
    rw [hshift]
    have e1 : (o.skipping (σ si aei oi)).zmax = o.zmax := rfl
    have e2 : (o.skipping (σ si aei oi)).zmin = o.zmin := rfl
    have e3 := Obj.skipping_assign (o := o) (σ := σ si aei oi) (k := K si aei oi) (hσ 0) g
    simp only [objLoopC, objLoop, e1, e2, e3]
    by_cases h1 : z > o.zmax
    · simp only [if_pos h1]
      exact ⟨trivial, hp, fun _ _ _ _ => trivial⟩
    · simp only [if_neg h1]
      by_cases h2 : z < o.zmin
      · simp only [if_pos h2]
        exact ih (oi + 1) hrest g K hσ' hp
      · simp only [if_neg h2]
        have hput : KeepsPlain strata K0 (K.put si aei oi (o.assignC (K si aei oi) xi yi z g).2) := hp.put ho xi yi z
        have hother : ∀ a b c, ¬ (a = si ∧ b = aei) → K.put si aei oi (o.assignC (K si aei oi) xi yi z g).2 a b c = K a b c := by
          intro a b c hn
          unfold Store.put
          rw [if_neg fun h => hn ⟨h.1, h.2.1⟩]
        by_cases h3 : (o.assignC (K si aei oi) xi yi z g).1.facies ≠ -1
        · simp only [if_pos h3]
          exact ⟨trivial, hput, hother⟩
        · simp only [if_neg h3]
          obtain ⟨i1, i2, i3⟩ := ih (oi + 1) hrest (o.assignC (K si aei oi) xi yi z g).1 (K.put si aei oi (o.assignC (K si aei oi) xi yi z g).2) (fun k => by
            rw [hσ' k]
            unfold Store.put
            rw [if_neg (by omega)]) hput
          exact ⟨i1, i2, fun a b c hn => by rw [i3 a b c hn, hother a b c hn]⟩

theorem assignAEC_skip {strata : List (Stratum α)} {xi yi : ℕ} {z : α} {σ : Skips α} {si aei : ℕ} {K0 : Store} {s : Stratum α} {a : AE α}
    (hs : strata[si]? = some s) (ha : s.aes[aei]? = some a) (oi : ℕ) (g : Geo α) (K : Store)
    (hσ : ∀ oi, σ si aei oi xi yi z = K si aei oi xi yi) (hp : KeepsPlain strata K0 K) :
    (assignAEC a xi yi z si aei oi g K).1 = assignAE (a.skipping (σ si aei)) xi yi z oi g ∧
    KeepsPlain strata K0 (assignAEC a xi yi z si aei oi g K).2 ∧
    ∀ a' b c, ¬ (a' = si ∧ b = aei) → (assignAEC a xi yi z si aei oi g K).2 a' b c = K a' b c := by
  have h := objLoopC_skip (σ := σ) (num := a.num) (typeId := a.typeId) (xi := xi) (yi := yi) (z := z) (si := si) (aei := aei) (a.objs.drop oi) oi
    (fun k o hk => ⟨s, a, hs, ha, by rw [← hk, List.getElem?_drop]⟩) g K (fun k => hσ (oi + k)) hp
  unfold assignAEC assignAE
  have e : (a.skipping (σ si aei)).objs.drop oi = (a.objs.drop oi).mapIdx fun k o => o.skipping (σ si aei (oi + k)) := mapIdx_drop _ _ _
  have e1 : (a.skipping (σ si aei)).num = a.num := rfl
  have e2 : (a.skipping (σ si aei)).typeId = a.typeId := rfl
  rw [e, e1, e2, ← h.1]
  generalize objLoopC xi yi z a.num a.typeId si aei (a.objs.drop oi) oi g K = X at h
  obtain ⟨⟨g', r⟩, K'⟩ := X
  obtain ⟨-, h2, h3⟩ := h
  cases r with
  | some oi' => exact ⟨rfl, h2, h3⟩
  | none =>
    have e3 : (a.skipping (σ si aei)).isSheet = a.isSheet := rfl
    have e4 : (a.skipping (σ si aei)).bottom = a.bottom := rfl
    have e5 : (a.skipping (σ si aei)).top = a.top := rfl
    dsimp only
    rw [e3, e4, e5]
    split_ifs <;> exact ⟨rfl, h2, h3⟩

theorem aeLoopC_skip {strata : List (Stratum α)} {xi yi : ℕ} {z : α} {σ : Skips α} {si : ℕ} {K0 : Store} {s : Stratum α} (hs : strata[si]? = some s)
    (l : List (AE α)) (aei : ℕ) (hl : ∀ k a, l[k]? = some a → s.aes[aei + k]? = some a) (oi : ℕ) (g : Geo α) (K : Store)
    (hσ : ∀ k oi, σ si (aei + k) oi xi yi z = K si (aei + k) oi xi yi) (hp : KeepsPlain strata K0 K) :
    (aeLoopC xi yi z si l aei oi g K).1 = aeLoop xi yi z (l.mapIdx fun k a => a.skipping (σ si (aei + k))) aei oi g ∧
    KeepsPlain strata K0 (aeLoopC xi yi z si l aei oi g K).2 ∧
    ∀ a b c, a ≠ si → (aeLoopC xi yi z si l aei oi g K).2 a b c = K a b c := by
  induction l generalizing aei oi g K with
  | nil => exact ⟨rfl, hp, fun _ _ _ _ => rfl⟩
  | cons a rest ih =>
    have hrest : ∀ k a', rest[k]? = some a' → s.aes[aei + 1 + k]? = some a' := by
      intro k a' hk
      have := hl (k + 1) a' hk
      rwa [show aei + 1 + k = aei + (k + 1) by omega]
    have hσ' : ∀ k oi, σ si (aei + 1 + k) oi xi yi z = K si (aei + 1 + k) oi xi yi := fun k oi => by
      rw [show aei + 1 + k = aei + (k + 1) by omega]
      exact hσ (k + 1) oi
    have hshift : (fun k a => AE.skipping (σ si (aei + (k + 1))) a) = fun k (a : AE α) => a.skipping (σ si (aei + 1 + k)) := by
      funext k a
      rw [show aei + 1 + k = aei + (k + 1) by omega]
    rw [List.mapIdx_cons, Nat.add_zero]
    rw [hshift]
    have e1 : (a.skipping (σ si aei)).zmin = a.zmin := rfl
    obtain ⟨f1, f2, f3⟩ := assignAEC_skip (σ := σ) (xi := xi) (yi := yi) (z := z) hs (hl 0 a rfl) oi g K (fun oi => hσ 0 oi) hp
    rw [Nat.add_zero] at f1 f2 f3
    simp only [aeLoopC, aeLoop, e1]
    rw [← f1]
    by_cases h1 : z < a.zmin
    · simp only [if_pos h1]
      exact ih (aei + 1) hrest 0 g K hσ' hp
    · simp only [if_neg h1]
      by_cases h2 : (assignAEC a xi yi z si aei oi g K).1.1.facies ≠ -1
      · simp only [if_pos h2]
        exact ⟨trivial, f2, fun a' b c hn => f3 a' b c fun h => hn h.1⟩
      · simp only [if_neg h2]
        obtain ⟨i1, i2, i3⟩ := ih (aei + 1) hrest 0 (assignAEC a xi yi z si aei oi g K).1.1 (assignAEC a xi yi z si aei oi g K).2 (fun k oi' => by
          rw [hσ' k, f3 _ _ _ (by omega)]) f2
        exact ⟨i1, i2, fun a' b c hn => by rw [i3 a' b c hn, f3 a' b c fun h => hn h.1]⟩

theorem strataLoopC_skip {strata : List (Stratum α)} {xi yi : ℕ} {z : α} {σ : Skips α} {K0 : Store} (l : List (Stratum α)) (p : Pos)
    (hl : ∀ k s, l[k]? = some s → strata[p.si + k]? = some s) (g : Geo α) (K : Store)
    (hσ : ∀ k n oi, σ (p.si + k) n oi xi yi z = K (p.si + k) n oi xi yi) (hp : KeepsPlain strata K0 K) :
    (strataLoopC xi yi z l p g K).1 = strataLoop xi yi z (l.mapIdx fun k s => s.skipping (σ (p.si + k))) p g ∧
    KeepsPlain strata K0 (strataLoopC xi yi z l p g K).2 := by
  induction l generalizing p g K with
  | nil => exact ⟨rfl, hp⟩
  | cons s rest ih =>
    have hrest : ∀ k s', rest[k]? = some s' → strata[p.si + 1 + k]? = some s' := by
      intro k s' hk
      have := hl (k + 1) s' hk
      rwa [show p.si + 1 + k = p.si + (k + 1) by omega]
    have hσ' : ∀ k n oi, σ (p.si + 1 + k) n oi xi yi z = K (p.si + 1 + k) n oi xi yi := fun k n oi => by
      rw [show p.si + 1 + k = p.si + (k + 1) by omega]
      exact hσ (k + 1) n oi
    have hshift : (fun k s => Stratum.skipping (σ (p.si + (k + 1))) s) = fun k (s : Stratum α) => s.skipping (σ (p.si + 1 + k)) := by
      funext k s
      rw [show p.si + 1 + k = p.si + (k + 1) by omega]
    rw [List.mapIdx_cons, Nat.add_zero]
    rw [hshift]
    have e1 : (s.skipping (σ p.si)).zmin = s.zmin := rfl
    have e2 : (s.skipping (σ p.si)).aes.drop p.aei = (s.aes.drop p.aei).mapIdx fun k a => a.skipping (σ p.si (p.aei + k)) := mapIdx_drop _ _ _
    obtain ⟨f1, f2, f3⟩ := aeLoopC_skip (σ := σ) (xi := xi) (yi := yi) (z := z) (hl 0 s rfl) (s.aes.drop p.aei) p.aei
      (fun k a hk => by rw [← hk, List.getElem?_drop]) p.oi g K (fun k oi => hσ 0 (p.aei + k) oi) hp
    rw [Nat.add_zero] at f1 f2 f3
    simp only [strataLoopC, strataLoop, assignStratum, e1, e2]
    rw [← f1]
    by_cases h1 : z < s.zmin
    · simp only [if_pos h1]
      exact ih ⟨p.si + 1, 0, 0⟩ hrest g K hσ' hp
    · simp only [if_neg h1]
      by_cases h2 : (aeLoopC xi yi z p.si (s.aes.drop p.aei) p.aei p.oi g K).1.1.facies ≠ -1
      · simp only [if_pos h2]
        exact ⟨trivial, f2⟩
      · simp only [if_neg h2]
        exact ih ⟨p.si + 1, 0, 0⟩ hrest _ _ (fun k n oi => by
          show σ (p.si + 1 + k) n oi xi yi z = _
          rw [hσ' k n oi]
          exact congrFun (congrFun (f3 (p.si + 1 + k) n oi (by omega)).symm xi) yi) f2

theorem cellStepC_skip {strata : List (Stratum α)} {xi yi zi : ℕ} {gridz : ℕ → α} {σ : Skips α} {K0 : Store} (st : (Cells α × Pos) × Store)
    (hσ : ∀ si n oi, σ si n oi xi yi (gridz zi) = st.2 si n oi xi yi) (hp : KeepsPlain strata K0 st.2) :
    (cellStepC strata gridz xi yi st zi).1 = cellStep (skipping σ strata) gridz xi yi st.1 zi ∧
    KeepsPlain strata K0 (cellStepC strata gridz xi yi st zi).2 := by
  have h := strataLoopC_skip (σ := σ) (xi := xi) (yi := yi) (z := gridz zi) (strata.drop st.1.2.si) st.1.2
    (fun k s hk => by rw [← hk, List.getElem?_drop]) Geo.fresh st.2 (fun k n oi => hσ _ n oi) hp
  unfold cellStepC cellStep assignCell
  have e : (skipping σ strata).drop st.1.2.si = (strata.drop st.1.2.si).mapIdx fun k s => s.skipping (σ (st.1.2.si + k)) := mapIdx_drop _ _ _
  rw [e, ← h.1]
  generalize strataLoopC xi yi (gridz zi) (strata.drop st.1.2.si) st.1.2 Geo.fresh st.2 = X at h
  obtain ⟨⟨r, p⟩, K'⟩ := X
  cases r with
  | some x => exact ⟨rfl, h.2⟩
  | none => exact ⟨rfl, h.2⟩

/-- Nothing is skipped for plain objects. -/
def SkipsMarked (strata : List (Stratum α)) (σ : Skips α) : Prop := ∀ si n oi, Plain strata si n oi → ∀ i j z, σ si n oi i j z = false

theorem columnC_skip {strata : List (Stratum α)} {xi yi : ℕ} {gridz : ℕ → α} (zs : List ℕ) (hz : zs.Pairwise fun a b => gridz a ≠ gridz b)
    (st : (Cells α × Pos) × Store) (hp : KeepsPlain strata Store.empty st.2) :
    KeepsPlain strata Store.empty (zs.foldl (cellStepC strata gridz xi yi) st).2 ∧
    ∃ σ : Skips α, SkipsMarked strata σ ∧ ∀ σ' : Skips α, (∀ si n oi, ∀ zi ∈ zs, σ' si n oi xi yi (gridz zi) = σ si n oi xi yi (gridz zi)) →
      (zs.foldl (cellStepC strata gridz xi yi) st).1 = zs.foldl (cellStep (skipping σ' strata) gridz xi yi) st.1 := by
  induction zs generalizing st with
  | nil => exact ⟨hp, fun _ _ _ _ _ _ => false, fun _ _ _ _ _ _ _ => rfl, fun _ _ => rfl⟩
  | cons zi zs ih =>
    rw [List.pairwise_cons] at hz
    have hstep : KeepsPlain strata Store.empty (cellStepC strata gridz xi yi st zi).2 :=
      (cellStepC_skip (σ := fun si n oi i j _ => st.2 si n oi i j) st (fun _ _ _ => rfl) hp).2
    obtain ⟨h1, σ, h2, h3⟩ := ih hz.2 (cellStepC strata gridz xi yi st zi) hstep
    refine ⟨h1, fun si n oi i j z => if z = gridz zi then st.2 si n oi i j else σ si n oi i j z, ?_, fun σ' hσ' => ?_⟩
    · intro si n oi hpl i j z
      dsimp only
      split_ifs
      · rw [hp si n oi hpl]
        rfl
      · exact h2 si n oi hpl i j z
    · rw [List.foldl_cons, List.foldl_cons]
      rw [← (cellStepC_skip (σ := σ') st (fun si n oi => by
        rw [hσ' si n oi zi List.mem_cons_self]
        simp) hp).1]
      refine h3 σ' fun si n oi zj hzj => ?_
      rw [hσ' si n oi zj (List.mem_cons_of_mem _ hzj)]
      simp [(hz.1 zj hzj).symm]

theorem assignPointsC_skip [Zero α] {strata : List (Stratum α)} {nx ny nz : ℕ} {gridz : ℕ → α}
    (hz : ∀ a b, a < b → b < nz → gridz a ≠ gridz b) :
    ∃ σ : Skips α, SkipsMarked strata σ ∧ assignPointsC strata gridz nx ny nz = assignPoints (skipping σ strata) gridz nx ny nz := by
  have hzs : ((List.range nz).reverse).Pairwise fun a b => gridz a ≠ gridz b := by
    rw [List.pairwise_reverse]
    refine List.Pairwise.imp_of_mem ?_ List.pairwise_lt_range
    intro a b ha hb hab
    exact (hz a b hab (List.mem_range.1 hb)).symm
  have key : ∀ (ls : List ℕ), ls.Nodup → ∀ (c : Cells α) (K : Store), KeepsPlain strata Store.empty K →
      ∃ σ : Skips α, SkipsMarked strata σ ∧ ∀ σ' : Skips α, (∀ si n oi, ∀ l ∈ ls, ∀ z, σ' si n oi (l / ny) (l % ny) z = σ si n oi (l / ny) (l % ny) z) →
        (ls.foldl (fun c l => columnC strata gridz nz (l / ny) (l % ny) c) (c, K)).1 =
          ls.foldl (fun c l => column (skipping σ' strata) gridz nz (l / ny) (l % ny) c) c := by
    intro ls
    induction ls with
    | nil => intro _ c K _; exact ⟨fun _ _ _ _ _ _ => false, fun _ _ _ _ _ _ _ => rfl, fun _ _ => rfl⟩
    | cons l ls ih =>
      intro hnd c K hK
      rw [List.nodup_cons] at hnd
      obtain ⟨h1, σ1, h2, h3⟩ := columnC_skip (strata := strata) (xi := l / ny) (yi := l % ny) (List.range nz).reverse hzs ((c, ⟨0, 0, 0⟩), K) hK
      obtain ⟨σ2, h4, h5⟩ := ih hnd.2 (columnC strata gridz nz (l / ny) (l % ny) (c, K)).1 (columnC strata gridz nz (l / ny) (l % ny) (c, K)).2 h1
      refine ⟨fun si n oi i j z => if i = l / ny ∧ j = l % ny then σ1 si n oi i j z else σ2 si n oi i j z, ?_, fun σ' hσ' => ?_⟩
      · intro si n oi hpl i j z
        dsimp only
        split_ifs
        · exact h2 si n oi hpl i j z
        · exact h4 si n oi hpl i j z
      · rw [List.foldl_cons, List.foldl_cons]
        have e1 : (columnC strata gridz nz (l / ny) (l % ny) (c, K)).1 = column (skipping σ' strata) gridz nz (l / ny) (l % ny) c :=
          congrArg Prod.fst (h3 σ' fun si n oi zi _ => by
            rw [hσ' si n oi l List.mem_cons_self]
            simp)
        rw [← e1]
        refine h5 σ' fun si n oi l' hl' z => ?_
        rw [hσ' si n oi l' (List.mem_cons_of_mem _ hl')]
        have hne : ¬ (l' / ny = l / ny ∧ l' % ny = l % ny) := by
          rintro ⟨e1, e2⟩
          have : l' = l := by rw [← Nat.div_add_mod l' ny, ← Nat.div_add_mod l ny, e1, e2]
          exact hnd.1 (this ▸ hl')
        exact if_neg hne
  obtain ⟨σ, h1, h2⟩ := key _ List.nodup_range Cells.init Store.empty (fun _ _ _ _ => rfl)
  exact ⟨σ, h1, h2 σ fun _ _ _ _ _ _ => rfl⟩

end Search

end Hyvr
