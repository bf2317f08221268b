import Verif.Model.Cached
import Verif.Lemmas.Site

/-!
The search with the arrays `dont_check` of the objects compared to the search without them (C114).
-/

namespace Hyvr

open Py Spec

section Search

variable {α : Type} [LinearOrder α]

/-! ### Marks that are never wrong -/

/-- What a test marks is rejected afterwards, in other columns at any elevation, in its own column not above the tested cell. -/
def Obj.Careful (nx ny : ℕ) (o : Obj α) : Prop :=
  ∀ i j z k i' j' z', i < nx → j < ny → i' < nx → j' < ny → (i = i' → j = j' → z' ≤ z) → o.marks i j z k i' j' = true →
    k i' j' = true ∨ o.test i' j' z' = none

/-- Object `oi` of AE `aei` of stratum `si`. -/
def ObjAt (strata : List (Stratum α)) (si aei oi : ℕ) (o : Obj α) : Prop :=
  ∃ s a, strata[si]? = some s ∧ s.aes[aei]? = some a ∧ a.objs[oi]? = some o

/-- All marks in the columns of the cells `R` are on objects that reject these cells. -/
def MarksRight (strata : List (Stratum α)) (K : Store) (R : ℕ → ℕ → α → Prop) : Prop :=
  ∀ si aei oi o, ObjAt strata si aei oi o → ∀ i j z, R i j z → K si aei oi i j = true → o.test i j z = none

theorem MarksRight.mono {strata : List (Stratum α)} {K : Store} {R R' : ℕ → ℕ → α → Prop} (h : MarksRight strata K R)
    (hR : ∀ i j z, R' i j z → R i j z) : MarksRight strata K R' :=
  fun si aei oi o ho i j z hr => h si aei oi o ho i j z (hR i j z hr)

/-- The cells `R` that may follow the cell `(xi, yi, z)`, this one included. -/
structure Ahead (nx ny xi yi : ℕ) (z : α) (R : ℕ → ℕ → α → Prop) : Prop where
  here : R xi yi z
  inside : ∀ i j z', R i j z' → i < nx ∧ j < ny
  below : ∀ i j z', R i j z' → xi = i → yi = j → z' ≤ z

theorem MarksRight.put {strata : List (Stratum α)} {K : Store} {R : ℕ → ℕ → α → Prop} (h : MarksRight strata K R) {nx ny xi yi : ℕ} {z : α}
    (hR : Ahead nx ny xi yi z R) {si aei oi : ℕ} {o : Obj α} (ho : ObjAt strata si aei oi o) (hc : o.Careful nx ny) :
    MarksRight strata (K.put si aei oi (o.marks xi yi z (K si aei oi))) R := by
  intro si' aei' oi' o' ho' i j z' hr hk
  unfold Store.put at hk
  split_ifs at hk with he
  · obtain ⟨rfl, rfl, rfl⟩ := he
    obtain ⟨s, a, h1, h2, h3⟩ := ho
    obtain ⟨s', a', h1', h2', h3'⟩ := ho'
    rw [h1] at h1'
    cases h1'
    rw [h2] at h2'
    cases h2'
    rw [h3] at h3'
    cases h3'
    obtain ⟨hx, hy⟩ := hR.inside _ _ _ hR.here
    obtain ⟨hi, hj⟩ := hR.inside _ _ _ hr
    rcases hc xi yi z _ i j z' hx hy hi hj (hR.below i j z' hr) hk with h4 | h4
    · exact h _ _ _ o ⟨s, a, h1, h2, h3⟩ i j z' hr h4
    · exact h4
  · exact h _ _ _ o' ho' i j z' hr hk

theorem Obj.assignC_right {o : Obj α} {k : Cache} {xi yi : ℕ} {z : α} (h : k xi yi = true → o.test xi yi z = none) (g : Geo α) :
    (o.assignC k xi yi z g).1 = o.assign xi yi z g := by
  unfold Obj.assignC
  by_cases hk : k xi yi = true
  · simp only [if_pos hk, Obj.assign, h hk]
  · simp only [if_neg hk]

theorem objLoopC_right {strata : List (Stratum α)} {nx ny xi yi : ℕ} {z : α} {R : ℕ → ℕ → α → Prop} (hR : Ahead nx ny xi yi z R)
    (hc : ∀ si aei oi o, ObjAt strata si aei oi o → o.Careful nx ny) {num typeId : ℤ} {si aei : ℕ} (l : List (Obj α)) (oi : ℕ)
    (hl : ∀ k o, l[k]? = some o → ObjAt strata si aei (oi + k) o) (g : Geo α) (K : Store) (hK : MarksRight strata K R) :
    (objLoopC xi yi z num typeId si aei l oi g K).1 = objLoop xi yi z num typeId l oi g ∧
      MarksRight strata (objLoopC xi yi z num typeId si aei l oi g K).2 R := by
  induction l generalizing oi g K with
  | nil => exact ⟨rfl, hK⟩
  | cons o rest ih =>
    have ho : ObjAt strata si aei oi o := hl 0 o rfl
    have hrest : ∀ k o', rest[k]? = some o' → ObjAt strata si aei (oi + 1 + k) o' := by
      intro k o' hk
      have := hl (k + 1) o' hk
      rwa [show oi + 1 + k = oi + (k + 1) by omega]
    simp only [objLoopC, objLoop]
    by_cases h1 : z > o.zmax
    · simp only [if_pos h1]
      exact ⟨trivial, hK⟩
    · simp only [if_neg h1]
      by_cases h2 : z < o.zmin
      · simp only [if_pos h2]
        exact ih (oi + 1) hrest g K hK
      · simp only [if_neg h2]
        have hput := hK.put hR ho (hc _ _ _ o ho)
        rw [Obj.assignC_right (hK _ _ _ o ho xi yi z hR.here) g]
        by_cases h3 : (o.assign xi yi z g).facies ≠ -1
        · simp only [if_pos h3]
          exact ⟨trivial, hput⟩
        · simp only [if_neg h3]
          exact ih (oi + 1) hrest _ _ hput

theorem assignAEC_right {strata : List (Stratum α)} {nx ny xi yi : ℕ} {z : α} {R : ℕ → ℕ → α → Prop} (hR : Ahead nx ny xi yi z R)
    (hc : ∀ si aei oi o, ObjAt strata si aei oi o → o.Careful nx ny) {si aei : ℕ} {s : Stratum α} {a : AE α} (hs : strata[si]? = some s)
    (ha : s.aes[aei]? = some a) (oi : ℕ) (g : Geo α) (K : Store) (hK : MarksRight strata K R) :
    (assignAEC a xi yi z si aei oi g K).1 = assignAE a xi yi z oi g ∧ MarksRight strata (assignAEC a xi yi z si aei oi g K).2 R := by
  have h := objLoopC_right hR hc (num := a.num) (typeId := a.typeId) (si := si) (aei := aei) (a.objs.drop oi) oi
    (fun k o hk => ⟨s, a, hs, ha, by rw [← hk, List.getElem?_drop]⟩) g K hK
  unfold assignAEC assignAE
  rw [← h.1]
  generalize objLoopC xi yi z a.num a.typeId si aei (a.objs.drop oi) oi g K = X at h
  obtain ⟨⟨g', r⟩, K'⟩ := X
  have hK' := h.2
  cases r with
  | some oi' => exact ⟨rfl, hK'⟩
  | none =>
    dsimp only
    split_ifs <;> exact ⟨rfl, hK'⟩

theorem aeLoopC_right {strata : List (Stratum α)} {nx ny xi yi : ℕ} {z : α} {R : ℕ → ℕ → α → Prop} (hR : Ahead nx ny xi yi z R)
    (hc : ∀ si aei oi o, ObjAt strata si aei oi o → o.Careful nx ny) {si : ℕ} {s : Stratum α} (hs : strata[si]? = some s) (l : List (AE α))
    (aei : ℕ) (hl : ∀ k a, l[k]? = some a → s.aes[aei + k]? = some a) (oi : ℕ) (g : Geo α) (K : Store) (hK : MarksRight strata K R) :
    (aeLoopC xi yi z si l aei oi g K).1 = aeLoop xi yi z l aei oi g ∧ MarksRight strata (aeLoopC xi yi z si l aei oi g K).2 R := by
  induction l generalizing aei oi g K with
  | nil => exact ⟨rfl, hK⟩
  | cons a rest ih =>
    have hrest : ∀ k a', rest[k]? = some a' → s.aes[aei + 1 + k]? = some a' := by
      intro k a' hk
      have := hl (k + 1) a' hk
      rwa [show aei + 1 + k = aei + (k + 1) by omega]
    simp only [aeLoopC, aeLoop]
    by_cases h1 : z < a.zmin
    · simp only [if_pos h1]
      exact ih (aei + 1) hrest 0 g K hK
    · simp only [if_neg h1]
      obtain ⟨e, hK'⟩ := assignAEC_right hR hc hs (hl 0 a rfl) oi g K hK
      rw [Nat.add_zero] at e hK'
      rw [e]
      by_cases h2 : (assignAE a xi yi z oi g).1.facies ≠ -1
      · simp only [if_pos h2]
        exact ⟨trivial, hK'⟩
      · simp only [if_neg h2]
        exact ih (aei + 1) hrest 0 _ _ hK'

theorem strataLoopC_right {strata : List (Stratum α)} {nx ny xi yi : ℕ} {z : α} {R : ℕ → ℕ → α → Prop} (hR : Ahead nx ny xi yi z R)
    (hc : ∀ si aei oi o, ObjAt strata si aei oi o → o.Careful nx ny) (l : List (Stratum α)) (p : Pos)
    (hl : ∀ k s, l[k]? = some s → strata[p.si + k]? = some s) (g : Geo α) (K : Store) (hK : MarksRight strata K R) :
    (strataLoopC xi yi z l p g K).1 = strataLoop xi yi z l p g ∧ MarksRight strata (strataLoopC xi yi z l p g K).2 R := by
  induction l generalizing p g K with
  | nil => exact ⟨rfl, hK⟩
  | cons s rest ih =>
    have hrest : ∀ k s', rest[k]? = some s' → strata[p.si + 1 + k]? = some s' := by
      intro k s' hk
      have := hl (k + 1) s' hk
      rwa [show p.si + 1 + k = p.si + (k + 1) by omega]
    simp only [strataLoopC, strataLoop]
    by_cases h1 : z < s.zmin
    · simp only [if_pos h1]
      exact ih ⟨p.si + 1, 0, 0⟩ hrest g K hK
    · simp only [if_neg h1]
      obtain ⟨e, hK'⟩ := aeLoopC_right hR hc (hl 0 s rfl) (s.aes.drop p.aei) p.aei
        (fun k a hk => by rw [← hk, List.getElem?_drop]) p.oi g K hK
      rw [Nat.add_zero] at e hK'
      unfold assignStratum
      rw [e]
      by_cases h2 : (aeLoop xi yi z (s.aes.drop p.aei) p.aei p.oi g).1.facies ≠ -1
      · simp only [if_pos h2]
        exact ⟨trivial, hK'⟩
      · simp only [if_neg h2]
        exact ih ⟨p.si + 1, 0, 0⟩ hrest _ _ hK'

theorem cellStepC_right {strata : List (Stratum α)} {nx ny xi yi zi : ℕ} {gridz : ℕ → α} {R : ℕ → ℕ → α → Prop}
    (hR : Ahead nx ny xi yi (gridz zi) R) (hc : ∀ si aei oi o, ObjAt strata si aei oi o → o.Careful nx ny) (st : (Cells α × Pos) × Store)
    (hK : MarksRight strata st.2 R) :
    (cellStepC strata gridz xi yi st zi).1 = cellStep strata gridz xi yi st.1 zi ∧ MarksRight strata (cellStepC strata gridz xi yi st zi).2 R := by
  have h := strataLoopC_right hR hc (strata.drop st.1.2.si) st.1.2 (fun k s hk => by rw [← hk, List.getElem?_drop]) Geo.fresh st.2 hK
  unfold cellStepC cellStep assignCell
  rw [← h.1]
  generalize strataLoopC xi yi (gridz zi) (strata.drop st.1.2.si) st.1.2 Geo.fresh st.2 = X at h
  obtain ⟨⟨r, p⟩, K'⟩ := X
  have hK' := h.2
  cases r with
  | some x => exact ⟨rfl, hK'⟩
  | none => exact ⟨rfl, hK'⟩

theorem columnC_right {strata : List (Stratum α)} {nx ny xi yi : ℕ} {gridz : ℕ → α} (hx : xi < nx) (hy : yi < ny)
    (hc : ∀ si aei oi o, ObjAt strata si aei oi o → o.Careful nx ny) (zs : List ℕ) (hz : zs.Pairwise fun a b => gridz b ≤ gridz a)
    (R : ℕ → ℕ → α → Prop) (hin : ∀ i j z, R i j z → i < nx ∧ j < ny) (hother : ∀ i j z, R i j z → ¬ (i = xi ∧ j = yi))
    (st : (Cells α × Pos) × Store) (hK : MarksRight strata st.2 fun i j z => R i j z ∨ (i = xi ∧ j = yi ∧ ∃ zi ∈ zs, z = gridz zi)) :
    (zs.foldl (cellStepC strata gridz xi yi) st).1 = zs.foldl (cellStep strata gridz xi yi) st.1 ∧
      MarksRight strata (zs.foldl (cellStepC strata gridz xi yi) st).2 R := by
  induction zs generalizing st with
  | nil => exact ⟨rfl, hK.mono fun i j z h => Or.inl h⟩
  | cons zi zs ih =>
    rw [List.pairwise_cons] at hz
    have hA : Ahead nx ny xi yi (gridz zi) fun i j z => R i j z ∨ (i = xi ∧ j = yi ∧ ∃ zj ∈ zi :: zs, z = gridz zj) := by
      refine ⟨Or.inr ⟨rfl, rfl, zi, List.mem_cons_self, rfl⟩, ?_, ?_⟩
      · rintro i j z (h | ⟨rfl, rfl, -⟩)
        · exact hin i j z h
        · exact ⟨hx, hy⟩
      · rintro i j z (h | ⟨-, -, zj, hzj, rfl⟩) hi hj
        · exact absurd ⟨hi.symm, hj.symm⟩ (hother i j z h)
        · rcases List.mem_cons.1 hzj with rfl | hzj
          · exact le_rfl
          · exact hz.1 zj hzj
    obtain ⟨e, hK'⟩ := cellStepC_right hA hc st hK
    obtain ⟨e', hK''⟩ := ih hz.2 (cellStepC strata gridz xi yi st zi) (hK'.mono fun i j z h => by
      rcases h with h | ⟨h1, h2, zj, h3, h4⟩
      · exact Or.inl h
      · exact Or.inr ⟨h1, h2, zj, List.mem_cons_of_mem _ h3, h4⟩)
    rw [List.foldl_cons, List.foldl_cons, ← e]
    exact ⟨e', hK''⟩

theorem assignPointsC_right [Zero α] {strata : List (Stratum α)} {nx ny nz : ℕ} {gridz : ℕ → α}
    (hc : ∀ si aei oi o, ObjAt strata si aei oi o → o.Careful nx ny) (hz : ∀ a b, a ≤ b → b < nz → gridz a ≤ gridz b) :
    assignPointsC strata gridz nx ny nz = assignPoints strata gridz nx ny nz := by
  have hzs : ((List.range nz).reverse).Pairwise fun a b => gridz b ≤ gridz a := by
    rw [List.pairwise_reverse]
    refine List.Pairwise.imp_of_mem ?_ List.pairwise_lt_range
    intro a b ha hb hab
    exact hz a b hab.le (List.mem_range.1 hb)
  have key : ∀ (ls : List ℕ), ls.Nodup → (∀ l ∈ ls, l < nx * ny) → ∀ (c : Cells α) (K : Store),
      MarksRight strata K (fun i j _ => ∃ l ∈ ls, i = l / ny ∧ j = l % ny) →
      (ls.foldl (fun c l => columnC strata gridz nz (l / ny) (l % ny) c) (c, K)).1 =
        ls.foldl (fun c l => column strata gridz nz (l / ny) (l % ny) c) c := by
    intro ls
    induction ls with
    | nil => intro _ _ c K _; rfl
    | cons l ls ih =>
      intro hnd hlt c K hK
      rw [List.nodup_cons] at hnd
      have hl := hlt l List.mem_cons_self
      have hny : 0 < ny := Nat.pos_of_ne_zero fun h => by simp [h] at hl
      obtain ⟨e, hK'⟩ := columnC_right (strata := strata) (gridz := gridz) (Nat.div_lt_of_lt_mul (by rwa [Nat.mul_comm] at hl)) (Nat.mod_lt l hny) hc
        (List.range nz).reverse hzs (fun i j _ => ∃ l' ∈ ls, i = l' / ny ∧ j = l' % ny)
        (by
          rintro i j z ⟨l', hl', rfl, rfl⟩
          have := hlt l' (List.mem_cons_of_mem _ hl')
          exact ⟨Nat.div_lt_of_lt_mul (by rwa [Nat.mul_comm] at this), Nat.mod_lt l' hny⟩)
        (by
          rintro i j z ⟨l', hl', rfl, rfl⟩ ⟨h1, h2⟩
          have : l' = l := by rw [← Nat.div_add_mod l' ny, ← Nat.div_add_mod l ny, h1, h2]
          exact hnd.1 (this ▸ hl'))
        ((c, ⟨0, 0, 0⟩), K) (hK.mono (by
          rintro i j z (⟨l', hl', h1, h2⟩ | ⟨h1, h2, -⟩)
          · exact ⟨l', List.mem_cons_of_mem _ hl', h1, h2⟩
          · exact ⟨l, List.mem_cons_self, h1, h2⟩))
      rw [List.foldl_cons, List.foldl_cons, ← ih hnd.2 (fun l' h' => hlt l' (List.mem_cons_of_mem _ h')) _ _ hK']
      have e1 : (columnC strata gridz nz (l / ny) (l % ny) (c, K)).1 = column strata gridz nz (l / ny) (l % ny) c := congrArg Prod.fst e
      rw [← e1]
      rfl
  exact key _ List.nodup_range (fun l h => List.mem_range.1 h) _ _ (fun si aei oi o _ i j z _ h => by simp [Store.empty, Cache.empty] at h)

end Search

/-! ### The objects of a generated model -/

theorem sheetObjs_marks {h : Heap ℝ} {mk : ℕ → ℝ → Except PyErr (Payload ℝ)} {n : ℕ} {ss : List (SheetRaw ℝ)} {os : List (GObj ℝ)}
    (hr : sheetObjs h mk n ss = .ok os) : ∀ o ∈ os, o.marks = fun _ _ _ k => k := by
  induction ss generalizing n os with
  | nil =>
    simp only [sheetObjs, Except.ok.injEq] at hr
    subst hr
    simp
  | cons s rest ih =>
    simp only [sheetObjs, bind_ok, pure_ok] at hr
    obtain ⟨p, -, os', hos, rfl⟩ := hr
    intro o ho
    rcases List.mem_cons.1 ho with rfl | ho
    · rfl
    · exact ih hos o ho

theorem placeChannels_new {p : ChannelRead} {g : Grid} {r : ObjRandoms} {fuel : ℕ} {bottom top : Surface ℝ} {cs : List Channel}
    (h : placeChannels p g r fuel bottom top = some (.ok cs)) {k : ℕ} {c : Channel} (hc : cs[k]? = some c) :
    ∃ pts z, Channel.new p.params (r.channel p k) g pts z p.erosive.width p.erosive.depth = .ok c := by
  unfold placeChannels at h
  by_cases hno : p.channelNo < 0
  · rw [if_pos hno] at h
    cases h
  rw [if_neg hno] at h
  unfold generateChannels at h
  cases htr : p.erosive.sizeZtrend with
  | some f =>
    have : channelBufferFactor p.params = .error .valueError := by simp [channelBufferFactor, ChannelRead.params, htr]
    rw [this] at h
    cases h
  | none =>
    have h1 : channelBufferFactor p.params = .ok 1 := by simp [channelBufferFactor, ChannelRead.params, htr]
    have h2 : ∀ z, channelFactor p.params g z = 1 := fun z => by simp [channelFactor, ChannelRead.params, htr]
    rw [h1] at h
    dsimp only at h
    obtain ⟨L, -, -, h5, h6⟩ := channelLevels_at h
    have hk : k < L * p.params.channelNo := by
      rw [← h5]
      exact (List.getElem?_eq_some_iff.1 hc).1
    have hpos : 0 < p.params.channelNo := Nat.pos_of_ne_zero fun h => by rw [h] at hk; omega
    obtain ⟨c', pts, c1, -, c3⟩ := h6 (k / p.params.channelNo) (Nat.div_lt_of_lt_mul (by rwa [Nat.mul_comm] at hk)) (k % p.params.channelNo)
      (Nat.mod_lt _ hpos)
    rw [Nat.mul_comm, Nat.div_add_mod] at c1 c3
    rw [hc] at c1
    cases c1
    rw [h2, mul_one, mul_one, Nat.zero_add] at c3
    exact ⟨pts, _, c3⟩

/-- Only channels have marks. -/
inductive KindOf (P : Parsed) (g : Grid) (shapes : List (String × ShapeRead)) (r : ObjRandoms) (a : AEReal ℝ) (oi : ℕ) (o : GObj ℝ) : Prop
  | plain (unmarked : o.marks = fun _ _ _ k => k) (geometry : a.isSheet = true ∨ ∀ q, shapes.lookup a.name ≠ some (.channel q))
  | channel (q : ChannelRead) (c : Channel) (pts : List CPoint) (z : ℝ) (e : Element) (notSheet : a.isSheet = false)
      (section_ : (a.name, e) ∈ P.elements) (shape : shapes.lookup a.name = some (.channel q)) (read : readShape e.dict = .ok (.channel q))
      (made : Channel.new q.params (r.channel q oi) g pts z q.erosive.width q.erosive.depth = .ok c)
      (eq : o = { c.toObj g (r.skip oi) (r.stray oi) with numHa := o.numHa })

theorem object_kinds {C : Convs} {p : Ini} {P : Parsed} (h : parseInifile C p = .ok P) {ids : List (String × ℕ)} {r : Randoms ℝ}
    {o : ℕ → ℕ → ObjRandoms} {d : ℕ → StratumDraw ℝ} {m : GenModel ℝ} {cms' : Contacts ℝ} (hr : generateObjects P ids r o d = .ok (m, cms')) :
    ∃ g shapes, readGrid P.model = .ok g ∧ readShapes P = .ok shapes ∧
      ∀ si s n a, m.strata[si]? = some s → s.aes[n]? = some a → ∀ oi ob, a.objs[oi]? = some ob → KindOf P g shapes (o si n) a oi ob := by
  obtain ⟨g, shapes, hgr, hsh, -, -, hall⟩ := ae_parts h hr
  refine ⟨g, shapes, hgr, hsh, fun si s n a hs ha oi ob hob => ?_⟩
  obtain ⟨e', i, t, sp, gz, a0, dd, Q, he', hname, hre, hrun, hsame, hobjs, -⟩ := hall si s n a hs ha
  obtain ⟨H, H', -, -, -, -, -, -, -, -, hgen⟩ := hrun.run
  obtain ⟨k, hk⟩ := hsame.objs
  rw [hk, numberObjs_get] at hob
  cases h0 : a0.objs[oi]? with
  | none => rw [h0] at hob; cases hob
  | some o0 =>
    rw [h0] at hob
    cases hob
    unfold genAE at hgen
    dsimp only at hgen
    split_ifs at hgen with hgeo hgeo'
    · simp only [bind_ok, pure_ok] at hgen
      obtain ⟨os, hos, heq⟩ := hgen
      have hos := liftObjs_ok.1 hos
      simp only [Prod.mk.injEq] at heq
      obtain ⟨-, heq⟩ := heq
      have hobjs0 : a0.objs = os := by rw [← heq]
      have hsheet : a.isSheet = false := by rw [hsame.isSheet, ← heq]
      rw [hobjs0] at h0
      rw [hobjs] at hos
      unfold objectsOf at hos
      rw [show (t.cast : ElemParams ℝ).name = a.name from hname] at hos
      split at hos
      · rename_i q hq
        have hos := Option.some.inj hos
        cases hts : placeTroughs q g (o si n) (H.get a0.bottom) (H.get a0.top) with
        | error x => rw [hts] at hos; cases hos
        | ok ts =>
          rw [hts] at hos
          have hos' : numbered (fun k => Trough.toObj g ((o si n).stray k)) 0 ts = os := Except.ok.inj hos
          rw [← hos', numbered_get] at h0
          cases ht : ts[oi]? with
          | none => rw [ht] at h0; cases h0
          | some tr =>
            rw [ht] at h0
            cases h0
            exact .plain rfl (Or.inr fun q' hq' => by rw [hq] at hq'; cases hq')
      · rename_i q hq
        obtain ⟨e2, he2, hrs⟩ := shape_of hsh hq
        cases hts : placeChannels q g (o si n) dd.sheetFuel (H.get a0.bottom) (H.get a0.top) with
        | none => rw [hts] at hos; cases hos
        | some x =>
          rw [hts] at hos
          cases x with
          | error x => cases hos
          | ok ts =>
            have hos' : numbered (fun k => Channel.toObj g ((o si n).skip k) ((o si n).stray k)) 0 ts = os := Except.ok.inj (Option.some.inj hos)
            rw [← hos', numbered_get] at h0
            cases ht : ts[oi]? with
            | none => rw [ht] at h0; cases h0
            | some c =>
              rw [ht] at h0
              cases h0
              obtain ⟨pts, z, hc⟩ := placeChannels_new hts ht
              exact .channel q c pts z e2 hsheet he2 hq hrs hc (by rw [Nat.zero_add])
      · cases hos
    · simp only [bind_ok, pure_ok] at hgen
      obtain ⟨⟨h1, e1, ss⟩, -, os, hos, heq⟩ := hgen
      simp only [Prod.mk.injEq] at heq
      obtain ⟨-, heq⟩ := heq
      have hobjs0 : a0.objs = os := by rw [← heq]
      rw [hobjs0] at h0
      exact .plain (sheetObjs_marks (liftErr_ok.1 hos) o0 (List.mem_of_getElem? h0)) (Or.inl (by rw [hsame.isSheet, ← heq]))

/-- The objects the search sees are those of the model. -/
theorem search_objs {m : GenModel ℝ} {si aei oi : ℕ} {ob : Obj ℝ} (h : ObjAt m.search si aei oi ob) :
    ∃ s a o, m.strata[si]? = some s ∧ s.aes[aei]? = some a ∧ a.objs[oi]? = some o ∧ ob = a.searchObj oi o := by
  obtain ⟨s', a', h1, h2, h3⟩ := h
  unfold GenModel.search at h1
  rw [List.getElem?_map] at h1
  cases hs : m.strata[si]? with
  | none => rw [hs] at h1; cases h1
  | some s =>
    rw [hs] at h1
    cases h1
    simp only [StratumReal.search, List.getElem?_map] at h2
    cases ha : s.aes[aei]? with
    | none => rw [ha] at h2; cases h2
    | some a =>
      rw [ha] at h2
      cases h2
      simp only [AEReal.search, List.getElem?_mapIdx] at h3
      cases ho : a.objs[oi]? with
      | none => rw [ho] at h3; cases h3
      | some o =>
        rw [ho] at h3
        cases h3
        exact ⟨s, a, o, rfl, ha, ho, rfl⟩

theorem coord_some {l : List ℝ} {i : ℕ} (h : i < l.length) : l[i]? = some (coord l i) := by
  rw [coord, List.getD_eq_getElem?_getD, List.getElem?_eq_getElem h]
  rfl

theorem Channel.toObj_careful {p : ChannelParams} {d : ChannelDraw} {g : Grid} {pts : List CPoint} {ztop w dep : ℝ} {c : Channel}
    (h : Channel.new p d g pts ztop w dep = .ok c) (hw : 0 < w) (hd : 0 < dep) (hdx : 0 < g.dx) (hdy0 : 0 < g.dy) (hdy : g.dy ≤ 1)
    {skip : ℕ → ℕ → ℝ → Bool} {stray : ℤ → ℤ × Option ℝ × Option ℝ} {i j : ℕ} {z : ℝ} {k : Cache} {i' j' : ℕ} {z' : ℝ} (hi : i < g.nx) (hj : j < g.ny)
    (hi' : i' < g.nx) (hj' : j' < g.ny) (hz : i = i' → j = j' → z' ≤ z) (hm : (c.toObj g skip stray).marks i j z k i' j' = true) :
    k i' j' = true ∨ (c.toObj g skip stray).answer i' j' z' = none := by
  obtain ⟨-, -, ha, hwd, hdp, hmin, -⟩ := Channel.new_basic h
  rcases test_marks (q := ⟨coord g.x i, coord g.y j, z, i, j⟩) (q' := ⟨coord g.x i', coord g.y j', z', i', j'⟩) ha hdp hwd hmin hw hd hdx hdy0 hdy
    ⟨coord_some hi, coord_some hj⟩ ⟨coord_some hi', coord_some hj'⟩ hz hm with h1 | h1
  · exact Or.inl h1
  · refine Or.inr ?_
    show (if skip i' j' z' then none else (c.test g Cache.empty (coord g.x i') (coord g.y j') z' i' j').1.toCell stray) = none
    rw [Channel.test_fresh, if_neg h1]
    simp [Answer.toCell]

theorem search_careful {C : Convs} {p : Ini} {P : Parsed} (h : parseInifile C p = .ok P) {ids : List (String × ℕ)} {r : Randoms ℝ}
    {o : ℕ → ℕ → ObjRandoms} {d : ℕ → StratumDraw ℝ} {m : GenModel ℝ} {cms' : Contacts ℝ} (hr : generateObjects P ids r o d = .ok (m, cms'))
    {g : Grid} (hg : readGrid P.model = .ok g) (hdx : 0 < g.dx) (hdy0 : 0 < g.dy) (hdy : g.dy ≤ 1)
    (hch : ∀ name e q, (name, e) ∈ P.elements → readShape e.dict = .ok (.channel q) → 0 < q.erosive.width ∧ 0 < q.erosive.depth) {si aei oi : ℕ}
    {ob : Obj ℝ} (hob : ObjAt m.search si aei oi ob) : ob.Careful g.nx g.ny := by
  obtain ⟨g', shapes, hg', hsh, hall⟩ := object_kinds h hr
  cases Except.ok.inj (hg'.symm.trans hg)
  obtain ⟨s, a, o', hs, ha, ho, rfl⟩ := search_objs hob
  intro i j z k i' j' z' hi hj hi' hj' hz hm
  rcases hall si s aei a hs ha oi o' ho with ⟨hid, -⟩ | ⟨q, c, pts, zt, e, -, he, -, hread, hnew, heq⟩
  · left
    have : (a.searchObj oi o').marks = fun _ _ _ k => k := hid
    rwa [this] at hm
  · obtain ⟨hw, hd⟩ := hch _ e q he hread
    have e1 : (a.searchObj oi o').marks = (c.toObj g ((o si aei).skip oi) ((o si aei).stray oi)).marks := by
      show o'.marks = _
      rw [heq]
    have e2 : o'.answer = (c.toObj g ((o si aei).skip oi) ((o si aei).stray oi)).answer := by
      rw [heq]
    rw [e1] at hm
    rcases Channel.toObj_careful hnew (by exact_mod_cast hw) (by exact_mod_cast hd) hdx hdy0 hdy hi hj hi' hj' hz hm with h1 | h1
    · exact Or.inl h1
    · refine Or.inr ?_
      show (o'.answer i' j' z').map _ = none
      rw [e2, h1]
      rfl

theorem readGrid_dz {m : Dict} {g : Grid} (h : readGrid m = .ok g) {dz : ℚ} (hz : m "dz" = some (numVal dz)) : g.dz = dz := by
  simp only [readGrid, bind_ok, pure_ok, dget_ok] at h
  obtain ⟨v1, h1, x0, hx0, v2, h2, y0, hy0, v3, h3, z0, hz0, v4, h4, dx, hdx, v5, h5, dy, hdy, v6, h6, dz', hdz, v7, h7, lx, hlx, v8, h8, ly, hly,
    v9, h9, lz, hlz, v10, h10, b, hb, rfl⟩ := h
  rw [numOf_ok hdz] at h6
  rw [numVal_some_inj hz h6]

theorem coord_z {g : Grid} {k : ℕ} (hk : k < g.nz) : coord g.z k = g.z0 + g.dz / 2 + k * g.dz := by
  have h := coord_some (l := g.z) hk
  unfold Grid.z at h
  rw [arange_getElem?] at h
  split_ifs at h
  exact (Option.some.inj h).symm

end Hyvr
