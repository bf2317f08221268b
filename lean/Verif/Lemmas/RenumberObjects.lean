import Verif.Lemmas.Renumber
import Verif.Model.Objects

/-!
Placing of objects only passes numbers of facies on (C123).
-/

namespace Hyvr

open Py

theorem relOk {β γ : Type} {R : β → γ → Prop} {a : β} {b : γ} (h : R a b) : RelX R (pure a : Except PyErr β) (pure b : Except PyErr γ) := h

/-! ### Layers -/

theorem choice_renum {β γ : Type} (f : β → γ) (l : List β) (n : ℕ) : RelX (fun a b => b = f a) (choice l n) (choice (l.map f) n) := by
  unfold choice
  rw [List.length_map, List.getElem?_map]
  cases l[n % l.length]? <;> exact rfl

theorem idxOf_renum {π : ℤ → ℤ} (hinj : Function.Injective π) (l : List ℤ) (a : ℤ) : (l.map π).idxOf (π a) = l.idxOf a := by
  induction l with
  | nil => rfl
  | cons b l ih =>
    rw [List.map_cons, List.idxOf_cons, List.idxOf_cons, ih]
    by_cases h : b = a
    · rw [h, beq_self_eq_true, beq_self_eq_true]
    · rw [beq_eq_false_iff_ne.2 h, beq_eq_false_iff_ne.2 fun e => h (hinj e)]

theorem nextFacies_renum {π : ℤ → ℤ} (hinj : Function.Injective π) (facies : List ℤ) (alt : Option (List (List ℤ))) (prev : ℤ) (n : ℕ) :
    RelX (fun a b => b = π a) (nextFacies facies alt prev n) (nextFacies (facies.map π) (alt.map fun t => t.map fun r => r.map π) (π prev) n) := by
  unfold nextFacies
  cases alt with
  | none => exact choice_renum π facies n
  | some t =>
    dsimp only [Option.map_some]
    have hm : π prev ∈ facies.map π ↔ prev ∈ facies := List.mem_map_of_injective hinj
    by_cases h : prev ∈ facies
    · rw [if_pos h, if_pos (hm.2 h), idxOf_renum hinj, List.getElem?_map]
      cases t[facies.idxOf prev]? with
      | none => exact rfl
      | some row => exact choice_renum π row n
    · rw [if_neg h, if_neg (mt hm.1 h)]
      exact rfl

theorem altLoop_renum {π : ℤ → ℤ} (hinj : Function.Injective π) (facies : List ℤ) (alt : Option (List (List ℤ))) (draws : ℕ → ℕ) (k i : ℕ) (prev : ℤ) :
    RelX (fun a b => b = a.map π) (altLoop facies alt draws k i prev)
      (altLoop (facies.map π) (alt.map fun t => t.map fun r => r.map π) draws k i (π prev)) := by
  induction k generalizing i prev with
  | zero => exact rfl
  | succ k ih =>
    unfold altLoop
    refine (nextFacies_renum hinj facies alt prev (draws i)).bind ?_
    rintro f _ rfl
    refine (ih (i + 1) f).bind ?_
    rintro rest _ rfl
    exact rfl

theorem altFacies_renum {π : ℤ → ℤ} (hinj : Function.Injective π) (num : ℤ) (facies : List ℤ) (alt : Option (List (List ℤ))) (draws : ℕ → ℕ) :
    RelX (fun a b => b = a.map π) (altFacies num facies alt draws) (altFacies num (facies.map π) (alt.map fun t => t.map fun r => r.map π) draws) := by
  unfold altFacies
  split_ifs
  · exact rfl
  · refine (choice_renum π facies (draws 0)).bind ?_
    rintro f _ rfl
    exact rfl
  · refine (choice_renum π facies (draws 0)).bind ?_
    rintro f _ rfl
    refine (altLoop_renum hinj facies alt draws _ 1 f).bind ?_
    rintro rest _ rfl
    exact rfl

theorem layerTable_renum {π : ℤ → ℤ} (hinj : Function.Injective π) (dist : ℝ) (num : ℤ) (facies : List ℤ) (alt : Option (List (List ℤ))) (draws : ℕ → ℕ) :
    RelX (fun a b => b = a.map π) (layerTable dist num facies alt draws)
      (layerTable dist num (facies.map π) (alt.map fun t => t.map fun r => r.map π) draws) := by
  unfold layerTable
  split_ifs
  · exact rfl
  · exact altFacies_renum hinj num facies alt draws

/-! ### Answers -/

def Answer.renum {α : Type} (π : ℤ → ℤ) : Answer α → Answer α
  | .hit f az dp => .hit (π f) az dp
  | a => a

theorem tableHit_renum {α : Type} (π : ℤ → ℤ) (table : List ℤ) (n : ℤ) (az dp : α) : tableHit (table.map π) n az dp = (tableHit table n az dp).renum π := by
  unfold tableHit
  split_ifs
  · rfl
  · rw [List.getElem?_map]
    cases table[n.toNat]? <;> rfl

/-- What is read outside of tables, renumbered. -/
def renumStray (π : ℤ → ℤ) (stray : ℤ → ℤ × Option ℝ × Option ℝ) : ℤ → ℤ × Option ℝ × Option ℝ := fun n => (π (stray n).1, (stray n).2)

theorem Answer.toCell_renum (π : ℤ → ℤ) (stray : ℤ → ℤ × Option ℝ × Option ℝ) (a : Answer ℝ) :
    (a.renum π).toCell (renumStray π stray) = (a.toCell stray).map fun r => (π r.1, r.2) := by
  cases a <;> rfl

/-! ### Sheets -/

def InsideRead.renum (π : ℤ → ℤ) (p : InsideRead) : InsideRead :=
  { p with facies := p.facies.map π, altFacies := p.altFacies.map fun t => t.map fun r => r.map π }

def ErosiveRead.renum (π : ℤ → ℤ) (p : ErosiveRead) : ErosiveRead := { p with lagFacies := π p.lagFacies }

def ShapeRead.renum (π : ℤ → ℤ) : ShapeRead → ShapeRead
  | .sheet p => .sheet { inside := p.inside.renum π }
  | .trough p => .trough { p with inside := p.inside.renum π, erosive := p.erosive.renum π }
  | .channel p => .channel { p with inside := p.inside.renum π, erosive := p.erosive.renum π }

def ObjRandoms.renum (π : ℤ → ℤ) (r : ObjRandoms) : ObjRandoms := { r with stray := fun n => renumStray π (r.stray n) }

structure RenumSheet (π : ℤ → ℤ) (s s' : SheetObj) : Prop where
  same : s' = { s with facies := s'.facies, table := s.table.map π }
  facies : s.dipsets = false → s'.facies = π s.facies

theorem SheetObj.new_renum {π : ℤ → ℤ} (hinj : Function.Injective π) (p : SheetRead) (d : SheetDraw) (g : Grid) (zmean : ℝ) :
    RelX (RenumSheet π) (SheetObj.new p.params d g zmean) (SheetObj.new (SheetRead.params { inside := p.inside.renum π }) d g zmean) := by
  unfold SheetObj.new SheetRead.params InsideRead.renum
  dsimp only
  split_ifs
  · refine (layerTable_renum hinj _ _ _ _ _).bind ?_
    rintro t _ rfl
    exact relOk (R := RenumSheet π) ⟨rfl, fun h => absurd h (by simp)⟩
  · refine (choice_renum π _ _).bind ?_
    rintro f _ rfl
    exact relOk (R := RenumSheet π) ⟨rfl, fun _ => rfl⟩

theorem SheetObj.inner_renum {π : ℤ → ℤ} {s s' : SheetObj} (h : RenumSheet π s s') (x y z : ℝ) : s'.inner x y z = (s.inner x y z).renum π := by
  have hs := h.same
  have e1 : s'.dipsets = s.dipsets := by rw [hs]
  unfold SheetObj.inner
  rw [e1]
  by_cases hd : s.dipsets = true
  · rw [if_pos hd, if_pos hd]
    dsimp only
    rw [hs]
    exact tableHit_renum π _ _ _ _
  · rw [if_neg hd, if_neg hd, h.facies (by simpa using hd), hs]
    rfl

/-! ### Troughs -/

structure RenumTrough (π : ℤ → ℤ) (t t' : Trough) : Prop where
  same : t' = { t with lagFacies := π t.lagFacies, facies := t'.facies, table := t.table.map π }
  facies : t.kind = 0 ∨ t.kind = 2 → t'.facies = π t.facies

theorem Trough.new_renum {π : ℤ → ℤ} (hinj : Function.Injective π) {p p' : TroughParams}
    (hp : p' = { p with lagFacies := π p.lagFacies, facies := p.facies.map π, altFacies := p.altFacies.map fun t => t.map fun r => r.map π })
    (d : TroughDraw) (x y z a b c al : ℝ) : RelX (RenumTrough π) (Trough.new p d x y z a b c al) (Trough.new p' d x y z a b c al) := by
  subst hp
  unfold Trough.new Trough.base
  dsimp only
  refine RelX.same fun kind _ => ?_
  split_ifs with h0 h1 h2 h3
  · refine (choice_renum π _ _).bind ?_
    rintro f _ rfl
    exact relOk (R := RenumTrough π) ⟨rfl, fun _ => rfl⟩
  · refine (layerTable_renum hinj _ _ _ _ _).bind ?_
    rintro t _ rfl
    exact relOk (R := RenumTrough π) ⟨rfl, fun h => by
      exfalso
      dsimp only at h
      omega⟩
  · refine (choice_renum π _ _).bind ?_
    rintro f _ rfl
    exact relOk (R := RenumTrough π) ⟨rfl, fun _ => rfl⟩
  · refine (layerTable_renum hinj _ _ _ _ _).bind ?_
    rintro t _ rfl
    exact relOk (R := RenumTrough π) ⟨rfl, fun h => by
      exfalso
      dsimp only at h
      omega⟩
  · exact rfl

theorem Trough.inner_renum {π : ℤ → ℤ} {t t' : Trough} (h : RenumTrough π t t') (dx dy dz : ℝ) : t'.inner dx dy dz = (t.inner dx dy dz).renum π := by
  have hs := h.same
  have e1 : t'.kind = t.kind := by rw [hs]
  have e2 : ∀ a b c, t'.normalized a b c = t.normalized a b c := by
    intro a b c
    unfold Trough.normalized
    rw [hs]
  have e3 : ∀ a b c, bulbAngles t' a b c = bulbAngles t a b c := by
    intro a b c
    unfold bulbAngles bulbNormal
    rw [hs]
  unfold Trough.inner
  dsimp only
  rw [e1, e2, e3]
  by_cases h0 : t.kind = 0
  · rw [if_pos h0, if_pos h0, h.facies (Or.inl h0), hs]
    rfl
  · rw [if_neg h0, if_neg h0]
    by_cases h1 : t.kind = 1
    · rw [if_pos h1, if_pos h1, hs]
      exact tableHit_renum π _ _ _ _
    · rw [if_neg h1, if_neg h1]
      by_cases h23 : t.kind = 2 ∨ t.kind = 3
      · rw [if_pos h23, if_pos h23]
        by_cases h2 : t.kind = 2
        · rw [if_pos h2, if_pos h2, h.facies (Or.inr h2), hs]
          rfl
        · rw [if_neg h2, if_neg h2, hs]
          exact tableHit_renum π _ _ _ _
      · rw [if_neg h23, if_neg h23]
        rfl

theorem Trough.test_renum {π : ℤ → ℤ} {t t' : Trough} (h : RenumTrough π t t') (g : Grid) (x y z : ℝ) : t'.test g x y z = (t.test g x y z).renum π := by
  have hs := h.same
  have e1 : t'.dist g x y = t.dist g x y := by
    unfold Trough.dist
    rw [hs]
  have e2 : ∀ a b c, t'.normalized a b c = t.normalized a b c := by
    intro a b c
    unfold Trough.normalized
    rw [hs]
  have e3 : t'.z = t.z := by rw [hs]
  have e4 : t'.maxAB = t.maxAB := by rw [hs]
  have e5 : t'.c = t.c := by rw [hs]
  have e6 : t'.lag = t.lag := by rw [hs]
  have e7 : t'.lagFacies = π t.lagFacies := by rw [hs]
  unfold Trough.test
  dsimp only
  rw [e1, e2, e3, e4, e5, e6, e7, Trough.inner_renum h]
  split_ifs <;> rfl

theorem Trough.toObj_renum {π : ℤ → ℤ} {t t' : Trough} (h : RenumTrough π t t') (g : Grid) (stray : ℤ → ℤ × Option ℝ × Option ℝ) :
    RenumObj π (t.toObj g stray) (t'.toObj g (renumStray π stray)) := by
  refine ⟨?_, ?_, rfl, fun i j z => ?_⟩
  · show t'.zmin = t.zmin
    rw [h.same]
  · show t'.zmax = t.zmax
    rw [h.same]
  · unfold Trough.toObj
    dsimp only
    rw [Trough.test_renum h, Answer.toCell_renum]

theorem makeTroughs_renum {π : ℤ → ℤ} (hinj : Function.Injective π) {p p' : TroughParams}
    (hp : p' = { p with lagFacies := π p.lagFacies, facies := p.facies.map π, altFacies := p.altFacies.map fun t => t.map fun r => r.map π })
    (z0 lz : ℝ) (draws : ℕ → TroughDraw) (n : ℕ) (l : List (ℝ × ℝ × ℝ)) :
    RelX (List.Forall₂ (RenumTrough π)) (makeTroughs p z0 lz draws n l) (makeTroughs p' z0 lz draws n l) := by
  induction l generalizing n with
  | nil => exact List.Forall₂.nil
  | cons q l ih =>
    have e : troughAxes p' z0 lz q.2.2 = troughAxes p z0 lz q.2.2 := by
      rw [hp]
      rfl
    unfold makeTroughs
    rw [e]
    refine (Trough.new_renum hinj hp _ _ _ _ _ _ _ _).bind fun t t' ht => (ih (n + 1)).bind fun ts ts' hts => ?_
    exact List.Forall₂.cons ht hts

theorem placeTroughs_renum {π : ℤ → ℤ} (hinj : Function.Injective π) (p : TroughRead) (g : Grid) (r : ObjRandoms) (bottom top : Surface ℝ) :
    RelX (List.Forall₂ (RenumTrough π)) (placeTroughs p g r bottom top)
      (placeTroughs { p with inside := p.inside.renum π, erosive := p.erosive.renum π } g (r.renum π) bottom top) := by
  unfold placeTroughs
  refine RelX.same (x := troughGuard p g r _) fun _ _ => ?_
  unfold generateTroughs
  dsimp only
  rw [show (TroughRead.params { p with inside := p.inside.renum π, erosive := p.erosive.renum π }).teXyz = p.params.teXyz from rfl]
  cases p.params.teXyz with
  | none => exact RelX.same (x := troughPositions p.params (r.place p g) bottom.zmax top.zmean) fun te _ => makeTroughs_renum (p := p.params) hinj rfl _ _ _ 0 te
  | some te => exact makeTroughs_renum (p := p.params) hinj rfl _ _ _ 0 te

/-! ### Channels -/

structure RenumChannel (π : ℤ → ℤ) (c c' : Channel) : Prop where
  same : c' = { c with lagFacies := π c.lagFacies, facies := c'.facies, table := c.table.map π }
  facies : c.dipsets = false → c'.facies = π c.facies

theorem Channel.new_renum {π : ℤ → ℤ} (hinj : Function.Injective π) {p p' : ChannelParams}
    (hp : p' = { p with lagFacies := π p.lagFacies, facies := p.facies.map π, altFacies := p.altFacies.map fun t => t.map fun r => r.map π })
    (d : ChannelDraw) (g : Grid) (pts : List CPoint) (z w de : ℝ) : RelX (RenumChannel π) (Channel.new p d g pts z w de) (Channel.new p' d g pts z w de) := by
  subst hp
  unfold Channel.new
  dsimp only
  split_ifs with h0 h1
  · exact rfl
  · refine (layerTable_renum hinj _ _ _ _ _).bind ?_
    rintro t _ rfl
    exact relOk (R := RenumChannel π) ⟨rfl, fun h => absurd h (by simp)⟩
  · refine (choice_renum π _ _).bind ?_
    rintro f _ rfl
    exact relOk (R := RenumChannel π) ⟨rfl, fun _ => rfl⟩

theorem Channel.inner_renum {π : ℤ → ℤ} {c c' : Channel} (h : RenumChannel π c c') (x y z : ℝ) : c'.inner x y z = (c.inner x y z).renum π := by
  have hs := h.same
  have e1 : c'.dipsets = c.dipsets := by rw [hs]
  have e2 : c'.ztop - c'.depth + c'.lagHeight = c.ztop - c.depth + c.lagHeight := by rw [hs]
  unfold Channel.inner
  rw [e1, e2]
  by_cases h0 : z < c.ztop - c.depth + c.lagHeight
  · rw [if_pos h0, if_pos h0, hs]
    rfl
  · rw [if_neg h0, if_neg h0]
    by_cases hd : c.dipsets = true
    · rw [if_pos hd, if_pos hd]
      dsimp only
      rw [hs]
      exact tableHit_renum π _ _ _ _
    · rw [if_neg hd, if_neg hd, h.facies (by simpa using hd), hs]
      rfl

theorem Channel.test_renum {π : ℤ → ℤ} {c c' : Channel} (h : RenumChannel π c c') (g : Grid) (k : Cache) (x y z : ℝ) (xi yi : ℕ) :
    (c'.test g k x y z xi yi).1 = (c.test g k x y z xi yi).1.renum π := by
  have hs := h.same
  have e1 : c'.xyDist x y = c.xyDist x y := by
    unfold Channel.xyDist
    rw [hs]
  have e2 : c'.ztop = c.ztop := by rw [hs]
  have e3 : c'.a = c.a := by rw [hs]
  have e4 : c'.depth = c.depth := by rw [hs]
  unfold Channel.test
  dsimp only
  rw [e1, e2, e3, e4, Channel.inner_renum h]
  by_cases h1 : z - c.ztop > 0
  · rw [if_pos h1, if_pos h1]
    rfl
  · rw [if_neg h1, if_neg h1]
    by_cases h2 : k xi yi = true
    · rw [if_pos h2, if_pos h2]
      rfl
    · rw [if_neg h2, if_neg h2]
      by_cases h3 : z - c.ztop ≥ c.a * c.xyDist x y ^ 2 - c.depth
      · rw [if_pos h3, if_pos h3]
      · rw [if_neg h3, if_neg h3]
        rfl

theorem Channel.toObj_renum {π : ℤ → ℤ} {c c' : Channel} (h : RenumChannel π c c') (g : Grid) (skip : ℕ → ℕ → ℝ → Bool) (stray : ℤ → ℤ × Option ℝ × Option ℝ) :
    RenumObj π (c.toObj g skip stray) (c'.toObj g skip (renumStray π stray)) := by
  refine ⟨?_, ?_, rfl, fun i j z => ?_⟩
  · show c'.zmin = c.zmin
    rw [h.same]
  · show c'.zmax = c.zmax
    rw [h.same]
  · unfold Channel.toObj
    dsimp only
    rw [Channel.test_renum h, Answer.toCell_renum]
    split_ifs <;> rfl

theorem channelsOnLevel_renum {π : ℤ → ℤ} (hinj : Function.Injective π) {p p' : ChannelParams}
    (hp : p' = { p with lagFacies := π p.lagFacies, facies := p.facies.map π, altFacies := p.altFacies.map fun t => t.map fun r => r.map π })
    (g : Grid) (draws : ℕ → ChannelDraw) (curve : ℕ → ℝ → Except PyErr (List CPoint)) (z : ℝ) (m n : ℕ) :
    RelX (List.Forall₂ (RenumChannel π)) (channelsOnLevel p g draws curve z m n) (channelsOnLevel p' g draws curve z m n) := by
  have e1 : p'.width = p.width := by rw [hp]
  have e2 : p'.depth = p.depth := by rw [hp]
  have e3 : channelFactor p' g z = channelFactor p g z := by
    rw [hp]
    rfl
  induction m generalizing n with
  | zero => exact List.Forall₂.nil
  | succ m ih =>
    unfold channelsOnLevel
    rw [e1, e2, e3]
    refine RelX.same fun pts _ => (Channel.new_renum hinj hp _ g pts z _ _).bind fun c c' hc => (ih (n + 1)).bind fun l l' hl => ?_
    exact List.Forall₂.cons hc hl

/-- Placed channels, or none if a loop did not end. -/
def RelO {ε β γ : Type} (R : β → γ → Prop) : Option (Except ε β) → Option (Except ε γ) → Prop
  | some x, some y => RelX R x y
  | none, none => True
  | _, _ => False

theorem channelLevels_renum {π : ℤ → ℤ} (hinj : Function.Injective π) {p p' : ChannelParams}
    (hp : p' = { p with lagFacies := π p.lagFacies, facies := p.facies.map π, altFacies := p.altFacies.map fun t => t.map fun r => r.map π })
    (g : Grid) (draws : ℕ → ChannelDraw) (curve : ℕ → ℝ → Except PyErr (List CPoint)) (zb : ℝ) (fuel : ℕ) (z : ℝ) (n : ℕ) :
    RelO (List.Forall₂ (RenumChannel π)) (channelLevels p g draws curve zb fuel z n) (channelLevels p' g draws curve zb fuel z n) := by
  have e1 : p'.channelNo = p.channelNo := by rw [hp]
  have e2 : p'.agg = p.agg := by rw [hp]
  induction fuel generalizing z n with
  | zero =>
    unfold channelLevels
    split_ifs
    · exact trivial
    · exact List.Forall₂.nil
  | succ fuel ih =>
    unfold channelLevels
    rw [e1, e2]
    split_ifs
    · have hl := channelsOnLevel_renum hinj hp g draws curve z p.channelNo n
      revert hl
      cases channelsOnLevel p g draws curve z p.channelNo n <;> cases channelsOnLevel p' g draws curve z p.channelNo n <;> intro hl <;>
        first | exact hl.elim | skip
      · exact hl
      · dsimp only
        have hr := ih (z - p.agg) (n + p.channelNo)
        revert hr
        rcases channelLevels p g draws curve zb fuel (z - p.agg) (n + p.channelNo) with _ | (_ | _) <;>
          rcases channelLevels p' g draws curve zb fuel (z - p.agg) (n + p.channelNo) with _ | (_ | _) <;> intro hr <;> first | exact hr.elim | skip
        · exact trivial
        · exact hr
        · exact List.rel_append hl hr
    · exact List.Forall₂.nil

theorem placeChannels_renum {π : ℤ → ℤ} (hinj : Function.Injective π) (p : ChannelRead) (g : Grid) (r : ObjRandoms) (fuel : ℕ) (bottom top : Surface ℝ) :
    RelO (List.Forall₂ (RenumChannel π)) (placeChannels p g r fuel bottom top)
      (placeChannels { p with inside := p.inside.renum π, erosive := p.erosive.renum π } g (r.renum π) fuel bottom top) := by
  unfold placeChannels
  dsimp only
  split_ifs
  · exact rfl
  · unfold generateChannels
    have e : channelBufferFactor (ChannelRead.params { p with inside := p.inside.renum π, erosive := p.erosive.renum π }) = channelBufferFactor p.params := rfl
    rw [e]
    cases channelBufferFactor p.params with
    | error e => exact rfl
    | ok f => exact channelLevels_renum (p := p.params) hinj rfl g _ _ _ fuel _ 0

/-! ### All objects -/

theorem numbered_renum {β : Type} {R : β → β → Prop} {S : GObj ℝ → GObj ℝ → Prop} {f f' : ℕ → β → GObj ℝ} (h : ∀ n a b, R a b → S (f n a) (f' n b)) {l l' : List β}
    (hl : List.Forall₂ R l l') (n : ℕ) : List.Forall₂ S (numbered f n l) (numbered f' n l') := by
  induction hl generalizing n with
  | nil => exact .nil
  | cons hr _ ih => exact .cons (h n _ _ hr) (ih (n + 1))

/-- Shapes read from two files. -/
def renumShapes (π : ℤ → ℤ) (shapes : List (String × ShapeRead)) : List (String × ShapeRead) := shapes.map fun x => (x.1, x.2.renum π)

theorem lookup_renum (π : ℤ → ℤ) (shapes : List (String × ShapeRead)) (n : String) : (renumShapes π shapes).lookup n = (shapes.lookup n).map (ShapeRead.renum π) := by
  unfold renumShapes
  induction shapes with
  | nil => rfl
  | cons x l ih =>
    obtain ⟨k, s⟩ := x
    simp only [List.map_cons, List.lookup_cons]
    cases n == k with
    | true => rfl
    | false => exact ih

theorem objectsOf_renum {σ π : ℤ → ℤ} (hinj : Function.Injective π) (g : Grid) (shapes : List (String × ShapeRead)) (r : ObjRandoms) (fuel : ℕ)
    (t : ElemParams ℝ) (bottom top : Surface ℝ) :
    RenumPlaced π (objectsOf g shapes r fuel t bottom top) (objectsOf g (renumShapes π shapes) (r.renum π) fuel (t.renum σ π) bottom top) := by
  unfold objectsOf
  rw [show (t.renum σ π).name = t.name from rfl, lookup_renum]
  rcases shapes.lookup t.name with _ | (p | p | p)
  · exact rfl
  · exact rfl
  · dsimp only [Option.map_some, ShapeRead.renum]
    have h := placeTroughs_renum hinj p g r bottom top
    revert h
    cases placeTroughs p g r bottom top <;>
      cases placeTroughs { p with inside := p.inside.renum π, erosive := p.erosive.renum π } g (r.renum π) bottom top <;> intro h <;>
      first | exact h.elim | skip
    · exact h
    · exact numbered_renum (R := RenumTrough π) (fun n a b hab => Trough.toObj_renum hab g (r.stray n)) h 0
  · dsimp only [Option.map_some, ShapeRead.renum]
    have h := placeChannels_renum hinj p g r fuel bottom top
    revert h
    rcases placeChannels p g r fuel bottom top with _ | (_ | _) <;>
      rcases placeChannels { p with inside := p.inside.renum π, erosive := p.erosive.renum π } g (r.renum π) fuel bottom top with _ | (_ | _) <;> intro h <;>
      first | exact h.elim | skip
    · exact trivial
    · exact h
    · exact numbered_renum (R := RenumChannel π) (fun n a b hab => Channel.toObj_renum hab g (r.skip n) (r.stray n)) h 0

theorem sheetOf_renum {σ π : ℤ → ℤ} (hinj : Function.Injective π) (g : Grid) (shapes : List (String × ShapeRead)) (r : ObjRandoms) (t : ElemParams ℝ) (n : ℕ)
    (zmean : ℝ) : RelX (RenumPayload π) (sheetOf g shapes r t n zmean) (sheetOf g (renumShapes π shapes) (r.renum π) (t.renum σ π) n zmean) := by
  unfold sheetOf
  rw [show (t.renum σ π).name = t.name from rfl, lookup_renum]
  rcases shapes.lookup t.name with _ | (p | p | p)
  · exact rfl
  · dsimp only [Option.map_some, ShapeRead.renum]
    refine (SheetObj.new_renum hinj p _ g zmean).bind fun s s' hs => ?_
    have : RenumPayload π (fun i j z => ((s.inner (coord g.x i) (coord g.y j) z).toCell (r.stray n)).getD (r.stray n 0))
        (fun i j z => ((s'.inner (coord g.x i) (coord g.y j) z).toCell ((r.renum π).stray n)).getD ((r.renum π).stray n 0)) := by
      intro i j z
      dsimp only
      rw [SheetObj.inner_renum hs, show (r.renum π).stray n = renumStray π (r.stray n) from rfl, Answer.toCell_renum]
      cases (s.inner (coord g.x i) (coord g.y j) z).toCell (r.stray n) <;> rfl
    exact this
  · exact rfl
  · exact rfl

theorem withObjects_renum {σ π : ℤ → ℤ} (hinj : Function.Injective π) (g : Grid) (shapes : List (String × ShapeRead)) (o : ℕ → ℕ → ObjRandoms)
    (d : ℕ → StratumDraw ℝ) (si : ℕ) :
    RenumStratumDraw σ π (withObjects g shapes o d si) (withObjects g (renumShapes π shapes) (fun si n => (o si n).renum π) d si) :=
  ⟨rfl, fun n => ⟨rfl, fun fuel t bt tp => objectsOf_renum hinj g shapes (o si n) fuel t bt tp, fun t k z => sheetOf_renum hinj g shapes (o si n) t k z⟩⟩

end Hyvr
