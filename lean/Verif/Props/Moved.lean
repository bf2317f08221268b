import Verif.Lemmas.Moved
import Verif.Props.Cake
import Verif.Props.Translate

/-!
C122: the horizontal origin of the grid.
-/

namespace Hyvr

open Py Real Spec

/-- **C122 (partial).** Two accepted ini-files that differ only in the origin `x0`, `y0` of the horizontal coordinates, and whose elements are massive sheets and
troughs whose centres are drawn, give the same contact surfaces, cells and hydraulic parameters, or stop in the same way, from the same random numbers.
Missing: layered sheets and channels, for which it is false (`C122_sheets_refuted`, `C122_channels_refuted`), and troughs with given centres, which stay
where they are. -/
theorem C122_partial (C : Convs) (p p' : Ini) (hp : p.get "run" "dataoutputs" = none) (hp' : p'.get "run" "dataoutputs" = none) (dir dir' : Path)
    (ini ini' : List Char) (answer answer' : Path) (st st' : Settings) (hst : settings C p dir ini answer = .ok st)
    (hst' : settings C p' dir' ini' answer' = .ok st') (hm : Moved p p') (he : ∀ x ∈ st.parsed.elements, Movable x.2.dict) :
    st'.ids = st.ids ∧ ∀ ids r o d field, Alike (simulate st.parsed ids r o d field) (simulate st'.parsed ids r o d field) := by
  obtain ⟨p1, p2, u, p3⟩ := settings_facts hp hst
  obtain ⟨q1, q2, v, q3⟩ := settings_facts hp' hst'
  obtain ⟨x, y, hx, hy⟩ := origin_number p3
  obtain ⟨x', y', hx', hy'⟩ := origin_number q3
  have hs := parsed_moved p1 q1 hm hx' hy'
  refine ⟨Except.ok.inj (q2.symm.trans ((aeIds_agree hs).symm.trans p2)), fun ids r o d field => alike_of ?_⟩
  rw [← simulate_agree hs]
  exact simulate_moved he hx hy ids r o d field

/-- Check of `Spec.Moved`. -/
def movedB (p p' : Ini) : Bool :=
  decide (elementSections p = elementSections p') && ((modelFixed.all fun k => decide (p.get "model" k = p'.get "model" k)) &&
  ((strataUsed.all fun k => decide (p.get "strata" k = p'.get "strata" k)) && ((hydraulicsUsed.all fun k => decide (p.get "hydraulics" k = p'.get "hydraulics" k)) &&
  (elementSections p).all fun s => match p.get s "geometry" with
    | some (.leaf (.text g)) => (elementUsed g).all fun k => decide (p.get s k = p'.get s k)
    | _ => true)))

theorem moved_of {p p' : Ini} (h : movedB p p' = true) : Moved p p' := by
  simp only [movedB, Bool.and_eq_true] at h
  obtain ⟨h1, h2, h3, h4, h5⟩ := h
  refine ⟨of_decide_eq_true h1, fun s k hu hn => ?_⟩
  cases hu with
  | model hk =>
    have : ∀ k ∈ modelUsed, k = "x0" ∨ k = "y0" ∨ k ∈ modelFixed := by decide
    rcases this k hk with h | h | h
    · exact absurd ⟨rfl, Or.inl h⟩ hn
    · exact absurd ⟨rfl, Or.inr h⟩ hn
    · exact of_decide_eq_true (List.all_eq_true.1 h2 _ h)
  | strata hk => exact of_decide_eq_true (List.all_eq_true.1 h3 _ hk)
  | hydraulics hk => exact of_decide_eq_true (List.all_eq_true.1 h4 _ hk)
  | element hs hg hk =>
    have := List.all_eq_true.1 h5 _ hs
    rw [hg] at this
    exact of_decide_eq_true (List.all_eq_true.1 this _ hk)

/-- The example with the origin at (2, 3). -/
def exThere : Ini := iniOf (withOptions "model" [("x0", "2"), ("y0", "3")] exSections)

/-- Check of `Spec.Movable`. -/
def movableB (P : Parsed) : Bool :=
  P.elements.all fun x => writtenB x.2.dict "geometry" "sheet" && writtenB x.2.dict "structure" "massive" ||
    writtenB x.2.dict "geometry" "trough" && decide (x.2.dict "te_xyz" = some (.leaf .none))

theorem movable_of {P : Parsed} (h : movableB P = true) : ∀ x ∈ P.elements, Movable x.2.dict := by
  intro x hx
  have := List.all_eq_true.1 h x hx
  simp only [Bool.or_eq_true, Bool.and_eq_true] at this
  rcases this with ⟨h1, h2⟩ | ⟨h1, h2⟩
  · exact Or.inl ⟨written_true h1, fun hc => absurd (written_not h2 hc) (by decide)⟩
  · exact Or.inr ⟨written_true h1, of_decide_eq_true h2⟩

theorem exIni_here : ∃ st, settings exConvs exIni ["m"] "a.ini".toList [] = .ok st ∧
    (movableB st.parsed && decide (st.parsed.model "x0" = some (numVal 0)) && st.parsed.elements.any fun x => writtenB x.2.dict "geometry" "trough") = true :=
  ok_check (by decide +kernel)

theorem exIni_there : ∃ st, settings exConvs exThere ["m"] "b.ini".toList [] = .ok st ∧ decide (st.parsed.model "x0" = some (numVal 2)) = true :=
  ok_check (by decide +kernel)

/-- C122 applies to the example with troughs and massive sheets and the same with another origin. -/
example : ∃ st st', settings exConvs exIni ["m"] "a.ini".toList [] = .ok st ∧ settings exConvs exThere ["m"] "b.ini".toList [] = .ok st' ∧
    st.parsed.model "x0" = some (numVal 0) ∧ st'.parsed.model "x0" = some (numVal 2) ∧
    (∃ x ∈ st.parsed.elements, written x.2.dict "geometry" "trough") ∧
    ∀ ids r o d field, Alike (simulate st.parsed ids r o d field) (simulate st'.parsed ids r o d field) := by
  obtain ⟨st, h1, h2⟩ := exIni_here
  obtain ⟨st', h3, h4⟩ := exIni_there
  simp only [Bool.and_eq_true, List.any_eq_true] at h2
  obtain ⟨⟨h2, h5⟩, x, hx, h6⟩ := h2
  exact ⟨st, st', h1, h3, of_decide_eq_true h5, of_decide_eq_true h4, ⟨x, hx, written_true h6⟩,
    (C122_partial exConvs exIni exThere (by decide +kernel) (by decide +kernel) _ _ _ _ _ _ st st' h1 h3 (moved_of (by decide +kernel)) (movable_of h2)).2⟩

theorem exCake_there : ∃ st, settings exMinus (exCake [("x0", "2")]) ["m"] "a.ini".toList [] = .ok st ∧ cakeB "internal" 5 st.parsed = true :=
  ok_check (by decide +kernel)

/-- The realisations that are compared exist: the example of two flat strata has them at both places. -/
example (field : FieldSource) : ∃ st st' S S', settings exMinus (exCake []) ["m"] "a.ini".toList [] = .ok st ∧
    settings exMinus (exCake [("x0", "2")]) ["m"] "a.ini".toList [] = .ok st' ∧ ∃ d,
    simulate st.parsed st.ids exReals (fun _ _ => exObjReals) d field = .ok S ∧ simulate st'.parsed st'.ids exReals (fun _ _ => exObjReals) d field = .ok S' ∧
    S'.cells = S.cells ∧ S'.params = S.params := by
  obtain ⟨st, h1, h2⟩ := exCake_internal
  obtain ⟨st', h3, h4⟩ := exCake_there
  obtain ⟨F, S, -, hF⟩ := cake_simulated h1 (cake_of h2) field
  have he : ∀ x ∈ st.parsed.elements, Movable x.2.dict := by
    intro x hx
    obtain ⟨s, e⟩ := x
    obtain ⟨f, az, dp, c⟩ := (cake_of h2).section_ hx
    exact Or.inl ⟨c.geometry, fun hc => absurd (written_eq hc c.massive) (by decide)⟩
  obtain ⟨hi, hA⟩ := C122_partial exMinus _ _ (cake_new _) (cake_new _) _ _ _ _ _ _ st st' h1 h3 (moved_of (by decide +kernel)) he
  have := hA st.ids exReals (fun _ _ => exObjReals) (fun si => withFuel F (exRealDraws si)) field
  rw [hF F le_rfl] at this
  cases hS : simulate st'.parsed st.ids exReals (fun _ _ => exObjReals) (fun si => withFuel F (exRealDraws si)) field with
  | error e => rw [hS] at this; exact this.elim
  | ok S' =>
    rw [hS] at this
    exact ⟨st, st', S, S', h1, h3, _, hF F le_rfl, hi ▸ hS, this.cells, this.params⟩

/-! ### Layered sheets -/

/-- **C122 fails for layered sheets.** Whatever the parameters, random numbers and domain: unless the layers strike in x-direction, there is a place to which the
domain can be moved where the constructor of the sheet raises an exception, and another one where it does not. The number of layers is calculated from the distance
between the domain's centre and the origin of the coordinates. -/
theorem C122_sheets_refuted (p : SheetParams) (d : SheetDraw) (g : Grid) (zmean : ℝ) (hs : p.struct = "dip") (hd : 0 < p.dipsetDist) (hf : p.facies ≠ [])
    (ha : Successors p.facies p.altFacies) (hn : sin (d.dip * π / 180) * cos (d.azim * π / 180) ≠ 0) :
    (∃ x0, SheetObj.new p d { g with x0 := x0 } zmean = .error .valueError) ∧ ∃ x0 s, SheetObj.new p d { g with x0 := x0 } zmean = .ok s := by
  have key : ∀ n : ℤ, ∃ (x0 : ℝ) (s : SheetObj), (SheetObj.new p d { g with x0 := x0 } zmean = do
      let table ← altFacies (n + 10) p.facies p.altFacies d.layers
      return { s with table := table }) := by
    intro n
    let N := -sin (d.dip * π / 180) * cos (d.azim * π / 180)
    have hN : N ≠ 0 := by
      simp only [N, neg_mul]
      exact neg_ne_zero.2 hn
    let R := max (max g.ly g.ly) g.lz + (sin (d.dip * π / 180) * sin (d.azim * π / 180) * (g.y0 + g.ly / 2) + cos (d.dip * π / 180) * zmean + d.u * p.dipsetDist)
    let x0 := (n * p.dipsetDist - R) / N - g.lx / 2
    have hq : (max (max g.ly g.ly) g.lz + (-sin (d.dip * π / 180) * cos (d.azim * π / 180) * (x0 + g.lx / 2) +
        sin (d.dip * π / 180) * sin (d.azim * π / 180) * (g.y0 + g.ly / 2) + cos (d.dip * π / 180) * zmean + d.u * p.dipsetDist)) / p.dipsetDist = (n : ℝ) := by
      have : N * (x0 + g.lx / 2) = n * p.dipsetDist - R := by
        simp only [x0, sub_add_cancel]
        rw [mul_div_cancel₀ _ hN]
      rw [div_eq_iff hd.ne']
      simp only [N, R] at this
      linarith
    refine ⟨x0, ?_⟩
    unfold SheetObj.new
    rw [if_pos hs]
    dsimp only
    rw [hq, Int.ceil_intCast, pyInt_intCast, layerTable_eq hd.ne']
    exact ⟨⟨true, p.dipsetDist, d.azim, d.dip, _, _, _, _, _, [], 0⟩, rfl⟩
  constructor
  · obtain ⟨x0, s, h⟩ := key (-11)
    refine ⟨x0, h.trans ?_⟩
    rfl
  · obtain ⟨x0, s, h⟩ := key 0
    obtain ⟨l, hl⟩ := altFacies_total hf ha d.layers (num := 0 + 10) (by norm_num)
    exact ⟨x0, { s with table := l }, h.trans (of_ok hl)⟩

/-- C122_sheets_refuted applies to layers that dip by 30 degrees. -/
example (g : Grid) : ∃ x0 zmean, SheetObj.new ⟨"dip", [1, 2], none, 1⟩ ⟨0, 30, 0, 0, fun _ => 0⟩ { g with x0 := x0 } zmean = .error .valueError := by
  have h : sin ((30 : ℝ) * π / 180) * cos (0 * π / 180) ≠ 0 := by
    rw [show (30 : ℝ) * π / 180 = π / 6 by ring, sin_pi_div_six, zero_mul, zero_div, cos_zero]
    norm_num
  obtain ⟨⟨x0, hx⟩, -⟩ := C122_sheets_refuted ⟨"dip", [1, 2], none, 1⟩ ⟨0, 30, 0, 0, fun _ => 0⟩ g 0 rfl one_pos (by simp) (by intro rows h; cases h) h
  exact ⟨x0, 0, hx⟩

/-! ### Channels -/

/-- **C122 fails for channels.** If the domain is moved, its channels move with it only half of the way. -/
theorem C122_channels_refuted (g : Grid) (ang width ystart a b : ℝ) :
    channelStart (g.moved a b) ang width ystart = ((channelStart g ang width ystart).1 + a / 2, (channelStart g ang width ystart).2 + b / 2) := by
  simp only [channelStart, domainLength, Grid.moved, Prod.mk.injEq]
  constructor <;> ring

/-- A domain that begins at x = 20 instead of 0: the channels begin only 10 further. -/
example (g : Grid) (h : g.x0 = 0) (ang width ystart : ℝ) :
    (channelStart { g with x0 := 20 } ang width ystart).1 = (channelStart g ang width ystart).1 + 10 := by
  have := congrArg Prod.fst (C122_channels_refuted g ang width ystart 20 0)
  simp only [Grid.moved, h, zero_add, add_zero] at this
  rw [this]
  norm_num

end Hyvr
