import Verif.Lemmas.Cuts
import Verif.Lemmas.Facies
import Verif.Lemmas.Trough
import Verif.Model.Sheet
import Verif.Spec.KTensor
import Verif.Props.Units

/-!
Sheets: exact boundaries (C32) and facies tables (C33).
-/

set_option linter.unusedSectionVars false

namespace Hyvr

open Py Spec

/-! ### C32: boundaries -/

section

variable {α : Type} [Field α] [LinearOrder α]

/-- **C32 (massive).** With lens_thickness = -1 the AE consists of exactly one sheet, from the AE's bottom to its top; no surface is changed.
The inside of the sheet (`Sheet.__init__`) must raise no exception, see C33. -/
theorem C32_massive {g : GridZ α} {sp : StratumParams α} {t : ElemParams α} {d : AEDraw α} {h : Heap α} {bottom top : ℕ}
    (hgeo : t.geometry = "sheet") (hl : t.lensThickness = -1) (hf : 0 < d.sheetFuel) (hp : ∀ zm, ∃ p, d.sheet t 0 zm = .ok p) :
    ∃ a o, genAE g sp t d h bottom top = .ok (h, a) ∧ a.objs = [o] ∧ o.zmin = (h.get bottom).zmin ∧ o.zmax = (h.get top).zmax ∧
      ∀ i j z, o.answer i j z ≠ none ↔ (h.get bottom).vals i j ≤ z ∧ z ≤ (h.get top).vals i j := by
  obtain ⟨n, hn⟩ := Nat.exists_eq_succ_of_ne_zero hf.ne'
  unfold genAE sheetThickness
  dsimp only
  rw [if_neg (by rw [hgeo]; decide), if_pos hgeo, if_pos hl, hn, sub_sub_cancel]
  obtain ⟨p, hp⟩ := hp (h.get bottom).zmean
  have hp' : d.sheet t 0 (SheetRaw.new h bottom top).zmean = .ok p := hp
  simp only [Nat.succ_eq_add_one, sheetLoop, gt_iff_lt, lt_self_iff_false, if_false, bind, Except.bind, pure, Except.pure, sheetObjs, hp', liftErr]
  refine ⟨_, _, rfl, rfl, rfl, rfl, ?_⟩
  intro i j z
  unfold SheetRaw.toObj SheetRaw.new
  dsimp only
  split_ifs with h
  · simp only [ne_eq, not_true_eq_false, false_iff]
    rintro ⟨h1, h2⟩
    rcases h with h | h
    · exact absurd h1 (not_le.2 h)
    · exact absurd h2 (not_le.2 h)
  · rw [not_or] at h
    exact ⟨fun _ => ⟨not_lt.1 h.1, not_lt.1 h.2⟩, fun _ => by simp⟩

end

section

variable {α : Type} [Field α] [LinearOrder α] [IsStrictOrderedRing α]

/-- **C32 (thickness).** The thickness is lens_thickness times the trend factor: 1 without a trend, `f0` for AEs centred at or below the domain bottom,
`f1` at or above the domain top, the linear interpolation in between. -/
theorem C32_thickness {g : GridZ α} {t : ElemParams α} {e : Extent α} (hl : t.lensThickness ≠ -1) :
    (t.sizeZtrend = none → sheetThickness g t e = t.lensThickness) ∧
    ∀ f0 f1, t.sizeZtrend = some (f0, f1) → 0 < g.lz →
      ((e.zmin + e.zmax) / 2 ≤ g.z0 → sheetThickness g t e = t.lensThickness * f0) ∧
      (g.z0 + g.lz ≤ (e.zmin + e.zmax) / 2 → sheetThickness g t e = t.lensThickness * f1) ∧
      ∀ s, 0 ≤ s → s ≤ 1 → (e.zmin + e.zmax) / 2 = (1 - s) * g.z0 + s * (g.z0 + g.lz) →
        sheetThickness g t e = t.lensThickness * ((1 - s) * f0 + s * f1) := by
  unfold sheetThickness
  rw [if_neg hl]
  constructor
  · intro h; rw [h]
  · intro f0 f1 h hlz
    rw [h]
    dsimp only
    unfold interp2 GridZ.zmax
    refine ⟨?_, ?_, ?_⟩
    · intro hz
      rw [if_pos hz]
    · intro hz
      rw [if_neg (by linarith), if_pos (by linarith)]
    · intro s h0 h1 hz
      rw [hz]
      have e1 : (1 - s) * g.z0 + s * (g.z0 + g.lz) = g.z0 + s * g.lz := by ring
      rw [e1]
      rcases h0.eq_or_lt with rfl | h0
      · rw [if_pos (by linarith)]; ring
      rcases h1.eq_or_lt with rfl | h1
      · rw [if_neg (by linarith), if_pos (by linarith)]; ring
      have h2 : 0 < s * g.lz := mul_pos h0 hlz
      have h3 : s * g.lz < g.lz := by nlinarith
      rw [if_neg (by linarith), if_neg (by linarith)]
      congr 1
      have : g.lz ≠ 0 := hlz.ne'
      rw [add_sub_cancel_left, add_sub_cancel_left]
      field_simp
      ring

namespace Spec

/-- Boundary `k` (counted from the top) between `N` sheets of thickness `th` in a column where the AE has top `T` and bottom `B`; `zmax` is the
AE's highest elevation. Boundary 0 is the AE's top, boundary `N` its bottom. -/
def sheetBoundary (N : ℕ) (zmax th T B : α) (k : ℕ) : α :=
  if k = 0 then T else if k = N then B else if k + 1 = N then min (zmax - k * th) T else max (min (zmax - k * th) T) B

end Spec

/-- **C32 (boundaries).** Cutting an AE into sheets of thickness `th`: the number of sheets is one more than the number of levels `zmax - k*th`
(`k = 1, 2, ...`) above the AE's lowest point, and sheet `k` covers exactly the interval between the boundaries `k` and `k + 1`: horizontal
planes at these levels, limited by the AE's surfaces; only the last of these planes is not limited by the AE's bottom. -/
theorem C32_boundaries {g : GridZ α} {sp : StratumParams α} {t : ElemParams α} {d : AEDraw α} {h h' : Heap α} {bottom top : ℕ}
    {a : AEReal α} (hok : HeapOK h) (hb : bottom < h.next) (ht : top < h.next) (hne : bottom ≠ top) (hbt : Below h bottom top)
    (hgeo : t.geometry = "sheet") {th : α} (hdef : th = sheetThickness g t ⟨(h.get bottom).zmin, (h.get top).zmax⟩) (hth : 0 < th)
    (hr : genAE g sp t d h bottom top = .ok (h', a)) :
    (∀ k : ℕ, k + 1 < a.objs.length ↔ (h.get bottom).zmin < (h.get top).zmax - (k + 1) * th) ∧
    ∀ i < h.nx, ∀ j < h.ny, ∀ k o, a.objs[k]? = some o → ∀ z, o.answer i j z ≠ none ↔
      sheetBoundary a.objs.length (h.get top).zmax th ((h.get top).vals i j) ((h.get bottom).vals i j) (k + 1) ≤ z ∧
      z ≤ sheetBoundary a.objs.length (h.get top).zmax th ((h.get top).vals i j) ((h.get bottom).vals i j) k := by
  unfold genAE at hr
  dsimp only at hr
  rw [if_neg (by rw [hgeo]; decide), if_pos hgeo, ← hdef] at hr
  simp only [bind_ok, pure_ok, Prod.mk.injEq] at hr
  obtain ⟨⟨h1, e1, ss⟩, hl, os, hos, rfl, rfl⟩ := hr
  obtain ⟨p, rfl, -⟩ := sheetObjs_ok (liftErr_ok.1 hos)
  have hmin : ∀ i < h.nx, ∀ j < h.ny, (h.get bottom).zmin ≤ (h.get top).vals i j := fun i hi j hj =>
    (hok bottom hb i hi j hj).1.trans (hbt i hi j hj)
  obtain ⟨c1, c2⟩ := sheetLoop_cuts hok ht hb hne hmin hth hl
  dsimp only at c1 c2 ⊢
  rw [List.length_mapIdx]
  constructor
  · intro k
    rw [c1 k]
    have : (h.get top).zmax - th - (k : α) * th = (h.get top).zmax - ((k : α) + 1) * th := by ring
    rw [this]
  · intro i hi j hj k o ho z
    rw [List.getElem?_mapIdx] at ho
    rcases hs : ss[k]? with _ | s
    · rw [hs] at ho; simp at ho
    rw [hs] at ho
    simp only [Option.map_some, Option.some.injEq] at ho
    subst ho
    have hk : k < ss.length := (List.getElem?_eq_some_iff.1 hs).1
    obtain ⟨b1, b2⟩ := c2 i hi j hj k s hs
    have hcut : ∀ k, cutBottom ss.length ((h.get top).zmax - th) th ((h.get top).vals i j) ((h.get bottom).vals i j) k =
        sheetBoundary ss.length (h.get top).zmax th ((h.get top).vals i j) ((h.get bottom).vals i j) (k + 1) := by
      intro k
      unfold cutBottom sheetBoundary
      have : (h.get top).zmax - th - (k : α) * th = (h.get top).zmax - ((k + 1 : ℕ) : α) * th := by push_cast; ring
      rw [this, if_neg (Nat.succ_ne_zero k)]
    have htop : (h1.get s.top).vals i j =
        sheetBoundary ss.length (h.get top).zmax th ((h.get top).vals i j) ((h.get bottom).vals i j) k := by
      rw [b2]
      cases k with
      | zero =>
        unfold sheetBoundary
        rw [if_pos rfl, if_pos rfl, max_eq_left (hbt i hi j hj), ite_self]
      | succ k => rw [if_neg (Nat.succ_ne_zero k), Nat.add_sub_cancel, hcut]
    rw [hcut] at b1
    unfold SheetRaw.toObj
    dsimp only
    rw [b1, htop]
    split_ifs with hz
    · simp only [ne_eq, not_true_eq_false, false_iff]
      rintro ⟨h1, h2⟩
      rcases hz with h | h
      · exact absurd h1 (not_le.2 h)
      · exact absurd h2 (not_le.2 h)
    · rw [not_or] at hz
      exact ⟨fun _ => ⟨not_lt.1 hz.1, not_lt.1 hz.2⟩, fun _ => by simp⟩

end

/-! ### Examples for C32 -/

/-- The AE between the flat surfaces 4 and 10 cut into sheets of thickness 2: three sheets. -/
example : HeapOK exHeap2 ∧ Below exHeap2 1 0 ∧ (2 : ℚ) = sheetThickness exGridZ exSheetT ⟨(exHeap2.get 1).zmin, (exHeap2.get 0).zmax⟩ ∧
    ∃ r, genAE exGridZ { bgFacies := 1, bgAzim := some 3, bgDip := some 4, aeZMean := [3, 3], avulProb := 0 } exSheetT
      ((exDraws 0).aes 0) exHeap2 1 0 = .ok r ∧ r.2.objs.length = 3 := by
  refine ⟨?_, ?_, by decide +kernel, ?_⟩
  · intro r hr i hi j hj
    simp only [exHeap2] at *
    split_ifs <;> simp
  · intro i _ j _; simp only [exHeap2]; norm_num
  · have h : (match genAE exGridZ { bgFacies := 1, bgAzim := some 3, bgDip := some 4, aeZMean := [3, 3], avulProb := 0 } exSheetT
        ((exDraws 0).aes 0) exHeap2 1 0 with
      | .ok r => decide (r.2.objs.length = 3)
      | .error _ => false) = true := by decide +kernel
    split at h
    · rename_i r hr; exact ⟨r, hr, of_decide_eq_true h⟩
    · cases h

/-- A massive sheet element. -/
example : ∃ a o, genAE exGridZ { bgFacies := 1, bgAzim := some 3, bgDip := some 4, aeZMean := [3, 3], avulProb := 0 }
    { exSheetT with lensThickness := -1 } ((exDraws 0).aes 0) exHeap2 1 0 = .ok (exHeap2, a) ∧ a.objs = [o] :=
  let ⟨a, o, h1, h2, _⟩ := C32_massive (g := exGridZ) (sp := { bgFacies := 1, bgAzim := some 3, bgDip := some 4, aeZMean := [3, 3], avulProb := 0 })
    (t := { exSheetT with lensThickness := -1 }) (d := (exDraws 0).aes 0) (h := exHeap2) (bottom := 1) (top := 0) rfl rfl (by decide +kernel)
    fun _ => ⟨_, rfl⟩
  ⟨a, o, h1, h2⟩

/-- A massive sheet element and a sheet element with a trend. -/
example : ({ exSheetT with lensThickness := -1 } : ElemParams ℚ).geometry = "sheet" ∧ 0 < ((exDraws 0).aes 0).sheetFuel ∧
    sheetThickness exGridZ { exSheetT with sizeZtrend := some (1, 2) } (⟨4, 10⟩ : Extent ℚ) = 2 * ((1 - 7 / 10) * 1 + 7 / 10 * 2) := by
  decide +kernel

/-! ### C33 -/

open Real

/-- What the constructor gives for dipping layers. -/
theorem SheetObj.new_dip {p : SheetParams} {d : SheetDraw} {g : Grid} {zmean : ℝ} {s : SheetObj} (hp : p.struct = "dip")
    (h : SheetObj.new p d g zmean = .ok s) :
    s.dipsets = true ∧ s.layerDist = p.dipsetDist ∧ s.azim = d.azim ∧ s.dip = d.dip ∧
    s.nvx = -sin (d.dip * π / 180) * cos (d.azim * π / 180) ∧ s.nvy = sin (d.dip * π / 180) * sin (d.azim * π / 180) ∧
    s.nvz = cos (d.dip * π / 180) ∧
    s.shift = s.nvx * (g.x0 + g.lx / 2) + s.nvy * (g.y0 + g.ly / 2) + s.nvz * zmean + d.u * p.dipsetDist ∧
    s.numFacies = ⌈(max g.ly g.lz + s.shift) / p.dipsetDist⌉ + 10 ∧
    altFacies s.numFacies p.facies p.altFacies d.layers = .ok s.table := by
  unfold SheetObj.new at h
  rw [if_pos hp] at h
  simp only [bind_ok, pure_ok, pyInt_intCast, max_self] at h
  obtain ⟨table, ht, rfl⟩ := h
  exact ⟨rfl, rfl, rfl, rfl, rfl, rfl, rfl, rfl, rfl, (layerTable_ok ht).2⟩

/-- **C32, test.** A sheet takes exactly the points between its surfaces, both included. -/
theorem C32_between (s : SheetObj) (zb za x y z : ℝ) : s.test zb za x y z ≠ .miss ↔ zb ≤ z ∧ z ≤ za := by
  unfold SheetObj.test
  split_ifs with h
  · simp only [ne_eq, not_true_eq_false, false_iff, not_and]
    intro h1
    rcases h with h | h
    · linarith
    · linarith
  · push Not at h
    simp only [h.1, h.2, and_self, iff_true]
    unfold SheetObj.inner tableHit
    dsimp only
    split_ifs
    · simp
    · split <;> simp
    · simp

/-- **C33, partial.** For a sheet with dipping layers whose constructor succeeds, cells at distance at most `R` from the point in the middle of the
domain at the sheet bottom's mean elevation are looked up inside the table if `2*R` is at most `max(ly, lz) + shift` plus seven layers.
Missing: this condition does not follow from the grid; it fails for thick sheets, long domains and shifted origins (`C33_thick_refuted`,
`C33_failure_refuted`). -/
theorem C33_table_partial {p : SheetParams} {d : SheetDraw} {g : Grid} {zmean : ℝ} {s : SheetObj} (hp : p.struct = "dip")
    (h : SheetObj.new p d g zmean = .ok s) (hld : 0 < p.dipsetDist) (hu0 : 0 ≤ d.u) (hu1 : d.u ≤ 1) {R x y z : ℝ} (hR : 0 ≤ R)
    (hpt : (x - (g.x0 + g.lx / 2)) ^ 2 + (y - (g.y0 + g.ly / 2)) ^ 2 + (z - zmean) ^ 2 ≤ R ^ 2)
    (hfit : 2 * R ≤ max g.ly g.lz + s.shift + 7 * p.dipsetDist) :
    (∀ n, s.inner x y z ≠ .outside n) ∧ ∀ e, s.inner x y z ≠ .error e := by
  obtain ⟨h1, h2, -, -, h5, h6, h7, h8, h9, h10⟩ := SheetObj.new_dip hp h
  have hn : s.nvx ^ 2 + s.nvy ^ 2 + s.nvz ^ 2 = 1 := by
    rw [h5, h6, h7]
    have s1 := sin_sq_add_cos_sq (d.dip * π / 180)
    have s2 := sin_sq_add_cos_sq (d.azim * π / 180)
    linear_combination s1 + (sin (d.dip * π / 180)) ^ 2 * s2
  have hdot := abs_le.1 (dot_le hn hR hpt)
  unfold SheetObj.inner
  rw [if_pos h1]
  dsimp only
  rw [h2]
  obtain ⟨D, hD⟩ : ∃ D, D = s.nvx * x + s.nvy * y + s.nvz * z - s.shift := ⟨_, rfl⟩
  have hD1 : -R - p.dipsetDist ≤ D := by
    have : d.u * p.dipsetDist ≤ p.dipsetDist := by nlinarith
    rw [hD, h8]; nlinarith [hdot.1]
  have hD2 : D ≤ R := by
    have : 0 ≤ d.u * p.dipsetDist := by positivity
    rw [hD, h8]; nlinarith [hdot.2]
  rw [← hD]
  obtain ⟨W, hW⟩ : ∃ W, W = max g.ly g.lz + s.shift := ⟨_, rfl⟩
  rw [← hW] at hfit h9
  obtain ⟨r, hr⟩ : ∃ r, r = R / p.dipsetDist := ⟨_, rfl⟩
  obtain ⟨w, hw⟩ : ∃ w, w = W / p.dipsetDist := ⟨_, rfl⟩
  obtain ⟨δ, hδ⟩ : ∃ δ, δ = D / p.dipsetDist := ⟨_, rfl⟩
  have q1 : -r - 1 ≤ δ := by rw [hδ, hr, le_div_iff₀ hld, sub_mul, neg_mul, div_mul_cancel₀ _ hld.ne']; linarith
  have q2 : δ ≤ r := by rw [hδ, hr]; exact div_le_div_of_nonneg_right hD2 hld.le
  have q3 : 2 * r ≤ w + 7 := by
    rw [hr, hw, ← mul_div_assoc, div_le_iff₀ hld, add_mul, div_mul_cancel₀ _ hld.ne']; linarith
  have q4 : w ≤ (⌈w⌉ : ℝ) := Int.le_ceil w
  have q0 : 0 ≤ r := by rw [hr]; positivity
  rw [← hw] at h9
  rw [← hδ]
  have hlen := (altFacies_ok h10).1
  obtain ⟨c, hc⟩ : ∃ c, c = ⌈w⌉ := ⟨_, rfl⟩
  rw [← hc] at h9 q4
  have hidx : 0 ≤ pyInt δ + s.numFacies / 2 ∧ pyInt δ + s.numFacies / 2 < s.numFacies := by
    rw [h9]
    unfold pyInt
    split_ifs with h0
    · have hf0 : 0 ≤ ⌊δ⌋ := Int.floor_nonneg.2 h0
      have hf : (⌊δ⌋ : ℝ) ≤ δ := Int.floor_le δ
      have h3 : 2 * ⌊δ⌋ ≤ c + 7 := by
        have : (2 * ⌊δ⌋ : ℝ) ≤ c + 7 := by linarith
        exact_mod_cast this
      omega
    · have hc0 : ⌈δ⌉ ≤ 0 := by
        have : ⌈δ⌉ ≤ ⌈(0 : ℝ)⌉ := Int.ceil_le_ceil (not_le.1 h0).le
        simpa using this
      have hcc : δ ≤ (⌈δ⌉ : ℝ) := Int.le_ceil δ
      have h3 : -(c + 9) ≤ 2 * ⌈δ⌉ := by
        have : (-(c + 9) : ℝ) ≤ 2 * ⌈δ⌉ := by linarith
        exact_mod_cast this
      have h4 : -7 ≤ c := by
        have : (-7 : ℝ) ≤ c := by linarith
        exact_mod_cast this
      omega
  exact tableHit_ne_outside hidx.1 (by rw [hlen]; exact hidx.2)

/-- Horizontal layers of thickness 1. -/
noncomputable def exShP : SheetParams := { struct := "dip", facies := [1, 2], altFacies := some [[2], [1]], dipsetDist := 1 }
noncomputable def exShD : SheetDraw := { azim := 0, dip := 0, u := 0, facies := 0, layers := fun _ => 0 }
/-- A cube of side 100 at the origin. -/
noncomputable def exShG : Grid :=
  { x0 := 0, y0 := 0, z0 := 0, dx := 1, dy := 1, dz := 1, lx := 100, ly := 100, lz := 100, periodic := false }

theorem alternating_ok (n : ℕ) (draws : ℕ → ℕ) (i : ℕ) : ∀ f : ℤ, f = 1 ∨ f = 2 →
    ∃ l, altLoop [1, 2] (some [[2], [1]]) draws n i f = .ok l := by
  induction n generalizing i with
  | zero => intro f _; exact ⟨_, rfl⟩
  | succ n ih =>
    intro f hf
    have h1 : nextFacies [1, 2] (some [[2], [1]]) f (draws i) = .ok (3 - f) := by
      rcases hf with rfl | rfl <;> simp [nextFacies, choice, Nat.mod_one, List.idxOf_cons]
    obtain ⟨l, hl⟩ := ih (i + 1) (3 - f) (by rcases hf with rfl | rfl <;> simp)
    refine ⟨(3 - f) :: l, ?_⟩
    simp only [altLoop, bind_ok, pure_ok]
    exact ⟨_, h1, l, hl, rfl⟩

theorem alternating_table {num : ℤ} (h : 0 < num) (draws : ℕ → ℕ) :
    ∃ l, altFacies num [1, 2] (some [[2], [1]]) draws = .ok l := by
  unfold altFacies
  simp only [if_neg (show ¬ num < 0 by omega), if_neg (show ¬ num = 0 by omega)]
  rcases Nat.mod_two_eq_zero_or_one (draws 0) with h0 | h0
  · obtain ⟨l, hl⟩ := alternating_ok (num.toNat - 1) draws 1 1 (Or.inl rfl)
    exact ⟨1 :: l, by simp only [bind_ok, pure_ok]; exact ⟨1, by simp [choice, h0], l, hl, rfl⟩⟩
  · obtain ⟨l, hl⟩ := alternating_ok (num.toNat - 1) draws 1 2 (Or.inr rfl)
    exact ⟨2 :: l, by simp only [bind_ok, pure_ok]; exact ⟨2, by simp [choice, h0], l, hl, rfl⟩⟩

theorem exSh_new (zmean : ℝ) (hz : 0 ≤ zmean) : ∃ s, SheetObj.new exShP exShD exShG zmean = .ok s := by
  have hpos : 0 < (⌈(100 + zmean : ℝ)⌉ : ℤ) + 10 := by
    have : 0 ≤ ⌈(100 + zmean : ℝ)⌉ := Int.ceil_nonneg (by linarith)
    omega
  obtain ⟨l, hl⟩ := alternating_table hpos (fun _ => 0)
  simp only [SheetObj.new, layerTable, one_ne_zero, if_false, exShP, exShD, exShG, pyInt_intCast, zero_mul, zero_div, sin_zero, cos_zero, neg_zero, zero_add, one_mul,
    add_zero, max_self, div_one, hl, bind, Except.bind, pure, Except.pure]
  simp

/-- A cell 6 above the middle of a sheet whose bottom is at 0: the hypotheses hold with `R = 6`. -/
example : ∃ s, SheetObj.new exShP exShD exShG 0 = .ok s ∧ exShP.struct = "dip" ∧
    ((50 : ℝ) - (exShG.x0 + exShG.lx / 2)) ^ 2 + (50 - (exShG.y0 + exShG.ly / 2)) ^ 2 + (6 - 0) ^ 2 ≤ 6 ^ 2 ∧
    2 * 6 ≤ max exShG.ly exShG.lz + s.shift + 7 * exShP.dipsetDist := by
  obtain ⟨s, hs⟩ := exSh_new 0 le_rfl
  obtain ⟨-, -, -, -, h5, h6, h7, h8, -, -⟩ := SheetObj.new_dip rfl hs
  refine ⟨s, hs, rfl, by norm_num [exShG], ?_⟩
  rw [h8, h5, h6, h7]
  norm_num [exShG, exShP, exShD]

/-- **C33 refuted: thick sheets.** Horizontal layers of thickness 1 in a sheet from the bottom to the top of a cube of side 100: the cell at the centre of the
domain's surface, at height 99, is looked up at index 154 of a table of 110 entries. -/
theorem C33_thick_refuted : ∃ s, SheetObj.new exShP exShD exShG 0 = .ok s ∧ s.numFacies = 110 ∧ s.table.length = 110 ∧
    s.test 0 100 50 50 99 = .outside 154 := by
  obtain ⟨s, hs⟩ := exSh_new 0 le_rfl
  obtain ⟨h1, h2, -, -, h5, h6, h7, h8, h9, h10⟩ := SheetObj.new_dip rfl hs
  have e5 : s.nvx = 0 := by rw [h5]; simp [exShD]
  have e6 : s.nvy = 0 := by rw [h6]; simp [exShD]
  have e7 : s.nvz = 1 := by rw [h7]; simp [exShD]
  have e8 : s.shift = 0 := by rw [h8, e5, e6, e7]; simp [exShD]
  have e9 : s.numFacies = 110 := by
    have hc : (⌈(max exShG.ly exShG.lz + 0) / exShP.dipsetDist⌉ : ℤ) = 100 := by
      rw [Int.ceil_eq_iff]; norm_num [exShG, exShP]
    rw [h9, e8, hc]; rfl
  have hlen : s.table.length = 110 := by
    have := (altFacies_ok h10).1
    rw [e9] at this
    exact_mod_cast this
  refine ⟨s, hs, e9, hlen, ?_⟩
  unfold SheetObj.test SheetObj.inner
  rw [if_neg (by norm_num), if_pos h1]
  dsimp only
  rw [h2, e5, e6, e7, e8, e9]
  have hi : pyInt ((0 * 50 + 0 * 50 + 1 * 99 - 0) / exShP.dipsetDist) = 99 := by
    have : ((0 * 50 + 0 * 50 + 1 * 99 - 0) / exShP.dipsetDist : ℝ) = ((99 : ℤ) : ℝ) := by norm_num [exShP]
    rw [this, pyInt_intCast]
  rw [hi]
  unfold tableHit
  rw [if_neg (by norm_num), List.getElem?_eq_none (by rw [hlen]; norm_num)]
  norm_num

/-- **C33 refuted: failing constructor.** Vertical layers (dip 90, azimuth 0) in a domain of length 100 and width 10: the constructor fails, as the
computed number of layers is negative. -/
theorem C33_failure_refuted :
    SheetObj.new exShP { exShD with dip := 90 } { exShG with ly := 10, lz := 10 } 0 = .error .valueError := by
  have h90 : (90 : ℝ) * π / 180 = π / 2 := by ring
  have hc : (⌈((10 : ℝ) + -50)⌉ : ℤ) = -40 := by
    rw [Int.ceil_eq_iff]; norm_num
  simp only [SheetObj.new, exShP, exShD, exShG, pyInt_intCast, h90, zero_mul, zero_div, sin_zero, cos_zero, sin_pi_div_two, cos_pi_div_two,
    max_self, div_one, if_true]
  norm_num [layerTable, altFacies, hc]

end Hyvr
