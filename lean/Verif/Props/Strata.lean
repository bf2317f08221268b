import Verif.Lemmas.Made
import Verif.Lemmas.Term
import Verif.Lemmas.Indep
import Verif.Props.Assign
import Mathlib.Algebra.Order.Ring.Rat
import Mathlib.Data.Rat.Floor
import Mathlib.Tactic.NormNum

/-!
Properties of generated models: C05, C06, C07, C08, C09, C67 (further ones in `Verif/Props/Units.lean`).
-/

set_option linter.unusedSectionVars false

namespace Hyvr

open Py Spec

variable {α : Type} [Field α] [LinearOrder α]

/-! ### Example: a generated model with two strata

Upper stratum (4 to 10): two trough AEs with two objects each. Lower stratum (0 to 4): two sheet AEs. -/

def exObjG (lo hi : ℚ) (f : ℤ) : GObj ℚ :=
  { zmin := lo, zmax := hi
    answer := fun i _ z => if i = 0 ∧ lo ≤ z ∧ z ≤ hi then some (f, some 0, some 0) else none
    numHa := 0 }
def exTrough : ElemParams ℚ :=
  { name := "scour", geometry := "trough", aeId := 0, bgFacies := 2, bgAzim := none, bgDip := some 5,
    lensThickness := 0, sizeZtrend := none }
def exSheetT : ElemParams ℚ :=
  { name := "sand", geometry := "sheet", aeId := 1, bgFacies := -1, bgAzim := none, bgDip := none,
    lensThickness := 2, sizeZtrend := none }
def exGridZ : GridZ ℚ := { z0 := 0, lz := 10 }
def exSD : StrataDict ℚ :=
  { n := 2, contacts := [.flat 4]
    params := [{ bgFacies := 0, bgAzim := some 1, bgDip := some 2, aeZMean := [4], avulProb := 0 },
               { bgFacies := 1, bgAzim := some 3, bgDip := some 4, aeZMean := [3, 3], avulProb := 0 }]
    types := [[exSheetT], [exTrough, exSheetT]] }
def exCms : Contacts ℚ := fun _ => .flat 0
def exDraws : ℕ → StratumDraw ℚ := fun _ =>
  { field := fun _ _ => 0, first := 0, fuel := 5
    aes := fun _ => { height := 3, avulU := 1, avulAmt := 0, next := 0, field := fun _ _ => 0
                      objs := fun _ _ _ _ => some (.ok [exObjG (9/2) 9 3, exObjG 3 5 4])
                      sheet := fun _ k _ => .ok fun _ _ _ => (k, some 0, some 0), sheetFuel := 9 } }
def exRun : Except Stop (GenModel ℚ × Contacts ℚ) := generateModel 2 1 exGridZ exSD exCms exDraws

theorem exRun_ok : ∃ m c, exRun = .ok (m, c) ∧
    (m.strata.map fun s => s.aes.map fun a => (a.ext.zmin, a.ext.zmax, a.objs.length)) =
      [[(3, 10, 2), (3, 9, 2)], [(1, 4, 2), (0, 1, 1)]] := by
  have h : (match exRun with
      | .ok (m, _) => decide ((m.strata.map fun s => s.aes.map fun a => (a.ext.zmin, a.ext.zmax, a.objs.length)) =
          [[(3, 10, 2), (3, 9, 2)], [(1, 4, 2), (0, 1, 1)]])
      | .error _ => false) = true := by decide +kernel
  split at h
  · rename_i m c heq
    exact ⟨m, c, heq, of_decide_eq_true h⟩
  · simp at h

/-! ### C05 -/

/-- **C05.** In every generated model: there are as many strata as given; each stratum's bottom is nowhere above its top; the
top of each stratum is the bottom surface of the previous one; the first top is flat at `lz`; the last bottom is
nowhere above `z0`; and every elevation between `z0` and `lz` lies in some stratum, in every column. -/
theorem C05_strata {nx ny : ℕ} {g : GridZ α} {sd : StrataDict α} {cms cms' : Contacts α}
    {draws : ℕ → StratumDraw α} {m : GenModel α} (hr : generateModel nx ny g sd cms draws = .ok (m, cms')) :
    m.strata.length = sd.n ∧
    (∀ s ∈ m.strata, ∀ i < nx, ∀ j < ny, (m.heap.get s.bottom).vals i j ≤ (m.heap.get s.top).vals i j) ∧
    (∀ k s s', m.strata[k]? = some s → m.strata[k + 1]? = some s' → s'.top = s.bottom) ∧
    (∀ s, m.strata.head? = some s → ∀ i < nx, ∀ j < ny, (m.heap.get s.top).vals i j = g.lz) ∧
    (∀ s, m.strata.getLast? = some s → ∀ i < nx, ∀ j < ny, (m.heap.get s.bottom).vals i j ≤ g.z0) ∧
    (0 < sd.n → ∀ i < nx, ∀ j < ny, ∀ z, g.z0 ≤ z → z ≤ g.lz →
      ∃ s ∈ m.strata, (m.heap.get s.bottom).vals i j ≤ z ∧ z ≤ (m.heap.get s.top).vals i j) := by
  obtain ⟨hx, hy, hok, hlen, htop, bot, hbot, hfrom, hlow⟩ := generateModel_spec hr
  refine ⟨hlen, ?_, ?_, ?_, ?_, ?_⟩
  · intro s hs i hi j hj
    exact (hfrom.ok hs).1.below i (by rw [hx]; exact hi) j (by rw [hy]; exact hj)
  · intro k s s' h1 h2
    exact hfrom.next h1 h2
  · intro s hs i hi j hj
    have : s.top = 0 := by
      cases hm : m.strata with
      | nil => rw [hm] at hs; simp at hs
      | cons s0 rest =>
        rw [hm] at hs hfrom
        simp only [List.head?_cons, Option.some.injEq] at hs
        subst hs
        exact hfrom.1
    rw [this]
    exact htop i hi j hj
  · intro s hs i hi j hj
    rw [hfrom.last hs]
    refine hlow ?_ i hi j hj
    rw [← hlen]
    exact List.length_pos_of_mem (List.mem_of_getLast? hs)
  · intro hn i hi j hj z h1 h2
    refine hfrom.cover ?_ ((hlow hn i hi j hj).trans h1) (by rw [htop i hi j hj]; exact h2)
    intro h
    rw [h] at hlen
    simp at hlen
    omega

example : ∃ m c, exRun = .ok (m, c) ∧ ∃ s ∈ m.strata, (m.heap.get s.bottom).vals 1 0 ≤ 7 ∧ 7 ≤ (m.heap.get s.top).vals 1 0 := by
  obtain ⟨m, c, h, -⟩ := exRun_ok
  exact ⟨m, c, h, (C05_strata h).2.2.2.2.2 (by decide) 1 (by decide) 0 (by decide) 7 (by decide) (by decide)⟩

/-! ### C06 -/

/-- **C06.** In every stratum of every generated model: each AE's bottom is nowhere above its top, nowhere below the stratum
bottom, and its top is nowhere above the stratum top; the first AE starts at the stratum's top surface, each further
one at the bottom surface of the previous one, the last one ends at the stratum's bottom surface; and if the stratum
has AEs, every elevation between the stratum surfaces lies in one of them. A stratum has no AEs exactly if its
mean top is not above its mean bottom. -/
theorem C06_aes {nx ny : ℕ} {g : GridZ α} {sd : StrataDict α} {cms cms' : Contacts α}
    {draws : ℕ → StratumDraw α} {m : GenModel α} (hr : generateModel nx ny g sd cms draws = .ok (m, cms')) :
    ∀ s ∈ m.strata,
      (∀ a ∈ s.aes, ∀ i < nx, ∀ j < ny, (m.heap.get a.bottom).vals i j ≤ (m.heap.get a.top).vals i j ∧
        (m.heap.get s.bottom).vals i j ≤ (m.heap.get a.bottom).vals i j ∧
        (m.heap.get a.top).vals i j ≤ (m.heap.get s.top).vals i j) ∧
      (∀ a, s.aes.head? = some a → a.top = s.top) ∧
      (∀ (k : ℕ) (a a' : AEReal α), s.aes[k]? = some a → s.aes[k + 1]? = some a' → a'.top = a.bottom) ∧
      (∀ a, s.aes.getLast? = some a → a.bottom = s.bottom) ∧
      (s.aes = [] ↔ (m.heap.get s.top).zmean ≤ (m.heap.get s.bottom).zmean) ∧
      (s.aes ≠ [] → ∀ i < nx, ∀ j < ny, ∀ z, (m.heap.get s.bottom).vals i j ≤ z → z ≤ (m.heap.get s.top).vals i j →
        ∃ a ∈ s.aes, (m.heap.get a.bottom).vals i j ≤ z ∧ z ≤ (m.heap.get a.top).vals i j) := by
  obtain ⟨hx, hy, hok, hlen, htop, bot, hbot, hfrom, hlow⟩ := generateModel_spec hr
  intro s hs
  have ok := (hfrom.ok hs).1
  have hne : ∀ a ∈ s.aes, s.aes ≠ [] := by rintro a ha h; rw [h] at ha; simp at ha
  refine ⟨?_, ?_, ?_, ?_, ok.nil_iff, ?_⟩
  · intro a ha i hi j hj
    rw [← hx] at hi
    rw [← hy] at hj
    obtain ⟨h1, h2, h3⟩ := (ok.from_ (hne a ha)).ok ha
    exact ⟨h1.below i hi j hj, h2 i hi j hj, h3 i hi j hj⟩
  · intro a ha
    have hf := ok.from_ (hne a (List.mem_of_head? ha))
    cases hm : s.aes with
    | nil => rw [hm] at ha; simp at ha
    | cons a0 rest =>
      rw [hm] at ha hf
      simp only [List.head?_cons, Option.some.injEq] at ha
      subst ha
      exact hf.1
  · intro k a a' h1 h2
    exact (ok.from_ (hne a (List.mem_of_getElem? h1))).next h1 h2
  · intro a ha
    exact (ok.from_ (hne a (List.mem_of_getLast? ha))).last ha
  · intro h i hi j hj z h1 h2
    exact (ok.from_ h).cover h1 h2

/-- **C06 (stratum surfaces untouched).** Generating the AEs of a stratum (between surfaces that do not cross) changes no
surface that existed before, in particular not the stratum's own top and bottom. `HeapOK`: the recorded extrema enclose
the values, which holds for all surfaces of a generated model (C04). -/
theorem C06_surfaces_kept {g : GridZ α} {sp : StratumParams α} {types : List (ElemParams α)} {d : StratumDraw α}
    {h h' : Heap α} {cms cms' : Contacts α} {bottom top : ℕ} {s : StratumReal α}
    (hok : HeapOK h) (hb : bottom < h.next) (ht : top < h.next)
    (hbt : ∀ i < h.nx, ∀ j < h.ny, (h.get bottom).vals i j ≤ (h.get top).vals i j)
    (hr : genStratum g sp types d h cms bottom top = .ok (h', cms', s)) :
    s.bottom = bottom ∧ s.top = top ∧ ∀ r < h.next, ∀ i < h.nx, ∀ j < h.ny,
      (h'.get r).vals i j = (h.get r).vals i j := by
  obtain ⟨-, k, -, h1, h2⟩ := genStratum_spec hok hb ht hbt hr
  exact ⟨h1, h2, k.vals⟩

/-- The upper stratum of the example: surfaces 0 (flat 10) and 1 (flat 4). -/
def exHeap2 : Heap ℚ :=
  { nx := 2, ny := 1, next := 2
    get := fun r => if r = 0 then ⟨fun _ _ => 10, 10, 10, 10⟩ else ⟨fun _ _ => 4, 4, 4, 4⟩ }
example : HeapOK exHeap2 ∧ (∀ i < 2, ∀ j < 1, (exHeap2.get 1).vals i j ≤ (exHeap2.get 0).vals i j) ∧
    (genStratum exGridZ { bgFacies := 1, bgAzim := some 3, bgDip := some 4, aeZMean := [3, 3], avulProb := 0 }
      [exTrough, exSheetT] (exDraws 0) exHeap2 exCms 1 0).isOk = true := by
  refine ⟨?_, ?_, by decide +kernel⟩
  · intro r hr i hi j hj
    simp only [exHeap2] at *
    split_ifs <;> simp
  · intro i _ j _; simp only [exHeap2]; norm_num

/-! ### C07 -/

/-- **C07, partial.** The top of the uppermost stratum is at `lz`; it is the top of the grid, `z0 + lz`, for grids with
`z0 = 0`, and for no other grid. Missing: the claim for `z0 ≠ 0`, which is false (`C07_top_refuted`). -/
theorem C07_top_partial {nx ny : ℕ} {g : GridZ α} {sd : StrataDict α} {cms cms' : Contacts α}
    {draws : ℕ → StratumDraw α} {m : GenModel α} (hr : generateModel nx ny g sd cms draws = .ok (m, cms')) :
    ∀ s, m.strata.head? = some s → ∀ i < nx, ∀ j < ny,
      ((m.heap.get s.top).vals i j = g.z0 + g.lz ↔ g.z0 = 0) := by
  intro s hs i hi j hj
  rw [(C05_strata hr).2.2.2.1 s hs i hi j hj]
  constructor
  · intro h
    have : g.z0 + g.lz = 0 + g.lz := by rw [zero_add]; exact h.symm
    exact add_right_cancel this
  · intro h; rw [h, zero_add]

def exRaised : Except Stop (GenModel ℚ × Contacts ℚ) :=
  generateModel 2 1 { z0 := 5, lz := 10 } { exSD with n := 1 } exCms exDraws
def exShift : Except Stop (GenModel ℚ × Contacts ℚ) := generateModel 2 1 { z0 := -5, lz := 10 } exSD exCms exDraws

/-- **C07 refuted.** With `z0 = -5`, `lz = 10` the grid ends at 5 but the uppermost stratum reaches up to 10 (and with `z0 = 5`
the grid ends at 15 while the uppermost stratum ends at 10, so cells above 10 belong to no stratum). -/
theorem C07_top_refuted :
    (∃ m c, exShift = .ok (m, c) ∧ ∃ s, m.strata.head? = some s ∧
      (m.heap.get s.top).vals 0 0 ≠ ({ z0 := -5, lz := 10 } : GridZ ℚ).zmax) ∧
    (∃ m c, exRaised = .ok (m, c) ∧
      ∀ s ∈ m.strata, (m.heap.get s.top).vals 0 0 < 12) := by
  constructor
  · have h : (match exShift with | .ok (m, _) => m.strata.head?.isSome | .error _ => false) = true := by decide +kernel
    split at h
    · rename_i m c heq
      obtain ⟨s, hs⟩ := Option.isSome_iff_exists.1 h
      refine ⟨m, c, heq, s, hs, ?_⟩
      have := (C05_strata heq).2.2.2.1 s hs 0 (by decide) 0 (by decide)
      rw [this]
      unfold GridZ.zmax
      norm_num
    · simp at h
  · have h : (match exRaised with
        | .ok (m, _) => decide (∀ s ∈ m.strata, (m.heap.get s.top).vals 0 0 < 12) | .error _ => false) = true := by
      decide +kernel
    split at h
    · rename_i m c heq
      exact ⟨m, c, heq, of_decide_eq_true h⟩
    · simp at h

example : ∃ m c, exRun = .ok (m, c) ∧ ∃ s, m.strata.head? = some s := by
  obtain ⟨m, c, h, hl⟩ := exRun_ok
  refine ⟨m, c, h, ?_⟩
  cases hm : m.strata with
  | nil => rw [hm] at hl; simp at hl
  | cons s r => exact ⟨s, rfl⟩

/-! ### C08 -/

section
variable [IsStrictOrderedRing α]

/-- **C08 (termination).** If every drawn AE thickness minus the avulsion amount is at least `δ`, the AE loop of a stratum ends within
every number of iterations `fuel` with `fuel * δ` at least the mean thickness of the stratum. (It may still end with an
exception, or get stuck inside the generation of one sheet AE, see C67.) -/
theorem C08_terminates {g : GridZ α} {sp : StratumParams α} {types : List (ElemParams α)} {d : StratumDraw α}
    {h : Heap α} {cms : Contacts α} {bottom top : ℕ} (hb : bottom < h.next) {δ : α}
    (hd : ∀ n, δ ≤ (d.aes n).height + if (d.aes n).avulU ≤ sp.avulProb then -(d.aes n).avulAmt else 0)
    (hfuel : (h.get top).zmean - (h.get bottom).zmean ≤ d.fuel * δ) :
    genStratum g sp types d h cms bottom top ≠ .error .aeRunning := by
  unfold genStratum
  intro hc
  simp only [bind_error, chooseType_not_ae, false_or, pure_error] at hc
  obtain ⟨first, -, hc⟩ := hc
  rcases hc with hc | ⟨_, _, hc⟩
  · exact aeGenLoop_terminates hb hd hfuel hc
  · exact hc

/-- **C08 (number of AEs).** A stratum with positive mean thickness `T` gets at least one AE, and fewer than `T/δ + 1`, that is at
most `⌈T/δ⌉`. -/
theorem C08_count {g : GridZ α} {sp : StratumParams α} {types : List (ElemParams α)} {d : StratumDraw α}
    {h h' : Heap α} {cms cms' : Contacts α} {bottom top : ℕ} {s : StratumReal α} (hb : bottom < h.next) {δ : α} (hδ : 0 < δ)
    (hd : ∀ n, δ ≤ (d.aes n).height + if (d.aes n).avulU ≤ sp.avulProb then -(d.aes n).avulAmt else 0)
    (hT : (h.get bottom).zmean < (h.get top).zmean)
    (hr : genStratum g sp types d h cms bottom top = .ok (h', cms', s)) :
    1 ≤ s.aes.length ∧ (s.aes.length : α) < ((h.get top).zmean - (h.get bottom).zmean) / δ + 1 := by
  unfold genStratum at hr
  simp only [bind_ok, pure_ok] at hr
  obtain ⟨t, ht, ⟨h2, cms2, as⟩, hl, heq⟩ := hr
  simp only [Prod.mk.injEq] at heq
  obtain ⟨rfl, rfl, rfl⟩ := heq
  obtain ⟨-, hc⟩ := aeGenLoop_count hb hd hl
  obtain ⟨h1, h3⟩ := hc hT
  refine ⟨List.length_pos_iff.2 h1, ?_⟩
  have := h3 hδ.le
  rw [← lt_div_iff₀ hδ] at this
  linarith

/-- **C08 (ceiling form), over ℚ.** -/
theorem C08_count_ceil {g : GridZ ℚ} {sp : StratumParams ℚ} {types : List (ElemParams ℚ)} {d : StratumDraw ℚ}
    {h h' : Heap ℚ} {cms cms' : Contacts ℚ} {bottom top : ℕ} {s : StratumReal ℚ} (hb : bottom < h.next) {δ : ℚ} (hδ : 0 < δ)
    (hd : ∀ n, δ ≤ (d.aes n).height + if (d.aes n).avulU ≤ sp.avulProb then -(d.aes n).avulAmt else 0)
    (hT : (h.get bottom).zmean < (h.get top).zmean)
    (hr : genStratum g sp types d h cms bottom top = .ok (h', cms', s)) :
    (s.aes.length : ℤ) ≤ ⌈((h.get top).zmean - (h.get bottom).zmean) / δ⌉ := by
  have h2 := (C08_count hb hδ hd hT hr).2
  have h3 : (((s.aes.length : ℤ) - 1 : ℤ) : ℚ) < ((h.get top).zmean - (h.get bottom).zmean) / δ := by
    push_cast
    linarith
  have := Int.lt_ceil.2 h3
  omega

/-- **C08 (need for the bound).** If the drawn thickness minus avulsion is never positive, the loop of a stratum of positive mean
thickness never finishes: no number of iterations gives a stratum. -/
theorem C08_diverges {g : GridZ α} {sp : StratumParams α} {types : List (ElemParams α)} {d : StratumDraw α}
    {h : Heap α} {cms : Contacts α} {bottom top : ℕ} (hb : bottom < h.next)
    (hd : ∀ n, ((d.aes n).height + if (d.aes n).avulU ≤ sp.avulProb then -(d.aes n).avulAmt else 0) ≤ 0)
    (hT : (h.get bottom).zmean < (h.get top).zmean) (fuel : ℕ) (r : Heap α × Contacts α × StratumReal α) :
    genStratum g sp types { d with fuel := fuel } h cms bottom top ≠ .ok r := by
  unfold genStratum
  intro hc
  simp only [bind_ok, pure_ok] at hc
  obtain ⟨first, -, r, hc, -⟩ := hc
  exact aeGenLoop_diverges hb hd hT r hc

/-- The example draws: `δ = 3`, mean thickness 6, two AEs. -/
example : (∀ n, (3 : ℚ) ≤ (((exDraws 0).aes n).height + if ((exDraws 0).aes n).avulU ≤ (0 : ℚ) then
      -((exDraws 0).aes n).avulAmt else 0)) ∧ (exHeap2.get 0).zmean - (exHeap2.get 1).zmean ≤ ((exDraws 0).fuel : ℚ) * 3 := by
  constructor
  · intro n; simp only [exDraws]; norm_num
  · simp only [exDraws, exHeap2]; norm_num

/-- Draws that never descend. -/
example : ∀ n, (((({ exDraws 0 with aes := fun n => { (exDraws 0).aes n with height := 0 } } : StratumDraw ℚ).aes n).height +
    if (({ exDraws 0 with aes := fun n => { (exDraws 0).aes n with height := 0 } } : StratumDraw ℚ).aes n).avulU ≤ (0 : ℚ)
    then -(({ exDraws 0 with aes := fun n => { (exDraws 0).aes n with height := 0 } } : StratumDraw ℚ).aes n).avulAmt
    else 0) ≤ 0) := by intro n; simp only [exDraws]; norm_num

/-! ### C67 -/

/-- **C67 (termination).** Cutting an AE into sheets ends, for every positive sheet thickness, within any number of passes `fuel + 1`
such that `fuel * thickness` exceeds the height range above the AE minimum. `e` is the AE's extent; `hmin` says that its minimum
is not above the AE's top surface. -/
theorem C67_sheets_terminate {aeB : ℕ} {th : α} {fuel : ℕ} {h : Heap α} {top : ℕ} {e : Extent α}
    (ht : top < h.next) (hmin : ∀ i < h.nx, ∀ j < h.ny, e.zmin ≤ (h.get top).vals i j)
    (hth : 0 < th) (hfuel : (e.zmax - th) - e.zmin < (fuel : α) * th) :
    sheetLoop aeB th (fuel + 1) h (e.zmax - th) top e ≠ .error .sheetRunning :=
  sheetLoop_terminates ht hmin hfuel hth

/-- **C67 (need for positivity).** With a thickness that is zero or negative (other than the marker -1 for massive sheets) the loop
never ends if the AE has positive height range: no number of passes gives a result. -/
theorem C67_sheets_diverge {aeB : ℕ} {th : α} (fuel : ℕ) {h : Heap α} {top : ℕ} {e : Extent α} (hz : e.zmin < e.zmax)
    (hth : th ≤ 0) (r : Heap α × Extent α × List (SheetRaw α)) :
    sheetLoop aeB th fuel h (e.zmax - th) top e ≠ .ok r :=
  sheetLoop_diverges (by linarith) hth r

/-- Heights 4 to 10, thickness 2: `fuel = 3` is enough. -/
example : (∀ i < exHeap2.nx, ∀ j < exHeap2.ny, (4 : ℚ) ≤ (exHeap2.get 0).vals i j) ∧ ((10 : ℚ) - 2) - 4 < ((3 : ℕ) : ℚ) * 2 ∧
    (sheetLoop 1 (2 : ℚ) 4 exHeap2 (10 - 2) 0 ⟨4, 10⟩).isOk = true := by
  refine ⟨?_, by decide +kernel, by decide +kernel⟩
  intro i _ j _; simp only [exHeap2]; norm_num

end

/-! ### C09 -/

/-- **C09 (extents).** In every generated model the range reported for an AE contains the range of each of its objects and its two
surfaces in every column; the range reported for a stratum contains the ranges of its AEs and its two surfaces. -/
theorem C09_extents {nx ny : ℕ} {g : GridZ α} {sd : StrataDict α} {cms cms' : Contacts α}
    {draws : ℕ → StratumDraw α} {m : GenModel α} (hr : generateModel nx ny g sd cms draws = .ok (m, cms')) :
    ∀ s ∈ m.strata,
      (∀ i < nx, ∀ j < ny, s.ext.zmin ≤ (m.heap.get s.bottom).vals i j ∧ (m.heap.get s.top).vals i j ≤ s.ext.zmax) ∧
      ∀ a ∈ s.aes, s.ext.zmin ≤ a.ext.zmin ∧ a.ext.zmax ≤ s.ext.zmax ∧
        (∀ i < nx, ∀ j < ny, a.ext.zmin ≤ (m.heap.get a.bottom).vals i j ∧ (m.heap.get a.top).vals i j ≤ a.ext.zmax) ∧
        ∀ o ∈ a.objs, a.ext.zmin ≤ o.zmin ∧ o.zmax ≤ a.ext.zmax := by
  obtain ⟨hx, hy, hok, hlen, htop, bot, hbot, hfrom, hlow⟩ := generateModel_spec hr
  intro s hs
  have ok := (hfrom.ok hs).1
  refine ⟨fun i hi j hj => ok.ext i (by rw [hx]; exact hi) j (by rw [hy]; exact hj), ?_⟩
  intro a ha
  have hne : s.aes ≠ [] := by rintro h; rw [h] at ha; simp at ha
  have oka := ((ok.from_ hne).ok ha).1
  exact ⟨(ok.aes_ext a ha).1, (ok.aes_ext a ha).2,
    fun i hi j hj => oka.ext i (by rw [hx]; exact hi) j (by rw [hy]; exact hj), oka.objs⟩

/-- **C09 (skipping is safe).** In a generated model, a cell that an object (in its reported range) or the background of an AE would
accept is never below the reported minimum of the AE or of its stratum. So skipping an AE or stratum because the cell is
below the reported minimum never skips a container of the cell. -/
theorem C09_skip {nx ny : ℕ} {g : GridZ α} {sd : StrataDict α} {cms cms' : Contacts α}
    {draws : ℕ → StratumDraw α} {m : GenModel α} (hr : generateModel nx ny g sd cms draws = .ok (m, cms'))
    {i j : ℕ} (hi : i < nx) (hj : j < ny) (z : α) : Encloses i j z m.search := by
  intro s hs a ha hrec
  obtain ⟨s0, hs0, rfl⟩ := List.mem_map.1 hs
  simp only [StratumReal.search] at ha
  obtain ⟨a0, ha0, rfl⟩ := List.mem_map.1 ha
  obtain ⟨h1, h2⟩ := C09_extents hr s0 hs0
  obtain ⟨h3, h4, h5, h6⟩ := h2 a0 ha0
  have key : a0.ext.zmin ≤ z := by
    unfold aeRec at hrec
    cases hf : firstObj i j z (a0.search m.heap).objs with
    | none =>
      rw [hf] at hrec
      simp only at hrec
      split_ifs at hrec with hb
      · exact (h5 i hi j hj).1.trans hb.2.1.le
      · exact absurd rfl hrec
    | some r =>
      obtain ⟨k, v⟩ := r
      obtain ⟨o, ho, hv, -⟩ := firstObj_some hf
      have hz := (objHit_ne_none.1 (by rw [hv]; simp)).1
      simp only [AEReal.search] at ho
      rw [List.getElem?_mapIdx, Option.map_eq_some_iff] at ho
      obtain ⟨o0, ho0, rfl⟩ := ho
      exact (h6 o0 (List.mem_of_getElem? ho0)).1.trans hz
  exact ⟨key, h3.trans key⟩

end Hyvr
