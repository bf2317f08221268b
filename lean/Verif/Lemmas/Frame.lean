import Verif.Spec.Frame
import Verif.Lemmas.RenumberIni
import Verif.Props.Inside

/-!
The layers of a model do not depend on what is inside them (C139).
-/

namespace Hyvr

open Py Spec

/-! ### Contacts -/

theorem sameContact_refl (nx ny : ℕ) (s : Surface ℝ) : SameContact nx ny s s := ⟨fun _ _ _ _ => rfl, rfl⟩

theorem same_keep {h h' h1 h1' : Heap ℝ} {r r' : ℕ} (s : SameContact h.nx h.ny (h.get r) (h'.get r')) (ex : h'.nx = h.nx) (ey : h'.ny = h.ny)
    (k : Keep h h1) (k' : Keep h' h1') (hr : r < h.next) (hr' : r' < h'.next) : SameContact h.nx h.ny (h1.get r) (h1'.get r') where
  vals i hi j hj := by
    rw [k'.vals r' hr' i (by rw [ex]; exact hi) j (by rw [ey]; exact hj), k.vals r hr i hi j hj, s.vals i hi j hj]
  zmean := by rw [k'.zmean r' hr', k.zmean r hr, s.zmean]

/-- The contact below an AE. -/
theorem aeStep {bottom : ℕ} {h h1 h2 h3 : Heap ℝ} {cms cms1 : Contacts ℝ} {nm : String} {field : ℕ → ℕ → ℝ} {z z1 : ℝ} {b top : ℕ}
    (hok : HeapOK h) (hb : bottom < h.next) (ht : top < h.next) (hbt : Below h bottom top)
    (hB : aeBottom bottom h cms nm field z = .ok (h1, cms1, b, z1)) (hl : h1.useLower b top = .ok h2) (hg : h2.useHigher b bottom = .ok h3) :
    HeapOK h3 ∧ Keep h h3 ∧ b < h3.next ∧ Below h3 bottom b ∧ Below h3 b top ∧
      ((z ≤ (h.get bottom).zmean ∧ b = bottom ∧ cms1 = cms ∧ z1 = (h.get bottom).zmean) ∨
        (¬ z ≤ (h.get bottom).zmean ∧ cms1 = Function.update cms nm { cms nm with z := some z } ∧ z1 = z ∧
          ∃ s, Surface.init h.nx h.ny { cms nm with z := some z } field = .ok s ∧ (h3.get b).zmean = s.zmean ∧
            ∀ i < h.nx, ∀ j < h.ny, (h3.get b).vals i j = max (min (s.vals i j) ((h.get top).vals i j)) ((h.get bottom).vals i j))) := by
  obtain ⟨ok1, k1, hb1, hcase⟩ := aeBottom_spec hok hb hB
  have eL := useLower_effect hl
  have eH := useHigher_effect hg
  have ok2 := heapOK_lower ok1 eL
  have ok3 := heapOK_higher ok2 eH
  have hbot1 : bottom < h1.next := lt_of_lt_of_le hb k1.next
  have htop1 : top < h1.next := lt_of_lt_of_le ht k1.next
  have hbt1 : Below h1 bottom top := (k1.below hb ht).2 hbt
  have k2 : Keep h h2 := by
    refine keep_lower k1 eL ?_
    intro hlt
    rcases hcase with ⟨rfl, -⟩ | ⟨rfl, -⟩
    · exact hbt1
    · exact absurd hlt (lt_irrefl _)
  have k3 : Keep h h3 := by
    refine keep_higher k2 eH ?_
    intro hlt
    rcases hcase with ⟨rfl, -⟩ | ⟨rfl, -⟩
    · exact Below.refl h2 _
    · exact absurd hlt (lt_irrefl _)
  have hn3 : h3.next = h1.next := eH.next.trans eL.next
  have hbt3 : Below h3 bottom top := (k3.below hb ht).2 hbt
  have hb_bot : Below h3 bottom b := by
    intro i hi j hj
    exact (C03_higher hg).2.2 i (by rw [← eH.nx]; exact hi) j (by rw [← eH.ny]; exact hj)
  have hb_top : Below h3 b top := by
    intro i hi j hj
    have hi2 : i < h2.nx := by rw [← eH.nx]; exact hi
    have hj2 : j < h2.ny := by rw [← eH.ny]; exact hj
    have hi1 : i < h1.nx := by rw [← eL.nx]; exact hi2
    have hj1 : j < h1.ny := by rw [← eL.ny]; exact hj2
    by_cases hbeq : b = bottom
    · rw [hbeq]; exact hbt3 i hi j hj
    · have hbt2 : (h2.get b).vals i j ≤ (h2.get top).vals i j := (C03_lower hl).2.2 i hi1 j hj1
      have hbot2 : (h2.get bottom).vals i j ≤ (h2.get top).vals i j := ((k2.below hb ht).2 hbt) i hi2 j hj2
      have htb : top ≠ b := by
        rcases hcase with ⟨rfl, -⟩ | ⟨rfl, -⟩
        · exact absurd rfl hbeq
        · exact ht.ne
      rw [eH.other top htb, eH.inside i hi2 j hj2]
      exact max_le hbt2 hbot2
  refine ⟨ok3, k3, by omega, hb_bot, hb_top, ?_⟩
  unfold aeBottom at hB
  split_ifs at hB with hz
  · simp only [Except.ok.injEq, Prod.mk.injEq] at hB
    obtain ⟨-, rfl, rfl, rfl⟩ := hB
    exact Or.inl ⟨hz, rfl, rfl, rfl⟩
  · right
    simp only [bind_ok, liftErr_ok, pure_ok] at hB
    obtain ⟨⟨h1', b'⟩, hc, heq⟩ := hB
    simp only [Prod.mk.injEq] at heq
    obtain ⟨rfl, rfl, rfl, rfl⟩ := heq
    obtain ⟨s, hs, hbn, he⟩ := create_ok hc
    have hget : h1'.get b' = s := by rw [he, hbn]; simp
    refine ⟨hz, rfl, rfl, s, hs, by rw [eH.zmean, eL.zmean, hget], fun i hi j hj => ?_⟩
    have hi1 : i < h1'.nx := by rw [k1.nx]; exact hi
    have hj1 : j < h1'.ny := by rw [k1.ny]; exact hj
    rw [eH.inside i (by rw [eL.nx]; exact hi1) j (by rw [eL.ny]; exact hj1), eL.inside i hi1 j hj1, hget, k1.vals top ht i hi j hj,
      k2.vals bottom hb i hi j hj]

/-- The contact below a stratum. -/
theorem stratumStep {g : GridZ ℝ} {sd : StrataDict ℝ} {h h1 h2 : Heap ℝ} {si b top : ℕ} {field : ℕ → ℕ → ℝ} (hok : HeapOK h) (ht : top < h.next)
    (hB : stratumBottom g sd h si field = .ok (h1, b)) (hl : h1.useLower b top = .ok h2) :
    HeapOK h2 ∧ Keep h h2 ∧ b < h2.next ∧ Below h2 b top ∧
      ∃ cm s, (if si + 1 = sd.n then cm = .flat g.z0 else fromEnd sd.contacts si = .ok cm) ∧ Surface.init h.nx h.ny cm field = .ok s ∧
        (h2.get b).zmean = s.zmean ∧ ∀ i < h.nx, ∀ j < h.ny, (h2.get b).vals i j = min (s.vals i j) ((h.get top).vals i j) := by
  obtain ⟨ok1, k1, hbn, hn1, -⟩ := stratumBottom_spec hok hB
  have eL := useLower_effect hl
  have ok2 := heapOK_lower ok1 eL
  have k2 : Keep h h2 := keep_lower k1 eL (fun hlt => by omega)
  have hn2 : h2.next = h1.next := eL.next
  refine ⟨ok2, k2, by omega, fun i hi j hj => (C03_lower hl).2.2 i (by rw [← eL.nx]; exact hi) j (by rw [← eL.ny]; exact hj), ?_⟩
  have key : ∀ cm, h.create cm field = .ok (h1, b) → ∃ s, Surface.init h.nx h.ny cm field = .ok s ∧ (h2.get b).zmean = s.zmean ∧
      ∀ i < h.nx, ∀ j < h.ny, (h2.get b).vals i j = min (s.vals i j) ((h.get top).vals i j) := by
    intro cm hc
    obtain ⟨s, hs, hbn, he⟩ := create_ok hc
    have hget : h1.get b = s := by rw [he, hbn]; simp
    refine ⟨s, hs, by rw [eL.zmean, hget], fun i hi j hj => ?_⟩
    rw [eL.inside i (by rw [k1.nx]; exact hi) j (by rw [k1.ny]; exact hj), hget, k1.vals top ht i hi j hj]
  unfold stratumBottom at hB
  split_ifs at hB ⊢ with hlast
  · rw [liftErr_ok] at hB
    exact ⟨_, _, rfl, (key _ hB).choose_spec⟩
  · simp only [bind_ok, liftErr_ok] at hB
    obtain ⟨cm, hcm, hc⟩ := hB
    exact ⟨cm, _, hcm, (key _ hc).choose_spec⟩

/-! ### Two runs -/

/-- The same element type, apart from what is inside. -/
def LikeType (t t' : ElemParams ℝ) : Prop := t'.name = t.name ∧ t'.aeId = t.aeId

/-- The same draws for the layers. -/
structure LikeDraw (d d' : AEDraw ℝ) : Prop where
  height : d'.height = d.height
  avulU : d'.avulU = d.avulU
  avulAmt : d'.avulAmt = d.avulAmt
  next : d'.next = d.next
  field : d'.field = d.field

theorem chooseType_like {types types' : List (ElemParams ℝ)} (ht : List.Forall₂ LikeType types types') {n : ℕ} {t t' : ElemParams ℝ}
    (h : chooseType types n = .ok t) (h' : chooseType types' n = .ok t') : LikeType t t' := by
  unfold chooseType at h h'
  cases e : types[n]? with
  | none => rw [e] at h; cases h
  | some x =>
    cases e' : types'[n]? with
    | none => rw [e'] at h'; cases h'
    | some x' =>
      rw [e] at h
      rw [e'] at h'
      cases h
      cases h'
      obtain ⟨hn, rfl⟩ := List.getElem?_eq_some_iff.1 e
      obtain ⟨hn', rfl⟩ := List.getElem?_eq_some_iff.1 e'
      exact (List.forall₂_iff_get.1 ht).2 n hn hn'

theorem genAE_label {g : GridZ ℝ} {sp : StratumParams ℝ} {t : ElemParams ℝ} {d : AEDraw ℝ} {h h' : Heap ℝ} {bottom top : ℕ} {a : AEReal ℝ}
    (hr : genAE g sp t d h bottom top = .ok (h', a)) : a.name = t.name ∧ a.typeId = t.aeId ∧ a.num = 0 := by
  unfold genAE at hr
  dsimp only at hr
  split_ifs at hr
  · simp only [bind_ok, pure_ok] at hr
    obtain ⟨_, -, heq⟩ := hr
    cases heq
    exact ⟨rfl, rfl, rfl⟩
  · simp only [bind_ok, pure_ok] at hr
    obtain ⟨_, -, _, -, heq⟩ := hr
    cases heq
    exact ⟨rfl, rfl, rfl⟩

theorem aeGenLoop_layers {g g' : GridZ ℝ} {sp sp' : StratumParams ℝ} (hsp : sp'.avulProb = sp.avulProb) {types types' : List (ElemParams ℝ)}
    (hty : List.Forall₂ LikeType types types') {draws draws' : ℕ → AEDraw ℝ} (hd : ∀ n, LikeDraw (draws n) (draws' n)) {bottom bottom' : ℕ}
    {fuel fuel' n : ℕ} {h h' H H' : Heap ℝ} {cms c c' : Contacts ℝ} {znow : ℝ} {top top' : ℕ} {curr curr' : ElemParams ℝ} (hcurr : LikeType curr curr')
    {as as' : List (AEReal ℝ)} (ex : h'.nx = h.nx) (ey : h'.ny = h.ny)
    (hok : HeapOK h) (hb : bottom < h.next) (ht : top < h.next) (hbt : Below h bottom top)
    (hok' : HeapOK h') (hb' : bottom' < h'.next) (ht' : top' < h'.next) (hbt' : Below h' bottom' top')
    (sb : SameContact h.nx h.ny (h.get bottom) (h'.get bottom')) (st : SameContact h.nx h.ny (h.get top) (h'.get top'))
    (hr : aeGenLoop g sp types bottom draws fuel n h cms znow top curr = .ok (H, c, as))
    (hr' : aeGenLoop g' sp' types' bottom' draws' fuel' n h' cms znow top' curr' = .ok (H', c', as')) :
    c' = c ∧ List.Forall₂ (SameAE h.nx h.ny H H') as as' := by
  have done : ∀ {g : GridZ ℝ} {sp : StratumParams ℝ} {types : List (ElemParams ℝ)} {draws : ℕ → AEDraw ℝ} {bottom fuel n : ℕ} {h H : Heap ℝ}
      {cms c : Contacts ℝ} {znow : ℝ} {top : ℕ} {curr : ElemParams ℝ} {as : List (AEReal ℝ)}, ¬ znow > (h.get bottom).zmean →
      aeGenLoop g sp types bottom draws fuel n h cms znow top curr = .ok (H, c, as) → c = cms ∧ as = [] := by
    intro g sp types draws bottom fuel n h H cms c znow top curr as hz hr
    rw [aeGenLoop_end hz] at hr
    cases hr
    exact ⟨rfl, rfl⟩
  induction fuel generalizing fuel' n h h' cms znow top top' curr curr' as as' with
  | zero =>
    have hz : ¬ znow > (h.get bottom).zmean := by
      intro hz
      unfold aeGenLoop at hr
      rw [if_pos hz] at hr
      cases hr
    obtain ⟨rfl, rfl⟩ := done hz hr
    obtain ⟨rfl, rfl⟩ := done (by rw [sb.zmean]; exact hz) hr'
    exact ⟨rfl, .nil⟩
  | succ fuel ih =>
    by_cases hz : znow > (h.get bottom).zmean
    · have hz' : znow > (h'.get bottom').zmean := by rw [sb.zmean]; exact hz
      cases fuel' with
      | zero =>
        unfold aeGenLoop at hr'
        rw [if_pos hz'] at hr'
        cases hr'
      | succ fuel' =>
        unfold aeGenLoop at hr hr'
        rw [if_pos hz] at hr
        rw [if_pos hz'] at hr'
        simp only [bind_ok, liftErr_ok, pure_ok] at hr hr'
        obtain ⟨-, -, nt, hnt, ⟨h1, cms1, b, z1⟩, hB, h2, hl, h3, hg, ⟨h4, a⟩, hA, ⟨h5, cms5, rest⟩, hrec, heq⟩ := hr
        obtain ⟨-, -, nt', hnt', ⟨h1', cms1', b', z1'⟩, hB', h2', hl', h3', hg', ⟨h4', a'⟩, hA', ⟨h5', cms5', rest'⟩, hrec', heq'⟩ := hr'
        simp only [Prod.mk.injEq] at heq heq'
        obtain ⟨rfl, rfl, rfl⟩ := heq
        obtain ⟨rfl, rfl, rfl⟩ := heq'
        rw [(hd n).next] at hnt'
        have hlike := chooseType_like hty hnt hnt'
        have hzz : nextZ sp' (draws' n) znow = nextZ sp (draws n) znow := by
          unfold nextZ
          rw [(hd n).height, (hd n).avulU, (hd n).avulAmt, hsp]
        rw [hzz, hlike.1, (hd n).field] at hB'
        obtain ⟨ok3, k3, hb3, hbb, hbtop, hcase⟩ := aeStep hok hb ht hbt hB hl hg
        obtain ⟨ok3', k3', hb3', hbb', hbtop', hcase'⟩ := aeStep hok' hb' ht' hbt' hB' hl' hg'
        have key : cms1' = cms1 ∧ z1' = z1 ∧ SameContact h.nx h.ny (h3.get b) (h3'.get b') := by
          rcases hcase with ⟨hle, rfl, rfl, rfl⟩ | ⟨hle, rfl, rfl, s, hs, sz, sv⟩
          · rcases hcase' with ⟨-, rfl, rfl, rfl⟩ | ⟨hle', -⟩
            · exact ⟨rfl, sb.zmean, same_keep sb ex ey k3 k3' hb hb'⟩
            · exact absurd (by rw [sb.zmean]; exact hle) hle'
          · rcases hcase' with ⟨hle', -⟩ | ⟨-, rfl, rfl, s', hs', sz', sv'⟩
            · exact absurd (by rw [← sb.zmean]; exact hle') hle
            · refine ⟨rfl, rfl, ?_⟩
              rw [ex, ey, hs] at hs'
              cases hs'
              refine ⟨fun i hi j hj => ?_, by rw [sz, sz']⟩
              rw [sv i hi j hj, sv' i (by rw [ex]; exact hi) j (by rw [ey]; exact hj), st.vals i hi j hj, sb.vals i hi j hj]
        obtain ⟨rfl, rfl, s3⟩ := key
        obtain ⟨ok4, k4, -, hab, hat⟩ := genAE_spec ok3 hb3 (lt_of_lt_of_le ht k3.next) hbtop hA
        obtain ⟨ok4', k4', -, hab', hat'⟩ := genAE_spec ok3' hb3' (lt_of_lt_of_le ht' k3'.next) hbtop' hA'
        have k04 := k3.trans k4
        have k04' := k3'.trans k4'
        have hb4 : bottom < h4.next := lt_of_lt_of_le hb k04.next
        have hb4' : bottom' < h4'.next := lt_of_lt_of_le hb' k04'.next
        have hbb4 : b < h4.next := lt_of_lt_of_le hb3 k4.next
        have hbb4' : b' < h4'.next := lt_of_lt_of_le hb3' k4'.next
        have below4 : Below h4 bottom b := (k4.below (lt_of_lt_of_le hb k3.next) hb3).2 hbb
        have below4' : Below h4' bottom' b' := (k4'.below (lt_of_lt_of_le hb' k3'.next) hb3').2 hbb'
        obtain ⟨-, k5, -⟩ := aeGenLoop_spec ok4 hb4 hbb4 below4 hrec
        obtain ⟨-, k5', -⟩ := aeGenLoop_spec ok4' hb4' hbb4' below4' hrec'
        have ex3 : h3'.nx = h3.nx := by rw [k3'.nx, k3.nx, ex]
        have ey3 : h3'.ny = h3.ny := by rw [k3'.ny, k3.ny, ey]
        have ex4 : h4'.nx = h4.nx := by rw [k04'.nx, k04.nx, ex]
        have ey4 : h4'.ny = h4.ny := by rw [k04'.ny, k04.ny, ey]
        rw [← k3.nx, ← k3.ny] at s3
        have s4 := same_keep s3 ex3 ey3 k4 k4' hb3 hb3'
        rw [k3.nx, k3.ny, ← k04.nx, ← k04.ny] at s4
        have sb4 := same_keep sb ex ey k04 k04' hb hb'
        rw [← k04.nx, ← k04.ny] at sb4
        obtain ⟨e1, e2⟩ := ih hlike ex4 ey4 ok4 hb4 hbb4 below4 ok4' hb4' hbb4' below4' sb4 s4 hrec hrec'
        rw [k04.nx, k04.ny] at e2
        obtain ⟨l1, l2, l3⟩ := genAE_label hA
        obtain ⟨l1', l2', l3'⟩ := genAE_label hA'
        refine ⟨e1, .cons ⟨by rw [l1, l1', hcurr.1], by rw [l2, l2', hcurr.2], by rw [l3, l3'], ?_, ?_⟩ e2⟩
        · rw [hab, hab']
          have := same_keep s3 ex3 ey3 (k4.trans k5) (k4'.trans k5') hb3 hb3'
          rwa [k3.nx, k3.ny] at this
        · rw [hat, hat']
          exact same_keep st ex ey (k04.trans k5) (k04'.trans k5') ht ht'
    · obtain ⟨rfl, rfl⟩ := done hz hr
      obtain ⟨rfl, rfl⟩ := done (by rw [sb.zmean]; exact hz) hr'
      exact ⟨rfl, .nil⟩

/-- The same draws for the layers of a stratum. -/
structure LikeStratumDraw (d d' : StratumDraw ℝ) : Prop where
  field : d'.field = d.field
  first : d'.first = d.first
  aes : ∀ n, LikeDraw (d.aes n) (d'.aes n)

theorem sameAE_keep {h h' H H' : Heap ℝ} {a a' : AEReal ℝ} (s : SameAE h.nx h.ny h h' a a') (ex : h'.nx = h.nx) (ey : h'.ny = h.ny) (k : Keep h H) (k' : Keep h' H')
    (ha : a.bottom < h.next ∧ a.top < h.next) (ha' : a'.bottom < h'.next ∧ a'.top < h'.next) : SameAE h.nx h.ny H H' a a' :=
  ⟨s.name, s.typeId, s.num, same_keep s.bottom ex ey k k' ha.1 ha'.1, same_keep s.top ex ey k k' ha.2 ha'.2⟩

theorem AEsFrom.placed {h : Heap ℝ} {bot : ℕ} {as : List (AEReal ℝ)} {top : ℕ} (hf : AEsFrom h bot top as) : ∀ a ∈ as, a.bottom < h.next ∧ a.top < h.next := by
  induction as generalizing top with
  | nil => simp
  | cons a rest ih =>
    obtain ⟨-, ok, -, hrest⟩ := hf
    intro x hx
    rcases List.mem_cons.1 hx with rfl | hx
    · exact ⟨ok.bottom_lt, ok.top_lt⟩
    · rcases hrest with ⟨rfl, -⟩ | hrest
      · simp at hx
      · exact ih hrest x hx

theorem StratumOK.placed {h : Heap ℝ} {s : StratumReal ℝ} (ok : StratumOK h s) : ∀ a ∈ s.aes, a.bottom < h.next ∧ a.top < h.next := by
  by_cases hn : s.aes = []
  · simp [hn]
  · exact (ok.from_ hn).placed

theorem sameStratum_keep {h h' H H' : Heap ℝ} {s s' : StratumReal ℝ} (hs : SameStratum h.nx h.ny h h' s s') (ex : h'.nx = h.nx) (ey : h'.ny = h.ny)
    (k : Keep h H) (k' : Keep h' H') (ok : StratumOK h s) (ok' : StratumOK h' s') : SameStratum h.nx h.ny H H' s s' := by
  refine ⟨same_keep hs.bottom ex ey k k' ok.bottom_lt ok'.bottom_lt, same_keep hs.top ex ey k k' ok.top_lt ok'.top_lt, ?_⟩
  have h1 := ok.placed
  have h2 := ok'.placed
  have h3 := hs.aes
  generalize s.aes = as at h1 h3 ⊢
  generalize s'.aes = as' at h2 h3 ⊢
  induction h3 with
  | nil => exact .nil
  | cons ha _ ih =>
    exact .cons (sameAE_keep ha ex ey k k' (h1 _ (by simp)) (h2 _ (by simp))) (ih (fun a m => h1 a (by simp [m])) fun a m => h2 a (by simp [m]))

theorem genStratum_layers {g g' : GridZ ℝ} {sp sp' : StratumParams ℝ} (hsp : sp'.avulProb = sp.avulProb) {types types' : List (ElemParams ℝ)}
    (hty : List.Forall₂ LikeType types types') {d d' : StratumDraw ℝ} (hd : LikeStratumDraw d d') {h h' H H' : Heap ℝ} {cms c c' : Contacts ℝ}
    {bottom bottom' top top' : ℕ} {s s' : StratumReal ℝ} (ex : h'.nx = h.nx) (ey : h'.ny = h.ny)
    (hok : HeapOK h) (hb : bottom < h.next) (ht : top < h.next) (hbt : Below h bottom top)
    (hok' : HeapOK h') (hb' : bottom' < h'.next) (ht' : top' < h'.next) (hbt' : Below h' bottom' top')
    (sb : SameContact h.nx h.ny (h.get bottom) (h'.get bottom')) (st : SameContact h.nx h.ny (h.get top) (h'.get top'))
    (hr : genStratum g sp types d h cms bottom top = .ok (H, c, s)) (hr' : genStratum g' sp' types' d' h' cms bottom' top' = .ok (H', c', s')) :
    c' = c ∧ SameStratum h.nx h.ny H H' s s' := by
  obtain ⟨-, k, -, e1, e2⟩ := genStratum_spec hok hb ht hbt hr
  obtain ⟨-, k', -, e1', e2'⟩ := genStratum_spec hok' hb' ht' hbt' hr'
  unfold genStratum at hr hr'
  simp only [bind_ok, pure_ok] at hr hr'
  obtain ⟨first, hf, ⟨h1, cms1, as⟩, hl, heq⟩ := hr
  obtain ⟨first', hf', ⟨h1', cms1', as'⟩, hl', heq'⟩ := hr'
  simp only [Prod.mk.injEq] at heq heq'
  obtain ⟨rfl, rfl, rfl⟩ := heq
  obtain ⟨rfl, rfl, rfl⟩ := heq'
  rw [hd.first] at hf'
  rw [st.zmean] at hl'
  obtain ⟨r1, r2⟩ := aeGenLoop_layers hsp hty hd.aes (chooseType_like hty hf hf') ex ey hok hb ht hbt hok' hb' ht' hbt' sb st hl hl'
  exact ⟨r1, same_keep sb ex ey k k' hb hb', same_keep st ex ey k k' ht ht', r2⟩

/-- The same strata, apart from what is inside. -/
structure LikeStrata (sd sd' : StrataDict ℝ) : Prop where
  n : sd'.n = sd.n
  contacts : sd'.contacts = sd.contacts
  params : List.Forall₂ (fun s s' : StratumParams ℝ => s'.avulProb = s.avulProb) sd.params sd'.params
  types : List.Forall₂ (List.Forall₂ LikeType) sd.types sd'.types

theorem fromEnd_like {β : Type} {R : β → β → Prop} {l l' : List β} (h : List.Forall₂ R l l') {si : ℕ} {b b' : β} (hb : fromEnd l si = .ok b)
    (hb' : fromEnd l' si = .ok b') : R b b' := by
  have h' := List.rel_reverse h
  unfold fromEnd at hb hb'
  cases e : l.reverse[si]? with
  | none => rw [e] at hb; cases hb
  | some x =>
    cases e' : l'.reverse[si]? with
    | none => rw [e'] at hb'; cases hb'
    | some x' =>
      rw [e] at hb
      rw [e'] at hb'
      cases hb
      cases hb'
      obtain ⟨hn, rfl⟩ := List.getElem?_eq_some_iff.1 e
      obtain ⟨hn', rfl⟩ := List.getElem?_eq_some_iff.1 e'
      exact (List.forall₂_iff_get.1 h').2 si hn hn'

theorem strataGenLoop_layers {g g' : GridZ ℝ} (hg : g'.z0 = g.z0) {sd sd' : StrataDict ℝ} (hsd : LikeStrata sd sd') {draws draws' : ℕ → StratumDraw ℝ}
    {k si : ℕ} (hd : ∀ x, si ≤ x → x < si + k → LikeStratumDraw (draws x) (draws' x)) {h h' H H' : Heap ℝ} {cms c c' : Contacts ℝ} {top top' : ℕ} {ss ss' : List (StratumReal ℝ)}
    (ex : h'.nx = h.nx) (ey : h'.ny = h.ny) (hok : HeapOK h) (ht : top < h.next) (hok' : HeapOK h') (ht' : top' < h'.next)
    (st : SameContact h.nx h.ny (h.get top) (h'.get top'))
    (hr : strataGenLoop g sd draws k si h cms top = .ok (H, c, ss)) (hr' : strataGenLoop g' sd' draws' k si h' cms top' = .ok (H', c', ss')) :
    List.Forall₂ (SameStratum h.nx h.ny H H') ss ss' := by
  induction k generalizing si h h' cms top top' ss ss' with
  | zero =>
    simp only [strataGenLoop, Except.ok.injEq, Prod.mk.injEq] at hr hr'
    obtain ⟨-, -, rfl⟩ := hr
    obtain ⟨-, -, rfl⟩ := hr'
    exact .nil
  | succ k ih =>
    unfold strataGenLoop at hr hr'
    simp only [bind_ok, liftErr_ok, pure_ok] at hr hr'
    obtain ⟨⟨h1, b⟩, hB, h2, hl, sp, hsp, types, hty, ⟨h3, cms3, s⟩, hS, ⟨h4, cms4, rest⟩, hrec, heq⟩ := hr
    obtain ⟨⟨h1', b'⟩, hB', h2', hl', sp', hsp', types', hty', ⟨h3', cms3', s'⟩, hS', ⟨h4', cms4', rest'⟩, hrec', heq'⟩ := hr'
    simp only [Prod.mk.injEq] at heq heq'
    obtain ⟨rfl, rfl, rfl⟩ := heq
    obtain ⟨rfl, rfl, rfl⟩ := heq'
    obtain ⟨ok2, k2, hb2, hbt2, cm, u, hcm, hu, hz, hv⟩ := stratumStep hok ht hB hl
    obtain ⟨ok2', k2', hb2', hbt2', cm', u', hcm', hu', hz', hv'⟩ := stratumStep hok' ht' hB' hl'
    have hcc : cm' = cm := by
      rw [hsd.n, hsd.contacts, hg] at hcm'
      split_ifs at hcm hcm'
      · rw [hcm, hcm']
      · rw [hcm] at hcm'
        cases hcm'
        rfl
    have huu : u' = u := by
      rw [ex, ey, (hd si le_rfl (by omega)).field, hcc, hu] at hu'
      cases hu'
      rfl
    subst hcc
    subst huu
    have ex2 : h2'.nx = h2.nx := by rw [k2'.nx, k2.nx, ex]
    have ey2 : h2'.ny = h2.ny := by rw [k2'.ny, k2.ny, ey]
    have sb : SameContact h2.nx h2.ny (h2.get b) (h2'.get b') := by
      refine ⟨fun i hi j hj => ?_, by rw [hz, hz']⟩
      rw [k2.nx] at hi
      rw [k2.ny] at hj
      rw [hv i hi j hj, hv' i (by rw [ex]; exact hi) j (by rw [ey]; exact hj), st.vals i hi j hj]
    have st2 := same_keep st ex ey k2 k2' ht ht'
    rw [← k2.nx, ← k2.ny] at st2
    have ht2 : top < h2.next := lt_of_lt_of_le ht k2.next
    have ht2' : top' < h2'.next := lt_of_lt_of_le ht' k2'.next
    obtain ⟨rfl, hs⟩ := genStratum_layers (fromEnd_like hsd.params hsp hsp') (fromEnd_like hsd.types hty hty') (hd si le_rfl (by omega)) ex2 ey2 ok2 hb2 ht2 hbt2 ok2' hb2' ht2' hbt2'
      sb st2 hS hS'
    obtain ⟨ok3, k3, so, -, -⟩ := genStratum_spec ok2 hb2 ht2 hbt2 hS
    obtain ⟨ok3', k3', so', -, -⟩ := genStratum_spec ok2' hb2' ht2' hbt2' hS'
    have hb3 : b < h3.next := lt_of_lt_of_le hb2 k3.next
    have hb3' : b' < h3'.next := lt_of_lt_of_le hb2' k3'.next
    have ex3 : h3'.nx = h3.nx := by rw [k3'.nx, k3.nx, ex2]
    have ey3 : h3'.ny = h3.ny := by rw [k3'.ny, k3.ny, ey2]
    have sb3 := same_keep sb ex2 ey2 k3 k3' hb2 hb2'
    rw [← k3.nx, ← k3.ny] at sb3 hs
    obtain ⟨-, k4, -⟩ := strataGenLoop_spec ok3 hb3 hrec
    obtain ⟨-, k4', -⟩ := strataGenLoop_spec ok3' hb3' hrec'
    have e := ih (fun x h1 h2 => hd x (by omega) (by omega)) ex3 ey3 ok3 hb3 ok3' hb3' sb3 hrec hrec'
    have q := sameStratum_keep hs ex3 ey3 k4 k4' so so'
    rw [k3.nx, k2.nx, k3.ny, k2.ny] at e q
    exact .cons q e

theorem numberAEs_layers {nx ny : ℕ} {h h' : Heap ℝ} {as as' : List (AEReal ℝ)} (H : List.Forall₂ (SameAE nx ny h h') as as') (na nh nh' : ℤ) :
    (numberAEs na nh' as').1 = (numberAEs na nh as).1 ∧ List.Forall₂ (SameAE nx ny h h') (numberAEs na nh as).2.2 (numberAEs na nh' as').2.2 := by
  induction H generalizing na nh nh' with
  | nil => exact ⟨rfl, .nil⟩
  | cons ha _ ih =>
    simp only [numberAEs]
    obtain ⟨h1, h2⟩ := ih (na + 1) (numberObjs nh _).1 (numberObjs nh' _).1
    exact ⟨h1, .cons ⟨ha.name, ha.typeId, rfl, ha.bottom, ha.top⟩ h2⟩

theorem numberStrata_layers {nx ny : ℕ} {h h' : Heap ℝ} {ss ss' : List (StratumReal ℝ)} (H : List.Forall₂ (SameStratum nx ny h h') ss ss') (na nh nh' : ℤ) :
    List.Forall₂ (SameStratum nx ny h h') (numberStrata na nh ss) (numberStrata na nh' ss') := by
  induction H generalizing na nh nh' with
  | nil => exact .nil
  | cons hs _ ih =>
    simp only [numberStrata]
    obtain ⟨h1, h2⟩ := numberAEs_layers hs.aes na nh nh'
    rw [h1]
    exact .cons ⟨hs.bottom, hs.top, h2⟩ (ih _ _ _)

theorem generateModel_layers {nx ny : ℕ} {g g' : GridZ ℝ} (hg : g'.z0 = g.z0 ∧ g'.lz = g.lz) {sd sd' : StrataDict ℝ} (hsd : LikeStrata sd sd') {cms c c' : Contacts ℝ}
    {draws draws' : ℕ → StratumDraw ℝ} (hd : ∀ si < sd.n, LikeStratumDraw (draws si) (draws' si)) {m m' : GenModel ℝ}
    (hr : generateModel nx ny g sd cms draws = .ok (m, c)) (hr' : generateModel nx ny g' sd' cms draws' = .ok (m', c')) : SameLayers m m' := by
  simp only [generateModel, bind_ok, liftErr_ok, pure_ok] at hr hr'
  obtain ⟨⟨h1, top⟩, hc, ⟨H, cm, ss⟩, hl, heq⟩ := hr
  obtain ⟨⟨h1', top'⟩, hc', ⟨H', cm', ss'⟩, hl', heq'⟩ := hr'
  rw [hg.2, hc] at hc'
  cases hc'
  simp only [Prod.mk.injEq] at heq heq'
  obtain ⟨rfl, rfl⟩ := heq
  obtain ⟨rfl, rfl⟩ := heq'
  have ok : HeapOK h1 := heapOK_create (fun r hr => absurd hr (Nat.not_lt_zero r)) hc
  have ht : top < h1.next := by
    obtain ⟨s, -, hb, he⟩ := create_ok hc
    rw [he, hb]
    exact Nat.lt_succ_self _
  obtain ⟨-, k, -⟩ := strataGenLoop_spec ok ht hl
  obtain ⟨-, k', -⟩ := strataGenLoop_spec ok ht hl'
  rw [hsd.n] at hl'
  have := strataGenLoop_layers hg.1 hsd (fun x _ h => hd x (by omega)) rfl rfl ok ht ok ht (sameContact_refl _ _ _) hl hl'
  refine ⟨by rw [k'.nx, k.nx], by rw [k'.ny, k.ny], ?_⟩
  dsimp only
  rw [k.nx, k.ny]
  exact numberStrata_layers this 0 0 0

/-! ### Reading -/

/-- What is read for a stratum, apart from what is inside its elements. -/
structure LikeRead (s s' : StratumRead) : Prop where
  params : s'.params = s.params
  weights : s'.weights = s.weights
  avul : s'.avul = s.avul
  types : List.Forall₂ (fun t t' : ElemParams ℚ => t'.name = t.name ∧ t'.aeId = t.aeId) s.types s'.types

theorem readElement_label {name : String} {id : ℕ} {e : Element} {t : ElemParams ℚ} (h : readElement name id e = .ok t) : t.name = name ∧ t.aeId = id := by
  simp only [readElement, bind_ok, pure_ok] at h
  obtain ⟨_, -, _, -, _, -, _, -, _, -, _, -, _, -, _, -, _, -, _, -, _, -, rfl⟩ := h
  exact ⟨rfl, rfl⟩

theorem stratumInput_like {P P' : Parsed} (hs : SameFrame P P') {n si : ℕ} {i i' : StratumInput} (h : stratumInput P n si = .ok i) (h' : stratumInput P' n si = .ok i') :
    i'.options = i.options ∧ i'.types.length = i.types.length := by
  simp only [stratumInput, stratumTypes, bind_ok, pure_ok] at h h'
  obtain ⟨_, -, os, hos, ts, ⟨v, hv, l, hl, hts⟩, rfl⟩ := h
  obtain ⟨_, -, os', hos', ts', ⟨v', hv', l', hl', hts'⟩, rfl⟩ := h'
  rw [hs.strata] at hos' hv'
  rw [hos] at hos'
  rw [hv] at hv'
  cases hos'
  cases hv'
  rw [hl] at hl'
  cases hl'
  exact ⟨rfl, by rw [mapPy_len hts, mapPy_len hts']⟩

theorem readStratum_like {P P' : Parsed} (hs : SameFrame P P') {ids : List (String × ℕ)} {n si : ℕ} {s s' : StratumRead} (h : readStratum P ids n si = .ok s)
    (h' : readStratum P' ids n si = .ok s') : LikeRead s s' := by
  simp only [readStratum, bind_ok, pure_ok] at h h'
  obtain ⟨i, hi, b1, e1, b2, e2, b3, e3, b4, e4, b5, e5, b6, e6, b7, e7, b8, e8, b9, e9, b10, e10, b11, e11, b12, e12, b13, e13, b14, e14, b15, e15, b16, e16, b17, e17,
    b18, e18, b19, e19, b20, e20, ts, hts, rfl⟩ := h
  obtain ⟨i', hi', c1, f1, c2, f2, c3, f3, c4, f4, c5, f5, c6, f6, c7, f7, c8, f8, c9, f9, c10, f10, c11, f11, c12, f12, c13, f13, c14, f14, c15, f15, c16, f16, c17, f17,
    c18, f18, c19, f19, c20, f20, ts', hts', rfl⟩ := h'
  obtain ⟨ho, hlen⟩ := stratumInput_like hs hi hi'
  have hopt : ∀ name, i'.option name = i.option name := fun name => by rw [StratumInput.option, ho]; rfl
  rw [hs.strata] at f18
  simp only [hopt] at f1 f3 f5 f7 f9 f11 f14
  obtain rfl : c1 = b1 := by rw [e1] at f1; exact (Except.ok.inj f1).symm
  obtain rfl : c2 = b2 := by rw [e2] at f2; exact (Except.ok.inj f2).symm
  obtain rfl : c3 = b3 := by rw [e3] at f3; exact (Except.ok.inj f3).symm
  obtain rfl : c4 = b4 := by rw [e4] at f4; exact (Except.ok.inj f4).symm
  obtain rfl : c5 = b5 := by rw [e5] at f5; exact (Except.ok.inj f5).symm
  obtain rfl : c6 = b6 := by rw [e6] at f6; exact (Except.ok.inj f6).symm
  obtain rfl : c7 = b7 := by rw [e7] at f7; exact (Except.ok.inj f7).symm
  obtain rfl : c8 = b8 := by rw [e8] at f8; exact (Except.ok.inj f8).symm
  obtain rfl : c9 = b9 := by rw [e9] at f9; exact (Except.ok.inj f9).symm
  obtain rfl : c10 = b10 := by rw [e10] at f10; exact (Except.ok.inj f10).symm
  obtain rfl : c11 = b11 := by rw [e11] at f11; exact (Except.ok.inj f11).symm
  obtain rfl : c12 = b12 := by rw [e12] at f12; exact (Except.ok.inj f12).symm
  obtain rfl : c13 = b13 := by rw [e13] at f13; exact (Except.ok.inj f13).symm
  obtain rfl : c14 = b14 := by rw [e14] at f14; exact (Except.ok.inj f14).symm
  obtain rfl : c15 = b15 := by rw [e15] at f15; exact (Except.ok.inj f15).symm
  obtain rfl : c16 = b16 := by rw [e16] at f16; exact (Except.ok.inj f16).symm
  obtain rfl : c17 = b17 := by rw [e17] at f17; exact (Except.ok.inj f17).symm
  obtain rfl : c18 = b18 := by rw [e18] at f18; exact (Except.ok.inj f18).symm
  obtain rfl : c19 = b19 := by rw [e19] at f19; exact (Except.ok.inj f19).symm
  obtain rfl : c20 = b20 := by rw [e20] at f20; exact (Except.ok.inj f20).symm
  refine ⟨rfl, rfl, rfl, ?_⟩
  dsimp only
  have hz : List.Forall₂ (fun x x' : String × Element => x'.1 = x.1) (c20.zip i.types) (c20.zip i'.types) := by
    clear f20 e20 hts hts' hopt ho
    have := hlen
    generalize i.types = l at this ⊢
    generalize i'.types = l' at this ⊢
    induction c20 generalizing l l' with
    | nil => exact .nil
    | cons c cs ih =>
      cases l with
      | nil =>
        cases l' with
        | nil => exact .nil
        | cons _ _ => simp at this
      | cons a l =>
        cases l' with
        | nil => simp at this
        | cons a' l' => exact .cons rfl (ih l l' (by simpa using this))
  have h1 := mapPy_ok.1 hts
  have h2 := mapPy_ok.1 hts'
  generalize c20.zip i.types = l at hz h1
  generalize c20.zip i'.types = l' at hz h2
  clear hts hts'
  induction hz generalizing ts ts' with
  | nil =>
    cases h1
    cases h2
    exact .nil
  | cons hx _ ih =>
    cases h1 with
    | cons a1 r1 =>
      cases h2 with
      | cons a2 r2 =>
        simp only [bind_ok] at a1 a2
        obtain ⟨d1, g1, g2⟩ := a1
        obtain ⟨d2, g3, g4⟩ := a2
        rw [hx, g1] at g3
        cases g3
        obtain ⟨q1, q2⟩ := readElement_label g2
        obtain ⟨q3, q4⟩ := readElement_label g4
        exact .cons ⟨by rw [q1, q3, hx], by rw [q2, q4]⟩ (ih _ _ r1 r2)

/-- What is read for a model, apart from what is inside its elements. -/
structure LikeInput (I I' : GenInput) : Prop where
  nx : I'.nx = I.nx
  ny : I'.ny = I.ny
  grid : I'.grid = I.grid
  contacts : I'.contacts = I.contacts
  reads : List.Forall₂ LikeRead I.reads I'.reads
  n : I'.strata.n = I.strata.n
  bottoms : I'.strata.contacts = I.strata.contacts
  params : I'.strata.params = I'.reads.reverse.map StratumRead.params ∧ I.strata.params = I.reads.reverse.map StratumRead.params
  types : I'.strata.types = I'.reads.reverse.map StratumRead.types ∧ I.strata.types = I.reads.reverse.map StratumRead.types

theorem genInput_like {P P' : Parsed} (hs : SameFrame P P') {ids : List (String × ℕ)} {I I' : GenInput} (h : genInput P ids = .ok I) (h' : genInput P' ids = .ok I') :
    LikeInput I I' := by
  have q : ∀ k ∈ ["dx", "dy", "lx", "ly", "z0", "lz"], P'.model.get k = P.model.get k := fun k hk => by rw [Dict.get, Dict.get, hs.grid k hk]
  have he : mapPy (fun e : String × Element => do
      let c ← readContact e.2.contact
      return (e.1, c)) P'.elements = mapPy (fun e : String × Element => do
      let c ← readContact e.2.contact
      return (e.1, c)) P.elements := by
    have := congrArg (mapPy fun e : String × ContactModel Atom => do
      let c ← readContact e.2
      return (e.1, c)) hs.elements
    rwa [mapPy_comp, mapPy_comp] at this
  simp only [genInput, bind_ok, pure_ok] at h h'
  rw [he, hs.strata, hs.contacts, q "dx" (by decide), q "dy" (by decide), q "lx" (by decide), q "ly" (by decide), q "z0" (by decide), q "lz" (by decide)] at h'
  obtain ⟨b1, e1, b2, e2, b3, e3, b4, e4, b5, e5, b6, e6, b7, e7, b8, e8, b9, e9, b10, e10, b11, e11, b12, e12, b13, e13, b14, e14, rs, hrs, rfl⟩ := h
  obtain ⟨c1, f1, c2, f2, c3, f3, c4, f4, c5, f5, c6, f6, c7, f7, c8, f8, c9, f9, c10, f10, c11, f11, c12, f12, c13, f13, c14, f14, rs', hrs', rfl⟩ := h'
  obtain rfl : c1 = b1 := by rw [e1] at f1; exact (Except.ok.inj f1).symm
  obtain rfl : c2 = b2 := by rw [e2] at f2; exact (Except.ok.inj f2).symm
  obtain rfl : c3 = b3 := by rw [e3] at f3; exact (Except.ok.inj f3).symm
  obtain rfl : c4 = b4 := by rw [e4] at f4; exact (Except.ok.inj f4).symm
  obtain rfl : c5 = b5 := by rw [e5] at f5; exact (Except.ok.inj f5).symm
  obtain rfl : c6 = b6 := by rw [e6] at f6; exact (Except.ok.inj f6).symm
  obtain rfl : c7 = b7 := by rw [e7] at f7; exact (Except.ok.inj f7).symm
  obtain rfl : c8 = b8 := by rw [e8] at f8; exact (Except.ok.inj f8).symm
  obtain rfl : c9 = b9 := by rw [e9] at f9; exact (Except.ok.inj f9).symm
  obtain rfl : c10 = b10 := by rw [e10] at f10; exact (Except.ok.inj f10).symm
  obtain rfl : c11 = b11 := by rw [e11] at f11; exact (Except.ok.inj f11).symm
  obtain rfl : c12 = b12 := by rw [e12] at f12; exact (Except.ok.inj f12).symm
  obtain rfl : c13 = b13 := by rw [e13] at f13; exact (Except.ok.inj f13).symm
  obtain rfl : c14 = b14 := by rw [e14] at f14; exact (Except.ok.inj f14).symm
  exact ⟨rfl, rfl, rfl, rfl, mapPy_both (fun si _ _ x x' => readStratum_like hs x x') hrs hrs', rfl, rfl, ⟨rfl, rfl⟩, ⟨rfl, rfl⟩⟩

theorem like_types {s s' : StratumRead} (h : LikeRead s s') :
    s'.types.length = s.types.length ∧ s'.types.map ElemParams.name = s.types.map ElemParams.name := by
  have := h.types
  generalize s.types = l at this ⊢
  generalize s'.types = l' at this ⊢
  induction this with
  | nil => exact ⟨rfl, rfl⟩
  | cons ha _ ih => exact ⟨by simp [ih.1], by simp [ih.2, ha.1]⟩

theorem typeAt_like {s s' : StratumRead} (h : LikeRead s s') (r : Randoms ℝ) (si n : ℕ) : typeAt s' r si n = typeAt s r si n := by
  cases n <;> simp only [typeAt, (like_types h).1, h.weights]

theorem meanAt_like {s s' : StratumRead} (h : LikeRead s s') (k : ℕ) : meanAt s' k = meanAt s k := by
  obtain ⟨hl, hn⟩ := like_types h
  unfold meanAt
  cases e : s.types[k]? with
  | none =>
    have : s'.types[k]? = none := by
      rw [List.getElem?_eq_none_iff] at e ⊢
      omega
    rw [this]
  | some t =>
    obtain ⟨hk, rfl⟩ := List.getElem?_eq_some_iff.1 e
    have hk' : k < s'.types.length := by omega
    rw [List.getElem?_eq_getElem hk']
    dsimp only
    have := (List.forall₂_iff_get.1 h.types).2 k hk hk'
    simp only [List.get_eq_getElem] at this
    rw [hn, this.1, h.params]

theorem draws_like {I I' : GenInput} (h : LikeInput I I') (r : Randoms ℝ) {d d' : ℕ → StratumDraw ℝ} (hd : SameFields d d') (si : ℕ) (hsi : si < I.reads.length) :
    LikeStratumDraw (I.draws r d si) (I'.draws r d' si) := by
  have hl : I'.reads.length = I.reads.length := h.reads.length_eq.symm
  have hsi' : si < I'.reads.length := by omega
  have hr := (List.forall₂_iff_get.1 h.reads).2 si hsi hsi'
  simp only [List.get_eq_getElem] at hr
  unfold GenInput.draws
  rw [List.getElem?_eq_getElem hsi, List.getElem?_eq_getElem hsi']
  dsimp only
  refine ⟨hd.strata si, typeAt_like hr r si 0, fun n => ⟨?_, rfl, ?_, typeAt_like hr r si (n + 1), hd.aes si n⟩⟩
  · simp only [drawStratum, typeAt_like hr, meanAt_like hr]
  · simp only [drawStratum, hr.avul]

end Hyvr
