import Verif.Spec.Files
import Verif.Props.Lookup
import Verif.Props.Complete
import Verif.Lemmas.Site

/-!
Lemmas for C116.
-/

namespace Hyvr

open Py Spec

theorem lastText_append (a b : Outputs) (f : Path) : lastText (a ++ b) f = (lastText b f).or (lastText a f) := by
  unfold lastText
  rw [List.reverse_append, List.find?_append]
  cases List.find? (fun e => decide (e.1 = f)) b.reverse <;> rfl

theorem lastText_none {a : Outputs} {f : Path} (h : ∀ x ∈ a, x.1 ≠ f) : lastText a f = none := by
  unfold lastText
  rw [Option.map_eq_none_iff, List.find?_eq_none]
  intro x hx
  simpa using h x (List.mem_reverse.1 hx)

theorem lastText_mem {a : Outputs} {f : Path} (h : lastText a f ≠ none) : ∃ x ∈ a, x.1 = f := by
  by_contra hc
  push Not at hc
  exact h (lastText_none hc)

theorem lastText_flatMap {fmts : List String} {W : String → Outputs} {f : Path} {fmt : String} (h : ∀ o ∈ fmts, o ≠ fmt → ∀ x ∈ W o, x.1 ≠ f) :
    lastText (fmts.flatMap W) f = if fmt ∈ fmts then lastText (W fmt) f else none := by
  induction fmts with
  | nil => rfl
  | cons o fmts ih =>
    rw [List.flatMap_cons, lastText_append, ih fun o' ho => h o' (List.mem_cons_of_mem _ ho)]
    by_cases ho : o = fmt
    · subst ho
      rw [if_pos (List.mem_cons_self ..)]
      split
      · cases lastText (W o) f <;> rfl
      · rfl
    · rw [lastText_none (h o (List.mem_cons_self ..) ho)]
      have : fmt ∈ o :: fmts ↔ fmt ∈ fmts := by
        rw [List.mem_cons]
        exact ⟨fun h => h.resolve_left fun e => ho e.symm, Or.inr⟩
      simp only [this]
      cases (if fmt ∈ fmts then lastText (W fmt) f else none) <;> rfl

theorem lastText_single (f : Path) (t : String) : lastText [(f, t)] f = some t := by
  simp [lastText]

theorem lastText_map (c : String) (a : Outputs) (f : Path) : lastText (a.map fun x => (c :: x.1, x.2)) (c :: f) = lastText a f := by
  induction a using List.reverseRecOn with
  | nil => rfl
  | append_singleton a x ih =>
    rw [List.map_append, lastText_append, lastText_append, ih]
    congr 1
    simp only [List.map_cons, List.map_nil]
    by_cases hx : x.1 = f
    · simp [lastText, hx]
    · simp [lastText, hx]

theorem named_inj {s : List Char} {a b : String} (h : named s a = named s b) : a = b := by
  have h1 : String.ofList (s ++ a.toList) = String.ofList (s ++ b.toList) := by
    have := h
    unfold named at this
    exact (List.cons.inj this).1
  have h2 := congrArg String.toList h1
  rw [String.toList_ofList, String.toList_ofList] at h2
  exact String.toList_injective (List.append_cancel_left h2)

/-- The places of different formats are different. -/
theorem fileOf_unique {s : List Char} {a b : String} {f : Path} (ha : FileOf s a f) (hb : FileOf s b f) : a = b := by
  have key : ∀ {x y : String}, x ≠ y → f = named s x → f = named s y → False := fun hxy h1 h2 => hxy (named_inj (h1.symm.trans h2))
  have long : ∀ {x c : String} {q : Path}, q ≠ [] → f = named s x → f = c :: q → False := by
    intro x c q hq h1 h2
    have := h1.symm.trans h2
    unfold named at this
    exact hq (List.cons.inj this).2.symm
  have dirs : ∀ {c c' : String} {q q' : Path}, c ≠ c' → f = c :: q → f = c' :: q' → False := fun hc h1 h2 => hc (List.cons.inj (h1.symm.trans h2)).1
  unfold FileOf at ha hb
  rcases ha with ⟨rfl, h1⟩ | ⟨rfl, h1⟩ | ⟨rfl, h1⟩ | ⟨rfl, h1⟩ | ⟨rfl, h1⟩ | ⟨rfl, q, hq, h1⟩ | ⟨rfl, q, hq, h1⟩ | ⟨rfl, h1 | h1⟩ <;>
  rcases hb with ⟨rfl, h2⟩ | ⟨rfl, h2⟩ | ⟨rfl, h2⟩ | ⟨rfl, h2⟩ | ⟨rfl, h2⟩ | ⟨rfl, q', hq', h2⟩ | ⟨rfl, q', hq', h2⟩ | ⟨rfl, h2 | h2⟩ <;>
  first
    | rfl
    | exact (key (by decide) h1 h2).elim
    | exact (long hq' h1 h2).elim
    | exact (long hq h2 h1).elim
    | exact (long (by simp) h1 h2).elim
    | exact (long (by simp) h2 h1).elim
    | exact (dirs (by decide) h1 h2).elim

/-! ### Arrays -/

theorem data_arrays (S : Simulation) : Arrays S S.data where
  facies := rfl
  strata := rfl
  ae := rfl
  ha := rfl
  hat := rfl
  azim := ⟨_, rfl, fun i j k a h => by simp [angles, h]⟩
  dip := ⟨_, rfl, fun i j k a h => by simp [angles, h]⟩
  params := fun D hD => by
    refine ⟨by simp [Simulation.data, hD], by simp [Simulation.data, hD], by simp [Simulation.data, hD],
      fun i j k => (D.ktensors i j k).getD 0, by simp [Simulation.data, hD], fun i j k M h => by simp only [h, Option.getD_some]⟩
  without := fun h => by simp [Simulation.data, h]
  only := fun name h => by
    simp only [List.mem_cons, List.not_mem_nil, or_false, not_or] at h
    obtain ⟨h1, h2, h3, h4, h5, h6, h7, h8, h9, h10⟩ := h
    simp [Simulation.data, *]

/-! ### Grid -/

theorem grid_of {m : Dict} {g : Grid} (h : readGrid m = .ok g) : GridOf m g := by
  simp only [readGrid, bind_ok, pure_ok, dget_ok] at h
  obtain ⟨v1, h1, x0, hx0, v2, h2, y0, hy0, v3, h3, z0, hz0, v4, h4, dx, hdx, v5, h5, dy, hdy, v6, h6, dz, hdz, v7, h7, lx, hlx, v8, h8, ly, hly,
    v9, h9, lz, hlz, v10, h10, b, hb, rfl⟩ := h
  rw [numOf_ok hx0] at h1
  rw [numOf_ok hy0] at h2
  rw [numOf_ok hz0] at h3
  rw [numOf_ok hdx] at h4
  rw [numOf_ok hdy] at h5
  rw [numOf_ok hdz] at h6
  rw [numOf_ok hlx] at h7
  rw [numOf_ok hly] at h8
  rw [numOf_ok hlz] at h9
  exact ⟨⟨x0, h1, rfl⟩, ⟨y0, h2, rfl⟩, ⟨z0, h3, rfl⟩, ⟨dx, h4, rfl⟩, ⟨dy, h5, rfl⟩, ⟨dz, h6, rfl⟩, ⟨lx, h7, rfl⟩, ⟨ly, h8, rfl⟩, ⟨lz, h9, rfl⟩⟩

theorem whole_real {m : Dict} {l d : String} {x y : ℝ} (h : Whole m l d) (hl : Reads m l x) (hd : Reads m d y) : 0 < y ∧ ∃ n : ℕ, x = n * y := by
  obtain ⟨n, q, hq, h1, h2⟩ := h
  obtain ⟨a, h3, rfl⟩ := hl
  obtain ⟨b, h4, rfl⟩ := hd
  cases numVal_some_inj h1 h4
  cases numVal_some_inj h2 h3
  refine ⟨by exact_mod_cast hq, n, by push_cast; rfl⟩

theorem nodes_arange {x0 l d : ℝ} {n : ℕ} (hd : 0 < d) (hl : l = n * d) : Nodes x0 d n (Py.arange x0 (x0 + l + d) d) := by
  have hq : ⌈(x0 + l + d - x0) / d⌉.toNat = n + 1 := by
    have : (x0 + l + d - x0) / d = ((n + 1 : ℕ) : ℝ) := by
      rw [hl]
      push_cast
      field_simp
      ring
    rw [this, Int.ceil_natCast]
    simp
  refine ⟨by rw [arange_length, hq], fun i hi => ?_⟩
  rw [arange_getElem?, hq, if_pos (by omega)]

/-! ### Heads -/

theorem optional_list_given {C : Convs} (hfloat : ∀ t a, C.float t = .ok a → ∃ q, a = .num q) {raw d : Dict}
    (h : parseSection (optsFlowtrans C) raw = .ok d) {k : String} (hk : k ∈ ["hin", "hout"]) (hg : raw k ≠ none)
    (ht : ∀ t, raw k = some (.leaf (.text t)) → WellWritten t) : ∃ q r, d k = some (numList (q :: r)) := by
  have hn : (optsFlowtrans C).find? (fun o => o.name = k) = some { name := k, kind := .list C.float (.num 3), isOptional := true } := by
    simp only [List.mem_cons, List.not_mem_nil, or_false] at hk
    rcases hk with rfl | rfl
    · rfl
    · rfl
  have hm := List.mem_of_find?_eq_some hn
  obtain ⟨pre, post, hpp⟩ := List.append_of_mem hm
  obtain ⟨h1, -⟩ := C46_present _ (flowtrans_named C) _ _ h pre post _ hpp
  rw [given_simple rfl] at h1
  obtain ⟨r, hr⟩ := Option.ne_none_iff_exists'.1 hg
  obtain ⟨ctx, v, hcx, hv, hd, _⟩ := h1 r hr
  have hne : ShapeDecl.num (3 : ℤ) ≠ .num (-1) := by simp
  obtain ⟨t, _, _, ht', _⟩ := optValue_shape rfl hne hv
  have hrt : r = .leaf (.text t) := by
    rw [ht'] at hcx
    exact (Option.some.inj hcx).symm
  subst hrt
  have hwt := ht t hr
  obtain ⟨l, rfl, hl⟩ := flat_of_matches (C44_fixed_partial _ _ _ 3 rfl (Or.inl ⟨rfl, by omega⟩) ctx t hcx hwt _ hv)
  obtain ⟨qs, rfl⟩ := all_num (l := l) fun a ha => by
    obtain ⟨t, ht⟩ := option_leaf rfl hne hv hcx hwt (leafOf_flat.2 ha)
    exact hfloat t a ht
  rw [flatList_num] at hd
  rw [List.length_map] at hl
  match qs, hl with
  | [], h => simp at h
  | q :: r, _ => exact ⟨q, r, hd⟩

theorem flow_read {C : Convs} (hfloat : ∀ t a, C.float t = .ok a → ∃ q, a = .num q) {p : Ini} {P : Parsed} (h : parseInifile C p = .ok P)
    {fmts all : List String} (hl : OutputsListed P all) (hsub : fmts ⊆ all) (hw : Writable p P fmts) (hm : "mf" ∈ fmts ∨ "mf6" ∈ fmts) :
    ∃ (ft : FlowTrans) (hin hout : ℚ) (r r' : List ℚ), readFlow P.flowtrans = .ok ft ∧ P.flowtrans "hin" = some (numList (hin :: r)) ∧
      P.flowtrans "hout" = some (numList (hout :: r')) ∧ ft.hin = some ((hin : ℝ) :: r.map Rat.cast) ∧ ft.hout = some ((hout : ℝ) :: r'.map Rat.cast) ∧
      (ft.qIn = none ∧ P.flowtrans "q_in" = some (.leaf .none) ∨ ∃ q : ℚ, ft.qIn = some (q : ℝ) ∧ P.flowtrans "q_in" = some (numVal q)) := by
  have hs : parseSection (optsFlowtrans C) (p.get "flowtrans") = .ok P.flowtrans := by
    rcases hm with hm | hm
    · exact (C87_section C p P h _ hl "mf" (by simp [flowFormats]) (List.mem_map.2 ⟨_, hsub hm, rfl⟩)).2
    · exact (C87_section C p P h _ hl "mf6" (by simp [flowFormats]) (List.mem_map.2 ⟨_, hsub hm, rfl⟩)).2
  obtain ⟨g1, t1⟩ := hw.heads hm "hin" (by simp)
  obtain ⟨g2, t2⟩ := hw.heads hm "hout" (by simp)
  obtain ⟨hin, r, e1⟩ := optional_list_given hfloat hs (by simp) g1 t1
  obtain ⟨hout, r', e2⟩ := optional_list_given hfloat hs (by simp) g2 t2
  have num : ∀ k, { name := k, kind := .scalar C.float, isOptional := true } ∈ optsFlowtrans C →
      ∃ x, flowNum P.flowtrans k = .ok x ∧ (x = none ∧ P.flowtrans k = some (.leaf .none) ∨ ∃ q : ℚ, x = some (q : ℝ) ∧ P.flowtrans k = some (numVal q)) := by
    intro k hk
    rcases scalar_num hfloat (flowtrans_named C) hs hk rfl rfl with ⟨hd, -⟩ | ⟨q, hd⟩
    · refine ⟨none, ?_, Or.inl ⟨rfl, hd⟩⟩
      unfold flowNum
      refine (of_ok (dget_ok.2 hd)).trans ?_
      rw [if_pos rfl]
      rfl
    · refine ⟨some (q : ℝ), ?_, Or.inr ⟨q, rfl, hd⟩⟩
      unfold flowNum
      refine (of_ok (dget_ok.2 hd)).trans ?_
      rw [if_neg (by simp)]
      rfl
  have nums : ∀ k q l, P.flowtrans k = some (numList (q :: l)) → flowNums P.flowtrans k = .ok (some ((q : ℝ) :: l.map Rat.cast)) := by
    intro k q l hd
    unfold flowNums
    refine (of_ok (dget_ok.2 hd)).trans ?_
    rw [if_neg (by simp)]
    refine (of_ok (numsOf_list _)).trans ?_
    rfl
  obtain ⟨a, ha, -⟩ := num "gradh" (by simp [optsFlowtrans])
  obtain ⟨b, hb, hq⟩ := num "q_in" (by simp [optsFlowtrans])
  refine ⟨{ hin := _, hout := _, gradh := a, qIn := b }, hin, hout, r, r', ?_, e1, e2, rfl, rfl, hq⟩
  unfold readFlow
  refine (of_ok (nums _ _ _ e1)).trans ?_
  refine (of_ok (nums _ _ _ e2)).trans ?_
  refine (of_ok ha).trans ?_
  exact (of_ok hb).trans rfl

/-! ### Input of flopy -/

theorem mfInput_ok {P : Parsed} {S : Simulation} {g : Grid} {ft : FlowTrans} {D : HydData} {hin hout : ℝ} {r r' : List ℝ} (hg : readGrid P.model = .ok g)
    (hf : readFlow P.flowtrans = .ok ft) (h1 : ft.hin = some (hin :: r)) (h2 : ft.hout = some (hout :: r')) (hD : S.params = some D) :
    ∃ i, mfInput P S = .ok i ∧ i.dis = mfDis g ∧ (S.shape = ⟨g.nx, g.ny, g.nz⟩ → MfFits g S D hin hout i) := by
  obtain ⟨a1, a2, a3, -⟩ := (data_arrays S).params D hD
  obtain ⟨⟨hk, vka, e1, e2, e3⟩, -⟩ := C60_values S.data D.kIso a1
  have hst : mfStrt g ft = .ok (fun _ _ c => if c = g.ny - 1 then hout else if c = 0 then hin else 1) := by
    simp only [mfStrt, headOf, h1, h2, bind, Except.bind, pure, Except.pure]
  refine ⟨{ dis := mfDis g, ibound := mfIbound g, strt := fun _ _ c => if c = g.ny - 1 then hout else if c = 0 then hin else 1, hk := hk, vka := vka },
    ?_, rfl, fun hs => ?_⟩
  · unfold mfInput
    refine (of_ok hg).trans ((of_ok hf).trans ((of_ok hst).trans ((of_ok e1).trans rfl)))
  · refine { layers := by rw [hs]; rfl, rows := by rw [hs]; rfl, columns := by rw [hs]; rfl, widths := ⟨rfl, rfl⟩, top := rfl, bottoms := ?_,
             hk := fun l r c => e2 r c l, vka := ?_, ibound := ?_, strt := ?_ }
    · rw [hs]
      refine ⟨(C61_bottoms_partial g).1, fun l hl => ?_⟩
      have hl : l < g.nz := hl
      simp only [mfDis, List.getElem?_drop, Py.linspace]
      rw [List.getElem?_map, List.getElem?_range (by omega)]
      have hne : g.nz + 1 ≠ 1 := by omega
      simp only [Option.map_some, if_neg hne, Option.some.injEq]
      push_cast
      rw [add_sub_cancel_right]
      ring
    · obtain ⟨v, hv, hv'⟩ := e3 _ a3
      exact ⟨v, hv, fun l r c => hv' r c l⟩
    · intro l r c
      rw [hs]
      simp only [mfIbound]
      constructor
      · rintro (rfl | rfl) <;> simp
      · intro h3 h4
        rw [if_neg h4, if_neg h3]
    · intro l r c
      rw [hs]
      simp only
      refine ⟨fun h => by rw [if_pos h], fun h3 h4 => by rw [if_neg h4, if_pos h3], fun h3 h4 => by rw [if_neg h4, if_neg h3]⟩

theorem mf6Input_ok {P : Parsed} {S : Simulation} {g : Grid} {ft : FlowTrans} {D : HydData} {hin hout : ℝ} {r r' : List ℝ} (hg : readGrid P.model = .ok g)
    (hf : readFlow P.flowtrans = .ok ft) (h1 : ft.hin = some (hin :: r)) (h2 : ft.hout = some (hout :: r')) (hD : S.params = some D)
    (hw : Whole P.model "lz" "dz") :
    ∃ i, mf6Input P S = .ok i ∧ i.dis = mf6Dis g ∧ (S.shape = ⟨g.nx, g.ny, g.nz⟩ → Mf6Fits g S D hin hout ft.qIn i) := by
  obtain ⟨a1, a2, a3, -⟩ := (data_arrays S).params D hD
  obtain ⟨A, hA, hA'⟩ := (data_arrays S).azim
  obtain ⟨B, hB, hB'⟩ := (data_arrays S).dip
  obtain ⟨-, N, e1, e2, e3⟩ := C60_values S.data D.kIso a1
  obtain ⟨hz, n, hn⟩ := whole_real hw (grid_of hg).lz (grid_of hg).dz
  have hc : mf6Chd g ft = .ok (faceLoop g.nz g.ny fun l r => [((l, r, 0), hin), ((l, r, g.nx - 1), hout)]) := by
    simp [mf6Chd, mf6Heads, headOf, h1, h2, Bind.bind, Except.bind, pure, Except.pure]
  have hb : mf6Boundary g ft = .ok (faceLoop g.nz g.ny fun l r => [((l, r, 0), hin), ((l, r, g.nx - 1), hout)], mf6Wells g ft) := by
    simp only [mf6Boundary, hc, Bind.bind, Except.bind, pure, Except.pure]
  refine ⟨_, (of_ok e1).trans ((of_ok hg).trans ((of_ok hf).trans ((of_ok hb).trans rfl))), rfl, fun hs => ?_⟩
  refine { layers := by rw [hs]; rfl, rows := by rw [hs]; rfl, columns := by rw [hs]; rfl, widths := ⟨rfl, rfl⟩, top := rfl, bottoms := ?_,
           k := fun l r c => e2 c r l, xt3d := ?_, chd := ?_, wel := ?_ }
  · obtain ⟨-, b1, b2⟩ := mf6_bottoms hz hn
    rw [hs]
    simp only [z_count hz hn]
    exact ⟨b1, b2⟩
  · obtain ⟨k33, x1, x2, h3, h4⟩ := e3 _ _ _ a3 hB hA
    refine ⟨k33, x1, x2, h3, fun l r c => ?_⟩
    obtain ⟨h5, h6, h7⟩ := h4 c r l
    exact ⟨h5, fun a ha => h6.trans (hA' _ _ _ _ ha), fun a ha => h7.trans (hB' _ _ _ _ ha)⟩
  · intro l r c h
    rw [hs]
    simp only
    rw [mem_faceLoop]
    simp only [List.mem_cons, List.not_mem_nil, or_false, Prod.mk.injEq]
    constructor
    · rintro ⟨l', hl, r', hr, (⟨⟨rfl, rfl, rfl⟩, rfl⟩ | ⟨⟨rfl, rfl, rfl⟩, rfl⟩)⟩
      · exact ⟨hl, hr, Or.inl ⟨rfl, rfl⟩⟩
      · exact ⟨hl, hr, Or.inr ⟨rfl, rfl⟩⟩
    · rintro ⟨hl, hr, (⟨rfl, rfl⟩ | ⟨rfl, rfl⟩)⟩
      · exact ⟨l, hl, r, hr, Or.inl ⟨⟨rfl, rfl, rfl⟩, rfl⟩⟩
      · exact ⟨l, hl, r, hr, Or.inr ⟨⟨rfl, rfl, rfl⟩, rfl⟩⟩
  · intro l r c q
    rw [hs]
    unfold mf6Wells
    simp only
    rw [mem_faceLoop]
    simp only [List.mem_singleton, Prod.mk.injEq]
    constructor
    · rintro ⟨l', hl, r', hr, ⟨rfl, rfl, rfl⟩, rfl⟩
      exact ⟨hl, hr, rfl, rfl⟩
    · rintro ⟨hl, hr, rfl, rfl⟩
      exact ⟨l, hl, r, hr, ⟨rfl, rfl, rfl⟩, rfl⟩

end Hyvr
