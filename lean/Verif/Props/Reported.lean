import Verif.Props.Files

/-!
Writers that fail: an ini-file without heads, and an exception of a library (C58, C92).
-/

namespace Hyvr

open Py Spec

/-- **C92 refuted (ini-file without heads).** An ini-file that lists `mf` or `mf6` and gives neither `hin` nor `hout` is accepted, whether or not it gives `gradh` or
`q_in`, but if flopy is installed, `mf` ends every realisation in a `TypeError` and `mf6` in a `NameError`, without a file. -/
theorem C92_unset_refuted (C : Convs) (hfloat : ∀ t a, C.float t = .ok a → ∃ q, a = .num q) (p : Ini) (P : Parsed) (h : parseInifile C p = .ok P)
    (fmts : List String) (hl : OutputsListed P fmts) (hm : "mf" ∈ fmts ∨ "mf6" ∈ fmts) (hno : ∀ k ∈ ["hin", "hout"], p.get "flowtrans" k = none)
    (g : Grid) (hg : readGrid P.model = .ok g) (L : Libs) (hL : L.flopy ≠ none) (s : List Char) (S : Simulation) :
    writers L P s S "mf" = ([], some .typeError) ∧ (S.params ≠ none → writers L P s S "mf6" = ([], some .nameError)) := by
  have hs : parseSection (optsFlowtrans C) (p.get "flowtrans") = .ok P.flowtrans := by
    rcases hm with hm | hm
    · exact (C87_section C p P h _ hl "mf" (by simp [flowFormats]) (List.mem_map.2 ⟨_, hm, rfl⟩)).2
    · exact (C87_section C p P h _ hl "mf6" (by simp [flowFormats]) (List.mem_map.2 ⟨_, hm, rfl⟩)).2
  have unset : ∀ k ∈ ["hin", "hout"], flowNums P.flowtrans k = .ok none := by
    intro k hk
    have hn : (optsFlowtrans C).find? (fun o => o.name = k) = some { name := k, kind := .list C.float (.num 3), isOptional := true } := by
      simp only [List.mem_cons, List.not_mem_nil, or_false] at hk
      rcases hk with rfl | rfl
      · rfl
      · rfl
    obtain ⟨pre, post, hpp⟩ := List.append_of_mem (List.mem_of_find?_eq_some hn)
    obtain ⟨-, h2⟩ := C46_present _ (flowtrans_named C) _ _ hs pre post _ hpp
    rw [given_simple rfl] at h2
    have hd := (h2 (hno k hk)).2
    unfold flowNums
    refine (of_ok (dget_ok.2 hd)).trans ?_
    rw [if_pos rfl]
    rfl
  have num : ∀ k, { name := k, kind := .scalar C.float, isOptional := true } ∈ optsFlowtrans C → ∃ x, flowNum P.flowtrans k = .ok x := by
    intro k hk
    rcases scalar_num hfloat (flowtrans_named C) hs hk rfl rfl with ⟨hd, -⟩ | ⟨q, hd⟩
    · refine ⟨none, ?_⟩
      unfold flowNum
      refine (of_ok (dget_ok.2 hd)).trans ?_
      rw [if_pos rfl]
      rfl
    · refine ⟨some (q : ℝ), ?_⟩
      unfold flowNum
      refine (of_ok (dget_ok.2 hd)).trans ?_
      rw [if_neg (by simp)]
      rfl
  obtain ⟨a, ha⟩ := num "gradh" (by simp [optsFlowtrans])
  obtain ⟨b, hb⟩ := num "q_in" (by simp [optsFlowtrans])
  have hft : readFlow P.flowtrans = .ok { hin := none, hout := none, gradh := a, qIn := b } := by
    unfold readFlow
    exact (of_ok (unset "hin" (by simp))).trans ((of_ok (unset "hout" (by simp))).trans ((of_ok ha).trans ((of_ok hb).trans rfl)))
  obtain ⟨c1, c2⟩ := C92_heads_refuted g { hin := none, hout := none, gradh := a, qIn := b } rfl
  obtain ⟨fl, hfl⟩ := Option.ne_none_iff_exists'.1 hL
  constructor
  · have : mfInput P S = .error .typeError := by
      unfold mfInput
      refine (of_ok hg).trans ((of_ok hft).trans ?_)
      rw [c2]
      rfl
    simp only [writers_mf, toModflow, hfl, this]
  · intro hD
    obtain ⟨D, hD⟩ := Option.ne_none_iff_exists'.1 hD
    obtain ⟨a1, -⟩ := (data_arrays S).params D hD
    obtain ⟨-, npf, hn, -⟩ := C60_values S.data D.kIso a1
    have : mf6Input P S = .error .nameError := by
      unfold mf6Input
      refine (of_ok hn).trans ((of_ok hg).trans ((of_ok hft).trans ?_))
      rw [c1]
      rfl
    simp only [writers_mf6, toMf6, hfl, this]

/-- The example with MODFLOW formats and a gradient instead of heads. -/
def exGradient : Ini := iniOf (withOptions "run" [("outputs", "[mf, mf6]")] exRiverSections ++ [("flowtrans", [("gradh", "1")])])

theorem exGradient_parsed : ∃ st, settings exConvs exGradient ["m"] "a.ini".toList [] = .ok st ∧ (riverB st.parsed &&
    decide (st.parsed.run "outputs" = some (.node [.leaf (.text "mf".toList), .leaf (.text "mf6".toList)]))) = true := ok_check (by decide +kernel)

/-- It is accepted, but cannot be written. -/
example (S : Simulation) : ∃ st, settings exConvs exGradient ["m"] "a.ini".toList [] = .ok st ∧
    writers exLibs st.parsed "a".toList S "mf" = ([], some .typeError) := by
  obtain ⟨st, hst, hb⟩ := exGradient_parsed
  obtain ⟨hr, ho⟩ := Bool.and_eq_true_iff.1 hb
  obtain ⟨h1, h2, u, h3⟩ := settings_facts (by decide +kernel) hst
  obtain ⟨g, hg, -⟩ := grid_read h1 h3 (river_placeable_with (os := []) hr).domain
  refine ⟨st, hst, (C92_unset_refuted exConvs exConvs_number _ _ h1 ["mf", "mf6"] (of_decide_eq_true (p := st.parsed.run "outputs" = some (.node _)) ho)
    (Or.inl (by simp)) ?_ g hg exLibs (by simp [exLibs]) _ S).1⟩
  have : ∀ k ∈ ["hin", "hout"], exGradient.get "flowtrans" k = none := by decide +kernel
  exact this

/-- **C58 (failing libraries).** If a library is installed but raises an exception, the writer of the format raises it too: no format fails silently. -/
theorem C58_reported (L : Libs) (P : Parsed) (g : Grid) (hg : readGrid P.model = .ok g) (s : List Char) (S : Simulation) (e : PyErr) :
    (∀ w, L.pyevtk = some w → w (vtrNodes g) ⟨g.nx, g.ny, g.nz⟩ { S.data with ktensors := none } = .error e → writers L P s S "vtr" = ([], some e)) ∧
    (∀ fl i, L.flopy = some fl → mfInput P S = .ok i → (fl.mf2005 s i).2 = some e → (writers L P s S "mf").2 = some e) ∧
    (∀ fl i, L.flopy = some fl → mf6Input P S = .ok i → (fl.mf6 s i).2 = some e → (writers L P s S "mf6").2 = some e) := by
  refine ⟨fun w hw he => ?_, fun fl i hfl hi he => ?_, fun fl i hfl hi he => ?_⟩
  · have : (do let g ← readGrid P.model; w (vtrNodes g) ⟨g.nx, g.ny, g.nz⟩ { S.data with ktensors := none }) = .error e := (of_ok hg).trans he
    simp only [writers_vtr, toVtr, hw, this]
  · simp only [writers_mf, toModflow, hfl, hi, he]
  · simp only [writers_mf6, toMf6, hfl, hi, he]

/-- pyevtk refuses the arrays. -/
example (S : Simulation) : ∃ st, settings exConvs exGradient ["m"] "a.ini".toList [] = .ok st ∧
    writers { exLibs with pyevtk := some fun _ _ _ => .error .valueError } st.parsed "a".toList S "vtr" = ([], some .valueError) := by
  obtain ⟨st, hst, hb⟩ := exGradient_parsed
  obtain ⟨h1, h2, u, h3⟩ := settings_facts (by decide +kernel) hst
  obtain ⟨g, hg, -⟩ := grid_read h1 h3 (river_placeable_with (os := []) (Bool.and_eq_true_iff.1 hb).1).domain
  exact ⟨st, hst, (C58_reported { exLibs with pyevtk := some fun _ _ _ => .error .valueError } st.parsed g hg _ S _).1 _ rfl rfl⟩

end Hyvr
