import Verif.Props.IniMore
import Verif.Props.Complete

/-!
C132 for a whole run from the text of its ini-file.
-/

namespace Hyvr

open Py Spec IniText

/-- The options of a section, each with the value that is found first. -/
def firsts : List (String × String) → List (String × String)
  | [] => []
  | o :: os => o :: (firsts os).filter fun q => decide (q.1 ≠ o.1)

theorem table_firsts (l : List (String × String)) : table (firsts l) = table l := by
  funext k
  unfold table
  congr 1
  induction l with
  | nil => rfl
  | cons o os ih =>
    rw [firsts, List.find?_cons, List.find?_cons]
    by_cases h : o.1 = k
    · simp [h]
    · rw [decide_eq_false h, ← ih]
      simp only [List.find?_filter]
      congr 1
      funext q
      by_cases hq : q.1 = k
      · simp [hq, Ne.symm h]
      · simp [hq]

theorem iniOf_firsts (l : List (String × List (String × String))) : iniOf (l.map fun s => (s.1, firsts s.2)) = iniOf l := by
  unfold iniOf
  congr 1
  · rw [List.map_map]
    rfl
  · funext s
    rw [List.find?_map]
    simp only [Function.comp_def]
    cases l.find? fun p => decide (p.1 = s) with
    | none => rfl
    | some p => exact table_firsts p.2

/-- The sections of the ini-file of the run of C111, with every option once. -/
def exRiverOnce : List (String × List (String × String)) := (withOptions "model" [] exRiverSections).map fun s => (s.1, firsts s.2)

/-- The text of that ini-file. -/
def exRiverText : String := String.ofList ((docOf exRiverOnce).text ['\n'])

/-- A directory with a file. -/
def exDisk (t : String) : FS := [(["m"], .dir), (["m", "a.ini"], .file t)]

theorem exDisk_tree (t : String) : Spec.Tree (exDisk t) := tree_of_all (by
  intro e he
  simp only [exDisk, List.mem_cons, List.not_mem_nil, or_false] at he
  rcases he with rfl | rfl
  · exact Or.inl rfl
  · exact Or.inr rfl)

theorem exDisk_other (t : String) (p : Path) : (exDisk t).get p ≠ some .other := by
  intro hp
  have hm := FS.mem_of_get hp
  simp [exDisk] at hm

theorem exDisk_get (t : String) : (exDisk t).get ["m"] = some .dir ∧ (exDisk t).get ["m", "a"] = none ∧ (exDisk t).get ["m", "a.ini"] = some (.file t) := by
  refine ⟨rfl, ?_, ?_⟩ <;> simp [exDisk, FS.get, List.find?_cons]

/-- The run of C111 from the text of its ini-file: it ends normally, and afterwards its copy can be run in place of the ini-file. -/
theorem river_again {t : String} {c : Config} (hrt : readIni t.toList = .ok c) (hp : toIni c = .ok (exRiverWith [])) (field : ℕ → FieldSource) : ∃ (N : ℕ) (w' : World),
    runPath exConvs ["m"] "a.ini".toList [] none exWriters (fun i => passes N (exChance (field i))) (start (exDisk t)) = some (w', none) ∧
    ∀ (flag : Option Bool) (write : Writers) (ch : ℕ → Chance), runPath exConvs ["m", "a"] "a_autogenerated_backup.ini".toList [] flag write ch w' =
      runPath exConvs ["m"] "a.ini".toList [] flag write ch w' := by
  obtain ⟨st, hst, hb⟩ := river_outputs
  rw [Bool.and_eq_true] at hb
  obtain ⟨hb, ho⟩ := hb
  simp only [riverParamsB, Bool.and_eq_true] at hb
  obtain ⟨hr, h1, h2, -⟩ := hb
  obtain ⟨t1, t2⟩ := river_thick hr
  obtain ⟨F, hF⟩ := C111_complete exConvs exConvs_number exConvs_whole (exRiverWith []) (by decide +kernel) ["m"] "a".toList "ini".toList (by decide +kernel)
    (by decide +kernel) (by decide +kernel) (by decide +kernel) (by decide +kernel) [] st hst (river_filled_with hr) (river_placeable_with hr)
    (river_tabled []) (river_sound hr) (fun _ => of_decide_eq_true h2) _ t1 _ _ (by norm_num) t2 2
    (Or.inr ⟨"2".toList, by decide +kernel, by decide +kernel⟩) ["vtr", "npz"] (listed_check ho) exWriters (fun S _ => exWriters_fit S)
    (fun i => exChance (field i)) (fun i => ⟨exReals_unit, by intro si n; simp only [exChance, exReals]; norm_num, fun _ _ => exObjReals_unit⟩)
    (String.ofList (writeIni c)) none (exDisk t) (exDisk_tree _) (exDisk_other _) (Or.inr (exDisk_get _).1) (Or.inl (exDisk_get _).2.1)
  obtain ⟨w', hw, -, -, hout⟩ := hF F le_rfl
  obtain ⟨c1, c2, c3⟩ := run_names (by decide +kernel : (exRiverWith []).get "run" "dataoutputs" = none) (s := "a".toList) (ext := "ini".toList) (by decide +kernel)
    (by decide +kernel) (by decide +kernel) (by decide +kernel) (by decide +kernel) hst
  have ht := (exDisk_get t).2.2
  have hrun : runPath exConvs ["m"] "a.ini".toList [] none exWriters (fun i => passes F (exChance (field i))) (start (exDisk t)) = some (w', none) := by
    have : load (start (exDisk t)).fs (["m"] ++ [String.ofList "a.ini".toList]) = .ok c := by
      simp only [load, show (start (exDisk t)).fs.get (["m"] ++ [String.ofList "a.ini".toList]) = some (.file t) from ht, hrt]
    simp only [runPath, this, hp]
    exact hw
  refine ⟨F, w', hrun, fun flag write ch => ?_⟩
  have hb : backupName st.cfg.runname = "a_autogenerated_backup.ini".toList := by rw [← c1]; decide +kernel
  have hkeep : w'.fs.get ["m", "a.ini"] = some (.file t) :=
    (hout w'.fs (by simp [World.states]) ["m", "a.ini"] (by simp) (by decide +kernel)).trans ht
  have := C132_again exConvs ["m"] "a.ini".toList [] [] none flag exWriters write (fun i => passes F (exChance (field i))) ch (start (exDisk t)) w' t
    ht c hrt _ hp st hst (by rw [← c1]; decide) (by
      intro S f q hq
      rw [hb]
      rw [← c1] at hq
      simp only [exWriters] at hq
      split_ifs at hq
      · simp at hq
      · rw [List.mem_singleton.1 hq]
        exact ⟨by simp, by decide +kernel⟩) hrun hkeep
  rw [hb, ← c3] at this
  exact this

example (field : ℕ → FieldSource) : ∃ (N : ℕ) (w' : World),
    runPath exConvs ["m"] "a.ini".toList [] none exWriters (fun i => passes N (exChance (field i))) (start (exDisk exRiverText)) = some (w', none) ∧
    ∀ (flag : Option Bool) (write : Writers) (ch : ℕ → Chance), runPath exConvs ["m", "a"] "a_autogenerated_backup.ini".toList [] flag write ch w' =
      runPath exConvs ["m"] "a.ini".toList [] flag write ch w' := by
  obtain ⟨c, hc, hp⟩ := docOf_ini (l := exRiverOnce) (by decide +kernel)
  rw [exRiverOnce, iniOf_firsts] at hp
  exact river_again (t := exRiverText) (by rw [exRiverText, String.toList_ofList, hc]) hp field

end Hyvr
