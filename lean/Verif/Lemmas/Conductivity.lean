import Verif.Spec.Conductivity
import Verif.Lemmas.ScaledRead

/-!
Hydraulic parameters for conductivities in another unit (C126).
-/

namespace Hyvr

open Py Spec

section
variable (c : ℝ)

/-- An array multiplied by a number. -/
def Arr3.times (A : Arr3 ℝ) : Arr3 ℝ := fun i j k => c * A i j k

def Aliased.times (a : Aliased) : Aliased := ⟨a.stored.times c, a.loc.times c, a.same⟩

def HydState.times (st : HydState) : HydState := { st with k := st.k.times c }

def HydTables.times (H : HydTables) : HydTables := { H with kh := H.kh.map (c * ·) }

def HydOut.times (o : HydOut) : HydOut := { o with kIso := o.kIso.times c, ktensors := fun i j k => c • o.ktensors i j k }

def HydData.times (o : HydData) : HydData := { o with kIso := o.kIso.times c, ktensors := fun i j k => (o.ktensors i j k).map (c • ·) }

noncomputable def Simulation.times (S : Simulation) : Simulation := { S with params := S.params.map (HydData.times c) }

end

variable {c : ℝ}

theorem write_times (a : Aliased) (A : Arr3 ℝ) : (a.times c).write (A.times c) = (a.write A).times c := by
  unfold Aliased.write Aliased.times
  dsimp only
  split_ifs <;> rfl

theorem set_times (A : Arr3 ℝ) (i j k : ℕ) (v : ℝ) : Arr3.set (A.times c) i j k (c * v) = (Arr3.set A i j k v).times c := by
  funext i' j' k'
  unfold Arr3.times
  simp only [Arr3.set]
  split_ifs <;> rfl

theorem maskFill_times (m : Arr3 Bool) (v : ℝ) (A : Arr3 ℝ) : maskFill m (c * v) (A.times c) = (maskFill m v A).times c := by
  funext i j k
  unfold Arr3.times
  simp only [maskFill]
  split_ifs <;> rfl

theorem scatter_times (l : List ((ℕ × ℕ × ℕ) × ℝ)) (A : Arr3 ℝ) :
    (l.map fun p => (p.1, c * p.2)).foldl (fun B p => Arr3.set B p.1.1 p.1.2.1 p.1.2.2 p.2) (A.times c) =
      (l.foldl (fun B p => Arr3.set B p.1.1 p.1.2.1 p.1.2.2 p.2) A).times c := by
  induction l generalizing A with
  | nil => rfl
  | cons p l ih =>
    simp only [List.map_cons, List.foldl_cons]
    rw [set_times, ih]

theorem maskScatter_times (s : Shape) (m : Arr3 Bool) (l : List ℝ) (A : Arr3 ℝ) :
    maskScatter s m (l.map (c * ·)) (A.times c) = (maskScatter s m l A).map (Arr3.times c) := by
  unfold maskScatter
  rw [List.length_map]
  split_ifs
  · refine congrArg Except.ok ?_
    rw [List.zip_map_right, ← scatter_times]
    rfl
  · rfl

theorem internalFill_times (s : Shape) (H : HydTables) (field : FieldSource) (m : Arr3 Bool) (fi : ℤ) (st : HydState) :
    internalFill s (H.times c) field m fi (st.times c) = (internalFill s H field m fi st).map (HydState.times c) := by
  unfold internalFill
  refine bind_map fun _ _ => bind_map fun _ _ => bind_map fun l _ => ?_
  refine map_bind_map (pyGet_in _ _ _) fun kh _ => ?_
  refine map_bind_map (F := Arr3.times c) ?_ fun A _ => ?_
  · rw [← maskScatter_times, List.map_map]
    refine congrArg (fun l => maskScatter s m l _) (List.map_congr_left fun y _ => ?_)
    show Real.exp y * (c * kh) = c * (Real.exp y * kh)
    ring
  refine bind_map fun _ _ => bind_map fun _ _ => bind_map fun _ _ => bind_map fun _ _ => bind_map fun _ _ => ?_
  refine congrArg Except.ok ?_
  show HydState.mk ((st.k.times c).write (A.times c)) _ _ _ = _
  rw [write_times]
  rfl

theorem levelFill_times (s : Shape) (level : String) (H : HydTables) (field : FieldSource) (m : Arr3 Bool) (fi : ℤ) (st : HydState) :
    levelFill s level (H.times c) field m fi (st.times c) = (levelFill s level H field m fi st).map (HydState.times c) := by
  unfold levelFill
  split_ifs
  · exact internalFill_times s H field m fi st
  · refine map_bind_map (pyGet_in _ _ _) fun kh _ => bind_map fun _ _ => ?_
    refine congrArg Except.ok ?_
    show HydState.mk ((st.k.times c).write (maskFill m (c * kh) (st.k.loc.times c))) _ _ _ = _
    rw [maskFill_times, write_times]
    rfl
  · rfl

theorem hetStep_times (s : Shape) (level : String) (H : HydTables) (field : FieldSource) (ha fac : Arr3 ℤ) (st : HydState) (p : ℤ × ℤ) :
    hetStep s level (H.times c) field ha fac (st.times c) p = (hetStep s level H field ha fac st p).map (HydState.times c) :=
  map_bind_map (levelFill_times s level H field _ _ st) fun _ _ => bind_map fun _ _ => rfl

theorem applyZ_times (s : Shape) (t : Option (ℝ × ℝ)) (a : Aliased) : applyZ s t (a.times c) = (applyZ s t a).times c := by
  cases t with
  | none => rfl
  | some t =>
    unfold applyZ
    dsimp only
    rw [← write_times]
    congr 1
    funext i j k
    exact mul_assoc _ _ _

theorem applyX_times (s : Shape) (t : Option (ℝ × ℝ)) (a : Aliased) : applyX s t (a.times c) = (applyX s t a).times c := by
  cases t with
  | none => rfl
  | some t =>
    unfold applyX Aliased.rebind Aliased.times
    dsimp only
    congr 1
    funext i j k
    exact mul_assoc _ _ _

theorem bgStep_times (s : Shape) (H : HydTables) (field : FieldSource) (ha ae : Arr3 ℤ) (st : HydState) (e : AEBg) :
    bgStep s (H.times c) field ha ae (st.times c) e = (bgStep s H field ha ae st e).map (HydState.times c) := by
  unfold bgStep
  dsimp only
  split_ifs
  · rfl
  · refine map_bind_map (internalFill_times s H field _ _ st) fun st' _ => bind_map fun _ _ => ?_
    refine congrArg Except.ok ?_
    show HydState.mk (applyX s e.kXtrend (applyZ s e.kZtrend (st'.k.times c))) _ _ _ = _
    rw [applyZ_times, applyX_times]
    rfl

theorem foldlM_times {σ β : Type} {f g : σ → β → Except PyErr σ} {F : σ → σ} (h : ∀ st b, g (F st) b = (f st b).map F) (l : List β) (st : σ) :
    l.foldlM g (F st) = (l.foldlM f st).map F := by
  induction l generalizing st with
  | nil => rfl
  | cons b l ih =>
    simp only [List.foldlM_cons]
    exact map_bind_map (h st b) fun st' _ => ih st'

theorem hetBranch_times (s : Shape) (level : String) (H : HydTables) (strata : List (List AEBg)) (field : FieldSource) (ha fac ae : Arr3 ℤ) (st : HydState) :
    hetBranch s level (H.times c) strata field ha fac ae (st.times c) = (hetBranch s level H strata field ha fac ae st).map (HydState.times c) := by
  unfold hetBranch
  refine map_bind_map (foldlM_times (fun st p => hetStep_times s level H field ha fac st p) _ _) fun st' _ => ?_
  split_ifs
  · refine map_bind_map (foldlM_times (fun st aes => foldlM_times (fun st e => bgStep_times s H field ha ae st e) _ _) _ _) fun st'' _ => ?_
    refine congrArg Except.ok ?_
    show HydState.mk (applyX s H.kXtrend (applyZ s H.kZtrend (st''.k.times c))) _ _ _ = _
    rw [applyZ_times, applyX_times]
    rfl
  · rfl

theorem homBranch_times (H : HydTables) (fac : Arr3 ℤ) (st : HydState) : homBranch (H.times c) fac (st.times c) = (homBranch H fac st).map (HydState.times c) := by
  unfold homBranch
  rw [show (H.times c).hydro = H.hydro from rfl]
  cases H.hydro with
  | none => rfl
  | some names =>
    refine foldlM_times (fun st i => ?_) _ _
    unfold homStep
    refine map_bind_map (pyGet_in _ _ _) fun kh _ => bind_map fun _ _ => bind_map fun _ _ => ?_
    refine congrArg Except.ok ?_
    show HydState.mk ((st.k.times c).write (maskFill _ (c * kh) (st.k.loc.times c))) _ _ _ = _
    rw [maskFill_times, write_times]
    rfl

theorem init_times : HydState.init.times c = HydState.init := by
  unfold HydState.init HydState.times Aliased.times Arr3.times
  simp only [mul_zero]

theorem kStore_times (k a b r : ℝ) : kStore (kEntries (c * k) a b r) = c • kStore (kEntries k a b r) := by
  ext x y
  fin_cases x <;> fin_cases y <;> simp [kStore, kEntries] <;> ring

theorem foldl_times {σ β : Type} {f g : σ → β → σ} {F : σ → σ} (h : ∀ st b, g (F st) b = F (f st b)) (l : List β) (st : σ) : l.foldl g (F st) = F (l.foldl f st) := by
  induction l generalizing st with
  | nil => rfl
  | cons b l ih =>
    simp only [List.foldl_cons]
    rw [h, ih]

theorem kTensor_times (nx ny nz : ℕ) (kt : Arr3 (Matrix (Fin 3) (Fin 3) ℝ)) (kiso azim dip anirat : Arr3 ℝ) :
    setAnisotropicKTensor nx ny nz (fun i j k => c • kt i j k) (kiso.times c) azim dip anirat =
      fun i j k => c • setAnisotropicKTensor nx ny nz kt kiso azim dip anirat i j k := by
  unfold setAnisotropicKTensor
  refine foldl_times (F := fun (kt : Arr3 (Matrix (Fin 3) (Fin 3) ℝ)) i j k => c • kt i j k) (fun kt i => ?_) _ _
  refine foldl_times (F := fun (kt : Arr3 (Matrix (Fin 3) (Fin 3) ℝ)) i j k => c • kt i j k) (fun kt j => ?_) _ _
  refine foldl_times (F := fun (kt : Arr3 (Matrix (Fin 3) (Fin 3) ℝ)) i j k => c • kt i j k) (fun kt k => ?_) _ _
  funext i' j' k'
  unfold Arr3.set
  split_ifs
  · exact kStore_times _ _ _ _
  · rfl

theorem generateHydraulics_times (s : Shape) (het : Bool) (level : String) (H : HydTables) (strata : List (List AEBg)) (field : FieldSource) (ha fac ae : Arr3 ℤ)
    (azim dip : Arr3 ℝ) :
    generateHydraulics s het level (H.times c) strata field ha fac ae azim dip =
      (generateHydraulics s het level H strata field ha fac ae azim dip).map (HydOut.times c) := by
  unfold generateHydraulics
  refine map_bind_map (F := HydState.times c) ?_ fun st _ => ?_
  · unfold hydBranch
    split_ifs
    · rw [← hetBranch_times, init_times]
    · rw [← homBranch_times, init_times]
  · refine congrArg Except.ok ?_
    have := kTensor_times (c := c) s.nx s.ny s.nz (fun _ _ _ => 0) st.k.loc (fun i j k => azim i j k * Real.pi / 180) (fun i j k => dip i j k * Real.pi / 180) st.anirat
    simp only [smul_zero] at this
    unfold HydOut.times
    dsimp only
    rw [← this]
    rfl

/-! ### Reading -/

/-- Of the section `hydraulics`, the option `k_h` is multiplied. -/
def conductivityPower (k : String) : ℤ := if k = "k_h" then 1 else 0

def Parsed.times (c : ℚ) (P : Parsed) : Parsed := { P with hydraulics := unitDict conductivityPower c P.hydraulics }

theorem readHydraulics_times (c : ℚ) (d : Dict) : readHydraulics (unitDict conductivityPower c d) = (readHydraulics d).map (HydTables.times (c : ℝ)) := by
  unfold readHydraulics
  refine map_bind_map (F := id) ?_ fun _ _ => ?_
  · have : unitDict conductivityPower c d "hydro" = d "hydro" := by
      show (d "hydro").map (inUnits (c ^ conductivityPower "hydro")) = d "hydro"
      rw [show conductivityPower "hydro" = 0 by decide, zpow_zero]
      cases d "hydro" with
      | none => rfl
      | some v => exact congrArg some (inUnits_one v)
    have h : hydroOf (unitDict conductivityPower c d) = hydroOf d := by
      unfold hydroOf
      rw [this]
    rw [h]
    cases hydroOf d <;> rfl
  refine map_bind_map (F := List.map ((c : ℝ) * ·)) ?_ fun _ _ => ?_
  · unfold tableOf
    refine map_bind_map (unit_one (by decide)) fun v _ => map_bind_map (numsOf_in c v) fun l _ => ?_
    refine congrArg Except.ok ?_
    rw [List.map_map, List.map_map]
    refine List.map_congr_left fun q _ => ?_
    show ((c * q : ℚ) : ℝ) = (c : ℝ) * (q : ℝ)
    push_cast
    rfl
  have ht : ∀ k, conductivityPower k = 0 → tableOf (unitDict conductivityPower c d) k = tableOf d k := fun k hk => by
    unfold tableOf
    rw [unit_zero hk]
  have hl : ∀ k, conductivityPower k = 0 → lengthTable (unitDict conductivityPower c d) k = lengthTable d k := fun k hk => by
    unfold lengthTable
    rw [unit_zero hk]
  have hf : ∀ k, conductivityPower k = 0 → factorsOf (unitDict conductivityPower c d) k = factorsOf d k := fun k hk => by
    unfold factorsOf
    rw [unit_zero hk]
  rw [ht "n" (by decide), ht "k_ratio" (by decide), ht "sig_y" (by decide), ht "sig_n" (by decide), hl "ycorlengths" (by decide), hl "ncorlengths" (by decide),
    hf "k_ztrend" (by decide), hf "k_xtrend" (by decide), hf "n_ztrend" (by decide), hf "n_xtrend" (by decide)]
  exact bind_map fun _ _ => bind_map fun _ _ => bind_map fun _ _ => bind_map fun _ _ => bind_map fun _ _ => bind_map fun _ _ => bind_map fun _ _ => bind_map fun _ _ =>
    bind_map fun _ _ => bind_map fun _ _ => rfl

theorem hydraulicsOf_times (c : ℚ) (P : Parsed) (s : Shape) (m : GenModel ℝ) (field : FieldSource) (cs : Cells ℝ) :
    hydraulicsOf (P.times c) s m field cs = (hydraulicsOf P s m field cs).map (HydData.times (c : ℝ)) := by
  unfold hydraulicsOf
  refine map_bind_map (readHydraulics_times c _) fun H _ => bind_map fun _ _ => bind_map fun _ _ => bind_map fun _ _ => bind_map fun _ _ => ?_
  refine bind_map fun _ _ => map_bind_map (generateHydraulics_times _ _ _ _ _ _ _ _ _ _ _) fun out _ => ?_
  refine congrArg Except.ok ?_
  unfold HydData.times
  dsimp only
  refine congrArg (HydData.mk _ _ _) ?_
  funext i j k
  split_ifs <;> rfl

theorem simulate_times (c : ℚ) (P : Parsed) (ids : List (String × ℕ)) (r : Randoms ℝ) (o : ℕ → ℕ → ObjRandoms) (d : ℕ → StratumDraw ℝ) (field : FieldSource) :
    simulate (P.times c) ids r o d field = (simulate P ids r o d field).map (Simulation.times (c : ℝ)) := by
  unfold simulate
  rw [show generateObjects (P.times c) ids r o d = generateObjects P ids r o d from rfl]
  refine bind_map fun x _ => bind_map fun g _ => ?_
  refine map_bind_map (F := Option.map (HydData.times (c : ℝ))) ?_ fun _ _ => rfl
  rw [← liftErr_map]
  refine congrArg liftErr ?_
  unfold paramsOf
  refine bind_map fun v _ => ?_
  split_ifs
  · rw [hydraulicsOf_times]
    cases hydraulicsOf P ⟨g.nx, g.ny, g.nz⟩ x.1 field (assignPoints x.1.search (coord g.z) g.nx g.ny g.nz) <;> rfl
  · rfl

theorem same_of_conductivity {C : Convs} {p p' : Ini} {P P' : Parsed} (h : parseInifile C p = .ok P) (h' : parseInifile C p' = .ok P')
    (hs : SameButConductivity p p') {c : ℚ} (hk : P'.hydraulics "k_h" = (P.hydraulics "k_h").map (inUnits c)) : SameParsed (P.times c) P' := by
  obtain ⟨-, -, -, -, -, -, q1, -, q2, -⟩ := parseInifile_ok h
  obtain ⟨-, -, -, -, -, -, q1', -, q2', -⟩ := parseInifile_ok h'
  have hm := parseModel_agree (fun k hk => hs.options _ _ (.model hk) (by simp)) q2 q2'
  have hc : closedB (hydraulicsUsed.filter fun k => decide (k ≠ "k_h")) (optsHydraulics C) = true := by rfl
  have hh := parseSection_agree hc (fun k hk => by
    obtain ⟨h1, h2⟩ := List.mem_filter.1 hk
    exact hs.options _ _ (.hydraulics h1) fun ⟨_, h3⟩ => absurd h3 (by simpa using h2)) q1 q1'
  refine parsed_other h h' hs.sections (fun s k hu _ hne => hs.options s k hu fun ⟨h1, _⟩ => hne h1) hm (t' := P'.hydraulics) (fun k hku => ?_) (hh _ (by decide))
  unfold unitDict
  by_cases hkk : k = "k_h"
  · subst hkk
    rw [show conductivityPower "k_h" = 1 by decide, zpow_one, hk]
  · rw [show conductivityPower k = 0 from if_neg hkk, zpow_zero, ← hh k (List.mem_filter.2 ⟨hku, by simpa using hkk⟩)]
    cases P.hydraulics k with
    | none => rfl
    | some v => exact congrArg some (inUnits_one v)

end Hyvr
