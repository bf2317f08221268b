import Verif.Spec.Resolution
import Verif.Lemmas.Idle
import Verif.Lemmas.SkipGen

/-!
Generation does not use the height of the cells (C127).
-/

namespace Hyvr

open Py Spec

/-! ### Reading -/

/-- The options of the section `model` but for `dz`. -/
def modelOther : List String := modelUsed.filter fun k => decide (k ≠ "dz")

theorem defaultTo_outside {U : List String} {k dflt : String} (hk : k ∉ U) {d r : Dict} (hr : defaultTo k dflt d = .ok r) : AgreeOn U d r := by
  unfold defaultTo at hr
  simp only [bind_ok] at hr
  obtain ⟨v, -, hr⟩ := hr
  split_ifs at hr
  · simp only [bind_ok, pure_ok] at hr
    obtain ⟨w, -, rfl⟩ := hr
    intro k' hk'
    have hne : k' ≠ k := by
      rintro rfl
      exact hk hk'
    show d k' = Function.update d k (some w) k'
    rw [Function.update_of_ne hne]
  · cases hr
    exact fun _ _ => rfl

theorem parseModel_other {C : Convs} {d d' r r' : Dict} (h : AgreeOn modelOther d d') (hr : parseModel C d = .ok r) (hr' : parseModel C d' = .ok r') :
    AgreeOn modelOther r r' := by
  simp only [parseModel, bind_ok] at hr hr'
  obtain ⟨a, ha, b, hb, hr⟩ := hr
  obtain ⟨a', ha', b', hb', hr'⟩ := hr'
  have hc : closedB modelOther (optsModel C) = true := by rfl
  have hab := defaultTo_agree (by decide) (by decide) (parseSection_agree hc h ha ha') hb hb'
  have h1 := defaultTo_outside (U := modelOther) (by decide) hr
  have h2 := defaultTo_outside (U := modelOther) (by decide) hr'
  exact fun k hk => (h1 k hk).symm.trans ((hab k hk).trans (h2 k hk))

/-- What is parsed is the same but for `dz`. -/
theorem same_but_height {C : Convs} {p p' : Ini} {P P' : Parsed} (h : parseInifile C p = .ok P) (h' : parseInifile C p' = .ok P')
    (hs : SameButHeight p p') : AgreeOn modelOther P.model P'.model ∧ SameParsed { P with model := P'.model } P' := by
  obtain ⟨m0, hydro, outs, outputs, -, -, -, -, q2, -⟩ := parseInifile_ok h
  obtain ⟨m0', hydro', outs', outputs', -, -, -, -, q2', -⟩ := parseInifile_ok h'
  have hm : AgreeOn modelOther P.model P'.model := parseModel_other (fun k hk => by
    have hk : k ∈ modelUsed ∧ k ≠ "dz" := by simpa [modelOther] using hk
    exact hs.options _ _ (.model hk.1) fun hc => hk.2 hc.2) q2 q2'
  exact ⟨hm, parsed_rest (m' := P'.model) h h' hs.sections (fun s k hu hne => hs.options s k hu fun hc => hne hc.1) (fun _ _ => rfl)⟩

/-! ### Generation -/

theorem channelsOnLevel_dz (p : ChannelParams) (g : Grid) (z' : ℝ) (draws : ℕ → ChannelDraw) (curve : ℕ → ℝ → Except PyErr (List CPoint)) (z : ℝ)
    (m n : ℕ) : channelsOnLevel p { g with dz := z' } draws curve z m n = channelsOnLevel p g draws curve z m n := by
  induction m generalizing n with
  | zero => rfl
  | succ m ih =>
    simp only [channelsOnLevel, ih]
    rfl

theorem channelLevels_dz (p : ChannelParams) (g : Grid) (z' : ℝ) (draws : ℕ → ChannelDraw) (curve : ℕ → ℝ → Except PyErr (List CPoint)) (zb : ℝ)
    (fuel : ℕ) (z : ℝ) (n : ℕ) : channelLevels p { g with dz := z' } draws curve zb fuel z n = channelLevels p g draws curve zb fuel z n := by
  induction fuel generalizing z n with
  | zero => rfl
  | succ fuel ih => simp only [channelLevels, ih, channelsOnLevel_dz]

theorem placeChannels_dz (p : ChannelRead) (g : Grid) (z' : ℝ) (r : ObjRandoms) (fuel : ℕ) (bottom top : Surface ℝ) :
    placeChannels p { g with dz := z' } r fuel bottom top = placeChannels p g r fuel bottom top := by
  unfold placeChannels generateChannels
  have : r.curve p { g with dz := z' } = r.curve p g := rfl
  simp only [channelLevels_dz, this]

theorem objectsOf_dz (g : Grid) (z' : ℝ) (shapes : List (String × ShapeRead)) (r : ObjRandoms) (fuel : ℕ) (t : ElemParams ℝ) (bottom top : Surface ℝ) :
    objectsOf { g with dz := z' } shapes r fuel t bottom top = objectsOf g shapes r fuel t bottom top := by
  have h1 : ∀ p, placeTroughs p { g with dz := z' } r bottom top = placeTroughs p g r bottom top := fun _ => rfl
  have h2 : Trough.toObj { g with dz := z' } = Trough.toObj g := rfl
  have h3 : Channel.toObj { g with dz := z' } = Channel.toObj g := rfl
  unfold objectsOf
  simp only [placeChannels_dz, h1, h2, h3]

theorem withObjects_dz (g : Grid) (z' : ℝ) (shapes : List (String × ShapeRead)) (o : ℕ → ℕ → ObjRandoms) (d : ℕ → StratumDraw ℝ) :
    withObjects { g with dz := z' } shapes o d = withObjects g shapes o d := by
  have h1 : ∀ r, objectsOf { g with dz := z' } shapes r = objectsOf g shapes r := fun r => by
    funext fuel t b u
    exact objectsOf_dz g z' shapes r fuel t b u
  have h2 : ∀ r, sheetOf { g with dz := z' } shapes r = sheetOf g shapes r := fun _ => rfl
  funext si
  simp only [withObjects, h1, h2]

theorem readGrid_height {d d' : Dict} (h : AgreeOn modelOther d d') {dz dz' : ℚ} (hd : d "dz" = some (numVal dz)) (hd' : d' "dz" = some (numVal dz')) :
    readGrid d' = (readGrid d).map fun g => { g with dz := (dz' : ℝ) } := by
  have q : ∀ k ∈ modelOther, d'.get k = d.get k := fun k hk => (h.get hk).symm
  simp only [readGrid, q "x0" (by decide), q "y0" (by decide), q "z0" (by decide), q "dx" (by decide), q "dy" (by decide),
    q "lx" (by decide), q "ly" (by decide), q "lz" (by decide), q "periodic" (by decide), dget_ok.2 hd, dget_ok.2 hd']
  iterate 5 refine bind_map fun _ _ => bind_map fun _ _ => ?_
  refine map_bind_map (F := fun _ => numVal dz') rfl fun v hv => ?_
  cases hv
  refine map_bind_map (F := fun _ => dz') rfl fun _ _ => ?_
  iterate 4 refine bind_map fun _ _ => bind_map fun _ _ => ?_
  rfl

theorem generateObjects_dz {P P' : Parsed} (hm : AgreeOn modelOther P.model P'.model) (hs : SameParsed { P with model := P'.model } P') {dz dz' : ℚ}
    (hd : P.model "dz" = some (numVal dz)) (hd' : P'.model "dz" = some (numVal dz')) (ids : List (String × ℕ)) (r : Randoms ℝ) (o : ℕ → ℕ → ObjRandoms)
    (d : ℕ → StratumDraw ℝ) : generateObjects P' ids r o d = generateObjects P ids r o d := by
  rw [← generateObjects_agree hs]
  have q : ∀ k ∈ modelOther, P'.model.get k = P.model.get k := fun k hk => (hm.get hk).symm
  have hg : genInput { P with model := P'.model } ids = genInput P ids := by
    have hr : readStratum { P with model := P'.model } ids = readStratum P ids := rfl
    simp only [genInput, q "dx" (by decide), q "lx" (by decide), q "dy" (by decide), q "ly" (by decide), q "z0" (by decide), q "lz" (by decide), hr]
  have hsh : readShapes { P with model := P'.model } = readShapes P := rfl
  unfold generateObjects generateIni
  simp only [hg, hsh, readGrid_height hm hd hd']
  cases readGrid P.model with
  | error e => rfl
  | ok g =>
    show (liftErr (readShapes P) >>= fun sh => _) = (liftErr (readShapes P) >>= fun sh => _)
    congr 1
    funext sh
    show (liftErr (genInput P ids) >>= fun I => _) = (liftErr (genInput P ids) >>= fun I => _)
    rw [withObjects_dz]

end Hyvr
