import Verif.Spec.Scaled
import Verif.Lemmas.ScaledObjects
import Verif.Lemmas.Idle
import Verif.Lemmas.ShapeValue

/-!
Reading of ini-files in another unit of length (C125).
-/

namespace Hyvr

open Py Spec

/-! ### Values -/

mutual
theorem inUnits_one : ∀ v : Val, inUnits 1 v = v
  | .leaf (.num q) => by simp only [inUnits, one_mul]
  | .leaf .none => rfl
  | .leaf .nan => rfl
  | .leaf (.text s) => rfl
  | .leaf (.bool b) => rfl
  | .node l => by rw [inUnits, inUnitsAll_one l]
theorem inUnitsAll_one : ∀ l : List Val, inUnitsAll 1 l = l
  | [] => rfl
  | v :: l => by rw [inUnitsAll, inUnits_one v, inUnitsAll_one l]
end

theorem inUnitsAll_map (a : ℚ) (l : List Val) : inUnitsAll a l = l.map (inUnits a) := by
  induction l with
  | nil => rfl
  | cons v l ih => rw [inUnitsAll, ih, List.map_cons]

theorem inUnits_none {a : ℚ} {v : Val} : inUnits a v = .leaf .none ↔ v = .leaf .none := by
  cases v with
  | node l => simp [inUnits]
  | leaf x => cases x <;> simp [inUnits]

theorem numOf_in (a : ℚ) (v : Val) : numOf (inUnits a v) = (numOf v).map (a * ·) := by
  cases v with
  | node l => rfl
  | leaf x => cases x <;> rfl

theorem pyItems_in (a : ℚ) (v : Val) : pyItems (inUnits a v) = (pyItems v).map (List.map (inUnits a)) := by
  cases v with
  | node l => exact congrArg Except.ok (inUnitsAll_map a l)
  | leaf x =>
    cases x with
    | text s =>
      refine congrArg Except.ok ?_
      rw [List.map_map]
      rfl
    | _ => rfl

theorem mapPy_in {β β' γ γ' : Type} {f : β → Except PyErr γ} {f' : β' → Except PyErr γ'} {G : β → β'} {F : γ → γ'} {l : List β}
    (h : ∀ b ∈ l, f' (G b) = (f b).map F) : mapPy f' (l.map G) = (mapPy f l).map (List.map F) := by
  induction l with
  | nil => rfl
  | cons b l ih =>
    rw [List.map_cons, mapPy, mapPy]
    exact map_bind_map (h b (by simp)) fun _ _ => map_bind_map (ih fun b hb => h b (by simp [hb])) fun _ _ => rfl

theorem pyGet_in {β γ : Type} (F : β → γ) (l : List β) (i : ℤ) : pyGet (l.map F) i = (pyGet l i).map F := by
  unfold pyGet
  simp only [List.length_map, List.getElem?_map]
  split_ifs
  · cases l[i.toNat]? <;> rfl
  · cases l[(i + l.length).toNat]? <;> rfl
  · rfl

theorem lookup_in {β γ : Type} (F : String → β → γ) (l : List (String × β)) (n : String) :
    (l.map fun x => (x.1, F x.1 x.2)).lookup n = (l.lookup n).map (F n) := by
  induction l with
  | nil => rfl
  | cons x l ih =>
    obtain ⟨k, s⟩ := x
    simp only [List.map_cons, List.lookup_cons]
    cases h : n == k with
    | true =>
      have : n = k := by simpa using h
      subst this
      rfl
    | false => exact ih

theorem numsOf_in (a : ℚ) (v : Val) : numsOf (inUnits a v) = (numsOf v).map (List.map (a * ·)) :=
  map_bind_map (pyItems_in a v) fun _ _ => mapPy_in fun v _ => numOf_in a v

theorem distOf_in (a : ℚ) (v : Val) : distOf (inUnits a v) = (distOf v).map (a * ·) := by
  unfold distOf
  simp only [inUnits_none]
  split_ifs
  · simp [Except.map]
  · exact numOf_in a v

theorem pairOf_in (a : ℚ) (l : List ℚ) : pairOf (l.map (a * ·)) = (pairOf l).map fun p => (a * p.1, a * p.2) := by
  match l with
  | [] => rfl
  | [_] => rfl
  | [_, _] => rfl
  | _ :: _ :: _ :: _ => rfl

theorem migrateOf_in (a : ℚ) (v : Val) :
    migrateOf (inUnits a v) = (migrateOf v).map fun o => o.map fun m => ((a * m.1.1, a * m.1.2), (a * m.2.1, a * m.2.2)) := by
  unfold migrateOf
  simp only [inUnits_none]
  split_ifs
  · rfl
  · refine map_bind_map (numsOf_in a v) fun l _ => ?_
    match l with
    | [] => rfl
    | [_] => rfl
    | [_, _] => rfl
    | [_, _, _] => rfl
    | _ :: _ :: _ :: _ :: _ => rfl

theorem pointOf_in (a : ℚ) (v : Val) : pointOf (inUnits a v) = (pointOf v).map fun q => (a * q.1, a * q.2.1, a * q.2.2) := by
  refine map_bind_map (numsOf_in a v) fun l _ => ?_
  match l with
  | [] => rfl
  | [_] => rfl
  | [_, _] => rfl
  | [_, _, _] => rfl
  | _ :: _ :: _ :: _ :: _ => rfl

theorem pointsOf_in (a : ℚ) (v : Val) :
    pointsOf (inUnits a v) = (pointsOf v).map fun o => o.map fun l => l.map fun q => (a * q.1, a * q.2.1, a * q.2.2) := by
  unfold pointsOf
  simp only [inUnits_none]
  split_ifs
  · rfl
  · exact map_bind_map (pyItems_in a v) fun l _ => map_bind_map (mapPy_in fun v _ => pointOf_in a v) fun _ _ => rfl

/-! ### Sections -/

/-- A section in another unit. -/
def unitDict (pow : String → ℤ) (c : ℚ) (d : Dict) : Dict := fun k => (d k).map (inUnits (c ^ pow k))

def Element.scale (c : ℚ) (e : Element) : Element := { dict := fun k => (e.dict k).map (entryIn c k), contact := contactIn c e.contact }

def Parsed.scale (c : ℚ) (P : Parsed) : Parsed :=
  { P with model := unitDict modelPower c P.model, strata := unitDict strataPower c P.strata, contacts := P.contacts.map (contactIn c)
           hydraulics := unitDict hydraulicsPower c P.hydraulics, elements := P.elements.map fun x => (x.1, Element.scale c x.2) }

section
variable {pow : String → ℤ} {c : ℚ} {d : Dict} {k : String}

theorem unit_get : (unitDict pow c d).get k = (d.get k).map (inUnits (c ^ pow k)) := by
  unfold Dict.get unitDict
  cases d k <;> rfl

theorem unit_one (h : pow k = 1) : (unitDict pow c d).get k = (d.get k).map (inUnits c) := by
  rw [unit_get, h, zpow_one]

theorem unit_zero (h : pow k = 0) : (unitDict pow c d).get k = d.get k := by
  rw [unit_get, h, zpow_zero]
  cases d.get k with
  | error e => rfl
  | ok v => exact congrArg Except.ok (inUnits_one v)

theorem entry_get {e : Element} : (e.scale c).dict.get k = (e.dict.get k).map (entryIn c k) := by
  unfold Dict.get Element.scale
  dsimp only
  cases e.dict k <;> rfl

theorem entry_unit {v : Val} (h : k ≠ "lens_thickness") : entryIn c k v = inUnits (c ^ elementPower k) v := by
  unfold entryIn
  rw [if_neg fun hc => h hc.1]

theorem entry_one {e : Element} (h : k ≠ "lens_thickness") (h1 : elementPower k = 1) : (e.scale c).dict.get k = (e.dict.get k).map (inUnits c) := by
  rw [entry_get]
  congr 1
  funext v
  rw [entry_unit h, h1, zpow_one]

theorem entry_zero {e : Element} (h : k ≠ "lens_thickness") (h1 : elementPower k = 0) : (e.scale c).dict.get k = e.dict.get k := by
  rw [entry_get]
  cases e.dict.get k with
  | error e => rfl
  | ok v =>
    refine congrArg Except.ok ?_
    rw [entry_unit h, h1, zpow_zero, inUnits_one]

end

variable {c : ℚ}

theorem readGrid_in (d : Dict) : readGrid (unitDict modelPower c d) = (readGrid d).map (Grid.scale c) := by
  unfold readGrid
  refine map_bind_map (unit_one (by decide)) fun v _ => map_bind_map (numOf_in c v) fun _ _ => ?_
  refine map_bind_map (unit_one (by decide)) fun v _ => map_bind_map (numOf_in c v) fun _ _ => ?_
  refine map_bind_map (unit_one (by decide)) fun v _ => map_bind_map (numOf_in c v) fun _ _ => ?_
  refine map_bind_map (unit_one (by decide)) fun v _ => map_bind_map (numOf_in c v) fun _ _ => ?_
  refine map_bind_map (unit_one (by decide)) fun v _ => map_bind_map (numOf_in c v) fun _ _ => ?_
  refine map_bind_map (unit_one (by decide)) fun v _ => map_bind_map (numOf_in c v) fun _ _ => ?_
  refine map_bind_map (unit_one (by decide)) fun v _ => map_bind_map (numOf_in c v) fun _ _ => ?_
  refine map_bind_map (unit_one (by decide)) fun v _ => map_bind_map (numOf_in c v) fun _ _ => ?_
  refine map_bind_map (unit_one (by decide)) fun v _ => map_bind_map (numOf_in c v) fun _ _ => ?_
  rw [unit_zero (by decide)]
  refine bind_map fun v _ => bind_map fun _ _ => ?_
  simp only [pure, Except.pure, Except.map, Grid.scale, Rat.cast_mul]

theorem readInside_in (e : Element) : readInside (e.scale c).dict = (readInside e.dict).map (InsideRead.scale c) := by
  unfold readInside
  rw [entry_zero (by decide) (by decide), entry_zero (by decide) (by decide), entry_zero (by decide) (by decide), entry_zero (by decide) (by decide),
    entry_zero (by decide) (by decide)]
  refine bind_map fun _ _ => bind_map fun _ _ => bind_map fun _ _ => bind_map fun _ _ => bind_map fun _ _ => bind_map fun _ _ => bind_map fun _ _ =>
    bind_map fun _ _ => bind_map fun _ _ => bind_map fun _ _ => ?_
  exact map_bind_map (entry_one (by decide) (by decide)) fun v _ => map_bind_map (distOf_in c v) fun _ _ => rfl

theorem readErosive_in (e : Element) : readErosive (e.scale c).dict = (readErosive e.dict).map (ErosiveRead.scale c) := by
  unfold readErosive
  rw [entry_zero (k := "lag_facies") (by decide) (by decide), entry_zero (k := "buffer") (by decide) (by decide), entry_zero (k := "size_ztrend") (by decide) (by decide)]
  refine map_bind_map (entry_one (by decide) (by decide)) fun v _ => map_bind_map (numOf_in c v) fun _ _ => ?_
  refine bind_map fun _ _ => bind_map fun _ _ => ?_
  refine map_bind_map (entry_one (by decide) (by decide)) fun v _ => map_bind_map (numOf_in c v) fun _ _ => ?_
  refine bind_map fun _ _ => bind_map fun _ _ => ?_
  refine map_bind_map (entry_one (by decide) (by decide)) fun v _ => map_bind_map (numOf_in c v) fun _ _ => ?_
  refine map_bind_map (entry_one (by decide) (by decide)) fun v _ => map_bind_map (numOf_in c v) fun _ _ => ?_
  exact bind_map fun _ _ => bind_map fun _ _ => rfl

theorem readTrough_in (e : Element) : readTrough (e.scale c).dict = (readTrough e.dict).map (TroughRead.scale c) := by
  unfold readTrough
  rw [entry_zero (k := "paleoflow") (by decide) (by decide)]
  refine map_bind_map (readInside_in e) fun _ _ => map_bind_map (readErosive_in e) fun _ _ => ?_
  refine map_bind_map (entry_one (by decide) (by decide)) fun v _ => map_bind_map (distOf_in c v) fun _ _ => ?_
  refine map_bind_map (entry_one (by decide) (by decide)) fun v _ => map_bind_map (numOf_in c v) fun _ _ => ?_
  refine map_bind_map entry_get fun v _ => ?_
  rw [entry_unit (by decide), show elementPower "trough_density" = -2 by decide]
  refine map_bind_map (numOf_in _ v) fun _ _ => ?_
  refine bind_map fun _ _ => bind_map fun _ _ => ?_
  refine map_bind_map (entry_one (by decide) (by decide)) fun v _ => map_bind_map (migrateOf_in c v) fun _ _ => ?_
  exact map_bind_map (entry_one (by decide) (by decide)) fun v _ => map_bind_map (pointsOf_in c v) fun _ _ => rfl

theorem readChannel_in (e : Element) : readChannel (e.scale c).dict = (readChannel e.dict).map (ChannelRead.scale c) := by
  unfold readChannel
  rw [entry_zero (k := "channel_no") (by decide) (by decide), entry_zero (k := "h") (by decide) (by decide), entry_zero (k := "k") (by decide) (by decide),
    entry_zero (k := "eps_factor") (by decide) (by decide), entry_zero (k := "flow_angle") (by decide) (by decide)]
  refine map_bind_map (readInside_in e) fun _ _ => map_bind_map (readErosive_in e) fun _ _ => ?_
  refine bind_map fun _ _ => bind_map fun _ _ => bind_map fun _ _ => bind_map fun _ _ => bind_map fun _ _ => bind_map fun _ _ => ?_
  refine map_bind_map (entry_one (by decide) (by decide)) fun v _ => map_bind_map (numOf_in c v) fun _ _ => ?_
  refine bind_map fun _ _ => bind_map fun _ _ => bind_map fun _ _ => bind_map fun _ _ => ?_
  exact map_bind_map (entry_one (by decide) (by decide)) fun v _ => map_bind_map (numOf_in c v) fun _ _ => rfl

theorem readShape_in (e : Element) : readShape (e.scale c).dict = (readShape e.dict).map (ShapeRead.scale c) := by
  unfold readShape
  rw [entry_zero (k := "geometry") (by decide) (by decide)]
  refine bind_map fun _ _ => bind_map fun _ _ => ?_
  split_ifs
  · exact map_bind_map (readTrough_in e) fun _ _ => rfl
  · exact map_bind_map (readChannel_in e) fun _ _ => rfl
  · exact map_bind_map (readInside_in e) fun _ _ => rfl
  · rfl

theorem readShapes_in (P : Parsed) : readShapes (P.scale c) = (readShapes P).map (scaleShapes c) :=
  mapPy_in fun x _ => map_bind_map (readShape_in x.2) fun _ _ => rfl

theorem optNum_in (a : ℚ) (x : Option Atom) : optNum (x.map (atomIn a)) = (optNum x).map (Option.map (a * ·)) := by
  cases x with
  | none => rfl
  | some x => cases x <;> rfl

theorem readContact_in (m : ContactModel Atom) : readContact (contactIn c m) = (readContact m).map (ContactModel.scale c) :=
  map_bind_map (optNum_in c m.z) fun _ _ => map_bind_map (optNum_in (c ^ 2) m.var) fun _ _ => map_bind_map (optNum_in c m.corlx) fun _ _ =>
    map_bind_map (optNum_in c m.corly) fun _ _ => rfl

theorem lensOf_in (g : List Char) (e : Element) : lensOf g (e.scale c).dict = (lensOf g e.dict).map fun q => if q = -1 then -1 else c * q := by
  unfold lensOf
  split_ifs
  · refine map_bind_map entry_get fun v _ => ?_
    unfold entryIn
    by_cases h : v = .leaf (.num (-1))
    · subst h
      rfl
    · rw [if_neg fun hc => h hc.2, show elementPower "lens_thickness" = 1 by decide, zpow_one, numOf_in]
      cases v with
      | node l => rfl
      | leaf x =>
        cases x with
        | num q =>
          have : q ≠ -1 := fun hq => h (by rw [hq])
          simp only [numOf, Except.map, if_neg this]
        | _ => rfl
  · have : (0 : ℚ) ≠ -1 := by norm_num
    simp only [Except.map, if_neg this, mul_zero]

theorem readElement_in (name : String) (id : ℕ) (e : Element) : readElement name id (e.scale c) = (readElement name id e).map (ElemParams.scale c) := by
  unfold readElement
  rw [entry_zero (k := "geometry") (by decide) (by decide), entry_zero (k := "bg_facies") (by decide) (by decide), entry_zero (k := "bg_azim") (by decide) (by decide),
    entry_zero (k := "bg_dip") (by decide) (by decide), entry_zero (k := "size_ztrend") (by decide) (by decide)]
  refine bind_map fun _ _ => bind_map fun _ _ => bind_map fun _ _ => bind_map fun _ _ => bind_map fun _ _ => bind_map fun _ _ => bind_map fun _ _ => bind_map fun _ _ => ?_
  refine map_bind_map (lensOf_in _ e) fun q _ => bind_map fun _ _ => bind_map fun _ _ => ?_
  simp only [pure, Except.pure, Except.map, ElemParams.scale]

noncomputable def StratumRead.scale (c : ℚ) (s : StratumRead) : StratumRead :=
  { params := s.params.scale c, weights := s.weights, avul := (c * s.avul.1, c * s.avul.2), types := s.types.map (ElemParams.scale c) }

theorem stratumEntry_in (d : Dict) (k : String) (si : ℕ) :
    stratumEntry (unitDict strataPower c d) k si = (stratumEntry d k si).map (inUnits (c ^ strataPower k)) :=
  map_bind_map unit_get fun v _ => map_bind_map (pyItems_in _ v) fun l _ => pyGet_in _ l _

theorem stratumEntry_same {k : String} (h : strataPower k = 0) (d : Dict) (si : ℕ) : stratumEntry (unitDict strataPower c d) k si = stratumEntry d k si := by
  unfold stratumEntry
  rw [unit_zero h]

def StratumInput.scale (c : ℚ) (i : StratumInput) : StratumInput :=
  { contact := i.contact.map (contactIn c), options := i.options.map fun x => (x.1, inUnits (c ^ strataPower x.1) x.2), types := i.types.map (Element.scale c) }

theorem aeType_in (l : List (String × Element)) (v : Val) : aeType (l.map fun x => (x.1, Element.scale c x.2)) v = (aeType l v).map (Element.scale c) := by
  unfold aeType
  rw [List.find?_map]
  have : ((fun e : String × Element => decide (v = .leaf (.text e.1.toList))) ∘ fun x : String × Element => (x.1, Element.scale c x.2)) =
      fun e : String × Element => decide (v = .leaf (.text e.1.toList)) := rfl
  rw [this]
  cases l.find? fun e => decide (v = .leaf (.text e.1.toList)) <;> rfl

theorem stratumInput_in (P : Parsed) (n si : ℕ) : stratumInput (P.scale c) n si = (stratumInput P n si).map (StratumInput.scale c) := by
  unfold stratumInput
  refine map_bind_map (F := Option.map (contactIn c)) ?_ fun _ _ => ?_
  · unfold stratumContact
    split_ifs
    · rfl
    · exact map_bind_map (pyGet_in _ _ _) fun _ _ => rfl
  refine map_bind_map (F := List.map fun x : String × Val => (x.1, inUnits (c ^ strataPower x.1) x.2)) ?_ fun _ _ => ?_
  · have := mapPy_in (f := fun name : String => (do
      let v ← stratumEntry P.strata name si
      return (name, v) : Except PyErr (String × Val))) (f' := fun name : String => (do
      let v ← stratumEntry (P.scale c).strata name si
      return (name, v) : Except PyErr (String × Val))) (G := id) (F := fun x : String × Val => (x.1, inUnits (c ^ strataPower x.1) x.2)) (l := stratumNames)
      fun k _ => map_bind_map (stratumEntry_in P.strata k si) fun _ _ => rfl
    rw [List.map_id] at this
    exact this
  refine map_bind_map (F := List.map (Element.scale c)) ?_ fun _ _ => rfl
  unfold stratumTypes
  rw [show (P.scale c).strata = unitDict strataPower c P.strata from rfl, stratumEntry_same (by decide)]
  refine bind_map fun _ _ => bind_map fun l _ => ?_
  have := mapPy_in (G := id) (l := l) (f := aeType P.elements) (f' := aeType (P.scale c).elements) (F := Element.scale c) fun v _ => aeType_in _ v
  rw [List.map_id] at this
  exact this

theorem option_in (i : StratumInput) (k : String) : (i.scale c).option k = (i.option k).map (inUnits (c ^ strataPower k)) := by
  unfold StratumInput.option StratumInput.scale
  dsimp only
  rw [lookup_in (fun k v => inUnits (c ^ strataPower k) v)]
  cases i.options.lookup k <;> rfl

theorem option_one {k : String} (h : strataPower k = 1) (i : StratumInput) : (i.scale c).option k = (i.option k).map (inUnits c) := by
  rw [option_in, h, zpow_one]

theorem option_zero {k : String} (h : strataPower k = 0) (i : StratumInput) : (i.scale c).option k = i.option k := by
  rw [option_in, h, zpow_zero]
  cases i.option k with
  | error e => rfl
  | ok v => exact congrArg Except.ok (inUnits_one v)

theorem readStratum_in (P : Parsed) (ids : List (String × ℕ)) (n si : ℕ) : readStratum (P.scale c) ids n si = (readStratum P ids n si).map (StratumRead.scale c) := by
  unfold readStratum
  refine map_bind_map (stratumInput_in P n si) fun i _ => ?_
  rw [option_zero (k := "bg_facies") (by decide), option_zero (k := "bg_azim") (by decide), option_zero (k := "bg_dip") (by decide), option_zero (k := "ae_prob") (by decide),
    option_zero (k := "avul_prob") (by decide), show (P.scale c).strata = unitDict strataPower c P.strata from rfl, stratumEntry_same (k := "ae_in_strata") (by decide)]
  refine bind_map fun _ _ => bind_map fun _ _ => bind_map fun _ _ => bind_map fun _ _ => bind_map fun _ _ => bind_map fun _ _ => bind_map fun _ _ => bind_map fun _ _ => ?_
  refine map_bind_map (option_one (by decide) i) fun v _ => map_bind_map (numsOf_in c v) fun _ _ => ?_
  refine map_bind_map (option_one (by decide) i) fun v _ => map_bind_map (numsOf_in c v) fun l _ => map_bind_map (pairOf_in c l) fun _ _ => ?_
  refine bind_map fun _ _ => bind_map fun _ _ => bind_map fun _ _ => bind_map fun _ _ => bind_map fun _ _ => bind_map fun _ _ => bind_map fun names _ => ?_
  refine map_bind_map (F := List.map (ElemParams.scale c)) ?_ fun _ _ => rfl
  rw [show (i.scale c).types = i.types.map (Element.scale c) from rfl, List.zip_map_right]
  exact mapPy_in fun x _ => bind_map fun _ _ => readElement_in x.1 _ x.2

theorem axisCells_in (hc : 0 < c) (d l : Val) : axisCells (inUnits c d) (inUnits c l) = axisCells d l := by
  have h : axisCells (inUnits c d) (inUnits c l) = (axisCells d l).map id := by
    refine map_bind_map (numOf_in c d) fun d _ => map_bind_map (numOf_in c l) fun l _ => ?_
    have : (c * l - c * d / 2) / (c * d) = (l - d / 2) / d := by
      rw [mul_div_assoc, ← mul_sub, mul_div_mul_left _ _ hc.ne']
    rw [this]
    rfl
  rw [h]
  cases axisCells d l <;> rfl

noncomputable def GenInput.scale (c : ℚ) (I : GenInput) : GenInput :=
  { nx := I.nx, ny := I.ny, grid := I.grid.scale c, strata := I.strata.scale c, reads := I.reads.map (StratumRead.scale c), contacts := fun n => (I.contacts n).scale c }

theorem contactsOf_in (l : List (String × ContactModel ℚ)) : contactsOf (l.map fun x => (x.1, ContactModel.scale c x.2)) = fun n => (contactsOf l n).scale c := by
  funext n
  unfold contactsOf
  rw [lookup_in (fun _ m => ContactModel.scale c m)]
  cases l.lookup n <;> rfl

theorem genInput_in (hc : 0 < c) (P : Parsed) (ids : List (String × ℕ)) : genInput (P.scale c) ids = (genInput P ids).map (GenInput.scale c) := by
  unfold genInput
  refine map_bind_map (unit_one (by decide)) fun _ _ => map_bind_map (unit_one (by decide)) fun _ _ => ?_
  rw [axisCells_in hc]
  refine bind_map fun _ _ => ?_
  refine map_bind_map (unit_one (by decide)) fun _ _ => map_bind_map (unit_one (by decide)) fun _ _ => ?_
  rw [axisCells_in hc]
  refine bind_map fun _ _ => ?_
  refine map_bind_map (unit_one (by decide)) fun v _ => map_bind_map (numOf_in c v) fun _ _ => ?_
  refine map_bind_map (unit_one (by decide)) fun v _ => map_bind_map (numOf_in c v) fun _ _ => ?_
  rw [show (P.scale c).strata = unitDict strataPower c P.strata from rfl, unit_zero (k := "strata") (by decide)]
  refine bind_map fun _ _ => bind_map fun n _ => ?_
  refine map_bind_map (F := List.map (ContactModel.scale c)) (mapPy_in fun m _ => readContact_in m) fun _ _ => ?_
  refine map_bind_map (F := List.map fun x : String × ContactModel ℚ => (x.1, ContactModel.scale c x.2))
    (mapPy_in fun x _ => map_bind_map (readContact_in x.2.contact) fun _ _ => rfl) fun es _ => ?_
  have := mapPy_in (G := id) (l := List.range n) (f := readStratum P ids n) (f' := readStratum (P.scale c) ids n) (F := StratumRead.scale c)
    fun si _ => readStratum_in P ids n si
  rw [List.map_id] at this
  refine map_bind_map this fun rs _ => ?_
  simp only [pure, Except.pure, Except.map, GenInput.scale, contactsOf_in, StrataDict.scale, GridZ.scale, List.map_reverse, List.map_map]
  rfl

/-! ### Generation -/

theorem cast_contact (m : ContactModel ℚ) : (m.scale c).cast (α := ℝ) = m.cast.scale (c : ℝ) := by
  simp only [ContactModel.cast, ContactModel.scale, Option.map_map]
  congr 1 <;> (congr 1; funext q; simp)

theorem cast_elem (t : ElemParams ℚ) : (t.scale c).cast (α := ℝ) = t.cast.scale (c : ℝ) := by
  unfold ElemParams.cast ElemParams.scale
  dsimp only
  congr 1
  have : ((t.lensThickness : ℚ) : ℝ) = -1 ↔ t.lensThickness = -1 := by
    rw [← Rat.cast_one, ← Rat.cast_neg, Rat.cast_inj]
  simp only [this]
  split_ifs
  · simp
  · exact Rat.cast_mul _ _

theorem cast_params (s : StratumParams ℚ) : (s.scale c).cast (α := ℝ) = s.cast.scale (c : ℝ) := by
  simp only [StratumParams.cast, StratumParams.scale, List.map_map]
  congr 1
  refine List.map_congr_left fun q _ => ?_
  simp

theorem cast_strata (sd : StrataDict ℚ) : (sd.scale c).cast (α := ℝ) = sd.cast.scale (c : ℝ) := by
  simp only [StrataDict.cast, StrataDict.scale, List.map_map]
  congr 1
  · exact List.map_congr_left fun m _ => cast_contact m
  · exact List.map_congr_left fun m _ => cast_params m
  · refine List.map_congr_left fun ts _ => ?_
    simp only [Function.comp, List.map_map]
    exact List.map_congr_left fun t _ => cast_elem t

theorem cast_grid (g : GridZ ℚ) : (g.scale c).cast (α := ℝ) = g.cast.scale (c : ℝ) := by
  simp only [GridZ.cast, GridZ.scale, Rat.cast_mul]

theorem cast_safe {t : ElemParams ℚ} (h : t.Safe c) : (t.cast : ElemParams ℝ).Safe (c : ℝ) := by
  intro h1 h2
  have e1 : t.lensThickness ≠ -1 := fun he => h1 (by unfold ElemParams.cast; simp [he])
  refine h e1 ?_
  have : ((c * t.lensThickness : ℚ) : ℝ) = ((-1 : ℚ) : ℝ) := by
    rw [Rat.cast_mul, Rat.cast_neg, Rat.cast_one]
    exact h2
  exact Rat.cast_injective this

theorem typeAt_in (s : StratumRead) (r : Randoms ℝ) (si n : ℕ) : typeAt (s.scale c) r si n = typeAt s r si n := by
  cases n <;> simp [typeAt, StratumRead.scale]

theorem meanAt_in (s : StratumRead) (k : ℕ) : meanAt (s.scale c) k = c * meanAt s k := by
  unfold meanAt
  have hn : (s.scale c).types.map ElemParams.name = s.types.map ElemParams.name := by
    show (s.types.map (ElemParams.scale c)).map ElemParams.name = _
    rw [List.map_map]
    rfl
  rw [hn, show (s.scale c).types = s.types.map (ElemParams.scale c) from rfl, List.getElem?_map]
  cases s.types[k]? with
  | none => exact (mul_zero c).symm
  | some t =>
    show ((s.params.aeZMean.map (c * ·))[(s.types.map ElemParams.name).idxOf t.name]?).getD 0 = _
    rw [List.getElem?_map]
    dsimp only
    generalize s.params.aeZMean[(s.types.map ElemParams.name).idxOf t.name]? = y
    cases y with
    | none => exact (mul_zero c).symm
    | some m => rfl

theorem draws_in {c : ℚ} (hc : 0 < c) {I : GenInput} {si : ℕ} (hsi : si < I.reads.length) {shapes : List (String × ShapeRead)} (hs : ∀ x ∈ shapes, x.2.Scalable) (g : Grid)
    (r : Randoms ℝ) (o : ℕ → ℕ → ObjRandoms) {d d' : ℕ → StratumDraw ℝ} (hd : FieldsIn c d d') :
    ScaledStratumDraw (c : ℝ) (I.draws r (withObjects g shapes o d) si) ((I.scale c).draws r (withObjects (g.scale c) (scaleShapes c shapes) o d') si) := by
  have h1 : I.reads[si]? = some I.reads[si] := List.getElem?_eq_getElem hsi
  have h2 : (I.scale c).reads[si]? = some (I.reads[si].scale c) := by
    show (I.reads.map (StratumRead.scale c))[si]? = _
    rw [List.getElem?_map, h1]
    rfl
  unfold GenInput.draws
  rw [h1, h2]
  dsimp only
  generalize I.reads[si] = s
  refine ⟨hd.field si, typeAt_in s r si 0, hd.fuel si, fun n => ?_⟩
  refine ⟨?_, rfl, ?_, typeAt_in s r si (n + 1), hd.fields si n, hd.fuels si n, fun fuel t b tp => objectsOf_scale hc hs g _ fuel t b tp,
    fun t k z => sheetOf_scale hc g _ t k z⟩
  · show (meanAt (s.scale c) (typeAt (s.scale c) r si n) : ℝ) + (meanAt (s.scale c) (typeAt (s.scale c) r si n) : ℝ) * (1 / 10) * r.normal si n = _
    rw [typeAt_in, meanAt_in, Rat.cast_mul]
    show _ = (c : ℝ) * ((meanAt s (typeAt s r si n) : ℝ) + (meanAt s (typeAt s r si n) : ℝ) * (1 / 10) * r.normal si n)
    ring
  · show ((c * s.avul.1 : ℚ) : ℝ) + (((c * s.avul.2 : ℚ) : ℝ) - ((c * s.avul.1 : ℚ) : ℝ)) * r.avulV si n = (c : ℝ) * ((s.avul.1 : ℝ) + ((s.avul.2 : ℝ) - (s.avul.1 : ℝ)) * r.avulV si n)
    rw [Rat.cast_mul, Rat.cast_mul]
    ring

/-- What is read of an element section leaves the thickness -1 to whole AEs in the other unit, too. -/
def SafeDict (c : ℚ) (d : Dict) : Prop := ∀ q, d "lens_thickness" = some (.leaf (.num q)) → q ≠ -1 → c * q ≠ -1

theorem readElement_safe {name : String} {id : ℕ} {e : Element} {t : ElemParams ℚ} (h : readElement name id e = .ok t) (hs : SafeDict c e.dict) : t.Safe c := by
  unfold readElement at h
  simp only [bind_ok, pure_ok] at h
  obtain ⟨g, -, g', -, _, -, _, -, _, -, _, -, _, -, _, -, q, hq, _, -, _, -, rfl⟩ := h
  unfold lensOf at hq
  intro h1
  dsimp only at h1 ⊢
  split_ifs at hq
  · simp only [bind_ok] at hq
    obtain ⟨v, hv, hq⟩ := hq
    refine hs q ?_ h1
    rw [dget_ok.1 hv]
    cases v with
    | node l => cases hq
    | leaf x =>
      cases x with
      | num y =>
        cases hq
        rfl
      | _ => cases hq
  · cases hq
    rw [mul_zero]
    norm_num

theorem aeType_mem {l : List (String × Element)} {v : Val} {e : Element} (h : aeType l v = .ok e) : ∃ x ∈ l, x.2 = e := by
  unfold aeType at h
  cases hf : l.find? fun e => decide (v = .leaf (.text e.1.toList)) with
  | none => rw [hf] at h; cases h
  | some x =>
    rw [hf] at h
    cases h
    exact ⟨x, List.mem_of_find?_eq_some hf, rfl⟩

theorem readStratum_safe {P : Parsed} {ids : List (String × ℕ)} {n si : ℕ} {s : StratumRead} (h : readStratum P ids n si = .ok s)
    (hs : ∀ x ∈ P.elements, SafeDict c x.2.dict) : ∀ t ∈ s.types, t.Safe c := by
  unfold readStratum at h
  simp only [bind_ok, pure_ok] at h
  obtain ⟨i, hi, _, -, _, -, _, -, _, -, _, -, _, -, _, -, _, -, _, -, _, -, _, -, _, -, _, -, _, -, _, -, _, -, _, -, _, -, _, -, names, -, ts, hts, rfl⟩ := h
  intro t ht
  obtain ⟨x, hx, hr⟩ := mapPy_from hts ht
  simp only [bind_ok] at hr
  obtain ⟨id, -, hr⟩ := hr
  refine readElement_safe hr ?_
  have h2 : x.2 ∈ i.types := (List.of_mem_zip hx).2
  unfold stratumInput at hi
  simp only [bind_ok, pure_ok] at hi
  obtain ⟨_, -, _, -, ty, hty, rfl⟩ := hi
  unfold stratumTypes at hty
  simp only [bind_ok] at hty
  obtain ⟨_, -, _, -, hty⟩ := hty
  obtain ⟨v, -, hv⟩ := mapPy_from hty h2
  obtain ⟨y, hy, he⟩ := aeType_mem hv
  rw [← he]
  exact hs y hy

theorem genInput_safe {P : Parsed} {ids : List (String × ℕ)} {I : GenInput} (h : genInput P ids = .ok I) (hs : ∀ x ∈ P.elements, SafeDict c x.2.dict) :
    (∀ ts ∈ I.strata.types, ∀ t ∈ ts, t.Safe c) ∧ I.reads.length = I.strata.n := by
  unfold genInput at h
  simp only [bind_ok, pure_ok] at h
  obtain ⟨_, -, _, -, _, -, _, -, _, -, _, -, _, -, _, -, _, -, _, -, _, -, n, -, _, -, _, -, rs, hrs, rfl⟩ := h
  refine ⟨fun ts hts t ht => ?_, ?_⟩
  · dsimp only at hts
    simp only [List.mem_map, List.mem_reverse] at hts
    obtain ⟨s, hs', rfl⟩ := hts
    obtain ⟨si, -, hr⟩ := mapPy_from hrs hs'
    exact readStratum_safe hr hs t ht
  · have := mapPy_len hrs
    rw [List.length_range] at this
    exact this

theorem scale_nx {c : ℝ} (hc : 0 < c) (g : Grid) : (g.scale c).nx = g.nx ∧ (g.scale c).ny = g.ny ∧ (g.scale c).nz = g.nz := by
  unfold Grid.nx Grid.ny Grid.nz
  rw [scale_x hc, scale_y hc, scale_z hc, List.length_map, List.length_map, List.length_map]
  exact ⟨rfl, rfl, rfl⟩

theorem generateObjects_in {c : ℚ} (hc : 0 < c) {P : Parsed} (hs : ∀ x ∈ P.elements, SafeDict c x.2.dict) (hsc : ∀ l, readShapes P = .ok l → ∀ x ∈ l, x.2.Scalable)
    (ids : List (String × ℕ)) (r : Randoms ℝ) (o : ℕ → ℕ → ObjRandoms) {d d' : ℕ → StratumDraw ℝ} (hd : FieldsIn c d d') :
    generateObjects (P.scale c) ids r o d' = (generateObjects P ids r o d).map fun x => (x.1.scale (c : ℝ), scaleContacts (c : ℝ) x.2) := by
  have hc' : (0 : ℝ) < c := by exact_mod_cast hc
  unfold generateObjects
  refine map_bind_map (F := Grid.scale c) ?_ fun g _ => ?_
  · rw [← liftErr_map, ← readGrid_in]
    rfl
  refine map_bind_map (F := scaleShapes c) ?_ fun shapes hsh => ?_
  · rw [← liftErr_map, ← readShapes_in]
  have hsh' : readShapes P = .ok shapes := by
    cases hq : readShapes P with
    | error e => rw [hq] at hsh; cases hsh
    | ok l => rw [hq] at hsh; cases hsh; rfl
  unfold generateIni
  refine map_bind_map (F := GenInput.scale c) ?_ fun I hI => ?_
  · rw [← liftErr_map, ← genInput_in hc]
  have hI' : genInput P ids = .ok I := by
    cases hq : genInput P ids with
    | error e => rw [hq] at hI; cases hI
    | ok l => rw [hq] at hI; cases hI; rfl
  obtain ⟨h1, h2⟩ := genInput_safe hI' hs
  have := generateModel_scale hc' I.nx I.ny I.grid.cast (sd := I.strata.cast) (draws := I.draws r (withObjects g shapes o d))
    (draws' := (I.scale c).draws r (withObjects (g.scale c) (scaleShapes c shapes) o d')) (fun ts hts t ht => by
      simp only [StrataDict.cast, List.mem_map] at hts
      obtain ⟨ts0, h0, rfl⟩ := hts
      obtain ⟨t0, ht0, rfl⟩ := List.mem_map.1 ht
      exact cast_safe (h1 ts0 h0 t0 ht0))
    (fun i hi => draws_in hc (h2 ▸ hi) (hsc _ hsh') g r o hd) fun n => (I.contacts n).cast
  rw [← cast_grid, ← cast_strata] at this
  rw [← this]
  show generateModel I.nx I.ny (I.grid.scale c).cast (I.strata.scale c).cast (fun n => ((I.contacts n).scale c).cast) _ = _
  simp only [cast_contact]
  rfl

/-! ### Hydraulic parameters -/

def scale3 (c : ℚ) (l : ℝ × ℝ × ℝ) : ℝ × ℝ × ℝ := ((c : ℝ) * l.1, (c : ℝ) * l.2.1, (c : ℝ) * l.2.2)

def HydTables.scale (c : ℚ) (H : HydTables) : HydTables := { H with ycorl := H.ycorl.map (scale3 c), ncorl := H.ncorl.map (scale3 c) }

theorem lengthsOf_in (v : Val) : lengthsOf (inUnits c v) = (lengthsOf v).map (scale3 c) := by
  refine map_bind_map (numsOf_in c v) fun l _ => ?_
  match l with
  | [] => rfl
  | [_] => rfl
  | [_, _] => rfl
  | a :: b :: e :: _ =>
    show Except.ok _ = Except.ok _
    simp only [scale3, Rat.cast_mul]

theorem lengthTable_in {k : String} (hk : hydraulicsPower k = 1) (d : Dict) : lengthTable (unitDict hydraulicsPower c d) k = (lengthTable d k).map (List.map (scale3 c)) :=
  map_bind_map (unit_one hk) fun v _ => map_bind_map (pyItems_in c v) fun _ _ => mapPy_in fun v _ => lengthsOf_in v

theorem tableOf_in {k : String} (hk : hydraulicsPower k = 0) (d : Dict) : tableOf (unitDict hydraulicsPower c d) k = tableOf d k := by
  unfold tableOf
  rw [unit_zero hk]

theorem factorsOf_in {k : String} (hk : hydraulicsPower k = 0) (d : Dict) : factorsOf (unitDict hydraulicsPower c d) k = factorsOf d k := by
  unfold factorsOf
  rw [unit_zero hk]

theorem hydroOf_in (d : Dict) : hydroOf (unitDict hydraulicsPower c d) = hydroOf d := by
  have : unitDict hydraulicsPower c d "hydro" = d "hydro" := by
    unfold unitDict
    rw [show hydraulicsPower "hydro" = 0 by decide, zpow_zero]
    cases d "hydro" with
    | none => rfl
    | some v => exact congrArg some (inUnits_one v)
  unfold hydroOf
  rw [this]

theorem readHydraulics_in (d : Dict) : readHydraulics (unitDict hydraulicsPower c d) = (readHydraulics d).map (HydTables.scale c) := by
  unfold readHydraulics
  rw [hydroOf_in, tableOf_in (k := "k_h") (by decide), tableOf_in (k := "n") (by decide), tableOf_in (k := "k_ratio") (by decide), tableOf_in (k := "sig_y") (by decide),
    tableOf_in (k := "sig_n") (by decide), factorsOf_in (k := "k_ztrend") (by decide), factorsOf_in (k := "k_xtrend") (by decide), factorsOf_in (k := "n_ztrend") (by decide),
    factorsOf_in (k := "n_xtrend") (by decide)]
  refine bind_map fun _ _ => bind_map fun _ _ => bind_map fun _ _ => bind_map fun _ _ => bind_map fun _ _ => ?_
  refine map_bind_map (lengthTable_in (by decide) d) fun _ _ => bind_map fun _ _ => map_bind_map (lengthTable_in (by decide) d) fun _ _ => ?_
  exact bind_map fun _ _ => bind_map fun _ _ => bind_map fun _ _ => bind_map fun _ _ => rfl

theorem id_bind {β γ ε : Type} {x : Except ε β} {F : β → β} {f g : β → Except ε γ} (h : ∀ b, f (F b) = g b) : ((x.map F) >>= f) = (x >>= g) := by
  cases x with
  | error e => rfl
  | ok b => exact h b

theorem internalFill_in {field field' : FieldSource} (hf : ∀ n v l b, field' n v (scale3 c l) b = field n v l b) (s : Shape) (H : HydTables) :
    internalFill s (H.scale c) field' = internalFill s H field := by
  funext m fi st
  unfold internalFill
  refine congrArg _ (funext fun sy => ?_)
  rw [show (H.scale c).ycorl = H.ycorl.map (scale3 c) from rfl, show (H.scale c).ncorl = H.ncorl.map (scale3 c) from rfl, pyGet_in, pyGet_in]
  refine id_bind fun cy => ?_
  rw [show field' st.calls sy (scale3 c cy) = field st.calls sy cy from funext fun b => hf _ _ _ b]
  refine congrArg _ (funext fun _ => congrArg _ (funext fun _ => congrArg _ (funext fun _ => congrArg _ (funext fun sn => ?_))))
  refine id_bind fun cn => ?_
  rw [show field' (st.calls + 1) sn (scale3 c cn) = field (st.calls + 1) sn cn from funext fun b => hf _ _ _ b]
  rfl

theorem generateHydraulics_in {field field' : FieldSource} (hf : ∀ n v l b, field' n v (scale3 c l) b = field n v l b) (s : Shape) (het : Bool) (level : String)
    (H : HydTables) (strata : List (List AEBg)) (ha fac ae : Arr3 ℤ) (azim dip : Arr3 ℝ) :
    generateHydraulics s het level (H.scale c) strata field' ha fac ae azim dip = generateHydraulics s het level H strata field ha fac ae azim dip := by
  have h1 : levelFill s level (H.scale c) field' = levelFill s level H field := by
    funext m fi st
    unfold levelFill
    rw [internalFill_in hf]
    rfl
  have h2 : hetStep s level (H.scale c) field' = hetStep s level H field := by
    funext ha fac st p
    unfold hetStep
    rw [h1]
    rfl
  have h3 : bgStep s (H.scale c) field' = bgStep s H field := by
    funext ha ae st e
    unfold bgStep
    rw [internalFill_in hf]
    rfl
  unfold generateHydraulics hydBranch hetBranch
  rw [h2, h3]
  rfl

theorem backgroundOf_in (P : Parsed) (a : AEReal ℝ) : backgroundOf (P.scale c) (a.scale (c : ℝ)) = backgroundOf P a := by
  unfold backgroundOf
  rw [show (P.scale c).elements = P.elements.map fun x => (x.1, Element.scale c x.2) from rfl, lookup_in (fun _ e => Element.scale c e)]
  show (match (P.elements.lookup a.name).map (Element.scale c) with
    | some e => _
    | none => _) = _
  cases P.elements.lookup a.name with
  | none => rfl
  | some e =>
    simp only [Option.map_some, factorsOf]
    rw [entry_zero (k := "k_ztrend") (by decide) (by decide), entry_zero (k := "k_xtrend") (by decide) (by decide)]
    rfl

theorem paramsOf_in {field field' : FieldSource} (hf : ∀ n v l b, field' n v (scale3 c l) b = field n v l b) (P : Parsed) (s : Shape) (m : GenModel ℝ) (cs : Cells ℝ) :
    paramsOf (P.scale c) s (m.scale (c : ℝ)) field' cs = paramsOf P s m field cs := by
  have h : hydraulicsOf (P.scale c) s (m.scale (c : ℝ)) field' cs = hydraulicsOf P s m field cs := by
    unfold hydraulicsOf
    rw [show (P.scale c).hydraulics = unitDict hydraulicsPower c P.hydraulics from rfl, readHydraulics_in]
    refine id_bind fun H => ?_
    rw [show (P.scale c).model = unitDict modelPower c P.model from rfl, unit_zero (k := "heterogeneity") (by decide), unit_zero (k := "heterogeneity_level") (by decide)]
    refine congrArg _ (funext fun _ => congrArg _ (funext fun _ => congrArg _ (funext fun _ => congrArg _ (funext fun _ => ?_))))
    have : mapPy (fun st : StratumReal ℝ => mapPy (backgroundOf (P.scale c)) st.aes) (m.scale (c : ℝ)).strata =
        (mapPy (fun st : StratumReal ℝ => mapPy (backgroundOf P) st.aes) m.strata).map (List.map id) := by
      refine mapPy_in (G := StratumReal.scale (c : ℝ)) fun st _ => ?_
      refine (mapPy_in (G := AEReal.scale (c : ℝ)) (F := id) (f := backgroundOf P) fun a _ => ?_).trans ?_
      · rw [backgroundOf_in]
        cases backgroundOf P a <;> rfl
      · rw [List.map_id_fun]
    rw [this, List.map_id_fun]
    exact id_bind fun aes => by rw [id, generateHydraulics_in hf]
  unfold paramsOf
  rw [h, show (P.scale c).model = unitDict modelPower c P.model from rfl, unit_zero (by decide)]

noncomputable def Simulation.scale (c : ℝ) (S : Simulation) : Simulation := { S with model := S.model.scale c }

theorem simulate_in {c : ℚ} (hc : 0 < c) {P : Parsed} (hs : ∀ x ∈ P.elements, SafeDict c x.2.dict) (hsc : ∀ l, readShapes P = .ok l → ∀ x ∈ l, x.2.Scalable)
    (ids : List (String × ℕ)) (r : Randoms ℝ) (o : ℕ → ℕ → ObjRandoms) {d d' : ℕ → StratumDraw ℝ} (hd : FieldsIn c d d') {field field' : FieldSource}
    (hf : ∀ n v l b, field' n v (scale3 c l) b = field n v l b) :
    simulate (P.scale c) ids r o d' field' = (simulate P ids r o d field).map (Simulation.scale (c : ℝ)) := by
  have hc' : (0 : ℝ) < c := by exact_mod_cast hc
  unfold simulate
  refine map_bind_map (generateObjects_in hc hs hsc ids r o hd) fun x _ => ?_
  refine map_bind_map (F := Grid.scale c) ?_ fun g _ => ?_
  · rw [← liftErr_map, ← readGrid_in]
    rfl
  obtain ⟨e1, e2, e3⟩ := scale_nx hc' g
  dsimp only
  rw [e1, e2, e3, GenModel.search_scale, assignPoints_scale (z := coord g.z) hc' _ (fun k => by rw [scale_z hc', coord_scale]), paramsOf_in hf]
  exact bind_map fun _ _ => rfl

theorem aeIds_in (P : Parsed) : aeIds (P.scale c) = aeIds P := by
  unfold aeIds
  rw [show (P.scale c).strata = unitDict strataPower c P.strata from rfl, unit_zero (by decide)]
  refine congrArg _ (funext fun _ => congrArg _ (funext fun l => ?_))
  have := mapPy_in (l := P.elements) (G := fun x : String × Element => (x.1, Element.scale c x.2)) (F := id) (f := fun e : String × Element => (do
    let i ← pyIndex l (.leaf (.text e.1.toList))
    return (e.1, i) : Except PyErr (String × ℕ))) (f' := fun e : String × Element => (do
    let i ← pyIndex l (.leaf (.text e.1.toList))
    return (e.1, i) : Except PyErr (String × ℕ))) fun e _ => by cases pyIndex l (.leaf (.text e.1.toList)) <;> rfl
  refine this.trans ?_
  rw [List.map_id_fun]
  cases mapPy (fun e : String × Element => (do
    let i ← pyIndex l (.leaf (.text e.1.toList))
    return (e.1, i) : Except PyErr (String × ℕ))) P.elements <;> rfl

/-! ### Two ini-files -/

theorem unit_eq {pow : String → ℤ} {d d' : Dict} {k : String} (h : d' k = (d k).map (inUnits (c ^ pow k))) : unitDict pow c d k = d' k := h.symm

theorem same_of_inUnit {P P' : Parsed} (hP : SameParsed P P) (h : InUnitOf c P P') : SameParsed (P.scale c) P' := by
  refine ⟨fun k hk => unit_eq (h.model k hk), fun k hk => ?_, h.contacts.symm, fun k hk => ?_, Or.inl ?_, ?_⟩
  · obtain ⟨h1, h2⟩ := List.mem_filter.1 hk
    exact unit_eq (h.strata k h1 (by simpa using h2))
  · exact unit_eq (h.hydraulics k (List.mem_filter.1 hk).1)
  · have : (P.scale c).hydraulics "hydro" = P'.hydraulics "hydro" := unit_eq (h.hydraulics "hydro" (by decide))
    unfold hydroOf
    rw [this]
  · have he : ∀ l : List (String × Element), List.Forall₂ (fun e e' : String × Element => e.1 = e'.1 ∧ SameElement e.2 e'.2) l l → ∀ l',
        List.Forall₂ (fun e e' : String × Element => e'.1 = e.1 ∧ ElementIn c e.2 e'.2) l l' →
        List.Forall₂ (fun e e' : String × Element => e.1 = e'.1 ∧ SameElement e.2 e'.2) (l.map fun x => (x.1, Element.scale c x.2)) l' := by
      intro l hl l' hl'
      induction hl' with
      | nil => exact .nil
      | @cons e e' l l' hx _ ih =>
        cases hl with
        | cons h0 h1 =>
          refine .cons ⟨hx.1.symm, ?_⟩ (ih h1)
          obtain ⟨g, hg, hcases, -⟩ := h0.2.dict
          refine ⟨hx.2.contact.symm, g, ?_, hcases, fun k hk => ?_⟩
          · show (e.2.dict "geometry").map (entryIn c "geometry") = _
            rw [hg]
            refine congrArg some ?_
            rw [entry_unit (by decide)]
            rfl
          · obtain ⟨h1, h2⟩ := List.mem_filter.1 hk
            exact (hx.2.options g k hg h1 (by simpa using h2)).symm
    exact he _ hP.elements _ h.elements

theorem safe_of_inUnit {P P' : Parsed} (h : InUnitOf c P P') : ∀ x ∈ P.elements, SafeDict c x.2.dict := by
  have : ∀ l l' : List (String × Element), List.Forall₂ (fun e e' : String × Element => e'.1 = e.1 ∧ ElementIn c e.2 e'.2) l l' → ∀ x ∈ l, SafeDict c x.2.dict := by
    intro l l' hl
    induction hl with
    | nil => exact fun x hx => absurd hx (by simp)
    | cons hx _ ih =>
      intro y hy
      rcases List.mem_cons.1 hy with rfl | hy
      · exact hx.2.thickness
      · exact ih y hy
  exact this _ _ h.elements

/-- Elements other than channels have shapes that do not depend on the unit. -/
theorem scalable_shapes {P : Parsed} (hch : ∀ x ∈ P.elements, ¬ written x.2.dict "geometry" "channel") : ∀ l, readShapes P = .ok l → ∀ x ∈ l, x.2.Scalable := by
  intro l hl x hx
  obtain ⟨⟨n, e⟩, he, h1⟩ := mapPy_from hl hx
  simp only [bind_ok, pure_ok] at h1
  obtain ⟨s, h1, rfl⟩ := h1
  have hme := hch _ he
  rcases readShape_geometry h1 with ⟨q, rfl, hread, hg⟩ | ⟨q, rfl, hread, hg⟩ | ⟨q, rfl, hread, hg⟩
  · trivial
  · exact absurd hg hme
  · trivial

end Hyvr
