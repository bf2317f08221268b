import Verif.Model.Strata

/-!
What C99 assumes about the input of `generate_model`, in terms of the lists of the strata section.
-/

namespace Hyvr.Spec

variable {α : Type}

/-- A contact model from which `ContactSurface` can make a surface once it has an elevation. -/
def UsableContact (cm : ContactModel α) : Prop :=
  cm.mode = "flat" ∨ cm.mode = "random" ∧ cm.var.isSome ∧ cm.corlx.isSome ∧ cm.corly.isSome

/-- Placing the objects of an AE of this type raises no exception. -/
def Quiet (t : ElemParams α) (d : AEDraw α) : Prop :=
  (t.geometry = "trough" ∨ t.geometry = "channel" → ∀ N b s e, d.objs N t b s ≠ some (.error e)) ∧
  (t.geometry = "sheet" → ∀ k z e, d.sheet t k z ≠ .error e)

/-- Placing the objects of an AE of this type ends. -/
def Ends (t : ElemParams α) (d : AEDraw α) : Prop :=
  t.geometry = "trough" ∨ t.geometry = "channel" → ∀ b s, ∃ F r, ∀ N ≥ F, d.objs N t b s = some r

/-- A stratum with the types of its AEs: known geometries, one mean thickness per type, none of them negative, the random choices
are among the types, and placing objects raises no exception. -/
structure UsableStratum [Zero α] [LE α] (sp : StratumParams α) (ts : List (ElemParams α)) (d : StratumDraw α) : Prop where
  first : d.first < ts.length
  next : ∀ n, (d.aes n).next < ts.length
  means : sp.aeZMean.length = ts.length
  positive : ∀ m ∈ sp.aeZMean, 0 ≤ m
  geometry : ∀ t ∈ ts, t.geometry = "trough" ∨ t.geometry = "channel" ∨ t.geometry = "sheet"
  quiet : ∀ t ∈ ts, ∀ n, Quiet t (d.aes n)

/-- The input of `generate_model`: one stratum more than contacts, usable contact models, usable strata. Stratum `si` counted from the
top is entry `n - 1 - si` of the lists. -/
structure UsableInput [Zero α] [LE α] (sd : StrataDict α) (cms : Contacts α) (draws : ℕ → StratumDraw α) : Prop where
  contacts : sd.contacts.length + 1 = sd.n
  params : sd.params.length = sd.n
  types : sd.types.length = sd.n
  surfaces : ∀ c ∈ sd.contacts, c.z.isSome ∧ UsableContact c
  elements : ∀ ts ∈ sd.types, ∀ t ∈ ts, UsableContact (cms t.name)
  strata : ∀ si < sd.n, ∀ sp ts, sd.params[sd.n - 1 - si]? = some sp → sd.types[sd.n - 1 - si]? = some ts →
    UsableStratum sp ts (draws si)

/-- Sheets of this type have a positive thickness wherever they are: the marker -1 for one sheet filling the AE, or a positive lens
thickness with positive factors of the trend. -/
def PositiveSheets [Zero α] [One α] [Neg α] [LT α] (t : ElemParams α) : Prop :=
  t.lensThickness = -1 ∨ 0 < t.lensThickness ∧ ∀ f0 f1, t.sizeZtrend = some (f0, f1) → 0 < f0 ∧ 0 < f1

/-- The same draws with `N` iterations granted to every loop. -/
def withFuel (N : ℕ) (d : StratumDraw α) : StratumDraw α :=
  { d with fuel := N, aes := fun n => { d.aes n with sheetFuel := N } }

end Hyvr.Spec
