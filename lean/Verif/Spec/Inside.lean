import Verif.Spec.Written
import Verif.Props.Elements
import Verif.Model.Objects

/-!
What the inside of an object may look like according to its section of the ini-file (C102, C103).
-/

namespace Hyvr.Spec

/-- `x` lies between the two numbers of option `k`, in whichever order they are given. -/
def Between (d : Dict) (k : String) (x : ℝ) : Prop :=
  ∃ lo hi : ℚ, d k = some (numList [lo, hi]) ∧ min (lo : ℝ) hi ≤ x ∧ x ≤ max (lo : ℝ) hi

/-- The structure is one of those. -/
def StructureIn (d : Dict) (l : List String) : Prop := ∃ s ∈ l, written d "structure" s

/-- The facies number is one of the option `facies`. -/
def InFacies (d : Dict) (f : ℤ) : Prop := ∃ l, d "facies" = some (.node l) ∧ numVal f ∈ l

/-- The facies number is in one of the lists of the option `altfacies`. -/
def InAltFacies (d : Dict) (f : ℤ) : Prop := ∃ rows row, d "altfacies" = some (.node rows) ∧ .node row ∈ rows ∧ numVal f ∈ row

/-- The facies of a cell in an object above its lag: one of the section's facies or, in layered objects, a facies that may follow one. -/
def ObjectFacies (d : Dict) (f : ℤ) : Prop := InFacies d f ∨ StructureIn d ["dip", "bulb_sets", "random"] ∧ InAltFacies d f

/-- The facies of a cell in the lag at the bottom of an object; objects without a lag have none. -/
def LagFacies (d : Dict) (f : ℤ) : Prop := d "lag_facies" = some (numVal f) ∧ ∃ q, d "lag_height" = some (numVal q) ∧ q ≠ 0

/-- Facies, azimuth and dip that an object of the section `d` may give a cell. -/
inductive ObjectValues (d : Dict) : ℤ → ℝ → ℝ → Prop
  /-- The lag of troughs and channels is not inclined. -/
  | lag {f : ℤ} (geo : written d "geometry" "trough" ∨ written d "geometry" "channel") (facies : LagFacies d f) : ObjectValues d f 0 0
  | sheet {f : ℤ} {az dp : ℝ} (geo : written d "geometry" "sheet") (facies : ObjectFacies d f) (azim : Between d "azimuth" az)
      (dip : Between d "dip" dp) : ObjectValues d f az dp
  /-- Layers of channels get the direction of the flow, other channels no azimuth. -/
  | channel {f : ℤ} {az dp : ℝ} (geo : written d "geometry" "channel") (facies : ObjectFacies d f)
      (layers : written d "structure" "dip" → -180 < az ∧ az ≤ 180) (massive : ¬ written d "structure" "dip" → az = 0)
      (dip : Between d "dip" dp) : ObjectValues d f az dp
  /-- Massive and layered troughs: azimuths are relative to the direction of the trough. -/
  | straight {f : ℤ} {a b dp : ℝ} (geo : written d "geometry" "trough") (struct : StructureIn d ["massive", "flat", "dip", "random"])
      (facies : ObjectFacies d f) (azim : Between d "azimuth" a) (flow : Between d "paleoflow" b) (dip : Between d "dip" dp) :
      ObjectValues d f (a + b) dp
  /-- Bulbs: the dip is limited. -/
  | bulb {f : ℤ} {az dp m : ℝ} (geo : written d "geometry" "trough") (struct : StructureIn d ["bulb", "bulb_sets", "random"])
      (facies : ObjectFacies d f) (azim : |az| ≤ 90) (limit : Between d "dip" m) (dip : |dp| ≤ |m|) : ObjectValues d f az dp

/-- Objects of the section have tables of layers. -/
def HasLayers (d : Dict) : Prop :=
  (written d "geometry" "trough" ∧ StructureIn d ["dip", "bulb_sets", "random"]) ∨
    ((written d "geometry" "channel" ∨ written d "geometry" "sheet") ∧ written d "structure" "dip")

/-- Troughs of positive size without a trend, with positive layer distances where there are layers. -/
structure SoundTrough (d : Dict) : Prop where
  geo : written d "geometry" "trough"
  size : ∀ k ∈ ["length", "width", "depth"], ∃ q, d k = some (numVal q) ∧ 0 < q
  trend : d "size_ztrend" = some (.leaf .none)
  dipsets : StructureIn d ["dip", "random"] → ∃ q, d "dipset_dist" = some (numVal q) ∧ 0 < q
  bulbsets : StructureIn d ["bulb_sets", "random"] → ∃ q, d "bulbset_dist" = some (numVal q) ∧ 0 < q

/-- A cell of such an object may be looked up outside of the object's table of layers: a layered sheet or channel, or a layered trough that is not
sound. -/
def StrayPossible (d : Dict) : Prop := HasLayers d ∧ ¬ SoundTrough d

/-- All uniform numbers are in [0, 1). -/
structure UniformObjs (r : ObjRandoms) : Prop where
  pos : ∀ i k, 0 ≤ (r.pos i k).1 ∧ (r.pos i k).1 < 1 ∧ 0 ≤ (r.pos i k).2 ∧ (r.pos i k).2 < 1
  alpha : ∀ n, 0 ≤ r.alpha n ∧ r.alpha n < 1
  azim : ∀ n, 0 ≤ r.azim n ∧ r.azim n < 1
  dip : ∀ n, 0 ≤ r.dip n ∧ r.dip n < 1
  shift : ∀ n, 0 ≤ r.shift n ∧ r.shift n < 1
  start : ∀ n, 0 ≤ r.start n ∧ r.start n < 1
  mig : ∀ l n, 0 ≤ r.mig l n ∧ r.mig l n < 1

end Hyvr.Spec
