import Verif.Spec.Inside
import Verif.Spec.Surely
import Mathlib.Probability.Independence.Basic

/-!
What each object of an AE gets from the numbers drawn for it (C137). `d` is the section of the element.
-/

namespace Hyvr.Spec

open MeasureTheory ProbabilityTheory

/-- `x` is the part `u` of the way from the first to the second number of option `k`. -/
def PartWay (d : Dict) (k : String) (u x : ℝ) : Prop := ∃ lo hi : ℚ, d k = some (numList [lo, hi]) ∧ x = lo + (hi - lo) * u

/-- `f` is the entry of the option `facies` with the drawn number `c`; the list is counted cyclically, as any number may be drawn. -/
def PickedFacies (d : Dict) (c : ℕ) (f : ℤ) : Prop := ∃ l : List Val, d "facies" = some (.node l) ∧ l[c % l.length]? = some (numVal f)

/-- Facies, azimuth and dip of object `n` of an AE without internal layers, from the numbers drawn for this object. Troughs have azimuths relative to their own
direction, channels none. -/
inductive OwnValues (d : Dict) (r : ObjRandoms) (n : ℕ) : ℤ → ℝ → ℝ → Prop
  | sheet {f : ℤ} {az dp : ℝ} (geo : written d "geometry" "sheet") (facies : PickedFacies d (r.facies n) f) (azim : PartWay d "azimuth" (r.azim n) az)
      (dip : PartWay d "dip" (r.dip n) dp) : OwnValues d r n f az dp
  | channel {f : ℤ} {dp : ℝ} (geo : written d "geometry" "channel") (facies : PickedFacies d (r.facies n) f) (dip : PartWay d "dip" (r.dip n) dp) :
      OwnValues d r n f 0 dp
  | trough {f : ℤ} {a b dp : ℝ} (geo : written d "geometry" "trough") (facies : PickedFacies d (r.facies n) f) (azim : PartWay d "azimuth" (r.azim n) a)
      (flow : PartWay d "paleoflow" (r.alpha n) b) (dip : PartWay d "dip" (r.dip n) dp) : OwnValues d r n f (a + b) dp

/-- A point at elevation `z` is in the lag of an object with its lowest point at `zmin`. -/
def InLag (d : Dict) (zmin z : ℝ) : Prop :=
  (written d "geometry" "trough" ∨ written d "geometry" "channel") ∧ ∃ q : ℚ, d "lag_height" = some (numVal q) ∧ z < zmin + q

/-- What an object gives cells if it has the same values `f`, `az`, `dp` everywhere above its lag. -/
def Homogeneous (d : Dict) (ob : GObj ℝ) (f : ℤ) (az dp : ℝ) : Prop :=
  ∀ i j z v, ob.answer i j z = some v → v = (f, some az, some dp) ∨ (InLag d ob.zmin z ∧ ∃ l : ℤ, d "lag_facies" = some (numVal l) ∧ v = (l, some 0, some 0))

/-- What numpy promises of the choices made for the objects of an AE from a list of length `len`: every entry is chosen with the same probability, independently for
different objects. -/
structure RandomChoices {Ω : Type} [MeasurableSpace Ω] (μ : Measure Ω) (r : Ω → ObjRandoms) (len : ℕ) : Prop where
  measurable : ∀ n, Measurable fun ω => (r ω).facies n % len
  even : ∀ n, ∀ c < len, μ.real {ω | (r ω).facies n % len = c} = 1 / len
  independent : iIndepFun (fun n ω => (r ω).facies n % len) μ

/-- What numpy promises of the dips of the objects of an AE: from uniform numbers, independent of each other. -/
structure RandomDips {Ω : Type} [MeasurableSpace Ω] (μ : Measure Ω) (r : Ω → ObjRandoms) : Prop where
  law : ∀ n, HasLaw (fun ω => (r ω).dip n) unitLaw μ
  independent : iIndepFun (fun n ω => (r ω).dip n) μ

end Hyvr.Spec
