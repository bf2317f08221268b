import Verif.Spec.Inside
import Verif.Spec.Generate

/-!
What C104 assumes about the element sections of an ini-file.
-/

namespace Hyvr.Spec

/-- Option `k` is a number with this property. -/
def HasNumber (d : Dict) (k : String) (P : ℚ → Prop) : Prop := ∃ q, d k = some (numVal q) ∧ P q

/-- Layers of these objects can be drawn: facies that may follow others are facies of the section, and each facies has followers. -/
def Followers (d : Dict) : Prop :=
  ∀ fs rows, d "facies" = some (.node fs) → d "altfacies" = some (.node rows) → ∀ row, .node row ∈ rows → row ≠ [] ∧ ∀ f ∈ row, f ∈ fs

/-- A section of troughs: positive sizes without a trend, a positive aggradation, no negative density and standard deviations, positive distances and
followers where there are layers. -/
structure PlaceableTrough (d : Dict) : Prop where
  size : ∀ k ∈ ["length", "width", "depth", "agg"], HasNumber d k fun q => 0 < q
  density : HasNumber d "trough_density" fun q => 0 ≤ q
  trend : d "size_ztrend" = some (.leaf .none)
  moves : ∀ a b c e, d "migrate" = some (numList [a, b, c, e]) → 0 ≤ b ∧ 0 ≤ e
  dipsets : StructureIn d ["dip", "random"] → HasNumber d "dipset_dist" fun q => 0 < q
  bulbsets : StructureIn d ["bulb_sets", "random"] → HasNumber d "bulbset_dist" fun q => 0 < q
  followers : StructureIn d ["dip", "bulb_sets", "random"] → Followers d

/-- A section of channels: a positive width, aggradation and step, no negative depth and number, no trend, `h` at most 1 in size; layers have a
positive distance, dip by 0 to 180 degrees and have followers. -/
structure PlaceableChannel (d : Dict) : Prop where
  positive : ∀ k ∈ ["width", "agg", "ds"], HasNumber d k fun q => 0 < q
  count : ∀ k ∈ ["depth", "channel_no"], HasNumber d k fun q => 0 ≤ q
  trend : d "size_ztrend" = some (.leaf .none)
  h : HasNumber d "h" fun q => |q| ≤ 1
  dipsets : written d "structure" "dip" → HasNumber d "dipset_dist" fun q => 0 < q
  dips : written d "structure" "dip" → ∀ lo hi, d "dip" = some (numList [lo, hi]) → (0 ≤ lo ∧ lo ≤ 180) ∧ 0 ≤ hi ∧ hi ≤ 180
  followers : written d "structure" "dip" → Followers d

/-- The options of element sections, besides `size_ztrend`, that are lists of numbers. -/
def objectLists : List String := ["dip", "azimuth", "paleoflow", "te_xyz", "migrate"]

/-- The objects of the ini-file `p`, parsed as `P`, can be placed: the lists of numbers are well written, the domain has a positive length and width,
sheets have no dipping layers, troughs and channels are placeable. -/
structure Placeable (p : Ini) (P : Parsed) : Prop where
  lists : ∀ s ∈ elementSections p, ∀ k ∈ objectLists, ∀ t, p.get s k = some (.leaf (.text t)) → WellWritten t
  domain : ∀ k ∈ ["lx", "ly"], HasNumber P.model k fun q => 0 < q
  sheets : ∀ s e, (s, e) ∈ P.elements → written e.dict "geometry" "sheet" → ¬ written e.dict "structure" "dip"
  troughs : ∀ s e, (s, e) ∈ P.elements → written e.dict "geometry" "trough" → PlaceableTrough e.dict
  channels : ∀ s e, (s, e) ∈ P.elements → written e.dict "geometry" "channel" → PlaceableChannel e.dict

end Hyvr.Spec
