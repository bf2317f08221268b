import Mathlib.Data.List.Basic

/-!
What the text of a value stands for (C133): `%%` for a percent sign, `%(name)s` for the value of another option.
-/

namespace Hyvr.Spec

/-- The text `t` stands for `u`, where `vals` are the texts of the options by their names in lower case, and at most `d` references are nested below one to a text that
has percent signs itself. -/
inductive Means (vals : List Char → Option (List Char)) : ℕ → List Char → List Char → Prop
  | done (d : ℕ) : Means vals d [] []
  | char {d : ℕ} {c : Char} {t u : List Char} (hc : c ≠ '%') (h : Means vals d t u) : Means vals d (c :: t) (c :: u)
  | percent {d : ℕ} {t u : List Char} (h : Means vals d t u) : Means vals d ('%' :: '%' :: t) ('%' :: u)
  | plain {d : ℕ} {name v r t u w : List Char} (hn : name ≠ []) (hb : ')' ∉ name) (hr : r = name ++ ')' :: 's' :: t)
      (hv : vals (name.map Char.toLower) = some v) (hp : '%' ∉ v) (h : Means vals d t u) (hw : w = v ++ u) : Means vals d ('%' :: '(' :: r) w
  | nested {d : ℕ} {name v x r t u w : List Char} (hn : name ≠ []) (hb : ')' ∉ name) (hr : r = name ++ ')' :: 's' :: t)
      (hv : vals (name.map Char.toLower) = some v) (hx : Means vals d v x) (h : Means vals (d + 1) t u) (hw : w = x ++ u) :
      Means vals (d + 1) ('%' :: '(' :: r) w

end Hyvr.Spec
