import Verif.Props.OptionShapes
import Verif.Model.IniFile
import Verif.Spec.Parameters

/-!
The defaults of options as documented in docs/inout.rst, for C115.
-/

namespace Hyvr.Spec

open Py

/-- The classes of options a section has: those of the sections `run` and `model`, those of all elements, of elements with troughs or channels, and of
elements with channels. -/
inductive SectionClass
  | run
  | model
  | element
  | erosive
  | channel

/-- The options of section `s`. -/
inductive HasClass (p : Ini) (s : String) : SectionClass → Prop
  | run (h : s = "run") : HasClass p s .run
  | model (h : s = "model") : HasClass p s .model
  | element (h : s ∉ ["run", "model", "strata", "hydraulics", "flowtrans"]) : HasClass p s .element
  | erosive (h : s ∉ ["run", "model", "strata", "hydraulics", "flowtrans"])
      (g : written (p.get s) "geometry" "trough" ∨ written (p.get s) "geometry" "channel") : HasClass p s .erosive
  | channel (h : s ∉ ["run", "model", "strata", "hydraulics", "flowtrans"]) (g : written (p.get s) "geometry" "channel") : HasClass p s .channel

/-- The text `t` writes the documented default of the option. docs/inout.rst:117-147, 231-234, 265-268, 322-323. -/
inductive WritesDefault (C : Convs) : SectionClass → String → List Char → Prop
  | numsim {t} (h : C.int t = .ok (.num 1)) : WritesDefault C .run "numsim" t
  | overwrite : WritesDefault C .run "overwrite_old_output" "false".toList
  | origin {k t} (hk : k ∈ ["x0", "y0", "z0"]) (h : C.float t = .ok (.num 0)) : WritesDefault C .model k t
  | periodic : WritesDefault C .model "periodic" "false".toList
  | generate {k} (hk : k ∈ ["anisotropy", "hydraulics", "heterogeneity"]) : WritesDefault C .model k "true".toList
  | level : WritesDefault C .model "heterogeneity_level" "internal".toList
  | angle {k t a b} (hk : k ∈ ["dip", "azimuth"]) (h : Writes t (.node [.leaf a, .leaf b])) (ha : C.float a = .ok (.num 0)) (hb : C.float b = .ok (.num 0)) :
      WritesDefault C .element k t
  | none {k t} (hk : k ∈ ["buffer", "lag_height"]) (h : C.float t = .ok (.num 0)) : WritesDefault C .erosive k t
  | flow {t} (h : C.float t = .ok (.num 0)) : WritesDefault C .channel "flow_angle" t

/-- The ini-file `q` is `p` with some defaults written out. -/
structure WrittenOut (C : Convs) (p q : Ini) : Prop where
  sections : q.sections = p.sections
  options : ∀ s k, q.get s k = p.get s k ∨
    p.get s k = .none ∧ ((∃ c t, HasClass p s c ∧ WritesDefault C c k t ∧ q.get s k = some (.leaf (.text t))) ∨
      s = "model" ∧ (k = "dy" ∨ k = "dz") ∧ ∃ t, p.get s "dx" = some (.leaf (.text t)) ∧ q.get s k = some (.leaf (.text t)))

end Hyvr.Spec
