import Verif.Model.Complete

/-!
Model of hyvr/__main__.py: `python -m hyvr [--overwrite] file`.
-/

namespace Hyvr

open Py

/-- What the caller of the program sees: the exit status, and the exception whose text is printed to stderr. hyvr/__main__.py:17-22. -/
structure Exit where
  status : ℕ
  message : Option PyErr

/-- The program with a file as argument; `p` is what `configparser` reads, no sections if there is no such file. `none`: the run does not end
within the passes granted. hyvr/__main__.py:13-22. Simplification: `argparse` and interruptions by signals are not modelled; without a file
the program runs the built-in test case, see `runTest`. -/
noncomputable def mainHyvr (C : Convs) (p : Ini) (text : String) (iniDir : Path) (ini : List Char) (answer : Path) (overwrite : Bool)
    (write : Writers) (ch : ℕ → Chance) (w : World) : Option (World × Exit) :=
  match runHyvr C p text iniDir ini answer (if overwrite then some true else none) write ch w with
  | none => none
  | some (w, none) => some (w, { status := 0, message := none })
  | some (w, some e) => some (w, { status := 1, message := some e })

end Hyvr
