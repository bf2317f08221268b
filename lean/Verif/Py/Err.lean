/-!
Python exceptions as values.
-/

namespace Hyvr.Py

/-- The Python exceptions the modelled code can raise (`hyvr/` raises or provokes them at the places cited where
the constructors are used); `shapeError` and `missingOption`/`missingSection` are the exceptions of
hyvr/input/option_parsing.py:502-515. `configError` collects the plain `raise ValueError/Exception` texts of
hyvr/input/parameters.py. -/
inductive PyErr
  | keyError
  | valueError
  | attributeError
  | typeError
  | indexError
  | nameError
  | zeroDivision
  | notImplemented
  | importError
  | fileExists
  | fileNotFound
  | shapeError
  | missingOption
  | missingSection
  | configError
  deriving DecidableEq, Repr

end Hyvr.Py
