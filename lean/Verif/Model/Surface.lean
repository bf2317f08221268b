import Verif.Py.Err
import Mathlib.Algebra.Order.Field.Basic
import Mathlib.Algebra.BigOperators.Group.List.Basic

/-!
Model of hyvr/geo/contact_surface.py.

Contact surfaces are mutable Python objects that are shared (the bottom of one unit is the top of the next), so
they live in a heap and are referred to by number.
-/

namespace Hyvr

open Py

variable {α : Type} [Field α] [LinearOrder α]

/-- Attributes of a `ContactSurface`: the array `surface` (as a function of the two indices) and the three cached
numbers. hyvr/geo/contact_surface.py:10-33. -/
structure Surface (α : Type) where
  vals : ℕ → ℕ → α
  zmean : α
  zmin : α
  zmax : α

/-- All contact surfaces created so far: surface number `r < next` exists. `nx`, `ny` are the attributes of
hyvr/geo/contact_surface.py:11-12. Simplification: they are kept once because every surface of a model is
created with the same grid. -/
structure Heap (α : Type) where
  nx : ℕ
  ny : ℕ
  next : ℕ
  get : ℕ → Surface α

/-- All entries of a `nx` by `ny` array in row-major order. hyvr/geo/contact_surface.py:25-27 (argument of
`np.mean`, `np.max`, `np.min`). -/
def entries (nx ny : ℕ) (vals : ℕ → ℕ → α) : List α :=
  (List.range nx).flatMap fun i => (List.range ny).map fun j => vals i j

/-- `np.min(self.surface)`; `ValueError` for an empty array. hyvr/geo/contact_surface.py:27,47. -/
def npMin (nx ny : ℕ) (vals : ℕ → ℕ → α) : Except PyErr α :=
  match (entries nx ny vals).min? with
  | some m => .ok m
  | none => .error .valueError

/-- `np.max(self.surface)`; `ValueError` for an empty array. hyvr/geo/contact_surface.py:26,57. -/
def npMax (nx ny : ℕ) (vals : ℕ → ℕ → α) : Except PyErr α :=
  match (entries nx ny vals).max? with
  | some m => .ok m
  | none => .error .valueError

/-- `np.mean(self.surface)`, hyvr/geo/contact_surface.py:25. Simplification: for an empty array numpy gives NaN
with a warning and the following `np.max` raises; the model value `0/0 = 0` is never used in that case. -/
def npMean (nx ny : ℕ) (vals : ℕ → ℕ → α) : α :=
  (entries nx ny vals).sum / ((nx * ny : ℕ) : α)

/-- Keyword arguments of the constructor: a contact model dictionary with optional keys.
hyvr/geo/contact_surface.py:8-17, hyvr/geo/contact_surface_utils.py:5-19. -/
structure ContactModel (α : Type) where
  mode : String
  z : Option α
  var : Option α
  corlx : Option α
  corly : Option α

/-- `ContactModel(mode='flat', z=z)` as written at hyvr/geo/model.py:109,113 and hyvr/geo/sheet_ae.py:81. -/
def ContactModel.flat (z : α) : ContactModel α :=
  { mode := "flat", z := some z, var := none, corlx := none, corly := none }

/-- The attributes computed by `ContactSurface.__init__`, hyvr/geo/contact_surface.py:8-36. `field` is the result of
`hu.specsim` (arbitrary; used in mode `random` only). A missing `z` is a `KeyError` (line 10), a missing
`var`/`corlx`/`corly` a `ValueError` (line 17); any other mode reaches `self.mode` (line 35), which does not exist. -/
def Surface.init (nx ny : ℕ) (cm : ContactModel α) (field : ℕ → ℕ → α) : Except PyErr (Surface α) :=
  match cm.z with
  | none => .error .keyError
  | some z =>
    if cm.mode = "random" then
      if cm.var.isNone ∨ cm.corlx.isNone ∨ cm.corly.isNone then .error .valueError
      else do
        let vals : ℕ → ℕ → α := fun i j => field i j + z * 1
        let zmean := npMean nx ny vals
        let zmax ← npMax nx ny vals
        let zmin ← npMin nx ny vals
        return { vals, zmean, zmin, zmax }
    else if cm.mode = "flat" then
      .ok { vals := fun _ _ => z * 1, zmean := z, zmin := z, zmax := z }
    else .error .attributeError

/-- Creating the object: the next free number gets the new surface. hyvr/geo/contact_surface.py:8-36. -/
def Heap.create (h : Heap α) (cm : ContactModel α) (field : ℕ → ℕ → α) : Except PyErr (Heap α × ℕ) := do
  let s ← Surface.init h.nx h.ny cm field
  return ({ h with next := h.next + 1, get := Function.update h.get h.next s }, h.next)

/-- `self.surface[i,j] = v` on surface number `s`. hyvr/geo/contact_surface.py:45,56. -/
def Heap.setVal (h : Heap α) (s i j : ℕ) (v : α) : Heap α :=
  let new : Surface α := { h.get s with vals := fun i' j' => if i' = i ∧ j' = j then v else (h.get s).vals i' j' }
  { h with get := Function.update h.get s new }

/-- The double loop of `use_lower_surface_value`; every read goes through the heap, so `s = o` is covered.
hyvr/geo/contact_surface.py:41-45. -/
def Heap.lowerLoop (h : Heap α) (s o : ℕ) : Heap α :=
  (List.range h.nx).foldl (fun h i =>
    (List.range h.ny).foldl (fun h j =>
      if (h.get s).vals i j > (h.get o).vals i j then h.setVal s i j ((h.get o).vals i j) else h) h) h

/-- The double loop of `use_higher_surface_value`. hyvr/geo/contact_surface.py:52-56. -/
def Heap.higherLoop (h : Heap α) (s o : ℕ) : Heap α :=
  (List.range h.nx).foldl (fun h i =>
    (List.range h.ny).foldl (fun h j =>
      if (h.get s).vals i j < (h.get o).vals i j then h.setVal s i j ((h.get o).vals i j) else h) h) h

/-- `s.use_lower_surface_value(o)`. hyvr/geo/contact_surface.py:40-47. -/
def Heap.useLower (h : Heap α) (s o : ℕ) : Except PyErr (Heap α) := do
  let h' := h.lowerLoop s o
  let m ← npMin h'.nx h'.ny (h'.get s).vals
  return { h' with get := Function.update h'.get s { h'.get s with zmin := m } }

/-- `s.use_higher_surface_value(o)`. hyvr/geo/contact_surface.py:51-58. -/
def Heap.useHigher (h : Heap α) (s o : ℕ) : Except PyErr (Heap α) := do
  let h' := h.higherLoop s o
  let m ← npMax h'.nx h'.ny (h'.get s).vals
  return { h' with get := Function.update h'.get s { h'.get s with zmax := m } }

end Hyvr
