import Verif.Model.Multiplication

/-!
# Indexing `Modes` objects

`Modes` does not define `__getitem__`: indexing is numpy's, and `__array_finalize__` (SWSH_modes/__init__.py:134-140) gives the
result the metadata of the object indexed, whatever was selected.
-/

set_option autoImplicit false

namespace SF

/-- The slices of an array whose leading axes have been reindexed: entry `idx` of the new array is entry `φ idx` of the old one. -/
def pre (φ : MIdx → MIdx) (v : Slice) : Slice := fun idx => v (φ idx)

/-- `f[key]` for any key that leaves the last axis whole (integers, slices, masks, index arrays or `np.newaxis` on the leading axes),
and `transpose`, `reshape` or `broadcast_to` on the leading axes: the result has some leading shape `lead`, its entry at index `idx` is that
of `f` at index `φ idx`, and `__array_finalize__` copies the metadata — SWSH_modes/__init__.py:134-140. -/
def Modes.select (f : Modes) (lead : List ℕ) (φ : MIdx → MIdx) : Modes :=
  ⟨lead, f.s, f.ell_max, f.trunc, f.dat.map (pre φ)⟩

/-- `f[i0, ..., ik]` with one integer for every leading axis: the single function at that index, with no leading axes. -/
def Modes.at (f : Modes) (idx : MIdx) : Modes := f.select [] fun _ => idx

/-- `a[i0, ..., ik]` with one integer for every axis: a number. -/
def Scalars.at (a : Scalars) (idx : MIdx) : Scalars := ⟨[], fun _ => a.val idx⟩

/-- `f[i]`: a number if there are no leading axes, otherwise the object at index `i` of the first axis; `for g in f` gives these objects
in order. -/
def Modes.getitem (f : Modes) (i : ℤ) : Py (ℂ ⊕ Modes) :=
  match f.lead with
  | [] => match npIdx f.dat.length i with
    | none => .error .indexError
    | some k => .ok (.inl ((f.dat[k]?.getD fun _ => 0) []))
  | n :: rest => match npIdx n i with
    | none => .error .indexError
    | some k => .ok (.inr (f.select rest fun idx => k :: idx))

/-- `f[..., i:j]` for `0 <= i, j`: part of the mode axis; `__array_finalize__` copies the metadata, `ell_max` included —
SWSH_modes/__init__.py:134-140.  (`truncate_ell` corrects `ell_max` afterwards — SWSH_modes/utilities.py:39.) -/
def Modes.modeSlice (f : Modes) (i j : ℤ) : Modes := { f with dat := getSlice f.dat i j }

/-- `f[..., i]` for an object with leading shape `lead0 + (n,)`: an object of shape `lead0 + (n,)` whose last axis — now taken for the mode
axis — is the last leading axis of `f`; `__array_finalize__` copies the metadata. -/
def Modes.column (f : Modes) (lead0 : List ℕ) (n : ℕ) (i : ℤ) : Py Modes := do
  let v ← rd f.dat i
  return ⟨lead0, f.s, f.ell_max, f.trunc, (List.range n).map fun k idx => v (idx ++ [k])⟩

end SF
