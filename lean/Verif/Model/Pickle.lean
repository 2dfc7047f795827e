import Verif.Model.Modes

/-!
# Model of pickling `Modes` objects (`SWSH_modes/__init__.py`)

`pickle.dumps` calls `__reduce__`; `pickle.loads` calls the returned function with the returned arguments and then `__setstate__` with
the returned state.  (`copy.copy` and `copy.deepcopy` use numpy's `__copy__`/`__deepcopy__` and, for the metadata, `__array_finalize__`.)

Simplifications: the byte string of the data is the list of its entries; the entries of `_metadata` are the three that the class itself
uses (others are carried along in the same dictionary); a truncator is a function that `pickle` can save, that is, one that can be
imported by name (`sum`, `max`, any module-level function).
-/

set_option autoImplicit false

namespace SF

/-- `_metadata`: entries may be missing, or None in objects that were not made by the constructor. -/
structure Metadata where
  spin_weight : Option ℤ
  ell_max : Option ℤ
  trunc : TruncKey

/-- Any object of class `Modes`, also one that does not satisfy the invariant: the array, and the attribute `_metadata`, if it is set. -/
structure RawModes where
  lead : List ℕ
  dat : List Slice
  metadata : Option Metadata

/-- The items of a state tuple. -/
inductive StateItem
  | version (n : ℤ)
  | shape (lead : List ℕ) (n : ℕ)
  | dtype
  | isFortran (b : Bool)
  | rawdata (dat : List Slice)
  | dict (m : Metadata)

/-- `ndarray.__reduce__` (numpy): only the state is modelled; the first two components make an empty object of the class. -/
def ndarray_reduce (f : RawModes) : List StateItem := [.version 1, .shape f.lead f.dat.length, .dtype, .isFortran false, .rawdata f.dat]

/-- `ndarray.__setstate__` (numpy): the state is a tuple of exactly these five items. -/
def ndarray_setstate (f : RawModes) : List StateItem → Py RawModes
  | [.version _, .shape lead n, .dtype, .isFortran _, .rawdata dat] =>
    if dat.length = n then .ok { f with lead := lead, dat := dat } else .error .valueError
  | _ => .error .typeError

/-- `Modes.__reduce__` — SWSH_modes/__init__.py:145-148 (the state). -/
def Modes_reduce (f : RawModes) : Py (List StateItem) :=
  match f.metadata with
  | none => .error .attributeError
  | some m => .ok (ndarray_reduce f ++ [.dict m])

/-- `Modes.__setstate__` — SWSH_modes/__init__.py:151-153.  (`copy.deepcopy` of the dictionary gives an equal one.) -/
def Modes_setstate (f : RawModes) (state : List StateItem) : Py RawModes :=
  match state.getLast? with
  | some (.dict m) => ndarray_setstate { f with metadata := some m } state.dropLast
  | some _ => .error .typeError
  | none => .error .indexError

/-- `Modes.__array_finalize__` — SWSH_modes/__init__.py:135-142: the metadata of an object made from `obj` by numpy.  `none` is an
object created from nothing (`obj is None`); `some none` is an object without metadata, such as a plain array. -/
def array_finalize : Option (Option Metadata) → Option Metadata
  | none => none
  | some none => some ⟨none, none, .absent⟩
  | some (some m) => some m

/-- `numpy.core.multiarray._reconstruct(Modes, (0,), b'b')`: an empty object, not yet with metadata. -/
def reconstruct : RawModes := ⟨[], [], array_finalize none⟩

/-- `pickle.loads(pickle.dumps(f))`. -/
def pickleCopy (f : RawModes) : Py RawModes := do
  let state ← Modes_reduce f
  Modes_setstate reconstruct state

/-- `f.copy()`, `copy.copy(f)`, `copy.deepcopy(f)`, and `a.view(Modes)` for a plain array: the same array, with the metadata given by
`__array_finalize__`. -/
def viewCopy (f : RawModes) : RawModes := { f with metadata := array_finalize (some f.metadata) }

/-- A `Modes` object as a raw object. -/
def Modes.raw (f : Modes) : RawModes := ⟨f.lead, f.dat, some ⟨some f.s, some f.ell_max, f.trunc⟩⟩

/-- The attributes of a raw object: `.s`, `.ell_max` and the data; KeyError is not modelled (the two entries are always set, if there is
metadata), and None in place of a number makes the later arithmetic raise TypeError. -/
def RawModes.toModes (f : RawModes) : Py Modes :=
  match f.metadata with
  | none => .error .attributeError
  | some ⟨some s, some L, t⟩ => .ok ⟨f.lead, s, L, t, f.dat⟩
  | some _ => .error .typeError

end SF
