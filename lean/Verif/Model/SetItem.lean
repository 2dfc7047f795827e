import Verif.Model.Modes

/-!
# Assignment to modes: `f[..., i] = value`

`Modes` does not override `__setitem__` (SWSH_modes/__init__.py:89-249 defines only `__getitem__`), so `ndarray.__setitem__`
writes straight into the data, and nothing restores the invariant that the modes with `ell < |s|` vanish.

The key selects functions of the leading axes (`sel`) and one mode or a slice of modes of the last axis; the assigned value is
already broadcast to the selected elements.
-/

set_option autoImplicit false

namespace SF

/-- `old` with the selected elements replaced. -/
def overwrite (sel : MIdx → Bool) (new old : Slice) : Slice := fun x => if sel x then new x else old x

/-- `f[key, i] = value` for an integer `i` (negative ones count from the end) — `ndarray.__setitem__`, inherited by the class
in SWSH_modes/__init__.py:89. -/
def Modes.setItem (f : Modes) (sel : MIdx → Bool) (i : ℤ) (value : Slice) : Py Modes :=
  match npIdx f.dat.length i with
  | none => .error .indexError
  | some k => match f.dat[k]? with
    | none => .error .indexError
    | some old => .ok { f with dat := f.dat.set k (overwrite sel value old) }

/-- `f[..., i:j] = values` for `0 <= i, j` — `ndarray.__setitem__`, inherited by the class in SWSH_modes/__init__.py:89. -/
def Modes.setItems (f : Modes) (i j : ℤ) (values : List Slice) : Py Modes := do
  let d ← setSlice f.dat i j values
  return { f with dat := d }

end SF
