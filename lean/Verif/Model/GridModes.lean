import Verif.Model.Grid

/-!
# Model of `Modes.grid` (`SWSH_modes/utilities.py`)

The transform itself is done by the external package `spinsfast` (compiled C code, not part of the repository).  It enters as a
parameter `salm2map` of the model; what the theorems need of it is stated as a hypothesis on that parameter.
-/

set_option autoImplicit false

namespace SF

/-- The signature of `spinsfast.salm2map(alm, s, lmax, Ntheta, Nphi)`: the array of modes is given by its leading shape and its slices
along the last axis; the result is a plain array, or an exception. -/
abbrev Salm2map := List ℕ → List Slice → ℤ → ℤ → ℤ → ℤ → Py Scalars

/-- Python's `x or d` for `x` an int or None: 0 is falsy. -/
def pyOr (x : Option ℤ) (d : ℤ) : ℤ :=
  match x with
  | none => d
  | some n => if n = 0 then d else n

/-- `Modes.grid` — SWSH_modes/utilities.py:44-80.  `kw` is the keyword `spin_weight` in `**kwargs`, if given: it replaces the entry of
the copied metadata, but not the spin weight passed to the transform.  Other metadata entries are passed through and left out. -/
def Modes.grid (salm2map : Salm2map) (f : Modes) (n_theta n_phi : Option ℤ) (kw : Option ℤ) : Py Grid := do
  let n_theta' := pyOr n_theta (2 * f.ell_max + 1)
  let n_phi' := pyOr n_phi n_theta'
  let a ← salm2map f.lead f.dat f.s f.ell_max n_theta' n_phi'
  Grid.new a none [] (kw.or (some f.s))

end SF
