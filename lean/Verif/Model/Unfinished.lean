import Verif.Model.Modes

/-!
# Model of the unfinished functions: `recursions.rotate`, `associated_legendre_functions`

What matters here is which global names a function finds, so that name lookup is explicit: `globals` is the list of names of the module.
-/

set_option autoImplicit false

namespace SF

/-- Evaluation of a global name. -/
def lookupName (globals : List String) (name : String) : Py Unit := if name ∈ globals then .ok () else .error .nameError

/-- The module-level names of recursions/__init__.py:1-8, 12, 37, and the builtins used there. -/
def recursionsGlobals : List String :=
  ["np", "jit", "complex_powers", "Wigner3jCalculator", "Wigner3j", "clebsch_gordan", "HCalculator", "quaternion_angles", "rotate",
    "isinstance", "int", "ValueError", "NotImplementedError", "range", "slice"]

/-- The names of recursions/associated_legendre_functions.py:1-5, and builtins. -/
def legendreGlobals : List String := ["np", "numba", "P̆ₙₘ", "P̆Calculator", "object", "int", "ValueError", "range"]

/-- The rotor argument: one quaternion, or an array of quaternions of some shape. -/
inductive RotorsArg
  | single (R : ℝ × ℝ × ℝ × ℝ)
  | array (shape : List ℕ) (Rs : List (ℝ × ℝ × ℝ × ℝ))

/-- `rotate` — recursions/__init__.py:37-79, up to the `raise`.  (The reshaped copy and the array of zeros made before are not used.) -/
def recursions_rotate (globals : List String) (modes : Modes) (R : RotorsArg) : Py Modes := do
  lookupName globals "np"
  lookupName globals "quaternion"
  match R with
  | .single _ => pure ()
  | .array shape _ => if shape ≠ modes.lead then .error .valueError else pure ()
  lookupName globals "quaternion"
  .error .notImplementedError

/-- `P̆Calculator.__init__` — recursions/associated_legendre_functions.py:54-60, for an integer `n_max`; what comes after the two uses of
the name `sf` is not modelled. -/
def legendre_init (globals : List String) (n_max : ℤ) (rest : Py Unit) : Py Unit := do
  if n_max < 0 then .error .valueError
  lookupName globals "sf"
  rest

/-- `P̆ₙₘ` — recursions/associated_legendre_functions.py:39-50: there is nothing but a documentation string. -/
def legendre_P (_θ _sinθ _cosθ : ℝ) (_max_n : ℤ) (_g _h : List ℝ) : Py (Option (List ℝ)) := .ok none

end SF
