import Verif.Model.WignerD
import Mathlib.Algebra.Order.Floor.Ring
import Mathlib.Analysis.SpecialFunctions.Trigonometric.Basic

/-!
# Model of the argument handling of `Wigner_D_element` (`WignerD/__init__.py:31-147`)
-/

set_option autoImplicit false

namespace SF

/-- A Python number: `int`, `float` or `complex`.  All are instances of `numbers.Number` and of `numbers.Complex`. -/
inductive PyNum
  | int (n : ℤ)
  | flt (x : ℝ)
  | cpx (z : ℂ)

/-- One positional argument of `Wigner_D_element`. -/
inductive DArg
  /-- one-dimensional ndarray of quaternions (w,x,y,z) -/
  | rotors (Rs : List (ℝ × ℝ × ℝ × ℝ))
  /-- `np.quaternion` -/
  | rotor (R : ℝ × ℝ × ℝ × ℝ)
  /-- a Python number -/
  | num (n : PyNum)
  /-- a list `[ell, ...]` -/
  | ells (l : List ℝ)
  /-- a list `[[ell,mp,m], ...]` -/
  | triples (l : List (ℝ × ℝ × ℝ))

/-- Python's `round` (ties to even) on a float. -/
noncomputable def pyRoundR (x : ℝ) : ℤ :=
  let f := ⌊x⌋
  if x - f < 1 / 2 then f
  else if 1 / 2 < x - f then f + 1
  else if f % 2 = 0 then f else f + 1

/-- A number as a float; `float(complex)` is a TypeError. -/
def PyNum.toReal : PyNum → Py ℝ
  | .int n => .ok (n : ℝ)
  | .flt x => .ok x
  | .cpx _ => .error .typeError

/-- A number as a complex. -/
def PyNum.toComplex : PyNum → ℂ
  | .int n => (n : ℂ)
  | .flt x => (x : ℂ)
  | .cpx z => z

/-- `R.a`, from the `quaternion` package: `w + i z`. -/
def quat_a (R : ℝ × ℝ × ℝ × ℝ) : ℂ := ⟨R.1, R.2.2.2⟩
/-- `R.b`, from the `quaternion` package: `y + i x`. -/
def quat_b (R : ℝ × ℝ × ℝ × ℝ) : ℂ := ⟨R.2.2.1, R.2.1⟩

/-- `quaternion.from_euler_angles` (external package): `exp(alpha z/2) exp(beta y/2) exp(gamma z/2)` in components. -/
noncomputable def from_euler_angles (alpha beta gamma : ℝ) : ℝ × ℝ × ℝ × ℝ :=
  (Real.cos (beta / 2) * Real.cos ((alpha + gamma) / 2),
   -Real.sin (beta / 2) * Real.sin ((alpha - gamma) / 2),
   Real.sin (beta / 2) * Real.cos ((alpha - gamma) / 2),
   Real.cos (beta / 2) * Real.sin ((alpha + gamma) / 2))

/-- Return value: a scalar or an array. -/
inductive DRes
  | scalar (z : ℂ)
  | array (l : List ℂ)

/-- The comprehensions at WignerD/__init__.py:121-123 and 128-131 (before `np.array`). -/
def ell_triples (twoell : ℤ) : List (ℤ × ℤ × ℤ) :=
  (pyRange2 (-twoell) (twoell + 1)).flatMap fun twomp =>
    (pyRange2 (-twoell) (twoell + 1)).map fun twom => (twoell, twomp, twom)

/-- `Wigner_D_element`, finding the indices — WignerD/__init__.py:104-142.  `rest` is `args[mode_offset:]`.
Returns the index array and `return_scalar`.  Rows of a two-dimensional `indices` are triples here (rows of another length
make the unpacking fail). -/
noncomputable def find_indices (L : ℤ) (error_on_bad_indices : Bool) (rest : List DArg) :
    Py (List (ℤ × ℤ × ℤ) × Bool) :=
  match rest with
  | [.num a, .num b, .num c] => do
      let ell ← a.toReal
      let mp ← b.toReal
      let m ← c.toReal
      let t := (pyRoundR (2 * ell), pyRoundR (2 * mp), pyRoundR (2 * m))
      if error_on_bad_indices && !(check_valid_indices L t.1 t.2.1 t.2.2) then .error .valueError
      else return ([t], true)
  | [_, _, _] => .error .typeError
  | [.num _] => .error .indexError  -- `indices[0]` on a 0-d array, l.120
  | [.ells l] =>
      if l = [] then .error .valueError
      else
        let indices := (l.map fun ell => pyRoundR (2 * ell)).flatMap ell_triples
        -- an empty comprehension gives a 1-d array, which does not match the kernel's signature
        if indices = [] then .error .typeError else .ok (indices, false)
  | [.triples l] =>
      let indices := l.map fun t => (pyRoundR (2 * t.1), pyRoundR (2 * t.2.1), pyRoundR (2 * t.2.2))
      if error_on_bad_indices && indices.any (fun t => !(check_valid_indices L t.1 t.2.1 t.2.2)) then
        .error .valueError
      else .ok (indices, false)
  | [_] => .error .typeError
  | _ => .error .valueError

/-- `Wigner_D_element`, finding the rotation — WignerD/__init__.py:80-102.  Returns (Ra, Rb, mode_offset). -/
noncomputable def find_rotation (args : List DArg) : Py (ℂ × ℂ × ℕ) :=
  match args with
  | .rotor R :: _ => .ok (quat_a R, quat_b R, 1)
  | .num a :: .num b :: .num c :: _ => do
      let R := from_euler_angles (← a.toReal) (← b.toReal) (← c.toReal)
      return (quat_a R, quat_b R, 3)
  | [.num _, .num _] => .error .indexError  -- `args[2]`
  | [.num _] => .error .indexError  -- `args[1]`
  | .num a :: .num b :: _ => .ok (a.toComplex, b.toComplex, 2)
  | _ => .error .valueError

/-- `Wigner_D_element` — WignerD/__init__.py:31-147.  `error_on_bad_indices` is the binding in the `WignerD` module.
In the array-of-rotors branch (l.75-78) the indices must be ints (the kernel is typed `int64`). -/
noncomputable def Wigner_D_element (table : List ℝ) (L : ℤ) (error_on_bad_indices : Bool) (junk : ℕ → ℂ)
    (args : List DArg) : Py DRes :=
  match args with
  | .rotors Rs :: rest => do
      let elements ← npEmpty junk Rs.length
      match rest with
      | .num (.int ell) :: .num (.int mp) :: .num (.int m) :: _ =>
          return .array (← Wigner_D_elements_kernel table Rs ell mp m elements)
      | _ :: _ :: _ :: _ => .error .typeError
      | _ => .error .indexError
  | _ => do
      let (Ra, Rb, mode_offset) ← find_rotation args
      let (indices, return_scalar) ← find_indices L error_on_bad_indices (args.drop mode_offset)
      let elements ← npEmpty junk indices.length
      let elements ← Wigner_D_element_kernel table Ra Rb indices elements
      if return_scalar then return .scalar (← rd elements 0)
      else return .array elements

/-- The two module attributes involved in `sf.error_on_bad_indices` — `__init__.py:36` defines it, and
`WignerD/__init__.py:18-21` (`from .. import error_on_bad_indices`) binds its value to a second name. -/
structure ModuleFlags where
  sf : Bool
  WignerD : Bool

/-- State after `import spherical_functions as sf`. -/
def ModuleFlags.imported : ModuleFlags := ⟨true, true⟩

/-- `sf.error_on_bad_indices = b`: rebinding an attribute of the package module only. -/
def ModuleFlags.assign (s : ModuleFlags) (b : Bool) : ModuleFlags := { s with sf := b }

/-- A call `sf.Wigner_D_element(*args)` in module state `s`: the function reads its own module's global. -/
noncomputable def call_Wigner_D_element (s : ModuleFlags) (table : List ℝ) (L : ℤ) (junk : ℕ → ℂ)
    (args : List DArg) : Py DRes :=
  Wigner_D_element table L s.WignerD junk args

end SF
