import Verif.Py
import Verif.Model.WignerDApi
import Mathlib.Analysis.SpecialFunctions.Pow.Real
import Mathlib.Analysis.SpecialFunctions.Pow.Complex
import Mathlib.Analysis.SpecialFunctions.Trigonometric.Basic

/-!
# Model of the small helpers in `recursions/` and of `theta_phi`

`recursions/complex_powers.py`, `quaternion_angles` (`recursions/__init__.py`), the index functions of
`recursions/wignerH.py` and `theta_phi` (`__init__.py`).  Floating point numbers are real numbers.
-/

set_option autoImplicit false

namespace SF

/-! ## `recursions/wignerH.py`: index functions -/

/-- recursions/wignerH.py:57-59 -/
def wedge_size (ell_max : ℤ) : ℤ := (ell_max + 1) * (ell_max + 2) * (2 * ell_max + 3) / 6

/-- recursions/wignerH.py:61-83 (the commented-out lines are not part of the program) -/
def wedge_index (ell mp m : ℤ) : ℤ :=
  if 0 ≤ mp then (2 * ell * (ell + 1) * (ell + 2) + 3 * mp * (2 * ell - mp + 1) + 6 * m) / 6
  else (2 * ell * (ell + 1) * (ell + 2) + 3 * mp * (2 * ell + mp + 3) + 6 * m) / 6

/-- recursions/wignerH.py:86-127; the Python list `[ell, m', m]` is a triple. -/
def wedgeify_index (ell mp m : ℤ) : ℤ × ℤ × ℤ :=
  if m < -mp then
    if m < mp then (ell, -mp, -m) else (ell, -m, -mp)
  else
    if m < mp then (ell, m, mp) else (ell, mp, m)

/-- `sign` — recursions/wignerH.py:130-135 -/
def signH (m : ℤ) : ℤ := if 0 ≤ m then 1 else -1

/-- recursions/wignerH.py:138-145 -/
def nm_index (n m : ℤ) : ℤ := m + n * (n + 1)

/-- recursions/wignerH.py:148-155 -/
def nabsm_index (n absm : ℤ) : ℤ := absm + n * (n + 1) / 2

/-- recursions/wignerH.py:158-167 -/
def nmpm_index (n mp m : ℤ) : ℤ := (((4 * n + 6) * n + 6 * mp + 5) * n + 3 * (m + mp)) / 3

/-! ## `recursions/complex_powers.py` -/

/-- `np.sqrt` of a complex number: the principal square root. -/
noncomputable def npSqrtC (z : ℂ) : ℂ := z ^ ((1 : ℂ) / 2)

open Classical in
/-- The `while` loop at recursions/complex_powers.py:52-54; `fuel` bounds the number of tests of the loop condition
(running out of it is the model's way of not terminating). -/
noncomputable def quadLoop : ℕ → ℂ → ℂ → Py (ℂ × ℂ)
  | 0, _, _ => .error .outOfFuel
  | fuel + 1, z, th =>
    if z.re < 0 ∨ z.im < 0 then quadLoop fuel (z / Complex.I) (th * Complex.I) else .ok (z, th)

/-- Body of the loop at recursions/complex_powers.py:61-65 (one row of `zpowers`). -/
def powerStep (t : ℝ) (th : ℂ) (m : ℤ) (st : List ℂ × ℂ × ℂ) : Py (List ℂ × ℂ × ℂ) := do
  let (row, dz, clock) := st
  let prev ← rd row (m - 1)
  let row ← wr row m (prev + dz)
  let cur ← rd row m
  let dz := dz + t * cur
  let row ← upd row (m - 1) (fun x => x * clock)
  return (row, dz, clock * th)

/-- Loop body at recursions/complex_powers.py:50-66 for one `i`; it touches row `i` of `zpowers` only.
`np.sqrt` of a real number is real here (the code's argument is `1 - cos²` and non-negative for unit `z`). -/
noncomputable def powersRow (fuel : ℕ) (z : ℂ) (M : ℤ) (row : List ℂ) : Py (List ℂ) := do
  let (z, th) ← quadLoop fuel z 1
  let row ← wr row 0 1
  let row ← wr row 1 z
  let dc : ℝ := -2 * (npSqrtC z).im ^ 2
  let t : ℝ := 2 * dc
  let z1 ← rd row 1
  let dz : ℂ := dc * (1 + 2 * z1) + Complex.I * Real.sqrt (-dc * (2 + dc))
  let (row, _, clock) ← forL (pyRange 2 (M + 1)) (row, dz, th) (powerStep t th)
  upd row M (fun x => x * clock)

/-- `_complex_powers` — recursions/complex_powers.py:46-66; `zpowers` is a list of rows. -/
noncomputable def _complex_powers (fuel : ℕ) (zravel : List ℂ) (M : ℤ) (zpowers : List (List ℂ)) :
    Py (List (List ℂ)) :=
  forL (pyRange 0 zravel.length) zpowers fun i zp => do
    let z ← rd zravel i
    let row ← rd zp i
    let row ← powersRow fuel z M row
    wr zp i row

/-- An ndarray given as its number of axes and, when there are two axes, its rows. -/
structure OutArr where
  ndim : ℕ
  rows : List (List ℂ)

/-- `complex_powers` — recursions/complex_powers.py:7-43.  `shape` and `z` are the shape and the raveled values of the array `z`;
the result is the shape and the raveled values.  A supplied `zpowers` with other than two axes cannot be indexed with two indices
(numba rejects it: TypeError). -/
noncomputable def complex_powers (fuel : ℕ) (junk : ℕ → ℕ → ℂ) (shape : List ℕ) (z : List ℂ) (M : ℤ)
    (zpowers : Option OutArr) : Py (List ℕ × List ℂ) := do
  let buf ← match zpowers with
    | some out => if out.ndim = 2 then pure out.rows else throw PyErr.typeError
    | none =>
      if M + 1 < 0 then throw PyErr.valueError
      else pure ((List.range z.length).map fun i => (List.range (M + 1).toNat).map (junk i))
  let out ← _complex_powers fuel z M buf
  if (out.flatten.length : ℤ) = (shape.prod : ℤ) * (M + 1) then
    return (shape ++ [(M + 1).toNat], out.flatten)
  else throw PyErr.valueError

/-! ## `quaternion_angles` -/

/-- Division in numba-compiled code (error model "python"): ZeroDivisionError for a zero divisor. -/
noncomputable def divC (x : ℂ) (y : ℝ) : Py ℂ :=
  open Classical in if y = 0 then .error .zeroDivision else .ok (x / (y : ℂ))

/-- `quaternion_angles` — recursions/__init__.py:13-33.  `R` holds the components `R[0..3]`; the results are `zβ, zp, zm`. -/
noncomputable def quaternion_angles (R : ℝ × ℝ × ℝ × ℝ) : Py (ℂ × ℂ × ℂ) := do
  let a : ℝ := R.1 ^ 2 + R.2.2.2 ^ 2
  let b : ℝ := R.2.1 ^ 2 + R.2.2.1 ^ 2
  let sqrta := Real.sqrt a
  let sqrtb := Real.sqrt b
  let zb ← divC (((a - b : ℝ) : ℂ) + 2 * Complex.I * sqrta * sqrtb) (a + b)
  let zp ← divC ((R.1 : ℂ) + Complex.I * R.2.2.2) sqrta
  let zm ← divC ((R.2.2.1 : ℂ) - Complex.I * R.2.1) sqrtb
  return (zb, zp, zm)

/-! ## `theta_phi` -/

/-- `np.linspace(start, stop, num, endpoint)` (numpy): `div = num - 1` or `num`; step `(stop-start)/div` if `div > 0`;
`start + k*step`, the last one replaced by `stop` if `endpoint`; `num < 0` is a ValueError. -/
noncomputable def npLinspace (start stop : ℝ) (num : ℤ) (endpoint : Bool) : Py (List ℝ) :=
  if num < 0 then .error .valueError
  else
    let div : ℤ := if endpoint then num - 1 else num
    let y : List ℝ := (List.range num.toNat).map fun (k : ℕ) =>
      if 0 < div then start + k * ((stop - start) / div) else start + k * (stop - start)
    .ok (if endpoint ∧ 1 < num then y.set (num - 1).toNat stop else y)

/-- `theta_phi` — __init__.py:295-316; the array as nested lists. -/
noncomputable def theta_phi (n_theta n_phi : ℤ) : Py (List (List (ℝ × ℝ))) := do
  let thetas ← npLinspace 0 Real.pi n_theta true
  thetas.mapM fun theta => do
    let phis ← npLinspace 0 (2 * Real.pi) n_phi false
    return phis.map fun phi => (theta, phi)

end SF
