import Verif.Model.Tables
import Mathlib.Analysis.SpecialFunctions.Complex.Arg
import Mathlib.Analysis.SpecialFunctions.Pow.Real

/-!
# Model of the Wigner D kernels (`WignerD/__init__.py`)

Floats are real numbers, complex numbers are complex numbers (no rounding, overflow or NaN).  `table` is the
`_Wigner_coefficients` array.  `cmath.polar(z)` is `(‖z‖, arg z)`.
-/

set_option autoImplicit false

namespace SF

open scoped Classical in
/-- Division of floats in numba: division by zero raises. -/
noncomputable def pyDiv (x y : ℝ) : Py ℝ := if y = 0 then .error .zeroDivision else .ok (x / y)

/-- `cmath.rect(r, phi)`. -/
noncomputable def rect (r phi : ℝ) : ℂ := (r : ℂ) * Complex.exp ((phi : ℂ) * Complex.I)

open scoped Classical in
/-- `z ** n` for a complex `z` and an integer `n`; `0 ** negative` is an error. -/
noncomputable def cpowInt (z : ℂ) (n : ℤ) : Py ℂ :=
  if z = 0 ∧ n < 0 then .error .zeroDivision else .ok (z ^ n)

/-- `epsilon` — spherical_functions/__init__.py:35 (the decimal value, not its binary rounding). -/
noncomputable def epsilon : ℝ := 1 / 10 ^ 15

/-- The inner loop `for rho in range(rhoMax, rhoMin, -1): Sum *= ...; Sum += 1`, starting from
`Sum = 1.0` — WignerD/__init__.py:475-478, 546-549, 654-657, 669-672;
SWSH/__init__.py:179-182, 222-225, 320-323, 335-338. -/
noncomputable def hornerLoop (x : ℝ) (N1 N2 M rhoMax rhoMin : ℤ) : Py ℝ :=
  forL (pyRangeDown rhoMax rhoMin) (1 : ℝ) fun rho Sum => do
    let q ← pyDiv (x * (((N1 - rho) * (N2 - rho) : ℤ) : ℝ)) ((rho * (M + rho) : ℤ) : ℝ)
    return Sum * q + 1

/-- The same loop with doubled indices and a step of 2 — WignerD/__init__.py:235-238, 272-275. -/
noncomputable def hornerLoop2 (x : ℝ) (twoN1 twoN2 twoM tworhoMax tworhoMin : ℤ) : Py ℝ :=
  forL (pyRangeDown2 tworhoMax tworhoMin) (1 : ℝ) fun tworho Sum => do
    let q ← pyDiv (x * (((twoN1 - tworho) * (twoN2 - tworho) : ℤ) : ℝ))
      ((tworho * (twoM + tworho) : ℤ) : ℝ)
    return Sum * q + 1

/-- `_check_valid_indices` — WignerD/__init__.py:24-28, with the table limit `L` for `sf_ell_max`. -/
def check_valid_indices (L twoell twomp twom : ℤ) : Bool :=
  if twoell > 2 * L ∨ |twomp| > twoell ∨ |twom| > twoell then false else true

/-! ## `_Wigner_D_element` -/

/-- Value stored by the branch `ra <= epsilon` — WignerD/__init__.py:181-189. -/
noncomputable def elem_ra_small (Rb : ℂ) (twoell twomp twom : ℤ) : Py ℂ :=
  if twomp ≠ -twom ∨ |twomp| > twoell ∨ |twom| > twoell then .ok 0
  else if (twoell - twom) % 4 = 0 then cpowInt Rb twom
  else do return -(← cpowInt Rb twom)

/-- Value stored by the branch `rb <= epsilon` — WignerD/__init__.py:192-197. -/
noncomputable def elem_rb_small (Ra : ℂ) (twoell twomp twom : ℤ) : Py ℂ :=
  if twomp ≠ twom ∨ |twomp| > twoell ∨ |twom| > twoell then .ok 0
  else cpowInt Ra twom

open scoped Classical in
/-- Value stored by the branch `ra < rb` — WignerD/__init__.py:202-239. -/
noncomputable def elem_ra_lt_rb (table : List ℝ) (ra phia rb phib : ℝ) (twoell twomp twom : ℤ) : Py ℂ :=
  let absRRatioSquared := -ra * ra / (rb * rb)
  if |twomp| > twoell ∨ |twom| > twoell then .ok 0
  else do
    let tworhoMin := max 0 (-twomp - twom)
    let c ← Wigner_coefficient_two table twoell (-twomp) twom
    let Prefactor := rect
      (c * rb ^ ((twoell : ℝ) - ((twom + twomp : ℤ) : ℝ) / 2 - tworhoMin)
         * ra ^ (((twom + twomp : ℤ) : ℝ) / 2 + tworhoMin))
      (phib * ((twom - twomp : ℤ) : ℝ) / 2 + phia * ((twom + twomp : ℤ) : ℝ) / 2)
    if Prefactor = 0 then .ok 0
    else do
      let Prefactor := if (twoell - twom - tworhoMin) % 4 ≠ 0 then Prefactor * (-1) else Prefactor
      let tworhoMax := min (twoell - twomp) (twoell - twom)
      let Sum ← hornerLoop2 absRRatioSquared (twoell - twomp + 2) (twoell - twom + 2) (twom + twomp)
        tworhoMax tworhoMin
      return Prefactor * (Sum : ℂ)

open scoped Classical in
/-- Value stored by the branch `ra >= rb` — WignerD/__init__.py:241-276. -/
noncomputable def elem_ra_ge_rb (table : List ℝ) (ra phia rb phib : ℝ) (twoell twomp twom : ℤ) : Py ℂ :=
  let absRRatioSquared := -rb * rb / (ra * ra)
  if |twomp| > twoell ∨ |twom| > twoell then .ok 0
  else do
    let tworhoMin := max 0 (twomp - twom)
    let c ← Wigner_coefficient_two table twoell twomp twom
    let Prefactor := rect
      (c * ra ^ ((twoell : ℝ) - (twom : ℝ) / 2 + (twomp : ℝ) / 2 - tworhoMin)
         * rb ^ ((twom : ℝ) / 2 - (twomp : ℝ) / 2 + tworhoMin))
      (phia * ((twom + twomp : ℤ) : ℝ) / 2 + phib * ((twom - twomp : ℤ) : ℝ) / 2)
    if Prefactor = 0 then .ok 0
    else do
      let Prefactor := if tworhoMin % 4 ≠ 0 then Prefactor * (-1) else Prefactor
      let tworhoMax := min (twoell + twomp) (twoell - twom)
      let Sum ← hornerLoop2 absRRatioSquared (twoell + twomp + 2) (twoell - twom + 2) (twom - twomp)
        tworhoMax tworhoMin
      return Prefactor * (Sum : ℂ)

open scoped Classical in
/-- `_Wigner_D_element` — WignerD/__init__.py:149-276: for each `i` it reads `indices[i]` and stores into `elements[i]`. -/
noncomputable def Wigner_D_element_kernel (table : List ℝ) (Ra Rb : ℂ) (indices : List (ℤ × ℤ × ℤ))
    (elements : List ℂ) : Py (List ℂ) :=
  let ra := ‖Ra‖
  let phia := Complex.arg Ra
  let rb := ‖Rb‖
  let phib := Complex.arg Rb
  let N : ℤ := indices.length
  if ra ≤ epsilon then
    forL (pyRange 0 N) elements fun i elements => do
      let t ← rd indices i
      let v ← elem_ra_small Rb t.1 t.2.1 t.2.2
      wr elements i v
  else if rb ≤ epsilon then
    forL (pyRange 0 N) elements fun i elements => do
      let t ← rd indices i
      let v ← elem_rb_small Ra t.1 t.2.1 t.2.2
      wr elements i v
  else if ra < rb then
    forL (pyRange 0 N) elements fun i elements => do
      let t ← rd indices i
      let v ← elem_ra_lt_rb table ra phia rb phib t.1 t.2.1 t.2.2
      wr elements i v
  else
    forL (pyRange 0 N) elements fun i elements => do
      let t ← rd indices i
      let v ← elem_ra_ge_rb table ra phia rb phib t.1 t.2.1 t.2.2
      wr elements i v

/-! ## `_Wigner_D_elements`: an array of rotors, one index triple -/

open scoped Classical in
/-- `_Wigner_D_elements` — WignerD/__init__.py:580-672.  `Rs` holds the float components (w, x, y, z) of each
rotor (`quaternion.as_float_array`).  `Prefactor2`, which the code computes here and never uses, is omitted. -/
noncomputable def Wigner_D_elements_kernel (table : List ℝ) (Rs : List (ℝ × ℝ × ℝ × ℝ)) (ell mp m : ℤ)
    (values : List ℂ) : Py (List ℂ) :=
  let N : ℤ := Rs.length
  if |m| > ell ∨ |mp| > ell then
    forL (pyRange 0 N) values fun i values => wr values i 0
  else do
    let rhoMin_a := max 0 (mp - m)
    let rhoMax_a := min (ell + mp) (ell - m)
    let coefficient_a ← Wigner_coefficient table ell mp m
    let coefficient_a := if rhoMin_a % 2 ≠ 0 then coefficient_a * (-1) else coefficient_a
    let N1_a := ell + mp + 1
    let N2_a := ell - m + 1
    let M_a := m - mp
    let rhoMin_b := max 0 (-m - mp)
    let rhoMax_b := min (ell - mp) (ell - m)
    let coefficient_b ← Wigner_coefficient table ell (-mp) m
    let coefficient_b := if (ell + m + rhoMin_b) % 2 ≠ 0 then coefficient_b * (-1) else coefficient_b
    let N1_b := ell - mp + 1
    let N2_b := ell - m + 1
    let M_b := m + mp
    forL (pyRange 0 N) values fun i values => do
      let R ← rd Rs i
      let Ra : ℂ := ⟨R.1, R.2.2.2⟩
      let ra := ‖Ra‖
      let phia := Complex.arg Ra
      let Rb : ℂ := ⟨R.2.2.1, R.2.1⟩
      let rb := ‖Rb‖
      let phib := Complex.arg Rb
      let v ← (
        if ra ≤ epsilon then
          if mp ≠ -m then pure 0
          else if (ell + mp) % 2 = 0 then cpowInt Rb (-2 * mp)
          else do return -(← cpowInt Rb (-2 * mp))
        else if rb ≤ epsilon then
          if mp ≠ m then pure 0 else cpowInt Ra (2 * mp)
        else if ra < rb then
          let absRRatioSquared := -ra * ra / (rb * rb)
          let d := coefficient_b * rb ^ (2 * ell - m - mp - 2 * rhoMin_b) * ra ^ (m + mp + 2 * rhoMin_b)
          if d = 0 then pure 0
          else do
            let Prefactor1 := rect d (phib * ((m - mp : ℤ) : ℝ) + phia * ((m + mp : ℤ) : ℝ))
            let Sum ← hornerLoop absRRatioSquared N1_b N2_b M_b rhoMax_b rhoMin_b
            return Prefactor1 * (Sum : ℂ)
        else
          let absRRatioSquared := -rb * rb / (ra * ra)
          let d := coefficient_a * ra ^ (2 * ell - m + mp - 2 * rhoMin_a) * rb ^ (m - mp + 2 * rhoMin_a)
          if d = 0 then pure 0
          else do
            let Prefactor1 := rect d (phia * ((m + mp : ℤ) : ℝ) + phib * ((m - mp : ℤ) : ℝ))
            let Sum ← hornerLoop absRRatioSquared N1_a N2_a M_a rhoMax_a rhoMin_a
            return Prefactor1 * (Sum : ℂ) : Py ℂ)
      wr values i v

/-! ## `_Wigner_D_matrices` -/

/-- Zero fill and antidiagonal, branch `ra <= epsilon` — WignerD/__init__.py:425-436. -/
noncomputable def mats_ra_small (Rb : ℂ) (ell_min ell : ℤ) (matrices : List ℂ) : Py (List ℂ) := do
  let i_ell := linear_matrix_offset ell ell_min
  let matrices ← forL (pyRange 0 ((2 * ell + 1) ^ 2)) matrices fun i matrices => wr matrices (i_ell + i) 0
  forL (pyRange (-ell) (ell + 1)) matrices fun mpmm matrices => do
    let i_mpmm := linear_matrix_index ell mpmm (-mpmm)
    if (ell + mpmm) % 2 = 0 then do
      wr matrices (i_ell + i_mpmm) (← cpowInt Rb (-2 * mpmm))
    else do
      wr matrices (i_ell + i_mpmm) (-(← cpowInt Rb (-2 * mpmm)))

/-- Zero fill and diagonal, branch `rb <= epsilon` — WignerD/__init__.py:439-445. -/
noncomputable def mats_rb_small (Ra : ℂ) (ell_min ell : ℤ) (matrices : List ℂ) : Py (List ℂ) := do
  let i_ell := linear_matrix_offset ell ell_min
  let matrices ← forL (pyRange 0 ((2 * ell + 1) ^ 2)) matrices fun i matrices => wr matrices (i_ell + i) 0
  forL (pyRange (-ell) (ell + 1)) matrices fun mpm matrices => do
    let i_mpm := linear_matrix_diagonal_index ell mpm
    wr matrices (i_ell + i_mpm) (← cpowInt Ra (2 * mpm))

/-- The stores of zeros when `d == 0` — WignerD/__init__.py:466-477, 525-536 (same text in both branches). -/
noncomputable def mats_store_zero (i_ell ell mp m : ℤ) (matrices : List ℂ) : Py (List ℂ) := do
  let matrices ← wr matrices (i_ell + linear_matrix_index ell mp m) 0
  if |m| ≠ |mp| then do
    let matrices ← wr matrices (i_ell + linear_matrix_index ell (-mp) (-m)) 0
    let matrices ← wr matrices (i_ell + linear_matrix_index ell m mp) 0
    wr matrices (i_ell + linear_matrix_index ell (-m) (-mp)) 0
  else if m ≠ 0 then
    wr matrices (i_ell + linear_matrix_index ell (-mp) (-m)) 0
  else return matrices

/-- The stores of an element and its mirror images — WignerD/__init__.py:492-513, 551-572
(same text in both branches). -/
noncomputable def mats_store (i_ell ell mp m : ℤ) (Prefactor1 Prefactor2 : ℂ) (Sum : ℝ) (matrices : List ℂ) :
    Py (List ℂ) := do
  let matrices ← wr matrices (i_ell + linear_matrix_index ell mp m) (Prefactor1 * Sum)
  if |m| ≠ |mp| then do
    let matrices ← if (m + mp) % 2 = 0 then do
        let matrices ← wr matrices (i_ell + linear_matrix_index ell (-mp) (-m))
          ((starRingEnd ℂ) Prefactor1 * Sum)
        wr matrices (i_ell + linear_matrix_index ell (-m) (-mp)) (Prefactor2 * Sum)
      else do
        let matrices ← wr matrices (i_ell + linear_matrix_index ell (-mp) (-m))
          (-(starRingEnd ℂ) Prefactor1 * Sum)
        wr matrices (i_ell + linear_matrix_index ell (-m) (-mp)) (-Prefactor2 * Sum)
    wr matrices (i_ell + linear_matrix_index ell m mp) ((starRingEnd ℂ) Prefactor2 * Sum)
  else if m ≠ 0 then
    if (m + mp) % 2 = 0 then
      wr matrices (i_ell + linear_matrix_index ell (-mp) (-m)) ((starRingEnd ℂ) Prefactor1 * Sum)
    else
      wr matrices (i_ell + linear_matrix_index ell (-mp) (-m)) (-(starRingEnd ℂ) Prefactor1 * Sum)
  else return matrices

open scoped Classical in
/-- Body of the loops over `mp`, `m` in the branch `ra < rb` — WignerD/__init__.py:454-513. -/
noncomputable def mats_ra_lt_rb (table : List ℝ) (ra phia rb phib : ℝ) (ell_min ell mp m : ℤ)
    (matrices : List ℂ) : Py (List ℂ) := do
  let absRRatioSquared := -ra * ra / (rb * rb)
  let i_ell := linear_matrix_offset ell ell_min
  let rhoMin := max 0 (-mp - m)
  let c ← Wigner_coefficient table ell (-mp) m
  let d := c * rb ^ (2 * ell - m - mp - 2 * rhoMin) * ra ^ (m + mp + 2 * rhoMin)
  if d = 0 then mats_store_zero i_ell ell mp m matrices
  else do
    let d := if (ell + m + rhoMin) % 2 ≠ 0 then d * (-1) else d
    let Prefactor1 := rect d (phib * ((m - mp : ℤ) : ℝ) + phia * ((m + mp : ℤ) : ℝ))
    let Prefactor2 := rect d ((phib + Real.pi) * ((m - mp : ℤ) : ℝ) - phia * ((m + mp : ℤ) : ℝ))
    let rhoMax := min (ell - mp) (ell - m)
    let Sum ← hornerLoop absRRatioSquared (ell - mp + 1) (ell - m + 1) (m + mp) rhoMax rhoMin
    mats_store i_ell ell mp m Prefactor1 Prefactor2 Sum matrices

open scoped Classical in
/-- Body of the loops over `mp`, `m` in the branch `ra >= rb` — WignerD/__init__.py:515-577. -/
noncomputable def mats_ra_ge_rb (table : List ℝ) (ra phia rb phib : ℝ) (ell_min ell mp m : ℤ)
    (matrices : List ℂ) : Py (List ℂ) := do
  let absRRatioSquared := -rb * rb / (ra * ra)
  let i_ell := linear_matrix_offset ell ell_min
  let rhoMin := max 0 (mp - m)
  let c ← Wigner_coefficient table ell mp m
  let d := c * ra ^ (2 * ell - m + mp - 2 * rhoMin) * rb ^ (m - mp + 2 * rhoMin)
  if d = 0 then mats_store_zero i_ell ell mp m matrices
  else do
    let d := if rhoMin % 2 ≠ 0 then d * (-1) else d
    let Prefactor1 := rect d (phia * ((m + mp : ℤ) : ℝ) + phib * ((m - mp : ℤ) : ℝ))
    let Prefactor2 := rect d (-phia * ((m + mp : ℤ) : ℝ) + (phib + Real.pi) * ((m - mp : ℤ) : ℝ))
    let rhoMax := min (ell + mp) (ell - m)
    let Sum ← hornerLoop absRRatioSquared (ell + mp + 1) (ell - m + 1) (m - mp) rhoMax rhoMin
    mats_store i_ell ell mp m Prefactor1 Prefactor2 Sum matrices

open scoped Classical in
/-- `_Wigner_D_matrices` — WignerD/__init__.py:391-577. -/
noncomputable def Wigner_D_matrices_kernel (table : List ℝ) (Ra Rb : ℂ) (ell_min ell_max : ℤ)
    (matrices : List ℂ) : Py (List ℂ) :=
  let ra := ‖Ra‖
  let phia := Complex.arg Ra
  let rb := ‖Rb‖
  let phib := Complex.arg Rb
  if ra ≤ epsilon then
    forL (pyRange ell_min (ell_max + 1)) matrices fun ell matrices =>
      mats_ra_small Rb ell_min ell matrices
  else if rb ≤ epsilon then
    forL (pyRange ell_min (ell_max + 1)) matrices fun ell matrices =>
      mats_rb_small Ra ell_min ell matrices
  else if ra < rb then
    forL (pyRange ell_min (ell_max + 1)) matrices fun ell matrices =>
      forL (pyRange (-ell) 1) matrices fun mp matrices =>
        forL (pyRange mp (-mp + 1)) matrices fun m matrices =>
          mats_ra_lt_rb table ra phia rb phib ell_min ell mp m matrices
  else
    forL (pyRange ell_min (ell_max + 1)) matrices fun ell matrices =>
      forL (pyRange (-ell) 1) matrices fun mp matrices =>
        forL (pyRange mp (-mp + 1)) matrices fun m matrices =>
          mats_ra_ge_rb table ra phia rb phib ell_min ell mp m matrices

/-- `Wigner_D_matrices` — WignerD/__init__.py:345-388.  `ell_min`, `ell_max` are rationals, so that the integrality test
can be expressed; `junk` is the uninitialised memory of `np.empty`.  A rotor is its pair `(R.a, R.b)`.  An `ell` within `1e-10` of an
integer that is not an integer is passed on by the code to integer-typed functions; here it is truncated. -/
noncomputable def Wigner_D_matrices (table : List ℝ) (junk : ℕ → ℂ) (Ra Rb : ℂ) (ell_min ell_max : ℚ) :
    Py (List ℂ) :=
  if |(pyRound ell_max : ℚ) - ell_max| > 1 / 10 ^ 10 ∨ |(pyRound ell_min : ℚ) - ell_min| > 1 / 10 ^ 10 then
    .error .valueError
  else do
    let matrices ← npEmpty junk (LMpM_total_size (pyIntQ ell_min) (pyIntQ ell_max))
    Wigner_D_matrices_kernel table Ra Rb (pyIntQ ell_min) (pyIntQ ell_max) matrices

end SF
