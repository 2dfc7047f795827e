import Verif.Model.Index
import Mathlib.Data.Nat.Choose.Basic
import Mathlib.Data.Nat.Factorial.Basic

/-!
# Model of the coefficient tables

`_generate_coefficients.py` writes the tables with counter loops; the functions in
`__init__.py` read them at closed-form offsets.  The table limit `ell_max` (32 in the shipped
package, `__init__.py:34`) is an argument `L`.
-/

set_option autoImplicit false

namespace SF

/-- `factorials` — spherical_functions/__init__.py:46. -/
def factorials : List ℝ := (List.range 171).map fun i => ((Nat.factorial i : ℕ) : ℝ)

/-- `factorial` — spherical_functions/__init__.py:49-51. -/
def factorial (i : ℤ) : Py ℝ := rd factorials i

/-- `mpmath.fac` on a nonnegative integer. -/
def mpFac (n : ℤ) : ℝ := ((Nat.factorial n.toNat : ℕ) : ℝ)

/-- `mpmath.binomial` on nonnegative integers. -/
def mpBinomial (n k : ℤ) : ℝ := ((Nat.choose n.toNat k.toNat : ℕ) : ℝ)

/-- `_generate_coefficients.py:11-16`. -/
def gen_binomial (junk : ℕ → ℝ) (L : ℤ) : Py (List ℝ) := do
  let buf ← npEmpty junk (((2 * L + 1) * (2 * L + 2)) / 2)
  let st ← forL (pyRange 0 (2 * L + 1)) ((0 : ℤ), buf) fun n st =>
    forL (pyRange 0 (n + 1)) st fun k st => do
      let b ← wr st.2 st.1 (mpBinomial n k)
      return (st.1 + 1, b)
  return st.2

/-- `binomial_coefficient` — spherical_functions/__init__.py:57-59. -/
def binomial_coefficient (table : List ℝ) (n k : ℤ) : Py ℝ := rd table ((n * (n + 1)) / 2 + k)

/-- `_generate_coefficients.py:20-25`. -/
noncomputable def gen_ladder (junk : ℕ → ℝ) (L : ℤ) : Py (List ℝ) := do
  let buf ← npEmpty junk ((2 * L + 3) * L + 1)
  let st ← forL (pyRange 0 (2 * L + 1)) ((0 : ℤ), buf) fun twoell st =>
    forL (pyRange2 (-twoell) (twoell + 1)) st fun twom st => do
      let b ← wr st.2 st.1
        (Real.sqrt (((twoell * (twoell + 2) - twom * (twom + 2) : ℤ) : ℝ) / 4))
      return (st.1 + 1, b)
  return st.2

/-- `_ladder_operator_coefficient` — spherical_functions/__init__.py:65-67. -/
def ladder_operator_coefficient_two (table : List ℝ) (twoell twom : ℤ) : Py ℝ :=
  rd table (((twoell + 2) * twoell + twom) / 2)

/-- `ladder_operator_coefficient` — spherical_functions/__init__.py:69-71. -/
def ladder_operator_coefficient (table : List ℝ) (ell m : ℚ) : Py ℝ :=
  ladder_operator_coefficient_two table (pyRound (2 * ell)) (pyRound (2 * m))

/-- The value computed at `_generate_coefficients.py:46-50`. -/
noncomputable def wigner_entry (twoell twomp twom : ℤ) : ℝ :=
  let tworho_min := max 0 (twomp - twom)
  Real.sqrt (mpFac ((twoell + twom) / 2) * mpFac ((twoell - twom) / 2)
      / (mpFac ((twoell + twomp) / 2) * mpFac ((twoell - twomp) / 2)))
    * mpBinomial ((twoell + twomp) / 2) (tworho_min / 2)
    * mpBinomial ((twoell - twomp) / 2) ((twoell - twom - tworho_min) / 2)

/-- `_generate_coefficients.py:41-51`. -/
noncomputable def gen_Wigner (junk : ℕ → ℝ) (L : ℤ) : Py (List ℝ) := do
  let buf ← npEmpty junk ((8 * L ^ 3 + 18 * L ^ 2 + 13 * L + 3) / 3)
  let st ← forL (pyRange 0 (2 * L + 1)) ((0 : ℤ), buf) fun twoell st =>
    forL (pyRange2 (-twoell) (twoell + 1)) st fun twomp st =>
      forL (pyRange2 (-twoell) (twoell + 1)) st fun twom st => do
        let b ← wr st.2 st.1 (wigner_entry twoell twomp twom)
        return (st.1 + 1, b)
  return st.2

/-- `_Wigner_coefficient` — spherical_functions/__init__.py:81-83. -/
def Wigner_coefficient_two (table : List ℝ) (twoell twomp twom : ℤ) : Py ℝ :=
  rd table (Wigner_index twoell twomp twom)

/-- `Wigner_coefficient` — spherical_functions/__init__.py:85-87. -/
def Wigner_coefficient (table : List ℝ) (ell mp m : ℚ) : Py ℝ :=
  Wigner_coefficient_two table (pyRound (2 * ell)) (pyRound (2 * mp)) (pyRound (2 * m))

end SF
