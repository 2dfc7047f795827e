import Verif.Model.Tables

/-!
# Model of the coefficient tables with finite precision

`Model/Tables.lean` generates the tables with exact real numbers.  Here the operations of mpmath (`mp.dps = 4 * ell_max` digits,
`_generate_coefficients.py:8`) and the conversions to double precision are explicit.  Overflow and underflow do not occur for the
shipped limit and are not modelled.
-/

set_option autoImplicit false

namespace SF

/-- The arithmetic used to generate the tables: `mpmath.fac`, `mpmath.binomial`, `mpmath.sqrt`, `*` and `/` of mpmath numbers, and
`float`, the conversion (of an mpmath number, a Python integer, or a quotient of Python integers) to double precision. -/
structure MpOps where
  fac : ℤ → ℝ
  binomial : ℤ → ℤ → ℝ
  sqrt : ℝ → ℝ
  mul : ℝ → ℝ → ℝ
  div : ℝ → ℝ → ℝ
  float : ℝ → ℝ

/-- `factorials` — spherical_functions/__init__.py:46; `math.factorial` is exact. -/
def factorialsF (M : MpOps) : List ℝ := (List.range 171).map fun i => M.float ((Nat.factorial i : ℕ) : ℝ)

/-- `factorial` — spherical_functions/__init__.py:49-51. -/
def factorialF (M : MpOps) (i : ℤ) : Py ℝ := rd (factorialsF M) i

/-- `_generate_coefficients.py:10-17`. -/
def gen_binomialF (M : MpOps) (junk : ℕ → ℝ) (L : ℤ) : Py (List ℝ) := do
  let buf ← npEmpty junk (((2 * L + 1) * (2 * L + 2)) / 2)
  let st ← forL (pyRange 0 (2 * L + 1)) ((0 : ℤ), buf) fun n st =>
    forL (pyRange 0 (n + 1)) st fun k st => do
      let b ← wr st.2 st.1 (M.float (M.binomial n k))
      return (st.1 + 1, b)
  return st.2

/-- The value computed at `_generate_coefficients.py:23`; the division by 4 is one of Python integers. -/
noncomputable def ladder_entryF (M : MpOps) (twoell twom : ℤ) : ℝ :=
  M.float (M.sqrt (M.float (((twoell * (twoell + 2) - twom * (twom + 2) : ℤ) : ℝ) / 4)))

/-- `_generate_coefficients.py:19-26`. -/
noncomputable def gen_ladderF (M : MpOps) (junk : ℕ → ℝ) (L : ℤ) : Py (List ℝ) := do
  let buf ← npEmpty junk ((2 * L + 3) * L + 1)
  let st ← forL (pyRange 0 (2 * L + 1)) ((0 : ℤ), buf) fun twoell st =>
    forL (pyRange2 (-twoell) (twoell + 1)) st fun twom st => do
      let b ← wr st.2 st.1 (ladder_entryF M twoell twom)
      return (st.1 + 1, b)
  return st.2

/-- The value computed at `_generate_coefficients.py:46-50`. -/
def wigner_entryF (M : MpOps) (twoell twomp twom : ℤ) : ℝ :=
  let tworho_min := max 0 (twomp - twom)
  M.float (M.mul (M.mul (M.sqrt (M.div (M.mul (M.fac ((twoell + twom) / 2)) (M.fac ((twoell - twom) / 2)))
        (M.mul (M.fac ((twoell + twomp) / 2)) (M.fac ((twoell - twomp) / 2)))))
      (M.binomial ((twoell + twomp) / 2) (tworho_min / 2)))
    (M.binomial ((twoell - twomp) / 2) ((twoell - twom - tworho_min) / 2)))

/-- `_generate_coefficients.py:40-53`. -/
def gen_WignerF (M : MpOps) (junk : ℕ → ℝ) (L : ℤ) : Py (List ℝ) := do
  let buf ← npEmpty junk ((8 * L ^ 3 + 18 * L ^ 2 + 13 * L + 3) / 3)
  let st ← forL (pyRange 0 (2 * L + 1)) ((0 : ℤ), buf) fun twoell st =>
    forL (pyRange2 (-twoell) (twoell + 1)) st fun twomp st =>
      forL (pyRange2 (-twoell) (twoell + 1)) st fun twom st => do
        let b ← wr st.2 st.1 (wigner_entryF M twoell twomp twom)
        return (st.1 + 1, b)
  return st.2

/-! ## What is assumed about the arithmetic -/

/-- A number with 53 significant bits. -/
def Rep53 (y : ℝ) : Prop := ∃ n e : ℤ, |n| ≤ 2 ^ 53 ∧ y = n * 2 ^ e

/-- Rounding to a nearest number with 53 significant bits (ties either way). -/
def NearestDouble (fl : ℝ → ℝ) : Prop := ∀ x, Rep53 (fl x) ∧ ∀ y, Rep53 y → |fl x - x| ≤ |y - x|

/-- The mpmath operations have relative error `ε`; conversions to double precision are to nearest. -/
structure MpOps.Std (M : MpOps) (ε : ℝ) : Prop where
  ε_nonneg : 0 ≤ ε
  ε_small : ε ≤ 1 / 10 ^ 18
  fac : ∀ n : ℕ, |M.fac n - (n.factorial : ℝ)| ≤ ε * (n.factorial : ℝ)
  binomial : ∀ n k : ℕ, k ≤ n → |M.binomial n k - (n.choose k : ℝ)| ≤ ε * (n.choose k : ℝ)
  sqrt : ∀ x, 0 ≤ x → |M.sqrt x - Real.sqrt x| ≤ ε * Real.sqrt x
  mul : ∀ x y, |M.mul x y - x * y| ≤ ε * |x * y|
  div : ∀ x y, y ≠ 0 → |M.div x y - x / y| ≤ ε * |x / y|
  float : NearestDouble M.float

end SF
