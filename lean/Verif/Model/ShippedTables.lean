import Verif.Model.Tables
import Verif.Data.Binomial
import Verif.Data.Ladder
import Verif.Data.Wigner0
import Verif.Data.Wigner1
import Verif.Data.Wigner2
import Verif.Data.Wigner3
import Verif.Data.Wigner4
import Verif.Data.Wigner5
import Verif.Data.Wigner6
import Verif.Data.Wigner7
import Mathlib.Data.Real.Basic

/-!
# The tables that the package ships

`binomial_coefficients.npy`, `ladder_operator_coefficients.npy` and `Wigner_coefficients.npy` in spherical_functions/ are loaded by
`np.load` at import.  The modules Verif/Data/*.lean are their bytes after the header, transcribed by tools/gen_tables.py: the headers
say `'<f8'` (little-endian IEEE doubles), C order, and shapes `(2145,)`, `(2145,)` and `(93665,)`.
-/

set_option autoImplicit false

namespace SF

/-- The value of the IEEE double with the bit pattern `w` (infinities and NaNs are not modelled; none occurs in the tables). -/
noncomputable def f64 (w : ℕ) : ℝ :=
  (if w / 2 ^ 63 % 2 = 1 then -1 else 1) *
    (if w / 2 ^ 52 % 2048 = 0 then ((w % 2 ^ 52 : ℕ) : ℝ) * 2 ^ (-1074 : ℤ)
      else ((2 ^ 52 + w % 2 ^ 52 : ℕ) : ℝ) * 2 ^ (((w / 2 ^ 52 % 2048 : ℕ) : ℤ) - 1075))

/-- The `k` 64-bit words of `8 k` bytes, read as one little-endian number `N`. -/
def words : ℕ → ℕ → List ℕ
  | 0, _ => []
  | k + 1, N => N % 2 ^ 64 :: words k (N / 2 ^ 64)

/-- The words of spherical_functions/binomial_coefficients.npy. -/
def binomialWords : List ℕ := binomialData.zipIdx.flatMap fun r => words (r.2 + 1) r.1

/-- The words of spherical_functions/ladder_operator_coefficients.npy. -/
def ladderWords : List ℕ := ladderData.zipIdx.flatMap fun r => words (r.2 + 1) r.1

/-- The rows of spherical_functions/Wigner_coefficients.npy, for `2 ell = 0, ..., 64`. -/
def wignerData : List (List ℕ) := [
  wigner0, wigner1, wigner2, wigner3, wigner4, wigner5, wigner6, wigner7, wigner8, wigner9,
  wigner10, wigner11, wigner12, wigner13, wigner14, wigner15, wigner16, wigner17, wigner18, wigner19,
  wigner20, wigner21, wigner22, wigner23, wigner24, wigner25, wigner26, wigner27, wigner28, wigner29,
  wigner30, wigner31, wigner32, wigner33, wigner34, wigner35, wigner36, wigner37, wigner38, wigner39,
  wigner40, wigner41, wigner42, wigner43, wigner44, wigner45, wigner46, wigner47, wigner48, wigner49,
  wigner50, wigner51, wigner52, wigner53, wigner54, wigner55, wigner56, wigner57, wigner58, wigner59,
  wigner60, wigner61, wigner62, wigner63, wigner64]

/-- The words of spherical_functions/Wigner_coefficients.npy. -/
def wignerWords : List ℕ := wignerData.zipIdx.flatMap fun b => b.1.flatMap (words (b.2 + 1))

/-- `_binomial_coefficients` — spherical_functions/__init__.py:55. -/
noncomputable def shippedBinomial : List ℝ := binomialWords.map f64

/-- `_ladder_operator_coefficients` — spherical_functions/__init__.py:63. -/
noncomputable def shippedLadder : List ℝ := ladderWords.map f64

/-- `_Wigner_coefficients` — spherical_functions/__init__.py:75. -/
noncomputable def shippedWigner : List ℝ := wignerWords.map f64

end SF
