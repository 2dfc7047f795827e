import Verif.Py
import Mathlib.Analysis.Real.Sqrt

/-!
# Model of the index functions in `spherical_functions/__init__.py`
-/

set_option autoImplicit false

namespace SF

/-- `LM_total_size` — spherical_functions/__init__.py:144-162. -/
def LM_total_size (ell_min ell_max : ℤ) : ℤ := ell_max * (ell_max + 2) - ell_min ^ 2 + 1

/-- `LM_index` — spherical_functions/__init__.py:121-141. -/
def LM_index (ell m ell_min : ℤ) : ℤ := ell * (ell + 1) - ell_min ^ 2 + m

/-- `_LM_range` — spherical_functions/__init__.py:111-118.  A row `LM[i,:]` is a pair; the two
column writes are two updates of the row.  The state is `(i, LM)`. -/
def LM_range_loop (ell_min ell_max : ℤ) (LM : List (ℤ × ℤ)) : Py (ℤ × List (ℤ × ℤ)) :=
  forL (pyRange ell_min (ell_max + 1)) ((0 : ℤ), LM) fun ell st =>
    forL (pyRange (-ell) (ell + 1)) st fun m st => do
      let b ← (do
        let b ← upd st.2 st.1 (fun row => (ell, row.2))
        upd b st.1 (fun row => (row.1, m)))
      return (st.1 + 1, b)

/-- `LM_range` — spherical_functions/__init__.py:90-108.  `junk` is what `np.empty` returns. -/
def LM_range (junk : ℕ → ℤ × ℤ) (ell_min ell_max : ℤ) : Py (List (ℤ × ℤ)) := do
  let LM ← npEmpty junk (ell_max * (ell_max + 2) - ell_min ^ 2 + 1)
  let st ← LM_range_loop ell_min ell_max LM
  return st.2

/-- Python's `int(x)` for a real number: truncation toward zero. -/
noncomputable def pyInt (x : ℝ) : ℤ := if 0 ≤ x then ⌊x⌋ else ⌈x⌉

/-- `LM_deduce_ell_max` — spherical_functions/__init__.py:165-169 (`np.sqrt` exact; for
a negative argument numpy gives nan and `int(nan)` is a ValueError). -/
noncomputable def LM_deduce_ell_max (size ell_min : ℤ) : Py ℤ :=
  if size + ell_min ^ 2 < 0 then .error .valueError else
  let ell_max := pyInt (Real.sqrt ((size + ell_min ^ 2 : ℤ) : ℝ) - 1)
  if ell_max * (ell_max + 2) - ell_min ^ 2 + 1 ≠ size then .error .valueError
  else .ok ell_max

/-- `LMpM_total_size` — spherical_functions/__init__.py:271-292. -/
def LMpM_total_size (ell_min ell_max : ℤ) : ℤ :=
  (((4 * ell_max + 12) * ell_max + 11) * ell_max + (-4 * ell_min ^ 2 + 1) * ell_min + 3) / 3

/-- `LMpM_index` — spherical_functions/__init__.py:245-268. -/
def LMpM_index (ell mp m ell_min : ℤ) : ℤ :=
  (((4 * ell + 6) * ell + 6 * mp + 5) * ell + ell_min * (1 - 4 * ell_min ^ 2) + 3 * (m + mp)) / 3

/-- `_LMpM_range` — spherical_functions/__init__.py:199-208. -/
def LMpM_range_loop (ell_min ell_max : ℤ) (LMpM : List (ℤ × ℤ × ℤ)) :
    Py (ℤ × List (ℤ × ℤ × ℤ)) :=
  forL (pyRange ell_min (ell_max + 1)) ((0 : ℤ), LMpM) fun ell st =>
    forL (pyRange (-ell) (ell + 1)) st fun mp st =>
      forL (pyRange (-ell) (ell + 1)) st fun m st => do
        let b ← (do
          let b ← upd st.2 st.1 (fun row => (ell, row.2.1, row.2.2))
          let b ← upd b st.1 (fun row => (row.1, mp, row.2.2))
          upd b st.1 (fun row => (row.1, row.2.1, m)))
        return (st.1 + 1, b)

/-- `LMpM_range` — spherical_functions/__init__.py:172-197, for integer arguments (the
non-integer test at l.189-193 never fires on integers). -/
def LMpM_range (junk : ℕ → ℤ × ℤ × ℤ) (ell_min ell_max : ℤ) : Py (List (ℤ × ℤ × ℤ)) := do
  let LMpM ← npEmpty junk
    ((ell_max * (11 + ell_max * (12 + 4 * ell_max)) + ell_min * (1 - 4 * ell_min ^ 2) + 3) / 3)
  let st ← LMpM_range_loop ell_min ell_max LMpM
  return st.2

/-- `_LMpM_range_half_integer` — spherical_functions/__init__.py:233-242. -/
def LMpM_range_half_integer_loop (twoell_min twoell_max : ℤ) (LMpM : List (ℚ × ℚ × ℚ)) :
    Py (ℤ × List (ℚ × ℚ × ℚ)) :=
  forL (pyRange twoell_min (twoell_max + 1)) ((0 : ℤ), LMpM) fun twoell st =>
    forL (pyRange2 (-twoell) (twoell + 1)) st fun twomp st =>
      forL (pyRange2 (-twoell) (twoell + 1)) st fun twom st => do
        let b ← (do
          let b ← upd st.2 st.1 (fun row => ((twoell : ℚ) / 2, row.2.1, row.2.2))
          let b ← upd b st.1 (fun row => (row.1, (twomp : ℚ) / 2, row.2.2))
          upd b st.1 (fun row => (row.1, row.2.1, (twom : ℚ) / 2)))
        return (st.1 + 1, b)

/-- Python's `round`: to the nearest integer, ties to even. -/
def pyRound (x : ℚ) : ℤ :=
  let f := ⌊x⌋
  if x - f < 1 / 2 then f
  else if 1 / 2 < x - f then f + 1
  else if f % 2 = 0 then f else f + 1

/-- Python's `int(x)` for a rational number: truncation toward zero. -/
def pyIntQ (x : ℚ) : ℤ := if 0 ≤ x then ⌊x⌋ else ⌈x⌉

/-- `LMpM_range_half_integer` — spherical_functions/__init__.py:211-231.  The float arguments
are rationals; `int(...)//3` is truncation followed by floor division. -/
def LMpM_range_half_integer (junk : ℕ → ℚ × ℚ × ℚ) (ell_min ell_max : ℚ) :
    Py (List (ℚ × ℚ × ℚ)) := do
  let LMpM ← npEmpty junk
    (pyIntQ (((8 * ell_max + 18) * ell_max + 13) * ell_max + 3
      - ((8 * ell_min + 6) * ell_min + 1) * ell_min) / 3)
  let st ← LMpM_range_half_integer_loop (pyRound (2 * ell_min)) (pyRound (2 * ell_max)) LMpM
  return st.2

/-- `_Wigner_index` — spherical_functions/__init__.py:77-79.  (Operator precedence: the products
associate to the left, `a // 6`, `b // 2 * c`.) -/
def Wigner_index (twoell twomp twom : ℤ) : ℤ :=
  twoell * ((2 * twoell + 3) * twoell + 1) / 6 + (twoell + twomp) / 2 * (twoell + 1)
    + (twoell + twom) / 2

/-- `_linear_matrix_index` — WignerD/__init__.py:278-293. -/
def linear_matrix_index (ell mp m : ℤ) : ℤ := (ell + m) + (ell + mp) * (2 * ell + 1)

/-- `_linear_matrix_diagonal_index` — WignerD/__init__.py:296-311. -/
def linear_matrix_diagonal_index (ell mpm : ℤ) : ℤ := (ell + mpm) * (2 * ell + 2)

/-- `_linear_matrix_offset` — WignerD/__init__.py:314-335. -/
def linear_matrix_offset (ell ell_min : ℤ) : ℤ :=
  ((4 * ell ^ 2 - 1) * ell - (4 * ell_min ^ 2 - 1) * ell_min) / 3

/-- `_total_size_D_matrices` — WignerD/__init__.py:338-340. -/
def total_size_D_matrices (ell_min ell_max : ℤ) : ℤ :=
  (((4 * ell_max + 12) * ell_max + 11) * ell_max + 3 - (4 * ell_min ^ 2 - 1) * ell_min) / 3

end SF
