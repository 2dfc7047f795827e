import Verif.Model.Index
import Verif.Model.Recursions

/-!
# The index functions in 64-bit arithmetic

`Verif.Model.Index` transcribes the index functions with unbounded integers.  The functions are compiled by numba with
`int64` arguments, where every operation wraps around modulo `2^64`.  Here they are transcribed again, operation by
operation, with wrapping operations.  (`x ** 2` with a literal exponent is compiled to a multiplication; `//` by a positive
literal is floor division, which cannot overflow.)
-/

set_option autoImplicit false

namespace SF

/-- Reduction to the range of `int64`, two's complement. -/
def w64 (x : ℤ) : ℤ := (x + 2 ^ 63) % 2 ^ 64 - 2 ^ 63

/-- `a + b` on `int64`. -/
def add64 (a b : ℤ) : ℤ := w64 (a + b)
/-- `a - b` on `int64`. -/
def sub64 (a b : ℤ) : ℤ := w64 (a - b)
/-- `a * b` on `int64`. -/
def mul64 (a b : ℤ) : ℤ := w64 (a * b)
/-- `a ** 2` on `int64`. -/
def sq64 (a : ℤ) : ℤ := mul64 a a
/-- `-a` on `int64`. -/
def neg64 (a : ℤ) : ℤ := w64 (-a)

@[inherit_doc] scoped infixl:65 " +ᵢ " => add64
@[inherit_doc] scoped infixl:65 " -ᵢ " => sub64
@[inherit_doc] scoped infixl:70 " *ᵢ " => mul64

/-- `LM_index` — spherical_functions/__init__.py:121-141. -/
def LM_index64 (ell m ell_min : ℤ) : ℤ := ell *ᵢ (ell +ᵢ 1) -ᵢ sq64 ell_min +ᵢ m

/-- `LM_total_size` — spherical_functions/__init__.py:144-162. -/
def LM_total_size64 (ell_min ell_max : ℤ) : ℤ := ell_max *ᵢ (ell_max +ᵢ 2) -ᵢ sq64 ell_min +ᵢ 1

/-- `LMpM_index` — spherical_functions/__init__.py:245-268. -/
def LMpM_index64 (ell mp m ell_min : ℤ) : ℤ :=
  (((4 *ᵢ ell +ᵢ 6) *ᵢ ell +ᵢ 6 *ᵢ mp +ᵢ 5) *ᵢ ell +ᵢ ell_min *ᵢ (1 -ᵢ 4 *ᵢ sq64 ell_min) +ᵢ 3 *ᵢ (m +ᵢ mp)) / 3

/-- `LMpM_total_size` — spherical_functions/__init__.py:271-292. -/
def LMpM_total_size64 (ell_min ell_max : ℤ) : ℤ :=
  (((4 *ᵢ ell_max +ᵢ 12) *ᵢ ell_max +ᵢ 11) *ᵢ ell_max +ᵢ (neg64 4 *ᵢ sq64 ell_min +ᵢ 1) *ᵢ ell_min +ᵢ 3) / 3

/-- `_Wigner_index` — spherical_functions/__init__.py:77-79. -/
def Wigner_index64 (twoell twomp twom : ℤ) : ℤ :=
  twoell *ᵢ ((2 *ᵢ twoell +ᵢ 3) *ᵢ twoell +ᵢ 1) / 6 +ᵢ ((twoell +ᵢ twomp) / 2) *ᵢ (twoell +ᵢ 1) +ᵢ (twoell +ᵢ twom) / 2

/-- `_linear_matrix_index` — WignerD/__init__.py:278-293. -/
def linear_matrix_index64 (ell mp m : ℤ) : ℤ := (ell +ᵢ m) +ᵢ (ell +ᵢ mp) *ᵢ (2 *ᵢ ell +ᵢ 1)

/-- `_linear_matrix_diagonal_index` — WignerD/__init__.py:296-311. -/
def linear_matrix_diagonal_index64 (ell mpm : ℤ) : ℤ := (ell +ᵢ mpm) *ᵢ (2 *ᵢ ell +ᵢ 2)

/-- `_linear_matrix_offset` — WignerD/__init__.py:314-335. -/
def linear_matrix_offset64 (ell ell_min : ℤ) : ℤ :=
  ((4 *ᵢ sq64 ell -ᵢ 1) *ᵢ ell -ᵢ (4 *ᵢ sq64 ell_min -ᵢ 1) *ᵢ ell_min) / 3

/-- `_total_size_D_matrices` — WignerD/__init__.py:338-340. -/
def total_size_D_matrices64 (ell_min ell_max : ℤ) : ℤ :=
  (((4 *ᵢ ell_max +ᵢ 12) *ᵢ ell_max +ᵢ 11) *ᵢ ell_max +ᵢ 3 -ᵢ (4 *ᵢ sq64 ell_min -ᵢ 1) *ᵢ ell_min) / 3

/-- `wedge_size` — recursions/wignerH.py:57-59. -/
def wedge_size64 (ell_max : ℤ) : ℤ := (ell_max +ᵢ 1) *ᵢ (ell_max +ᵢ 2) *ᵢ (2 *ᵢ ell_max +ᵢ 3) / 6

/-- `wedge_index` — recursions/wignerH.py:61-83. -/
def wedge_index64 (ell mp m : ℤ) : ℤ :=
  if 0 ≤ mp then (2 *ᵢ ell *ᵢ (ell +ᵢ 1) *ᵢ (ell +ᵢ 2) +ᵢ 3 *ᵢ mp *ᵢ (2 *ᵢ ell -ᵢ mp +ᵢ 1) +ᵢ 6 *ᵢ m) / 6
  else (2 *ᵢ ell *ᵢ (ell +ᵢ 1) *ᵢ (ell +ᵢ 2) +ᵢ 3 *ᵢ mp *ᵢ (2 *ᵢ ell +ᵢ mp +ᵢ 3) +ᵢ 6 *ᵢ m) / 6

/-- `nm_index` — recursions/wignerH.py:138-145. -/
def nm_index64 (n m : ℤ) : ℤ := m +ᵢ n *ᵢ (n +ᵢ 1)

/-- `nabsm_index` — recursions/wignerH.py:148-155. -/
def nabsm_index64 (n absm : ℤ) : ℤ := absm +ᵢ n *ᵢ (n +ᵢ 1) / 2

/-- `nmpm_index` — recursions/wignerH.py:158-167. -/
def nmpm_index64 (n mp m : ℤ) : ℤ := (((4 *ᵢ n +ᵢ 6) *ᵢ n +ᵢ 6 *ᵢ mp +ᵢ 5) *ᵢ n +ᵢ 3 *ᵢ (m +ᵢ mp)) / 3

end SF
