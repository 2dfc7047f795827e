import Verif.Model.Index

/-!
# `LM_deduce_ell_max` in floating-point arithmetic
-/

set_option autoImplicit false

namespace SF

/-- `LM_deduce_ell_max` — spherical_functions/__init__.py:165-169, where `fl` rounds a real number to a float: the argument of
`np.sqrt` is converted to a float, the root is correctly rounded, and the difference is rounded.  The test at l.167 is done
with Python integers.  (For a negative argument numpy gives nan and `int(nan)` is a ValueError.) -/
noncomputable def LM_deduce_ell_max_fl (fl : ℝ → ℝ) (size ell_min : ℤ) : Py ℤ :=
  if size + ell_min ^ 2 < 0 then .error .valueError else
  let ell_max := pyInt (fl (fl (Real.sqrt (fl ((size + ell_min ^ 2 : ℤ) : ℝ))) - 1))
  if ell_max * (ell_max + 2) - ell_min ^ 2 + 1 ≠ size then .error .valueError
  else .ok ell_max

end SF
