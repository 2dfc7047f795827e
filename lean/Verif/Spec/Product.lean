import Verif.Spec.ThreeJ
import Verif.Spec.Modes

/-!
# Specification of the mode weights of a product of spin-weighted functions
-/

set_option autoImplicit false

namespace SF.Spec

open Finset

/-- Mode `(l, m)` of the product of the function of spin weight `s1` with modes `c1 l1 m1`, `l1 ≤ L1`, and the function of spin
weight `s2` with modes `c2 l2 m2`, `l2 ≤ L2` (docstring of `multiply`, multiplication.py:41-45, solved for the modes of spin
weight `s1 + s2`):

`Σ (-1)^(l1+l2+l+s1+s2+m) sqrt((2l1+1)(2l2+1)(2l+1)/(4π)) (l1 l2 l; s1 s2 -s1-s2) (l1 l2 l; m1 m2 -m) c1(l1,m1) c2(l2,m2)`

over all `l1`, `m1`, `l2`, `m2` with `m1 + m2 = m`. -/
noncomputable def productMode (s1 L1 : ℤ) (c1 : ℤ → ℤ → ℂ) (s2 L2 : ℤ) (c2 : ℤ → ℤ → ℂ) (l m : ℤ) : ℂ :=
  ∑ l1 ∈ Icc 0 L1, ∑ m1 ∈ Icc (-l1) l1, ∑ l2 ∈ Icc 0 L2, ∑ m2 ∈ Icc (-l2) l2,
    if m1 + m2 = m then
      (((-1 : ℝ) ^ (l1 + l2 + l + s1 + s2 + m) * Real.sqrt ((2 * l1 + 1) * (2 * l2 + 1) * (2 * l + 1) / (4 * Real.pi))
        * threeJ l1 l2 l s1 s2 (-s1 - s2) * threeJ l1 l2 l m1 m2 (-m) : ℝ) : ℂ) * (c1 l1 m1 * c2 l2 m2)
    else 0

end SF.Spec
