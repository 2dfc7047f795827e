import Verif.Spec.WignerD
import Mathlib.Order.Interval.Finset.Basic
import Mathlib.Order.Interval.Finset.Defs
import Mathlib.Data.Int.Interval

/-!
# Specification of the function represented by mode weights
-/

set_option autoImplicit false

namespace SF.Spec

open Finset

/-- The value at the rotor with parts `Ra`, `Rb` of the spin-`s` function with mode weights `c ell m`, `|s| ≤ ell ≤ L`:
`Σ_{ell=|s|}^{L} Σ_{m=-ell}^{ell} c(ell,m) sYlm(R)`. -/
noncomputable def fieldValue (s L : ℤ) (c : ℤ → ℤ → ℂ) (Ra Rb : ℂ) : ℂ :=
  ∑ ell ∈ Icc |s| L, ∑ m ∈ Icc (-ell) ell, c ell m * sYlm Ra Rb s ell m

end SF.Spec
