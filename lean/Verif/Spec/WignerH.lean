import Verif.Spec.WignerD
import Mathlib.Analysis.SpecialFunctions.Trigonometric.Basic

/-!
# Specification of the H functions of arXiv:1403.7698

`d^n_{m',m} = eps(m') eps(-m) H^{m',m}_n` with `eps(k) = 1` for `k <= 0` and `(-1)^k` for `k > 0`
(module docstring of `recursions/wignerH.py`).  The signs square to one, so `H = eps(m') eps(-m) d`.
-/

set_option autoImplicit false

namespace SF.Spec

/-- `eps_k`. -/
def eps (k : ℤ) : ℤ := if k ≤ 0 then 1 else (-1) ^ k.toNat

/-- Wigner's `d^n_{m',m}(β)`: the D function of the rotor `exp(β y / 2)`, which has `R.a = cos(β/2)`, `R.b = sin(β/2)`. -/
noncomputable def wignerd (β : ℝ) (n mp m : ℤ) : ℂ :=
  wignerD (Real.cos (β / 2) : ℂ) (Real.sin (β / 2) : ℂ) (2 * n) (2 * mp) (2 * m)

/-- `x` is the value `H^{m',m}_n(β)`. -/
def IsH (β : ℝ) (n mp m : ℤ) (x : ℝ) : Prop := wignerd β n mp m = (eps mp * eps (-m) : ℤ) * (x : ℂ)

end SF.Spec
