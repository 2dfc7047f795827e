import Verif.Model.WignerDFloat

/-!
# Floating-point arithmetic with underflow and overflow

`FloatOps.Std` (WignerDFloat) assumes that every operation has a small relative error.  Real floating-point arithmetic does so only if
the exact result is neither too large nor too small.
-/

set_option autoImplicit false

namespace SF

/-- `x'` approximates `x` with relative error at most `u`, or `x` is below the smallest normal number `ν` and the absolute error is at
most `η` (gradual underflow or flush to zero). -/
def IErr (u η ν x' x : ℝ) : Prop := RelErr u x' x ∨ |x| < ν ∧ |x' - x| ≤ η

/-- Floating-point arithmetic with unit roundoff `u`, smallest normal number `ν`, underflow error `η` and largest number `Ω`.  Nothing is
assumed about operations whose exact result exceeds `Ω`.  `w` is the relative error of complex powers. -/
structure FloatOps.IEEE (F : FloatOps) (u w η ν Ω : ℝ) : Prop where
  u_nonneg : 0 ≤ u
  u_lt_one : u < 1
  η_nonneg : 0 ≤ η
  ν_pos : 0 < ν
  w_nonneg : 0 ≤ w
  add : ∀ x y, |x + y| ≤ Ω → IErr u η ν (F.add x y) (x + y)
  mul : ∀ x y, |x * y| ≤ Ω → IErr u η ν (F.mul x y) (x * y)
  div : ∀ x y, y ≠ 0 → |x / y| ≤ Ω → IErr u η ν (F.div x y) (x / y)
  pow : ∀ x y, 0 < x → x ^ y ≤ Ω → IErr u η ν (F.pow x y) (x ^ y)
  cos : ∀ x, IErr u η ν (F.cos x) (Real.cos x)
  sin : ∀ x, IErr u η ν (F.sin x) (Real.sin x)
  abs : ∀ z, ‖z‖ ≤ Ω → IErr u η ν (F.abs z) ‖z‖
  arg : ∀ z, IErr u η ν (F.arg z) (Complex.arg z)
  cpow : ∀ z n, z ≠ 0 → ν ≤ ‖z ^ n‖ → ‖z ^ n‖ ≤ Ω → ‖F.cpow z n - z ^ n‖ ≤ w * ‖z ^ n‖

end SF
