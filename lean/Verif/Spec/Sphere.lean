import Mathlib.MeasureTheory.Integral.IntervalIntegral.Basic
import Mathlib.Analysis.SpecialFunctions.Trigonometric.Basic

/-!
# Specification of integrals over the sphere
-/

set_option autoImplicit false

namespace SF.Spec

/-- `∫_0^{2π} ∫_0^π F(θ,φ) sin θ dθ dφ`. -/
noncomputable def sphInt (F : ℝ → ℝ → ℂ) : ℂ :=
  ∫ φ in (0 : ℝ)..(2 * Real.pi), ∫ θ in (0 : ℝ)..Real.pi, F θ φ * (Real.sin θ : ℂ)

end SF.Spec
