import Mathlib.Analysis.Calculus.Deriv.Basic
import Mathlib.Analysis.SpecialFunctions.Trigonometric.Basic

/-!
# Specification: the operators on spin-weighted functions in spherical coordinates

`F θ φ` is a function of the polar angle and the azimuth.  `ethOp` and `ethbarOp` are the definitions of Newman and Penrose.
-/

set_option autoImplicit false

namespace SF.Spec

/-- `∂F/∂θ` -/
noncomputable def dTheta (F : ℝ → ℝ → ℂ) (θ φ : ℝ) : ℂ := deriv (fun t => F t φ) θ

/-- `∂F/∂φ` -/
noncomputable def dPhi (F : ℝ → ℝ → ℂ) (θ φ : ℝ) : ℂ := deriv (fun t => F θ t) φ

/-- `ð F = -(sin θ)^s (∂_θ + (i/sin θ) ∂_φ) ((sin θ)^(-s) F)` -/
noncomputable def ethOp (s : ℤ) (F : ℝ → ℝ → ℂ) (θ φ : ℝ) : ℂ :=
  -((Real.sin θ : ℂ) ^ s * (dTheta (fun θ φ => (Real.sin θ : ℂ) ^ (-s) * F θ φ) θ φ
    + Complex.I / Real.sin θ * dPhi (fun θ φ => (Real.sin θ : ℂ) ^ (-s) * F θ φ) θ φ))

/-- `ð̄ F = -(sin θ)^(-s) (∂_θ - (i/sin θ) ∂_φ) ((sin θ)^s F)` -/
noncomputable def ethbarOp (s : ℤ) (F : ℝ → ℝ → ℂ) (θ φ : ℝ) : ℂ :=
  -((Real.sin θ : ℂ) ^ (-s) * (dTheta (fun θ φ => (Real.sin θ : ℂ) ^ s * F θ φ) θ φ
    - Complex.I / Real.sin θ * dPhi (fun θ φ => (Real.sin θ : ℂ) ^ s * F θ φ) θ φ))

/-- `L_z F = -i ∂_φ F` -/
noncomputable def LzOp (F : ℝ → ℝ → ℂ) (θ φ : ℝ) : ℂ := -Complex.I * dPhi F θ φ

/-- `L_± F = e^{±iφ} (±∂_θ F + i cot θ ∂_φ F - (s / sin θ) F)`: `sign = ±1` -/
noncomputable def LladderOp (sign : ℝ) (s : ℤ) (F : ℝ → ℝ → ℂ) (θ φ : ℝ) : ℂ :=
  Complex.exp (Complex.I * (sign * φ)) * (sign * dTheta F θ φ + Complex.I * (Real.cos θ / Real.sin θ) * dPhi F θ φ - s / Real.sin θ * F θ φ)

/-- `L² F = -[ (1/sin θ) ∂_θ(sin θ ∂_θ F) + (1/sin² θ) (∂_φ² F + 2 i s cos θ ∂_φ F - s² F) ]`; for `s = 0`, minus the Laplacian of the
unit sphere. -/
noncomputable def LsquaredOp (s : ℤ) (F : ℝ → ℝ → ℂ) (θ φ : ℝ) : ℂ :=
  -(1 / Real.sin θ * dTheta (fun θ φ => Real.sin θ * dTheta F θ φ) θ φ
    + 1 / (Real.sin θ) ^ 2 * (dPhi (dPhi F) θ φ + 2 * Complex.I * s * Real.cos θ * dPhi F θ φ - s ^ 2 * F θ φ))

end SF.Spec
