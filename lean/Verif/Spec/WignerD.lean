import Mathlib.Data.Complex.Basic
import Mathlib.Analysis.Real.Sqrt
import Mathlib.Data.Nat.Choose.Basic
import Mathlib.Data.Nat.Factorial.Basic
import Mathlib.Algebra.BigOperators.Group.Finset.Basic
import Mathlib.Analysis.Real.Pi.Bounds

/-!
# Specification of the Wigner D function and of the spin-weighted spherical harmonics

Closed forms, as on the conventions page of the package
(http://moble.github.io/spherical_functions/) and in `WignerD` of the docstrings.  A half-integer index triple
`(ell, m', m)` is given by its doubles `(twoell, twomp, twom)`.
-/

set_option autoImplicit false

namespace SF.Spec

open Finset ComplexConjugate

/-- Wigner's D function in terms of the four natural numbers
`p' = ell+m'`, `q' = ell-m'`, `p = ell+m`, `q = ell-m`:

`sqrt(p! q! / (p'! q'!)) Σ_ρ (-1)^ρ C(p',ρ) C(q',q-ρ) Ra^(p'-ρ) conj(Ra)^(q-ρ) Rb^(q'-(q-ρ)) conj(Rb)^ρ`

(terms with a negative exponent have a vanishing binomial coefficient). -/
noncomputable def Dpq (Ra Rb : ℂ) (p' q' p q : ℕ) : ℂ :=
  (Real.sqrt ((p.factorial * q.factorial : ℝ) / (p'.factorial * q'.factorial)) : ℂ) *
    ∑ ρ ∈ range (q + 1), (-1 : ℂ) ^ ρ * (p'.choose ρ) * (q'.choose (q - ρ))
      * Ra ^ (p' - ρ) * (conj Ra) ^ (q - ρ) * Rb ^ (q' - (q - ρ)) * (conj Rb) ^ ρ

/-- `D^ell_{m',m}(R)` for the rotor with complex parts `Ra = R.a`, `Rb = R.b`, in terms of doubled indices. -/
noncomputable def wignerD (Ra Rb : ℂ) (twoell twomp twom : ℤ) : ℂ :=
  Dpq Ra Rb ((twoell + twomp) / 2).toNat ((twoell - twomp) / 2).toNat
    ((twoell + twom) / 2).toNat ((twoell - twom) / 2).toNat

/-- The doubled triple is a valid index of a D matrix. -/
def ValidD (twoell twomp twom : ℤ) : Prop :=
  |twomp| ≤ twoell ∧ |twom| ≤ twoell ∧ (twoell - twomp) % 2 = 0 ∧ (twoell - twom) % 2 = 0

/-- Unit rotor. -/
def IsUnit' (Ra Rb : ℂ) : Prop := Complex.normSq Ra + Complex.normSq Rb = 1

/-- Spin-weighted spherical harmonic `sYlm(R) = (-1)^s sqrt((2ell+1)/(4π)) D^ell_{m,-s}(R)`,
zero unless `|m| ≤ ell` and `|s| ≤ ell`. -/
noncomputable def sYlm (Ra Rb : ℂ) (s ell m : ℤ) : ℂ :=
  if |m| ≤ ell ∧ |s| ≤ ell then
    (-1 : ℂ) ^ s * (Real.sqrt ((2 * (ell : ℝ) + 1) / (4 * Real.pi)) : ℂ)
      * wignerD Ra Rb (2 * ell) (2 * m) (-2 * s)
  else 0

end SF.Spec
