import Mathlib.Analysis.Real.Sqrt
import Mathlib.Data.Nat.Factorial.Basic
import Mathlib.Algebra.BigOperators.Group.Finset.Basic

/-!
# Specification of the Wigner 3-j symbol: the Racah formula
-/

set_option autoImplicit false

namespace SF.Spec

open Finset

/-- `1/n!`, zero for negative `n`. -/
noncomputable def invFact (n : ℤ) : ℝ := if 0 ≤ n then ((n.toNat.factorial : ℕ) : ℝ)⁻¹ else 0

/-- `n!` for `0 ≤ n`. -/
def fact (n : ℤ) : ℝ := ((n.toNat.factorial : ℕ) : ℝ)

/-- The selection rules. -/
def Admissible (j1 j2 j3 m1 m2 m3 : ℤ) : Prop :=
  m1 + m2 + m3 = 0 ∧ |m1| ≤ j1 ∧ |m2| ≤ j2 ∧ |m3| ≤ j3 ∧ |j2 - j3| ≤ j1 ∧ j1 ≤ j2 + j3

instance (j1 j2 j3 m1 m2 m3 : ℤ) : Decidable (Admissible j1 j2 j3 m1 m2 m3) :=
  inferInstanceAs (Decidable (_ ∧ _))

/-- The Wigner 3-j symbol `(j1 j2 j3; m1 m2 m3)` for integer arguments, by the Racah formula:

`(-1)^(j1-j2-m3) sqrt[ (j1+j2-j3)! (j1-j2+j3)! (-j1+j2+j3)! / (j1+j2+j3+1)! ]`
`sqrt[ (j1+m1)! (j1-m1)! (j2+m2)! (j2-m2)! (j3+m3)! (j3-m3)! ]`
`Σ_k (-1)^k / [k! (j1+j2-j3-k)! (j1-m1-k)! (j2+m2-k)! (j3-j2+m1+k)! (j3-j1-m2+k)!]`. -/
noncomputable def threeJ (j1 j2 j3 m1 m2 m3 : ℤ) : ℝ :=
  if Admissible j1 j2 j3 m1 m2 m3 then
    (-1 : ℝ) ^ (j1 - j2 - m3)
      * Real.sqrt (fact (j1 + j2 - j3) * fact (j1 - j2 + j3) * fact (-j1 + j2 + j3) / fact (j1 + j2 + j3 + 1))
      * Real.sqrt (fact (j1 + m1) * fact (j1 - m1) * fact (j2 + m2) * fact (j2 - m2) * fact (j3 + m3) * fact (j3 - m3))
      * ∑ k ∈ range ((j1 + j2 - j3).toNat + 1), (-1 : ℝ) ^ k
        * (invFact k * invFact (j1 + j2 - j3 - k) * invFact (j1 - m1 - k) * invFact (j2 + m2 - k)
          * invFact (j3 - j2 + m1 + k) * invFact (j3 - j1 - m2 + k))
  else 0

end SF.Spec
