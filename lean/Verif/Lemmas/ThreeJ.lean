import Verif.Lemmas.Racah
import Mathlib.Analysis.Real.Sqrt
import Mathlib.Algebra.Order.BigOperators.Group.Finset
import Mathlib.Data.Nat.Choose.Sum
import Mathlib.LinearAlgebra.Matrix.NonsingularInverse

/-!
# The 3-j symbol: symmetries, recurrences, orthogonality
-/

set_option autoImplicit false

namespace SF

open Finset Spec

/-- `Δ²`. -/
noncomputable def triF (j1 j2 j3 : ℤ) : ℝ :=
  fact (j1 + j2 - j3) * fact (j1 - j2 + j3) * fact (-j1 + j2 + j3) / fact (j1 + j2 + j3 + 1)

theorem triF_pos (j1 j2 j3 : ℤ) : 0 < triF j1 j2 j3 := by
  unfold triF
  have := fact_pos (j1 + j2 - j3)
  have := fact_pos (j1 - j2 + j3)
  have := fact_pos (-j1 + j2 + j3)
  have := fact_pos (j1 + j2 + j3 + 1)
  positivity

/-- `sqrt((j+m)! (j-m)!)`. -/
noncomputable def muF (j m : ℤ) : ℝ := Real.sqrt (fact (j + m) * fact (j - m))

theorem muF_pos (j m : ℤ) : 0 < muF j m := by
  unfold muF
  have := fact_pos (j + m)
  have := fact_pos (j - m)
  exact Real.sqrt_pos.2 (by positivity)

theorem muF_sq (j m : ℤ) : muF j m ^ 2 = fact (j + m) * fact (j - m) := by
  unfold muF
  have := fact_pos (j + m)
  have := fact_pos (j - m)
  exact Real.sq_sqrt (by positivity)

theorem muF_neg (j m : ℤ) : muF j (-m) = muF j m := by
  unfold muF; congr 1
  rw [show j + -m = j - m by ring, show j - -m = j + m by ring, mul_comm]

/-- The 3-j symbol without the case distinction. -/
theorem threeJ_eq {j1 j2 j3 m1 m2 m3 : ℤ} (h : m1 + m2 + m3 = 0) :
    threeJ j1 j2 j3 m1 m2 m3 = (-1 : ℝ) ^ (j1 - j2 - m3) * Real.sqrt (triF j1 j2 j3)
      * (muF j1 m1 * muF j2 m2 * muF j3 m3)
      * rsum (j1 + j2 - j3) (j1 - m1) (j2 + m2) (j3 - j2 + m1) (j3 - j1 - m2) := by
  unfold threeJ
  by_cases ha : Admissible j1 j2 j3 m1 m2 m3
  · rw [if_pos ha, rsum_eq_range]
    have h1 := fact_pos (j1 + m1)
    have h2 := fact_pos (j1 - m1)
    have h3 := fact_pos (j2 + m2)
    have h4 := fact_pos (j2 - m2)
    have e : Real.sqrt (fact (j1 + m1) * fact (j1 - m1) * fact (j2 + m2) * fact (j2 - m2) * fact (j3 + m3) * fact (j3 - m3))
        = muF j1 m1 * muF j2 m2 * muF j3 m3 := by
      unfold muF
      rw [← Real.sqrt_mul (by positivity), ← Real.sqrt_mul (by positivity)]
      congr 1; ring
    rw [e]; rfl
  · rw [if_neg ha, rsum_zero, mul_zero]
    unfold Admissible at ha
    by_contra hc
    apply ha
    rw [abs_le, abs_le, abs_le, abs_le]
    omega

theorem threeJ_eq_zero {j1 j2 j3 m1 m2 m3 : ℤ} (h : ¬ Admissible j1 j2 j3 m1 m2 m3) :
    threeJ j1 j2 j3 m1 m2 m3 = 0 := by unfold threeJ; rw [if_neg h]

theorem triF_cyc (j1 j2 j3 : ℤ) : triF j1 j2 j3 = triF j2 j3 j1 := by
  unfold triF
  rw [show j2 + j3 - j1 = -j1 + j2 + j3 by ring, show j2 - j3 + j1 = j1 + j2 - j3 by ring,
    show -j2 + j3 + j1 = j1 - j2 + j3 by ring, show j2 + j3 + j1 + 1 = j1 + j2 + j3 + 1 by ring]
  ring

theorem triF_swap (j1 j2 j3 : ℤ) : triF j1 j2 j3 = triF j2 j1 j3 := by
  unfold triF
  rw [show j2 + j1 - j3 = j1 + j2 - j3 by ring, show j2 - j1 + j3 = -j1 + j2 + j3 by ring,
    show -j2 + j1 + j3 = j1 - j2 + j3 by ring, show j2 + j1 + j3 + 1 = j1 + j2 + j3 + 1 by ring]
  ring

theorem negOne_congr {a b : ℤ} (h : (a - b) % 2 = 0) : (-1 : ℝ) ^ a = (-1) ^ b := by
  rcases Int.even_or_odd b with hb | hb
  · have ha : Even a := by rw [Int.even_iff] at hb ⊢; omega
    rw [ha.neg_one_zpow, hb.neg_one_zpow]
  · have ha : Odd a := by rw [Int.odd_iff] at hb ⊢; omega
    rw [ha.neg_one_zpow, hb.neg_one_zpow]

theorem negOne_mul {a b c : ℤ} (h : (a + b - c) % 2 = 0) : (-1 : ℝ) ^ a * (-1) ^ b = (-1) ^ c := by
  rw [← zpow_add₀ (by norm_num)]
  exact negOne_congr h

/-- Invariance under cyclic permutations of the columns. -/
theorem threeJ_cyclic (j1 j2 j3 m1 m2 m3 : ℤ) : threeJ j1 j2 j3 m1 m2 m3 = threeJ j2 j3 j1 m2 m3 m1 := by
  by_cases h : m1 + m2 + m3 = 0
  · rw [threeJ_eq h, threeJ_eq (show m2 + m3 + m1 = 0 by omega), ← triF_cyc j1 j2 j3,
      rsum_shift (j2 + j3 - j1) _ _ (j1 - j3 + m2)]
    rw [show j2 + j3 - j1 + (j1 - j3 + m2) = j2 + m2 by ring, show j2 - m2 + (j1 - j3 + m2) = j1 + j2 - j3 by ring,
      show j3 + m3 + (j1 - j3 + m2) = j1 - m1 by omega, show -(j1 - j3 + m2) = j3 - j1 - m2 by ring,
      show j1 - j2 - m3 - (j1 - j3 + m2) = j3 - j2 + m1 by omega, rsum_permy (j2 + m2), rsum_perm12 (j2 + m2),
      rsum_perm23 _ (j2 + m2)]
    rw [← negOne_mul (a := j2 - j3 - m1) (b := j1 - j3 + m2) (c := j1 - j2 - m3) (by omega)]
    ring
  · rw [threeJ_eq_zero (fun ha => h ha.1), threeJ_eq_zero (fun ha => h (by have := ha.1; omega))]

/-- An exchange of two columns. -/
theorem threeJ_swap (j1 j2 j3 m1 m2 m3 : ℤ) :
    threeJ j2 j1 j3 m2 m1 m3 = (-1 : ℝ) ^ (j1 + j2 + j3) * threeJ j1 j2 j3 m1 m2 m3 := by
  by_cases h : m1 + m2 + m3 = 0
  · rw [threeJ_eq h, threeJ_eq (show m2 + m1 + m3 = 0 by omega), ← triF_swap j1 j2 j3, rsum_reflect (j1 + j2 - j3)]
    rw [show j1 + j2 - j3 + (j3 - j2 + m1) = j1 + m1 by ring, show j1 + j2 - j3 + (j3 - j1 - m2) = j2 - m2 by ring,
      show j1 - m1 - (j1 + j2 - j3) = j3 - j2 - m1 by ring, show j2 + m2 - (j1 + j2 - j3) = j3 - j1 + m2 by ring,
      show j2 + j1 - j3 = j1 + j2 - j3 by ring, rsum_perm23 _ (j1 + m1), rsum_permy _ _ _ (j3 - j2 - m1)]
    rw [← negOne_mul (a := j1 - j2 - m3) (b := (j1 + j2 - j3) + (j1 + j2 + j3)) (c := j2 - j1 - m3) (by omega),
      zpow_add₀ (by norm_num)]
    ring
  · rw [threeJ_eq_zero (fun ha => h ha.1), threeJ_eq_zero (fun ha => h (by have := ha.1; omega)), mul_zero]

/-- Reversal of all `m`. -/
theorem threeJ_neg (j1 j2 j3 m1 m2 m3 : ℤ) :
    threeJ j1 j2 j3 (-m1) (-m2) (-m3) = (-1 : ℝ) ^ (j1 + j2 + j3) * threeJ j1 j2 j3 m1 m2 m3 := by
  by_cases h : m1 + m2 + m3 = 0
  · rw [threeJ_eq h, threeJ_eq (show -m1 + -m2 + -m3 = 0 by omega), rsum_reflect (j1 + j2 - j3) (j1 - m1)]
    rw [show j1 + j2 - j3 + (j3 - j2 + m1) = j1 - -m1 by ring, show j1 + j2 - j3 + (j3 - j1 - m2) = j2 + -m2 by ring,
      show j1 - m1 - (j1 + j2 - j3) = j3 - j2 + -m1 by ring, show j2 + m2 - (j1 + j2 - j3) = j3 - j1 - -m2 by ring,
      muF_neg, muF_neg, muF_neg]
    rw [← negOne_mul (a := j1 - j2 - m3) (b := (j1 + j2 - j3) + (j1 + j2 + j3)) (c := j1 - j2 - -m3) (by omega),
      zpow_add₀ (by norm_num)]
    ring
  · rw [threeJ_eq_zero (fun ha => h ha.1), threeJ_eq_zero (fun ha => h (by have := ha.1; omega)), mul_zero]

/-! ## Recurrence in `j` -/

/-- `A(x)` of the recurrence. -/
noncomputable def recA (j2 j3 m x : ℤ) : ℝ :=
  Real.sqrt (((x ^ 2 - (j2 - j3) ^ 2) * ((j2 + j3 + 1) ^ 2 - x ^ 2) * (x ^ 2 - m ^ 2) : ℤ) : ℝ)

theorem mul_sqrt_eq {x y a b : ℝ} (hx : 0 ≤ x) (hy : 0 ≤ y) (_ : 0 ≤ a) (_ : 0 ≤ b)
    (h : a * x ^ 2 = b * y ^ 2) : x * Real.sqrt a = y * Real.sqrt b := by
  rw [← Real.sqrt_sq hx, ← Real.sqrt_sq hy, ← Real.sqrt_mul (sq_nonneg x), ← Real.sqrt_mul (sq_nonneg y)]
  congr 1; linarith

theorem threeJ_eq_rS {j j2 j3 m1 m2 m3 : ℤ} (h : m1 + m2 + m3 = 0) :
    threeJ j j2 j3 m1 m2 m3 = (-1 : ℝ) ^ (j2 - j3 - m1) * (muF j2 m2 * muF j3 m3)
      * (Real.sqrt (triF j2 j3 j * (fact (j + m1) * fact (j - m1)))) * rS j2 j3 m2 m3 j := by
  rw [threeJ_cyclic, threeJ_eq (by omega), Real.sqrt_mul (triF_pos _ _ _).le]
  unfold rS muF
  ring

theorem recA_step {j2 j3 m j : ℤ} (hp : |j2 - j3| ≤ j) (hm : |m| ≤ j) (hj : j + 1 ≤ j2 + j3) :
    recA j2 j3 m (j + 1) * Real.sqrt (triF j2 j3 (j + 1) * (fact (j + 1 + m) * fact (j + 1 - m)))
      = ((j + 1) ^ 2 - (j2 - j3) ^ 2) * ((j + 1) ^ 2 - m ^ 2)
        * Real.sqrt (triF j2 j3 j * (fact (j + m) * fact (j - m))) ∧
    recA j2 j3 m (j + 1) * Real.sqrt (triF j2 j3 j * (fact (j + m) * fact (j - m)))
      = (j2 + j3 - j) * (j2 + j3 + j + 2)
        * Real.sqrt (triF j2 j3 (j + 1) * (fact (j + 1 + m) * fact (j + 1 - m))) := by
  rw [abs_le] at hp hm
  have f1 : fact (j2 + j3 - j) = (j2 + j3 - j) * fact (j2 + j3 - (j + 1)) := by
    have := fact_pred (n := j2 + j3 - j) (by omega)
    rw [this, show j2 + j3 - j - 1 = j2 + j3 - (j + 1) by ring]; push_cast; ring
  have f2 : fact (j2 - j3 + (j + 1)) = (j2 - j3 + j + 1) * fact (j2 - j3 + j) := by
    have := fact_succ (n := j2 - j3 + j) (by omega)
    rw [show j2 - j3 + (j + 1) = j2 - j3 + j + 1 by ring, this]; push_cast; ring
  have f3 : fact (-j2 + j3 + (j + 1)) = (-j2 + j3 + j + 1) * fact (-j2 + j3 + j) := by
    have := fact_succ (n := -j2 + j3 + j) (by omega)
    rw [show -j2 + j3 + (j + 1) = -j2 + j3 + j + 1 by ring, this]; push_cast; ring
  have f4 : fact (j2 + j3 + (j + 1) + 1) = (j2 + j3 + j + 2) * fact (j2 + j3 + j + 1) := by
    have := fact_succ (n := j2 + j3 + j + 1) (by omega)
    rw [show j2 + j3 + (j + 1) + 1 = j2 + j3 + j + 1 + 1 by ring, this]; push_cast; ring
  have f5 : fact (j + 1 + m) = (j + m + 1) * fact (j + m) := by
    have := fact_succ (n := j + m) (by omega)
    rw [show j + 1 + m = j + m + 1 by ring, this]; push_cast; ring
  have f6 : fact (j + 1 - m) = (j - m + 1) * fact (j - m) := by
    have := fact_succ (n := j - m) (by omega)
    rw [show j + 1 - m = j - m + 1 by ring, this]; push_cast; ring
  have g1 := fact_pos (j2 + j3 - (j + 1))
  have g2 := fact_pos (j2 - j3 + j)
  have g3 := fact_pos (-j2 + j3 + j)
  have g4 := fact_pos (j2 + j3 + j + 1)
  have g5 := fact_pos (j + m)
  have g6 := fact_pos (j - m)
  have p1 : (0 : ℝ) < j2 + j3 - j := by have : (0 : ℤ) < j2 + j3 - j := by omega
                                        exact_mod_cast this
  have p2 : (0 : ℝ) < j2 - j3 + j + 1 := by have : (0 : ℤ) < j2 - j3 + j + 1 := by omega
                                            exact_mod_cast this
  have p3 : (0 : ℝ) < -j2 + j3 + j + 1 := by have : (0 : ℤ) < -j2 + j3 + j + 1 := by omega
                                             exact_mod_cast this
  have p4 : (0 : ℝ) < j2 + j3 + j + 2 := by have : (0 : ℤ) < j2 + j3 + j + 2 := by omega
                                            exact_mod_cast this
  have p5 : (0 : ℝ) < j + m + 1 := by have : (0 : ℤ) < j + m + 1 := by omega
                                      exact_mod_cast this
  have p6 : (0 : ℝ) < j - m + 1 := by have : (0 : ℤ) < j - m + 1 := by omega
                                      exact_mod_cast this
  have eA : ((((j + 1) ^ 2 - (j2 - j3) ^ 2) * ((j2 + j3 + 1) ^ 2 - (j + 1) ^ 2) * ((j + 1) ^ 2 - m ^ 2) : ℤ) : ℝ)
      = (j2 - j3 + j + 1) * (-j2 + j3 + j + 1) * ((j2 + j3 - j) * (j2 + j3 + j + 2)) * ((j + m + 1) * (j - m + 1)) := by
    push_cast; ring
  unfold recA
  rw [eA]
  unfold triF
  rw [f1, f2, f3, f4, f5, f6]
  rw [show ((j : ℝ) + 1) ^ 2 - (j2 - j3) ^ 2 = (j2 - j3 + j + 1) * (-j2 + j3 + j + 1) by ring,
    show ((j : ℝ) + 1) ^ 2 - m ^ 2 = (j + m + 1) * (j - m + 1) by ring]
  generalize (j2 + j3 - j : ℝ) = P1 at *
  generalize (j2 - j3 + j + 1 : ℝ) = P2 at *
  generalize (-j2 + j3 + j + 1 : ℝ) = P3 at *
  generalize (j2 + j3 + j + 2 : ℝ) = P4 at *
  generalize (j + m + 1 : ℝ) = P5 at *
  generalize (j - m + 1 : ℝ) = P6 at *
  generalize fact (j2 + j3 - (j + 1)) = G1 at *
  generalize fact (j2 - j3 + j) = G2 at *
  generalize fact (-j2 + j3 + j) = G3 at *
  generalize fact (j2 + j3 + j + 1) = G4 at *
  generalize fact (j + m) = G5 at *
  generalize fact (j - m) = G6 at *
  constructor
  · rw [← Real.sqrt_mul (by positivity)]
    have := mul_sqrt_eq (x := 1) (y := P2 * P3 * (P5 * P6))
      (a := P2 * P3 * (P1 * P4) * (P5 * P6) * (G1 * (P2 * G2) * (P3 * G3) / (P4 * G4) * (P5 * G5 * (P6 * G6))))
      (b := P1 * G1 * G2 * G3 / G4 * (G5 * G6)) (by norm_num) (by positivity) (by positivity) (by positivity)
      (by field_simp)
    rw [one_mul] at this
    exact this
  · rw [← Real.sqrt_mul (by positivity)]
    have := mul_sqrt_eq (x := 1) (y := P1 * P4)
      (a := P2 * P3 * (P1 * P4) * (P5 * P6) * (P1 * G1 * G2 * G3 / G4 * (G5 * G6)))
      (b := G1 * (P2 * G2) * (P3 * G3) / (P4 * G4) * (P5 * G5 * (P6 * G6))) (by norm_num) (by positivity) (by positivity)
      (by positivity) (by field_simp)
    rw [one_mul] at this
    exact this

/-- The three-term recurrence of the 3-j symbols in `j`. -/
theorem threeJ_recurrence {j2 j3 m1 m2 m3 j : ℤ} (h : m1 + m2 + m3 = 0)
    (hp : |j2 - j3| ≤ j) (hm : |m1| ≤ j) (hj : j ≤ j2 + j3) :
    (j : ℝ) * recA j2 j3 m1 (j + 1) * threeJ (j + 1) j2 j3 m1 m2 m3
    + (((2 * j + 1) * ((m2 + m3) * (j2 * (j2 + 1) - j3 * (j3 + 1)) - (m2 - m3) * j * (j + 1)) : ℤ) : ℝ)
      * threeJ j j2 j3 m1 m2 m3
    + ((j : ℝ) + 1) * recA j2 j3 m1 j * threeJ (j - 1) j2 j3 m1 m2 m3 = 0 := by
  have key := rS_recurrence j2 j3 m2 m3 j
  have hm1 : (m1 : ℝ) = -(m2 + m3) := by
    have : m1 = -(m2 + m3) := by omega
    exact_mod_cast this
  have hm1s : (m1 : ℝ) ^ 2 = (m2 + m3) ^ 2 := by rw [hm1]; ring
  rw [threeJ_eq_rS h, threeJ_eq_rS h, threeJ_eq_rS h]
  -- upper term
  have up : recA j2 j3 m1 (j + 1) * (Real.sqrt (triF j2 j3 (j + 1) * (fact (j + 1 + m1) * fact (j + 1 - m1)))
        * rS j2 j3 m2 m3 (j + 1))
      = ((j + 1) ^ 2 - (j2 - j3) ^ 2) * ((j + 1) ^ 2 - (m2 + m3) ^ 2)
        * Real.sqrt (triF j2 j3 j * (fact (j + m1) * fact (j - m1))) * rS j2 j3 m2 m3 (j + 1) := by
    by_cases hlt : j + 1 ≤ j2 + j3
    · rw [← mul_assoc, (recA_step hp hm hlt).1, hm1s]
    · have : rS j2 j3 m2 m3 (j + 1) = 0 := rsum_zero (.inl (by omega))
      rw [this]; ring
  have dn : recA j2 j3 m1 j * (Real.sqrt (triF j2 j3 (j - 1) * (fact (j - 1 + m1) * fact (j - 1 - m1)))
        * rS j2 j3 m2 m3 (j - 1))
      = (j2 + j3 - j + 1) * (j2 + j3 + j + 1)
        * Real.sqrt (triF j2 j3 j * (fact (j + m1) * fact (j - m1))) * rS j2 j3 m2 m3 (j - 1) := by
    by_cases hlt : |j2 - j3| ≤ j - 1 ∧ |m1| ≤ j - 1
    · have := (recA_step hlt.1 hlt.2 (by omega : j - 1 + 1 ≤ j2 + j3)).2
      rw [show j - 1 + 1 = j by ring] at this
      rw [← mul_assoc, this]
      push_cast; ring
    · have : rS j2 j3 m2 m3 (j - 1) = 0 := by
        rw [abs_le, abs_le] at hlt
        exact rsum_zero (by omega)
      rw [this]; ring
  have e1 : (j : ℝ) * recA j2 j3 m1 (j + 1) * ((-1 : ℝ) ^ (j2 - j3 - m1) * (muF j2 m2 * muF j3 m3)
      * Real.sqrt (triF j2 j3 (j + 1) * (fact (j + 1 + m1) * fact (j + 1 - m1))) * rS j2 j3 m2 m3 (j + 1))
      = (-1 : ℝ) ^ (j2 - j3 - m1) * (muF j2 m2 * muF j3 m3) * j *
        (recA j2 j3 m1 (j + 1) * (Real.sqrt (triF j2 j3 (j + 1) * (fact (j + 1 + m1) * fact (j + 1 - m1)))
        * rS j2 j3 m2 m3 (j + 1))) := by ring
  have e2 : ((j : ℝ) + 1) * recA j2 j3 m1 j * ((-1 : ℝ) ^ (j2 - j3 - m1) * (muF j2 m2 * muF j3 m3)
      * Real.sqrt (triF j2 j3 (j - 1) * (fact (j - 1 + m1) * fact (j - 1 - m1))) * rS j2 j3 m2 m3 (j - 1))
      = (-1 : ℝ) ^ (j2 - j3 - m1) * (muF j2 m2 * muF j3 m3) * (j + 1) *
        (recA j2 j3 m1 j * (Real.sqrt (triF j2 j3 (j - 1) * (fact (j - 1 + m1) * fact (j - 1 - m1)))
        * rS j2 j3 m2 m3 (j - 1))) := by ring
  rw [e1, e2, up, dn]
  push_cast
  linear_combination ((-1 : ℝ) ^ (j2 - j3 - m1) * (muF j2 m2 * muF j3 m3)
    * Real.sqrt (triF j2 j3 j * (fact (j + m1) * fact (j - m1)))) * key

/-! ## Ladder relations -/

/-- `sqrt((j-m)(j+m+1))`. -/
noncomputable def lad (j m : ℤ) : ℝ := Real.sqrt (((j - m) * (j + m + 1) : ℤ) : ℝ)

theorem lad_muF {j m : ℤ} (h1 : -j ≤ m) (h2 : m ≤ j) {r : ℝ} (hr : m = j → r = 0) :
    lad j m * (muF j (m + 1) * r) = (j + m + 1) * (muF j m * r) := by
  by_cases he : m = j
  · rw [hr he]; ring
  · have f1 : fact (j + (m + 1)) = (j + m + 1) * fact (j + m) := by
      have := fact_succ (n := j + m) (by omega)
      rw [show j + (m + 1) = j + m + 1 by ring, this]; push_cast; ring
    have f2 : fact (j - m) = (j - m) * fact (j - (m + 1)) := by
      have := fact_pred (n := j - m) (by omega)
      rw [this, show j - m - 1 = j - (m + 1) by ring]; push_cast; ring
    have p1 : (0 : ℝ) < j + m + 1 := by have : (0 : ℤ) < j + m + 1 := by omega
                                        exact_mod_cast this
    have p2 : (0 : ℝ) < j - m := by have : (0 : ℤ) < j - m := by omega
                                    exact_mod_cast this
    have g1 := fact_pos (j + m)
    have g2 := fact_pos (j - (m + 1))
    have : lad j m * muF j (m + 1) = (j + m + 1) * muF j m := by
      unfold lad muF
      rw [f1, f2]
      push_cast
      generalize (j - m : ℝ) = P at *
      generalize (j + m + 1 : ℝ) = R at *
      rw [← Real.sqrt_mul (by positivity)]
      have := mul_sqrt_eq (x := 1) (y := R) (a := P * R * (R * fact (j + m) * fact (j - (m + 1))))
        (b := fact (j + m) * (P * fact (j - (m + 1)))) (by norm_num) (by positivity) (by positivity) (by positivity)
        (by ring)
      rw [one_mul] at this
      exact this
    rw [← mul_assoc, this, mul_assoc]

/-- Raising: the sum of the three raised symbols vanishes. -/
theorem threeJ_raise {j1 j2 j3 m1 m2 m3 : ℤ} (h : m1 + m2 + m3 = -1) :
    lad j1 m1 * threeJ j1 j2 j3 (m1 + 1) m2 m3 + lad j2 m2 * threeJ j1 j2 j3 m1 (m2 + 1) m3
      + lad j3 m3 * threeJ j1 j2 j3 m1 m2 (m3 + 1) = 0 := by
  by_cases hr : (-j1 ≤ m1 ∧ m1 ≤ j1) ∧ (-j2 ≤ m2 ∧ m2 ≤ j2) ∧ (-j3 ≤ m3 ∧ m3 ≤ j3)
  · obtain ⟨⟨a1, a2⟩, ⟨b1, b2⟩, ⟨c1, c2⟩⟩ := hr
    rw [threeJ_eq (by omega), threeJ_eq (by omega), threeJ_eq (by omega)]
    have key := rsum_ladder (j1 + j2 - j3) (j1 - m1) (j2 + m2 + 1) (j3 - j2 + m1 + 1) (j3 - j1 - m2)
    rw [show j1 - m1 - 1 = j1 - (m1 + 1) by ring, show j2 + m2 + 1 - 1 = j2 + m2 by ring,
      show j3 - j2 + m1 + 1 - 1 = j3 - j2 + m1 by ring, show j3 - j1 - m2 - 1 = j3 - j1 - (m2 + 1) by ring,
      show j3 - j2 + m1 + 1 = j3 - j2 + (m1 + 1) by ring, show j2 + m2 + 1 = j2 + (m2 + 1) by ring] at key
    have l1 := lad_muF a1 a2 (r := rsum (j1 + j2 - j3) (j1 - (m1 + 1)) (j2 + m2) (j3 - j2 + (m1 + 1)) (j3 - j1 - m2))
      (fun he => rsum_zero (by omega))
    have l2 := lad_muF b1 b2 (r := rsum (j1 + j2 - j3) (j1 - m1) (j2 + (m2 + 1)) (j3 - j2 + m1) (j3 - j1 - (m2 + 1)))
      (fun he => rsum_zero (by omega))
    have l3 := lad_muF c1 c2 (r := rsum (j1 + j2 - j3) (j1 - m1) (j2 + m2) (j3 - j2 + m1) (j3 - j1 - m2))
      (fun he => rsum_zero (by omega))
    have hs : (-1 : ℝ) ^ (j1 - j2 - (m3 + 1)) = -(-1) ^ (j1 - j2 - m3) := by
      rw [show j1 - j2 - m3 = j1 - j2 - (m3 + 1) + 1 by ring, negOne_succ]; ring
    have hm : (m3 : ℝ) = -1 - m1 - m2 := by
      have : m3 = -1 - m1 - m2 := by omega
      exact_mod_cast this
    rw [hs]
    push_cast at key
    generalize rsum (j1 + j2 - j3) (j1 - (m1 + 1)) (j2 + m2) (j3 - j2 + (m1 + 1)) (j3 - j1 - m2) = r1 at *
    generalize rsum (j1 + j2 - j3) (j1 - m1) (j2 + (m2 + 1)) (j3 - j2 + m1) (j3 - j1 - (m2 + 1)) = r2 at *
    generalize rsum (j1 + j2 - j3) (j1 - m1) (j2 + m2) (j3 - j2 + m1) (j3 - j1 - m2) = r3 at *
    rw [hm] at l3
    obtain ⟨s, hs'⟩ : ∃ s, s = (-1 : ℝ) ^ (j1 - j2 - m3) * Real.sqrt (triF j1 j2 j3) := ⟨_, rfl⟩
    rw [show -(-1 : ℝ) ^ (j1 - j2 - m3) * Real.sqrt (triF j1 j2 j3) = -s by rw [hs']; ring, ← hs']
    linear_combination s * muF j2 m2 * muF j3 m3 * l1 + s * muF j1 m1 * muF j3 m3 * l2
      - s * muF j1 m1 * muF j2 m2 * l3 + s * (muF j1 m1 * muF j2 m2 * muF j3 m3) * key
  · have z : ∀ a b c : ℤ, ¬ (|a| ≤ j1 ∧ |b| ≤ j2 ∧ |c| ≤ j3) → threeJ j1 j2 j3 a b c = 0 :=
      fun a b c hc => threeJ_eq_zero fun ha => hc ⟨ha.2.1, ha.2.2.1, ha.2.2.2.1⟩
    have z1 : lad j1 m1 * threeJ j1 j2 j3 (m1 + 1) m2 m3 = 0 := by
      by_cases he : m1 = -j1 - 1
      · have : lad j1 m1 = 0 := by
          unfold lad
          rw [he, show (j1 - (-j1 - 1)) * (j1 + (-j1 - 1) + 1) = 0 by ring]; simp
        rw [this, zero_mul]
      · rw [z _ _ _ (by rw [abs_le, abs_le, abs_le]; omega), mul_zero]
    have z2 : lad j2 m2 * threeJ j1 j2 j3 m1 (m2 + 1) m3 = 0 := by
      by_cases he : m2 = -j2 - 1
      · have : lad j2 m2 = 0 := by
          unfold lad
          rw [he, show (j2 - (-j2 - 1)) * (j2 + (-j2 - 1) + 1) = 0 by ring]; simp
        rw [this, zero_mul]
      · rw [z _ _ _ (by rw [abs_le, abs_le, abs_le]; omega), mul_zero]
    have z3 : lad j3 m3 * threeJ j1 j2 j3 m1 m2 (m3 + 1) = 0 := by
      by_cases he : m3 = -j3 - 1
      · have : lad j3 m3 = 0 := by
          unfold lad
          rw [he, show (j3 - (-j3 - 1)) * (j3 + (-j3 - 1) + 1) = 0 by ring]; simp
        rw [this, zero_mul]
      · rw [z _ _ _ (by rw [abs_le, abs_le, abs_le]; omega), mul_zero]
    rw [z1, z2, z3]; ring

theorem lad_neg (j m : ℤ) : lad j (-m) = lad j (m - 1) := by
  unfold lad; congr 2; ring

/-- Lowering. -/
theorem threeJ_lower {j1 j2 j3 m1 m2 m3 : ℤ} (h : m1 + m2 + m3 = 1) :
    lad j1 (m1 - 1) * threeJ j1 j2 j3 (m1 - 1) m2 m3 + lad j2 (m2 - 1) * threeJ j1 j2 j3 m1 (m2 - 1) m3
      + lad j3 (m3 - 1) * threeJ j1 j2 j3 m1 m2 (m3 - 1) = 0 := by
  have key := threeJ_raise (j1 := j1) (j2 := j2) (j3 := j3) (m1 := -m1) (m2 := -m2) (m3 := -m3) (by omega)
  rw [show -m1 + 1 = -(m1 - 1) by ring, show -m2 + 1 = -(m2 - 1) by ring, show -m3 + 1 = -(m3 - 1) by ring,
    threeJ_neg, threeJ_neg, threeJ_neg, lad_neg, lad_neg, lad_neg] at key
  have hs : (-1 : ℝ) ^ (j1 + j2 + j3) ≠ 0 := zpow_ne_zero _ (by norm_num)
  apply mul_left_cancel₀ hs
  rw [mul_zero, ← key]; ring

end SF
