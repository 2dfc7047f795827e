import Verif.Lemmas.ThreeJOrth
import Verif.Lemmas.Tri2

/-!
# The row `j ↦ (j j2 j3; m1 m2 m3)` of 3-j symbols: end values, signs, no plateau
-/

set_option autoImplicit false

namespace SF

open Spec Finset

/-- The 3-j symbols of one call, indexed by `j`. -/
noncomputable def row3 (j2 j3 m2 m3 j : ℤ) : ℝ := threeJ j j2 j3 (-(m2 + m3)) m2 m3

theorem invFact_pos' {n : ℤ} (h : 0 ≤ n) : 0 < invFact n := by
  unfold invFact; rw [if_pos h]; positivity

/-- `sqrt T(j)` in `threeJ_eq_rS`. -/
noncomputable def rowT (j2 j3 m1 j : ℤ) : ℝ := Real.sqrt (triF j2 j3 j * (fact (j + m1) * fact (j - m1)))

theorem rowT_pos (j2 j3 m1 j : ℤ) : 0 < rowT j2 j3 m1 j := by
  unfold rowT
  have := triF_pos j2 j3 j
  have := fact_pos (j + m1)
  have := fact_pos (j - m1)
  exact Real.sqrt_pos.2 (by positivity)

/-- The value as (sign common to the row) × (positive) × (Racah sum). -/
theorem row3_eq (j2 j3 m2 m3 j : ℤ) : row3 j2 j3 m2 m3 j = (-1 : ℝ) ^ (j2 - j3 + m2 + m3)
    * ((muF j2 m2 * muF j3 m3) * rowT j2 j3 (-(m2 + m3)) j * rS j2 j3 m2 m3 j) := by
  unfold row3 rowT
  rw [threeJ_eq_rS (by omega), show j2 - j3 - -(m2 + m3) = j2 - j3 + m2 + m3 by ring]
  ring

theorem row3_top {j2 j3 m2 m3 : ℤ} (h2 : |m2| ≤ j2) (h3 : |m3| ≤ j3) : 0 < rS j2 j3 m2 m3 (j2 + j3) := by
  rw [abs_le] at h2 h3
  unfold rS
  rw [show j2 + j3 - (j2 + j3) = 0 by ring, rsum_perm12, rsum_single]
  have a1 := invFact_pos' (n := j2 - m2) (by omega)
  have a2 := invFact_pos' (n := j3 + m3) (by omega)
  have a3 := invFact_pos' (n := j2 + j3 - j3 + m2) (by omega)
  have a4 := invFact_pos' (n := j2 + j3 - j2 - m3) (by omega)
  positivity

theorem row3_top_ne {j2 j3 m2 m3 : ℤ} (h2 : |m2| ≤ j2) (h3 : |m3| ≤ j3) : row3 j2 j3 m2 m3 (j2 + j3) ≠ 0 := by
  rw [row3_eq]
  have := row3_top h2 h3
  have := muF_pos j2 m2
  have := muF_pos j3 m3
  have := rowT_pos j2 j3 (-(m2 + m3)) (j2 + j3)
  exact mul_ne_zero (zpow_ne_zero _ (by norm_num)) (by positivity)

/-- `(0 j j; 0 m -m)` does not vanish. -/
theorem row3_zero_ne {j m : ℤ} (h : |m| ≤ j) : row3 j j m (-m) 0 ≠ 0 := by
  rw [abs_le] at h
  rw [row3_eq]
  have e : rS j j m (-m) 0 = (-1 : ℝ) ^ (m - j) * (invFact (j + m) * invFact (j - m)) := by
    unfold rS
    rw [rsum_shift, show j - m + (0 - j + m) = 0 by ring, show j + -m + (0 - j + m) = 0 by ring, rsum_single,
      show (0 : ℤ) - j - -m - (0 - j + m) = 0 by ring, show j + j - 0 + (0 - j + m) = j + m by ring,
      show -(0 - j + m) = j - m by ring, show (0 : ℤ) - j + m = m - j by ring, invFact_zero]
    ring
  rw [e]
  have a1 := invFact_pos' (n := j + m) (by omega)
  have a2 := invFact_pos' (n := j - m) (by omega)
  have := muF_pos j m
  have := muF_pos j (-m)
  have := rowT_pos j j (-(m + -m)) 0
  refine mul_ne_zero (zpow_ne_zero _ (by norm_num)) (mul_ne_zero (by positivity) ?_)
  exact mul_ne_zero (zpow_ne_zero _ (by norm_num)) (by positivity)

theorem recA_pos {j2 j3 m x : ℤ} (h1 : max |j2 - j3| |m| < x) (h2 : x ≤ j2 + j3) : 0 < recA j2 j3 m x := by
  unfold recA
  refine Real.sqrt_pos.2 ?_
  have hp : |j2 - j3| < x := lt_of_le_of_lt (le_max_left _ _) h1
  have hm : |m| < x := lt_of_le_of_lt (le_max_right _ _) h1
  have hx : 0 < x := lt_of_le_of_lt (abs_nonneg _) hp
  have e1 : 0 < x ^ 2 - (j2 - j3) ^ 2 := sub_pos.2 (sq_lt_sq' (by rw [abs_lt] at hp; omega) (lt_of_le_of_lt (le_abs_self _) hp))
  have e2 : 0 < x ^ 2 - m ^ 2 := sub_pos.2 (sq_lt_sq' (by rw [abs_lt] at hm; omega) (lt_of_le_of_lt (le_abs_self _) hm))
  have e3 : 0 < (j2 + j3 + 1) ^ 2 - x ^ 2 := sub_pos.2 (sq_lt_sq' (by omega) (by omega))
  have := mul_pos (mul_pos e1 e3) e2
  exact_mod_cast this

theorem recA_bot (j2 j3 m : ℤ) : recA j2 j3 m (max |j2 - j3| |m|) = 0 := by
  unfold recA
  rcases max_choice |j2 - j3| |m| with h | h <;> rw [h, sq_abs] <;> simp

theorem recA_top (j2 j3 m : ℤ) : recA j2 j3 m (j2 + j3 + 1) = 0 := by
  unfold recA; simp

/-- For vanishing `m`, every second symbol vanishes. -/
theorem row3_odd {j2 j3 j : ℤ} (h : (j + j2 + j3) % 2 = 1) : row3 j2 j3 0 0 j = 0 := by
  have := threeJ_neg j j2 j3 (-(0 + 0)) 0 0
  have ho : Odd (j + j2 + j3) := Int.odd_iff.2 h
  rw [ho.neg_one_zpow] at this
  unfold row3
  simp only [neg_zero, add_zero] at this ⊢
  linarith

/-! ### No plateau -/

/-- The stretched column: all Racah sums are positive. -/
theorem rS_stretched {j2 j3 m2 m3 j : ℤ} (h2 : |m2| ≤ j2) (h3 : |m3| ≤ j3) (hs : m2 = j2 ∨ m3 = -j3)
    (hj : max |j2 - j3| |m2 + m3| ≤ j) (hj' : j ≤ j2 + j3) : 0 < rS j2 j3 m2 m3 j := by
  rw [abs_le] at h2 h3
  have hp := abs_le.1 ((le_max_left _ _).trans hj)
  have hm := abs_le.1 ((le_max_right _ _).trans hj)
  unfold rS
  rcases hs with rfl | rfl
  · rw [sub_self, rsum_single]
    have a1 := invFact_pos' (n := m2 + j3 - j) (by omega)
    have a2 := invFact_pos' (n := j3 + m3) (by omega)
    have a3 := invFact_pos' (n := j - j3 + m2) (by omega)
    have a4 := invFact_pos' (n := j - m2 - m3) (by omega)
    positivity
  · rw [show j3 + -j3 = 0 by ring, rsum_perm23, rsum_single]
    have a1 := invFact_pos' (n := j2 + j3 - j) (by omega)
    have a2 := invFact_pos' (n := j2 - m2) (by omega)
    have a3 := invFact_pos' (n := j - j3 + m2) (by omega)
    have a4 := invFact_pos' (n := j - j2 - -j3) (by omega)
    positivity

/-- Ratio of neighbouring Racah sums in a stretched column. -/
theorem rS_stretched_ratio {j2 j3 m2 m3 : ℤ} (hs : m2 = j2 ∨ m3 = -j3) :
    ∃ p μ : ℤ, ((p = j2 - j3 ∧ μ = -(m2 + m3)) ∨ (p = -(j2 - j3) ∧ μ = m2 + m3)) ∧
      ∀ j, max |j2 - j3| |m2 + m3| ≤ j → j + 1 ≤ j2 + j3 →
      ((j2 + j3 - j : ℤ) : ℝ) * rS j2 j3 m2 m3 j
        = ((j + 1 + p : ℤ) : ℝ) * ((j + 1 + μ : ℤ) : ℝ) * rS j2 j3 m2 m3 (j + 1) := by
  rcases hs with rfl | rfl
  · refine ⟨m2 - j3, -(m2 + m3), Or.inl ⟨rfl, rfl⟩, ?_⟩
    intro j h1 h2
    have hp := abs_le.1 ((le_max_left _ _).trans h1)
    have hm := abs_le.1 ((le_max_right _ _).trans h1)
    unfold rS
    rw [sub_self, rsum_single, rsum_single]
    have e1 := mul_invFact (m2 + j3 - j)
    have e2 := mul_invFact (j + 1 - j3 + m2)
    have e3 := mul_invFact (j + 1 - m2 - m3)
    rw [show m2 + j3 - j - 1 = m2 + j3 - (j + 1) by ring] at e1
    rw [show j + 1 - j3 + m2 - 1 = j - j3 + m2 by ring] at e2
    rw [show j + 1 - m2 - m3 - 1 = j - m2 - m3 by ring] at e3
    rw [← e2, ← e3, ← e1]
    push_cast; ring
  · refine ⟨-(j2 - j3), m2 + -j3, Or.inr ⟨rfl, rfl⟩, ?_⟩
    intro j h1 h2
    unfold rS
    rw [show j3 + -j3 = 0 by ring, rsum_perm23, rsum_single, rsum_perm23 _ _ 0, rsum_single]
    have e1 := mul_invFact (j2 + j3 - j)
    have e2 := mul_invFact (j + 1 - j3 + m2)
    have e3 := mul_invFact (j + 1 - j2 - -j3)
    rw [show j2 + j3 - j - 1 = j2 + j3 - (j + 1) by ring] at e1
    rw [show j + 1 - j3 + m2 - 1 = j - j3 + m2 by ring] at e2
    rw [show j + 1 - j2 - -j3 - 1 = j - j2 - -j3 by ring] at e3
    rw [← e2, ← e3, ← e1]
    push_cast; ring


/-- A row in which all values have one sign is the stretched one. -/
theorem one_sign_stretched {j2 j3 m2 m3 : ℤ} (h2 : |m2| ≤ j2) (h3 : |m3| ≤ j3)
    (hs : ∀ i, max |j2 - j3| |m2 + m3| ≤ i → i ≤ j2 + j3 →
      ∃ r, 0 < r ∧ row3 j2 j3 m2 m3 (j2 + j3) = r * row3 j2 j3 m2 m3 i) : m2 = j2 ∨ m3 = -j3 := by
  by_contra hcon
  push Not at hcon
  have h2' := abs_le.1 h2
  have h3' := abs_le.1 h3
  obtain ⟨M, hM⟩ : ∃ M, M = min j2 (j3 + m2 + m3) := ⟨_, rfl⟩
  obtain ⟨N, hN⟩ : ∃ N, N = m2 + m3 - M := ⟨_, rfl⟩
  have hM2 : |M| ≤ j2 := abs_le.2 (by omega)
  have hN3 : |N| ≤ j3 := abs_le.2 (by omega)
  have hst : M = j2 ∨ N = -j3 := by omega
  have horth := threeJ_orth_j (j2 := j2) (j3 := j3) (m1 := -(m2 + m3)) (m2 := m2) (m2' := M) h2
    (by rw [show - -(m2 + m3) - m2 = m3 by ring]; exact h3) hM2
    (by rw [show - -(m2 + m3) - M = N by rw [hN]; ring]; exact hN3)
  rw [if_neg (by omega), show - -(m2 + m3) - m2 = m3 by ring, show - -(m2 + m3) - M = N by rw [hN]; ring, abs_neg] at horth
  have hsum : m2 + m3 = M + N := by omega
  have hu : ∀ i, threeJ i j2 j3 (-(m2 + m3)) M N = row3 j2 j3 M N i := by intro i; rw [hsum]; rfl
  have hpos : 0 < ∑ j ∈ Icc (max |j2 - j3| |m2 + m3|) (j2 + j3), ((2 * (j : ℝ) + 1)
      * (threeJ j j2 j3 (-(m2 + m3)) m2 m3 * threeJ j j2 j3 (-(m2 + m3)) M N))
        * ((-1 : ℝ) ^ (j2 - j3 + M + N) * row3 j2 j3 m2 m3 (j2 + j3)) := by
    refine sum_pos ?_ ⟨j2 + j3, mem_Icc.2 ⟨max_le (abs_le.2 (by omega)) (abs_le.2 (by omega)), le_refl _⟩⟩
    intro i hi
    rw [mem_Icc] at hi
    obtain ⟨r, hr, e⟩ := hs i hi.1 hi.2
    have hne : row3 j2 j3 m2 m3 i ≠ 0 := by
      intro h0; rw [h0, mul_zero] at e; exact row3_top_ne h2 h3 e
    have hi0 : (0 : ℝ) ≤ i := by
      exact_mod_cast (abs_nonneg _).trans ((le_max_left _ _).trans hi.1)
    rw [hu, e, row3_eq j2 j3 M N i]
    have a1 := rS_stretched hM2 hN3 hst (by rw [← hsum]; exact hi.1) hi.2
    have a2 := muF_pos j2 M
    have a3 := muF_pos j3 N
    have a4 := rowT_pos j2 j3 (-(M + N)) i
    have a5 : (-1 : ℝ) ^ (j2 - j3 + M + N) * (-1 : ℝ) ^ (j2 - j3 + M + N) = 1 := by
      rcases Int.even_or_odd (j2 - j3 + M + N) with h | h <;> rw [h.neg_one_zpow] <;> norm_num
    change 0 < (2 * (i : ℝ) + 1) * (row3 j2 j3 m2 m3 i * _) * _
    have : (2 * (i : ℝ) + 1) * (row3 j2 j3 m2 m3 i * ((-1 : ℝ) ^ (j2 - j3 + M + N) *
        (muF j2 M * muF j3 N * rowT j2 j3 (-(M + N)) i * rS j2 j3 M N i))) * ((-1 : ℝ) ^ (j2 - j3 + M + N) * (r * row3 j2 j3 m2 m3 i))
      = (2 * (i : ℝ) + 1) * (row3 j2 j3 m2 m3 i ^ 2 * r * (muF j2 M * muF j3 N * rowT j2 j3 (-(M + N)) i * rS j2 j3 M N i))
        * ((-1 : ℝ) ^ (j2 - j3 + M + N) * (-1 : ℝ) ^ (j2 - j3 + M + N)) := by ring
    rw [this, a5]
    positivity
  rw [← sum_mul, horth, zero_mul] at hpos
  exact lt_irrefl _ hpos

/-- In the stretched row, consecutive equal values happen only where `(j+1)²` has one definite value. -/
theorem stretched_step {j2 j3 m2 m3 : ℤ} (h2 : |m2| ≤ j2) (h3 : |m3| ≤ j3) (hs : m2 = j2 ∨ m3 = -j3) :
    ∃ C : ℤ, ∀ j, max |j2 - j3| |m2 + m3| ≤ j → j + 1 ≤ j2 + j3 → row3 j2 j3 m2 m3 (j + 1) = row3 j2 j3 m2 m3 j →
      (j + 1) ^ 2 = C := by
  obtain ⟨p, μ, hpμ, hr⟩ := rS_stretched_ratio hs
  refine ⟨-((j2 + j3 + 1) * (p + μ) + p * μ), ?_⟩
  intro j h1 h1' he
  have hp := (le_max_left _ _).trans h1
  have hm : |-(m2 + m3)| ≤ j := by rw [abs_neg]; exact (le_max_right _ _).trans h1
  have hj0 : 0 ≤ j := (abs_nonneg _).trans hp
  have hst := recA_step hp hm h1'
  have hR := hr j h1 h1'
  have hS := rS_stretched h2 h3 hs h1 (by omega)
  have hS' := rS_stretched h2 h3 hs (j := j + 1) (by omega) h1'
  rw [row3_eq, row3_eq] at he
  have he' := mul_left_cancel₀ (zpow_ne_zero _ (by norm_num)) he
  rw [mul_assoc, mul_assoc (muF j2 m2 * muF j3 m3)] at he'
  have hmu : muF j2 m2 * muF j3 m3 ≠ 0 := by
    have := muF_pos j2 m2; have := muF_pos j3 m3; positivity
  have he2 := mul_left_cancel₀ hmu he'
  have hA := recA_pos (j2 := j2) (j3 := j3) (m := -(m2 + m3)) (x := j + 1)
    (by rw [abs_neg]; omega) h1'
  obtain ⟨s1, s2⟩ := hst
  change recA j2 j3 (-(m2 + m3)) (j + 1) * rowT j2 j3 (-(m2 + m3)) (j + 1)
    = _ * rowT j2 j3 (-(m2 + m3)) j at s1
  change recA j2 j3 (-(m2 + m3)) (j + 1) * rowT j2 j3 (-(m2 + m3)) j
    = _ * rowT j2 j3 (-(m2 + m3)) (j + 1) at s2
  have hT := rowT_pos j2 j3 (-(m2 + m3)) j
  have hT' := rowT_pos j2 j3 (-(m2 + m3)) (j + 1)
  generalize rowT j2 j3 (-(m2 + m3)) j = T at *
  generalize rowT j2 j3 (-(m2 + m3)) (j + 1) = T' at *
  generalize recA j2 j3 (-(m2 + m3)) (j + 1) = A at *
  generalize rS j2 j3 m2 m3 j = S at *
  generalize rS j2 j3 m2 m3 (j + 1) = S' at *
  -- the p and μ versions of the step
  have hsq : ((p : ℝ)) ^ 2 = (j2 - j3) ^ 2 ∧ (μ : ℝ) ^ 2 = ((-(m2 + m3) : ℤ) : ℝ) ^ 2 := by
    rcases hpμ with ⟨q1, q2⟩ | ⟨q1, q2⟩ <;> rw [q1, q2] <;> constructor <;> push_cast <;> ring
  rw [← hsq.1, ← hsq.2] at s1
  have hpj : -j ≤ p ∧ p ≤ j := by
    have := abs_le.1 hp
    rcases hpμ with ⟨q1, q2⟩ | ⟨q1, q2⟩ <;> omega
  have hμj : -j ≤ μ ∧ μ ≤ j := by
    have := abs_le.1 hm
    rcases hpμ with ⟨q1, q2⟩ | ⟨q1, q2⟩ <;> omega
  have b1 : (0 : ℝ) < (j : ℝ) + 1 + p := by exact_mod_cast (by omega : 0 < j + 1 + p)
  have b2 : (0 : ℝ) < (j : ℝ) + 1 + μ := by exact_mod_cast (by omega : 0 < j + 1 + μ)
  have b3 : (0 : ℝ) < (j2 : ℝ) + j3 - j := by exact_mod_cast (by omega : 0 < j2 + j3 - j)
  push_cast at hR
  -- eliminate
  have k1 : T' ^ 2 * (((j2 : ℝ) + j3 - j) * (j2 + j3 + j + 2)) = T ^ 2 * ((((j : ℝ) + 1) ^ 2 - p ^ 2) * ((j + 1) ^ 2 - μ ^ 2)) := by
    have := mul_left_cancel₀ hA.ne' (show A * (T' * T * 1) = A * (T' * T * 1) from rfl)
    calc T' ^ 2 * (((j2 : ℝ) + j3 - j) * (j2 + j3 + j + 2)) = (((j2 : ℝ) + j3 - j) * (j2 + j3 + j + 2) * T') * T' := by ring
      _ = A * T * T' := by rw [← s2]
      _ = (A * T') * T := by ring
      _ = _ := by rw [s1]; ring
  have k2 : T' ^ 2 * S' ^ 2 = T ^ 2 * S ^ 2 := by rw [← mul_pow, he2, mul_pow]
  have k3 : (((j2 : ℝ) + j3 - j)) ^ 2 * S ^ 2 = (((j : ℝ) + 1 + p) * (j + 1 + μ)) ^ 2 * S' ^ 2 := by
    rw [← mul_pow, hR, mul_pow]
  have k4 : ((j : ℝ) + 1 - p) * (j + 1 - μ) * (j2 + j3 - j) = (j2 + j3 + j + 2) * (j + 1 + p) * (j + 1 + μ) := by
    have hx : (T ^ 2 * S' ^ 2 * (((j : ℝ) + 1 + p) * (j + 1 + μ) * (j2 + j3 - j))) ≠ 0 := by positivity
    apply mul_left_cancel₀ hx
    have e1 : T ^ 2 * S' ^ 2 * (((j : ℝ) + 1 + p) * (j + 1 + μ) * (j2 + j3 - j)) * (((j : ℝ) + 1 - p) * (j + 1 - μ) * (j2 + j3 - j))
        = (T ^ 2 * ((((j : ℝ) + 1) ^ 2 - p ^ 2) * ((j + 1) ^ 2 - μ ^ 2))) * S' ^ 2 * ((j2 : ℝ) + j3 - j) ^ 2 := by ring
    rw [e1, ← k1]
    have e2 : T' ^ 2 * (((j2 : ℝ) + j3 - j) * (j2 + j3 + j + 2)) * S' ^ 2 * ((j2 : ℝ) + j3 - j) ^ 2
        = (T' ^ 2 * S' ^ 2) * ((j2 + j3 - j) * (j2 + j3 + j + 2)) * ((j2 : ℝ) + j3 - j) ^ 2 := by ring
    rw [e2, k2]
    have e3 : T ^ 2 * S ^ 2 * (((j2 : ℝ) + j3 - j) * (j2 + j3 + j + 2)) * ((j2 : ℝ) + j3 - j) ^ 2
        = T ^ 2 * ((((j2 : ℝ) + j3 - j)) ^ 2 * S ^ 2) * ((j2 + j3 - j) * (j2 + j3 + j + 2)) := by ring
    rw [e3, k3]; ring
  have k5 : ((j : ℝ) + 1) * ((j + 1) ^ 2 + ((j2 + j3 + 1) * (p + μ) + p * μ)) = 0 := by
    linear_combination (-1 / 2 : ℝ) * k4
  have hj1 : ((j : ℝ) + 1) ≠ 0 := by exact_mod_cast (by omega : j + 1 ≠ 0)
  have k6 := (mul_eq_zero.1 k5).resolve_left hj1
  have k7 : (j + 1) ^ 2 + ((j2 + j3 + 1) * (p + μ) + p * μ) = 0 := by exact_mod_cast k6
  linarith

/-- No three equal consecutive values in a row without sign change. -/
theorem no_plateau {j2 j3 m2 m3 k : ℤ} (h2 : |m2| ≤ j2) (h3 : |m3| ≤ j3)
    (hs : ∀ i, max |j2 - j3| |m2 + m3| ≤ i → i ≤ j2 + j3 →
      ∃ r, 0 < r ∧ row3 j2 j3 m2 m3 (j2 + j3) = r * row3 j2 j3 m2 m3 i)
    (hk : max |j2 - j3| |m2 + m3| ≤ k - 1) (hk' : k + 1 ≤ j2 + j3)
    (e1 : row3 j2 j3 m2 m3 k = row3 j2 j3 m2 m3 (k - 1)) (e2 : row3 j2 j3 m2 m3 (k + 1) = row3 j2 j3 m2 m3 k) : False := by
  obtain ⟨C, hC⟩ := stretched_step h2 h3 (one_sign_stretched h2 h3 hs)
  have a1 := hC (k - 1) hk (by omega) (by rw [sub_add_cancel]; exact e1)
  have a2 := hC k (by omega) hk' e2
  have : 0 ≤ k - 1 := (abs_nonneg _).trans ((le_max_left _ _).trans hk)
  rw [sub_add_cancel] at a1
  nlinarith

/-- The forward and the reverse ratios cannot both be admissible at the meeting point. -/
theorem no_double_good {j2 j3 m2 m3 jm : ℤ} (h2 : |m2| ≤ j2) (h3 : |m3| ≤ j3) {sf rf : List ℝ}
    (ha : max |j2 - j3| |m2 + m3| + 2 ≤ jm) (hb : jm ≤ j2 + j3 - 2)
    (hf : FwdGood (row3 j2 j3 m2 m3) sf (max |j2 - j3| |m2 + m3|) jm)
    (hr : RevGood (row3 j2 j3 m2 m3) rf jm (j2 + j3)) : False := by
  have hbne := row3_top_ne h2 h3
  have hne : ∀ i, jm - 1 ≤ i → i ≤ j2 + j3 → row3 j2 j3 m2 m3 i ≠ 0 := fun i i1 i2 => hr.ne hbne i1 i2
  obtain ⟨s, _, s0, s1, es⟩ := hf jm (by omega) (le_refl _)
  obtain ⟨s', _, s0', s1', es'⟩ := hf (jm - 1) (by omega) (by omega)
  obtain ⟨r, _, r0, r1, er⟩ := hr (jm + 1) (by omega) (by omega)
  obtain ⟨r', _, r0', r1', er'⟩ := hr jm (le_refl _) (by omega)
  rw [add_sub_cancel_right] at er
  rw [sub_add_cancel] at es'
  have one : ∀ x y u v : ℝ, u ≠ 0 → u = x * v → v = y * u → 0 < x → x ≤ 1 → 0 < y → y ≤ 1 → v = u := by
    intro x y u v hu h1 h2 x0 x1 y0 y1
    have : x * y = 1 := by
      have h : u * 1 = u * (x * y) := by
        calc u * 1 = x * v := by rw [mul_one]; exact h1
          _ = x * (y * u) := by rw [← h2]
          _ = _ := by ring
      exact (mul_left_cancel₀ hu h).symm
    have hy : y = 1 := by nlinarith
    rw [h2, hy, one_mul]
  refine no_plateau h2 h3 ?_ (k := jm) (by omega) (by omega)
    (one s' r' _ _ (hne (jm - 1) (le_refl _) (by omega)) es' er' s0' (s1' (by omega)) r0' (r1' (by omega)))
    (one s r _ _ (hne jm (by omega) (by omega)) es er s0 (s1 (by omega)) r0 (r1 (by omega)))
  intro i i1 i2
  by_cases h : jm - 1 ≤ i
  · exact hr.same_sign h i2
  · obtain ⟨t, t0, et⟩ := hr.same_sign (i := jm) (by omega) (by omega)
    obtain ⟨u, u0, eu⟩ := hf.same_sign (i := i) i1 (by omega)
    obtain ⟨v, v0, ev⟩ := hf.same_sign (i := jm) (by omega) (by omega)
    refine ⟨t * (u / v), by positivity, ?_⟩
    have : row3 j2 j3 m2 m3 jm = u / v * row3 j2 j3 m2 m3 i := by
      rw [div_mul_eq_mul_div, ← eu, ev, mul_div_cancel_left₀ _ v0.ne']
    rw [et, this, mul_assoc]

end SF
