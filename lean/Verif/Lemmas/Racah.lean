import Verif.Spec.ThreeJ
import Mathlib.Algebra.BigOperators.Finprod
import Mathlib.Tactic.Ring
import Mathlib.Tactic.Linarith
import Mathlib.Tactic.FieldSimp
import Mathlib.Tactic.LinearCombination

/-!
# The Racah sum: symmetries, three-term recurrence in `j`, ladder relation
-/

set_option autoImplicit false

namespace SF

open Finset Spec

/-! ## Inverse factorials -/

theorem invFact_neg {n : ℤ} (h : n < 0) : invFact n = 0 := by unfold invFact; rw [if_neg (by omega)]

theorem invFact_pos {n : ℤ} (h : 0 ≤ n) : 0 < invFact n := by
  unfold invFact; rw [if_pos h]; positivity

theorem fact_pos (n : ℤ) : 0 < fact n := by unfold fact; positivity

theorem fact_mul_invFact {n : ℤ} (h : 0 ≤ n) : fact n * invFact n = 1 := by
  unfold fact invFact; rw [if_pos h]
  have : ((n.toNat.factorial : ℕ) : ℝ) ≠ 0 := by positivity
  field_simp

theorem fact_succ {n : ℤ} (h : 0 ≤ n) : fact (n + 1) = (n + 1) * fact n := by
  unfold fact
  obtain ⟨k, rfl⟩ := Int.eq_ofNat_of_zero_le h
  rw [show ((k : ℤ) + 1).toNat = k + 1 by omega, show ((k : ℤ)).toNat = k by omega, Nat.factorial_succ]
  push_cast
  ring

theorem fact_pred {n : ℤ} (h : 1 ≤ n) : fact n = n * fact (n - 1) := by
  have := fact_succ (n := n - 1) (by omega)
  rw [show n - 1 + 1 = n by ring] at this
  rw [this]; push_cast; ring

theorem mul_invFact (n : ℤ) : (n : ℝ) * invFact n = invFact (n - 1) := by
  rcases lt_trichotomy n 0 with h | h | h
  · rw [invFact_neg h, invFact_neg (by omega), mul_zero]
  · subst h; simp [invFact_neg (show (-1 : ℤ) < 0 by norm_num)]
  · have h1 := fact_mul_invFact (n := n) (by omega)
    have h2 := fact_mul_invFact (n := n - 1) (by omega)
    have h3 := fact_pred (n := n) (by omega)
    have h4 := (fact_pos (n - 1)).ne'
    have h5 : (n : ℝ) ≠ 0 := by exact_mod_cast h.ne'
    rw [h3] at h1
    have : fact (n - 1) * ((n : ℝ) * invFact n) = fact (n - 1) * invFact (n - 1) := by
      rw [h2, ← h1]; ring
    exact mul_left_cancel₀ h4 this

theorem invFact_sub_one (n : ℤ) : invFact (n - 1) = n * invFact n := (mul_invFact n).symm

theorem invFact_zero : invFact 0 = 1 := by simp [invFact]

/-! ## The sum -/

/-- One term of the Racah sum. -/
noncomputable def rterm (x1 x2 x3 y1 y2 k : ℤ) : ℝ :=
  (-1 : ℝ) ^ k * (invFact k * invFact (x1 - k) * invFact (x2 - k) * invFact (x3 - k) * invFact (y1 + k) * invFact (y2 + k))

/-- The Racah sum `Σ_k (-1)^k / [k! (x1-k)! (x2-k)! (x3-k)! (y1+k)! (y2+k)!]`, over all integers. -/
noncomputable def rsum (x1 x2 x3 y1 y2 : ℤ) : ℝ := ∑ᶠ k : ℤ, rterm x1 x2 x3 y1 y2 k

theorem support_finite {f : ℤ → ℝ} {a b : ℤ} (h : ∀ k, k < a ∨ b < k → f k = 0) : (Function.support f).Finite := by
  refine Set.Finite.subset (Finset.Icc a b).finite_toSet ?_
  intro k hk
  rw [Finset.coe_Icc, Set.mem_Icc]
  by_contra hc
  exact hk (h k (by omega))

theorem rterm_zero {x1 x2 x3 y1 y2 k : ℤ}
    (h : k < 0 ∨ x1 < k ∨ x2 < k ∨ x3 < k ∨ y1 + k < 0 ∨ y2 + k < 0) : rterm x1 x2 x3 y1 y2 k = 0 := by
  unfold rterm
  rcases h with h | h | h | h | h | h
  · rw [invFact_neg h]; ring
  · rw [invFact_neg (show x1 - k < 0 by omega)]; ring
  · rw [invFact_neg (show x2 - k < 0 by omega)]; ring
  · rw [invFact_neg (show x3 - k < 0 by omega)]; ring
  · rw [invFact_neg h]; ring
  · rw [invFact_neg h]; ring

theorem rterm_support (x1 x2 x3 y1 y2 : ℤ) : (Function.support (rterm x1 x2 x3 y1 y2)).Finite :=
  support_finite (a := 0) (b := x1) fun _ hk => rterm_zero (by omega)

/-- The sum over the integers is the sum of the specification. -/
theorem rsum_eq_range (x1 x2 x3 y1 y2 : ℤ) :
    rsum x1 x2 x3 y1 y2 = ∑ k ∈ range (x1.toNat + 1), (-1 : ℝ) ^ k
        * (invFact k * invFact (x1 - k) * invFact (x2 - k) * invFact (x3 - k) * invFact (y1 + k) * invFact (y2 + k)) := by
  unfold rsum
  rw [finsum_eq_sum_of_support_subset (s := (range (x1.toNat + 1)).map ⟨fun n : ℕ => (n : ℤ), Nat.cast_injective⟩)]
  · rw [Finset.sum_map]
    refine Finset.sum_congr rfl fun (k : ℕ) _ => ?_
    simp only [Function.Embedding.coeFn_mk, rterm, zpow_natCast]
  · intro k hk
    rw [Finset.coe_map, Set.mem_image]
    by_cases h : 0 ≤ k ∧ k ≤ x1
    · exact ⟨k.toNat, by simp only [Finset.coe_range, Set.mem_Iio]; omega, by simp; omega⟩
    · exact absurd (rterm_zero (by omega)) hk

theorem rsum_perm12 (x1 x2 x3 y1 y2 : ℤ) : rsum x1 x2 x3 y1 y2 = rsum x2 x1 x3 y1 y2 :=
  finsum_congr fun k => by unfold rterm; ring

theorem rsum_perm23 (x1 x2 x3 y1 y2 : ℤ) : rsum x1 x2 x3 y1 y2 = rsum x1 x3 x2 y1 y2 :=
  finsum_congr fun k => by unfold rterm; ring

theorem rsum_permy (x1 x2 x3 y1 y2 : ℤ) : rsum x1 x2 x3 y1 y2 = rsum x1 x2 x3 y2 y1 :=
  finsum_congr fun k => by unfold rterm; ring

/-- Shift of the summation variable. -/
theorem rsum_shift (x1 x2 x3 y1 y2 : ℤ) :
    rsum x1 x2 x3 y1 y2 = (-1 : ℝ) ^ y1 * rsum (x1 + y1) (x2 + y1) (x3 + y1) (-y1) (y2 - y1) := by
  unfold rsum
  rw [← finsum_comp_equiv (Equiv.subRight y1) (f := rterm x1 x2 x3 y1 y2), mul_finsum' _ _ (rterm_support _ _ _ _ _)]
  · refine finsum_congr fun k => ?_
    simp only [Equiv.subRight_apply, rterm]
    rw [show x1 - (k - y1) = x1 + y1 - k by ring, show x2 - (k - y1) = x2 + y1 - k by ring,
      show x3 - (k - y1) = x3 + y1 - k by ring, show y1 + (k - y1) = k by ring,
      show y2 + (k - y1) = y2 - y1 + k by ring, show -y1 + k = k - y1 by ring,
      show (-1 : ℝ) ^ (k - y1) = (-1) ^ y1 * (-1) ^ k by
        rw [zpow_sub₀ (by norm_num), div_eq_mul_inv, mul_comm]
        congr 1
        rcases Int.even_or_odd y1 with h | h
        · rw [h.neg_one_zpow]; norm_num
        · rw [h.neg_one_zpow]; norm_num]
    ring

/-- Reflection of the summation variable. -/
theorem rsum_reflect (x1 x2 x3 y1 y2 : ℤ) :
    rsum x1 x2 x3 y1 y2 = (-1 : ℝ) ^ x1 * rsum x1 (x1 + y1) (x1 + y2) (x2 - x1) (x3 - x1) := by
  unfold rsum
  rw [← finsum_comp_equiv (Equiv.subLeft x1) (f := rterm x1 x2 x3 y1 y2), mul_finsum' _ _ (rterm_support _ _ _ _ _)]
  · refine finsum_congr fun k => ?_
    simp only [Equiv.subLeft_apply, rterm]
    rw [show x1 - (x1 - k) = k by ring, show x2 - (x1 - k) = x2 - x1 + k by ring,
      show x3 - (x1 - k) = x3 - x1 + k by ring, show y1 + (x1 - k) = x1 + y1 - k by ring,
      show y2 + (x1 - k) = x1 + y2 - k by ring,
      show (-1 : ℝ) ^ (x1 - k) = (-1) ^ x1 * (-1) ^ k by
        rw [zpow_sub₀ (by norm_num), div_eq_mul_inv]
        congr 1
        rcases Int.even_or_odd k with h | h
        · rw [h.neg_one_zpow]; norm_num
        · rw [h.neg_one_zpow]; norm_num]
    ring

/-- The sum is empty if one of the nine Regge entries is negative. -/
theorem rsum_zero {x1 x2 x3 y1 y2 : ℤ}
    (h : x1 < 0 ∨ x2 < 0 ∨ x3 < 0 ∨ x1 + y1 < 0 ∨ x1 + y2 < 0 ∨ x2 + y1 < 0 ∨ x2 + y2 < 0 ∨ x3 + y1 < 0 ∨ x3 + y2 < 0) :
    rsum x1 x2 x3 y1 y2 = 0 := by
  unfold rsum
  rw [← finsum_zero (α := ℤ)]
  exact finsum_congr fun k => rterm_zero (by omega)

theorem finsum_telescope {g : ℤ → ℝ} (h : (Function.support g).Finite) : ∑ᶠ k, (g (k + 1) - g k) = 0 := by
  have h' : (Function.support fun k => g (k + 1)).Finite := by
    have : (Function.support fun k => g (k + 1)) = (fun k => k + 1) ⁻¹' (Function.support g) := rfl
    rw [this]
    exact h.preimage (fun a _ b _ hab => by simpa using hab)
  rw [finsum_sub_distrib h' h, sub_eq_zero]
  exact finsum_comp_equiv (Equiv.addRight (1 : ℤ)) (f := g)

theorem negOne_succ (k : ℤ) : (-1 : ℝ) ^ (k + 1) = -(-1) ^ k := by
  rw [zpow_add₀ (by norm_num), zpow_one]; ring

/-! ## The ladder relation -/

/-- The ladder relation, in terms of the Racah sum. -/
theorem rsum_ladder (c w x y z : ℤ) :
    ((c + y : ℤ) : ℝ) * rsum c (w - 1) (x - 1) y z + (x : ℝ) * rsum c w x (y - 1) (z - 1)
      = ((w + z : ℤ) : ℝ) * rsum c w (x - 1) (y - 1) z := by
  set g : ℤ → ℝ := fun k => (-1 : ℝ) ^ k * (invFact (k - 1) * invFact (c - k) * invFact (w - k) * invFact (x - k)
    * invFact (y + k - 1) * invFact (z + k - 1)) with hg
  have hsup : (Function.support g).Finite := support_finite (a := 1) (b := c) fun k hk => by
    simp only [hg]
    rcases hk with h | h
    · rw [invFact_neg (show k - 1 < 0 by omega)]; ring
    · rw [invFact_neg (show c - k < 0 by omega)]; ring
  have key := finsum_telescope hsup
  have e : ∀ k, g (k + 1) - g k = -(((c + y : ℤ) : ℝ) * rterm c (w - 1) (x - 1) y z k
      + (x : ℝ) * rterm c w x (y - 1) (z - 1) k - ((w + z : ℤ) : ℝ) * rterm c w (x - 1) (y - 1) z k) := by
    intro k
    simp only [hg, rterm, negOne_succ]
    rw [show k + 1 - 1 = k by ring, show c - (k + 1) = (c - k) - 1 by ring, show w - (k + 1) = (w - k) - 1 by ring,
      show x - (k + 1) = (x - k) - 1 by ring, show y + (k + 1) - 1 = y + k by ring, show z + (k + 1) - 1 = z + k by ring,
      show w - 1 - k = (w - k) - 1 by ring, show x - 1 - k = (x - k) - 1 by ring,
      show y - 1 + k = (y + k) - 1 by ring, show z - 1 + k = (z + k) - 1 by ring]
    simp only [invFact_sub_one]
    push_cast
    ring
  have h1 := rterm_support c (w - 1) (x - 1) y z
  have h2 := rterm_support c w x (y - 1) (z - 1)
  have h3 := rterm_support c w (x - 1) (y - 1) z
  have hf : ∀ (r : ℝ) {f : ℤ → ℝ}, (Function.support f).Finite → (Function.support fun k => r * f k).Finite :=
    fun r f hf => hf.subset fun k hk h0 => hk (by show r * f k = 0; rw [h0, mul_zero])
  rw [finsum_congr e, finsum_neg_distrib, finsum_sub_distrib ((hf _ h1).union (hf _ h2) |>.subset
    (Function.support_add _ _)) (hf _ h3), finsum_add_distrib (hf _ h1) (hf _ h2), ← mul_finsum' _ _ h1,
    ← mul_finsum' _ _ h2, ← mul_finsum' _ _ h3] at key
  unfold rsum
  linarith

/-! ## The three-term recurrence in `j` -/

/-- The factor of the certificate. -/
def certX (j j2 j3 m2 m3 k : ℝ) : ℝ :=
  (-1 - j3 - j2 - j*j3 - j*j2 + j^2) * k^2
  + (m3 - m2 + j3 + j3*m3 - j3*m2 + j3^2 + j2 + j2*m3 - j2*m2 + 2*j2*j3 + j2^2 - 3*j + j*m3 - j*m2 - 3*j*j3
    - 2*j*j3*m2 + j*j3^2 - 3*j*j2 + 2*j*j2*m3 + 2*j*j2*j3 + j*j2^2 - 4*j^2*j3 - 4*j^2*j2 + 3*j^3) * k
  + (m2*m3 - j3*m3 + j3*m2*m3 - j3^2*m3 + j2*m2 + j2*m2*m3 - j2*j3 - j2*j3*m3 + j2*j3*m2 - j2*j3^2 + j2^2*m2
    - j2^2*j3 - j + 2*j*m3 - 2*j*m2 + 2*j*m2*m3 + j*j3 + j*j3*m3 - j*j3*m2 + j*j3*m2*m3 + 2*j*j3^2 + j*j3^2*m2
    + j*j2 + j*j2*m3 - j*j2*m2 + j*j2*m2*m3 + 2*j*j2*j3 - j*j2*j3*m3 + j*j2*j3*m2 - j*j2*j3^2 + 2*j*j2^2
    - j*j2^2*m3 - j*j2^2*j3 - 4*j^2 + 2*j^2*m3 - 2*j^2*m2 + j^2*m2*m3 - 3*j^2*j3 - 3*j^2*j3*m2 + 2*j^2*j3^2
    - 3*j^2*j2 + 3*j^2*j2*m3 + 3*j^2*j2*j3 + 2*j^2*j2^2 - j^3 - 4*j^3*j3 - 4*j^3*j2 + 2*j^4)

/-- The Racah sum of `(j j2 j3; -m2-m3 m2 m3)`, in the form used for the recurrence in `j`. -/
noncomputable def rS (j2 j3 m2 m3 j : ℤ) : ℝ := rsum (j2 + j3 - j) (j2 - m2) (j3 + m3) (j - j3 + m2) (j - j2 - m3)

theorem rS_recurrence (j2 j3 m2 m3 j : ℤ) :
    (j : ℝ) * ((j + 1) ^ 2 - (j2 - j3) ^ 2) * ((j + 1) ^ 2 - (m2 + m3) ^ 2) * rS j2 j3 m2 m3 (j + 1)
    + (2 * j + 1) * ((m2 + m3) * (j2 * (j2 + 1) - j3 * (j3 + 1)) - (m2 - m3) * j * (j + 1)) * rS j2 j3 m2 m3 j
    + (j + 1) * (j2 + j3 - j + 1) * (j2 + j3 + j + 1) * rS j2 j3 m2 m3 (j - 1) = 0 := by
  set g : ℤ → ℝ := fun k => certX j j2 j3 m2 m3 k * ((-1 : ℝ) ^ k * (invFact (k - 1) * invFact (j2 + j3 - j + 1 - k)
    * invFact (j2 - m2 - k) * invFact (j3 + m3 - k) * invFact (j - j3 + m2 + k) * invFact (j - j2 - m3 + k))) with hg
  have hsup : (Function.support g).Finite := support_finite (a := 1) (b := j2 + j3 - j + 1) fun k hk => by
    simp only [hg]
    rcases hk with h | h
    · rw [invFact_neg (show k - 1 < 0 by omega)]; ring
    · rw [invFact_neg (show j2 + j3 - j + 1 - k < 0 by omega)]; ring
  have key := finsum_telescope hsup
  set c1 : ℝ := (j : ℝ) * ((j + 1) ^ 2 - (j2 - j3) ^ 2) * ((j + 1) ^ 2 - (m2 + m3) ^ 2) with hc1
  set c2 : ℝ := (2 * j + 1) * ((m2 + m3) * (j2 * (j2 + 1) - j3 * (j3 + 1)) - (m2 - m3) * j * (j + 1)) with hc2
  set c3 : ℝ := (j + 1) * (j2 + j3 - j + 1) * (j2 + j3 + j + 1) with hc3
  have e : ∀ k, g (k + 1) - g k =
      c1 * rterm (j2 + j3 - (j + 1)) (j2 - m2) (j3 + m3) (j + 1 - j3 + m2) (j + 1 - j2 - m3) k
      + c2 * rterm (j2 + j3 - j) (j2 - m2) (j3 + m3) (j - j3 + m2) (j - j2 - m3) k
      + c3 * rterm (j2 + j3 - (j - 1)) (j2 - m2) (j3 + m3) (j - 1 - j3 + m2) (j - 1 - j2 - m3) k := by
    intro k
    simp only [hg, rterm, negOne_succ]
    have r1 := invFact_sub_one (j2 + j3 - j + 1 - k)
    have r2 := invFact_sub_one (j2 + j3 - j + 1 - k - 1)
    have r3 := invFact_sub_one (j2 - m2 - k)
    have r4 := invFact_sub_one (j3 + m3 - k)
    have r5 := invFact_sub_one (j - j3 + m2 + k + 1)
    have r6 := invFact_sub_one (j - j3 + m2 + k)
    have r7 := invFact_sub_one (j - j2 - m3 + k + 1)
    have r8 := invFact_sub_one (j - j2 - m3 + k)
    have r9 := invFact_sub_one k
    rw [show j - j3 + m2 + k + 1 - 1 = j - j3 + m2 + k by ring] at r5
    rw [show j - j2 - m3 + k + 1 - 1 = j - j2 - m3 + k by ring] at r7
    rw [show k + 1 - 1 = k by ring, show j2 + j3 - j + 1 - (k + 1) = j2 + j3 - j + 1 - k - 1 by ring,
      show j2 - m2 - (k + 1) = j2 - m2 - k - 1 by ring, show j3 + m3 - (k + 1) = j3 + m3 - k - 1 by ring,
      show j - j3 + m2 + (k + 1) = j - j3 + m2 + k + 1 by ring,
      show j - j2 - m3 + (k + 1) = j - j2 - m3 + k + 1 by ring,
      show j2 + j3 - (j + 1) - k = j2 + j3 - j + 1 - k - 1 - 1 by ring,
      show j + 1 - j3 + m2 + k = j - j3 + m2 + k + 1 by ring,
      show j + 1 - j2 - m3 + k = j - j2 - m3 + k + 1 by ring,
      show j2 + j3 - j - k = j2 + j3 - j + 1 - k - 1 by ring,
      show j2 + j3 - (j - 1) - k = j2 + j3 - j + 1 - k by ring,
      show j - 1 - j3 + m2 + k = j - j3 + m2 + k - 1 by ring,
      show j - 1 - j2 - m3 + k = j - j2 - m3 + k - 1 by ring]
    rw [r2, r1, r3, r4, r6, r5, r8, r7, r9]
    generalize invFact k = a1
    generalize invFact (j2 + j3 - j + 1 - k) = a2
    generalize invFact (j2 - m2 - k) = a3
    generalize invFact (j3 + m3 - k) = a4
    generalize invFact (j - j3 + m2 + k + 1) = a5
    generalize invFact (j - j2 - m3 + k + 1) = a6
    generalize (-1 : ℝ) ^ k = a7
    simp only [hc1, hc2, hc3, certX]
    push_cast
    generalize (j : ℝ) = j
    generalize (j2 : ℝ) = j2
    generalize (j3 : ℝ) = j3
    generalize (m2 : ℝ) = m2
    generalize (m3 : ℝ) = m3
    generalize (k : ℝ) = k
    ring
  have hf : ∀ (r : ℝ) {f : ℤ → ℝ}, (Function.support f).Finite → (Function.support fun k => r * f k).Finite :=
    fun r f hf => hf.subset fun k hk h0 => hk (by show r * f k = 0; rw [h0, mul_zero])
  have h1 := rterm_support (j2 + j3 - (j + 1)) (j2 - m2) (j3 + m3) (j + 1 - j3 + m2) (j + 1 - j2 - m3)
  have h2 := rterm_support (j2 + j3 - j) (j2 - m2) (j3 + m3) (j - j3 + m2) (j - j2 - m3)
  have h3 := rterm_support (j2 + j3 - (j - 1)) (j2 - m2) (j3 + m3) (j - 1 - j3 + m2) (j - 1 - j2 - m3)
  rw [finsum_congr e, finsum_add_distrib ((hf _ h1).union (hf _ h2) |>.subset (Function.support_add _ _)) (hf _ h3),
    finsum_add_distrib (hf _ h1) (hf _ h2), ← mul_finsum' _ _ h1, ← mul_finsum' _ _ h2, ← mul_finsum' _ _ h3] at key
  unfold rS rsum
  exact key

end SF
