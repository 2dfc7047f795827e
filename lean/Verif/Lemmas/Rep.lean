import Verif.Lemmas.DSym
import Mathlib.Algebra.Polynomial.Roots
import Mathlib.Data.Nat.Choose.Sum

/-! # Wigner D matrices as substitution matrices on homogeneous polynomials -/

set_option autoImplicit false

namespace SF

open Finset ComplexConjugate

/-- The sum in the closed form, without the square root. -/
noncomputable def Msum (za zb : ℂ) (p' q' q : ℕ) : ℂ := ∑ ρ ∈ range (q + 1), Dterm za zb p' q' q ρ

theorem Dpq_eq_Msum (za zb : ℂ) (p' q' p q : ℕ) :
    Spec.Dpq za zb p' q' p q =
      (Real.sqrt ((p.factorial * q.factorial : ℝ) / (p'.factorial * q'.factorial)) : ℂ) * Msum za zb p' q' q := rfl

/-- Cauchy product of two finite sequences. -/
theorem sum_mul_sum_conv (A B : ℕ → ℂ) (p' q' : ℕ) (hA : ∀ i, p' < i → A i = 0) (hB : ∀ j, q' < j → B j = 0) :
    (∑ i ∈ range (p' + 1), A i) * (∑ j ∈ range (q' + 1), B j)
      = ∑ q ∈ range (p' + q' + 1), ∑ ρ ∈ range (q + 1), A ρ * B (q - ρ) := by
  rw [Finset.sum_mul_sum, ← Finset.sum_product', Finset.sum_sigma']
  symm
  apply Finset.sum_bij_ne_zero (i := fun (x : (_ : ℕ) × ℕ) _ _ => (x.2, x.1 - x.2))
  · rintro ⟨q, ρ⟩ h1 h2
    simp only [mem_product, mem_range] at *
    constructor
    · by_contra hc
      exact h2 (by rw [hA ρ (by omega), zero_mul])
    · by_contra hc
      exact h2 (by rw [hB (q - ρ) (by omega), mul_zero])
  · rintro ⟨q, ρ⟩ h1 _ ⟨q2, ρ2⟩ h3 _ h5
    simp only [mem_sigma, mem_range, Prod.mk.injEq] at *
    obtain ⟨rfl, h6⟩ := h5
    have : q = q2 := by omega
    subst this
    rfl
  · rintro ⟨i, j⟩ h1 h2
    simp only [mem_product, mem_range] at h1
    refine ⟨⟨i + j, i⟩, ?_, ?_, ?_⟩
    · simp only [mem_sigma, mem_range]; omega
    · simpa using h2
    · simp
  · rintro ⟨q, ρ⟩ _ _; rfl

/-- Generating function of a row of the matrix. -/
theorem gen_row (za zb x y : ℂ) (p' q' : ℕ) :
    (za * x - conj zb * y) ^ p' * (zb * x + conj za * y) ^ q'
      = ∑ q ∈ range (p' + q' + 1), Msum za zb p' q' q * x ^ (p' + q' - q) * y ^ q := by
  have e1 : (za * x - conj zb * y) ^ p'
      = ∑ i ∈ range (p' + 1), (-(conj zb) * y) ^ i * (za * x) ^ (p' - i) * p'.choose i := by
    rw [← add_pow]; congr 1; ring
  have e2 : (zb * x + conj za * y) ^ q'
      = ∑ i ∈ range (q' + 1), (conj za * y) ^ i * (zb * x) ^ (q' - i) * q'.choose i := by
    rw [← add_pow]; congr 1; ring
  rw [e1, e2, sum_mul_sum_conv _ _ p' q' (by
      intro i hi; rw [Nat.choose_eq_zero_of_lt hi]; simp) (by
      intro i hi; rw [Nat.choose_eq_zero_of_lt hi]; simp)]
  apply Finset.sum_congr rfl
  intro q hq
  unfold Msum
  rw [Finset.sum_mul, Finset.sum_mul]
  apply Finset.sum_congr rfl
  intro ρ hρ
  rw [mem_range] at hq hρ
  unfold Dterm
  by_cases h1 : ρ ≤ p'
  · by_cases h2 : q - ρ ≤ q'
    · have ex : x ^ (p' + q' - q) = x ^ (p' - ρ) * x ^ (q' - (q - ρ)) := by
        rw [← pow_add]; congr 1; omega
      have ey : y ^ q = y ^ ρ * y ^ (q - ρ) := by
        rw [← pow_add]; congr 1; omega
      rw [ex, ey, mul_pow, mul_pow, mul_pow, mul_pow, neg_pow (conj zb)]
      ring
    · rw [Nat.choose_eq_zero_of_lt (show q' < q - ρ by omega)]; simp
  · rw [Nat.choose_eq_zero_of_lt (show p' < ρ by omega)]; simp

/-- Homogeneous forms determine their coefficients. -/
theorem coeffs_unique {n : ℕ} {c d : ℕ → ℂ}
    (h : ∀ y : ℂ, ∑ q ∈ range (n + 1), c q * y ^ q = ∑ q ∈ range (n + 1), d q * y ^ q) {q : ℕ} (hq : q ≤ n) :
    c q = d q := by
  have hp : (∑ q ∈ range (n + 1), Polynomial.C (c q) * Polynomial.X ^ q)
      = ∑ q ∈ range (n + 1), Polynomial.C (d q) * Polynomial.X ^ q := by
    apply Polynomial.funext
    intro y
    simpa [Polynomial.eval_finsetSum] using h y
  have := congrArg (fun p => Polynomial.coeff p q) hp
  simpa [Polynomial.finsetSum_coeff, Polynomial.coeff_C_mul, Polynomial.coeff_X_pow, Nat.lt_succ_of_le hq] using this

/-- Composition of substitutions. -/
theorem Msum_mul (a1 b1 a2 b2 : ℂ) (p' q' q : ℕ) (hq : q ≤ p' + q') :
    ∑ k ∈ range (p' + q' + 1), Msum a1 b1 p' q' k * Msum a2 b2 (p' + q' - k) k q
      = Msum (a1 * a2 - conj b1 * b2) (conj a1 * b2 + b1 * a2) p' q' q := by
  refine coeffs_unique (n := p' + q')
    (c := fun q => ∑ k ∈ range (p' + q' + 1), Msum a1 b1 p' q' k * Msum a2 b2 (p' + q' - k) k q)
    (d := fun q => Msum (a1 * a2 - conj b1 * b2) (conj a1 * b2 + b1 * a2) p' q' q) ?_ hq
  intro y
  have h1 := gen_row (a1 * a2 - conj b1 * b2) (conj a1 * b2 + b1 * a2) 1 y p' q'
  have h2 := gen_row a1 b1 (a2 * 1 - conj b2 * y) (b2 * 1 + conj a2 * y) p' q'
  simp only [one_pow, mul_one] at h1 h2
  rw [← h1]
  have e1 : (a1 * a2 - conj b1 * b2 - conj (conj a1 * b2 + b1 * a2) * y)
      = a1 * (a2 - conj b2 * y) - conj b1 * (b2 + conj a2 * y) := by
    simp only [map_add, map_mul, Complex.conj_conj]; ring
  have e2 : (conj a1 * b2 + b1 * a2 + conj (a1 * a2 - conj b1 * b2) * y)
      = b1 * (a2 - conj b2 * y) + conj a1 * (b2 + conj a2 * y) := by
    simp only [map_sub, map_mul, Complex.conj_conj]; ring
  rw [e1, e2, h2]
  have h3 : ∀ k ∈ range (p' + q' + 1),
      Msum a1 b1 p' q' k * (a2 - conj b2 * y) ^ (p' + q' - k) * (b2 + conj a2 * y) ^ k
      = ∑ q ∈ range (p' + q' + 1), Msum a1 b1 p' q' k * Msum a2 b2 (p' + q' - k) k q * y ^ q := by
    intro k hk
    rw [mem_range] at hk
    have := gen_row a2 b2 1 y (p' + q' - k) k
    simp only [one_pow, mul_one] at this
    rw [mul_assoc, this, Finset.mul_sum]
    have e3 : p' + q' - k + k = p' + q' := by omega
    rw [e3]
    apply Finset.sum_congr rfl
    intro q _
    ring
  rw [Finset.sum_congr rfl h3, Finset.sum_comm]
  apply Finset.sum_congr rfl
  intro q _
  rw [Finset.sum_mul]

theorem sqrt_mul_sqrt_frac {A B C : ℝ} (hA : 0 < A) (hB : 0 < B) (hC : 0 < C) :
    Real.sqrt (B / A) * Real.sqrt (C / B) = Real.sqrt (C / A) := by
  rw [← Real.sqrt_mul (by positivity)]
  congr 1
  field_simp

/-- The representation property in terms of `p', q', p, q`. -/
theorem Dpq_mul (a1 b1 a2 b2 : ℂ) {p' q' p q : ℕ} (hsum : p' + q' = p + q) :
    ∑ k ∈ range (p' + q' + 1), Spec.Dpq a1 b1 p' q' (p' + q' - k) k * Spec.Dpq a2 b2 (p' + q' - k) k p q
      = Spec.Dpq (a1 * a2 - conj b1 * b2) (conj a1 * b2 + b1 * a2) p' q' p q := by
  rw [Dpq_eq_Msum (a1 * a2 - conj b1 * b2), ← Msum_mul _ _ _ _ _ _ _ (by omega), Finset.mul_sum]
  apply Finset.sum_congr rfl
  intro k hk
  rw [Dpq_eq_Msum, Dpq_eq_Msum]
  have := sqrt_mul_sqrt_frac (A := (p'.factorial * q'.factorial : ℝ))
    (B := ((p' + q' - k).factorial * k.factorial : ℝ)) (C := (p.factorial * q.factorial : ℝ))
    (by positivity) (by positivity) (by positivity)
  have h2 := congrArg (fun x : ℝ => (x : ℂ)) this
  rw [← h2]
  push_cast
  ring

end SF
