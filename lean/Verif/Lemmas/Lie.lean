import Verif.Props.Representation
import Verif.Lemmas.ModesEval
import Mathlib.Analysis.Calculus.Deriv.Pow
import Mathlib.Analysis.Calculus.Deriv.Star
import Mathlib.Analysis.Calculus.Deriv.Mul
import Mathlib.Analysis.SpecialFunctions.Trigonometric.Deriv

/-!
# Derivatives of the D functions along one-parameter subgroups
-/

set_option autoImplicit false

namespace SF

open Finset ComplexConjugate Quaternion

/-- Derivative at the identity of the D function along a curve with `a' = i z`, `b' = c`. -/
noncomputable def lieE (c : ℂ) (z : ℝ) (p' q' p q : ℕ) : ℂ :=
  (if q' = q + 1 then c * (Real.sqrt ((p : ℝ) * q') : ℂ) else 0)
    + (if q = q' + 1 then -(conj c * (Real.sqrt ((q : ℝ) * p') : ℂ)) else 0)
    + (if q = q' then Complex.I * z * ((p' : ℂ) - q') else 0)

theorem hasDerivAt_conj {a : ℝ → ℂ} {d : ℂ} {t : ℝ} (h : HasDerivAt a d t) :
    HasDerivAt (fun t => conj (a t)) (conj d) t := h.star

theorem lie_term {a b : ℝ → ℂ} {c : ℂ} {z : ℝ} (ha : HasDerivAt a (Complex.I * z) 0) (hb : HasDerivAt b c 0)
    (ha0 : a 0 = 1) (hb0 : b 0 = 0) (K : ℂ) (a1 a2 b1 b2 : ℕ) :
    HasDerivAt (fun t => K * a t ^ a1 * conj (a t) ^ a2 * b t ^ b1 * conj (b t) ^ b2)
      (K * (0 ^ b1 * 0 ^ b2 * (((a1 : ℂ) - a2) * (Complex.I * z)) + (b1 : ℂ) * 0 ^ (b1 - 1) * 0 ^ b2 * c
        + 0 ^ b1 * ((b2 : ℂ) * 0 ^ (b2 - 1)) * conj c)) 0 := by
  have h := ((((ha.pow a1).const_mul K).mul ((hasDerivAt_conj ha).pow a2)).mul (hb.pow b1)).mul
    ((hasDerivAt_conj hb).pow b2)
  simp only [Pi.mul_def, Pi.pow_def] at h
  refine h.congr_deriv ?_
  simp only [ha0, hb0, map_one, map_zero, one_pow, mul_one, map_mul, Complex.conj_I, Complex.conj_ofReal]
  ring

theorem lie_Dpq {a b : ℝ → ℂ} {c : ℂ} {z : ℝ} (ha : HasDerivAt a (Complex.I * z) 0) (hb : HasDerivAt b c 0)
    (ha0 : a 0 = 1) (hb0 : b 0 = 0) {p' q' p q : ℕ} (hsum : p' + q' = p + q) :
    HasDerivAt (fun t => Spec.Dpq (a t) (b t) p' q' p q) (lieE c z p' q' p q) 0 := by
  unfold Spec.Dpq
  have h : HasDerivAt (fun t => ∑ ρ ∈ range (q + 1), (-1 : ℂ) ^ ρ * (p'.choose ρ) * (q'.choose (q - ρ))
      * a t ^ (p' - ρ) * (conj (a t)) ^ (q - ρ) * b t ^ (q' - (q - ρ)) * (conj (b t)) ^ ρ)
      (∑ ρ ∈ range (q + 1), (-1 : ℂ) ^ ρ * (p'.choose ρ) * (q'.choose (q - ρ))
        * (0 ^ (q' - (q - ρ)) * 0 ^ ρ * ((((p' - ρ : ℕ) : ℂ) - (q - ρ : ℕ)) * (Complex.I * z))
          + ((q' - (q - ρ) : ℕ) : ℂ) * 0 ^ ((q' - (q - ρ)) - 1) * 0 ^ ρ * c
        + 0 ^ (q' - (q - ρ)) * ((ρ : ℂ) * 0 ^ (ρ - 1)) * conj c)) 0 :=
    HasDerivAt.fun_sum fun ρ _ => lie_term ha hb ha0 hb0 _ _ _ _ _
  refine (h.const_mul _).congr_deriv ?_
  clear h
  rw [Finset.sum_range_succ']
  simp only [pow_zero, Nat.sub_zero, Nat.choose_zero_right, Nat.cast_one, one_mul, mul_one, Nat.cast_zero, zero_mul,
    mul_zero, add_zero]
  have hρ : ∀ ρ ∈ range q, (-1 : ℂ) ^ (ρ + 1) * (p'.choose (ρ + 1)) * (q'.choose (q - (ρ + 1)))
        * (0 ^ (q' - (q - (ρ + 1))) * 0 ^ (ρ + 1) * ((((p' - (ρ + 1) : ℕ) : ℂ) - (q - (ρ + 1) : ℕ)) * (Complex.I * z))
          + ((q' - (q - (ρ + 1)) : ℕ) : ℂ) * 0 ^ ((q' - (q - (ρ + 1))) - 1) * 0 ^ (ρ + 1) * c
        + 0 ^ (q' - (q - (ρ + 1))) * (((ρ + 1 : ℕ) : ℂ) * 0 ^ (ρ + 1 - 1)) * conj c)
      = if ρ = 0 then -(p' : ℂ) * (q'.choose (q - 1)) * 0 ^ (q' - (q - 1)) * conj c else 0 := by
    intro ρ _
    rcases Nat.eq_zero_or_pos ρ with h0 | h0
    · subst h0
      simp
      ring
    · rw [if_neg (by omega), show ρ + 1 - 1 = ρ by omega, zero_pow (n := ρ) (by omega), zero_pow (n := ρ + 1) (by omega)]
      ring
  rw [Finset.sum_congr rfl hρ, Finset.sum_ite_eq' (range q) 0]
  simp only [mem_range]
  unfold lieE
  rcases lt_trichotomy q' q with hq | hq | hq
  · -- q' < q
    have h2 : q'.choose q = 0 := Nat.choose_eq_zero_of_lt hq
    rw [if_pos (by omega), if_neg (c := q' = q + 1) (by omega), if_neg (c := q = q') (by omega), h2]
    by_cases h3 : q = q' + 1
    · have h4 : p' = p + 1 := by omega
      subst h3 h4
      rw [if_pos rfl]
      simp only [Nat.add_sub_cancel, Nat.choose_self, Nat.sub_self, pow_zero, Nat.cast_one, Nat.cast_zero, zero_mul,
        mul_one, add_zero, zero_add]
      have : (Real.sqrt ((p.factorial * (q' + 1).factorial : ℝ) / ((p + 1).factorial * q'.factorial)) : ℂ) * ((p + 1 : ℕ) : ℂ)
          = (Real.sqrt (((q' + 1 : ℕ) : ℝ) * ((p + 1 : ℕ) : ℝ)) : ℂ) := by
        rw [← Complex.ofReal_natCast, ← Complex.ofReal_mul]
        congr 1
        rw [← Real.sqrt_sq (Nat.cast_nonneg (α := ℝ) (p + 1)), ← Real.sqrt_mul (by positivity),
          Real.sqrt_sq (Nat.cast_nonneg (α := ℝ) (p + 1))]
        congr 1
        rw [Nat.factorial_succ, Nat.factorial_succ]
        push_cast
        have := Nat.factorial_pos p
        have := Nat.factorial_pos q'
        field_simp
      rw [← this]
      ring
    · rw [if_neg h3, Nat.choose_eq_zero_of_lt (show q' < q - 1 by omega)]
      simp
  · -- q' = q
    subst hq
    have hp : p' = p := by omega
    subst hp
    rw [if_neg (c := q' = q' + 1) (by omega), if_pos rfl]
    have h1 : (Real.sqrt ((p'.factorial * q'.factorial : ℝ) / (p'.factorial * q'.factorial)) : ℂ) = 1 := by
      rw [div_self (by positivity), Real.sqrt_one, Complex.ofReal_one]
    rw [h1]
    by_cases h0 : 0 < q'
    · rw [if_pos h0, zero_pow (n := q' - (q' - 1)) (by omega)]
      simp
      ring
    · rw [if_neg h0]
      simp
      ring
  · -- q < q'
    rw [if_neg (c := q = q' + 1) (by omega), if_neg (c := q = q') (by omega)]
    have hz : ∀ x : ℂ, x * 0 ^ (q' - (q - 1)) = 0 := by
      intro x; rw [zero_pow (by omega), mul_zero]
    rw [hz, zero_pow (n := q' - q) (by omega)]
    by_cases h3 : q' = q + 1
    · have h4 : p = p' + 1 := by omega
      subst h3 h4
      rw [if_pos rfl, show q + 1 - q = 1 by omega]
      have : (Real.sqrt (((p' + 1).factorial * q.factorial : ℝ) / (p'.factorial * (q + 1).factorial)) : ℂ) * ((q + 1 : ℕ) : ℂ)
          = (Real.sqrt (((p' + 1 : ℕ) : ℝ) * ((q + 1 : ℕ) : ℝ)) : ℂ) := by
        rw [← Complex.ofReal_natCast, ← Complex.ofReal_mul]
        congr 1
        rw [← Real.sqrt_sq (Nat.cast_nonneg (α := ℝ) (q + 1)), ← Real.sqrt_mul (by positivity),
          Real.sqrt_sq (Nat.cast_nonneg (α := ℝ) (q + 1))]
        congr 1
        rw [Nat.factorial_succ, Nat.factorial_succ]
        push_cast
        have := Nat.factorial_pos p'
        have := Nat.factorial_pos q
        field_simp
      rw [← this, Nat.choose_succ_self_right]
      simp
      ring
    · rw [if_neg h3, zero_pow (n := q' - q - 1) (by omega)]
      simp

theorem lie_left_Dpq {a b : ℝ → ℂ} {c : ℂ} {z : ℝ} (ha : HasDerivAt a (Complex.I * z) 0) (hb : HasDerivAt b c 0)
    (ha0 : a 0 = 1) (hb0 : b 0 = 0) (A B : ℂ) {p' q' p q : ℕ} (hsum : p' + q' = p + q) :
    HasDerivAt (fun t => Spec.Dpq (a t * A - conj (b t) * B) (conj (a t) * B + b t * A) p' q' p q)
      (c * (Real.sqrt (((p' + 1 : ℕ) : ℝ) * q') : ℂ) * Spec.Dpq A B (p' + 1) (q' - 1) p q
        - conj c * (Real.sqrt (((q' + 1 : ℕ) : ℝ) * p') : ℂ) * Spec.Dpq A B (p' - 1) (q' + 1) p q
        + Complex.I * z * ((p' : ℂ) - q') * Spec.Dpq A B p' q' p q) 0 := by
  have h : HasDerivAt (fun t => ∑ k ∈ range (p' + q' + 1),
      Spec.Dpq (a t) (b t) p' q' (p' + q' - k) k * Spec.Dpq A B (p' + q' - k) k p q)
      (∑ k ∈ range (p' + q' + 1), lieE c z p' q' (p' + q' - k) k * Spec.Dpq A B (p' + q' - k) k p q) 0 := by
    apply HasDerivAt.fun_sum
    intro k hk
    rw [mem_range] at hk
    exact (lie_Dpq ha hb ha0 hb0 (by omega)).mul_const _
  simp only [Dpq_mul _ _ _ _ hsum] at h
  refine h.congr_deriv ?_
  simp only [lieE, add_mul, Finset.sum_add_distrib]
  congr 1
  · rw [sub_eq_add_neg]
    congr 1
    · rcases Nat.eq_zero_or_pos q' with h0 | h0
      · subst h0
        simp
      · rw [Finset.sum_eq_single (q' - 1)]
        · rw [if_pos (by omega), show p' + q' - (q' - 1) = p' + 1 by omega]
        · intro k _ hk
          rw [if_neg (by omega), zero_mul]
        · intro hk
          rw [mem_range] at hk; omega
    · rcases Nat.eq_zero_or_pos p' with h0 | h0
      · subst h0
        simp only [Nat.cast_zero, mul_zero, Real.sqrt_zero, Complex.ofReal_zero, zero_mul, neg_zero, ite_self,
          Finset.sum_const_zero]
      · rw [Finset.sum_eq_single (q' + 1)]
        · rw [if_pos rfl, show p' + q' - (q' + 1) = p' - 1 by omega]
          ring
        · intro k _ hk
          rw [if_neg hk, zero_mul]
        · intro hk
          rw [mem_range] at hk; omega
  · rw [Finset.sum_eq_single q']
    · rw [if_pos rfl, show p' + q' - q' = p' by omega]
    · intro k _ hk
      rw [if_neg hk, zero_mul]
    · intro hk
      rw [mem_range] at hk; omega

theorem lie_right_Dpq {a b : ℝ → ℂ} {c : ℂ} {z : ℝ} (ha : HasDerivAt a (Complex.I * z) 0) (hb : HasDerivAt b c 0)
    (ha0 : a 0 = 1) (hb0 : b 0 = 0) (A B : ℂ) {p' q' p q : ℕ} (hsum : p' + q' = p + q) :
    HasDerivAt (fun t => Spec.Dpq (A * a t - conj B * b t) (conj A * b t + B * a t) p' q' p q)
      (c * (Real.sqrt ((p : ℝ) * ((q + 1 : ℕ) : ℝ)) : ℂ) * Spec.Dpq A B p' q' (p - 1) (q + 1)
        - conj c * (Real.sqrt ((q : ℝ) * ((p + 1 : ℕ) : ℝ)) : ℂ) * Spec.Dpq A B p' q' (p + 1) (q - 1)
        + Complex.I * z * ((p : ℂ) - q) * Spec.Dpq A B p' q' p q) 0 := by
  have h : HasDerivAt (fun t => ∑ k ∈ range (p' + q' + 1),
      Spec.Dpq A B p' q' (p' + q' - k) k * Spec.Dpq (a t) (b t) (p' + q' - k) k p q)
      (∑ k ∈ range (p' + q' + 1), Spec.Dpq A B p' q' (p' + q' - k) k * lieE c z (p' + q' - k) k p q) 0 := by
    apply HasDerivAt.fun_sum
    intro k hk
    rw [mem_range] at hk
    exact (lie_Dpq ha hb ha0 hb0 (by omega)).const_mul _
  simp only [Dpq_mul _ _ _ _ hsum] at h
  refine h.congr_deriv ?_
  rw [hsum]
  simp only [lieE, mul_add, Finset.sum_add_distrib]
  congr 1
  · rw [sub_eq_add_neg]
    congr 1
    · rcases Nat.eq_zero_or_pos p with h0 | h0
      · subst h0
        simp only [Nat.cast_zero, zero_mul, Real.sqrt_zero, Complex.ofReal_zero, mul_zero, ite_self,
          Finset.sum_const_zero]
      · rw [Finset.sum_eq_single (q + 1)]
        · rw [if_pos rfl, show p + q - (q + 1) = p - 1 by omega]
          ring
        · intro k _ hk
          rw [if_neg (by omega), mul_zero]
        · intro hk
          rw [mem_range] at hk; omega
    · rcases Nat.eq_zero_or_pos q with h0 | h0
      · subst h0
        simp
      · rw [Finset.sum_eq_single (q - 1)]
        · rw [if_pos (by omega), show p + q - (q - 1) = p + 1 by omega]
          ring
        · intro k _ hk
          rw [if_neg (by omega), mul_zero]
        · intro hk
          rw [mem_range] at hk; omega
  · rw [Finset.sum_eq_single q]
    · rw [if_pos rfl, show p + q - q = p by omega]
      ring
    · intro k _ hk
      rw [if_neg (by omega), mul_zero]
    · intro hk
      rw [mem_range] at hk; omega

/-! ## Integer indices -/

section

variable {a b : ℝ → ℂ} {c : ℂ} {z : ℝ}

theorem lie_left_D (ha : HasDerivAt a (Complex.I * z) 0) (hb : HasDerivAt b c 0) (ha0 : a 0 = 1) (hb0 : b 0 = 0)
    (A B : ℂ) {l m k : ℤ} (hm : |m| ≤ l) (hk : |k| ≤ l) :
    HasDerivAt (fun t => Spec.wignerD (a t * A - conj (b t) * B) (conj (a t) * B + b t * A) (2 * l) (2 * m) (2 * k))
      (c * isqrtC ((l - m) * (l + m + 1)) * Spec.wignerD A B (2 * l) (2 * (m + 1)) (2 * k)
        - conj c * isqrtC ((l + m) * (l - m + 1)) * Spec.wignerD A B (2 * l) (2 * (m - 1)) (2 * k)
        + 2 * Complex.I * z * m * Spec.wignerD A B (2 * l) (2 * m) (2 * k)) 0 := by
  obtain ⟨m1, m2⟩ := abs_le.mp hm
  obtain ⟨k1, k2⟩ := abs_le.mp hk
  obtain ⟨p', hp'⟩ := Int.eq_ofNat_of_zero_le (show 0 ≤ l + m by omega)
  obtain ⟨q', hq'⟩ := Int.eq_ofNat_of_zero_le (show 0 ≤ l - m by omega)
  obtain ⟨p, hp⟩ := Int.eq_ofNat_of_zero_le (show 0 ≤ l + k by omega)
  obtain ⟨q, hq⟩ := Int.eq_ofNat_of_zero_le (show 0 ≤ l - k by omega)
  have h := lie_left_Dpq ha hb ha0 hb0 A B (p' := p') (q' := q') (p := p) (q := q) (by omega)
  unfold Spec.wignerD isqrtC
  rw [show ((2 * l + 2 * m) / 2).toNat = p' by omega, show ((2 * l - 2 * m) / 2).toNat = q' by omega,
    show ((2 * l + 2 * k) / 2).toNat = p by omega, show ((2 * l - 2 * k) / 2).toNat = q by omega,
    show ((2 * l + 2 * (m + 1)) / 2).toNat = p' + 1 by omega, show ((2 * l - 2 * (m + 1)) / 2).toNat = q' - 1 by omega,
    show ((2 * l + 2 * (m - 1)) / 2).toNat = p' - 1 by omega, show ((2 * l - 2 * (m - 1)) / 2).toNat = q' + 1 by omega]
  refine h.congr_deriv ?_
  have e1 : (((l - m) * (l + m + 1) : ℤ) : ℝ) = ((p' + 1 : ℕ) : ℝ) * q' := by
    rw [hq', hp']; push_cast; ring
  have e2 : (((l + m) * (l - m + 1) : ℤ) : ℝ) = ((q' + 1 : ℕ) : ℝ) * p' := by
    rw [hq', hp']; push_cast; ring
  have e3 : (2 : ℂ) * m = p' - q' := by
    have : 2 * m = (p' : ℤ) - q' := by omega
    exact_mod_cast this
  rw [e1, e2, ← e3]
  ring

theorem lie_right_D (ha : HasDerivAt a (Complex.I * z) 0) (hb : HasDerivAt b c 0) (ha0 : a 0 = 1) (hb0 : b 0 = 0)
    (A B : ℂ) {l m k : ℤ} (hm : |m| ≤ l) (hk : |k| ≤ l) :
    HasDerivAt (fun t => Spec.wignerD (A * a t - conj B * b t) (conj A * b t + B * a t) (2 * l) (2 * m) (2 * k))
      (c * isqrtC ((l + k) * (l - k + 1)) * Spec.wignerD A B (2 * l) (2 * m) (2 * (k - 1))
        - conj c * isqrtC ((l - k) * (l + k + 1)) * Spec.wignerD A B (2 * l) (2 * m) (2 * (k + 1))
        + 2 * Complex.I * z * k * Spec.wignerD A B (2 * l) (2 * m) (2 * k)) 0 := by
  obtain ⟨m1, m2⟩ := abs_le.mp hm
  obtain ⟨k1, k2⟩ := abs_le.mp hk
  obtain ⟨p', hp'⟩ := Int.eq_ofNat_of_zero_le (show 0 ≤ l + m by omega)
  obtain ⟨q', hq'⟩ := Int.eq_ofNat_of_zero_le (show 0 ≤ l - m by omega)
  obtain ⟨p, hp⟩ := Int.eq_ofNat_of_zero_le (show 0 ≤ l + k by omega)
  obtain ⟨q, hq⟩ := Int.eq_ofNat_of_zero_le (show 0 ≤ l - k by omega)
  have h := lie_right_Dpq ha hb ha0 hb0 A B (p' := p') (q' := q') (p := p) (q := q) (by omega)
  unfold Spec.wignerD isqrtC
  rw [show ((2 * l + 2 * m) / 2).toNat = p' by omega, show ((2 * l - 2 * m) / 2).toNat = q' by omega,
    show ((2 * l + 2 * k) / 2).toNat = p by omega, show ((2 * l - 2 * k) / 2).toNat = q by omega,
    show ((2 * l + 2 * (k + 1)) / 2).toNat = p + 1 by omega, show ((2 * l - 2 * (k + 1)) / 2).toNat = q - 1 by omega,
    show ((2 * l + 2 * (k - 1)) / 2).toNat = p - 1 by omega, show ((2 * l - 2 * (k - 1)) / 2).toNat = q + 1 by omega]
  refine h.congr_deriv ?_
  have e1 : (((l + k) * (l - k + 1) : ℤ) : ℝ) = (p : ℝ) * ((q + 1 : ℕ) : ℝ) := by
    rw [hq, hp]; push_cast; ring
  have e2 : (((l - k) * (l + k + 1) : ℤ) : ℝ) = (q : ℝ) * ((p + 1 : ℕ) : ℝ) := by
    rw [hq, hp]; push_cast; ring
  have e3 : (2 : ℂ) * k = p - q := by
    have : 2 * k = (p : ℤ) - q := by omega
    exact_mod_cast this
  rw [e1, e2, ← e3]
  ring

theorem lie_left_Y (ha : HasDerivAt a (Complex.I * z) 0) (hb : HasDerivAt b c 0) (ha0 : a 0 = 1) (hb0 : b 0 = 0)
    (A B : ℂ) {l m : ℤ} (s : ℤ) (hm : |m| ≤ l) :
    HasDerivAt (fun t => Spec.sYlm (a t * A - conj (b t) * B) (conj (a t) * B + b t * A) s l m)
      (c * (isqrtC ((l - m) * (l + m + 1)) * Spec.sYlm A B s l (m + 1))
        - conj c * (isqrtC ((l + m) * (l - m + 1)) * Spec.sYlm A B s l (m - 1))
        + 2 * Complex.I * z * (m * Spec.sYlm A B s l m)) 0 := by
  obtain ⟨m1, m2⟩ := abs_le.mp hm
  unfold Spec.sYlm
  by_cases hs : |s| ≤ l
  · have h := lie_left_D ha hb ha0 hb0 A B hm (k := -s) (by rwa [abs_neg])
    have h2 := h.const_mul ((-1 : ℂ) ^ s * (Real.sqrt ((2 * (l : ℝ) + 1) / (4 * Real.pi)) : ℂ))
    simp only [show (2 : ℤ) * -s = -2 * s by ring] at h2
    simp only [if_pos (And.intro hm hs)]
    refine h2.congr_deriv ?_
    have f1 : isqrtC ((l - m) * (l + m + 1)) * (if |m + 1| ≤ l ∧ |s| ≤ l then
        (-1 : ℂ) ^ s * (Real.sqrt ((2 * (l : ℝ) + 1) / (4 * Real.pi)) : ℂ)
          * Spec.wignerD A B (2 * l) (2 * (m + 1)) (-2 * s) else 0)
        = isqrtC ((l - m) * (l + m + 1)) * ((-1 : ℂ) ^ s * (Real.sqrt ((2 * (l : ℝ) + 1) / (4 * Real.pi)) : ℂ)
          * Spec.wignerD A B (2 * l) (2 * (m + 1)) (-2 * s)) := by
      by_cases h3 : m = l
      · subst h3; simp [isqrtC]
      · rw [if_pos ⟨by rw [abs_le]; omega, hs⟩]
    have f2 : isqrtC ((l + m) * (l - m + 1)) * (if |m - 1| ≤ l ∧ |s| ≤ l then
        (-1 : ℂ) ^ s * (Real.sqrt ((2 * (l : ℝ) + 1) / (4 * Real.pi)) : ℂ)
          * Spec.wignerD A B (2 * l) (2 * (m - 1)) (-2 * s) else 0)
        = isqrtC ((l + m) * (l - m + 1)) * ((-1 : ℂ) ^ s * (Real.sqrt ((2 * (l : ℝ) + 1) / (4 * Real.pi)) : ℂ)
          * Spec.wignerD A B (2 * l) (2 * (m - 1)) (-2 * s)) := by
      by_cases h3 : m = -l
      · subst h3; simp [isqrtC]
      · rw [if_pos ⟨by rw [abs_le]; omega, hs⟩]
    rw [f1, f2]
    ring
  · simp only [hs, and_false, if_false, mul_zero, sub_zero, add_zero]
    exact hasDerivAt_const _ _

theorem neg_one_zpow_succ (s : ℤ) : (-1 : ℂ) ^ (s + 1) = -(-1 : ℂ) ^ s := by
  rw [zpow_add₀ (by norm_num)]; simp

theorem neg_one_zpow_pred (s : ℤ) : (-1 : ℂ) ^ (s - 1) = -(-1 : ℂ) ^ s := by
  rw [zpow_sub₀ (by norm_num)]; simp [div_neg]

theorem lie_right_Y (ha : HasDerivAt a (Complex.I * z) 0) (hb : HasDerivAt b c 0) (ha0 : a 0 = 1) (hb0 : b 0 = 0)
    (A B : ℂ) {l m s : ℤ} (hm : |m| ≤ l) (hs : |s| ≤ l) :
    HasDerivAt (fun t => Spec.sYlm (A * a t - conj B * b t) (conj A * b t + B * a t) s l m)
      (-(c * (isqrtC ((l - s) * (l + s + 1)) * Spec.sYlm A B (s + 1) l m))
        + conj c * (isqrtC ((l + s) * (l - s + 1)) * Spec.sYlm A B (s - 1) l m)
        - 2 * Complex.I * z * (s * Spec.sYlm A B s l m)) 0 := by
  obtain ⟨s1, s2⟩ := abs_le.mp hs
  unfold Spec.sYlm
  have h := lie_right_D ha hb ha0 hb0 A B hm (k := -s) (by rwa [abs_neg])
  have h2 := h.const_mul ((-1 : ℂ) ^ s * (Real.sqrt ((2 * (l : ℝ) + 1) / (4 * Real.pi)) : ℂ))
  simp only [show (2 : ℤ) * -s = -2 * s by ring] at h2
  simp only [if_pos (And.intro hm hs)]
  refine h2.congr_deriv ?_
  have f1 : isqrtC ((l - s) * (l + s + 1)) * (if |m| ≤ l ∧ |s + 1| ≤ l then
      (-1 : ℂ) ^ (s + 1) * (Real.sqrt ((2 * (l : ℝ) + 1) / (4 * Real.pi)) : ℂ)
        * Spec.wignerD A B (2 * l) (2 * m) (-2 * (s + 1)) else 0)
      = isqrtC ((l + -s) * (l - -s + 1)) * (-(-1 : ℂ) ^ s * (Real.sqrt ((2 * (l : ℝ) + 1) / (4 * Real.pi)) : ℂ)
        * Spec.wignerD A B (2 * l) (2 * m) (2 * (-s - 1))) := by
    rw [show (l + -s) * (l - -s + 1) = (l - s) * (l + s + 1) by ring, show 2 * (-s - 1) = -2 * (s + 1) by ring,
      neg_one_zpow_succ]
    by_cases h3 : s = l
    · subst h3; simp [isqrtC]
    · rw [if_pos ⟨hm, by rw [abs_le]; omega⟩]
  have f2 : isqrtC ((l + s) * (l - s + 1)) * (if |m| ≤ l ∧ |s - 1| ≤ l then
      (-1 : ℂ) ^ (s - 1) * (Real.sqrt ((2 * (l : ℝ) + 1) / (4 * Real.pi)) : ℂ)
        * Spec.wignerD A B (2 * l) (2 * m) (-2 * (s - 1)) else 0)
      = isqrtC ((l - -s) * (l + -s + 1)) * (-(-1 : ℂ) ^ s * (Real.sqrt ((2 * (l : ℝ) + 1) / (4 * Real.pi)) : ℂ)
        * Spec.wignerD A B (2 * l) (2 * m) (2 * (-s + 1))) := by
    rw [show (l - -s) * (l + -s + 1) = (l + s) * (l - s + 1) by ring, show 2 * (-s + 1) = -2 * (s - 1) by ring,
      neg_one_zpow_pred]
    by_cases h3 : s = -l
    · subst h3; simp [isqrtC]
    · rw [if_pos ⟨hm, by rw [abs_le]; omega⟩]
  rw [f1, f2]
  push_cast
  ring

/-! ## Functions given by mode weights -/

theorem sum_shift_up (l : ℤ) (w : ℤ → ℂ) (Y : ℤ → ℂ) (k : ℤ → ℂ) (h : k l = 0) :
    ∑ m ∈ Icc (-l) l, w m * (k m * Y (m + 1))
      = ∑ m ∈ Icc (-l) l, (if m = -l then 0 else k (m - 1) * w (m - 1)) * Y m := by
  by_cases hl : l < 0
  · rw [Finset.Icc_eq_empty (by omega)]; simp
  have e1 : ∑ m ∈ Icc (-l) l, w m * (k m * Y (m + 1)) = ∑ m ∈ Icc (-l) (l - 1), w m * (k m * Y (m + 1)) := by
    symm
    apply Finset.sum_subset
    · intro x; simp only [mem_Icc]; omega
    · intro x h1 h2
      simp only [mem_Icc] at h1 h2
      rw [show x = l by omega, h]; ring
  have e2 : ∑ m ∈ Icc (-l) l, (if m = -l then 0 else k (m - 1) * w (m - 1)) * Y m
      = ∑ m ∈ Icc (-l + 1) l, (k (m - 1) * w (m - 1)) * Y m := by
    symm
    rw [← Finset.sum_subset (s₁ := Icc (-l + 1) l) (s₂ := Icc (-l) l)]
    · apply Finset.sum_congr rfl
      intro x hx
      rw [mem_Icc] at hx
      rw [if_neg (by omega)]
    · intro x; simp only [mem_Icc]; omega
    · intro x h1 h2
      simp only [mem_Icc] at h1 h2
      rw [if_pos (by omega), zero_mul]
  rw [e1, e2]
  apply Finset.sum_bij (fun m _ => m + 1)
  · intro x; simp only [mem_Icc]; omega
  · intro x _ y _; simp
  · intro y hy
    rw [mem_Icc] at hy
    exact ⟨y - 1, by rw [mem_Icc]; omega, by ring⟩
  · intro x _
    rw [add_sub_cancel_right]; ring

theorem sum_shift_down (l : ℤ) (w : ℤ → ℂ) (Y : ℤ → ℂ) (k : ℤ → ℂ) (h : k (-l) = 0) :
    ∑ m ∈ Icc (-l) l, w m * (k m * Y (m - 1))
      = ∑ m ∈ Icc (-l) l, (if m = l then 0 else k (m + 1) * w (m + 1)) * Y m := by
  by_cases hl : l < 0
  · rw [Finset.Icc_eq_empty (by omega)]; simp
  have e1 : ∑ m ∈ Icc (-l) l, w m * (k m * Y (m - 1)) = ∑ m ∈ Icc (-l + 1) l, w m * (k m * Y (m - 1)) := by
    symm
    apply Finset.sum_subset
    · intro x; simp only [mem_Icc]; omega
    · intro x h1 h2
      simp only [mem_Icc] at h1 h2
      rw [show x = -l by omega, h]; ring
  have e2 : ∑ m ∈ Icc (-l) l, (if m = l then 0 else k (m + 1) * w (m + 1)) * Y m
      = ∑ m ∈ Icc (-l) (l - 1), (k (m + 1) * w (m + 1)) * Y m := by
    symm
    rw [← Finset.sum_subset (s₁ := Icc (-l) (l - 1)) (s₂ := Icc (-l) l)]
    · apply Finset.sum_congr rfl
      intro x hx
      rw [mem_Icc] at hx
      rw [if_neg (by omega)]
    · intro x; simp only [mem_Icc]; omega
    · intro x h1 h2
      simp only [mem_Icc] at h1 h2
      rw [if_pos (by omega), zero_mul]
  rw [e1, e2]
  apply Finset.sum_bij (fun m _ => m - 1)
  · intro x; simp only [mem_Icc]; omega
  · intro x _ y _; simp
  · intro y hy
    rw [mem_Icc] at hy
    exact ⟨y + 1, by rw [mem_Icc]; omega, by ring⟩
  · intro x _
    rw [sub_add_cancel]; ring

theorem lie_left_field (ha : HasDerivAt a (Complex.I * z) 0) (hb : HasDerivAt b c 0) (ha0 : a 0 = 1) (hb0 : b 0 = 0)
    (A B : ℂ) (s L : ℤ) (w : ℤ → ℤ → ℂ) :
    HasDerivAt (fun t => Spec.fieldValue s L w (a t * A - conj (b t) * B) (conj (a t) * B + b t * A))
      (c * Spec.fieldValue s L
          (fun l m => if m = -l then 0 else isqrtC ((l + m) * (l - m + 1)) * w l (m - 1)) A B
        - conj c * Spec.fieldValue s L
          (fun l m => if m = l then 0 else isqrtC ((l - m) * (l + m + 1)) * w l (m + 1)) A B
        + 2 * Complex.I * z * Spec.fieldValue s L (fun l m => (m : ℂ) * w l m) A B) 0 := by
  unfold Spec.fieldValue
  have h : HasDerivAt (fun t => ∑ ell ∈ Icc |s| L, ∑ m ∈ Icc (-ell) ell,
      w ell m * Spec.sYlm (a t * A - conj (b t) * B) (conj (a t) * B + b t * A) s ell m)
      (∑ ell ∈ Icc |s| L, ∑ m ∈ Icc (-ell) ell, w ell m *
        (c * (isqrtC ((ell - m) * (ell + m + 1)) * Spec.sYlm A B s ell (m + 1))
        - conj c * (isqrtC ((ell + m) * (ell - m + 1)) * Spec.sYlm A B s ell (m - 1))
        + 2 * Complex.I * z * (m * Spec.sYlm A B s ell m))) 0 := by
    apply HasDerivAt.fun_sum
    intro ell _
    apply HasDerivAt.fun_sum
    intro m hm
    rw [mem_Icc] at hm
    exact (lie_left_Y ha hb ha0 hb0 A B s (abs_le.mpr hm)).const_mul _
  refine h.congr_deriv ?_
  rw [Finset.mul_sum, Finset.mul_sum, Finset.mul_sum, ← Finset.sum_sub_distrib, ← Finset.sum_add_distrib]
  apply Finset.sum_congr rfl
  intro l _
  have u := sum_shift_up l (w l) (fun m => Spec.sYlm A B s l m) (fun m => isqrtC ((l - m) * (l + m + 1)))
    (by simp [isqrtC])
  have d := sum_shift_down l (w l) (fun m => Spec.sYlm A B s l m) (fun m => isqrtC ((l + m) * (l - m + 1)))
    (by simp [isqrtC])
  have u' : ∑ m ∈ Icc (-l) l, (if m = -l then 0 else isqrtC ((l + m) * (l - m + 1)) * w l (m - 1)) * Spec.sYlm A B s l m
      = ∑ m ∈ Icc (-l) l, w l m * (isqrtC ((l - m) * (l + m + 1)) * Spec.sYlm A B s l (m + 1)) := by
    rw [u]
    apply Finset.sum_congr rfl
    intro m _
    rw [show (l - (m - 1)) * (l + (m - 1) + 1) = (l + m) * (l - m + 1) by ring]
  have d' : ∑ m ∈ Icc (-l) l, (if m = l then 0 else isqrtC ((l - m) * (l + m + 1)) * w l (m + 1)) * Spec.sYlm A B s l m
      = ∑ m ∈ Icc (-l) l, w l m * (isqrtC ((l + m) * (l - m + 1)) * Spec.sYlm A B s l (m - 1)) := by
    rw [d]
    apply Finset.sum_congr rfl
    intro m _
    rw [show (l + (m + 1)) * (l - (m + 1) + 1) = (l - m) * (l + m + 1) by ring]
  rw [u', d', Finset.mul_sum, Finset.mul_sum, Finset.mul_sum, ← Finset.sum_sub_distrib, ← Finset.sum_add_distrib]
  apply Finset.sum_congr rfl
  intro m _
  ring

theorem lie_right_field (ha : HasDerivAt a (Complex.I * z) 0) (hb : HasDerivAt b c 0) (ha0 : a 0 = 1) (hb0 : b 0 = 0)
    (A B : ℂ) (s L : ℤ) (w : ℤ → ℤ → ℂ) :
    HasDerivAt (fun t => Spec.fieldValue s L w (A * a t - conj B * b t) (conj A * b t + B * a t))
      (-(c * Spec.fieldValue (s + 1) L (fun l m => isqrtC ((l - s) * (l + s + 1)) * (if |s| ≤ l then w l m else 0)) A B)
        + conj c * Spec.fieldValue (s - 1) L (fun l m => isqrtC ((l + s) * (l - s + 1)) * (if |s| ≤ l then w l m else 0)) A B
        - 2 * Complex.I * z * Spec.fieldValue s L (fun l m => (s : ℂ) * w l m) A B) 0 := by
  have h : HasDerivAt (fun t => Spec.fieldValue s L w (A * a t - conj B * b t) (conj A * b t + B * a t))
      (∑ ell ∈ Icc |s| L, ∑ m ∈ Icc (-ell) ell, w ell m *
        (-(c * (isqrtC ((ell - s) * (ell + s + 1)) * Spec.sYlm A B (s + 1) ell m))
        + conj c * (isqrtC ((ell + s) * (ell - s + 1)) * Spec.sYlm A B (s - 1) ell m)
        - 2 * Complex.I * z * (s * Spec.sYlm A B s ell m))) 0 := by
    unfold Spec.fieldValue
    apply HasDerivAt.fun_sum
    intro ell hl
    apply HasDerivAt.fun_sum
    intro m hm
    rw [mem_Icc] at hm hl
    exact (lie_right_Y ha hb ha0 hb0 A B (abs_le.mpr hm) hl.1).const_mul _
  refine h.congr_deriv ?_
  rw [fieldValue_from_zero, fieldValue_from_zero]
  have drop : ∀ (r : ℤ → ℂ) (Y : ℤ → ℤ → ℂ),
      ∑ ell ∈ Icc 0 L, ∑ m ∈ Icc (-ell) ell, r ell * (if |s| ≤ ell then w ell m else 0) * Y ell m
        = ∑ ell ∈ Icc |s| L, ∑ m ∈ Icc (-ell) ell, r ell * w ell m * Y ell m := by
    intro r Y
    symm
    rw [← Finset.sum_subset (s₁ := Icc |s| L) (s₂ := Icc 0 L)]
    · apply Finset.sum_congr rfl
      intro x hx
      rw [mem_Icc] at hx
      simp only [if_pos hx.1]
    · intro x; simp only [mem_Icc]; have := abs_nonneg s; omega
    · intro x h1 h2
      simp only [mem_Icc] at h1 h2
      simp only [if_neg (show ¬|s| ≤ x by omega), mul_zero, zero_mul, Finset.sum_const_zero]
  rw [drop (fun l => isqrtC ((l - s) * (l + s + 1))) (fun l m => Spec.sYlm A B (s + 1) l m),
    drop (fun l => isqrtC ((l + s) * (l - s + 1))) (fun l m => Spec.sYlm A B (s - 1) l m)]
  unfold Spec.fieldValue
  rw [Finset.mul_sum, Finset.mul_sum, Finset.mul_sum, ← Finset.sum_neg_distrib, ← Finset.sum_add_distrib,
    ← Finset.sum_sub_distrib]
  apply Finset.sum_congr rfl
  intro l _
  rw [Finset.mul_sum, Finset.mul_sum, Finset.mul_sum, ← Finset.sum_neg_distrib, ← Finset.sum_add_distrib,
    ← Finset.sum_sub_distrib]
  apply Finset.sum_congr rfl
  intro m _
  ring

end

end SF
