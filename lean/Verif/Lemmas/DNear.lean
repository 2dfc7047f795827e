import Verif.Lemmas.DSafety
import Verif.Lemmas.DSym
import Verif.Lemmas.Rep

/-! # The D function near the poles: a bound that is linear in `ell` -/

set_option autoImplicit false

namespace SF

open Finset ComplexConjugate

/-- An alternating sum of decreasing nonnegative terms lies between zero and its first term. -/
theorem alternating_bounds (N : ℕ) : ∀ T : ℕ → ℝ, (∀ k, 0 ≤ T k) → (∀ k, T (k + 1) ≤ T k) →
    0 ≤ ∑ k ∈ range N, (-1 : ℝ) ^ k * T k ∧ ∑ k ∈ range N, (-1 : ℝ) ^ k * T k ≤ T 0 := by
  induction N with
  | zero => intro T h0 _; simp [h0 0]
  | succ N ih =>
    intro T h0 h1
    obtain ⟨g1, g2⟩ := ih (fun k => T (k + 1)) (fun k => h0 _) (fun k => h1 _)
    rw [sum_range_succ']
    have e : ∑ k ∈ range N, (-1 : ℝ) ^ (k + 1) * T (k + 1) = -∑ k ∈ range N, (-1 : ℝ) ^ k * T (k + 1) := by
      rw [← sum_neg_distrib]; apply sum_congr rfl; intro k _; ring
    rw [e]
    have := h1 0
    simp only [zero_add] at *
    constructor <;> linarith

theorem alternating_lower (N : ℕ) (T : ℕ → ℝ) (h0 : ∀ k, 0 ≤ T k) (h1 : ∀ k, T (k + 1) ≤ T k) :
    T 0 - T 1 ≤ ∑ k ∈ range (N + 1), (-1 : ℝ) ^ k * T k := by
  have g := (alternating_bounds N (fun k => T (k + 1)) (fun k => h0 _) (fun k => h1 _)).2
  rw [sum_range_succ']
  have e : ∑ k ∈ range N, (-1 : ℝ) ^ (k + 1) * T (k + 1) = -∑ k ∈ range N, (-1 : ℝ) ^ k * T (k + 1) := by
    rw [← sum_neg_distrib]; apply sum_congr rfl; intro k _; ring
  rw [e]
  simp only [zero_add] at g
  linarith

/-- The diagonal element at a rotor with real nonnegative `Ra`. -/
theorem Dpq_diag_real (r : ℝ) (b : ℂ) (p q : ℕ) :
    Spec.Dpq (r : ℂ) b p q p q
      = ((∑ k ∈ range (q + 1), (-1 : ℝ) ^ k * ((p.choose k : ℝ) * q.choose k * r ^ (p - k + (q - k)) * (‖b‖ ^ 2) ^ k) : ℝ) : ℂ) := by
  rw [Dpq_eq_Msum, div_self (by positivity), Real.sqrt_one, Complex.ofReal_one, one_mul]
  unfold Msum
  rw [Complex.ofReal_sum]
  apply sum_congr rfl
  intro k hk
  rw [mem_range] at hk
  have e1 : q - (q - k) = k := by omega
  have e2 : b ^ k * (conj b) ^ k = (((‖b‖ ^ 2) ^ k : ℝ) : ℂ) := by
    rw [← mul_pow, mul_conj_norm]; push_cast; ring
  unfold Dterm
  rw [e1, Complex.conj_ofReal, Nat.choose_symm (by omega), mul_assoc _ (b ^ k), e2]
  push_cast
  rw [pow_add]
  ring

theorem choose_succ_le (p k : ℕ) : p.choose (k + 1) ≤ p * p.choose k := by
  have h := Nat.choose_succ_right_eq p k
  calc p.choose (k + 1) ≤ p.choose (k + 1) * (k + 1) := Nat.le_mul_of_pos_right _ (by omega)
    _ = p.choose k * (p - k) := h
    _ ≤ p.choose k * p := Nat.mul_le_mul_left _ (by omega)
    _ = _ := mul_comm _ _

/-- Rows of the D matrix are unit vectors; two of the squares. -/
theorem Dpq_two_le {za zb : ℂ} (hu : Spec.IsUnit' za zb) {p' q' p q : ℕ} (hsum : p' + q' = p + q) (hne : q' ≠ q) :
    ‖Spec.Dpq za zb p' q' p q‖ ^ 2 + ‖Spec.Dpq za zb p' q' p' q'‖ ^ 2 ≤ 1 ∧ ‖Spec.Dpq za zb p' q' p' q'‖ ^ 2 ≤ 1 := by
  have h := Dpq_mul za zb (conj za) (-zb) (p' := p') (q' := q') (p := p') (q := q') rfl
  have e1 : za * conj za - conj zb * -zb = 1 := by
    unfold Spec.IsUnit' at hu
    rw [Complex.mul_conj, mul_neg, sub_neg_eq_add, mul_comm, Complex.mul_conj]
    exact_mod_cast hu
  have e2 : conj za * -zb + zb * conj za = 0 := by ring
  rw [e1, e2, Dpq_rb_zero (by simp) rfl, if_pos rfl, one_zpow] at h
  have h2 : ∑ k ∈ range (p' + q' + 1), ‖Spec.Dpq za zb p' q' (p' + q' - k) k‖ ^ 2 = 1 := by
    have : ((∑ k ∈ range (p' + q' + 1), ‖Spec.Dpq za zb p' q' (p' + q' - k) k‖ ^ 2 : ℝ) : ℂ) = ((1 : ℝ) : ℂ) := by
      rw [Complex.ofReal_one, ← h, Complex.ofReal_sum]
      apply sum_congr rfl
      intro k hk
      rw [mem_range] at hk
      rw [Dpq_inv za zb (by omega), mul_conj_norm]
      push_cast; ring
    exact_mod_cast this
  have m1 : q ∈ range (p' + q' + 1) := by rw [mem_range]; omega
  have m2 : q' ∈ (range (p' + q' + 1)).erase q := by rw [mem_erase, mem_range]; omega
  rw [← add_sum_erase _ _ m1, ← add_sum_erase _ _ m2] at h2
  have r1 : p' + q' - q = p := by omega
  have r2 : p' + q' - q' = p' := by omega
  rw [r1, r2] at h2
  have n1 : 0 ≤ ∑ k ∈ ((range (p' + q' + 1)).erase q).erase q', ‖Spec.Dpq za zb p' q' (p' + q' - k) k‖ ^ 2 :=
    sum_nonneg fun _ _ => by positivity
  have n2 : 0 ≤ ‖Spec.Dpq za zb p' q' p q‖ ^ 2 := by positivity
  constructor <;> linarith

theorem Dpq_diag_le {za zb : ℂ} (hu : Spec.IsUnit' za zb) (p q : ℕ) : ‖Spec.Dpq za zb p q p q‖ ≤ 1 := by
  by_cases h : p + q = 0
  · obtain ⟨rfl, rfl⟩ : p = 0 ∧ q = 0 := by omega
    rw [Dpq_eq_Msum]; simp [Msum, Dterm]
  · have : ‖Spec.Dpq za zb p q p q‖ ^ 2 ≤ 1 := by
      by_cases hq : q = 0
      · exact (Dpq_two_le hu (p' := p) (q' := q) (p := p - 1) (q := q + 1) (by omega) (by omega)).2
      · exact (Dpq_two_le hu (p' := p) (q' := q) (p := p + 1) (q := q - 1) (by omega) (by omega)).2
    nlinarith [norm_nonneg (Spec.Dpq za zb p q p q)]

/-- The diagonal elements at a rotor with real positive `Ra`. -/
theorem Dpq_diag_near {r : ℝ} (hr : 0 < r) {b : ℂ} (hu : Spec.IsUnit' (r : ℂ) b) (p q : ℕ) :
    ∃ D : ℝ, Spec.Dpq (r : ℂ) b p q p q = (D : ℂ) ∧ D ≤ 1 ∧ -1 ≤ D ∧ 1 - D ≤ 2 * ((p + q + p * q) * ‖b‖ ^ 2) := by
  have hab : r ^ 2 + ‖b‖ ^ 2 = 1 := by
    unfold Spec.IsUnit' at hu
    rw [Complex.normSq_eq_norm_sq, Complex.normSq_eq_norm_sq, Complex.norm_real, Real.norm_of_nonneg hr.le] at hu
    exact hu
  refine ⟨_, Dpq_diag_real r b p q, ?_⟩
  have hle := Dpq_diag_le hu p q
  rw [Dpq_diag_real, Complex.norm_real, Real.norm_eq_abs, abs_le] at hle
  refine ⟨hle.2, hle.1, ?_⟩
  set t := ‖b‖ ^ 2 with ht
  have t0 : 0 ≤ t := by positivity
  have t1 : t < 1 := by nlinarith
  have r1 : r ≤ 1 := by nlinarith
  by_cases h : (p : ℝ) * q * t ≤ r ^ 2
  · have low := alternating_lower q (fun k => (p.choose k : ℝ) * q.choose k * r ^ (p - k + (q - k)) * t ^ k)
      (fun k => by positivity) (by
        intro k
        by_cases hk : k + 1 ≤ p ∧ k + 1 ≤ q
        · have c1 : (p.choose (k + 1) : ℝ) ≤ p * p.choose k := by exact_mod_cast choose_succ_le p k
          have c2 : (q.choose (k + 1) : ℝ) ≤ q * q.choose k := by exact_mod_cast choose_succ_le q k
          have e : r ^ (p - k + (q - k)) = r ^ (p - (k + 1) + (q - (k + 1))) * r ^ 2 := by
            rw [← pow_add]; congr 1; omega
          rw [e]
          calc (p.choose (k + 1) : ℝ) * q.choose (k + 1) * r ^ (p - (k + 1) + (q - (k + 1))) * t ^ (k + 1)
              ≤ (p * p.choose k) * (q * q.choose k) * r ^ (p - (k + 1) + (q - (k + 1))) * t ^ (k + 1) := by gcongr
            _ = (p.choose k : ℝ) * q.choose k * (r ^ (p - (k + 1) + (q - (k + 1))) * (p * q * t)) * t ^ k := by ring
            _ ≤ _ := by gcongr
        · have : (p.choose (k + 1) : ℝ) * q.choose (k + 1) = 0 := by
            by_cases h1 : p < k + 1
            · rw [Nat.choose_eq_zero_of_lt h1]; simp
            · rw [Nat.choose_eq_zero_of_lt (show q < k + 1 by omega)]; simp
          rw [this]
          simp only [zero_mul]
          positivity)
    simp only [Nat.choose_zero_right, Nat.cast_one, one_mul, mul_one, pow_zero, Nat.sub_zero, Nat.choose_one_right, pow_one] at low
    have b1 : 1 - (p + q : ℕ) * t ≤ r ^ (p + q) := by
      have := one_add_mul_le_pow (a := r - 1) (by linarith) (p + q)
      have e : (1 + (r - 1)) = r := by ring
      rw [e] at this
      have h3 : -t ≤ r - 1 := by nlinarith
      have h4 : (0 : ℝ) ≤ (p + q : ℕ) := by positivity
      nlinarith
    have b2 : (p : ℝ) * q * r ^ (p - 1 + (q - 1)) * t ≤ p * q * 1 * t := by
      gcongr
      exact pow_le_one₀ hr.le r1
    push_cast at b1
    have : 0 ≤ ((p : ℝ) + q + p * q) * t := by positivity
    linarith
  · push Not at h
    have hpq : (1 : ℝ) ≤ p + q := by
      by_contra hc
      have : p = 0 := by
        by_contra h0
        have : (1 : ℝ) ≤ p := by exact_mod_cast Nat.one_le_iff_ne_zero.mpr h0
        have : (0 : ℝ) ≤ q := by positivity
        linarith
      rw [this] at h
      norm_num at h
      nlinarith
    have : 1 ≤ ((p : ℝ) + q + p * q) * t := by nlinarith
    linarith [hle.1]

/-- Powers of a modulus close to one. -/
theorem zpow_near_one {r s : ℝ} (hr : 0 < r) (hr1 : r ≤ 1) (hs : 0 < s) (hsr : s ≤ r) {m : ℤ} {n : ℕ} (hm : |m| ≤ n) :
    |r ^ m - 1| ≤ (s ^ n)⁻¹ - 1 := by
  have a := abs_le.mp hm
  have p1 : s ^ n ≤ r ^ n := by gcongr
  have p2 : 0 < s ^ n := by positivity
  have p3 : 0 < r ^ n := by positivity
  have p4 : r ^ n ≤ 1 := pow_le_one₀ hr.le hr1
  have p5 : (r ^ n)⁻¹ ≤ (s ^ n)⁻¹ := inv_anti₀ p2 p1
  have q1 : r ^ (n : ℤ) ≤ r ^ m := zpow_le_zpow_right_of_le_one₀ hr hr1 (by omega)
  have q2 : r ^ m ≤ r ^ (-(n : ℤ)) := zpow_le_zpow_right_of_le_one₀ hr hr1 (by omega)
  rw [zpow_neg, zpow_natCast] at q2
  rw [zpow_natCast] at q1
  have q3 : 2 ≤ r ^ n + (r ^ n)⁻¹ := by
    have : 0 ≤ (1 - r ^ n) ^ 2 * (r ^ n)⁻¹ := by positivity
    have e : (1 - r ^ n) ^ 2 * (r ^ n)⁻¹ = (r ^ n)⁻¹ - 2 + r ^ n := by field_simp; ring
    linarith
  rw [abs_le]
  constructor <;> linarith

/-- Near `Rb = 0` the D function is close to the diagonal matrix. -/
theorem Dpq_near_rb {za zb : ℂ} (hu : Spec.IsUnit' za zb) (hz : za ≠ 0) {p' q' p q : ℕ} (hsum : p' + q' = p + q) :
    ‖(if q' = q then za ^ ((p : ℤ) - q) else 0) - Spec.Dpq za zb p' q' p q‖
      ≤ ((p + q : ℕ) + 2) * ‖zb‖ + (((1 - ‖zb‖ ^ 2) ^ (p + q))⁻¹ - 1) := by
  have hr : 0 < ‖za‖ := norm_pos_iff.mpr hz
  have hrC : (‖za‖ : ℂ) ≠ 0 := by exact_mod_cast hr.ne'
  obtain ⟨ω, hω, hzω⟩ : ∃ ω : ℂ, ‖ω‖ = 1 ∧ za = ω * ‖za‖ := by
    refine ⟨za / ‖za‖, ?_, by field_simp⟩
    rw [norm_div, Complex.norm_real, norm_norm, div_self hr.ne']
  have hω1 : Complex.normSq ω = 1 := by rw [Complex.normSq_eq_norm_sq, hω]; norm_num
  have hω0 : ω ≠ 0 := ne_zero_of_normSq_one hω1
  have hωc : conj ω * ω = 1 := by rw [← Complex.normSq_eq_conj_mul_self, hω1]; norm_num
  have hnb : ‖ω * zb‖ = ‖zb‖ := by rw [norm_mul, hω, one_mul]
  have hu' : Spec.IsUnit' ((‖za‖ : ℝ) : ℂ) (ω * zb) := by
    unfold Spec.IsUnit' at *
    rw [Complex.normSq_eq_norm_sq, Complex.normSq_eq_norm_sq, hnb, Complex.norm_real, norm_norm]
    rw [Complex.normSq_eq_norm_sq, Complex.normSq_eq_norm_sq] at hu
    exact hu
  have key : Spec.Dpq za zb p' q' p q = ω ^ ((p' : ℤ) - q') * Spec.Dpq (‖za‖ : ℝ) (ω * zb) p' q' p q := by
    have h := Dpq_mul ω 0 ((‖za‖ : ℝ) : ℂ) (ω * zb) hsum
    rw [map_zero, zero_mul, sub_zero, zero_mul, add_zero, ← mul_assoc, hωc, one_mul, ← hzω] at h
    rw [← h, Finset.sum_eq_single q']
    · rw [Dpq_rb_zero hω1 (by omega), if_pos rfl, show p' + q' - q' = p' by omega]
    · intro k hk hne
      rw [mem_range] at hk
      rw [Dpq_rb_zero hω1 (by omega), if_neg (Ne.symm hne), zero_mul]
    · intro h; exact absurd (mem_range.mpr (by omega)) h
  obtain ⟨ha, hb, hab⟩ := unit_norm_le hu
  have b0 : 0 ≤ ‖zb‖ := norm_nonneg _
  have s1 : ‖za‖ ^ 2 = 1 - ‖zb‖ ^ 2 := by linarith
  have s2 : 1 - ‖zb‖ ^ 2 ≤ ‖za‖ := by rw [← s1]; exact pow_le_of_le_one hr.le ha (by norm_num)
  have s3 : 0 < 1 - ‖zb‖ ^ 2 := by rw [← s1]; positivity
  have hE : 0 ≤ ((1 - ‖zb‖ ^ 2) ^ (p + q))⁻¹ - 1 := by
    have : (1 - ‖zb‖ ^ 2) ^ (p + q) ≤ 1 := pow_le_one₀ s3.le (by nlinarith)
    have := one_le_inv₀ (pow_pos s3 (p + q)) |>.mpr this
    linarith
  -- the bound on `2 (1 - D)`
  have sq : ∀ (P Q : ℕ), P + Q = p + q → 2 * (2 * (((P : ℝ) + Q + P * Q) * ‖ω * zb‖ ^ 2)) ≤ (((p + q : ℕ) + 2) * ‖zb‖) ^ 2 := by
    intro P Q h
    rw [hnb, mul_pow, ← h]
    have : 2 * (2 * ((P : ℝ) + Q + P * Q)) ≤ ((P + Q : ℕ) + 2) ^ 2 := by
      push_cast
      nlinarith [sq_nonneg ((P : ℝ) - Q)]
    have b2 : 0 ≤ ‖zb‖ ^ 2 := by positivity
    calc _ = 2 * (2 * ((P : ℝ) + Q + P * Q)) * ‖zb‖ ^ 2 := by ring
      _ ≤ _ := mul_le_mul_of_nonneg_right this b2
  have hB : 0 ≤ ((p + q : ℕ) + 2) * ‖zb‖ := by positivity
  rw [key]
  by_cases h : q' = q
  · subst h
    obtain rfl : p' = p := by omega
    obtain ⟨D, d1, d2, d3, d4⟩ := Dpq_diag_near hr hu' p' q'
    have hr0 : za ^ ((p' : ℤ) - q') = ω ^ ((p' : ℤ) - q') * (((‖za‖ ^ ((p' : ℤ) - q') : ℝ)) : ℂ) := by
      conv_lhs => rw [hzω]
      rw [mul_zpow, Complex.ofReal_zpow]
    rw [if_pos rfl, d1, hr0, ← mul_sub, norm_mul, norm_zpow, hω, one_zpow, one_mul, ← Complex.ofReal_sub, Complex.norm_real,
      Real.norm_eq_abs]
    have z := zpow_near_one hr ha s3 s2 (m := (p' : ℤ) - q') (n := p' + q') (by rw [abs_le]; push_cast; constructor <;> omega)
    have w : |1 - D| ≤ ((p' + q' : ℕ) + 2) * ‖zb‖ := by
      rw [abs_of_nonneg (by linarith)]
      have := sq p' q' rfl
      nlinarith
    calc |‖za‖ ^ ((p' : ℤ) - q') - D| = |(1 - D) + (‖za‖ ^ ((p' : ℤ) - q') - 1)| := by ring_nf
      _ ≤ _ := (abs_add_le _ _).trans (add_le_add w z)
  · rw [if_neg h, zero_sub, norm_neg, norm_mul, norm_zpow, hω, one_zpow, one_mul]
    obtain ⟨D, d1, d2, d3, d4⟩ := Dpq_diag_near hr hu' p' q'
    have t := (Dpq_two_le hu' hsum h).1
    rw [d1, Complex.norm_real, Real.norm_eq_abs, sq_abs] at t
    have s := sq p' q' (by omega)
    have : ‖Spec.Dpq (‖za‖ : ℝ) (ω * zb) p' q' p q‖ ≤ ((p + q : ℕ) + 2) * ‖zb‖ := by
      apply abs_le_of_sq_le_sq' _ hB |>.2
      nlinarith
    linarith

/-- Near `Ra = 0` the D function is close to the antidiagonal matrix. -/
theorem Dpq_near_ra {za zb : ℂ} (hu : Spec.IsUnit' za zb) (hz : zb ≠ 0) {p' q' p q : ℕ} (hsum : p' + q' = p + q) :
    ‖(if p' = q then (-1) ^ q * zb ^ ((p : ℤ) - q) else 0) - Spec.Dpq za zb p' q' p q‖
      ≤ ((p + q : ℕ) + 2) * ‖za‖ + (((1 - ‖za‖ ^ 2) ^ (p + q))⁻¹ - 1) := by
  have h := Dpq_near_rb (za := zb) (zb := za) (by unfold Spec.IsUnit' at *; linarith) hz
    (p' := q') (q' := p') (p := p) (q := q) (by omega)
  rw [Dpq_swap]
  have e : (if p' = q then (-1) ^ q * zb ^ ((p : ℤ) - q) else 0) - (-1) ^ q * Spec.Dpq zb za q' p' p q
      = (-1) ^ q * ((if p' = q then zb ^ ((p : ℤ) - q) else 0) - Spec.Dpq zb za q' p' p q) := by
    split_ifs <;> ring
  rw [e, norm_mul, norm_pow, norm_neg, norm_one, one_pow, one_mul]
  exact h

theorem epsilon_lt_one : epsilon < 1 := by unfold epsilon; norm_num

/-- Bound on the error of one element, `n = 2 ell`. -/
noncomputable def errH (n : ℕ) : ℝ := (n + 2) * epsilon + (((1 - epsilon ^ 2) ^ n)⁻¹ - 1)

theorem small_mono {x : ℝ} (hx : 0 ≤ x) (h : x ≤ epsilon) (n : ℕ) :
    (n + 2) * x + (((1 - x ^ 2) ^ n)⁻¹ - 1) ≤ errH n := by
  have e1 := epsilon_lt_one
  have e0 := epsilon_pos
  have h2 : x ^ 2 ≤ epsilon ^ 2 := by gcongr
  have h3 : 0 < 1 - epsilon ^ 2 := by nlinarith
  have h4 : (1 - epsilon ^ 2) ^ n ≤ (1 - x ^ 2) ^ n := by gcongr
  have h5 : ((1 - x ^ 2) ^ n)⁻¹ ≤ ((1 - epsilon ^ 2) ^ n)⁻¹ := inv_anti₀ (by positivity) h4
  unfold errH
  gcongr

theorem errH_nonneg (n : ℕ) : 0 ≤ errH n := by
  have := small_mono le_rfl epsilon_pos.le n
  simpa using this

/-- For `n ≤ 10^14` the bound is at most `(n + 3) epsilon`. -/
theorem errH_le {n : ℕ} (hn : n ≤ 10 ^ 14) : errH n ≤ (n + 3) * epsilon := by
  have e0 := epsilon_pos
  have hn' : (n : ℝ) ≤ 10 ^ 14 := by exact_mod_cast hn
  have hne : (n : ℝ) * epsilon ≤ 1 / 2 := by
    have : (10 : ℝ) ^ 14 * epsilon ≤ 1 / 2 := by unfold epsilon; norm_num
    nlinarith
  have b : 1 - n * epsilon ^ 2 ≤ (1 - epsilon ^ 2) ^ n := by
    have h1 := epsilon_lt_one
    have := one_add_mul_le_pow (a := -epsilon ^ 2) (by nlinarith) n
    have e : 1 + -epsilon ^ 2 = 1 - epsilon ^ 2 := by ring
    rw [e] at this
    linarith
  have h3 : n * epsilon ^ 2 ≤ epsilon / 2 := by nlinarith
  have h4 : epsilon ≤ 1 / 2 := by unfold epsilon; norm_num
  have b2 : ((1 - epsilon ^ 2) ^ n)⁻¹ ≤ (1 - epsilon / 2)⁻¹ := inv_anti₀ (by linarith) (by linarith)
  have b3 : (1 - epsilon / 2)⁻¹ ≤ 1 + epsilon := by
    rw [inv_le_iff_one_le_mul₀ (by linarith)]
    nlinarith
  unfold errH
  linarith

theorem Dpq_eps_ra {za zb : ℂ} (hu : Spec.IsUnit' za zb) (hs : ‖za‖ ≤ epsilon) {p' q' p q : ℕ} (hsum : p' + q' = p + q) :
    ‖(if p' = q then (-1) ^ q * zb ^ ((p : ℤ) - q) else 0) - Spec.Dpq za zb p' q' p q‖ ≤ errH (p + q) :=
  (Dpq_near_ra hu (unit_ra_small hu hs) hsum).trans (small_mono (norm_nonneg _) hs _)

theorem Dpq_eps_rb {za zb : ℂ} (hu : Spec.IsUnit' za zb) (hs : ‖zb‖ ≤ epsilon) {p' q' p q : ℕ} (hsum : p' + q' = p + q) :
    ‖(if q' = q then za ^ ((p : ℤ) - q) else 0) - Spec.Dpq za zb p' q' p q‖ ≤ errH (p + q) :=
  (Dpq_near_rb hu (unit_rb_small hu hs) hsum).trans (small_mono (norm_nonneg _) hs _)

end SF
