import Verif.Spec.Sphere
import Verif.Props.GridModes
import Verif.Lemmas.Multiplication
import Mathlib.Analysis.Analytic.Uniqueness
import Mathlib.Analysis.SpecialFunctions.Trigonometric.Deriv
import Mathlib.Analysis.SpecialFunctions.Integrals.Basic
import Mathlib.MeasureTheory.Integral.IntervalIntegral.FundThmCalculus

/-!
# Orthonormality of the spin-weighted spherical harmonics (closed forms)
-/

set_option autoImplicit false

namespace SF

open Finset ComplexConjugate Spec

/-! ## The θ integral of a Legendre polynomial -/

/-- `∫_0^π sin^{2a}(θ/2) cos^{2b}(θ/2) sin θ dθ`. -/
noncomputable def Jint (a b : ℕ) : ℝ := ∫ θ in (0 : ℝ)..Real.pi, (Real.sin (θ / 2) ^ 2) ^ a * (Real.cos (θ / 2) ^ 2) ^ b * Real.sin θ

theorem hasDeriv_S (θ : ℝ) : HasDerivAt (fun θ : ℝ => Real.sin (θ / 2) ^ 2) (Real.sin θ / 2) θ := by
  have h1 : HasDerivAt (fun θ : ℝ => Real.sin (θ / 2)) (Real.cos (θ / 2) * (1 / 2)) θ :=
    ((hasDerivAt_id' θ).div_const 2).sin
  have := h1.pow 2
  refine this.congr_deriv ?_
  have e : Real.sin θ = 2 * Real.sin (θ / 2) * Real.cos (θ / 2) := by rw [← Real.sin_two_mul]; ring_nf
  rw [e]; push_cast; ring

theorem hasDeriv_C (θ : ℝ) : HasDerivAt (fun θ : ℝ => Real.cos (θ / 2) ^ 2) (-(Real.sin θ / 2)) θ := by
  have h1 : HasDerivAt (fun θ : ℝ => Real.cos (θ / 2)) (-Real.sin (θ / 2) * (1 / 2)) θ :=
    ((hasDerivAt_id' θ).div_const 2).cos
  have := h1.pow 2
  refine this.congr_deriv ?_
  have e : Real.sin θ = 2 * Real.sin (θ / 2) * Real.cos (θ / 2) := by rw [← Real.sin_two_mul]; ring_nf
  rw [e]; push_cast; ring

theorem Jint_cont (a b : ℕ) : Continuous fun θ : ℝ => (Real.sin (θ / 2) ^ 2) ^ a * (Real.cos (θ / 2) ^ 2) ^ b * Real.sin θ := by fun_prop

theorem Jint_zero (a : ℕ) : Jint a 0 = 2 / (a + 1) := by
  unfold Jint
  have hd : ∀ θ : ℝ, HasDerivAt (fun θ : ℝ => 2 / ((a : ℝ) + 1) * (Real.sin (θ / 2) ^ 2) ^ (a + 1))
      ((Real.sin (θ / 2) ^ 2) ^ a * (Real.cos (θ / 2) ^ 2) ^ 0 * Real.sin θ) θ := by
    intro θ
    have := ((hasDeriv_S θ).pow (a + 1)).const_mul (2 / ((a : ℝ) + 1))
    refine this.congr_deriv ?_
    have : (a : ℝ) + 1 ≠ 0 := by positivity
    simp only [Nat.add_sub_cancel, pow_zero, mul_one]
    push_cast
    field_simp
  rw [intervalIntegral.integral_eq_sub_of_hasDerivAt (fun θ _ => hd θ) ((Jint_cont a 0).intervalIntegrable _ _)]
  simp

theorem Jint_step (a b : ℕ) : (a + 1) * Jint a (b + 1) = (b + 1) * Jint (a + 1) b := by
  have hd : ∀ θ : ℝ, HasDerivAt (fun θ : ℝ => 2 * ((Real.sin (θ / 2) ^ 2) ^ (a + 1) * (Real.cos (θ / 2) ^ 2) ^ (b + 1)))
      ((a + 1) * ((Real.sin (θ / 2) ^ 2) ^ a * (Real.cos (θ / 2) ^ 2) ^ (b + 1) * Real.sin θ)
        - (b + 1) * ((Real.sin (θ / 2) ^ 2) ^ (a + 1) * (Real.cos (θ / 2) ^ 2) ^ b * Real.sin θ)) θ := by
    intro θ
    have := (((hasDeriv_S θ).pow (a + 1)).mul ((hasDeriv_C θ).pow (b + 1))).const_mul 2
    refine this.congr_deriv ?_
    simp only [Nat.add_sub_cancel, Pi.pow_apply]
    push_cast
    ring
  have i1 : IntervalIntegrable (fun θ : ℝ => ((a : ℝ) + 1) * ((Real.sin (θ / 2) ^ 2) ^ a * (Real.cos (θ / 2) ^ 2) ^ (b + 1) * Real.sin θ))
      MeasureTheory.volume 0 Real.pi := (Continuous.intervalIntegrable (by fun_prop) _ _)
  have i2 : IntervalIntegrable (fun θ : ℝ => ((b : ℝ) + 1) * ((Real.sin (θ / 2) ^ 2) ^ (a + 1) * (Real.cos (θ / 2) ^ 2) ^ b * Real.sin θ))
      MeasureTheory.volume 0 Real.pi := (Continuous.intervalIntegrable (by fun_prop) _ _)
  have := intervalIntegral.integral_eq_sub_of_hasDerivAt (fun θ (_ : θ ∈ Set.uIcc 0 Real.pi) => hd θ) (i1.sub i2)
  rw [intervalIntegral.integral_sub i1 i2, intervalIntegral.integral_const_mul, intervalIntegral.integral_const_mul] at this
  simp only [Real.cos_pi_div_two, zero_div, Real.sin_zero] at this
  unfold Jint
  norm_num at this
  linarith

theorem Jint_choose (b a : ℕ) : ((a + b).choose a : ℝ) * Jint a b = 2 / (a + b + 1) := by
  induction b generalizing a with
  | zero => rw [Jint_zero]; simp
  | succ b ih =>
    have h1 := Jint_step a b
    have h2 := ih (a + 1)
    have h3 : (((a + (b + 1)).choose (a + 1) : ℕ) : ℝ) * (a + 1) = ((a + (b + 1)).choose a : ℝ) * (b + 1) := by
      have := Nat.choose_succ_right_eq (a + (b + 1)) a
      rw [show a + (b + 1) - a = b + 1 by omega] at this
      exact_mod_cast this
    rw [show a + 1 + b = a + (b + 1) by omega] at h2
    have ha : (a : ℝ) + 1 ≠ 0 := by positivity
    have : ((a + (b + 1)).choose a : ℝ) * Jint a (b + 1) = (((a + (b + 1)).choose (a + 1) : ℕ) : ℝ) * Jint (a + 1) b := by
      apply mul_left_cancel₀ ha
      linear_combination ((a + (b + 1)).choose a : ℝ) * h1 - Jint (a + 1) b * h3
    rw [this, h2]
    push_cast
    ring

/-- `∫_0^π P_n(cos θ) sin θ dθ`. -/
theorem legendre_integral (n : ℕ) :
    ∫ θ in (0 : ℝ)..Real.pi, Dpq (Real.cos (θ / 2)) (Real.sin (θ / 2)) n n n n * (Real.sin θ : ℂ) = if n = 0 then 2 else 0 := by
  have e : ∀ θ : ℝ, Dpq (Real.cos (θ / 2)) (Real.sin (θ / 2)) n n n n * (Real.sin θ : ℂ)
      = ((∑ ρ ∈ range (n + 1), ((-1 : ℝ) ^ ρ * (n.choose ρ : ℝ) * (n.choose ρ : ℝ)) *
        ((Real.sin (θ / 2) ^ 2) ^ ρ * (Real.cos (θ / 2) ^ 2) ^ (n - ρ) * Real.sin θ) : ℝ) : ℂ) := by
    intro θ
    unfold Dpq
    rw [div_self (by positivity), Real.sqrt_one, Complex.ofReal_one, one_mul, sum_mul]
    generalize Real.cos (θ / 2) = c
    generalize Real.sin (θ / 2) = t
    generalize Real.sin θ = w
    push_cast
    apply sum_congr rfl
    intro ρ hρ
    rw [mem_range] at hρ
    rw [show n - (n - ρ) = ρ by omega, Nat.choose_symm (by omega : ρ ≤ n)]
    simp only [Complex.conj_ofReal]
    ring
  simp only [e]
  rw [intervalIntegral.integral_ofReal, intervalIntegral.integral_finsetSum]
  · have : ∀ ρ ∈ range (n + 1), (∫ θ in (0 : ℝ)..Real.pi, ((-1 : ℝ) ^ ρ * (n.choose ρ : ℝ) * (n.choose ρ : ℝ)) *
        ((Real.sin (θ / 2) ^ 2) ^ ρ * (Real.cos (θ / 2) ^ 2) ^ (n - ρ) * Real.sin θ)) = 2 / (n + 1) * ((-1 : ℝ) ^ ρ * (n.choose ρ : ℝ)) := by
      intro ρ hρ
      rw [mem_range] at hρ
      rw [intervalIntegral.integral_const_mul]
      have := Jint_choose (n - ρ) ρ
      rw [show ρ + (n - ρ) = n by omega, Nat.cast_sub (by omega), show (ρ : ℝ) + (n - ρ) + 1 = n + 1 by ring] at this
      change _ * Jint ρ (n - ρ) = _
      linear_combination ((-1 : ℝ) ^ ρ * (n.choose ρ : ℝ)) * this
    rw [sum_congr rfl this, ← mul_sum]
    have h2 : ∑ ρ ∈ range (n + 1), (-1 : ℝ) ^ ρ * (n.choose ρ : ℝ) = if n = 0 then 1 else 0 := by
      have := Int.alternating_sum_range_choose (n := n)
      exact_mod_cast this
    rw [h2]
    split_ifs with h
    · subst h; norm_num
    · simp
  · intro ρ _
    exact Continuous.intervalIntegrable (by fun_prop) _ _

/-! ## The φ integral -/

theorem phi_integral (M : ℤ) : ∫ φ in (0 : ℝ)..(2 * Real.pi), Complex.exp (Complex.I * M * φ) = if M = 0 then 2 * (Real.pi : ℂ) else 0 := by
  split_ifs with h
  · subst h; simp
  · have hc : Complex.I * (M : ℂ) ≠ 0 := mul_ne_zero Complex.I_ne_zero (by exact_mod_cast h)
    rw [integral_exp_mul_complex hc]
    have : Complex.exp (Complex.I * M * ((2 * Real.pi : ℝ) : ℂ)) = 1 := by
      rw [Complex.exp_eq_one_iff]
      exact ⟨M, by push_cast; ring⟩
    rw [this]; simp

/-- A function with a definite `φ` dependence. -/
theorem sphInt_phase (M : ℤ) (u : ℝ → ℂ) : sphInt (fun θ φ => Complex.exp (Complex.I * M * φ) * u θ)
    = if M = 0 then 2 * (Real.pi : ℂ) * ∫ θ in (0 : ℝ)..Real.pi, u θ * (Real.sin θ : ℂ) else 0 := by
  unfold sphInt
  simp only [mul_assoc (Complex.exp _), intervalIntegral.integral_const_mul]
  rw [intervalIntegral.integral_mul_const, phi_integral]
  split_ifs <;> simp

/-! ## The harmonics as functions of the angles -/

theorem sYlm_dir (θ φ : ℝ) (s l m : ℤ) : sYlm (dirA θ φ) (dirB θ φ) s l m
    = Complex.exp (Complex.I * m * φ) * sYlm (Real.cos (θ / 2)) (Real.sin (θ / 2)) s l m := by
  unfold sYlm
  split_ifs with h
  · obtain ⟨p', q', p, q, hsum, ha, hb, hc⟩ := valid_pq (validD_sm h)
    rw [wignerD_pq _ _ hsum ha hb hc, wignerD_pq _ _ hsum ha hb hc]
    have := euler_form φ θ 0 hsum
    have e1 : dirA θ φ = Real.cos (θ / 2) * Complex.exp (Complex.I * (((φ : ℂ) + ((0 : ℝ) : ℂ)) / 2)) := by unfold dirA; simp
    have e2 : dirB θ φ = Real.sin (θ / 2) * Complex.exp (Complex.I * ((((0 : ℝ) : ℂ) - (φ : ℂ)) / 2)) := by
      unfold dirB; congr 2; push_cast; ring
    rw [e1, e2, this]
    have k1 : ((p' : ℂ) - q') / 2 = m := by
      have : ((2 * m : ℤ) : ℂ) = ((p' - q' : ℤ) : ℂ) := by rw [hb]
      push_cast at this; linear_combination -this / 2
    rw [k1]
    simp
    ring
  · simp

/-- Linearity for finite sums of functions with definite `φ` dependence. -/
theorem sphInt_sum {ι : Type*} (S : Finset ι) (M : ι → ℤ) (u : ι → ℝ → ℂ)
    (hu : ∀ i ∈ S, IntervalIntegrable (fun θ => u i θ * (Real.sin θ : ℂ)) MeasureTheory.volume 0 Real.pi) :
    sphInt (fun θ φ => ∑ i ∈ S, Complex.exp (Complex.I * M i * φ) * u i θ)
      = ∑ i ∈ S, sphInt fun θ φ => Complex.exp (Complex.I * M i * φ) * u i θ := by
  unfold sphInt
  simp only [sum_mul, mul_assoc (Complex.exp _)]
  have e : ∀ φ : ℝ, ∫ θ in (0 : ℝ)..Real.pi, ∑ i ∈ S, Complex.exp (Complex.I * M i * φ) * (u i θ * (Real.sin θ : ℂ))
      = ∑ i ∈ S, Complex.exp (Complex.I * M i * φ) * ∫ θ in (0 : ℝ)..Real.pi, u i θ * (Real.sin θ : ℂ) := by
    intro φ
    rw [intervalIntegral.integral_finsetSum fun i hi => (hu i hi).const_mul _]
    simp only [intervalIntegral.integral_const_mul]
  simp only [e, intervalIntegral.integral_const_mul]
  rw [intervalIntegral.integral_finsetSum]
  intro i _
  exact Continuous.intervalIntegrable (by fun_prop) _ _

theorem sYlm_theta_cont (s l m : ℤ) : Continuous fun θ : ℝ => sYlm (Real.cos (θ / 2)) (Real.sin (θ / 2)) s l m := by
  unfold sYlm
  split_ifs
  · unfold wignerD Dpq
    simp only [Complex.conj_ofReal]
    fun_prop
  · exact continuous_const

/-- The integral of an ordinary spherical harmonic. -/
theorem sY0_integral (l m : ℤ) : sphInt (fun θ φ => sYlm (dirA θ φ) (dirB θ φ) 0 l m)
    = if l = 0 ∧ m = 0 then (Real.sqrt (4 * Real.pi) : ℂ) else 0 := by
  simp only [sYlm_dir]
  rw [sphInt_phase]
  by_cases hm : m = 0
  · subst hm
    simp only [if_true, and_true]
    by_cases hl : 0 ≤ l
    · obtain ⟨n, rfl⟩ := Int.eq_ofNat_of_zero_le hl
      have e : ∀ θ : ℝ, sYlm (Real.cos (θ / 2)) (Real.sin (θ / 2)) 0 (n : ℤ) 0 * (Real.sin θ : ℂ)
          = (Real.sqrt ((2 * (n : ℝ) + 1) / (4 * Real.pi)) : ℂ) * (Dpq (Real.cos (θ / 2)) (Real.sin (θ / 2)) n n n n * (Real.sin θ : ℂ)) := by
        intro θ
        unfold sYlm
        rw [if_pos ⟨by simp, by simp⟩, wignerD_pq (p' := n) (q' := n) (p := n) (q := n) _ _ rfl (by ring) (by ring) (by ring)]
        push_cast
        simp
        ring
      simp only [e, intervalIntegral.integral_const_mul]
      rw [legendre_integral]
      by_cases h0 : n = 0
      · subst h0
        simp only [if_true, Nat.cast_zero, mul_zero, zero_add]
        have hp := Real.pi_pos
        have h1 : Real.sqrt (1 / (4 * Real.pi)) * (4 * Real.pi) = Real.sqrt (4 * Real.pi) := by
          rw [Real.sqrt_div (by norm_num), Real.sqrt_one]
          have h2 := Real.mul_self_sqrt (show (0 : ℝ) ≤ 4 * Real.pi by positivity)
          have h3 : Real.sqrt (4 * Real.pi) ≠ 0 := by positivity
          field_simp
          linarith
        have h2 := congrArg (fun x : ℝ => (x : ℂ)) h1
        push_cast at h2
        push_cast
        linear_combination h2
      · rw [if_neg h0, if_neg (by exact_mod_cast h0)]; simp
    · rw [if_neg (by omega)]
      have e : ∀ θ : ℝ, sYlm (Real.cos (θ / 2)) (Real.sin (θ / 2)) 0 l 0 = 0 := fun θ => sYlm_low (by simp; omega)
      simp only [e, zero_mul, intervalIntegral.integral_zero, mul_zero]
  · rw [if_neg hm, if_neg (by tauto)]

theorem threeJ_zero {l m : ℤ} (h : |m| ≤ l) : threeJ 0 l l 0 (-m) m = (-1 : ℝ) ^ (l + m) / Real.sqrt (2 * l + 1) := by
  have hl : 0 ≤ l := (abs_nonneg _).trans h
  have h' := abs_le.mp h
  obtain ⟨a, ha⟩ := Int.eq_ofNat_of_zero_le (show 0 ≤ l + m by omega)
  obtain ⟨b, hb⟩ := Int.eq_ofNat_of_zero_le (show 0 ≤ l - m by omega)
  obtain ⟨n, rfl⟩ := Int.eq_ofNat_of_zero_le hl
  unfold threeJ
  rw [if_pos ⟨by ring, by simp, by rwa [abs_neg], h, by simp, by omega⟩]
  have e1 : fact ((n : ℤ) + -m) = (b.factorial : ℝ) := by unfold fact; rw [show (n : ℤ) + -m = b by omega]; simp
  have e2 : fact ((n : ℤ) - -m) = (a.factorial : ℝ) := by unfold fact; rw [show (n : ℤ) - -m = a by omega]; simp
  have e3 : fact ((n : ℤ) + m) = (a.factorial : ℝ) := by unfold fact; rw [ha]; simp
  have e4 : fact ((n : ℤ) - m) = (b.factorial : ℝ) := by unfold fact; rw [hb]; simp
  have e5 : invFact ((n : ℤ) + -m) = (b.factorial : ℝ)⁻¹ := by
    unfold invFact; rw [show (n : ℤ) + -m = b by omega, if_pos (by omega)]; simp
  have e6 : invFact ((n : ℤ) - 0 - -m) = (a.factorial : ℝ)⁻¹ := by
    unfold invFact; rw [show (n : ℤ) - 0 - -m = a by omega, if_pos (by omega)]; simp
  have e7 : fact (-0 + (n : ℤ) + n) = ((2 * n).factorial : ℝ) := by
    unfold fact; rw [show -0 + (n : ℤ) + n = ((2 * n : ℕ) : ℤ) by push_cast; ring, Int.toNat_natCast]
  have e8 : fact (0 + (n : ℤ) + n + 1) = ((2 * n + 1).factorial : ℝ) := by
    unfold fact; rw [show 0 + (n : ℤ) + n + 1 = ((2 * n + 1 : ℕ) : ℤ) by push_cast; ring, Int.toNat_natCast]
  have f0 : fact 0 = 1 := by simp [fact]
  have i0 : invFact 0 = 1 := by simp [invFact]
  rw [show (0 : ℤ) + n - n = 0 by ring, show (0 : ℤ) - n + n = 0 by ring, show (0 : ℤ) + 0 = 0 by ring, show (0 : ℤ) - 0 = 0 by ring]
  rw [e1, e2, e3, e4, e7, e8]
  simp only [Int.toNat_zero, zero_add, sum_range_one, pow_zero, one_mul, Nat.cast_zero, sub_zero, add_zero, sub_self, f0, i0]
  rw [show (n : ℤ) - -m = (n : ℤ) - 0 - -m by ring, e5, e6]
  rw [show (0 : ℤ) - n - m = -(n + m) by ring, zpow_neg, ← inv_zpow, inv_neg, inv_one]
  rw [show (b.factorial : ℝ) * a.factorial * a.factorial * b.factorial = ((a.factorial : ℝ) * b.factorial) ^ 2 by ring,
    Real.sqrt_sq (by positivity), Nat.factorial_succ]
  have hf : ((2 * n).factorial : ℝ) ≠ 0 := by positivity
  have : (((2 * n).factorial : ℝ)) / (((2 * n + 1) * (2 * n).factorial : ℕ) : ℝ) = 1 / (2 * n + 1) := by
    push_cast; field_simp
  rw [this, Real.sqrt_div (by norm_num), Real.sqrt_one]
  have ha' : (a.factorial : ℝ) ≠ 0 := by positivity
  have hb' : (b.factorial : ℝ) ≠ 0 := by positivity
  push_cast
  field_simp

/-- The spin-weighted spherical harmonics of one spin weight are orthonormal on the sphere. -/
theorem sYlm_orthonormal {s l m l' m' : ℤ} (hs : |s| ≤ l) (hm : |m| ≤ l) (hs' : |s| ≤ l') (hm' : |m'| ≤ l') :
    sphInt (fun θ φ => conj (sYlm (dirA θ φ) (dirB θ φ) s l m) * sYlm (dirA θ φ) (dirB θ φ) s l' m')
      = if l = l' ∧ m = m' then 1 else 0 := by
  have e : ∀ θ φ : ℝ, conj (sYlm (dirA θ φ) (dirB θ φ) s l m) * sYlm (dirA θ φ) (dirB θ φ) s l' m'
      = ∑ k ∈ Icc (max |-m + m'| |l - l'|) (l + l'), Complex.exp (Complex.I * ((-m + m' : ℤ) : ℂ) * φ) *
        (((-1 : ℂ) ^ (s + m) * (mulCoef (-s) s l (-m) l' m' k : ℂ)) * sYlm (Real.cos (θ / 2)) (Real.sin (θ / 2)) 0 k (-m + m')) := by
    intro θ φ
    rw [sYlm_conj, mul_assoc, sYlm_mul (dir_unit θ φ) (by rwa [abs_neg]) (by rwa [abs_neg]) hs' hm', mul_sum]
    apply sum_congr rfl
    intro k _
    rw [neg_add_cancel, sYlm_dir]
    ring
  simp only [e]
  rw [sphInt_sum _ (fun _ => -m + m') (fun k θ => ((-1 : ℂ) ^ (s + m) * (mulCoef (-s) s l (-m) l' m' k : ℂ)) *
    sYlm (Real.cos (θ / 2)) (Real.sin (θ / 2)) 0 k (-m + m'))
    (fun k _ => Continuous.intervalIntegrable (((continuous_const.mul (sYlm_theta_cont _ _ _)).mul (by fun_prop))) _ _)]
  have t : ∀ k : ℤ, sphInt (fun θ φ => Complex.exp (Complex.I * ((-m + m' : ℤ) : ℂ) * φ) *
        (((-1 : ℂ) ^ (s + m) * (mulCoef (-s) s l (-m) l' m' k : ℂ)) * sYlm (Real.cos (θ / 2)) (Real.sin (θ / 2)) 0 k (-m + m')))
      = ((-1 : ℂ) ^ (s + m) * (mulCoef (-s) s l (-m) l' m' k : ℂ)) * if k = 0 ∧ -m + m' = 0 then (Real.sqrt (4 * Real.pi) : ℂ) else 0 := by
    intro k
    rw [← sY0_integral]
    simp only [sYlm_dir]
    unfold sphInt
    simp only [← intervalIntegral.integral_const_mul]
    congr 1; funext φ; congr 1; funext θ; ring
  rw [sum_congr rfl fun k _ => t k]
  by_cases h : l = l' ∧ m = m'
  · obtain ⟨rfl, rfl⟩ := h
    have hl : 0 ≤ l := (abs_nonneg _).trans hs
    rw [sum_eq_single 0]
    · rw [if_pos ⟨rfl, by ring⟩, if_pos ⟨rfl, rfl⟩]
      unfold mulCoef
      rw [show -(-s + s) = 0 by ring, show -(-m + m) = 0 by ring, threeJ_zero hs, threeJ_zero hm]
      have hp := Real.pi_pos
      have hl' : (0 : ℝ) ≤ l := by exact_mod_cast hl
      have r1 : Real.sqrt ((2 * (l : ℝ) + 1) / (4 * Real.pi)) * Real.sqrt (4 * Real.pi) = Real.sqrt (2 * l + 1) := by
        rw [← Real.sqrt_mul (by positivity), div_mul_cancel₀ _ (by positivity)]
      have r2 : Real.sqrt (2 * (l : ℝ) + 1) ≠ 0 := by positivity
      have sgn : (-1 : ℝ) ^ (s + m) * ((-1 : ℝ) ^ (l + l + 0 + (-s + s) + (-m + m)) * ((-1 : ℝ) ^ (l + s) * (-1 : ℝ) ^ (l + m))) = 1 := by
        have h1 : (-1 : ℝ) ≠ 0 := by norm_num
        rw [← zpow_add₀ h1, ← zpow_add₀ h1, ← zpow_add₀ h1]
        exact Even.neg_one_zpow ⟨l + l + s + m, by ring⟩
      have main : (-1 : ℝ) ^ (s + m) * ((-1 : ℝ) ^ (l + l + 0 + (-s + s) + (-m + m)) * Real.sqrt (2 * ((0 : ℤ) : ℝ) + 1)
          * ((-1 : ℝ) ^ (l + s) / Real.sqrt (2 * l + 1)) * ((-1 : ℝ) ^ (l + m) / Real.sqrt (2 * l + 1))
          * Real.sqrt ((2 * (l : ℝ) + 1) / (4 * Real.pi)) * Real.sqrt (2 * (l : ℝ) + 1)) * Real.sqrt (4 * Real.pi) = 1 := by
        rw [show 2 * ((0 : ℤ) : ℝ) + 1 = 1 by push_cast; ring, Real.sqrt_one]
        calc _ = ((-1 : ℝ) ^ (s + m) * ((-1 : ℝ) ^ (l + l + 0 + (-s + s) + (-m + m)) * ((-1 : ℝ) ^ (l + s) * (-1 : ℝ) ^ (l + m))))
              * (Real.sqrt ((2 * (l : ℝ) + 1) / (4 * Real.pi)) * Real.sqrt (4 * Real.pi)) / Real.sqrt (2 * l + 1)
              * (Real.sqrt (2 * l + 1) / Real.sqrt (2 * l + 1)) := by ring
          _ = 1 := by rw [sgn, r1, div_self r2]; field_simp
      have := congrArg (fun x : ℝ => (x : ℂ)) main
      push_cast at this
      push_cast
      exact this
    · intro k _ hk
      rw [if_neg (by tauto), mul_zero]
    · intro hn
      exact absurd (mem_Icc.mpr ⟨by simp, by omega⟩) hn
  · rw [if_neg h]
    apply sum_eq_zero
    intro k hk
    rw [mem_Icc] at hk
    rw [if_neg, mul_zero]
    rintro ⟨rfl, h2⟩
    have : |l - l'| ≤ 0 := (le_max_right _ _).trans hk.1
    have := abs_nonpos_iff.mp this
    exact h ⟨by omega, by omega⟩

/-! ## Uniqueness -/

theorem ofReal_analytic {u : ℝ → ℝ} {x : ℝ} (hu : AnalyticAt ℝ u x) : AnalyticAt ℝ (fun t => (u t : ℂ)) x :=
  (Complex.ofRealCLM.analyticAt (u x)).comp hu

theorem sYlm_theta_analytic (s l m : ℤ) (x : ℝ) : AnalyticAt ℝ (fun θ : ℝ => sYlm (Real.cos (θ / 2)) (Real.sin (θ / 2)) s l m) x := by
  have hd : AnalyticAt ℝ (fun t : ℝ => t / 2) x := analyticAt_id.div analyticAt_const (by norm_num)
  have hc : AnalyticAt ℝ (fun t : ℝ => ((Real.cos (t / 2) : ℝ) : ℂ)) x := ofReal_analytic (Real.analyticAt_cos.comp hd)
  have hs : AnalyticAt ℝ (fun t : ℝ => ((Real.sin (t / 2) : ℝ) : ℂ)) x := ofReal_analytic (Real.analyticAt_sin.comp hd)
  unfold sYlm
  split_ifs
  · unfold wignerD Dpq
    simp only [Complex.conj_ofReal]
    refine analyticAt_const.mul (analyticAt_const.mul ?_)
    refine Finset.analyticAt_fun_sum _ fun k _ => ?_
    exact (((analyticAt_const.mul (hc.pow _)).mul (hc.pow _)).mul (hs.pow _)).mul (hs.pow _)
  · exact analyticAt_const

/-- A combination of harmonics that vanishes on a band `a < θ < b` has only zero coefficients. -/
theorem sYlm_unique {s : ℤ} (S : Finset ((_ : ℤ) × ℤ)) (hS : ∀ p ∈ S, |s| ≤ p.1 ∧ |p.2| ≤ p.1) (c : ((_ : ℤ) × ℤ) → ℂ) {a b : ℝ} (hab : a < b)
    (h0 : ∀ θ φ : ℝ, a < θ → θ < b → ∑ p ∈ S, c p * sYlm (dirA θ φ) (dirB θ φ) s p.1 p.2 = 0) : ∀ p ∈ S, c p = 0 := by
  have all : ∀ θ φ : ℝ, ∑ p ∈ S, c p * sYlm (dirA θ φ) (dirB θ φ) s p.1 p.2 = 0 := by
    intro θ φ
    have an : AnalyticOnNhd ℝ (fun θ : ℝ => ∑ p ∈ S, c p * sYlm (dirA θ φ) (dirB θ φ) s p.1 p.2) Set.univ := by
      intro x _
      refine Finset.analyticAt_fun_sum _ fun p _ => ?_
      simp only [sYlm_dir]
      exact analyticAt_const.mul (analyticAt_const.mul (sYlm_theta_analytic _ _ _ _))
    have := an.eqOn_zero_of_preconnected_of_eventuallyEq_zero isPreconnected_univ (Set.mem_univ ((a + b) / 2)) (by
      filter_upwards [Ioo_mem_nhds (show a < (a + b) / 2 by linarith) (show (a + b) / 2 < b by linarith)] with t ht
      exact h0 t φ ht.1 ht.2)
    exact this (Set.mem_univ θ)
  intro q hq
  have e : sphInt (fun θ φ => ∑ p ∈ S, Complex.exp (Complex.I * ((-q.2 + p.2 : ℤ) : ℂ) * φ) * (c p *
      (conj (sYlm (Real.cos (θ / 2)) (Real.sin (θ / 2)) s q.1 q.2) * sYlm (Real.cos (θ / 2)) (Real.sin (θ / 2)) s p.1 p.2))) = 0 := by
    have z : ∀ θ φ : ℝ, ∑ p ∈ S, Complex.exp (Complex.I * ((-q.2 + p.2 : ℤ) : ℂ) * φ) * (c p *
        (conj (sYlm (Real.cos (θ / 2)) (Real.sin (θ / 2)) s q.1 q.2) * sYlm (Real.cos (θ / 2)) (Real.sin (θ / 2)) s p.1 p.2)) = 0 := by
      intro θ φ
      have := congrArg (fun z => Complex.exp (-(Complex.I * q.2 * φ)) * conj (sYlm (Real.cos (θ / 2)) (Real.sin (θ / 2)) s q.1 q.2) * z) (all θ φ)
      simp only [mul_zero, mul_sum] at this
      rw [← this]
      refine sum_congr rfl fun p _ => ?_
      have e2 : Complex.exp (Complex.I * ((-q.2 + p.2 : ℤ) : ℂ) * φ) = Complex.exp (-(Complex.I * q.2 * φ)) * Complex.exp (Complex.I * p.2 * φ) := by
        rw [← Complex.exp_add]; congr 1; push_cast; ring
      rw [e2, sYlm_dir]; ring
    simp only [z]
    unfold sphInt
    simp
  rw [sphInt_sum S (fun p => -q.2 + p.2) (fun p θ => c p *
      (conj (sYlm (Real.cos (θ / 2)) (Real.sin (θ / 2)) s q.1 q.2) * sYlm (Real.cos (θ / 2)) (Real.sin (θ / 2)) s p.1 p.2))
    (fun p _ => Continuous.intervalIntegrable ((continuous_const.mul ((Complex.continuous_conj.comp (sYlm_theta_cont _ _ _)).mul
      (sYlm_theta_cont _ _ _))).mul (by fun_prop)) _ _)] at e
  have t : ∀ p ∈ S, sphInt (fun θ φ => Complex.exp (Complex.I * ((-q.2 + p.2 : ℤ) : ℂ) * φ) * (c p *
      (conj (sYlm (Real.cos (θ / 2)) (Real.sin (θ / 2)) s q.1 q.2) * sYlm (Real.cos (θ / 2)) (Real.sin (θ / 2)) s p.1 p.2)))
      = c p * if q.1 = p.1 ∧ q.2 = p.2 then 1 else 0 := by
    intro p hp
    rw [← sYlm_orthonormal (hS q hq).1 (hS q hq).2 (hS p hp).1 (hS p hp).2]
    unfold sphInt
    simp only [← intervalIntegral.integral_const_mul]
    congr 1; funext φ; congr 1; funext θ
    rw [sYlm_dir, sYlm_dir θ φ s p.1, map_mul, ← Complex.exp_conj]
    have e1 : conj (Complex.I * (q.2 : ℂ) * (φ : ℂ)) = -(Complex.I * q.2 * φ) := by
      rw [map_mul, map_mul, Complex.conj_I, Complex.conj_ofReal, map_intCast]; ring
    have e2 : Complex.exp (Complex.I * ((-q.2 + p.2 : ℤ) : ℂ) * φ) = Complex.exp (-(Complex.I * q.2 * φ)) * Complex.exp (Complex.I * p.2 * φ) := by
      rw [← Complex.exp_add]; congr 1; push_cast; ring
    rw [e1, e2]; ring
  rw [sum_congr rfl t, sum_eq_single q] at e
  · simpa using e
  · intro p _ hpq
    rw [if_neg, mul_zero]
    rintro ⟨h1, h2⟩
    apply hpq
    obtain ⟨q1, q2⟩ := q
    obtain ⟨p1, p2⟩ := p
    simp only at h1 h2
    rw [h1, h2]
  · intro hn; exact absurd hq hn

end SF
