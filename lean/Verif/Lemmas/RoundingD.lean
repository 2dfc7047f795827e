import Verif.Lemmas.Rounding
import Mathlib.Analysis.SpecialFunctions.Trigonometric.Bounds

/-! # Rounding errors of the D kernel: the common part of the two regimes -/

set_option autoImplicit false

namespace SF

open Finset ComplexConjugate

/-- The absolute values of the terms of the closed form add up to at most `(|a|+|b|)^(2 ell)`. -/
theorem abs_terms_le {x y : ℝ} (hx : 0 ≤ x) (hy : 0 ≤ y) {p' q' p q : ℕ} (hsum : p' + q' = p + q) :
    Real.sqrt ((p.factorial * q.factorial : ℝ) / (p'.factorial * q'.factorial)) *
      ∑ ρ ∈ Ico (q - q') (min p' q + 1), (p'.choose ρ : ℝ) * (q'.choose (q - ρ)) * x ^ (p' - ρ + (q - ρ)) * y ^ (q' - (q - ρ) + ρ)
      ≤ (x + y) ^ (p' + q') := by
  set S := Ico (q - q') (min p' q + 1) with hS
  let f : ℕ → ℝ := fun ρ => (p'.choose ρ : ℝ) * (q'.choose (q - ρ)) * x ^ (p' - ρ + (q - ρ)) * y ^ (q' - (q - ρ) + ρ)
  let g : ℕ → ℝ := fun ρ => (p.choose (q' - (q - ρ)) : ℝ) * (q.choose ρ) * x ^ (p' - ρ + (q - ρ)) * y ^ (q' - (q - ρ) + ρ)
  have f0 : ∀ ρ, 0 ≤ f ρ := fun ρ => by positivity
  have g0 : ∀ ρ, 0 ≤ g ρ := fun ρ => by positivity
  set c : ℝ := (p.factorial * q.factorial : ℝ) / (p'.factorial * q'.factorial) with hc
  have c0 : 0 ≤ c := by positivity
  -- `c f = g`
  have hfg : ∀ ρ ∈ S, c * f ρ = g ρ := by
    intro ρ hρ
    rw [hS, mem_Ico] at hρ
    obtain ⟨i, rfl⟩ : ∃ i, p' = ρ + i := ⟨p' - ρ, by omega⟩
    obtain ⟨σ, rfl⟩ : ∃ σ, q = ρ + σ := ⟨q - ρ, by omega⟩
    obtain ⟨k, rfl⟩ : ∃ k, q' = σ + k := ⟨q' - σ, by omega⟩
    obtain rfl : p = i + k := by omega
    have e1 : ρ + σ - ρ = σ := by omega
    have e2 : σ + k - σ = k := by omega
    have e3 : ρ + i - ρ = i := by omega
    simp only [f, g, e1, e2, e3]
    have k1 : ((ρ + i).choose ρ : ℝ) * ρ.factorial * i.factorial = (ρ + i).factorial := by
      have := Nat.choose_mul_factorial_mul_factorial (show ρ ≤ ρ + i by omega)
      rw [e3] at this; exact_mod_cast this
    have k2 : ((σ + k).choose σ : ℝ) * σ.factorial * k.factorial = (σ + k).factorial := by
      have := Nat.choose_mul_factorial_mul_factorial (show σ ≤ σ + k by omega)
      rw [e2] at this; exact_mod_cast this
    have k3 : ((i + k).choose k : ℝ) * k.factorial * i.factorial = (i + k).factorial := by
      have := Nat.choose_mul_factorial_mul_factorial (show k ≤ i + k by omega)
      rw [show i + k - k = i by omega] at this; exact_mod_cast this
    have k4 : ((ρ + σ).choose ρ : ℝ) * ρ.factorial * σ.factorial = (ρ + σ).factorial := by
      have := Nat.choose_mul_factorial_mul_factorial (show ρ ≤ ρ + σ by omega)
      rw [e1] at this; exact_mod_cast this
    have n1 : ((ρ + i).factorial : ℝ) ≠ 0 := by positivity
    have n2 : ((σ + k).factorial : ℝ) ≠ 0 := by positivity
    rw [hc, div_mul_eq_mul_div, div_eq_iff (by positivity), ← k1, ← k2, ← k3, ← k4]
    ring
  -- binomial bounds
  have bino : ∀ (a b : ℕ) (h : ℕ → ℕ) (h' : ℕ → ℕ), (∀ ρ ∈ S, h ρ ≤ a ∧ h' ρ ≤ b) →
      Set.InjOn h S → ∑ ρ ∈ S, ((a.choose (h ρ) : ℝ) * x ^ (a - h ρ) * y ^ h ρ) * ((b.choose (h' ρ) : ℝ) * x ^ (h' ρ) * y ^ (b - h' ρ))
        ≤ (x + y) ^ (a + b) := by
    intro a b h h' hle hinj
    have e1 : (x + y) ^ a = ∑ j ∈ range (a + 1), (a.choose j : ℝ) * x ^ (a - j) * y ^ j := by
      rw [add_comm x y, add_pow]
      exact Finset.sum_congr rfl fun j _ => by ring
    have e2 : (x + y) ^ b = ∑ j ∈ range (b + 1), (b.choose j : ℝ) * x ^ j * y ^ (b - j) := by
      rw [add_pow]
      exact Finset.sum_congr rfl fun j _ => by ring
    have single : ∀ ρ ∈ S, (b.choose (h' ρ) : ℝ) * x ^ (h' ρ) * y ^ (b - h' ρ) ≤ (x + y) ^ b := by
      intro ρ hρ
      rw [e2]
      exact Finset.single_le_sum (f := fun j => (b.choose j : ℝ) * x ^ j * y ^ (b - j)) (fun j _ => by positivity)
        (mem_range.mpr (by have := hle ρ hρ; omega))
    calc _ ≤ ∑ ρ ∈ S, ((a.choose (h ρ) : ℝ) * x ^ (a - h ρ) * y ^ h ρ) * (x + y) ^ b :=
          Finset.sum_le_sum fun ρ hρ => mul_le_mul_of_nonneg_left (single ρ hρ) (by positivity)
      _ = (∑ j ∈ S.image h, (a.choose j : ℝ) * x ^ (a - j) * y ^ j) * (x + y) ^ b := by
          rw [← Finset.sum_mul, Finset.sum_image hinj]
      _ ≤ (x + y) ^ a * (x + y) ^ b := by
          apply mul_le_mul_of_nonneg_right _ (by positivity)
          rw [e1]
          apply Finset.sum_le_sum_of_subset_of_nonneg
          · intro j hj
            rw [mem_image] at hj
            obtain ⟨ρ, h1, rfl⟩ := hj
            have := hle ρ h1
            rw [mem_range]; omega
          · intro j _ _; positivity
      _ = (x + y) ^ (a + b) := by rw [pow_add]
  have sf : ∑ ρ ∈ S, f ρ ≤ (x + y) ^ (p' + q') := by
    refine le_trans (le_of_eq ?_) (bino p' q' (fun ρ => ρ) (fun ρ => q - ρ) ?_ (fun _ _ _ _ h => h))
    · apply Finset.sum_congr rfl
      intro ρ hρ
      rw [hS, mem_Ico] at hρ
      simp only [f]
      rw [pow_add, pow_add]
      ring
    · intro ρ hρ
      rw [hS, mem_Ico] at hρ
      constructor <;> omega
  have sg : ∑ ρ ∈ S, g ρ ≤ (x + y) ^ (p' + q') := by
    rw [hsum]
    refine le_trans (le_of_eq ?_) (bino p q (fun ρ => q' - (q - ρ)) (fun ρ => q - ρ) ?_ ?_)
    · apply Finset.sum_congr rfl
      intro ρ hρ
      rw [hS, mem_Ico] at hρ
      simp only [g]
      have e1 : p - (q' - (q - ρ)) = p' - ρ := by omega
      have e2 : q - (q - ρ) = ρ := by omega
      rw [e1, e2, pow_add, pow_add, Nat.choose_symm (show ρ ≤ q by omega)]
      ring
    · intro ρ hρ
      rw [hS, mem_Ico] at hρ
      constructor <;> omega
    · intro ρ h1 ρ' h2 h
      rw [hS, Finset.coe_Ico, Set.mem_Ico] at h1 h2
      dsimp only at h
      omega
  have key : Real.sqrt c * ∑ ρ ∈ S, f ρ = ∑ ρ ∈ S, Real.sqrt (f ρ) * Real.sqrt (g ρ) := by
    rw [Finset.mul_sum]
    apply Finset.sum_congr rfl
    intro ρ hρ
    rw [← hfg ρ hρ, ← Real.sqrt_mul (f0 ρ)]
    have : f ρ * (c * f ρ) = c * (f ρ * f ρ) := by ring
    rw [this, Real.sqrt_mul c0, Real.sqrt_mul_self (f0 ρ)]
  show Real.sqrt c * ∑ ρ ∈ S, f ρ ≤ _
  rw [key]
  refine (Real.sum_sqrt_mul_sqrt_le S f0 g0).trans ?_
  have t0 : 0 ≤ (x + y) ^ (p' + q') := by positivity
  calc _ ≤ Real.sqrt ((x + y) ^ (p' + q')) * Real.sqrt ((x + y) ^ (p' + q')) :=
        mul_le_mul (Real.sqrt_le_sqrt sf) (Real.sqrt_le_sqrt sg) (Real.sqrt_nonneg _) (Real.sqrt_nonneg _)
    _ = _ := Real.mul_self_sqrt t0

/-- The ratio of successive terms in regime `ra >= rb`. -/
noncomputable def Dratio (x : ℝ) (N1 N2 M : ℤ) (ρ : ℕ) : ℝ := x * (((N1 - ρ) * (N2 - ρ) : ℤ) : ℝ) / (((ρ : ℤ) * (M + ρ) : ℤ) : ℝ)

/-- The prefactor times the absolute values of the terms of the Horner sum. -/
theorem prefactor_sum_le {za zb : ℂ} (ha : za ≠ 0) {p' q' p q : ℕ} (hsum : p' + q' = p + q) :
    Wcoef p' q' p q * ‖za‖ ^ (p' + q - 2 * (p' - p)) * ‖zb‖ ^ (q' - q + 2 * (p' - p) - (q - q')) *
      ∑ ρ ∈ Ico (p' - p) (min p' q + 1),
        |∏ i ∈ Ioc (p' - p) ρ, Dratio (-‖zb‖ * ‖zb‖ / (‖za‖ * ‖za‖)) ((p' : ℤ) + 1) ((q : ℤ) + 1) ((q' : ℤ) - q) i|
      ≤ (‖za‖ + ‖zb‖) ^ (p' + q') := by
  refine le_trans (le_of_eq ?_) (abs_terms_le (norm_nonneg za) (norm_nonneg zb) hsum)
  have hr : p' - p = q - q' := by omega
  rw [hr]
  set s := Real.sqrt ((p.factorial * q.factorial : ℝ) / (p'.factorial * q'.factorial)) with hs
  let T : ℕ → ℝ := fun ρ => (p'.choose ρ : ℝ) * (q'.choose (q - ρ)) * ‖za‖ ^ (p' - ρ + (q - ρ)) * ‖zb‖ ^ (q' - (q - ρ) + ρ)
  have hT : ∀ ρ, ‖Dterm za zb p' q' q ρ‖ = T ρ := by
    intro ρ
    simp only [Dterm, T, norm_mul, norm_pow, norm_neg, norm_one, one_pow, one_mul, RCLike.norm_natCast, Complex.norm_conj]
    rw [pow_add, pow_add]
    ring
  have hstep : ∀ ρ, q - q' ≤ ρ → ρ < min p' q →
      T (ρ + 1) = T ρ * |Dratio (-‖zb‖ * ‖zb‖ / (‖za‖ * ‖za‖)) ((p' : ℤ) + 1) ((q : ℤ) + 1) ((q' : ℤ) - q) (ρ + 1)| := by
    intro ρ h1 h2
    have := Dterm_succ (zb := zb) ha (p' := p') (q' := q') (q := q) (ρ := ρ) (by omega) (by omega) (by omega)
    rw [← hT, ← hT, this, norm_mul, Complex.norm_real, Real.norm_eq_abs]
    congr 2
    unfold Dratio
    push_cast
    ring
  have hprod : ∀ n, q - q' + n ≤ min p' q → T (q - q' + n)
      = T (q - q') * |∏ i ∈ Ioc (q - q') (q - q' + n), Dratio (-‖zb‖ * ‖zb‖ / (‖za‖ * ‖za‖)) ((p' : ℤ) + 1) ((q : ℤ) + 1) ((q' : ℤ) - q) i| := by
    intro n
    induction n with
    | zero => intro _; simp
    | succ n ih =>
      intro h
      rw [← add_assoc, hstep _ (by omega) (by omega), ih (by omega), Finset.prod_Ioc_succ_top (by omega), abs_mul]
      ring
  have h0 : Wcoef p' q' p q * ‖za‖ ^ (p' + q - 2 * (q - q')) * ‖zb‖ ^ (q' - q + 2 * (q - q') - (q - q')) = s * T (q - q') := by
    simp only [Wcoef, T, hr]
    have e1 : p' - (q - q') + (q - (q - q')) = p' + q - 2 * (q - q') := by omega
    have e2 : q' - (q - (q - q')) + (q - q') = q' - q + 2 * (q - q') - (q - q') := by omega
    rw [e1, e2, ← hs]
    ring
  rw [h0, mul_assoc, Finset.mul_sum]
  congr 1
  apply Finset.sum_congr rfl
  intro ρ hρ
  rw [mem_Ico] at hρ
  have := hprod (ρ - (q - q')) (by omega)
  rw [show q - q' + (ρ - (q - q')) = ρ by omega] at this
  rw [← this]

/-- The exact loop is the sum of the products of ratios. -/
theorem hornerLoop_sum (x : ℝ) (N1 N2 M : ℤ) (a b : ℕ) (hab : a ≤ b)
    (hne : ∀ ρ : ℕ, a < ρ → ρ ≤ b → (ρ : ℤ) * (M + ρ) ≠ 0) :
    hornerLoop x N1 N2 M b a = .ok (∑ ρ ∈ Ico a (b + 1), ∏ i ∈ Ioc a ρ, Dratio x N1 N2 M i) := by
  obtain ⟨S, h1, h2⟩ := horner_core (fun ρ => ((∏ i ∈ Ioc a ρ, Dratio x N1 N2 M i : ℝ) : ℂ)) (Dratio x N1 N2 M) a b hab
    (by
      intro ρ h3 h4
      rw [Finset.prod_Ioc_succ_top h3]
      push_cast; rfl)
    (fun rho Sum => do
      let q ← pyDiv (x * (((N1 - rho) * (N2 - rho) : ℤ) : ℝ)) ((rho * (M + rho) : ℤ) : ℝ)
      return Sum * q + 1)
    (by
      intro ρ h3 h4 S
      have : (((ρ : ℤ) * (M + (ρ : ℤ)) : ℤ) : ℝ) ≠ 0 := by exact_mod_cast hne ρ h3 h4
      rw [pyDiv_ok this, bind_ok]
      rfl)
  rw [hornerLoop_eq_range, h1]
  congr 1
  simp only [Ioc_self, prod_empty, Complex.ofReal_one, one_mul] at h2
  exact_mod_cast h2

/-- Components with relative errors, term by term, and a phase with an absolute error. -/
theorem float_core_gen {d φ' φ e G σ : ℝ} {I : Finset ℕ} {P η ζ : ℕ → ℝ} {V : ℂ} (hσ : |σ| = 1) (G0 : 0 ≤ G)
    (e1 : ∀ ρ, |η ρ - 1| ≤ G) (z1 : ∀ ρ, |ζ ρ - 1| ≤ G)
    (vre : V.re = σ * (d * Real.cos φ' * ∑ ρ ∈ I, P ρ * η ρ)) (vim : V.im = σ * (d * Real.sin φ' * ∑ ρ ∈ I, P ρ * ζ ρ))
    (hφ : |φ' - φ| ≤ e) :
    ‖V - (σ : ℂ) * rect d φ * ((∑ ρ ∈ I, P ρ : ℝ) : ℂ)‖ ≤ (G + e) * (|d| * ∑ ρ ∈ I, |P ρ|) := by
  set B := |d| * ∑ ρ ∈ I, |P ρ| with hB
  have B0 : 0 ≤ B := mul_nonneg (abs_nonneg _) (Finset.sum_nonneg fun _ _ => abs_nonneg _)
  have bound : ∀ (η : ℕ → ℝ), (∀ ρ, |η ρ - 1| ≤ G) → ∀ c : ℝ,
      |σ * (d * c * ∑ ρ ∈ I, P ρ * η ρ) - σ * (d * c * ∑ ρ ∈ I, P ρ)| ≤ |c| * (G * B) := by
    intro η hη c
    have r : σ * (d * c * ∑ ρ ∈ I, P ρ * η ρ) - σ * (d * c * ∑ ρ ∈ I, P ρ) = σ * (c * (d * ∑ ρ ∈ I, P ρ * (η ρ - 1))) := by
      have : ∑ ρ ∈ I, P ρ * (η ρ - 1) = ∑ ρ ∈ I, P ρ * η ρ - ∑ ρ ∈ I, P ρ := by
        rw [← Finset.sum_sub_distrib]; exact Finset.sum_congr rfl fun ρ _ => by ring
      rw [this]; ring
    rw [r, abs_mul, hσ, one_mul, abs_mul, abs_mul]
    apply mul_le_mul_of_nonneg_left _ (abs_nonneg _)
    rw [hB, mul_left_comm]
    apply mul_le_mul_of_nonneg_left _ (abs_nonneg _)
    rw [Finset.mul_sum]
    refine (Finset.abs_sum_le_sum_abs _ _).trans (Finset.sum_le_sum fun ρ _ => ?_)
    rw [abs_mul, mul_comm]
    exact mul_le_mul_of_nonneg_right (hη ρ) (abs_nonneg _)
  set W : ℂ := (σ : ℂ) * ((d : ℂ) * Complex.exp (φ' * Complex.I)) * ((∑ ρ ∈ I, P ρ : ℝ) : ℂ) with hW
  have wre : W.re = σ * (d * Real.cos φ' * ∑ ρ ∈ I, P ρ) := by
    rw [hW, Complex.exp_mul_I, ← Complex.ofReal_cos, ← Complex.ofReal_sin]
    simp only [Complex.mul_re, Complex.mul_im, Complex.add_re, Complex.add_im, Complex.ofReal_re, Complex.ofReal_im, Complex.I_re,
      Complex.I_im]
    ring
  have wim : W.im = σ * (d * Real.sin φ' * ∑ ρ ∈ I, P ρ) := by
    rw [hW, Complex.exp_mul_I, ← Complex.ofReal_cos, ← Complex.ofReal_sin]
    simp only [Complex.mul_re, Complex.mul_im, Complex.add_re, Complex.add_im, Complex.ofReal_re, Complex.ofReal_im, Complex.I_re,
      Complex.I_im]
    ring
  have p1 : ‖V - W‖ ≤ G * B := by
    have GB : 0 ≤ G * B := mul_nonneg G0 B0
    rw [Complex.norm_def, Complex.normSq_apply, Complex.sub_re, Complex.sub_im, vre, vim, wre, wim]
    apply Real.sqrt_le_iff.mpr
    refine ⟨GB, ?_⟩
    have b1 := bound η e1 (Real.cos φ')
    have b2 := bound ζ z1 (Real.sin φ')
    have s1 := sq_le_sq' (by linarith [neg_abs_le (σ * (d * Real.cos φ' * ∑ ρ ∈ I, P ρ * η ρ) - σ * (d * Real.cos φ' * ∑ ρ ∈ I, P ρ))])
      ((le_abs_self _).trans b1)
    have s2 := sq_le_sq' (by linarith [neg_abs_le (σ * (d * Real.sin φ' * ∑ ρ ∈ I, P ρ * ζ ρ) - σ * (d * Real.sin φ' * ∑ ρ ∈ I, P ρ))])
      ((le_abs_self _).trans b2)
    rw [mul_pow, sq_abs] at s1 s2
    have cs := Real.cos_sq_add_sin_sq φ'
    calc _ ≤ Real.cos φ' ^ 2 * (G * B) ^ 2 + Real.sin φ' ^ 2 * (G * B) ^ 2 := by
          rw [← sq, ← sq]; exact add_le_add s1 s2
      _ = (G * B) ^ 2 := by rw [← add_mul, cs, one_mul]
  -- the phase
  have p2 : ‖W - (σ : ℂ) * rect d φ * ((∑ ρ ∈ I, P ρ : ℝ) : ℂ)‖ ≤ e * B := by
    have r : W - (σ : ℂ) * rect d φ * ((∑ ρ ∈ I, P ρ : ℝ) : ℂ)
        = (σ : ℂ) * (d : ℂ) * ((∑ ρ ∈ I, P ρ : ℝ) : ℂ) * (Complex.exp (φ * Complex.I) * (Complex.exp (Complex.I * ((φ' - φ : ℝ) : ℂ)) - 1)) := by
      rw [mul_sub, ← Complex.exp_add]
      have : (φ : ℂ) * Complex.I + Complex.I * ((φ' - φ : ℝ) : ℂ) = φ' * Complex.I := by push_cast; ring
      rw [this, hW]
      simp only [rect]
      ring
    rw [r, norm_mul, norm_mul, norm_mul, norm_mul, Complex.norm_real, Complex.norm_real, Complex.norm_real, Real.norm_eq_abs,
      Real.norm_eq_abs, Real.norm_eq_abs, hσ, one_mul, Complex.norm_exp_ofReal_mul_I, one_mul, mul_comm]
    have t1 : ‖Complex.exp (Complex.I * ((φ' - φ : ℝ) : ℂ)) - 1‖ ≤ e :=
      (Real.norm_exp_I_mul_ofReal_sub_one_le (x := φ' - φ)).trans hφ
    have t2 : |d| * |∑ ρ ∈ I, P ρ| ≤ B := mul_le_mul_of_nonneg_left (Finset.abs_sum_le_sum_abs _ _) (abs_nonneg _)
    exact mul_le_mul t1 t2 (by positivity) ((norm_nonneg _).trans t1)
  have := norm_sub_le_norm_sub_add_norm_sub V W ((σ : ℂ) * rect d φ * ((∑ ρ ∈ I, P ρ : ℝ) : ℂ))
  rw [add_mul]
  linarith

/-- Prefactor and sum with rounding. -/
theorem float_core {u w : ℝ} {F : FloatOps} (hF : F.Std u w) {mag d φ' φ e S : ℝ} {k K : ℕ} {I : Finset ℕ} {P θ : ℕ → ℝ}
    (hmag : Near u k mag d) (hφ : |φ' - φ| ≤ e) (hS : S = ∑ ρ ∈ I, P ρ * θ ρ) (hθ : ∀ ρ, Fac u K (θ ρ)) (neg : Bool) :
    ‖smulF F (if neg then -rectF F mag φ' else rectF F mag φ') S
        - (if neg then -rect d φ else rect d φ) * ((∑ ρ ∈ I, P ρ : ℝ) : ℂ)‖
      ≤ (gam u (k + 3 + K) + e) * (|d| * ∑ ρ ∈ I, |P ρ|) := by
  have hu0 := hF.u_nonneg
  have hu1 := hF.u_lt_one
  -- one component
  have comp : ∀ (c' c : ℝ), RelErr u c' c → ∃ η : ℕ → ℝ, (∀ ρ, |η ρ - 1| ≤ gam u (k + 3 + K)) ∧
      F.mul (if neg then -F.mul mag c' else F.mul mag c') S = (if neg then -1 else 1) * (d * c * ∑ ρ ∈ I, P ρ * η ρ) := by
    intro c' c hc
    obtain ⟨α, a1, a2⟩ := hmag
    obtain ⟨β, b1, b2⟩ := hc.fac hu0 hu1
    obtain ⟨γ, c1, c2⟩ := (hF.mul mag c').fac hu0 hu1
    obtain ⟨δ, d1, d2⟩ := (hF.mul (if neg then -F.mul mag c' else F.mul mag c') S).fac hu0 hu1
    refine ⟨fun ρ => α * β * γ * δ * θ ρ, fun ρ => ?_, ?_⟩
    · apply Fac.abs_sub hu0 hu1
      have := Fac.mul hu0 hu1 (Fac.mul hu0 hu1 (Fac.mul hu0 hu1 (Fac.mul hu0 hu1 a2 b2) c2) d2) (hθ ρ)
      exact this
    · rw [d1, c1, a1, b1, hS]
      have : ∑ ρ ∈ I, P ρ * (α * β * γ * δ * θ ρ) = α * β * γ * δ * ∑ ρ ∈ I, P ρ * θ ρ := by
        rw [Finset.mul_sum]; exact Finset.sum_congr rfl fun ρ _ => by ring
      rw [this]
      cases neg <;> simp <;> ring
  obtain ⟨η, e1, e2⟩ := comp (F.cos φ') (Real.cos φ') (hF.cos φ')
  obtain ⟨ζ, z1, z2⟩ := comp (F.sin φ') (Real.sin φ') (hF.sin φ')
  let σ : ℝ := if neg then -1 else 1
  have hσ : |σ| = 1 := by simp only [σ]; cases neg <;> simp
  have := float_core_gen (d := d) (V := smulF F (if neg then -rectF F mag φ' else rectF F mag φ') S) hσ
    (gam_nonneg hu0 hu1 (k + 3 + K)) e1 z1
    (by rw [← e2]; cases neg <;> rfl) (by rw [← z2]; cases neg <;> rfl) hφ
  have h2 : (if neg then -rect d φ else rect d φ) = (σ : ℂ) * rect d φ := by
    simp only [σ]; cases neg <;> simp
  rw [h2]
  exact this

end SF
