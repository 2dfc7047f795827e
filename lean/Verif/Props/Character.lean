import Verif.Props.Faithful
import Mathlib.Analysis.SpecialFunctions.Trigonometric.Chebyshev.Basic

/-!
# C107: the traces of the Wigner D matrices
-/

set_option autoImplicit false

namespace SF

open Finset ComplexConjugate Quaternion

/-- The sum of the powers of a unit complex number is a Chebyshev polynomial of its real part. -/
theorem power_sum_chebyshev {z : ℂ} (hz : ‖z‖ = 1) (n : ℕ) :
    ∑ k ∈ range (n + 1), z ^ (2 * (k : ℤ) - n) = (((Polynomial.Chebyshev.U ℝ n).eval z.re : ℝ) : ℂ) := by
  have h0 : z ≠ 0 := by intro h; rw [h, norm_zero] at hz; exact zero_ne_one hz
  have hc : (2 : ℂ) * (z.re : ℂ) = z + z⁻¹ := by
    have : z⁻¹ = conj z := by
      rw [Complex.inv_def, Complex.normSq_eq_norm_sq, hz]; simp
    rw [this, Complex.add_conj]; push_cast; ring
  have rec1 : ∀ n : ℕ, z * ∑ k ∈ range (n + 1 + 1), z ^ (2 * (k : ℤ) - (n + 1 : ℕ))
      = ∑ k ∈ range (n + 1), z ^ (2 * (k : ℤ) - n) + z ^ ((n : ℤ) + 2) := by
    intro n
    rw [mul_sum, sum_range_succ]
    congr 1
    · refine sum_congr rfl fun k _ => ?_
      rw [← zpow_one_add₀ h0]; congr 1; push_cast; ring
    · rw [← zpow_one_add₀ h0]; congr 1; push_cast; ring
  have rec2 : ∀ n : ℕ, z⁻¹ * ∑ k ∈ range (n + 1 + 1), z ^ (2 * (k : ℤ) - (n + 1 : ℕ))
      = ∑ k ∈ range (n + 2 + 1), z ^ (2 * (k : ℤ) - (n + 2 : ℕ)) - z ^ ((n : ℤ) + 2) := by
    intro n
    rw [mul_sum, sum_range_succ _ (n + 2), show (2 * ((n + 2 : ℕ) : ℤ) - (n + 2 : ℕ)) = (n : ℤ) + 2 by push_cast; ring, add_sub_cancel_right]
    refine sum_congr rfl fun k _ => ?_
    rw [← zpow_neg_one, ← zpow_add₀ h0]; congr 1; push_cast; ring
  induction n using Nat.twoStepInduction with
  | zero => simp
  | one =>
    rw [sum_range_succ, sum_range_one]
    have e : Polynomial.Chebyshev.U ℝ ((1 : ℕ) : ℤ) = 2 * Polynomial.X := by rw [Nat.cast_one, Polynomial.Chebyshev.U_one]
    rw [e]
    simp only [Polynomial.eval_mul, Polynomial.eval_X, Polynomial.eval_ofNat]
    push_cast
    rw [hc, add_comm]
    norm_num
  | more n ih1 ih2 =>
    have e : Polynomial.Chebyshev.U ℝ ((n + 2 : ℕ) : ℤ)
        = 2 * Polynomial.X * Polynomial.Chebyshev.U ℝ ((n + 1 : ℕ) : ℤ) - Polynomial.Chebyshev.U ℝ (n : ℤ) := by
      push_cast; exact Polynomial.Chebyshev.U_add_two ℝ n
    rw [e]
    simp only [Polynomial.eval_sub, Polynomial.eval_mul, Polynomial.eval_X, Polynomial.eval_ofNat]
    rw [Complex.ofReal_sub, Complex.ofReal_mul, Complex.ofReal_mul, Complex.ofReal_ofNat, hc, ← ih2, ← ih1, add_mul, rec1, rec2]
    ring

/-- Every unit quaternion is conjugate to a rotation about `z`. -/
theorem conjugate_to_z {q : ℍ[ℝ]} (hq : normSq q = 1) :
    ∃ (r : ℍ[ℝ]) (s : ℝ), normSq r = 1 ∧ q.re ^ 2 + s ^ 2 = 1 ∧ r * mkQ q.re 0 0 s * star r = q := by
  rw [normSq_def'] at hq
  obtain ⟨s, x, y, z, h1, hx, hy, hz, hs⟩ : ∃ s x y z : ℝ, x ^ 2 + y ^ 2 + z ^ 2 = 1 ∧ q.imI = s * x ∧ q.imJ = s * y ∧ q.imK = s * z ∧
      q.re ^ 2 + s ^ 2 = 1 := by
    by_cases h : q.imI ^ 2 + q.imJ ^ 2 + q.imK ^ 2 = 0
    · have a : q.imI = 0 := by nlinarith [sq_nonneg q.imI, sq_nonneg q.imJ, sq_nonneg q.imK]
      have b : q.imJ = 0 := by nlinarith [sq_nonneg q.imI, sq_nonneg q.imJ, sq_nonneg q.imK]
      have c : q.imK = 0 := by nlinarith [sq_nonneg q.imI, sq_nonneg q.imJ, sq_nonneg q.imK]
      exact ⟨0, 0, 0, 1, by norm_num, by simp [a], by simp [b], by simp [c], by nlinarith⟩
    · have hp : 0 < q.imI ^ 2 + q.imJ ^ 2 + q.imK ^ 2 := lt_of_le_of_ne (by positivity) (Ne.symm h)
      have hs := Real.sq_sqrt hp.le
      have hs0 : Real.sqrt (q.imI ^ 2 + q.imJ ^ 2 + q.imK ^ 2) ≠ 0 := (Real.sqrt_pos.mpr hp).ne'
      generalize Real.sqrt (q.imI ^ 2 + q.imJ ^ 2 + q.imK ^ 2) = t at hs hs0
      refine ⟨t, q.imI / t, q.imJ / t, q.imK / t, ?_, by field_simp, by field_simp, by field_simp, by linarith⟩
      field_simp
      linarith
  by_cases h : z = -1
  · have a : x = 0 := by subst h; nlinarith [sq_nonneg x, sq_nonneg y]
    have b : y = 0 := by subst h; nlinarith [sq_nonneg x, sq_nonneg y]
    refine ⟨mkQ 0 1 0 0, s, by rw [normSq_def']; simp, hs, ?_⟩
    ext <;> simp [hx, hy, hz, a, b, h]
  · have hp : 0 < 2 + 2 * z := by
      have : -1 ≤ z := by nlinarith [sq_nonneg x, sq_nonneg y]
      have : -1 < z := lt_of_le_of_ne this (Ne.symm h)
      linarith
    have hn := Real.sq_sqrt hp.le
    have hn0 : Real.sqrt (2 + 2 * z) ≠ 0 := (Real.sqrt_pos.mpr hp).ne'
    generalize Real.sqrt (2 + 2 * z) = t at hn hn0
    have hi : t⁻¹ ^ 2 * (2 + 2 * z) = 1 := by rw [← hn]; field_simp
    generalize t⁻¹ = w at hi
    refine ⟨mkQ 0 (w * x) (w * y) (w * (z + 1)), s, ?_, hs, ?_⟩
    · rw [normSq_def']; simp only [mkQ_re, mkQ_imI, mkQ_imJ, mkQ_imK]
      linear_combination hi + w ^ 2 * h1
    · ext <;> simp only [re_mul, imI_mul, imJ_mul, imK_mul, re_star, imI_star, imJ_star, imK_star, mkQ_re, mkQ_imI, mkQ_imJ, mkQ_imK, hx, hy, hz]
      · linear_combination q.re * (hi + w ^ 2 * h1)
      · linear_combination s * x * hi
      · linear_combination s * y * hi
      · linear_combination s * z * hi + s * w ^ 2 * h1 * (-1)

/-- The trace of the matrix of a unit rotor. -/
theorem wignerD_trace {q : ℍ[ℝ]} (hq : normSq q = 1) (n : ℕ) :
    ∑ k ∈ range (n + 1), Spec.wignerD (partA q) (partB q) n (2 * k - n) (2 * k - n) = (((Polynomial.Chebyshev.U ℝ n).eval q.re : ℝ) : ℂ) := by
  obtain ⟨r, s, hr, hs, e⟩ := conjugate_to_z hq
  have hv : ∀ {j k : ℕ}, j ∈ range (n + 1) → k ∈ range (n + 1) → Spec.ValidD n (2 * j - n) (2 * k - n) := by
    intro j k hj hk
    rw [mem_range] at hj hk
    exact ⟨by rw [abs_le]; omega, by rw [abs_le]; omega, by omega, by omega⟩
  let z : ℂ := ⟨q.re, s⟩
  have zA : partA (mkQ q.re 0 0 s) = z := rfl
  have zB : partB (mkQ q.re 0 0 s) = 0 := rfl
  have zn : Complex.normSq z = 1 := by rw [Complex.normSq_apply]; nlinarith
  have zn' : ‖z‖ = 1 := by
    rw [Complex.normSq_eq_norm_sq] at zn
    exact (pow_eq_one_iff_of_nonneg (norm_nonneg _) two_ne_zero).mp zn
  have hrr : star r * r = 1 := by rw [star_mul_self, hr]; simp
  have oA : partA 1 = 1 := by apply Complex.ext <;> simp [partA]
  have oB : partB 1 = 0 := by apply Complex.ext <;> simp [partB]
  calc ∑ k ∈ range (n + 1), Spec.wignerD (partA q) (partB q) n (2 * k - n) (2 * k - n)
      = ∑ k ∈ range (n + 1), ∑ j ∈ range (n + 1), (Spec.wignerD (partA r) (partB r) n (2 * k - n) (2 * j - n) * z ^ (2 * (j : ℤ) - n))
          * Spec.wignerD (partA (star r)) (partB (star r)) n (2 * j - n) (2 * k - n) := by
        refine sum_congr rfl fun k hk => ?_
        conv_lhs => rw [← e]
        rw [← C12_closed_form _ _ n _ _ (hv hk hk)]
        refine sum_congr rfl fun j hj => ?_
        congr 1
        rw [← C12_closed_form _ _ n _ _ (hv hk hj), sum_eq_single j]
        · rw [zA, zB, wD_rb_zero' zn (hv hj hj), if_pos rfl]
        · intro i hi hij
          rw [zA, zB, wD_rb_zero' zn (hv hi hj), if_neg (by omega), mul_zero]
        · intro h; exact absurd hj h
    _ = ∑ j ∈ range (n + 1), z ^ (2 * (j : ℤ) - n) * ∑ k ∈ range (n + 1), Spec.wignerD (partA (star r)) (partB (star r)) n (2 * j - n) (2 * k - n)
          * Spec.wignerD (partA r) (partB r) n (2 * k - n) (2 * j - n) := by
        rw [sum_comm]
        refine sum_congr rfl fun j _ => ?_
        rw [mul_sum]
        refine sum_congr rfl fun k _ => ?_
        ring
    _ = ∑ j ∈ range (n + 1), z ^ (2 * (j : ℤ) - n) := by
        refine sum_congr rfl fun j hj => ?_
        rw [C12_closed_form _ _ n _ _ (hv hj hj), hrr, oA, oB, wD_rb_zero' (by simp) (hv hj hj), if_pos rfl, one_zpow, mul_one]
    _ = _ := power_sum_chebyshev zn' n

/-- **C107.** The trace of the matrix that `Wigner_D_element` gives for `ell = n/2` is the Chebyshev polynomial of the second kind of
degree `n`, at the scalar part of the rotor. -/
theorem C107_character {L : ℤ} {table : List ℝ} (ht : IsWignerTable L table) (junk : ℕ → ℂ) (q : ℍ[ℝ]) (hq : GenericQ q) (n : ℕ)
    (hle : (n : ℤ) ≤ 2 * L) :
    ∃ D : ℕ → ℂ, (∀ k ≤ n, apiD table L junk q n (2 * k - n) (2 * k - n) = .ok (.scalar (D k))) ∧
      ∑ k ∈ range (n + 1), D k = (((Polynomial.Chebyshev.U ℝ n).eval q.re : ℝ) : ℂ) := by
  refine ⟨fun k => Spec.wignerD (partA q) (partB q) n (2 * k - n) (2 * k - n), fun k hk => ?_, wignerD_trace (unitQ.mp hq.1) n⟩
  exact apiD_eq ht junk hq ⟨by rw [abs_le]; omega, by rw [abs_le]; omega, by omega, by omega⟩ hle

/-- **C107 (in terms of the angle).** For the rotation by `γ` about the unit vector `(x, y, z)`, `sin(γ/2)` times the trace is
`sin((2 ell + 1) γ/2)`, whatever the axis. -/
theorem C107_angle {L : ℤ} {table : List ℝ} (ht : IsWignerTable L table) (junk : ℕ → ℂ) (γ x y z : ℝ)
    (hq : GenericQ (mkQ (Real.cos (γ / 2)) (Real.sin (γ / 2) * x) (Real.sin (γ / 2) * y) (Real.sin (γ / 2) * z))) (n : ℕ)
    (hle : (n : ℤ) ≤ 2 * L) :
    ∃ D : ℕ → ℂ, (∀ k ≤ n, apiD table L junk (mkQ (Real.cos (γ / 2)) (Real.sin (γ / 2) * x) (Real.sin (γ / 2) * y) (Real.sin (γ / 2) * z))
        n (2 * k - n) (2 * k - n) = .ok (.scalar (D k))) ∧
      (∑ k ∈ range (n + 1), D k) * (Real.sin (γ / 2) : ℝ) = (Real.sin ((n + 1) * (γ / 2)) : ℝ) := by
  obtain ⟨D, h1, h2⟩ := C107_character ht junk _ hq n hle
  refine ⟨D, h1, ?_⟩
  have := Polynomial.Chebyshev.U_real_cos (γ / 2) n
  rw [h2, mkQ_re, ← Complex.ofReal_mul, this]
  push_cast
  rfl

/-- A rotation about `z`, by `γ = 1`. -/
example : ∃ table, IsWignerTable 32 table ∧ ∃ a b : ℂ,
    apiD table 32 (fun _ => 0) (mkQ (Real.cos (1 / 2)) (Real.sin (1 / 2) * 0) (Real.sin (1 / 2) * 0) (Real.sin (1 / 2) * 1)) 1 (-1) (-1) = .ok (.scalar a) ∧
    apiD table 32 (fun _ => 0) (mkQ (Real.cos (1 / 2)) (Real.sin (1 / 2) * 0) (Real.sin (1 / 2) * 0) (Real.sin (1 / 2) * 1)) 1 1 1 = .ok (.scalar b) ∧
    (a + b) * (Real.sin (1 / 2) : ℝ) = (Real.sin 1 : ℝ) := by
  obtain ⟨t, ht⟩ := IsWignerTable.exists 32 (by norm_num)
  obtain ⟨D, h1, h2⟩ := C107_angle ht (fun _ => 0) 1 0 0 1 (by simpa using generic_zrot 1) 1 (by norm_num)
  refine ⟨t, ht, D 0, D 1, h1 0 (by norm_num), h1 1 (by norm_num), ?_⟩
  rw [sum_range_succ, sum_range_one] at h2
  rw [h2]
  norm_num

/-- For `q = (3 + 4 i)/5` and `ell = 1` the trace is `4 (3/5)² - 1 = 11/25`. -/
example : ∃ table, IsWignerTable 32 table ∧ ∃ a b c : ℂ, apiD table 32 (fun _ => 0) (mkQ (3/5) (4/5) 0 0) 2 (-2) (-2) = .ok (.scalar a) ∧
    apiD table 32 (fun _ => 0) (mkQ (3/5) (4/5) 0 0) 2 0 0 = .ok (.scalar b) ∧
    apiD table 32 (fun _ => 0) (mkQ (3/5) (4/5) 0 0) 2 2 2 = .ok (.scalar c) ∧ a + b + c = 11 / 25 := by
  obtain ⟨t, ht⟩ := IsWignerTable.exists 32 (by norm_num)
  obtain ⟨D, h1, h2⟩ := C107_character ht (fun _ => 0) _ generic_example.1 2 (by norm_num)
  refine ⟨t, ht, D 0, D 1, D 2, h1 0 (by norm_num), h1 1 (by norm_num), h1 2 (by norm_num), ?_⟩
  have e : Polynomial.Chebyshev.U ℝ ((2 : ℕ) : ℤ) = 4 * Polynomial.X ^ 2 - 1 := Polynomial.Chebyshev.U_two ℝ
  rw [sum_range_succ, sum_range_succ, sum_range_one, e] at h2
  rw [h2]
  simp only [Polynomial.eval_sub, Polynomial.eval_mul, Polynomial.eval_pow, Polynomial.eval_X, Polynomial.eval_ofNat, Polynomial.eval_one, mkQ_re]
  norm_num

end SF
