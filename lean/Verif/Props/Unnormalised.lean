import Verif.Props.Representation
import Mathlib.Analysis.Quaternion

/-!
# Property C68: rotors that are not normalised

Nothing in the package normalises the quaternions it is given or checks that they are unit.
-/

set_option autoImplicit false

namespace SF

open ComplexConjugate Quaternion

theorem kernel_big {L : ℤ} {table : List ℝ} (ht : IsWignerTable L table) {Ra Rb : ℂ} (h1 : epsilon < ‖Ra‖) (h2 : epsilon < ‖Rb‖)
    {t : ℤ × ℤ × ℤ} (hv : Spec.ValidD t.1 t.2.1 t.2.2) (hle : t.1 ≤ 2 * L) (buf : List ℂ) (hb : buf.length = 1) :
    Wigner_D_element_kernel table Ra Rb [t] buf = .ok [Spec.wignerD Ra Rb t.1 t.2.1 t.2.2] := by
  unfold Wigner_D_element_kernel
  simp only
  rw [if_neg (not_le.2 h1), if_neg (not_le.2 h2)]
  split
  · refine forL_map_wr [t] buf hb (fun t => elem_ra_lt_rb table ‖Ra‖ (Complex.arg Ra) ‖Rb‖ (Complex.arg Rb) t.1 t.2.1 t.2.2)
      (fun t => Spec.wignerD Ra Rb t.1 t.2.1 t.2.2) ?_
    intro t' ht'
    rw [List.mem_singleton] at ht'
    subst ht'
    exact elem_ra_lt_rb_eq ht (pos_of_eps (not_le.2 h2)) hv hle
  · refine forL_map_wr [t] buf hb (fun t => elem_ra_ge_rb table ‖Ra‖ (Complex.arg Ra) ‖Rb‖ (Complex.arg Rb) t.1 t.2.1 t.2.2)
      (fun t => Spec.wignerD Ra Rb t.1 t.2.1 t.2.2) ?_
    intro t' ht'
    rw [List.mem_singleton] at ht'
    subst ht'
    exact elem_ra_ge_rb_eq ht (pos_of_eps (not_le.2 h1)) hv hle

theorem apiD_big {L : ℤ} {table : List ℝ} (ht : IsWignerTable L table) (junk : ℕ → ℂ) {q : ℍ[ℝ]} (h1 : epsilon < ‖partA q‖)
    (h2 : epsilon < ‖partB q‖) {n mp m : ℤ} (hv : Spec.ValidD n mp m) (hle : n ≤ 2 * L) :
    apiD table L junk q n mp m = .ok (.scalar (Spec.wignerD (partA q) (partB q) n mp m)) := by
  obtain ⟨buf, hb, e⟩ := api_single (RotationArgs.rotor q.re q.imI q.imJ q.imK) (by simp) table L true junk n mp m
  unfold apiD
  rw [show [rotorArg q, .num (.flt (half n)), .num (.flt (half mp)), .num (.flt (half m))]
    = [rotorArg q] ++ [.num (.flt (half n)), .num (.flt (half mp)), .num (.flt (half m))] from rfl]
  refine e.trans ?_
  rw [if_neg]
  · rw [show (⟨q.re, q.imK⟩ : ℂ) = partA q from rfl, show (⟨q.imJ, q.imI⟩ : ℂ) = partB q from rfl,
      kernel_big ht h1 h2 (t := (n, mp, m)) hv hle buf hb]
    rfl
  · have : check_valid_indices L n mp m = true := by rw [check_iff]; exact ⟨hle, hv.1, hv.2.1⟩
    simp [this]

theorem Dpq_scale (lam : ℝ) (za zb : ℂ) {p' q' p q : ℕ} (hsum : p' + q' = p + q) :
    Spec.Dpq (lam * za) (lam * zb) p' q' p q = (lam : ℂ) ^ (p + q) * Spec.Dpq za zb p' q' p q := by
  rw [Dpq_eq_Ico, Dpq_eq_Ico, mul_left_comm]
  congr 1
  rw [Finset.mul_sum]
  apply Finset.sum_congr rfl
  intro ρ hρ
  rw [Finset.mem_Ico] at hρ
  unfold Dterm
  simp only [map_mul, Complex.conj_ofReal, mul_pow]
  have : (lam : ℂ) ^ (p + q) = (lam : ℂ) ^ (p' - ρ) * (lam : ℂ) ^ (q - ρ) * (lam : ℂ) ^ (q' - (q - ρ)) * (lam : ℂ) ^ ρ := by
    rw [← pow_add, ← pow_add, ← pow_add]; congr 1; omega
  rw [this]; ring

theorem partA_smul (lam : ℝ) (q : ℍ[ℝ]) : partA (lam • q) = lam * partA q := by apply Complex.ext <;> simp [partA]
theorem partB_smul (lam : ℝ) (q : ℍ[ℝ]) : partB (lam • q) = lam * partB q := by apply Complex.ext <;> simp [partB]

/-- **C68.** Away from the poles the value is homogeneous of degree `2 ell` in the quaternion: for every quaternion (of any norm) and
every factor, as long as both complex parts stay above the cut-off, `D(λ q) = λ^(2 ell) D(q)`. -/
theorem C68_homogeneous {L : ℤ} {table : List ℝ} (ht : IsWignerTable L table) (junk : ℕ → ℂ) (q : ℍ[ℝ]) (lam : ℝ)
    (h1 : epsilon < ‖partA q‖) (h2 : epsilon < ‖partB q‖) (h3 : epsilon < ‖partA (lam • q)‖) (h4 : epsilon < ‖partB (lam • q)‖)
    (n : ℕ) (mp m : ℤ) (hv : Spec.ValidD n mp m) (hle : (n : ℤ) ≤ 2 * L) :
    ∃ v, apiD table L junk q n mp m = .ok (.scalar v) ∧ apiD table L junk (lam • q) n mp m = .ok (.scalar ((lam : ℂ) ^ n * v)) := by
  refine ⟨_, apiD_big ht junk h1 h2 hv hle, ?_⟩
  rw [apiD_big ht junk h3 h4 hv hle]
  obtain ⟨p', q', p, q0, hsum, ha, hb, hc⟩ := valid_pq hv
  rw [wignerD_pq _ _ hsum ha hb hc, wignerD_pq _ _ hsum ha hb hc, partA_smul, partB_smul, Dpq_scale _ _ _ hsum]
  congr; omega

theorem norm_eq_sqrt (q : ℍ[ℝ]) : ‖q‖ ^ 2 = normSq q := by rw [Quaternion.normSq_eq_norm_mul_self]; ring

/-- **C68.** Effect of an error in the normalisation.  If `| ‖q‖ - 1 | ≤ δ`, the value returned for `q` differs from the value for the
normalised rotor `q / ‖q‖` by at most `(1+δ)^(2 ell) - 1` (away from the poles). -/
theorem C68_normalisation_error {L : ℤ} {table : List ℝ} (ht : IsWignerTable L table) (junk : ℕ → ℂ) (q : ℍ[ℝ]) (δ : ℝ)
    (hδ : |‖q‖ - 1| ≤ δ) (hδ1 : δ < 1) (h1 : epsilon < ‖partA q‖) (h2 : epsilon < ‖partB q‖)
    (h3 : epsilon < ‖partA (‖q‖⁻¹ • q)‖) (h4 : epsilon < ‖partB (‖q‖⁻¹ • q)‖)
    (n : ℕ) (mp m : ℤ) (hv : Spec.ValidD n mp m) (hle : (n : ℤ) ≤ 2 * L) :
    ∃ v w, apiD table L junk q n mp m = .ok (.scalar v) ∧ apiD table L junk (‖q‖⁻¹ • q) n mp m = .ok (.scalar w) ∧
      ‖v - w‖ ≤ (1 + δ) ^ n - 1 := by
  rw [abs_le] at hδ
  have hq0 : 0 < ‖q‖ := by linarith
  have hunit : normSq (‖q‖⁻¹ • q) = 1 := by
    rw [← norm_eq_sqrt, norm_smul, norm_inv, norm_norm, inv_mul_cancel₀ hq0.ne', one_pow]
  have hback : ‖q‖ • (‖q‖⁻¹ • q) = q := by rw [smul_smul, mul_inv_cancel₀ hq0.ne', one_smul]
  obtain ⟨w, hw, hv'⟩ := C68_homogeneous ht junk (‖q‖⁻¹ • q) ‖q‖ h3 h4 (by rwa [hback]) (by rwa [hback]) n mp m hv hle
  rw [hback] at hv'
  refine ⟨_, w, hv', hw, ?_⟩
  obtain ⟨w', hw', hb⟩ := C14_bound ht junk (‖q‖⁻¹ • q) ⟨unitQ.2 hunit, Or.inr h3, Or.inr h4⟩ n mp m hv hle
  rw [hw] at hw'; cases hw'
  have e : ((‖q‖ : ℝ) : ℂ) ^ n * w - w = (((‖q‖ ^ n - 1 : ℝ)) : ℂ) * w := by push_cast; ring
  rw [e, norm_mul, Complex.norm_real, Real.norm_eq_abs]
  have key : |‖q‖ ^ n - 1| ≤ (1 + δ) ^ n - 1 := by
    have u1 : ‖q‖ ^ n ≤ (1 + δ) ^ n := pow_le_pow_left₀ hq0.le (by linarith) n
    have u2 : (1 - δ) ^ n ≤ ‖q‖ ^ n := pow_le_pow_left₀ (by linarith) (by linarith) n
    have u3 : 1 + n * (-δ) ≤ (1 + -δ) ^ n := one_add_mul_le_pow (by linarith) n
    have u4 : 1 + n * δ ≤ (1 + δ) ^ n := one_add_mul_le_pow (by linarith) n
    rw [← sub_eq_add_neg] at u3
    rw [abs_le]
    constructor <;> linarith
  calc |‖q‖ ^ n - 1| * ‖w‖ ≤ |‖q‖ ^ n - 1| * 1 := mul_le_mul_of_nonneg_left hb (abs_nonneg _)
    _ ≤ _ := by rw [mul_one]; exact key

/-- **C68 (limit).** On the axis the scaling is different: for the real quaternion `λ > epsilon` (the identity rotation, not normalised)
the diagonal element `(m, m)` is `λ^(2m)`, whatever `ell`; homogeneity of degree `2 ell` fails, so without normalisation the values at the
axis do not fit those next to it. -/
theorem C68_axis {L : ℤ} (table : List ℝ) (junk : ℕ → ℂ) (lam : ℝ) (h : epsilon < lam) (ell m : ℤ) (hm : |m| ≤ ell)
    (hle : ell ≤ L) :
    apiD table L junk (mkQ lam 0 0 0) (2 * ell) (2 * m) (2 * m) = .ok (.scalar ((lam : ℂ) ^ (2 * m))) := by
  obtain ⟨buf, hb, e⟩ := api_single (RotationArgs.rotor lam 0 0 0) (by simp) table L true junk (2 * ell) (2 * m) (2 * m)
  have h0 := epsilon_pos
  have hv := validD_int hm hm
  unfold apiD
  rw [show [rotorArg (mkQ lam 0 0 0), .num (.flt (half (2 * ell))), .num (.flt (half (2 * m))), .num (.flt (half (2 * m)))]
    = [.rotor (lam, 0, 0, 0)] ++ [.num (.flt (half (2 * ell))), .num (.flt (half (2 * m))), .num (.flt (half (2 * m)))] from rfl, e,
    if_neg]
  · have e1 : (⟨lam, 0⟩ : ℂ) = (lam : ℂ) := by apply Complex.ext <;> simp
    have e2 : (⟨0, 0⟩ : ℂ) = 0 := rfl
    rw [e1, e2]
    have hk : Wigner_D_element_kernel table (lam : ℂ) 0 [(2 * ell, 2 * m, 2 * m)] buf = .ok [(lam : ℂ) ^ (2 * m)] := by
      unfold Wigner_D_element_kernel
      simp only
      rw [if_neg (by rw [Complex.norm_real, Real.norm_eq_abs, abs_of_pos (by linarith), not_le]; exact h),
        if_pos (by rw [norm_zero]; exact h0.le)]
      refine forL_map_wr [(2 * ell, 2 * m, 2 * m)] buf hb (fun t => elem_rb_small (lam : ℂ) t.1 t.2.1 t.2.2)
        (fun t => (lam : ℂ) ^ (t.2.2)) ?_
      intro t ht
      rw [List.mem_singleton] at ht
      subst ht
      unfold elem_rb_small
      rw [if_neg (by rw [not_or, not_or, not_lt]; exact ⟨by simp, hv.1, hv.1⟩), cpowInt_ok]
      have : lam ≠ 0 := by linarith
      exact_mod_cast this
    rw [hk]; rfl
  · have : check_valid_indices L (2 * ell) (2 * m) (2 * m) = true := by rw [check_iff]; exact ⟨by omega, hv.1, hv.2.1⟩
    simp [this]

/-- Concrete instance of the hypotheses of C68: the quaternion `3 + 4 i` and the factor `1/5`, and `ell = 3/2`. -/
example : epsilon < ‖partA (mkQ 3 4 0 0)‖ ∧ epsilon < ‖partB (mkQ 3 4 0 0)‖ ∧
    epsilon < ‖partA ((1 / 5 : ℝ) • mkQ 3 4 0 0)‖ ∧ epsilon < ‖partB ((1 / 5 : ℝ) • mkQ 3 4 0 0)‖ ∧ Spec.ValidD (3 : ℕ) 1 (-3) := by
  have h1 : ‖partA (mkQ 3 4 0 0)‖ = 3 := by
    have : partA (mkQ 3 4 0 0) = ((3 : ℝ) : ℂ) := by apply Complex.ext <;> simp [partA]
    rw [this, Complex.norm_real]; norm_num
  have h2 : ‖partB (mkQ 3 4 0 0)‖ = 4 := by
    have : partB (mkQ 3 4 0 0) = ((4 : ℝ) : ℂ) * Complex.I := by apply Complex.ext <;> simp [partB]
    rw [this, norm_mul, Complex.norm_I, Complex.norm_real]; norm_num
  rw [partA_smul, partB_smul, norm_mul, norm_mul, h1, h2, Complex.norm_real]
  refine ⟨?_, ?_, ?_, ?_, by simp [Spec.ValidD]⟩ <;> unfold epsilon <;> norm_num

/-- On the axis: `D^2_{1,1}` of the quaternion `2` is `4`, not `2^4`. -/
example (junk : ℕ → ℂ) : ∃ table, apiD table 32 junk (mkQ 2 0 0 0) (2 * 2) (2 * 1) (2 * 1) = .ok (.scalar 4) := by
  refine ⟨[], ?_⟩
  rw [C68_axis (L := 32) [] junk 2 (by unfold epsilon; norm_num) 2 1 (by norm_num) (by norm_num)]
  norm_num

end SF
