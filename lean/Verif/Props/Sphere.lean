import Verif.Lemmas.Sphere
import Verif.Props.AllRotors

/-!
# Property C82: orthonormality of the harmonics, and mode weights as integrals over the sphere

`Spec.sphInt F` is `∫_0^{2π} ∫_0^π F(θ,φ) sin θ dθ dφ`; `dirQ θ φ` is the rotor with Euler angles `(φ, θ, 0)`, which takes the z axis to the
direction with spherical coordinates `(θ, φ)`.
-/

set_option autoImplicit false

namespace SF

open Finset ComplexConjugate Quaternion Spec

theorem dirQ_unit (θ φ : ℝ) : normSq (dirQ θ φ) = 1 := by
  apply unitQ.mp
  rw [partA_dirQ, partB_dirQ]
  exact dir_unit θ φ

/-- The computed harmonics have the exact `φ` dependence. -/
theorem Yret_dir (θ φ : ℝ) (s l m : ℤ) : Yret (dirA θ φ) (dirB θ φ) s l m
    = Complex.exp (Complex.I * m * φ) * Yret (Real.cos (θ / 2)) (Real.sin (θ / 2)) s l m := by
  have nA : ‖dirA θ φ‖ = ‖((Real.cos (θ / 2) : ℝ) : ℂ)‖ := by rw [norm_dirA, Complex.norm_real, Real.norm_eq_abs]
  have nB : ‖dirB θ φ‖ = ‖((Real.sin (θ / 2) : ℝ) : ℂ)‖ := by rw [norm_dirB, Complex.norm_real, Real.norm_eq_abs]
  unfold Yret
  split_ifs with h
  · by_cases h1 : ‖dirA θ φ‖ ≤ epsilon
    · rw [Dret_ra h1, Dret_ra (nA ▸ h1)]
      split_ifs with h2 h3
      all_goals
        try rw [mul_zero, mul_zero]
        try
          rw [dirB, mul_zpow, ← Complex.exp_int_mul]
          rw [show ((-2 * m : ℤ) : ℂ) * -(Complex.I * ((φ : ℂ) / 2)) = Complex.I * m * φ by push_cast; ring]
          ring
    · by_cases h2 : ‖dirB θ φ‖ ≤ epsilon
      · rw [Dret_rb h1 h2, Dret_rb (nA ▸ h1) (nB ▸ h2)]
        split_ifs with h2
        · rw [dirA, mul_zpow, ← Complex.exp_int_mul]
          rw [show ((2 * m : ℤ) : ℂ) * (Complex.I * ((φ : ℂ) / 2)) = Complex.I * m * φ by push_cast; ring]
          ring
        · rw [mul_zero, mul_zero]
      · have := sYlm_dir θ φ s l m
        unfold sYlm at this
        rw [if_pos h, if_pos h] at this
        unfold Dret
        rw [if_neg h1, if_neg h2, if_neg (nA ▸ h1), if_neg (nB ▸ h2), show 2 * -s = -2 * s by ring]
        exact this
  · simp

theorem Yret_theta_measurable (s l m : ℤ) : Measurable fun θ : ℝ => Yret (Real.cos (θ / 2)) (Real.sin (θ / 2)) s l m := by
  unfold Yret
  split_ifs
  · refine Measurable.const_mul ?_ _
    unfold Dret
    refine Measurable.ite ?_ ?_ (Measurable.ite ?_ ?_ ?_)
    · exact measurableSet_le (by fun_prop) measurable_const
    · split_ifs
      all_goals fun_prop
    · exact measurableSet_le (by fun_prop) measurable_const
    · split_ifs
      all_goals fun_prop
    · apply Continuous.measurable
      unfold wignerD Dpq
      simp only [Complex.conj_ofReal]
      fun_prop
  · exact measurable_const

theorem theta_integrable {u : ℝ → ℂ} (hm : Measurable u) {C : ℝ} (hb : ∀ θ, ‖u θ‖ ≤ C) :
    IntervalIntegrable (fun θ => u θ * (Real.sin θ : ℂ)) MeasureTheory.volume 0 Real.pi := by
  have h1 : IntervalIntegrable u MeasureTheory.volume 0 Real.pi := by
    rw [intervalIntegrable_iff]
    exact MeasureTheory.Measure.integrableOn_of_bounded (M := C) (by simp [Set.uIoc]) hm.aestronglyMeasurable
      (Filter.Eventually.of_forall hb)
  exact h1.mul_continuousOn (Continuous.continuousOn (by fun_prop))

theorem half_unit (θ : ℝ) : IsUnit' (Real.cos (θ / 2)) (Real.sin (θ / 2)) := by
  unfold IsUnit'
  rw [Complex.normSq_ofReal, Complex.normSq_ofReal]
  have := Real.cos_sq_add_sin_sq (θ / 2)
  linarith

/-- `sqrt((2l+1)/(4π))`. -/
noncomputable def hY (l : ℤ) : ℝ := Real.sqrt ((2 * l + 1) / (4 * Real.pi))

theorem sYlm_theta_norm (θ : ℝ) (s m : ℤ) {l : ℤ} (hl : 0 ≤ l) : ‖sYlm (Real.cos (θ / 2)) (Real.sin (θ / 2)) s l m‖ ≤ hY l := by
  obtain ⟨n, rfl⟩ := Int.eq_ofNat_of_zero_le hl
  have := sYlm_norm_le (half_unit θ) s m n
  unfold hY
  push_cast at this ⊢
  exact this

theorem Yret_theta_norm (θ : ℝ) (s m : ℤ) {l : ℤ} (hl : 0 ≤ l) : ‖Yret (Real.cos (θ / 2)) (Real.sin (θ / 2)) s l m‖ ≤ hY l + errY l := by
  have h1 := Yret_error (half_unit θ) s (m := m) hl
  have h2 := sYlm_theta_norm θ s m hl
  have h3 := norm_le_norm_add_norm_sub' (Yret (Real.cos (θ / 2)) (Real.sin (θ / 2)) s l m) (sYlm (Real.cos (θ / 2)) (Real.sin (θ / 2)) s l m)
  linarith

theorem norm_conj_mul_sub {a b a' b' : ℂ} {A B x y : ℝ} (h1 : ‖a - a'‖ ≤ x) (h2 : ‖b - b'‖ ≤ y) (hA : ‖a'‖ ≤ A) (hB : ‖b'‖ ≤ B) :
    ‖conj a * b - conj a' * b'‖ ≤ x * B + A * y + x * y := by
  have hx := (norm_nonneg _).trans h1
  have hy := (norm_nonneg _).trans h2
  have hA0 := (norm_nonneg _).trans hA
  have e : conj a * b - conj a' * b' = conj (a - a') * b' + conj a' * (b - b') + conj (a - a') * (b - b') := by
    rw [map_sub]; ring
  rw [e]
  refine (norm_add₃_le).trans ?_
  rw [norm_mul, norm_mul, norm_mul, Complex.norm_conj, Complex.norm_conj]
  gcongr

theorem sin_int : ∫ θ in (0 : ℝ)..Real.pi, Real.sin θ = 2 := by
  rw [integral_sin]; norm_num

/-- The error of the scalar products of the computed harmonics. -/
noncomputable def orthErr (l l' : ℤ) : ℝ := Real.sqrt (2 * l + 1) * Real.sqrt (2 * l' + 1) * (errD l + errD l' + errD l * errD l')

theorem Yret_orth {s l m l' m' : ℤ} (hs : |s| ≤ l) (hm : |m| ≤ l) (hs' : |s| ≤ l') (hm' : |m'| ≤ l') :
    (m ≠ m' → sphInt (fun θ φ => conj (Yret (dirA θ φ) (dirB θ φ) s l m) * Yret (dirA θ φ) (dirB θ φ) s l' m') = 0) ∧
    ‖sphInt (fun θ φ => conj (Yret (dirA θ φ) (dirB θ φ) s l m) * Yret (dirA θ φ) (dirB θ φ) s l' m')
      - (if l = l' ∧ m = m' then 1 else 0)‖ ≤ orthErr l l' := by
  have hl : 0 ≤ l := (abs_nonneg _).trans hm
  have hl' : 0 ≤ l' := (abs_nonneg _).trans hm'
  have hlr : (0 : ℝ) ≤ l := by exact_mod_cast hl
  have hlr' : (0 : ℝ) ≤ l' := by exact_mod_cast hl'
  have hp := Real.pi_pos
  have form : ∀ Y : ℂ → ℂ → ℤ → ℤ → ℤ → ℂ, (∀ θ φ s l m, Y (dirA θ φ) (dirB θ φ) s l m
        = Complex.exp (Complex.I * m * φ) * Y (Real.cos (θ / 2)) (Real.sin (θ / 2)) s l m) →
      sphInt (fun θ φ => conj (Y (dirA θ φ) (dirB θ φ) s l m) * Y (dirA θ φ) (dirB θ φ) s l' m')
        = if -m + m' = 0 then 2 * (Real.pi : ℂ) * ∫ θ in (0 : ℝ)..Real.pi, (conj (Y (Real.cos (θ / 2)) (Real.sin (θ / 2)) s l m)
          * Y (Real.cos (θ / 2)) (Real.sin (θ / 2)) s l' m') * (Real.sin θ : ℂ) else 0 := by
    intro Y hY
    rw [← sphInt_phase]
    congr 1
    funext θ φ
    rw [hY, hY, map_mul, ← Complex.exp_conj]
    have e1 : conj (Complex.I * (m : ℂ) * (φ : ℂ)) = -(Complex.I * m * φ) := by
      rw [map_mul, map_mul, Complex.conj_I, Complex.conj_ofReal, map_intCast]; ring
    have e2 : Complex.exp (Complex.I * ((-m + m' : ℤ) : ℂ) * φ) = Complex.exp (-(Complex.I * m * φ)) * Complex.exp (Complex.I * m' * φ) := by
      rw [← Complex.exp_add]; congr 1; push_cast; ring
    rw [e1, e2]; ring
  have f1 := form Yret Yret_dir
  have f2 := form sYlm sYlm_dir
  rw [sYlm_orthonormal hs hm hs' hm'] at f2
  refine ⟨fun h => by rw [f1, if_neg (by omega)], ?_⟩
  have hE : 0 ≤ orthErr l l' := by
    have := errD_nonneg hl
    have := errD_nonneg hl'
    unfold orthErr; positivity
  rw [f1, f2]
  by_cases h : -m + m' = 0
  · rw [if_pos h, if_pos h, ← mul_sub, ← intervalIntegral.integral_sub]
    · rw [norm_mul]
      have hb : ∀ θ ∈ Set.uIoc 0 Real.pi, ‖(conj (Yret (Real.cos (θ / 2)) (Real.sin (θ / 2)) s l m)
          * Yret (Real.cos (θ / 2)) (Real.sin (θ / 2)) s l' m') * (Real.sin θ : ℂ) - (conj (sYlm (Real.cos (θ / 2)) (Real.sin (θ / 2)) s l m)
          * sYlm (Real.cos (θ / 2)) (Real.sin (θ / 2)) s l' m') * (Real.sin θ : ℂ)‖
          ≤ (errY l * hY l' + hY l * errY l' + errY l * errY l') * Real.sin θ := by
        intro θ hθ
        rw [Set.uIoc_of_le hp.le] at hθ
        have hsin : 0 ≤ Real.sin θ := Real.sin_nonneg_of_nonneg_of_le_pi hθ.1.le hθ.2
        rw [← sub_mul, norm_mul, Complex.norm_real, Real.norm_of_nonneg hsin]
        gcongr
        exact norm_conj_mul_sub (Yret_error (half_unit θ) s hl) (Yret_error (half_unit θ) s hl') (sYlm_theta_norm θ s m hl)
          (sYlm_theta_norm θ s m' hl')
      have := intervalIntegral.norm_integral_le_of_norm_le hp.le (Filter.Eventually.of_forall fun θ hθ => hb θ (by
        rw [Set.uIoc_of_le hp.le]; exact hθ)) (Continuous.intervalIntegrable (μ := MeasureTheory.volume) (by fun_prop) _ _)
      rw [intervalIntegral.integral_const_mul, sin_int] at this
      have n2 : ‖(2 * (Real.pi : ℂ))‖ = 2 * Real.pi := by
        rw [norm_mul, Complex.norm_real, Real.norm_of_nonneg hp.le]; norm_num
      rw [n2]
      refine (mul_le_mul_of_nonneg_left this (by positivity)).trans (le_of_eq ?_)
      have q : ∀ k : ℤ, (0 : ℝ) ≤ k → hY k = Real.sqrt (2 * k + 1) / Real.sqrt (4 * Real.pi) := fun k hk => by
        unfold hY; rw [Real.sqrt_div (by positivity)]
      have q' : ∀ k : ℤ, (0 : ℝ) ≤ k → errY k = Real.sqrt (2 * k + 1) / Real.sqrt (4 * Real.pi) * errD k := fun k hk => by
        rw [← q k hk]; rfl
      rw [q l hlr, q l' hlr', q' l hlr, q' l' hlr']
      unfold orthErr
      have h4 := Real.mul_self_sqrt (show (0 : ℝ) ≤ 4 * Real.pi by positivity)
      have h5 : Real.sqrt (4 * Real.pi) ≠ 0 := by positivity
      have h6 : (Real.sqrt (4 * Real.pi))⁻¹ * (Real.sqrt (4 * Real.pi))⁻¹ * (4 * Real.pi) = 1 := by
        rw [← mul_inv, h4]; exact inv_mul_cancel₀ (by positivity)
      linear_combination (Real.sqrt (2 * l + 1) * Real.sqrt (2 * l' + 1) * (errD l + errD l' + errD l * errD l')) * h6
    · refine theta_integrable (C := (hY l + errY l) * (hY l' + errY l')) ?_ ?_
      · exact (Complex.continuous_conj.measurable.comp (Yret_theta_measurable _ _ _)).mul (Yret_theta_measurable _ _ _)
      · intro θ
        rw [norm_mul, Complex.norm_conj]
        have := Yret_theta_norm θ s m hl
        exact mul_le_mul this (Yret_theta_norm θ s m' hl') (norm_nonneg _) ((norm_nonneg _).trans this)
    · refine Continuous.intervalIntegrable (((Complex.continuous_conj.comp (sYlm_theta_cont _ _ _)).mul (sYlm_theta_cont _ _ _)).mul ?_) _ _
      fun_prop
  · rw [if_neg h, if_neg h]; simpa using hE

/-- **C82 (orthonormality).** The spin-weighted spherical harmonics returned by `SWSH` are orthonormal on the sphere, for every spin weight, up to
the error made in the neighbourhoods of the poles; those with different `m` are exactly orthogonal. -/
theorem C82_orthonormal {L : ℤ} {table : List ℝ} (ht : IsWignerTable L table) (junk : ℕ → ℂ) (s l m l' m' : ℤ) (hs : |s| ≤ l) (hm : |m| ≤ l)
    (hs' : |s| ≤ l') (hm' : |m'| ≤ l') (hl : l ≤ L) (hl' : l' ≤ L) (y y' : ℝ → ℝ → ℂ)
    (hy : ∀ θ φ, apiY table junk (dirQ θ φ) s l m = .ok [y θ φ]) (hy' : ∀ θ φ, apiY table junk (dirQ θ φ) s l' m' = .ok [y' θ φ]) :
    (m ≠ m' → sphInt (fun θ φ => conj (y θ φ) * y' θ φ) = 0) ∧
    ‖sphInt (fun θ φ => conj (y θ φ) * y' θ φ) - (if l = l' ∧ m = m' then 1 else 0)‖
      ≤ Real.sqrt (2 * l + 1) * Real.sqrt (2 * l' + 1) * (errD l + errD l' + errD l * errD l') := by
  have e : ∀ θ φ, y θ φ = Yret (dirA θ φ) (dirB θ φ) s l m := fun θ φ => by
    have := hy θ φ
    rw [apiY_any ht junk (dirQ_unit θ φ) hl, partA_dirQ, partB_dirQ] at this
    simpa using this.symm
  have e' : ∀ θ φ, y' θ φ = Yret (dirA θ φ) (dirB θ φ) s l' m' := fun θ φ => by
    have := hy' θ φ
    rw [apiY_any ht junk (dirQ_unit θ φ) hl', partA_dirQ, partB_dirQ] at this
    simpa using this.symm
  simp only [e, e']
  exact Yret_orth hs hm hs' hm'

/-! ## Functions given by mode weights -/

/-- The pairs `(ell, m)` of a function of spin weight `s`. -/
noncomputable def modeSet (s L : ℤ) : Finset ((_ : ℤ) × ℤ) := (Icc |s| L).sigma fun l => Icc (-l) l

theorem mem_modeSet {s L : ℤ} {p : (_ : ℤ) × ℤ} : p ∈ modeSet s L ↔ |s| ≤ p.1 ∧ p.1 ≤ L ∧ |p.2| ≤ p.1 := by
  unfold modeSet
  rw [mem_sigma, mem_Icc, mem_Icc, abs_le (a := p.2), and_assoc]

/-- The scalar product of two computed functions. -/
theorem inner_any (s L L' : ℤ) (a b : ℤ → ℤ → ℂ) :
    ‖sphInt (fun θ φ => conj (∑ p ∈ modeSet s L, a p.1 p.2 * Yret (dirA θ φ) (dirB θ φ) s p.1 p.2)
        * ∑ p ∈ modeSet s L', b p.1 p.2 * Yret (dirA θ φ) (dirB θ φ) s p.1 p.2)
      - ∑ p ∈ modeSet s (min L L'), conj (a p.1 p.2) * b p.1 p.2‖
      ≤ ∑ p ∈ modeSet s L, ∑ p' ∈ modeSet s L', ‖a p.1 p.2‖ * ‖b p'.1 p'.2‖ * orthErr p.1 p'.1 := by
  have form : ∀ θ φ : ℝ, conj (∑ p ∈ modeSet s L, a p.1 p.2 * Yret (dirA θ φ) (dirB θ φ) s p.1 p.2)
        * (∑ p ∈ modeSet s L', b p.1 p.2 * Yret (dirA θ φ) (dirB θ φ) s p.1 p.2)
      = ∑ r ∈ modeSet s L ×ˢ modeSet s L', Complex.exp (Complex.I * ((-r.1.2 + r.2.2 : ℤ) : ℂ) * φ) *
        ((conj (a r.1.1 r.1.2) * b r.2.1 r.2.2) * (conj (Yret (Real.cos (θ / 2)) (Real.sin (θ / 2)) s r.1.1 r.1.2)
          * Yret (Real.cos (θ / 2)) (Real.sin (θ / 2)) s r.2.1 r.2.2)) := by
    intro θ φ
    rw [map_sum, sum_mul_sum, sum_product]
    refine sum_congr rfl fun p _ => sum_congr rfl fun p' _ => ?_
    rw [Yret_dir, Yret_dir θ φ s p'.1, map_mul, map_mul, ← Complex.exp_conj]
    have e1 : conj (Complex.I * (p.2 : ℂ) * (φ : ℂ)) = -(Complex.I * p.2 * φ) := by
      rw [map_mul, map_mul, Complex.conj_I, Complex.conj_ofReal, map_intCast]; ring
    have e2 : Complex.exp (Complex.I * ((-p.2 + p'.2 : ℤ) : ℂ) * φ) = Complex.exp (-(Complex.I * p.2 * φ)) * Complex.exp (Complex.I * p'.2 * φ) := by
      rw [← Complex.exp_add]; congr 1; push_cast; ring
    simp only
    rw [e1, e2]; ring
  have back : ∀ r : ((_ : ℤ) × ℤ) × ((_ : ℤ) × ℤ), sphInt (fun θ φ => Complex.exp (Complex.I * ((-r.1.2 + r.2.2 : ℤ) : ℂ) * φ) *
        ((conj (a r.1.1 r.1.2) * b r.2.1 r.2.2) * (conj (Yret (Real.cos (θ / 2)) (Real.sin (θ / 2)) s r.1.1 r.1.2)
          * Yret (Real.cos (θ / 2)) (Real.sin (θ / 2)) s r.2.1 r.2.2)))
      = (conj (a r.1.1 r.1.2) * b r.2.1 r.2.2) *
        sphInt (fun θ φ => conj (Yret (dirA θ φ) (dirB θ φ) s r.1.1 r.1.2) * Yret (dirA θ φ) (dirB θ φ) s r.2.1 r.2.2) := by
    intro r
    unfold sphInt
    simp only [← intervalIntegral.integral_const_mul]
    congr 1; funext φ; congr 1; funext θ
    rw [Yret_dir, Yret_dir θ φ s r.2.1, map_mul, ← Complex.exp_conj]
    have e1 : conj (Complex.I * (r.1.2 : ℂ) * (φ : ℂ)) = -(Complex.I * r.1.2 * φ) := by
      rw [map_mul, map_mul, Complex.conj_I, Complex.conj_ofReal, map_intCast]; ring
    have e2 : Complex.exp (Complex.I * ((-r.1.2 + r.2.2 : ℤ) : ℂ) * φ) = Complex.exp (-(Complex.I * r.1.2 * φ)) * Complex.exp (Complex.I * r.2.2 * φ) := by
      rw [← Complex.exp_add]; congr 1; push_cast; ring
    rw [e1, e2]; ring
  simp only [form]
  rw [sphInt_sum _ (fun r : ((_ : ℤ) × ℤ) × ((_ : ℤ) × ℤ) => -r.1.2 + r.2.2) (fun r θ => (conj (a r.1.1 r.1.2) * b r.2.1 r.2.2)
    * (conj (Yret (Real.cos (θ / 2)) (Real.sin (θ / 2)) s r.1.1 r.1.2) * Yret (Real.cos (θ / 2)) (Real.sin (θ / 2)) s r.2.1 r.2.2))]
  · rw [sum_congr rfl fun r _ => back r, sum_product]
    have diag : ∑ p ∈ modeSet s (min L L'), conj (a p.1 p.2) * b p.1 p.2
        = ∑ p ∈ modeSet s L, ∑ p' ∈ modeSet s L', (conj (a p.1 p.2) * b p'.1 p'.2) * (if p.1 = p'.1 ∧ p.2 = p'.2 then 1 else 0) := by
      have e : ∀ p ∈ modeSet s L, (∑ p' ∈ modeSet s L', (conj (a p.1 p.2) * b p'.1 p'.2) * (if p.1 = p'.1 ∧ p.2 = p'.2 then 1 else 0))
          = if p.1 ≤ L' then conj (a p.1 p.2) * b p.1 p.2 else 0 := by
        intro p hp
        rw [mem_modeSet] at hp
        by_cases h : p.1 ≤ L'
        · rw [if_pos h, sum_eq_single p]
          · simp
          · intro q _ hq
            rw [if_neg, mul_zero]
            rintro ⟨h1, h2⟩
            apply hq
            obtain ⟨q1, q2⟩ := q
            obtain ⟨p1, p2⟩ := p
            simp only at h1 h2
            rw [h1, h2]
          · intro hn
            exact absurd (mem_modeSet.mpr ⟨hp.1, h, hp.2.2⟩) hn
        · rw [if_neg h]
          apply sum_eq_zero
          intro q hq
          rw [mem_modeSet] at hq
          rw [if_neg, mul_zero]
          rintro ⟨h1, _⟩
          omega
      rw [sum_congr rfl e, ← sum_filter]
      apply sum_congr _ fun _ _ => rfl
      ext p
      simp only [mem_filter, mem_modeSet]
      omega
    rw [diag, ← sum_sub_distrib]
    refine (norm_sum_le _ _).trans (sum_le_sum fun p hp => ?_)
    rw [← sum_sub_distrib]
    refine (norm_sum_le _ _).trans (sum_le_sum fun p' hp' => ?_)
    rw [mem_modeSet] at hp hp'
    rw [← mul_sub, norm_mul, norm_mul, Complex.norm_conj]
    exact mul_le_mul_of_nonneg_left (Yret_orth hp.1 hp.2.2 hp'.1 hp'.2.2).2 (by positivity)
  · intro r hr
    rw [mem_product, mem_modeSet, mem_modeSet] at hr
    have h1 : 0 ≤ r.1.1 := (abs_nonneg _).trans hr.1.1
    have h2 : 0 ≤ r.2.1 := (abs_nonneg _).trans hr.2.1
    refine theta_integrable (C := ‖conj (a r.1.1 r.1.2) * b r.2.1 r.2.2‖ * ((hY r.1.1 + errY r.1.1) * (hY r.2.1 + errY r.2.1))) ?_ ?_
    · exact ((Complex.continuous_conj.measurable.comp (Yret_theta_measurable _ _ _)).mul (Yret_theta_measurable _ _ _)).const_mul _
    · intro θ
      rw [norm_mul, norm_mul (conj (Yret _ _ _ _ _)), Complex.norm_conj (Yret _ _ _ _ _)]
      have := Yret_theta_norm θ s r.1.2 h1
      exact mul_le_mul_of_nonneg_left (mul_le_mul this (Yret_theta_norm θ s r.2.2 h2) (norm_nonneg _) ((norm_nonneg _).trans this)) (norm_nonneg _)

/-- The value of a function with computed harmonics as a sum over `modeSet`. -/
theorem evaluate_dir {L : ℤ} {table : List ℝ} (ht : IsWignerTable L table) (junk : ℕ → ℤ × ℤ) {f : Modes} (hf : f.WF) (hL : f.ell_max ≤ L)
    (θ φ : ℝ) {v : MIdx → ℂ} (hv : f.evaluate table junk [comps (dirQ θ φ)] = .ok [v]) (idx : MIdx) :
    v idx = ∑ p ∈ modeSet f.s f.ell_max, f.coef p.1 p.2 idx * Yret (dirA θ φ) (dirB θ φ) f.s p.1 p.2 := by
  have h := evaluate_any ht junk hf hL [dirQ θ φ] (by simpa using dirQ_unit θ φ)
  simp only [List.map_cons, List.map_nil] at h
  rw [hv] at h
  simp only [Except.ok.injEq, List.cons.injEq, and_true] at h
  rw [h, partA_dirQ, partB_dirQ]
  unfold modeSet
  rw [sum_sigma]
  symm
  apply sum_subset
  · intro l; simp only [mem_Icc]; have := abs_nonneg f.s; omega
  · intro l h1 h2
    rw [mem_Icc] at h1 h2
    apply sum_eq_zero
    intro m _
    unfold Yret
    rw [if_neg (fun h => by have := h.2; simp only at this; omega), mul_zero]

/-- `Σ |f(ell,m)| sqrt(2 ell+1)`. -/
noncomputable def sizeSum (f : Modes) (idx : MIdx) : ℝ := ∑ ell ∈ Icc |f.s| f.ell_max, ∑ m ∈ Icc (-ell) ell, ‖f.coef ell m idx‖ * Real.sqrt (2 * ell + 1)

/-- `Σ |f(ell,m)| sqrt(2 ell+1) errD(ell)`: the pole errors of C61. -/
noncomputable def poleSum (f : Modes) (idx : MIdx) : ℝ :=
  ∑ ell ∈ Icc |f.s| f.ell_max, ∑ m ∈ Icc (-ell) ell, ‖f.coef ell m idx‖ * Real.sqrt (2 * ell + 1) * errD ell

/-- **C82 (scalar products).** The integral over the sphere of `conj(f) g`, for the values returned by `evaluate`, is the sum of the products of the
mode weights, up to the pole errors. -/
theorem C82_inner {L : ℤ} {table : List ℝ} (ht : IsWignerTable L table) (junk : ℕ → ℤ × ℤ) (f g : Modes) (hf : f.WF) (hg : g.WF)
    (hs : f.s = g.s) (hfL : f.ell_max ≤ L) (hgL : g.ell_max ≤ L) (v w : ℝ → ℝ → MIdx → ℂ)
    (hv : ∀ θ φ, f.evaluate table junk [comps (dirQ θ φ)] = .ok [v θ φ]) (hw : ∀ θ φ, g.evaluate table junk [comps (dirQ θ φ)] = .ok [w θ φ])
    (i j : MIdx) :
    ‖sphInt (fun θ φ => conj (v θ φ i) * w θ φ j)
      - ∑ ell ∈ Icc |f.s| (min f.ell_max g.ell_max), ∑ m ∈ Icc (-ell) ell, conj (f.coef ell m i) * g.coef ell m j‖
      ≤ (sizeSum f i + poleSum f i) * (sizeSum g j + poleSum g j) - sizeSum f i * sizeSum g j := by
  have e1 : ∀ θ φ, v θ φ i = _ := fun θ φ => evaluate_dir ht junk hf hfL θ φ (hv θ φ) i
  have e2 : ∀ θ φ, w θ φ j = _ := fun θ φ => evaluate_dir ht junk hg hgL θ φ (hw θ φ) j
  simp only [e1, e2, ← hs]
  have := inner_any f.s f.ell_max g.ell_max (fun l m => f.coef l m i) (fun l m => g.coef l m j)
  have q : ∀ (F : ℤ → ℤ → ℂ) (s K : ℤ), ∑ p ∈ modeSet s K, F p.1 p.2 = ∑ ell ∈ Icc |s| K, ∑ m ∈ Icc (-ell) ell, F ell m := by
    intro F s K; unfold modeSet; rw [sum_sigma]
  rw [q (fun l m => conj (f.coef l m i) * g.coef l m j)] at this
  refine this.trans (le_of_eq ?_)
  have r : ∀ (F : ℤ → ℤ → ℝ) (s K : ℤ), ∑ ell ∈ Icc |s| K, ∑ m ∈ Icc (-ell) ell, F ell m = ∑ p ∈ modeSet s K, F p.1 p.2 := by
    intro F s K; unfold modeSet; rw [sum_sigma]
  unfold sizeSum poleSum
  rw [← hs, r (fun l m => ‖f.coef l m i‖ * Real.sqrt (2 * l + 1)), r (fun l m => ‖g.coef l m j‖ * Real.sqrt (2 * l + 1)),
    r (fun l m => ‖f.coef l m i‖ * Real.sqrt (2 * l + 1) * errD l), r (fun l m => ‖g.coef l m j‖ * Real.sqrt (2 * l + 1) * errD l),
    ← sum_add_distrib, ← sum_add_distrib, sum_mul_sum, sum_mul_sum, ← sum_sub_distrib]
  refine sum_congr rfl fun p _ => ?_
  rw [← sum_sub_distrib]
  refine sum_congr rfl fun p' _ => ?_
  unfold orthErr
  ring

/-- **C82 (norm).** `norm` is the L² norm over the sphere of the function that `evaluate` computes, up to the pole errors. -/
theorem C82_norm {L : ℤ} {table : List ℝ} (ht : IsWignerTable L table) (junk : ℕ → ℤ × ℤ) (f : Modes) (hf : f.WF) (hfL : f.ell_max ≤ L)
    (v : ℝ → ℝ → MIdx → ℂ) (hv : ∀ θ φ, f.evaluate table junk [comps (dirQ θ φ)] = .ok [v θ φ]) (i : MIdx) :
    ‖sphInt (fun θ φ => ((‖v θ φ i‖ ^ 2 : ℝ) : ℂ)) - ((f.norm i ^ 2 : ℝ) : ℂ)‖ ≤ (sizeSum f i + poleSum f i) ^ 2 - sizeSum f i ^ 2 := by
  have := C82_inner ht junk f f hf hf rfl hfL hfL v v hv hv i i
  rw [min_self] at this
  have e1 : ∀ z : ℂ, ((‖z‖ ^ 2 : ℝ) : ℂ) = conj z * z := fun z => by
    rw [← Complex.normSq_eq_norm_sq, Complex.normSq_eq_conj_mul_self]
  rw [norm_eq hf, Real.sq_sqrt (sum_nonneg fun _ _ => sum_nonneg fun _ _ => by positivity), pow_two (_ + _), pow_two (sizeSum f i)]
  rw [Complex.ofReal_sum]
  simp only [Complex.ofReal_sum, e1]
  exact this

/-- **C82 (mode weights are integrals).** Every mode weight is the integral over the sphere of the conjugate harmonic times the function, up to the pole
errors. -/
theorem C82_projection {L : ℤ} {table : List ℝ} (ht : IsWignerTable L table) (junk : ℕ → ℤ × ℤ) (junkY : ℕ → ℂ) (f : Modes) (hf : f.WF)
    (hfL : f.ell_max ≤ L) (v : ℝ → ℝ → MIdx → ℂ) (hv : ∀ θ φ, f.evaluate table junk [comps (dirQ θ φ)] = .ok [v θ φ]) (i : MIdx) (l m : ℤ)
    (hl : |f.s| ≤ l) (hm : |m| ≤ l) (hlL : l ≤ f.ell_max) (y : ℝ → ℝ → ℂ)
    (hy : ∀ θ φ, apiY table junkY (dirQ θ φ) f.s l m = .ok [y θ φ]) :
    ‖sphInt (fun θ φ => conj (y θ φ) * v θ φ i) - f.coef l m i‖
      ≤ Real.sqrt (2 * l + 1) * ((1 + errD l) * (sizeSum f i + poleSum f i) - sizeSum f i) := by
  have hmem : (⟨l, m⟩ : (_ : ℤ) × ℤ) ∈ modeSet f.s l := by rw [mem_modeSet]; exact ⟨hl, le_refl l, hm⟩
  have e1 : ∀ θ φ, v θ φ i = _ := fun θ φ => evaluate_dir ht junk hf hfL θ φ (hv θ φ) i
  have e : ∀ θ φ, y θ φ = ∑ p ∈ modeSet f.s l, (if p.1 = l ∧ p.2 = m then (1 : ℂ) else 0) * Yret (dirA θ φ) (dirB θ φ) f.s p.1 p.2 := fun θ φ => by
    have := hy θ φ
    rw [apiY_any ht junkY (dirQ_unit θ φ) (hlL.trans hfL), partA_dirQ, partB_dirQ] at this
    have h2 : y θ φ = Yret (dirA θ φ) (dirB θ φ) f.s l m := by simpa using this.symm
    rw [h2, sum_eq_single (⟨l, m⟩ : (_ : ℤ) × ℤ)]
    · simp
    · rintro ⟨q1, q2⟩ _ hq
      rw [if_neg, zero_mul]
      rintro ⟨rfl, rfl⟩
      exact hq rfl
    · intro hn; exact absurd hmem hn
  simp only [e1, e]
  have := inner_any f.s l f.ell_max (fun l' m' => if l' = l ∧ m' = m then 1 else 0) (fun l m => f.coef l m i)
  rw [min_eq_left hlL] at this
  have pick : ∀ F : ((_ : ℤ) × ℤ) → ℂ, ∑ p ∈ modeSet f.s l, conj (if p.1 = l ∧ p.2 = m then (1 : ℂ) else 0) * F p = F ⟨l, m⟩ := by
    intro F
    rw [sum_eq_single (⟨l, m⟩ : (_ : ℤ) × ℤ)]
    · simp
    · rintro ⟨q1, q2⟩ _ hq
      rw [if_neg, map_zero, zero_mul]
      rintro ⟨rfl, rfl⟩
      exact hq rfl
    · intro hn; exact absurd hmem hn
  rw [pick fun p => f.coef p.1 p.2 i] at this
  refine this.trans (le_of_eq ?_)
  rw [sum_eq_single (⟨l, m⟩ : (_ : ℤ) × ℤ)]
  · have r : ∀ (F : ℤ → ℤ → ℝ) (s K : ℤ), ∑ ell ∈ Icc |s| K, ∑ m ∈ Icc (-ell) ell, F ell m = ∑ p ∈ modeSet s K, F p.1 p.2 := by
      intro F s K; unfold modeSet; rw [sum_sigma]
    unfold sizeSum poleSum
    rw [r (fun l m => ‖f.coef l m i‖ * Real.sqrt (2 * l + 1)), r (fun l m => ‖f.coef l m i‖ * Real.sqrt (2 * l + 1) * errD l),
      ← sum_add_distrib, mul_sum, ← sum_sub_distrib, mul_sum]
    refine sum_congr rfl fun p' _ => ?_
    simp only [and_self, if_true, norm_one]
    unfold orthErr
    ring
  · rintro ⟨q1, q2⟩ _ hq
    apply sum_eq_zero
    intro p' _
    rw [if_neg, norm_zero, zero_mul, zero_mul]
    rintro ⟨rfl, rfl⟩
    exact hq rfl
  · intro hn; exact absurd hmem hn

/-- **C82 (uniqueness).** Two functions of the same spin weight whose computed values agree in all directions of a band `a < θ < b` that avoids the
neighbourhoods of the poles have the same mode weights: `evaluate` loses nothing.  (Modes absent from the smaller array count as zero.) -/
theorem C82_unique {L : ℤ} {table : List ℝ} (ht : IsWignerTable L table) (junk : ℕ → ℤ × ℤ) (f g : Modes) (hf : f.WF) (hg : g.WF)
    (hs : f.s = g.s) (hfL : f.ell_max ≤ L) (hgL : g.ell_max ≤ L) (i j : MIdx) (a b : ℝ) (hab : a < b)
    (hgen : ∀ θ, a < θ → θ < b → epsilon < |Real.cos (θ / 2)| ∧ epsilon < |Real.sin (θ / 2)|) (v w : ℝ → ℝ → MIdx → ℂ)
    (hv : ∀ θ φ, f.evaluate table junk [comps (dirQ θ φ)] = .ok [v θ φ]) (hw : ∀ θ φ, g.evaluate table junk [comps (dirQ θ φ)] = .ok [w θ φ])
    (heq : ∀ θ φ, a < θ → θ < b → v θ φ i = w θ φ j) (l m : ℤ) (hm : |m| ≤ l) : f.coef l m i = g.coef l m j := by
  have zf : f.ell_max < l → f.coef l m i = 0 := fun h => by rw [hf.sized.coef_of_gt hm h]
  have zg : g.ell_max < l → g.coef l m j = 0 := fun h => by rw [hg.sized.coef_of_gt hm h]
  by_cases hl : |f.s| ≤ l
  · by_cases hK : l ≤ max f.ell_max g.ell_max
    · have ext : ∀ (h : Modes) (k : MIdx), h.WF → h.s = f.s → h.ell_max ≤ max f.ell_max g.ell_max → ∀ θ φ : ℝ,
          (∑ p ∈ modeSet f.s h.ell_max, h.coef p.1 p.2 k * Yret (dirA θ φ) (dirB θ φ) f.s p.1 p.2)
            = ∑ p ∈ modeSet f.s (max f.ell_max g.ell_max), h.coef p.1 p.2 k * Yret (dirA θ φ) (dirB θ φ) f.s p.1 p.2 := by
        intro h k hh hsh hle θ φ
        apply sum_subset
        · intro p; rw [mem_modeSet, mem_modeSet]; omega
        · intro p h1 h2
          rw [mem_modeSet] at h1 h2
          rw [hh.sized.coef_of_gt h1.2.2 (by omega), zero_mul]
      have key := sYlm_unique (s := f.s) (modeSet f.s (max f.ell_max g.ell_max)) (fun p hp => by rw [mem_modeSet] at hp; exact ⟨hp.1, hp.2.2⟩)
        (fun p => f.coef p.1 p.2 i - g.coef p.1 p.2 j) hab (fun θ φ h1 h2 => by
          have e1 := evaluate_dir ht junk hf hfL θ φ (hv θ φ) i
          have e2 := evaluate_dir ht junk hg hgL θ φ (hw θ φ) j
          rw [ext f i hf rfl (le_max_left _ _)] at e1
          rw [← hs, ext g j hg hs.symm (le_max_right _ _)] at e2
          have e3 := heq θ φ h1 h2
          rw [e1, e2, ← sub_eq_zero, ← sum_sub_distrib] at e3
          rw [← e3]
          refine sum_congr rfl fun p _ => ?_
          rw [Yret_generic ⟨dir_unit θ φ, Or.inr (by rw [norm_dirA]; exact (hgen θ h1 h2).1), Or.inr (by rw [norm_dirB]; exact (hgen θ h1 h2).2)⟩]
          ring)
      have := key ⟨l, m⟩ (by rw [mem_modeSet]; exact ⟨hl, hK, hm⟩)
      exact sub_eq_zero.mp this
    · rw [zf (by omega), zg (by omega)]
  · have q1 : f.coef l m i = 0 := by
      by_cases h : l ≤ f.ell_max
      · rw [hf.low l m (by omega) hm h]
      · exact zf (by omega)
    have q2 : g.coef l m j = 0 := by
      by_cases h : l ≤ g.ell_max
      · rw [hg.low l m (by rw [← hs]; omega) hm h]
      · exact zg (by omega)
    rw [q1, q2]

/-- **C82 (size of the bound).** Up to `ell = 32`, the range of the package's tables, scalar products of harmonics are right to `10^-11`. -/
theorem C82_bound (l l' : ℤ) (h0 : 0 ≤ l) (h1 : l ≤ 32) (h0' : 0 ≤ l') (h1' : l' ≤ 32) :
    Real.sqrt (2 * l + 1) * Real.sqrt (2 * l' + 1) * (errD l + errD l' + errD l * errD l') ≤ 1 / 10 ^ 11 := by
  have b : ∀ k : ℤ, 0 ≤ k → k ≤ 32 → errD k ≤ 67 / 10 ^ 15 ∧ Real.sqrt (2 * k + 1) * Real.sqrt (2 * k + 1) ≤ 65 := by
    intro k k0 k1
    have kr : (k : ℝ) ≤ 32 := by exact_mod_cast k1
    have kr0 : (0 : ℝ) ≤ k := by exact_mod_cast k0
    have := C61_bound k k0 (by omega)
    refine ⟨?_, ?_⟩
    · unfold errD
      refine this.trans ?_
      linarith
    · rw [Real.mul_self_sqrt (by positivity)]; linarith
  obtain ⟨a1, a2⟩ := b l h0 h1
  obtain ⟨b1, b2⟩ := b l' h0' h1'
  have c1 := errD_nonneg h0
  have c2 := errD_nonneg h0'
  have c3 : Real.sqrt (2 * l + 1) * Real.sqrt (2 * l' + 1) ≤ 65 := by
    nlinarith [sq_nonneg (Real.sqrt (2 * l + 1) - Real.sqrt (2 * l' + 1))]
  have c4 : errD l * errD l' ≤ 67 / 10 ^ 15 * (67 / 10 ^ 15) := mul_le_mul a1 b1 c2 (by norm_num)
  calc _ ≤ 65 * (67 / 10 ^ 15 + 67 / 10 ^ 15 + 67 / 10 ^ 15 * (67 / 10 ^ 15) : ℝ) := by gcongr
    _ ≤ 1 / 10 ^ 11 := by norm_num

/-! ## The hypotheses can be met -/

/-- Values of the harmonics and of functions are returned in every direction. -/
example : ∃ table, IsWignerTable 32 table ∧ (∃ y : ℝ → ℝ → ℂ, ∀ θ φ, apiY table (fun _ => 0) (dirQ θ φ) (-2) 2 1 = .ok [y θ φ]) ∧
    ∃ v : ℝ → ℝ → MIdx → ℂ, ∀ θ φ, exModes.evaluate table (fun _ => (0, 0)) [comps (dirQ θ φ)] = .ok [v θ φ] := by
  obtain ⟨table, ht⟩ := IsWignerTable.exists 32 (by norm_num)
  refine ⟨table, ht, ⟨fun θ φ => _, fun θ φ => apiY_any ht _ (dirQ_unit θ φ) (by norm_num)⟩, ⟨fun θ φ => _, fun θ φ => evaluate_any ht (fun _ => (0, 0)) exModes_WF
    (show (2 : ℤ) ≤ 32 by norm_num) [dirQ θ φ] (by simpa using dirQ_unit θ φ)⟩⟩

/-- The band of the hypothesis of `C82_unique`: the northern hemisphere without a neighbourhood of the pole. -/
example : ∀ θ : ℝ, 1 < θ → θ < 3 / 2 → epsilon < |Real.cos (θ / 2)| ∧ epsilon < |Real.sin (θ / 2)| := by
  intro θ h1 h2
  have e : epsilon < 1 / 4 := by unfold epsilon; norm_num
  have c : 1 / 4 < Real.cos (θ / 2) := by
    have := Real.one_sub_sq_div_two_le_cos (x := θ / 2)
    nlinarith
  have s : 1 / 4 < Real.sin (θ / 2) := by
    have := Real.sin_gt_sub_cube (x := θ / 2) (by linarith)
    nlinarith [sq_nonneg (θ / 2), mul_pos (show (0:ℝ) < θ/2 by linarith) (show (0:ℝ) < θ/2 by linarith)]
  exact ⟨e.trans (c.trans_le (le_abs_self _)), e.trans (s.trans_le (le_abs_self _))⟩

end SF
