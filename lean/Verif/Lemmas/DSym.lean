import Verif.Lemmas.WignerD

/-! # Symmetries of the closed form, and the regimes for integer indices -/

set_option autoImplicit false

namespace SF

open Finset ComplexConjugate

theorem Dpq_eq_Ico (za zb : ℂ) (p' q' p q : ℕ) :
    Spec.Dpq za zb p' q' p q =
      (Real.sqrt ((p.factorial * q.factorial : ℝ) / (p'.factorial * q'.factorial)) : ℂ) *
        ∑ ρ ∈ Ico (q - q') (min p' q + 1), Dterm za zb p' q' q ρ := by
  rw [← sum_Dterm_range]; rfl

/-- `conj D_{m',m} = (-1)^(m'-m) D_{-m',-m}`. -/
theorem Dpq_conj (za zb : ℂ) {p' q' p q : ℕ} (hsum : p' + q' = p + q) :
    conj (Spec.Dpq za zb p' q' p q) = (-1) ^ (p' + p) * Spec.Dpq za zb q' p' q p := by
  rw [Dpq_eq_Ico, Dpq_eq_Ico, map_mul, Complex.conj_ofReal, mul_left_comm,
    mul_comm (p.factorial : ℝ), mul_comm (p'.factorial : ℝ)]
  congr 1
  rw [map_sum, Finset.mul_sum]
  apply Finset.sum_nbij' (fun ρ => ρ + q' - q) (fun σ => σ + p' - p)
  · intro ρ h; simp only [mem_Ico] at *; omega
  · intro σ h; simp only [mem_Ico] at *; omega
  · intro ρ h; simp only [mem_Ico] at *; omega
  · intro σ h; simp only [mem_Ico] at *; omega
  · intro ρ h
    simp only [mem_Ico] at h
    unfold Dterm
    have c1 : p'.choose (p - (ρ + q' - q)) = p'.choose ρ := by
      rw [← Nat.choose_symm (show ρ ≤ p' by omega)]; congr 1; omega
    have c2 : q'.choose (ρ + q' - q) = q'.choose (q - ρ) := by
      rw [← Nat.choose_symm (show q - ρ ≤ q' by omega)]; congr 1; omega
    rw [c1, c2]
    have e1 : q' - (ρ + q' - q) = q - ρ := by omega
    have e2 : p - (ρ + q' - q) = p' - ρ := by omega
    have e3 : p' - (p' - ρ) = ρ := by omega
    have e4 : q' - (q - ρ) = ρ + q' - q := by omega
    rw [e1, e2, e3, e4]
    simp only [map_mul, map_pow, map_neg, map_one, Complex.conj_conj, map_natCast]
    have es : (-1 : ℂ) ^ ρ = (-1) ^ (p' + p) * (-1) ^ (ρ + q' - q) := by
      rw [← pow_add, neg_one_pow_iffC, neg_one_pow_iffC]
      have : (p' + p + (ρ + q' - q)) % 2 = ρ % 2 := by omega
      rw [this]
    rw [es]
    ring

/-- `D_{m',m}(R⁻¹) = conj D_{m,m'}(R)`; `R⁻¹` has the complex parts `conj Ra`, `-Rb`. -/
theorem Dpq_inv (za zb : ℂ) {p' q' p q : ℕ} (hsum : p' + q' = p + q) :
    Spec.Dpq (conj za) (-zb) p' q' p q = conj (Spec.Dpq za zb p q p' q') := by
  rw [Dpq_eq_Ico, Dpq_eq_Ico, map_mul, Complex.conj_ofReal, map_sum, Finset.mul_sum, Finset.mul_sum]
  apply Finset.sum_nbij' (fun ρ => ρ + q' - q) (fun σ => σ + q - q')
  · intro ρ h; simp only [mem_Ico] at *; omega
  · intro σ h; simp only [mem_Ico] at *; omega
  · intro ρ h; simp only [mem_Ico] at *; omega
  · intro σ h; simp only [mem_Ico] at *; omega
  · intro ρ h
    simp only [mem_Ico] at h
    unfold Dterm
    have e1 : p - (ρ + q' - q) = p' - ρ := by omega
    have e2 : q' - (ρ + q' - q) = q - ρ := by omega
    have e3 : q - (q - ρ) = ρ := by omega
    have e4 : q' - (q - ρ) = ρ + q' - q := by omega
    rw [e1, e2, e3, e4]
    simp only [map_mul, map_pow, map_neg, map_one, Complex.conj_conj, map_natCast]
    have hc : (Real.sqrt ((p.factorial * q.factorial : ℝ) / (p'.factorial * q'.factorial)))
        * (p'.choose ρ * q'.choose (q - ρ))
        = Real.sqrt ((p'.factorial * q'.factorial : ℝ) / (p.factorial * q.factorial))
        * (p.choose (ρ + q' - q) * q.choose (q - ρ)) := by
      have f1 : (p'.choose ρ : ℝ) = p'.factorial / (ρ.factorial * (p' - ρ).factorial) :=
        Nat.cast_choose ℝ (by omega)
      have f2 : (q'.choose (q - ρ) : ℝ)
          = q'.factorial / ((q - ρ).factorial * (ρ + q' - q).factorial) := by
        rw [Nat.cast_choose ℝ (show q - ρ ≤ q' by omega)]
        congr 3; congr 1
      have f3 : (p.choose (ρ + q' - q) : ℝ)
          = p.factorial / ((ρ + q' - q).factorial * (p' - ρ).factorial) := by
        rw [Nat.cast_choose ℝ (show ρ + q' - q ≤ p by omega)]
        congr 3; congr 1
      have f4 : (q.choose (q - ρ) : ℝ) = q.factorial / ((q - ρ).factorial * ρ.factorial) := by
        rw [Nat.cast_choose ℝ (show q - ρ ≤ q by omega)]
        congr 3; congr 1
      rw [f1, f2, f3, f4]
      have hs : Real.sqrt ((p.factorial * q.factorial : ℝ) / (p'.factorial * q'.factorial))
          * (p'.factorial * q'.factorial)
        = Real.sqrt ((p'.factorial * q'.factorial : ℝ) / (p.factorial * q.factorial))
          * (p.factorial * q.factorial) := by
        have hA : (0 : ℝ) < p.factorial * q.factorial := by positivity
        have hB : (0 : ℝ) < p'.factorial * q'.factorial := by positivity
        generalize (p.factorial * q.factorial : ℝ) = A at *
        generalize (p'.factorial * q'.factorial : ℝ) = B at *
        have sA := Real.sqrt_ne_zero'.mpr hA
        have sB := Real.sqrt_ne_zero'.mpr hB
        rw [Real.sqrt_div hA.le, Real.sqrt_div hB.le]
        have a2 := Real.mul_self_sqrt hA.le
        have b2 := Real.mul_self_sqrt hB.le
        field_simp
        nlinarith
      field_simp
      linear_combination hs
    have hc' := congrArg (fun x : ℝ => (x : ℂ)) hc
    push_cast at hc'
    have es : (-1 : ℂ) ^ ρ * (-zb) ^ (ρ + q' - q) * (-conj zb) ^ ρ
        = (-1) ^ (ρ + q' - q) * zb ^ (ρ + q' - q) * (conj zb) ^ ρ := by
      rw [neg_pow zb, neg_pow (conj zb)]
      have : ((-1 : ℂ) ^ ρ) * (-1) ^ ρ = 1 := by rw [← mul_pow]; simp
      linear_combination (zb ^ (ρ + q' - q) * (conj zb) ^ ρ * (-1) ^ (ρ + q' - q)) * this
    linear_combination (conj za ^ (p' - ρ) * za ^ (q - ρ)) *
        ((-1 : ℂ) ^ ρ * (-zb) ^ (ρ + q' - q) * (-conj zb) ^ ρ) * hc'
      + (Real.sqrt ((p'.factorial * q'.factorial : ℝ) / (p.factorial * q.factorial)) : ℂ)
        * (p.choose (ρ + q' - q) * q.choose (q - ρ)) * (conj za ^ (p' - ρ) * za ^ (q - ρ)) * es

theorem arg_conj' (z : ℂ) :
    conj z = (‖conj z‖ : ℂ) * Complex.exp ((-Complex.arg z : ℝ) * Complex.I) := by
  conv_lhs => rw [argI z]
  rw [map_mul, Complex.conj_ofReal, ← Complex.exp_conj, Complex.norm_conj]
  congr 2
  simp

theorem arg_neg' (z : ℂ) :
    -z = (‖-z‖ : ℂ) * Complex.exp ((Complex.arg z + Real.pi : ℝ) * Complex.I) := by
  conv_lhs => rw [argI z]
  rw [norm_neg]
  push_cast
  rw [add_mul, Complex.exp_add, Complex.exp_pi_mul_I]
  ring

theorem int_pq {ell mp m : ℤ} (h1 : |mp| ≤ ell) (h2 : |m| ≤ ell) :
    ∃ p' q' p q : ℕ, p' + q' = p + q ∧ ell + mp = p' ∧ ell - mp = q' ∧ ell + m = p ∧ ell - m = q := by
  rw [abs_le] at h1 h2
  exact ⟨(ell + mp).toNat, (ell - mp).toNat, (ell + m).toNat, (ell - m).toNat, by omega, by omega,
    by omega, by omega, by omega⟩

/-- Regime `ra >= rb` for integer indices; also the value for the inverse rotor. -/
theorem intA {L : ℤ} {table : List ℝ} (ht : IsWignerTable L table) {Ra Rb : ℂ} (ha : Ra ≠ 0)
    {ell mp m : ℤ} (h1 : |mp| ≤ ell) (h2 : |m| ≤ ell) (hle : ell ≤ L) :
    ∃ c S : ℝ, Wigner_coefficient table ell mp m = .ok c ∧
      hornerLoop (-‖Rb‖ * ‖Rb‖ / (‖Ra‖ * ‖Ra‖)) (ell + mp + 1) (ell - m + 1) (m - mp)
        (min (ell + mp) (ell - m)) (max 0 (mp - m)) = .ok S ∧
      ∀ d : ℝ, d = (if max 0 (mp - m) % 2 ≠ 0 then -1 else 1) *
        (c * ‖Ra‖ ^ (2 * ell - m + mp - 2 * max 0 (mp - m)) * ‖Rb‖ ^ (m - mp + 2 * max 0 (mp - m))) →
        rect d (Complex.arg Ra * ((m + mp : ℤ) : ℝ) + Complex.arg Rb * ((m - mp : ℤ) : ℝ)) * (S : ℂ)
          = Spec.wignerD Ra Rb (2 * ell) (2 * mp) (2 * m) ∧
        rect d (-Complex.arg Ra * ((m + mp : ℤ) : ℝ) + (Complex.arg Rb + Real.pi) * ((m - mp : ℤ) : ℝ)) * (S : ℂ)
          = Spec.wignerD (conj Ra) (-Rb) (2 * ell) (2 * mp) (2 * m) := by
  obtain ⟨p', q', p, q, hsum, g1, g2, g3, g4⟩ := int_pq h1 h2
  have hc := coeff_int ht g1 g2 g3 g4 hle
  have hrho : max 0 (mp - m) = ((p' - p : ℕ) : ℤ) := by omega
  have hmax : min (ell + mp) (ell - m) = ((min p' q : ℕ) : ℤ) := by omega
  have e1 : 2 * ell - m + mp - 2 * ((p' - p : ℕ) : ℤ) = ((p' + q - 2 * (p' - p) : ℕ) : ℤ) := by omega
  have e2 : m - mp + 2 * ((p' - p : ℕ) : ℤ) = ((q' - q + 2 * (p' - p) - (q - q') : ℕ) : ℤ) := by omega
  have e3 : ((m + mp : ℤ) : ℝ) = (p' : ℝ) - q := by
    have : m + mp = (p' : ℤ) - q := by omega
    rw [this]; push_cast; rfl
  have e4 : ((m - mp : ℤ) : ℝ) = (q' : ℝ) - q := by
    have : m - mp = (q' : ℤ) - q := by omega
    rw [this]; push_cast; rfl
  have es : (if ((p' - p : ℕ) : ℤ) % 2 ≠ 0 then (-1 : ℝ) else 1) = (-1) ^ (p' - p) := by
    rw [neg_one_pow_iff]
    split_ifs <;> first | rfl | omega
  obtain ⟨S, hS, hv⟩ := regA (zb := Rb) ha hsum (argI Ra) (argI Rb) (N1 := ell + mp + 1)
    (N2 := ell - m + 1) (M := m - mp) (rhoMax := min (ell + mp) (ell - m)) (rhoMin := max 0 (mp - m))
    (by omega) (by omega) (by omega) (by omega) hrho rfl rfl
  have hca : conj Ra ≠ 0 := by simpa using ha
  obtain ⟨S', hS', hv'⟩ := regA (zb := -Rb) hca hsum (arg_conj' Ra) (arg_neg' Rb) (N1 := ell + mp + 1)
    (N2 := ell - m + 1) (M := m - mp) (rhoMax := min (ell + mp) (ell - m)) (rhoMin := max 0 (mp - m))
    (by omega) (by omega) (by omega) (by omega) hrho rfl rfl
  rw [Complex.norm_conj, norm_neg] at hS' hv'
  rw [hS] at hS'
  obtain rfl := Except.ok.inj hS'
  refine ⟨Wcoef p' q' p q, S, hc, hS, ?_⟩
  intro d hd
  rw [hrho, e1, e2, zpow_natCast, zpow_natCast, es] at hd
  subst hd
  rw [wignerD_pq Ra Rb hsum (by omega) (by omega) (by omega),
    wignerD_pq (conj Ra) (-Rb) hsum (by omega) (by omega) (by omega), ← hv, ← hv', e3, e4]
  exact ⟨rfl, rfl⟩

/-- Regime `ra < rb` for integer indices. -/
theorem intB {L : ℤ} {table : List ℝ} (ht : IsWignerTable L table) {Ra Rb : ℂ} (hb : Rb ≠ 0)
    {ell mp m : ℤ} (h1 : |mp| ≤ ell) (h2 : |m| ≤ ell) (hle : ell ≤ L) :
    ∃ c S : ℝ, Wigner_coefficient table ell (-mp : ℚ) m = .ok c ∧
      hornerLoop (-‖Ra‖ * ‖Ra‖ / (‖Rb‖ * ‖Rb‖)) (ell - mp + 1) (ell - m + 1) (m + mp)
        (min (ell - mp) (ell - m)) (max 0 (-mp - m)) = .ok S ∧
      ∀ d : ℝ, d = (if (ell + m + max 0 (-mp - m)) % 2 ≠ 0 then -1 else 1) *
        (c * ‖Rb‖ ^ (2 * ell - m - mp - 2 * max 0 (-mp - m)) * ‖Ra‖ ^ (m + mp + 2 * max 0 (-mp - m))) →
        rect d (Complex.arg Rb * ((m - mp : ℤ) : ℝ) + Complex.arg Ra * ((m + mp : ℤ) : ℝ)) * (S : ℂ)
          = Spec.wignerD Ra Rb (2 * ell) (2 * mp) (2 * m) ∧
        rect d ((Complex.arg Rb + Real.pi) * ((m - mp : ℤ) : ℝ) + -Complex.arg Ra * ((m + mp : ℤ) : ℝ)) * (S : ℂ)
          = Spec.wignerD (conj Ra) (-Rb) (2 * ell) (2 * mp) (2 * m) := by
  obtain ⟨p', q', p, q, hsum, g1, g2, g3, g4⟩ := int_pq h1 h2
  have hc := coeff_int ht (p' := q') (q' := p') (ell := ell) (mp := -mp) (m := m) (by omega) (by omega)
    g3 g4 hle
  push_cast at hc
  have hrho : max 0 (-mp - m) = ((q' - p : ℕ) : ℤ) := by omega
  have e1 : 2 * ell - m - mp - 2 * ((q' - p : ℕ) : ℤ) = ((q' + q - 2 * (q' - p) : ℕ) : ℤ) := by omega
  have e2 : m + mp + 2 * ((q' - p : ℕ) : ℤ) = ((p' - q + 2 * (q' - p) - (q - p') : ℕ) : ℤ) := by omega
  have e3 : ((m + mp : ℤ) : ℝ) = (p' : ℝ) - q := by
    have : m + mp = (p' : ℤ) - q := by omega
    rw [this]; push_cast; rfl
  have e4 : ((m - mp : ℤ) : ℝ) = (q' : ℝ) - q := by
    have : m - mp = (q' : ℤ) - q := by omega
    rw [this]; push_cast; rfl
  have es : (if (ell + m + ((q' - p : ℕ) : ℤ)) % 2 ≠ 0 then (-1 : ℝ) else 1) = (-1) ^ q * (-1) ^ (q' - p) := by
    rw [← pow_add, neg_one_pow_iff]
    split_ifs <;> first | rfl | omega
  obtain ⟨S, hS, hv⟩ := regB (za := Ra) hb hsum (argI Ra) (argI Rb) (N1 := ell - mp + 1)
    (N2 := ell - m + 1) (M := m + mp) (rhoMax := min (ell - mp) (ell - m)) (rhoMin := max 0 (-mp - m))
    (by omega) (by omega) (by omega) (by omega) hrho rfl rfl
  have hcb : -Rb ≠ 0 := by simpa using hb
  obtain ⟨S', hS', hv'⟩ := regB (za := conj Ra) hcb hsum (arg_conj' Ra) (arg_neg' Rb) (N1 := ell - mp + 1)
    (N2 := ell - m + 1) (M := m + mp) (rhoMax := min (ell - mp) (ell - m)) (rhoMin := max 0 (-mp - m))
    (by omega) (by omega) (by omega) (by omega) hrho rfl rfl
  rw [Complex.norm_conj, norm_neg] at hS' hv'
  rw [hS] at hS'
  obtain rfl := Except.ok.inj hS'
  refine ⟨Wcoef q' p' p q, S, hc, hS, ?_⟩
  intro d hd
  rw [hrho, e1, e2, zpow_natCast, zpow_natCast, es, mul_assoc] at hd
  subst hd
  rw [wignerD_pq Ra Rb hsum (by omega) (by omega) (by omega),
    wignerD_pq (conj Ra) (-Rb) hsum (by omega) (by omega) (by omega), ← hv, ← hv', e3, e4]
  exact ⟨rfl, rfl⟩

end SF
