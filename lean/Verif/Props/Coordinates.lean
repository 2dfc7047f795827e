import Verif.Spec.Coordinates
import Verif.Props.Sphere
import Verif.Props.Lie

/-!
# Property C83: the operators of `Modes` are the differential operators in spherical coordinates

`v θ φ` is what `evaluate` returns at the rotor `dirQ θ φ` with Euler angles `(φ, θ, 0)`.
-/

set_option autoImplicit false

namespace SF

open Finset ComplexConjugate Quaternion Topology Spec

theorem dirQ_comps (θ φ : ℝ) : dirQ θ φ = mkQ (Real.cos (θ / 2) * Real.cos (φ / 2)) (-Real.sin (θ / 2) * Real.sin (φ / 2))
    (Real.sin (θ / 2) * Real.cos (φ / 2)) (Real.cos (θ / 2) * Real.sin (φ / 2)) := by
  unfold dirQ from_euler_angles
  simp

theorem mkQ_mul (a b c d a' b' c' d' : ℝ) : mkQ a b c d * mkQ a' b' c' d' = mkQ (a * a' - b * b' - c * c' - d * d')
    (a * b' + b * a' + c * d' - d * c') (a * c' - b * d' + c * a' + d * b') (a * d' + b * c' - c * b' + d * a') := by
  ext <;> simp

theorem dirQ_theta (θ φ t : ℝ) : dirQ θ φ * NormedSpace.exp (t • mkQ 0 0 1 0) = dirQ (θ + 2 * t) φ := by
  rw [exp_generator (by norm_num), dirQ_comps, dirQ_comps, mkQ_mul, show (θ + 2 * t) / 2 = θ / 2 + t by ring, Real.cos_add, Real.sin_add]
  congr 1 <;> ring

theorem dirQ_phi (θ φ t : ℝ) : NormedSpace.exp (t • mkQ 0 0 0 1) * dirQ θ φ = dirQ θ (φ + 2 * t) := by
  rw [exp_generator (by norm_num), dirQ_comps, dirQ_comps, mkQ_mul, show (φ + 2 * t) / 2 = φ / 2 + t by ring, Real.cos_add, Real.sin_add]
  congr 1 <;> ring

/-- A left rotation about `(x,y,z)` is a right rotation about its components in the frame of `dirQ θ φ`. -/
theorem dirQ_left (θ φ t : ℝ) {x y z : ℝ} (h : x ^ 2 + y ^ 2 + z ^ 2 = 1) :
    NormedSpace.exp (t • mkQ 0 x y z) * dirQ θ φ = dirQ θ φ * NormedSpace.exp (t • mkQ 0
      (x * (Real.cos φ * Real.cos θ) + y * (Real.sin φ * Real.cos θ) - z * Real.sin θ) (-x * Real.sin φ + y * Real.cos φ)
      (x * (Real.cos φ * Real.sin θ) + y * (Real.sin φ * Real.sin θ) + z * Real.cos θ)) := by
  have p1 := Real.sin_sq_add_cos_sq θ
  have p2 := Real.sin_sq_add_cos_sq φ
  rw [exp_generator h, exp_generator (by
    linear_combination (x * Real.cos φ + y * Real.sin φ) ^ 2 * p1 + z ^ 2 * p1 + (x ^ 2 + y ^ 2) * p2 + h), dirQ_comps, mkQ_mul, mkQ_mul]
  have c1 : Real.cos θ = 2 * Real.cos (θ / 2) ^ 2 - 1 := by rw [← Real.cos_two_mul]; congr 1; ring
  have s1 : Real.sin θ = 2 * Real.sin (θ / 2) * Real.cos (θ / 2) := by rw [← Real.sin_two_mul]; congr 1; ring
  have c2 : Real.cos φ = 2 * Real.cos (φ / 2) ^ 2 - 1 := by rw [← Real.cos_two_mul]; congr 1; ring
  have s2 : Real.sin φ = 2 * Real.sin (φ / 2) * Real.cos (φ / 2) := by rw [← Real.sin_two_mul]; congr 1; ring
  have q1 : Real.sin (θ / 2) ^ 2 = 1 - Real.cos (θ / 2) ^ 2 := by have := Real.sin_sq_add_cos_sq (θ / 2); linarith
  have q2 : Real.sin (φ / 2) ^ 2 = 1 - Real.cos (φ / 2) ^ 2 := by have := Real.sin_sq_add_cos_sq (φ / 2); linarith
  rw [c1, s1, c2, s2]
  generalize Real.cos (θ / 2) = a at *
  generalize Real.sin (θ / 2) = b at *
  generalize Real.cos (φ / 2) = c at *
  generalize Real.sin (φ / 2) = d at *
  generalize Real.sin t = u
  generalize Real.cos t = w
  congr 1
  all_goals clear c1 s1 c2 s2 p1 p2 h
  all_goals grind

/-! ## Derivatives of the function defined by the mode weights -/

section

variable {f gz gp gm lz lp lm : Modes} (hf : f.WF) (z1 : f.Rz = .ok gz) (p1 : f.Rplus = .ok gp) (m1 : f.Rminus = .ok gm)

theorem fv_Rz (hf : f.WF) (z1 : f.Rz = .ok gz) (Q : ℍ[ℝ]) (idx : MIdx) : fv gz Q idx = -(f.s : ℂ) * fv f Q idx := by
  obtain ⟨g, e1, e2⟩ := Rz_ok hf
  obtain rfl := Except.ok.inj (z1.symm.trans e1)
  unfold fv; rw [e2.hs, e2.hL]
  unfold fieldValue
  rw [mul_sum]
  refine sum_congr rfl fun ell h1 => ?_
  rw [mul_sum]
  refine sum_congr rfl fun m h2 => ?_
  rw [mem_Icc] at h1 h2
  beta_reduce
  rw [e2.coef ell m h1.1 (abs_le.mpr h2) h1.2]
  ring

include hf z1 p1 m1

theorem right_deriv {x y z : ℝ} (hu : x ^ 2 + y ^ 2 + z ^ 2 = 1) (Q : ℍ[ℝ]) (idx : MIdx) :
    HasDerivAt (fun t : ℝ => fv f (Q * NormedSpace.exp (t • mkQ 0 x y z)) idx)
        (-Complex.I * x * (fv gp Q idx + fv gm Q idx) - y * (fv gm Q idx - fv gp Q idx) - 2 * Complex.I * z * f.s * fv f Q idx) 0 := by
  obtain ⟨gz', gp', gm', e1, e2, e3, e4⟩ := C38_right_all_generators hf hu Q idx
  obtain rfl := Except.ok.inj (z1.symm.trans e1)
  obtain rfl := Except.ok.inj (p1.symm.trans e2)
  obtain rfl := Except.ok.inj (m1.symm.trans e3)
  refine e4.congr_deriv ?_
  rw [fv_Rz hf z1]
  field_simp
  ring

theorem theta_deriv (θ φ : ℝ) (idx : MIdx) : HasDerivAt (fun t : ℝ => fv f (dirQ t φ) idx) ((fv gp (dirQ θ φ) idx - fv gm (dirQ θ φ) idx) / 2) θ := by
  have h := right_deriv hf z1 p1 m1 (x := 0) (y := 1) (z := 0) (by norm_num) (dirQ θ φ) idx
  simp only [dirQ_theta] at h
  have k : HasDerivAt (fun u : ℝ => (u - θ) / 2) (1 / 2) θ := ((hasDerivAt_id θ).sub_const θ).div_const 2
  have := h.scomp_of_eq θ k (by ring)
  have e : (fun t : ℝ => fv f (dirQ (θ + 2 * t) φ) idx) ∘ (fun u : ℝ => (u - θ) / 2) = fun t : ℝ => fv f (dirQ t φ) idx := by
    funext u
    simp only [Function.comp]
    rw [show θ + 2 * ((u - θ) / 2) = u by ring]
  rw [e] at this
  refine this.congr_deriv ?_
  rw [Complex.real_smul]
  push_cast
  ring

theorem left_eq {x y z : ℝ} (hu : x ^ 2 + y ^ 2 + z ^ 2 = 1) (lz1 : f.Lz = .ok lz) (lp1 : f.Lplus = .ok lp) (lm1 : f.Lminus = .ok lm) (θ φ : ℝ)
    (idx : MIdx) :
    Complex.I * x * (fv lp (dirQ θ φ) idx + fv lm (dirQ θ φ) idx) + y * (fv lp (dirQ θ φ) idx - fv lm (dirQ θ φ) idx)
      + 2 * Complex.I * z * fv lz (dirQ θ φ) idx
      = -Complex.I * (x * (Real.cos φ * Real.cos θ) + y * (Real.sin φ * Real.cos θ) - z * Real.sin θ)
          * (fv gp (dirQ θ φ) idx + fv gm (dirQ θ φ) idx)
        - (-x * Real.sin φ + y * Real.cos φ) * (fv gm (dirQ θ φ) idx - fv gp (dirQ θ φ) idx)
        - 2 * Complex.I * (x * (Real.cos φ * Real.sin θ) + y * (Real.sin φ * Real.sin θ) + z * Real.cos θ) * f.s * fv f (dirQ θ φ) idx := by
  obtain ⟨gz', gp', gm', e1, e2, e3, e4⟩ := C38_left_all_generators hf hu (dirQ θ φ) idx
  obtain rfl := Except.ok.inj (lz1.symm.trans e1)
  obtain rfl := Except.ok.inj (lp1.symm.trans e2)
  obtain rfl := Except.ok.inj (lm1.symm.trans e3)
  have q1 := Real.sin_sq_add_cos_sq θ
  have q2 := Real.sin_sq_add_cos_sq φ
  simp only [dirQ_left θ φ _ hu] at e4
  have h := e4.unique (right_deriv hf z1 p1 m1 (by
    linear_combination (x * Real.cos φ + y * Real.sin φ) ^ 2 * q1 + z ^ 2 * q1 + (x ^ 2 + y ^ 2) * q2 + hu) (dirQ θ φ) idx)
  push_cast at h ⊢
  rw [← h]
  field_simp

theorem phi_deriv (lz1 : f.Lz = .ok lz) (θ φ : ℝ) (idx : MIdx) :
    HasDerivAt (fun t : ℝ => fv f (dirQ θ t) idx) (Complex.I * fv lz (dirQ θ φ) idx) φ ∧
    Complex.I * fv lz (dirQ θ φ) idx = Complex.I * (Real.sin θ * ((fv gp (dirQ θ φ) idx + fv gm (dirQ θ φ) idx) / 2)
      - f.s * Real.cos θ * fv f (dirQ θ φ) idx) := by
  obtain ⟨lz', lp, lm, e1, e2, e3, e4⟩ := C38_left_all_generators hf (x := 0) (y := 0) (z := 1) (by norm_num) (dirQ θ φ) idx
  obtain rfl := Except.ok.inj (lz1.symm.trans e1)
  constructor
  · simp only [dirQ_phi] at e4
    have k : HasDerivAt (fun u : ℝ => (u - φ) / 2) (1 / 2) φ := ((hasDerivAt_id φ).sub_const φ).div_const 2
    have := e4.scomp_of_eq φ k (by ring)
    have e : (fun t : ℝ => fv f (dirQ θ (φ + 2 * t)) idx) ∘ (fun u : ℝ => (u - φ) / 2) = fun t : ℝ => fv f (dirQ θ t) idx := by
      funext u
      simp only [Function.comp]
      rw [show φ + 2 * ((u - φ) / 2) = u by ring]
    rw [e] at this
    refine this.congr_deriv ?_
    rw [Complex.real_smul]
    push_cast
    ring
  · have h := left_eq hf z1 p1 m1 (x := 0) (y := 0) (z := 1) (by norm_num) lz1 e2 e3 θ φ idx
    push_cast at h ⊢
    linear_combination (1 / 2) * h

end

/-! ## The operators, for the function defined by the mode weights -/

theorem sin_zpow_deriv {θ : ℝ} (h : Real.sin θ ≠ 0) (n : ℤ) :
    HasDerivAt (fun t : ℝ => (Real.sin t : ℂ) ^ n) (n * (Real.sin θ : ℂ) ^ n * (Real.cos θ / Real.sin θ)) θ := by
  have h1 : HasDerivAt (fun t : ℝ => (Real.sin t : ℂ)) (Real.cos θ : ℂ) θ := (Real.hasDerivAt_sin θ).ofReal_comp
  have hc : (Real.sin θ : ℂ) ≠ 0 := by exact_mod_cast h
  have h2 := (hasDerivAt_zpow n (Real.sin θ : ℂ) (Or.inl hc)).comp θ h1
  refine h2.congr_deriv ?_
  rw [zpow_sub_one₀ hc]
  field_simp

/-- `-(sin θ)^s (∂_θ + (i/sin θ) ∂_φ)((sin θ)^(-s) F) = -(∂_θ F + (i/sin θ) ∂_φ F - s cot θ F)`. -/
theorem ethOp_eq {F : ℝ → ℝ → ℂ} {θ φ : ℝ} (h : Real.sin θ ≠ 0) {dt dp : ℂ} (h1 : HasDerivAt (fun t => F t φ) dt θ)
    (h2 : HasDerivAt (fun t => F θ t) dp φ) (s : ℤ) :
    ethOp s F θ φ = -(dt + Complex.I / Real.sin θ * dp - s * (Real.cos θ / Real.sin θ) * F θ φ) := by
  have hc : (Real.sin θ : ℂ) ≠ 0 := by exact_mod_cast h
  unfold ethOp dTheta dPhi
  rw [((sin_zpow_deriv h (-s)).fun_mul h1).deriv, (h2.const_mul _).deriv]
  have : (Real.sin θ : ℂ) ^ s * (Real.sin θ : ℂ) ^ (-s) = 1 := by rw [← zpow_add₀ hc]; simp
  push_cast at this ⊢
  linear_combination (-(dt + Complex.I / Complex.sin θ * dp - s * (Complex.cos θ / Complex.sin θ) * F θ φ)) * this

theorem ethbarOp_eq {F : ℝ → ℝ → ℂ} {θ φ : ℝ} (h : Real.sin θ ≠ 0) {dt dp : ℂ} (h1 : HasDerivAt (fun t => F t φ) dt θ)
    (h2 : HasDerivAt (fun t => F θ t) dp φ) (s : ℤ) :
    ethbarOp s F θ φ = -(dt - Complex.I / Real.sin θ * dp + s * (Real.cos θ / Real.sin θ) * F θ φ) := by
  have hc : (Real.sin θ : ℂ) ≠ 0 := by exact_mod_cast h
  unfold ethbarOp dTheta dPhi
  rw [((sin_zpow_deriv h s).fun_mul h1).deriv, (h2.const_mul _).deriv]
  have : (Real.sin θ : ℂ) ^ (-s) * (Real.sin θ : ℂ) ^ s = 1 := by rw [← zpow_add₀ hc]; simp
  push_cast at this ⊢
  linear_combination (-(dt - Complex.I / Complex.sin θ * dp + s * (Complex.cos θ / Complex.sin θ) * F θ φ)) * this

section

variable {f g : Modes} (hf : f.WF) {θ : ℝ} (hθ : Real.sin θ ≠ 0) (φ : ℝ) (idx : MIdx)
include hf

theorem fv_Lz (hg : f.Lz = .ok g) (θ : ℝ) : fv g (dirQ θ φ) idx = LzOp (fun θ φ => fv f (dirQ θ φ) idx) θ φ := by
  obtain ⟨gz, z1, -⟩ := Rz_ok hf
  obtain ⟨gp, p1, -⟩ := Rplus_ok hf
  obtain ⟨gm, m1, -⟩ := Rminus_ok hf
  unfold LzOp dPhi
  rw [(phi_deriv hf z1 p1 m1 hg θ φ idx).1.deriv]
  linear_combination fv g (dirQ θ φ) idx * Complex.I_mul_I

include hθ

theorem fv_eth (hg : f.eth = .ok g) : fv g (dirQ θ φ) idx = ethOp f.s (fun θ φ => fv f (dirQ θ φ) idx) θ φ := by
  obtain ⟨gz, z1, -⟩ := Rz_ok hf
  obtain ⟨gp, p1, -⟩ := Rplus_ok hf
  obtain ⟨lz, lz1, -⟩ := Lz_ok hf
  have hc : (Real.sin θ : ℂ) ≠ 0 := by exact_mod_cast hθ
  obtain ⟨k1, k2⟩ := phi_deriv hf z1 p1 hg lz1 θ φ idx
  rw [ethOp_eq hθ (theta_deriv hf z1 p1 hg θ φ idx) k1, k2]
  field_simp
  linear_combination (Real.sin θ * ((fv gp (dirQ θ φ) idx + fv g (dirQ θ φ) idx)) - 2 * f.s * Real.cos θ * fv f (dirQ θ φ) idx) * Complex.I_sq

theorem fv_ethbar (hg : f.ethbar = .ok g) : fv g (dirQ θ φ) idx = ethbarOp f.s (fun θ φ => fv f (dirQ θ φ) idx) θ φ := by
  obtain ⟨gz, z1, -⟩ := Rz_ok hf
  obtain ⟨gp, p1, p2⟩ := Rplus_ok hf
  obtain ⟨gm, m1, -⟩ := Rminus_ok hf
  obtain ⟨lz, lz1, -⟩ := Lz_ok hf
  obtain ⟨g', g1, g2⟩ := ethbar_ok hf
  obtain rfl := Except.ok.inj (hg.symm.trans g1)
  have hv : fv g (dirQ θ φ) idx = -fv gp (dirQ θ φ) idx := by
    unfold fv; rw [g2.hs, g2.hL, p2.hs, p2.hL]
    unfold Spec.fieldValue
    rw [← Finset.sum_neg_distrib]
    apply Finset.sum_congr rfl
    intro ell h1
    rw [← Finset.sum_neg_distrib]
    apply Finset.sum_congr rfl
    intro m h2
    rw [mem_Icc] at h1 h2
    beta_reduce
    rw [g2.coef ell m h1.1 (abs_le.mpr h2) h1.2, p2.coef ell m h1.1 (abs_le.mpr h2) h1.2]
    ring
  have hc : (Real.sin θ : ℂ) ≠ 0 := by exact_mod_cast hθ
  obtain ⟨k1, k2⟩ := phi_deriv hf z1 p1 m1 lz1 θ φ idx
  rw [hv, ethbarOp_eq hθ (theta_deriv hf z1 p1 m1 θ φ idx) k1, k2]
  field_simp
  linear_combination (-(Real.sin θ * ((fv gp (dirQ θ φ) idx + fv gm (dirQ θ φ) idx)) - 2 * f.s * Real.cos θ * fv f (dirQ θ φ) idx)) * Complex.I_sq

theorem fv_Lplus (hg : f.Lplus = .ok g) : fv g (dirQ θ φ) idx = LladderOp 1 f.s (fun θ φ => fv f (dirQ θ φ) idx) θ φ := by
  obtain ⟨gz, z1, -⟩ := Rz_ok hf
  obtain ⟨gp, p1, p2⟩ := Rplus_ok hf
  obtain ⟨gm, m1, -⟩ := Rminus_ok hf
  obtain ⟨lz, lz1, -⟩ := Lz_ok hf
  obtain ⟨lm, lm1, -⟩ := Lminus_ok hf
  have hc : Complex.sin θ ≠ 0 := by exact_mod_cast hθ
  obtain ⟨k1, k2⟩ := phi_deriv hf z1 p1 m1 lz1 θ φ idx
  have x1 := left_eq hf z1 p1 m1 (x := 1) (y := 0) (z := 0) (by norm_num) lz1 hg lm1 θ φ idx
  have x2 := left_eq hf z1 p1 m1 (x := 0) (y := 1) (z := 0) (by norm_num) lz1 hg lm1 θ φ idx
  have q1 : Complex.sin θ ^ 2 + Complex.cos θ ^ 2 = 1 := Complex.sin_sq_add_cos_sq θ
  have ex : Complex.exp (Complex.I * (((1 : ℝ) : ℂ) * φ)) = Complex.cos φ + Complex.sin φ * Complex.I := by
    rw [← Complex.exp_mul_I]; congr 1; push_cast; ring
  unfold LladderOp
  unfold dTheta dPhi
  rw [(theta_deriv hf z1 p1 m1 θ φ idx).deriv, k1.deriv, k2, ex]
  push_cast at x1 x2 ⊢
  generalize fv gp (dirQ θ φ) idx = P at *
  generalize fv gm (dirQ θ φ) idx = M at *
  generalize fv f (dirQ θ φ) idx = F at *
  generalize fv g (dirQ θ φ) idx = G at *
  generalize fv lm (dirQ θ φ) idx = H at *
  generalize Complex.sin θ = S at *
  generalize Complex.cos θ = C at *
  generalize Complex.sin φ = S' at *
  generalize Complex.cos φ = C' at *
  have i2 := Complex.I_mul_I
  generalize Complex.I = J at *
  generalize (f.s : ℂ) = s at *
  simp only [mul_one, one_mul, mul_zero, zero_mul, add_zero, zero_add, sub_zero, neg_zero, neg_mul] at x1 x2
  clear k1 k2 ex p2 z1 p1 m1 lz1 hg
  have x1' : G + H = -(C' * C * (P + M)) - J * S' * (M - P) - 2 * (C' * S) * s * F := by
    linear_combination (-J) * x1 + (G + H + C' * C * (P + M) + 2 * C' * S * s * F) * i2
  field_simp
  linear_combination S * (x1' + x2) + (C' + S' * J) * (-C * S * (P + M) + 2 * s * F * C ^ 2) * i2 - 2 * (C' + S' * J) * s * F * q1

theorem fv_Lminus (hg : f.Lminus = .ok g) : fv g (dirQ θ φ) idx = LladderOp (-1) f.s (fun θ φ => fv f (dirQ θ φ) idx) θ φ := by
  obtain ⟨gz, z1, -⟩ := Rz_ok hf
  obtain ⟨gp, p1, p2⟩ := Rplus_ok hf
  obtain ⟨gm, m1, -⟩ := Rminus_ok hf
  obtain ⟨lz, lz1, -⟩ := Lz_ok hf
  obtain ⟨lp, lp1, -⟩ := Lplus_ok hf
  have hc : Complex.sin θ ≠ 0 := by exact_mod_cast hθ
  obtain ⟨k1, k2⟩ := phi_deriv hf z1 p1 m1 lz1 θ φ idx
  have x1 := left_eq hf z1 p1 m1 (x := 1) (y := 0) (z := 0) (by norm_num) lz1 lp1 hg θ φ idx
  have x2 := left_eq hf z1 p1 m1 (x := 0) (y := 1) (z := 0) (by norm_num) lz1 lp1 hg θ φ idx
  have q1 : Complex.sin θ ^ 2 + Complex.cos θ ^ 2 = 1 := Complex.sin_sq_add_cos_sq θ
  have ex : Complex.exp (Complex.I * (((-1 : ℝ) : ℂ) * φ)) = Complex.cos φ - Complex.sin φ * Complex.I := by
    have := Complex.exp_mul_I (-(φ : ℂ))
    rw [Complex.cos_neg, Complex.sin_neg] at this
    rw [show Complex.I * (((-1 : ℝ) : ℂ) * φ) = -(φ : ℂ) * Complex.I by push_cast; ring, this]; ring
  unfold LladderOp
  unfold dTheta dPhi
  rw [(theta_deriv hf z1 p1 m1 θ φ idx).deriv, k1.deriv, k2, ex]
  push_cast at x1 x2 ⊢
  generalize fv gp (dirQ θ φ) idx = P at *
  generalize fv gm (dirQ θ φ) idx = M at *
  generalize fv f (dirQ θ φ) idx = F at *
  generalize fv g (dirQ θ φ) idx = G at *
  generalize fv lp (dirQ θ φ) idx = H at *
  generalize Complex.sin θ = S at *
  generalize Complex.cos θ = C at *
  generalize Complex.sin φ = S' at *
  generalize Complex.cos φ = C' at *
  have i2 := Complex.I_mul_I
  generalize Complex.I = J at *
  generalize (f.s : ℂ) = s at *
  simp only [mul_one, one_mul, mul_zero, zero_mul, add_zero, zero_add, sub_zero, neg_zero, neg_mul] at x1 x2
  clear k1 k2 ex p2 z1 p1 m1 lz1 hg
  have x1' : H + G = -(C' * C * (P + M)) - J * S' * (M - P) - 2 * (C' * S) * s * F := by
    linear_combination (-J) * x1 + (H + G + C' * C * (P + M) + 2 * C' * S * s * F) * i2
  field_simp
  linear_combination S * (x1' - x2) + (C' - S' * J) * (-C * S * (P + M) + 2 * s * F * C ^ 2) * i2 - 2 * (C' - S' * J) * s * F * q1

end

/-! ## The Casimir operator -/

theorem fv_opRes {f g : Modes} {s : ℤ} {T : ℤ → ℤ → Slice} (h : OpRes f g s T) (Q : ℍ[ℝ]) (idx : MIdx) :
    fv g Q idx = fieldValue s f.ell_max (fun ell m => T ell m idx) (partA Q) (partB Q) := by
  unfold fv; rw [h.hs, h.hL]
  exact fieldValue_congr _ _ fun ell m a1 a2 a3 => by rw [h.coef ell m a1 a2 a3]

theorem fieldValue_comb (s L : ℤ) (c d : ℤ → ℤ → ℂ) (a b Ra Rb : ℂ) :
    fieldValue s L (fun l m => a * c l m + b * d l m) Ra Rb = a * fieldValue s L c Ra Rb + b * fieldValue s L d Ra Rb := by
  unfold fieldValue
  rw [mul_sum, mul_sum, ← sum_add_distrib]
  refine sum_congr rfl fun l _ => ?_
  rw [mul_sum, mul_sum, ← sum_add_distrib]
  refine sum_congr rfl fun m _ => ?_
  ring

/-- `½ (R+ R- f + R- R+ f) = L² f - s² f`. -/
theorem casimir {f gp gm gmp gpm l2 : Modes} (hf : f.WF) (h1 : f.Rplus = .ok gp) (h2 : f.Rminus = .ok gm) (h3 : gp.Rminus = .ok gmp)
    (h4 : gm.Rplus = .ok gpm) (h5 : f.Lsquared = .ok l2) (Q : ℍ[ℝ]) (idx : MIdx) :
    fv gmp Q idx + fv gpm Q idx = 2 * (fv l2 Q idx - f.s ^ 2 * fv f Q idx) := by
  obtain ⟨p, p1, p2⟩ := (OpRes.refl hf).Rplus
  obtain rfl := Except.ok.inj (h1.symm.trans p1)
  obtain ⟨m, m1, m2⟩ := (OpRes.refl hf).Rminus
  obtain rfl := Except.ok.inj (h2.symm.trans m1)
  obtain ⟨a, a1, a2⟩ := p2.Rminus
  obtain rfl := Except.ok.inj (h3.symm.trans a1)
  obtain ⟨b, b1, b2⟩ := m2.Rplus
  obtain rfl := Except.ok.inj (h4.symm.trans b1)
  obtain ⟨c, c1, c2⟩ := (OpRes.refl hf).Lsquared
  obtain rfl := Except.ok.inj (h5.symm.trans c1)
  rw [sub_add_cancel] at a2
  rw [add_sub_cancel_right] at b2
  rw [fv_opRes a2, fv_opRes b2, fv_opRes c2, fv_opRes (OpRes.refl hf)]
  have e1 := fieldValue_comb f.s f.ell_max (fun l m => ((l * (l + 1) : ℤ) : ℂ) * f.coef l m idx) (fun l m => f.coef l m idx) 2 (-2 * f.s ^ 2)
    (partA Q) (partB Q)
  have e2 := fieldValue_comb f.s f.ell_max (fun ell m => isqrtC ((ell + f.s) * (ell - f.s + 1)) * if |f.s - 1| ≤ ell then
      isqrtC ((ell - (f.s - 1)) * (ell + (f.s - 1) + 1)) * (if |f.s| ≤ ell then f.coef ell m idx else 0) else 0)
    (fun ell m => isqrtC ((ell - f.s) * (ell + f.s + 1)) * if |f.s + 1| ≤ ell then
      isqrtC ((ell + (f.s + 1)) * (ell - (f.s + 1) + 1)) * (if |f.s| ≤ ell then f.coef ell m idx else 0) else 0) 1 1
    (partA Q) (partB Q)
  rw [one_mul, one_mul] at e2
  refine e2.symm.trans (Eq.trans ?_ (e1.trans (by ring)))
  refine fieldValue_congr _ _ fun ell m k1 k2 k3 => ?_
  rw [if_pos k1]
  have k4 := abs_le.mp k1
  have t1 : (isqrtC ((ell + f.s) * (ell - f.s + 1)) * if |f.s - 1| ≤ ell then
      isqrtC ((ell - (f.s - 1)) * (ell + (f.s - 1) + 1)) * f.coef ell m idx else 0) = (((ell + f.s) * (ell - f.s + 1) : ℤ) : ℂ) * f.coef ell m idx := by
    split_ifs with h
    · rw [isqrtC_congr (show (ell - (f.s - 1)) * (ell + (f.s - 1) + 1) = (ell + f.s) * (ell - f.s + 1) by ring), ← mul_assoc,
        isqrtC_mul_self (mul_nonneg (by omega) (by omega))]
    · have : ell + f.s = 0 := by rw [abs_le] at h; omega
      rw [this]; simp
  have t2 : (isqrtC ((ell - f.s) * (ell + f.s + 1)) * if |f.s + 1| ≤ ell then
      isqrtC ((ell + (f.s + 1)) * (ell - (f.s + 1) + 1)) * f.coef ell m idx else 0) = (((ell - f.s) * (ell + f.s + 1) : ℤ) : ℂ) * f.coef ell m idx := by
    split_ifs with h
    · rw [isqrtC_congr (show (ell + (f.s + 1)) * (ell - (f.s + 1) + 1) = (ell - f.s) * (ell + f.s + 1) by ring), ← mul_assoc,
        isqrtC_mul_self (mul_nonneg (by omega) (by omega))]
    · have : ell - f.s = 0 := by rw [abs_le] at h; omega
      rw [this]; simp
  rw [t1, t2]
  push_cast
  ring

theorem fv_Lsquared {f g : Modes} (hf : f.WF) {θ : ℝ} (hθ : Real.sin θ ≠ 0) (φ : ℝ) (idx : MIdx) (hg : f.Lsquared = .ok g) :
    fv g (dirQ θ φ) idx = LsquaredOp f.s (fun θ φ => fv f (dirQ θ φ) idx) θ φ := by
  obtain ⟨gz, z1, -⟩ := Rz_ok hf
  obtain ⟨gp, p1, p2⟩ := Rplus_ok hf
  obtain ⟨gm, m1, m2⟩ := Rminus_ok hf
  obtain ⟨lz, lz1, lz2⟩ := Lz_ok hf
  obtain ⟨pz, pz1, -⟩ := Rz_ok p2.wf
  obtain ⟨mz, mz1, -⟩ := Rz_ok m2.wf
  obtain ⟨pp, pp1, -⟩ := Rplus_ok p2.wf
  obtain ⟨mp, mp1, -⟩ := Rminus_ok p2.wf
  obtain ⟨pm, pm1, -⟩ := Rplus_ok m2.wf
  obtain ⟨mm, mm1, -⟩ := Rminus_ok m2.wf
  obtain ⟨plz, plz1, -⟩ := Lz_ok p2.wf
  obtain ⟨mlz, mlz1, -⟩ := Lz_ok m2.wf
  have hc : (Real.sin θ : ℂ) ≠ 0 := by exact_mod_cast hθ
  have cas := casimir hf p1 m1 mp1 pm1 hg (dirQ θ φ) idx
  -- ∂_φ² F
  have f1 : ∀ φ, dPhi (fun θ φ => fv f (dirQ θ φ) idx) θ φ = Complex.I * fv lz (dirQ θ φ) idx := fun φ =>
    (phi_deriv hf z1 p1 m1 lz1 θ φ idx).1.deriv
  have f2 : ∀ θ φ, dTheta (fun θ φ => fv f (dirQ θ φ) idx) θ φ = (fv gp (dirQ θ φ) idx - fv gm (dirQ θ φ) idx) / 2 := fun θ φ =>
    (theta_deriv hf z1 p1 m1 θ φ idx).deriv
  obtain ⟨a1, a2⟩ := phi_deriv p2.wf pz1 pp1 mp1 plz1 θ φ idx
  obtain ⟨b1, b2⟩ := phi_deriv m2.wf mz1 pm1 mm1 mlz1 θ φ idx
  rw [p2.hs] at a2
  rw [m2.hs] at b2
  have f3 : dPhi (dPhi fun θ φ => fv f (dirQ θ φ) idx) θ φ
      = Complex.I * (Real.sin θ * ((Complex.I * fv plz (dirQ θ φ) idx + Complex.I * fv mlz (dirQ θ φ) idx) / 2)
        - f.s * Real.cos θ * (Complex.I * fv lz (dirQ θ φ) idx)) := by
    unfold dPhi
    refine HasDerivAt.deriv ?_
    have e : (fun t => deriv (fun t => fv f (dirQ θ t) idx) t) = fun t => Complex.I * (Real.sin θ * ((fv gp (dirQ θ t) idx + fv gm (dirQ θ t) idx) / 2)
        - f.s * Real.cos θ * fv f (dirQ θ t) idx) := by
      funext t
      rw [← (phi_deriv hf z1 p1 m1 lz1 θ t idx).2]
      exact f1 t
    rw [e]
    exact ((((a1.add b1).div_const 2).const_mul _).sub ((phi_deriv hf z1 p1 m1 lz1 θ φ idx).1.const_mul _)).const_mul _
  have f4 : dTheta (fun θ φ => Real.sin θ * dTheta (fun θ φ => fv f (dirQ θ φ) idx) θ φ) θ φ
      = Real.cos θ * ((fv gp (dirQ θ φ) idx - fv gm (dirQ θ φ) idx) / 2) + Real.sin θ *
        (((fv pp (dirQ θ φ) idx - fv mp (dirQ θ φ) idx) / 2 - (fv pm (dirQ θ φ) idx - fv mm (dirQ θ φ) idx) / 2) / 2) := by
    simp only [f2]
    unfold dTheta
    refine HasDerivAt.deriv ?_
    exact ((Real.hasDerivAt_sin θ).ofReal_comp).mul
      (((theta_deriv p2.wf pz1 pp1 mp1 θ φ idx).sub (theta_deriv m2.wf mz1 pm1 mm1 θ φ idx)).div_const 2)
  have k := (phi_deriv hf z1 p1 m1 lz1 θ φ idx).2
  unfold LsquaredOp
  rw [f3, f4, f1]
  have q1 : (Real.sin θ : ℂ) ^ 2 + (Real.cos θ : ℂ) ^ 2 = 1 := by exact_mod_cast Real.sin_sq_add_cos_sq θ
  rw [a2, b2, k]
  push_cast at q1 hc ⊢
  have i2 := Complex.I_sq
  generalize fv gp (dirQ θ φ) idx = P at *
  generalize fv gm (dirQ θ φ) idx = M at *
  generalize fv f (dirQ θ φ) idx = F at *
  generalize fv g (dirQ θ φ) idx = G at *
  generalize fv pp (dirQ θ φ) idx = PP at *
  generalize fv mp (dirQ θ φ) idx = MP at *
  generalize fv pm (dirQ θ φ) idx = PM at *
  generalize fv mm (dirQ θ φ) idx = MM at *
  generalize Complex.sin θ = S at *
  generalize Complex.cos θ = C at *
  generalize Complex.I = J at *
  generalize (f.s : ℂ) = s at *
  clear a1 b1 a2 b2 k f1 f2 f3 f4 z1 p1 p2 m1 m2 lz1 lz2 pz1 mz1 pp1 mp1 pm1 mm1 plz1 mlz1 hg
  have hG : G = (MP + PM) / 2 + s ^ 2 * F := by linear_combination -(1 / 2) * cas
  rw [hG]
  field_simp
  grind

/-! ## The theorems, for the values that `evaluate` returns -/

/-- The directions outside the neighbourhoods of the poles in which the code replaces the rotor by its limit. -/
def OffAxis (θ : ℝ) : Prop := epsilon < |Real.cos (θ / 2)| ∧ epsilon < |Real.sin (θ / 2)|

/-- `f.evaluate` returns `v θ φ` in the direction with polar angle `θ` and azimuth `φ`. -/
def Computed (table : List ℝ) (junk : ℕ → ℤ × ℤ) (f : Modes) (v : ℝ → ℝ → Slice) : Prop := ∀ θ φ, HasValue table junk f (dirQ θ φ) (v θ φ)

theorem offAxis_open : IsOpen {θ | OffAxis θ} := by
  unfold OffAxis
  have h1 : IsOpen {θ : ℝ | epsilon < |Real.cos (θ / 2)|} := isOpen_lt continuous_const (by fun_prop)
  have h2 : IsOpen {θ : ℝ | epsilon < |Real.sin (θ / 2)|} := isOpen_lt continuous_const (by fun_prop)
  exact h1.inter h2

theorem OffAxis.sin_ne {θ : ℝ} (h : OffAxis θ) : Real.sin θ ≠ 0 := by
  have e : Real.sin θ = 2 * Real.sin (θ / 2) * Real.cos (θ / 2) := by rw [← Real.sin_two_mul]; congr 1; ring
  have h1 : Real.cos (θ / 2) ≠ 0 := fun hc => by have := h.1; rw [hc, abs_zero] at this; linarith [epsilon_pos]
  have h2 : Real.sin (θ / 2) ≠ 0 := fun hc => by have := h.2; rw [hc, abs_zero] at this; linarith [epsilon_pos]
  rw [e]; positivity

theorem Computed.eq {L : ℤ} {table : List ℝ} (ht : IsWignerTable L table) {junk : ℕ → ℤ × ℤ} {f : Modes} (hf : f.WF) (hL : f.ell_max ≤ L)
    {v : ℝ → ℝ → Slice} (hv : Computed table junk f v) {θ : ℝ} (h : OffAxis θ) (φ : ℝ) : v θ φ = fv f (dirQ θ φ) := by
  have hg : GenericQ (dirQ θ φ) := ⟨by rw [partA_dirQ, partB_dirQ]; exact dir_unit θ φ, Or.inr (by rw [partA_dirQ, norm_dirA]; exact h.1),
    Or.inr (by rw [partB_dirQ, norm_dirB]; exact h.2)⟩
  have := (hv θ φ).symm.trans (hasValue ht junk hf hL hg)
  exact List.head_eq_of_cons_eq (Except.ok.inj this)

section

variable {U : Set ℝ} (hU : IsOpen U) {F G : ℝ → ℝ → ℂ} (h : ∀ θ ∈ U, ∀ φ, F θ φ = G θ φ)

include h in
theorem dPhi_congr : ∀ θ ∈ U, ∀ φ, dPhi F θ φ = dPhi G θ φ := by
  intro θ hθ φ
  unfold dPhi
  rw [show (fun t => F θ t) = fun t => G θ t from funext fun t => h θ hθ t]

include hU h in
theorem dTheta_congr : ∀ θ ∈ U, ∀ φ, dTheta F θ φ = dTheta G θ φ := by
  intro θ hθ φ
  unfold dTheta
  apply Filter.EventuallyEq.deriv_eq
  filter_upwards [hU.mem_nhds hθ] with t ht
  exact h t ht φ

end

section

variable {L : ℤ} {table : List ℝ} (ht : IsWignerTable L table) (junk : ℕ → ℤ × ℤ) {f : Modes} (hf : f.WF)
  (hL : f.ell_max ≤ L) {v : ℝ → ℝ → Slice} (hv : Computed table junk f v) (idx : MIdx)
include ht hf hL

/-- Every Modes object within the limit of the table can be evaluated in every direction. -/
theorem C83_computed : ∃ v, Computed table junk f v := by
  exact ⟨fun θ φ => _, fun θ φ => evaluate_any ht junk hf hL [dirQ θ φ] (by simpa using dirQ_unit θ φ)⟩

include hv

theorem Computed.on : ∀ θ ∈ {θ | OffAxis θ}, ∀ φ, v θ φ idx = fv f (dirQ θ φ) idx := fun θ hθ φ => by
  rw [hv.eq ht hf hL hθ φ]

/-- **C83 (smoothness).** The computed function and its first derivatives are differentiable outside the neighbourhoods of the poles. -/
theorem C83_differentiable {θ : ℝ} (hθ : OffAxis θ) (φ : ℝ) :
    DifferentiableAt ℝ (fun t => v t φ idx) θ ∧ DifferentiableAt ℝ (fun t => v θ t idx) φ ∧
    DifferentiableAt ℝ (fun t => dTheta (fun θ φ => v θ φ idx) t φ) θ ∧ DifferentiableAt ℝ (fun t => dPhi (fun θ φ => v θ φ idx) θ t) φ := by
  have on := Computed.on ht junk hf hL hv idx
  obtain ⟨gz, z1, -⟩ := Rz_ok hf
  obtain ⟨gp, p1, p2⟩ := Rplus_ok hf
  obtain ⟨gm, m1, m2⟩ := Rminus_ok hf
  obtain ⟨lz, lz1, lz2⟩ := Lz_ok hf
  obtain ⟨pz, pz1, -⟩ := Rz_ok p2.wf
  obtain ⟨mz, mz1, -⟩ := Rz_ok m2.wf
  obtain ⟨pp, pp1, -⟩ := Rplus_ok p2.wf
  obtain ⟨mp, mp1, -⟩ := Rminus_ok p2.wf
  obtain ⟨pm, pm1, -⟩ := Rplus_ok m2.wf
  obtain ⟨mm, mm1, -⟩ := Rminus_ok m2.wf
  obtain ⟨kz, kz1, -⟩ := Rz_ok lz2.wf
  obtain ⟨kp, kp1, -⟩ := Rplus_ok lz2.wf
  obtain ⟨km, km1, -⟩ := Rminus_ok lz2.wf
  obtain ⟨k, k1, -⟩ := Lz_ok lz2.wf
  have near : ∀ᶠ t in 𝓝 θ, OffAxis t := offAxis_open.mem_nhds hθ
  refine ⟨?_, ?_, ?_, ?_⟩
  · refine (theta_deriv hf z1 p1 m1 θ φ idx).differentiableAt.congr_of_eventuallyEq ?_
    filter_upwards [near] with t ht using on t ht φ
  · rw [show (fun t => v θ t idx) = _ from funext fun t => on θ hθ t]
    exact (phi_deriv hf z1 p1 m1 lz1 θ φ idx).1.differentiableAt
  · refine (((theta_deriv p2.wf pz1 pp1 mp1 θ φ idx).fun_sub (theta_deriv m2.wf mz1 pm1 mm1 θ φ idx)).div_const 2).differentiableAt.congr_of_eventuallyEq ?_
    filter_upwards [near] with t ht
    rw [dTheta_congr offAxis_open on t ht φ]
    exact (theta_deriv hf z1 p1 m1 t φ idx).deriv
  · rw [show (fun t => dPhi (fun θ φ => v θ φ idx) θ t) = fun t => Complex.I * fv lz (dirQ θ t) idx from funext fun t => by
      rw [dPhi_congr on θ hθ t]; exact (phi_deriv hf z1 p1 m1 lz1 θ t idx).1.deriv]
    exact ((phi_deriv lz2.wf kz1 kp1 km1 k1 θ φ idx).1.const_mul _).differentiableAt

variable {g : Modes} {w : ℝ → ℝ → Slice} (hw : Computed table junk g w) {θ : ℝ} (hθ : OffAxis θ) (φ : ℝ)
include hw hθ

/-- **C83.** `f.eth` is the operator `ð` of Newman and Penrose. -/
theorem C83_eth (hg : f.eth = .ok g) : w θ φ idx = ethOp f.s (fun θ φ => v θ φ idx) θ φ := by
  have on := Computed.on ht junk hf hL hv idx
  obtain ⟨g', g1, g2⟩ := Rminus_ok hf
  obtain rfl := Except.ok.inj (hg.symm.trans g1)
  rw [hw.eq ht g2.wf (by rw [g2.hL]; exact hL) hθ, fv_eth hf hθ.sin_ne φ idx hg]
  unfold ethOp
  have on' : ∀ θ ∈ {θ | OffAxis θ}, ∀ φ, (Real.sin θ : ℂ) ^ (-f.s) * v θ φ idx = (Real.sin θ : ℂ) ^ (-f.s) * fv f (dirQ θ φ) idx :=
    fun θ h φ => by rw [on θ h φ]
  rw [dTheta_congr offAxis_open on' θ hθ, dPhi_congr on' θ hθ]

/-- **C83.** `f.ethbar` is the operator `ð̄`. -/
theorem C83_ethbar (hg : f.ethbar = .ok g) : w θ φ idx = ethbarOp f.s (fun θ φ => v θ φ idx) θ φ := by
  have on := Computed.on ht junk hf hL hv idx
  obtain ⟨g', g1, g2⟩ := ethbar_ok hf
  obtain rfl := Except.ok.inj (hg.symm.trans g1)
  rw [hw.eq ht g2.wf (by rw [g2.hL]; exact hL) hθ, fv_ethbar hf hθ.sin_ne φ idx hg]
  unfold ethbarOp
  have on' : ∀ θ ∈ {θ | OffAxis θ}, ∀ φ, (Real.sin θ : ℂ) ^ f.s * v θ φ idx = (Real.sin θ : ℂ) ^ f.s * fv f (dirQ θ φ) idx :=
    fun θ h φ => by rw [on θ h φ]
  rw [dTheta_congr offAxis_open on' θ hθ, dPhi_congr on' θ hθ]

/-- **C83.** `f.Lz` is `-i ∂_φ`. -/
theorem C83_Lz (hg : f.Lz = .ok g) : w θ φ idx = LzOp (fun θ φ => v θ φ idx) θ φ := by
  have on := Computed.on ht junk hf hL hv idx
  obtain ⟨g', g1, g2⟩ := Lz_ok hf
  obtain rfl := Except.ok.inj (hg.symm.trans g1)
  rw [hw.eq ht g2.wf (by rw [g2.hL]; exact hL) hθ, fv_Lz hf φ idx hg]
  unfold LzOp
  rw [dPhi_congr on θ hθ]

/-- **C83.** `f.Lplus` is `e^{iφ} (∂_θ + i cot θ ∂_φ - s / sin θ)`. -/
theorem C83_Lplus (hg : f.Lplus = .ok g) : w θ φ idx = LladderOp 1 f.s (fun θ φ => v θ φ idx) θ φ := by
  have on := Computed.on ht junk hf hL hv idx
  obtain ⟨g', g1, g2⟩ := Lplus_ok hf
  obtain rfl := Except.ok.inj (hg.symm.trans g1)
  rw [hw.eq ht g2.wf (by rw [g2.hL]; exact hL) hθ, fv_Lplus hf hθ.sin_ne φ idx hg]
  unfold LladderOp
  rw [dTheta_congr offAxis_open on θ hθ, dPhi_congr on θ hθ]
  beta_reduce
  rw [on θ hθ]

/-- **C83.** `f.Lminus` is `e^{-iφ} (-∂_θ + i cot θ ∂_φ - s / sin θ)`. -/
theorem C83_Lminus (hg : f.Lminus = .ok g) : w θ φ idx = LladderOp (-1) f.s (fun θ φ => v θ φ idx) θ φ := by
  have on := Computed.on ht junk hf hL hv idx
  obtain ⟨g', g1, g2⟩ := Lminus_ok hf
  obtain rfl := Except.ok.inj (hg.symm.trans g1)
  rw [hw.eq ht g2.wf (by rw [g2.hL]; exact hL) hθ, fv_Lminus hf hθ.sin_ne φ idx hg]
  unfold LladderOp
  rw [dTheta_congr offAxis_open on θ hθ, dPhi_congr on θ hθ]
  beta_reduce
  rw [on θ hθ]

/-- **C83.** `f.Lsquared` is the angular part of the Laplace operator on functions of spin weight `s`, with the opposite sign. -/
theorem C83_Lsquared (hg : f.Lsquared = .ok g) : w θ φ idx = LsquaredOp f.s (fun θ φ => v θ φ idx) θ φ := by
  have on := Computed.on ht junk hf hL hv idx
  obtain ⟨g', g1, g2⟩ := Lsquared_ok hf
  obtain rfl := Except.ok.inj (hg.symm.trans g1)
  rw [hw.eq ht g2.wf (by rw [g2.hL]; exact hL) hθ, fv_Lsquared hf hθ.sin_ne φ idx hg]
  unfold LsquaredOp
  have on1 := dPhi_congr on
  have on2 := dTheta_congr offAxis_open on
  have on3 : ∀ θ ∈ {θ | OffAxis θ}, ∀ φ, (Real.sin θ : ℂ) * dTheta (fun θ φ => v θ φ idx) θ φ
      = (Real.sin θ : ℂ) * dTheta (fun θ φ => fv f (dirQ θ φ) idx) θ φ := fun θ h φ => by rw [on2 θ h φ]
  rw [dTheta_congr offAxis_open on3 θ hθ, dPhi_congr on1 θ hθ, on1 θ hθ]
  beta_reduce
  rw [on θ hθ]

end

/-- Non-vacuity: `eth` of an object of spin weight `-1`, in the direction `θ = 1`, `φ = 2`. -/
example : ∃ table v g w, IsWignerTable 32 table ∧ Computed table (fun _ => (0, 0)) exModes v ∧ exModes.eth = .ok g ∧
    Computed table (fun _ => (0, 0)) g w ∧ OffAxis 1 ∧ w 1 2 [0] = ethOp (-1) (fun θ φ => v θ φ [0]) 1 2 := by
  obtain ⟨table, ht⟩ := IsWignerTable.exists 32 (by norm_num)
  have hL : exModes.ell_max ≤ 32 := by decide
  obtain ⟨v, hv⟩ := C83_computed ht (fun _ => (0, 0)) exModes_WF hL
  obtain ⟨g, g1, g2⟩ := Rminus_ok exModes_WF
  obtain ⟨w, hw⟩ := C83_computed ht (fun _ => (0, 0)) g2.wf (by rw [g2.hL]; exact hL)
  have hθ : OffAxis 1 := by
    have e : epsilon < 1 / 4 := by unfold epsilon; norm_num
    have c : 1 / 4 < Real.cos (1 / 2) := by
      have := Real.one_sub_sq_div_two_le_cos (x := 1 / 2)
      nlinarith
    have s : 1 / 4 < Real.sin (1 / 2) := by
      have := Real.sin_gt_sub_cube (x := 1 / 2) (by norm_num)
      nlinarith
    exact ⟨e.trans (c.trans_le (le_abs_self _)), e.trans (s.trans_le (le_abs_self _))⟩
  exact ⟨table, v, g, w, ht, hv, g1, hw, hθ, C83_eth ht _ exModes_WF hL hv [0] hw hθ 2 g1⟩

end SF
