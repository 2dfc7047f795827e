import Verif.Model.PowersFloat
import Mathlib.Analysis.InnerProductSpace.PiL2

/-! # Rounding errors of the recurrence in `complex_powers` -/

set_option autoImplicit false

namespace SF

open Complex

theorem norm_le_of_components {u : ℝ} (hu : 0 ≤ u) {a z : ℂ} (h1 : |a.re| ≤ u * |z.re|) (h2 : |a.im| ≤ u * |z.im|) : ‖a‖ ≤ u * ‖z‖ := by
  apply le_of_sq_le_sq _ (by positivity)
  rw [mul_pow, ← Complex.normSq_eq_norm_sq, ← Complex.normSq_eq_norm_sq, Complex.normSq_apply, Complex.normSq_apply]
  have e1 : a.re ^ 2 ≤ (u * |z.re|) ^ 2 := by rw [← sq_abs]; exact pow_le_pow_left₀ (abs_nonneg _) h1 2
  have e2 : a.im ^ 2 ≤ (u * |z.im|) ^ 2 := by rw [← sq_abs]; exact pow_le_pow_left₀ (abs_nonneg _) h2 2
  rw [mul_pow, sq_abs] at e1 e2
  nlinarith

section
variable {u : ℝ} {F : PowOps} (hF : F.Std u)
include hF

theorem caddP_err (x y : ℂ) : ‖caddP F x y - (x + y)‖ ≤ u * ‖x + y‖ :=
  norm_le_of_components hF.u_nonneg (hF.add _ _) (hF.add _ _)

theorem rsmulP_err (t : ℝ) (z : ℂ) : ‖rsmulP F t z - t * z‖ ≤ u * (|t| * ‖z‖) := by
  have := norm_le_of_components (a := rsmulP F t z - t * z) (z := t * z) hF.u_nonneg
    (by have := hF.mul t z.re; unfold RelErr at this; simpa [rsmulP] using this)
    (by have := hF.mul t z.im; unfold RelErr at this; simpa [rsmulP] using this)
  rwa [norm_mul, Complex.norm_real, Real.norm_eq_abs] at this

end

/-! ## The invariant norm of the recurrence -/

/-- The vector whose length is conserved by `(z, d) ↦ (z + d, d - q² (z + d))`. -/
noncomputable def pvec (q : ℝ) (e d : ℂ) : EuclideanSpace ℂ (Fin 2) :=
  !₂[d + (q ^ 2 / 2 : ℝ) * e, (q * Real.sqrt (1 - q ^ 2 / 4) : ℝ) * e]

/-- Its length. -/
noncomputable def pnorm (q : ℝ) (e d : ℂ) : ℝ := ‖pvec q e d‖

theorem pnorm_sq (q : ℝ) (e d : ℂ) :
    pnorm q e d ^ 2 = ‖d + (q ^ 2 / 2 : ℝ) * e‖ ^ 2 + ‖((q * Real.sqrt (1 - q ^ 2 / 4) : ℝ) : ℂ) * e‖ ^ 2 := by
  unfold pnorm pvec
  rw [EuclideanSpace.norm_sq_eq, Fin.sum_univ_two]
  rfl

theorem pnorm_nonneg (q : ℝ) (e d : ℂ) : 0 ≤ pnorm q e d := norm_nonneg _

theorem pnorm_add (q : ℝ) (e d e' d' : ℂ) : pnorm q (e + e') (d + d') ≤ pnorm q e d + pnorm q e' d' := by
  unfold pnorm
  have : pvec q (e + e') (d + d') = pvec q e d + pvec q e' d' := by
    ext i
    fin_cases i <;> simp [pvec] <;> ring
  rw [this]
  exact norm_add_le _ _

/-- The explicit form. -/
theorem pnorm_sq' {q : ℝ} (hq : q ^ 2 ≤ 3) (e d : ℂ) :
    pnorm q e d ^ 2 = normSq d + q ^ 2 * (e.re * d.re + e.im * d.im) + q ^ 2 * normSq e := by
  rw [pnorm_sq, ← Complex.normSq_eq_norm_sq, ← Complex.normSq_eq_norm_sq]
  have hs : Real.sqrt (1 - q ^ 2 / 4) ^ 2 = 1 - q ^ 2 / 4 := Real.sq_sqrt (by linarith)
  rw [normSq_mul, normSq_ofReal, mul_mul_mul_comm, ← pow_two (Real.sqrt _), hs]
  simp only [normSq_apply, add_re, add_im, mul_re, mul_im, ofReal_re, ofReal_im]
  ring

theorem pnorm_step {q : ℝ} (hq : q ^ 2 ≤ 3) (e d : ℂ) : pnorm q (e + d) (d - (q ^ 2 : ℝ) * (e + d)) = pnorm q e d := by
  have h : pnorm q (e + d) (d - (q ^ 2 : ℝ) * (e + d)) ^ 2 = pnorm q e d ^ 2 := by
    rw [pnorm_sq' hq, pnorm_sq' hq]
    simp only [normSq_apply, add_re, add_im, sub_re, sub_im, mul_re, mul_im, ofReal_re, ofReal_im]
    ring
  exact (pow_left_inj₀ (pnorm_nonneg _ _ _) (pnorm_nonneg _ _ _) (by norm_num)).mp h

theorem le_pnorm_d {q : ℝ} (hq : q ^ 2 ≤ 3) (e d : ℂ) : ‖d‖ ≤ 2 * pnorm q e d := by
  apply le_of_sq_le_sq _ (by have := pnorm_nonneg q e d; positivity)
  rw [mul_pow, pnorm_sq' hq, ← normSq_eq_norm_sq]
  simp only [normSq_apply]
  have h0 : 0 ≤ q ^ 2 := by positivity
  nlinarith [mul_nonneg h0 (sq_nonneg (e.re + d.re / 2)), mul_nonneg h0 (sq_nonneg (e.im + d.im / 2)), sq_nonneg d.re, sq_nonneg d.im,
    mul_nonneg (sub_nonneg.mpr hq) (sq_nonneg d.re), mul_nonneg (sub_nonneg.mpr hq) (sq_nonneg d.im)]

theorem le_pnorm_e {q : ℝ} (hq0 : 0 ≤ q) (hq : q ^ 2 ≤ 3) (e d : ℂ) : q * ‖e‖ ≤ 2 * pnorm q e d := by
  apply le_of_sq_le_sq _ (by have := pnorm_nonneg q e d; positivity)
  rw [mul_pow, mul_pow, pnorm_sq' hq, ← normSq_eq_norm_sq]
  simp only [normSq_apply]
  have h0 : 0 ≤ q ^ 2 := by positivity
  nlinarith [sq_nonneg (d.re + q ^ 2 / 2 * e.re), sq_nonneg (d.im + q ^ 2 / 2 * e.im),
    mul_nonneg (mul_nonneg h0 (sub_nonneg.mpr hq)) (sq_nonneg e.re), mul_nonneg (mul_nonneg h0 (sub_nonneg.mpr hq)) (sq_nonneg e.im)]

theorem pnorm_le {q : ℝ} (hq0 : 0 ≤ q) (hq : q ^ 2 ≤ 3) (e d : ℂ) : pnorm q e d ≤ ‖d‖ + q * ‖e‖ := by
  apply le_of_sq_le_sq _ (by positivity)
  rw [pnorm_sq' hq]
  have q2 : q ≤ 2 := by nlinarith
  have hd := Complex.normSq_eq_norm_sq d
  have he := Complex.normSq_eq_norm_sq e
  rw [hd, he]
  have ip : e.re * d.re + e.im * d.im ≤ ‖e‖ * ‖d‖ := by
    have h1 : (e.re * d.re + e.im * d.im) ^ 2 ≤ (‖e‖ * ‖d‖) ^ 2 := by
      rw [mul_pow, ← he, ← hd, normSq_apply, normSq_apply]
      nlinarith [sq_nonneg (e.re * d.im - e.im * d.re)]
    exact abs_le_of_sq_le_sq' h1 (by positivity) |>.2
  have h3 : q ^ 2 * (e.re * d.re + e.im * d.im) ≤ q ^ 2 * (‖e‖ * ‖d‖) := mul_le_mul_of_nonneg_left ip (by positivity)
  have h4 : q ^ 2 * (‖e‖ * ‖d‖) ≤ 2 * q * (‖e‖ * ‖d‖) := by
    apply mul_le_mul_of_nonneg_right _ (by positivity)
    nlinarith
  nlinarith

/-- Effect of rounding errors `α`, `β` in the two sums. -/
theorem pnorm_perturb {q : ℝ} (hq0 : 0 ≤ q) (hq : q ^ 2 ≤ 3) (α β : ℂ) : pnorm q α (β - (q ^ 2 : ℝ) * α) ≤ ‖β‖ + q * ‖α‖ := by
  have h : pnorm q α (β - (q ^ 2 : ℝ) * α) ^ 2 = pnorm q (-α) β ^ 2 := by
    rw [pnorm_sq' hq, pnorm_sq' hq]
    simp only [normSq_apply, neg_re, neg_im, sub_re, sub_im, mul_re, mul_im, ofReal_re, ofReal_im]
    ring
  have h' := (pow_left_inj₀ (pnorm_nonneg _ _ _) (pnorm_nonneg _ _ _) (by norm_num)).mp h
  rw [h']
  have := pnorm_le hq0 hq (-α) β
  rwa [norm_neg] at this

/-! ## The recurrence with rounding -/

/-- One step of the recurrence. -/
def pstep (F : PowOps) (t : ℝ) (p : ℂ × ℂ) : ℂ × ℂ := (caddP F p.1 p.2, caddP F p.2 (rsmulP F t (caddP F p.1 p.2)))

section
variable {u : ℝ} {F : PowOps} (hF : F.Std u) (hu : u ≤ 1)
include hF hu

/-- One step, in the invariant norm. -/
theorem pstep_err {q : ℝ} (hq0 : 0 ≤ q) (hq : q ^ 2 ≤ 3) {ω : ℂ} (h1 : ‖ω‖ = 1) (h2 : ‖ω - 1‖ = q)
    (hω : ω ^ 2 = (2 - q ^ 2 : ℝ) * ω - 1) (m : ℕ) (p : ℂ × ℂ) :
    q + 2 * pnorm q ((pstep F (-q ^ 2) p).1 - ω ^ (m + 1)) ((pstep F (-q ^ 2) p).2 - (ω ^ (m + 2) - ω ^ (m + 1)))
      ≤ (1 + 24 * u) * (q + 2 * pnorm q (p.1 - ω ^ m) (p.2 - (ω ^ (m + 1) - ω ^ m))) := by
  have hu0 := hF.u_nonneg
  have q2 : q ≤ 2 := by nlinarith
  obtain ⟨z, d⟩ := p
  simp only [pstep]
  set e := z - ω ^ m with he
  set δ := d - (ω ^ (m + 1) - ω ^ m) with hδ
  set N := pnorm q e δ with hN
  have N0 : 0 ≤ N := pnorm_nonneg _ _ _
  set z' := caddP F z d with hz'
  set y := rsmulP F (-q ^ 2) z' with hy
  set d' := caddP F d y with hd'
  -- the first sum
  set α := z' - (z + d) with hα
  have hzd : z + d = ω ^ (m + 1) + (e + δ) := by rw [he, hδ]; ring
  have nω : ∀ k : ℕ, ‖ω ^ k‖ = 1 := fun k => by rw [norm_pow, h1, one_pow]
  have ed : q * ‖e + δ‖ ≤ 2 * N := by
    have := le_pnorm_e hq0 hq (e + δ) (δ - (q ^ 2 : ℝ) * (e + δ))
    rwa [pnorm_step hq] at this
  have αb : q * ‖α‖ ≤ u * (q + 2 * N) := by
    have a1 : ‖α‖ ≤ u * ‖z + d‖ := caddP_err hF z d
    have a2 : ‖z + d‖ ≤ 1 + ‖e + δ‖ := by
      rw [hzd]; refine (norm_add_le _ _).trans ?_; rw [nω]
    calc q * ‖α‖ ≤ q * (u * (1 + ‖e + δ‖)) := by gcongr; exact a1.trans (by gcongr)
      _ = u * (q + q * ‖e + δ‖) := by ring
      _ ≤ _ := by gcongr
  -- the new point
  have z'b : q * ‖z'‖ ≤ 2 * (q + 2 * N) := by
    have e1 : z' = ω ^ (m + 1) + (e + δ) + α := by rw [hα, hzd]; ring
    have : ‖z'‖ ≤ 1 + ‖e + δ‖ + ‖α‖ := by
      rw [e1]
      refine (norm_add_le _ _).trans (add_le_add ((norm_add_le _ _).trans ?_) le_rfl)
      rw [nω]
    calc q * ‖z'‖ ≤ q * (1 + ‖e + δ‖ + ‖α‖) := by gcongr
      _ = q + q * ‖e + δ‖ + q * ‖α‖ := by ring
      _ ≤ q + 2 * N + u * (q + 2 * N) := by gcongr
      _ ≤ q + 2 * N + 1 * (q + 2 * N) := by gcongr
      _ = _ := by ring
  have abst : |(-q ^ 2 : ℝ)| = q ^ 2 := by rw [abs_neg, abs_of_nonneg (by positivity)]
  have yb : ‖y - (-q ^ 2 : ℝ) * z'‖ ≤ u * (4 * (q + 2 * N)) := by
    refine (rsmulP_err hF (-q ^ 2) z').trans ?_
    rw [abst]
    have : q ^ 2 * ‖z'‖ ≤ 4 * (q + 2 * N) := by
      calc q ^ 2 * ‖z'‖ = q * (q * ‖z'‖) := by ring
        _ ≤ 2 * (2 * (q + 2 * N)) := mul_le_mul q2 z'b (by positivity) (by norm_num)
        _ = _ := by ring
    exact mul_le_mul_of_nonneg_left this hu0
  -- the second sum
  have hD : ω ^ (m + 2) - ω ^ (m + 1) = (ω ^ (m + 1) - ω ^ m) - (q ^ 2 : ℝ) * ω ^ (m + 1) := by
    have : ω ^ (m + 2) = ω ^ m * ω ^ 2 := by ring
    rw [this, hω]
    push_cast
    ring
  set β := d' - (d + (-q ^ 2 : ℝ) * z') with hβ
  have dy : ‖d + y‖ ≤ 7 * (q + 2 * N) := by
    have e1 : d + y = (ω ^ (m + 2) - ω ^ (m + 1)) + (δ - (q ^ 2 : ℝ) * (e + δ)) + (-(q ^ 2 : ℝ)) * α + (y - (-q ^ 2 : ℝ) * z') := by
      rw [hD, hα, hzd, hδ]
      push_cast
      ring
    have n1 : ‖ω ^ (m + 2) - ω ^ (m + 1)‖ = q := by
      rw [show ω ^ (m + 2) - ω ^ (m + 1) = ω ^ (m + 1) * (ω - 1) by ring, norm_mul, nω, h2, one_mul]
    have n2 : ‖δ - (q ^ 2 : ℝ) * (e + δ)‖ ≤ 2 * N := by
      have := le_pnorm_d hq (e + δ) (δ - (q ^ 2 : ℝ) * (e + δ))
      rwa [pnorm_step hq] at this
    have n3 : ‖(-(q ^ 2 : ℝ) : ℂ) * α‖ ≤ 2 * (u * (q + 2 * N)) := by
      rw [norm_mul, norm_neg, Complex.norm_real, Real.norm_of_nonneg (by positivity)]
      calc q ^ 2 * ‖α‖ = q * (q * ‖α‖) := by ring
        _ ≤ _ := mul_le_mul q2 αb (by positivity) (by norm_num)
    rw [e1]
    refine (norm_add_le _ _).trans ?_
    refine (add_le_add ((norm_add_le _ _).trans (add_le_add ((norm_add_le _ _).trans (add_le_add n1.le n2)) n3)) yb).trans ?_
    have : u * (q + 2 * N) ≤ 1 * (q + 2 * N) := by gcongr
    linarith
  have βb : ‖β‖ ≤ 11 * u * (q + 2 * N) := by
    have e1 : β = (d' - (d + y)) + (y - (-q ^ 2 : ℝ) * z') := by rw [hβ]; ring
    rw [e1]
    refine (norm_add_le _ _).trans ((add_le_add ((caddP_err hF d y).trans (mul_le_mul_of_nonneg_left dy hu0)) yb).trans ?_)
    linarith
  have key : pnorm q (z' - ω ^ (m + 1)) (d' - (ω ^ (m + 2) - ω ^ (m + 1))) ≤ N + (‖β‖ + q * ‖α‖) := by
    have e1 : z' - ω ^ (m + 1) = (e + δ) + α := by rw [hα, hzd]; ring
    have e2 : d' - (ω ^ (m + 2) - ω ^ (m + 1)) = (δ - (q ^ 2 : ℝ) * (e + δ)) + (β - (q ^ 2 : ℝ) * α) := by
      rw [hD, hβ, hα, hzd, hδ]
      push_cast
      ring
    rw [e1, e2]
    refine (pnorm_add _ _ _ _ _).trans (add_le_add ?_ (pnorm_perturb hq0 hq α β))
    rw [pnorm_step hq]
  have : 0 ≤ q + 2 * N := by positivity
  nlinarith

/-- `n` steps. -/
theorem piter_err {q : ℝ} (hq0 : 0 ≤ q) (hq : q ^ 2 ≤ 3) {ω : ℂ} (h1 : ‖ω‖ = 1) (h2 : ‖ω - 1‖ = q)
    (hω : ω ^ 2 = (2 - q ^ 2 : ℝ) * ω - 1) (p : ℂ × ℂ) (n : ℕ) :
    q + 2 * pnorm q (((pstep F (-q ^ 2))^[n] p).1 - ω ^ (n + 1)) (((pstep F (-q ^ 2))^[n] p).2 - (ω ^ (n + 2) - ω ^ (n + 1)))
      ≤ (1 + 24 * u) ^ n * (q + 2 * pnorm q (p.1 - ω ^ 1) (p.2 - (ω ^ 2 - ω ^ 1))) := by
  have hu0 := hF.u_nonneg
  induction n with
  | zero => simp
  | succ n ih =>
    rw [Function.iterate_succ_apply']
    refine (pstep_err hF hu hq0 hq h1 h2 hω (n + 1) _).trans ?_
    rw [pow_succ' (1 + 24 * u), mul_assoc]
    exact mul_le_mul_of_nonneg_left ih (by positivity)

/-- `n` steps of the degenerate recurrence, `z = 1`. -/
theorem piter_zero (z : ℂ) (n : ℕ) :
    ((pstep F 0)^[n] (z, 0)).2 = 0 ∧ 1 + ‖((pstep F 0)^[n] (z, 0)).1 - 1‖ ≤ (1 + u) ^ n * (1 + ‖z - 1‖) := by
  have hu0 := hF.u_nonneg
  induction n with
  | zero => simp
  | succ n ih =>
    rw [Function.iterate_succ_apply']
    set p := (pstep F 0)^[n] (z, 0)
    obtain ⟨i1, i2⟩ := ih
    have m0 : ∀ x, F.mul 0 x = 0 := fun x => by
      have := hF.mul 0 x; unfold RelErr at this; simpa using this
    have a0 : F.add 0 0 = 0 := by
      have := hF.add 0 0; unfold RelErr at this; simpa using this
    have e2 : (pstep F 0 p).2 = 0 := by
      simp only [pstep, rsmulP, caddP, i1, m0, Complex.zero_re, Complex.zero_im, a0]
      rfl
    refine ⟨e2, ?_⟩
    have h1 := caddP_err hF p.1 p.2
    rw [i1, add_zero] at h1
    have e1 : (pstep F 0 p).1 = caddP F p.1 0 := by simp only [pstep, i1]
    rw [e1]
    have h2 : ‖p.1‖ ≤ 1 + ‖p.1 - 1‖ := by
      calc ‖p.1‖ = ‖1 + (p.1 - 1)‖ := by rw [add_sub_cancel]
        _ ≤ _ := (norm_add_le _ _).trans (by rw [norm_one])
    have h3 : ‖caddP F p.1 0 - 1‖ ≤ ‖caddP F p.1 0 - p.1‖ + ‖p.1 - 1‖ := by
      rw [← sub_add_sub_cancel (caddP F p.1 0) p.1 1]; exact norm_add_le _ _
    rw [pow_succ', mul_assoc]
    calc 1 + ‖caddP F p.1 0 - 1‖ ≤ 1 + (u * (1 + ‖p.1 - 1‖) + ‖p.1 - 1‖) := by
          have := mul_le_mul_of_nonneg_left h2 hu0
          linarith
      _ = (1 + u) * (1 + ‖p.1 - 1‖) := by ring
      _ ≤ _ := mul_le_mul_of_nonneg_left i2 (by positivity)

end

/-! ## The start of the recurrence -/

/-- `dc` — recursions/complex_powers.py:58. -/
noncomputable def dcF (F : PowOps) (w : ℂ) : ℝ := F.mul (-2) (F.mul (F.sqrtIm w) (F.sqrtIm w))

/-- The initial `dz` — recursions/complex_powers.py:60. -/
noncomputable def dzF (F : PowOps) (dc : ℝ) (w : ℂ) : ℂ :=
  caddP F (rsmulP F dc ⟨F.add 1 (F.mul 2 w.re), F.mul 2 w.im⟩) ⟨0, F.sqrt (F.mul (-dc) (F.add 2 dc))⟩

theorem relerr_bounds {u x' x : ℝ} (h : RelErr u x' x) (hx : 0 ≤ x) : (1 - u) * x ≤ x' ∧ x' ≤ (1 + u) * x := by
  unfold RelErr at h
  rw [abs_of_nonneg hx, abs_le] at h
  constructor <;> linarith [h.1, h.2]

section
variable {u : ℝ} {F : PowOps} (hF : F.Std u)
include hF

theorem sqrt_arg_err (hu : u ≤ 1) {a b S : ℝ} (ha : 0 ≤ a) (hb : 0 ≤ 2 + b) (hS : 0 ≤ S) (h : a * (2 + b) = S ^ 2) :
    |F.sqrt (F.mul a (F.add 2 b)) - S| ≤ 3 * u * S := by
  have hu0 := hF.u_nonneg
  obtain ⟨a1, a2⟩ := relerr_bounds (hF.add 2 b) hb
  have hA : 0 ≤ F.add 2 b := le_trans (mul_nonneg (by linarith) hb) a1
  obtain ⟨b1, b2⟩ := relerr_bounds (hF.mul a (F.add 2 b)) (mul_nonneg ha hA)
  set B := F.mul a (F.add 2 b)
  have hB0 : 0 ≤ B := le_trans (mul_nonneg (by linarith) (mul_nonneg ha hA)) b1
  have c1 : ((1 - u) * S) ^ 2 ≤ B := by
    calc ((1 - u) * S) ^ 2 = (1 - u) * (a * ((1 - u) * (2 + b))) := by rw [mul_pow, ← h]; ring
      _ ≤ (1 - u) * (a * F.add 2 b) := by
        apply mul_le_mul_of_nonneg_left (mul_le_mul_of_nonneg_left a1 ha) (by linarith)
      _ ≤ B := b1
  have c2 : B ≤ ((1 + u) * S) ^ 2 := by
    calc B ≤ (1 + u) * (a * F.add 2 b) := b2
      _ ≤ (1 + u) * (a * ((1 + u) * (2 + b))) := by
        apply mul_le_mul_of_nonneg_left (mul_le_mul_of_nonneg_left a2 ha) (by linarith)
      _ = _ := by rw [mul_pow, ← h]; ring
  have d1 : (1 - u) * S ≤ Real.sqrt B := Real.le_sqrt_of_sq_le c1
  have d2 : Real.sqrt B ≤ (1 + u) * S := Real.sqrt_le_iff.mpr ⟨by positivity, c2⟩
  obtain ⟨e1, e2⟩ := relerr_bounds (hF.sqrt B hB0) (Real.sqrt_nonneg _)
  have f1 : (1 - u) * ((1 - u) * S) ≤ F.sqrt B := (mul_le_mul_of_nonneg_left d1 (by linarith)).trans e1
  have f2 : F.sqrt B ≤ (1 + u) * ((1 + u) * S) := e2.trans (mul_le_mul_of_nonneg_left d2 (by linarith))
  have uS : 0 ≤ u * S := by positivity
  have uuS : u * (u * S) ≤ 1 * (u * S) := mul_le_mul_of_nonneg_right hu uS
  rw [abs_le]
  constructor <;> nlinarith

/-- The first difference. -/
theorem dzF_err (hu : u ≤ 1 / 100) {q c : ℝ} (hq0 : 0 ≤ q) (hq : q ^ 2 ≤ 3) (hc0 : 0 ≤ c) (hc : c ^ 2 = 1 - q ^ 2 / 4)
    {w ω : ℂ} (hw : ‖w‖ ≤ 11 / 10) (hω : ω = ⟨1 - q ^ 2 / 2, q * c⟩) :
    ‖dzF F (-(q ^ 2 / 2)) w - (ω ^ 2 - ω ^ 1)‖ ≤ 20 * u * q + 2 * q * ‖w - ω‖ := by
  have hu0 := hF.u_nonneg
  have q2 : q ≤ 2 := by nlinarith
  have qq : q ^ 2 / 2 ≤ q := by nlinarith
  have c1 : c ≤ 1 := by nlinarith [sq_nonneg q]
  have hS0 : 0 ≤ q * c := by positivity
  have hS1 : q * c ≤ q := mul_le_of_le_one_right hq0 c1
  set σ := F.sqrt (F.mul (-(-(q ^ 2 / 2))) (F.add 2 (-(q ^ 2 / 2)))) with hσ
  have σb : |σ - q * c| ≤ 3 * u * q := by
    refine (sqrt_arg_err hF (by linarith) (by rw [neg_neg]; positivity) (by linarith) hS0 ?_).trans
      (mul_le_mul_of_nonneg_left hS1 (by positivity))
    rw [mul_pow, hc]; ring
  set y : ℂ := ⟨F.add 1 (F.mul 2 w.re), F.mul 2 w.im⟩ with hy
  have n12 : ‖1 + 2 * w‖ ≤ 16 / 5 := by
    refine (norm_add_le _ _).trans ?_
    rw [norm_one, norm_mul, Complex.norm_ofNat]
    linarith
  have yb : ‖y - (1 + 2 * w)‖ ≤ 4 * u := by
    have := norm_le_of_components (a := y - (1 + 2 * w)) (z := 1 + 2 * w) hu0
      (by
        have := hF.add 1 (F.mul 2 w.re)
        unfold RelErr at this
        rw [(hF.double w.re).1] at this
        simpa [hy, (hF.double w.re).1] using this)
      (by simp [hy, (hF.double w.im).1]; positivity)
    refine this.trans ?_
    nlinarith
  have yn : ‖y‖ ≤ 4 := by
    calc ‖y‖ = ‖(y - (1 + 2 * w)) + (1 + 2 * w)‖ := by rw [sub_add_cancel]
      _ ≤ 4 * u + 16 / 5 := (norm_add_le _ _).trans (add_le_add yb n12)
      _ ≤ _ := by linarith
  have habs : |-(q ^ 2 / 2)| = q ^ 2 / 2 := by rw [abs_neg, abs_of_nonneg (by positivity)]
  set g := rsmulP F (-(q ^ 2 / 2)) y with hg
  have gb : ‖g - (-(q ^ 2 / 2) : ℝ) * y‖ ≤ 4 * u * q := by
    refine (rsmulP_err hF _ y).trans ?_
    rw [habs]
    calc u * (q ^ 2 / 2 * ‖y‖) ≤ u * (q * 4) := by
          apply mul_le_mul_of_nonneg_left _ hu0
          exact mul_le_mul qq yn (norm_nonneg _) hq0
      _ = _ := by ring
  have hD : ω ^ 2 - ω ^ 1 = (-(q ^ 2 / 2) : ℝ) * (1 + 2 * ω) + ⟨0, q * c⟩ := by
    rw [hω]
    apply Complex.ext
    · simp [pow_two]
      have : (q * c) * (q * c) = q ^ 2 * (1 - q ^ 2 / 4) := by rw [← hc]; ring
      linear_combination -this
    · simp [pow_two]; ring
  -- the sum before rounding, compared with the exact difference
  have s1 : ‖g + ⟨0, σ⟩ - (ω ^ 2 - ω ^ 1)‖ ≤ 11 * u * q + 2 * q * ‖w - ω‖ := by
    have e : g + ⟨0, σ⟩ - (ω ^ 2 - ω ^ 1) = (g - (-(q ^ 2 / 2) : ℝ) * y) + (-(q ^ 2 / 2) : ℝ) * (y - (1 + 2 * w))
        + (-(q ^ 2 / 2) : ℝ) * (2 * (w - ω)) + (⟨0, σ⟩ - ⟨0, q * c⟩) := by
      rw [hD]; ring
    have n0 : ‖((-(q ^ 2 / 2) : ℝ) : ℂ)‖ = q ^ 2 / 2 := by rw [Complex.norm_real, Real.norm_eq_abs, habs]
    have n2 : ‖((-(q ^ 2 / 2) : ℝ) : ℂ) * (y - (1 + 2 * w))‖ ≤ 4 * u * q := by
      rw [norm_mul, n0]
      calc q ^ 2 / 2 * ‖y - (1 + 2 * w)‖ ≤ q * (4 * u) := mul_le_mul qq yb (norm_nonneg _) hq0
        _ = _ := by ring
    have n3 : ‖((-(q ^ 2 / 2) : ℝ) : ℂ) * (2 * (w - ω))‖ ≤ 2 * q * ‖w - ω‖ := by
      rw [norm_mul, n0, norm_mul, Complex.norm_ofNat]
      calc q ^ 2 / 2 * (2 * ‖w - ω‖) ≤ q * (2 * ‖w - ω‖) := mul_le_mul_of_nonneg_right qq (by positivity)
        _ = _ := by ring
    have n4 : ‖(⟨0, σ⟩ - ⟨0, q * c⟩ : ℂ)‖ ≤ 3 * u * q := by
      have : (⟨0, σ⟩ - ⟨0, q * c⟩ : ℂ) = ((σ - q * c : ℝ) : ℂ) * I := by
        apply Complex.ext <;> simp
      rw [this, norm_mul, Complex.norm_I, mul_one, Complex.norm_real, Real.norm_eq_abs]
      exact σb
    rw [e]
    refine (norm_add_le _ _).trans ?_
    refine (add_le_add ((norm_add_le _ _).trans (add_le_add ((norm_add_le _ _).trans (add_le_add gb n2)) n3)) n4).trans ?_
    linarith
  have s2 : ‖g + ⟨0, σ⟩‖ ≤ 6 * q := by
    have n1 : ‖g‖ ≤ 4 * u * q + 4 * q := by
      have : ‖((-(q ^ 2 / 2) : ℝ) : ℂ) * y‖ ≤ q * 4 := by
        rw [norm_mul, Complex.norm_real, Real.norm_eq_abs, habs]
        exact mul_le_mul qq yn (norm_nonneg _) hq0
      calc ‖g‖ = ‖(g - (-(q ^ 2 / 2) : ℝ) * y) + (-(q ^ 2 / 2) : ℝ) * y‖ := by rw [sub_add_cancel]
        _ ≤ 4 * u * q + q * 4 := (norm_add_le _ _).trans (add_le_add gb this)
        _ = _ := by ring
    have n2 : ‖(⟨0, σ⟩ : ℂ)‖ ≤ q + 3 * u * q := by
      have : (⟨0, σ⟩ : ℂ) = (σ : ℂ) * I := by apply Complex.ext <;> simp
      rw [this, norm_mul, Complex.norm_I, mul_one, Complex.norm_real, Real.norm_eq_abs]
      have h1 := abs_le.mp σb
      rw [abs_le]; constructor <;> linarith [h1.1, h1.2]
    have : u * q ≤ 1 / 100 * q := mul_le_mul_of_nonneg_right hu hq0
    linarith [norm_add_le g (⟨0, σ⟩ : ℂ)]
  have s3 : ‖dzF F (-(q ^ 2 / 2)) w - (g + ⟨0, σ⟩)‖ ≤ u * (6 * q) :=
    (caddP_err hF g ⟨0, σ⟩).trans (mul_le_mul_of_nonneg_left s2 hu0)
  have := norm_add_le (dzF F (-(q ^ 2 / 2)) w - (g + ⟨0, σ⟩)) (g + ⟨0, σ⟩ - (ω ^ 2 - ω ^ 1))
  rw [sub_add_sub_cancel] at this
  have : 0 ≤ u * q := by positivity
  linarith

end

/-- The half-angle: twice the square of `np.sqrt(z).imag` is `|z| - z.real`. -/
theorem npSqrtC_im_sq' (z : ℂ) : 2 * (npSqrtC z).im ^ 2 = ‖z‖ - z.re := by
  have hw : (npSqrtC z) ^ 2 = z := by
    unfold npSqrtC
    have := Complex.cpow_nat_inv_pow z (n := 2) (by norm_num)
    rw [one_div]; exact_mod_cast this
  have h1 : ‖npSqrtC z‖ ^ 2 = ‖z‖ := by rw [← norm_pow, hw]
  rw [← Complex.normSq_eq_norm_sq, Complex.normSq_apply] at h1
  have h2 : z.re = (npSqrtC z).re ^ 2 - (npSqrtC z).im ^ 2 := by
    conv_lhs => rw [← hw]
    simp [pow_two]
  nlinarith

/-- Two points of the first quadrant of the unit circle, given by the sines of their half-angles. -/
theorem half_angle_close {x x' c c' : ℝ} (hx0 : 0 ≤ x) (hx1 : x ≤ 3 / 4) (hx'0 : 0 ≤ x') (hx'1 : x' ≤ 3 / 4) (hc0 : 0 ≤ c) (hc'0 : 0 ≤ c')
    (hc : c ^ 2 = 1 - x ^ 2) (hc' : c' ^ 2 = 1 - x' ^ 2) :
    ‖(⟨1 - 2 * x ^ 2, 2 * x * c⟩ : ℂ) - ⟨1 - 2 * x' ^ 2, 2 * x' * c'⟩‖ ≤ 5 * |x - x'| := by
  have hc1 : 3 / 5 ≤ c := by nlinarith
  have hc'1 : 3 / 5 ≤ c' := by nlinarith
  have e1 : ∀ x c : ℝ, c ^ 2 = 1 - x ^ 2 → (⟨1 - 2 * x ^ 2, 2 * x * c⟩ : ℂ) = (⟨c, x⟩ : ℂ) ^ 2 := by
    intro x c h
    apply Complex.ext
    · simp [pow_two]; nlinarith
    · simp [pow_two]; ring
  have n1 : ∀ x c : ℝ, c ^ 2 = 1 - x ^ 2 → ‖(⟨c, x⟩ : ℂ)‖ = 1 := by
    intro x c h
    have : ‖(⟨c, x⟩ : ℂ)‖ ^ 2 = 1 := by
      rw [← Complex.normSq_eq_norm_sq, Complex.normSq_apply]; simp only; nlinarith
    exact (pow_eq_one_iff_of_nonneg (norm_nonneg _) (by norm_num)).mp this
  rw [e1 x c hc, e1 x' c' hc', sq_sub_sq, norm_mul]
  have h2 : ‖(⟨c, x⟩ : ℂ) + ⟨c', x'⟩‖ ≤ 2 := by
    refine (norm_add_le _ _).trans ?_
    rw [n1 x c hc, n1 x' c' hc']; norm_num
  have h3 : |c - c'| ≤ 3 / 2 * |x - x'| := by
    have : |c - c'| * (c + c') = |x - x'| * (x + x') := by
      rw [← abs_of_nonneg (show 0 ≤ c + c' by linarith), ← abs_of_nonneg (show 0 ≤ x + x' by linarith), ← abs_mul, ← abs_mul,
        show (c - c') * (c + c') = -((x - x') * (x + x')) by nlinarith, abs_neg]
    have a1 : |c - c'| * 1 ≤ |c - c'| * (c + c') := mul_le_mul_of_nonneg_left (by linarith) (abs_nonneg _)
    have a2 : |x - x'| * (x + x') ≤ |x - x'| * (3 / 2) := mul_le_mul_of_nonneg_left (by linarith) (abs_nonneg _)
    linarith
  have h4 : ‖(⟨c, x⟩ : ℂ) - ⟨c', x'⟩‖ ≤ 5 / 2 * |x - x'| := by
    refine (Complex.norm_le_abs_re_add_abs_im _).trans ?_
    simp only [sub_re, sub_im]
    linarith
  calc _ ≤ 2 * (5 / 2 * |x - x'|) := mul_le_mul h2 h4 (norm_nonneg _) (by norm_num)
    _ = _ := by ring

theorem norm_pow_sub_pow_le {a b : ℂ} (ha : ‖a‖ = 1) (hb : ‖b‖ = 1) (n : ℕ) : ‖a ^ n - b ^ n‖ ≤ n * ‖a - b‖ := by
  induction n with
  | zero => simp
  | succ n ih =>
    have : a ^ (n + 1) - b ^ (n + 1) = a ^ n * (a - b) + (a ^ n - b ^ n) * b := by ring
    rw [this]
    refine (norm_add_le _ _).trans ?_
    rw [norm_mul, norm_mul, norm_pow, ha, hb, one_pow, one_mul, mul_one]
    push_cast
    linarith

theorem one_add_pow_le' {a : ℝ} (ha : 0 ≤ a) (n : ℕ) (h : n * a ≤ 1) : (1 + a) ^ n ≤ 1 + 2 * (n * a) := by
  have h1 : (1 + a) ^ n ≤ Real.exp (n * a) := by
    rw [Real.exp_nat_mul]
    exact pow_le_pow_left₀ (by linarith) (by linarith [Real.add_one_le_exp a]) n
  have h0 : 0 ≤ n * a := by positivity
  have h2 := Real.abs_exp_sub_one_le (x := n * a) (by rw [abs_of_nonneg h0]; exact h)
  rw [abs_of_nonneg h0] at h2
  linarith [(abs_le.mp h2).2]

/-- The `m`-th entry of a row before the multiplication by the power of `i`. -/
noncomputable def powerSeq (F : PowOps) (w : ℂ) : ℕ → ℂ
  | 0 => 1
  | k + 1 => ((pstep F (F.mul 2 (dcF F w)))^[k] (w, dzF F (dcF F w) w)).1

theorem K_up {u τ : ℝ} (hu0 : 0 ≤ u) (hτ0 : 0 ≤ τ) (hu : u ≤ 1 / 200) (hτ1 : τ ≤ 1 / 200) : (1 + u) ^ 3 * (1 + τ) ≤ (1 + (τ + 2 * u)) ^ 2 := by
  have a1 : u ^ 2 ≤ 1 / 200 * u := by nlinarith
  have a2 : u ^ 3 ≤ 1 / 200 * u := by nlinarith
  have a3 : u * τ ≤ 1 / 200 * u := by nlinarith
  have a6 : (1 + u) ^ 3 ≤ 1 + 7 / 2 * u := by nlinarith
  have a7 : (1 + u) ^ 3 * (1 + τ) ≤ (1 + 7 / 2 * u) * (1 + τ) := mul_le_mul_of_nonneg_right a6 (by linarith)
  nlinarith [sq_nonneg (τ + 2 * u)]

theorem K_lo {u τ : ℝ} (hu0 : 0 ≤ u) (hτ0 : 0 ≤ τ) (hu : u ≤ 1 / 200) (hτ1 : τ ≤ 1 / 200) : (1 - (τ + 2 * u)) ^ 2 ≤ (1 - u) ^ 3 * (1 - τ) := by
  have a2 : 1 - 3 * u ≤ (1 - u) ^ 3 := by nlinarith [mul_nonneg hu0 hu0, mul_nonneg (mul_nonneg hu0 hu0) (show 0 ≤ 3 - u by linarith)]
  have a3 : (1 - 3 * u) * (1 - τ) ≤ (1 - u) ^ 3 * (1 - τ) := mul_le_mul_of_nonneg_right a2 (by linarith)
  have a4 : 0 ≤ u * τ := by positivity
  have a5 : (τ + 2 * u) ^ 2 ≤ 1 / 50 * (τ + 2 * u) := by nlinarith
  nlinarith

/-! Small facts used in `powerSeq_err`. -/

theorem pse_le_one {a b : ℝ} (h : a ^ 2 + b ^ 2 = 1) : a ≤ 1 := by nlinarith [sq_nonneg b]

theorem pse_two {x c a b : ℝ} (hx : x ^ 2 = (1 - a) / 2) (hc : c ^ 2 = (1 + a) / 2) (h : a ^ 2 + b ^ 2 = 1) : (2 * x * c) ^ 2 = b ^ 2 := by
  rw [mul_pow, mul_pow, hx, hc]; linear_combination -h

theorem pse_x {x a : ℝ} (ha : 0 ≤ a) (hx : x ^ 2 = (1 - a) / 2) : x ≤ 18 / 25 := by nlinarith

theorem pse_sq {x : ℝ} (h0 : 0 ≤ x) (h : x ≤ 3 / 4) : x ^ 2 ≤ 9 / 16 := by nlinarith

theorem pse_small {k u τ : ℝ} (hk : 0 ≤ k) (hu : 0 ≤ u) (hτ : 0 ≤ τ) (hm : 100 * (k + 1 + 1) * (u + τ) ≤ 1) : k * (24 * u) ≤ 1 := by
  have : 0 ≤ k * τ := by positivity
  have : 0 ≤ k * u := by positivity
  nlinarith

theorem pse_small' {k u τ : ℝ} (hk : 0 ≤ k) (hu : 0 ≤ u) (hτ : 0 ≤ τ) (hm : 100 * (k + 1 + 1) * (u + τ) ≤ 1) :
    u + τ ≤ 1 / 200 ∧ k * (u + τ) ≤ 1 / 100 := by
  have : 0 ≤ k * (u + τ) := by positivity
  constructor <;> linarith

theorem pse_final {k u τ e1 A B T X : ℝ} (hk0 : 0 ≤ k) (hu0 : 0 ≤ u) (hτ0 : 0 ≤ τ) (hm : 100 * (k + 1 + 1) * (u + τ) ≤ 1)
    (e10 : 0 ≤ e1) (e1b : e1 ≤ τ + 4 * (τ + 2 * u)) (hX : X ≤ 1 + 2 * (k * (24 * u)))
    (hA : A ≤ X * (1 + 40 * u + 6 * e1) - 1) (hB : B ≤ (k + 1) * (4 * (τ + 2 * u))) (hT : T ≤ A + B) : T ≤ 60 * (k + 1 + 3) * (u + τ) := by
  obtain ⟨_, fin2⟩ := pse_small' hk0 hu0 hτ0 hm
  have ku : 0 ≤ k * u := by positivity
  have kτ : 0 ≤ k * τ := by positivity
  have fin1 : X * (1 + 40 * u + 6 * e1) ≤ (1 + 48 * (k * (u + τ))) * (1 + 90 * (u + τ)) := by
    apply mul_le_mul
    · linarith
    · linarith
    · positivity
    · positivity
  have fin3 : (k * (u + τ)) * (u + τ) ≤ 1 / 100 * (u + τ) := mul_le_mul_of_nonneg_right fin2 (by positivity)
  have e : (1 + 48 * (k * (u + τ))) * (1 + 90 * (u + τ))
      = 1 + 48 * (k * (u + τ)) + 90 * (u + τ) + 4320 * ((k * (u + τ)) * (u + τ)) := by ring
  linarith

set_option maxHeartbeats 2000000 in
/-- **Accuracy of the recurrence in the first quadrant.** -/
theorem powerSeq_err {u : ℝ} {F : PowOps} (hF : F.Std u) {τ : ℝ} {w : ℂ} (hre : 0 ≤ w.re) (him : 0 ≤ w.im)
    (hτ : |‖w‖ - 1| ≤ τ) (m : ℕ) (hm : 100 * (m + 1) * (u + τ) ≤ 1) :
    ‖powerSeq F w m - (w / ‖w‖) ^ m‖ ≤ 60 * (m + 3) * (u + τ) := by
  have hu0 := hF.u_nonneg
  have hτ0 : 0 ≤ τ := (abs_nonneg _).trans hτ
  obtain _ | k := m
  · simp only [powerSeq, pow_zero, sub_self, norm_zero]; positivity
  have hk0 : (0 : ℝ) ≤ k := Nat.cast_nonneg k
  push_cast at hm ⊢
  have hε : u + τ ≤ 1 / 200 := (pse_small' hk0 hu0 hτ0 hm).1
  have hu : u ≤ 1 / 200 := by linarith
  have hτ1 : τ ≤ 1 / 200 := by linarith
  obtain ⟨ρ1, ρ2⟩ := abs_le.mp hτ
  set ρ := ‖w‖ with hρ
  have ρ0 : 0 < ρ := by linarith
  -- the exact direction
  set v : ℂ := w / ρ with hv
  have vre : v.re = w.re / ρ := by rw [hv]; exact Complex.div_ofReal_re w ρ
  have vim : v.im = w.im / ρ := by rw [hv]; exact Complex.div_ofReal_im w ρ
  have vn : ‖v‖ = 1 := by
    rw [hv, norm_div, Complex.norm_real, Real.norm_of_nonneg ρ0.le, ← hρ, div_self ρ0.ne']
  have vsq : v.re ^ 2 + v.im ^ 2 = 1 := by
    have : ‖v‖ ^ 2 = 1 := by rw [vn]; norm_num
    rw [← Complex.normSq_eq_norm_sq, Complex.normSq_apply] at this
    linarith
  have vre0 : 0 ≤ v.re := by rw [vre]; positivity
  have vim0 : 0 ≤ v.im := by rw [vim]; positivity
  have vre1 : v.re ≤ 1 := pse_le_one vsq
  set x := Real.sqrt ((1 - v.re) / 2) with hx
  set c := Real.sqrt ((1 + v.re) / 2) with hc
  have x0 : 0 ≤ x := Real.sqrt_nonneg _
  have c0 : 0 ≤ c := Real.sqrt_nonneg _
  have xsq : x ^ 2 = (1 - v.re) / 2 := Real.sq_sqrt (by linarith)
  have csq : c ^ 2 = (1 + v.re) / 2 := Real.sq_sqrt (by linarith)
  have xv : v = ⟨1 - 2 * x ^ 2, 2 * x * c⟩ := by
    apply Complex.ext
    · simp only; linarith
    · simp only
      have : (2 * x * c) ^ 2 = v.im ^ 2 := pse_two xsq csq vsq
      exact ((pow_left_inj₀ (by positivity) vim0 (by norm_num)).mp this).symm
  have x1 : x ≤ 18 / 25 := pse_x vre0 xsq
  -- the computed sine of the half-angle
  set r := (npSqrtC w).im with hr
  have rsq : r ^ 2 = ρ * x ^ 2 := by
    have := npSqrtC_im_sq' w
    have hw : w.re = ρ * v.re := by rw [vre]; field_simp
    rw [xsq]
    rw [← hr, ← hρ, hw] at this
    linarith
  set r' := F.sqrtIm w with hr'
  have r'b : |r' - r| ≤ u * |r| := hF.sqrtIm w hre him
  set D := F.mul r' r' with hD
  obtain ⟨D1, D2⟩ := relerr_bounds (hF.mul r' r') (mul_self_nonneg r')
  have r'1 : (1 - u) ^ 2 * r ^ 2 ≤ r' * r' := by
    have h1 : (1 - u) * |r| ≤ |r'| := by
      have := abs_sub_abs_le_abs_sub r r'
      rw [abs_sub_comm] at this
      linarith
    have h2 := mul_self_le_mul_self (mul_nonneg (by linarith) (abs_nonneg r)) h1
    rw [abs_mul_abs_self r'] at h2
    calc _ = (1 - u) * |r| * ((1 - u) * |r|) := by rw [← sq_abs r]; ring
      _ ≤ _ := h2
  have r'2 : r' * r' ≤ (1 + u) ^ 2 * r ^ 2 := by
    have h1 : |r'| ≤ (1 + u) * |r| := by
      have := abs_sub_abs_le_abs_sub r' r
      linarith
    have h2 := mul_self_le_mul_self (abs_nonneg r') h1
    rw [abs_mul_abs_self r'] at h2
    calc _ ≤ (1 + u) * |r| * ((1 + u) * |r|) := h2
      _ = _ := by rw [← sq_abs r]; ring
  have D0 : 0 ≤ D := le_trans (mul_nonneg (by linarith) (mul_self_nonneg r')) D1
  set x' := Real.sqrt D with hx'
  have x'0 : 0 ≤ x' := Real.sqrt_nonneg _
  have x'sq : x' ^ 2 = D := Real.sq_sqrt D0
  set K := τ + 2 * u with hK
  have K0 : 0 ≤ K := by positivity
  have K1 : K ≤ 1 / 100 := by linarith [hK]
  have xx : 0 ≤ x ^ 2 := sq_nonneg x
  have up : x' ≤ (1 + K) * x := by
    apply Real.sqrt_le_iff.mpr ⟨by positivity, ?_⟩
    have h1 : (1 + u) ^ 3 * (1 + τ) ≤ (1 + K) ^ 2 := K_up hu0 hτ0 hu hτ1
    calc D ≤ (1 + u) * (r' * r') := D2
      _ ≤ (1 + u) * ((1 + u) ^ 2 * r ^ 2) := mul_le_mul_of_nonneg_left r'2 (by linarith)
      _ = (1 + u) ^ 3 * ρ * x ^ 2 := by rw [rsq]; ring
      _ ≤ (1 + u) ^ 3 * (1 + τ) * x ^ 2 := by gcongr; linarith
      _ ≤ (1 + K) ^ 2 * x ^ 2 := mul_le_mul_of_nonneg_right h1 xx
      _ = _ := by ring
  have lo : (1 - K) * x ≤ x' := by
    apply Real.le_sqrt_of_sq_le
    have h1 : (1 - K) ^ 2 ≤ (1 - u) ^ 3 * (1 - τ) := K_lo hu0 hτ0 hu hτ1
    calc ((1 - K) * x) ^ 2 = (1 - K) ^ 2 * x ^ 2 := by ring
      _ ≤ (1 - u) ^ 3 * (1 - τ) * x ^ 2 := mul_le_mul_of_nonneg_right h1 xx
      _ ≤ (1 - u) ^ 3 * ρ * x ^ 2 := by
        have : 0 ≤ (1 - u) ^ 3 := pow_nonneg (by linarith) 3
        gcongr; linarith
      _ = (1 - u) * ((1 - u) ^ 2 * r ^ 2) := by rw [rsq]; ring
      _ ≤ (1 - u) * (r' * r') := mul_le_mul_of_nonneg_left r'1 (by linarith)
      _ ≤ D := D1
  have xx' : |x - x'| ≤ 4 / 5 * K := by
    have : K * x ≤ K * (18 / 25) := mul_le_mul_of_nonneg_left x1 K0
    rw [abs_le]; constructor <;> linarith
  have x'1 : x' ≤ 3 / 4 := by
    have : K * x ≤ 1 / 100 * (18 / 25) := mul_le_mul K1 x1 x0 (by norm_num)
    linarith
  set c' := Real.sqrt (1 - D) with hc'
  have c'0 : 0 ≤ c' := Real.sqrt_nonneg _
  have D34 : D ≤ 9 / 16 := by rw [← x'sq]; exact pse_sq x'0 x'1
  have c'sq : c' ^ 2 = 1 - x' ^ 2 := by rw [x'sq]; exact Real.sq_sqrt (by linarith)
  -- the point the recurrence follows
  set q := 2 * x' with hq
  have q0 : 0 ≤ q := by positivity
  have qsq : q ^ 2 = 4 * D := by rw [hq, mul_pow, x'sq]; ring
  have q3 : q ^ 2 ≤ 3 := by linarith
  set ω : ℂ := ⟨1 - q ^ 2 / 2, q * c'⟩ with hω
  have hω' : ω = ⟨1 - 2 * x' ^ 2, 2 * x' * c'⟩ := by
    apply Complex.ext
    · simp only [hω, hq]; ring
    · simp only [hω, hq]
  have vω : ‖v - ω‖ ≤ 4 * K := by
    rw [xv, hω']
    refine (half_angle_close x0 (by linarith) x'0 x'1 c0 c'0 (by linarith) c'sq).trans ?_
    linarith
  have cc : c' * c' = 1 - q ^ 2 / 4 := by rw [← pow_two, c'sq, hq]; ring
  have ωn : ‖ω‖ = 1 := by
    have : ‖ω‖ ^ 2 = 1 := by
      rw [← Complex.normSq_eq_norm_sq, Complex.normSq_apply]; simp only [hω]
      have : q * c' * (q * c') = q ^ 2 * (1 - q ^ 2 / 4) := by rw [← cc]; ring
      rw [this]; ring
    exact (pow_eq_one_iff_of_nonneg (norm_nonneg _) (by norm_num)).mp this
  have ω1 : ‖ω - 1‖ = q := by
    have : ‖ω - 1‖ ^ 2 = q ^ 2 := by
      rw [← Complex.normSq_eq_norm_sq, Complex.normSq_apply]; simp only [hω, sub_re, sub_im, one_re, one_im]
      have : (q * c' - 0) * (q * c' - 0) = q ^ 2 * (1 - q ^ 2 / 4) := by rw [← cc]; ring
      rw [this]; ring
    exact (pow_left_inj₀ (norm_nonneg _) q0 (by norm_num)).mp this
  have ω2 : ω ^ 2 = (2 - q ^ 2 : ℝ) * ω - 1 := by
    have : q * c' * (q * c') = q ^ 2 * (1 - q ^ 2 / 4) := by rw [← cc]; ring
    apply Complex.ext
    · rw [pow_two, mul_re, sub_re, mul_re, ofReal_re, ofReal_im, one_re, zero_mul, sub_zero]; simp only [hω]
      rw [this]; ring
    · rw [pow_two, mul_im, sub_im, mul_im, ofReal_re, ofReal_im, one_im, zero_mul, add_zero]; simp only [hω]; ring
  have hdc : dcF F w = -(q ^ 2 / 2) := by
    unfold dcF
    rw [(hF.double _).2, ← hr', ← hD, qsq]; ring
  have ht : F.mul 2 (dcF F w) = -q ^ 2 := by rw [(hF.double _).1, hdc]; ring
  -- error of the starting values
  set e1 := ‖w - ω‖ with he1
  have e1b : e1 ≤ τ + 4 * K := by
    have h1 : ‖w - v‖ ≤ τ := by
      have : w - v = ((ρ - 1 : ℝ) : ℂ) * v := by
        have hw : w = (ρ : ℂ) * v := by rw [hv]; field_simp [show (ρ : ℂ) ≠ 0 by exact_mod_cast ρ0.ne']
        conv_lhs => rw [hw]
        push_cast; ring
      rw [this, norm_mul, vn, mul_one, Complex.norm_real, Real.norm_eq_abs]
      exact hτ
    calc e1 = ‖(w - v) + (v - ω)‖ := by rw [sub_add_sub_cancel]
      _ ≤ _ := (norm_add_le _ _).trans (add_le_add h1 vω)
  have e10 : 0 ≤ e1 := norm_nonneg _
  -- error of the result with respect to the point followed
  have main : ‖powerSeq F w (k + 1) - ω ^ (k + 1)‖ ≤ (1 + 24 * u) ^ k * (1 + 40 * u + 6 * e1) - 1 := by
    have hseq : powerSeq F w (k + 1) = ((pstep F (-q ^ 2))^[k] (w, dzF F (-(q ^ 2 / 2)) w)).1 := by
      rw [powerSeq, ht, hdc]
    rw [hseq]
    rcases q0.eq_or_lt with h0 | h0
    · -- no rotation at all
      have hq2 : q ^ 2 = 0 := by rw [← h0]; norm_num
      have hω1 : ω = 1 := by
        apply Complex.ext
        · simp only [hω, hq2, one_re]; ring
        · simp only [hω, ← h0, one_im, zero_mul]
      have hdz : dzF F (-(q ^ 2 / 2)) w = 0 := by
        have := dzF_err hF (by linarith) q0 q3 c'0 (by linarith [cc]) (w := w) (ω := ω) (by linarith) rfl
        rw [← h0, hω1] at this
        simp only [mul_zero, zero_mul, add_zero, one_pow, sub_self, sub_zero] at this
        rw [← h0]
        exact norm_le_zero_iff.mp this
      rw [hdz, hω1, one_pow, hq2, neg_zero]
      have h1 := (piter_zero hF (by linarith) w k).2
      rw [← hω1, ← he1, hω1] at h1
      have h2 : (1 + u) ^ k * (1 + e1) ≤ (1 + 24 * u) ^ k * (1 + 40 * u + 6 * e1) := by
        apply mul_le_mul (pow_le_pow_left₀ (by linarith) (by linarith) k) (by linarith) (by positivity) (by positivity)
      linarith
    · have h1 := piter_err hF (by linarith) q0 q3 ωn ω1 ω2 (w, dzF F (-(q ^ 2 / 2)) w) k
      set P := (pstep F (-q ^ 2))^[k] (w, dzF F (-(q ^ 2 / 2)) w) with hP
      have h2 := le_pnorm_e q0 q3 (P.1 - ω ^ (k + 1)) (P.2 - (ω ^ (k + 2) - ω ^ (k + 1)))
      have h3 := dzF_err hF (by linarith) q0 q3 c'0 (by linarith [cc]) (w := w) (ω := ω) (by linarith) rfl
      have h4 := pnorm_le q0 q3 (w - ω ^ 1) (dzF F (-(q ^ 2 / 2)) w - (ω ^ 2 - ω ^ 1))
      have h5 : ‖w - ω ^ 1‖ = e1 := by rw [pow_one]
      rw [h5] at h4
      simp only at h1
      have h6 : q + 2 * pnorm q (w - ω ^ 1) (dzF F (-(q ^ 2 / 2)) w - (ω ^ 2 - ω ^ 1)) ≤ q * (1 + 40 * u + 6 * e1) := by
        linarith
      have h7 := mul_le_mul_of_nonneg_left h6 (show (0 : ℝ) ≤ (1 + 24 * u) ^ k by positivity)
      have h8 : q * ‖P.1 - ω ^ (k + 1)‖ ≤ q * ((1 + 24 * u) ^ k * (1 + 40 * u + 6 * e1) - 1) := by
        calc q * ‖P.1 - ω ^ (k + 1)‖ ≤ (1 + 24 * u) ^ k * (q * (1 + 40 * u + 6 * e1)) - q := by linarith
          _ = _ := by ring
      exact le_of_mul_le_mul_left h8 h0
  have hpow : (1 + 24 * u) ^ k ≤ 1 + 2 * (k * (24 * u)) := by
    exact one_add_pow_le' (by positivity) k (pse_small hk0 hu0 hτ0 hm)
  have hsec : ‖ω ^ (k + 1) - v ^ (k + 1)‖ ≤ (k + 1) * (4 * K) := by
    refine (norm_pow_sub_pow_le ωn vn (k + 1)).trans ?_
    rw [norm_sub_rev]
    push_cast
    exact mul_le_mul_of_nonneg_left vω (by positivity)
  have tot := norm_add_le (powerSeq F w (k + 1) - ω ^ (k + 1)) (ω ^ (k + 1) - v ^ (k + 1))
  rw [sub_add_sub_cancel] at tot
  exact pse_final hk0 hu0 hτ0 hm e10 e1b hpow main hsec tot

end SF
