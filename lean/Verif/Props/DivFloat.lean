import Verif.Props.ModesFloat
import Verif.Lemmas.Rounding

/-!
# C86, division by complex numbers

`Modes / number` and `Modes / array`: numpy divides complex numbers with Smith's algorithm.  Every quotient of modes has an error of at most
`sqrt 2 · gam u 8` times its modulus (eight roundings per component, and no cancellation beyond that of the exact formula).
-/

set_option autoImplicit false

namespace SF

section
variable {u : ℝ} {δ : ℕ → ℝ} {F : ModesOps}

/-- The reciprocal of Smith's denominator: four roundings. -/
theorem smith_scl (hF : F.Std u δ) (hu1 : u < 1) {r t : ℝ} (hr : r ≠ 0) :
    Near u 1 (F.div t r) (t / r) ∧ Near u 4 (F.div 1 (F.add r (F.mul t (F.div t r)))) (r / (r ^ 2 + t ^ 2)) := by
  have hu := hF.u_nonneg
  have n1 : Near u 1 (F.div t r) (t / r) := RelErr.fac hu hu1 (hF.div t r hr)
  have n2 : Near u 2 (F.mul t (F.div t r)) (t * (t / r)) :=
    Near.trans hu hu1 (RelErr.fac hu hu1 (hF.mul t (F.div t r))) (by simpa using Near.mul hu hu1 (Near.refl hu hu1 t) n1)
  have hr2 : 0 < r ^ 2 := by positivity
  have hN : 0 < r ^ 2 + t ^ 2 := by positivity
  have n3 : Near u 2 (r + F.mul t (F.div t r)) ((r ^ 2 + t ^ 2) / r) := by
    obtain ⟨θ, e, f⟩ := n2
    have hp : 0 < (1 - u) ^ 2 := pow_pos (by linarith) 2
    have hp1 : (1 - u) ^ 2 ≤ 1 := pow_le_one₀ (by linarith) (by linarith)
    refine ⟨(r ^ 2 + t ^ 2 * θ) / (r ^ 2 + t ^ 2), ?_, ?_, ?_⟩
    · rw [e]; field_simp
    · rw [le_div_iff₀ hN]
      nlinarith [sq_nonneg t, f.1]
    · rw [div_mul_eq_mul_div, div_le_one hN]
      nlinarith [sq_nonneg t, f.2]
  have n4 : Near u 3 (F.add r (F.mul t (F.div t r))) ((r ^ 2 + t ^ 2) / r) := Near.trans hu hu1 (RelErr.fac hu hu1 (hF.add _ _)) n3
  have hne : F.add r (F.mul t (F.div t r)) ≠ 0 := Near.ne_zero hu hu1 n4 (by positivity)
  refine ⟨n1, ?_⟩
  have := Near.trans hu hu1 (RelErr.fac hu hu1 (hF.div 1 _ hne)) (Near.div hu hu1 (Near.refl hu hu1 1) n4)
  simpa using this

/-- One component of a quotient. -/
theorem smith_comp (hF : F.Std u δ) (hu1 : u < 1) {a' a b' b c' c : ℝ} (ha : Near u 2 a' a) (hb : Near u 2 b' b) (hc : Near u 4 c' c) :
    |F.mul (F.add a' b') c' - (a + b) * c| ≤ gam u 8 * ((|a| + |b|) * |c|) := by
  have hu := hF.u_nonneg
  obtain ⟨x, ex, fx⟩ := ha
  obtain ⟨y, ey, fy⟩ := hb
  obtain ⟨z, ez, fz⟩ := hc
  obtain ⟨p, ep, fp⟩ := RelErr.fac hu hu1 (hF.add a' b')
  obtain ⟨q, eq, fq⟩ := RelErr.fac hu hu1 (hF.mul (F.add a' b') c')
  have k1 := Fac.abs_sub hu hu1 (Fac.mul hu hu1 (Fac.mul hu hu1 (Fac.mul hu hu1 fx fp) fz) fq)
  have k2 := Fac.abs_sub hu hu1 (Fac.mul hu hu1 (Fac.mul hu hu1 (Fac.mul hu hu1 fy fp) fz) fq)
  have e : F.mul (F.add a' b') c' - (a + b) * c = a * c * (x * p * z * q - 1) + b * c * (y * p * z * q - 1) := by
    rw [eq, ep, ex, ey, ez]; ring
  rw [e]
  refine (abs_add_le _ _).trans ?_
  rw [abs_mul, abs_mul, abs_mul, abs_mul]
  have j1 := mul_le_mul_of_nonneg_left k1 (mul_nonneg (abs_nonneg a) (abs_nonneg c))
  have j2 := mul_le_mul_of_nonneg_left k2 (mul_nonneg (abs_nonneg b) (abs_nonneg c))
  norm_num at j1 j2
  linarith

theorem cs_norm (a b c d : ℝ) : |a| * |b| + |c| * |d| ≤ Real.sqrt (a ^ 2 + c ^ 2) * Real.sqrt (b ^ 2 + d ^ 2) := by
  rw [← Real.sqrt_mul (by positivity)]
  apply Real.le_sqrt_of_sq_le
  have h1 := sq_abs a
  have h2 := sq_abs b
  have h3 := sq_abs c
  have h4 := sq_abs d
  nlinarith [sq_nonneg (|a| * |d| - |b| * |c|), sq_abs a, mul_self_nonneg (|a| * |d| - |c| * |b|)]

/-- **C86 (Smith's division).** The computed quotient of two complex numbers has relative error at most `sqrt 2 · gam u 8`. -/
theorem mDiv_norm (hF : F.Std u δ) (hu1 : u < 1) (x : ℂ) {y : ℂ} (hy : y ≠ 0) : ‖mDiv F x y - x / y‖ ≤ Real.sqrt 2 * gam u 8 * ‖x / y‖ := by
  have hu := hF.u_nonneg
  have hg := gam_nonneg hu hu1 8
  have nrm : ∀ w : ℂ, ‖w‖ = Real.sqrt (w.re ^ 2 + w.im ^ 2) := fun w => by
    rw [Complex.norm_def, Complex.normSq_apply]; congr 1; ring
  have hN : 0 < y.re ^ 2 + y.im ^ 2 := by
    have := Complex.normSq_pos.2 hy
    rw [Complex.normSq_apply] at this; nlinarith
  have hxy : ‖x‖ * ‖y‖ / (y.re ^ 2 + y.im ^ 2) = ‖x / y‖ := by
    have hy0 : ‖y‖ ≠ 0 := norm_ne_zero_iff.2 hy
    have : y.re ^ 2 + y.im ^ 2 = ‖y‖ * ‖y‖ := by rw [nrm, Real.mul_self_sqrt hN.le]
    rw [this, norm_div]; field_simp
  have ere : (x / y).re = (x.re * y.re + x.im * y.im) / (y.re ^ 2 + y.im ^ 2) := by
    rw [Complex.div_re, Complex.normSq_apply]; rw [← add_div]; congr 1; ring
  have eim : (x / y).im = (x.im * y.re - x.re * y.im) / (y.re ^ 2 + y.im ^ 2) := by
    rw [Complex.div_im, Complex.normSq_apply]; rw [← sub_div]; congr 1; ring
  have fin : |(mDiv F x y).re - (x / y).re| ≤ gam u 8 * ‖x / y‖ → |(mDiv F x y).im - (x / y).im| ≤ gam u 8 * ‖x / y‖ →
      ‖mDiv F x y - x / y‖ ≤ Real.sqrt 2 * gam u 8 * ‖x / y‖ := by
    intro h1 h2
    rw [nrm, mul_assoc]
    have hp : 0 ≤ gam u 8 * ‖x / y‖ := by positivity
    rw [← Real.sqrt_sq hp, ← Real.sqrt_mul (by norm_num)]
    apply Real.sqrt_le_sqrt
    rw [Complex.sub_re, Complex.sub_im, ← sq_abs, ← sq_abs ((mDiv F x y).im - _)]
    have := pow_le_pow_left₀ (abs_nonneg _) h1 2
    have := pow_le_pow_left₀ (abs_nonneg _) h2 2
    linarith
  have cs1 : (|x.re| * |y.re| + |x.im| * |y.im|) / (y.re ^ 2 + y.im ^ 2) ≤ ‖x / y‖ := by
    rw [← hxy, nrm x, nrm y]
    exact div_le_div_of_nonneg_right (cs_norm _ _ _ _) hN.le
  have cs2 : (|x.im| * |y.re| + |x.re| * |y.im|) / (y.re ^ 2 + y.im ^ 2) ≤ ‖x / y‖ := by
    rw [← hxy, nrm x, nrm y, add_comm (x.re ^ 2)]
    exact div_le_div_of_nonneg_right (cs_norm _ _ _ _) hN.le
  have mulN : ∀ {z r' r : ℝ}, Near u 1 r' r → Near u 2 (F.mul z r') (z * r) := fun {z r' r} h =>
    Near.trans hu hu1 (RelErr.fac hu hu1 (hF.mul z r')) (by simpa using Near.mul hu hu1 (Near.refl hu hu1 z) h)
  have r2 : ∀ z : ℝ, Near u 2 z z := fun z => Near.mono hu hu1 (Nat.zero_le 2) (Near.refl hu hu1 z)
  by_cases hc : |y.im| ≤ |y.re|
  · have hr : y.re ≠ 0 := fun h => by
      rw [h, abs_zero] at hc
      have := abs_nonpos_iff.1 hc
      rw [h, this] at hN; norm_num at hN
    obtain ⟨n1, n4⟩ := smith_scl hF hu1 (t := y.im) hr
    have k1 := smith_comp hF hu1 (r2 x.re) (mulN (z := x.im) n1) n4
    have k2 := smith_comp hF hu1 (r2 x.im) (Near.neg hu hu1 (mulN (z := x.re) n1)) n4
    have a1 : (|x.re| + |x.im * (y.im / y.re)|) * |y.re / (y.re ^ 2 + y.im ^ 2)|
        = (|x.re| * |y.re| + |x.im| * |y.im|) / (y.re ^ 2 + y.im ^ 2) := by
      rw [abs_mul, abs_div, abs_div, abs_of_pos hN]
      have : |y.re| ≠ 0 := abs_ne_zero.2 hr
      field_simp
    have a2 : (|x.im| + |-(x.re * (y.im / y.re))|) * |y.re / (y.re ^ 2 + y.im ^ 2)|
        = (|x.im| * |y.re| + |x.re| * |y.im|) / (y.re ^ 2 + y.im ^ 2) := by
      rw [abs_neg, abs_mul, abs_div, abs_div, abs_of_pos hN]
      have : |y.re| ≠ 0 := abs_ne_zero.2 hr
      field_simp
    rw [a1] at k1
    rw [a2] at k2
    have d1 : (x.re + x.im * (y.im / y.re)) * (y.re / (y.re ^ 2 + y.im ^ 2)) = (x / y).re := by rw [ere]; field_simp
    have d2 : (x.im + -(x.re * (y.im / y.re))) * (y.re / (y.re ^ 2 + y.im ^ 2)) = (x / y).im := by rw [eim]; field_simp; ring
    rw [d1] at k1
    rw [d2] at k2
    apply fin
    · unfold mDiv; rw [if_pos hc]
      exact k1.trans (mul_le_mul_of_nonneg_left cs1 hg)
    · unfold mDiv; rw [if_pos hc]
      exact k2.trans (mul_le_mul_of_nonneg_left cs2 hg)
  · have hr : y.im ≠ 0 := fun h => by rw [h, abs_zero] at hc; exact hc (abs_nonneg _)
    obtain ⟨n1, n4⟩ := smith_scl hF hu1 (t := y.re) hr
    have k1 := smith_comp hF hu1 (mulN (z := x.re) n1) (r2 x.im) n4
    have k2 := smith_comp hF hu1 (mulN (z := x.im) n1) (r2 (-x.re)) n4
    have hN' : y.im ^ 2 + y.re ^ 2 = y.re ^ 2 + y.im ^ 2 := by ring
    rw [hN'] at k1 k2
    have a1 : (|x.re * (y.re / y.im)| + |x.im|) * |y.im / (y.re ^ 2 + y.im ^ 2)|
        = (|x.re| * |y.re| + |x.im| * |y.im|) / (y.re ^ 2 + y.im ^ 2) := by
      rw [abs_mul, abs_div, abs_div, abs_of_pos hN]
      have : |y.im| ≠ 0 := abs_ne_zero.2 hr
      field_simp
    have a2 : (|x.im * (y.re / y.im)| + |-x.re|) * |y.im / (y.re ^ 2 + y.im ^ 2)|
        = (|x.im| * |y.re| + |x.re| * |y.im|) / (y.re ^ 2 + y.im ^ 2) := by
      rw [abs_neg, abs_mul, abs_div, abs_div, abs_of_pos hN]
      have : |y.im| ≠ 0 := abs_ne_zero.2 hr
      field_simp
    rw [a1] at k1
    rw [a2] at k2
    have d1 : (x.re * (y.re / y.im) + x.im) * (y.im / (y.re ^ 2 + y.im ^ 2)) = (x / y).re := by rw [ere]; field_simp
    have d2 : (x.im * (y.re / y.im) + -x.re) * (y.im / (y.re ^ 2 + y.im ^ 2)) = (x / y).im := by rw [eim]; field_simp; ring
    rw [d1] at k1
    rw [d2] at k2
    apply fin
    · unfold mDiv; rw [if_neg hc]
      exact k1.trans (mul_le_mul_of_nonneg_left cs1 hg)
    · unfold mDiv; rw [if_neg hc]
      exact k2.trans (mul_le_mul_of_nonneg_left cs2 hg)

/-- **C86 (division by complex numbers).** `f / a` for a number or an array `a` without zeros: no exception, the metadata of the exact
quotient, and every mode has an error of at most `sqrt 2 · gam u 8` times its modulus. -/
theorem C86_divide (hF : F.Std u δ) (hu1 : u < 1) (f : Modes) (hf : f.WF) (hf0 : 0 ≤ f.ell_max) (a : Scalars) {lead : List ℕ}
    (hdim : a.shape.length ≤ f.lead.length) (hb : bcastShape f.lead a.shape = some lead) (hne : ∀ idx, a.val idx ≠ 0) :
    ∃ g' g, f.divScalarF F a = .ok g' ∧ f.divideScalar a = .ok g ∧ g'.WF ∧ g'.lead = g.lead ∧ g'.s = g.s ∧ g'.ell_max = g.ell_max ∧
      g'.trunc = g.trunc ∧ ∀ l m, |m| ≤ l → ∀ idx, ‖g'.coef l m idx - g.coef l m idx‖ ≤ Real.sqrt 2 * gam u 8 * ‖g.coef l m idx‖ := by
  have gen : ∀ op : ℂ → ℂ → ℂ, f.ufuncMulScalar op a = f.scalarUfunc op a := by
    intro op
    unfold Modes.ufuncMulScalar Modes.check_broadcasting
    rw [if_neg (by omega), if_neg (hf.dat_ne_nil hf0), bind_ok, hb]
    rfl
  obtain ⟨g', e1, e2, e3, e4, e5, e6, e7⟩ := scalarUfunc_ok hf (mDiv F) a hb
  obtain ⟨g, d1, d2, d3, d4, d5, d6, d7⟩ := scalarUfunc_ok hf (· / ·) a hb
  refine ⟨g', g, (gen _).trans e1, (gen _).trans d1, e2, e3.trans d3.symm, e4.trans d4.symm, e5.trans d5.symm, e6.trans d6.symm, ?_⟩
  intro l m hm idx
  by_cases h1 : l ≤ f.ell_max
  · by_cases h2 : |f.s| ≤ l
    · rw [e7 l m h2 hm h1, d7 l m h2 hm h1]
      exact mDiv_norm hF hu1 _ (hne _)
    · rw [e2.low l m (by rw [e4]; omega) hm (by rw [e5]; exact h1), d2.low l m (by rw [d4]; omega) hm (by rw [d5]; exact h1)]
      simp
  · rw [coef_of_gt e2 hm (by rw [e5]; omega), coef_of_gt d2 hm (by rw [d5]; omega)]
    simp

end

/-- Non-vacuity of `C86_divide`: `exModes / (3 - 4i)` in arithmetic with errors. -/
example : ∃ g, exModes.divScalarF (sloppyOps (2 ^ (-53 : ℤ))) ⟨[], fun _ => 3 - 4 * Complex.I⟩ = .ok g ∧ g.WF := by
  obtain ⟨g', g, e1, e2, e3, -⟩ := C86_divide (sloppyOps_std (u := 2 ^ (-53 : ℤ)) (by positivity)) (by norm_num) exModes exModes_WF (by decide)
    ⟨[], fun _ => 3 - 4 * Complex.I⟩ (lead := [2]) (by decide) (by decide)
    (fun _ h => by have := congrArg Complex.re h; simp at this)
  exact ⟨g', e1, e3⟩

end SF
