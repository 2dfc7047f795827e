import Verif.Model.ConvFloat
import Verif.Props.Conversions
import Verif.Props.ModesFloat
import Verif.Lemmas.Rounding

/-!
# C88: rounding errors of `mode_conversions.py`

`CRel ε z' z` says that the real and the imaginary part of `z'` have relative error at most `ε`; `gam u k = (1-u)^(-k) - 1` is the effect of
`k` roundings, about `k u`.
-/

set_option autoImplicit false

namespace SF

open Finset ComplexConjugate

section
variable {u : ℝ} {δ : ℕ → ℝ} {M : ℤ} {F : ConvOps} (hF : F.Std u δ M)
include hF

theorem sqrt_facC {θ : ℝ} {k : ℕ} (f : Fac u k θ) : Fac u k (Real.sqrt θ) := by
  have hu0 := hF.u_nonneg
  have hu1 := hF.u_lt_one
  have θ0 := Fac.pos hu0 hu1 f
  have p : 0 < (1 - u) ^ k := pow_pos (by linarith) k
  have p1 : (1 - u) ^ k ≤ 1 := pow_le_one₀ (by linarith) (by linarith)
  have f1 := f.1
  have f2 := f.2
  unfold Fac
  constructor
  · apply Real.le_sqrt_of_sq_le
    nlinarith
  · have h : Real.sqrt θ ≤ ((1 - u) ^ k)⁻¹ := by
      rw [Real.sqrt_le_left (by positivity), inv_pow]
      rw [← one_div, le_div_iff₀ (by positivity)]
      nlinarith
    calc Real.sqrt θ * (1 - u) ^ k ≤ ((1 - u) ^ k)⁻¹ * (1 - u) ^ k := mul_le_mul_of_nonneg_right h p.le
      _ = 1 := inv_mul_cancel₀ p.ne'

theorem sqrt_nearC {k : ℕ} {x' x : ℝ} (h : Near u k x' x) (hx : 0 ≤ x) : Near u (k + 1) (F.sqrt x') (Real.sqrt x) := by
  have hu0 := hF.u_nonneg
  have hu1 := hF.u_lt_one
  obtain ⟨θ, e, f⟩ := h
  have θ0 := Fac.pos hu0 hu1 f
  have a := (hF.sqrt x' (by rw [e]; positivity)).fac hu0 hu1
  have b : Near u k (Real.sqrt x') (Real.sqrt x) := ⟨Real.sqrt θ, by rw [e, Real.sqrt_mul hx], sqrt_facC hF f⟩
  exact a.trans hu0 hu1 b

theorem mul_nearC {k l : ℕ} {x' x y' y : ℝ} (h : Near u k x' x) (g : Near u l y' y) : Near u (k + l + 1) (F.mul x' y') (x * y) :=
  ((hF.mul x' y').fac hF.u_nonneg hF.u_lt_one).trans hF.u_nonneg hF.u_lt_one (h.mul hF.u_nonneg hF.u_lt_one g)

theorem div_nearC {k l : ℕ} {x' x y' y : ℝ} (h : Near u k x' x) (g : Near u l y' y) (hy : y ≠ 0) : Near u (k + l + 1) (F.div x' y') (x / y) :=
  ((hF.div x' y' (g.ne_zero hF.u_nonneg hF.u_lt_one hy)).fac hF.u_nonneg hF.u_lt_one).trans hF.u_nonneg hF.u_lt_one
    (h.div hF.u_nonneg hF.u_lt_one g)

theorem quot_nearC {k l : ℕ} {x' x y' y : ℝ} (h : Near u k x' x) (g : Near u l y' y) (hy : y ≠ 0) : Near u (k + l + 2) (F.quot x' y') (x / y) :=
  Near.trans hF.u_nonneg hF.u_lt_one (hF.quot x' y' (g.ne_zero hF.u_nonneg hF.u_lt_one hy)) (h.div hF.u_nonneg hF.u_lt_one g)

theorem refl0 (x : ℝ) : Near u 0 x x := Near.refl hF.u_nonneg hF.u_lt_one x

theorem pi_near : Near u 1 F.pi Real.pi := hF.pi.fac hF.u_nonneg hF.u_lt_one

theorem sqrt4pi_near : Near u 3 (sqrt4piF F) (Real.sqrt (4 * Real.pi)) :=
  sqrt_nearC hF (mul_nearC hF (refl0 hF 4) (pi_near hF)) (by have := Real.pi_pos; positivity)

theorem sqrt2pi3_near : Near u 4 (sqrt2pi3F F) (Real.sqrt (2 * Real.pi / 3)) :=
  sqrt_nearC hF (div_nearC hF (mul_nearC hF (refl0 hF 2) (pi_near hF)) (refl0 hF 3) (by norm_num)) (by have := Real.pi_pos; positivity)

theorem sqrt4pi3_near : Near u 4 (sqrt4pi3F F) (Real.sqrt (4 * Real.pi / 3)) :=
  sqrt_nearC hF (div_nearC hF (mul_nearC hF (refl0 hF 4) (pi_near hF)) (refl0 hF 3) (by norm_num)) (by have := Real.pi_pos; positivity)

theorem sqrt4pi_ne : sqrt4piF F ≠ 0 :=
  (sqrt4pi_near hF).ne_zero hF.u_nonneg hF.u_lt_one (Real.sqrt_pos.mpr (by have := Real.pi_pos; positivity)).ne'

theorem sqrt2pi3_ne : sqrt2pi3F F ≠ 0 :=
  (sqrt2pi3_near hF).ne_zero hF.u_nonneg hF.u_lt_one (Real.sqrt_pos.mpr (by have := Real.pi_pos; positivity)).ne'

theorem sqrt4pi3_ne : sqrt4pi3F F ≠ 0 :=
  (sqrt4pi3_near hF).ne_zero hF.u_nonneg hF.u_lt_one (Real.sqrt_pos.mpr (by have := Real.pi_pos; positivity)).ne'

/-- Two components with a number of roundings. -/
theorem crel_of_near {k n : ℕ} (hk : k ≤ n) {z' z : ℂ} (h1 : Near u k z'.re z.re) (h2 : Near u k z'.im z.im) : CRel (gam u n) z' z := by
  have hu0 := hF.u_nonneg
  have hu1 := hF.u_lt_one
  exact ⟨(h1.mono hu0 hu1 hk).err hu0 hu1, (h2.mono hu0 hu1 hk).err hu0 hu1⟩

theorem cScale_near {k l : ℕ} {z' z : ℂ} {c' c : ℝ} (h1 : Near u k z'.re z.re) (h2 : Near u k z'.im z.im) (hc : Near u l c' c) :
    Near u (k + l + 1) (cScaleF F z' c').re (z * (c : ℂ)).re ∧ Near u (k + l + 1) (cScaleF F z' c').im (z * (c : ℂ)).im := by
  rw [Complex.re_mul_ofReal, Complex.im_mul_ofReal]
  exact ⟨mul_nearC hF h1 hc, mul_nearC hF h2 hc⟩

theorem cQuot_near {k l : ℕ} {z' z : ℂ} {c' c : ℝ} (h1 : Near u k z'.re z.re) (h2 : Near u k z'.im z.im) (hc : Near u l c' c) (h0 : c ≠ 0) :
    Near u (k + l + 2) (cQuotF F z' c').re (z / (c : ℂ)).re ∧ Near u (k + l + 2) (cQuotF F z' c').im (z / (c : ℂ)).im := by
  rw [Complex.div_ofReal_re, Complex.div_ofReal_im]
  exact ⟨quot_nearC hF h1 hc h0, quot_nearC hF h2 hc h0⟩

theorem mAdd_near (x y : ℂ) : Near u 1 (mAdd F.toModesOps x y).re (x + y).re ∧ Near u 1 (mAdd F.toModesOps x y).im (x + y).im :=
  ⟨(hF.add _ _).fac hF.u_nonneg hF.u_lt_one, (hF.add _ _).fac hF.u_nonneg hF.u_lt_one⟩

theorem mSub_near (x y : ℂ) : Near u 1 (mSub F.toModesOps x y).re (x - y).re ∧ Near u 1 (mSub F.toModesOps x y).im (x - y).im := by
  rw [Complex.sub_re, Complex.sub_im, sub_eq_add_neg, sub_eq_add_neg]
  exact ⟨(hF.add _ _).fac hF.u_nonneg hF.u_lt_one, (hF.add _ _).fac hF.u_nonneg hF.u_lt_one⟩

/-! ## Constants and vectors -/

/-- **C88 (constants).** `constant_as_ell_0_mode` and `constant_from_ell_0_mode` have relative errors of four and five roundings in each
component; composing them in either order loses only three roundings, whatever the error of the factor `sqrt(4 pi)`. -/
theorem C88_constant (c : ℂ) :
    CRel (gam u 4) (constant_as_ell_0_modeF F c) (constant_as_ell_0_mode c) ∧
    CRel (gam u 5) (constant_from_ell_0_modeF F c) (constant_from_ell_0_mode c) ∧
    CRel (gam u 3) (constant_from_ell_0_modeF F (constant_as_ell_0_modeF F c)) c ∧
    CRel (gam u 3) (constant_as_ell_0_modeF F (constant_from_ell_0_modeF F c)) c := by
  have hn := (Real.sqrt_pos.mpr (show 0 < 4 * Real.pi by have := Real.pi_pos; positivity)).ne'
  have k := sqrt4pi_near hF
  have k0 := sqrt4pi_ne hF
  have r := refl0 hF c.re
  have i := refl0 hF c.im
  refine ⟨?_, ?_, ?_, ?_⟩
  · have := cScale_near hF r i k
    exact crel_of_near hF (by omega) this.1 this.2
  · have := cQuot_near hF r i k hn
    exact crel_of_near hF (by omega) this.1 this.2
  · have a := cScale_near hF r i (refl0 hF (sqrt4piF F))
    have := cQuot_near hF a.1 a.2 (refl0 hF (sqrt4piF F)) k0
    rw [mul_div_cancel_right₀ _ (by exact_mod_cast k0)] at this
    exact crel_of_near hF (by omega) this.1 this.2
  · have a := cQuot_near hF r i (refl0 hF (sqrt4piF F)) k0
    have := cScale_near hF a.1 a.2 (refl0 hF (sqrt4piF F))
    rw [div_mul_cancel₀ _ (by exact_mod_cast k0)] at this
    exact crel_of_near hF (by omega) this.1 this.2

/-- **C88 (vectors).** Every component of the modes of a vector, and of the vector of given modes, has relative error of at most six and
seven roundings. -/
theorem C88_vector (v : ℂ × ℂ × ℂ) :
    (CRel (gam u 6) (vector_as_ell_1_modesF F v).1 (vector_as_ell_1_modes v).1 ∧
      CRel (gam u 6) (vector_as_ell_1_modesF F v).2.1 (vector_as_ell_1_modes v).2.1 ∧
      CRel (gam u 6) (vector_as_ell_1_modesF F v).2.2 (vector_as_ell_1_modes v).2.2) ∧
    (CRel (gam u 7) (vector_from_ell_1_modesF F v).1 (vector_from_ell_1_modes v).1 ∧
      CRel (gam u 7) (vector_from_ell_1_modesF F v).2.1 (vector_from_ell_1_modes v).2.1 ∧
      CRel (gam u 7) (vector_from_ell_1_modesF F v).2.2 (vector_from_ell_1_modes v).2.2) := by
  have hp := Real.pi_pos
  have hn := (Real.sqrt_pos.mpr (show 0 < 4 * Real.pi / 3 by positivity)).ne'
  have hn2 := (Real.sqrt_pos.mpr (show 0 < 2 * Real.pi / 3 by positivity)).ne'
  have hn2' : 2 * Real.sqrt (2 * Real.pi / 3) ≠ 0 := mul_ne_zero (by norm_num) hn2
  have k := sqrt4pi3_near hF
  have k2 := sqrt2pi3_near hF
  have k2' : Near u 4 (F.mul 2 (sqrt2pi3F F)) (2 * Real.sqrt (2 * Real.pi / 3)) := by
    rw [hF.two_mul]
    obtain ⟨θ, e, f⟩ := k2
    exact ⟨θ, by rw [e]; ring, f⟩
  refine ⟨⟨?_, ?_, ?_⟩, ?_, ?_, ?_⟩
  · have a := mAdd_near hF v.1 (Complex.I * v.2.1)
    have := cScale_near hF a.1 a.2 k2
    exact crel_of_near hF (by omega) this.1 this.2
  · have := cScale_near hF (refl0 hF v.2.2.re) (refl0 hF v.2.2.im) k
    exact crel_of_near hF (by omega) this.1 this.2
  · have a := mAdd_near hF (-v.1) (Complex.I * v.2.1)
    have := cScale_near hF a.1 a.2 k2
    exact crel_of_near hF (by omega) this.1 this.2
  · have a := mSub_near hF v.1 v.2.2
    have := cQuot_near hF a.1 a.2 k2' hn2'
    rw [Complex.ofReal_mul, Complex.ofReal_ofNat] at this
    exact crel_of_near hF (by omega) this.1 this.2
  · have a := mAdd_near hF v.1 v.2.2
    have b1 := quot_nearC hF a.2 k2' hn2'
    have b2 := quot_nearC hF (a.1.neg hF.u_nonneg hF.u_lt_one) k2' hn2'
    have e : (vector_from_ell_1_modes v).2.1 = ⟨(v.1 + v.2.2).im / (2 * Real.sqrt (2 * Real.pi / 3)), -(v.1 + v.2.2).re / (2 * Real.sqrt (2 * Real.pi / 3))⟩ := by
      unfold vector_from_ell_1_modes
      simp only
      have hc : (Real.sqrt (2 * Real.pi / 3) : ℂ) ≠ 0 := by exact_mod_cast hn2
      rw [div_eq_iff (mul_ne_zero (mul_ne_zero (by norm_num) Complex.I_ne_zero) hc)]
      apply Complex.ext
      · simp [Complex.mul_re]
        field_simp
        ring
      · simp [Complex.mul_im]
        field_simp
    rw [e]
    exact crel_of_near hF (show 1 + 4 + 2 ≤ 7 by omega) b1 b2
  · have := cQuot_near hF (refl0 hF v.2.1.re) (refl0 hF v.2.1.im) k hn
    exact crel_of_near hF (by omega) this.1 this.2

/-- **C88 (round trip of a real vector).** For a real vector the composition of the two functions returns a vector which is exactly real,
and each component of which has a relative error of at most three roundings, however different the components are in size. -/
theorem C88_real_vector (x y z : ℝ) :
    ∃ x' y' z' : ℝ, vector_from_ell_1_modesF F (vector_as_ell_1_modesF F (x, y, z)) = ((x' : ℂ), (y' : ℂ), (z' : ℂ)) ∧
      RelErr (gam u 3) x' x ∧ RelErr (gam u 3) y' y ∧ RelErr (gam u 3) z' z := by
  have hu0 := hF.u_nonneg
  have hu1 := hF.u_lt_one
  have hF' := hF.toStd
  have k0 := sqrt2pi3_ne hF
  have k1 := sqrt4pi3_ne hF
  set K := sqrt2pi3F F with hK
  have add0 : ∀ a, F.add 0 a = a := fun a => by rw [hF.add_comm, hF.add_zero]
  have q0 : ∀ k, k ≠ 0 → F.quot 0 k = 0 := by
    intro k hk
    obtain ⟨θ, e, -⟩ := hF.quot 0 k hk
    rw [e]; simp
  have addneg : ∀ a, F.add a (-a) = 0 := fun a => relErr_zero (by have := hF.add a (-a); rwa [add_neg_cancel] at this)
  have h2 : ∀ a, Near u 3 (F.quot (2 * F.mul a K) (2 * K)) a := by
    intro a
    have := quot_nearC hF (Near.refl hu0 hu1 2 |>.mul hu0 hu1 ((hF.mul a K).fac hu0 hu1)) (refl0 hF (2 * K)) (mul_ne_zero (by norm_num) k0)
    rw [mul_div_mul_left _ _ (by norm_num : (2 : ℝ) ≠ 0), mul_div_cancel_right₀ _ k0] at this
    exact this.mono hu0 hu1 (by omega)
  have e1 : mAdd F.toModesOps (x : ℂ) (Complex.I * (y : ℂ)) = ⟨x, y⟩ := by
    unfold mAdd
    apply Complex.ext <;> simp [hF.add_zero, add0]
  have e2 : mAdd F.toModesOps (-(x : ℂ)) (Complex.I * (y : ℂ)) = ⟨-x, y⟩ := by
    unfold mAdd
    apply Complex.ext <;> simp [hF.add_zero, add0]
  refine ⟨F.quot (2 * F.mul x K) (2 * K), F.quot (2 * F.mul y K) (2 * K), F.quot (F.mul z (sqrt4pi3F F)) (sqrt4pi3F F), ?_,
    (h2 x).err hu0 hu1, (h2 y).err hu0 hu1, ?_⟩
  · unfold vector_from_ell_1_modesF vector_as_ell_1_modesF
    simp only
    rw [e1, e2, ← hK, hF.two_mul]
    refine Prod.ext ?_ (Prod.ext ?_ ?_)
    · apply Complex.ext
      · simp [cQuotF, mSub, cScaleF, hF.mul_neg, hF.double]
      · simp [cQuotF, mSub, cScaleF, addneg, q0 _ (mul_ne_zero (two_ne_zero) k0)]
    · apply Complex.ext
      · simp [cQuotIF, mAdd, cScaleF, hF.double]
      · simp [cQuotIF, mAdd, cScaleF, hF.mul_neg, addneg, q0 _ (mul_ne_zero (two_ne_zero) k0)]
    · apply Complex.ext
      · simp [cQuotF, cScaleF]
      · simp [cQuotF, cScaleF, zero_mulF hF', q0 _ k1]
  · have := quot_nearC hF ((hF.mul z (sqrt4pi3F F)).fac hu0 hu1) (refl0 hF (sqrt4pi3F F)) k1
    rw [mul_div_cancel_right₀ _ k1] at this
    exact (this.mono hu0 hu1 (by omega)).err hu0 hu1

/-- The error in half the difference of two numbers that were scaled, each with rounding. -/
theorem half_diff (p q : ℝ) {k : ℕ} {θ φ : ℝ} (hθ : Fac u k θ) (hφ : Fac u k φ) :
    |((p - q) * θ + (p + q) * φ) / 2 - p| ≤ gam u k * (|p| + |q|) := by
  have hu0 := hF.u_nonneg
  have hu1 := hF.u_lt_one
  have g := gam_nonneg hu0 hu1 k
  have a := hθ.abs_sub hu0 hu1
  have b := hφ.abs_sub hu0 hu1
  have e : ((p - q) * θ + (p + q) * φ) / 2 - p = ((p - q) * (θ - 1) + (p + q) * (φ - 1)) / 2 := by ring
  have c1 : |p - q| ≤ |p| + |q| := abs_sub p q
  have c2 : |p + q| ≤ |p| + |q| := abs_add_le p q
  rw [e, abs_div, abs_two, div_le_iff₀ (by norm_num)]
  refine (abs_add_le _ _).trans ?_
  rw [abs_mul, abs_mul]
  have d1 : |p - q| * |θ - 1| ≤ (|p| + |q|) * gam u k := mul_le_mul c1 a (abs_nonneg _) (by positivity)
  have d2 : |p + q| * |φ - 1| ≤ (|p| + |q|) * gam u k := mul_le_mul c2 b (abs_nonneg _) (by positivity)
  linarith

/-- **C88 (round trip of a complex vector).** For any vector the error of the `x` and `y` components is at most five roundings relative to the
size of the two components, and that of `z` three roundings. -/
theorem C88_complex_vector (v : ℂ × ℂ × ℂ) :
    ‖(vector_from_ell_1_modesF F (vector_as_ell_1_modesF F v)).1 - v.1‖ ≤ 2 * gam u 5 * (‖v.1‖ + ‖v.2.1‖) ∧
    ‖(vector_from_ell_1_modesF F (vector_as_ell_1_modesF F v)).2.1 - v.2.1‖ ≤ 2 * gam u 5 * (‖v.1‖ + ‖v.2.1‖) ∧
    CRel (gam u 3) (vector_from_ell_1_modesF F (vector_as_ell_1_modesF F v)).2.2 v.2.2 := by
  have hu0 := hF.u_nonneg
  have hu1 := hF.u_lt_one
  have k0 := sqrt2pi3_ne hF
  have k1 := sqrt4pi3_ne hF
  have g := gam_nonneg hu0 hu1 5
  obtain ⟨x, y, z⟩ := v
  set K := sqrt2pi3F F with hK
  -- one component: the result is `((p - q) θ + (p + q) φ)/2`
  have core : ∀ p q : ℝ,
      |F.quot (F.add (F.mul (F.add p (-q)) K) (F.mul (F.add p q) K)) (2 * K) - p| ≤ gam u 5 * (|p| + |q|) := by
    intro p q
    obtain ⟨θ1, e1, f1⟩ := mul_nearC hF ((hF.add p (-q)).fac hu0 hu1) (refl0 hF K)
    obtain ⟨θ2, e2, f2⟩ := mul_nearC hF ((hF.add p q).fac hu0 hu1) (refl0 hF K)
    obtain ⟨θ3, e3, f3⟩ := (hF.add (F.mul (F.add p (-q)) K) (F.mul (F.add p q) K)).fac hu0 hu1
    obtain ⟨θ4, e4, f4⟩ := hF.quot (F.add (F.mul (F.add p (-q)) K) (F.mul (F.add p q) K)) (2 * K) (mul_ne_zero two_ne_zero k0)
    have E : F.quot (F.add (F.mul (F.add p (-q)) K) (F.mul (F.add p q) K)) (2 * K)
        = ((p - q) * (θ1 * θ3 * θ4) + (p + q) * (θ2 * θ3 * θ4)) / 2 := by
      rw [e4, e3, e1, e2]
      field_simp
      ring
    rw [E]
    exact half_diff hF p q (Fac.mul hu0 hu1 (Fac.mul hu0 hu1 f1 f3) f4) (Fac.mul hu0 hu1 (Fac.mul hu0 hu1 f2 f3) f4)
  have mulneg2 : ∀ a b, F.add (-a) b = -F.add a (-b) := by
    intro a b
    have := hF.add_neg a (-b)
    rwa [neg_neg] at this
  have fin : ∀ (w : ℂ) (a b : ℝ), |w.re| ≤ a → |w.im| ≤ b → ‖w‖ ≤ a + b := fun w a b h1 h2 =>
    (Complex.norm_le_abs_re_add_abs_im w).trans (add_le_add h1 h2)
  have hx1 := Complex.abs_re_le_norm x
  have hx2 := Complex.abs_im_le_norm x
  have hy1 := Complex.abs_re_le_norm y
  have hy2 := Complex.abs_im_le_norm y
  have bnd : ∀ a b : ℝ, a ≤ ‖x‖ → b ≤ ‖y‖ → gam u 5 * (a + b) ≤ gam u 5 * (‖x‖ + ‖y‖) := fun a b h1 h2 =>
    mul_le_mul_of_nonneg_left (add_le_add h1 h2) g
  have bnd' : ∀ a b : ℝ, a ≤ ‖x‖ → b ≤ ‖y‖ → gam u 5 * (b + a) ≤ gam u 5 * (‖x‖ + ‖y‖) := fun a b h1 h2 =>
    mul_le_mul_of_nonneg_left (by linarith) g
  refine ⟨?_, ?_, ?_⟩
  · have h1 : ((vector_from_ell_1_modesF F (vector_as_ell_1_modesF F (x, y, z))).1).re
        = F.quot (F.add (F.mul (F.add x.re (-y.im)) K) (F.mul (F.add x.re y.im) K)) (2 * K) := by
      simp only [vector_from_ell_1_modesF, vector_as_ell_1_modesF, cQuotF, mSub, cScaleF, mAdd, ← hK, hF.two_mul, Complex.neg_re,
        Complex.mul_re, Complex.I_re, Complex.I_im, zero_mul, one_mul, zero_sub]
      rw [← hF.mul_neg, hF.add_neg x.re y.im, neg_neg]
    have h2 : ((vector_from_ell_1_modesF F (vector_as_ell_1_modesF F (x, y, z))).1).im
        = F.quot (F.add (F.mul (F.add x.im (-(-y.re))) K) (F.mul (F.add x.im (-y.re)) K)) (2 * K) := by
      simp only [vector_from_ell_1_modesF, vector_as_ell_1_modesF, cQuotF, mSub, cScaleF, mAdd, ← hK, hF.two_mul, Complex.neg_im,
        Complex.mul_im, Complex.I_re, Complex.I_im, zero_mul, one_mul, zero_add, neg_neg]
      rw [← hF.mul_neg, mulneg2 x.im y.re, neg_neg]
    have c1 := core x.re y.im
    have c2 := core x.im (-y.re)
    rw [← h1] at c1
    rw [← h2, abs_neg] at c2
    have := fin (((vector_from_ell_1_modesF F (vector_as_ell_1_modesF F (x, y, z))).1) - x) _ _
      (c1.trans (bnd _ _ hx1 hy2)) (c2.trans (bnd _ _ hx2 hy1))
    refine this.trans (le_of_eq ?_)
    ring
  · have h1 : ((vector_from_ell_1_modesF F (vector_as_ell_1_modesF F (x, y, z))).2.1).re
        = F.quot (F.add (F.mul (F.add y.re (-x.im)) K) (F.mul (F.add y.re x.im) K)) (2 * K) := by
      simp only [vector_from_ell_1_modesF, vector_as_ell_1_modesF, cQuotIF, mAdd, cScaleF, ← hK, hF.two_mul, Complex.neg_im,
        Complex.mul_im, Complex.I_re, Complex.I_im, zero_mul, one_mul, zero_add]
      rw [hF.add_comm (-x.im) y.re, hF.add_comm x.im y.re, hF.add_comm (F.mul (F.add y.re x.im) K)]
    have h2 : ((vector_from_ell_1_modesF F (vector_as_ell_1_modesF F (x, y, z))).2.1).im
        = F.quot (F.add (F.mul (F.add y.im (-x.re)) K) (F.mul (F.add y.im x.re) K)) (2 * K) := by
      simp only [vector_from_ell_1_modesF, vector_as_ell_1_modesF, cQuotIF, mAdd, cScaleF, ← hK, hF.two_mul, Complex.neg_re,
        Complex.mul_re, Complex.I_re, Complex.I_im, zero_mul, one_mul, zero_sub]
      rw [← hF.add_neg, ← hF.mul_neg, ← hF.mul_neg, ← hF.add_neg, ← hF.add_neg, neg_neg, neg_neg, hF.add_comm (-x.re), hF.add_comm x.re]
    have c1 := core y.re x.im
    have c2 := core y.im x.re
    rw [← h1] at c1
    rw [← h2] at c2
    have := fin (((vector_from_ell_1_modesF F (vector_as_ell_1_modesF F (x, y, z))).2.1) - y) _ _
      (c1.trans (bnd' _ _ hx2 hy1)) (c2.trans (bnd' _ _ hx1 hy2))
    refine this.trans (le_of_eq ?_)
    ring
  · have a := cScale_near hF (refl0 hF z.re) (refl0 hF z.im) (refl0 hF (sqrt4pi3F F))
    have := cQuot_near hF a.1 a.2 (refl0 hF (sqrt4pi3F F)) k1
    rw [mul_div_cancel_right₀ _ (by exact_mod_cast k1)] at this
    exact crel_of_near hF (by omega) this.1 this.2

/-! ## The eth operators -/

theorem conv_ell_maxF_ok {n : ℕ} {l0 L : ℤ} (hL : -1 ≤ L) (h : (n : ℤ) = (L + 1) ^ 2 - l0 ^ 2) (hM : L + 1 ≤ M) : conv_ell_maxF F n l0 = L := by
  unfold conv_ell_maxF
  have e : LM_total_size 0 (l0 - 1) = l0 ^ 2 := by rw [LM_total_size_zero]; ring
  have e2 : (n : ℤ) + LM_total_size 0 (l0 - 1) = (L + 1) ^ 2 := by rw [e, h]; ring
  rw [e2, hF.sqrt_sq (L + 1) (by omega) hM]
  have : (0 : ℝ) ≤ ((L + 1 : ℤ) : ℝ) := by exact_mod_cast (by omega)
  unfold pyInt
  rw [if_pos this, Int.floor_intCast]
  ring

/-- What the five functions do: every mode `(ell, m)` is replaced by `G ell` of it. -/
theorem conv_bodyF {l0 L : ℤ} {a : List ℂ} (h : CompleteModes l0 L a) (hM : L + 1 ≤ M) (op : ℤ → ℂ → ℂ) (body : ℤ → List ℂ × ℤ → Py (List ℂ × ℤ))
    (hb : ∀ ell, l0 ≤ ell → ell ≤ L → ∀ (a : List ℂ) (i : ℕ), (i : ℤ) + (2 * ell + 1) ≤ a.length →
      ∃ a', body ell (a, (i : ℤ)) = .ok (a', (i : ℤ) + (2 * ell + 1)) ∧ a'.length = a.length ∧
        ∀ k : ℕ, a'[k]? = if i ≤ k ∧ (k : ℤ) < i + (2 * ell + 1) then (a[k]?).map (op ell) else a[k]?) :
    ∃ r, (forL (pyRange l0 (conv_ell_maxF F a.length l0 + 1)) (a, (0 : ℤ)) body >>= fun st => .ok st.1) = .ok r ∧ CompleteModes l0 L r ∧
      ∀ ell m, l0 ≤ ell → ell ≤ L → |m| ≤ ell → modeAt l0 r ell m = op ell (modeAt l0 a ell m) := by
  have h' := h
  obtain ⟨k0, k1, k2⟩ := h
  rw [conv_ell_maxF_ok hF (L := L) (by omega) k2 hM]
  obtain ⟨r, r1, r2, r3, -⟩ := convOuter_ok k0 a (by omega) body op hb
  refine ⟨r, r1, ⟨k0, k1, by omega⟩, ?_⟩
  intro ell m h1 h2 h3
  have := r3 ell m h1 h2 h3
  have hlt := (h'.lt h1 h2 h3).2
  rw [LM_index_flat, List.getElem?_eq_getElem hlt, List.getElem?_eq_getElem (by omega)] at this
  simp only [Option.map_some, Option.some.injEq] at this
  unfold modeAt
  rw [List.getElem?_eq_getElem hlt, List.getElem?_eq_getElem (by omega), Option.getD_some, Option.getD_some, this]

theorem eth_NPF_ok {l0 L : ℤ} {a : List ℂ} (h : CompleteModes l0 L a) (hM : L + 1 ≤ M) (s : ℤ) :
    ∃ r, eth_NPF F a s l0 = .ok r ∧ CompleteModes l0 L r ∧ ∀ ell m, l0 ≤ ell → ell ≤ L → |m| ≤ ell → modeAt l0 r ell m =
      cScaleF F (modeAt l0 a ell m) (if ell < |s + 1| then 0 else F.sqrt (F.mul ((ell - s : ℤ) : ℝ) ((ell + s + 1 : ℤ) : ℝ))) :=
  conv_bodyF hF h hM (fun ell z => cScaleF F z (if ell < |s + 1| then 0 else F.sqrt (F.mul ((ell - s : ℤ) : ℝ) ((ell + s + 1 : ℤ) : ℝ)))) _
    fun _ h1 _ b i hi => convInner_ok _ (h.1.trans h1) b i hi

theorem ethbar_NPF_ok {l0 L : ℤ} {a : List ℂ} (h : CompleteModes l0 L a) (hM : L + 1 ≤ M) (s : ℤ) :
    ∃ r, ethbar_NPF F a s l0 = .ok r ∧ CompleteModes l0 L r ∧ ∀ ell m, l0 ≤ ell → ell ≤ L → |m| ≤ ell → modeAt l0 r ell m =
      cScaleF F (modeAt l0 a ell m) (if ell < |s - 1| then 0 else -F.sqrt (F.mul ((ell + s : ℤ) : ℝ) ((ell - s + 1 : ℤ) : ℝ))) :=
  conv_bodyF hF h hM (fun ell z => cScaleF F z (if ell < |s - 1| then 0 else -F.sqrt (F.mul ((ell + s : ℤ) : ℝ) ((ell - s + 1 : ℤ) : ℝ)))) _
    fun _ h1 _ b i hi => convInner_ok _ (h.1.trans h1) b i hi

theorem eth_GHPF_ok {l0 L : ℤ} {a : List ℂ} (h : CompleteModes l0 L a) (hM : L + 1 ≤ M) (s : ℤ) :
    ∃ r, eth_GHPF F a s l0 = .ok r ∧ CompleteModes l0 L r ∧ ∀ ell m, l0 ≤ ell → ell ≤ L → |m| ≤ ell → modeAt l0 r ell m =
      cScaleF F (modeAt l0 a ell m) (if ell < |s + 1| then 0 else F.sqrt (F.div (F.mul ((ell - s : ℤ) : ℝ) ((ell + s + 1 : ℤ) : ℝ)) 2)) :=
  conv_bodyF hF h hM (fun ell z => cScaleF F z (if ell < |s + 1| then 0 else F.sqrt (F.div (F.mul ((ell - s : ℤ) : ℝ) ((ell + s + 1 : ℤ) : ℝ)) 2))) _
    fun _ h1 _ b i hi => convInner_ok _ (h.1.trans h1) b i hi

theorem ethbar_GHPF_ok {l0 L : ℤ} {a : List ℂ} (h : CompleteModes l0 L a) (hM : L + 1 ≤ M) (s : ℤ) :
    ∃ r, ethbar_GHPF F a s l0 = .ok r ∧ CompleteModes l0 L r ∧ ∀ ell m, l0 ≤ ell → ell ≤ L → |m| ≤ ell → modeAt l0 r ell m =
      cScaleF F (modeAt l0 a ell m) (if ell < |s - 1| then 0 else -F.sqrt (F.div (F.mul ((ell + s : ℤ) : ℝ) ((ell - s + 1 : ℤ) : ℝ)) 2)) :=
  conv_bodyF hF h hM (fun ell z => cScaleF F z (if ell < |s - 1| then 0 else -F.sqrt (F.div (F.mul ((ell + s : ℤ) : ℝ) ((ell - s + 1 : ℤ) : ℝ)) 2))) _
    fun _ h1 _ b i hi => convInner_ok _ (h.1.trans h1) b i hi

theorem term_pos_iff (a b : ℤ) : 0 < F.mul (a : ℝ) (b : ℝ) ↔ 0 < a * b := by
  have hu0 := hF.u_nonneg
  have hu1 := hF.u_lt_one
  obtain ⟨θ, e, f⟩ := (hF.mul (a : ℝ) (b : ℝ)).fac hu0 hu1
  have θ0 := Fac.pos hu0 hu1 f
  rw [e, mul_pos_iff_of_pos_right θ0]
  exact_mod_cast Iff.rfl

theorem ethbar_inverse_NPF_ok {l0 L : ℤ} {a : List ℂ} (h : CompleteModes l0 L a) (hM : L + 1 ≤ M) (s : ℤ) :
    ∃ r, ethbar_inverse_NPF F a s l0 = .ok r ∧ CompleteModes l0 L r ∧ ∀ ell m, l0 ≤ ell → ell ≤ L → |m| ≤ ell → modeAt l0 r ell m =
      if 0 < (ell + s + 1) * (ell - s) then cQuotF F (modeAt l0 a ell m) (-F.sqrt (F.mul ((ell + s + 1 : ℤ) : ℝ) ((ell - s : ℤ) : ℝ)))
      else modeAt l0 a ell m := by
  refine conv_bodyF hF h hM (fun ell z => if 0 < (ell + s + 1) * (ell - s) then cQuotF F z (-F.sqrt (F.mul ((ell + s + 1 : ℤ) : ℝ) ((ell - s : ℤ) : ℝ)))
      else z) _ ?_
  intro ell h1 _ b i hi
  simp only
  by_cases ht : 0 < (ell + s + 1) * (ell - s)
  · rw [if_pos ((term_pos_iff hF _ _).mpr ht)]
    simp only [if_pos ht]
    exact convInner_ok _ (h.1.trans h1) b i hi
  · rw [if_neg (fun hh => ht ((term_pos_iff hF _ _).mp hh))]
    refine ⟨b, rfl, rfl, fun k => ?_⟩
    simp only [if_neg ht, Option.map_id', ite_self]

theorem prod_near (a b : ℤ) (h : 0 ≤ a * b) : Near u 2 (F.sqrt (F.mul (a : ℝ) (b : ℝ))) (Real.sqrt ((a : ℝ) * b)) :=
  sqrt_nearC hF (mul_nearC hF (refl0 hF (a : ℝ)) (refl0 hF (b : ℝ))) (by exact_mod_cast h)

theorem prod_near2 (a b : ℤ) (h : 0 ≤ a * b) : Near u 3 (F.sqrt (F.div (F.mul (a : ℝ) (b : ℝ)) 2)) (Real.sqrt ((a : ℝ) * b) / Real.sqrt 2) := by
  have h' : (0 : ℝ) ≤ (a : ℝ) * b := by exact_mod_cast h
  rw [← sqrt_half h']
  exact sqrt_nearC hF (div_nearC hF (mul_nearC hF (refl0 hF (a : ℝ)) (refl0 hF (b : ℝ))) (refl0 hF 2) (by norm_num)) (by positivity)

theorem cScale_zero (z : ℂ) : cScaleF F z 0 = 0 := by
  unfold cScaleF
  rw [mul_zeroF hF.toStd, mul_zeroF hF.toStd]
  rfl

theorem scale_close {n : ℕ} {z : ℂ} {c' c : ℝ} {k : ℕ} (hc : Near u k c' c) (hk : k + 1 ≤ n) : CRel (gam u n) (cScaleF F z c') ((c : ℂ) * z) := by
  have := cScale_near hF (refl0 hF z.re) (refl0 hF z.im) hc
  rw [mul_comm]
  exact crel_of_near hF (by omega) this.1 this.2

omit hF in
theorem modeAt_map {l0 L : ℤ} {r : List ℂ} (h : CompleteModes l0 L r) (f : ℂ → ℂ) {ell m : ℤ} (h1 : l0 ≤ ell) (h2 : ell ≤ L) (h3 : |m| ≤ ell) :
    modeAt l0 (r.map f) ell m = f (modeAt l0 r ell m) := by
  unfold modeAt
  have := (h.lt h1 h2 h3).2
  rw [List.getElem?_map, List.getElem?_eq_getElem this]
  rfl

/-- **C88 (eth).** The four eth operators on a complete array of modes: every component of every mode has relative error of at most three
roundings (Newman–Penrose) or four (Geroch–Held–Penrose), and modes that vanish in exact arithmetic vanish. -/
theorem C88_eth {l0 L : ℤ} {a : List ℂ} (h : CompleteModes l0 L a) (hM : L + 1 ≤ M) (s : ℤ) :
    (∃ r' r, eth_NPF F a s l0 = .ok r' ∧ eth_NP a s l0 = .ok r ∧ CompleteModes l0 L r' ∧
      ∀ ell m, l0 ≤ ell → ell ≤ L → |m| ≤ ell → CRel (gam u 3) (modeAt l0 r' ell m) (modeAt l0 r ell m)) ∧
    (∃ r' r, ethbar_NPF F a s l0 = .ok r' ∧ ethbar_NP a s l0 = .ok r ∧ CompleteModes l0 L r' ∧
      ∀ ell m, l0 ≤ ell → ell ≤ L → |m| ≤ ell → CRel (gam u 3) (modeAt l0 r' ell m) (modeAt l0 r ell m)) ∧
    (∃ r' r, eth_GHPF F a s l0 = .ok r' ∧ eth_GHP a s l0 = .ok r ∧ CompleteModes l0 L r' ∧
      ∀ ell m, l0 ≤ ell → ell ≤ L → |m| ≤ ell → CRel (gam u 4) (modeAt l0 r' ell m) (modeAt l0 r ell m)) ∧
    (∃ r' r, ethbar_GHPF F a s l0 = .ok r' ∧ ethbar_GHP a s l0 = .ok r ∧ CompleteModes l0 L r' ∧
      ∀ ell m, l0 ≤ ell → ell ≤ L → |m| ≤ ell → CRel (gam u 4) (modeAt l0 r' ell m) (modeAt l0 r ell m)) := by
  have hu0 := hF.u_nonneg
  have hu1 := hF.u_lt_one
  have g3 := gam_nonneg hu0 hu1 3
  have g4 := gam_nonneg hu0 hu1 4
  obtain ⟨e, e1, e2, e3⟩ := C42_eth_NP h s
  obtain ⟨b, b1, b2, b3⟩ := C42_ethbar_NP h s
  obtain ⟨eg, eg1, eg2⟩ := C42_eth_GHP h s
  obtain ⟨bg, bg1, bg2⟩ := C42_ethbar_GHP h s
  rw [e1, Except.ok.injEq] at eg1
  rw [b1, Except.ok.injEq] at bg1
  subst eg1 bg1
  have pe : ∀ ell : ℤ, |s + 1| ≤ ell → 0 ≤ (ell - s) * (ell + s + 1) := fun ell hs => by
    have hh := abs_le.mp hs
    exact mul_nonneg (by omega) (by omega)
  have pb : ∀ ell : ℤ, |s - 1| ≤ ell → 0 ≤ (ell + s) * (ell - s + 1) := fun ell hs => by
    have hh := abs_le.mp hs
    exact mul_nonneg (by omega) (by omega)
  refine ⟨?_, ?_, ?_, ?_⟩
  · obtain ⟨r, r1, r2, r3⟩ := eth_NPF_ok hF h hM s
    refine ⟨r, e, r1, e1, r2, fun ell m h1 h2 h3 => ?_⟩
    rw [r3 ell m h1 h2 h3, e3 ell m h1 h2 h3]
    beta_reduce
    by_cases hs : |s + 1| ≤ ell
    · rw [if_neg (by omega), if_pos hs]
      have := scale_close hF (z := modeAt l0 a ell m) (prod_near hF _ _ (pe ell hs)) (le_refl 3)
      push_cast at this ⊢
      exact this
    · rw [if_pos (by omega), if_neg hs, cScale_zero hF, zero_mul]
      exact CRel.refl g3 0
  · obtain ⟨r, r1, r2, r3⟩ := ethbar_NPF_ok hF h hM s
    refine ⟨r, b, r1, b1, r2, fun ell m h1 h2 h3 => ?_⟩
    rw [r3 ell m h1 h2 h3, b3 ell m h1 h2 h3]
    beta_reduce
    by_cases hs : |s - 1| ≤ ell
    · rw [if_neg (by omega), if_pos hs]
      have := scale_close hF (z := modeAt l0 a ell m) ((prod_near hF _ _ (pb ell hs)).neg hu0 hu1) (le_refl 3)
      push_cast at this ⊢
      exact this
    · rw [if_pos (by omega), if_neg hs, cScale_zero hF, zero_mul]
      exact CRel.refl g3 0
  · obtain ⟨r, r1, r2, r3⟩ := eth_GHPF_ok hF h hM s
    refine ⟨r, _, r1, eg2, r2, fun ell m h1 h2 h3 => ?_⟩
    rw [r3 ell m h1 h2 h3, modeAt_map e2 _ h1 h2 h3, e3 ell m h1 h2 h3]
    beta_reduce
    by_cases hs : |s + 1| ≤ ell
    · rw [if_neg (by omega), if_pos hs]
      have := scale_close hF (z := modeAt l0 a ell m) (prod_near2 hF _ _ (pe ell hs)) (le_refl 4)
      push_cast at this ⊢
      rw [mul_div_right_comm]
      exact this
    · rw [if_pos (by omega), if_neg hs, cScale_zero hF, zero_mul, zero_div]
      exact CRel.refl g4 0
  · obtain ⟨r, r1, r2, r3⟩ := ethbar_GHPF_ok hF h hM s
    refine ⟨r, _, r1, bg2, r2, fun ell m h1 h2 h3 => ?_⟩
    rw [r3 ell m h1 h2 h3, modeAt_map b2 _ h1 h2 h3, b3 ell m h1 h2 h3]
    beta_reduce
    by_cases hs : |s - 1| ≤ ell
    · rw [if_neg (by omega), if_pos hs]
      have := scale_close hF (z := modeAt l0 a ell m) ((prod_near2 hF _ _ (pb ell hs)).neg hu0 hu1) (le_refl 4)
      push_cast at this ⊢
      rw [mul_div_right_comm, neg_div]
      exact this
    · rw [if_pos (by omega), if_neg hs, cScale_zero hF, zero_mul, zero_div]
      exact CRel.refl g4 0

/-- **C88 (inverse).** `ethbar_inverse_NP`: at most four roundings. -/
theorem C88_inverse {l0 L : ℤ} {a : List ℂ} (h : CompleteModes l0 L a) (hM : L + 1 ≤ M) (s : ℤ) :
    ∃ r' r, ethbar_inverse_NPF F a s l0 = .ok r' ∧ ethbar_inverse_NP a s l0 = .ok r ∧ CompleteModes l0 L r' ∧
      ∀ ell m, l0 ≤ ell → ell ≤ L → |m| ≤ ell → CRel (gam u 4) (modeAt l0 r' ell m) (modeAt l0 r ell m) := by
  have hu0 := hF.u_nonneg
  have hu1 := hF.u_lt_one
  obtain ⟨e, e1, e2, e3⟩ := ethbar_inverse_NP_ok h s
  obtain ⟨r, r1, r2, r3⟩ := ethbar_inverse_NPF_ok hF h hM s
  refine ⟨r, e, r1, e1, r2, fun ell m h1 h2 h3 => ?_⟩
  rw [r3 ell m h1 h2 h3, e3 ell m h1 h2 h3]
  beta_reduce
  by_cases ht : 0 < (ell + s + 1) * (ell - s)
  · rw [if_pos ht, if_pos ht]
    have ht' : (0 : ℝ) < ((ell + s + 1 : ℤ) : ℝ) * ((ell - s : ℤ) : ℝ) := by exact_mod_cast ht
    have n := (prod_near hF _ _ ht.le).neg hu0 hu1
    have := cQuot_near hF (refl0 hF (modeAt l0 a ell m).re) (refl0 hF (modeAt l0 a ell m).im) n (by
      rw [neg_ne_zero]; exact (Real.sqrt_pos.mpr ht').ne')
    have := crel_of_near hF (show 0 + 2 + 2 ≤ 4 by omega) this.1 this.2
    rw [div_eq_inv_mul] at this
    push_cast at this ⊢
    exact this
  · rw [if_neg ht, if_neg ht, one_mul]
    exact CRel.refl (gam_nonneg hu0 hu1 4) _

/-- **C88 (round trips of ethbar).** `ethbar_inverse_NP` after `ethbar_NP` and `ethbar_NP` after `ethbar_inverse_NP` give back every mode
with `ell ≥ |s|`, `ell ≥ |s-1|` (or `|s+1|`) up to three roundings, whatever the errors of the square roots; the other modes of the result
are exactly zero. -/
theorem C88_round_trips {l0 L : ℤ} {a : List ℂ} (h : CompleteModes l0 L a) (hM : L + 1 ≤ M) (s : ℤ) :
    (∃ r, (ethbar_NPF F a s l0 >>= fun g => ethbar_inverse_NPF F g (s - 1) l0) = .ok r ∧ CompleteModes l0 L r ∧
      ∀ ell m, l0 ≤ ell → ell ≤ L → |m| ≤ ell →
        CRel (gam u 3) (modeAt l0 r ell m) (if |s| ≤ ell ∧ |s - 1| ≤ ell then modeAt l0 a ell m else 0)) ∧
    (∃ r, (ethbar_inverse_NPF F a s l0 >>= fun g => ethbar_NPF F g (s + 1) l0) = .ok r ∧ CompleteModes l0 L r ∧
      ∀ ell m, l0 ≤ ell → ell ≤ L → |m| ≤ ell →
        CRel (gam u 3) (modeAt l0 r ell m) (if |s| ≤ ell ∧ |s + 1| ≤ ell then modeAt l0 a ell m else 0)) := by
  have hu0 := hF.u_nonneg
  have hu1 := hF.u_lt_one
  have g3 := gam_nonneg hu0 hu1 3
  have sqz : F.sqrt 0 = 0 := relErr_zero (by have := hF.sqrt 0 le_rfl; rwa [Real.sqrt_zero] at this)
  constructor
  · obtain ⟨g, g1, g2, g3'⟩ := ethbar_NPF_ok hF h hM s
    obtain ⟨r, r1, r2, r3⟩ := ethbar_inverse_NPF_ok hF g2 hM (s - 1)
    refine ⟨r, by rw [g1, bind_ok, r1], r2, fun ell m h1 h2 h3 => ?_⟩
    have k0 := h.1
    rw [r3 ell m h1 h2 h3, g3' ell m h1 h2 h3]
    rw [show ell + (s - 1) + 1 = ell + s by ring, show ell - (s - 1) = ell - s + 1 by ring]
    set f := F.sqrt (F.mul ((ell + s : ℤ) : ℝ) ((ell - s + 1 : ℤ) : ℝ)) with hf
    by_cases hs1 : |s - 1| ≤ ell
    · have hh := abs_le.mp hs1
      rw [if_neg (show ¬ ell < |s - 1| by omega)]
      by_cases hs : |s| ≤ ell
      · have hh2 := abs_le.mp hs
        have hp : 0 < (ell + s) * (ell - s + 1) := mul_pos (by omega) (by omega)
        rw [if_pos hp, if_pos ⟨hs, hs1⟩]
        have hp' : (0 : ℝ) < ((ell + s : ℤ) : ℝ) * ((ell - s + 1 : ℤ) : ℝ) := by exact_mod_cast hp
        have f0 : -f ≠ 0 := by
          rw [neg_ne_zero]
          exact (prod_near hF _ _ hp.le).ne_zero hu0 hu1 (Real.sqrt_pos.mpr hp').ne'
        have c1 := cScale_near hF (refl0 hF (modeAt l0 a ell m).re) (refl0 hF (modeAt l0 a ell m).im) (refl0 hF (-f))
        have c2 := cQuot_near hF c1.1 c1.2 (refl0 hF (-f)) f0
        rw [mul_div_cancel_right₀ _ (by exact_mod_cast f0)] at c2
        exact crel_of_near hF (by omega) c2.1 c2.2
      · have hz : (ell + s) * (ell - s + 1) = 0 := by
          have : ell - s + 1 = 0 ∨ ell + s = 0 := by
            rcases abs_cases s with ⟨e1, _⟩ | ⟨e1, _⟩ <;> omega
          rcases this with h | h <;> rw [h] <;> ring
        have f0 : f = 0 := by
          have hm : F.mul ((ell + s : ℤ) : ℝ) ((ell - s + 1 : ℤ) : ℝ) = 0 := by
            apply relErr_zero
            have := hF.mul ((ell + s : ℤ) : ℝ) ((ell - s + 1 : ℤ) : ℝ)
            rw [← Int.cast_mul, hz] at this
            simpa using this
          rw [hf, hm, sqz]
        rw [if_neg (by omega), if_neg (by tauto), f0, neg_zero, cScale_zero hF]
        exact CRel.refl g3 0
    · rw [if_pos (show ell < |s - 1| by omega), if_neg (show ¬ (|s| ≤ ell ∧ |s - 1| ≤ ell) by tauto), cScale_zero hF]
      split_ifs with hp
      · have hm : F.mul ((ell + s : ℤ) : ℝ) ((ell - s + 1 : ℤ) : ℝ) > 0 := (term_pos_iff hF _ _).mpr hp
        have hp' : (0 : ℝ) < ((ell + s : ℤ) : ℝ) * ((ell - s + 1 : ℤ) : ℝ) := by exact_mod_cast hp
        have f0 : -f ≠ 0 := by
          rw [neg_ne_zero]
          exact (prod_near hF _ _ hp.le).ne_zero hu0 hu1 (Real.sqrt_pos.mpr hp').ne'
        have c2 := cQuot_near hF (z' := 0) (refl0 hF _) (refl0 hF _) (refl0 hF (-f)) f0
        rw [zero_div] at c2
        exact crel_of_near hF (by omega) c2.1 c2.2
      · exact CRel.refl g3 0
  · obtain ⟨g, g1, g2, g3'⟩ := ethbar_inverse_NPF_ok hF h hM s
    obtain ⟨r, r1, r2, r3⟩ := ethbar_NPF_ok hF g2 hM (s + 1)
    refine ⟨r, by rw [g1, bind_ok, r1], r2, fun ell m h1 h2 h3 => ?_⟩
    have k0 := h.1
    rw [r3 ell m h1 h2 h3, g3' ell m h1 h2 h3]
    rw [show ell + (s + 1) = ell + s + 1 by ring, show ell - (s + 1) + 1 = ell - s by ring, show s + 1 - 1 = s by ring]
    set f := F.sqrt (F.mul ((ell + s + 1 : ℤ) : ℝ) ((ell - s : ℤ) : ℝ)) with hf
    by_cases hs : |s| ≤ ell
    · have hh := abs_le.mp hs
      rw [if_neg (show ¬ ell < |s| by omega)]
      by_cases hp : 0 < (ell + s + 1) * (ell - s)
      · have hs1 : |s + 1| ≤ ell := by
          have : ell ≠ s := by rintro rfl; simp at hp
          exact abs_le.mpr (by omega)
        rw [if_pos hp, if_pos ⟨hs, hs1⟩]
        have hp' : (0 : ℝ) < ((ell + s + 1 : ℤ) : ℝ) * ((ell - s : ℤ) : ℝ) := by exact_mod_cast hp
        have f0 : -f ≠ 0 := by
          rw [neg_ne_zero]
          exact (prod_near hF _ _ hp.le).ne_zero hu0 hu1 (Real.sqrt_pos.mpr hp').ne'
        have c1 := cQuot_near hF (refl0 hF (modeAt l0 a ell m).re) (refl0 hF (modeAt l0 a ell m).im) (refl0 hF (-f)) f0
        have c2 := cScale_near hF c1.1 c1.2 (refl0 hF (-f))
        rw [div_mul_cancel₀ _ (by exact_mod_cast f0)] at c2
        exact crel_of_near hF (by omega) c2.1 c2.2
      · have hz : (ell + s + 1) * (ell - s) = 0 := le_antisymm (by omega) (mul_nonneg (by omega) (by omega))
        have hn : ¬ |s + 1| ≤ ell := by
          rcases mul_eq_zero.mp hz with h | h
          · omega
          · intro h'; have := abs_le.mp h'; omega
        have f0 : f = 0 := by
          have hm : F.mul ((ell + s + 1 : ℤ) : ℝ) ((ell - s : ℤ) : ℝ) = 0 := by
            apply relErr_zero
            have := hF.mul ((ell + s + 1 : ℤ) : ℝ) ((ell - s : ℤ) : ℝ)
            rw [← Int.cast_mul, hz] at this
            simpa using this
          rw [hf, hm, sqz]
        rw [if_neg (show ¬ (|s| ≤ ell ∧ |s + 1| ≤ ell) by tauto), f0, neg_zero, cScale_zero hF]
        exact CRel.refl g3 0
    · rw [if_pos (show ell < |s| by omega), if_neg (show ¬ (|s| ≤ ell ∧ |s + 1| ≤ ell) by tauto), cScale_zero hF]
      exact CRel.refl g3 0

end

/-! ## Non-vacuity -/

open scoped Classical in
/-- Operations which are off by the relative error allowed, nearly everywhere they may be. -/
noncomputable def sloppyConv (u : ℝ) : ConvOps where
  toModesOps := { sloppyOps u with
    mul := fun x y => if x = 2 ∨ x = -2 then x * y else x * y * (1 - u)
    sqrt := fun x => if ∃ n : ℤ, x = ((n ^ 2 : ℤ) : ℝ) then Real.sqrt x else Real.sqrt x * (1 - u) }
  quot := fun x y => x / y * (1 - u) ^ 2
  pi := Real.pi * (1 - u)

theorem sloppyConv_std {u : ℝ} (hu : 0 ≤ u) (hu1 : u < 1) : (sloppyConv u).Std u (fun n => n * u) 94906265 where
  toStd := { sloppyOps_std hu with
    mul := by
      intro x y
      unfold RelErr sloppyConv
      simp only
      split_ifs
      · rw [sub_self, abs_zero]; positivity
      · rw [show x * y * (1 - u) - x * y = -(u * (x * y)) by ring, abs_neg, abs_mul u, abs_of_nonneg hu]
    sqrt := by
      intro x _
      unfold RelErr sloppyConv
      simp only
      split_ifs
      · rw [sub_self, abs_zero]; positivity
      · rw [show Real.sqrt x * (1 - u) - Real.sqrt x = -(u * Real.sqrt x) by ring, abs_neg, abs_mul u, abs_of_nonneg hu] }
  u_lt_one := hu1
  quot := by
    intro x y _
    have p : 0 < 1 - u := by linarith
    have p2 : (1 - u) ^ 2 ≤ 1 := pow_le_one₀ p.le (by linarith)
    exact ⟨(1 - u) ^ 2, rfl, le_rfl, mul_le_one₀ p2 (by positivity) p2⟩
  pi := by
    unfold RelErr sloppyConv
    simp only
    rw [show Real.pi * (1 - u) - Real.pi = -(u * Real.pi) by ring, abs_neg, abs_mul u, abs_of_nonneg hu]
  mul_neg := by
    intro x y
    unfold sloppyConv
    simp only
    have : (-x = 2 ∨ -x = -2) ↔ (x = 2 ∨ x = -2) := by
      constructor
      · rintro (h | h)
        · right; linarith
        · left; linarith
      · rintro (h | h)
        · right; linarith
        · left; linarith
    simp only [this]
    split_ifs <;> ring
  two_mul := by
    intro x
    unfold sloppyConv
    simp
  sqrt_sq := by
    intro n hn _
    unfold sloppyConv
    simp only
    rw [if_pos ⟨n, rfl⟩]
    push_cast
    rw [Real.sqrt_sq (by exact_mod_cast hn)]

/-- Non-vacuity of C88: the vector `(1, 10^9, -3)` and the modes `ell = 1, 2` of a function of spin weight -1, with the relative error of
double precision. -/
example : (∃ x' y' z' : ℝ, vector_from_ell_1_modesF (sloppyConv (2 ^ (-53 : ℤ))) (vector_as_ell_1_modesF (sloppyConv (2 ^ (-53 : ℤ)))
      (((1 : ℝ) : ℂ), ((10 ^ 9 : ℝ) : ℂ), ((-3 : ℝ) : ℂ))) = ((x' : ℂ), (y' : ℂ), (z' : ℂ)) ∧ |x' - 1| ≤ 4e-16) ∧
    ∃ r, (ethbar_NPF (sloppyConv (2 ^ (-53 : ℤ))) [1, 2, 3, 4, 5, 6, 7, 8] (-1) 1 >>= fun g =>
        ethbar_inverse_NPF (sloppyConv (2 ^ (-53 : ℤ))) g (-2) 1) = .ok r ∧ CRel 4e-16 (modeAt 1 r 2 0) 6 ∧ modeAt 1 r 1 1 = 0 := by
  have hF := sloppyConv_std (u := 2 ^ (-53 : ℤ)) (by positivity) (by norm_num)
  have hg : gam (2 ^ (-53 : ℤ)) 3 ≤ 4e-16 := by unfold gam; norm_num
  constructor
  · obtain ⟨x', y', z', h1, h2, -⟩ := C88_real_vector hF 1 (10 ^ 9) (-3)
    refine ⟨x', y', z', h1, ?_⟩
    unfold RelErr at h2
    rw [abs_one, mul_one] at h2
    exact h2.trans hg
  · have hc : CompleteModes 1 2 [1, 2, 3, 4, 5, 6, 7, 8] := ⟨by norm_num, by norm_num, by norm_num⟩
    obtain ⟨r, r1, -, r3⟩ := (C88_round_trips hF hc (by norm_num) (-1)).1
    refine ⟨r, r1, ?_, ?_⟩
    · have := r3 2 0 (by norm_num) (by norm_num) (by norm_num)
      rw [if_pos (by norm_num)] at this
      have e : modeAt 1 [1, 2, 3, 4, 5, 6, 7, 8] 2 0 = 6 := by
        unfold modeAt
        simp
      rw [e] at this
      exact ⟨this.1.trans (mul_le_mul_of_nonneg_right hg (abs_nonneg _)), this.2.trans (mul_le_mul_of_nonneg_right hg (abs_nonneg _))⟩
    · have := r3 1 1 (by norm_num) (by norm_num) (by norm_num)
      rw [if_neg (by norm_num)] at this
      exact Complex.ext (relErr_zero this.1) (relErr_zero this.2)

end SF
