import Verif.Spec.Expr
import Verif.Props.MultFloat
import Verif.Props.DivFloat
import Verif.Props.FloatErrorY
import Verif.Props.GridModes

/-!
# C93: rounding errors of expressions made of Modes objects

`MExpr` are the expressions a user can write with the operations of `Modes`; `MExpr.runF` evaluates one in floating-point arithmetic.  The
specification (Spec/Expr) gives the exact mode weights of the expression, and the error bound by recursion over the expression.
-/

set_option autoImplicit false

namespace SF

open Finset ComplexConjugate Spec

/-! ## One method -/

theorem CRel.norm_le {ε : ℝ} (hε : 0 ≤ ε) {z' z : ℂ} (h : CRel ε z' z) : ‖z' - z‖ ≤ ε * ‖z‖ := by
  obtain ⟨h1, h2⟩ := h
  unfold RelErr at h1 h2
  have e : ∀ w : ℂ, ‖w‖ ^ 2 = w.re ^ 2 + w.im ^ 2 := fun w => by
    rw [← Complex.normSq_eq_norm_sq, Complex.normSq_apply]; ring
  refine (sq_le_sq₀ (norm_nonneg _) (by positivity)).1 ?_
  rw [mul_pow, e, e, Complex.sub_re, Complex.sub_im, mul_add, ← mul_pow, ← mul_pow, ← sq_abs (z'.re - z.re), ← sq_abs (z'.im - z.im),
    ← sq_abs (ε * z.re), ← sq_abs (ε * z.im), abs_mul, abs_mul, abs_of_nonneg hε]
  exact add_le_add (pow_le_pow_left₀ (abs_nonneg _) h1 2) (pow_le_pow_left₀ (abs_nonneg _) h2 2)

theorem MOp.weight_sub (o : MOp) (s : ℤ) (c d : ℤ → ℤ → ℂ) (l m : ℤ) :
    o.weight s (fun l m => c l m - d l m) l m = o.weight s c l m - o.weight s d l m := by
  cases o <;> simp only [MOp.weight, map_sub] <;> ring

theorem MOp.weight_norm (o : MOp) (s : ℤ) (c : ℤ → ℤ → ℂ) (l m : ℤ) : ‖o.weight s c l m‖ ≤ o.size s (fun l m => ‖c l m‖) l m := by
  have h1 : ∀ (n : ℤ), ‖(-1 : ℂ) ^ n‖ = 1 := fun n => by rw [norm_zpow, norm_neg, norm_one, one_zpow]
  have hc : ∀ x y : ℂ, ‖x‖ = ‖y‖ → ∀ n : ℤ, ‖(-1 : ℂ) ^ n * conj y‖ = ‖x‖ := fun x y h n => by
    rw [norm_mul, h1, one_mul, Complex.norm_conj, h]
  have hi : ∀ n : ℤ, ‖(n : ℂ)‖ = |(n : ℝ)| := fun n => by rw [← Complex.ofReal_intCast, Complex.norm_real, Real.norm_eq_abs]
  have hr : ∀ n : ℤ, ‖(Real.sqrt (n : ℝ) : ℂ)‖ = Real.sqrt n := fun n => by
    rw [Complex.norm_real, Real.norm_of_nonneg (Real.sqrt_nonneg _)]
  cases o <;> simp only [MOp.weight, MOp.size]
  case Lsquared => rw [norm_mul, hi]
  case Lz => rw [norm_mul, hi]
  case Rz => rw [norm_mul, norm_neg, hi]
  case neg => rw [norm_neg]
  case bar => rw [hc (c l (-m)) _ rfl]
  case real =>
    rw [norm_div, Complex.norm_two]
    have := norm_add_le (c l m) ((-1 : ℂ) ^ m * conj (c l (-m)))
    rw [hc (c l (-m)) _ rfl] at this
    linarith
  case imag =>
    rw [norm_div, norm_mul, Complex.norm_two, Complex.norm_I, mul_one]
    have := norm_sub_le (c l m) ((-1 : ℂ) ^ m * conj (c l (-m)))
    rw [hc (c l (-m)) _ rfl] at this
    linarith
  case ethbar => rw [norm_neg, norm_mul, hr]
  all_goals rw [norm_mul, hr]

theorem MOp.size_mono (o : MOp) (s : ℤ) {a b : ℤ → ℤ → ℝ} (h : ∀ l m, |m| ≤ l → a l m ≤ b l m) {l m : ℤ} (hm : |m| ≤ l) :
    o.size s a l m ≤ o.size s b l m := by
  have hm' : |-m| ≤ l := by rwa [abs_neg]
  have hb := abs_le.1 hm
  cases o <;> simp only [MOp.size]
  case neg => exact h l m hm
  case bar => exact h l (-m) hm'
  case real => have := h l m hm; have := h l (-m) hm'; linarith
  case imag => have := h l m hm; have := h l (-m) hm'; linarith
  case Lplus =>
    by_cases hx : m = -l
    · rw [show (l + m) * (l - m + 1) = 0 by rw [hx]; ring]; simp
    · exact mul_le_mul_of_nonneg_left (h l (m - 1) (abs_le.2 (by omega))) (Real.sqrt_nonneg _)
  case Lminus =>
    by_cases hx : m = l
    · rw [show (l - m) * (l + m + 1) = 0 by rw [hx]; ring]; simp
    · exact mul_le_mul_of_nonneg_left (h l (m + 1) (abs_le.2 (by omega))) (Real.sqrt_nonneg _)
  all_goals exact mul_le_mul_of_nonneg_left (h l m hm) (by positivity)

theorem MOp.size_nonneg (o : MOp) (s : ℤ) {a : ℤ → ℤ → ℝ} (h : ∀ l m, |m| ≤ l → 0 ≤ a l m) {l m : ℤ} (hm : |m| ≤ l) : 0 ≤ o.size s a l m := by
  have h0 : o.size s (fun _ _ => 0) l m = 0 := by cases o <;> simp [MOp.size]
  rw [← h0]
  exact o.size_mono s h hm

/-- The weights vanish outside the range of `ell`. -/
theorem MOp.weight_zero (o : MOp) (s L : ℤ) (hs : o = .real ∨ o = .imag → s = 0) {c : ℤ → ℤ → ℂ}
    (h : ∀ l m, |m| ≤ l → l < |s| ∨ L < l → c l m = 0) {l m : ℤ} (hm : |m| ≤ l) (hl : l < |o.spin s| ∨ L < l) : o.weight s c l m = 0 := by
  have hm' : |-m| ≤ l := by rwa [abs_neg]
  have hb := abs_le.1 hm
  have h0 : 0 ≤ l := (abs_nonneg m).trans hm
  have same : l < |s| ∨ L < l → o.weight s c l m = 0 := by
    intro hl
    have e1 := h l m hm hl
    have e2 := h l (-m) hm' hl
    cases o <;> simp only [MOp.weight]
    case Lplus =>
      by_cases hx : m = -l
      · rw [show (l + m) * (l - m + 1) = 0 by rw [hx]; ring]; simp
      · rw [h l (m - 1) (abs_le.2 (by omega)) hl, mul_zero]
    case Lminus =>
      by_cases hx : m = l
      · rw [show (l - m) * (l + m + 1) = 0 by rw [hx]; ring]; simp
      · rw [h l (m + 1) (abs_le.2 (by omega)) hl, mul_zero]
    all_goals simp [e1, e2]
  by_cases hin : l < |s| ∨ L < l
  · exact same hin
  · push Not at hin
    have hls : l < |o.spin s| := by rcases hl with h | h; exact h; omega
    have k1 := abs_le.1 hin.1
    have kp : o.spin s = s + 1 → l - s = 0 := fun e => by
      rw [e, lt_abs] at hls; omega
    have km : o.spin s = s - 1 → l + s = 0 := fun e => by
      rw [e, lt_abs] at hls; omega
    have ks : ¬ (o.spin s = s) := fun e => by rw [e] at hls; omega
    have kn : ¬ (o.spin s = -s) := fun e => by rw [e, abs_neg] at hls; omega
    cases o <;> simp only [MOp.weight, MOp.spin, not_true_eq_false] at ks kn kp km ⊢
    all_goals first
      | (rw [kp (by trivial)]; simp)
      | (rw [km (by trivial)]; simp)

section
variable {u : ℝ} {δ : ℕ → ℝ} {M : ℤ} {F : ConvOps}

theorem MOp.run_ok (hF : F.Std u δ M) (o : MOp) {f : Modes} (hf : f.WF) (hs : o = .real ∨ o = .imag → f.s = 0) :
    ∃ g, o.runF F f = .ok g ∧ g.WF ∧ g.lead = f.lead ∧ g.s = o.spin f.s ∧ g.ell_max = f.ell_max ∧ g.trunc = f.trunc ∧
      ∀ l m, |m| ≤ l → ∀ i, ‖g.coef l m i - o.weight f.s (fun l m => f.coef l m i) l m‖
        ≤ ((1 + u) ^ o.rounds - 1) * ‖o.weight f.s (fun l m => f.coef l m i) l m‖ := by
  have hu := hF.u_nonneg
  have e2 : (1 + u) ^ 2 - 1 = 2 * u + u ^ 2 := by ring
  have e1 : (1 + u) ^ 1 - 1 = u := by ring
  have hu2 : 0 ≤ 2 * u + u ^ 2 := by positivity
  have pack : ∀ {opF op : Modes → Py Modes} {ε : ℝ} {T : ℤ → ℤ → Slice}, 0 ≤ ε →
      (∃ g' g, opF f = .ok g' ∧ op f = .ok g ∧ CloseTo ε g' g) → (∃ g, op f = .ok g ∧ OpRes f g (o.spin f.s) T) →
      (∀ l m, |o.spin f.s| ≤ l → |m| ≤ l → ∀ i, T l m i = o.weight f.s (fun l m => f.coef l m i) l m) →
      ∃ g, opF f = .ok g ∧ g.WF ∧ g.lead = f.lead ∧ g.s = o.spin f.s ∧ g.ell_max = f.ell_max ∧ g.trunc = f.trunc ∧
      ∀ l m, |m| ≤ l → ∀ i, ‖g.coef l m i - o.weight f.s (fun l m => f.coef l m i) l m‖
        ≤ ε * ‖o.weight f.s (fun l m => f.coef l m i) l m‖ := by
    rintro opF op ε T hε ⟨g', g, a1, a2, a3⟩ ⟨g0, b1, b2⟩ hT
    obtain rfl : g = g0 := by rw [a2] at b1; injection b1
    refine ⟨g', a1, a3.wf, a3.lead.trans b2.lead, a3.s.trans b2.hs, a3.ell_max.trans b2.hL, a3.trunc.trans b2.trunc, ?_⟩
    intro l m hm i
    have key : g.coef l m i = o.weight f.s (fun l m => f.coef l m i) l m := by
      by_cases h : |o.spin f.s| ≤ l ∧ l ≤ f.ell_max
      · rw [b2.coef l m h.1 hm h.2]; exact hT l m h.1 hm i
      · have h' : l < |o.spin f.s| ∨ f.ell_max < l := by omega
        have z : g.coef l m = fun _ => 0 := by
          by_cases h2 : l ≤ f.ell_max
          · exact b2.wf.low l m (by rw [b2.hs]; omega) hm (by rw [b2.hL]; exact h2)
          · exact coef_of_gt b2.wf hm (by rw [b2.hL]; omega)
        rw [z, o.weight_zero f.s f.ell_max hs ?_ hm h']
        intro l m hm h
        by_cases h2 : l ≤ f.ell_max
        · rw [hf.low l m (by omega) hm h2]
        · rw [coef_of_gt hf hm (by omega)]
    rw [← key]
    exact (a3.coef l m hm i).norm_le hε
  have exact_op : ∀ {op : Modes → Py Modes} {T : ℤ → ℤ → Slice}, (∃ g, op f = .ok g ∧ OpRes f g (o.spin f.s) T) →
      ∃ g' g, op f = .ok g' ∧ op f = .ok g ∧ CloseTo 0 g' g := by
    rintro op T ⟨g, b1, b2⟩
    exact ⟨g, g, b1, b1, b2.wf, rfl, rfl, rfl, rfl, fun l m _ i => CRel.refl le_rfl _⟩
  have D := C86_derivatives hF.toStd f hf
  have nz : ∀ (P : Prop) [Decidable P] (z w : ℂ), (P → w = 0) → (if P then 0 else w) = w := by
    intro P _ z w h; split_ifs with hp
    · exact (h hp).symm
    · rfl
  cases o
  case Lsquared => rw [show MOp.rounds .Lsquared = 1 from rfl, e1]; exact pack hu (D (Modes.LsquaredF F.toModesOps, Modes.Lsquared, u) (by simp)) (Lsquared_ok hf) fun l m _ _ i => rfl
  case Lz => rw [show MOp.rounds .Lz = 1 from rfl, e1]; exact pack hu (D (Modes.LzF F.toModesOps, Modes.Lz, u) (by simp)) (Lz_ok hf) fun l m _ _ i => rfl
  case Rz => rw [show MOp.rounds .Rz = 1 from rfl, e1]; exact pack hu (D (Modes.RzF F.toModesOps, Modes.Rz, u) (by simp)) (Rz_ok hf) fun l m _ _ i => rfl
  case Lplus =>
    rw [show MOp.rounds .Lplus = 2 from rfl, e2]
    refine pack hu2 (D (Modes.LplusF F.toModesOps, Modes.Lplus, 2 * u + u ^ 2) (by simp)) (Lplus_ok hf) fun l m _ _ i => ?_
    simp only [MOp.weight, isqrtC]
    refine nz _ 0 _ fun hx => ?_
    rw [show (l + m) * (l - m + 1) = 0 by rw [hx]; ring]; simp
  case Lminus =>
    rw [show MOp.rounds .Lminus = 2 from rfl, e2]
    refine pack hu2 (D (Modes.LminusF F.toModesOps, Modes.Lminus, 2 * u + u ^ 2) (by simp)) (Lminus_ok hf) fun l m _ _ i => ?_
    simp only [MOp.weight, isqrtC]
    refine nz _ 0 _ fun hx => ?_
    rw [show (l - m) * (l + m + 1) = 0 by rw [hx]; ring]; simp
  case Rplus =>
    rw [show MOp.rounds .Rplus = 2 from rfl, e2]
    refine pack hu2 (D (Modes.RplusF F.toModesOps, Modes.Rplus, 2 * u + u ^ 2) (by simp)) (Rplus_ok hf) fun l m _ _ i => ?_
    simp only [MOp.weight, isqrtC]
    rw [show (l - (f.s - 1)) * (l + (f.s - 1) + 1) = (l + f.s) * (l - f.s + 1) by ring]
  case Rminus =>
    rw [show MOp.rounds .Rminus = 2 from rfl, e2]
    refine pack hu2 (D (Modes.RminusF F.toModesOps, Modes.Rminus, 2 * u + u ^ 2) (by simp)) (Rminus_ok hf) fun l m _ _ i => ?_
    simp only [MOp.weight, isqrtC]
    rw [show (l + (f.s + 1)) * (l - (f.s + 1) + 1) = (l - f.s) * (l + f.s + 1) by ring]
  case eth =>
    rw [show MOp.rounds .eth = 2 from rfl, e2]
    refine pack hu2 (D (Modes.ethF F.toModesOps, Modes.eth, 2 * u + u ^ 2) (by simp)) (Rminus_ok hf) fun l m _ _ i => ?_
    simp only [MOp.weight, isqrtC]
    rw [show (l + (f.s + 1)) * (l - (f.s + 1) + 1) = (l - f.s) * (l + f.s + 1) by ring]
  case ethbar =>
    rw [show MOp.rounds .ethbar = 2 from rfl, e2]
    refine pack hu2 (D (Modes.ethbarF F.toModesOps, Modes.ethbar, 2 * u + u ^ 2) (by simp)) (ethbar_ok hf) fun l m _ _ i => ?_
    simp only [MOp.weight, isqrtC]
    rw [show (l - (f.s - 1)) * (l + (f.s - 1) + 1) = (l + f.s) * (l - f.s + 1) by ring]
  case neg =>
    rw [show MOp.rounds .neg = 0 from rfl, pow_zero, sub_self]
    exact pack le_rfl (exact_op (negative_ok hf)) (negative_ok hf) fun l m _ _ i => rfl
  case bar =>
    rw [show MOp.rounds .bar = 0 from rfl, pow_zero, sub_self]
    exact pack (opF := fun f => f.conjugate false) (op := fun f => f.conjugate false) le_rfl (exact_op (op := fun f => f.conjugate false) (conjugate_ok hf false)) (conjugate_ok hf false) fun l m _ _ i => rfl
  case real =>
    have h0 := hs (Or.inl rfl)
    rw [show MOp.rounds .real = 1 from rfl, e1]
    obtain ⟨g', g, a1, a2, a3, -⟩ := C86_real hF.toStd f hf h0 false
    refine pack (T := realT f.coef) (opF := fun f => f.realF F.toModesOps false) (op := fun f => f.real_func false) hu ⟨g', g, a1, a2, a3⟩ (by
      have := real_ok hf h0 false
      simpa only [MOp.spin, h0] using this) fun l m _ _ i => rfl
  case imag =>
    have h0 := hs (Or.inr rfl)
    rw [show MOp.rounds .imag = 1 from rfl, e1]
    obtain ⟨g', g, a1, a2, a3, -⟩ := C86_imag hF.toStd f hf h0 false
    refine pack (T := imagT f.coef) (opF := fun f => f.imagF F.toModesOps false) (op := fun f => f.imag_func false) hu ⟨g', g, a1, a2, a3⟩ (by
      have := imag_ok hf h0 false
      simpa only [MOp.spin, h0] using this) fun l m _ _ i => rfl

end

/-! ## Products -/

theorem productSum_mono {L1 L2 l m : ℤ} {t t' : ℤ → ℤ → ℤ → ℤ → ℝ}
    (h : ∀ l1 m1 l2 m2, |m1| ≤ l1 → l1 ≤ L1 → |m2| ≤ l2 → l2 ≤ L2 → m1 + m2 = m → t l1 m1 l2 m2 ≤ t' l1 m1 l2 m2) :
    productSum L1 L2 l m t ≤ productSum L1 L2 l m t' := by
  unfold productSum
  refine sum_le_sum fun l1 h1 => sum_le_sum fun m1 h2 => sum_le_sum fun l2 h3 => sum_le_sum fun m2 h4 => ?_
  rw [mem_Icc] at h1 h2 h3 h4
  split_ifs with hm
  · exact mul_le_mul_of_nonneg_left (h l1 m1 l2 m2 (abs_le.2 h2) h1.2 (abs_le.2 h4) h3.2 hm) (Real.sqrt_nonneg _)
  · exact le_rfl

theorem productSum_nonneg {L1 L2 l m : ℤ} {t : ℤ → ℤ → ℤ → ℤ → ℝ}
    (h : ∀ l1 m1 l2 m2, |m1| ≤ l1 → l1 ≤ L1 → |m2| ≤ l2 → l2 ≤ L2 → m1 + m2 = m → 0 ≤ t l1 m1 l2 m2) : 0 ≤ productSum L1 L2 l m t := by
  have e : productSum L1 L2 l m (fun _ _ _ _ => 0) = 0 := by simp [productSum]
  rw [← e]
  exact productSum_mono h

theorem productSum_add (L1 L2 l m : ℤ) (t t' : ℤ → ℤ → ℤ → ℤ → ℝ) :
    productSum L1 L2 l m t + productSum L1 L2 l m t' = productSum L1 L2 l m fun l1 m1 l2 m2 => t l1 m1 l2 m2 + t' l1 m1 l2 m2 := by
  unfold productSum
  simp only [← sum_add_distrib]
  refine sum_congr rfl fun l1 _ => sum_congr rfl fun m1 _ => sum_congr rfl fun l2 _ => sum_congr rfl fun m2 _ => ?_
  split_ifs <;> ring

theorem productSum_mul (L1 L2 l m : ℤ) (k : ℝ) (t : ℤ → ℤ → ℤ → ℤ → ℝ) :
    k * productSum L1 L2 l m t = productSum L1 L2 l m fun l1 m1 l2 m2 => k * t l1 m1 l2 m2 := by
  unfold productSum
  simp only [mul_sum]
  refine sum_congr rfl fun l1 _ => sum_congr rfl fun m1 _ => sum_congr rfl fun l2 _ => sum_congr rfl fun m2 _ => ?_
  split_ifs <;> ring

theorem productMode_diff (s1 L1 : ℤ) (c c' : ℤ → ℤ → ℂ) (s2 L2 : ℤ) (d d' : ℤ → ℤ → ℂ) (l m : ℤ) :
    ‖productMode s1 L1 c' s2 L2 d' l m - productMode s1 L1 c s2 L2 d l m‖ ≤ productSum L1 L2 l m fun l1 m1 l2 m2 =>
      ‖c' l1 m1 * d' l2 m2 - c l1 m1 * d l2 m2‖ * (|threeJ l1 l2 l s1 s2 (-s1 - s2)| * |threeJ l1 l2 l m1 m2 (-m)|) := by
  unfold productMode productSum
  simp only [← sum_sub_distrib]
  refine (norm_sum_le _ _).trans (sum_le_sum fun l1 _ => (norm_sum_le _ _).trans (sum_le_sum fun m1 _ =>
    (norm_sum_le _ _).trans (sum_le_sum fun l2 _ => (norm_sum_le _ _).trans (sum_le_sum fun m2 _ => ?_))))
  split_ifs
  · rw [← mul_sub, norm_mul, Complex.norm_real, Real.norm_eq_abs, abs_mul, abs_mul, abs_mul, abs_zpow, abs_neg, abs_one, one_zpow, one_mul,
      abs_of_nonneg (Real.sqrt_nonneg _)]
    apply le_of_eq; ring
  · simp

theorem productMode_norm (s1 L1 : ℤ) (c : ℤ → ℤ → ℂ) (s2 L2 : ℤ) (d : ℤ → ℤ → ℂ) (l m : ℤ) :
    ‖productMode s1 L1 c s2 L2 d l m‖ ≤ productSum L1 L2 l m fun l1 m1 l2 m2 =>
      ‖c l1 m1‖ * ‖d l2 m2‖ * (|threeJ l1 l2 l s1 s2 (-s1 - s2)| * |threeJ l1 l2 l m1 m2 (-m)|) := by
  have z : productMode s1 L1 (fun _ _ => 0) s2 L2 (fun _ _ => 0) l m = 0 := by simp [productMode]
  have := productMode_diff s1 L1 (fun _ _ => 0) c s2 L2 (fun _ _ => 0) d l m
  rw [z] at this
  simpa only [sub_zero, mul_zero, norm_mul] using this

theorem productErr_eq (γ : ℝ) (ε : ℤ → ℤ → ℤ → ℤ → ℤ → ℝ) (s1 L1 : ℤ) (c1 : ℤ → ℤ → ℂ) (s2 L2 : ℤ) (c2 : ℤ → ℤ → ℂ) (l m : ℤ) :
    productErr γ ε s1 L1 c1 s2 L2 c2 l m = productSum L1 L2 l m fun l1 m1 l2 m2 => ‖c1 l1 m1‖ * ‖c2 l2 m2‖ *
      ((|threeJ l1 l2 l s1 s2 (-s1 - s2)| + ε l l1 l2 s1 s2) * (|threeJ l1 l2 l m1 m2 (-m)| + ε l l1 l2 m1 m2) * (1 + γ)
        - |threeJ l1 l2 l s1 s2 (-s1 - s2)| * |threeJ l1 l2 l m1 m2 (-m)|) := by
  unfold productErr productSum
  refine sum_congr rfl fun l1 _ => sum_congr rfl fun m1 _ => sum_congr rfl fun l2 _ => sum_congr rfl fun m2 _ => ?_
  split_ifs <;> ring

theorem productMode_zero_of_lt {s1 L1 : ℤ} (c : ℤ → ℤ → ℂ) {s2 L2 : ℤ} (d : ℤ → ℤ → ℂ) {l : ℤ} (m : ℤ) (h : l < |s1 + s2|) :
    productMode s1 L1 c s2 L2 d l m = 0 := by
  unfold productMode
  refine sum_eq_zero fun l1 _ => sum_eq_zero fun m1 _ => sum_eq_zero fun l2 _ => sum_eq_zero fun m2 _ => ?_
  have : threeJ l1 l2 l s1 s2 (-s1 - s2) = 0 := by
    apply threeJ_eq_zero
    intro ha
    have h1 : |(-s1 - s2)| ≤ l := ha.2.2.2.1
    rw [show -s1 - s2 = -(s1 + s2) by ring, abs_neg] at h1
    omega
  split_ifs
  · rw [this]; simp
  · rfl

theorem bracket_nonneg {J J' e e' γ : ℝ} (hJ : 0 ≤ J) (hJ' : 0 ≤ J') (he : 0 ≤ e) (he' : 0 ≤ e') (hγ : 0 ≤ γ) :
    0 ≤ (J + e) * (J' + e') * (1 + γ) - J * J' := by
  have t1 : J * J' ≤ (J + e) * (J' + e') := mul_le_mul (by linarith) (by linarith) hJ' (by positivity)
  have t2 : 0 ≤ (J + e) * (J' + e') * γ := by positivity
  nlinarith

/-! ## Expressions -/

theorem MExpr.static {P : ℤ → ℤ → ℤ → ℤ → Prop} : ∀ {e : MExpr}, e.Ok P → 0 ≤ e.ty.ell_max ∧
    (∀ l m i, |m| ≤ l → l < |e.ty.s| ∨ e.ty.ell_max < l → e.weight l m i = 0) ∧
    ∀ l m i, |m| ≤ l → ‖e.weight l m i‖ ≤ e.size l m i
  | .leaf f, h => by
    refine ⟨h.2, fun l m i hm hl => ?_, fun l m i _ => le_rfl⟩
    simp only [MExpr.ty] at hl
    simp only [MExpr.weight]
    by_cases h2 : l ≤ f.ell_max
    · rw [h.1.low l m (by omega) hm h2]
    · rw [coef_of_gt h.1 hm (by omega)]
  | .op o e, h => by
    obtain ⟨h0, h1, h2⟩ := MExpr.static h.1
    refine ⟨h0, fun l m i hm hl => ?_, fun l m i hm => ?_⟩
    · simp only [MExpr.weight]
      exact o.weight_zero e.ty.s e.ty.ell_max h.2 (fun l m hm hl => h1 l m i hm hl) hm hl
    · simp only [MExpr.weight, MExpr.size]
      exact (o.weight_norm _ _ _ _).trans (o.size_mono _ (fun l m hm => h2 l m i hm) hm)
  | .add sub e1 e2, h => by
    obtain ⟨g1, g2, hs, hb⟩ := h
    obtain ⟨a0, a1, a2⟩ := MExpr.static g1
    obtain ⟨b0, b1, b2⟩ := MExpr.static g2
    refine ⟨le_max_of_le_left a0, fun l m i hm hl => ?_, fun l m i hm => ?_⟩
    · simp only [MExpr.ty, max_lt_iff] at hl
      have z1 := a1 l m (bcIdx e1.ty.lead i) hm (by omega)
      have z2 := b1 l m (bcIdx e2.ty.lead i) hm (by rw [← hs]; omega)
      simp only [MExpr.weight, z1, z2]
      split_ifs <;> simp
    · have z1 := a2 l m (bcIdx e1.ty.lead i) hm
      have z2 := b2 l m (bcIdx e2.ty.lead i) hm
      simp only [MExpr.weight, MExpr.size]
      split_ifs
      · exact (norm_sub_le _ _).trans (add_le_add z1 z2)
      · exact (norm_add_le _ _).trans (add_le_add z1 z2)
  | .scale a e, h => by
    obtain ⟨a0, a1, a2⟩ := MExpr.static h.1
    refine ⟨a0, fun l m i hm hl => ?_, fun l m i hm => ?_⟩
    · simp only [MExpr.weight, a1 l m (bcIdx e.ty.lead i) hm hl, zero_mul]
    · simp only [MExpr.weight, MExpr.size, norm_mul]
      exact mul_le_mul_of_nonneg_right (a2 l m _ hm) (norm_nonneg _)
  | .div a e, h => by
    obtain ⟨a0, a1, a2⟩ := MExpr.static h.1
    refine ⟨a0, fun l m i hm hl => ?_, fun l m i hm => ?_⟩
    · simp only [MExpr.weight, a1 l m (bcIdx e.ty.lead i) hm hl, zero_div]
    · simp only [MExpr.weight, MExpr.size, norm_div]
      exact div_le_div_of_nonneg_right (a2 l m _ hm) (norm_nonneg _)
  | .mul t e1 e2, h => by
    obtain ⟨g1, g2, hb, ht, h0, h3⟩ := h
    obtain ⟨a0, a1, a2⟩ := MExpr.static g1
    obtain ⟨b0, b1, b2⟩ := MExpr.static g2
    have hsize : ∀ l m i, ‖productMode e1.ty.s e1.ty.ell_max (fun l m => e1.weight l m (bcIdx e1.ty.lead i)) e2.ty.s e2.ty.ell_max
        (fun l m => e2.weight l m (bcIdx e2.ty.lead i)) l m‖ ≤ (MExpr.mul t e1 e2).size l m i := by
      intro l m i
      refine (productMode_norm _ _ _ _ _ _ _ _).trans (productSum_mono fun l1 m1 l2 m2 q1 q2 q3 q4 q5 => ?_)
      exact mul_le_mul_of_nonneg_right (mul_le_mul (a2 l1 m1 _ q1) (b2 l2 m2 _ q3) (norm_nonneg _)
        ((norm_nonneg _).trans (a2 l1 m1 _ q1))) (by positivity)
    refine ⟨h0, fun l m i hm hl => ?_, fun l m i hm => ?_⟩
    · simp only [MExpr.weight]
      split_ifs with hle
      · exact productMode_zero_of_lt _ _ m (by rcases hl with hl | hl; exact hl; omega)
      · rfl
    · simp only [MExpr.weight]
      split_ifs with hle
      · exact hsize l m i
      · rw [norm_zero]; exact (norm_nonneg _).trans (hsize l m i)

theorem MExpr.size_nonneg {P : ℤ → ℤ → ℤ → ℤ → Prop} {e : MExpr} (h : e.Ok P) {l m : ℤ} (i : MIdx) (hm : |m| ≤ l) : 0 ≤ e.size l m i :=
  (norm_nonneg _).trans ((MExpr.static h).2.2 l m i hm)

theorem divErr_nonneg {u : ℝ} (hu : 0 ≤ u) {γ : ℕ → ℝ} (hγ : ∀ k, 0 ≤ γ k) (z : ℂ) : 0 ≤ divErr u γ z := by
  unfold divErr
  have := hγ 8
  split_ifs
  · nlinarith
  · positivity

theorem MExpr.err_nonneg {P : ℤ → ℤ → ℤ → ℤ → Prop} {u : ℝ} (hu : 0 ≤ u) {γ : ℕ → ℝ} (hγ : ∀ k, 0 ≤ γ k) {ε : ℤ → ℤ → ℤ → ℤ → ℤ → ℝ}
    (hε : ∀ i l1 l2 m m', 0 ≤ ε i l1 l2 m m') : ∀ {e : MExpr}, e.Ok P → ∀ l m i, |m| ≤ l → 0 ≤ e.err u γ ε l m i
  | .leaf f, h => fun l m i hm => le_rfl
  | .op o e, h => fun l m i hm => by
    have ih := MExpr.err_nonneg hu hγ hε h.1
    have hp : 0 ≤ (1 + u) ^ o.rounds - 1 := by have := one_le_pow₀ (show 1 ≤ 1 + u by linarith) (n := o.rounds); linarith
    exact add_nonneg (o.size_nonneg _ (fun l m hm => ih l m i hm) hm)
      (mul_nonneg hp (o.size_nonneg _ (fun l m hm => add_nonneg (MExpr.size_nonneg h.1 i hm) (ih l m i hm)) hm))
  | .add sub e1 e2, h => fun l m i hm => by
    have a := MExpr.err_nonneg hu hγ hε h.1 l m (bcIdx e1.ty.lead i) hm
    have b := MExpr.err_nonneg hu hγ hε h.2.1 l m (bcIdx e2.ty.lead i) hm
    have c := MExpr.size_nonneg h.1 (bcIdx e1.ty.lead i) hm
    have d := MExpr.size_nonneg h.2.1 (bcIdx e2.ty.lead i) hm
    simp only [MExpr.err]
    positivity
  | .scale a e, h => fun l m i hm => by
    have x := MExpr.err_nonneg hu hγ hε h.1 l m (bcIdx e.ty.lead i) hm
    have c := MExpr.size_nonneg h.1 (bcIdx e.ty.lead i) hm
    have hp : 0 ≤ (1 + u) ^ 2 - 1 := by nlinarith
    simp only [MExpr.err]
    positivity
  | .div a e, h => fun l m i hm => by
    have x := MExpr.err_nonneg hu hγ hε h.1 l m (bcIdx e.ty.lead i) hm
    have c := MExpr.size_nonneg h.1 (bcIdx e.ty.lead i) hm
    have hp := divErr_nonneg hu hγ (a.val (bcIdx a.shape i))
    simp only [MExpr.err]
    positivity
  | .mul t e1 e2, h => fun l m i hm => by
    have a := MExpr.err_nonneg hu hγ hε h.1
    have b := MExpr.err_nonneg hu hγ hε h.2.1
    refine productSum_nonneg fun l1 m1 l2 m2 q1 q2 q3 q4 q5 => ?_
    have a' := a l1 m1 (bcIdx e1.ty.lead i) q1
    have b' := b l2 m2 (bcIdx e2.ty.lead i) q3
    have c := MExpr.size_nonneg h.1 (bcIdx e1.ty.lead i) q1
    have d := MExpr.size_nonneg h.2.1 (bcIdx e2.ty.lead i) q3
    have br := bracket_nonneg (abs_nonneg (threeJ l1 l2 l e1.ty.s e2.ty.s (-e1.ty.s - e2.ty.s))) (abs_nonneg (threeJ l1 l2 l m1 m2 (-m)))
      (hε l l1 l2 e1.ty.s e2.ty.s) (hε l l1 l2 m1 m2) (hγ (((e1.ty.ell_max + 1) ^ 2 * (e2.ty.ell_max + 1)).toNat + 14))
    have mm : e1.size l1 m1 (bcIdx e1.ty.lead i) * e2.size l2 m2 (bcIdx e2.ty.lead i)
        ≤ (e1.size l1 m1 (bcIdx e1.ty.lead i) + e1.err u γ ε l1 m1 (bcIdx e1.ty.lead i))
          * (e2.size l2 m2 (bcIdx e2.ty.lead i) + e2.err u γ ε l2 m2 (bcIdx e2.ty.lead i)) :=
      mul_le_mul (by linarith) (by linarith) d (by linarith)
    exact add_nonneg (mul_nonneg zero_le_two (mul_nonneg (mul_nonneg (by linarith) (by linarith)) br))
      (mul_nonneg (by linarith) (by positivity))

/-- `g` is the result of the expression up to the errors of the bound. -/
structure Computes (u : ℝ) (γ : ℕ → ℝ) (ε : ℤ → ℤ → ℤ → ℤ → ℤ → ℝ) (e : MExpr) (g : Modes) : Prop where
  wf : g.WF
  lead : g.lead = e.ty.lead
  s : g.s = e.ty.s
  ell_max : g.ell_max = e.ty.ell_max
  trunc : g.trunc = e.ty.trunc
  coef : ∀ l m, |m| ≤ l → ∀ i, ValidIdx e.ty.lead i → ‖g.coef l m i - e.weight l m i‖ ≤ e.err u γ ε l m i

section
variable {u : ℝ} {γ : ℕ → ℝ} {ε : ℤ → ℤ → ℤ → ℤ → ℤ → ℝ}

theorem Computes.of {P : ℤ → ℤ → ℤ → ℤ → Prop} (hu : 0 ≤ u) (hγ : ∀ k, 0 ≤ γ k) (hε : ∀ i l1 l2 m m', 0 ≤ ε i l1 l2 m m') {e : MExpr} (h : e.Ok P)
    {g : Modes} (hg : g.WF) (h1 : g.lead = e.ty.lead) (h2 : g.s = e.ty.s) (h3 : g.ell_max = e.ty.ell_max) (h4 : g.trunc = e.ty.trunc)
    (hc : ∀ l m, |e.ty.s| ≤ l → |m| ≤ l → l ≤ e.ty.ell_max → ∀ i, ValidIdx e.ty.lead i → ‖g.coef l m i - e.weight l m i‖ ≤ e.err u γ ε l m i) :
    Computes u γ ε e g := by
  refine ⟨hg, h1, h2, h3, h4, fun l m hm i hi => ?_⟩
  by_cases hb : l < |e.ty.s| ∨ e.ty.ell_max < l
  · have hz : g.coef l m i = 0 := by
      by_cases h5 : l ≤ e.ty.ell_max
      · rw [hg.low l m (by rw [h2]; omega) hm (by rw [h3]; exact h5)]
      · rw [coef_of_gt hg hm (by rw [h3]; omega)]
    rw [hz, (MExpr.static h).2.1 l m i hm hb, sub_zero, norm_zero]
    exact MExpr.err_nonneg hu hγ hε h l m i hm
  · push Not at hb
    exact hc l m hb.1 hm hb.2 i hi

theorem mul_diff_le {a a' b b' : ℂ} {x y ex ey : ℝ} (ha : ‖a‖ ≤ x) (hb : ‖b‖ ≤ y) (hea : ‖a' - a‖ ≤ ex) (heb : ‖b' - b‖ ≤ ey) :
    ‖a' * b' - a * b‖ ≤ (x + ex) * (y + ey) - x * y := by
  rw [show a' * b' - a * b = (a' - a) * b + (a * (b' - b) + (a' - a) * (b' - b)) by ring]
  refine (norm_add_le _ _).trans ?_
  have h3 := norm_add_le (a * (b' - b)) ((a' - a) * (b' - b))
  rw [norm_mul, norm_mul] at h3
  rw [norm_mul]
  have n1 := norm_nonneg a
  have n2 := norm_nonneg b
  have n3 := norm_nonneg (a' - a)
  have n4 := norm_nonneg (b' - b)
  have t1 : ‖a' - a‖ * ‖b‖ ≤ ex * y := mul_le_mul hea hb n2 (n3.trans hea)
  have t2 : ‖a‖ * ‖b' - b‖ ≤ x * ey := mul_le_mul ha heb n4 (n1.trans ha)
  have t3 : ‖a' - a‖ * ‖b' - b‖ ≤ ex * ey := mul_le_mul hea heb n4 (n3.trans hea)
  nlinarith

theorem norm_of_close {a' a : ℂ} {x e : ℝ} (ha : ‖a‖ ≤ x) (he : ‖a' - a‖ ≤ e) : ‖a'‖ ≤ x + e := by
  have := norm_sub_norm_le a' a
  linarith

end

theorem bcast_getD {a b : List ℕ} (h : (bcastShape a b).isSome) : bcastShape a b = some ((bcastShape a b).getD []) := by
  obtain ⟨c, hc⟩ := Option.isSome_iff_exists.1 h
  rw [hc]; rfl

section
variable {u : ℝ} {δ : ℕ → ℝ} {M : ℤ} {F : ConvOps}

/-- **C93 (rounding errors of expressions).** Every expression of Modes objects that can be evaluated in exact arithmetic is evaluated without an
exception in floating-point arithmetic as well; its value has the metadata of the exact value, and each of its mode weights differs from the
exact weight by at most `MExpr.err`. -/
theorem C93_expression (hF : F.Std u δ M) {w3 : ℤ → ℤ → ℤ → ℤ → Py (List ℝ)} {ε : ℤ → ℤ → ℤ → ℤ → ℤ → ℝ} (hε : ∀ i l1 l2 m m', 0 ≤ ε i l1 l2 m m') :
    ∀ e : MExpr, e.Ok (fun Lf sf Lg sg => ThreeJApprox w3 Lf sf Lg sg ε) → ∃ g, e.runF F w3 = .ok g ∧ Computes u (gam u) ε e g := by
  have hu := hF.u_nonneg
  have hγ : ∀ k, 0 ≤ gam u k := gam_nonneg hu hF.u_lt_one
  intro e
  induction e with
  | leaf f => intro h; exact ⟨f, rfl, h.1, rfl, rfl, rfl, rfl, fun l m _ i _ => by simp [MExpr.weight, MExpr.err]⟩
  | op o e ih =>
    intro h
    obtain ⟨f, ef, cf⟩ := ih h.1
    obtain ⟨g, eg, g1, g2, g3, g4, g5, g6⟩ := MOp.run_ok hF o cf.wf (fun ho => by rw [cf.s]; exact h.2 ho)
    refine ⟨g, by rw [MExpr.runF, ef, bind_ok, eg], g1, by rw [g2, cf.lead]; rfl, by rw [g3, cf.s]; rfl, by rw [g4, cf.ell_max]; rfl,
      by rw [g5, cf.trunc]; rfl, fun l m hm i hi => ?_⟩
    have hi' : ValidIdx e.ty.lead i := hi
    have st := MExpr.static h.1
    have k := g6 l m hm i
    rw [cf.s] at k
    have d : ‖o.weight e.ty.s (fun l m => f.coef l m i) l m - o.weight e.ty.s (fun l m => e.weight l m i) l m‖
        ≤ o.size e.ty.s (fun l m => e.err u (gam u) ε l m i) l m := by
      rw [← o.weight_sub]
      exact (o.weight_norm _ _ _ _).trans (o.size_mono _ (fun l m hm => cf.coef l m hm i hi') hm)
    have n : ‖o.weight e.ty.s (fun l m => f.coef l m i) l m‖ ≤ o.size e.ty.s (fun l m => e.size l m i + e.err u (gam u) ε l m i) l m :=
      (o.weight_norm _ _ _ _).trans (o.size_mono _ (fun l m hm => norm_of_close (st.2.2 l m i hm) (cf.coef l m hm i hi')) hm)
    have hp : 0 ≤ (1 + u) ^ o.rounds - 1 := by have := one_le_pow₀ (show 1 ≤ 1 + u by linarith) (n := o.rounds); linarith
    have := mul_le_mul_of_nonneg_left n hp
    have tri := norm_sub_le_norm_sub_add_norm_sub (g.coef l m i) (o.weight e.ty.s (fun l m => f.coef l m i) l m)
      (o.weight e.ty.s (fun l m => e.weight l m i) l m)
    simp only [MExpr.weight, MExpr.err]
    linarith
  | add sub e1 e2 ih1 ih2 =>
    intro h
    have hok := h
    obtain ⟨g1, g2, hs, hb⟩ := h
    obtain ⟨f, ef, cf⟩ := ih1 g1
    obtain ⟨g, eg, cg⟩ := ih2 g2
    have st1 := MExpr.static g1
    have st2 := MExpr.static g2
    have hb' := bcast_getD hb
    obtain ⟨r, r1, r2, r3, r4, r5, r6, r7⟩ := addF_ok hF.toStd cf.wf cg.wf (by rw [cf.s, cg.s, hs]) (by rw [cf.ell_max]; exact st1.1)
      (by rw [cg.ell_max]; exact st2.1) (by rw [cf.lead, cg.lead]; exact hb') sub
    refine ⟨r, by rw [MExpr.runF, ef, bind_ok, eg, bind_ok, r1], Computes.of hu hγ hε hok r2 r3 (by rw [r4, cf.s]; rfl)
      (by rw [r5, cf.ell_max, cg.ell_max]; rfl) (by rw [r6, cf.trunc]; rfl) fun l m h1 hm h2 i hi => ?_⟩
    have hv := bcIdx_valid hb' hi
    rw [r7 l m (by rw [cf.s]; exact h1) hm (by rw [cf.ell_max, cg.ell_max]; exact h2)]
    simp only [Modes.coefIn]
    have hi' : ValidIdx ((bcastShape e1.ty.lead e2.ty.lead).getD []) i := hi
    rw [bcTo_valid _ hi', bcTo_valid _ hi', cf.lead, cg.lead]
    have a1 := st1.2.2 l m (bcIdx e1.ty.lead i) hm
    have a2 := st2.2.2 l m (bcIdx e2.ty.lead i) hm
    have c1 := cf.coef l m hm _ hv.1
    have c2 := cg.coef l m hm _ hv.2
    have b1 := norm_of_close a1 c1
    have b2 := norm_of_close a2 c2
    simp only [MExpr.weight, MExpr.err]
    set x := f.coef l m (bcIdx e1.ty.lead i)
    set y := g.coef l m (bcIdx e2.ty.lead i)
    set a := e1.weight l m (bcIdx e1.ty.lead i)
    set b := e2.weight l m (bcIdx e2.ty.lead i)
    cases sub
    · simp only [Bool.false_eq_true, if_false]
      have k := CRel.norm_le hu (mAdd_rel hF.toStd x y)
      have k2 := norm_add_le x y
      have k3 := norm_sub_le_norm_sub_add_norm_sub (mAdd F.toModesOps x y) (x + y) (a + b)
      have k4 : ‖x + y - (a + b)‖ ≤ ‖x - a‖ + ‖y - b‖ := by rw [add_sub_add_comm]; exact norm_add_le _ _
      have k5 := mul_le_mul_of_nonneg_left (k2.trans (add_le_add b1 b2)) hu
      linarith
    · simp only [if_true]
      have k := CRel.norm_le hu (mSub_rel hF.toStd x y)
      have k2 := norm_sub_le x y
      have k3 := norm_sub_le_norm_sub_add_norm_sub (mSub F.toModesOps x y) (x - y) (a - b)
      have k4 : ‖x - y - (a - b)‖ ≤ ‖x - a‖ + ‖y - b‖ := by rw [sub_sub_sub_comm]; exact norm_sub_le _ _
      have k5 := mul_le_mul_of_nonneg_left (k2.trans (add_le_add b1 b2)) hu
      linarith
  | scale a e ih =>
    intro h
    have hok := h
    obtain ⟨g1, hd, hb⟩ := h
    obtain ⟨f, ef, cf⟩ := ih g1
    have st := MExpr.static g1
    have hb' := bcast_getD hb
    have hf0 : 0 ≤ f.ell_max := by rw [cf.ell_max]; exact st.1
    have run : f.mulScalarF F.toModesOps a = f.scalarUfunc (mMul F.toModesOps) a := by
      unfold Modes.mulScalarF Modes.ufuncMulScalar Modes.check_broadcasting
      rw [if_neg (by rw [cf.lead]; omega), if_neg (cf.wf.dat_ne_nil hf0), bind_ok, cf.lead, hb']
      rfl
    obtain ⟨r, r1, r2, r3, r4, r5, r6, r7⟩ := scalarUfunc_ok cf.wf (mMul F.toModesOps) a (by rw [cf.lead]; exact hb')
    refine ⟨r, by rw [MExpr.runF, ef, bind_ok, run, r1], Computes.of hu hγ hε hok r2 r3 (by rw [r4, cf.s]; rfl)
      (by rw [r5, cf.ell_max]; rfl) (by rw [r6, cf.trunc]; rfl) fun l m h1 hm h2 i hi => ?_⟩
    have hv := bcIdx_valid hb' hi
    rw [r7 l m (by rw [cf.s]; exact h1) hm (by rw [cf.ell_max]; exact h2)]
    simp only [Modes.coefIn]
    have hi' : ValidIdx ((bcastShape e.ty.lead a.shape).getD []) i := hi
    rw [bcTo_valid _ hi', cf.lead]
    have c1 := cf.coef l m hm _ hv.1
    have b1 := norm_of_close (st.2.2 l m (bcIdx e.ty.lead i) hm) c1
    simp only [MExpr.weight, MExpr.err]
    set x := f.coef l m (bcIdx e.ty.lead i)
    set y := e.weight l m (bcIdx e.ty.lead i)
    set z := a.val (bcIdx a.shape i)
    have k := mMul_norm hF.toStd x z
    have k3 := norm_sub_le_norm_sub_add_norm_sub (mMul F.toModesOps x z) (x * z) (y * z)
    rw [← sub_mul, norm_mul (x - y)] at k3
    rw [norm_mul] at k
    have hz := norm_nonneg z
    have k4 := mul_le_mul_of_nonneg_right c1 hz
    have k5 := mul_le_mul_of_nonneg_left (mul_le_mul_of_nonneg_right b1 hz) (show 0 ≤ 2 * (2 * u + u ^ 2) by positivity)
    rw [show (1 + u) ^ 2 - 1 = 2 * u + u ^ 2 by ring]
    linarith
  | div a e ih =>
    intro h
    have hok := h
    obtain ⟨g1, hd, hb, hne⟩ := h
    obtain ⟨f, ef, cf⟩ := ih g1
    have st := MExpr.static g1
    have hb' := bcast_getD hb
    have hf0 : 0 ≤ f.ell_max := by rw [cf.ell_max]; exact st.1
    have run : f.divScalarF F.toModesOps a = f.scalarUfunc (mDiv F.toModesOps) a := by
      unfold Modes.divScalarF Modes.ufuncMulScalar Modes.check_broadcasting
      rw [if_neg (by rw [cf.lead]; omega), if_neg (cf.wf.dat_ne_nil hf0), bind_ok, cf.lead, hb']
      rfl
    obtain ⟨r, r1, r2, r3, r4, r5, r6, r7⟩ := scalarUfunc_ok cf.wf (mDiv F.toModesOps) a (by rw [cf.lead]; exact hb')
    refine ⟨r, by rw [MExpr.runF, ef, bind_ok, run, r1], Computes.of hu hγ hε hok r2 r3 (by rw [r4, cf.s]; rfl)
      (by rw [r5, cf.ell_max]; rfl) (by rw [r6, cf.trunc]; rfl) fun l m h1 hm h2 i hi => ?_⟩
    have hv := bcIdx_valid hb' hi
    rw [r7 l m (by rw [cf.s]; exact h1) hm (by rw [cf.ell_max]; exact h2)]
    simp only [Modes.coefIn]
    have hi' : ValidIdx ((bcastShape e.ty.lead a.shape).getD []) i := hi
    rw [bcTo_valid _ hi', cf.lead]
    have c1 := cf.coef l m hm _ hv.1
    have b1 := norm_of_close (st.2.2 l m (bcIdx e.ty.lead i) hm) c1
    have hn := hne (bcIdx a.shape i)
    simp only [MExpr.weight, MExpr.err]
    set x := f.coef l m (bcIdx e.ty.lead i)
    set y := e.weight l m (bcIdx e.ty.lead i)
    set z := a.val (bcIdx a.shape i)
    have k : ‖mDiv F.toModesOps x z - x / z‖ ≤ divErr u (gam u) z * ‖x / z‖ := by
      unfold divErr
      split_ifs with him
      · have hre : z.re ≠ 0 := fun h => hn (Complex.ext h him)
        have k := CRel.norm_le (show 0 ≤ 2 * u + u ^ 2 by positivity) (mDiv_real hF.toStd x hre)
        rw [← (show z = ((z.re : ℝ) : ℂ) by apply Complex.ext <;> simp [him])] at k
        rwa [show (1 + u) ^ 2 - 1 = 2 * u + u ^ 2 by ring]
      · exact mDiv_norm hF.toStd hF.u_lt_one x hn
    have k3 := norm_sub_le_norm_sub_add_norm_sub (mDiv F.toModesOps x z) (x / z) (y / z)
    rw [← sub_div, norm_div (x - y)] at k3
    rw [norm_div] at k
    have hz := norm_nonneg z
    have k4 := div_le_div_of_nonneg_right c1 hz
    have k5 := mul_le_mul_of_nonneg_left (div_le_div_of_nonneg_right b1 hz) (divErr_nonneg hu hγ z)
    rw [add_div, mul_div_assoc]
    linarith
  | mul t e1 e2 ih1 ih2 =>
    intro h
    have hok := h
    obtain ⟨g1, g2, hb, ht, h0, h3⟩ := h
    obtain ⟨f, ef, cf⟩ := ih1 g1
    obtain ⟨g, eg, cg⟩ := ih2 g2
    have st1 := MExpr.static g1
    have st2 := MExpr.static g2
    have hb' := bcast_getD hb
    have hL : ProductEllMax f g t (MExpr.mul t e1 e2).ty.ell_max := by
      obtain ⟨L, hL⟩ := Option.isSome_iff_exists.1 ht
      have e0 : (MExpr.mul t e1 e2).ty.ell_max = L := by simp only [MExpr.ty]; rw [hL]; rfl
      rw [e0]
      unfold productEll at hL
      unfold ProductEllMax
      cases t with
      | some t =>
        simp only [Option.some.injEq] at hL ⊢
        rw [cf.ell_max, cg.ell_max, hL]
      | none =>
        simp only [Option.bind_eq_some_iff, Option.map_eq_some_iff] at hL
        obtain ⟨x, hx, y, hy, hxy⟩ := hL
        refine ⟨x, y, ?_, ?_, hxy.symm⟩
        · simp only [cf.trunc, cf.ell_max, cg.ell_max]; rw [← hx]; rfl
        · simp only [cg.trunc, cf.ell_max, cg.ell_max]; rw [← hy]; rfl
    obtain ⟨r, r1, r2, r3, r4, r5, r6, r7⟩ := C89_product hF f g cf.wf cg.wf (by rw [cf.ell_max]; exact st1.1) (by rw [cg.ell_max]; exact st2.1)
      (by rw [cf.ell_max, cg.ell_max, cf.s, cg.s]; exact h3) hε t _ hL (by omega) _ (by rw [cf.lead, cg.lead]; exact hb')
    refine ⟨r, by rw [MExpr.runF, ef, bind_ok, eg, bind_ok, r1], Computes.of hu hγ hε hok r2 r3 (by rw [r4, cf.s, cg.s]; rfl)
      r5 (by rw [r6, cf.trunc]; rfl) fun l m h1 hm h2 i hi => ?_⟩
    have hv := bcIdx_valid hb' hi
    have k := r7 l m (by rw [cf.s, cg.s]; exact h1) hm h2 i hi
    simp only [cf.s, cg.s, cf.ell_max, cg.ell_max, cf.lead, cg.lead] at k
    have hw : (MExpr.mul t e1 e2).weight l m i = productMode e1.ty.s e1.ty.ell_max (fun l m => e1.weight l m (bcIdx e1.ty.lead i)) e2.ty.s
        e2.ty.ell_max (fun l m => e2.weight l m (bcIdx e2.ty.lead i)) l m := if_pos h2
    rw [hw]
    set p := productMode e1.ty.s e1.ty.ell_max (fun l m => f.coef l m (bcIdx e1.ty.lead i)) e2.ty.s
        e2.ty.ell_max (fun l m => g.coef l m (bcIdx e2.ty.lead i)) l m
    have k1 : ‖r.coef l m i - p‖ ≤ 2 * productErr (gam u (((e1.ty.ell_max + 1) ^ 2 * (e2.ty.ell_max + 1)).toNat + 14)) ε e1.ty.s e1.ty.ell_max
        (fun l m => f.coef l m (bcIdx e1.ty.lead i)) e2.ty.s e2.ty.ell_max (fun l m => g.coef l m (bcIdx e2.ty.lead i)) l m := by
      refine (Complex.norm_le_abs_re_add_abs_im _).trans ?_
      rw [Complex.sub_re, Complex.sub_im]
      linarith [k.1, k.2]
    have k2 := productMode_diff e1.ty.s e1.ty.ell_max (fun l m => e1.weight l m (bcIdx e1.ty.lead i)) (fun l m => f.coef l m (bcIdx e1.ty.lead i))
      e2.ty.s e2.ty.ell_max (fun l m => e2.weight l m (bcIdx e2.ty.lead i)) (fun l m => g.coef l m (bcIdx e2.ty.lead i)) l m
    refine (norm_sub_le_norm_sub_add_norm_sub _ p _).trans ((add_le_add k1 k2).trans ?_)
    rw [productErr_eq, productSum_mul, productSum_add]
    refine productSum_mono fun l1 m1 l2 m2 q1 q2 q3 q4 q5 => ?_
    have a1 := st1.2.2 l1 m1 (bcIdx e1.ty.lead i) q1
    have a2 := st2.2.2 l2 m2 (bcIdx e2.ty.lead i) q3
    have c1 := cf.coef l1 m1 q1 _ hv.1
    have c2 := cg.coef l2 m2 q3 _ hv.2
    have b1 := norm_of_close a1 c1
    have b2 := norm_of_close a2 c2
    have br := bracket_nonneg (abs_nonneg (threeJ l1 l2 l e1.ty.s e2.ty.s (-e1.ty.s - e2.ty.s))) (abs_nonneg (threeJ l1 l2 l m1 m2 (-m)))
      (hε l l1 l2 e1.ty.s e2.ty.s) (hε l l1 l2 m1 m2) (hγ (((e1.ty.ell_max + 1) ^ 2 * (e2.ty.ell_max + 1)).toNat + 14))
    refine add_le_add (mul_le_mul_of_nonneg_left (mul_le_mul_of_nonneg_right
      (mul_le_mul b1 b2 (norm_nonneg _) ((norm_nonneg _).trans b1)) br) zero_le_two) ?_
    exact mul_le_mul_of_nonneg_right (mul_diff_le a1 a2 c1 c2) (by positivity)

end

theorem MOp.size_smul (o : MOp) (s : ℤ) (k : ℝ) (a : ℤ → ℤ → ℝ) (l m : ℤ) : o.size s (fun l m => k * a l m) l m = k * o.size s a l m := by
  cases o <;> simp only [MOp.size] <;> ring

theorem MOp.size_add (o : MOp) (s : ℤ) (a b : ℤ → ℤ → ℝ) (l m : ℤ) :
    o.size s (fun l m => a l m + b l m) l m = o.size s a l m + o.size s b l m := by
  cases o <;> simp only [MOp.size] <;> ring

/-- **C93 (expressions without products).** The error is at most `(1 + u)^rounds - 1` times the size of the expression, `rounds` being the
number of roundings on its longest path. -/
theorem C93_linear {P : ℤ → ℤ → ℤ → ℤ → Prop} {u : ℝ} (hu : 0 ≤ u) {γ : ℕ → ℝ} {ε : ℤ → ℤ → ℤ → ℤ → ℤ → ℝ} :
    ∀ {e : MExpr}, e.Ok P → e.Linear → ∀ l m i, |m| ≤ l → e.err u γ ε l m i ≤ ((1 + u) ^ e.rounds - 1) * e.size l m i
  | .leaf f, _, _ => fun l m i hm => by simp [MExpr.err, MExpr.rounds]
  | .op o e, h, hl => fun l m i hm => by
    have ih := C93_linear hu (γ := γ) (ε := ε) h.1 hl
    have hp : 0 ≤ (1 + u) ^ o.rounds - 1 := by have := one_le_pow₀ (show 1 ≤ 1 + u by linarith) (n := o.rounds); linarith
    have k1 := o.size_mono e.ty.s (fun l m hm => ih l m i hm) hm
    have k2 : o.size e.ty.s (fun l m => ((1 + u) ^ e.rounds - 1) * e.size l m i) l m
        = ((1 + u) ^ e.rounds - 1) * o.size e.ty.s (fun l m => e.size l m i) l m := o.size_smul _ _ _ _ _
    rw [k2] at k1
    simp only [MExpr.err, MExpr.rounds, MExpr.size]
    rw [o.size_add, pow_add]
    have := mul_le_mul_of_nonneg_left k1 hp
    linarith
  | .add sub e1 e2, h, hl => fun l m i hm => by
    have i1 := C93_linear hu (γ := γ) (ε := ε) h.1 hl.1 l m (bcIdx e1.ty.lead i) hm
    have i2 := C93_linear hu (γ := γ) (ε := ε) h.2.1 hl.2 l m (bcIdx e2.ty.lead i) hm
    have s1 := MExpr.size_nonneg h.1 (bcIdx e1.ty.lead i) hm
    have s2 := MExpr.size_nonneg h.2.1 (bcIdx e2.ty.lead i) hm
    have one : (1 : ℝ) ≤ 1 + u := by linarith
    have j1 := mul_le_mul_of_nonneg_right (sub_le_sub_right (pow_le_pow_right₀ one (le_max_left e1.rounds e2.rounds)) 1) s1
    have j2 := mul_le_mul_of_nonneg_right (sub_le_sub_right (pow_le_pow_right₀ one (le_max_right e1.rounds e2.rounds)) 1) s2
    simp only [MExpr.err, MExpr.rounds, MExpr.size]
    rw [pow_add, pow_one]
    have k := mul_le_mul_of_nonneg_left (add_le_add (i1.trans j1) (i2.trans j2)) (show 0 ≤ 1 + u by linarith)
    linarith
  | .scale a e, h, hl => fun l m i hm => by
    have ih := C93_linear hu (γ := γ) (ε := ε) h.1 hl l m (bcIdx e.ty.lead i) hm
    have s1 := MExpr.size_nonneg h.1 (bcIdx e.ty.lead i) hm
    have hp : 1 ≤ (1 + u) ^ e.rounds := one_le_pow₀ (by linarith)
    simp only [MExpr.err, MExpr.rounds, MExpr.size]
    rw [← mul_assoc]
    refine mul_le_mul_of_nonneg_right ?_ (norm_nonneg _)
    have k := mul_le_mul_of_nonneg_left ih (show 0 ≤ 1 + 2 * ((1 + u) ^ 2 - 1) by nlinarith)
    have k2 : 1 + 2 * ((1 + u) ^ 2 - 1) ≤ (1 + u) ^ 4 := by nlinarith [pow_nonneg hu 3, pow_nonneg hu 4, pow_nonneg hu 2]
    have k3 := mul_le_mul_of_nonneg_right k2 (mul_nonneg (show 0 ≤ (1 + u) ^ e.rounds by linarith) s1)
    rw [pow_add]
    linarith
  | .div a e, h, hl => fun l m i hm => by
    have ih := C93_linear hu (γ := γ) (ε := ε) h.1 hl.1 l m (bcIdx e.ty.lead i) hm
    simp only [MExpr.err, MExpr.rounds, MExpr.size, divErr]
    rw [← mul_div_assoc, if_pos (hl.2 _)]
    refine div_le_div_of_nonneg_right ?_ (norm_nonneg _)
    have k := mul_le_mul_of_nonneg_left ih (show 0 ≤ (1 + u) ^ 2 by positivity)
    rw [pow_add]
    linarith

/-- **C93 (no roundings, no errors).** The bound is zero if the arithmetic and the 3-j symbols are exact. -/
theorem C93_exact : ∀ (e : MExpr) (l m : ℤ) (i : MIdx), e.err 0 (gam 0) (fun _ _ _ _ _ => 0) l m i = 0
  | .leaf f => fun l m i => rfl
  | .op o e => fun l m i => by
    have ih := C93_exact e
    simp only [MExpr.err, ih]
    have z := o.size_smul e.ty.s 0 (fun _ _ => 0) l m
    simp only [zero_mul, mul_zero] at z
    rw [z]; simp
  | .add _ e1 e2 => fun l m i => by simp [MExpr.err, C93_exact e1, C93_exact e2]
  | .scale _ e => fun l m i => by simp [MExpr.err, C93_exact e]
  | .div _ e => fun l m i => by simp [MExpr.err, C93_exact e, divErr, gam]
  | .mul _ e1 e2 => fun l m i => by
    have g0 : ∀ k, gam 0 k = 0 := fun k => by simp [gam]
    simp [MExpr.err, C93_exact e1, C93_exact e2, productSum, g0]

theorem sum_field {s L : ℤ} {c : ℤ → ℤ → ℂ} (Ra Rb : ℂ) : fieldValue s L c Ra Rb = ∑ l ∈ Icc 0 L, ∑ m ∈ Icc (-l) l, c l m * sYlm Ra Rb s l m :=
  fieldValue_from_zero _ _ _ _ _

/-- **C93 (expressions and values of functions).** For expressions without derivatives and truncations, the function with the exact mode
weights of the expression is the formula applied to the values of the functions at each unit rotor. -/
theorem C93_value {P : ℤ → ℤ → ℤ → ℤ → Prop} {Ra Rb : ℂ} (hU : IsUnit' Ra Rb) : ∀ {e : MExpr}, e.Ok P → e.Algebraic → ∀ i,
    fieldValue e.ty.s e.ty.ell_max (fun l m => e.weight l m i) Ra Rb = e.value Ra Rb i
  | .leaf f, _, _ => fun i => rfl
  | .op o e, h, ha => fun i => by
    have ih := C93_value hU h.1 ha.2 i
    have cj := fieldValue_conj e.ty.s e.ty.ell_max (fun l m => e.weight l m i) Ra Rb
    rw [ih] at cj
    rcases ha.1 with rfl | rfl | rfl | rfl
    · simp only [MExpr.weight, MExpr.value, MExpr.ty, MOp.weight, MOp.spin]
      rw [← ih, ← neg_one_mul, ← fieldValue_smul]
      simp only [neg_one_mul]
    · exact cj
    · have hs := h.2 (Or.inl rfl)
      simp only [MExpr.weight, MExpr.value, MExpr.ty, MOp.weight, MOp.spin]
      rw [hs] at cj ih ⊢
      simp only [neg_zero, zero_add] at cj
      have := fieldValue_smul 0 e.ty.ell_max (1 / 2) (fun l m => e.weight l m i + (-1 : ℂ) ^ m * conj (e.weight l (-m) i)) Ra Rb
      rw [fieldValue_add, ih, cj] at this
      simp only [div_eq_inv_mul, mul_one] at this ⊢
      rw [this, Complex.add_conj]
      push_cast; ring
    · have hs := h.2 (Or.inr rfl)
      simp only [MExpr.weight, MExpr.value, MExpr.ty, MOp.weight, MOp.spin]
      rw [hs] at cj ih ⊢
      simp only [neg_zero, zero_add] at cj
      have := fieldValue_smul 0 e.ty.ell_max (2 * Complex.I)⁻¹ (fun l m => e.weight l m i - (-1 : ℂ) ^ m * conj (e.weight l (-m) i)) Ra Rb
      rw [fieldValue_sub, ih, cj] at this
      simp only [div_eq_inv_mul]
      rw [this, Complex.sub_conj]
      have := Complex.I_ne_zero
      push_cast; field_simp
  | .add sub e1 e2, h, ha => fun i => by
    have i1 := C93_value hU h.1 ha.1 (bcIdx e1.ty.lead i)
    have i2 := C93_value hU h.2.1 ha.2 (bcIdx e2.ty.lead i)
    have z1 := (MExpr.static h.1).2.1
    have z2 := (MExpr.static h.2.1).2.1
    rw [fieldValue_extend Ra Rb (le_max_left e1.ty.ell_max e2.ty.ell_max) (fun l m h1 _ hm => z1 l m _ hm (Or.inr h1))] at i1
    rw [fieldValue_extend Ra Rb (le_max_right e1.ty.ell_max e2.ty.ell_max) (fun l m h1 _ hm => z2 l m _ hm (Or.inr h1)), ← h.2.2.1] at i2
    simp only [MExpr.weight, MExpr.value, MExpr.ty]
    cases sub
    · simp only [Bool.false_eq_true, if_false]
      rw [fieldValue_add, i1, i2]
    · simp only [if_true]
      rw [fieldValue_sub, i1, i2]
  | .scale a e, h, ha => fun i => by
    have ih := C93_value hU h.1 ha (bcIdx e.ty.lead i)
    simp only [MExpr.weight, MExpr.value, MExpr.ty]
    rw [← ih, mul_comm, ← fieldValue_smul]
    simp only [mul_comm]
  | .div a e, h, ha => fun i => by
    have ih := C93_value hU h.1 ha (bcIdx e.ty.lead i)
    simp only [MExpr.weight, MExpr.value, MExpr.ty]
    rw [← ih, div_eq_inv_mul, ← fieldValue_smul]
    simp only [div_eq_inv_mul]
  | .mul t e1 e2, h, ha => fun i => by
    have i1 := C93_value hU h.1 ha.1 (bcIdx e1.ty.lead i)
    have i2 := C93_value hU h.2.1 ha.2.1 (bcIdx e2.ty.lead i)
    simp only [MExpr.value]
    rw [← i1, ← i2, sum_field, sum_field, sum_field]
    rw [← mulSum_field (s1 := e1.ty.s) (s2 := e2.ty.s) hU (fun l m _ => e1.weight l m (bcIdx e1.ty.lead i)) (fun l m _ => e2.weight l m (bcIdx e2.ty.lead i))
      ha.2.2 []]
    refine sum_congr rfl fun l hl => sum_congr rfl fun m hm => ?_
    rw [mem_Icc] at hl hm
    rw [mulSum_eq _ _ hl.2 (abs_le.2 hm)]
    simp only [MExpr.weight]
    rw [if_pos hl.2]
    rfl

/-- The error of the value of an expression at a rotor: the errors of the mode weights, and those of the evaluation. -/
noncomputable def MExpr.valueErr (u : ℝ) (ε : ℤ → ℤ → ℤ → ℤ → ℤ → ℝ) (u' w' eps δ' : ℝ) (e : MExpr) (i : MIdx) : ℝ :=
  ∑ l ∈ Icc 0 e.ty.ell_max, ∑ m ∈ Icc (-l) l,
    (e.err u (gam u) ε l m i * Real.sqrt ((2 * l + 1) / (4 * Real.pi))
      + (e.size l m i + e.err u (gam u) ε l m i) *
        (swshErr u' w' eps l + δ' * (Real.sqrt ((2 * l + 1) / (4 * Real.pi)) + swshErr u' w' eps l)))

/-- **C93 (values of expressions).** Evaluating the expression and then the value of the result at a list of unit rotors, everything in
floating-point arithmetic, gives at every rotor the value of the function with the exact mode weights up to `valueErr`; for expressions without
derivatives and truncations this is the formula applied to the values of the functions. -/
theorem C93_evaluate {u : ℝ} {δ : ℕ → ℝ} {M : ℤ} {F : ConvOps} (hF : F.Std u δ M) {w3 : ℤ → ℤ → ℤ → ℤ → Py (List ℝ)} {ε : ℤ → ℤ → ℤ → ℤ → ℤ → ℝ} (hε : ∀ i l1 l2 m m', 0 ≤ ε i l1 l2 m m')
    {u' w' : ℝ} {δ' : ℕ → ℝ} {G : FloatOpsY} (hG : G.Std u' w' δ') {L : ℤ} {table : List ℝ} (ht : RoundedTable u' L table) (eps : ℝ) (he : 0 ≤ eps)
    (he1 : eps < 1 - u') (junk : ℕ → ℤ × ℤ) (e : MExpr) (hok : e.Ok (fun Lf sf Lg sg => ThreeJApprox w3 Lf sf Lg sg ε)) (hL : e.ty.ell_max ≤ L)
    (qs : List (Quaternion ℝ)) (hne : qs ≠ []) (hq : ∀ q ∈ qs, Quaternion.normSq q = 1) :
    ∃ g v, e.runF F w3 = .ok g ∧ g.evaluateF G eps table junk (qs.map comps) = .ok (qs.map v) ∧ ∀ q ∈ qs, ∀ i, ValidIdx e.ty.lead i →
      ‖v q i - fieldValue e.ty.s e.ty.ell_max (fun l m => e.weight l m i) (partA q) (partB q)‖
        ≤ e.valueErr u ε u' w' eps (δ' (((e.ty.ell_max + 1) ^ 2).toNat)) i ∧
      (e.Algebraic → ‖v q i - e.value (partA q) (partB q) i‖ ≤ e.valueErr u ε u' w' eps (δ' (((e.ty.ell_max + 1) ^ 2).toNat)) i) := by
  obtain ⟨g, eg, cg⟩ := C93_expression hF hε e hok
  obtain ⟨v, ev, hv⟩ := C70_evaluate hG ht eps he he1 junk g cg.wf (by rw [cg.ell_max]; exact hL) qs hne hq
  have main : ∀ q ∈ qs, ∀ i, ValidIdx e.ty.lead i →
      ‖v q i - fieldValue e.ty.s e.ty.ell_max (fun l m => e.weight l m i) (partA q) (partB q)‖
        ≤ e.valueErr u ε u' w' eps (δ' (((e.ty.ell_max + 1) ^ 2).toNat)) i := by
    intro q hqm i hi
    have k := hv q hqm i
    rw [cg.s, cg.ell_max] at k
    have hU : IsUnit' (partA q) (partB q) := unitQ.mpr (hq q hqm)
    have d : ‖fieldValue e.ty.s e.ty.ell_max (fun l m => g.coef l m i) (partA q) (partB q)
        - fieldValue e.ty.s e.ty.ell_max (fun l m => e.weight l m i) (partA q) (partB q)‖
        ≤ ∑ l ∈ Icc 0 e.ty.ell_max, ∑ m ∈ Icc (-l) l, e.err u (gam u) ε l m i * Real.sqrt ((2 * l + 1) / (4 * Real.pi)) := by
      rw [sum_field, sum_field, ← sum_sub_distrib]
      refine (norm_sum_le _ _).trans (sum_le_sum fun l hl => ?_)
      rw [← sum_sub_distrib]
      refine (norm_sum_le _ _).trans (sum_le_sum fun m hm => ?_)
      rw [mem_Icc] at hl hm
      rw [← sub_mul, norm_mul]
      have c := cg.coef l m (abs_le.2 hm) i hi
      obtain ⟨n, rfl⟩ := Int.eq_ofNat_of_zero_le hl.1
      exact mul_le_mul c (by exact_mod_cast sYlm_norm_le hU e.ty.s m n) (norm_nonneg _) ((norm_nonneg _).trans c)
    refine (norm_sub_le_norm_sub_add_norm_sub _ _ _).trans ((add_le_add k d).trans ?_)
    unfold MExpr.valueErr
    rw [← sum_add_distrib]
    refine sum_le_sum fun l hl => ?_
    rw [← sum_add_distrib]
    refine sum_le_sum fun m hm => ?_
    rw [mem_Icc] at hl hm
    have c := norm_of_close ((MExpr.static hok).2.2 l m i (abs_le.2 hm)) (cg.coef l m (abs_le.2 hm) i hi)
    rw [add_comm]
    have z := swshErr_nonneg hG (eps := eps) l
    have z2 := hG.dot_nonneg (((e.ty.ell_max + 1) ^ 2).toNat)
    have z3 := Real.sqrt_nonneg ((2 * (l : ℝ) + 1) / (4 * Real.pi))
    exact add_le_add le_rfl (mul_le_mul_of_nonneg_right c (by positivity))
  refine ⟨g, v, eg, ev, fun q hqm i hi => ⟨main q hqm i hi, fun ha => ?_⟩⟩
  rw [← C93_value (unitQ.mpr (hq q hqm)) hok ha i]
  exact main q hqm i hi

/-! ## Non-vacuity -/

/-- `(2 + i) * h + (f * f.bar).real / (3 - 4i)` for `f = exModes` (two functions of spin weight -1) and `h = exModesF` (one of spin weight 0). -/
noncomputable def exExpr : MExpr :=
  .add false (.scale ⟨[], fun _ => 2 + Complex.I⟩ (.leaf exModesF))
    (.div ⟨[], fun _ => 3 - 4 * Complex.I⟩ (.op .real (.mul none (.leaf exModes) (.op .bar (.leaf exModes)))))

theorem exExpr_Ok {ε : ℝ} (hε : 0 ≤ ε) :
    exExpr.Ok (fun Lf sf Lg sg => ThreeJApprox (sloppy3j ε) Lf sf Lg sg fun l l1 l2 m m' => ε * |threeJ l l1 l2 (-(m + m')) m m'|) := by
  refine ⟨⟨⟨exModesF_WF, by decide⟩, by decide, by decide⟩, ⟨⟨⟨⟨exModes_WF, by decide⟩, ⟨⟨exModes_WF, by decide⟩, by decide⟩, by decide, by decide,
    by decide, sloppy3j_approx hε _ _ _ _⟩, fun _ => by decide⟩, by decide, by decide, fun _ h => ?_⟩, by decide, by decide⟩
  have := congrArg Complex.re h
  simp at this

/-- Non-vacuity of `C93_expression`: the expression, and its image under ð, in arithmetic with errors. -/
example : ∃ g, (MExpr.op .eth exExpr).runF (sloppyConv (2 ^ (-53 : ℤ))) (sloppy3j (2 ^ (-40 : ℤ))) = .ok g ∧ g.s = 1 ∧ g.ell_max = 4 ∧ g.lead = [2] := by
  obtain ⟨g, e, c⟩ := C93_expression (sloppyConv_std (u := 2 ^ (-53 : ℤ)) (by positivity) (by norm_num)) (fun _ _ _ _ _ => by positivity)
    (.op .eth exExpr) ⟨exExpr_Ok (ε := 2 ^ (-40 : ℤ)) (by positivity), by simp⟩
  exact ⟨g, e, c.s.trans (by decide), c.ell_max.trans (by decide), c.lead.trans (by decide)⟩

/-- Non-vacuity of `C93_evaluate` and `C93_value`. -/
example : exExpr.Algebraic ∧ ∃ (table : List ℝ) (g : Modes) (v : Quaternion ℝ → MIdx → ℂ), exExpr.runF (sloppyConv (2 ^ (-53 : ℤ))) (sloppy3j (2 ^ (-40 : ℤ))) = .ok g ∧
    g.evaluateF F53Y (1 / 10 ^ 15) table (fun _ => (0, 0)) ([(1 : Quaternion ℝ)].map comps) = .ok [v 1] := by
  refine ⟨⟨trivial, Or.inr (Or.inr (Or.inl rfl)), trivial, ⟨Or.inr (Or.inl rfl), trivial⟩, by decide⟩, ?_⟩
  obtain ⟨t, ht⟩ := IsWignerTable.exists 32 (by norm_num)
  obtain ⟨g, v, e1, e2, -⟩ := C93_evaluate (sloppyConv_std (u := 2 ^ (-53 : ℤ)) (by positivity) (by norm_num)) (fun _ _ _ _ _ => by positivity)
    F53Y_std (table53 ht) (1 / 10 ^ 15) (by norm_num) (by norm_num) (fun _ => (0, 0)) exExpr (exExpr_Ok (ε := 2 ^ (-40 : ℤ)) (by positivity))
    (by decide) [1] (by simp) (by simp)
  exact ⟨_, g, v, e1, e2⟩

/-- Non-vacuity of `C93_linear`: `(-2 h.eth).ethbar / 3` has 10 roundings on its path. -/
example : (MExpr.div ⟨[], fun _ => 3⟩ (.op .ethbar (.scale ⟨[], fun _ => -2⟩ (.op .eth (.leaf exModesF))))).Ok (fun _ _ _ _ => True) ∧
    (MExpr.div ⟨[], fun _ => 3⟩ (.op .ethbar (.scale ⟨[], fun _ => -2⟩ (.op .eth (.leaf exModesF))))).Linear ∧
    (MExpr.div ⟨[], fun _ => 3⟩ (.op .ethbar (.scale ⟨[], fun _ => -2⟩ (.op .eth (.leaf exModesF))))).rounds = 10 :=
  ⟨⟨⟨⟨⟨⟨exModesF_WF, by decide⟩, by simp⟩, by decide, by decide⟩, by simp⟩, by decide, by decide, fun _ => by simp⟩, ⟨trivial, fun _ => by simp⟩, rfl⟩

end SF
