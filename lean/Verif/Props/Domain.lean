import Verif.Props.ProductAlgebra
import Mathlib.Analysis.Analytic.IsolatedZeros
import Mathlib.Analysis.SpecialFunctions.Complex.Analytic
import Mathlib.Analysis.SpecialFunctions.Trigonometric.Deriv

/-!
# C104: constants are scalars for the product of `Modes`, and a product vanishes only if a factor does
-/

set_option autoImplicit false

namespace SF

open Finset ComplexConjugate Quaternion

/-! ## Multiplication by a constant -/

/-- `g` is the constant function `c`: its only mode is the one that `constant_as_ell_0_mode` gives. -/
def IsConstant (g : Modes) (c : Slice) : Prop :=
  g.s = 0 ∧ 0 ≤ g.ell_max ∧
    ∀ l m idx, |m| ≤ l → l ≤ g.ell_max → g.coef l m idx = if l = 0 then constant_as_ell_0_mode (c idx) else 0

theorem IsConstant.value {g : Modes} {c : Slice} (h : IsConstant g c) (Q : ℍ[ℝ]) (idx : MIdx) : fv g Q idx = c idx := by
  obtain ⟨h1, h2, h3⟩ := h
  unfold fv Spec.fieldValue
  rw [h1, Finset.sum_eq_single 0]
  · simp only [neg_zero, Icc_self, sum_singleton]
    rw [h3 0 0 idx (by simp) h2, if_pos rfl]
    have k : ((Real.sqrt (4 * Real.pi) : ℝ) : ℂ) ≠ 0 := by
      exact_mod_cast (Real.sqrt_pos.mpr (by positivity)).ne'
    have w : Spec.wignerD (partA Q) (partB Q) (2 * 0) (2 * 0) (-2 * 0) = 1 := by
      unfold Spec.wignerD Spec.Dpq
      norm_num
    have e2 : (2 * ((0 : ℤ) : ℝ) + 1) / (4 * Real.pi) = (4 * Real.pi)⁻¹ := by push_cast; ring
    unfold Spec.sYlm constant_as_ell_0_mode
    rw [if_pos (by simp), w, e2, Real.sqrt_inv]
    push_cast at k ⊢
    field_simp
  · intro l hl h0
    rw [mem_Icc] at hl
    refine Finset.sum_eq_zero fun m hm => ?_
    rw [mem_Icc] at hm
    beta_reduce
    rw [h3 l m idx (abs_le.mpr hm) hl.2, if_neg h0, zero_mul]
  · intro h
    rw [mem_Icc, abs_zero] at h
    omega

/-- The modes of a product whose values are `c` times those of `f`. -/
theorem scaled_of_values {f P : Modes} (hf : f.WF) {K : ℤ} (hs : P.s = f.s) (hK : P.ell_max = K) (hL : f.ell_max ≤ K) {z : ℂ} {i j : MIdx}
    (h : ∀ Q : ℍ[ℝ], normSq Q = 1 → fv P Q i = z * fv f Q j) {l m : ℤ} (h1 : |f.s| ≤ l) (h2 : |m| ≤ l) (h3 : l ≤ K) :
    P.coef l m i = if l ≤ f.ell_max then z * f.coef l m j else 0 := by
  refine fieldValue_unique (s := f.s) (K := K) (c := fun l m => P.coef l m i)
    (c' := fun l m => if l ≤ f.ell_max then z * f.coef l m j else 0) (fun Q hQ => ?_) h1 h3 h2
  have e := h Q hQ
  unfold fv at e
  rw [hs, hK] at e
  rw [e]
  unfold Spec.fieldValue
  rw [Finset.mul_sum]
  have hsub : Icc |f.s| f.ell_max ⊆ Icc |f.s| K := Finset.Icc_subset_Icc_right hL
  rw [← Finset.sum_subset hsub]
  · refine Finset.sum_congr rfl fun a ha => ?_
    rw [mem_Icc] at ha
    rw [Finset.mul_sum]
    refine Finset.sum_congr rfl fun b _ => ?_
    beta_reduce
    rw [if_pos ha.2]
    ring
  · intro a ha hb
    rw [mem_Icc] at ha hb
    refine Finset.sum_eq_zero fun b _ => ?_
    beta_reduce
    rw [if_neg (by omega), zero_mul]

/-- **C104 (constants).** Multiplying `f` by the constant function `c`, in either order, multiplies its modes by `c`. -/
theorem C104_constant (f g h h' : Modes) (c : Slice) (hf : f.WF) (hg : g.WF) (hf0 : 0 ≤ f.ell_max) (hc : IsConstant g c)
    (hq : f.ell_max + g.ell_max ≤ 151) (lead : List ℕ) (hb : bcastShape f.lead g.lead = some lead) (e : Multiplied f g h)
    (e' : Multiplied g f h') :
    h.s = f.s ∧ h'.s = f.s ∧ h.lead = lead ∧ h'.lead = lead ∧ ∀ l m idx, |m| ≤ l → ValidIdx lead idx →
      (l ≤ h.ell_max → h.coef l m idx = if l ≤ f.ell_max then c (bcIdx g.lead idx) * f.coef l m (bcIdx f.lead idx) else 0) ∧
      (l ≤ h'.ell_max → h'.coef l m idx = if l ≤ f.ell_max then c (bcIdx g.lead idx) * f.coef l m (bcIdx f.lead idx) else 0) := by
  have hb' : bcastShape g.lead f.lead = some lead := by rw [bcastShape_comm]; exact hb
  have hg0 := hc.2.1
  obtain ⟨a1, a2, a3, -⟩ := e.spec hf hg hf0 hg0 hq hb
  obtain ⟨b1, b2, b3, -⟩ := e'.spec hg hf hg0 hf0 (by omega) hb'
  have s1 : h.s = f.s := by rw [a3, hc.1, add_zero]
  have s2 : h'.s = f.s := by rw [b3, hc.1, zero_add]
  refine ⟨s1, s2, a2, b2, fun l m idx hm hv => ?_⟩
  have low : ∀ {p : Modes}, p.WF → p.s = f.s → ¬ |f.s| ≤ l → l ≤ p.ell_max →
      p.coef l m idx = if l ≤ f.ell_max then c (bcIdx g.lead idx) * f.coef l m (bcIdx f.lead idx) else 0 := by
    intro p hp hs k hl
    rw [hp.low l m (by rw [hs]; omega) hm hl]
    split_ifs with h1
    · rw [hf.low l m (by omega) hm h1]; simp
    · rfl
  by_cases k : |f.s| ≤ l
  swap
  · exact ⟨low a1 s1 k, low b1 s2 k⟩
  constructor
  · intro hl
    have K1 : f.ell_max + g.ell_max ≤ max (f.ell_max + g.ell_max) h.ell_max := le_max_left _ _
    have K2 : h.ell_max ≤ max (f.ell_max + g.ell_max) h.ell_max := le_max_right _ _
    obtain ⟨X, X1, X2, X3, X4, X5, X6⟩ := full_product hf hg hf0 hg0 K1 lead
    rw [e.eq_full hf hg hf0 hg0 hq hb X1 X3 X4 X5 hm hl (hl.trans K2)]
    refine scaled_of_values hf (by rw [X3, hc.1, add_zero]) X4 (by omega) (fun Q hQ => ?_) k hm (hl.trans K2)
    rw [X6 Q hQ idx hv, hc.value]
    ring
  · intro hl
    have K1 : g.ell_max + f.ell_max ≤ max (g.ell_max + f.ell_max) h'.ell_max := le_max_left _ _
    have K2 : h'.ell_max ≤ max (g.ell_max + f.ell_max) h'.ell_max := le_max_right _ _
    obtain ⟨X, X1, X2, X3, X4, X5, X6⟩ := full_product hg hf hg0 hf0 K1 lead
    rw [e'.eq_full hg hf hg0 hf0 (by omega) hb' X1 X3 X4 X5 hm hl (hl.trans K2)]
    refine scaled_of_values hf (by rw [X3, hc.1, zero_add]) X4 (by omega) (fun Q hQ => ?_) k hm (hl.trans K2)
    rw [X6 Q hQ idx hv, hc.value]

/-! ## No zero divisors -/

theorem sYlm_analytic {a b a' b' : ℝ → ℂ} (ha : AnalyticOnNhd ℝ a Set.univ) (hb : AnalyticOnNhd ℝ b Set.univ)
    (ha' : AnalyticOnNhd ℝ a' Set.univ) (hb' : AnalyticOnNhd ℝ b' Set.univ) (ca : ∀ t, conj (a t) = a' t) (cb : ∀ t, conj (b t) = b' t)
    (s l m : ℤ) : AnalyticOnNhd ℝ (fun t => Spec.sYlm (a t) (b t) s l m) Set.univ := by
  unfold Spec.sYlm Spec.wignerD Spec.Dpq
  simp only [ca, cb]
  split_ifs
  · refine analyticOnNhd_const.mul (analyticOnNhd_const.mul ?_)
    refine Finset.analyticOnNhd_fun_sum _ fun ρ _ => ?_
    exact (((analyticOnNhd_const.mul (ha.pow _)).mul (ha'.pow _)).mul (hb.pow _)).mul (hb'.pow _)
  · exact analyticOnNhd_const

theorem analytic_ofReal : AnalyticOnNhd ℝ (fun t : ℝ => (t : ℂ)) Set.univ := fun t _ => Complex.ofRealCLM.analyticAt t

/-- The values of a mode expansion along a segment of angles are analytic. -/
theorem fieldValue_analytic (s K : ℤ) (c : ℤ → ℤ → ℂ) (θ φ u v : ℝ) :
    AnalyticOnNhd ℝ (fun t : ℝ => Spec.fieldValue s K c (dirA (θ + t * u) (φ + t * v)) (dirB (θ + t * u) (φ + t * v))) Set.univ := by
  have lin : ∀ x y : ℝ, AnalyticOnNhd ℝ (fun t : ℝ => (x + t * y) / 2) Set.univ := fun x y t _ => by fun_prop
  have hcos : AnalyticOnNhd ℝ (fun t : ℝ => ((Real.cos ((θ + t * u) / 2) : ℝ) : ℂ)) Set.univ := fun t _ =>
    (Complex.ofRealCLM.analyticAt _).comp' (Real.analyticAt_cos.comp' (lin θ u t trivial))
  have hsin : AnalyticOnNhd ℝ (fun t : ℝ => ((Real.sin ((θ + t * u) / 2) : ℝ) : ℂ)) Set.univ := fun t _ =>
    (Complex.ofRealCLM.analyticAt _).comp' (Real.analyticAt_sin.comp' (lin θ u t trivial))
  have hexp : ∀ w : ℂ, AnalyticOnNhd ℝ (fun t : ℝ => Complex.exp (w * (((φ + t * v : ℝ) : ℂ) / 2))) Set.univ := by
    intro w t _
    have e : (fun t : ℝ => w * (((φ + t * v : ℝ) : ℂ) / 2)) = fun t : ℝ => w * (((φ + t * v) / 2 : ℝ) : ℂ) := by
      funext t; push_cast; ring
    refine (AnalyticAt.restrictScalars (𝕜 := ℝ) (analyticAt_cexp)).comp' ?_
    rw [e]
    exact analyticAt_const.mul ((Complex.ofRealCLM.analyticAt _).comp' (lin φ v t trivial))
  have hA : AnalyticOnNhd ℝ (fun t : ℝ => dirA (θ + t * u) (φ + t * v)) Set.univ := by
    unfold dirA; exact hcos.mul (hexp Complex.I)
  have hA' : AnalyticOnNhd ℝ (fun t : ℝ => ((Real.cos ((θ + t * u) / 2) : ℝ) : ℂ)
      * Complex.exp (-Complex.I * (((φ + t * v : ℝ) : ℂ) / 2))) Set.univ := hcos.mul (hexp (-Complex.I))
  have hB : AnalyticOnNhd ℝ (fun t : ℝ => dirB (θ + t * u) (φ + t * v)) Set.univ := by
    unfold dirB; simp only [← neg_mul]; exact hsin.mul (hexp (-Complex.I))
  have hB' : AnalyticOnNhd ℝ (fun t : ℝ => ((Real.sin ((θ + t * u) / 2) : ℝ) : ℂ)
      * Complex.exp (Complex.I * (((φ + t * v : ℝ) : ℂ) / 2))) Set.univ := hsin.mul (hexp Complex.I)
  have ca : ∀ t : ℝ, conj (dirA (θ + t * u) (φ + t * v)) = ((Real.cos ((θ + t * u) / 2) : ℝ) : ℂ)
      * Complex.exp (-Complex.I * (((φ + t * v : ℝ) : ℂ) / 2)) := by
    intro t
    unfold dirA
    rw [map_mul, Complex.conj_ofReal, ← Complex.exp_conj, map_mul, Complex.conj_I, map_div₀, Complex.conj_ofReal, Complex.conj_ofNat]
  have cb : ∀ t : ℝ, conj (dirB (θ + t * u) (φ + t * v)) = ((Real.sin ((θ + t * u) / 2) : ℝ) : ℂ)
      * Complex.exp (Complex.I * (((φ + t * v : ℝ) : ℂ) / 2)) := by
    intro t
    unfold dirB
    rw [map_mul, Complex.conj_ofReal, ← Complex.exp_conj, map_neg, map_mul, Complex.conj_I, map_div₀, Complex.conj_ofReal, Complex.conj_ofNat,
      neg_mul, neg_neg]
  unfold Spec.fieldValue
  refine Finset.analyticOnNhd_fun_sum _ fun l _ => Finset.analyticOnNhd_fun_sum _ fun m _ => ?_
  exact analyticOnNhd_const.mul (sYlm_analytic hA hB hA' hB' ca cb s l m)

/-- An expansion with a nonzero weight has a nonzero value. -/
theorem exists_value_ne {s K : ℤ} {c : ℤ → ℤ → ℂ} {l m : ℤ} (h1 : |s| ≤ l) (h2 : l ≤ K) (h3 : |m| ≤ l) (h : c l m ≠ 0) :
    ∃ θ φ, Spec.fieldValue s K c (dirA θ φ) (dirB θ φ) ≠ 0 := by
  by_contra hn
  push Not at hn
  have key := sYlm_unique (s := s) (modeSet s K) (fun p hp => by rw [mem_modeSet] at hp; exact ⟨hp.1, hp.2.2⟩)
    (fun p => c p.1 p.2) (show (0 : ℝ) < 1 by norm_num) (fun θ φ _ _ => by
      rw [← hn θ φ]
      unfold modeSet Spec.fieldValue
      rw [Finset.sum_sigma])
  exact h (key ⟨l, m⟩ (by rw [mem_modeSet]; exact ⟨h1, h2, h3⟩))

/-- The values of two expansions multiply to zero everywhere only if one of the expansions is zero. -/
theorem fieldValue_domain {s K s' K' : ℤ} {c c' : ℤ → ℤ → ℂ}
    (h : ∀ θ φ, Spec.fieldValue s K c (dirA θ φ) (dirB θ φ) * Spec.fieldValue s' K' c' (dirA θ φ) (dirB θ φ) = 0) :
    (∀ l m, |s| ≤ l → |m| ≤ l → l ≤ K → c l m = 0) ∨ ∀ l m, |s'| ≤ l → |m| ≤ l → l ≤ K' → c' l m = 0 := by
  by_contra hn
  push Not at hn
  obtain ⟨⟨l, m, a1, a2, a3, a4⟩, l', m', b1, b2, b3, b4⟩ := hn
  obtain ⟨θ, φ, e⟩ := exists_value_ne a1 a3 a2 a4
  obtain ⟨θ', φ', e'⟩ := exists_value_ne b1 b3 b2 b4
  rcases AnalyticOnNhd.eq_zero_or_eq_zero_of_mul_eq_zero (fieldValue_analytic s K c θ φ (θ' - θ) (φ' - φ))
    (fieldValue_analytic s' K' c' θ φ (θ' - θ) (φ' - φ)) (fun t _ => h _ _) isPreconnected_univ with k | k
  · have := k 0 trivial
    simp only [zero_mul, add_zero] at this
    exact e this
  · have := k 1 trivial
    simp only [one_mul, add_sub_cancel] at this
    exact e' this

/-- **C104 (no zero divisors).** If all the modes of a product are zero (and it keeps all its modes), then all the modes of one of
the factors are zero; for every leading index. -/
theorem C104_zero (f g h : Modes) (hf : f.WF) (hg : g.WF) (hf0 : 0 ≤ f.ell_max) (hg0 : 0 ≤ g.ell_max) (hq : f.ell_max + g.ell_max ≤ 151)
    (lead : List ℕ) (hb : bcastShape f.lead g.lead = some lead) (e : Multiplied f g h) (hK : f.ell_max + g.ell_max ≤ h.ell_max)
    (idx : MIdx) (hv : ValidIdx lead idx) :
    (∀ l m, |m| ≤ l → l ≤ h.ell_max → h.coef l m idx = 0) ↔
      (∀ l m, |m| ≤ l → l ≤ f.ell_max → f.coef l m (bcIdx f.lead idx) = 0) ∨
        ∀ l m, |m| ≤ l → l ≤ g.ell_max → g.coef l m (bcIdx g.lead idx) = 0 := by
  obtain ⟨a1, a2, a3, a4⟩ := e.spec hf hg hf0 hg0 hq hb
  have val : ∀ Q : ℍ[ℝ], normSq Q = 1 → fv h Q idx = fv f Q (bcIdx f.lead idx) * fv g Q (bcIdx g.lead idx) := fun Q hQ =>
    field_product hf hg hK a3 rfl a4 (unitQ.mpr hQ) hv
  have zero : ∀ {p : Modes} {i : MIdx}, (∀ l m, |m| ≤ l → l ≤ p.ell_max → p.coef l m i = 0) → ∀ Q, fv p Q i = 0 := by
    intro p i hz Q
    unfold fv Spec.fieldValue
    refine Finset.sum_eq_zero fun l hl => Finset.sum_eq_zero fun m hm => ?_
    rw [mem_Icc] at hl hm
    beta_reduce
    rw [hz l m (abs_le.mpr hm) hl.2, zero_mul]
  constructor
  · intro hz
    have low : ∀ {p : Modes} {i : MIdx}, p.WF → (∀ l m, |p.s| ≤ l → |m| ≤ l → l ≤ p.ell_max → p.coef l m i = 0) →
        ∀ l m, |m| ≤ l → l ≤ p.ell_max → p.coef l m i = 0 := by
      intro p i hp h l m hm hl
      by_cases k : |p.s| ≤ l
      · exact h l m k hm hl
      · rw [hp.low l m (by omega) hm hl]
    refine (fieldValue_domain (s := f.s) (K := f.ell_max) (s' := g.s) (K' := g.ell_max) (c := fun l m => f.coef l m (bcIdx f.lead idx))
      (c' := fun l m => g.coef l m (bcIdx g.lead idx)) fun θ φ => ?_).imp (low hf) (low hg)
    have := val (dirQ θ φ) (dirQ_unit θ φ)
    rw [zero hz] at this
    unfold fv at this
    rw [partA_dirQ, partB_dirQ] at this
    exact this.symm
  · intro hz l m hm hl
    by_cases k : |h.s| ≤ l
    swap
    · rw [a1.low l m (by omega) hm hl]
    have := fieldValue_unique (s := h.s) (K := h.ell_max) (c := fun l m => h.coef l m idx) (c' := fun _ _ => 0) (fun Q hQ => ?_) k hl hm
    · exact this
    have v := val Q hQ
    rw [show fv f Q (bcIdx f.lead idx) * fv g Q (bcIdx g.lead idx) = 0 by
      rcases hz with z | z
      · rw [zero z, zero_mul]
      · rw [zero z, mul_zero]] at v
    unfold fv at v
    rw [v]
    simp [Spec.fieldValue]

/-- **C104 (cancellation).** If `f g` and `f k` have the same modes (and keep them all) and `f` is not zero, then `g` and `k` have the
same modes. -/
theorem C104_cancel (f g k x y : Modes) (hf : f.WF) (hg : g.WF) (hk : k.WF) (hf0 : 0 ≤ f.ell_max) (hg0 : 0 ≤ g.ell_max)
    (hs : k.s = g.s) (hL : k.ell_max = g.ell_max) (hl : k.lead = g.lead) (hq : f.ell_max + g.ell_max ≤ 151) (lead : List ℕ)
    (hb : bcastShape f.lead g.lead = some lead) (e : Multiplied f g x) (e' : Multiplied f k y) (hx : f.ell_max + g.ell_max ≤ x.ell_max)
    (hxy : y.ell_max = x.ell_max) (idx : MIdx) (hv : ValidIdx lead idx)
    (hne : ∃ l m, |m| ≤ l ∧ l ≤ f.ell_max ∧ f.coef l m (bcIdx f.lead idx) ≠ 0)
    (same : ∀ l m, |m| ≤ l → l ≤ x.ell_max → x.coef l m idx = y.coef l m idx) :
    ∀ l m, |m| ≤ l → l ≤ g.ell_max → g.coef l m (bcIdx g.lead idx) = k.coef l m (bcIdx g.lead idx) := by
  obtain ⟨a1, a2, a3, a4⟩ := e.spec hf hg hf0 hg0 hq hb
  obtain ⟨b1, b2, b3, b4⟩ := e'.spec hf hk hf0 (by omega) (by omega) (lead := lead) (by rw [hl]; exact hb)
  intro l m hm hlm
  by_cases low : |g.s| ≤ l
  swap
  · rw [hg.low l m (by omega) hm hlm, hk.low l m (by rw [hs]; omega) hm (by omega)]
  have dom := fieldValue_domain (s := f.s) (K := f.ell_max) (s' := g.s) (K' := g.ell_max) (c := fun l m => f.coef l m (bcIdx f.lead idx))
      (c' := fun l m => g.coef l m (bcIdx g.lead idx) - k.coef l m (bcIdx g.lead idx)) fun θ φ => ?_
  · rcases dom with z | z
    · obtain ⟨l', m', q1, q2, q3⟩ := hne
      by_cases w : |f.s| ≤ l'
      · exact absurd (z l' m' w q1 q2) q3
      · rw [hf.low l' m' (by omega) q1 q2] at q3
        exact absurd rfl q3
    · exact sub_eq_zero.mp (z l m low hm hlm)
  have v1 := field_product hf hg hx a3 rfl a4 (dir_unit θ φ) hv
  have v2 := field_product hf hk (L := y.ell_max) (by omega) b3 rfl b4 (dir_unit θ φ) hv
  have v3 : Spec.fieldValue x.s x.ell_max (fun l m => x.coef l m idx) (dirA θ φ) (dirB θ φ)
      = Spec.fieldValue y.s y.ell_max (fun l m => y.coef l m idx) (dirA θ φ) (dirB θ φ) := by
    rw [show y.s = x.s by rw [a3, b3, hs], hxy]
    exact fieldValue_congr _ _ fun l m _ q2 q3 => same l m q2 q3
  have v4 : Spec.fieldValue g.s g.ell_max (fun l m => g.coef l m (bcIdx g.lead idx) - k.coef l m (bcIdx g.lead idx)) (dirA θ φ) (dirB θ φ)
      = Spec.fieldValue g.s g.ell_max (fun l m => g.coef l m (bcIdx g.lead idx)) (dirA θ φ) (dirB θ φ)
        - Spec.fieldValue g.s g.ell_max (fun l m => k.coef l m (bcIdx g.lead idx)) (dirA θ φ) (dirB θ φ) := by
    unfold Spec.fieldValue
    simp only [sub_mul, Finset.sum_sub_distrib]
  rw [hs, hL, hl] at v2
  rw [v4, mul_sub, ← v1, ← v2, v3, sub_self]

/-! ## The hypotheses are met -/

/-- The constant function `2 + 3i`. -/
theorem exists_constant : ∃ g : Modes, g.WF ∧ g.lead = [] ∧ g.ell_max = 0 ∧ IsConstant g fun _ => 2 + 3 * Complex.I := by
  obtain ⟨call, hc⟩ := List.exists_mem_of_ne_nil (callsWithEllMax 0 0 0 .absent ++ callsWithout 0 0 .absent) (by simp [callsWithEllMax])
  have hlen : (([fun _ => constant_as_ell_0_mode (2 + 3 * Complex.I)] : List Slice).length : ℤ) = (0 + 1) ^ 2 - 0 ^ 2 := by simp
  obtain ⟨g, g1, g2, g3, g4, -⟩ := C23_construct (s := 0) (le_refl 0) (by omega) .absent [] _ hlen call hc
  obtain ⟨g', k1, k2, k3, k4, k5⟩ := new_flat (s := 0) (l0 := 0) (L := 0) le_rfl (by omega) .absent
    (a := [constant_as_ell_0_mode (2 + 3 * Complex.I)]) ⟨le_rfl, by omega, by simp⟩ call hc
  obtain rfl := Except.ok.inj (g1.symm.trans k1)
  refine ⟨g, k2, g2, k4, k3, by omega, fun l m idx h1 h2 => ?_⟩
  have := abs_nonneg m
  have hl : l = 0 := by omega
  subst hl
  have hm : m = 0 := by rw [← abs_eq_zero]; omega
  subst hm
  rw [k5 0 0 h1 (by omega)]
  simp [modeAt]

/-- `exModes` times `2 + 3i`: a mode that both keep, and one above the `ell_max` of the factor. -/
example : ∃ g h h', Multiplied exModes g h ∧ Multiplied g exModes h' ∧ h.coef 2 1 [1] = (2 + 3 * Complex.I) * exModes.coef 2 1 [1] ∧
    h'.coef 2 (-1) [0] = (2 + 3 * Complex.I) * exModes.coef 2 (-1) [0] ∧ h.coef 3 0 [1] = 0 := by
  have h2 : exModes.ell_max = 2 := rfl
  obtain ⟨g, g1, g2, g3, g4⟩ := exists_constant
  have hb : bcastShape exModes.lead g.lead = some [2] := by rw [g2]; decide
  obtain ⟨h, e, e1, -⟩ := Multiplied.exists exModes_WF g1 (by omega) (by omega) (by omega) hb 3 (by omega)
  obtain ⟨h', e', e1', -⟩ := Multiplied.exists g1 exModes_WF (by omega) (by omega) (by omega) (lead := [2])
    (by rw [bcastShape_comm]; exact hb) 2 (by omega)
  obtain ⟨-, -, -, -, key⟩ := C104_constant _ g h h' _ exModes_WF g1 (by omega) g4 (by omega) [2] hb e e'
  have v0 : ValidIdx [2] [0] := by unfold ValidIdx; simp
  have v1 : ValidIdx [2] [1] := by unfold ValidIdx; simp
  refine ⟨g, h, h', e, e', ?_, ?_, ?_⟩
  · rw [(key 2 1 [1] (by norm_num) v1).1 (by omega), if_pos (by omega)]; rfl
  · rw [(key 2 (-1) [0] (by norm_num) v0).2 (by omega), if_pos (by omega)]; rfl
  · rw [(key 3 0 [1] (by norm_num) v1).1 (by omega), if_neg (by omega)]

theorem exModes_coef5 : exModes.coef 2 (-1) [0] = 5 * Complex.I := by
  unfold Modes.coef; rw [show mpos 2 (-1) = 5 by decide]; simp [exModes]; norm_num

/-- The square of `exModes` is not zero. -/
example : ∃ h, Multiplied exModes exModes h ∧ ∃ l m, |m| ≤ l ∧ l ≤ h.ell_max ∧ h.coef l m [0] ≠ 0 := by
  have h2 : exModes.ell_max = 2 := rfl
  have hb : bcastShape exModes.lead exModes.lead = some [2] := by decide
  obtain ⟨h, e, e1, -⟩ := Multiplied.exists exModes_WF exModes_WF (by omega) (by omega) (by omega) hb 4 (by omega)
  refine ⟨h, e, ?_⟩
  by_contra hn
  push Not at hn
  have key := (C104_zero _ _ h exModes_WF exModes_WF (by omega) (by omega) (by omega) [2] hb e (by omega) [0] (by unfold ValidIdx; simp)).mp
    fun l m q1 q2 => hn l m q1 q2
  rw [or_self] at key
  have := key 2 (-1) (by norm_num) (by omega)
  rw [show bcIdx exModes.lead [0] = [0] from rfl, exModes_coef5] at this
  simp at this

/-- `exModes` times itself and times `Lz exModes` differ. -/
example : ∃ k x y, exModes.Lz = .ok k ∧ Multiplied exModes exModes x ∧ Multiplied exModes k y ∧
    ∃ l m, |m| ≤ l ∧ l ≤ x.ell_max ∧ x.coef l m [0] ≠ y.coef l m [0] := by
  have h2 : exModes.ell_max = 2 := rfl
  have hb : bcastShape exModes.lead exModes.lead = some [2] := by decide
  obtain ⟨k, k1, k2⟩ := Lz_ok exModes_WF
  have kL := k2.hL
  obtain ⟨x, e, e1, -⟩ := Multiplied.exists exModes_WF exModes_WF (by omega) (by omega) (by omega) hb 4 (by omega)
  obtain ⟨y, e', e1', -⟩ := Multiplied.exists exModes_WF k2.wf (by omega) (by omega) (by omega) (lead := [2]) (by rw [k2.lead]; exact hb) 4 (by omega)
  refine ⟨k, x, y, k1, e, e', ?_⟩
  by_contra hn
  push Not at hn
  have i0 : bcIdx exModes.lead [0] = [0] := rfl
  have := C104_cancel _ _ k x y exModes_WF exModes_WF k2.wf (by omega) (by omega) k2.hs kL k2.lead (by omega) [2] hb e e' (by omega)
    (by omega) [0] (by unfold ValidIdx; simp) ⟨2, -1, by norm_num, by omega, by rw [i0, exModes_coef5]; simp⟩
    (fun l m q1 q2 => hn l m q1 q2) 2 (-1) (by norm_num) (by omega)
  rw [i0, k2.coef 2 (-1) (by simp [exModes]) (by norm_num) (by omega)] at this
  beta_reduce at this
  rw [exModes_coef5] at this
  have h := congrArg Complex.im this
  norm_num at h

end SF
