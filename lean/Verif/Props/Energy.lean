import Verif.Props.NormBounds

/-!
# C105: identities between the norms of the images of a `Modes` object, and lower bounds for the operators
-/

set_option autoImplicit false

namespace SF

open Finset ComplexConjugate

theorem norm_sq_sum {f : Modes} (hf : f.WF) (i : MIdx) :
    f.norm i ^ 2 = ∑ l ∈ Icc 0 f.ell_max, ∑ m ∈ Icc (-l) l, ‖f.coef l m i‖ ^ 2 := by
  rw [norm_eq_zero_sum hf, Real.sq_sqrt (by positivity)]

/-- The norm of the image under an operator that multiplies each mode by a factor. -/
theorem norm_sq_factor {f f' : Modes} {t : ℤ} {c : ℤ → ℤ → ℂ} (hf : f.WF) (a : OpRes f f' t fun l m x => c l m * f.coef l m x)
    (w : ℤ → ℤ → ℝ) (h1 : ∀ l m, |f.s| ≤ l → |t| ≤ l → |m| ≤ l → ‖c l m‖ ^ 2 = w l m)
    (h2 : ∀ l m, |f.s| ≤ l → l < |t| → |m| ≤ l → w l m = 0) (i : MIdx) :
    f'.norm i ^ 2 = ∑ l ∈ Icc 0 f.ell_max, ∑ m ∈ Icc (-l) l, w l m * ‖f.coef l m i‖ ^ 2 := by
  rw [norm_sq_sum a.wf, a.hL]
  refine sum_congr rfl fun l hl => sum_congr rfl fun m hm => ?_
  rw [mem_Icc] at hl hm
  have hm' := abs_le.mpr hm
  by_cases k : |f.s| ≤ l
  · by_cases k' : |t| ≤ l
    · rw [a.coef l m k' hm' hl.2]; beta_reduce
      rw [norm_mul, mul_pow, h1 l m k k' hm']
    · rw [a.wf.low l m (by rw [a.hs]; omega) hm' (by rw [a.hL]; exact hl.2), h2 l m k (by omega) hm']; simp
  · by_cases k' : |t| ≤ l
    · rw [a.coef l m k' hm' hl.2]; beta_reduce
      rw [hf.low l m (by omega) hm' hl.2]; simp
    · rw [a.wf.low l m (by rw [a.hs]; omega) hm' (by rw [a.hL]; exact hl.2), hf.low l m (by omega) hm' hl.2]; simp

theorem eth_norm_sq {f f' : Modes} (hf : f.WF) (e : f.eth = .ok f') (i : MIdx) :
    f'.norm i ^ 2 = ∑ l ∈ Icc 0 f.ell_max, ∑ m ∈ Icc (-l) l, (((l - f.s) * (l + f.s + 1) : ℤ) : ℝ) * ‖f.coef l m i‖ ^ 2 := by
  obtain ⟨_, a1, a2⟩ := Rminus_ok hf
  obtain rfl := Except.ok.inj (e.symm.trans a1)
  refine norm_sq_factor hf a2 _ (fun l m h1 h2 _ => ?_) (fun l m h1 h2 _ => ?_) i
  · rw [abs_le] at h1 h2
    rw [norm_isqrtC_sq (mul_nonneg (by omega) (by omega))]
    push_cast; ring
  · rw [abs_le] at h1
    have : l = f.s := by rw [lt_abs] at h2; omega
    rw [this]; simp

theorem ethbar_norm_sq {f f' : Modes} (hf : f.WF) (e : f.ethbar = .ok f') (i : MIdx) :
    f'.norm i ^ 2 = ∑ l ∈ Icc 0 f.ell_max, ∑ m ∈ Icc (-l) l, (((l + f.s) * (l - f.s + 1) : ℤ) : ℝ) * ‖f.coef l m i‖ ^ 2 := by
  obtain ⟨_, a1, a2⟩ := ethbar_ok hf
  obtain rfl := Except.ok.inj (e.symm.trans a1)
  simp only [← neg_mul (isqrtC _)] at a2
  refine norm_sq_factor hf a2 _ (fun l m h1 h2 _ => ?_) (fun l m h1 h2 _ => ?_) i
  · rw [abs_le] at h1 h2
    rw [norm_neg, norm_isqrtC_sq (mul_nonneg (by omega) (by omega))]
    push_cast; ring
  · rw [abs_le] at h1
    have : l = -f.s := by rw [lt_abs] at h2; omega
    rw [this]; simp

theorem Lz_norm_sq {f f' : Modes} (hf : f.WF) (e : f.Lz = .ok f') (i : MIdx) :
    f'.norm i ^ 2 = ∑ l ∈ Icc 0 f.ell_max, ∑ m ∈ Icc (-l) l, ((m ^ 2 : ℤ) : ℝ) * ‖f.coef l m i‖ ^ 2 := by
  obtain ⟨_, a1, a2⟩ := Lz_ok hf
  obtain rfl := Except.ok.inj (e.symm.trans a1)
  refine norm_sq_factor hf a2 _ (fun l m h1 h2 _ => ?_) (fun l m h1 h2 _ => by omega) i
  rw [Complex.norm_intCast, sq_abs]; push_cast; rfl

theorem Lsquared_product {f f' : Modes} (hf : f.WF) (e : f.Lsquared = .ok f') (i : MIdx) :
    scalarProduct f f' i i = ((∑ l ∈ Icc 0 f.ell_max, ∑ m ∈ Icc (-l) l, ((l * (l + 1) : ℤ) : ℝ) * ‖f.coef l m i‖ ^ 2 : ℝ) : ℂ) := by
  obtain ⟨_, a1, a2⟩ := Lsquared_ok hf
  obtain rfl := Except.ok.inj (e.symm.trans a1)
  unfold scalarProduct
  rw [a2.hL, min_self]
  push_cast
  refine sum_congr rfl fun l hl => sum_congr rfl fun m hm => ?_
  rw [mem_Icc] at hl hm
  have hm' := abs_le.mpr hm
  by_cases k : |f.s| ≤ l
  · rw [a2.coef l m k hm' hl.2]; beta_reduce
    rw [← Complex.conj_mul']; push_cast; ring
  · rw [hf.low l m (by omega) hm' hl.2]; simp

theorem Lplus_norm_sq {f f' : Modes} (hf : f.WF) (e : f.Lplus = .ok f') (i : MIdx) :
    f'.norm i ^ 2 = ∑ l ∈ Icc 0 f.ell_max, ∑ m ∈ Icc (-l) l, (((l - m) * (l + m + 1) : ℤ) : ℝ) * ‖f.coef l m i‖ ^ 2 := by
  obtain ⟨_, a1, a2⟩ := Lplus_ok hf
  obtain rfl := Except.ok.inj (e.symm.trans a1)
  rw [norm_sq_sum a2.wf, a2.hL]
  refine sum_congr rfl fun l hl => ?_
  rw [mem_Icc] at hl
  by_cases h1 : |f.s| ≤ l
  swap
  · refine sum_congr rfl fun m hm => ?_
    have hm' := abs_le.mpr (mem_Icc.mp hm)
    rw [a2.wf.low l m (by rw [a2.hs]; omega) hm' (by rw [a2.hL]; exact hl.2), hf.low l m (by omega) hm' hl.2]; simp
  rw [← sum_subset (s₁ := Icc (-l + 1) l) (by intro m; simp only [mem_Icc]; omega)]
  · symm
    rw [← sum_subset (s₁ := Icc (-l) (l - 1)) (by intro m; simp only [mem_Icc]; omega)]
    · refine sum_nbij' (fun m => m + 1) (fun m => m - 1) ?_ ?_ ?_ ?_ ?_
      · intro m; simp only [mem_Icc]; omega
      · intro m; simp only [mem_Icc]; omega
      · intro m _; ring
      · intro m _; ring
      · intro m hm
        rw [mem_Icc] at hm
        rw [a2.coef l (m + 1) h1 (abs_le.mpr (by omega)) hl.2]; beta_reduce
        rw [if_neg (by omega), norm_mul, mul_pow, norm_isqrtC_sq (mul_nonneg (by omega) (by omega)), add_sub_cancel_right]
        congr 2; ring
    · intro m hm hn
      rw [mem_Icc] at hm hn
      rw [show m = l by omega]; simp
  · intro m hm hn
    rw [mem_Icc] at hm hn
    rw [a2.coef l m h1 (abs_le.mpr (by omega)) hl.2]; beta_reduce
    rw [if_pos (by omega)]; simp

theorem Lminus_norm_sq {f f' : Modes} (hf : f.WF) (e : f.Lminus = .ok f') (i : MIdx) :
    f'.norm i ^ 2 = ∑ l ∈ Icc 0 f.ell_max, ∑ m ∈ Icc (-l) l, (((l + m) * (l - m + 1) : ℤ) : ℝ) * ‖f.coef l m i‖ ^ 2 := by
  obtain ⟨_, a1, a2⟩ := Lminus_ok hf
  obtain rfl := Except.ok.inj (e.symm.trans a1)
  rw [norm_sq_sum a2.wf, a2.hL]
  refine sum_congr rfl fun l hl => ?_
  rw [mem_Icc] at hl
  by_cases h1 : |f.s| ≤ l
  swap
  · refine sum_congr rfl fun m hm => ?_
    have hm' := abs_le.mpr (mem_Icc.mp hm)
    rw [a2.wf.low l m (by rw [a2.hs]; omega) hm' (by rw [a2.hL]; exact hl.2), hf.low l m (by omega) hm' hl.2]; simp
  rw [← sum_subset (s₁ := Icc (-l) (l - 1)) (by intro m; simp only [mem_Icc]; omega)]
  · symm
    rw [← sum_subset (s₁ := Icc (-l + 1) l) (by intro m; simp only [mem_Icc]; omega)]
    · refine sum_nbij' (fun m => m - 1) (fun m => m + 1) ?_ ?_ ?_ ?_ ?_
      · intro m; simp only [mem_Icc]; omega
      · intro m; simp only [mem_Icc]; omega
      · intro m _; ring
      · intro m _; ring
      · intro m hm
        rw [mem_Icc] at hm
        rw [a2.coef l (m - 1) h1 (abs_le.mpr (by omega)) hl.2]; beta_reduce
        rw [if_neg (by omega), norm_mul, mul_pow, norm_isqrtC_sq (mul_nonneg (by omega) (by omega)), sub_add_cancel]
        congr 2; ring
    · intro m hm hn
      rw [mem_Icc] at hm hn
      rw [show m = -l by omega]; simp
  · intro m hm hn
    rw [mem_Icc] at hm hn
    rw [a2.coef l m h1 (abs_le.mpr (by omega)) hl.2]; beta_reduce
    rw [if_pos (by omega)]; simp

/-- **C105 (identities).** `‖eth f‖² = ‖ethbar f‖² - 2 s ‖f‖²`, and `⟨f, L² f⟩` is both `‖Lz f‖² + (‖L₊ f‖² + ‖L₋ f‖²) / 2` and
`s² ‖f‖² + (‖eth f‖² + ‖ethbar f‖²) / 2`. -/
theorem C105_identities (f a b p q z k : Modes) (hf : f.WF) (ha : f.eth = .ok a) (hb : f.ethbar = .ok b) (hp : f.Lplus = .ok p)
    (hq : f.Lminus = .ok q) (hz : f.Lz = .ok z) (hk : f.Lsquared = .ok k) (i : MIdx) :
    a.norm i ^ 2 = b.norm i ^ 2 - 2 * f.s * f.norm i ^ 2 ∧
    scalarProduct f k i i = ((z.norm i ^ 2 + (p.norm i ^ 2 + q.norm i ^ 2) / 2 : ℝ) : ℂ) ∧
    scalarProduct f k i i = ((f.s ^ 2 * f.norm i ^ 2 + (a.norm i ^ 2 + b.norm i ^ 2) / 2 : ℝ) : ℂ) := by
  rw [Lsquared_product hf hk, eth_norm_sq hf ha, ethbar_norm_sq hf hb, Lplus_norm_sq hf hp, Lminus_norm_sq hf hq, Lz_norm_sq hf hz,
    norm_sq_sum hf]
  refine ⟨?_, ?_, ?_⟩
  · rw [mul_sum, ← sum_sub_distrib]
    refine sum_congr rfl fun l _ => ?_
    rw [mul_sum, ← sum_sub_distrib]
    refine sum_congr rfl fun m _ => ?_
    push_cast; ring
  · congr 1
    rw [← sum_add_distrib, sum_div, ← sum_add_distrib]
    refine sum_congr rfl fun l _ => ?_
    rw [← sum_add_distrib, sum_div, ← sum_add_distrib]
    refine sum_congr rfl fun m _ => ?_
    push_cast; ring
  · congr 1
    rw [← sum_add_distrib, sum_div, mul_sum, ← sum_add_distrib]
    refine sum_congr rfl fun l _ => ?_
    rw [← sum_add_distrib, sum_div, mul_sum, ← sum_add_distrib]
    refine sum_congr rfl fun m _ => ?_
    push_cast; ring

/-- The lower bound from a bound on the factors. -/
theorem weighted_ge {f : Modes} (hf : f.WF) {i : MIdx} {w : ℤ → ℤ} {B l0 : ℤ} (h0 : ∀ l m, |m| ≤ l → l < l0 → l ≤ f.ell_max → f.coef l m i = 0)
    (hw : ∀ l, |f.s| ≤ l → l0 ≤ l → B ≤ w l) :
    B * f.norm i ^ 2 ≤ ∑ l ∈ Icc 0 f.ell_max, ∑ m ∈ Icc (-l) l, (w l : ℝ) * ‖f.coef l m i‖ ^ 2 := by
  rw [norm_sq_sum hf, mul_sum]
  refine sum_le_sum fun l hl => ?_
  rw [mul_sum]
  refine sum_le_sum fun m hm => ?_
  rw [mem_Icc] at hl hm
  have hm' := abs_le.mpr hm
  by_cases k : |f.s| ≤ l
  · by_cases k' : l0 ≤ l
    · have : (B : ℝ) ≤ w l := by exact_mod_cast hw l k k'
      exact mul_le_mul_of_nonneg_right this (by positivity)
    · rw [h0 l m hm' (by omega) hl.2]; simp
  · rw [hf.low l m (by omega) hm' hl.2]; simp

/-- **C105 (lower bounds).** If `f` has no modes below `ell = l0`, where `l0 ≥ |s|`, then `‖eth f‖² ≥ (l0 - s)(l0 + s + 1) ‖f‖²` and
`‖ethbar f‖² ≥ (l0 + s)(l0 - s + 1) ‖f‖²`, and `⟨f, L² f⟩ ≥ l0 (l0 + 1) ‖f‖²`. -/
theorem C105_lower (f a b k : Modes) (hf : f.WF) (ha : f.eth = .ok a) (hb : f.ethbar = .ok b) (hk : f.Lsquared = .ok k) (i : MIdx) (l0 : ℤ)
    (hs : |f.s| ≤ l0) (h0 : ∀ l m, |m| ≤ l → l < l0 → l ≤ f.ell_max → f.coef l m i = 0) :
    (((l0 - f.s) * (l0 + f.s + 1) : ℤ) : ℝ) * f.norm i ^ 2 ≤ a.norm i ^ 2 ∧
    (((l0 + f.s) * (l0 - f.s + 1) : ℤ) : ℝ) * f.norm i ^ 2 ≤ b.norm i ^ 2 ∧
    ((l0 * (l0 + 1) : ℤ) : ℝ) * f.norm i ^ 2 ≤ (scalarProduct f k i i).re := by
  rw [Lsquared_product hf hk, eth_norm_sq hf ha, ethbar_norm_sq hf hb, Complex.ofReal_re]
  have := abs_le.mp hs
  have hl0 := (abs_nonneg _).trans hs
  refine ⟨weighted_ge hf (w := fun l => (l - f.s) * (l + f.s + 1)) h0 fun l _ h => ?_,
    weighted_ge hf (w := fun l => (l + f.s) * (l - f.s + 1)) h0 fun l _ h => ?_,
    weighted_ge hf (w := fun l => l * (l + 1)) h0 fun l _ h => ?_⟩
  · exact mul_le_mul (by omega) (by omega) (by omega) (by omega)
  · exact mul_le_mul (by omega) (by omega) (by omega) (by omega)
  · exact mul_le_mul (by omega) (by omega) (by omega) (by omega)

/-- `exModes` has spin weight `-1` and modes from `ell = 1`: `‖eth f‖² = ‖ethbar f‖² + 2 ‖f‖²` and `‖eth f‖² ≥ 2 ‖f‖²`. -/
example : ∃ a b, exModes.eth = .ok a ∧ exModes.ethbar = .ok b ∧ a.norm [1] ^ 2 = b.norm [1] ^ 2 + 2 * exModes.norm [1] ^ 2 ∧
    2 * exModes.norm [1] ^ 2 ≤ a.norm [1] ^ 2 := by
  obtain ⟨a, a1, -⟩ := Rminus_ok exModes_WF
  obtain ⟨b, b1, -⟩ := ethbar_ok exModes_WF
  obtain ⟨p, p1, -⟩ := Lplus_ok exModes_WF
  obtain ⟨q, q1, -⟩ := Lminus_ok exModes_WF
  obtain ⟨z, z1, -⟩ := Lz_ok exModes_WF
  obtain ⟨k, k1, -⟩ := Lsquared_ok exModes_WF
  have hs : exModes.s = -1 := rfl
  refine ⟨a, b, a1, b1, ?_, ?_⟩
  · have := (C105_identities _ a b p q z k exModes_WF a1 b1 p1 q1 z1 k1 [1]).1
    rw [this, hs]; push_cast; ring
  · have := (C105_lower _ a b k exModes_WF a1 b1 k1 [1] 1 (by rw [hs]; norm_num) fun l m hm hl h =>
      by rw [exModes_WF.low l m (by rw [hs]; simpa using hl) hm h]).1
    rw [hs] at this
    norm_num at this
    exact this

end SF
