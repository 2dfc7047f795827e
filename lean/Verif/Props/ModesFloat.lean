import Verif.Lemmas.ModesFloat
import Verif.Props.Modes

/-!
# C86: the operators of `Modes` in floating-point arithmetic

`F` are the floating-point operations; `ModesOps.Std F u δ` says that they have relative error `u` (in double precision 2^-53).  The
operations without `F` are those of exact arithmetic, whose meaning is the subject of C27–C38 and C83.
-/

set_option autoImplicit false

namespace SF

open ComplexConjugate

/-- Both components of `z'` have relative error at most `ε`. -/
def CRel (ε : ℝ) (z' z : ℂ) : Prop := RelErr ε z'.re z.re ∧ RelErr ε z'.im z.im

/-- `g'` is well formed, has the metadata of `g`, and every component of every mode weight has relative error at most `ε`. -/
structure CloseTo (ε : ℝ) (g' g : Modes) : Prop where
  wf : g'.WF
  lead : g'.lead = g.lead
  s : g'.s = g.s
  ell_max : g'.ell_max = g.ell_max
  trunc : g'.trunc = g.trunc
  coef : ∀ l m, |m| ≤ l → ∀ idx, CRel ε (g'.coef l m idx) (g.coef l m idx)

variable {F : ModesOps} {u : ℝ} {δ : ℕ → ℝ}

theorem CRel.refl {ε : ℝ} (h : 0 ≤ ε) (z : ℂ) : CRel ε z z := by
  constructor <;> (unfold RelErr; rw [sub_self, abs_zero]; positivity)

theorem CRel.neg {ε : ℝ} {z' z : ℂ} (h : CRel ε z' z) : CRel ε (-z') (-z) := by
  obtain ⟨h1, h2⟩ := h
  unfold CRel RelErr at *
  rw [Complex.neg_re, Complex.neg_im, Complex.neg_re, Complex.neg_im, abs_neg, abs_neg,
    show -z'.re - -z.re = -(z'.re - z.re) by ring, show -z'.im - -z.im = -(z'.im - z.im) by ring, abs_neg, abs_neg]
  exact ⟨h1, h2⟩

theorem mul_rel (hF : F.Std u δ) {a c' c : ℝ} (h : RelErr a c' c) (x : ℝ) : RelErr (a + u + a * u) (F.mul c' x) (c * x) := by
  have h1 := hF.mul c' x
  unfold RelErr at *
  have hu := hF.u_nonneg
  have h2 : |c'| ≤ (1 + a) * |c| := by
    have := abs_sub_abs_le_abs_sub c' c
    linarith
  rw [abs_mul] at h1
  have e : F.mul c' x - c * x = (F.mul c' x - c' * x) + (c' - c) * x := by ring
  rw [e, abs_mul]
  refine (abs_add_le _ _).trans ?_
  rw [abs_mul]
  have h3 := mul_le_mul_of_nonneg_right h (abs_nonneg x)
  have h4 := mul_le_mul_of_nonneg_left (mul_le_mul_of_nonneg_right h2 (abs_nonneg x)) hu
  nlinarith

theorem mScale_rel (hF : F.Std u δ) {a c' c : ℝ} (h : RelErr a c' c) (z : ℂ) : CRel (a + u + a * u) (mScale F c' z) ((c : ℂ) * z) := by
  constructor
  · rw [Complex.re_ofReal_mul]; exact mul_rel hF h _
  · rw [Complex.im_ofReal_mul]; exact mul_rel hF h _

theorem mScale_rel' (hF : F.Std u δ) (c : ℝ) (z : ℂ) : CRel u (mScale F c z) ((c : ℂ) * z) := by
  have := mScale_rel hF (a := 0) (c' := c) (c := c) (by unfold RelErr; simp) z
  simpa using this

theorem isqrt_rel (hF : F.Std u δ) {n : ℤ} (hn : 0 ≤ n) (z : ℂ) : CRel (2 * u + u ^ 2) (mScale F (isqrtF F n) z) (isqrtC n * z) := by
  have := mScale_rel hF (hF.sqrt (n : ℝ) (by exact_mod_cast hn)) z
  rwa [show u + u + u * u = 2 * u + u ^ 2 by ring] at this

theorem CloseTo.of_opRes {ε : ℝ} (hε : 0 ≤ ε) {f g' g : Modes} {s : ℤ} {T' T : ℤ → ℤ → Slice} (h' : OpRes f g' s T') (h : OpRes f g s T)
    (hT : ∀ l m, |s| ≤ l → |m| ≤ l → l ≤ f.ell_max → ∀ idx, CRel ε (T' l m idx) (T l m idx)) : CloseTo ε g' g where
  wf := h'.wf
  lead := h'.lead.trans h.lead.symm
  s := h'.hs.trans h.hs.symm
  ell_max := h'.hL.trans h.hL.symm
  trunc := h'.trunc.trans h.trunc.symm
  coef := by
    intro l m hm idx
    by_cases h1 : l ≤ f.ell_max
    · by_cases h2 : |s| ≤ l
      · rw [h'.coef l m h2 hm h1, h.coef l m h2 hm h1]
        exact hT l m h2 hm h1 idx
      · rw [h'.wf.low l m (by rw [h'.hs]; omega) hm (by rw [h'.hL]; exact h1), h.wf.low l m (by rw [h.hs]; omega) hm (by rw [h.hL]; exact h1)]
        exact CRel.refl hε _
    · rw [coef_of_gt h'.wf hm (by rw [h'.hL]; omega), coef_of_gt h.wf hm (by rw [h.hL]; omega)]
      exact CRel.refl hε _

/-- **C86 (derivatives).** In floating-point arithmetic `Lsquared`, `Lz` and `Rz` (and `Rsquared`) have relative error at most `u` in both
components of every mode weight, and `Lplus`, `Lminus`, `Rplus`, `Rminus`, `eth` and `ethbar` at most `2u+u²`, for every spin weight and
every `ell`: errors do not grow with `ell`, and modes that vanish exactly vanish. -/
theorem C86_derivatives (hF : F.Std u δ) (f : Modes) (hf : f.WF) :
    ∀ p ∈ [(Modes.LsquaredF F, Modes.Lsquared, u), (Modes.LzF F, Modes.Lz, u), (Modes.RzF F, Modes.Rz, u),
        (Modes.LplusF F, Modes.Lplus, 2 * u + u ^ 2), (Modes.LminusF F, Modes.Lminus, 2 * u + u ^ 2),
        (Modes.RplusF F, Modes.Rplus, 2 * u + u ^ 2), (Modes.RminusF F, Modes.Rminus, 2 * u + u ^ 2),
        (Modes.ethF F, Modes.eth, 2 * u + u ^ 2), (Modes.ethbarF F, Modes.ethbar, 2 * u + u ^ 2)],
      ∃ g' g, p.1 f = .ok g' ∧ p.2.1 f = .ok g ∧ CloseTo p.2.2 g' g := by
  have hu := hF.u_nonneg
  have hu2 : 0 ≤ 2 * u + u ^ 2 := by positivity
  intro p hp
  simp only [List.mem_cons, List.not_mem_nil, or_false] at hp
  have hR : ∀ l s : ℤ, |s| ≤ l → 0 ≤ (l - s) * (l + s + 1) ∧ 0 ≤ (l + s) * (l - s + 1) := by
    intro l s h
    have := abs_le.1 h
    exact ⟨mul_nonneg (by omega) (by omega), mul_nonneg (by omega) (by omega)⟩
  have hminus : ∃ g' g, Modes.RminusF F f = .ok g' ∧ f.Rminus = .ok g ∧ CloseTo (2 * u + u ^ 2) g' g := by
    obtain ⟨g', e1, e2⟩ := RminusF_ok hF hf
    obtain ⟨g, e3, e4⟩ := Rminus_ok hf
    exact ⟨g', g, e1, e3, CloseTo.of_opRes hu2 e2 e4 fun l m h1 h2 h3 idx => isqrt_rel hF (hR l _ h1).2 _⟩
  rcases hp with rfl | rfl | rfl | rfl | rfl | rfl | rfl | rfl | rfl
  · obtain ⟨g', e1, e2⟩ := LsquaredF_ok (F := F) hf
    obtain ⟨g, e3, e4⟩ := Lsquared_ok hf
    exact ⟨g', g, e1, e3, CloseTo.of_opRes hu e2 e4 fun l m h1 h2 h3 idx => by
      have := mScale_rel' hF ((l * (l + 1) : ℤ) : ℝ) (f.coef l m idx)
      simpa only [Complex.ofReal_intCast] using this⟩
  · obtain ⟨g', e1, e2⟩ := LzF_ok (F := F) hf
    obtain ⟨g, e3, e4⟩ := Lz_ok hf
    exact ⟨g', g, e1, e3, CloseTo.of_opRes hu e2 e4 fun l m h1 h2 h3 idx => by
      have := mScale_rel' hF (m : ℝ) (f.coef l m idx)
      simpa only [Complex.ofReal_intCast] using this⟩
  · obtain ⟨g', e1, e2⟩ := RzF_ok (F := F) hf
    obtain ⟨g, e3, e4⟩ := Rz_ok hf
    exact ⟨g', g, e1, e3, CloseTo.of_opRes hu e2 e4 fun l m h1 h2 h3 idx => by
      have := mScale_rel' hF ((-f.s : ℤ) : ℝ) (f.coef l m idx)
      simpa only [Complex.ofReal_intCast, Int.cast_neg, Complex.ofReal_neg] using this⟩
  · obtain ⟨g', e1, e2⟩ := LplusF_ok (F := F) hf
    obtain ⟨g, e3, e4⟩ := Lplus_ok hf
    exact ⟨g', g, e1, e3, CloseTo.of_opRes hu2 e2 e4 fun l m h1 h2 h3 idx => by
      split_ifs with h
      · exact CRel.refl hu2 _
      · exact isqrt_rel hF (hR l m h2).2 _⟩
  · obtain ⟨g', e1, e2⟩ := LminusF_ok (F := F) hf
    obtain ⟨g, e3, e4⟩ := Lminus_ok hf
    exact ⟨g', g, e1, e3, CloseTo.of_opRes hu2 e2 e4 fun l m h1 h2 h3 idx => by
      split_ifs with h
      · exact CRel.refl hu2 _
      · exact isqrt_rel hF (hR l m h2).1 _⟩
  · obtain ⟨g', e1, e2⟩ := RplusF_ok hF hf
    obtain ⟨g, e3, e4⟩ := Rplus_ok hf
    exact ⟨g', g, e1, e3, CloseTo.of_opRes hu2 e2 e4 fun l m h1 h2 h3 idx => isqrt_rel hF (hR l _ h1).1 _⟩
  · exact hminus
  · exact hminus
  · obtain ⟨g', e1, e2⟩ := ethbarF_ok hF hf
    obtain ⟨g, e3, e4⟩ := ethbar_ok hf
    exact ⟨g', g, e1, e3, CloseTo.of_opRes hu2 e2 e4 fun l m h1 h2 h3 idx => (isqrt_rel hF (hR l _ h1).1 _).neg⟩

theorem mAdd_rel (hF : F.Std u δ) (x y : ℂ) : CRel u (mAdd F x y) (x + y) := ⟨hF.add _ _, hF.add _ _⟩

theorem mSub_rel (hF : F.Std u δ) (x y : ℂ) : CRel u (mSub F x y) (x - y) := by
  constructor
  · rw [Complex.sub_re, sub_eq_add_neg]; exact hF.add _ _
  · rw [Complex.sub_im, sub_eq_add_neg]; exact hF.add _ _

theorem CRel.half {ε : ℝ} {z' z : ℂ} (h : CRel ε z' z) : CRel ε (z' / 2) (z / 2) := by
  obtain ⟨h1, h2⟩ := h
  unfold CRel RelErr at *
  have e : ∀ w : ℂ, (w / 2).re = w.re / 2 ∧ (w / 2).im = w.im / 2 := fun w => by
    constructor
    · rw [show (2 : ℂ) = ((2 : ℝ) : ℂ) by norm_num, Complex.div_ofReal_re]
    · rw [show (2 : ℂ) = ((2 : ℝ) : ℂ) by norm_num, Complex.div_ofReal_im]
  rw [(e z').1, (e z').2, (e z).1, (e z).2, ← sub_div, ← sub_div, abs_div, abs_div, abs_div, abs_div, abs_two]
  constructor <;> linarith

theorem CRel.mulI {ε : ℝ} {z' z : ℂ} (h : CRel ε z' z) : CRel ε (-Complex.I * z') (-Complex.I * z) := by
  obtain ⟨h1, h2⟩ := h
  unfold CRel RelErr at *
  simp only [neg_mul, Complex.neg_re, Complex.neg_im, Complex.I_mul_re, Complex.I_mul_im, neg_neg, abs_neg]
  refine ⟨h2, ?_⟩
  rw [show -z'.re - -z.re = -(z'.re - z.re) by ring, abs_neg]
  exact h1

theorem realTF_rel (hF : F.Std u δ) (G : ℤ → ℤ → Slice) (l m : ℤ) (idx : MIdx) : CRel u (realTF F G l m idx) (realT G l m idx) := by
  unfold realTF realT
  rw [neg_one_zpow_parity]
  split_ifs
  · rw [one_mul]; exact (mAdd_rel hF _ _).half
  · rw [neg_one_mul, ← sub_eq_add_neg]; exact (mSub_rel hF _ _).half

theorem imagTF_rel (hF : F.Std u δ) (G : ℤ → ℤ → Slice) (l m : ℤ) (idx : MIdx) : CRel u (imagTF F G l m idx) (imagT G l m idx) := by
  have hI2 : Complex.I * Complex.I = -1 := Complex.I_mul_I
  have hI : (Complex.I : ℂ) ≠ 0 := Complex.I_ne_zero
  have key : ∀ z : ℂ, z / (2 * Complex.I) = -Complex.I * z / 2 := by
    intro z; field_simp; linear_combination z * hI2
  unfold imagTF imagT
  rw [key, neg_one_zpow_parity]
  split_ifs
  · rw [one_mul]; exact (mSub_rel hF _ _).mulI.half
  · rw [neg_one_mul, sub_neg_eq_add]; exact (mAdd_rel hF _ _).mulI.half

/-- The mode weights are those of a real function, exactly. -/
def IsRealModes (f : Modes) : Prop := ∀ l m, |m| ≤ l → ∀ idx, f.coef l (-m) idx = (-1) ^ m * conj (f.coef l m idx)

theorem isReal_of_T {f g : Modes} {T : ℤ → ℤ → Slice} (h : OpRes f g 0 T)
    (hT : ∀ l m idx, T l (-m) idx = (-1) ^ m * conj (T l m idx)) : IsRealModes g := by
  intro l m hm idx
  have hm' : |-m| ≤ l := by rwa [abs_neg]
  by_cases h1 : l ≤ f.ell_max
  · have h2 : |(0 : ℤ)| ≤ l := by rw [abs_zero]; exact (abs_nonneg m).trans hm
    rw [h.coef l m h2 hm h1, h.coef l (-m) h2 hm' h1]
    exact hT l m idx
  · rw [coef_of_gt h.wf hm (by rw [h.hL]; omega), coef_of_gt h.wf hm' (by rw [h.hL]; omega)]
    simp

/-- **C86 (errors).** Real and imaginary parts of spin-weighted functions, and sums of functions of different spin weights, raise ValueError, with
or without rounding. -/
theorem C86_errors (F : ModesOps) (f g : Modes) (b : Bool) :
    (f.s ≠ 0 → f.realF F b = .error .valueError ∧ f.imagF F b = .error .valueError ∧
      f.real_func b = .error .valueError ∧ f.imag_func b = .error .valueError) ∧
    (f.s ≠ g.s → f.addF F g b = .error .valueError ∧ f.addM g b = .error .valueError) := by
  refine ⟨fun h => ⟨if_pos h, if_pos h, if_pos h, if_pos h⟩, fun h => ⟨if_pos h, if_pos h⟩⟩

/-- **C86 (`real`).** The computed real part (in place or not) has relative error at most `u` in both components of every mode weight, and it is
*exactly* a real function; taking the real part again changes nothing, not even the last bit. -/
theorem C86_real (hF : F.Std u δ) (f : Modes) (hf : f.WF) (hs : f.s = 0) (inplace : Bool) :
    ∃ g' g, f.realF F inplace = .ok g' ∧ f.real_func inplace = .ok g ∧ CloseTo u g' g ∧ IsRealModes g' := by
  obtain ⟨g', e1, e2⟩ := realF_ok hF hf hs inplace
  obtain ⟨g, e3, e4⟩ := real_ok hf hs inplace
  refine ⟨g', g, e1, e3, CloseTo.of_opRes hF.u_nonneg e2 e4 fun l m _ _ _ idx => realTF_rel hF _ l m idx, isReal_of_T e2 ?_⟩
  intro l m idx
  unfold realTF
  rw [neg_one_zpow_parity, neg_neg]
  by_cases h : m % 2 = 0
  · rw [if_pos h, if_pos h, if_pos (by omega), one_mul, map_div₀, conj_mAdd hF, map_ofNat]
  · rw [if_neg h, if_neg h, if_neg (by omega), neg_one_mul, map_div₀, map_ofNat, ← neg_div, conj_mSub hF]

/-- **C86 (`real` of a real function).** A real function is returned unchanged, not even the last bit differs. -/
theorem C86_real_fixed (hF : F.Std u δ) (f : Modes) (hf : f.WF) (hs : f.s = 0) (hr : IsRealModes f) (inplace : Bool) :
    f.realF F inplace = .ok f := by
  obtain ⟨g, e1, e2⟩ := realF_ok hF hf hs inplace
  rw [e1, e2.wf.ext hf e2.lead (e2.hs.trans hs.symm) e2.hL e2.trunc]
  intro l m h1 h2 h3
  rw [e2.hs] at h1
  rw [e2.hL] at h2
  rw [e2.coef l m h1 h3 h2]
  funext idx
  unfold realTF
  have key := hr l m h3 idx
  rw [neg_one_zpow_parity] at key
  have d : ∀ z : ℂ, mAdd F z z / 2 = z := fun z => by
    unfold mAdd
    rw [hF.double, hF.double]
    apply Complex.ext <;> simp
  have d' : ∀ z : ℂ, mSub F z (-z) / 2 = z := fun z => by
    have : mSub F z (-z) = mAdd F z z := by unfold mSub mAdd; simp
    rw [this, d]
  split_ifs at key ⊢ with h
  · rw [key, one_mul, Complex.conj_conj, d]
  · rw [key, neg_one_mul, map_neg, Complex.conj_conj, d']

/-- **C86 (`imag`).** The same for the imaginary part; the imaginary part of a real function is exactly zero. -/
theorem C86_imag (hF : F.Std u δ) (f : Modes) (hf : f.WF) (hs : f.s = 0) (inplace : Bool) :
    ∃ g' g, f.imagF F inplace = .ok g' ∧ f.imag_func inplace = .ok g ∧ CloseTo u g' g ∧ IsRealModes g' ∧
      (IsRealModes f → ∀ l m, |m| ≤ l → ∀ idx, g'.coef l m idx = 0) := by
  obtain ⟨g', e1, e2⟩ := imagF_ok hF hf hs inplace
  obtain ⟨g, e3, e4⟩ := imag_ok hf hs inplace
  refine ⟨g', g, e1, e3, CloseTo.of_opRes hF.u_nonneg e2 e4 fun l m _ _ _ idx => imagTF_rel hF _ l m idx, isReal_of_T e2 ?_, ?_⟩
  · intro l m idx
    unfold imagTF
    rw [neg_one_zpow_parity, neg_neg]
    by_cases h : m % 2 = 0
    · rw [if_pos h, if_pos h, if_pos (by omega), one_mul, map_div₀, map_mul, map_ofNat, map_neg, Complex.conj_I, neg_neg,
        ← conj_mSub hF (f.coef l m idx), neg_mul_neg]
    · rw [if_neg h, if_neg h, if_neg (by omega), neg_one_mul, map_div₀, map_mul, conj_mAdd hF, map_ofNat, map_neg, Complex.conj_I]
      ring
  · intro hr l m hm idx
    by_cases h1 : l ≤ f.ell_max
    · rw [e2.coef l m (by rw [abs_zero]; exact (abs_nonneg m).trans hm) hm h1]
      unfold imagTF
      have key := hr l m hm idx
      rw [neg_one_zpow_parity] at key
      have z0 : ∀ x : ℝ, F.add x (-x) = 0 := fun x => relErr_zero (u := u) (by have := hF.add x (-x); rwa [add_neg_cancel] at this)
      have d : ∀ z : ℂ, mSub F z z = 0 := fun z => by unfold mSub; rw [z0, z0]; rfl
      have d' : ∀ z : ℂ, mAdd F z (-z) = 0 := fun z => by
        unfold mAdd; rw [Complex.neg_re, Complex.neg_im, z0, z0]; rfl
      split_ifs at key ⊢ with h
      · rw [key, one_mul, Complex.conj_conj, d]; simp
      · rw [key, neg_one_mul, map_neg, Complex.conj_conj, d']; simp
    · rw [coef_of_gt e2.wf hm (by rw [e2.hL]; omega)]


/-- **C86 (`add`, `subtract`).** Sums and differences of two Modes of the same spin weight (whose leading shapes broadcast) have relative error
at most `u` in both components of every mode weight. -/
theorem C86_add (hF : F.Std u δ) (f g : Modes) (hf : f.WF) (hg : g.WF) (hs : f.s = g.s) (hfL : 0 ≤ f.ell_max) (hgL : 0 ≤ g.ell_max)
    {lead : List ℕ} (hb : bcastShape f.lead g.lead = some lead) (sub : Bool) :
    ∃ h' h, f.addF F g sub = .ok h' ∧ f.addM g sub = .ok h ∧ CloseTo u h' h := by
  obtain ⟨h', e1, e2, e3, e4, e5, e6, e7⟩ := addF_ok hF hf hg hs hfL hgL hb sub
  obtain ⟨h, d1, d2, d3, d4, d5, d6, d7⟩ := addM_ok hf hg hs hfL hgL hb sub
  refine ⟨h', h, e1, d1, e2, e3.trans d3.symm, e4.trans d4.symm, e5.trans d5.symm, e6.trans d6.symm, ?_⟩
  intro l m hm idx
  by_cases h1 : l ≤ max f.ell_max g.ell_max
  · by_cases h2 : |f.s| ≤ l
    · rw [e7 l m h2 hm h1, d7 l m h2 hm h1]
      cases sub
      · exact mAdd_rel hF _ _
      · exact mSub_rel hF _ _
    · rw [e2.low l m (by rw [e4]; omega) hm (by rw [e5]; exact h1), d2.low l m (by rw [d4]; omega) hm (by rw [d5]; exact h1)]
      exact CRel.refl hF.u_nonneg _
  · rw [coef_of_gt e2 hm (by rw [e5]; omega), coef_of_gt d2 hm (by rw [d5]; omega)]
    exact CRel.refl hF.u_nonneg _

/-- **C86 (`add` commutes).** Rounding does not make addition depend on the order of the operands. -/
theorem C86_add_comm (hF : F.Std u δ) (f g : Modes) (hf : f.WF) (hg : g.WF) (hs : f.s = g.s) (hf0 : 0 ≤ f.ell_max) (hg0 : 0 ≤ g.ell_max)
    (hl : f.lead = g.lead) (ht : f.trunc = g.trunc) : f.addF F g false = g.addF F f false := by
  obtain ⟨h, e1, e2, e3, e4, e5, e6, e7⟩ := addF_ok (lead := f.lead) hF hf hg hs hf0 hg0 (by rw [← hl]; exact bcastShape_self _) false
  obtain ⟨k, d1, d2, d3, d4, d5, d6, d7⟩ := addF_ok (lead := f.lead) hF hg hf hs.symm hg0 hf0 (by rw [← hl]; exact bcastShape_self _) false
  rw [e1, d1]
  congr 1
  refine e2.ext d2 (e3.trans d3.symm) (e4.trans (hs.trans d4.symm)) (by rw [e5, d5, max_comm]) (by rw [e6, d6, ht]) ?_
  intro ell m h1 h2 h3
  rw [e4] at h1
  rw [e5] at h2
  rw [e7 ell m h1 h3 h2, d7 ell m (by rw [← hs]; exact h1) h3 (by rw [max_comm]; exact h2)]
  funext x
  simp only [Bool.false_eq_true, if_false, mAdd]
  rw [hF.add_comm, hF.add_comm (f.coefIn f.lead ell m x).im]

/-- **C86 (`f - f`).** The difference of a Modes object and itself is exactly zero. -/
theorem C86_sub_self (hF : F.Std u δ) (f : Modes) (hf : f.WF) (hf0 : 0 ≤ f.ell_max) :
    ∃ h, f.addF F f true = .ok h ∧ h.WF ∧ ∀ l m, |m| ≤ l → ∀ idx, h.coef l m idx = 0 := by
  obtain ⟨h, e1, e2, e3, e4, e5, e6, e7⟩ := addF_ok (lead := f.lead) hF hf hf rfl hf0 hf0 (bcastShape_self _) true
  refine ⟨h, e1, e2, ?_⟩
  intro l m hm idx
  have z0 : ∀ x : ℝ, F.add x (-x) = 0 := fun x => relErr_zero (u := u) (by have := hF.add x (-x); rwa [add_neg_cancel] at this)
  by_cases h1 : l ≤ max f.ell_max f.ell_max
  · by_cases h2 : |f.s| ≤ l
    · rw [e7 l m h2 hm h1]
      simp only [if_true, mSub]
      rw [z0, z0]
      rfl
    · rw [e2.low l m (by rw [e4]; omega) hm (by rw [e5]; exact h1)]
  · rw [coef_of_gt e2 hm (by rw [e5]; omega)]

/-! ## Scaling -/

theorem mMul_real (hF : F.Std u δ) (x : ℂ) (y : ℝ) : CRel u (mMul F x (y : ℂ)) (x * y) := by
  have h1 := hF.mul x.re y
  have h2 := hF.mul x.im y
  constructor
  · simp only [mMul, Complex.ofReal_re, Complex.ofReal_im, Complex.re_mul_ofReal]
    rw [mul_zeroF hF, neg_zero, hF.add_zero]
    exact h1
  · simp only [mMul, Complex.ofReal_re, Complex.ofReal_im, Complex.im_mul_ofReal]
    rw [mul_zeroF hF, hF.add_comm, hF.add_zero]
    exact h2

theorem mDiv_real (hF : F.Std u δ) (x : ℂ) {y : ℝ} (hy : y ≠ 0) : CRel (2 * u + u ^ 2) (mDiv F x (y : ℂ)) (x / y) := by
  have z1 : F.div 0 y = 0 := relErr_zero (u := u) (by have := hF.div 0 y hy; rwa [zero_div] at this)
  have h1 : RelErr u (F.div 1 y) (1 / y) := hF.div 1 y hy
  have e : mDiv F x (y : ℂ) = ⟨F.mul x.re (F.div 1 y), F.mul x.im (F.div 1 y)⟩ := by
    unfold mDiv
    rw [if_pos (by rw [Complex.ofReal_im, abs_zero]; exact abs_nonneg _)]
    simp only [Complex.ofReal_re, Complex.ofReal_im]
    rw [z1, mul_zeroF hF, mul_zeroF hF, mul_zeroF hF, neg_zero, hF.add_zero, hF.add_zero, hF.add_zero]
  have key : ∀ t : ℝ, RelErr (2 * u + u ^ 2) (F.mul t (F.div 1 y)) (t / y) := by
    intro t
    have h2 := hF.mul t (F.div 1 y)
    unfold RelErr at *
    have hu := hF.u_nonneg
    have h3 : |F.div 1 y| ≤ (1 + u) * |1 / y| := by
      have := abs_sub_abs_le_abs_sub (F.div 1 y) (1 / y)
      linarith
    rw [abs_mul] at h2
    have e : F.mul t (F.div 1 y) - t / y = (F.mul t (F.div 1 y) - t * F.div 1 y) + t * (F.div 1 y - 1 / y) := by ring
    rw [e, show t / y = t * (1 / y) by ring, abs_mul]
    refine (abs_add_le _ _).trans ?_
    rw [abs_mul]
    have h4 := mul_le_mul_of_nonneg_left h1 (abs_nonneg t)
    have h5 := mul_le_mul_of_nonneg_left (mul_le_mul_of_nonneg_left h3 (abs_nonneg t)) hu
    nlinarith
  rw [e]
  constructor
  · simp only [Complex.div_ofReal_re]; exact key _
  · simp only [Complex.div_ofReal_im]; exact key _

theorem mMul_norm (hF : F.Std u δ) (x y : ℂ) : ‖mMul F x y - x * y‖ ≤ 2 * (2 * u + u ^ 2) * ‖x * y‖ := by
  have hu := hF.u_nonneg
  have hu2 : 0 ≤ 2 * u + u ^ 2 := by positivity
  have key : ∀ a b c d : ℝ, |F.add (F.mul a b) (F.mul c d) - (a * b + c * d)| ≤ (2 * u + u ^ 2) * (|a| * |b| + |c| * |d|) := by
    intro a b c d
    have h1 := hF.mul a b
    have h2 := hF.mul c d
    have h3 := hF.add (F.mul a b) (F.mul c d)
    unfold RelErr at *
    rw [abs_mul] at h1 h2
    have h4 : |F.mul a b + F.mul c d - (a * b + c * d)| ≤ u * (|a| * |b|) + u * (|c| * |d|) := by
      rw [show F.mul a b + F.mul c d - (a * b + c * d) = (F.mul a b - a * b) + (F.mul c d - c * d) by ring]
      exact (abs_add_le _ _).trans (add_le_add h1 h2)
    have h5 : |F.mul a b + F.mul c d| ≤ (1 + u) * (|a| * |b| + |c| * |d|) := by
      have := abs_sub_abs_le_abs_sub (F.mul a b + F.mul c d) (a * b + c * d)
      have h6 := abs_add_le (a * b) (c * d)
      rw [abs_mul, abs_mul] at h6
      linarith
    rw [show F.add (F.mul a b) (F.mul c d) - (a * b + c * d) = (F.add (F.mul a b) (F.mul c d) - (F.mul a b + F.mul c d)) +
      (F.mul a b + F.mul c d - (a * b + c * d)) by ring]
    refine (abs_add_le _ _).trans ?_
    have := mul_le_mul_of_nonneg_left h5 hu
    nlinarith
  have key' : ∀ a b c d : ℝ, |F.add (F.mul a b) (-F.mul c d) - (a * b - c * d)| ≤ (2 * u + u ^ 2) * (|a| * |b| + |c| * |d|) := by
    intro a b c d
    have h1 := hF.mul a b
    have h2 := hF.mul c d
    have h3 := hF.add (F.mul a b) (-F.mul c d)
    unfold RelErr at *
    rw [abs_mul] at h1 h2
    have h4 : |F.mul a b + -F.mul c d - (a * b - c * d)| ≤ u * (|a| * |b|) + u * (|c| * |d|) := by
      rw [show F.mul a b + -F.mul c d - (a * b - c * d) = (F.mul a b - a * b) + -(F.mul c d - c * d) by ring]
      refine (abs_add_le _ _).trans (add_le_add h1 ?_)
      rw [abs_neg]; exact h2
    have h5 : |F.mul a b + -F.mul c d| ≤ (1 + u) * (|a| * |b| + |c| * |d|) := by
      have := abs_sub_abs_le_abs_sub (F.mul a b + -F.mul c d) (a * b - c * d)
      have h6 := abs_sub (a * b) (c * d)
      rw [abs_mul, abs_mul] at h6
      linarith
    rw [show F.add (F.mul a b) (-F.mul c d) - (a * b - c * d) = (F.add (F.mul a b) (-F.mul c d) - (F.mul a b + -F.mul c d)) +
      (F.mul a b + -F.mul c d - (a * b - c * d)) by ring]
    refine (abs_add_le _ _).trans ?_
    have := mul_le_mul_of_nonneg_left h5 hu
    nlinarith
  have cs : ∀ a b c d : ℝ, (|a| * |b| + |c| * |d|) ^ 2 ≤ (a ^ 2 + c ^ 2) * (b ^ 2 + d ^ 2) := by
    intro a b c d
    rw [← sq_abs a, ← sq_abs b, ← sq_abs c, ← sq_abs d]
    nlinarith [sq_nonneg (|a| * |d| - |c| * |b|)]
  have hn : ∀ z : ℂ, z.re ^ 2 + z.im ^ 2 = ‖z‖ ^ 2 := fun z => by
    rw [← Complex.normSq_eq_norm_sq, Complex.normSq_apply]; ring
  have hle : ∀ a b c d : ℝ, a ^ 2 + c ^ 2 = ‖x‖ ^ 2 → b ^ 2 + d ^ 2 = ‖y‖ ^ 2 → |a| * |b| + |c| * |d| ≤ ‖x * y‖ := by
    intro a b c d h1 h2
    have := cs a b c d
    rw [h1, h2, ← mul_pow, ← norm_mul] at this
    exact (sq_le_sq₀ (by positivity) (norm_nonneg _)).1 this
  have hre := key' x.re y.re x.im y.im
  have him := key x.re y.im x.im y.re
  have b1 := hle x.re y.re x.im y.im (hn x) (hn y)
  have b2 := hle x.re y.im x.im y.re (hn x) (by rw [add_comm]; exact hn y)
  have hnorm := Complex.norm_le_abs_re_add_abs_im (mMul F x y - x * y)
  rw [Complex.sub_re, Complex.sub_im, Complex.mul_re, Complex.mul_im] at hnorm
  have c1 := mul_le_mul_of_nonneg_left b1 hu2
  have c2 := mul_le_mul_of_nonneg_left b2 hu2
  simp only [mMul] at hnorm ⊢
  linarith

/-- **C86 (scaling).** Multiplying by numbers (or an array of numbers broadcasting against the leading axes): the error of every mode weight is
at most `2(2u+u²)` times its modulus; for real numbers both components have relative error at most `u`.  Dividing by nonzero real numbers: both
components have relative error at most `2u+u²`. -/
theorem C86_scale (hF : F.Std u δ) (f : Modes) (hf : f.WF) (hf0 : 0 ≤ f.ell_max) (a : Scalars) {lead : List ℕ}
    (hdim : a.shape.length ≤ f.lead.length) (hb : bcastShape f.lead a.shape = some lead) :
    (∃ g' g, f.mulScalarF F a = .ok g' ∧ f.multiplyScalar a = .ok g ∧ g'.WF ∧ g'.lead = g.lead ∧ g'.s = g.s ∧ g'.ell_max = g.ell_max ∧
      g'.trunc = g.trunc ∧ (∀ l m, |m| ≤ l → ∀ idx, ‖g'.coef l m idx - g.coef l m idx‖ ≤ 2 * (2 * u + u ^ 2) * ‖g.coef l m idx‖) ∧
      ((∀ idx, (a.val idx).im = 0) → CloseTo u g' g)) ∧
    ((∀ idx, (a.val idx).im = 0 ∧ a.val idx ≠ 0) →
      ∃ g' g, f.divScalarF F a = .ok g' ∧ f.divideScalar a = .ok g ∧ CloseTo (2 * u + u ^ 2) g' g) := by
  have hu := hF.u_nonneg
  have hu2 : 0 ≤ 2 * u + u ^ 2 := by positivity
  have hreal : ∀ z : ℂ, z.im = 0 → z = ((z.re : ℝ) : ℂ) := fun z h => by apply Complex.ext <;> simp [h]
  have gen : ∀ op : ℂ → ℂ → ℂ, f.ufuncMulScalar op a = f.scalarUfunc op a := by
    intro op
    unfold Modes.ufuncMulScalar Modes.check_broadcasting
    rw [if_neg (by omega), if_neg (hf.dat_ne_nil hf0), bind_ok, hb]
    rfl
  have hmul : f.multiplyScalar a = f.scalarUfunc (· * ·) a := by
    unfold Modes.multiplyScalar Modes.check_broadcasting
    rw [if_neg (by omega), if_neg (hf.dat_ne_nil hf0), bind_ok, hb]
    exact gen _
  have hdiv : f.divideScalar a = f.scalarUfunc (· / ·) a := gen _
  have close : ∀ (op' op : ℂ → ℂ → ℂ) (P : ℂ → ℂ → Prop), P 0 0 → (∀ z idx, P (op' z (a.val idx)) (op z (a.val idx))) →
      ∃ g' g, f.scalarUfunc op' a = .ok g' ∧ f.scalarUfunc op a = .ok g ∧ g'.WF ∧ g'.lead = g.lead ∧ g'.s = g.s ∧
        g'.ell_max = g.ell_max ∧ g'.trunc = g.trunc ∧ ∀ l m, |m| ≤ l → ∀ idx, P (g'.coef l m idx) (g.coef l m idx) := by
    intro op' op P hP0 hP
    obtain ⟨g', e1, e2, e3, e4, e5, e6, e7⟩ := scalarUfunc_ok hf op' a hb
    obtain ⟨g, d1, d2, d3, d4, d5, d6, d7⟩ := scalarUfunc_ok hf op a hb
    refine ⟨g', g, e1, d1, e2, e3.trans d3.symm, e4.trans d4.symm, e5.trans d5.symm, e6.trans d6.symm, ?_⟩
    intro l m hm idx
    by_cases h1 : l ≤ f.ell_max
    · by_cases h2 : |f.s| ≤ l
      · rw [e7 l m h2 hm h1, d7 l m h2 hm h1]
        exact hP _ _
      · rw [e2.low l m (by rw [e4]; omega) hm (by rw [e5]; exact h1), d2.low l m (by rw [d4]; omega) hm (by rw [d5]; exact h1)]
        exact hP0
    · rw [coef_of_gt e2 hm (by rw [e5]; omega), coef_of_gt d2 hm (by rw [d5]; omega)]
      exact hP0
  constructor
  · obtain ⟨g', g, e1, e2, e3, e4, e5, e6, e7, e8⟩ := close (mMul F) (· * ·)
      (fun z' z => ‖z' - z‖ ≤ 2 * (2 * u + u ^ 2) * ‖z‖ ∧ ((∀ idx, (a.val idx).im = 0) → CRel u z' z))
      ⟨by simp, fun _ => CRel.refl hu 0⟩ (fun z idx => ⟨mMul_norm hF z _, fun hr => by
        have := mMul_real hF z (a.val idx).re
        rwa [← hreal _ (hr idx)] at this⟩)
    exact ⟨g', g, (gen _).trans e1, hmul.trans e2, e3, e4, e5, e6, e7, fun l m hm idx => (e8 l m hm idx).1,
      fun hr => ⟨e3, e4, e5, e6, e7, fun l m hm idx => (e8 l m hm idx).2 hr⟩⟩
  · intro hr
    obtain ⟨g', g, e1, e2, e3, e4, e5, e6, e7, e8⟩ := close (mDiv F) (· / ·) (CRel (2 * u + u ^ 2)) (CRel.refl hu2 0)
      (fun z idx => by
        have hne : (a.val idx).re ≠ 0 := fun h => (hr idx).2 (Complex.ext h (hr idx).1)
        have := mDiv_real hF z hne
        rwa [← hreal _ (hr idx).1] at this)
    exact ⟨g', g, (gen _).trans e1, hdiv.trans e2, e3, e4, e5, e6, e7, e8⟩

/-! ## The norm -/

theorem sqrt_relErr {e a b : ℝ} (ha : 0 ≤ a) (hb : 0 ≤ b) (h : RelErr e a b) : RelErr e (Real.sqrt a) (Real.sqrt b) := by
  unfold RelErr at *
  rw [abs_of_nonneg hb] at h
  rw [abs_of_nonneg (Real.sqrt_nonneg b)]
  rcases hb.eq_or_lt with rfl | hb'
  · rw [mul_zero] at h
    have : a = 0 := by have := abs_nonpos_iff.1 h; linarith
    rw [this]; simp
  · have hpos := Real.sqrt_pos.2 hb'
    have h1 := Real.sqrt_nonneg a
    have e1 : |Real.sqrt a - Real.sqrt b| * (Real.sqrt a + Real.sqrt b) = |a - b| := by
      rw [← abs_of_nonneg (add_nonneg h1 hpos.le), ← abs_mul]
      congr 1
      nlinarith [Real.mul_self_sqrt ha, Real.mul_self_sqrt hb]
    have h2 : |Real.sqrt a - Real.sqrt b| * Real.sqrt b ≤ e * Real.sqrt b * Real.sqrt b := by
      rw [mul_assoc, Real.mul_self_sqrt hb]
      refine le_trans ?_ (e1.le.trans h)
      nlinarith [abs_nonneg (Real.sqrt a - Real.sqrt b)]
    exact le_of_mul_le_mul_right h2 hpos

theorem sqmod_rel (hF : F.Std u δ) (hu1 : u ≤ 1) (z : ℂ) :
    0 ≤ (mMul F (conj z) z).re ∧ RelErr (2 * u + u ^ 2) (mMul F (conj z) z).re (‖z‖ ^ 2) := by
  have hu := hF.u_nonneg
  have h1 := hF.mul z.re z.re
  have h2 := hF.mul (-z.im) z.im
  have h3 := hF.add (F.mul z.re z.re) (-F.mul (-z.im) z.im)
  unfold RelErr at *
  rw [abs_of_nonneg (mul_self_nonneg z.re)] at h1
  rw [show |(-z.im * z.im)| = z.im * z.im by rw [neg_mul, abs_neg, abs_of_nonneg (mul_self_nonneg _)]] at h2
  have hn : ‖z‖ ^ 2 = z.re * z.re + z.im * z.im := by rw [← Complex.normSq_eq_norm_sq, Complex.normSq_apply]
  simp only [mMul, Complex.conj_re, Complex.conj_im]
  rw [hn]
  set A := F.mul z.re z.re
  set B := F.mul (-z.im) z.im
  obtain ⟨a1, a2⟩ := abs_le.1 h1
  obtain ⟨b1, b2⟩ := abs_le.1 h2
  have p1 := mul_self_nonneg z.re
  have p2 := mul_self_nonneg z.im
  set p := z.re * z.re
  set q := z.im * z.im
  have hq : -z.im * z.im = -q := by rw [neg_mul]
  rw [hq] at b1 b2
  have c1 : 0 ≤ A := by nlinarith
  have c2 : 0 ≤ -B := by nlinarith
  rw [abs_of_nonneg (add_nonneg c1 c2)] at h3
  obtain ⟨d1, d2⟩ := abs_le.1 h3
  have c3 : A + -B ≤ (1 + u) * (p + q) := by nlinarith
  have c4 := mul_le_mul_of_nonneg_left c3 hu
  refine ⟨by nlinarith, ?_⟩
  rw [abs_of_nonneg (add_nonneg p1 p2)]
  apply abs_le.2
  constructor <;> nlinarith

/-- **C86 (`norm`).** The computed norm has relative error at most `(1+u)³(1+δ n) - 1`, `n` the number of modes and `δ n` the relative error of
numpy's sum of `n` non-negative numbers. -/
theorem C86_norm (hF : F.Std u δ) (hu1 : u ≤ 1) (f : Modes) (hδ : δ f.dat.length ≤ 1) (idx : MIdx) :
    |f.normF F idx - f.norm idx| ≤ ((1 + u) ^ 3 * (1 + δ f.dat.length) - 1) * f.norm idx := by
  have hu := hF.u_nonneg
  have hd := hF.δ_nonneg f.dat.length
  set d := δ f.dat.length with hdd
  set T := f.dat.map fun v => (mMul F (conj (v idx)) (v idx)).re with hT
  set S := (f.dat.map fun v => ‖v idx‖ ^ 2).sum with hS
  have hT0 : ∀ x ∈ T, 0 ≤ x := by
    intro x hx
    rw [hT, List.mem_map] at hx
    obtain ⟨v, -, rfl⟩ := hx
    exact (sqmod_rel hF hu1 _).1
  have h1 := hF.sum T hT0
  rw [show T.length = f.dat.length by rw [hT, List.length_map], ← hdd] at h1
  have h2 : |T.sum - S| ≤ (2 * u + u ^ 2) * S := by
    rw [hT, hS]
    clear h1 hT0 hT hS hdd
    induction f.dat with
    | nil => simp
    | cons v l ih =>
      simp only [List.map_cons, List.sum_cons]
      have h3 := (sqmod_rel hF hu1 (v idx)).2
      unfold RelErr at h3
      rw [abs_of_nonneg (a := ‖v idx‖ ^ 2) (by positivity)] at h3
      rw [add_sub_add_comm, mul_add]
      exact (abs_add_le _ _).trans (add_le_add h3 ih)
  have hS0 : 0 ≤ S := by
    apply List.sum_nonneg
    intro x hx
    rw [List.mem_map] at hx
    obtain ⟨v, _, rfl⟩ := hx
    positivity
  have hTs : 0 ≤ T.sum := List.sum_nonneg hT0
  have hsum0 : 0 ≤ F.sum T := by
    have := (abs_le.1 h1).1
    nlinarith
  have hT2 : T.sum ≤ (1 + u) ^ 2 * S := by
    have := (abs_le.1 h2).2
    nlinarith
  have h3 : RelErr ((1 + u) ^ 2 * (1 + d) - 1) (F.sum T) S := by
    unfold RelErr
    rw [abs_of_nonneg hS0, show F.sum T - S = (F.sum T - T.sum) + (T.sum - S) by ring]
    refine (abs_add_le _ _).trans ?_
    have := mul_le_mul_of_nonneg_left hT2 hd
    nlinarith
  have h4 := sqrt_relErr hsum0 hS0 h3
  have h5 := hF.sqrt (F.sum T) hsum0
  unfold Modes.normF Modes.norm
  rw [← hT, ← hS]
  unfold RelErr at h4 h5
  rw [abs_of_nonneg (Real.sqrt_nonneg _)] at h4 h5
  have h6 : Real.sqrt (F.sum T) ≤ (1 + u) ^ 2 * (1 + d) * Real.sqrt S := by
    have := (abs_le.1 h4).2
    linarith
  rw [show F.sqrt (F.sum T) - Real.sqrt S = (F.sqrt (F.sum T) - Real.sqrt (F.sum T)) + (Real.sqrt (F.sum T) - Real.sqrt S) by ring]
  refine (abs_add_le _ _).trans ?_
  have h7 := mul_le_mul_of_nonneg_left h6 hu
  nlinarith

/-! ## Non-vacuity -/

open scoped Classical in
/-- Operations which are off by the relative error allowed, everywhere they may be. -/
noncomputable def sloppyOps (u : ℝ) : ModesOps where
  add x y := if x = 0 ∨ y = 0 ∨ x = y then x + y else (x + y) * (1 + u)
  mul x y := x * y * (1 - u)
  div x y := x / y * (1 + u)
  sqrt x := Real.sqrt x * (1 - u)
  sum l := l.sum * (1 + l.length * u)

theorem sloppyOps_std {u : ℝ} (hu : 0 ≤ u) : (sloppyOps u).Std u (fun n => n * u) where
  u_nonneg := hu
  add := by
    intro x y
    unfold RelErr sloppyOps
    simp only
    split_ifs
    · rw [sub_self, abs_zero]; positivity
    · rw [show (x + y) * (1 + u) - (x + y) = u * (x + y) by ring, abs_mul, abs_of_nonneg hu]
  mul := by
    intro x y
    unfold RelErr sloppyOps
    rw [show x * y * (1 - u) - x * y = -(u * (x * y)) by ring, abs_neg, abs_mul u, abs_of_nonneg hu]
  div := by
    intro x y _
    unfold RelErr sloppyOps
    rw [show x / y * (1 + u) - x / y = u * (x / y) by ring, abs_mul u, abs_of_nonneg hu]
  sqrt := by
    intro x _
    unfold RelErr sloppyOps
    rw [show Real.sqrt x * (1 - u) - Real.sqrt x = -(u * Real.sqrt x) by ring, abs_neg, abs_mul u, abs_of_nonneg hu]
  δ_nonneg := fun n => by positivity
  sum := by
    intro l hl
    have h0 := List.sum_nonneg hl
    unfold sloppyOps
    simp only
    rw [show l.sum * (1 + l.length * u) - l.sum = l.length * u * l.sum by ring, abs_of_nonneg (by positivity)]
  add_comm := by
    intro x y
    unfold sloppyOps
    simp only
    have : (x = 0 ∨ y = 0 ∨ x = y) ↔ (y = 0 ∨ x = 0 ∨ y = x) := by rw [eq_comm (a := x) (b := y)]; tauto
    simp only [this, _root_.add_comm x y]
  add_neg := by
    intro x y
    unfold sloppyOps
    simp only [neg_eq_zero, neg_inj]
    split_ifs <;> ring
  add_zero := by
    intro x
    unfold sloppyOps
    simp
  double := by
    intro x
    unfold sloppyOps
    simp only [or_true, if_true]
    ring

/-- Non-vacuity of C86: two functions of spin weight -1 and `ell_max` 2, operations with the relative error of double precision; the relative
error of every mode weight of `Lplus` is at most `2.3e-16`. -/
example : ∃ g' g, exModes.LplusF (sloppyOps (2 ^ (-53 : ℤ))) = .ok g' ∧ exModes.Lplus = .ok g ∧
    ∀ l m, |m| ≤ l → ∀ idx, CRel (2.3e-16) (g'.coef l m idx) (g.coef l m idx) := by
  obtain ⟨g', g, h1, h2, h3⟩ := C86_derivatives (sloppyOps_std (u := 2 ^ (-53 : ℤ)) (by positivity)) exModes exModes_WF
    (Modes.LplusF (sloppyOps (2 ^ (-53 : ℤ))), Modes.Lplus, 2 * 2 ^ (-53 : ℤ) + (2 ^ (-53 : ℤ)) ^ 2) (by simp)
  have hle : (2 : ℝ) * 2 ^ (-53 : ℤ) + (2 ^ (-53 : ℤ)) ^ 2 ≤ 2.3e-16 := by norm_num
  refine ⟨g', g, h1, h2, fun l m hm idx => ?_⟩
  obtain ⟨a, b⟩ := h3.coef l m hm idx
  unfold RelErr at a b
  exact ⟨a.trans (mul_le_mul_of_nonneg_right hle (abs_nonneg _)), b.trans (mul_le_mul_of_nonneg_right hle (abs_nonneg _))⟩

/-- A function of spin weight 0 whose real part is computed. -/
def exModesF : Modes := ⟨[], 0, 1, .absent, [fun _ => 2 + Complex.I, fun _ => 1, fun _ => Complex.I, fun _ => 3]⟩

theorem exModesF_WF : exModesF.WF := by
  refine ⟨by simp [exModesF], by simp [exModesF], ?_⟩
  intro ell m h1 h2 _
  have := (abs_nonneg m).trans h2
  simp [exModesF] at h1
  omega

example : ∃ g' g'', exModesF.realF (sloppyOps (2 ^ (-53 : ℤ))) false = .ok g' ∧ IsRealModes g' ∧
    g'.realF (sloppyOps (2 ^ (-53 : ℤ))) true = .ok g' ∧ g'.imagF (sloppyOps (2 ^ (-53 : ℤ))) true = .ok g'' ∧ g''.coef 1 1 [] = 0 := by
  have hF := sloppyOps_std (u := 2 ^ (-53 : ℤ)) (by positivity)
  obtain ⟨g', g, h1, h2, h3, h4⟩ := C86_real hF exModesF exModesF_WF rfl false
  have hs : g'.s = 0 := by
    obtain ⟨k, d1, d2⟩ := real_ok exModesF_WF rfl false
    rw [h2, Except.ok.injEq] at d1
    rw [h3.s, d1, d2.hs]
  obtain ⟨g'', g3, k1, -, -, -, k5⟩ := C86_imag hF g' h3.wf hs true
  exact ⟨g', g'', h1, h4, C86_real_fixed hF g' h3.wf hs h4 true, k1, k5 h4 1 1 (by norm_num) []⟩

example : ∃ g' g, exModesF.divScalarF (sloppyOps (2 ^ (-53 : ℤ))) ⟨[], fun _ => 3⟩ = .ok g' ∧ exModesF.divideScalar ⟨[], fun _ => 3⟩ = .ok g ∧
    CloseTo (2 * 2 ^ (-53 : ℤ) + (2 ^ (-53 : ℤ)) ^ 2) g' g :=
  (C86_scale (sloppyOps_std (u := 2 ^ (-53 : ℤ)) (by positivity)) exModesF exModesF_WF (by decide) ⟨[], fun _ => 3⟩ (lead := []) (by decide)
    (by decide)).2 (by simp)

example : |exModesF.normF (sloppyOps (2 ^ (-53 : ℤ))) [] - exModesF.norm []| ≤ 1e-15 * exModesF.norm [] := by
  have h := C86_norm (sloppyOps_std (u := 2 ^ (-53 : ℤ)) (by positivity)) (by norm_num) exModesF (by simp [exModesF]; norm_num) []
  refine h.trans (mul_le_mul_of_nonneg_right ?_ (Real.sqrt_nonneg _))
  simp only [exModesF, List.length_cons, List.length_nil]
  norm_num

end SF
