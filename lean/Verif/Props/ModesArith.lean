import Verif.Props.Modes

/-!
# Properties C30, C31, C34: arithmetic and norm of `Modes`
-/

set_option autoImplicit false

namespace SF

open Finset ComplexConjugate Quaternion

/-! ## C30 -/

/-- **C30.** When the spin weights agree and the leading shapes broadcast (to `lead`), `f ± g` exists, has the larger
`ell_max`, and evaluates at every unit rotor and every index of the broadcast shape to the sum/difference of the values of `f`
and `g` at the broadcast indices. -/
theorem C30_add {L : ℤ} {table : List ℝ} (ht : IsWignerTable L table) (junk : ℕ → ℤ × ℤ) (f g : Modes) (hf : f.WF)
    (hg : g.WF) (hs : f.s = g.s) (hf0 : 0 ≤ f.ell_max) (hg0 : 0 ≤ g.ell_max) (hfL : f.ell_max ≤ L) (hgL : g.ell_max ≤ L)
    (lead : List ℕ) (hb : bcastShape f.lead g.lead = some lead) (subtraction : Bool) (qs : List ℍ[ℝ]) (hne : qs ≠ [])
    (hq : ∀ q ∈ qs, normSq q = 1) :
    ∃ h vf vg vh, f.addM g subtraction = .ok h ∧ h.s = f.s ∧ h.ell_max = max f.ell_max g.ell_max ∧ h.lead = lead ∧ h.WF ∧
      f.evaluate table junk (qs.map comps) = .ok vf ∧ g.evaluate table junk (qs.map comps) = .ok vg ∧
      h.evaluate table junk (qs.map comps) = .ok vh ∧ vf.length = qs.length ∧ vg.length = qs.length ∧
      vh.length = qs.length ∧
      ∀ (k : ℕ) (idx : MIdx), ValidIdx lead idx → ∀ a b c, vf[k]? = some a → vg[k]? = some b → vh[k]? = some c →
        c idx = if subtraction then a (bcIdx f.lead idx) - b (bcIdx g.lead idx)
          else a (bcIdx f.lead idx) + b (bcIdx g.lead idx) := by
  obtain ⟨h, e1, e2, e3, e4, e5, e6, e7⟩ := addM_ok hf hg hs hf0 hg0 hb subtraction
  refine ⟨h, _, _, _, e1, e4, e5, e3, e2, evaluate_ret ht junk hf hfL qs hq, evaluate_ret ht junk hg hgL qs hq,
    evaluate_ret ht junk e2 (by rw [e5]; exact max_le hfL hgL) qs hq, by simp, by simp, by simp, ?_⟩
  intro k idx hv a b c ha hb' hc
  rw [List.getElem?_map, Option.map_eq_some_iff] at ha hb' hc
  obtain ⟨q, hqk, rfl⟩ := ha
  obtain ⟨q', hqk', rfl⟩ := hb'
  obtain ⟨q'', hqk'', rfl⟩ := hc
  rw [hqk] at hqk' hqk''
  obtain rfl : q = q' := by injection hqk'
  obtain rfl : q = q'' := by injection hqk''
  have xf : fieldRet f.s f.ell_max (fun ell m => f.coef ell m (bcIdx f.lead idx)) (partA q) (partB q)
      = fieldRet f.s h.ell_max (fun ell m => f.coefIn lead ell m idx) (partA q) (partB q) := by
    rw [fieldRet_extend (L' := h.ell_max) _ _ (by rw [e5]; exact le_max_left _ _)
      (fun ell m h1 _ h3 => by rw [coef_of_gt hf h3 h1])]
    apply fieldRet_congr
    intro ell m _ _ _
    unfold Modes.coefIn
    rw [bcTo_valid _ hv]
  have xg : fieldRet g.s g.ell_max (fun ell m => g.coef ell m (bcIdx g.lead idx)) (partA q) (partB q)
      = fieldRet f.s h.ell_max (fun ell m => g.coefIn lead ell m idx) (partA q) (partB q) := by
    rw [fieldRet_extend (L' := h.ell_max) _ _ (by rw [e5]; exact le_max_right _ _)
      (fun ell m h1 _ h3 => by rw [coef_of_gt hg h3 h1]), ← hs]
    apply fieldRet_congr
    intro ell m _ _ _
    unfold Modes.coefIn
    rw [bcTo_valid _ hv]
  simp only
  rw [xf, xg, ← fieldRet_add, ← fieldRet_sub]
  cases subtraction
  · rw [if_neg (by simp), e4]
    apply fieldRet_congr
    intro ell m h1 h2 h3
    rw [e7 ell m h1 h2 (by rw [← e5]; exact h3)]
    simp
  · rw [if_pos rfl, e4]
    apply fieldRet_congr
    intro ell m h1 h2 h3
    rw [e7 ell m h1 h2 (by rw [← e5]; exact h3)]
    simp

/-- **C30 (rejection).** Different spin weights, or leading shapes that do not broadcast, raise ValueError. -/
theorem C30_reject (f g : Modes) (hf : f.WF) (hg : g.WF) (hf0 : 0 ≤ f.ell_max) (hg0 : 0 ≤ g.ell_max)
    (h : f.s ≠ g.s ∨ bcastShape f.lead g.lead = none) (subtraction : Bool) :
    f.addM g subtraction = .error .valueError := by
  unfold Modes.addM
  by_cases hs : f.s = g.s
  · rw [if_neg (by simpa using hs)]
    have hb := h.resolve_left (by simpa using hs)
    simp only
    unfold bcastLeads
    rw [if_neg (by have := hf.dat_ne_nil hf0; have := hg.dat_ne_nil hg0; tauto), hb]
    rfl
  · rw [if_pos hs]

/-- **C30.** Addition is commutative and subtraction undoes it, for objects with the same leading shape and truncator. -/
theorem C30_add_comm (f g : Modes) (hf : f.WF) (hg : g.WF) (hs : f.s = g.s) (hf0 : 0 ≤ f.ell_max) (hg0 : 0 ≤ g.ell_max)
    (hl : f.lead = g.lead) (ht : f.trunc = g.trunc) : f.addM g false = g.addM f false := by
  obtain ⟨h, e1, e2, e3, e4, e5, e6, e7⟩ := addM_ok (lead := f.lead) hf hg hs hf0 hg0 (by rw [← hl]; exact bcastShape_self _) false
  obtain ⟨k, d1, d2, d3, d4, d5, d6, d7⟩ := addM_ok (lead := f.lead) hg hf hs.symm hg0 hf0 (by rw [← hl]; exact bcastShape_self _) false
  rw [e1, d1]
  congr 1
  refine e2.ext d2 (e3.trans d3.symm) (e4.trans (hs.trans d4.symm)) (by rw [e5, d5, max_comm]) (by rw [e6, d6, ht]) ?_
  intro ell m h1 h2 h3
  rw [e4] at h1
  rw [e5] at h2
  rw [e7 ell m h1 h3 h2, d7 ell m (by rw [← hs]; exact h1) h3 (by rw [max_comm]; exact h2)]
  funext x
  simp only [Bool.false_eq_true, if_false]
  ring

/-- Non-vacuity of C30: two functions of spin weight -1 plus a single one with a different `ell_max`. -/
def exModes1 : Modes := ⟨[], -1, 1, .absent, [fun _ => 0, fun _ => 1, fun _ => Complex.I, fun _ => 3]⟩

theorem exModes1_WF : exModes1.WF := by
  refine ⟨by simp [exModes1], by simp [exModes1], ?_⟩
  intro ell m h1 h2 _
  have : ell = 0 := by
    have := (abs_nonneg m).trans h2
    simp [exModes1] at h1
    omega
  subst this
  have : m = 0 := by simpa using h2
  subst this
  rfl

example : ∃ table h, IsWignerTable 32 table ∧ exModes.addM exModes1 true = .ok h ∧ h.ell_max = 2 ∧ h.lead = [2] := by
  obtain ⟨t, ht⟩ := IsWignerTable.exists 32 (by norm_num)
  obtain ⟨h, -, -, -, h1, -, h2, h3, -⟩ := C30_add ht (fun _ => 0) exModes exModes1 exModes_WF exModes1_WF rfl
    (by decide) (by decide) (by decide) (by decide) [2] (by decide) true [mkQ (3/5) (4/5) 0 0] (by simp)
    (by simpa using unitQ.mp generic_example.1.1)
  exact ⟨t, h, ht, h1, h2, h3⟩

/-! ## C31 -/

/-- **C31.** Multiplying (method or ufunc) or dividing by a number, or by an array with no more axes than the leading
axes and broadcasting against them, scales every function as a whole: values at every unit rotor are multiplied/divided. -/
theorem C31_scale {L : ℤ} {table : List ℝ} (ht : IsWignerTable L table) (junk : ℕ → ℤ × ℤ) (f : Modes) (hf : f.WF)
    (hf0 : 0 ≤ f.ell_max) (hfL : f.ell_max ≤ L) (a : Scalars) (lead : List ℕ)
    (hdim : a.shape.length ≤ f.lead.length) (hb : bcastShape f.lead a.shape = some lead) (qs : List ℍ[ℝ]) (hne : qs ≠ [])
    (hq : ∀ q ∈ qs, normSq q = 1) :
    ∃ g d vf vg vd, f.multiplyScalar a = .ok g ∧ f.ufuncMulScalar (· * ·) a = .ok g ∧ f.divideScalar a = .ok d ∧
      g.WF ∧ d.WF ∧ g.s = f.s ∧ d.s = f.s ∧ g.ell_max = f.ell_max ∧ d.ell_max = f.ell_max ∧ g.lead = lead ∧ d.lead = lead ∧
      f.evaluate table junk (qs.map comps) = .ok vf ∧ g.evaluate table junk (qs.map comps) = .ok vg ∧
      d.evaluate table junk (qs.map comps) = .ok vd ∧ vg.length = vf.length ∧ vd.length = vf.length ∧
      ∀ (k : ℕ) (idx : MIdx), ValidIdx lead idx → ∀ x y z, vf[k]? = some x → vg[k]? = some y → vd[k]? = some z →
        y idx = x (bcIdx f.lead idx) * a.val (bcIdx a.shape idx) ∧
        z idx = x (bcIdx f.lead idx) / a.val (bcIdx a.shape idx) := by
  have hc : f.check_broadcasting a = .ok true := by
    unfold Modes.check_broadcasting
    rw [if_neg (by omega), if_neg (hf.dat_ne_nil hf0), hb]
    rfl
  obtain ⟨g, e1, e2, e3, e4, e5, e6, e7⟩ := scalarUfunc_ok hf (· * ·) a hb
  obtain ⟨d, d1, d2, d3, d4, d5, d6, d7⟩ := scalarUfunc_ok hf (· / ·) a hb
  have hg : f.ufuncMulScalar (· * ·) a = .ok g := by
    unfold Modes.ufuncMulScalar
    rw [hc, bind_ok, if_pos rfl, e1]
  have hd : f.divideScalar a = .ok d := by
    unfold Modes.divideScalar Modes.ufuncMulScalar
    rw [hc, bind_ok, if_pos rfl, d1]
  have hm : f.multiplyScalar a = .ok g := by
    unfold Modes.multiplyScalar
    rw [hc, bind_ok, if_pos rfl, hg]
  refine ⟨g, d, _, _, _, hm, hg, hd, e2, d2, e4, d4, e5, d5, e3, d3, evaluate_ret ht junk hf hfL qs hq,
    evaluate_ret ht junk e2 (by rw [e5]; exact hfL) qs hq, evaluate_ret ht junk d2 (by rw [d5]; exact hfL) qs hq,
    by simp, by simp, ?_⟩
  intro k idx hv x y z hx hy hz
  rw [List.getElem?_map, Option.map_eq_some_iff] at hx hy hz
  obtain ⟨q, hqk, rfl⟩ := hx
  obtain ⟨q', hqk', rfl⟩ := hy
  obtain ⟨q'', hqk'', rfl⟩ := hz
  rw [hqk] at hqk' hqk''
  obtain rfl : q = q' := by injection hqk'
  obtain rfl : q = q'' := by injection hqk''
  simp only
  constructor
  · rw [mul_comm, ← fieldRet_smul, e4, e5]
    apply fieldRet_congr
    intro ell m h1 h2 h3
    rw [e7 ell m h1 h2 h3]
    unfold Modes.coefIn
    simp only
    rw [bcTo_valid _ hv, mul_comm]
  · rw [div_eq_inv_mul, ← fieldRet_smul, d4, d5]
    apply fieldRet_congr
    intro ell m h1 h2 h3
    rw [d7 ell m h1 h2 h3]
    unfold Modes.coefIn
    simp only
    rw [bcTo_valid _ hv, div_eq_inv_mul]

/-- **C31 (rejection).** An array with more axes than the leading axes — in particular one whose last axis would line up
with the mode axis — raises ValueError in `*`, `/`, `multiply` and `divide`; one that does not broadcast against the
leading axes is an error too. -/
theorem C31_reject (f : Modes) (hf : f.WF) (hf0 : 0 ≤ f.ell_max) (a : Scalars) :
    (f.lead.length < a.shape.length → f.multiplyScalar a = .error .valueError ∧ f.divideScalar a = .error .valueError ∧
      f.ufuncMulScalar (· * ·) a = .error .valueError) ∧
    (a.shape.length ≤ f.lead.length → bcastShape f.lead a.shape = none → f.multiplyScalar a = .error .valueError ∧
      f.divideScalar a = .error .typeError ∧ f.ufuncMulScalar (· * ·) a = .error .typeError) := by
  constructor
  · intro h
    have hc : f.check_broadcasting a = .error .valueError := by
      unfold Modes.check_broadcasting
      rw [if_pos (by omega)]
    unfold Modes.multiplyScalar Modes.divideScalar Modes.ufuncMulScalar
    rw [hc]
    exact ⟨rfl, rfl, rfl⟩
  · intro h hb
    have hc : f.check_broadcasting a = .ok false := by
      unfold Modes.check_broadcasting
      rw [if_neg (by omega), if_neg (hf.dat_ne_nil hf0), hb]
      rfl
    unfold Modes.multiplyScalar Modes.divideScalar Modes.ufuncMulScalar
    rw [hc]
    exact ⟨rfl, rfl, rfl⟩

/-- **C31.** Adding or subtracting anything but zero(s) is refused; dividing by a Modes object is refused. -/
theorem C31_add_scalar (f g : Modes) (a : Scalars) (h : ∃ idx, ValidIdx a.shape idx ∧ a.val idx ≠ 0) (b : Bool) :
    f.addScalar a b = .error .valueError ∧ f.ufuncAddScalar (· + ·) a = .error .typeError ∧
    f.divideM g = .error .valueError := by
  have : a.any = true := by unfold Scalars.any; simpa using h
  unfold Modes.addScalar Modes.ufuncAddScalar
  rw [if_pos this, if_pos this]
  exact ⟨rfl, rfl, rfl⟩

/-- Non-vacuity of C31: two functions, scaled by an array of two numbers; an array of nine numbers is refused for a
single function. -/
example : ∃ table g, IsWignerTable 32 table ∧ exModes.multiplyScalar ⟨[2], fun idx => (idx.headD 0 : ℂ) + 1⟩ = .ok g ∧
    exModes1.multiplyScalar ⟨[4], fun _ => 1⟩ = .error .valueError := by
  obtain ⟨t, ht⟩ := IsWignerTable.exists 32 (by norm_num)
  obtain ⟨g, -, -, -, -, h1, -⟩ := C31_scale ht (fun _ => 0) exModes exModes_WF (by decide) (by decide)
    ⟨[2], fun idx => (idx.headD 0 : ℂ) + 1⟩ [2] (by decide) (by decide) [mkQ (3/5) (4/5) 0 0] (by simp)
    (by simpa using unitQ.mp generic_example.1.1)
  exact ⟨t, g, ht, h1, ((C31_reject exModes1 exModes1_WF (by decide) ⟨[4], fun _ => 1⟩).1 (by decide)).1⟩

/-! ## C34 -/

/-- The norm in terms of the modes with `|s| ≤ ell ≤ ell_max`. -/
theorem norm_eq {f : Modes} (hf : f.WF) (idx : MIdx) :
    f.norm idx = Real.sqrt (∑ ell ∈ Icc |f.s| f.ell_max, ∑ m ∈ Icc (-ell) ell, ‖f.coef ell m idx‖ ^ 2) := by
  unfold Modes.norm
  rw [sum_dat hf]
  congr 1
  symm
  apply Finset.sum_subset
  · intro x; simp only [mem_Icc]; have := abs_nonneg f.s; omega
  · intro ell h1 h2
    simp only [mem_Icc] at h1 h2
    apply Finset.sum_eq_zero
    intro m hm
    rw [mem_Icc] at hm
    rw [hf.low ell m (by omega) (abs_le.mpr hm) h1.2]
    simp

/-- **C34 (definition, sign, definiteness).** The squared norm is the sum of the squared moduli of the stored values; the
norm is non-negative, and zero exactly if all of them are zero. -/
theorem C34_norm (f : Modes) (idx : MIdx) :
    0 ≤ f.norm idx ∧ f.norm idx ^ 2 = (f.dat.map fun v => ‖v idx‖ ^ 2).sum ∧
    (f.norm idx = 0 ↔ ∀ v ∈ f.dat, v idx = 0) := by
  have h0 : 0 ≤ (f.dat.map fun v => ‖v idx‖ ^ 2).sum := by
    apply List.sum_nonneg
    intro x hx
    rw [List.mem_map] at hx
    obtain ⟨v, _, rfl⟩ := hx
    positivity
  refine ⟨Real.sqrt_nonneg _, Real.sq_sqrt h0, ?_⟩
  unfold Modes.norm
  rw [Real.sqrt_eq_zero h0]
  clear h0
  induction f.dat with
  | nil => simp
  | cons v l ih =>
    have h0 : 0 ≤ (l.map fun v => ‖v idx‖ ^ 2).sum := by
      apply List.sum_nonneg
      intro x hx
      rw [List.mem_map] at hx
      obtain ⟨v, _, rfl⟩ := hx
      positivity
    have h1 : 0 ≤ ‖v idx‖ ^ 2 := by positivity
    simp only [List.map_cons, List.sum_cons, List.mem_cons, forall_eq_or_imp]
    rw [← ih]
    constructor
    · intro h
      have : ‖v idx‖ ^ 2 = 0 := by linarith
      exact ⟨by simpa using this, by linarith⟩
    · rintro ⟨h2, h3⟩
      rw [h2, h3]; simp

/-- **C34 (homogeneity).** -/
theorem C34_homogeneous (f : Modes) (hf : f.WF) (hf0 : 0 ≤ f.ell_max) (z : ℂ) :
    ∃ g, f.multiplyScalar (num z) = .ok g ∧ ∀ idx, g.norm idx = ‖z‖ * f.norm idx := by
  obtain ⟨g, g1, g2⟩ := (OpRes.refl hf).scalar hf0 (· * ·) z
  refine ⟨g, ?_, ?_⟩
  · unfold Modes.multiplyScalar
    rw [check_num (hf.dat_ne_nil hf0), bind_ok, if_pos rfl]
    exact g1
  · intro idx
    have hz : ∀ r : ℝ, ‖z‖ * Real.sqrt r = Real.sqrt (‖z‖ ^ 2 * r) := fun r => by
      rw [Real.sqrt_mul (by positivity), Real.sqrt_sq (norm_nonneg z)]
    rw [norm_eq hf, norm_eq g2.wf, g2.hs, g2.hL, hz]
    congr 1
    rw [Finset.mul_sum]
    apply Finset.sum_congr rfl
    intro ell h1
    rw [Finset.mul_sum]
    apply Finset.sum_congr rfl
    intro m h2
    rw [mem_Icc] at h1 h2
    rw [g2.coef ell m h1.1 (abs_le.mpr h2) h1.2, norm_mul]
    ring

/-- Minkowski's inequality for a finite sum. -/
theorem sqrt_sum_add_le {ι : Type} (S : Finset ι) (a b : ι → ℂ) :
    Real.sqrt (∑ i ∈ S, ‖a i + b i‖ ^ 2) ≤ Real.sqrt (∑ i ∈ S, ‖a i‖ ^ 2) + Real.sqrt (∑ i ∈ S, ‖b i‖ ^ 2) := by
  have hA : 0 ≤ ∑ i ∈ S, ‖a i‖ ^ 2 := Finset.sum_nonneg fun _ _ => by positivity
  have hB : 0 ≤ ∑ i ∈ S, ‖b i‖ ^ 2 := Finset.sum_nonneg fun _ _ => by positivity
  rw [Real.sqrt_le_left (by positivity), add_sq, Real.sq_sqrt hA, Real.sq_sqrt hB]
  have cs := Finset.sum_mul_sq_le_sq_mul_sq S (fun i => ‖a i‖) (fun i => ‖b i‖)
  have cs' : ∑ i ∈ S, ‖a i‖ * ‖b i‖ ≤ Real.sqrt (∑ i ∈ S, ‖a i‖ ^ 2) * Real.sqrt (∑ i ∈ S, ‖b i‖ ^ 2) := by
    rw [← Real.sqrt_mul hA]
    exact Real.le_sqrt_of_sq_le cs
  have : ∑ i ∈ S, ‖a i + b i‖ ^ 2 ≤ ∑ i ∈ S, (‖a i‖ ^ 2 + 2 * (‖a i‖ * ‖b i‖) + ‖b i‖ ^ 2) := by
    apply Finset.sum_le_sum
    intro i _
    have := norm_add_le (a i) (b i)
    have h0 := norm_nonneg (a i + b i)
    nlinarith
  rw [Finset.sum_add_distrib, Finset.sum_add_distrib, ← Finset.mul_sum] at this
  linarith

/-- **C34 (triangle inequality).** For sums and differences of objects of any sizes and leading shapes. -/
theorem C34_triangle (f g : Modes) (hf : f.WF) (hg : g.WF) (hs : f.s = g.s) (hf0 : 0 ≤ f.ell_max) (hg0 : 0 ≤ g.ell_max)
    (lead : List ℕ) (hb : bcastShape f.lead g.lead = some lead) (subtraction : Bool) :
    ∃ h, f.addM g subtraction = .ok h ∧ ∀ idx, ValidIdx lead idx →
      h.norm idx ≤ f.norm (bcIdx f.lead idx) + g.norm (bcIdx g.lead idx) := by
  obtain ⟨h, e1, e2, e3, e4, e5, e6, e7⟩ := addM_ok hf hg hs hf0 hg0 hb subtraction
  refine ⟨h, e1, ?_⟩
  intro idx hv
  have ext : ∀ k : Modes, k.WF → k.s = f.s → k.ell_max ≤ h.ell_max → ∀ x, k.norm x =
      Real.sqrt (∑ p ∈ (Icc |f.s| h.ell_max).sigma fun ell => Icc (-ell) ell, ‖k.coef p.1 p.2 x‖ ^ 2) := by
    intro k hk hks hkl x
    rw [norm_eq hk, hks, Finset.sum_sigma]
    congr 1
    apply Finset.sum_subset
    · intro y; simp only [mem_Icc]; omega
    · intro ell h1 h2
      simp only [mem_Icc] at h1 h2
      apply Finset.sum_eq_zero
      intro m hm
      rw [mem_Icc] at hm
      rw [coef_of_gt hk (abs_le.mpr hm) (by omega)]
      simp
  rw [ext h e2 e4 le_rfl, ext f hf rfl (by rw [e5]; exact le_max_left _ _), ext g hg hs.symm (by rw [e5]; exact le_max_right _ _)]
  have hcoef : ∀ p ∈ (Icc |f.s| h.ell_max).sigma fun ell => Icc (-ell) ell, h.coef p.1 p.2 idx =
      f.coef p.1 p.2 (bcIdx f.lead idx) + (if subtraction then -1 else 1) * g.coef p.1 p.2 (bcIdx g.lead idx) := by
    intro p hp
    rw [Finset.mem_sigma, mem_Icc, mem_Icc] at hp
    rw [e7 p.1 p.2 hp.1.1 (abs_le.mpr hp.2) (by rw [← e5]; exact hp.1.2)]
    unfold Modes.coefIn
    simp only
    rw [bcTo_valid _ hv, bcTo_valid _ hv]
    cases subtraction
    · simp
    · simp [sub_eq_add_neg]
  rw [Finset.sum_congr rfl fun p hp => by rw [hcoef p hp]]
  refine (sqrt_sum_add_le _ _ _).trans (le_of_eq ?_)
  congr 2
  apply Finset.sum_congr rfl
  intro p _
  rw [norm_mul]
  cases subtraction <;> simp

/-- **C34 (conjugation).** -/
theorem C34_conjugate (f : Modes) (hf : f.WF) (b : Bool) :
    ∃ g, f.conjugate b = .ok g ∧ ∀ idx, g.norm idx = f.norm idx := by
  obtain ⟨g, g1, g2⟩ := conjugate_ok hf b
  refine ⟨g, g1, fun idx => ?_⟩
  rw [norm_eq hf, norm_eq g2.wf, g2.hs, g2.hL, abs_neg]
  congr 1
  apply Finset.sum_congr rfl
  intro ell h1
  rw [← sum_Icc_neg]
  apply Finset.sum_congr rfl
  intro m h2
  rw [mem_Icc] at h1 h2
  rw [g2.coef ell (-m) (by rw [abs_neg]; exact h1.1) (by rw [abs_neg]; exact abs_le.mpr h2) h1.2]
  rw [norm_mul, norm_zpow, neg_neg]
  simp

/-- Sum over `m` in terms of a natural index. -/
theorem sum_Icc_range {M : Type} [AddCommMonoid M] (l : ℕ) (g : ℤ → M) :
    ∑ m ∈ Icc (-(l : ℤ)) l, g m = ∑ k ∈ range (2 * l + 1), g (k - l) := by
  symm
  refine Finset.sum_nbij' (fun k => (k : ℤ) - l) (fun m => (m + l).toNat) ?_ ?_ ?_ ?_ ?_
  · intro k hk; rw [mem_range] at hk; rw [mem_Icc]; omega
  · intro m hm; rw [mem_Icc] at hm; rw [mem_range]; omega
  · intro k _; simp
  · intro m hm; rw [mem_Icc] at hm; omega
  · intro k _; rfl

/-- Orthonormality of the rows of the integer-spin closed form. -/
theorem wD_unitary_Icc {Ra Rb : ℂ} (hu : Spec.IsUnit' Ra Rb) {l : ℕ} {n n' : ℤ} (hn : |n| ≤ l) (hn' : |n'| ≤ l) :
    ∑ m ∈ Icc (-(l : ℤ)) l, Spec.wignerD Ra Rb (2 * l) (2 * n) (2 * m) * conj (Spec.wignerD Ra Rb (2 * l) (2 * n') (2 * m))
      = if n = n' then 1 else 0 := by
  have u := wD_unitary hu (n := 2 * l) (mp := 2 * n) (mpp := 2 * n') (by push_cast; exact validD_int hn hn')
  rw [sum_Icc_range l fun m => Spec.wignerD Ra Rb (2 * l) (2 * n) (2 * m) * conj (Spec.wignerD Ra Rb (2 * l) (2 * n') (2 * m))]
  have e : (2 * n = 2 * n') = (n = n') := by apply propext; omega
  simp only [e] at u
  rw [← u]
  apply Finset.sum_congr rfl
  intro k _
  push_cast
  rw [mul_sub]

/-- The modes `Σ_m c(l,m) D_{m,m'}(p)` stand for the function `q ↦ f(p q)`. -/
theorem rotate_field (p q : ℍ[ℝ]) {s L : ℤ} {c c' : ℤ → ℤ → ℂ}
    (key : ∀ (l : ℕ) (m' : ℤ), |s| ≤ l → |m'| ≤ l → (l : ℤ) ≤ L →
      c' l m' = ∑ m ∈ Icc (-(l : ℤ)) l, c l m * Spec.wignerD (partA p) (partB p) (2 * l) (2 * m) (2 * m')) :
    Spec.fieldValue s L c' (partA q) (partB q) = Spec.fieldValue s L c (partA (p * q)) (partB (p * q)) := by
  unfold Spec.fieldValue
  apply Finset.sum_congr rfl
  intro ell h1
  rw [mem_Icc] at h1
  obtain ⟨l, rfl⟩ := Int.eq_ofNat_of_zero_le ((abs_nonneg _).trans h1.1)
  have lhs : ∀ m ∈ Icc (-(l : ℤ)) l, c' l m * Spec.sYlm (partA q) (partB q) s l m
      = ∑ n ∈ Icc (-(l : ℤ)) l, c l n * (Spec.wignerD (partA p) (partB p) (2 * l) (2 * n) (2 * m) *
          Spec.sYlm (partA q) (partB q) s l m) := by
    intro m hm
    rw [mem_Icc] at hm
    rw [key l m h1.1 (abs_le.mpr hm) h1.2, Finset.sum_mul]
    apply Finset.sum_congr rfl
    intro n _
    ring
  rw [Finset.sum_congr rfl lhs, Finset.sum_comm]
  apply Finset.sum_congr rfl
  intro n hn
  rw [mem_Icc] at hn
  rw [sYlm_rotate p q s l n (abs_le.mpr hn), ← Finset.mul_sum,
    sum_Icc_range l fun m => Spec.wignerD (partA p) (partB p) (2 * l) (2 * n) (2 * m) *
      Spec.sYlm (partA q) (partB q) s l m]

/-- The modes `Σ_m c(l,m) D_{m,m'}(p)` have the same sum of squares. -/
theorem rotate_norm (p : ℍ[ℝ]) (hp : Spec.IsUnit' (partA p) (partB p)) {s L : ℤ} {c c' : ℤ → ℤ → ℂ}
    (key : ∀ (l : ℕ) (m' : ℤ), |s| ≤ l → |m'| ≤ l → (l : ℤ) ≤ L →
      c' l m' = ∑ m ∈ Icc (-(l : ℤ)) l, c l m * Spec.wignerD (partA p) (partB p) (2 * l) (2 * m) (2 * m')) :
    ∑ ell ∈ Icc |s| L, ∑ m ∈ Icc (-ell) ell, ‖c' ell m‖ ^ 2 = ∑ ell ∈ Icc |s| L, ∑ m ∈ Icc (-ell) ell, ‖c ell m‖ ^ 2 := by
  apply Finset.sum_congr rfl
  intro ell h1
  rw [mem_Icc] at h1
  obtain ⟨l, rfl⟩ := Int.eq_ofNat_of_zero_le ((abs_nonneg _).trans h1.1)
  have sq : ∀ z : ℂ, ((‖z‖ ^ 2 : ℝ) : ℂ) = z * conj z := fun z => by
    rw [Complex.mul_conj, Complex.normSq_eq_norm_sq]
  have : ((∑ m ∈ Icc (-(l : ℤ)) l, ‖c' l m‖ ^ 2 : ℝ) : ℂ) = ((∑ m ∈ Icc (-(l : ℤ)) l, ‖c l m‖ ^ 2 : ℝ) : ℂ) := by
    rw [Complex.ofReal_sum, Complex.ofReal_sum]
    have lhs : ∀ m ∈ Icc (-(l : ℤ)) l, ((‖c' l m‖ ^ 2 : ℝ) : ℂ)
        = ∑ n ∈ Icc (-(l : ℤ)) l, ∑ n' ∈ Icc (-(l : ℤ)) l, c l n * conj (c l n') *
          (Spec.wignerD (partA p) (partB p) (2 * l) (2 * n) (2 * m) * conj (Spec.wignerD (partA p) (partB p) (2 * l) (2 * n') (2 * m))) := by
      intro m hm
      rw [mem_Icc] at hm
      rw [sq, key l m h1.1 (abs_le.mpr hm) h1.2, map_sum, Finset.sum_mul_sum]
      apply Finset.sum_congr rfl
      intro n _
      apply Finset.sum_congr rfl
      intro n' _
      rw [map_mul]
      ring
    rw [Finset.sum_congr rfl lhs, Finset.sum_comm]
    apply Finset.sum_congr rfl
    intro n hn
    rw [mem_Icc] at hn
    rw [Finset.sum_comm, Finset.sum_eq_single n]
    · rw [← Finset.mul_sum, sq]
      rw [wD_unitary_Icc hp (abs_le.mpr hn) (abs_le.mpr hn), if_pos rfl, mul_one]
    · intro n' hn' hne
      rw [mem_Icc] at hn'
      rw [← Finset.mul_sum, wD_unitary_Icc hp (abs_le.mpr hn) (abs_le.mpr hn'), if_neg (Ne.symm hne), mul_zero]
    · intro hno
      exact absurd (mem_Icc.mpr hn) hno
  exact_mod_cast this

/-- **C34 (rotation).** Let `h` have the modes of `f` rotated by `p`, i.e. `h(ell, m') = Σ_m f(ell, m) D^ell_{m,m'}(p)`.
Then `h` represents the function `q ↦ f(p q)`, and has the same norm as `f`. -/
theorem C34_rotation {L : ℤ} {table : List ℝ} (ht : IsWignerTable L table) (junk : ℕ → ℤ × ℤ) (f h : Modes) (hf : f.WF)
    (hh : h.WF) (hs : h.s = f.s) (hL : h.ell_max = f.ell_max) (hfL : f.ell_max ≤ L) (p : ℍ[ℝ]) (hp : GenericQ p)
    (hrot : ∀ (l : ℕ) (m' : ℤ) (idx : MIdx), |f.s| ≤ l → |m'| ≤ l → (l : ℤ) ≤ f.ell_max →
      ∃ D : ℤ → ℂ, (∀ m : ℤ, |m| ≤ l → apiD table L (fun _ => 0) p (2 * l) (2 * m) (2 * m') = .ok (.scalar (D m))) ∧
        h.coef l m' idx = ∑ m ∈ Icc (-(l : ℤ)) l, f.coef l m idx * D m) :
    (∀ q, GenericQ q → GenericQ (p * q) → h.evaluate table junk [comps q] = f.evaluate table junk [comps (p * q)]) ∧
    ∀ idx, h.norm idx = f.norm idx := by
  have key : ∀ (l : ℕ) (m' : ℤ) (idx : MIdx), |f.s| ≤ l → |m'| ≤ l → (l : ℤ) ≤ f.ell_max →
      h.coef l m' idx = ∑ m ∈ Icc (-(l : ℤ)) l, f.coef l m idx * Spec.wignerD (partA p) (partB p) (2 * l) (2 * m) (2 * m') := by
    intro l m' idx h1 h2 h3
    obtain ⟨D, d1, d2⟩ := hrot l m' idx h1 h2 h3
    rw [d2]
    apply Finset.sum_congr rfl
    intro m hm
    rw [mem_Icc] at hm
    have e := d1 m (abs_le.mpr hm)
    rw [apiD_eq ht (fun _ => 0) hp (validD_int (abs_le.mpr hm) h2) (by omega)] at e
    injection e with e
    injection e with e
    rw [e]
  constructor
  · intro q hq hpq
    have e1 := evaluate_ok ht junk hh (by rw [hL]; exact hfL) [q] (by simpa using hq)
    have e2 := evaluate_ok ht junk hf hfL [p * q] (by simpa using hpq)
    simp only [List.map_cons, List.map_nil] at e1 e2
    rw [e1, e2]
    congr 2
    funext idx
    rw [hs, hL]
    exact rotate_field p q fun l m' => key l m' idx
  · intro idx
    rw [norm_eq hf, norm_eq hh, hs, hL, rotate_norm p hp.1 (c := fun l m => f.coef l m idx) fun l m' => key l m' idx]

/-- **C34 (`np.absolute`).** `np.absolute(f)` is not this norm but the elementwise modulus of the modes. -/
theorem C34_absolute (f : Modes) : f.absolute.length = f.dat.length ∧
    ∀ (k : ℕ) v, f.dat[k]? = some v → f.absolute[k]? = some fun idx => ‖v idx‖ := by
  unfold Modes.absolute
  refine ⟨by simp, fun k v h => ?_⟩
  rw [List.getElem?_map, h]
  rfl

/-- Non-vacuity of C34: a nonzero norm, and the rotation hypotheses hold for the identity rotation. -/
example : exModes1.norm [] ^ 2 = 11 := by
  rw [(C34_norm exModes1 []).2.1]
  simp [exModes1]
  norm_num

/-- A rotated object exists for every `f`. -/
theorem rotated_exists (f : Modes) (hf : f.WF) (A B : ℂ) : ∃ h : Modes, h.WF ∧ h.s = f.s ∧ h.ell_max = f.ell_max ∧
    ∀ (l : ℕ) (m' : ℤ), |f.s| ≤ l → |m'| ≤ l → (l : ℤ) ≤ f.ell_max → h.coef l m' = fun idx =>
      ∑ m ∈ Icc (-(l : ℤ)) l, f.coef l m idx * Spec.wignerD A B (2 * l) (2 * m) (2 * m') := by
  have hlen : ((LMlist 0 f.ell_max).length : ℤ) = (f.ell_max + 1) ^ 2 := by
    rw [LMlist_length le_rfl (by have := hf.ell_max_ge; omega), LM_total_size_zero]
  obtain ⟨h, -, h2, -, h4, h5, -, h7⟩ := remake_ok f f.lead ((LMlist 0 f.ell_max).map fun t idx =>
    ∑ m ∈ Icc (-t.1) t.1, f.coef t.1 m idx * Spec.wignerD A B (2 * t.1) (2 * m) (2 * t.2)) f.s f.ell_max hf.ell_max_ge
    (by rw [List.length_map]; exact hlen)
  refine ⟨h, h2, h4, h5, ?_⟩
  intro l m' k1 k2 k3
  apply coef_of_get
  have := abs_le.mp k2
  rw [h7 l m' k2 k3, if_pos k1, List.getElem?_map]
  unfold mpos
  rw [(LMlist_index (a := 0) (b := f.ell_max) le_rfl (by omega) k3 this.1 this.2).2]
  rfl

example : ∃ (table : List ℝ) (h : Modes), IsWignerTable 32 table ∧ h.WF ∧ ∀ idx, h.norm idx = exModes.norm idx := by
  obtain ⟨t, ht⟩ := IsWignerTable.exists 32 (by norm_num)
  obtain ⟨hq, -⟩ := generic_example
  obtain ⟨h, h1, h2, h3, h4⟩ := rotated_exists exModes exModes_WF (partA (mkQ (3/5) (4/5) 0 0)) (partB (mkQ (3/5) (4/5) 0 0))
  refine ⟨t, h, ht, h1, (C34_rotation ht (fun _ => 0) exModes h exModes_WF h1 h2 h3 (by decide) _ hq ?_).2⟩
  intro l m' idx k1 k2 k3
  refine ⟨fun m => Spec.wignerD (partA (mkQ (3/5) (4/5) 0 0)) (partB (mkQ (3/5) (4/5) 0 0)) (2 * l) (2 * m) (2 * m'), fun m hm =>
    apiD_eq ht _ hq (validD_int hm k2) (by have : exModes.ell_max = 2 := rfl; omega), ?_⟩
  rw [h4 l m' k1 k2 k3]

end SF
