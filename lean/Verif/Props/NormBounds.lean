import Verif.Props.ProductAlgebra
import Verif.Props.Adjoint
import Verif.Props.Image
import Verif.Props.Sphere
import Verif.Props.AllRotors

/-!
# C102: what the norm of a Modes object bounds

Values, scalar products, images under the operators and products.
-/

set_option autoImplicit false

namespace SF

open Finset ComplexConjugate Quaternion Spec

/-! ## Values -/

/-- The largest value on the sphere of a function of unit norm with spin weight `s` and modes up to `L`: the square root of the number of its modes
over `4π`. -/
noncomputable def supFactor (s L : ℤ) : ℝ := Real.sqrt (((L + 1) ^ 2 - s ^ 2) / (4 * Real.pi))

theorem sYlm_sq_sum {Ra Rb : ℂ} (hu : IsUnit' Ra Rb) {s l : ℤ} (hs : |s| ≤ l) :
    ∑ m ∈ Icc (-l) l, ‖sYlm Ra Rb s l m‖ ^ 2 = (2 * l + 1) / (4 * Real.pi) := by
  obtain ⟨n, rfl⟩ := Int.eq_ofNat_of_zero_le ((abs_nonneg s).trans hs)
  have h := sYlm_addition hu s s n hs hs
  rw [if_pos rfl] at h
  rw [sum_Icc_range]
  have e : ((∑ k ∈ range (2 * n + 1), ‖sYlm Ra Rb s n (k - n)‖ ^ 2 : ℝ) : ℂ) = (((2 * n + 1) / (4 * Real.pi) : ℝ) : ℂ) := by
    rw [← h]
    push_cast
    refine sum_congr rfl fun k _ => ?_
    rw [← Complex.normSq_eq_conj_mul_self, Complex.normSq_eq_norm_sq]
    push_cast
    rfl
  have := Complex.ofReal_injective e
  push_cast at this ⊢
  exact this

theorem odd_sum (s : ℤ) (n : ℕ) : ∑ l ∈ Icc |s| (|s| + n), (2 * (l : ℝ) + 1) = ((|s| + n : ℤ) + 1) ^ 2 - (s : ℝ) ^ 2 := by
  induction n with
  | zero =>
    simp only [Nat.cast_zero, add_zero, Icc_self, sum_singleton]
    push_cast
    rw [← sq_abs (s : ℝ)]; ring
  | succ n ih =>
    have : Icc |s| (|s| + ((n + 1 : ℕ) : ℤ)) = insert (|s| + ((n + 1 : ℕ) : ℤ)) (Icc |s| (|s| + n)) := by
      ext x; simp only [mem_Icc, mem_insert]; push_cast; omega
    rw [this, sum_insert (by simp), ih]
    push_cast
    ring

theorem all_sq_sum {Ra Rb : ℂ} (hu : IsUnit' Ra Rb) {s L : ℤ} (hs : |s| ≤ L) :
    ∑ l ∈ Icc |s| L, ∑ m ∈ Icc (-l) l, ‖sYlm Ra Rb s l m‖ ^ 2 = ((L + 1) ^ 2 - s ^ 2) / (4 * Real.pi) := by
  rw [sum_congr rfl fun l hl => sYlm_sq_sum hu (mem_Icc.mp hl).1, ← sum_div]
  obtain ⟨n, hn⟩ := Int.eq_ofNat_of_zero_le (sub_nonneg.mpr hs)
  obtain rfl : L = |s| + n := by omega
  rw [odd_sum]

theorem sum_sigma_modes {α : Type*} [AddCommMonoid α] (s L : ℤ) (F : ℤ → ℤ → α) :
    ∑ l ∈ Icc |s| L, ∑ m ∈ Icc (-l) l, F l m = ∑ p ∈ modeSet s L, F p.1 p.2 := by
  unfold modeSet
  rw [sum_sigma]

/-- The values of a function with given mode weights. -/
theorem field_bound {Ra Rb : ℂ} (hu : IsUnit' Ra Rb) (s L : ℤ) (c : ℤ → ℤ → ℂ) :
    ‖fieldValue s L c Ra Rb‖ ≤ supFactor s L * Real.sqrt (∑ l ∈ Icc |s| L, ∑ m ∈ Icc (-l) l, ‖c l m‖ ^ 2) := by
  by_cases hs : |s| ≤ L
  · unfold supFactor fieldValue
    rw [← all_sq_sum hu hs, sum_sigma_modes, sum_sigma_modes, sum_sigma_modes]
    refine (norm_sum_le _ _).trans ?_
    simp only [norm_mul]
    rw [mul_comm (Real.sqrt _)]
    exact Real.sum_mul_le_sqrt_mul_sqrt _ _ _
  · unfold fieldValue
    rw [Icc_eq_empty (by omega)]
    simp

/-- **C102 (values).** At generic unit rotors the values returned by `evaluate` are at most `sqrt(((ell_max+1)² - s²)/(4π))` times the norm. -/
theorem C102_values {L : ℤ} {table : List ℝ} (ht : IsWignerTable L table) (junk : ℕ → ℤ × ℤ) (f : Modes) (hf : f.WF) (hL : f.ell_max ≤ L)
    (qs : List ℍ[ℝ]) (hne : qs ≠ []) (hq : ∀ q ∈ qs, GenericQ q) :
    ∃ v : ℍ[ℝ] → MIdx → ℂ, f.evaluate table junk (qs.map comps) = .ok (qs.map v) ∧
      ∀ q ∈ qs, ∀ idx, ‖v q idx‖ ≤ Real.sqrt (((f.ell_max + 1) ^ 2 - f.s ^ 2) / (4 * Real.pi)) * f.norm idx := by
  refine ⟨_, evaluate_ok ht junk hf hL qs hq hne, fun q hqm idx => ?_⟩
  rw [norm_eq hf]
  exact field_bound (hq q hqm).1 _ _ _

/-- **C102 (values, every unit rotor).** The same at every unit rotor, up to the error of the shortcut near the poles. -/
theorem C102_every_rotor {L : ℤ} {table : List ℝ} (ht : IsWignerTable L table) (junk : ℕ → ℤ × ℤ) (f : Modes) (hf : f.WF) (hL : f.ell_max ≤ L)
    (qs : List ℍ[ℝ]) (hne : qs ≠ []) (hq : ∀ q ∈ qs, normSq q = 1) :
    ∃ v : ℍ[ℝ] → MIdx → ℂ, f.evaluate table junk (qs.map comps) = .ok (qs.map v) ∧
      ∀ q ∈ qs, ∀ idx, ‖v q idx‖ ≤ Real.sqrt (((f.ell_max + 1) ^ 2 - f.s ^ 2) / (4 * Real.pi)) * f.norm idx + evalErr f idx := by
  obtain ⟨v, v1, v2⟩ := C61_evaluate ht junk f hf hL qs hne hq
  refine ⟨v, v1, fun q hqm idx => ?_⟩
  have h1 := v2 q hqm idx
  have h2 := field_bound (unitQ.mpr (hq q hqm)) f.s f.ell_max fun l m => f.coef l m idx
  rw [← norm_eq hf] at h2
  have h3 := norm_le_norm_add_norm_sub' (v q idx) (fieldValue f.s f.ell_max (fun ell m => f.coef ell m idx) (partA q) (partB q))
  unfold supFactor at h2
  unfold evalErr
  linarith

/-- The bound is attained by the object whose mode weights are the conjugates of the harmonics. -/
theorem attained_conj {L : ℤ} {table : List ℝ} (ht : IsWignerTable L table) (junk : ℕ → ℤ × ℤ) (f : Modes) (hf : f.WF) (hL : f.ell_max ≤ L)
    (hs : |f.s| ≤ f.ell_max) (q : ℍ[ℝ]) (hq : GenericQ q) (idx : MIdx)
    (hc : ∀ l m, |f.s| ≤ l → |m| ≤ l → l ≤ f.ell_max → f.coef l m idx = conj (sYlm (partA q) (partB q) f.s l m)) :
    ∃ v : MIdx → ℂ, f.evaluate table junk [comps q] = .ok [v] ∧
      ‖v idx‖ = Real.sqrt (((f.ell_max + 1) ^ 2 - f.s ^ 2) / (4 * Real.pi)) * f.norm idx ∧ 0 < f.norm idx := by
  have h := evaluate_ok ht junk hf hL [q] (by simpa using hq)
  refine ⟨_, h, ?_⟩
  have hp := Real.pi_pos
  have h1 := all_sq_sum hq.1 hs
  have hn : f.norm idx = Real.sqrt (((f.ell_max + 1) ^ 2 - f.s ^ 2) / (4 * Real.pi)) := by
    rw [norm_eq hf, ← h1]
    congr 1
    refine sum_congr rfl fun l hl => sum_congr rfl fun m hm => ?_
    rw [mem_Icc] at hl hm
    rw [hc l m hl.1 (abs_le.mpr hm) hl.2, Complex.norm_conj]
  have hpos : 0 < (((f.ell_max : ℝ) + 1) ^ 2 - (f.s : ℝ) ^ 2) / (4 * Real.pi) := by
    have : |(f.s : ℝ)| ≤ f.ell_max := by exact_mod_cast hs
    have h0 := abs_nonneg (f.s : ℝ)
    apply div_pos _ (by positivity)
    rw [← sq_abs (f.s : ℝ)]
    nlinarith
  refine ⟨?_, by rw [hn]; exact Real.sqrt_pos.mpr hpos⟩
  rw [hn, Real.mul_self_sqrt hpos.le, ← h1]
  have e : fieldValue f.s f.ell_max (fun ell m => f.coef ell m idx) (partA q) (partB q)
      = ((∑ l ∈ Icc |f.s| f.ell_max, ∑ m ∈ Icc (-l) l, ‖sYlm (partA q) (partB q) f.s l m‖ ^ 2 : ℝ) : ℂ) := by
    unfold fieldValue
    push_cast
    refine sum_congr rfl fun l hl => sum_congr rfl fun m hm => ?_
    rw [mem_Icc] at hl hm
    rw [hc l m hl.1 (abs_le.mpr hm) hl.2, ← Complex.normSq_eq_conj_mul_self, Complex.normSq_eq_norm_sq]
    push_cast
    rfl
  beta_reduce
  rw [e, Complex.norm_real, Real.norm_of_nonneg (by positivity)]

/-- **C102 (the bound is attained).** For every generic unit rotor, spin weight `s`, `ell_max ≥ |s|` within the table and leading shape some object that
is not zero attains the bound. -/
theorem C102_attained {L : ℤ} {table : List ℝ} (ht : IsWignerTable L table) (junk : ℕ → ℤ × ℤ) (s ell_max : ℤ) (hs : |s| ≤ ell_max) (hL : ell_max ≤ L)
    (lead : List ℕ) (q : ℍ[ℝ]) (hq : GenericQ q) :
    ∃ (f : Modes) (v : MIdx → ℂ), f.WF ∧ f.s = s ∧ f.ell_max = ell_max ∧ f.lead = lead ∧ f.evaluate table junk [comps q] = .ok [v] ∧
      ∀ idx, ‖v idx‖ = Real.sqrt (((ell_max + 1) ^ 2 - s ^ 2) / (4 * Real.pi)) * f.norm idx ∧ 0 < f.norm idx := by
  have h0 := (abs_nonneg _).trans hs
  obtain ⟨P, -, h2, h3, h4, h5, -, h7⟩ := remake_ok exModes lead ((LMlist 0 ell_max).map fun t _ => conj (sYlm (partA q) (partB q) s t.1 t.2)) s ell_max
    (by omega) (by rw [List.length_map, LMlist_length le_rfl (by omega), LM_total_size_zero])
  have hc : ∀ idx l m, |P.s| ≤ l → |m| ≤ l → l ≤ P.ell_max → P.coef l m idx = conj (sYlm (partA q) (partB q) P.s l m) := by
    intro idx l m k1 k2 k3
    have := abs_le.mp k2
    rw [h4] at k1
    rw [h5] at k3
    rw [coef_of_get (f := P) (ell := l) (m := m) (by
        rw [h7 l m k2 k3, if_pos k1, List.getElem?_map]
        unfold mpos
        rw [(LMlist_index (a := 0) (b := ell_max) le_rfl (by have := abs_nonneg m; omega) k3 this.1 this.2).2]
        rfl), h4]
  have hsL : |P.s| ≤ P.ell_max := by rw [h4, h5]; exact hs
  refine ⟨P, _, h2, h4, h5, h3, evaluate_ok ht junk h2 (by rw [h5]; exact hL) [q] (by simpa using hq), fun idx => ?_⟩
  obtain ⟨v, v1, v2⟩ := attained_conj ht junk P h2 (by rw [h5]; exact hL) hsL q hq idx (hc idx)
  have := evaluate_ok ht junk h2 (by rw [h5]; exact hL) [q] (by simpa using hq)
  simp only [List.map_cons, List.map_nil] at this
  rw [this] at v1
  injection v1 with v1
  injection v1 with v1
  rw [← v1, h4, h5] at v2
  rw [h4, h5]
  exact v2

/-! ## Scalar products -/

/-- The norm as a sum from `ell = 0`. -/
theorem norm_eq_zero_sum {f : Modes} (hf : f.WF) (idx : MIdx) :
    f.norm idx = Real.sqrt (∑ l ∈ Icc 0 f.ell_max, ∑ m ∈ Icc (-l) l, ‖f.coef l m idx‖ ^ 2) := by
  rw [norm_eq hf]
  congr 1
  refine sum_subset (fun l hl => ?_) fun l hl hn => sum_eq_zero fun m hm => ?_
  · rw [mem_Icc] at hl ⊢
    exact ⟨(abs_nonneg _).trans hl.1, hl.2⟩
  · rw [mem_Icc] at hl hn hm
    rw [hf.low l m (by omega) (abs_le.mpr hm) hl.2]; simp

/-- **C102 (scalar products).** The Cauchy–Schwarz inequality for the scalar product of C101. -/
theorem C102_scalar_product (f g : Modes) (hf : f.WF) (hg : g.WF) (i j : MIdx) : ‖scalarProduct f g i j‖ ≤ f.norm i * g.norm j := by
  have sub : ∀ (k : Modes) (x : MIdx), min f.ell_max g.ell_max ≤ k.ell_max → k.WF →
      Real.sqrt (∑ p ∈ (Icc 0 (min f.ell_max g.ell_max)).sigma fun l => Icc (-l) l, ‖k.coef p.1 p.2 x‖ ^ 2) ≤ k.norm x := by
    intro k x h hk
    rw [norm_eq_zero_sum hk, sum_sigma']
    exact Real.sqrt_le_sqrt (sum_le_sum_of_subset_of_nonneg (sigma_mono (Icc_subset_Icc_right h) fun _ => subset_rfl) fun _ _ _ => by positivity)
  unfold scalarProduct
  rw [sum_sigma']
  refine (norm_sum_le _ _).trans ?_
  simp only [norm_mul, Complex.norm_conj]
  refine (Real.sum_mul_le_sqrt_mul_sqrt _ _ _).trans ?_
  exact mul_le_mul (sub f i (min_le_left _ _) hf) (sub g j (min_le_right _ _) hg) (Real.sqrt_nonneg _) (Real.sqrt_nonneg _)

/-! ## Operators -/

theorem norm_isqrtC_sq {n : ℤ} (hn : 0 ≤ n) : ‖isqrtC n‖ ^ 2 = n := by
  unfold isqrtC
  rw [Complex.norm_real, Real.norm_of_nonneg (Real.sqrt_nonneg _), Real.sq_sqrt (by exact_mod_cast hn)]

theorem norm_le_of_sq {f f' : Modes} (hf : f.WF) (hf' : f'.WF) (hL : f'.ell_max = f.ell_max) {B : ℝ} (hB : 0 ≤ B) {i : MIdx}
    (h : ∀ l, 0 ≤ l → l ≤ f.ell_max → ∑ m ∈ Icc (-l) l, ‖f'.coef l m i‖ ^ 2 ≤ B * ∑ m ∈ Icc (-l) l, ‖f.coef l m i‖ ^ 2) :
    f'.norm i ≤ Real.sqrt B * f.norm i := by
  rw [norm_eq_zero_sum hf, norm_eq_zero_sum hf', ← Real.sqrt_mul hB, hL, mul_sum]
  refine Real.sqrt_le_sqrt (sum_le_sum fun l hl => ?_)
  rw [mem_Icc] at hl
  exact h l hl.1 hl.2

/-- Operators that multiply each mode by a number. -/
theorem norm_factor {f f' : Modes} {t : ℤ} {c : ℤ → ℤ → ℂ} (hf : f.WF) (a : OpRes f f' t fun l m x => c l m * f.coef l m x) {B : ℝ} (hB : 0 ≤ B)
    (hc : ∀ l m, |f.s| ≤ l → |t| ≤ l → |m| ≤ l → l ≤ f.ell_max → ‖c l m‖ ^ 2 ≤ B) (i : MIdx) : f'.norm i ≤ Real.sqrt B * f.norm i := by
  refine norm_le_of_sq hf a.wf a.hL hB fun l h0 hl => ?_
  rw [mul_sum]
  refine sum_le_sum fun m hm => ?_
  have hm' := abs_le.mpr (mem_Icc.mp hm)
  by_cases h2 : |t| ≤ l
  · rw [a.coef l m h2 hm' hl, norm_mul, mul_pow]
    by_cases h1 : |f.s| ≤ l
    · exact mul_le_mul_of_nonneg_right (hc l m h1 h2 hm' hl) (by positivity)
    · rw [hf.low l m (by omega) hm' hl]; simp
  · rw [a.wf.low l m (by rw [a.hs]; omega) hm' (by rw [a.hL]; exact hl)]
    rw [norm_zero, zero_pow two_ne_zero]
    positivity

/-- The operators of Modes with the squares of their norms on objects of spin weight `s` with modes up to `L`. -/
noncomputable def operatorBounds (s L : ℤ) : List ((Modes → Py Modes) × ℤ) :=
  [(Modes.Lz, L ^ 2), (Modes.Lsquared, (L * (L + 1)) ^ 2), (Modes.Lplus, L * (L + 1)), (Modes.Lminus, L * (L + 1)), (Modes.Rz, s ^ 2),
    (Modes.Rplus, (L + s) * (L - s + 1)), (Modes.Rminus, (L - s) * (L + s + 1)), (Modes.eth, (L - s) * (L + s + 1)),
    (Modes.ethbar, (L + s) * (L - s + 1))]

/-- **C102 (operators).** The image of an object under each operator of Modes has at most the stated multiple of its norm. -/
theorem C102_operators (f f' : Modes) (hf : f.WF) (hs : |f.s| ≤ f.ell_max) (T : Modes → Py Modes) (B : ℤ)
    (hT : (T, B) ∈ operatorBounds f.s f.ell_max) (e : T f = .ok f') (i : MIdx) : f'.norm i ≤ Real.sqrt B * f.norm i := by
  have hs' := abs_le.mp hs
  have hL0 := (abs_nonneg _).trans hs
  unfold operatorBounds at hT
  simp only [List.mem_cons, Prod.mk.injEq, List.not_mem_nil, or_false] at hT
  have key : ∀ (t : ℤ) (n : ℤ → ℤ) (B : ℤ) (c : ℤ → ℤ → ℂ) (_ : ∀ l m, ‖c l m‖ = ‖isqrtC (n l)‖)
      (_ : ∀ l, |f.s| ≤ l → |t| ≤ l → l ≤ f.ell_max → 0 ≤ n l ∧ n l ≤ B) (_ : 0 ≤ B),
      OpRes f f' t (fun l m x => c l m * f.coef l m x) → f'.norm i ≤ Real.sqrt B * f.norm i := by
    intro t n B c hc hn hB a
    refine norm_factor hf a (by exact_mod_cast hB) (fun l m h1 h2 _ h3 => ?_) i
    rw [hc, norm_isqrtC_sq (hn l h1 h2 h3).1]
    exact_mod_cast (hn l h1 h2 h3).2
  rcases hT with ⟨rfl, rfl⟩ | ⟨rfl, rfl⟩ | ⟨rfl, rfl⟩ | ⟨rfl, rfl⟩ | ⟨rfl, rfl⟩ | ⟨rfl, rfl⟩ | ⟨rfl, rfl⟩ | ⟨rfl, rfl⟩ | ⟨rfl, rfl⟩
  · obtain ⟨_, a1, a2⟩ := Lz_ok hf
    obtain rfl := Except.ok.inj (e.symm.trans a1)
    refine norm_factor hf a2 (by positivity) (fun l m _ _ hm hl => ?_) i
    rw [Complex.norm_intCast, ← abs_pow, abs_of_nonneg (by positivity)]
    exact_mod_cast (sq_le_sq' (by have := abs_le.mp hm; omega) (by have := abs_le.mp hm; omega) : m ^ 2 ≤ f.ell_max ^ 2)
  · obtain ⟨_, a1, a2⟩ := Lsquared_ok hf
    obtain rfl := Except.ok.inj (e.symm.trans a1)
    refine norm_factor hf a2 (by positivity) (fun l m h0 _ hm hl => ?_) i
    have h0 := (abs_nonneg _).trans h0
    rw [Complex.norm_intCast, ← abs_pow, abs_of_nonneg (by positivity)]
    have : 0 ≤ l * (l + 1) := by positivity
    have : l * (l + 1) ≤ f.ell_max * (f.ell_max + 1) := by nlinarith
    exact_mod_cast pow_le_pow_left₀ (by assumption) this 2
  · obtain ⟨_, a1, a2⟩ := Lplus_ok hf
    obtain rfl := Except.ok.inj (e.symm.trans a1)
    have hB : (0 : ℝ) ≤ (f.ell_max * (f.ell_max + 1) : ℤ) := by exact_mod_cast (by positivity)
    refine norm_le_of_sq hf a2.wf a2.hL hB fun l h0 hl => ?_
    by_cases h1 : |f.s| ≤ l
    swap
    · rw [sum_eq_zero fun m hm => by
        rw [a2.wf.low l m (by rw [a2.hs]; omega) (abs_le.mpr (mem_Icc.mp hm)) (by rw [a2.hL]; exact hl)]; simp]
      positivity
    have e1 : ∑ m ∈ Icc (-l) l, ‖f'.coef l m i‖ ^ 2 = ∑ m ∈ Icc (-l) (l - 1), ((l + (m + 1)) * (l - (m + 1) + 1) : ℤ) * ‖f.coef l m i‖ ^ 2 := by
      rw [← sum_subset (s₁ := Icc (-l + 1) l) (by intro m; simp only [mem_Icc]; omega)]
      · refine sum_nbij' (fun m => m - 1) (fun m => m + 1) ?_ ?_ ?_ ?_ ?_
        · intro m; simp only [mem_Icc]; omega
        · intro m; simp only [mem_Icc]; omega
        · intro m _; ring
        · intro m _; ring
        · intro m hm
          rw [mem_Icc] at hm
          rw [a2.coef l m h1 (abs_le.mpr (by omega)) hl]; beta_reduce
          rw [if_neg (by omega), norm_mul, mul_pow, norm_isqrtC_sq (mul_nonneg (by omega) (by omega)), sub_add_cancel]
      · intro m hm hn
        rw [mem_Icc] at hm hn
        rw [a2.coef l m h1 (abs_le.mpr (by omega)) hl]; beta_reduce
        rw [if_pos (by omega)]; simp
    rw [e1]
    refine le_trans (sum_le_sum (g := fun m => ((f.ell_max * (f.ell_max + 1) : ℤ) : ℝ) * ‖f.coef l m i‖ ^ 2) fun m hm => ?_) ?_
    · rw [mem_Icc] at hm
      refine mul_le_mul_of_nonneg_right ?_ (by positivity)
      have h2 : 0 ≤ m * (m + 1) := by
        rcases le_or_gt 0 m with h | h
        · positivity
        · nlinarith
      exact_mod_cast (by nlinarith : (l + (m + 1)) * (l - (m + 1) + 1) ≤ f.ell_max * (f.ell_max + 1))
    · rw [← mul_sum]
      exact mul_le_mul_of_nonneg_left (sum_le_sum_of_subset_of_nonneg (Icc_subset_Icc_right (by omega)) fun _ _ _ => by positivity) hB
  · obtain ⟨_, a1, a2⟩ := Lminus_ok hf
    obtain rfl := Except.ok.inj (e.symm.trans a1)
    have hB : (0 : ℝ) ≤ (f.ell_max * (f.ell_max + 1) : ℤ) := by exact_mod_cast (by positivity)
    refine norm_le_of_sq hf a2.wf a2.hL hB fun l h0 hl => ?_
    by_cases h1 : |f.s| ≤ l
    swap
    · rw [sum_eq_zero fun m hm => by
        rw [a2.wf.low l m (by rw [a2.hs]; omega) (abs_le.mpr (mem_Icc.mp hm)) (by rw [a2.hL]; exact hl)]; simp]
      positivity
    have e1 : ∑ m ∈ Icc (-l) l, ‖f'.coef l m i‖ ^ 2 = ∑ m ∈ Icc (-l + 1) l, ((l - (m - 1)) * (l + (m - 1) + 1) : ℤ) * ‖f.coef l m i‖ ^ 2 := by
      rw [← sum_subset (s₁ := Icc (-l) (l - 1)) (by intro m; simp only [mem_Icc]; omega)]
      · refine sum_nbij' (fun m => m + 1) (fun m => m - 1) ?_ ?_ ?_ ?_ ?_
        · intro m; simp only [mem_Icc]; omega
        · intro m; simp only [mem_Icc]; omega
        · intro m _; ring
        · intro m _; ring
        · intro m hm
          rw [mem_Icc] at hm
          rw [a2.coef l m h1 (abs_le.mpr (by omega)) hl]; beta_reduce
          rw [if_neg (by omega), norm_mul, mul_pow, norm_isqrtC_sq (mul_nonneg (by omega) (by omega)), add_sub_cancel_right]
      · intro m hm hn
        rw [mem_Icc] at hm hn
        rw [a2.coef l m h1 (abs_le.mpr (by omega)) hl]; beta_reduce
        rw [if_pos (by omega)]; simp
    rw [e1]
    refine le_trans (sum_le_sum (g := fun m => ((f.ell_max * (f.ell_max + 1) : ℤ) : ℝ) * ‖f.coef l m i‖ ^ 2) fun m hm => ?_) ?_
    · rw [mem_Icc] at hm
      refine mul_le_mul_of_nonneg_right ?_ (by positivity)
      have h2 : 0 ≤ m * (m - 1) := by
        rcases le_or_gt 1 m with h | h
        · exact mul_nonneg (by omega) (by omega)
        · nlinarith
      exact_mod_cast (by nlinarith : (l - (m - 1)) * (l + (m - 1) + 1) ≤ f.ell_max * (f.ell_max + 1))
    · rw [← mul_sum]
      exact mul_le_mul_of_nonneg_left (sum_le_sum_of_subset_of_nonneg (Icc_subset_Icc_left (by omega)) fun _ _ _ => by positivity) hB
  · obtain ⟨_, a1, a2⟩ := Rz_ok hf
    obtain rfl := Except.ok.inj (e.symm.trans a1)
    refine norm_factor (c := fun _ _ => -(f.s : ℂ)) hf a2 (by positivity) (fun l m _ _ hm hl => ?_) i
    rw [norm_neg, Complex.norm_intCast, sq_abs]
    push_cast
    rfl
  · obtain ⟨_, a1, a2⟩ := Rplus_ok hf
    obtain rfl := Except.ok.inj (e.symm.trans a1)
    refine key _ (fun l => (l - (f.s - 1)) * (l + (f.s - 1) + 1)) _ _ (fun _ _ => rfl) (fun l h1 h2 h3 => ?_) (mul_nonneg (by omega) (by omega)) a2
    have := abs_le.mp h1
    have := abs_le.mp h2
    exact ⟨mul_nonneg (by omega) (by omega), by nlinarith⟩
  · obtain ⟨_, a1, a2⟩ := Rminus_ok hf
    obtain rfl := Except.ok.inj (e.symm.trans a1)
    refine key _ (fun l => (l + (f.s + 1)) * (l - (f.s + 1) + 1)) _ _ (fun _ _ => rfl) (fun l h1 h2 h3 => ?_) (mul_nonneg (by omega) (by omega)) a2
    have := abs_le.mp h1
    have := abs_le.mp h2
    exact ⟨mul_nonneg (by omega) (by omega), by nlinarith⟩
  · obtain ⟨_, a1, a2⟩ := Rminus_ok hf
    obtain rfl := Except.ok.inj (e.symm.trans a1)
    refine key _ (fun l => (l + (f.s + 1)) * (l - (f.s + 1) + 1)) _ _ (fun _ _ => rfl) (fun l h1 h2 h3 => ?_) (mul_nonneg (by omega) (by omega)) a2
    have := abs_le.mp h1
    have := abs_le.mp h2
    exact ⟨mul_nonneg (by omega) (by omega), by nlinarith⟩
  · obtain ⟨_, a1, a2⟩ := ethbar_ok hf
    obtain rfl := Except.ok.inj (e.symm.trans a1)
    refine key _ (fun l => (l - (f.s - 1)) * (l + (f.s - 1) + 1)) _ (fun l _ => -isqrtC ((l - (f.s - 1)) * (l + (f.s - 1) + 1)))
      (fun _ _ => norm_neg _) (fun l h1 h2 h3 => ?_) (mul_nonneg (by omega) (by omega)) ⟨a2.wf, a2.lead, a2.hs, a2.hL, a2.trunc, fun l m x y z => ?_⟩
    · have := abs_le.mp h1
      have := abs_le.mp h2
      exact ⟨mul_nonneg (by omega) (by omega), by nlinarith⟩
    · rw [a2.coef l m x y z]
      funext w
      rw [neg_mul]

theorem norm_single {f : Modes} (hf : f.WF) {l m : ℤ} (hm : |m| ≤ l) (hl : l ≤ f.ell_max) {idx : MIdx}
    (h : ∀ l' m', |m'| ≤ l' → l' ≤ f.ell_max → (l', m') ≠ (l, m) → f.coef l' m' idx = 0) : f.norm idx = ‖f.coef l m idx‖ := by
  rw [norm_eq_zero_sum hf, sum_eq_single l, sum_eq_single m, Real.sqrt_sq (norm_nonneg _)]
  · intro m' hm' hne
    rw [h l m' (abs_le.mpr (mem_Icc.mp hm')) hl (by simpa using hne)]; simp
  · intro hn
    exact absurd (mem_Icc.mpr (abs_le.mp hm)) hn
  · intro l' hl' hne
    refine sum_eq_zero fun m' hm' => ?_
    rw [h l' m' (abs_le.mpr (mem_Icc.mp hm')) (mem_Icc.mp hl').2 (by simp [hne])]; simp
  · intro hn
    exact absurd (mem_Icc.mpr ⟨(abs_nonneg _).trans hm, hl⟩) hn

/-- **C102 (the bounds for the operators are attained).** For every spin weight, `ell_max ≥ |s|` and leading shape some object that is not zero attains the
bound. -/
theorem C102_operators_attained (s L : ℤ) (hs : |s| ≤ L) (lead : List ℕ) (T : Modes → Py Modes) (B : ℤ) (hT : (T, B) ∈ operatorBounds s L) :
    ∃ f f' : Modes, f.WF ∧ f.s = s ∧ f.ell_max = L ∧ f.lead = lead ∧ T f = .ok f' ∧
      ∀ idx, f'.norm idx = Real.sqrt B * f.norm idx ∧ 0 < f.norm idx := by
  have hs' := abs_le.mp hs
  have hL0 := (abs_nonneg _).trans hs
  have obj : ∀ m0 : ℤ, |m0| ≤ L → ∃ f : Modes, f.WF ∧ f.lead = lead ∧ f.s = s ∧ f.ell_max = L ∧
      (∀ l m idx, |m| ≤ l → l ≤ L → f.coef l m idx = if (l, m) = (L, m0) then 1 else 0) ∧ ∀ idx, f.norm idx = 1 := by
    intro m0 hm0
    obtain ⟨f, f1, f2, f3, f4, f5⟩ := exists_modes lead s L (by omega) fun l m _ => if (l, m) = (L, m0) then 1 else 0
    have hc : ∀ l m idx, |m| ≤ l → l ≤ L → f.coef l m idx = if (l, m) = (L, m0) then 1 else 0 := by
      intro l m idx hm hl
      by_cases k : |s| ≤ l
      · rw [f5 l m k hm hl]
      · rw [f1.low l m (by rw [f3]; omega) hm (by omega), if_neg]
        intro h
        rw [(Prod.mk.inj h).1] at k
        exact k hs
    refine ⟨f, f1, f2, f3, f4, hc, fun idx => ?_⟩
    rw [norm_single f1 hm0 (by rw [f4]) fun l m hm hl hne => by rw [hc l m idx hm (by omega), if_neg hne], hc L m0 idx hm0 le_rfl, if_pos rfl, norm_one]
  have fac : ∀ (m0 : ℤ) (_ : |m0| ≤ L) (t : ℤ) (c : ℤ → ℤ → ℂ) (_ : |t| ≤ L) (_ : ‖c L m0‖ = Real.sqrt B)
      (_ : ∀ f : Modes, f.WF → f.s = s → ∃ f', T f = .ok f' ∧ OpRes f f' t fun l m x => c l m * f.coef l m x),
      ∃ f f' : Modes, f.WF ∧ f.s = s ∧ f.ell_max = L ∧ f.lead = lead ∧ T f = .ok f' ∧
        ∀ idx, f'.norm idx = Real.sqrt B * f.norm idx ∧ 0 < f.norm idx := by
    intro m0 hm0 t c ht hcB hop
    obtain ⟨f, f1, f2, f3, f4, f5, f6⟩ := obj m0 hm0
    obtain ⟨f', a1, a2⟩ := hop f f1 f3
    refine ⟨f, f', f1, f3, f4, f2, a1, fun idx => ⟨?_, by rw [f6]; exact one_pos⟩⟩
    rw [norm_single a2.wf hm0 (by rw [a2.hL, f4]) fun l m hm hl hne => ?_, a2.coef L m0 ht hm0 (by rw [f4]), f6, mul_one, norm_mul,
      f5 L m0 idx hm0 le_rfl, if_pos rfl, norm_one, mul_one, hcB]
    rw [a2.hL, f4] at hl
    by_cases k : |t| ≤ l
    · rw [a2.coef l m k hm (by omega)]; beta_reduce; rw [f5 l m idx hm hl, if_neg hne, mul_zero]
    · rw [a2.wf.low l m (by rw [a2.hs]; omega) hm (by rw [a2.hL]; omega)]
  have zero : ∀ (_ : B = 0) (_ : ∀ f : Modes, f.WF → f.s = s → ∃ f', T f = .ok f'), ∃ f f' : Modes, f.WF ∧ f.s = s ∧ f.ell_max = L ∧ f.lead = lead ∧ T f = .ok f' ∧
        ∀ idx, f'.norm idx = Real.sqrt B * f.norm idx ∧ 0 < f.norm idx := by
    intro hB hop
    obtain ⟨f, f1, f2, f3, f4, f5, f6⟩ := obj 0 (by simpa using hL0)
    obtain ⟨f', a1⟩ := hop f f1 f3
    refine ⟨f, f', f1, f3, f4, f2, a1, fun idx => ⟨?_, by rw [f6]; exact one_pos⟩⟩
    have h1 := C102_operators f f' f1 (by rw [f3, f4]; exact hs) T B (by rw [f3, f4]; exact hT) a1 idx
    have h2 : 0 ≤ f'.norm idx := Real.sqrt_nonneg _
    rw [hB, Int.cast_zero, Real.sqrt_zero, zero_mul] at h1 ⊢
    exact le_antisymm h1 h2
  have nsq : ∀ n : ℤ, 0 ≤ n → ‖isqrtC n‖ = Real.sqrt n := by
    intro n _
    unfold isqrtC
    rw [Complex.norm_real, Real.norm_of_nonneg (Real.sqrt_nonneg _)]
  have z0 : |(0 : ℤ)| ≤ L := by simpa using hL0
  have hT0 := hT
  unfold operatorBounds at hT
  simp only [List.mem_cons, Prod.mk.injEq, List.not_mem_nil, or_false] at hT
  rcases hT with ⟨rfl, rfl⟩ | ⟨rfl, rfl⟩ | ⟨rfl, rfl⟩ | ⟨rfl, rfl⟩ | ⟨rfl, rfl⟩ | ⟨rfl, rfl⟩ | ⟨rfl, rfl⟩ | ⟨rfl, rfl⟩ | ⟨rfl, rfl⟩
  · refine fac L (by rw [abs_of_nonneg hL0]) s (fun _ m => (m : ℂ)) hs ?_ fun f hf h => ?_
    · rw [Complex.norm_intCast, Int.cast_pow, Real.sqrt_sq_eq_abs]
    · subst h; exact Lz_ok hf
  · refine fac 0 z0 s (fun l _ => ((l * (l + 1) : ℤ) : ℂ)) hs ?_ fun f hf h => ?_
    · rw [Complex.norm_intCast, Int.cast_pow, Real.sqrt_sq_eq_abs]
    · subst h; exact Lsquared_ok hf
  · by_cases hz : L = 0
    · exact zero (by rw [hz]; rfl) fun f hf _ => (Lplus_ok hf).imp fun _ h => h.1
    obtain ⟨f, f1, f2, f3, f4, f5, f6⟩ := obj 0 z0
    obtain ⟨f', a1, a2⟩ := Lplus_ok f1
    refine ⟨f, f', f1, f3, f4, f2, a1, fun idx => ⟨?_, by rw [f6]; exact one_pos⟩⟩
    have h1 : |(1 : ℤ)| ≤ L := by rw [abs_one]; omega
    rw [norm_single a2.wf h1 (by rw [a2.hL, f4]) fun l m hm hl hne => ?_, a2.coef L 1 (by rwa [f3]) h1 (by rw [f4]), f6, mul_one]
    · beta_reduce
      rw [if_neg (by omega), norm_mul, sub_self, f5 L 0 idx z0 le_rfl, if_pos rfl, norm_one, mul_one, nsq _ (by nlinarith)]
      congr 2; ring
    · rw [a2.hL, f4] at hl
      have := abs_le.mp hm
      by_cases k : |f.s| ≤ l
      · rw [a2.coef l m k hm (by omega)]; beta_reduce
        split_ifs with hk
        · rfl
        · rw [f5 l (m - 1) idx (abs_le.mpr (by omega)) hl, if_neg, mul_zero]
          simp only [ne_eq, Prod.mk.injEq, not_and] at hne ⊢
          intro h; have := hne h; omega
      · rw [a2.wf.low l m (by rw [a2.hs]; omega) hm (by rw [a2.hL]; omega)]
  · by_cases hz : L = 0
    · exact zero (by rw [hz]; rfl) fun f hf _ => (Lminus_ok hf).imp fun _ h => h.1
    obtain ⟨f, f1, f2, f3, f4, f5, f6⟩ := obj 0 z0
    obtain ⟨f', a1, a2⟩ := Lminus_ok f1
    refine ⟨f, f', f1, f3, f4, f2, a1, fun idx => ⟨?_, by rw [f6]; exact one_pos⟩⟩
    have h1 : |(-1 : ℤ)| ≤ L := by rw [abs_neg, abs_one]; omega
    rw [norm_single a2.wf h1 (by rw [a2.hL, f4]) fun l m hm hl hne => ?_, a2.coef L (-1) (by rwa [f3]) h1 (by rw [f4]), f6, mul_one]
    · beta_reduce
      rw [if_neg (by omega), norm_mul, neg_add_cancel, f5 L 0 idx z0 le_rfl, if_pos rfl, norm_one, mul_one, nsq _ (by nlinarith)]
      congr 2; ring
    · rw [a2.hL, f4] at hl
      have := abs_le.mp hm
      by_cases k : |f.s| ≤ l
      · rw [a2.coef l m k hm (by omega)]; beta_reduce
        split_ifs with hk
        · rfl
        · rw [f5 l (m + 1) idx (abs_le.mpr (by omega)) hl, if_neg, mul_zero]
          simp only [ne_eq, Prod.mk.injEq, not_and] at hne ⊢
          intro h; have := hne h; omega
      · rw [a2.wf.low l m (by rw [a2.hs]; omega) hm (by rw [a2.hL]; omega)]
  · refine fac 0 z0 s (fun _ _ => -(s : ℂ)) hs ?_ fun f hf h => ?_
    · rw [norm_neg, Complex.norm_intCast, Int.cast_pow, Real.sqrt_sq_eq_abs]
    · subst h; exact Rz_ok hf
  · by_cases hz : s = -L
    · exact zero (by rw [hz]; ring) fun f hf _ => (Rplus_ok hf).imp fun _ h => h.1
    refine fac 0 z0 (s - 1) (fun l _ => isqrtC ((l - (s - 1)) * (l + (s - 1) + 1))) (abs_le.mpr (by omega)) ?_ fun f hf h => ?_
    · rw [nsq _ (mul_nonneg (by omega) (by omega))]; congr 2; ring
    · subst h; exact Rplus_ok hf
  · by_cases hz : s = L
    · exact zero (by rw [hz]; ring) fun f hf _ => (Rminus_ok hf).imp fun _ h => h.1
    refine fac 0 z0 (s + 1) (fun l _ => isqrtC ((l + (s + 1)) * (l - (s + 1) + 1))) (abs_le.mpr (by omega)) ?_ fun f hf h => ?_
    · rw [nsq _ (mul_nonneg (by omega) (by omega))]; congr 2; ring
    · subst h; exact Rminus_ok hf
  · by_cases hz : s = L
    · exact zero (by rw [hz]; ring) fun f hf _ => (Rminus_ok hf).imp fun _ h => h.1
    refine fac 0 z0 (s + 1) (fun l _ => isqrtC ((l + (s + 1)) * (l - (s + 1) + 1))) (abs_le.mpr (by omega)) ?_ fun f hf h => ?_
    · rw [nsq _ (mul_nonneg (by omega) (by omega))]; congr 2; ring
    · subst h; exact Rminus_ok hf
  · by_cases hz : s = -L
    · exact zero (by rw [hz]; ring) fun f hf _ => (ethbar_ok hf).imp fun _ h => h.1
    refine fac 0 z0 (s - 1) (fun l _ => -isqrtC ((l - (s - 1)) * (l + (s - 1) + 1))) (abs_le.mpr (by omega)) ?_ fun f hf h => ?_
    · rw [norm_neg, nsq _ (mul_nonneg (by omega) (by omega))]; congr 2; ring
    · subst h
      obtain ⟨f', a1, a2⟩ := ethbar_ok hf
      refine ⟨f', a1, a2.wf, a2.lead, a2.hs, a2.hL, a2.trunc, fun l m x y z => ?_⟩
      rw [a2.coef l m x y z]
      funext w
      rw [neg_mul]

/-! ## Products -/

theorem fieldValue_dir_cont (s L : ℤ) (c : ℤ → ℤ → ℂ) : Continuous fun x : ℝ × ℝ => fieldValue s L c (dirA x.2 x.1) (dirB x.2 x.1) := by
  unfold fieldValue
  simp only [sYlm_dir]
  refine continuous_finset_sum _ fun l _ => continuous_finset_sum _ fun m _ => ?_
  have := (sYlm_theta_cont s l m).comp (continuous_snd (X := ℝ) (Y := ℝ))
  simp only [Function.comp_def] at this
  fun_prop

/-- The integral over the sphere of the squared modulus of a function is the sum of the squared moduli of its mode weights. -/
theorem parseval (s L : ℤ) (c : ℤ → ℤ → ℂ) :
    ∫ φ in (0 : ℝ)..(2 * Real.pi), ∫ θ in (0 : ℝ)..Real.pi, ‖fieldValue s L c (dirA θ φ) (dirB θ φ)‖ ^ 2 * Real.sin θ
      = ∑ l ∈ Icc |s| L, ∑ m ∈ Icc (-l) l, ‖c l m‖ ^ 2 := by
  apply Complex.ofReal_injective
  have e1 : ∀ z : ℂ, ((‖z‖ ^ 2 : ℝ) : ℂ) = conj z * z := fun z => by
    rw [← Complex.normSq_eq_norm_sq, Complex.normSq_eq_conj_mul_self]
  have e0 : ((∫ φ in (0 : ℝ)..(2 * Real.pi), ∫ θ in (0 : ℝ)..Real.pi, ‖fieldValue s L c (dirA θ φ) (dirB θ φ)‖ ^ 2 * Real.sin θ : ℝ) : ℂ)
      = sphInt fun θ φ => conj (∑ p ∈ modeSet s L, c p.1 p.2 * sYlm (dirA θ φ) (dirB θ φ) s p.1 p.2)
        * ∑ p ∈ modeSet s L, c p.1 p.2 * sYlm (dirA θ φ) (dirB θ φ) s p.1 p.2 := by
    unfold sphInt
    rw [← intervalIntegral.integral_ofReal]
    congr 1; funext φ
    rw [← intervalIntegral.integral_ofReal]
    congr 1; funext θ
    rw [Complex.ofReal_mul, e1]
    unfold fieldValue
    rw [sum_sigma_modes s L fun l m => c l m * sYlm (dirA θ φ) (dirB θ φ) s l m]
  rw [e0]
  have form : ∀ θ φ : ℝ, conj (∑ p ∈ modeSet s L, c p.1 p.2 * sYlm (dirA θ φ) (dirB θ φ) s p.1 p.2)
        * (∑ p ∈ modeSet s L, c p.1 p.2 * sYlm (dirA θ φ) (dirB θ φ) s p.1 p.2)
      = ∑ r ∈ modeSet s L ×ˢ modeSet s L, Complex.exp (Complex.I * ((-r.1.2 + r.2.2 : ℤ) : ℂ) * φ) *
        ((conj (c r.1.1 r.1.2) * c r.2.1 r.2.2) * (conj (sYlm (Real.cos (θ / 2)) (Real.sin (θ / 2)) s r.1.1 r.1.2)
          * sYlm (Real.cos (θ / 2)) (Real.sin (θ / 2)) s r.2.1 r.2.2)) := by
    intro θ φ
    rw [map_sum, sum_mul_sum, sum_product]
    refine sum_congr rfl fun p _ => sum_congr rfl fun p' _ => ?_
    rw [sYlm_dir, sYlm_dir θ φ s p'.1, map_mul, map_mul, ← Complex.exp_conj]
    have e1 : conj (Complex.I * (p.2 : ℂ) * (φ : ℂ)) = -(Complex.I * p.2 * φ) := by
      rw [map_mul, map_mul, Complex.conj_I, Complex.conj_ofReal, map_intCast]; ring
    have e2 : Complex.exp (Complex.I * ((-p.2 + p'.2 : ℤ) : ℂ) * φ) = Complex.exp (-(Complex.I * p.2 * φ)) * Complex.exp (Complex.I * p'.2 * φ) := by
      rw [← Complex.exp_add]; congr 1; push_cast; ring
    simp only
    rw [e1, e2]; ring
  have back : ∀ r : ((_ : ℤ) × ℤ) × ((_ : ℤ) × ℤ), sphInt (fun θ φ => Complex.exp (Complex.I * ((-r.1.2 + r.2.2 : ℤ) : ℂ) * φ) *
        ((conj (c r.1.1 r.1.2) * c r.2.1 r.2.2) * (conj (sYlm (Real.cos (θ / 2)) (Real.sin (θ / 2)) s r.1.1 r.1.2)
          * sYlm (Real.cos (θ / 2)) (Real.sin (θ / 2)) s r.2.1 r.2.2)))
      = (conj (c r.1.1 r.1.2) * c r.2.1 r.2.2) *
        sphInt (fun θ φ => conj (sYlm (dirA θ φ) (dirB θ φ) s r.1.1 r.1.2) * sYlm (dirA θ φ) (dirB θ φ) s r.2.1 r.2.2) := by
    intro r
    unfold sphInt
    simp only [← intervalIntegral.integral_const_mul]
    congr 1; funext φ; congr 1; funext θ
    rw [sYlm_dir, sYlm_dir θ φ s r.2.1, map_mul, ← Complex.exp_conj]
    have e1 : conj (Complex.I * (r.1.2 : ℂ) * (φ : ℂ)) = -(Complex.I * r.1.2 * φ) := by
      rw [map_mul, map_mul, Complex.conj_I, Complex.conj_ofReal, map_intCast]; ring
    have e2 : Complex.exp (Complex.I * ((-r.1.2 + r.2.2 : ℤ) : ℂ) * φ) = Complex.exp (-(Complex.I * r.1.2 * φ)) * Complex.exp (Complex.I * r.2.2 * φ) := by
      rw [← Complex.exp_add]; congr 1; push_cast; ring
    rw [e1, e2]; ring
  simp only [form]
  rw [sphInt_sum _ (fun r : ((_ : ℤ) × ℤ) × ((_ : ℤ) × ℤ) => -r.1.2 + r.2.2) (fun r θ => (conj (c r.1.1 r.1.2) * c r.2.1 r.2.2)
    * (conj (sYlm (Real.cos (θ / 2)) (Real.sin (θ / 2)) s r.1.1 r.1.2) * sYlm (Real.cos (θ / 2)) (Real.sin (θ / 2)) s r.2.1 r.2.2))]
  · rw [sum_congr rfl fun r _ => back r, sum_product, sum_sigma_modes s L fun l m => ‖c l m‖ ^ 2]
    push_cast
    refine sum_congr rfl fun p hp => ?_
    have hp' := mem_modeSet.mp hp
    rw [sum_eq_single p]
    · rw [sYlm_orthonormal hp'.1 hp'.2.2 hp'.1 hp'.2.2, if_pos ⟨rfl, rfl⟩, mul_one, ← e1]
      push_cast
      rfl
    · intro q hq hne
      have hq' := mem_modeSet.mp hq
      rw [sYlm_orthonormal hp'.1 hp'.2.2 hq'.1 hq'.2.2, if_neg, mul_zero]
      rintro ⟨h1, h2⟩
      apply hne
      obtain ⟨q1, q2⟩ := q
      obtain ⟨p1, p2⟩ := p
      simp only at h1 h2
      rw [h1, h2]
    · intro hn; exact absurd hp hn
  · intro r _
    have h1 := sYlm_theta_cont s r.1.1 r.1.2
    have h2 := sYlm_theta_cont s r.2.1 r.2.2
    exact Continuous.intervalIntegrable (by fun_prop) _ _

/-- Integrals over the sphere are monotone. -/
theorem sphere_mono {F G : ℝ × ℝ → ℝ} (hF : Continuous F) (hG : Continuous G) (h : ∀ x, F x ≤ G x) :
    ∫ φ in (0 : ℝ)..(2 * Real.pi), ∫ θ in (0 : ℝ)..Real.pi, F (φ, θ) * Real.sin θ
      ≤ ∫ φ in (0 : ℝ)..(2 * Real.pi), ∫ θ in (0 : ℝ)..Real.pi, G (φ, θ) * Real.sin θ := by
  have hp := Real.pi_pos
  have c : ∀ {H : ℝ × ℝ → ℝ}, Continuous H → Continuous fun φ => ∫ θ in (0 : ℝ)..Real.pi, H (φ, θ) * Real.sin θ := by
    intro H hH
    apply intervalIntegral.continuous_parametric_intervalIntegral_of_continuous'
    exact (hH.comp (by fun_prop)).mul (Real.continuous_sin.comp continuous_snd)
  refine intervalIntegral.integral_mono_on (by positivity) ((c hF).intervalIntegrable _ _) ((c hG).intervalIntegrable _ _) fun φ _ => ?_
  refine intervalIntegral.integral_mono_on hp.le (Continuous.intervalIntegrable (by fun_prop) _ _) (Continuous.intervalIntegrable (by fun_prop) _ _) fun θ hθ => ?_
  exact mul_le_mul_of_nonneg_right (h _) (Real.sin_nonneg_of_nonneg_of_le_pi hθ.1 hθ.2)

/-- **C102 (products).** The norm of a product, truncated or not, is at most the norm of one factor times the bound of C102 on the values of the
other. -/
theorem C102_products (f g h : Modes) (hf : f.WF) (hg : g.WF) (hf0 : 0 ≤ f.ell_max) (hg0 : 0 ≤ g.ell_max)
    (hq : f.ell_max + g.ell_max ≤ 151) (lead : List ℕ) (hb : bcastShape f.lead g.lead = some lead) (e : Multiplied f g h) (idx : MIdx)
    (hv : ValidIdx lead idx) :
    h.norm idx ≤ Real.sqrt (((f.ell_max + 1) ^ 2 - f.s ^ 2) / (4 * Real.pi)) * f.norm (bcIdx f.lead idx) * g.norm (bcIdx g.lead idx) ∧
    h.norm idx ≤ Real.sqrt (((g.ell_max + 1) ^ 2 - g.s ^ 2) / (4 * Real.pi)) * f.norm (bcIdx f.lead idx) * g.norm (bcIdx g.lead idx) := by
  obtain ⟨h1, h2, h3, -⟩ := e.spec hf hg hf0 hg0 hq hb
  obtain ⟨P, p1, p2, p3, p4, p5, p6⟩ := full_product hf hg hf0 hg0 (K := max h.ell_max (f.ell_max + g.ell_max)) (le_max_right _ _) lead
  have hP : h.norm idx ≤ P.norm idx := by
    rw [norm_eq_zero_sum h1, norm_eq_zero_sum p1]
    refine Real.sqrt_le_sqrt ?_
    have : ∑ l ∈ Icc 0 h.ell_max, ∑ m ∈ Icc (-l) l, ‖h.coef l m idx‖ ^ 2 = ∑ l ∈ Icc 0 h.ell_max, ∑ m ∈ Icc (-l) l, ‖P.coef l m idx‖ ^ 2 := by
      refine sum_congr rfl fun l hl => sum_congr rfl fun m hm => ?_
      rw [mem_Icc] at hl
      rw [e.eq_full hf hg hf0 hg0 hq hb p1 p3 p4 p5 (abs_le.mpr (mem_Icc.mp hm)) hl.2 (hl.2.trans (le_max_left _ _))]
    rw [this]
    exact sum_le_sum_of_subset_of_nonneg (Icc_subset_Icc_right (by rw [p4]; exact le_max_left _ _)) fun _ _ _ => by positivity
  have val : ∀ θ φ : ℝ, fieldValue P.s P.ell_max (fun l m => P.coef l m idx) (dirA θ φ) (dirB θ φ)
      = fieldValue f.s f.ell_max (fun l m => f.coef l m (bcIdx f.lead idx)) (dirA θ φ) (dirB θ φ)
        * fieldValue g.s g.ell_max (fun l m => g.coef l m (bcIdx g.lead idx)) (dirA θ φ) (dirB θ φ) := by
    intro θ φ
    have := p6 (dirQ θ φ) (dirQ_unit θ φ) idx hv
    unfold fv at this
    rw [partA_dirQ, partB_dirQ] at this
    exact this
  have nsq : ∀ (k : Modes) (_ : k.WF) (x : MIdx), k.norm x ^ 2 = ∫ φ in (0 : ℝ)..(2 * Real.pi), ∫ θ in (0 : ℝ)..Real.pi,
      ‖fieldValue k.s k.ell_max (fun l m => k.coef l m x) (dirA θ φ) (dirB θ φ)‖ ^ 2 * Real.sin θ := by
    intro k hk x
    rw [parseval, norm_eq hk, Real.sq_sqrt (by positivity)]
  have key : ∀ (k k' : Modes) (hk : k.WF) (hk' : k'.WF) (x x' : MIdx),
      (∀ θ φ : ℝ, fieldValue P.s P.ell_max (fun l m => P.coef l m idx) (dirA θ φ) (dirB θ φ)
        = fieldValue k.s k.ell_max (fun l m => k.coef l m x) (dirA θ φ) (dirB θ φ)
          * fieldValue k'.s k'.ell_max (fun l m => k'.coef l m x') (dirA θ φ) (dirB θ φ)) →
      P.norm idx ≤ supFactor k.s k.ell_max * k.norm x * k'.norm x' := by
    intro k k' hk hk' x x' hval
    have n0 : ∀ (k : Modes) x, 0 ≤ k.norm x := fun k x => Real.sqrt_nonneg _
    refine abs_le_of_sq_le_sq' ?_ (mul_nonneg (mul_nonneg (Real.sqrt_nonneg _) (n0 _ _)) (n0 _ _)) |>.2
    rw [mul_pow, nsq P p1, nsq k' hk', ← intervalIntegral.integral_const_mul]
    simp only [← intervalIntegral.integral_const_mul, ← mul_assoc]
    have c1 := fieldValue_dir_cont P.s P.ell_max (fun l m => P.coef l m idx)
    have c2 := fieldValue_dir_cont k'.s k'.ell_max (fun l m => k'.coef l m x')
    refine sphere_mono (F := fun y => ‖fieldValue P.s P.ell_max (fun l m => P.coef l m idx) (dirA y.2 y.1) (dirB y.2 y.1)‖ ^ 2)
      (G := fun y => (supFactor k.s k.ell_max * k.norm x) ^ 2 * ‖fieldValue k'.s k'.ell_max (fun l m => k'.coef l m x') (dirA y.2 y.1) (dirB y.2 y.1)‖ ^ 2)
      (by fun_prop) (by fun_prop) fun y => ?_
    rw [hval, norm_mul, mul_pow]
    have := field_bound (dir_unit y.2 y.1) k.s k.ell_max fun l m => k.coef l m x
    rw [← norm_eq hk] at this
    gcongr
  refine ⟨hP.trans (key f g hf hg _ _ val), hP.trans ?_⟩
  have := key g f hg hf _ _ (fun θ φ => (val θ φ).trans (mul_comm _ _))
  unfold supFactor at this
  linarith

/-! ## Concrete cases -/

/-- Values of an array of two functions of spin weight -1 at a generic rotor, and at the rotor `1`, which is not generic. -/
example {table : List ℝ} (ht : IsWignerTable 32 table) (junk : ℕ → ℤ × ℤ) :
    (∃ v : ℍ[ℝ] → MIdx → ℂ, exModes.evaluate table junk ([mkQ (3/5) (4/5) 0 0].map comps) = .ok ([mkQ (3/5) (4/5) 0 0].map v) ∧
      ‖v (mkQ (3/5) (4/5) 0 0) [1]‖ ≤ Real.sqrt (((exModes.ell_max + 1) ^ 2 - exModes.s ^ 2) / (4 * Real.pi)) * exModes.norm [1]) ∧
    ∃ v : ℍ[ℝ] → MIdx → ℂ, exModes.evaluate table junk ([1].map comps) = .ok ([1].map v) ∧
      ‖v 1 [1]‖ ≤ Real.sqrt (((exModes.ell_max + 1) ^ 2 - exModes.s ^ 2) / (4 * Real.pi)) * exModes.norm [1] + evalErr exModes [1] := by
  obtain ⟨v, v1, v2⟩ := C102_values ht junk exModes exModes_WF (by decide) [mkQ (3/5) (4/5) 0 0] (by simp) (by simpa using generic_example.1)
  obtain ⟨w, w1, w2⟩ := C102_every_rotor ht junk exModes exModes_WF (by decide) [1] (by simp) (by simp)
  exact ⟨⟨v, v1, v2 _ (by simp) _⟩, ⟨w, w1, w2 _ (by simp) _⟩⟩

/-- An array of two functions of spin weight -2 with modes up to 5 that attains the bound. -/
example {table : List ℝ} (ht : IsWignerTable 32 table) (junk : ℕ → ℤ × ℤ) (q : ℍ[ℝ]) (hq : GenericQ q) :=
  C102_attained ht junk (-2) 5 (by decide) (by decide) [2] q hq

/-- Objects of spin weight -2 with modes up to 5 whose norm `ethbar` and `Lplus` multiply by `sqrt((5 - 2)(5 + 2 + 1))` and `sqrt(5 (5 + 1))`. -/
example := And.intro (C102_operators_attained (-2) 5 (by decide) [2, 3] Modes.ethbar ((5 + -2) * (5 - -2 + 1)) (by simp [operatorBounds]))
  (C102_operators_attained (-2) 5 (by decide) [] Modes.Lplus (5 * (5 + 1)) (by simp [operatorBounds]))

example : ∃ f' h, exModes.ethbar = .ok f' ∧ Multiplied f' exModes h ∧ h.ell_max = 3 ∧
    f'.norm [1] ≤ Real.sqrt (((exModes.ell_max + exModes.s) * (exModes.ell_max - exModes.s + 1) : ℤ)) * exModes.norm [1] ∧
    ‖scalarProduct f' exModes [1] [0]‖ ≤ f'.norm [1] * exModes.norm [0] ∧
    h.norm [1] ≤ Real.sqrt (((f'.ell_max + 1) ^ 2 - f'.s ^ 2) / (4 * Real.pi)) * f'.norm (bcIdx f'.lead [1]) * exModes.norm (bcIdx exModes.lead [1]) := by
  have h2 : exModes.ell_max = 2 := rfl
  obtain ⟨f', f1, f2⟩ := ethbar_ok exModes_WF
  have g2 : f'.ell_max = 2 := f2.hL.trans h2
  have hb : bcastShape f'.lead exModes.lead = some [2] := by rw [f2.lead]; decide
  obtain ⟨h, e, e1, -⟩ := Multiplied.exists f2.wf exModes_WF (by omega) (by omega) (by omega) hb 3 (by omega)
  exact ⟨f', h, f1, e, e1, C102_operators _ _ exModes_WF (by decide) Modes.ethbar _ (by simp [operatorBounds]) f1 _,
    C102_scalar_product _ _ f2.wf exModes_WF _ _,
    (C102_products f' exModes h f2.wf exModes_WF (by omega) (by omega) (by omega) [2] hb e [1] (by unfold ValidIdx; simp)).1⟩

end SF
