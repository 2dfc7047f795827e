import Verif.Props.Reflection
import Verif.Props.Domain
import Verif.Props.Sphere

/-!
# C111: symmetric functions are the functions with symmetric modes
-/

set_option autoImplicit false

namespace SF

open Finset ComplexConjugate Quaternion

/-- Two expansions with the same values at all rotors outside the neighbourhoods of the poles have the same weights. -/
theorem fieldValue_unique_generic {s K : ℤ} {c c' : ℤ → ℤ → ℂ}
    (h : ∀ q : ℍ[ℝ], GenericQ q → Spec.fieldValue s K c (partA q) (partB q) = Spec.fieldValue s K c' (partA q) (partB q))
    {l m : ℤ} (hs : |s| ≤ l) (hl : l ≤ K) (hm : |m| ≤ l) : c l m = c' l m := by
  have key := sYlm_unique (s := s) (modeSet s K) (fun p hp => by rw [mem_modeSet] at hp; exact ⟨hp.1, hp.2.2⟩)
    (fun p => c p.1 p.2 - c' p.1 p.2) (show (1 : ℝ) < 3 / 2 by norm_num) (fun θ φ h1 h2 => by
      have e : epsilon < 1 / 4 := by unfold epsilon; norm_num
      have c1 : 1 / 4 < Real.cos (θ / 2) := by
        have := Real.one_sub_sq_div_two_le_cos (x := θ / 2)
        nlinarith
      have s1 : 1 / 4 < Real.sin (θ / 2) := by
        have := Real.sin_gt_sub_cube (x := θ / 2) (by linarith)
        nlinarith [sq_nonneg (θ / 2), mul_pos (show (0:ℝ) < θ/2 by linarith) (show (0:ℝ) < θ/2 by linarith)]
      have g : GenericQ (dirQ θ φ) := by
        unfold GenericQ
        rw [partA_dirQ, partB_dirQ]
        exact ⟨dir_unit θ φ, Or.inr (by rw [norm_dirA]; exact e.trans (c1.trans_le (le_abs_self _))),
          Or.inr (by rw [norm_dirB]; exact e.trans (s1.trans_le (le_abs_self _)))⟩
      have k := h _ g
      rw [partA_dirQ, partB_dirQ] at k
      unfold Spec.fieldValue at k
      unfold modeSet
      rw [Finset.sum_sigma]
      simp only [sub_mul, sum_sub_distrib]
      rw [sub_eq_zero]
      exact k)
  exact sub_eq_zero.mp (key ⟨l, m⟩ (by rw [mem_modeSet]; exact ⟨hs, hl, hm⟩))

theorem sYlm_left_z (γ : ℝ) (q : ℍ[ℝ]) (s ell m : ℤ) :
    Spec.sYlm (partA (zrot γ * q)) (partB (zrot γ * q)) s ell m = Complex.exp (Complex.I * m * γ) * Spec.sYlm (partA q) (partB q) s ell m := by
  by_cases h : |m| ≤ ell
  swap
  · unfold Spec.sYlm; rw [if_neg (fun k => h k.1), if_neg (fun k => h k.1), mul_zero]
  have h0 := (abs_nonneg _).trans h
  obtain ⟨l, rfl⟩ : ∃ l : ℕ, ell = l := ⟨ell.toNat, by omega⟩
  have hm := abs_le.mp h
  rw [sYlm_rotate (zrot γ) q s l m h, sum_eq_single (l + m).toNat]
  · have i : (((l + m).toNat : ℤ) - l) = m := by omega
    rw [i, partB_zrot, wD_rb_zero (zrot_unit γ) h h, if_pos rfl, partA_zrot, ← Complex.exp_int_mul]
    congr 2
    push_cast
    ring
  · intro k hk hne
    rw [mem_range] at hk
    rw [partB_zrot, wD_rb_zero (zrot_unit γ) h (abs_le.mpr (by omega)), if_neg (by omega), zero_mul]
  · intro hk
    rw [mem_range] at hk
    omega

theorem GenericQ.zrot_mul {q : ℍ[ℝ]} (hq : GenericQ q) (γ : ℝ) : GenericQ (zrot γ * q) := by
  obtain ⟨h1, h2, h3⟩ := hq
  have eA : partA (zrot γ * q) = partA (zrot γ) * partA q := by rw [partA_mul, partB_zrot]; simp
  have eB : partB (zrot γ * q) = conj (partA (zrot γ)) * partB q := by rw [partB_mul, partB_zrot]; simp
  have n1 : ‖partA (zrot γ)‖ = 1 := by
    have := zrot_unit γ
    rw [Complex.normSq_eq_norm_sq] at this
    exact (pow_eq_one_iff_of_nonneg (norm_nonneg _) (by norm_num)).mp this
  have hx : normSq (zrot γ) = 1 := by
    refine unitQ.mp ?_
    unfold Spec.IsUnit'
    rw [partB_zrot]
    simpa using zrot_unit γ
  refine ⟨unitQ.mpr (by rw [map_mul, unitQ.mp h1, hx, one_mul]), ?_, ?_⟩
  · rw [eA, norm_mul, n1, one_mul]
    refine h2.imp (fun h => by rw [h]; simp) id
  · rw [eB, norm_mul, Complex.norm_conj, n1, one_mul]
    refine h3.imp (fun h => by rw [h]; simp) id

theorem field_left_z (γ : ℝ) (q : ℍ[ℝ]) (s L : ℤ) (c : ℤ → ℤ → ℂ) :
    Spec.fieldValue s L c (partA (zrot γ * q)) (partB (zrot γ * q))
      = Spec.fieldValue s L (fun l m => Complex.exp (Complex.I * m * γ) * c l m) (partA q) (partB q) := by
  unfold Spec.fieldValue
  refine sum_congr rfl fun l _ => sum_congr rfl fun m _ => ?_
  rw [sYlm_left_z]
  ring

theorem exp_fold {n : ℕ} (hn : 0 < n) (m : ℤ) : Complex.exp (Complex.I * m * ((2 * Real.pi / n : ℝ) : ℂ)) = 1 ↔ (n : ℤ) ∣ m := by
  have hn' : (n : ℂ) ≠ 0 := by exact_mod_cast hn.ne'
  have hp : (2 * (Real.pi : ℂ) * Complex.I) ≠ 0 := Complex.two_pi_I_ne_zero
  rw [Complex.exp_eq_one_iff]
  constructor
  · rintro ⟨k, hk⟩
    refine ⟨k, ?_⟩
    have : (m : ℂ) = n * k := by
      push_cast at hk
      field_simp at hk
      refine mul_right_cancel₀ hp ?_
      linear_combination (2 * (Real.pi : ℂ) * Complex.I) * hk
    exact_mod_cast this
  · rintro ⟨k, rfl⟩
    refine ⟨k, ?_⟩
    push_cast
    field_simp

/-- **C111 (rotations).** The values of a function do not change under rotation by `2π/n` about the `z` axis exactly if all the modes
whose `m` is not divisible by `n` are zero. -/
theorem C111_fold {L : ℤ} {table : List ℝ} (ht : IsWignerTable L table) (junk : ℕ → ℤ × ℤ) (f : Modes) (hf : f.WF)
    (hL : f.ell_max ≤ L) (n : ℕ) (hn : 0 < n) :
    (∀ q : ℍ[ℝ], GenericQ q → f.evaluate table junk [comps (zrot (2 * Real.pi / n) * q)] = f.evaluate table junk [comps q]) ↔
    ∀ l m idx, |m| ≤ l → l ≤ f.ell_max → ¬ (n : ℤ) ∣ m → f.coef l m idx = 0 := by
  have ev : ∀ q : ℍ[ℝ], GenericQ q → f.evaluate table junk [comps q]
      = .ok [fun idx => Spec.fieldValue f.s f.ell_max (fun ell m => f.coef ell m idx) (partA q) (partB q)] := fun q hq =>
    evaluate_ok ht junk hf hL [q] (by simpa using hq)
  constructor
  · intro h l m idx hm hl hd
    by_cases hs : |f.s| ≤ l
    swap
    · exact congrFun (hf.low l m (by omega) hm hl) idx
    have := fieldValue_unique_generic (s := f.s) (K := f.ell_max)
      (c := fun l m => Complex.exp (Complex.I * m * ((2 * Real.pi / n : ℝ) : ℂ)) * f.coef l m idx) (c' := fun l m => f.coef l m idx)
      (fun q hq => by
        have e := h q hq
        rw [ev q hq, ev _ (hq.zrot_mul _)] at e
        have e' := congrFun (List.cons.inj (Except.ok.inj e)).1 idx
        rw [field_left_z] at e'
        exact e') hs hl hm
    beta_reduce at this
    by_contra h0
    exact hd ((exp_fold hn m).mp (mul_right_cancel₀ h0 (by rw [this, one_mul])))
  · intro h q hq
    rw [ev q hq, ev _ (hq.zrot_mul _)]
    congr 2
    funext idx
    rw [field_left_z]
    unfold Spec.fieldValue
    refine sum_congr rfl fun l hl => sum_congr rfl fun m hm => ?_
    rw [mem_Icc] at hl hm
    beta_reduce
    by_cases hd : (n : ℤ) ∣ m
    · rw [(exp_fold hn m).mpr hd, one_mul]
    · rw [h l m idx (abs_le.mpr hm) hl.2 hd]; simp

/-- **C111 (reflections).** The values at reflected rotors are `(-1)^s` times the complex conjugates of the values exactly if
`f(ell,-m) = (-1)^ell conj(f(ell,m))` for all the modes. -/
theorem C111_reflection {L : ℤ} {table : List ℝ} (ht : IsWignerTable L table) (junk : ℕ → ℤ × ℤ) (f : Modes) (hf : f.WF)
    (hL : f.ell_max ≤ L) :
    (∀ q : ℍ[ℝ], GenericQ q → ∃ v : Slice, f.evaluate table junk [comps q] = .ok [v] ∧
      f.evaluate table junk [comps (zflip * q * xflip)] = .ok [fun idx => (-1) ^ f.s * conj (v idx)]) ↔
    ∀ l m idx, |m| ≤ l → l ≤ f.ell_max → f.coef l (-m) idx = (-1) ^ l * conj (f.coef l m idx) := by
  have ev : ∀ q : ℍ[ℝ], GenericQ q → f.evaluate table junk [comps q]
      = .ok [fun idx => Spec.fieldValue f.s f.ell_max (fun ell m => f.coef ell m idx) (partA q) (partB q)] := fun q hq =>
    evaluate_ok ht junk hf hL [q] (by simpa using hq)
  have n1 : (-1 : ℂ) ≠ 0 := by norm_num
  have sq : ∀ k : ℤ, (-1 : ℂ) ^ k * (-1) ^ k = 1 := fun k => by rw [← mul_zpow]; norm_num
  constructor
  · intro h l m idx hm hl
    by_cases hs : |f.s| ≤ l
    swap
    · rw [hf.low l m (by omega) hm hl, hf.low l (-m) (by omega) (by rwa [abs_neg]) hl]; simp
    have := fieldValue_unique_generic (s := f.s) (K := f.ell_max)
      (c := fun l m => (-1) ^ (l + f.s) * conj (f.coef l (-m) idx)) (c' := fun l m => (-1) ^ f.s * f.coef l m idx)
      (fun q hq => by
        obtain ⟨v, v1, v2⟩ := h q hq
        rw [ev q hq] at v1
        rw [ev _ hq.zflip_mul.mul_xflip] at v2
        have e1 := congrFun (List.cons.inj (Except.ok.inj v1)).1 idx
        have e2 := congrArg conj (congrFun (List.cons.inj (Except.ok.inj v2)).1 idx)
        beta_reduce at e1 e2
        rw [field_reflect, ← e1, map_mul, Complex.conj_conj, map_zpow₀, map_neg, map_one] at e2
        rw [e2]
        unfold Spec.fieldValue
        rw [mul_sum]
        refine sum_congr rfl fun l _ => ?_
        rw [mul_sum]
        exact sum_congr rfl fun m _ => by ring) hs hl (m := m) hm
    beta_reduce at this
    rw [zpow_add₀ n1] at this
    have t2 := congrArg conj this
    simp only [map_mul, map_zpow₀, map_neg, map_one, Complex.conj_conj] at t2
    linear_combination (-1 : ℂ) ^ l * (-1) ^ f.s * t2 - f.coef l (-m) idx * ((-1) ^ f.s * (-1) ^ f.s) * sq l - f.coef l (-m) idx * sq f.s
      + (-1) ^ l * conj (f.coef l m idx) * sq f.s
  · intro h q hq
    obtain ⟨v, v1, v2⟩ := C110_symmetric ht junk f hf hL h [q] (by simp) (by simpa using hq)
    rw [List.map_singleton, ev q hq] at v1
    obtain rfl := Except.ok.inj v1
    exact ⟨_, ev q hq, v2⟩

/-- **C111 (real functions).** The values of a function of spin weight 0 are real exactly if `conjugate` returns the same modes and metadata, and
exactly if `real` does. -/
theorem C111_real {L : ℤ} {table : List ℝ} (ht : IsWignerTable L table) (junk : ℕ → ℤ × ℤ) (f : Modes) (hf : f.WF) (hs : f.s = 0)
    (hL : f.ell_max ≤ L) (b : Bool) :
    ((∀ q : ℍ[ℝ], GenericQ q → ∃ v : Slice, f.evaluate table junk [comps q] = .ok [v] ∧ ∀ idx, (v idx).im = 0) ↔
      f.conjugate b = .ok f) ∧
    ((∀ q : ℍ[ℝ], GenericQ q → ∃ v : Slice, f.evaluate table junk [comps q] = .ok [v] ∧ ∀ idx, (v idx).im = 0) ↔
      f.real_func b = .ok f) := by
  have ev : ∀ q : ℍ[ℝ], GenericQ q → f.evaluate table junk [comps q]
      = .ok [fun idx => Spec.fieldValue f.s f.ell_max (fun ell m => f.coef ell m idx) (partA q) (partB q)] := fun q hq =>
    evaluate_ok ht junk hf hL [q] (by simpa using hq)
  have hr := OpRes.refl hf
  obtain ⟨c, c1, c2⟩ := conjugate_ok hf b
  obtain ⟨r, r1, r2⟩ := real_ok hf hs b
  have main : (∀ q : ℍ[ℝ], GenericQ q → ∃ v : Slice, f.evaluate table junk [comps q] = .ok [v] ∧ ∀ idx, (v idx).im = 0) ↔
      ∀ l m idx, 0 ≤ l → |m| ≤ l → l ≤ f.ell_max → (-1 : ℂ) ^ m * conj (f.coef l (-m) idx) = f.coef l m idx := by
    have cj : ∀ (q : ℍ[ℝ]) (idx : MIdx), Spec.fieldValue f.s f.ell_max (fun l m => (-1 : ℂ) ^ m * conj (f.coef l (-m) idx)) (partA q) (partB q)
        = conj (Spec.fieldValue f.s f.ell_max (fun ell m => f.coef ell m idx) (partA q) (partB q)) := by
      intro q idx
      have := fieldValue_conj 0 f.ell_max (fun ell m => f.coef ell m idx) (partA q) (partB q)
      simp only [zero_add, neg_zero] at this
      rw [hs]
      exact this
    constructor
    · intro h l m idx h0 hm hl
      refine fieldValue_unique_generic (s := f.s) (K := f.ell_max) (c := fun l m => (-1 : ℂ) ^ m * conj (f.coef l (-m) idx))
        (c' := fun l m => f.coef l m idx) (fun q hq => ?_) (by rw [hs]; simpa using h0) hl hm
      obtain ⟨v, v1, v2⟩ := h q hq
      rw [ev q hq] at v1
      have e := congrFun (List.cons.inj (Except.ok.inj v1)).1 idx
      beta_reduce at e
      rw [cj, e]
      exact Complex.conj_eq_iff_im.mpr (v2 idx)
    · intro h q hq
      refine ⟨_, ev q hq, fun idx => ?_⟩
      rw [← Complex.conj_eq_iff_im, ← cj]
      unfold Spec.fieldValue
      refine sum_congr rfl fun l hl => sum_congr rfl fun m hm => ?_
      rw [mem_Icc] at hl hm
      beta_reduce
      rw [h l m idx ((abs_nonneg _).trans hl.1) (abs_le.mpr hm) hl.2]
  rw [hs, neg_zero] at c2
  rw [hs] at hr
  simp only [zero_add] at c2
  have a0 : |(0 : ℤ)| = 0 := abs_zero
  constructor
  · rw [main, c1]
    constructor
    · intro h
      rw [c2.eq hr fun l m x h1 h2 h3 => h l m x (by omega) h2 h3]
    · intro h l m x h1 h2 h3
      obtain rfl := Except.ok.inj h
      exact (congrFun (c2.coef l m (by omega) h2 h3) x).symm
  · rw [main, r1]
    constructor
    · intro h
      rw [r2.eq hr fun l m x h1 h2 h3 => by
        unfold realT
        rw [h l m x (by omega) h2 h3]
        ring]
    · intro h l m x h1 h2 h3
      obtain rfl := Except.ok.inj h
      have := congrFun (r2.coef l m (by omega) h2 h3) x
      unfold realT at this
      linear_combination (-2 : ℂ) * this

/-- A function that is not real, and its real part, which is. -/
example : ∃ (g : Modes) (table : List ℝ), IsWignerTable 32 table ∧ exModes0.real_func false = .ok g ∧ g.WF ∧
    (∀ q : ℍ[ℝ], GenericQ q → ∃ v : Slice, g.evaluate table (fun _ => (0, 0)) [comps q] = .ok [v] ∧ ∀ idx, (v idx).im = 0) ∧
    ¬ ∀ q : ℍ[ℝ], GenericQ q → ∃ v : Slice, exModes0.evaluate table (fun _ => (0, 0)) [comps q] = .ok [v] ∧ ∀ idx, (v idx).im = 0 := by
  obtain ⟨t, ht⟩ := IsWignerTable.exists 32 (by norm_num)
  obtain ⟨g, g1, g2⟩ := real_ok exModes0_WF rfl false
  have sc := (C29_self_conjugate exModes0 exModes0_WF rfl false false).1
  rw [g1, bind_ok] at sc
  have hL : g.ell_max ≤ 32 := by rw [g2.hL]; decide
  refine ⟨g, t, ht, g1, g2.wf, (C111_real ht _ g g2.wf g2.hs hL false).1.mpr sc, fun h => ?_⟩
  have k := (C111_real ht _ exModes0 exModes0_WF rfl (by decide) false).1.mp h
  obtain ⟨c, c1, c2⟩ := conjugate_ok exModes0_WF false
  rw [k] at c1
  obtain rfl := Except.ok.inj c1
  have e := congrFun (c2.coef 0 0 (by decide) (by decide) (by decide)) []
  have v : exModes0.coef 0 0 [] = Complex.I + 2 := by
    unfold Modes.coef; rw [show mpos 0 0 = 0 by decide]; simp [exModes0]
  have e' := congrArg Complex.im e
  rw [show exModes0.s = 0 from rfl] at e'
  simp only [neg_zero, zero_add, zpow_zero, one_mul, v] at e'
  simp at e'
  norm_num at e'

/-- Both directions of the two statements: a function of spin weight -2 with modes `m = ±2` only, which is symmetric under rotation by `π`
(but not by `2π/3`) and under the reflection. -/
example : ∃ (f : Modes) (table : List ℝ), IsWignerTable 32 table ∧ f.WF ∧
    (∀ q : ℍ[ℝ], GenericQ q → f.evaluate table (fun _ => (0, 0)) [comps (zrot (2 * Real.pi / (2 : ℕ)) * q)]
      = f.evaluate table (fun _ => (0, 0)) [comps q]) ∧
    (∃ q : ℍ[ℝ], GenericQ q ∧ f.evaluate table (fun _ => (0, 0)) [comps (zrot (2 * Real.pi / (3 : ℕ)) * q)]
      ≠ f.evaluate table (fun _ => (0, 0)) [comps q]) ∧
    ∀ q : ℍ[ℝ], GenericQ q → ∃ v : Slice, f.evaluate table (fun _ => (0, 0)) [comps q] = .ok [v] ∧
      f.evaluate table (fun _ => (0, 0)) [comps (zflip * q * xflip)] = .ok [fun idx => (-1) ^ f.s * conj (v idx)] := by
  obtain ⟨t, ht⟩ := IsWignerTable.exists 32 (by norm_num)
  obtain ⟨f, g1, g2, g3, g4, g5⟩ := exists_modes [] (-2) 2 (by omega) fun _ m _ =>
    if m = 2 then Complex.I else if m = -2 then -Complex.I else 0
  have hL : f.ell_max ≤ 32 := by omega
  refine ⟨f, t, ht, g1, (C111_fold ht _ f g1 hL 2 (by norm_num)).mpr fun l m idx hm hl hd => ?_, ?_,
    (C111_reflection ht _ f g1 hL).mpr fun l m idx hm hl => ?_⟩
  · by_cases k : |(-2 : ℤ)| ≤ l
    · rw [g5 l m k hm (by omega), if_neg (by rintro rfl; simp at hd), if_neg (by rintro rfl; simp at hd)]
    · rw [g1.low l m (by rw [g3]; omega) hm hl]
  · by_contra hn
    push Not at hn
    have := (C111_fold ht _ f g1 hL 3 (by norm_num)).mp hn 2 2 [] (by norm_num) (by omega) (by decide)
    rw [g5 2 2 (by norm_num) (by norm_num) (by norm_num)] at this
    simp at this
  · by_cases k : |(-2 : ℤ)| ≤ l
    · rw [g5 l m k hm (by omega), g5 l (-m) k (by rwa [abs_neg]) (by omega)]
      have : l = 2 := by norm_num at k; omega
      subst this
      by_cases k1 : m = 2
      · subst k1; norm_num
      · by_cases k2 : m = -2
        · subst k2; norm_num
        · rw [if_neg k1, if_neg k2, if_neg (by omega), if_neg (by omega)]; simp
    · rw [g1.low l m (by rw [g3]; omega) hm hl, g1.low l (-m) (by rw [g3]; omega) (by rwa [abs_neg]) hl]
      simp

end SF
