import Verif.Lemmas.ModesEval
import Verif.Props.Modes

/-!
# Property C61: accuracy of every entry point at every unit rotor

The code replaces a rotor with `|R.a| ≤ epsilon` (or `|R.b| ≤ epsilon`) by its limit.  The theorems here bound the resulting
error of `Wigner_D_matrices`, of `Wigner_D_element` on arrays of rotors, of `SWSH`, `SWSH_grid` and `Modes.evaluate`, for
*every* unit rotor.  `epsilon` is `1e-15` in the package.
-/

set_option autoImplicit false

namespace SF

open Finset ComplexConjugate Quaternion

/-- Bound on the error of one D-matrix element; at most `(2 ell + 3) epsilon` for `ell ≤ 5·10^13` (`C61_bound`). -/
noncomputable def errD (ell : ℤ) : ℝ := (2 * ell + 2) * epsilon + (((1 - epsilon ^ 2) ^ (2 * ell))⁻¹ - 1)

theorem errD_eq (n : ℕ) : errD n = errH (2 * n) := by
  unfold errD errH
  rw [show (2 * (n : ℤ)) = ((2 * n : ℕ) : ℤ) by push_cast; rfl, zpow_natCast]
  push_cast
  rfl

/-- **C61.** The size of the bound below. -/
theorem C61_bound (ell : ℤ) (h0 : 0 ≤ ell) (h : ell ≤ 5 * 10 ^ 13) :
    (2 * ell + 2) * epsilon + (((1 - epsilon ^ 2) ^ (2 * ell))⁻¹ - 1) ≤ (2 * ell + 3) / 10 ^ 15 := by
  obtain ⟨n, rfl⟩ : ∃ n : ℕ, ell = n := ⟨ell.toNat, by omega⟩
  have := errH_le (n := 2 * n) (by omega)
  rw [← errD_eq] at this
  unfold errD at this
  push_cast at this ⊢
  exact this.trans (by rw [show epsilon = 1 / 10 ^ 15 from rfl, mul_one_div])

/-- Bound on the error of one harmonic. -/
noncomputable def errY (ell : ℤ) : ℝ := Real.sqrt ((2 * ell + 1) / (4 * Real.pi)) * errD ell

theorem errD_nonneg {ell : ℤ} (h : 0 ≤ ell) : 0 ≤ errD ell := by
  obtain ⟨n, rfl⟩ : ∃ n : ℕ, ell = n := ⟨ell.toNat, by omega⟩
  rw [errD_eq]; exact errH_nonneg _

theorem Dret_error {Ra Rb : ℂ} (hu : Spec.IsUnit' Ra Rb) {ell mp m : ℤ} (h1 : |mp| ≤ ell) (h2 : |m| ≤ ell) :
    ‖Dret Ra Rb ell mp m - Spec.wignerD Ra Rb (2 * ell) (2 * mp) (2 * m)‖ ≤ errD ell := by
  have a1 := abs_le.mp h1
  have a2 := abs_le.mp h2
  have hell : 0 ≤ ell := by omega
  have hv := validD_int h1 h2
  obtain ⟨n, rfl⟩ : ∃ n : ℕ, ell = n := ⟨ell.toNat, by omega⟩
  obtain ⟨p', q', p, q, hsum, hap, hb, hc⟩ := valid_pq hv
  have hn : 2 * n = p + q := by omega
  have hE : errD (n : ℤ) = errH (p + q) := by rw [errD_eq, hn]
  by_cases k1 : ‖Ra‖ ≤ epsilon
  · rw [Dret_ra k1, wignerD_pq Ra Rb hsum hap hb hc, hE]
    refine le_trans (le_of_eq ?_) (Dpq_eps_ra hu k1 hsum)
    congr 2
    by_cases hm : mp = -m
    · have e : (p : ℤ) - q = -2 * mp := by omega
      rw [if_pos hm, if_pos (show p' = q by omega), e, neg_one_pow_iffC]
      congr 1
      by_cases h4 : ((n : ℤ) + mp) % 2 = 0
      · rw [if_pos h4, if_pos (by omega)]
      · rw [if_neg h4, if_neg (by omega)]
    · rw [if_neg hm, if_neg (by omega)]
  by_cases k2 : ‖Rb‖ ≤ epsilon
  · rw [Dret_rb k1 k2, wignerD_pq Ra Rb hsum hap hb hc, hE]
    refine le_trans (le_of_eq ?_) (Dpq_eps_rb hu k2 hsum)
    congr 2
    by_cases hm : mp = m
    · have e : (p : ℤ) - q = 2 * mp := by omega
      rw [if_pos hm, if_pos (by omega), e]
    · rw [if_neg hm, if_neg (by omega)]
  · rw [Dret_gen k1 k2, sub_self, norm_zero]
    exact errD_nonneg hell

theorem Yret_error {Ra Rb : ℂ} (hu : Spec.IsUnit' Ra Rb) (s : ℤ) {ell m : ℤ} (h : 0 ≤ ell) :
    ‖Yret Ra Rb s ell m - Spec.sYlm Ra Rb s ell m‖ ≤ errY ell := by
  have h0 : 0 ≤ errY ell := mul_nonneg (Real.sqrt_nonneg _) (errD_nonneg h)
  unfold Yret Spec.sYlm
  split_ifs with hr
  · rw [← mul_sub, ← two_neg, norm_mul, norm_mul, norm_zpow, norm_neg, norm_one, one_zpow, one_mul, Complex.norm_real,
      Real.norm_of_nonneg (Real.sqrt_nonneg _)]
    unfold errY
    gcongr
    exact Dret_error hu hr.1 (by rw [abs_neg]; exact hr.2)
  · rw [sub_self, norm_zero]; exact h0

/-- **C61.** Every entry of `Wigner_D_matrices` differs from the D function by at most
`(2 ell + 2) epsilon + ((1 - epsilon²)^(-2 ell) - 1)`, which is at most `(2 ell + 3) epsilon` (`C61_bound`). -/
theorem C61_Wigner_D_matrices {L : ℤ} {table : List ℝ} (ht : IsWignerTable L table) (junk : ℕ → ℂ) (q : ℍ[ℝ])
    (hq : normSq q = 1) (a b : ℤ) (ha : 0 ≤ a) (hab : a ≤ b + 1) (hb : b ≤ L) :
    ∃ out, Wigner_D_matrices table junk (partA q) (partB q) a b = .ok out ∧
      ∀ ell mp m : ℤ, a ≤ ell → ell ≤ b → |mp| ≤ ell → |m| ≤ ell →
        ∃ v, out[(LMpM_index ell mp m a).toNat]? = some v ∧
          ‖v - Spec.wignerD (partA q) (partB q) (2 * ell) (2 * mp) (2 * m)‖ ≤ (2 * ell + 2) * epsilon + (((1 - epsilon ^ 2) ^ (2 * ell))⁻¹ - 1) := by
  obtain ⟨out, h1, -, h2⟩ := C16_Wigner_D_matrices ht junk q hq a b ha hab hb
  refine ⟨out, h1, fun ell mp m g1 g2 g3 g4 => ?_⟩
  obtain ⟨v, e1, -, e2, -⟩ := h2 ell mp m g1 g2 g3 g4
  refine ⟨v, e1, ?_⟩
  rw [apiD_any ht junk hq g3 g4 (by omega)] at e2
  cases e2
  exact Dret_error (unitQ.mpr hq) g3 g4

/-- **C61.** An array of rotors. -/
theorem C61_array_of_rotors {L : ℤ} {table : List ℝ} (ht : IsWignerTable L table) (flag : Bool) (junk : ℕ → ℂ)
    (qs : List ℍ[ℝ]) (hq : ∀ q ∈ qs, normSq q = 1) (ell mp m : ℤ) (h1 : |mp| ≤ ell) (h2 : |m| ≤ ell) (h3 : ell ≤ L) :
    ∃ f : ℍ[ℝ] → ℂ,
      Wigner_D_element table L flag junk
        [.rotors (qs.map fun q => (q.re, q.imI, q.imJ, q.imK)), .num (.int ell), .num (.int mp), .num (.int m)]
        = .ok (.array (qs.map f)) ∧
      ∀ q ∈ qs, ‖f q - Spec.wignerD (partA q) (partB q) (2 * ell) (2 * mp) (2 * m)‖
        ≤ (2 * ell + 2) * epsilon + (((1 - epsilon ^ 2) ^ (2 * ell))⁻¹ - 1) := by
  obtain ⟨f, e1, e2⟩ := (C17_array_of_rotors ht flag junk qs hq ell mp m).1 h1 h2 h3
  refine ⟨f, e1, fun q hqm => ?_⟩
  have e := e2 q hqm
  rw [apiD_any ht junk (hq q hqm) h1 h2 h3] at e
  injection e with e
  injection e with e
  rw [← e]
  exact Dret_error (unitQ.mpr (hq q hqm)) h1 h2

/-- **C61.** `SWSH` with one rotor and a list of modes. -/
theorem C61_SWSH {L : ℤ} {table : List ℝ} (ht : IsWignerTable L table) (junk : ℕ → ℂ) (q : ℍ[ℝ]) (hq : normSq q = 1)
    (s : ℤ) (modes : List (ℤ × ℤ)) (hl : ∀ t ∈ modes, t.1 ≤ L) :
    ∃ Y : ℤ → ℤ → ℂ,
      SWSH table junk (.single (comps q)) s (.rows modes) = .ok (modes.map fun t => Y t.1 t.2) ∧
      ∀ ell m, 0 ≤ ell → ‖Y ell m - Spec.sYlm (partA q) (partB q) s ell m‖
        ≤ Real.sqrt ((2 * ell + 1) / (4 * Real.pi)) * ((2 * ell + 2) * epsilon + (((1 - epsilon ^ 2) ^ (2 * ell))⁻¹ - 1)) :=
  ⟨Yret (partA q) (partB q) s, SWSH_single ht junk hq s modes (fun t h _ _ => hl t h),
    fun _ _ h => Yret_error (unitQ.mpr hq) s h⟩

/-- **C61.** `SWSH` with an array of rotors and one mode. -/
theorem C61_SWSH_array {L : ℤ} {table : List ℝ} (ht : IsWignerTable L table) (junk : ℕ → ℂ) (qs : List ℍ[ℝ])
    (hq : ∀ q ∈ qs, normSq q = 1) (s ell m : ℤ) (h0 : 0 ≤ ell) (hl : ell ≤ L) :
    ∃ f : ℍ[ℝ] → ℂ,
      SWSH table junk (.array (qs.map comps)) s (.pair ell m) = .ok (qs.map f) ∧
      ∀ q ∈ qs, ‖f q - Spec.sYlm (partA q) (partB q) s ell m‖
        ≤ Real.sqrt ((2 * ell + 1) / (4 * Real.pi)) * ((2 * ell + 2) * epsilon + (((1 - epsilon ^ 2) ^ (2 * ell))⁻¹ - 1)) := by
  obtain ⟨f, e1, e2⟩ := C19_SWSH_array ht junk qs hq s ell m hl
  refine ⟨f, e1, fun q hqm => ?_⟩
  have e := e2 q hqm
  rw [apiY_any ht junk (hq q hqm) hl] at e
  injection e with e
  injection e with e
  rw [← e]
  exact Yret_error (unitQ.mpr (hq q hqm)) s h0

/-- **C61.** `SWSH_grid`. -/
theorem C61_SWSH_grid {L : ℤ} {table : List ℝ} (ht : IsWignerTable L table) (junk : ℕ → ℤ × ℤ)
    (qs : List ℍ[ℝ]) (hne : qs ≠ []) (hq : ∀ q ∈ qs, normSq q = 1) (s ell_max : ℤ) (h0 : -1 ≤ ell_max) (hl : ell_max ≤ L) :
    ∃ row : ℍ[ℝ] → List ℂ,
      SWSH_grid table junk (qs.map comps) s ell_max = .ok (qs.map row) ∧
      ∀ q ∈ qs, ∀ ell m, 0 ≤ ell → ell ≤ ell_max → |m| ≤ ell →
        ∃ v, (row q)[(LM_index ell m 0).toNat]? = some v ∧
          ‖v - Spec.sYlm (partA q) (partB q) s ell m‖
            ≤ Real.sqrt ((2 * ell + 1) / (4 * Real.pi)) * ((2 * ell + 2) * epsilon + (((1 - epsilon ^ 2) ^ (2 * ell))⁻¹ - 1)) := by
  obtain ⟨row, e1, e2⟩ := C19_SWSH_grid ht junk (fun _ => 0) qs hne hq s ell_max h0 hl
  refine ⟨row, e1, fun q hqm ell m g1 g2 g3 => ?_⟩
  obtain ⟨v, k1, -, k2, -⟩ := (e2 q hqm).2 ell m g1 g2 g3
  refine ⟨v, k1, ?_⟩
  rw [apiY_any ht _ (hq q hqm) (by omega)] at k2
  injection k2 with k2
  injection k2 with k2
  rw [← k2]
  exact Yret_error (unitQ.mpr (hq q hqm)) s g1

/-- **C61.** `Modes.evaluate`: at every unit rotor and every leading index the value returned differs from the value
`∑ f(ell,m) sYlm` of the function by at most the sum over the modes of `|f(ell,m)|` times the error of the harmonic. -/
theorem C61_evaluate {L : ℤ} {table : List ℝ} (ht : IsWignerTable L table) (junk : ℕ → ℤ × ℤ) (f : Modes) (hf : f.WF)
    (hL : f.ell_max ≤ L) (qs : List ℍ[ℝ]) (hne : qs ≠ []) (hq : ∀ q ∈ qs, normSq q = 1) :
    ∃ v : ℍ[ℝ] → MIdx → ℂ,
      f.evaluate table junk (qs.map comps) = .ok (qs.map v) ∧
      ∀ q ∈ qs, ∀ idx,
        ‖v q idx - Spec.fieldValue f.s f.ell_max (fun ell m => f.coef ell m idx) (partA q) (partB q)‖
          ≤ ∑ ell ∈ Icc 0 f.ell_max, ∑ m ∈ Icc (-ell) ell, ‖f.coef ell m idx‖ *
              (Real.sqrt ((2 * ell + 1) / (4 * Real.pi)) * ((2 * ell + 2) * epsilon + (((1 - epsilon ^ 2) ^ (2 * ell))⁻¹ - 1))) := by
  refine ⟨_, evaluate_any ht junk hf hL qs hq, fun q hqm idx => ?_⟩
  rw [fieldValue_from_zero, ← Finset.sum_sub_distrib]
  refine (norm_sum_le _ _).trans (Finset.sum_le_sum fun ell hell => ?_)
  rw [← Finset.sum_sub_distrib]
  refine (norm_sum_le _ _).trans (Finset.sum_le_sum fun m _ => ?_)
  rw [← mul_sub, norm_mul]
  gcongr
  exact Yret_error (unitQ.mpr (hq q hqm)) f.s (mem_Icc.mp hell).1

/-- Non-vacuity of C61: a rotor inside the neighbourhood of the south pole that is not at the pole, and its inverse image at
the north pole. -/
theorem nearPole_example : ∃ q r : ℍ[ℝ], normSq q = 1 ∧ normSq r = 1 ∧ ¬ GenericQ q ∧ ¬ GenericQ r ∧
    0 < ‖partA q‖ ∧ ‖partA q‖ ≤ epsilon ∧ 0 < ‖partB r‖ ∧ ‖partB r‖ ≤ epsilon := by
  have e0 : (0 : ℝ) < epsilon := epsilon_pos
  have e1 : epsilon < 1 := by unfold epsilon; norm_num
  have hs : Real.sqrt (1 - epsilon ^ 2) ^ 2 = 1 - epsilon ^ 2 := Real.sq_sqrt (by nlinarith)
  have n1 : ‖partA (mkQ epsilon (Real.sqrt (1 - epsilon ^ 2)) 0 0)‖ = epsilon := by
    have : partA (mkQ epsilon (Real.sqrt (1 - epsilon ^ 2)) 0 0) = ((epsilon : ℝ) : ℂ) := rfl
    rw [this, Complex.norm_real, Real.norm_of_nonneg e0.le]
  have n2 : ‖partB (mkQ (Real.sqrt (1 - epsilon ^ 2)) 0 epsilon 0)‖ = epsilon := by
    have : partB (mkQ (Real.sqrt (1 - epsilon ^ 2)) 0 epsilon 0) = ((epsilon : ℝ) : ℂ) := rfl
    rw [this, Complex.norm_real, Real.norm_of_nonneg e0.le]
  refine ⟨mkQ epsilon (Real.sqrt (1 - epsilon ^ 2)) 0 0, mkQ (Real.sqrt (1 - epsilon ^ 2)) 0 epsilon 0, ?_, ?_, ?_, ?_,
    by rw [n1]; exact e0, n1.le, by rw [n2]; exact e0, n2.le⟩
  · rw [normSq_def']; simp [hs]
  · rw [normSq_def']; simp [hs]
  · rintro ⟨-, h | h, -⟩
    · rw [h, norm_zero] at n1; linarith
    · linarith
  · rintro ⟨-, -, h | h⟩
    · rw [h, norm_zero] at n2; linarith
    · linarith

/-- Non-vacuity of C61. -/
example : ∃ table out w v, IsWignerTable 32 table ∧ ∃ q r : ℍ[ℝ], ¬ GenericQ q ∧ ¬ GenericQ r ∧
    Wigner_D_matrices table (fun _ => 7) (partA q) (partB q) 0 4 = .ok out ∧
    SWSH table (fun _ => 0) (.single (comps r)) (-2) (.rows [(3, 1), (1, 0)]) = .ok w ∧
    exModes.evaluate table (fun _ => 0) ([q, r].map comps) = .ok v := by
  obtain ⟨t, ht⟩ := IsWignerTable.exists 32 (by norm_num)
  obtain ⟨q, r, h1, h2, h3, h4, -⟩ := nearPole_example
  obtain ⟨out, o1, -⟩ := C61_Wigner_D_matrices ht (fun _ => 7) q h1 0 4 (by norm_num) (by norm_num) (by norm_num)
  obtain ⟨w, w1, -⟩ := C61_SWSH ht (fun _ => 0) r h2 (-2) [(3, 1), (1, 0)] (by simp)
  obtain ⟨v, v1, -⟩ := C61_evaluate ht (fun _ => 0) exModes exModes_WF (by decide) [q, r] (by simp)
    (by simp only [List.mem_cons, List.not_mem_nil, or_false]; rintro x (rfl | rfl) <;> assumption)
  exact ⟨t, out, _, _, ht, q, r, h3, h4, by exact_mod_cast o1, w1, v1⟩

end SF
