import Verif.Lemmas.ModesOps
import Verif.Spec.Modes
import Verif.Props.SWSH

/-! # `Modes.evaluate` -/

set_option autoImplicit false

namespace SF

open Finset ComplexConjugate Quaternion

theorem sum_pyRange {M : Type} [AddCommMonoid M] (a b : ℤ) (g : ℤ → M) :
    ((pyRange a b).map g).sum = ∑ i ∈ Ico a b, g i := by
  by_cases h : a ≤ b
  · obtain ⟨n, hn⟩ : ∃ n : ℕ, b = a + n := ⟨(b - a).toNat, by omega⟩
    subst hn
    clear h
    induction n with
    | zero => simp [pyRange_empty]
    | succ n ih =>
      have e : a + ((n + 1 : ℕ) : ℤ) = (a + n) + 1 := by push_cast; ring
      have : Ico a (a + (n : ℤ) + 1) = insert (a + (n : ℤ)) (Ico a (a + n)) := by
        ext x; simp only [mem_Ico, mem_insert]; omega
      rw [e, pyRange_succ (by omega), List.map_append, List.sum_append, ih, this,
        Finset.sum_insert (by simp), add_comm]
      simp
  · rw [pyRange_empty (by omega), Finset.Ico_eq_empty (by omega)]
    rfl

theorem sum_LMlist {M : Type} [AddCommMonoid M] (a b : ℤ) (g : ℤ → ℤ → M) :
    ((LMlist a b).map fun t => g t.1 t.2).sum = ∑ ell ∈ Icc a b, ∑ m ∈ Icc (-ell) ell, g ell m := by
  have hI : ∀ x y : ℤ, Ico x (y + 1) = Icc x y := by
    intro x y; ext z; simp only [mem_Ico, mem_Icc]; omega
  have key : ∀ xs : List ℤ, ((xs.flatMap fun ell => (pyRange (-ell) (ell + 1)).map fun m => (ell, m)).map
      fun t : ℤ × ℤ => g t.1 t.2).sum = (xs.map fun ell => ∑ m ∈ Icc (-ell) ell, g ell m).sum := by
    intro xs
    induction xs with
    | nil => rfl
    | cons x xs ih =>
      rw [List.flatMap_cons, List.map_append, List.sum_append, ih, List.map_cons, List.sum_cons, List.map_map]
      rw [← hI, ← sum_pyRange]
      rfl
  unfold LMlist
  rw [key, sum_pyRange, hI]

theorem sYlm_low {Ra Rb : ℂ} {s ell m : ℤ} (h : ell < |s|) : Spec.sYlm Ra Rb s ell m = 0 := by
  unfold Spec.sYlm
  rw [if_neg (by omega)]

theorem fieldValue_from_zero (s L : ℤ) (c : ℤ → ℤ → ℂ) (Ra Rb : ℂ) :
    Spec.fieldValue s L c Ra Rb = ∑ ell ∈ Icc 0 L, ∑ m ∈ Icc (-ell) ell, c ell m * Spec.sYlm Ra Rb s ell m := by
  unfold Spec.fieldValue
  apply Finset.sum_subset
  · intro x; simp only [mem_Icc]; have := abs_nonneg s; omega
  · intro ell h1 h2
    simp only [mem_Icc] at h1 h2
    apply Finset.sum_eq_zero
    intro m _
    rw [sYlm_low (by omega), mul_zero]

theorem mapM_ok {α β γ : Type} (xs : List α) (f : α → β) (g : β → Py γ) (h : α → γ)
    (hg : ∀ x ∈ xs, g (f x) = .ok (h x)) : (xs.map f).mapM g = .ok (xs.map h) := by
  induction xs with
  | nil => rfl
  | cons x xs ih =>
    rw [List.map_cons, List.mapM_cons, hg x (by simp), ih (fun y hy => hg y (by simp [hy]))]
    rfl

/-- What `evaluate` returns for arbitrary unit rotors and arbitrary contents of the array. -/
theorem evaluate_sized {L : ℤ} {table : List ℝ} (ht : IsWignerTable L table) (junk : ℕ → ℤ × ℤ) {f : Modes} (hf : f.Sized)
    (hL : f.ell_max ≤ L) (qs : List ℍ[ℝ]) (hq : ∀ q ∈ qs, normSq q = 1)
    (hne : qs ≠ [] := by first | assumption | simp) :
    f.evaluate table junk (qs.map comps)
      = .ok (qs.map fun q idx => ∑ ell ∈ Icc 0 f.ell_max, ∑ m ∈ Icc (-ell) ell,
          f.coef ell m idx * Yret (partA q) (partB q) f.s ell m) := by
  have hge := hf.ell_max_ge
  unfold Modes.evaluate
  rw [SWSH_grid_any ht junk qs hq f.s f.ell_max hge hL, bind_ok]
  apply mapM_ok
  intro q _
  have hlen : ((LMlist 0 f.ell_max).length : ℤ) = (f.dat.length : ℤ) := by
    rw [LMlist_length le_rfl (by omega), hf.size, LM_total_size_zero]
  have hslice : ∀ row : List ℂ, row.length = f.dat.length →
      getSlice row (LM_index 0 (-0) 0) (LM_index f.ell_max f.ell_max 0 + 1) = row := by
    intro row hr
    have e1 : LM_index 0 (-0) 0 = 0 := by rw [LM_index_zero]; simp
    have e2 : LM_index f.ell_max f.ell_max 0 + 1 = (row.length : ℤ) := by
      rw [LM_index_zero, hr, hf.size]; ring
    unfold getSlice
    rw [e1, e2]
    simp
  simp only
  rw [hslice _ (by rw [List.length_map]; exact_mod_cast hlen), if_neg (by rw [List.length_map]; push Not; exact_mod_cast hlen)]
  congr 1
  funext idx
  rw [← sum_LMlist]
  congr 1
  apply List.ext_getElem?
  intro k
  rw [List.getElem?_zipWith, List.getElem?_map, List.getElem?_map]
  by_cases hk : k < f.dat.length
  · obtain ⟨ell, m, h0, h1, h2, rfl⟩ := mpos_surj hf.size hge hk
    have := abs_le.mp h2
    have hg := (LMlist_index (a := 0) (b := f.ell_max) le_rfl h0 h1 this.1 this.2).2
    unfold mpos
    rw [hg]
    have := hf.get h2 h1
    unfold mpos at this
    rw [this]
    rfl
  · rw [List.getElem?_eq_none (by omega), List.getElem?_eq_none (by omega)]
    rfl

/-- What `evaluate` returns for arbitrary unit rotors. -/
theorem evaluate_any {L : ℤ} {table : List ℝ} (ht : IsWignerTable L table) (junk : ℕ → ℤ × ℤ) {f : Modes} (hf : f.WF)
    (hL : f.ell_max ≤ L) (qs : List ℍ[ℝ]) (hq : ∀ q ∈ qs, normSq q = 1)
    (hne : qs ≠ [] := by first | assumption | simp) :
    f.evaluate table junk (qs.map comps)
      = .ok (qs.map fun q idx => ∑ ell ∈ Icc 0 f.ell_max, ∑ m ∈ Icc (-ell) ell,
          f.coef ell m idx * Yret (partA q) (partB q) f.s ell m) :=
  evaluate_sized ht junk hf.sized hL qs hq

/-- `evaluate` returns, for every rotor, the values of the function with these mode weights. -/
theorem evaluate_ok {L : ℤ} {table : List ℝ} (ht : IsWignerTable L table) (junk : ℕ → ℤ × ℤ) {f : Modes} (hf : f.WF)
    (hL : f.ell_max ≤ L) (qs : List ℍ[ℝ]) (hq : ∀ q ∈ qs, GenericQ q)
    (hne : qs ≠ [] := by first | assumption | simp) :
    f.evaluate table junk (qs.map comps)
      = .ok (qs.map fun q idx => Spec.fieldValue f.s f.ell_max (fun ell m => f.coef ell m idx) (partA q) (partB q)) := by
  rw [evaluate_any ht junk hf hL qs (fun q h => unitQ.mp (hq q h).1)]
  congr 1
  apply List.map_congr_left
  intro q h
  funext idx
  rw [fieldValue_from_zero]
  simp only [Yret_generic (hq q h)]

theorem fieldValue_congr {s L : ℤ} {c c' : ℤ → ℤ → ℂ} (Ra Rb : ℂ)
    (h : ∀ ell m, |s| ≤ ell → |m| ≤ ell → ell ≤ L → c ell m = c' ell m) :
    Spec.fieldValue s L c Ra Rb = Spec.fieldValue s L c' Ra Rb := by
  unfold Spec.fieldValue
  apply Finset.sum_congr rfl
  intro ell h1
  apply Finset.sum_congr rfl
  intro m h2
  rw [mem_Icc] at h1 h2
  rw [h ell m h1.1 (abs_le.mpr h2) h1.2]

/-- Modes above `ell_max` contribute nothing. -/
theorem fieldValue_extend {s L L' : ℤ} {c : ℤ → ℤ → ℂ} (Ra Rb : ℂ) (hL : L ≤ L')
    (h : ∀ ell m, L < ell → ell ≤ L' → |m| ≤ ell → c ell m = 0) :
    Spec.fieldValue s L c Ra Rb = Spec.fieldValue s L' c Ra Rb := by
  unfold Spec.fieldValue
  apply Finset.sum_subset
  · intro x; simp only [mem_Icc]; omega
  · intro ell h1 h2
    simp only [mem_Icc] at h1 h2
    apply Finset.sum_eq_zero
    intro m hm
    rw [mem_Icc] at hm
    rw [h ell m (by omega) (by omega) (abs_le.mpr hm), zero_mul]

theorem fieldValue_add (s L : ℤ) (c c' : ℤ → ℤ → ℂ) (Ra Rb : ℂ) :
    Spec.fieldValue s L (fun ell m => c ell m + c' ell m) Ra Rb
      = Spec.fieldValue s L c Ra Rb + Spec.fieldValue s L c' Ra Rb := by
  unfold Spec.fieldValue
  simp only [add_mul, Finset.sum_add_distrib]

theorem fieldValue_sub (s L : ℤ) (c c' : ℤ → ℤ → ℂ) (Ra Rb : ℂ) :
    Spec.fieldValue s L (fun ell m => c ell m - c' ell m) Ra Rb
      = Spec.fieldValue s L c Ra Rb - Spec.fieldValue s L c' Ra Rb := by
  unfold Spec.fieldValue
  simp only [sub_mul, Finset.sum_sub_distrib]

theorem fieldValue_smul (s L : ℤ) (a : ℂ) (c : ℤ → ℤ → ℂ) (Ra Rb : ℂ) :
    Spec.fieldValue s L (fun ell m => a * c ell m) Ra Rb = a * Spec.fieldValue s L c Ra Rb := by
  unfold Spec.fieldValue
  simp only [mul_assoc, Finset.mul_sum]

/-- The value that `evaluate` returns at an arbitrary unit rotor. -/
noncomputable def fieldRet (s L : ℤ) (c : ℤ → ℤ → ℂ) (Ra Rb : ℂ) : ℂ :=
  ∑ ell ∈ Icc |s| L, ∑ m ∈ Icc (-ell) ell, c ell m * Yret Ra Rb s ell m

theorem evaluate_ret {L : ℤ} {table : List ℝ} (ht : IsWignerTable L table) (junk : ℕ → ℤ × ℤ) {f : Modes} (hf : f.WF)
    (hL : f.ell_max ≤ L) (qs : List ℍ[ℝ]) (hq : ∀ q ∈ qs, normSq q = 1)
    (hne : qs ≠ [] := by first | assumption | simp) :
    f.evaluate table junk (qs.map comps)
      = .ok (qs.map fun q idx => fieldRet f.s f.ell_max (fun ell m => f.coef ell m idx) (partA q) (partB q)) := by
  rw [evaluate_any ht junk hf hL qs hq]
  congr 1
  apply List.map_congr_left
  intro q h
  funext idx
  unfold fieldRet
  symm
  apply Finset.sum_subset
  · intro x; simp only [mem_Icc]; have := abs_nonneg f.s; omega
  · intro ell h1 h2
    simp only [mem_Icc] at h1 h2
    apply Finset.sum_eq_zero
    intro m _
    unfold Yret
    rw [if_neg (by omega), mul_zero]

theorem fieldRet_congr {s L : ℤ} {c c' : ℤ → ℤ → ℂ} (Ra Rb : ℂ)
    (h : ∀ ell m, |s| ≤ ell → |m| ≤ ell → ell ≤ L → c ell m = c' ell m) :
    fieldRet s L c Ra Rb = fieldRet s L c' Ra Rb := by
  unfold fieldRet
  apply Finset.sum_congr rfl
  intro ell h1
  apply Finset.sum_congr rfl
  intro m h2
  rw [mem_Icc] at h1 h2
  rw [h ell m h1.1 (abs_le.mpr h2) h1.2]

theorem fieldRet_extend {s L L' : ℤ} {c : ℤ → ℤ → ℂ} (Ra Rb : ℂ) (hL : L ≤ L')
    (h : ∀ ell m, L < ell → ell ≤ L' → |m| ≤ ell → c ell m = 0) :
    fieldRet s L c Ra Rb = fieldRet s L' c Ra Rb := by
  unfold fieldRet
  apply Finset.sum_subset
  · intro x; simp only [mem_Icc]; omega
  · intro ell h1 h2
    simp only [mem_Icc] at h1 h2
    apply Finset.sum_eq_zero
    intro m hm
    rw [mem_Icc] at hm
    rw [h ell m (by omega) (by omega) (abs_le.mpr hm), zero_mul]

theorem fieldRet_add (s L : ℤ) (c c' : ℤ → ℤ → ℂ) (Ra Rb : ℂ) :
    fieldRet s L (fun ell m => c ell m + c' ell m) Ra Rb = fieldRet s L c Ra Rb + fieldRet s L c' Ra Rb := by
  unfold fieldRet
  simp only [add_mul, Finset.sum_add_distrib]

theorem fieldRet_sub (s L : ℤ) (c c' : ℤ → ℤ → ℂ) (Ra Rb : ℂ) :
    fieldRet s L (fun ell m => c ell m - c' ell m) Ra Rb = fieldRet s L c Ra Rb - fieldRet s L c' Ra Rb := by
  unfold fieldRet
  simp only [sub_mul, Finset.sum_sub_distrib]

theorem fieldRet_smul (s L : ℤ) (a : ℂ) (c : ℤ → ℤ → ℂ) (Ra Rb : ℂ) :
    fieldRet s L (fun ell m => a * c ell m) Ra Rb = a * fieldRet s L c Ra Rb := by
  unfold fieldRet
  simp only [mul_assoc, Finset.mul_sum]

theorem sum_Icc_neg {M : Type} [AddCommMonoid M] (ell : ℤ) (g : ℤ → M) :
    ∑ m ∈ Icc (-ell) ell, g (-m) = ∑ m ∈ Icc (-ell) ell, g m :=
  Finset.sum_nbij' (fun m => -m) (fun m => -m) (by simp; intros; omega) (by simp; intros; omega) (by simp) (by simp)
    (by simp)

/-- The function with the modes computed by `conjugate` is the conjugate function. -/
theorem fieldValue_conj (s L : ℤ) (c : ℤ → ℤ → ℂ) (Ra Rb : ℂ) :
    Spec.fieldValue (-s) L (fun ell m => (-1 : ℂ) ^ (s + m) * conj (c ell (-m))) Ra Rb
      = conj (Spec.fieldValue s L c Ra Rb) := by
  unfold Spec.fieldValue
  rw [abs_neg, map_sum]
  apply Finset.sum_congr rfl
  intro ell _
  rw [map_sum, ← sum_Icc_neg]
  apply Finset.sum_congr rfl
  intro m _
  simp only
  rw [neg_neg, map_mul, sYlm_conj, show s + -m = s + m - 2 * m by ring, zpow_sub₀ (by norm_num), zpow_mul]
  norm_num
  ring

end SF
