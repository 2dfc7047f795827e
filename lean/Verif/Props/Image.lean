import Verif.Props.Adjoint

/-!
# C103: which functions are images under the operators of `Modes`, and their eigenfunctions
-/

set_option autoImplicit false

namespace SF

open Finset ComplexConjugate

/-- An object with given mode weights. -/
theorem exists_modes (lead : List ℕ) (s L : ℤ) (hL : -1 ≤ L) (c : ℤ → ℤ → Slice) :
    ∃ P : Modes, P.WF ∧ P.lead = lead ∧ P.s = s ∧ P.ell_max = L ∧ ∀ l m, |s| ≤ l → |m| ≤ l → l ≤ L → P.coef l m = c l m := by
  by_cases h0 : L = -1
  · obtain ⟨P, -, h2, h3, h4, h5, -⟩ := remake_ok exModes lead [] s L hL (by rw [h0]; rfl)
    exact ⟨P, h2, h3, h4, h5, fun l m h _ h' => by have := abs_nonneg s; omega⟩
  obtain ⟨P, -, h2, h3, h4, h5, -, h7⟩ := remake_ok exModes lead ((LMlist 0 L).map fun t => c t.1 t.2) s L hL
    (by rw [List.length_map, LMlist_length le_rfl (by omega), LM_total_size_zero])
  refine ⟨P, h2, h3, h4, h5, fun l m k1 k2 k3 => ?_⟩
  have := abs_le.mp k2
  exact coef_of_get (f := P) (ell := l) (m := m) (by
    rw [h7 l m k2 k3, if_pos k1, List.getElem?_map]
    unfold mpos
    rw [(LMlist_index (a := 0) (b := L) le_rfl (by have := abs_nonneg m; omega) k3 this.1 this.2).2]
    rfl)

/-- `T f` has the spin weight, `ell_max`, leading shape and modes of `g`. -/
def Solves (T : Modes → Py Modes) (f g : Modes) : Prop :=
  ∃ f', T f = .ok f' ∧ f'.s = g.s ∧ f'.ell_max = g.ell_max ∧ f'.lead = g.lead ∧
    ∀ l m idx, |m| ≤ l → l ≤ g.ell_max → f'.coef l m idx = g.coef l m idx

theorem image_factor {g : Modes} (hg : g.WF) (s0 : ℤ) (c : ℤ → ℤ → ℂ) (T : Modes → Py Modes)
    (hT : ∀ f : Modes, f.WF → f.s = s0 → ∃ f', T f = .ok f' ∧ OpRes f f' g.s fun l m x => c l m * f.coef l m x)
    (hT' : ∀ f f' : Modes, f.WF → T f = .ok f' → f'.s = g.s → f.s = s0) (K : ℤ → ℤ → Prop)
    (hK : ∀ l m, |m| ≤ l → |g.s| ≤ l → (K l m ↔ c l m = 0 ∨ l < |s0|)) :
    (∃ f : Modes, f.WF ∧ Solves T f g) ↔ ∀ l m idx, |g.s| ≤ l → |m| ≤ l → l ≤ g.ell_max → K l m → g.coef l m idx = 0 := by
  constructor
  · rintro ⟨f, hf, f', e, e1, e2, e3, e4⟩ l m idx h1 h2 h3 h
    have hs := hT' f f' hf e e1
    obtain ⟨_, a1, a2⟩ := hT f hf hs
    obtain rfl := Except.ok.inj (e.symm.trans a1)
    have hL : f.ell_max = g.ell_max := a2.hL.symm.trans e2
    rw [← e4 l m idx h2 h3, a2.coef l m h1 h2 (by omega)]
    rcases (hK l m h2 h1).mp h with k | k
    · simp [k]
    · rw [hf.low l m (by rw [hs]; exact k) h2 (by omega)]; simp
  · intro h
    obtain ⟨f, hf, f1, f2, f3, f4⟩ := exists_modes g.lead s0 g.ell_max hg.ell_max_ge fun l m idx => (c l m)⁻¹ * g.coef l m idx
    obtain ⟨f', a1, a2⟩ := hT f hf f2
    have hL : f'.ell_max = g.ell_max := a2.hL.trans f3
    refine ⟨f, hf, f', a1, a2.hs, hL, a2.lead.trans f1, fun l m idx hm hl => ?_⟩
    by_cases k : |g.s| ≤ l
    · rw [a2.coef l m k hm (by omega)]
      by_cases kK : K l m
      · rw [h l m idx k hm hl kK]
        rcases (hK l m hm k).mp kK with z | z
        · simp [z]
        · rw [hf.low l m (by rw [f2]; exact z) hm (by omega)]; simp
      · have := mt (hK l m hm k).mpr kK
        push_neg at this
        rw [f4 l m this.2 hm hl]
        exact mul_inv_cancel_left₀ this.1 _
    · rw [hg.low l m (by omega) hm hl, a2.wf.low l m (by rw [a2.hs]; omega) hm (by omega)]

/-- The operators of Modes with the modes that their images do not have, for images of spin weight `s`. -/
noncomputable def imageTable (s : ℤ) : List ((Modes → Py Modes) × (ℤ → ℤ → Prop)) :=
  [(Modes.Lz, fun _ m => m = 0), (Modes.Lplus, fun l m => m = -l), (Modes.Lminus, fun l m => m = l), (Modes.Lsquared, fun l _ => l = 0),
    (Modes.eth, fun l _ => l = -s), (Modes.ethbar, fun l _ => l = s)]

/-- **C103 (images).** `T f = g` has a solution `f` exactly if `g` has no modes `m = 0` (`Lz`), `m = -ell` (`Lplus`), `m = ell` (`Lminus`), `ell = 0`
(`Lsquared`), `ell = -s` (`eth`), `ell = s` (`ethbar`), where `s` is the spin weight of `g`. -/
theorem C103_image (g : Modes) (hg : g.WF) (T : Modes → Py Modes) (K : ℤ → ℤ → Prop) (hT : (T, K) ∈ imageTable g.s) :
    (∃ f : Modes, f.WF ∧ Solves T f g) ↔ ∀ l m idx, |m| ≤ l → l ≤ g.ell_max → K l m → g.coef l m idx = 0 := by
  have low : (∀ l m idx, |g.s| ≤ l → |m| ≤ l → l ≤ g.ell_max → K l m → g.coef l m idx = 0)
      ↔ ∀ l m idx, |m| ≤ l → l ≤ g.ell_max → K l m → g.coef l m idx = 0 := by
    constructor
    · intro h l m idx h1 h2 h3
      by_cases k : |g.s| ≤ l
      · exact h l m idx k h1 h2 h3
      · rw [hg.low l m (by omega) h1 h2]
    · exact fun h l m idx _ h1 h2 h3 => h l m idx h1 h2 h3
  rw [← low]
  have isq0 : ∀ {n : ℤ}, 0 ≤ n → (isqrtC n = 0 ↔ n = 0) := by
    intro n h
    constructor
    · intro h'
      by_contra hn
      exact isqrtC_ne (by omega) h'
    · rintro rfl; simp [isqrtC]
  simp only [imageTable, List.mem_cons, List.not_mem_nil, or_false, Prod.mk.injEq] at hT
  rcases hT with ⟨rfl, rfl⟩ | ⟨rfl, rfl⟩ | ⟨rfl, rfl⟩ | ⟨rfl, rfl⟩ | ⟨rfl, rfl⟩ | ⟨rfl, rfl⟩
  · refine image_factor hg g.s (fun _ m => (m : ℂ)) _ (fun f hf hs => ?_) (fun f f' hf e hs => ?_) _ fun l m h1 h2 => ?_
    · obtain ⟨f', a1, a2⟩ := Lz_ok hf
      exact ⟨f', a1, hs ▸ a2⟩
    · obtain ⟨_, a1, a2⟩ := Lz_ok hf
      obtain rfl := Except.ok.inj (e.symm.trans a1)
      rw [← hs, a2.hs]
    · simp only [Int.cast_eq_zero]; omega
  · constructor
    · rintro ⟨f, hf, f', e, e1, e2, e3, e4⟩ l m idx h1 h2 h3 h
      obtain ⟨_, a1, a2⟩ := Lplus_ok hf
      obtain rfl := Except.ok.inj (e.symm.trans a1)
      rw [← e4 l m idx h2 h3, a2.coef l m (by rw [← a2.hs, e1]; exact h1) h2 (by rw [← a2.hL, e2]; exact h3)]
      beta_reduce
      rw [if_pos h]
    · intro h
      obtain ⟨f, hf, f1, f2, f3, f4⟩ := exists_modes g.lead g.s g.ell_max hg.ell_max_ge
        fun l m idx => (isqrtC ((l + (m + 1)) * (l - (m + 1) + 1)))⁻¹ * g.coef l (m + 1) idx
      obtain ⟨f', a1, a2⟩ := Lplus_ok hf
      have hL : f'.ell_max = g.ell_max := a2.hL.trans f3
      refine ⟨f, hf, f', a1, a2.hs.trans f2, hL, a2.lead.trans f1, fun l m idx hm hl => ?_⟩
      by_cases k : |g.s| ≤ l
      · have hm' := abs_le.mp hm
        rw [a2.coef l m (by rwa [f2]) hm (by omega)]
        beta_reduce
        by_cases kK : m = -l
        · rw [if_pos kK, h l m idx k hm hl kK]
        · rw [if_neg kK, f4 l (m - 1) k (abs_le.mpr (by omega)) hl]; beta_reduce; rw [sub_add_cancel, mul_inv_cancel_left₀ (isqrtC_ne (mul_pos (by omega) (by omega)))]
      · rw [hg.low l m (by omega) hm hl, a2.wf.low l m (by rw [a2.hs, f2]; omega) hm (by omega)]
  · constructor
    · rintro ⟨f, hf, f', e, e1, e2, e3, e4⟩ l m idx h1 h2 h3 h
      obtain ⟨_, a1, a2⟩ := Lminus_ok hf
      obtain rfl := Except.ok.inj (e.symm.trans a1)
      rw [← e4 l m idx h2 h3, a2.coef l m (by rw [← a2.hs, e1]; exact h1) h2 (by rw [← a2.hL, e2]; exact h3)]
      beta_reduce
      rw [if_pos h]
    · intro h
      obtain ⟨f, hf, f1, f2, f3, f4⟩ := exists_modes g.lead g.s g.ell_max hg.ell_max_ge
        fun l m idx => (isqrtC ((l - (m - 1)) * (l + (m - 1) + 1)))⁻¹ * g.coef l (m - 1) idx
      obtain ⟨f', a1, a2⟩ := Lminus_ok hf
      have hL : f'.ell_max = g.ell_max := a2.hL.trans f3
      refine ⟨f, hf, f', a1, a2.hs.trans f2, hL, a2.lead.trans f1, fun l m idx hm hl => ?_⟩
      by_cases k : |g.s| ≤ l
      · have hm' := abs_le.mp hm
        rw [a2.coef l m (by rwa [f2]) hm (by omega)]
        beta_reduce
        by_cases kK : m = l
        · rw [if_pos kK, h l m idx k hm hl kK]
        · rw [if_neg kK, f4 l (m + 1) k (abs_le.mpr (by omega)) hl]; beta_reduce; rw [add_sub_cancel_right, mul_inv_cancel_left₀ (isqrtC_ne (mul_pos (by omega) (by omega)))]
      · rw [hg.low l m (by omega) hm hl, a2.wf.low l m (by rw [a2.hs, f2]; omega) hm (by omega)]
  · refine image_factor hg g.s (fun l _ => ((l * (l + 1) : ℤ) : ℂ)) _ (fun f hf hs => ?_) (fun f f' hf e hs => ?_) _ fun l m h1 h2 => ?_
    · obtain ⟨f', a1, a2⟩ := Lsquared_ok hf
      exact ⟨f', a1, hs ▸ a2⟩
    · obtain ⟨_, a1, a2⟩ := Lsquared_ok hf
      obtain rfl := Except.ok.inj (e.symm.trans a1)
      rw [← hs, a2.hs]
    · have h0 := (abs_nonneg _).trans h1
      simp only [Int.cast_eq_zero, mul_eq_zero]; omega
  · refine image_factor hg (g.s - 1) (fun l _ => isqrtC ((l + g.s) * (l - g.s + 1))) _ (fun f hf hs => ?_) (fun f f' hf e hs => ?_) _
      fun l m h1 h2 => ?_
    · obtain ⟨f', a1, a2⟩ := Rminus_ok hf
      simp only [hs, sub_add_cancel] at a2
      exact ⟨f', a1, a2⟩
    · obtain ⟨_, a1, a2⟩ := Rminus_ok hf
      obtain rfl := Except.ok.inj (e.symm.trans a1)
      rw [← hs, a2.hs]; ring
    · have k := abs_le.mp h2
      rw [isq0 (mul_nonneg (by omega) (by omega)), mul_eq_zero]
      have := abs_cases (g.s - 1)
      omega
  · refine image_factor hg (g.s + 1) (fun l _ => -isqrtC ((l - g.s) * (l + g.s + 1))) _ (fun f hf hs => ?_) (fun f f' hf e hs => ?_) _
      fun l m h1 h2 => ?_
    · obtain ⟨f', a1, a2⟩ := ethbar_ok hf
      simp only [hs, add_sub_cancel_right] at a2
      refine ⟨f', a1, a2.wf, a2.lead, a2.hs, a2.hL, a2.trunc, fun l m x y z => ?_⟩
      rw [a2.coef l m x y z]
      funext w
      rw [neg_mul]
    · obtain ⟨_, a1, a2⟩ := ethbar_ok hf
      obtain rfl := Except.ok.inj (e.symm.trans a1)
      rw [← hs, a2.hs]; ring
    · have k := abs_le.mp h2
      rw [neg_eq_zero, isq0 (mul_nonneg (by omega) (by omega)), mul_eq_zero]
      have := abs_cases (g.s + 1)
      omega

/-- `T f = z f` at the leading index `idx`. -/
def EigenAt (T : Modes → Py Modes) (f : Modes) (z : ℂ) (idx : MIdx) : Prop :=
  ∃ f', T f = .ok f' ∧ ∀ l m, |m| ≤ l → l ≤ f.ell_max → f'.coef l m idx = z * f.coef l m idx

/-- **C103 (eigenfunctions).** `f` is an eigenfunction of `Lsquared` and of `Lz`, with eigenvalues `l (l+1)` and `m`, exactly if it has no other mode than
`(l, m)`; an eigenfunction that is not zero has eigenvalues of this form. -/
theorem C103_eigenfunctions (f : Modes) (hf : f.WF) (idx : MIdx) :
    (∀ l m : ℤ, 0 ≤ l → (EigenAt Modes.Lsquared f ((l * (l + 1) : ℤ) : ℂ) idx ∧ EigenAt Modes.Lz f (m : ℂ) idx
      ↔ ∀ l' m', |m'| ≤ l' → l' ≤ f.ell_max → (l', m') ≠ (l, m) → f.coef l' m' idx = 0)) ∧
    (∀ z w : ℂ, EigenAt Modes.Lsquared f z idx → EigenAt Modes.Lz f w idx → ¬ IsZeroAt f idx →
      ∃ l m : ℤ, |f.s| ≤ l ∧ |m| ≤ l ∧ l ≤ f.ell_max ∧ z = ((l * (l + 1) : ℤ) : ℂ) ∧ w = (m : ℂ) ∧ f.coef l m idx ≠ 0) := by
  obtain ⟨a, a1, a2⟩ := Lsquared_ok hf
  obtain ⟨b, b1, b2⟩ := Lz_ok hf
  have low : ∀ l m, l < |f.s| → |m| ≤ l → l ≤ f.ell_max → f.coef l m idx = 0 := fun l m h1 h2 h3 => by rw [hf.low l m h1 h2 h3]
  have ea : ∀ z, EigenAt Modes.Lsquared f z idx ↔ ∀ l m : ℤ, |m| ≤ l → l ≤ f.ell_max → f.coef l m idx = 0 ∨ z = ((l * (l + 1) : ℤ) : ℂ) := by
    intro z
    constructor
    · rintro ⟨f', e, h⟩ l m h1 h2
      obtain rfl := Except.ok.inj (e.symm.trans a1)
      by_cases k : |f.s| ≤ l
      · have := h l m h1 h2
        rw [a2.coef l m k h1 h2] at this
        by_cases c : f.coef l m idx = 0
        · exact Or.inl c
        · exact Or.inr (mul_right_cancel₀ c this).symm
      · exact Or.inl (low l m (by omega) h1 h2)
    · intro h
      refine ⟨a, a1, fun l m h1 h2 => ?_⟩
      by_cases k : |f.s| ≤ l
      · rw [a2.coef l m k h1 h2]
        beta_reduce
        rcases h l m h1 h2 with c | c
        · rw [c, mul_zero, mul_zero]
        · rw [c]
      · rw [low l m (by omega) h1 h2, a2.wf.low l m (by rw [a2.hs]; omega) h1 (by rw [a2.hL]; exact h2), mul_zero]
  have eb : ∀ z, EigenAt Modes.Lz f z idx ↔ ∀ l m : ℤ, |m| ≤ l → l ≤ f.ell_max → f.coef l m idx = 0 ∨ z = (m : ℂ) := by
    intro z
    constructor
    · rintro ⟨f', e, h⟩ l m h1 h2
      obtain rfl := Except.ok.inj (e.symm.trans b1)
      by_cases k : |f.s| ≤ l
      · have := h l m h1 h2
        rw [b2.coef l m k h1 h2] at this
        by_cases c : f.coef l m idx = 0
        · exact Or.inl c
        · exact Or.inr (mul_right_cancel₀ c this).symm
      · exact Or.inl (low l m (by omega) h1 h2)
    · intro h
      refine ⟨b, b1, fun l m h1 h2 => ?_⟩
      by_cases k : |f.s| ≤ l
      · rw [b2.coef l m k h1 h2]
        beta_reduce
        rcases h l m h1 h2 with c | c
        · rw [c, mul_zero, mul_zero]
        · rw [c]
      · rw [low l m (by omega) h1 h2, b2.wf.low l m (by rw [b2.hs]; omega) h1 (by rw [b2.hL]; exact h2), mul_zero]
  constructor
  · intro l m hl
    rw [ea, eb]
    constructor
    · rintro ⟨h1, h2⟩ l' m' hm' hl' hne
      rcases h1 l' m' hm' hl' with c | c
      · exact c
      rcases h2 l' m' hm' hl' with d | d
      · exact d
      have c' : l * (l + 1) = l' * (l' + 1) := by exact_mod_cast c
      have d' : m = m' := by exact_mod_cast d
      have h0 := (abs_nonneg _).trans hm'
      have : l = l' := by
        rcases lt_trichotomy l l' with k | k | k
        · nlinarith
        · exact k
        · nlinarith
      exact absurd (by rw [this, d']) hne
    · intro h
      constructor
      · intro l' m' h1 h2
        by_cases k : (l', m') = (l, m)
        · right; rw [(Prod.mk.inj k).1]
        · exact Or.inl (h l' m' h1 h2 k)
      · intro l' m' h1 h2
        by_cases k : (l', m') = (l, m)
        · right; rw [(Prod.mk.inj k).2]
        · exact Or.inl (h l' m' h1 h2 k)
  · intro z w h1 h2 h3
    unfold IsZeroAt at h3
    push_neg at h3
    obtain ⟨l, m, hm, hl, hne⟩ := h3
    refine ⟨l, m, ?_, hm, hl, ((ea z).mp h1 l m hm hl).resolve_left hne, ((eb w).mp h2 l m hm hl).resolve_left hne, hne⟩
    by_contra k
    exact hne (low l m (by omega) hm hl)

/-! ## Concrete cases -/

/-- The sample object of spin weight -1 is an image under `Lsquared`, but not under `eth`, because of its modes with `ell = 1`. -/
example : (∃ f : Modes, f.WF ∧ Solves Modes.Lsquared f exModes) ∧ ¬ ∃ f : Modes, f.WF ∧ Solves Modes.eth f exModes := by
  constructor
  · refine (C103_image exModes exModes_WF Modes.Lsquared (fun l _ => l = 0) (by simp [imageTable])).mpr fun l m idx hm hl h => ?_
    rw [exModes_WF.low l m (by rw [h]; decide) hm hl]
  · intro h
    have := (C103_image exModes exModes_WF Modes.eth (fun l _ => l = -exModes.s) (by simp [imageTable])).mp h 1 0 [0] (by norm_num) (by decide) rfl
    have h2 : exModes.coef 1 0 [0] = 2 * Complex.I := by
      have : mpos 1 0 = 2 := by unfold mpos; norm_num [LM_index]; rfl
      unfold Modes.coef
      rw [this]
      simp [exModes]
      norm_num
    rw [h2] at this
    exact (mul_ne_zero (by norm_num) Complex.I_ne_zero) this

/-- A function of spin weight -2 with the only mode `(3, 1)`. -/
example : ∃ f : Modes, f.WF ∧ f.s = -2 ∧ f.ell_max = 4 ∧ ¬ IsZeroAt f [] ∧ EigenAt Modes.Lsquared f ((3 * (3 + 1) : ℤ) : ℂ) [] ∧ EigenAt Modes.Lz f ((1 : ℤ) : ℂ) [] := by
  obtain ⟨f, hf, -, f2, f3, f4⟩ := exists_modes [] (-2) 4 (by norm_num) fun l m _ => if (l, m) = (3, 1) then 5 else 0
  have := ((C103_eigenfunctions f hf []).1 3 1 (by norm_num)).mpr fun l m hm hl hne => by
    rw [f3] at hl
    by_cases k : |(-2 : ℤ)| ≤ l
    · rw [f4 l m k hm hl]; beta_reduce; rw [if_neg hne]
    · rw [hf.low l m (by rw [f2]; omega) hm (by rw [f3]; exact hl)]
  refine ⟨f, hf, f2, f3, fun h => ?_, this.1, this.2⟩
  have h31 := h 3 1 (by norm_num) (by rw [f3]; norm_num)
  rw [f4 3 1 (by norm_num) (by norm_num) (by norm_num)] at h31
  norm_num at h31

end SF
