import Verif.Props.Sphere

/-!
# C99: rotating a field with the matrices of `Wigner_D_matrices`

The package has no working function that rotates a `Modes` object (C66).  A user rotates the modes with the flat array returned by
`Wigner_D_matrices(R, 0, f.ell_max)`, addressed by `LMpM_index(ell, m', m, 0)`:

    new[LM_index(ell, m, 0)] = sum(f[ell, n] * D[LMpM_index(ell, n, m, 0)] for n in range(-ell, ell+1))

`RotatedBy D f g` says that `g` is the result of this computation.
-/

set_option autoImplicit false

namespace SF

open Finset ComplexConjugate Quaternion

/-- `g` has the modes of `f` multiplied, at each `ell`, by the matrix stored in the flat array `D` in the layout of
`LMpM_index(·, ·, ·, 0)`: `g(ell, m) = Σ_n f(ell, n) D[LMpM_index(ell, n, m, 0)]`; everything else is the same. -/
structure RotatedBy (D : List ℂ) (f g : Modes) : Prop where
  wf : g.WF
  lead : g.lead = f.lead
  s : g.s = f.s
  ell_max : g.ell_max = f.ell_max
  trunc : g.trunc = f.trunc
  coef : ∀ (l m : ℤ) (idx : MIdx), |m| ≤ l → l ≤ f.ell_max →
    g.coef l m idx = ∑ n ∈ Icc (-l) l, f.coef l n idx * D.getD (LMpM_index l n m 0).toNat 0

/-- `D` is what `Wigner_D_matrices(p, 0, ell_max)` returns for the unit rotor `p`. -/
def IsRotationArray (table : List ℝ) (p : ℍ[ℝ]) (ell_max : ℤ) (D : List ℂ) : Prop :=
  ∃ junk : ℕ → ℂ, Wigner_D_matrices table junk (partA p) (partB p) ((0 : ℤ) : ℚ) (ell_max : ℚ) = .ok D

/-- The entries of the array. -/
theorem rotArray_entry {L : ℤ} {table : List ℝ} (ht : IsWignerTable L table) {p : ℍ[ℝ]} (hp : GenericQ p) {M : ℤ} (hM : M ≤ L)
    {D : List ℂ} (hD : IsRotationArray table p M D) {l n m : ℤ} (hl : l ≤ M) (hn : |n| ≤ l) (hm : |m| ≤ l) :
    D.getD (LMpM_index l n m 0).toNat 0 = Spec.wignerD (partA p) (partB p) (2 * l) (2 * n) (2 * m) := by
  obtain ⟨junk, hD⟩ := hD
  have h0 : 0 ≤ l := (abs_nonneg _).trans hm
  obtain ⟨out, e1, -, e3⟩ := C16_Wigner_D_matrices ht junk p (unitQ.mp hp.1) 0 M le_rfl (by omega) hM
  rw [hD] at e1
  injection e1 with e1
  subst e1
  obtain ⟨v, v1, -, -, v4⟩ := e3 l n m h0 hl hn hm
  rw [List.getD_eq_getElem?_getD, v1, Option.getD_some, v4 hp]

theorem RotatedBy.spec {L : ℤ} {table : List ℝ} (ht : IsWignerTable L table) {p : ℍ[ℝ]} (hp : GenericQ p) {f g : Modes}
    (hM : f.ell_max ≤ L) {D : List ℂ} (hD : IsRotationArray table p f.ell_max D) (h : RotatedBy D f g) {l m : ℤ} (idx : MIdx)
    (hm : |m| ≤ l) (hl : l ≤ f.ell_max) :
    g.coef l m idx = ∑ n ∈ Icc (-l) l, f.coef l n idx * Spec.wignerD (partA p) (partB p) (2 * l) (2 * n) (2 * m) := by
  rw [h.coef l m idx hm hl]
  apply Finset.sum_congr rfl
  intro n hn
  rw [mem_Icc] at hn
  rw [rotArray_entry ht hp hM hD hl (abs_le.mpr hn) hm]

/-- It is enough to look at `ell ≥ |s|`. -/
theorem RotatedBy.of_high {D : List ℂ} {f g : Modes} (hf : f.WF) (hg : g.WF) (h1 : g.lead = f.lead) (h2 : g.s = f.s)
    (h3 : g.ell_max = f.ell_max) (h4 : g.trunc = f.trunc)
    (h : ∀ (l m : ℤ) (idx : MIdx), |f.s| ≤ l → |m| ≤ l → l ≤ f.ell_max →
      g.coef l m idx = ∑ n ∈ Icc (-l) l, f.coef l n idx * D.getD (LMpM_index l n m 0).toNat 0) : RotatedBy D f g := by
  refine ⟨hg, h1, h2, h3, h4, fun l m idx hm hl => ?_⟩
  by_cases hs : |f.s| ≤ l
  · exact h l m idx hs hm hl
  · rw [hg.low l m (by rw [h2]; omega) hm (by rw [h3]; exact hl)]
    symm
    apply Finset.sum_eq_zero
    intro n hn
    rw [mem_Icc] at hn
    rw [hf.low l n (by omega) (abs_le.mpr hn) hl, zero_mul]

/-- **C99 (existence).** For every rotor and every object within the table the array exists, building the object from the
products succeeds, and the result is the only one. -/
theorem C99_exists {L : ℤ} {table : List ℝ} (ht : IsWignerTable L table) (p : ℍ[ℝ]) (hp : normSq p = 1) (f : Modes) (hf : f.WF)
    (hL : f.ell_max ≤ L) :
    ∃ D, IsRotationArray table p f.ell_max D ∧ ∃ g, f.remake f.lead ((LMlist 0 f.ell_max).map fun t idx =>
        ∑ n ∈ Icc (-t.1) t.1, f.coef t.1 n idx * D.getD (LMpM_index t.1 n t.2 0).toNat 0) f.s f.ell_max = .ok g ∧
      RotatedBy D f g ∧ ∀ g', RotatedBy D f g' → g' = g := by
  have hge := hf.ell_max_ge
  obtain ⟨D, e1, -, -⟩ := C16_Wigner_D_matrices ht (fun _ => 0) p hp 0 f.ell_max le_rfl (by omega) hL
  refine ⟨D, ⟨_, e1⟩, ?_⟩
  have hlen : ((LMlist 0 f.ell_max).length : ℤ) = (f.ell_max + 1) ^ 2 := by
    rw [LMlist_length le_rfl (by omega), LM_total_size_zero]
  obtain ⟨g, h1, h2, h3, h4, h5, h6, h7⟩ := remake_ok f f.lead ((LMlist 0 f.ell_max).map fun t idx =>
    ∑ n ∈ Icc (-t.1) t.1, f.coef t.1 n idx * D.getD (LMpM_index t.1 n t.2 0).toNat 0) f.s f.ell_max hge
    (by rw [List.length_map]; exact hlen)
  have hr : RotatedBy D f g := by
    apply RotatedBy.of_high hf h2 h3 h4 h5 h6
    intro l m idx k1 k2 k3
    have := abs_le.mp k2
    have := coef_of_get (f := g) (ell := l) (m := m) (v := fun idx =>
      ∑ n ∈ Icc (-l) l, f.coef l n idx * D.getD (LMpM_index l n m 0).toNat 0) (by
        rw [h7 l m k2 k3, if_pos k1, List.getElem?_map]
        unfold mpos
        rw [(LMlist_index (a := 0) (b := f.ell_max) le_rfl (by have := abs_nonneg m; omega) k3 this.1 this.2).2]
        rfl)
    rw [this]
  refine ⟨g, h1, hr, fun g' hg' => ?_⟩
  apply hg'.wf.ext h2 (hg'.lead.trans h3.symm) (hg'.s.trans h4.symm) (hg'.ell_max.trans h5.symm) (hg'.trunc.trans h6.symm)
  intro l m _ k2 k3
  rw [hg'.ell_max] at k2
  funext idx
  rw [hg'.coef l m idx k3 k2, hr.coef l m idx k3 k2]

/-- **C99 (the rotated field).** Evaluating the rotated object at rotors `q` gives what evaluating `f` at `p q` gives. -/
theorem C99_evaluate {L : ℤ} {table : List ℝ} (ht : IsWignerTable L table) (junk : ℕ → ℤ × ℤ) (p : ℍ[ℝ]) (hp : GenericQ p)
    (f g : Modes) (hf : f.WF) (hL : f.ell_max ≤ L) (D : List ℂ) (hD : IsRotationArray table p f.ell_max D) (h : RotatedBy D f g)
    (qs : List ℍ[ℝ]) (hne : qs ≠ []) (hq : ∀ q ∈ qs, GenericQ q ∧ GenericQ (p * q)) :
    ∃ v, g.evaluate table junk (qs.map comps) = .ok v ∧ f.evaluate table junk ((qs.map fun q => p * q).map comps) = .ok v := by
  refine ⟨_, evaluate_ok ht junk h.wf (by rw [h.ell_max]; exact hL) qs (fun q hm => (hq q hm).1) hne, ?_⟩
  rw [evaluate_ok ht junk hf hL (qs.map fun q => p * q) (by
    intro q hm
    rw [List.mem_map] at hm
    obtain ⟨r, hr, rfl⟩ := hm
    exact (hq r hr).2) (by simpa using hne), List.map_map]
  congr 1
  apply List.map_congr_left
  intro q _
  funext idx
  simp only [Function.comp]
  rw [h.s, h.ell_max]
  symm
  exact rotate_field p q fun l m _ hm hl => h.spec ht hp hL hD idx hm hl

/-- **C99 (norm).** The norm is unchanged. -/
theorem C99_norm {L : ℤ} {table : List ℝ} (ht : IsWignerTable L table) (p : ℍ[ℝ]) (hp : GenericQ p)
    (f g : Modes) (hf : f.WF) (hL : f.ell_max ≤ L) (D : List ℂ) (hD : IsRotationArray table p f.ell_max D) (h : RotatedBy D f g)
    (idx : MIdx) : g.norm idx = f.norm idx := by
  rw [norm_eq hf, norm_eq h.wf, h.s, h.ell_max,
    rotate_norm p hp.1 (c := fun l m => f.coef l m idx) fun l m _ hm hl => h.spec ht hp hL hD idx hm hl]

theorem wD_mul_Icc (a1 b1 a2 b2 : ℂ) {l : ℤ} {n m : ℤ} (hn : |n| ≤ l) (hm : |m| ≤ l) :
    ∑ k ∈ Icc (-l) l, Spec.wignerD a1 b1 (2 * l) (2 * n) (2 * k) * Spec.wignerD a2 b2 (2 * l) (2 * k) (2 * m)
      = Spec.wignerD (a1 * a2 - conj b1 * b2) (conj a1 * b2 + b1 * a2) (2 * l) (2 * n) (2 * m) := by
  obtain ⟨l, rfl⟩ := Int.eq_ofNat_of_zero_le ((abs_nonneg _).trans hn)
  have u := wignerD_mul a1 b1 a2 b2 (n := 2 * l) (mp := 2 * n) (m := 2 * m) (by push_cast; exact validD_int hn hm)
  rw [sum_Icc_range l fun k => Spec.wignerD a1 b1 (2 * l) (2 * n) (2 * k) * Spec.wignerD a2 b2 (2 * l) (2 * k) (2 * m)]
  push_cast at u
  rw [← u]
  apply Finset.sum_congr rfl
  intro k _
  rw [mul_sub]

/-- **C99 (composition).** Rotating by `p` and then by `q` is rotating by `p q`. -/
theorem C99_compose {L : ℤ} {table : List ℝ} (ht : IsWignerTable L table) (p q : ℍ[ℝ]) (hp : GenericQ p) (hq : GenericQ q)
    (hpq : GenericQ (p * q)) (f g k : Modes) (hL : f.ell_max ≤ L) (D E DE : List ℂ)
    (hD : IsRotationArray table p f.ell_max D) (hE : IsRotationArray table q f.ell_max E)
    (hDE : IsRotationArray table (p * q) f.ell_max DE) (h1 : RotatedBy D f g) (h2 : RotatedBy E g k) : RotatedBy DE f k := by
  refine ⟨h2.wf, h2.lead.trans h1.lead, h2.s.trans h1.s, h2.ell_max.trans h1.ell_max, h2.trunc.trans h1.trunc, ?_⟩
  intro l m idx hm hl
  rw [h2.spec ht hq (by rw [h1.ell_max]; exact hL) (by rw [h1.ell_max]; exact hE) idx hm (by rw [h1.ell_max]; exact hl)]
  have e1 : ∀ n ∈ Icc (-l) l, g.coef l n idx * Spec.wignerD (partA q) (partB q) (2 * l) (2 * n) (2 * m)
      = ∑ j ∈ Icc (-l) l, f.coef l j idx * (Spec.wignerD (partA p) (partB p) (2 * l) (2 * j) (2 * n) *
          Spec.wignerD (partA q) (partB q) (2 * l) (2 * n) (2 * m)) := by
    intro n hn
    rw [mem_Icc] at hn
    rw [h1.spec ht hp hL hD idx (abs_le.mpr hn) hl, Finset.sum_mul]
    apply Finset.sum_congr rfl
    intro j _
    ring
  rw [Finset.sum_congr rfl e1, Finset.sum_comm]
  apply Finset.sum_congr rfl
  intro j hj
  rw [mem_Icc] at hj
  rw [← Finset.mul_sum, wD_mul_Icc _ _ _ _ (abs_le.mpr hj) hm, rotArray_entry ht hpq hL hDE hl (abs_le.mpr hj) hm, partA_mul, partB_mul]

/-- **C99 (inverse).** Rotating by `p` and then by the inverse rotor gives back exactly `f`. -/
theorem C99_inverse {L : ℤ} {table : List ℝ} (ht : IsWignerTable L table) (p : ℍ[ℝ]) (hp : GenericQ p)
    (f g k : Modes) (hf : f.WF) (hL : f.ell_max ≤ L) (D E : List ℂ)
    (hD : IsRotationArray table p f.ell_max D) (hE : IsRotationArray table p⁻¹ f.ell_max E)
    (h1 : RotatedBy D f g) (h2 : RotatedBy E g k) : k = f := by
  rw [unit_inv (unitQ.mp hp.1)] at hE
  apply h2.wf.ext hf (h2.lead.trans h1.lead) (h2.s.trans h1.s) (h2.ell_max.trans h1.ell_max) (h2.trunc.trans h1.trunc)
  intro l m _ hl hm
  rw [h2.ell_max, h1.ell_max] at hl
  funext idx
  rw [h2.spec ht hp.star (by rw [h1.ell_max]; exact hL) (by rw [h1.ell_max]; exact hE) idx hm (by rw [h1.ell_max]; exact hl)]
  have e1 : ∀ n ∈ Icc (-l) l, g.coef l n idx * Spec.wignerD (partA (star p)) (partB (star p)) (2 * l) (2 * n) (2 * m)
      = ∑ j ∈ Icc (-l) l, f.coef l j idx * (Spec.wignerD (partA p) (partB p) (2 * l) (2 * j) (2 * n) *
          conj (Spec.wignerD (partA p) (partB p) (2 * l) (2 * m) (2 * n))) := by
    intro n hn
    rw [mem_Icc] at hn
    rw [h1.spec ht hp hL hD idx (abs_le.mpr hn) hl, Finset.sum_mul, partA_star, partB_star, wD_inv' _ _ (validD_int (abs_le.mpr hn) hm)]
    apply Finset.sum_congr rfl
    intro j _
    ring
  rw [Finset.sum_congr rfl e1, Finset.sum_comm]
  obtain ⟨l, rfl⟩ := Int.eq_ofNat_of_zero_le ((abs_nonneg _).trans hm)
  have hmem : m ∈ Icc (-(l : ℤ)) l := mem_Icc.mpr (abs_le.mp hm)
  rw [Finset.sum_eq_single m]
  · rw [← Finset.mul_sum]
    rw [wD_unitary_Icc hp.1 hm hm, if_pos rfl, mul_one]
  · intro j hj hne
    rw [mem_Icc] at hj
    rw [← Finset.mul_sum, wD_unitary_Icc hp.1 (abs_le.mpr hj) hm, if_neg hne, mul_zero]
  · intro hno
    exact absurd hmem hno

/-- An operation that multiplies the modes by a factor depending on `ell` only commutes with every `RotatedBy`. -/
theorem RotatedBy.factor {D : List ℂ} {f g f' g' : Modes} (h : RotatedBy D f g) {t : ℤ} {c : ℤ → ℂ}
    (e1 : OpRes f f' t fun l m x => c l * f.coef l m x) (e2 : OpRes g g' t fun l m x => c l * g.coef l m x) : RotatedBy D f' g' := by
  refine RotatedBy.of_high e1.wf e2.wf ?_ ?_ ?_ ?_ ?_
  · rw [e2.lead, e1.lead, h.lead]
  · rw [e2.hs, e1.hs]
  · rw [e2.hL, e1.hL, h.ell_max]
  · rw [e2.trunc, e1.trunc, h.trunc]
  · intro l m idx hs hm hl
    rw [e1.hs] at hs
    rw [e1.hL] at hl
    rw [e2.coef l m hs hm (by rw [h.ell_max]; exact hl)]
    simp only []
    rw [h.coef l m idx hm hl, Finset.mul_sum]
    apply Finset.sum_congr rfl
    intro n hn
    rw [mem_Icc] at hn
    rw [e1.coef l n hs (abs_le.mpr hn) hl, mul_assoc]

/-- **C99 (operators).** The operators that act on the spin — `Rz`, `R+`, `R-`, `eth`, `ethbar` — and `L²` commute with the rotation:
all of them succeed, and applying one to the rotated object gives the rotated image. -/
theorem C99_operators {D : List ℂ} {f g : Modes} (hf : f.WF) (h : RotatedBy D f g) :
    (∃ f' g', f.Lsquared = .ok f' ∧ g.Lsquared = .ok g' ∧ RotatedBy D f' g') ∧
    (∃ f' g', f.Rz = .ok f' ∧ g.Rz = .ok g' ∧ RotatedBy D f' g') ∧
    (∃ f' g', f.Rplus = .ok f' ∧ g.Rplus = .ok g' ∧ RotatedBy D f' g') ∧
    (∃ f' g', f.Rminus = .ok f' ∧ g.Rminus = .ok g' ∧ RotatedBy D f' g') ∧
    (∃ f' g', f.eth = .ok f' ∧ g.eth = .ok g' ∧ RotatedBy D f' g') ∧
    (∃ f' g', f.ethbar = .ok f' ∧ g.ethbar = .ok g' ∧ RotatedBy D f' g') := by
  have hg := h.wf
  have key : ∀ {F : Modes → Py Modes} {t : ℤ} {c : ℤ → ℂ},
      (∃ f', F f = .ok f' ∧ OpRes f f' t fun l m x => c l * f.coef l m x) →
      (∃ g', F g = .ok g' ∧ OpRes g g' t fun l m x => c l * g.coef l m x) →
      ∃ f' g', F f = .ok f' ∧ F g = .ok g' ∧ RotatedBy D f' g' := by
    rintro F t c ⟨f', a1, a2⟩ ⟨g', b1, b2⟩
    exact ⟨f', g', a1, b1, h.factor a2 b2⟩
  refine ⟨key (F := Modes.Lsquared) (Lsquared_ok hf) (by simpa only [h.s] using Lsquared_ok hg),
    key (F := Modes.Rz) (c := fun _ => -(f.s : ℂ)) (Rz_ok hf) (by simpa only [h.s] using Rz_ok hg),
    key (F := Modes.Rplus) (Rplus_ok hf) (by simpa only [h.s] using Rplus_ok hg),
    key (F := Modes.Rminus) (Rminus_ok hf) (by simpa only [h.s] using Rminus_ok hg),
    key (F := Modes.eth) (Rminus_ok hf) (by simpa only [h.s, Modes.eth] using Rminus_ok hg), ?_⟩
  have n1 := ethbar_ok hf
  have n2 := ethbar_ok hg
  simp only [← neg_mul, h.s] at n1 n2
  exact key (F := Modes.ethbar) (c := fun ell => -isqrtC ((ell - (f.s - 1)) * (ell + (f.s - 1) + 1))) n1 n2

/-- **C99 (conjugation).** The conjugate of the rotated object is the rotated conjugate. -/
theorem C99_conjugate {L : ℤ} {table : List ℝ} (ht : IsWignerTable L table) (p : ℍ[ℝ]) (hp : GenericQ p)
    (f g : Modes) (hf : f.WF) (hL : f.ell_max ≤ L) (D : List ℂ) (hD : IsRotationArray table p f.ell_max D) (h : RotatedBy D f g)
    (inplace : Bool) : ∃ f' g', f.conjugate inplace = .ok f' ∧ g.conjugate inplace = .ok g' ∧ RotatedBy D f' g' := by
  obtain ⟨f', a1, a2⟩ := conjugate_ok hf inplace
  obtain ⟨g', b1, b2⟩ := conjugate_ok h.wf inplace
  refine ⟨f', g', a1, b1, RotatedBy.of_high a2.wf b2.wf ?_ ?_ ?_ ?_ ?_⟩
  · rw [b2.lead, a2.lead, h.lead]
  · rw [b2.hs, a2.hs, h.s]
  · rw [b2.hL, a2.hL, h.ell_max]
  · rw [b2.trunc, a2.trunc, h.trunc]
  · intro l m idx hs hm hl
    rw [a2.hs] at hs
    rw [a2.hL] at hl
    rw [b2.coef l m (by rw [h.s]; exact hs) hm (by rw [h.ell_max]; exact hl)]
    simp only [h.s]
    rw [h.spec ht hp hL hD idx (by rwa [abs_neg]) hl, map_sum, Finset.mul_sum]
    apply Finset.sum_nbij' (fun n => -n) (fun n => -n)
    · intro n hn; rw [mem_Icc] at hn ⊢; omega
    · intro n hn; rw [mem_Icc] at hn ⊢; omega
    · intro n _; simp
    · intro n _; simp
    · intro n hn
      rw [mem_Icc] at hn
      have hn' : |n| ≤ l := abs_le.mpr hn
      have hnn : |(-n)| ≤ l := by rwa [abs_neg]
      rw [a2.coef l (-n) hs hnn hl, rotArray_entry ht hp hL hD hl hnn hm, map_mul, wD_conj' _ _ (validD_int hn' (by rwa [abs_neg]))]
      simp only [neg_neg]
      have e : (2 * n - 2 * -m) / 2 = n + m := by omega
      have e' : -(2 * n) = 2 * -n := by ring
      have e'' : -(2 * -m) = 2 * m := by ring
      rw [e, e', e'']
      have z : (-1 : ℂ) ≠ 0 := by norm_num
      have s : (-1 : ℂ) ^ (f.s + m) * (-1 : ℂ) ^ (n + m) = (-1 : ℂ) ^ (f.s + -n) := by
        rw [← zpow_add₀ z, show f.s + m + (n + m) = (f.s + -n) + 2 * (n + m) by ring, zpow_add₀ z, zpow_mul]
        norm_num
      rw [← s]
      ring

/-- Two mode expansions with the same values at every unit rotor have the same weights. -/
theorem fieldValue_unique {s K : ℤ} {c c' : ℤ → ℤ → ℂ}
    (h : ∀ q : ℍ[ℝ], normSq q = 1 → Spec.fieldValue s K c (partA q) (partB q) = Spec.fieldValue s K c' (partA q) (partB q))
    {l m : ℤ} (hs : |s| ≤ l) (hl : l ≤ K) (hm : |m| ≤ l) : c l m = c' l m := by
  have key := sYlm_unique (s := s) (modeSet s K) (fun p hp => by rw [mem_modeSet] at hp; exact ⟨hp.1, hp.2.2⟩)
    (fun p => c p.1 p.2 - c' p.1 p.2) (show (0 : ℝ) < 1 by norm_num) (fun θ φ _ _ => by
      have e := h (dirQ θ φ) (dirQ_unit θ φ)
      rw [partA_dirQ, partB_dirQ] at e
      have r : ∀ d : ℤ → ℤ → ℂ, Spec.fieldValue s K d (dirA θ φ) (dirB θ φ)
          = ∑ p ∈ modeSet s K, d p.1 p.2 * Spec.sYlm (dirA θ φ) (dirB θ φ) s p.1 p.2 := by
        intro d
        unfold modeSet Spec.fieldValue
        rw [Finset.sum_sigma]
      rw [r, r, ← sub_eq_zero, ← Finset.sum_sub_distrib] at e
      rw [← e]
      refine Finset.sum_congr rfl fun p _ => ?_
      ring)
  exact sub_eq_zero.mp (key ⟨l, m⟩ (by rw [mem_modeSet]; exact ⟨hs, hl, hm⟩))

/-- Broadcasting the leading axes and rotating the modes do not interfere. -/
theorem RotatedBy.coefIn {L : ℤ} {table : List ℝ} (ht : IsWignerTable L table) {p : ℍ[ℝ]} (hp : GenericQ p) {f g : Modes}
    (hM : f.ell_max ≤ L) {D : List ℂ} (hD : IsRotationArray table p f.ell_max D) (h : RotatedBy D f g) (lead : List ℕ) {l m : ℤ} (x : MIdx)
    (hm : |m| ≤ l) (hl : l ≤ f.ell_max) :
    g.coefIn lead l m x
      = ∑ n ∈ Icc (-l) l, f.coefIn lead l n x * Spec.wignerD (partA p) (partB p) (2 * l) (2 * n) (2 * m) := by
  unfold Modes.coefIn bcTo
  rw [h.lead]
  split
  · exact h.spec ht hp hM hD x hm hl
  · exact h.spec ht hp hM hD _ hm hl

/-- **C99 (products).** The product of two rotated objects — untruncated, or truncated in any way — is the rotated product. -/
theorem C99_product {L : ℤ} {table : List ℝ} (ht : IsWignerTable L table) (junk junk' : ℕ → ℝ) (p : ℍ[ℝ]) (hp : GenericQ p)
    (f g f' g' h h' : Modes) (hf : f.WF) (hg : g.WF) (hf0 : 0 ≤ f.ell_max) (hg0 : 0 ≤ g.ell_max) (hq : f.ell_max + g.ell_max ≤ 151)
    (lead : List ℕ) (hb : bcastShape f.lead g.lead = some lead) (truncator : Option Trunc) (Lp : ℤ) (hLp : ProductEllMax f g truncator Lp)
    (hLp1 : -1 ≤ Lp) (hfL : f.ell_max ≤ L) (hgL : g.ell_max ≤ L) (hLpL : Lp ≤ L) (D E DE : List ℂ)
    (hD : IsRotationArray table p f.ell_max D) (hE : IsRotationArray table p g.ell_max E) (hDE : IsRotationArray table p Lp DE)
    (h1 : RotatedBy D f f') (h2 : RotatedBy E g g') (hm : f.multiplyM junk junk' g truncator = .ok h)
    (hm' : f'.multiplyM junk junk' g' truncator = .ok h') : RotatedBy DE h h' := by
  have hLp' : ProductEllMax f' g' truncator Lp := by
    unfold ProductEllMax at hLp ⊢
    simp only [h1.ell_max, h2.ell_max, h1.trunc, h2.trunc]
    exact hLp
  rcases multiplyM_ok (junk := junk) (junk' := junk') hf hg hf0 hg0 hq hLp hLp1 hb with ⟨k, e1, e2, e3, e4, e5, e6, e7⟩ | ⟨er, -⟩
  swap
  · rw [hm] at er; cases er
  rcases multiplyM_ok (junk := junk) (junk' := junk') h1.wf h2.wf (by rw [h1.ell_max]; exact hf0) (by rw [h2.ell_max]; exact hg0)
    (by rw [h1.ell_max, h2.ell_max]; exact hq) hLp' hLp1 (by rw [h1.lead, h2.lead]; exact hb) with ⟨k', d1, d2, d3, d4, d5, d6, d7⟩ | ⟨er, -⟩
  swap
  · rw [hm'] at er; cases er
  obtain rfl : h = k := by rw [e1] at hm; injection hm with hm; exact hm.symm
  obtain rfl : h' = k' := by rw [d1] at hm'; injection hm' with hm'; exact hm'.symm
  rw [h1.s, h2.s] at d4 d7
  rw [h1.ell_max, h2.ell_max] at d7
  refine RotatedBy.of_high e2 d2 (d3.trans e3.symm) (d4.trans e4.symm) (d5.trans e5.symm) (by rw [d6, e6, h1.trunc]) ?_
  intro l m x ks km kl
  rw [e4] at ks
  rw [e5] at kl
  -- the modes of the untruncated products
  let K : ℤ := max (f.ell_max + g.ell_max) Lp
  have hK1 : f.ell_max + g.ell_max ≤ K := le_max_left _ _
  have hK2 : Lp ≤ K := le_max_right _ _
  let c : ℤ → ℤ → ℂ := fun l m => mulSum f.s g.s K 0 f.ell_max 0 g.ell_max (f.coefIn lead) (g.coefIn lead) l m x
  let c' : ℤ → ℤ → ℂ := fun l m => mulSum f.s g.s K 0 f.ell_max 0 g.ell_max (f'.coefIn lead) (g'.coefIn lead) l m x
  have ec : ∀ n, |n| ≤ l → h.coef l n x = c l n := by
    intro n hn
    rw [e7 l n ks hn kl, mulSum_eq _ _ kl hn, ← mulSum_eq (L := K) _ _ (kl.trans hK2) hn]
  have ec' : h'.coef l m x = c' l m := by
    rw [d7 l m ks km kl, mulSum_eq _ _ kl km, ← mulSum_eq (L := K) _ _ (kl.trans hK2) km]
  have main : c' l m = (fun l m => ∑ n ∈ Icc (-l) l, c l n * Spec.wignerD (partA p) (partB p) (2 * l) (2 * n) (2 * m)) l m := by
    refine fieldValue_unique (s := f.s + g.s) (K := K) (c := c')
      (c' := fun l m => ∑ n ∈ Icc (-l) l, c l n * Spec.wignerD (partA p) (partB p) (2 * l) (2 * n) (2 * m)) (fun q hq1 => ?_) ks (kl.trans hK2) km
    have hq' : normSq (p * q) = 1 := by rw [map_mul, unitQ.mp hp.1, hq1, one_mul]
    rw [rotate_field p q (c := c)
      (c' := fun l m => ∑ n ∈ Icc (-l) l, c l n * Spec.wignerD (partA p) (partB p) (2 * l) (2 * n) (2 * m)) fun l m _ _ _ => rfl, fieldValue_from_zero, fieldValue_from_zero,
      mulSum_field (unitQ.mpr hq1) _ _ hK1, mulSum_field (unitQ.mpr hq') _ _ hK1]
    rw [← fieldValue_from_zero f.s f.ell_max (fun l m => f'.coefIn lead l m x), ← fieldValue_from_zero g.s g.ell_max (fun l m => g'.coefIn lead l m x),
      ← fieldValue_from_zero f.s f.ell_max (fun l m => f.coefIn lead l m x), ← fieldValue_from_zero g.s g.ell_max (fun l m => g.coefIn lead l m x),
      rotate_field p q (c := fun l m => f.coefIn lead l m x) fun l m _ hm hl => h1.coefIn ht hp hfL hD lead x hm hl,
      rotate_field p q (c := fun l m => g.coefIn lead l m x) fun l m _ hm hl => h2.coefIn ht hp hgL hE lead x hm hl]
  rw [ec', main]
  apply Finset.sum_congr rfl
  intro n hn
  rw [mem_Icc] at hn
  rw [ec n (abs_le.mpr hn), rotArray_entry ht hp hLpL hDE kl (abs_le.mpr hn) km]

/-- The broadcast modes for every `ell`: beyond `ell_max` they are zero. -/
theorem RotatedBy.coefIn' {L : ℤ} {table : List ℝ} (ht : IsWignerTable L table) {p : ℍ[ℝ]} (hp : GenericQ p) {f g : Modes} (hf : f.WF)
    (hM : f.ell_max ≤ L) {D : List ℂ} (hD : IsRotationArray table p f.ell_max D) (h : RotatedBy D f g) (lead : List ℕ) {l m : ℤ} (x : MIdx)
    (hm : |m| ≤ l) :
    g.coefIn lead l m x
      = ∑ n ∈ Icc (-l) l, f.coefIn lead l n x * Spec.wignerD (partA p) (partB p) (2 * l) (2 * n) (2 * m) := by
  by_cases hl : l ≤ f.ell_max
  · exact h.coefIn ht hp hM hD lead x hm hl
  · have z : ∀ (k : Modes) (n : ℤ), k.WF → k.ell_max = f.ell_max → |n| ≤ l → k.coefIn lead l n x = 0 := by
      intro k n hk e hn
      unfold Modes.coefIn
      rw [hk.sized.coef_of_gt hn (by omega), bcTo_zero]
    rw [z g m h.wf h.ell_max hm]
    symm
    apply Finset.sum_eq_zero
    intro n hn
    rw [mem_Icc] at hn
    rw [z f n hf rfl (abs_le.mpr hn), zero_mul]

/-- **C99 (sums and differences).** The sum or difference of two rotated objects is the rotated sum or difference. -/
theorem C99_add {L : ℤ} {table : List ℝ} (ht : IsWignerTable L table) (p : ℍ[ℝ]) (hp : GenericQ p)
    (f g f' g' : Modes) (hf : f.WF) (hg : g.WF) (hs : f.s = g.s) (hf0 : 0 ≤ f.ell_max) (hg0 : 0 ≤ g.ell_max)
    (lead : List ℕ) (hb : bcastShape f.lead g.lead = some lead) (hfL : f.ell_max ≤ L) (hgL : g.ell_max ≤ L) (D E DE : List ℂ)
    (hD : IsRotationArray table p f.ell_max D) (hE : IsRotationArray table p g.ell_max E)
    (hDE : IsRotationArray table p (max f.ell_max g.ell_max) DE) (h1 : RotatedBy D f f') (h2 : RotatedBy E g g') (subtraction : Bool) :
    ∃ h h', f.addM g subtraction = .ok h ∧ f'.addM g' subtraction = .ok h' ∧ RotatedBy DE h h' := by
  obtain ⟨h, e1, e2, e3, e4, e5, e6, e7⟩ := addM_ok hf hg hs hf0 hg0 hb subtraction
  obtain ⟨h', d1, d2, d3, d4, d5, d6, d7⟩ := addM_ok h1.wf h2.wf (by rw [h1.s, h2.s, hs]) (by rw [h1.ell_max]; exact hf0)
    (by rw [h2.ell_max]; exact hg0) (by rw [h1.lead, h2.lead]; exact hb) subtraction
  rw [h1.s] at d4 d7
  rw [h1.ell_max, h2.ell_max] at d5 d7
  refine ⟨h, h', e1, d1, RotatedBy.of_high e2 d2 (d3.trans e3.symm) (d4.trans e4.symm) (d5.trans e5.symm) (by rw [d6, e6, h1.trunc]) ?_⟩
  intro l m x ks km kl
  rw [e4] at ks
  rw [e5] at kl
  rw [d7 l m ks km kl]
  simp only
  rw [h1.coefIn' ht hp hf hfL hD lead x km, h2.coefIn' ht hp hg hgL hE lead x km, ← Finset.sum_add_distrib, ← Finset.sum_sub_distrib]
  have e : ∀ n ∈ Icc (-l) l, h.coef l n x * DE.getD (LMpM_index l n m 0).toNat 0
      = (if subtraction then f.coefIn lead l n x - g.coefIn lead l n x else f.coefIn lead l n x + g.coefIn lead l n x)
        * Spec.wignerD (partA p) (partB p) (2 * l) (2 * n) (2 * m) := by
    intro n hn
    rw [mem_Icc] at hn
    rw [e7 l n ks (abs_le.mpr hn) kl, rotArray_entry ht hp (max_le hfL hgL) hDE kl (abs_le.mpr hn) km]
  rw [Finset.sum_congr rfl e]
  cases subtraction
  · simp only [Bool.false_eq_true, if_false]
    refine Finset.sum_congr rfl fun n _ => ?_
    ring
  · simp only [if_true]
    refine Finset.sum_congr rfl fun n _ => ?_
    ring

/-- **C99 (numbers).** Multiplying or dividing by a number, or by an array of numbers that broadcasts against the leading axes, commutes with
the rotation. -/
theorem C99_scale {D : List ℂ} {f f' : Modes} (hf : f.WF) (h : RotatedBy D f f') (a : Scalars) (lead : List ℕ)
    (hb : bcastShape f.lead a.shape = some lead) (op : ℂ → ℂ → ℂ) (hop : op = (· * ·) ∨ op = (· / ·)) :
    ∃ k k', f.scalarUfunc op a = .ok k ∧ f'.scalarUfunc op a = .ok k' ∧ RotatedBy D k k' := by
  obtain ⟨k, e1, e2, e3, e4, e5, e6, e7⟩ := scalarUfunc_ok hf op a hb
  obtain ⟨k', d1, d2, d3, d4, d5, d6, d7⟩ := scalarUfunc_ok h.wf op a (by rw [h.lead]; exact hb)
  rw [h.s] at d4 d7
  rw [h.ell_max] at d5 d7
  refine ⟨k, k', e1, d1, RotatedBy.of_high e2 d2 (d3.trans e3.symm) (d4.trans e4.symm) (d5.trans e5.symm) (by rw [d6, e6, h.trunc]) ?_⟩
  intro l m x ks km kl
  rw [e4] at ks
  rw [e5] at kl
  have lin : ∀ (S : Finset ℤ) (F : ℤ → ℂ) (z : ℂ), op (∑ n ∈ S, F n) z = ∑ n ∈ S, op (F n) z := by
    intro S F z
    rcases hop with rfl | rfl
    · exact Finset.sum_mul S F z
    · exact Finset.sum_div S F z
  have mul : ∀ u v z : ℂ, op (u * v) z = op u z * v := by
    intro u v z
    rcases hop with rfl | rfl
    · simp only; ring
    · simp only; ring
  have e : f'.coefIn lead l m x = ∑ n ∈ Icc (-l) l, f.coefIn lead l n x * D.getD (LMpM_index l n m 0).toNat 0 := by
    unfold Modes.coefIn bcTo
    rw [h.lead]
    split
    · exact h.coef l m _ km kl
    · exact h.coef l m _ km kl
  rw [d7 l m ks km kl]
  simp only
  rw [e, lin]
  apply Finset.sum_congr rfl
  intro n hn
  rw [mem_Icc] at hn
  rw [e7 l n ks (abs_le.mpr hn) kl, mul]

/-- **C99 (truncation).** `truncate_ell` commutes with the rotation, with the same array: its layout does not depend on `ell_max`. -/
theorem C99_truncate {D : List ℂ} {f f' : Modes} (hf : f.WF) (h : RotatedBy D f f') (K : ℤ) (h1 : |f.s| ≤ K) (h2 : K < f.ell_max) :
    ∃ k k', f.truncate_ell K = .ok k ∧ f'.truncate_ell K = .ok k' ∧ RotatedBy D k k' := by
  obtain ⟨k, e1, e2, e3, e4, e5, e6, e7⟩ := truncate_ok hf h1 h2
  obtain ⟨k', d1, d2, d3, d4, d5, d6, d7⟩ := truncate_ok h.wf (L := K) (by rw [h.s]; exact h1) (by rw [h.ell_max]; exact h2)
  refine ⟨k, k', e1, d1, d2, ?_, ?_, d5.trans e5.symm, ?_, ?_⟩
  · rw [d3, e3, h.lead]
  · rw [d4, e4, h.s]
  · rw [d6, e6, h.trunc]
  · intro l m x km kl
    rw [e5] at kl
    rw [d7 l m km kl, h.coef l m x km (by omega)]
    apply Finset.sum_congr rfl
    intro n hn
    rw [mem_Icc] at hn
    rw [e7 l n (abs_le.mpr hn) kl]

/-- **C99 (real and imaginary parts).** For spin weight 0, the real and imaginary parts of the rotated object are the rotated parts. -/
theorem C99_real_imag {L : ℤ} {table : List ℝ} (ht : IsWignerTable L table) (p : ℍ[ℝ]) (hp : GenericQ p)
    (f g : Modes) (hf : f.WF) (hs : f.s = 0) (hL : f.ell_max ≤ L) (D : List ℂ) (hD : IsRotationArray table p f.ell_max D)
    (h : RotatedBy D f g) (inplace : Bool) :
    (∃ f' g', f.real_func inplace = .ok f' ∧ g.real_func inplace = .ok g' ∧ RotatedBy D f' g') ∧
    ∃ f' g', f.imag_func inplace = .ok f' ∧ g.imag_func inplace = .ok g' ∧ RotatedBy D f' g' := by
  obtain ⟨fc, gc, c1, c2, c3⟩ := C99_conjugate ht p hp f g hf hL D hD h false
  have hs' : g.s = 0 := h.s.trans hs
  obtain ⟨fc', x1, x2⟩ := conjugate_ok hf false
  obtain ⟨gc', y1, y2⟩ := conjugate_ok h.wf false
  obtain rfl : fc = fc' := by rw [c1] at x1; injection x1
  obtain rfl : gc = gc' := by rw [c2] at y1; injection y1
  have z0 : ∀ l : ℤ, ∀ m : ℤ, |m| ≤ l → (0 : ℤ) ≤ l := fun l m hm => (abs_nonneg m).trans hm
  have cf : ∀ (l m : ℤ) (x : MIdx), |m| ≤ l → l ≤ f.ell_max → fc.coef l m x = (-1 : ℂ) ^ m * conj (f.coef l (-m) x) := by
    intro l m x hm hl
    rw [x2.coef l m (by rw [hs]; simpa using z0 l m hm) hm hl, hs, zero_add]
  have cg : ∀ (l m : ℤ) (x : MIdx), |m| ≤ l → l ≤ f.ell_max → gc.coef l m x = (-1 : ℂ) ^ m * conj (g.coef l (-m) x) := by
    intro l m x hm hl
    rw [y2.coef l m (by rw [hs']; simpa using z0 l m hm) hm (by rw [h.ell_max]; exact hl), hs', zero_add]
  have key : ∀ {f' g' : Modes} {T : (ℤ → ℤ → Slice) → ℤ → ℤ → Slice} (a b : ℂ), OpRes f f' 0 (T f.coef) → OpRes g g' 0 (T g.coef) →
      (∀ (l m : ℤ) (x : MIdx), |m| ≤ l → l ≤ f.ell_max → T f.coef l m x = a * f.coef l m x + b * fc.coef l m x) →
      (∀ (l m : ℤ) (x : MIdx), |m| ≤ l → l ≤ f.ell_max → T g.coef l m x = a * g.coef l m x + b * gc.coef l m x) → RotatedBy D f' g' := by
    intro f' g' T a b r1 r2 t1 t2
    refine RotatedBy.of_high r1.wf r2.wf ?_ ?_ ?_ ?_ ?_
    · rw [r2.lead, r1.lead, h.lead]
    · rw [r2.hs, r1.hs]
    · rw [r2.hL, r1.hL, h.ell_max]
    · rw [r2.trunc, r1.trunc, h.trunc]
    · intro l m x ks km kl
      rw [r1.hs] at ks
      rw [r1.hL] at kl
      rw [r2.coef l m ks km (by rw [h.ell_max]; exact kl), t2 l m x km kl, h.coef l m x km kl, c3.coef l m x km (by rw [x2.hL]; exact kl),
        Finset.mul_sum, Finset.mul_sum, ← Finset.sum_add_distrib]
      apply Finset.sum_congr rfl
      intro n hn
      rw [mem_Icc] at hn
      rw [r1.coef l n ks (abs_le.mpr hn) kl, t1 l n x (abs_le.mpr hn) kl]
      ring
  obtain ⟨a, a1, a2⟩ := real_ok hf hs inplace
  obtain ⟨b, b1, b2⟩ := real_ok h.wf hs' inplace
  obtain ⟨c, c1', c2'⟩ := imag_ok hf hs inplace
  obtain ⟨d, d1, d2⟩ := imag_ok h.wf hs' inplace
  refine ⟨⟨a, b, a1, b1, key (T := realT) (1 / 2) (1 / 2) a2 b2 ?_ ?_⟩, c, d, c1', d1,
    key (T := imagT) (1 / (2 * Complex.I)) (-1 / (2 * Complex.I)) c2' d2 ?_ ?_⟩
  · intro l m x hm hl; rw [cf l m x hm hl]; unfold realT; ring
  · intro l m x hm hl; rw [cg l m x hm hl]; unfold realT; ring
  · intro l m x hm hl; rw [cf l m x hm hl]; unfold imagT; ring
  · intro l m x hm hl; rw [cg l m x hm hl]; unfold imagT; ring

/-- **C99 (every unit rotor).** Also near the poles, where the code takes a shortcut, the rotated object represents `q ↦ f(p q)` and has the
norm of `f`, up to explicit multiples of `epsilon` (`evalErr`, `rotErr`: C34, C61). -/
theorem C99_every_rotor {L : ℤ} {table : List ℝ} (ht : IsWignerTable L table) (junk : ℕ → ℤ × ℤ) (p : ℍ[ℝ]) (hp : normSq p = 1)
    (f g : Modes) (hf : f.WF) (hL : f.ell_max ≤ L) (D : List ℂ) (hD : IsRotationArray table p f.ell_max D) (h : RotatedBy D f g) :
    (∀ q, normSq q = 1 → ∃ v w : MIdx → ℂ, g.evaluate table junk [comps q] = .ok [v] ∧
      f.evaluate table junk [comps (p * q)] = .ok [w] ∧
      ∀ idx, ‖v idx - w idx‖ ≤ evalErr g idx + evalErr f idx
        + ∑ ell ∈ Icc |f.s| f.ell_max, ∑ _m ∈ Icc (-ell) ell, rotErr f ell idx * Real.sqrt ((2 * ell + 1) / (4 * Real.pi))) ∧
    ∀ idx, |g.norm idx - f.norm idx| ≤ Real.sqrt (∑ ell ∈ Icc |f.s| f.ell_max, ∑ _m ∈ Icc (-ell) ell, rotErr f ell idx ^ 2) := by
  refine C34_every_rotor ht junk f g hf h.wf h.s h.ell_max hL p hp fun l m idx _ hm hl => ?_
  obtain ⟨junkD, hD⟩ := hD
  obtain ⟨out, e1, -, e3⟩ := C16_Wigner_D_matrices ht junkD p hp 0 f.ell_max le_rfl (by omega) hL
  rw [hD] at e1
  injection e1 with e1
  subst e1
  refine ⟨fun n => D.getD (LMpM_index l n m 0).toNat 0, fun n hn => ?_, h.coef l m idx hm hl⟩
  obtain ⟨v, v1, -, v3, -⟩ := e3 l n m (by omega) hl hn hm
  rw [apiD_any ht junkD hp hn hm (by omega)] at v3
  rw [apiD_any ht (fun _ => 0) hp hn hm (by omega), v3]
  simp only [List.getD_eq_getElem?_getD, v1, Option.getD_some]

/-- The vector `v` seen in the frame `p`: its component along the axis `e` is `v · (p e p*)`. -/
noncomputable def vectorInFrame (p : ℍ[ℝ]) (v : ℂ × ℂ × ℂ) : ℂ × ℂ × ℂ :=
  let along : ℍ[ℝ] → ℂ := fun e => v.1 * (p * e * star p).imI + v.2.1 * (p * e * star p).imJ + v.2.2 * (p * e * star p).imK
  (along (mkQ 0 1 0 0), along (mkQ 0 0 1 0), along (mkQ 0 0 0 1))

theorem direction_in_frame (p q : ℍ[ℝ]) (v : ℂ × ℂ × ℂ) :
    v.1 * (direction (p * q)).imI + v.2.1 * (direction (p * q)).imJ + v.2.2 * (direction (p * q)).imK
      = (vectorInFrame p v).1 * (direction q).imI + (vectorInFrame p v).2.1 * (direction q).imJ + (vectorInFrame p v).2.2 * (direction q).imK := by
  have e : direction (p * q) = p * direction q * star p := by
    unfold direction
    rw [star_mul]
    simp only [mul_assoc]
  have k0 : ∀ a b c d, (mkQ a b c d).re = a := fun _ _ _ _ => rfl
  have k1 : ∀ a b c d, (mkQ a b c d).imI = b := fun _ _ _ _ => rfl
  have k2 : ∀ a b c d, (mkQ a b c d).imJ = c := fun _ _ _ _ => rfl
  have k3 : ∀ a b c d, (mkQ a b c d).imK = d := fun _ _ _ _ => rfl
  have r : (direction q).re = 0 := by
    unfold direction
    simp only [Quaternion.imI_mul, Quaternion.imJ_mul, Quaternion.imK_mul, Quaternion.re_mul, Quaternion.re_star, Quaternion.imI_star,
      Quaternion.imJ_star, Quaternion.imK_star, k0, k1, k2, k3]
    ring
  rw [e]
  generalize direction q = d at r
  unfold vectorInFrame
  simp only [Quaternion.imI_mul, Quaternion.imJ_mul, Quaternion.imK_mul, Quaternion.re_mul, Quaternion.re_star, Quaternion.imI_star,
    Quaternion.imJ_star, Quaternion.imK_star, k0, k1, k2, k3, r]
  push_cast
  ring

theorem vector_fieldValue (v : ℂ × ℂ × ℂ) (c : ℤ → ℤ → ℂ) (h0 : c 0 0 = 0) (h1 : c 1 (-1) = (vector_as_ell_1_modes v).1)
    (h2 : c 1 0 = (vector_as_ell_1_modes v).2.1) (h3 : c 1 1 = (vector_as_ell_1_modes v).2.2) (q : ℍ[ℝ]) :
    Spec.fieldValue 0 1 c (partA q) (partB q)
      = v.1 * (direction q).imI + v.2.1 * (direction q).imJ + v.2.2 * (direction q).imK := by
  obtain ⟨call, hc⟩ := List.exists_mem_of_ne_nil (callsWithEllMax 0 1 1 .absent ++ callsWithout 0 1 .absent) (by simp [callsWithEllMax])
  obtain ⟨f, -, -, f2, f3, f4, f5⟩ := vector_field v .absent call hc
  obtain ⟨g0, g1, g2, g3⟩ := f5 []
  rw [← f4 q [], f2, f3]
  apply fieldValue_congr
  intro l m k1 k2 k3
  have k2' := abs_le.mp k2
  have : l = 0 ∨ l = 1 := by rw [abs_zero] at k1; omega
  rcases this with rfl | rfl
  · obtain rfl : m = 0 := by omega
    rw [h0, g0]
  · have : m = -1 ∨ m = 0 ∨ m = 1 := by omega
    rcases this with rfl | rfl | rfl
    · rw [h1, g1]
    · rw [h2, g2]
    · rw [h3, g3]

/-- **C99 (vectors).** The modes with `ell = 1` of a function of spin weight 0 rotate as a vector: what `vector_from_ell_1_modes` makes of
the rotated modes is the vector of `f` in the rotated frame. -/
theorem C99_vector {L : ℤ} {table : List ℝ} (ht : IsWignerTable L table) (p : ℍ[ℝ]) (hp : GenericQ p)
    (f g : Modes) (hs : f.s = 0) (h1 : 1 ≤ f.ell_max) (hL : f.ell_max ≤ L) (D : List ℂ)
    (hD : IsRotationArray table p f.ell_max D) (h : RotatedBy D f g) (idx : MIdx) :
    vector_from_ell_1_modes (g.coef 1 (-1) idx, g.coef 1 0 idx, g.coef 1 1 idx)
      = vectorInFrame p (vector_from_ell_1_modes (f.coef 1 (-1) idx, f.coef 1 0 idx, f.coef 1 1 idx)) := by
  have hs' := h.s
  set v := vector_from_ell_1_modes (f.coef 1 (-1) idx, f.coef 1 0 idx, f.coef 1 1 idx) with hv
  have ev : vector_as_ell_1_modes v = (f.coef 1 (-1) idx, f.coef 1 0 idx, f.coef 1 1 idx) := (C41_vector_inverse _).2
  set w := vectorInFrame p v with hw
  let c : ℤ → ℤ → ℂ := fun l m => if l = 1 then f.coef 1 m idx else 0
  let c' : ℤ → ℤ → ℂ := fun l m => if l = 1 then g.coef 1 m idx else 0
  let d : ℤ → ℤ → ℂ := fun l m => if l = 1 then (if m = -1 then (vector_as_ell_1_modes w).1 else if m = 0 then (vector_as_ell_1_modes w).2.1
    else (vector_as_ell_1_modes w).2.2) else 0
  have main : ∀ m : ℤ, |m| ≤ 1 → c' 1 m = d 1 m := by
    intro m hm
    refine fieldValue_unique (s := 0) (K := 1) (fun q hq => ?_) (by simp) le_rfl hm
    rw [vector_fieldValue w d (by simp [d]) (by simp [d]) (by simp [d]) (by simp [d]) q, hw, ← direction_in_frame,
      ← vector_fieldValue v c (by simp [c]) (by simp [c, ev]) (by simp [c, ev]) (by simp [c, ev]) (p * q)]
    refine rotate_field p q fun l m _ k2 k3 => ?_
    have : l = 0 ∨ l = 1 := by omega
    rcases this with rfl | rfl
    · simp [c, c']
    · have := h.spec ht hp hL hD idx (l := 1) (m := m) (by exact_mod_cast k2) h1
      simpa [c, c'] using this
  have m1 := main (-1) (by simp)
  have m2 := main 0 (by simp)
  have m3 := main 1 (by simp)
  simp only [c', d, if_true, show ((0 : ℤ) = -1) = False by simp, show ((1 : ℤ) = -1) = False by simp, show ((1 : ℤ) = 0) = False by simp,
    if_false] at m1 m2 m3
  rw [m1, m2, m3]
  exact (C41_vector_inverse w).1

/-! Concrete cases -/

/-- An object with eight nonzero modes of spin weight -1, rotated by one rotor and then by another. -/
example : ∃ table D E DE g k v, IsWignerTable 32 table ∧ IsRotationArray table (mkQ (3/5) (4/5) 0 0) 2 D ∧
    IsRotationArray table (mkQ (3/5) 0 (4/5) 0) 2 E ∧ RotatedBy D exModes g ∧ RotatedBy E g k ∧ RotatedBy DE exModes k ∧
    g.norm [1] = exModes.norm [1] ∧
    g.evaluate table (fun _ => (0, 0)) [comps (mkQ (3/5) 0 (4/5) 0)] = .ok v ∧
    exModes.evaluate table (fun _ => (0, 0)) [comps (mkQ (3/5) (4/5) 0 0 * mkQ (3/5) 0 (4/5) 0)] = .ok v := by
  obtain ⟨t, ht⟩ := IsWignerTable.exists 32 (by norm_num)
  obtain ⟨h1, h2, h3⟩ := generic_example
  have hL : exModes.ell_max ≤ 32 := by decide
  obtain ⟨D, hD, g, -, hg, -⟩ := C99_exists ht _ (unitQ.mp h1.1) exModes exModes_WF hL
  obtain ⟨E, hE, k, -, hk, -⟩ := C99_exists ht _ (unitQ.mp h2.1) g hg.wf (by rw [hg.ell_max]; exact hL)
  obtain ⟨DE, hDE, -⟩ := C99_exists ht _ (unitQ.mp h3.1) exModes exModes_WF hL
  rw [hg.ell_max] at hE
  obtain ⟨v, v1, v2⟩ := C99_evaluate ht (fun _ => (0, 0)) _ h1 exModes g exModes_WF hL D hD hg [_] (by simp) (by simpa using ⟨h2, h3⟩)
  exact ⟨t, D, E, DE, g, k, v, ht, hD, hE, hg, hk, C99_compose ht _ _ h1 h2 h3 exModes g k hL D E DE hD hE hDE hg hk,
    C99_norm ht _ h1 exModes g exModes_WF hL D hD hg [1], by simpa using v1, by simpa using v2⟩

/-- Rotating back; the operators; the conjugate. -/
example : ∃ table D g, IsWignerTable 32 table ∧ IsRotationArray table (mkQ (3/5) (4/5) 0 0) 2 D ∧ RotatedBy D exModes g ∧
    (∃ E k, IsRotationArray table (mkQ (3/5) (4/5) 0 0)⁻¹ 2 E ∧ RotatedBy E g k ∧ k = exModes) ∧
    (∃ f' g', exModes.ethbar = .ok f' ∧ g.ethbar = .ok g' ∧ RotatedBy D f' g') ∧
    ∃ f' g', exModes.conjugate true = .ok f' ∧ g.conjugate true = .ok g' ∧ RotatedBy D f' g' := by
  obtain ⟨t, ht⟩ := IsWignerTable.exists 32 (by norm_num)
  obtain ⟨h1, -, -⟩ := generic_example
  have hL : exModes.ell_max ≤ 32 := by decide
  obtain ⟨D, hD, g, -, hg, -⟩ := C99_exists ht _ (unitQ.mp h1.1) exModes exModes_WF hL
  obtain ⟨E, hE, k, -, hk, -⟩ := C99_exists ht (mkQ (3/5) (4/5) 0 0)⁻¹ (by rw [unit_inv (unitQ.mp h1.1)]; exact unitQ.mp h1.star.1)
    g hg.wf (by rw [hg.ell_max]; exact hL)
  rw [hg.ell_max] at hE
  exact ⟨t, D, g, ht, hD, hg, ⟨E, k, hE, hk, C99_inverse ht _ h1 exModes g k exModes_WF hL D E hD hE hg hk⟩,
    (C99_operators exModes_WF hg).2.2.2.2.2, C99_conjugate ht _ h1 exModes g exModes_WF hL D hD hg true⟩

/-- The square of a rotated object, truncated to `ell ≤ 3`. -/
example : ∃ table D DE g h h', IsWignerTable 32 table ∧ IsRotationArray table (mkQ (3/5) (4/5) 0 0) 2 D ∧ RotatedBy D exModes g ∧
    exModes.multiplyM (fun _ => 7) (fun _ => 8) exModes (some fun _ _ => 3) = .ok h ∧
    g.multiplyM (fun _ => 7) (fun _ => 8) g (some fun _ _ => 3) = .ok h' ∧ RotatedBy DE h h' := by
  obtain ⟨t, ht⟩ := IsWignerTable.exists 32 (by norm_num)
  obtain ⟨h1, -, -⟩ := generic_example
  have hL : exModes.ell_max ≤ 32 := by decide
  have h2 : exModes.ell_max = 2 := rfl
  obtain ⟨D, hD, g, -, hg, -⟩ := C99_exists ht _ (unitQ.mp h1.1) exModes exModes_WF hL
  obtain ⟨DE, hDE, -⟩ := C16_Wigner_D_matrices ht (fun _ => 0) _ (unitQ.mp h1.1) 0 3 le_rfl (by norm_num) (by norm_num)
  have hb : bcastShape exModes.lead exModes.lead = some [2] := by decide
  have gE : g.ell_max = 2 := hg.ell_max.trans h2
  rcases multiplyM_ok (junk := fun _ => 7) (junk' := fun _ => 8) (f := exModes) (g := exModes) (truncator := some fun _ _ => 3) exModes_WF exModes_WF
    (by rw [h2]; norm_num) (by rw [h2]; norm_num) (by rw [h2]; norm_num) (L := 3) rfl (by norm_num) hb with ⟨h, e, -⟩ | ⟨-, hz⟩
  swap
  · exact absurd hz (C32_no_exception (Or.inl (by rw [h2]; norm_num)))
  rcases multiplyM_ok (junk := fun _ => 7) (junk' := fun _ => 8) (f := g) (g := g) (truncator := some fun _ _ => 3) hg.wf hg.wf
    (by rw [gE]; norm_num) (by rw [gE]; norm_num) (by rw [gE]; norm_num) (L := 3) rfl (by norm_num) (by rw [hg.lead]; exact hb) with ⟨h', e', -⟩ | ⟨-, hz⟩
  swap
  · exact absurd hz (C32_no_exception (Or.inl (by rw [gE]; norm_num)))
  exact ⟨t, D, DE, g, h, h', ht, hD, hg, e, e', C99_product ht _ _ _ h1 exModes exModes g g h h' exModes_WF exModes_WF
    (by rw [h2]; norm_num) (by rw [h2]; norm_num) (by rw [h2]; norm_num) [2] hb (some fun _ _ => 3) 3 rfl (by norm_num) hL hL (by norm_num)
    D D DE hD hD ⟨_, hDE⟩ hg hg e e'⟩

/-- The vector (1, 2i, 3) in the rotated frame: a rotation about x by the angle with cosine -7/25 and sine 24/25. -/
example : ∃ table D f g, IsWignerTable 32 table ∧ IsRotationArray table (mkQ (3/5) (4/5) 0 0) 1 D ∧ RotatedBy D f g ∧
    vector_from_ell_1_modes (f.coef 1 (-1) [], f.coef 1 0 [], f.coef 1 1 []) = (1, 2 * Complex.I, 3) ∧
    vector_from_ell_1_modes (g.coef 1 (-1) [], g.coef 1 0 [], g.coef 1 1 [])
      = (1, -(14 / 25) * Complex.I + 72 / 25, -(48 / 25) * Complex.I - 21 / 25) := by
  obtain ⟨t, ht⟩ := IsWignerTable.exists 32 (by norm_num)
  obtain ⟨hq, -, -⟩ := generic_example
  obtain ⟨call, hc⟩ := List.exists_mem_of_ne_nil (callsWithEllMax 0 1 1 .absent ++ callsWithout 0 1 .absent) (by simp [callsWithEllMax])
  obtain ⟨f, -, f1, f2, f3, -, f5⟩ := vector_field (1, 2 * Complex.I, 3) .absent call hc
  obtain ⟨D, hD, g, -, hg, -⟩ := C99_exists ht _ (unitQ.mp hq.1) f f1 (by rw [f2]; norm_num)
  obtain ⟨-, e1, e2, e3⟩ := f5 []
  have ef : vector_from_ell_1_modes (f.coef 1 (-1) [], f.coef 1 0 [], f.coef 1 1 []) = (1, 2 * Complex.I, 3) := by
    rw [e1, e2, e3]
    exact (C41_vector_inverse _).1
  refine ⟨t, D, f, g, ht, by rw [f2] at hD; exact hD, hg, ef, ?_⟩
  rw [C99_vector ht _ hq f g f3 (by rw [f2]) (by rw [f2]; norm_num) D hD hg [], ef]
  have k0 : ∀ a b c d, (mkQ a b c d).re = a := fun _ _ _ _ => rfl
  have k1 : ∀ a b c d, (mkQ a b c d).imI = b := fun _ _ _ _ => rfl
  have k2 : ∀ a b c d, (mkQ a b c d).imJ = c := fun _ _ _ _ => rfl
  have k3 : ∀ a b c d, (mkQ a b c d).imK = d := fun _ _ _ _ => rfl
  unfold vectorInFrame
  simp only [Quaternion.imI_mul, Quaternion.imJ_mul, Quaternion.imK_mul, Quaternion.re_mul, Quaternion.re_star, Quaternion.imI_star,
    Quaternion.imJ_star, Quaternion.imK_star, k0, k1, k2, k3]
  push_cast
  refine Prod.ext ?_ (Prod.ext ?_ ?_) <;> simp only <;> ring

/-- Sum, scaling, truncation; real and imaginary parts. -/
example : ∃ table D g, IsWignerTable 32 table ∧ IsRotationArray table (mkQ (3/5) (4/5) 0 0) 2 D ∧ RotatedBy D exModes g ∧
    (∃ h h', exModes.addM exModes true = .ok h ∧ g.addM g true = .ok h' ∧ RotatedBy D h h') ∧
    (∃ h h', exModes.scalarUfunc (· / ·) ⟨[2], fun i => (i.headD 0 : ℂ) + 1⟩ = .ok h ∧
      g.scalarUfunc (· / ·) ⟨[2], fun i => (i.headD 0 : ℂ) + 1⟩ = .ok h' ∧ RotatedBy D h h') ∧
    (∃ h h', exModes.truncate_ell 1 = .ok h ∧ g.truncate_ell 1 = .ok h' ∧ RotatedBy D h h') := by
  obtain ⟨t, ht⟩ := IsWignerTable.exists 32 (by norm_num)
  obtain ⟨h1, -, -⟩ := generic_example
  have hL : exModes.ell_max ≤ 32 := by decide
  obtain ⟨D, hD, g, -, hg, -⟩ := C99_exists ht _ (unitQ.mp h1.1) exModes exModes_WF hL
  exact ⟨t, D, g, ht, hD, hg, C99_add ht _ h1 exModes exModes g g exModes_WF exModes_WF rfl (by decide) (by decide) [2] (by decide) hL hL D D D hD hD
    (by rw [max_self]; exact hD) hg hg true, C99_scale exModes_WF hg _ [2] (by decide) _ (Or.inr rfl), C99_truncate exModes_WF hg 1 (by decide) (by decide)⟩

example : ∃ table D g f' g', IsWignerTable 32 table ∧ RotatedBy D exModes0 g ∧ exModes0.imag_func false = .ok f' ∧ g.imag_func false = .ok g' ∧
    RotatedBy D f' g' := by
  obtain ⟨t, ht⟩ := IsWignerTable.exists 32 (by norm_num)
  obtain ⟨h1, -, -⟩ := generic_example
  have hL : exModes0.ell_max ≤ 32 := by decide
  obtain ⟨D, hD, g, -, hg, -⟩ := C99_exists ht _ (unitQ.mp h1.1) exModes0 exModes0_WF hL
  obtain ⟨f', g', e⟩ := (C99_real_imag ht _ h1 exModes0 g exModes0_WF rfl hL D hD hg false).2
  exact ⟨t, D, g, f', g', ht, hg, e⟩

/-- Every unit rotor `q`, poles included. -/
example (q : ℍ[ℝ]) (hq : normSq q = 1) : ∃ table D g, IsWignerTable 32 table ∧ RotatedBy D exModes g ∧
    ∃ v w : MIdx → ℂ, g.evaluate table (fun _ => (0, 0)) [comps q] = .ok [v] ∧
      exModes.evaluate table (fun _ => (0, 0)) [comps (mkQ (3/5) (4/5) 0 0 * q)] = .ok [w] := by
  obtain ⟨t, ht⟩ := IsWignerTable.exists 32 (by norm_num)
  have h1 := unitQ.mp generic_example.1.1
  have hL : exModes.ell_max ≤ 32 := by decide
  obtain ⟨D, hD, g, -, hg, -⟩ := C99_exists ht _ h1 exModes exModes_WF hL
  obtain ⟨v, w, a, b, -⟩ := (C99_every_rotor ht (fun _ => (0, 0)) _ h1 exModes g exModes_WF hL D hD hg).1 q hq
  exact ⟨t, D, g, ht, hg, v, w, a, b⟩

end SF
