import Verif.Lemmas.RoundingZ
import Verif.Props.AllRotors

/-!
# Property C70: rounding errors of the spin-weighted harmonics and of `Modes.evaluate`

`FloatOpsY.Std F u w δ` is the standard model of floating-point arithmetic (see C69) together with: `sqrt` and `pi` accurate to `u`,
`x ** n` with `n` roundings, inner products of length `N` accurate to `δ N` relative to the sum of the moduli of the products.

`floatErrY u n = gam u (2 n + 11 + 11 (n/2)) + gam u 3 · π n`, at most `20 (n+1) u` for `n ≤ 64`, `u ≤ 2^-50`.
-/

set_option autoImplicit false

namespace SF

open Finset ComplexConjugate Quaternion

/-- Error of one harmonic of degree `ell` at a unit rotor: the larger of the formula's and the shortcuts' error. -/
noncomputable def swshErr (u w eps : ℝ) (ell : ℤ) : ℝ :=
  Real.sqrt ((2 * (ell : ℝ) + 1) / (4 * Real.pi)) *
    max (floatErrY u (2 * ell).toNat * Real.sqrt 2 ^ (2 * ell).toNat)
      (poleErrY u ((1 + w) * poleErr (eps / (1 - u)) (2 * ell).toNat + w))

theorem Wcoef_ne_zero {p' q' p q : ℕ} (hsum : p' + q' = p + q) : Wcoef p' q' p q ≠ 0 := by
  unfold Wcoef
  have h1 : 0 < p'.choose (p' - p) := Nat.choose_pos (by omega)
  have h2 : 0 < q'.choose (q - (p' - p)) := Nat.choose_pos (by omega)
  have := p.factorial_pos
  have := q.factorial_pos
  have := p'.factorial_pos
  have := q'.factorial_pos
  apply ne_of_gt
  positivity

section
variable {u w : ℝ} {δ : ℕ → ℝ} {F : FloatOpsY} (hF : F.Std u w δ)
include hF

theorem swshErr_nonneg {eps : ℝ} (ell : ℤ) : 0 ≤ swshErr u w eps ell := by
  unfold swshErr
  have := floatErrY_nonneg hF.u_nonneg hF.u_lt_one (2 * ell).toNat
  exact mul_nonneg (Real.sqrt_nonneg _) (le_max_of_le_left (by positivity))

theorem generic_unit {eps : ℝ} {Ra Rb : ℂ} (hu : Spec.IsUnit' Ra Rb) {s ell m : ℤ} {v : ℂ} (h : GenericY u Ra Rb s ell m v) :
    ‖v - Spec.sYlm Ra Rb s ell m‖ ≤ swshErr u w eps ell := by
  refine h.1.trans ?_
  unfold swshErr
  rw [← swshConst_eq, mul_left_comm]
  apply mul_le_mul_of_nonneg_left _ (Real.sqrt_nonneg _)
  refine le_trans ?_ (le_max_left _ _)
  exact mul_le_mul_of_nonneg_left (norm_sum_unit hu _) (floatErrY_nonneg hF.u_nonneg hF.u_lt_one _)

/-- **C70.** `_SWSH` for any pair `(Ra, Rb)` — not necessarily a unit — whose computed moduli exceed the cut-off: every harmonic
differs from `sYlm` by at most `floatErrY u (2 ell) · sqrt((2ell+1)/(4π)) · (|Ra| + |Rb|)^(2 ell)`; the harmonics with `|m| = ell` or
`|s| = ell` are accurate in the *relative* sense; modes with `ell < |s|` or `|m| > ell` are exactly zero. -/
theorem C70_away_from_poles {L : ℤ} {table : List ℝ} (ht : RoundedTable u L table) (eps : ℝ) (he : 0 ≤ eps) (Ra Rb : ℂ)
    (ha : eps < F.abs Ra) (hb : eps < F.abs Rb) (s : ℤ) (modes : List (ℤ × ℤ)) (values : List ℂ)
    (hlen : values.length = modes.length) (hi : ∀ t ∈ modes, t.1 ≤ L) :
    ∃ f : ℤ × ℤ → ℂ, SWSH_kernelF F eps table Ra Rb s modes values = .ok (modes.map f) ∧
      ∀ t ∈ modes, (¬ (|t.2| ≤ t.1 ∧ |s| ≤ t.1) → f t = 0) ∧
        (|t.2| ≤ t.1 → |s| ≤ t.1 →
          ‖f t - Spec.sYlm Ra Rb s t.1 t.2‖ ≤ floatErrY u (2 * t.1).toNat *
            (Real.sqrt ((2 * (t.1 : ℝ) + 1) / (4 * Real.pi)) * (‖Ra‖ + ‖Rb‖) ^ (2 * t.1).toNat) ∧
          (|t.2| = t.1 ∨ |s| = t.1 →
            ‖f t - Spec.sYlm Ra Rb s t.1 t.2‖ ≤ floatErrY u (2 * t.1).toNat * ‖Spec.sYlm Ra Rb s t.1 t.2‖)) := by
  classical
  have ha0 := absF_pos hF.toStd he (not_le.mpr ha)
  have hb0 := absF_pos hF.toStd he (not_le.mpr hb)
  have out : ∀ t : ℤ × ℤ, ¬ (|t.2| ≤ t.1 ∧ |s| ≤ t.1) → (|t.2| > t.1 ∨ |s| > t.1) := by
    intro t h
    by_contra hc
    rw [not_or, not_lt, not_lt] at hc
    exact h hc
  let f : ℤ × ℤ → ℂ := fun t =>
    if h : (|t.2| ≤ t.1 ∧ |s| ≤ t.1) ∧ t.1 ≤ L then
      if F.abs Ra < F.abs Rb then (swshF_lt_err hF ht ha0 hb0 h.1.1 h.1.2 h.2).choose
      else (swshF_ge_err hF ht ha0 hb0 h.1.1 h.1.2 h.2).choose
    else 0
  refine ⟨f, SWSH_kernelF_map F eps table Ra Rb s modes values hlen f (fun h => absurd ha (not_lt.mpr h))
    (fun _ h => absurd hb (not_lt.mpr h)) (fun _ _ hlt t m => ?_) (fun _ _ hlt t m => ?_), fun t m => ⟨fun h => ?_, fun h1 h2 => ?_⟩⟩
  · by_cases h : |t.2| ≤ t.1 ∧ |s| ≤ t.1
    · have : f t = (swshF_lt_err hF ht ha0 hb0 h.1 h.2 (hi t m)).choose := by
        simp only [f]; rw [dif_pos ⟨h, hi t m⟩, if_pos hlt]
      rw [this]
      exact (swshF_lt_err hF ht ha0 hb0 h.1 h.2 (hi t m)).choose_spec.1
    · have : f t = 0 := by simp only [f]; rw [dif_neg (fun g => h g.1)]
      rw [this]
      unfold swshF_ra_lt_rb; simp only; rw [if_pos (out t h)]
  · by_cases h : |t.2| ≤ t.1 ∧ |s| ≤ t.1
    · have : f t = (swshF_ge_err hF ht ha0 hb0 h.1 h.2 (hi t m)).choose := by
        simp only [f]; rw [dif_pos ⟨h, hi t m⟩, if_neg hlt]
      rw [this]
      exact (swshF_ge_err hF ht ha0 hb0 h.1 h.2 (hi t m)).choose_spec.1
    · have : f t = 0 := by simp only [f]; rw [dif_neg (fun g => h g.1)]
      rw [this]
      unfold swshF_ra_ge_rb; simp only; rw [if_pos (out t h)]
  · simp only [f]; rw [dif_neg (fun g => h g.1)]
  · have : GenericY u Ra Rb s t.1 t.2 (f t) := by
      simp only [f]
      rw [dif_pos ⟨⟨h1, h2⟩, hi t m⟩]
      split_ifs with hlt
      · exact (swshF_lt_err hF ht ha0 hb0 h1 h2 (hi t m)).choose_spec.2
      · exact (swshF_ge_err hF ht ha0 hb0 h1 h2 (hi t m)).choose_spec.2
    unfold GenericY at this
    rw [swshConst_eq] at this
    exact this

/-- **C70.** `_SWSH` at *every* unit rotor, poles and their neighbourhoods included. -/
theorem C70_every_unit_rotor {L : ℤ} {table : List ℝ} (ht : RoundedTable u L table) (eps : ℝ) (he : 0 ≤ eps) (he1 : eps < 1 - u)
    (Ra Rb : ℂ) (hu : Spec.IsUnit' Ra Rb) (s : ℤ) (modes : List (ℤ × ℤ)) (values : List ℂ)
    (hlen : values.length = modes.length) (hi : ∀ t ∈ modes, t.1 ≤ L) :
    ∃ f : ℤ × ℤ → ℂ, SWSH_kernelF F eps table Ra Rb s modes values = .ok (modes.map f) ∧
      ∀ t ∈ modes, (¬ (|t.2| ≤ t.1 ∧ |s| ≤ t.1) → f t = 0) ∧
        ‖f t - Spec.sYlm Ra Rb s t.1 t.2‖ ≤ swshErr u w eps t.1 := by
  have hu1 := hF.u_lt_one
  have hx1 : eps / (1 - u) < 1 := by rw [div_lt_one (by linarith)]; exact he1
  have zero : ∀ t : ℤ × ℤ, ∀ v : ℂ, ¬ (|t.2| ≤ t.1 ∧ |s| ≤ t.1) → v = 0 → ‖v - Spec.sYlm Ra Rb s t.1 t.2‖ ≤ swshErr u w eps t.1 := by
    rintro t v h rfl
    unfold Spec.sYlm
    rw [if_neg h, sub_zero, norm_zero]
    exact swshErr_nonneg hF _
  have out : ∀ t : ℤ × ℤ, ¬ (|t.2| ≤ t.1 ∧ |s| ≤ t.1) → (|t.2| > t.1 ∨ |s| > t.1) := by
    intro t h
    by_contra hc
    rw [not_or, not_lt, not_lt] at hc
    exact h hc
  by_cases k1 : F.abs Ra ≤ eps
  · have z : ∀ t : ℤ × ℤ, ¬ (|t.2| ≤ t.1 ∧ |s| ≤ t.1) → swshF_ra_small F Rb s t.1 t.2 = 0 := by
      intro t h
      unfold swshF_ra_small; rw [if_pos (Or.inr (out t h))]
    refine ⟨fun t => swshF_ra_small F Rb s t.1 t.2, SWSH_kernelF_map F eps table Ra Rb s modes values hlen _
      (fun _ _ _ => rfl) (fun h => absurd k1 h) (fun h => absurd k1 h) (fun h => absurd k1 h), fun t m => ⟨z t, ?_⟩⟩
    by_cases h : |t.2| ≤ t.1 ∧ |s| ≤ t.1
    · refine (swshF_ra_small_err hF hu (absF_le hF.toStd k1) hx1 h.1 h.2).trans ?_
      unfold swshErr
      rw [← swshConst_eq]
      exact mul_le_mul_of_nonneg_left (le_max_right _ _) (Real.sqrt_nonneg _)
    · exact zero t _ h (z t h)
  by_cases k2 : F.abs Rb ≤ eps
  · have z : ∀ t : ℤ × ℤ, ¬ (|t.2| ≤ t.1 ∧ |s| ≤ t.1) → swshF_rb_small F Ra s t.1 t.2 = 0 := by
      intro t h
      unfold swshF_rb_small; rw [if_pos (Or.inr (out t h))]
    refine ⟨fun t => swshF_rb_small F Ra s t.1 t.2, SWSH_kernelF_map F eps table Ra Rb s modes values hlen _
      (fun h => absurd h k1) (fun _ _ _ _ => rfl) (fun _ h => absurd k2 h) (fun _ h => absurd k2 h), fun t m => ⟨z t, ?_⟩⟩
    by_cases h : |t.2| ≤ t.1 ∧ |s| ≤ t.1
    · refine (swshF_rb_small_err hF hu (absF_le hF.toStd k2) hx1 h.1 h.2).trans ?_
      unfold swshErr
      rw [← swshConst_eq]
      exact mul_le_mul_of_nonneg_left (le_max_right _ _) (Real.sqrt_nonneg _)
    · exact zero t _ h (z t h)
  obtain ⟨f, f1, f2⟩ := C70_away_from_poles hF ht eps he Ra Rb (not_le.mp k1) (not_le.mp k2) s modes values hlen hi
  refine ⟨f, f1, fun t m => ⟨(f2 t m).1, ?_⟩⟩
  by_cases h : |t.2| ≤ t.1 ∧ |s| ≤ t.1
  · apply generic_unit hF hu
    unfold GenericY
    rw [swshConst_eq]
    exact (f2 t m).2 h.1 h.2
  · exact zero t _ h ((f2 t m).1 h)

/-- **C70.** `_SWSHs`: an array of unit rotors and one mode. -/
theorem C70_array {L : ℤ} {table : List ℝ} (ht : RoundedTable u L table) (eps : ℝ) (he : 0 ≤ eps) (he1 : eps < 1 - u)
    (qs : List ℍ[ℝ]) (hq : ∀ q ∈ qs, normSq q = 1) (s ell m : ℤ) (hle : ell ≤ L) (values : List ℂ)
    (hlen : values.length = qs.length) :
    ∃ f : ℍ[ℝ] → ℂ, SWSHs_kernelF F eps table (qs.map comps) s ell m values = .ok (qs.map f) ∧
      ∀ q ∈ qs, (¬ (|m| ≤ ell ∧ |s| ≤ ell) → f q = 0) ∧
        ‖f q - Spec.sYlm (partA q) (partB q) s ell m‖ ≤ swshErr u w eps ell := by
  classical
  have hu1 := hF.u_lt_one
  have hx1 : eps / (1 - u) < 1 := by rw [div_lt_one (by linarith)]; exact he1
  by_cases h : |m| ≤ ell ∧ |s| ≤ ell
  swap
  · have hcond : (|m| > ell ∨ |s| > ell) := by
      by_contra hc
      rw [not_or, not_lt, not_lt] at hc
      exact h hc
    refine ⟨fun _ => 0, ?_, fun q _ => ⟨fun _ => rfl, ?_⟩⟩
    · unfold SWSHs_kernelF
      simp only [hcond, if_true]
      have := forL_map_wr (qs.map comps) values (by simpa using hlen) (fun _ => .ok (0 : ℂ)) (fun _ => 0) (fun _ _ => rfl)
      rw [List.map_map] at this
      refine Eq.trans ?_ this
      apply forL_congr
      intro i hi st
      rw [mem_pyRange] at hi
      have : (qs.map comps)[i.toNat]? = some (qs.map comps)[i.toNat] := List.getElem?_eq_getElem (by omega)
      rw [rd_ok hi.1 this]
      rfl
    · unfold Spec.sYlm
      rw [if_neg h, sub_zero, norm_zero]
      exact swshErr_nonneg hF _
  obtain ⟨h1, h2⟩ := h
  obtain ⟨p', q', p, q, hsum, g1, g2, g3, g4⟩ := int_pq h1 (show |-s| ≤ ell by rwa [abs_neg])
  obtain ⟨ca, ca1, ca2⟩ := ht.coeff_int g1 g2 g3 g4 hle
  obtain ⟨cb, cb1, cb2⟩ := ht.coeff_int (p' := q') (q' := p') (ell := ell) (mp := -m) (m := -s) (by omega) (by omega) g3 g4 hle
  push_cast at ca1 cb1
  set A : ℝ := if (max 0 (m + s) + s) % 2 ≠ 0 then -ca else ca with hA
  set B : ℝ := if (ell + max 0 (-m + s)) % 2 ≠ 0 then -cb else cb with hB
  have neg_rel : ∀ x y : ℝ, RelErr u x y → RelErr u (-x) (-y) := by
    intro x y hxy
    unfold RelErr at *
    rw [abs_neg, ← neg_sub', abs_neg]
    exact hxy
  have key : ∀ Q : ℍ[ℝ], normSq Q = 1 → ∃ v, SWSHs_valueF F eps A B s ell m (comps Q) = .ok v ∧
      ‖v - Spec.sYlm (partA Q) (partB Q) s ell m‖ ≤ swshErr u w eps ell := by
    intro Q hQ
    have hU : Spec.IsUnit' (partA Q) (partB Q) := unitQ.mpr hQ
    unfold SWSHs_valueF
    have cA : (⟨(comps Q).1, (comps Q).2.2.2⟩ : ℂ) = partA Q := rfl
    have cB : (⟨(comps Q).2.2.1, (comps Q).2.1⟩ : ℂ) = partB Q := rfl
    simp only [cA, cB]
    have hx : ∀ P : Prop, (P ∨ |m| > ell ∨ |s| > ell) ↔ P := by
      intro P
      constructor
      · rintro (h | h | h)
        · exact h
        · omega
        · omega
      · exact Or.inl
    by_cases k1 : F.abs (partA Q) ≤ eps
    · rw [if_pos k1]
      refine ⟨swshF_ra_small F (partB Q) s ell m, ?_, ?_⟩
      · unfold swshF_ra_small
        simp only [hx]
        split_ifs <;> rfl
      · refine (swshF_ra_small_err hF hU (absF_le hF.toStd k1) hx1 h1 h2).trans ?_
        unfold swshErr
        rw [← swshConst_eq]
        exact mul_le_mul_of_nonneg_left (le_max_right _ _) (Real.sqrt_nonneg _)
    rw [if_neg k1]
    by_cases k2 : F.abs (partB Q) ≤ eps
    · rw [if_pos k2]
      refine ⟨swshF_rb_small F (partA Q) s ell m, ?_, ?_⟩
      · unfold swshF_rb_small
        simp only [hx]
        split_ifs <;> rfl
      · refine (swshF_rb_small_err hF hU (absF_le hF.toStd k2) hx1 h1 h2).trans ?_
        unfold swshErr
        rw [← swshConst_eq]
        exact mul_le_mul_of_nonneg_left (le_max_right _ _) (Real.sqrt_nonneg _)
    rw [if_neg k2]
    have ha0 := absF_pos hF.toStd he k1
    have hb0 := absF_pos hF.toStd he k2
    by_cases k3 : F.abs (partA Q) < F.abs (partB Q)
    · rw [if_pos k3]
      have hrel : RelErr u B ((if (ell + max 0 (-m + s)) % 2 ≠ 0 then -1 else 1) * Wcoef q' p' p q) := by
        rw [hB]
        split_ifs
        · rw [neg_one_mul]; exact neg_rel _ _ cb2
        · rw [one_mul]; exact cb2
      obtain ⟨S, e1, e2⟩ := valB hF ha0 hb0 h1 h2 hsum g1 g2 g3 g4 (c' := B) (by split_ifs <;> simp) hrel
      have e3 := e2 false (by
        rw [neg_one_zpow_iff]
        by_cases hpar : (ell + max 0 (-m + s)) % 2 = 0
        · rw [if_neg (not_not.mpr hpar), if_pos hpar]; simp
        · rw [if_pos hpar, if_neg hpar]; simp)
      simp only [Bool.false_eq_true, if_false] at e3
      refine ⟨_, ?_, generic_unit hF hU e3⟩
      rw [if_neg, e1]
      · rfl
      · apply Near.ne_zero hF.u_nonneg hu1 (hrel.fac hF.u_nonneg hu1)
        apply mul_ne_zero
        · split_ifs <;> simp
        · exact Wcoef_ne_zero (by omega)
    · rw [if_neg k3]
      have hrel : RelErr u A ((if (max 0 (m + s) + s) % 2 ≠ 0 then -1 else 1) * Wcoef p' q' p q) := by
        rw [hA]
        split_ifs
        · rw [neg_one_mul]; exact neg_rel _ _ ca2
        · rw [one_mul]; exact ca2
      obtain ⟨S, e1, e2⟩ := valA hF ha0 hb0 h1 h2 hsum g1 g2 g3 g4 (c' := A) (by split_ifs <;> simp) hrel
      have e3 := e2 false (by
        rw [neg_one_zpow_iff, add_comm s]
        by_cases hpar : (max 0 (m + s) + s) % 2 = 0
        · rw [if_neg (not_not.mpr hpar), if_pos hpar]; simp
        · rw [if_pos hpar, if_neg hpar]; simp)
      simp only [Bool.false_eq_true, if_false] at e3
      refine ⟨_, ?_, generic_unit hF hU e3⟩
      rw [if_neg, e1]
      · rfl
      · apply Near.ne_zero hF.u_nonneg hu1 (hrel.fac hF.u_nonneg hu1)
        apply mul_ne_zero
        · split_ifs <;> simp
        · exact Wcoef_ne_zero (by omega)
  let f : ℍ[ℝ] → ℂ := fun Q => if hQ : normSq Q = 1 then (key Q hQ).choose else 0
  have hf : ∀ Q (hQ : Q ∈ qs), f Q = (key Q (hq Q hQ)).choose := fun Q hQ => dif_pos (hq Q hQ)
  refine ⟨f, ?_, fun Q hQ => ⟨fun hn => absurd ⟨h1, h2⟩ hn, ?_⟩⟩
  · unfold SWSHs_kernelF
    simp only
    rw [if_neg (by rintro (h | h) <;> omega), ca1, bind_ok, cb1, bind_ok]
    have := forL_map_wr (qs.map comps) values (by simpa using hlen) (SWSHs_valueF F eps A B s ell m) (fun R => f (mkQ R.1 R.2.1 R.2.2.1 R.2.2.2))
      (by
        intro R hR
        obtain ⟨Q, hQ, rfl⟩ := List.mem_map.mp hR
        rw [(key Q (hq Q hQ)).choose_spec.1]
        congr 1
        exact (hf Q hQ).symm)
    rw [List.map_map] at this
    exact this
  · rw [hf Q hQ]; exact (key Q (hq Q hQ)).choose_spec.2

/-- **C70.** `SWSH_grid`: one row per unit rotor; the entry of mode `(ell, m)` is at position `LM_index(ell, m, 0)`. -/
theorem C70_grid {L : ℤ} {table : List ℝ} (ht : RoundedTable u L table) (eps : ℝ) (he : 0 ≤ eps) (he1 : eps < 1 - u)
    (junk : ℕ → ℤ × ℤ) (qs : List ℍ[ℝ]) (hne : qs ≠ []) (hq : ∀ q ∈ qs, normSq q = 1) (s ell_max : ℤ) (h0 : -1 ≤ ell_max) (hl : ell_max ≤ L) :
    ∃ g : ℍ[ℝ] → ℤ × ℤ → ℂ,
      SWSH_gridF F eps table junk (qs.map comps) s ell_max = .ok (qs.map fun q => (LMlist 0 ell_max).map (g q)) ∧
      ∀ q ∈ qs, ∀ ell m : ℤ, |m| ≤ ell → ell ≤ ell_max →
        ((LMlist 0 ell_max).map (g q))[(LM_index ell m 0).toNat]? = some (g q (ell, m)) ∧
        (ell < |s| → g q (ell, m) = 0) ∧
        ‖g q (ell, m) - Spec.sYlm (partA q) (partB q) s ell m‖ ≤ swshErr u w eps ell := by
  classical
  have hin : ∀ t ∈ LMlist 0 ell_max, t.1 ≤ L := by
    intro t htm
    have := ((LMlist_spec ell_max (le_refl 0)).2 t).mp htm
    exact le_trans this.2.1 hl
  have key := fun (q : ℍ[ℝ]) (h : normSq q = 1) => C70_every_unit_rotor hF ht eps he he1 (partA q) (partB q) (unitQ.mpr h) s
    (LMlist 0 ell_max) (List.replicate (LMlist 0 ell_max).length (0 : ℂ)) (by simp) hin
  let g : ℍ[ℝ] → ℤ × ℤ → ℂ := fun q => if h : normSq q = 1 then (key q h).choose else fun _ => 0
  have hg : ∀ q (h : q ∈ qs), g q = (key q (hq q h)).choose := fun q h => dif_pos (hq q h)
  refine ⟨g, ?_, fun q hqm ell m h1 h2 => ?_⟩
  · unfold SWSH_gridF
    rw [LM_range_eq junk le_rfl (by omega), bind_ok]
    simp only
    rw [if_neg (by simpa using hne)]
    simp only [List.length_map]
    set T : ℍ[ℝ] → List ℂ := fun q => (LMlist 0 ell_max).map (g q) with hT
    obtain ⟨out, e1, e2, e3⟩ := forR_inv 0 (qs.length : ℤ) (by omega)
      (fun i (vals : List (List ℂ)) => vals.length = qs.length ∧ ∀ k : ℕ, k < qs.length →
        (((k : ℤ) < i → vals[k]? = (qs.map T)[k]?) ∧
          (i ≤ k → vals[k]? = some (List.replicate (LMlist 0 ell_max).length (0 : ℂ)))))
      (List.replicate qs.length (List.replicate (LMlist 0 ell_max).length (0 : ℂ)))
      (fun i values => do
        let R ← rd (qs.map comps) i
        let row ← rd values i
        let row ← SWSH_kernelF F eps table (quat_a R) (quat_b R) s (LMlist 0 ell_max) row
        wr values i row)
      (by
        refine ⟨by simp, fun k hk => ⟨fun h => absurd h (by omega), fun _ => ?_⟩⟩
        simp [hk])
      (by
        rintro i vals hi1 hi2 ⟨hlen, hI⟩
        have hk : i.toNat < qs.length := by omega
        have r1 : rd (qs.map comps) i = .ok (comps qs[i.toNat]) := rd_ok hi1 (by simp [hk])
        have r2 := rd_ok hi1 ((hI i.toNat hk).2 (by omega))
        refine ⟨vals.set i.toNat (T qs[i.toNat]), ?_, by simp [hlen], ?_⟩
        · rw [r1, bind_ok, r2, bind_ok]
          have hm := List.getElem_mem hk
          have := (key qs[i.toNat] (hq _ hm)).choose_spec.1
          rw [← hg _ hm] at this
          change (SWSH_kernelF F eps table (partA qs[i.toNat]) (partB qs[i.toNat]) s _ _ >>= _) = _
          rw [this, bind_ok, wr_ok hi1 (by omega)]
        · intro k hkq
          rw [List.getElem?_set]
          by_cases hki : i.toNat = k
          · subst hki
            rw [if_pos rfl, if_pos (by omega)]
            refine ⟨fun _ => by simp [hk], fun h => absurd h (by omega)⟩
          · rw [if_neg hki]
            refine ⟨fun h => (hI k hkq).1 (by omega), fun h => (hI k hkq).2 (by omega)⟩)
    refine Eq.trans e1 ?_
    congr 1
    apply List.ext_getElem?
    intro k
    by_cases hk : k < qs.length
    · exact (e3 k hk).1 (by omega)
    · rw [List.getElem?_eq_none (by omega), List.getElem?_eq_none (by simp; omega)]
  · have hm := abs_le.mp h1
    have hx := (LMlist_index (a := 0) (b := ell_max) le_rfl (by omega) h2 hm.1 hm.2).2
    have hmem : (ell, m) ∈ LMlist 0 ell_max := List.mem_of_getElem? hx
    have := (key q (hq q hqm)).choose_spec.2 (ell, m) hmem
    rw [← hg q hqm] at this
    refine ⟨?_, fun h => this.1 (fun hh => absurd hh.2 (by simpa using h)), this.2⟩
    rw [List.getElem?_map, hx]
    rfl

/-- **C70.** `Modes.evaluate`: the value at each unit rotor differs from the function with these mode weights by the errors of the
harmonics, weighted with the mode weights, and the error of the inner product. -/
theorem C70_evaluate {L : ℤ} {table : List ℝ} (ht : RoundedTable u L table) (eps : ℝ) (he : 0 ≤ eps) (he1 : eps < 1 - u)
    (junk : ℕ → ℤ × ℤ) (f : Modes) (hf : f.WF) (hL : f.ell_max ≤ L) (qs : List ℍ[ℝ]) (hne : qs ≠ []) (hq : ∀ q ∈ qs, normSq q = 1) :
    ∃ v : ℍ[ℝ] → MIdx → ℂ, f.evaluateF F eps table junk (qs.map comps) = .ok (qs.map v) ∧
      ∀ q ∈ qs, ∀ idx,
        ‖v q idx - Spec.fieldValue f.s f.ell_max (fun ell m => f.coef ell m idx) (partA q) (partB q)‖
          ≤ ∑ ell ∈ Icc 0 f.ell_max, ∑ m ∈ Icc (-ell) ell, ‖f.coef ell m idx‖ *
              (swshErr u w eps ell + δ (((f.ell_max + 1) ^ 2).toNat) *
                (Real.sqrt ((2 * ell + 1) / (4 * Real.pi)) + swshErr u w eps ell)) := by
  have hge := hf.ell_max_ge
  obtain ⟨g, g1, g2⟩ := C70_grid hF ht eps he he1 junk qs hne hq f.s f.ell_max hge hL
  have hlen : ((LMlist 0 f.ell_max).length : ℤ) = (f.dat.length : ℤ) := by
    rw [LMlist_length le_rfl (by omega), hf.size, LM_total_size_zero]
  have hlen' : (LMlist 0 f.ell_max).length = f.dat.length := by exact_mod_cast hlen
  have hslice : ∀ row : List ℂ, row.length = f.dat.length →
      getSlice row (LM_index 0 (-0) 0) (LM_index f.ell_max f.ell_max 0 + 1) = row := by
    intro row hr
    have e1 : LM_index 0 (-0) 0 = 0 := by rw [LM_index_zero]; simp
    have e2 : LM_index f.ell_max f.ell_max 0 + 1 = (row.length : ℤ) := by
      rw [LM_index_zero, hr, hf.size]; ring
    unfold getSlice
    rw [e1, e2]
    simp
  have zip : ∀ {M : Type} [AddCommMonoid M] (h : ℂ → ℂ → M) (k : ℤ × ℤ → ℂ) (idx : MIdx),
      (List.zipWith h (f.dat.map fun v => v idx) ((LMlist 0 f.ell_max).map k)).sum
        = ∑ ell ∈ Icc 0 f.ell_max, ∑ m ∈ Icc (-ell) ell, h (f.coef ell m idx) (k (ell, m)) := by
    intro M _ h k idx
    rw [← sum_LMlist 0 f.ell_max (fun ell m => h (f.coef ell m idx) (k (ell, m)))]
    congr 1
    apply List.ext_getElem?
    intro i
    rw [List.getElem?_zipWith, List.getElem?_map, List.getElem?_map, List.getElem?_map]
    by_cases hk : i < f.dat.length
    · obtain ⟨ell, m, h0, h1, h2, rfl⟩ := mpos_surj hf.size hge hk
      have := abs_le.mp h2
      have hx := (LMlist_index (a := 0) (b := f.ell_max) le_rfl h0 h1 this.1 this.2).2
      unfold mpos
      rw [hx]
      have := hf.get h2 h1
      unfold mpos at this
      rw [this]
      rfl
    · rw [List.getElem?_eq_none (by omega), List.getElem?_eq_none (by omega)]
      rfl
  refine ⟨fun q idx => F.dot (f.dat.map fun v => v idx) ((LMlist 0 f.ell_max).map (g q)), ?_, fun q hqm idx => ?_⟩
  · unfold Modes.evaluateF
    rw [g1, bind_ok]
    apply mapM_ok
    intro q _
    simp only
    rw [hslice _ (by rw [List.length_map]; exact hlen'), if_neg (by rw [List.length_map]; push Not; exact hlen')]
  · have hd := hF.dot (f.dat.map fun v => v idx) ((LMlist 0 f.ell_max).map (g q)) (by simp [hlen'])
    rw [zip, zip, List.length_map] at hd
    have hN : f.dat.length = ((f.ell_max + 1) ^ 2).toNat := by
      have := hf.size
      omega
    rw [hN] at hd
    have hd0 := hF.dot_nonneg (((f.ell_max + 1) ^ 2).toNat)
    set d := δ (((f.ell_max + 1) ^ 2).toNat)
    have hu := unitQ.mpr (hq q hqm)
    have inner : ∀ ell ∈ Icc 0 f.ell_max, ∀ m ∈ Icc (-ell) ell,
        ‖g q (ell, m) - Spec.sYlm (partA q) (partB q) f.s ell m‖ ≤ swshErr u w eps ell ∧
        ‖g q (ell, m)‖ ≤ Real.sqrt ((2 * ell + 1) / (4 * Real.pi)) + swshErr u w eps ell := by
      intro ell h1 m h2
      rw [mem_Icc] at h1 h2
      have e := (g2 q hqm ell m (abs_le.mpr h2) h1.2).2.2
      refine ⟨e, ?_⟩
      obtain ⟨l, rfl⟩ := Int.eq_ofNat_of_zero_le h1.1
      have n := sYlm_norm_le hu f.s m l
      have := norm_le_norm_add_norm_sub' (g q ((l : ℤ), m)) (Spec.sYlm (partA q) (partB q) f.s l m)
      push_cast at *
      linarith
    have h2 : ‖(∑ ell ∈ Icc 0 f.ell_max, ∑ m ∈ Icc (-ell) ell, f.coef ell m idx * g q (ell, m))
        - Spec.fieldValue f.s f.ell_max (fun ell m => f.coef ell m idx) (partA q) (partB q)‖
        ≤ ∑ ell ∈ Icc 0 f.ell_max, ∑ m ∈ Icc (-ell) ell, ‖f.coef ell m idx‖ * swshErr u w eps ell := by
      rw [fieldValue_from_zero, ← Finset.sum_sub_distrib]
      refine (norm_sum_le _ _).trans (Finset.sum_le_sum fun ell hell => ?_)
      rw [← Finset.sum_sub_distrib]
      refine (norm_sum_le _ _).trans (Finset.sum_le_sum fun m hm => ?_)
      rw [← mul_sub, norm_mul]
      exact mul_le_mul_of_nonneg_left (inner ell hell m hm).1 (norm_nonneg _)
    have h3 : d * ∑ ell ∈ Icc 0 f.ell_max, ∑ m ∈ Icc (-ell) ell, ‖f.coef ell m idx‖ * ‖g q (ell, m)‖
        ≤ ∑ ell ∈ Icc 0 f.ell_max, ∑ m ∈ Icc (-ell) ell, ‖f.coef ell m idx‖ *
          (d * (Real.sqrt ((2 * ell + 1) / (4 * Real.pi)) + swshErr u w eps ell)) := by
      rw [Finset.mul_sum]
      refine Finset.sum_le_sum fun ell hell => ?_
      rw [Finset.mul_sum]
      refine Finset.sum_le_sum fun m hm => ?_
      rw [mul_left_comm]
      exact mul_le_mul_of_nonneg_left (mul_le_mul_of_nonneg_left (inner ell hell m hm).2 hd0) (norm_nonneg _)
    have h4 := norm_sub_le_norm_sub_add_norm_sub (F.dot (f.dat.map fun v => v idx) ((LMlist 0 f.ell_max).map (g q)))
      (∑ ell ∈ Icc 0 f.ell_max, ∑ m ∈ Icc (-ell) ell, f.coef ell m idx * g q (ell, m))
      (Spec.fieldValue f.s f.ell_max (fun ell m => f.coef ell m idx) (partA q) (partB q))
    refine (h4.trans (add_le_add (hd.trans h3) h2)).trans (le_of_eq ?_)
    rw [← Finset.sum_add_distrib]
    refine Finset.sum_congr rfl fun ell _ => ?_
    rw [← Finset.sum_add_distrib]
    refine Finset.sum_congr rfl fun m _ => ?_
    ring

end

/-- **C70.** Size of the bound for every `ell ≤ 32`. -/
theorem C70_bound {u : ℝ} (h0 : 0 ≤ u) (hu : u ≤ 2 ^ (-50 : ℤ)) {n : ℕ} (hn : n ≤ 64) : floatErrY u n ≤ 20 * (n + 1) * u := by
  have hu' : u ≤ 1 / 10 ^ 15 := hu.trans (by norm_num)
  have hu1 : u < 1 := lt_of_le_of_lt hu' (by norm_num)
  have g : ∀ k : ℕ, k ≤ 524 → gam u k ≤ k * u * (1 + 1 / 10 ^ 6) := by
    intro k hk
    have hk' : (k : ℝ) ≤ 524 := by exact_mod_cast hk
    have hku : (k : ℝ) * u ≤ 1 / 10 ^ 7 := by nlinarith
    have ku0 : 0 ≤ (k : ℝ) * u := by positivity
    have := gam_le h0 hu1 (k := k) (by linarith)
    refine this.trans ?_
    rw [div_le_iff₀ (by linarith)]
    nlinarith
  unfold floatErrY
  have hpi := Real.pi_lt_d2
  have hpi0 := Real.pi_pos
  have g1 := g (2 * n + 11 + 11 * (n / 2)) (by omega)
  have g2 := g 3 (by norm_num)
  have hn' : (n : ℝ) ≤ 64 := by exact_mod_cast hn
  have n0 : (0 : ℝ) ≤ n := by positivity
  have e1 : ((2 * n + 11 + 11 * (n / 2) : ℕ) : ℝ) ≤ 7.5 * n + 11 := by
    have : 2 * (2 * n + 11 + 11 * (n / 2)) ≤ 15 * n + 22 := by omega
    have h : (2 : ℝ) * ((2 * n + 11 + 11 * (n / 2) : ℕ) : ℝ) ≤ 15 * n + 22 := by exact_mod_cast this
    linarith
  have f1 : gam u (2 * n + 11 + 11 * (n / 2)) ≤ (7.5 * n + 11) * u * (1 + 1 / 10 ^ 6) := g1.trans (by gcongr)
  have f2 : gam u 3 * (Real.pi * n) ≤ (3 * u * (1 + 1 / 10 ^ 6)) * (3.15 * n) := by
    push_cast at g2
    gcongr
  have : (7.5 * (n : ℝ) + 11) * u * (1 + 1 / 10 ^ 6) + (3 * u * (1 + 1 / 10 ^ 6)) * (3.15 * n) ≤ 20 * (n + 1) * u := by
    have : ((7.5 * (n : ℝ) + 11) * (1 + 1 / 10 ^ 6) + (3 * (1 + 1 / 10 ^ 6)) * (3.15 * n)) ≤ 20 * (n + 1) := by
      norm_num; linarith
    nlinarith [mul_le_mul_of_nonneg_right this h0]
  linarith

/-- **C70.** In numbers: with `u ≤ 2^-50`, `epsilon = 1e-15` and complex powers accurate to `1e-14`, every harmonic with `ell ≤ 8`
is within `2e-10` at every unit rotor. -/
theorem C70_double {u w : ℝ} (hu0 : 0 ≤ u) (hw0 : 0 ≤ w) (hu50 : u ≤ 2 ^ (-50 : ℤ)) (hw : w ≤ 1 / 10 ^ 14) (ell : ℤ) (h0 : 0 ≤ ell)
    (h8 : ell ≤ 8) : swshErr u w (1 / 10 ^ 15) ell ≤ 2 / 10 ^ 10 := by
  have hu' : u ≤ 1 / 10 ^ 15 := hu50.trans (by norm_num)
  have hn : (2 * ell).toNat ≤ 16 := by omega
  unfold swshErr
  set n := (2 * ell).toNat
  have hn' : (n : ℝ) ≤ 16 := by exact_mod_cast hn
  have n0 : (0 : ℝ) ≤ n := by positivity
  have hl : (ell : ℝ) ≤ 8 := by exact_mod_cast h8
  have hl0 : (0 : ℝ) ≤ ell := by exact_mod_cast h0
  have hc : Real.sqrt ((2 * (ell : ℝ) + 1) / (4 * Real.pi)) ≤ 2 := by
    rw [Real.sqrt_le_left (by norm_num), div_le_iff₀ (by have := Real.pi_pos; positivity)]
    have := Real.pi_gt_three
    nlinarith
  have hmax : max (floatErrY u n * Real.sqrt 2 ^ n) (poleErrY u ((1 + w) * poleErr (1 / 10 ^ 15 / (1 - u)) n + w)) ≤ 1 / 10 ^ 10 := by
    apply max_le
    · have b := C70_bound hu0 hu50 (show n ≤ 64 by omega)
      have s : Real.sqrt 2 ^ n ≤ 256 := by
        have h1 : (1 : ℝ) ≤ Real.sqrt 2 := by rw [Real.one_le_sqrt]; norm_num
        calc Real.sqrt 2 ^ n ≤ Real.sqrt 2 ^ 16 := pow_le_pow_right₀ h1 hn
          _ = (Real.sqrt 2 ^ 2) ^ 8 := by rw [← pow_mul]
          _ = 256 := by rw [Real.sq_sqrt (by norm_num)]; norm_num
      have b2 : 20 * ((n : ℝ) + 1) * u ≤ 340 * 2 ^ (-50 : ℤ) := by
        have : 20 * ((n : ℝ) + 1) ≤ 340 := by linarith
        gcongr
      calc floatErrY u n * Real.sqrt 2 ^ n ≤ (340 * 2 ^ (-50 : ℤ)) * 256 := by
            apply mul_le_mul (b.trans b2) s (by positivity) (by positivity)
        _ ≤ _ := by norm_num
    · set x := 1 / 10 ^ 15 / (1 - u) with hx
      have x1 : x ≤ 2 / 10 ^ 15 := by
        rw [hx, div_le_iff₀ (by linarith)]
        linarith
      have x0 : 0 ≤ x := by rw [hx]; apply div_nonneg (by norm_num); linarith
      have p : poleErr x n ≤ poleErr (2 / 10 ^ 15) 16 := by
        refine (poleErr_mono x0 x1 (by norm_num) n).trans ?_
        unfold poleErr
        have a1 : ((1 - (2 / 10 ^ 15 : ℝ) ^ 2) ^ 16) ≤ ((1 - (2 / 10 ^ 15 : ℝ) ^ 2) ^ n) :=
          pow_le_pow_of_le_one (by norm_num) (by norm_num) hn
        have a2 := inv_anti₀ (by norm_num) a1
        push_cast
        have : ((n : ℝ) + 2) * (2 / 10 ^ 15) ≤ (16 + 2) * (2 / 10 ^ 15) := by gcongr
        linarith
      have p2 : poleErr (2 / 10 ^ 15) 16 ≤ 1 / 10 ^ 13 := by unfold poleErr; norm_num
      have p0 := poleErr_nonneg x0 (lt_of_le_of_lt x1 (by norm_num)) n
      have : (1 + w) * poleErr x n ≤ 2 * (1 / 10 ^ 13) := by
        apply mul_le_mul (by linarith) (p.trans p2) p0 (by norm_num)
      have q0 : 0 ≤ (1 + w) * poleErr x n := by positivity
      have e1 : (1 + w) * poleErr x n + w ≤ 3 / 10 ^ 13 := by
        have : (2 : ℝ) * (1 / 10 ^ 13) + 1 / 10 ^ 14 ≤ 3 / 10 ^ 13 := by norm_num
        linarith
      have hg5 : gam u 5 ≤ 1 / 10 ^ 13 := by
        have hu1 : u < 1 := lt_of_le_of_lt hu' (by norm_num)
        refine (gam_le hu0 hu1 (k := 5) (by push_cast; linarith)).trans ?_
        push_cast
        rw [div_le_iff₀ (by linarith)]
        linarith
      unfold poleErrY
      have : gam u 5 * (1 + ((1 + w) * poleErr x n + w)) ≤ 1 / 10 ^ 13 * 2 := by
        apply mul_le_mul hg5 _ (by linarith) (by norm_num)
        have : (3 : ℝ) / 10 ^ 13 ≤ 1 := by norm_num
        linarith
      have e : (1 : ℝ) / 10 ^ 13 * 2 + 3 / 10 ^ 13 ≤ 1 / 10 ^ 10 := by norm_num
      linarith
  calc _ ≤ 2 * (1 / 10 ^ 10 : ℝ) := by
        apply mul_le_mul hc hmax _ (by norm_num)
        refine le_max_of_le_left (mul_nonneg ?_ (by positivity))
        exact floatErrY_nonneg hu0 (lt_of_le_of_lt hu' (by norm_num)) n
    _ = _ := by norm_num

/-! ## Powers by repeated multiplication and inner products by sequential summation satisfy the hypotheses -/

/-- `x ** n` by repeated multiplication. -/
noncomputable def powSeq (F : FloatOps) (x : ℝ) : ℕ → ℝ
  | 0 => 1
  | n + 1 => F.mul (powSeq F x n) x

/-- Inner product: complex products, each with four rounded multiplications, added one after the other. -/
noncomputable def dotSeq (F : FloatOps) : List ℂ → List ℂ → ℂ
  | x :: a, y :: b =>
    let p : ℂ := ⟨F.add (F.mul x.re y.re) (-F.mul x.im y.im), F.add (F.mul x.re y.im) (F.mul x.im y.re)⟩
    let d := dotSeq F a b
    ⟨F.add p.re d.re, F.add p.im d.im⟩
  | _, _ => 0

section
variable {u w : ℝ} {F : FloatOps} (hF : F.Std u w)
include hF

theorem powSeq_near (x : ℝ) (n : ℕ) : Near u n (powSeq F x n) (x ^ n) := by
  have h0 := hF.u_nonneg
  have h1 := hF.u_lt_one
  induction n with
  | zero => exact Near.refl h0 h1 1
  | succ n ih =>
    have a : Near u 1 (F.mul (powSeq F x n) x) (powSeq F x n * x) := RelErr.fac h0 h1 (hF.mul _ _)
    have b := Near.mul h0 h1 ih (Near.refl h0 h1 x)
    have := Near.trans h0 h1 a b
    rw [pow_succ]
    exact this

theorem gam_step (k : ℕ) : gam u 1 * (1 + gam u k) + gam u k = gam u (k + 1) := by
  have : (1 - u) ≠ 0 := by have := hF.u_lt_one; linarith
  unfold gam
  rw [pow_one, pow_succ, mul_inv]
  ring

theorem add_err1 {x X y Y : ℝ} {s t : ℝ} {k : ℕ} (hx : |x - X| ≤ gam u k * s) (hX : |X| ≤ s) (hy : |y - Y| ≤ gam u k * t)
    (hY : |Y| ≤ t) : |F.add x y - (X + Y)| ≤ gam u (k + 1) * (s + t) := by
  have h0 := hF.u_nonneg
  have h1 := hF.u_lt_one
  have e := Near.err h0 h1 (RelErr.fac h0 h1 (hF.add x y))
  have b : |x + y| ≤ (1 + gam u k) * (s + t) := by
    calc |x + y| = |(x - X) + X + ((y - Y) + Y)| := by ring_nf
      _ ≤ |x - X| + |X| + (|y - Y| + |Y|) := (abs_add_le _ _).trans (add_le_add (abs_add_le _ _) (abs_add_le _ _))
      _ ≤ _ := by linarith
  have g := gam_nonneg h0 h1 1
  have c : |F.add x y - (X + Y)| ≤ |F.add x y - (x + y)| + (|x - X| + |y - Y|) := by
    calc |F.add x y - (X + Y)| = |(F.add x y - (x + y)) + ((x - X) + (y - Y))| := by ring_nf
      _ ≤ _ := (abs_add_le _ _).trans (add_le_add le_rfl (abs_add_le _ _))
  have d := mul_le_mul_of_nonneg_left b g
  rw [← gam_step hF k]
  linarith

theorem prod2_err (a b c d : ℝ) : |F.add (F.mul a b) (F.mul c d) - (a * b + c * d)| ≤ gam u 2 * (|a * b| + |c * d|) := by
  have h0 := hF.u_nonneg
  have h1 := hF.u_lt_one
  exact add_err1 hF (k := 1) (Near.err h0 h1 (RelErr.fac h0 h1 (hF.mul a b))) le_rfl
    (Near.err h0 h1 (RelErr.fac h0 h1 (hF.mul c d))) le_rfl

theorem prod2_err' (a b c d : ℝ) : |F.add (F.mul a b) (-F.mul c d) - (a * b - c * d)| ≤ gam u 2 * (|a * b| + |c * d|) := by
  have h0 := hF.u_nonneg
  have h1 := hF.u_lt_one
  have := add_err1 hF (k := 1) (Near.err h0 h1 (RelErr.fac h0 h1 (hF.mul a b))) le_rfl
    (Near.err h0 h1 (Near.neg h0 h1 (RelErr.fac h0 h1 (hF.mul c d)))) le_rfl
  rw [abs_neg, ← sub_eq_add_neg] at this
  exact this

omit hF in
theorem two_products (x y : ℂ) : |x.re * y.re| + |x.im * y.im| ≤ ‖x‖ * ‖y‖ ∧ |x.re * y.im| + |x.im * y.re| ≤ ‖x‖ * ‖y‖ := by
  have key : ∀ a b c d : ℝ, |a * c| + |b * d| ≤ Real.sqrt (a ^ 2 + b ^ 2) * Real.sqrt (c ^ 2 + d ^ 2) := by
    intro a b c d
    rw [← Real.sqrt_mul (by positivity)]
    apply Real.le_sqrt_of_sq_le
    rw [abs_mul, abs_mul, ← sq_abs a, ← sq_abs b, ← sq_abs c, ← sq_abs d]
    nlinarith [sq_nonneg (|a| * |d| - |b| * |c|)]
  have e : ∀ z : ℂ, ‖z‖ = Real.sqrt (z.re ^ 2 + z.im ^ 2) := by
    intro z; rw [Complex.norm_def, Complex.normSq_apply]; ring_nf
  constructor
  · rw [e, e]; exact key _ _ _ _
  · rw [e, e, add_comm (y.re ^ 2)]; exact key _ _ _ _

theorem dotSeq_err (a b : List ℂ) (h : a.length = b.length) :
    |(dotSeq F a b).re - (List.zipWith (· * ·) a b).sum.re| ≤ gam u (a.length + 2) * (List.zipWith (fun x y => ‖x‖ * ‖y‖) a b).sum ∧
    |(dotSeq F a b).im - (List.zipWith (· * ·) a b).sum.im| ≤ gam u (a.length + 2) * (List.zipWith (fun x y => ‖x‖ * ‖y‖) a b).sum ∧
    ‖(List.zipWith (· * ·) a b).sum‖ ≤ (List.zipWith (fun x y => ‖x‖ * ‖y‖) a b).sum := by
  have h0 := hF.u_nonneg
  have h1 := hF.u_lt_one
  induction a generalizing b with
  | nil => simp [dotSeq]
  | cons x a ih =>
    cases b with
    | nil => simp at h
    | cons y b =>
      obtain ⟨i1, i2, i3⟩ := ih b (by simpa using h)
      set S := (List.zipWith (· * ·) a b).sum
      set T := (List.zipWith (fun x y : ℂ => ‖x‖ * ‖y‖) a b).sum
      have tp := two_products x y
      have gm := gam_mono h0 h1 (show 2 ≤ a.length + 2 by omega)
      have g2 := gam_nonneg h0 h1 2
      have n0 : 0 ≤ ‖x‖ * ‖y‖ := by positivity
      simp only [dotSeq, List.zipWith_cons_cons, List.sum_cons, List.length_cons, Complex.add_re, Complex.add_im, Complex.mul_re,
        Complex.mul_im]
      rw [show a.length + 1 + 2 = a.length + 2 + 1 by omega]
      refine ⟨?_, ?_, ?_⟩
      · apply add_err1 hF _ _ i1 ((Complex.abs_re_le_norm _).trans i3)
        · refine (prod2_err' hF _ _ _ _).trans (mul_le_mul gm tp.1 (by positivity) (g2.trans gm))
        · refine le_trans ?_ tp.1
          exact abs_sub _ _
      · apply add_err1 hF _ _ i2 ((Complex.abs_im_le_norm _).trans i3)
        · refine (prod2_err hF _ _ _ _).trans (mul_le_mul gm tp.2 (by positivity) (g2.trans gm))
        · exact (abs_add_le _ _).trans tp.2
      · refine (norm_add_le _ _).trans ?_
        rw [norm_mul]
        linarith

/-- Error of sequential inner products. -/
theorem dotSeq_norm (a b : List ℂ) (h : a.length = b.length) :
    ‖dotSeq F a b - (List.zipWith (· * ·) a b).sum‖ ≤ 2 * gam u (a.length + 2) * (List.zipWith (fun x y => ‖x‖ * ‖y‖) a b).sum := by
  obtain ⟨h1, h2, -⟩ := dotSeq_err hF a b h
  refine (Complex.norm_le_abs_re_add_abs_im _).trans ?_
  rw [Complex.sub_re, Complex.sub_im]
  linarith

end

/-- Correctly rounded operations, powers by repeated multiplication and sequential inner products. -/
noncomputable def F53Y : FloatOpsY where
  toFloatOps := F53
  sqrt x := fl53 (Real.sqrt x)
  ipow x n := powSeq F53 x n.toNat
  pi := fl53 Real.pi
  dot := dotSeq F53

theorem F53Y_std : F53Y.Std (2 ^ (-53 : ℤ)) (2 ^ (-53 : ℤ)) (fun N => 2 * gam (2 ^ (-53 : ℤ)) (N + 2)) where
  toStd := F53_std
  sqrt _ _ := fl53_err _
  ipow x n _ := powSeq_near F53_std x n
  pi := fl53_err _
  dot_nonneg N := by
    have := gam_nonneg F53_std.u_nonneg F53_std.u_lt_one (N + 2)
    linarith
  dot a b h := dotSeq_norm F53_std a b h

/-- Non-vacuity of C70: 53-bit arithmetic, the table for `L = 32`, a generic rotor and the identity, modes in and out of range; and a
`Modes` object of spin weight `-2`. -/
example : ∃ table, RoundedTable (2 ^ (-53 : ℤ)) 32 table ∧
    (∃ f : ℤ × ℤ → ℂ, SWSH_kernelF F53Y (1 / 10 ^ 15) table (3 / 5) (4 / 5) (-2) [(2, 1), (8, -3), (1, 0)] [7, 7, 7]
      = .ok [f (2, 1), f (8, -3), f (1, 0)] ∧ f (1, 0) = 0 ∧
      ‖f (8, -3) - Spec.sYlm (3 / 5) (4 / 5) (-2) 8 (-3)‖ ≤ 2 / 10 ^ 10) ∧
    (∃ f : ℍ[ℝ] → ℂ, SWSHs_kernelF F53Y (1 / 10 ^ 15) table ([(1 : ℍ[ℝ])].map comps) (-2) 2 2 [7] = .ok [f 1] ∧
      ‖f 1 - Spec.sYlm (partA 1) (partB 1) (-2) 2 2‖ ≤ 2 / 10 ^ 10) := by
  obtain ⟨t, ht⟩ := IsWignerTable.exists 32 (by norm_num)
  have tt := table53 ht
  have u1 : Spec.IsUnit' (3 / 5) (4 / 5) := by
    unfold Spec.IsUnit'
    rw [map_div₀, map_div₀]
    norm_num [Complex.normSq_apply]
  have h50 : (2 : ℝ) ^ (-53 : ℤ) ≤ 2 ^ (-50 : ℤ) := by norm_num
  have hw : (2 : ℝ) ^ (-53 : ℤ) ≤ 1 / 10 ^ 14 := by norm_num
  obtain ⟨f, f1, f2⟩ := C70_every_unit_rotor F53Y_std tt (1 / 10 ^ 15) (by norm_num) (by norm_num) (3 / 5) (4 / 5) u1 (-2)
    [(2, 1), (8, -3), (1, 0)] [7, 7, 7] rfl (by simp)
  obtain ⟨h, h1, h2⟩ := C70_array F53Y_std tt (1 / 10 ^ 15) (by norm_num) (by norm_num) [1] (by simp) (-2) 2 2 (by norm_num) [7] rfl
  refine ⟨t.map fl53, tt, ⟨f, f1, (f2 (1, 0) (by simp)).1 (by norm_num), ?_⟩, ⟨h, h1, ?_⟩⟩
  · exact ((f2 (8, -3) (by simp)).2).trans (C70_double (by positivity) (by positivity) h50 hw 8 (by norm_num) (by norm_num))
  · exact ((h2 1 (by simp)).2).trans (C70_double (by positivity) (by positivity) h50 hw 2 (by norm_num) (by norm_num))

/-- Non-vacuity of `C70_evaluate`: `exModes` in 53-bit arithmetic at the identity. -/
example : ∃ (table : List ℝ) (v : ℍ[ℝ] → MIdx → ℂ), exModes.evaluateF F53Y (1 / 10 ^ 15) table (fun _ => (0, 0)) ([(1 : ℍ[ℝ])].map comps) = .ok [v 1] := by
  obtain ⟨t, ht⟩ := IsWignerTable.exists 32 (by norm_num)
  obtain ⟨v, e, -⟩ := C70_evaluate F53Y_std (table53 ht) (1 / 10 ^ 15) (by norm_num) (by norm_num) (fun _ => (0, 0)) exModes
    exModes_WF (by decide) [1] (by simp) (by simp)
  exact ⟨_, v, e⟩

end SF
