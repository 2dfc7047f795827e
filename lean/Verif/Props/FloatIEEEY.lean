import Verif.Lemmas.IEEEYV
import Verif.Props.FloatErrorY

/-!
# Property C87: the harmonics and `Modes.evaluate` in floating-point arithmetic with underflow and overflow, for approximately
normalised rotors

`FloatOpsY.IEEE F u w η ν Ω P δ ζ` (Model/SWSHIEEE): every operation whose exact result is at most `Ω` has relative error at most `u`,
or — if the exact result is below `ν` — absolute error at most `η`; nothing is assumed about the other operations.  The rotor handed
to the kernel has a norm within `τ` of 1, and the value is compared with the harmonic of the *exactly normalised* rotor.
-/

set_option autoImplicit false

namespace SF

open Finset ComplexConjugate Quaternion

/-- Error of one harmonic of degree `ell`: the larger of the formula's and the shortcuts' error; `x` bounds the smaller modulus of the
rotors that take the shortcuts. -/
noncomputable def swshErrI (u w η τ x : ℝ) (ell : ℤ) : ℝ :=
  max (Real.sqrt ((2 * (ell : ℝ) + 1) / (4 * Real.pi)) *
        (floatErrY u (2 * ell).toNat * Real.sqrt 2 ^ (2 * ell).toNat * (1 + gam τ (2 * ell).toNat) + gam τ (2 * ell).toNat)
        + underErrY η (2 * ell).toNat)
    (Real.sqrt ((2 * (ell : ℝ) + 1) / (4 * Real.pi)) * poleErrY u (ieeePole w τ x (2 * ell).toNat) + 2 * η)

/-- The range of the floating-point numbers suffices for degrees up to `L`: no over- or underflow can spoil the result. -/
structure RangeY (u w η ν Ω eps τ : ℝ) (P : ℕ) (L : ℤ) : Prop where
  range : Range u η ν Ω eps ((2 * L).toNat + 2)
  powers : (2 * L).toNat ≤ P
  w_le : w ≤ 1
  τ_nonneg : 0 ≤ τ
  τ_lt : τ < 1
  τ_pow : 1 / 2 ≤ (1 - τ) ^ (2 * L).toNat
  pole_lt : eps / ((1 - u) * (1 - τ)) < 1
  pole : ∀ n ≤ (2 * L).toNat, poleErr (eps / ((1 - u) * (1 - τ))) n ≤ 1

theorem RangeY.at {u w η ν Ω eps τ : ℝ} {P : ℕ} {L : ℤ} (h : RangeY u w η ν Ω eps τ P L) (hu0 : 0 ≤ u) (hu1 : u < 1) (hν : 0 < ν) {ell : ℤ}
    (h0 : 0 ≤ ell) (hl : ell ≤ L) : Range u η ν Ω eps ((2 * ell).toNat + 2) ∧ (2 * ell).toNat ≤ P ∧ 1 / 2 ≤ (1 - τ) ^ (2 * ell).toNat ∧
      poleErr (eps / ((1 - u) * (1 - τ))) (2 * ell).toNat ≤ 1 ∧ 2 * ell = ((2 * ell).toNat : ℕ) := by
  have hle : (2 * ell).toNat ≤ (2 * L).toNat := by omega
  refine ⟨h.range.mono hu0 hu1 hν (by omega), hle.trans h.powers, ?_, h.pole _ hle, by omega⟩
  exact h.τ_pow.trans (pow_le_pow_of_le_one (by linarith [h.τ_lt]) (by linarith [h.τ_nonneg]) hle)

theorem sYlm_scale (N : ℝ) (za zb : ℂ) {s ell m : ℤ} (h1 : |m| ≤ ell) (h2 : |s| ≤ ell) :
    Spec.sYlm (N * za) (N * zb) s ell m = ((N ^ (2 * ell).toNat : ℝ) : ℂ) * Spec.sYlm za zb s ell m := by
  obtain ⟨p', q', p, q, hsum, g1, g2, g3, g4⟩ := int_pq h1 (show |-s| ≤ ell by rwa [abs_neg])
  rw [sYlm_pq _ _ h1 h2 hsum g1 g2 g3 g4, sYlm_pq _ _ h1 h2 hsum g1 g2 g3 g4, Dpq_scale N za zb hsum, show p + q = (2 * ell).toNat by omega]
  push_cast
  ring

section
variable {u w η ν Ω eps τ : ℝ} {P : ℕ} {δ ζ : ℕ → ℝ} {F : FloatOpsY} (hF : F.IEEE u w η ν Ω P δ ζ) {L : ℤ} (hY : RangeY u w η ν Ω eps τ P L)
include hF hY

theorem swshErrI_nonneg (ell : ℤ) : 0 ≤ swshErrI u w η τ (eps / ((1 - u) * (1 - τ))) ell := by
  unfold swshErrI
  have h1 := floatErrY_nonneg hF.u_nonneg hF.u_lt_one (2 * ell).toNat
  have h2 := gam_nonneg hY.τ_nonneg hY.τ_lt (2 * ell).toNat
  have h3 := hF.η_nonneg
  refine le_max_of_le_left (add_nonneg (mul_nonneg (Real.sqrt_nonneg _) ?_) (by unfold underErrY; positivity))
  positivity

/-- From the rotor of norm `N` to the normalised one. -/
theorem closeI {N : ℝ} (hN : |N - 1| ≤ τ) {za zb : ℂ} (hu : Spec.IsUnit' za zb) {s ell m : ℤ} (h1 : |m| ≤ ell) (h2 : |s| ≤ ell) {v : ℂ}
    (h : GenericI u η (N * za) (N * zb) s ell m v) :
    ‖v - Spec.sYlm za zb s ell m‖ ≤ swshErrI u w η τ (eps / ((1 - u) * (1 - τ))) ell := by
  have hτ0 := hY.τ_nonneg
  have hτ := hY.τ_lt
  have fN := fac_of_abs hN hτ
  have N0 := Fac.pos hτ0 hτ fN
  have nm : ∀ z : ℂ, ‖(N : ℂ) * z‖ = N * ‖z‖ := fun z => by rw [norm_mul, Complex.norm_real, Real.norm_eq_abs, abs_of_pos N0]
  have h0 : 0 ≤ ell := by have := abs_nonneg m; omega
  have h' := h.1
  set n := (2 * ell).toNat with hn
  have fp := floatErrY_nonneg hF.u_nonneg hF.u_lt_one n
  have hf := Fac.mono hτ0 hτ (show n * 1 ≤ n by omega) (Fac.pow hτ0 hτ fN n)
  have hfa := Fac.abs_sub hτ0 hτ hf
  have g0 := gam_nonneg hτ0 hτ n
  rw [sYlm_scale N za zb h1 h2, ← hn, nm, nm, ← mul_add, mul_pow] at h'
  have e : v - Spec.sYlm za zb s ell m = (v - ((N ^ n : ℝ) : ℂ) * Spec.sYlm za zb s ell m)
      + ((N ^ n - 1 : ℝ) : ℂ) * Spec.sYlm za zb s ell m := by push_cast; ring
  rw [e]
  refine (norm_add_le _ _).trans ?_
  have hb : ‖Spec.sYlm za zb s ell m‖ ≤ swshConst ell := by
    obtain ⟨l, rfl⟩ := Int.eq_ofNat_of_zero_le h0
    rw [swshConst_eq]
    have := sYlm_norm_le hu s m l
    push_cast at this ⊢
    exact this
  have C0 := (swshConst_pos h0).le
  have k2 : ‖((N ^ n - 1 : ℝ) : ℂ) * Spec.sYlm za zb s ell m‖ ≤ gam τ n * swshConst ell := by
    rw [norm_mul, Complex.norm_real, Real.norm_eq_abs]
    exact mul_le_mul hfa hb (norm_nonneg _) g0
  have k3 : N ^ n * (‖za‖ + ‖zb‖) ^ n ≤ (1 + gam τ n) * Real.sqrt 2 ^ n :=
    mul_le_mul (by have := (abs_le.mp hfa).2; linarith) (norm_sum_unit hu n) (by positivity) (by positivity)
  have k4 : floatErrY u n * (swshConst ell * (N ^ n * (‖za‖ + ‖zb‖) ^ n)) ≤ floatErrY u n * (swshConst ell * ((1 + gam τ n) * Real.sqrt 2 ^ n)) :=
    mul_le_mul_of_nonneg_left (mul_le_mul_of_nonneg_left k3 C0) fp
  unfold swshErrI
  refine le_trans ?_ (le_max_left _ _)
  rw [← swshConst_eq, ← hn]
  nlinarith

/-- A computed modulus below the cut-off. -/
theorem smallI {N : ℝ} (hN : |N - 1| ≤ τ) {z : ℂ} (hz1 : ‖z‖ ≤ 1) (h : F.abs (N * z) ≤ eps) : ‖z‖ ≤ eps / ((1 - u) * (1 - τ)) := by
  have hu1 := hF.u_lt_one
  have hτ := hY.τ_lt
  have N0 := Fac.pos hY.τ_nonneg hτ (fac_of_abs hN hτ)
  have N1 := (abs_le.mp hN).1
  have N2 := (abs_le.mp hN).2
  have nm : ‖(N : ℂ) * z‖ = N * ‖z‖ := by rw [norm_mul, Complex.norm_real, Real.norm_eq_abs, abs_of_pos N0]
  have h3 := absI_le hF.toIEEE hY.range (show ‖(N : ℂ) * z‖ ≤ 2 by rw [nm]; nlinarith [norm_nonneg z]) h
  rw [nm, le_div_iff₀ (by linarith)] at h3
  rw [le_div_iff₀ (mul_pos (by linarith) (by linarith))]
  have : ‖z‖ * (1 - τ) ≤ ‖z‖ * N := mul_le_mul_of_nonneg_left (by linarith) (norm_nonneg z)
  have : ‖z‖ * (1 - τ) * (1 - u) ≤ ‖z‖ * N * (1 - u) := mul_le_mul_of_nonneg_right this (by linarith)
  linarith

theorem awayI {N : ℝ} (hN : |N - 1| ≤ τ) {za zb : ℂ} (hu : Spec.IsUnit' za zb) {n : ℕ} (hτn : 1 / 2 ≤ (1 - τ) ^ n) (ha : eps < F.abs (N * za))
    (hb : eps < F.abs (N * zb)) : AwayI F eps n (N * za) (N * zb) := by
  obtain ⟨u1, u2, -⟩ := unit_norm_le hu
  have hτ0 := hY.τ_nonneg
  have hτ := hY.τ_lt
  have fN := fac_of_abs hN hτ
  have N0 := Fac.pos hτ0 hτ fN
  have N2 := (abs_le.mp hN).2
  have nm : ∀ z : ℂ, ‖(N : ℂ) * z‖ = N * ‖z‖ := fun z => by rw [norm_mul, Complex.norm_real, Real.norm_eq_abs, abs_of_pos N0]
  refine ⟨?_, ?_, norm_pow_le_two hF.toIEEE hτ0 hτ fN hτn u1, norm_pow_le_two hF.toIEEE hτ0 hτ fN hτn u2, ha, hb⟩
  · rw [nm]; nlinarith [norm_nonneg za]
  · rw [nm]; nlinarith [norm_nonneg zb]

/-- The shortcuts. -/
theorem shortcutI {N : ℝ} (hN : |N - 1| ≤ τ) {za zb : ℂ} (hu : Spec.IsUnit' za zb) {s ell m : ℤ} (hle : ell ≤ L) (h1 : |m| ≤ ell) (h2 : |s| ≤ ell) :
    (F.abs (N * za) ≤ eps → ‖swshF_ra_small F (N * zb) s ell m - Spec.sYlm za zb s ell m‖ ≤ swshErrI u w η τ (eps / ((1 - u) * (1 - τ))) ell) ∧
    (F.abs (N * zb) ≤ eps → ‖swshF_rb_small F (N * za) s ell m - Spec.sYlm za zb s ell m‖ ≤ swshErrI u w η τ (eps / ((1 - u) * (1 - τ))) ell) := by
  obtain ⟨u1, u2, -⟩ := unit_norm_le hu
  have h0 : 0 ≤ ell := by have := abs_nonneg m; omega
  obtain ⟨r1, r2, r3, r4, r5⟩ := hY.at hF.u_nonneg hF.u_lt_one hF.ν_pos h0 hle
  have fN := fac_of_abs hN hY.τ_lt
  unfold swshErrI
  rw [← swshConst_eq]
  constructor <;> intro h
  · exact (swshI_ra_small_err hF r1 hY.w_le hY.τ_nonneg hY.τ_lt fN r3 hY.pole_lt r4 hu (smallI hF hY hN u1 h) r5 h1 h2).trans (le_max_right _ _)
  · exact (swshI_rb_small_err hF r1 hY.w_le hY.τ_nonneg hY.τ_lt fN r3 hY.pole_lt r4 hu (smallI hF hY hN u2 h) r5 h1 h2).trans (le_max_right _ _)

/-- **C87.** `_SWSH` at every rotor `N (za, zb)` whose norm `N` is within `τ` of 1, poles and their neighbourhoods included: every
harmonic differs from that of the exactly normalised rotor `(za, zb)` by at most `swshErrI`, and modes with `ell < |s|` or `|m| > ell`
are exactly zero. -/
theorem C87_every_rotor {table : List ℝ} (ht : RoundedTable u L table) (N : ℝ) (hN : |N - 1| ≤ τ) (za zb : ℂ) (hu : Spec.IsUnit' za zb)
    (s : ℤ) (modes : List (ℤ × ℤ)) (values : List ℂ) (hlen : values.length = modes.length) (hi : ∀ t ∈ modes, t.1 ≤ L) :
    ∃ f : ℤ × ℤ → ℂ, SWSH_kernelF F eps table (N * za) (N * zb) s modes values = .ok (modes.map f) ∧
      ∀ t ∈ modes, (¬ (|t.2| ≤ t.1 ∧ |s| ≤ t.1) → f t = 0) ∧
        ‖f t - Spec.sYlm za zb s t.1 t.2‖ ≤ swshErrI u w η τ (eps / ((1 - u) * (1 - τ))) t.1 := by
  classical
  have hu0 := hF.u_nonneg
  have hu1 := hF.u_lt_one
  have zero : ∀ t : ℤ × ℤ, ∀ v : ℂ, ¬ (|t.2| ≤ t.1 ∧ |s| ≤ t.1) → v = 0 →
      ‖v - Spec.sYlm za zb s t.1 t.2‖ ≤ swshErrI u w η τ (eps / ((1 - u) * (1 - τ))) t.1 := by
    rintro t v h rfl
    unfold Spec.sYlm
    rw [if_neg h, sub_zero, norm_zero]
    exact swshErrI_nonneg hF hY _
  have out : ∀ t : ℤ × ℤ, ¬ (|t.2| ≤ t.1 ∧ |s| ≤ t.1) → (|t.2| > t.1 ∨ |s| > t.1) := by
    intro t h
    by_contra hc
    rw [not_or, not_lt, not_lt] at hc
    exact h hc
  by_cases k1 : F.abs (N * za) ≤ eps
  · have z : ∀ t : ℤ × ℤ, ¬ (|t.2| ≤ t.1 ∧ |s| ≤ t.1) → swshF_ra_small F (N * zb) s t.1 t.2 = 0 := by
      intro t h
      unfold swshF_ra_small; rw [if_pos (Or.inr (out t h))]
    refine ⟨fun t => swshF_ra_small F (N * zb) s t.1 t.2, SWSH_kernelF_map F eps table _ _ s modes values hlen _
      (fun _ _ _ => rfl) (fun h => absurd k1 h) (fun h => absurd k1 h) (fun h => absurd k1 h), fun t m => ⟨z t, ?_⟩⟩
    by_cases h : |t.2| ≤ t.1 ∧ |s| ≤ t.1
    · exact (shortcutI hF hY hN hu (hi t m) h.1 h.2).1 k1
    · exact zero t _ h (z t h)
  by_cases k2 : F.abs (N * zb) ≤ eps
  · have z : ∀ t : ℤ × ℤ, ¬ (|t.2| ≤ t.1 ∧ |s| ≤ t.1) → swshF_rb_small F (N * za) s t.1 t.2 = 0 := by
      intro t h
      unfold swshF_rb_small; rw [if_pos (Or.inr (out t h))]
    refine ⟨fun t => swshF_rb_small F (N * za) s t.1 t.2, SWSH_kernelF_map F eps table _ _ s modes values hlen _
      (fun h => absurd h k1) (fun _ _ _ _ => rfl) (fun _ h => absurd k2 h) (fun _ h => absurd k2 h), fun t m => ⟨z t, ?_⟩⟩
    by_cases h : |t.2| ≤ t.1 ∧ |s| ≤ t.1
    · exact (shortcutI hF hY hN hu (hi t m) h.1 h.2).2 k2
    · exact zero t _ h (z t h)
  have ha := not_le.mp k1
  have hb := not_le.mp k2
  -- one value per mode, in either regime
  have pick : ∀ (g : ℤ → ℤ → ℤ → Py ℂ), (∀ (ell m : ℤ), |m| > ell ∨ |s| > ell → g s ell m = .ok 0) →
      (∀ t ∈ modes, |t.2| ≤ t.1 → |s| ≤ t.1 → ∃ v, g s t.1 t.2 = .ok v ∧ GenericI u η (N * za) (N * zb) s t.1 t.2 v) →
      ∃ f : ℤ × ℤ → ℂ, (∀ t ∈ modes, g s t.1 t.2 = .ok (f t)) ∧
        ∀ t ∈ modes, (¬ (|t.2| ≤ t.1 ∧ |s| ≤ t.1) → f t = 0) ∧
          ‖f t - Spec.sYlm za zb s t.1 t.2‖ ≤ swshErrI u w η τ (eps / ((1 - u) * (1 - τ))) t.1 := by
    intro g g0 g1
    let f : ℤ × ℤ → ℂ := fun t => match g s t.1 t.2 with | .ok v => v | .error _ => 0
    have hf : ∀ {t v}, g s t.1 t.2 = .ok v → f t = v := by intro t v h; simp only [f, h]
    refine ⟨f, fun t m => ?_, fun t m => ⟨fun h => hf (g0 _ _ (out t h)), ?_⟩⟩
    · by_cases h : |t.2| ≤ t.1 ∧ |s| ≤ t.1
      · obtain ⟨v, v1, -⟩ := g1 t m h.1 h.2
        rw [hf v1, v1]
      · rw [hf (g0 _ _ (out t h)), g0 _ _ (out t h)]
    · by_cases h : |t.2| ≤ t.1 ∧ |s| ≤ t.1
      · obtain ⟨v, v1, v2⟩ := g1 t m h.1 h.2
        rw [hf v1]
        exact closeI hF hY hN hu h.1 h.2 v2
      · exact zero t _ h (hf (g0 _ _ (out t h)))
  have at' := fun (t : ℤ × ℤ) (m : t ∈ modes) (h1 : |t.2| ≤ t.1) =>
    hY.at hu0 hu1 hF.ν_pos (show 0 ≤ t.1 by have := abs_nonneg t.2; omega) (hi t m)
  by_cases hlt : F.abs (N * za) < F.abs (N * zb)
  · obtain ⟨f, f1, f2⟩ := pick (swshF_ra_lt_rb F table (F.abs (N * za)) (F.arg (N * za)) (F.abs (N * zb)) (F.arg (N * zb)))
      (fun ell m h => by unfold swshF_ra_lt_rb; simp only; rw [if_pos h])
      (fun t m g1 g2 => by
        obtain ⟨r1, r2, r3, r4, r5⟩ := at' t m g1
        exact swshI_lt_err hF r1 r2 ht (awayI hF hY hN hu r3 ha hb) hlt.le r5 g1 g2 (hi t m))
    exact ⟨f, SWSH_kernelF_map F eps table _ _ s modes values hlen f (fun h => absurd h k1) (fun _ h => absurd h k2)
      (fun _ _ _ => f1) (fun _ _ h => absurd hlt h), f2⟩
  · obtain ⟨f, f1, f2⟩ := pick (swshF_ra_ge_rb F table (F.abs (N * za)) (F.arg (N * za)) (F.abs (N * zb)) (F.arg (N * zb)))
      (fun ell m h => by unfold swshF_ra_ge_rb; simp only; rw [if_pos h])
      (fun t m g1 g2 => by
        obtain ⟨r1, r2, r3, r4, r5⟩ := at' t m g1
        exact swshI_ge_err hF r1 r2 ht (awayI hF hY hN hu r3 ha hb) (not_lt.mp hlt) r5 g1 g2 (hi t m))
    exact ⟨f, SWSH_kernelF_map F eps table _ _ s modes values hlen f (fun h => absurd h k1) (fun _ h => absurd h k2)
      (fun _ _ h => absurd h hlt) (fun _ _ _ => f1), f2⟩

omit hF hY in
/-- A quaternion as its norm times a unit quaternion. -/
theorem split_norm (hτ : τ < 1) {q : ℍ[ℝ]} (hq : |Real.sqrt (normSq q) - 1| ≤ τ) :
    partA q = (Real.sqrt (normSq q) : ℝ) * (partA q / (Real.sqrt (normSq q) : ℝ)) ∧
    partB q = (Real.sqrt (normSq q) : ℝ) * (partB q / (Real.sqrt (normSq q) : ℝ)) ∧
    Spec.IsUnit' (partA q / (Real.sqrt (normSq q) : ℝ)) (partB q / (Real.sqrt (normSq q) : ℝ)) := by
  have h1 := (abs_le.mp hq).1
  have N0 : 0 < Real.sqrt (normSq q) := by linarith
  have hne : ((Real.sqrt (normSq q) : ℝ) : ℂ) ≠ 0 := by exact_mod_cast N0.ne'
  refine ⟨by field_simp, by field_simp, ?_⟩
  have hsq : Real.sqrt (normSq q) * Real.sqrt (normSq q) = normSq q := Real.mul_self_sqrt normSq_nonneg
  unfold Spec.IsUnit'
  rw [map_div₀, map_div₀, Complex.normSq_ofReal, ← add_div, hsq, div_eq_one_iff_eq (by rw [← hsq]; exact (mul_pos N0 N0).ne')]
  rw [normSq_def']
  simp only [partA, partB, Complex.normSq_apply]
  ring

/-- **C87.** `_SWSHs`: an array of rotors normalised up to `τ`, and one mode. -/
theorem C87_array {table : List ℝ} (ht : RoundedTable u L table) (qs : List ℍ[ℝ]) (hq : ∀ q ∈ qs, |Real.sqrt (normSq q) - 1| ≤ τ) (s ell m : ℤ) (hle : ell ≤ L) (values : List ℂ)
    (hlen : values.length = qs.length) :
    ∃ f : ℍ[ℝ] → ℂ, SWSHs_kernelF F eps table (qs.map comps) s ell m values = .ok (qs.map f) ∧
      ∀ q ∈ qs, (¬ (|m| ≤ ell ∧ |s| ≤ ell) → f q = 0) ∧
        ‖f q - Spec.sYlm (partA q / (Real.sqrt (normSq q) : ℝ)) (partB q / (Real.sqrt (normSq q) : ℝ)) s ell m‖ ≤ swshErrI u w η τ (eps / ((1 - u) * (1 - τ))) ell := by
  classical
  have hu1 := hF.u_lt_one
  by_cases h : |m| ≤ ell ∧ |s| ≤ ell
  swap
  · have hcond : (|m| > ell ∨ |s| > ell) := by
      by_contra hc
      rw [not_or, not_lt, not_lt] at hc
      exact h hc
    refine ⟨fun _ => 0, ?_, fun q _ => ⟨fun _ => rfl, ?_⟩⟩
    · unfold SWSHs_kernelF
      simp only [hcond, if_true]
      have := forL_map_wr (qs.map comps) values (by simpa using hlen) (fun _ => .ok (0 : ℂ)) (fun _ => 0) (fun _ _ => rfl)
      rw [List.map_map] at this
      refine Eq.trans ?_ this
      apply forL_congr
      intro i hi st
      rw [mem_pyRange] at hi
      have : (qs.map comps)[i.toNat]? = some (qs.map comps)[i.toNat] := List.getElem?_eq_getElem (by omega)
      rw [rd_ok hi.1 this]
      rfl
    · unfold Spec.sYlm
      rw [if_neg h, sub_zero, norm_zero]
      exact swshErrI_nonneg hF hY _
  obtain ⟨h1, h2⟩ := h
  obtain ⟨p', q', p, q, hsum, g1, g2, g3, g4⟩ := int_pq h1 (show |-s| ≤ ell by rwa [abs_neg])
  obtain ⟨ca, ca1, ca2⟩ := ht.coeff_int g1 g2 g3 g4 hle
  obtain ⟨cb, cb1, cb2⟩ := ht.coeff_int (p' := q') (q' := p') (ell := ell) (mp := -m) (m := -s) (by omega) (by omega) g3 g4 hle
  push_cast at ca1 cb1
  set A : ℝ := if (max 0 (m + s) + s) % 2 ≠ 0 then -ca else ca with hA
  set B : ℝ := if (ell + max 0 (-m + s)) % 2 ≠ 0 then -cb else cb with hB
  have neg_rel : ∀ x y : ℝ, RelErr u x y → RelErr u (-x) (-y) := by
    intro x y hxy
    unfold RelErr at *
    rw [abs_neg, ← neg_sub', abs_neg]
    exact hxy
  have key : ∀ Q : ℍ[ℝ], |Real.sqrt (normSq Q) - 1| ≤ τ → ∃ v, SWSHs_valueF F eps A B s ell m (comps Q) = .ok v ∧
      ‖v - Spec.sYlm (partA Q / (Real.sqrt (normSq Q) : ℝ)) (partB Q / (Real.sqrt (normSq Q) : ℝ)) s ell m‖ ≤ swshErrI u w η τ (eps / ((1 - u) * (1 - τ))) ell := by
    intro Q hQ
    obtain ⟨sA, sB, hU⟩ := split_norm hY.τ_lt hQ
    obtain ⟨r1, r2, r3, r4, r5⟩ := hY.at hF.u_nonneg hF.u_lt_one hF.ν_pos (show 0 ≤ ell by have := abs_nonneg m; omega) hle
    have sc := shortcutI hF hY hQ hU hle h1 h2
    have cl := fun v => closeI hF hY hQ hU (v := v) h1 h2
    have aw := awayI hF hY hQ hU r3
    rw [← sA, ← sB] at sc cl aw
    unfold SWSHs_valueF
    have cA : (⟨(comps Q).1, (comps Q).2.2.2⟩ : ℂ) = partA Q := rfl
    have cB : (⟨(comps Q).2.2.1, (comps Q).2.1⟩ : ℂ) = partB Q := rfl
    simp only [cA, cB]
    have hx : ∀ P : Prop, (P ∨ |m| > ell ∨ |s| > ell) ↔ P := by
      intro P
      constructor
      · rintro (h | h | h)
        · exact h
        · omega
        · omega
      · exact Or.inl
    by_cases k1 : F.abs (partA Q) ≤ eps
    · rw [if_pos k1]
      refine ⟨swshF_ra_small F (partB Q) s ell m, ?_, ?_⟩
      · unfold swshF_ra_small
        simp only [hx]
        split_ifs <;> rfl
      · exact sc.1 k1
    rw [if_neg k1]
    by_cases k2 : F.abs (partB Q) ≤ eps
    · rw [if_pos k2]
      refine ⟨swshF_rb_small F (partA Q) s ell m, ?_, ?_⟩
      · unfold swshF_rb_small
        simp only [hx]
        split_ifs <;> rfl
      · exact sc.2 k2
    rw [if_neg k2]
    have hAw := aw (not_le.mp k1) (not_le.mp k2)
    by_cases k3 : F.abs (partA Q) < F.abs (partB Q)
    · rw [if_pos k3]
      have hrel : RelErr u B ((if (ell + max 0 (-m + s)) % 2 ≠ 0 then -1 else 1) * Wcoef q' p' p q) := by
        rw [hB]
        split_ifs
        · rw [neg_one_mul]; exact neg_rel _ _ cb2
        · rw [one_mul]; exact cb2
      obtain ⟨S, e1, e2⟩ := valBI hF r1 r2 hAw k3.le r5 h1 h2 hsum g1 g2 g3 g4 (c' := B) (by split_ifs <;> simp) hrel
      have e3 := fun v => e2 false v (by
        rw [neg_one_zpow_iff]
        by_cases hpar : (ell + max 0 (-m + s)) % 2 = 0
        · rw [if_neg (not_not.mpr hpar), if_pos hpar]; simp
        · rw [if_pos hpar, if_neg hpar]; simp)
      simp only [Bool.false_eq_true, if_false] at e3
      refine ⟨_, ?_, cl _ (e3 _ (Or.inl rfl))⟩
      rw [if_neg, e1]
      · rfl
      · apply Near.ne_zero hF.u_nonneg hu1 (hrel.fac hF.u_nonneg hu1)
        apply mul_ne_zero
        · split_ifs <;> simp
        · exact Wcoef_ne_zero (by omega)
    · rw [if_neg k3]
      have hrel : RelErr u A ((if (max 0 (m + s) + s) % 2 ≠ 0 then -1 else 1) * Wcoef p' q' p q) := by
        rw [hA]
        split_ifs
        · rw [neg_one_mul]; exact neg_rel _ _ ca2
        · rw [one_mul]; exact ca2
      obtain ⟨S, e1, e2⟩ := valAI hF r1 r2 hAw (not_lt.mp k3) r5 h1 h2 hsum g1 g2 g3 g4 (c' := A) (by split_ifs <;> simp) hrel
      have e3 := fun v => e2 false v (by
        rw [neg_one_zpow_iff, add_comm s]
        by_cases hpar : (max 0 (m + s) + s) % 2 = 0
        · rw [if_neg (not_not.mpr hpar), if_pos hpar]; simp
        · rw [if_pos hpar, if_neg hpar]; simp)
      simp only [Bool.false_eq_true, if_false] at e3
      refine ⟨_, ?_, cl _ (e3 _ (Or.inl rfl))⟩
      rw [if_neg, e1]
      · rfl
      · apply Near.ne_zero hF.u_nonneg hu1 (hrel.fac hF.u_nonneg hu1)
        apply mul_ne_zero
        · split_ifs <;> simp
        · exact Wcoef_ne_zero (by omega)
  let f : ℍ[ℝ] → ℂ := fun Q => if hQ : |Real.sqrt (normSq Q) - 1| ≤ τ then (key Q hQ).choose else 0
  have hf : ∀ Q (hQ : Q ∈ qs), f Q = (key Q (hq Q hQ)).choose := fun Q hQ => dif_pos (hq Q hQ)
  refine ⟨f, ?_, fun Q hQ => ⟨fun hn => absurd ⟨h1, h2⟩ hn, ?_⟩⟩
  · unfold SWSHs_kernelF
    simp only
    rw [if_neg (by rintro (h | h) <;> omega), ca1, bind_ok, cb1, bind_ok]
    have := forL_map_wr (qs.map comps) values (by simpa using hlen) (SWSHs_valueF F eps A B s ell m) (fun R => f (mkQ R.1 R.2.1 R.2.2.1 R.2.2.2))
      (by
        intro R hR
        obtain ⟨Q, hQ, rfl⟩ := List.mem_map.mp hR
        rw [(key Q (hq Q hQ)).choose_spec.1]
        congr 1
        exact (hf Q hQ).symm)
    rw [List.map_map] at this
    exact this
  · rw [hf Q hQ]; exact (key Q (hq Q hQ)).choose_spec.2

/-- **C87.** `SWSH_grid`: one row per rotor; the entry of mode `(ell, m)` is at position `LM_index(ell, m, 0)`. -/
theorem C87_grid {table : List ℝ} (ht : RoundedTable u L table) (junk : ℕ → ℤ × ℤ) (qs : List ℍ[ℝ]) (hne : qs ≠ []) (hq : ∀ q ∈ qs, |Real.sqrt (normSq q) - 1| ≤ τ) (s ell_max : ℤ) (h0 : -1 ≤ ell_max) (hl : ell_max ≤ L) :
    ∃ g : ℍ[ℝ] → ℤ × ℤ → ℂ,
      SWSH_gridF F eps table junk (qs.map comps) s ell_max = .ok (qs.map fun q => (LMlist 0 ell_max).map (g q)) ∧
      ∀ q ∈ qs, ∀ ell m : ℤ, |m| ≤ ell → ell ≤ ell_max →
        ((LMlist 0 ell_max).map (g q))[(LM_index ell m 0).toNat]? = some (g q (ell, m)) ∧
        (ell < |s| → g q (ell, m) = 0) ∧
        ‖g q (ell, m) - Spec.sYlm (partA q / (Real.sqrt (normSq q) : ℝ)) (partB q / (Real.sqrt (normSq q) : ℝ)) s ell m‖ ≤ swshErrI u w η τ (eps / ((1 - u) * (1 - τ))) ell := by
  classical
  have hin : ∀ t ∈ LMlist 0 ell_max, t.1 ≤ L := by
    intro t htm
    have := ((LMlist_spec ell_max (le_refl 0)).2 t).mp htm
    exact le_trans this.2.1 hl
  have key : ∀ q : ℍ[ℝ], |Real.sqrt (normSq q) - 1| ≤ τ → ∃ f : ℤ × ℤ → ℂ,
      SWSH_kernelF F eps table (partA q) (partB q) s (LMlist 0 ell_max) (List.replicate (LMlist 0 ell_max).length (0 : ℂ))
        = .ok ((LMlist 0 ell_max).map f) ∧
      ∀ t ∈ LMlist 0 ell_max, (¬ (|t.2| ≤ t.1 ∧ |s| ≤ t.1) → f t = 0) ∧
        ‖f t - Spec.sYlm (partA q / (Real.sqrt (normSq q) : ℝ)) (partB q / (Real.sqrt (normSq q) : ℝ)) s t.1 t.2‖
          ≤ swshErrI u w η τ (eps / ((1 - u) * (1 - τ))) t.1 := by
    intro q h
    obtain ⟨sA, sB, hU⟩ := split_norm hY.τ_lt h
    have := C87_every_rotor hF hY ht _ h _ _ hU s (LMlist 0 ell_max) (List.replicate (LMlist 0 ell_max).length (0 : ℂ)) (by simp) hin
    rw [← sA, ← sB] at this
    exact this
  let g : ℍ[ℝ] → ℤ × ℤ → ℂ := fun q => if h : |Real.sqrt (normSq q) - 1| ≤ τ then (key q h).choose else fun _ => 0
  have hg : ∀ q (h : q ∈ qs), g q = (key q (hq q h)).choose := fun q h => dif_pos (hq q h)
  refine ⟨g, ?_, fun q hqm ell m h1 h2 => ?_⟩
  · unfold SWSH_gridF
    rw [LM_range_eq junk le_rfl (by omega), bind_ok]
    simp only
    rw [if_neg (by simpa using hne)]
    simp only [List.length_map]
    set T : ℍ[ℝ] → List ℂ := fun q => (LMlist 0 ell_max).map (g q) with hT
    obtain ⟨out, e1, e2, e3⟩ := forR_inv 0 (qs.length : ℤ) (by omega)
      (fun i (vals : List (List ℂ)) => vals.length = qs.length ∧ ∀ k : ℕ, k < qs.length →
        (((k : ℤ) < i → vals[k]? = (qs.map T)[k]?) ∧
          (i ≤ k → vals[k]? = some (List.replicate (LMlist 0 ell_max).length (0 : ℂ)))))
      (List.replicate qs.length (List.replicate (LMlist 0 ell_max).length (0 : ℂ)))
      (fun i values => do
        let R ← rd (qs.map comps) i
        let row ← rd values i
        let row ← SWSH_kernelF F eps table (quat_a R) (quat_b R) s (LMlist 0 ell_max) row
        wr values i row)
      (by
        refine ⟨by simp, fun k hk => ⟨fun h => absurd h (by omega), fun _ => ?_⟩⟩
        simp [hk])
      (by
        rintro i vals hi1 hi2 ⟨hlen, hI⟩
        have hk : i.toNat < qs.length := by omega
        have r1 : rd (qs.map comps) i = .ok (comps qs[i.toNat]) := rd_ok hi1 (by simp [hk])
        have r2 := rd_ok hi1 ((hI i.toNat hk).2 (by omega))
        refine ⟨vals.set i.toNat (T qs[i.toNat]), ?_, by simp [hlen], ?_⟩
        · rw [r1, bind_ok, r2, bind_ok]
          have hm := List.getElem_mem hk
          have := (key qs[i.toNat] (hq _ hm)).choose_spec.1
          rw [← hg _ hm] at this
          change (SWSH_kernelF F eps table (partA qs[i.toNat]) (partB qs[i.toNat]) s _ _ >>= _) = _
          rw [this, bind_ok, wr_ok hi1 (by omega)]
        · intro k hkq
          rw [List.getElem?_set]
          by_cases hki : i.toNat = k
          · subst hki
            rw [if_pos rfl, if_pos (by omega)]
            refine ⟨fun _ => by simp [hk], fun h => absurd h (by omega)⟩
          · rw [if_neg hki]
            refine ⟨fun h => (hI k hkq).1 (by omega), fun h => (hI k hkq).2 (by omega)⟩)
    refine Eq.trans e1 ?_
    congr 1
    apply List.ext_getElem?
    intro k
    by_cases hk : k < qs.length
    · exact (e3 k hk).1 (by omega)
    · rw [List.getElem?_eq_none (by omega), List.getElem?_eq_none (by simp; omega)]
  · have hm := abs_le.mp h1
    have hx := (LMlist_index (a := 0) (b := ell_max) le_rfl (by omega) h2 hm.1 hm.2).2
    have hmem : (ell, m) ∈ LMlist 0 ell_max := List.mem_of_getElem? hx
    have := (key q (hq q hqm)).choose_spec.2 (ell, m) hmem
    rw [← hg q hqm] at this
    refine ⟨?_, fun h => this.1 (fun hh => absurd hh.2 (by simpa using h)), this.2⟩
    rw [List.getElem?_map, hx]
    rfl

/-- **C87.** `Modes.evaluate`: the value at each rotor differs from the function with these mode weights by the errors of the
harmonics, weighted with the mode weights, and the error of the inner product. -/
theorem C87_evaluate {table : List ℝ} (ht : RoundedTable u L table) (junk : ℕ → ℤ × ℤ) (f : Modes) (hf : f.WF) (hL : f.ell_max ≤ L)
    (hN2 : 1 / 2 ≤ (1 - u) ^ (((f.ell_max + 1) ^ 2).toNat + 2)) (qs : List ℍ[ℝ]) (hne : qs ≠ []) (hq : ∀ q ∈ qs, |Real.sqrt (normSq q) - 1| ≤ τ) :
    ∃ v : ℍ[ℝ] → MIdx → ℂ, f.evaluateF F eps table junk (qs.map comps) = .ok (qs.map v) ∧
      ∀ q ∈ qs, ∀ idx, ∑ ell ∈ Icc 0 f.ell_max, ∑ m ∈ Icc (-ell) ell, ‖f.coef ell m idx‖ *
          (Real.sqrt ((2 * ell + 1) / (4 * Real.pi)) + swshErrI u w η τ (eps / ((1 - u) * (1 - τ))) ell) ≤ Ω / 4 →
        ‖v q idx - Spec.fieldValue f.s f.ell_max (fun ell m => f.coef ell m idx) (partA q / (Real.sqrt (normSq q) : ℝ)) (partB q / (Real.sqrt (normSq q) : ℝ))‖
          ≤ ∑ ell ∈ Icc 0 f.ell_max, ∑ m ∈ Icc (-ell) ell, ‖f.coef ell m idx‖ *
              (swshErrI u w η τ (eps / ((1 - u) * (1 - τ))) ell + δ (((f.ell_max + 1) ^ 2).toNat) *
                (Real.sqrt ((2 * ell + 1) / (4 * Real.pi)) + swshErrI u w η τ (eps / ((1 - u) * (1 - τ))) ell))
            + ζ (((f.ell_max + 1) ^ 2).toNat) := by
  have hge := hf.ell_max_ge
  obtain ⟨g, g1, g2⟩ := C87_grid hF hY ht junk qs hne hq f.s f.ell_max hge hL
  have hlen : ((LMlist 0 f.ell_max).length : ℤ) = (f.dat.length : ℤ) := by
    rw [LMlist_length le_rfl (by omega), hf.size, LM_total_size_zero]
  have hlen' : (LMlist 0 f.ell_max).length = f.dat.length := by exact_mod_cast hlen
  have hslice : ∀ row : List ℂ, row.length = f.dat.length →
      getSlice row (LM_index 0 (-0) 0) (LM_index f.ell_max f.ell_max 0 + 1) = row := by
    intro row hr
    have e1 : LM_index 0 (-0) 0 = 0 := by rw [LM_index_zero]; simp
    have e2 : LM_index f.ell_max f.ell_max 0 + 1 = (row.length : ℤ) := by
      rw [LM_index_zero, hr, hf.size]; ring
    unfold getSlice
    rw [e1, e2]
    simp
  have zip : ∀ {M : Type} [AddCommMonoid M] (h : ℂ → ℂ → M) (k : ℤ × ℤ → ℂ) (idx : MIdx),
      (List.zipWith h (f.dat.map fun v => v idx) ((LMlist 0 f.ell_max).map k)).sum
        = ∑ ell ∈ Icc 0 f.ell_max, ∑ m ∈ Icc (-ell) ell, h (f.coef ell m idx) (k (ell, m)) := by
    intro M _ h k idx
    rw [← sum_LMlist 0 f.ell_max (fun ell m => h (f.coef ell m idx) (k (ell, m)))]
    congr 1
    apply List.ext_getElem?
    intro i
    rw [List.getElem?_zipWith, List.getElem?_map, List.getElem?_map, List.getElem?_map]
    by_cases hk : i < f.dat.length
    · obtain ⟨ell, m, h0, h1, h2, rfl⟩ := mpos_surj hf.size hge hk
      have := abs_le.mp h2
      have hx := (LMlist_index (a := 0) (b := f.ell_max) le_rfl h0 h1 this.1 this.2).2
      unfold mpos
      rw [hx]
      have := hf.get h2 h1
      unfold mpos at this
      rw [this]
      rfl
    · rw [List.getElem?_eq_none (by omega), List.getElem?_eq_none (by omega)]
      rfl
  refine ⟨fun q idx => F.dot (f.dat.map fun v => v idx) ((LMlist 0 f.ell_max).map (g q)), ?_, fun q hqm idx hsum => ?_⟩
  · unfold Modes.evaluateF
    rw [g1, bind_ok]
    apply mapM_ok
    intro q _
    simp only
    rw [hslice _ (by rw [List.length_map]; exact hlen'), if_neg (by rw [List.length_map]; push Not; exact hlen')]
  · have hu := (split_norm hY.τ_lt (hq q hqm)).2.2
    have inner : ∀ ell ∈ Icc 0 f.ell_max, ∀ m ∈ Icc (-ell) ell,
        ‖g q (ell, m) - Spec.sYlm (partA q / (Real.sqrt (normSq q) : ℝ)) (partB q / (Real.sqrt (normSq q) : ℝ)) f.s ell m‖ ≤ swshErrI u w η τ (eps / ((1 - u) * (1 - τ))) ell ∧
        ‖g q (ell, m)‖ ≤ Real.sqrt ((2 * ell + 1) / (4 * Real.pi)) + swshErrI u w η τ (eps / ((1 - u) * (1 - τ))) ell := by
      intro ell h1 m h2
      rw [mem_Icc] at h1 h2
      have e := (g2 q hqm ell m (abs_le.mpr h2) h1.2).2.2
      refine ⟨e, ?_⟩
      obtain ⟨l, rfl⟩ := Int.eq_ofNat_of_zero_le h1.1
      have n := sYlm_norm_le hu f.s m l
      have := norm_le_norm_add_norm_sub' (g q ((l : ℤ), m)) (Spec.sYlm (partA q / (Real.sqrt (normSq q) : ℝ)) (partB q / (Real.sqrt (normSq q) : ℝ)) f.s l m)
      push_cast at *
      linarith
    have hd := hF.dot (f.dat.map fun v => v idx) ((LMlist 0 f.ell_max).map (g q)) (by simp [hlen'])
      (by rw [List.length_map, show f.dat.length = ((f.ell_max + 1) ^ 2).toNat by have := hf.size; omega]; exact hN2) (by
      rw [zip]
      refine le_trans (Finset.sum_le_sum fun ell hell => Finset.sum_le_sum fun m hm => ?_) hsum
      exact mul_le_mul_of_nonneg_left (inner ell hell m hm).2 (norm_nonneg _))
    rw [zip, zip, List.length_map] at hd
    have hN : f.dat.length = ((f.ell_max + 1) ^ 2).toNat := by
      have := hf.size
      omega
    rw [hN] at hd
    have hd0 := hF.dot_nonneg (((f.ell_max + 1) ^ 2).toNat)
    set d := δ (((f.ell_max + 1) ^ 2).toNat)
    have h2 : ‖(∑ ell ∈ Icc 0 f.ell_max, ∑ m ∈ Icc (-ell) ell, f.coef ell m idx * g q (ell, m))
        - Spec.fieldValue f.s f.ell_max (fun ell m => f.coef ell m idx) (partA q / (Real.sqrt (normSq q) : ℝ)) (partB q / (Real.sqrt (normSq q) : ℝ))‖
        ≤ ∑ ell ∈ Icc 0 f.ell_max, ∑ m ∈ Icc (-ell) ell, ‖f.coef ell m idx‖ * swshErrI u w η τ (eps / ((1 - u) * (1 - τ))) ell := by
      rw [fieldValue_from_zero, ← Finset.sum_sub_distrib]
      refine (norm_sum_le _ _).trans (Finset.sum_le_sum fun ell hell => ?_)
      rw [← Finset.sum_sub_distrib]
      refine (norm_sum_le _ _).trans (Finset.sum_le_sum fun m hm => ?_)
      rw [← mul_sub, norm_mul]
      exact mul_le_mul_of_nonneg_left (inner ell hell m hm).1 (norm_nonneg _)
    have h3 : d * ∑ ell ∈ Icc 0 f.ell_max, ∑ m ∈ Icc (-ell) ell, ‖f.coef ell m idx‖ * ‖g q (ell, m)‖
        ≤ ∑ ell ∈ Icc 0 f.ell_max, ∑ m ∈ Icc (-ell) ell, ‖f.coef ell m idx‖ *
          (d * (Real.sqrt ((2 * ell + 1) / (4 * Real.pi)) + swshErrI u w η τ (eps / ((1 - u) * (1 - τ))) ell)) := by
      rw [Finset.mul_sum]
      refine Finset.sum_le_sum fun ell hell => ?_
      rw [Finset.mul_sum]
      refine Finset.sum_le_sum fun m hm => ?_
      rw [mul_left_comm]
      exact mul_le_mul_of_nonneg_left (mul_le_mul_of_nonneg_left (inner ell hell m hm).2 hd0) (norm_nonneg _)
    have h4 := norm_sub_le_norm_sub_add_norm_sub (F.dot (f.dat.map fun v => v idx) ((LMlist 0 f.ell_max).map (g q)))
      (∑ ell ∈ Icc 0 f.ell_max, ∑ m ∈ Icc (-ell) ell, f.coef ell m idx * g q (ell, m))
      (Spec.fieldValue f.s f.ell_max (fun ell m => f.coef ell m idx) (partA q / (Real.sqrt (normSq q) : ℝ)) (partB q / (Real.sqrt (normSq q) : ℝ)))
    refine (h4.trans (add_le_add (hd.trans (add_le_add h3 le_rfl)) h2)).trans (le_of_eq ?_)
    rw [add_right_comm]
    congr 1
    rw [← Finset.sum_add_distrib]
    refine Finset.sum_congr rfl fun ell _ => ?_
    rw [← Finset.sum_add_distrib]
    refine Finset.sum_congr rfl fun m _ => ?_
    ring

end

/-! ## Binary powering and sequential inner products -/

section
variable {u w η ν Ω : ℝ} {F : FloatOps} (hF : F.IEEE u w η ν Ω)
include hF

/-- Binary powering: `n` roundings, and underflows amounting to at most `64 n^6 η`. -/
theorem powBin_mix (hΩ : 81 ≤ Ω) {K : ℕ} (hK : 1 / 2 ≤ (1 - u) ^ K) (e : ℕ) : ∀ (kr ka : ℕ) (Er Ea r' R a' A : ℝ), kr + e * (ka + 1) ≤ K →
    Mix u kr Er r' R → (e ≠ 0 → Mix u ka Ea a' A) → 0 ≤ Er → 0 ≤ Ea → 64 * (e : ℝ) ^ 6 * (Er + Ea + η) ≤ 1 → 0 ≤ A → 0 ≤ R →
    (∀ j ≤ e, R * A ^ j ≤ 4) → (∀ j ≤ e, A ^ j ≤ 4) →
    Mix u (kr + e * (ka + 1)) (if e = 0 then Er else 64 * (e : ℝ) ^ 6 * (Er + Ea + η)) (powBin F e r' a') (R * A ^ e) := by
  have hη := hF.η_nonneg
  induction e using Nat.strong_induction_on with
  | _ e ih =>
    intro kr ka Er Ea r' R a' A hk hr ha hEr hEa hs hA hR h4R h4A
    by_cases e0 : e = 0
    · subst e0
      unfold powBin
      simpa using hr
    have he1 : (1 : ℝ) ≤ e := by exact_mod_cast Nat.one_le_iff_ne_zero.mpr e0
    have he6 : (1 : ℝ) ≤ (e : ℝ) ^ 6 := one_le_pow₀ he1
    have hs0 : 0 ≤ Er + Ea + η := by positivity
    have hs1 : 64 * (Er + Ea + η) ≤ 1 := by nlinarith
    have ha' := ha e0
    obtain ⟨f, hf⟩ : ∃ f, f = e / 2 := ⟨_, rfl⟩
    have hfe : f < e := by omega
    have hf2 : 2 * (f : ℝ) ≤ e := by
      have : 2 * f ≤ e := by omega
      exact_mod_cast this
    have hf6 : 64 * (f : ℝ) ^ 6 ≤ (e : ℝ) ^ 6 := by
      calc 64 * (f : ℝ) ^ 6 = (2 * (f : ℝ)) ^ 6 := by ring
        _ ≤ _ := by gcongr
    have A4 : A ≤ 4 := by simpa using h4A 1 (by omega)
    have R4 : R ≤ 4 := by simpa using h4R 0 (by omega)
    have ka_le : ka + 1 ≤ e * (ka + 1) := Nat.le_mul_of_pos_left _ (by omega)
    have ba := Mix.abs_le hF (show ka ≤ K by omega) hK ha'
    have br := Mix.abs_le hF (show kr ≤ K by omega) hK hr
    rw [abs_of_nonneg hA] at ba
    rw [abs_of_nonneg hR] at br
    -- the new result
    have step_r : Mix u (if e % 2 = 1 then kr + ka + 1 else kr) (18 * (Er + Ea) + η) (if e % 2 = 1 then F.mul r' a' else r')
        (if e % 2 = 1 then R * A else R) := by
      split_ifs with h
      · have m := Mix.mulOp hF hK (show kr + ka + 1 ≤ K by omega) hr ha' (by
          rw [abs_mul]
          have : |r'| * |a'| ≤ 9 * 9 := mul_le_mul (by linarith) (by linarith) (abs_nonneg _) (by norm_num)
          linarith)
        refine Mix.mono hF le_rfl ?_ m
        rw [abs_of_nonneg hA, abs_of_nonneg hR]
        nlinarith
      · exact Mix.mono hF le_rfl (by linarith) hr
    have step_a : f ≠ 0 → Mix u (ka + ka + 1) (34 * Ea + η) (F.mul a' a') (A * A) := by
      intro hf0
      have : 2 * (ka + 1) ≤ e * (ka + 1) := Nat.mul_le_mul_right _ (by omega)
      have m := Mix.mulOp hF hK (show ka + ka + 1 ≤ K by omega) ha' ha' (by
        rw [abs_mul]
        have : |a'| * |a'| ≤ 9 * 9 := mul_le_mul (by linarith) (by linarith) (abs_nonneg _) (by norm_num)
        linarith)
      refine Mix.mono hF le_rfl ?_ m
      rw [abs_of_nonneg hA]
      nlinarith
    have hnew : 18 * (Er + Ea) + η + (34 * Ea + η) + η ≤ 64 * (Er + Ea + η) := by linarith
    have hb : 64 * (f : ℝ) ^ 6 * (18 * (Er + Ea) + η + (34 * Ea + η) + η) ≤ 64 * (e : ℝ) ^ 6 * (Er + Ea + η) := by
      calc 64 * (f : ℝ) ^ 6 * (18 * (Er + Ea) + η + (34 * Ea + η) + η) ≤ 64 * (f : ℝ) ^ 6 * (64 * (Er + Ea + η)) := by gcongr
        _ = (64 * (f : ℝ) ^ 6) * (64 * (Er + Ea + η)) := by ring
        _ ≤ (e : ℝ) ^ 6 * (64 * (Er + Ea + η)) := by gcongr
        _ = _ := by ring
    have cnt : (if e % 2 = 1 then kr + ka + 1 else kr) + f * (ka + ka + 1 + 1) = kr + e * (ka + 1) := by
      split_ifs with h
      · have : e = 2 * f + 1 := by omega
        rw [this]; ring
      · have : e = 2 * f := by omega
        rw [this]; ring
    have val : ∀ j ≤ f, ∃ i ≤ e, (if e % 2 = 1 then R * A else R) * (A * A) ^ j = R * A ^ i ∧ (j = f → i = e) := by
      intro j hj
      split_ifs with h
      · exact ⟨2 * j + 1, by omega, by rw [← pow_two, ← pow_mul, pow_succ]; ring, by omega⟩
      · exact ⟨2 * j, by omega, by rw [← pow_two, ← pow_mul], by omega⟩
    have res := ih f hfe (if e % 2 = 1 then kr + ka + 1 else kr) (ka + ka + 1) (18 * (Er + Ea) + η) (34 * Ea + η)
      (if e % 2 = 1 then F.mul r' a' else r') (if e % 2 = 1 then R * A else R) (F.mul a' a') (A * A) (by rw [cnt]; exact hk) step_r step_a
      (by positivity) (by positivity) (hb.trans hs) (by positivity) (by split_ifs <;> positivity)
      (by
        intro j hj
        obtain ⟨i, hi, e1, -⟩ := val j hj
        rw [e1]; exact h4R i hi)
      (by
        intro j hj
        rw [← pow_two, ← pow_mul]
        exact h4A _ (by omega))
    rw [cnt] at res
    obtain ⟨i, -, e1, e2⟩ := val f le_rfl
    rw [e1, e2 rfl] at res
    rw [powBin, dif_neg e0, ← hf, if_neg e0]
    refine Mix.mono hF le_rfl ?_ res
    split_ifs with h
    · calc 18 * (Er + Ea) + η ≤ 64 * (Er + Ea + η) := by linarith
        _ = 64 * 1 * (Er + Ea + η) := by ring
        _ ≤ _ := by gcongr
    · exact hb

theorem inv_step (k : ℕ) : (1 + gam u 1) * (1 + gam u k) = 1 + gam u (k + 1) := by
  have : (1 - u) ≠ 0 := by have := hF.u_lt_one; linarith
  unfold gam
  rw [pow_one, pow_succ, mul_inv]
  ring

theorem add_errI1 {x X y Y s t E G : ℝ} {k : ℕ} (hx : |x - X| ≤ gam u k * s + E) (hX : |X| ≤ s) (hy : |y - Y| ≤ gam u k * t + G)
    (hY : |Y| ≤ t) (hΩ : (1 + gam u k) * (s + t) + E + G ≤ Ω) :
    |F.add x y - (X + Y)| ≤ gam u (k + 1) * (s + t) + ((1 + gam u 1) * (E + G) + η) := by
  have h0 := hF.u_nonneg
  have h1 := hF.u_lt_one
  have hη := hF.η_nonneg
  have b : |x + y| ≤ (1 + gam u k) * (s + t) + E + G := by
    calc |x + y| = |(x - X) + X + ((y - Y) + Y)| := by ring_nf
      _ ≤ |x - X| + |X| + (|y - Y| + |Y|) := (abs_add_le _ _).trans (add_le_add (abs_add_le _ _) (abs_add_le _ _))
      _ ≤ _ := by linarith
  have g := gam_nonneg h0 h1 1
  have e : |F.add x y - (x + y)| ≤ gam u 1 * |x + y| + η := by
    rcases hF.add x y (b.trans hΩ) with h | ⟨-, h⟩
    · have := Near.err h0 h1 (RelErr.fac h0 h1 h)
      linarith
    · have := mul_nonneg g (abs_nonneg (x + y))
      linarith
  have c : |F.add x y - (X + Y)| ≤ |F.add x y - (x + y)| + (|x - X| + |y - Y|) := by
    calc |F.add x y - (X + Y)| = |(F.add x y - (x + y)) + ((x - X) + (y - Y))| := by ring_nf
      _ ≤ _ := (abs_add_le _ _).trans (add_le_add le_rfl (abs_add_le _ _))
  have d := mul_le_mul_of_nonneg_left b g
  have i := inv_step hF k
  have i' : (1 + gam u 1) * (1 + gam u k) * (s + t) = (1 + gam u (k + 1)) * (s + t) := by rw [i]
  nlinarith

theorem mul_errI1 (a b : ℝ) (h : |a * b| ≤ Ω) : |F.mul a b - a * b| ≤ gam u 1 * |a * b| + η := by
  have h0 := hF.u_nonneg
  have h1 := hF.u_lt_one
  rcases hF.mul a b h with e | ⟨-, e⟩
  · have := Near.err h0 h1 (RelErr.fac h0 h1 e)
    have := hF.η_nonneg
    linarith
  · have := mul_nonneg (gam_nonneg h0 h1 1) (abs_nonneg (a * b))
    linarith

/-- Sequential inner products with underflow. -/
theorem dotSeqI_err (hΩ : 100 ≤ Ω) {M : ℕ} (hM : 1 / 2 ≤ (1 - u) ^ (M + 2)) (hMη : M * η ≤ 1) (hη1 : η ≤ 1) (a b : List ℂ) (h : a.length = b.length)
    (hl : a.length ≤ M) (hT : (List.zipWith (fun x y => ‖x‖ * ‖y‖) a b).sum ≤ Ω / 4) :
    |(dotSeq F a b).re - (List.zipWith (· * ·) a b).sum.re|
      ≤ gam u (a.length + 2) * (List.zipWith (fun x y => ‖x‖ * ‖y‖) a b).sum + 4 * a.length * (1 + gam u (a.length + 1)) * η ∧
    |(dotSeq F a b).im - (List.zipWith (· * ·) a b).sum.im|
      ≤ gam u (a.length + 2) * (List.zipWith (fun x y => ‖x‖ * ‖y‖) a b).sum + 4 * a.length * (1 + gam u (a.length + 1)) * η ∧
    ‖(List.zipWith (· * ·) a b).sum‖ ≤ (List.zipWith (fun x y => ‖x‖ * ‖y‖) a b).sum := by
  have h0 := hF.u_nonneg
  have h1 := hF.u_lt_one
  have hη := hF.η_nonneg
  have gle : ∀ k ≤ M + 2, gam u k ≤ 1 := by
    intro k hk
    refine (gam_mono h0 h1 hk).trans ?_
    unfold gam
    have : ((1 - u) ^ (M + 2))⁻¹ ≤ 2 := by
      rw [inv_le_comm₀ (by linarith) (by norm_num)]; linarith
    linarith
  induction a generalizing b with
  | nil => simp [dotSeq]
  | cons x a ih =>
    cases b with
    | nil => simp at h
    | cons y b =>
      simp only [List.zipWith_cons_cons, List.sum_cons] at hT
      simp only [List.length_cons] at hl
      have n0 : 0 ≤ ‖x‖ * ‖y‖ := by positivity
      have T0 : 0 ≤ (List.zipWith (fun x y : ℂ => ‖x‖ * ‖y‖) a b).sum := by
        apply List.sum_nonneg
        intro z hz
        obtain ⟨i, hi, rfl⟩ := List.getElem_of_mem hz
        rw [List.getElem_zipWith]
        positivity
      obtain ⟨i1, i2, i3⟩ := ih b (by simpa using h) (by omega) (by linarith)
      set S := (List.zipWith (· * ·) a b).sum
      set T := (List.zipWith (fun x y : ℂ => ‖x‖ * ‖y‖) a b).sum
      have tp := two_products x y
      set N := a.length with hN
      have NM : (N : ℝ) + 1 ≤ M := by exact_mod_cast hl
      have Nη : (N : ℝ) * η ≤ 1 := (mul_le_mul_of_nonneg_right (by linarith) hη).trans hMη
      have gm := gam_mono h0 h1 (show 2 ≤ N + 2 by omega)
      have g1 := gam_nonneg h0 h1 1
      have g1' := gle 1 (by omega)
      have g2 := gam_nonneg h0 h1 2
      have gN0 := gam_nonneg h0 h1 (N + 1)
      have gN1 := gle (N + 1) (by omega)
      have gN2 := gle (N + 2) (by omega)
      have gN20 := gam_nonneg h0 h1 (N + 2)
      have E0 : 4 * (N : ℝ) * (1 + gam u (N + 1)) * η ≤ 8 := by nlinarith [Nat.cast_nonneg (α := ℝ) N]
      -- two products
      have p2 : ∀ a b c d : ℝ, |a * b| + |c * d| ≤ ‖x‖ * ‖y‖ →
          |F.add (F.mul a b) (F.mul c d) - (a * b + c * d)| ≤ gam u (N + 2) * (‖x‖ * ‖y‖) + 3 * (1 + gam u 1) * η ∧
          |F.add (F.mul a b) (-F.mul c d) - (a * b - c * d)| ≤ gam u (N + 2) * (‖x‖ * ‖y‖) + 3 * (1 + gam u 1) * η := by
        intro a b c d hp
        have q1 := abs_nonneg (a * b)
        have q2 := abs_nonneg (c * d)
        have m1 := mul_errI1 hF a b (by linarith)
        have m2 := mul_errI1 hF c d (by linarith)
        have m2' : |-F.mul c d - -(c * d)| ≤ gam u 1 * |c * d| + η := by rw [← neg_sub', abs_neg]; exact m2
        have hb : (1 + gam u 1) * (|a * b| + |c * d|) + η + η ≤ Ω := by nlinarith
        have r1 := add_errI1 hF m1 le_rfl m2 le_rfl hb
        have r2 := add_errI1 hF m1 le_rfl m2' (by rw [abs_neg]) hb
        rw [← sub_eq_add_neg (a * b)] at r2
        have k1 : gam u (1 + 1) * (|a * b| + |c * d|) ≤ gam u (N + 2) * (‖x‖ * ‖y‖) :=
          mul_le_mul gm hp (by positivity) (g2.trans gm)
        have k2 : (1 + gam u 1) * (η + η) + η ≤ 3 * (1 + gam u 1) * η := by nlinarith
        constructor <;> linarith
      have fin : (1 + gam u 1) * (3 * (1 + gam u 1) * η + 4 * N * (1 + gam u (N + 1)) * η) + η ≤ 4 * (N + 1 : ℝ) * (1 + gam u (N + 1 + 1)) * η := by
        have j1 := inv_step hF 1
        have j2 := inv_step hF (N + 1)
        have j3 : 1 + gam u 2 ≤ 1 + gam u (N + 1 + 1) := by linarith
        have e : (1 + gam u 1) * (3 * (1 + gam u 1) * η + 4 * N * (1 + gam u (N + 1)) * η) + η
            = 3 * ((1 + gam u 1) * (1 + gam u 1)) * η + 4 * N * ((1 + gam u 1) * (1 + gam u (N + 1))) * η + η := by ring
        rw [e, j1, j2]
        have : 3 * (1 + gam u (1 + 1)) * η ≤ 3 * (1 + gam u (N + 1 + 1)) * η := by
          apply mul_le_mul_of_nonneg_right _ hη
          linarith
        nlinarith
      have hb2 : (1 + gam u (N + 2)) * (‖x‖ * ‖y‖ + T) + 3 * (1 + gam u 1) * η + 4 * N * (1 + gam u (N + 1)) * η ≤ Ω := by
        have : (1 + gam u (N + 2)) * (‖x‖ * ‖y‖ + T) ≤ 2 * (Ω / 4) := mul_le_mul (by linarith) hT (by positivity) (by norm_num)
        have : 3 * (1 + gam u 1) * η ≤ 3 * 2 * 1 := by gcongr; linarith
        linarith
      simp only [dotSeq, List.zipWith_cons_cons, List.sum_cons, List.length_cons, Complex.add_re, Complex.add_im, Complex.mul_re,
        Complex.mul_im]
      rw [show N + 1 + 2 = N + 2 + 1 by omega]
      push_cast
      refine ⟨?_, ?_, ?_⟩
      · have := add_errI1 hF (p2 x.re y.re x.im y.im tp.1).2 ((abs_sub _ _).trans tp.1) i1 ((Complex.abs_re_le_norm _).trans i3) hb2
        exact this.trans (add_le_add le_rfl fin)
      · have := add_errI1 hF (p2 x.re y.im x.im y.re tp.2).1 ((abs_add_le _ _).trans tp.2) i2 ((Complex.abs_im_le_norm _).trans i3) hb2
        exact this.trans (add_le_add le_rfl fin)
      · refine (norm_add_le _ _).trans ?_
        rw [norm_mul]
        linarith

end

theorem IErr.mono_η {u η η' ν x' x : ℝ} (h : η ≤ η') (e : IErr u η ν x' x) : IErr u η' ν x' x := by
  rcases e with e | ⟨e1, e2⟩
  · exact Or.inl e
  · exact Or.inr ⟨e1, e2.trans h⟩

theorem FloatOps.IEEE.mono_η {u w η η' ν Ω : ℝ} {F : FloatOps} (h : η ≤ η') (hF : F.IEEE u w η ν Ω) : F.IEEE u w η' ν Ω where
  u_nonneg := hF.u_nonneg
  u_lt_one := hF.u_lt_one
  η_nonneg := hF.η_nonneg.trans h
  ν_pos := hF.ν_pos
  w_nonneg := hF.w_nonneg
  add x y hx := (hF.add x y hx).mono_η h
  mul x y hx := (hF.mul x y hx).mono_η h
  div x y h0 hx := (hF.div x y h0 hx).mono_η h
  pow x y h0 hx := (hF.pow x y h0 hx).mono_η h
  cos x := (hF.cos x).mono_η h
  sin x := (hF.sin x).mono_η h
  abs z hz := (hF.abs z hz).mono_η h
  arg z := (hF.arg z).mono_η h
  cpow := hF.cpow

set_option exponentiation.threshold 2000

/-- The range of double precision suffices for every `ell ≤ 32`. -/
theorem rangeY_double {u w η ν Ω : ℝ} {P : ℕ} (hu0 : 0 ≤ u) (hu : u ≤ 2 ^ (-50 : ℤ)) (hw : w ≤ 1 / 10 ^ 14) (hη : η ≤ 1 / 10 ^ 300) (hηu : 2 * η ≤ u)
    (hν0 : 0 < ν) (hν : ν ≤ 1 / 10 ^ 300) (hΩ : 10 ^ 300 ≤ Ω) {L : ℤ} (hL : L ≤ 32) (hP : 64 ≤ P) :
    RangeY u w η ν Ω (1 / 10 ^ 15) (1 / 10 ^ 13) P L := by
  have hu' : u ≤ 1 / 10 ^ 15 := hu.trans (by norm_num)
  have hu1 : u < 1 := lt_of_le_of_lt hu' (by norm_num)
  have hL' : (2 * L).toNat ≤ 64 := by omega
  have hden : 1 / 2 ≤ (1 - u) * (1 - 1 / 10 ^ 13) := by
    have : (1 - 1 / 10 ^ 15 : ℝ) * (1 - 1 / 10 ^ 13) ≤ (1 - u) * (1 - 1 / 10 ^ 13) := mul_le_mul_of_nonneg_right (by linarith) (by norm_num)
    refine le_trans ?_ this
    norm_num
  have hd0 : 0 < (1 - u) * (1 - 1 / 10 ^ 13) := lt_of_lt_of_le (by norm_num) hden
  have x0 : 0 ≤ 1 / 10 ^ 15 / ((1 - u) * (1 - 1 / 10 ^ 13)) := div_nonneg (by norm_num) hd0.le
  have x1 : 1 / 10 ^ 15 / ((1 - u) * (1 - 1 / 10 ^ 13)) ≤ 2 / 10 ^ 15 := by
    rw [div_le_iff₀ hd0]
    calc (1 : ℝ) / 10 ^ 15 = 2 / 10 ^ 15 * (1 / 2) := by norm_num
      _ ≤ _ := mul_le_mul_of_nonneg_left hden (by norm_num)
  refine ⟨?_, hL'.trans hP, hw.trans (by norm_num), by norm_num, by norm_num, ?_, lt_of_le_of_lt x1 (by norm_num), ?_⟩
  · refine Range.mono hu0 hu1 hν0 (show (2 * L).toNat + 2 ≤ 66 by omega) ?_
    refine ⟨?_, hηu, hη.trans (by norm_num), by norm_num, by norm_num, ?_, le_trans (by norm_num) hΩ⟩
    · have := one_add_mul_le_pow (a := -u) (by linarith) (7 * 66 + 30)
      rw [← sub_eq_add_neg] at this
      refine le_trans ?_ this
      push_cast
      linarith
    · push_cast
      calc ν * (256 * (66 + 1) ^ 2) ≤ 1 / 10 ^ 300 * (256 * (66 + 1) ^ 2) := by gcongr
        _ ≤ _ := by norm_num
  · refine le_trans ?_ (pow_le_pow_of_le_one (by norm_num) (by norm_num) hL')
    norm_num
  · intro n hn
    have hn := hn.trans hL'
    refine (poleErr_mono x0 x1 (by norm_num) n).trans ?_
    unfold poleErr
    have a1 : ((1 - (2 / 10 ^ 15 : ℝ) ^ 2) ^ 64) ≤ ((1 - (2 / 10 ^ 15 : ℝ) ^ 2) ^ n) :=
      pow_le_pow_of_le_one (by norm_num) (by norm_num) hn
    have a2 := inv_anti₀ (by norm_num) a1
    have a3 : ((1 - (2 / 10 ^ 15 : ℝ) ^ 2) ^ 64)⁻¹ - 1 ≤ 1 / 10 ^ 15 := by norm_num
    have hn' : (n : ℝ) ≤ 64 := by exact_mod_cast hn
    have : ((n : ℝ) + 2) * (2 / 10 ^ 15) ≤ (64 + 2) * (2 / 10 ^ 15) := by gcongr
    have : ((64 : ℝ) + 2) * (2 / 10 ^ 15) + 1 / 10 ^ 15 ≤ 1 := by norm_num
    linarith

/-- **C87.** In numbers: with `u ≤ 2^-50`, underflow below `1e-300`, `epsilon = 1e-15`, complex powers accurate to `1e-14` and rotors
normalised to within `1e-13`, the bound is at most `2e-10` for every `ell ≤ 8`. -/
theorem C87_double {u w η : ℝ} (hu0 : 0 ≤ u) (hw0 : 0 ≤ w) (hη0 : 0 ≤ η) (hu50 : u ≤ 2 ^ (-50 : ℤ)) (hw : w ≤ 1 / 10 ^ 14) (hη : η ≤ 1 / 10 ^ 300)
    (ell : ℤ) (h0 : 0 ≤ ell) (h8 : ell ≤ 8) :
    swshErrI u w η (1 / 10 ^ 13) (1 / 10 ^ 15 / ((1 - u) * (1 - 1 / 10 ^ 13))) ell ≤ 2 / 10 ^ 10 := by
  have hu' : u ≤ 1 / 10 ^ 15 := hu50.trans (by norm_num)
  have hu1 : u < 1 := lt_of_le_of_lt hu' (by norm_num)
  have hn : (2 * ell).toNat ≤ 16 := by omega
  obtain ⟨τ, hτ⟩ : ∃ τ : ℝ, τ = 1 / 10 ^ 13 := ⟨_, rfl⟩
  rw [← hτ]
  set x : ℝ := 1 / 10 ^ 15 / ((1 - u) * (1 - τ)) with hx
  have hden : 1 / 2 ≤ (1 - u) * (1 - τ) := by
    have : (1 - 1 / 10 ^ 15 : ℝ) * (1 - τ) ≤ (1 - u) * (1 - τ) := mul_le_mul_of_nonneg_right (by linarith) (by rw [hτ]; norm_num)
    refine le_trans ?_ this
    rw [hτ]; norm_num
  have hd0 : 0 < (1 - u) * (1 - τ) := lt_of_lt_of_le (by norm_num) hden
  have x0 : 0 ≤ x := by rw [hx]; exact div_nonneg (by norm_num) hd0.le
  have x1 : x ≤ 2 / 10 ^ 15 := by
    rw [hx, div_le_iff₀ hd0]
    calc (1 : ℝ) / 10 ^ 15 = 2 / 10 ^ 15 * (1 / 2) := by norm_num
      _ ≤ _ := mul_le_mul_of_nonneg_left hden (by norm_num)
  clear_value x
  clear hx hden hd0
  unfold swshErrI
  set n := (2 * ell).toNat
  have hn' : (n : ℝ) ≤ 16 := by exact_mod_cast hn
  have n0 : (0 : ℝ) ≤ n := Nat.cast_nonneg n
  have hl : (ell : ℝ) ≤ 8 := by exact_mod_cast h8
  have hl0 : (0 : ℝ) ≤ ell := by exact_mod_cast h0
  have hc : Real.sqrt ((2 * (ell : ℝ) + 1) / (4 * Real.pi)) ≤ 2 := by
    rw [Real.sqrt_le_left (by norm_num), div_le_iff₀ (by have := Real.pi_pos; positivity)]
    have := Real.pi_gt_three
    nlinarith
  have c0 := Real.sqrt_nonneg ((2 * (ell : ℝ) + 1) / (4 * Real.pi))
  have g : gam τ n ≤ 2 / 10 ^ 12 := by
    refine (gam_mono (by rw [hτ]; norm_num) (by rw [hτ]; norm_num) hn).trans ?_
    unfold gam
    rw [hτ]; norm_num
  have g0 : 0 ≤ gam τ n := gam_nonneg (by rw [hτ]; norm_num) (by rw [hτ]; norm_num) n
  have fp := floatErrY_nonneg hu0 hu1 n
  apply max_le
  · have b := C70_bound hu0 hu50 (show n ≤ 64 by omega)
    have s : Real.sqrt 2 ^ n ≤ 256 := by
      have h1 : (1 : ℝ) ≤ Real.sqrt 2 := by rw [Real.one_le_sqrt]; norm_num
      calc Real.sqrt 2 ^ n ≤ Real.sqrt 2 ^ 16 := pow_le_pow_right₀ h1 hn
        _ = (Real.sqrt 2 ^ 2) ^ 8 := by rw [← pow_mul]
        _ = 256 := by rw [Real.sq_sqrt (by norm_num)]; norm_num
    have b2 : 20 * ((n : ℝ) + 1) * u ≤ 340 * 2 ^ (-50 : ℤ) := by
      have : 20 * ((n : ℝ) + 1) ≤ 340 := by linarith
      gcongr
    have c1 : floatErrY u n * Real.sqrt 2 ^ n ≤ (340 * 2 ^ (-50 : ℤ)) * 256 :=
      mul_le_mul (b.trans b2) s (by positivity) (by positivity)
    have c2 : floatErrY u n * Real.sqrt 2 ^ n * (1 + gam τ n) ≤ ((340 * 2 ^ (-50 : ℤ)) * 256) * (1 + 2 / 10 ^ 12) :=
      mul_le_mul c1 (by linarith) (by linarith) (by positivity)
    have c3 : underErrY η n ≤ 1 / 10 ^ 200 := by
      unfold underErrY
      have : (2 : ℝ) ^ n ≤ 2 ^ 16 := pow_le_pow_right₀ (by norm_num) hn
      calc 100000 * ((n : ℝ) + 1) ^ 2 * 2 ^ n * η ≤ 100000 * (16 + 1) ^ 2 * 2 ^ 16 * (1 / 10 ^ 300) := by gcongr
        _ ≤ _ := by norm_num
    have c5 : Real.sqrt ((2 * (ell : ℝ) + 1) / (4 * Real.pi)) * (floatErrY u n * Real.sqrt 2 ^ n * (1 + gam τ n) + gam τ n)
        ≤ 2 * (((340 * 2 ^ (-50 : ℤ)) * 256) * (1 + 2 / 10 ^ 12) + 2 / 10 ^ 12) := by
      apply mul_le_mul hc (by linarith) (by positivity) (by norm_num)
    have c4 : 2 * (((340 * (2 : ℝ) ^ (-50 : ℤ)) * 256) * (1 + 2 / 10 ^ 12) + 2 / 10 ^ 12) + 1 / 10 ^ 200 ≤ 2 / 10 ^ 10 := by norm_num
    linarith
  · have p : poleErr x n ≤ 2 / 10 ^ 13 := by
      refine (poleErr_mono x0 x1 (by norm_num) n).trans ?_
      unfold poleErr
      have a1 : ((1 - (2 / 10 ^ 15 : ℝ) ^ 2) ^ 16) ≤ ((1 - (2 / 10 ^ 15 : ℝ) ^ 2) ^ n) :=
        pow_le_pow_of_le_one (by norm_num) (by norm_num) hn
      have a2 := inv_anti₀ (by norm_num) a1
      have a3 : ((1 - (2 / 10 ^ 15 : ℝ) ^ 2) ^ 16)⁻¹ - 1 ≤ 1 / 10 ^ 15 := by norm_num
      have : ((n : ℝ) + 2) * (2 / 10 ^ 15) ≤ (16 + 2) * (2 / 10 ^ 15) := by gcongr
      have : ((16 : ℝ) + 2) * (2 / 10 ^ 15) + 1 / 10 ^ 15 ≤ 2 / 10 ^ 13 := by norm_num
      linarith
    have p0 : 0 ≤ poleErr x n := poleErr_nonneg x0 (lt_of_le_of_lt x1 (by norm_num)) n
    have c1 : w * (1 + gam τ n) ≤ 1 / 10 ^ 14 * 2 := mul_le_mul hw (by linarith) (by linarith) (by norm_num)
    have c2 : (w * (1 + gam τ n) + gam τ n) * (1 + poleErr x n) ≤ (1 / 10 ^ 14 * 2 + 2 / 10 ^ 12) * 2 :=
      mul_le_mul (by linarith) (by linarith) (by linarith) (by norm_num)
    have c3 : ((1 : ℝ) / 10 ^ 14 * 2 + 2 / 10 ^ 12) * 2 + 2 / 10 ^ 13 ≤ 5 / 10 ^ 12 := by norm_num
    have i1 : ieeePole w τ x n ≤ 5 / 10 ^ 12 := by unfold ieeePole; linarith
    have i0 : 0 ≤ ieeePole w τ x n := by unfold ieeePole; positivity
    have hg5 : gam u 5 ≤ 1 / 10 ^ 13 := by
      refine (gam_le hu0 hu1 (k := 5) (by push_cast; linarith)).trans ?_
      push_cast
      rw [div_le_iff₀ (by linarith)]
      linarith
    have g5 := gam_nonneg hu0 hu1 5
    have q : poleErrY u (ieeePole w τ x n) ≤ 1 / 10 ^ 13 * 2 + 5 / 10 ^ 12 := by
      unfold poleErrY
      have : gam u 5 * (1 + ieeePole w τ x n) ≤ 1 / 10 ^ 13 * 2 := by
        apply mul_le_mul hg5 _ (by linarith) (by norm_num)
        have : (5 : ℝ) / 10 ^ 12 ≤ 1 := by norm_num
        linarith
      linarith
    have q0 : 0 ≤ poleErrY u (ieeePole w τ x n) := by unfold poleErrY; positivity
    have r := mul_le_mul hc q q0 (by norm_num)
    have : (2 : ℝ) * (1 / 10 ^ 13 * 2 + 5 / 10 ^ 12) + 2 * (1 / 10 ^ 300) ≤ 2 / 10 ^ 10 := by norm_num
    linarith

/-! ## IEEE double precision satisfies the hypotheses -/

/-- Correctly rounded double-precision operations, binary powering and sequential inner products. -/
noncomputable def F64Y (ovf : ℝ → ℝ) : FloatOpsY where
  toFloatOps := F64 ovf
  sqrt x := fl64 ovf (Real.sqrt x)
  ipow x n := powBin (F64 ovf) n.toNat 1 x
  pi := fl64 ovf Real.pi
  dot := dotSeq (F64 ovf)

theorem F64Y_ieee (ovf : ℝ → ℝ) : (F64Y ovf).IEEE (2 ^ (-53 : ℤ)) (2 ^ (-51 : ℤ)) (64 * 64 ^ 6 * 2 ^ (-1075 : ℤ)) (2 ^ (-1022 : ℤ)) maxDouble 64
    (fun N => 2 * gam (2 ^ (-53 : ℤ)) (N + 2)) (fun N => 16 * N * 2 ^ (-1075 : ℤ)) where
  toIEEE := (F64_ieee ovf).mono_η (by
    have : (0 : ℝ) < 2 ^ (-1075 : ℤ) := by positivity
    linarith)
  sqrt x _ h := (fl64_err ovf (by rw [abs_of_nonneg (Real.sqrt_nonneg x)]; exact h)).mono_η (by
    have : (0 : ℝ) < 2 ^ (-1075 : ℤ) := by positivity
    linarith)
  ipow x n hn hx h4 := by
    have η0 : (0 : ℝ) < 2 ^ (-1075 : ℤ) := by positivity
    have hn' : (n : ℝ) ≤ 64 := by exact_mod_cast hn
    have hn6 : (n : ℝ) ^ 6 ≤ 64 ^ 6 := by gcongr
    have hb : 64 * (n : ℝ) ^ 6 * (0 + 0 + 2 ^ (-1075 : ℤ)) ≤ 64 * 64 ^ 6 * 2 ^ (-1075 : ℤ) := by
      rw [zero_add, zero_add]; gcongr
    have e := powBin_mix (F64_ieee ovf) ((by norm_num : (81 : ℝ) ≤ 10 ^ 300).trans maxDouble_ge) (K := 64) (by norm_num) n 0 0 0 0 1 1 x x (by omega)
      (Mix.refl (F64_ieee ovf) 1) (fun _ => Mix.refl (F64_ieee ovf) x) le_rfl le_rfl (hb.trans (by norm_num)) hx.le (by norm_num)
      (fun j hj => by rw [one_mul]; exact h4 j hj) h4
    obtain ⟨y, ⟨θ, y1, y2⟩, y3⟩ := e
    rw [one_mul] at y1
    have cnt : 0 + n * (0 + 1) = n := by omega
    rw [cnt] at y2
    refine ⟨θ, y2.1, y2.2, ?_⟩
    rw [← y1]
    refine y3.trans ?_
    split_ifs
    · positivity
    · exact hb
  pi := by
    rcases fl64_err ovf (x := Real.pi) (by
      rw [abs_of_pos Real.pi_pos]
      exact Real.pi_le_four.trans ((by norm_num : (4 : ℝ) ≤ 10 ^ 300).trans maxDouble_ge)) with h | ⟨h, -⟩
    · exact h
    · rw [abs_of_pos Real.pi_pos] at h
      have := Real.pi_gt_three
      have : (2 : ℝ) ^ (-1022 : ℤ) ≤ 1 := by norm_num
      linarith
  dot_nonneg N := by
    have := gam_nonneg (F64_ieee ovf).u_nonneg (F64_ieee ovf).u_lt_one (N + 2)
    linarith
  dot a b h h2 hT := by
    have h0 := (F64_ieee ovf).u_nonneg
    have h1 := (F64_ieee ovf).u_lt_one
    obtain ⟨U, hU⟩ : ∃ U : ℝ, U = 2 ^ (-53 : ℤ) := ⟨_, rfl⟩
    obtain ⟨η, hη⟩ : ∃ η : ℝ, η = 2 ^ (-1075 : ℤ) := ⟨_, rfl⟩
    have hηU : η ≤ U := by rw [hU, hη]; exact zpow_le_zpow_right₀ (by norm_num) (by norm_num)
    have η0 : 0 ≤ η := by rw [hη]; positivity
    have hU1 : U ≤ 1 / 2 := by rw [hU]; norm_num
    have hF := F64_ieee ovf
    rw [← hU, ← hη] at hF
    rw [← hU] at h2 h0 h1
    rw [← hU, ← hη]
    have NU : ((a.length + 2 : ℕ) : ℝ) * U ≤ 1 := by
      have k1 := one_add_mul_le_pow (a := U) (by linarith) (a.length + 2)
      have k2 : (1 - U) ^ (a.length + 2) * (1 + U) ^ (a.length + 2) ≤ 1 := by
        rw [← mul_pow]
        apply pow_le_one₀ (by nlinarith) (by nlinarith)
      have k3 : (0 : ℝ) ≤ ((a.length + 2 : ℕ) : ℝ) * U := by positivity
      nlinarith
    have Nη : (a.length : ℝ) * η ≤ 1 := by
      push_cast at NU
      have : (0 : ℝ) ≤ a.length := Nat.cast_nonneg _
      nlinarith
    obtain ⟨d1, d2, -⟩ := dotSeqI_err hF ((by norm_num : (100 : ℝ) ≤ 10 ^ 300).trans maxDouble_ge) h2 Nη (by linarith) a b h le_rfl hT
    refine (Complex.norm_le_abs_re_add_abs_im _).trans ?_
    rw [Complex.sub_re, Complex.sub_im]
    have g : gam U (a.length + 1) ≤ 1 := by
      refine (gam_mono h0 h1 (show a.length + 1 ≤ a.length + 2 by omega)).trans ?_
      unfold gam
      have : ((1 - U) ^ (a.length + 2))⁻¹ ≤ 2 := by
        rw [inv_le_comm₀ (by linarith) (by norm_num)]; linarith
      linarith
    have k : 4 * (a.length : ℝ) * (1 + gam U (a.length + 1)) * η ≤ 4 * a.length * (1 + 1) * η := by gcongr
    have e : (F64Y ovf).dot a b = dotSeq (F64 ovf) a b := rfl
    rw [e]
    linarith

/-- Non-vacuity of C87: IEEE double precision with any treatment of overflow, the correctly rounded table for `L = 32`, a generic rotor
with norm `1 + 2^-52`, and a pole. -/
example (ovf : ℝ → ℝ) : ∃ table, RoundedTable (2 ^ (-53 : ℤ)) 32 table ∧
    (∃ f : ℤ × ℤ → ℂ, SWSH_kernelF (F64Y ovf) (1 / 10 ^ 15) table (((1 + 2 ^ (-52 : ℤ) : ℝ) : ℂ) * (3 / 5)) (((1 + 2 ^ (-52 : ℤ) : ℝ) : ℂ) * (4 / 5)) (-2)
        [(2, 1), (8, -3), (1, 0)] [7, 7, 7] = .ok [f (2, 1), f (8, -3), f (1, 0)] ∧ f (1, 0) = 0 ∧
      ‖f (8, -3) - Spec.sYlm (3 / 5) (4 / 5) (-2) 8 (-3)‖ ≤ 2 / 10 ^ 10) ∧
    (∃ f : ℍ[ℝ] → ℂ, SWSHs_kernelF (F64Y ovf) (1 / 10 ^ 15) table ([(1 : ℍ[ℝ])].map comps) (-2) 2 2 [7] = .ok [f 1]) := by
  obtain ⟨t, ht⟩ := IsWignerTable.exists 32 (by norm_num)
  have tt := table53 ht
  have u1 : Spec.IsUnit' (3 / 5) (4 / 5) := by
    unfold Spec.IsUnit'
    rw [map_div₀, map_div₀]
    norm_num [Complex.normSq_apply]
  have h50 : (2 : ℝ) ^ (-53 : ℤ) ≤ 2 ^ (-50 : ℤ) := by norm_num
  have hw : (2 : ℝ) ^ (-51 : ℤ) ≤ 1 / 10 ^ 14 := by norm_num
  have hR : RangeY (2 ^ (-53 : ℤ)) (2 ^ (-51 : ℤ)) (64 * 64 ^ 6 * 2 ^ (-1075 : ℤ)) (2 ^ (-1022 : ℤ)) maxDouble (1 / 10 ^ 15) (1 / 10 ^ 13) 64 32 :=
    rangeY_double (by positivity) h50 hw (by norm_num) (by norm_num) (by positivity) (by norm_num) maxDouble_ge le_rfl le_rfl
  obtain ⟨f, f1, f2⟩ := C87_every_rotor (F64Y_ieee ovf) hR tt (1 + 2 ^ (-52 : ℤ)) (by norm_num) (3 / 5) (4 / 5) u1 (-2)
    [(2, 1), (8, -3), (1, 0)] [7, 7, 7] rfl (by simp)
  obtain ⟨h, h1, -⟩ := C87_array (F64Y_ieee ovf) hR tt [1] (by simp) (-2) 2 2 (by norm_num) [7] rfl
  refine ⟨t.map fl53, tt, ⟨f, f1, (f2 (1, 0) (by simp)).1 (by norm_num), ?_⟩, ⟨h, h1⟩⟩
  exact ((f2 (8, -3) (by simp)).2).trans (C87_double (by positivity) (by positivity) (by positivity) h50 hw (by norm_num) 8 (by norm_num) (by norm_num))

/-- Non-vacuity of `C87_evaluate`: `exModes` in double precision at the identity. -/
example (ovf : ℝ → ℝ) : ∃ (table : List ℝ) (v : ℍ[ℝ] → MIdx → ℂ),
    exModes.evaluateF (F64Y ovf) (1 / 10 ^ 15) table (fun _ => (0, 0)) ([(1 : ℍ[ℝ])].map comps) = .ok [v 1] := by
  obtain ⟨t, ht⟩ := IsWignerTable.exists 32 (by norm_num)
  obtain ⟨v, e, -⟩ := C87_evaluate (F64Y_ieee ovf) (rangeY_double (by positivity) (by norm_num) (by norm_num) (by norm_num) (by norm_num) (by positivity) (by norm_num)
    maxDouble_ge le_rfl le_rfl) (table53 ht) (fun _ => (0, 0)) exModes exModes_WF (by decide)
    (by have : ((exModes.ell_max + 1) ^ 2).toNat + 2 ≤ 100 := by decide
        refine le_trans ?_ (pow_le_pow_of_le_one (by norm_num) (by norm_num) this)
        norm_num) [1] (by simp) (by simp)
  exact ⟨_, v, e⟩

end SF
