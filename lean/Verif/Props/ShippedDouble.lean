import Verif.Props.ShippedTables
import Verif.Props.FloatIEEE
import Verif.Props.FloatIEEEY
import Verif.Props.FloatIEEEM

/-!
# C98: the shipped package in double precision

The bounds of C78, C87 and C90 with the table that is shipped (C97), in numbers.
-/

set_option autoImplicit false

set_option exponentiation.threshold 2000

namespace SF

open Finset Quaternion

/-! ## Larger error bounds -/

theorem RelErr.mono {u u' x' x : ℝ} (h : u ≤ u') (hx : RelErr u x' x) : RelErr u' x' x :=
  le_trans (show |x' - x| ≤ u * |x| from hx) (mul_le_mul_of_nonneg_right h (abs_nonneg x))

theorem IErr.mono {u u' η ν x' x : ℝ} (h : u ≤ u') (hx : IErr u η ν x' x) : IErr u' η ν x' x := hx.imp_left (RelErr.mono h)

theorem FloatOps.Std.mono {u u' w : ℝ} {F : FloatOps} (hF : F.Std u w) (h : u ≤ u') (h1 : u' < 1) : F.Std u' w where
  u_nonneg := hF.u_nonneg.trans h
  u_lt_one := h1
  add x y := (hF.add x y).mono h
  mul x y := (hF.mul x y).mono h
  div x y hy := (hF.div x y hy).mono h
  pow x y hx := (hF.pow x y hx).mono h
  cos x := (hF.cos x).mono h
  sin x := (hF.sin x).mono h
  abs z := (hF.abs z).mono h
  arg z := (hF.arg z).mono h
  cpow := hF.cpow

theorem FloatOps.IEEE.mono {u u' w η ν Ω : ℝ} {F : FloatOps} (hF : F.IEEE u w η ν Ω) (h : u ≤ u') (h1 : u' < 1) : F.IEEE u' w η ν Ω where
  u_nonneg := hF.u_nonneg.trans h
  u_lt_one := h1
  η_nonneg := hF.η_nonneg
  ν_pos := hF.ν_pos
  w_nonneg := hF.w_nonneg
  add x y hx := (hF.add x y hx).mono h
  mul x y hx := (hF.mul x y hx).mono h
  div x y hy hx := (hF.div x y hy hx).mono h
  pow x y hx hy := (hF.pow x y hx hy).mono h
  cos x := (hF.cos x).mono h
  sin x := (hF.sin x).mono h
  abs z hz := (hF.abs z hz).mono h
  arg z := (hF.arg z).mono h
  cpow := hF.cpow

theorem FloatOpsY.IEEE.mono {u u' w η ν Ω : ℝ} {P : ℕ} {δ ζ : ℕ → ℝ} {F : FloatOpsY} (hF : F.IEEE u w η ν Ω P δ ζ) (h : u ≤ u') (h1 : u' < 1) :
    F.IEEE u' w η ν Ω P δ ζ where
  toIEEE := hF.toIEEE.mono h h1
  sqrt x hx hy := (hF.sqrt x hx hy).mono h
  ipow x n hn hx hk := by
    obtain ⟨θ, t1, t2, t3⟩ := hF.ipow x n hn hx hk
    have hp : (1 - u') ^ n ≤ (1 - u) ^ n := pow_le_pow_left₀ (by linarith) (by linarith) n
    have h0 : 0 ≤ (1 - u') ^ n := pow_nonneg (by linarith) n
    exact ⟨θ, hp.trans t1, (mul_le_mul_of_nonneg_left hp ((h0.trans hp).trans t1)).trans t2, t3⟩
  pi := hF.pi.mono h
  dot_nonneg := hF.dot_nonneg
  dot a b hl hN hT := hF.dot a b hl (hN.trans (pow_le_pow_left₀ (by linarith) (by linarith) _)) hT

/-! ## Property theorems -/

/-- Double precision: unit roundoff at most `2^-52`, complex powers with relative error `1e-14`, underflow below `1e-300`, no overflow up to
`1e300`, dot products of up to 81 terms with relative error `1e-12`. -/
structure DoubleLike (F : FloatOpsY) (u w η ν Ω : ℝ) (P : ℕ) (δ ζ : ℕ → ℝ) : Prop where
  ieee : F.IEEE u w η ν Ω P δ ζ
  u_le : u ≤ 2 ^ (-52 : ℤ)
  w_le : w ≤ 1 / 10 ^ 14
  η_le : η ≤ 1 / 10 ^ 300
  ν_le : ν ≤ 1 / 10 ^ 300
  Ω_ge : 10 ^ 300 ≤ Ω
  P_ge : 64 ≤ P
  δ_le : ∀ N ≤ 81, δ N ≤ 1 / 10 ^ 12
  ζ_le : ∀ N ≤ 81, ζ N ≤ 1 / 10 ^ 290

section
variable {u w η ν Ω : ℝ} {P : ℕ} {δ ζ : ℕ → ℝ} {F : FloatOpsY} (hF : DoubleLike F u w η ν Ω P δ ζ)
include hF

theorem DoubleLike.ieee52 : F.IEEE (2 ^ (-52 : ℤ)) w η ν Ω P δ ζ := hF.ieee.mono hF.u_le (by norm_num)

theorem DoubleLike.range {L : ℤ} (hL : L ≤ 32) : RangeY (2 ^ (-52 : ℤ)) w η ν Ω (1 / 10 ^ 15) (1 / 10 ^ 13) P L :=
  rangeY_double (by norm_num) (by norm_num) hF.w_le hF.η_le (le_trans (mul_le_mul_of_nonneg_left hF.η_le (by norm_num)) (by norm_num)) hF.ieee.ν_pos hF.ν_le hF.Ω_ge hL hF.P_ge

/-- **C98.** `Wigner_D_element` of the shipped package, at every rotor whose norm is within `1e-13` of 1: elements with `ell ≤ 8` (integer or
half-integer) are within `1e-10` of the D function of the normalised rotor; those out of range are exactly zero. -/
theorem C98_Wigner_D_element (N : ℝ) (hN : |N - 1| ≤ 1 / 10 ^ 13) (za zb : ℂ) (hu : Spec.IsUnit' za zb) (indices : List (ℤ × ℤ × ℤ))
    (elements : List ℂ) (hlen : elements.length = indices.length) (hi : ∀ t ∈ indices, Lookable 32 t) :
    ∃ f : ℤ × ℤ × ℤ → ℂ,
      Wigner_D_element_kernelF F.toFloatOps (1 / 10 ^ 15) shippedWigner (N * za) (N * zb) indices elements = .ok (indices.map f) ∧
      ∀ t ∈ indices, (¬ (|t.2.1| ≤ t.1 ∧ |t.2.2| ≤ t.1) → f t = 0) ∧
        (|t.2.1| ≤ t.1 → |t.2.2| ≤ t.1 → t.1 ≤ 16 → ‖f t - Spec.wignerD za zb t.1 t.2.1 t.2.2‖ ≤ 1 / 10 ^ 10) :=
  C78_double hF.ieee52.toIEEE (by norm_num) hF.w_le hF.η_le (le_trans (mul_le_mul_of_nonneg_left hF.η_le (by norm_num)) (by norm_num)) hF.ν_le hF.Ω_ge le_rfl
    (C97_RoundedTable le_rfl) N hN za zb hu indices elements hlen hi

/-- **C98.** All matrices of `Wigner_D_matrices(R, ell_min, ell_max)` of the shipped package, `ell_max ≤ 8`. -/
theorem C98_Wigner_D_matrices (N : ℝ) (hN : |N - 1| ≤ 1 / 10 ^ 13) (za zb : ℂ) (hu : Spec.IsUnit' za zb)
    {a b : ℤ} (ha : 0 ≤ a) (hb : b ≤ 8) (matrices : List ℂ) (hlen : matrices.length = (LMpMlist a b).length) :
    ∃ (f : ℤ → ℤ → ℤ → ℂ) (out : List ℂ), Wigner_D_matrices_kernelF F (1 / 10 ^ 15) shippedWigner (N * za) (N * zb) a b matrices = .ok out ∧
      out.length = matrices.length ∧
      ∀ ell mp m, a ≤ ell → ell ≤ b → |mp| ≤ ell → |m| ≤ ell →
        out[(LMpM_index ell mp m a).toNat]? = some (f ell mp m) ∧
        ‖f ell mp m - Spec.wignerD za zb (2 * ell) (2 * mp) (2 * m)‖ ≤ 2 / 10 ^ 10 := by
  obtain ⟨f, out, h1, h2, h3⟩ := C90_matrices hF.ieee52 (hF.range le_rfl) (C97_RoundedTable le_rfl) N hN za zb hu ha (show b ≤ 32 by omega) matrices hlen
  refine ⟨f, out, h1, h2, fun ell mp m k1 k2 k3 k4 => ?_⟩
  obtain ⟨g1, g2⟩ := h3 ell mp m k1 k2 k3 k4
  exact ⟨g1, g2.trans (C90_double (by norm_num) hF.ieee.w_nonneg hF.ieee.η_nonneg (by norm_num) hF.w_le hF.η_le ell (by omega))⟩

/-- **C98.** `SWSH(R, s, indices)` of the shipped package: every harmonic with `ell ≤ 8` within `2e-10`. -/
theorem C98_SWSH (N : ℝ) (hN : |N - 1| ≤ 1 / 10 ^ 13) (za zb : ℂ) (hu : Spec.IsUnit' za zb)
    (s : ℤ) (modes : List (ℤ × ℤ)) (values : List ℂ) (hlen : values.length = modes.length) (hi : ∀ t ∈ modes, t.1 ≤ 32) :
    ∃ f : ℤ × ℤ → ℂ, SWSH_kernelF F (1 / 10 ^ 15) shippedWigner (N * za) (N * zb) s modes values = .ok (modes.map f) ∧
      ∀ t ∈ modes, (¬ (|t.2| ≤ t.1 ∧ |s| ≤ t.1) → f t = 0) ∧
        (0 ≤ t.1 → t.1 ≤ 8 → ‖f t - Spec.sYlm za zb s t.1 t.2‖ ≤ 2 / 10 ^ 10) := by
  obtain ⟨f, h1, h2⟩ := C87_every_rotor hF.ieee52 (hF.range le_rfl) (C97_RoundedTable le_rfl) N hN za zb hu s modes values hlen hi
  exact ⟨f, h1, fun t ht => ⟨(h2 t ht).1, fun k0 k8 => (h2 t ht).2.trans
    (C87_double (by norm_num) hF.ieee.w_nonneg hF.ieee.η_nonneg (by norm_num) hF.w_le hF.η_le t.1 k0 k8)⟩⟩

/-- **C98.** `SWSH_grid(R, s, ell_max)` of the shipped package, `ell_max ≤ 8`. -/
theorem C98_grid (junk : ℕ → ℤ × ℤ) (qs : List ℍ[ℝ]) (hne : qs ≠ []) (hq : ∀ q ∈ qs, |Real.sqrt (normSq q) - 1| ≤ 1 / 10 ^ 13)
    (s ell_max : ℤ) (h0 : -1 ≤ ell_max) (hl : ell_max ≤ 8) :
    ∃ g : ℍ[ℝ] → ℤ × ℤ → ℂ,
      SWSH_gridF F (1 / 10 ^ 15) shippedWigner junk (qs.map comps) s ell_max = .ok (qs.map fun q => (LMlist 0 ell_max).map (g q)) ∧
      ∀ q ∈ qs, ∀ ell m : ℤ, |m| ≤ ell → ell ≤ ell_max →
        ((LMlist 0 ell_max).map (g q))[(LM_index ell m 0).toNat]? = some (g q (ell, m)) ∧
        (ell < |s| → g q (ell, m) = 0) ∧
        ‖g q (ell, m) - Spec.sYlm (partA q / (Real.sqrt (normSq q) : ℝ)) (partB q / (Real.sqrt (normSq q) : ℝ)) s ell m‖ ≤ 2 / 10 ^ 10 := by
  obtain ⟨g, h1, h2⟩ := C87_grid hF.ieee52 (hF.range le_rfl) (C97_RoundedTable le_rfl) junk qs hne hq s ell_max h0 (show ell_max ≤ 32 by omega)
  refine ⟨g, h1, fun q hqq ell m k1 k2 => ?_⟩
  obtain ⟨g1, g2, g3⟩ := h2 q hqq ell m k1 k2
  exact ⟨g1, g2, g3.trans (C87_double (by norm_num) hF.ieee.w_nonneg hF.ieee.η_nonneg (by norm_num) hF.w_le hF.η_le ell
    ((abs_nonneg m).trans k1) (by omega))⟩

/-- **C98.** `Modes.evaluate(R)` of the shipped package, `ell_max ≤ 8`: the error is at most `3e-10` times the sum of the moduli of the modes
(plus `1e-290` for underflow), unless that sum exceeds `1e298`. -/
theorem C98_evaluate (junk : ℕ → ℤ × ℤ) (f : Modes) (hf : f.WF) (h0 : 0 ≤ f.ell_max) (h8 : f.ell_max ≤ 8) (qs : List ℍ[ℝ]) (hne : qs ≠ [])
    (hq : ∀ q ∈ qs, |Real.sqrt (normSq q) - 1| ≤ 1 / 10 ^ 13) :
    ∃ v : ℍ[ℝ] → MIdx → ℂ, f.evaluateF F (1 / 10 ^ 15) shippedWigner junk (qs.map comps) = .ok (qs.map v) ∧
      ∀ q ∈ qs, ∀ idx, ∑ ell ∈ Icc 0 f.ell_max, ∑ m ∈ Icc (-ell) ell, ‖f.coef ell m idx‖ ≤ 10 ^ 298 →
        ‖v q idx - Spec.fieldValue f.s f.ell_max (fun ell m => f.coef ell m idx) (partA q / (Real.sqrt (normSq q) : ℝ))
            (partB q / (Real.sqrt (normSq q) : ℝ))‖
          ≤ 3 / 10 ^ 10 * ∑ ell ∈ Icc 0 f.ell_max, ∑ m ∈ Icc (-ell) ell, ‖f.coef ell m idx‖ + 1 / 10 ^ 290 := by
  have hM : (f.ell_max + 1) ^ 2 ≤ 81 := by nlinarith
  have hM' : ((f.ell_max + 1) ^ 2).toNat ≤ 81 := by omega
  obtain ⟨v, h1, h2⟩ := C87_evaluate hF.ieee52 (hF.range le_rfl) (C97_RoundedTable le_rfl) junk f hf (show f.ell_max ≤ 32 by omega)
    (by
      refine le_trans ?_ (pow_le_pow_of_le_one (by norm_num) (by norm_num) (show ((f.ell_max + 1) ^ 2).toNat + 2 ≤ 83 by omega))
      have := one_add_mul_le_pow (a := -(2 : ℝ) ^ (-52 : ℤ)) (by norm_num) 83
      rw [← sub_eq_add_neg] at this
      refine le_trans ?_ this
      norm_num) qs hne hq
  refine ⟨v, h1, fun q hqq idx hS => ?_⟩
  set E : ℤ → ℝ := fun ell => swshErrI (2 ^ (-52 : ℤ)) w η (1 / 10 ^ 13) (1 / 10 ^ 15 / ((1 - 2 ^ (-52 : ℤ)) * (1 - 1 / 10 ^ 13))) ell with hE
  have hE2 : ∀ ell ∈ Icc 0 f.ell_max, E ell ≤ 2 / 10 ^ 10 := fun ell hell => by
    rw [mem_Icc] at hell
    exact C87_double (by norm_num) hF.ieee.w_nonneg hF.ieee.η_nonneg (by norm_num) hF.w_le hF.η_le ell hell.1 (by omega)
  have hc : ∀ ell ∈ Icc 0 f.ell_max, Real.sqrt ((2 * (ell : ℝ) + 1) / (4 * Real.pi)) ≤ 2 := fun ell hell => by
    rw [mem_Icc] at hell
    have : (ell : ℝ) ≤ 8 := by exact_mod_cast hell.2.trans h8
    rw [Real.sqrt_le_left (by norm_num), div_le_iff₀ (by have := Real.pi_pos; positivity)]
    have := Real.pi_gt_three
    nlinarith
  have hδ0 := hF.ieee.dot_nonneg ((f.ell_max + 1) ^ 2).toNat
  have hδ := hF.δ_le _ hM'
  have hζ := hF.ζ_le _ hM'
  have hmul : ∀ (k : ℤ → ℝ) (K : ℝ), (∀ ell ∈ Icc 0 f.ell_max, k ell ≤ K) →
      ∑ ell ∈ Icc 0 f.ell_max, ∑ m ∈ Icc (-ell) ell, ‖f.coef ell m idx‖ * k ell
        ≤ K * ∑ ell ∈ Icc 0 f.ell_max, ∑ m ∈ Icc (-ell) ell, ‖f.coef ell m idx‖ := by
    intro k K hk
    rw [mul_sum]
    refine sum_le_sum fun ell hell => ?_
    rw [mul_sum]
    refine sum_le_sum fun m _ => ?_
    rw [mul_comm]
    exact mul_le_mul_of_nonneg_right (hk ell hell) (norm_nonneg _)
  have k := h2 q hqq idx ?_
  · refine k.trans (add_le_add (hmul _ _ fun ell hell => ?_) hζ)
    have a1 := hE2 ell hell
    have a2 := hc ell hell
    have : δ (((f.ell_max + 1) ^ 2).toNat) * (Real.sqrt ((2 * (ell : ℝ) + 1) / (4 * Real.pi)) + E ell) ≤ 1 / 10 ^ 12 * 3 := by
      rcases le_or_gt 0 (Real.sqrt ((2 * (ell : ℝ) + 1) / (4 * Real.pi)) + E ell) with hs | hs
      · exact mul_le_mul hδ (by norm_num at a1; linarith) hs (by norm_num)
      · exact (mul_nonpos_of_nonneg_of_nonpos hδ0 hs.le).trans (by norm_num)
    have e : (2 : ℝ) / 10 ^ 10 + 1 / 10 ^ 12 * 3 ≤ 3 / 10 ^ 10 := by norm_num
    show E ell + δ (((f.ell_max + 1) ^ 2).toNat) * (Real.sqrt ((2 * (ell : ℝ) + 1) / (4 * Real.pi)) + E ell) ≤ 3 / 10 ^ 10
    linarith
  · refine (hmul _ 3 fun ell hell => ?_).trans ?_
    · have a1 := hE2 ell hell
      have a2 := hc ell hell
      show Real.sqrt ((2 * (ell : ℝ) + 1) / (4 * Real.pi)) + E ell ≤ 3
      norm_num at a1
      linarith
    · have := hF.Ω_ge
      generalize (∑ ell ∈ Icc 0 f.ell_max, ∑ m ∈ Icc (-ell) ell, ‖f.coef ell m idx‖) = S at hS ⊢
      have e : (10 : ℝ) ^ 300 = 100 * 10 ^ 298 := by norm_num
      rw [e] at this
      linarith

end

/-! ## IEEE double precision satisfies the hypotheses -/

/-- Correctly rounded double-precision operations, binary powering and sequential inner products, with any treatment of overflow. -/
theorem F64Y_double (ovf : ℝ → ℝ) : DoubleLike (F64Y ovf) (2 ^ (-53 : ℤ)) (2 ^ (-51 : ℤ)) (64 * 64 ^ 6 * 2 ^ (-1075 : ℤ)) (2 ^ (-1022 : ℤ)) maxDouble 64
    (fun N => 2 * gam (2 ^ (-53 : ℤ)) (N + 2)) (fun N => 16 * N * 2 ^ (-1075 : ℤ)) where
  ieee := F64Y_ieee ovf
  u_le := by norm_num
  w_le := by norm_num
  η_le := by norm_num
  ν_le := by norm_num
  Ω_ge := maxDouble_ge
  P_ge := le_rfl
  δ_le N hN := by
    have h : gam ((2 : ℝ) ^ (-53 : ℤ)) (N + 2) ≤ gam ((2 : ℝ) ^ (-53 : ℤ)) 83 := gam_mono (by norm_num) (by norm_num) (by omega)
    have h2 : gam ((2 : ℝ) ^ (-53 : ℤ)) 83 ≤ 1 / 10 ^ 13 := by
      unfold gam
      have := one_add_mul_le_pow (a := -(2 : ℝ) ^ (-53 : ℤ)) (by norm_num) 83
      rw [← sub_eq_add_neg] at this
      have h3 : (1 : ℝ) - 2 / 10 ^ 14 ≤ (1 - 2 ^ (-53 : ℤ)) ^ 83 := le_trans (by norm_num) this
      have h4 := inv_anti₀ (by norm_num) h3
      have h5 : ((1 : ℝ) - 2 / 10 ^ 14)⁻¹ ≤ 1 + 1 / 10 ^ 13 := by norm_num
      linarith
    show 2 * gam ((2 : ℝ) ^ (-53 : ℤ)) (N + 2) ≤ 1 / 10 ^ 12
    have e : (2 : ℝ) * (1 / 10 ^ 13) ≤ 1 / 10 ^ 12 := by norm_num
    exact (mul_le_mul_of_nonneg_left (h.trans h2) (by norm_num)).trans e
  ζ_le N hN := by
    have h : (N : ℝ) ≤ 81 := by exact_mod_cast hN
    have e : (16 : ℝ) * 81 * 2 ^ (-1075 : ℤ) ≤ 1 / 10 ^ 290 := by norm_num
    have p : (0 : ℝ) < 2 ^ (-1075 : ℤ) := zpow_pos (by norm_num) _
    generalize (2 : ℝ) ^ (-1075 : ℤ) = x at e p
    show 16 * (N : ℝ) * x ≤ _
    nlinarith

/-- Concretely: the shipped table, IEEE doubles, the rotor `(3 + 4 j)/5`: a half-integer and an integer element. -/
example (ovf : ℝ → ℝ) : ∃ f : ℤ × ℤ × ℤ → ℂ,
    Wigner_D_element_kernelF (F64 ovf) (1 / 10 ^ 15) shippedWigner ((1 : ℝ) * (3 / 5)) ((1 : ℝ) * (4 / 5)) [(4, 0, 2), (3, -1, 3), (2, 4, 0)] [7, 7, 7]
      = .ok [f (4, 0, 2), f (3, -1, 3), f (2, 4, 0)] ∧ f (2, 4, 0) = 0 ∧
      ‖f (3, -1, 3) - Spec.wignerD (3 / 5) (4 / 5) 3 (-1) 3‖ ≤ 1 / 10 ^ 10 := by
  have hi : ∀ t ∈ [((4 : ℤ), (0 : ℤ), (2 : ℤ)), (3, -1, 3), (2, 4, 0)], Lookable 32 t := by
    simp [Lookable, Spec.ValidD]
  have u1 : Spec.IsUnit' (3 / 5) (4 / 5) := by
    unfold Spec.IsUnit'
    rw [map_div₀, map_div₀]
    norm_num [Complex.normSq_apply]
  obtain ⟨f, f1, f2⟩ := C98_Wigner_D_element (F64Y_double ovf) 1 (by norm_num) (3 / 5) (4 / 5) u1 [(4, 0, 2), (3, -1, 3), (2, 4, 0)] [7, 7, 7] rfl hi
  exact ⟨f, f1, (f2 (2, 4, 0) (by simp)).1 (by norm_num), (f2 (3, -1, 3) (by simp)).2 (by norm_num) (by norm_num) (by norm_num)⟩

/-- All matrices up to `ell = 8`, and the harmonics of spin weight -2, at the same rotor. -/
example (ovf : ℝ → ℝ) : (∃ (f : ℤ → ℤ → ℤ → ℂ) (out : List ℂ), Wigner_D_matrices_kernelF (F64Y ovf) (1 / 10 ^ 15) shippedWigner ((1 : ℝ) * (3 / 5))
      ((1 : ℝ) * (4 / 5)) 2 8 (List.replicate (LMpMlist 2 8).length 7) = .ok out ∧ out[(LMpM_index 8 (-3) 5 2).toNat]? = some (f 8 (-3) 5) ∧
      ‖f 8 (-3) 5 - Spec.wignerD (3 / 5) (4 / 5) (2 * 8) (2 * -3) (2 * 5)‖ ≤ 2 / 10 ^ 10) ∧
    (∃ f : ℤ × ℤ → ℂ, SWSH_kernelF (F64Y ovf) (1 / 10 ^ 15) shippedWigner ((1 : ℝ) * (3 / 5)) ((1 : ℝ) * (4 / 5)) (-2) [(2, 1), (8, -3), (1, 0)] [7, 7, 7]
      = .ok [f (2, 1), f (8, -3), f (1, 0)] ∧ f (1, 0) = 0 ∧ ‖f (8, -3) - Spec.sYlm (3 / 5) (4 / 5) (-2) 8 (-3)‖ ≤ 2 / 10 ^ 10) := by
  have u1 : Spec.IsUnit' (3 / 5) (4 / 5) := by
    unfold Spec.IsUnit'
    rw [map_div₀, map_div₀]
    norm_num [Complex.normSq_apply]
  constructor
  · obtain ⟨f, out, e, -, h⟩ := C98_Wigner_D_matrices (F64Y_double ovf) 1 (by norm_num) (3 / 5) (4 / 5) u1 (a := 2) (b := 8)
      (by norm_num) (by norm_num) (List.replicate (LMpMlist 2 8).length 7) (by simp)
    obtain ⟨a, c⟩ := h 8 (-3) 5 (by norm_num) (by norm_num) (by norm_num) (by norm_num)
    exact ⟨f, out, e, a, c⟩
  · obtain ⟨f, f1, f2⟩ := C98_SWSH (F64Y_double ovf) 1 (by norm_num) (3 / 5) (4 / 5) u1 (-2) [(2, 1), (8, -3), (1, 0)] [7, 7, 7] rfl (by simp)
    exact ⟨f, f1, (f2 (1, 0) (by simp)).1 (by norm_num), (f2 (8, -3) (by simp)).2 (by norm_num) (by norm_num)⟩

/-- A grid with two rotors, and `evaluate` of `exModes` at the identity. -/
example (ovf : ℝ → ℝ) : (∃ g : ℍ[ℝ] → ℤ × ℤ → ℂ, SWSH_gridF (F64Y ovf) (1 / 10 ^ 15) shippedWigner (fun _ => (7, 7)) ([(1 : ℍ[ℝ]), -1].map comps) (-2) 8
      = .ok [(LMlist 0 8).map (g 1), (LMlist 0 8).map (g (-1))]) ∧
    (∃ v : ℍ[ℝ] → MIdx → ℂ, exModes.evaluateF (F64Y ovf) (1 / 10 ^ 15) shippedWigner (fun _ => (7, 7)) ([(1 : ℍ[ℝ])].map comps) = .ok [v 1]) := by
  constructor
  · obtain ⟨g, e, -⟩ := C98_grid (F64Y_double ovf) (fun _ => (7, 7)) [1, -1] (by simp) (by simp) (-2) 8 (by norm_num) (by norm_num)
    exact ⟨g, e⟩
  · obtain ⟨v, e, -⟩ := C98_evaluate (F64Y_double ovf) (fun _ => (7, 7)) exModes exModes_WF (by decide) (by decide) [1] (by simp) (by simp)
    exact ⟨v, e⟩

end SF
