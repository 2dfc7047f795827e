import Verif.Model.WignerDMatFloat
import Verif.Lemmas.RoundingZ
import Verif.Lemmas.DMatrices

/-! # Rounding errors of `_Wigner_D_elements` and `_Wigner_D_matrices`: one element and its mirror images -/

set_option autoImplicit false

namespace SF

open Finset ComplexConjugate

/-- `x` or `-x`. -/
def sg (b : Bool) (x : ℝ) : ℝ := if b then -x else x

/-- The complex number with the components `±re`, `±im`. -/
def csg (b1 b2 : Bool) (z : ℂ) : ℂ := ⟨sg b1 z.re, sg b2 z.im⟩

theorem csg_norm_sub (b1 b2 : Bool) (v w : ℂ) : ‖csg b1 b2 v - w‖ = ‖v - csg b1 b2 w‖ := by
  rw [Complex.norm_def, Complex.norm_def]
  congr 1
  rw [Complex.normSq_apply, Complex.normSq_apply]
  cases b1 <;> cases b2 <;> simp [csg, sg] <;> ring

theorem csg_csg (b1 b2 : Bool) (z : ℂ) : csg b1 b2 (csg b1 b2 z) = z := by
  cases b1 <;> cases b2 <;> apply Complex.ext <;> simp [csg, sg]

theorem csg_ff (z : ℂ) : csg false false z = z := by apply Complex.ext <;> simp [csg, sg]
theorem csg_tt (z : ℂ) : csg true true z = -z := by apply Complex.ext <;> simp [csg, sg]
theorem csg_ft (z : ℂ) : csg false true z = conj z := by apply Complex.ext <;> simp [csg, sg]
theorem csg_tf (z : ℂ) : csg true false z = -conj z := by apply Complex.ext <;> simp [csg, sg]

/-- Prefactor and sum with rounding, with signs applied to the components of the prefactor. -/
theorem float_core4 {u w : ℝ} {F : FloatOps} (hF : F.Std u w) {mag d φ' φ e S : ℝ} {k K : ℕ} {I : Finset ℕ} {P θ : ℕ → ℝ}
    (hmag : Near u k mag d) (hφ : |φ' - φ| ≤ e) (hS : S = ∑ ρ ∈ I, P ρ * θ ρ) (hθ : ∀ ρ, Fac u K (θ ρ)) (b1 b2 : Bool) :
    ‖smulF F (csg b1 b2 (rectF F mag φ')) S - csg b1 b2 (rect d φ * ((∑ ρ ∈ I, P ρ : ℝ) : ℂ))‖
      ≤ (gam u (k + 3 + K) + e) * (|d| * ∑ ρ ∈ I, |P ρ|) := by
  have hu0 := hF.u_nonneg
  have hu1 := hF.u_lt_one
  have comp : ∀ (b : Bool) (c' c : ℝ), RelErr u c' c → ∃ η : ℕ → ℝ, (∀ ρ, |η ρ - 1| ≤ gam u (k + 3 + K)) ∧
      sg b (F.mul (sg b (F.mul mag c')) S) = d * c * ∑ ρ ∈ I, P ρ * η ρ := by
    intro b c' c hc
    obtain ⟨α, a1, a2⟩ := hmag
    obtain ⟨β, b1, b2⟩ := hc.fac hu0 hu1
    obtain ⟨γ, c1, c2⟩ := (hF.mul mag c').fac hu0 hu1
    obtain ⟨δ, d1, d2⟩ := (hF.mul (sg b (F.mul mag c')) S).fac hu0 hu1
    refine ⟨fun ρ => α * β * γ * δ * θ ρ, fun ρ => ?_, ?_⟩
    · apply Fac.abs_sub hu0 hu1
      have := Fac.mul hu0 hu1 (Fac.mul hu0 hu1 (Fac.mul hu0 hu1 (Fac.mul hu0 hu1 a2 b2) c2) d2) (hθ ρ)
      exact this
    · rw [d1, c1, a1, b1, hS]
      have : ∑ ρ ∈ I, P ρ * (α * β * γ * δ * θ ρ) = α * β * γ * δ * ∑ ρ ∈ I, P ρ * θ ρ := by
        rw [Finset.mul_sum]; exact Finset.sum_congr rfl fun ρ _ => by ring
      rw [this]
      cases b <;> simp [sg] <;> ring
  obtain ⟨η, e1, e2⟩ := comp b1 (F.cos φ') (Real.cos φ') (hF.cos φ')
  obtain ⟨ζ, z1, z2⟩ := comp b2 (F.sin φ') (Real.sin φ') (hF.sin φ')
  rw [← csg_norm_sub]
  have := float_core_gen (d := d) (V := csg b1 b2 (smulF F (csg b1 b2 (rectF F mag φ')) S)) (σ := 1) (by simp)
    (gam_nonneg hu0 hu1 (k + 3 + K)) e1 z1
    (by rw [one_mul, ← e2]; rfl) (by rw [one_mul, ← z2]; rfl) hφ
  rw [Complex.ofReal_one, one_mul] at this
  exact this

section
variable {u w : ℝ} {δ : ℕ → ℝ} {F : FloatOpsY} (hF : F.Std u w δ)
include hF

/-- The phase of `Prefactor2`. -/
theorem phase_err2 (za zb : ℂ) (i j n : ℤ) (hij : |i| + |j| ≤ n) {V B : ℝ}
    (hB : Near u 2 B (-Complex.arg za * (i : ℝ)))
    (hV : Near u 1 V (F.mul (F.add (F.arg zb) F.pi) (j : ℝ) + B)) :
    |V - (-Complex.arg za * (i : ℝ) + (Complex.arg zb + Real.pi) * (j : ℝ))| ≤ gam u 4 * (2 * Real.pi * n) := by
  have hu0 := hF.u_nonneg
  have hu1 := hF.u_lt_one
  obtain ⟨α, a1, a2⟩ := (hF.arg zb).fac hu0 hu1
  obtain ⟨β, b1, b2⟩ := hF.pi.fac hu0 hu1
  obtain ⟨γ, c1, c2⟩ := (hF.add (F.arg zb) F.pi).fac hu0 hu1
  obtain ⟨ε, e1, e2⟩ := (hF.mul (F.add (F.arg zb) F.pi) (j : ℝ)).fac hu0 hu1
  obtain ⟨ζ, z1, z2⟩ := hB
  obtain ⟨η, h1, h2⟩ := hV
  rw [h1, e1, c1, a1, b1, z1]
  set x := Complex.arg zb * (j : ℝ) with hx
  set y := Real.pi * (j : ℝ) with hy
  set z := -Complex.arg za * (i : ℝ) with hz
  have r : ((Complex.arg zb * α + Real.pi * β) * γ * (j : ℝ) * ε + z * ζ) * η - (z + (Complex.arg zb + Real.pi) * (j : ℝ))
      = x * (α * γ * ε * η - 1) + y * (β * γ * ε * η - 1) + z * (ζ * η - 1) := by rw [hx, hy]; ring
  rw [r]
  have g1 : |α * γ * ε * η - 1| ≤ gam u 4 :=
    Fac.abs_sub hu0 hu1 (Fac.mul hu0 hu1 (Fac.mul hu0 hu1 (Fac.mul hu0 hu1 a2 c2) e2) h2)
  have g2 : |β * γ * ε * η - 1| ≤ gam u 4 :=
    Fac.abs_sub hu0 hu1 (Fac.mul hu0 hu1 (Fac.mul hu0 hu1 (Fac.mul hu0 hu1 b2 c2) e2) h2)
  have g3 : |ζ * η - 1| ≤ gam u 4 := Fac.abs_sub hu0 hu1 (Fac.mono hu0 hu1 (by omega) (Fac.mul hu0 hu1 z2 h2))
  have g0 := gam_nonneg hu0 hu1 4
  have pi0 := Real.pi_pos
  have bj := abs_nonneg (j : ℝ)
  have bi := abs_nonneg (i : ℝ)
  have bx : |x| ≤ Real.pi * |(j : ℝ)| := by
    rw [hx, abs_mul]; exact mul_le_mul_of_nonneg_right (Complex.abs_arg_le_pi zb) bj
  have by' : |y| = Real.pi * |(j : ℝ)| := by rw [hy, abs_mul, abs_of_pos pi0]
  have bz : |z| ≤ Real.pi * |(i : ℝ)| := by
    rw [hz, abs_mul, abs_neg]; exact mul_le_mul_of_nonneg_right (Complex.abs_arg_le_pi za) bi
  have hn : |(i : ℝ)| + |(j : ℝ)| ≤ n := by exact_mod_cast hij
  calc |x * (α * γ * ε * η - 1) + y * (β * γ * ε * η - 1) + z * (ζ * η - 1)|
      ≤ |x| * |α * γ * ε * η - 1| + |y| * |β * γ * ε * η - 1| + |z| * |ζ * η - 1| := by
        rw [← abs_mul, ← abs_mul, ← abs_mul]
        exact (abs_add_le _ _).trans (add_le_add_left (abs_add_le _ _) _)
    _ ≤ |x| * gam u 4 + |y| * gam u 4 + |z| * gam u 4 := by gcongr
    _ = (|x| + |y| + |z|) * gam u 4 := by ring
    _ ≤ (2 * Real.pi * n) * gam u 4 := by
        apply mul_le_mul_of_nonneg_right _ g0
        have : Real.pi * (|(i : ℝ)| + |(j : ℝ)|) ≤ Real.pi * n := mul_le_mul_of_nonneg_left hn pi0.le
        have : 0 ≤ Real.pi * |(i : ℝ)| := by positivity
        nlinarith
    _ = _ := by ring

/-- The magnitude of the prefactor. -/
theorem mag_errM {za zb : ℂ} (ha : za ≠ 0) (hb : zb ≠ 0) {c' C τ : ℝ} (hc : RelErr u c' (τ * C)) {e1 e2 : ℤ} {n : ℕ}
    (h1 : 0 ≤ e1) (h2 : 0 ≤ e2) (hn : e1 + e2 = n) :
    Near u (2 * n + 3) (F.mul (F.mul c' (F.ipow (F.abs za) e1)) (F.ipow (F.abs zb) e2)) (τ * (C * ‖za‖ ^ e1 * ‖zb‖ ^ e2)) := by
  have hu0 := hF.u_nonneg
  have hu1 := hF.u_lt_one
  obtain ⟨n1, rfl⟩ : ∃ k : ℕ, e1 = k := ⟨e1.toNat, by omega⟩
  obtain ⟨n2, rfl⟩ : ∃ k : ℕ, e2 = k := ⟨e2.toNat, by omega⟩
  have := mag_errY hF ha hb hc (rfl : (n1 : ℤ) = _) (rfl : (n2 : ℤ) = _)
  obtain rfl : n1 + n2 = n := by exact_mod_cast hn
  have e : τ * (C * ‖za‖ ^ (n1 : ℤ) * ‖zb‖ ^ (n2 : ℤ)) = τ * C * ‖za‖ ^ n1 * ‖zb‖ ^ n2 := by
    rw [zpow_natCast, zpow_natCast]; ring
  rw [e]
  exact this

end

/-- The error bound for matrices and arrays of rotors: `2 ell = n`. -/
noncomputable def floatErrM (u : ℝ) (n : ℕ) : ℝ := gam u (2 * n + 6 + 11 * (n / 2)) + gam u 4 * (2 * Real.pi * n)

theorem floatErrM_nonneg {u : ℝ} (hu0 : 0 ≤ u) (hu1 : u < 1) (n : ℕ) : 0 ≤ floatErrM u n := by
  unfold floatErrM
  have := gam_nonneg hu0 hu1 (2 * n + 6 + 11 * (n / 2))
  have g0 := gam_nonneg hu0 hu1 4
  have pi0 := Real.pi_pos
  positivity

/-- What is proved of the value `v` computed for the element `(ell, mp, m)`. -/
def GenericM (u : ℝ) (Ra Rb : ℂ) (ell mp m : ℤ) (v : ℂ) : Prop :=
  ‖v - Spec.wignerD Ra Rb (2 * ell) (2 * mp) (2 * m)‖ ≤ floatErrM u (2 * ell).toNat * (‖Ra‖ + ‖Rb‖) ^ (2 * ell).toNat ∧
  (|mp| = ell ∨ |m| = ell → ‖v - Spec.wignerD Ra Rb (2 * ell) (2 * mp) (2 * m)‖
    ≤ floatErrM u (2 * ell).toNat * ‖Spec.wignerD Ra Rb (2 * ell) (2 * mp) (2 * m)‖)

/-- What the two generic branches have computed when they build the prefactors: the signed magnitude `mag` and the sum `S`. -/
def Regime (u : ℝ) (Ra Rb : ℂ) (ell mp m : ℤ) (mag S : ℝ) : Prop :=
  ∃ (d : ℝ) (I : Finset ℕ) (P θ : ℕ → ℝ), Near u (2 * (2 * ell).toNat + 3) mag d ∧ S = ∑ ρ ∈ I, P ρ * θ ρ ∧
    (∀ ρ, Fac u (11 * ((2 * ell).toNat / 2)) (θ ρ)) ∧
    |d| * ∑ ρ ∈ I, |P ρ| ≤ (‖Ra‖ + ‖Rb‖) ^ (2 * ell).toNat ∧
    (|mp| = ell ∨ |m| = ell → I.card = 1) ∧
    rect d (Complex.arg Ra * ((m + mp : ℤ) : ℝ) + Complex.arg Rb * ((m - mp : ℤ) : ℝ)) * ((∑ ρ ∈ I, P ρ : ℝ) : ℂ)
      = Spec.wignerD Ra Rb (2 * ell) (2 * mp) (2 * m) ∧
    rect d (-Complex.arg Ra * ((m + mp : ℤ) : ℝ) + (Complex.arg Rb + Real.pi) * ((m - mp : ℤ) : ℝ)) * ((∑ ρ ∈ I, P ρ : ℝ) : ℂ)
      = Spec.wignerD (conj Ra) (-Rb) (2 * ell) (2 * mp) (2 * m)

section
variable {u w : ℝ} {δ : ℕ → ℝ} {F : FloatOpsY} (hF : F.Std u w δ)
include hF

/-- Regime `ra >= rb`. -/
theorem regimeA {Ra Rb : ℂ} (ha : Ra ≠ 0) {ell mp m : ℤ} (h1 : |mp| ≤ ell) (h2 : |m| ≤ ell) {p' q' p q : ℕ}
    (hsum : p' + q' = p + q) (g1 : ell + mp = p') (g2 : ell - mp = q') (g3 : ell + m = p) (g4 : ell - m = q) :
    ∃ S, hornerLoopF F.toFloatOps (F.div (F.mul (-F.abs Rb) (F.abs Rb)) (F.mul (F.abs Ra) (F.abs Ra))) (ell + mp + 1) (ell - m + 1)
        (m - mp) (min (ell + mp) (ell - m)) (max 0 (mp - m)) = .ok S ∧
      ∀ mag, Near u (2 * (2 * ell).toNat + 3) mag ((if max 0 (mp - m) % 2 ≠ 0 then -1 else 1) *
          (Wcoef p' q' p q * ‖Ra‖ ^ (2 * ell - m + mp - 2 * max 0 (mp - m)) * ‖Rb‖ ^ (m - mp + 2 * max 0 (mp - m)))) →
        Regime u Ra Rb ell mp m mag S := by
  have hu0 := hF.u_nonneg
  have hu1 := hF.u_lt_one
  have h0 : 0 ≤ ell := by have := abs_nonneg m; omega
  obtain ⟨tab, ht⟩ := IsWignerTable.exists ell h0
  obtain ⟨c, S, e1, e2, e3⟩ := intA ht (Rb := Rb) ha h1 h2 le_rfl
  rw [coeff_int ht g1 g2 g3 g4 le_rfl] at e1
  obtain rfl := Except.ok.inj e1
  obtain ⟨v1, v2⟩ := e3 _ rfl
  have a1 : ell + mp + 1 = (p' : ℤ) + 1 := by omega
  have a2 : ell - m + 1 = (q : ℤ) + 1 := by omega
  have a3 : m - mp = (q' : ℤ) - q := by omega
  have a4 : min (ell + mp) (ell - m) = ((min p' q : ℕ) : ℤ) := by omega
  have a5 : max 0 (mp - m) = ((p' - p : ℕ) : ℤ) := by omega
  have a6 : 2 * ell - m + mp - 2 * max 0 (mp - m) = ((p' + q - 2 * (p' - p) : ℕ) : ℤ) := by omega
  have a7 : m - mp + 2 * max 0 (mp - m) = ((q' - q + 2 * (p' - p) - (q - q') : ℕ) : ℤ) := by omega
  have hab : p' - p ≤ min p' q := by omega
  have hne : ∀ ρ : ℕ, p' - p < ρ → ρ ≤ min p' q → (ρ : ℤ) * (((q' : ℤ) - q) + ρ) ≠ 0 := by
    intro ρ k1 k2
    apply mul_ne_zero <;> omega
  obtain ⟨S', θ, s1, s2, s3⟩ := horner_loopY hF (zb := Rb) ha (N1 := (p' : ℤ) + 1) (N2 := (q : ℤ) + 1) (M := (q' : ℤ) - q) hab hne
  have e2' : hornerLoop (-‖Rb‖ * ‖Rb‖ / (‖Ra‖ * ‖Ra‖)) ((p' : ℤ) + 1) ((q : ℤ) + 1) ((q' : ℤ) - q) ((min p' q : ℕ) : ℤ)
      ((p' - p : ℕ) : ℤ) = .ok S := by rw [← a1, ← a2, ← a3, ← a4, ← a5]; exact e2
  rw [hornerLoop_sum _ _ _ _ _ _ hab hne] at e2'
  obtain rfl := Except.ok.inj e2'
  refine ⟨S', by rw [a1, a2, a3, a4, a5]; exact s1, fun mag hmag => ?_⟩
  refine ⟨_, _, _, θ, hmag, s2, fun ρ => (s3 ρ).mono hu0 hu1 (by omega), ?_, ?_, v1, v2⟩
  · have hb := prefactor_sum_le (zb := Rb) ha hsum
    have hn2 : (2 * ell).toNat = p' + q' := by omega
    rw [hn2]
    refine le_trans (le_of_eq ?_) hb
    rw [abs_mul, a6, a7, zpow_natCast, zpow_natCast]
    have d0n : 0 ≤ Wcoef p' q' p q * ‖Ra‖ ^ (p' + q - 2 * (p' - p)) * ‖Rb‖ ^ (q' - q + 2 * (p' - p) - (q - q')) := by
      unfold Wcoef; positivity
    rw [abs_of_nonneg d0n]
    congr 1
    split_ifs <;> simp
  · intro h
    rw [Nat.card_Ico]
    rcases h with h | h <;> rcases (abs_eq h0).mp h with h | h <;> omega

/-- Regime `ra < rb`. -/
theorem regimeB {Ra Rb : ℂ} (hb : Rb ≠ 0) {ell mp m : ℤ} (h1 : |mp| ≤ ell) (h2 : |m| ≤ ell) {p' q' p q : ℕ}
    (hsum : p' + q' = p + q) (g1 : ell + mp = p') (g2 : ell - mp = q') (g3 : ell + m = p) (g4 : ell - m = q) :
    ∃ S, hornerLoopF F.toFloatOps (F.div (F.mul (-F.abs Ra) (F.abs Ra)) (F.mul (F.abs Rb) (F.abs Rb))) (ell - mp + 1) (ell - m + 1)
        (m + mp) (min (ell - mp) (ell - m)) (max 0 (-mp - m)) = .ok S ∧
      ∀ mag, Near u (2 * (2 * ell).toNat + 3) mag ((if (ell + m + max 0 (-mp - m)) % 2 ≠ 0 then -1 else 1) *
          (Wcoef q' p' p q * ‖Rb‖ ^ (2 * ell - m - mp - 2 * max 0 (-mp - m)) * ‖Ra‖ ^ (m + mp + 2 * max 0 (-mp - m)))) →
        Regime u Ra Rb ell mp m mag S := by
  have hu0 := hF.u_nonneg
  have hu1 := hF.u_lt_one
  have h0 : 0 ≤ ell := by have := abs_nonneg m; omega
  obtain ⟨tab, ht⟩ := IsWignerTable.exists ell h0
  obtain ⟨c, S, e1, e2, e3⟩ := intB ht (Ra := Ra) hb h1 h2 le_rfl
  have hcb := coeff_int ht (p' := q') (q' := p') (ell := ell) (mp := -mp) (m := m) (by omega) (by omega) g3 g4 le_rfl
  push_cast at hcb
  rw [hcb] at e1
  obtain rfl := Except.ok.inj e1
  obtain ⟨v1, v2⟩ := e3 _ rfl
  have hsum' : q' + p' = p + q := by omega
  have a1 : ell - mp + 1 = (q' : ℤ) + 1 := by omega
  have a2 : ell - m + 1 = (q : ℤ) + 1 := by omega
  have a3 : m + mp = (p' : ℤ) - q := by omega
  have a4 : min (ell - mp) (ell - m) = ((min q' q : ℕ) : ℤ) := by omega
  have a5 : max 0 (-mp - m) = ((q' - p : ℕ) : ℤ) := by omega
  have a6 : 2 * ell - m - mp - 2 * max 0 (-mp - m) = ((q' + q - 2 * (q' - p) : ℕ) : ℤ) := by omega
  have a7 : m + mp + 2 * max 0 (-mp - m) = ((p' - q + 2 * (q' - p) - (q - p') : ℕ) : ℤ) := by omega
  have hab : q' - p ≤ min q' q := by omega
  have hne : ∀ ρ : ℕ, q' - p < ρ → ρ ≤ min q' q → (ρ : ℤ) * (((p' : ℤ) - q) + ρ) ≠ 0 := by
    intro ρ k1 k2
    apply mul_ne_zero <;> omega
  obtain ⟨S', θ, s1, s2, s3⟩ := horner_loopY hF (zb := Ra) hb (N1 := (q' : ℤ) + 1) (N2 := (q : ℤ) + 1) (M := (p' : ℤ) - q) hab hne
  have e2' : hornerLoop (-‖Ra‖ * ‖Ra‖ / (‖Rb‖ * ‖Rb‖)) ((q' : ℤ) + 1) ((q : ℤ) + 1) ((p' : ℤ) - q) ((min q' q : ℕ) : ℤ)
      ((q' - p : ℕ) : ℤ) = .ok S := by rw [← a1, ← a2, ← a3, ← a4, ← a5]; exact e2
  rw [hornerLoop_sum _ _ _ _ _ _ hab hne] at e2'
  obtain rfl := Except.ok.inj e2'
  refine ⟨S', by rw [a1, a2, a3, a4, a5]; exact s1, fun mag hmag => ?_⟩
  rw [add_comm (Complex.arg Rb * _)] at v1
  rw [add_comm ((Complex.arg Rb + Real.pi) * _)] at v2
  refine ⟨_, _, _, θ, hmag, s2, fun ρ => (s3 ρ).mono hu0 hu1 (by omega), ?_, ?_, v1, v2⟩
  · have hb := prefactor_sum_le (zb := Ra) hb hsum'
    have hn2 : (2 * ell).toNat = q' + p' := by omega
    rw [hn2, add_comm ‖Ra‖]
    refine le_trans (le_of_eq ?_) hb
    rw [abs_mul, a6, a7, zpow_natCast, zpow_natCast]
    have d0n : 0 ≤ Wcoef q' p' p q * ‖Rb‖ ^ (q' + q - 2 * (q' - p)) * ‖Ra‖ ^ (p' - q + 2 * (q' - p) - (q - p')) := by
      unfold Wcoef; positivity
    rw [abs_of_nonneg d0n]
    congr 1
    split_ifs <;> simp
  · intro h
    rw [Nat.card_Ico]
    rcases h with h | h <;> rcases (abs_eq h0).mp h with h | h <;> omega

/-- Accuracy of a stored value obtained from either prefactor. -/
theorem core_value {Ra Rb : ℂ} {ell : ℤ} {mag S d φ' φ : ℝ} {I : Finset ℕ} {P θ : ℕ → ℝ} {one : Prop}
    (hmag : Near u (2 * (2 * ell).toNat + 3) mag d) (hS : S = ∑ ρ ∈ I, P ρ * θ ρ)
    (hθ : ∀ ρ, Fac u (11 * ((2 * ell).toNat / 2)) (θ ρ))
    (hbd : |d| * ∑ ρ ∈ I, |P ρ| ≤ (‖Ra‖ + ‖Rb‖) ^ (2 * ell).toNat) (hone : one → I.card = 1)
    (hφ : |φ' - φ| ≤ gam u 4 * (2 * Real.pi * (2 * ell).toNat)) (b1 b2 : Bool) {D : ℂ}
    (hD : csg b1 b2 (rect d φ * ((∑ ρ ∈ I, P ρ : ℝ) : ℂ)) = D) :
    ‖smulF F.toFloatOps (csg b1 b2 (rectF F.toFloatOps mag φ')) S - D‖
        ≤ floatErrM u (2 * ell).toNat * (‖Ra‖ + ‖Rb‖) ^ (2 * ell).toNat ∧
    (one → ‖smulF F.toFloatOps (csg b1 b2 (rectF F.toFloatOps mag φ')) S - D‖ ≤ floatErrM u (2 * ell).toNat * ‖D‖) := by
  have core := float_core4 hF.toStd hmag hφ hS hθ b1 b2
  rw [hD] at core
  have hE : gam u (2 * (2 * ell).toNat + 3 + 3 + 11 * ((2 * ell).toNat / 2)) + gam u 4 * (2 * Real.pi * (2 * ell).toNat)
      = floatErrM u (2 * ell).toNat := rfl
  rw [hE] at core
  have hE0 := floatErrM_nonneg hF.u_nonneg hF.u_lt_one (2 * ell).toNat
  refine ⟨core.trans (mul_le_mul_of_nonneg_left hbd hE0), fun h => core.trans (le_of_eq ?_)⟩
  obtain ⟨ρ, hρ⟩ := Finset.card_eq_one.mp (hone h)
  have : ‖D‖ = ‖rect d φ * ((∑ ρ ∈ I, P ρ : ℝ) : ℂ)‖ := by
    rw [← hD]
    have := csg_norm_sub b1 b2 (rect d φ * ((∑ ρ ∈ I, P ρ : ℝ) : ℂ)) 0
    have z : csg b1 b2 0 = 0 := by cases b1 <;> cases b2 <;> apply Complex.ext <;> simp [csg, sg]
    rwa [z, sub_zero, sub_zero] at this
  rw [this, norm_mul, norm_rect, hρ, Finset.sum_singleton, Finset.sum_singleton, Complex.norm_real, Real.norm_eq_abs]

/-- An element and its mirror images. -/
theorem Regime.values {Ra Rb : ℂ} {ell mp m : ℤ} (h1 : |mp| ≤ ell) (h2 : |m| ≤ ell) {mag S : ℝ}
    (h : Regime u Ra Rb ell mp m mag S) {φ1 φ2 : ℝ}
    (e1 : |φ1 - (Complex.arg Ra * ((m + mp : ℤ) : ℝ) + Complex.arg Rb * ((m - mp : ℤ) : ℝ))|
      ≤ gam u 4 * (2 * Real.pi * (2 * ell).toNat))
    (e2 : |φ2 - (-Complex.arg Ra * ((m + mp : ℤ) : ℝ) + (Complex.arg Rb + Real.pi) * ((m - mp : ℤ) : ℝ))|
      ≤ gam u 4 * (2 * Real.pi * (2 * ell).toNat)) :
    GenericM u Ra Rb ell mp m (smulF F.toFloatOps (rectF F.toFloatOps mag φ1) S) ∧
    GenericM u Ra Rb ell (-mp) (-m) (smulF F.toFloatOps (if (m + mp) % 2 = 0 then conj (rectF F.toFloatOps mag φ1)
      else -conj (rectF F.toFloatOps mag φ1)) S) ∧
    GenericM u Ra Rb ell m mp (smulF F.toFloatOps (conj (rectF F.toFloatOps mag φ2)) S) ∧
    GenericM u Ra Rb ell (-m) (-mp) (smulF F.toFloatOps (if (m + mp) % 2 = 0 then rectF F.toFloatOps mag φ2
      else -rectF F.toFloatOps mag φ2) S) := by
  obtain ⟨d, I, P, θ, hmag, hS, hθ, hbd, hone, v1, v2⟩ := h
  have c1 := wD_conj Ra Rb h1 h2
  have c2 := wD_conj Ra Rb h2 h1
  have c3 := wD_inv Ra Rb h1 h2
  rw [add_comm mp m] at c2
  refine ⟨?_, ?_, ?_, ?_⟩
  · have := core_value hF (Ra := Ra) (Rb := Rb) (ell := ell) hmag hS hθ hbd hone e1 false false (by rw [csg_ff, v1])
    rw [csg_ff] at this
    exact this
  · have hone' : |-mp| = ell ∨ |-m| = ell → I.card = 1 := by rw [abs_neg, abs_neg]; exact hone
    by_cases hp : (m + mp) % 2 = 0
    · rw [if_pos hp] at c1 ⊢
      rw [one_mul] at c1
      have := core_value hF (Ra := Ra) (Rb := Rb) (ell := ell) hmag hS hθ hbd hone' e1 false true (by rw [csg_ft, v1, c1])
      rw [csg_ft] at this
      exact this
    · rw [if_neg hp] at c1 ⊢
      have := core_value hF (Ra := Ra) (Rb := Rb) (ell := ell) hmag hS hθ hbd hone' e1 true false
        (by rw [csg_tf, v1, c1, neg_one_mul, neg_neg])
      rw [csg_tf] at this
      exact this
  · have := core_value hF (Ra := Ra) (Rb := Rb) (ell := ell) hmag hS hθ hbd (one := |m| = ell ∨ |mp| = ell) (fun h => hone h.symm) e2 false true
      (by rw [csg_ft, v2, c3, Complex.conj_conj])
    rw [csg_ft] at this
    exact this
  · have hone' : |-m| = ell ∨ |-mp| = ell → I.card = 1 := by rw [abs_neg, abs_neg]; exact fun h => hone h.symm
    by_cases hp : (m + mp) % 2 = 0
    · rw [if_pos hp] at c2 ⊢
      rw [one_mul] at c2
      have := core_value hF (Ra := Ra) (Rb := Rb) (ell := ell) hmag hS hθ hbd hone' e2 false false (by rw [csg_ff, v2, c3, c2])
      rw [csg_ff] at this
      exact this
    · rw [if_neg hp] at c2 ⊢
      have := core_value hF (Ra := Ra) (Rb := Rb) (ell := ell) hmag hS hθ hbd hone' e2 true true
        (by rw [csg_tt, v2, c3, c2, neg_one_mul, neg_neg])
      rw [csg_tt] at this
      exact this

end

end SF
