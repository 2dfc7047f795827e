import Verif.Lemmas.RoundingM
import Verif.Props.FloatIEEEY

/-! # D matrices and D elements of arrays of rotors with underflow and overflow: one element and its mirror images -/

set_option autoImplicit false

namespace SF

open Finset ComplexConjugate

section
variable {u w η ν Ω eps : ℝ} {n : ℕ} {F : FloatOps} (hF : F.IEEE u w η ν Ω) (hR : Range u η ν Ω eps n)
include hF hR

theorem gam_le_one {k : ℕ} (hk : k ≤ 7 * n + 30) : gam u k ≤ 1 := by
  have hu0 := hF.u_nonneg
  have hu1 := hF.u_lt_one
  have h : 1 / 2 ≤ (1 - u) ^ k := hR.half.trans (pow_le_pow_of_le_one (by linarith) (by linarith) hk)
  unfold gam
  have : ((1 - u) ^ k)⁻¹ ≤ 2 := by
    rw [inv_le_comm₀ (by linarith) (by norm_num)]; linarith
  linarith

omit hR in
/-- A product by an exact number. -/
theorem scale_errI {x X s E j : ℝ} {k : ℕ} (hx : |x - X| ≤ gam u k * s + E) (hX : |X| ≤ s)
    (hΩ : ((1 + gam u k) * s + E) * |j| ≤ Ω) :
    |F.mul x j - X * j| ≤ gam u (k + 1) * (s * |j|) + ((1 + gam u 1) * E * |j| + η) := by
  have h0 := hF.u_nonneg
  have h1 := hF.u_lt_one
  have j0 := abs_nonneg j
  have g := gam_nonneg h0 h1 1
  have b : |x| ≤ (1 + gam u k) * s + E := by
    calc |x| = |(x - X) + X| := by rw [sub_add_cancel]
      _ ≤ |x - X| + |X| := abs_add_le _ _
      _ ≤ _ := by linarith
  have b' : |x * j| ≤ ((1 + gam u k) * s + E) * |j| := by rw [abs_mul]; exact mul_le_mul_of_nonneg_right b j0
  have e := mul_errI1 hF x j (b'.trans hΩ)
  have c : |F.mul x j - X * j| ≤ |F.mul x j - x * j| + |x - X| * |j| := by
    rw [← abs_mul]
    calc |F.mul x j - X * j| = |(F.mul x j - x * j) + (x - X) * j| := by ring_nf
      _ ≤ _ := abs_add_le _ _
  have d := mul_le_mul_of_nonneg_left b' g
  have f := mul_le_mul_of_nonneg_right hx j0
  have i : (1 + gam u 1) * (1 + gam u k) * (s * |j|) = (1 + gam u (k + 1)) * (s * |j|) := by rw [inv_step hF k]
  nlinarith

/-- An argument. -/
theorem arg_errI (z : ℂ) : |F.arg z - Complex.arg z| ≤ gam u 1 * Real.pi + η := by
  have h0 := hF.u_nonneg
  have h1 := hF.u_lt_one
  have g := gam_nonneg h0 h1 1
  have hz := Complex.abs_arg_le_pi z
  have a0 := abs_nonneg (Complex.arg z)
  rcases hF.arg z with h | ⟨-, h⟩
  · have := Near.err h0 h1 (RelErr.fac h0 h1 h)
    have := hF.η_nonneg
    have := mul_le_mul_of_nonneg_left hz g
    linarith
  · have := mul_nonneg g Real.pi_pos.le
    linarith

/-- The phase of `Prefactor2`. -/
theorem phase_errI2 {pi' : ℝ} (hpi : RelErr u pi' Real.pi) (za zb : ℂ) (i j : ℤ) (hij : |i| + |j| ≤ n) {V B : ℝ}
    (hB : B = F.mul (-F.arg za) (i : ℝ) ∨ B = -F.mul (F.arg za) (i : ℝ))
    (hV : V = F.add B (F.mul (F.add (F.arg zb) pi') (j : ℝ)) ∨ V = F.add (F.mul (F.add (F.arg zb) pi') (j : ℝ)) B) :
    |V - (-Complex.arg za * (i : ℝ) + (Complex.arg zb + Real.pi) * (j : ℝ))| ≤ gam u 4 * (2 * Real.pi * n) + (16 * n + 9) * η := by
  have hu0 := hF.u_nonneg
  have hu1 := hF.u_lt_one
  have hη := hF.η_nonneg
  have hη1 := Range.η_le_one hF hR
  have pi0 := Real.pi_pos
  have pi4 := Real.pi_le_four
  have n0 : (0 : ℝ) ≤ n := Nat.cast_nonneg n
  have hij' : |(i : ℝ)| + |(j : ℝ)| ≤ n := by rw [← Int.cast_abs, ← Int.cast_abs]; exact_mod_cast hij
  have i0 := abs_nonneg (i : ℝ)
  have j0 := abs_nonneg (j : ℝ)
  have g1 := gam_nonneg hu0 hu1 1
  have g2 := gam_nonneg hu0 hu1 2
  have g3 := gam_nonneg hu0 hu1 3
  have g4 := gam_nonneg hu0 hu1 4
  have l1 : gam u 1 ≤ 1 := gam_le_one hF hR (by omega)
  have l2 : gam u 2 ≤ 1 := gam_le_one hF hR (by omega)
  have l3 : gam u 3 ≤ 1 := gam_le_one hF hR (by omega)
  have l23 : gam u 2 ≤ gam u 3 := gam_mono hu0 hu1 (by norm_num)
  have e1 := arg_errI hF hR za
  have e2 := arg_errI hF hR zb
  have z1 := Complex.abs_arg_le_pi za
  have z2 := Complex.abs_arg_le_pi zb
  have hp := Near.err hu0 hu1 (RelErr.fac hu0 hu1 hpi)
  rw [abs_of_pos pi0] at hp
  -- the sum of the argument and pi
  have s1 := add_errI1 hF (k := 1) (s := Real.pi) (t := Real.pi) (E := η) (G := 0) e2 z2 (by rw [add_zero]; exact hp)
    (by rw [abs_of_pos pi0]) (Range.Ω_ge hF hR (by nlinarith))
  have s1' : |F.add (F.arg zb) pi' - (Complex.arg zb + Real.pi)| ≤ gam u 2 * (Real.pi + Real.pi) + 3 * η := by nlinarith
  have m1 := scale_errI hF (j := (j : ℝ)) s1' ((abs_add_le _ _).trans (add_le_add z2 (abs_of_pos pi0).le)) (by
    apply Range.Ω_n hF hR
    have : (1 + gam u 2) * (Real.pi + Real.pi) + 3 * η ≤ 2 * 8 + 3 := by
      have : (1 + gam u 2) * (Real.pi + Real.pi) ≤ 2 * 8 := mul_le_mul (by linarith) (by linarith) (by linarith) (by norm_num)
      linarith
    calc ((1 + gam u 2) * (Real.pi + Real.pi) + 3 * η) * |(j : ℝ)| ≤ (2 * 8 + 3) * n := mul_le_mul this (by linarith) j0 (by norm_num)
      _ ≤ _ := by linarith)
  have m1' : |F.mul (F.add (F.arg zb) pi') (j : ℝ) - (Complex.arg zb + Real.pi) * (j : ℝ)| ≤ gam u 3 * (2 * Real.pi * |(j : ℝ)|) + (6 * |(j : ℝ)| + 1) * η := by
    refine m1.trans (add_le_add (le_of_eq (by ring)) ?_)
    have : (1 + gam u 1) * (3 * η) * |(j : ℝ)| ≤ (1 + 1) * (3 * η) * |(j : ℝ)| := by gcongr
    linarith
  -- the other product
  have mk : ∀ x X : ℝ, |x - X| ≤ gam u 1 * Real.pi + η → |X| ≤ Real.pi →
      |F.mul x (i : ℝ) - X * (i : ℝ)| ≤ gam u 3 * (2 * Real.pi * |(i : ℝ)|) + (2 * |(i : ℝ)| + 1) * η := by
    intro x X hx hX
    have := scale_errI hF (j := (i : ℝ)) hx hX (by
      apply Range.Ω_n hF hR
      have : (1 + gam u 1) * Real.pi + η ≤ 2 * 4 + 1 := by
        have : (1 + gam u 1) * Real.pi ≤ 2 * 4 := mul_le_mul (by linarith) (by linarith) (by linarith) (by norm_num)
        linarith
      calc ((1 + gam u 1) * Real.pi + η) * |(i : ℝ)| ≤ (2 * 4 + 1) * n := mul_le_mul this (by linarith) i0 (by norm_num)
        _ ≤ _ := by linarith)
    refine this.trans (add_le_add ?_ ?_)
    · refine mul_le_mul l23 ?_ (by positivity) g3
      have : 0 ≤ Real.pi * |(i : ℝ)| := by positivity
      linarith
    · have : (1 + gam u 1) * η * |(i : ℝ)| ≤ (1 + 1) * η * |(i : ℝ)| := by gcongr
      linarith
  have m2 : |B - -Complex.arg za * (i : ℝ)| ≤ gam u 3 * (2 * Real.pi * |(i : ℝ)|) + (2 * |(i : ℝ)| + 1) * η := by
    rcases hB with rfl | rfl
    · exact mk _ _ (by rw [← neg_sub', abs_neg]; exact e1) (by rw [abs_neg]; exact z1)
    · rw [neg_mul, ← neg_sub', abs_neg]; exact mk _ _ e1 z1
  have X2 : |(Complex.arg zb + Real.pi) * (j : ℝ)| ≤ 2 * Real.pi * |(j : ℝ)| := by
    rw [abs_mul]
    refine mul_le_mul_of_nonneg_right ?_ j0
    have := (abs_add_le (Complex.arg zb) Real.pi).trans (add_le_add z2 (abs_of_pos pi0).le)
    linarith
  have X1 : |-Complex.arg za * (i : ℝ)| ≤ 2 * Real.pi * |(i : ℝ)| := by
    rw [abs_mul, abs_neg]
    refine mul_le_mul_of_nonneg_right ?_ i0
    linarith
  have tot : 2 * Real.pi * |(i : ℝ)| + 2 * Real.pi * |(j : ℝ)| ≤ 2 * Real.pi * n := by
    rw [← mul_add]; exact mul_le_mul_of_nonneg_left hij' (by positivity)
  have bd : 2 * Real.pi * (n : ℝ) ≤ 8 * n := mul_le_mul_of_nonneg_right (by linarith) n0
  have iη : |(i : ℝ)| * η + |(j : ℝ)| * η ≤ n * η := by rw [← add_mul]; exact mul_le_mul_of_nonneg_right hij' hη
  have jη : 0 ≤ |(j : ℝ)| * η := by positivity
  have iη0 : 0 ≤ |(i : ℝ)| * η := by positivity
  have nη : (n : ℝ) * η ≤ n * 1 := mul_le_mul_of_nonneg_left hη1 n0
  have err : (6 * |(j : ℝ)| + 1) * η + (2 * |(i : ℝ)| + 1) * η ≤ 6 * (n * η) + 2 * η := by linarith
  have big : (1 + gam u 3) * (2 * Real.pi * |(i : ℝ)| + 2 * Real.pi * |(j : ℝ)|) + (6 * |(j : ℝ)| + 1) * η + (2 * |(i : ℝ)| + 1) * η ≤ Ω := by
    apply Range.Ω_n hF hR
    have : (1 + gam u 3) * (2 * Real.pi * |(i : ℝ)| + 2 * Real.pi * |(j : ℝ)|) ≤ 2 * (8 * n) :=
      mul_le_mul (by linarith) (by linarith) (by positivity) (by norm_num)
    linarith
  have fin : gam u (3 + 1) * (2 * Real.pi * |(i : ℝ)| + 2 * Real.pi * |(j : ℝ)|) + ((1 + gam u 1) * ((6 * |(j : ℝ)| + 1) * η + (2 * |(i : ℝ)| + 1) * η) + η)
      ≤ gam u 4 * (2 * Real.pi * n) + (16 * n + 9) * η := by
    refine add_le_add (mul_le_mul_of_nonneg_left tot g4) ?_
    have : (1 + gam u 1) * ((6 * |(j : ℝ)| + 1) * η + (2 * |(i : ℝ)| + 1) * η) ≤ (1 + 1) * (6 * (n * η) + 2 * η) :=
      mul_le_mul (by linarith) err (by positivity) (by norm_num)
    have : 0 ≤ (n : ℝ) * η := by positivity
    linarith
  rcases hV with rfl | rfl
  · have := add_errI1 hF m2 X1 m1' X2 (by linarith)
    refine this.trans (le_trans (le_of_eq ?_) fin)
    ring
  · have := add_errI1 hF m1' X2 m2 X1 (by linarith)
    rw [add_comm (-Complex.arg za * (i : ℝ))]
    refine this.trans (le_trans (le_of_eq ?_) fin)
    ring

set_option maxHeartbeats 800000 in
/-- Prefactor and sum, with signs applied to the components of the prefactor. -/
theorem float_coreI4 {mag d φ' φ e S c : ℝ} {k K : ℕ} {I : Finset ℕ} {P θ : ℕ → ℝ}
    (hmag : Mix u k (49 * (c + 1) * η) mag d) (c0 : 0 ≤ c) (hcn : c ≤ 2 ^ n) (hd : |d| ≤ 4 * c) (hk : k ≤ 2 * n + 3)
    (hφ : |φ' - φ| ≤ e) (hS : S = ∑ ρ ∈ I, P ρ * θ ρ) (hθ : ∀ ρ, Fac u K (θ ρ)) (hK : K ≤ 7 * n + 30)
    (hcS : c * ∑ ρ ∈ I, |P ρ| ≤ 2 * 2 ^ n) (hSn : ∑ ρ ∈ I, |P ρ| ≤ 2 * 2 ^ n) (b1 b2 : Bool) :
    ‖smulF F (csg b1 b2 (rectF F mag φ')) S - csg b1 b2 (rect d φ * ((∑ ρ ∈ I, P ρ : ℝ) : ℂ))‖
      ≤ (gam u (k + 3 + K) + e) * (|d| * ∑ ρ ∈ I, |P ρ|) + 20000 * 2 ^ n * η ∧
    (mag = 0 → ‖0 - csg b1 b2 (rect d φ * ((∑ ρ ∈ I, P ρ : ℝ) : ℂ))‖
      ≤ (gam u (k + 3 + K) + e) * (|d| * ∑ ρ ∈ I, |P ρ|) + 20000 * 2 ^ n * η) := by
  have hu0 := hF.u_nonneg
  have hu1 := hF.u_lt_one
  have hη := hF.η_nonneg
  have hη1 := Range.η_le_one hF hR
  have h2n : (1 : ℝ) ≤ 2 ^ n := one_le_pow₀ (by norm_num)
  have e0 := (abs_nonneg _).trans hφ
  set T := ∑ ρ ∈ I, |P ρ| with hT
  have T0 : 0 ≤ T := Finset.sum_nonneg fun _ _ => abs_nonneg _
  have S2 : |S| ≤ 2 * T := by
    rw [hS, hT, Finset.mul_sum]
    refine (Finset.abs_sum_le_sum_abs _ _).trans (Finset.sum_le_sum fun ρ _ => ?_)
    have f1 := fac_le_two hF hK hR.half (hθ ρ)
    have f2 := Fac.pos hu0 hu1 (hθ ρ)
    rw [abs_mul, abs_of_pos f2, mul_comm]
    exact mul_le_mul_of_nonneg_right f1 (abs_nonneg _)
  have bm := Mix.abs_le hF (show k ≤ 7 * n + 30 by omega) hR.half hmag
  have cη : (c + 1) * η ≤ (c + 1) * 1 := mul_le_mul_of_nonneg_left hη1 (by positivity)
  have cη0 : 0 ≤ (c + 1) * η := by positivity
  have dη : |d| * η ≤ 4 * c * η := mul_le_mul_of_nonneg_right hd hη
  constructor
  · -- one component
    have comp : ∀ (b : Bool) (t' t : ℝ), |t| ≤ 1 → IErr u η ν t' t →
        ∃ (ζ : ℕ → ℝ) (z : ℝ), (∀ ρ, |ζ ρ - 1| ≤ gam u (k + 3 + K)) ∧ sg b (F.mul (sg b (F.mul mag t')) S) = d * t * ∑ ρ ∈ I, P ρ * ζ ρ + z ∧
          |z| ≤ 10000 * 2 ^ n * η := by
      intro b t' t ht hi
      have it := IErr.mix hF hi
      have bt := Mix.abs_le hF (show 1 ≤ 7 * n + 30 by omega) hR.half it
      have m1 := Mix.mulOp hF hR.half (show k + 1 + 1 ≤ 7 * n + 30 by omega) hmag it (by
        rw [abs_mul]
        apply Range.Ω_2n hF hR
        have : |mag| * |t'| ≤ (57 * (c + 1)) * 3 := mul_le_mul (by linarith) (by linarith) (abs_nonneg _) (by positivity)
        linarith)
      have m1' := Mix.mono hF le_rfl (show _ ≤ 311 * (c + 1) * η by
        have t1 : 2 * |t| * (49 * (c + 1) * η) ≤ 2 * 1 * (49 * (c + 1) * η) := by gcongr
        have t2 : 49 * (c + 1) * η * η ≤ 49 * (c + 1) * η * 1 := mul_le_mul_of_nonneg_left hη1 (by positivity)
        nlinarith) m1
      have m2 : Mix u (k + 1 + 1) (311 * (c + 1) * η) (sg b (F.mul mag t')) (sg b (d * t)) := by
        cases b
        · simpa [sg] using m1'
        · simpa [sg] using Mix.neg hF m1'
      have bc := Mix.abs_le hF (show k + 1 + 1 ≤ 7 * n + 30 by omega) hR.half m2
      have dt : |sg b (d * t)| ≤ 4 * c := by
        have : |sg b (d * t)| = |d| * |t| := by rw [← abs_mul]; cases b <;> simp [sg]
        rw [this]
        calc |d| * |t| ≤ |d| * 1 := mul_le_mul_of_nonneg_left ht (abs_nonneg _)
          _ ≤ _ := by linarith
      have e4 : |S| * (311 * (c + 1) * η) ≤ 311 * (8 * 2 ^ n) * η := by
        have : |S| * (c + 1) ≤ 8 * 2 ^ n := by
          calc |S| * (c + 1) ≤ 2 * T * (c + 1) := mul_le_mul_of_nonneg_right S2 (by positivity)
            _ = 2 * (c * T) + 2 * T := by ring
            _ ≤ _ := by linarith
        calc |S| * (311 * (c + 1) * η) = 311 * (|S| * (c + 1)) * η := by ring
          _ ≤ _ := by gcongr
      have e5 : η ≤ 2 ^ n * η := le_mul_of_one_le_left hη h2n
      have m3 := Mix.mulOp (k := k + 1 + 1) (l := 0) hF hR.half (show k + 1 + 1 + 0 + 1 ≤ 7 * n + 30 by omega) m2 (Mix.refl hF S) (by
        rw [abs_mul]
        apply Range.Ω_2n hF hR
        have : |sg b (F.mul mag t')| * |S| ≤ (319 * (c + 1)) * (2 * T) := mul_le_mul (by linarith) S2 (abs_nonneg _) (by positivity)
        have : 319 * (c + 1) * (2 * T) = 638 * (c * T) + 638 * T := by ring
        linarith)
      have fin : Mix u (k + 1 + 1 + 0 + 1) (10000 * 2 ^ n * η) (F.mul (sg b (F.mul mag t')) S) (sg b (d * t) * S) := by
        refine Mix.mono hF le_rfl ?_ m3
        nlinarith
      obtain ⟨y, ⟨α, y1, y2⟩, y3⟩ := fin
      refine ⟨fun ρ => α * θ ρ, sg b (F.mul (sg b (F.mul mag t')) S - y), fun ρ => ?_, ?_, ?_⟩
      · apply Fac.abs_sub hu0 hu1
        exact Fac.mono hu0 hu1 (by omega) (Fac.mul hu0 hu1 y2 (hθ ρ))
      · have : ∑ ρ ∈ I, P ρ * (α * θ ρ) = α * ∑ ρ ∈ I, P ρ * θ ρ := by
          rw [Finset.mul_sum]; exact Finset.sum_congr rfl fun ρ _ => by ring
        simp only
        rw [this, ← hS, y1]
        cases b <;> simp [sg] <;> ring
      · refine le_trans (le_of_eq ?_) y3
        cases b
        · rfl
        · exact abs_neg _
    obtain ⟨ζ1, z1, r1, r2, r3⟩ := comp b1 _ _ (Real.abs_cos_le_one φ') (hF.cos φ')
    obtain ⟨ζ2, z2, s1, s2, s3⟩ := comp b2 _ _ (Real.abs_sin_le_one φ') (hF.sin φ')
    rw [← csg_norm_sub]
    set V := csg b1 b2 (smulF F (csg b1 b2 (rectF F mag φ')) S) with hV
    have hre : V.re = d * Real.cos φ' * ∑ ρ ∈ I, P ρ * ζ1 ρ + z1 := by rw [← r2]; rfl
    have him : V.im = d * Real.sin φ' * ∑ ρ ∈ I, P ρ * ζ2 ρ + z2 := by rw [← s2]; rfl
    have core := float_core_gen (d := d) (σ := 1) (V := V - ⟨z1, z2⟩) (by simp) (gam_nonneg hu0 hu1 (k + 3 + K)) r1 s1
      (by have h : (V - ⟨z1, z2⟩ : ℂ).re = V.re - z1 := rfl
          rw [h, hre]; ring)
      (by have h : (V - ⟨z1, z2⟩ : ℂ).im = V.im - z2 := rfl
          rw [h, him]; ring) hφ
    rw [Complex.ofReal_one, one_mul] at core
    have hz : ‖(⟨z1, z2⟩ : ℂ)‖ ≤ 20000 * 2 ^ n * η := by
      refine (Complex.norm_le_abs_re_add_abs_im _).trans ?_
      simp only
      linarith
    have e : V - rect d φ * ((∑ ρ ∈ I, P ρ : ℝ) : ℂ)
        = (V - ⟨z1, z2⟩ - rect d φ * ((∑ ρ ∈ I, P ρ : ℝ) : ℂ)) + ⟨z1, z2⟩ := by ring
    rw [e]
    exact (norm_add_le _ _).trans (add_le_add core hz)
  · rintro rfl
    have z : csg b1 b2 0 = 0 := by cases b1 <;> cases b2 <;> apply Complex.ext <;> simp [csg, sg]
    have hn := csg_norm_sub b1 b2 0 (rect d φ * ((∑ ρ ∈ I, P ρ : ℝ) : ℂ))
    rw [z] at hn
    rw [← hn, zero_sub, norm_neg, norm_mul, norm_rect, Complex.norm_real, Real.norm_eq_abs]
    obtain ⟨y, ⟨α, y1, y2⟩, y3⟩ := hmag
    have α0 := fac_ge_half hF (show k ≤ 7 * n + 30 by omega) hR.half y2
    rw [zero_sub, abs_neg, y1, abs_mul, abs_of_pos (Fac.pos hu0 hu1 y2)] at y3
    have d2 : |d| ≤ 98 * (c + 1) * η := by nlinarith [abs_nonneg d]
    have sT : |∑ ρ ∈ I, P ρ| ≤ T := Finset.abs_sum_le_sum_abs _ _
    have cT : (c + 1) * T ≤ 4 * 2 ^ n := by linarith
    have g0 := gam_nonneg hu0 hu1 (k + 3 + K)
    have p : 0 ≤ (gam u (k + 3 + K) + e) * (|d| * T) := by positivity
    have : |d| * |∑ ρ ∈ I, P ρ| ≤ 98 * (c + 1) * η * T := mul_le_mul d2 sT (abs_nonneg _) (by positivity)
    have : 98 * (c + 1) * η * T ≤ 98 * (4 * 2 ^ n) * η := by
      calc 98 * (c + 1) * η * T = 98 * ((c + 1) * T) * η := by ring
        _ ≤ _ := by gcongr
    have : 0 ≤ 2 ^ n * η := by positivity
    linarith

end

/-- What is proved of the value `v` computed for the element `(ell, mp, m)`. -/
def GenericMI (u η : ℝ) (Ra Rb : ℂ) (ell mp m : ℤ) (v : ℂ) : Prop :=
  ‖v - Spec.wignerD Ra Rb (2 * ell) (2 * mp) (2 * m)‖
    ≤ floatErrM u (2 * ell).toNat * (‖Ra‖ + ‖Rb‖) ^ (2 * ell).toNat + underErr η (2 * ell).toNat ∧
  (|mp| = ell ∨ |m| = ell → ‖v - Spec.wignerD Ra Rb (2 * ell) (2 * mp) (2 * m)‖
    ≤ floatErrM u (2 * ell).toNat * ‖Spec.wignerD Ra Rb (2 * ell) (2 * mp) (2 * m)‖ + underErr η (2 * ell).toNat)

/-- What the two generic branches have computed when they build the prefactors: the signed magnitude `mag` and the sum `S`. -/
def RegimeI (u η : ℝ) (Ra Rb : ℂ) (ell mp m : ℤ) (mag S : ℝ) : Prop :=
  ∃ (d c : ℝ) (I : Finset ℕ) (P θ : ℕ → ℝ), Mix u (2 * (2 * ell).toNat + 3) (49 * (c + 1) * η) mag d ∧ 0 ≤ c ∧ c ≤ 2 ^ (2 * ell).toNat ∧
    |d| ≤ 4 * c ∧ S = ∑ ρ ∈ I, P ρ * θ ρ ∧
    (∀ ρ, Fac u (11 * ((2 * ell).toNat / 2)) (θ ρ)) ∧
    c * ∑ ρ ∈ I, |P ρ| ≤ 2 * 2 ^ (2 * ell).toNat ∧ ∑ ρ ∈ I, |P ρ| ≤ 2 * 2 ^ (2 * ell).toNat ∧
    |d| * ∑ ρ ∈ I, |P ρ| ≤ (‖Ra‖ + ‖Rb‖) ^ (2 * ell).toNat ∧
    (|mp| = ell ∨ |m| = ell → I.card = 1) ∧
    rect d (Complex.arg Ra * ((m + mp : ℤ) : ℝ) + Complex.arg Rb * ((m - mp : ℤ) : ℝ)) * ((∑ ρ ∈ I, P ρ : ℝ) : ℂ)
      = Spec.wignerD Ra Rb (2 * ell) (2 * mp) (2 * m) ∧
    rect d (-Complex.arg Ra * ((m + mp : ℤ) : ℝ) + (Complex.arg Rb + Real.pi) * ((m - mp : ℤ) : ℝ)) * ((∑ ρ ∈ I, P ρ : ℝ) : ℂ)
      = Spec.wignerD (conj Ra) (-Rb) (2 * ell) (2 * mp) (2 * m)

section
variable {u w η ν Ω eps : ℝ} {n P : ℕ} {δ ζ : ℕ → ℝ} {F : FloatOpsY} (hF : F.IEEE u w η ν Ω P δ ζ) (hR : Range u η ν Ω eps n)
include hF hR

/-- The magnitude of the prefactor. -/
theorem mag_errMI (hP : n ≤ P) {za zb : ℂ} (hA : AwayI F eps n za zb) {c' C τ : ℝ} (hτ : |τ| = 1) (hc : RelErr u c' (τ * C))
    (c0 : 0 ≤ C) (hcn : C ≤ 2 ^ n) {e1 e2 : ℤ} (h1 : 0 ≤ e1) (h2 : 0 ≤ e2) (hn : e1 + e2 = n) :
    Mix u (2 * n + 3) (49 * (C + 1) * η) (F.mul (F.mul c' (F.ipow (F.abs za) e1)) (F.ipow (F.abs zb) e2)) (τ * (C * ‖za‖ ^ e1 * ‖zb‖ ^ e2)) := by
  obtain ⟨n1, rfl⟩ : ∃ k : ℕ, e1 = k := ⟨e1.toNat, by omega⟩
  obtain ⟨n2, rfl⟩ : ∃ k : ℕ, e2 = k := ⟨e2.toNat, by omega⟩
  have hnn : n1 + n2 = n := by exact_mod_cast hn
  have := mag_errIY hF hR hP hA.a2 hA.b2 hA.ak hA.bk hA.a hA.b hτ hc c0 hcn (rfl : (n1 : ℤ) = _) (rfl : (n2 : ℤ) = _) hnn.le
  have e : τ * (C * ‖za‖ ^ (n1 : ℤ) * ‖zb‖ ^ (n2 : ℤ)) = τ * C * ‖za‖ ^ n1 * ‖zb‖ ^ n2 := by
    rw [zpow_natCast, zpow_natCast]; ring
  rw [e, ← hnn]
  exact this

/-- Regime `ra >= rb`. -/
theorem regimeAI {Ra Rb : ℂ} (hA : AwayI F eps n Ra Rb) (hord : F.abs Rb ≤ F.abs Ra) {ell mp m : ℤ} (hn : n = (2 * ell).toNat)
    (h1 : |mp| ≤ ell) (h2 : |m| ≤ ell) {p' q' p q : ℕ}
    (hsum : p' + q' = p + q) (g1 : ell + mp = p') (g2 : ell - mp = q') (g3 : ell + m = p) (g4 : ell - m = q) :
    ∃ S, hornerLoopF F.toFloatOps (F.div (F.mul (-F.abs Rb) (F.abs Rb)) (F.mul (F.abs Ra) (F.abs Ra))) (ell + mp + 1) (ell - m + 1)
        (m - mp) (min (ell + mp) (ell - m)) (max 0 (mp - m)) = .ok S ∧
      ∀ mag, Mix u (2 * (2 * ell).toNat + 3) (49 * (Wcoef p' q' p q + 1) * η) mag ((if max 0 (mp - m) % 2 ≠ 0 then -1 else 1) *
          (Wcoef p' q' p q * ‖Ra‖ ^ (2 * ell - m + mp - 2 * max 0 (mp - m)) * ‖Rb‖ ^ (m - mp + 2 * max 0 (mp - m)))) →
        RegimeI u η Ra Rb ell mp m mag S := by
  have hI := hF.toIEEE
  have hu0 := hF.u_nonneg
  have hu1 := hF.u_lt_one
  have h0 : 0 ≤ ell := by have := abs_nonneg m; omega
  obtain ⟨lo_a, near_a⟩ := absI_gt hI hR hA.a2 hA.a
  obtain ⟨lo_b, near_b⟩ := absI_gt hI hR hA.b2 hA.b
  have heps := hR.eps_pos
  have Pa : 0 < ‖Ra‖ := by linarith
  have ha : Ra ≠ 0 := norm_pos_iff.mp Pa
  have hpq : p' + q' = n := by omega
  obtain ⟨tab, ht⟩ := IsWignerTable.exists ell h0
  obtain ⟨c, S, e1, e2, e3⟩ := intA ht (Rb := Rb) ha h1 h2 le_rfl
  rw [coeff_int ht g1 g2 g3 g4 le_rfl] at e1
  obtain rfl := Except.ok.inj e1
  obtain ⟨v1, v2⟩ := e3 _ rfl
  have a1 : ell + mp + 1 = (p' : ℤ) + 1 := by omega
  have a2 : ell - m + 1 = (q : ℤ) + 1 := by omega
  have a3 : m - mp = (q' : ℤ) - q := by omega
  have a4 : min (ell + mp) (ell - m) = ((min p' q : ℕ) : ℤ) := by omega
  have a5 : max 0 (mp - m) = ((p' - p : ℕ) : ℤ) := by omega
  have a6 : 2 * ell - m + mp - 2 * max 0 (mp - m) = ((p' + q - 2 * (p' - p) : ℕ) : ℤ) := by omega
  have a7 : m - mp + 2 * max 0 (mp - m) = ((q' - q + 2 * (p' - p) - (q - q') : ℕ) : ℤ) := by omega
  have hab : p' - p ≤ min p' q := by omega
  have hne : ∀ ρ : ℕ, p' - p < ρ → ρ ≤ min p' q → (ρ : ℤ) * (((q' : ℤ) - q) + ρ) ≠ 0 := by
    intro ρ k1 k2
    apply mul_ne_zero <;> omega
  have hXj : ∀ j ≤ n, |(-‖Rb‖ * ‖Rb‖ / (‖Ra‖ * ‖Ra‖))| ^ j ≤ 2 := fun j hj => ratio_pow hI hR Pa near_a near_b hord (by omega)
  obtain ⟨S', θ, s1, s2, s3⟩ := hornerI_loopY hI hR hA.a2 hA.b2 hA.a hA.b hpq (show q ≤ n by omega)
    (show q - q' ≤ p' - p by omega) hab hXj (by simpa using ratio_pow hI hR Pa near_a near_b hord (j := 1) (by omega))
  have e2' : hornerLoop (-‖Rb‖ * ‖Rb‖ / (‖Ra‖ * ‖Ra‖)) ((p' : ℤ) + 1) ((q : ℤ) + 1) ((q' : ℤ) - q) ((min p' q : ℕ) : ℤ)
      ((p' - p : ℕ) : ℤ) = .ok S := by rw [← a1, ← a2, ← a3, ← a4, ← a5]; exact e2
  rw [hornerLoop_sum _ _ _ _ _ _ hab hne] at e2'
  obtain rfl := Except.ok.inj e2'
  have c0 : 0 ≤ Wcoef p' q' p q := by unfold Wcoef; positivity
  have habs : |(if max 0 (mp - m) % 2 ≠ 0 then -1 else 1) *
      (Wcoef p' q' p q * ‖Ra‖ ^ (2 * ell - m + mp - 2 * max 0 (mp - m)) * ‖Rb‖ ^ (m - mp + 2 * max 0 (mp - m)))|
      = Wcoef p' q' p q * ‖Ra‖ ^ (p' + q - 2 * (p' - p)) * ‖Rb‖ ^ (q' - q + 2 * (p' - p) - (q - q')) := by
    rw [abs_mul, a6, a7, zpow_natCast, zpow_natCast]
    have d0n : 0 ≤ Wcoef p' q' p q * ‖Ra‖ ^ (p' + q - 2 * (p' - p)) * ‖Rb‖ ^ (q' - q + 2 * (p' - p) - (q - q')) := by positivity
    rw [abs_of_nonneg d0n]
    split_ifs <;> simp
  refine ⟨S', by rw [a1, a2, a3, a4, a5]; exact s1, fun mag hmag => ?_⟩
  refine ⟨_, Wcoef p' q' p q, _, _, θ, hmag, c0, ?_, ?_, s2, fun ρ => (s3 ρ).mono hu0 hu1 (by omega), ?_, ?_, ?_, ?_, v1, v2⟩
  · rw [← hn]; exact coef_le hsum hpq
  · rw [habs]
    have r1 := hA.ak (p' + q - 2 * (p' - p)) (by omega)
    have r2 := hA.bk (q' - q + 2 * (p' - p) - (q - q')) (by omega)
    calc _ ≤ Wcoef p' q' p q * 2 * 2 := by gcongr
      _ = _ := by ring
  · rw [← hn]; exact coef_sum_le hsum hpq hXj
  · rw [← hn]; exact tail_sum_le (k := p' - p) hpq hXj (by omega) hab
  · rw [habs, ← hn, ← hpq]
    exact prefactor_sum_le (zb := Rb) ha hsum
  · intro h
    rw [Nat.card_Ico]
    rcases h with h | h <;> rcases (abs_eq h0).mp h with h | h <;> omega

/-- Regime `ra < rb`. -/
theorem regimeBI {Ra Rb : ℂ} (hA : AwayI F eps n Ra Rb) (hord : F.abs Ra ≤ F.abs Rb) {ell mp m : ℤ} (hn : n = (2 * ell).toNat)
    (h1 : |mp| ≤ ell) (h2 : |m| ≤ ell) {p' q' p q : ℕ}
    (hsum : p' + q' = p + q) (g1 : ell + mp = p') (g2 : ell - mp = q') (g3 : ell + m = p) (g4 : ell - m = q) :
    ∃ S, hornerLoopF F.toFloatOps (F.div (F.mul (-F.abs Ra) (F.abs Ra)) (F.mul (F.abs Rb) (F.abs Rb))) (ell - mp + 1) (ell - m + 1)
        (m + mp) (min (ell - mp) (ell - m)) (max 0 (-mp - m)) = .ok S ∧
      ∀ mag, Mix u (2 * (2 * ell).toNat + 3) (49 * (Wcoef q' p' p q + 1) * η) mag ((if (ell + m + max 0 (-mp - m)) % 2 ≠ 0 then -1 else 1) *
          (Wcoef q' p' p q * ‖Rb‖ ^ (2 * ell - m - mp - 2 * max 0 (-mp - m)) * ‖Ra‖ ^ (m + mp + 2 * max 0 (-mp - m)))) →
        RegimeI u η Ra Rb ell mp m mag S := by
  have hI := hF.toIEEE
  have hu0 := hF.u_nonneg
  have hu1 := hF.u_lt_one
  have h0 : 0 ≤ ell := by have := abs_nonneg m; omega
  obtain ⟨lo_a, near_a⟩ := absI_gt hI hR hA.a2 hA.a
  obtain ⟨lo_b, near_b⟩ := absI_gt hI hR hA.b2 hA.b
  have heps := hR.eps_pos
  have Pb : 0 < ‖Rb‖ := by linarith
  have hb : Rb ≠ 0 := norm_pos_iff.mp Pb
  have hsum' : q' + p' = p + q := by omega
  have hpq : q' + p' = n := by omega
  obtain ⟨tab, ht⟩ := IsWignerTable.exists ell h0
  obtain ⟨c, S, e1, e2, e3⟩ := intB ht (Ra := Ra) hb h1 h2 le_rfl
  have hcb := coeff_int ht (p' := q') (q' := p') (ell := ell) (mp := -mp) (m := m) (by omega) (by omega) g3 g4 le_rfl
  push_cast at hcb
  rw [hcb] at e1
  obtain rfl := Except.ok.inj e1
  obtain ⟨v1, v2⟩ := e3 _ rfl
  have a1 : ell - mp + 1 = (q' : ℤ) + 1 := by omega
  have a2 : ell - m + 1 = (q : ℤ) + 1 := by omega
  have a3 : m + mp = (p' : ℤ) - q := by omega
  have a4 : min (ell - mp) (ell - m) = ((min q' q : ℕ) : ℤ) := by omega
  have a5 : max 0 (-mp - m) = ((q' - p : ℕ) : ℤ) := by omega
  have a6 : 2 * ell - m - mp - 2 * max 0 (-mp - m) = ((q' + q - 2 * (q' - p) : ℕ) : ℤ) := by omega
  have a7 : m + mp + 2 * max 0 (-mp - m) = ((p' - q + 2 * (q' - p) - (q - p') : ℕ) : ℤ) := by omega
  have hab : q' - p ≤ min q' q := by omega
  have hne : ∀ ρ : ℕ, q' - p < ρ → ρ ≤ min q' q → (ρ : ℤ) * (((p' : ℤ) - q) + ρ) ≠ 0 := by
    intro ρ k1 k2
    apply mul_ne_zero <;> omega
  have hXj : ∀ j ≤ n, |(-‖Ra‖ * ‖Ra‖ / (‖Rb‖ * ‖Rb‖))| ^ j ≤ 2 := fun j hj => ratio_pow hI hR Pb near_b near_a hord (by omega)
  obtain ⟨S', θ, s1, s2, s3⟩ := hornerI_loopY hI hR hA.b2 hA.a2 hA.b hA.a hpq (show q ≤ n by omega)
    (show q - p' ≤ q' - p by omega) hab hXj (by simpa using ratio_pow hI hR Pb near_b near_a hord (j := 1) (by omega))
  have e2' : hornerLoop (-‖Ra‖ * ‖Ra‖ / (‖Rb‖ * ‖Rb‖)) ((q' : ℤ) + 1) ((q : ℤ) + 1) ((p' : ℤ) - q) ((min q' q : ℕ) : ℤ)
      ((q' - p : ℕ) : ℤ) = .ok S := by rw [← a1, ← a2, ← a3, ← a4, ← a5]; exact e2
  rw [hornerLoop_sum _ _ _ _ _ _ hab hne] at e2'
  obtain rfl := Except.ok.inj e2'
  rw [add_comm (Complex.arg Rb * _)] at v1
  rw [add_comm ((Complex.arg Rb + Real.pi) * _)] at v2
  have c0 : 0 ≤ Wcoef q' p' p q := by unfold Wcoef; positivity
  have habs : |(if (ell + m + max 0 (-mp - m)) % 2 ≠ 0 then -1 else 1) *
      (Wcoef q' p' p q * ‖Rb‖ ^ (2 * ell - m - mp - 2 * max 0 (-mp - m)) * ‖Ra‖ ^ (m + mp + 2 * max 0 (-mp - m)))|
      = Wcoef q' p' p q * ‖Rb‖ ^ (q' + q - 2 * (q' - p)) * ‖Ra‖ ^ (p' - q + 2 * (q' - p) - (q - p')) := by
    rw [abs_mul, a6, a7, zpow_natCast, zpow_natCast]
    have d0n : 0 ≤ Wcoef q' p' p q * ‖Rb‖ ^ (q' + q - 2 * (q' - p)) * ‖Ra‖ ^ (p' - q + 2 * (q' - p) - (q - p')) := by positivity
    rw [abs_of_nonneg d0n]
    split_ifs <;> simp
  refine ⟨S', by rw [a1, a2, a3, a4, a5]; exact s1, fun mag hmag => ?_⟩
  refine ⟨_, Wcoef q' p' p q, _, _, θ, hmag, c0, ?_, ?_, s2, fun ρ => (s3 ρ).mono hu0 hu1 (by omega), ?_, ?_, ?_, ?_, v1, v2⟩
  · rw [← hn]; exact coef_le hsum' hpq
  · rw [habs]
    have r1 := hA.bk (q' + q - 2 * (q' - p)) (by omega)
    have r2 := hA.ak (p' - q + 2 * (q' - p) - (q - p')) (by omega)
    calc _ ≤ Wcoef q' p' p q * 2 * 2 := by gcongr
      _ = _ := by ring
  · rw [← hn]; exact coef_sum_le hsum' hpq hXj
  · rw [← hn]; exact tail_sum_le (k := q' - p) hpq hXj (by omega) hab
  · rw [habs, ← hn, ← hpq, add_comm ‖Ra‖]
    exact prefactor_sum_le (zb := Ra) hb hsum'
  · intro h
    rw [Nat.card_Ico]
    rcases h with h | h <;> rcases (abs_eq h0).mp h with h | h <;> omega

/-- Accuracy of a stored value obtained from either prefactor. -/
theorem core_valueI {Ra Rb : ℂ} {ell : ℤ} (hn : n = (2 * ell).toNat) {mag S d c φ' φ : ℝ} {I : Finset ℕ} {P θ : ℕ → ℝ} {one : Prop}
    (hmag : Mix u (2 * (2 * ell).toNat + 3) (49 * (c + 1) * η) mag d) (c0 : 0 ≤ c) (hcn : c ≤ 2 ^ (2 * ell).toNat) (hd : |d| ≤ 4 * c)
    (hS : S = ∑ ρ ∈ I, P ρ * θ ρ)
    (hθ : ∀ ρ, Fac u (11 * ((2 * ell).toNat / 2)) (θ ρ))
    (hcS : c * ∑ ρ ∈ I, |P ρ| ≤ 2 * 2 ^ (2 * ell).toNat) (hSn : ∑ ρ ∈ I, |P ρ| ≤ 2 * 2 ^ (2 * ell).toNat)
    (hbd : |d| * ∑ ρ ∈ I, |P ρ| ≤ (‖Ra‖ + ‖Rb‖) ^ (2 * ell).toNat) (hone : one → I.card = 1)
    (hφ : |φ' - φ| ≤ gam u 4 * (2 * Real.pi * (2 * ell).toNat) + (16 * (2 * ell).toNat + 9) * η) (b1 b2 : Bool) {D : ℂ}
    (hD : csg b1 b2 (rect d φ * ((∑ ρ ∈ I, P ρ : ℝ) : ℂ)) = D) {v : ℂ}
    (hv : v = smulF F.toFloatOps (csg b1 b2 (rectF F.toFloatOps mag φ')) S ∨ mag = 0 ∧ v = 0) :
    ‖v - D‖ ≤ floatErrM u (2 * ell).toNat * (‖Ra‖ + ‖Rb‖) ^ (2 * ell).toNat + underErr η (2 * ell).toNat ∧
    (one → ‖v - D‖ ≤ floatErrM u (2 * ell).toNat * ‖D‖ + underErr η (2 * ell).toNat) := by
  rw [← hn] at *
  have hη := hF.η_nonneg
  obtain ⟨k1, k2⟩ := float_coreI4 hF.toIEEE hR hmag c0 hcn hd le_rfl hφ hS hθ (by omega) hcS hSn b1 b2
  rw [hD] at k1 k2
  have core : ‖v - D‖ ≤ (gam u (2 * n + 3 + 3 + 11 * (n / 2)) + (gam u 4 * (2 * Real.pi * n) + (16 * n + 9) * η)) * (|d| * ∑ ρ ∈ I, |P ρ|)
      + 20000 * 2 ^ n * η := by
    rcases hv with rfl | ⟨z, rfl⟩
    · exact k1
    · exact k2 z
  have hE0 := floatErrM_nonneg hF.u_nonneg hF.u_lt_one n
  set T := ∑ ρ ∈ I, |P ρ| with hT
  have T0 : 0 ≤ T := Finset.sum_nonneg fun _ _ => abs_nonneg _
  have asm : ∀ B, |d| * T ≤ B → (gam u (2 * n + 3 + 3 + 11 * (n / 2)) + (gam u 4 * (2 * Real.pi * n) + (16 * n + 9) * η)) * (|d| * T)
      + 20000 * 2 ^ n * η ≤ floatErrM u n * B + underErr η n := by
    intro B hB
    have n0 : (0 : ℝ) ≤ n := Nat.cast_nonneg n
    have dT : 0 ≤ |d| * T := mul_nonneg (abs_nonneg d) T0
    have e : gam u (2 * n + 3 + 3 + 11 * (n / 2)) + (gam u 4 * (2 * Real.pi * n) + (16 * n + 9) * η) = floatErrM u n + (16 * n + 9) * η := by
      unfold floatErrM; ring_nf
    have k1 : floatErrM u n * (|d| * T) ≤ floatErrM u n * B := mul_le_mul_of_nonneg_left hB hE0
    have k2 : |d| * T ≤ 8 * 2 ^ n := by nlinarith
    have k3 : (16 * n + 9) * η * (|d| * T) ≤ (16 * n + 9) * η * (8 * 2 ^ n) := mul_le_mul_of_nonneg_left k2 (by positivity)
    have P0 : (0 : ℝ) ≤ 2 ^ n * η := by positivity
    have k4 : (0 : ℝ) ≤ n * (2 ^ n * η) := by positivity
    rw [e]
    unfold underErr
    nlinarith
  refine ⟨core.trans (asm _ hbd), fun h => core.trans (asm _ (le_of_eq ?_))⟩
  obtain ⟨ρ, hρ⟩ := Finset.card_eq_one.mp (hone h)
  have : ‖D‖ = ‖rect d φ * ((∑ ρ ∈ I, P ρ : ℝ) : ℂ)‖ := by
    rw [← hD]
    have := csg_norm_sub b1 b2 (rect d φ * ((∑ ρ ∈ I, P ρ : ℝ) : ℂ)) 0
    have z : csg b1 b2 0 = 0 := by cases b1 <;> cases b2 <;> apply Complex.ext <;> simp [csg, sg]
    rwa [z, sub_zero, sub_zero] at this
  rw [this, norm_mul, norm_rect, hT, hρ, Finset.sum_singleton, Finset.sum_singleton, Complex.norm_real, Real.norm_eq_abs]

/-- An element and its mirror images; all four are stored as zero if the magnitude underflows. -/
theorem RegimeI.values {Ra Rb : ℂ} {ell mp m : ℤ} (hn : n = (2 * ell).toNat) (h1 : |mp| ≤ ell) (h2 : |m| ≤ ell) {mag S : ℝ}
    (h : RegimeI u η Ra Rb ell mp m mag S) {φ1 φ2 : ℝ}
    (e1 : |φ1 - (Complex.arg Ra * ((m + mp : ℤ) : ℝ) + Complex.arg Rb * ((m - mp : ℤ) : ℝ))|
      ≤ gam u 4 * (2 * Real.pi * (2 * ell).toNat) + (16 * (2 * ell).toNat + 9) * η)
    (e2 : |φ2 - (-Complex.arg Ra * ((m + mp : ℤ) : ℝ) + (Complex.arg Rb + Real.pi) * ((m - mp : ℤ) : ℝ))|
      ≤ gam u 4 * (2 * Real.pi * (2 * ell).toNat) + (16 * (2 * ell).toNat + 9) * η) :
    (∀ v, v = smulF F.toFloatOps (rectF F.toFloatOps mag φ1) S ∨ mag = 0 ∧ v = 0 → GenericMI u η Ra Rb ell mp m v) ∧
    (∀ v, v = smulF F.toFloatOps (if (m + mp) % 2 = 0 then conj (rectF F.toFloatOps mag φ1)
      else -conj (rectF F.toFloatOps mag φ1)) S ∨ mag = 0 ∧ v = 0 → GenericMI u η Ra Rb ell (-mp) (-m) v) ∧
    (∀ v, v = smulF F.toFloatOps (conj (rectF F.toFloatOps mag φ2)) S ∨ mag = 0 ∧ v = 0 → GenericMI u η Ra Rb ell m mp v) ∧
    (∀ v, v = smulF F.toFloatOps (if (m + mp) % 2 = 0 then rectF F.toFloatOps mag φ2
      else -rectF F.toFloatOps mag φ2) S ∨ mag = 0 ∧ v = 0 → GenericMI u η Ra Rb ell (-m) (-mp) v) := by
  obtain ⟨d, c, I, P, θ, hmag, q1, q2, q3, hS, hθ, q4, q5, hbd, hone, v1, v2⟩ := h
  have c1 := wD_conj Ra Rb h1 h2
  have c2 := wD_conj Ra Rb h2 h1
  have c3 := wD_inv Ra Rb h1 h2
  rw [add_comm mp m] at c2
  have core := fun {one : Prop} {φ' φ : ℝ} (hone : one → I.card = 1) => core_valueI hF hR (Ra := Ra) (Rb := Rb) (one := one) (φ' := φ') (φ := φ) hn hmag q1 q2 q3 hS hθ q4 q5 hbd hone
  refine ⟨fun v hv => ?_, fun v hv => ?_, fun v hv => ?_, fun v hv => ?_⟩
  · exact core hone e1 false false (by rw [csg_ff, v1]) (by rw [csg_ff]; exact hv)
  · have hone' : |-mp| = ell ∨ |-m| = ell → I.card = 1 := by rw [abs_neg, abs_neg]; exact hone
    by_cases hp : (m + mp) % 2 = 0
    · rw [if_pos hp] at c1 hv
      rw [one_mul] at c1
      exact core hone' e1 false true (by rw [csg_ft, v1, c1]) (by rw [csg_ft]; exact hv)
    · rw [if_neg hp] at c1 hv
      exact core hone' e1 true false (by rw [csg_tf, v1, c1, neg_one_mul, neg_neg]) (by rw [csg_tf]; exact hv)
  · exact core (one := |m| = ell ∨ |mp| = ell) (fun h => hone h.symm) e2 false true
      (by rw [csg_ft, v2, c3, Complex.conj_conj]) (by rw [csg_ft]; exact hv)
  · have hone' : |-m| = ell ∨ |-mp| = ell → I.card = 1 := by rw [abs_neg, abs_neg]; exact fun h => hone h.symm
    by_cases hp : (m + mp) % 2 = 0
    · rw [if_pos hp] at c2 hv
      rw [one_mul] at c2
      exact core hone' e2 false false (by rw [csg_ff, v2, c3, c2]) (by rw [csg_ff]; exact hv)
    · rw [if_neg hp] at c2 hv
      exact core hone' e2 true true (by rw [csg_tt, v2, c3, c2, neg_one_mul, neg_neg]) (by rw [csg_tt]; exact hv)

end

end SF
