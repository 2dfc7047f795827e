import Verif.Lemmas.IEEED

/-! # The D kernel with underflow and overflow: prefactor, phase and product -/

set_option autoImplicit false

namespace SF

open Finset ComplexConjugate

section
variable {u w η ν Ω eps : ℝ} {n : ℕ} {F : FloatOps} (hF : F.IEEE u w η ν Ω) (hR : Range u η ν Ω eps n)
include hF hR

theorem Range.Ω_n {c : ℝ} (hc : c ≤ 4096 * (n + 1)) : c ≤ Ω := by
  have h1 : (1 : ℝ) ≤ 2 ^ n := one_le_pow₀ (by norm_num)
  have hn : (0 : ℝ) ≤ n := Nat.cast_nonneg n
  have h2 : (n : ℝ) + 1 ≤ (n + 1) ^ 2 := by nlinarith
  have := hR.large
  have : 4096 * ((n : ℝ) + 1) ^ 2 * 1 ≤ 4096 * (n + 1) ^ 2 * 2 ^ n := mul_le_mul_of_nonneg_left h1 (by positivity)
  linarith

theorem Range.Ω_2n {c : ℝ} (hc : c ≤ 4096 * 2 ^ n) : c ≤ Ω := by
  have hn : (0 : ℝ) ≤ n := Nat.cast_nonneg n
  have h2 : (1 : ℝ) ≤ (n + 1) ^ 2 := by nlinarith
  have := hR.large
  have h1 : (0 : ℝ) < 2 ^ n := by positivity
  have : 4096 * 1 * 2 ^ n ≤ 4096 * ((n : ℝ) + 1) ^ 2 * 2 ^ n := by gcongr
  linarith

/-- The phase. -/
theorem phase_errI (z1 z2 : ℂ) (i j : ℤ) (hij : |i| + |j| ≤ 2 * n) :
    |F.add (F.div (F.mul (F.arg z1) (i : ℝ)) 2) (F.div (F.mul (F.arg z2) (j : ℝ)) 2)
      - (Complex.arg z1 * (i : ℝ) / 2 + Complex.arg z2 * (j : ℝ) / 2)| ≤ gam u 4 * (Real.pi * n) + (16 * n + 9) * η := by
  have hu0 := hF.u_nonneg
  have hu1 := hF.u_lt_one
  have hη := hF.η_nonneg
  have hη1 := Range.η_le_one hF hR
  have hpi := Real.pi_lt_d2
  have hpi0 := Real.pi_pos
  have n0 : (0 : ℝ) ≤ n := Nat.cast_nonneg n
  have K : 4 ≤ 7 * n + 30 := by omega
  have hij' : |(i : ℝ)| + |(j : ℝ)| ≤ 2 * n := by rw [← Int.cast_abs, ← Int.cast_abs]; exact_mod_cast hij
  have i0 := abs_nonneg (i : ℝ)
  have j0 := abs_nonneg (j : ℝ)
  have bx : ∀ (z : ℂ) (i : ℝ), |Complex.arg z * i / 2| ≤ Real.pi * |i| / 2 := by
    intro z i
    rw [abs_div, abs_mul, abs_two]
    have := Complex.abs_arg_le_pi z
    have := abs_nonneg i
    gcongr
  have part : ∀ (z : ℂ) (i : ℝ), |i| ≤ 2 * n → Mix u 3 ((4 * |i| + 2) * η) (F.div (F.mul (F.arg z) i) 2) (Complex.arg z * i / 2) := by
    intro z i hi
    have i0 := abs_nonneg i
    have a1 := IErr.mix hF (hF.arg z)
    have b1 := Mix.abs_le hF (show 1 ≤ 7 * n + 30 by omega) hR.half a1
    have hz := Complex.abs_arg_le_pi z
    have a2 := Mix.mulOp hF hR.half (show 1 + 0 + 1 ≤ 7 * n + 30 by omega) a1 (Mix.refl hF i) (by
      rw [abs_mul]
      apply Range.Ω_n hF hR
      have : |F.arg z| * |i| ≤ 8 * (2 * n) := mul_le_mul (by linarith) hi i0 (by norm_num)
      linarith)
    have b2 := Mix.abs_le hF (show 2 ≤ 7 * n + 30 by omega) hR.half a2
    have t : |Complex.arg z * i| ≤ 4 * (2 * n) := by rw [abs_mul]; exact mul_le_mul (by linarith) hi i0 (by norm_num)
    have t2 : |i| * η ≤ 2 * n * 1 := mul_le_mul hi hη1 hη (by positivity)
    have a3 := Mix.divOp hF hR.half (show 2 + 1 ≤ 7 * n + 30 by omega) a2 (two_ne_zero) (by
      rw [abs_div, abs_two]
      apply Range.Ω_n hF hR
      linarith)
    refine Mix.mono hF (by omega) (le_of_eq ?_) a3
    rw [abs_two]; ring
  obtain ⟨x, ⟨α, a1, a2⟩, a3⟩ := part z1 i (by linarith)
  obtain ⟨y, ⟨β, b1, b2⟩, b3⟩ := part z2 j (by linarith)
  have c1 := Mix.abs_le hF (show 3 ≤ 7 * n + 30 by omega) hR.half (part z1 i (by linarith))
  have c2 := Mix.abs_le hF (show 3 ≤ 7 * n + 30 by omega) hR.half (part z2 j (by linarith))
  set X := Complex.arg z1 * (i : ℝ) / 2 with hX
  set Y := Complex.arg z2 * (j : ℝ) / 2 with hY
  set x' := F.div (F.mul (F.arg z1) (i : ℝ)) 2 with hx'
  set y' := F.div (F.mul (F.arg z2) (j : ℝ)) 2 with hy'
  have bX := bx z1 i
  have bY := bx z2 j
  have hXY : |X| + |Y| ≤ Real.pi * n := by nlinarith
  have iη : |(i : ℝ)| * η + |(j : ℝ)| * η ≤ 2 * n * η := by rw [← add_mul]; exact mul_le_mul_of_nonneg_right hij' hη
  obtain ⟨z, ⟨γ, d1, d2⟩, d3⟩ := IErr.mix hF (hF.add x' y' (by
    refine (abs_add_le _ _).trans (Range.Ω_n hF hR ?_)
    have : |(i : ℝ)| * η + |(j : ℝ)| * η ≤ 2 * n * 1 := iη.trans (mul_le_mul_of_nonneg_left hη1 (by positivity))
    nlinarith))
  have γ2 := fac_le_two hF (show 1 ≤ 7 * n + 30 by omega) hR.half d2
  have γ0 := Fac.pos hu0 hu1 d2
  have r : F.add x' y' - (X + Y) = X * (α * γ - 1) + Y * (β * γ - 1) + (((x' - x) + (y' - y)) * γ + (F.add x' y' - z)) := by
    rw [d1, a1, b1]; ring
  rw [r]
  have g1 : |α * γ - 1| ≤ gam u 4 := Fac.abs_sub hu0 hu1 (Fac.mul hu0 hu1 a2 d2)
  have g2 : |β * γ - 1| ≤ gam u 4 := Fac.abs_sub hu0 hu1 (Fac.mul hu0 hu1 b2 d2)
  have g0 := gam_nonneg hu0 hu1 4
  refine (abs_add_le _ _).trans (add_le_add ?_ ?_)
  · calc |X * (α * γ - 1) + Y * (β * γ - 1)| ≤ |X| * |α * γ - 1| + |Y| * |β * γ - 1| := by
          rw [← abs_mul, ← abs_mul]; exact abs_add_le _ _
      _ ≤ |X| * gam u 4 + |Y| * gam u 4 := by gcongr
      _ = (|X| + |Y|) * gam u 4 := by ring
      _ ≤ (Real.pi * n) * gam u 4 := mul_le_mul_of_nonneg_right hXY g0
      _ = _ := by ring
  · refine (abs_add_le _ _).trans ?_
    rw [abs_mul, abs_of_pos γ0]
    have e1 : |x' - x + (y' - y)| ≤ (4 * |(i : ℝ)| + 2) * η + (4 * |(j : ℝ)| + 2) * η := (abs_add_le _ _).trans (add_le_add a3 b3)
    have e0 := (abs_nonneg _).trans e1
    have e2 := mul_le_mul e1 γ2 γ0.le e0
    nlinarith

/-- The magnitude of the prefactor. -/
theorem mag_errI {za zb : ℂ} (ha2 : ‖za‖ ≤ 2) (hb2 : ‖zb‖ ≤ 2) (hak : ∀ k ≤ n, ‖za‖ ^ k ≤ 2) (hbk : ∀ k ≤ n, ‖zb‖ ^ k ≤ 2)
    (ha : eps < F.abs za) (hb : eps < F.abs zb) {c' c e1 e2 : ℝ} (hc : RelErr u c' c) (c0 : 0 ≤ c) (hcn : c ≤ 2 ^ n) {n1 n2 : ℕ}
    (h1 : e1 = n1) (h2 : e2 = n2) (hnn : n1 + n2 ≤ n) :
    Mix u (n1 + n2 + 5) (49 * (c + 1) * η) (F.mul (F.mul c' (F.pow (F.abs za) e1)) (F.pow (F.abs zb) e2)) (c * ‖za‖ ^ n1 * ‖zb‖ ^ n2) := by
  have hu0 := hF.u_nonneg
  have hu1 := hF.u_lt_one
  have hη := hF.η_nonneg
  have hη1 := Range.η_le_one hF hR
  have h2n : (1 : ℝ) ≤ 2 ^ n := one_le_pow₀ (by norm_num)
  have pw : ∀ {z : ℂ} (_ : ‖z‖ ≤ 2) (_ : ∀ k ≤ n, ‖z‖ ^ k ≤ 2) (_ : eps < F.abs z) {e : ℝ} {m : ℕ} (_ : m ≤ n) (_ : e = m),
      Mix u (m + 1) η (F.pow (F.abs z) e) (‖z‖ ^ m) := by
    intro z hz hzk hze e m hm he
    obtain ⟨lz, nz⟩ := absI_gt hF hR hz hze
    have p := nz.pos hu0 hu1 (by have := hR.eps_pos; linarith)
    have np := nz.pow hu0 hu1 m
    have bd := Near.abs_le_two hF (show m * 1 ≤ 7 * n + 30 by omega) hR.half np
    rw [abs_of_nonneg (pow_nonneg (norm_nonneg z) m)] at bd
    have key := hF.pow (F.abs z) e p (by
      rw [rpow_eq_pow he]
      have := le_abs_self (F.abs z ^ m)
      have := hzk m hm
      exact Range.Ω_ge hF hR (by linarith))
    rw [rpow_eq_pow he] at key
    obtain ⟨y, ⟨θ, y1, y2⟩, y3⟩ := IErr.mix hF key
    refine ⟨y, ?_, y3⟩
    rw [y1]
    have := Near.mul_fac' hF np y2
    rwa [mul_one] at this
  have k1 := pw ha2 hak ha (show n1 ≤ n by omega) h1
  have k2 := pw hb2 hbk hb (show n2 ≤ n by omega) h2
  have A0 := pow_nonneg (norm_nonneg za) n1
  have B0 := pow_nonneg (norm_nonneg zb) n2
  have A2 := hak n1 (by omega)
  have B2 := hbk n2 (by omega)
  have m0 := RelErr.mix hF hc
  have b0 := Mix.abs_le hF (show 1 ≤ 7 * n + 30 by omega) hR.half m0
  have b1 := Mix.abs_le hF (show n1 + 1 ≤ 7 * n + 30 by omega) hR.half k1
  have b2 := Mix.abs_le hF (show n2 + 1 ≤ 7 * n + 30 by omega) hR.half k2
  rw [abs_of_nonneg c0, add_zero] at b0
  rw [abs_of_nonneg A0] at b1
  rw [abs_of_nonneg B0] at b2
  have k3 := Mix.mulOp hF hR.half (show 1 + (n1 + 1) + 1 ≤ 7 * n + 30 by omega) m0 k1 (by
    rw [abs_mul]
    apply Range.Ω_2n hF hR
    have : |c'| * |F.pow (F.abs za) e1| ≤ (2 * c) * 5 := mul_le_mul b0 (by linarith) (abs_nonneg _) (by positivity)
    linarith)
  have k3' := Mix.mono hF le_rfl (show _ ≤ 4 * (c + 1) * η by
    rw [abs_of_nonneg c0]; nlinarith) k3
  have b3 := Mix.abs_le hF (show 1 + (n1 + 1) + 1 ≤ 7 * n + 30 by omega) hR.half k3'
  have cA : c * ‖za‖ ^ n1 ≤ c * 2 := mul_le_mul_of_nonneg_left A2 c0
  rw [abs_of_nonneg (mul_nonneg c0 A0)] at b3
  have cη : 4 * (c + 1) * η ≤ 4 * (c + 1) * 1 := mul_le_mul_of_nonneg_left hη1 (by positivity)
  have k4 := Mix.mulOp hF hR.half (show 1 + (n1 + 1) + 1 + (n2 + 1) + 1 ≤ 7 * n + 30 by omega) k3' k2 (by
    rw [abs_mul]
    apply Range.Ω_2n hF hR
    have : |F.mul c' (F.pow (F.abs za) e1)| * |F.pow (F.abs zb) e2| ≤ (2 * (c * 2) + 4 * (c + 1)) * 5 :=
      mul_le_mul (by linarith) (by linarith) (abs_nonneg _) (by positivity)
    linarith)
  refine Mix.mono hF (by omega) ?_ k4
  rw [abs_of_nonneg (mul_nonneg c0 A0), abs_of_nonneg B0]
  have t1 : 2 * (c * ‖za‖ ^ n1) * η ≤ 4 * c * η := by nlinarith
  have t2 : 2 * ‖zb‖ ^ n2 * (4 * (c + 1) * η) ≤ 4 * (4 * (c + 1) * η) :=
    mul_le_mul_of_nonneg_right (by linarith) (by positivity)
  have t3 : 4 * (c + 1) * η * η ≤ 4 * (c + 1) * 1 * η := mul_le_mul_of_nonneg_right cη hη
  nlinarith

omit hR in
theorem Mix.neg {k : ℕ} {E x' x : ℝ} (h : Mix u k E x' x) : Mix u k E (-x') (-x) := by
  obtain ⟨y, h1, h2⟩ := h
  exact ⟨-y, h1.neg hF.u_nonneg hF.u_lt_one, by rw [← neg_sub', abs_neg]; exact h2⟩

/-- Prefactor and sum. -/
theorem float_coreI {mag d φ' φ e S c : ℝ} {k K : ℕ} {I : Finset ℕ} {P θ : ℕ → ℝ} {neg : Bool} {V : ℂ}
    (hmag : Mix u k (49 * (c + 1) * η) mag d) (c0 : 0 ≤ c) (hcn : c ≤ 2 ^ n) (hd : |d| ≤ 4 * c) (hk : k ≤ n + 5)
    (hφ : |φ' - φ| ≤ e) (hS : S = ∑ ρ ∈ I, P ρ * θ ρ) (hθ : ∀ ρ, Fac u K (θ ρ)) (hK : K ≤ 7 * n + 30)
    (hcS : c * ∑ ρ ∈ I, |P ρ| ≤ 2 * 2 ^ n) (hSn : ∑ ρ ∈ I, |P ρ| ≤ 2 * 2 ^ n)
    (hV : V = smulF F (if neg then -rectF F mag φ' else rectF F mag φ') S ∨ rectF F mag φ' = 0 ∧ V = 0) :
    ‖V - (if neg then -rect d φ else rect d φ) * ((∑ ρ ∈ I, P ρ : ℝ) : ℂ)‖
      ≤ (gam u (k + 3 + K) + e) * (|d| * ∑ ρ ∈ I, |P ρ|) + 20000 * 2 ^ n * η := by
  have hu0 := hF.u_nonneg
  have hu1 := hF.u_lt_one
  have hη := hF.η_nonneg
  have hη1 := Range.η_le_one hF hR
  have h2n : (1 : ℝ) ≤ 2 ^ n := one_le_pow₀ (by norm_num)
  set σ : ℝ := if neg then -1 else 1 with hσd
  have hσ : |σ| = 1 := by simp only [σ]; cases neg <;> simp
  set T := ∑ ρ ∈ I, |P ρ| with hT
  have T0 : 0 ≤ T := Finset.sum_nonneg fun _ _ => abs_nonneg _
  have S2 : |S| ≤ 2 * T := by
    rw [hS, hT, Finset.mul_sum]
    refine (Finset.abs_sum_le_sum_abs _ _).trans (Finset.sum_le_sum fun ρ _ => ?_)
    have f1 := fac_le_two hF hK hR.half (hθ ρ)
    have f2 := Fac.pos hu0 hu1 (hθ ρ)
    rw [abs_mul, abs_of_pos f2, mul_comm]
    exact mul_le_mul_of_nonneg_right f1 (abs_nonneg _)
  have bm := Mix.abs_le hF (show k ≤ 7 * n + 30 by omega) hR.half hmag
  have cη : (c + 1) * η ≤ (c + 1) * 1 := mul_le_mul_of_nonneg_left hη1 (by positivity)
  have cη0 : 0 ≤ (c + 1) * η := by positivity
  have dη : |d| * η ≤ 4 * c * η := mul_le_mul_of_nonneg_right hd hη
  -- one component
  have comp : ∀ (t' t v : ℝ), |t| ≤ 1 → IErr u η ν t' t →
      (v = F.mul (σ * F.mul mag t') S ∨ F.mul mag t' = 0 ∧ v = 0) →
      ∃ (ζ : ℕ → ℝ) (z : ℝ), (∀ ρ, |ζ ρ - 1| ≤ gam u (k + 3 + K)) ∧ v = σ * (d * t * ∑ ρ ∈ I, P ρ * ζ ρ) + z ∧ |z| ≤ 10000 * 2 ^ n * η := by
    intro t' t v ht hi hv
    have it := IErr.mix hF hi
    have bt := Mix.abs_le hF (show 1 ≤ 7 * n + 30 by omega) hR.half it
    have m1 := Mix.mulOp hF hR.half (show k + 1 + 1 ≤ 7 * n + 30 by omega) hmag it (by
      rw [abs_mul]
      apply Range.Ω_2n hF hR
      have : |mag| * |t'| ≤ (57 * (c + 1)) * 3 := mul_le_mul (by linarith) (by linarith) (abs_nonneg _) (by positivity)
      linarith)
    have m1' := Mix.mono hF le_rfl (show _ ≤ 311 * (c + 1) * η by
      have t1 : 2 * |t| * (49 * (c + 1) * η) ≤ 2 * 1 * (49 * (c + 1) * η) := by gcongr
      have t2 : 49 * (c + 1) * η * η ≤ 49 * (c + 1) * η * 1 := mul_le_mul_of_nonneg_left hη1 (by positivity)
      nlinarith) m1
    have m2 : Mix u (k + 1 + 1) (311 * (c + 1) * η) (σ * F.mul mag t') (σ * (d * t)) := by
      simp only [σ]
      cases neg
      · simpa using m1'
      · simpa using Mix.neg hF m1'
    have bc := Mix.abs_le hF (show k + 1 + 1 ≤ 7 * n + 30 by omega) hR.half m2
    have dt : |σ * (d * t)| ≤ 4 * c := by
      rw [abs_mul, hσ, one_mul, abs_mul]
      calc |d| * |t| ≤ |d| * 1 := mul_le_mul_of_nonneg_left ht (abs_nonneg _)
        _ ≤ _ := by linarith
    have fin : Mix u (k + 1 + 1 + 0 + 1) (10000 * 2 ^ n * η) v (σ * (d * t) * S) := by
      have e4 : |S| * (311 * (c + 1) * η) ≤ 311 * (8 * 2 ^ n) * η := by
        have : |S| * (c + 1) ≤ 8 * 2 ^ n := by
          calc |S| * (c + 1) ≤ 2 * T * (c + 1) := mul_le_mul_of_nonneg_right S2 (by positivity)
            _ = 2 * (c * T) + 2 * T := by ring
            _ ≤ _ := by linarith
        calc |S| * (311 * (c + 1) * η) = 311 * (|S| * (c + 1)) * η := by ring
          _ ≤ _ := by gcongr
      have e5 : η ≤ 2 ^ n * η := le_mul_of_one_le_left hη h2n
      rcases hv with hv | ⟨hv0, hv⟩
      · have m3 := Mix.mulOp (k := k + 1 + 1) (l := 0) hF hR.half (show k + 1 + 1 + 0 + 1 ≤ 7 * n + 30 by omega) m2 (Mix.refl hF S) (by
          rw [abs_mul]
          apply Range.Ω_2n hF hR
          have : |σ * F.mul mag t'| * |S| ≤ (319 * (c + 1)) * (2 * T) := mul_le_mul (by linarith) S2 (abs_nonneg _) (by positivity)
          have : 319 * (c + 1) * (2 * T) = 638 * (c * T) + 638 * T := by ring
          linarith)
        rw [hv]
        refine Mix.mono hF le_rfl ?_ m3
        nlinarith
      · obtain ⟨y, y1, y2⟩ := m2
        rw [hv0, mul_zero, zero_sub, abs_neg] at y2
        refine ⟨y * S, Near.mono hF.u_nonneg hF.u_lt_one (by omega) (y1.mul hu0 hu1 (Near.refl hu0 hu1 S)), ?_⟩
        rw [hv, zero_sub, abs_neg, abs_mul]
        have : |y| * |S| ≤ 311 * (c + 1) * η * |S| := mul_le_mul_of_nonneg_right y2 (abs_nonneg _)
        nlinarith
    obtain ⟨y, ⟨α, y1, y2⟩, y3⟩ := fin
    refine ⟨fun ρ => α * θ ρ, v - y, fun ρ => ?_, ?_, y3⟩
    · apply Fac.abs_sub hu0 hu1
      exact Fac.mono hu0 hu1 (by omega) (Fac.mul hu0 hu1 y2 (hθ ρ))
    · have : ∑ ρ ∈ I, P ρ * (α * θ ρ) = α * ∑ ρ ∈ I, P ρ * θ ρ := by
        rw [Finset.mul_sum]; exact Finset.sum_congr rfl fun ρ _ => by ring
      simp only
      rw [this, ← hS, y1]
      ring
  have hre : V.re = F.mul (σ * F.mul mag (F.cos φ')) S ∨ F.mul mag (F.cos φ') = 0 ∧ V.re = 0 := by
    rcases hV with h | ⟨h1, h2⟩
    · left; rw [h]; simp only [σ, smulF, rectF]; cases neg <;> simp
    · right; exact ⟨congrArg Complex.re h1, by rw [h2]; rfl⟩
  have him : V.im = F.mul (σ * F.mul mag (F.sin φ')) S ∨ F.mul mag (F.sin φ') = 0 ∧ V.im = 0 := by
    rcases hV with h | ⟨h1, h2⟩
    · left; rw [h]; simp only [σ, smulF, rectF]; cases neg <;> simp
    · right; exact ⟨congrArg Complex.im h1, by rw [h2]; rfl⟩
  obtain ⟨ζ1, z1, r1, r2, r3⟩ := comp _ _ _ (Real.abs_cos_le_one φ') (hF.cos φ') hre
  obtain ⟨ζ2, z2, s1, s2, s3⟩ := comp _ _ _ (Real.abs_sin_le_one φ') (hF.sin φ') him
  have core := float_core_gen (d := d) (σ := σ) (V := V - ⟨z1, z2⟩) hσ (gam_nonneg hu0 hu1 (k + 3 + K)) r1 s1
    (by have h : (V - ⟨z1, z2⟩ : ℂ).re = V.re - z1 := rfl
        rw [h, r2]; ring)
    (by have h : (V - ⟨z1, z2⟩ : ℂ).im = V.im - z2 := rfl
        rw [h, s2]; ring) hφ
  have h2 : (if neg then -rect d φ else rect d φ) = (σ : ℂ) * rect d φ := by
    simp only [σ]; cases neg <;> simp
  rw [h2]
  have hz : ‖(⟨z1, z2⟩ : ℂ)‖ ≤ 20000 * 2 ^ n * η := by
    refine (Complex.norm_le_abs_re_add_abs_im _).trans ?_
    simp only
    linarith
  have e : V - (σ : ℂ) * rect d φ * ((∑ ρ ∈ I, P ρ : ℝ) : ℂ)
      = (V - ⟨z1, z2⟩ - (σ : ℂ) * rect d φ * ((∑ ρ ∈ I, P ρ : ℝ) : ℂ)) + ⟨z1, z2⟩ := by ring
  rw [e]
  exact (norm_add_le _ _).trans (add_le_add core hz)

end

end SF
