import Verif.Model.SWSHIEEE
import Verif.Lemmas.IEEER
import Verif.Lemmas.RoundingZ

/-! # The harmonics with underflow and overflow: constant, phase, loop, prefactor and product -/

set_option autoImplicit false

namespace SF

open Finset ComplexConjugate

section
variable {u w η ν Ω eps : ℝ} {n : ℕ} {F : FloatOps} (hF : F.IEEE u w η ν Ω) (hR : Range u η ν Ω eps n)
include hF hR

/-- The loop of one regime. -/
theorem hornerI_loopY {za zb : ℂ} (ha2 : ‖za‖ ≤ 2) (hb2 : ‖zb‖ ≤ 2) (ha : eps < F.abs za) (hb : eps < F.abs zb) {p' q' q a : ℕ}
    (hn : p' + q' = n) (hqn : q ≤ n) (ha1 : q - q' ≤ a) (hab : a ≤ min p' q)
    (hX : ∀ j ≤ n, |(-‖zb‖ * ‖zb‖ / (‖za‖ * ‖za‖))| ^ j ≤ 2) (hx2 : |(-‖zb‖ * ‖zb‖ / (‖za‖ * ‖za‖))| ≤ 2) :
    ∃ (S : ℝ) (θ : ℕ → ℝ),
      hornerLoopF F (F.div (F.mul (-F.abs zb) (F.abs zb)) (F.mul (F.abs za) (F.abs za))) ((p' : ℤ) + 1) ((q : ℤ) + 1)
        ((q' : ℤ) - q) ((min p' q : ℕ) : ℤ) (a : ℤ) = .ok S ∧
      S = ∑ ρ ∈ Ico a (min p' q + 1),
        (∏ i ∈ Ioc a ρ, Dratio (-‖zb‖ * ‖zb‖ / (‖za‖ * ‖za‖)) ((p' : ℤ) + 1) ((q : ℤ) + 1) ((q' : ℤ) - q) i) * θ ρ ∧
      ∀ ρ, Fac u (11 * (min p' q - a)) (θ ρ) := by
  have hu0 := hF.u_nonneg
  have hu1 := hF.u_lt_one
  have he := hR.eps_pos
  have hν := Range.ν_le hF hR
  have eps2 : 0 ≤ eps ^ 2 := by positivity
  have hΩ0 : (4096 : ℝ) ≤ Ω := Range.Ω_ge hF hR le_rfl
  have half : ∀ k ≤ 30, 1 / 2 ≤ (1 - u) ^ k := fun k hk =>
    hR.half.trans (pow_le_pow_of_le_one (by linarith) (by linarith) (by omega))
  obtain ⟨la, na⟩ := absI_gt hF hR ha2 ha
  obtain ⟨lb, nb⟩ := absI_gt hF hR hb2 hb
  have Pa : 0 < ‖za‖ := by linarith
  have Pb : 0 < ‖zb‖ := by linarith
  have h9 := half 9 (by norm_num)
  -- the square of a modulus
  have sq : ∀ z : ℂ, eps / 2 ≤ ‖z‖ → ‖z‖ ≤ 2 → eps ^ 2 / 4 ≤ ‖z‖ * ‖z‖ ∧ ‖z‖ * ‖z‖ ≤ 4 := by
    intro z h1 h2
    constructor <;> nlinarith
  obtain ⟨sa1, sa2⟩ := sq za la ha2
  obtain ⟨sb1, sb2⟩ := sq zb lb hb2
  have aa := na.mul hu0 hu1 na
  have bb := (nb.neg hu0 hu1).mul hu0 hu1 nb
  have naa := ((hF.mul (F.abs za) (F.abs za) (by
      have := Near.abs_le_two hF (show 1 + 1 ≤ 9 by norm_num) h9 aa
      rw [abs_of_pos (mul_pos Pa Pa)] at this; linarith)).rel (by
      have := Near.abs_ge_half hF (show 1 + 1 ≤ 9 by norm_num) h9 aa
      rw [abs_of_pos (mul_pos Pa Pa)] at this; linarith)).fac hu0 hu1 |>.trans hu0 hu1 aa
  have absb : |-‖zb‖ * ‖zb‖| = ‖zb‖ * ‖zb‖ := by rw [neg_mul, abs_neg, abs_of_pos (mul_pos Pb Pb)]
  have nbb := ((hF.mul (-F.abs zb) (F.abs zb) (by
      have := Near.abs_le_two hF (show 1 + 1 ≤ 9 by norm_num) h9 bb
      rw [absb] at this; linarith)).rel (by
      have := Near.abs_ge_half hF (show 1 + 1 ≤ 9 by norm_num) h9 bb
      rw [absb] at this; linarith)).fac hu0 hu1 |>.trans hu0 hu1 bb
  have naa0 : F.mul (F.abs za) (F.abs za) ≠ 0 := naa.ne_zero hu0 hu1 (mul_pos Pa Pa).ne'
  have dd := nbb.div hu0 hu1 naa
  set X := -‖zb‖ * ‖zb‖ / (‖za‖ * ‖za‖) with hXdef
  have hXlo : eps ^ 2 / 16 ≤ |X| := by
    rw [hXdef, abs_div, absb, abs_of_pos (mul_pos Pa Pa), le_div_iff₀ (mul_pos Pa Pa)]
    have : 0 ≤ eps ^ 2 := by positivity
    nlinarith
  have nx := ((hF.div (F.mul (-F.abs zb) (F.abs zb)) _ naa0 (by
      have := Near.abs_le_two hF (show 1 + 1 + 1 + (1 + 1 + 1) ≤ 9 by norm_num) h9 dd
      linarith)).rel (by
      have := Near.abs_ge_half hF (show 1 + 1 + 1 + (1 + 1 + 1) ≤ 9 by norm_num) h9 dd
      linarith)).fac hu0 hu1 |>.trans hu0 hu1 dd
  set x := F.div (F.mul (-F.abs zb) (F.abs zb)) (F.mul (F.abs za) (F.abs za)) with hx
  unfold hornerLoopF
  rw [pyRangeDown_nat]
  have hlarge := hR.large
  have h2n : (1 : ℝ) ≤ 2 ^ n := one_le_pow₀ (by norm_num)
  have hn0 : (0 : ℝ) ≤ n := by positivity
  have hnn : (1 : ℝ) ≤ (n + 1) ^ 2 := one_le_pow₀ (by linarith)
  apply hornerI_core hF hR.η_le _ a (min p' q) hab (M := 2 * 2 ^ n)
  · exact hR.half.trans (pow_le_pow_of_le_one (by linarith) (by linarith) (by omega))
  · intro k h1 h2
    exact tail_sum_le hn hX (ha1.trans h1) h2
  · nlinarith
  intro ρ h1 h2
  obtain ⟨D, hD, D1, D2⟩ : ∃ D : ℕ, (ρ : ℤ) * (((q' : ℤ) - q) + (ρ : ℤ)) = (D : ℤ) ∧ 1 ≤ D ∧ D ≤ (n + 1) ^ 2 := by
    refine ⟨ρ * (q' + ρ - q), ?_, Nat.mul_pos (by omega) (by omega), ?_⟩
    · have : ((q' + ρ - q : ℕ) : ℤ) = (q' : ℤ) - q + ρ := by omega
      push_cast
      rw [this]
    · rw [pow_two]; exact Nat.mul_le_mul (by omega) (by omega)
  obtain ⟨N, hN, N1, N2⟩ : ∃ N : ℕ, (((p' : ℤ) + 1) - (ρ : ℤ)) * (((q : ℤ) + 1) - (ρ : ℤ)) = (N : ℤ) ∧
      1 ≤ N ∧ N ≤ (n + 1) ^ 2 := by
    refine ⟨(p' + 1 - ρ) * (q + 1 - ρ), ?_, Nat.mul_pos (by omega) (by omega), ?_⟩
    · have e1 : ((p' + 1 - ρ : ℕ) : ℤ) = (p' : ℤ) + 1 - ρ := by omega
      have e2 : ((q + 1 - ρ : ℕ) : ℤ) = (q : ℤ) + 1 - ρ := by omega
      push_cast
      rw [e1, e2]
    · rw [pow_two]; exact Nat.mul_le_mul (by omega) (by omega)
  have D1' : (1 : ℝ) ≤ D := by exact_mod_cast D1
  have D2' : (D : ℝ) ≤ (n + 1) ^ 2 := by exact_mod_cast D2
  have N1' : (1 : ℝ) ≤ N := by exact_mod_cast N1
  have N2' : (N : ℝ) ≤ (n + 1) ^ 2 := by exact_mod_cast N2
  have hz : (D : ℝ) ≠ 0 := by positivity
  simp only [hD, hN]
  refine ⟨F.div (F.mul x (((N : ℤ)) : ℝ)) ((D : ℤ) : ℝ), ?_, fun S => by rw [if_neg (by exact_mod_cast hz)]⟩
  rw [Int.cast_natCast, Int.cast_natCast]
  have absN : |(N : ℝ)| = N := by rw [abs_of_nonneg (by positivity)]
  have absD : |(D : ℝ)| = D := by rw [abs_of_nonneg (by positivity)]
  have X0 := abs_nonneg X
  have k1 := nx.mul hu0 hu1 (Near.refl hu0 hu1 (N : ℝ))
  have mN := ((hF.mul x (N : ℝ) (by
      have := Near.abs_le_two hF (show 1 + 1 + 1 + (1 + 1 + 1) + 1 + 0 ≤ 9 by norm_num) h9 k1
      rw [abs_mul X, absN] at this
      have t1 : |X| * N ≤ 2 * (4 * (n + 1) ^ 2) := mul_le_mul hx2 (by linarith) (by positivity) (by norm_num)
      have t3 : 4096 * ((n : ℝ) + 1) ^ 2 * 1 ≤ 4096 * (n + 1) ^ 2 * 2 ^ n := mul_le_mul_of_nonneg_left h2n (by positivity)
      linarith)).rel (by
      have := Near.abs_ge_half hF (show 1 + 1 + 1 + (1 + 1 + 1) + 1 + 0 ≤ 9 by norm_num) h9 k1
      rw [abs_mul X, absN] at this
      have s4 : eps ^ 2 / 16 * 1 ≤ |X| * N := mul_le_mul hXlo (by linarith) (by norm_num) X0
      linarith)).fac hu0 hu1 |>.trans hu0 hu1 k1
  have k2 := mN.div hu0 hu1 (Near.refl hu0 hu1 (D : ℝ))
  have mD := ((hF.div (F.mul x (N : ℝ)) _ hz (by
      have := Near.abs_le_two hF (show 1 + 1 + 1 + (1 + 1 + 1) + 1 + 0 + 1 + 0 ≤ 9 by norm_num) h9 k2
      rw [abs_div (X * _), abs_mul X, absN, absD] at this
      have t : |X| * N / D ≤ 8 * (n + 1) ^ 2 := by
        rw [div_le_iff₀ (by positivity)]
        have t1 : |X| * N ≤ 2 * (4 * (n + 1) ^ 2) := mul_le_mul hx2 (by linarith) (by positivity) (by norm_num)
        have t2 : 8 * ((n : ℝ) + 1) ^ 2 * 1 ≤ 8 * (n + 1) ^ 2 * D := mul_le_mul_of_nonneg_left (by linarith) (by positivity)
        linarith
      have t3 : 4096 * ((n : ℝ) + 1) ^ 2 * 1 ≤ 4096 * (n + 1) ^ 2 * 2 ^ n := mul_le_mul_of_nonneg_left h2n (by positivity)
      linarith)).rel (by
      have := Near.abs_ge_half hF (show 1 + 1 + 1 + (1 + 1 + 1) + 1 + 0 + 1 + 0 ≤ 9 by norm_num) h9 k2
      rw [abs_div (X * _), abs_mul X, absN, absD] at this
      have t : 2 * ν ≤ |X| * N / D := by
        rw [le_div_iff₀ (by positivity)]
        have s1 := hR.small
        have s2 := hF.ν_pos
        have s3 : 2 * ν * D ≤ 2 * (ν * (n + 1) ^ 2) := by linarith [mul_le_mul_of_nonneg_left D2' s2.le]
        have s4 : eps ^ 2 / 16 * 1 ≤ |X| * N := mul_le_mul hXlo (by linarith) (by norm_num) X0
        linarith
      linarith)).fac hu0 hu1 |>.trans hu0 hu1 k2
  have e2 : Dratio X ((p' : ℤ) + 1) ((q : ℤ) + 1) ((q' : ℤ) - q) ρ = X * (N : ℝ) / (D : ℝ) := by
    unfold Dratio
    rw [hD, hN, Int.cast_natCast, Int.cast_natCast]
  rw [e2]
  exact mD

/-- The phase. -/
theorem phase_errIY (z1 z2 : ℂ) (i j : ℤ) (hij : |i| + |j| ≤ n) :
    |F.add (F.mul (F.arg z1) (i : ℝ)) (F.mul (F.arg z2) (j : ℝ))
      - (Complex.arg z1 * (i : ℝ) + Complex.arg z2 * (j : ℝ))| ≤ gam u 3 * (Real.pi * n) + (8 * n + 5) * η := by
  have hu0 := hF.u_nonneg
  have hu1 := hF.u_lt_one
  have hη := hF.η_nonneg
  have hη1 := Range.η_le_one hF hR
  have hpi := Real.pi_lt_d2
  have hpi0 := Real.pi_pos
  have n0 : (0 : ℝ) ≤ n := Nat.cast_nonneg n
  have hij' : |(i : ℝ)| + |(j : ℝ)| ≤ n := by rw [← Int.cast_abs, ← Int.cast_abs]; exact_mod_cast hij
  have i0 := abs_nonneg (i : ℝ)
  have j0 := abs_nonneg (j : ℝ)
  have bx : ∀ (z : ℂ) (i : ℝ), |Complex.arg z * i| ≤ Real.pi * |i| := by
    intro z i
    rw [abs_mul]
    have := Complex.abs_arg_le_pi z
    have := abs_nonneg i
    gcongr
  have part : ∀ (z : ℂ) (i : ℝ), |i| ≤ n → Mix u 2 ((4 * |i| + 1) * η) (F.mul (F.arg z) i) (Complex.arg z * i) := by
    intro z i hi
    have i0 := abs_nonneg i
    have a1 := IErr.mix hF (hF.arg z)
    have b1 := Mix.abs_le hF (show 1 ≤ 7 * n + 30 by omega) hR.half a1
    have hz := Complex.abs_arg_le_pi z
    have a2 := Mix.mulOp hF hR.half (show 1 + 0 + 1 ≤ 7 * n + 30 by omega) a1 (Mix.refl hF i) (by
      rw [abs_mul]
      apply Range.Ω_n hF hR
      have : |F.arg z| * |i| ≤ 8 * n := mul_le_mul (by linarith) hi i0 (by norm_num)
      linarith)
    refine Mix.mono hF (by omega) (le_of_eq ?_) a2
    ring
  obtain ⟨x, ⟨α, a1, a2⟩, a3⟩ := part z1 i (by linarith)
  obtain ⟨y, ⟨β, b1, b2⟩, b3⟩ := part z2 j (by linarith)
  have c1 := Mix.abs_le hF (show 2 ≤ 7 * n + 30 by omega) hR.half (part z1 i (by linarith))
  have c2 := Mix.abs_le hF (show 2 ≤ 7 * n + 30 by omega) hR.half (part z2 j (by linarith))
  set X := Complex.arg z1 * (i : ℝ) with hX
  set Y := Complex.arg z2 * (j : ℝ) with hY
  set x' := F.mul (F.arg z1) (i : ℝ) with hx'
  set y' := F.mul (F.arg z2) (j : ℝ) with hy'
  have bX := bx z1 i
  have bY := bx z2 j
  have hXY : |X| + |Y| ≤ Real.pi * n := by nlinarith
  have iη : |(i : ℝ)| * η + |(j : ℝ)| * η ≤ n * η := by rw [← add_mul]; exact mul_le_mul_of_nonneg_right hij' hη
  obtain ⟨z, ⟨γ, d1, d2⟩, d3⟩ := IErr.mix hF (hF.add x' y' (by
    refine (abs_add_le _ _).trans (Range.Ω_n hF hR ?_)
    have : |(i : ℝ)| * η + |(j : ℝ)| * η ≤ n * 1 := iη.trans (mul_le_mul_of_nonneg_left hη1 n0)
    nlinarith))
  have γ2 := fac_le_two hF (show 1 ≤ 7 * n + 30 by omega) hR.half d2
  have γ0 := Fac.pos hu0 hu1 d2
  have r : F.add x' y' - (X + Y) = X * (α * γ - 1) + Y * (β * γ - 1) + (((x' - x) + (y' - y)) * γ + (F.add x' y' - z)) := by
    rw [d1, a1, b1]; ring
  rw [r]
  have g1 : |α * γ - 1| ≤ gam u 3 := Fac.abs_sub hu0 hu1 (Fac.mul hu0 hu1 a2 d2)
  have g2 : |β * γ - 1| ≤ gam u 3 := Fac.abs_sub hu0 hu1 (Fac.mul hu0 hu1 b2 d2)
  have g0 := gam_nonneg hu0 hu1 3
  refine (abs_add_le _ _).trans (add_le_add ?_ ?_)
  · calc |X * (α * γ - 1) + Y * (β * γ - 1)| ≤ |X| * |α * γ - 1| + |Y| * |β * γ - 1| := by
          rw [← abs_mul, ← abs_mul]; exact abs_add_le _ _
      _ ≤ |X| * gam u 3 + |Y| * gam u 3 := by gcongr
      _ = (|X| + |Y|) * gam u 3 := by ring
      _ ≤ (Real.pi * n) * gam u 3 := mul_le_mul_of_nonneg_right hXY g0
      _ = _ := by ring
  · refine (abs_add_le _ _).trans ?_
    rw [abs_mul, abs_of_pos γ0]
    have e1 : |x' - x + (y' - y)| ≤ (4 * |(i : ℝ)| + 1) * η + (4 * |(j : ℝ)| + 1) * η := (abs_add_le _ _).trans (add_le_add a3 b3)
    have e0 := (abs_nonneg _).trans e1
    have e2 := mul_le_mul e1 γ2 γ0.le e0
    nlinarith

end

/-- The contribution of underflows to a harmonic: `2 ell = n`. -/
noncomputable def underErrY (η : ℝ) (n : ℕ) : ℝ := 100000 * (n + 1) ^ 2 * 2 ^ n * η

theorem sqrt_fac {u θ : ℝ} {k : ℕ} (hu0 : 0 ≤ u) (hu1 : u < 1) (f : Fac u k θ) : Fac u k (Real.sqrt θ) := by
  have θ0 := Fac.pos hu0 hu1 f
  have p : 0 < (1 - u) ^ k := pow_pos (by linarith) k
  have p1 : (1 - u) ^ k ≤ 1 := pow_le_one₀ (by linarith) (by linarith)
  have f1 := f.1
  have f2 := f.2
  unfold Fac
  set X := (1 - u) ^ k
  constructor
  · apply Real.le_sqrt_of_sq_le
    nlinarith
  · have h1 : Real.sqrt θ * X ≤ Real.sqrt θ * Real.sqrt X := by
      apply mul_le_mul_of_nonneg_left _ (Real.sqrt_nonneg _)
      apply Real.le_sqrt_of_sq_le
      nlinarith
    rw [← Real.sqrt_mul θ0.le] at h1
    exact h1.trans (Real.sqrt_le_one.mpr f2)

theorem swshConst_le {ell : ℤ} {n : ℕ} (hn : 2 * ell = n) : swshConst ell ≤ n + 1 := by
  unfold swshConst
  have n0 : (0 : ℝ) ≤ n := Nat.cast_nonneg n
  have hl : ((2 * ell + 1 : ℤ) : ℝ) = n + 1 := by
    have : (2 * ell + 1 : ℤ) = ((n + 1 : ℕ) : ℤ) := by push_cast; omega
    rw [this]; push_cast; rfl
  have := Real.pi_gt_three
  rw [hl, Real.sqrt_le_left (by linarith), div_le_iff₀ (by positivity)]
  nlinarith

section
variable {u w η ν Ω eps : ℝ} {n P : ℕ} {δ ζ : ℕ → ℝ} {F : FloatOpsY} (hF : F.IEEE u w η ν Ω P δ ζ)
include hF

theorem const_nearI {m : ℕ} (hR : Range u η ν Ω eps m) {ell : ℤ} (hn : 2 * ell = n) (hnm : n ≤ m) :
    Near u 4 (swshConstF F ell) (swshConst ell) := by
  have hI := hF.toIEEE
  have hu0 := hF.u_nonneg
  have hu1 := hF.u_lt_one
  have hpi := Real.pi_gt_three
  have hpi4 := Real.pi_le_four
  have n0 : (0 : ℝ) ≤ n := Nat.cast_nonneg n
  have hnm' : (n : ℝ) ≤ m := by exact_mod_cast hnm
  have hν : ν ≤ 1 / 256 := by
    have := Range.ν_le_eps hI hR
    have := hR.eps_le
    linarith
  have half := hR.half
  have a1 := (hF.pi).fac hu0 hu1
  have a1' := (Near.refl hu0 hu1 4).mul hu0 hu1 a1
  have b1 := Near.abs_le_two hI (show 0 + 1 ≤ 7 * m + 30 by omega) half a1'
  have b1' := Near.abs_ge_half hI (show 0 + 1 ≤ 7 * m + 30 by omega) half a1'
  rw [abs_of_pos (show 0 < 4 * Real.pi by linarith)] at b1 b1'
  have a2 := ((hF.mul 4 F.pi (Range.Ω_ge hI hR (by linarith))).rel (by linarith)).fac hu0 hu1 |>.trans hu0 hu1 a1'
  have p : (0 : ℝ) < ((2 * ell + 1 : ℤ) : ℝ) := by exact_mod_cast (by omega : 0 < 2 * ell + 1)
  have hl : ((2 * ell + 1 : ℤ) : ℝ) = n + 1 := by
    have : (2 * ell + 1 : ℤ) = ((n + 1 : ℕ) : ℤ) := by push_cast; omega
    rw [this]; push_cast; rfl
  have a3' := (Near.refl hu0 hu1 ((2 * ell + 1 : ℤ) : ℝ)).div hu0 hu1 a2
  have c1 := Near.abs_le_two hI (show 0 + (1 + (0 + 1)) ≤ 7 * m + 30 by omega) half a3'
  have c2 := Near.abs_ge_half hI (show 0 + (1 + (0 + 1)) ≤ 7 * m + 30 by omega) half a3'
  have d0 : 0 < ((2 * ell + 1 : ℤ) : ℝ) / (4 * Real.pi) := by positivity
  have d1 : ((2 * ell + 1 : ℤ) : ℝ) / (4 * Real.pi) ≤ m + 1 := by
    rw [hl, div_le_iff₀ (by positivity)]; nlinarith
  have d2 : 1 / 16 ≤ ((2 * ell + 1 : ℤ) : ℝ) / (4 * Real.pi) := by
    rw [hl, le_div_iff₀ (by positivity)]; nlinarith
  rw [abs_of_pos d0] at c1 c2
  have m0 : (0 : ℝ) ≤ m := Nat.cast_nonneg m
  have a3 := ((hF.div ((2 * ell + 1 : ℤ) : ℝ) _ (a2.ne_zero hu0 hu1 (by positivity)) (Range.Ω_n hI hR (by linarith))).rel (by linarith)).fac hu0 hu1
    |>.trans hu0 hu1 a3'
  have e1 := Near.abs_le_two hI (show 1 + (0 + (1 + (0 + 1))) ≤ 7 * m + 30 by omega) half a3
  have e2 := Near.abs_ge_half hI (show 1 + (0 + (1 + (0 + 1))) ≤ 7 * m + 30 by omega) half a3
  rw [abs_of_pos d0] at e1 e2
  have pos := a3.pos hu0 hu1 d0
  rw [abs_of_pos pos] at e1 e2
  obtain ⟨θ, t1, t2⟩ := a3
  have hs : Near u 3 (Real.sqrt (F.div ((2 * ell + 1 : ℤ) : ℝ) (F.mul 4 F.pi))) (swshConst ell) :=
    ⟨Real.sqrt θ, by rw [t1, Real.sqrt_mul d0.le]; rfl, sqrt_fac hu0 hu1 (Fac.mono hu0 hu1 (by omega) t2)⟩
  have key := (hF.sqrt _ pos (by
    apply Range.Ω_n hI hR
    rw [Real.sqrt_le_left (by linarith)]
    nlinarith)).rel (by
      rw [abs_of_nonneg (Real.sqrt_nonneg _)]
      apply Real.le_sqrt_of_sq_le
      have := hF.ν_pos
      nlinarith)
  exact ((key.fac hu0 hu1).trans hu0 hu1 hs)

/-- The magnitude of the prefactor. -/
theorem mag_errIY (hR : Range u η ν Ω eps n) (hP : n ≤ P) {za zb : ℂ} (ha2 : ‖za‖ ≤ 2) (hb2 : ‖zb‖ ≤ 2) (hak : ∀ k ≤ n, ‖za‖ ^ k ≤ 2)
    (hbk : ∀ k ≤ n, ‖zb‖ ^ k ≤ 2) (ha : eps < F.abs za) (hb : eps < F.abs zb) {c' τ c : ℝ} {e1 e2 : ℤ} (hτ : |τ| = 1) (hc : RelErr u c' (τ * c))
    (c0 : 0 ≤ c) (hcn : c ≤ 2 ^ n) {n1 n2 : ℕ} (h1 : e1 = n1) (h2 : e2 = n2) (hnn : n1 + n2 ≤ n) :
    Mix u (2 * (n1 + n2) + 3) (49 * (c + 1) * η) (F.mul (F.mul c' (F.ipow (F.abs za) e1)) (F.ipow (F.abs zb) e2))
      (τ * c * ‖za‖ ^ n1 * ‖zb‖ ^ n2) := by
  have hI := hF.toIEEE
  have hu0 := hF.u_nonneg
  have hu1 := hF.u_lt_one
  have hη := hF.η_nonneg
  have hη1 := Range.η_le_one hI hR
  have h2n : (1 : ℝ) ≤ 2 ^ n := one_le_pow₀ (by norm_num)
  have pw : ∀ {z : ℂ} (_ : ‖z‖ ≤ 2) (_ : ∀ k ≤ n, ‖z‖ ^ k ≤ 2) (_ : eps < F.abs z) {m : ℕ} (_ : m ≤ n),
      Mix u (m * 1 + m) η (F.ipow (F.abs z) m) (‖z‖ ^ m) := by
    intro z hz hzk hze m hm
    obtain ⟨lz, nz⟩ := absI_gt hI hR hz hze
    have p := nz.pos hu0 hu1 (by have := hR.eps_pos; linarith)
    obtain ⟨θ, t1, t2, t3⟩ := hF.ipow (F.abs z) m (hm.trans hP) p (by
      intro k hk
      have bd := Near.abs_le_two hI (show k * 1 ≤ 7 * n + 30 by omega) hR.half (nz.pow hu0 hu1 k)
      rw [abs_of_nonneg (pow_nonneg (norm_nonneg z) k)] at bd
      have := le_abs_self (F.abs z ^ k)
      have := hzk k (hk.trans hm)
      linarith)
    exact ⟨F.abs z ^ m * θ, Near.mul_fac' hI (nz.pow hu0 hu1 m) ⟨t1, t2⟩, t3⟩
  subst h1 h2
  have k1 := pw ha2 hak ha (show n1 ≤ n by omega)
  have k2 := pw hb2 hbk hb (show n2 ≤ n by omega)
  have A0 := pow_nonneg (norm_nonneg za) n1
  have B0 := pow_nonneg (norm_nonneg zb) n2
  have A2 := hak n1 (by omega)
  have B2 := hbk n2 (by omega)
  have m0 := RelErr.mix hI hc
  have b0 := Mix.abs_le hI (show 1 ≤ 7 * n + 30 by omega) hR.half m0
  have b1 := Mix.abs_le hI (show n1 * 1 + n1 ≤ 7 * n + 30 by omega) hR.half k1
  have b2 := Mix.abs_le hI (show n2 * 1 + n2 ≤ 7 * n + 30 by omega) hR.half k2
  have aτ : |τ * c| = c := by rw [abs_mul, hτ, one_mul, abs_of_nonneg c0]
  rw [aτ, add_zero] at b0
  rw [abs_of_nonneg A0] at b1
  rw [abs_of_nonneg B0] at b2
  have k3 := Mix.mulOp hI hR.half (show 1 + (n1 * 1 + n1) + 1 ≤ 7 * n + 30 by omega) m0 k1 (by
    rw [abs_mul]
    apply Range.Ω_2n hI hR
    have : |c'| * |F.ipow (F.abs za) n1| ≤ (2 * c) * 5 := mul_le_mul b0 (by linarith) (abs_nonneg _) (by positivity)
    linarith)
  have k3' := Mix.mono hI le_rfl (show _ ≤ 4 * (c + 1) * η by
    rw [aτ]; nlinarith) k3
  have b3 := Mix.abs_le hI (show 1 + (n1 * 1 + n1) + 1 ≤ 7 * n + 30 by omega) hR.half k3'
  have cA : c * ‖za‖ ^ n1 ≤ c * 2 := mul_le_mul_of_nonneg_left A2 c0
  have acA : |τ * c * ‖za‖ ^ n1| = c * ‖za‖ ^ n1 := by rw [abs_mul, aτ, abs_of_nonneg A0]
  rw [acA] at b3
  have cη : 4 * (c + 1) * η ≤ 4 * (c + 1) * 1 := mul_le_mul_of_nonneg_left hη1 (by positivity)
  have k4 := Mix.mulOp hI hR.half (show 1 + (n1 * 1 + n1) + 1 + (n2 * 1 + n2) + 1 ≤ 7 * n + 30 by omega) k3' k2 (by
    rw [abs_mul]
    apply Range.Ω_2n hI hR
    have : |F.mul c' (F.ipow (F.abs za) n1)| * |F.ipow (F.abs zb) n2| ≤ (2 * (c * 2) + 4 * (c + 1)) * 5 :=
      mul_le_mul (by linarith) (by linarith) (abs_nonneg _) (by positivity)
    linarith)
  refine Mix.mono hI (by omega) ?_ k4
  rw [acA, abs_of_nonneg B0]
  have t1 : 2 * (c * ‖za‖ ^ n1) * η ≤ 4 * c * η := by nlinarith
  have t2 : 2 * ‖zb‖ ^ n2 * (4 * (c + 1) * η) ≤ 4 * (4 * (c + 1) * η) :=
    mul_le_mul_of_nonneg_right (by linarith) (by positivity)
  have t3 : 4 * (c + 1) * η * η ≤ 4 * (c + 1) * 1 * η := mul_le_mul_of_nonneg_right cη hη
  nlinarith

omit hF in
theorem Range.Ω_big (hR2 : Range u η ν Ω eps (n + 2)) {c : ℝ} (hc : c ≤ 100000 * (n + 1) * 2 ^ n) : c ≤ Ω := by
  have h1 : (0 : ℝ) < 2 ^ n := by positivity
  have n0 : (0 : ℝ) ≤ n := Nat.cast_nonneg n
  have := hR2.large
  push_cast at this
  rw [pow_add] at this
  have h2 : 8 * ((n : ℝ) + 1) ≤ (n + 2 + 1) ^ 2 := by nlinarith [sq_nonneg ((n : ℝ) - 1)]
  have h3 : 8 * ((n : ℝ) + 1) * 2 ^ n ≤ (n + 2 + 1) ^ 2 * 2 ^ n := mul_le_mul_of_nonneg_right h2 h1.le
  have h4 : 0 ≤ ((n : ℝ) + 1) * 2 ^ n := by positivity
  linarith

set_option maxHeartbeats 1600000 in
/-- Constant, prefactor and sum. -/
theorem float_coreIY (hR2 : Range u η ν Ω eps (n + 2)) (hR : Range u η ν Ω eps n) {mag d φ' φ e S c κ C : ℝ} {k K : ℕ} {I : Finset ℕ}
    {P' θ : ℕ → ℝ} {neg : Bool} {V : ℂ}
    (hmag : Mix u k (49 * (c + 1) * η) mag d) (c0 : 0 ≤ c) (hcn : c ≤ 2 ^ n) (hd : |d| ≤ 4 * c) (hk : k ≤ 2 * n + 3)
    (hκ : Near u 4 κ C) (hC0 : 0 ≤ C) (hCn : C ≤ n + 1)
    (hφ : |φ' - φ| ≤ e) (hS : S = ∑ ρ ∈ I, P' ρ * θ ρ) (hθ : ∀ ρ, Fac u K (θ ρ)) (hK : K ≤ 7 * n + 30)
    (hcS : c * ∑ ρ ∈ I, |P' ρ| ≤ 2 * 2 ^ n) (hSn : ∑ ρ ∈ I, |P' ρ| ≤ 2 * 2 ^ n)
    (hV : V = smulF F.toFloatOps (rsmulF F.toFloatOps κ (if neg then -rectF F.toFloatOps mag φ' else rectF F.toFloatOps mag φ')) S
      ∨ rectF F.toFloatOps mag φ' = 0 ∧ V = 0) :
    ‖V - (C : ℂ) * ((if neg then -rect d φ else rect d φ) * ((∑ ρ ∈ I, P' ρ : ℝ) : ℂ))‖
      ≤ (gam u (k + 8 + K) + e) * (C * (|d| * ∑ ρ ∈ I, |P' ρ|)) + 80000 * (n + 1) * 2 ^ n * η := by
  have hI := hF.toIEEE
  have hu0 := hF.u_nonneg
  have hu1 := hF.u_lt_one
  have hη := hF.η_nonneg
  have hη1 := Range.η_le_one hI hR
  have h2n : (1 : ℝ) ≤ 2 ^ n := one_le_pow₀ (by norm_num)
  have n0 : (0 : ℝ) ≤ n := Nat.cast_nonneg n
  set σ : ℝ := if neg then -1 else 1 with hσd
  have hσ : |σ| = 1 := by simp only [σ]; cases neg <;> simp
  set T := ∑ ρ ∈ I, |P' ρ| with hT
  have T0 : 0 ≤ T := Finset.sum_nonneg fun _ _ => abs_nonneg _
  have S2 : |S| ≤ 2 * T := by
    rw [hS, hT, Finset.mul_sum]
    refine (Finset.abs_sum_le_sum_abs _ _).trans (Finset.sum_le_sum fun ρ _ => ?_)
    have f1 := fac_le_two hI hK hR.half (hθ ρ)
    have f2 := Fac.pos hu0 hu1 (hθ ρ)
    rw [abs_mul, abs_of_pos f2, mul_comm]
    exact mul_le_mul_of_nonneg_right f1 (abs_nonneg _)
  have bm := Mix.abs_le hI (show k ≤ 7 * n + 30 by omega) hR.half hmag
  have cη : (c + 1) * η ≤ (c + 1) * 1 := mul_le_mul_of_nonneg_left hη1 (by positivity)
  have cη0 : 0 ≤ (c + 1) * η := by positivity
  have dη : |d| * η ≤ 4 * c * η := mul_le_mul_of_nonneg_right hd hη
  have bκ := Near.abs_le_two hI (show 4 ≤ 7 * n + 30 by omega) hR.half hκ
  rw [abs_of_nonneg hC0] at bκ
  have mκ : Mix u 4 0 κ C := ⟨κ, hκ, by simp⟩
  have Sc : |S| * (c + 1) ≤ 8 * 2 ^ n := by
    calc |S| * (c + 1) ≤ 2 * T * (c + 1) := mul_le_mul_of_nonneg_right S2 (by positivity)
      _ = 2 * (c * T) + 2 * T := by ring
      _ ≤ _ := by linarith
  -- one component
  have comp : ∀ (t' t v : ℝ), |t| ≤ 1 → IErr u η ν t' t →
      (v = F.mul (F.mul κ (σ * F.mul mag t')) S ∨ F.mul mag t' = 0 ∧ v = 0) →
      ∃ (ζ : ℕ → ℝ) (z : ℝ), (∀ ρ, |ζ ρ - 1| ≤ gam u (k + 8 + K)) ∧ v = σ * ((C * d) * t * ∑ ρ ∈ I, P' ρ * ζ ρ) + z ∧
        |z| ≤ 40000 * (n + 1) * 2 ^ n * η := by
    intro t' t v ht hi hv
    have it := IErr.mix hI hi
    have bt := Mix.abs_le hI (show 1 ≤ 7 * n + 30 by omega) hR.half it
    have m1 := Mix.mulOp hI hR.half (show k + 1 + 1 ≤ 7 * n + 30 by omega) hmag it (by
      rw [abs_mul]
      apply Range.Ω_2n hI hR
      have : |mag| * |t'| ≤ (57 * (c + 1)) * 3 := mul_le_mul (by linarith) (by linarith) (abs_nonneg _) (by positivity)
      linarith)
    have m1' := Mix.mono hI le_rfl (show _ ≤ 311 * (c + 1) * η by
      have t1 : 2 * |t| * (49 * (c + 1) * η) ≤ 2 * 1 * (49 * (c + 1) * η) := by gcongr
      have t2 : 49 * (c + 1) * η * η ≤ 49 * (c + 1) * η * 1 := mul_le_mul_of_nonneg_left hη1 (by positivity)
      nlinarith) m1
    have m2 : Mix u (k + 1 + 1) (311 * (c + 1) * η) (σ * F.mul mag t') (σ * (d * t)) := by
      simp only [σ]
      cases neg
      · simpa using m1'
      · simpa using Mix.neg hI m1'
    have bc := Mix.abs_le hI (show k + 1 + 1 ≤ 7 * n + 30 by omega) hR.half m2
    have dt : |σ * (d * t)| ≤ 4 * c := by
      rw [abs_mul, hσ, one_mul, abs_mul]
      calc |d| * |t| ≤ |d| * 1 := mul_le_mul_of_nonneg_left ht (abs_nonneg _)
        _ ≤ _ := by linarith
    have fin : Mix u (4 + (k + 1 + 1) + 1 + 0 + 1) (40000 * (n + 1) * 2 ^ n * η) v (C * (σ * (d * t)) * S) := by
      have e4 : |S| * (1245 * (n + 1) * (c + 1) * η) ≤ 1245 * (n + 1) * (8 * 2 ^ n) * η := by
        calc |S| * (1245 * (n + 1) * (c + 1) * η) = 1245 * (n + 1) * (|S| * (c + 1)) * η := by ring
          _ ≤ _ := by gcongr
      have e5 : η ≤ (n + 1) * 2 ^ n * η := le_mul_of_one_le_left hη (by nlinarith)
      rcases hv with hv | ⟨hv0, hv⟩
      · have pr : |κ| * |σ * F.mul mag t'| ≤ (2 * (n + 1)) * (319 * (c + 1)) :=
          mul_le_mul (by linarith) (by linarith) (abs_nonneg _) (by positivity)
        have pc : (2 * ((n : ℝ) + 1)) * (319 * (c + 1)) ≤ 1276 * (n + 1) * 2 ^ n := by
          have : (c + 1) ≤ 2 * 2 ^ n := by linarith
          calc (2 * ((n : ℝ) + 1)) * (319 * (c + 1)) = 638 * (n + 1) * (c + 1) := by ring
            _ ≤ 638 * (n + 1) * (2 * 2 ^ n) := by gcongr
            _ = _ := by ring
        have m3 := Mix.mulOp hI hR.half (show 4 + (k + 1 + 1) + 1 ≤ 7 * n + 30 by omega) mκ m2 (by
          rw [abs_mul]
          refine Range.Ω_big hR2 ((pr.trans pc).trans ?_)
          have : (0 : ℝ) ≤ (n + 1) * 2 ^ n := by positivity
          nlinarith)
        have m3' := Mix.mono hI le_rfl (show _ ≤ 1245 * (n + 1) * (c + 1) * η by
          rw [abs_of_nonneg hC0]
          have t1 : C * ((c + 1) * η) ≤ (n + 1) * ((c + 1) * η) := mul_le_mul_of_nonneg_right hCn cη0
          have t2 : η ≤ (n + 1) * ((c + 1) * η) := by
            rw [← mul_assoc]; exact le_mul_of_one_le_left hη (by nlinarith)
          nlinarith) m3
        have b4 := Mix.abs_le hI (show 4 + (k + 1 + 1) + 1 ≤ 7 * n + 30 by omega) hR.half m3'
        have bC : |C * (σ * (d * t))| ≤ (n + 1) * (4 * c) := by
          rw [abs_mul, abs_of_nonneg hC0]
          exact mul_le_mul hCn dt (abs_nonneg _) (by positivity)
        have b5 : |F.mul κ (σ * F.mul mag t')| ≤ 1253 * (n + 1) * (c + 1) := by
          have : 1245 * ((n : ℝ) + 1) * ((c + 1) * η) ≤ 1245 * (n + 1) * ((c + 1) * 1) := by gcongr
          nlinarith
        have m4 := Mix.mulOp (l := 0) hI hR.half (show 4 + (k + 1 + 1) + 1 + 0 + 1 ≤ 7 * n + 30 by omega) m3' (Mix.refl hI S) (by
          rw [abs_mul]
          apply Range.Ω_big hR2
          calc |F.mul κ (σ * F.mul mag t')| * |S| ≤ (1253 * (n + 1) * (c + 1)) * |S| := mul_le_mul_of_nonneg_right b5 (abs_nonneg _)
            _ = 1253 * (n + 1) * (|S| * (c + 1)) := by ring
            _ ≤ 1253 * (n + 1) * (8 * 2 ^ n) := by gcongr
            _ = 10024 * ((n + 1) * 2 ^ n) := by ring
            _ ≤ 100000 * ((n + 1) * 2 ^ n) := by gcongr; norm_num
            _ = _ := by ring)
        rw [hv]
        refine Mix.mono hI le_rfl ?_ m4
        have : 0 ≤ ((n : ℝ) + 1) * 2 ^ n * η := by positivity
        rw [mul_zero, mul_zero, add_zero, zero_add]
        nlinarith
      · obtain ⟨y, y1, y2⟩ := m2
        rw [hv0, mul_zero, zero_sub, abs_neg] at y2
        refine ⟨C * y * S, Near.mono hF.u_nonneg hF.u_lt_one (by omega)
          (((Near.refl hu0 hu1 C).mul hu0 hu1 y1).mul hu0 hu1 (Near.refl hu0 hu1 S)), ?_⟩
        rw [hv, zero_sub, abs_neg, abs_mul, abs_mul, abs_of_nonneg hC0]
        calc C * |y| * |S| ≤ (n + 1) * (311 * (c + 1) * η) * |S| := by gcongr
          _ = 311 * (n + 1) * (|S| * (c + 1)) * η := by ring
          _ ≤ 311 * (n + 1) * (8 * 2 ^ n) * η := by gcongr
          _ = 2488 * ((n + 1) * 2 ^ n * η) := by ring
          _ ≤ 40000 * ((n + 1) * 2 ^ n * η) := by gcongr; norm_num
          _ = _ := by ring
    obtain ⟨y, ⟨α, y1, y2⟩, y3⟩ := fin
    refine ⟨fun ρ => α * θ ρ, v - y, fun ρ => ?_, ?_, y3⟩
    · apply Fac.abs_sub hu0 hu1
      exact Fac.mono hu0 hu1 (by omega) (Fac.mul hu0 hu1 y2 (hθ ρ))
    · have : ∑ ρ ∈ I, P' ρ * (α * θ ρ) = α * ∑ ρ ∈ I, P' ρ * θ ρ := by
        rw [Finset.mul_sum]; exact Finset.sum_congr rfl fun ρ _ => by ring
      simp only
      rw [this, ← hS, y1]
      ring
  have hre : V.re = F.mul (F.mul κ (σ * F.mul mag (F.cos φ'))) S ∨ F.mul mag (F.cos φ') = 0 ∧ V.re = 0 := by
    rcases hV with h | ⟨h1, h2⟩
    · left; rw [h]; simp only [σ, smulF, rsmulF, rectF]; cases neg <;> simp
    · right; exact ⟨congrArg Complex.re h1, by rw [h2]; rfl⟩
  have him : V.im = F.mul (F.mul κ (σ * F.mul mag (F.sin φ'))) S ∨ F.mul mag (F.sin φ') = 0 ∧ V.im = 0 := by
    rcases hV with h | ⟨h1, h2⟩
    · left; rw [h]; simp only [σ, smulF, rsmulF, rectF]; cases neg <;> simp
    · right; exact ⟨congrArg Complex.im h1, by rw [h2]; rfl⟩
  obtain ⟨ζ1, z1, r1, r2, r3⟩ := comp _ _ _ (Real.abs_cos_le_one φ') (hF.cos φ') hre
  obtain ⟨ζ2, z2, s1, s2, s3⟩ := comp _ _ _ (Real.abs_sin_le_one φ') (hF.sin φ') him
  have core := float_core_gen (d := C * d) (σ := σ) (V := V - ⟨z1, z2⟩) hσ (gam_nonneg hu0 hu1 (k + 8 + K)) r1 s1
    (by have h : (V - ⟨z1, z2⟩ : ℂ).re = V.re - z1 := rfl
        rw [h, r2]; ring)
    (by have h : (V - ⟨z1, z2⟩ : ℂ).im = V.im - z2 := rfl
        rw [h, s2]; ring) hφ
  have h2 : (C : ℂ) * ((if neg then -rect d φ else rect d φ) * ((∑ ρ ∈ I, P' ρ : ℝ) : ℂ))
      = (σ : ℂ) * rect (C * d) φ * ((∑ ρ ∈ I, P' ρ : ℝ) : ℂ) := by
    simp only [σ, rect]; cases neg <;> simp <;> ring
  rw [h2]
  have hz : ‖(⟨z1, z2⟩ : ℂ)‖ ≤ 80000 * (n + 1) * 2 ^ n * η := by
    refine (Complex.norm_le_abs_re_add_abs_im _).trans ?_
    simp only
    linarith
  have e : V - (σ : ℂ) * rect (C * d) φ * ((∑ ρ ∈ I, P' ρ : ℝ) : ℂ)
      = (V - ⟨z1, z2⟩ - (σ : ℂ) * rect (C * d) φ * ((∑ ρ ∈ I, P' ρ : ℝ) : ℂ)) + ⟨z1, z2⟩ := by ring
  rw [e]
  rw [abs_mul, abs_of_nonneg hC0, mul_assoc C] at core
  exact (norm_add_le _ _).trans (add_le_add core hz)

end

/-- Assembly of the bounds. -/
theorem assembleY {u η e1 e2 G B c T C : ℝ} {n : ℕ} (hη : 0 ≤ η) (h1 : G + e1 ≤ floatErrY u n) (h0 : 0 ≤ floatErrY u n)
    (e2η : e2 = (8 * n + 5) * η) (hC0 : 0 ≤ C) (hCn : C ≤ n + 1)
    {d : ℝ} (hd0 : 0 ≤ d) (hd : d ≤ 4 * c) (T0 : 0 ≤ T) (hcT : c * T ≤ 2 * 2 ^ n) (hB : d * T ≤ B) :
    (G + (e1 + e2)) * (C * (d * T)) + 80000 * (n + 1) * 2 ^ n * η ≤ floatErrY u n * (C * B) + underErrY η n := by
  have n0 : (0 : ℝ) ≤ n := Nat.cast_nonneg n
  have dT : 0 ≤ d * T := mul_nonneg hd0 T0
  have k1 : (G + e1) * (C * (d * T)) ≤ floatErrY u n * (C * B) :=
    mul_le_mul h1 (mul_le_mul_of_nonneg_left hB hC0) (mul_nonneg hC0 dT) h0
  have k2 : d * T ≤ 8 * 2 ^ n := by nlinarith
  have k2' : C * (d * T) ≤ (n + 1) * (8 * 2 ^ n) := mul_le_mul hCn k2 dT (by positivity)
  have k3 : e2 * (C * (d * T)) ≤ (8 * n + 5) * η * ((n + 1) * (8 * 2 ^ n)) := by
    rw [e2η]; exact mul_le_mul_of_nonneg_left k2' (by positivity)
  have P0 : (0 : ℝ) ≤ 2 ^ n * η := by positivity
  have k4 : (0 : ℝ) ≤ n * (2 ^ n * η) := by positivity
  have k5 : (0 : ℝ) ≤ n * (n * (2 ^ n * η)) := by positivity
  unfold underErrY
  have e1' : (8 * (n : ℝ) + 5) * η * ((n + 1) * (8 * 2 ^ n)) = 64 * (n * (n * (2 ^ n * η))) + 104 * (n * (2 ^ n * η)) + 40 * (2 ^ n * η) := by ring
  have e2' : 100000 * ((n : ℝ) + 1) ^ 2 * 2 ^ n * η = 100000 * (n * (n * (2 ^ n * η))) + 200000 * (n * (2 ^ n * η)) + 100000 * (2 ^ n * η) := by ring
  have e3' : 80000 * ((n : ℝ) + 1) * 2 ^ n * η = 80000 * (n * (2 ^ n * η)) + 80000 * (2 ^ n * η) := by ring
  rw [e2', e3']
  rw [e1'] at k3
  have : (G + (e1 + e2)) * (C * (d * T)) = (G + e1) * (C * (d * T)) + e2 * (C * (d * T)) := by ring
  rw [this]
  linarith

end SF
