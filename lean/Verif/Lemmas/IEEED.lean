import Verif.Lemmas.IEEE
import Mathlib.Data.Nat.Choose.Vandermonde

/-! # The D kernel with underflow and overflow: sizes of the intermediate results -/

set_option autoImplicit false

namespace SF

open Finset ComplexConjugate

theorem Dratio_prod_abs (x : ℝ) (N1 N2 M : ℤ) (k ρ : ℕ) :
    |∏ i ∈ Ioc k ρ, Dratio x N1 N2 M i| = |x| ^ (ρ - k) * |∏ i ∈ Ioc k ρ, Dratio (-1) N1 N2 M i| := by
  have e : ∀ i, Dratio x N1 N2 M i = -x * Dratio (-1) N1 N2 M i := by
    intro i; unfold Dratio; ring
  simp only [e]
  rw [Finset.prod_mul_distrib, Finset.prod_const, Nat.card_Ioc, abs_mul, abs_pow, abs_neg]

/-- The number of terms of given index. -/
def Tcount (p' q' q ρ : ℕ) : ℕ := p'.choose ρ * q'.choose (q - ρ)

theorem Tcount_succ {p' q' q ρ : ℕ} (h1 : q - q' ≤ ρ) (h2 : ρ < min p' q) :
    (Tcount p' q' q (ρ + 1) : ℝ) = Tcount p' q' q ρ * |Dratio (-1) ((p' : ℤ) + 1) ((q : ℤ) + 1) ((q' : ℤ) - q) (ρ + 1)| := by
  have hT : ∀ ρ, ‖Dterm 1 1 p' q' q ρ‖ = Tcount p' q' q ρ := by
    intro ρ
    simp [Dterm, Tcount]
  have := Dterm_succ (za := 1) (zb := 1) one_ne_zero (p' := p') (q' := q') (q := q) (ρ := ρ) (by omega) (by omega) (by omega)
  rw [← hT, ← hT, this, norm_mul, Complex.norm_real, Real.norm_eq_abs]
  congr 2
  unfold Dratio
  rw [norm_one]
  push_cast
  ring

theorem Tcount_prod {p' q' q k : ℕ} (h1 : q - q' ≤ k) (n : ℕ) (h2 : k + n ≤ min p' q) :
    (Tcount p' q' q (k + n) : ℝ)
      = Tcount p' q' q k * |∏ i ∈ Ioc k (k + n), Dratio (-1) ((p' : ℤ) + 1) ((q : ℤ) + 1) ((q' : ℤ) - q) i| := by
  induction n with
  | zero => simp
  | succ n ih =>
    rw [← add_assoc, Tcount_succ (by omega) (by omega), ih (by omega), Finset.prod_Ioc_succ_top (by omega), abs_mul]
    ring

theorem Tcount_pos {p' q' q ρ : ℕ} (h1 : q - q' ≤ ρ) (h2 : ρ ≤ min p' q) : 1 ≤ Tcount p' q' q ρ :=
  Nat.mul_pos (Nat.choose_pos (by omega)) (Nat.choose_pos (by omega))

theorem Tcount_sum (p' q' q a : ℕ) : ∑ ρ ∈ Ico a (min p' q + 1), Tcount p' q' q ρ ≤ 2 ^ (p' + q') := by
  calc ∑ ρ ∈ Ico a (min p' q + 1), Tcount p' q' q ρ ≤ ∑ ρ ∈ range (q + 1), Tcount p' q' q ρ := by
        apply Finset.sum_le_sum_of_subset
        intro ρ h
        rw [mem_Ico] at h
        rw [mem_range]; omega
    _ = (p' + q').choose q := by
        rw [Nat.add_choose_eq, Finset.Nat.sum_antidiagonal_eq_sum_range_succ (fun i j => p'.choose i * q'.choose j)]
        rfl
    _ ≤ 2 ^ (p' + q') := Nat.choose_le_two_pow _ _

/-- The tails of the Horner sum are bounded. -/
theorem tail_sum_le {p' q' q k n : ℕ} {x X : ℝ} (hn : p' + q' = n) (hX : ∀ j ≤ n, |x| ^ j ≤ X) (h1 : q - q' ≤ k) (h2 : k ≤ min p' q) :
    ∑ ρ ∈ Ico k (min p' q + 1), |∏ i ∈ Ioc k ρ, Dratio x ((p' : ℤ) + 1) ((q : ℤ) + 1) ((q' : ℤ) - q) i| ≤ X * 2 ^ n := by
  have X0 : 0 ≤ X := by have := hX 0 (by omega); rw [pow_zero] at this; linarith
  have hs : ((∑ ρ ∈ Ico k (min p' q + 1), Tcount p' q' q ρ : ℕ) : ℝ) ≤ 2 ^ n := by
    rw [← hn]; exact_mod_cast Tcount_sum p' q' q k
  refine le_trans ?_ (mul_le_mul_of_nonneg_left hs X0)
  rw [Nat.cast_sum, Finset.mul_sum]
  apply Finset.sum_le_sum
  intro ρ hρ
  rw [mem_Ico] at hρ
  rw [Dratio_prod_abs]
  have t := Tcount_prod (p' := p') (q' := q') (q := q) h1 (ρ - k) (by omega)
  rw [show k + (ρ - k) = ρ by omega] at t
  have t1 : (1 : ℝ) ≤ Tcount p' q' q k := by exact_mod_cast Tcount_pos h1 h2
  apply mul_le_mul (hX _ (by omega)) _ (abs_nonneg _) X0
  rw [t]
  exact le_mul_of_one_le_left (abs_nonneg _) t1

/-- The coefficient times the Horner sum is bounded. -/
theorem coef_sum_le {p' q' p q n : ℕ} (hsum : p' + q' = p + q) {x X : ℝ} (hn : p' + q' = n) (hX : ∀ j ≤ n, |x| ^ j ≤ X) :
    Wcoef p' q' p q * ∑ ρ ∈ Ico (p' - p) (min p' q + 1), |∏ i ∈ Ioc (p' - p) ρ, Dratio x ((p' : ℤ) + 1) ((q : ℤ) + 1) ((q' : ℤ) - q) i|
      ≤ X * 2 ^ n := by
  have h := prefactor_sum_le (za := 1) (zb := 1) one_ne_zero hsum
  have X0 : 0 ≤ X := by have := hX 0 (by omega); rw [pow_zero] at this; linarith
  have w0 : 0 ≤ Wcoef p' q' p q := by unfold Wcoef; positivity
  rw [norm_one, one_pow, one_pow, mul_one, mul_one, hn, show (1 : ℝ) + 1 = 2 by norm_num,
    show (-1 * 1 / (1 * 1) : ℝ) = -1 by norm_num] at h
  refine le_trans ?_ (mul_le_mul_of_nonneg_left h X0)
  rw [mul_left_comm]
  apply mul_le_mul_of_nonneg_left _ w0
  rw [Finset.mul_sum]
  apply Finset.sum_le_sum
  intro ρ hρ
  rw [mem_Ico] at hρ
  rw [Dratio_prod_abs]
  exact mul_le_mul_of_nonneg_right (hX _ (by omega)) (abs_nonneg _)

theorem coef_le {p' q' p q n : ℕ} (hsum : p' + q' = p + q) (hn : p' + q' = n) : Wcoef p' q' p q ≤ 2 ^ n := by
  have h := coef_sum_le hsum (x := -1) (X := 1) hn (fun j _ => by simp)
  have w0 : 0 ≤ Wcoef p' q' p q := by unfold Wcoef; positivity
  rw [one_mul] at h
  refine le_trans ?_ h
  apply le_mul_of_one_le_right w0
  have := Finset.single_le_sum (f := fun ρ => |∏ i ∈ Ioc (p' - p) ρ, Dratio (-1) ((p' : ℤ) + 1) ((q : ℤ) + 1) ((q' : ℤ) - q) i|)
    (s := Ico (p' - p) (min p' q + 1)) (fun _ _ => abs_nonneg _) (mem_Ico.mpr ⟨le_rfl, by omega⟩ : p' - p ∈ _)
  simpa using this

/-- The range of the floating-point numbers is large enough for degree `n = 2 ell` and cut-off `eps`. -/
structure Range (u η ν Ω eps : ℝ) (n : ℕ) : Prop where
  half : 1 / 2 ≤ (1 - u) ^ (7 * n + 30)
  η_le : 2 * η ≤ u
  η_eps : η ≤ eps / 2
  eps_pos : 0 < eps
  eps_le : eps ≤ 1
  small : ν * (256 * (n + 1) ^ 2) ≤ eps ^ 2
  large : 4096 * (n + 1) ^ 2 * 2 ^ n ≤ Ω

section
variable {u w η ν Ω eps : ℝ} {n : ℕ} {F : FloatOps} (hF : F.IEEE u w η ν Ω) (hR : Range u η ν Ω eps n)
include hF hR

theorem Range.Ω_ge {c : ℝ} (hc : c ≤ 4096) : c ≤ Ω := by
  have h1 : (1 : ℝ) ≤ 2 ^ n := one_le_pow₀ (by norm_num)
  have h2 : (1 : ℝ) ≤ (n + 1) ^ 2 := one_le_pow₀ (by have : (0 : ℝ) ≤ n := (Nat.cast_nonneg n); linarith)
  have := hR.large
  have : (1 : ℝ) ≤ (n + 1) ^ 2 * 2 ^ n := by nlinarith
  nlinarith

theorem Range.ν_le : ν ≤ eps ^ 2 / 256 := by
  have h2 : (1 : ℝ) ≤ (n + 1) ^ 2 := one_le_pow₀ (by have : (0 : ℝ) ≤ n := (Nat.cast_nonneg n); linarith)
  have := hR.small
  have := hF.ν_pos
  nlinarith

theorem Range.ν_le_eps : ν ≤ eps / 256 := by
  have := Range.ν_le hF hR
  have := hR.eps_pos
  have := hR.eps_le
  nlinarith

theorem Range.η_le_one : η ≤ 1 := by
  have := hR.η_le
  have := hF.u_lt_one
  have := hF.u_nonneg
  linarith

/-- A computed modulus above the cut-off. -/
theorem absI_gt {z : ℂ} (hz : ‖z‖ ≤ 2) (h : eps < F.abs z) : eps / 2 ≤ ‖z‖ ∧ Near u 1 (F.abs z) ‖z‖ := by
  have he := hR.eps_pos
  have e := hF.abs z (Range.Ω_ge hF hR (by linarith))
  rcases e with e | ⟨e1, e2⟩
  · have n1 := e.fac hF.u_nonneg hF.u_lt_one
    refine ⟨?_, n1⟩
    have := Near.abs_le_two hF (show 1 ≤ 7 * n + 30 by omega) hR.half n1
    rw [abs_of_nonneg (norm_nonneg z)] at this
    have := le_abs_self (F.abs z)
    linarith
  · exfalso
    rw [abs_of_nonneg (norm_nonneg z)] at e1
    have := (abs_le.mp e2).2
    have := hR.η_eps
    have := Range.ν_le_eps hF hR
    linarith

/-- The loop of one regime. -/
theorem hornerI_loop {za zb : ℂ} (ha2 : ‖za‖ ≤ 2) (hb2 : ‖zb‖ ≤ 2) (ha : eps < F.abs za) (hb : eps < F.abs zb) {p' q' q a : ℕ}
    (hn : p' + q' = n) (hqn : q ≤ n) (ha1 : q - q' ≤ a) (hab : a ≤ min p' q)
    (hX : ∀ j ≤ n, |(-‖zb‖ * ‖zb‖ / (‖za‖ * ‖za‖))| ^ j ≤ 2) (hx2 : |(-‖zb‖ * ‖zb‖ / (‖za‖ * ‖za‖))| ≤ 2) :
    ∃ (S : ℝ) (θ : ℕ → ℝ),
      hornerLoop2F F (F.div (F.mul (-F.abs zb) (F.abs zb)) (F.mul (F.abs za) (F.abs za))) (2 * ((p' : ℤ) + 1)) (2 * ((q : ℤ) + 1))
        (2 * ((q' : ℤ) - q)) (2 * ((min p' q : ℕ) : ℤ)) (2 * (a : ℤ)) = .ok S ∧
      S = ∑ ρ ∈ Ico a (min p' q + 1),
        (∏ i ∈ Ioc a ρ, Dratio (-‖zb‖ * ‖zb‖ / (‖za‖ * ‖za‖)) ((p' : ℤ) + 1) ((q : ℤ) + 1) ((q' : ℤ) - q) i) * θ ρ ∧
      ∀ ρ, Fac u (11 * (min p' q - a)) (θ ρ) := by
  have hu0 := hF.u_nonneg
  have hu1 := hF.u_lt_one
  have he := hR.eps_pos
  have hν := Range.ν_le hF hR
  have eps2 : 0 ≤ eps ^ 2 := by positivity
  have hΩ0 : (4096 : ℝ) ≤ Ω := Range.Ω_ge hF hR le_rfl
  have half : ∀ k ≤ 30, 1 / 2 ≤ (1 - u) ^ k := fun k hk =>
    hR.half.trans (pow_le_pow_of_le_one (by linarith) (by linarith) (by omega))
  obtain ⟨la, na⟩ := absI_gt hF hR ha2 ha
  obtain ⟨lb, nb⟩ := absI_gt hF hR hb2 hb
  have Pa : 0 < ‖za‖ := by linarith
  have Pb : 0 < ‖zb‖ := by linarith
  have h9 := half 9 (by norm_num)
  -- the square of a modulus
  have sq : ∀ z : ℂ, eps / 2 ≤ ‖z‖ → ‖z‖ ≤ 2 → eps ^ 2 / 4 ≤ ‖z‖ * ‖z‖ ∧ ‖z‖ * ‖z‖ ≤ 4 := by
    intro z h1 h2
    constructor <;> nlinarith
  obtain ⟨sa1, sa2⟩ := sq za la ha2
  obtain ⟨sb1, sb2⟩ := sq zb lb hb2
  have aa := na.mul hu0 hu1 na
  have bb := (nb.neg hu0 hu1).mul hu0 hu1 nb
  have naa := ((hF.mul (F.abs za) (F.abs za) (by
      have := Near.abs_le_two hF (show 1 + 1 ≤ 9 by norm_num) h9 aa
      rw [abs_of_pos (mul_pos Pa Pa)] at this; linarith)).rel (by
      have := Near.abs_ge_half hF (show 1 + 1 ≤ 9 by norm_num) h9 aa
      rw [abs_of_pos (mul_pos Pa Pa)] at this; linarith)).fac hu0 hu1 |>.trans hu0 hu1 aa
  have absb : |-‖zb‖ * ‖zb‖| = ‖zb‖ * ‖zb‖ := by rw [neg_mul, abs_neg, abs_of_pos (mul_pos Pb Pb)]
  have nbb := ((hF.mul (-F.abs zb) (F.abs zb) (by
      have := Near.abs_le_two hF (show 1 + 1 ≤ 9 by norm_num) h9 bb
      rw [absb] at this; linarith)).rel (by
      have := Near.abs_ge_half hF (show 1 + 1 ≤ 9 by norm_num) h9 bb
      rw [absb] at this; linarith)).fac hu0 hu1 |>.trans hu0 hu1 bb
  have naa0 : F.mul (F.abs za) (F.abs za) ≠ 0 := naa.ne_zero hu0 hu1 (mul_pos Pa Pa).ne'
  have dd := nbb.div hu0 hu1 naa
  set X := -‖zb‖ * ‖zb‖ / (‖za‖ * ‖za‖) with hXdef
  have hXlo : eps ^ 2 / 16 ≤ |X| := by
    rw [hXdef, abs_div, absb, abs_of_pos (mul_pos Pa Pa), le_div_iff₀ (mul_pos Pa Pa)]
    have : 0 ≤ eps ^ 2 := by positivity
    nlinarith
  have nx := ((hF.div (F.mul (-F.abs zb) (F.abs zb)) _ naa0 (by
      have := Near.abs_le_two hF (show 1 + 1 + 1 + (1 + 1 + 1) ≤ 9 by norm_num) h9 dd
      linarith)).rel (by
      have := Near.abs_ge_half hF (show 1 + 1 + 1 + (1 + 1 + 1) ≤ 9 by norm_num) h9 dd
      linarith)).fac hu0 hu1 |>.trans hu0 hu1 dd
  set x := F.div (F.mul (-F.abs zb) (F.abs zb)) (F.mul (F.abs za) (F.abs za)) with hx
  unfold hornerLoop2F
  rw [pyRangeDown2_nat]
  have e : (List.range (min p' q - a)).map (fun k : ℕ => 2 * (((min p' q : ℕ) : ℤ) - k))
      = ((List.range (min p' q - a)).map (fun k : ℕ => ((min p' q : ℕ) : ℤ) - k)).map (fun ρ => 2 * ρ) := by
    rw [List.map_map]; rfl
  rw [e, forL_map]
  have hlarge := hR.large
  have h2n : (1 : ℝ) ≤ 2 ^ n := one_le_pow₀ (by norm_num)
  have hn0 : (0 : ℝ) ≤ n := by positivity
  have hnn : (1 : ℝ) ≤ (n + 1) ^ 2 := one_le_pow₀ (by linarith)
  apply hornerI_core hF hR.η_le _ a (min p' q) hab (M := 2 * 2 ^ n)
  · exact hR.half.trans (pow_le_pow_of_le_one (by linarith) (by linarith) (by omega))
  · intro k h1 h2
    exact tail_sum_le hn hX (ha1.trans h1) h2
  · nlinarith
  intro ρ h1 h2
  obtain ⟨D, hD, D1, D2⟩ : ∃ D : ℕ, (2 * (ρ : ℤ)) * (2 * ((q' : ℤ) - q) + 2 * (ρ : ℤ)) = ((4 * D : ℕ) : ℤ) ∧ 1 ≤ D ∧ D ≤ (n + 1) ^ 2 := by
    refine ⟨ρ * (q' + ρ - q), ?_, Nat.mul_pos (by omega) (by omega), ?_⟩
    · have : ((q' + ρ - q : ℕ) : ℤ) = (q' : ℤ) - q + ρ := by omega
      push_cast
      rw [this]; ring
    · rw [pow_two]; exact Nat.mul_le_mul (by omega) (by omega)
  obtain ⟨N, hN, N1, N2⟩ : ∃ N : ℕ, (2 * ((p' : ℤ) + 1) - 2 * (ρ : ℤ)) * (2 * ((q : ℤ) + 1) - 2 * (ρ : ℤ)) = ((4 * N : ℕ) : ℤ) ∧
      1 ≤ N ∧ N ≤ (n + 1) ^ 2 := by
    refine ⟨(p' + 1 - ρ) * (q + 1 - ρ), ?_, Nat.mul_pos (by omega) (by omega), ?_⟩
    · have e1 : ((p' + 1 - ρ : ℕ) : ℤ) = (p' : ℤ) + 1 - ρ := by omega
      have e2 : ((q + 1 - ρ : ℕ) : ℤ) = (q : ℤ) + 1 - ρ := by omega
      push_cast
      rw [e1, e2]; ring
    · rw [pow_two]; exact Nat.mul_le_mul (by omega) (by omega)
  have D1' : (1 : ℝ) ≤ D := by exact_mod_cast D1
  have D2' : (D : ℝ) ≤ (n + 1) ^ 2 := by exact_mod_cast D2
  have N1' : (1 : ℝ) ≤ N := by exact_mod_cast N1
  have N2' : (N : ℝ) ≤ (n + 1) ^ 2 := by exact_mod_cast N2
  have hz : ((4 * D : ℕ) : ℝ) ≠ 0 := by push_cast; positivity
  simp only [hD, hN]
  refine ⟨F.div (F.mul x ((((4 * N : ℕ) : ℤ)) : ℝ)) (((4 * D : ℕ) : ℤ) : ℝ), ?_, fun S => by rw [if_neg (by exact_mod_cast hz)]⟩
  rw [Int.cast_natCast, Int.cast_natCast]
  have absN : |((4 * N : ℕ) : ℝ)| = 4 * N := by rw [abs_of_nonneg (by positivity)]; push_cast; ring
  have absD : |((4 * D : ℕ) : ℝ)| = 4 * D := by rw [abs_of_nonneg (by positivity)]; push_cast; ring
  have X0 := abs_nonneg X
  have k1 := nx.mul hu0 hu1 (Near.refl hu0 hu1 ((4 * N : ℕ) : ℝ))
  have mN := ((hF.mul x ((4 * N : ℕ) : ℝ) (by
      have := Near.abs_le_two hF (show 1 + 1 + 1 + (1 + 1 + 1) + 1 + 0 ≤ 9 by norm_num) h9 k1
      rw [abs_mul X, absN] at this
      have t1 : |X| * (4 * N) ≤ 2 * (4 * (n + 1) ^ 2) := mul_le_mul hx2 (by linarith) (by positivity) (by norm_num)
      have t3 : 4096 * ((n : ℝ) + 1) ^ 2 * 1 ≤ 4096 * (n + 1) ^ 2 * 2 ^ n := mul_le_mul_of_nonneg_left h2n (by positivity)
      linarith)).rel (by
      have := Near.abs_ge_half hF (show 1 + 1 + 1 + (1 + 1 + 1) + 1 + 0 ≤ 9 by norm_num) h9 k1
      rw [abs_mul X, absN] at this
      have s4 : eps ^ 2 / 16 * 4 ≤ |X| * (4 * N) := mul_le_mul hXlo (by linarith) (by norm_num) X0
      linarith)).fac hu0 hu1 |>.trans hu0 hu1 k1
  have k2 := mN.div hu0 hu1 (Near.refl hu0 hu1 ((4 * D : ℕ) : ℝ))
  have mD := ((hF.div (F.mul x ((4 * N : ℕ) : ℝ)) _ hz (by
      have := Near.abs_le_two hF (show 1 + 1 + 1 + (1 + 1 + 1) + 1 + 0 + 1 + 0 ≤ 9 by norm_num) h9 k2
      rw [abs_div (X * _), abs_mul X, absN, absD] at this
      have t : |X| * (4 * N) / (4 * D) ≤ 8 * (n + 1) ^ 2 := by
        rw [div_le_iff₀ (by positivity)]
        have t1 : |X| * (4 * N) ≤ 2 * (4 * (n + 1) ^ 2) := mul_le_mul hx2 (by linarith) (by positivity) (by norm_num)
        have t2 : 8 * ((n : ℝ) + 1) ^ 2 * 1 ≤ 8 * (n + 1) ^ 2 * (4 * D) := mul_le_mul_of_nonneg_left (by linarith) (by positivity)
        linarith
      have t3 : 4096 * ((n : ℝ) + 1) ^ 2 * 1 ≤ 4096 * (n + 1) ^ 2 * 2 ^ n := mul_le_mul_of_nonneg_left h2n (by positivity)
      linarith)).rel (by
      have := Near.abs_ge_half hF (show 1 + 1 + 1 + (1 + 1 + 1) + 1 + 0 + 1 + 0 ≤ 9 by norm_num) h9 k2
      rw [abs_div (X * _), abs_mul X, absN, absD] at this
      have t : 2 * ν ≤ |X| * (4 * N) / (4 * D) := by
        rw [le_div_iff₀ (by positivity)]
        have s1 := hR.small
        have s2 := hF.ν_pos
        have s3 : 2 * ν * (4 * D) ≤ 8 * (ν * (n + 1) ^ 2) := by linarith [mul_le_mul_of_nonneg_left D2' s2.le]
        have s4 : eps ^ 2 / 16 * 4 ≤ |X| * (4 * N) := mul_le_mul hXlo (by linarith) (by norm_num) X0
        linarith
      linarith)).fac hu0 hu1 |>.trans hu0 hu1 k2
  have e2 : Dratio X ((p' : ℤ) + 1) ((q : ℤ) + 1) ((q' : ℤ) - q) ρ = X * ((4 * N : ℕ) : ℝ) / ((4 * D : ℕ) : ℝ) := by
    unfold Dratio
    have h3 : ((4 * D : ℕ) : ℝ) = 4 * (((ρ : ℤ) * (((q' : ℤ) - q) + ρ) : ℤ) : ℝ) := by
      have : (((4 * D : ℕ) : ℤ) : ℝ) = (((2 * (ρ : ℤ)) * (2 * ((q' : ℤ) - q) + 2 * (ρ : ℤ)) : ℤ) : ℝ) := by rw [hD]
      rw [Int.cast_natCast] at this
      rw [this]; push_cast; ring
    have h4 : ((4 * N : ℕ) : ℝ) = 4 * (((((p' : ℤ) + 1) - ρ) * (((q : ℤ) + 1) - ρ) : ℤ) : ℝ) := by
      have : (((4 * N : ℕ) : ℤ) : ℝ) = (((2 * ((p' : ℤ) + 1) - 2 * (ρ : ℤ)) * (2 * ((q : ℤ) + 1) - 2 * (ρ : ℤ)) : ℤ) : ℝ) := by rw [hN]
      rw [Int.cast_natCast] at this
      rw [this]; push_cast; ring
    rw [h3, h4, mul_left_comm, mul_div_mul_left _ _ (by norm_num)]
  rw [e2]
  exact mD

end

end SF
