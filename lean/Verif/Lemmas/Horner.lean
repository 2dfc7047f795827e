import Verif.Model.WignerD
import Verif.Lemmas.Index
import Verif.Spec.WignerD
import Mathlib.Tactic.FieldSimp
import Mathlib.Analysis.SpecialFunctions.Complex.Arg
import Mathlib.Algebra.BigOperators.Intervals

/-! # Horner loop and polar-form lemmas for the Wigner D kernels -/

set_option autoImplicit false

namespace SF

open Finset ComplexConjugate

theorem pyDiv_ok {x y : ℝ} (h : y ≠ 0) : pyDiv x y = .ok (x / y) := by
  unfold pyDiv; simp [h]

theorem pyRangeDown_nat (a b : ℕ) :
    pyRangeDown (b : ℤ) (a : ℤ) = (List.range (b - a)).map (fun k : ℕ => (b : ℤ) - k) := by
  unfold pyRangeDown
  congr 2; omega

theorem pyRangeDown2_nat (a b : ℕ) :
    pyRangeDown2 (2 * (b : ℤ)) (2 * (a : ℤ))
      = (List.range (b - a)).map (fun k : ℕ => 2 * ((b : ℤ) - k)) := by
  unfold pyRangeDown2
  have : ((2 * (b : ℤ) - 2 * (a : ℤ) + 1) / 2).toNat = b - a := by omega
  rw [this]
  congr 1; funext k; ring

/-- The Horner scheme sums a sequence with given successive ratios. -/
theorem horner_core (t : ℕ → ℂ) (r : ℕ → ℝ) (a b : ℕ) (hab : a ≤ b)
    (ht : ∀ ρ, a ≤ ρ → ρ < b → t (ρ + 1) = t ρ * (r (ρ + 1) : ℂ)) (body : ℤ → ℝ → Py ℝ)
    (hbody : ∀ ρ : ℕ, a < ρ → ρ ≤ b → ∀ S, body ρ S = .ok (S * r ρ + 1)) :
    ∃ S, forL ((List.range (b - a)).map (fun k : ℕ => (b : ℤ) - k)) (1 : ℝ) body = .ok S ∧
      t a * (S : ℂ) = ∑ ρ ∈ Ico a (b + 1), t ρ := by
  obtain ⟨n, rfl⟩ : ∃ n, b = a + n := ⟨b - a, by omega⟩
  clear hab
  rw [Nat.add_sub_cancel_left]
  induction n generalizing a with
  | zero => exact ⟨1, by simp, by simp⟩
  | succ n ih =>
    obtain ⟨S, h1, h2⟩ := ih (a + 1) (fun ρ h3 h4 => ht ρ (by omega) (by omega))
      (fun ρ h3 h4 => hbody ρ (by omega) (by omega))
    have e : a + 1 + n = a + (n + 1) := by omega
    rw [e] at h1 h2
    refine ⟨S * r (a + 1) + 1, ?_, ?_⟩
    · rw [List.range_succ, List.map_append, forL_append, h1, bind_ok]
      simp only [List.map_cons, List.map_nil, forL_cons, forL_nil]
      have : ((a + (n + 1) : ℕ) : ℤ) - (n : ℤ) = ((a + 1 : ℕ) : ℤ) := by push_cast; ring
      rw [this, hbody (a + 1) (by omega) (by omega)]
      rfl
    · rw [Finset.sum_eq_sum_Ico_succ_bot (by omega), ← h2, ht a (le_refl _) (by omega)]
      push_cast
      ring

theorem hornerLoop_eq_range (x : ℝ) (N1 N2 M : ℤ) (a b : ℕ) :
    hornerLoop x N1 N2 M b a =
      forL ((List.range (b - a)).map (fun k : ℕ => (b : ℤ) - k)) (1 : ℝ) (fun rho Sum => do
        let q ← pyDiv (x * (((N1 - rho) * (N2 - rho) : ℤ) : ℝ)) ((rho * (M + rho) : ℤ) : ℝ)
        return Sum * q + 1) := by
  unfold hornerLoop; rw [pyRangeDown_nat]

/-- The doubled loop computes the same value as the undoubled one. -/
theorem hornerLoop2_eq (x : ℝ) (N1 N2 M : ℤ) (a b : ℕ) :
    hornerLoop2 x (2 * N1) (2 * N2) (2 * M) (2 * (b : ℤ)) (2 * (a : ℤ)) =
      hornerLoop x N1 N2 M b a := by
  rw [hornerLoop_eq_range]
  unfold hornerLoop2
  rw [pyRangeDown2_nat, forL_map, forL_map]
  apply forL_congr
  intro k _ S
  have e1 : ((((2 * N1 - 2 * ((b : ℤ) - k)) * (2 * N2 - 2 * ((b : ℤ) - k)) : ℤ)) : ℝ)
    = 4 * ((((N1 - ((b : ℤ) - k)) * (N2 - ((b : ℤ) - k)) : ℤ)) : ℝ) := by push_cast; ring
  have e2 : (((2 * ((b : ℤ) - k) * (2 * M + 2 * ((b : ℤ) - k)) : ℤ)) : ℝ)
    = 4 * (((((b : ℤ) - k) * (M + ((b : ℤ) - k)) : ℤ)) : ℝ) := by push_cast; ring
  rw [e1, e2]
  generalize ((((N1 - ((b : ℤ) - k)) * (N2 - ((b : ℤ) - k)) : ℤ)) : ℝ) = u
  generalize (((((b : ℤ) - k) * (M + ((b : ℤ) - k)) : ℤ)) : ℝ) = v
  by_cases hv : v = 0
  · subst hv; simp [pyDiv]
  · have : (4 : ℝ) * v ≠ 0 := by simpa using hv
    rw [pyDiv_ok hv, pyDiv_ok this]
    have : x * (4 * u) / (4 * v) = x * u / v := by field_simp
    rw [this]

/-- One term of the closed form of D. -/
noncomputable def Dterm (za zb : ℂ) (p' q' q ρ : ℕ) : ℂ :=
  (-1 : ℂ) ^ ρ * (p'.choose ρ) * (q'.choose (q - ρ))
      * za ^ (p' - ρ) * (conj za) ^ (q - ρ) * zb ^ (q' - (q - ρ)) * (conj zb) ^ ρ

theorem mul_conj_norm (z : ℂ) : z * conj z = ((‖z‖ * ‖z‖ : ℝ) : ℂ) := by
  rw [Complex.mul_conj, Complex.normSq_eq_norm_sq]; push_cast; ring

/-- Ratio of successive terms. -/
theorem Dterm_succ {za zb : ℂ} (ha : za ≠ 0) {p' q' q ρ : ℕ} (h1 : ρ < p') (h2 : ρ < q)
    (h3 : q ≤ q' + ρ) :
    Dterm za zb p' q' q (ρ + 1) = Dterm za zb p' q' q ρ *
      ((-(‖zb‖ * ‖zb‖) / (‖za‖ * ‖za‖) * (((p' + 1 : ℤ) - (ρ + 1)) * ((q + 1 : ℤ) - (ρ + 1)) : ℤ)
        / (((ρ + 1 : ℕ) : ℤ) * (((q' : ℤ) - q) + ((ρ + 1 : ℕ) : ℤ)) : ℤ) : ℝ) : ℂ) := by
  obtain ⟨i, rfl⟩ : ∃ i, p' = ρ + 1 + i := ⟨p' - ρ - 1, by omega⟩
  obtain ⟨j, rfl⟩ : ∃ j, q = ρ + 1 + j := ⟨q - ρ - 1, by omega⟩
  obtain ⟨k, rfl⟩ : ∃ k, q' = j + 1 + k := ⟨q' - (j + 1), by omega⟩
  have c1 : ((ρ + 1 + i).choose (ρ + 1) : ℂ) * (ρ + 1) = (ρ + 1 + i).choose ρ * (i + 1) := by
    have := Nat.choose_succ_right_eq (ρ + 1 + i) ρ
    have e : ρ + 1 + i - ρ = i + 1 := by omega
    rw [e] at this
    exact_mod_cast this
  have c2 : ((j + 1 + k).choose (j + 1) : ℂ) * (j + 1) = (j + 1 + k).choose j * (k + 1) := by
    have := Nat.choose_succ_right_eq (j + 1 + k) j
    have e : j + 1 + k - j = k + 1 := by omega
    rw [e] at this
    exact_mod_cast this
  have na : ((‖za‖ : ℝ) : ℂ) ≠ 0 := by simpa using ha
  have ma := mul_conj_norm za
  have mb := mul_conj_norm zb
  unfold Dterm
  have e1 : ρ + 1 + i - (ρ + 1) = i := by omega
  have e2 : ρ + 1 + i - ρ = i + 1 := by omega
  have e3 : ρ + 1 + j - (ρ + 1) = j := by omega
  have e4 : ρ + 1 + j - ρ = j + 1 := by omega
  have e5 : j + 1 + k - j = k + 1 := by omega
  have e6 : j + 1 + k - (j + 1) = k := by omega
  rw [e1, e2, e3, e4, e5, e6]
  have f1 : (((ρ + 1 + i : ℕ) : ℤ) + 1 - (ρ + 1)) = (i : ℤ) + 1 := by push_cast; ring
  have f2 : (((ρ + 1 + j : ℕ) : ℤ) + 1 - (ρ + 1)) = (j : ℤ) + 1 := by push_cast; ring
  have f3 : (((j + 1 + k : ℕ) : ℤ) - ((ρ + 1 + j : ℕ) : ℤ) + ((ρ + 1 : ℕ) : ℤ)) = (k : ℤ) + 1 := by
    push_cast; ring
  rw [f1, f2, f3]
  push_cast at ma mb ⊢
  have n1 : ((ρ : ℂ) + 1) ≠ 0 := by exact_mod_cast Nat.succ_ne_zero ρ
  have n2 : ((k : ℂ) + 1) ≠ 0 := by exact_mod_cast Nat.succ_ne_zero k
  field_simp
  rw [pow_succ (-1 : ℂ), pow_succ za i, pow_succ (conj za) j, pow_succ zb k, pow_succ (conj zb) ρ]
  have ma' : ((‖za‖ : ℝ) : ℂ) ^ 2 = za * conj za := by rw [ma]; ring
  have mb' : ((‖zb‖ : ℝ) : ℂ) ^ 2 = zb * conj zb := by rw [mb]; ring
  rw [ma', mb']
  linear_combination (-((-1 : ℂ) ^ ρ) * za ^ i * conj za ^ j * zb ^ k * conj zb ^ ρ
    * (zb * conj zb) * (za * conj za)) *
    ((((j + 1 + k).choose j : ℂ) * (k + 1)) * c1 - ((ρ + 1 + i).choose ρ : ℂ) * (i + 1) * c2)

/-- Sum over all `ρ` = sum over the range used by the code. -/
theorem sum_Dterm_range (za zb : ℂ) (p' q' q : ℕ) :
    ∑ ρ ∈ range (q + 1), Dterm za zb p' q' q ρ
      = ∑ ρ ∈ Ico (q - q') (min p' q + 1), Dterm za zb p' q' q ρ := by
  symm
  apply Finset.sum_subset
  · intro ρ h
    simp only [mem_Ico, mem_range] at *
    omega
  · intro ρ h1 h2
    simp only [mem_Ico, mem_range] at *
    have : ρ < q - q' ∨ p' < ρ := by omega
    unfold Dterm
    rcases this with h | h
    · have : q'.choose (q - ρ) = 0 := Nat.choose_eq_zero_of_lt (by omega)
      simp [this]
    · have : p'.choose ρ = 0 := Nat.choose_eq_zero_of_lt h
      simp [this]

theorem polar_pow (z : ℂ) {θ : ℝ} (h1 : z = (‖z‖ : ℂ) * Complex.exp (θ * Complex.I)) (a b : ℕ) :
    z ^ a * (conj z) ^ b
      = ((‖z‖ ^ (a + b) : ℝ) : ℂ) * Complex.exp (((θ * ((a : ℝ) - b) : ℝ)) * Complex.I) := by
  have h2 : conj z = (‖z‖ : ℂ) * Complex.exp (-(θ * Complex.I)) := by
    conv_lhs => rw [h1]
    rw [map_mul, Complex.conj_ofReal, ← Complex.exp_conj]
    congr 2
    simp
  conv_lhs => rw [h2]
  conv_lhs => lhs; rw [h1]
  rw [mul_pow, mul_pow, ← Complex.exp_nat_mul, ← Complex.exp_nat_mul]
  rw [mul_mul_mul_comm, ← pow_add, ← Complex.exp_add]
  push_cast
  congr 2
  ring

/-- Value of the loop and prefactor = closed form. -/
theorem D_core {za zb : ℂ} (ha : za ≠ 0) (p' q' p q : ℕ) (hsum : p' + q' = p + q) {θa θb : ℝ}
    (hθa : za = (‖za‖ : ℂ) * Complex.exp (θa * Complex.I))
    (hθb : zb = (‖zb‖ : ℂ) * Complex.exp (θb * Complex.I)) :
    ∃ S, hornerLoop (-‖zb‖ * ‖zb‖ / (‖za‖ * ‖za‖)) ((p' : ℤ) + 1) ((q : ℤ) + 1) ((q' : ℤ) - q)
        ((min p' q : ℕ) : ℤ) ((p' - p : ℕ) : ℤ) = .ok S ∧
      (((-1 : ℝ) ^ (p' - p) * (Real.sqrt ((p.factorial * q.factorial : ℝ) / (p'.factorial * q'.factorial))
        * (p'.choose (p' - p)) * (q'.choose (q - (p' - p))) * ‖za‖ ^ (p' + q - 2 * (p' - p))
        * ‖zb‖ ^ (q' - q + 2 * (p' - p) - (q - q'))) : ℝ) : ℂ)
        * Complex.exp (((θa * ((p' : ℝ) - q) + θb * ((q' : ℝ) - q) : ℝ)) * Complex.I)
        * (S : ℂ) = Spec.Dpq za zb p' q' p q := by
  have hr : p' - p = q - q' := by omega
  obtain ⟨S, h1, h2⟩ := horner_core (Dterm za zb p' q' q)
    (fun ρ => -(‖zb‖ * ‖zb‖) / (‖za‖ * ‖za‖) * (((p' + 1 : ℤ) - (ρ : ℤ)) * ((q + 1 : ℤ) - (ρ : ℤ)) : ℤ)
        / (((ρ : ℕ) : ℤ) * (((q' : ℤ) - q) + ((ρ : ℕ) : ℤ)) : ℤ)) (q - q') (min p' q) (by omega)
    (by
      intro ρ h3 h4
      have := Dterm_succ (zb := zb) ha (p' := p') (q' := q') (q := q) (ρ := ρ) (by omega) (by omega)
        (by omega)
      rw [this]; push_cast; rfl)
    (fun rho Sum => do
      let qq ← pyDiv ((-‖zb‖ * ‖zb‖ / (‖za‖ * ‖za‖)) * (((((p' : ℤ) + 1) - rho) * (((q : ℤ) + 1) - rho) : ℤ) : ℝ))
        ((rho * (((q' : ℤ) - q) + rho) : ℤ) : ℝ)
      return Sum * qq + 1)
    (by
      intro ρ h3 h4 S
      have hne : (((ρ : ℤ) * (((q' : ℤ) - q) + (ρ : ℤ)) : ℤ) : ℝ) ≠ 0 := by
        have : (ρ : ℤ) * (((q' : ℤ) - q) + (ρ : ℤ)) ≠ 0 := by
          apply mul_ne_zero <;> omega
        exact_mod_cast this
      rw [pyDiv_ok hne, bind_ok]
      rw [neg_mul]
      rfl)
  refine ⟨S, ?_, ?_⟩
  · rw [hornerLoop_eq_range, hr]; exact h1
  · have hs := sum_Dterm_range za zb p' q' q
    unfold Spec.Dpq
    have : ∑ ρ ∈ range (q + 1), (-1 : ℂ) ^ ρ * (p'.choose ρ) * (q'.choose (q - ρ))
      * za ^ (p' - ρ) * (conj za) ^ (q - ρ) * zb ^ (q' - (q - ρ)) * (conj zb) ^ ρ
      = ∑ ρ ∈ range (q + 1), Dterm za zb p' q' q ρ := rfl
    rw [this, hs, ← h2]
    have hpa := polar_pow za hθa (p' - (q - q')) (q - (q - q'))
    have hpb := polar_pow zb hθb (q' - (q - (q - q'))) (q - q')
    have e1 : p' - (q - q') + (q - (q - q')) = p' + q - 2 * (q - q') := by omega
    have e2 : q' - (q - (q - q')) + (q - q') = q' - q + 2 * (q - q') - (q - q') := by omega
    have e3 : (((p' - (q - q') : ℕ) : ℝ) - ((q - (q - q') : ℕ) : ℝ)) = (p' : ℝ) - q := by
      have e : (((p' - (q - q') : ℕ) : ℤ) - ((q - (q - q') : ℕ) : ℤ)) = (p' : ℤ) - q := by omega
      exact_mod_cast e
    have e4 : (((q' - (q - (q - q')) : ℕ) : ℝ) - ((q - q' : ℕ) : ℝ)) = (q' : ℝ) - q := by
      have e : (((q' - (q - (q - q')) : ℕ) : ℤ) - ((q - q' : ℕ) : ℤ)) = (q' : ℤ) - q := by omega
      exact_mod_cast e
    rw [e1, e3] at hpa
    rw [e2, e4] at hpb
    have hexp : Complex.exp (((θa * ((p' : ℝ) - q) + θb * ((q' : ℝ) - q) : ℝ)) * Complex.I)
      = Complex.exp (((θa * ((p' : ℝ) - q) : ℝ)) * Complex.I)
        * Complex.exp (((θb * ((q' : ℝ) - q) : ℝ)) * Complex.I) := by
      rw [← Complex.exp_add]; congr 1; push_cast; ring
    rw [hexp, hr]
    have hD : Dterm za zb p' q' q (q - q') = (-1 : ℂ) ^ (q - q') * (p'.choose (q - q'))
        * (q'.choose (q - (q - q')))
        * (za ^ (p' - (q - q')) * (conj za) ^ (q - (q - q')))
        * (zb ^ (q' - (q - (q - q'))) * (conj zb) ^ (q - q')) := by
      unfold Dterm; ring
    rw [hD, hpa, hpb]
    push_cast
    ring

end SF
