import Verif.Props.Sphere
import Mathlib.LinearAlgebra.Lagrange
import Mathlib.Algebra.Field.GeomSum

/-!
# Sampling: a band-limited function is determined by its values on an equiangular grid
-/

set_option autoImplicit false

namespace SF

open Finset ComplexConjugate Spec Polynomial

/-- The θ part of a harmonic is a polynomial in `cos θ`, times `sin θ` if `m + s` is odd. -/
theorem theta_poly {s l m : ℤ} {L : ℕ} (hlL : l ≤ L) (e : ℕ) (he : e ≤ 1) (hpar : (m + s) % 2 = e) :
    ∃ P ∈ degreeLT ℂ (L + 1 - e),
      ∀ θ : ℝ, sYlm (Real.cos (θ / 2)) (Real.sin (θ / 2)) s l m = (Real.sin θ : ℂ) ^ e * P.eval (Real.cos θ : ℂ) := by
  unfold sYlm
  split_ifs with h
  · obtain ⟨p', q', p, q, hsum, ha, hb, hc⟩ := valid_pq (validD_sm h)
    have hc2 : ∀ θ : ℝ, (Real.cos (θ / 2) : ℂ) ^ 2 = (1 + (Real.cos θ : ℂ)) / 2 := fun θ => by
      have : Real.cos θ = 2 * Real.cos (θ / 2) ^ 2 - 1 := by rw [← Real.cos_two_mul]; congr 1; ring
      rw [this]; push_cast; ring
    have hs2 : ∀ θ : ℝ, (Real.sin (θ / 2) : ℂ) ^ 2 = (1 - (Real.cos θ : ℂ)) / 2 := fun θ => by
      have h1 : Real.cos θ = 2 * Real.cos (θ / 2) ^ 2 - 1 := by rw [← Real.cos_two_mul]; congr 1; ring
      have h2 := Real.sin_sq_add_cos_sq (θ / 2)
      have h3 : Real.sin (θ / 2) ^ 2 = (1 - Real.cos θ) / 2 := by rw [h1]; linarith
      exact_mod_cast congrArg (fun x : ℝ => (x : ℂ)) h3
    have hcs : ∀ θ : ℝ, (Real.cos (θ / 2) : ℂ) * (Real.sin (θ / 2) : ℂ) = (Real.sin θ : ℂ) * (1 / 2) := fun θ => by
      have h3 : Real.cos (θ / 2) * Real.sin (θ / 2) = Real.sin θ * (1 / 2) := by
        rw [show Real.sin θ = Real.sin (2 * (θ / 2)) by congr 1; ring, Real.sin_two_mul]; ring
      have := congrArg (fun x : ℝ => (x : ℂ)) h3
      push_cast at this ⊢
      exact this
    -- each term
    have term : ∀ ρ : ℕ, ∃ P ∈ degreeLT ℂ (L + 1 - e), ρ ≤ q → ∀ θ : ℝ,
        (-1 : ℂ) ^ ρ * (p'.choose ρ) * (q'.choose (q - ρ)) * (Real.cos (θ / 2) : ℂ) ^ (p' - ρ) * (Real.cos (θ / 2) : ℂ) ^ (q - ρ)
          * (Real.sin (θ / 2) : ℂ) ^ (q' - (q - ρ)) * (Real.sin (θ / 2) : ℂ) ^ ρ = (Real.sin θ : ℂ) ^ e * P.eval (Real.cos θ : ℂ) := by
      intro ρ
      by_cases h1 : p' < ρ
      · exact ⟨0, Submodule.zero_mem _, fun _ θ => by rw [Nat.choose_eq_zero_of_lt h1]; simp⟩
      by_cases h2 : q' < q - ρ
      · exact ⟨0, Submodule.zero_mem _, fun _ θ => by rw [Nat.choose_eq_zero_of_lt h2]; simp⟩
      by_cases h3 : q < ρ
      · exact ⟨0, Submodule.zero_mem _, fun h => absurd h (by omega)⟩
      obtain ⟨a, b, hA, hB⟩ : ∃ a b : ℕ, (p' - ρ) + (q - ρ) = 2 * a + e ∧ (q' - (q - ρ)) + ρ = 2 * b + e :=
        ⟨((p' - ρ) + (q - ρ) - e) / 2, ((q' - (q - ρ)) + ρ - e) / 2, by omega, by omega⟩
      refine ⟨C ((-1 : ℂ) ^ ρ * (p'.choose ρ) * (q'.choose (q - ρ)) * (1 / 2) ^ e * (1 / 2) ^ (a + b)) * ((1 + X) ^ a * (1 - X) ^ b), ?_, fun _ θ => ?_⟩
      · have d1 : ((1 + X : ℂ[X]) ^ a * (1 - X) ^ b).natDegree ≤ a + b := by
          refine natDegree_mul_le.trans (add_le_add ?_ ?_)
          · refine natDegree_pow_le.trans ?_
            have : (1 + X : ℂ[X]).natDegree ≤ 1 := by compute_degree
            nlinarith
          · refine natDegree_pow_le.trans ?_
            have : (1 - X : ℂ[X]).natDegree ≤ 1 := by compute_degree
            nlinarith
        have := (natDegree_C_mul_le ((-1 : ℂ) ^ ρ * (p'.choose ρ) * (q'.choose (q - ρ)) * (1 / 2) ^ e * (1 / 2) ^ (a + b))
          ((1 + X : ℂ[X]) ^ a * (1 - X) ^ b)).trans d1
        rw [mem_degreeLT]
        refine degree_le_natDegree.trans_lt ?_
        have h4 := lt_of_le_of_lt this (show a + b < L + 1 - e by omega)
        exact_mod_cast h4
      · simp only [eval_mul, eval_C, eval_pow, eval_add, eval_sub, eval_one, eval_X]
        have e1 : (Real.cos (θ / 2) : ℂ) ^ (p' - ρ) * (Real.cos (θ / 2) : ℂ) ^ (q - ρ)
            = ((1 + (Real.cos θ : ℂ)) / 2) ^ a * (Real.cos (θ / 2) : ℂ) ^ e := by
          rw [← pow_add, hA, pow_add, pow_mul, hc2]
        have e2 : (Real.sin (θ / 2) : ℂ) ^ (q' - (q - ρ)) * (Real.sin (θ / 2) : ℂ) ^ ρ
            = ((1 - (Real.cos θ : ℂ)) / 2) ^ b * (Real.sin (θ / 2) : ℂ) ^ e := by
          rw [← pow_add, hB, pow_add, pow_mul, hs2]
        have e3 : (Real.cos (θ / 2) : ℂ) ^ e * (Real.sin (θ / 2) : ℂ) ^ e = (Real.sin θ : ℂ) ^ e * (1 / 2) ^ e := by
          rw [← mul_pow, hcs, mul_pow]
        calc _ = ((-1 : ℂ) ^ ρ * (p'.choose ρ) * (q'.choose (q - ρ))) * ((Real.cos (θ / 2) : ℂ) ^ (p' - ρ) * (Real.cos (θ / 2) : ℂ) ^ (q - ρ))
              * ((Real.sin (θ / 2) : ℂ) ^ (q' - (q - ρ)) * (Real.sin (θ / 2) : ℂ) ^ ρ) := by ring
          _ = ((-1 : ℂ) ^ ρ * (p'.choose ρ) * (q'.choose (q - ρ))) * (((1 + (Real.cos θ : ℂ)) / 2) ^ a * ((1 - (Real.cos θ : ℂ)) / 2) ^ b)
              * ((Real.cos (θ / 2) : ℂ) ^ e * (Real.sin (θ / 2) : ℂ) ^ e) := by rw [e1, e2]; ring
          _ = _ := by
            rw [e3, div_eq_mul_one_div (1 + _) (2 : ℂ), div_eq_mul_one_div (1 - _) (2 : ℂ), mul_pow, mul_pow _ _ b, pow_add _ a b]
            ring
    choose P hP1 hP2 using term
    refine ⟨C ((-1 : ℂ) ^ s * (Real.sqrt ((2 * (l : ℝ) + 1) / (4 * Real.pi)) : ℂ) *
      (Real.sqrt ((p.factorial * q.factorial : ℝ) / (p'.factorial * q'.factorial)) : ℂ)) * ∑ ρ ∈ range (q + 1), P ρ, ?_, fun θ => ?_⟩
    · rw [← smul_eq_C_mul]
      exact Submodule.smul_mem _ _ (Submodule.sum_mem _ fun ρ _ => hP1 ρ)
    · rw [wignerD_pq _ _ hsum ha hb hc, Dpq]
      simp only [Complex.conj_ofReal]
      rw [sum_congr rfl fun ρ hρ => hP2 ρ (by rw [mem_range] at hρ; omega) θ]
      rw [eval_mul, eval_C, eval_finset_sum, ← mul_sum]
      ring
  · exact ⟨0, Submodule.zero_mem _, fun θ => by simp⟩

/-- A combination of phases `e^{imφ}`, `|m| ≤ L`, that vanishes at `n ≥ 2L+1` equally spaced angles is trivial. -/
theorem phase_sampling {L n : ℕ} (hn : 2 * L + 1 ≤ n) (a : ℤ → ℂ)
    (h : ∀ k < n, ∑ m ∈ Icc (-(L : ℤ)) L, Complex.exp (Complex.I * m * (2 * Real.pi * k / n : ℝ)) * a m = 0) :
    ∀ m ∈ Icc (-(L : ℤ)) L, a m = 0 := by
  intro m hm
  have hn0 : (n : ℂ) ≠ 0 := by exact_mod_cast (by omega : n ≠ 0)
  have orth : ∀ M : ℤ, |M| < n → ∑ k ∈ range n, Complex.exp (Complex.I * M * (2 * Real.pi * k / n : ℝ)) = if M = 0 then (n : ℂ) else 0 := by
    intro M hM
    split_ifs with h0
    · subst h0; simp
    · set z := Complex.exp (Complex.I * M * (2 * Real.pi / n : ℝ)) with hz
      have e : ∀ k : ℕ, Complex.exp (Complex.I * M * (2 * Real.pi * k / n : ℝ)) = z ^ k := fun k => by
        rw [hz, ← Complex.exp_nat_mul]; congr 1; push_cast; ring
      simp only [e]
      have z1 : z ≠ 1 := by
        rw [hz, Ne, Complex.exp_eq_one_iff]
        rintro ⟨t, ht⟩
        have : (M : ℂ) = t * n := by
          have hpi : (Real.pi : ℂ) ≠ 0 := by exact_mod_cast Real.pi_ne_zero
          push_cast at ht
          field_simp at ht
          linear_combination ht
        have hMt : M = t * n := by exact_mod_cast this
        rcases eq_or_ne t 0 with rfl | ht0
        · simp at hMt; exact h0 hMt
        · rw [hMt, abs_mul, Nat.abs_cast] at hM
          have := Int.one_le_abs ht0
          nlinarith
      have zn : z ^ n = 1 := by
        rw [hz, ← Complex.exp_nat_mul, Complex.exp_eq_one_iff]
        exact ⟨M, by push_cast; field_simp⟩
      rw [geom_sum_eq z1, zn, sub_self, zero_div]
  have key : ∑ k ∈ range n, Complex.exp (Complex.I * ((-m : ℤ) : ℂ) * (2 * Real.pi * k / n : ℝ)) *
      ∑ m' ∈ Icc (-(L : ℤ)) L, Complex.exp (Complex.I * m' * (2 * Real.pi * k / n : ℝ)) * a m' = 0 :=
    sum_eq_zero fun k hk => by rw [h k (mem_range.1 hk), mul_zero]
  simp only [mul_sum] at key
  rw [sum_comm] at key
  have t : ∀ m' ∈ Icc (-(L : ℤ)) L, ∑ k ∈ range n, Complex.exp (Complex.I * ((-m : ℤ) : ℂ) * (2 * Real.pi * k / n : ℝ)) *
      (Complex.exp (Complex.I * m' * (2 * Real.pi * k / n : ℝ)) * a m') = (if m' = m then (n : ℂ) else 0) * a m' := by
    intro m' hm'
    rw [mem_Icc] at hm hm'
    have := orth (m' - m) (by rw [abs_lt]; omega)
    simp only [sub_eq_zero] at this
    rw [← this, sum_mul]
    refine sum_congr rfl fun k _ => ?_
    rw [← mul_assoc, ← Complex.exp_add]
    congr 2; push_cast; ring
  rw [sum_congr rfl t, sum_eq_single m] at key
  · simpa [hn0] using key
  · intro m' _ hne; rw [if_neg hne, zero_mul]
  · intro hc; exact absurd hm hc

/-- `n ≥ L+2` equally spaced colatitudes from 0 to π determine a function of the form of `theta_poly`. -/
theorem theta_sampling {L n : ℕ} (hn : L + 2 ≤ n) {e : ℕ} (he : e ≤ 1) {P : ℂ[X]} (hP : P ∈ degreeLT ℂ (L + 1 - e))
    (h : ∀ j < n, (Real.sin (j * Real.pi / (n - 1)) : ℂ) ^ e * P.eval (Real.cos (j * Real.pi / (n - 1)) : ℂ) = 0) : P = 0 := by
  have hn1 : (0 : ℝ) < (n : ℝ) - 1 := by
    have : (2 : ℝ) ≤ n := by exact_mod_cast (by omega : 2 ≤ n)
    linarith
  have hpi := Real.pi_pos
  -- the points in the open interval, and the ends if `e = 0`
  have hmem : ∀ j : ℕ, j < n → (j : ℝ) * Real.pi / (n - 1) ∈ Set.Icc 0 Real.pi := by
    intro j hj
    have : (j : ℝ) ≤ n - 1 := by
      have : ((j + 1 : ℕ) : ℝ) ≤ n := by exact_mod_cast hj
      push_cast at this; linarith
    refine ⟨by positivity, ?_⟩
    rw [div_le_iff₀ hn1]; nlinarith
  have hinj : ∀ i j : ℕ, i < n → j < n → (Real.cos (i * Real.pi / (n - 1)) : ℂ) = (Real.cos (j * Real.pi / (n - 1)) : ℂ) → i = j := by
    intro i j hi hj hc
    have hc' : Real.cos (i * Real.pi / (n - 1)) = Real.cos (j * Real.pi / (n - 1)) := by exact_mod_cast hc
    have := Real.injOn_cos (hmem i hi) (hmem j hj) hc'
    have h2 : (i : ℝ) = j := by
      rw [div_left_inj' hn1.ne'] at this
      exact mul_right_cancel₀ hpi.ne' this
    exact_mod_cast h2
  have main : ∀ T : Finset ℕ, (∀ j ∈ T, j < n) → L + 1 - e ≤ T.card → (∀ j ∈ T, P.eval (Real.cos (j * Real.pi / (n - 1)) : ℂ) = 0) → P = 0 := by
    intro T hT hcard hz
    classical
    have hcard' : (T.image fun j : ℕ => (Real.cos (j * Real.pi / (n - 1)) : ℂ)).card = T.card :=
      card_image_of_injOn fun i hi j hj => hinj i j (hT i hi) (hT j hj)
    refine eq_zero_of_degree_lt_of_eval_finset_eq_zero (T.image fun j : ℕ => (Real.cos (j * Real.pi / (n - 1)) : ℂ)) ?_ ?_
    · rw [hcard']
      exact (mem_degreeLT.1 hP).trans_le (by exact_mod_cast hcard)
    · intro x hx
      obtain ⟨j, hj, rfl⟩ := mem_image.1 hx
      exact hz j hj
  rcases (by omega : e = 0 ∨ e = 1) with rfl | rfl
  · refine main (range n) (fun j hj => mem_range.1 hj) (by rw [card_range]; omega) fun j hj => ?_
    have := h j (mem_range.1 hj)
    simpa using this
  · refine main (Ico 1 (n - 1)) (fun j hj => by rw [mem_Ico] at hj; omega) (by rw [Nat.card_Ico]; omega) fun j hj => ?_
    rw [mem_Ico] at hj
    have := h j (by omega)
    rw [pow_one, mul_eq_zero] at this
    refine this.resolve_left ?_
    have hs : 0 < Real.sin (j * Real.pi / (n - 1)) := by
      have hj1 : (1 : ℝ) ≤ j := by exact_mod_cast hj.1
      have hj2 : (j : ℝ) < n - 1 := by
        have : ((j + 1 : ℕ) : ℝ) < n := by exact_mod_cast (by omega : j + 1 < n)
        push_cast at this; linarith
      apply Real.sin_pos_of_pos_of_lt_pi
      · positivity
      · rw [div_lt_iff₀ hn1]; nlinarith
    exact_mod_cast hs.ne'

/-- A combination of harmonics up to `L` that vanishes on an equiangular grid of at least `L+2` colatitudes and `2L+1` azimuths has only zero
coefficients. -/
theorem grid_sampling {s : ℤ} {L nt np : ℕ} (ht : L + 2 ≤ nt) (hp : 2 * L + 1 ≤ np) (c : ((_ : ℤ) × ℤ) → ℂ)
    (h0 : ∀ j < nt, ∀ k < np, ∑ p ∈ modeSet s L, c p * sYlm (dirA (j * Real.pi / (nt - 1)) (2 * Real.pi * k / np))
      (dirB (j * Real.pi / (nt - 1)) (2 * Real.pi * k / np)) s p.1 p.2 = 0) : ∀ p ∈ modeSet s L, c p = 0 := by
  classical
  -- the coefficient of `e^{imφ}`
  have hdir : ∀ θ φ : ℝ, ∑ p ∈ modeSet s L, c p * sYlm (dirA θ φ) (dirB θ φ) s p.1 p.2
      = ∑ m ∈ Icc (-(L : ℤ)) L, Complex.exp (Complex.I * m * φ) *
        ∑ p ∈ modeSet s L with p.2 = m, c p * sYlm (Real.cos (θ / 2)) (Real.sin (θ / 2)) s p.1 p.2 := by
    intro θ φ
    rw [← sum_fiberwise_of_maps_to (t := Icc (-(L : ℤ)) L) (g := fun p => p.2)]
    · refine sum_congr rfl fun m _ => ?_
      rw [mul_sum]
      refine sum_congr rfl fun p hp => ?_
      rw [mem_filter] at hp
      rw [sYlm_dir, hp.2]; ring
    · intro p hp
      rw [mem_modeSet] at hp
      have := abs_le.1 hp.2.2
      rw [mem_Icc]; omega
  have hz : ∀ j < nt, ∀ m ∈ Icc (-(L : ℤ)) L, ∑ p ∈ modeSet s L with p.2 = m,
      c p * sYlm (Real.cos ((j * Real.pi / (nt - 1) : ℝ) / 2)) (Real.sin ((j * Real.pi / (nt - 1) : ℝ) / 2)) s p.1 p.2 = 0 := by
    intro j hj
    refine phase_sampling hp (fun m => ∑ p ∈ modeSet s L with p.2 = m,
      c p * sYlm (Real.cos ((j * Real.pi / (nt - 1) : ℝ) / 2)) (Real.sin ((j * Real.pi / (nt - 1) : ℝ) / 2)) s p.1 p.2) fun k hk => ?_
    rw [← hdir]
    exact h0 j hj k hk
  refine sYlm_unique (s := s) (modeSet s L) (fun p hp => by rw [mem_modeSet] at hp; exact ⟨hp.1, hp.2.2⟩) c (a := 0) (b := 1) one_pos
    fun θ φ _ _ => ?_
  rw [hdir]
  refine sum_eq_zero fun m hm => ?_
  obtain ⟨e, he, hpar⟩ : ∃ e : ℕ, e ≤ 1 ∧ (m + s) % 2 = e := ⟨((m + s) % 2).toNat, by omega, by omega⟩
  have hpoly : ∀ p : (_ : ℤ) × ℤ, ∃ P ∈ degreeLT ℂ (L + 1 - e), p ∈ (modeSet s L).filter (fun p => p.2 = m) →
      ∀ θ : ℝ, sYlm (Real.cos (θ / 2)) (Real.sin (θ / 2)) s p.1 p.2 = (Real.sin θ : ℂ) ^ e * P.eval (Real.cos θ : ℂ) := by
    intro p
    by_cases hp : p ∈ (modeSet s L).filter (fun p => p.2 = m)
    · have hp' := hp
      rw [mem_filter, mem_modeSet] at hp'
      obtain ⟨P, h1, h2⟩ := theta_poly (s := s) (l := p.1) (m := p.2) (L := L) hp'.1.2.1 e he (by rw [hp'.2]; exact hpar)
      exact ⟨P, h1, fun _ => h2⟩
    · exact ⟨0, Submodule.zero_mem _, fun h => absurd h hp⟩
  choose P hP1 hP2 using hpoly
  have hsum : ∀ θ : ℝ, ∑ p ∈ modeSet s L with p.2 = m, c p * sYlm (Real.cos (θ / 2)) (Real.sin (θ / 2)) s p.1 p.2
      = (Real.sin θ : ℂ) ^ e * (∑ p ∈ modeSet s L with p.2 = m, C (c p) * P p).eval (Real.cos θ : ℂ) := by
    intro θ
    rw [eval_finset_sum, mul_sum]
    refine sum_congr rfl fun p hp => ?_
    rw [hP2 p hp, eval_mul, eval_C]; ring
  have hQ : (∑ p ∈ modeSet s L with p.2 = m, C (c p) * P p) = 0 := by
    refine theta_sampling ht he (Submodule.sum_mem _ fun p _ => ?_) fun j hj => ?_
    · rw [← smul_eq_C_mul]; exact Submodule.smul_mem _ _ (hP1 p)
    · rw [← hsum]; exact hz j hj m hm
  rw [hsum, hQ]
  simp

end SF
