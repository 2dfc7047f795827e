import Verif.Props.Faithful

/-!
# C108: the linear maps that commute with all rotations of the modes of one `ell`
-/

set_option autoImplicit false

namespace SF

open Finset ComplexConjugate Quaternion

/-- `D` is the matrix that `Wigner_D_element` returns for `ell = n/2` at the rotor `q`, with rows and columns numbered from `0` to `n`. -/
def IsDMatrix (table : List ℝ) (L : ℤ) (junk : ℕ → ℂ) (q : ℍ[ℝ]) (n : ℕ) (D : ℕ → ℕ → ℂ) : Prop :=
  ∀ j ≤ n, ∀ k ≤ n, apiD table L junk q n (2 * j - n) (2 * k - n) = .ok (.scalar (D j k))

theorem validD_nat {n j k : ℕ} (hj : j ≤ n) (hk : k ≤ n) : Spec.ValidD n (2 * j - n) (2 * k - n) :=
  ⟨by rw [abs_le]; omega, by rw [abs_le]; omega, by omega, by omega⟩

/-- The last column has no zeros away from the poles. -/
theorem wignerD_last_ne {a b : ℂ} (ha : a ≠ 0) (hb : b ≠ 0) {n j : ℕ} (hj : j ≤ n) : Spec.wignerD a b n (2 * j - n) (2 * n - n) ≠ 0 := by
  unfold Spec.wignerD Spec.Dpq
  have e1 : (((n : ℤ) + (2 * j - n)) / 2).toNat = j := by omega
  have e2 : (((n : ℤ) - (2 * j - n)) / 2).toNat = n - j := by omega
  have e3 : (((n : ℤ) + (2 * n - n)) / 2).toNat = n := by omega
  have e4 : (((n : ℤ) - (2 * n - n)) / 2).toNat = 0 := by omega
  rw [e1, e2, e3, e4]
  refine mul_ne_zero ?_ ?_
  · have : (0 : ℝ) < (n.factorial * (Nat.factorial 0) : ℝ) / (j.factorial * (n - j).factorial) := by positivity
    exact_mod_cast (Real.sqrt_pos.mpr this).ne'
  · simp [ha, hb]

/-- **C108.** A matrix commutes with the matrices of `Wigner_D_element`, for one `ell = n/2` and all the rotors outside the punctured
neighbourhoods of the poles, exactly if it is a multiple of the identity matrix. -/
theorem C108_commutant {L : ℤ} {table : List ℝ} (ht : IsWignerTable L table) (junk : ℕ → ℂ) (n : ℕ) (hle : (n : ℤ) ≤ 2 * L) (A : ℕ → ℕ → ℂ) :
    (∀ (q : ℍ[ℝ]) (D : ℕ → ℕ → ℂ), GenericQ q → IsDMatrix table L junk q n D → ∀ j ≤ n, ∀ k ≤ n,
      ∑ i ∈ range (n + 1), A j i * D i k = ∑ i ∈ range (n + 1), D j i * A i k) ↔
    ∃ c : ℂ, ∀ j ≤ n, ∀ k ≤ n, A j k = if j = k then c else 0 := by
  constructor
  · intro h
    have diag : ∀ j ≤ n, ∀ k ≤ n, j ≠ k → A j k = 0 := by
      intro j hj k hk hne
      have hjk : ((j : ℝ) - k) ≠ 0 := by rw [sub_ne_zero]; exact_mod_cast hne
      let γ : ℝ := Real.pi / ((j : ℝ) - k)
      let E : ℕ → ℂ := fun i => Complex.exp (Complex.I * half (2 * i - n) * γ)
      have := h _ (fun i l => if i = l then E l else 0) (generic_zrot γ) (fun i hi l hl => by
        rw [C13_z_rotation ht junk γ n _ _ (validD_nat hi hl) hle]
        congr 3
        rw [eq_iff_iff]; omega) j hj k hk
      simp only [mul_ite, mul_zero, ite_mul, zero_mul] at this
      rw [sum_ite_eq' _ k, sum_ite_eq _ j, if_pos (by rw [mem_range]; omega), if_pos (by rw [mem_range]; omega)] at this
      have e : E j = -E k := by
        have : Complex.I * half (2 * j - n) * γ = Complex.I * half (2 * k - n) * γ + Real.pi * Complex.I := by
          have hjk' : ((j : ℂ) - k) ≠ 0 := by exact_mod_cast hjk
          simp only [γ, half]
          push_cast
          field_simp
          ring
        simp only [E]
        rw [this, Complex.exp_add, Complex.exp_pi_mul_I]
        ring
      rw [e] at this
      have ne : E k ≠ 0 := Complex.exp_ne_zero _
      have h2 : E k * A j k = 0 := by linear_combination this / 2
      exact (mul_eq_zero.mp h2).resolve_left ne
    refine ⟨A n n, fun j hj k hk => ?_⟩
    split_ifs with hjk
    swap
    · exact diag j hj k hk hjk
    subst hjk
    obtain ⟨g, -, -⟩ := generic_example
    have := h _ (fun i l => Spec.wignerD (partA (mkQ (3/5) (4/5) 0 0)) (partB (mkQ (3/5) (4/5) 0 0)) n (2 * i - n) (2 * l - n)) g
      (fun i hi l hl => apiD_eq ht junk g (validD_nat hi hl) hle) j hj n le_rfl
    beta_reduce at this
    rw [sum_eq_single j, sum_eq_single n] at this
    · have ne : Spec.wignerD (partA (mkQ (3/5) (4/5) 0 0)) (partB (mkQ (3/5) (4/5) 0 0)) n (2 * j - n) (2 * n - n) ≠ 0 :=
        wignerD_last_ne (fun e => by have := congrArg Complex.re e; simp [partA] at this)
          (fun e => by have := congrArg Complex.im e; simp [partB] at this) hj
      rw [mul_comm] at this
      exact mul_left_cancel₀ ne this
    · intro i hi hne
      rw [mem_range] at hi
      rw [diag i (by omega) n le_rfl hne, mul_zero]
    · intro hi; rw [mem_range] at hi; omega
    · intro i hi hne
      rw [mem_range] at hi
      rw [diag j hj i (by omega) hne.symm, zero_mul]
    · intro hi; rw [mem_range] at hi; omega
  · rintro ⟨c, hc⟩ q D _ _ j hj k hk
    have e1 : ∑ i ∈ range (n + 1), A j i * D i k = ∑ i ∈ range (n + 1), if j = i then c * D i k else 0 := by
      refine sum_congr rfl fun i hi => ?_
      rw [mem_range] at hi
      rw [hc j hj i (by omega)]; split_ifs <;> simp
    have e2 : ∑ i ∈ range (n + 1), D j i * A i k = ∑ i ∈ range (n + 1), if i = k then D j i * c else 0 := by
      refine sum_congr rfl fun i hi => ?_
      rw [mem_range] at hi
      rw [hc i (by omega) k hk]; split_ifs <;> simp
    rw [e1, e2, sum_ite_eq _ j, sum_ite_eq' _ k, if_pos (by rw [mem_range]; omega), if_pos (by rw [mem_range]; omega), mul_comm]

/-- The matrix that exchanges the modes `m = 1/2` and `m = -1/2` of `ell = 1/2` does not commute with all rotations. -/
example : ∃ table, IsWignerTable 32 table ∧ ∃ (q : ℍ[ℝ]) (D : ℕ → ℕ → ℂ), GenericQ q ∧ IsDMatrix table 32 (fun _ => 0) q 1 D ∧
    ∃ j ≤ 1, ∃ k ≤ 1, ∑ i ∈ range 2, (if j + i = 1 then 1 else 0) * D i k ≠ ∑ i ∈ range 2, D j i * (if i + k = 1 then 1 else 0) := by
  obtain ⟨t, ht⟩ := IsWignerTable.exists 32 (by norm_num)
  refine ⟨t, ht, ?_⟩
  by_contra hn
  push Not at hn
  obtain ⟨c, hc⟩ := (C108_commutant ht (fun _ => 0) 1 (by norm_num) fun j k => if j + k = 1 then 1 else 0).mp
    fun q D hq hD j hj k hk => hn q D hq hD j hj k hk
  have := hc 0 (by norm_num) 1 le_rfl
  norm_num at this

end SF
