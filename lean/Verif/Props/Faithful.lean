import Verif.Props.AllRotors

/-!
# C106: which rotors have the same Wigner D matrix
-/

set_option autoImplicit false

namespace SF

open Finset ComplexConjugate Quaternion

/-- The matrices of two rotors are equal for one `ell = n/2 > 0` exactly if the rotors are equal, or `ell` is an integer and they
are opposite. -/
theorem wignerD_faithful {q r : ℍ[ℝ]} (hq : normSq q = 1) (hr : normSq r = 1) {n : ℕ} (hn : 0 < n)
    (h : ∀ mp m, Spec.ValidD n mp m → Spec.wignerD (partA q) (partB q) n mp m = Spec.wignerD (partA r) (partB r) n mp m) :
    q = r ∨ (n % 2 = 0 ∧ q = -r) := by
  have hqq : star q * q = 1 := by rw [star_mul_self, hq]; simp
  have hx : normSq (star q * r) = 1 := by rw [map_mul, normSq_star, hq, hr, one_mul]
  have key : ∀ m, Spec.ValidD n m m → Spec.wignerD (partA (star q * r)) (partB (star q * r)) n m m = 1 := by
    intro m hv
    rw [← C12_closed_form _ _ n m m hv]
    have e : ∀ k ∈ range (n + 1), Spec.wignerD (partA (star q)) (partB (star q)) n m (2 * k - n) * Spec.wignerD (partA r) (partB r) n (2 * k - n) m
        = Spec.wignerD (partA (star q)) (partB (star q)) n m (2 * k - n) * Spec.wignerD (partA q) (partB q) n (2 * k - n) m := by
      intro k hk
      rw [mem_range] at hk
      rw [h _ _ ⟨by rw [abs_le]; omega, hv.2.1, by omega, hv.2.2.2⟩]
    rw [sum_congr rfl e, C12_closed_form _ _ n m m hv, hqq]
    have eA : partA 1 = 1 := by apply Complex.ext <;> simp [partA]
    have eB : partB 1 = 0 := by apply Complex.ext <;> simp [partB]
    rw [eA, eB, wD_rb_zero' (by simp) hv, if_pos rfl, one_zpow]
  generalize hxd : star q * r = x at key hx
  have hr' : r = q * x := by
    rw [← hxd, ← mul_assoc, self_mul_star, hq]; simp
  have hu := unitQ.mpr hx
  have top : partA x ^ n = 1 := by
    have k := key n ⟨by simp, by simp, by simp, by simp⟩
    have e : Spec.wignerD (partA x) (partB x) n n n = partA x ^ n := by
      unfold Spec.wignerD Spec.Dpq
      have e1 : (((n : ℤ) + n) / 2).toNat = n := by omega
      have e2 : (((n : ℤ) - n) / 2).toNat = 0 := by omega
      rw [e1, e2]
      have : ((n.factorial : ℝ) * (Nat.factorial 0 : ℕ)) / (n.factorial * (Nat.factorial 0 : ℕ)) = 1 :=
        div_self (by positivity)
      rw [this]
      simp
    rw [← e, k]
  have hA : ‖partA x‖ = 1 := by
    have := congrArg norm top
    rw [norm_pow, norm_one] at this
    exact (pow_eq_one_iff_of_nonneg (norm_nonneg _) hn.ne').mp this
  have hA' : Complex.normSq (partA x) = 1 := by rw [Complex.normSq_eq_norm_sq, hA, one_pow]
  have hB : partB x = 0 := by
    unfold Spec.IsUnit' at hu
    rw [hA'] at hu
    exact Complex.normSq_eq_zero.mp (by linarith)
  have h0 : partA x ≠ 0 := by intro h; rw [h, norm_zero] at hA; exact zero_ne_one hA
  have hv2 : Spec.ValidD n ((n : ℤ) - 2) ((n : ℤ) - 2) := ⟨by rw [abs_le]; omega, by rw [abs_le]; omega, by omega, by omega⟩
  have k2 := key _ hv2
  rw [hB, wD_rb_zero' hA' hv2, if_pos rfl, zpow_sub₀ h0, zpow_natCast, top] at k2
  have sq1 : partA x ^ 2 = 1 := by
    have h3 : partA x ^ (2 : ℤ) ≠ 0 := zpow_ne_zero _ h0
    have := (div_eq_iff h3).mp k2
    rw [one_mul] at this
    exact_mod_cast this.symm
  have back : ∀ {a : ℝ}, partA x = a → x = mkQ a 0 0 0 := by
    intro a ha
    have b1 := congrArg Complex.re hB
    have b2 := congrArg Complex.im hB
    have a1 := congrArg Complex.re ha
    have a2 := congrArg Complex.im ha
    simp only [partA, partB, Complex.zero_re, Complex.zero_im, Complex.ofReal_re, Complex.ofReal_im] at b1 b2 a1 a2
    ext <;> simp [a1, a2, b1, b2]
  rcases sq_eq_one_iff.mp sq1 with h1 | h1
  · left
    have : x = 1 := by rw [back (a := 1) (by rw [h1]; simp)]; ext <;> simp
    rw [hr', this, mul_one]
  · have : x = -1 := by rw [back (a := -1) (by rw [h1]; simp)]; ext <;> simp
    right
    constructor
    · by_contra ho
      rw [h1, (Nat.odd_iff.mpr (by omega : n % 2 = 1)).neg_one_pow] at top
      norm_num at top
    · rw [hr', this]; ext <;> simp

/-- **C106 (the matrices determine the rotor).** For a fixed `ell = n/2 > 0`, `Wigner_D_element` returns the same matrix for two rotors
outside the punctured neighbourhoods of the poles exactly if the rotors are equal, or opposite and `ell` is an integer. -/
theorem C106_faithful {L : ℤ} {table : List ℝ} (ht : IsWignerTable L table) (junk junk' : ℕ → ℂ) (q r : ℍ[ℝ]) (hq : GenericQ q)
    (hr : GenericQ r) (n : ℕ) (hn : 0 < n) (hle : (n : ℤ) ≤ 2 * L) :
    (∀ mp m, Spec.ValidD n mp m → apiD table L junk q n mp m = apiD table L junk' r n mp m) ↔ q = r ∨ (n % 2 = 0 ∧ q = -r) := by
  constructor
  · intro h
    refine wignerD_faithful (unitQ.mp hq.1) (unitQ.mp hr.1) hn fun mp m hv => ?_
    have := h mp m hv
    rw [apiD_eq ht junk hq hv hle, apiD_eq ht junk' hr hv hle] at this
    injection this with this
    injection this
  · rintro (rfl | ⟨he, rfl⟩) mp m hv
    · rw [apiD_eq ht junk hq hv hle, apiD_eq ht junk' hq hv hle]
    · obtain ⟨v, v1, v2⟩ := C13_double_cover ht junk r hr n mp m hv hle
      rw [v2, apiD_eq ht junk' hr hv hle]
      rw [apiD_eq ht junk hr hv hle] at v1
      injection v1 with v1
      injection v1 with v1
      rw [zpow_natCast, (Nat.even_iff.mpr he).neg_one_pow, one_mul, v1]

/-- **C106 (near the poles they do not).** There are unit rotors, neither equal nor opposite, for which every call of `Wigner_D_element`
returns the same number. -/
theorem C106_collision : ∃ q r : ℍ[ℝ], normSq q = 1 ∧ normSq r = 1 ∧ q ≠ r ∧ q ≠ -r ∧
    ∀ {L : ℤ} {table : List ℝ} (_ : IsWignerTable L table) (junk junk' : ℕ → ℂ) (n mp m : ℤ) (_ : Spec.ValidD n mp m) (_ : n ≤ 2 * L),
      apiD table L junk q n mp m = apiD table L junk' r n mp m := by
  have he : (0 : ℝ) < epsilon := by unfold epsilon; positivity
  have he1 : epsilon ≤ 1 / 2 := by unfold epsilon; norm_num
  obtain ⟨c, hc, hc0⟩ : ∃ c : ℝ, c ^ 2 = 1 - epsilon ^ 2 ∧ 0 < c := by
    have : 0 < 1 - epsilon ^ 2 := by nlinarith
    exact ⟨Real.sqrt (1 - epsilon ^ 2), Real.sq_sqrt this.le, Real.sqrt_pos.mpr this⟩
  have u1 : normSq (mkQ c epsilon 0 0) = 1 := by rw [normSq_def']; simp; linarith
  have u2 : normSq (mkQ c 0 epsilon 0) = 1 := by rw [normSq_def']; simp; linarith
  have a1 : partA (mkQ c epsilon 0 0) = c := by apply Complex.ext <;> simp [partA]
  have a2 : partA (mkQ c 0 epsilon 0) = c := by apply Complex.ext <;> simp [partA]
  have b1 : partB (mkQ c epsilon 0 0) = epsilon * Complex.I := by apply Complex.ext <;> simp [partB]
  have b2 : partB (mkQ c 0 epsilon 0) = epsilon := by apply Complex.ext <;> simp [partB]
  refine ⟨mkQ c epsilon 0 0, mkQ c 0 epsilon 0, u1, u2, fun h => ?_, fun h => ?_, ?_⟩
  · have := congrArg QuaternionAlgebra.imI h
    simp only [mkQ_imI] at this
    exact he.ne' this
  · have := congrArg QuaternionAlgebra.re h
    simp at this
    linarith
  · intro L table ht junk junk' n mp m hv hle
    rw [apiD_val ht junk u1 hv hle, apiD_val ht junk' u2 hv hle]
    have na : ¬ ‖(c : ℂ)‖ ≤ epsilon := by
      rw [Complex.norm_real, Real.norm_of_nonneg hc0.le]
      intro h
      nlinarith
    have nb1 : ‖(epsilon : ℂ) * Complex.I‖ ≤ epsilon := by
      rw [norm_mul, Complex.norm_I, mul_one, Complex.norm_real, Real.norm_of_nonneg he.le]
    have nb2 : ‖(epsilon : ℂ)‖ ≤ epsilon := by rw [Complex.norm_real, Real.norm_of_nonneg he.le]
    unfold Dval
    rw [a1, a2, b1, b2, if_neg na, if_neg na, if_pos nb1, if_pos nb2]

/-- The rotors `(3 + 4 i)/5` and `(3 + 4 j)/5` have different matrices for `ell = 1`. -/
example : ∃ table, IsWignerTable 32 table ∧ ∃ mp m, Spec.ValidD 2 mp m ∧
    apiD table 32 (fun _ => 0) (mkQ (3/5) (4/5) 0 0) 2 mp m ≠ apiD table 32 (fun _ => 0) (mkQ (3/5) 0 (4/5) 0) 2 mp m := by
  obtain ⟨t, ht⟩ := IsWignerTable.exists 32 (by norm_num)
  obtain ⟨h1, h2, -⟩ := generic_example
  refine ⟨t, ht, ?_⟩
  by_contra hn
  push Not at hn
  rcases (C106_faithful ht (fun _ => 0) (fun _ => 0) _ _ h1 h2 2 (by norm_num) (by norm_num)).mp hn with h | ⟨-, h⟩
  · have := congrArg QuaternionAlgebra.imI h
    norm_num at this
  · have := congrArg QuaternionAlgebra.re h
    norm_num at this

end SF
