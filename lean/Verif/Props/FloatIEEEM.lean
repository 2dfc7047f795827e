import Verif.Lemmas.IEEEM
import Verif.Props.FloatErrorM

/-!
# Property C90: `Wigner_D_matrices` and D elements of an array of rotors in floating-point arithmetic with underflow and overflow,
for approximately normalised rotors

The arithmetic and the range condition `RangeY` are those of C87; the values are compared with the D function of the *exactly
normalised* rotor.
-/

set_option autoImplicit false

namespace SF

open Finset ComplexConjugate Quaternion

/-- The larger of the formula's and the shortcuts' error; `x` bounds the smaller modulus of the rotors that take the shortcuts. -/
noncomputable def matErrI (u w η τ x : ℝ) (ell : ℤ) : ℝ :=
  max (floatErrM u (2 * ell).toNat * Real.sqrt 2 ^ (2 * ell).toNat * (1 + gam τ (2 * ell).toNat) + underErr η (2 * ell).toNat
      + gam τ (2 * ell).toNat)
    (ieeePole w τ x (2 * ell).toNat)

/-- The stores of zeros. -/
theorem store_zero_acc {G : ℤ → ℤ → ℤ → ℂ → Prop} {a b ell mp m : ℤ} (ha : 0 ≤ a) (h1 : a ≤ ell) (h2 : ell ≤ b)
    (h3 : |mp| ≤ ell) (h4 : |m| ≤ ell) (t1 : G ell mp m 0) (t2 : G ell (-mp) (-m) 0) (t3 : G ell m mp 0) (t4 : G ell (-m) (-mp) 0)
    (o : List ℂ) (ho : o.length = (LMpMlist a b).length) :
    ∃ o', mats_store_zero (linear_matrix_offset ell a) ell mp m o = .ok o' ∧
      o'.length = (LMpMlist a b).length ∧ (∀ k, CorrP (SlotAcc G a b) o k → CorrP (SlotAcc G a b) o' k) ∧
      (∀ k, W4 a ell mp m k → CorrP (SlotAcc G a b) o' k) := by
  have a3 : |-mp| ≤ ell := by rwa [abs_neg]
  have a4 : |-m| ≤ ell := by rwa [abs_neg]
  obtain ⟨s1, n1, -, q1⟩ := slot_acc (G := G) ha h1 h2 h3 h4
  obtain ⟨s2, n2, -, q2⟩ := slot_acc (G := G) ha h1 h2 a3 a4
  obtain ⟨s3, n3, -, q3⟩ := slot_acc (G := G) ha h1 h2 h4 h3
  obtain ⟨s4, n4, -, q4⟩ := slot_acc (G := G) ha h1 h2 a4 a3
  obtain ⟨o1, w1, l1, g1, k1⟩ := wr_rightP (Q := SlotAcc G a b) ho s1 n1 (q1 _ t1)
  obtain ⟨o2, w2, l2, g2, k2⟩ := wr_rightP l1 s2 n2 (q2 _ t2)
  obtain ⟨o3, w3, l3, g3, k3⟩ := wr_rightP l2 s3 n3 (q3 _ t3)
  obtain ⟨o4, w4, l4, g4, k4⟩ := wr_rightP l3 s4 n4 (q4 _ t4)
  unfold mats_store_zero
  change ∃ o', (wr o (slot a ell mp m) 0 >>= _) = .ok o' ∧ _
  rw [w1, bind_ok]
  by_cases habs : |m| ≠ |mp|
  · refine ⟨o4, ?_, l4, fun k hk => g4 k (g3 k (g2 k (g1 k hk))), ?_⟩
    · rw [if_pos habs]
      change (wr o1 (slot a ell (-mp) (-m)) _ >>= fun o2 => wr o2 (slot a ell m mp) _ >>=
        fun o3 => wr o3 (slot a ell (-m) (-mp)) _) = _
      rw [w2, bind_ok, w3, bind_ok, w4]
    · rintro k (rfl | rfl | rfl | rfl)
      · exact g4 _ (g3 _ (g2 _ k1))
      · exact g4 _ (g3 _ k2)
      · exact g4 _ k3
      · exact k4
  · rw [if_neg habs]
    push Not at habs
    by_cases hm : m ≠ 0
    · refine ⟨o2, ?_, l2, fun k hk => g2 k (g1 k hk), ?_⟩
      · rw [if_pos hm]; exact w2
      · rcases abs_eq_abs.mp habs with h | h
        · subst h
          rintro k (rfl | rfl | rfl | rfl)
          · exact g2 _ k1
          · exact k2
          · exact g2 _ k1
          · exact k2
        · subst h
          rw [neg_neg] at k2
          rintro k (rfl | rfl | rfl | rfl) <;> (try rw [neg_neg]) <;> first | exact g2 _ k1 | exact k2
    · push Not at hm
      subst hm
      have : mp = 0 := by simpa using habs.symm
      subst this
      refine ⟨o1, by simp; rfl, l1, g1, ?_⟩
      rintro k (rfl | rfl | rfl | rfl) <;> simpa using k1

section
variable {u w η ν Ω eps : ℝ} {P : ℕ} {δ ζ : ℕ → ℝ} {F : FloatOpsY} (hF : F.IEEE u w η ν Ω P δ ζ)
include hF

theorem phase_oneI {ell mp m : ℤ} (hR : Range u η ν Ω eps (2 * ell).toNat) {Ra Rb : ℂ} (h1 : |mp| ≤ ell) (h2 : |m| ≤ ell) :
    |m + mp| + |m - mp| ≤ ((2 * ell).toNat : ℤ) ∧
    |F.add (F.mul (F.arg Ra) ((m + mp : ℤ) : ℝ)) (F.mul (F.arg Rb) ((m - mp : ℤ) : ℝ))
      - (Complex.arg Ra * ((m + mp : ℤ) : ℝ) + Complex.arg Rb * ((m - mp : ℤ) : ℝ))|
      ≤ gam u 4 * (2 * Real.pi * (2 * ell).toNat) + (16 * (2 * ell).toNat + 9) * η ∧
    |F.add (F.mul (F.arg Rb) ((m - mp : ℤ) : ℝ)) (F.mul (F.arg Ra) ((m + mp : ℤ) : ℝ))
      - (Complex.arg Ra * ((m + mp : ℤ) : ℝ) + Complex.arg Rb * ((m - mp : ℤ) : ℝ))|
      ≤ gam u 4 * (2 * Real.pi * (2 * ell).toNat) + (16 * (2 * ell).toNat + 9) * η := by
  have hu0 := hF.u_nonneg
  have hu1 := hF.u_lt_one
  have hη := hF.η_nonneg
  have hij : |m + mp| + |m - mp| ≤ ((2 * ell).toNat : ℤ) := by
    rw [abs_le] at h1 h2
    rcases abs_cases (m + mp) with h | h <;> rcases abs_cases (m - mp) with h' | h' <;> omega
  have pi0 := Real.pi_pos
  have mono : gam u 3 * (Real.pi * ((2 * ell).toNat : ℝ)) + (8 * (2 * ell).toNat + 5) * η
      ≤ gam u 4 * (2 * Real.pi * (2 * ell).toNat) + (16 * (2 * ell).toNat + 9) * η := by
    have g3 := gam_nonneg hu0 hu1 3
    have g := gam_mono hu0 hu1 (show 3 ≤ 4 by norm_num)
    have n0 : (0 : ℝ) ≤ (2 * ell).toNat := Nat.cast_nonneg _
    refine add_le_add (mul_le_mul g ?_ (by positivity) (g3.trans g)) (mul_le_mul_of_nonneg_right (by linarith) hη)
    have : 0 ≤ Real.pi * ((2 * ell).toNat : ℝ) := by positivity
    nlinarith
  refine ⟨hij, (phase_errIY hF.toIEEE hR Ra Rb _ _ hij).trans mono, ?_⟩
  rw [add_comm (Complex.arg Ra * _)]
  exact (phase_errIY hF.toIEEE hR Rb Ra _ _ (by rw [add_comm]; exact hij)).trans mono

theorem mats_ge_accI {L : ℤ} {table : List ℝ} (ht : RoundedTable u L table) {Ra Rb : ℂ}
    {a b ell mp m : ℤ} (hR : Range u η ν Ω eps (2 * ell).toNat) (hP : (2 * ell).toNat ≤ P) (hA : AwayI F eps (2 * ell).toNat Ra Rb)
    (hord : F.abs Rb ≤ F.abs Ra) (ha : 0 ≤ a) (h1 : a ≤ ell) (h2 : ell ≤ b) (hbL : b ≤ L)
    (h3 : |mp| ≤ ell) (h4 : |m| ≤ ell) (o : List ℂ) (ho : o.length = (LMpMlist a b).length) :
    ∃ o', matsF_ra_ge_rb F table (F.abs Ra) (F.arg Ra) (F.abs Rb) (F.arg Rb) a ell mp m o = .ok o' ∧
      o'.length = (LMpMlist a b).length ∧
      (∀ k, CorrP (SlotAcc (GenericMI u η Ra Rb) a b) o k → CorrP (SlotAcc (GenericMI u η Ra Rb) a b) o' k) ∧
      (∀ k, W4 a ell mp m k → CorrP (SlotAcc (GenericMI u η Ra Rb) a b) o' k) := by
  obtain ⟨p', q', p, q, hsum, g1, g2, g3, g4⟩ := int_pq h3 h4
  obtain ⟨c, c1, c2⟩ := ht.coeff_int g1 g2 g3 g4 (by omega)
  obtain ⟨S, s1, s2⟩ := regimeAI hF hR hA hord rfl h3 h4 hsum g1 g2 g3 g4
  have hmag := mag_errMI hF hR hP hA (C := Wcoef p' q' p q) (τ := 1) (by simp) (by rw [one_mul]; exact c2)
    (by unfold Wcoef; positivity) (coef_le hsum (by omega))
    (e1 := 2 * ell - m + mp - 2 * max 0 (mp - m)) (e2 := m - mp + 2 * max 0 (mp - m)) (by omega) (by omega) (by omega)
  rw [one_mul] at hmag
  obtain ⟨hij, ph1, -⟩ := phase_oneI hF hR (Ra := Ra) (Rb := Rb) h3 h4
  have ph2 := phase_errI2 hF.toIEEE hR hF.pi Ra Rb _ _ hij (B := F.mul (-F.arg Ra) ((m + mp : ℤ) : ℝ)) (Or.inl rfl)
    (V := F.add (F.mul (-F.arg Ra) ((m + mp : ℤ) : ℝ)) (F.mul (F.add (F.arg Rb) F.pi) ((m - mp : ℤ) : ℝ))) (Or.inl rfl)
  have hG := s2 (if max 0 (mp - m) % 2 ≠ 0
      then -F.mul (F.mul c (F.ipow (F.abs Ra) (2 * ell - m + mp - 2 * max 0 (mp - m)))) (F.ipow (F.abs Rb) (m - mp + 2 * max 0 (mp - m)))
      else F.mul (F.mul c (F.ipow (F.abs Ra) (2 * ell - m + mp - 2 * max 0 (mp - m)))) (F.ipow (F.abs Rb) (m - mp + 2 * max 0 (mp - m))))
    (by
      split_ifs
      · rw [neg_one_mul]; exact Mix.neg hF.toIEEE hmag
      · rw [one_mul]; exact hmag)
  obtain ⟨v1, v2, v3, v4⟩ := hG.values hF hR rfl h3 h4 ph1 ph2
  unfold matsF_ra_ge_rb
  simp only [c1, bind_ok]
  by_cases hd0 : F.mul (F.mul c (F.ipow (F.abs Ra) (2 * ell - m + mp - 2 * max 0 (mp - m)))) (F.ipow (F.abs Rb) (m - mp + 2 * max 0 (mp - m))) = 0
  · rw [if_pos hd0]
    simp only [hd0, neg_zero, ite_self] at v1 v2 v3 v4
    exact store_zero_acc ha h1 h2 h3 h4 (v1 0 (Or.inr ⟨trivial, rfl⟩)) (v2 0 (Or.inr ⟨trivial, rfl⟩)) (v3 0 (Or.inr ⟨trivial, rfl⟩)) (v4 0 (Or.inr ⟨trivial, rfl⟩)) o ho
  · rw [if_neg hd0, s1, bind_ok]
    exact storeF_right ha h1 h2 h3 h4 (v1 _ (Or.inl rfl)) (v2 _ (Or.inl rfl)) (v3 _ (Or.inl rfl)) (v4 _ (Or.inl rfl)) o ho

theorem mats_lt_accI {L : ℤ} {table : List ℝ} (ht : RoundedTable u L table) {Ra Rb : ℂ}
    {a b ell mp m : ℤ} (hR : Range u η ν Ω eps (2 * ell).toNat) (hP : (2 * ell).toNat ≤ P) (hA : AwayI F eps (2 * ell).toNat Ra Rb)
    (hord : F.abs Ra ≤ F.abs Rb) (ha : 0 ≤ a) (h1 : a ≤ ell) (h2 : ell ≤ b) (hbL : b ≤ L)
    (h3 : |mp| ≤ ell) (h4 : |m| ≤ ell) (o : List ℂ) (ho : o.length = (LMpMlist a b).length) :
    ∃ o', matsF_ra_lt_rb F table (F.abs Ra) (F.arg Ra) (F.abs Rb) (F.arg Rb) a ell mp m o = .ok o' ∧
      o'.length = (LMpMlist a b).length ∧
      (∀ k, CorrP (SlotAcc (GenericMI u η Ra Rb) a b) o k → CorrP (SlotAcc (GenericMI u η Ra Rb) a b) o' k) ∧
      (∀ k, W4 a ell mp m k → CorrP (SlotAcc (GenericMI u η Ra Rb) a b) o' k) := by
  obtain ⟨p', q', p, q, hsum, g1, g2, g3, g4⟩ := int_pq h3 h4
  obtain ⟨c, c1, c2⟩ := ht.coeff_int (p' := q') (q' := p') (ell := ell) (mp := -mp) (m := m) (by omega) (by omega) g3 g4 (by omega)
  push_cast at c1
  obtain ⟨S, s1, s2⟩ := regimeBI hF hR hA hord rfl h3 h4 hsum g1 g2 g3 g4
  have hmag := mag_errMI hF hR hP (za := Rb) (zb := Ra) ⟨hA.b2, hA.a2, hA.bk, hA.ak, hA.b, hA.a⟩ (C := Wcoef q' p' p q) (τ := 1) (by simp)
    (by rw [one_mul]; exact c2) (by unfold Wcoef; positivity) (coef_le (by omega) (by omega))
    (e1 := 2 * ell - m - mp - 2 * max 0 (-mp - m)) (e2 := m + mp + 2 * max 0 (-mp - m)) (by omega) (by omega) (by omega)
  rw [one_mul] at hmag
  obtain ⟨hij, -, ph1⟩ := phase_oneI hF hR (Ra := Ra) (Rb := Rb) h3 h4
  have ph2 := phase_errI2 hF.toIEEE hR hF.pi Ra Rb _ _ hij (B := -F.mul (F.arg Ra) ((m + mp : ℤ) : ℝ)) (Or.inr rfl)
    (V := F.add (F.mul (F.add (F.arg Rb) F.pi) ((m - mp : ℤ) : ℝ)) (-F.mul (F.arg Ra) ((m + mp : ℤ) : ℝ))) (Or.inr rfl)
  have hG := s2 (if (ell + m + max 0 (-mp - m)) % 2 ≠ 0
      then -F.mul (F.mul c (F.ipow (F.abs Rb) (2 * ell - m - mp - 2 * max 0 (-mp - m)))) (F.ipow (F.abs Ra) (m + mp + 2 * max 0 (-mp - m)))
      else F.mul (F.mul c (F.ipow (F.abs Rb) (2 * ell - m - mp - 2 * max 0 (-mp - m)))) (F.ipow (F.abs Ra) (m + mp + 2 * max 0 (-mp - m))))
    (by
      split_ifs
      · rw [neg_one_mul]; exact Mix.neg hF.toIEEE hmag
      · rw [one_mul]; exact hmag)
  obtain ⟨v1, v2, v3, v4⟩ := hG.values hF hR rfl h3 h4 ph1 ph2
  unfold matsF_ra_lt_rb
  simp only [c1, bind_ok]
  by_cases hd0 : F.mul (F.mul c (F.ipow (F.abs Rb) (2 * ell - m - mp - 2 * max 0 (-mp - m)))) (F.ipow (F.abs Ra) (m + mp + 2 * max 0 (-mp - m))) = 0
  · rw [if_pos hd0]
    simp only [hd0, neg_zero, ite_self] at v1 v2 v3 v4
    exact store_zero_acc ha h1 h2 h3 h4 (v1 0 (Or.inr ⟨trivial, rfl⟩)) (v2 0 (Or.inr ⟨trivial, rfl⟩)) (v3 0 (Or.inr ⟨trivial, rfl⟩)) (v4 0 (Or.inr ⟨trivial, rfl⟩)) o ho
  · rw [if_neg hd0, s1, bind_ok]
    exact storeF_right ha h1 h2 h3 h4 (v1 _ (Or.inl rfl)) (v2 _ (Or.inl rfl)) (v3 _ (Or.inl rfl)) (v4 _ (Or.inl rfl)) o ho

end

section
variable {u w η ν Ω eps τ : ℝ} {P : ℕ} {δ ζ : ℕ → ℝ} {F : FloatOpsY} (hF : F.IEEE u w η ν Ω P δ ζ) {L : ℤ} (hY : RangeY u w η ν Ω eps τ P L)
include hF hY

/-- From the rotor of norm `N` to the normalised one. -/
theorem closeMI {N : ℝ} (hN : |N - 1| ≤ τ) {za zb : ℂ} (hu : Spec.IsUnit' za zb) {ell mp m : ℤ} (h1 : |mp| ≤ ell) (h2 : |m| ≤ ell) {v : ℂ}
    (h : GenericMI u η (N * za) (N * zb) ell mp m v) :
    ‖v - Spec.wignerD za zb (2 * ell) (2 * mp) (2 * m)‖ ≤ matErrI u w η τ (eps / ((1 - u) * (1 - τ))) ell := by
  have hτ0 := hY.τ_nonneg
  have hτ := hY.τ_lt
  have fN := fac_of_abs hN hτ
  have N0 := Fac.pos hτ0 hτ fN
  have nm : ∀ z : ℂ, ‖(N : ℂ) * z‖ = N * ‖z‖ := fun z => by rw [norm_mul, Complex.norm_real, Real.norm_eq_abs, abs_of_pos N0]
  have h0 : 0 ≤ ell := by have := abs_nonneg m; omega
  have hv := validD_int h1 h2
  have hn' : 2 * ell = ((2 * ell).toNat : ℤ) := by omega
  have h' := h.1
  refine le_trans ?_ (le_max_left _ _)
  revert hv h'
  generalize hn : (2 * ell).toNat = n at *
  intro hv h'
  rw [hn'] at h' hv ⊢
  have fp := floatErrM_nonneg hF.u_nonneg hF.u_lt_one n
  have hf := Fac.mono hτ0 hτ (show n * 1 ≤ n by omega) (Fac.pow hτ0 hτ fN n)
  have hfa := Fac.abs_sub hτ0 hτ hf
  have g0 := gam_nonneg hτ0 hτ n
  rw [wignerD_scale N za zb hv, nm, nm, ← mul_add, mul_pow] at h'
  have e : v - Spec.wignerD za zb n (2 * mp) (2 * m) = (v - ((N ^ n : ℝ) : ℂ) * Spec.wignerD za zb n (2 * mp) (2 * m))
      + ((N ^ n - 1 : ℝ) : ℂ) * Spec.wignerD za zb n (2 * mp) (2 * m) := by push_cast; ring
  rw [e]
  refine (norm_add_le _ _).trans ?_
  have k2 : ‖((N ^ n - 1 : ℝ) : ℂ) * Spec.wignerD za zb n (2 * mp) (2 * m)‖ ≤ gam τ n * 1 := by
    rw [norm_mul, Complex.norm_real, Real.norm_eq_abs]
    exact mul_le_mul hfa (wignerD_norm_le hu hv) (norm_nonneg _) g0
  have k3 : N ^ n * (‖za‖ + ‖zb‖) ^ n ≤ (1 + gam τ n) * Real.sqrt 2 ^ n :=
    mul_le_mul (by have := (abs_le.mp hfa).2; linarith) (norm_sum_unit hu n) (by positivity) (by positivity)
  have k4 := mul_le_mul_of_nonneg_left k3 fp
  nlinarith

/-- The shortcuts. -/
theorem shortcutMI {N : ℝ} (hN : |N - 1| ≤ τ) {za zb : ℂ} (hu : Spec.IsUnit' za zb) {ell mp m : ℤ} (hle : ell ≤ L) (h1 : |mp| ≤ ell) (h2 : |m| ≤ ell) :
    (F.abs (N * za) ≤ eps →
      ‖(if mp = -m then (if (ell + mp) % 2 = 0 then F.cpow (N * zb) (-2 * mp) else -F.cpow (N * zb) (-2 * mp)) else 0)
        - Spec.wignerD za zb (2 * ell) (2 * mp) (2 * m)‖ ≤ matErrI u w η τ (eps / ((1 - u) * (1 - τ))) ell) ∧
    (F.abs (N * zb) ≤ eps →
      ‖(if mp = m then F.cpow (N * za) (2 * mp) else 0) - Spec.wignerD za zb (2 * ell) (2 * mp) (2 * m)‖
        ≤ matErrI u w η τ (eps / ((1 - u) * (1 - τ))) ell) := by
  obtain ⟨u1, u2, -⟩ := unit_norm_le hu
  have h0 : 0 ≤ ell := by have := abs_nonneg m; omega
  obtain ⟨r1, -, r3, r4, -⟩ := hY.at hF.u_nonneg hF.u_lt_one hF.ν_pos h0 hle
  have r1' : Range u η ν Ω eps (2 * ell).toNat := r1.mono hF.u_nonneg hF.u_lt_one hF.ν_pos (by omega)
  have fN := fac_of_abs hN hY.τ_lt
  have hn : ((2 * ell).toNat : ℤ) = 2 * ell := by omega
  have hv := validD_int h1 h2
  rw [← hn] at hv
  rw [abs_le] at h1 h2
  constructor <;> intro h
  · have := small_elemI_ra hF.toIEEE r1' hY.τ_nonneg hY.τ_lt fN r3 hY.pole_lt r4 hu (smallI hF hY hN u1 h) hv
    rw [hn] at this
    refine (le_of_eq ?_).trans (this.trans (le_max_right _ _))
    congr 2
    unfold elemF_ra_small
    by_cases h : mp = -m
    · have hc : ¬(2 * mp ≠ -(2 * m) ∨ |2 * mp| > 2 * ell ∨ |2 * m| > 2 * ell) := by
        simp only [not_or, not_lt, gt_iff_lt, abs_le]; omega
      rw [if_pos h, if_neg hc]
      have e : -2 * mp = 2 * m := by omega
      rw [e]
      split_ifs <;> first | rfl | omega
    · rw [if_neg h, if_pos (by left; omega)]
  · have := small_elemI_rb hF.toIEEE r1' hY.τ_nonneg hY.τ_lt fN r3 hY.pole_lt r4 hu (smallI hF hY hN u2 h) hv
    rw [hn] at this
    refine (le_of_eq ?_).trans (this.trans (le_max_right _ _))
    congr 2
    unfold elemF_rb_small
    by_cases h : mp = m
    · have hc : ¬(2 * mp ≠ 2 * m ∨ |2 * mp| > 2 * ell ∨ |2 * m| > 2 * ell) := by
        simp only [not_or, not_lt, gt_iff_lt, abs_le]; omega
      rw [if_pos h, if_neg hc, h]
    · rw [if_neg h, if_pos (by left; omega)]

/-- **C90.** `_Wigner_D_matrices` at every rotor `N (za, zb)` whose norm `N` is within `τ` of 1, poles and their neighbourhoods
included: it succeeds, fills the whole array with the element `(ell, mp, m)` at the position given by `LMpM_index`, and every element
is within `matErrI` of the D function of the exactly normalised rotor `(za, zb)`.  (As nothing is assumed about operations whose result
exceeds `Ω`, this includes that no overflow affects the result; elements whose magnitude underflows to zero are covered.) -/
theorem C90_matrices {table : List ℝ} (ht : RoundedTable u L table) (N : ℝ) (hN : |N - 1| ≤ τ) (za zb : ℂ) (hu : Spec.IsUnit' za zb)
    {a b : ℤ} (ha : 0 ≤ a) (hbL : b ≤ L) (matrices : List ℂ) (hlen : matrices.length = (LMpMlist a b).length) :
    ∃ (f : ℤ → ℤ → ℤ → ℂ) (out : List ℂ), Wigner_D_matrices_kernelF F eps table (N * za) (N * zb) a b matrices = .ok out ∧
      out.length = matrices.length ∧
      ∀ ell mp m, a ≤ ell → ell ≤ b → |mp| ≤ ell → |m| ≤ ell →
        out[(LMpM_index ell mp m a).toNat]? = some (f ell mp m) ∧
        ‖f ell mp m - Spec.wignerD za zb (2 * ell) (2 * mp) (2 * m)‖ ≤ matErrI u w η τ (eps / ((1 - u) * (1 - τ))) ell := by
  have hu0 := hF.u_nonneg
  have hu1 := hF.u_lt_one
  suffices h : ∃ f : ℤ → ℤ → ℤ → ℂ, Wigner_D_matrices_kernelF F eps table (N * za) (N * zb) a b matrices = .ok (Ftarget f a b) ∧
      ∀ ell mp m, a ≤ ell → ell ≤ b → |mp| ≤ ell → |m| ≤ ell →
        ‖f ell mp m - Spec.wignerD za zb (2 * ell) (2 * mp) (2 * m)‖ ≤ matErrI u w η τ (eps / ((1 - u) * (1 - τ))) ell by
    obtain ⟨f, e, hf⟩ := h
    refine ⟨f, _, e, by rw [hlen]; simp [Ftarget], fun ell mp m g1 g2 g3 g4 => ⟨?_, hf ell mp m g1 g2 g3 g4⟩⟩
    have := (Ftarget_slot f ha g1 g2 g3 g4).2
    have es : slot a ell mp m = LMpM_index ell mp m a := (C05_offsets_agree ell mp m a b).1
    rwa [es] at this
  have hT : ∀ f : ℤ → ℤ → ℤ → ℂ, matrices.length = (Ftarget f a b).length := by intro f; rw [hlen]; simp [Ftarget]
  have at' := fun (ell : ℤ) (g1 : a ≤ ell) (g2 : ell ≤ b) =>
    hY.at hu0 hu1 hF.ν_pos (show 0 ≤ ell by omega) (show ell ≤ L by omega)
  unfold Wigner_D_matrices_kernelF
  simp only
  split_ifs with k1 k2 k3
  · refine ⟨fun ell mp m => if mp = -m then (if (ell + mp) % 2 = 0 then F.cpow (N * zb) (-2 * mp) else -F.cpow (N * zb) (-2 * mp)) else 0,
      block_loop_right ha _ ?_ matrices (hT _), fun ell mp m g1 g2 g3 g4 => (shortcutMI hF hY hN hu (by omega) g3 g4).1 k1⟩
    intro ell g1 g2 o ho
    refine block_right ha g1 g2 (fun mp => -mp) (fun mp h => by rwa [abs_neg]) ?_ _ ?_ o ho
    · intro mp m k1 k2 k3
      rw [if_neg (by omega)]
    · intro mp k1 o
      simp only
      rw [if_pos (neg_neg mp).symm]
      by_cases hp : (ell + mp) % 2 = 0
      · rw [if_pos hp, if_pos hp]; rfl
      · rw [if_neg hp, if_neg hp]; rfl
  · refine ⟨fun ell mp m => if mp = m then F.cpow (N * za) (2 * mp) else 0,
      block_loop_right ha _ ?_ matrices (hT _), fun ell mp m g1 g2 g3 g4 => (shortcutMI hF hY hN hu (by omega) g3 g4).2 k2⟩
    intro ell g1 g2 o ho
    refine block_right ha g1 g2 (fun mp => mp) (fun mp h => h) ?_ _ ?_ o ho
    · intro mp m k1 k2 k3
      rw [if_neg (by omega)]
    · intro mp k1 o
      rw [if_pos rfl]
      unfold slot
      rw [← (C05_offsets_agree ell mp mp a b).2.1]
  · obtain ⟨f, f1, f2⟩ := triple_loop_acc (G := GenericMI u η (N * za) (N * zb)) ha _ (fun ell mp m g1 g2 g3 g4 o ho => by
      obtain ⟨r1, r2, r3, -, -⟩ := at' ell g1 g2
      exact mats_lt_accI hF ht (r1.mono hu0 hu1 hF.ν_pos (by omega)) r2 (awayI hF hY hN hu r3 (not_le.mp k1) (not_le.mp k2)) k3.le ha g1 g2 hbL g3 g4 o ho)
      matrices hlen
    exact ⟨f, f1, fun ell mp m g1 g2 g3 g4 => closeMI hF hY hN hu g3 g4 (f2 ell mp m g1 g2 g3 g4)⟩
  · obtain ⟨f, f1, f2⟩ := triple_loop_acc (G := GenericMI u η (N * za) (N * zb)) ha _ (fun ell mp m g1 g2 g3 g4 o ho => by
      obtain ⟨r1, r2, r3, -, -⟩ := at' ell g1 g2
      exact mats_ge_accI hF ht (r1.mono hu0 hu1 hF.ν_pos (by omega)) r2 (awayI hF hY hN hu r3 (not_le.mp k1) (not_le.mp k2)) (not_lt.mp k3) ha g1 g2 hbL g3 g4 o ho)
      matrices hlen
    exact ⟨f, f1, fun ell mp m g1 g2 g3 g4 => closeMI hF hY hN hu g3 g4 (f2 ell mp m g1 g2 g3 g4)⟩

/-- One rotor of the array path. -/
theorem elements_valueI {ell mp m : ℤ} (hle : ell ≤ L) (h1 : |mp| ≤ ell) (h2 : |m| ≤ ell)
    {p' q' p q : ℕ} (hsum : p' + q' = p + q) (g1 : ell + mp = p') (g2 : ell - mp = q') (g3 : ell + m = p) (g4 : ell - m = q)
    {A B : ℝ} (hA : RelErr u A ((if max 0 (mp - m) % 2 ≠ 0 then -1 else 1) * Wcoef p' q' p q))
    (hB : RelErr u B ((if (ell + m + max 0 (-mp - m)) % 2 ≠ 0 then -1 else 1) * Wcoef q' p' p q)) (Q : ℍ[ℝ])
    (hQ : |Real.sqrt (normSq Q) - 1| ≤ τ) :
    ∃ v, D_elements_valueF F eps A B ell mp m (comps Q) = .ok v ∧
      ‖v - Spec.wignerD (partA Q / (Real.sqrt (normSq Q) : ℝ)) (partB Q / (Real.sqrt (normSq Q) : ℝ)) (2 * ell) (2 * mp) (2 * m)‖
        ≤ matErrI u w η τ (eps / ((1 - u) * (1 - τ))) ell := by
  have hu0 := hF.u_nonneg
  have hu1 := hF.u_lt_one
  obtain ⟨sA, sB, hU⟩ := split_norm hY.τ_lt hQ
  obtain ⟨r1, r2, r3, r4, r5⟩ := hY.at hF.u_nonneg hF.u_lt_one hF.ν_pos (show 0 ≤ ell by have := abs_nonneg m; omega) hle
  have hR : Range u η ν Ω eps (2 * ell).toNat := r1.mono hu0 hu1 hF.ν_pos (by omega)
  have sc := shortcutMI hF hY hQ hU hle h1 h2
  have cl := fun v => closeMI hF hY hQ hU (v := v) h1 h2
  have aw := awayI hF hY hQ hU r3
  rw [← sA, ← sB] at sc cl aw
  unfold D_elements_valueF
  have cA : (⟨(comps Q).1, (comps Q).2.2.2⟩ : ℂ) = partA Q := rfl
  have cB : (⟨(comps Q).2.2.1, (comps Q).2.1⟩ : ℂ) = partB Q := rfl
  have cM : max 0 (-m - mp) = max 0 (-mp - m) := by congr 1; ring
  simp only [cA, cB, cM]
  by_cases k1 : F.abs (partA Q) ≤ eps
  · rw [if_pos k1]
    refine ⟨if mp = -m then (if (ell + mp) % 2 = 0 then F.cpow (partB Q) (-2 * mp) else -F.cpow (partB Q) (-2 * mp)) else 0, ?_, sc.1 k1⟩
    split_ifs <;> first | rfl | contradiction
  rw [if_neg k1]
  by_cases k2 : F.abs (partB Q) ≤ eps
  · rw [if_pos k2]
    refine ⟨if mp = m then F.cpow (partA Q) (2 * mp) else 0, ?_, sc.2 k2⟩
    split_ifs <;> first | rfl | contradiction
  rw [if_neg k2]
  have hAw := aw (not_le.mp k1) (not_le.mp k2)
  obtain ⟨-, ph1, ph1'⟩ := phase_oneI hF hR (Ra := partA Q) (Rb := partB Q) h1 h2
  have e2 : |(-Complex.arg (partA Q) * ((m + mp : ℤ) : ℝ) + (Complex.arg (partB Q) + Real.pi) * ((m - mp : ℤ) : ℝ))
      - (-Complex.arg (partA Q) * ((m + mp : ℤ) : ℝ) + (Complex.arg (partB Q) + Real.pi) * ((m - mp : ℤ) : ℝ))|
      ≤ gam u 4 * (2 * Real.pi * (2 * ell).toNat) + (16 * (2 * ell).toNat + 9) * η := by
    rw [sub_self, abs_zero]
    have := gam_nonneg hu0 hu1 4
    have := Real.pi_pos
    have := hF.η_nonneg
    positivity
  by_cases k3 : F.abs (partA Q) < F.abs (partB Q)
  · rw [if_pos k3]
    obtain ⟨S, s1, s2⟩ := regimeBI hF hR hAw k3.le rfl h1 h2 hsum g1 g2 g3 g4
    have hmag := mag_errMI hF hR r2 (za := partB Q) (zb := partA Q) ⟨hAw.b2, hAw.a2, hAw.bk, hAw.ak, hAw.b, hAw.a⟩ (by split_ifs <;> simp) hB
      (by unfold Wcoef; positivity) (coef_le (by omega) (by omega))
      (e1 := 2 * ell - m - mp - 2 * max 0 (-mp - m)) (e2 := m + mp + 2 * max 0 (-mp - m)) (by omega) (by omega) (by omega)
    obtain ⟨v1, -⟩ := (s2 _ hmag).values hF hR rfl h1 h2 ph1' e2
    by_cases hd : F.mul (F.mul B (F.ipow (F.abs (partB Q)) (2 * ell - m - mp - 2 * max 0 (-mp - m)))) (F.ipow (F.abs (partA Q)) (m + mp + 2 * max 0 (-mp - m))) = 0
    · rw [if_pos hd]
      exact ⟨0, rfl, cl 0 (v1 0 (Or.inr ⟨hd, rfl⟩))⟩
    · rw [if_neg hd, s1]
      exact ⟨_, rfl, cl _ (v1 _ (Or.inl rfl))⟩
  · rw [if_neg k3]
    obtain ⟨S, s1, s2⟩ := regimeAI hF hR hAw (not_lt.mp k3) rfl h1 h2 hsum g1 g2 g3 g4
    have hmag := mag_errMI hF hR r2 hAw (by split_ifs <;> simp) hA
      (by unfold Wcoef; positivity) (coef_le hsum (by omega))
      (e1 := 2 * ell - m + mp - 2 * max 0 (mp - m)) (e2 := m - mp + 2 * max 0 (mp - m)) (by omega) (by omega) (by omega)
    obtain ⟨v1, -⟩ := (s2 _ hmag).values hF hR rfl h1 h2 ph1 e2
    by_cases hd : F.mul (F.mul A (F.ipow (F.abs (partA Q)) (2 * ell - m + mp - 2 * max 0 (mp - m)))) (F.ipow (F.abs (partB Q)) (m - mp + 2 * max 0 (mp - m))) = 0
    · rw [if_pos hd]
      exact ⟨0, rfl, cl 0 (v1 0 (Or.inr ⟨hd, rfl⟩))⟩
    · rw [if_neg hd, s1]
      exact ⟨_, rfl, cl _ (v1 _ (Or.inl rfl))⟩

/-- **C90.** `_Wigner_D_elements`: one element at an array of quaternions normalised up to `τ`.  It succeeds for every such array; an
element out of range is exactly zero; otherwise every value is within `matErrI` of the D function of the exactly normalised rotor. -/
theorem C90_array {table : List ℝ} (ht : RoundedTable u L table) (qs : List ℍ[ℝ]) (hq : ∀ q ∈ qs, |Real.sqrt (normSq q) - 1| ≤ τ)
    (ell mp m : ℤ) (hle : ell ≤ L) (values : List ℂ) (hlen : values.length = qs.length) :
    ∃ f : ℍ[ℝ] → ℂ, Wigner_D_elements_kernelF F eps table (qs.map comps) ell mp m values = .ok (qs.map f) ∧
      ∀ q ∈ qs, (¬ (|mp| ≤ ell ∧ |m| ≤ ell) → f q = 0) ∧
        (|mp| ≤ ell → |m| ≤ ell →
          ‖f q - Spec.wignerD (partA q / (Real.sqrt (normSq q) : ℝ)) (partB q / (Real.sqrt (normSq q) : ℝ)) (2 * ell) (2 * mp) (2 * m)‖
            ≤ matErrI u w η τ (eps / ((1 - u) * (1 - τ))) ell) := by
  classical
  by_cases h : |mp| ≤ ell ∧ |m| ≤ ell
  swap
  · have hcond : (|m| > ell ∨ |mp| > ell) := by
      by_contra hc
      rw [not_or, not_lt, not_lt] at hc
      exact h ⟨hc.2, hc.1⟩
    refine ⟨fun _ => 0, ?_, fun q _ => ⟨fun _ => rfl, fun a b => absurd ⟨a, b⟩ h⟩⟩
    unfold Wigner_D_elements_kernelF
    simp only [hcond, if_true]
    have := forL_map_wr (qs.map comps) values (by simpa using hlen) (fun _ => .ok (0 : ℂ)) (fun _ => 0) (fun _ _ => rfl)
    rw [List.map_map] at this
    refine Eq.trans ?_ this
    apply forL_congr
    intro i hi st
    rw [mem_pyRange] at hi
    have : (qs.map comps)[i.toNat]? = some (qs.map comps)[i.toNat] := List.getElem?_eq_getElem (by omega)
    rw [rd_ok hi.1 this]
    rfl
  obtain ⟨h1, h2⟩ := h
  obtain ⟨p', q', p, q, hsum, g1, g2, g3, g4⟩ := int_pq h1 h2
  obtain ⟨ca, ca1, ca2⟩ := ht.coeff_int g1 g2 g3 g4 hle
  obtain ⟨cb, cb1, cb2⟩ := ht.coeff_int (p' := q') (q' := p') (ell := ell) (mp := -mp) (m := m) (by omega) (by omega) g3 g4 hle
  push_cast at ca1 cb1
  have neg_rel : ∀ x y : ℝ, RelErr u x y → RelErr u (-x) (-y) := by
    intro x y hxy
    unfold RelErr at *
    rw [abs_neg, ← neg_sub', abs_neg]
    exact hxy
  have cM : max 0 (-m - mp) = max 0 (-mp - m) := by congr 1; ring
  have hA : RelErr u (if max 0 (mp - m) % 2 ≠ 0 then -ca else ca) ((if max 0 (mp - m) % 2 ≠ 0 then -1 else 1) * Wcoef p' q' p q) := by
    split_ifs
    · rw [neg_one_mul]; exact neg_rel _ _ ca2
    · rw [one_mul]; exact ca2
  have hB : RelErr u (if (ell + m + max 0 (-m - mp)) % 2 ≠ 0 then -cb else cb)
      ((if (ell + m + max 0 (-mp - m)) % 2 ≠ 0 then -1 else 1) * Wcoef q' p' p q) := by
    rw [cM]
    split_ifs
    · rw [neg_one_mul]; exact neg_rel _ _ cb2
    · rw [one_mul]; exact cb2
  have key := fun Q hQ => elements_valueI hF hY hle h1 h2 hsum g1 g2 g3 g4 hA hB Q hQ
  let f : ℍ[ℝ] → ℂ := fun Q => if hQ : |Real.sqrt (normSq Q) - 1| ≤ τ then (key Q hQ).choose else 0
  have hf : ∀ Q (hQ : |Real.sqrt (normSq Q) - 1| ≤ τ), f Q = (key Q hQ).choose := fun Q hQ => dif_pos hQ
  refine ⟨f, ?_, fun Q hQ => ⟨fun hn => absurd ⟨h1, h2⟩ hn, fun _ _ => by rw [hf Q (hq Q hQ)]; exact (key Q (hq Q hQ)).choose_spec.2⟩⟩
  unfold Wigner_D_elements_kernelF
  simp only
  rw [if_neg (by rintro (h | h) <;> omega), ca1, bind_ok, cb1, bind_ok]
  have := forL_map_wr (qs.map comps) values (by simpa using hlen) (D_elements_valueF F eps _ _ ell mp m)
    (fun R => f (mkQ R.1 R.2.1 R.2.2.1 R.2.2.2))
    (by
      intro R hR
      obtain ⟨Q, hQ, rfl⟩ := List.mem_map.mp hR
      refine (key Q (hq Q hQ)).choose_spec.1.trans ?_
      rw [← hf Q (hq Q hQ)]
      rfl)
  rw [List.map_map] at this
  exact this

end

set_option exponentiation.threshold 2000

/-- **C90.** In numbers: with `u ≤ 2^-50`, underflow below `1e-300`, `epsilon = 1e-15`, complex powers accurate to `1e-14` and rotors
normalised to within `1e-13`, the bound is at most `2e-10` for every `ell ≤ 8`. -/
theorem C90_double {u w η : ℝ} (hu0 : 0 ≤ u) (hw0 : 0 ≤ w) (hη0 : 0 ≤ η) (hu50 : u ≤ 2 ^ (-50 : ℤ)) (hw : w ≤ 1 / 10 ^ 14) (hη : η ≤ 1 / 10 ^ 300)
    (ell : ℤ) (h8 : ell ≤ 8) :
    matErrI u w η (1 / 10 ^ 13) (1 / 10 ^ 15 / ((1 - u) * (1 - 1 / 10 ^ 13))) ell ≤ 2 / 10 ^ 10 := by
  have hu' : u ≤ 1 / 10 ^ 15 := hu50.trans (by norm_num)
  have hu1 : u < 1 := lt_of_le_of_lt hu' (by norm_num)
  have hn : (2 * ell).toNat ≤ 16 := by omega
  obtain ⟨τ, hτ⟩ : ∃ τ : ℝ, τ = 1 / 10 ^ 13 := ⟨_, rfl⟩
  rw [← hτ]
  set x : ℝ := 1 / 10 ^ 15 / ((1 - u) * (1 - τ)) with hx
  have hden : 1 / 2 ≤ (1 - u) * (1 - τ) := by
    have : (1 - 1 / 10 ^ 15 : ℝ) * (1 - τ) ≤ (1 - u) * (1 - τ) := mul_le_mul_of_nonneg_right (by linarith) (by rw [hτ]; norm_num)
    refine le_trans ?_ this
    rw [hτ]; norm_num
  have hd0 : 0 < (1 - u) * (1 - τ) := lt_of_lt_of_le (by norm_num) hden
  have x0 : 0 ≤ x := by rw [hx]; exact div_nonneg (by norm_num) hd0.le
  have x1 : x ≤ 2 / 10 ^ 15 := by
    rw [hx, div_le_iff₀ hd0]
    calc (1 : ℝ) / 10 ^ 15 = 2 / 10 ^ 15 * (1 / 2) := by norm_num
      _ ≤ _ := mul_le_mul_of_nonneg_left hden (by norm_num)
  clear_value x
  clear hx hden hd0
  unfold matErrI
  generalize (2 * ell).toNat = n at *
  have hn' : (n : ℝ) ≤ 16 := by exact_mod_cast hn
  have n0 : (0 : ℝ) ≤ n := Nat.cast_nonneg n
  have g : gam τ n ≤ 2 / 10 ^ 12 := by
    refine (gam_mono (by rw [hτ]; norm_num) (by rw [hτ]; norm_num) hn).trans ?_
    unfold gam
    rw [hτ]; norm_num
  have g0 : 0 ≤ gam τ n := gam_nonneg (by rw [hτ]; norm_num) (by rw [hτ]; norm_num) n
  apply max_le
  · have b := C74_bound hu0 hu50 (show n ≤ 64 by omega)
    have s : Real.sqrt 2 ^ n ≤ 256 := by
      have h1 : (1 : ℝ) ≤ Real.sqrt 2 := by rw [Real.one_le_sqrt]; norm_num
      calc Real.sqrt 2 ^ n ≤ Real.sqrt 2 ^ 16 := pow_le_pow_right₀ h1 hn
        _ = (Real.sqrt 2 ^ 2) ^ 8 := by rw [← pow_mul]
        _ = 256 := by rw [Real.sq_sqrt (by norm_num)]; norm_num
    have b2 : 40 * ((n : ℝ) + 1) * u ≤ 680 * 2 ^ (-50 : ℤ) := by
      have : 40 * ((n : ℝ) + 1) ≤ 680 := by linarith
      gcongr
    have c1 : floatErrM u n * Real.sqrt 2 ^ n ≤ (680 * 2 ^ (-50 : ℤ)) * 256 :=
      mul_le_mul (b.trans b2) s (by positivity) (by positivity)
    have c2 : floatErrM u n * Real.sqrt 2 ^ n * (1 + gam τ n) ≤ ((680 * 2 ^ (-50 : ℤ)) * 256) * (1 + 2 / 10 ^ 12) :=
      mul_le_mul c1 (by linarith) (by linarith) (by positivity)
    have c3 : underErr η n ≤ 1 / 10 ^ 200 := by
      unfold underErr
      have : (2 : ℝ) ^ n ≤ 2 ^ 16 := pow_le_pow_right₀ (by norm_num) hn
      calc 30000 * ((n : ℝ) + 1) * 2 ^ n * η ≤ 30000 * (16 + 1) * 2 ^ 16 * (1 / 10 ^ 300) := by gcongr
        _ ≤ _ := by norm_num
    have c4 : ((680 * (2 : ℝ) ^ (-50 : ℤ)) * 256) * (1 + 2 / 10 ^ 12) + 1 / 10 ^ 200 + 2 / 10 ^ 12 ≤ 2 / 10 ^ 10 := by norm_num
    linarith
  · have p : poleErr x n ≤ 2 / 10 ^ 13 := by
      refine (poleErr_mono x0 x1 (by norm_num) n).trans ?_
      unfold poleErr
      have a1 : ((1 - (2 / 10 ^ 15 : ℝ) ^ 2) ^ 16) ≤ ((1 - (2 / 10 ^ 15 : ℝ) ^ 2) ^ n) :=
        pow_le_pow_of_le_one (by norm_num) (by norm_num) hn
      have a2 := inv_anti₀ (by norm_num) a1
      have a3 : ((1 - (2 / 10 ^ 15 : ℝ) ^ 2) ^ 16)⁻¹ - 1 ≤ 1 / 10 ^ 15 := by norm_num
      have : ((n : ℝ) + 2) * (2 / 10 ^ 15) ≤ (16 + 2) * (2 / 10 ^ 15) := by gcongr
      have : ((16 : ℝ) + 2) * (2 / 10 ^ 15) + 1 / 10 ^ 15 ≤ 2 / 10 ^ 13 := by norm_num
      linarith
    have p0 : 0 ≤ poleErr x n := poleErr_nonneg x0 (lt_of_le_of_lt x1 (by norm_num)) n
    have c1 : w * (1 + gam τ n) ≤ 1 / 10 ^ 14 * 2 := mul_le_mul hw (by linarith) (by linarith) (by norm_num)
    have c2 : (w * (1 + gam τ n) + gam τ n) * (1 + poleErr x n) ≤ (1 / 10 ^ 14 * 2 + 2 / 10 ^ 12) * 2 :=
      mul_le_mul (by linarith) (by linarith) (by linarith) (by norm_num)
    have c3 : ((1 : ℝ) / 10 ^ 14 * 2 + 2 / 10 ^ 12) * 2 + 2 / 10 ^ 13 ≤ 2 / 10 ^ 10 := by norm_num
    unfold ieeePole
    linarith

/-- Non-vacuity of C90: IEEE double precision with any treatment of overflow; all matrices with `ell ≤ 8` of a generic rotor of norm
`1 + 2^-52` and of a pole, and one element at an array of quaternions. -/
example (ovf : ℝ → ℝ) : ∃ table, RoundedTable (2 ^ (-53 : ℤ)) 32 table ∧
    (∃ (f : ℤ → ℤ → ℤ → ℂ) (out : List ℂ), Wigner_D_matrices_kernelF (F64Y ovf) (1 / 10 ^ 15) table
      (((1 + 2 ^ (-52 : ℤ) : ℝ) : ℂ) * (3 / 5)) (((1 + 2 ^ (-52 : ℤ) : ℝ) : ℂ) * (4 / 5)) 0 8
      (List.replicate (LMpMlist 0 8).length 7) = .ok out ∧ out[(LMpM_index 8 (-3) 5 0).toNat]? = some (f 8 (-3) 5) ∧
      ‖f 8 (-3) 5 - Spec.wignerD (3 / 5) (4 / 5) (2 * 8) (2 * -3) (2 * 5)‖ ≤ 2 / 10 ^ 10) ∧
    (∃ (f : ℤ → ℤ → ℤ → ℂ) (out : List ℂ), Wigner_D_matrices_kernelF (F64Y ovf) (1 / 10 ^ 15) table ((1 : ℝ) * 1) ((1 : ℝ) * 0) 2 8
      (List.replicate (LMpMlist 2 8).length 7) = .ok out ∧ out[(LMpM_index 3 2 2 2).toNat]? = some (f 3 2 2) ∧
      ‖f 3 2 2 - Spec.wignerD 1 0 (2 * 3) (2 * 2) (2 * 2)‖ ≤ 2 / 10 ^ 10) ∧
    (∃ f : ℍ[ℝ] → ℂ, Wigner_D_elements_kernelF (F64Y ovf) (1 / 10 ^ 15) table ([(1 : ℍ[ℝ])].map comps) 8 3 (-2) [7] = .ok [f 1]) := by
  obtain ⟨t, ht⟩ := IsWignerTable.exists 32 (by norm_num)
  have tt := table53 ht
  have u1 : Spec.IsUnit' (3 / 5) (4 / 5) := by
    unfold Spec.IsUnit'
    rw [map_div₀, map_div₀]
    norm_num [Complex.normSq_apply]
  have u2 : Spec.IsUnit' 1 0 := by simp [Spec.IsUnit']
  have h50 : (2 : ℝ) ^ (-53 : ℤ) ≤ 2 ^ (-50 : ℤ) := by norm_num
  have hw : (2 : ℝ) ^ (-51 : ℤ) ≤ 1 / 10 ^ 14 := by norm_num
  have hR : RangeY (2 ^ (-53 : ℤ)) (2 ^ (-51 : ℤ)) (64 * 64 ^ 6 * 2 ^ (-1075 : ℤ)) (2 ^ (-1022 : ℤ)) maxDouble (1 / 10 ^ 15) (1 / 10 ^ 13) 64 32 :=
    rangeY_double (by positivity) h50 hw (by norm_num) (by norm_num) (by positivity) (by norm_num) maxDouble_ge le_rfl le_rfl
  have num : ∀ ell : ℤ, ell ≤ 8 → _ := fun ell h8 =>
    C90_double (u := 2 ^ (-53 : ℤ)) (w := 2 ^ (-51 : ℤ)) (η := 64 * 64 ^ 6 * 2 ^ (-1075 : ℤ)) (by positivity) (by positivity) (by positivity) h50 hw (by norm_num) ell h8
  refine ⟨t.map fl53, tt, ?_, ?_, ?_⟩
  · obtain ⟨f, out, e, -, h⟩ := C90_matrices (F64Y_ieee ovf) hR tt (1 + 2 ^ (-52 : ℤ)) (by norm_num) (3 / 5) (4 / 5) u1 (a := 0) (b := 8)
      (by norm_num) (by norm_num) (List.replicate (LMpMlist 0 8).length 7) (by simp)
    obtain ⟨a, c⟩ := h 8 (-3) 5 (by norm_num) (by norm_num) (by norm_num) (by norm_num)
    exact ⟨f, out, e, a, c.trans (num 8 (by norm_num))⟩
  · obtain ⟨f, out, e, -, h⟩ := C90_matrices (F64Y_ieee ovf) hR tt 1 (by norm_num) 1 0 u2 (a := 2) (b := 8)
      (by norm_num) (by norm_num) (List.replicate (LMpMlist 2 8).length 7) (by simp)
    obtain ⟨a, c⟩ := h 3 2 2 (by norm_num) (by norm_num) (by norm_num) (by norm_num)
    exact ⟨f, out, e, a, c.trans (num 3 (by norm_num))⟩
  · obtain ⟨f, e, -⟩ := C90_array (F64Y_ieee ovf) hR tt [1] (by simp) 8 3 (-2) (by norm_num) [7] rfl
    exact ⟨f, e⟩

end SF
