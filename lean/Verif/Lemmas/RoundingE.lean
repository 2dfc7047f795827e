import Verif.Lemmas.RoundingD

/-! # Rounding errors of the D kernel: the two regimes -/

set_option autoImplicit false

namespace SF

open Finset ComplexConjugate

/-- The table of coefficients with rounded entries. -/
def RoundedTable (u : ℝ) (L : ℤ) (table' : List ℝ) : Prop :=
  ∃ table, IsWignerTable L table ∧ table'.length = table.length ∧
    ∀ (k : ℕ) (x : ℝ), table[k]? = some x → ∃ x', table'[k]? = some x' ∧ RelErr u x' x

theorem RoundedTable.coeff {u : ℝ} {L : ℤ} {table' : List ℝ} (ht : RoundedTable u L table') {p' q' p q : ℕ}
    (hsum : p' + q' = p + q) {a b c : ℤ} (ha : a = p + q) (hb : b = p' - q') (hc : c = p - q)
    (hle : a ≤ 2 * L) : ∃ w, Wigner_coefficient_two table' a b c = .ok w ∧ RelErr u w (Wcoef p' q' p q) := by
  obtain ⟨table, h1, h2, h3⟩ := ht
  have e := coeff_two h1 hsum ha hb hc hle
  unfold Wigner_coefficient_two rd at *
  rw [h2]
  cases hk : npIdx table.length (Wigner_index a b c) with
  | none => simp [hk] at e
  | some k =>
    cases hx : table[k]? with
    | none => simp [hk, hx] at e
    | some x =>
      obtain ⟨x', g1, g2⟩ := h3 k x hx
      simp only [hk, hx, Except.ok.injEq] at e
      subst e
      exact ⟨x', by simp only [g1], g2⟩

/-- The phase. -/
theorem phase_err {u w : ℝ} {F : FloatOps} (hF : F.Std u w) (z1 z2 : ℂ) (i j n : ℤ) (hij : |i| + |j| ≤ 2 * n) :
    |F.add (F.div (F.mul (F.arg z1) (i : ℝ)) 2) (F.div (F.mul (F.arg z2) (j : ℝ)) 2)
      - (Complex.arg z1 * (i : ℝ) / 2 + Complex.arg z2 * (j : ℝ) / 2)| ≤ gam u 4 * (Real.pi * n) := by
  have hu0 := hF.u_nonneg
  have hu1 := hF.u_lt_one
  have part : ∀ (z : ℂ) (i : ℤ), Near u 3 (F.div (F.mul (F.arg z) (i : ℝ)) 2) (Complex.arg z * (i : ℝ) / 2) := by
    intro z i
    have a1 := (hF.arg z).fac hu0 hu1
    have a2 := ((hF.mul (F.arg z) i).fac hu0 hu1).trans hu0 hu1 (a1.mul hu0 hu1 (Near.refl hu0 hu1 (i : ℝ)))
    exact ((hF.div _ 2 (by norm_num)).fac hu0 hu1).trans hu0 hu1 (a2.div hu0 hu1 (Near.refl hu0 hu1 2))
  obtain ⟨α, a1, a2⟩ := part z1 i
  obtain ⟨β, b1, b2⟩ := part z2 j
  obtain ⟨η, c1, c2⟩ := (hF.add (F.div (F.mul (F.arg z1) (i : ℝ)) 2) (F.div (F.mul (F.arg z2) (j : ℝ)) 2)).fac hu0 hu1
  rw [c1, a1, b1]
  set x := Complex.arg z1 * (i : ℝ) / 2 with hx
  set y := Complex.arg z2 * (j : ℝ) / 2 with hy
  have r : (x * α + y * β) * η - (x + y) = x * (α * η - 1) + y * (β * η - 1) := by ring
  rw [r]
  have g1 : |α * η - 1| ≤ gam u 4 := Fac.abs_sub hu0 hu1 (Fac.mul hu0 hu1 a2 c2)
  have g2 : |β * η - 1| ≤ gam u 4 := Fac.abs_sub hu0 hu1 (Fac.mul hu0 hu1 b2 c2)
  have g0 := gam_nonneg hu0 hu1 4
  have bx : ∀ (z : ℂ) (i : ℤ), |Complex.arg z * (i : ℝ) / 2| ≤ Real.pi * (|i| : ℤ) / 2 := by
    intro z i
    rw [abs_div, abs_mul, abs_two, Int.cast_abs]
    have := Complex.abs_arg_le_pi z
    have := abs_nonneg (i : ℝ)
    gcongr
  have bx1 := bx z1 i
  have bx2 := bx z2 j
  have hn : ((|i| : ℤ) : ℝ) + (|j| : ℤ) ≤ 2 * n := by exact_mod_cast hij
  calc |x * (α * η - 1) + y * (β * η - 1)| ≤ |x| * |α * η - 1| + |y| * |β * η - 1| := by
        rw [← abs_mul, ← abs_mul]; exact abs_add_le _ _
    _ ≤ |x| * gam u 4 + |y| * gam u 4 := by gcongr
    _ = (|x| + |y|) * gam u 4 := by ring
    _ ≤ (Real.pi * n) * gam u 4 := by
        apply mul_le_mul_of_nonneg_right _ g0
        have := Real.pi_pos
        nlinarith
    _ = _ := by ring

/-- The loop of one regime. -/
theorem horner_loopF {u w : ℝ} {F : FloatOps} (hF : F.Std u w) {za zb : ℂ} (ha : za ≠ 0) {N1 N2 M : ℤ} {a b : ℕ} (hab : a ≤ b)
    (hne : ∀ ρ : ℕ, a < ρ → ρ ≤ b → (ρ : ℤ) * (M + ρ) ≠ 0) :
    ∃ (S : ℝ) (θ : ℕ → ℝ),
      hornerLoop2F F (F.div (F.mul (-F.abs zb) (F.abs zb)) (F.mul (F.abs za) (F.abs za))) (2 * N1) (2 * N2) (2 * M) (2 * (b : ℤ)) (2 * (a : ℤ)) = .ok S ∧
      S = ∑ ρ ∈ Ico a (b + 1), (∏ i ∈ Ioc a ρ, Dratio (-‖zb‖ * ‖zb‖ / (‖za‖ * ‖za‖)) N1 N2 M i) * θ ρ ∧
      ∀ ρ, Fac u (11 * (b - a)) (θ ρ) := by
  have hu0 := hF.u_nonneg
  have hu1 := hF.u_lt_one
  have na := (hF.abs za).fac hu0 hu1
  have nb := (hF.abs zb).fac hu0 hu1
  have pa : 0 < F.abs za := na.pos hu0 hu1 (norm_pos_iff.mpr ha)
  have naa := ((hF.mul (F.abs za) (F.abs za)).fac hu0 hu1).trans hu0 hu1 (na.mul hu0 hu1 na)
  have nbb := ((hF.mul (-F.abs zb) (F.abs zb)).fac hu0 hu1).trans hu0 hu1 ((nb.neg hu0 hu1).mul hu0 hu1 nb)
  have naa0 : F.mul (F.abs za) (F.abs za) ≠ 0 := naa.ne_zero hu0 hu1 (mul_ne_zero (norm_ne_zero_iff.mpr ha) (norm_ne_zero_iff.mpr ha))
  have nx := ((hF.div (F.mul (-F.abs zb) (F.abs zb)) _ naa0).fac hu0 hu1).trans hu0 hu1 (nbb.div hu0 hu1 naa)
  set x := F.div (F.mul (-F.abs zb) (F.abs zb)) (F.mul (F.abs za) (F.abs za)) with hx
  unfold hornerLoop2F
  rw [pyRangeDown2_nat]
  have e : (List.range (b - a)).map (fun k : ℕ => 2 * ((b : ℤ) - k))
      = ((List.range (b - a)).map (fun k : ℕ => (b : ℤ) - k)).map (fun ρ => 2 * ρ) := by
    rw [List.map_map]; rfl
  rw [e, forL_map]
  apply hornerF_core hu0 hu1 hF _ a b hab
  intro ρ h1 h2
  have hz : (((2 * (ρ : ℤ)) * (2 * M + 2 * (ρ : ℤ)) : ℤ) : ℝ) ≠ 0 := by
    have := hne ρ h1 h2
    have h3 : (2 * (ρ : ℤ)) * (2 * M + 2 * (ρ : ℤ)) = 4 * ((ρ : ℤ) * (M + ρ)) := by ring
    rw [h3]
    exact_mod_cast mul_ne_zero (by norm_num : (4 : ℤ) ≠ 0) this
  refine ⟨_, ?_, fun S => by rw [if_neg hz]⟩
  have m1 := ((hF.mul x (((2 * N1 - 2 * (ρ : ℤ)) * (2 * N2 - 2 * (ρ : ℤ)) : ℤ) : ℝ)).fac hu0 hu1).trans hu0 hu1
    (nx.mul hu0 hu1 (Near.refl hu0 hu1 (((2 * N1 - 2 * (ρ : ℤ)) * (2 * N2 - 2 * (ρ : ℤ)) : ℤ) : ℝ)))
  have m2 := ((hF.div (F.mul x (((2 * N1 - 2 * (ρ : ℤ)) * (2 * N2 - 2 * (ρ : ℤ)) : ℤ) : ℝ)) _ hz).fac hu0 hu1).trans hu0 hu1
    (m1.div hu0 hu1 (Near.refl hu0 hu1 (((2 * (ρ : ℤ)) * (2 * M + 2 * (ρ : ℤ)) : ℤ) : ℝ)))
  have e2 : Dratio (-‖zb‖ * ‖zb‖ / (‖za‖ * ‖za‖)) N1 N2 M ρ
      = -‖zb‖ * ‖zb‖ / (‖za‖ * ‖za‖) * (((2 * N1 - 2 * (ρ : ℤ)) * (2 * N2 - 2 * (ρ : ℤ)) : ℤ) : ℝ)
        / (((2 * (ρ : ℤ)) * (2 * M + 2 * (ρ : ℤ)) : ℤ) : ℝ) := by
    unfold Dratio
    generalize -‖zb‖ * ‖zb‖ / (‖za‖ * ‖za‖) = X
    have h3 : (((2 * (ρ : ℤ)) * (2 * M + 2 * (ρ : ℤ)) : ℤ) : ℝ) = 4 * (((ρ : ℤ) * (M + ρ) : ℤ) : ℝ) := by push_cast; ring
    have h4 : (((2 * N1 - 2 * (ρ : ℤ)) * (2 * N2 - 2 * (ρ : ℤ)) : ℤ) : ℝ) = 4 * (((N1 - ρ) * (N2 - ρ) : ℤ) : ℝ) := by push_cast; ring
    rw [h3, h4, mul_left_comm, mul_div_mul_left _ _ (by norm_num)]
  rw [e2]
  exact m2

/-- The magnitude of the prefactor. -/
theorem mag_err {u w : ℝ} {F : FloatOps} (hF : F.Std u w) {za zb : ℂ} (ha : za ≠ 0) (hb : zb ≠ 0) {c' c e1 e2 : ℝ}
    (hc : RelErr u c' c) {n1 n2 : ℕ} (h1 : e1 = n1) (h2 : e2 = n2) :
    Near u (n1 + n2 + 5) (F.mul (F.mul c' (F.pow (F.abs za) e1)) (F.pow (F.abs zb) e2)) (c * ‖za‖ ^ n1 * ‖zb‖ ^ n2) := by
  have hu0 := hF.u_nonneg
  have hu1 := hF.u_lt_one
  have pw : ∀ {z : ℂ} (_ : z ≠ 0) {e : ℝ} {n : ℕ} (_ : e = n), Near u (n * 1 + 1) (F.pow (F.abs z) e) (‖z‖ ^ n) := by
    intro z hz e n he
    have nz := (hF.abs z).fac hu0 hu1
    have p := nz.pos hu0 hu1 (norm_pos_iff.mpr hz)
    have := (hF.pow (F.abs z) e p).fac hu0 hu1
    rw [rpow_eq_pow he] at this
    exact this.trans hu0 hu1 (nz.pow hu0 hu1 n)
  have k1 := pw ha h1
  have k2 := pw hb h2
  have k3 := ((hF.mul c' (F.pow (F.abs za) e1)).fac hu0 hu1).trans hu0 hu1 ((hc.fac hu0 hu1).mul hu0 hu1 k1)
  have k4 := ((hF.mul (F.mul c' (F.pow (F.abs za) e1)) (F.pow (F.abs zb) e2)).fac hu0 hu1).trans hu0 hu1 (k3.mul hu0 hu1 k2)
  exact k4.mono hu0 hu1 (by omega)

theorem norm_rect (d φ : ℝ) : ‖rect d φ‖ = |d| := by
  rw [rect_def, norm_mul, Complex.norm_exp_ofReal_mul_I, mul_one, Complex.norm_real, Real.norm_eq_abs]

theorem mulF_zero {u w : ℝ} {F : FloatOps} (hF : F.Std u w) (x : ℝ) : F.mul 0 x = 0 := by
  have := hF.mul 0 x
  unfold RelErr at this
  simpa using this

theorem smulF_zero {u w : ℝ} {F : FloatOps} (hF : F.Std u w) (x : ℝ) : smulF F 0 x = 0 := by
  unfold smulF
  apply Complex.ext <;> simp [mulF_zero hF]

/-- The error bound: `2 ell = n`. -/
noncomputable def floatErr (u : ℝ) (n : ℕ) : ℝ := gam u (n + 8 + 11 * (n / 2)) + gam u 4 * (Real.pi * n)

theorem elemF_ra_ge_rb_err {u w : ℝ} {F : FloatOps} (hF : F.Std u w) {L : ℤ} {table : List ℝ} (ht : RoundedTable u L table)
    {Ra Rb : ℂ} (ha : Ra ≠ 0) (hb0 : Rb ≠ 0) {n : ℕ} {b c : ℤ} (hv : Spec.ValidD n b c) (hle : (n : ℤ) ≤ 2 * L) :
    ∃ v, elemF_ra_ge_rb F table (F.abs Ra) (F.arg Ra) (F.abs Rb) (F.arg Rb) n b c = .ok v ∧
      ‖v - Spec.wignerD Ra Rb n b c‖ ≤ floatErr u n * (‖Ra‖ + ‖Rb‖) ^ n ∧
      (|b| = n ∨ |c| = n → ‖v - Spec.wignerD Ra Rb n b c‖ ≤ floatErr u n * ‖Spec.wignerD Ra Rb n b c‖) := by
  have hu0 := hF.u_nonneg
  have hu1 := hF.u_lt_one
  have hv' := hv
  obtain ⟨p', q', p, q, hsum, hap, hb, hc⟩ := valid_pq hv
  rw [wignerD_pq Ra Rb hsum hap hb hc]
  have hcond : ¬ (|b| > (n : ℤ) ∨ |c| > (n : ℤ)) := by
    rw [not_or, not_lt, not_lt]; exact ⟨hv'.1, hv'.2.1⟩
  have hrho : max 0 (b - c) = 2 * ((p' - p : ℕ) : ℤ) := by omega
  have hrho' : ((max 0 (b - c) : ℤ) : ℝ) = 2 * ((p' - p : ℕ) : ℝ) := by rw [hrho]; push_cast; rfl
  have hmax : min ((n : ℤ) + b) ((n : ℤ) - c) = 2 * (((min p' q : ℕ)) : ℤ) := by omega
  have hN1 : (n : ℤ) + b + 2 = 2 * ((p' : ℤ) + 1) := by omega
  have hN2 : (n : ℤ) - c + 2 = 2 * ((q : ℤ) + 1) := by omega
  have hM : c - b = 2 * ((q' : ℤ) - q) := by omega
  have hcab : c + b = 2 * ((p' : ℤ) - q) := by omega
  have e1 : (((n : ℕ) : ℤ) : ℝ) - (c : ℝ) / 2 + (b : ℝ) / 2 - ((max 0 (b - c) : ℤ) : ℝ)
      = ((p' + q - 2 * (p' - p) : ℕ) : ℝ) := by
    have : (2 * (n : ℤ) - c + b - 4 * ((p' - p : ℕ) : ℤ)) = 2 * ((p' + q - 2 * (p' - p) : ℕ) : ℤ) := by omega
    have h2 : (2 * ((n : ℤ) : ℝ) - c + b - 4 * ((p' - p : ℕ) : ℝ)) = 2 * ((p' + q - 2 * (p' - p) : ℕ) : ℝ) := by
      exact_mod_cast this
    rw [hrho']
    linarith
  have e2 : (c : ℝ) / 2 - (b : ℝ) / 2 + ((max 0 (b - c) : ℤ) : ℝ)
      = ((q' - q + 2 * (p' - p) - (q - q') : ℕ) : ℝ) := by
    have : (c - b + 4 * ((p' - p : ℕ) : ℤ)) = 2 * ((q' - q + 2 * (p' - p) - (q - q') : ℕ) : ℤ) := by omega
    have h2 : ((c : ℝ) - b + 4 * ((p' - p : ℕ) : ℝ)) = 2 * ((q' - q + 2 * (p' - p) - (q - q') : ℕ) : ℝ) := by
      exact_mod_cast this
    rw [hrho']
    linarith
  have hne : ∀ ρ : ℕ, p' - p < ρ → ρ ≤ min p' q → (ρ : ℤ) * (((q' : ℤ) - q) + ρ) ≠ 0 := by
    intro ρ h1 h2
    apply mul_ne_zero <;> omega
  have hab : p' - p ≤ min p' q := by omega
  obtain ⟨S, hS, hval⟩ := regA (zb := Rb) ha hsum (argI Ra) (argI Rb) (N1 := (p' : ℤ) + 1) (N2 := (q : ℤ) + 1)
    (M := (q' : ℤ) - q) (rhoMax := ((min p' q : ℕ) : ℤ)) (rhoMin := ((p' - p : ℕ) : ℤ))
    rfl rfl rfl (by push_cast; rfl) rfl
    (d := (-1 : ℝ) ^ (p' - p) * (Wcoef p' q' p q * ‖Ra‖ ^ (p' + q - 2 * (p' - p))
        * ‖Rb‖ ^ (q' - q + 2 * (p' - p) - (q - q')))) rfl
    (φ := Complex.arg Ra * ((p' : ℝ) - q) + Complex.arg Rb * ((q' : ℝ) - q)) rfl
  rw [hornerLoop_sum _ _ _ _ _ _ hab hne] at hS
  injection hS with hS
  obtain ⟨S', θ, s1, s2, s3⟩ := horner_loopF hF (zb := Rb) ha (N1 := (p' : ℤ) + 1) (N2 := (q : ℤ) + 1) (M := (q' : ℤ) - q) hab hne
  obtain ⟨w', w1, w2⟩ := ht.coeff hsum hap hb hc hle
  have hmag := mag_err hF ha hb0 w2 e1 e2
  have hph := phase_err hF Ra Rb (c + b) (c - b) n (by
    have := abs_le.mp hv'.1; have := abs_le.mp hv'.2.1
    rcases abs_cases (c + b) with h | h <;> rcases abs_cases (c - b) with h' | h' <;> omega)
  have hexact : Complex.arg Ra * ((c + b : ℤ) : ℝ) / 2 + Complex.arg Rb * ((c - b : ℤ) : ℝ) / 2
      = Complex.arg Ra * ((p' : ℝ) - q) + Complex.arg Rb * ((q' : ℝ) - q) := by rw [hcab, hM]; push_cast; ring
  rw [hexact] at hph
  have core := float_core hF hmag hph s2 s3 (decide (¬ (p' - p) % 2 = 0))
  set d0 := Wcoef p' q' p q * ‖Ra‖ ^ (p' + q - 2 * (p' - p)) * ‖Rb‖ ^ (q' - q + 2 * (p' - p) - (q - q')) with hd0
  have d0n : 0 ≤ d0 := by rw [hd0]; unfold Wcoef; positivity
  rw [abs_of_nonneg d0n] at core
  have hbound : d0 * ∑ ρ ∈ Ico (p' - p) (min p' q + 1),
        |∏ i ∈ Ioc (p' - p) ρ, Dratio (-‖Rb‖ * ‖Rb‖ / (‖Ra‖ * ‖Ra‖)) ((p' : ℤ) + 1) ((q : ℤ) + 1) ((q' : ℤ) - q) i|
      ≤ (‖Ra‖ + ‖Rb‖) ^ n := by
    have := prefactor_sum_le (zb := Rb) ha hsum
    rwa [show p' + q' = n by omega] at this
  have hfac : gam u (p' + q - 2 * (p' - p) + (q' - q + 2 * (p' - p) - (q - q')) + 5 + 3 + 11 * (min p' q - (p' - p)))
      ≤ gam u (n + 8 + 11 * (n / 2)) := by
    apply gam_mono hu0 hu1
    have : p' + q - 2 * (p' - p) + (q' - q + 2 * (p' - p) - (q - q')) = n := by omega
    have : min p' q - (p' - p) ≤ n / 2 := by omega
    omega
  have hD : (if decide (¬ (p' - p) % 2 = 0) = true then -rect d0 (Complex.arg Ra * ((p' : ℝ) - q) + Complex.arg Rb * ((q' : ℝ) - q))
      else rect d0 (Complex.arg Ra * ((p' : ℝ) - q) + Complex.arg Rb * ((q' : ℝ) - q)))
      * ((∑ ρ ∈ Ico (p' - p) (min p' q + 1),
          ∏ i ∈ Ioc (p' - p) ρ, Dratio (-‖Rb‖ * ‖Rb‖ / (‖Ra‖ * ‖Ra‖)) ((p' : ℤ) + 1) ((q : ℤ) + 1) ((q' : ℤ) - q) i : ℝ) : ℂ)
      = Spec.Dpq Ra Rb p' q' p q := by
    rw [hS, ← hval, neg_one_pow_iff]
    by_cases hpar : (p' - p) % 2 = 0
    · simp only [hpar, not_true_eq_false, decide_false, if_true]
      simp [hd0]
    · simp only [hpar, not_false_eq_true, decide_true, if_true, if_false]
      simp [hd0, rect]
  have hone : |b| = (n : ℤ) ∨ |c| = (n : ℤ) → d0 * ∑ ρ ∈ Ico (p' - p) (min p' q + 1),
        |∏ i ∈ Ioc (p' - p) ρ, Dratio (-‖Rb‖ * ‖Rb‖ / (‖Ra‖ * ‖Ra‖)) ((p' : ℤ) + 1) ((q : ℤ) + 1) ((q' : ℤ) - q) i|
      = ‖Spec.Dpq Ra Rb p' q' p q‖ := by
    intro h
    have hs : min p' q = p' - p := by
      rcases h with h | h <;> rcases (abs_eq (by omega)).mp h with h | h <;> omega
    rw [← hD, hs, Nat.Ico_succ_singleton, Finset.sum_singleton, Finset.sum_singleton, Finset.Ioc_self, Finset.prod_empty]
    split_ifs <;> simp [norm_rect, abs_of_nonneg d0n]
  rw [hD] at core
  have herr : gam u (p' + q - 2 * (p' - p) + (q' - q + 2 * (p' - p) - (q - q')) + 5 + 3 + 11 * (min p' q - (p' - p)))
      + gam u 4 * (Real.pi * ((n : ℕ) : ℤ)) ≤ floatErr u n := by
    unfold floatErr; push_cast; linarith
  have hpos : 0 ≤ floatErr u n := by
    unfold floatErr
    have := gam_nonneg hu0 hu1 (n + 8 + 11 * (n / 2))
    have g0 := gam_nonneg hu0 hu1 4
    have pi0 := Real.pi_pos
    positivity
  refine ⟨_, ?_, core.trans ?_, fun h => core.trans ?_⟩
  · unfold elemF_ra_ge_rb
    simp only [hcond, if_false]
    rw [w1, bind_ok]
    have hs : (max 0 (b - c) % 4 ≠ 0) ↔ ¬ (p' - p) % 2 = 0 := by omega
    set pre := rectF F (F.mul (F.mul w' (F.pow (F.abs Ra) ((((n : ℕ) : ℤ) : ℝ) - (c : ℝ) / 2 + (b : ℝ) / 2 - ((max 0 (b - c) : ℤ) : ℝ))))
      (F.pow (F.abs Rb) ((c : ℝ) / 2 - (b : ℝ) / 2 + ((max 0 (b - c) : ℤ) : ℝ))))
      (F.add (F.div (F.mul (F.arg Ra) ((c + b : ℤ) : ℝ)) 2) (F.div (F.mul (F.arg Rb) ((c - b : ℤ) : ℝ)) 2)) with hpre
    by_cases h0 : pre = 0
    · rw [if_pos h0, h0]
      have z : (if decide (¬ (p' - p) % 2 = 0) = true then -(0 : ℂ) else 0) = 0 := by split_ifs <;> simp
      rw [z, smulF_zero hF]
    · rw [if_neg h0, hmax, hrho, hN1, hN2, hM, s1, bind_ok]
      show Except.ok _ = Except.ok _
      congr 2
      rw [← hrho]
      by_cases hpar : (p' - p) % 2 = 0
      · rw [if_neg (by rw [hs]; simpa using hpar)]; simp [hpar]
      · rw [if_pos (by rw [hs]; exact hpar)]; simp [hpar]
  · exact mul_le_mul herr hbound (mul_nonneg d0n (Finset.sum_nonneg fun _ _ => abs_nonneg _)) hpos
  · rw [hone h]
    exact mul_le_mul_of_nonneg_right herr (norm_nonneg _)

theorem elemF_ra_lt_rb_err {u w : ℝ} {F : FloatOps} (hF : F.Std u w) {L : ℤ} {table : List ℝ} (ht : RoundedTable u L table)
    {Ra Rb : ℂ} (hb0 : Ra ≠ 0) (ha : Rb ≠ 0) {n : ℕ} {b c : ℤ} (hv : Spec.ValidD n b c) (hle : (n : ℤ) ≤ 2 * L) :
    ∃ v, elemF_ra_lt_rb F table (F.abs Ra) (F.arg Ra) (F.abs Rb) (F.arg Rb) n b c = .ok v ∧
      ‖v - Spec.wignerD Ra Rb n b c‖ ≤ floatErr u n * (‖Ra‖ + ‖Rb‖) ^ n ∧
      (|b| = n ∨ |c| = n → ‖v - Spec.wignerD Ra Rb n b c‖ ≤ floatErr u n * ‖Spec.wignerD Ra Rb n b c‖) := by
  have hu0 := hF.u_nonneg
  have hu1 := hF.u_lt_one
  have hv' := hv
  obtain ⟨p', q', p, q, hsum, hap, hb, hc⟩ := valid_pq hv
  rw [wignerD_pq Ra Rb hsum hap hb hc]
  have hsum' : q' + p' = p + q := by omega
  have hcond : ¬ (|b| > (n : ℤ) ∨ |c| > (n : ℤ)) := by
    rw [not_or, not_lt, not_lt]; exact ⟨hv'.1, hv'.2.1⟩
  have hrho : max 0 (-b - c) = 2 * ((q' - p : ℕ) : ℤ) := by omega
  have hrho' : ((max 0 (-b - c) : ℤ) : ℝ) = 2 * ((q' - p : ℕ) : ℝ) := by rw [hrho]; push_cast; rfl
  have hmax : min ((n : ℤ) - b) ((n : ℤ) - c) = 2 * (((min q' q : ℕ)) : ℤ) := by omega
  have hN1 : (n : ℤ) - b + 2 = 2 * ((q' : ℤ) + 1) := by omega
  have hN2 : (n : ℤ) - c + 2 = 2 * ((q : ℤ) + 1) := by omega
  have hM : c + b = 2 * ((p' : ℤ) - q) := by omega
  have hcab : c - b = 2 * ((q' : ℤ) - q) := by omega
  have e1 : (((n : ℕ) : ℤ) : ℝ) - ((c + b : ℤ) : ℝ) / 2 - ((max 0 (-b - c) : ℤ) : ℝ)
      = ((q' + q - 2 * (q' - p) : ℕ) : ℝ) := by
    have : (2 * (n : ℤ) - c - b - 4 * ((q' - p : ℕ) : ℤ)) = 2 * ((q' + q - 2 * (q' - p) : ℕ) : ℤ) := by omega
    have h2 : (2 * ((n : ℤ) : ℝ) - c - b - 4 * ((q' - p : ℕ) : ℝ)) = 2 * ((q' + q - 2 * (q' - p) : ℕ) : ℝ) := by
      exact_mod_cast this
    rw [hrho']
    push_cast at h2 ⊢
    linarith
  have e2 : ((c + b : ℤ) : ℝ) / 2 + ((max 0 (-b - c) : ℤ) : ℝ)
      = ((p' - q + 2 * (q' - p) - (q - p') : ℕ) : ℝ) := by
    have : (c + b + 4 * ((q' - p : ℕ) : ℤ)) = 2 * ((p' - q + 2 * (q' - p) - (q - p') : ℕ) : ℤ) := by omega
    have h2 : ((c : ℝ) + b + 4 * ((q' - p : ℕ) : ℝ)) = 2 * ((p' - q + 2 * (q' - p) - (q - p') : ℕ) : ℝ) := by
      exact_mod_cast this
    rw [hrho']
    push_cast at h2 ⊢
    linarith
  have hne : ∀ ρ : ℕ, q' - p < ρ → ρ ≤ min q' q → (ρ : ℤ) * (((p' : ℤ) - q) + ρ) ≠ 0 := by
    intro ρ h1 h2
    apply mul_ne_zero <;> omega
  have hab : q' - p ≤ min q' q := by omega
  obtain ⟨S, hS, hval⟩ := regB (za := Ra) ha hsum (argI Ra) (argI Rb) (N1 := (q' : ℤ) + 1) (N2 := (q : ℤ) + 1)
    (M := (p' : ℤ) - q) (rhoMax := ((min q' q : ℕ) : ℤ)) (rhoMin := ((q' - p : ℕ) : ℤ))
    rfl rfl rfl (by push_cast; rfl) rfl
    (d := (-1 : ℝ) ^ q * ((-1 : ℝ) ^ (q' - p) * (Wcoef q' p' p q * ‖Rb‖ ^ (q' + q - 2 * (q' - p))
        * ‖Ra‖ ^ (p' - q + 2 * (q' - p) - (q - p'))))) rfl
    (φ := Complex.arg Rb * ((q' : ℝ) - q) + Complex.arg Ra * ((p' : ℝ) - q)) rfl
  rw [hornerLoop_sum _ _ _ _ _ _ hab hne] at hS
  injection hS with hS
  obtain ⟨S', θ, s1, s2, s3⟩ := horner_loopF hF (zb := Ra) ha (N1 := (q' : ℤ) + 1) (N2 := (q : ℤ) + 1) (M := (p' : ℤ) - q) hab hne
  obtain ⟨w', w1, w2⟩ := ht.coeff hsum' (b := -b) hap (by omega) hc hle
  have hmag := mag_err hF ha hb0 w2 e1 e2
  have hph := phase_err hF Rb Ra (c - b) (c + b) n (by
    have := abs_le.mp hv'.1; have := abs_le.mp hv'.2.1
    rcases abs_cases (c + b) with h | h <;> rcases abs_cases (c - b) with h' | h' <;> omega)
  have hexact : Complex.arg Rb * ((c - b : ℤ) : ℝ) / 2 + Complex.arg Ra * ((c + b : ℤ) : ℝ) / 2
      = Complex.arg Rb * ((q' : ℝ) - q) + Complex.arg Ra * ((p' : ℝ) - q) := by rw [hcab, hM]; push_cast; ring
  rw [hexact] at hph
  have core := float_core hF hmag hph s2 s3 (decide (¬ (q + (q' - p)) % 2 = 0))
  set d0 := Wcoef q' p' p q * ‖Rb‖ ^ (q' + q - 2 * (q' - p)) * ‖Ra‖ ^ (p' - q + 2 * (q' - p) - (q - p')) with hd0
  have d0n : 0 ≤ d0 := by rw [hd0]; unfold Wcoef; positivity
  rw [abs_of_nonneg d0n] at core
  have hbound : d0 * ∑ ρ ∈ Ico (q' - p) (min q' q + 1),
        |∏ i ∈ Ioc (q' - p) ρ, Dratio (-‖Ra‖ * ‖Ra‖ / (‖Rb‖ * ‖Rb‖)) ((q' : ℤ) + 1) ((q : ℤ) + 1) ((p' : ℤ) - q) i|
      ≤ (‖Ra‖ + ‖Rb‖) ^ n := by
    rw [add_comm ‖Ra‖]
    have := prefactor_sum_le (zb := Ra) ha hsum'
    rwa [show q' + p' = n by omega] at this
  have hfac : gam u (q' + q - 2 * (q' - p) + (p' - q + 2 * (q' - p) - (q - p')) + 5 + 3 + 11 * (min q' q - (q' - p)))
      ≤ gam u (n + 8 + 11 * (n / 2)) := by
    apply gam_mono hu0 hu1
    have : q' + q - 2 * (q' - p) + (p' - q + 2 * (q' - p) - (q - p')) = n := by omega
    have : min q' q - (q' - p) ≤ n / 2 := by omega
    omega
  have hD : (if decide (¬ (q + (q' - p)) % 2 = 0) = true then -rect d0 (Complex.arg Rb * ((q' : ℝ) - q) + Complex.arg Ra * ((p' : ℝ) - q))
      else rect d0 (Complex.arg Rb * ((q' : ℝ) - q) + Complex.arg Ra * ((p' : ℝ) - q)))
      * ((∑ ρ ∈ Ico (q' - p) (min q' q + 1),
          ∏ i ∈ Ioc (q' - p) ρ, Dratio (-‖Ra‖ * ‖Ra‖ / (‖Rb‖ * ‖Rb‖)) ((q' : ℤ) + 1) ((q : ℤ) + 1) ((p' : ℤ) - q) i : ℝ) : ℂ)
      = Spec.Dpq Ra Rb p' q' p q := by
    rw [hS, ← hval, ← mul_assoc, ← pow_add, neg_one_pow_iff]
    by_cases hpar : (q + (q' - p)) % 2 = 0
    · simp only [hpar, not_true_eq_false, decide_false, if_true]
      simp [hd0]
    · simp only [hpar, not_false_eq_true, decide_true, if_true, if_false]
      simp [hd0, rect]
  have hone : |b| = (n : ℤ) ∨ |c| = (n : ℤ) → d0 * ∑ ρ ∈ Ico (q' - p) (min q' q + 1),
        |∏ i ∈ Ioc (q' - p) ρ, Dratio (-‖Ra‖ * ‖Ra‖ / (‖Rb‖ * ‖Rb‖)) ((q' : ℤ) + 1) ((q : ℤ) + 1) ((p' : ℤ) - q) i|
      = ‖Spec.Dpq Ra Rb p' q' p q‖ := by
    intro h
    have hs : min q' q = q' - p := by
      rcases h with h | h <;> rcases (abs_eq (by omega)).mp h with h | h <;> omega
    rw [← hD, hs, Nat.Ico_succ_singleton, Finset.sum_singleton, Finset.sum_singleton, Finset.Ioc_self, Finset.prod_empty]
    split_ifs <;> simp [norm_rect, abs_of_nonneg d0n]
  rw [hD] at core
  have herr : gam u (q' + q - 2 * (q' - p) + (p' - q + 2 * (q' - p) - (q - p')) + 5 + 3 + 11 * (min q' q - (q' - p)))
      + gam u 4 * (Real.pi * ((n : ℕ) : ℤ)) ≤ floatErr u n := by
    unfold floatErr; push_cast; linarith
  have hpos : 0 ≤ floatErr u n := by
    unfold floatErr
    have := gam_nonneg hu0 hu1 (n + 8 + 11 * (n / 2))
    have g0 := gam_nonneg hu0 hu1 4
    have pi0 := Real.pi_pos
    positivity
  refine ⟨_, ?_, core.trans ?_, fun h => core.trans ?_⟩
  · unfold elemF_ra_lt_rb
    simp only [hcond, if_false]
    rw [w1, bind_ok]
    have hs : (((n : ℤ) - c - max 0 (-b - c)) % 4 ≠ 0) ↔ ¬ (q + (q' - p)) % 2 = 0 := by omega
    set pre := rectF F (F.mul (F.mul w' (F.pow (F.abs Rb) ((((n : ℕ) : ℤ) : ℝ) - ((c + b : ℤ) : ℝ) / 2 - ((max 0 (-b - c) : ℤ) : ℝ))))
      (F.pow (F.abs Ra) (((c + b : ℤ) : ℝ) / 2 + ((max 0 (-b - c) : ℤ) : ℝ))))
      (F.add (F.div (F.mul (F.arg Rb) ((c - b : ℤ) : ℝ)) 2) (F.div (F.mul (F.arg Ra) ((c + b : ℤ) : ℝ)) 2)) with hpre
    by_cases h0 : pre = 0
    · rw [if_pos h0, h0]
      have z : (if decide (¬ (q + (q' - p)) % 2 = 0) = true then -(0 : ℂ) else 0) = 0 := by split_ifs <;> simp
      rw [z, smulF_zero hF]
    · rw [if_neg h0, hmax, hN1, hN2, hM]
      rw [show hornerLoop2F F _ _ _ _ _ (max 0 (-b - c)) = Except.ok S' by rw [hrho]; exact s1, bind_ok]
      show Except.ok _ = Except.ok _
      congr 2
      by_cases hpar : (q + (q' - p)) % 2 = 0
      · rw [if_neg (by rw [hs]; simpa using hpar)]; simp [hpar]
      · rw [if_pos (by rw [hs]; exact hpar)]; simp [hpar]
  · exact mul_le_mul herr hbound (mul_nonneg d0n (Finset.sum_nonneg fun _ _ => abs_nonneg _)) hpos
  · rw [hone h]
    exact mul_le_mul_of_nonneg_right herr (norm_nonneg _)

end SF
