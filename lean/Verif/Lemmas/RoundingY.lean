import Verif.Model.SWSHFloat
import Verif.Lemmas.RoundingE
import Verif.Lemmas.SWSH

/-! # Rounding errors of the spin-weighted harmonics: the two regimes -/

set_option autoImplicit false

namespace SF

open Finset ComplexConjugate

theorem swshConst_pos {ell : ℤ} (h : 0 ≤ ell) : 0 < swshConst ell := by
  unfold swshConst
  apply Real.sqrt_pos.mpr
  have : (0 : ℝ) < ((2 * ell + 1 : ℤ) : ℝ) := by exact_mod_cast (by omega : 0 < 2 * ell + 1)
  have := Real.pi_pos
  positivity

section
variable {u w : ℝ} {δ : ℕ → ℝ} {F : FloatOpsY} (hF : F.Std u w δ)
include hF

theorem sqrt_near {k : ℕ} {x' x : ℝ} (h : Near u k x' x) (hx : 0 < x) : Near u (k + 1) (F.sqrt x') (Real.sqrt x) := by
  have hu0 := hF.u_nonneg
  have hu1 := hF.u_lt_one
  obtain ⟨θ, e, f⟩ := h
  have θ0 := Fac.pos hu0 hu1 f
  have a := (hF.sqrt x' (by rw [e]; positivity)).fac hu0 hu1
  refine a.trans hu0 hu1 ⟨Real.sqrt θ, by rw [e, Real.sqrt_mul hx.le], ?_⟩
  have p : 0 < (1 - u) ^ k := pow_pos (by linarith) k
  have p1 : (1 - u) ^ k ≤ 1 := pow_le_one₀ (by linarith) (by linarith)
  set X := (1 - u) ^ k
  constructor
  · apply Real.le_sqrt_of_sq_le
    nlinarith [f.1]
  · have h1 : Real.sqrt θ * X ≤ Real.sqrt θ * Real.sqrt X := by
      apply mul_le_mul_of_nonneg_left _ (Real.sqrt_nonneg _)
      apply Real.le_sqrt_of_sq_le
      nlinarith
    rw [← Real.sqrt_mul θ0.le] at h1
    exact h1.trans (Real.sqrt_le_one.mpr f.2)

theorem const_near {ell : ℤ} (h : 0 ≤ ell) : Near u 4 (swshConstF F ell) (swshConst ell) := by
  have hu0 := hF.u_nonneg
  have hu1 := hF.u_lt_one
  have hpi := Real.pi_pos
  have a1 := (hF.pi).fac hu0 hu1
  have a2 := ((hF.mul 4 F.pi).fac hu0 hu1).trans hu0 hu1 ((Near.refl hu0 hu1 4).mul hu0 hu1 a1)
  have a3 := ((hF.div ((2 * ell + 1 : ℤ) : ℝ) _ (a2.ne_zero hu0 hu1 (by positivity))).fac hu0 hu1).trans hu0 hu1
    ((Near.refl hu0 hu1 ((2 * ell + 1 : ℤ) : ℝ)).div hu0 hu1 a2)
  have p : (0 : ℝ) < ((2 * ell + 1 : ℤ) : ℝ) := by exact_mod_cast (by omega : 0 < 2 * ell + 1)
  exact sqrt_near hF a3 (by positivity)

/-- The phase. -/
theorem phase_errY (z1 z2 : ℂ) (i j n : ℤ) (hij : |i| + |j| ≤ n) :
    |F.add (F.mul (F.arg z1) (i : ℝ)) (F.mul (F.arg z2) (j : ℝ))
      - (Complex.arg z1 * (i : ℝ) + Complex.arg z2 * (j : ℝ))| ≤ gam u 3 * (Real.pi * n) := by
  have hu0 := hF.u_nonneg
  have hu1 := hF.u_lt_one
  have part : ∀ (z : ℂ) (i : ℤ), Near u 2 (F.mul (F.arg z) (i : ℝ)) (Complex.arg z * (i : ℝ)) := by
    intro z i
    have a1 := (hF.arg z).fac hu0 hu1
    exact ((hF.mul (F.arg z) i).fac hu0 hu1).trans hu0 hu1 (a1.mul hu0 hu1 (Near.refl hu0 hu1 (i : ℝ)))
  obtain ⟨α, a1, a2⟩ := part z1 i
  obtain ⟨β, b1, b2⟩ := part z2 j
  obtain ⟨η, c1, c2⟩ := (hF.add (F.mul (F.arg z1) (i : ℝ)) (F.mul (F.arg z2) (j : ℝ))).fac hu0 hu1
  rw [c1, a1, b1]
  set x := Complex.arg z1 * (i : ℝ) with hx
  set y := Complex.arg z2 * (j : ℝ) with hy
  have r : (x * α + y * β) * η - (x + y) = x * (α * η - 1) + y * (β * η - 1) := by ring
  rw [r]
  have g1 : |α * η - 1| ≤ gam u 3 := Fac.abs_sub hu0 hu1 (Fac.mul hu0 hu1 a2 c2)
  have g2 : |β * η - 1| ≤ gam u 3 := Fac.abs_sub hu0 hu1 (Fac.mul hu0 hu1 b2 c2)
  have g0 := gam_nonneg hu0 hu1 3
  have bx : ∀ (z : ℂ) (i : ℤ), |Complex.arg z * (i : ℝ)| ≤ Real.pi * (|i| : ℤ) := by
    intro z i
    rw [abs_mul, Int.cast_abs]
    have := Complex.abs_arg_le_pi z
    have := abs_nonneg (i : ℝ)
    gcongr
  have bx1 := bx z1 i
  have bx2 := bx z2 j
  have hn : ((|i| : ℤ) : ℝ) + (|j| : ℤ) ≤ n := by exact_mod_cast hij
  calc |x * (α * η - 1) + y * (β * η - 1)| ≤ |x| * |α * η - 1| + |y| * |β * η - 1| := by
        rw [← abs_mul, ← abs_mul]; exact abs_add_le _ _
    _ ≤ |x| * gam u 3 + |y| * gam u 3 := by gcongr
    _ = (|x| + |y|) * gam u 3 := by ring
    _ ≤ (Real.pi * n) * gam u 3 := by
        apply mul_le_mul_of_nonneg_right _ g0
        have := Real.pi_pos
        nlinarith
    _ = _ := by ring

/-- The loop of one regime. -/
theorem horner_loopY {za zb : ℂ} (ha : za ≠ 0) {N1 N2 M : ℤ} {a b : ℕ} (hab : a ≤ b)
    (hne : ∀ ρ : ℕ, a < ρ → ρ ≤ b → (ρ : ℤ) * (M + ρ) ≠ 0) :
    ∃ (S : ℝ) (θ : ℕ → ℝ),
      hornerLoopF F.toFloatOps (F.div (F.mul (-F.abs zb) (F.abs zb)) (F.mul (F.abs za) (F.abs za))) N1 N2 M b a = .ok S ∧
      S = ∑ ρ ∈ Ico a (b + 1), (∏ i ∈ Ioc a ρ, Dratio (-‖zb‖ * ‖zb‖ / (‖za‖ * ‖za‖)) N1 N2 M i) * θ ρ ∧
      ∀ ρ, Fac u (11 * (b - a)) (θ ρ) := by
  have hu0 := hF.u_nonneg
  have hu1 := hF.u_lt_one
  have na := (hF.abs za).fac hu0 hu1
  have nb := (hF.abs zb).fac hu0 hu1
  have naa := ((hF.mul (F.abs za) (F.abs za)).fac hu0 hu1).trans hu0 hu1 (na.mul hu0 hu1 na)
  have nbb := ((hF.mul (-F.abs zb) (F.abs zb)).fac hu0 hu1).trans hu0 hu1 ((nb.neg hu0 hu1).mul hu0 hu1 nb)
  have naa0 : F.mul (F.abs za) (F.abs za) ≠ 0 := naa.ne_zero hu0 hu1 (mul_ne_zero (norm_ne_zero_iff.mpr ha) (norm_ne_zero_iff.mpr ha))
  have nx := ((hF.div (F.mul (-F.abs zb) (F.abs zb)) _ naa0).fac hu0 hu1).trans hu0 hu1 (nbb.div hu0 hu1 naa)
  set x := F.div (F.mul (-F.abs zb) (F.abs zb)) (F.mul (F.abs za) (F.abs za)) with hx
  unfold hornerLoopF
  rw [pyRangeDown_nat]
  apply hornerF_core hu0 hu1 hF.toStd _ a b hab
  intro ρ h1 h2
  have hz : (((ρ : ℤ) * (M + (ρ : ℤ)) : ℤ) : ℝ) ≠ 0 := by exact_mod_cast hne ρ h1 h2
  refine ⟨_, ?_, fun S => by rw [if_neg hz]⟩
  have m1 := ((hF.mul x (((N1 - (ρ : ℤ)) * (N2 - (ρ : ℤ)) : ℤ) : ℝ)).fac hu0 hu1).trans hu0 hu1
    (nx.mul hu0 hu1 (Near.refl hu0 hu1 (((N1 - (ρ : ℤ)) * (N2 - (ρ : ℤ)) : ℤ) : ℝ)))
  exact ((hF.div (F.mul x (((N1 - (ρ : ℤ)) * (N2 - (ρ : ℤ)) : ℤ) : ℝ)) _ hz).fac hu0 hu1).trans hu0 hu1
    (m1.div hu0 hu1 (Near.refl hu0 hu1 (((ρ : ℤ) * (M + (ρ : ℤ)) : ℤ) : ℝ)))

/-- The magnitude of the prefactor. -/
theorem mag_errY {za zb : ℂ} (ha : za ≠ 0) (hb : zb ≠ 0) {c' c : ℝ} {e1 e2 : ℤ}
    (hc : RelErr u c' c) {n1 n2 : ℕ} (h1 : e1 = n1) (h2 : e2 = n2) :
    Near u (2 * (n1 + n2) + 3) (F.mul (F.mul c' (F.ipow (F.abs za) e1)) (F.ipow (F.abs zb) e2)) (c * ‖za‖ ^ n1 * ‖zb‖ ^ n2) := by
  have hu0 := hF.u_nonneg
  have hu1 := hF.u_lt_one
  have pw : ∀ {z : ℂ} (_ : z ≠ 0) (n : ℕ), Near u (n * 1 + n) (F.ipow (F.abs z) n) (‖z‖ ^ n) := by
    intro z hz n
    have nz := (hF.abs z).fac hu0 hu1
    have p := nz.pos hu0 hu1 (norm_pos_iff.mpr hz)
    exact Near.trans hu0 hu1 (hF.ipow (F.abs z) n p) (nz.pow hu0 hu1 n)
  subst h1 h2
  have k1 := pw ha n1
  have k2 := pw hb n2
  have k3 := ((hF.mul c' (F.ipow (F.abs za) n1)).fac hu0 hu1).trans hu0 hu1 ((hc.fac hu0 hu1).mul hu0 hu1 k1)
  have k4 := ((hF.mul (F.mul c' (F.ipow (F.abs za) n1)) (F.ipow (F.abs zb) n2)).fac hu0 hu1).trans hu0 hu1 (k3.mul hu0 hu1 k2)
  exact k4.mono hu0 hu1 (by omega)

/-- Constant, prefactor and sum with rounding. -/
theorem float_coreY {mag d φ' φ e S c C : ℝ} {k K : ℕ} {I : Finset ℕ} {P θ : ℕ → ℝ}
    (hmag : Near u k mag d) (hc : Near u 4 c C) (hφ : |φ' - φ| ≤ e) (hS : S = ∑ ρ ∈ I, P ρ * θ ρ) (hθ : ∀ ρ, Fac u K (θ ρ))
    (neg : Bool) :
    ‖smulF F.toFloatOps (rsmulF F.toFloatOps c (if neg then -rectF F.toFloatOps mag φ' else rectF F.toFloatOps mag φ')) S
        - (C : ℂ) * ((if neg then -rect d φ else rect d φ) * ((∑ ρ ∈ I, P ρ : ℝ) : ℂ))‖
      ≤ (gam u (k + 8 + K) + e) * (|C| * (|d| * ∑ ρ ∈ I, |P ρ|)) := by
  have hu0 := hF.u_nonneg
  have hu1 := hF.u_lt_one
  have comp : ∀ (c1 c0 : ℝ), RelErr u c1 c0 → ∃ η : ℕ → ℝ, (∀ ρ, |η ρ - 1| ≤ gam u (k + 8 + K)) ∧
      F.mul (F.mul c (if neg then -F.mul mag c1 else F.mul mag c1)) S
        = (if neg then -1 else 1) * ((C * d) * c0 * ∑ ρ ∈ I, P ρ * η ρ) := by
    intro c1 c0 hc0
    obtain ⟨α, a1, a2⟩ := hmag
    obtain ⟨κ, k1, k2⟩ := hc
    obtain ⟨β, b1, b2⟩ := hc0.fac hu0 hu1
    obtain ⟨γ, g1, g2⟩ := (hF.mul mag c1).fac hu0 hu1
    obtain ⟨τ, t1, t2⟩ := (hF.mul c (if neg then -F.mul mag c1 else F.mul mag c1)).fac hu0 hu1
    obtain ⟨δ', d1, d2⟩ := (hF.mul (F.mul c (if neg then -F.mul mag c1 else F.mul mag c1)) S).fac hu0 hu1
    refine ⟨fun ρ => α * β * γ * δ' * θ ρ * κ * τ, fun ρ => ?_, ?_⟩
    · apply Fac.abs_sub hu0 hu1
      have := Fac.mul hu0 hu1 (Fac.mul hu0 hu1 (Fac.mul hu0 hu1 (Fac.mul hu0 hu1 (Fac.mul hu0 hu1 (Fac.mul hu0 hu1 a2 b2) g2) d2)
        (hθ ρ)) k2) t2
      exact Fac.mono hu0 hu1 (by omega) this
    · rw [d1, t1, g1, a1, b1, k1, hS]
      have : ∑ ρ ∈ I, P ρ * (α * β * γ * δ' * θ ρ * κ * τ) = α * β * γ * δ' * κ * τ * ∑ ρ ∈ I, P ρ * θ ρ := by
        rw [Finset.mul_sum]; exact Finset.sum_congr rfl fun ρ _ => by ring
      rw [this]
      cases neg <;> simp <;> ring
  obtain ⟨η, e1, e2⟩ := comp (F.cos φ') (Real.cos φ') (hF.cos φ')
  obtain ⟨ζ, z1, z2⟩ := comp (F.sin φ') (Real.sin φ') (hF.sin φ')
  let σ : ℝ := if neg then -1 else 1
  have hσ : |σ| = 1 := by simp only [σ]; cases neg <;> simp
  have := float_core_gen (d := C * d)
    (V := smulF F.toFloatOps (rsmulF F.toFloatOps c (if neg then -rectF F.toFloatOps mag φ' else rectF F.toFloatOps mag φ')) S) hσ
    (gam_nonneg hu0 hu1 (k + 8 + K)) e1 z1
    (by rw [← e2]; cases neg <;> rfl) (by rw [← z2]; cases neg <;> rfl) hφ
  have h2 : (C : ℂ) * ((if neg then -rect d φ else rect d φ) * ((∑ ρ ∈ I, P ρ : ℝ) : ℂ))
      = (σ : ℂ) * rect (C * d) φ * ((∑ ρ ∈ I, P ρ : ℝ) : ℂ) := by
    simp only [σ, rect]; cases neg <;> simp <;> ring
  rw [h2]
  refine this.trans (le_of_eq ?_)
  rw [abs_mul, mul_assoc |C|]

end

/-- The error bound: `2 ell = n`. -/
noncomputable def floatErrY (u : ℝ) (n : ℕ) : ℝ := gam u (2 * n + 11 + 11 * (n / 2)) + gam u 3 * (Real.pi * n)

theorem floatErrY_nonneg {u : ℝ} (hu0 : 0 ≤ u) (hu1 : u < 1) (n : ℕ) : 0 ≤ floatErrY u n := by
  unfold floatErrY
  have := gam_nonneg hu0 hu1 (2 * n + 11 + 11 * (n / 2))
  have g0 := gam_nonneg hu0 hu1 3
  have pi0 := Real.pi_pos
  positivity

section
variable {u w : ℝ} {δ : ℕ → ℝ} {F : FloatOpsY} (hF : F.Std u w δ)
include hF

/-- Regime `ra >= rb`, in terms of `p' = ell+m, q' = ell-m, p = ell-s, q = ell+s`. -/
theorem regAF {Ra Rb : ℂ} (ha : Ra ≠ 0) (hb0 : Rb ≠ 0) {p' q' p q : ℕ} (hsum : p' + q' = p + q) {c' τ : ℝ} (hτ : |τ| = 1)
    (hc : RelErr u c' (τ * Wcoef p' q' p q)) {k C : ℝ} (hk : Near u 4 k C) (hC : 0 ≤ C) :
    ∃ S, hornerLoopF F.toFloatOps (F.div (F.mul (-F.abs Rb) (F.abs Rb)) (F.mul (F.abs Ra) (F.abs Ra))) ((p' : ℤ) + 1) ((q : ℤ) + 1)
        ((q' : ℤ) - q) ((min p' q : ℕ) : ℤ) ((p' - p : ℕ) : ℤ) = .ok S ∧
      ∀ neg : Bool, ∀ v, v = smulF F.toFloatOps (rsmulF F.toFloatOps k
        (if neg then -rectF F.toFloatOps
          (F.mul (F.mul c' (F.ipow (F.abs Ra) ((p' + q - 2 * (p' - p) : ℕ) : ℤ))) (F.ipow (F.abs Rb) ((q' - q + 2 * (p' - p) - (q - q') : ℕ) : ℤ)))
          (F.add (F.mul (F.arg Ra) (((p' : ℤ) - q : ℤ) : ℝ)) (F.mul (F.arg Rb) (((q' : ℤ) - q : ℤ) : ℝ)))
        else rectF F.toFloatOps
          (F.mul (F.mul c' (F.ipow (F.abs Ra) ((p' + q - 2 * (p' - p) : ℕ) : ℤ))) (F.ipow (F.abs Rb) ((q' - q + 2 * (p' - p) - (q - q') : ℕ) : ℤ)))
          (F.add (F.mul (F.arg Ra) (((p' : ℤ) - q : ℤ) : ℝ)) (F.mul (F.arg Rb) (((q' : ℤ) - q : ℤ) : ℝ))))) S →
        ‖v - (C : ℂ) * ((if neg then -1 else 1) * (τ : ℂ) * (-1) ^ (p' - p) * Spec.Dpq Ra Rb p' q' p q)‖
          ≤ floatErrY u (p' + q') * (C * (‖Ra‖ + ‖Rb‖) ^ (p' + q')) ∧
        (min p' q = p' - p → ‖v - (C : ℂ) * ((if neg then -1 else 1) * (τ : ℂ) * (-1) ^ (p' - p) * Spec.Dpq Ra Rb p' q' p q)‖
          ≤ floatErrY u (p' + q') * (C * ‖Spec.Dpq Ra Rb p' q' p q‖)) := by
  have hu0 := hF.u_nonneg
  have hu1 := hF.u_lt_one
  have hne : ∀ ρ : ℕ, p' - p < ρ → ρ ≤ min p' q → (ρ : ℤ) * (((q' : ℤ) - q) + ρ) ≠ 0 := by
    intro ρ h1 h2
    apply mul_ne_zero <;> omega
  have hab : p' - p ≤ min p' q := by omega
  obtain ⟨S, hS, hval⟩ := regA (zb := Rb) ha hsum (argI Ra) (argI Rb) (N1 := (p' : ℤ) + 1) (N2 := (q : ℤ) + 1)
    (M := (q' : ℤ) - q) (rhoMax := ((min p' q : ℕ) : ℤ)) (rhoMin := ((p' - p : ℕ) : ℤ))
    rfl rfl rfl (by push_cast; rfl) rfl
    (d := (-1 : ℝ) ^ (p' - p) * (Wcoef p' q' p q * ‖Ra‖ ^ (p' + q - 2 * (p' - p))
        * ‖Rb‖ ^ (q' - q + 2 * (p' - p) - (q - q')))) rfl
    (φ := Complex.arg Ra * ((p' : ℝ) - q) + Complex.arg Rb * ((q' : ℝ) - q)) rfl
  rw [hornerLoop_sum _ _ _ _ _ _ hab hne] at hS
  injection hS with hS
  obtain ⟨S', θ, s1, s2, s3⟩ := horner_loopY hF (zb := Rb) ha (N1 := (p' : ℤ) + 1) (N2 := (q : ℤ) + 1) (M := (q' : ℤ) - q) hab hne
  refine ⟨S', s1, ?_⟩
  intro neg v hv
  subst hv
  have hmag := mag_errY hF ha hb0 hc (rfl : ((p' + q - 2 * (p' - p) : ℕ) : ℤ) = _)
    (rfl : ((q' - q + 2 * (p' - p) - (q - q') : ℕ) : ℤ) = _)
  have hph := phase_errY hF Ra Rb ((p' : ℤ) - q) ((q' : ℤ) - q) ((p' + q' : ℕ) : ℤ) (by
    rcases abs_cases ((p' : ℤ) - q) with h | h <;> rcases abs_cases ((q' : ℤ) - q) with h' | h' <;> omega)
  have hexact : Complex.arg Ra * (((p' : ℤ) - q : ℤ) : ℝ) + Complex.arg Rb * (((q' : ℤ) - q : ℤ) : ℝ)
      = Complex.arg Ra * ((p' : ℝ) - q) + Complex.arg Rb * ((q' : ℝ) - q) := by push_cast; ring
  rw [hexact] at hph
  have core := float_coreY hF hmag hk hph s2 s3 neg
  set d0 := Wcoef p' q' p q * ‖Ra‖ ^ (p' + q - 2 * (p' - p)) * ‖Rb‖ ^ (q' - q + 2 * (p' - p) - (q - q')) with hd0
  have d0n : 0 ≤ d0 := by rw [hd0]; unfold Wcoef; positivity
  have hd1 : τ * Wcoef p' q' p q * ‖Ra‖ ^ (p' + q - 2 * (p' - p)) * ‖Rb‖ ^ (q' - q + 2 * (p' - p) - (q - q')) = τ * d0 := by
    rw [hd0]; ring
  rw [hd1, abs_mul τ, hτ, one_mul, abs_of_nonneg d0n, abs_of_nonneg hC] at core
  have hbound : d0 * ∑ ρ ∈ Ico (p' - p) (min p' q + 1),
        |∏ i ∈ Ioc (p' - p) ρ, Dratio (-‖Rb‖ * ‖Rb‖ / (‖Ra‖ * ‖Ra‖)) ((p' : ℤ) + 1) ((q : ℤ) + 1) ((q' : ℤ) - q) i|
      ≤ (‖Ra‖ + ‖Rb‖) ^ (p' + q') := prefactor_sum_le (zb := Rb) ha hsum
  have hfac : gam u (2 * (p' + q - 2 * (p' - p) + (q' - q + 2 * (p' - p) - (q - q'))) + 3 + 8 + 11 * (min p' q - (p' - p)))
      ≤ gam u (2 * (p' + q') + 11 + 11 * ((p' + q') / 2)) := by
    apply gam_mono hu0 hu1
    have : p' + q - 2 * (p' - p) + (q' - q + 2 * (p' - p) - (q - q')) = p' + q' := by omega
    have : min p' q - (p' - p) ≤ (p' + q') / 2 := by omega
    omega
  have hD : (if neg then -rect (τ * d0) (Complex.arg Ra * ((p' : ℝ) - q) + Complex.arg Rb * ((q' : ℝ) - q))
      else rect (τ * d0) (Complex.arg Ra * ((p' : ℝ) - q) + Complex.arg Rb * ((q' : ℝ) - q)))
      * ((∑ ρ ∈ Ico (p' - p) (min p' q + 1),
          ∏ i ∈ Ioc (p' - p) ρ, Dratio (-‖Rb‖ * ‖Rb‖ / (‖Ra‖ * ‖Ra‖)) ((p' : ℤ) + 1) ((q : ℤ) + 1) ((q' : ℤ) - q) i : ℝ) : ℂ)
      = (if neg then -1 else 1) * (τ : ℂ) * (-1) ^ (p' - p) * Spec.Dpq Ra Rb p' q' p q := by
    rw [hS, ← hval]
    have hsq : ((-1 : ℂ) ^ (p' - p)) * ((-1 : ℂ) ^ (p' - p)) = 1 := by rw [← mul_pow]; norm_num
    simp only [rect]
    push_cast
    cases neg
    · simp only [Bool.false_eq_true, if_false]
      linear_combination (-(τ : ℂ) * d0 * Complex.exp ((Complex.arg Ra * ((p' : ℂ) - q) + Complex.arg Rb * ((q' : ℂ) - q)) * Complex.I) * S) * hsq
    · simp only [if_true]
      linear_combination ((τ : ℂ) * d0 * Complex.exp ((Complex.arg Ra * ((p' : ℂ) - q) + Complex.arg Rb * ((q' : ℂ) - q)) * Complex.I) * S) * hsq
  rw [hD] at core
  have herr : gam u (2 * (p' + q - 2 * (p' - p) + (q' - q + 2 * (p' - p) - (q - q'))) + 3 + 8 + 11 * (min p' q - (p' - p)))
      + gam u 3 * (Real.pi * ((p' + q' : ℕ) : ℤ)) ≤ floatErrY u (p' + q') := by
    unfold floatErrY; push_cast at hfac ⊢; linarith
  have hpos := floatErrY_nonneg hu0 hu1 (p' + q')
  refine ⟨core.trans ?_, fun hs => core.trans ?_⟩
  · exact mul_le_mul herr (mul_le_mul_of_nonneg_left hbound hC)
      (mul_nonneg hC (mul_nonneg d0n (Finset.sum_nonneg fun _ _ => abs_nonneg _))) hpos
  · have hone : d0 * ∑ ρ ∈ Ico (p' - p) (min p' q + 1),
        |∏ i ∈ Ioc (p' - p) ρ, Dratio (-‖Rb‖ * ‖Rb‖ / (‖Ra‖ * ‖Ra‖)) ((p' : ℤ) + 1) ((q : ℤ) + 1) ((q' : ℤ) - q) i|
        = ‖Spec.Dpq Ra Rb p' q' p q‖ := by
      rw [← hval, ← hS, hs, Nat.Ico_succ_singleton, Finset.sum_singleton, Finset.sum_singleton, Finset.Ioc_self, Finset.prod_empty]
      simp [norm_rect, abs_of_nonneg d0n, abs_mul]
    rw [hone]
    exact mul_le_mul_of_nonneg_right herr (mul_nonneg hC (norm_nonneg _))

/-- Regime `ra < rb`. -/
theorem regBF {Ra Rb : ℂ} (hb0 : Ra ≠ 0) (ha : Rb ≠ 0) {p' q' p q : ℕ} (hsum : p' + q' = p + q) {c' τ : ℝ} (hτ : |τ| = 1)
    (hc : RelErr u c' (τ * Wcoef q' p' p q)) {k C : ℝ} (hk : Near u 4 k C) (hC : 0 ≤ C) :
    ∃ S, hornerLoopF F.toFloatOps (F.div (F.mul (-F.abs Ra) (F.abs Ra)) (F.mul (F.abs Rb) (F.abs Rb))) ((q' : ℤ) + 1) ((q : ℤ) + 1)
        ((p' : ℤ) - q) ((min q' q : ℕ) : ℤ) ((q' - p : ℕ) : ℤ) = .ok S ∧
      ∀ neg : Bool, ∀ v, v = smulF F.toFloatOps (rsmulF F.toFloatOps k
        (if neg then -rectF F.toFloatOps
          (F.mul (F.mul c' (F.ipow (F.abs Rb) ((q' + q - 2 * (q' - p) : ℕ) : ℤ))) (F.ipow (F.abs Ra) ((p' - q + 2 * (q' - p) - (q - p') : ℕ) : ℤ)))
          (F.add (F.mul (F.arg Rb) (((q' : ℤ) - q : ℤ) : ℝ)) (F.mul (F.arg Ra) (((p' : ℤ) - q : ℤ) : ℝ)))
        else rectF F.toFloatOps
          (F.mul (F.mul c' (F.ipow (F.abs Rb) ((q' + q - 2 * (q' - p) : ℕ) : ℤ))) (F.ipow (F.abs Ra) ((p' - q + 2 * (q' - p) - (q - p') : ℕ) : ℤ)))
          (F.add (F.mul (F.arg Rb) (((q' : ℤ) - q : ℤ) : ℝ)) (F.mul (F.arg Ra) (((p' : ℤ) - q : ℤ) : ℝ))))) S →
        ‖v - (C : ℂ) * ((if neg then -1 else 1) * (τ : ℂ) * (-1) ^ (q + (q' - p)) * Spec.Dpq Ra Rb p' q' p q)‖
          ≤ floatErrY u (p' + q') * (C * (‖Ra‖ + ‖Rb‖) ^ (p' + q')) ∧
        (min q' q = q' - p → ‖v - (C : ℂ) * ((if neg then -1 else 1) * (τ : ℂ) * (-1) ^ (q + (q' - p)) * Spec.Dpq Ra Rb p' q' p q)‖
          ≤ floatErrY u (p' + q') * (C * ‖Spec.Dpq Ra Rb p' q' p q‖)) := by
  have hu0 := hF.u_nonneg
  have hu1 := hF.u_lt_one
  have hsum' : q' + p' = p + q := by omega
  have hne : ∀ ρ : ℕ, q' - p < ρ → ρ ≤ min q' q → (ρ : ℤ) * (((p' : ℤ) - q) + ρ) ≠ 0 := by
    intro ρ h1 h2
    apply mul_ne_zero <;> omega
  have hab : q' - p ≤ min q' q := by omega
  obtain ⟨S, hS, hval⟩ := regB (za := Ra) ha hsum (argI Ra) (argI Rb) (N1 := (q' : ℤ) + 1) (N2 := (q : ℤ) + 1)
    (M := (p' : ℤ) - q) (rhoMax := ((min q' q : ℕ) : ℤ)) (rhoMin := ((q' - p : ℕ) : ℤ))
    rfl rfl rfl (by push_cast; rfl) rfl
    (d := (-1 : ℝ) ^ q * ((-1 : ℝ) ^ (q' - p) * (Wcoef q' p' p q * ‖Rb‖ ^ (q' + q - 2 * (q' - p))
        * ‖Ra‖ ^ (p' - q + 2 * (q' - p) - (q - p'))))) rfl
    (φ := Complex.arg Rb * ((q' : ℝ) - q) + Complex.arg Ra * ((p' : ℝ) - q)) rfl
  rw [hornerLoop_sum _ _ _ _ _ _ hab hne] at hS
  injection hS with hS
  obtain ⟨S', θ, s1, s2, s3⟩ := horner_loopY hF (zb := Ra) ha (N1 := (q' : ℤ) + 1) (N2 := (q : ℤ) + 1) (M := (p' : ℤ) - q) hab hne
  refine ⟨S', s1, ?_⟩
  intro neg v hv
  subst hv
  have hmag := mag_errY hF ha hb0 hc (rfl : ((q' + q - 2 * (q' - p) : ℕ) : ℤ) = _)
    (rfl : ((p' - q + 2 * (q' - p) - (q - p') : ℕ) : ℤ) = _)
  have hph := phase_errY hF Rb Ra ((q' : ℤ) - q) ((p' : ℤ) - q) ((p' + q' : ℕ) : ℤ) (by
    rcases abs_cases ((p' : ℤ) - q) with h | h <;> rcases abs_cases ((q' : ℤ) - q) with h' | h' <;> omega)
  have hexact : Complex.arg Rb * (((q' : ℤ) - q : ℤ) : ℝ) + Complex.arg Ra * (((p' : ℤ) - q : ℤ) : ℝ)
      = Complex.arg Rb * ((q' : ℝ) - q) + Complex.arg Ra * ((p' : ℝ) - q) := by push_cast; ring
  rw [hexact] at hph
  have core := float_coreY hF hmag hk hph s2 s3 neg
  set d0 := Wcoef q' p' p q * ‖Rb‖ ^ (q' + q - 2 * (q' - p)) * ‖Ra‖ ^ (p' - q + 2 * (q' - p) - (q - p')) with hd0
  have d0n : 0 ≤ d0 := by rw [hd0]; unfold Wcoef; positivity
  have hd1 : τ * Wcoef q' p' p q * ‖Rb‖ ^ (q' + q - 2 * (q' - p)) * ‖Ra‖ ^ (p' - q + 2 * (q' - p) - (q - p')) = τ * d0 := by
    rw [hd0]; ring
  rw [hd1, abs_mul τ, hτ, one_mul, abs_of_nonneg d0n, abs_of_nonneg hC] at core
  have hbound : d0 * ∑ ρ ∈ Ico (q' - p) (min q' q + 1),
        |∏ i ∈ Ioc (q' - p) ρ, Dratio (-‖Ra‖ * ‖Ra‖ / (‖Rb‖ * ‖Rb‖)) ((q' : ℤ) + 1) ((q : ℤ) + 1) ((p' : ℤ) - q) i|
      ≤ (‖Ra‖ + ‖Rb‖) ^ (p' + q') := by
    rw [add_comm ‖Ra‖, add_comm p']
    exact prefactor_sum_le (zb := Ra) ha hsum'
  have hfac : gam u (2 * (q' + q - 2 * (q' - p) + (p' - q + 2 * (q' - p) - (q - p'))) + 3 + 8 + 11 * (min q' q - (q' - p)))
      ≤ gam u (2 * (p' + q') + 11 + 11 * ((p' + q') / 2)) := by
    apply gam_mono hu0 hu1
    have : q' + q - 2 * (q' - p) + (p' - q + 2 * (q' - p) - (q - p')) = p' + q' := by omega
    have : min q' q - (q' - p) ≤ (p' + q') / 2 := by omega
    omega
  have hD : (if neg then -rect (τ * d0) (Complex.arg Rb * ((q' : ℝ) - q) + Complex.arg Ra * ((p' : ℝ) - q))
      else rect (τ * d0) (Complex.arg Rb * ((q' : ℝ) - q) + Complex.arg Ra * ((p' : ℝ) - q)))
      * ((∑ ρ ∈ Ico (q' - p) (min q' q + 1),
          ∏ i ∈ Ioc (q' - p) ρ, Dratio (-‖Ra‖ * ‖Ra‖ / (‖Rb‖ * ‖Rb‖)) ((q' : ℤ) + 1) ((q : ℤ) + 1) ((p' : ℤ) - q) i : ℝ) : ℂ)
      = (if neg then -1 else 1) * (τ : ℂ) * (-1) ^ (q + (q' - p)) * Spec.Dpq Ra Rb p' q' p q := by
    rw [hS, ← hval, ← mul_assoc ((-1 : ℝ) ^ q), ← pow_add]
    have hsq : ((-1 : ℂ) ^ (q + (q' - p))) * ((-1 : ℂ) ^ (q + (q' - p))) = 1 := by rw [← mul_pow]; norm_num
    simp only [rect]
    push_cast
    cases neg
    · simp only [Bool.false_eq_true, if_false]
      linear_combination (-(τ : ℂ) * d0 * Complex.exp ((Complex.arg Rb * ((q' : ℂ) - q) + Complex.arg Ra * ((p' : ℂ) - q)) * Complex.I) * S) * hsq
    · simp only [if_true]
      linear_combination ((τ : ℂ) * d0 * Complex.exp ((Complex.arg Rb * ((q' : ℂ) - q) + Complex.arg Ra * ((p' : ℂ) - q)) * Complex.I) * S) * hsq
  rw [hD] at core
  have herr : gam u (2 * (q' + q - 2 * (q' - p) + (p' - q + 2 * (q' - p) - (q - p'))) + 3 + 8 + 11 * (min q' q - (q' - p)))
      + gam u 3 * (Real.pi * ((p' + q' : ℕ) : ℤ)) ≤ floatErrY u (p' + q') := by
    unfold floatErrY; push_cast at hfac ⊢; linarith
  have hpos := floatErrY_nonneg hu0 hu1 (p' + q')
  refine ⟨core.trans ?_, fun hs => core.trans ?_⟩
  · exact mul_le_mul herr (mul_le_mul_of_nonneg_left hbound hC)
      (mul_nonneg hC (mul_nonneg d0n (Finset.sum_nonneg fun _ _ => abs_nonneg _))) hpos
  · have hone : d0 * ∑ ρ ∈ Ico (q' - p) (min q' q + 1),
        |∏ i ∈ Ioc (q' - p) ρ, Dratio (-‖Ra‖ * ‖Ra‖ / (‖Rb‖ * ‖Rb‖)) ((q' : ℤ) + 1) ((q : ℤ) + 1) ((p' : ℤ) - q) i|
        = ‖Spec.Dpq Ra Rb p' q' p q‖ := by
      rw [← hval, ← hS, hs, Nat.Ico_succ_singleton, Finset.sum_singleton, Finset.sum_singleton, Finset.Ioc_self, Finset.prod_empty]
      simp [norm_rect, abs_of_nonneg d0n, abs_mul]
    rw [hone]
    exact mul_le_mul_of_nonneg_right herr (mul_nonneg hC (norm_nonneg _))

end

end SF
