import Verif.Lemmas.Horner
import Verif.Props.Tables

/-! # The four regimes of the Wigner D kernels -/

set_option autoImplicit false

namespace SF

open Finset ComplexConjugate

/-- The table entry. -/
noncomputable def Wcoef (p' q' p q : ℕ) : ℝ :=
  Real.sqrt ((p.factorial * q.factorial : ℝ) / (p'.factorial * q'.factorial))
    * (p'.choose (p' - p)) * (q'.choose (q - (p' - p)))

/-- A table that comes from the generator, for limit `L`. -/
def IsWignerTable (L : ℤ) (table : List ℝ) : Prop := 0 ≤ L ∧ ∃ junk, gen_Wigner junk L = .ok table

theorem IsWignerTable.exists (L : ℤ) (hL : 0 ≤ L) : ∃ t, IsWignerTable L t := by
  obtain ⟨t, ht, _⟩ := C07_Wigner_coefficient (fun _ => 0) L hL
  exact ⟨t, hL, _, ht⟩

theorem coeff_two {L : ℤ} {table : List ℝ} (ht : IsWignerTable L table) {p' q' p q : ℕ}
    (hsum : p' + q' = p + q) {a b c : ℤ} (ha : a = p + q) (hb : b = p' - q') (hc : c = p - q)
    (hle : a ≤ 2 * L) : Wigner_coefficient_two table a b c = .ok (Wcoef p' q' p q) := by
  obtain ⟨hL, junk, hj⟩ := ht
  obtain ⟨t, h1, h2⟩ := C07_Wigner_coefficient junk L hL
  rw [h1] at hj
  obtain rfl := Except.ok.inj hj
  have := h2 p' q' p q hsum (by push_cast; omega)
  unfold Wigner_coefficient at this
  have r1 : pyRound (2 * (((p + q : ℕ) : ℚ) / 2)) = a := by
    rw [mul_div_cancel₀ _ (by norm_num : (2 : ℚ) ≠ 0), ha]
    exact pyRound_intCast ((p + q : ℕ) : ℤ)
  have r2 : pyRound (2 * (((p' : ℚ) - q') / 2)) = b := by
    rw [mul_div_cancel₀ _ (by norm_num : (2 : ℚ) ≠ 0), hb]
    rw [← pyRound_intCast ((p' : ℤ) - q')]; push_cast; rfl
  have r3 : pyRound (2 * (((p : ℚ) - q) / 2)) = c := by
    rw [mul_div_cancel₀ _ (by norm_num : (2 : ℚ) ≠ 0), hc]
    rw [← pyRound_intCast ((p : ℤ) - q)]; push_cast; rfl
  rw [r1, r2, r3] at this
  exact this

theorem coeff_int {L : ℤ} {table : List ℝ} (ht : IsWignerTable L table) {p' q' p q : ℕ}
    {ell mp m : ℤ} (h1 : ell + mp = p') (h2 : ell - mp = q') (h3 : ell + m = p) (h4 : ell - m = q)
    (hle : ell ≤ L) : Wigner_coefficient table ell mp m = .ok (Wcoef p' q' p q) := by
  unfold Wigner_coefficient
  have e : ∀ n : ℤ, pyRound (2 * (n : ℚ)) = 2 * n := by
    intro n
    have := pyRound_intCast (2 * n)
    push_cast at this
    exact this
  rw [e, e, e]
  exact coeff_two ht (by omega) (by omega) (by omega) (by omega) (by omega)

theorem wignerD_pq (Ra Rb : ℂ) {p' q' p q : ℕ} (hsum : p' + q' = p + q) {a b c : ℤ}
    (ha : a = p + q) (hb : b = p' - q') (hc : c = p - q) :
    Spec.wignerD Ra Rb a b c = Spec.Dpq Ra Rb p' q' p q := by
  unfold Spec.wignerD
  congr 1 <;> omega

/-- Parametrisation of a valid doubled triple by four naturals. -/
theorem valid_pq {a b c : ℤ} (h : Spec.ValidD a b c) :
    ∃ p' q' p q : ℕ, p' + q' = p + q ∧ a = p + q ∧ b = p' - q' ∧ c = p - q := by
  obtain ⟨h1, h2, h3, h4⟩ := h
  rw [abs_le] at h1 h2
  exact ⟨((a + b) / 2).toNat, ((a - b) / 2).toNat, ((a + c) / 2).toNat, ((a - c) / 2).toNat,
    by omega, by omega, by omega, by omega⟩

/-- Exchanging the roles of `Ra` and `Rb`. -/
theorem Dpq_swap (Ra Rb : ℂ) (p' q' p q : ℕ) :
    Spec.Dpq Ra Rb p' q' p q = (-1) ^ q * Spec.Dpq Rb Ra q' p' p q := by
  unfold Spec.Dpq
  rw [mul_comm (q'.factorial : ℝ), mul_left_comm]
  congr 1
  rw [← Finset.sum_range_reflect, Finset.mul_sum]
  apply Finset.sum_congr rfl
  intro ρ hρ
  rw [mem_range] at hρ
  have e1 : q + 1 - 1 - ρ = q - ρ := by omega
  have e2 : q - (q - ρ) = ρ := by omega
  rw [e1, e2]
  have e3 : (-1 : ℂ) ^ (q - ρ) = (-1) ^ q * (-1) ^ ρ := by
    have : (-1 : ℂ) ^ (q - ρ) * (-1) ^ ρ * (-1) ^ ρ = (-1) ^ q * (-1) ^ ρ := by
      rw [← pow_add, Nat.sub_add_cancel (by omega)]
    rw [← this, mul_assoc, ← mul_pow]; simp
  rw [e3]
  ring

theorem rect_def (d φ : ℝ) : rect d φ = (d : ℂ) * Complex.exp ((φ : ℂ) * Complex.I) := rfl

/-- Regime `ra >= rb`. -/
theorem regA {za zb : ℂ} (ha : za ≠ 0) {p' q' p q : ℕ} (hsum : p' + q' = p + q) {θa θb : ℝ}
    (hθa : za = (‖za‖ : ℂ) * Complex.exp (θa * Complex.I))
    (hθb : zb = (‖zb‖ : ℂ) * Complex.exp (θb * Complex.I))
    {N1 N2 M rhoMax rhoMin : ℤ} (h1 : N1 = p' + 1) (h2 : N2 = q + 1) (h3 : M = (q' : ℤ) - q)
    (h4 : rhoMax = min p' q) (h5 : rhoMin = ((p' - p : ℕ) : ℤ)) {d φ : ℝ}
    (hd : d = (-1 : ℝ) ^ (p' - p) * (Wcoef p' q' p q * ‖za‖ ^ (p' + q - 2 * (p' - p))
        * ‖zb‖ ^ (q' - q + 2 * (p' - p) - (q - q'))))
    (hφ : φ = θa * ((p' : ℝ) - q) + θb * ((q' : ℝ) - q)) :
    ∃ S : ℝ, hornerLoop (-‖zb‖ * ‖zb‖ / (‖za‖ * ‖za‖)) N1 N2 M rhoMax rhoMin = .ok S ∧
      rect d φ * (S : ℂ) = Spec.Dpq za zb p' q' p q := by
  obtain ⟨S, hS, hv⟩ := D_core (zb := zb) ha p' q' p q hsum hθa hθb
  refine ⟨S, ?_, ?_⟩
  · rw [h1, h2, h3, h4, h5, ← hS]
  · rw [← hv, rect_def, hd, hφ]; rfl

/-- Regime `ra < rb`. -/
theorem regB {za zb : ℂ} (hb : zb ≠ 0) {p' q' p q : ℕ} (hsum : p' + q' = p + q) {θa θb : ℝ}
    (hθa : za = (‖za‖ : ℂ) * Complex.exp (θa * Complex.I))
    (hθb : zb = (‖zb‖ : ℂ) * Complex.exp (θb * Complex.I))
    {N1 N2 M rhoMax rhoMin : ℤ} (h1 : N1 = q' + 1) (h2 : N2 = q + 1) (h3 : M = (p' : ℤ) - q)
    (h4 : rhoMax = min q' q) (h5 : rhoMin = ((q' - p : ℕ) : ℤ)) {d φ : ℝ}
    (hd : d = (-1 : ℝ) ^ q * ((-1 : ℝ) ^ (q' - p) * (Wcoef q' p' p q * ‖zb‖ ^ (q' + q - 2 * (q' - p))
        * ‖za‖ ^ (p' - q + 2 * (q' - p) - (q - p')))))
    (hφ : φ = θb * ((q' : ℝ) - q) + θa * ((p' : ℝ) - q)) :
    ∃ S : ℝ, hornerLoop (-‖za‖ * ‖za‖ / (‖zb‖ * ‖zb‖)) N1 N2 M rhoMax rhoMin = .ok S ∧
      rect d φ * (S : ℂ) = Spec.Dpq za zb p' q' p q := by
  obtain ⟨S, hS, hv⟩ := regA (zb := za) hb (p' := q') (q' := p') (by omega) hθb hθa h1 h2 h3 h4 h5
    (d := (-1 : ℝ) ^ (q' - p) * (Wcoef q' p' p q * ‖zb‖ ^ (q' + q - 2 * (q' - p))
        * ‖za‖ ^ (p' - q + 2 * (q' - p) - (q - p')))) rfl hφ
  refine ⟨S, hS, ?_⟩
  rw [Dpq_swap, ← hv, rect_def, rect_def, hd]
  push_cast
  ring

theorem argI (z : ℂ) : z = (‖z‖ : ℂ) * Complex.exp (Complex.arg z * Complex.I) :=
  (Complex.norm_mul_exp_arg_mul_I z).symm

theorem unit_conj {z : ℂ} (h : Complex.normSq z = 1) : conj z = z⁻¹ := by
  rw [Complex.inv_def, h]; simp

theorem ne_zero_of_normSq_one {z : ℂ} (h : Complex.normSq z = 1) : z ≠ 0 := by
  rintro rfl; simp at h

/-- `Rb = 0`: the diagonal matrix. -/
theorem Dpq_rb_zero {za : ℂ} (hu : Complex.normSq za = 1) {p' q' p q : ℕ}
    (hsum : p' + q' = p + q) :
    Spec.Dpq za 0 p' q' p q = if q' = q then za ^ ((p : ℤ) - q) else 0 := by
  have hz := ne_zero_of_normSq_one hu
  unfold Spec.Dpq
  rw [Finset.sum_eq_single 0]
  · split_ifs with h
    · subst h
      have : p' = p := by omega
      subst this
      have hs : (Real.sqrt ((p'.factorial * q'.factorial : ℝ) / (p'.factorial * q'.factorial))) = 1 := by
        rw [div_self (by positivity)]; simp
      rw [hs, unit_conj hu, zpow_sub₀ hz]
      simp [div_eq_mul_inv]
    · have : q' - (q - 0) ≠ 0 ∨ q'.choose (q - 0) = 0 := by
        by_cases h2 : q' < q
        · right; exact Nat.choose_eq_zero_of_lt (by omega)
        · left; omega
      rcases this with h2 | h2
      · simp only [zero_pow h2]; simp
      · rw [h2]; simp
  · intro ρ _ h
    simp [zero_pow h]
  · intro h; simp at h

/-- `Ra = 0`: the antidiagonal matrix. -/
theorem Dpq_ra_zero {zb : ℂ} (hu : Complex.normSq zb = 1) {p' q' p q : ℕ}
    (hsum : p' + q' = p + q) :
    Spec.Dpq 0 zb p' q' p q = if p' = q then (-1) ^ q * zb ^ ((p : ℤ) - q) else 0 := by
  rw [Dpq_swap, Dpq_rb_zero hu (by omega)]
  split_ifs <;> simp

theorem cpowInt_ok {z : ℂ} (hz : z ≠ 0) (n : ℤ) : cpowInt z n = .ok (z ^ n) := by
  unfold cpowInt; simp [hz]

/-- Loops of the form `for i in range(N): out[i] = g(inp[i])`. -/
theorem forL_map_wr {α β : Type} (inp : List α) (out : List β) (hlen : out.length = inp.length)
    (g : α → Py β) (f : α → β) (hg : ∀ x ∈ inp, g x = .ok (f x)) :
    forL (pyRange 0 (inp.length : ℤ)) out (fun i out => do
      let x ← rd inp i
      let v ← g x
      wr out i v) = .ok (inp.map f) := by
  obtain ⟨s, h1, h2⟩ := forR_inv 0 (inp.length : ℤ) (by omega)
    (fun i (o : List β) => o.length = inp.length ∧ ∀ k : ℕ, (k : ℤ) < i → o[k]? = (inp.map f)[k]?)
    out (fun i out => do
      let x ← rd inp i
      let v ← g x
      wr out i v) ⟨hlen, by intro k hk; omega⟩
    (by
      intro i o h3 h4 ⟨h5, h6⟩
      obtain ⟨n, rfl⟩ : ∃ n : ℕ, i = n := ⟨i.toNat, by omega⟩
      have hn : n < inp.length := by omega
      have e1 : rd inp (n : ℤ) = .ok inp[n] := rd_ok (by omega) (by simp [hn])
      refine ⟨o.set n (f inp[n]), ?_, by simpa using h5, ?_⟩
      · rw [e1, bind_ok, hg _ (List.getElem_mem hn), bind_ok, wr_ok (by omega) (by omega)]
        rfl
      · intro k hk
        by_cases hkn : k = n
        · subst hkn
          rw [List.getElem?_set_self (by omega)]
          simp [hn]
        · rw [List.getElem?_set_ne (by omega)]
          exact h6 k (by omega))
  rw [h1]
  congr 1
  apply List.ext_getElem?
  intro k
  by_cases hk : k < inp.length
  · exact h2.2 k (by omega)
  · rw [List.getElem?_eq_none (by omega), List.getElem?_eq_none (by simp; omega)]

/-! ## Element kernel -/

/-- The rotors for which every branch is exact: unit, and `|Ra|`, `|Rb|` zero or above the cut-off. -/
def Generic (Ra Rb : ℂ) : Prop :=
  Spec.IsUnit' Ra Rb ∧ (Ra = 0 ∨ epsilon < ‖Ra‖) ∧ (Rb = 0 ∨ epsilon < ‖Rb‖)

theorem epsilon_pos : 0 < epsilon := by unfold epsilon; positivity

theorem pos_of_eps {z : ℂ} (h : ¬ ‖z‖ ≤ epsilon) : z ≠ 0 := by
  rintro rfl
  exact h (by simpa using epsilon_pos.le)

theorem Generic.ra_zero {Ra Rb : ℂ} (h : Generic Ra Rb) (h2 : ‖Ra‖ ≤ epsilon) :
    Ra = 0 ∧ Complex.normSq Rb = 1 := by
  obtain ⟨h1, h3 | h3, _⟩ := h
  · subst h3; exact ⟨rfl, by simpa [Spec.IsUnit'] using h1⟩
  · linarith

theorem Generic.rb_zero {Ra Rb : ℂ} (h : Generic Ra Rb) (h2 : ‖Rb‖ ≤ epsilon) :
    Rb = 0 ∧ Complex.normSq Ra = 1 := by
  obtain ⟨h1, _, h3 | h3⟩ := h
  · subst h3; exact ⟨rfl, by simpa [Spec.IsUnit'] using h1⟩
  · linarith

theorem neg_one_pow_iff (n : ℕ) : ((-1 : ℝ) ^ n) = if n % 2 = 0 then 1 else -1 := by
  split_ifs with h
  · exact Even.neg_one_pow (Nat.even_iff.mpr h)
  · exact Odd.neg_one_pow (Nat.odd_iff.mpr (by omega))

theorem neg_one_pow_iffC (n : ℕ) : ((-1 : ℂ) ^ n) = if n % 2 = 0 then 1 else -1 := by
  split_ifs with h
  · exact Even.neg_one_pow (Nat.even_iff.mpr h)
  · exact Odd.neg_one_pow (Nat.odd_iff.mpr (by omega))

theorem rpow_eq_pow {x y : ℝ} {n : ℕ} (h : y = n) : x ^ y = x ^ n := by
  rw [h, Real.rpow_natCast]

theorem zpow_eq_pow {x : ℝ} {y : ℤ} {n : ℕ} (h : y = n) : x ^ y = x ^ n := by
  rw [h, zpow_natCast]

theorem rect_eq_zero {d φ : ℝ} : rect d φ = 0 ↔ d = 0 := by
  rw [rect_def]
  constructor
  · intro h
    rcases mul_eq_zero.mp h with h | h
    · exact_mod_cast h
    · exact absurd h (Complex.exp_ne_zero _)
  · rintro rfl; simp

theorem elem_ra_ge_rb_eq {L : ℤ} {table : List ℝ} (ht : IsWignerTable L table) {Ra Rb : ℂ}
    (ha : Ra ≠ 0) {a b c : ℤ} (hv : Spec.ValidD a b c) (hle : a ≤ 2 * L) :
    elem_ra_ge_rb table ‖Ra‖ (Complex.arg Ra) ‖Rb‖ (Complex.arg Rb) a b c
      = .ok (Spec.wignerD Ra Rb a b c) := by
  have hv' := hv
  obtain ⟨p', q', p, q, hsum, hap, hb, hc⟩ := valid_pq hv
  rw [wignerD_pq Ra Rb hsum hap hb hc]
  have hcond : ¬ (|b| > a ∨ |c| > a) := by
    rw [not_or, not_lt, not_lt]; exact ⟨hv'.1, hv'.2.1⟩
  have hrho : max 0 (b - c) = 2 * ((p' - p : ℕ) : ℤ) := by omega
  have hrho' : ((max 0 (b - c) : ℤ) : ℝ) = 2 * ((p' - p : ℕ) : ℝ) := by rw [hrho]; push_cast; rfl
  have hmax : min (a + b) (a - c) = 2 * (((min p' q : ℕ)) : ℤ) := by omega
  have hN1 : a + b + 2 = 2 * ((p' : ℤ) + 1) := by omega
  have hN2 : a - c + 2 = 2 * ((q : ℤ) + 1) := by omega
  have hM : c - b = 2 * ((q' : ℤ) - q) := by omega
  have hcab : c + b = 2 * ((p' : ℤ) - q) := by omega
  have e1 : (a : ℝ) - (c : ℝ) / 2 + (b : ℝ) / 2 - 2 * ((p' - p : ℕ) : ℝ)
      = ((p' + q - 2 * (p' - p) : ℕ) : ℝ) := by
    have : (2 * a - c + b - 4 * ((p' - p : ℕ) : ℤ)) = 2 * ((p' + q - 2 * (p' - p) : ℕ) : ℤ) := by omega
    have h2 : (2 * (a : ℝ) - c + b - 4 * ((p' - p : ℕ) : ℝ)) = 2 * ((p' + q - 2 * (p' - p) : ℕ) : ℝ) := by
      exact_mod_cast this
    linarith
  have e2 : (c : ℝ) / 2 - (b : ℝ) / 2 + 2 * ((p' - p : ℕ) : ℝ)
      = ((q' - q + 2 * (p' - p) - (q - q') : ℕ) : ℝ) := by
    have : (c - b + 4 * ((p' - p : ℕ) : ℤ)) = 2 * ((q' - q + 2 * (p' - p) - (q - q') : ℕ) : ℤ) := by omega
    have h2 : ((c : ℝ) - b + 4 * ((p' - p : ℕ) : ℝ)) = 2 * ((q' - q + 2 * (p' - p) - (q - q') : ℕ) : ℝ) := by
      exact_mod_cast this
    linarith
  obtain ⟨S, hS, hval⟩ := regA (zb := Rb) ha hsum (argI Ra) (argI Rb) (N1 := (p' : ℤ) + 1) (N2 := (q : ℤ) + 1)
    (M := (q' : ℤ) - q) (rhoMax := ((min p' q : ℕ) : ℤ)) (rhoMin := ((p' - p : ℕ) : ℤ))
    rfl rfl rfl (by push_cast; rfl) rfl
    (d := (-1 : ℝ) ^ (p' - p) * (Wcoef p' q' p q * ‖Ra‖ ^ (p' + q - 2 * (p' - p))
        * ‖Rb‖ ^ (q' - q + 2 * (p' - p) - (q - q')))) rfl
    (φ := Complex.arg Ra * ((p' : ℝ) - q) + Complex.arg Rb * ((q' : ℝ) - q)) rfl
  unfold elem_ra_ge_rb
  simp only [hcond, if_false]
  rw [coeff_two ht hsum hap hb hc hle, bind_ok, hrho', hmax, hrho, hN1, hN2, hM, hcab,
    rpow_eq_pow e1, rpow_eq_pow e2]
  have hφ : Complex.arg Ra * ((2 * ((p' : ℤ) - q) : ℤ) : ℝ) / 2 + Complex.arg Rb * ((2 * ((q' : ℤ) - q) : ℤ) : ℝ) / 2
      = Complex.arg Ra * ((p' : ℝ) - q) + Complex.arg Rb * ((q' : ℝ) - q) := by push_cast; ring
  rw [hφ]
  rw [hornerLoop2_eq, hS]
  split_ifs with h0 h1
  · rw [← hval]
    rw [rect_eq_zero] at h0
    rw [rect_def, h0]; simp
  · rw [bind_ok, ← hval, rect_def, rect_def, neg_one_pow_iff]
    have : ¬ (p' - p) % 2 = 0 := by omega
    rw [if_neg this]
    push_cast
    show Except.ok _ = Except.ok _
    congr 1
    ring
  · rw [bind_ok, ← hval, rect_def, rect_def, neg_one_pow_iff]
    have : (p' - p) % 2 = 0 := by omega
    rw [if_pos this]
    show Except.ok _ = Except.ok _
    congr 1
    push_cast
    ring

theorem elem_ra_lt_rb_eq {L : ℤ} {table : List ℝ} (ht : IsWignerTable L table) {Ra Rb : ℂ}
    (hb0 : Rb ≠ 0) {a b c : ℤ} (hv : Spec.ValidD a b c) (hle : a ≤ 2 * L) :
    elem_ra_lt_rb table ‖Ra‖ (Complex.arg Ra) ‖Rb‖ (Complex.arg Rb) a b c
      = .ok (Spec.wignerD Ra Rb a b c) := by
  have hv' := hv
  obtain ⟨p', q', p, q, hsum, hap, hb, hc⟩ := valid_pq hv
  rw [wignerD_pq Ra Rb hsum hap hb hc]
  have hcond : ¬ (|b| > a ∨ |c| > a) := by
    rw [not_or, not_lt, not_lt]; exact ⟨hv'.1, hv'.2.1⟩
  have hrho : max 0 (-b - c) = 2 * ((q' - p : ℕ) : ℤ) := by omega
  have hrho' : ((max 0 (-b - c) : ℤ) : ℝ) = 2 * ((q' - p : ℕ) : ℝ) := by rw [hrho]; push_cast; rfl
  have hmax : min (a - b) (a - c) = 2 * (((min q' q : ℕ)) : ℤ) := by omega
  have hN1 : a - b + 2 = 2 * ((q' : ℤ) + 1) := by omega
  have hN2 : a - c + 2 = 2 * ((q : ℤ) + 1) := by omega
  have hM : c + b = 2 * ((p' : ℤ) - q) := by omega
  have hcab : c - b = 2 * ((q' : ℤ) - q) := by omega
  have e1 : (a : ℝ) - ((2 * ((p' : ℤ) - q) : ℤ) : ℝ) / 2 - 2 * ((q' - p : ℕ) : ℝ)
      = ((q' + q - 2 * (q' - p) : ℕ) : ℝ) := by
    have : (a - ((p' : ℤ) - q) - 2 * ((q' - p : ℕ) : ℤ)) = ((q' + q - 2 * (q' - p) : ℕ) : ℤ) := by omega
    have h2 : ((a : ℝ) - ((p' : ℝ) - q) - 2 * ((q' - p : ℕ) : ℝ)) = ((q' + q - 2 * (q' - p) : ℕ) : ℝ) := by
      exact_mod_cast this
    rw [← h2]; push_cast; ring
  have e2 : ((2 * ((p' : ℤ) - q) : ℤ) : ℝ) / 2 + 2 * ((q' - p : ℕ) : ℝ)
      = ((p' - q + 2 * (q' - p) - (q - p') : ℕ) : ℝ) := by
    have : (((p' : ℤ) - q) + 2 * ((q' - p : ℕ) : ℤ)) = ((p' - q + 2 * (q' - p) - (q - p') : ℕ) : ℤ) := by omega
    have h2 : (((p' : ℝ) - q) + 2 * ((q' - p : ℕ) : ℝ)) = ((p' - q + 2 * (q' - p) - (q - p') : ℕ) : ℝ) := by
      exact_mod_cast this
    rw [← h2]; push_cast; ring
  obtain ⟨S, hS, hval⟩ := regB (za := Ra) hb0 hsum (argI Ra) (argI Rb) (N1 := (q' : ℤ) + 1) (N2 := (q : ℤ) + 1)
    (M := (p' : ℤ) - q) (rhoMax := ((min q' q : ℕ) : ℤ)) (rhoMin := ((q' - p : ℕ) : ℤ))
    rfl rfl rfl (by push_cast; rfl) rfl
    (d := (-1 : ℝ) ^ q * ((-1 : ℝ) ^ (q' - p) * (Wcoef q' p' p q * ‖Rb‖ ^ (q' + q - 2 * (q' - p))
        * ‖Ra‖ ^ (p' - q + 2 * (q' - p) - (q - p'))))) rfl
    (φ := Complex.arg Rb * ((q' : ℝ) - q) + Complex.arg Ra * ((p' : ℝ) - q)) rfl
  unfold elem_ra_lt_rb
  simp only [hcond, if_false]
  rw [coeff_two ht (p' := q') (q' := p') (p := p) (q := q) (by omega) hap (by omega) hc hle, bind_ok, hrho', hmax,
    hrho, hN1, hN2, hM, hcab, rpow_eq_pow e1, rpow_eq_pow e2]
  have hφ : Complex.arg Rb * ((2 * ((q' : ℤ) - q) : ℤ) : ℝ) / 2 + Complex.arg Ra * ((2 * ((p' : ℤ) - q) : ℤ) : ℝ) / 2
      = Complex.arg Rb * ((q' : ℝ) - q) + Complex.arg Ra * ((p' : ℝ) - q) := by push_cast; ring
  rw [hφ]
  rw [hornerLoop2_eq, hS]
  have hs : (-1 : ℝ) ^ q * (-1 : ℝ) ^ (q' - p) = if (q + (q' - p)) % 2 = 0 then 1 else -1 := by
    rw [← pow_add, neg_one_pow_iff]
  rw [← mul_assoc, hs] at hval
  split_ifs with h0 h1
  · rw [← hval]
    rw [rect_eq_zero] at h0
    rw [rect_def, h0]; simp
  · rw [bind_ok, ← hval, rect_def, rect_def]
    have : ¬ (q + (q' - p)) % 2 = 0 := by omega
    rw [if_neg this]
    push_cast
    show Except.ok _ = Except.ok _
    congr 1
    ring
  · rw [bind_ok, ← hval, rect_def, rect_def]
    have : (q + (q' - p)) % 2 = 0 := by omega
    rw [if_pos this]
    show Except.ok _ = Except.ok _
    congr 1
    push_cast
    ring

theorem elem_ra_small_eq {Rb : ℂ} (hu : Complex.normSq Rb = 1) {a b c : ℤ} (hv : Spec.ValidD a b c) :
    elem_ra_small Rb a b c = .ok (Spec.wignerD 0 Rb a b c) := by
  have hv' := hv
  obtain ⟨p', q', p, q, hsum, hap, hb, hc⟩ := valid_pq hv
  rw [wignerD_pq 0 Rb hsum hap hb hc, Dpq_ra_zero hu hsum]
  have hz := ne_zero_of_normSq_one hu
  unfold elem_ra_small
  rw [cpowInt_ok hz]
  by_cases h : p' = q
  · have hcond : ¬ (b ≠ -c ∨ |b| > a ∨ |c| > a) := by
      rw [not_or, not_or, not_lt, not_lt]
      exact ⟨by push Not; omega, hv'.1, hv'.2.1⟩
    rw [if_neg hcond, if_pos h, neg_one_pow_iffC, hc]
    split_ifs with h1 h2 h2
    · simp
    · omega
    · omega
    · simp
  · have hcond : (b ≠ -c ∨ |b| > a ∨ |c| > a) := by left; omega
    rw [if_pos hcond, if_neg h]

theorem elem_rb_small_eq {Ra : ℂ} (hu : Complex.normSq Ra = 1) {a b c : ℤ} (hv : Spec.ValidD a b c) :
    elem_rb_small Ra a b c = .ok (Spec.wignerD Ra 0 a b c) := by
  have hv' := hv
  obtain ⟨p', q', p, q, hsum, hap, hb, hc⟩ := valid_pq hv
  rw [wignerD_pq Ra 0 hsum hap hb hc, Dpq_rb_zero hu hsum]
  have hz := ne_zero_of_normSq_one hu
  unfold elem_rb_small
  rw [cpowInt_ok hz]
  by_cases h : q' = q
  · have hcond : ¬ (b ≠ c ∨ |b| > a ∨ |c| > a) := by
      rw [not_or, not_or, not_lt, not_lt]
      exact ⟨by push Not; omega, hv'.1, hv'.2.1⟩
    rw [if_neg hcond, if_pos h, hc]
  · have hcond : (b ≠ c ∨ |b| > a ∨ |c| > a) := by left; omega
    rw [if_pos hcond, if_neg h]

/-- What the element kernel stores for one triple. -/
noncomputable def Dvalue (Ra Rb : ℂ) (t : ℤ × ℤ × ℤ) : ℂ :=
  if |t.2.1| ≤ t.1 ∧ |t.2.2| ≤ t.1 then Spec.wignerD Ra Rb t.1 t.2.1 t.2.2 else 0

/-- The doubled triple can be looked up, or is out of range (then zero is stored). -/
def Lookable (L : ℤ) (t : ℤ × ℤ × ℤ) : Prop :=
  (|t.2.1| ≤ t.1 ∧ |t.2.2| ≤ t.1) → Spec.ValidD t.1 t.2.1 t.2.2 ∧ t.1 ≤ 2 * L

theorem element_kernel_eq {L : ℤ} {table : List ℝ} (ht : IsWignerTable L table) {Ra Rb : ℂ}
    (hg : Generic Ra Rb) (indices : List (ℤ × ℤ × ℤ)) (elements : List ℂ)
    (hlen : elements.length = indices.length) (hi : ∀ t ∈ indices, Lookable L t) :
    Wigner_D_element_kernel table Ra Rb indices elements = .ok (indices.map (Dvalue Ra Rb)) := by
  unfold Wigner_D_element_kernel
  have hout : ∀ t : ℤ × ℤ × ℤ, ¬ (|t.2.1| ≤ t.1 ∧ |t.2.2| ≤ t.1) → (|t.2.1| > t.1 ∨ |t.2.2| > t.1) := by
    intro t h
    by_contra hc
    rw [not_or, not_lt, not_lt] at hc
    exact h hc
  simp only
  split_ifs with h1 h2 h3
  · obtain ⟨rfl, hu⟩ := hg.ra_zero h1
    apply forL_map_wr indices elements hlen (fun t => elem_ra_small Rb t.1 t.2.1 t.2.2)
    intro t htm
    unfold Dvalue
    split_ifs with h
    · exact elem_ra_small_eq hu (hi t htm h).1
    · unfold elem_ra_small; rw [if_pos (Or.inr (hout t h))]
  · obtain ⟨rfl, hu⟩ := hg.rb_zero h2
    apply forL_map_wr indices elements hlen (fun t => elem_rb_small Ra t.1 t.2.1 t.2.2)
    intro t htm
    unfold Dvalue
    split_ifs with h
    · exact elem_rb_small_eq hu (hi t htm h).1
    · unfold elem_rb_small; rw [if_pos (Or.inr (hout t h))]
  · apply forL_map_wr indices elements hlen
      (fun t => elem_ra_lt_rb table ‖Ra‖ (Complex.arg Ra) ‖Rb‖ (Complex.arg Rb) t.1 t.2.1 t.2.2)
    intro t htm
    unfold Dvalue
    split_ifs with h
    · exact elem_ra_lt_rb_eq ht (pos_of_eps h2) (hi t htm h).1 (hi t htm h).2
    · unfold elem_ra_lt_rb; simp only; rw [if_pos (hout t h)]
  · apply forL_map_wr indices elements hlen
      (fun t => elem_ra_ge_rb table ‖Ra‖ (Complex.arg Ra) ‖Rb‖ (Complex.arg Rb) t.1 t.2.1 t.2.2)
    intro t htm
    unfold Dvalue
    split_ifs with h
    · exact elem_ra_ge_rb_eq ht (pos_of_eps h1) (hi t htm h).1 (hi t htm h).2
    · unfold elem_ra_ge_rb; simp only; rw [if_pos (hout t h)]

end SF
