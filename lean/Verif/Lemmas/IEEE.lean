import Verif.Model.FloatIEEE
import Verif.Lemmas.RoundingE

/-! # Rounding errors with underflow and overflow -/

set_option autoImplicit false

namespace SF

open Finset ComplexConjugate

/-- `x'` is `x` times a factor between `(1-u)^k` and `(1-u)^(-k)`, up to an absolute error `E`. -/
def Mix (u : ℝ) (k : ℕ) (E x' x : ℝ) : Prop := ∃ y, Near u k y x ∧ |x' - y| ≤ E

section
variable {u w η ν Ω : ℝ} {F : FloatOps} (hF : F.IEEE u w η ν Ω)

theorem IErr.rel {x' x : ℝ} (h : IErr u η ν x' x) (hx : ν ≤ |x|) : RelErr u x' x := by
  rcases h with h | ⟨h, -⟩
  · exact h
  · exact absurd hx (not_le.mpr h)

include hF

theorem IErr.mix {x' x : ℝ} (h : IErr u η ν x' x) : Mix u 1 η x' x := by
  have hu0 := hF.u_nonneg
  have hu1 := hF.u_lt_one
  rcases h with h | ⟨-, h⟩
  · exact ⟨x', h.fac hu0 hu1, by rw [sub_self, abs_zero]; exact hF.η_nonneg⟩
  · exact ⟨x, (Near.refl hu0 hu1 x).mono hu0 hu1 (by norm_num), h⟩

theorem RelErr.mix {x' x : ℝ} (h : RelErr u x' x) : Mix u 1 0 x' x :=
  ⟨x', h.fac hF.u_nonneg hF.u_lt_one, by simp⟩

theorem Mix.refl (x : ℝ) : Mix u 0 0 x x := ⟨x, Near.refl hF.u_nonneg hF.u_lt_one x, by simp⟩

theorem Mix.mono {k l : ℕ} {E G x' x : ℝ} (hkl : k ≤ l) (hEG : E ≤ G) (h : Mix u k E x' x) : Mix u l G x' x := by
  obtain ⟨y, h1, h2⟩ := h
  exact ⟨y, h1.mono hF.u_nonneg hF.u_lt_one hkl, h2.trans hEG⟩

theorem fac_le_two {k K : ℕ} (hk : k ≤ K) (hK : 1 / 2 ≤ (1 - u) ^ K) {θ : ℝ} (h : Fac u k θ) : θ ≤ 2 := by
  have h1 := h.mono hF.u_nonneg hF.u_lt_one hk
  have h2 := h1.2
  have h3 := h1.pos hF.u_nonneg hF.u_lt_one
  nlinarith

theorem fac_ge_half {k K : ℕ} (hk : k ≤ K) (hK : 1 / 2 ≤ (1 - u) ^ K) {θ : ℝ} (h : Fac u k θ) : 1 / 2 ≤ θ :=
  hK.trans (h.mono hF.u_nonneg hF.u_lt_one hk).1

theorem Near.abs_le_two {k K : ℕ} (hk : k ≤ K) (hK : 1 / 2 ≤ (1 - u) ^ K) {x' x : ℝ} (h : Near u k x' x) : |x'| ≤ 2 * |x| := by
  obtain ⟨θ, e, f⟩ := h
  have h1 := fac_le_two hF hk hK f
  have h2 := Fac.pos hF.u_nonneg hF.u_lt_one f
  rw [e, abs_mul, abs_of_pos h2]
  nlinarith [abs_nonneg x]

theorem Near.abs_ge_half {k K : ℕ} (hk : k ≤ K) (hK : 1 / 2 ≤ (1 - u) ^ K) {x' x : ℝ} (h : Near u k x' x) : |x| / 2 ≤ |x'| := by
  obtain ⟨θ, e, f⟩ := h
  have h1 := fac_ge_half hF hk hK f
  have h2 := Fac.pos hF.u_nonneg hF.u_lt_one f
  rw [e, abs_mul, abs_of_pos h2]
  nlinarith [abs_nonneg x]

theorem Mix.abs_le {k K : ℕ} (hk : k ≤ K) (hK : 1 / 2 ≤ (1 - u) ^ K) {E x' x : ℝ} (h : Mix u k E x' x) : |x'| ≤ 2 * |x| + E := by
  obtain ⟨y, h1, h2⟩ := h
  have := Near.abs_le_two hF hk hK h1
  have : |x'| ≤ |y| + |x' - y| := by
    calc |x'| = |y + (x' - y)| := by rw [add_sub_cancel]
      _ ≤ _ := abs_add_le _ _
  linarith

theorem Near.mul_fac' {k l : ℕ} {x' x δ : ℝ} (h : Near u k x' x) (hδ : Fac u l δ) : Near u (k + l) (x' * δ) x := by
  obtain ⟨θ, e, f⟩ := h
  exact ⟨θ * δ, by rw [e]; ring, Fac.mul hF.u_nonneg hF.u_lt_one f hδ⟩

theorem Near.div_exact' {k : ℕ} {x' x : ℝ} (h : Near u k x' x) (y : ℝ) : Near u k (x' / y) (x / y) := by
  obtain ⟨θ, e, f⟩ := h
  exact ⟨θ, by rw [e]; ring, f⟩

/-- A product of quantities with errors. -/
theorem Mix.mulOp {k l K : ℕ} (hK : 1 / 2 ≤ (1 - u) ^ K) (hkl : k + l + 1 ≤ K) {E G x' x y' y : ℝ} (hx : Mix u k E x' x) (hy : Mix u l G y' y)
    (hΩ : |x' * y'| ≤ Ω) : Mix u (k + l + 1) (2 * (2 * |x| * G + 2 * |y| * E + E * G) + η) (F.mul x' y') (x * y) := by
  have hu0 := hF.u_nonneg
  have hu1 := hF.u_lt_one
  obtain ⟨x1, a1, a2⟩ := hx
  obtain ⟨y1, b1, b2⟩ := hy
  have E0 := (abs_nonneg _).trans a2
  have G0 := (abs_nonneg _).trans b2
  obtain ⟨z, ⟨δ, c1, c2⟩, c3⟩ := IErr.mix hF (hF.mul x' y' hΩ)
  refine ⟨x1 * y1 * δ, Near.mul_fac' hF (Near.mul hu0 hu1 a1 b1) c2, ?_⟩
  have hd := fac_le_two hF (show 1 ≤ K by omega) hK c2
  have hd0 := Fac.pos hu0 hu1 c2
  have hx1 := Near.abs_le_two hF (show k ≤ K by omega) hK a1
  have hy1 := Near.abs_le_two hF (show l ≤ K by omega) hK b1
  have e : F.mul x' y' - x1 * y1 * δ = (F.mul x' y' - z) + (x1 * (y' - y1) + (x' - x1) * y1 + (x' - x1) * (y' - y1)) * δ := by rw [c1]; ring
  rw [e]
  refine (abs_add_le _ _).trans ?_
  rw [abs_mul, abs_of_pos hd0, add_comm]
  refine add_le_add ?_ c3
  have t : |x1 * (y' - y1) + (x' - x1) * y1 + (x' - x1) * (y' - y1)| ≤ 2 * |x| * G + 2 * |y| * E + E * G := by
    refine (abs_add_le _ _).trans (add_le_add ((abs_add_le _ _).trans (add_le_add ?_ ?_)) ?_)
    · rw [abs_mul]; exact mul_le_mul hx1 b2 (abs_nonneg _) (by positivity)
    · rw [abs_mul, mul_comm]; exact mul_le_mul hy1 a2 (abs_nonneg _) (by positivity)
    · rw [abs_mul]; exact mul_le_mul a2 b2 (abs_nonneg _) E0
  have t0 := (abs_nonneg _).trans t
  calc _ ≤ (2 * |x| * G + 2 * |y| * E + E * G) * 2 := mul_le_mul t hd hd0.le t0
    _ = _ := by ring

/-- Division by an exact number. -/
theorem Mix.divOp {k K : ℕ} (hK : 1 / 2 ≤ (1 - u) ^ K) (hk : k + 1 ≤ K) {E x' x y : ℝ} (hx : Mix u k E x' x) (hy : y ≠ 0)
    (hΩ : |x' / y| ≤ Ω) : Mix u (k + 1) (2 * (E / |y|) + η) (F.div x' y) (x / y) := by
  have hu0 := hF.u_nonneg
  have hu1 := hF.u_lt_one
  obtain ⟨x1, a1, a2⟩ := hx
  obtain ⟨z, ⟨δ, c1, c2⟩, c3⟩ := IErr.mix hF (hF.div x' y hy hΩ)
  have hd := fac_le_two hF (show 1 ≤ K by omega) hK c2
  have hd0 := Fac.pos hu0 hu1 c2
  refine ⟨x1 / y * δ, Near.mul_fac' hF (Near.div_exact' hF a1 y) c2, ?_⟩
  have e : F.div x' y - x1 / y * δ = (F.div x' y - z) + (x' - x1) / y * δ := by rw [c1]; ring
  rw [e]
  refine (abs_add_le _ _).trans ?_
  rw [abs_mul, abs_of_pos hd0, abs_div, add_comm]
  refine add_le_add ?_ c3
  have t : |x' - x1| / |y| ≤ E / |y| := by gcongr
  have t0 : 0 ≤ |x' - x1| / |y| := by positivity
  nlinarith

/-- The Horner loop with rounding, underflow included: an underflowing product is a relative error of the summand 1. -/
theorem hornerI_core (hη : 2 * η ≤ u) (r : ℕ → ℝ) (a b : ℕ) (hab : a ≤ b) {M : ℝ} (hK : 1 / 2 ≤ (1 - u) ^ (11 * (b - a)))
    (hM : ∀ k, a ≤ k → k ≤ b → ∑ ρ ∈ Ico k (b + 1), |∏ i ∈ Ioc k ρ, r i| ≤ M) (hΩ : 4 * M + 2 ≤ Ω)
    (body : ℤ → ℝ → Py ℝ) (hbody : ∀ ρ : ℕ, a < ρ → ρ ≤ b → ∃ q, Near u 9 q (r ρ) ∧ ∀ S, body ρ S = .ok (F.add (F.mul S q) 1)) :
    ∃ (S : ℝ) (θ : ℕ → ℝ), forL ((List.range (b - a)).map (fun k : ℕ => (b : ℤ) - k)) (1 : ℝ) body = .ok S ∧
      S = ∑ ρ ∈ Ico a (b + 1), (∏ i ∈ Ioc a ρ, r i) * θ ρ ∧ ∀ ρ, Fac u (11 * (b - a)) (θ ρ) := by
  have hu0 := hF.u_nonneg
  have hu1 := hF.u_lt_one
  have hη0 := hF.η_nonneg
  have hM0 : 0 ≤ M := (Finset.sum_nonneg fun _ _ => abs_nonneg _).trans (hM b hab le_rfl)
  obtain ⟨n, rfl⟩ : ∃ n, b = a + n := ⟨b - a, by omega⟩
  clear hab
  rw [Nat.add_sub_cancel_left] at hK ⊢
  induction n generalizing a with
  | zero => exact ⟨1, fun _ => 1, by simp, by simp, fun _ => by simp [Fac]⟩
  | succ n ih =>
    have e : a + 1 + n = a + (n + 1) := by omega
    have hKn : 1 / 2 ≤ (1 - u) ^ (11 * n) := hK.trans (pow_le_pow_of_le_one (by linarith) (by linarith) (by omega))
    obtain ⟨S, θ, h1, h2, h3⟩ := ih (a + 1) hKn (fun k h3 h4 => by rw [e] at h4 ⊢; exact hM k (by omega) h4)
      (fun ρ h3 h4 => hbody ρ (by omega) (by omega))
    rw [e] at h1 h2
    obtain ⟨q, hq, hb⟩ := hbody (a + 1) (by omega) (by omega)
    obtain ⟨θq, q1, q2⟩ := hq
    have hSum : ∀ f : ℕ → ℝ, (∑ ρ ∈ Ico (a + 1) (a + (n + 1) + 1), (∏ i ∈ Ioc (a + 1) ρ, r i) * f ρ) * r (a + 1)
        = ∑ ρ ∈ Ico (a + 1) (a + (n + 1) + 1), (∏ i ∈ Ioc a ρ, r i) * f ρ := by
      intro f
      rw [Finset.sum_mul]
      apply Finset.sum_congr rfl
      intro ρ hρ
      rw [mem_Ico] at hρ
      rw [← Finset.prod_Ioc_consecutive r (show a ≤ a + 1 by omega) (show a + 1 ≤ ρ by omega),
        Finset.prod_Ioc_succ_top le_rfl, Ioc_self, prod_empty]
      ring
    have hSq : S * q = ∑ ρ ∈ Ico (a + 1) (a + (n + 1) + 1), (∏ i ∈ Ioc a ρ, r i) * (θ ρ * θq) := by
      rw [h2, q1, ← mul_assoc, hSum, Finset.sum_mul]
      exact Finset.sum_congr rfl fun ρ _ => by ring
    have hSqM : |S * q| ≤ 2 * M := by
      have hm := hM a le_rfl (by omega)
      rw [Finset.sum_eq_sum_Ico_succ_bot (by omega), Ioc_self, prod_empty, abs_one] at hm
      rw [hSq]
      refine (Finset.abs_sum_le_sum_abs _ _).trans ?_
      calc _ ≤ ∑ ρ ∈ Ico (a + 1) (a + (n + 1) + 1), 2 * |∏ i ∈ Ioc a ρ, r i| := by
            apply Finset.sum_le_sum
            intro ρ _
            have hf := Fac.mul hu0 hu1 (h3 ρ) q2
            have f1 := fac_le_two hF (show 11 * n + 9 ≤ 11 * (n + 1) by omega) hK hf
            have f2 := Fac.pos hu0 hu1 hf
            rw [abs_mul, abs_of_pos f2, mul_comm]
            exact mul_le_mul_of_nonneg_right f1 (abs_nonneg _)
        _ = 2 * ∑ ρ ∈ Ico (a + 1) (a + (n + 1) + 1), |∏ i ∈ Ioc a ρ, r i| := by rw [Finset.mul_sum]
        _ ≤ _ := by linarith
    -- the product, with an underflow error moved to the summand 1
    obtain ⟨η1, e1, m1, m2, m3⟩ : ∃ η1 e1, F.mul S q = S * q * η1 + e1 ∧ Fac u 1 η1 ∧ |e1| ≤ η := by
      obtain ⟨y, ⟨θ', t1, t2⟩, t3⟩ := IErr.mix hF (hF.mul S q (by linarith))
      exact ⟨θ', F.mul S q - y, by rw [t1]; ring, t2, t3⟩
    have f1 : Fac u 1 (1 + e1) := by
      obtain ⟨k1, k2⟩ := abs_le.mp m3
      unfold Fac
      rw [pow_one]
      constructor <;> nlinarith
    have hadd : |F.mul S q + 1| ≤ Ω := by
      have t1 := fac_le_two hF (show 1 ≤ 11 * (n + 1) by omega) hK m2
      have t2 := Fac.pos hu0 hu1 m2
      have t3 := fac_le_two hF (show 1 ≤ 11 * (n + 1) by omega) hK f1
      have t4 := Fac.pos hu0 hu1 f1
      rw [m1, add_assoc, add_comm e1]
      refine (abs_add_le _ _).trans ?_
      rw [abs_mul, abs_of_pos t2, abs_of_pos t4]
      nlinarith [abs_nonneg (S * q)]
    obtain ⟨η2, κ, a1, a2, a3⟩ : ∃ η2 κ, F.add (F.mul S q) 1 = S * q * η1 * η2 + κ ∧ Fac u 1 η2 ∧ Fac u 2 κ := by
      rcases hF.add (F.mul S q) 1 hadd with h | ⟨-, h⟩
      · obtain ⟨η2, a1, a2⟩ := h.fac hu0 hu1
        exact ⟨η2, (1 + e1) * η2, by rw [a1, m1]; ring, a2, Fac.mul hu0 hu1 f1 a2⟩
      · refine ⟨1, 1 + (e1 + (F.add (F.mul S q) 1 - (F.mul S q + 1))), ?_, Fac.mono hu0 hu1 (show 0 ≤ 1 by norm_num) (by simp [Fac]), ?_⟩
        · rw [m1]; ring
        · refine Fac.mono hu0 hu1 (show 1 ≤ 2 by norm_num) ?_
          obtain ⟨k1, k2⟩ := abs_le.mp m3
          obtain ⟨l1, l2⟩ := abs_le.mp h
          unfold Fac
          rw [pow_one]
          constructor <;> nlinarith
    refine ⟨F.add (F.mul S q) 1, fun ρ => if ρ = a then κ else θ ρ * θq * η1 * η2, ?_, ?_, ?_⟩
    · rw [List.range_succ, List.map_append, forL_append, h1, bind_ok]
      simp only [List.map_cons, List.map_nil, forL_cons, forL_nil]
      have : ((a + (n + 1) : ℕ) : ℤ) - (n : ℤ) = ((a + 1 : ℕ) : ℤ) := by push_cast; ring
      rw [this, hb]
      rfl
    · simp only
      rw [Finset.sum_eq_sum_Ico_succ_bot (by omega), if_pos rfl, Ioc_self, prod_empty, one_mul, a1, hSq]
      have : ∑ ρ ∈ Ico (a + 1) (a + (n + 1) + 1), (∏ i ∈ Ioc a ρ, r i) * (if ρ = a then κ else θ ρ * θq * η1 * η2)
          = (∑ ρ ∈ Ico (a + 1) (a + (n + 1) + 1), (∏ i ∈ Ioc a ρ, r i) * (θ ρ * θq)) * η1 * η2 := by
        rw [Finset.sum_mul, Finset.sum_mul]
        apply Finset.sum_congr rfl
        intro ρ hρ
        rw [mem_Ico] at hρ
        rw [if_neg (by omega)]
        ring
      rw [this]
      ring
    · intro ρ
      have key : Fac u (11 * n + 9 + 1 + 1) (θ ρ * θq * η1 * η2) :=
        Fac.mul hu0 hu1 (Fac.mul hu0 hu1 (Fac.mul hu0 hu1 (h3 ρ) q2) m2) a2
      simp only
      split_ifs
      · exact Fac.mono hu0 hu1 (by omega) a3
      · exact Fac.mono hu0 hu1 (by omega) key

end

end SF
