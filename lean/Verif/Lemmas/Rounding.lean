import Verif.Model.WignerDFloat
import Verif.Lemmas.WignerD

/-! # Rounding error analysis -/

set_option autoImplicit false

namespace SF

open Finset ComplexConjugate

/-- `x'` is `x` times a factor between `(1-u)^k` and `(1-u)^(-k)`. -/
def Near (u : ℝ) (k : ℕ) (x' x : ℝ) : Prop := ∃ θ, x' = x * θ ∧ (1 - u) ^ k ≤ θ ∧ θ * (1 - u) ^ k ≤ 1

/-- Such a factor. -/
def Fac (u : ℝ) (k : ℕ) (θ : ℝ) : Prop := (1 - u) ^ k ≤ θ ∧ θ * (1 - u) ^ k ≤ 1

/-- `(1-u)^(-k) - 1`, which is at most `k u / (1 - k u)`. -/
noncomputable def gam (u : ℝ) (k : ℕ) : ℝ := ((1 - u) ^ k)⁻¹ - 1

section
variable {u : ℝ} (hu0 : 0 ≤ u) (hu1 : u < 1)
include hu0 hu1

theorem Fac.pos {k : ℕ} {θ : ℝ} (h : Fac u k θ) : 0 < θ := lt_of_lt_of_le (pow_pos (by linarith) k) h.1

theorem Fac.mono {k l : ℕ} (hkl : k ≤ l) {θ : ℝ} (h : Fac u k θ) : Fac u l θ := by
  have e : (1 - u) ^ l ≤ (1 - u) ^ k := pow_le_pow_of_le_one (by linarith) (by linarith) hkl
  have := h.pos hu0 hu1
  exact ⟨e.trans h.1, (mul_le_mul_of_nonneg_left e this.le).trans h.2⟩

theorem Fac.mul {k l : ℕ} {θ η : ℝ} (h : Fac u k θ) (g : Fac u l η) : Fac u (k + l) (θ * η) := by
  have p1 : 0 < (1 - u) ^ k := pow_pos (by linarith) k
  have p2 : 0 < (1 - u) ^ l := pow_pos (by linarith) l
  have q1 := h.pos hu0 hu1
  have q2 := g.pos hu0 hu1
  unfold Fac
  rw [pow_add]
  refine ⟨mul_le_mul h.1 g.1 p2.le q1.le, ?_⟩
  calc θ * η * ((1 - u) ^ k * (1 - u) ^ l) = (θ * (1 - u) ^ k) * (η * (1 - u) ^ l) := by ring
    _ ≤ 1 * 1 := mul_le_mul h.2 g.2 (by positivity) (by norm_num)
    _ = 1 := by norm_num

theorem Fac.inv {k : ℕ} {θ : ℝ} (h : Fac u k θ) : Fac u k θ⁻¹ := by
  have p1 : 0 < (1 - u) ^ k := pow_pos (by linarith) k
  have q1 := h.pos hu0 hu1
  constructor
  · rw [le_inv_comm₀ p1 q1, ← one_div, le_div_iff₀ p1]; exact h.2
  · rw [inv_mul_le_iff₀ q1, mul_one]; exact h.1

theorem Fac.pow {k : ℕ} {θ : ℝ} (h : Fac u k θ) (n : ℕ) : Fac u (n * k) (θ ^ n) := by
  induction n with
  | zero => simp [Fac]
  | succ n ih => rw [pow_succ, Nat.succ_mul]; exact ih.mul hu0 hu1 h

theorem Fac.abs_sub {k : ℕ} {θ : ℝ} (h : Fac u k θ) : |θ - 1| ≤ gam u k := by
  have p1 : 0 < (1 - u) ^ k := pow_pos (by linarith) k
  unfold gam
  have h2 : θ ≤ ((1 - u) ^ k)⁻¹ := by rw [← one_div, le_div_iff₀ p1]; exact h.2
  have h3 : 2 ≤ (1 - u) ^ k + ((1 - u) ^ k)⁻¹ := by
    generalize (1 - u) ^ k = x at *
    have : x + x⁻¹ - 2 = (x - 1) ^ 2 / x := by field_simp; ring
    have h5 : 0 ≤ (x - 1) ^ 2 / x := by positivity
    linarith
  rw [abs_le]
  constructor <;> linarith [h.1]

theorem near_iff {k : ℕ} {x' x : ℝ} : Near u k x' x ↔ ∃ θ, x' = x * θ ∧ Fac u k θ := Iff.rfl

theorem RelErr.fac {x' x : ℝ} (h : RelErr u x' x) : Near u 1 x' x := by
  unfold RelErr at h
  by_cases hx : x = 0
  · subst hx
    refine ⟨1, ?_, ?_, ?_⟩
    · simp at h; simp [h]
    · rw [pow_one]; linarith
    · rw [pow_one]; linarith
  · have e : x' = x * (x' / x) := by field_simp
    have h2 : |x' / x - 1| ≤ u := by
      have : x' / x - 1 = (x' - x) / x := by field_simp
      rw [this, abs_div, div_le_iff₀ (abs_pos.mpr hx)]; exact h
    rw [abs_le] at h2
    refine ⟨x' / x, e, ?_, ?_⟩
    · rw [pow_one]; linarith
    · rw [pow_one]; nlinarith

theorem Near.mono {k l : ℕ} (hkl : k ≤ l) {x' x : ℝ} (h : Near u k x' x) : Near u l x' x := by
  obtain ⟨θ, e, f⟩ := h
  exact ⟨θ, e, Fac.mono hu0 hu1 hkl f⟩

theorem Near.trans {k l : ℕ} {x'' x' x : ℝ} (h : Near u k x'' x') (g : Near u l x' x) : Near u (l + k) x'' x := by
  obtain ⟨θ, e, f⟩ := h
  obtain ⟨η, e', f'⟩ := g
  exact ⟨η * θ, by rw [e, e']; ring, Fac.mul hu0 hu1 f' f⟩

theorem Near.mul {k l : ℕ} {x' x y' y : ℝ} (h : Near u k x' x) (g : Near u l y' y) : Near u (k + l) (x' * y') (x * y) := by
  obtain ⟨θ, e, f⟩ := h
  obtain ⟨η, e', f'⟩ := g
  exact ⟨θ * η, by rw [e, e']; ring, Fac.mul hu0 hu1 f f'⟩

theorem Near.div {k l : ℕ} {x' x y' y : ℝ} (h : Near u k x' x) (g : Near u l y' y) : Near u (k + l) (x' / y') (x / y) := by
  obtain ⟨θ, e, f⟩ := h
  obtain ⟨η, e', f'⟩ := g
  exact ⟨θ * η⁻¹, by rw [e, e', mul_div_mul_comm, div_eq_mul_inv θ], Fac.mul hu0 hu1 f (Fac.inv hu0 hu1 f')⟩

theorem Near.pow {k : ℕ} {x' x : ℝ} (h : Near u k x' x) (n : ℕ) : Near u (n * k) (x' ^ n) (x ^ n) := by
  obtain ⟨θ, e, f⟩ := h
  exact ⟨θ ^ n, by rw [e, mul_pow], Fac.pow hu0 hu1 f n⟩

theorem Near.refl (x : ℝ) : Near u 0 x x := ⟨1, by simp, by simp, by simp⟩

theorem Near.neg {k : ℕ} {x' x : ℝ} (h : Near u k x' x) : Near u k (-x') (-x) := by
  obtain ⟨θ, e, f⟩ := h
  exact ⟨θ, by rw [e]; ring, f⟩

theorem Near.err {k : ℕ} {x' x : ℝ} (h : Near u k x' x) : |x' - x| ≤ gam u k * |x| := by
  obtain ⟨θ, e, f⟩ := h
  have : x' - x = x * (θ - 1) := by rw [e]; ring
  rw [this, abs_mul, mul_comm]
  exact mul_le_mul_of_nonneg_right (Fac.abs_sub hu0 hu1 f) (abs_nonneg _)

theorem Near.ne_zero {k : ℕ} {x' x : ℝ} (h : Near u k x' x) (hx : x ≠ 0) : x' ≠ 0 := by
  obtain ⟨θ, e, f⟩ := h
  rw [e]
  exact mul_ne_zero hx (Fac.pos hu0 hu1 f).ne'

theorem Near.pos {k : ℕ} {x' x : ℝ} (h : Near u k x' x) (hx : 0 < x) : 0 < x' := by
  obtain ⟨θ, e, f⟩ := h
  rw [e]
  exact mul_pos hx (Fac.pos hu0 hu1 f)

theorem gam_le {k : ℕ} (hk : k * u < 1) : gam u k ≤ k * u / (1 - k * u) := by
  have b : 1 - k * u ≤ (1 - u) ^ k := by
    have := one_add_mul_le_pow (a := -u) (by linarith) k
    simpa [sub_eq_add_neg] using this
  have p1 : 0 < 1 - k * u := by linarith
  unfold gam
  have : ((1 - u) ^ k)⁻¹ ≤ (1 - k * u)⁻¹ := inv_anti₀ p1 b
  have e : k * u / (1 - k * u) = (1 - k * u)⁻¹ - 1 := by field_simp; ring
  linarith

theorem gam_nonneg (k : ℕ) : 0 ≤ gam u k := (abs_nonneg _).trans (Fac.abs_sub hu0 hu1 (k := k) (θ := 1)
  ⟨pow_le_one₀ (by linarith) (by linarith), by rw [one_mul]; exact pow_le_one₀ (by linarith) (by linarith)⟩)

theorem gam_mono {k l : ℕ} (h : k ≤ l) : gam u k ≤ gam u l := by
  unfold gam
  have e : (1 - u) ^ l ≤ (1 - u) ^ k := pow_le_pow_of_le_one (by linarith) (by linarith) h
  have := inv_anti₀ (pow_pos (by linarith) l) e
  linarith

/-- The Horner loop with rounding: each term of the sum gets its own factor. -/
theorem hornerF_core {F : FloatOps} {w : ℝ} (hF : F.Std u w) (r : ℕ → ℝ) (a b : ℕ) (hab : a ≤ b) (body : ℤ → ℝ → Py ℝ)
    (hbody : ∀ ρ : ℕ, a < ρ → ρ ≤ b → ∃ q, Near u 9 q (r ρ) ∧ ∀ S, body ρ S = .ok (F.add (F.mul S q) 1)) :
    ∃ (S : ℝ) (θ : ℕ → ℝ), forL ((List.range (b - a)).map (fun k : ℕ => (b : ℤ) - k)) (1 : ℝ) body = .ok S ∧
      S = ∑ ρ ∈ Ico a (b + 1), (∏ i ∈ Ioc a ρ, r i) * θ ρ ∧ ∀ ρ, Fac u (11 * (b - a)) (θ ρ) := by
  obtain ⟨n, rfl⟩ : ∃ n, b = a + n := ⟨b - a, by omega⟩
  clear hab
  rw [Nat.add_sub_cancel_left]
  induction n generalizing a with
  | zero => exact ⟨1, fun _ => 1, by simp, by simp, fun _ => by simp [Fac]⟩
  | succ n ih =>
    obtain ⟨S, θ, h1, h2, h3⟩ := ih (a + 1) (fun ρ h3 h4 => hbody ρ (by omega) (by omega))
    have e : a + 1 + n = a + (n + 1) := by omega
    rw [e] at h1 h2
    obtain ⟨q, hq, hb⟩ := hbody (a + 1) (by omega) (by omega)
    obtain ⟨θq, q1, q2⟩ := hq
    obtain ⟨η1, m1, m2⟩ := (hF.mul S q).fac hu0 hu1
    obtain ⟨η2, a1, a2⟩ := (hF.add (F.mul S q) 1).fac hu0 hu1
    refine ⟨F.add (F.mul S q) 1, fun ρ => if ρ = a then η2 else θ ρ * θq * η1 * η2, ?_, ?_, ?_⟩
    · rw [List.range_succ, List.map_append, forL_append, h1, bind_ok]
      simp only [List.map_cons, List.map_nil, forL_cons, forL_nil]
      have : ((a + (n + 1) : ℕ) : ℤ) - (n : ℤ) = ((a + 1 : ℕ) : ℤ) := by push_cast; ring
      rw [this, hb]
      rfl
    · simp only
      rw [Finset.sum_eq_sum_Ico_succ_bot (by omega), if_pos rfl, Ioc_self, prod_empty, one_mul, a1, m1, h2, q1]
      have : ∑ ρ ∈ Ico (a + 1) (a + (n + 1) + 1), (∏ i ∈ Ioc a ρ, r i) * (if ρ = a then η2 else θ ρ * θq * η1 * η2)
          = (∑ ρ ∈ Ico (a + 1) (a + (n + 1) + 1), (∏ i ∈ Ioc (a + 1) ρ, r i) * θ ρ) * (r (a + 1) * θq) * η1 * η2 := by
        rw [Finset.sum_mul, Finset.sum_mul, Finset.sum_mul]
        apply Finset.sum_congr rfl
        intro ρ hρ
        rw [mem_Ico] at hρ
        rw [if_neg (by omega), ← Finset.prod_Ioc_consecutive r (show a ≤ a + 1 by omega) (show a + 1 ≤ ρ by omega),
          Finset.prod_Ioc_succ_top le_rfl, Ioc_self, prod_empty]
        ring
      rw [this]
      ring
    · intro ρ
      have key : Fac u (11 * n + 9 + 1 + 1) (θ ρ * θq * η1 * η2) :=
        Fac.mul hu0 hu1 (Fac.mul hu0 hu1 (Fac.mul hu0 hu1 (h3 ρ) q2) m2) a2
      simp only
      split_ifs
      · exact Fac.mono hu0 hu1 (by omega) a2
      · exact Fac.mono hu0 hu1 (by omega) key

end

end SF
