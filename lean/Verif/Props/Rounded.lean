import Verif.Model.Rounded
import Verif.Props.Index

/-!
# Property C63: `LM_deduce_ell_max` with a rounded square root
-/

set_option autoImplicit false

namespace SF

/-- What is used of the rounding to double precision: it is monotone and leaves integers up to `2^53` alone. -/
structure IsRounding (fl : ℝ → ℝ) : Prop where
  mono : Monotone fl
  exact : ∀ n : ℤ, |n| ≤ 2 ^ 53 → fl n = n

/-- **C63.** For every rounding, `LM_deduce_ell_max` computed in floating point returns the same result — value or exception — as the
exact function of C02, as long as `size + ell_min²` is at most `2^53`. -/
theorem C63_deduce_rounded {fl : ℝ → ℝ} (hfl : IsRounding fl) (size ell_min : ℤ) (h : size + ell_min ^ 2 ≤ 2 ^ 53) :
    LM_deduce_ell_max_fl fl size ell_min = LM_deduce_ell_max size ell_min := by
  unfold LM_deduce_ell_max_fl LM_deduce_ell_max
  split
  · rfl
  rename_i h0
  push Not at h0
  set N := size + ell_min ^ 2 with hN
  have eN : fl ((N : ℤ) : ℝ) = N := hfl.exact N (by rw [abs_le]; omega)
  rw [eN]
  obtain ⟨n, hn⟩ : ∃ n : ℤ, n = ⌊Real.sqrt (N : ℝ)⌋ := ⟨_, rfl⟩
  have hn0 : 0 ≤ n := by rw [hn]; exact Int.floor_nonneg.2 (Real.sqrt_nonneg _)
  have hN0 : (0 : ℝ) ≤ N := by exact_mod_cast h0
  have l1 : (n : ℝ) ≤ Real.sqrt N := by rw [hn]; exact Int.floor_le _
  have l2 : Real.sqrt N < n + 1 := by rw [hn]; exact Int.lt_floor_add_one _
  have l3 : n ^ 2 ≤ N := by
    have : (n : ℝ) ^ 2 ≤ N := by
      calc (n : ℝ) ^ 2 ≤ Real.sqrt N ^ 2 := pow_le_pow_left₀ (by exact_mod_cast hn0) l1 2
        _ = N := Real.sq_sqrt hN0
    exact_mod_cast this
  have l4 : N < (n + 1) ^ 2 := by
    have : (N : ℝ) < ((n : ℝ) + 1) ^ 2 := by
      calc (N : ℝ) = Real.sqrt N ^ 2 := (Real.sq_sqrt hN0).symm
        _ < _ := pow_lt_pow_left₀ l2 (Real.sqrt_nonneg _) (by norm_num)
    exact_mod_cast this
  have hn1 : n < 2 ^ 27 := by nlinarith
  have f1 : (n : ℝ) ≤ fl (Real.sqrt N) := by
    rw [← hfl.exact n (by rw [abs_le]; omega)]; exact hfl.mono l1
  have f2 : fl (Real.sqrt N) ≤ (n + 1 : ℤ) := by
    rw [← hfl.exact (n + 1) (by rw [abs_le]; omega)]
    exact hfl.mono (by push_cast; exact l2.le)
  have g1 : ((n - 1 : ℤ) : ℝ) ≤ fl (fl (Real.sqrt N) - 1) := by
    rw [← hfl.exact (n - 1) (by rw [abs_le]; omega)]
    exact hfl.mono (by push_cast; linarith)
  have g2 : fl (fl (Real.sqrt N) - 1) ≤ (n : ℤ) := by
    rw [← hfl.exact n (by rw [abs_le]; omega)]
    exact hfl.mono (by push_cast at f2 ⊢; linarith)
  by_cases hsq : N = n ^ 2
  · have e : Real.sqrt (N : ℝ) = (n : ℝ) := by
      rw [hsq]; push_cast; exact Real.sqrt_sq (by exact_mod_cast hn0)
    rw [e, hfl.exact n (by rw [abs_le]; omega)]
    have := hfl.exact (n - 1) (by rw [abs_le]; omega)
    push_cast at this
    rw [this]
  · have none : ∀ L : ℤ, n - 1 ≤ L → L ≤ n → L * (L + 2) - ell_min ^ 2 + 1 ≠ size := by
      intro L h1 h2 h3
      have : (L + 1) ^ 2 = N := by rw [hN]; linarith [h3, (by ring : (L + 1) ^ 2 = L * (L + 2) + 1)]
      rcases (by omega : L = n - 1 ∨ L = n) with rfl | rfl
      · exact hsq (by rw [← this]; ring)
      · omega
    have hpos : 1 ≤ n := by
      by_contra hc
      have : n = 0 := by omega
      subst this
      apply hsq
      have : N < 1 := by simpa using l4
      omega
    have tr : ∀ x : ℝ, ((n - 1 : ℤ) : ℝ) ≤ x → x ≤ (n : ℤ) → n - 1 ≤ pyInt x ∧ pyInt x ≤ n := by
      intro x h1 h2
      have : (0 : ℝ) ≤ ((n - 1 : ℤ) : ℝ) := by exact_mod_cast (by omega : 0 ≤ n - 1)
      unfold pyInt
      rw [if_pos (by linarith)]
      refine ⟨Int.le_floor.2 h1, ?_⟩
      have := (Int.floor_le x).trans h2
      exact_mod_cast this
    obtain ⟨a1, a2⟩ := tr _ g1 g2
    obtain ⟨b1, b2⟩ := tr (Real.sqrt N - 1) (by push_cast; linarith) (by linarith)
    simp only
    rw [if_pos (none _ a1 a2), if_pos (none _ b1 b2)]

/-- **C63**, spelled out: the size of a complete set of modes gives `L` back, every other size is rejected, although the square
root of a number close to a square may be rounded to an integer. -/
theorem C63_deduce_ell_max {fl : ℝ → ℝ} (hfl : IsRounding fl) (size ell_min : ℤ) (h : size + ell_min ^ 2 ≤ 2 ^ 53) :
    (∀ L, -1 ≤ L → size = LM_total_size ell_min L → LM_deduce_ell_max_fl fl size ell_min = .ok L) ∧
    ((¬ ∃ L, -1 ≤ L ∧ size = LM_total_size ell_min L) → LM_deduce_ell_max_fl fl size ell_min = .error .valueError) := by
  rw [C63_deduce_rounded hfl size ell_min h]
  exact C02_deduce_ell_max size ell_min

/-- A rounding other than the identity: downwards to multiples of `1/1024`. -/
example : IsRounding (fun x => ⌊x * 1024⌋ / 1024) ∧ (fun x : ℝ => (⌊x * 1024⌋ / 1024 : ℝ)) (1 / 3) ≠ 1 / 3 := by
  refine ⟨⟨fun x y hxy => ?_, fun n _ => ?_⟩, ?_⟩
  · have := Int.floor_mono (mul_le_mul_of_nonneg_right hxy (by norm_num : (0 : ℝ) ≤ 1024))
    have : ((⌊x * 1024⌋ : ℤ) : ℝ) ≤ ⌊y * 1024⌋ := by exact_mod_cast this
    show (⌊x * 1024⌋ : ℝ) / 1024 ≤ (⌊y * 1024⌋ : ℝ) / 1024
    linarith
  · have : ((n : ℝ) * 1024) = ((n * 1024 : ℤ) : ℝ) := by push_cast; rfl
    show (⌊(n : ℝ) * 1024⌋ : ℝ) / 1024 = n
    rw [this, Int.floor_intCast]
    push_cast; field_simp
  · intro hc
    simp only at hc
    have h2 : ((⌊(1 / 3 : ℝ) * 1024⌋ * 3 : ℤ) : ℝ) = ((1024 : ℤ) : ℝ) := by push_cast; linarith
    have h3 : ⌊(1 / 3 : ℝ) * 1024⌋ * 3 = 1024 := by exact_mod_cast h2
    omega

end SF
