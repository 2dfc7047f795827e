import Verif.Model.Conversions
import Verif.Lemmas.Modes
import Verif.Lemmas.Horner

/-! # Loops of `mode_conversions.py` -/

set_option autoImplicit false

namespace SF

/-- The block `ell` of a mode array that starts at `l0`. -/
def blockOf (l0 : ℤ) (k : ℕ) (ell : ℤ) : Prop := ell ^ 2 - l0 ^ 2 ≤ k ∧ (k : ℤ) < (ell + 1) ^ 2 - l0 ^ 2

theorem convInner_ok (op : ℂ → ℂ) {ell : ℤ} (hl : 0 ≤ ell) (a : List ℂ) (i : ℕ) (h : (i : ℤ) + (2 * ell + 1) ≤ a.length) :
    ∃ a', convInner op ell (a, (i : ℤ)) = .ok (a', (i : ℤ) + (2 * ell + 1)) ∧ a'.length = a.length ∧
      ∀ k : ℕ, a'[k]? = if i ≤ k ∧ (k : ℤ) < i + (2 * ell + 1) then (a[k]?).map op else a[k]? := by
  unfold convInner
  obtain ⟨st, e1, e2, e3, e4⟩ := forR_inv (-ell) (ell + 1) (by omega)
    (fun m (st : List ℂ × ℤ) => st.2 = i + (m + ell) ∧ st.1.length = a.length ∧
      ∀ k : ℕ, st.1[k]? = if i ≤ k ∧ (k : ℤ) < i + (m + ell) then (a[k]?).map op else a[k]?) (a, (i : ℤ))
    (fun _ st => do
      let a ← upd st.1 st.2 op
      return (a, st.2 + 1))
    (by
      refine ⟨by simp, rfl, fun k => ?_⟩
      rw [if_neg (by omega)])
    (by
      rintro m ⟨c, j⟩ h1 h2 ⟨g1, g2, g3⟩
      simp only at g1 g2 g3
      subst g1
      have hj : i + (m + ell) < c.length := by omega
      refine ⟨_, by simp only; rw [upd_ok (by omega) hj, bind_ok]; rfl, ?_, ?_, ?_⟩
      · simp only; ring
      · simp [g2]
      · intro k
        simp only
        rw [List.getElem?_modify]
        by_cases hk : (k : ℤ) = i + (m + ell)
        · have h3 : (↑i + (m + ell)).toNat = k := by omega
          have h4 : c[k]? = a[k]? := by rw [g3 k, if_neg (by omega)]
          have h5 : i ≤ k ∧ (k : ℤ) < i + (m + 1 + ell) := by omega
          rw [h4, if_pos h5]
          simp [h3]
        · have h3 : (↑i + (m + ell)).toNat ≠ k := by omega
          have h5 : (i ≤ k ∧ (k : ℤ) < i + (m + 1 + ell)) ↔ (i ≤ k ∧ (k : ℤ) < i + (m + ell)) := by omega
          simp only [h5, ← g3 k]
          simp [h3])
  refine ⟨st.1, ?_, e3, ?_⟩
  · have : st = (st.1, (i : ℤ) + (2 * ell + 1)) := by
      apply Prod.ext
      · rfl
      · simp only; rw [e2]; ring
    rw [this] at e1
    exact e1
  · intro k
    rw [e4 k]
    have : (i : ℤ) + (ell + 1 + ell) = i + (2 * ell + 1) := by ring
    rw [this]

/-- The outer loop, for bodies that apply `op ell` to block `ell`. -/
theorem convOuter_ok {l0 L : ℤ} (h0 : 0 ≤ l0) (modes : List ℂ) (hlen : (L + 1) ^ 2 - l0 ^ 2 ≤ (modes.length : ℤ))
    (body : ℤ → List ℂ × ℤ → Py (List ℂ × ℤ)) (op : ℤ → ℂ → ℂ)
    (hb : ∀ ell, l0 ≤ ell → ell ≤ L → ∀ (a : List ℂ) (i : ℕ), (i : ℤ) + (2 * ell + 1) ≤ a.length →
      ∃ a', body ell (a, (i : ℤ)) = .ok (a', (i : ℤ) + (2 * ell + 1)) ∧ a'.length = a.length ∧
        ∀ k : ℕ, a'[k]? = if i ≤ k ∧ (k : ℤ) < i + (2 * ell + 1) then (a[k]?).map (op ell) else a[k]?) :
    ∃ r, (forL (pyRange l0 (L + 1)) (modes, (0 : ℤ)) body >>= fun st => .ok st.1) = .ok r ∧ r.length = modes.length ∧
      (∀ ell m, l0 ≤ ell → ell ≤ L → |m| ≤ ell →
        r[(LM_index ell m l0).toNat]? = (modes[(LM_index ell m l0).toNat]?).map (op ell)) ∧
      (∀ k : ℕ, (L + 1) ^ 2 - l0 ^ 2 ≤ (k : ℤ) → r[k]? = modes[k]?) := by
  by_cases hL : L + 1 < l0
  · rw [pyRange_empty (by omega)]
    exact ⟨modes, rfl, rfl, fun ell m h1 h2 => by omega, fun _ _ => rfl⟩
  obtain ⟨st, e1, e2, e3, e4, e5⟩ := forR_inv l0 (L + 1) (by omega)
    (fun n (st : List ℂ × ℤ) => st.2 = n ^ 2 - l0 ^ 2 ∧ st.1.length = modes.length ∧
      (∀ ell m, l0 ≤ ell → ell < n → |m| ≤ ell →
        st.1[(LM_index ell m l0).toNat]? = (modes[(LM_index ell m l0).toNat]?).map (op ell)) ∧
      (∀ k : ℕ, n ^ 2 - l0 ^ 2 ≤ (k : ℤ) → st.1[k]? = modes[k]?)) (modes, (0 : ℤ)) body
    (by
      refine ⟨by simp, rfl, fun ell m h1 h2 => by omega, fun _ _ => rfl⟩)
    (by
      rintro n ⟨c, j⟩ h1 h2 ⟨g1, g2, g3, g4⟩
      simp only at g1 g2 g3 g4
      have hn2 : n ^ 2 - l0 ^ 2 ≥ 0 := by have := sq_le_of h0 h1; omega
      obtain ⟨i, hi⟩ := Int.eq_ofNat_of_zero_le hn2
      have hnext : (n + 1) ^ 2 - l0 ^ 2 = i + (2 * n + 1) := by linarith [hi, show (n + 1) ^ 2 = n ^ 2 + (2 * n + 1) by ring]
      have hle : (i : ℤ) + (2 * n + 1) ≤ c.length := by
        rw [g2, ← hnext]
        have := sq_le_of (show 0 ≤ n + 1 by omega) (show n + 1 ≤ L + 1 by omega)
        omega
      obtain ⟨a', b1, b2, b3⟩ := hb n h1 (by omega) c i hle
      refine ⟨(a', (i : ℤ) + (2 * n + 1)), ?_, ?_, ?_, ?_, ?_⟩
      · rw [g1, hi]; exact b1
      · simp only; omega
      · simp only; omega
      · intro ell m k1 k2 k3
        simp only
        have hix : LM_index ell m l0 = ell ^ 2 + ell + m - l0 ^ 2 := by
          have := LM_index_zero ell m
          have h' : LM_index ell m l0 = LM_index ell m 0 - l0 ^ 2 := by unfold LM_index; ring
          omega
        have hmm := abs_le.mp k3
        have hl2 := sq_le_of h0 k1
        rw [b3]
        by_cases he : ell = n
        · subst he
          have e : ((LM_index ell m l0).toNat : ℤ) = i + (ell + m) := by omega
          rw [if_pos (by omega), g4 _ (by omega)]
        · have := sq_le_of (show 0 ≤ ell + 1 by omega) (show ell + 1 ≤ n by omega)
          have h' : (ell + 1) ^ 2 = ell ^ 2 + (2 * ell + 1) := by ring
          rw [if_neg (by omega), g3 ell m k1 (by omega) k3]
      · intro k hk
        simp only
        rw [b3, if_neg (by omega), g4 k (by omega)])
  refine ⟨st.1, by rw [e1]; rfl, e3, ?_, e5⟩
  intro ell m h1 h2 h3
  exact e4 ell m h1 (by omega) h3

theorem conv_ell_max_ok {n : ℕ} {l0 L : ℤ} (hL : -1 ≤ L) (h1 : (L + 1) ^ 2 - l0 ^ 2 ≤ n) (h2 : (n : ℤ) < (L + 2) ^ 2 - l0 ^ 2) :
    conv_ell_max n l0 = .ok L := by
  unfold conv_ell_max
  have e : LM_total_size 0 (l0 - 1) = l0 ^ 2 := by rw [LM_total_size_zero]; ring
  have hsq := sq_nonneg (L + 1)
  simp only
  rw [e, if_neg (by omega)]
  congr 1
  have hf : ⌊Real.sqrt (((n : ℤ) + l0 ^ 2 : ℤ) : ℝ)⌋ = L + 1 := by
    rw [Int.floor_eq_iff]
    have a1 : (((L + 1) ^ 2 : ℤ) : ℝ) ≤ (((n : ℤ) + l0 ^ 2 : ℤ) : ℝ) := by exact_mod_cast (by omega)
    have a2 : (((n : ℤ) + l0 ^ 2 : ℤ) : ℝ) < (((L + 2) ^ 2 : ℤ) : ℝ) := by exact_mod_cast (by omega)
    have p1 : (0 : ℝ) ≤ ((L + 1 : ℤ) : ℝ) := by exact_mod_cast (by omega)
    constructor
    · apply Real.le_sqrt_of_sq_le
      push_cast at a1 ⊢
      exact a1
    · rw [Real.sqrt_lt' (by push_cast at p1 ⊢; linarith)]
      push_cast at a2 ⊢
      nlinarith
  unfold pyInt
  rw [if_pos (Real.sqrt_nonneg _), hf]
  ring

theorem mathSqrt_ok {x : ℝ} (h : 0 ≤ x) : mathSqrt x = .ok (Real.sqrt x) := by
  unfold mathSqrt; rw [if_neg (by linarith)]

end SF
