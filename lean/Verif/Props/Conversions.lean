import Verif.Lemmas.Conversions
import Verif.Props.ModesOperators

/-!
# Properties C41–C43 and the last part of C37: `mode_conversions.py`

A flat mode array that starts at `l0` is a list; the mode `(ell, m)` is the element `ell² + ell + m - l0²` of it
(`modeAt`, this is the order of `LM_range`).  A complete array up to `L` has `(L+1)² - l0²` elements.
-/

set_option autoImplicit false

namespace SF

open Finset ComplexConjugate Quaternion

/-- The mode `(ell, m)` of a flat array that starts at `l0`. -/
noncomputable def modeAt (l0 : ℤ) (a : List ℂ) (ell m : ℤ) : ℂ := (a[(ell ^ 2 + ell + m - l0 ^ 2).toNat]?).getD 0

/-- The array holds exactly the modes `l0 ≤ ell ≤ L`. -/
def CompleteModes (l0 L : ℤ) (a : List ℂ) : Prop := 0 ≤ l0 ∧ l0 ≤ L + 1 ∧ (a.length : ℤ) = (L + 1) ^ 2 - l0 ^ 2

theorem CompleteModes.lt {l0 L : ℤ} {a : List ℂ} (h : CompleteModes l0 L a) {ell m : ℤ} (h1 : l0 ≤ ell) (h2 : ell ≤ L)
    (hm : |m| ≤ ell) : 0 ≤ ell ^ 2 + ell + m - l0 ^ 2 ∧ (ell ^ 2 + ell + m - l0 ^ 2).toNat < a.length := by
  obtain ⟨k0, k1, k2⟩ := h
  have hmm := abs_le.mp hm
  have a1 := sq_le_of k0 h1
  have a2 := sq_le_of (show 0 ≤ ell + 1 by omega) (show ell + 1 ≤ L + 1 by omega)
  have : (ell + 1) ^ 2 = ell ^ 2 + 2 * ell + 1 := by ring
  omega

theorem LM_index_flat (ell m l0 : ℤ) : LM_index ell m l0 = ell ^ 2 + ell + m - l0 ^ 2 := by
  have h := LM_index_zero ell m
  have : LM_index ell m l0 = LM_index ell m 0 - l0 ^ 2 := by unfold LM_index; ring
  rw [this, h]

/-- Two complete arrays with the same modes are equal. -/
theorem CompleteModes.ext {l0 L : ℤ} {a b : List ℂ} (ha : CompleteModes l0 L a) (hl : b.length = a.length)
    (h : ∀ ell m, l0 ≤ ell → ell ≤ L → |m| ≤ ell → modeAt l0 a ell m = modeAt l0 b ell m) : a = b := by
  apply List.ext_getElem hl.symm
  intro k h1 h2
  have hk : ∃ ell m : ℤ, l0 ≤ ell ∧ ell ≤ L ∧ |m| ≤ ell ∧ ell ^ 2 + ell + m - l0 ^ 2 = k := by
    obtain ⟨k0, k1, k2⟩ := ha
    have hsq := sq_nonneg l0
    set n : ℕ := (l0 ^ 2 + k).toNat with hn
    have hn' : (n : ℤ) = l0 ^ 2 + k := by omega
    refine ⟨Nat.sqrt n, n - (Nat.sqrt n : ℤ) ^ 2 - Nat.sqrt n, ?_, ?_, ?_, by rw [hn']; ring⟩
    · have : l0.toNat ≤ Nat.sqrt n := by
        apply Nat.le_sqrt.mpr
        zify
        rw [Int.toNat_of_nonneg k0]
        nlinarith
      omega
    · have : Nat.sqrt n < (L + 1).toNat := by
        apply Nat.sqrt_lt.mpr
        have hz : (((L + 1).toNat : ℕ) : ℤ) = L + 1 := by omega
        zify
        rw [hz]
        nlinarith
      omega
    · have g1 := Nat.sqrt_le' n
      have g2 := Nat.lt_succ_sqrt' n
      zify at g1 g2
      rw [abs_le]
      constructor <;> nlinarith
  obtain ⟨ell, m, e1, e2, e3, e4⟩ := hk
  have := h ell m e1 e2 e3
  unfold modeAt at this
  have e5 : (ell ^ 2 + ell + m - l0 ^ 2).toNat = k := by omega
  rw [e5] at this
  simpa [h1, h2] using this

/-! ## C42 -/

/-- What the four functions do: every mode `(ell, m)` is multiplied by `F ell`. -/
def ScalesModes (l0 L : ℤ) (F : ℤ → ℂ) (a r : List ℂ) : Prop :=
  CompleteModes l0 L r ∧ ∀ ell m, l0 ≤ ell → ell ≤ L → |m| ≤ ell → modeAt l0 r ell m = F ell * modeAt l0 a ell m

theorem conv_body {l0 L : ℤ} {a : List ℂ} (h : CompleteModes l0 L a) (op : ℤ → ℂ → ℂ) (F : ℤ → ℂ)
    (hop : ∀ ell z, op ell z = F ell * z) (body : ℤ → List ℂ × ℤ → Py (List ℂ × ℤ))
    (hb : ∀ ell, l0 ≤ ell → ell ≤ L → ∀ (a : List ℂ) (i : ℕ), (i : ℤ) + (2 * ell + 1) ≤ a.length →
      ∃ a', body ell (a, (i : ℤ)) = .ok (a', (i : ℤ) + (2 * ell + 1)) ∧ a'.length = a.length ∧
        ∀ k : ℕ, a'[k]? = if i ≤ k ∧ (k : ℤ) < i + (2 * ell + 1) then (a[k]?).map (op ell) else a[k]?) :
    ∃ r, (conv_ell_max a.length l0 >>= fun ell_max =>
      forL (pyRange l0 (ell_max + 1)) (a, (0 : ℤ)) body >>= fun st => .ok st.1) = .ok r ∧ ScalesModes l0 L F a r := by
  have h' := h
  obtain ⟨k0, k1, k2⟩ := h
  have e : (L + 2) ^ 2 = (L + 1) ^ 2 + (2 * (L + 1) + 1) := by ring
  rw [conv_ell_max_ok (L := L) (by omega) (by omega) (by omega), bind_ok]
  obtain ⟨r, r1, r2, r3, -⟩ := convOuter_ok k0 a (by omega) body op hb
  refine ⟨r, r1, ⟨k0, k1, by omega⟩, ?_⟩
  intro ell m h1 h2 h3
  have := r3 ell m h1 h2 h3
  have hlt := (h'.lt h1 h2 h3).2
  rw [LM_index_flat, List.getElem?_eq_getElem hlt, List.getElem?_eq_getElem (by omega)] at this
  simp only [Option.map_some, Option.some.injEq] at this
  unfold modeAt
  rw [List.getElem?_eq_getElem hlt, List.getElem?_eq_getElem (by omega), Option.getD_some, Option.getD_some, this, hop]

/-- **C42 (`eth_NP`).** -/
theorem C42_eth_NP {l0 L : ℤ} {a : List ℂ} (h : CompleteModes l0 L a) (s : ℤ) : ∃ r, eth_NP a s l0 = .ok r ∧
    ScalesModes l0 L (fun ell => if |s + 1| ≤ ell then (Real.sqrt ((ell - s) * (ell + s + 1)) : ℂ) else 0) a r := by
  refine conv_body h (fun ell z => z * (if |s + 1| ≤ ell then (Real.sqrt ((ell - s) * (ell + s + 1)) : ℂ) else 0)) _
    (fun ell z => mul_comm _ _) _ ?_
  intro ell h1 h2 b i hi
  have k0 := h.1
  simp only
  by_cases hs : |s + 1| ≤ ell
  · have hh := abs_le.mp hs
    have hx : (0 : ℝ) ≤ (ell - s) * (ell + s + 1) := by
      have : (0 : ℤ) ≤ (ell - s) * (ell + s + 1) := mul_nonneg (by omega) (by omega)
      exact_mod_cast this
    rw [if_neg (by omega), mathSqrt_ok hx, bind_ok]
    simp only [if_pos hs]
    exact convInner_ok _ (by omega) b i hi
  · rw [if_pos (by omega), bind_ok]
    simp only [if_neg hs, Complex.ofReal_zero]
    exact convInner_ok _ (by omega) b i hi

/-- **C42 (`ethbar_NP`).** -/
theorem C42_ethbar_NP {l0 L : ℤ} {a : List ℂ} (h : CompleteModes l0 L a) (s : ℤ) : ∃ r, ethbar_NP a s l0 = .ok r ∧
    ScalesModes l0 L (fun ell => if |s - 1| ≤ ell then -(Real.sqrt ((ell + s) * (ell - s + 1)) : ℂ) else 0) a r := by
  refine conv_body h (fun ell z => z * (if |s - 1| ≤ ell then -(Real.sqrt ((ell + s) * (ell - s + 1)) : ℂ) else 0)) _
    (fun ell z => mul_comm _ _) _ ?_
  intro ell h1 h2 b i hi
  have k0 := h.1
  simp only
  by_cases hs : |s - 1| ≤ ell
  · have hh := abs_le.mp hs
    have hx : (0 : ℝ) ≤ (ell + s) * (ell - s + 1) := by
      have : (0 : ℤ) ≤ (ell + s) * (ell - s + 1) := mul_nonneg (by omega) (by omega)
      exact_mod_cast this
    rw [if_neg (by omega), mathSqrt_ok hx, bind_ok]
    simp only [if_pos hs, ← Complex.ofReal_neg]
    exact convInner_ok _ (by omega) b i hi
  · rw [if_pos (by omega), bind_ok]
    simp only [if_neg hs, Complex.ofReal_zero]
    exact convInner_ok _ (by omega) b i hi

theorem sqrt_half {x : ℝ} (h : 0 ≤ x) : Real.sqrt (x / 2) = Real.sqrt x / Real.sqrt 2 := Real.sqrt_div h 2

/-- **C42 (`eth_GHP`).** The result of `eth_GHP` is that of `eth_NP` divided by `√2`, mode by mode. -/
theorem C42_eth_GHP {l0 L : ℤ} {a : List ℂ} (h : CompleteModes l0 L a) (s : ℤ) :
    ∃ r, eth_NP a s l0 = .ok r ∧ eth_GHP a s l0 = .ok (r.map (· / (Real.sqrt 2 : ℂ))) := by
  obtain ⟨r, r1, r2, r3⟩ := C42_eth_NP h s
  obtain ⟨g, g1, g2, g3⟩ : ∃ g, eth_GHP a s l0 = .ok g ∧ ScalesModes l0 L
      (fun ell => if |s + 1| ≤ ell then (Real.sqrt ((ell - s) * (ell + s + 1)) : ℂ) / (Real.sqrt 2 : ℂ) else 0) a g := by
    refine conv_body h (fun ell z => z * (if |s + 1| ≤ ell then
      (Real.sqrt ((ell - s) * (ell + s + 1)) : ℂ) / (Real.sqrt 2 : ℂ) else 0)) _ (fun ell z => mul_comm _ _) _ ?_
    intro ell h1 h2 b i hi
    have k0 := h.1
    simp only
    by_cases hs : |s + 1| ≤ ell
    · have hh := abs_le.mp hs
      have hx : (0 : ℝ) ≤ (ell - s) * (ell + s + 1) := by
        have : (0 : ℤ) ≤ (ell - s) * (ell + s + 1) := mul_nonneg (by omega) (by omega)
        exact_mod_cast this
      rw [if_neg (by omega), mathSqrt_ok (by linarith), bind_ok, sqrt_half hx]
      simp only [if_pos hs, ← Complex.ofReal_div]
      exact convInner_ok _ (by omega) b i hi
    · rw [if_pos (by omega), bind_ok]
      simp only [if_neg hs, Complex.ofReal_zero]
      exact convInner_ok _ (by omega) b i hi
  refine ⟨r, r1, ?_⟩
  rw [g1]
  congr 1
  have hl : (r.map (· / (Real.sqrt 2 : ℂ))).length = g.length := by
    have := r2.2.2; have := g2.2.2; rw [List.length_map]; omega
  apply g2.ext hl
  intro ell m h1 h2 h3
  have hr : modeAt l0 (r.map (· / (Real.sqrt 2 : ℂ))) ell m = modeAt l0 r ell m / (Real.sqrt 2 : ℂ) := by
    unfold modeAt
    have := (r2.lt h1 h2 h3).2
    rw [List.getElem?_map, List.getElem?_eq_getElem this]
    rfl
  rw [hr, g3 ell m h1 h2 h3, r3 ell m h1 h2 h3]
  simp only
  split_ifs
  · ring
  · simp

/-- **C42 (`ethbar_GHP`).** The result of `ethbar_GHP` is that of `ethbar_NP` divided by `√2`, mode by mode. -/
theorem C42_ethbar_GHP {l0 L : ℤ} {a : List ℂ} (h : CompleteModes l0 L a) (s : ℤ) :
    ∃ r, ethbar_NP a s l0 = .ok r ∧ ethbar_GHP a s l0 = .ok (r.map (· / (Real.sqrt 2 : ℂ))) := by
  obtain ⟨r, r1, r2, r3⟩ := C42_ethbar_NP h s
  obtain ⟨g, g1, g2, g3⟩ : ∃ g, ethbar_GHP a s l0 = .ok g ∧ ScalesModes l0 L
      (fun ell => if |s - 1| ≤ ell then -((Real.sqrt ((ell + s) * (ell - s + 1)) : ℂ) / (Real.sqrt 2 : ℂ)) else 0) a g := by
    refine conv_body h (fun ell z => z * (if |s - 1| ≤ ell then
      -((Real.sqrt ((ell + s) * (ell - s + 1)) : ℂ) / (Real.sqrt 2 : ℂ)) else 0)) _ (fun ell z => mul_comm _ _) _ ?_
    intro ell h1 h2 b i hi
    have k0 := h.1
    simp only
    by_cases hs : |s - 1| ≤ ell
    · have hh := abs_le.mp hs
      have hx : (0 : ℝ) ≤ (ell + s) * (ell - s + 1) := by
        have : (0 : ℤ) ≤ (ell + s) * (ell - s + 1) := mul_nonneg (by omega) (by omega)
        exact_mod_cast this
      rw [if_neg (by omega), mathSqrt_ok (by linarith), bind_ok, sqrt_half hx]
      simp only [if_pos hs, ← Complex.ofReal_div, ← Complex.ofReal_neg]
      exact convInner_ok _ (by omega) b i hi
    · rw [if_pos (by omega), bind_ok]
      simp only [if_neg hs, Complex.ofReal_zero]
      exact convInner_ok _ (by omega) b i hi
  refine ⟨r, r1, ?_⟩
  rw [g1]
  congr 1
  have hl : (r.map (· / (Real.sqrt 2 : ℂ))).length = g.length := by
    have := r2.2.2; have := g2.2.2; rw [List.length_map]; omega
  apply g2.ext hl
  intro ell m h1 h2 h3
  have hr : modeAt l0 (r.map (· / (Real.sqrt 2 : ℂ))) ell m = modeAt l0 r ell m / (Real.sqrt 2 : ℂ) := by
    unfold modeAt
    have := (r2.lt h1 h2 h3).2
    rw [List.getElem?_map, List.getElem?_eq_getElem this]
    rfl
  rw [hr, g3 ell m h1 h2 h3, r3 ell m h1 h2 h3]
  simp only
  split_ifs
  · ring
  · simp

/-! ## C43 -/

/-- What `ethbar_inverse_NP` does to the modes. -/
theorem ethbar_inverse_NP_ok {l0 L : ℤ} {a : List ℂ} (h : CompleteModes l0 L a) (s : ℤ) :
    ∃ r, ethbar_inverse_NP a s l0 = .ok r ∧ ScalesModes l0 L (fun ell =>
      if 0 < (ell + s + 1) * (ell - s) then (-(Real.sqrt ((ell + s + 1) * (ell - s)) : ℂ))⁻¹ else 1) a r := by
  refine conv_body h (fun ell z => if 0 < (ell + s + 1) * (ell - s) then
    z / (-(Real.sqrt ((ell + s + 1) * (ell - s)) : ℂ)) else z) _ ?_ _ ?_
  · intro ell z
    split_ifs
    · rw [div_eq_mul_inv, mul_comm]
    · ring
  intro ell h1 h2 b i hi
  have k0 := h.1
  simp only
  by_cases ht : 0 < (ell + s + 1) * (ell - s)
  · have ht' : (0 : ℝ) < (ell + s + 1) * (ell - s) := by exact_mod_cast ht
    rw [if_pos ht', mathSqrt_ok ht'.le, bind_ok]
    simp only [if_pos ht, ← Complex.ofReal_neg]
    exact convInner_ok _ (by omega) b i hi
  · have ht' : ¬ (0 : ℝ) < (ell + s + 1) * (ell - s) := by
      intro h'
      exact ht (by exact_mod_cast h')
    rw [if_neg ht']
    refine ⟨b, rfl, rfl, fun k => ?_⟩
    simp only [if_neg ht, Option.map_id', ite_self]

/-- **C43.** `ethbar_inverse_NP(ethbar_NP(f, s), s-1)` gives back every mode of `f` with `ell ≥ |s|` and `ell ≥ |s-1|`; the
other modes of the result are zero. -/
theorem C43_inverse_of_ethbar {l0 L : ℤ} {f : List ℂ} (h : CompleteModes l0 L f) (s : ℤ) :
    ∃ r, (ethbar_NP f s l0 >>= fun g => ethbar_inverse_NP g (s - 1) l0) = .ok r ∧ CompleteModes l0 L r ∧
      ∀ ell m, l0 ≤ ell → ell ≤ L → |m| ≤ ell →
        modeAt l0 r ell m = if |s| ≤ ell ∧ |s - 1| ≤ ell then modeAt l0 f ell m else 0 := by
  obtain ⟨g, g1, g2, g3⟩ := C42_ethbar_NP h s
  obtain ⟨r, r1, r2, r3⟩ := ethbar_inverse_NP_ok g2 (s - 1)
  refine ⟨r, by rw [g1, bind_ok, r1], r2, ?_⟩
  intro ell m h1 h2 h3
  have k0 := h.1
  rw [r3 ell m h1 h2 h3, g3 ell m h1 h2 h3]
  simp only
  have e : (ell + (s - 1) + 1) * (ell - (s - 1)) = (ell + s) * (ell - s + 1) := by ring
  have e' : (((ell : ℝ) + ((s - 1 : ℤ) : ℝ) + 1) * (ell - ((s - 1 : ℤ) : ℝ))) = (ell + s) * (ell - s + 1) := by
    push_cast; ring
  rw [e, e']
  by_cases hs1 : |s - 1| ≤ ell
  · have hh := abs_le.mp hs1
    by_cases hs : |s| ≤ ell
    · have hh2 := abs_le.mp hs
      by_cases hp : 0 < (ell + s) * (ell - s + 1)
      · have hp' : (0 : ℝ) < (ell + s) * (ell - s + 1) := by exact_mod_cast hp
        have hne : (Real.sqrt ((ell + s) * (ell - s + 1)) : ℂ) ≠ 0 := by
          exact_mod_cast (Real.sqrt_pos.mpr hp').ne'
        rw [if_pos hp, if_pos hs1, if_pos (And.intro hs hs1)]
        field_simp
      · exfalso
        exact hp (mul_pos (by omega) (by omega))
    · have hn : ¬ (|s| ≤ ell ∧ |s - 1| ≤ ell) := by tauto
      simp only [if_pos hs1, if_neg hn]
      have : (ell + s) * (ell - s + 1) = 0 := by
        have : ell - s + 1 = 0 ∨ ell + s = 0 := by
          rcases abs_cases s with ⟨e1, _⟩ | ⟨e1, _⟩ <;> omega
        rcases this with h | h <;> rw [h] <;> ring
      have h' : ((ell : ℝ) + s) * (ell - s + 1) = 0 := by exact_mod_cast this
      rw [h']
      simp
  · have hn : ¬ (|s| ≤ ell ∧ |s - 1| ≤ ell) := by tauto
    simp only [if_neg hs1, if_neg hn]
    simp

/-- **C43.** `ethbar_NP(ethbar_inverse_NP(g, s), s+1)` gives back every mode of `g` with `ell ≥ |s|` and `ell ≥ |s+1|`; the
other modes of the result are zero. -/
theorem C43_ethbar_of_inverse {l0 L : ℤ} {g : List ℂ} (h : CompleteModes l0 L g) (s : ℤ) :
    ∃ r, (ethbar_inverse_NP g s l0 >>= fun f => ethbar_NP f (s + 1) l0) = .ok r ∧ CompleteModes l0 L r ∧
      ∀ ell m, l0 ≤ ell → ell ≤ L → |m| ≤ ell →
        modeAt l0 r ell m = if |s| ≤ ell ∧ |s + 1| ≤ ell then modeAt l0 g ell m else 0 := by
  obtain ⟨f, f1, f2, f3⟩ := ethbar_inverse_NP_ok h s
  obtain ⟨r, r1, r2, r3⟩ := C42_ethbar_NP f2 (s + 1)
  refine ⟨r, by rw [f1, bind_ok, r1], r2, ?_⟩
  intro ell m h1 h2 h3
  have k0 := h.1
  rw [r3 ell m h1 h2 h3, f3 ell m h1 h2 h3]
  simp only
  have e' : (((ell : ℝ) + ((s + 1 : ℤ) : ℝ)) * (ell - ((s + 1 : ℤ) : ℝ) + 1)) = (ell + s + 1) * (ell - s) := by
    push_cast; ring
  rw [e', show s + 1 - 1 = s by ring]
  by_cases hs : |s| ≤ ell
  · have hh := abs_le.mp hs
    rw [if_pos hs]
    by_cases hp : 0 < (ell + s + 1) * (ell - s)
    · have hp' : (0 : ℝ) < (ell + s + 1) * (ell - s) := by exact_mod_cast hp
      have hne : (Real.sqrt ((ell + s + 1) * (ell - s)) : ℂ) ≠ 0 := by
        exact_mod_cast (Real.sqrt_pos.mpr hp').ne'
      have : |s + 1| ≤ ell := by
        have : ell ≠ s := by rintro rfl; simp at hp
        exact abs_le.mpr (by omega)
      rw [if_pos hp, if_pos (And.intro hs this)]
      field_simp
    · have h0 : (ell + s + 1) * (ell - s) = 0 := le_antisymm (by omega) (mul_nonneg (by omega) (by omega))
      have h0' : ((ell : ℝ) + s + 1) * (ell - s) = 0 := by exact_mod_cast h0
      have : ¬ |s + 1| ≤ ell := by
        rcases mul_eq_zero.mp h0 with h | h
        · omega
        · intro h'; have := abs_le.mp h'; omega
      have hn : ¬ (|s| ≤ ell ∧ |s + 1| ≤ ell) := by tauto
      simp only [if_neg hn, h0']
      simp
  · have hn : ¬ (|s| ≤ ell ∧ |s + 1| ≤ ell) := by tauto
    simp only [if_neg hs, if_neg hn]
    simp

/-- **C43.** Modes with `ell < |s|` or `ell < |s+1|` are returned unchanged by `ethbar_inverse_NP`, although a function of
spin weight `s+1` has no such modes. -/
theorem C43_low_modes_kept {l0 L : ℤ} {g : List ℂ} (h : CompleteModes l0 L g) (s : ℤ) :
    ∃ r, ethbar_inverse_NP g s l0 = .ok r ∧ ∀ ell m, l0 ≤ ell → ell ≤ L → |m| ≤ ell → (ell < |s| ∨ ell < |s + 1|) →
      modeAt l0 r ell m = modeAt l0 g ell m := by
  obtain ⟨r, r1, -, r3⟩ := ethbar_inverse_NP_ok h s
  refine ⟨r, r1, ?_⟩
  intro ell m h1 h2 h3 h4
  have k0 := h.1
  rw [r3 ell m h1 h2 h3]
  simp only
  rw [if_neg, one_mul]
  intro hp
  rcases pos_and_pos_or_neg_and_neg_of_mul_pos hp with ⟨p1, p2⟩ | ⟨p1, p2⟩
  · rcases h4 with h | h
    · rcases abs_cases s with ⟨e1, _⟩ | ⟨e1, _⟩ <;> omega
    · rcases abs_cases (s + 1) with ⟨e1, _⟩ | ⟨e1, _⟩ <;> omega
  · omega

/-! ## C37: agreement of `Modes.eth` with `eth_NP` -/

/-- **C37.** For an object `f`, applying `eth_NP` (`ethbar_NP`) to the flat array of any of its rows `f[idx]` gives the
row of `f.eth` (`f.ethbar`). -/
theorem C37_agree_NP {f : Modes} (hf : f.WF) : ∃ a b, f.eth = .ok a ∧ f.ethbar = .ok b ∧ ∀ idx,
    eth_NP (f.dat.map (· idx)) f.s 0 = .ok (a.dat.map (· idx)) ∧
    ethbar_NP (f.dat.map (· idx)) f.s 0 = .ok (b.dat.map (· idx)) := by
  have h := OpRes.refl hf
  obtain ⟨a, a1, a2⟩ := h.eth
  obtain ⟨b, b1, b2⟩ := h.ethbar
  refine ⟨a, b, a1, b1, fun idx => ?_⟩
  have hge := hf.ell_max_ge
  have row : ∀ (g : Modes), g.WF → g.ell_max = f.ell_max → CompleteModes 0 f.ell_max (g.dat.map (· idx)) := by
    intro g hg he
    refine ⟨le_rfl, by omega, ?_⟩
    rw [List.length_map, hg.size, he]; ring
  have val : ∀ (g : Modes), g.WF → g.ell_max = f.ell_max → ∀ ell m, ell ≤ f.ell_max → |m| ≤ ell →
      modeAt 0 (g.dat.map (· idx)) ell m = g.coef ell m idx := by
    intro g hg he ell m h1 h2
    have h0 : 0 ≤ ell := (abs_nonneg m).trans h2
    have e : (ell ^ 2 + ell + m - 0 ^ 2).toNat = mpos ell m := by unfold mpos; rw [LM_index_flat]
    unfold modeAt
    rw [e, List.getElem?_map, hg.get h2 (by omega)]
    rfl
  constructor
  · obtain ⟨r, r1, r2, r3⟩ := C42_eth_NP (row f hf rfl) f.s
    rw [r1]
    congr 1
    have := row a a2.wf a2.hL
    apply r2.ext (by have h1 := this.2.2; have h2 := r2.2.2; omega)
    intro ell m h1 h2 h3
    rw [r3 ell m h1 h2 h3, val f hf rfl ell m h2 h3, val a a2.wf a2.hL ell m h2 h3]
    rw [a2.coef_if h3 h2]
    simp only
    by_cases hs1 : |f.s + 1| ≤ ell
    · rw [if_pos hs1, if_pos hs1]
      by_cases hs : |f.s| ≤ ell
      · rw [if_pos hs]
        unfold isqrtC
        congr 3
        push_cast; ring
      · rw [if_neg hs, hf.low ell m (by omega) h3 h2]
        simp
    · rw [if_neg hs1, if_neg hs1, zero_mul]
  · obtain ⟨r, r1, r2, r3⟩ := C42_ethbar_NP (row f hf rfl) f.s
    rw [r1]
    congr 1
    have := row b b2.wf b2.hL
    apply r2.ext (by have h1 := this.2.2; have h2 := r2.2.2; omega)
    intro ell m h1 h2 h3
    rw [r3 ell m h1 h2 h3, val f hf rfl ell m h2 h3, val b b2.wf b2.hL ell m h2 h3]
    rw [b2.coef_if h3 h2]
    simp only
    by_cases hs1 : |f.s - 1| ≤ ell
    · rw [if_pos hs1, if_pos hs1]
      by_cases hs : |f.s| ≤ ell
      · rw [if_pos hs]
        unfold isqrtC
        rw [neg_mul]
        congr 4
        push_cast; ring
      · rw [if_neg hs, hf.low ell m (by omega) h3 h2]
        simp
    · rw [if_neg hs1, if_neg hs1, zero_mul]

/-! ## C41 -/

/-- **C41.** The constant conversions are mutually inverse. -/
theorem C41_constant_inverse (c : ℂ) : constant_from_ell_0_mode (constant_as_ell_0_mode c) = c ∧
    constant_as_ell_0_mode (constant_from_ell_0_mode c) = c := by
  have h : ((Real.sqrt (4 * Real.pi) : ℝ) : ℂ) ≠ 0 := by
    exact_mod_cast (Real.sqrt_pos.mpr (by positivity)).ne'
  unfold constant_from_ell_0_mode constant_as_ell_0_mode
  constructor <;> field_simp

/-- **C41.** The vector conversions are mutually inverse. -/
theorem C41_vector_inverse (v : ℂ × ℂ × ℂ) : vector_from_ell_1_modes (vector_as_ell_1_modes v) = v ∧
    vector_as_ell_1_modes (vector_from_ell_1_modes v) = v := by
  have h : ((Real.sqrt (2 * Real.pi / 3) : ℝ) : ℂ) ≠ 0 := by
    exact_mod_cast (Real.sqrt_pos.mpr (by positivity)).ne'
  have h2 : ((Real.sqrt (4 * Real.pi / 3) : ℝ) : ℂ) ≠ 0 := by
    exact_mod_cast (Real.sqrt_pos.mpr (by positivity)).ne'
  have hI := Complex.I_ne_zero
  obtain ⟨x, y, z⟩ := v
  unfold vector_from_ell_1_modes vector_as_ell_1_modes
  constructor <;> ext1 <;> [skip; ext1; skip; ext1] <;> simp only <;> field_simp <;> ring

/-- Constructing from a 1-d array of modes gives an object with these modes. -/
theorem new_flat {s l0 L : ℤ} (h0 : 0 ≤ l0) (hL : -1 ≤ L) (t : TruncKey) {a : List ℂ}
    (ha : CompleteModes l0 L a) (call : List ℤ × Kw) (hc : call ∈ callsWithEllMax s l0 L t ++ callsWithout s l0 t) :
    ∃ f, Modes.new (.array [] (a.map fun z _ => z)) {} call.1 call.2 = .ok f ∧ f.WF ∧ f.s = s ∧ f.ell_max = L ∧
      ∀ ell m, |m| ≤ ell → ell ≤ L → ∀ x,
        f.coef ell m x = if |s| ≤ ell ∧ l0 ≤ ell then modeAt l0 a ell m else 0 := by
  have hlen : (((a.map fun z => (fun _ => z : Slice)).length : ℕ) : ℤ) = (L + 1) ^ 2 - l0 ^ 2 := by
    rw [List.length_map]; exact ha.2.2
  obtain ⟨f, f1, f2, f3, f4, f5, f6, f7, f8⟩ := C23_construct (s := s) h0 hL t [] _ hlen call hc
  have hw : f.WF := by
    rw [WF_iff_constructed]
    exact ⟨l0, _, call, h0, by omega, by rw [f4]; exact hlen, by rw [f3, f4, f5]; exact hc, by rw [f2]; exact f1⟩
  refine ⟨f, f1, hw, f3, f4, ?_⟩
  intro ell m h1 h2 x
  have hg := hw.get h1 (by omega : ell ≤ f.ell_max)
  by_cases h : |s| ≤ ell ∧ l0 ≤ ell
  · obtain ⟨v, v1, v2⟩ := f7 ell m h1 h2 h.1 h.2
    unfold mpos at hg
    rw [v2] at hg
    rw [if_pos h, ← Option.some.inj hg]
    rw [LM_index_flat, List.getElem?_map] at v1
    unfold modeAt
    cases hh : a[(ell ^ 2 + ell + m - l0 ^ 2).toNat]? with
    | none => rw [hh] at v1; simp at v1
    | some z => rw [hh] at v1; simp at v1; rw [← v1]; rfl
  · have v2 := f8 ell m h1 h2 (by omega)
    unfold mpos at hg
    rw [v2] at hg
    rw [if_neg h, ← Option.some.inj hg]

/-- **C41.** The modes made from a constant represent the constant function: at every unit rotor its value is `c`. -/
theorem C41_constant_value {L : ℤ} {table : List ℝ} (ht : IsWignerTable L table) (junk : ℕ → ℤ × ℤ) (hL : 0 ≤ L) (c : ℂ)
    (t : TruncKey) (call : List ℤ × Kw) (hc : call ∈ callsWithEllMax 0 0 0 t ++ callsWithout 0 0 t) :
    ∃ f, Modes.new (.array [] [fun _ => constant_as_ell_0_mode c]) {} call.1 call.2 = .ok f ∧
      ∀ qs : List ℍ[ℝ], qs ≠ [] → (∀ q ∈ qs, normSq q = 1) →
        f.evaluate table junk (qs.map comps) = .ok (qs.map fun _ _ => c) := by
  obtain ⟨f, f1, f2, f3, f4, f5⟩ := new_flat (s := 0) (l0 := 0) (L := 0) le_rfl (by omega) t
    (a := [constant_as_ell_0_mode c]) ⟨le_rfl, by omega, by simp⟩ call hc
  refine ⟨f, f1, ?_⟩
  intro qs hne hqs
  rw [evaluate_ret ht junk f2 (by omega) qs hqs]
  congr 1
  apply List.map_congr_left
  intro q _
  funext idx
  rw [f3, f4]
  unfold fieldRet
  rw [abs_zero]
  simp only [Icc_self, sum_singleton, neg_zero]
  rw [f5 0 0 (by simp) le_rfl]
  have h : ((Real.sqrt (4 * Real.pi) : ℝ) : ℂ) ≠ 0 := by
    exact_mod_cast (Real.sqrt_pos.mpr (by positivity)).ne'
  have e : Yret (partA q) (partB q) 0 0 0 = 1 / ((Real.sqrt (4 * Real.pi) : ℝ) : ℂ) := by
    have e1 : Dret (partA q) (partB q) 0 0 (-0) = 1 := by
      have w : Spec.wignerD (partA q) (partB q) (2 * 0) (2 * 0) (2 * 0) = 1 := by
        unfold Spec.wignerD Spec.Dpq
        norm_num
      unfold Dret
      rw [neg_zero, w]
      split_ifs
      all_goals first | rfl | (simp; done) | (exfalso; omega)
    have e2 : (2 * ((0 : ℤ) : ℝ) + 1) / (4 * Real.pi) = (4 * Real.pi)⁻¹ := by push_cast; ring
    unfold Yret
    rw [if_pos (by simp), e1, e2, Real.sqrt_inv]
    push_cast
    simp
  rw [e, if_pos (by simp)]
  simp only [modeAt, constant_as_ell_0_mode]
  simp only [zero_pow, ne_eq, OfNat.ofNat_ne_zero, not_false_eq_true, add_zero, sub_zero, Int.toNat_zero,
    List.getElem?_cons_zero, Option.getD_some]
  field_simp

/-- The direction that a rotor takes the `z` axis to: `R z R*`. -/
noncomputable def direction (q : ℍ[ℝ]) : ℍ[ℝ] := q * mkQ 0 0 0 1 * star q

theorem mkQ_comps (a b c d : ℝ) : (mkQ a b c d).re = a ∧ (mkQ a b c d).imI = b ∧ (mkQ a b c d).imJ = c ∧
    (mkQ a b c d).imK = d := ⟨rfl, rfl, rfl, rfl⟩

theorem direction_comps (q : ℍ[ℝ]) : (direction q).re = 0 ∧
    (direction q).imI = 2 * (q.imI * q.imK + q.re * q.imJ) ∧
    (direction q).imJ = 2 * (q.imJ * q.imK - q.re * q.imI) ∧
    (direction q).imK = q.re ^ 2 - q.imI ^ 2 - q.imJ ^ 2 + q.imK ^ 2 := by
  unfold direction
  obtain ⟨h1, h2, h3, h4⟩ := mkQ_comps 0 0 0 1
  generalize mkQ 0 0 0 1 = k at *
  refine ⟨?_, ?_, ?_, ?_⟩ <;> simp [h1, h2, h3, h4] <;> ring

/-- The function of the modes made from a vector. -/
theorem vector_field (v : ℂ × ℂ × ℂ) (t : TruncKey) (call : List ℤ × Kw) (hc : call ∈ callsWithEllMax 0 1 1 t ++ callsWithout 0 1 t) :
    ∃ f, Modes.new (.array [] [fun _ => (vector_as_ell_1_modes v).1, fun _ => (vector_as_ell_1_modes v).2.1,
        fun _ => (vector_as_ell_1_modes v).2.2]) {} call.1 call.2 = .ok f ∧ f.WF ∧ f.ell_max = 1 ∧ f.s = 0 ∧
      (∀ (q : ℍ[ℝ]) (idx : MIdx), Spec.fieldValue f.s f.ell_max (fun ell m => f.coef ell m idx) (partA q) (partB q)
        = v.1 * (direction q).imI + v.2.1 * (direction q).imJ + v.2.2 * (direction q).imK) ∧
      ∀ idx, f.coef 0 0 idx = 0 ∧ f.coef 1 (-1) idx = (vector_as_ell_1_modes v).1 ∧ f.coef 1 0 idx = (vector_as_ell_1_modes v).2.1 ∧
        f.coef 1 1 idx = (vector_as_ell_1_modes v).2.2 := by
  obtain ⟨f, f1, f2, f3, f4, f5⟩ := new_flat (s := 0) (l0 := 1) (L := 1) (by omega) (by omega) t
    (a := [(vector_as_ell_1_modes v).1, (vector_as_ell_1_modes v).2.1, (vector_as_ell_1_modes v).2.2])
    ⟨by omega, by omega, by simp⟩ call hc
  refine ⟨f, f1, f2, f4, f3, ?_, fun idx => ⟨?_, ?_, ?_, ?_⟩⟩
  rotate_left
  · rw [f5 0 0 (by simp) (by omega)]; simp
  · rw [f5 1 (-1) (by simp) (by omega)]; simp [modeAt]
  · rw [f5 1 0 (by simp) (by omega)]; simp [modeAt]
  · rw [f5 1 1 (by simp) (by omega)]; simp [modeAt]
  intro q idx
  rw [f3, f4]
  unfold Spec.fieldValue
  have i1 : Icc |(0 : ℤ)| 1 = {0, 1} := rfl
  have i2 : Icc (-(1 : ℤ)) 1 = {-1, 0, 1} := rfl
  rw [i1, sum_pair (by norm_num), i2, sum_insert (by decide), sum_pair (by norm_num)]
  simp only [Icc_self, sum_singleton, neg_zero]
  rw [f5 0 0 (by simp) (by omega), f5 1 0 (by simp) (by omega), f5 1 1 (by simp) (by omega), f5 1 (-1) (by simp) (by omega)]
  have y0 : Spec.sYlm (partA q) (partB q) 0 1 0 = (Real.sqrt (3 / (4 * Real.pi)) : ℂ) *
      (partA q * conj (partA q) - partB q * conj (partB q)) := by
    have e1 : Spec.wignerD (partA q) (partB q) (2 * 1) (2 * 0) (-2 * 0)
        = partA q * conj (partA q) - partB q * conj (partB q) := by
      unfold Spec.wignerD Spec.Dpq
      norm_num [sum_range_succ, show Int.toNat 2 = 2 from rfl]
      ring
    have e2 : (2 * ((1 : ℤ) : ℝ) + 1) / (4 * Real.pi) = 3 / (4 * Real.pi) := by norm_num
    unfold Spec.sYlm
    rw [if_pos (by simp), e1, e2]
    simp
  have y1 : Spec.sYlm (partA q) (partB q) 0 1 1 = -(Real.sqrt (3 / (8 * Real.pi)) : ℂ) *
      (2 * partA q * conj (partB q)) := by
    have e1 : Spec.wignerD (partA q) (partB q) (2 * 1) (2 * 1) (-2 * 0)
        = -(Real.sqrt 2 : ℂ)⁻¹ * (2 * partA q * conj (partB q)) := by
      unfold Spec.wignerD Spec.Dpq
      norm_num [sum_range_succ, show Int.toNat 2 = 2 from rfl]
    have h2 : Real.sqrt 2 * Real.sqrt 2 = 2 := Real.mul_self_sqrt (by norm_num)
    have e2 : (2 * ((1 : ℤ) : ℝ) + 1) / (4 * Real.pi) = 3 / (8 * Real.pi) * 2 := by field_simp; norm_num
    have h2' : (Real.sqrt 2 : ℂ) ≠ 0 := by exact_mod_cast (Real.sqrt_pos.mpr (by norm_num : (0 : ℝ) < 2)).ne'
    unfold Spec.sYlm
    rw [if_pos (by simp), e1, e2, Real.sqrt_mul (by positivity)]
    push_cast
    field_simp
  have y2 : Spec.sYlm (partA q) (partB q) 0 1 (-1) = (Real.sqrt (3 / (8 * Real.pi)) : ℂ) *
      (2 * conj (partA q) * partB q) := by
    have e1 : Spec.wignerD (partA q) (partB q) (2 * 1) (2 * -1) (-2 * 0)
        = (Real.sqrt 2 : ℂ)⁻¹ * (2 * conj (partA q) * partB q) := by
      unfold Spec.wignerD Spec.Dpq
      norm_num [sum_range_succ, show Int.toNat 2 = 2 from rfl]
    have h2 : Real.sqrt 2 * Real.sqrt 2 = 2 := Real.mul_self_sqrt (by norm_num)
    have e2 : (2 * ((1 : ℤ) : ℝ) + 1) / (4 * Real.pi) = 3 / (8 * Real.pi) * 2 := by field_simp; norm_num
    have h2' : (Real.sqrt 2 : ℂ) ≠ 0 := by exact_mod_cast (Real.sqrt_pos.mpr (by norm_num : (0 : ℝ) < 2)).ne'
    unfold Spec.sYlm
    rw [if_pos (by simp), e1, e2, Real.sqrt_mul (by positivity)]
    push_cast
    field_simp
  have c0 : (Real.sqrt (4 * Real.pi / 3) : ℂ) * (Real.sqrt (3 / (4 * Real.pi)) : ℂ) = 1 := by
    rw [← Complex.ofReal_mul, ← Real.sqrt_mul (by positivity)]
    have : 4 * Real.pi / 3 * (3 / (4 * Real.pi)) = 1 := by field_simp
    rw [this]; simp
  have c1 : (Real.sqrt (2 * Real.pi / 3) : ℂ) * (Real.sqrt (3 / (8 * Real.pi)) : ℂ) = 1 / 2 := by
    rw [← Complex.ofReal_mul, ← Real.sqrt_mul (by positivity)]
    have : 2 * Real.pi / 3 * (3 / (8 * Real.pi)) = (1 / 2) ^ 2 := by field_simp; norm_num
    rw [this, Real.sqrt_sq (by norm_num)]; norm_num
  have m0 : modeAt 1 [(vector_as_ell_1_modes v).1, (vector_as_ell_1_modes v).2.1, (vector_as_ell_1_modes v).2.2] 1 0
    = (vector_as_ell_1_modes v).2.1 := rfl
  have m1 : modeAt 1 [(vector_as_ell_1_modes v).1, (vector_as_ell_1_modes v).2.1, (vector_as_ell_1_modes v).2.2] 1 1
    = (vector_as_ell_1_modes v).2.2 := rfl
  have m2 : modeAt 1 [(vector_as_ell_1_modes v).1, (vector_as_ell_1_modes v).2.1, (vector_as_ell_1_modes v).2.2] 1 (-1)
    = (vector_as_ell_1_modes v).1 := rfl
  rw [y0, y1, y2, m0, m1, m2]
  simp only [abs_zero, zero_le_one, le_refl, and_self, if_true, show ¬ ((1 : ℤ) ≤ 0) by decide, and_false, if_false, zero_mul,
    zero_add]
  obtain ⟨-, d1, d2, d3⟩ := direction_comps q
  have pa : partA q = q.re + q.imK * Complex.I := by apply Complex.ext <;> simp [partA]
  have pb : partB q = q.imJ + q.imI * Complex.I := by apply Complex.ext <;> simp [partB]
  have pa' : conj (partA q) = q.re - q.imK * Complex.I := by rw [pa]; simp [sub_eq_add_neg]
  have pb' : conj (partB q) = q.imJ - q.imI * Complex.I := by rw [pb]; simp [sub_eq_add_neg]
  rw [d1, d2, d3, pa', pb', pa, pb]
  unfold vector_as_ell_1_modes
  simp only
  push_cast
  have hI := Complex.I_sq
  linear_combination (2 * (v.1 + Complex.I * v.2.1) * (q.re - q.imK * Complex.I) * (q.imJ + q.imI * Complex.I)
      - 2 * (-v.1 + Complex.I * v.2.1) * (q.re + q.imK * Complex.I) * (q.imJ - q.imI * Complex.I)) * c1
    + v.2.2 * ((q.re + q.imK * Complex.I) * (q.re - q.imK * Complex.I)
      - (q.imJ + q.imI * Complex.I) * (q.imJ - q.imI * Complex.I)) * c0
    + (-2 * v.1 * q.imK * q.imI + 2 * v.2.1 * (q.re * q.imI - q.imK * q.imJ) + v.2.2 * (q.imI ^ 2 - q.imK ^ 2)) * hI

/-- **C41.** The modes made from a vector represent the function `v · n`: at the rotor `R`, `n = R z R*`. -/
theorem C41_vector_value {L : ℤ} {table : List ℝ} (ht : IsWignerTable L table) (junk : ℕ → ℤ × ℤ) (hL : 1 ≤ L)
    (v : ℂ × ℂ × ℂ) (t : TruncKey) (call : List ℤ × Kw) (hc : call ∈ callsWithEllMax 0 1 1 t ++ callsWithout 0 1 t) :
    ∃ f, Modes.new (.array [] [fun _ => (vector_as_ell_1_modes v).1, fun _ => (vector_as_ell_1_modes v).2.1,
        fun _ => (vector_as_ell_1_modes v).2.2]) {} call.1 call.2 = .ok f ∧
      ∀ qs : List ℍ[ℝ], qs ≠ [] → (∀ q ∈ qs, GenericQ q) → f.evaluate table junk (qs.map comps)
        = .ok (qs.map fun q _ => v.1 * (direction q).imI + v.2.1 * (direction q).imJ + v.2.2 * (direction q).imK) := by
  obtain ⟨f, f1, f2, f3, -, f4, -⟩ := vector_field v t call hc
  refine ⟨f, f1, ?_⟩
  intro qs hne hqs
  rw [evaluate_ok ht junk f2 (by omega) qs hqs]
  congr 1
  apply List.map_congr_left
  intro q _
  funext idx
  exact f4 q idx

/-- The direction of the rotor `exp(φ z/2) exp(θ y/2)` is `(sin θ cos φ, sin θ sin φ, cos θ)`. -/
theorem direction_spherical (θ φ : ℝ) :
    direction (mkQ (Real.cos (φ / 2)) 0 0 (Real.sin (φ / 2)) * mkQ (Real.cos (θ / 2)) 0 (Real.sin (θ / 2)) 0)
      = mkQ 0 (Real.sin θ * Real.cos φ) (Real.sin θ * Real.sin φ) (Real.cos θ) := by
  have e1 : Real.sin θ = 2 * Real.sin (θ / 2) * Real.cos (θ / 2) := by rw [← Real.sin_two_mul]; congr 1; ring
  have e2 : Real.cos θ = Real.cos (θ / 2) ^ 2 - Real.sin (θ / 2) ^ 2 := by rw [← Real.cos_two_mul']; congr 1; ring
  have e3 : Real.sin φ = 2 * Real.sin (φ / 2) * Real.cos (φ / 2) := by rw [← Real.sin_two_mul]; congr 1; ring
  have e4 : Real.cos φ = Real.cos (φ / 2) ^ 2 - Real.sin (φ / 2) ^ 2 := by rw [← Real.cos_two_mul']; congr 1; ring
  have p1 := Real.sin_sq_add_cos_sq (θ / 2)
  have p2 := Real.sin_sq_add_cos_sq (φ / 2)
  have p3 : Real.cos (φ / 2) ^ 2 = 1 - Real.sin (φ / 2) ^ 2 := by linarith
  rw [e1, e2, e3, e4]
  generalize Real.cos (φ / 2) = a at *
  generalize Real.sin (φ / 2) = b at *
  generalize Real.cos (θ / 2) = c at *
  generalize Real.sin (θ / 2) = d at *
  set q := mkQ a 0 0 b * mkQ c 0 d 0 with hq
  have q1 : q.re = a * c ∧ q.imI = -(b * d) ∧ q.imJ = a * d ∧ q.imK = b * c := by
    obtain ⟨h1, h2, h3, h4⟩ := mkQ_comps a 0 0 b
    obtain ⟨g1, g2, g3, g4⟩ := mkQ_comps c 0 d 0
    rw [hq]
    generalize mkQ a 0 0 b = u at *
    generalize mkQ c 0 d 0 = v at *
    refine ⟨?_, ?_, ?_, ?_⟩ <;> simp [h1, h2, h3, h4, g1, g2, g3, g4]
  obtain ⟨h1, h2, h3, h4⟩ := direction_comps q
  rw [q1.1, q1.2.1, q1.2.2.1, q1.2.2.2] at *
  apply Quaternion.ext
  · exact h1
  · rw [h2]; simp only [mkQ]; ring
  · rw [h3]; simp only [mkQ]; ring
  · rw [h4]; simp only [mkQ]; linear_combination (c ^ 2 - d ^ 2) * p2

/-! ## Concrete cases -/

/-- The hypotheses of C42 and C43 are met by arrays starting at `ell = 0` and at `ell = 2`. -/
example : CompleteModes 0 1 [1, 2, 3, 4] ∧ CompleteModes 2 2 [1, 2, 3, 4, Complex.I] := by
  refine ⟨⟨by omega, by omega, by simp⟩, ⟨by omega, by omega, by simp⟩⟩

/-- `eth_NP` of a spin-0 array with `ell ≤ 1`, computed from C42. -/
example : ∃ r, eth_NP [1, 2, 3, 4] 0 0 = .ok r ∧ modeAt 0 r 0 0 = 0 ∧ modeAt 0 r 1 1 = (Real.sqrt 2 : ℂ) * 4 := by
  obtain ⟨r, r1, r2, r3⟩ := C42_eth_NP (l0 := 0) (L := 1) (a := [1, 2, 3, 4]) ⟨by omega, by omega, by simp⟩ 0
  refine ⟨r, r1, ?_, ?_⟩
  · rw [r3 0 0 (by omega) (by omega) (by simp)]; simp
  · rw [r3 1 1 (by omega) (by omega) (by simp)]
    have : modeAt 0 [1, 2, 3, 4] 1 1 = 4 := rfl
    rw [this]
    norm_num

/-- A table and rotors as needed by C41 exist. -/
example : ∃ table, IsWignerTable 32 table ∧ GenericQ (mkQ (3/5) (4/5) 0 0) ∧
    (([], ⟨some 0, some 1, none, .absent⟩) : List ℤ × Kw) ∈ callsWithEllMax 0 1 1 .absent ++ callsWithout 0 1 .absent := by
  obtain ⟨t, ht⟩ := IsWignerTable.exists 32 (by norm_num)
  exact ⟨t, ht, generic_example.1, by simp [callsWithEllMax, callsWithout]⟩

end SF
