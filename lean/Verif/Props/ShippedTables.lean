import Verif.Lemmas.Shipped
import Verif.Lemmas.ShippedBL
import Verif.Lemmas.ShippedW0
import Verif.Lemmas.ShippedW1
import Verif.Lemmas.ShippedW2
import Verif.Lemmas.ShippedW3
import Verif.Lemmas.ShippedW4
import Verif.Lemmas.ShippedW5
import Verif.Lemmas.ShippedW6
import Verif.Lemmas.ShippedW7
import Verif.Props.FloatError
import Verif.Props.FloatErrorY
import Verif.Props.TablesFloat

/-!
# C97: the tables in the package

The three `.npy` files contain what the lookup functions promise: every binomial coefficient is the nearest double, every ladder coefficient
the largest double that is not above the exact value, and every Wigner coefficient a double not above the exact value such that the next double
is not below it.
-/

set_option autoImplicit false

namespace SF

/-! ## From the checks to the lookups -/

theorem forall2_get {α β : Type} {R : α → β → Prop} {l : List α} {l' : List β} (h : List.Forall₂ R l l') {k : ℕ} {a : α}
    (hk : l[k]? = some a) : ∃ b, l'[k]? = some b ∧ R a b := by
  induction h generalizing k with
  | nil => simp at hk
  | cons h _ ih =>
    cases k with
    | zero => simp at hk; subst hk; exact ⟨_, rfl, h⟩
    | succ k => simp only [List.getElem?_cons_succ] at hk ⊢; exact ih hk

theorem range'_zero (n : ℕ) : List.range' 0 n = List.range n := (List.range_eq_range' (n := n)).symm

theorem pyRange2_row (n : ℕ) : pyRange2 (-(n : ℤ)) ((n : ℤ) + 1) = (List.range' 0 (n + 1)).map fun p : ℕ => -(n : ℤ) + 2 * (p : ℤ) := by
  rw [range'_zero]
  unfold pyRange2
  rw [show (((n : ℤ) + 1 - -(n : ℤ) + 1) / 2).toNat = n + 1 by omega]

theorem pyRange_row (n : ℕ) : pyRange 0 ((n : ℤ) + 1) = (List.range' 0 (n + 1)).map fun p : ℕ => (p : ℤ) := by
  rw [range'_zero]
  unfold pyRange
  rw [show ((n : ℤ) + 1 - 0).toNat = n + 1 by omega]
  simp

theorem TwoList_nat : TwoList 0 (2 * 32) =
    ((List.range' 0 65).flatMap fun a => (List.range' 0 (a + 1)).flatMap fun b => (List.range' 0 (a + 1)).map fun c => (a, b, c)).map
      fun j : ℕ × ℕ × ℕ => ((j.1 : ℤ), -(j.1 : ℤ) + 2 * (j.2.1 : ℤ), -(j.1 : ℤ) + 2 * (j.2.2 : ℤ)) := by
  unfold TwoList
  rw [show (2 * 32 + 1 : ℤ) = ((64 : ℕ) : ℤ) + 1 by norm_num, pyRange_row, List.flatMap_map, List.map_flatMap]
  refine List.flatMap_congr fun a _ => ?_
  unfold TwoBlock
  rw [pyRange2_row, List.flatMap_map, List.map_flatMap]
  refine List.flatMap_congr fun b _ => ?_
  rw [List.map_map, List.map_map]
  rfl

theorem binList_nat : binList (2 * 32) =
    ((List.range' 0 65).flatMap fun a => (List.range' 0 (a + 1)).map fun b => (a, b)).map
      fun j : ℕ × ℕ => ((j.1 : ℤ), (j.2 : ℤ)) := by
  unfold binList
  rw [show (2 * 32 + 1 : ℤ) = ((64 : ℕ) : ℤ) + 1 by norm_num, pyRange_row, List.flatMap_map, List.map_flatMap]
  refine List.flatMap_congr fun a _ => ?_
  rw [pyRange_row, List.map_map, List.map_map]
  rfl

theorem ladList_nat : ladList (2 * 32) =
    ((List.range' 0 65).flatMap fun a => (List.range' 0 (a + 1)).map fun b => (a, b)).map
      fun j : ℕ × ℕ => ((j.1 : ℤ), -(j.1 : ℤ) + 2 * (j.2 : ℤ)) := by
  unfold ladList
  rw [show (2 * 32 + 1 : ℤ) = ((64 : ℕ) : ℤ) + 1 by norm_num, pyRange_row, List.flatMap_map, List.map_flatMap]
  refine List.flatMap_congr fun a _ => ?_
  rw [pyRange2_row, List.map_map, List.map_map]
  rfl

theorem wigner_allOk : AllOk wignerData 0 :=
  ⟨wigner0_ok, wigner1_ok, wigner2_ok, wigner3_ok, wigner4_ok, wigner5_ok, wigner6_ok, wigner7_ok,
   wigner8_ok, wigner9_ok, wigner10_ok, wigner11_ok, wigner12_ok, wigner13_ok, wigner14_ok, wigner15_ok,
   wigner16_ok, wigner17_ok, wigner18_ok, wigner19_ok, wigner20_ok, wigner21_ok, wigner22_ok, wigner23_ok,
   wigner24_ok, wigner25_ok, wigner26_ok, wigner27_ok, wigner28_ok, wigner29_ok, wigner30_ok, wigner31_ok,
   wigner32_ok, wigner33_ok, wigner34_ok, wigner35_ok, wigner36_ok, wigner37_ok, wigner38_ok, wigner39_ok,
   wigner40_ok, wigner41_ok, wigner42_ok, wigner43_ok, wigner44_ok, wigner45_ok, wigner46_ok, wigner47_ok,
   wigner48_ok, wigner49_ok, wigner50_ok, wigner51_ok, wigner52_ok, wigner53_ok, wigner54_ok, wigner55_ok,
   wigner56_ok, wigner57_ok, wigner58_ok, wigner59_ok, wigner60_ok, wigner61_ok, wigner62_ok, wigner63_ok,
   wigner64_ok, rfl⟩

theorem wigner_words : List.Forall₂ (fun (j : ℕ × ℕ × ℕ) w => Bracket j.1 w (sqW j.1 j.2.1 j.2.2))
    ((List.range' 0 65).flatMap fun a => (List.range' 0 (a + 1)).flatMap fun b => (List.range' 0 (a + 1)).map fun c => (a, b, c)) wignerWords :=
  allOk_sound wignerData 0 (by norm_num) wigner_allOk

theorem binomial_words : List.Forall₂ (fun (j : ℕ × ℕ) w => BinEntry w (j.1.choose j.2))
    ((List.range' 0 65).flatMap fun a => (List.range' 0 (a + 1)).map fun b => (a, b)) binomialWords :=
  binOk_sound binomialData 0 (by norm_num) binomial_ok

theorem ladder_words : List.Forall₂ (fun (j : ℕ × ℕ) w => LadEntry w j.1 j.2)
    ((List.range' 0 65).flatMap fun a => (List.range' 0 (a + 1)).map fun b => (a, b)) ladderWords :=
  ladOk_sound ladderData 0 (by norm_num) ladder_ok

/-- The coefficient is the square root of an integer. -/
theorem Wcoef_eq_sqrt {p' q' p q : ℕ} (h : p' + q' = p + q) : Wcoef p' q' p q = Real.sqrt (sqW (p + q) p' p) := by
  symm
  rw [Real.sqrt_eq_iff_mul_self_eq (by positivity) (by unfold Wcoef; positivity)]
  unfold Wcoef sqW
  set A : ℝ := (p.factorial * q.factorial : ℝ) / (p'.factorial * q'.factorial) with hA
  have hs : Real.sqrt A * Real.sqrt A = A := Real.mul_self_sqrt (by rw [hA]; positivity)
  have f0 : ∀ n : ℕ, (n.factorial : ℝ) ≠ 0 := fun n => by exact_mod_cast n.factorial_ne_zero
  by_cases hp : p ≤ p'
  · rw [if_pos hp, show p + q - p = q by omega, show p + q - p' = q' by omega, show q - (p' - p) = q' by omega, Nat.choose_self, Nat.choose_symm hp]
    have e1 : (p'.choose p : ℝ) * p.factorial * (p' - p).factorial = p'.factorial := by exact_mod_cast Nat.choose_mul_factorial_mul_factorial hp
    have e2 : (q.choose q' : ℝ) * q'.factorial * (p' - p).factorial = q.factorial := by
      have := Nat.choose_mul_factorial_mul_factorial (show q' ≤ q by omega)
      rw [show q - q' = p' - p by omega] at this
      exact_mod_cast this
    have e3 : A * (p'.choose p : ℝ) = q.choose q' := by
      rw [hA, ← e1, ← e2]
      have := f0 p
      have := f0 q'
      have := f0 (p' - p)
      have : (p'.choose p : ℝ) ≠ 0 := by exact_mod_cast (Nat.choose_pos hp).ne'
      field_simp
    push_cast
    symm
    calc _ = (Real.sqrt A * Real.sqrt A) * p'.choose p * p'.choose p := by ring
      _ = _ := by rw [hs, e3]; ring
  · rw [if_neg hp, show p + q - p = q by omega, show p + q - p' = q' by omega, show p' - p = 0 by omega, Nat.choose_zero_right, Nat.sub_zero]
    have e1 : (p.choose p' : ℝ) * p'.factorial * (p - p').factorial = p.factorial := by exact_mod_cast Nat.choose_mul_factorial_mul_factorial (show p' ≤ p by omega)
    have e2 : (q'.choose q : ℝ) * q.factorial * (p - p').factorial = q'.factorial := by
      have := Nat.choose_mul_factorial_mul_factorial (show q ≤ q' by omega)
      rw [show q' - q = p - p' by omega] at this
      exact_mod_cast this
    have e3 : A * (q'.choose q : ℝ) = p.choose p' := by
      rw [hA, ← e1, ← e2]
      have := f0 p'
      have := f0 q
      have := f0 (p - p')
      have : (q'.choose q : ℝ) ≠ 0 := by exact_mod_cast (Nat.choose_pos (show q ≤ q' by omega)).ne'
      field_simp
    push_cast
    symm
    calc _ = (Real.sqrt A * Real.sqrt A) * q'.choose q * q'.choose q := by ring
      _ = _ := by rw [hs, e3]

theorem sqW_pos {n p' p : ℕ} (h1 : p' ≤ n) (h2 : p ≤ n) : 0 < sqW n p' p := by
  unfold sqW
  split_ifs with h
  · exact Nat.mul_pos (Nat.choose_pos h) (Nat.choose_pos (by omega))
  · exact Nat.mul_pos (Nat.choose_pos (by omega)) (Nat.choose_pos (by omega))

theorem lookup_word {p' q' p q : ℕ} (h : p' + q' = p + q) (hle : p + q ≤ 64) :
    ∃ w, Wigner_coefficient_two shippedWigner ((p + q : ℕ) : ℤ) ((p' : ℤ) - q') ((p : ℤ) - q) = .ok (f64 w) ∧ Bracket (p + q) w (sqW (p + q) p' p) := by
  obtain ⟨h1, h2⟩ := TwoList_index (b := 2 * 32) (n := ((p + q : ℕ) : ℤ)) (mp := (p' : ℤ) - q')
    (m := (p : ℤ) - q) (by omega) (by omega) (by omega) (by omega) (by omega) (by omega) (by omega) (by omega)
  rw [TwoList_nat, List.getElem?_map, Option.map_eq_some_iff] at h2
  obtain ⟨⟨a, b, c⟩, g1, g2⟩ := h2
  simp only [Prod.mk.injEq] at g2
  obtain ⟨k1, k2, k3⟩ := g2
  obtain rfl : a = p + q := by omega
  obtain rfl : b = p' := by omega
  obtain rfl : c = p := by omega
  obtain ⟨w, g3, g4⟩ := forall2_get wigner_words g1
  exact ⟨w, rd_ok h1 (by unfold shippedWigner; rw [List.getElem?_map, g3]; rfl), g4⟩

/-! ## Property theorems -/

/-- **C97.** The shipped files have the lengths of the generator with `ell_max = 32`. -/
theorem C97_lengths : shippedBinomial.length = 2145 ∧ shippedLadder.length = 2145 ∧ shippedWigner.length = 93665 := by
  refine ⟨?_, ?_, ?_⟩
  · unfold shippedBinomial
    rw [List.length_map, ← binomial_words.length_eq]
    decide +kernel
  · unfold shippedLadder
    rw [List.length_map, ← ladder_words.length_eq]
    decide +kernel
  · unfold shippedWigner
    rw [List.length_map, ← wigner_words.length_eq]
    decide +kernel

/-- **C97.** `binomial_coefficient(n, k)` of the shipped package, for all `0 ≤ k ≤ n ≤ 64`: a nearest double to C(n, k), with relative error
at most `2^-53`; exact for `n ≤ 56`. -/
theorem C97_binomial (n k : ℕ) (hk : k ≤ n) (hn : n ≤ 64) :
    ∃ v, binomial_coefficient shippedBinomial n k = .ok v ∧ Rep53 v ∧ (∀ y, Rep53 y → |v - n.choose k| ≤ |y - n.choose k|) ∧
      |v - n.choose k| ≤ 2 ^ (-53 : ℤ) * n.choose k ∧ (n ≤ 56 → v = n.choose k) := by
  obtain ⟨h1, h2⟩ := binList_index (b := 2 * 32) (n := n) (k := k) (by omega) (by omega) (by omega)
  rw [binList_nat, List.getElem?_map, Option.map_eq_some_iff] at h2
  obtain ⟨⟨a, b⟩, g1, g2⟩ := h2
  simp only [Prod.mk.injEq] at g2
  obtain ⟨k1, k2⟩ := g2
  obtain rfl : a = n := by omega
  obtain rfl : b = k := by omega
  obtain ⟨w, g3, g4⟩ := forall2_get binomial_words g1
  simp only at g4
  have hlo := g4.lo
  have hhi := g4.hi
  have e0 := f64_eq_sig hlo (show w ≤ 0x7fe0000000000001 by omega)
  refine ⟨f64 w, rd_ok h1 (by unfold shippedBinomial; rw [List.getElem?_map, g3]; rfl), f64_rep53 hlo hhi, ?_, ?_, ?_⟩
  · intro y hy
    rcases g4.cases with g | ⟨_, g5, g6, g7⟩
    · have : f64 w = a.choose b := by rw [e0, g]; push_cast; norm_num
      rw [this, sub_self, abs_zero]; exact abs_nonneg _
    · have e1 := f64_eq_sig (w := w + 1) (by omega) (by omega)
      have e2 := f64_eq_sig (w := w - 1) (by omega) (by omega)
      have g5' : f64 (w - 1) + f64 w ≤ 2 * a.choose b := by
        rw [e0, e2, ← add_div, div_le_iff₀ (by positivity)]
        have : ((sig (w - 1) : ℝ) + sig w) ≤ a.choose b * 2 ^ 53 := by exact_mod_cast g5
        linarith
      have g6' : 2 * (a.choose b : ℝ) ≤ f64 w + f64 (w + 1) := by
        rw [e0, e1, ← add_div, le_div_iff₀ (by positivity)]
        have : (a.choose b : ℝ) * 2 ^ 53 ≤ ((sig w : ℝ) + sig (w + 1)) := by exact_mod_cast g6
        linarith
      obtain ⟨m, e, m1, _, m3, m4⟩ := f64_form hlo hhi
      obtain ⟨m', e', m1', _, m3', m4'⟩ := f64_form (w := w - 1) (by omega) (by omega)
      rw [show w - 1 + 1 = w by omega] at m4'
      rcases le_total (f64 w) (a.choose b) with hc | hc
      · rw [abs_of_nonpos (by linarith)]
        rcases le_or_gt y (f64 w) with hyv | hyv
        · rw [abs_of_nonpos (by linarith)]; linarith
        · have := no_rep53_between m1 hy (by rw [← m3]; exact hyv)
          rw [← m4] at this
          exact le_trans (by linarith) (le_abs_self _)
      · rw [abs_of_nonneg (by linarith)]
        rcases le_or_gt (f64 w) y with hyv | hyv
        · rw [abs_of_nonneg (by linarith)]; linarith
        · have : y ≤ f64 (w - 1) := by
            by_contra hcon
            push Not at hcon
            have := no_rep53_between m1' hy (by rw [← m3']; exact hcon)
            rw [← m4'] at this
            linarith
          linarith [neg_abs_le (y - (a.choose b : ℝ))]
  · have b1 : 2 * (sig w : ℝ) ≤ a.choose b * (2 ^ 53 + 1) := by exact_mod_cast g4.below
    have b2 : (a.choose b : ℝ) * (2 ^ 53 - 1) ≤ 2 * sig w := by
      have := g4.above
      rw [show (2 : ℕ) ^ 53 - 1 = 9007199254740991 by norm_num] at this
      have : (a.choose b : ℝ) * 9007199254740991 ≤ 2 * sig w := by exact_mod_cast this
      generalize (a.choose b : ℝ) = C at this ⊢
      linarith
    rw [e0, abs_le, show (2 : ℝ) ^ (-53 : ℤ) = 1 / 2 ^ 53 by norm_num]
    clear e0
    generalize (a.choose b : ℝ) = C at b1 b2 ⊢
    generalize (sig w : ℝ) = s at b1 b2 ⊢
    constructor <;> linarith
  · intro h56
    have hC : a.choose b ≤ 2 ^ 53 := by
      calc a.choose b ≤ (56 : ℕ).choose b := Nat.choose_le_choose b h56
        _ ≤ (56 : ℕ).choose (56 / 2) := Nat.choose_le_middle b 56
        _ ≤ 2 ^ 53 := by decide +kernel
    rcases g4.cases with g | ⟨g, _⟩
    · rw [e0, g]; push_cast; norm_num
    · exact absurd hC (by omega)

/-- **C97.** `ladder_operator_coefficient(ell, m)` of the shipped package, for all integers and half-integers `|m| ≤ ell ≤ 32` of equal
parity: the largest double that does not exceed `sqrt((ell - m) (ell + m + 1))`. -/
theorem C97_ladder (twoell twom : ℤ) (hm : |twom| ≤ twoell) (hl : twoell ≤ 64) (hpar : (twoell - twom) % 2 = 0) :
    ∃ v, ladder_operator_coefficient shippedLadder ((twoell : ℚ) / 2) ((twom : ℚ) / 2) = .ok v ∧ Rep53 v ∧
      v ≤ Real.sqrt (((twoell : ℝ) / 2 - (twom : ℝ) / 2) * ((twoell : ℝ) / 2 + (twom : ℝ) / 2 + 1)) ∧
      ∀ y, Rep53 y → y ≤ Real.sqrt (((twoell : ℝ) / 2 - (twom : ℝ) / 2) * ((twoell : ℝ) / 2 + (twom : ℝ) / 2 + 1)) → y ≤ v := by
  rw [abs_le] at hm
  have r1 : pyRound (2 * ((twoell : ℚ) / 2)) = twoell := by
    rw [mul_div_cancel₀ _ (by norm_num : (2 : ℚ) ≠ 0)]; exact pyRound_intCast twoell
  have r2 : pyRound (2 * ((twom : ℚ) / 2)) = twom := by
    rw [mul_div_cancel₀ _ (by norm_num : (2 : ℚ) ≠ 0)]; exact pyRound_intCast twom
  unfold ladder_operator_coefficient ladder_operator_coefficient_two
  rw [r1, r2]
  obtain ⟨h1, h2⟩ := ladList_index (b := 2 * 32) hm.1 hm.2 (by omega) hpar
  rw [ladList_nat, List.getElem?_map, Option.map_eq_some_iff] at h2
  obtain ⟨⟨n, p⟩, g1, g2⟩ := h2
  simp only [Prod.mk.injEq] at g2
  obtain ⟨k1, k2⟩ := g2
  subst k1 k2
  obtain ⟨w, g3, g4⟩ := forall2_get ladder_words g1
  simp only at g4
  have hpn : p ≤ n := by omega
  obtain ⟨q, rfl⟩ : ∃ q, n = p + q := ⟨n - p, by omega⟩
  have eS : (((p + q : ℕ) : ℤ) : ℝ) / 2 - ((-((p + q : ℕ) : ℤ) + 2 * (p : ℤ) : ℤ) : ℝ) / 2 = q := by push_cast; ring
  have eT : (((p + q : ℕ) : ℤ) : ℝ) / 2 + ((-((p + q : ℕ) : ℤ) + 2 * (p : ℤ) : ℤ) : ℝ) / 2 + 1 = p + 1 := by push_cast; ring
  rw [eS, eT]
  refine ⟨f64 w, rd_ok h1 (by unfold shippedLadder; rw [List.getElem?_map, g3]; rfl), ?_⟩
  rcases g4 with ⟨c1, c2⟩ | ⟨_, c2⟩
  · have hq : q = 0 := by omega
    subst c2 hq
    have z : f64 0 = 0 := by unfold f64; simp
    rw [z]
    refine ⟨⟨0, 0, by norm_num, by norm_num⟩, by simp, fun y _ hy => by simpa using hy⟩
  · rw [show p + q - p = q by omega] at c2
    have e : ((q : ℝ) * (p + 1)) = ((q * (p + 1) : ℕ) : ℝ) := by push_cast; ring
    rw [e]
    exact ⟨f64_rep53 c2.lo c2.hi, c2.le, fun y hy hyc => c2.largest (by norm_num) hy hyc⟩

/-- **C97.** `Wigner_coefficient(ell, m', m)` of the shipped package, for every valid triple with `ell ≤ 32`: a double not above the exact
value, such that every larger double is at least the exact value; for `ell ≤ 24` the largest double not above the exact value.
Parametrisation as in C07. -/
theorem C97_Wigner_coefficient (p' q' p q : ℕ) (h : p' + q' = p + q) (hle : p + q ≤ 64) :
    ∃ v, Wigner_coefficient shippedWigner (((p + q : ℕ) : ℚ) / 2) (((p' : ℚ) - q') / 2) (((p : ℚ) - q) / 2) = .ok v ∧ Rep53 v ∧ 1 ≤ v ∧
      v ≤ Real.sqrt ((p.factorial * q.factorial : ℝ) / (p'.factorial * q'.factorial)) * (p'.choose (p' - p)) * (q'.choose (q - (p' - p))) ∧
      (∀ y, Rep53 y → v < y →
        Real.sqrt ((p.factorial * q.factorial : ℝ) / (p'.factorial * q'.factorial)) * (p'.choose (p' - p)) * (q'.choose (q - (p' - p))) ≤ y) ∧
      Real.sqrt ((p.factorial * q.factorial : ℝ) / (p'.factorial * q'.factorial)) * (p'.choose (p' - p)) * (q'.choose (q - (p' - p))) - v
        ≤ 2 ^ (-52 : ℤ) * v ∧
      (p + q ≤ 48 → ∀ y, Rep53 y →
        y ≤ Real.sqrt ((p.factorial * q.factorial : ℝ) / (p'.factorial * q'.factorial)) * (p'.choose (p' - p)) * (q'.choose (q - (p' - p))) → y ≤ v) ∧
      (p' = p → v = 1) := by
  have r1 : pyRound (2 * (((p + q : ℕ) : ℚ) / 2)) = ((p + q : ℕ) : ℤ) := by
    rw [mul_div_cancel₀ _ (by norm_num : (2 : ℚ) ≠ 0)]
    exact pyRound_intCast ((p + q : ℕ) : ℤ)
  have r2 : pyRound (2 * (((p' : ℚ) - q') / 2)) = (p' : ℤ) - q' := by
    rw [mul_div_cancel₀ _ (by norm_num : (2 : ℚ) ≠ 0)]
    rw [← pyRound_intCast ((p' : ℤ) - q')]; push_cast; rfl
  have r3 : pyRound (2 * (((p : ℚ) - q) / 2)) = (p : ℤ) - q := by
    rw [mul_div_cancel₀ _ (by norm_num : (2 : ℚ) ≠ 0)]
    rw [← pyRound_intCast ((p : ℤ) - q)]; push_cast; rfl
  unfold Wigner_coefficient
  rw [r1, r2, r3]
  obtain ⟨w, w1, w2⟩ := lookup_word h hle
  have ec := Wcoef_eq_sqrt h
  unfold Wcoef at ec
  rw [ec]
  have one := one_le_f64 w2.lo w2.hi
  refine ⟨f64 w, w1, f64_rep53 w2.lo w2.hi, one, w2.le, fun y hy hvy => ?_, ?_, fun h48 y hy hyc => w2.largest h48 hy hyc, ?_⟩
  · obtain ⟨m, ex, m1, _, m3, m4⟩ := f64_form w2.lo w2.hi
    have h5 := no_rep53_between m1 hy (by rw [← m3]; exact hvy)
    rw [← m4] at h5
    exact w2.ge.trans h5
  · have := f64_gap w2.lo w2.hi
    have := w2.ge
    linarith
  · rintro rfl
    have e : sqW (p' + q) p' p' = 1 := by
      unfold sqW
      rw [if_pos le_rfl, Nat.choose_self, Nat.choose_self]
    have := w2.le
    rw [e] at this
    simp at this
    linarith

/-- **C97.** The shipped Wigner table is the exact table up to relative errors of `2^-52`: the hypothesis of the error bounds C69, C70, C74,
C78, C87 and C90. -/
theorem C97_RoundedTable {u : ℝ} (hu : 2 ^ (-52 : ℤ) ≤ u) : RoundedTable u 32 shippedWigner := by
  refine ⟨_, ⟨by norm_num, fun _ => 0, gen_Wigner_eq _ (by norm_num)⟩, ?_, ?_⟩
  · unfold shippedWigner
    rw [List.length_map, List.length_map, TwoList_nat, List.length_map, wigner_words.length_eq]
  · intro k x hx
    rw [TwoList_nat, List.map_map, List.getElem?_map, Option.map_eq_some_iff] at hx
    obtain ⟨⟨n, p', p⟩, g1, rfl⟩ := hx
    obtain ⟨w, g3, g4⟩ := forall2_get wigner_words g1
    have hmem := List.mem_of_getElem? g1
    simp only [List.mem_flatMap, List.mem_map, List.mem_range'_1, Prod.mk.injEq] at hmem
    obtain ⟨a, ha, b, hb, c, hc, rfl, rfl, rfl⟩ := hmem
    obtain ⟨q, rfl⟩ : ∃ q, a = c + q := ⟨a - c, by omega⟩
    obtain ⟨q', hq'⟩ : ∃ q', b + q' = c + q := ⟨c + q - b, by omega⟩
    refine ⟨f64 w, by unfold shippedWigner; rw [List.getElem?_map, g3]; rfl, ?_⟩
    have ew : wigner_entry ((c + q : ℕ) : ℤ) (-((c + q : ℕ) : ℤ) + 2 * (b : ℤ)) (-((c + q : ℕ) : ℤ) + 2 * (c : ℤ)) = Wcoef b q' c q := by
      simp only [wigner_entry, mpFac, mpBinomial, Wcoef]
      rw [show (-((c + q : ℕ) : ℤ) + 2 * (b : ℤ)) = (b : ℤ) - q' by omega, show (-((c + q : ℕ) : ℤ) + 2 * (c : ℤ)) = (c : ℤ) - q by omega]
      have a1 : ((((c + q : ℕ) : ℤ) + ((c : ℤ) - q)) / 2).toNat = c := by omega
      have a2 : ((((c + q : ℕ) : ℤ) - ((c : ℤ) - q)) / 2).toNat = q := by omega
      have a3 : ((((c + q : ℕ) : ℤ) + ((b : ℤ) - q')) / 2).toNat = b := by omega
      have a4 : ((((c + q : ℕ) : ℤ) - ((b : ℤ) - q')) / 2).toNat = q' := by omega
      have a5 : (max 0 ((b : ℤ) - q' - ((c : ℤ) - q)) / 2).toNat = b - c := by omega
      have a6 : ((((c + q : ℕ) : ℤ) - ((c : ℤ) - q) - max 0 ((b : ℤ) - q' - ((c : ℤ) - q))) / 2).toNat = q - (b - c) := by omega
      rw [a1, a2, a3, a4, a5, a6]
    simp only [Function.comp_apply]
    rw [ew, Wcoef_eq_sqrt hq']
    simp only at g4
    have l := g4.le
    have g := g4.ge
    have one := one_le_f64 g4.lo g4.hi
    have gap := f64_gap g4.lo g4.hi
    unfold RelErr
    rw [abs_of_nonneg (Real.sqrt_nonneg _), abs_of_nonpos (by linarith)]
    have : 2 ^ (-52 : ℤ) * f64 w ≤ u * Real.sqrt (sqW (c + q) b c) := mul_le_mul hu l (by linarith) (le_trans (by positivity) hu)
    linarith

/-- **C97.** Wigner D elements with the shipped table and double-precision arithmetic, `ell ≤ 16`. -/
theorem C97_Wigner_D_element {u w : ℝ} {F : FloatOps} (hF : F.Std u w) (hu : 2 ^ (-52 : ℤ) ≤ u) (hu50 : u ≤ 2 ^ (-50 : ℤ))
    (hw : w ≤ 1 / 10 ^ 14) (Ra Rb : ℂ) (hR : Spec.IsUnit' Ra Rb) (indices : List (ℤ × ℤ × ℤ)) (elements : List ℂ)
    (hlen : elements.length = indices.length) (hi : ∀ t ∈ indices, Lookable 32 t) :
    ∃ f : ℤ × ℤ × ℤ → ℂ, Wigner_D_element_kernelF F (1 / 10 ^ 15) shippedWigner Ra Rb indices elements = .ok (indices.map f) ∧
      ∀ t ∈ indices, |t.2.1| ≤ t.1 → |t.2.2| ≤ t.1 → t.1 ≤ 16 → ‖f t - Spec.wignerD Ra Rb t.1 t.2.1 t.2.2‖ ≤ 1 / 10 ^ 10 :=
  C69_double hF hu50 hw (C97_RoundedTable hu) Ra Rb hR indices elements hlen hi

/-! ## Limits -/

theorem word_49 : wignerWords[(Wigner_index 49 (-49) (-47)).toNat]? = some 0x401bffffffffffff := by decide +kernel

/-- The table is not correctly rounded: for `2 ell = 49`, `2 m' = -49`, `2 m = -47` the exact value is 7, the shipped one is smaller. -/
theorem C97_not_exact : ∃ v, Wigner_coefficient_two shippedWigner 49 (-49) (-47) = .ok v ∧ v < 7 ∧ Wcoef 0 49 1 48 = 7 := by
  refine ⟨f64 0x401bffffffffffff, rd_ok (by decide) (by unfold shippedWigner; rw [List.getElem?_map, word_49]; rfl), ?_, ?_⟩
  · rw [f64_eq_sig (by norm_num) (by norm_num), show sig 0x401bffffffffffff = 31525197391593468 by decide +kernel]
    norm_num
  · rw [Wcoef_eq_sqrt (by norm_num), show sqW (1 + 48) 0 1 = 49 by decide +kernel, show ((49 : ℕ) : ℝ) = 7 ^ 2 by norm_num]
    exact Real.sqrt_sq (by norm_num)

theorem word_sqrt2 : ladderWords[4]? = some 0x3ff6a09e667f3bcc := by decide +kernel

/-- The ladder coefficients are not correctly rounded either: for `ell = 1`, `m = 0` another double is nearer to the exact value `sqrt(2)`. -/
theorem C97_ladder_not_nearest : ∃ v y, ladder_operator_coefficient_two shippedLadder 2 0 = .ok v ∧ Rep53 y ∧ |y - Real.sqrt 2| < |v - Real.sqrt 2| := by
  refine ⟨f64 0x3ff6a09e667f3bcc, f64 0x3ff6a09e667f3bcd, rd_ok (by norm_num) ?_, f64_rep53 (by norm_num) (by norm_num), ?_⟩
  · have : ((((2 : ℤ) + 2) * 2 + 0) / 2).toNat = 4 := by decide
    rw [this]
    unfold shippedLadder
    rw [List.getElem?_map, word_sqrt2]
    rfl
  · rw [f64_eq_sig (by norm_num) (by norm_num), f64_eq_sig (by norm_num) (by norm_num), show sig 0x3ff6a09e667f3bcc = 6369051672525772 by decide +kernel,
      show sig 0x3ff6a09e667f3bcd = 6369051672525773 by decide +kernel]
    have h1 : (12738103345051545 / 2 ^ 53 : ℝ) < Real.sqrt 2 := by
      rw [Real.lt_sqrt (by norm_num)]; norm_num
    have h2 : Real.sqrt 2 < (6369051672525773 / 2 ^ 52 : ℝ) := by
      rw [Real.sqrt_lt' (by norm_num)]; norm_num
    push_cast
    rw [abs_of_pos (by linarith), abs_of_neg (by norm_num at h1 ⊢; linarith)]
    norm_num at h1 ⊢
    linarith

/-! ## Concrete cases -/

/-- `binomial_coefficient(10, 3) = 120`; `binomial_coefficient(64, 32)` is a nearest double. -/
example : binomial_coefficient shippedBinomial 10 3 = .ok 120 ∧
    ∃ v, binomial_coefficient shippedBinomial 64 32 = .ok v ∧ Rep53 v ∧ |v - (64 : ℕ).choose 32| ≤ 2 ^ (-53 : ℤ) * (64 : ℕ).choose 32 := by
  constructor
  · obtain ⟨v, h1, _, _, _, h5⟩ := C97_binomial 10 3 (by norm_num) (by norm_num)
    rw [h5 (by norm_num)] at h1
    norm_num [Nat.choose] at h1
    exact h1
  · obtain ⟨v, h1, h2, _, h4, _⟩ := C97_binomial 64 32 (by norm_num) (by norm_num)
    exact ⟨v, h1, h2, h4⟩

/-- `ladder_operator_coefficient(3/2, -1/2) = 2`. -/
example : ladder_operator_coefficient shippedLadder (((3 : ℤ) : ℚ) / 2) (((-1 : ℤ) : ℚ) / 2) = .ok 2 := by
  obtain ⟨v, h1, _, h3, h4⟩ := C97_ladder 3 (-1) (by norm_num) (by norm_num) (by norm_num)
  have e : Real.sqrt ((((3 : ℤ) : ℝ) / 2 - ((-1 : ℤ) : ℝ) / 2) * (((3 : ℤ) : ℝ) / 2 + ((-1 : ℤ) : ℝ) / 2 + 1)) = 2 := by
    rw [show (((3 : ℤ) : ℝ) / 2 - ((-1 : ℤ) : ℝ) / 2) * (((3 : ℤ) : ℝ) / 2 + ((-1 : ℤ) : ℝ) / 2 + 1) = 2 ^ 2 by norm_num]
    exact Real.sqrt_sq (by norm_num)
  rw [e] at h3 h4
  have := h4 2 ⟨2, 0, by norm_num, by norm_num⟩ le_rfl
  rw [h1, le_antisymm h3 this]

/-- `Wigner_coefficient(3/2, 1/2, -1/2)`: `p' = 2, q' = 1, p = 1, q = 2`, exact value 2. -/
example : Wigner_coefficient shippedWigner (((1 + 2 : ℕ) : ℚ) / 2) (((2 : ℕ) - (1 : ℕ) : ℚ) / 2) (((1 : ℕ) - (2 : ℕ) : ℚ) / 2) = .ok 2 := by
  obtain ⟨v, h1, _, _, h4, _, _, h7, _⟩ := C97_Wigner_coefficient 2 1 1 2 (by norm_num) (by norm_num)
  have e : Real.sqrt (((1 : ℕ).factorial * (2 : ℕ).factorial : ℝ) / ((2 : ℕ).factorial * (1 : ℕ).factorial)) * ((2 : ℕ).choose (2 - 1))
      * ((1 : ℕ).choose (2 - (2 - 1))) = 2 := by
    norm_num [Nat.factorial]
  rw [e] at h4 h7
  rw [h1, le_antisymm h4 (h7 (by norm_num) 2 ⟨2, 0, by norm_num, by norm_num⟩ le_rfl)]

/-- `Wigner_coefficient(32, 5, -7)`: a double. -/
example : ∃ v, Wigner_coefficient shippedWigner (((25 + 39 : ℕ) : ℚ) / 2) (((37 : ℕ) - (27 : ℕ) : ℚ) / 2) (((25 : ℕ) - (39 : ℕ) : ℚ) / 2) = .ok v ∧ Rep53 v := by
  obtain ⟨v, h1, h2, _⟩ := C97_Wigner_coefficient 37 27 25 39 (by norm_num) (by norm_num)
  exact ⟨v, h1, h2⟩

end SF
