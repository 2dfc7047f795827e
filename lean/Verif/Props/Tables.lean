import Verif.Model.Tables
import Verif.Lemmas.Index

/-!
# Properties C06, C07: coefficient tables
-/

set_option autoImplicit false

namespace SF

/-! ## Helper lemmas -/

theorem forL_fill_wr {α β : Type} (xs : List α) (v : α → β) (buf : List β)
    (hlen : buf.length = xs.length) :
    forL xs ((0 : ℤ), buf)
      (fun x (st : ℤ × List β) => do
        let b ← wr st.2 st.1 (v x)
        return (st.1 + 1, b)) = .ok ((xs.length : ℤ), xs.map v) :=
  forL_fill xs (fun x i b => wr b i (v x)) v buf hlen (fun _ _ _ _ h0 h1 => wr_ok h0 h1)

/-- Order in which the binomial table is written. -/
def binList (b : ℤ) : List (ℤ × ℤ) :=
  (pyRange 0 (b + 1)).flatMap fun n => (pyRange 0 (n + 1)).map fun k => (n, k)

theorem binList_length2 {b : ℤ} (hb : 0 ≤ b + 1) :
    2 * ((binList b).length : ℤ) = (b + 1) * (b + 2) := by
  obtain ⟨n, hn⟩ : ∃ n : ℕ, b + 1 = n := ⟨(b + 1).toNat, by omega⟩
  obtain rfl : b = n - 1 := by omega
  clear hn hb
  induction n with
  | zero => simp [binList, pyRange_empty]
  | succ n ih =>
    unfold binList at *
    have e : ((n + 1 : ℕ) : ℤ) - 1 + 1 = (n - 1 + 1) + 1 := by push_cast; ring
    rw [e, pyRange_succ (by omega), List.flatMap_append, List.length_append]
    push_cast
    rw [mul_add, ih]
    simp only [List.flatMap_cons, List.flatMap_nil, List.append_nil, List.length_map,
      length_pyRange]
    rw [Int.toNat_of_nonneg (by omega)]
    ring

theorem binList_index {b n k : ℤ} (h0 : 0 ≤ k) (h1 : k ≤ n) (h2 : n ≤ b) :
    0 ≤ (n * (n + 1)) / 2 + k ∧ (binList b)[((n * (n + 1)) / 2 + k).toNat]? = some (n, k) := by
  have hp := binList_length2 (b := n - 1) (by omega)
  have e1 : n * (n + 1) / 2 = ((binList (n - 1)).length : ℤ) := by
    have : n * (n + 1) = 2 * ((binList (n - 1)).length : ℤ) := by rw [hp]; ring
    rw [this]; omega
  rw [e1]
  refine ⟨by omega, ?_⟩
  have hk : k.toNat < (((pyRange 0 (n + 1)).map fun k => (n, k)) : List (ℤ × ℤ)).length := by
    simp; omega
  have hg := flatMap_pyRange_getElem? (fun n => (pyRange 0 (n + 1)).map fun k => (n, k))
    (show 0 ≤ n by omega) (show n < b + 1 by omega) hk
  have e2 : (((binList (n - 1)).length : ℤ) + k).toNat = (binList (n - 1)).length + k.toNat := by
    omega
  rw [e2]
  unfold binList
  rw [show n - 1 + 1 = n by ring, hg, List.getElem?_map, pyRange_getElem? (by omega)]
  simp; omega

theorem gen_binomial_eq (junk : ℕ → ℝ) {L : ℤ} (hL : 0 ≤ L) :
    gen_binomial junk L = .ok ((binList (2 * L)).map fun p => mpBinomial p.1 p.2) := by
  have hl := binList_length2 (b := 2 * L) (by omega)
  unfold gen_binomial
  have hsz : ((2 * L + 1) * (2 * L + 2)) / 2 = ((binList (2 * L)).length : ℤ) := by
    rw [← hl]; omega
  rw [hsz, npEmpty_ok (by omega), bind_ok]
  have := forL_fill_wr (binList (2 * L)) (fun p => mpBinomial p.1 p.2)
    ((List.range (((binList (2 * L)).length : ℤ)).toNat).map junk) (by simp)
  have h2 : forL (binList (2 * L)) (σ := ℤ × List ℝ) = forL ((pyRange 0 (2 * L + 1)).flatMap
    fun n => (pyRange 0 (n + 1)).map fun k => (n, k)) := rfl
  rw [h2, forL_flatMap] at this
  simp only [forL_map] at this
  rw [this]
  rfl

/-- Order in which the ladder table is written. -/
def ladList (b : ℤ) : List (ℤ × ℤ) :=
  (pyRange 0 (b + 1)).flatMap fun n => (pyRange2 (-n) (n + 1)).map fun k => (n, k)

theorem ladList_length2 {b : ℤ} (hb : 0 ≤ b + 1) :
    2 * ((ladList b).length : ℤ) = (b + 1) * (b + 2) := by
  obtain ⟨n, hn⟩ : ∃ n : ℕ, b + 1 = n := ⟨(b + 1).toNat, by omega⟩
  obtain rfl : b = n - 1 := by omega
  clear hn hb
  induction n with
  | zero => simp [ladList, pyRange_empty]
  | succ n ih =>
    unfold ladList at *
    have e : ((n + 1 : ℕ) : ℤ) - 1 + 1 = (n - 1 + 1) + 1 := by push_cast; ring
    rw [e, pyRange_succ (by omega), List.flatMap_append, List.length_append]
    push_cast
    rw [mul_add, ih]
    simp only [List.flatMap_cons, List.flatMap_nil, List.append_nil, List.length_map,
      length_pyRange2]
    have : ((((n : ℤ) - 1 + 1 + 1 - -((n : ℤ) - 1 + 1) + 1) / 2).toNat : ℤ) = n + 1 := by omega
    rw [this]; ring

theorem ladList_index {b n k : ℤ} (h0 : -n ≤ k) (h1 : k ≤ n) (h2 : n ≤ b)
    (hpar : (n - k) % 2 = 0) :
    0 ≤ ((n + 2) * n + k) / 2 ∧ (ladList b)[(((n + 2) * n + k) / 2).toNat]? = some (n, k) := by
  have hp := ladList_length2 (b := n - 1) (by omega)
  have e1 : ((n + 2) * n + k) / 2 = ((ladList (n - 1)).length : ℤ) + (n + k) / 2 := by
    have : (n + 2) * n + k = 2 * ((ladList (n - 1)).length : ℤ) + (n + k) := by rw [hp]; ring
    rw [this]; omega
  rw [e1]
  refine ⟨by omega, ?_⟩
  have hk : ((n + k) / 2).toNat
      < (((pyRange2 (-n) (n + 1)).map fun k => (n, k)) : List (ℤ × ℤ)).length := by
    simp; omega
  have hg := flatMap_pyRange_getElem? (fun n => (pyRange2 (-n) (n + 1)).map fun k => (n, k))
    (show 0 ≤ n by omega) (show n < b + 1 by omega) hk
  have e2 : (((ladList (n - 1)).length : ℤ) + (n + k) / 2).toNat
      = (ladList (n - 1)).length + ((n + k) / 2).toNat := by
    omega
  rw [e2]
  unfold ladList
  rw [show n - 1 + 1 = n by ring, hg, List.getElem?_map, pyRange2_getElem? (by omega)]
  simp; omega

theorem gen_ladder_eq (junk : ℕ → ℝ) {L : ℤ} (hL : 0 ≤ L) :
    gen_ladder junk L = .ok ((ladList (2 * L)).map fun p =>
      Real.sqrt (((p.1 * (p.1 + 2) - p.2 * (p.2 + 2) : ℤ) : ℝ) / 4)) := by
  have hl := ladList_length2 (b := 2 * L) (by omega)
  unfold gen_ladder
  have hsz : (2 * L + 3) * L + 1 = ((ladList (2 * L)).length : ℤ) := by
    have : 2 * ((2 * L + 3) * L + 1) = 2 * ((ladList (2 * L)).length : ℤ) := by rw [hl]; ring
    omega
  rw [hsz, npEmpty_ok (by omega), bind_ok]
  have := forL_fill_wr (ladList (2 * L)) (fun p =>
      Real.sqrt (((p.1 * (p.1 + 2) - p.2 * (p.2 + 2) : ℤ) : ℝ) / 4))
    ((List.range (((ladList (2 * L)).length : ℤ)).toNat).map junk) (by simp)
  have h2 : forL (ladList (2 * L)) (σ := ℤ × List ℝ) = forL ((pyRange 0 (2 * L + 1)).flatMap
    fun n => (pyRange2 (-n) (n + 1)).map fun k => (n, k)) := rfl
  rw [h2, forL_flatMap] at this
  simp only [forL_map] at this
  rw [this]
  rfl

theorem gen_Wigner_eq (junk : ℕ → ℝ) {L : ℤ} (hL : 0 ≤ L) :
    gen_Wigner junk L = .ok ((TwoList 0 (2 * L)).map fun p => wigner_entry p.1 p.2.1 p.2.2) := by
  have hl := TwoList_length6 (a := 0) (b := 2 * L) le_rfl (by omega)
  unfold gen_Wigner
  have hsz : (8 * L ^ 3 + 18 * L ^ 2 + 13 * L + 3) / 3 = ((TwoList 0 (2 * L)).length : ℤ) := by
    have : 2 * (8 * L ^ 3 + 18 * L ^ 2 + 13 * L + 3) = 6 * ((TwoList 0 (2 * L)).length : ℤ) := by
      rw [hl]; ring
    omega
  rw [hsz, npEmpty_ok (by omega), bind_ok]
  have := forL_fill_wr (TwoList 0 (2 * L)) (fun p => wigner_entry p.1 p.2.1 p.2.2)
    ((List.range (((TwoList 0 (2 * L)).length : ℤ)).toNat).map junk) (by simp)
  have h2 : forL (TwoList 0 (2 * L)) (σ := ℤ × List ℝ)
    = forL ((pyRange 0 (2 * L + 1)).flatMap TwoBlock) := rfl
  rw [h2, forL_flatMap] at this
  simp only [TwoBlock, forL_flatMap, forL_map] at this
  rw [this]
  rfl

/-! ## Property theorems -/

/-- **C06.** `factorial(n) = n!` for every `n ≤ 170`. -/
theorem C06_factorial (n : ℕ) (h : n ≤ 170) : factorial n = .ok (n.factorial : ℝ) := by
  refine rd_ok (by omega) ?_
  have : n < 171 := by omega
  simp [factorials, this]

/-- **C06 (limit).** `factorial(-1)` does not raise: the negative index wraps around to `170!`;
`factorial(171)` is outside the table. -/
theorem C06_factorial_wraps :
    factorial (-1) = .ok ((Nat.factorial 170 : ℕ) : ℝ) ∧ factorial 171 = .error .outOfBounds := by
  have hl : factorials.length = 171 := by simp [factorials]
  constructor
  · unfold factorial rd
    have : npIdx factorials.length (-1) = some 170 := by rw [hl]; decide
    rw [this]
    have : factorials[170]? = some ((Nat.factorial 170 : ℕ) : ℝ) := by simp [factorials]
    simp only [this]
  · unfold factorial rd
    have : npIdx factorials.length 171 = none := by rw [hl]; decide
    rw [this]

/-- **C06.** For every table limit `L` the generator succeeds and `binomial_coefficient(n,k)` reads `C(n,k)`
for all `0 ≤ k ≤ n ≤ 2L`. -/
theorem C06_binomial (junk : ℕ → ℝ) (L : ℤ) (hL : 0 ≤ L) :
    ∃ table, gen_binomial junk L = .ok table ∧
      ∀ n k : ℕ, k ≤ n → (n : ℤ) ≤ 2 * L →
        binomial_coefficient table n k = .ok (n.choose k : ℝ) := by
  refine ⟨_, gen_binomial_eq junk hL, ?_⟩
  intro n k hkn hn
  obtain ⟨h1, h2⟩ := binList_index (b := 2 * L) (n := n) (k := k) (by omega) (by omega) hn
  refine rd_ok h1 ?_
  rw [List.getElem?_map, h2]
  simp [mpBinomial]

/-- **C06 (limit).** `binomial_coefficient(n, n+1)` does not return 0: it reads the first entry of the
next row, `C(n+1,0) = 1`, for every `n < 2L`. -/
theorem C06_binomial_overrun (junk : ℕ → ℝ) (L : ℤ) (hL : 0 ≤ L) (table : List ℝ)
    (ht : gen_binomial junk L = .ok table) (n : ℕ) (hn : (n : ℤ) < 2 * L) :
    binomial_coefficient table n (n + 1) = .ok 1 := by
  obtain ⟨t, h1, h2⟩ := C06_binomial junk L hL
  rw [h1] at ht
  obtain rfl := Except.ok.inj ht
  have := h2 (n + 1) 0 (by omega) (by push_cast; omega)
  simp only [Nat.choose_zero_right, Nat.cast_one] at this
  rw [← this]
  unfold binomial_coefficient
  congr 1
  push_cast
  have : ((n : ℤ) + 1) * (n + 1 + 1) = n * (n + 1) + 2 * (n + 1) := by ring
  rw [this]; omega

/-- **C06.** For every table limit `L`, `ladder_operator_coefficient(ell, m)` reads
`sqrt((ell-m)(ell+m+1))` for all half-integers `|m| ≤ ell ≤ L` of equal parity. -/
theorem C06_ladder (junk : ℕ → ℝ) (L : ℤ) (hL : 0 ≤ L) :
    ∃ table, gen_ladder junk L = .ok table ∧
      ∀ twoell twom : ℤ, |twom| ≤ twoell → twoell ≤ 2 * L → (twoell - twom) % 2 = 0 →
        ladder_operator_coefficient table ((twoell : ℚ) / 2) ((twom : ℚ) / 2)
          = .ok (Real.sqrt (((twoell : ℝ) / 2 - (twom : ℝ) / 2)
              * ((twoell : ℝ) / 2 + (twom : ℝ) / 2 + 1))) := by
  refine ⟨_, gen_ladder_eq junk hL, ?_⟩
  intro n k hk hn hpar
  rw [abs_le] at hk
  have r1 : pyRound (2 * ((n : ℚ) / 2)) = n := by
    rw [mul_div_cancel₀ _ (by norm_num : (2 : ℚ) ≠ 0)]; exact pyRound_intCast n
  have r2 : pyRound (2 * ((k : ℚ) / 2)) = k := by
    rw [mul_div_cancel₀ _ (by norm_num : (2 : ℚ) ≠ 0)]; exact pyRound_intCast k
  unfold ladder_operator_coefficient ladder_operator_coefficient_two
  rw [r1, r2]
  obtain ⟨h1, h2⟩ := ladList_index (b := 2 * L) hk.1 hk.2 hn hpar
  refine rd_ok h1 ?_
  rw [List.getElem?_map, h2]
  simp only [Option.map_some, Option.some.injEq]
  congr 1
  push_cast
  ring

/-- **C07.** For every table limit `L` the generator succeeds, and for every valid triple (integer or
half-integer, `ell ≤ L`) the lookup is in range and reads
`sqrt((ell+m)!(ell-m)!/((ell+m')!(ell-m')!)) C(ell+m',ρ) C(ell-m',ell-m-ρ)`, `ρ = max(0,m'-m)`.
The triple is parametrised by the naturals `p'=ell+m'`, `q'=ell-m'`, `p=ell+m`, `q=ell-m`
with `p'+q'=p+q=2ell`; then `m'-m = p'-p`, and truncated subtraction gives `ρ = p' - p`. -/
theorem C07_Wigner_coefficient (junk : ℕ → ℝ) (L : ℤ) (hL : 0 ≤ L) :
    ∃ table, gen_Wigner junk L = .ok table ∧
      ∀ p' q' p q : ℕ, p' + q' = p + q → ((p + q : ℕ) : ℤ) ≤ 2 * L →
        Wigner_coefficient table (((p + q : ℕ) : ℚ) / 2) (((p' : ℚ) - q') / 2) (((p : ℚ) - q) / 2)
          = .ok (Real.sqrt ((p.factorial * q.factorial : ℝ) / (p'.factorial * q'.factorial))
              * (p'.choose (p' - p)) * (q'.choose (q - (p' - p)))) := by
  refine ⟨_, gen_Wigner_eq junk hL, ?_⟩
  intro p' q' p q hsum hle
  have r1 : pyRound (2 * (((p + q : ℕ) : ℚ) / 2)) = ((p + q : ℕ) : ℤ) := by
    rw [mul_div_cancel₀ _ (by norm_num : (2 : ℚ) ≠ 0)]
    exact pyRound_intCast ((p + q : ℕ) : ℤ)
  have r2 : pyRound (2 * (((p' : ℚ) - q') / 2)) = (p' : ℤ) - q' := by
    rw [mul_div_cancel₀ _ (by norm_num : (2 : ℚ) ≠ 0)]
    rw [← pyRound_intCast ((p' : ℤ) - q')]; push_cast; rfl
  have r3 : pyRound (2 * (((p : ℚ) - q) / 2)) = (p : ℤ) - q := by
    rw [mul_div_cancel₀ _ (by norm_num : (2 : ℚ) ≠ 0)]
    rw [← pyRound_intCast ((p : ℤ) - q)]; push_cast; rfl
  unfold Wigner_coefficient Wigner_coefficient_two
  rw [r1, r2, r3]
  obtain ⟨h1, h2⟩ := TwoList_index (b := 2 * L) (n := ((p + q : ℕ) : ℤ)) (mp := (p' : ℤ) - q')
    (m := (p : ℤ) - q) (by omega) hle (by omega) (by omega) (by omega) (by omega) (by omega)
    (by omega)
  refine rd_ok h1 ?_
  rw [List.getElem?_map, h2]
  simp only [Option.map_some, Option.some.injEq, wigner_entry, mpFac, mpBinomial]
  have a1 : ((((p + q : ℕ) : ℤ) + ((p : ℤ) - q)) / 2).toNat = p := by omega
  have a2 : ((((p + q : ℕ) : ℤ) - ((p : ℤ) - q)) / 2).toNat = q := by omega
  have a3 : ((((p + q : ℕ) : ℤ) + ((p' : ℤ) - q')) / 2).toNat = p' := by omega
  have a4 : ((((p + q : ℕ) : ℤ) - ((p' : ℤ) - q')) / 2).toNat = q' := by omega
  have a5 : (max 0 ((p' : ℤ) - q' - ((p : ℤ) - q)) / 2).toNat = p' - p := by omega
  have a6 : ((((p + q : ℕ) : ℤ) - ((p : ℤ) - q) - max 0 ((p' : ℤ) - q' - ((p : ℤ) - q))) / 2).toNat
      = q - (p' - p) := by omega
  rw [a1, a2, a3, a4, a5, a6]

/-- Non-vacuity: the shipped limit is `L = 32`; `(ell,m',m) = (3/2, 1/2, -1/2)` is `p'=2, q'=1, p=1, q=2`. -/
example : (0 : ℤ) ≤ 32 ∧ (2 + 1 = 1 + 2) ∧ (((1 + 2 : ℕ) : ℤ) ≤ 2 * 32) := by decide

end SF
