import Verif.Props.Conversions

/-! # C95: the eth functions on arrays that are not complete, and negative `ell_min`

The functions of `mode_conversions.py` compute the largest `ell` from the length of the array and never check that the
length is that of a complete set of modes, nor that `ell_min` is not negative.
Specification: `CompleteModes l0 L a` (`a` holds exactly the modes `l0 ≤ ell ≤ L`), list concatenation, `modeAt`. -/

set_option autoImplicit false

namespace SF

/-- Every position of a complete array is that of a mode. -/
theorem CompleteModes.mode_of {l0 L : ℤ} {a : List ℂ} (h : CompleteModes l0 L a) {k : ℕ} (hk : k < a.length) :
    ∃ ell m, l0 ≤ ell ∧ ell ≤ L ∧ |m| ≤ ell ∧ (LM_index ell m l0).toNat = k := by
  obtain ⟨h0, h1, h2⟩ := h
  have hb : ((k : ℤ) + l0 ^ 2) < (L + 1) ^ 2 := by omega
  have hs0 : 0 ≤ (k : ℤ) + l0 ^ 2 := by positivity
  obtain ⟨j, hj⟩ := Int.eq_ofNat_of_zero_le hs0
  have e1 := Nat.sqrt_le' j
  have e2 := Nat.lt_succ_sqrt' j
  have f1 : ((Nat.sqrt j : ℤ)) ^ 2 ≤ j := by exact_mod_cast e1
  have f2 : (j : ℤ) < ((Nat.sqrt j : ℤ) + 1) ^ 2 := by exact_mod_cast e2
  set l : ℤ := (Nat.sqrt j : ℤ) with hl
  have l0' : 0 ≤ l := by omega
  have hl1 : l0 ≤ l := by
    by_contra hc
    have := sq_le_of (show 0 ≤ l + 1 by omega) (show l + 1 ≤ l0 by omega)
    omega
  have hl2 : l ≤ L := by
    by_contra hc
    have := sq_le_of (show 0 ≤ L + 1 by omega) (show L + 1 ≤ l by omega)
    omega
  have f3 : (l + 1) ^ 2 = l ^ 2 + (2 * l + 1) := by ring
  refine ⟨l, k + l0 ^ 2 - l ^ 2 - l, hl1, hl2, abs_le.mpr (by omega), ?_⟩
  rw [LM_index_flat]
  omega

/-- The loops act on the complete part of an array and leave the rest. -/
theorem conv_tail {l0 L : ℤ} {a b : List ℂ} (h : CompleteModes l0 L a) (hb' : (b.length : ℤ) < 2 * L + 3) (op : ℤ → ℂ → ℂ)
    (body : ℤ → List ℂ × ℤ → Py (List ℂ × ℤ))
    (hb : ∀ ell, l0 ≤ ell → ell ≤ L → ∀ (a : List ℂ) (i : ℕ), (i : ℤ) + (2 * ell + 1) ≤ a.length →
      ∃ a', body ell (a, (i : ℤ)) = .ok (a', (i : ℤ) + (2 * ell + 1)) ∧ a'.length = a.length ∧
        ∀ k : ℕ, a'[k]? = if i ≤ k ∧ (k : ℤ) < i + (2 * ell + 1) then (a[k]?).map (op ell) else a[k]?) :
    ∃ r, (conv_ell_max a.length l0 >>= fun ell_max =>
        forL (pyRange l0 (ell_max + 1)) (a, (0 : ℤ)) body >>= fun st => .ok st.1) = .ok r ∧ r.length = a.length ∧
      (conv_ell_max (a ++ b).length l0 >>= fun ell_max =>
        forL (pyRange l0 (ell_max + 1)) (a ++ b, (0 : ℤ)) body >>= fun st => .ok st.1) = .ok (r ++ b) := by
  have h' := h
  obtain ⟨k0, k1, k2⟩ := h
  have e : (L + 2) ^ 2 = (L + 1) ^ 2 + (2 * (L + 1) + 1) := by ring
  have el : ((a ++ b).length : ℤ) = a.length + b.length := by simp
  rw [conv_ell_max_ok (L := L) (by omega) (by omega) (by omega), bind_ok,
    conv_ell_max_ok (L := L) (by omega) (by omega) (by omega), bind_ok]
  obtain ⟨r, r1, r2, r3, -⟩ := convOuter_ok k0 a (by omega) body op hb
  obtain ⟨t, t1, t2, t3, t4⟩ := convOuter_ok k0 (a ++ b) (by omega) body op hb
  refine ⟨r, r1, r2, ?_⟩
  rw [t1]
  congr 1
  apply List.ext_getElem?
  intro k
  by_cases hk : k < a.length
  · obtain ⟨ell, m, q1, q2, q3, q4⟩ := h'.mode_of hk
    have a1 := t3 ell m q1 q2 q3
    have a2 := r3 ell m q1 q2 q3
    rw [q4] at a1 a2
    rw [a1, List.getElem?_append_left hk, List.getElem?_append_left (by omega), a2]
  · rw [t4 k (by omega), List.getElem?_append_right (by omega), List.getElem?_append_right (by omega), r2]

/-- The bodies of the loops of the five functions (for the proofs; the functions unfold to them). -/
noncomputable def eth_NP_step (s ell : ℤ) (st : List ℂ × ℤ) : Py (List ℂ × ℤ) := do
  let factor ← if ell < |s + 1| then .ok 0 else mathSqrt ((ell - s) * (ell + s + 1))
  convInner (· * (factor : ℂ)) ell st

noncomputable def eth_GHP_step (s ell : ℤ) (st : List ℂ × ℤ) : Py (List ℂ × ℤ) := do
  let factor ← if ell < |s + 1| then .ok 0 else mathSqrt ((ell - s) * (ell + s + 1) / 2)
  convInner (· * (factor : ℂ)) ell st

noncomputable def ethbar_NP_step (s ell : ℤ) (st : List ℂ × ℤ) : Py (List ℂ × ℤ) := do
  let factor ← if ell < |s - 1| then .ok 0 else (do let r ← mathSqrt ((ell + s) * (ell - s + 1)); return -r)
  convInner (· * (factor : ℂ)) ell st

noncomputable def ethbar_GHP_step (s ell : ℤ) (st : List ℂ × ℤ) : Py (List ℂ × ℤ) := do
  let factor ← if ell < |s - 1| then .ok 0 else (do let r ← mathSqrt ((ell + s) * (ell - s + 1) / 2); return -r)
  convInner (· * (factor : ℂ)) ell st

noncomputable def ethbar_inverse_step (s ell : ℤ) (st : List ℂ × ℤ) : Py (List ℂ × ℤ) :=
  let term : ℝ := (ell + s + 1) * (ell - s)
  if 0 < term then do
    let r ← mathSqrt term
    convInner (· / ((-r : ℝ) : ℂ)) ell st
  else .ok (st.1, st.2 + (2 * ell + 1))

theorem eth_NP_body (s : ℤ) {ell : ℤ} (hl : 0 ≤ ell) (a : List ℂ) (i : ℕ) (hi : (i : ℤ) + (2 * ell + 1) ≤ a.length) :
    ∃ a', eth_NP_step s ell (a, (i : ℤ)) = .ok (a', (i : ℤ) + (2 * ell + 1)) ∧ a'.length = a.length ∧
        ∀ k : ℕ, a'[k]? = if i ≤ k ∧ (k : ℤ) < i + (2 * ell + 1) then
          (a[k]?).map (· * ((if ell < |s + 1| then (0 : ℝ) else Real.sqrt ((ell - s) * (ell + s + 1)) : ℝ) : ℂ)) else a[k]? := by
  unfold eth_NP_step
  by_cases hs : ell < |s + 1|
  · simp only [if_pos hs, bind_ok]
    exact convInner_ok _ hl a i hi
  · have hh := abs_le.mp (not_lt.mp hs)
    have hx : (0 : ℝ) ≤ (ell - s) * (ell + s + 1) := by
      have : (0 : ℤ) ≤ (ell - s) * (ell + s + 1) := mul_nonneg (by omega) (by omega)
      exact_mod_cast this
    simp only [if_neg hs, mathSqrt_ok hx, bind_ok]
    exact convInner_ok _ hl a i hi

theorem eth_GHP_body (s : ℤ) {ell : ℤ} (hl : 0 ≤ ell) (a : List ℂ) (i : ℕ) (hi : (i : ℤ) + (2 * ell + 1) ≤ a.length) :
    ∃ a', eth_GHP_step s ell (a, (i : ℤ)) = .ok (a', (i : ℤ) + (2 * ell + 1)) ∧ a'.length = a.length ∧
        ∀ k : ℕ, a'[k]? = if i ≤ k ∧ (k : ℤ) < i + (2 * ell + 1) then
          (a[k]?).map (· * ((if ell < |s + 1| then (0 : ℝ) else Real.sqrt ((ell - s) * (ell + s + 1) / 2) : ℝ) : ℂ)) else a[k]? := by
  unfold eth_GHP_step
  by_cases hs : ell < |s + 1|
  · simp only [if_pos hs, bind_ok]
    exact convInner_ok _ hl a i hi
  · have hh := abs_le.mp (not_lt.mp hs)
    have hx : (0 : ℝ) ≤ (ell - s) * (ell + s + 1) / 2 := by
      have : (0 : ℤ) ≤ (ell - s) * (ell + s + 1) := mul_nonneg (by omega) (by omega)
      have : (0 : ℝ) ≤ (ell - s) * (ell + s + 1) := by exact_mod_cast this
      linarith
    simp only [if_neg hs, mathSqrt_ok hx, bind_ok]
    exact convInner_ok _ hl a i hi

theorem ethbar_NP_body (s : ℤ) {ell : ℤ} (hl : 0 ≤ ell) (a : List ℂ) (i : ℕ) (hi : (i : ℤ) + (2 * ell + 1) ≤ a.length) :
    ∃ a', ethbar_NP_step s ell (a, (i : ℤ)) = .ok (a', (i : ℤ) + (2 * ell + 1)) ∧ a'.length = a.length ∧
        ∀ k : ℕ, a'[k]? = if i ≤ k ∧ (k : ℤ) < i + (2 * ell + 1) then
          (a[k]?).map (· * ((if ell < |s - 1| then (0 : ℝ) else -Real.sqrt ((ell + s) * (ell - s + 1)) : ℝ) : ℂ)) else a[k]? := by
  unfold ethbar_NP_step
  by_cases hs : ell < |s - 1|
  · simp only [if_pos hs, bind_ok]
    exact convInner_ok _ hl a i hi
  · have hh := abs_le.mp (not_lt.mp hs)
    have hx : (0 : ℝ) ≤ (ell + s) * (ell - s + 1) := by
      have : (0 : ℤ) ≤ (ell + s) * (ell - s + 1) := mul_nonneg (by omega) (by omega)
      exact_mod_cast this
    simp only [if_neg hs, mathSqrt_ok hx, bind_ok]
    exact convInner_ok _ hl a i hi

theorem ethbar_GHP_body (s : ℤ) {ell : ℤ} (hl : 0 ≤ ell) (a : List ℂ) (i : ℕ) (hi : (i : ℤ) + (2 * ell + 1) ≤ a.length) :
    ∃ a', ethbar_GHP_step s ell (a, (i : ℤ)) = .ok (a', (i : ℤ) + (2 * ell + 1)) ∧ a'.length = a.length ∧
        ∀ k : ℕ, a'[k]? = if i ≤ k ∧ (k : ℤ) < i + (2 * ell + 1) then
          (a[k]?).map (· * ((if ell < |s - 1| then (0 : ℝ) else -Real.sqrt ((ell + s) * (ell - s + 1) / 2) : ℝ) : ℂ)) else a[k]? := by
  unfold ethbar_GHP_step
  by_cases hs : ell < |s - 1|
  · simp only [if_pos hs, bind_ok]
    exact convInner_ok _ hl a i hi
  · have hh := abs_le.mp (not_lt.mp hs)
    have hx : (0 : ℝ) ≤ (ell + s) * (ell - s + 1) / 2 := by
      have : (0 : ℤ) ≤ (ell + s) * (ell - s + 1) := mul_nonneg (by omega) (by omega)
      have : (0 : ℝ) ≤ (ell + s) * (ell - s + 1) := by exact_mod_cast this
      linarith
    simp only [if_neg hs, mathSqrt_ok hx, bind_ok]
    exact convInner_ok _ hl a i hi

theorem ethbar_inverse_body (s : ℤ) {ell : ℤ} (hl : 0 ≤ ell) (a : List ℂ) (i : ℕ) (hi : (i : ℤ) + (2 * ell + 1) ≤ a.length) :
    ∃ a', ethbar_inverse_step s ell (a, (i : ℤ)) = .ok (a', (i : ℤ) + (2 * ell + 1)) ∧ a'.length = a.length ∧
        ∀ k : ℕ, a'[k]? = if i ≤ k ∧ (k : ℤ) < i + (2 * ell + 1) then
          (a[k]?).map (if (0 : ℝ) < (ell + s + 1) * (ell - s) then
            (· / ((-Real.sqrt ((ell + s + 1) * (ell - s)) : ℝ) : ℂ)) else id) else a[k]? := by
  unfold ethbar_inverse_step
  simp only
  by_cases ht : (0 : ℝ) < (ell + s + 1) * (ell - s)
  · simp only [if_pos ht, mathSqrt_ok ht.le, bind_ok]
    exact convInner_ok _ hl a i hi
  · simp only [if_neg ht]
    exact ⟨a, rfl, rfl, fun k => by simp⟩

/-- **C95 (incomplete arrays).** Every array `c` is, for every `ell_min = l0 ≥ 0`, a complete array `a` followed by fewer entries `b`
than the next `ell` has.  None of the five functions raises an exception, and each returns what it returns for `a` alone followed by
`b` unchanged: the entries of an incomplete last `ell` are returned as they were given, without any warning — unless the array is too
short for `ell_min` alone (`L = l0 - 1`, `a` empty), in which case the whole array is returned as it was given. -/
theorem C95_incomplete (c : List ℂ) (s : ℤ) {l0 : ℤ} (h0 : 0 ≤ l0) : ∃ (L : ℤ) (a b : List ℂ), c = a ++ b ∧ CompleteModes l0 L a ∧
    (b.length : ℤ) < 2 * (L + 1) + 1 ∧
    (∃ r, eth_NP a s l0 = .ok r ∧ r.length = a.length ∧ eth_NP c s l0 = .ok (r ++ b)) ∧
    (∃ r, ethbar_NP a s l0 = .ok r ∧ r.length = a.length ∧ ethbar_NP c s l0 = .ok (r ++ b)) ∧
    (∃ r, eth_GHP a s l0 = .ok r ∧ r.length = a.length ∧ eth_GHP c s l0 = .ok (r ++ b)) ∧
    (∃ r, ethbar_GHP a s l0 = .ok r ∧ r.length = a.length ∧ ethbar_GHP c s l0 = .ok (r ++ b)) ∧
    (∃ r, ethbar_inverse_NP a s l0 = .ok r ∧ r.length = a.length ∧ ethbar_inverse_NP c s l0 = .ok (r ++ b)) := by
  have hs0 : 0 ≤ (c.length : ℤ) + l0 ^ 2 := by positivity
  obtain ⟨j, hj⟩ := Int.eq_ofNat_of_zero_le hs0
  have f1 : ((Nat.sqrt j : ℤ)) ^ 2 ≤ j := by exact_mod_cast Nat.sqrt_le' j
  have f2 : (j : ℤ) < ((Nat.sqrt j : ℤ) + 1) ^ 2 := by exact_mod_cast Nat.lt_succ_sqrt' j
  have hq : l0 ≤ (Nat.sqrt j : ℤ) := by
    by_contra hc
    have := sq_le_of (show 0 ≤ (Nat.sqrt j : ℤ) + 1 by omega) (show (Nat.sqrt j : ℤ) + 1 ≤ l0 by omega)
    omega
  obtain ⟨q, rfl⟩ : ∃ q : ℕ, q = Nat.sqrt j := ⟨_, rfl⟩
  have f3 : ((Nat.sqrt j : ℤ) + 1) ^ 2 = (Nat.sqrt j : ℤ) ^ 2 + (2 * (Nat.sqrt j : ℤ) + 1) := by ring
  have f4 := sq_le_of h0 hq
  set n : ℕ := ((Nat.sqrt j : ℤ) ^ 2 - l0 ^ 2).toNat with hn
  have hn' : (n : ℤ) = (Nat.sqrt j : ℤ) ^ 2 - l0 ^ 2 := by omega
  have hc : CompleteModes l0 ((Nat.sqrt j : ℤ) - 1) (c.take n) := by
    refine ⟨h0, by omega, ?_⟩
    rw [List.length_take, min_eq_left (by omega), hn']
    ring
  have hb : ((c.drop n).length : ℤ) < 2 * ((Nat.sqrt j : ℤ) - 1) + 3 := by
    rw [List.length_drop]
    omega
  have hsplit : c = c.take n ++ c.drop n := (List.take_append_drop n c).symm
  refine ⟨(Nat.sqrt j : ℤ) - 1, c.take n, c.drop n, hsplit, hc, by omega, ?_, ?_, ?_, ?_, ?_⟩
  · have := conv_tail hc hb (fun ell => (· * ((if ell < |s + 1| then (0 : ℝ) else Real.sqrt ((ell - s) * (ell + s + 1)) : ℝ) : ℂ))) (eth_NP_step s)
      (fun ell h1 _ a i hi => eth_NP_body s (h0.trans h1) a i hi)
    rw [← hsplit] at this
    exact this
  · have := conv_tail hc hb (fun ell => (· * ((if ell < |s - 1| then (0 : ℝ) else -Real.sqrt ((ell + s) * (ell - s + 1)) : ℝ) : ℂ))) (ethbar_NP_step s)
      (fun ell h1 _ a i hi => ethbar_NP_body s (h0.trans h1) a i hi)
    rw [← hsplit] at this
    exact this
  · have := conv_tail hc hb (fun ell => (· * ((if ell < |s + 1| then (0 : ℝ) else Real.sqrt ((ell - s) * (ell + s + 1) / 2) : ℝ) : ℂ))) (eth_GHP_step s)
      (fun ell h1 _ a i hi => eth_GHP_body s (h0.trans h1) a i hi)
    rw [← hsplit] at this
    exact this
  · have := conv_tail hc hb (fun ell => (· * ((if ell < |s - 1| then (0 : ℝ) else -Real.sqrt ((ell + s) * (ell - s + 1) / 2) : ℝ) : ℂ))) (ethbar_GHP_step s)
      (fun ell h1 _ a i hi => ethbar_GHP_body s (h0.trans h1) a i hi)
    rw [← hsplit] at this
    exact this
  · have := conv_tail hc hb (fun ell => (if (0 : ℝ) < (ell + s + 1) * (ell - s) then
            (· / ((-Real.sqrt ((ell + s + 1) * (ell - s)) : ℝ) : ℂ)) else id)) (ethbar_inverse_step s)
      (fun ell h1 _ a i hi => ethbar_inverse_body s (h0.trans h1) a i hi)
    rw [← hsplit] at this
    exact this

/-! ## Negative `ell_min` -/

theorem upd_err {α : Type} {a : List α} {i : ℤ} {f : α → α} (h0 : 0 ≤ i) (h1 : (a.length : ℤ) ≤ i) : upd a i f = .error .outOfBounds := by
  unfold upd npIdx
  rw [if_neg (by omega), if_neg (by omega)]

theorem conv_over (op : ℂ → ℂ) (xs : List ℤ) (a : List ℂ) (i : ℕ) (h1 : i ≤ a.length) (h2 : a.length < i + xs.length) :
    (forL xs (a, (i : ℤ)) fun _ st => do
      let a ← upd st.1 st.2 op
      return (a, st.2 + 1)) = .error .outOfBounds := by
  induction xs generalizing a i with
  | nil => simp at h2; omega
  | cons x xs ih =>
    rw [forL_cons]
    by_cases h : i = a.length
    · simp only
      rw [upd_err (by omega) (by omega)]
      rfl
    · simp only
      rw [upd_ok (by omega) (by omega), bind_ok]
      have := ih (a.modify i op) (i + 1) (by simp; omega) (by simp at h2 ⊢; omega)
      push_cast at this
      exact this

theorem convInner_over (op : ℂ → ℂ) {ell : ℤ} (a : List ℂ) (i : ℕ) (h1 : i ≤ a.length) (h2 : (a.length : ℤ) < i + (2 * ell + 1)) :
    convInner op ell (a, (i : ℤ)) = .error .outOfBounds := by
  unfold convInner
  apply conv_over op _ a i h1
  have : (pyRange (-ell) (ell + 1)).length = (ell + 1 - -ell).toNat := by simp [pyRange]
  omega

theorem convInner_neg (op : ℂ → ℂ) {ell : ℤ} (h : ell < 0) (st : List ℂ × ℤ) : convInner op ell st = .ok st := by
  unfold convInner
  rw [pyRange_empty (by omega), forL_nil]

/-- The step of a function, and what is needed of it. -/
structure StepLike (step : ℤ → List ℂ × ℤ → Py (List ℂ × ℤ)) : Prop where
  ok : ∀ ell, 0 ≤ ell → ∃ op, ∀ st, step ell st = convInner op ell st
  neg : ∀ ell, ell < 0 → ∀ st, step ell st = .ok st

theorem eth_NP_like (s : ℤ) : StepLike (eth_NP_step s) := by
  refine ⟨fun ell hl => ?_, fun ell hl st => ?_⟩
  · unfold eth_NP_step
    by_cases hs : ell < |s + 1|
    · exact ⟨_, fun st => by rw [if_pos hs, bind_ok]⟩
    · have hh := abs_le.mp (not_lt.mp hs)
      have hx : (0 : ℝ) ≤ (ell - s) * (ell + s + 1) := by
        have : (0 : ℤ) ≤ (ell - s) * (ell + s + 1) := mul_nonneg (by omega) (by omega)
        exact_mod_cast this
      exact ⟨_, fun st => by rw [if_neg hs, mathSqrt_ok hx, bind_ok]⟩
  · unfold eth_NP_step
    rw [if_pos (lt_of_lt_of_le hl (abs_nonneg _)), bind_ok]
    exact convInner_neg _ hl st

theorem eth_GHP_like (s : ℤ) : StepLike (eth_GHP_step s) := by
  refine ⟨fun ell hl => ?_, fun ell hl st => ?_⟩
  · unfold eth_GHP_step
    by_cases hs : ell < |s + 1|
    · exact ⟨_, fun st => by rw [if_pos hs, bind_ok]⟩
    · have hh := abs_le.mp (not_lt.mp hs)
      have hx : (0 : ℝ) ≤ (ell - s) * (ell + s + 1) / 2 := by
        have : (0 : ℤ) ≤ (ell - s) * (ell + s + 1) := mul_nonneg (by omega) (by omega)
        have : (0 : ℝ) ≤ (ell - s) * (ell + s + 1) := by exact_mod_cast this
        linarith
      exact ⟨_, fun st => by rw [if_neg hs, mathSqrt_ok hx, bind_ok]⟩
  · unfold eth_GHP_step
    rw [if_pos (lt_of_lt_of_le hl (abs_nonneg _)), bind_ok]
    exact convInner_neg _ hl st

theorem ethbar_NP_like (s : ℤ) : StepLike (ethbar_NP_step s) := by
  refine ⟨fun ell hl => ?_, fun ell hl st => ?_⟩
  · unfold ethbar_NP_step
    by_cases hs : ell < |s - 1|
    · exact ⟨_, fun st => by rw [if_pos hs, bind_ok]⟩
    · have hh := abs_le.mp (not_lt.mp hs)
      have hx : (0 : ℝ) ≤ (ell + s) * (ell - s + 1) := by
        have : (0 : ℤ) ≤ (ell + s) * (ell - s + 1) := mul_nonneg (by omega) (by omega)
        exact_mod_cast this
      exact ⟨_, fun st => by rw [if_neg hs, mathSqrt_ok hx, bind_ok]; rfl⟩
  · unfold ethbar_NP_step
    rw [if_pos (lt_of_lt_of_le hl (abs_nonneg _)), bind_ok]
    exact convInner_neg _ hl st

theorem ethbar_GHP_like (s : ℤ) : StepLike (ethbar_GHP_step s) := by
  refine ⟨fun ell hl => ?_, fun ell hl st => ?_⟩
  · unfold ethbar_GHP_step
    by_cases hs : ell < |s - 1|
    · exact ⟨_, fun st => by rw [if_pos hs, bind_ok]⟩
    · have hh := abs_le.mp (not_lt.mp hs)
      have hx : (0 : ℝ) ≤ (ell + s) * (ell - s + 1) / 2 := by
        have : (0 : ℤ) ≤ (ell + s) * (ell - s + 1) := mul_nonneg (by omega) (by omega)
        have : (0 : ℝ) ≤ (ell + s) * (ell - s + 1) := by exact_mod_cast this
        linarith
      exact ⟨_, fun st => by rw [if_neg hs, mathSqrt_ok hx, bind_ok]; rfl⟩
  · unfold ethbar_GHP_step
    rw [if_pos (lt_of_lt_of_le hl (abs_nonneg _)), bind_ok]
    exact convInner_neg _ hl st

theorem steps_neg {step : ℤ → List ℂ × ℤ → Py (List ℂ × ℤ)} (hs : StepLike step) {l0 M : ℤ} (h0 : l0 ≤ 0) (hM : 0 ≤ M) (st : List ℂ × ℤ) :
    forL (pyRange l0 M) st step = forL (pyRange 0 M) st step := by
  rw [pyRange_append h0 hM, forL_append]
  obtain ⟨st', e1, e2⟩ := forR_inv l0 0 h0 (fun _ s' => s' = st) st step rfl (by
    rintro ell s' h1 h2 rfl
    exact ⟨s', hs.neg ell h2 s', rfl⟩)
  rw [e1, bind_ok, e2]

theorem steps_over {step : ℤ → List ℂ × ℤ → Py (List ℂ × ℤ)} (hs : StepLike step) (a : List ℂ) {M : ℤ} (hM : 0 ≤ M)
    (h : (a.length : ℤ) < M ^ 2) : forL (pyRange 0 M) (a, (0 : ℤ)) step = .error .outOfBounds := by
  have f1 : ((Nat.sqrt a.length : ℤ)) ^ 2 ≤ a.length := by exact_mod_cast Nat.sqrt_le' a.length
  have f2 : (a.length : ℤ) < ((Nat.sqrt a.length : ℤ) + 1) ^ 2 := by exact_mod_cast Nat.lt_succ_sqrt' a.length
  set K : ℤ := (Nat.sqrt a.length : ℤ) with hK
  have hK0 : 0 ≤ K := by omega
  have hKM : K < M := by
    by_contra hc
    have := sq_le_of hM (not_lt.mp hc)
    omega
  rw [pyRange_append hK0 hKM.le, forL_append, pyRange_cons hKM]
  obtain ⟨st, e1, e2, e3⟩ := forR_inv 0 K hK0 (fun n (st : List ℂ × ℤ) => st.2 = n ^ 2 ∧ st.1.length = a.length) (a, (0 : ℤ)) step
    (by simp) (by
      rintro ell ⟨c, j⟩ h1 h2 ⟨g1, g2⟩
      simp only at g1 g2
      obtain ⟨op, hop⟩ := hs.ok ell h1
      obtain ⟨i, hi⟩ := Int.eq_ofNat_of_zero_le (sq_nonneg ell)
      have hq := sq_le_of (show 0 ≤ ell + 1 by omega) (show ell + 1 ≤ K by omega)
      have hr : (ell + 1) ^ 2 = ell ^ 2 + (2 * ell + 1) := by ring
      obtain ⟨a', b1, b2, -⟩ := convInner_ok op h1 c i (by omega)
      refine ⟨(a', (i : ℤ) + (2 * ell + 1)), ?_, by simp only; omega, by simp only; omega⟩
      rw [hop, g1, hi]
      exact b1)
  rw [e1, bind_ok, forL_cons]
  obtain ⟨c, j⟩ := st
  simp only at e2 e3
  obtain ⟨op, hop⟩ := hs.ok K hK0
  obtain ⟨i, hi⟩ := Int.eq_ofNat_of_zero_le (sq_nonneg K)
  have hr : (K + 1) ^ 2 = K ^ 2 + (2 * K + 1) := by ring
  rw [hop, e2, hi, convInner_over op c i (by omega) (by omega)]
  rfl

theorem conv_neg {step : ℤ → List ℂ × ℤ → Py (List ℂ × ℤ)} (hs : StepLike step) (a : List ℂ) {l0 : ℤ} (h0 : l0 < 0) :
    ((∃ q : ℤ, (a.length : ℤ) < q ^ 2 ∧ q ^ 2 ≤ a.length + l0 ^ 2) → (conv_ell_max a.length l0 >>= fun ell_max =>
        forL (pyRange l0 (ell_max + 1)) (a, (0 : ℤ)) step >>= fun st => .ok st.1) = .error .outOfBounds) ∧
    ((¬ ∃ q : ℤ, (a.length : ℤ) < q ^ 2 ∧ q ^ 2 ≤ a.length + l0 ^ 2) → (conv_ell_max a.length l0 >>= fun ell_max =>
        forL (pyRange l0 (ell_max + 1)) (a, (0 : ℤ)) step >>= fun st => .ok st.1) = (conv_ell_max a.length 0 >>= fun ell_max =>
        forL (pyRange 0 (ell_max + 1)) (a, (0 : ℤ)) step >>= fun st => .ok st.1)) := by
  have hs0 : 0 ≤ (a.length : ℤ) + l0 ^ 2 := by positivity
  obtain ⟨j, hj⟩ := Int.eq_ofNat_of_zero_le hs0
  have f1 : ((Nat.sqrt j : ℤ)) ^ 2 ≤ j := by exact_mod_cast Nat.sqrt_le' j
  have f2 : (j : ℤ) < ((Nat.sqrt j : ℤ) + 1) ^ 2 := by exact_mod_cast Nat.lt_succ_sqrt' j
  set M : ℤ := (Nat.sqrt j : ℤ) with hM
  have hM0 : 0 ≤ M := by omega
  have e1 : (M - 1 + 1) ^ 2 = M ^ 2 := by ring
  have e2 : (M - 1 + 2) ^ 2 = (M + 1) ^ 2 := by ring
  rw [conv_ell_max_ok (L := M - 1) (l0 := l0) (by omega) (by omega) (by omega), bind_ok, sub_add_cancel,
    steps_neg hs h0.le hM0]
  refine ⟨?_, fun hq => ?_⟩
  · rintro ⟨q, q1, q2⟩
    have : q ^ 2 ≤ M ^ 2 := by
      have hq : |q| ≤ M := by
        by_contra hc
        have := sq_le_of (show 0 ≤ M + 1 by omega) (show M + 1 ≤ |q| by omega)
        rw [sq_abs] at this
        omega
      have := sq_le_of (abs_nonneg q) hq
      rwa [sq_abs] at this
    rw [steps_over hs a hM0 (by omega)]
    rfl
  · have hle : M ^ 2 ≤ a.length := by
      by_contra hc
      exact hq ⟨M, by omega, by omega⟩
    have := sq_nonneg l0
    rw [conv_ell_max_ok (L := M - 1) (l0 := 0) (by omega) (by omega) (by omega), bind_ok, sub_add_cancel]

/-- **C95 (negative `ell_min`).** `ell_min < 0` is not refused.  If there is a square between the length and the length plus
`ell_min²`, each of the four eth functions accesses an element past the end of the array (compiled code does not check it: memory that does
not belong to the array is changed).  Otherwise they return the same as for `ell_min = 0`. -/
theorem C95_negative_ell_min (a : List ℂ) (s : ℤ) {l0 : ℤ} (h0 : l0 < 0) :
    ((∃ q : ℤ, (a.length : ℤ) < q ^ 2 ∧ q ^ 2 ≤ a.length + l0 ^ 2) →
      eth_NP a s l0 = .error .outOfBounds ∧ ethbar_NP a s l0 = .error .outOfBounds ∧
      eth_GHP a s l0 = .error .outOfBounds ∧ ethbar_GHP a s l0 = .error .outOfBounds) ∧
    ((¬ ∃ q : ℤ, (a.length : ℤ) < q ^ 2 ∧ q ^ 2 ≤ a.length + l0 ^ 2) →
      eth_NP a s l0 = eth_NP a s 0 ∧ ethbar_NP a s l0 = ethbar_NP a s 0 ∧
      eth_GHP a s l0 = eth_GHP a s 0 ∧ ethbar_GHP a s l0 = ethbar_GHP a s 0) :=
  ⟨fun h => ⟨(conv_neg (eth_NP_like s) a h0).1 h, (conv_neg (ethbar_NP_like s) a h0).1 h, (conv_neg (eth_GHP_like s) a h0).1 h,
    (conv_neg (ethbar_GHP_like s) a h0).1 h⟩,
   fun h => ⟨(conv_neg (eth_NP_like s) a h0).2 h, (conv_neg (ethbar_NP_like s) a h0).2 h, (conv_neg (eth_GHP_like s) a h0).2 h,
    (conv_neg (ethbar_GHP_like s) a h0).2 h⟩⟩

/-- Five entries: the fifth is not transformed, although its `ell = 2` would be multiplied by `√6`; whatever the fifth entry is. -/
example (z : ℂ) : ∃ r, eth_NP [1, 1, 1, 1] 0 0 = .ok r ∧ eth_NP [1, 1, 1, 1, z] 0 0 = .ok (r ++ [z]) := by
  obtain ⟨L, a, b, e1, e2, e3, ⟨r, r1, -, r3⟩, -⟩ := C95_incomplete [1, 1, 1, 1, z] 0 (l0 := 0) le_rfl
  have hl : a.length + b.length = 5 := by
    have := congrArg List.length e1
    simp at this
    omega
  have h2 := e2.2.2
  have h1 := e2.2.1
  have hL : L = 1 := by
    have : L < 2 := by nlinarith
    have : -1 ≤ L := by omega
    have : ¬ L ≤ 0 := by
      intro hc
      have : L = -1 ∨ L = 0 := by omega
      rcases this with rfl | rfl
      · have : (a.length : ℤ) = 0 := by rw [h2]; norm_num
        omega
      · have : (a.length : ℤ) = 1 := by rw [h2]; norm_num
        omega
    omega
  subst hL
  have h4 : a.length = 4 := by norm_num at h2; omega
  match a, b, e1, h4 with
  | [x1, x2, x3, x4], b, e1, _ =>
    simp at e1
    obtain ⟨rfl, rfl, rfl, rfl, rfl⟩ := e1
    exact ⟨r, r1, r3⟩

/-- An empty array with `ell_min = -1`. -/
example (s : ℤ) : eth_NP [] s (-1) = .error .outOfBounds :=
  ((C95_negative_ell_min [] s (by norm_num)).1 ⟨1, by norm_num⟩).1

/-- A case without error. -/
example (x y z : ℂ) (s : ℤ) : eth_NP [x, 0, y, z, 0] s (-1) = eth_NP [x, 0, y, z, 0] s 0 :=
  ((C95_negative_ell_min [x, 0, y, z, 0] s (by norm_num)).2 (by
    rintro ⟨q, q1, q2⟩
    norm_num at q1 q2
    have : q < 3 := by nlinarith
    have : -3 < q := by nlinarith
    have : q = -2 ∨ q = -1 ∨ q = 0 ∨ q = 1 ∨ q = 2 := by omega
    rcases this with rfl | rfl | rfl | rfl | rfl <;> norm_num at q1)).1

end SF
