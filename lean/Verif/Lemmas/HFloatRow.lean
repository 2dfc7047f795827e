import Verif.Lemmas.HFloat

/-! # Step 2 of the H recursion in floating-point arithmetic -/

set_option autoImplicit false

namespace SF

section
variable {J : ℕ} {F : W3Ops} {u : ℝ} {η : Fin J → ℝ} {co' si' co si : HRow J} (R : HRows F u η co' si' co si)

include R in
theorem h_row2F_ok {N : ℕ} {g h : List ℝ} {n : ℕ} (hn : 2 ≤ n) (hnN : n ≤ N + 1) {n0n : ℤ} {H : List (HRow J)}
    (hB : (n : ℤ) ≤ n0n) (hlen : n0n < H.length) {prev : HRow J} (hprev : RowApp η (hCn N ^ (n - 1)) prev (fun _ => hatTop (n - 1)))
    (hg : ∀ m : ℤ, 0 ≤ m → m < n → ∃ y, rd g (nm_index n m) = .ok y ∧ Near u 7 y (gco n m))
    (hh : ∀ m : ℤ, 0 ≤ m → m < n → ∃ y, rd h (nm_index n m) = .ok y ∧ Near u 7 y (hco n m)) :
    ∃ H', h_row2F F g h co' si' n n0n (nm_index n n) prev H = .ok H' ∧ H'.length = H.length ∧
      AtA η (hCn N ^ n) H' n0n (fun _ => hatTop n) ∧
      (∀ m : ℕ, m < n → AtA η (hCn N ^ (2 * n + 2)) H' (n0n - n + m) (rowV co si n m)) ∧
      ∀ k u, k < n0n - n ∨ n0n < k → At H k u → At H' k u := by
  have nmi : ∀ i : ℤ, nm_index n n - i = nm_index n (n - i) := fun i => by unfold nm_index; ring
  have gb : ∀ m : ℤ, 0 ≤ m → m < n → |gco n m| ≤ 2 * ((N : ℝ) + 2) := fun m h0 h1 =>
    coN (n := n) (by omega) (gco_le h0 h1) (.inl (by push_cast; linarith))
  have hb : ∀ m : ℤ, 0 ≤ m → m < n → |hco n m| ≤ 2 * ((N : ℝ) + 2) := fun m h0 h1 =>
    coN (n := n) (by omega) (hco_le h0 h1) (.inr (by norm_num))
  unfold h_row2F
  simp only [nmi]
  obtain ⟨g1, eg1, ng1⟩ := hg (n - 1) (by omega) (by omega)
  rw [eg1, bind_ok]
  set r0 : HRow J := fun j => F.mul (F.sqrt (F.add 1 (F.div 0.5 (F.ofInt (n : ℤ))))) (prev j) with hr0
  obtain ⟨H1, e1, l1, a1, f1⟩ := wr_at (L := H) (i := n0n) r0 (by omega) hlen
  have ht : RowApp η (hCn N ^ n) r0 (hatR co si n 0) := fun j => by
    have h1 := (R.ok j).st_top (N := N) (n := n) (by omega) (hprev j)
    obtain ⟨k, rfl⟩ : ∃ k, n = k + 1 := ⟨n - 1, by omega⟩
    rw [Nat.add_sub_cancel] at h1
    rw [pow_succ']
    show App _ _ _ (hatTop (k + 1))
    rw [hatTop_succ]
    push_cast at h1 ⊢
    exact h1
  rw [e1, bind_ok, a1.rd, bind_ok]
  set r1 : HRow J := fun j => F.mul (F.mul g1 (co' j)) (r0 j) with hr1
  obtain ⟨H2, e2, l2, a2, f2⟩ := wr_at (L := H1) (i := n0n - 1) r1 (by omega) (by omega)
  have ht1 : RowApp η (hCn N ^ (n + 1)) r1 (hatR co si n 1) := fun j => by
    rw [pow_succ']
    exact (R.ok j).st_one ng1 (gb _ (by omega) (by omega)) (R.co j) (ht j)
  rw [e2, bind_ok]
  -- loop over m = n-2, ..., 1
  obtain ⟨H3, e3, l3, a3, f3⟩ := forR_inv 2 (n : ℤ) (by omega)
    (fun i (L : List (HRow J)) => L.length = H.length ∧
      (∀ k : ℕ, (k : ℤ) < i → AtA η (hCn N ^ (n + k)) L (n0n - k) (hatR co si n k)) ∧
      ∀ k u, k < n0n - n ∨ n0n < k → At H k u → At L k u) H2
    (fun i H => do
      let gi ← rd g (nm_index n (n - i))
      let hi ← rd h (nm_index n (n - i))
      let x1 ← rd H (n0n - i + 1)
      let x2 ← rd H (n0n - i + 2)
      wr H (n0n - i) (fun j => F.add (F.mul (F.mul gi (co' j)) (x1 j)) (-F.mul (F.mul hi (F.mul (si' j) (si' j))) (x2 j))))
    ⟨by rw [l2, l1], fun k hk => by
        match k with
        | 0 => exact ⟨r0, by simpa using f2 _ _ (by omega) a1, ht⟩
        | 1 => exact ⟨r1, by simpa using a2, ht1⟩
        | k + 2 => omega,
      fun k u hk hu => f2 _ _ (by omega) (f1 _ _ (by omega) hu)⟩
    (fun i L hi1 hi2 ⟨hl, ha, hf⟩ => by
      obtain ⟨k, rfl⟩ : ∃ k : ℕ, i = ((k + 2 : ℕ) : ℤ) := ⟨(i - 2).toNat, by omega⟩
      obtain ⟨y1, x1, z1⟩ := ha (k + 1) (by omega)
      obtain ⟨y2, x2, z2⟩ := ha k (by omega)
      rw [show n0n - ((k + 1 : ℕ) : ℤ) = n0n - ((k + 2 : ℕ) : ℤ) + 1 by push_cast; ring] at x1
      rw [show n0n - ((k : ℕ) : ℤ) = n0n - ((k + 2 : ℕ) : ℤ) + 2 by push_cast; ring] at x2
      obtain ⟨gi, egi, ngi⟩ := hg ((n : ℤ) - ((k + 2 : ℕ) : ℤ)) (by omega) (by omega)
      obtain ⟨hi, ehi, nhi⟩ := hh ((n : ℤ) - ((k + 2 : ℕ) : ℤ)) (by omega) (by omega)
      rw [egi, bind_ok, ehi, bind_ok, x1.rd, bind_ok, x2.rd, bind_ok]
      obtain ⟨L', e, l, a, f⟩ := wr_at (L := L) (i := n0n - ((k + 2 : ℕ) : ℤ))
        (fun j => F.add (F.mul (F.mul gi (co' j)) (y1 j)) (-F.mul (F.mul hi (F.mul (si' j) (si' j))) (y2 j))) (by omega) (by omega)
      refine ⟨L', e, by rw [l, hl], fun t ht => ?_, fun t u ht hu => f _ _ (by omega) (hf t u ht hu)⟩
      by_cases hteq : t = k + 2
      · subst hteq
        refine ⟨_, a, fun j => ?_⟩
        rw [show n + (k + 2) = n + (k + 1) + 1 by omega, pow_succ']
        exact (R.ok j).st_rec ngi (gb _ (by omega) (by omega)) nhi (hb _ (by omega) (by omega)) (R.co j) (R.si j) (z1 j)
          ((z2 j).mono (R.ok j).nonneg (hCpow_mono (by omega)))
      · obtain ⟨y, q1, q2⟩ := ha t (by omega)
        exact ⟨y, f _ _ (by omega) q1, q2⟩)
  rw [e3, bind_ok]
  simp only [sub_self]
  obtain ⟨g0, eg0, ng0⟩ := hg 0 le_rfl (by omega)
  obtain ⟨h0, eh0, nh0⟩ := hh 0 le_rfl (by omega)
  rw [eg0, bind_ok, eh0, bind_ok]
  obtain ⟨k, rfl⟩ : ∃ k : ℕ, n = k + 2 := ⟨n - 2, by omega⟩
  obtain ⟨y1, x1, z1⟩ := a3 (k + 1) (by omega)
  obtain ⟨y2, x2, z2⟩ := a3 k (by omega)
  rw [show n0n - ((k + 1 : ℕ) : ℤ) = n0n - ((k + 2 : ℕ) : ℤ) + 1 by push_cast; ring] at x1
  rw [show n0n - ((k : ℕ) : ℤ) = n0n - ((k + 2 : ℕ) : ℤ) + 2 by push_cast; ring] at x2
  rw [x1.rd, bind_ok, x2.rd, bind_ok]
  set q0 : HRow J := fun j => F.div (F.add (F.mul (F.mul g0 (co' j)) (y1 j)) (-F.mul (F.mul h0 (F.mul (si' j) (si' j))) (y2 j)))
    (F.sqrt (F.ofInt (4 * ((k + 2 : ℕ) : ℤ) + 2))) with hq0
  obtain ⟨H4, e4, l4, a4, f4⟩ := wr_at (L := H3) (i := n0n - ((k + 2 : ℕ) : ℤ)) q0 (by omega) (by omega)
  have hv0 : RowApp η (hCn N ^ (2 * (k + 2) + 2)) q0 (rowV co si (k + 2) 0) := fun j => by
    have key := (R.ok j).st_div (n := ((k + 2 : ℕ) : ℤ)) (by omega) ng0 (gb _ (by omega) (by omega)) nh0 (hb _ (by omega) (by omega))
      (R.co j) (R.si j) (z1 j) ((z2 j).mono (R.ok j).nonneg (hCpow_mono (by omega)))
    rw [← pow_succ'] at key
    have e : (gco ((k + 2 : ℕ) : ℤ) 0 * co j * hatR co si (k + 2) (k + 1) j
        - hco ((k + 2 : ℕ) : ℤ) 0 * si j ^ 2 * hatR co si (k + 2) k j) / Real.sqrt (4 * (((k + 2 : ℕ) : ℤ) : ℝ) + 2)
        = rowV co si (k + 2) 0 j := by
      unfold rowV
      simp only [pow_zero, one_mul, Nat.sub_zero, hatI, hatR, sub_self]
      simp
    rw [e] at key
    exact key.mono (R.ok j).nonneg (hCpow_mono (by omega))
  rw [e4, bind_ok]
  -- normalization
  obtain ⟨st, e5, l5, p5, t5, z5, b5, a5, f5⟩ := forR_inv 1 ((k + 2 : ℕ) : ℤ) (by omega)
    (fun i (st : List (HRow J) × HRow J) => st.1.length = H.length ∧
      RowApp η (hCn N ^ i.toNat) st.2 (fun j => 1 / Real.sqrt (4 * (((k + 2 : ℕ) : ℤ) : ℝ) + 2) * si j ^ (i - 1).toNat) ∧
      AtA η (hCn N ^ (k + 2)) st.1 n0n (fun _ => hatTop (k + 2)) ∧
      AtA η (hCn N ^ (2 * (k + 2) + 2)) st.1 (n0n - ((k + 2 : ℕ) : ℤ)) (rowV co si (k + 2) 0) ∧
      (∀ m : ℕ, 1 ≤ m → (m : ℤ) < i → AtA η (hCn N ^ (2 * (k + 2) + 2)) st.1 (n0n - ((k + 2 : ℕ) : ℤ) + m) (rowV co si (k + 2) m)) ∧
      (∀ m : ℕ, i ≤ m → m < k + 2 → AtA η (hCn N ^ (k + 2 + (k + 2 - m))) st.1 (n0n - ((k + 2 : ℕ) : ℤ) + m)
        (hatR co si (k + 2) (k + 2 - m))) ∧
      ∀ t u, t < n0n - ((k + 2 : ℕ) : ℤ) ∨ n0n < t → At H t u → At st.1 t u)
    (H4, ((fun _ => F.div 1 (F.sqrt (F.ofInt (4 * ((k + 2 : ℕ) : ℤ) + 2)))) : HRow J))
    (fun i st => do
      let pre : HRow J := fun j => F.mul (st.2 j) (si' j)
      let H ← upd st.1 (n0n - ((k + 2 : ℕ) : ℤ) + i) (fun x j => F.mul (x j) (pre j))
      return (H, pre))
    ⟨by rw [l4, l3], fun j => by
        have := (R.ok j).st_pre (N := N) (n := ((k + 2 : ℕ) : ℤ)) (by omega)
        simpa using this,
      by obtain ⟨y, q1, q2⟩ := a3 0 (by omega)
         exact ⟨y, f4 _ _ (by omega) (by rw [Nat.cast_zero, sub_zero] at q1; exact q1), q2⟩, ⟨_, a4, hv0⟩,
      fun m h1 h2 => by omega, fun m h1 h2 => by
        obtain ⟨y, q1, q2⟩ := a3 (k + 2 - m) (by omega)
        refine ⟨y, f4 _ _ (by omega) ?_, q2⟩
        rwa [show n0n - ((k + 2 - m : ℕ) : ℤ) = n0n - ((k + 2 : ℕ) : ℤ) + m by omega] at q1,
      fun t u ht hu => f4 _ _ (by omega) (f3 t u ht hu)⟩
    (fun i st hi1 hi2 ⟨hl, hp, ht, hz, hb, ha, hf⟩ => by
      obtain ⟨m, rfl⟩ : ∃ m : ℕ, i = m := ⟨i.toNat, by omega⟩
      obtain ⟨ym, hm, hm2⟩ := ha m le_rfl (by omega)
      obtain ⟨L', e, l, a, f⟩ := upd_at (fun x j => F.mul (x j) (F.mul (st.2 j) (si' j))) hm
      have fA : ∀ {B : ℝ} {t : ℤ} {v : HRow J}, t ≠ n0n - ((k + 2 : ℕ) : ℤ) + (m : ℤ) → AtA η B st.1 t v → AtA η B L' t v :=
        fun ht ⟨y, q1, q2⟩ => ⟨y, f _ _ ht q1, q2⟩
      have hpre : RowApp η (hCn N ^ (m + 1)) (fun j => F.mul (st.2 j) (si' j))
          (fun j => 1 / Real.sqrt (4 * (((k + 2 : ℕ) : ℤ) : ℝ) + 2) * si j ^ m) := fun j => by
        have := (R.ok j).st_mul1 (N := N) (hp j) (R.si j)
        rw [← pow_succ', Int.toNat_natCast] at this
        have e : 1 / Real.sqrt (4 * (((k + 2 : ℕ) : ℤ) : ℝ) + 2) * si j ^ ((m : ℤ) - 1).toNat * si j
            = 1 / Real.sqrt (4 * (((k + 2 : ℕ) : ℤ) : ℝ) + 2) * si j ^ m := by
          rw [mul_assoc, ← pow_succ, show ((m : ℤ) - 1).toNat + 1 = m by omega]
        rw [e] at this
        exact this
      refine ⟨(L', fun j => F.mul (st.2 j) (si' j)), ?_, by rw [l, hl], ?_, fA (by omega) ht, fA (by omega) hz,
        fun t h1 h2 => ?_, fun t h1 h2 => fA (by omega) (ha t (by omega) h2),
        fun t u h1 hu => f _ _ (by omega) (hf t u h1 hu)⟩
      · simp only [e, bind_ok]; rfl
      · rw [show ((m : ℤ) + 1).toNat = m + 1 by omega, show ((m : ℤ) + 1 - 1).toNat = m by omega]; exact hpre
      · by_cases hteq : t = m
        · subst hteq
          refine ⟨_, a, fun j => ?_⟩
          have key := (R.ok j).st_mul (N := N) (hm2 j) (hpre j)
          have e : hatR co si (k + 2) (k + 2 - t) j * (1 / Real.sqrt (4 * (((k + 2 : ℕ) : ℤ) : ℝ) + 2) * si j ^ t)
              = rowV co si (k + 2) t j := by
            simp only [rowV, hatR]
            push_cast; ring
          beta_reduce at key
          rw [e, ← pow_add, ← pow_succ'] at key
          exact key.mono (R.ok j).nonneg (hCpow_mono (by omega))
        · exact fA (by omega) (hb t h1 (by omega)))
  refine ⟨st.1, ?_, l5, t5, fun m hm => ?_, fun t u ht hu => f5 t u ht hu⟩
  · simp only at e5 ⊢
    rw [e5]; rfl
  · by_cases h0 : m = 0
    · subst h0; simpa using z5
    · exact b5 m (by omega) (by omega)

end

end SF
