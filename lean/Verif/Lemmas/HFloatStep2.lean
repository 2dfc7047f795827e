import Verif.Lemmas.HFloatRow

/-! # Step 2 of the H recursion in floating-point arithmetic -/

set_option autoImplicit false

namespace SF

/-- Error bound after step 2. -/
noncomputable def hL2 (N : ℕ) : ℝ := hCn N ^ (2 * N + 4)

theorem hL2_ge {N a : ℕ} (h : a ≤ 2 * N + 4) : hCn N ^ a ≤ hL2 N := hCpow_mono h

theorem h_step_2F_ok {J : ℕ} {F : W3Ops} {u : ℝ} {η : Fin J → ℝ} {co' si' : HRow J} {β : Fin J → ℝ}
    (R : HRows F u η co' si' (fun j => Real.cos (β j)) (fun j => Real.sin (β j)))
    {idx : ℤ → ℤ → ℤ → ℤ} {N size : ℕ} (hN : 1 ≤ N) (G : GoodIdx idx N size) {C : HCoef}
    (GC : GoodCoefF u C N) {A : HArr J} (hw : A.w.length = size) (hv : A.v.length = (N + 1) ^ 2)
    (hx : A.x.length = N + 2) (h0 : AtA η (hL2 N) A.w (idx 0 0 0) (Hs β 0 0 0)) :
    ∃ A', h_step_2F F idx C.g C.h C.n_max co' si' A = .ok A' ∧
      A'.w.length = size ∧ A'.v.length = (N + 1) ^ 2 ∧ A'.x.length = N + 2 ∧
      (∀ n m : ℤ, 0 ≤ m → m ≤ n → n ≤ N → AtA η (hL2 N) A'.w (idx n 0 m) (Hs β n 0 m)) ∧
      (∀ m : ℤ, 0 ≤ m → m ≤ N + 1 → AtA η (hL2 N) A'.x m (Hs β (N + 1) 0 m)) ∧
      (∀ n : ℤ, 1 ≤ n → n ≤ N → AtA η (hL2 N) A'.v (nm_index n 1) (Hs β n 1 0) ∧
        AtA η (hL2 N) A'.v (nm_index n 0) (Hs β n 0 (-1))) := by
  have W0 : ∀ {n m : ℤ}, 0 ≤ m → m ≤ n → n ≤ N → Spec.IsWedge N (n, 0, m) := fun h1 h2 h3 => wedge_iff.2 (by omega)
  have s01 : ∀ n : ℤ, 1 ≤ n → Hs β n 0 1 = Hs β n 1 0 := fun n hn =>
    Hs_symm β (by rw [abs_le]; omega) (by rw [abs_le]; omega)
  have s0m : ∀ n : ℤ, 1 ≤ n → Hs β n 0 1 = Hs β n 0 (-1) := fun n hn => by
    have := Hs_neg β (n := n) (mp := 0) (m := 1) (by rw [abs_le]; omega) (by rw [abs_le]; omega)
    rw [← this, neg_zero]
  have ne1 : ∀ n : ℤ, 1 ≤ n → |(1 : ℤ)| ≤ n := fun n hn => by rw [abs_le]; omega
  have ne0 : ∀ n : ℤ, 0 ≤ n → |(0 : ℤ)| ≤ n := fun n hn => by rw [abs_le]; omega
  have mv : ∀ {P : ℤ → Prop} {L L' : List (HRow J)}, (∀ k u, P k → At L k u → At L' k u) →
      ∀ {B : ℝ} {k : ℤ} {v : HRow J}, P k → AtA η B L k v → AtA η B L' k v :=
    fun f _ _ _ hk ⟨y, q1, q2⟩ => ⟨y, f _ _ hk q1, q2⟩
  unfold h_step_2F
  simp only [GC.n_max]
  -- n = 1
  have r11 := G.range _ _ _ (W0 (n := 1) (m := 1) (by omega) le_rfl (by omega))
  have l10 : idx 1 0 1 - 1 = idx 1 0 0 := by have := G.lin 1 0 0 1; rw [zero_add] at this; omega
  have r10 := G.range _ _ _ (W0 (n := 1) (m := 0) (by omega) (by omega) (by omega))
  obtain ⟨w1, e1, l1, a1, f1⟩ := wr_at (L := A.w) (i := idx 1 0 1) (fun _ : Fin J => F.sqrt (F.ofInt 3)) r11.1 (by omega)
  obtain ⟨g1, eg1, ng1⟩ := GC.g 1 0 le_rfl (by omega) (by omega)
  rw [e1, bind_ok, show nm_index 1 1 - 1 = nm_index 1 0 by decide, eg1, bind_ok, l10]
  have ht1 : RowApp η (hCn N ^ 1) (fun _ : Fin J => F.sqrt (F.ofInt 3)) (fun _ => hatTop 1) := fun j => by
    have h3 : |Real.sqrt 3| ≤ 3 := by
      rw [abs_of_nonneg (Real.sqrt_nonneg _), Real.sqrt_le_left (by norm_num)]; norm_num
    have := (R.ok j).near (k := 2) (by norm_num) ((R.ok j).sqrt ((R.ok j).ofInt 3) (by norm_num)) (by simpa using h3)
    rw [pow_one]
    have key := this.mono (R.ok j).nonneg (B' := hCn N) (by linarith [hCn_ge' N])
    simpa [hatTop] using key
  set w10 : HRow J := fun j => F.div (F.mul g1 (co' j)) (F.sqrt (F.ofInt 2)) with hw10
  obtain ⟨w2, e2, l2, a2, f2⟩ := wr_at (L := w1) (i := idx 1 0 0) w10 r10.1 (by omega)
  have hv10 : RowApp η (hL2 N) w10 (Hs β 1 0 0) := fun j => by
    have key : App (η j) (112 * (7 * hDn N * 1)) (w10 j) (gco 1 0 * Real.cos (β j) / Real.sqrt 2) := by
      have n2 := (R.ok j).sqrt ((R.ok j).ofInt 2) (by norm_num)
      have g2 : |Real.sqrt 2| ≥ 1 := by
        rw [abs_of_nonneg (Real.sqrt_nonneg _), ge_iff_le, Real.one_le_sqrt]; norm_num
      have := (R.ok j).div (by norm_num) ((R.ok j).mul ((R.ok j).coef (N := N) (by norm_num) ng1
        (coN (n := 1) (by omega) (gco_le le_rfl (by omega)) (.inl (by norm_num)))) (R.co j)) n2 (by simpa using g2)
      simpa using this
    have e : gco 1 0 * Real.cos (β j) / Real.sqrt 2 = Hs β 1 0 0 j := by
      rw [show (Hs β 1 0 0) = Hs β ((1 : ℕ) : ℤ) 0 ((0 : ℕ) : ℤ) from rfl, ← rowV_eq β (by omega)]
      unfold rowV
      show _ = Real.sin (β j) ^ 0 * (gco 1 (1 - 1) * Real.cos (β j) * Real.sqrt 3) / Real.sqrt (4 * ((1 : ℕ) : ℝ) + 2)
      rw [show (4 * ((1 : ℕ) : ℝ) + 2) = 2 * 3 by norm_num, Real.sqrt_mul (by norm_num), sub_self]
      have h2 : Real.sqrt 2 ≠ 0 := by positivity
      have h3 : Real.sqrt 3 ≠ 0 := by positivity
      field_simp
    rw [e] at key
    refine key.mono (R.ok j).nonneg (le_trans ?_ (hL2_ge (a := 1) (by omega)))
    rw [pow_one]; linarith [hCn_ge N, hDn_ge N]
  rw [e2, bind_ok]
  -- main loop
  obtain ⟨A3, e3, lw3, lv3, lx3, p0, p1, p2, p3, p4⟩ := forR_inv 2 ((N : ℤ) + 2) (by omega)
    (fun n (A : HArr J) => A.w.length = size ∧ A.v.length = (N + 1) ^ 2 ∧ A.x.length = N + 2 ∧
      AtA η (hL2 N) A.w (idx 0 0 0) (Hs β 0 0 0) ∧
      (∀ k m : ℕ, 1 ≤ k → (k : ℤ) < n → k ≤ N → m < k → AtA η (hL2 N) A.w (idx k 0 m) (Hs β k 0 m)) ∧
      (∀ k : ℕ, 1 ≤ k → (k : ℤ) < n → k ≤ N → AtA η (hCn N ^ k) A.w (idx k 0 k) (fun _ => hatTop k)) ∧
      (∀ k : ℕ, 2 ≤ k → (k : ℤ) < n → k ≤ N → AtA η (hL2 N) A.v (nm_index k 1) (Hs β k 1 0) ∧
        AtA η (hL2 N) A.v (nm_index k 0) (Hs β k 0 (-1))) ∧
      ((N : ℤ) + 1 < n → (∀ m : ℕ, m ≤ N → AtA η (hL2 N) A.x m (Hs β (N + 1) 0 m)) ∧
        AtA η (hCn N ^ (N + 1)) A.x (N + 1) (fun _ => hatTop (N + 1))))
    { A with w := w2 }
    (fun n A => do
      let prev ← rd A.w (idx (n - 1) 0 (n - 1))
      if n ≤ (N : ℤ) then do
        let w ← h_row2F F C.g C.h co' si' n (idx n 0 n) (nm_index n n) prev A.w
        let y ← rd w (idx n 0 1)
        let v ← wr A.v (nm_index n 1) y
        let v ← wr v (nm_index n 0) y
        return { A with w := w, v := v }
      else do
        let x ← h_row2F F C.g C.h co' si' n n (nm_index n n) prev A.x
        return { A with x := x })
    ⟨by rw [← hw, ← l1, ← l2], hv, hx,
      mv f2 (fun h => by have := G.inj _ _ _ _ _ _ (W0 le_rfl le_rfl (by omega)) (W0 le_rfl (by omega) (by omega)) h; omega)
        (mv f1 (fun h => by have := G.inj _ _ _ _ _ _ (W0 le_rfl le_rfl (by omega)) (W0 (by omega) le_rfl (by omega)) h; omega) h0),
      fun k m h1 h2 h3 h4 => by
        obtain rfl : k = 1 := by omega
        obtain rfl : m = 0 := by omega
        exact ⟨_, a2, hv10⟩,
      fun k h1 h2 h3 => by
        obtain rfl : k = 1 := by omega
        exact ⟨_, f2 _ _ (by push_cast; omega) a1, ht1⟩,
      fun k h1 h2 => by omega, fun h => by omega⟩
    (fun n A hn1 hn2 ⟨lw, lv, lx, q0, q1, q2, q3, q4⟩ => by
      obtain ⟨n, rfl⟩ : ∃ k : ℕ, n = k := ⟨n.toNat, by omega⟩
      obtain ⟨prev, hprev, hpv⟩ := q2 (n - 1) (by omega) (by omega) (by omega)
      rw [show ((n - 1 : ℕ) : ℤ) = (n : ℤ) - 1 by omega] at hprev
      rw [hprev.rd, bind_ok]
      by_cases hle : (n : ℤ) ≤ N
      · rw [if_pos hle]
        have hrow0 := G.lin n 0 0 n
        rw [zero_add] at hrow0
        have rn := G.range _ _ _ (W0 (n := n) (m := n) (by omega) le_rfl hle)
        have r0 := G.range _ _ _ (W0 (n := n) (m := 0) le_rfl (by omega) hle)
        obtain ⟨w', ew, lw', at', av', af'⟩ := h_row2F_ok R (N := N) (g := C.g) (h := C.h) (n := n) (by omega) (by omega)
          (n0n := idx n 0 n) (H := A.w) (by omega) (by omega) hpv
          (fun m h1 h2 => GC.g _ _ h1 h2 (by omega)) (fun m h1 h2 => GC.h _ _ h1 h2 (by omega))
        have av : ∀ m : ℕ, m < n → AtA η (hL2 N) w' (idx n 0 m) (Hs β n 0 m) := fun m hm => by
          have := av' m hm
          have hl := G.lin n 0 0 m
          rw [zero_add] at hl
          rw [rowV_eq β (by omega), show idx n 0 n - n + m = idx n 0 m by omega] at this
          exact this.mono R (hL2_ge (by omega))
        rw [ew, bind_ok]
        obtain ⟨y, hy, hya⟩ := av 1 (by omega)
        rw [Nat.cast_one] at hy hya
        rw [hy.rd, bind_ok]
        have rv1 := nm_range (N := N) (ne1 n (by omega)) hle
        have rv0 := nm_range (N := N) (ne0 n (by omega)) hle
        obtain ⟨v1, ev1, lv1, av1, fv1⟩ := wr_at (L := A.v) y rv1.1 (by rw [lv]; exact rv1.2)
        obtain ⟨v2, ev2, lv2, av2, fv2⟩ := wr_at (L := v1) y rv0.1 (by rw [lv1, lv]; exact rv0.2)
        rw [ev1, bind_ok, ev2, bind_ok]
        refine ⟨_, rfl, by simp only; rw [lw', lw], by simp only; rw [lv2, lv1, lv], lx, ?_, ?_, ?_, ?_, fun h => by omega⟩
        · exact mv af' (G.row_out (by omega) hle (W0 le_rfl le_rfl (by omega)) (by omega)) q0
        · intro k m h1 h2 h3 h4
          by_cases hk : k = n
          · subst hk; exact av m h4
          · exact mv af' (G.row_out (by omega) hle (W0 (by omega) (by omega) (by omega)) (by omega))
              (q1 k m h1 (by omega) h3 h4)
        · intro k h1 h2 h3
          by_cases hk : k = n
          · subst hk; exact at'
          · exact mv af' (G.row_out (by omega) hle (W0 (by omega) (by omega) (by omega)) (by omega))
              (q2 k h1 (by omega) h3)
        · intro k h1 h2 h3
          by_cases hk : k = n
          · subst hk
            refine ⟨⟨_, fv2 _ _ (nm_ne (ne1 _ (by omega)) (ne0 _ (by omega)) (.inr (by omega))) av1, ?_⟩, ⟨_, av2, ?_⟩⟩
            · rw [← s01 _ (by omega)]; exact hya
            · rw [← s0m _ (by omega)]; exact hya
          · have hk' : (k : ℤ) ≠ n := by omega
            obtain ⟨z1, z2⟩ := q3 k h1 (by omega) h3
            exact ⟨mv fv2 (nm_ne (ne1 _ (by omega)) (ne0 _ (by omega)) (.inl hk'))
                (mv fv1 (nm_ne (ne1 _ (by omega)) (ne1 _ (by omega)) (.inl hk')) z1),
              mv fv2 (nm_ne (ne0 _ (by omega)) (ne0 _ (by omega)) (.inl hk'))
                (mv fv1 (nm_ne (ne0 _ (by omega)) (ne1 _ (by omega)) (.inl hk')) z2)⟩
      · rw [if_neg hle]
        obtain rfl : n = N + 1 := by omega
        obtain ⟨x', ex, lx', at', av', af'⟩ := h_row2F_ok R (N := N) (g := C.g) (h := C.h) (n := N + 1) (by omega) (by omega)
          (n0n := ((N + 1 : ℕ) : ℤ)) (H := A.x) (by omega) (by omega) hpv
          (fun m h1 h2 => GC.g _ _ h1 h2 (by omega)) (fun m h1 h2 => GC.h _ _ h1 h2 (by omega))
        rw [ex, bind_ok]
        refine ⟨_, rfl, lw, lv, by simp only; rw [lx', lx], q0, ?_, ?_, ?_, fun _ => ⟨?_, ?_⟩⟩
        · intro k m h1 h2 h3 h4; exact q1 k m h1 (by omega) h3 h4
        · intro k h1 h2 h3; exact q2 k h1 (by omega) h3
        · intro k h1 h2 h3; exact q3 k h1 (by omega) h3
        · intro m hm
          have := av' m (by omega)
          rw [rowV_eq β (by omega), sub_self, zero_add] at this
          push_cast at this
          exact this.mono R (hL2_ge (by omega))
        · push_cast at at'; exact at')
  rw [e3, bind_ok]
  obtain ⟨px, pt⟩ := p4 (by omega)
  -- normalization of m = n
  obtain ⟨st, e4, l4, r4, u0, u1, u2, u3⟩ := forR_inv 1 ((N : ℤ) + 1) (by omega)
    (fun n (st : List (HRow J) × HRow J) => st.1.length = size ∧
      RowApp η (hCn N ^ (n - 1).toNat) st.2 (fun j => Real.sin (β j) ^ (n - 1).toNat) ∧
      AtA η (hL2 N) st.1 (idx 0 0 0) (Hs β 0 0 0) ∧
      (∀ k m : ℕ, 1 ≤ k → k ≤ N → m < k → AtA η (hL2 N) st.1 (idx k 0 m) (Hs β k 0 m)) ∧
      (∀ k : ℕ, n ≤ k → k ≤ N → AtA η (hCn N ^ k) st.1 (idx k 0 k) (fun _ => hatTop k)) ∧
      (∀ k : ℕ, 1 ≤ k → (k : ℤ) < n → AtA η (hL2 N) st.1 (idx k 0 k) (Hs β k 0 k)))
    (A3.w, ((fun _ => 1) : HRow J))
    (fun n st => do
      let pre : HRow J := fun j => F.mul (st.2 j) (si' j)
      let w ← upd st.1 (idx n 0 n) (fun y j => F.mul (y j) (F.div (pre j) (F.sqrt (F.ofInt (4 * n + 2)))))
      return (w, pre))
    ⟨lw3, fun j => by simpa using App.self (η := η j) (B := 1) (x := 1) (R.ok j).nonneg (by simp), p0,
      fun k m h1 h2 h3 => p1 k m h1 (by omega) h2 h3,
      fun k h1 h2 => p2 k (by omega) (by omega) h2, fun k h1 h2 => by omega⟩
    (fun n st hn1 hn2 ⟨l, hp, z0, z1, z2, z3⟩ => by
      obtain ⟨n, rfl⟩ : ∃ k : ℕ, n = k := ⟨n.toNat, by omega⟩
      obtain ⟨yn, hyn, hyna⟩ := z2 n le_rfl (by omega)
      obtain ⟨L', e, l', a, f⟩ := upd_at
        (fun y j => F.mul (y j) (F.div (F.mul (st.2 j) (si' j)) (F.sqrt (F.ofInt (4 * (n : ℤ) + 2))))) hyn
      have hpre : RowApp η (hCn N ^ n) (fun j => F.mul (st.2 j) (si' j)) (fun j => Real.sin (β j) ^ n) := fun j => by
        have := (R.ok j).st_mul1 (N := N) (hp j) (R.si j)
        rwa [← pow_succ', ← pow_succ, show ((n : ℤ) - 1).toNat + 1 = n by omega] at this
      have hval : RowApp η (hL2 N) (fun j => F.mul (yn j) (F.div (F.mul (st.2 j) (si' j)) (F.sqrt (F.ofInt (4 * (n : ℤ) + 2)))))
          (Hs β n 0 n) := fun j => by
        rw [← top_eq]
        have key := (R.ok j).st_mul (N := N) (hyna j) ((R.ok j).st_pre_div (N := N) (n := (n : ℤ)) (by omega) (hpre j))
        beta_reduce at key
        rw [← pow_succ', ← pow_add, ← pow_succ'] at key
        have k2 := key.mono (R.ok j).nonneg (hL2_ge (N := N) (by omega))
        push_cast at k2
        exact k2
      have ne : ∀ k m : ℕ, m ≤ k → k ≤ N → ¬ (k = n ∧ m = n) → idx k 0 m ≠ idx n 0 n := fun k m h1 h2 h3 h => by
        have := G.inj _ _ _ _ _ _ (W0 (by omega) (by omega) (by omega)) (W0 (by omega) le_rfl (by omega)) h; omega
      refine ⟨(L', fun j => F.mul (st.2 j) (si' j)), ?_, by rw [← l, ← l'], ?_, ?_, ?_, ?_, ?_⟩
      · simp only [e, bind_ok]; rfl
      · rw [show ((n : ℤ) + 1 - 1).toNat = n by omega]; exact hpre
      · exact mv f (by have := ne 0 0 le_rfl (by omega) (by omega); simpa using this) z0
      · intro k m h1 h2 h3; exact mv f (ne k m (by omega) h2 (by omega)) (z1 k m h1 h2 h3)
      · intro k h1 h2; exact mv f (ne k k le_rfl h2 (by omega)) (z2 k (by omega) h2)
      · intro k h1 h2
        by_cases hk : k = n
        · subst hk; exact ⟨_, a, hval⟩
        · exact mv f (ne k k le_rfl (by omega) (by omega)) (z3 k h1 (by omega)))
  simp only at e4 ⊢
  rw [e4, bind_ok]
  obtain ⟨yt, hyt, hyta⟩ := pt
  obtain ⟨x5, e5, l5, a5, f5⟩ := upd_at
    (fun y j => F.mul (y j) (F.div (F.mul (st.2 j) (si' j)) (F.sqrt (F.ofInt (4 * ((N : ℤ) + 1) + 2))))) hyt
  have hval : RowApp η (hL2 N) (fun j => F.mul (yt j) (F.div (F.mul (st.2 j) (si' j)) (F.sqrt (F.ofInt (4 * ((N : ℤ) + 1) + 2)))))
      (Hs β (N + 1) 0 (N + 1)) := fun j => by
    have ht := top_eq β (N + 1)
    push_cast at ht
    rw [← ht]
    have hpre := (R.ok j).st_mul1 (N := N) (r4 j) (R.si j)
    rw [← pow_succ', ← pow_succ, show ((N : ℤ) + 1 - 1).toNat + 1 = N + 1 by omega] at hpre
    have key := (R.ok j).st_mul (N := N) (hyta j) ((R.ok j).st_pre_div (N := N) (n := (N : ℤ) + 1) (by omega) hpre)
    beta_reduce at key
    rw [← pow_succ', ← pow_add, ← pow_succ'] at key
    have k2 := key.mono (R.ok j).nonneg (hL2_ge (N := N) (by omega))
    push_cast at k2
    exact k2
  rw [e5, bind_ok]
  obtain ⟨y, hy, hya⟩ := u3 1 le_rfl (by omega)
  rw [Nat.cast_one] at hy hya
  rw [hy.rd, bind_ok]
  have rv1 := nm_range (N := N) (n := 1) (ne1 1 (by omega)) (by omega)
  have rv0 := nm_range (N := N) (n := 1) (ne0 1 (by omega)) (by omega)
  obtain ⟨v1, ev1, lv1, av1, fv1⟩ := wr_at (L := A3.v) y rv1.1 (by rw [lv3]; exact rv1.2)
  obtain ⟨v2, ev2, lv2, av2, fv2⟩ := wr_at (L := v1) y rv0.1 (by rw [lv1, lv3]; exact rv0.2)
  rw [ev1, bind_ok, ev2, bind_ok]
  refine ⟨_, rfl, l4, by simp only; rw [lv2, lv1, lv3], by simp only; rw [l5, lx3], ?_, ?_, ?_⟩
  · intro n m h1 h2 h3
    obtain ⟨n, rfl⟩ : ∃ k : ℕ, n = k := ⟨n.toNat, by omega⟩
    obtain ⟨m, rfl⟩ : ∃ k : ℕ, m = k := ⟨m.toNat, by omega⟩
    by_cases hn : n = 0
    · subst hn
      obtain rfl : m = 0 := by omega
      simpa using u0
    · by_cases hm : m = n
      · subst hm; exact u3 m (by omega) (by omega)
      · exact u1 n m (by omega) (by omega) (by omega)
  · intro m h1 h2
    obtain ⟨m, rfl⟩ : ∃ k : ℕ, m = k := ⟨m.toNat, by omega⟩
    by_cases hm : m = N + 1
    · subst hm; push_cast; exact ⟨_, a5, hval⟩
    · exact mv f5 (by omega) (px m (by omega))
  · intro n h1 h2
    by_cases hn : n = 1
    · subst hn
      refine ⟨⟨_, fv2 _ _ (by decide) av1, ?_⟩, ⟨_, av2, ?_⟩⟩
      · rw [← s01 _ (by omega)]; exact hya
      · rw [← s0m _ (by omega)]; exact hya
    · obtain ⟨n, rfl⟩ : ∃ k : ℕ, n = k := ⟨n.toNat, by omega⟩
      obtain ⟨z1, z2⟩ := p3 n (by omega) (by omega) (by omega)
      exact ⟨mv fv2 (nm_ne (ne1 _ (by omega)) (ne0 _ (by omega)) (.inl hn))
          (mv fv1 (nm_ne (ne1 _ (by omega)) (ne1 _ (by omega)) (.inl hn)) z1),
        mv fv2 (nm_ne (ne0 _ (by omega)) (ne0 _ (by omega)) (.inl hn))
          (mv fv1 (nm_ne (ne0 _ (by omega)) (ne1 _ (by omega)) (.inl hn)) z2)⟩

end SF
