import Verif.Lemmas.HFloatStep2
import Verif.Lemmas.WignerHIdx

/-! # Steps 3-6 of the H recursion in floating-point arithmetic -/

set_option autoImplicit false

namespace SF

/-- Number of factors in the error bound of the entries with this `m'`. -/
def hRank (N : ℕ) (mp : ℤ) : ℕ := if 0 ≤ mp then 2 * N + 4 + mp.toNat else 2 * N + 5 + (-mp).toNat

/-- Error bound of the entries with this `m'`. -/
noncomputable def hLv (N : ℕ) (mp : ℤ) : ℝ := hCn N ^ hRank N mp

theorem hLv_zero (N : ℕ) : hLv N 0 = hL2 N := rfl

theorem hLv_mono {N : ℕ} {mp mp' : ℤ} (h : hRank N mp ≤ hRank N mp') : hLv N mp ≤ hLv N mp' := hCpow_mono h

theorem hLv_up {N : ℕ} {mp mp' : ℤ} (h : hRank N mp + 1 ≤ hRank N mp') : hCn N * hLv N mp ≤ hLv N mp' := by
  unfold hLv
  rw [← pow_succ']; exact hCpow_mono h

theorem fDiv_ok (F : W3Ops) {x y : ℝ} (h : y ≠ 0) : fDiv F x y = .ok (F.div x y) := by unfold fDiv; rw [if_neg h]

section
variable {J : ℕ} {F : W3Ops} {u : ℝ} {η : Fin J → ℝ} {co' si' : HRow J} {β : Fin J → ℝ}

/-- The entries of the wedge that satisfy `S` approximate their final values. -/
def KnF (η : Fin J → ℝ) (idx : ℤ → ℤ → ℤ → ℤ) (N : ℕ) (β : Fin J → ℝ) (S : ℤ → ℤ → ℤ → Prop) (w : List (HRow J)) : Prop :=
  ∀ n mp m, Spec.IsWedge N (n, mp, m) → S n mp m → AtA η (hLv N mp) w (idx n mp m) (Hs β n mp m)

theorem KnF.mono {idx : ℤ → ℤ → ℤ → ℤ} {N : ℕ} {S S' : ℤ → ℤ → ℤ → Prop} {w : List (HRow J)}
    (K : KnF η idx N β S w) (h : ∀ n mp m, Spec.IsWedge N (n, mp, m) → S' n mp m → S n mp m) : KnF η idx N β S' w :=
  fun n mp m hw hs => K n mp m hw (h n mp m hw hs)

theorem KnF.wr {idx : ℤ → ℤ → ℤ → ℤ} {N size : ℕ} (G : GoodIdx idx N size) {S : ℤ → ℤ → ℤ → Prop}
    {w : List (HRow J)} (K : KnF η idx N β S w) (hw : w.length = size) {n mp m : ℤ} (hm : Spec.IsWedge N (n, mp, m)) {i : ℤ}
    (hi : i = idx n mp m) {v : HRow J} (hv : RowApp η (hLv N mp) v (Hs β n mp m)) :
    ∃ w', SF.wr w i v = .ok w' ∧ w'.length = size ∧
      KnF η idx N β (fun n' mp' m' => S n' mp' m' ∨ n' = n ∧ mp' = mp ∧ m' = m) w' := by
  subst hi
  obtain ⟨r0, r1⟩ := G.range _ _ _ hm
  obtain ⟨w', e, l, a, f⟩ := wr_at (L := w) v r0 (by rw [hw]; exact r1)
  refine ⟨w', e, by rw [l, hw], fun n' mp' m' hw' hs => ?_⟩
  by_cases hc : n' = n ∧ mp' = mp ∧ m' = m
  · obtain ⟨rfl, rfl, rfl⟩ := hc
    exact ⟨v, a, hv⟩
  · obtain ⟨y, q1, q2⟩ := K _ _ _ hw' (hs.resolve_right hc)
    exact ⟨y, f _ _ (fun h => hc (G.inj _ _ _ _ _ _ hw' hm h)) q1, q2⟩

variable (R : HRows F u η co' si' (fun j => Real.cos (β j)) (fun j => Real.sin (β j)))

include R

/-- Value of a row from a statement, weakened to the level of `m'`. -/
theorem HRows.lift {N : ℕ} {mp mp' : ℤ} {r v : HRow J} (h : hRank N mp + 1 ≤ hRank N mp') (hr : RowApp η (hCn N * hLv N mp) r v) :
    RowApp η (hLv N mp') r v := fun j => (hr j).mono (R.ok j).nonneg (hLv_up h)

theorem HRows.drop {N : ℕ} {mp mp' : ℤ} {r v : HRow J} (h : hRank N mp ≤ hRank N mp') (hr : RowApp η (hLv N mp) r v) :
    RowApp η (hLv N mp') r v := fun j => (hr j).mono (R.ok j).nonneg (hLv_mono h)

theorem HRows.coD {N : ℕ} {n m : ℤ} {y : ℝ} (h : |m| ≤ n) (hn : n ≤ N) (hy : Near u 7 y (dco n m)) (j : Fin J) :
    App (η j) (hDn N) y (dco n m) :=
  (R.ok j).coef (by norm_num) hy (coN (n := n) (by omega) (dco_le h) (.inl (by
    have : (0 : ℝ) ≤ n := by exact_mod_cast (abs_nonneg m).trans h
    linarith)))

theorem HRows.coR {N : ℕ} {n m : ℤ} {y : ℝ} (h1 : -n ≤ m) (h2 : m < n) (hn : n ≤ N) (hy : Near u 7 y (dco n m)) :
    fDiv F 1 y = .ok (F.div 1 y) ∧ ∀ j, App (η j) (hDn N) (F.div 1 y) (1 / dco n m) := by
  refine ⟨fDiv_ok F (hy.ne_zero R.base.std.u_nonneg R.base.std.u_lt_one (dco_ne h1 h2)), fun j => ?_⟩
  exact (R.ok j).coef (by norm_num) ((R.ok j).ndiv ((R.ok j).nself 1) hy (dco_ne h1 h2))
    (coN (n := n) (by omega) (dco_inv_le h1 h2) (.inr (by norm_num)))

theorem h_step_3F_ok {idx : ℤ → ℤ → ℤ → ℤ} {N size : ℕ} (G : GoodIdx idx N size) {C : HCoef} (GC : GoodCoefF u C N)
    {w x : List (HRow J)} (hw : w.length = size) (K : KnF η idx N β (fun _ mp _ => mp = 0) w)
    (hx : ∀ m : ℤ, 0 ≤ m → m ≤ N + 1 → AtA η (hL2 N) x m (Hs β (N + 1) 0 m)) :
    ∃ w', h_step_3F F idx C.a C.b C.n_max co' si' w x = .ok w' ∧ w'.length = size ∧
      KnF η idx N β (fun _ mp _ => mp = 0 ∨ mp = 1) w' := by
  unfold h_step_3F
  rw [GC.n_max]
  obtain ⟨w', e, l, k⟩ := forR_inv 1 ((N : ℤ) + 1) (by omega)
    (fun n w => w.length = size ∧ KnF η idx N β (fun n' mp _ => mp = 0 ∨ mp = 1 ∧ n' < n) w) w
    (fun n w => do
      let b5 ← rd C.b (nm_index (n + 1) 0)
      forL (pyRange 0 n) w fun i w => do
        let b6 ← rd C.b (-i + nm_index (n + 1) 0 - 2)
        let b7 ← rd C.b (i + nm_index (n + 1) 0)
        let a8 ← rd C.a (i + nabsm_index n 1)
        let y2 ← rd (if n + 1 ≤ (N : ℤ) then w else x) (i + (if n + 1 ≤ (N : ℤ) then idx (n + 1) 0 0 else 0) + 2)
        let y0 ← rd (if n + 1 ≤ (N : ℤ) then w else x) (i + (if n + 1 ≤ (N : ℤ) then idx (n + 1) 0 0 else 0))
        let y1 ← rd (if n + 1 ≤ (N : ℤ) then w else x) (i + (if n + 1 ≤ (N : ℤ) then idx (n + 1) 0 0 else 0) + 1)
        let r ← fDiv F 1 b5
        SF.wr w (i + idx n 1 1) (fun j => F.mul r (F.add
          (F.mul 0.5 (F.add (F.mul (F.mul b6 (F.add 1 (-co' j))) (y2 j)) (-F.mul (F.mul b7 (F.add 1 (co' j))) (y0 j))))
          (-F.mul (F.mul a8 (si' j)) (y1 j)))))
    ⟨hw, K.mono fun n mp m hw h => by have := wedge_iff.1 hw; omega⟩
    (fun n w hn1 hn2 ⟨l, K⟩ => by
      obtain ⟨b5, eb5, nb5⟩ := GC.b (n + 1) 0 (by rw [abs_le]; omega) (by omega) (by omega)
      rw [eb5, bind_ok]
      have hbne := bco_ne (n := n) (by omega)
      have hr : ∀ j, App (η j) (hDn N) (F.div 1 b5) (1 / bco (n + 1) 0) := fun j =>
        (R.ok j).coef (by norm_num) ((R.ok j).ndiv ((R.ok j).nself 1) nb5 hbne)
          (coN (n := n) (by omega) (bco_inv_le hn1) (.inr (by norm_num)))
      have hb5 := nb5.ne_zero R.base.std.u_nonneg R.base.std.u_lt_one hbne
      obtain ⟨w', e, l', k⟩ := forR_inv 0 n (by omega)
        (fun i w => w.length = size ∧ KnF η idx N β (fun n' mp m => mp = 0 ∨ mp = 1 ∧ (n' < n ∨ n' = n ∧ m < 1 + i)) w) w
        (fun i w => do
          let b6 ← rd C.b (-i + nm_index (n + 1) 0 - 2)
          let b7 ← rd C.b (i + nm_index (n + 1) 0)
          let a8 ← rd C.a (i + nabsm_index n 1)
          let y2 ← rd (if n + 1 ≤ (N : ℤ) then w else x) (i + (if n + 1 ≤ (N : ℤ) then idx (n + 1) 0 0 else 0) + 2)
          let y0 ← rd (if n + 1 ≤ (N : ℤ) then w else x) (i + (if n + 1 ≤ (N : ℤ) then idx (n + 1) 0 0 else 0))
          let y1 ← rd (if n + 1 ≤ (N : ℤ) then w else x) (i + (if n + 1 ≤ (N : ℤ) then idx (n + 1) 0 0 else 0) + 1)
          let r ← fDiv F 1 b5
          SF.wr w (i + idx n 1 1) (fun j => F.mul r (F.add
            (F.mul 0.5 (F.add (F.mul (F.mul b6 (F.add 1 (-co' j))) (y2 j)) (-F.mul (F.mul b7 (F.add 1 (co' j))) (y0 j))))
            (-F.mul (F.mul a8 (si' j)) (y1 j)))))
        ⟨l, K.mono fun n mp m hw h => by have := wedge_iff.1 hw; omega⟩
        (fun i w hi1 hi2 ⟨l, K⟩ => by
          have y : ∀ k : ℤ, 0 ≤ k → k ≤ n + 1 → ∀ t, t = (if n + 1 ≤ (N : ℤ) then idx (n + 1) 0 0 else 0) + k →
              ∃ y, rd (if n + 1 ≤ (N : ℤ) then w else x) t = .ok y ∧ RowApp η (hLv N 0) y (Hs β (n + 1) 0 k) :=
            fun k hk1 hk2 t ht => by
            subst ht
            by_cases hc : n + 1 ≤ (N : ℤ)
            · simp only [if_pos hc]
              rw [← G.lin, zero_add]
              obtain ⟨y, q1, q2⟩ := K _ _ _ (wedge_iff.2 (by omega : n + 1 ≤ (N : ℤ) ∧ -k ≤ 0 ∧ 0 ≤ k ∧ k ≤ n + 1)) (.inl rfl)
              exact ⟨y, q1.rd, q2⟩
            · simp only [if_neg hc, zero_add]
              obtain rfl : n = N := by omega
              obtain ⟨y, q1, q2⟩ := hx k hk1 hk2
              exact ⟨y, q1.rd, q2⟩
          obtain ⟨b6, eb6, nb6⟩ := GC.b (n + 1) (-(i + 1) - 1) (by rw [abs_le]; omega) (by omega) (by omega)
          obtain ⟨b7, eb7, nb7⟩ := GC.b (n + 1) (i + 1 - 1) (by rw [abs_le]; omega) (by omega) (by omega)
          obtain ⟨a8, ea8, na8⟩ := GC.a n (i + 1) (by omega) (by omega) (by omega)
          obtain ⟨y2, ey2, hy2⟩ := y (i + 1 + 1) (by omega) (by omega) (i + (if n + 1 ≤ (N : ℤ) then idx (n + 1) 0 0 else 0) + 2) (by ring)
          obtain ⟨y0, ey0, hy0⟩ := y (i + 1 - 1) (by omega) (by omega) (i + (if n + 1 ≤ (N : ℤ) then idx (n + 1) 0 0 else 0)) (by ring)
          obtain ⟨y1, ey1, hy1⟩ := y (i + 1) (by omega) (by omega) (i + (if n + 1 ≤ (N : ℤ) then idx (n + 1) 0 0 else 0) + 1) (by ring)
          rw [show -i + nm_index (n + 1) 0 - 2 = nm_index (n + 1) (-(i + 1) - 1) by unfold nm_index; ring,
            eb6, bind_ok,
            show i + nm_index (n + 1) 0 = nm_index (n + 1) (i + 1 - 1) by unfold nm_index; ring,
            eb7, bind_ok,
            show i + nabsm_index n 1 = nabsm_index n (i + 1) by unfold nabsm_index; ring,
            ea8, bind_ok, ey2, bind_ok, ey0, bind_ok, ey1, bind_ok, fDiv_ok F hb5, bind_ok]
          obtain ⟨w', e, l', k⟩ := K.wr G l (n := n) (mp := 1) (m := i + 1) (wedge_iff.2 (by omega)) (i := i + idx n 1 1)
            (by have := G.lin n 1 1 i; rw [add_comm 1 i] at this; omega)
            (v := fun j => F.mul (F.div 1 b5) (F.add
              (F.mul 0.5 (F.add (F.mul (F.mul b6 (F.add 1 (-co' j))) (y2 j)) (-F.mul (F.mul b7 (F.add 1 (co' j))) (y0 j))))
              (-F.mul (F.mul a8 (si' j)) (y1 j))))
            (R.lift (mp := 0) (by unfold hRank; simp) (fun j => by
              have key := (R.ok j).st_3 (hr j)
                ((R.ok j).coef (by norm_num) nb6 (coN (n := n) (by omega) (bco_le (by rw [abs_le]; omega) (by omega)) (.inr (by norm_num))))
                ((R.ok j).coef (by norm_num) nb7 (coN (n := n) (by omega) (bco_le (by rw [abs_le]; omega) (by omega)) (.inr (by norm_num))))
                ((R.ok j).coef (by norm_num) na8 (coN (n := n) (by omega) (aco_le (by omega) (by omega)) (.inr (by norm_num))))
                (R.co j) (R.si j) (hy0 j) (hy1 j) (hy2 j)
              have ev : 1 / bco (n + 1) 0 * (0.5 * (bco (n + 1) (-(i + 1) - 1) * (1 - Real.cos (β j)) * Hs β (n + 1) 0 (i + 1 + 1) j
                  - bco (n + 1) (i + 1 - 1) * (1 + Real.cos (β j)) * Hs β (n + 1) 0 (i + 1 - 1) j)
                  - aco n (i + 1) * Real.sin (β j) * Hs β (n + 1) 0 (i + 1) j) = Hs β n 1 (i + 1) j := by
                have h41 := Hf_41 (Real.cos (β j / 2)) (Real.sin (β j / 2)) (Real.cos_sq_add_sin_sq _) (n := n) (m := i + 1)
                  (by omega) (by omega)
                rw [cos_half (β j), sin_half (β j)] at h41
                unfold Hs
                rw [one_div, inv_mul_eq_iff_eq_mul₀ hbne, h41]
                ring
              rw [ev] at key
              exact key))
          exact ⟨w', e, l', k.mono fun n mp m hw h => by have := wedge_iff.1 hw; omega⟩)
      exact ⟨w', e, l', k.mono fun n mp m hw h => by have := wedge_iff.1 hw; omega⟩)
  exact ⟨w', e, l, k.mono fun n mp m hw h => by have := wedge_iff.1 hw; omega⟩

theorem h_body4F_ok {idx : ℤ → ℤ → ℤ → ℤ} {N size : ℕ} (G : GoodIdx idx N size) {C : HCoef} (GC : GoodCoefF u C N)
    {w v : List (HRow J)} (hw : w.length = size) (hv : v.length = (N + 1) ^ 2) {n mp : ℤ} (h1 : 1 ≤ mp)
    (h2 : mp < n) (hn : n ≤ N) {S : ℤ → ℤ → ℤ → Prop} (K : KnF η idx N β S w)
    (hS : ∀ m, S n (mp - 1) m ∧ S n mp m) (hV : AtA η (hLv N mp) v (nm_index n mp) (Hs β n mp (mp - 1))) :
    ∃ w' v', h_body4F F idx C.d n mp (w, v) = .ok (w', v') ∧ w'.length = size ∧ v'.length = (N + 1) ^ 2 ∧
      KnF η idx N β (fun n' mp' m' => S n' mp' m' ∨ n' = n ∧ mp' = mp + 1) w' ∧
      AtA η (hLv N (mp + 1)) v' (nm_index n (mp + 1)) (Hs β n (mp + 1) mp) ∧
      ∀ k u, k ≠ nm_index n (mp + 1) → At v k u → At v' k u := by
  unfold h_body4F
  simp only
  have rk1 : hRank N mp + 1 ≤ hRank N (mp + 1) := by unfold hRank; rw [if_pos (by omega), if_pos (by omega)]; omega
  have rk0 : hRank N (mp - 1) ≤ hRank N mp := by unfold hRank; rw [if_pos (by omega), if_pos (by omega)]; omega
  have rot : ∀ m : ℤ, |m| ≤ n → Hs β n (mp + 1) m = fun j => 1 / dco n mp *
      (dco n (mp - 1) * Hs β n (mp - 1) m j - dco n (m - 1) * Hs β n mp (m - 1) j + dco n m * Hs β n mp (m + 1) j) := fun m hm => by
    funext j
    have := Hf_rot (Real.cos (β j / 2)) (Real.sin (β j / 2)) (n := n) (mp := mp) (m := m) (by rw [abs_le]; omega) hm
    have hd := dco_ne (n := n) (m := mp) (by omega) (by omega)
    unfold Hs
    rw [one_div, eq_inv_mul_iff_mul_eq₀ hd]
    linarith
  obtain ⟨d5, ed5, nd5⟩ := GC.d n mp (by rw [abs_le]; omega) (by omega)
  obtain ⟨d6, ed6, nd6⟩ := GC.d n (mp - 1) (by rw [abs_le]; omega) (by omega)
  have A5 := R.coD (by rw [abs_le]; omega) hn nd5
  have A6 := R.coD (by rw [abs_le]; omega) hn nd6
  obtain ⟨er, Ar⟩ := R.coR (by omega) (by omega) hn nd5
  obtain ⟨y2, q2, z2⟩ := K n (mp - 1) mp (wedge_iff.2 (by omega)) (hS _).1
  obtain ⟨y3, q3, z3⟩ := hV
  obtain ⟨y4, q4, z4⟩ := K n mp (mp + 1) (wedge_iff.2 (by omega)) (hS _).2
  rw [ed5, bind_ok, ed6, bind_ok, er, bind_ok, bind_ok, bind_ok, q2.rd, bind_ok, q3.rd, bind_ok, q4.rd, bind_ok]
  have rv := nm_range (N := N) (n := n) (m := mp + 1) (by rw [abs_le]; omega) hn
  obtain ⟨v', ev, lv, av, fv⟩ := wr_at (L := v)
    (fun j => F.mul (F.div 1 d5) (F.add (F.add (F.mul d6 (y2 j)) (-F.mul d6 (y3 j))) (F.mul d5 (y4 j)))) rv.1 (by rw [hv]; exact rv.2)
  have hval : AtA η (hLv N (mp + 1)) v' (nm_index n (mp + 1)) (Hs β n (mp + 1) mp) := ⟨_, av, R.lift rk1 (fun j => by
    rw [rot mp (by rw [abs_le]; omega)]
    exact (R.ok j).st_4 (Ar j) (A6 j) (A6 j) (A5 j) (R.drop rk0 z2 j) (z3 j) (z4 j))⟩
  rw [ev, bind_ok]
  obtain ⟨w1, e1, l1, k1⟩ := forR_inv 1 (n - mp) (by omega)
    (fun i w => w.length = size ∧ KnF η idx N β (fun n' mp' m' => S n' mp' m' ∨ n' = n ∧ mp' = mp + 1 ∧ m' < mp + i) w) w
    (fun i w => do
      let d7 ← rd C.d (i + nm_index n (mp - 1))
      let d8 ← rd C.d (i + nm_index n mp)
      let y2 ← rd w (i + idx n (mp - 1) mp)
      let y3 ← rd w (i + idx n mp (mp - 1))
      let y4 ← rd w (i + idx n mp (mp + 1))
      SF.wr w (i + idx n (mp + 1) mp)
        (fun j => F.mul (F.div 1 d5) (F.add (F.add (F.mul d6 (y2 j)) (-F.mul d7 (y3 j))) (F.mul d8 (y4 j)))))
    ⟨hw, K.mono fun n' mp' m' hw h => by
      have := wedge_iff.1 hw
      rcases h with h | h
      · exact h
      · omega⟩
    (fun i w hi1 hi2 ⟨l, K⟩ => by
      obtain ⟨d7, ed7, nd7⟩ := GC.d n (mp + i - 1) (by rw [abs_le]; omega) (by omega)
      obtain ⟨d8, ed8, nd8⟩ := GC.d n (mp + i) (by rw [abs_le]; omega) (by omega)
      obtain ⟨y2, q2, z2⟩ := K n (mp - 1) (mp + i) (wedge_iff.2 (by omega)) (.inl (hS _).1)
      obtain ⟨y3, q3, z3⟩ := K n mp (mp + i - 1) (wedge_iff.2 (by omega)) (.inl (hS _).2)
      obtain ⟨y4, q4, z4⟩ := K n mp (mp + i + 1) (wedge_iff.2 (by omega)) (.inl (hS _).2)
      rw [show i + nm_index n (mp - 1) = nm_index n (mp + i - 1) by unfold nm_index; ring,
        ed7, bind_ok,
        show i + nm_index n mp = nm_index n (mp + i) by unfold nm_index; ring,
        ed8, bind_ok,
        G.add n (mp - 1) (m' := mp + i) rfl, q2.rd, bind_ok,
        G.add n mp (m' := mp + i - 1) (by ring), q3.rd, bind_ok,
        G.add n mp (m' := mp + i + 1) (by ring), q4.rd, bind_ok]
      obtain ⟨w', e, l', k⟩ := K.wr G l (n := n) (mp := mp + 1) (m := mp + i) (wedge_iff.2 (by omega)) (i := i + idx n (mp + 1) mp)
        (G.add n (mp + 1) rfl)
        (v := fun j => F.mul (F.div 1 d5) (F.add (F.add (F.mul d6 (y2 j)) (-F.mul d7 (y3 j))) (F.mul d8 (y4 j))))
        (R.lift rk1 (fun j => by
          rw [rot (mp + i) (by rw [abs_le]; omega)]
          exact (R.ok j).st_4 (Ar j) (A6 j) (R.coD (by rw [abs_le]; omega) hn nd7 j) (R.coD (by rw [abs_le]; omega) hn nd8 j)
            (R.drop rk0 z2 j) (z3 j) (z4 j)))
      refine ⟨w', e, l', k.mono fun n' mp' m' hw h => ?_⟩
      rcases h with h | h
      · exact .inl (.inl h)
      · by_cases hm : m' = mp + i
        · exact .inr (by omega)
        · exact .inl (.inr (by omega)))
  obtain ⟨d7, ed7, nd7⟩ := GC.d n (n - 1) (by rw [abs_le]; omega) (by omega)
  obtain ⟨y2', q2', z2'⟩ := k1 n (mp - 1) n (wedge_iff.2 (by omega)) (.inl (hS _).1)
  obtain ⟨y3', q3', z3'⟩ := k1 n mp (n - 1) (wedge_iff.2 (by omega)) (.inl (hS _).2)
  rw [e1, bind_ok, show n - mp + nm_index n (mp - 1) = nm_index n (n - 1) by unfold nm_index; ring,
    ed7, bind_ok,
    G.add n (mp - 1) (m' := n) (by ring), q2'.rd, bind_ok,
    G.add n mp (m' := n - 1) (by ring), q3'.rd, bind_ok]
  obtain ⟨w', e, l', k⟩ := k1.wr G l1 (n := n) (mp := mp + 1) (m := n) (wedge_iff.2 (by omega)) (i := n - mp + idx n (mp + 1) mp)
    (G.add n (mp + 1) (by ring))
    (v := fun j => F.mul (F.div 1 d5) (F.add (F.mul d6 (y2' j)) (-F.mul d7 (y3' j))))
    (R.lift rk1 (fun j => by
      have e : Hs β n (mp + 1) n j = 1 / dco n mp * (dco n (mp - 1) * Hs β n (mp - 1) n j - dco n (n - 1) * Hs β n mp (n - 1) j) := by
        rw [rot n (by rw [abs_le]; omega), dco_top]; ring
      rw [e]
      exact (R.ok j).st_4' (Ar j) (A6 j) (R.coD (by rw [abs_le]; omega) hn nd7 j) (R.drop rk0 z2' j) (z3' j)))
  rw [e, bind_ok]
  refine ⟨w', v', rfl, l', by rw [lv, hv], k.mono fun n' mp' m' hw h => ?_, hval, fv⟩
  have := wedge_iff.1 hw
  rcases h with h | h
  · exact .inl (.inl h)
  · by_cases hm : m' = n
    · exact .inr (by omega)
    · exact .inl (.inr (by omega))

theorem h_step_4F_ok {idx : ℤ → ℤ → ℤ → ℤ} {N size : ℕ} (hN : 1 ≤ N) (G : GoodIdx idx N size) {C : HCoef}
    (GC : GoodCoefF u C N) {w v : List (HRow J)} (hw : w.length = size) (hv : v.length = (N + 1) ^ 2)
    (K : KnF η idx N β (fun _ mp _ => mp = 0 ∨ mp = 1) w)
    (hV : ∀ n : ℤ, 1 ≤ n → n ≤ N → AtA η (hL2 N) v (nm_index n 1) (Hs β n 1 0) ∧ AtA η (hL2 N) v (nm_index n 0) (Hs β n 0 (-1))) :
    ∃ w' v', h_step_4F F idx C.d C.n_max (w, v) = .ok (w', v') ∧ w'.length = size ∧ v'.length = (N + 1) ^ 2 ∧
      KnF η idx N β (fun _ mp _ => 0 ≤ mp) w' ∧
      (∀ n : ℤ, 1 ≤ n → n ≤ N → AtA η (hL2 N) v' (nm_index n 1) (Hs β n 1 0) ∧ AtA η (hL2 N) v' (nm_index n 0) (Hs β n 0 (-1))) := by
  unfold h_step_4F
  rw [GC.n_max]
  obtain ⟨⟨w', v'⟩, e, l, lv, k, kv⟩ := forR_inv 2 ((N : ℤ) + 1) (by omega)
    (fun n (st : List (HRow J) × List (HRow J)) => st.1.length = size ∧ st.2.length = (N + 1) ^ 2 ∧
      KnF η idx N β (fun n' mp _ => mp = 0 ∨ mp = 1 ∨ 0 ≤ mp ∧ n' < n) st.1 ∧
      ∀ n : ℤ, 1 ≤ n → n ≤ N → AtA η (hL2 N) st.2 (nm_index n 1) (Hs β n 1 0) ∧ AtA η (hL2 N) st.2 (nm_index n 0) (Hs β n 0 (-1)))
    (w, v) (fun n st => forL (pyRange 1 n) st fun mp st => h_body4F F idx C.d n mp st)
    ⟨hw, hv, K.mono fun n mp m hw h => by have := wedge_iff.1 hw; omega, hV⟩
    (fun n st hn1 hn2 ⟨l, lv, k, kv⟩ => by
      obtain ⟨w, v⟩ := st
      obtain ⟨⟨w', v'⟩, e, l', lv', k', kv', ka'⟩ := forR_inv 1 n (by omega)
        (fun i (st : List (HRow J) × List (HRow J)) => st.1.length = size ∧ st.2.length = (N + 1) ^ 2 ∧
          KnF η idx N β (fun n' mp _ => mp = 0 ∨ mp = 1 ∨ 0 ≤ mp ∧ (n' < n ∨ n' = n ∧ mp ≤ i)) st.1 ∧
          (∀ n : ℤ, 1 ≤ n → n ≤ N → AtA η (hL2 N) st.2 (nm_index n 1) (Hs β n 1 0) ∧
            AtA η (hL2 N) st.2 (nm_index n 0) (Hs β n 0 (-1))) ∧
          AtA η (hLv N i) st.2 (nm_index n i) (Hs β n i (i - 1)))
        (w, v) (fun mp st => h_body4F F idx C.d n mp st)
        ⟨l, lv, k.mono fun n mp m hw h => by have := wedge_iff.1 hw; omega, kv, by
          rw [sub_self]
          refine (kv n (by omega) (by omega)).1.mono R ?_
          rw [← hLv_zero]; exact hLv_mono (by unfold hRank; simp)⟩
        (fun i st hi1 hi2 ⟨l, lv, k, kv, ka⟩ => by
          obtain ⟨w, v⟩ := st
          obtain ⟨w', v', e, l', lv', k', a', f'⟩ := h_body4F_ok R G GC (n := n) (mp := i) l lv hi1 hi2 (by omega) k
            (fun m => ⟨.inr (.inr (by omega)), .inr (.inr (by omega))⟩) ka
          refine ⟨(w', v'), e, l', lv', k'.mono fun n mp m hw h => by have := wedge_iff.1 hw; omega, fun t ht1 ht2 => ?_, ?_⟩
          · obtain ⟨⟨y1, q1, z1⟩, ⟨y2, q2, z2⟩⟩ := kv t ht1 ht2
            exact ⟨⟨y1, f' _ _ (nm_ne (by rw [abs_le]; omega) (by rw [abs_le]; omega) (.inr (by omega))) q1, z1⟩,
              ⟨y2, f' _ _ (nm_ne (by rw [abs_le]; omega) (by rw [abs_le]; omega) (.inr (by omega))) q2, z2⟩⟩
          · rw [add_sub_cancel_right]; exact a')
      exact ⟨(w', v'), e, l', lv', k'.mono fun n mp m hw h => by have := wedge_iff.1 hw; omega, kv'⟩)
  exact ⟨w', v', e, l, lv, k.mono fun n mp m hw h => by have := wedge_iff.1 hw; omega, kv⟩

theorem h_body5F_ok {idx : ℤ → ℤ → ℤ → ℤ} {N size : ℕ} (G : GoodIdx idx N size) {C : HCoef} (GC : GoodCoefF u C N)
    {w v : List (HRow J)} (hw : w.length = size) (hv : v.length = (N + 1) ^ 2) {n mp : ℤ} (h1 : mp ≤ 0)
    (h2 : -n < mp) (hn : n ≤ N) {S : ℤ → ℤ → ℤ → Prop} (K : KnF η idx N β S w)
    (hS : ∀ m, S n (mp + 1) m ∧ S n mp m) (hV : AtA η (hLv N mp) v (nm_index n mp) (Hs β n mp (-mp - 1)))
    (hV1 : AtA η (hL2 N) v (nm_index n 1) (Hs β n 1 0)) :
    ∃ w' v', h_body5F F idx C.d n mp (w, v) = .ok (w', v') ∧ w'.length = size ∧ v'.length = (N + 1) ^ 2 ∧
      KnF η idx N β (fun n' mp' m' => S n' mp' m' ∨ n' = n ∧ mp' = mp - 1) w' ∧
      AtA η (hLv N (mp - 1)) v' (nm_index n (mp - 1)) (Hs β n (mp - 1) (-mp)) ∧
      ∀ k u, k ≠ nm_index n (mp - 1) → At v k u → At v' k u := by
  unfold h_body5F
  simp only
  -- a common level for `m'` and `m' + 1`
  obtain ⟨q, rq, rq0, rq1⟩ : ∃ q : ℤ, hRank N q + 1 ≤ hRank N (mp - 1) ∧ hRank N mp ≤ hRank N q ∧ hRank N (mp + 1) ≤ hRank N q := by
    by_cases h0 : mp = 0
    · subst h0
      exact ⟨1, by unfold hRank; simp, by unfold hRank; simp, le_rfl⟩
    · refine ⟨mp, ?_, le_rfl, ?_⟩
      · unfold hRank; rw [if_neg (by omega), if_neg (by omega)]; omega
      · unfold hRank; rw [if_neg (by omega : ¬ 0 ≤ mp)]; split <;> omega
  have rot : ∀ m : ℤ, |m| ≤ n → Hs β n (mp - 1) m = fun j => 1 / dco n (mp - 1) *
      (dco n mp * Hs β n (mp + 1) m j + dco n (m - 1) * Hs β n mp (m - 1) j - dco n m * Hs β n mp (m + 1) j) := fun m hm => by
    funext j
    have := Hf_rot (Real.cos (β j / 2)) (Real.sin (β j / 2)) (n := n) (mp := mp) (m := m) (by rw [abs_le]; omega) hm
    have hd := dco_ne (n := n) (m := mp - 1) (by omega) (by omega)
    unfold Hs
    rw [one_div, eq_inv_mul_iff_mul_eq₀ hd]
    linarith
  have hy2 : ∃ y, (if mp = 0 then rd v (nm_index n (mp + 1)) else rd w (idx n (mp + 1) (-mp))) = .ok y ∧
      RowApp η (hLv N q) y (Hs β n (mp + 1) (-mp)) := by
    split
    · next h =>
      subst h
      obtain ⟨y, q1, q2⟩ := hV1
      exact ⟨y, q1.rd, R.drop rq0 (by rw [hLv_zero]; simpa using q2)⟩
    · obtain ⟨y, q1, q2⟩ := K n (mp + 1) (-mp) (wedge_iff.2 (by omega)) (hS _).1
      exact ⟨y, q1.rd, R.drop rq1 q2⟩
  obtain ⟨d5, ed5, nd5⟩ := GC.d n (mp - 1) (by rw [abs_le]; omega) (by omega)
  obtain ⟨d6, ed6, nd6⟩ := GC.d n mp (by rw [abs_le]; omega) (by omega)
  obtain ⟨d7, ed7, nd7⟩ := GC.d n (-mp - 1) (by rw [abs_le]; omega) (by omega)
  obtain ⟨d8, ed8, nd8⟩ := GC.d n (-mp) (by rw [abs_le]; omega) (by omega)
  have A6 := R.coD (by rw [abs_le]; omega) hn nd6
  obtain ⟨er, Ar⟩ := R.coR (by omega) (by omega) hn nd5
  obtain ⟨y2, q2, z2⟩ := hy2
  obtain ⟨y3, q3, z3⟩ := hV
  obtain ⟨y4, q4, z4⟩ := K n mp (-mp + 1) (wedge_iff.2 (by omega)) (hS _).2
  rw [ed5, bind_ok, ed6, bind_ok, er, bind_ok, ed7, bind_ok, ed8, bind_ok, q2, bind_ok, q3.rd, bind_ok, q4.rd, bind_ok]
  have rv := nm_range (N := N) (n := n) (m := mp - 1) (by rw [abs_le]; omega) hn
  obtain ⟨v', ev, lv, av, fv⟩ := wr_at (L := v)
    (fun j => F.mul (F.div 1 d5) (F.add (F.add (F.mul d6 (y2 j)) (F.mul d7 (y3 j))) (-F.mul d8 (y4 j)))) rv.1 (by rw [hv]; exact rv.2)
  have hval : AtA η (hLv N (mp - 1)) v' (nm_index n (mp - 1)) (Hs β n (mp - 1) (-mp)) := ⟨_, av, R.lift rq (fun j => by
    rw [rot (-mp) (by rw [abs_le]; omega)]
    exact (R.ok j).st_5 (Ar j) (A6 j) (R.coD (by rw [abs_le]; omega) hn nd7 j) (R.coD (by rw [abs_le]; omega) hn nd8 j)
      (z2 j) (R.drop rq0 z3 j) (R.drop rq0 z4 j))⟩
  rw [ev, bind_ok]
  obtain ⟨w1, e1, l1, k1⟩ := forR_inv 1 (n + mp) (by omega)
    (fun i w => w.length = size ∧ KnF η idx N β (fun n' mp' m' => S n' mp' m' ∨ n' = n ∧ mp' = mp - 1 ∧ m' < -mp + i) w) w
    (fun i w => do
      let d7 ← rd C.d (i + nm_index n (-mp - 1))
      let d8 ← rd C.d (i + nm_index n (-mp))
      let y2 ← rd w (i + idx n (mp + 1) (-mp))
      let y3 ← rd w (i + idx n mp (-mp - 1))
      let y4 ← rd w (i + idx n mp (-mp + 1))
      SF.wr w (i + idx n (mp - 1) (-mp))
        (fun j => F.mul (F.div 1 d5) (F.add (F.add (F.mul d6 (y2 j)) (F.mul d7 (y3 j))) (-F.mul d8 (y4 j)))))
    ⟨hw, K.mono fun n' mp' m' hw h => by
      have := wedge_iff.1 hw
      rcases h with h | h
      · exact h
      · omega⟩
    (fun i w hi1 hi2 ⟨l, K⟩ => by
      obtain ⟨d7, ed7, nd7⟩ := GC.d n (-mp + i - 1) (by rw [abs_le]; omega) (by omega)
      obtain ⟨d8, ed8, nd8⟩ := GC.d n (-mp + i) (by rw [abs_le]; omega) (by omega)
      obtain ⟨y2, q2, z2⟩ := K n (mp + 1) (-mp + i) (wedge_iff.2 (by omega)) (.inl (hS _).1)
      obtain ⟨y3, q3, z3⟩ := K n mp (-mp + i - 1) (wedge_iff.2 (by omega)) (.inl (hS _).2)
      obtain ⟨y4, q4, z4⟩ := K n mp (-mp + i + 1) (wedge_iff.2 (by omega)) (.inl (hS _).2)
      rw [show i + nm_index n (-mp - 1) = nm_index n (-mp + i - 1) by unfold nm_index; ring,
        ed7, bind_ok,
        show i + nm_index n (-mp) = nm_index n (-mp + i) by unfold nm_index; ring,
        ed8, bind_ok,
        G.add n (mp + 1) (m' := -mp + i) rfl, q2.rd, bind_ok,
        G.add n mp (m' := -mp + i - 1) (by ring), q3.rd, bind_ok,
        G.add n mp (m' := -mp + i + 1) (by ring), q4.rd, bind_ok]
      obtain ⟨w', e, l', k⟩ := K.wr G l (n := n) (mp := mp - 1) (m := -mp + i) (wedge_iff.2 (by omega))
        (i := i + idx n (mp - 1) (-mp)) (G.add n (mp - 1) rfl)
        (v := fun j => F.mul (F.div 1 d5) (F.add (F.add (F.mul d6 (y2 j)) (F.mul d7 (y3 j))) (-F.mul d8 (y4 j))))
        (R.lift rq (fun j => by
          rw [rot (-mp + i) (by rw [abs_le]; omega)]
          exact (R.ok j).st_5 (Ar j) (A6 j) (R.coD (by rw [abs_le]; omega) hn nd7 j) (R.coD (by rw [abs_le]; omega) hn nd8 j)
            (R.drop rq1 z2 j) (R.drop rq0 z3 j) (R.drop rq0 z4 j)))
      refine ⟨w', e, l', k.mono fun n' mp' m' hw h => ?_⟩
      rcases h with h | h
      · exact .inl (.inl h)
      · by_cases hm : m' = -mp + i
        · exact .inr (by omega)
        · exact .inl (.inr (by omega)))
  obtain ⟨d7', ed7', nd7'⟩ := GC.d n (n - 1) (by rw [abs_le]; omega) (by omega)
  obtain ⟨y2', q2', z2'⟩ := k1 n (mp + 1) n (wedge_iff.2 (by omega)) (.inl (hS _).1)
  obtain ⟨y3', q3', z3'⟩ := k1 n mp (n - 1) (wedge_iff.2 (by omega)) (.inl (hS _).2)
  rw [e1, bind_ok, show n + mp + nm_index n (-mp - 1) = nm_index n (n - 1) by unfold nm_index; ring,
    ed7', bind_ok,
    G.add n (mp + 1) (m' := n) (by ring), q2'.rd, bind_ok,
    G.add n mp (m' := n - 1) (by ring), q3'.rd, bind_ok]
  obtain ⟨w', e, l', k⟩ := k1.wr G l1 (n := n) (mp := mp - 1) (m := n) (wedge_iff.2 (by omega)) (i := n + mp + idx n (mp - 1) (-mp))
    (G.add n (mp - 1) (by ring))
    (v := fun j => F.mul (F.div 1 d5) (F.add (F.mul d6 (y2' j)) (F.mul d7' (y3' j))))
    (R.lift rq (fun j => by
      have e : Hs β n (mp - 1) n j = 1 / dco n (mp - 1) * (dco n mp * Hs β n (mp + 1) n j + dco n (n - 1) * Hs β n mp (n - 1) j) := by
        rw [rot n (by rw [abs_le]; omega), dco_top]; ring
      rw [e]
      exact (R.ok j).st_5' (Ar j) (A6 j) (R.coD (by rw [abs_le]; omega) hn nd7' j) (R.drop rq1 z2' j) (R.drop rq0 z3' j)))
  rw [e, bind_ok]
  refine ⟨w', v', rfl, l', by rw [lv, hv], k.mono fun n' mp' m' hw h => ?_, hval, fv⟩
  have := wedge_iff.1 hw
  rcases h with h | h
  · exact .inl (.inl h)
  · by_cases hm : m' = n
    · exact .inr (by omega)
    · exact .inl (.inr (by omega))

theorem h_step_5F_ok {idx : ℤ → ℤ → ℤ → ℤ} {N size : ℕ} (G : GoodIdx idx N size) {C : HCoef}
    (GC : GoodCoefF u C N) {w v : List (HRow J)} (hw : w.length = size) (hv : v.length = (N + 1) ^ 2)
    (K : KnF η idx N β (fun _ mp _ => 0 ≤ mp) w)
    (hV : ∀ n : ℤ, 1 ≤ n → n ≤ N → AtA η (hL2 N) v (nm_index n 1) (Hs β n 1 0) ∧ AtA η (hL2 N) v (nm_index n 0) (Hs β n 0 (-1))) :
    ∃ w' v', h_step_5F F idx C.d C.n_max (w, v) = .ok (w', v') ∧ w'.length = size ∧ v'.length = (N + 1) ^ 2 ∧
      KnF η idx N β (fun _ _ _ => True) w' := by
  unfold h_step_5F
  rw [GC.n_max]
  simp only [pyRangeDown_zero, forL_map]
  obtain ⟨⟨w', v'⟩, e, l, lv, k, kv⟩ := forR_inv 0 ((N : ℤ) + 1) (by omega)
    (fun n (st : List (HRow J) × List (HRow J)) => st.1.length = size ∧ st.2.length = (N + 1) ^ 2 ∧
      KnF η idx N β (fun n' mp _ => 0 ≤ mp ∨ n' < n) st.1 ∧
      ∀ n : ℤ, 1 ≤ n → n ≤ N → AtA η (hL2 N) st.2 (nm_index n 1) (Hs β n 1 0) ∧ AtA η (hL2 N) st.2 (nm_index n 0) (Hs β n 0 (-1)))
    (w, v) (fun n st => forL (pyRange 0 n) st fun mp st => h_body5F F idx C.d n (-mp) st)
    ⟨hw, hv, K.mono fun n mp m hw h => by have := wedge_iff.1 hw; omega, hV⟩
    (fun n st hn1 hn2 ⟨l, lv, k, kv⟩ => by
      obtain ⟨w, v⟩ := st
      by_cases hn0 : n = 0
      · subst hn0
        exact ⟨(w, v), rfl, l, lv, k.mono fun n mp m hw h => by have := wedge_iff.1 hw; omega, kv⟩
      obtain ⟨⟨w', v'⟩, e, l', lv', k', kv', ka'⟩ := forR_inv 0 n (by omega)
        (fun i (st : List (HRow J) × List (HRow J)) => st.1.length = size ∧ st.2.length = (N + 1) ^ 2 ∧
          KnF η idx N β (fun n' mp _ => 0 ≤ mp ∨ n' < n ∨ n' = n ∧ -i ≤ mp) st.1 ∧
          (∀ n : ℤ, 1 ≤ n → n ≤ N → AtA η (hL2 N) st.2 (nm_index n 1) (Hs β n 1 0) ∧
            AtA η (hL2 N) st.2 (nm_index n 0) (Hs β n 0 (-1))) ∧
          AtA η (hLv N (-i)) st.2 (nm_index n (-i)) (Hs β n (-i) (- -i - 1)))
        (w, v) (fun mp st => h_body5F F idx C.d n (-mp) st)
        ⟨l, lv, k.mono fun n mp m hw h => by have := wedge_iff.1 hw; omega, kv, by
          have := (kv n (by omega) (by omega)).2
          rw [← hLv_zero] at this
          exact this⟩
        (fun i st hi1 hi2 ⟨l, lv, k, kv, ka⟩ => by
          obtain ⟨w, v⟩ := st
          obtain ⟨w', v', e, l', lv', k', a', f'⟩ := h_body5F_ok R G GC (n := n) (mp := -i) l lv (by omega) (by omega) (by omega) k
            (fun m => ⟨.inr (.inr (by omega)), .inr (.inr (by omega))⟩) ka (kv n (by omega) (by omega)).1
          refine ⟨(w', v'), e, l', lv', k'.mono fun n mp m hw h => by have := wedge_iff.1 hw; omega, fun t ht1 ht2 => ?_, ?_⟩
          · obtain ⟨⟨y1, q1, z1⟩, ⟨y2, q2, z2⟩⟩ := kv t ht1 ht2
            exact ⟨⟨y1, f' _ _ (nm_ne (by rw [abs_le]; omega) (by rw [abs_le]; omega) (.inr (by omega))) q1, z1⟩,
              ⟨y2, f' _ _ (nm_ne (by rw [abs_le]; omega) (by rw [abs_le]; omega) (.inr (by omega))) q2, z2⟩⟩
          · rw [show -(i + 1) = -i - 1 by ring, show - (-i - 1) - 1 = - -i by ring]; exact a')
      exact ⟨(w', v'), e, l', lv', k'.mono fun n mp m hw h => by have := wedge_iff.1 hw; omega, kv'⟩)
  exact ⟨w', v', e, l, lv, k.mono fun n mp m hw h => by have := wedge_iff.1 hw; omega⟩

theorem h_stepsF_ok {idx : ℤ → ℤ → ℤ → ℤ} {N size : ℕ} (hN : 1 ≤ N) (G : GoodIdx idx N size) {C : HCoef}
    (GC : GoodCoefF u C N) {A : HArr J} (hw : A.w.length = size) (hv : A.v.length = (N + 1) ^ 2)
    (hx : A.x.length = N + 2) :
    ∃ A', h_stepsF F idx C co' si' A = .ok A' ∧ A'.w.length = size ∧
      A'.v.length = (N + 1) ^ 2 ∧ A'.x.length = N + 2 ∧ KnF η idx N β (fun _ _ _ => True) A'.w := by
  unfold h_stepsF h_step_1
  have r0 := G.range 0 0 0 (wedge_iff.2 (by omega))
  rw [G.zero] at r0
  obtain ⟨w1, e1, l1, a1, -⟩ := wr_at (L := A.w) (i := 0) (fun _ : Fin J => (1 : ℝ)) le_rfl (by rw [hw]; exact r0.2)
  rw [e1, bind_ok]
  obtain ⟨A2, e2, lw2, lv2, lx2, k2, kx2, kv2⟩ := h_step_2F_ok R hN G GC (A := { A with w := w1 }) (by rw [← hw, ← l1]) hv hx
    (by
      rw [G.zero, Hs_zero]
      refine ⟨_, a1, fun j => App.self (R.ok j).nonneg ?_⟩
      rw [abs_one]
      have := hL2_ge (N := N) (a := 0) (by omega)
      simpa using this)
  rw [e2, bind_ok]
  obtain ⟨w3, e3, lw3, k3⟩ := h_step_3F_ok R G GC lw2
    (fun n mp m hm h => by subst h; have := wedge_iff.1 hm; rw [hLv_zero]; exact k2 n m (by omega) (by omega) (by omega)) kx2
  rw [e3, bind_ok]
  obtain ⟨w4, v4, e4, lw4, lv4, k4, kv4⟩ := h_step_4F_ok R hN G GC lw3 lv2 k3 kv2
  rw [e4, bind_ok]
  obtain ⟨w5, v5, e5, lw5, lv5, k5⟩ := h_step_5F_ok R G GC lw4 lv4 k4 kv4
  simp only
  rw [e5, bind_ok]
  exact ⟨_, rfl, lw5, lv5, lx2, k5⟩

omit R

/-! ## Step 6 -/

/-- Error bound of every entry. -/
noncomputable def hBound (N : ℕ) : ℝ := hCn N ^ (3 * N + 5)

theorem hLv_le {N : ℕ} {mp : ℤ} (h : |mp| ≤ N) : hLv N mp ≤ hBound N := by
  rw [abs_le] at h
  unfold hLv hBound hRank
  apply hCpow_mono
  split <;> omega

/-- The entries of the full matrices that satisfy `S` approximate their final values. -/
def KfF (η : Fin J → ℝ) (N : ℕ) (β : Fin J → ℝ) (S : ℤ → ℤ → ℤ → Prop) (w : List (HRow J)) : Prop :=
  ∀ n mp m, Spec.IsTriple 0 N (n, mp, m) → S n mp m → AtA η (hBound N) w (nmpm_index n mp m) (Hs β n mp m)

theorem KfF.mono {N : ℕ} {S S' : ℤ → ℤ → ℤ → Prop} {w : List (HRow J)}
    (K : KfF η N β S w) (h : ∀ n mp m, Spec.IsTriple 0 N (n, mp, m) → S' n mp m → S n mp m) : KfF η N β S' w :=
  fun n mp m hw hs => K n mp m hw (h n mp m hw hs)

theorem KfF.wr {N : ℕ} {S : ℤ → ℤ → ℤ → Prop}
    {w : List (HRow J)} (K : KfF η N β S w) (hw : w.length = (LMpM_total_size 0 N).toNat) {n mp m : ℤ}
    (hm : Spec.IsTriple 0 N (n, mp, m)) {v : HRow J} (hv : RowApp η (hBound N) v (Hs β n mp m)) :
    ∃ w', SF.wr w (nmpm_index n mp m) v = .ok w' ∧ w'.length = (LMpM_total_size 0 N).toNat ∧
      KfF η N β (fun n' mp' m' => S n' mp' m' ∨ n' = n ∧ mp' = mp ∧ m' = m) w' := by
  obtain ⟨r0, r1⟩ := nmpm_range hm
  obtain ⟨w', e, l, a, f⟩ := wr_at (L := w) v r0 (by rw [hw]; exact r1)
  refine ⟨w', e, by rw [l, hw], fun n' mp' m' hw' hs => ?_⟩
  by_cases hc : n' = n ∧ mp' = mp ∧ m' = m
  · obtain ⟨rfl, rfl, rfl⟩ := hc
    exact ⟨v, a, hv⟩
  · obtain ⟨y, q1, q2⟩ := K _ _ _ hw' (hs.resolve_right hc)
    exact ⟨y, f _ _ (fun h => hc (nmpm_inj hw' hm h)) q1, q2⟩

theorem h_step_6F_ok {N : ℕ} {w : List (HRow J)} (hw : w.length = (LMpM_total_size 0 N).toNat)
    (K : KfF η N β (fun _ mp m => -m ≤ mp ∧ mp ≤ m) w) :
    ∃ w', h_step_6 N w = .ok w' ∧ w'.length = (LMpM_total_size 0 N).toNat ∧ KfF η N β (fun _ _ _ => True) w' := by
  unfold h_step_6
  obtain ⟨w1, e1, l1, k1⟩ := forR_inv 1 ((N : ℤ) + 1) (by omega)
    (fun n w => w.length = (LMpM_total_size 0 N).toNat ∧
      KfF η N β (fun n' mp m => (-m ≤ mp ∧ mp ≤ m) ∨ 0 ≤ mp + m ∧ n' < n) w) w
    (fun n H => forL (pyRange 1 (n + 1)) H fun mp H =>
      forL (pyRange (max (-mp) (-n)) mp) H fun m H => do
        let y ← rd H (nmpm_index n m mp)
        SF.wr H (nmpm_index n mp m) y)
    ⟨hw, K.mono fun n mp m ht h => by have := triple_iff.1 ht; omega⟩
    (fun n w hn1 hn2 ⟨l, K⟩ => by
      obtain ⟨w', e, l', k⟩ := forR_inv 1 (n + 1) (by omega)
        (fun mp' w => w.length = (LMpM_total_size 0 N).toNat ∧
          KfF η N β (fun n' mp m => (-m ≤ mp ∧ mp ≤ m) ∨ 0 ≤ mp + m ∧ (n' < n ∨ n' = n ∧ mp < mp')) w) w
        (fun mp H => forL (pyRange (max (-mp) (-n)) mp) H fun m H => do
          let y ← rd H (nmpm_index n m mp)
          SF.wr H (nmpm_index n mp m) y)
        ⟨l, K.mono fun n mp m ht h => by have := triple_iff.1 ht; omega⟩
        (fun mp w hp1 hp2 ⟨l, K⟩ => by
          obtain ⟨w', e, l', k⟩ := forR_inv (max (-mp) (-n)) mp (by omega)
            (fun m' w => w.length = (LMpM_total_size 0 N).toNat ∧
              KfF η N β (fun n' mp' m => (-m ≤ mp' ∧ mp' ≤ m) ∨ 0 ≤ mp' + m ∧ (n' < n ∨ n' = n ∧ (mp' < mp ∨ mp' = mp ∧ m < m'))) w) w
            (fun m H => do
              let y ← rd H (nmpm_index n m mp)
              SF.wr H (nmpm_index n mp m) y)
            ⟨l, K.mono fun n mp m ht h => by have := triple_iff.1 ht; omega⟩
            (fun m w hm1 hm2 ⟨l, K⟩ => by
              obtain ⟨y, q1, q2⟩ := K n m mp (triple_iff.2 (by omega)) (.inl (by omega))
              rw [q1.rd, bind_ok]
              obtain ⟨w', e, l', k⟩ := K.wr l (n := n) (mp := mp) (m := m) (triple_iff.2 (by omega)) (v := y)
                (by rw [← Hs_symm β (n := n) (mp := mp) (m := m) (by rw [abs_le]; omega) (by rw [abs_le]; omega)]; exact q2)
              exact ⟨w', e, l', k.mono fun n mp m ht h => by have := triple_iff.1 ht; omega⟩)
          exact ⟨w', e, l', k.mono fun n mp m ht h => by have := triple_iff.1 ht; omega⟩)
      exact ⟨w', e, l', k.mono fun n mp m ht h => by have := triple_iff.1 ht; omega⟩)
  rw [e1, bind_ok]
  obtain ⟨w2, e2, l2, k2⟩ := forR_inv 1 ((N : ℤ) + 1) (by omega)
    (fun n w => w.length = (LMpM_total_size 0 N).toNat ∧
      KfF η N β (fun n' mp m => 0 ≤ mp + m ∨ n' < n) w) w1
    (fun n H => forL (pyRange (-n) n) H fun mp H =>
      forL (pyRange (-n) (-mp)) H fun m H => do
        let y ← rd H (nmpm_index n (-mp) (-m))
        SF.wr H (nmpm_index n mp m) y)
    ⟨l1, k1.mono fun n mp m ht h => by have := triple_iff.1 ht; omega⟩
    (fun n w hn1 hn2 ⟨l, K⟩ => by
      obtain ⟨w', e, l', k⟩ := forR_inv (-n) n (by omega)
        (fun mp' w => w.length = (LMpM_total_size 0 N).toNat ∧
          KfF η N β (fun n' mp m => 0 ≤ mp + m ∨ n' < n ∨ n' = n ∧ mp < mp') w) w
        (fun mp H => forL (pyRange (-n) (-mp)) H fun m H => do
          let y ← rd H (nmpm_index n (-mp) (-m))
          SF.wr H (nmpm_index n mp m) y)
        ⟨l, K.mono fun n mp m ht h => by have := triple_iff.1 ht; omega⟩
        (fun mp w hp1 hp2 ⟨l, K⟩ => by
          obtain ⟨w', e, l', k⟩ := forR_inv (-n) (-mp) (by omega)
            (fun m' w => w.length = (LMpM_total_size 0 N).toNat ∧
              KfF η N β (fun n' mp' m => 0 ≤ mp' + m ∨ n' < n ∨ n' = n ∧ (mp' < mp ∨ mp' = mp ∧ m < m')) w) w
            (fun m H => do
              let y ← rd H (nmpm_index n (-mp) (-m))
              SF.wr H (nmpm_index n mp m) y)
            ⟨l, K.mono fun n mp m ht h => by have := triple_iff.1 ht; omega⟩
            (fun m w hm1 hm2 ⟨l, K⟩ => by
              obtain ⟨y, q1, q2⟩ := K n (-mp) (-m) (triple_iff.2 (by omega)) (.inl (by omega))
              rw [q1.rd, bind_ok]
              obtain ⟨w', e, l', k⟩ := K.wr l (n := n) (mp := mp) (m := m) (triple_iff.2 (by omega)) (v := y)
                (by rw [Hs_neg β (n := n) (mp := mp) (m := m) (by rw [abs_le]; omega) (by rw [abs_le]; omega)] at q2; exact q2)
              exact ⟨w', e, l', k.mono fun n mp m ht h => by have := triple_iff.1 ht; omega⟩)
          exact ⟨w', e, l', k.mono fun n mp m ht h => by have := triple_iff.1 ht; omega⟩)
      exact ⟨w', e, l', k.mono fun n mp m ht h => by have := triple_iff.1 ht; omega⟩)
  exact ⟨w2, e2, l2, k2.mono fun n mp m ht h => by have := triple_iff.1 ht; omega⟩

end

end SF
