import Verif.Lemmas.WignerH

/-!
# Index functions, coefficients and the last step of the H calculators
-/

set_option autoImplicit false

namespace SF

theorem goodIdx_wedge (N : ℕ) : GoodIdx wedge_index N (wedge_size N).toNat where
  zero := by decide
  lin := fun n mp m i => by
    unfold wedge_index
    split
    · rw [show 2 * n * (n + 1) * (n + 2) + 3 * mp * (2 * n - mp + 1) + 6 * (m + i) =
        2 * n * (n + 1) * (n + 2) + 3 * mp * (2 * n - mp + 1) + 6 * m + 6 * i by ring]
      omega
    · rw [show 2 * n * (n + 1) * (n + 2) + 3 * mp * (2 * n + mp + 3) + 6 * (m + i) =
        2 * n * (n + 1) * (n + 2) + 3 * mp * (2 * n + mp + 3) + 6 * m + 6 * i by ring]
      omega
  range := fun n mp m h => by
    have := (C52_wedge_index_bijOn N (by omega)).1.mapsTo (x := (n, mp, m)) h
    simp only [Set.mem_Ico] at this
    omega
  inj := fun n mp m n' mp' m' h h' e => by
    have := (C52_wedge_index_bijOn N (by omega)).1.injOn (x₁ := (n, mp, m)) h (x₂ := (n', mp', m')) h' e
    simpa using this

theorem wedge_triple {N : ℕ} {n mp m : ℤ} (h : Spec.IsWedge N (n, mp, m)) : Spec.IsTriple 0 N (n, mp, m) := by
  obtain ⟨h0, h1, h2, h3⟩ := h
  simp only at h0 h1 h2 h3
  refine ⟨h0, h1, by simp only; omega, ?_⟩
  simp only [abs_le] at h2 ⊢
  omega

theorem nmpm_range {N : ℕ} {n mp m : ℤ} (h : Spec.IsTriple 0 N (n, mp, m)) :
    0 ≤ nmpm_index n mp m ∧ nmpm_index n mp m < ((LMpM_total_size 0 N).toNat : ℤ) := by
  have := (C53_nm_nmpm_index N (by omega)).2.1.mapsTo (x := (n, mp, m)) h
  simp only [Set.mem_Ico] at this
  omega

theorem nmpm_inj {N : ℕ} {n mp m n' mp' m' : ℤ} (h : Spec.IsTriple 0 N (n, mp, m)) (h' : Spec.IsTriple 0 N (n', mp', m'))
    (e : nmpm_index n mp m = nmpm_index n' mp' m') : n = n' ∧ mp = mp' ∧ m = m' := by
  have := (C53_nm_nmpm_index N (by omega)).2.1.injOn (x₁ := (n, mp, m)) h (x₂ := (n', mp', m')) h' e
  simpa using this

theorem goodIdx_nmpm (N : ℕ) : GoodIdx nmpm_index N (LMpM_total_size 0 N).toNat where
  zero := by decide
  lin := fun n mp m i => by
    unfold nmpm_index
    rw [show ((4 * n + 6) * n + 6 * mp + 5) * n + 3 * (m + i + mp) =
      ((4 * n + 6) * n + 6 * mp + 5) * n + 3 * (m + mp) + 3 * i by ring]
    omega
  range := fun n mp m h => nmpm_range (wedge_triple h)
  inj := fun n mp m n' mp' m' h h' e => nmpm_inj (wedge_triple h) (wedge_triple h') e

theorem nmPairs_at {N : ℤ} {n m : ℤ} (h1 : |m| ≤ n) (h2 : n ≤ N + 1) :
    0 ≤ nm_index n m ∧ (nmPairs N)[(nm_index n m).toNat]? = some (n, m) := by
  rw [abs_le] at h1
  have := LMlist_index (a := 0) (b := N + 1) (l := n) (m := m) le_rfl (by omega) h2 h1.1 h1.2
  have e : nm_index n m = LM_index n m 0 := by unfold nm_index LM_index; ring
  rw [e]
  unfold LMlist at this
  unfold nmPairs
  rw [show N + 2 = N + 1 + 1 by ring]
  exact this

theorem nabsmPairs_at {N : ℤ} {n m : ℤ} (h0 : 0 ≤ m) (h1 : m ≤ n) (h2 : n ≤ N + 1) :
    0 ≤ nabsm_index n m ∧ (nabsmPairs N)[(nabsm_index n m).toNat]? = some (n, m) := by
  have hp := nabsmList_length2 (b := n - 1) (by omega)
  have hk : m.toNat < (((pyRange 0 (n + 1)).map fun m => (n, m)) : List (ℤ × ℤ)).length := by
    simp; omega
  have hg := flatMap_pyRange_getElem? (fun n => (pyRange 0 (n + 1)).map fun m => (n, m))
    (show 0 ≤ n by omega) (show n < N + 2 by omega) hk
  have e : nabsm_index n m = ((nabsmList (n - 1)).length : ℤ) + m := by
    unfold nabsm_index
    rw [show n * (n + 1) = 2 * ((nabsmList (n - 1)).length : ℤ) by linear_combination -hp]
    omega
  refine ⟨by omega, ?_⟩
  have e2 : (nabsm_index n m).toNat = (nabsmList (n - 1)).length + m.toNat := by omega
  rw [e2]
  unfold nabsmList at *
  unfold nabsmPairs
  rw [show n - 1 + 1 = n by ring, hg, List.getElem?_map, pyRange_getElem? (by omega)]
  simp only [Option.map_some, Option.some.injEq, Prod.mk.injEq, true_and]
  omega

theorem goodCoef_make {junk : ℤ → ℝ} {N : ℕ} {C : HCoef} (h : HCoef.make junk N = .ok C) : GoodCoef C N := by
  unfold HCoef.make at h
  rw [if_neg (by omega)] at h
  cases h
  refine ⟨rfl, fun n m h0 h1 h2 => ?_, fun n m h1 h2 => ?_, fun n m h1 h2 => ?_, fun n m h0 h1 h2 => ?_, fun n m h0 h1 h2 => ?_⟩
  · obtain ⟨p0, p1⟩ := nabsmPairs_at h0 h1 h2
    refine rd_ok p0 ?_
    rw [List.getElem?_map, p1]; rfl
  · obtain ⟨p0, p1⟩ := nmPairs_at h1 h2
    refine rd_ok p0 ?_
    rw [List.getElem?_map, p1]
    simp only [Option.map_some, bco]
    congr 1
    split <;> ring
  · obtain ⟨p0, p1⟩ := nmPairs_at h1 h2
    refine rd_ok p0 ?_
    rw [List.getElem?_map, p1]
    simp only [Option.map_some, dco]
    congr 1
    split <;> ring
  · obtain ⟨p0, p1⟩ := nmPairs_at (n := n) (m := m) (by rw [abs_le]; omega) h2
    refine rd_ok p0 ?_
    rw [List.getElem?_map, p1]
    simp only [Option.map_some, if_neg h1.ne', gco]
  · obtain ⟨p0, p1⟩ := nmPairs_at (n := n) (m := m) (by rw [abs_le]; omega) h2
    refine rd_ok p0 ?_
    rw [List.getElem?_map, p1]
    simp only [Option.map_some, if_neg h1.ne', hco]

/-! ## Step 6 -/

/-- The entries of the full matrices that satisfy `S` have their final values. -/
def Kf {J : ℕ} (N : ℕ) (β : Fin J → ℝ) (S : ℤ → ℤ → ℤ → Prop) (w : List (HRow J)) : Prop :=
  ∀ n mp m, Spec.IsTriple 0 N (n, mp, m) → S n mp m → At w (nmpm_index n mp m) (Hs β n mp m)

theorem triple_iff {N : ℕ} {n mp m : ℤ} : Spec.IsTriple 0 N (n, mp, m) ↔ n ≤ N ∧ -n ≤ mp ∧ mp ≤ n ∧ -n ≤ m ∧ m ≤ n := by
  unfold Spec.IsTriple
  simp only [abs_le]
  omega

theorem Kf.mono {J : ℕ} {N : ℕ} {β : Fin J → ℝ} {S S' : ℤ → ℤ → ℤ → Prop} {w : List (HRow J)}
    (K : Kf N β S w) (h : ∀ n mp m, Spec.IsTriple 0 N (n, mp, m) → S' n mp m → S n mp m) : Kf N β S' w :=
  fun n mp m hw hs => K n mp m hw (h n mp m hw hs)

theorem Kf.wr {J : ℕ} {N : ℕ} {β : Fin J → ℝ} {S : ℤ → ℤ → ℤ → Prop}
    {w : List (HRow J)} (K : Kf N β S w) (hw : w.length = (LMpM_total_size 0 N).toNat) {n mp m : ℤ}
    (hm : Spec.IsTriple 0 N (n, mp, m)) {v : HRow J} (hv : v = Hs β n mp m) :
    ∃ w', SF.wr w (nmpm_index n mp m) v = .ok w' ∧ w'.length = (LMpM_total_size 0 N).toNat ∧
      Kf N β (fun n' mp' m' => S n' mp' m' ∨ n' = n ∧ mp' = mp ∧ m' = m) w' := by
  subst hv
  obtain ⟨r0, r1⟩ := nmpm_range hm
  obtain ⟨w', e, l, a, f⟩ := wr_at (L := w) (Hs β n mp m) r0 (by rw [hw]; exact r1)
  refine ⟨w', e, by rw [l, hw], fun n' mp' m' hw' hs => ?_⟩
  by_cases hc : n' = n ∧ mp' = mp ∧ m' = m
  · obtain ⟨rfl, rfl, rfl⟩ := hc
    exact a
  · exact f _ _ (fun h => hc (nmpm_inj hw' hm h)) (K _ _ _ hw' (hs.resolve_right hc))

theorem h_step_6_ok {J : ℕ} {N : ℕ} (β : Fin J → ℝ) {w : List (HRow J)} (hw : w.length = (LMpM_total_size 0 N).toNat)
    (K : Kn nmpm_index N β (fun _ _ _ => True) w) :
    ∃ w', h_step_6 N w = .ok w' ∧ w'.length = (LMpM_total_size 0 N).toNat ∧ Kf N β (fun _ _ _ => True) w' := by
  have K0 : Kf N β (fun _ mp m => -m ≤ mp ∧ mp ≤ m) w := fun n mp m ht hs =>
    K n mp m (wedge_iff.2 (by have := triple_iff.1 ht; omega)) trivial
  unfold h_step_6
  obtain ⟨w1, e1, l1, k1⟩ := forR_inv 1 ((N : ℤ) + 1) (by omega)
    (fun n w => w.length = (LMpM_total_size 0 N).toNat ∧
      Kf N β (fun n' mp m => (-m ≤ mp ∧ mp ≤ m) ∨ 0 ≤ mp + m ∧ n' < n) w) w
    (fun n H => forL (pyRange 1 (n + 1)) H fun mp H =>
      forL (pyRange (max (-mp) (-n)) mp) H fun m H => do
        let y ← rd H (nmpm_index n m mp)
        SF.wr H (nmpm_index n mp m) y)
    ⟨hw, K0.mono fun n mp m ht h => by have := triple_iff.1 ht; omega⟩
    (fun n w hn1 hn2 ⟨l, K⟩ => by
      obtain ⟨w', e, l', k⟩ := forR_inv 1 (n + 1) (by omega)
        (fun mp' w => w.length = (LMpM_total_size 0 N).toNat ∧
          Kf N β (fun n' mp m => (-m ≤ mp ∧ mp ≤ m) ∨ 0 ≤ mp + m ∧ (n' < n ∨ n' = n ∧ mp < mp')) w) w
        (fun mp H => forL (pyRange (max (-mp) (-n)) mp) H fun m H => do
          let y ← rd H (nmpm_index n m mp)
          SF.wr H (nmpm_index n mp m) y)
        ⟨l, K.mono fun n mp m ht h => by have := triple_iff.1 ht; omega⟩
        (fun mp w hp1 hp2 ⟨l, K⟩ => by
          obtain ⟨w', e, l', k⟩ := forR_inv (max (-mp) (-n)) mp (by omega)
            (fun m' w => w.length = (LMpM_total_size 0 N).toNat ∧
              Kf N β (fun n' mp' m => (-m ≤ mp' ∧ mp' ≤ m) ∨ 0 ≤ mp' + m ∧ (n' < n ∨ n' = n ∧ (mp' < mp ∨ mp' = mp ∧ m < m'))) w) w
            (fun m H => do
              let y ← rd H (nmpm_index n m mp)
              SF.wr H (nmpm_index n mp m) y)
            ⟨l, K.mono fun n mp m ht h => by have := triple_iff.1 ht; omega⟩
            (fun m w hm1 hm2 ⟨l, K⟩ => by
              rw [(K n m mp (triple_iff.2 (by omega)) (.inl (by omega))).rd, bind_ok]
              obtain ⟨w', e, l', k⟩ := K.wr l (n := n) (mp := mp) (m := m) (triple_iff.2 (by omega)) (v := Hs β n m mp)
                (Hs_symm β (by rw [abs_le]; omega) (by rw [abs_le]; omega))
              exact ⟨w', e, l', k.mono fun n mp m ht h => by have := triple_iff.1 ht; omega⟩)
          exact ⟨w', e, l', k.mono fun n mp m ht h => by have := triple_iff.1 ht; omega⟩)
      exact ⟨w', e, l', k.mono fun n mp m ht h => by have := triple_iff.1 ht; omega⟩)
  rw [e1, bind_ok]
  obtain ⟨w2, e2, l2, k2⟩ := forR_inv 1 ((N : ℤ) + 1) (by omega)
    (fun n w => w.length = (LMpM_total_size 0 N).toNat ∧
      Kf N β (fun n' mp m => 0 ≤ mp + m ∨ n' < n) w) w1
    (fun n H => forL (pyRange (-n) n) H fun mp H =>
      forL (pyRange (-n) (-mp)) H fun m H => do
        let y ← rd H (nmpm_index n (-mp) (-m))
        SF.wr H (nmpm_index n mp m) y)
    ⟨l1, k1.mono fun n mp m ht h => by have := triple_iff.1 ht; omega⟩
    (fun n w hn1 hn2 ⟨l, K⟩ => by
      obtain ⟨w', e, l', k⟩ := forR_inv (-n) n (by omega)
        (fun mp' w => w.length = (LMpM_total_size 0 N).toNat ∧
          Kf N β (fun n' mp m => 0 ≤ mp + m ∨ n' < n ∨ n' = n ∧ mp < mp') w) w
        (fun mp H => forL (pyRange (-n) (-mp)) H fun m H => do
          let y ← rd H (nmpm_index n (-mp) (-m))
          SF.wr H (nmpm_index n mp m) y)
        ⟨l, K.mono fun n mp m ht h => by have := triple_iff.1 ht; omega⟩
        (fun mp w hp1 hp2 ⟨l, K⟩ => by
          obtain ⟨w', e, l', k⟩ := forR_inv (-n) (-mp) (by omega)
            (fun m' w => w.length = (LMpM_total_size 0 N).toNat ∧
              Kf N β (fun n' mp' m => 0 ≤ mp' + m ∨ n' < n ∨ n' = n ∧ (mp' < mp ∨ mp' = mp ∧ m < m')) w) w
            (fun m H => do
              let y ← rd H (nmpm_index n (-mp) (-m))
              SF.wr H (nmpm_index n mp m) y)
            ⟨l, K.mono fun n mp m ht h => by have := triple_iff.1 ht; omega⟩
            (fun m w hm1 hm2 ⟨l, K⟩ => by
              rw [(K n (-mp) (-m) (triple_iff.2 (by omega)) (.inl (by omega))).rd, bind_ok]
              obtain ⟨w', e, l', k⟩ := K.wr l (n := n) (mp := mp) (m := m) (triple_iff.2 (by omega)) (v := Hs β n (-mp) (-m))
                (Hs_neg β (by rw [abs_le]; omega) (by rw [abs_le]; omega))
              exact ⟨w', e, l', k.mono fun n mp m ht h => by have := triple_iff.1 ht; omega⟩)
          exact ⟨w', e, l', k.mono fun n mp m ht h => by have := triple_iff.1 ht; omega⟩)
      exact ⟨w', e, l', k.mono fun n mp m ht h => by have := triple_iff.1 ht; omega⟩)
  exact ⟨w2, e2, l2, k2.mono fun n mp m ht h => by have := triple_iff.1 ht; omega⟩

end SF
