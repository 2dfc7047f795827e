import Verif.Lemmas.RoundingM
import Verif.Props.FloatErrorY

/-!
# Property C74: rounding errors of `Wigner_D_matrices` and of D elements of an array of rotors

The arithmetic is that of C70 (`FloatOpsY.Std F u w δ`).  `floatErrM u n = gam u (2 n + 6 + 11 (n/2)) + gam u 4 · 2 π n`, at most
`40 (n+1) u` for `n ≤ 64`, `u ≤ 2^-50`.
-/

set_option autoImplicit false

namespace SF

open Finset ComplexConjugate Quaternion

/-- The larger of the formula's and the shortcuts' error at a unit rotor. -/
noncomputable def matErr (u w eps : ℝ) (ell : ℤ) : ℝ :=
  max (floatErrM u (2 * ell).toNat * Real.sqrt 2 ^ (2 * ell).toNat) ((1 + w) * poleErr (eps / (1 - u)) (2 * ell).toNat + w)

/-! ## Loops that write acceptable values -/

/-- Slot `k` holds an acceptable value. -/
def CorrP (Q : ℕ → ℂ → Prop) (o : List ℂ) (k : ℕ) : Prop := ∃ v, o[k]? = some v ∧ Q k v

theorem wr_rightP {Q : ℕ → ℂ → Prop} {N : ℕ} {o : List ℂ} (hl : o.length = N) {i : ℤ} {v : ℂ} (h0 : 0 ≤ i) (h1 : i.toNat < N)
    (hQ : Q i.toNat v) :
    ∃ o', wr o i v = .ok o' ∧ o'.length = N ∧ (∀ k, CorrP Q o k → CorrP Q o' k) ∧ CorrP Q o' i.toNat := by
  refine ⟨o.set i.toNat v, wr_ok h0 (by omega), by simpa using hl, ?_, ?_⟩
  · rintro k ⟨x, hx, hq⟩
    by_cases h : k = i.toNat
    · subst h; exact ⟨v, by rw [List.getElem?_set_self (by omega)], hQ⟩
    · exact ⟨x, by rw [List.getElem?_set_ne (by omega)]; exact hx, hq⟩
  · exact ⟨v, by rw [List.getElem?_set_self (by omega)], hQ⟩

theorem forL_growP {α : Type} {Q : ℕ → ℂ → Prop} {N : ℕ} (xs : List α) (body : α → List ℂ → Py (List ℂ)) (W : α → ℕ → Prop)
    (hb : ∀ x ∈ xs, ∀ o : List ℂ, o.length = N → ∃ o', body x o = .ok o' ∧ o'.length = N ∧
      (∀ k, CorrP Q o k → CorrP Q o' k) ∧ (∀ k, W x k → CorrP Q o' k)) (o : List ℂ) (ho : o.length = N) :
    ∃ o', forL xs o body = .ok o' ∧ o'.length = N ∧ (∀ k, CorrP Q o k → CorrP Q o' k) ∧
      (∀ x ∈ xs, ∀ k, W x k → CorrP Q o' k) := by
  induction xs generalizing o with
  | nil => exact ⟨o, rfl, ho, fun _ h => h, by simp⟩
  | cons x xs ih =>
    obtain ⟨o1, h1, h2, h3, h4⟩ := hb x (by simp) o ho
    obtain ⟨o2, h5, h6, h7, h8⟩ := ih (fun y hy => hb y (by simp [hy])) o1 h2
    refine ⟨o2, ?_, h6, fun k hk => h7 k (h3 k hk), ?_⟩
    · rw [forL_cons, h1, bind_ok, h5]
    · intro y hy k hk
      rcases List.mem_cons.mp hy with rfl | hy
      · exact h7 k (h4 k hk)
      · exact h8 y hy k hk

/-- Acceptable values in terms of a predicate on elements. -/
def SlotAcc (G : ℤ → ℤ → ℤ → ℂ → Prop) (a b : ℤ) (k : ℕ) (v : ℂ) : Prop :=
  ∃ t, (LMpMlist a b)[k]? = some t ∧ G t.1 t.2.1 t.2.2 v

theorem slot_acc {G : ℤ → ℤ → ℤ → ℂ → Prop} {a b ell mp m : ℤ} (ha : 0 ≤ a) (h1 : a ≤ ell) (h2 : ell ≤ b)
    (h3 : |mp| ≤ ell) (h4 : |m| ≤ ell) :
    0 ≤ slot a ell mp m ∧ (slot a ell mp m).toNat < (LMpMlist a b).length ∧
      (LMpMlist a b)[(slot a ell mp m).toNat]? = some (ell, mp, m) ∧
      ∀ v, G ell mp m v → SlotAcc G a b (slot a ell mp m).toNat v := by
  have e : slot a ell mp m = LMpM_index ell mp m a := (C05_offsets_agree ell mp m a b).1
  rw [abs_le] at h3 h4
  obtain ⟨h5, h6⟩ := LMpMlist_index ha h1 h2 h3.1 h3.2 h4.1 h4.2
  rw [e]
  refine ⟨h5, ?_, h6, fun v hv => ⟨_, h6, hv⟩⟩
  by_contra hc
  rw [List.getElem?_eq_none (by omega)] at h6
  cases h6

/-- The stores of one element and its mirror images. -/
theorem storeF_right {F : FloatOpsY} {G : ℤ → ℤ → ℤ → ℂ → Prop} {a b ell mp m : ℤ} (ha : 0 ≤ a) (h1 : a ≤ ell) (h2 : ell ≤ b)
    (h3 : |mp| ≤ ell) (h4 : |m| ≤ ell) {P1 P2 : ℂ} {S : ℝ}
    (t1 : G ell mp m (smulF F.toFloatOps P1 S))
    (t2 : G ell (-mp) (-m) (smulF F.toFloatOps (if (m + mp) % 2 = 0 then conj P1 else -conj P1) S))
    (t3 : G ell m mp (smulF F.toFloatOps (conj P2) S))
    (t4 : G ell (-m) (-mp) (smulF F.toFloatOps (if (m + mp) % 2 = 0 then P2 else -P2) S))
    (o : List ℂ) (ho : o.length = (LMpMlist a b).length) :
    ∃ o', matsF_store F (linear_matrix_offset ell a) ell mp m P1 P2 S o = .ok o' ∧
      o'.length = (LMpMlist a b).length ∧ (∀ k, CorrP (SlotAcc G a b) o k → CorrP (SlotAcc G a b) o' k) ∧
      (∀ k, W4 a ell mp m k → CorrP (SlotAcc G a b) o' k) := by
  have a3 : |-mp| ≤ ell := by rwa [abs_neg]
  have a4 : |-m| ≤ ell := by rwa [abs_neg]
  obtain ⟨s1, n1, -, q1⟩ := slot_acc (G := G) ha h1 h2 h3 h4
  obtain ⟨s2, n2, -, q2⟩ := slot_acc (G := G) ha h1 h2 a3 a4
  obtain ⟨s3, n3, -, q3⟩ := slot_acc (G := G) ha h1 h2 h4 h3
  obtain ⟨s4, n4, -, q4⟩ := slot_acc (G := G) ha h1 h2 a4 a3
  obtain ⟨o1, w1, l1, g1, k1⟩ := wr_rightP (Q := SlotAcc G a b) ho s1 n1 (q1 _ t1)
  obtain ⟨o2, w2, l2, g2, k2⟩ := wr_rightP l1 s2 n2 (q2 _ t2)
  obtain ⟨o3, w3, l3, g3, k3⟩ := wr_rightP l2 s4 n4 (q4 _ t4)
  obtain ⟨o4, w4, l4, g4, k4⟩ := wr_rightP l3 s3 n3 (q3 _ t3)
  unfold matsF_store
  change ∃ o', (wr o (slot a ell mp m) (smulF F.toFloatOps P1 S) >>= _) = .ok o' ∧ _
  rw [w1, bind_ok]
  by_cases habs : |m| ≠ |mp|
  · refine ⟨o4, ?_, l4, fun k hk => g4 k (g3 k (g2 k (g1 k hk))), ?_⟩
    · rw [if_pos habs]
      by_cases hpar : (m + mp) % 2 = 0
      · rw [if_pos hpar] at w2 w3 ⊢
        change (wr o1 (slot a ell (-mp) (-m)) _ >>= fun o2 => wr o2 (slot a ell (-m) (-mp)) _ >>=
          fun o3 => wr o3 (slot a ell m mp) _) = _
        rw [w2, bind_ok, w3, bind_ok, w4]
      · rw [if_neg hpar] at w2 w3 ⊢
        change (wr o1 (slot a ell (-mp) (-m)) _ >>= fun o2 => wr o2 (slot a ell (-m) (-mp)) _ >>=
          fun o3 => wr o3 (slot a ell m mp) _) = _
        rw [w2, bind_ok, w3, bind_ok, w4]
    · rintro k (rfl | rfl | rfl | rfl)
      · exact g4 _ (g3 _ (g2 _ k1))
      · exact g4 _ (g3 _ k2)
      · exact k4
      · exact g4 _ k3
  · rw [if_neg habs]
    push Not at habs
    by_cases hm : m ≠ 0
    · refine ⟨o2, ?_, l2, fun k hk => g2 k (g1 k hk), ?_⟩
      · rw [if_pos hm]
        by_cases hpar : (m + mp) % 2 = 0
        · rw [if_pos hpar] at w2 ⊢; exact w2
        · rw [if_neg hpar] at w2 ⊢; exact w2
      · rcases abs_eq_abs.mp habs with h | h
        · subst h
          rintro k (rfl | rfl | rfl | rfl)
          · exact g2 _ k1
          · exact k2
          · exact g2 _ k1
          · exact k2
        · subst h
          rw [neg_neg] at k2
          rintro k (rfl | rfl | rfl | rfl) <;> (try rw [neg_neg]) <;> first | exact g2 _ k1 | exact k2
    · push Not at hm
      subst hm
      have : mp = 0 := by simpa using habs.symm
      subst this
      refine ⟨o1, by simp; rfl, l1, g1, ?_⟩
      rintro k (rfl | rfl | rfl | rfl) <;> simpa using k1

/-- The array that results when every slot is acceptable. -/
theorem acc_result {G : ℤ → ℤ → ℤ → ℂ → Prop} {a b : ℤ} (ha : 0 ≤ a) {o : List ℂ} (ho : o.length = (LMpMlist a b).length)
    (h : ∀ ell x y : ℤ, a ≤ ell → ell ≤ b → |x| ≤ ell → |y| ≤ ell → CorrP (SlotAcc G a b) o (slot a ell x y).toNat) :
    ∃ f : ℤ → ℤ → ℤ → ℂ, o = Ftarget f a b ∧
      ∀ ell mp m, a ≤ ell → ell ≤ b → |mp| ≤ ell → |m| ≤ ell → G ell mp m (f ell mp m) := by
  refine ⟨fun ell mp m => (o[(slot a ell mp m).toNat]?).getD 0, ?_, ?_⟩
  · apply List.ext_getElem?
    intro k
    by_cases hk : k < (Ftarget (fun ell mp m => (o[(slot a ell mp m).toNat]?).getD 0) a b).length
    · obtain ⟨ell, g1, g2, x, y, g3, g4, rfl⟩ := cover ha hk
      rw [(Ftarget_slot _ ha g1 (by omega) g3 g4).2]
      obtain ⟨v, hv, -⟩ := h ell x y g1 (by omega) g3 g4
      rw [hv]; rfl
    · have : (Ftarget (fun ell mp m => (o[(slot a ell mp m).toNat]?).getD 0) a b).length = (LMpMlist a b).length := by simp [Ftarget]
      rw [List.getElem?_eq_none (by omega), List.getElem?_eq_none (by omega)]
  · intro ell mp m h1 h2 h3 h4
    obtain ⟨v, hv, t, ht, hg⟩ := h ell mp m h1 h2 h3 h4
    obtain ⟨-, -, e, -⟩ := slot_acc (G := G) (b := b) ha h1 h2 h3 h4
    rw [e] at ht
    obtain rfl := Option.some.inj ht
    simp only
    rw [hv]
    exact hg

/-- The loops of the two generic branches. -/
theorem triple_loop_acc {G : ℤ → ℤ → ℤ → ℂ → Prop} {a b : ℤ} (ha : 0 ≤ a) (body : ℤ → ℤ → ℤ → List ℂ → Py (List ℂ))
    (hbody : ∀ ell mp m, a ≤ ell → ell ≤ b → |mp| ≤ ell → |m| ≤ ell → ∀ o : List ℂ,
      o.length = (LMpMlist a b).length → ∃ o', body ell mp m o = .ok o' ∧ o'.length = (LMpMlist a b).length ∧
      (∀ k, CorrP (SlotAcc G a b) o k → CorrP (SlotAcc G a b) o' k) ∧ (∀ k, W4 a ell mp m k → CorrP (SlotAcc G a b) o' k))
    (o : List ℂ) (ho : o.length = (LMpMlist a b).length) :
    ∃ f : ℤ → ℤ → ℤ → ℂ, forL (pyRange a (b + 1)) o (fun ell o =>
      forL (pyRange (-ell) 1) o fun mp o =>
        forL (pyRange mp (-mp + 1)) o fun m o => body ell mp m o) = .ok (Ftarget f a b) ∧
      ∀ ell mp m, a ≤ ell → ell ≤ b → |mp| ≤ ell → |m| ≤ ell → G ell mp m (f ell mp m) := by
  obtain ⟨o', h1, h2, -, h4⟩ := forL_growP (Q := SlotAcc G a b) (pyRange a (b + 1)) (fun ell o =>
      forL (pyRange (-ell) 1) o fun mp o =>
        forL (pyRange mp (-mp + 1)) o fun m o => body ell mp m o)
    (fun ell k => ∃ mp ∈ pyRange (-ell) 1, ∃ m ∈ pyRange mp (-mp + 1), W4 a ell mp m k)
    (by
      intro ell hell o ho
      rw [mem_pyRange] at hell
      obtain ⟨o1, h1, h2, h3, h4⟩ := forL_growP (Q := SlotAcc G a b) (pyRange (-ell) 1) (fun mp o =>
          forL (pyRange mp (-mp + 1)) o fun m o => body ell mp m o)
        (fun mp k => ∃ m ∈ pyRange mp (-mp + 1), W4 a ell mp m k)
        (by
          intro mp hmp o ho
          rw [mem_pyRange] at hmp
          obtain ⟨o2, h1, h2, h3, h4⟩ := forL_growP (Q := SlotAcc G a b) (pyRange mp (-mp + 1))
            (fun m o => body ell mp m o) (fun m k => W4 a ell mp m k)
            (by
              intro m hm o ho
              rw [mem_pyRange] at hm
              exact hbody ell mp m (by omega) (by omega) (by rw [abs_le]; omega) (by rw [abs_le]; omega) o ho)
            o ho
          exact ⟨o2, h1, h2, h3, fun k ⟨m, hm, hk⟩ => h4 m hm k hk⟩) o ho
      exact ⟨o1, h1, h2, h3, fun k ⟨mp, hmp, hk⟩ => h4 mp hmp k hk⟩) o ho
  obtain ⟨f, rfl, hf⟩ := acc_result (G := G) ha h2 (by
    intro ell x y g1 g2 g3 g4
    obtain ⟨mp, m, g5, g6, g7, g8, g9⟩ := cover4 (a := a) g3 g4
    exact h4 ell (mem_pyRange.mpr ⟨g1, by omega⟩) _ ⟨mp, mem_pyRange.mpr ⟨g5, g6⟩, m, mem_pyRange.mpr ⟨g7, g8⟩, g9⟩)
  exact ⟨f, h1, hf⟩

section
variable {u w : ℝ} {δ : ℕ → ℝ} {F : FloatOpsY} (hF : F.Std u w δ)
include hF

theorem phase_one {Ra Rb : ℂ} {ell mp m : ℤ} (h1 : |mp| ≤ ell) (h2 : |m| ≤ ell) :
    |m + mp| + |m - mp| ≤ ((2 * ell).toNat : ℤ) ∧
    |F.add (F.mul (F.arg Ra) ((m + mp : ℤ) : ℝ)) (F.mul (F.arg Rb) ((m - mp : ℤ) : ℝ))
      - (Complex.arg Ra * ((m + mp : ℤ) : ℝ) + Complex.arg Rb * ((m - mp : ℤ) : ℝ))| ≤ gam u 4 * (2 * Real.pi * (2 * ell).toNat) ∧
    |F.add (F.mul (F.arg Rb) ((m - mp : ℤ) : ℝ)) (F.mul (F.arg Ra) ((m + mp : ℤ) : ℝ))
      - (Complex.arg Ra * ((m + mp : ℤ) : ℝ) + Complex.arg Rb * ((m - mp : ℤ) : ℝ))| ≤ gam u 4 * (2 * Real.pi * (2 * ell).toNat) := by
  have hu0 := hF.u_nonneg
  have hu1 := hF.u_lt_one
  have hij : |m + mp| + |m - mp| ≤ ((2 * ell).toNat : ℤ) := by
    rw [abs_le] at h1 h2
    rcases abs_cases (m + mp) with h | h <;> rcases abs_cases (m - mp) with h' | h' <;> omega
  have pi0 := Real.pi_pos
  have mono : gam u 3 * (Real.pi * (((2 * ell).toNat : ℤ) : ℝ)) ≤ gam u 4 * (2 * Real.pi * (2 * ell).toNat) := by
    have g3 := gam_nonneg hu0 hu1 3
    have g := gam_mono hu0 hu1 (show 3 ≤ 4 by norm_num)
    apply mul_le_mul g _ (by positivity) (g3.trans g)
    rw [Int.cast_natCast]
    have : 0 ≤ Real.pi * ((2 * ell).toNat : ℝ) := by positivity
    nlinarith
  refine ⟨hij, (phase_errY hF Ra Rb _ _ _ hij).trans mono, ?_⟩
  rw [add_comm (Complex.arg Ra * _)]
  exact (phase_errY hF Rb Ra _ _ _ (by rw [add_comm]; exact hij)).trans mono

theorem mats_ge_acc {L : ℤ} {table : List ℝ} (ht : RoundedTable u L table) {Ra Rb : ℂ} (ha0 : Ra ≠ 0) (hb0 : Rb ≠ 0)
    {a b ell mp m : ℤ} (ha : 0 ≤ a) (h1 : a ≤ ell) (h2 : ell ≤ b) (hbL : b ≤ L)
    (h3 : |mp| ≤ ell) (h4 : |m| ≤ ell) (o : List ℂ) (ho : o.length = (LMpMlist a b).length) :
    ∃ o', matsF_ra_ge_rb F table (F.abs Ra) (F.arg Ra) (F.abs Rb) (F.arg Rb) a ell mp m o = .ok o' ∧
      o'.length = (LMpMlist a b).length ∧
      (∀ k, CorrP (SlotAcc (GenericM u Ra Rb) a b) o k → CorrP (SlotAcc (GenericM u Ra Rb) a b) o' k) ∧
      (∀ k, W4 a ell mp m k → CorrP (SlotAcc (GenericM u Ra Rb) a b) o' k) := by
  have hu0 := hF.u_nonneg
  have hu1 := hF.u_lt_one
  obtain ⟨p', q', p, q, hsum, g1, g2, g3, g4⟩ := int_pq h3 h4
  obtain ⟨c, c1, c2⟩ := ht.coeff_int g1 g2 g3 g4 (by omega)
  obtain ⟨S, s1, s2⟩ := regimeA hF (Rb := Rb) ha0 h3 h4 hsum g1 g2 g3 g4
  have hmag := mag_errM hF ha0 hb0 (C := Wcoef p' q' p q) (τ := 1) (by rw [one_mul]; exact c2)
    (e1 := 2 * ell - m + mp - 2 * max 0 (mp - m)) (e2 := m - mp + 2 * max 0 (mp - m)) (n := (2 * ell).toNat)
    (by omega) (by omega) (by omega)
  rw [one_mul] at hmag
  have hd0 : F.mul (F.mul c (F.ipow (F.abs Ra) (2 * ell - m + mp - 2 * max 0 (mp - m)))) (F.ipow (F.abs Rb) (m - mp + 2 * max 0 (mp - m))) ≠ 0 := by
    apply hmag.ne_zero hu0 hu1
    exact mul_ne_zero (mul_ne_zero (Wcoef_ne_zero hsum) (zpow_ne_zero _ (norm_ne_zero_iff.mpr ha0))) (zpow_ne_zero _ (norm_ne_zero_iff.mpr hb0))
  obtain ⟨hij, ph1, -⟩ := phase_one hF (Ra := Ra) (Rb := Rb) h3 h4
  have ph2 := phase_err2 hF Ra Rb _ _ _ hij (B := F.mul (-F.arg Ra) ((m + mp : ℤ) : ℝ))
    (((hF.mul (-F.arg Ra) ((m + mp : ℤ) : ℝ)).fac hu0 hu1).trans hu0 hu1
      ((((hF.arg Ra).fac hu0 hu1).neg hu0 hu1).mul hu0 hu1 (Near.refl hu0 hu1 _)))
    (V := F.add (F.mul (-F.arg Ra) ((m + mp : ℤ) : ℝ)) (F.mul (F.add (F.arg Rb) F.pi) ((m - mp : ℤ) : ℝ)))
    (by rw [add_comm (F.mul (F.add (F.arg Rb) F.pi) _)]; exact (hF.add _ _).fac hu0 hu1)
  rw [Int.cast_natCast] at ph2
  have hR := s2 (if max 0 (mp - m) % 2 ≠ 0
      then -F.mul (F.mul c (F.ipow (F.abs Ra) (2 * ell - m + mp - 2 * max 0 (mp - m)))) (F.ipow (F.abs Rb) (m - mp + 2 * max 0 (mp - m)))
      else F.mul (F.mul c (F.ipow (F.abs Ra) (2 * ell - m + mp - 2 * max 0 (mp - m)))) (F.ipow (F.abs Rb) (m - mp + 2 * max 0 (mp - m))))
    (by
      split_ifs
      · rw [neg_one_mul]; exact hmag.neg hu0 hu1
      · rw [one_mul]; exact hmag)
  obtain ⟨v1, v2, v3, v4⟩ := hR.values hF h3 h4 ph1 ph2
  unfold matsF_ra_ge_rb
  simp only [c1, bind_ok]
  rw [if_neg hd0, s1, bind_ok]
  exact storeF_right ha h1 h2 h3 h4 v1 v2 v3 v4 o ho

theorem mats_lt_acc {L : ℤ} {table : List ℝ} (ht : RoundedTable u L table) {Ra Rb : ℂ} (ha0 : Ra ≠ 0) (hb0 : Rb ≠ 0)
    {a b ell mp m : ℤ} (ha : 0 ≤ a) (h1 : a ≤ ell) (h2 : ell ≤ b) (hbL : b ≤ L)
    (h3 : |mp| ≤ ell) (h4 : |m| ≤ ell) (o : List ℂ) (ho : o.length = (LMpMlist a b).length) :
    ∃ o', matsF_ra_lt_rb F table (F.abs Ra) (F.arg Ra) (F.abs Rb) (F.arg Rb) a ell mp m o = .ok o' ∧
      o'.length = (LMpMlist a b).length ∧
      (∀ k, CorrP (SlotAcc (GenericM u Ra Rb) a b) o k → CorrP (SlotAcc (GenericM u Ra Rb) a b) o' k) ∧
      (∀ k, W4 a ell mp m k → CorrP (SlotAcc (GenericM u Ra Rb) a b) o' k) := by
  have hu0 := hF.u_nonneg
  have hu1 := hF.u_lt_one
  obtain ⟨p', q', p, q, hsum, g1, g2, g3, g4⟩ := int_pq h3 h4
  obtain ⟨c, c1, c2⟩ := ht.coeff_int (p' := q') (q' := p') (ell := ell) (mp := -mp) (m := m) (by omega) (by omega) g3 g4 (by omega)
  push_cast at c1
  obtain ⟨S, s1, s2⟩ := regimeB hF (Ra := Ra) hb0 h3 h4 hsum g1 g2 g3 g4
  have hmag := mag_errM hF hb0 ha0 (C := Wcoef q' p' p q) (τ := 1) (by rw [one_mul]; exact c2)
    (e1 := 2 * ell - m - mp - 2 * max 0 (-mp - m)) (e2 := m + mp + 2 * max 0 (-mp - m)) (n := (2 * ell).toNat)
    (by omega) (by omega) (by omega)
  rw [one_mul] at hmag
  have hd0 : F.mul (F.mul c (F.ipow (F.abs Rb) (2 * ell - m - mp - 2 * max 0 (-mp - m)))) (F.ipow (F.abs Ra) (m + mp + 2 * max 0 (-mp - m))) ≠ 0 := by
    apply hmag.ne_zero hu0 hu1
    exact mul_ne_zero (mul_ne_zero (Wcoef_ne_zero (by omega)) (zpow_ne_zero _ (norm_ne_zero_iff.mpr hb0))) (zpow_ne_zero _ (norm_ne_zero_iff.mpr ha0))
  obtain ⟨hij, -, ph1⟩ := phase_one hF (Ra := Ra) (Rb := Rb) h3 h4
  have ph2 := phase_err2 hF Ra Rb _ _ _ hij (B := -F.mul (F.arg Ra) ((m + mp : ℤ) : ℝ))
    (by
      have := ((hF.mul (F.arg Ra) ((m + mp : ℤ) : ℝ)).fac hu0 hu1).trans hu0 hu1
        (((hF.arg Ra).fac hu0 hu1).mul hu0 hu1 (Near.refl hu0 hu1 _))
      rw [neg_mul]
      exact this.neg hu0 hu1)
    (V := F.add (F.mul (F.add (F.arg Rb) F.pi) ((m - mp : ℤ) : ℝ)) (-F.mul (F.arg Ra) ((m + mp : ℤ) : ℝ)))
    ((hF.add _ _).fac hu0 hu1)
  rw [Int.cast_natCast] at ph2
  have hR := s2 (if (ell + m + max 0 (-mp - m)) % 2 ≠ 0
      then -F.mul (F.mul c (F.ipow (F.abs Rb) (2 * ell - m - mp - 2 * max 0 (-mp - m)))) (F.ipow (F.abs Ra) (m + mp + 2 * max 0 (-mp - m)))
      else F.mul (F.mul c (F.ipow (F.abs Rb) (2 * ell - m - mp - 2 * max 0 (-mp - m)))) (F.ipow (F.abs Ra) (m + mp + 2 * max 0 (-mp - m))))
    (by
      split_ifs
      · rw [neg_one_mul]; exact hmag.neg hu0 hu1
      · rw [one_mul]; exact hmag)
  obtain ⟨v1, v2, v3, v4⟩ := hR.values hF h3 h4 ph1 ph2
  unfold matsF_ra_lt_rb
  simp only [c1, bind_ok]
  rw [if_neg hd0, s1, bind_ok]
  exact storeF_right ha h1 h2 h3 h4 v1 v2 v3 v4 o ho

omit hF in
theorem generic_matErr (hu0 : 0 ≤ u) (hu1 : u < 1) {eps : ℝ} {Ra Rb : ℂ} (hu : Spec.IsUnit' Ra Rb) {ell mp m : ℤ} {v : ℂ}
    (h : GenericM u Ra Rb ell mp m v) : ‖v - Spec.wignerD Ra Rb (2 * ell) (2 * mp) (2 * m)‖ ≤ matErr u w eps ell :=
  h.1.trans ((mul_le_mul_of_nonneg_left (norm_sum_unit hu _) (floatErrM_nonneg hu0 hu1 _)).trans (le_max_left _ _))

/-- The shortcut for `ra <= epsilon`. -/
theorem shortcut_ra {eps : ℝ} {Ra Rb : ℂ} (hu : Spec.IsUnit' Ra Rb) (he1 : eps < 1 - u) (k : F.abs Ra ≤ eps) {ell mp m : ℤ}
    (h1 : |mp| ≤ ell) (h2 : |m| ≤ ell) :
    ‖(if mp = -m then (if (ell + mp) % 2 = 0 then F.cpow Rb (-2 * mp) else -F.cpow Rb (-2 * mp)) else 0)
      - Spec.wignerD Ra Rb (2 * ell) (2 * mp) (2 * m)‖ ≤ matErr u w eps ell := by
  have hu1 := hF.u_lt_one
  have hx1 : eps / (1 - u) < 1 := by rw [div_lt_one (by linarith)]; exact he1
  have h0 : 0 ≤ ell := by have := abs_nonneg m; omega
  have hn : ((2 * ell).toNat : ℤ) = 2 * ell := by omega
  have hv := validD_int h1 h2
  rw [← hn] at hv
  have := small_elem_ra hF.toStd hu (absF_le hF.toStd k) hx1 hv
  rw [hn] at this
  refine (le_of_eq ?_).trans (this.trans (le_max_right _ _))
  congr 2
  unfold elemF_ra_small
  rw [abs_le] at h1 h2
  by_cases h : mp = -m
  · have hc : ¬(2 * mp ≠ -(2 * m) ∨ |2 * mp| > 2 * ell ∨ |2 * m| > 2 * ell) := by
      simp only [not_or, not_lt, gt_iff_lt, abs_le]; omega
    rw [if_pos h, if_neg hc]
    have e : -2 * mp = 2 * m := by omega
    rw [e]
    split_ifs <;> first | rfl | omega
  · rw [if_neg h, if_pos (by left; omega)]

/-- The shortcut for `rb <= epsilon`. -/
theorem shortcut_rb {eps : ℝ} {Ra Rb : ℂ} (hu : Spec.IsUnit' Ra Rb) (he1 : eps < 1 - u) (k : F.abs Rb ≤ eps) {ell mp m : ℤ}
    (h1 : |mp| ≤ ell) (h2 : |m| ≤ ell) :
    ‖(if mp = m then F.cpow Ra (2 * mp) else 0) - Spec.wignerD Ra Rb (2 * ell) (2 * mp) (2 * m)‖ ≤ matErr u w eps ell := by
  have hu1 := hF.u_lt_one
  have hx1 : eps / (1 - u) < 1 := by rw [div_lt_one (by linarith)]; exact he1
  have h0 : 0 ≤ ell := by have := abs_nonneg m; omega
  have hn : ((2 * ell).toNat : ℤ) = 2 * ell := by omega
  have hv := validD_int h1 h2
  rw [← hn] at hv
  have := small_elem_rb hF.toStd hu (absF_le hF.toStd k) hx1 hv
  rw [hn] at this
  refine (le_of_eq ?_).trans (this.trans (le_max_right _ _))
  congr 2
  unfold elemF_rb_small
  rw [abs_le] at h1 h2
  by_cases h : mp = m
  · have hc : ¬(2 * mp ≠ 2 * m ∨ |2 * mp| > 2 * ell ∨ |2 * m| > 2 * ell) := by
      simp only [not_or, not_lt, gt_iff_lt, abs_le]; omega
    rw [if_pos h, if_neg hc, h]
  · rw [if_neg h, if_pos (by left; omega)]

/-- **C74.** `_Wigner_D_matrices` in floating-point arithmetic, for any pair `(Ra, Rb)`: it succeeds and fills the whole array, the
element `(ell, mp, m)` at the position given by `LMpM_index`.  If the computed moduli exceed the cut-off (no normalisation needed),
every element is within `floatErrM u (2 ell) · (|Ra| + |Rb|)^(2 ell)` of the D function, and those with `|mp| = ell` or `|m| = ell`
are accurate in the *relative* sense; at *every* unit rotor, poles included, every element is within `matErr u w eps ell`. -/
theorem C74_matrices {L : ℤ} {table : List ℝ} (ht : RoundedTable u L table) (eps : ℝ) (he : 0 ≤ eps) (he1 : eps < 1 - u)
    (Ra Rb : ℂ) {a b : ℤ} (ha : 0 ≤ a) (hbL : b ≤ L) (matrices : List ℂ) (hlen : matrices.length = (LMpMlist a b).length) :
    ∃ (f : ℤ → ℤ → ℤ → ℂ) (out : List ℂ), Wigner_D_matrices_kernelF F eps table Ra Rb a b matrices = .ok out ∧
      out.length = matrices.length ∧
      ∀ ell mp m, a ≤ ell → ell ≤ b → |mp| ≤ ell → |m| ≤ ell →
        out[(LMpM_index ell mp m a).toNat]? = some (f ell mp m) ∧
        (eps < F.abs Ra → eps < F.abs Rb →
          ‖f ell mp m - Spec.wignerD Ra Rb (2 * ell) (2 * mp) (2 * m)‖
            ≤ floatErrM u (2 * ell).toNat * (‖Ra‖ + ‖Rb‖) ^ (2 * ell).toNat ∧
          (|mp| = ell ∨ |m| = ell → ‖f ell mp m - Spec.wignerD Ra Rb (2 * ell) (2 * mp) (2 * m)‖
            ≤ floatErrM u (2 * ell).toNat * ‖Spec.wignerD Ra Rb (2 * ell) (2 * mp) (2 * m)‖)) ∧
        (Spec.IsUnit' Ra Rb → ‖f ell mp m - Spec.wignerD Ra Rb (2 * ell) (2 * mp) (2 * m)‖ ≤ matErr u w eps ell) := by
  have hu0 := hF.u_nonneg
  have hu1 := hF.u_lt_one
  suffices h : ∃ f : ℤ → ℤ → ℤ → ℂ, Wigner_D_matrices_kernelF F eps table Ra Rb a b matrices = .ok (Ftarget f a b) ∧
      ∀ ell mp m, a ≤ ell → ell ≤ b → |mp| ≤ ell → |m| ≤ ell →
        (eps < F.abs Ra → eps < F.abs Rb → GenericM u Ra Rb ell mp m (f ell mp m)) ∧
        (Spec.IsUnit' Ra Rb → ‖f ell mp m - Spec.wignerD Ra Rb (2 * ell) (2 * mp) (2 * m)‖ ≤ matErr u w eps ell) by
    obtain ⟨f, e, hf⟩ := h
    refine ⟨f, _, e, by rw [hlen]; simp [Ftarget], fun ell mp m g1 g2 g3 g4 => ⟨?_, hf ell mp m g1 g2 g3 g4⟩⟩
    have := (Ftarget_slot f ha g1 g2 g3 g4).2
    have es : slot a ell mp m = LMpM_index ell mp m a := (C05_offsets_agree ell mp m a b).1
    rwa [es] at this
  have hT : ∀ f : ℤ → ℤ → ℤ → ℂ, matrices.length = (Ftarget f a b).length := by intro f; rw [hlen]; simp [Ftarget]
  unfold Wigner_D_matrices_kernelF
  simp only
  split_ifs with k1 k2 k3
  · refine ⟨fun ell mp m => if mp = -m then (if (ell + mp) % 2 = 0 then F.cpow Rb (-2 * mp) else -F.cpow Rb (-2 * mp)) else 0,
      block_loop_right ha _ ?_ matrices (hT _), fun ell mp m g1 g2 g3 g4 =>
      ⟨fun h => absurd k1 (not_le.mpr h), fun hU => shortcut_ra hF hU he1 k1 g3 g4⟩⟩
    intro ell g1 g2 o ho
    refine block_right ha g1 g2 (fun mp => -mp) (fun mp h => by rwa [abs_neg]) ?_ _ ?_ o ho
    · intro mp m k1 k2 k3
      rw [if_neg (by omega)]
    · intro mp k1 o
      simp only
      rw [if_pos (neg_neg mp).symm]
      by_cases hp : (ell + mp) % 2 = 0
      · rw [if_pos hp, if_pos hp]; rfl
      · rw [if_neg hp, if_neg hp]; rfl
  · refine ⟨fun ell mp m => if mp = m then F.cpow Ra (2 * mp) else 0,
      block_loop_right ha _ ?_ matrices (hT _), fun ell mp m g1 g2 g3 g4 =>
      ⟨fun _ h => absurd k2 (not_le.mpr h), fun hU => shortcut_rb hF hU he1 k2 g3 g4⟩⟩
    intro ell g1 g2 o ho
    refine block_right ha g1 g2 (fun mp => mp) (fun mp h => h) ?_ _ ?_ o ho
    · intro mp m k1 k2 k3
      rw [if_neg (by omega)]
    · intro mp k1 o
      rw [if_pos rfl]
      unfold slot
      rw [← (C05_offsets_agree ell mp mp a b).2.1]
  · have ha0 := absF_pos hF.toStd he k1
    have hb0 := absF_pos hF.toStd he k2
    obtain ⟨f, f1, f2⟩ := triple_loop_acc (G := GenericM u Ra Rb) ha _ (fun ell mp m g1 g2 g3 g4 o ho =>
      mats_lt_acc hF ht ha0 hb0 ha g1 g2 hbL g3 g4 o ho) matrices hlen
    exact ⟨f, f1, fun ell mp m g1 g2 g3 g4 => ⟨fun _ _ => f2 ell mp m g1 g2 g3 g4, fun hU =>
      generic_matErr hu0 hu1 hU (f2 ell mp m g1 g2 g3 g4)⟩⟩
  · have ha0 := absF_pos hF.toStd he k1
    have hb0 := absF_pos hF.toStd he k2
    obtain ⟨f, f1, f2⟩ := triple_loop_acc (G := GenericM u Ra Rb) ha _ (fun ell mp m g1 g2 g3 g4 o ho =>
      mats_ge_acc hF ht ha0 hb0 ha g1 g2 hbL g3 g4 o ho) matrices hlen
    exact ⟨f, f1, fun ell mp m g1 g2 g3 g4 => ⟨fun _ _ => f2 ell mp m g1 g2 g3 g4, fun hU =>
      generic_matErr hu0 hu1 hU (f2 ell mp m g1 g2 g3 g4)⟩⟩

/-- One rotor of the array path. -/
theorem elements_value {eps : ℝ} (he : 0 ≤ eps) (he1 : eps < 1 - u) {ell mp m : ℤ} (h1 : |mp| ≤ ell) (h2 : |m| ≤ ell)
    {p' q' p q : ℕ} (hsum : p' + q' = p + q) (g1 : ell + mp = p') (g2 : ell - mp = q') (g3 : ell + m = p) (g4 : ell - m = q)
    {A B : ℝ} (hA : RelErr u A ((if max 0 (mp - m) % 2 ≠ 0 then -1 else 1) * Wcoef p' q' p q))
    (hB : RelErr u B ((if (ell + m + max 0 (-mp - m)) % 2 ≠ 0 then -1 else 1) * Wcoef q' p' p q)) (Q : ℍ[ℝ]) :
    ∃ v, D_elements_valueF F eps A B ell mp m (comps Q) = .ok v ∧
      (eps < F.abs (partA Q) → eps < F.abs (partB Q) → GenericM u (partA Q) (partB Q) ell mp m v) ∧
      (normSq Q = 1 → ‖v - Spec.wignerD (partA Q) (partB Q) (2 * ell) (2 * mp) (2 * m)‖ ≤ matErr u w eps ell) := by
  have hu0 := hF.u_nonneg
  have hu1 := hF.u_lt_one
  unfold D_elements_valueF
  have cA : (⟨(comps Q).1, (comps Q).2.2.2⟩ : ℂ) = partA Q := rfl
  have cB : (⟨(comps Q).2.2.1, (comps Q).2.1⟩ : ℂ) = partB Q := rfl
  have cM : max 0 (-m - mp) = max 0 (-mp - m) := by congr 1; ring
  simp only [cA, cB, cM]
  by_cases k1 : F.abs (partA Q) ≤ eps
  · rw [if_pos k1]
    refine ⟨if mp = -m then (if (ell + mp) % 2 = 0 then F.cpow (partB Q) (-2 * mp) else -F.cpow (partB Q) (-2 * mp)) else 0, ?_,
      fun h => absurd k1 (not_le.mpr h), fun hQ => shortcut_ra hF (unitQ.mpr hQ) he1 k1 h1 h2⟩
    split_ifs <;> first | rfl | contradiction
  rw [if_neg k1]
  by_cases k2 : F.abs (partB Q) ≤ eps
  · rw [if_pos k2]
    refine ⟨if mp = m then F.cpow (partA Q) (2 * mp) else 0, ?_,
      fun _ h => absurd k2 (not_le.mpr h), fun hQ => shortcut_rb hF (unitQ.mpr hQ) he1 k2 h1 h2⟩
    split_ifs <;> first | rfl | contradiction
  rw [if_neg k2]
  have ha0 := absF_pos hF.toStd he k1
  have hb0 := absF_pos hF.toStd he k2
  obtain ⟨-, ph1, ph1'⟩ := phase_one hF (Ra := partA Q) (Rb := partB Q) h1 h2
  have e2 : |(-Complex.arg (partA Q) * ((m + mp : ℤ) : ℝ) + (Complex.arg (partB Q) + Real.pi) * ((m - mp : ℤ) : ℝ))
      - (-Complex.arg (partA Q) * ((m + mp : ℤ) : ℝ) + (Complex.arg (partB Q) + Real.pi) * ((m - mp : ℤ) : ℝ))|
      ≤ gam u 4 * (2 * Real.pi * (2 * ell).toNat) := by
    rw [sub_self, abs_zero]
    have := gam_nonneg hu0 hu1 4
    have := Real.pi_pos
    positivity
  by_cases k3 : F.abs (partA Q) < F.abs (partB Q)
  · rw [if_pos k3]
    obtain ⟨S, s1, s2⟩ := regimeB hF (Ra := partA Q) hb0 h1 h2 hsum g1 g2 g3 g4
    have hmag := mag_errM hF hb0 ha0 hB (e1 := 2 * ell - m - mp - 2 * max 0 (-mp - m)) (e2 := m + mp + 2 * max 0 (-mp - m))
      (n := (2 * ell).toNat) (by omega) (by omega) (by omega)
    obtain ⟨v1, -⟩ := (s2 _ hmag).values hF h1 h2 ph1' e2
    refine ⟨_, ?_, fun _ _ => v1, fun hQ => generic_matErr hu0 hu1 (unitQ.mpr hQ) v1⟩
    rw [if_neg, s1]
    · rfl
    · apply hmag.ne_zero hu0 hu1
      refine mul_ne_zero (by split_ifs <;> simp) (mul_ne_zero (mul_ne_zero (Wcoef_ne_zero (by omega)) ?_) ?_)
      · exact zpow_ne_zero _ (norm_ne_zero_iff.mpr hb0)
      · exact zpow_ne_zero _ (norm_ne_zero_iff.mpr ha0)
  · rw [if_neg k3]
    obtain ⟨S, s1, s2⟩ := regimeA hF (Rb := partB Q) ha0 h1 h2 hsum g1 g2 g3 g4
    have hmag := mag_errM hF ha0 hb0 hA (e1 := 2 * ell - m + mp - 2 * max 0 (mp - m)) (e2 := m - mp + 2 * max 0 (mp - m))
      (n := (2 * ell).toNat) (by omega) (by omega) (by omega)
    obtain ⟨v1, -⟩ := (s2 _ hmag).values hF h1 h2 ph1 e2
    refine ⟨_, ?_, fun _ _ => v1, fun hQ => generic_matErr hu0 hu1 (unitQ.mpr hQ) v1⟩
    rw [if_neg, s1]
    · rfl
    · apply hmag.ne_zero hu0 hu1
      refine mul_ne_zero (by split_ifs <;> simp) (mul_ne_zero (mul_ne_zero (Wcoef_ne_zero hsum) ?_) ?_)
      · exact zpow_ne_zero _ (norm_ne_zero_iff.mpr ha0)
      · exact zpow_ne_zero _ (norm_ne_zero_iff.mpr hb0)

/-- **C74.** `_Wigner_D_elements` (one element at an array of quaternions) in floating-point arithmetic: it succeeds for every array;
an element out of range is exactly zero; for an element in range, quaternions whose two parts have computed moduli above the cut-off
(no normalisation needed) obey the bounds of `C74_matrices`, and so does *every* unit quaternion. -/
theorem C74_array {L : ℤ} {table : List ℝ} (ht : RoundedTable u L table) (eps : ℝ) (he : 0 ≤ eps) (he1 : eps < 1 - u)
    (qs : List ℍ[ℝ]) (ell mp m : ℤ) (hle : ell ≤ L) (values : List ℂ) (hlen : values.length = qs.length) :
    ∃ f : ℍ[ℝ] → ℂ, Wigner_D_elements_kernelF F eps table (qs.map comps) ell mp m values = .ok (qs.map f) ∧
      ∀ q ∈ qs, (¬ (|mp| ≤ ell ∧ |m| ≤ ell) → f q = 0) ∧
        (|mp| ≤ ell → |m| ≤ ell →
          (eps < F.abs (partA q) → eps < F.abs (partB q) →
            ‖f q - Spec.wignerD (partA q) (partB q) (2 * ell) (2 * mp) (2 * m)‖
              ≤ floatErrM u (2 * ell).toNat * (‖partA q‖ + ‖partB q‖) ^ (2 * ell).toNat ∧
            (|mp| = ell ∨ |m| = ell → ‖f q - Spec.wignerD (partA q) (partB q) (2 * ell) (2 * mp) (2 * m)‖
              ≤ floatErrM u (2 * ell).toNat * ‖Spec.wignerD (partA q) (partB q) (2 * ell) (2 * mp) (2 * m)‖)) ∧
          (normSq q = 1 → ‖f q - Spec.wignerD (partA q) (partB q) (2 * ell) (2 * mp) (2 * m)‖ ≤ matErr u w eps ell)) := by
  by_cases h : |mp| ≤ ell ∧ |m| ≤ ell
  swap
  · have hcond : (|m| > ell ∨ |mp| > ell) := by
      by_contra hc
      rw [not_or, not_lt, not_lt] at hc
      exact h ⟨hc.2, hc.1⟩
    refine ⟨fun _ => 0, ?_, fun q _ => ⟨fun _ => rfl, fun a b => absurd ⟨a, b⟩ h⟩⟩
    unfold Wigner_D_elements_kernelF
    simp only [hcond, if_true]
    have := forL_map_wr (qs.map comps) values (by simpa using hlen) (fun _ => .ok (0 : ℂ)) (fun _ => 0) (fun _ _ => rfl)
    rw [List.map_map] at this
    refine Eq.trans ?_ this
    apply forL_congr
    intro i hi st
    rw [mem_pyRange] at hi
    have : (qs.map comps)[i.toNat]? = some (qs.map comps)[i.toNat] := List.getElem?_eq_getElem (by omega)
    rw [rd_ok hi.1 this]
    rfl
  obtain ⟨h1, h2⟩ := h
  obtain ⟨p', q', p, q, hsum, g1, g2, g3, g4⟩ := int_pq h1 h2
  obtain ⟨ca, ca1, ca2⟩ := ht.coeff_int g1 g2 g3 g4 hle
  obtain ⟨cb, cb1, cb2⟩ := ht.coeff_int (p' := q') (q' := p') (ell := ell) (mp := -mp) (m := m) (by omega) (by omega) g3 g4 hle
  push_cast at ca1 cb1
  have neg_rel : ∀ x y : ℝ, RelErr u x y → RelErr u (-x) (-y) := by
    intro x y hxy
    unfold RelErr at *
    rw [abs_neg, ← neg_sub', abs_neg]
    exact hxy
  have cM : max 0 (-m - mp) = max 0 (-mp - m) := by congr 1; ring
  have hA : RelErr u (if max 0 (mp - m) % 2 ≠ 0 then -ca else ca) ((if max 0 (mp - m) % 2 ≠ 0 then -1 else 1) * Wcoef p' q' p q) := by
    split_ifs
    · rw [neg_one_mul]; exact neg_rel _ _ ca2
    · rw [one_mul]; exact ca2
  have hB : RelErr u (if (ell + m + max 0 (-m - mp)) % 2 ≠ 0 then -cb else cb)
      ((if (ell + m + max 0 (-mp - m)) % 2 ≠ 0 then -1 else 1) * Wcoef q' p' p q) := by
    rw [cM]
    split_ifs
    · rw [neg_one_mul]; exact neg_rel _ _ cb2
    · rw [one_mul]; exact cb2
  have key := fun Q => elements_value hF he he1 h1 h2 hsum g1 g2 g3 g4 hA hB Q
  refine ⟨fun Q => (key Q).choose, ?_, fun Q _ => ⟨fun hn => absurd ⟨h1, h2⟩ hn, fun _ _ => (key Q).choose_spec.2⟩⟩
  unfold Wigner_D_elements_kernelF
  simp only
  rw [if_neg (by rintro (h | h) <;> omega), ca1, bind_ok, cb1, bind_ok]
  have := forL_map_wr (qs.map comps) values (by simpa using hlen) (D_elements_valueF F eps _ _ ell mp m)
    (fun R => (key (mkQ R.1 R.2.1 R.2.2.1 R.2.2.2)).choose)
    (by
      intro R hR
      obtain ⟨Q, hQ, rfl⟩ := List.mem_map.mp hR
      exact (key Q).choose_spec.1)
  rw [List.map_map] at this
  exact this

end

/-- **C74.** The bound is linear: for `n = 2 ell ≤ 64` and `u ≤ 2^-50` it is at most `40 (n + 1) u`. -/
theorem C74_bound {u : ℝ} (h0 : 0 ≤ u) (hu : u ≤ 2 ^ (-50 : ℤ)) {n : ℕ} (hn : n ≤ 64) : floatErrM u n ≤ 40 * (n + 1) * u := by
  have hu' : u ≤ 1 / 10 ^ 15 := hu.trans (by norm_num)
  have hu1 : u < 1 := lt_of_le_of_lt hu' (by norm_num)
  have g : ∀ k : ℕ, k ≤ 524 → gam u k ≤ k * u * (1 + 1 / 10 ^ 6) := by
    intro k hk
    have hk' : (k : ℝ) ≤ 524 := by exact_mod_cast hk
    have hku : (k : ℝ) * u ≤ 1 / 10 ^ 7 := by nlinarith
    have ku0 : 0 ≤ (k : ℝ) * u := by positivity
    have := gam_le h0 hu1 (k := k) (by linarith)
    refine this.trans ?_
    rw [div_le_iff₀ (by linarith)]
    nlinarith
  unfold floatErrM
  have hpi := Real.pi_lt_d2
  have hpi0 := Real.pi_pos
  have g1 := g (2 * n + 6 + 11 * (n / 2)) (by omega)
  have g2 := g 4 (by norm_num)
  have n0 : (0 : ℝ) ≤ n := by positivity
  have e1 : ((2 * n + 6 + 11 * (n / 2) : ℕ) : ℝ) ≤ 7.5 * n + 6 := by
    have : 2 * (2 * n + 6 + 11 * (n / 2)) ≤ 15 * n + 12 := by omega
    have h : (2 : ℝ) * ((2 * n + 6 + 11 * (n / 2) : ℕ) : ℝ) ≤ 15 * n + 12 := by exact_mod_cast this
    linarith
  have f1 : gam u (2 * n + 6 + 11 * (n / 2)) ≤ (7.5 * n + 6) * u * (1 + 1 / 10 ^ 6) := g1.trans (by gcongr)
  have f2 : gam u 4 * (2 * Real.pi * n) ≤ (4 * u * (1 + 1 / 10 ^ 6)) * (2 * 3.15 * n) := by
    push_cast at g2
    gcongr
  have : (7.5 * (n : ℝ) + 6) * u * (1 + 1 / 10 ^ 6) + (4 * u * (1 + 1 / 10 ^ 6)) * (2 * 3.15 * n) ≤ 40 * (n + 1) * u := by
    have : ((7.5 * (n : ℝ) + 6) * (1 + 1 / 10 ^ 6) + (4 * (1 + 1 / 10 ^ 6)) * (2 * 3.15 * n)) ≤ 40 * (n + 1) := by
      norm_num; linarith
    nlinarith [mul_le_mul_of_nonneg_right this h0]
  linarith

/-- **C74.** In numbers: with `u ≤ 2^-50`, `epsilon = 1e-15` and complex powers accurate to `1e-14`, every element with `ell ≤ 8` is
within `2e-10` at every unit rotor. -/
theorem C74_double {u w : ℝ} (hu0 : 0 ≤ u) (hw0 : 0 ≤ w) (hu50 : u ≤ 2 ^ (-50 : ℤ)) (hw : w ≤ 1 / 10 ^ 14) (ell : ℤ)
    (h8 : ell ≤ 8) : matErr u w (1 / 10 ^ 15) ell ≤ 2 / 10 ^ 10 := by
  have hu' : u ≤ 1 / 10 ^ 15 := hu50.trans (by norm_num)
  have hn : (2 * ell).toNat ≤ 16 := by omega
  unfold matErr
  set n := (2 * ell).toNat
  have hn' : (n : ℝ) ≤ 16 := by exact_mod_cast hn
  have n0 : (0 : ℝ) ≤ n := by positivity
  apply max_le
  · have b := C74_bound hu0 hu50 (show n ≤ 64 by omega)
    have s : Real.sqrt 2 ^ n ≤ 256 := by
      have h1 : (1 : ℝ) ≤ Real.sqrt 2 := by rw [Real.one_le_sqrt]; norm_num
      calc Real.sqrt 2 ^ n ≤ Real.sqrt 2 ^ 16 := pow_le_pow_right₀ h1 hn
        _ = (Real.sqrt 2 ^ 2) ^ 8 := by rw [← pow_mul]
        _ = 256 := by rw [Real.sq_sqrt (by norm_num)]; norm_num
    have b2 : 40 * ((n : ℝ) + 1) * u ≤ 680 * 2 ^ (-50 : ℤ) := by
      have : 40 * ((n : ℝ) + 1) ≤ 680 := by linarith
      gcongr
    calc floatErrM u n * Real.sqrt 2 ^ n ≤ (680 * 2 ^ (-50 : ℤ)) * 256 := by
          apply mul_le_mul (b.trans b2) s (by positivity) (by positivity)
      _ ≤ _ := by norm_num
  · set x := 1 / 10 ^ 15 / (1 - u) with hx
    have x1 : x ≤ 2 / 10 ^ 15 := by
      rw [hx, div_le_iff₀ (by linarith)]
      linarith
    have x0 : 0 ≤ x := by rw [hx]; apply div_nonneg (by norm_num); linarith
    have p : poleErr x n ≤ poleErr (2 / 10 ^ 15) 16 := by
      refine (poleErr_mono x0 x1 (by norm_num) n).trans ?_
      unfold poleErr
      have a1 : ((1 - (2 / 10 ^ 15 : ℝ) ^ 2) ^ 16) ≤ ((1 - (2 / 10 ^ 15 : ℝ) ^ 2) ^ n) :=
        pow_le_pow_of_le_one (by norm_num) (by norm_num) hn
      have a2 := inv_anti₀ (by norm_num) a1
      push_cast
      have : ((n : ℝ) + 2) * (2 / 10 ^ 15) ≤ (16 + 2) * (2 / 10 ^ 15) := by gcongr
      linarith
    have p2 : poleErr (2 / 10 ^ 15) 16 ≤ 1 / 10 ^ 13 := by unfold poleErr; norm_num
    have p0 := poleErr_nonneg x0 (lt_of_le_of_lt x1 (by norm_num)) n
    have : (1 + w) * poleErr x n ≤ 2 * (1 / 10 ^ 13) := by
      apply mul_le_mul (by linarith) (p.trans p2) p0 (by norm_num)
    have : (2 : ℝ) * (1 / 10 ^ 13) + 1 / 10 ^ 14 ≤ 2 / 10 ^ 10 := by norm_num
    linarith

/-! ## The hypotheses are met -/

/-- All matrices with `ell ≤ 8` of a generic rotor and of the identity (a pole), and an element at an array of quaternions, one of
them not normalised. -/
example : ∃ table, RoundedTable (2 ^ (-53 : ℤ)) 32 table ∧
    (∃ (f : ℤ → ℤ → ℤ → ℂ) (out : List ℂ), Wigner_D_matrices_kernelF F53Y (1 / 10 ^ 15) table (3 / 5) (4 / 5) 0 8
      (List.replicate (LMpMlist 0 8).length 7) = .ok out ∧ out[(LMpM_index 8 (-3) 5 0).toNat]? = some (f 8 (-3) 5) ∧
      ‖f 8 (-3) 5 - Spec.wignerD (3 / 5) (4 / 5) (2 * 8) (2 * -3) (2 * 5)‖ ≤ 2 / 10 ^ 10) ∧
    (∃ (f : ℤ → ℤ → ℤ → ℂ) (out : List ℂ), Wigner_D_matrices_kernelF F53Y (1 / 10 ^ 15) table 1 0 2 8
      (List.replicate (LMpMlist 2 8).length 7) = .ok out ∧ out[(LMpM_index 3 2 2 2).toNat]? = some (f 3 2 2) ∧
      ‖f 3 2 2 - Spec.wignerD 1 0 (2 * 3) (2 * 2) (2 * 2)‖ ≤ 2 / 10 ^ 10) ∧
    (∃ f : ℍ[ℝ] → ℂ, Wigner_D_elements_kernelF F53Y (1 / 10 ^ 15) table ([(1 : ℍ[ℝ]), 5].map comps) 8 3 (-2) [7, 7] = .ok [f 1, f 5] ∧
      ‖f 1 - Spec.wignerD (partA 1) (partB 1) (2 * 8) (2 * 3) (2 * -2)‖ ≤ 2 / 10 ^ 10) := by
  obtain ⟨t, ht⟩ := IsWignerTable.exists 32 (by norm_num)
  have tt := table53 ht
  have u1 : Spec.IsUnit' (3 / 5) (4 / 5) := by
    unfold Spec.IsUnit'
    rw [map_div₀, map_div₀]
    norm_num [Complex.normSq_apply]
  have u2 : Spec.IsUnit' 1 0 := by simp [Spec.IsUnit']
  have h50 : (2 : ℝ) ^ (-53 : ℤ) ≤ 2 ^ (-50 : ℤ) := by norm_num
  have num : ∀ ell : ℤ, ell ≤ 8 → _ := fun ell h8 => C74_double (u := 2 ^ (-53 : ℤ)) (w := 2 ^ (-53 : ℤ)) (by norm_num) (by norm_num) h50 (by norm_num) ell h8
  refine ⟨_, tt, ?_, ?_, ?_⟩
  · obtain ⟨f, out, e, -, h⟩ := C74_matrices F53Y_std tt (1 / 10 ^ 15) (by norm_num) (by norm_num) (3 / 5) (4 / 5) (a := 0) (b := 8)
      (by norm_num) (by norm_num) (List.replicate (LMpMlist 0 8).length 7) (by simp)
    obtain ⟨a, -, c⟩ := h 8 (-3) 5 (by norm_num) (by norm_num) (by norm_num) (by norm_num)
    exact ⟨f, out, e, a, (c u1).trans (num 8 (by norm_num))⟩
  · obtain ⟨f, out, e, -, h⟩ := C74_matrices F53Y_std tt (1 / 10 ^ 15) (by norm_num) (by norm_num) 1 0 (a := 2) (b := 8)
      (by norm_num) (by norm_num) (List.replicate (LMpMlist 2 8).length 7) (by simp)
    obtain ⟨a, -, c⟩ := h 3 2 2 (by norm_num) (by norm_num) (by norm_num) (by norm_num)
    exact ⟨f, out, e, a, (c u2).trans (num 3 (by norm_num))⟩
  · obtain ⟨f, e, h⟩ := C74_array F53Y_std tt (1 / 10 ^ 15) (by norm_num) (by norm_num) [1, 5] 8 3 (-2) (by norm_num) [7, 7] rfl
    exact ⟨f, e, (((h 1 (by simp)).2 (by norm_num) (by norm_num)).2 (by simp)).trans (num 8 (by norm_num))⟩

end SF
