import Verif.Lemmas.DSym
import Verif.Props.Index

/-! # `_Wigner_D_elements` and `_Wigner_D_matrices` -/

set_option autoImplicit false

namespace SF

open ComplexConjugate

theorem wD_conj (Ra Rb : ℂ) {ell mp m : ℤ} (h1 : |mp| ≤ ell) (h2 : |m| ≤ ell) :
    conj (Spec.wignerD Ra Rb (2 * ell) (2 * mp) (2 * m))
      = (if (m + mp) % 2 = 0 then 1 else -1) * Spec.wignerD Ra Rb (2 * ell) (2 * -mp) (2 * -m) := by
  obtain ⟨p', q', p, q, hsum, g1, g2, g3, g4⟩ := int_pq h1 h2
  rw [wignerD_pq Ra Rb hsum (by omega) (by omega) (by omega),
    wignerD_pq Ra Rb (p' := q') (q' := p') (p := q) (q := p) (by omega) (by omega) (by omega) (by omega),
    Dpq_conj Ra Rb hsum, neg_one_pow_iffC]
  congr 1
  split_ifs <;> first | rfl | omega

theorem wD_inv (Ra Rb : ℂ) {ell mp m : ℤ} (h1 : |mp| ≤ ell) (h2 : |m| ≤ ell) :
    Spec.wignerD (conj Ra) (-Rb) (2 * ell) (2 * mp) (2 * m)
      = conj (Spec.wignerD Ra Rb (2 * ell) (2 * m) (2 * mp)) := by
  obtain ⟨p', q', p, q, hsum, g1, g2, g3, g4⟩ := int_pq h1 h2
  rw [wignerD_pq (conj Ra) (-Rb) hsum (by omega) (by omega) (by omega),
    wignerD_pq Ra Rb (p' := p) (q' := q) (p := p') (q := q') (by omega) (by omega) (by omega) (by omega),
    Dpq_inv Ra Rb hsum]

theorem validD_int {ell mp m : ℤ} (h1 : |mp| ≤ ell) (h2 : |m| ≤ ell) :
    Spec.ValidD (2 * ell) (2 * mp) (2 * m) := by
  rw [abs_le] at h1 h2
  refine ⟨?_, ?_, by omega, by omega⟩ <;> rw [abs_le] <;> omega

/-- The values in the two degenerate regimes, for integer indices. -/
theorem wD_ra_zero {Rb : ℂ} (hu : Complex.normSq Rb = 1) {ell mp m : ℤ} (h1 : |mp| ≤ ell) (h2 : |m| ≤ ell) :
    Spec.wignerD 0 Rb (2 * ell) (2 * mp) (2 * m)
      = if mp = -m then (if (ell + mp) % 2 = 0 then 1 else -1) * Rb ^ (-2 * mp) else 0 := by
  obtain ⟨p', q', p, q, hsum, g1, g2, g3, g4⟩ := int_pq h1 h2
  rw [wignerD_pq 0 Rb hsum (by omega) (by omega) (by omega), Dpq_ra_zero hu hsum]
  by_cases h : mp = -m
  · rw [if_pos h, if_pos (by omega), neg_one_pow_iffC]
    have : (p : ℤ) - q = -2 * mp := by omega
    rw [this]
    congr 1
    split_ifs <;> first | rfl | omega
  · rw [if_neg h, if_neg (by omega)]

theorem wD_rb_zero {Ra : ℂ} (hu : Complex.normSq Ra = 1) {ell mp m : ℤ} (h1 : |mp| ≤ ell) (h2 : |m| ≤ ell) :
    Spec.wignerD Ra 0 (2 * ell) (2 * mp) (2 * m) = if mp = m then Ra ^ (2 * mp) else 0 := by
  obtain ⟨p', q', p, q, hsum, g1, g2, g3, g4⟩ := int_pq h1 h2
  rw [wignerD_pq Ra 0 hsum (by omega) (by omega) (by omega), Dpq_rb_zero hu hsum]
  by_cases h : mp = m
  · rw [if_pos h, if_pos (by omega)]
    congr 1; omega
  · rw [if_neg h, if_neg (by omega)]

/-! ## `_Wigner_D_elements` -/

/-- Complex parts of a quaternion given by its float components (w,x,y,z). -/
def qa (R : ℝ × ℝ × ℝ × ℝ) : ℂ := ⟨R.1, R.2.2.2⟩
/-- Complex parts of a quaternion given by its float components (w,x,y,z). -/
def qb (R : ℝ × ℝ × ℝ × ℝ) : ℂ := ⟨R.2.2.1, R.2.1⟩

theorem unit_ra_small {Ra Rb : ℂ} (hu : Spec.IsUnit' Ra Rb) (h : ‖Ra‖ ≤ epsilon) : Rb ≠ 0 := by
  rintro rfl
  have h1 : ‖Ra‖ ^ 2 = 1 := by
    have : Complex.normSq Ra = 1 := by simpa [Spec.IsUnit'] using hu
    rwa [Complex.normSq_eq_norm_sq] at this
  have h2 : epsilon < 1 := by unfold epsilon; norm_num
  nlinarith [norm_nonneg Ra]

theorem unit_rb_small {Ra Rb : ℂ} (hu : Spec.IsUnit' Ra Rb) (h : ‖Rb‖ ≤ epsilon) : Ra ≠ 0 :=
  unit_ra_small (Ra := Rb) (by unfold Spec.IsUnit' at *; linarith) h

/-- What every code path returns for an element with integer indices, for an arbitrary unit rotor. -/
noncomputable def Dret (Ra Rb : ℂ) (ell mp m : ℤ) : ℂ :=
  open scoped Classical in
  if ‖Ra‖ ≤ epsilon then
    if mp = -m then (if (ell + mp) % 2 = 0 then 1 else -1) * Rb ^ (-2 * mp) else 0
  else if ‖Rb‖ ≤ epsilon then
    if mp = m then Ra ^ (2 * mp) else 0
  else Spec.wignerD Ra Rb (2 * ell) (2 * mp) (2 * m)

theorem Dret_ra {Ra Rb : ℂ} (h : ‖Ra‖ ≤ epsilon) (ell mp m : ℤ) :
    Dret Ra Rb ell mp m = if mp = -m then (if (ell + mp) % 2 = 0 then 1 else -1) * Rb ^ (-2 * mp) else 0 := by
  unfold Dret; rw [if_pos h]

theorem Dret_rb {Ra Rb : ℂ} (h1 : ¬ ‖Ra‖ ≤ epsilon) (h : ‖Rb‖ ≤ epsilon) (ell mp m : ℤ) :
    Dret Ra Rb ell mp m = if mp = m then Ra ^ (2 * mp) else 0 := by
  unfold Dret; rw [if_neg h1, if_pos h]

theorem Dret_gen {Ra Rb : ℂ} (h1 : ¬ ‖Ra‖ ≤ epsilon) (h : ¬ ‖Rb‖ ≤ epsilon) (ell mp m : ℤ) :
    Dret Ra Rb ell mp m = Spec.wignerD Ra Rb (2 * ell) (2 * mp) (2 * m) := by
  unfold Dret; rw [if_neg h1, if_neg h]

theorem Dret_generic {Ra Rb : ℂ} (hg : Generic Ra Rb) {ell mp m : ℤ} (h1 : |mp| ≤ ell) (h2 : |m| ≤ ell) :
    Dret Ra Rb ell mp m = Spec.wignerD Ra Rb (2 * ell) (2 * mp) (2 * m) := by
  by_cases k1 : ‖Ra‖ ≤ epsilon
  · obtain ⟨rfl, hu⟩ := hg.ra_zero k1
    rw [Dret_ra k1, wD_ra_zero hu h1 h2]
  by_cases k2 : ‖Rb‖ ≤ epsilon
  · obtain ⟨rfl, hu⟩ := hg.rb_zero k2
    rw [Dret_rb k1 k2, wD_rb_zero hu h1 h2]
  exact Dret_gen k1 k2 ell mp m

theorem elements_kernel_any {L : ℤ} {table : List ℝ} (ht : IsWignerTable L table)
    (Rs : List (ℝ × ℝ × ℝ × ℝ)) (hR : ∀ R ∈ Rs, Spec.IsUnit' (qa R) (qb R)) {ell mp m : ℤ}
    (h1 : |mp| ≤ ell) (h2 : |m| ≤ ell) (hle : ell ≤ L) (values : List ℂ) (hlen : values.length = Rs.length) :
    Wigner_D_elements_kernel table Rs ell mp m values
      = .ok (Rs.map fun R => Dret (qa R) (qb R) ell mp m) := by
  obtain ⟨p', q', p, q, hsum, g1, g2, g3, g4⟩ := int_pq h1 h2
  have hca := coeff_int ht g1 g2 g3 g4 hle
  have hcb := coeff_int ht (p' := q') (q' := p') (ell := ell) (mp := -mp) (m := m) (by omega) (by omega)
    g3 g4 hle
  push_cast at hcb
  have hcond : ¬ (|m| > ell ∨ |mp| > ell) := by
    rw [not_or, not_lt, not_lt]; exact ⟨h2, h1⟩
  unfold Wigner_D_elements_kernel
  simp only [hcond, if_false]
  rw [hca, bind_ok, hcb, bind_ok]
  refine forL_map_wr Rs values hlen _ (fun R => Dret (qa R) (qb R) ell mp m) ?_
  intro R hRm
  have hg := hR R hRm
  change (if ‖qa R‖ ≤ epsilon then _ else _) = _
  by_cases k1 : ‖qa R‖ ≤ epsilon
  · rw [if_pos k1]
    change (if mp ≠ -m then Except.ok 0 else if (ell + mp) % 2 = 0 then cpowInt (qb R) (-2 * mp)
      else do return -(← cpowInt (qb R) (-2 * mp))) = _
    rw [cpowInt_ok (unit_ra_small hg k1), Dret_ra k1]
    split_ifs <;> simp_all
  rw [if_neg k1]
  change (if ‖qb R‖ ≤ epsilon then _ else _) = _
  by_cases k2 : ‖qb R‖ ≤ epsilon
  · rw [if_pos k2]
    change (if mp ≠ m then Except.ok 0 else cpowInt (qa R) (2 * mp)) = _
    rw [cpowInt_ok (unit_rb_small hg k2), Dret_rb k1 k2]
    split_ifs <;> simp_all
  rw [if_neg k2, Dret_gen k1 k2]
  change (if ‖qa R‖ < ‖qb R‖ then _ else _) = _
  by_cases k3 : ‖qa R‖ < ‖qb R‖
  · rw [if_pos k3]
    obtain ⟨c, S, e1, e2, e3⟩ := intB ht (Ra := qa R) (pos_of_eps k2) h1 h2 hle
    rw [hcb] at e1
    obtain rfl := Except.ok.inj e1
    have hr : max 0 (-m - mp) = max 0 (-mp - m) := by congr 1; ring
    rw [hr]
    obtain ⟨e4, -⟩ := e3 _ rfl
    rw [← e4, ← mul_assoc, ← mul_assoc]
    have hs : (if (ell + m + max 0 (-mp - m)) % 2 ≠ 0 then Wcoef q' p' p q * -1 else Wcoef q' p' p q)
        = (if (ell + m + max 0 (-mp - m)) % 2 ≠ 0 then (-1 : ℝ) else 1) * Wcoef q' p' p q := by
      split_ifs <;> ring
    rw [hs]
    generalize (if (ell + m + max 0 (-mp - m)) % 2 ≠ 0 then (-1 : ℝ) else 1) = sg
    split_ifs with h0
    · change Except.ok 0 = _
      congr 1
      symm
      exact mul_eq_zero_of_left (rect_eq_zero.mpr h0) _
    · change (hornerLoop (-‖qa R‖ * ‖qa R‖ / (‖qb R‖ * ‖qb R‖)) _ _ _ _ _ >>= _) = _
      rw [e2, bind_ok]
      rfl
  · rw [if_neg k3]
    obtain ⟨c, S, e1, e2, e3⟩ := intA ht (Rb := qb R) (pos_of_eps k1) h1 h2 hle
    rw [hca] at e1
    obtain rfl := Except.ok.inj e1
    obtain ⟨e4, -⟩ := e3 _ rfl
    rw [← e4, ← mul_assoc, ← mul_assoc]
    have hs : (if (max 0 (mp - m)) % 2 ≠ 0 then Wcoef p' q' p q * -1 else Wcoef p' q' p q)
        = (if (max 0 (mp - m)) % 2 ≠ 0 then (-1 : ℝ) else 1) * Wcoef p' q' p q := by
      split_ifs <;> ring
    rw [hs]
    generalize (if (max 0 (mp - m)) % 2 ≠ 0 then (-1 : ℝ) else 1) = sg
    split_ifs with h0
    · change Except.ok 0 = _
      congr 1
      symm
      exact mul_eq_zero_of_left (rect_eq_zero.mpr h0) _
    · change (hornerLoop (-‖qb R‖ * ‖qb R‖ / (‖qa R‖ * ‖qa R‖)) _ _ _ _ _ >>= _) = _
      rw [e2, bind_ok]
      rfl

theorem elements_kernel_eq {L : ℤ} {table : List ℝ} (ht : IsWignerTable L table)
    (Rs : List (ℝ × ℝ × ℝ × ℝ)) (hR : ∀ R ∈ Rs, Generic (qa R) (qb R)) {ell mp m : ℤ}
    (h1 : |mp| ≤ ell) (h2 : |m| ≤ ell) (hle : ell ≤ L) (values : List ℂ) (hlen : values.length = Rs.length) :
    Wigner_D_elements_kernel table Rs ell mp m values
      = .ok (Rs.map fun R => Spec.wignerD (qa R) (qb R) (2 * ell) (2 * mp) (2 * m)) := by
  rw [elements_kernel_any ht Rs (fun R h => (hR R h).1) h1 h2 hle values hlen]
  congr 1
  exact List.map_congr_left fun R h => Dret_generic (hR R h) h1 h2

theorem elements_kernel_zero (table : List ℝ) (Rs : List (ℝ × ℝ × ℝ × ℝ)) {ell mp m : ℤ}
    (h : ¬ (|mp| ≤ ell ∧ |m| ≤ ell)) (values : List ℂ) (hlen : values.length = Rs.length) :
    Wigner_D_elements_kernel table Rs ell mp m values = .ok (Rs.map fun _ => 0) := by
  have hcond : (|m| > ell ∨ |mp| > ell) := by
    by_contra hc
    rw [not_or, not_lt, not_lt] at hc
    exact h ⟨hc.2, hc.1⟩
  unfold Wigner_D_elements_kernel
  simp only [hcond, if_true]
  have := forL_map_wr Rs values hlen (fun _ => .ok (0 : ℂ)) (fun _ => 0) (fun _ _ => rfl)
  rw [← this]
  apply forL_congr
  intro i hi s
  rw [mem_pyRange] at hi
  obtain ⟨n, rfl⟩ : ∃ n : ℕ, i = n := ⟨i.toNat, by omega⟩
  have hn : n < Rs.length := by omega
  have e1 : rd Rs (n : ℤ) = .ok Rs[n] := rd_ok (by omega) (by simp [hn])
  rw [e1]; rfl

/-! ## `_Wigner_D_matrices` -/

/-- Slot `k` of the buffer holds its final value. -/
def Corr (T o : List ℂ) (k : ℕ) : Prop := o[k]? = T[k]?

theorem wr_right {T o : List ℂ} (hl : o.length = T.length) {i : ℤ} {v : ℂ} (h0 : 0 ≤ i)
    (hT : T[i.toNat]? = some v) :
    ∃ o', wr o i v = .ok o' ∧ o'.length = T.length ∧ (∀ k, Corr T o k → Corr T o' k) ∧ Corr T o' i.toNat := by
  have hlt : i.toNat < T.length := by
    by_contra hc
    rw [List.getElem?_eq_none (by omega)] at hT
    cases hT
  refine ⟨o.set i.toNat v, wr_ok h0 (by omega), by simpa using hl, ?_, ?_⟩
  · intro k hk
    unfold Corr at *
    by_cases h : k = i.toNat
    · subst h; rw [List.getElem?_set_self (by omega), hT]
    · rw [List.getElem?_set_ne (by omega)]; exact hk
  · unfold Corr; rw [List.getElem?_set_self (by omega), hT]

/-- Loops all of whose writes are right. -/
theorem forL_grow {α : Type} (T : List ℂ) (xs : List α) (body : α → List ℂ → Py (List ℂ)) (W : α → ℕ → Prop)
    (hb : ∀ x ∈ xs, ∀ o : List ℂ, o.length = T.length → ∃ o', body x o = .ok o' ∧ o'.length = T.length ∧
      (∀ k, Corr T o k → Corr T o' k) ∧ (∀ k, W x k → Corr T o' k)) (o : List ℂ) (ho : o.length = T.length) :
    ∃ o', forL xs o body = .ok o' ∧ o'.length = T.length ∧ (∀ k, Corr T o k → Corr T o' k) ∧
      (∀ x ∈ xs, ∀ k, W x k → Corr T o' k) := by
  induction xs generalizing o with
  | nil => exact ⟨o, rfl, ho, fun _ h => h, by simp⟩
  | cons x xs ih =>
    obtain ⟨o1, h1, h2, h3, h4⟩ := hb x (by simp) o ho
    obtain ⟨o2, h5, h6, h7, h8⟩ := ih (fun y hy => hb y (by simp [hy])) o1 h2
    refine ⟨o2, ?_, h6, fun k hk => h7 k (h3 k hk), ?_⟩
    · rw [forL_cons, h1, bind_ok, h5]
    · intro y hy k hk
      rcases List.mem_cons.mp hy with rfl | hy
      · exact h7 k (h4 k hk)
      · exact h8 y hy k hk

/-- Slot of `(ell,mp,m)`. -/
def slot (a ell mp m : ℤ) : ℤ := linear_matrix_offset ell a + linear_matrix_index ell mp m

/-- The array with the entries `F ell mp m`. -/
def Ftarget (F : ℤ → ℤ → ℤ → ℂ) (a b : ℤ) : List ℂ :=
  (LMpMlist a b).map fun t => F t.1 t.2.1 t.2.2

/-- The array that should come out. -/
noncomputable def Dtarget (Ra Rb : ℂ) (a b : ℤ) : List ℂ :=
  Ftarget (fun ell mp m => Spec.wignerD Ra Rb (2 * ell) (2 * mp) (2 * m)) a b

theorem Ftarget_slot (F : ℤ → ℤ → ℤ → ℂ) {a b ell mp m : ℤ} (ha : 0 ≤ a) (h1 : a ≤ ell) (h2 : ell ≤ b)
    (h3 : |mp| ≤ ell) (h4 : |m| ≤ ell) :
    0 ≤ slot a ell mp m ∧ (Ftarget F a b)[(slot a ell mp m).toNat]? = some (F ell mp m) := by
  have e : slot a ell mp m = LMpM_index ell mp m a := (C05_offsets_agree ell mp m a b).1
  rw [abs_le] at h3 h4
  obtain ⟨h5, h6⟩ := LMpMlist_index ha h1 h2 h3.1 h3.2 h4.1 h4.2
  rw [e]
  refine ⟨h5, ?_⟩
  unfold Ftarget
  rw [List.getElem?_map, h6]
  rfl

theorem Dtarget_slot (Ra Rb : ℂ) {a b ell mp m : ℤ} (ha : 0 ≤ a) (h1 : a ≤ ell) (h2 : ell ≤ b)
    (h3 : |mp| ≤ ell) (h4 : |m| ≤ ell) :
    0 ≤ slot a ell mp m ∧
      (Dtarget Ra Rb a b)[(slot a ell mp m).toNat]? = some (Spec.wignerD Ra Rb (2 * ell) (2 * mp) (2 * m)) :=
  Ftarget_slot _ ha h1 h2 h3 h4

/-- Slots written for one `(ell,mp,m)`. -/
def W4 (a ell mp m : ℤ) (k : ℕ) : Prop :=
  k = (slot a ell mp m).toNat ∨ k = (slot a ell (-mp) (-m)).toNat ∨
  k = (slot a ell m mp).toNat ∨ k = (slot a ell (-m) (-mp)).toNat

theorem store_right {Ra Rb : ℂ} {a b ell mp m : ℤ} (ha : 0 ≤ a) (h1 : a ≤ ell) (h2 : ell ≤ b)
    (h3 : |mp| ≤ ell) (h4 : |m| ≤ ell) {P1 P2 : ℂ} {S : ℝ}
    (hP1 : P1 * (S : ℂ) = Spec.wignerD Ra Rb (2 * ell) (2 * mp) (2 * m))
    (hP2 : P2 * (S : ℂ) = Spec.wignerD (conj Ra) (-Rb) (2 * ell) (2 * mp) (2 * m))
    (o : List ℂ) (ho : o.length = (Dtarget Ra Rb a b).length) :
    ∃ o', mats_store (linear_matrix_offset ell a) ell mp m P1 P2 S o = .ok o' ∧
      o'.length = (Dtarget Ra Rb a b).length ∧
      (∀ k, Corr (Dtarget Ra Rb a b) o k → Corr (Dtarget Ra Rb a b) o' k) ∧
      (∀ k, W4 a ell mp m k → Corr (Dtarget Ra Rb a b) o' k) := by
  have a3 : |-mp| ≤ ell := by rwa [abs_neg]
  have a4 : |-m| ≤ ell := by rwa [abs_neg]
  obtain ⟨s1, t1⟩ := Dtarget_slot Ra Rb ha h1 h2 h3 h4
  obtain ⟨s2, t2⟩ := Dtarget_slot Ra Rb ha h1 h2 a3 a4
  obtain ⟨s3, t3⟩ := Dtarget_slot Ra Rb ha h1 h2 h4 h3
  obtain ⟨s4, t4⟩ := Dtarget_slot Ra Rb ha h1 h2 a4 a3
  have c1 := wD_conj Ra Rb h3 h4
  have c2 := wD_conj Ra Rb h4 h3
  rw [wD_inv Ra Rb h3 h4] at hP2
  have q1 : conj P1 * (S : ℂ) = conj (Spec.wignerD Ra Rb (2 * ell) (2 * mp) (2 * m)) := by
    rw [← hP1, map_mul, Complex.conj_ofReal]
  have q2 : conj P2 * (S : ℂ) = Spec.wignerD Ra Rb (2 * ell) (2 * m) (2 * mp) := by
    have := congrArg conj hP2
    rwa [map_mul, Complex.conj_ofReal, Complex.conj_conj] at this
  rw [add_comm mp m] at c2
  rw [← hP1] at t1
  rw [← q2] at t3
  obtain ⟨o1, w1, l1, g1, k1⟩ := wr_right ho s1 t1
  unfold mats_store
  change ∃ o', (wr o (slot a ell mp m) (P1 * (S : ℂ)) >>= _) = .ok o' ∧ _
  rw [w1, bind_ok]
  by_cases hpar : (m + mp) % 2 = 0
  · rw [if_pos hpar, one_mul] at c1 c2
    rw [← c1, ← q1] at t2
    rw [← c2, ← hP2] at t4
    obtain ⟨o2, w2, l2, g2, k2⟩ := wr_right l1 s2 t2
    by_cases habs : |m| ≠ |mp|
    · obtain ⟨o3, w3, l3, g3, k3⟩ := wr_right l2 s4 t4
      obtain ⟨o4, w4, l4, g4, k4⟩ := wr_right l3 s3 t3
      refine ⟨o4, ?_, l4, fun k hk => g4 k (g3 k (g2 k (g1 k hk))), ?_⟩
      · rw [if_pos habs, if_pos hpar]
        change (wr o1 (slot a ell (-mp) (-m)) _ >>= fun o2 => wr o2 (slot a ell (-m) (-mp)) _ >>=
          fun o3 => wr o3 (slot a ell m mp) _) = _
        rw [w2, bind_ok, w3, bind_ok, w4]
      · rintro k (rfl | rfl | rfl | rfl)
        · exact g4 _ (g3 _ (g2 _ k1))
        · exact g4 _ (g3 _ k2)
        · exact k4
        · exact g4 _ k3
    · rw [if_neg habs]
      push Not at habs
      by_cases hm : m ≠ 0
      · refine ⟨o2, ?_, l2, fun k hk => g2 k (g1 k hk), ?_⟩
        · rw [if_pos hm, if_pos hpar]
          exact w2
        · rcases abs_eq_abs.mp habs with h | h
          · subst h
            rintro k (rfl | rfl | rfl | rfl)
            · exact g2 _ k1
            · exact k2
            · exact g2 _ k1
            · exact k2
          · subst h
            rw [neg_neg] at k2
            rintro k (rfl | rfl | rfl | rfl) <;> (try rw [neg_neg]) <;> first | exact g2 _ k1 | exact k2
      · push Not at hm
        subst hm
        have : mp = 0 := by simpa using habs.symm
        subst this
        refine ⟨o1, by simp; rfl, l1, g1, ?_⟩
        rintro k (rfl | rfl | rfl | rfl) <;> simpa using k1
  · rw [if_neg hpar, neg_one_mul] at c1 c2
    have c1' : Spec.wignerD Ra Rb (2 * ell) (2 * -mp) (2 * -m) = -conj P1 * (S : ℂ) := by
      rw [neg_mul, q1, c1, neg_neg]
    have c2' : Spec.wignerD Ra Rb (2 * ell) (2 * -m) (2 * -mp) = -P2 * (S : ℂ) := by
      rw [neg_mul, hP2, c2, neg_neg]
    rw [c1'] at t2
    rw [c2'] at t4
    obtain ⟨o2, w2, l2, g2, k2⟩ := wr_right l1 s2 t2
    by_cases habs : |m| ≠ |mp|
    · obtain ⟨o3, w3, l3, g3, k3⟩ := wr_right l2 s4 t4
      obtain ⟨o4, w4, l4, g4, k4⟩ := wr_right l3 s3 t3
      refine ⟨o4, ?_, l4, fun k hk => g4 k (g3 k (g2 k (g1 k hk))), ?_⟩
      · rw [if_pos habs, if_neg hpar]
        change (wr o1 (slot a ell (-mp) (-m)) _ >>= fun o2 => wr o2 (slot a ell (-m) (-mp)) _ >>=
          fun o3 => wr o3 (slot a ell m mp) _) = _
        rw [w2, bind_ok, w3, bind_ok, w4]
      · rintro k (rfl | rfl | rfl | rfl)
        · exact g4 _ (g3 _ (g2 _ k1))
        · exact g4 _ (g3 _ k2)
        · exact k4
        · exact g4 _ k3
    · push Not at habs
      exfalso
      rcases abs_eq_abs.mp habs with h | h <;> omega

theorem store_zero_right {Ra Rb : ℂ} {a b ell mp m : ℤ} (ha : 0 ≤ a) (h1 : a ≤ ell) (h2 : ell ≤ b)
    (h3 : |mp| ≤ ell) (h4 : |m| ≤ ell)
    (hP1 : Spec.wignerD Ra Rb (2 * ell) (2 * mp) (2 * m) = 0)
    (hP2 : Spec.wignerD (conj Ra) (-Rb) (2 * ell) (2 * mp) (2 * m) = 0)
    (o : List ℂ) (ho : o.length = (Dtarget Ra Rb a b).length) :
    ∃ o', mats_store_zero (linear_matrix_offset ell a) ell mp m o = .ok o' ∧
      o'.length = (Dtarget Ra Rb a b).length ∧
      (∀ k, Corr (Dtarget Ra Rb a b) o k → Corr (Dtarget Ra Rb a b) o' k) ∧
      (∀ k, W4 a ell mp m k → Corr (Dtarget Ra Rb a b) o' k) := by
  have a3 : |-mp| ≤ ell := by rwa [abs_neg]
  have a4 : |-m| ≤ ell := by rwa [abs_neg]
  obtain ⟨s1, t1⟩ := Dtarget_slot Ra Rb ha h1 h2 h3 h4
  obtain ⟨s2, t2⟩ := Dtarget_slot Ra Rb ha h1 h2 a3 a4
  obtain ⟨s3, t3⟩ := Dtarget_slot Ra Rb ha h1 h2 h4 h3
  obtain ⟨s4, t4⟩ := Dtarget_slot Ra Rb ha h1 h2 a4 a3
  have c1 := wD_conj Ra Rb h3 h4
  have c2 := wD_conj Ra Rb h4 h3
  rw [wD_inv Ra Rb h3 h4] at hP2
  have q2 : Spec.wignerD Ra Rb (2 * ell) (2 * m) (2 * mp) = 0 := by simpa using hP2
  have q1 : Spec.wignerD Ra Rb (2 * ell) (2 * -mp) (2 * -m) = 0 := by
    rw [hP1, map_zero] at c1
    rcases mul_eq_zero.mp c1.symm with h | h
    · split_ifs at h <;> simp at h
    · exact h
  have q3 : Spec.wignerD Ra Rb (2 * ell) (2 * -m) (2 * -mp) = 0 := by
    rw [q2, map_zero] at c2
    rcases mul_eq_zero.mp c2.symm with h | h
    · split_ifs at h <;> simp at h
    · exact h
  rw [hP1] at t1
  rw [q1] at t2
  rw [q2] at t3
  rw [q3] at t4
  obtain ⟨o1, w1, l1, g1, k1⟩ := wr_right ho s1 t1
  obtain ⟨o2, w2, l2, g2, k2⟩ := wr_right l1 s2 t2
  obtain ⟨o3, w3, l3, g3, k3⟩ := wr_right l2 s3 t3
  obtain ⟨o4, w4, l4, g4, k4⟩ := wr_right l3 s4 t4
  unfold mats_store_zero
  change ∃ o', (wr o (slot a ell mp m) 0 >>= _) = .ok o' ∧ _
  rw [w1, bind_ok]
  by_cases habs : |m| ≠ |mp|
  · refine ⟨o4, ?_, l4, fun k hk => g4 k (g3 k (g2 k (g1 k hk))), ?_⟩
    · rw [if_pos habs]
      change (wr o1 (slot a ell (-mp) (-m)) _ >>= fun o2 => wr o2 (slot a ell m mp) _ >>=
        fun o3 => wr o3 (slot a ell (-m) (-mp)) _) = _
      rw [w2, bind_ok, w3, bind_ok, w4]
    · rintro k (rfl | rfl | rfl | rfl)
      · exact g4 _ (g3 _ (g2 _ k1))
      · exact g4 _ (g3 _ k2)
      · exact g4 _ k3
      · exact k4
  · rw [if_neg habs]
    push Not at habs
    by_cases hm : m ≠ 0
    · refine ⟨o2, ?_, l2, fun k hk => g2 k (g1 k hk), ?_⟩
      · rw [if_pos hm]
        exact w2
      · rcases abs_eq_abs.mp habs with h | h
        · subst h
          rintro k (rfl | rfl | rfl | rfl)
          · exact g2 _ k1
          · exact k2
          · exact g2 _ k1
          · exact k2
        · subst h
          rw [neg_neg] at k2
          rintro k (rfl | rfl | rfl | rfl) <;> (try rw [neg_neg]) <;> first | exact g2 _ k1 | exact k2
    · push Not at hm
      subst hm
      have : mp = 0 := by simpa using habs.symm
      subst this
      refine ⟨o1, by simp; rfl, l1, g1, ?_⟩
      rintro k (rfl | rfl | rfl | rfl) <;> simpa using k1

/-- One step of the inner loops, branch `ra < rb`. -/
theorem mats_lt_right {L : ℤ} {table : List ℝ} (ht : IsWignerTable L table) {Ra Rb : ℂ} (hb : Rb ≠ 0)
    {a b ell mp m : ℤ} (ha : 0 ≤ a) (h1 : a ≤ ell) (h2 : ell ≤ b) (hbL : b ≤ L)
    (h3 : |mp| ≤ ell) (h4 : |m| ≤ ell) (o : List ℂ) (ho : o.length = (Dtarget Ra Rb a b).length) :
    ∃ o', mats_ra_lt_rb table ‖Ra‖ (Complex.arg Ra) ‖Rb‖ (Complex.arg Rb) a ell mp m o = .ok o' ∧
      o'.length = (Dtarget Ra Rb a b).length ∧
      (∀ k, Corr (Dtarget Ra Rb a b) o k → Corr (Dtarget Ra Rb a b) o' k) ∧
      (∀ k, W4 a ell mp m k → Corr (Dtarget Ra Rb a b) o' k) := by
  obtain ⟨c, S, e1, e2, e3⟩ := intB ht (Ra := Ra) hb h3 h4 (by omega)
  obtain ⟨v1, v2⟩ := e3 _ rfl
  unfold mats_ra_lt_rb
  simp only [e1, bind_ok, e2]
  split_ifs with h0 hs
  · rw [h0, mul_zero, rect_def] at v1 v2
    simp only [Complex.ofReal_zero, zero_mul] at v1 v2
    exact store_zero_right ha h1 h2 h3 h4 v1.symm v2.symm o ho
  · refine store_right ha h1 h2 h3 h4 ?_ ?_ o ho
    · rw [← v1, if_pos hs, mul_comm _ (-1 : ℝ)]
    · rw [← v2, if_pos hs, mul_comm _ (-1 : ℝ), neg_mul (Complex.arg Ra), ← sub_eq_add_neg]
  · refine store_right ha h1 h2 h3 h4 ?_ ?_ o ho
    · rw [← v1, if_neg hs, one_mul]
    · rw [← v2, if_neg hs, one_mul, neg_mul (Complex.arg Ra), ← sub_eq_add_neg]

/-- One step of the inner loops, branch `ra >= rb`. -/
theorem mats_ge_right {L : ℤ} {table : List ℝ} (ht : IsWignerTable L table) {Ra Rb : ℂ} (hb : Ra ≠ 0)
    {a b ell mp m : ℤ} (ha : 0 ≤ a) (h1 : a ≤ ell) (h2 : ell ≤ b) (hbL : b ≤ L)
    (h3 : |mp| ≤ ell) (h4 : |m| ≤ ell) (o : List ℂ) (ho : o.length = (Dtarget Ra Rb a b).length) :
    ∃ o', mats_ra_ge_rb table ‖Ra‖ (Complex.arg Ra) ‖Rb‖ (Complex.arg Rb) a ell mp m o = .ok o' ∧
      o'.length = (Dtarget Ra Rb a b).length ∧
      (∀ k, Corr (Dtarget Ra Rb a b) o k → Corr (Dtarget Ra Rb a b) o' k) ∧
      (∀ k, W4 a ell mp m k → Corr (Dtarget Ra Rb a b) o' k) := by
  obtain ⟨c, S, e1, e2, e3⟩ := intA ht (Rb := Rb) hb h3 h4 (by omega)
  obtain ⟨v1, v2⟩ := e3 _ rfl
  unfold mats_ra_ge_rb
  simp only [e1, bind_ok, e2]
  split_ifs with h0 hs
  · rw [h0, mul_zero, rect_def] at v1 v2
    simp only [Complex.ofReal_zero, zero_mul] at v1 v2
    exact store_zero_right ha h1 h2 h3 h4 v1.symm v2.symm o ho
  · refine store_right ha h1 h2 h3 h4 ?_ ?_ o ho
    · rw [← v1, if_pos hs, mul_comm _ (-1 : ℝ)]
    · rw [← v2, if_pos hs, mul_comm _ (-1 : ℝ)]
  · refine store_right ha h1 h2 h3 h4 ?_ ?_ o ho
    · rw [← v1, if_neg hs, one_mul]
    · rw [← v2, if_neg hs, one_mul]

/-- All slots of the buffer are covered by the inner loops. -/
theorem cover {a b : ℤ} (ha : 0 ≤ a) {F : ℤ → ℤ → ℤ → ℂ} {k : ℕ} (hk : k < (Ftarget F a b).length) :
    ∃ ell, a ≤ ell ∧ ell < b + 1 ∧ ∃ x y : ℤ, |x| ≤ ell ∧ |y| ≤ ell ∧ k = (slot a ell x y).toNat := by
  have hk' : k < (LMpMlist a b).length := by simpa [Ftarget] using hk
  have hm : (LMpMlist a b)[k] ∈ LMpMlist a b := List.getElem_mem hk'
  have hs := (LMpMlist_spec b ha)
  obtain ⟨h1, h2, h3, h4⟩ := (hs.2 _).mp hm
  generalize hp : (LMpMlist a b)[k] = p at *
  obtain ⟨ell, x, y⟩ := p
  refine ⟨ell, h1, by simpa using by omega, x, y, h3, h4, ?_⟩
  have e : slot a ell x y = LMpM_index ell x y a := (C05_offsets_agree ell x y a b).1
  simp only at h3 h4 h1 h2
  have h3' := abs_le.mp h3
  have h4' := abs_le.mp h4
  obtain ⟨h5, h6⟩ := LMpMlist_index ha h1 h2 h3'.1 h3'.2 h4'.1 h4'.2
  rw [e]
  have hnd : (LMpMlist a b).Nodup := by
    refine hs.1.imp ?_
    rintro p q (h | h) rfl
    · exact lt_irrefl _ h
    · rcases h.2 with h | h
      · exact lt_irrefl _ h
      · exact lt_irrefl _ h.2
  have hlt : (LMpM_index ell x y a).toNat < (LMpMlist a b).length := by
    by_contra hc
    rw [List.getElem?_eq_none (by omega)] at h6
    cases h6
  rw [List.getElem?_eq_getElem hlt] at h6
  exact (hnd.getElem_inj_iff (hi := hk') (hj := hlt)).mp (by rw [hp]; exact (Option.some.inj h6).symm)

theorem cover4 {a ell x y : ℤ} (hx : |x| ≤ ell) (hy : |y| ≤ ell) :
    ∃ mp m : ℤ, -ell ≤ mp ∧ mp < 1 ∧ mp ≤ m ∧ m < -mp + 1 ∧ W4 a ell mp m (slot a ell x y).toNat := by
  rw [abs_le] at hx hy
  unfold W4
  by_cases h : |y| ≤ |x|
  · by_cases hx0 : x ≤ 0
    · rw [abs_of_nonpos hx0, abs_le] at h
      exact ⟨x, y, by omega, by omega, by omega, by omega, Or.inl rfl⟩
    · rw [abs_of_nonneg (by omega : 0 ≤ x), abs_le] at h
      exact ⟨-x, -y, by omega, by omega, by omega, by omega, Or.inr (Or.inl (by simp))⟩
  · push Not at h
    by_cases hy0 : y ≤ 0
    · rw [abs_of_nonpos hy0, abs_lt] at h
      exact ⟨y, x, by omega, by omega, by omega, by omega, Or.inr (Or.inr (Or.inl rfl))⟩
    · rw [abs_of_nonneg (by omega : 0 ≤ y), abs_lt] at h
      exact ⟨-y, -x, by omega, by omega, by omega, by omega, Or.inr (Or.inr (Or.inr (by simp)))⟩

/-- The loops of the two generic branches. -/
theorem triple_loop_right {Ra Rb : ℂ} {a b : ℤ} (ha : 0 ≤ a)
    (body : ℤ → ℤ → ℤ → List ℂ → Py (List ℂ))
    (hbody : ∀ ell mp m, a ≤ ell → ell ≤ b → |mp| ≤ ell → |m| ≤ ell → ∀ o : List ℂ,
      o.length = (Dtarget Ra Rb a b).length → ∃ o', body ell mp m o = .ok o' ∧
      o'.length = (Dtarget Ra Rb a b).length ∧
      (∀ k, Corr (Dtarget Ra Rb a b) o k → Corr (Dtarget Ra Rb a b) o' k) ∧
      (∀ k, W4 a ell mp m k → Corr (Dtarget Ra Rb a b) o' k)) (o : List ℂ)
    (ho : o.length = (Dtarget Ra Rb a b).length) :
    forL (pyRange a (b + 1)) o (fun ell o =>
      forL (pyRange (-ell) 1) o fun mp o =>
        forL (pyRange mp (-mp + 1)) o fun m o => body ell mp m o) = .ok (Dtarget Ra Rb a b) := by
  obtain ⟨o', h1, h2, -, h4⟩ := forL_grow (Dtarget Ra Rb a b) (pyRange a (b + 1)) (fun ell o =>
      forL (pyRange (-ell) 1) o fun mp o =>
        forL (pyRange mp (-mp + 1)) o fun m o => body ell mp m o)
    (fun ell k => ∃ mp ∈ pyRange (-ell) 1, ∃ m ∈ pyRange mp (-mp + 1), W4 a ell mp m k)
    (by
      intro ell hell o ho
      rw [mem_pyRange] at hell
      obtain ⟨o1, h1, h2, h3, h4⟩ := forL_grow (Dtarget Ra Rb a b) (pyRange (-ell) 1) (fun mp o =>
          forL (pyRange mp (-mp + 1)) o fun m o => body ell mp m o)
        (fun mp k => ∃ m ∈ pyRange mp (-mp + 1), W4 a ell mp m k)
        (by
          intro mp hmp o ho
          rw [mem_pyRange] at hmp
          obtain ⟨o2, h1, h2, h3, h4⟩ := forL_grow (Dtarget Ra Rb a b) (pyRange mp (-mp + 1))
            (fun m o => body ell mp m o) (fun m k => W4 a ell mp m k)
            (by
              intro m hm o ho
              rw [mem_pyRange] at hm
              exact hbody ell mp m (by omega) (by omega) (by rw [abs_le]; omega) (by rw [abs_le]; omega) o ho)
            o ho
          exact ⟨o2, h1, h2, h3, fun k ⟨m, hm, hk⟩ => h4 m hm k hk⟩) o ho
      exact ⟨o1, h1, h2, h3, fun k ⟨mp, hmp, hk⟩ => h4 mp hmp k hk⟩) o ho
  rw [h1]
  congr 1
  apply List.ext_getElem?
  intro k
  by_cases hk : k < (Dtarget Ra Rb a b).length
  · obtain ⟨ell, g1, g2, x, y, g3, g4, rfl⟩ := cover ha hk
    obtain ⟨mp, m, g5, g6, g7, g8, g9⟩ := cover4 (a := a) g3 g4
    exact h4 ell (mem_pyRange.mpr ⟨g1, g2⟩) _ ⟨mp, mem_pyRange.mpr ⟨g5, g6⟩, m, mem_pyRange.mpr ⟨g7, g8⟩, g9⟩
  · rw [List.getElem?_eq_none (by omega), List.getElem?_eq_none (by omega)]

/-- Zero fill of a block of the buffer. -/
theorem zero_fill (o : List ℂ) {off n : ℤ} (h0 : 0 ≤ off) (hn : 0 ≤ n) (h1 : off + n ≤ o.length) :
    ∃ o', forL (pyRange 0 n) o (fun i o => wr o (off + i) 0) = .ok o' ∧ o'.length = o.length ∧
      ∀ k : ℕ, o'[k]? = if off ≤ k ∧ (k : ℤ) < off + n then some 0 else o[k]? := by
  obtain ⟨o', h2, h3, h4⟩ := forR_inv 0 n hn
    (fun i (s : List ℂ) => s.length = o.length ∧
      ∀ k : ℕ, s[k]? = if off ≤ k ∧ (k : ℤ) < off + i then some 0 else o[k]?) o
    (fun i o => wr o (off + i) 0) ⟨rfl, by intro k; rw [if_neg (by omega)]⟩
    (by
      intro i s g1 g2 ⟨g3, g4⟩
      refine ⟨s.set (off + i).toNat 0, wr_ok (by omega) (by omega), by simpa using g3, ?_⟩
      intro k
      by_cases hk : k = (off + i).toNat
      · subst hk
        rw [List.getElem?_set_self (by omega), if_pos (by omega)]
      · rw [List.getElem?_set_ne (by omega), g4]
        congr 1
        rw [eq_iff_iff]
        omega)
  exact ⟨o', h2, h3, h4⟩

/-- One block in the two degenerate branches: zero fill followed by writes of the nonzero entries. -/
theorem block_right {F : ℤ → ℤ → ℤ → ℂ} {a b ell : ℤ} (ha : 0 ≤ a) (h1 : a ≤ ell) (h2 : ell ≤ b)
    (sel : ℤ → ℤ) (hsel : ∀ mp, |mp| ≤ ell → |sel mp| ≤ ell)
    (hzero : ∀ mp m, |mp| ≤ ell → |m| ≤ ell → m ≠ sel mp →
      F ell mp m = 0)
    (body : ℤ → List ℂ → Py (List ℂ))
    (hbody : ∀ mp, |mp| ≤ ell → ∀ o, body mp o
      = wr o (slot a ell mp (sel mp)) (F ell mp (sel mp)))
    (o : List ℂ) (ho : o.length = (Ftarget F a b).length) :
    ∃ o', ((forL (pyRange 0 ((2 * ell + 1) ^ 2)) o fun i o => wr o (linear_matrix_offset ell a + i) 0) >>=
        fun o => forL (pyRange (-ell) (ell + 1)) o body) = .ok o' ∧
      o'.length = (Ftarget F a b).length ∧
      (∀ k, Corr (Ftarget F a b) o k → Corr (Ftarget F a b) o' k) ∧
      (∀ k, (∃ x y, |x| ≤ ell ∧ |y| ≤ ell ∧ k = (slot a ell x y).toNat) → Corr (Ftarget F a b) o' k) := by
  set T := Ftarget F a b with hT
  have hell : 0 ≤ ell := by omega
  have hfirst := Ftarget_slot F (b := b) (mp := -ell) (m := -ell) ha h1 h2
    (by rw [abs_neg, abs_of_nonneg hell]) (by rw [abs_neg, abs_of_nonneg hell])
  have hlast := Ftarget_slot F (b := b) (mp := ell) (m := ell) ha h1 h2
    (by rw [abs_of_nonneg hell]) (by rw [abs_of_nonneg hell])
  have hsz := C05_block_size ell a
  have e1 : slot a ell (-ell) (-ell) = linear_matrix_offset ell a := by
    unfold slot; rw [hsz.2.2.1, add_zero]
  have e2 : slot a ell ell ell = linear_matrix_offset ell a + (2 * ell + 1) ^ 2 - 1 := by
    unfold slot; rw [hsz.2.2.2]; ring
  have hlt : (slot a ell ell ell).toNat < T.length := by
    by_contra hc
    have := hlast.2
    rw [← hT, List.getElem?_eq_none (by omega)] at this
    cases this
  have hpos : 0 < (2 * ell + 1) ^ 2 := by positivity
  have hfit : linear_matrix_offset ell a + (2 * ell + 1) ^ 2 ≤ o.length := by omega
  have hoff : 0 ≤ linear_matrix_offset ell a := by rw [← e1]; exact hfirst.1
  obtain ⟨o1, z1, z2, z3⟩ := zero_fill o hoff (by positivity) hfit
  rw [z1, bind_ok]
  obtain ⟨o2, g1, g2, g3, g4⟩ := forL_grow T (pyRange (-ell) (ell + 1)) body
    (fun mp k => k = (slot a ell mp (sel mp)).toNat)
    (by
      intro mp hmp o ho
      rw [mem_pyRange] at hmp
      have hmp' : |mp| ≤ ell := by rw [abs_le]; omega
      obtain ⟨s1, t1⟩ := Ftarget_slot F ha h1 h2 hmp' (hsel mp hmp')
      obtain ⟨o', w1, w2, w3, w4⟩ := wr_right ho s1 t1
      exact ⟨o', by rw [hbody mp hmp']; exact w1, w2, w3, by rintro k rfl; exact w4⟩) o1 (by omega)
  have hblock : ∀ x y : ℤ, |x| ≤ ell → |y| ≤ ell → Corr T o2 (slot a ell x y).toNat := by
    intro x y hx hy
    by_cases hxy : y = sel x
    · subst hxy
      have := abs_le.mp hx
      exact g4 x (mem_pyRange.mpr (by omega)) _ rfl
    · apply g3
      unfold Corr
      rw [z3, (Ftarget_slot F ha h1 h2 hx hy).2, hzero x y hx hy hxy]
      rw [if_pos]
      have hx' := abs_le.mp hx
      have hy' := abs_le.mp hy
      have hs := (Ftarget_slot F ha h1 h2 hx hy).1
      have lo : linear_matrix_offset ell a ≤ slot a ell x y := by
        unfold slot linear_matrix_index; nlinarith
      have hi : slot a ell x y < linear_matrix_offset ell a + (2 * ell + 1) ^ 2 := by
        unfold slot linear_matrix_index; nlinarith
      omega
  refine ⟨o2, g1, g2, ?_, ?_⟩
  · intro k hk
    by_cases hin : linear_matrix_offset ell a ≤ k ∧ (k : ℤ) < linear_matrix_offset ell a + (2 * ell + 1) ^ 2
    · have hkT : k < T.length := by omega
      -- the slot belongs to this block
      set r : ℤ := k - linear_matrix_offset ell a with hr
      have hr0 : 0 ≤ r := by omega
      have hr1 : r < (2 * ell + 1) * (2 * ell + 1) := by nlinarith [hin.2]
      have hq : 0 ≤ r / (2 * ell + 1) := Int.ediv_nonneg hr0 (by omega)
      have hq2 : r / (2 * ell + 1) < 2 * ell + 1 := Int.ediv_lt_of_lt_mul (by omega) hr1
      have hm0 : 0 ≤ r % (2 * ell + 1) := Int.emod_nonneg _ (by omega)
      have hm1 : r % (2 * ell + 1) < 2 * ell + 1 := Int.emod_lt_of_pos _ (by omega)
      have hdm := Int.mul_ediv_add_emod r (2 * ell + 1)
      have := hblock (r / (2 * ell + 1) - ell) (r % (2 * ell + 1) - ell)
        (by rw [abs_le]; omega) (by rw [abs_le]; omega)
      have es : (slot a ell (r / (2 * ell + 1) - ell) (r % (2 * ell + 1) - ell)).toNat = k := by
        have : slot a ell (r / (2 * ell + 1) - ell) (r % (2 * ell + 1) - ell) = k := by
          unfold slot linear_matrix_index
          have e3 : ell + (r % (2 * ell + 1) - ell) + (ell + (r / (2 * ell + 1) - ell)) * (2 * ell + 1)
            = (2 * ell + 1) * (r / (2 * ell + 1)) + r % (2 * ell + 1) := by ring
          rw [e3, hdm]; omega
        omega
      rwa [es] at this
    · apply g3
      unfold Corr at *
      rw [z3, if_neg hin]; exact hk
  · rintro k ⟨x, y, hx, hy, rfl⟩
    exact hblock x y hx hy

theorem block_loop_right {F : ℤ → ℤ → ℤ → ℂ} {a b : ℤ} (ha : 0 ≤ a) (body : ℤ → List ℂ → Py (List ℂ))
    (hbody : ∀ ell, a ≤ ell → ell ≤ b → ∀ o : List ℂ, o.length = (Ftarget F a b).length →
      ∃ o', body ell o = .ok o' ∧ o'.length = (Ftarget F a b).length ∧
      (∀ k, Corr (Ftarget F a b) o k → Corr (Ftarget F a b) o' k) ∧
      (∀ k, (∃ x y, |x| ≤ ell ∧ |y| ≤ ell ∧ k = (slot a ell x y).toNat) → Corr (Ftarget F a b) o' k))
    (o : List ℂ) (ho : o.length = (Ftarget F a b).length) :
    forL (pyRange a (b + 1)) o body = .ok (Ftarget F a b) := by
  obtain ⟨o', h1, h2, -, h4⟩ := forL_grow (Ftarget F a b) (pyRange a (b + 1)) body
    (fun ell k => ∃ x y, |x| ≤ ell ∧ |y| ≤ ell ∧ k = (slot a ell x y).toNat)
    (by
      intro ell hell o ho
      rw [mem_pyRange] at hell
      exact hbody ell (by omega) (by omega) o ho) o ho
  rw [h1]
  congr 1
  apply List.ext_getElem?
  intro k
  by_cases hk : k < (Ftarget F a b).length
  · obtain ⟨ell, g1, g2, x, y, g3, g4, rfl⟩ := cover ha hk
    exact h4 ell (mem_pyRange.mpr ⟨g1, g2⟩) _ ⟨x, y, g3, g4, rfl⟩
  · rw [List.getElem?_eq_none (by omega), List.getElem?_eq_none (by omega)]

/-- `_Wigner_D_matrices` on an arbitrary unit rotor. -/
theorem matrices_kernel_any {L : ℤ} {table : List ℝ} (ht : IsWignerTable L table) {Ra Rb : ℂ}
    (hg : Spec.IsUnit' Ra Rb) {a b : ℤ} (ha : 0 ≤ a) (hbL : b ≤ L) (o : List ℂ)
    (ho : o.length = (Ftarget (Dret Ra Rb) a b).length) :
    Wigner_D_matrices_kernel table Ra Rb a b o = .ok (Ftarget (Dret Ra Rb) a b) := by
  unfold Wigner_D_matrices_kernel
  simp only
  split_ifs with h1 h2 h3
  · apply block_loop_right ha _ _ o ho
    intro ell g1 g2 o ho
    refine block_right ha g1 g2 (fun mp => -mp) (fun mp h => by rwa [abs_neg]) ?_ _ ?_ o ho
    · intro mp m k1 k2 k3
      rw [Dret_ra h1, if_neg (by omega)]
    · intro mp k1 o
      rw [Dret_ra h1, if_pos (neg_neg mp).symm, cpowInt_ok (unit_ra_small hg h1)]
      by_cases hp : (ell + mp) % 2 = 0
      · rw [if_pos hp, if_pos hp, one_mul]; rfl
      · rw [if_neg hp, if_neg hp, neg_one_mul]; rfl
  · apply block_loop_right ha _ _ o ho
    intro ell g1 g2 o ho
    refine block_right ha g1 g2 (fun mp => mp) (fun mp h => h) ?_ _ ?_ o ho
    · intro mp m k1 k2 k3
      rw [Dret_rb h1 h2, if_neg (by omega)]
    · intro mp k1 o
      rw [Dret_rb h1 h2, if_pos rfl, cpowInt_ok (unit_rb_small hg h2)]
      unfold slot
      rw [← (C05_offsets_agree ell mp mp a b).2.1]
      rfl
  all_goals
    have e : Ftarget (Dret Ra Rb) a b = Dtarget Ra Rb a b :=
      List.map_congr_left fun t _ => Dret_gen h1 h2 _ _ _
    rw [e] at ho ⊢
  · exact triple_loop_right ha _ (fun ell mp m g1 g2 g3 g4 o ho =>
      mats_lt_right ht (pos_of_eps h2) ha g1 g2 hbL g3 g4 o ho) o ho
  · exact triple_loop_right ha _ (fun ell mp m g1 g2 g3 g4 o ho =>
      mats_ge_right ht (pos_of_eps h1) ha g1 g2 hbL g3 g4 o ho) o ho

theorem Ftarget_generic {Ra Rb : ℂ} (hg : Generic Ra Rb) {a : ℤ} (b : ℤ) (ha : 0 ≤ a) :
    Ftarget (Dret Ra Rb) a b = Dtarget Ra Rb a b := by
  refine List.map_congr_left fun t ht => ?_
  have h := ((LMpMlist_spec b ha).2 t).mp ht
  exact Dret_generic hg h.2.2.1 h.2.2.2

theorem matrices_kernel_eq {L : ℤ} {table : List ℝ} (ht : IsWignerTable L table) {Ra Rb : ℂ}
    (hg : Generic Ra Rb) {a b : ℤ} (ha : 0 ≤ a) (hbL : b ≤ L) (o : List ℂ)
    (ho : o.length = (Dtarget Ra Rb a b).length) :
    Wigner_D_matrices_kernel table Ra Rb a b o = .ok (Dtarget Ra Rb a b) := by
  rw [← Ftarget_generic hg b ha] at ho ⊢
  exact matrices_kernel_any ht hg.1 ha hbL o ho

end SF
