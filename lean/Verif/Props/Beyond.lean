import Verif.Props.SWSH
import Verif.Props.NearPoles

/-!
# C79: what happens beyond the coefficient table

The table of Wigner coefficients ends at `ell = L` (32 in the package).  `Wigner_D_element` with explicit triples checks this (C08); the other
entry points do not.  `outOfBounds` is an access outside an array: in the numba-compiled kernels an unchecked read of stray memory.
-/

set_option autoImplicit false

namespace SF

open Quaternion

/-- A loop in which every step succeeds or fails with `e`, and one step certainly fails with `e`. -/
theorem forL_err {α σ : Type} (e : PyErr) (body : α → σ → Py σ) :
    ∀ (l : List α) (st : σ), (∀ x ∈ l, ∀ s, (∃ s', body x s = .ok s') ∨ body x s = .error e) →
      (∃ x ∈ l, ∀ s, body x s = .error e) → forL l st body = .error e
  | [], _, _, h => by obtain ⟨x, hx, -⟩ := h; cases hx
  | y :: l, st, h1, h2 => by
    rw [forL_cons]
    rcases h1 y (by simp) st with ⟨s', hs⟩ | hs
    · rw [hs, bind_ok]
      obtain ⟨x, hx, hb⟩ := h2
      rcases List.mem_cons.mp hx with rfl | hx
      · rw [hb st] at hs; cases hs
      · exact forL_err e body l s' (fun x m => h1 x (by simp [m])) ⟨x, hx, hb⟩
    · rw [hs]; rfl

/-- A loop in which every step succeeds or fails with `e`. -/
theorem forL_ok_or {α σ : Type} (e : PyErr) (body : α → σ → Py σ) :
    ∀ (l : List α) (st : σ), (∀ x ∈ l, ∀ s, (∃ s', body x s = .ok s') ∨ body x s = .error e) →
      (∃ s', forL l st body = .ok s') ∨ forL l st body = .error e
  | [], st, _ => Or.inl ⟨st, rfl⟩
  | y :: l, st, h1 => by
    rw [forL_cons]
    rcases h1 y (by simp) st with ⟨s', hs⟩ | hs
    · rw [hs, bind_ok]
      exact forL_ok_or e body l s' (fun x m => h1 x (by simp [m]))
    · rw [hs]; exact Or.inr rfl

theorem wr_ok_or {α : Type} (a : List α) (i : ℤ) (v : α) : (∃ b, wr a i v = .ok b) ∨ wr a i v = .error .outOfBounds := by
  unfold wr
  split
  · exact Or.inr rfl
  · exact Or.inl ⟨_, rfl⟩

theorem rd_ok_or {α : Type} (a : List α) (i : ℤ) : (∃ b, rd a i = .ok b) ∨ rd a i = .error .outOfBounds := by
  unfold rd
  split
  · exact Or.inr rfl
  · split
    · exact Or.inl ⟨_, rfl⟩
    · exact Or.inr rfl

theorem bind_ok_or {α β : Type} {e : PyErr} {x : Py α} {f : α → Py β} (hx : (∃ a, x = .ok a) ∨ x = .error e)
    (hf : ∀ a, (∃ b, f a = .ok b) ∨ f a = .error e) : (∃ b, (x >>= f) = .ok b) ∨ (x >>= f) = .error e := by
  rcases hx with ⟨a, rfl⟩ | rfl
  · exact hf a
  · exact Or.inr rfl

/-- Beyond `ell = L` the lookup is outside the table. -/
theorem coeff_beyond {L : ℤ} {table : List ℝ} (ht : IsWignerTable L table) {a b c : ℤ} (hb : |b| ≤ a) (hc : |c| ≤ a) (ha : 2 * L < a) :
    Wigner_coefficient_two table a b c = .error .outOfBounds := by
  obtain ⟨hL, junk, hj⟩ := ht
  rw [gen_Wigner_eq junk hL] at hj
  injection hj with hj
  have hlen : (table.length : ℤ) = (TwoList 0 (2 * L)).length := by rw [← hj]; simp
  have h6 := TwoList_length6 (a := 0) (b := 2 * L) le_rfl (by omega)
  have h6' := TwoList_length6 (a := 0) (b := a - 1) le_rfl (by omega)
  have hmono : 6 * ((TwoList 0 (2 * L)).length : ℤ) ≤ 6 * ((TwoList 0 (a - 1)).length : ℤ) := by
    rw [h6, h6']
    have h1 : 2 * L ≤ a - 1 := by omega
    have h0 : 0 ≤ 2 * L := by omega
    have p3 : (2 * L) ^ 3 ≤ (a - 1) ^ 3 := pow_le_pow_left₀ h0 h1 3
    have p2 : (2 * L) ^ 2 ≤ (a - 1) ^ 2 := pow_le_pow_left₀ h0 h1 2
    linarith
  have e1 : a * ((2 * a + 3) * a + 1) / 6 = ((TwoList 0 (a - 1)).length : ℤ) := by
    have : a * ((2 * a + 3) * a + 1) = 6 * ((TwoList 0 (a - 1)).length : ℤ) := by rw [h6']; ring
    rw [this]; omega
  rw [abs_le] at hb hc
  have hi : (table.length : ℤ) ≤ Wigner_index a b c := by
    unfold Wigner_index
    rw [e1]
    have q1 : 0 ≤ (a + b) / 2 * (a + 1) := mul_nonneg (by omega) (by omega)
    have q2 : 0 ≤ (a + c) / 2 := by omega
    omega
  unfold Wigner_coefficient_two rd npIdx
  rw [if_neg (by omega), if_neg (by omega)]

theorem coeff_ok_or (table : List ℝ) (a b c : ℤ) :
    (∃ v, Wigner_coefficient_two table a b c = .ok v) ∨ Wigner_coefficient_two table a b c = .error .outOfBounds := rd_ok_or _ _

theorem coeffI_ok_or (table : List ℝ) (a b c : ℚ) :
    (∃ v, Wigner_coefficient table a b c = .ok v) ∨ Wigner_coefficient table a b c = .error .outOfBounds := rd_ok_or _ _

theorem coeffI_beyond {L : ℤ} {table : List ℝ} (ht : IsWignerTable L table) {a b c : ℤ} (hb : |b| ≤ a) (hc : |c| ≤ a) (ha : L < a) :
    Wigner_coefficient table a b c = .error .outOfBounds := by
  unfold Wigner_coefficient
  have e : ∀ n : ℤ, pyRound (2 * (n : ℚ)) = 2 * n := by
    intro n
    rw [show (2 * (n : ℚ)) = ((2 * n : ℤ) : ℚ) by push_cast; ring, pyRound_intCast]
  rw [e, e, e]
  refine coeff_beyond ht ?_ ?_ (by omega) <;> rw [abs_le] at * <;> omega

theorem hornerLoop_total (x : ℝ) (N1 N2 M hi lo : ℤ) (h0 : 0 ≤ lo) (h1 : -M ≤ lo) :
    ∃ S, hornerLoop x N1 N2 M hi lo = .ok S := by
  unfold hornerLoop
  obtain ⟨s, hs, -⟩ := forL_inv (fun _ _ => True) (pyRangeDown hi lo) (1 : ℝ) (fun rho Sum => do
    let q ← pyDiv (x * (((N1 - rho) * (N2 - rho) : ℤ) : ℝ)) ((rho * (M + rho) : ℤ) : ℝ)
    return Sum * q + 1) trivial (by
      intro pre t post s hx _
      have hm : t ∈ pyRangeDown hi lo := by rw [hx]; simp
      unfold pyRangeDown at hm
      simp only [List.mem_map, List.mem_range] at hm
      obtain ⟨k, hk, rfl⟩ := hm
      have hne : (((hi - (k : ℤ)) * (M + (hi - (k : ℤ))) : ℤ) : ℝ) ≠ 0 := by
        rw [Int.cast_ne_zero]
        exact mul_ne_zero (by omega) (by omega)
      unfold pyDiv
      rw [if_neg hne]
      exact ⟨_, rfl, trivial⟩)
  exact ⟨s, hs⟩

/-! ## One element -/

theorem elem_lt_ok_or (table : List ℝ) (ra phia rb phib : ℝ) (a b c : ℤ) :
    (∃ v, elem_ra_lt_rb table ra phia rb phib a b c = .ok v) ∨ elem_ra_lt_rb table ra phia rb phib a b c = .error .outOfBounds := by
  unfold elem_ra_lt_rb
  simp only
  by_cases h : |b| > a ∨ |c| > a
  · rw [if_pos h]; exact Or.inl ⟨_, rfl⟩
  · rw [if_neg h]
    refine bind_ok_or (coeff_ok_or _ _ _ _) fun v => Or.inl ?_
    split_ifs
    · exact ⟨_, rfl⟩
    all_goals
      obtain ⟨S, hS⟩ := hornerLoop2_total (-ra * ra / (rb * rb)) (a - b + 2) (a - c + 2) (c + b)
        (min (a - b) (a - c)) (max 0 (-b - c)) (by simp) (by omega)
      rw [hS]
      exact ⟨_, rfl⟩

theorem elem_ge_ok_or (table : List ℝ) (ra phia rb phib : ℝ) (a b c : ℤ) :
    (∃ v, elem_ra_ge_rb table ra phia rb phib a b c = .ok v) ∨ elem_ra_ge_rb table ra phia rb phib a b c = .error .outOfBounds := by
  unfold elem_ra_ge_rb
  simp only
  by_cases h : |b| > a ∨ |c| > a
  · rw [if_pos h]; exact Or.inl ⟨_, rfl⟩
  · rw [if_neg h]
    refine bind_ok_or (coeff_ok_or _ _ _ _) fun v => Or.inl ?_
    split_ifs
    · exact ⟨_, rfl⟩
    all_goals
      obtain ⟨S, hS⟩ := hornerLoop2_total (-rb * rb / (ra * ra)) (a + b + 2) (a - c + 2) (c - b)
        (min (a + b) (a - c)) (max 0 (b - c)) (by simp) (by omega)
      rw [hS]
      exact ⟨_, rfl⟩

theorem elem_lt_beyond {L : ℤ} {table : List ℝ} (ht : IsWignerTable L table) (ra phia rb phib : ℝ) {a b c : ℤ} (hb : |b| ≤ a)
    (hc : |c| ≤ a) (ha : 2 * L < a) : elem_ra_lt_rb table ra phia rb phib a b c = .error .outOfBounds := by
  unfold elem_ra_lt_rb
  simp only
  rw [if_neg (by omega), coeff_beyond ht (by rwa [abs_neg]) hc ha]
  rfl

theorem elem_ge_beyond {L : ℤ} {table : List ℝ} (ht : IsWignerTable L table) (ra phia rb phib : ℝ) {a b c : ℤ} (hb : |b| ≤ a)
    (hc : |c| ≤ a) (ha : 2 * L < a) : elem_ra_ge_rb table ra phia rb phib a b c = .error .outOfBounds := by
  unfold elem_ra_ge_rb
  simp only
  rw [if_neg (by omega), coeff_beyond ht hb hc ha]
  rfl

/-- `for i in range(N): out[i] = g(inp[i])` when one of the calls of `g` fails. -/
theorem forL_wr_err {α β : Type} (e : PyErr) (inp : List α) (out : List β) (g : α → Py β)
    (hlen : out.length = inp.length) (h1 : ∀ x ∈ inp, (∃ v, g x = .ok v) ∨ g x = .error e) (h2 : ∃ x ∈ inp, g x = .error e) :
    forL (pyRange 0 (inp.length : ℤ)) out (fun i out => do
      let x ← rd inp i
      let v ← g x
      wr out i v) = .error e := by
  classical
  obtain ⟨x, hx, hg⟩ := h2
  obtain ⟨k, hk, rfl⟩ := List.getElem_of_mem hx
  -- a writer that records nothing but the error
  suffices h : ∀ (l : List ℤ) (o : List β), o.length = inp.length → (∀ i ∈ l, 0 ≤ i ∧ i < inp.length) → (k : ℤ) ∈ l →
      forL l o (fun i out => do
        let x ← rd inp i
        let v ← g x
        wr out i v) = .error e from
    h _ _ hlen (fun i hi => by rw [mem_pyRange] at hi; exact hi) (by rw [mem_pyRange]; omega)
  intro l
  induction l with
  | nil => intro o _ _ h; cases h
  | cons i l ih =>
    intro o ho hr hm
    have hi := hr i (by simp)
    have hr1 : rd inp i = .ok (inp[i.toNat]'(by omega)) := rd_ok hi.1 (by simp)
    rw [forL_cons, hr1, bind_ok]
    rcases h1 (inp[i.toNat]'(by omega)) (List.getElem_mem _) with ⟨v, hv⟩ | hv
    · rw [hv, bind_ok, wr_ok hi.1 (by omega), bind_ok]
      refine ih _ (by simp [ho]) (fun j hj => hr j (by simp [hj])) ?_
      rcases List.mem_cons.mp hm with h | h
      · subst h
        simp only [Int.toNat_natCast] at hv
        rw [hg] at hv; cases hv
      · exact h
    · rw [hv]; rfl

/-- The rotor is outside both neighbourhoods in which the kernels take a shortcut. -/
def BothAbove (Ra Rb : ℂ) : Prop := epsilon < ‖Ra‖ ∧ epsilon < ‖Rb‖

theorem kernel_beyond {L : ℤ} {table : List ℝ} (ht : IsWignerTable L table) {Ra Rb : ℂ} (h : BothAbove Ra Rb) (indices : List (ℤ × ℤ × ℤ))
    (elements : List ℂ) (hlen : elements.length = indices.length)
    (hx : ∃ t ∈ indices, |t.2.1| ≤ t.1 ∧ |t.2.2| ≤ t.1 ∧ 2 * L < t.1) :
    Wigner_D_element_kernel table Ra Rb indices elements = .error .outOfBounds := by
  unfold Wigner_D_element_kernel
  obtain ⟨t, tm, h1, h2, h3⟩ := hx
  simp only
  rw [if_neg (not_le.mpr h.1), if_neg (not_le.mpr h.2)]
  split_ifs
  · exact forL_wr_err _ indices elements (fun t => elem_ra_lt_rb table ‖Ra‖ (Complex.arg Ra) ‖Rb‖ (Complex.arg Rb) t.1 t.2.1 t.2.2) hlen
      (fun t _ => elem_lt_ok_or _ _ _ _ _ _ _ _) ⟨t, tm, elem_lt_beyond ht _ _ _ _ h1 h2 h3⟩
  · exact forL_wr_err _ indices elements (fun t => elem_ra_ge_rb table ‖Ra‖ (Complex.arg Ra) ‖Rb‖ (Complex.arg Rb) t.1 t.2.1 t.2.2) hlen
      (fun t _ => elem_ge_ok_or _ _ _ _ _ _ _ _) ⟨t, tm, elem_ge_beyond ht _ _ _ _ h1 h2 h3⟩

/-- At a pole the table is not used. -/
theorem kernel_pole (table table' : List ℝ) {Ra Rb : ℂ} (h : ¬ BothAbove Ra Rb) (indices : List (ℤ × ℤ × ℤ)) (elements : List ℂ) :
    Wigner_D_element_kernel table Ra Rb indices elements = Wigner_D_element_kernel table' Ra Rb indices elements := by
  unfold Wigner_D_element_kernel
  simp only
  by_cases h1 : ‖Ra‖ ≤ epsilon
  · rw [if_pos h1, if_pos h1]
  · have h2 : ‖Rb‖ ≤ epsilon := by
      by_contra h2
      exact h ⟨not_le.mp h1, not_le.mp h2⟩
    rw [if_neg h1, if_pos h2, if_neg h1, if_pos h2]

/-! ## `Wigner_D_element` -/

/-- `Wigner_D_element(R, [ell, ...])` is the kernel on the triples of all the ells: there is no check of the ells. -/
theorem api_ells (table : List ℝ) (L : ℤ) (flag : Bool) (junk : ℕ → ℂ) (rot : List DArg) (Ra Rb : ℂ) (hrot : RotationArgs rot Ra Rb)
    (ns : List ℤ) (hne : ns ≠ []) (hn : ∀ n ∈ ns, 0 ≤ n) :
    ∃ buf : List ℂ, buf.length = (ns.flatMap ell_triples).length ∧
      Wigner_D_element table L flag junk (rot ++ [.ells (ns.map half)])
        = (Wigner_D_element_kernel table Ra Rb (ns.flatMap ell_triples) buf >>= fun a => .ok (.array a)) := by
  obtain ⟨off, h1, h2⟩ := find_rotation_ok hrot (.ells (ns.map half)) (by simp)
  rw [api_unfold hrot, h1]
  simp only [bind_ok]
  rw [h2]
  have hr : (ns.map half).map (fun ell => pyRoundR (2 * ell)) = ns := by
    rw [List.map_map]
    conv_rhs => rw [← List.map_id ns]
    exact List.map_congr_left (fun n _ => by simp)
  have hne2 : ns.flatMap ell_triples ≠ [] := by
    obtain ⟨n, ns', rfl⟩ := List.exists_cons_of_ne_nil hne
    have h0 := hn n (by simp)
    have : (n, -n, -n) ∈ ell_triples n := by
      rw [ell_triples_eq]
      refine ((TwoList_spec n h0).2 _).mpr ⟨le_rfl, le_rfl, ?_, ?_, ?_, ?_⟩ <;>
        simp only [abs_neg, abs_of_nonneg h0, le_refl] <;> omega
    intro h
    have hm : (n, -n, -n) ∈ (n :: ns').flatMap ell_triples := List.mem_flatMap.mpr ⟨n, by simp, this⟩
    rw [h] at hm
    simp at hm
  have hmap : ns.map half ≠ [] := by simpa using hne
  obtain ⟨buf, hb1, hb2⟩ := npEmpty_len junk (ns.flatMap ell_triples).length
  refine ⟨buf, hb2, ?_⟩
  unfold find_indices
  simp only [hr, hmap, hne2, if_false, bind_ok]
  rw [hb1]
  simp only [bind_ok]
  rfl

/-- **C79.** `Wigner_D_element` with a list of ells does not check them: if one of them exceeds the limit `L` of the table, every rotor away
from the poles makes it read outside the table of coefficients. -/
theorem C79_ells {L : ℤ} {table : List ℝ} (ht : IsWignerTable L table) (flag : Bool) (junk : ℕ → ℂ) (rot : List DArg) (Ra Rb : ℂ)
    (hrot : RotationArgs rot Ra Rb) (ho : BothAbove Ra Rb) (ns : List ℤ) (hn : ∀ n ∈ ns, 0 ≤ n) (hx : ∃ n ∈ ns, 2 * L < n) :
    Wigner_D_element table L flag junk (rot ++ [.ells (ns.map half)]) = .error .outOfBounds := by
  obtain ⟨n, hnm, hx⟩ := hx
  obtain ⟨buf, hb, e⟩ := api_ells table L flag junk rot Ra Rb hrot ns (List.ne_nil_of_mem hnm) hn
  have h0 := hn n hnm
  rw [e, kernel_beyond ht ho _ _ hb]
  · rfl
  · refine ⟨(n, -n, -n), List.mem_flatMap.mpr ⟨n, hnm, ?_⟩, ?_, ?_, hx⟩
    · rw [ell_triples_eq]
      refine ((TwoList_spec n h0).2 _).mpr ⟨le_rfl, le_rfl, ?_, ?_, ?_, ?_⟩ <;>
        simp only [abs_neg, abs_of_nonneg h0, le_refl] <;> omega
    · simp only [abs_neg, abs_of_nonneg h0, le_refl]
    · simp only [abs_neg, abs_of_nonneg h0, le_refl]

/-- **C79.** At a pole no coefficient is read: the list-of-ells call is right for every `ell`, whatever the table. -/
theorem C79_ells_pole (table : List ℝ) (L : ℤ) (flag : Bool) (junk : ℕ → ℂ) (rot : List DArg) (Ra Rb : ℂ)
    (hrot : RotationArgs rot Ra Rb) (hg : Generic Ra Rb) (ho : Ra = 0 ∨ Rb = 0) (ns : List ℤ) (hne : ns ≠ []) (hn : ∀ n ∈ ns, 0 ≤ n) :
    ∃ rows : ℤ → List (ℤ × ℤ × ℤ), (∀ n, 0 ≤ n → Spec.ListsTwoTriples n n (rows n)) ∧
      Wigner_D_element table L flag junk (rot ++ [.ells (ns.map half)])
        = .ok (.array ((ns.flatMap rows).map fun t => Spec.wignerD Ra Rb t.1 t.2.1 t.2.2)) := by
  refine ⟨ell_triples, fun n h => by rw [ell_triples_eq]; exact TwoList_spec n h, ?_⟩
  obtain ⟨buf, hb, e⟩ := api_ells table L flag junk rot Ra Rb hrot ns hne hn
  obtain ⟨M, hM⟩ : ∃ M : ℤ, 0 ≤ M ∧ ∀ n ∈ ns, n ≤ 2 * M := by
    clear hne e hb hn
    induction ns with
    | nil => exact ⟨0, le_rfl, by simp⟩
    | cons n ns ih =>
      obtain ⟨M, h0, hM⟩ := ih
      refine ⟨max M |n|, le_trans h0 (le_max_left _ _), ?_⟩
      intro x hx
      have := le_abs_self n
      rcases List.mem_cons.mp hx with rfl | hx
      · have := le_max_right M |x|
        have := abs_nonneg x
        omega
      · have := hM x hx
        have := le_max_left M |n|
        omega
  obtain ⟨t', ht'⟩ := IsWignerTable.exists M hM.1
  have hp : ¬ BothAbove Ra Rb := by
    rintro ⟨h1, h2⟩
    have := epsilon_pos
    rcases ho with rfl | rfl
    · rw [norm_zero] at h1; linarith
    · rw [norm_zero] at h2; linarith
  rw [e, kernel_pole table t' hp, kernel_valid ht' hg _ _ buf hb]
  · rfl
  · intro t htm
    rw [List.mem_flatMap] at htm
    obtain ⟨n, hnm, htn⟩ := htm
    rw [ell_triples_eq] at htn
    obtain ⟨g1, g2, g3, g4, g5, g6⟩ := ((TwoList_spec n (hn n hnm)).2 _).mp htn
    exact ⟨⟨g3, g4, g5, g6⟩, le_trans g2 (hM.2 n hnm)⟩

/-- **C79.** The array-of-rotors call reads the table before it looks at the rotors: beyond the limit it always reads outside, even for an
empty array of rotors and at the poles. -/
theorem C79_array_of_rotors {L : ℤ} {table : List ℝ} (ht : IsWignerTable L table) (flag : Bool) (junk : ℕ → ℂ)
    (Rs : List (ℝ × ℝ × ℝ × ℝ)) (ell mp m : ℤ) (h1 : |mp| ≤ ell) (h2 : |m| ≤ ell) (h3 : L < ell) :
    Wigner_D_element table L flag junk [.rotors Rs, .num (.int ell), .num (.int mp), .num (.int m)] = .error .outOfBounds := by
  obtain ⟨buf, hb1, hb2⟩ := npEmpty_len junk Rs.length
  unfold Wigner_D_element
  simp only [hb1, bind_ok]
  unfold Wigner_D_elements_kernel
  simp only
  rw [if_neg (by omega), coeffI_beyond ht h1 h2 h3]
  rfl

/-! ## `Wigner_D_matrices` -/

theorem store_zero_ok_or (i_ell ell mp m : ℤ) (o : List ℂ) :
    (∃ b, mats_store_zero i_ell ell mp m o = .ok b) ∨ mats_store_zero i_ell ell mp m o = .error .outOfBounds := by
  unfold mats_store_zero
  refine bind_ok_or (wr_ok_or _ _ _) fun o => ?_
  split_ifs
  · exact bind_ok_or (wr_ok_or _ _ _) fun o => bind_ok_or (wr_ok_or _ _ _) fun o => wr_ok_or _ _ _
  · exact wr_ok_or _ _ _
  · exact Or.inl ⟨_, rfl⟩

theorem store_ok_or (i_ell ell mp m : ℤ) (P1 P2 : ℂ) (S : ℝ) (o : List ℂ) :
    (∃ b, mats_store i_ell ell mp m P1 P2 S o = .ok b) ∨ mats_store i_ell ell mp m P1 P2 S o = .error .outOfBounds := by
  unfold mats_store
  refine bind_ok_or (wr_ok_or _ _ _) fun o => ?_
  split_ifs
  · exact bind_ok_or (wr_ok_or _ _ _) fun o => bind_ok_or (wr_ok_or _ _ _) fun o => wr_ok_or _ _ _
  · exact bind_ok_or (wr_ok_or _ _ _) fun o => bind_ok_or (wr_ok_or _ _ _) fun o => wr_ok_or _ _ _
  · exact wr_ok_or _ _ _
  · exact wr_ok_or _ _ _
  · exact Or.inl ⟨_, rfl⟩

theorem mats_lt_ok_or (table : List ℝ) (ra phia rb phib : ℝ) (ell_min ell mp m : ℤ) (o : List ℂ) :
    (∃ b, mats_ra_lt_rb table ra phia rb phib ell_min ell mp m o = .ok b)
      ∨ mats_ra_lt_rb table ra phia rb phib ell_min ell mp m o = .error .outOfBounds := by
  unfold mats_ra_lt_rb
  simp only
  refine bind_ok_or (coeffI_ok_or _ _ _ _) fun c => ?_
  split_ifs
  · exact store_zero_ok_or _ _ _ _ _
  all_goals
    refine bind_ok_or (Or.inl (hornerLoop_total _ _ _ _ _ _ (by simp) (by omega))) fun S => store_ok_or _ _ _ _ _ _ _ _

theorem mats_ge_ok_or (table : List ℝ) (ra phia rb phib : ℝ) (ell_min ell mp m : ℤ) (o : List ℂ) :
    (∃ b, mats_ra_ge_rb table ra phia rb phib ell_min ell mp m o = .ok b)
      ∨ mats_ra_ge_rb table ra phia rb phib ell_min ell mp m o = .error .outOfBounds := by
  unfold mats_ra_ge_rb
  simp only
  refine bind_ok_or (coeffI_ok_or _ _ _ _) fun c => ?_
  split_ifs
  · exact store_zero_ok_or _ _ _ _ _
  all_goals
    refine bind_ok_or (Or.inl (hornerLoop_total _ _ _ _ _ _ (by simp) (by omega))) fun S => store_ok_or _ _ _ _ _ _ _ _

/-- The three nested loops, one of whose innermost steps fails. -/
theorem triple_err {a b : ℤ} (body : ℤ → ℤ → ℤ → List ℂ → Py (List ℂ))
    (h1 : ∀ ell mp m o, (∃ o', body ell mp m o = .ok o') ∨ body ell mp m o = .error .outOfBounds) (hab : a ≤ b) (hb : 0 ≤ b)
    (h2 : ∀ o, body b (-b) (-b) o = .error .outOfBounds) (o : List ℂ) :
    forL (pyRange a (b + 1)) o (fun ell o =>
      forL (pyRange (-ell) 1) o fun mp o =>
        forL (pyRange mp (-mp + 1)) o fun m o => body ell mp m o) = .error .outOfBounds := by
  apply forL_err
  · intro ell _ o
    exact forL_ok_or _ _ _ _ fun mp _ o => forL_ok_or _ _ _ _ fun m _ o => h1 ell mp m o
  · refine ⟨b, by rw [mem_pyRange]; omega, fun o => ?_⟩
    apply forL_err
    · intro mp _ o
      exact forL_ok_or _ _ _ _ fun m _ o => h1 b mp m o
    · refine ⟨-b, by rw [mem_pyRange]; omega, fun o => ?_⟩
      apply forL_err
      · exact fun m _ o => h1 b (-b) m o
      · exact ⟨-b, by rw [mem_pyRange]; omega, h2⟩

/-- **C79.** `Wigner_D_matrices` does not check `ell_max`: beyond the limit of the table every rotor away from the poles makes it read outside
the table. -/
theorem C79_Wigner_D_matrices {L : ℤ} {table : List ℝ} (ht : IsWignerTable L table) (junk : ℕ → ℂ) (Ra Rb : ℂ) (ho : BothAbove Ra Rb)
    (a b : ℤ) (ha : 0 ≤ a) (hab : a ≤ b) (hb : L < b) : Wigner_D_matrices table junk Ra Rb a b = .error .outOfBounds := by
  have hl0 : 0 ≤ LMpM_total_size a b := by
    have := LMpMlist_length ha (show a ≤ b + 1 by omega)
    omega
  have hb0 : 0 ≤ b := by omega
  unfold Wigner_D_matrices
  rw [if_neg (by rw [pyRound_intCast, pyRound_intCast]; norm_num), pyIntQ_int, pyIntQ_int, npEmpty_ok hl0, bind_ok]
  unfold Wigner_D_matrices_kernel
  simp only
  rw [if_neg (not_le.mpr ho.1), if_neg (not_le.mpr ho.2)]
  have e : |(-b)| ≤ b := by rw [abs_neg, abs_of_nonneg hb0]
  have e' : |(- -b)| ≤ b := by rw [neg_neg, abs_of_nonneg hb0]
  split_ifs
  · refine triple_err (fun ell mp m o => mats_ra_lt_rb table ‖Ra‖ (Complex.arg Ra) ‖Rb‖ (Complex.arg Rb) a ell mp m o)
      (fun ell mp m o => mats_lt_ok_or _ _ _ _ _ _ _ _ _ _) hab hb0 (fun o => ?_) _
    unfold mats_ra_lt_rb
    have c := coeffI_beyond ht e' e hb
    push_cast at c ⊢
    rw [c]
    rfl
  · refine triple_err (fun ell mp m o => mats_ra_ge_rb table ‖Ra‖ (Complex.arg Ra) ‖Rb‖ (Complex.arg Rb) a ell mp m o)
      (fun ell mp m o => mats_ge_ok_or _ _ _ _ _ _ _ _ _ _) hab hb0 (fun o => ?_) _
    unfold mats_ra_ge_rb
    have c := coeffI_beyond ht e e hb
    push_cast at c ⊢
    rw [c]
    rfl

/-! ## `SWSH`, `SWSH_grid`, `Modes.evaluate` -/

theorem swsh_lt_ok_or (table : List ℝ) (ra phia rb phib : ℝ) (s ell m : ℤ) :
    (∃ v, swsh_ra_lt_rb table ra phia rb phib s ell m = .ok v) ∨ swsh_ra_lt_rb table ra phia rb phib s ell m = .error .outOfBounds := by
  unfold swsh_ra_lt_rb
  simp only
  by_cases h : |m| > ell ∨ |s| > ell
  · rw [if_pos h]; exact Or.inl ⟨_, rfl⟩
  · rw [if_neg h]
    refine bind_ok_or (coeffI_ok_or _ _ _ _) fun v => Or.inl ?_
    split_ifs
    · exact ⟨_, rfl⟩
    all_goals
      obtain ⟨S, hS⟩ := hornerLoop_total (-ra * ra / (rb * rb)) (ell - m + 1) (ell + s + 1) (-s + m)
        (min (ell - m) (ell + s)) (max 0 (-m + s)) (by simp) (by omega)
      rw [hS]
      exact ⟨_, rfl⟩

theorem swsh_ge_ok_or (table : List ℝ) (ra phia rb phib : ℝ) (s ell m : ℤ) :
    (∃ v, swsh_ra_ge_rb table ra phia rb phib s ell m = .ok v) ∨ swsh_ra_ge_rb table ra phia rb phib s ell m = .error .outOfBounds := by
  unfold swsh_ra_ge_rb
  simp only
  by_cases h : |m| > ell ∨ |s| > ell
  · rw [if_pos h]; exact Or.inl ⟨_, rfl⟩
  · rw [if_neg h]
    refine bind_ok_or (coeffI_ok_or _ _ _ _) fun v => Or.inl ?_
    split_ifs
    · exact ⟨_, rfl⟩
    all_goals
      obtain ⟨S, hS⟩ := hornerLoop_total (-rb * rb / (ra * ra)) (ell + m + 1) (ell + s + 1) (-s - m)
        (min (ell + m) (ell + s)) (max 0 (m + s)) (by simp) (by omega)
      rw [hS]
      exact ⟨_, rfl⟩

theorem swsh_lt_beyond {L : ℤ} {table : List ℝ} (ht : IsWignerTable L table) (ra phia rb phib : ℝ) {s ell m : ℤ} (hm : |m| ≤ ell)
    (hs : |s| ≤ ell) (hl : L < ell) : swsh_ra_lt_rb table ra phia rb phib s ell m = .error .outOfBounds := by
  unfold swsh_ra_lt_rb
  have c := coeffI_beyond ht (b := -m) (c := -s) (by rwa [abs_neg]) (by rwa [abs_neg]) hl
  push_cast at c
  simp only
  rw [if_neg (by omega), c]
  rfl

theorem swsh_ge_beyond {L : ℤ} {table : List ℝ} (ht : IsWignerTable L table) (ra phia rb phib : ℝ) {s ell m : ℤ} (hm : |m| ≤ ell)
    (hs : |s| ≤ ell) (hl : L < ell) : swsh_ra_ge_rb table ra phia rb phib s ell m = .error .outOfBounds := by
  unfold swsh_ra_ge_rb
  have c := coeffI_beyond ht (b := m) (c := -s) hm (by rwa [abs_neg]) hl
  push_cast at c
  simp only
  rw [if_neg (by omega), c]
  rfl

theorem swsh_kernel_beyond {L : ℤ} {table : List ℝ} (ht : IsWignerTable L table) {Ra Rb : ℂ} (h : BothAbove Ra Rb) (s : ℤ)
    (indices : List (ℤ × ℤ)) (values : List ℂ) (hlen : values.length = indices.length)
    (hx : ∃ t ∈ indices, |t.2| ≤ t.1 ∧ |s| ≤ t.1 ∧ L < t.1) : SWSH_kernel table Ra Rb s indices values = .error .outOfBounds := by
  unfold SWSH_kernel
  obtain ⟨t, tm, h1, h2, h3⟩ := hx
  simp only
  rw [if_neg (not_le.mpr h.1), if_neg (not_le.mpr h.2)]
  split_ifs
  · exact forL_wr_err _ indices values (fun t => swsh_ra_lt_rb table ‖Ra‖ (Complex.arg Ra) ‖Rb‖ (Complex.arg Rb) s t.1 t.2) hlen
      (fun t _ => swsh_lt_ok_or _ _ _ _ _ _ _ _) ⟨t, tm, swsh_lt_beyond ht _ _ _ _ h1 h2 h3⟩
  · exact forL_wr_err _ indices values (fun t => swsh_ra_ge_rb table ‖Ra‖ (Complex.arg Ra) ‖Rb‖ (Complex.arg Rb) s t.1 t.2) hlen
      (fun t _ => swsh_ge_ok_or _ _ _ _ _ _ _ _) ⟨t, tm, swsh_ge_beyond ht _ _ _ _ h1 h2 h3⟩

/-- At a unit rotor, the kernel succeeds or reads outside the table; at the poles it always succeeds. -/
theorem swsh_kernel_ok_or (table : List ℝ) {Ra Rb : ℂ} (hu : Spec.IsUnit' Ra Rb) (s : ℤ) (indices : List (ℤ × ℤ)) (values : List ℂ)
    (hlen : values.length = indices.length) :
    (∃ r, SWSH_kernel table Ra Rb s indices values = .ok r ∧ r.length = indices.length) ∨
      SWSH_kernel table Ra Rb s indices values = .error .outOfBounds := by
  have key : ∀ g : ℤ × ℤ → Py ℂ, (∀ t, (∃ v, g t = .ok v) ∨ g t = .error .outOfBounds) →
      (∃ r, forL (pyRange 0 (indices.length : ℤ)) values (fun i values => do
        let t ← rd indices i
        let v ← g t
        wr values i v) = .ok r ∧ r.length = indices.length) ∨
      forL (pyRange 0 (indices.length : ℤ)) values (fun i values => do
        let t ← rd indices i
        let v ← g t
        wr values i v) = .error .outOfBounds := by
    intro g hg
    by_cases hx : ∃ t ∈ indices, g t = .error .outOfBounds
    · exact Or.inr (forL_wr_err _ indices values g hlen (fun t _ => hg t) hx)
    · left
      refine ⟨_, forL_map_wr indices values hlen g (fun t => match g t with | .ok v => v | .error _ => 0) ?_, by simp⟩
      intro t tm
      rcases hg t with ⟨v, hv⟩ | hv
      · rw [hv]
      · exact absurd ⟨t, tm, hv⟩ hx
  unfold SWSH_kernel
  simp only
  split_ifs with h1 h2 h3
  · exact key (fun t => swsh_ra_small Rb s t.1 t.2) fun t => Or.inl ⟨_, swsh_ra_small_any hu h1 s t.1 t.2⟩
  · exact key (fun t => swsh_rb_small Ra s t.1 t.2) fun t => Or.inl ⟨_, swsh_rb_small_any hu h1 h2 s t.1 t.2⟩
  · exact key (fun t => swsh_ra_lt_rb table ‖Ra‖ (Complex.arg Ra) ‖Rb‖ (Complex.arg Rb) s t.1 t.2) fun t => swsh_lt_ok_or _ _ _ _ _ _ _ _
  · exact key (fun t => swsh_ra_ge_rb table ‖Ra‖ (Complex.arg Ra) ‖Rb‖ (Complex.arg Rb) s t.1 t.2) fun t => swsh_ge_ok_or _ _ _ _ _ _ _ _

/-- **C79.** `SWSH` with one rotor away from the poles and a list of modes, one of which is beyond the table. -/
theorem C79_SWSH {L : ℤ} {table : List ℝ} (ht : IsWignerTable L table) (junk : ℕ → ℂ) (R : ℝ × ℝ × ℝ × ℝ) (ho : BothAbove (quat_a R) (quat_b R))
    (s : ℤ) (modes : List (ℤ × ℤ)) (hx : ∃ t ∈ modes, |t.2| ≤ t.1 ∧ |s| ≤ t.1 ∧ L < t.1) :
    SWSH table junk (.single R) s (.rows modes) = .error .outOfBounds := by
  obtain ⟨buf, hb1, hb2⟩ := npEmpty_len junk modes.length
  unfold SWSH
  rw [if_pos (Or.inr (by rfl))]
  simp only
  rw [hb1, bind_ok]
  exact swsh_kernel_beyond ht ho s modes buf hb2 hx

/-- **C79.** `SWSH` with an array of rotors: beyond the limit it always reads outside the table. -/
theorem C79_SWSH_array {L : ℤ} {table : List ℝ} (ht : IsWignerTable L table) (junk : ℕ → ℂ) (Rs : List (ℝ × ℝ × ℝ × ℝ)) (s ell m : ℤ)
    (hm : |m| ≤ ell) (hs : |s| ≤ ell) (hl : L < ell) : SWSH table junk (.array Rs) s (.pair ell m) = .error .outOfBounds := by
  obtain ⟨buf, hb1, hb2⟩ := npEmpty_len junk Rs.length
  unfold SWSH
  rw [if_neg (by simp [SIdx.size, SRot.isArray])]
  simp only
  rw [hb1, bind_ok]
  unfold SWSHs_kernel
  have c := coeffI_beyond ht (b := m) (c := -s) hm (by rwa [abs_neg]) hl
  push_cast at c
  simp only
  rw [if_neg (by omega), c]
  rfl

/-- **C79.** `SWSH_grid` does not check `ell_max`: beyond the limit of the table, one unit rotor away from the poles makes it read outside
the table. -/
theorem C79_SWSH_grid {L : ℤ} {table : List ℝ} (ht : IsWignerTable L table) (junk : ℕ → ℤ × ℤ) (qs : List ℍ[ℝ])
    (hq : ∀ q ∈ qs, normSq q = 1) (ho : ∃ q ∈ qs, BothAbove (partA q) (partB q)) (s ell_max : ℤ) (hs : |s| ≤ ell_max) (hl : L < ell_max) :
    SWSH_grid table junk (qs.map comps) s ell_max = .error .outOfBounds := by
  have hs0 := abs_nonneg s
  unfold SWSH_grid
  rw [LM_range_eq junk le_rfl (by omega), bind_ok]
  obtain ⟨q, hqm, ho⟩ := ho
  simp only
  rw [if_neg (by simpa using List.ne_nil_of_mem hqm)]
  simp only [List.length_map]
  obtain ⟨k, hk, rfl⟩ := List.getElem_of_mem hqm
  have hx : ∃ t ∈ LMlist 0 ell_max, |t.2| ≤ t.1 ∧ |s| ≤ t.1 ∧ L < t.1 := by
    refine ⟨(ell_max, 0), ((LMlist_spec ell_max (le_refl 0)).2 _).mpr ?_, ?_, hs, hl⟩
    · refine ⟨?_, le_rfl, ?_⟩ <;> simp <;> omega
    · simp; omega
  set N := (LMlist 0 ell_max).length
  suffices h : ∀ (l : List ℤ) (o : List (List ℂ)), o.length = qs.length → (∀ row ∈ o, row.length = N) →
      (∀ i ∈ l, 0 ≤ i ∧ i < qs.length) → (k : ℤ) ∈ l →
      forL l o (fun i values => do
        let R ← rd (qs.map comps) i
        let row ← rd values i
        let row ← SWSH_kernel table (quat_a R) (quat_b R) s (LMlist 0 ell_max) row
        wr values i row) = .error .outOfBounds from
    h _ _ (by simp) (fun row hr => by rw [List.eq_of_mem_replicate hr]; simp) (fun i hi => by rw [mem_pyRange] at hi; exact hi)
      (by rw [mem_pyRange]; omega)
  intro l
  induction l with
  | nil => intro o _ _ _ h; cases h
  | cons i l ih =>
    intro o h1 h2 h3 h4
    have hi := h3 i (by simp)
    have hiq : i.toNat < qs.length := by omega
    have r1 : rd (qs.map comps) i = .ok (comps qs[i.toNat]) := rd_ok hi.1 (by simp [hiq])
    have r2 : rd o i = .ok (o[i.toNat]'(by omega)) := rd_ok hi.1 (by simp)
    have hr : (o[i.toNat]'(by omega)).length = N := h2 _ (List.getElem_mem _)
    rw [forL_cons, r1, bind_ok, r2, bind_ok]
    change ((SWSH_kernel table (partA qs[i.toNat]) (partB qs[i.toNat]) s _ _ >>= _) >>= _) = _
    rcases swsh_kernel_ok_or table (unitQ.mpr (hq qs[i.toNat] (List.getElem_mem hiq))) s (LMlist 0 ell_max) _ hr with ⟨r, e, er⟩ | e
    · rw [e, bind_ok, wr_ok hi.1 (by omega), bind_ok]
      refine ih _ (by simp [h1]) ?_ (fun j hj => h3 j (by simp [hj])) ?_
      · intro row hrow
        rcases List.mem_or_eq_of_mem_set hrow with h | h
        · exact h2 _ h
        · rw [h]; exact er
      · rcases List.mem_cons.mp h4 with h | h
        · exfalso
          have hik : i.toNat = k := by omega
          subst hik
          rw [swsh_kernel_beyond ht ho s _ _ hr hx] at e
          cases e
        · exact h
    · rw [e]; rfl

/-- **C79.** `Modes.evaluate` likewise, for objects with `ell_max` beyond the limit of the table. -/
theorem C79_evaluate {L : ℤ} {table : List ℝ} (ht : IsWignerTable L table) (junk : ℕ → ℤ × ℤ) (f : Modes) (qs : List ℍ[ℝ])
    (hq : ∀ q ∈ qs, normSq q = 1) (ho : ∃ q ∈ qs, BothAbove (partA q) (partB q)) (hs : |f.s| ≤ f.ell_max) (hl : L < f.ell_max) :
    f.evaluate table junk (qs.map comps) = .error .outOfBounds := by
  unfold Modes.evaluate
  rw [C79_SWSH_grid ht junk qs hq ho f.s f.ell_max hs hl]
  rfl

/-- The hypotheses are met: the table of the package (`ell ≤ 32`), the rotor `3/5 + 4/5 j` away from the poles and the rotor `1` at one. -/
example : ∃ table, IsWignerTable 32 table ∧
    Wigner_D_element table 32 false (fun _ => 0) [.num (.cpx (3/5)), .num (.cpx (4/5)), .ells ([4, 66].map half)] = .error .outOfBounds ∧
    (∃ v, Wigner_D_element table 32 false (fun _ => 0) [.num (.cpx 1), .num (.cpx 0), .ells ([4, 66].map half)] = .ok v) ∧
    Wigner_D_element table 32 false (fun _ => 0) [.rotors [], .num (.int 33), .num (.int 2), .num (.int (-7))] = .error .outOfBounds ∧
    Wigner_D_matrices table (fun _ => 0) (3/5) (4/5) 2 33 = .error .outOfBounds ∧
    SWSH table (fun _ => 0) (.single (comps (mkQ (3/5) 0 (4/5) 0))) (-2) (.rows [(2, 1), (40, 3)]) = .error .outOfBounds ∧
    SWSH table (fun _ => 0) (.array [comps (mkQ 1 0 0 0)]) (-2) (.pair 40 3) = .error .outOfBounds ∧
    SWSH_grid table (fun _ => 0) ([mkQ 1 0 0 0, mkQ (3/5) 0 (4/5) 0].map comps) (-2) 33 = .error .outOfBounds := by
  obtain ⟨t, ht⟩ := IsWignerTable.exists 32 (by norm_num)
  have e1 : epsilon < 3/5 := by unfold epsilon; norm_num
  have ho : BothAbove (3/5) (4/5) := by
    constructor
    · rw [show (3/5 : ℂ) = ((3/5 : ℝ) : ℂ) by push_cast; rfl, Complex.norm_real]; norm_num; linarith
    · rw [show (4/5 : ℂ) = ((4/5 : ℝ) : ℂ) by push_cast; rfl, Complex.norm_real]; norm_num; linarith
  have hq : BothAbove (partA (mkQ (3/5) 0 (4/5) 0)) (partB (mkQ (3/5) 0 (4/5) 0)) := by
    have a1 : partA (mkQ (3/5) 0 (4/5) 0) = 3/5 := by apply Complex.ext <;> simp [partA, mkQ]
    have b1 : partB (mkQ (3/5) 0 (4/5) 0) = 4/5 := by apply Complex.ext <;> simp [partB, mkQ]
    rw [a1, b1]; exact ho
  refine ⟨t, ht, ?_, ?_, ?_, ?_, ?_, ?_, ?_⟩
  · exact C79_ells ht false _ _ _ _ (.parts _ _) ho [4, 66] (by simp) ⟨66, by simp, by norm_num⟩
  · obtain ⟨rows, -, h⟩ := C79_ells_pole t 32 false (fun _ => 0) _ _ _ (.parts 1 0)
      ⟨by simp [Spec.IsUnit'], by right; rw [norm_one]; linarith, by left; rfl⟩ (Or.inr rfl) [4, 66] (by simp) (by simp)
    exact ⟨_, h⟩
  · exact C79_array_of_rotors ht false _ [] 33 2 (-7) (by norm_num) (by norm_num) (by norm_num)
  · exact C79_Wigner_D_matrices ht _ _ _ ho 2 33 (by norm_num) (by norm_num) (by norm_num)
  · exact C79_SWSH ht _ (comps (mkQ (3/5) 0 (4/5) 0)) hq (-2) _ ⟨(40, 3), by simp, by norm_num, by norm_num, by norm_num⟩
  · exact C79_SWSH_array ht _ _ (-2) 40 3 (by norm_num) (by norm_num) (by norm_num)
  · refine C79_SWSH_grid ht _ _ ?_ ⟨_, by simp, hq⟩ (-2) 33 (by norm_num) (by norm_num)
    simp only [List.mem_cons, List.not_mem_nil, or_false]
    rintro q (rfl | rfl) <;> simp [normSq, mkQ] <;> norm_num

end SF
