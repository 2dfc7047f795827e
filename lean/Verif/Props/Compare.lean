import Verif.Model.Compare
import Verif.Props.Grid
import Verif.Props.ModesArith

/-!
# Property C81: comparisons of Modes and Grid objects
-/

set_option autoImplicit false

namespace SF

theorem bcastShape_append1 (a b : List ℕ) (x : ℕ) : bcastShape (a ++ [x]) (b ++ [x]) = (bcastShape a b).map (· ++ [x]) := by
  unfold bcastShape
  simp only [List.reverse_append, List.reverse_cons, List.reverse_nil, List.nil_append, List.cons_append, bcRev, if_true]
  cases bcRev a.reverse b.reverse <;> simp

theorem bcastShape_append1_one (a b : List ℕ) (x : ℕ) : bcastShape (a ++ [x]) (b ++ [1]) = (bcastShape a b).map (· ++ [x]) := by
  unfold bcastShape
  simp only [List.reverse_append, List.reverse_cons, List.reverse_nil, List.nil_append, List.cons_append, bcRev]
  by_cases hx : x = 1 <;> simp [hx] <;> cases bcRev a.reverse b.reverse <;> simp

theorem bcastShape_append1_ne (a b : List ℕ) {x y : ℕ} (h : x ≠ y) (hx : x ≠ 1) (hy : y ≠ 1) : bcastShape (a ++ [x]) (b ++ [y]) = none := by
  unfold bcastShape
  simp only [List.reverse_append, List.reverse_cons, List.reverse_nil, List.nil_append, List.cons_append, bcRev, if_neg h, if_neg hx,
    if_neg hy, Option.map_none]

theorem bcIdx_append1 (a : List ℕ) {x : ℕ} (li : MIdx) {j : ℕ} (hj : j < x) : bcIdx (a ++ [x]) (li ++ [j]) = bcIdx a li ++ [j] := by
  unfold bcIdx
  simp only [List.reverse_append, List.reverse_cons, List.reverse_nil, List.nil_append, List.cons_append, List.zipWith_cons_cons]
  rw [show (if x = 1 then 0 else j) = j by split <;> omega]

theorem bcIdx_append1_one (a : List ℕ) (li : MIdx) (j : ℕ) : bcIdx (a ++ [1]) (li ++ [j]) = bcIdx a li ++ [0] := by
  unfold bcIdx
  simp only [List.reverse_append, List.reverse_cons, List.reverse_nil, List.nil_append, List.cons_append, List.zipWith_cons_cons, if_true]

theorem asArray_at (f : Modes) (idx : MIdx) (j : ℕ) : f.asArray.val (idx ++ [j]) = (f.dat[j]?.getD fun _ => 0) idx := by
  unfold Modes.asArray
  simp only [List.getLastD_concat, List.dropLast_concat]
  cases f.dat[j]? <;> rfl

/-- The comparisons that both classes support. -/
def CUfunc.both : List CUfunc := [.not_equal, .equal, .logical_and, .logical_or]

theorem npCompare_modes (u : CUfunc) (hu : u ∈ CUfunc.both) (f g : Modes) :
    npCompare u (.modes f) (.modes g) = match bcastShape f.asArray.shape g.asArray.shape with
      | none => .error .valueError
      | some sh => .ok ⟨sh, fun idx => u.rel (f.asArray.val (bcIdx f.asArray.shape idx)) (g.asArray.val (bcIdx g.asArray.shape idx))⟩ := by
  unfold npCompare CArg.compare modesCompare
  unfold CUfunc.both at hu
  simp only [if_pos hu, CArg.plainModes, ndarrayUfunc]
  rcases bcastShape f.asArray.shape g.asArray.shape with _ | _ <;> rfl

/-- **C81.** For two Modes objects with the same `ell_max` and leading shapes that broadcast, `np.equal` and the other supported
comparisons return the boolean array of the broadcast leading shape and the mode axis whose entry at the position of `(ell, m)` compares the
two mode weights.  The spin weights do not matter.  Leading shapes that do not broadcast raise ValueError. -/
theorem C81_modes (u : CUfunc) (hu : u ∈ [CUfunc.equal, .not_equal, .logical_and, .logical_or]) (f g : Modes) (hf : f.WF) (hg : g.WF)
    (hL : f.ell_max = g.ell_max) :
    (∀ lead, bcastShape f.lead g.lead = some lead → ∃ r, npCompare u (.modes f) (.modes g) = .ok r ∧
      r.shape = lead ++ [((f.ell_max + 1) ^ 2).toNat] ∧
      ∀ ell m, |m| ≤ ell → ell ≤ f.ell_max → ∀ idx, ValidIdx lead idx →
        (r.val (idx ++ [(LM_index ell m 0).toNat]) ↔ u.rel (f.coef ell m (bcIdx f.lead idx)) (g.coef ell m (bcIdx g.lead idx)))) ∧
    (bcastShape f.lead g.lead = none → npCompare u (.modes f) (.modes g) = .error .valueError) := by
  have hu' : u ∈ CUfunc.both := by
    unfold CUfunc.both; simp only [List.mem_cons, List.not_mem_nil, or_false] at hu ⊢; tauto
  have hn : f.dat.length = ((f.ell_max + 1) ^ 2).toNat := by rw [← hf.size]; omega
  have hn' : g.dat.length = f.dat.length := by
    have h1 := hf.size
    have h2 := hg.size
    rw [← hL] at h2
    omega
  have hs : bcastShape f.asArray.shape g.asArray.shape = (bcastShape f.lead g.lead).map (· ++ [f.dat.length]) := by
    unfold Modes.asArray
    simp only [hn']
    exact bcastShape_append1 _ _ _
  rw [npCompare_modes u hu']
  constructor
  · intro lead hb
    rw [hs, hb]
    refine ⟨_, rfl, by simp only [hn], ?_⟩
    intro ell m hm hl idx _
    have hp : mpos ell m < f.dat.length := mpos_lt hm hl hf.size
    have e1 : bcIdx f.asArray.shape (idx ++ [mpos ell m]) = bcIdx f.lead idx ++ [mpos ell m] := bcIdx_append1 f.lead idx hp
    have e2 : bcIdx g.asArray.shape (idx ++ [mpos ell m]) = bcIdx g.lead idx ++ [mpos ell m] :=
      bcIdx_append1 g.lead idx (by rw [hn']; exact hp)
    change u.rel (f.asArray.val (bcIdx f.asArray.shape (idx ++ [mpos ell m]))) (g.asArray.val (bcIdx g.asArray.shape (idx ++ [mpos ell m]))) ↔ _
    rw [e1, e2, asArray_at, asArray_at]
    rfl
  · intro hb
    rw [hs, hb]; rfl

theorem validIdx_concat {lead : List ℕ} {n : ℕ} {idx : MIdx} (h : ValidIdx (lead ++ [n]) idx) :
    ∃ li j, idx = li ++ [j] ∧ ValidIdx lead li ∧ j < n := by
  unfold ValidIdx at h
  have hl := h.length_eq
  obtain ⟨li, j, rfl⟩ : ∃ li j, idx = li ++ [j] := by
    refine ⟨idx.dropLast, idx.getLast ?_, (List.dropLast_append_getLast _).symm⟩
    rintro rfl; simp at hl
  refine ⟨li, j, rfl, ?_⟩
  have hll : li.length = lead.length := by simpa using hl
  have h1 := List.forall₂_take lead.length h
  have h2 := List.forall₂_drop lead.length h
  rw [List.take_left, ← hll, List.take_left] at h1
  rw [List.drop_left, ← hll, List.drop_left] at h2
  exact ⟨h1, by cases h2; assumption⟩

/-- **C81.** `np.all(np.equal(f, g))` holds exactly if all mode weights agree — whatever the spin weights. -/
theorem C81_all_equal (f g : Modes) (hf : f.WF) (hg : g.WF) (hL : f.ell_max = g.ell_max) (hl : f.lead = g.lead) :
    ∃ r, npCompare .equal (.modes f) (.modes g) = .ok r ∧
      ((∀ idx, ValidIdx r.shape idx → r.val idx) ↔
        ∀ ell m, |m| ≤ ell → ell ≤ f.ell_max → ∀ idx, ValidIdx f.lead idx → f.coef ell m idx = g.coef ell m idx) := by
  obtain ⟨r, h1, h2, h3⟩ := (C81_modes .equal (by simp) f g hf hg hL).1 f.lead (by rw [← hl]; exact bcastShape_self _)
  refine ⟨r, h1, ?_⟩
  have h3' : ∀ ell m, |m| ≤ ell → ell ≤ f.ell_max → ∀ idx, ValidIdx f.lead idx →
      (r.val (idx ++ [mpos ell m]) ↔ f.coef ell m idx = g.coef ell m idx) := by
    intro ell m hm hell idx hidx
    have := h3 ell m hm hell idx hidx
    rw [← hl, bcIdx_self hidx] at this
    exact this
  have hn : (((((f.ell_max + 1) ^ 2).toNat : ℕ)) : ℤ) = (f.ell_max + 1) ^ 2 := Int.toNat_of_nonneg (sq_nonneg _)
  constructor
  · intro h ell m hm hell idx hidx
    rw [← h3' ell m hm hell idx hidx]
    apply h
    rw [h2]
    exact List.rel_append hidx (.cons (mpos_lt hm hell hn) .nil)
  · intro h idx hidx
    rw [h2] at hidx
    obtain ⟨li, j, rfl, hli, hj⟩ := validIdx_concat hidx
    obtain ⟨ell, m, _, hell, hm, rfl⟩ := mpos_surj hn hf.ell_max_ge hj
    exact (h3' ell m hm hell li hli).mpr (h ell m hm hell li hli)

/-- **C81.** So objects with the same mode weights and different spin weights — different functions, which cannot be subtracted from each
other — compare equal everywhere. -/
theorem C81_spin_ignored (f : Modes) (hf : f.WF) (s : ℤ) (hg : ({ f with s := s } : Modes).WF) (hs : s ≠ f.s) (h0 : 0 ≤ f.ell_max) :
    (∃ r, npCompare .equal (.modes f) (.modes { f with s := s }) = .ok r ∧ ∀ idx, ValidIdx r.shape idx → r.val idx) ∧
    f.addM { f with s := s } true = .error .valueError := by
  obtain ⟨r, h1, h2⟩ := C81_all_equal f { f with s := s } hf hg rfl rfl
  refine ⟨⟨r, h1, h2.mpr fun _ _ _ _ _ _ => rfl⟩, ?_⟩
  exact C30_reject f _ hf hg h0 h0 (.inl (Ne.symm hs)) true

/-- **C81.** Objects with different `ell_max ≥ 1` cannot be compared, also if the additional modes are zero; an object with `ell_max = 0`
is compared with every mode of the other one. -/
theorem C81_different_ell_max (u : CUfunc) (hu : u ∈ [CUfunc.equal, .not_equal, .logical_and, .logical_or]) (f g : Modes) (hf : f.WF)
    (hg : g.WF) :
    (1 ≤ f.ell_max → 1 ≤ g.ell_max → f.ell_max ≠ g.ell_max → npCompare u (.modes f) (.modes g) = .error .valueError) ∧
    (g.ell_max = 0 → ∀ lead, bcastShape f.lead g.lead = some lead → ∃ r, npCompare u (.modes f) (.modes g) = .ok r ∧
      r.shape = lead ++ [((f.ell_max + 1) ^ 2).toNat] ∧
      ∀ ell m, |m| ≤ ell → ell ≤ f.ell_max → ∀ idx, ValidIdx lead idx →
        (r.val (idx ++ [(LM_index ell m 0).toNat]) ↔ u.rel (f.coef ell m (bcIdx f.lead idx)) (g.coef 0 0 (bcIdx g.lead idx)))) := by
  have hu' : u ∈ CUfunc.both := by
    unfold CUfunc.both; simp only [List.mem_cons, List.not_mem_nil, or_false] at hu ⊢; tauto
  have h1 := hf.size
  have h2 := hg.size
  rw [npCompare_modes u hu']
  constructor
  · intro a b c
    have n1 : f.dat.length ≠ 1 := by
      intro h; rw [h] at h1; push_cast at h1; nlinarith
    have n2 : g.dat.length ≠ 1 := by
      intro h; rw [h] at h2; push_cast at h2; nlinarith
    have n3 : f.dat.length ≠ g.dat.length := by
      intro h
      rw [h, h2] at h1
      rcases lt_or_gt_of_ne c with c | c <;> nlinarith
    have hs : bcastShape f.asArray.shape g.asArray.shape = none := bcastShape_append1_ne _ _ n3 n1 n2
    rw [hs]
  · intro h0 lead hb
    rw [h0] at h2
    have hg1 : g.dat.length = 1 := by omega
    have hn : f.dat.length = ((f.ell_max + 1) ^ 2).toNat := by omega
    have hs : bcastShape f.asArray.shape g.asArray.shape = some (lead ++ [f.dat.length]) := by
      unfold Modes.asArray
      simp only [hg1]
      rw [bcastShape_append1_one, hb]; rfl
    rw [hs]
    refine ⟨_, rfl, by simp only [hn], ?_⟩
    intro ell m hm hl idx _
    have hp : mpos ell m < f.dat.length := mpos_lt hm hl hf.size
    have e1 : bcIdx f.asArray.shape (idx ++ [mpos ell m]) = bcIdx f.lead idx ++ [mpos ell m] := bcIdx_append1 f.lead idx hp
    have e2 : bcIdx g.asArray.shape (idx ++ [mpos ell m]) = bcIdx g.lead idx ++ [0] := by
      change bcIdx (g.lead ++ [g.dat.length]) _ = _
      rw [hg1]; exact bcIdx_append1_one g.lead idx _
    change u.rel (f.asArray.val (bcIdx f.asArray.shape (idx ++ [mpos ell m]))) (g.asArray.val (bcIdx g.asArray.shape (idx ++ [mpos ell m]))) ↔ _
    rw [e1, e2, asArray_at, asArray_at]
    rfl

/-- **C81.** Arrays of numbers are aligned with the mode axis in comparisons, although `*` and `/` align them with the leading axes: for
`k > 1` functions and an array `a` of `k` numbers, `f * a` scales function `i` by `a[i]`, while `np.equal(f, a)` raises ValueError if the
number of modes is not 1 or `k`, and compares mode number `j` of every function with `a[j]` if it is `k`. -/
theorem C81_array_modes (u : CUfunc) (hu : u ∈ [CUfunc.equal, .not_equal, .logical_and, .logical_or]) (f : Modes) (hf : f.WF)
    (h0 : 0 ≤ f.ell_max) (k : ℕ) (hlead : f.lead = [k]) (a : Scalars) (ha : a.shape = [k]) (hk : 1 < k) :
    (∃ g, f.multiplyScalar a = .ok g) ∧
    ((f.ell_max + 1) ^ 2 ≠ k → (f.ell_max + 1) ^ 2 ≠ 1 → npCompare u (.modes f) (.arr a) = .error .valueError) ∧
    ((f.ell_max + 1) ^ 2 = k → ∃ r, npCompare u (.modes f) (.arr a) = .ok r ∧ r.shape = [k, k] ∧
      ∀ i ell m, i < k → |m| ≤ ell → ell ≤ f.ell_max →
        (r.val [i, (LM_index ell m 0).toNat] ↔ u.rel (f.coef ell m [i]) (a.val [(LM_index ell m 0).toNat]))) := by
  have h1 := hf.size
  have hcmp : npCompare u (.modes f) (.arr a) = match bcastShape f.asArray.shape a.shape with
      | none => .error .valueError
      | some sh => .ok ⟨sh, fun idx => u.rel (f.asArray.val (bcIdx f.asArray.shape idx)) (a.val (bcIdx a.shape idx))⟩ := by
    have hu' : u ∈ [CUfunc.not_equal, .equal, .logical_and, .logical_or] := by
      simp only [List.mem_cons, List.not_mem_nil, or_false] at hu ⊢; tauto
    unfold npCompare CArg.compare modesCompare
    simp only [if_pos hu', CArg.plainModes, ndarrayUfunc]
    rcases bcastShape f.asArray.shape a.shape with _ | _ <;> rfl
  have hsh : f.asArray.shape = [k] ++ [f.dat.length] := by unfold Modes.asArray; simp only [hlead]
  refine ⟨?_, ?_, ?_⟩
  · obtain ⟨L, table, ht, hL⟩ : ∃ (L : ℤ) (table : List ℝ), IsWignerTable L table ∧ f.ell_max ≤ L :=
      ⟨f.ell_max, _, (IsWignerTable.exists f.ell_max h0).choose_spec, le_rfl⟩
    obtain ⟨g, _, _, _, _, hg, _⟩ := C31_scale ht (fun _ => (0, 0)) f hf h0 hL a [k] (by rw [ha, hlead]) (by rw [ha, hlead]; exact bcastShape_self _) [1]
      (by simp) (by simp)
    exact ⟨g, hg⟩
  · intro n1 n2
    have hs : bcastShape f.asArray.shape a.shape = none := by
      rw [hsh, ha]
      exact bcastShape_append1_ne [k] [] (by intro h; apply n1; rw [← h1, h]) (by intro h; apply n2; rw [← h1, h]; rfl) (by omega)
    rw [hcmp, hs]
  · intro hN
    have hd : f.dat.length = k := by omega
    have hs : bcastShape f.asArray.shape a.shape = some [k, k] := by
      rw [hsh, ha, hd]
      exact bcastShape_append1 [k] [] k
    rw [hcmp, hs]
    refine ⟨_, rfl, rfl, ?_⟩
    intro i ell m hi hm hl
    have hp : mpos ell m < f.dat.length := mpos_lt hm hl hf.size
    have e1 : bcIdx f.asArray.shape ([i] ++ [mpos ell m]) = bcIdx [k] [i] ++ [mpos ell m] := by
      rw [hsh]; exact bcIdx_append1 [k] [i] hp
    have e2 : bcIdx [k] [i] = [i] := bcIdx_self (.cons hi .nil)
    have e3 : bcIdx a.shape ([i] ++ [mpos ell m]) = [mpos ell m] := by
      rw [ha]
      have := bcIdx_append1 [] (x := k) [i] (j := mpos ell m) (by omega)
      simpa [bcIdx] using this
    change u.rel (f.asArray.val (bcIdx f.asArray.shape ([i] ++ [mpos ell m]))) (a.val (bcIdx a.shape ([i] ++ [mpos ell m]))) ↔ _
    rw [e1, e2, e3, asArray_at]
    rfl

theorem npCompare_grid_grid (u : CUfunc) (f g : Grid) :
    npCompare u (.grid f) (.grid g) = match bcastShape f.shape g.shape with
      | none => .error .valueError
      | some sh => .ok ⟨sh, fun idx => u.rel (f.val (bcIdx f.shape idx)) (g.val (bcIdx g.shape idx))⟩ := by
  have hu : u ∈ [CUfunc.greater, .greater_equal, .less, .less_equal, .not_equal, .equal, .logical_and, .logical_or] := by
    cases u <;> simp
  unfold npCompare CArg.compare gridCompare
  simp only [if_pos hu, CArg.plainGrid, ndarrayUfunc, Grid.view]
  rcases bcastShape f.shape g.shape with _ | _ <;> rfl

/-- **C81.** Two Grids with the same number of points are compared point by point, whatever their spin weights; the order of complex numbers is by
real part, then by imaginary part. -/
theorem C81_grids (u : CUfunc) (f g : Grid) (h1 : f.n_theta = g.n_theta) (h2 : f.n_phi = g.n_phi) :
    (∀ lead, bcastShape f.lead g.lead = some lead → ∃ r, npCompare u (.grid f) (.grid g) = .ok r ∧
      r.shape = lead ++ [f.n_theta, f.n_phi] ∧
      ∀ li j k, ValidIdx lead li → j < f.n_theta → k < f.n_phi →
        (r.val (li ++ [j, k]) ↔ u.rel (f.at (bcIdx f.lead li) j k) (g.at (bcIdx g.lead li) j k))) ∧
    (bcastShape f.lead g.lead = none → npCompare u (.grid f) (.grid g) = .error .valueError) := by
  have hs : bcastShape f.shape g.shape = (bcastShape f.lead g.lead).map (· ++ [f.n_theta, f.n_phi]) := by
    unfold Grid.shape; rw [← h1, ← h2]; exact bcastShape_append2 _ _ _ _
  rw [npCompare_grid_grid]
  constructor
  · intro lead hb
    rw [hs, hb]
    refine ⟨_, rfl, rfl, ?_⟩
    intro li j k _ hj hk
    have e1 : bcIdx f.shape (li ++ [j, k]) = bcIdx f.lead li ++ [j, k] := bcIdx_append2 _ _ _ _ _ _ hj hk
    have e2 : bcIdx g.shape (li ++ [j, k]) = bcIdx g.lead li ++ [j, k] := bcIdx_append2 _ _ _ _ _ _ (h1 ▸ hj) (h2 ▸ hk)
    simp only [e1, e2]
    rfl
  · intro hb
    rw [hs, hb]; rfl

/-- **C81.** The order used is a total order: exactly one of `<`, `=`, `>` holds at each point, and `<=`, `>=` and `!=` are consistent with them. -/
theorem C81_order (x y : ℂ) :
    (CUfunc.less.rel x y ∨ CUfunc.equal.rel x y ∨ CUfunc.greater.rel x y) ∧
    ¬ (CUfunc.less.rel x y ∧ CUfunc.equal.rel x y) ∧ ¬ (CUfunc.less.rel x y ∧ CUfunc.greater.rel x y) ∧
    ¬ (CUfunc.equal.rel x y ∧ CUfunc.greater.rel x y) ∧
    (CUfunc.less_equal.rel x y ↔ CUfunc.less.rel x y ∨ CUfunc.equal.rel x y) ∧
    (CUfunc.greater_equal.rel x y ↔ CUfunc.greater.rel x y ∨ CUfunc.equal.rel x y) ∧
    (CUfunc.not_equal.rel x y ↔ ¬ CUfunc.equal.rel x y) ∧
    (∀ z, CUfunc.less.rel x y → CUfunc.less.rel y z → CUfunc.less.rel x z) := by
  simp only [CUfunc.rel, npLt, npLe, Complex.ext_iff]
  refine ⟨?_, ?_, ?_, ?_, ?_, ?_, by rw [ne_eq, Complex.ext_iff], ?_⟩
  · rcases lt_trichotomy x.re y.re with h | h | h
    · exact .inl (.inl h)
    · rcases lt_trichotomy x.im y.im with h' | h' | h'
      · exact .inl (.inr ⟨h, h'⟩)
      · exact .inr (.inl ⟨h, h'⟩)
      · exact .inr (.inr (.inr ⟨h.symm, h'⟩))
    · exact .inr (.inr (.inl h))
  · rintro ⟨h | ⟨_, h⟩, h1, h2⟩ <;> linarith
  · rintro ⟨h | ⟨h, h'⟩, g | ⟨g, g'⟩⟩ <;> linarith
  · rintro ⟨⟨h1, h2⟩, h | ⟨_, h⟩⟩ <;> linarith
  · rw [le_iff_lt_or_eq]; tauto
  · rw [le_iff_lt_or_eq]
    constructor
    · rintro (h | ⟨h, h' | h'⟩)
      · exact .inl (.inl h)
      · exact .inl (.inr ⟨h, h'⟩)
      · exact .inr ⟨h.symm, h'.symm⟩
    · rintro ((h | ⟨h, h'⟩) | ⟨h, h'⟩)
      · exact .inl h
      · exact .inr ⟨h, .inl h'⟩
      · exact .inr ⟨h.symm, .inr h'.symm⟩
  · rintro z (h | ⟨h, h'⟩) (g | ⟨g, g'⟩)
    · exact .inl (h.trans g)
    · exact .inl (g ▸ h)
    · exact .inl (h ▸ g)
    · exact .inr ⟨h.trans g, h'.trans g'⟩

/-- **C81.** Arrays of numbers are aligned with the `phi` axis in comparisons, although arithmetic aligns them with the leading axes: for
`k > 1` functions and an array of `k` numbers, comparing raises ValueError if `n_phi` is not 1 or `k`, and compares the points `(j, l)` of every
function with `a[l]` if it is `k`, while `*` scales function `i` by `a[i]`. -/
theorem C81_array_grid (u : CUfunc) (g : Grid) (hg : g.WF) (k : ℕ) (hk : 1 < k) (hlead : g.lead = [k]) (a : Scalars) (ha : a.shape = [k]) :
    (∃ r, callUfunc .multiply [.grid g, .arr a] none = .ok (r, none)) ∧
    (g.n_phi ≠ k → g.n_phi ≠ 1 → npCompare u (.grid g) (.arr a) = .error .valueError) ∧
    (g.n_phi = k → ∃ r, npCompare u (.grid g) (.arr a) = .ok r ∧ r.shape = [k, g.n_theta, k] ∧
      ∀ i j l, i < k → j < g.n_theta → l < k → (r.val [i, j, l] ↔ u.rel (g.at [i] j l) (a.val [l]))) := by
  have hcmp : npCompare u (.grid g) (.arr a) = match bcastShape g.shape a.shape with
      | none => .error .valueError
      | some sh => .ok ⟨sh, fun idx => u.rel (g.val (bcIdx g.shape idx)) (a.val (bcIdx a.shape idx))⟩ := by
    have hu : u ∈ [CUfunc.greater, .greater_equal, .less, .less_equal, .not_equal, .equal, .logical_and, .logical_or] := by
      cases u <;> simp
    unfold npCompare CArg.compare gridCompare
    simp only [if_pos hu, CArg.plainGrid, ndarrayUfunc, Grid.view]
    rcases bcastShape g.shape a.shape with _ | _ <;> rfl
  have hsh : g.shape = [k, g.n_theta] ++ [g.n_phi] := by unfold Grid.shape; rw [hlead]; rfl
  refine ⟨?_, ?_, ?_⟩
  · have hb : bcastShape g.lead a.shape = some [k] := by rw [hlead, ha, bcastShape_self]
    obtain ⟨⟨r, h1, -⟩, -⟩ := C44_scalar_products g hg (.arr a) trivial (by simp [GArg.scalars, hlead, ha])
      (by simp only [GArg.scalars]; rw [hb]; rfl)
    exact ⟨r, h1⟩
  · intro n1 n2
    have hs : bcastShape g.shape a.shape = none := by
      rw [hsh, ha]; exact bcastShape_append1_ne [k, g.n_theta] [] n1 n2 (by omega)
    rw [hcmp, hs]
  · intro hp
    have hs : bcastShape g.shape a.shape = some [k, g.n_theta, k] := by
      rw [hsh, ha, hp]; exact bcastShape_append1 [k, g.n_theta] [] k
    rw [hcmp, hs]
    refine ⟨_, rfl, rfl, ?_⟩
    intro i j l hi hj hl
    have e1 : bcIdx g.shape [i, j, l] = [i, j, l] := bcIdx_self (by rw [hsh, hp]; exact .cons hi (.cons hj (.cons hl .nil)))
    have e3 : bcIdx a.shape [i, j, l] = [l] := by
      rw [ha]; unfold bcIdx; simp; omega
    simp only [e1, e3]
    rfl

/-- **C81.** A Modes object cannot be compared with a Grid, and Modes objects are not ordered: TypeError. -/
theorem C81_type_errors (u : CUfunc) (f : Modes) (g : Grid) :
    npCompare u (.modes f) (.grid g) = .error .typeError ∧ npCompare u (.grid g) (.modes f) = .error .typeError ∧
    (u ∈ [CUfunc.less, .less_equal, .greater, .greater_equal] → ∀ b, npCompare u (.modes f) b = .error .typeError ∧
      npCompare u b (.modes f) = .error .typeError) := by
  refine ⟨?_, ?_, ?_⟩
  · cases u <;> rfl
  · cases u <;> rfl
  · intro hu b
    simp only [List.mem_cons, List.not_mem_nil, or_false] at hu
    rcases hu with rfl | rfl | rfl | rfl <;> cases b <;> exact ⟨rfl, rfl⟩

/-- Non-vacuity (`C81_modes`, `C81_spin_ignored`): the same three mode weights with spin weights -1 and 1. -/
example : (∃ r, npCompare .equal (.modes exModes1) (.modes { exModes1 with s := 1 }) = .ok r ∧ r.shape = [4] ∧ r.val [2]) ∧
    exModes1.addM { exModes1 with s := 1 } true = .error .valueError := by
  have h1 := exModes1_WF
  have h2 : ({ exModes1 with s := 1 } : Modes).WF := ⟨h1.ell_max_ge, h1.size, fun ell m h => h1.low ell m (by simpa [exModes1] using h)⟩
  obtain ⟨⟨r, a, b⟩, c⟩ := C81_spin_ignored exModes1 h1 1 h2 (by decide) (by decide)
  obtain ⟨r', a', b', -⟩ := (C81_modes .equal (by simp) exModes1 { exModes1 with s := 1 } h1 h2 rfl).1 [] rfl
  rw [a] at a'
  obtain rfl : r = r' := by simpa using a'
  have hs : r.shape = [4] := by rw [b']; simp [exModes1]
  exact ⟨⟨r, a, hs, b _ (by rw [hs]; exact .cons (by decide) .nil)⟩, c⟩

/-- Non-vacuity (`C81_different_ell_max`). -/
example : npCompare .equal (.modes exModes) (.modes exModes1) = .error .valueError :=
  (C81_different_ell_max .equal (by simp) exModes exModes1 exModes_WF exModes1_WF).1 (by decide) (by decide) (by decide)

/-- Non-vacuity (`C81_array_modes`): four functions with four modes each, every mode of function `i` being `i`, compared with
the array `a[i] = i`: the result is true on the diagonal only. -/
example : ∃ r, npCompare .equal (.modes ⟨[4], 0, 1, .absent, List.replicate 4 fun idx => (idx.headD 0 : ℂ)⟩)
    (.arr ⟨[4], fun idx => (idx.headD 0 : ℂ)⟩) = .ok r ∧ r.val [2, 2] ∧ ¬ r.val [1, 3] := by
  obtain ⟨-, -, h⟩ := C81_array_modes .equal (by simp) ⟨[4], 0, 1, .absent, List.replicate 4 fun idx => (idx.headD 0 : ℂ)⟩
    ⟨by simp, by simp, fun ell m h1 h2 => absurd (abs_nonneg m) (by simp at h1; omega)⟩ (by simp) 4 rfl ⟨[4], fun idx => (idx.headD 0 : ℂ)⟩ rfl (by omega)
  obtain ⟨r, h1, -, h2⟩ := h (by norm_num)
  refine ⟨r, h1, ?_, ?_⟩
  · have := h2 2 1 0 (by omega) (by decide) (by decide)
    exact this.mpr rfl
  · intro hh
    have : ((1 : ℕ) : ℂ) = ((3 : ℕ) : ℂ) := (h2 1 1 1 (by omega) (by decide) (by decide)).mp hh
    exact absurd (Nat.cast_injective this) (by decide)

/-- Non-vacuity (`C81_grids`): the order of complex numbers on a grid. -/
example : ∃ r, npCompare .less (.grid ⟨[], 3, 3, 0, fun idx => (idx.headD 0 : ℂ)⟩) (.grid ⟨[], 3, 3, 1, fun _ => 1 + Complex.I⟩) = .ok r ∧
    r.shape = [3, 3] ∧ r.val [1, 2] ∧ ¬ r.val [2, 0] := by
  obtain ⟨r, h1, h2, h3⟩ := (C81_grids .less ⟨[], 3, 3, 0, fun idx => (idx.headD 0 : ℂ)⟩ ⟨[], 3, 3, 1, fun _ => 1 + Complex.I⟩ rfl rfl).1 [] rfl
  refine ⟨r, h1, h2, ?_, ?_⟩
  · exact (h3 [] 1 2 .nil (by decide) (by decide)).mpr (by simp [CUfunc.rel, npLt, Grid.at, bcIdx])
  · intro hh
    have := (h3 [] 2 0 .nil (by decide) (by decide)).mp hh
    norm_num [CUfunc.rel, npLt, Grid.at, bcIdx] at this

end SF
