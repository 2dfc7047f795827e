import Verif.Lemmas.Index

/-!
# Properties C01–C05: index layouts
-/

set_option autoImplicit false

namespace SF

open Spec

/-- **C01.** `LM_range` succeeds, lists exactly the modes in lexicographic order, has
`LM_total_size` rows, and row `LM_index(ell,m,ell_min)` is `(ell,m)` — whatever `np.empty`
contained. -/
theorem C01_LM_layout (junk : ℕ → ℤ × ℤ) (ell_min ell_max : ℤ) (h0 : 0 ≤ ell_min)
    (h1 : ell_min ≤ ell_max + 1) :
    ∃ rows, LM_range junk ell_min ell_max = .ok rows ∧
      ListsModes ell_min ell_max rows ∧
      (rows.length : ℤ) = LM_total_size ell_min ell_max ∧
      ∀ ell m, IsMode ell_min ell_max (ell, m) →
        0 ≤ LM_index ell m ell_min ∧
        rows[(LM_index ell m ell_min).toNat]? = some (ell, m) :=
  ⟨_, LM_range_eq junk h0 h1, LMlist_spec _ h0, LMlist_length h0 h1,
    fun _ _ hm => LMlist_index h0 hm.1 hm.2.1 hm.2.2.1 hm.2.2.2⟩

/-- A position of a list of the modes determines the mode (used for the bijection). -/
theorem bijOn_of_layout {α : Type} {rows : List α} {P : α → Prop} (hmem : ∀ p, p ∈ rows ↔ P p)
    (idx : α → ℤ) (n : ℤ) (hn : (rows.length : ℤ) = n) (hnd : rows.Nodup)
    (hidx : ∀ p, P p → 0 ≤ idx p ∧ rows[(idx p).toNat]? = some p) :
    Set.BijOn idx {p | P p} (Set.Ico 0 n) := by
  refine ⟨?_, ?_, ?_⟩
  · intro p hp
    obtain ⟨h1, h2⟩ := hidx p hp
    refine ⟨h1, ?_⟩
    by_contra hc
    rw [List.getElem?_eq_none (by omega)] at h2
    cases h2
  · intro p hp q hq hpq
    have h1 := (hidx p hp).2
    have h2 := (hidx q hq).2
    rw [hpq, h2] at h1
    exact (Option.some.inj h1).symm
  · rintro k ⟨hk0, hk1⟩
    have hlt : k.toNat < rows.length := by omega
    have hp : P rows[k.toNat] := (hmem _).mp (List.getElem_mem hlt)
    refine ⟨rows[k.toNat], hp, ?_⟩
    obtain ⟨h1, h2⟩ := hidx _ hp
    have hlt2 : (idx rows[k.toNat]).toNat < rows.length := by
      by_contra hc
      rw [List.getElem?_eq_none (by omega)] at h2
      cases h2
    rw [List.getElem?_eq_getElem hlt2] at h2
    have := (List.Nodup.getElem_inj_iff hnd).mp (Option.some.inj h2)
    omega

/-- **C01.** `LM_index` is a bijection from the valid modes onto `0 .. LM_total_size - 1`. -/
theorem C01_LM_index_bijOn (ell_min ell_max : ℤ) (h0 : 0 ≤ ell_min) (h1 : ell_min ≤ ell_max + 1) :
    Set.BijOn (fun p : ℤ × ℤ => LM_index p.1 p.2 ell_min) {p | IsMode ell_min ell_max p}
      (Set.Ico 0 (LM_total_size ell_min ell_max)) := by
  refine bijOn_of_layout (LMlist_spec ell_max h0).2 _ _ (LMlist_length h0 h1) ?_ ?_
  · refine (LMlist_spec ell_max h0).1.imp ?_
    rintro p q (h | h) rfl
    · exact lt_irrefl _ h
    · exact lt_irrefl _ h.2
  · rintro ⟨l, m⟩ hp
    exact LMlist_index h0 hp.1 hp.2.1 hp.2.2.1 hp.2.2.2

/-- Non-vacuity: `ell_min = 2`, `ell_max = 8`, mode `(3,-2)`; it is row 6. -/
example : (0 : ℤ) ≤ 2 ∧ (2 : ℤ) ≤ 8 + 1 ∧ IsMode 2 8 (3, -2) ∧ LM_index 3 (-2) 2 = 6 ∧
    LM_total_size 2 8 = 77 := by
  refine ⟨by norm_num, by norm_num, ⟨by norm_num, by norm_num, by norm_num, by norm_num⟩, ?_, ?_⟩ <;>
    decide

/-- **C01 (limit).** The hypothesis `0 ≤ ell_min` is needed: `LM_range(-1, 2)` allocates 8 rows and then
writes a ninth one, outside the array. -/
theorem C01_negative_ell_min_out_of_bounds :
    LM_range (fun _ => (0, 0)) (-1) 2 = .error .outOfBounds := by
  decide

/-- **C02.** `LM_deduce_ell_max` returns `L` for the size of a complete set of modes `ell_min..L`
(including the empty set, `L = ell_min - 1`), and raises `ValueError` for every other size. -/
theorem C02_deduce_ell_max (size ell_min : ℤ) :
    (∀ L, -1 ≤ L → size = LM_total_size ell_min L → LM_deduce_ell_max size ell_min = .ok L) ∧
    ((¬ ∃ L, -1 ≤ L ∧ size = LM_total_size ell_min L) →
      LM_deduce_ell_max size ell_min = .error .valueError) := by
  refine ⟨fun L h1 h2 => LM_deduce_ok h1 h2, fun h => ?_⟩
  rcases LM_deduce_cases size ell_min with ⟨L, h1, h2, _⟩ | ⟨_, h2⟩
  · exact absurd ⟨L, h1, h2⟩ h
  · exact h2

/-- **C02.** In terms of the listing itself: for `0 ≤ ell_min`, the deduced `ell_max` of the array returned by
`LM_range(ell_min, ell_max)` is `ell_max`. -/
theorem C02_deduce_round_trip (junk : ℕ → ℤ × ℤ) (ell_min ell_max : ℤ) (h0 : 0 ≤ ell_min)
    (h1 : ell_min ≤ ell_max + 1) (rows : List (ℤ × ℤ))
    (h : LM_range junk ell_min ell_max = .ok rows) :
    LM_deduce_ell_max rows.length ell_min = .ok ell_max := by
  rw [LM_range_eq junk h0 h1] at h
  obtain rfl := Except.ok.inj h
  exact LM_deduce_ok (by omega) (LMlist_length h0 h1)

/-- Non-vacuity: 77 entries from `ell_min = 2` give `ell_max = 8`; 76 entries are rejected. -/
example : LM_deduce_ell_max 77 2 = .ok 8 ∧ LM_deduce_ell_max 76 2 = .error .valueError := by
  refine ⟨(C02_deduce_ell_max 77 2).1 8 (by norm_num) (by decide),
    (C02_deduce_ell_max 76 2).2 ?_⟩
  rintro ⟨L, h1, h2⟩
  unfold LM_total_size at h2
  have h3 : (L + 1) ^ 2 = 80 := by linarith
  have : L ≤ 7 ∨ 8 ≤ L := by omega
  rcases this with h | h <;> nlinarith

/-- **C03.** `LMpM_range` lists exactly the triples in lexicographic order, has `LMpM_total_size`
rows, and row `LMpM_index` is the triple. -/
theorem C03_LMpM_layout (junk : ℕ → ℤ × ℤ × ℤ) (ell_min ell_max : ℤ) (h0 : 0 ≤ ell_min)
    (h1 : ell_min ≤ ell_max + 1) :
    ∃ rows, LMpM_range junk ell_min ell_max = .ok rows ∧
      ListsTriples ell_min ell_max rows ∧
      (rows.length : ℤ) = LMpM_total_size ell_min ell_max ∧
      ∀ ell mp m, IsTriple ell_min ell_max (ell, mp, m) →
        0 ≤ LMpM_index ell mp m ell_min ∧
        rows[(LMpM_index ell mp m ell_min).toNat]? = some (ell, mp, m) := by
  refine ⟨_, LMpM_range_eq junk h0 h1, LMpMlist_spec _ h0, LMpMlist_length h0 h1, ?_⟩
  rintro ell mp m ⟨h2, h3, h4, h5⟩
  rw [abs_le] at h4 h5
  exact LMpMlist_index h0 h2 h3 h4.1 h4.2 h5.1 h5.2

/-- **C03.** `LMpM_index` is a bijection onto `0 .. LMpM_total_size - 1`. -/
theorem C03_LMpM_index_bijOn (ell_min ell_max : ℤ) (h0 : 0 ≤ ell_min)
    (h1 : ell_min ≤ ell_max + 1) :
    Set.BijOn (fun p : ℤ × ℤ × ℤ => LMpM_index p.1 p.2.1 p.2.2 ell_min)
      {p | IsTriple ell_min ell_max p} (Set.Ico 0 (LMpM_total_size ell_min ell_max)) := by
  refine bijOn_of_layout (LMpMlist_spec ell_max h0).2 _ _ (LMpMlist_length h0 h1) ?_ ?_
  · refine (LMpMlist_spec ell_max h0).1.imp ?_
    rintro p q (h | h) rfl
    · exact lt_irrefl _ h
    · rcases h.2 with h | h
      · exact lt_irrefl _ h
      · exact lt_irrefl _ h.2
  · rintro ⟨l, mp, m⟩ ⟨h2, h3, h4, h5⟩
    rw [abs_le] at h4 h5
    exact LMpMlist_index h0 h2 h3 h4.1 h4.2 h5.1 h5.2

/-- **C03.** The truncating divisions by 3 in `LMpM_total_size` and `LMpM_index` are exact. -/
theorem C03_divisions_exact (ell mp m ell_min : ℤ) :
    3 * LMpM_index ell mp m ell_min
      = ((4 * ell + 6) * ell + 6 * mp + 5) * ell + ell_min * (1 - 4 * ell_min ^ 2) + 3 * (m + mp) ∧
    3 * LMpM_total_size ell_min ell
      = ((4 * ell + 12) * ell + 11) * ell + (-4 * ell_min ^ 2 + 1) * ell_min + 3 := by
  have cube : ∀ x : ℤ, (4 * x ^ 3 - x) % 3 = 0 := by
    intro x
    have e : 4 * x ^ 3 - x = 3 * x ^ 3 + (x ^ 3 - x) := by ring
    have : x % 3 = 0 ∨ x % 3 = 1 ∨ x % 3 = 2 := by omega
    have hx : x = 3 * (x / 3) + x % 3 := by omega
    generalize x / 3 = q at hx
    rcases this with h | h | h <;> rw [h] at hx <;> subst hx <;> ring_nf <;> omega
  have c1 := cube ell
  have c2 := cube ell_min
  constructor
  · unfold LMpM_index
    have e : ((4 * ell + 6) * ell + 6 * mp + 5) * ell + ell_min * (1 - 4 * ell_min ^ 2)
      + 3 * (m + mp) = (4 * ell ^ 3 - ell) - (4 * ell_min ^ 3 - ell_min)
      + 3 * (2 * ell ^ 2 + 2 * mp * ell + 2 * ell + m + mp) := by ring
    rw [e]; omega
  · unfold LMpM_total_size
    have e : ((4 * ell + 12) * ell + 11) * ell + (-4 * ell_min ^ 2 + 1) * ell_min + 3
      = (4 * ell ^ 3 - ell) - (4 * ell_min ^ 3 - ell_min) + 3 * (4 * ell ^ 2 + 4 * ell + 1) := by ring
    rw [e]; omega

/-- Non-vacuity: triple `(3,-2,1)` for `ell_min = 2`, `ell_max = 8`. -/
example : IsTriple 2 8 (3, -2, 1) ∧ LMpM_index 3 (-2) 1 2 = 36 ∧ LMpM_total_size 2 8 = 959 := by
  refine ⟨⟨by norm_num, by norm_num, by simp, by simp⟩, ?_, ?_⟩ <;> decide

/-- **C04.** `LMpM_range_half_integer(a/2, b/2)` returns the halves of exactly the doubled triples of
equal parity in lexicographic order. -/
theorem C04_half_integer_layout (junk : ℕ → ℚ × ℚ × ℚ) (a b : ℤ) (h0 : 0 ≤ a) (h1 : a ≤ b + 1) :
    ∃ rows : List (ℤ × ℤ × ℤ),
      LMpM_range_half_integer junk ((a : ℚ) / 2) ((b : ℚ) / 2)
        = .ok (rows.map fun p => ((p.1 : ℚ) / 2, (p.2.1 : ℚ) / 2, (p.2.2 : ℚ) / 2)) ∧
      ListsTwoTriples a b rows :=
  ⟨_, LMpM_range_half_integer_eq junk h0 h1, TwoList_spec _ h0⟩

/-- **C04.** `_Wigner_index(2ell,2m',2m)` is the row of that triple in the listing from 0 to any
`ell_max ≥ ell`. -/
theorem C04_Wigner_index_row (junk : ℕ → ℚ × ℚ × ℚ) (b n mp m : ℤ)
    (h : IsTwoTriple 0 b (n, mp, m)) :
    ∃ rows, LMpM_range_half_integer junk 0 ((b : ℚ) / 2) = .ok rows ∧
      0 ≤ Wigner_index n mp m ∧
      rows[(Wigner_index n mp m).toNat]? = some ((n : ℚ) / 2, (mp : ℚ) / 2, (m : ℚ) / 2) := by
  obtain ⟨h0, hb, h1, h2, p1, p2⟩ := h
  simp only at h0 hb h1 h2 p1 p2
  rw [abs_le] at h1 h2
  obtain ⟨g1, g2⟩ := TwoList_index h0 hb h1.1 h1.2 h2.1 h2.2 p1 p2
  refine ⟨(TwoList 0 b).map halve, ?_, g1, ?_⟩
  · have := LMpM_range_half_integer_eq junk (a := 0) (b := b) le_rfl (by omega)
    simpa using this
  · rw [List.getElem?_map, g2]; rfl

/-- **C04.** `_Wigner_index` is a bijection from the doubled triples with `2ell ≤ b` onto an initial segment. -/
theorem C04_Wigner_index_bijOn (b : ℤ) (hb : 0 ≤ b) :
    Set.BijOn (fun p : ℤ × ℤ × ℤ => Wigner_index p.1 p.2.1 p.2.2) {p | IsTwoTriple 0 b p}
      (Set.Ico 0 (Wigner_index (b + 1) (-(b + 1)) (-(b + 1)))) := by
  have hl := TwoList_length6 (a := 0) (b := b) le_rfl (by omega)
  refine bijOn_of_layout (TwoList_spec b le_rfl).2 _ _ ?_ ?_ ?_
  · unfold Wigner_index
    have e : (b + 1) * ((2 * (b + 1) + 3) * (b + 1) + 1) = 6 * ((TwoList 0 b).length : ℤ) := by
      rw [hl]; ring
    rw [e]; simp
  · refine (TwoList_spec b le_rfl).1.imp ?_
    rintro p q (h | h) rfl
    · exact lt_irrefl _ h
    · rcases h.2 with h | h
      · exact lt_irrefl _ h
      · exact lt_irrefl _ h.2
  · rintro ⟨l, mp, m⟩ ⟨h0, hb, h1, h2, p1, p2⟩
    rw [abs_le] at h1 h2
    exact TwoList_index h0 hb h1.1 h1.2 h2.1 h2.2 p1 p2

/-- Non-vacuity: `(3/2, -1/2, 3/2)`. -/
example : IsTwoTriple 0 64 (3, -1, 3) ∧ Wigner_index 3 (-1) 3 = 21 := by
  refine ⟨⟨by norm_num, by norm_num, by simp, by simp, by decide, by decide⟩, by decide⟩

/-- **C05.** The block-offset functions agree with `LMpM_index` / `LMpM_total_size`, identically. -/
theorem C05_offsets_agree (ell mp m ell_min ell_max : ℤ) :
    linear_matrix_offset ell ell_min + linear_matrix_index ell mp m = LMpM_index ell mp m ell_min ∧
    linear_matrix_diagonal_index ell mp = linear_matrix_index ell mp mp ∧
    total_size_D_matrices ell_min ell_max = LMpM_total_size ell_min ell_max ∧
    linear_matrix_offset (ell_max + 1) ell_min = LMpM_total_size ell_min ell_max := by
  refine ⟨(LMpM_index_eq ell mp m ell_min).symm, ?_, ?_, ?_⟩
  · unfold linear_matrix_diagonal_index linear_matrix_index; ring
  · unfold total_size_D_matrices LMpM_total_size; congr 1; ring
  · unfold linear_matrix_offset LMpM_total_size; congr 1; ring

/-- **C05.** `_linear_matrix_index` runs through `0 .. (2ell+1)^2-1` (the block size), i.e. the offset of the
next block is the offset of this block plus its size. -/
theorem C05_block_size (ell ell_min : ℤ) :
    linear_matrix_offset (ell + 1) ell_min
      = linear_matrix_offset ell ell_min + (2 * ell + 1) ^ 2 ∧
    linear_matrix_offset ell_min ell_min = 0 ∧
    linear_matrix_index ell (-ell) (-ell) = 0 ∧
    linear_matrix_index ell ell ell = (2 * ell + 1) ^ 2 - 1 := by
  refine ⟨?_, ?_, ?_, ?_⟩
  · unfold linear_matrix_offset
    have e : (4 * (ell + 1) ^ 2 - 1) * (ell + 1) - (4 * ell_min ^ 2 - 1) * ell_min
      = ((4 * ell ^ 2 - 1) * ell - (4 * ell_min ^ 2 - 1) * ell_min)
        + 3 * (2 * ell + 1) ^ 2 := by ring
    rw [e]; omega
  · simp [linear_matrix_offset]
  · unfold linear_matrix_index; ring
  · unfold linear_matrix_index; ring

/-- Non-vacuity / sample values. -/
example : linear_matrix_offset 3 2 = 25 ∧ linear_matrix_index 3 (-2) 1 = 11 := by
  constructor <;> decide

end SF
