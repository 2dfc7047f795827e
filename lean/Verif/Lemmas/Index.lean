import Verif.Model.Index
import Verif.Spec.Index
import Mathlib.Tactic.LinearCombination
import Mathlib.Tactic.Positivity
import Mathlib.Data.Set.Function
import Mathlib.Algebra.Order.Group.Abs
import Mathlib.Algebra.Order.Floor.Ring

/-! # Helper lemmas for the index layouts -/

set_option autoImplicit false

namespace SF

theorem bind_ok {α β : Type} (x : α) (f : α → Py β) : ((Except.ok x : Py α) >>= f) = f x := rfl

theorem pairwise_pyRange (a b : ℤ) : (pyRange a b).Pairwise (· < ·) := by
  unfold pyRange
  rw [List.pairwise_map]
  refine List.Pairwise.imp ?_ List.pairwise_lt_range
  intro i j h; omega

theorem pairwise_pyRange2 (a b : ℤ) : (pyRange2 a b).Pairwise (· < ·) := by
  unfold pyRange2
  rw [List.pairwise_map]
  refine List.Pairwise.imp ?_ List.pairwise_lt_range
  intro i j h; omega

/-- Position of an element of block `l` in a flattened list of blocks. -/
theorem flatMap_pyRange_getElem? {β : Type} (f : ℤ → List β) {a b l : ℤ} (h1 : a ≤ l) (h2 : l < b)
    {k : ℕ} (hk : k < (f l).length) :
    ((pyRange a b).flatMap f)[((pyRange a l).flatMap f).length + k]? = (f l)[k]? := by
  rw [pyRange_append h1 h2.le, pyRange_cons h2, List.flatMap_append, List.flatMap_cons]
  rw [List.getElem?_append_right (by omega), Nat.add_sub_cancel_left,
    List.getElem?_append_left hk]

theorem flatMap_pyRange2_getElem? {β : Type} (f : ℤ → List β) (c : ℕ) {a b : ℤ}
    (hf : ∀ x, (f x).length = c) {j k : ℕ} (hj : a + 2 * j < b) (hk : k < c) :
    ((pyRange2 a b).flatMap f)[j * c + k]? = (f (a + 2 * j))[k]? := by
  unfold pyRange2
  generalize hn : ((b - a + 1) / 2).toNat = n
  have hjn : j < n := by omega
  clear hn hj
  rw [List.flatMap_map]
  have key : ∀ n : ℕ, ((List.range n).flatMap fun i : ℕ => f (a + 2 * i)).length = n * c := by
    intro n
    induction n with
    | zero => simp
    | succ n ih => rw [List.range_succ, List.flatMap_append, List.length_append, ih]; simp [hf]; ring
  obtain ⟨r, rfl⟩ : ∃ r, n = (j + 1) + r := ⟨n - (j + 1), by omega⟩
  rw [List.range_add, List.flatMap_append, List.range_succ, List.flatMap_append]
  rw [List.getElem?_append_left (by
    rw [List.length_append, key]; simp [hf]; omega)]
  rw [List.getElem?_append_right (by rw [key]; omega), key, Nat.add_sub_cancel_left]
  simp

/-- The docstring's list comprehension for `(ell, m)`. -/
def LMlist (a b : ℤ) : List (ℤ × ℤ) :=
  (pyRange a (b + 1)).flatMap fun ell => (pyRange (-ell) (ell + 1)).map fun m => (ell, m)

theorem LMlist_spec {a : ℤ} (b : ℤ) (_ha : 0 ≤ a) : Spec.ListsModes a b (LMlist a b) := by
  constructor
  · unfold LMlist
    rw [List.pairwise_flatMap]
    constructor
    · intro ell _
      rw [List.pairwise_map]
      exact (pairwise_pyRange _ _).imp (fun h => Or.inr ⟨rfl, h⟩)
    · refine (pairwise_pyRange _ _).imp ?_
      intro x y hxy p hp q hq
      simp only [List.mem_map] at hp hq
      obtain ⟨m, _, rfl⟩ := hp
      obtain ⟨m', _, rfl⟩ := hq
      exact Or.inl hxy
  · rintro ⟨l, m⟩
    simp only [LMlist, List.mem_flatMap, List.mem_map, mem_pyRange, Spec.IsMode, Prod.mk.injEq]
    constructor
    · rintro ⟨l', h1, m', h2, rfl, rfl⟩; omega
    · intro h; exact ⟨l, by omega, m, by omega, rfl, rfl⟩

theorem LMlist_length {a b : ℤ} (ha : 0 ≤ a) (hab : a ≤ b + 1) :
    ((LMlist a b).length : ℤ) = LM_total_size a b := by
  obtain ⟨n, hn⟩ : ∃ n : ℕ, b + 1 = a + n := ⟨(b + 1 - a).toNat, by omega⟩
  obtain rfl : b = a + n - 1 := by omega
  clear hn hab
  induction n with
  | zero =>
    simp only [LMlist, LM_total_size]
    rw [pyRange_empty (by simp)]; simp; ring
  | succ n ih =>
    unfold LMlist LM_total_size at *
    have e : a + ((n + 1 : ℕ) : ℤ) - 1 + 1 = (a + n - 1 + 1) + 1 := by push_cast; ring
    rw [e, pyRange_succ (by omega), List.flatMap_append, List.length_append]
    push_cast
    rw [ih]
    simp only [List.flatMap_cons, List.flatMap_nil, List.append_nil, List.length_map,
      length_pyRange]
    have : (((a + (n : ℤ) - 1 + 1 + 1 - -(a + (n : ℤ) - 1 + 1)).toNat : ℕ) : ℤ)
      = 2 * (a + n) + 1 := by omega
    rw [this]; ring

theorem LMlist_index {a b l m : ℤ} (ha : 0 ≤ a) (h1 : a ≤ l) (h2 : l ≤ b) (h3 : -l ≤ m)
    (h4 : m ≤ l) : 0 ≤ LM_index l m a ∧ (LMlist a b)[(LM_index l m a).toNat]? = some (l, m) := by
  have hp := LMlist_length (a := a) (b := l - 1) ha (by omega)
  have hk : ((l + m).toNat) < (((pyRange (-l) (l + 1)).map fun m => (l, m)) : List (ℤ × ℤ)).length := by
    simp; omega
  have hg := flatMap_pyRange_getElem? (fun ell => (pyRange (-ell) (ell + 1)).map fun m => (ell, m))
    h1 (show l < b + 1 by omega) hk
  have e : LM_index l m a = ((LMlist a (l - 1)).length : ℤ) + (l + m) := by
    rw [hp]; unfold LM_index LM_total_size; ring
  refine ⟨by omega, ?_⟩
  have e2 : (LM_index l m a).toNat = (LMlist a (l - 1)).length + (l + m).toNat := by omega
  rw [e2]
  unfold LMlist at *
  rw [show l - 1 + 1 = l by ring]
  rw [hg, List.getElem?_map, pyRange_getElem? (by omega)]
  simp only [Option.map_some, Option.some.injEq, Prod.mk.injEq, true_and]
  omega

theorem LM_range_eq (junk : ℕ → ℤ × ℤ) {a b : ℤ} (ha : 0 ≤ a) (hab : a ≤ b + 1) :
    LM_range junk a b = .ok (LMlist a b) := by
  have hl := LMlist_length ha hab
  unfold LM_range LM_range_loop
  have hsz : b * (b + 2) - a ^ 2 + 1 = ((LMlist a b).length : ℤ) := hl.symm
  rw [hsz, npEmpty_ok (by omega), bind_ok]
  have := forL_fill (LMlist a b)
    (fun (x : ℤ × ℤ) i (buf : List (ℤ × ℤ)) => do
        let b ← upd buf i (fun row => (x.1, row.2))
        upd b i (fun row => (row.1, x.2)))
    id ((List.range (((LMlist a b).length : ℤ)).toNat).map junk) (by simp)
    (by
      rintro ⟨l, m⟩ _ i buf h0 h1
      simp only
      rw [upd_ok h0 h1, bind_ok, upd_ok h0 (by simpa using h1)]
      congr 1
      apply List.ext_getElem?
      intro k
      simp only [List.getElem?_modify, List.getElem?_set, id]
      split <;> rename_i hk
      · subst hk
        have : i.toNat < buf.length := by omega
        simp [this]
      · simp)
  rw [List.map_id] at this
  rw [LMlist, forL_flatMap] at this
  simp only [forL_map] at this
  unfold LMlist
  rw [this]
  rfl

/-! ## `(ell, m', m)` -/

/-- One block of the docstring's comprehension for `(ell, m', m)`. -/
def LMpMblock (ell : ℤ) : List (ℤ × ℤ × ℤ) :=
  (pyRange (-ell) (ell + 1)).flatMap fun mp => (pyRange (-ell) (ell + 1)).map fun m => (ell, mp, m)

/-- The docstring's list comprehension for `(ell, m', m)`. -/
def LMpMlist (a b : ℤ) : List (ℤ × ℤ × ℤ) := (pyRange a (b + 1)).flatMap LMpMblock

theorem length_flatMap_const {α β : Type} (xs : List α) (f : α → List β) (c : ℕ)
    (h : ∀ x ∈ xs, (f x).length = c) : (xs.flatMap f).length = xs.length * c := by
  induction xs with
  | nil => simp
  | cons x xs ih =>
    rw [List.flatMap_cons, List.length_append, h x (by simp), ih (fun y hy => h y (by simp [hy]))]
    simp; ring

theorem LMpMblock_length {l : ℤ} (h : 0 ≤ l) :
    ((LMpMblock l).length : ℤ) = (2 * l + 1) ^ 2 := by
  unfold LMpMblock
  rw [length_flatMap_const _ _ (2 * l + 1).toNat (by intro x _; simp; omega), length_pyRange]
  have : (l + 1 - -l).toNat = (2 * l + 1).toNat := by omega
  rw [this]
  push_cast
  rw [Int.toNat_of_nonneg (by omega)]; ring

theorem LMpMblock_getElem? {l mp m : ℤ} (h1 : -l ≤ mp) (h2 : mp ≤ l) (h3 : -l ≤ m) (h4 : m ≤ l) :
    (LMpMblock l)[((l + m) + (l + mp) * (2 * l + 1)).toNat]? = some (l, mp, m) := by
  unfold LMpMblock
  have hk : (l + m).toNat < (((pyRange (-l) (l + 1)).map fun m => (l, mp, m)) : List _).length := by
    simp; omega
  have hg := flatMap_pyRange_getElem?
    (fun mp => (pyRange (-l) (l + 1)).map fun m => (l, mp, m)) h1 (show mp < l + 1 by omega) hk
  rw [length_flatMap_const _ _ (2 * l + 1).toNat (by intro x _; simp; omega), length_pyRange] at hg
  have hnn : 0 ≤ (l + mp) * (2 * l + 1) := mul_nonneg (by omega) (by omega)
  have e : ((l + m) + (l + mp) * (2 * l + 1)).toNat
      = (mp - -l).toNat * (2 * l + 1).toNat + (l + m).toNat := by
    zify
    rw [Int.toNat_of_nonneg (by omega), Int.toNat_of_nonneg (by omega),
      Int.toNat_of_nonneg (by omega), Int.toNat_of_nonneg (by omega)]
    ring
  rw [e, hg, List.getElem?_map, pyRange_getElem? (by omega)]
  simp only [Option.map_some, Option.some.injEq, Prod.mk.injEq, true_and]
  omega

theorem LMpMlist_spec {a : ℤ} (b : ℤ) (_ha : 0 ≤ a) : Spec.ListsTriples a b (LMpMlist a b) := by
  constructor
  · unfold LMpMlist LMpMblock
    rw [List.pairwise_flatMap]
    constructor
    · intro ell _
      rw [List.pairwise_flatMap]
      constructor
      · intro mp _
        rw [List.pairwise_map]
        exact (pairwise_pyRange _ _).imp (fun h => Or.inr ⟨rfl, Or.inr ⟨rfl, h⟩⟩)
      · refine (pairwise_pyRange _ _).imp ?_
        intro x y hxy p hp q hq
        simp only [List.mem_map] at hp hq
        obtain ⟨m, _, rfl⟩ := hp
        obtain ⟨m', _, rfl⟩ := hq
        exact Or.inr ⟨rfl, Or.inl hxy⟩
    · refine (pairwise_pyRange _ _).imp ?_
      intro x y hxy p hp q hq
      simp only [List.mem_flatMap, List.mem_map] at hp hq
      obtain ⟨_, _, m, _, rfl⟩ := hp
      obtain ⟨_, _, m', _, rfl⟩ := hq
      exact Or.inl hxy
  · rintro ⟨l, mp, m⟩
    simp only [LMpMlist, LMpMblock, List.mem_flatMap, List.mem_map, mem_pyRange, Spec.IsTriple,
      Prod.mk.injEq, abs_le]
    constructor
    · rintro ⟨l', h1, mp', h2, m', h3, rfl, rfl, rfl⟩; omega
    · intro h; exact ⟨l, by omega, mp, by omega, m, by omega, rfl, rfl, rfl⟩

theorem LMpMlist_length3 {a b : ℤ} (ha : 0 ≤ a) (hab : a ≤ b + 1) :
    3 * ((LMpMlist a b).length : ℤ)
      = ((4 * b + 12) * b + 11) * b + (-4 * a ^ 2 + 1) * a + 3 := by
  obtain ⟨n, hn⟩ : ∃ n : ℕ, b + 1 = a + n := ⟨(b + 1 - a).toNat, by omega⟩
  obtain rfl : b = a + n - 1 := by omega
  clear hn hab
  induction n with
  | zero =>
    simp only [LMpMlist]
    rw [pyRange_empty (by simp)]; simp; ring
  | succ n ih =>
    unfold LMpMlist at *
    have e : a + ((n + 1 : ℕ) : ℤ) - 1 + 1 = (a + n - 1 + 1) + 1 := by push_cast; ring
    rw [e, pyRange_succ (by omega), List.flatMap_append, List.length_append]
    push_cast
    rw [mul_add, ih]
    simp only [List.flatMap_cons, List.flatMap_nil, List.append_nil]
    rw [LMpMblock_length (by omega)]
    ring

theorem LMpMlist_length {a b : ℤ} (ha : 0 ≤ a) (hab : a ≤ b + 1) :
    ((LMpMlist a b).length : ℤ) = LMpM_total_size a b := by
  have := LMpMlist_length3 ha hab
  unfold LMpM_total_size
  omega

theorem LMpM_index_eq (l mp m a : ℤ) :
    LMpM_index l mp m a = linear_matrix_offset l a + linear_matrix_index l mp m := by
  unfold LMpM_index linear_matrix_offset linear_matrix_index
  have e : ((4 * l + 6) * l + 6 * mp + 5) * l + a * (1 - 4 * a ^ 2) + 3 * (m + mp)
    = ((4 * l ^ 2 - 1) * l - (4 * a ^ 2 - 1) * a) + 3 * ((l + m) + (l + mp) * (2 * l + 1)) := by ring
  rw [e]; omega

theorem linear_matrix_offset_eq {a l : ℤ} (ha : 0 ≤ a) (hal : a ≤ l) :
    linear_matrix_offset l a = ((LMpMlist a (l - 1)).length : ℤ) := by
  have := LMpMlist_length3 (a := a) (b := l - 1) ha (by omega)
  unfold linear_matrix_offset
  have e : (4 * l ^ 2 - 1) * l - (4 * a ^ 2 - 1) * a
    = ((4 * (l - 1) + 12) * (l - 1) + 11) * (l - 1) + (-4 * a ^ 2 + 1) * a + 3 := by ring
  rw [e]; omega

theorem LMpMlist_index {a b l mp m : ℤ} (ha : 0 ≤ a) (h1 : a ≤ l) (h2 : l ≤ b) (h3 : -l ≤ mp)
    (h4 : mp ≤ l) (h5 : -l ≤ m) (h6 : m ≤ l) :
    0 ≤ LMpM_index l mp m a ∧
      (LMpMlist a b)[(LMpM_index l mp m a).toNat]? = some (l, mp, m) := by
  rw [LMpM_index_eq, linear_matrix_offset_eq ha h1]
  have hnn : 0 ≤ (l + mp) * (2 * l + 1) := mul_nonneg (by omega) (by omega)
  have hb := LMpMblock_getElem? h3 h4 h5 h6
  unfold linear_matrix_index
  refine ⟨by omega, ?_⟩
  have hk : ((l + m) + (l + mp) * (2 * l + 1)).toNat < (LMpMblock l).length := by
    by_contra hc
    rw [List.getElem?_eq_none (by omega)] at hb
    cases hb
  have hg := flatMap_pyRange_getElem? LMpMblock h1 (show l < b + 1 by omega) hk
  have e2 : (((LMpMlist a (l - 1)).length : ℤ) + ((l + m) + (l + mp) * (2 * l + 1))).toNat
      = (LMpMlist a (l - 1)).length + ((l + m) + (l + mp) * (2 * l + 1)).toNat := by omega
  rw [e2]
  unfold LMpMlist
  rw [show l - 1 + 1 = l by ring, hg, hb]

theorem upd3_eq {α β γ : Type} (a : α) (b : β) (c : γ) (i : ℤ) (buf : List (α × β × γ))
    (h0 : 0 ≤ i) (h1 : i < buf.length) :
    (do
      let b' ← upd buf i (fun row => (a, row.2.1, row.2.2))
      let b' ← upd b' i (fun row => (row.1, b, row.2.2))
      upd b' i (fun row => (row.1, row.2.1, c)) : Py (List (α × β × γ)))
      = .ok (buf.set i.toNat (a, b, c)) := by
  rw [upd_ok h0 h1, bind_ok, upd_ok h0 (by simpa using h1), bind_ok,
    upd_ok h0 (by simpa using h1)]
  congr 1
  apply List.ext_getElem?
  intro k
  simp only [List.getElem?_modify, List.getElem?_set]
  split <;> rename_i hk
  · subst hk
    have : i.toNat < buf.length := by omega
    simp [this]
  · simp

theorem LMpM_range_eq (junk : ℕ → ℤ × ℤ × ℤ) {a b : ℤ} (ha : 0 ≤ a) (hab : a ≤ b + 1) :
    LMpM_range junk a b = .ok (LMpMlist a b) := by
  have hl := LMpMlist_length3 ha hab
  unfold LMpM_range LMpM_range_loop
  have hsz : (b * (11 + b * (12 + 4 * b)) + a * (1 - 4 * a ^ 2) + 3) / 3
      = ((LMpMlist a b).length : ℤ) := by
    have : b * (11 + b * (12 + 4 * b)) + a * (1 - 4 * a ^ 2) + 3
      = ((4 * b + 12) * b + 11) * b + (-4 * a ^ 2 + 1) * a + 3 := by ring
    rw [this]; omega
  rw [hsz, npEmpty_ok (by omega), bind_ok]
  have := forL_fill (LMpMlist a b)
    (fun (x : ℤ × ℤ × ℤ) i (buf : List (ℤ × ℤ × ℤ)) => do
        let b ← upd buf i (fun row => (x.1, row.2.1, row.2.2))
        let b ← upd b i (fun row => (row.1, x.2.1, row.2.2))
        upd b i (fun row => (row.1, row.2.1, x.2.2)))
    id ((List.range (((LMpMlist a b).length : ℤ)).toNat).map junk) (by simp)
    (by
      rintro ⟨l, mp, m⟩ _ i buf h0 h1
      exact upd3_eq l mp m i buf h0 h1)
  rw [List.map_id] at this
  have h2 : forL (LMpMlist a b) = forL ((pyRange a (b + 1)).flatMap LMpMblock)
    (σ := ℤ × List (ℤ × ℤ × ℤ)) := rfl
  rw [h2, forL_flatMap] at this
  simp only [LMpMblock, forL_flatMap, forL_map] at this
  rw [this]
  rfl

/-! ## half-integer triples -/

/-- One block of doubled triples. -/
def TwoBlock (n : ℤ) : List (ℤ × ℤ × ℤ) :=
  (pyRange2 (-n) (n + 1)).flatMap fun mp => (pyRange2 (-n) (n + 1)).map fun m => (n, mp, m)

/-- The comprehension over doubled triples. -/
def TwoList (a b : ℤ) : List (ℤ × ℤ × ℤ) := (pyRange a (b + 1)).flatMap TwoBlock

theorem TwoBlock_length {n : ℤ} (h : 0 ≤ n) : ((TwoBlock n).length : ℤ) = (n + 1) ^ 2 := by
  unfold TwoBlock
  rw [length_flatMap_const _ _ (n + 1).toNat (by intro x _; simp; omega), length_pyRange2]
  have : ((n + 1 - -n + 1) / 2).toNat = (n + 1).toNat := by omega
  rw [this]
  push_cast
  rw [Int.toNat_of_nonneg (by omega)]; ring

theorem TwoBlock_getElem? {n mp m : ℤ} (h1 : -n ≤ mp) (h2 : mp ≤ n) (h3 : -n ≤ m) (h4 : m ≤ n)
    (p1 : (n - mp) % 2 = 0) (p2 : (n - m) % 2 = 0) :
    (TwoBlock n)[((n + mp) / 2 * (n + 1) + (n + m) / 2).toNat]? = some (n, mp, m) := by
  unfold TwoBlock
  have hg := flatMap_pyRange2_getElem? (a := -n) (b := n + 1)
    (fun mp => (pyRange2 (-n) (n + 1)).map fun m => (n, mp, m)) (n + 1).toNat
    (by intro x; simp; omega) (j := ((n + mp) / 2).toNat) (k := ((n + m) / 2).toNat)
    (by omega) (by omega)
  have hnn : 0 ≤ (n + mp) / 2 * (n + 1) := mul_nonneg (by omega) (by omega)
  have e : ((n + mp) / 2 * (n + 1) + (n + m) / 2).toNat
      = ((n + mp) / 2).toNat * (n + 1).toNat + ((n + m) / 2).toNat := by
    zify
    rw [Int.toNat_of_nonneg (by omega), Int.toNat_of_nonneg (by omega),
      Int.toNat_of_nonneg (by omega), Int.toNat_of_nonneg (by omega)]
  rw [e, hg, List.getElem?_map, pyRange2_getElem? (by omega)]
  simp only [Option.map_some, Option.some.injEq, Prod.mk.injEq, true_and]
  omega

theorem TwoList_spec {a : ℤ} (b : ℤ) (_ha : 0 ≤ a) : Spec.ListsTwoTriples a b (TwoList a b) := by
  constructor
  · unfold TwoList TwoBlock
    rw [List.pairwise_flatMap]
    constructor
    · intro ell _
      rw [List.pairwise_flatMap]
      constructor
      · intro mp _
        rw [List.pairwise_map]
        exact (pairwise_pyRange2 _ _).imp (fun h => Or.inr ⟨rfl, Or.inr ⟨rfl, h⟩⟩)
      · refine (pairwise_pyRange2 _ _).imp ?_
        intro x y hxy p hp q hq
        simp only [List.mem_map] at hp hq
        obtain ⟨m, _, rfl⟩ := hp
        obtain ⟨m', _, rfl⟩ := hq
        exact Or.inr ⟨rfl, Or.inl hxy⟩
    · refine (pairwise_pyRange _ _).imp ?_
      intro x y hxy p hp q hq
      simp only [List.mem_flatMap, List.mem_map] at hp hq
      obtain ⟨_, _, m, _, rfl⟩ := hp
      obtain ⟨_, _, m', _, rfl⟩ := hq
      exact Or.inl hxy
  · rintro ⟨l, mp, m⟩
    simp only [TwoList, TwoBlock, List.mem_flatMap, List.mem_map, mem_pyRange, mem_pyRange2,
      Spec.IsTwoTriple, Prod.mk.injEq, abs_le]
    constructor
    · rintro ⟨l', h1, mp', h2, m', h3, rfl, rfl, rfl⟩; omega
    · intro h; exact ⟨l, by omega, mp, by omega, m, by omega, rfl, rfl, rfl⟩

theorem TwoList_length6 {a b : ℤ} (ha : 0 ≤ a) (hab : a ≤ b + 1) :
    6 * ((TwoList a b).length : ℤ)
      = 2 * b ^ 3 + 9 * b ^ 2 + 13 * b + 6 - (2 * a ^ 3 + 3 * a ^ 2 + a) := by
  obtain ⟨n, hn⟩ : ∃ n : ℕ, b + 1 = a + n := ⟨(b + 1 - a).toNat, by omega⟩
  obtain rfl : b = a + n - 1 := by omega
  clear hn hab
  induction n with
  | zero =>
    simp only [TwoList]
    rw [pyRange_empty (by simp)]; simp; ring
  | succ n ih =>
    unfold TwoList at *
    have e : a + ((n + 1 : ℕ) : ℤ) - 1 + 1 = (a + n - 1 + 1) + 1 := by push_cast; ring
    rw [e, pyRange_succ (by omega), List.flatMap_append, List.length_append]
    push_cast
    rw [mul_add, ih]
    simp only [List.flatMap_cons, List.flatMap_nil, List.append_nil]
    rw [TwoBlock_length (by omega)]
    ring

theorem TwoList_index {b n mp m : ℤ} (h0 : 0 ≤ n) (hb : n ≤ b) (h1 : -n ≤ mp) (h2 : mp ≤ n)
    (h3 : -n ≤ m) (h4 : m ≤ n) (p1 : (n - mp) % 2 = 0) (p2 : (n - m) % 2 = 0) :
    0 ≤ Wigner_index n mp m ∧
      (TwoList 0 b)[(Wigner_index n mp m).toNat]? = some (n, mp, m) := by
  have hp := TwoList_length6 (a := 0) (b := n - 1) le_rfl (by omega)
  have e1 : n * ((2 * n + 3) * n + 1) / 6 = ((TwoList 0 (n - 1)).length : ℤ) := by
    have : n * ((2 * n + 3) * n + 1) = 6 * ((TwoList 0 (n - 1)).length : ℤ) := by rw [hp]; ring
    rw [this]; omega
  have hbk := TwoBlock_getElem? h1 h2 h3 h4 p1 p2
  have hnn : 0 ≤ (n + mp) / 2 * (n + 1) := mul_nonneg (by omega) (by omega)
  unfold Wigner_index
  rw [e1]
  refine ⟨by omega, ?_⟩
  have hk : ((n + mp) / 2 * (n + 1) + (n + m) / 2).toNat < (TwoBlock n).length := by
    by_contra hc
    rw [List.getElem?_eq_none (by omega)] at hbk
    cases hbk
  have hg := flatMap_pyRange_getElem? TwoBlock h0 (show n < b + 1 by omega) hk
  have e2 : (((TwoList 0 (n - 1)).length : ℤ) + (n + mp) / 2 * (n + 1) + (n + m) / 2).toNat
      = (TwoList 0 (n - 1)).length + ((n + mp) / 2 * (n + 1) + (n + m) / 2).toNat := by omega
  rw [e2]
  unfold TwoList
  rw [show n - 1 + 1 = n by ring, hg, hbk]

theorem pyIntQ_intCast (n : ℤ) : pyIntQ (n : ℚ) = n := by
  unfold pyIntQ; split <;> simp

theorem pyRound_intCast (n : ℤ) : pyRound (n : ℚ) = n := by
  simp [pyRound]

/-- Halving a doubled triple. -/
def halve (p : ℤ × ℤ × ℤ) : ℚ × ℚ × ℚ := ((p.1 : ℚ) / 2, (p.2.1 : ℚ) / 2, (p.2.2 : ℚ) / 2)

theorem LMpM_range_half_integer_eq (junk : ℕ → ℚ × ℚ × ℚ) {a b : ℤ} (ha : 0 ≤ a)
    (hab : a ≤ b + 1) :
    LMpM_range_half_integer junk ((a : ℚ) / 2) ((b : ℚ) / 2) = .ok ((TwoList a b).map halve) := by
  have hl := TwoList_length6 ha hab
  unfold LMpM_range_half_integer LMpM_range_half_integer_loop
  have hsz : pyIntQ (((8 * ((b : ℚ) / 2) + 18) * ((b : ℚ) / 2) + 13) * ((b : ℚ) / 2) + 3
      - ((8 * ((a : ℚ) / 2) + 6) * ((a : ℚ) / 2) + 1) * ((a : ℚ) / 2)) / 3
      = ((TwoList a b).length : ℤ) := by
    have : ((8 * ((b : ℚ) / 2) + 18) * ((b : ℚ) / 2) + 13) * ((b : ℚ) / 2) + 3
      - ((8 * ((a : ℚ) / 2) + 6) * ((a : ℚ) / 2) + 1) * ((a : ℚ) / 2)
      = ((3 * ((TwoList a b).length : ℤ) : ℤ) : ℚ) := by
      have hq : (6 : ℚ) * ((TwoList a b).length : ℤ)
        = 2 * (b : ℚ) ^ 3 + 9 * (b : ℚ) ^ 2 + 13 * b + 6 - (2 * (a : ℚ) ^ 3 + 3 * (a : ℚ) ^ 2 + a) := by
        exact_mod_cast hl
      push_cast at hq ⊢
      linear_combination -hq / 2
    rw [this, pyIntQ_intCast]; omega
  have r1 : pyRound (2 * ((a : ℚ) / 2)) = a := by
    rw [mul_div_cancel₀ _ (by norm_num : (2 : ℚ) ≠ 0)]; exact pyRound_intCast a
  have r2 : pyRound (2 * ((b : ℚ) / 2)) = b := by
    rw [mul_div_cancel₀ _ (by norm_num : (2 : ℚ) ≠ 0)]; exact pyRound_intCast b
  rw [hsz, npEmpty_ok (by omega), bind_ok, r1, r2]
  have := forL_fill (TwoList a b)
    (fun (x : ℤ × ℤ × ℤ) i (buf : List (ℚ × ℚ × ℚ)) => do
        let b ← upd buf i (fun row => ((x.1 : ℚ) / 2, row.2.1, row.2.2))
        let b ← upd b i (fun row => (row.1, (x.2.1 : ℚ) / 2, row.2.2))
        upd b i (fun row => (row.1, row.2.1, (x.2.2 : ℚ) / 2)))
    halve ((List.range (((TwoList a b).length : ℤ)).toNat).map junk) (by simp)
    (by
      rintro ⟨l, mp, m⟩ _ i buf h0 h1
      exact upd3_eq _ _ _ i buf h0 h1)
  have h2 : forL (TwoList a b) = forL ((pyRange a (b + 1)).flatMap TwoBlock)
    (σ := ℤ × List (ℚ × ℚ × ℚ)) := rfl
  rw [h2, forL_flatMap] at this
  simp only [TwoBlock, forL_flatMap, forL_map] at this
  rw [this]
  rfl

/-! ## deducing `ell_max` -/

theorem LM_deduce_ok {size a L : ℤ} (hL : -1 ≤ L) (h : size = LM_total_size a L) :
    LM_deduce_ell_max size a = .ok L := by
  have e : size + a ^ 2 = (L + 1) ^ 2 := by rw [h]; unfold LM_total_size; ring
  unfold LM_deduce_ell_max
  rw [e]
  have hs : Real.sqrt (((L + 1) ^ 2 : ℤ) : ℝ) - 1 = (L : ℝ) := by
    push_cast
    rw [Real.sqrt_sq (by exact_mod_cast (by omega : 0 ≤ L + 1))]; ring
  have hi : pyInt (Real.sqrt (((L + 1) ^ 2 : ℤ) : ℝ) - 1) = L := by
    rw [hs]; unfold pyInt; split <;> simp
  have h2 : L * (L + 2) - a ^ 2 + 1 = size := by rw [h]; rfl
  rw [if_neg (not_lt.mpr (by positivity))]
  simp only [hi, h2, ne_eq, not_true_eq_false, if_false]

theorem LM_deduce_cases (size a : ℤ) :
    (∃ L, -1 ≤ L ∧ size = LM_total_size a L ∧ LM_deduce_ell_max size a = .ok L) ∨
    ((¬ ∃ L, -1 ≤ L ∧ size = LM_total_size a L) ∧
      LM_deduce_ell_max size a = .error .valueError) := by
  by_cases h : ∃ L, -1 ≤ L ∧ size = LM_total_size a L
  · obtain ⟨L, h1, h2⟩ := h
    exact Or.inl ⟨L, h1, h2, LM_deduce_ok h1 h2⟩
  · refine Or.inr ⟨h, ?_⟩
    unfold LM_deduce_ell_max
    split
    · rfl
    · rename_i hn
      simp only
      split
      · rfl
      · rename_i hne
        exfalso
        apply h
        refine ⟨_, ?_, (not_not.mp hne).symm⟩
        unfold pyInt
        split
        · rename_i h0
          have := Int.floor_nonneg.mpr h0
          omega
        · have : (-1 : ℝ) ≤ Real.sqrt ((size + a ^ 2 : ℤ) : ℝ) - 1 := by
            have := Real.sqrt_nonneg ((size + a ^ 2 : ℤ) : ℝ)
            linarith
          have h3 := Int.le_ceil (Real.sqrt ((size + a ^ 2 : ℤ) : ℝ) - 1)
          have h4 : ((-1 : ℤ) : ℝ) ≤ (⌈Real.sqrt ((size + a ^ 2 : ℤ) : ℝ) - 1⌉ : ℝ) := by
            rw [Int.cast_neg, Int.cast_one]; exact le_trans this h3
          exact_mod_cast h4

end SF
