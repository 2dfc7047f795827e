import Mathlib.Data.Int.Notation
import Mathlib.Algebra.Order.Ring.Int
import Mathlib.Data.Int.Order.Basic
import Mathlib.Tactic.Ring
import Mathlib.Tactic.Linarith
import Mathlib.Data.List.Basic

/-!
# Language layer: the fragment of Python/numpy/numba in which the package is written

Nothing in this file is specific to spherical_functions.  Exceptions are values, loops are
folds, arrays are lists, `np.empty` has arbitrary contents.
-/

set_option autoImplicit false

namespace SF

/-- Exceptions that the modelled code can raise.  `outOfBounds` stands for an array access that
is outside the array: with plain numpy it is an `IndexError`, inside numba-compiled code it is an
unchecked access to stray memory. -/
inductive PyErr
  | valueError
  | indexError
  | outOfBounds
  | zeroDivision
  | typeError
  | nameError
  | attributeError
  | notImplementedError
  | outOfFuel
  deriving DecidableEq, Repr

/-- A Python computation: a value or an exception. -/
abbrev Py (α : Type) : Type := Except PyErr α

/-- `range(a, b)`. -/
def pyRange (a b : ℤ) : List ℤ := (List.range (b - a).toNat).map (fun k : ℕ => a + (k : ℤ))

/-- `range(a, b, 2)`. -/
def pyRange2 (a b : ℤ) : List ℤ :=
  (List.range ((b - a + 1) / 2).toNat).map (fun k : ℕ => a + 2 * (k : ℤ))

/-- `range(a, b, -1)`. -/
def pyRangeDown (a b : ℤ) : List ℤ := (List.range (a - b).toNat).map (fun k : ℕ => a - (k : ℤ))

/-- `range(a, b, -2)`. -/
def pyRangeDown2 (a b : ℤ) : List ℤ :=
  (List.range ((a - b + 1) / 2).toNat).map (fun k : ℕ => a - 2 * (k : ℤ))

/-- `for x in xs: st = body(x, st)`, stopping at the first exception. -/
def forL {α σ : Type} (xs : List α) (st : σ) (body : α → σ → Py σ) : Py σ :=
  xs.foldlM (fun s x => body x s) st

/-- Resolution of a Python index `i` in an axis of length `n`: negative indices count from the
end; anything else outside `0..n-1` is invalid. -/
def npIdx (n : ℕ) (i : ℤ) : Option ℕ :=
  if 0 ≤ i ∧ i < n then some i.toNat
  else if -(n : ℤ) ≤ i ∧ i < 0 then some (i + n).toNat
  else none

/-- `a[i]` (read). -/
def rd {α : Type} (a : List α) (i : ℤ) : Py α :=
  match npIdx a.length i with
  | none => .error .outOfBounds
  | some k => match a[k]? with
    | some v => .ok v
    | none => .error .outOfBounds

/-- `a[i] = f(a[i])` (in-place update of one entry). -/
def upd {α : Type} (a : List α) (i : ℤ) (f : α → α) : Py (List α) :=
  match npIdx a.length i with
  | none => .error .outOfBounds
  | some k => .ok (a.modify k f)

/-- `a[i] = v`. -/
def wr {α : Type} (a : List α) (i : ℤ) (v : α) : Py (List α) :=
  match npIdx a.length i with
  | none => .error .outOfBounds
  | some k => .ok (a.set k v)

/-- `np.empty(n)`: an array of length `n` with arbitrary contents `junk`; negative sizes are
rejected by numpy with a ValueError. -/
def npEmpty {α : Type} (junk : ℕ → α) (n : ℤ) : Py (List α) :=
  if n < 0 then .error .valueError else .ok ((List.range n.toNat).map junk)

/-- `np.zeros(n)`. -/
def npZeros {α : Type} [Zero α] (n : ℤ) : Py (List α) :=
  npEmpty (fun _ => 0) n

/-! ## Lemmas -/

theorem npIdx_of_nonneg {n : ℕ} {i : ℤ} (h0 : 0 ≤ i) (h1 : i < n) : npIdx n i = some i.toNat := by
  simp [npIdx, h0, h1]

theorem rd_ok {α : Type} {a : List α} {i : ℤ} {v : α} (h0 : 0 ≤ i) (h : a[i.toNat]? = some v) :
    rd a i = .ok v := by
  have hlt : i.toNat < a.length := by
    by_contra hc
    rw [List.getElem?_eq_none (by omega)] at h
    cases h
  have h1 : i < a.length := by omega
  simp [rd, npIdx_of_nonneg h0 h1, h]

theorem rd_ok_iff {α : Type} {a : List α} {i : ℤ} {v : α} (h0 : 0 ≤ i) :
    rd a i = .ok v ↔ a[i.toNat]? = some v := by
  constructor
  · intro h
    by_cases h1 : i < a.length
    · simp only [rd, npIdx_of_nonneg h0 h1] at h
      split at h
      · rename_i w hw; simp only [Except.ok.injEq] at h; rw [hw, h]
      · cases h
    · have h2 : ¬ (-(a.length : ℤ) ≤ i ∧ i < 0) := by omega
      simp [rd, npIdx, h1, h2] at h
  · exact rd_ok h0

theorem wr_ok {α : Type} {a : List α} {i : ℤ} {v : α} (h0 : 0 ≤ i) (h1 : i < a.length) :
    wr a i v = .ok (a.set i.toNat v) := by
  simp [wr, npIdx_of_nonneg h0 h1]

theorem upd_ok {α : Type} {a : List α} {i : ℤ} {f : α → α} (h0 : 0 ≤ i) (h1 : i < a.length) :
    upd a i f = .ok (a.modify i.toNat f) := by
  simp [upd, npIdx_of_nonneg h0 h1]

theorem npEmpty_ok {α : Type} {junk : ℕ → α} {n : ℤ} (h : 0 ≤ n) :
    npEmpty junk n = .ok ((List.range n.toNat).map junk) := by
  simp [npEmpty, not_lt.mpr h]

@[simp] theorem forL_nil {α σ : Type} (st : σ) (body : α → σ → Py σ) : forL [] st body = .ok st :=
  rfl

@[simp] theorem forL_cons {α σ : Type} (x : α) (xs : List α) (st : σ) (body : α → σ → Py σ) :
    forL (x :: xs) st body = (body x st >>= fun s => forL xs s body) := by
  simp [forL]

theorem forL_append {α σ : Type} (xs ys : List α) (st : σ) (body : α → σ → Py σ) :
    forL (xs ++ ys) st body = (forL xs st body >>= fun s => forL ys s body) := by
  simp [forL, List.foldlM_append]

theorem forL_map {α β σ : Type} (f : α → β) (xs : List α) (st : σ) (body : β → σ → Py σ) :
    forL (xs.map f) st body = forL xs st (fun x s => body (f x) s) := by
  simp [forL, List.foldlM_map]

/-- Nested loops are one loop over the flattened list of index tuples. -/
theorem forL_flatMap {α β σ : Type} (xs : List α) (ys : α → List β) (st : σ)
    (body : β → σ → Py σ) :
    forL (xs.flatMap ys) st body = forL xs st (fun x s => forL (ys x) s body) := by
  induction xs generalizing st with
  | nil => rfl
  | cons x xs ih =>
    rw [List.flatMap_cons, forL_append, forL_cons]
    cases h : forL (ys x) st body with
    | error e => rfl
    | ok s => exact ih s

/-- Loop-invariant rule: the invariant sees the part of the list already processed. -/
theorem forL_inv {α σ : Type} (I : List α → σ → Prop) (xs : List α) (st : σ)
    (body : α → σ → Py σ) (h0 : I [] st)
    (hs : ∀ (pre : List α) (x : α) (post : List α) (s : σ), xs = pre ++ x :: post → I pre s →
      ∃ s', body x s = .ok s' ∧ I (pre ++ [x]) s') :
    ∃ s', forL xs st body = .ok s' ∧ I xs s' := by
  suffices H : ∀ (post pre : List α) (s : σ), xs = pre ++ post → I pre s →
      ∃ s', forL post s body = .ok s' ∧ I xs s' from H xs [] st rfl h0
  intro post
  induction post with
  | nil =>
    intro pre s hx hI
    refine ⟨s, rfl, ?_⟩
    rw [hx, List.append_nil]; exact hI
  | cons x post ih =>
    intro pre s hx hI
    obtain ⟨s', hb, hI'⟩ := hs pre x post s hx hI
    obtain ⟨s'', hf, hI''⟩ := ih (pre ++ [x]) s' (by rw [hx]; simp) hI'
    refine ⟨s'', ?_, hI''⟩
    rw [forL_cons, hb]
    exact hf

/-- The elements of `range(a, b)`. -/
@[simp] theorem mem_pyRange {a b i : ℤ} : i ∈ pyRange a b ↔ a ≤ i ∧ i < b := by
  simp only [pyRange, List.mem_map, List.mem_range]
  constructor
  · rintro ⟨k, hk, rfl⟩; omega
  · intro h; exact ⟨(i - a).toNat, by omega, by omega⟩

@[simp] theorem length_pyRange (a b : ℤ) : (pyRange a b).length = (b - a).toNat := by
  simp [pyRange]

theorem pyRange_empty {a b : ℤ} (h : b ≤ a) : pyRange a b = [] := by
  have : (b - a).toNat = 0 := by omega
  simp [pyRange, this]

theorem pyRange_succ {a b : ℤ} (h : a ≤ b) : pyRange a (b + 1) = pyRange a b ++ [b] := by
  have h1 : (b + 1 - a).toNat = (b - a).toNat + 1 := by omega
  simp only [pyRange, h1, List.range_succ, List.map_append, List.map_cons, List.map_nil]
  have : a + (((b - a).toNat : ℕ) : ℤ) = b := by omega
  rw [this]

theorem pyRange_getElem? {a b : ℤ} {k : ℕ} (h : a + k < b) :
    (pyRange a b)[k]? = some (a + k) := by
  have : k < (b - a).toNat := by omega
  simp [pyRange, this]

theorem pyRange_append {a b c : ℤ} (h1 : a ≤ b) (h2 : b ≤ c) :
    pyRange a c = pyRange a b ++ pyRange b c := by
  obtain ⟨n, rfl⟩ : ∃ n : ℕ, c = b + n := ⟨(c - b).toNat, by omega⟩
  induction n with
  | zero => simp [pyRange_empty]
  | succ n ih =>
    have e : b + ((n + 1 : ℕ) : ℤ) = (b + n) + 1 := by push_cast; ring
    rw [e, pyRange_succ (by omega), ih (by omega), pyRange_succ (by omega), List.append_assoc]

theorem pyRange_cons {a b : ℤ} (h : a < b) : pyRange a b = a :: pyRange (a + 1) b := by
  rw [pyRange_append (show a ≤ a + 1 by omega) (show a + 1 ≤ b by omega),
    pyRange_succ (le_refl a), pyRange_empty (le_refl a)]
  rfl

@[simp] theorem length_pyRange2 (a b : ℤ) :
    (pyRange2 a b).length = ((b - a + 1) / 2).toNat := by
  simp [pyRange2]

theorem pyRange2_getElem? {a b : ℤ} {k : ℕ} (h : a + 2 * k < b) :
    (pyRange2 a b)[k]? = some (a + 2 * k) := by
  have : k < ((b - a + 1) / 2).toNat := by omega
  simp [pyRange2, this]

theorem mem_pyRange2 {a b i : ℤ} : i ∈ pyRange2 a b ↔ a ≤ i ∧ i < b ∧ (i - a) % 2 = 0 := by
  simp only [pyRange2, List.mem_map, List.mem_range]
  constructor
  · rintro ⟨k, hk, rfl⟩; omega
  · intro h; exact ⟨((i - a) / 2).toNat, by omega, by omega⟩

/-- Loop-invariant rule for `for i in range(a, b)`. -/
theorem forR_inv {σ : Type} (a b : ℤ) (hab : a ≤ b) (I : ℤ → σ → Prop) (st : σ)
    (body : ℤ → σ → Py σ) (h0 : I a st)
    (hs : ∀ (i : ℤ) (s : σ), a ≤ i → i < b → I i s →
      ∃ s', body i s = .ok s' ∧ I (i + 1) s') :
    ∃ s', forL (pyRange a b) st body = .ok s' ∧ I b s' := by
  obtain ⟨n, rfl⟩ : ∃ n : ℕ, b = a + n := ⟨(b - a).toNat, by omega⟩
  induction n with
  | zero =>
    refine ⟨st, ?_, by simpa using h0⟩
    rw [pyRange_empty (by simp)]; rfl
  | succ n ih =>
    obtain ⟨s, hf, hI⟩ := ih (by omega) (fun i s h1 h2 => hs i s h1 (by push_cast; omega))
    obtain ⟨s', hb, hI'⟩ := hs (a + n) s (by omega) (by push_cast; omega) hI
    refine ⟨s', ?_, by push_cast at *; rw [← add_assoc]; exact hI'⟩
    have e : a + ((n + 1 : ℕ) : ℤ) = (a + n) + 1 := by push_cast; ring
    rw [e, pyRange_succ (by omega), forL_append, hf]
    show (forL [a + (n : ℤ)] s body) = _
    rw [forL_cons, hb]; rfl

/-- Congruence for loop bodies. -/
theorem forL_congr {α σ : Type} (xs : List α) (st : σ) (b1 b2 : α → σ → Py σ)
    (h : ∀ x ∈ xs, ∀ s, b1 x s = b2 x s) : forL xs st b1 = forL xs st b2 := by
  induction xs generalizing st with
  | nil => rfl
  | cons x xs ih =>
    rw [forL_cons, forL_cons, h x (by simp)]
    congr 1; funext s
    exact ih s (fun y hy s => h y (by simp [hy]) s)

/-- A loop that writes `v x` at position 0, 1, 2, … of a buffer that is exactly long enough
fills the buffer with the listed values, whatever was in the buffer before. -/
theorem forL_fill {α β : Type} (xs : List α) (g : α → ℤ → List β → Py (List β)) (v : α → β)
    (buf : List β) (hlen : buf.length = xs.length)
    (hg : ∀ x ∈ xs, ∀ (i : ℤ) (b : List β), 0 ≤ i → i < b.length →
      g x i b = .ok (b.set i.toNat (v x))) :
    forL xs ((0 : ℤ), buf)
      (fun x (st : ℤ × List β) => do
        let b ← g x st.1 st.2
        return (st.1 + 1, b)) = .ok ((xs.length : ℤ), xs.map v) := by
  obtain ⟨s', h1, h2⟩ := forL_inv
    (I := fun pre (st : ℤ × List β) => st.1 = pre.length ∧ st.2.length = xs.length ∧
      st.2.take pre.length = pre.map v) xs ((0 : ℤ), buf)
    (fun x (st : ℤ × List β) => do
        let b ← g x st.1 st.2
        return (st.1 + 1, b))
    ⟨by simp, hlen, by simp⟩
    (by
      rintro pre x post ⟨i, b⟩ hx ⟨hi, hl, ht⟩
      simp only at hi hl ht
      have hlt : pre.length < b.length := by rw [hl, hx]; simp
      have hgx := hg x (by rw [hx]; simp) i b (by omega) (by omega)
      have hin : i.toNat = pre.length := by omega
      rw [hin] at hgx
      refine ⟨(i + 1, b.set pre.length (v x)), ?_, ?_, ?_, ?_⟩
      · simp only [Except.bind, bind, hgx, pure, Except.pure]
      · simp [hi]
      · simp [hl]
      · simp only [List.length_append, List.length_cons, List.length_nil, List.map_append,
          List.map_cons, List.map_nil]
        rw [List.take_add_one, List.take_set_of_le (le_refl _), ht]
        simp [hlt])
  rw [h1]
  obtain ⟨h3, h4, h5⟩ := h2
  rw [← h4, List.take_length] at h5
  congr 1
  exact Prod.ext h3 h5

end SF
