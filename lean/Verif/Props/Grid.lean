import Verif.Model.Grid
import Verif.Lemmas.ModesAlg

/-!
# Properties C44, C45, C58: the `Grid` class
-/

set_option autoImplicit false

namespace SF

open ComplexConjugate

/-- The invariant of a Grid: enough points in each direction for its spin weight. -/
def Grid.WF (g : Grid) : Prop := 2 * |g.s| + 1 ≤ g.n_theta ∧ 2 * |g.s| + 1 ≤ g.n_phi

/-- The value of the function at leading index `li` and grid point `(j, k)`. -/
def Grid.at (g : Grid) (li : MIdx) (j k : ℕ) : ℂ := g.val (li ++ [j, k])

/-- `r` is the pointwise `op` of `f` and `g`, with numpy's broadcasting of the leading axes. -/
def Pointwise2 (op : ℂ → ℂ → ℂ) (f g r : Grid) : Prop :=
  bcastShape f.lead g.lead = some r.lead ∧ r.n_theta = f.n_theta ∧ r.n_phi = f.n_phi ∧
  ∀ li j k, ValidIdx r.lead li → j < r.n_theta → k < r.n_phi →
    r.at li j k = op (f.at (bcIdx f.lead li) j k) (g.at (bcIdx g.lead li) j k)

/-- `r` is the pointwise `op` of `f` and one number per leading index. -/
def PointwiseS (op : ℂ → ℂ → ℂ) (f : Grid) (a : Scalars) (r : Grid) : Prop :=
  bcastShape f.lead a.shape = some r.lead ∧ r.n_theta = f.n_theta ∧ r.n_phi = f.n_phi ∧
  ∀ li j k, ValidIdx r.lead li → j < r.n_theta → k < r.n_phi →
    r.at li j k = op (f.at (bcIdx f.lead li) j k) (a.val (bcIdx a.shape li))

/-- `r` is the pointwise `op` of `f`. -/
def Pointwise1 (op : ℂ → ℂ) (f r : Grid) : Prop :=
  r.lead = f.lead ∧ r.n_theta = f.n_theta ∧ r.n_phi = f.n_phi ∧ ∀ li j k, r.at li j k = op (f.at li j k)

/-! ## Broadcasting with the two grid axes -/

theorem bcastShape_append2 (a b : List ℕ) (x y : ℕ) :
    bcastShape (a ++ [x, y]) (b ++ [x, y]) = (bcastShape a b).map (· ++ [x, y]) := by
  unfold bcastShape
  simp only [List.reverse_append, List.reverse_cons, List.reverse_nil, List.nil_append, 
    List.cons_append, bcRev, if_true]
  cases bcRev a.reverse b.reverse <;> simp

theorem bcastShape_append_ones (a b : List ℕ) (x y : ℕ) :
    bcastShape (a ++ [x, y]) (b ++ [1, 1]) = (bcastShape a b).map (· ++ [x, y]) := by
  unfold bcastShape
  simp only [List.reverse_append, List.reverse_cons, List.reverse_nil, List.nil_append, 
    List.cons_append, bcRev]
  by_cases hy : y = 1 <;> by_cases hx : x = 1 <;> simp [hx, hy] <;>
    cases bcRev a.reverse b.reverse <;> simp

theorem bcRev_comm (a b : List ℕ) : bcRev a b = bcRev b a := by
  induction a generalizing b with
  | nil => cases b <;> rfl
  | cons x a ih =>
    cases b with
    | nil => rfl
    | cons y b =>
      simp only [bcRev, ih b]
      by_cases h : x = y
      · subst h; rfl
      · rw [if_neg h, if_neg (Ne.symm h)]
        by_cases hx : x = 1
        · subst hx
          by_cases hy : y = 1
          · exact absurd hy.symm h
          · simp [hy]
        · by_cases hy : y = 1 <;> simp [hx, hy]

theorem bcastShape_comm (a b : List ℕ) : bcastShape a b = bcastShape b a := by
  unfold bcastShape; rw [bcRev_comm]

theorem bcIdx_append2 (a : List ℕ) (x y : ℕ) (li : MIdx) (j k : ℕ) (hj : j < x) (hk : k < y) :
    bcIdx (a ++ [x, y]) (li ++ [j, k]) = bcIdx a li ++ [j, k] := by
  unfold bcIdx
  simp only [List.reverse_append, List.reverse_cons, List.reverse_nil, List.nil_append, 
    List.cons_append, List.zipWith_cons_cons]
  rw [show (if y = 1 then 0 else k) = k by split <;> omega, show (if x = 1 then 0 else j) = j by split <;> omega]
  simp

theorem bcIdx_append_ones (a : List ℕ) (li : MIdx) (j k : ℕ) :
    bcIdx (a ++ [1, 1]) (li ++ [j, k]) = bcIdx a li ++ [0, 0] := by
  unfold bcIdx
  simp only [List.reverse_append, List.reverse_cons, List.reverse_nil, List.nil_append, 
    List.cons_append, List.zipWith_cons_cons]
  simp

theorem bcRev_length {a b sh : List ℕ} (h : bcRev a b = some sh) : a.length ≤ sh.length ∧ b.length ≤ sh.length := by
  induction a generalizing b sh with
  | nil => simp only [bcRev, Option.some.injEq] at h; subst h; simp
  | cons x a ih =>
    cases b with
    | nil => simp only [bcRev, Option.some.injEq] at h; subst h; simp
    | cons y b =>
      simp only [bcRev] at h
      have : ∃ z sh', bcRev a b = some sh' ∧ sh = z :: sh' := by
        split_ifs at h <;> rw [Option.map_eq_some_iff] at h <;> obtain ⟨s, h1, h2⟩ := h <;> exact ⟨_, s, h1, h2.symm⟩
      obtain ⟨z, sh', h1, rfl⟩ := this
      have := ih h1
      simp; omega

theorem bcIdx_length {a sh : List ℕ} {li : MIdx} (h : a.length ≤ sh.length) (hv : ValidIdx sh li) :
    (bcIdx a li).length = a.length := by
  unfold bcIdx
  have := List.Forall₂.length_eq hv
  simp
  omega

/-! ## The constructor -/

theorem Grid.make_ok {lead : List ℕ} {x y : ℕ} {s : ℤ} (v : MIdx → ℂ) (h : 2 * |s| + 1 ≤ x) (h' : 2 * |s| + 1 ≤ y) :
    Grid.make ⟨lead ++ [x, y], v⟩ s = .ok ⟨lead, x, y, s, v⟩ := by
  unfold Grid.make Grid.new
  simp only [List.length_nil, gt_iff_lt, Nat.not_lt_zero, if_false, List.reverse_append, List.reverse_cons,
    List.reverse_nil, List.nil_append, List.cons_append]
  simp only [List.getElem?_nil, Option.none_or, Option.some_or]
  rw [if_neg (by omega), List.reverse_reverse]

theorem Grid.make_few {lead : List ℕ} {x y : ℕ} {s : ℤ} (v : MIdx → ℂ) (h : ¬ (2 * |s| + 1 ≤ x ∧ 2 * |s| + 1 ≤ y)) :
    Grid.make ⟨lead ++ [x, y], v⟩ s = .error .nameError := by
  unfold Grid.make Grid.new
  simp only [List.length_nil, gt_iff_lt, Nat.not_lt_zero, if_false, List.reverse_append, List.reverse_cons,
    List.reverse_nil, List.nil_append, List.cons_append]
  simp only [List.getElem?_nil, Option.none_or, Option.some_or]
  rw [if_pos (by omega)]

/-- **C44.** The constructor, for an array of shape `lead + (n_theta, n_phi)` and a spin weight `s` given as the positional argument,
or as the keyword, or in the metadata of the input (in this order of precedence): it succeeds exactly if there are at least
`2|s|+1` points in each direction, and then keeps the values and has spin weight `s`. -/
theorem C44_new (lead : List ℕ) (n_theta n_phi : ℕ) (v : MIdx → ℂ) (inMeta : Option ℤ) (args : List ℤ) (kw : Option ℤ)
    (s : ℤ) (h : args = [s] ∨ (args = [] ∧ kw = some s) ∨ (args = [] ∧ kw = none ∧ inMeta = some s)) :
    (2 * |s| + 1 ≤ n_theta ∧ 2 * |s| + 1 ≤ n_phi →
      Grid.new ⟨lead ++ [n_theta, n_phi], v⟩ inMeta args kw = .ok ⟨lead, n_theta, n_phi, s, v⟩) ∧
    (¬ (2 * |s| + 1 ≤ n_theta ∧ 2 * |s| + 1 ≤ n_phi) →
      ∃ e, Grid.new ⟨lead ++ [n_theta, n_phi], v⟩ inMeta args kw = .error e) := by
  have hsp : ((args[0]?.or kw).or inMeta) = some s ∧ ¬ args.length > 1 := by
    rcases h with rfl | ⟨rfl, rfl⟩ | ⟨rfl, rfl, rfl⟩ <;> simp
  unfold Grid.new
  simp only [if_neg hsp.2, hsp.1, List.reverse_append, List.reverse_cons,
    List.reverse_nil, List.nil_append, List.cons_append, List.reverse_reverse]
  constructor
  · intro h; rw [if_neg (by omega)]
  · intro h; rw [if_pos (by omega)]; exact ⟨_, rfl⟩

/-- **C44.** Everything else is rejected with ValueError: no spin weight, fewer than two axes, more than one positional argument. -/
theorem C44_new_reject (input : Scalars) (inMeta : Option ℤ) (args : List ℤ) (kw : Option ℤ) :
    (1 < args.length → Grid.new input inMeta args kw = .error .valueError) ∧
    (args = [] → kw = none → inMeta = none → Grid.new input inMeta args kw = .error .valueError) ∧
    (input.shape.length < 2 → Grid.new input inMeta args kw = .error .valueError) := by
  refine ⟨fun h => ?_, ?_, fun h => ?_⟩
  · unfold Grid.new; rw [if_pos h]
  · rintro rfl rfl rfl
    unfold Grid.new
    simp only [List.length_nil, gt_iff_lt, Nat.not_lt_zero, if_false]
    split <;> rfl
  · unfold Grid.new
    split
    · rfl
    · have : input.shape.reverse.length < 2 := by simpa using h
      match hr : input.shape.reverse with
      | [] => rfl
      | [x] => rfl
      | x :: y :: l => rw [hr] at this; simp at this

/-- **C44.** Whatever succeeds yields a Grid with enough points: the invariant holds of every constructed Grid. -/
theorem C44_new_WF {input : Scalars} {inMeta : Option ℤ} {args : List ℤ} {kw : Option ℤ} {g : Grid}
    (h : Grid.new input inMeta args kw = .ok g) : g.WF ∧ g.shape = input.shape ∧ g.val = input.val := by
  unfold Grid.new at h
  split at h
  · cases h
  · simp only at h
    split at h
    · rename_i y x rest hr
      split at h
      · cases h
      · rename_i s _
        split at h
        · cases h
        · rename_i hn
          obtain rfl := Except.ok.inj h
          refine ⟨?_, ?_, rfl⟩
          · unfold Grid.WF; simp only; omega
          · have := congrArg List.reverse hr
            rw [List.reverse_reverse] at this
            rw [this]; simp [Grid.shape]
    · cases h

/-! ## Binary operations on two grids -/

theorem ewise2_grid {op : ℂ → ℂ → ℂ} {f g : Grid} (hs : f.sameGrid g) {sh : List ℕ}
    (hb : bcastShape f.lead g.lead = some sh) :
    ewise2 op f.view g.view = .ok ⟨sh ++ [f.n_theta, f.n_phi],
      fun idx => op (f.val (bcIdx f.shape idx)) (g.val (bcIdx g.shape idx))⟩ := by
  unfold ewise2 Grid.view
  simp only
  have : bcastShape f.shape g.shape = some (sh ++ [f.n_theta, f.n_phi]) := by
    unfold Grid.shape
    rw [← hs.1, ← hs.2, bcastShape_append2, hb]; rfl
  rw [this]

theorem ewise2_grid_none {op : ℂ → ℂ → ℂ} {f g : Grid} (hs : f.sameGrid g) (hb : bcastShape f.lead g.lead = none) :
    ewise2 op f.view g.view = .error .valueError := by
  unfold ewise2 Grid.view
  simp only
  have : bcastShape f.shape g.shape = none := by
    unfold Grid.shape
    rw [← hs.1, ← hs.2, bcastShape_append2, hb]; rfl
  rw [this]

theorem pointwise2_of {op : ℂ → ℂ → ℂ} {f g : Grid} (hs : f.sameGrid g) {sh : List ℕ}
    (hb : bcastShape f.lead g.lead = some sh) (s : ℤ) :
    Pointwise2 op f g ⟨sh, f.n_theta, f.n_phi, s,
      fun idx => op (f.val (bcIdx f.shape idx)) (g.val (bcIdx g.shape idx))⟩ := by
  refine ⟨hb, rfl, rfl, ?_⟩
  intro li j k _ hj hk
  simp only [Grid.at, Grid.shape]
  rw [bcIdx_append2 _ _ _ _ _ _ hj hk, bcIdx_append2 _ _ _ _ _ _ (hs.1 ▸ hj) (hs.2 ▸ hk)]

/-- The two ufuncs that need equal spin weights, with the operation on numbers. -/
inductive SumUfunc : GUfunc → (ℂ → ℂ → ℂ) → Prop
  | add : SumUfunc .add (· + ·)
  | subtract : SumUfunc .subtract (· - ·)

/-- The two ufuncs that combine spin weights, with the operation on numbers and on spin weights. -/
inductive ProdUfunc : GUfunc → (ℂ → ℂ → ℂ) → (ℤ → ℤ → ℤ) → Prop
  | multiply : ProdUfunc .multiply (· * ·) (· + ·)
  | divide : ProdUfunc .divide (· / ·) (· - ·)

/-- The corresponding methods. -/
noncomputable def Grid.method : GUfunc → Grid → GArg → Py Grid
  | .add, g, x => g.add x
  | .subtract, g, x => g.subtract x
  | .multiply, g, x => g.multiply x
  | .divide, g, x => g.divide x
  | _, _, _ => .error .typeError

/-- **C44.** Sums and differences of two grids of equal spin weight, the same grid points and compatible leading axes: the ufunc and
the method return the same Grid, of that spin weight, holding the pointwise result. -/
theorem C44_add_subtract {u : GUfunc} {op : ℂ → ℂ → ℂ} (hu : SumUfunc u op) (f g : Grid) (hf : f.WF)
    (hspin : f.s = g.s) (hs : f.sameGrid g) (hb : (bcastShape f.lead g.lead).isSome) :
    ∃ r, callUfunc u [.grid f, .grid g] none = .ok (r, none) ∧ Grid.method u f (.grid g) = .ok r ∧
      r.WF ∧ r.s = f.s ∧ Pointwise2 op f g r := by
  obtain ⟨sh, hsh⟩ := Option.isSome_iff_exists.1 hb
  refine ⟨⟨sh, f.n_theta, f.n_phi, f.s, _⟩, ?_, ?_, ?_, rfl, pointwise2_of hs hsh f.s⟩
  · cases hu <;>
    · simp only [callUfunc, firstGrid, List.cons_append, Grid.array_ufunc, Bool.false_eq_true, if_false, ne_eq, hspin,
        not_true_eq_false, hs]
      rw [ewise2_grid hs hsh, bind_ok]
      simp only [Grid.finish, npOut, Option.map_none]
      rw [bind_ok, Grid.make_ok _ (hspin ▸ hf.1) (hspin ▸ hf.2)]
      rfl
  · cases hu <;>
    · simp only [Grid.method, Grid.add, Grid.subtract, ne_eq, hspin, not_true_eq_false, if_false, hs]
      rw [ewise2_grid hs hsh, bind_ok, Grid.make_ok _ (hspin ▸ hf.1) (hspin ▸ hf.2)]
  · exact hf

/-- **C44.** Different spin weights cannot be added or subtracted: ValueError, from the operators and from the method `add` (for the
method `subtract` see C45). -/
theorem C44_spin_mismatch {u : GUfunc} {op : ℂ → ℂ → ℂ} (hu : SumUfunc u op) (f g : Grid) (hspin : f.s ≠ g.s)
    (out : Option GArg) :
    callUfunc u [.grid f, .grid g] out = .error .valueError ∧ f.add (.grid g) = .error .valueError := by
  refine ⟨?_, by simp only [Grid.add, if_pos hspin]⟩
  cases hu <;>
    simp only [callUfunc, firstGrid, List.cons_append, Grid.array_ufunc, Bool.false_eq_true, if_false, if_pos hspin]

/-- **C44.** Products and quotients of two grids on the same grid points with compatible leading axes: the spin weights are added
(subtracted) and the result holds the pointwise products (quotients), provided the grid has enough points for the new spin
weight; otherwise the constructor raises. -/
theorem C44_multiply_divide {u : GUfunc} {op : ℂ → ℂ → ℂ} {sp : ℤ → ℤ → ℤ} (hu : ProdUfunc u op sp) (f g : Grid)
    (hs : f.sameGrid g) (hb : (bcastShape f.lead g.lead).isSome) :
    (2 * |sp f.s g.s| + 1 ≤ f.n_theta ∧ 2 * |sp f.s g.s| + 1 ≤ f.n_phi →
      ∃ r, callUfunc u [.grid f, .grid g] none = .ok (r, none) ∧ Grid.method u f (.grid g) = .ok r ∧
        r.WF ∧ r.s = sp f.s g.s ∧ Pointwise2 op f g r) ∧
    (¬ (2 * |sp f.s g.s| + 1 ≤ f.n_theta ∧ 2 * |sp f.s g.s| + 1 ≤ f.n_phi) →
      callUfunc u [.grid f, .grid g] none = .error .nameError ∧ Grid.method u f (.grid g) = .error .nameError) := by
  obtain ⟨sh, hsh⟩ := Option.isSome_iff_exists.1 hb
  constructor
  · intro hn
    refine ⟨⟨sh, f.n_theta, f.n_phi, (sp f.s g.s), _⟩, ?_, ?_, ?_, rfl, pointwise2_of hs hsh (sp f.s g.s)⟩
    · cases hu <;>
      · simp only [callUfunc, firstGrid, List.cons_append, Grid.array_ufunc, Bool.false_eq_true, if_false,
          not_true_eq_false, hs]
        rw [ewise2_grid hs hsh, bind_ok]
        simp only [Grid.finish, npOut, Option.map_none]
        rw [bind_ok, Grid.make_ok _ hn.1 hn.2]
        rfl
    · cases hu <;>
      · simp only [Grid.method, Grid.multiply, Grid.divide, not_true_eq_false, if_false, hs]
        rw [ewise2_grid hs hsh, bind_ok, Grid.make_ok _ hn.1 hn.2]
    · exact hn
  · intro hn
    constructor
    · cases hu <;>
      · simp only [callUfunc, firstGrid, List.cons_append, Grid.array_ufunc, Bool.false_eq_true, if_false,
          not_true_eq_false, hs]
        rw [ewise2_grid hs hsh, bind_ok]
        simp only [Grid.finish, npOut, Option.map_none]
        rw [bind_ok, Grid.make_few _ hn]
        rfl
    · cases hu <;>
      · simp only [Grid.method, Grid.multiply, Grid.divide, not_true_eq_false, if_false, hs]
        rw [ewise2_grid hs hsh, bind_ok, Grid.make_few _ hn]

/-- **C44.** Grids with different numbers of points, or whose leading axes do not broadcast, are never combined: ValueError (for equal
spin weights, when adding or subtracting). -/
theorem C44_shape_mismatch (u : GUfunc) (hu : u = .add ∨ u = .subtract ∨ u = .multiply ∨ u = .divide) (f g : Grid)
    (hspin : f.s = g.s ∨ u = .multiply ∨ u = .divide)
    (h : ¬ f.sameGrid g ∨ (f.sameGrid g ∧ bcastShape f.lead g.lead = none)) (out : Option GArg) :
    callUfunc u [.grid f, .grid g] out = .error .valueError ∧ Grid.method u f (.grid g) = .error .valueError := by
  rcases h with h | ⟨h, hb⟩
  · rcases hu with rfl | rfl | rfl | rfl
    · have hsp : f.s = g.s := by simpa using hspin
      simp [callUfunc, firstGrid, Grid.array_ufunc, Grid.method, Grid.add, hsp, h]
    · have hsp : f.s = g.s := by simpa using hspin
      simp [callUfunc, firstGrid, Grid.array_ufunc, Grid.method, Grid.subtract, hsp, h]
    · simp [callUfunc, firstGrid, Grid.array_ufunc, Grid.method, Grid.multiply, h]
    · simp [callUfunc, firstGrid, Grid.array_ufunc, Grid.method, Grid.divide, h]
  · rcases hu with rfl | rfl | rfl | rfl
    · have hsp : f.s = g.s := by simpa using hspin
      simp only [callUfunc, firstGrid, List.cons_append, Grid.array_ufunc, Grid.method, Grid.add, ne_eq, hsp,
        not_true_eq_false, h, if_false, Bool.false_eq_true]
      rw [ewise2_grid_none h hb]; exact ⟨rfl, rfl⟩
    · have hsp : f.s = g.s := by simpa using hspin
      simp only [callUfunc, firstGrid, List.cons_append, Grid.array_ufunc, Grid.method, Grid.subtract, ne_eq, hsp,
        not_true_eq_false, h, if_false, Bool.false_eq_true]
      rw [ewise2_grid_none h hb]; exact ⟨rfl, rfl⟩
    · simp only [callUfunc, firstGrid, List.cons_append, Grid.array_ufunc, Grid.method, Grid.multiply,
        not_true_eq_false, h, if_false, Bool.false_eq_true]
      rw [ewise2_grid_none h hb]; exact ⟨rfl, rfl⟩
    · simp only [callUfunc, firstGrid, List.cons_append, Grid.array_ufunc, Grid.method, Grid.divide,
        not_true_eq_false, h, if_false, Bool.false_eq_true]
      rw [ewise2_grid_none h hb]; exact ⟨rfl, rfl⟩

/-! ## One argument -/

/-- The ufuncs of one grid: the operation on numbers, and the spin weight of the result. -/
inductive UnaryUfunc : GUfunc → (ℂ → ℂ) → (ℤ → ℤ) → Prop
  | positive : UnaryUfunc .positive (fun z => z) (fun s => s)
  | negative : UnaryUfunc .negative (fun z => -z) (fun s => s)
  | conj : UnaryUfunc .conj (fun z => conj z) (fun s => -s)
  | absolute : UnaryUfunc .absolute (fun z => (‖z‖ : ℂ)) (fun _ => 0)
  | square : UnaryUfunc .square (fun z => z ^ 2) (fun s => s * 2)
  | reciprocal : UnaryUfunc .reciprocal (fun z => z⁻¹) (fun s => -s)

theorem finish_view {op : ℂ → ℂ} {g : Grid} {s : ℤ} (h : 2 * |s| + 1 ≤ g.n_theta) (h' : 2 * |s| + 1 ≤ g.n_phi) :
    Grid.finish (ewise1 op g.view) s none
      = .ok (⟨g.lead, g.n_theta, g.n_phi, s, fun idx => op (g.val idx)⟩, none) := by
  simp only [Grid.finish, npOut, Option.map_none, ewise1, Grid.view, Grid.shape]
  rw [bind_ok, Grid.make_ok _ h h']
  rfl

/-- **C44.** `positive`, `negative`, `conjugate`, `absolute`, `square`, `reciprocal` of a Grid act pointwise; the spin weight is kept, kept,
negated, zero, doubled, negated. -/
theorem C44_unary {u : GUfunc} {op : ℂ → ℂ} {sp : ℤ → ℤ} (hu : UnaryUfunc u op sp) (g : Grid)
    (hn : 2 * |sp g.s| + 1 ≤ g.n_theta ∧ 2 * |sp g.s| + 1 ≤ g.n_phi) :
    ∃ r, callUfunc u [.grid g] none = .ok (r, none) ∧ r.WF ∧ r.s = sp g.s ∧ Pointwise1 op g r := by
  refine ⟨⟨g.lead, g.n_theta, g.n_phi, sp g.s, fun idx => op (g.val idx)⟩, ?_, hn, rfl, rfl, rfl, rfl,
    fun _ _ _ => rfl⟩
  have e : g.view = ewise1 (fun z => z) g.view := rfl
  cases hu <;> simp only [callUfunc, firstGrid, List.cons_append, Grid.array_ufunc, Bool.false_eq_true, if_false]
  · rw [e]; exact finish_view hn.1 hn.2
  all_goals exact finish_view hn.1 hn.2

/-- For every Grid satisfying the invariant, the spin weight rules of the ufuncs other than `square` need no more points. -/
theorem C44_unary_enough {u : GUfunc} {op : ℂ → ℂ} {sp : ℤ → ℤ} (hu : UnaryUfunc u op sp) (hsq : u ≠ .square) (g : Grid)
    (hg : g.WF) : 2 * |sp g.s| + 1 ≤ g.n_theta ∧ 2 * |sp g.s| + 1 ≤ g.n_phi := by
  obtain ⟨h1, h2⟩ := hg
  have := abs_nonneg g.s
  cases hu
  · exact ⟨h1, h2⟩
  · exact ⟨h1, h2⟩
  · rw [abs_neg]; exact ⟨h1, h2⟩
  · simp only [abs_zero]; omega
  · exact absurd rfl hsq
  · rw [abs_neg]; exact ⟨h1, h2⟩

/-- **C44.** The methods `conjugate` (also in place), `absolute`, and `real`, `imag` for spin weight 0; `real` and `imag` of any other
spin weight raise ValueError. -/
theorem C44_methods (g : Grid) (hg : g.WF) :
    (∀ b, ∃ r, g.conjugate b = .ok r ∧ r.WF ∧ r.s = -g.s ∧ Pointwise1 (fun z => conj z) g r) ∧
    (∃ r, g.absolute = .ok r ∧ r.WF ∧ r.s = 0 ∧ Pointwise1 (fun z => (‖z‖ : ℂ)) g r) ∧
    (g.s = 0 → (∃ r, g.real = .ok r ∧ r.WF ∧ r.s = 0 ∧ Pointwise1 (fun z => (z.re : ℂ)) g r) ∧
      (∃ r, g.imag = .ok r ∧ r.WF ∧ r.s = 0 ∧ Pointwise1 (fun z => (z.im : ℂ)) g r)) ∧
    (g.s ≠ 0 → g.real = .error .valueError ∧ g.imag = .error .valueError) := by
  obtain ⟨h1, h2⟩ := hg
  have h0 := abs_nonneg g.s
  refine ⟨?_, ?_, ?_, ?_⟩
  · intro b
    refine ⟨⟨g.lead, g.n_theta, g.n_phi, -g.s, fun idx => conj (g.val idx)⟩, ?_, ?_, rfl, rfl, rfl, rfl,
      fun _ _ _ => rfl⟩
    · cases b
      · unfold Grid.conjugate
        simp only [Bool.false_eq_true, if_false, ewise1, Grid.view, Grid.shape]
        rw [Grid.make_ok _ (by rwa [abs_neg]) (by rwa [abs_neg])]
      · rfl
    · unfold Grid.WF; simp only [abs_neg]; exact ⟨h1, h2⟩
  · refine ⟨⟨g.lead, g.n_theta, g.n_phi, 0, fun idx => (‖g.val idx‖ : ℂ)⟩, ?_, ?_, rfl, rfl, rfl, rfl,
      fun _ _ _ => rfl⟩
    · unfold Grid.absolute
      simp only [ewise1, Grid.view, Grid.shape]
      rw [Grid.make_ok _ (by simp; omega) (by simp; omega)]
    · unfold Grid.WF; simp only [abs_zero]; omega
  · intro hs
    rw [hs] at h1 h2
    refine ⟨⟨⟨g.lead, g.n_theta, g.n_phi, 0, fun idx => ((g.val idx).re : ℂ)⟩, ?_, ⟨h1, h2⟩, rfl, rfl, rfl, rfl,
      fun _ _ _ => rfl⟩, ⟨⟨g.lead, g.n_theta, g.n_phi, 0, fun idx => ((g.val idx).im : ℂ)⟩, ?_, ⟨h1, h2⟩, rfl, rfl, rfl,
      rfl, fun _ _ _ => rfl⟩⟩
    · unfold Grid.real
      rw [if_neg (by simpa using hs)]
      simp only [ewise1, Grid.view, Grid.shape, hs]
      rw [Grid.make_ok _ h1 h2]
    · unfold Grid.imag
      rw [if_neg (by simpa using hs)]
      simp only [ewise1, Grid.view, Grid.shape, hs]
      rw [Grid.make_ok _ h1 h2]
  · intro hs
    unfold Grid.real Grid.imag
    rw [if_pos hs, if_pos hs]
    exact ⟨rfl, rfl⟩

/-- **C44.** `np.sqrt` needs an even spin weight and halves it; `np.power` with an integer exponent multiplies the spin weight. -/
theorem C44_sqrt_power (g : Grid) (hg : g.WF) :
    (g.s % 2 = 0 → ∃ r, callUfunc .sqrt [.grid g] none = .ok (r, none) ∧ r.WF ∧ 2 * r.s = g.s ∧
      r.lead = g.lead ∧ ∀ li j k, (r.at li j k) ^ 2 = g.at li j k) ∧
    (g.s % 2 ≠ 0 → callUfunc .sqrt [.grid g] none = .error .typeError) ∧
    (∀ n : ℤ, 2 * |n * g.s| + 1 ≤ g.n_theta ∧ 2 * |n * g.s| + 1 ≤ g.n_phi →
      ∃ r, callUfunc .power [.grid g, .num n] none = .ok (r, none) ∧ r.WF ∧ r.s = n * g.s ∧
        Pointwise1 (fun z => z ^ n) g r) := by
  obtain ⟨h1, h2⟩ := hg
  refine ⟨fun hs => ?_, fun hs => ?_, fun n hn => ?_⟩
  · have hab : 2 * |g.s / 2| + 1 ≤ 2 * |g.s| + 1 := by
      have : |g.s| = 2 * |g.s / 2| := by
        rw [show g.s = 2 * (g.s / 2) by omega, abs_mul]
        rw [show 2 * (g.s / 2) / 2 = g.s / 2 by omega]; rfl
      have := abs_nonneg (g.s / 2)
      omega
    refine ⟨⟨g.lead, g.n_theta, g.n_phi, g.s / 2, fun idx => (g.val idx) ^ ((1 : ℂ) / 2)⟩, ?_, ⟨hab.trans h1, hab.trans h2⟩,
      by simp only; omega, rfl, ?_⟩
    · simp only [callUfunc, firstGrid, List.cons_append, Grid.array_ufunc, Bool.false_eq_true, if_false, ne_eq, hs,
        not_true_eq_false]
      exact finish_view (hab.trans h1) (hab.trans h2)
    · intro li j k
      simp only [Grid.at]
      rw [one_div]
      exact_mod_cast Complex.cpow_nat_inv_pow (g.val (li ++ [j, k])) (n := 2) (by norm_num)
  · simp only [callUfunc, firstGrid, List.cons_append, Grid.array_ufunc, Bool.false_eq_true, if_false, if_pos hs]
  · have ht : truncR (n : ℝ) = n := by unfold truncR; split <;> simp
    refine ⟨⟨g.lead, g.n_theta, g.n_phi, n * g.s, fun idx => (g.val idx) ^ n⟩, ?_, hn, rfl, rfl, rfl, rfl,
      fun _ _ _ => rfl⟩
    simp only [callUfunc, firstGrid, List.cons_append, Grid.array_ufunc, Bool.false_eq_true, if_false, ht]
    exact finish_view hn.1 hn.2

/-! ## A grid and numbers -/

theorem ewise2_scalar {op : ℂ → ℂ → ℂ} {g : Grid} {a : Scalars} {sh : List ℕ}
    (hb : bcastShape g.lead a.shape = some sh) :
    ewise2 op g.view (newaxis2 a) = .ok ⟨sh ++ [g.n_theta, g.n_phi],
      fun idx => op (g.val (bcIdx g.shape idx)) (a.val ((bcIdx (a.shape ++ [1, 1]) idx).take a.shape.length))⟩ ∧
    ewise2 op (newaxis2 a) g.view = .ok ⟨sh ++ [g.n_theta, g.n_phi],
      fun idx => op (a.val ((bcIdx (a.shape ++ [1, 1]) idx).take a.shape.length)) (g.val (bcIdx g.shape idx))⟩ := by
  have h1 : bcastShape g.shape (a.shape ++ [1, 1]) = some (sh ++ [g.n_theta, g.n_phi]) := by
    unfold Grid.shape; rw [bcastShape_append_ones, hb]; rfl
  unfold ewise2 Grid.view newaxis2
  simp only
  rw [h1, bcastShape_comm (a.shape ++ [1, 1]), h1]
  exact ⟨rfl, rfl⟩

theorem pointwiseS_of {op : ℂ → ℂ → ℂ} {g : Grid} {a : Scalars} {sh : List ℕ}
    (hb : bcastShape g.lead a.shape = some sh) (s : ℤ) :
    PointwiseS op g a ⟨sh, g.n_theta, g.n_phi, s, fun idx =>
      op (g.val (bcIdx g.shape idx)) (a.val ((bcIdx (a.shape ++ [1, 1]) idx).take a.shape.length))⟩ := by
  refine ⟨hb, rfl, rfl, ?_⟩
  intro li j k hv hj hk
  simp only [Grid.at, Grid.shape]
  rw [bcIdx_append2 _ _ _ _ _ _ hj hk, bcIdx_append_ones]
  have hl : a.shape.length ≤ sh.length := by
    unfold bcastShape at hb
    rw [Option.map_eq_some_iff] at hb
    obtain ⟨r, h1, rfl⟩ := hb
    have := (bcRev_length h1).2
    simpa using this
  rw [List.take_left' (bcIdx_length hl hv)]

/-- Not a Grid. -/
def GArg.plain : GArg → Prop
  | .grid _ => False
  | _ => True

theorem check_ok {g : Grid} {a : Scalars} (hl : a.shape.length ≤ g.lead.length) {sh : List ℕ}
    (hb : bcastShape g.lead a.shape = some sh) : g.check_broadcasting a = .ok true := by
  unfold Grid.check_broadcasting
  rw [if_neg (by omega), hb]; rfl

/-- **C44.** Multiplying or dividing by numbers that broadcast against the leading axes: each function is scaled as a whole and the spin
weight is kept; dividing numbers by a Grid negates it. -/
theorem C44_scalar_products (g : Grid) (hg : g.WF) (x : GArg) (hx : x.plain)
    (hl : x.scalars.shape.length ≤ g.lead.length) (hb : (bcastShape g.lead x.scalars.shape).isSome) :
    (∃ r, callUfunc .multiply [.grid g, x] none = .ok (r, none) ∧ r.WF ∧ r.s = g.s ∧
      PointwiseS (· * ·) g x.scalars r) ∧
    (∃ r, callUfunc .multiply [x, .grid g] none = .ok (r, none) ∧ r.WF ∧ r.s = g.s ∧
      PointwiseS (fun z w => w * z) g x.scalars r) ∧
    (∃ r, callUfunc .divide [.grid g, x] none = .ok (r, none) ∧ r.WF ∧ r.s = g.s ∧
      PointwiseS (· / ·) g x.scalars r) ∧
    (∃ r, callUfunc .divide [x, .grid g] none = .ok (r, none) ∧ r.WF ∧ r.s = -g.s ∧
      PointwiseS (fun z w => w / z) g x.scalars r) := by
  obtain ⟨sh, hsh⟩ := Option.isSome_iff_exists.1 hb
  have hc := check_ok hl hsh
  have key : ∀ (v : MIdx → ℂ) (s : ℤ), |s| = |g.s| →
      Grid.finish ⟨sh ++ [g.n_theta, g.n_phi], v⟩ s none = .ok (⟨sh, g.n_theta, g.n_phi, s, v⟩, none) := by
    intro v s hs
    simp only [Grid.finish, npOut, Option.map_none]
    rw [bind_ok, Grid.make_ok _ (hs ▸ hg.1) (hs ▸ hg.2)]; rfl
  have hnot : ∀ (y : Grid), x ≠ .grid y := by rintro y rfl; exact hx
  refine ⟨⟨⟨sh, g.n_theta, g.n_phi, g.s, _⟩, ?_, ?_, rfl, pointwiseS_of hsh g.s⟩, ⟨⟨sh, g.n_theta, g.n_phi, g.s, _⟩, ?_, ?_, rfl, pointwiseS_of (op := fun z w => w * z) hsh g.s⟩,
    ⟨⟨sh, g.n_theta, g.n_phi, g.s, _⟩, ?_, ?_, rfl, pointwiseS_of hsh g.s⟩, ⟨⟨sh, g.n_theta, g.n_phi, (-g.s), _⟩, ?_, ?_, rfl, pointwiseS_of (op := fun z w => w / z) hsh (-g.s)⟩⟩
  · cases x with
    | grid y => exact absurd rfl (hnot y)
    | arr a =>
      simp only [callUfunc, firstGrid, List.cons_append, Grid.array_ufunc, Bool.false_eq_true, if_false]
      rw [hc, bind_ok, if_pos rfl, (ewise2_scalar hsh).1, bind_ok, key _ _ rfl]
    | num t =>
      simp only [callUfunc, firstGrid, List.cons_append, Grid.array_ufunc, Bool.false_eq_true, if_false]
      rw [hc, bind_ok, if_pos rfl, (ewise2_scalar hsh).1, bind_ok, key _ _ rfl]
  · exact hg
  · cases x with
    | grid y => exact absurd rfl (hnot y)
    | arr a =>
      simp only [callUfunc, firstGrid, List.cons_append, Grid.array_ufunc, Bool.false_eq_true, if_false]
      rw [hc, bind_ok, if_pos rfl, (ewise2_scalar hsh).2, bind_ok, key _ _ rfl]
    | num t =>
      simp only [callUfunc, firstGrid, List.cons_append, Grid.array_ufunc, Bool.false_eq_true, if_false]
      rw [hc, bind_ok, if_pos rfl, (ewise2_scalar hsh).2, bind_ok, key _ _ rfl]
  · exact hg
  · cases x with
    | grid y => exact absurd rfl (hnot y)
    | arr a =>
      simp only [callUfunc, firstGrid, List.cons_append, Grid.array_ufunc, Bool.false_eq_true, if_false]
      rw [hc, bind_ok, if_pos rfl, (ewise2_scalar hsh).1, bind_ok, key _ _ rfl]
    | num t =>
      simp only [callUfunc, firstGrid, List.cons_append, Grid.array_ufunc, Bool.false_eq_true, if_false]
      rw [hc, bind_ok, if_pos rfl, (ewise2_scalar hsh).1, bind_ok, key _ _ rfl]
  · exact hg
  · cases x with
    | grid y => exact absurd rfl (hnot y)
    | arr a =>
      simp only [callUfunc, firstGrid, List.cons_append, Grid.array_ufunc, Bool.false_eq_true, if_false]
      rw [hc, bind_ok, if_pos rfl, (ewise2_scalar hsh).2, bind_ok, key _ _ (abs_neg _)]
    | num t =>
      simp only [callUfunc, firstGrid, List.cons_append, Grid.array_ufunc, Bool.false_eq_true, if_false]
      rw [hc, bind_ok, if_pos rfl, (ewise2_scalar hsh).2, bind_ok, key _ _ (abs_neg _)]
  · exact ⟨by simpa using hg.1, by simpa using hg.2⟩

/-- **C44.** Adding numbers: allowed (pointwise, spin weight kept) for spin weight 0 or if all the numbers are zero; otherwise the
operator raises TypeError and the methods raise ValueError. -/
theorem C44_scalar_sums (g : Grid) (hg : g.WF) (x : GArg) (hx : x.plain) :
    (g.s ≠ 0 → x.scalars.any = true →
      callUfunc .add [.grid g, x] none = .error .typeError ∧ callUfunc .subtract [.grid g, x] none = .error .typeError ∧
      callUfunc .add [x, .grid g] none = .error .typeError ∧ callUfunc .subtract [x, .grid g] none = .error .typeError ∧
      g.add x = .error .valueError ∧ g.subtract x = .error .valueError) ∧
    (g.s = 0 ∨ x.scalars.any = false → x.scalars.shape.length ≤ g.lead.length →
      (bcastShape g.lead x.scalars.shape).isSome →
      (∃ r, callUfunc .add [.grid g, x] none = .ok (r, none) ∧ r.WF ∧ r.s = g.s ∧ PointwiseS (· + ·) g x.scalars r) ∧
      (∃ r, callUfunc .add [x, .grid g] none = .ok (r, none) ∧ r.WF ∧ r.s = g.s ∧
        PointwiseS (fun z w => w + z) g x.scalars r) ∧
      (∃ r, callUfunc .subtract [.grid g, x] none = .ok (r, none) ∧ r.WF ∧ r.s = g.s ∧
        PointwiseS (· - ·) g x.scalars r) ∧
      (∃ r, callUfunc .subtract [x, .grid g] none = .ok (r, none) ∧ r.WF ∧ r.s = g.s ∧
        PointwiseS (fun z w => w - z) g x.scalars r)) := by
  have hnot : ∀ (y : Grid), x ≠ .grid y := by rintro y rfl; exact hx
  constructor
  · intro h1 h2
    have h3 : g.s ≠ 0 ∧ x.scalars.any = true := ⟨h1, h2⟩
    cases x with
    | grid y => exact absurd rfl (hnot y)
    | arr a =>
      simp only [callUfunc, firstGrid, List.cons_append, Grid.array_ufunc, Bool.false_eq_true, if_false, if_pos h3,
        Grid.add, Grid.subtract, and_self]
    | num t =>
      simp only [callUfunc, firstGrid, List.cons_append, Grid.array_ufunc, Bool.false_eq_true, if_false, if_pos h3,
        Grid.add, Grid.subtract, and_self]
  · intro h1 hl hb
    obtain ⟨sh, hsh⟩ := Option.isSome_iff_exists.1 hb
    have hc := check_ok hl hsh
    have h3 : ¬ (g.s ≠ 0 ∧ x.scalars.any = true) := by
      rintro ⟨h4, h5⟩
      rcases h1 with h1 | h1
      · exact h4 h1
      · rw [h1] at h5; cases h5
    have key : ∀ (v : MIdx → ℂ),
        Grid.finish ⟨sh ++ [g.n_theta, g.n_phi], v⟩ g.s none = .ok (⟨sh, g.n_theta, g.n_phi, g.s, v⟩, none) := by
      intro v
      simp only [Grid.finish, npOut, Option.map_none]
      rw [bind_ok, Grid.make_ok _ hg.1 hg.2]; rfl
    refine ⟨⟨⟨sh, g.n_theta, g.n_phi, g.s, _⟩, ?_, ?_, rfl, pointwiseS_of hsh g.s⟩, ⟨⟨sh, g.n_theta, g.n_phi, g.s, _⟩, ?_, ?_, rfl, pointwiseS_of (op := fun z w => w + z) hsh g.s⟩,
      ⟨⟨sh, g.n_theta, g.n_phi, g.s, _⟩, ?_, ?_, rfl, pointwiseS_of hsh g.s⟩, ⟨⟨sh, g.n_theta, g.n_phi, g.s, _⟩, ?_, ?_, rfl, pointwiseS_of (op := fun z w => w - z) hsh g.s⟩⟩
    · cases x with
      | grid y => exact absurd rfl (hnot y)
      | arr a =>
        simp only [callUfunc, firstGrid, List.cons_append, Grid.array_ufunc, Bool.false_eq_true, if_false, if_neg h3]
        rw [hc, bind_ok, if_pos rfl, (ewise2_scalar hsh).1, bind_ok, key]
      | num t =>
        simp only [callUfunc, firstGrid, List.cons_append, Grid.array_ufunc, Bool.false_eq_true, if_false, if_neg h3]
        rw [hc, bind_ok, if_pos rfl, (ewise2_scalar hsh).1, bind_ok, key]
    · exact hg
    · cases x with
      | grid y => exact absurd rfl (hnot y)
      | arr a =>
        simp only [callUfunc, firstGrid, List.cons_append, Grid.array_ufunc, Bool.false_eq_true, if_false, if_neg h3]
        rw [hc, bind_ok, if_pos rfl, (ewise2_scalar hsh).2, bind_ok, key]
      | num t =>
        simp only [callUfunc, firstGrid, List.cons_append, Grid.array_ufunc, Bool.false_eq_true, if_false, if_neg h3]
        rw [hc, bind_ok, if_pos rfl, (ewise2_scalar hsh).2, bind_ok, key]
    · exact hg
    · cases x with
      | grid y => exact absurd rfl (hnot y)
      | arr a =>
        simp only [callUfunc, firstGrid, List.cons_append, Grid.array_ufunc, Bool.false_eq_true, if_false, if_neg h3]
        rw [hc, bind_ok, if_pos rfl, (ewise2_scalar hsh).1, bind_ok, key]
      | num t =>
        simp only [callUfunc, firstGrid, List.cons_append, Grid.array_ufunc, Bool.false_eq_true, if_false, if_neg h3]
        rw [hc, bind_ok, if_pos rfl, (ewise2_scalar hsh).1, bind_ok, key]
    · exact hg
    · cases x with
      | grid y => exact absurd rfl (hnot y)
      | arr a =>
        simp only [callUfunc, firstGrid, List.cons_append, Grid.array_ufunc, Bool.false_eq_true, if_false, if_neg h3]
        rw [hc, bind_ok, if_pos rfl, (ewise2_scalar hsh).2, bind_ok, key]
      | num t =>
        simp only [callUfunc, firstGrid, List.cons_append, Grid.array_ufunc, Bool.false_eq_true, if_false, if_neg h3]
        rw [hc, bind_ok, if_pos rfl, (ewise2_scalar hsh).2, bind_ok, key]
    · exact hg

/-! ## `out=`, keywords, other ufuncs -/

theorem bind_err {α β : Type} (e : PyErr) (f : α → Py β) : ((Except.error e : Py α) >>= f) = .error e := rfl

/-- Every call either raises regardless of `out`, or ends in `Grid.finish`. -/
theorem array_ufunc_cases (self : Grid) (u : GUfunc) (args : List GArg) (kw : Bool) :
    (∃ e, ∀ out, self.array_ufunc u args out kw = .error e) ∨
    (∃ r s, ∀ out, self.array_ufunc u args out kw = Grid.finish r s out) := by
  have aux : ∀ (m : Py Scalars) (s : ℤ), (∃ e, ∀ out, (m >>= fun r => Grid.finish r s out) = .error e) ∨
      (∃ r s', ∀ out, (m >>= fun r => Grid.finish r s out) = Grid.finish r s' out) := by
    intro m s
    cases m with
    | error e => exact .inl ⟨e, fun _ => rfl⟩
    | ok r => exact .inr ⟨r, s, fun _ => rfl⟩
  have aux2 : ∀ (b : Py Bool) (m : Py Scalars) (s : ℤ),
      (∃ e, ∀ out, (b >>= fun ok => if ok = true then (m >>= fun r => Grid.finish r s out) else .error .typeError) = .error e) ∨
      (∃ r s', ∀ out, (b >>= fun ok => if ok = true then (m >>= fun r => Grid.finish r s out) else .error .typeError)
        = Grid.finish r s' out) := by
    intro b m s
    cases b with
    | error e => exact .inl ⟨e, fun _ => rfl⟩
    | ok b =>
      cases b with
      | false => exact .inl ⟨_, fun _ => rfl⟩
      | true => exact aux m s
  cases kw with
  | true => cases u <;> exact .inl ⟨_, fun _ => rfl⟩
  | false =>
    have fin : ∀ r s, (∃ e, ∀ out, Grid.finish r s out = .error e) ∨ (∃ r' s', ∀ out, Grid.finish r s out = Grid.finish r' s' out) :=
      fun r s => .inr ⟨r, s, fun _ => rfl⟩
    rcases args with _ | ⟨a, _ | ⟨b, _ | ⟨c, l⟩⟩⟩
    · cases u <;> first | exact .inl ⟨_, fun _ => rfl⟩ | exact fin _ _
    · cases u <;> cases a <;> first
        | exact .inl ⟨_, fun _ => rfl⟩
        | exact fin _ _
        | (simp only [Grid.array_ufunc, Bool.false_eq_true, if_false]
           split <;> first | exact .inl ⟨_, fun _ => rfl⟩ | exact fin _ _)
    · cases u <;> cases a <;> cases b <;> first
        | exact .inl ⟨_, fun _ => rfl⟩
        | exact fin _ _
        | (simp only [Grid.array_ufunc, Bool.false_eq_true, if_false]
           first
             | exact aux2 _ _ _
             | (split
                · exact .inl ⟨_, fun _ => rfl⟩
                · first
                  | exact aux2 _ _ _
                  | exact aux _ _
                  | (split
                     · exact .inl ⟨_, fun _ => rfl⟩
                     · exact aux _ _)))
    · cases u <;> cases a <;> cases b <;> first | exact .inl ⟨_, fun _ => rfl⟩ | exact fin _ _

theorem finish_ok {r : Scalars} {s : ℤ} {out o : Option GArg} {g : Grid} (h : Grid.finish r s out = .ok (g, o)) :
    ∃ v, npOut r (out.map GArg.scalars) = .ok v ∧ Grid.make v s = .ok g := by
  unfold Grid.finish at h
  cases hv : npOut r (out.map GArg.scalars) with
  | error e => rw [hv] at h; cases h
  | ok v =>
    rw [hv, bind_ok] at h
    cases hg : Grid.make v s with
    | error e => rw [hg] at h; cases h
    | ok g' =>
      rw [hg, bind_ok] at h
      refine ⟨v, rfl, ?_⟩
      rw [hg]
      cases out with
      | none => cases h; rfl
      | some o' => cases o' <;> first | (cases h; rfl) | cases h

/-- **C44.** Whatever ufunc succeeds on whatever operands, the result has enough points for its spin weight. -/
theorem C44_ufunc_WF {u : GUfunc} {args : List GArg} {out : Option GArg} {kw : Bool} {g : Grid} {o : Option GArg}
    (h : callUfunc u args out kw = .ok (g, o)) : g.WF := by
  unfold callUfunc at h
  split at h
  · rename_i self _
    rcases array_ufunc_cases self u args kw with ⟨e, he⟩ | ⟨r, s, hr⟩
    · rw [he] at h; cases h
    · rw [hr] at h
      obtain ⟨v, _, h2⟩ := finish_ok h
      exact (C44_new_WF h2).1
  · cases h

theorem make_spin {v : Scalars} {s : ℤ} {g : Grid} (h : Grid.make v s = .ok g) : g.s = s := by
  unfold Grid.make Grid.new at h
  simp only [List.length_nil, gt_iff_lt, Nat.not_lt_zero, if_false] at h
  split at h
  · simp only [List.getElem?_nil, Option.none_or, Option.some_or] at h
    split at h
    · cases h
    · exact (Except.ok.inj h) ▸ rfl
  · cases h

theorem make_val {v : Scalars} {s : ℤ} {g : Grid} (h : Grid.make v s = .ok g) (w : MIdx → ℂ) :
    Grid.make ⟨v.shape, w⟩ s = .ok { g with val := w } := by
  unfold Grid.make Grid.new at h ⊢
  simp only [List.length_nil, gt_iff_lt, Nat.not_lt_zero, if_false] at h ⊢
  split at h
  · simp only [List.getElem?_nil, Option.none_or, Option.some_or] at h ⊢
    split at h
    · cases h
    · rename_i hn
      rw [if_neg hn]
      exact congrArg Except.ok ((Except.ok.inj h) ▸ rfl)
  · cases h

theorem firstGrid_append {l : List GArg} {g : Grid} (h : firstGrid l = some g) (m : List GArg) :
    firstGrid (l ++ m) = some g := by
  induction l with
  | nil => cases h
  | cons a l ih =>
    cases a with
    | grid x => exact h
    | arr x => exact ih h
    | num x => exact ih h

/-- **C44.** `out=`: whenever the call succeeds without `out`, with result `r`, it succeeds with a Grid `o` of the same shape as `out`,
whatever `o` held and whatever its spin weight was (`o` may be one of the operands): the returned Grid and `o` afterwards both
hold the values of `r` and both have its spin weight. -/
theorem C44_out {u : GUfunc} {args : List GArg} {r : Grid} (h : callUfunc u args none = .ok (r, none)) (o : Grid)
    (hsh : o.shape = r.shape) :
    ∃ r' o', callUfunc u args (some (.grid o)) = .ok (r', some (.grid o')) ∧
      r'.s = r.s ∧ o'.s = r.s ∧ r'.shape = r.shape ∧ o'.shape = r.shape ∧
      ∀ idx, ValidIdx r.shape idx → r'.val idx = r.val idx ∧ o'.val idx = r.val idx := by
  unfold callUfunc at h ⊢
  simp only [Option.toList, List.append_nil] at h
  split at h
  · rename_i self hself
    simp only [Option.toList]
    rw [firstGrid_append hself]
    simp only
    rcases array_ufunc_cases self u args false with ⟨e, he⟩ | ⟨v, s, hr⟩
    · rw [he] at h; cases h
    · rw [hr] at h ⊢
      obtain ⟨w, h1, h2⟩ := finish_ok h
      obtain rfl : v = w := Except.ok.inj h1
      obtain ⟨_, h4, h5⟩ := C44_new_WF h2
      have h6 := make_spin h2
      have hvo : v.shape = o.shape := by rw [hsh, h4]
      refine ⟨{ r with val := fun idx => v.val (bcIdx v.shape idx) },
        { o with val := fun idx => v.val (bcIdx v.shape idx), s := s }, ?_, rfl, h6.symm, rfl, hsh, ?_⟩
      · unfold Grid.finish npOut
        simp only [Option.map_some, GArg.scalars, Grid.view]
        rw [if_pos (by rw [hvo]; exact bcastShape_self _), bind_ok, ← hvo, make_val h2, bind_ok]
        rfl
      · intro idx hidx
        rw [h4] at hidx
        simp only
        rw [bcIdx_self hidx, h5]
        exact ⟨rfl, rfl⟩
  · cases h

/-- **C44.** Leftover keywords raise NotImplementedError, unsupported ufuncs TypeError. -/
theorem C44_unsupported (args : List GArg) (out : Option GArg) (kw : Bool) (g : Grid)
    (hg : firstGrid (args ++ out.toList) = some g) :
    (∀ u, u ≠ .other → callUfunc u args out true = .error .notImplementedError) ∧
    callUfunc .other args out kw = .error .typeError := by
  unfold callUfunc
  rw [hg]
  refine ⟨?_, rfl⟩
  intro u hu
  cases u <;> first | rfl | exact absurd rfl hu

/-- **C44.** An array with more axes than the Grid has leading ones never meets the individual grid values: products and quotients with
it, in either order, raise ValueError, and sums and differences never return; if it has few enough axes but does not broadcast
against the leading ones, the operators raise TypeError and the methods ValueError. -/
theorem C44_array_rejected (g : Grid) (a : Scalars) :
    (g.lead.length < a.shape.length →
      (∀ u, u = .multiply ∨ u = .divide → ∀ out, callUfunc u [.grid g, .arr a] out = .error .valueError ∧
        callUfunc u [.arr a, .grid g] out = .error .valueError) ∧
      (∀ u, u = .add ∨ u = .subtract → ∀ out r, callUfunc u [.grid g, .arr a] out ≠ .ok r ∧
        callUfunc u [.arr a, .grid g] out ≠ .ok r) ∧
      g.multiply (.arr a) = .error .valueError ∧ g.divide (.arr a) = .error .valueError) ∧
    (a.shape.length ≤ g.lead.length → bcastShape g.lead a.shape = none →
      (∀ u, u = .multiply ∨ u = .divide ∨ u = .add ∨ u = .subtract → ∀ out,
        callUfunc u [.grid g, .arr a] out = .error .typeError ∧ callUfunc u [.arr a, .grid g] out = .error .typeError) ∧
      g.multiply (.arr a) = .error .valueError ∧ g.divide (.arr a) = .error .valueError) := by
  constructor
  · intro h
    have hc : g.check_broadcasting (GArg.arr a).scalars = .error .valueError := if_pos h
    refine ⟨?_, ?_, ?_, ?_⟩
    · rintro u (rfl | rfl) out <;> constructor <;>
        simp only [callUfunc, firstGrid, List.cons_append, Grid.array_ufunc, Bool.false_eq_true, if_false] <;>
        rw [hc] <;> rfl
    · rintro u (rfl | rfl) out r <;> constructor <;>
        simp only [callUfunc, firstGrid, List.cons_append, Grid.array_ufunc, Bool.false_eq_true, if_false] <;>
        rw [hc] <;> (intro hr; by_cases hz : g.s ≠ 0 ∧ (GArg.arr a).scalars.any = true <;> [rw [if_pos hz] at hr; rw [if_neg hz] at hr] <;> cases hr)
    · simp only [Grid.multiply]; rw [hc]; rfl
    · simp only [Grid.divide]; rw [hc]; rfl
  · intro h hb
    have hc : g.check_broadcasting (GArg.arr a).scalars = .ok false := by
      unfold Grid.check_broadcasting
      rw [if_neg (by simp only [GArg.scalars]; omega)]; simp only [GArg.scalars]; rw [hb]; rfl
    refine ⟨?_, ?_, ?_⟩
    · rintro u (rfl | rfl | rfl | rfl) out <;> constructor <;>
        simp only [callUfunc, firstGrid, List.cons_append, Grid.array_ufunc, Bool.false_eq_true, if_false] <;>
        rw [hc] <;> first | rfl | (by_cases hz : g.s ≠ 0 ∧ (GArg.arr a).scalars.any = true <;> [rw [if_pos hz]; rw [if_neg hz]] <;> rfl)
    · simp only [Grid.multiply]; rw [hc]; rfl
    · simp only [Grid.divide]; rw [hc]; rfl

/-- Two functions on a `5 × 5` grid and a full array of weights; and three numbers for two functions. -/
example : (⟨[2], 5, 5, 1, fun _ => 1⟩ : Grid).lead.length < (⟨[2, 5, 5], fun _ => 1⟩ : Scalars).shape.length ∧
    bcastShape [2] [3] = none := by decide

/-! ## C45: the error paths -/

/-- **C45 (violated).** Too few points: `NameError`, not the documented ValueError. -/
theorem C45_too_few_points (lead : List ℕ) (n_theta n_phi : ℕ) (v : MIdx → ℂ) (inMeta : Option ℤ) (s : ℤ)
    (kw : Option ℤ) (h : ¬ (2 * |s| + 1 ≤ n_theta ∧ 2 * |s| + 1 ≤ n_phi)) :
    Grid.new ⟨lead ++ [n_theta, n_phi], v⟩ inMeta [s] kw = .error .nameError := by
  unfold Grid.new
  simp only [List.length_singleton, gt_iff_lt, Nat.lt_irrefl, if_false, List.reverse_append, List.reverse_cons,
    List.reverse_nil, List.nil_append, List.cons_append]
  simp only [List.getElem?_cons_zero, Option.some_or]
  rw [if_pos (by omega)]

/-- **C45 (violated).** The method `subtract` with different spin weights: `NameError`; `modes` never returns; neither does `__reduce__`
(used by pickle and copy). -/
theorem C45_undefined_names (f g : Grid) :
    (f.s ≠ g.s → f.subtract (.grid g) = .error .nameError) ∧
    (∀ L, ∃ e, f.modes L = .error e ∧ e ≠ .valueError) ∧
    f.reduce = .error .nameError := by
  refine ⟨fun h => by simp only [Grid.subtract, if_pos h], ?_, rfl⟩
  intro L
  unfold Grid.modes
  split
  · exact ⟨_, rfl, by decide⟩
  · split <;> exact ⟨_, rfl, by decide⟩

/-! ## C58: the methods with an array -/

/-- **C58.** With a single number the methods `multiply` and `divide` agree with the operators. -/
theorem C58_single_number (g : Grid) (hg : g.WF) (x : ℝ) :
    ∃ r r', callUfunc .multiply [.grid g, .num x] none = .ok (r, none) ∧ g.multiply (.num x) = .ok r' ∧
      r'.s = r.s ∧ r'.shape = r.shape ∧ (∀ idx, ValidIdx r.shape idx → r'.val idx = r.val idx ∧
        r.val idx = g.val idx * x) := by
  have hb : bcastShape g.lead [] = some g.lead := bcastShape_nil _
  have hb' : bcastShape g.shape [] = some g.shape := bcastShape_nil _
  have hc : g.check_broadcasting (GArg.num x).scalars = .ok true := check_ok (Nat.zero_le _) hb
  refine ⟨⟨g.lead, g.n_theta, g.n_phi, g.s, fun idx => g.val (bcIdx g.shape idx) * x⟩,
    ⟨g.lead, g.n_theta, g.n_phi, g.s, fun idx => g.val (bcIdx g.shape idx) * x⟩, ?_, ?_, rfl, rfl, ?_⟩
  · simp only [callUfunc, firstGrid, List.cons_append, Grid.array_ufunc, Bool.false_eq_true, if_false]
    rw [hc, bind_ok, if_pos rfl, (ewise2_scalar (a := (GArg.num x).scalars) hb).1, bind_ok]
    simp only [Grid.finish, npOut, Option.map_none]
    rw [bind_ok, Grid.make_ok _ hg.1 hg.2]; rfl
  · simp only [Grid.multiply]
    rw [hc, bind_ok, if_pos rfl]
    simp only [ewise2, Grid.view, GArg.scalars]
    rw [hb', bind_ok]
    exact Grid.make_ok _ hg.1 hg.2
  · intro idx hidx
    simp only [Grid.shape] at hidx ⊢
    rw [bcIdx_self hidx]
    exact ⟨trivial, rfl⟩

/-- **C58 (violated).** One number per function: for `k` functions on a grid with `n_phi = k` the method `multiply` multiplies along
`phi` instead — point `(j, l)` of function `i` by number `l` — while the operator multiplies function `i` by number `i`. -/
theorem C58_misaligned (g : Grid) (hg : g.WF) (k : ℕ) (hk : 1 < k) (hlead : g.lead = [k]) (hphi : g.n_phi = k)
    (a : Scalars) (ha : a.shape = [k]) :
    (∃ r, callUfunc .multiply [.grid g, .arr a] none = .ok (r, none) ∧ r.lead = [k] ∧
      ∀ i j l, i < k → j < g.n_theta → l < g.n_phi → r.at [i] j l = g.at [i] j l * a.val [i]) ∧
    (∃ r, g.multiply (.arr a) = .ok r ∧ r.lead = [k] ∧
      ∀ i j l, i < k → j < g.n_theta → l < g.n_phi → r.at [i] j l = g.at [i] j l * a.val [l]) := by
  have hb : bcastShape g.lead a.shape = some [k] := by rw [hlead, ha, bcastShape_self]
  have hv : ∀ i, i < k → ValidIdx [k] [i] := fun i hi => .cons hi .nil
  constructor
  · obtain ⟨⟨r, h1, _, _, h4⟩, _⟩ := C44_scalar_products g hg (.arr a) trivial
      (by simp [GArg.scalars, hlead, ha]) (by simp only [GArg.scalars]; rw [hb]; rfl)
    obtain ⟨h5, h6, h7, h8⟩ := h4
    have hl : r.lead = [k] := by
      simp only [GArg.scalars] at h5
      rw [hb] at h5; exact (Option.some.inj h5).symm
    refine ⟨r, h1, hl, ?_⟩
    intro i j l hi hj hll
    have := h8 [i] j l (hl ▸ hv i hi) (h6 ▸ hj) (h7 ▸ hll)
    simp only [GArg.scalars] at this
    rw [this, hlead, ha, bcIdx_self (hv i hi)]
  · have hc : g.check_broadcasting (GArg.arr a).scalars = .ok true :=
      check_ok (by simp [GArg.scalars, hlead, ha]) hb
    have hsh : bcastShape g.shape a.shape = some ([k] ++ [g.n_theta, g.n_phi]) := by
      unfold Grid.shape
      rw [hlead, ha, hphi]
      simp [bcastShape, bcRev]
    refine ⟨⟨[k], g.n_theta, g.n_phi, g.s, fun idx => g.val (bcIdx g.shape idx) * a.val (bcIdx a.shape idx)⟩,
      ?_, rfl, ?_⟩
    · simp only [Grid.multiply]
      rw [hc, bind_ok, if_pos rfl]
      simp only [ewise2, Grid.view, GArg.scalars]
      rw [hsh, bind_ok]
      exact Grid.make_ok _ hg.1 hg.2
    · intro i j l hi hj hl
      simp only [Grid.at]
      rw [show bcIdx g.shape ([i] ++ [j, l]) = [i] ++ [j, l] from
        bcIdx_self (by unfold Grid.shape; rw [hlead]; exact .cons hi (.cons hj (.cons hl .nil)))]
      rw [ha]
      have : bcIdx [k] ([i] ++ [j, l]) = [l] := by
        simp [bcIdx]; omega
      rw [this]

/-- **C58 (violated).** For `k ≠ n_phi` functions the method raises, while the operator works. -/
theorem C58_rejected (g : Grid) (k : ℕ) (hk : 1 < k) (hlead : g.lead = [k]) (hphi : g.n_phi ≠ k) (hp : 1 < g.n_phi)
    (a : Scalars) (ha : a.shape = [k]) : g.multiply (.arr a) = .error .valueError := by
  have hb : bcastShape g.lead a.shape = some [k] := by rw [hlead, ha, bcastShape_self]
  have hc : g.check_broadcasting (GArg.arr a).scalars = .ok true :=
    check_ok (by simp [GArg.scalars, hlead, ha]) hb
  have hsh : bcastShape g.shape a.shape = none := by
    unfold Grid.shape
    rw [hlead, ha]
    have h1 : g.n_phi ≠ 1 := by omega
    have h2 : k ≠ 1 := by omega
    simp [bcastShape, bcRev, hphi, h1, h2]
  simp only [Grid.multiply]
  rw [hc, bind_ok, if_pos rfl]
  simp only [ewise2, Grid.view, GArg.scalars]
  rw [hsh]; rfl

/-! ## Concrete grids -/

/-- Two functions of spin weight `s` on a 5 x 5 grid. -/
noncomputable def exGrid (s : ℤ) : Grid :=
  ⟨[2], 5, 5, s, fun idx => (idx.sum : ℂ) + Complex.I⟩

theorem exGrid_WF {s : ℤ} (h : |s| ≤ 2) : (exGrid s).WF := by
  unfold Grid.WF exGrid; simp only; omega

example : ∃ r, callUfunc .add [.grid (exGrid 2), .grid (exGrid 2)] none = .ok (r, none) ∧ r.s = 2 := by
  obtain ⟨r, h, _, _, h2, _⟩ := C44_add_subtract SumUfunc.add (exGrid 2) (exGrid 2) (exGrid_WF (by decide)) rfl ⟨rfl, rfl⟩
    (by rw [bcastShape_self]; rfl)
  exact ⟨r, h, h2⟩

example : ∃ r, callUfunc .multiply [.grid (exGrid 1), .grid (exGrid 1)] none = .ok (r, none) ∧ r.s = 2 ∧
    r.at [1] 2 3 = (6 + Complex.I) * (6 + Complex.I) := by
  obtain ⟨r, h, _, _, h2, h3, h4, h5, h6⟩ := (C44_multiply_divide ProdUfunc.multiply (exGrid 1) (exGrid 1) ⟨rfl, rfl⟩
    (by rw [bcastShape_self]; rfl)).1 (by simp [exGrid])
  refine ⟨r, h, h2, ?_⟩
  have hl : r.lead = [2] := by rw [bcastShape_self] at h3; exact (Option.some.inj h3).symm
  rw [h6 [1] 2 3 (hl ▸ .cons (by norm_num) .nil) (by rw [h4]; norm_num [exGrid]) (by rw [h5]; norm_num [exGrid])]
  have : bcIdx (exGrid 1).lead [1] = [1] := rfl
  rw [this]
  simp [Grid.at, exGrid]
  norm_num

/-- Spin weights 2 + 1 on 5 x 5 points: not enough. -/
example : callUfunc .multiply [.grid (exGrid 2), .grid (exGrid 1)] none = .error .nameError :=
  ((C44_multiply_divide ProdUfunc.multiply (exGrid 2) (exGrid 1) ⟨rfl, rfl⟩
    (by show (bcastShape [2] [2]).isSome = true; rfl)).2 (by simp [exGrid])).1

example : ∃ r, callUfunc .multiply [.grid (exGrid 2), .num 3] none = .ok (r, none) ∧ r.s = 2 := by
  obtain ⟨⟨r, h, _, h2, _⟩, _⟩ := C44_scalar_products (exGrid 2) (exGrid_WF (by decide)) (.num 3) trivial (by simp [GArg.scalars])
    (by simp only [GArg.scalars]; rw [bcastShape_nil]; rfl)
  exact ⟨r, h, h2⟩

end SF
