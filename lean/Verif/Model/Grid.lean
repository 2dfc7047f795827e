import Verif.Model.Modes

/-!
# Model of the `Grid` class (`SWSH_grids/`)

A `Grid` is an ndarray of complex numbers of shape `lead + (n_theta, n_phi)` plus the spin weight.  The data are a function of
the multi-index; only the values at multi-indices valid for the shape are meaningful.

Simplifications: numbers are exact and division is the field operation (what numpy returns for a zero divisor is not modelled);
real and complex dtypes are not distinguished (an `out` array is complex); metadata entries other than `spin_weight` are passed
through unchanged by the code and left out; the comparison and logical ufuncs, which return plain boolean arrays, are in
Model/Compare.lean; ufunc methods other than `__call__` are in Model/UfuncMethods.lean.
-/

set_option autoImplicit false

namespace SF

open ComplexConjugate

/-- A `Grid` object. -/
structure Grid where
  lead : List ℕ
  n_theta : ℕ
  n_phi : ℕ
  s : ℤ
  val : MIdx → ℂ

/-- `self.shape`. -/
def Grid.shape (g : Grid) : List ℕ := g.lead ++ [g.n_theta, g.n_phi]

/-- `self.view(np.ndarray)`. -/
def Grid.view (g : Grid) : Scalars := ⟨g.shape, g.val⟩

/-- `Grid.__new__` — SWSH_grids/__init__.py:76-97.  `inMeta` is the spin weight in `input_array._metadata`, if any; `args` are the
positional arguments after the array; `kw` is the keyword `spin_weight`.  The message of the second-to-last `raise` is an f-string
that uses the undefined name `s`, so that a NameError is raised. -/
def Grid.new (input : Scalars) (inMeta : Option ℤ) (args : List ℤ) (kw : Option ℤ) : Py Grid :=
  if args.length > 1 then .error .valueError
  else
    let spin := (args[0]?.or kw).or inMeta
    match input.shape.reverse with
    | n_phi :: n_theta :: rest =>
      match spin with
      | none => .error .valueError
      | some s =>
        if (n_theta : ℤ) < 2 * |s| + 1 ∨ (n_phi : ℤ) < 2 * |s| + 1 then .error .nameError
        else .ok ⟨rest.reverse, n_theta, n_phi, s, input.val⟩
    | _ => .error .valueError

/-- `type(self)(array, **metadata)` with `metadata['spin_weight'] = s`. -/
def Grid.make (a : Scalars) (s : ℤ) : Py Grid := Grid.new a none [] (some s)

/-! ## numpy -/

/-- An elementwise function of one array. -/
def ewise1 (op : ℂ → ℂ) (a : Scalars) : Scalars := ⟨a.shape, fun idx => op (a.val idx)⟩

/-- An elementwise function of two arrays, with broadcasting. -/
def ewise2 (op : ℂ → ℂ → ℂ) (a b : Scalars) : Py Scalars :=
  match bcastShape a.shape b.shape with
  | none => .error .valueError
  | some sh => .ok ⟨sh, fun idx => op (a.val (bcIdx a.shape idx)) (b.val (bcIdx b.shape idx))⟩

/-- The `out=` argument of a ufunc: the result is broadcast into it. -/
def npOut (r : Scalars) : Option Scalars → Py Scalars
  | none => .ok r
  | some o =>
    if bcastShape r.shape o.shape = some o.shape then .ok ⟨o.shape, fun idx => r.val (bcIdx r.shape idx)⟩
    else .error .valueError

/-- `a[..., np.newaxis, np.newaxis]`. -/
def newaxis2 (a : Scalars) : Scalars := ⟨a.shape ++ [1, 1], fun idx => a.val (idx.take a.shape.length)⟩

/-! ## algebra.py -/

/-- `conjugate` — SWSH_grids/algebra.py:12-26.  In place the object itself is changed and returned, without any check. -/
def Grid.conjugate (g : Grid) (inplace : Bool) : Py Grid :=
  if inplace then .ok { g with val := fun idx => conj (g.val idx), s := -g.s }
  else Grid.make (ewise1 (fun z => conj z) g.view) (-g.s)

/-- `real` — SWSH_grids/algebra.py:35-46. -/
def Grid.real (g : Grid) : Py Grid :=
  if g.s ≠ 0 then .error .valueError else Grid.make (ewise1 (fun z => (z.re : ℂ)) g.view) g.s

/-- `imag` — SWSH_grids/algebra.py:49-60. -/
def Grid.imag (g : Grid) : Py Grid :=
  if g.s ≠ 0 then .error .valueError else Grid.make (ewise1 (fun z => (z.im : ℂ)) g.view) g.s

/-- `absolute` — SWSH_grids/algebra.py:63-67. -/
noncomputable def Grid.absolute (g : Grid) : Py Grid := Grid.make (ewise1 (fun z => (‖z‖ : ℂ)) g.view) 0

/-- An operand: a Grid, an array of numbers, or a real number. -/
inductive GArg
  | grid (g : Grid)
  | arr (a : Scalars)
  | num (x : ℝ)

/-- `np.asanyarray`. -/
def GArg.scalars : GArg → Scalars
  | .grid g => g.view
  | .arr a => a
  | .num x => ⟨[], fun _ => (x : ℂ)⟩

/-- The shape test of the two-grid branches. -/
def Grid.sameGrid (f g : Grid) : Prop := f.n_theta = g.n_theta ∧ f.n_phi = g.n_phi

instance (f g : Grid) : Decidable (f.sameGrid g) := inferInstanceAs (Decidable (_ ∧ _))

/-- `_check_broadcasting` for a non-Grid array — SWSH_grids/utilities.py:51-69 (`reverse` only swaps the arguments of
`np.broadcast`). -/
def Grid.check_broadcasting (g : Grid) (a : Scalars) : Py Bool :=
  if a.shape.length > g.lead.length then .error .valueError
  else .ok (bcastShape g.lead a.shape).isSome

/-- `add` — SWSH_grids/algebra.py:70-83. -/
noncomputable def Grid.add (g : Grid) : GArg → Py Grid
  | .grid h =>
    if g.s ≠ h.s then .error .valueError
    else if ¬ g.sameGrid h then .error .valueError
    else do
      let r ← ewise2 (· + ·) g.view h.view
      Grid.make r g.s
  | other =>
    if g.s ≠ 0 ∧ other.scalars.any = true then .error .valueError
    else do
      let r ← ewise2 (· + ·) g.view other.scalars
      Grid.make r g.s

/-- `subtract` — SWSH_grids/algebra.py:86-98.  The message for different spin weights uses the undefined name `s`. -/
noncomputable def Grid.subtract (g : Grid) : GArg → Py Grid
  | .grid h =>
    if g.s ≠ h.s then .error .nameError
    else if ¬ g.sameGrid h then .error .valueError
    else do
      let r ← ewise2 (· - ·) g.view h.view
      Grid.make r g.s
  | other =>
    if g.s ≠ 0 ∧ other.scalars.any = true then .error .valueError
    else do
      let r ← ewise2 (· - ·) g.view other.scalars
      Grid.make r g.s

/-- `multiply` — SWSH_grids/algebra.py:101-132.  The array is *not* given the two extra axes that the ufunc gives it; the second
test is the same as the first one. -/
noncomputable def Grid.multiply (g : Grid) : GArg → Py Grid
  | .grid h =>
    if ¬ g.sameGrid h then .error .valueError
    else do
      let r ← ewise2 (· * ·) g.view h.view
      Grid.make r (g.s + h.s)
  | other => do
    let b ← g.check_broadcasting other.scalars
    if b then do
      let r ← ewise2 (· * ·) g.view other.scalars
      Grid.make r g.s
    else .error .valueError

/-- `divide` — SWSH_grids/algebra.py:135-164. -/
noncomputable def Grid.divide (g : Grid) : GArg → Py Grid
  | .grid h =>
    if ¬ g.sameGrid h then .error .valueError
    else do
      let r ← ewise2 (· / ·) g.view h.view
      Grid.make r (g.s - h.s)
  | other => do
    let b ← g.check_broadcasting other.scalars
    if b then do
      let r ← ewise2 (· / ·) g.view other.scalars
      Grid.make r g.s
    else .error .valueError

/-! ## utilities.py, pickling -/

/-- `modes` — SWSH_grids/utilities.py:9-34.  Without `ell_max` (or with 0, which is falsy) the undefined names `n_phi`, `n_theta` are
used; otherwise `**metadata` is applied to the function `copy.copy`, after the transform has been computed. -/
def Grid.modes (_g : Grid) (ell_max : Option ℤ) : Py Modes :=
  match ell_max with
  | none => .error .nameError
  | some L => if L = 0 then .error .nameError else .error .typeError

/-- `__reduce__` — SWSH_grids/__init__.py:107-110: `Modes` is not defined in that module. -/
def Grid.reduce (_g : Grid) : Py Unit := .error .nameError

/-! ## ufuncs.py -/

/-- The ufuncs that are supported; `other` is any other one (log, exp, ...). -/
inductive GUfunc
  | positive | negative | add | subtract | multiply | divide | conj | absolute | power | sqrt | square | reciprocal | other
  deriving DecidableEq

/-- Python's `int` of a real number. -/
noncomputable def truncR (x : ℝ) : ℤ := if 0 ≤ x then ⌊x⌋ else ⌈x⌉

/-- The end of each branch: `ufunc(..., out=out_view)`, the constructor, and the new metadata of `out`. -/
def Grid.finish (r : Scalars) (s : ℤ) (out : Option GArg) : Py (Grid × Option GArg) := do
  let v ← npOut r (out.map GArg.scalars)
  let g ← Grid.make v s
  match out with
  | none => return (g, none)
  | some (.grid o) => return (g, some (.grid { o with val := v.val, s := s }))
  | some (.arr a) => return (g, some (.arr { a with val := v.val }))
  | some (.num _) => .error .typeError

/-- `__array_ufunc__(self, ufunc, '__call__', *args, out=out)` — SWSH_grids/ufuncs.py:12-194.  Returning `NotImplemented` is a
TypeError for the caller.  The result is the returned Grid and `out` afterwards.  The exponent of `power` is a real number; arrays with one
element, which `int` also accepts, are not modelled (an array exponent is a TypeError here). -/
noncomputable def Grid.array_ufunc (self : Grid) (u : GUfunc) (args : List GArg) (out : Option GArg) (hasKw : Bool) :
    Py (Grid × Option GArg) :=
  match u with
  | .other => .error .typeError
  | u =>
  if hasKw then .error .notImplementedError
  else match u, args with
  | .positive, _ => Grid.finish self.view self.s out
  | .negative, _ => Grid.finish (ewise1 (fun z => -z) self.view) self.s out
  | .add, [.grid g1, .grid g2] =>
    if g1.s ≠ g2.s then .error .valueError
    else if ¬ g1.sameGrid g2 then .error .valueError
    else do
      let r ← ewise2 (· + ·) g1.view g2.view
      Grid.finish r self.s out
  | .subtract, [.grid g1, .grid g2] =>
    if g1.s ≠ g2.s then .error .valueError
    else if ¬ g1.sameGrid g2 then .error .valueError
    else do
      let r ← ewise2 (· - ·) g1.view g2.view
      Grid.finish r self.s out
  | .add, [.grid g, b] =>
    if g.s ≠ 0 ∧ b.scalars.any = true then .error .typeError
    else do
      let ok ← g.check_broadcasting b.scalars
      if ok then do
        let r ← ewise2 (· + ·) g.view (newaxis2 b.scalars)
        Grid.finish r self.s out
      else .error .typeError
  | .subtract, [.grid g, b] =>
    if g.s ≠ 0 ∧ b.scalars.any = true then .error .typeError
    else do
      let ok ← g.check_broadcasting b.scalars
      if ok then do
        let r ← ewise2 (· - ·) g.view (newaxis2 b.scalars)
        Grid.finish r self.s out
      else .error .typeError
  | .add, [a, .grid g] =>
    if g.s ≠ 0 ∧ a.scalars.any = true then .error .typeError
    else do
      let ok ← g.check_broadcasting a.scalars
      if ok then do
        let r ← ewise2 (· + ·) (newaxis2 a.scalars) g.view
        Grid.finish r self.s out
      else .error .typeError
  | .subtract, [a, .grid g] =>
    if g.s ≠ 0 ∧ a.scalars.any = true then .error .typeError
    else do
      let ok ← g.check_broadcasting a.scalars
      if ok then do
        let r ← ewise2 (· - ·) (newaxis2 a.scalars) g.view
        Grid.finish r self.s out
      else .error .typeError
  | .multiply, [.grid g1, .grid g2] =>
    if ¬ g1.sameGrid g2 then .error .valueError
    else do
      let r ← ewise2 (· * ·) g1.view g2.view
      Grid.finish r (g1.s + g2.s) out
  | .divide, [.grid g1, .grid g2] =>
    if ¬ g1.sameGrid g2 then .error .valueError
    else do
      let r ← ewise2 (· / ·) g1.view g2.view
      Grid.finish r (g1.s - g2.s) out
  | .multiply, [.grid g, b] => do
    let ok ← g.check_broadcasting b.scalars
    if ok then do
      let r ← ewise2 (· * ·) g.view (newaxis2 b.scalars)
      Grid.finish r g.s out
    else .error .typeError
  | .divide, [.grid g, b] => do
    let ok ← g.check_broadcasting b.scalars
    if ok then do
      let r ← ewise2 (· / ·) g.view (newaxis2 b.scalars)
      Grid.finish r g.s out
    else .error .typeError
  | .multiply, [a, .grid g] => do
    let ok ← g.check_broadcasting a.scalars
    if ok then do
      let r ← ewise2 (· * ·) (newaxis2 a.scalars) g.view
      Grid.finish r g.s out
    else .error .typeError
  | .divide, [a, .grid g] => do
    let ok ← g.check_broadcasting a.scalars
    if ok then do
      let r ← ewise2 (· / ·) (newaxis2 a.scalars) g.view
      Grid.finish r (-g.s) out
    else .error .typeError
  | .conj, [.grid g] => Grid.finish (ewise1 (fun z => conj z) g.view) (-g.s) out
  | .absolute, [.grid g] => Grid.finish (ewise1 (fun z => (‖z‖ : ℂ)) g.view) 0 out
  | .power, [.grid g, .num x] =>
    Grid.finish (ewise1 (fun z => z ^ truncR x) g.view) (truncR x * g.s) out
  | .sqrt, [.grid g] =>
    if g.s % 2 ≠ 0 then .error .typeError
    else Grid.finish (ewise1 (fun z => z ^ ((1 : ℂ) / 2)) g.view) (g.s / 2) out
  | .square, [.grid g] => Grid.finish (ewise1 (fun z => z ^ 2) g.view) (g.s * 2) out
  | .reciprocal, [.grid g] => Grid.finish (ewise1 (fun z => z⁻¹) g.view) (-g.s) out
  | _, _ => .error .typeError

/-- The first Grid in a list of operands. -/
def firstGrid : List GArg → Option Grid
  | [] => none
  | .grid g :: _ => some g
  | _ :: l => firstGrid l

/-- numpy's dispatch of `ufunc(*args, out=out)` when at least one operand or `out` is a Grid: `__array_ufunc__` of the first one,
inputs before outputs.  (Without any Grid numpy does not call this code; TypeError stands for that here.) -/
noncomputable def callUfunc (u : GUfunc) (args : List GArg) (out : Option GArg) (hasKw : Bool := false) :
    Py (Grid × Option GArg) :=
  match firstGrid (args ++ out.toList) with
  | some self => self.array_ufunc u args out hasKw
  | none => .error .typeError

end SF
