import Verif.Model.Grid

/-!
# Comparisons of `Modes` and `Grid` objects

The ufuncs that return boolean arrays are handled by the first branch of the two `__array_ufunc__` methods
(SWSH_modes/ufuncs.py:16-20, SWSH_grids/ufuncs.py:14-19): operands of the method's own class are replaced by plain arrays and numpy does the
rest.  Calls `ufunc(a, b)` without keywords.  Numbers are finite complex numbers, so that `np.isfinite`, `np.isinf` and `np.isnan` are not
interesting and left out.
-/

set_option autoImplicit false

namespace SF

/-- `f.view(np.ndarray)`: the last index is the position of the mode. -/
def Modes.asArray (f : Modes) : Scalars :=
  ⟨f.lead ++ [f.dat.length], fun idx => match f.dat[idx.getLastD 0]? with
    | some v => v idx.dropLast
    | none => 0⟩

/-- An operand. -/
inductive CArg
  | modes (f : Modes)
  | grid (g : Grid)
  | arr (a : Scalars)

/-- The ufuncs of two arguments that return boolean arrays. -/
inductive CUfunc
  | equal | not_equal | less | less_equal | greater | greater_equal | logical_and | logical_or
  deriving DecidableEq

/-- A boolean array. -/
structure BoolArr where
  shape : List ℕ
  val : MIdx → Prop

/-- numpy's `x < y` for complex numbers: by real part, then by imaginary part. -/
def npLt (x y : ℂ) : Prop := x.re < y.re ∨ (x.re = y.re ∧ x.im < y.im)

/-- numpy's `x <= y` for complex numbers. -/
def npLe (x y : ℂ) : Prop := x.re < y.re ∨ (x.re = y.re ∧ x.im ≤ y.im)

/-- numpy's elementwise functions. -/
def CUfunc.rel : CUfunc → ℂ → ℂ → Prop
  | .equal, x, y => x = y
  | .not_equal, x, y => x ≠ y
  | .less, x, y => npLt x y
  | .less_equal, x, y => npLe x y
  | .greater, x, y => npLt y x
  | .greater_equal, x, y => npLe y x
  | .logical_and, x, y => x ≠ 0 ∧ y ≠ 0
  | .logical_or, x, y => x ≠ 0 ∨ y ≠ 0

/-- `ndarray.__array_ufunc__(ufunc, '__call__', a, b)`: NotImplemented (`none`) if an operand overrides `__array_ufunc__`, otherwise numpy's
elementwise function with broadcasting. -/
def ndarrayUfunc (u : CUfunc) : CArg → CArg → Option (Py BoolArr)
  | .arr a, .arr b => some (match bcastShape a.shape b.shape with
    | none => .error .valueError
    | some sh => .ok ⟨sh, fun idx => u.rel (a.val (bcIdx a.shape idx)) (b.val (bcIdx b.shape idx))⟩)
  | _, _ => none

/-- `arg.view(np.ndarray) if isinstance(arg, Modes) else arg` — SWSH_modes/ufuncs.py:17. -/
def CArg.plainModes : CArg → CArg
  | .modes f => .arr f.asArray
  | a => a

/-- `arg.view(np.ndarray) if isinstance(arg, Grid) else arg` — SWSH_grids/ufuncs.py:16. -/
def CArg.plainGrid : CArg → CArg
  | .grid g => .arr g.view
  | a => a

/-- `Modes.__array_ufunc__` for these ufuncs — SWSH_modes/ufuncs.py:16-26. -/
def modesCompare (u : CUfunc) (a b : CArg) : Option (Py BoolArr) :=
  if u ∈ [CUfunc.not_equal, .equal, .logical_and, .logical_or] then ndarrayUfunc u a.plainModes b.plainModes
  else none

/-- `Grid.__array_ufunc__` for these ufuncs — SWSH_grids/ufuncs.py:14-19. -/
def gridCompare (u : CUfunc) (a b : CArg) : Option (Py BoolArr) :=
  if u ∈ [CUfunc.greater, .greater_equal, .less, .less_equal, .not_equal, .equal, .logical_and, .logical_or] then
    ndarrayUfunc u a.plainGrid b.plainGrid
  else none

/-- The `__array_ufunc__` of the operand `self`, called for the operands `a` and `b`. -/
def CArg.compare (self : CArg) (u : CUfunc) (a b : CArg) : Option (Py BoolArr) :=
  match self with
  | .modes _ => modesCompare u a b
  | .grid _ => gridCompare u a b
  | .arr _ => ndarrayUfunc u a b

/-- numpy's dispatch of `ufunc(a, b)`: the `__array_ufunc__` of the operands that override it are tried from left to right; TypeError if
all answer NotImplemented.  (One of two operands of the same class is asked only once; asking it again would give the same answer.) -/
def npCompare (u : CUfunc) (a b : CArg) : Py BoolArr :=
  match a.compare u a b with
  | some r => r
  | none => match b.compare u a b with
    | some r => r
    | none => .error .typeError

end SF
