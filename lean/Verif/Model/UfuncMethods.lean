import Verif.Model.ModesHeap
import Verif.Model.Grid

/-!
# Model of the methods of ufuncs (`np.add.reduce(f)`, `np.add.at(f, i, x)`, ...) on `Modes` and `Grid` objects

`__array_ufunc__` receives the name of the method as an argument — SWSH_modes/ufuncs.py:14, SWSH_grids/ufuncs.py:12 — and looks at it only
at the end: `if method == 'at': return`.  `f.sum()`, `f.prod()`, `f.cumsum()`, `f.mean()` are calls of `np.add.reduce`,
`np.multiply.reduce`, `np.add.accumulate`, `np.add.reduce` with keyword arguments; `f.max()`, `f.min()` of `np.maximum.reduce`,
`np.minimum.reduce`; `f.any()`, `f.all()` of `np.logical_or.reduce`, `np.logical_and.reduce`.
-/

set_option autoImplicit false

namespace SF

/-- The argument `method` of `__array_ufunc__` other than `'__call__'`. -/
inductive UMethod
  | reduce | accumulate | reduceat | outer | at
  deriving DecidableEq

/-- The number of arguments: `u.reduce(a)`, `u.accumulate(a)`, `u.reduceat(a, indices)`, `u.outer(a, b)`, `u.at(a, indices[, b])`. -/
def UMethod.nargs (m : UMethod) (nin : ℕ) : ℕ :=
  match m with
  | .reduce | .accumulate => 1
  | .reduceat | .outer => 2
  | .at => nin + 1

/-- What a call of a method returns: `None`, what `__array_ufunc__` of `Modes` returns, or what numpy's method returns for plain
arrays. -/
inductive MRes
  | none
  | res (r : URes)
  | forwarded (m : UMethod) (u : Ufunc) (args : List PlainArg)

/-- `Modes.__array_ufunc__(self, ufunc, method, *args, out=out, **kwargs)` — SWSH_modes/ufuncs.py:14-190 — for a method other than
`'__call__'`.  The ufuncs with two inputs look at `args[1]`, which `reduce` and `accumulate` do not have; further arguments are ignored.  With
`'at'` the new object is not returned, so that its memory is garbage; `np.absolute` returns before that (line 173).  For the ufuncs that are
passed on, what numpy does to the arrays is not described. -/
noncomputable def arrayUfuncMethod (junk junk' : ℕ → ℝ) (w : World) (self : MObj) (u : Ufunc) (m : UMethod) (args : List UArg) (out : OutArg)
    (kwargs : Bool) : Py (World × MRes) :=
  if u ∈ Ufunc.passed then do
    let args ← args.mapM (UArg.plain w)
    return (w, .forwarded m u args)
  else if u ∉ Ufunc.supported then .error .typeError
  else if kwargs then .error .notImplementedError
  else if args.length < u.nin then .error .indexError
  else do
    let (w', r) ← arrayUfunc junk junk' w self u (args.take u.nin) out false
    if u = .absolute then return (w', .res r)
    else if m = .at then return (⟨w'.heap, w.objs⟩, .none)
    else return (w', .res r)

/-- `out is not None`. -/
def OutArg.given : OutArg → Bool
  | .none => false
  | _ => true

/-- `np.<u>.<m>(*args, out=out, **kwargs)` with at least one Modes object.  numpy checks the number of arguments and that `reduce`,
`accumulate`, `reduceat` and `outer` are used with two inputs; `at` has no keyword arguments.  (Which exception numpy raises in these cases
depends on its version; `ValueError` and `TypeError` stand for it.) -/
noncomputable def ufuncMethod (junk junk' : ℕ → ℝ) (w : World) (u : Ufunc) (m : UMethod) (args : List UArg) (out : OutArg) (kwargs : Bool) :
    Py (World × MRes) :=
  if m ≠ .at ∧ u.nin ≠ 2 then .error .valueError
  else if args.length ≠ m.nargs u.nin then .error .typeError
  else if m = .at ∧ (kwargs = true ∨ out.given = true) then .error .typeError
  else match firstModes args out with
    | none => .error .typeError
    | some i => do
      let self ← w.obj i
      arrayUfuncMethod junk junk' w self u m args out kwargs

/-- The number of inputs of the ufuncs of `Grid`; `other` stands for one with two inputs. -/
def GUfunc.nin : GUfunc → ℕ
  | .add | .subtract | .multiply | .divide | .power | .other => 2
  | _ => 1

/-- `Grid.__array_ufunc__(self, ufunc, method, *args, out=out, **kwargs)` — SWSH_grids/ufuncs.py:12-176 — for a method other than
`'__call__'` and the ufuncs that are not passed on.  `np.power` with only one argument: `int(args[1])` is inside a `try` with a bare `except`
(line 134-137), so that it is a TypeError. -/
noncomputable def Grid.array_ufunc_method (self : Grid) (u : GUfunc) (m : UMethod) (args : List GArg) (out : Option GArg) (hasKw : Bool) :
    Py (Option Grid × Option GArg) :=
  match u with
  | .other => .error .typeError
  | u =>
    if hasKw then .error .notImplementedError
    else if args.length < u.nin then (if u = .power then .error .typeError else .error .indexError)
    else do
      let (g, o) ← self.array_ufunc u (args.take u.nin) out false
      return (if m = .at then none else some g, o)

/-- `np.<u>.<m>(*args, out=out, **kwargs)` with at least one Grid object. -/
noncomputable def gridUfuncMethod (u : GUfunc) (m : UMethod) (args : List GArg) (out : Option GArg) (hasKw : Bool) :
    Py (Option Grid × Option GArg) :=
  if m ≠ .at ∧ u.nin ≠ 2 then .error .valueError
  else if args.length ≠ m.nargs u.nin then .error .typeError
  else if m = .at ∧ (hasKw = true ∨ out.isSome) then .error .typeError
  else match firstGrid (args ++ out.toList) with
    | some self => self.array_ufunc_method u m args out hasKw
    | none => .error .typeError

end SF
