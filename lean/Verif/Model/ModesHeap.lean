import Verif.Model.Multiplication
import Verif.Model.Pickle

/-!
# Model of the memory behind `Modes` objects: views, in-place methods, `__array_ufunc__`

`Verif.Model.Modes` describes the values of `Modes` objects.  Here the arrays live in a heap, so that sharing of memory
(the constructor, `truncate_ell`, `inplace=True`, `out=`) is visible.

Simplifications: a buffer is a list of slices `a[..., i]` (memory is shared along the last axis only; views that
select or permute leading axes are not modelled); the state after an exception is not described; numpy's permission to
drop leading axes of size 1 in an assignment is left out; only the ufunc method `__call__` is modelled.
-/

set_option autoImplicit false

namespace SF

open ComplexConjugate

/-- The memory: a list of buffers. -/
abbrev Heap := List (List Slice)

/-- An ndarray of shape `lead + (len,)` that uses the slots `off, ..., off+len-1` of a buffer. -/
structure ArrRef where
  buf : ℕ
  lead : List ℕ
  off : ℕ
  len : ℕ

/-- The contents of an array. -/
def Heap.load (h : Heap) (r : ArrRef) : List Slice := (((h[r.buf]?).getD []).drop r.off).take r.len

/-- `a[...] = vals`, where `vals` has as many slices as `a`. -/
def Heap.store (h : Heap) (r : ArrRef) (vals : List Slice) : Heap :=
  h.modify r.buf fun b => b.take r.off ++ vals ++ b.drop (r.off + r.len)

/-- A new array. -/
def Heap.alloc (h : Heap) (lead : List ℕ) (dat : List Slice) : Heap × ArrRef := (h ++ [dat], ⟨h.length, lead, 0, dat.length⟩)

/-- The array lies inside its buffer. -/
def ArrRef.Valid (r : ArrRef) (h : Heap) : Prop := ∃ b, h[r.buf]? = some b ∧ r.off + r.len ≤ b.length

/-- A `Modes` object: the array and the metadata dictionary. -/
structure MObj where
  ref : ArrRef
  s : ℤ
  ell_max : ℤ
  trunc : TruncKey

/-- The object as a value. -/
def MObj.val (o : MObj) (h : Heap) : Modes := ⟨o.ref.lead, o.s, o.ell_max, o.trunc, h.load o.ref⟩

/-- The metadata dictionary of an object, as keyword arguments. -/
def MObj.metadata (o : MObj) : Kw := ⟨some o.s, none, some o.ell_max, o.trunc⟩

/-- `Modes.__new__` — SWSH_modes/__init__.py:99-132, for an array with at least one axis.  `inMeta` is
`input_array._metadata`.  With `ell_min == 0` the object is a view of the input array, else of the array made by `np.insert`. -/
noncomputable def newH (h : Heap) (input : ArrRef) (inMeta : Kw) (args : List ℤ) (kw : Kw) : Py (Heap × MObj) :=
  if args.length = 2 ∨ args.length > 3 then .error .valueError
  else
    let spin := (args[0]?.or kw.spin_weight).or inMeta.spin_weight
    let ell_min := ((if args.length = 3 then args[1]? else none).or kw.ell_min).getD 0
    let ell_max := ((if args.length = 3 then args[2]? else none).or kw.ell_max).or inMeta.ell_max
    match spin with
    | none => .error .valueError
    | some s => do
      let L ← match ell_max with
        | some L => .ok L
        | none => LM_deduce_ell_max input.len ell_min
      if (input.len : ℤ) ≠ LM_total_size ell_min L then .error .valueError
      else
        let p : Heap × ArrRef := if ell_min = 0 then (h, input)
          else h.alloc input.lead (List.replicate (LM_total_size 0 (ell_min - 1)).toNat (fun _ => 0) ++ h.load input)
        let h := p.1.store p.2 (zeroPrefix (LM_total_size 0 (|s| - 1)).toNat (p.1.load p.2))
        .ok (h, ⟨p.2, s, L, kw.trunc.orElse inMeta.trunc⟩)

/-! ## Python programs using the class -/

/-- The state of a program: the memory and the `Modes` objects created so far. -/
structure World where
  heap : Heap
  objs : List MObj

/-- The object with a given number. -/
def World.obj (w : World) (i : ℕ) : Py MObj :=
  match w.objs[i]? with
  | some o => .ok o
  | none => .error .nameError

/-- Methods returning an object with memory of its own: `conjugate()` (also `bar`), `real`, `imag`, `Lsquared`, `Lz`,
`Lplus`, `Lminus`, `Rsquared`, `Rz`, `Rplus`, `Rminus`, `eth`, `ethbar`, `add(a)`, `subtract(a)`, `multiply(a)`,
`divide(a)` (array or number `a`), `copy()` and `pickle.loads(pickle.dumps(f))`. -/
inductive Method1
  | conjugate | real | imag | Lsquared | Lz | Lplus | Lminus | Rz | Rplus | Rminus | eth | ethbar | copy | pickle
  | add (a : Scalars) | subtract (a : Scalars) | multiply (a : Scalars) | divide (a : Scalars)

/-- The value returned by a method of `Method1`. -/
noncomputable def Method1.run : Method1 → Modes → Py Modes
  | .conjugate, f => f.conjugate false
  | .real, f => f.real_func false
  | .imag, f => f.imag_func false
  | .Lsquared, f => f.Lsquared
  | .Lz, f => f.Lz
  | .Lplus, f => f.Lplus
  | .Lminus, f => f.Lminus
  | .Rz, f => f.Rz
  | .Rplus, f => f.Rplus
  | .Rminus, f => f.Rminus
  | .eth, f => f.eth
  | .ethbar, f => f.ethbar
  | .copy, f => (viewCopy f.raw).toModes
  | .pickle, f => do
    let r ← pickleCopy f.raw
    r.toModes
  | .add a, f => f.addScalar a false
  | .subtract a, f => f.addScalar a true
  | .multiply a, f => f.multiplyScalar a
  | .divide a, f => f.divideScalar a

/-- Methods with a second `Modes` argument, returning an object with memory of its own. -/
inductive Method2
  | add | subtract | multiply (truncator : Option Trunc) | divide

/-- The value returned by a method of `Method2`. -/
noncomputable def Method2.run (junk junk' : ℕ → ℝ) : Method2 → Modes → Modes → Py Modes
  | .add, f, g => f.addM g false
  | .subtract, f, g => f.addM g true
  | .multiply t, f, g => f.multiplyM junk junk' g t
  | .divide, f, g => f.divideM g

/-- Methods working in place: `conjugate(inplace=True)`, `_real_func(inplace=True)`, `_imag_func(inplace=True)`. -/
inductive MethodIn
  | conjugate | real | imag

/-- The new value of the object. -/
noncomputable def MethodIn.run : MethodIn → Modes → Py Modes
  | .conjugate, f => f.conjugate true
  | .real, f => f.real_func true
  | .imag, f => f.imag_func true

/-- A new object with memory of its own. -/
def World.push (w : World) (f : Modes) : World :=
  let (h, r) := w.heap.alloc f.lead f.dat
  ⟨h, w.objs ++ [⟨r, f.s, f.ell_max, f.trunc⟩]⟩

/-! ## `__array_ufunc__` -/

/-- The ufuncs mentioned in the code — SWSH_modes/ufuncs.py:16, 23-25 — and all others.  (`np.true_divide` is `np.divide`,
`np.conj` is `np.conjugate`.) -/
inductive Ufunc
  | not_equal | equal | logical_and | logical_or | isfinite | isinf | isnan
  | positive | negative | add | subtract | multiply | divide | conjugate | absolute
  | other (name : String) (nin : ℕ)
  deriving DecidableEq

/-- The ufuncs that return bools and are passed to the arrays — SWSH_modes/ufuncs.py:16. -/
def Ufunc.passed : List Ufunc := [.not_equal, .equal, .logical_and, .logical_or, .isfinite, .isinf, .isnan]

/-- The ufuncs supported directly — SWSH_modes/ufuncs.py:23-25. -/
def Ufunc.supported : List Ufunc := [.positive, .negative, .add, .subtract, .multiply, .divide, .conjugate, .absolute]

/-- The number of inputs. -/
def Ufunc.nin : Ufunc → ℕ
  | .not_equal | .equal | .logical_and | .logical_or | .add | .subtract | .multiply | .divide => 2
  | .isfinite | .isinf | .isnan | .positive | .negative | .conjugate | .absolute => 1
  | .other _ n => n

/-- An input of a ufunc: a `Modes` object or anything else (by its values). -/
inductive UArg
  | modes (i : ℕ)
  | arr (a : Scalars)

/-- The argument `out`. -/
inductive OutArg
  | none
  | arr (r : ArrRef)
  | modes (i : ℕ)

/-- An input of a ufunc applied by numpy itself. -/
inductive PlainArg
  | nd (lead : List ℕ) (dat : List Slice)
  | arr (a : Scalars)

/-- What a ufunc returns: a `Modes` object, what numpy returns for plain arrays, or real numbers. -/
inductive URes
  | obj (i : ℕ)
  | plain (u : Ufunc) (args : List PlainArg)
  | reals (lead : List ℕ) (v : List (MIdx → ℝ))

/-- `arg.view(np.ndarray) if isinstance(arg, type(self)) else arg` — SWSH_modes/ufuncs.py:17. -/
def UArg.plain (w : World) : UArg → Py PlainArg
  | .modes i => do
    let o ← w.obj i
    return .nd o.ref.lead (w.heap.load o.ref)
  | .arr a => .ok (.arr a)

/-- `isinstance(arg, type(self))`. -/
def UArg.isModes : UArg → Bool
  | .modes _ => true
  | .arr _ => false

/-- The first `Modes` object among inputs and output: numpy calls its `__array_ufunc__`. -/
def firstModes : List UArg → OutArg → Option ℕ
  | .modes i :: _, _ => some i
  | .arr _ :: as, out => firstModes as out
  | [], .modes i => some i
  | [], _ => none

/-- The array of `out`, if given. -/
def OutArg.ref (w : World) : OutArg → Py (Option ArrRef)
  | .none => .ok Option.none
  | .arr r => .ok (some r)
  | .modes i => do
    let o ← w.obj i
    return some o.ref

/-- `getattr(out[0], '_metadata', {})`. -/
def OutArg.metadata (w : World) : OutArg → Kw
  | .modes i => match w.objs[i]? with
    | some o => o.metadata
    | Option.none => {}
  | _ => {}

/-- `if out is not None and isinstance(out[0], type(self)): out[0]._metadata = metadata`. -/
def World.setMeta (w : World) (out : OutArg) (s ell_max : ℤ) (trunc : TruncKey) : World :=
  match out with
  | .modes i => { w with objs := w.objs.modify i fun o => { o with s := s, ell_max := ell_max, trunc := trunc } }
  | _ => w

/-- A result of numpy of shape `lead + (dat.length,)` written to the array `r` (broadcast to its shape). -/
def bcInto (r : ArrRef) (lead : List ℕ) (dat : List Slice) : Py (List Slice) :=
  if bcastShape lead r.lead ≠ some r.lead then .error .valueError
  else if dat.length = r.len then .ok (dat.map (bcTo lead r.lead))
  else match dat with
    | [v] => .ok (List.replicate r.len (bcTo lead r.lead v))
    | _ => .error .valueError

/-- An elementwise result of numpy: written to `out`, or a new array. -/
def ufuncResult (h : Heap) (out : Option ArrRef) (lead : List ℕ) (dat : List Slice) : Py (Heap × ArrRef) :=
  match out with
  | none => .ok (h.alloc lead dat)
  | some r => do
    let d ← bcInto r lead dat
    return (h.store r d, r)

/-- The end of most branches: `result = type(self)(result, **metadata)`, and the metadata of `out`. -/
noncomputable def ufuncFinish (w : World) (h : Heap) (r : ArrRef) (inMeta : Kw) (out : OutArg) (s ell_max : ℤ) (trunc : TruncKey) :
    Py (World × URes) := do
  let (h, o) ← newH h r inMeta [] ⟨some s, none, some ell_max, trunc⟩
  let w : World := (⟨h, w.objs⟩ : World).setMeta out s ell_max trunc
  return (⟨w.heap, w.objs ++ [o]⟩, .obj w.objs.length)

/-- `np.positive`, `np.negative` — SWSH_modes/ufuncs.py:32-36.  The input is not looked at: `self` is. -/
noncomputable def ufuncSign (w : World) (op : ℂ → ℂ) (self : MObj) (out : OutArg) : Py (World × URes) := do
  let r ← out.ref w
  let (h, r) ← ufuncResult w.heap r self.ref.lead ((w.heap.load self.ref).map fun v x => op (v x))
  ufuncFinish w h r {} out self.s self.ell_max self.trunc

/-- The output array of `np.add` etc. of two Modes: `out`, or zeros — SWSH_modes/ufuncs.py:46-51, 99-103.  An `out` whose leading
shape the operands do not broadcast to makes the first assignment raise ValueError. -/
def ufuncTarget (h : Heap) (out : Option ArrRef) (lead leadf leadg : List ℕ) (size : ℤ) : Py (Heap × ArrRef) :=
  match out with
  | none => do
    let z ← npZeros (α := Slice) size
    return h.alloc lead z
  | some r => if bcastShape leadf r.lead = some r.lead ∧ bcastShape leadg r.lead = some r.lead then .ok (h, r) else .error .valueError

/-- `np.add`, `np.subtract` of two Modes — SWSH_modes/ufuncs.py:39-68. -/
noncomputable def ufuncAddModes (w : World) (op : ℂ → ℂ → ℂ) (self m1 m2 : MObj) (out : OutArg) : Py (World × URes) :=
  if m1.s ≠ m2.s then .error .typeError
  else do
    let ell_max := max m1.ell_max m2.ell_max
    let lead ← bcastLeads (m1.val w.heap) (m2.val w.heap)
    let r ← out.ref w
    let (h, r) ← ufuncTarget w.heap r lead m1.ref.lead m2.ref.lead (LM_total_size 0 ell_max)
    let d ← addSlices op r.lead m1.ref.lead m2.ref.lead m1.ell_max m2.ell_max
      (fun c => (h.store r c).load m1.ref) (fun c => (h.store r c).load m2.ref) (h.load r)
    ufuncFinish w (h.store r d) r {} out m1.s ell_max self.trunc

/-- `np.multiply` of two Modes — SWSH_modes/ufuncs.py:87-117. -/
noncomputable def ufuncMulModes (junk junk' : ℕ → ℝ) (w : World) (self m1 m2 : MObj) (out : OutArg) : Py (World × URes) := do
  let result_s := m1.s + m2.s
  let a ← m1.trunc.call m1.ell_max m2.ell_max
  let b ← m2.trunc.call m1.ell_max m2.ell_max
  let result_ell_max := max a b
  let lead ← bcastLeads (m1.val w.heap) (m2.val w.heap)
  let r ← out.ref w
  let (h, r) ← ufuncTarget w.heap r lead m1.ref.lead m2.ref.lead (LM_total_size 0 result_ell_max)
  let d ← mulHelper junk junk' m1.ref.lead m2.ref.lead r.lead (fun c => (h.store r c).load m1.ref) 0 m1.ell_max m1.s
    (fun c => (h.store r c).load m2.ref) 0 m2.ell_max m2.s (h.load r) 0 result_ell_max result_s
  ufuncFinish w (h.store r d) r {} out result_s result_ell_max self.trunc

/-- A ufunc of a Modes and something else, with `scalars[..., np.newaxis]` — SWSH_modes/ufuncs.py:69-84, 118-133, 140-146.  `out` is
passed on to numpy; if it is a Modes object, numpy calls `__array_ufunc__` again with two plain arrays, which is
NotImplemented. -/
noncomputable def ufuncScalar (w : World) (op : ℂ → ℂ → ℂ) (self modes : MObj) (a : Scalars) (out : OutArg) : Py (World × URes) := do
  let ok ← (modes.val w.heap).check_broadcasting a
  if !ok then .error .typeError
  else match out with
    | .modes _ => .error .typeError
    | out => do
      let r ← out.ref w
      match bcastShape modes.ref.lead a.shape with
      | none => .error .valueError
      | some lead => do
        let (h, r) ← ufuncResult w.heap r lead
          ((w.heap.load modes.ref).map fun v idx => op (bcTo modes.ref.lead lead v idx) (a.val (bcIdx a.shape idx)))
        ufuncFinish w h r {} out self.s self.ell_max self.trunc

/-- `np.conjugate` — SWSH_modes/ufuncs.py:148-170. -/
noncomputable def ufuncConj (w : World) (m : MObj) (out : OutArg) : Py (World × URes) := do
  let r ← out.ref w
  let (h, r) ← match r with
    | none => .ok (w.heap.alloc m.ref.lead (zerosLike (w.heap.load m.ref)))
    | some r => if bcastShape m.ref.lead r.lead = some r.lead then .ok (w.heap, r) else .error .valueError
  let d ← conjLoop m.s m.ell_max (fun c => ((h.store r c).load m.ref).map (bcTo m.ref.lead r.lead)) (h.load r)
  ufuncFinish w (h.store r d) r (out.metadata w) out (-m.s) m.ell_max m.trunc

/-- `Modes.__array_ufunc__(self, ufunc, '__call__', *args, out=out, **kwargs)` — SWSH_modes/ufuncs.py:14-190; `kwargs` tells
whether there are other keyword arguments.  NotImplemented is the TypeError that numpy raises because no other operand has an
`__array_ufunc__` (`self` is the first Modes; others of the same type are not asked).  For the ufuncs that are passed on, what
numpy does with `out` is not described. -/
noncomputable def arrayUfunc (junk junk' : ℕ → ℝ) (w : World) (self : MObj) (u : Ufunc) (args : List UArg) (out : OutArg) (kwargs : Bool) :
    Py (World × URes) :=
  if u ∈ Ufunc.passed then do
    let args ← args.mapM (UArg.plain w)
    return (w, .plain u args)
  else if u ∉ Ufunc.supported then .error .typeError
  else if kwargs then .error .notImplementedError
  else match u, args with
    | .positive, _ => ufuncSign w id self out
    | .negative, _ => ufuncSign w (fun z => -z) self out
    | .add, [.modes i, .modes j] => do
      let m1 ← w.obj i
      let m2 ← w.obj j
      ufuncAddModes w (· + ·) self m1 m2 out
    | .subtract, [.modes i, .modes j] => do
      let m1 ← w.obj i
      let m2 ← w.obj j
      ufuncAddModes w (· - ·) self m1 m2 out
    | .add, [.modes i, .arr a] => do
      let m ← w.obj i
      if a.any then .error .typeError else ufuncScalar w (· + ·) self m a out
    | .subtract, [.modes i, .arr a] => do
      let m ← w.obj i
      if a.any then .error .typeError else ufuncScalar w (· - ·) self m a out
    | .add, [.arr a, .modes i] => do
      let m ← w.obj i
      if a.any then .error .typeError else ufuncScalar w (fun x y => y + x) self m a out
    | .subtract, [.arr a, .modes i] => do
      let m ← w.obj i
      if a.any then .error .typeError else ufuncScalar w (fun x y => y - x) self m a out
    | .multiply, [.modes i, .modes j] => do
      let m1 ← w.obj i
      let m2 ← w.obj j
      ufuncMulModes junk junk' w self m1 m2 out
    | .multiply, [.modes i, .arr a] => do
      let m ← w.obj i
      ufuncScalar w (· * ·) self m a out
    | .multiply, [.arr a, .modes i] => do
      let m ← w.obj i
      ufuncScalar w (fun x y => y * x) self m a out
    | .divide, [.modes i, .arr a] => do
      let m ← w.obj i
      ufuncScalar w (· / ·) self m a out
    | .conjugate, [.modes i] => do
      let m ← w.obj i
      ufuncConj w m out
    | .absolute, [.modes i] => do
      let m ← w.obj i
      return (w, .reals m.ref.lead (m.val w.heap).absolute)
    | .absolute, _ => .error .attributeError
    | _, _ => .error .typeError

/-- `ufunc(*args, out=out, **kwargs)` with at least one Modes object: numpy checks the number of inputs and calls
`__array_ufunc__` of the first Modes. -/
noncomputable def ufuncCall (junk junk' : ℕ → ℝ) (w : World) (u : Ufunc) (args : List UArg) (out : OutArg) (kwargs : Bool) :
    Py (World × URes) :=
  if args.length ≠ u.nin then .error .typeError
  else match firstModes args out with
    | none => .error .typeError
    | some i => do
      let self ← w.obj i
      arrayUfunc junk junk' w self u args out kwargs

/-! ## Steps of a program -/

/-- One operation of a program that uses the class through the constructor, its methods and ufuncs without `out`.
The label is the number of the memory block that the operation may overwrite, if there is one: the array that is turned into a Modes
object (C24), or the object on which an in-place method is called. -/
inductive PyStep (junk junk' : ℕ → ℝ) : World → Option ℕ → World → Prop
  /-- A plain array is created (with any contents). -/
  | array (w : World) (lead : List ℕ) (dat : List Slice) : PyStep junk junk' w none ⟨(w.heap.alloc lead dat).1, w.objs⟩
  /-- `Modes(a, ...)` for a plain array, or a view `a[..., :n]` of one. -/
  | construct (w : World) (r : ArrRef) (hr : r.Valid w.heap) (h0 : r.off = 0) (args : List ℤ) (kw : Kw) (h : Heap) (o : MObj)
      (e : newH w.heap r {} args kw = .ok (h, o)) : PyStep junk junk' w (some r.buf) ⟨h, w.objs ++ [o]⟩
  /-- `Modes(f, ...)`. -/
  | reconstruct (w : World) (i : ℕ) (f : MObj) (hf : w.objs[i]? = some f) (args : List ℤ) (kw : Kw) (h : Heap) (o : MObj)
      (e : newH w.heap f.ref f.metadata args kw = .ok (h, o)) : PyStep junk junk' w (some f.ref.buf) ⟨h, w.objs ++ [o]⟩
  /-- `f.method()`. -/
  | method1 (w : World) (i : ℕ) (f : MObj) (hf : w.objs[i]? = some f) (op : Method1) (g : Modes) (e : op.run (f.val w.heap) = .ok g) :
      PyStep junk junk' w none (w.push g)
  /-- `f.method(g)`. -/
  | method2 (w : World) (i j : ℕ) (f g : MObj) (hf : w.objs[i]? = some f) (hg : w.objs[j]? = some g) (op : Method2) (k : Modes)
      (e : op.run junk junk' (f.val w.heap) (g.val w.heap) = .ok k) : PyStep junk junk' w none (w.push k)
  /-- `f.method(inplace=True)`: the memory and the spin weight of the object change. -/
  | inplace (w : World) (i : ℕ) (f : MObj) (hf : w.objs[i]? = some f) (op : MethodIn) (g : Modes) (e : op.run (f.val w.heap) = .ok g) :
      PyStep junk junk' w (some f.ref.buf) ⟨w.heap.store f.ref g.dat, w.objs.set i { f with s := g.s }⟩
  /-- `f.truncate_ell(L)` for `L < ell_max`: a view of the memory of `f` (for other `L` it is `f` itself). -/
  | truncate (w : World) (i : ℕ) (f : MObj) (hf : w.objs[i]? = some f) (L : ℤ) (hL : L < f.ell_max) (g : Modes) (e : (f.val w.heap).truncate_ell L = .ok g) :
      PyStep junk junk' w none ⟨w.heap, w.objs ++ [⟨{ f.ref with len := g.dat.length }, g.s, g.ell_max, g.trunc⟩]⟩
  /-- A ufunc without `out`. -/
  | ufunc (w : World) (u : Ufunc) (args : List UArg) (kwargs : Bool) (w' : World) (res : URes)
      (e : ufuncCall junk junk' w u args .none kwargs = .ok (w', res)) : PyStep junk junk' w none w'

/-- The states that a program can reach. -/
inductive Reachable (junk junk' : ℕ → ℝ) : World → Prop
  | start : Reachable junk junk' ⟨[], []⟩
  | step {w w' : World} {t : Option ℕ} (hw : Reachable junk junk' w) (h : PyStep junk junk' w t w') : Reachable junk junk' w'

end SF
