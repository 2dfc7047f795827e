import Verif.Model.SWSH

/-!
# Model of the `Modes` class (`SWSH_modes/`)

A `Modes` object is an ndarray of complex numbers of shape `lead + (n,)` plus the metadata dictionary.  The data are kept
as the list of its `n` slices `self[..., i]`; a slice is a function of the multi-index into the leading axes.  Only the
values at multi-indices valid for the leading shape are meaningful.

Simplifications: the input of the constructor is already complex (a real array would be reinterpreted by
`.view(complex)`); numbers are exact; metadata keys other than `spin_weight`, `ell_max`, `multiplication_truncator`
(passed through unchanged by the code) are left out; explicitly passing `None` for `spin_weight` or `ell_max` is the same
as not passing it.
-/

set_option autoImplicit false

namespace SF

open ComplexConjugate

/-- Multi-index into the leading axes. -/
abbrev MIdx := List ℕ

/-- One slice `a[..., i]` of an array. -/
abbrev Slice := MIdx → ℂ

/-! ## numpy: broadcasting and slices of the last axis -/

/-- numpy's broadcasting rule on shapes with the last axis first. -/
def bcRev : List ℕ → List ℕ → Option (List ℕ)
  | [], b => some b
  | a, [] => some a
  | x :: a, y :: b =>
    if x = y then (bcRev a b).map (x :: ·)
    else if x = 1 then (bcRev a b).map (y :: ·)
    else if y = 1 then (bcRev a b).map (x :: ·)
    else none

/-- `np.broadcast(a, b).shape`; `none` is numpy's ValueError. -/
def bcastShape (a b : List ℕ) : Option (List ℕ) := (bcRev a.reverse b.reverse).map List.reverse

/-- The multi-index of an array of shape `sh` that is read at index `idx` of a broadcast result. -/
def bcIdx (sh : List ℕ) (idx : MIdx) : MIdx :=
  (List.zipWith (fun d i => if d = 1 then 0 else i) sh.reverse idx.reverse).reverse

/-- A slice of an array of shape `src`, broadcast to shape `dst`. -/
def bcTo (src dst : List ℕ) (v : Slice) : Slice := if src = dst then v else fun idx => v (bcIdx src idx)

/-- Multi-indices of an array of shape `sh`. -/
def ValidIdx (sh : List ℕ) (idx : MIdx) : Prop := List.Forall₂ (· < ·) idx sh

/-- `a[..., i:j]` for `0 <= i, j`. -/
def getSlice {α : Type} (a : List α) (i j : ℤ) : List α := (a.drop i.toNat).take (j.toNat - i.toNat)

/-- `a[..., i:j] = vals` for `0 <= i, j`: the slice is clipped to the array, its size must match or `vals` have size 1. -/
def setSlice {α : Type} (a : List α) (i j : ℤ) (vals : List α) : Py (List α) :=
  let i' := min i.toNat a.length
  let j' := max i' (min j.toNat a.length)
  if vals.length = j' - i' then .ok (a.take i' ++ vals ++ a.drop j')
  else match vals with
    | [v] => .ok (a.take i' ++ List.replicate (j' - i') v ++ a.drop j')
    | _ => .error .valueError

/-! ## The class -/

/-- A callable applied to the tuple `(self.ell_max, other.ell_max)`. -/
abbrev Trunc := ℤ → ℤ → ℤ

/-- The metadata entry `multiplication_truncator`: missing, `None`, or a callable. -/
inductive TruncKey
  | absent
  | isNone
  | fn (t : Trunc)

/-- A `Modes` object. -/
structure Modes where
  lead : List ℕ
  s : ℤ
  ell_max : ℤ
  trunc : TruncKey
  dat : List Slice

/-- `input_array` of the constructor: zero-dimensional, or with a last axis. -/
inductive NdIn
  | scalar (z : ℂ)
  | array (lead : List ℕ) (dat : List Slice)

/-- The `_metadata` of the input (empty for plain arrays), and the keyword arguments. -/
structure Kw where
  spin_weight : Option ℤ := none
  ell_min : Option ℤ := none
  ell_max : Option ℤ := none
  trunc : TruncKey := .absent

/-- `metadata.update(**kwargs)` for the truncator entry. -/
def TruncKey.orElse : TruncKey → TruncKey → TruncKey
  | .absent, t => t
  | t, _ => t

/-- `a[..., :n] = 0.0` for `0 <= n`. -/
def zeroPrefix (n : ℕ) (a : List Slice) : List Slice :=
  List.replicate (min n a.length) (fun _ => 0) ++ a.drop n

/-- `Modes.__new__` — SWSH_modes/__init__.py:99-132.  `inMeta` is `input_array._metadata`.  The values of the resulting
object; for the memory it shares with the input see `newH`. -/
noncomputable def Modes.new (input : NdIn) (inMeta : Kw) (args : List ℤ) (kw : Kw) : Py Modes :=
  if args.length = 2 ∨ args.length > 3 then .error .valueError
  else
    let spin := (args[0]?.or kw.spin_weight).or inMeta.spin_weight
    let ell_min := ((if args.length = 3 then args[1]? else none).or kw.ell_min).getD 0
    let ell_max := ((if args.length = 3 then args[2]? else none).or kw.ell_max).or inMeta.ell_max
    match spin with
    | none => .error .valueError
    | some s => do
      let L ← match ell_max with
        | some L => .ok L
        | none => match input with
          | .scalar _ => .ok 0
          | .array _ dat => LM_deduce_ell_max dat.length ell_min
      match input with
      | .scalar _ => .error .indexError
      | .array lead dat =>
        if (dat.length : ℤ) ≠ LM_total_size ell_min L then .error .valueError
        else
          let obj := if ell_min = 0 then dat
            else List.replicate (LM_total_size 0 (ell_min - 1)).toNat (fun _ => 0) ++ dat
          let obj := zeroPrefix (LM_total_size 0 (|s| - 1)).toNat obj
          .ok ⟨lead, s, L, kw.trunc.orElse inMeta.trunc, obj⟩

/-- `type(self)(dat, **metadata)` with the metadata of `f` and the given entries replaced. -/
noncomputable def Modes.remake (f : Modes) (lead : List ℕ) (dat : List Slice) (s ell_max : ℤ) : Py Modes :=
  Modes.new (.array lead dat) {} [] ⟨some s, none, some ell_max, f.trunc⟩

/-- `Modes.index` — SWSH_modes/utilities.py:9-27. -/
def Modes.index (f : Modes) (ell m : ℤ) : Py ℤ :=
  if ell < |f.s| ∨ ell < |m| then .error .valueError
  else if ell < 0 ∨ ell > f.ell_max then .error .valueError
  else .ok (LM_index ell m 0)

/-- `Modes.truncate_ell` — SWSH_modes/utilities.py:30-41 (values; the result is a view of the same memory). -/
def Modes.truncate_ell (f : Modes) (new_ell_max : ℤ) : Py Modes :=
  if new_ell_max ≥ f.ell_max then .ok f
  else do
    let i ← f.index new_ell_max new_ell_max
    return { f with dat := getSlice f.dat 0 (i + 1), ell_max := new_ell_max }

/-! ## algebra.py -/

/-- Inner loop body of `conjLoop`: the pair of modes `±m` — SWSH_modes/algebra.py:53-58. -/
noncomputable def conjPair (s : ℤ) (src : List Slice → List Slice) (ell m : ℤ) (c : List Slice) : Py (List Slice) := do
  let i_p := LM_index ell m 0
  let i_n := LM_index ell (-m) 0
  let vn ← rd (src c) i_n
  let vp ← rd (src c) i_p
  if (s + m) % 2 = 0 then do
    let c ← wr c i_p (fun x => conj (vn x))
    wr c i_n (fun x => conj (vp x))
  else do
    let c ← wr c i_p (fun x => -conj (vn x))
    wr c i_n (fun x => -conj (vp x))

/-- Loop of `conjugate` — SWSH_modes/algebra.py:47-58 (and, identically, ufuncs.py:152-163).  `src c` is what `s` reads
when the output buffer is `c`: the input itself, or `c` when working in place. -/
noncomputable def conjLoop (s ell_max : ℤ) (src : List Slice → List Slice) (c : List Slice) : Py (List Slice) :=
  forL (pyRange |s| (ell_max + 1)) c fun ell c => do
    let i := LM_index ell 0 0
    let v ← rd (src c) i
    let c ← wr c i (if s % 2 = 0 then fun x => conj (v x) else fun x => -conj (v x))
    forL (pyRange 1 (ell + 1)) c (conjPair s src ell)

/-- `np.zeros_like`. -/
def zerosLike (a : List Slice) : List Slice := a.map fun _ _ => 0

/-- `Modes.conjugate` — SWSH_modes/algebra.py:14-64. -/
noncomputable def Modes.conjugate (f : Modes) (inplace : Bool) : Py Modes :=
  if inplace then do
    let c ← conjLoop f.s f.ell_max id f.dat
    return { f with dat := c, s := -f.s }
  else do
    let c ← conjLoop f.s f.ell_max (fun _ => f.dat) (zerosLike f.dat)
    f.remake f.lead c (-f.s) f.ell_max

/-- Inner loop body of `realLoop`: the pair of modes `±m` — SWSH_modes/algebra.py:97-104. -/
noncomputable def realPair (src : List Slice → List Slice) (ell m : ℤ) (c : List Slice) : Py (List Slice) := do
  let i_p := LM_index ell m 0
  let i_n := LM_index ell (-m) 0
  let vp ← rd (src c) i_p
  let vn ← rd (src c) i_n
  if m % 2 = 0 then do
    let c ← wr c i_p (fun x => (vp x + conj (vn x)) / 2)
    let w ← rd c i_p
    wr c i_n (fun x => conj (w x))
  else do
    let c ← wr c i_p (fun x => (vp x - conj (vn x)) / 2)
    let w ← rd c i_p
    wr c i_n (fun x => -conj (w x))

/-- Loop of `_real_func` — SWSH_modes/algebra.py:94-104. -/
noncomputable def realLoop (s ell_max : ℤ) (src : List Slice → List Slice) (c : List Slice) : Py (List Slice) :=
  forL (pyRange |s| (ell_max + 1)) c fun ell c => do
    let i := LM_index ell 0 0
    let v ← rd (src c) i
    let c ← wr c i (fun x => ((v x).re : ℂ))
    forL (pyRange 1 (ell + 1)) c (realPair src ell)

/-- `Modes._real_func`; the property `real` is the out-of-place variant — SWSH_modes/algebra.py:73-112. -/
noncomputable def Modes.real_func (f : Modes) (inplace : Bool) : Py Modes :=
  if f.s ≠ 0 then .error .valueError
  else if inplace then do
    let c ← realLoop f.s f.ell_max id f.dat
    return { f with dat := c }
  else do
    let c ← realLoop f.s f.ell_max (fun _ => f.dat) (zerosLike f.dat)
    f.remake f.lead c f.s f.ell_max

/-- Inner loop body of `imagLoop`: the pair of modes `±m` — SWSH_modes/algebra.py:145-154. -/
noncomputable def imagPair (src : List Slice → List Slice) (ell m : ℤ) (c : List Slice) : Py (List Slice) := do
  let i_p := LM_index ell m 0
  let i_n := LM_index ell (-m) 0
  let vp ← rd (src c) i_p
  let vn ← rd (src c) i_n
  if m % 2 = 0 then do
    let c ← wr c i_p (fun x => -Complex.I * (vp x - conj (vn x)) / 2)
    let w ← rd c i_p
    wr c i_n (fun x => conj (w x))
  else do
    let c ← wr c i_p (fun x => -Complex.I * (vp x + conj (vn x)) / 2)
    let w ← rd c i_p
    wr c i_n (fun x => -conj (w x))

/-- Loop of `_imag_func` — SWSH_modes/algebra.py:142-154. -/
noncomputable def imagLoop (s ell_max : ℤ) (src : List Slice → List Slice) (c : List Slice) : Py (List Slice) :=
  forL (pyRange |s| (ell_max + 1)) c fun ell c => do
    let i := LM_index ell 0 0
    let v ← rd (src c) i
    let c ← wr c i (fun x => ((v x).im : ℂ))
    forL (pyRange 1 (ell + 1)) c (imagPair src ell)

/-- `Modes._imag_func`; the property `imag` is the out-of-place variant — SWSH_modes/algebra.py:115-162. -/
noncomputable def Modes.imag_func (f : Modes) (inplace : Bool) : Py Modes :=
  if f.s ≠ 0 then .error .valueError
  else if inplace then do
    let c ← imagLoop f.s f.ell_max id f.dat
    return { f with dat := c }
  else do
    let c ← imagLoop f.s f.ell_max (fun _ => f.dat) (zerosLike f.dat)
    f.remake f.lead c f.s f.ell_max

/-- `Modes.norm` — SWSH_modes/algebra.py:165-166 (`np.linalg.norm(..., axis=-1)`), at each leading index. -/
noncomputable def Modes.norm (f : Modes) (idx : MIdx) : ℝ :=
  Real.sqrt ((f.dat.map fun v => ‖v idx‖ ^ 2).sum)

/-- `np.absolute(modes)` — SWSH_modes/ufuncs.py:172-173: elementwise. -/
noncomputable def Modes.absolute (f : Modes) : List (MIdx → ℝ) := f.dat.map fun v idx => ‖v idx‖

/-- `np.broadcast(self[..., 0], other[..., 0]).shape`. -/
def bcastLeads (f g : Modes) : Py (List ℕ) :=
  if f.dat = [] ∨ g.dat = [] then .error .indexError
  else match bcastShape f.lead g.lead with
    | some sh => .ok sh
    | none => .error .valueError

/-- `result[..., 0:n1] = f; result[..., 0:n2] ±= g` — SWSH_modes/algebra.py:178-186, ufuncs.py:52-60.  `op` is `+` or `-`;
the two reads of `f`, `g` are done by `rf`, `rg` from the current contents of `result` (constant functions unless
`result` aliases an operand). -/
def addSlices (op : ℂ → ℂ → ℂ) (lead leadf leadg : List ℕ) (Lf Lg : ℤ) (rf rg : List Slice → List Slice)
    (result : List Slice) : Py (List Slice) := do
  let i_s1 := LM_total_size 0 (0 - 1)
  let i_s2 := i_s1 + LM_total_size 0 Lf
  let i_o1 := LM_total_size 0 (0 - 1)
  let i_o2 := i_o1 + LM_total_size 0 Lg
  let result ← setSlice result i_s1 i_s2 ((rf result).map (bcTo leadf lead))
  let cur := getSlice result i_o1 i_o2
  let vals := (rg result).map (bcTo leadg lead)
  if vals.length ≠ cur.length then .error .valueError
  else setSlice result i_o1 i_o2 (List.zipWith (fun u v x => op (u x) (v x)) cur vals)

/-- `Modes.add(other)` / `add(other, subtraction=True)` for a Modes `other` — SWSH_modes/algebra.py:169-191. -/
noncomputable def Modes.addM (f g : Modes) (subtraction : Bool) : Py Modes :=
  if f.s ≠ g.s then .error .valueError
  else do
    let ell_max := max f.ell_max g.ell_max
    let lead ← bcastLeads f g
    let result ← npZeros (α := Slice) (LM_total_size 0 ell_max)
    let result ← addSlices (if subtraction then (· - ·) else (· + ·)) lead f.lead g.lead f.ell_max g.ell_max
      (fun _ => f.dat) (fun _ => g.dat) result
    f.remake lead result f.s ell_max

/-- A non-Modes operand: a number (`shape = []`) or an array of numbers. -/
structure Scalars where
  shape : List ℕ
  val : MIdx → ℂ

/-- `Modes._check_broadcasting(array)` for a non-Modes array — SWSH_modes/utilities.py:110-127 (`reverse` changes only the
order of the arguments of `np.broadcast`, which does not matter). -/
def Modes.check_broadcasting (f : Modes) (a : Scalars) : Py Bool :=
  if a.shape.length > f.lead.length then .error .valueError
  else if f.dat = [] then .error .indexError
  else .ok (bcastShape f.lead a.shape).isSome

/-- `type(self)(ufunc(modes.view(np.ndarray), scalars[..., np.newaxis]), **self._metadata)` —
SWSH_modes/ufuncs.py:74, 82, 123, 131, 144. -/
noncomputable def Modes.scalarUfunc (op : ℂ → ℂ → ℂ) (f : Modes) (a : Scalars) : Py Modes :=
  match bcastShape f.lead a.shape with
  | none => .error .valueError
  | some lead => f.remake lead
      (f.dat.map fun v idx => op (bcTo f.lead lead v idx) (a.val (bcIdx a.shape idx))) f.s f.ell_max

open scoped Classical in
/-- `np.any(scalars)`. -/
noncomputable def Scalars.any (a : Scalars) : Bool := decide (∃ idx, ValidIdx a.shape idx ∧ a.val idx ≠ 0)

/-- `np.add`/`np.subtract` of a Modes and a non-Modes — SWSH_modes/ufuncs.py:69-84.  All operands returning NotImplemented
is numpy's TypeError. -/
noncomputable def Modes.ufuncAddScalar (op : ℂ → ℂ → ℂ) (f : Modes) (a : Scalars) : Py Modes :=
  if a.any then .error .typeError
  else do
    let b ← f.check_broadcasting a
    if b then f.scalarUfunc op a else .error .typeError

/-- `np.multiply`/`np.divide` of a Modes and a non-Modes — SWSH_modes/ufuncs.py:118-133, 137-146. -/
noncomputable def Modes.ufuncMulScalar (op : ℂ → ℂ → ℂ) (f : Modes) (a : Scalars) : Py Modes := do
  let b ← f.check_broadcasting a
  if b then f.scalarUfunc op a else .error .typeError

/-- `Modes.add(other)` / `Modes.subtract(other)` for a non-Modes `other` — SWSH_modes/algebra.py:192-206. -/
noncomputable def Modes.addScalar (f : Modes) (a : Scalars) (subtraction : Bool) : Py Modes :=
  if a.any then .error .valueError
  else f.ufuncAddScalar (if subtraction then (· - ·) else (· + ·)) a

/-- `Modes.multiply(other)` for a non-Modes `other` — SWSH_modes/algebra.py:262-271. -/
noncomputable def Modes.multiplyScalar (f : Modes) (a : Scalars) : Py Modes := do
  let b ← f.check_broadcasting a
  if b then f.ufuncMulScalar (· * ·) a
  else do
    let b ← f.check_broadcasting a
    if b then f.ufuncMulScalar (· * ·) a else .error .valueError

/-- `Modes.divide(other)` for a non-Modes `other` — SWSH_modes/algebra.py:274-278.  Division by zero, which numpy makes
`inf`/`nan`, is not modelled. -/
noncomputable def Modes.divideScalar (f : Modes) (a : Scalars) : Py Modes := f.ufuncMulScalar (· / ·) a

/-- `Modes.divide(other)` for a Modes `other` — SWSH_modes/algebra.py:275-276. -/
def Modes.divideM (_f _g : Modes) : Py Modes := .error .valueError

/-- `np.negative(modes)` — SWSH_modes/ufuncs.py:32-36. -/
noncomputable def Modes.negative (f : Modes) : Py Modes :=
  f.remake f.lead (f.dat.map fun v x => -v x) f.s f.ell_max

/-- `np.positive(modes)` — SWSH_modes/ufuncs.py:32-36. -/
noncomputable def Modes.positive (f : Modes) : Py Modes :=
  f.remake f.lead f.dat f.s f.ell_max

/-! ## derivatives.py -/

/-- `number * slice`. -/
noncomputable def sscale (c : ℂ) (v : Slice) : Slice := fun x => c * v x

/-- `Modes.Lsquared` (and `Rsquared`) — SWSH_modes/derivatives.py:12-43, 151-176. -/
noncomputable def Modes.Lsquared (f : Modes) : Py Modes := do
  let d ← forL (pyRange |f.s| (f.ell_max + 1)) f.dat fun ell d => do
    let i ← f.index ell (-ell)
    let j ← f.index ell ell
    setSlice d i (j + 1) ((getSlice f.dat i (j + 1)).map (sscale ((ell * (ell + 1) : ℤ) : ℂ)))
  return { f with dat := d }

/-- `Modes.Lz` — SWSH_modes/derivatives.py:46-67. -/
noncomputable def Modes.Lz (f : Modes) : Py Modes := do
  let d ← forL (pyRange |f.s| (f.ell_max + 1)) f.dat fun ell d =>
    forL (pyRange (-ell) (ell + 1)) d fun m d => do
      let i ← f.index ell m
      let v ← rd f.dat i
      wr d i (sscale (m : ℂ) v)
  return { f with dat := d }

/-- `math.sqrt` of an integer. -/
noncomputable def isqrtC (n : ℤ) : ℂ := (Real.sqrt (n : ℝ) : ℂ)

/-- `Modes.Lplus` — SWSH_modes/derivatives.py:70-107. -/
noncomputable def Modes.Lplus (f : Modes) : Py Modes := do
  let d ← forL (pyRange |f.s| (f.ell_max + 1)) (zerosLike f.dat) fun ell d => do
    let i ← f.index ell (-ell)
    let d ← wr d i (fun _ => 0)
    forL (pyRange (-ell + 1) (ell + 1)) d fun m d => do
      let j ← f.index ell (m - 1)
      let v ← rd f.dat j
      let i ← f.index ell m
      wr d i (sscale (isqrtC ((ell + m) * (ell - m + 1))) v)
  return { f with dat := d }

/-- `Modes.Lminus` — SWSH_modes/derivatives.py:110-148. -/
noncomputable def Modes.Lminus (f : Modes) : Py Modes := do
  let d ← forL (pyRange |f.s| (f.ell_max + 1)) (zerosLike f.dat) fun ell d => do
    let d ← forL (pyRange (-ell) ell) d fun m d => do
      let j ← f.index ell (m + 1)
      let v ← rd f.dat j
      let i ← f.index ell m
      wr d i (sscale (isqrtC ((ell - m) * (ell + m + 1))) v)
    let i ← f.index ell ell
    wr d i (fun _ => 0)
  return { f with dat := d }

/-- `Modes.Rz` — SWSH_modes/derivatives.py:179-212. -/
noncomputable def Modes.Rz (f : Modes) : Py Modes :=
  f.remake f.lead (f.dat.map (sscale ((-f.s : ℤ) : ℂ))) f.s f.ell_max

/-- Common part of `Rplus` and `Rminus`: `d` is the zero object of the new spin weight. -/
noncomputable def RLoop (f d : Modes) (fac : ℤ → ℤ) : Py Modes := do
  let dat ← forL (pyRange (max |d.s| |f.s|) (d.ell_max + 1)) d.dat fun ell dat =>
    if ell ≥ 0 then do
      let i ← d.index ell (-ell)
      let j ← d.index ell ell
      let i' ← f.index ell (-ell)
      let j' ← f.index ell ell
      setSlice dat i (j + 1) ((getSlice f.dat i' (j' + 1)).map (sscale (isqrtC (fac ell))))
    else .ok dat
  return { d with dat := dat }

/-- `Modes.Rplus` — SWSH_modes/derivatives.py:215-262. -/
noncomputable def Modes.Rplus (f : Modes) : Py Modes := do
  let d ← Modes.new (.array f.lead (zerosLike f.dat)) {} []
    ⟨some (f.s - 1), some (min |f.s - 1| 0), some f.ell_max, f.trunc⟩
  RLoop f d fun ell => (ell - d.s) * (ell + d.s + 1)

/-- `Modes.Rminus` — SWSH_modes/derivatives.py:265-314. -/
noncomputable def Modes.Rminus (f : Modes) : Py Modes := do
  let d ← Modes.new (.array f.lead (zerosLike f.dat)) {} []
    ⟨some (f.s + 1), some (min |f.s + 1| 0), some f.ell_max, f.trunc⟩
  RLoop f d fun ell => (ell + d.s) * (ell - d.s + 1)

/-- `Modes.eth` — SWSH_modes/derivatives.py:317-334. -/
noncomputable def Modes.eth (f : Modes) : Py Modes := f.Rminus

/-- `Modes.ethbar` — SWSH_modes/derivatives.py:337-355. -/
noncomputable def Modes.ethbar (f : Modes) : Py Modes := do
  let d ← f.Rplus
  d.negative

/-! ## utilities.py: evaluation -/

/-- `Modes.evaluate` — SWSH_modes/utilities.py:83-92, for a flattened array of rotors: one slice (over the leading axes)
per rotor. -/
noncomputable def Modes.evaluate (table : List ℝ) (junk : ℕ → ℤ × ℤ) (f : Modes) (Rs : List (ℝ × ℝ × ℝ × ℝ)) :
    Py (List Slice) := do
  let SWSHs ← SWSH_grid table junk Rs f.s f.ell_max
  SWSHs.mapM fun row =>
    let Y := getSlice row (LM_index 0 (-0) 0) (LM_index f.ell_max f.ell_max 0 + 1)
    if Y.length ≠ f.dat.length then .error .valueError
    else .ok fun idx => (List.zipWith (fun v y => v idx * y) f.dat Y).sum

end SF
