import Verif.Model.Modes
import Verif.Model.WignerDFloat

/-!
# The operators of `Modes` in floating-point arithmetic

A second transcription of the parts of SWSH_modes/algebra.py, derivatives.py and ufuncs.py that compute with mode weights, in which every
floating-point operation that can round is an arbitrary function.

* Negation, complex conjugation and multiplication by `-1j` only exchange and negate components and are exact.
* numpy multiplies a complex number by a real number `c` as by `c + 0j`; the products with 0 vanish and adding them is exact, so that the
  two components are `fl(c x)` and `fl(c y)`.
* Division by 2 is exact (numpy computes `scl = 1/2` and multiplies).
* The factors `ell*(ell+1)`, `m`, `s`, `(ell+m)*(ell-m+1)`, … are Python integers, which are converted to floats; the conversion is exact
  below 2^53.
* Overflow, underflow, infinities and nans are not modelled.
-/

set_option autoImplicit false

namespace SF

open ComplexConjugate

/-- The floating-point operations. -/
structure ModesOps where
  /-- `x + y` -/
  add : ℝ → ℝ → ℝ
  /-- `x * y` -/
  mul : ℝ → ℝ → ℝ
  /-- `x / y` -/
  div : ℝ → ℝ → ℝ
  /-- `math.sqrt`, `np.sqrt` -/
  sqrt : ℝ → ℝ
  /-- `np.add.reduce` -/
  sum : List ℝ → ℝ

/-- Relative errors: `u` for each operation, `δ n` for a sum of `n` non-negative numbers (in whatever order numpy adds them).  Addition is
commutative and symmetric, adding zero and doubling are exact.  (These hold for floating-point arguments; on other reals, where the
operations have no meaning, they may be taken to be exact.) -/
structure ModesOps.Std (F : ModesOps) (u : ℝ) (δ : ℕ → ℝ) : Prop where
  u_nonneg : 0 ≤ u
  add : ∀ x y, RelErr u (F.add x y) (x + y)
  mul : ∀ x y, RelErr u (F.mul x y) (x * y)
  div : ∀ x y, y ≠ 0 → RelErr u (F.div x y) (x / y)
  sqrt : ∀ x, 0 ≤ x → RelErr u (F.sqrt x) (Real.sqrt x)
  δ_nonneg : ∀ n, 0 ≤ δ n
  sum : ∀ l : List ℝ, (∀ x ∈ l, 0 ≤ x) → |F.sum l - l.sum| ≤ δ l.length * l.sum
  add_comm : ∀ x y, F.add x y = F.add y x
  add_neg : ∀ x y, F.add (-x) (-y) = -F.add x y
  add_zero : ∀ x, F.add x 0 = x
  double : ∀ x, F.add x x = 2 * x

variable (F : ModesOps)

/-- Sum of two complex floats. -/
def mAdd (x y : ℂ) : ℂ := ⟨F.add x.re y.re, F.add x.im y.im⟩

/-- Difference of two complex floats. -/
def mSub (x y : ℂ) : ℂ := ⟨F.add x.re (-y.re), F.add x.im (-y.im)⟩

/-- Product of a real (float or integer) and a complex float. -/
def mScale (c : ℝ) (z : ℂ) : ℂ := ⟨F.mul c z.re, F.mul c z.im⟩

/-- Product of two complex floats (numpy's loop). -/
def mMul (x y : ℂ) : ℂ :=
  ⟨F.add (F.mul x.re y.re) (-F.mul x.im y.im), F.add (F.mul x.re y.im) (F.mul x.im y.re)⟩

open scoped Classical in
/-- Quotient of two complex floats (numpy's loop, Smith's algorithm); the divisor is not zero. -/
noncomputable def mDiv (x y : ℂ) : ℂ :=
  if |y.im| ≤ |y.re| then
    let rat := F.div y.im y.re
    let scl := F.div 1 (F.add y.re (F.mul y.im rat))
    ⟨F.mul (F.add x.re (F.mul x.im rat)) scl, F.mul (F.add x.im (-F.mul x.re rat)) scl⟩
  else
    let rat := F.div y.re y.im
    let scl := F.div 1 (F.add y.im (F.mul y.re rat))
    ⟨F.mul (F.add (F.mul x.re rat) x.im) scl, F.mul (F.add (F.mul x.im rat) (-x.re)) scl⟩

/-! ## algebra.py -/

/-- Inner loop body of `realLoopF` — SWSH_modes/algebra.py:97-104. -/
noncomputable def realPairF (src : List Slice → List Slice) (ell m : ℤ) (c : List Slice) : Py (List Slice) := do
  let i_p := LM_index ell m 0
  let i_n := LM_index ell (-m) 0
  let vp ← rd (src c) i_p
  let vn ← rd (src c) i_n
  if m % 2 = 0 then do
    let c ← wr c i_p (fun x => mAdd F (vp x) (conj (vn x)) / 2)
    let w ← rd c i_p
    wr c i_n (fun x => conj (w x))
  else do
    let c ← wr c i_p (fun x => mSub F (vp x) (conj (vn x)) / 2)
    let w ← rd c i_p
    wr c i_n (fun x => -conj (w x))

/-- Loop of `_real_func` — SWSH_modes/algebra.py:94-104. -/
noncomputable def realLoopF (s ell_max : ℤ) (src : List Slice → List Slice) (c : List Slice) : Py (List Slice) :=
  forL (pyRange |s| (ell_max + 1)) c fun ell c => do
    let i := LM_index ell 0 0
    let v ← rd (src c) i
    let c ← wr c i (fun x => ((v x).re : ℂ))
    forL (pyRange 1 (ell + 1)) c (realPairF F src ell)

/-- `Modes._real_func`; the property `real` is the out-of-place variant — SWSH_modes/algebra.py:73-112. -/
noncomputable def Modes.realF (f : Modes) (inplace : Bool) : Py Modes :=
  if f.s ≠ 0 then .error .valueError
  else if inplace then do
    let c ← realLoopF F f.s f.ell_max id f.dat
    return { f with dat := c }
  else do
    let c ← realLoopF F f.s f.ell_max (fun _ => f.dat) (zerosLike f.dat)
    f.remake f.lead c f.s f.ell_max

/-- Inner loop body of `imagLoopF` — SWSH_modes/algebra.py:145-154. -/
noncomputable def imagPairF (src : List Slice → List Slice) (ell m : ℤ) (c : List Slice) : Py (List Slice) := do
  let i_p := LM_index ell m 0
  let i_n := LM_index ell (-m) 0
  let vp ← rd (src c) i_p
  let vn ← rd (src c) i_n
  if m % 2 = 0 then do
    let c ← wr c i_p (fun x => -Complex.I * mSub F (vp x) (conj (vn x)) / 2)
    let w ← rd c i_p
    wr c i_n (fun x => conj (w x))
  else do
    let c ← wr c i_p (fun x => -Complex.I * mAdd F (vp x) (conj (vn x)) / 2)
    let w ← rd c i_p
    wr c i_n (fun x => -conj (w x))

/-- Loop of `_imag_func` — SWSH_modes/algebra.py:142-154. -/
noncomputable def imagLoopF (s ell_max : ℤ) (src : List Slice → List Slice) (c : List Slice) : Py (List Slice) :=
  forL (pyRange |s| (ell_max + 1)) c fun ell c => do
    let i := LM_index ell 0 0
    let v ← rd (src c) i
    let c ← wr c i (fun x => ((v x).im : ℂ))
    forL (pyRange 1 (ell + 1)) c (imagPairF F src ell)

/-- `Modes._imag_func`; the property `imag` is the out-of-place variant — SWSH_modes/algebra.py:115-162. -/
noncomputable def Modes.imagF (f : Modes) (inplace : Bool) : Py Modes :=
  if f.s ≠ 0 then .error .valueError
  else if inplace then do
    let c ← imagLoopF F f.s f.ell_max id f.dat
    return { f with dat := c }
  else do
    let c ← imagLoopF F f.s f.ell_max (fun _ => f.dat) (zerosLike f.dat)
    f.remake f.lead c f.s f.ell_max

/-- `Modes.norm` — SWSH_modes/algebra.py:165-166; `np.linalg.norm(x, axis=-1)` is
`sqrt(add.reduce((x.conj() * x).real, axis=-1))`. -/
noncomputable def Modes.normF (f : Modes) (idx : MIdx) : ℝ :=
  F.sqrt (F.sum (f.dat.map fun v => (mMul F (conj (v idx)) (v idx)).re))

/-- `Modes.add(other)` / `add(other, subtraction=True)` for a Modes `other` — SWSH_modes/algebra.py:169-191. -/
noncomputable def Modes.addF (f g : Modes) (subtraction : Bool) : Py Modes :=
  if f.s ≠ g.s then .error .valueError
  else do
    let ell_max := max f.ell_max g.ell_max
    let lead ← bcastLeads f g
    let result ← npZeros (α := Slice) (LM_total_size 0 ell_max)
    let result ← addSlices (if subtraction then mSub F else mAdd F) lead f.lead g.lead f.ell_max g.ell_max
      (fun _ => f.dat) (fun _ => g.dat) result
    f.remake lead result f.s ell_max

/-- `modes * scalars` — SWSH_modes/ufuncs.py:118-133. -/
noncomputable def Modes.mulScalarF (f : Modes) (a : Scalars) : Py Modes := f.ufuncMulScalar (mMul F) a

/-- `modes / scalars` — SWSH_modes/ufuncs.py:137-146. -/
noncomputable def Modes.divScalarF (f : Modes) (a : Scalars) : Py Modes := f.ufuncMulScalar (mDiv F) a

/-! ## derivatives.py -/

/-- `number * slice`. -/
def sscaleF (c : ℝ) (v : Slice) : Slice := fun x => mScale F c (v x)

/-- `Modes.Lsquared` (and `Rsquared`) — SWSH_modes/derivatives.py:12-43, 151-176. -/
noncomputable def Modes.LsquaredF (f : Modes) : Py Modes := do
  let d ← forL (pyRange |f.s| (f.ell_max + 1)) f.dat fun ell d => do
    let i ← f.index ell (-ell)
    let j ← f.index ell ell
    setSlice d i (j + 1) ((getSlice f.dat i (j + 1)).map (sscaleF F ((ell * (ell + 1) : ℤ) : ℝ)))
  return { f with dat := d }

/-- `Modes.Lz` — SWSH_modes/derivatives.py:46-67. -/
noncomputable def Modes.LzF (f : Modes) : Py Modes := do
  let d ← forL (pyRange |f.s| (f.ell_max + 1)) f.dat fun ell d =>
    forL (pyRange (-ell) (ell + 1)) d fun m d => do
      let i ← f.index ell m
      let v ← rd f.dat i
      wr d i (sscaleF F (m : ℝ) v)
  return { f with dat := d }

/-- `math.sqrt` of an integer. -/
noncomputable def isqrtF (n : ℤ) : ℝ := F.sqrt (n : ℝ)

/-- `Modes.Lplus` — SWSH_modes/derivatives.py:70-107. -/
noncomputable def Modes.LplusF (f : Modes) : Py Modes := do
  let d ← forL (pyRange |f.s| (f.ell_max + 1)) (zerosLike f.dat) fun ell d => do
    let i ← f.index ell (-ell)
    let d ← wr d i (fun _ => 0)
    forL (pyRange (-ell + 1) (ell + 1)) d fun m d => do
      let j ← f.index ell (m - 1)
      let v ← rd f.dat j
      let i ← f.index ell m
      wr d i (sscaleF F (isqrtF F ((ell + m) * (ell - m + 1))) v)
  return { f with dat := d }

/-- `Modes.Lminus` — SWSH_modes/derivatives.py:110-148. -/
noncomputable def Modes.LminusF (f : Modes) : Py Modes := do
  let d ← forL (pyRange |f.s| (f.ell_max + 1)) (zerosLike f.dat) fun ell d => do
    let d ← forL (pyRange (-ell) ell) d fun m d => do
      let j ← f.index ell (m + 1)
      let v ← rd f.dat j
      let i ← f.index ell m
      wr d i (sscaleF F (isqrtF F ((ell - m) * (ell + m + 1))) v)
    let i ← f.index ell ell
    wr d i (fun _ => 0)
  return { f with dat := d }

/-- `Modes.Rz` — SWSH_modes/derivatives.py:179-212. -/
noncomputable def Modes.RzF (f : Modes) : Py Modes :=
  f.remake f.lead (f.dat.map (sscaleF F ((-f.s : ℤ) : ℝ))) f.s f.ell_max

/-- Common part of `Rplus` and `Rminus`: `d` is the zero object of the new spin weight. -/
noncomputable def RLoopF (f d : Modes) (fac : ℤ → ℤ) : Py Modes := do
  let dat ← forL (pyRange (max |d.s| |f.s|) (d.ell_max + 1)) d.dat fun ell dat =>
    if ell ≥ 0 then do
      let i ← d.index ell (-ell)
      let j ← d.index ell ell
      let i' ← f.index ell (-ell)
      let j' ← f.index ell ell
      setSlice dat i (j + 1) ((getSlice f.dat i' (j' + 1)).map (sscaleF F (isqrtF F (fac ell))))
    else .ok dat
  return { d with dat := dat }

/-- `Modes.Rplus` — SWSH_modes/derivatives.py:215-262. -/
noncomputable def Modes.RplusF (f : Modes) : Py Modes := do
  let d ← Modes.new (.array f.lead (zerosLike f.dat)) {} []
    ⟨some (f.s - 1), some (min |f.s - 1| 0), some f.ell_max, f.trunc⟩
  RLoopF F f d fun ell => (ell - d.s) * (ell + d.s + 1)

/-- `Modes.Rminus` — SWSH_modes/derivatives.py:265-314. -/
noncomputable def Modes.RminusF (f : Modes) : Py Modes := do
  let d ← Modes.new (.array f.lead (zerosLike f.dat)) {} []
    ⟨some (f.s + 1), some (min |f.s + 1| 0), some f.ell_max, f.trunc⟩
  RLoopF F f d fun ell => (ell + d.s) * (ell - d.s + 1)

/-- `Modes.eth` — SWSH_modes/derivatives.py:317-334. -/
noncomputable def Modes.ethF (f : Modes) : Py Modes := f.RminusF F

/-- `Modes.ethbar` — SWSH_modes/derivatives.py:337-355 (negation is exact). -/
noncomputable def Modes.ethbarF (f : Modes) : Py Modes := do
  let d ← f.RplusF F
  d.negative

end SF
