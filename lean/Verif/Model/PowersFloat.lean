import Verif.Model.Recursions
import Verif.Model.WignerDFloat

/-!
# `complex_powers` in floating-point arithmetic

A second transcription of `recursions/complex_powers.py` in which every floating-point operation that can round is an arbitrary function.
Multiplications and divisions by powers of `i` only exchange and negate components and are exact, and so is adding zero to a component.
-/

set_option autoImplicit false

namespace SF

/-- The floating-point operations used by `complex_powers`. -/
structure PowOps where
  /-- `x + y` -/
  add : ℝ → ℝ → ℝ
  /-- `x * y` -/
  mul : ℝ → ℝ → ℝ
  /-- `np.sqrt(x)` for real `x` -/
  sqrt : ℝ → ℝ
  /-- `np.sqrt(z).imag` for complex `z` -/
  sqrtIm : ℂ → ℝ

/-- Every operation has relative error at most `u` (no underflow); doubling is exact. -/
structure PowOps.Std (F : PowOps) (u : ℝ) : Prop where
  u_nonneg : 0 ≤ u
  add : ∀ x y, RelErr u (F.add x y) (x + y)
  mul : ∀ x y, RelErr u (F.mul x y) (x * y)
  double : ∀ x, F.mul 2 x = 2 * x ∧ F.mul (-2) x = -2 * x
  sqrt : ∀ x, 0 ≤ x → RelErr u (F.sqrt x) (Real.sqrt x)
  sqrtIm : ∀ z : ℂ, 0 ≤ z.re → 0 ≤ z.im → RelErr u (F.sqrtIm z) (npSqrtC z).im

/-- Sum of two complex floats. -/
def caddP (F : PowOps) (x y : ℂ) : ℂ := ⟨F.add x.re y.re, F.add x.im y.im⟩

/-- Product of a real and a complex float.  (The products with the zero imaginary part of the real factor are exact zeros.) -/
def rsmulP (F : PowOps) (t : ℝ) (z : ℂ) : ℂ := ⟨F.mul t z.re, F.mul t z.im⟩

/-- Body of the loop at recursions/complex_powers.py:61-65 (one row of `zpowers`). -/
def powerStepF (F : PowOps) (t : ℝ) (th : ℂ) (m : ℤ) (st : List ℂ × ℂ × ℂ) : Py (List ℂ × ℂ × ℂ) := do
  let (row, dz, clock) := st
  let prev ← rd row (m - 1)
  let row ← wr row m (caddP F prev dz)
  let cur ← rd row m
  let dz := caddP F dz (rsmulP F t cur)
  let row ← upd row (m - 1) (fun x => x * clock)
  return (row, dz, clock * th)

/-- Loop body at recursions/complex_powers.py:50-66 for one `i`. -/
noncomputable def powersRowF (F : PowOps) (fuel : ℕ) (z : ℂ) (M : ℤ) (row : List ℂ) : Py (List ℂ) := do
  let (z, th) ← quadLoop fuel z 1
  let row ← wr row 0 1
  let row ← wr row 1 z
  let s := F.sqrtIm z
  let dc : ℝ := F.mul (-2) (F.mul s s)
  let t : ℝ := F.mul 2 dc
  let z1 ← rd row 1
  let dz : ℂ := caddP F (rsmulP F dc ⟨F.add 1 (F.mul 2 z1.re), F.mul 2 z1.im⟩) ⟨0, F.sqrt (F.mul (-dc) (F.add 2 dc))⟩
  let (row, _, clock) ← forL (pyRange 2 (M + 1)) (row, dz, th) (powerStepF F t th)
  upd row M (fun x => x * clock)

/-- `_complex_powers` — recursions/complex_powers.py:46-66. -/
noncomputable def _complex_powersF (F : PowOps) (fuel : ℕ) (zravel : List ℂ) (M : ℤ) (zpowers : List (List ℂ)) :
    Py (List (List ℂ)) :=
  forL (pyRange 0 zravel.length) zpowers fun i zp => do
    let z ← rd zravel i
    let row ← rd zp i
    let row ← powersRowF F fuel z M row
    wr zp i row

/-- `complex_powers` — recursions/complex_powers.py:7-43; see `complex_powers`. -/
noncomputable def complex_powersF (F : PowOps) (fuel : ℕ) (junk : ℕ → ℕ → ℂ) (shape : List ℕ) (z : List ℂ) (M : ℤ)
    (zpowers : Option OutArr) : Py (List ℕ × List ℂ) := do
  let buf ← match zpowers with
    | some out => if out.ndim = 2 then pure out.rows else throw PyErr.typeError
    | none =>
      if M + 1 < 0 then throw PyErr.valueError
      else pure ((List.range z.length).map fun i => (List.range (M + 1).toNat).map (junk i))
  let out ← _complex_powersF F fuel z M buf
  if (out.flatten.length : ℤ) = (shape.prod : ℤ) * (M + 1) then
    return (shape ++ [(M + 1).toNat], out.flatten)
  else throw PyErr.valueError

end SF
