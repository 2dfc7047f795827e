import Verif.Model.ConvFloat
import Verif.Model.Multiplication

/-!
# `multiplication.py` in floating-point arithmetic

A second transcription of `_multiplication_helper` and `Modes.multiply`, in which every floating-point operation that can round is
an arbitrary function.

* The array returned by `Wigner3jCalculator.calculate(j2, j3, m2, m3)` is an arbitrary function `w3 j2 j3 m2 m3` of the arguments: `calculate`
  clears its workspace first, so it does not depend on earlier calls, and the two calculators of `_multiplication_helper` do not share memory.
* The integers `2*ell+1` are converted to floats exactly.  `math.pow(-1, n)` is exact.
* The product of a real and a complex number has the components `fl(c x)`, `fl(c y)` (see ModesFloat); the product of two complex numbers
  rounds its four products and two sums.
* Overflow, underflow, infinities and nans are not modelled.
-/

set_option autoImplicit false

namespace SF

variable (F : ConvOps)

/-- `sqrt1` — multiplication.py:17. -/
noncomputable def sqrt1F (ell1 : ℤ) : ℝ := F.sqrt (F.div ((2 * ell1 + 1 : ℤ) : ℝ) (F.mul 4 F.pi))

/-- `sqrt2` — multiplication.py:21. -/
noncomputable def sqrt2F (ell2 : ℤ) : ℝ := F.sqrt ((2 * ell2 + 1 : ℤ) : ℝ)

/-- The real factor in front of `sum1 * sum2` — multiplication.py:29-34. -/
noncomputable def mulCoefF (n ell3 : ℤ) (ws wm : ℝ) : ℝ :=
  F.mul (F.mul (F.mul ((-1 : ℝ) ^ n) (F.sqrt ((2 * ell3 + 1 : ℤ) : ℝ))) ws) wm

/-- Body of the loop over `ell3` — multiplication.py:27-34. -/
noncomputable def mulBodyF (w3j_s w3j_m : List ℝ) (sum1 sum2 : Slice) (ell1 ell2 s_fg m3 ellmin_fg ell3 : ℤ) (fg : List Slice) : Py (List Slice) := do
  let ws ← rd w3j_s ell3
  let wm ← rd w3j_m ell3
  let i := LM_index ell3 m3 ellmin_fg
  let old ← rd fg i
  wr fg i fun x => mAdd F.toModesOps (old x) (mMul F.toModesOps
    (mScale F.toModesOps (mulCoefF F (ell1 + ell2 + ell3 + s_fg + m3) ell3 ws wm) (sum1 x)) (sum2 x))

/-- `_multiplication_helper` — multiplication.py:8-35, for an output array that does not share memory with the operands. -/
noncomputable def mulHelperF (w3 : ℤ → ℤ → ℤ → ℤ → Py (List ℝ)) (leadf leadg lead : List ℕ) (f : List Slice) (ellmin_f ellmax_f s_f : ℤ)
    (g : List Slice) (ellmin_g ellmax_g s_g : ℤ) (fg : List Slice) (ellmin_fg ellmax_fg s_fg : ℤ) : Py (List Slice) :=
  forL (pyRange ellmin_f (ellmax_f + 1)) fg fun ell1 fg =>
    forL (pyRange (-ell1) (ell1 + 1)) fg fun m1 fg => do
      let v1 ← rd f (LM_index ell1 m1 ellmin_f)
      let sum1 := fun x => mScale F.toModesOps (sqrt1F F ell1) (bcTo leadf lead v1 x)
      forL (pyRange ellmin_g (ellmax_g + 1)) fg fun ell2 fg => do
        let w3j_s ← w3 ell1 ell2 s_f s_g
        forL (pyRange (-ell2) (ell2 + 1)) fg fun m2 fg => do
          let w3j_m ← w3 ell1 ell2 m1 m2
          let v2 ← rd g (LM_index ell2 m2 ellmin_g)
          let sum2 := fun x => mScale F.toModesOps (sqrt2F F ell2) (bcTo leadg lead v2 x)
          let m3 := m1 + m2
          forL (pyRange (max |m3| |ell1 - ell2|) (min (ell1 + ell2) ellmax_fg + 1)) fg
            (mulBodyF F w3j_s w3j_m sum1 sum2 ell1 ell2 s_fg m3 ellmin_fg)

/-- `Modes.multiply(other, truncator)` for a Modes `other` — SWSH_modes/algebra.py:237-261. -/
noncomputable def Modes.multiplyMF (w3 : ℤ → ℤ → ℤ → ℤ → Py (List ℝ)) (f g : Modes) (truncator : Option Trunc) : Py Modes := do
  let new_s := f.s + g.s
  let new_ell_max ← match truncator with
    | some t => .ok (t f.ell_max g.ell_max)
    | none => do
      let a ← f.trunc.call f.ell_max g.ell_max
      let b ← g.trunc.call f.ell_max g.ell_max
      pure (max a b)
  let lead ← bcastLeads f g
  let new ← npZeros (α := Slice) (LM_total_size 0 new_ell_max)
  let new ← mulHelperF F w3 f.lead g.lead lead f.dat 0 f.ell_max f.s g.dat 0 g.ell_max g.s new 0 new_ell_max new_s
  f.remake lead new new_s new_ell_max

/-- `multiply(f, ellmin_f, ellmax_f, s_f, g, ellmin_g, ellmax_g, s_g)` — multiplication.py:38-106; arrays of leading shapes `leadf`, `leadg` as
lists of the slices `f[..., i]`. -/
noncomputable def multiplyFnF (w3 : ℤ → ℤ → ℤ → ℤ → Py (List ℝ)) (leadf : List ℕ) (f : List Slice) (ellmin_f ellmax_f s_f : ℤ)
    (leadg : List ℕ) (g : List Slice) (ellmin_g ellmax_g s_g : ℤ) : Py ((List ℕ × List Slice) × ℤ × ℤ × ℤ) := do
  let s_fg := s_f + s_g
  let ellmax_fg := ellmax_f + ellmax_g
  let ellmin_fg := 0
  if f = [] ∨ g = [] then .error .indexError
  else match bcastShape leadf leadg with
    | none => .error .valueError
    | some lead => do
      let fg ← npZeros (α := Slice) (LM_total_size 0 ellmax_fg)
      let fg ← mulHelperF F w3 leadf leadg lead f ellmin_f ellmax_f s_f g ellmin_g ellmax_g s_g fg ellmin_fg ellmax_fg s_fg
      return ((lead, fg), ellmin_fg, ellmax_fg, s_fg)

end SF
