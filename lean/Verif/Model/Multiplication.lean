import Verif.Model.Modes
import Verif.Model.Wigner3j

/-!
# Model of the product of mode weights (`multiplication.py`, `Modes.multiply`)

Arrays are kept as lists of slices `a[..., i]`, as in `Verif.Model.Modes`.  Arithmetic is exact.
-/

set_option autoImplicit false

namespace SF

/-- What a Python variable holding the result of `calculate` sees: the array is a view of the first quarter of the
workspace, so it changes with the next call on the same calculator — recursions/wigner3j.py:105, 70-72 -/
def W3Calc.view (c : W3Calc) : List ℝ := c.workspace.take c.size.toNat

/-- The mutable state of `_multiplication_helper`: the two calculators and the output array. -/
structure MulState where
  sc : W3Calc
  mc : W3Calc
  fg : List Slice

/-- Body of the loop over `ell3` — multiplication.py:27-34.  `sum1`, `sum2` are already broadcast to the shape of `fg[..., i]`. -/
noncomputable def mulBody (sum1 sum2 : Slice) (ell1 ell2 s_fg m3 ellmin_fg ell3 : ℤ) (st : MulState) : Py MulState := do
  let ws ← rd st.sc.view ell3
  let wm ← rd st.mc.view ell3
  let i := LM_index ell3 m3 ellmin_fg
  let old ← rd st.fg i
  let fg ← wr st.fg i fun x => old x
    + (((-1 : ℝ) ^ (ell1 + ell2 + ell3 + s_fg + m3) * Real.sqrt (2 * ell3 + 1) * ws * wm : ℝ) : ℂ) * sum1 x * sum2 x
  return { st with fg := fg }

/-- `_multiplication_helper` — multiplication.py:8-35.  `leadf`, `leadg`, `lead` are the leading shapes of `f`, `g`, `fg`;
`junk`, `junk'` the initial contents of the workspaces.  `f`, `g` give the contents of the operands when the output array
contains the argument: constant functions, unless the output shares memory with an operand. -/
noncomputable def mulHelper (junk junk' : ℕ → ℝ) (leadf leadg lead : List ℕ) (f : List Slice → List Slice) (ellmin_f ellmax_f s_f : ℤ)
    (g : List Slice → List Slice) (ellmin_g ellmax_g s_g : ℤ) (fg : List Slice) (ellmin_fg ellmax_fg s_fg : ℤ) : Py (List Slice) := do
  let sc ← W3Calc.new junk ellmax_f ellmax_g
  let mc ← W3Calc.new junk' ellmax_f ellmax_g
  let st ← forL (pyRange ellmin_f (ellmax_f + 1)) (⟨sc, mc, fg⟩ : MulState) fun ell1 st =>
    let sqrt1 := Real.sqrt ((2 * ell1 + 1) / (4 * Real.pi))
    forL (pyRange (-ell1) (ell1 + 1)) st fun m1 st => do
      let v1 ← rd (f st.fg) (LM_index ell1 m1 ellmin_f)
      let sum1 := fun x => (sqrt1 : ℂ) * bcTo leadf lead v1 x
      forL (pyRange ellmin_g (ellmax_g + 1)) st fun ell2 st => do
        let sqrt2 := Real.sqrt (2 * ell2 + 1)
        let (_, sc) ← st.sc.calculate ell1 ell2 s_f s_g
        forL (pyRange (-ell2) (ell2 + 1)) { st with sc := sc } fun m2 st => do
          let (_, mc) ← st.mc.calculate ell1 ell2 m1 m2
          let v2 ← rd (g st.fg) (LM_index ell2 m2 ellmin_g)
          let sum2 := fun x => (sqrt2 : ℂ) * bcTo leadg lead v2 x
          let m3 := m1 + m2
          forL (pyRange (max |m3| |ell1 - ell2|) (min (ell1 + ell2) ellmax_fg + 1)) { st with mc := mc }
            (mulBody sum1 sum2 ell1 ell2 s_fg m3 ellmin_fg)
  return st.fg

/-- `multiply` — multiplication.py:38-109, for arrays of leading shapes `leadf`, `leadg`.  Result: leading shape and data of
`fg`, and `ellmin_fg`, `ellmax_fg`, `s_fg`. -/
noncomputable def multiplyFn (junk junk' : ℕ → ℝ) (leadf : List ℕ) (f : List Slice) (ellmin_f ellmax_f s_f : ℤ)
    (leadg : List ℕ) (g : List Slice) (ellmin_g ellmax_g s_g : ℤ) : Py ((List ℕ × List Slice) × ℤ × ℤ × ℤ) := do
  let s_fg := s_f + s_g
  let ellmax_fg := ellmax_f + ellmax_g
  let ellmin_fg := 0
  if f = [] ∨ g = [] then .error .indexError
  else match bcastShape leadf leadg with
    | none => .error .valueError
    | some lead => do
      let fg ← npZeros (α := Slice) (LM_total_size 0 ellmax_fg)
      let fg ← mulHelper junk junk' leadf leadg lead (fun _ => f) ellmin_f ellmax_f s_f (fun _ => g) ellmin_g ellmax_g s_g fg ellmin_fg ellmax_fg s_fg
      return ((lead, fg), ellmin_fg, ellmax_fg, s_fg)

/-- One entry of the list of truncators — SWSH_modes/algebra.py:245-251: a missing entry is `sum`; calling `None` is a
TypeError. -/
def TruncKey.call : TruncKey → ℤ → ℤ → Py ℤ
  | .absent, a, b => .ok (a + b)
  | .isNone, _, _ => .error .typeError
  | .fn t, a, b => .ok (t a b)

/-- `Modes.multiply(other, truncator)` for a Modes `other` — SWSH_modes/algebra.py:237-261. -/
noncomputable def Modes.multiplyM (junk junk' : ℕ → ℝ) (f g : Modes) (truncator : Option Trunc) : Py Modes := do
  let new_s := f.s + g.s
  let new_ell_max ← match truncator with
    | some t => .ok (t f.ell_max g.ell_max)
    | none => do
      let a ← f.trunc.call f.ell_max g.ell_max
      let b ← g.trunc.call f.ell_max g.ell_max
      pure (max a b)
  let lead ← bcastLeads f g
  let new ← npZeros (α := Slice) (LM_total_size 0 new_ell_max)
  let new ← mulHelper junk junk' f.lead g.lead lead (fun _ => f.dat) 0 f.ell_max f.s (fun _ => g.dat) 0 g.ell_max g.s new 0 new_ell_max new_s
  f.remake lead new new_s new_ell_max

end SF
