import Verif.Model.ExprFloat
import Verif.Lemmas.Modes
import Verif.Spec.Product

/-!
# The meaning of expressions of Modes objects, and a bound for the rounding errors

For an expression `e`: the mode weights `MExpr.weight e` that it has in exact arithmetic, by the formulas of the docstrings and without
reference to the program; `MExpr.size e`, the same formula with all numbers replaced by their absolute values; and `MExpr.err e`, a bound for
the error of the computed weights, again by recursion over `e`.
-/

set_option autoImplicit false

namespace SF

open Finset ComplexConjugate Spec

/-- Metadata of a Modes object. -/
structure MTy where
  lead : List ℕ
  s : ℤ
  ell_max : ℤ
  trunc : TruncKey

/-- Spin weight of the result of a method. -/
def MOp.spin (o : MOp) (s : ℤ) : ℤ :=
  match o with
  | .Rplus | .ethbar => s - 1
  | .Rminus | .eth => s + 1
  | .bar => -s
  | _ => s

/-- The value of a truncator, if it can be called. -/
def TruncKey.value (k : TruncKey) (L1 L2 : ℤ) : Option ℤ :=
  match k with
  | .absent => some (L1 + L2)
  | .fn t => some (t L1 L2)
  | .isNone => none

/-- `ell_max` of a product: of the explicit truncator, or the larger of the two values of the truncators of the operands. -/
def productEll (t : Option Trunc) (a b : MTy) : Option ℤ :=
  match t with
  | some t => some (t a.ell_max b.ell_max)
  | none => (a.trunc.value a.ell_max b.ell_max).bind fun x => (b.trunc.value a.ell_max b.ell_max).map fun y => max x y

/-- Metadata of the result (meaningful if `MExpr.Ok`). -/
def MExpr.ty : MExpr → MTy
  | .leaf f => ⟨f.lead, f.s, f.ell_max, f.trunc⟩
  | .op o e => { e.ty with s := o.spin e.ty.s }
  | .add _ e1 e2 => ⟨(bcastShape e1.ty.lead e2.ty.lead).getD [], e1.ty.s, max e1.ty.ell_max e2.ty.ell_max, e1.ty.trunc⟩
  | .scale a e => { e.ty with lead := (bcastShape e.ty.lead a.shape).getD [] }
  | .div a e => { e.ty with lead := (bcastShape e.ty.lead a.shape).getD [] }
  | .mul t e1 e2 => ⟨(bcastShape e1.ty.lead e2.ty.lead).getD [], e1.ty.s + e2.ty.s, (productEll t e1.ty e2.ty).getD 0, e1.ty.trunc⟩

/-- Mode weights after a method: `c` are those of a function of spin weight `s` before. -/
noncomputable def MOp.weight (o : MOp) (s : ℤ) (c : ℤ → ℤ → ℂ) (l m : ℤ) : ℂ :=
  match o with
  | .Lsquared => (l * (l + 1) : ℤ) * c l m
  | .Lz => m * c l m
  | .Rz => -s * c l m
  | .Lplus => (Real.sqrt ((l + m) * (l - m + 1) : ℤ) : ℂ) * c l (m - 1)
  | .Lminus => (Real.sqrt ((l - m) * (l + m + 1) : ℤ) : ℂ) * c l (m + 1)
  | .Rplus => (Real.sqrt ((l + s) * (l - s + 1) : ℤ) : ℂ) * c l m
  | .Rminus => (Real.sqrt ((l - s) * (l + s + 1) : ℤ) : ℂ) * c l m
  | .eth => (Real.sqrt ((l - s) * (l + s + 1) : ℤ) : ℂ) * c l m
  | .ethbar => -((Real.sqrt ((l + s) * (l - s + 1) : ℤ) : ℂ) * c l m)
  | .neg => -c l m
  | .bar => (-1 : ℂ) ^ (s + m) * conj (c l (-m))
  | .real => (c l m + (-1 : ℂ) ^ m * conj (c l (-m))) / 2
  | .imag => (c l m - (-1 : ℂ) ^ m * conj (c l (-m))) / (2 * Complex.I)

/-- The same with absolute values. -/
noncomputable def MOp.size (o : MOp) (s : ℤ) (a : ℤ → ℤ → ℝ) (l m : ℤ) : ℝ :=
  match o with
  | .Lsquared => |((l * (l + 1) : ℤ) : ℝ)| * a l m
  | .Lz => |(m : ℝ)| * a l m
  | .Rz => |(s : ℝ)| * a l m
  | .Lplus => Real.sqrt ((l + m) * (l - m + 1) : ℤ) * a l (m - 1)
  | .Lminus => Real.sqrt ((l - m) * (l + m + 1) : ℤ) * a l (m + 1)
  | .Rplus => Real.sqrt ((l + s) * (l - s + 1) : ℤ) * a l m
  | .Rminus => Real.sqrt ((l - s) * (l + s + 1) : ℤ) * a l m
  | .eth => Real.sqrt ((l - s) * (l + s + 1) : ℤ) * a l m
  | .ethbar => Real.sqrt ((l + s) * (l - s + 1) : ℤ) * a l m
  | .neg => a l m
  | .bar => a l (-m)
  | .real => (a l m + a l (-m)) / 2
  | .imag => (a l m + a l (-m)) / 2

/-- Number of roundings of a method. -/
def MOp.rounds : MOp → ℕ
  | .neg | .bar => 0
  | .Lsquared | .Lz | .Rz | .real | .imag => 1
  | _ => 2

/-- Sum over all contributions to mode `(l, m)` of a product. -/
noncomputable def productSum (L1 L2 l m : ℤ) (t : ℤ → ℤ → ℤ → ℤ → ℝ) : ℝ :=
  ∑ l1 ∈ Icc 0 L1, ∑ m1 ∈ Icc (-l1) l1, ∑ l2 ∈ Icc 0 L2, ∑ m2 ∈ Icc (-l2) l2,
    if m1 + m2 = m then Real.sqrt ((2 * l1 + 1) * (2 * l2 + 1) * (2 * l + 1) / (4 * Real.pi)) * t l1 m1 l2 m2 else 0

/-- **Mode weights of an expression.** -/
noncomputable def MExpr.weight : MExpr → ℤ → ℤ → MIdx → ℂ
  | .leaf f => f.coef
  | .op o e => fun l m i => o.weight e.ty.s (fun l m => e.weight l m i) l m
  | .add sub e1 e2 => fun l m i =>
    if sub then e1.weight l m (bcIdx e1.ty.lead i) - e2.weight l m (bcIdx e2.ty.lead i)
    else e1.weight l m (bcIdx e1.ty.lead i) + e2.weight l m (bcIdx e2.ty.lead i)
  | .scale a e => fun l m i => e.weight l m (bcIdx e.ty.lead i) * a.val (bcIdx a.shape i)
  | .div a e => fun l m i => e.weight l m (bcIdx e.ty.lead i) / a.val (bcIdx a.shape i)
  | .mul t e1 e2 => fun l m i =>
    if l ≤ (MExpr.mul t e1 e2).ty.ell_max then
      productMode e1.ty.s e1.ty.ell_max (fun l m => e1.weight l m (bcIdx e1.ty.lead i)) e2.ty.s e2.ty.ell_max
        (fun l m => e2.weight l m (bcIdx e2.ty.lead i)) l m
    else 0

/-- **Size of an expression**: the formula of the weights with absolute values. -/
noncomputable def MExpr.size : MExpr → ℤ → ℤ → MIdx → ℝ
  | .leaf f => fun l m i => ‖f.coef l m i‖
  | .op o e => fun l m i => o.size e.ty.s (fun l m => e.size l m i) l m
  | .add _ e1 e2 => fun l m i => e1.size l m (bcIdx e1.ty.lead i) + e2.size l m (bcIdx e2.ty.lead i)
  | .scale a e => fun l m i => e.size l m (bcIdx e.ty.lead i) * ‖a.val (bcIdx a.shape i)‖
  | .div a e => fun l m i => e.size l m (bcIdx e.ty.lead i) / ‖a.val (bcIdx a.shape i)‖
  | .mul _ e1 e2 => fun l m i => productSum e1.ty.ell_max e2.ty.ell_max l m fun l1 m1 l2 m2 =>
      e1.size l1 m1 (bcIdx e1.ty.lead i) * e2.size l2 m2 (bcIdx e2.ty.lead i)
        * (|threeJ l1 l2 l e1.ty.s e2.ty.s (-e1.ty.s - e2.ty.s)| * |threeJ l1 l2 l m1 m2 (-m)|)

open scoped Classical in
/-- Relative error of a division by the complex number `z`: two roundings if `z` is real, else eight in each component. -/
noncomputable def divErr (u : ℝ) (γ : ℕ → ℝ) (z : ℂ) : ℝ := if z.im = 0 then (1 + u) ^ 2 - 1 else Real.sqrt 2 * γ 8

/-- **Error bound of an expression**: errors of the operands are propagated, and every operation adds its own roundings (relative to the size
of its operands, errors included).  `u` is the unit roundoff, `ε i l1 l2 m m'` the error of the 3-j symbol `(i l1 l2; -m-m' m m')`, and
`γ k` the error of `k` roundings. -/
noncomputable def MExpr.err (u : ℝ) (γ : ℕ → ℝ) (ε : ℤ → ℤ → ℤ → ℤ → ℤ → ℝ) : MExpr → ℤ → ℤ → MIdx → ℝ
  | .leaf _ => fun _ _ _ => 0
  | .op o e => fun l m i => o.size e.ty.s (fun l m => e.err u γ ε l m i) l m
      + ((1 + u) ^ o.rounds - 1) * o.size e.ty.s (fun l m => e.size l m i + e.err u γ ε l m i) l m
  | .add _ e1 e2 => fun l m i =>
      let i1 := bcIdx e1.ty.lead i
      let i2 := bcIdx e2.ty.lead i
      e1.err u γ ε l m i1 + e2.err u γ ε l m i2
        + u * (e1.size l m i1 + e1.err u γ ε l m i1 + (e2.size l m i2 + e2.err u γ ε l m i2))
  | .scale a e => fun l m i =>
      let j := bcIdx e.ty.lead i
      (e.err u γ ε l m j + 2 * ((1 + u) ^ 2 - 1) * (e.size l m j + e.err u γ ε l m j)) * ‖a.val (bcIdx a.shape i)‖
  | .div a e => fun l m i =>
      let j := bcIdx e.ty.lead i
      (e.err u γ ε l m j + divErr u γ (a.val (bcIdx a.shape i)) * (e.size l m j + e.err u γ ε l m j)) / ‖a.val (bcIdx a.shape i)‖
  | .mul _ e1 e2 => fun l m i =>
      let i1 := bcIdx e1.ty.lead i
      let i2 := bcIdx e2.ty.lead i
      productSum e1.ty.ell_max e2.ty.ell_max l m fun l1 m1 l2 m2 =>
        let J := |threeJ l1 l2 l e1.ty.s e2.ty.s (-e1.ty.s - e2.ty.s)|
        let J' := |threeJ l1 l2 l m1 m2 (-m)|
        let x := e1.size l1 m1 i1
        let y := e2.size l2 m2 i2
        let x' := x + e1.err u γ ε l1 m1 i1
        let y' := y + e2.err u γ ε l2 m2 i2
        2 * (x' * y' * ((J + ε l l1 l2 e1.ty.s e2.ty.s) * (J' + ε l l1 l2 m1 m2)
              * (1 + γ (((e1.ty.ell_max + 1) ^ 2 * (e2.ty.ell_max + 1)).toNat + 14)) - J * J'))
          + (x' * y' - x * y) * (J * J')

/-- The expression can be evaluated: well-formed operands, real and imaginary parts of functions of spin weight 0 only, sums of equal spin
weights, leading shapes that broadcast, divisors other than zero, truncators that can be called, and 3-j symbols accurate to `ε`. -/
def MExpr.Ok (w3 : ℤ → ℤ → ℤ → ℤ → Prop) : MExpr → Prop
  | .leaf f => f.WF ∧ 0 ≤ f.ell_max
  | .op o e => e.Ok w3 ∧ (o = .real ∨ o = .imag → e.ty.s = 0)
  | .add _ e1 e2 => e1.Ok w3 ∧ e2.Ok w3 ∧ e1.ty.s = e2.ty.s ∧ (bcastShape e1.ty.lead e2.ty.lead).isSome
  | .scale a e => e.Ok w3 ∧ a.shape.length ≤ e.ty.lead.length ∧ (bcastShape e.ty.lead a.shape).isSome
  | .div a e => e.Ok w3 ∧ a.shape.length ≤ e.ty.lead.length ∧ (bcastShape e.ty.lead a.shape).isSome ∧ ∀ i, a.val i ≠ 0
  | .mul t e1 e2 => e1.Ok w3 ∧ e2.Ok w3 ∧ (bcastShape e1.ty.lead e2.ty.lead).isSome ∧ (productEll t e1.ty e2.ty).isSome ∧
      0 ≤ (MExpr.mul t e1 e2).ty.ell_max ∧ w3 e1.ty.ell_max e1.ty.s e2.ty.ell_max e2.ty.s

/-- No products of Modes objects, and real divisors only. -/
def MExpr.Linear : MExpr → Prop
  | .leaf _ => True
  | .op _ e | .scale _ e => e.Linear
  | .div a e => e.Linear ∧ ∀ i, (a.val i).im = 0
  | .add _ e1 e2 => e1.Linear ∧ e2.Linear
  | .mul _ _ _ => False

/-- Number of roundings on the longest path (products excluded); a complex product counts as four. -/
def MExpr.rounds : MExpr → ℕ
  | .leaf _ => 0
  | .op o e => o.rounds + e.rounds
  | .add _ e1 e2 => 1 + max e1.rounds e2.rounds
  | .scale _ e => 4 + e.rounds
  | .div _ e => 2 + e.rounds
  | .mul _ e1 e2 => max e1.rounds e2.rounds

/-- Expressions that make sense for the values of the functions at a point: no derivatives, and no product loses modes to its truncator. -/
def MExpr.Algebraic : MExpr → Prop
  | .leaf _ => True
  | .op o e => (o = .neg ∨ o = .bar ∨ o = .real ∨ o = .imag) ∧ e.Algebraic
  | .scale _ e | .div _ e => e.Algebraic
  | .add _ e1 e2 => e1.Algebraic ∧ e2.Algebraic
  | .mul t e1 e2 => e1.Algebraic ∧ e2.Algebraic ∧ e1.ty.ell_max + e2.ty.ell_max ≤ (MExpr.mul t e1 e2).ty.ell_max

/-- **The formula itself**: the value at the rotor with parts `Ra`, `Rb`, from the values of the leaves there by arithmetic of complex numbers. -/
noncomputable def MExpr.value (Ra Rb : ℂ) : MExpr → MIdx → ℂ
  | .leaf f => fun i => fieldValue f.s f.ell_max (fun l m => f.coef l m i) Ra Rb
  | .op .neg e => fun i => -e.value Ra Rb i
  | .op .bar e => fun i => conj (e.value Ra Rb i)
  | .op .real e => fun i => ((e.value Ra Rb i).re : ℂ)
  | .op .imag e => fun i => ((e.value Ra Rb i).im : ℂ)
  | .op _ _ => fun _ => 0
  | .add sub e1 e2 => fun i => if sub then e1.value Ra Rb (bcIdx e1.ty.lead i) - e2.value Ra Rb (bcIdx e2.ty.lead i)
      else e1.value Ra Rb (bcIdx e1.ty.lead i) + e2.value Ra Rb (bcIdx e2.ty.lead i)
  | .scale a e => fun i => e.value Ra Rb (bcIdx e.ty.lead i) * a.val (bcIdx a.shape i)
  | .div a e => fun i => e.value Ra Rb (bcIdx e.ty.lead i) / a.val (bcIdx a.shape i)
  | .mul _ e1 e2 => fun i => e1.value Ra Rb (bcIdx e1.ty.lead i) * e2.value Ra Rb (bcIdx e2.ty.lead i)

end SF
