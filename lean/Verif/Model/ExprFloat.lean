import Verif.Model.MultFloat

/-!
# Expressions made of the operations of `Modes`, in floating-point arithmetic

A user's formula with Modes objects, such as `(f * g.bar + 2*h).eth`, is a tree of calls of the methods modelled in Model/ModesFloat and
Model/MultFloat; `MExpr.runF` makes these calls.
-/

set_option autoImplicit false

namespace SF

/-- The methods of `Modes` without further arguments: SWSH_modes/derivatives.py:12-355, `-f` (ufuncs.py:32-36), `f.bar` (algebra.py:11-70),
`f.real`, `f.imag` (algebra.py:73-162). -/
inductive MOp
  | Lsquared | Lz | Rz | Lplus | Lminus | Rplus | Rminus | eth | ethbar | neg | bar | real | imag
  deriving DecidableEq

/-- Expressions: Modes objects, methods, `e1 + e2` / `e1 - e2`, `numbers * e`, `e / numbers`, `e1.multiply(e2, truncator)`. -/
inductive MExpr
  | leaf (f : Modes)
  | op (o : MOp) (e : MExpr)
  | add (sub : Bool) (e1 e2 : MExpr)
  | scale (a : Scalars) (e : MExpr)
  | div (a : Scalars) (e : MExpr)
  | mul (t : Option Trunc) (e1 e2 : MExpr)

variable (F : ConvOps)

/-- The call of a method. -/
noncomputable def MOp.runF : MOp → Modes → Py Modes
  | .Lsquared => Modes.LsquaredF F.toModesOps
  | .Lz => Modes.LzF F.toModesOps
  | .Rz => Modes.RzF F.toModesOps
  | .Lplus => Modes.LplusF F.toModesOps
  | .Lminus => Modes.LminusF F.toModesOps
  | .Rplus => Modes.RplusF F.toModesOps
  | .Rminus => Modes.RminusF F.toModesOps
  | .eth => Modes.ethF F.toModesOps
  | .ethbar => Modes.ethbarF F.toModesOps
  | .neg => Modes.negative
  | .bar => fun f => f.conjugate false
  | .real => fun f => f.realF F.toModesOps false
  | .imag => fun f => f.imagF F.toModesOps false

/-- The evaluation of an expression; `w3` computes the arrays of 3-j symbols. -/
noncomputable def MExpr.runF (w3 : ℤ → ℤ → ℤ → ℤ → Py (List ℝ)) : MExpr → Py Modes
  | .leaf f => .ok f
  | .op o e => do
    let f ← e.runF w3
    o.runF F f
  | .add sub e1 e2 => do
    let f ← e1.runF w3
    let g ← e2.runF w3
    f.addF F.toModesOps g sub
  | .scale a e => do
    let f ← e.runF w3
    f.mulScalarF F.toModesOps a
  | .div a e => do
    let f ← e.runF w3
    f.divScalarF F.toModesOps a
  | .mul t e1 e2 => do
    let f ← e1.runF w3
    let g ← e2.runF w3
    f.multiplyMF F w3 g t

end SF
