import Verif.Model.WignerHFloat

/-! # Two-dimensional arrays of angles and their memory layout

`HCalculator.__call__` flattens `cosβ` and `sinβ` with `ravel(order='K')`, that is, in the order in which the elements lie in memory. -/

set_option autoImplicit false

namespace SF

/-- Memory layout of a contiguous two-dimensional array: by rows (`order='C'`) or by columns (`order='F'`, e.g. a transposed array). -/
inductive Layout | rows | cols
  deriving DecidableEq

/-- A contiguous two-dimensional array of numbers.  Simplification: arrays of other dimensions and strided views are left out. -/
structure Arr2 where
  r : ℕ
  c : ℕ
  layout : Layout
  val : ℕ → ℕ → ℝ

/-- `a.ravel(order='K')` — recursions/wignerH.py:472, 480; WignerD/WignerDRecursion.py:434, 442. -/
def Arr2.ravelK (a : Arr2) : List ℝ :=
  match a.layout with
  | .rows => (List.range (a.r * a.c)).map fun k => a.val (k / a.c) (k % a.c)
  | .cols => (List.range (a.r * a.c)).map fun k => a.val (k % a.r) (k / a.r)

/-- The arguments of `__call__` with two-dimensional arrays — recursions/wignerH.py:467-480. -/
def hArgs2 (cosβ : Arr2) (sinβ : Option Arr2) : HArgs :=
  { cshape := [cosβ.r, cosβ.c], co := cosβ.ravelK, si := sinβ.map fun s => ([s.r, s.c], s.ravelK) }

end SF
