import Verif.Model.WignerD

/-!
# `_Wigner_D_element` in floating-point arithmetic

A second transcription of the kernel of `WignerD/__init__.py`, in which every floating-point operation is an arbitrary function.
`FloatOps.Std` says that each of them has a small relative error (the "standard model" of rounding error analysis: no overflow, no
underflow).  Integer arithmetic and the half-integer exponents are exact (they are small multiples of 1/2, represented exactly).
-/

set_option autoImplicit false

namespace SF

/-- The floating-point operations and library functions used by the kernel. -/
structure FloatOps where
  /-- `x + y` -/
  add : ℝ → ℝ → ℝ
  /-- `x * y` -/
  mul : ℝ → ℝ → ℝ
  /-- `x / y` -/
  div : ℝ → ℝ → ℝ
  /-- `x ** y` -/
  pow : ℝ → ℝ → ℝ
  /-- `cos`, used by `cmath.rect` -/
  cos : ℝ → ℝ
  /-- `sin`, used by `cmath.rect` -/
  sin : ℝ → ℝ
  /-- modulus, used by `cmath.polar` -/
  abs : ℂ → ℝ
  /-- argument, used by `cmath.polar` -/
  arg : ℂ → ℝ
  /-- `z ** n` for complex `z` and integer `n` -/
  cpow : ℂ → ℤ → ℂ

/-- `x'` approximates `x` with relative error at most `u`. -/
def RelErr (u x' x : ℝ) : Prop := |x' - x| ≤ u * |x|

/-- Every operation has relative error at most `u`; the complex power has relative error at most `w`. -/
structure FloatOps.Std (F : FloatOps) (u w : ℝ) : Prop where
  u_nonneg : 0 ≤ u
  u_lt_one : u < 1
  add : ∀ x y, RelErr u (F.add x y) (x + y)
  mul : ∀ x y, RelErr u (F.mul x y) (x * y)
  div : ∀ x y, y ≠ 0 → RelErr u (F.div x y) (x / y)
  pow : ∀ x y, 0 < x → RelErr u (F.pow x y) (x ^ y)
  cos : ∀ x, RelErr u (F.cos x) (Real.cos x)
  sin : ∀ x, RelErr u (F.sin x) (Real.sin x)
  abs : ∀ z, RelErr u (F.abs z) ‖z‖
  arg : ∀ z, RelErr u (F.arg z) (Complex.arg z)
  cpow : ∀ z n, z ≠ 0 → ‖F.cpow z n - z ^ n‖ ≤ w * ‖z ^ n‖

/-- `cmath.rect(r, phi)`: `complex(r*cos(phi), r*sin(phi))`. -/
noncomputable def rectF (F : FloatOps) (r phi : ℝ) : ℂ := ⟨F.mul r (F.cos phi), F.mul r (F.sin phi)⟩

/-- Product of a complex and a real float.  (The products with the zero imaginary part of the real factor are exact zeros.) -/
noncomputable def smulF (F : FloatOps) (z : ℂ) (x : ℝ) : ℂ := ⟨F.mul z.re x, F.mul z.im x⟩

open scoped Classical in
/-- The inner loop — WignerD/__init__.py:235-238, 272-275. -/
noncomputable def hornerLoop2F (F : FloatOps) (x : ℝ) (twoN1 twoN2 twoM tworhoMax tworhoMin : ℤ) : Py ℝ :=
  forL (pyRangeDown2 tworhoMax tworhoMin) (1 : ℝ) fun tworho Sum =>
    if ((tworho * (twoM + tworho) : ℤ) : ℝ) = 0 then .error .zeroDivision
    else .ok (F.add (F.mul Sum (F.div (F.mul x (((twoN1 - tworho) * (twoN2 - tworho) : ℤ) : ℝ))
      ((tworho * (twoM + tworho) : ℤ) : ℝ))) 1)

/-- Branch `ra <= epsilon` — WignerD/__init__.py:181-189. -/
noncomputable def elemF_ra_small (F : FloatOps) (Rb : ℂ) (twoell twomp twom : ℤ) : ℂ :=
  if twomp ≠ -twom ∨ |twomp| > twoell ∨ |twom| > twoell then 0
  else if (twoell - twom) % 4 = 0 then F.cpow Rb twom
  else -F.cpow Rb twom

/-- Branch `rb <= epsilon` — WignerD/__init__.py:192-197. -/
noncomputable def elemF_rb_small (F : FloatOps) (Ra : ℂ) (twoell twomp twom : ℤ) : ℂ :=
  if twomp ≠ twom ∨ |twomp| > twoell ∨ |twom| > twoell then 0
  else F.cpow Ra twom

open scoped Classical in
/-- Branch `ra < rb` — WignerD/__init__.py:202-239.  (`Prefactor *= -1` is exact.) -/
noncomputable def elemF_ra_lt_rb (F : FloatOps) (table : List ℝ) (ra phia rb phib : ℝ) (twoell twomp twom : ℤ) : Py ℂ :=
  let absRRatioSquared := F.div (F.mul (-ra) ra) (F.mul rb rb)
  if |twomp| > twoell ∨ |twom| > twoell then .ok 0
  else do
    let tworhoMin := max 0 (-twomp - twom)
    let c ← Wigner_coefficient_two table twoell (-twomp) twom
    let Prefactor := rectF F
      (F.mul (F.mul c (F.pow rb ((twoell : ℝ) - ((twom + twomp : ℤ) : ℝ) / 2 - tworhoMin)))
         (F.pow ra (((twom + twomp : ℤ) : ℝ) / 2 + tworhoMin)))
      (F.add (F.div (F.mul phib ((twom - twomp : ℤ) : ℝ)) 2) (F.div (F.mul phia ((twom + twomp : ℤ) : ℝ)) 2))
    if Prefactor = 0 then .ok 0
    else do
      let Prefactor := if (twoell - twom - tworhoMin) % 4 ≠ 0 then -Prefactor else Prefactor
      let tworhoMax := min (twoell - twomp) (twoell - twom)
      let Sum ← hornerLoop2F F absRRatioSquared (twoell - twomp + 2) (twoell - twom + 2) (twom + twomp)
        tworhoMax tworhoMin
      return smulF F Prefactor Sum

open scoped Classical in
/-- Branch `ra >= rb` — WignerD/__init__.py:241-276. -/
noncomputable def elemF_ra_ge_rb (F : FloatOps) (table : List ℝ) (ra phia rb phib : ℝ) (twoell twomp twom : ℤ) : Py ℂ :=
  let absRRatioSquared := F.div (F.mul (-rb) rb) (F.mul ra ra)
  if |twomp| > twoell ∨ |twom| > twoell then .ok 0
  else do
    let tworhoMin := max 0 (twomp - twom)
    let c ← Wigner_coefficient_two table twoell twomp twom
    let Prefactor := rectF F
      (F.mul (F.mul c (F.pow ra ((twoell : ℝ) - (twom : ℝ) / 2 + (twomp : ℝ) / 2 - tworhoMin)))
         (F.pow rb ((twom : ℝ) / 2 - (twomp : ℝ) / 2 + tworhoMin)))
      (F.add (F.div (F.mul phia ((twom + twomp : ℤ) : ℝ)) 2) (F.div (F.mul phib ((twom - twomp : ℤ) : ℝ)) 2))
    if Prefactor = 0 then .ok 0
    else do
      let Prefactor := if tworhoMin % 4 ≠ 0 then -Prefactor else Prefactor
      let tworhoMax := min (twoell + twomp) (twoell - twom)
      let Sum ← hornerLoop2F F absRRatioSquared (twoell + twomp + 2) (twoell - twom + 2) (twom - twomp)
        tworhoMax tworhoMin
      return smulF F Prefactor Sum

open scoped Classical in
/-- `_Wigner_D_element` — WignerD/__init__.py:149-276.  `eps` is the float `epsilon`. -/
noncomputable def Wigner_D_element_kernelF (F : FloatOps) (eps : ℝ) (table : List ℝ) (Ra Rb : ℂ) (indices : List (ℤ × ℤ × ℤ))
    (elements : List ℂ) : Py (List ℂ) :=
  let ra := F.abs Ra
  let phia := F.arg Ra
  let rb := F.abs Rb
  let phib := F.arg Rb
  let N : ℤ := indices.length
  if ra ≤ eps then
    forL (pyRange 0 N) elements fun i elements => do
      let t ← rd indices i
      wr elements i (elemF_ra_small F Rb t.1 t.2.1 t.2.2)
  else if rb ≤ eps then
    forL (pyRange 0 N) elements fun i elements => do
      let t ← rd indices i
      wr elements i (elemF_rb_small F Ra t.1 t.2.1 t.2.2)
  else if ra < rb then
    forL (pyRange 0 N) elements fun i elements => do
      let t ← rd indices i
      let v ← elemF_ra_lt_rb F table ra phia rb phib t.1 t.2.1 t.2.2
      wr elements i v
  else
    forL (pyRange 0 N) elements fun i elements => do
      let t ← rd indices i
      let v ← elemF_ra_ge_rb F table ra phia rb phib t.1 t.2.1 t.2.2
      wr elements i v

end SF
