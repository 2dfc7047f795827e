import Verif.Model.ModesFloat
import Verif.Model.Conversions

/-!
# `mode_conversions.py` in floating-point arithmetic

A second transcription of mode_conversions.py, in which every floating-point operation that can round is an arbitrary function.

* Negation and multiplication by `1j` only exchange and negate components and are exact.
* The product of a complex number and a real number `k` has the components `fl(x k)`, `fl(y k)` (see ModesFloat).
* The quotient of a complex number and a real number `k` (numba computes it as a complex quotient with divisor `k + 0j`, by Smith's
  algorithm) has the components `quot x k`, `quot y k`, where `quot` is `fl(x / k)` for scalars and `fl(x * fl(1 / k))` in array expressions.
  The quotient of `x + i y` and `k i` has the components `quot y k`, `quot (-x) k`.
* Overflow, underflow, infinities and nans are not modelled.
-/

set_option autoImplicit false

namespace SF

/-- The floating-point operations. -/
structure ConvOps extends ModesOps where
  /-- a component of a complex number divided by a real number -/
  quot : ℝ → ℝ → ℝ
  /-- `math.pi` -/
  pi : ℝ

/-- Relative errors as in `ModesOps.Std`; at most two roundings in `quot`.  Multiplication is symmetric and doubling exact, and the square root
of the square of an integer up to `M` is exact (for double precision `M = 94906265`). -/
structure ConvOps.Std (F : ConvOps) (u : ℝ) (δ : ℕ → ℝ) (M : ℤ) : Prop extends F.toModesOps.Std u δ where
  u_lt_one : u < 1
  quot : ∀ x y, y ≠ 0 → ∃ θ, F.quot x y = x / y * θ ∧ (1 - u) ^ 2 ≤ θ ∧ θ * (1 - u) ^ 2 ≤ 1
  pi : RelErr u F.pi Real.pi
  mul_neg : ∀ x y, F.mul (-x) y = -F.mul x y
  two_mul : ∀ x, F.mul 2 x = 2 * x
  sqrt_sq : ∀ n : ℤ, 0 ≤ n → n ≤ M → F.sqrt ((n ^ 2 : ℤ) : ℝ) = n

variable (F : ConvOps)

/-- Product of a complex and a real float. -/
def cScaleF (z : ℂ) (k : ℝ) : ℂ := ⟨F.mul z.re k, F.mul z.im k⟩

/-- Quotient of a complex and a real float. -/
def cQuotF (z : ℂ) (k : ℝ) : ℂ := ⟨F.quot z.re k, F.quot z.im k⟩

/-- Quotient of a complex float and `k * 1j`. -/
def cQuotIF (z : ℂ) (k : ℝ) : ℂ := ⟨F.quot z.im k, F.quot (-z.re) k⟩

/-- `sqrt(4 * pi)`. -/
def sqrt4piF : ℝ := F.sqrt (F.mul 4 F.pi)

/-- `sqrt(2 * pi / 3.)`. -/
def sqrt2pi3F : ℝ := F.sqrt (F.div (F.mul 2 F.pi) 3)

/-- `sqrt(4 * pi / 3.)`. -/
def sqrt4pi3F : ℝ := F.sqrt (F.div (F.mul 4 F.pi) 3)

/-- `constant_as_ell_0_mode` — mode_conversions.py:10-12. -/
def constant_as_ell_0_modeF (c : ℂ) : ℂ := cScaleF F c (sqrt4piF F)

/-- `constant_from_ell_0_mode` — mode_conversions.py:16-23. -/
def constant_from_ell_0_modeF (c : ℂ) : ℂ := cQuotF F c (sqrt4piF F)

/-- `vector_as_ell_1_modes` — mode_conversions.py:27-49, for one vector. -/
noncomputable def vector_as_ell_1_modesF (v : ℂ × ℂ × ℂ) : ℂ × ℂ × ℂ :=
  (cScaleF F (mAdd F.toModesOps v.1 (Complex.I * v.2.1)) (sqrt2pi3F F),
   cScaleF F v.2.2 (sqrt4pi3F F),
   cScaleF F (mAdd F.toModesOps (-v.1) (Complex.I * v.2.1)) (sqrt2pi3F F))

/-- `vector_from_ell_1_modes` — mode_conversions.py:53-62, for one set of modes. -/
def vector_from_ell_1_modesF (w : ℂ × ℂ × ℂ) : ℂ × ℂ × ℂ :=
  (cQuotF F (mSub F.toModesOps w.1 w.2.2) (F.mul 2 (sqrt2pi3F F)),
   cQuotIF F (mAdd F.toModesOps w.1 w.2.2) (F.mul 2 (sqrt2pi3F F)),
   cQuotF F w.2.1 (sqrt4pi3F F))

/-- `int(sqrt(len(modes) + LM_total_size(0, ell_min - 1))) - 1` — mode_conversions.py:96. -/
noncomputable def conv_ell_maxF (n : ℕ) (ell_min : ℤ) : ℤ :=
  pyInt (F.sqrt (((n : ℤ) + LM_total_size 0 (ell_min - 1) : ℤ) : ℝ)) - 1

/-- `eth_GHP` — mode_conversions.py:66-104. -/
noncomputable def eth_GHPF (modes : List ℂ) (s ell_min : ℤ) : Py (List ℂ) := do
  let ell_max := conv_ell_maxF F modes.length ell_min
  let st ← forL (pyRange ell_min (ell_max + 1)) (modes, 0) fun ell st =>
    let factor := if ell < |s + 1| then 0 else F.sqrt (F.div (F.mul ((ell - s : ℤ) : ℝ) ((ell + s + 1 : ℤ) : ℝ)) 2)
    convInner (fun z => cScaleF F z factor) ell st
  return st.1

/-- `ethbar_GHP` — mode_conversions.py:108-139. -/
noncomputable def ethbar_GHPF (modes : List ℂ) (s ell_min : ℤ) : Py (List ℂ) := do
  let ell_max := conv_ell_maxF F modes.length ell_min
  let st ← forL (pyRange ell_min (ell_max + 1)) (modes, 0) fun ell st =>
    let factor := if ell < |s - 1| then 0 else -F.sqrt (F.div (F.mul ((ell + s : ℤ) : ℝ) ((ell - s + 1 : ℤ) : ℝ)) 2)
    convInner (fun z => cScaleF F z factor) ell st
  return st.1

/-- `eth_NP` — mode_conversions.py:143-174. -/
noncomputable def eth_NPF (modes : List ℂ) (s ell_min : ℤ) : Py (List ℂ) := do
  let ell_max := conv_ell_maxF F modes.length ell_min
  let st ← forL (pyRange ell_min (ell_max + 1)) (modes, 0) fun ell st =>
    let factor := if ell < |s + 1| then 0 else F.sqrt (F.mul ((ell - s : ℤ) : ℝ) ((ell + s + 1 : ℤ) : ℝ))
    convInner (fun z => cScaleF F z factor) ell st
  return st.1

/-- `ethbar_NP` — mode_conversions.py:178-209. -/
noncomputable def ethbar_NPF (modes : List ℂ) (s ell_min : ℤ) : Py (List ℂ) := do
  let ell_max := conv_ell_maxF F modes.length ell_min
  let st ← forL (pyRange ell_min (ell_max + 1)) (modes, 0) fun ell st =>
    let factor := if ell < |s - 1| then 0 else -F.sqrt (F.mul ((ell + s : ℤ) : ℝ) ((ell - s + 1 : ℤ) : ℝ))
    convInner (fun z => cScaleF F z factor) ell st
  return st.1

open scoped Classical in
/-- `ethbar_inverse_NP` — mode_conversions.py:213-235. -/
noncomputable def ethbar_inverse_NPF (modes : List ℂ) (s ell_min : ℤ) : Py (List ℂ) := do
  let ell_max := conv_ell_maxF F modes.length ell_min
  let st ← forL (pyRange ell_min (ell_max + 1)) (modes, 0) fun ell st =>
    let term := F.mul ((ell + s + 1 : ℤ) : ℝ) ((ell - s : ℤ) : ℝ)
    if 0 < term then
      let factor := -F.sqrt term
      convInner (fun z => cQuotF F z factor) ell st
    else .ok (st.1, st.2 + (2 * ell + 1))
  return st.1

end SF
