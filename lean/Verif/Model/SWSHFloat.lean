import Verif.Model.SWSH
import Verif.Model.Modes
import Verif.Model.WignerDFloat

/-!
# `_SWSH`, `_SWSHs`, `SWSH_grid` and `Modes.evaluate` in floating-point arithmetic

A second transcription of `SWSH/__init__.py` in which every floating-point operation is an arbitrary function; see
`WignerDFloat.lean`.  Real powers have integer exponents here, which numba computes by repeated multiplication.
-/

set_option autoImplicit false

namespace SF

/-- The further floating-point operations used by the spin-weighted harmonics. -/
structure FloatOpsY extends FloatOps where
  /-- `math.sqrt` -/
  sqrt : ℝ → ℝ
  /-- `x ** n` for float `x` and integer `n` -/
  ipow : ℝ → ℤ → ℝ
  /-- `np.pi` -/
  pi : ℝ
  /-- the inner product of `np.tensordot` -/
  dot : List ℂ → List ℂ → ℂ

/-- Relative errors: `u` for each operation, a factor between `(1-u)^n` and `(1-u)^(-n)` for an `n`-th power (at most `n` rounded
multiplications), `δ N` for an inner product of length `N`, relative to the sum of the moduli of the products. -/
structure FloatOpsY.Std (F : FloatOpsY) (u w : ℝ) (δ : ℕ → ℝ) : Prop extends F.toFloatOps.Std u w where
  sqrt : ∀ x, 0 < x → RelErr u (F.sqrt x) (Real.sqrt x)
  ipow : ∀ x (n : ℕ), 0 < x → ∃ θ, F.ipow x n = x ^ n * θ ∧ (1 - u) ^ n ≤ θ ∧ θ * (1 - u) ^ n ≤ 1
  pi : RelErr u F.pi Real.pi
  dot_nonneg : ∀ N, 0 ≤ δ N
  dot : ∀ a b : List ℂ, a.length = b.length →
    ‖F.dot a b - (List.zipWith (· * ·) a b).sum‖ ≤ δ a.length * (List.zipWith (fun x y => ‖x‖ * ‖y‖) a b).sum

/-- `math.sqrt((2 * ell + 1) / (4 * np.pi))`. -/
noncomputable def swshConstF (F : FloatOpsY) (ell : ℤ) : ℝ := F.sqrt (F.div ((2 * ell + 1 : ℤ) : ℝ) (F.mul 4 F.pi))

/-- Product of a real and a complex float. -/
noncomputable def rsmulF (F : FloatOps) (x : ℝ) (z : ℂ) : ℂ := ⟨F.mul x z.re, F.mul x z.im⟩

open scoped Classical in
/-- The inner loop — SWSH/__init__.py:181-183, 222-224, 317-319, 335-337. -/
noncomputable def hornerLoopF (F : FloatOps) (x : ℝ) (N1 N2 M rhoMax rhoMin : ℤ) : Py ℝ :=
  forL (pyRangeDown rhoMax rhoMin) (1 : ℝ) fun rho Sum =>
    if ((rho * (M + rho) : ℤ) : ℝ) = 0 then .error .zeroDivision
    else .ok (F.add (F.mul Sum (F.div (F.mul x (((N1 - rho) * (N2 - rho) : ℤ) : ℝ)) ((rho * (M + rho) : ℤ) : ℝ))) 1)

/-- Branch `ra <= epsilon` — SWSH/__init__.py:130-137. -/
noncomputable def swshF_ra_small (F : FloatOpsY) (Rb : ℂ) (s ell m : ℤ) : ℂ :=
  if m ≠ s ∨ |m| > ell ∨ |s| > ell then 0
  else if ell % 2 = 0 then rsmulF F.toFloatOps (swshConstF F ell) (F.cpow Rb (-2 * s))
  else rsmulF F.toFloatOps (-swshConstF F ell) (F.cpow Rb (-2 * s))

/-- Branch `rb <= epsilon` — SWSH/__init__.py:141-148. -/
noncomputable def swshF_rb_small (F : FloatOpsY) (Ra : ℂ) (s ell m : ℤ) : ℂ :=
  if m ≠ -s ∨ |m| > ell ∨ |s| > ell then 0
  else if s % 2 = 0 then rsmulF F.toFloatOps (swshConstF F ell) (F.cpow Ra (-2 * s))
  else rsmulF F.toFloatOps (-swshConstF F ell) (F.cpow Ra (-2 * s))

open scoped Classical in
/-- Branch `ra < rb` — SWSH/__init__.py:153-189. -/
noncomputable def swshF_ra_lt_rb (F : FloatOpsY) (table : List ℝ) (ra phia rb phib : ℝ) (s ell m : ℤ) : Py ℂ :=
  let absRRatioSquared := F.div (F.mul (-ra) ra) (F.mul rb rb)
  if |m| > ell ∨ |s| > ell then .ok 0
  else do
    let rhoMin := max 0 (-m + s)
    let c ← Wigner_coefficient table ell (-m) (-s)
    let Prefactor := rectF F.toFloatOps
      (F.mul (F.mul c (F.ipow rb (2 * ell + s - m - 2 * rhoMin))) (F.ipow ra (-s + m + 2 * rhoMin)))
      (F.add (F.mul phib ((-s - m : ℤ) : ℝ)) (F.mul phia ((-s + m : ℤ) : ℝ)))
    if Prefactor = 0 then .ok 0
    else do
      let Prefactor := if (ell + rhoMin) % 2 ≠ 0 then -Prefactor else Prefactor
      let rhoMax := min (ell - m) (ell + s)
      let Sum ← hornerLoopF F.toFloatOps absRRatioSquared (ell - m + 1) (ell + s + 1) (-s + m) rhoMax rhoMin
      return smulF F.toFloatOps (rsmulF F.toFloatOps (swshConstF F ell) Prefactor) Sum

open scoped Classical in
/-- Branch `ra >= rb` — SWSH/__init__.py:194-230. -/
noncomputable def swshF_ra_ge_rb (F : FloatOpsY) (table : List ℝ) (ra phia rb phib : ℝ) (s ell m : ℤ) : Py ℂ :=
  let absRRatioSquared := F.div (F.mul (-rb) rb) (F.mul ra ra)
  if |m| > ell ∨ |s| > ell then .ok 0
  else do
    let rhoMin := max 0 (m + s)
    let c ← Wigner_coefficient table ell m (-s)
    let Prefactor := rectF F.toFloatOps
      (F.mul (F.mul c (F.ipow ra (2 * ell + s + m - 2 * rhoMin))) (F.ipow rb (-s - m + 2 * rhoMin)))
      (F.add (F.mul phia ((-s + m : ℤ) : ℝ)) (F.mul phib ((-s - m : ℤ) : ℝ)))
    if Prefactor = 0 then .ok 0
    else do
      let Prefactor := if (rhoMin + s) % 2 ≠ 0 then -Prefactor else Prefactor
      let rhoMax := min (ell + m) (ell + s)
      let Sum ← hornerLoopF F.toFloatOps absRRatioSquared (ell + m + 1) (ell + s + 1) (-s - m) rhoMax rhoMin
      return smulF F.toFloatOps (rsmulF F.toFloatOps (swshConstF F ell) Prefactor) Sum

open scoped Classical in
/-- `_SWSH` — SWSH/__init__.py:90-230.  `eps` is the float `epsilon`. -/
noncomputable def SWSH_kernelF (F : FloatOpsY) (eps : ℝ) (table : List ℝ) (Ra Rb : ℂ) (s : ℤ) (indices : List (ℤ × ℤ))
    (values : List ℂ) : Py (List ℂ) :=
  let ra := F.abs Ra
  let phia := F.arg Ra
  let rb := F.abs Rb
  let phib := F.arg Rb
  let N : ℤ := indices.length
  if ra ≤ eps then
    forL (pyRange 0 N) values fun i values => do
      let t ← rd indices i
      wr values i (swshF_ra_small F Rb s t.1 t.2)
  else if rb ≤ eps then
    forL (pyRange 0 N) values fun i values => do
      let t ← rd indices i
      wr values i (swshF_rb_small F Ra s t.1 t.2)
  else if ra < rb then
    forL (pyRange 0 N) values fun i values => do
      let t ← rd indices i
      let v ← swshF_ra_lt_rb F table ra phia rb phib s t.1 t.2
      wr values i v
  else
    forL (pyRange 0 N) values fun i values => do
      let t ← rd indices i
      let v ← swshF_ra_ge_rb F table ra phia rb phib s t.1 t.2
      wr values i v

open scoped Classical in
/-- Loop body of `_SWSHs` — SWSH/__init__.py:291-339; `coefficient_a`, `coefficient_b` and `constant` are computed before the loop
(l.268-288). -/
noncomputable def SWSHs_valueF (F : FloatOpsY) (eps coefficient_a coefficient_b : ℝ) (s ell m : ℤ) (R : ℝ × ℝ × ℝ × ℝ) : Py ℂ :=
  let constant := swshConstF F ell
  let rhoMin_a := max 0 (m + s)
  let rhoMin_b := max 0 (-m + s)
  let Ra : ℂ := ⟨R.1, R.2.2.2⟩
  let ra := F.abs Ra
  let phia := F.arg Ra
  let Rb : ℂ := ⟨R.2.2.1, R.2.1⟩
  let rb := F.abs Rb
  let phib := F.arg Rb
  if ra ≤ eps then
    if m ≠ s then .ok 0
    else if ell % 2 = 0 then .ok (rsmulF F.toFloatOps constant (F.cpow Rb (-2 * s)))
    else .ok (rsmulF F.toFloatOps (-constant) (F.cpow Rb (-2 * s)))
  else if rb ≤ eps then
    if m ≠ -s then .ok 0
    else if s % 2 = 0 then .ok (rsmulF F.toFloatOps constant (F.cpow Ra (-2 * s)))
    else .ok (rsmulF F.toFloatOps (-constant) (F.cpow Ra (-2 * s)))
  else if ra < rb then
    if coefficient_b = 0 then .ok 0
    else do
      let Prefactor := rectF F.toFloatOps
        (F.mul (F.mul coefficient_b (F.ipow rb (2 * ell + s - m - 2 * rhoMin_b))) (F.ipow ra (-s + m + 2 * rhoMin_b)))
        (F.add (F.mul phib ((-s - m : ℤ) : ℝ)) (F.mul phia ((-s + m : ℤ) : ℝ)))
      let Sum ← hornerLoopF F.toFloatOps (F.div (F.mul (-ra) ra) (F.mul rb rb)) (ell - m + 1) (ell + s + 1) (-s + m)
        (min (ell - m) (ell + s)) rhoMin_b
      return smulF F.toFloatOps (rsmulF F.toFloatOps constant Prefactor) Sum
  else
    if coefficient_a = 0 then .ok 0
    else do
      let Prefactor := rectF F.toFloatOps
        (F.mul (F.mul coefficient_a (F.ipow ra (2 * ell + s + m - 2 * rhoMin_a))) (F.ipow rb (-s - m + 2 * rhoMin_a)))
        (F.add (F.mul phia ((-s + m : ℤ) : ℝ)) (F.mul phib ((-s - m : ℤ) : ℝ)))
      let Sum ← hornerLoopF F.toFloatOps (F.div (F.mul (-rb) rb) (F.mul ra ra)) (ell + m + 1) (ell + s + 1) (-s - m)
        (min (ell + m) (ell + s)) rhoMin_a
      return smulF F.toFloatOps (rsmulF F.toFloatOps constant Prefactor) Sum

/-- `_SWSHs` — SWSH/__init__.py:233-339. -/
noncomputable def SWSHs_kernelF (F : FloatOpsY) (eps : ℝ) (table : List ℝ) (Rs : List (ℝ × ℝ × ℝ × ℝ)) (s ell m : ℤ)
    (values : List ℂ) : Py (List ℂ) :=
  let N : ℤ := Rs.length
  if |m| > ell ∨ |s| > ell then
    forL (pyRange 0 N) values fun i values => wr values i 0
  else do
    let rhoMin_a := max 0 (m + s)
    let c ← Wigner_coefficient table ell m (-s)
    let coefficient_a := if (rhoMin_a + s) % 2 ≠ 0 then -c else c
    let rhoMin_b := max 0 (-m + s)
    let c ← Wigner_coefficient table ell (-m) (-s)
    let coefficient_b := if (ell + rhoMin_b) % 2 ≠ 0 then -c else c
    forL (pyRange 0 N) values fun i values => do
      let R ← rd Rs i
      let v ← SWSHs_valueF F eps coefficient_a coefficient_b s ell m R
      wr values i v

/-- `SWSH_grid` — SWSH/__init__.py:48-87; `np.nditer` raises ValueError for an array without elements. -/
noncomputable def SWSH_gridF (F : FloatOpsY) (eps : ℝ) (table : List ℝ) (junk : ℕ → ℤ × ℤ) (Rs : List (ℝ × ℝ × ℝ × ℝ))
    (s ell_max : ℤ) : Py (List (List ℂ)) := do
  let indices ← LM_range junk 0 ell_max
  let values := List.replicate Rs.length (List.replicate indices.length (0 : ℂ))
  if Rs.isEmpty then .error .valueError
  else forL (pyRange 0 Rs.length) values fun i values => do
    let R ← rd Rs i
    let row ← rd values i
    let row ← SWSH_kernelF F eps table (quat_a R) (quat_b R) s indices row
    wr values i row

/-- `Modes.evaluate` — SWSH_modes/utilities.py:83-92. -/
noncomputable def Modes.evaluateF (F : FloatOpsY) (eps : ℝ) (table : List ℝ) (junk : ℕ → ℤ × ℤ) (f : Modes)
    (Rs : List (ℝ × ℝ × ℝ × ℝ)) : Py (List Slice) := do
  let SWSHs ← SWSH_gridF F eps table junk Rs f.s f.ell_max
  SWSHs.mapM fun row =>
    let Y := getSlice row (LM_index 0 (-0) 0) (LM_index f.ell_max f.ell_max 0 + 1)
    if Y.length ≠ f.dat.length then .error .valueError
    else .ok fun idx => F.dot (f.dat.map fun v => v idx) Y

end SF
