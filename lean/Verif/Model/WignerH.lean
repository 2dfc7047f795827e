import Verif.Py
import Verif.Model.Index
import Verif.Model.Recursions
import Mathlib.Analysis.Real.Sqrt

/-!
# Model of the two H calculators

`recursions/wignerH.py` (public as `recursions.HCalculator`) and `WignerD/WignerDRecursion.py` contain the same steps 1-5; they
differ in the index function of the main array (`wedge_index` / `nmpm_index`), in the allocation of the scratch arrays and in
step 6.  The steps are therefore modelled once, with the index function `idx` as a parameter.

* Floating point numbers are real numbers.
* The arrays `Hwedge`/`Hnmpm`, `Hv`, `Hextra` have two axes; the second one runs over the values of `cosβ`.  An array is a list
  of rows and a row is a function `Fin J → ℝ`; the innermost loops `for j in range(H.shape[1])` and the whole-row assignments are
  row operations (no statement mixes two different `j`).  A workspace with more than two axes, or with a number of columns other
  than the number of values of `cosβ`, is not modelled.
* Reads and writes outside an array are the error `outOfBounds` (numba does not check; it would touch other memory).
* `g` and `h` have non-finite entries at `m = n` (0/0); the model has arbitrary numbers `junk n` there.
-/

set_option autoImplicit false

namespace SF

/-- A row of an array: one number for each value of `cosβ`. -/
abbrev HRow (J : ℕ) := Fin J → ℝ

/-- Scalar division in numba-compiled code: ZeroDivisionError for a zero divisor. -/
noncomputable def divR (x y : ℝ) : Py ℝ :=
  open Classical in if y = 0 then .error .zeroDivision else .ok (x / y)

/-- `_step_1` — recursions/wignerH.py:170-173, WignerD/WignerDRecursion.py:144-147 -/
def h_step_1 {J : ℕ} (H : List (HRow J)) : Py (List (HRow J)) := wr H 0 (fun _ => 1)

/-- Lines recursions/wignerH.py:208-231 (WignerDRecursion.py:186-209): one `n` of the loop of `_step_2`, up to the normalization of
`m < n`.  `H` is the array that receives the row (`Hwedge` or `Hextra`), `n0n` the index of `m = n` in it and `prev` the row
`Hwedge[nm10nm1_index]`. -/
noncomputable def h_row2 {J : ℕ} (g h : List ℝ) (co si : HRow J) (n n0n nn : ℤ) (prev : HRow J) (H : List (HRow J)) :
    Py (List (HRow J)) := do
  let const := Real.sqrt (1 + 0.5 / (n : ℝ))
  let gi ← rd g (nn - 1)
  let H ← wr H n0n (fun j => const * prev j)
  let x ← rd H n0n
  let H ← wr H (n0n - 1) (fun j => gi * co j * x j)
  let H ← forL (pyRange 2 n) H fun i H => do
    let gi ← rd g (nn - i)
    let hi ← rd h (nn - i)
    let x1 ← rd H (n0n - i + 1)
    let x2 ← rd H (n0n - i + 2)
    wr H (n0n - i) (fun j => gi * co j * x1 j - hi * si j ^ 2 * x2 j)
  let const := Real.sqrt (4 * (n : ℝ) + 2)
  let gi ← rd g (nn - n)
  let hi ← rd h (nn - n)
  let x1 ← rd H (n0n - n + 1)
  let x2 ← rd H (n0n - n + 2)
  let H ← wr H (n0n - n) (fun j => (gi * co j * x1 j - hi * si j ^ 2 * x2 j) / const)
  let (H, _) ← forL (pyRange 1 n) (H, ((fun _ => 1 / const) : HRow J)) fun i st => do
    let pre : HRow J := fun j => st.2 j * si j
    let H ← upd st.1 (n0n - n + i) (fun x j => x j * pre j)
    return (H, pre)
  return H

/-- The three arrays. -/
structure HArr (J : ℕ) where
  w : List (HRow J)
  v : List (HRow J)
  x : List (HRow J)

/-- `_step_2` — recursions/wignerH.py:176-246, WignerD/WignerDRecursion.py:154-228.  `w` is `Hwedge` (`Hnmpm`), `v` is `Hv`,
`x` is `Hextra`. -/
noncomputable def h_step_2 {J : ℕ} (idx : ℤ → ℤ → ℤ → ℤ) (g h : List ℝ) (n_max : ℤ) (co si : HRow J) (A : HArr J) :
    Py (HArr J) := do
  let n0n := idx 1 0 1
  let nn := nm_index 1 1
  let w ← wr A.w n0n (fun _ => Real.sqrt 3)
  let gi ← rd g (nn - 1)
  let w ← wr w (n0n - 1) (fun j => gi * co j / Real.sqrt 2)
  let A ← forL (pyRange 2 (n_max + 2)) { A with w := w } fun n A => do
    let nn := nm_index n n
    let prev ← rd A.w (idx (n - 1) 0 (n - 1))
    if n ≤ n_max then do
      let w ← h_row2 g h co si n (idx n 0 n) nn prev A.w
      let y ← rd w (idx n 0 1)
      let v ← wr A.v (nm_index n 1) y
      let v ← wr v (nm_index n 0) y
      return { A with w := w, v := v }
    else do
      let x ← h_row2 g h co si n n nn prev A.x
      return { A with x := x }
  let (w, pre) ← forL (pyRange 1 (n_max + 1)) (A.w, ((fun _ => 1) : HRow J)) fun n st => do
    let pre : HRow J := fun j => st.2 j * si j
    let w ← upd st.1 (idx n 0 n) (fun y j => y j * (pre j / Real.sqrt (4 * (n : ℝ) + 2)))
    return (w, pre)
  let n := n_max + 1
  let pre : HRow J := fun j => pre j * si j
  let x ← upd A.x n (fun y j => y j * (pre j / Real.sqrt (4 * (n : ℝ) + 2)))
  let y ← rd w (idx 1 0 1)
  let v ← wr A.v (nm_index 1 1) y
  let v ← wr v (nm_index 1 0) y
  return { w := w, v := v, x := x }

/-- `_step_3` — recursions/wignerH.py:249-280, WignerD/WignerDRecursion.py:231-262 -/
noncomputable def h_step_3 {J : ℕ} (idx : ℤ → ℤ → ℤ → ℤ) (a b : List ℝ) (n_max : ℤ) (co si : HRow J)
    (w x : List (HRow J)) : Py (List (HRow J)) :=
  forL (pyRange 1 (n_max + 1)) w fun n w => do
    let i1 := idx n 1 1
    let i3 := nm_index (n + 1) 0
    let i4 := nabsm_index n 1
    let b5 ← rd b i3
    forL (pyRange 0 n) w fun i w => do
      let b6 ← rd b (-i + i3 - 2)
      let b7 ← rd b (i + i3)
      let a8 ← rd a (i + i4)
      let i2 := if n + 1 ≤ n_max then idx (n + 1) 0 0 else 0
      let H2 := if n + 1 ≤ n_max then w else x
      let y2 ← rd H2 (i + i2 + 2)
      let y0 ← rd H2 (i + i2)
      let y1 ← rd H2 (i + i2 + 1)
      let r ← divR 1 b5
      wr w (i + i1) (fun j => r * (0.5 * (b6 * (1 - co j) * y2 j - b7 * (1 + co j) * y0 j) - a8 * si j * y1 j))

/-- Body of the loops of `_step_4` for one `(n, m')` — recursions/wignerH.py:295-328, WignerD/WignerDRecursion.py:277-310 -/
noncomputable def h_body4 {J : ℕ} (idx : ℤ → ℤ → ℤ → ℤ) (d : List ℝ) (n mp : ℤ) (st : List (HRow J) × List (HRow J)) :
    Py (List (HRow J) × List (HRow J)) := do
  let (w, v) := st
  let i1 := idx n (mp + 1) mp
  let i2 := idx n (mp - 1) mp
  let i3 := idx n mp (mp - 1)
  let i4 := idx n mp (mp + 1)
  let i5 := nm_index n mp
  let i6 := nm_index n (mp - 1)
  let d5 ← rd d i5
  let d6 ← rd d i6
  let r ← divR 1 d5
  -- i = 0
  let d7 ← rd d i6
  let d8 ← rd d i5
  let y2 ← rd w i2
  let y3 ← rd v (nm_index n mp)
  let y4 ← rd w i4
  let v ← wr v (nm_index n (mp + 1)) (fun j => r * (d6 * y2 j - d7 * y3 j + d8 * y4 j))
  let w ← forL (pyRange 1 (n - mp)) w fun i w => do
    let d7 ← rd d (i + i6)
    let d8 ← rd d (i + i5)
    let y2 ← rd w (i + i2)
    let y3 ← rd w (i + i3)
    let y4 ← rd w (i + i4)
    wr w (i + i1) (fun j => r * (d6 * y2 j - d7 * y3 j + d8 * y4 j))
  -- i = n - mp
  let i := n - mp
  let d7 ← rd d (i + i6)
  let y2 ← rd w (i + i2)
  let y3 ← rd w (i + i3)
  let w ← wr w (i + i1) (fun j => r * (d6 * y2 j - d7 * y3 j))
  return (w, v)

/-- `_step_4` — recursions/wignerH.py:283-328, WignerD/WignerDRecursion.py:265-310 -/
noncomputable def h_step_4 {J : ℕ} (idx : ℤ → ℤ → ℤ → ℤ) (d : List ℝ) (n_max : ℤ) (st : List (HRow J) × List (HRow J)) :
    Py (List (HRow J) × List (HRow J)) :=
  forL (pyRange 2 (n_max + 1)) st fun n st => forL (pyRange 1 n) st fun mp st => h_body4 idx d n mp st

/-- Body of the loops of `_step_5` for one `(n, m')` — recursions/wignerH.py:347-390, WignerD/WignerDRecursion.py:329-372 -/
noncomputable def h_body5 {J : ℕ} (idx : ℤ → ℤ → ℤ → ℤ) (d : List ℝ) (n mp : ℤ) (st : List (HRow J) × List (HRow J)) :
    Py (List (HRow J) × List (HRow J)) := do
  let (w, v) := st
  let i1 := idx n (mp - 1) (-mp)
  let i2 := idx n (mp + 1) (-mp)
  let i3 := idx n mp (-mp - 1)
  let i4 := idx n mp (-mp + 1)
  let i5 := nm_index n (mp - 1)
  let i6 := nm_index n mp
  let i7 := nm_index n (-mp - 1)
  let i8 := nm_index n (-mp)
  let d5 ← rd d i5
  let d6 ← rd d i6
  let r ← divR 1 d5
  -- i = 0
  let d7 ← rd d i7
  let d8 ← rd d i8
  let y2 ← (if mp = 0 then rd v (nm_index n (mp + 1)) else rd w i2 : Py (HRow J))
  let y3 ← rd v (nm_index n mp)
  let y4 ← rd w i4
  let v ← wr v (nm_index n (mp - 1)) (fun j => r * (d6 * y2 j + d7 * y3 j - d8 * y4 j))
  let w ← forL (pyRange 1 (n + mp)) w fun i w => do
    let d7 ← rd d (i + i7)
    let d8 ← rd d (i + i8)
    let y2 ← rd w (i + i2)
    let y3 ← rd w (i + i3)
    let y4 ← rd w (i + i4)
    wr w (i + i1) (fun j => r * (d6 * y2 j + d7 * y3 j - d8 * y4 j))
  -- i = n + mp
  let i := n + mp
  let d7 ← rd d (i + i7)
  let y2 ← rd w (i + i2)
  let y3 ← rd w (i + i3)
  let w ← wr w (i + i1) (fun j => r * (d6 * y2 j + d7 * y3 j))
  return (w, v)

/-- `_step_5` — recursions/wignerH.py:331-390, WignerD/WignerDRecursion.py:313-372 -/
noncomputable def h_step_5 {J : ℕ} (idx : ℤ → ℤ → ℤ → ℤ) (d : List ℝ) (n_max : ℤ) (st : List (HRow J) × List (HRow J)) :
    Py (List (HRow J) × List (HRow J)) :=
  forL (pyRange 0 (n_max + 1)) st fun n st => forL (pyRangeDown 0 (-n)) st fun mp st => h_body5 idx d n mp st

/-- `_step_6` — WignerD/WignerDRecursion.py:375-391 -/
def h_step_6 {J : ℕ} (n_max : ℤ) (H : List (HRow J)) : Py (List (HRow J)) := do
  let H ← forL (pyRange 1 (n_max + 1)) H fun n H =>
    forL (pyRange 1 (n + 1)) H fun mp H =>
      forL (pyRange (max (-mp) (-n)) mp) H fun m H => do
        let y ← rd H (nmpm_index n m mp)
        wr H (nmpm_index n mp m) y
  forL (pyRange 1 (n_max + 1)) H fun n H =>
    forL (pyRange (-n) n) H fun mp H =>
      forL (pyRange (-n) (-mp)) H fun m H => do
        let y ← rd H (nmpm_index n (-mp) (-m))
        wr H (nmpm_index n mp m) y

/-- The coefficient arrays of an `HCalculator` object. -/
structure HCoef where
  n_max : ℤ
  a : List ℝ
  b : List ℝ
  d : List ℝ
  g : List ℝ
  h : List ℝ

/-- `[(n, m) for n in range(n_max+2) for m in range(-n, n+1)]` -/
def nmPairs (n_max : ℤ) : List (ℤ × ℤ) :=
  (pyRange 0 (n_max + 2)).flatMap fun n => (pyRange (-n) (n + 1)).map fun m => (n, m)

/-- `[(n, m) for n in range(n_max+2) for m in range(n+1)]` -/
def nabsmPairs (n_max : ℤ) : List (ℤ × ℤ) :=
  (pyRange 0 (n_max + 2)).flatMap fun n => (pyRange 0 (n + 1)).map fun m => (n, m)

/-- `HCalculator.__init__` — recursions/wignerH.py:439-460 and (without the factorials, which no step uses)
WignerD/WignerDRecursion.py:395-423.  The arrays are finite real numbers, so the test for non-finite values never fails. -/
noncomputable def HCoef.make (junk : ℤ → ℝ) (n_max : ℤ) : Py HCoef :=
  if n_max < 0 then .error .valueError
  else .ok {
    n_max := n_max
    a := (nabsmPairs n_max).map fun p => Real.sqrt (((p.1 + 1 + p.2) * (p.1 + 1 - p.2) : ℤ) / (((2 * p.1 + 1) * (2 * p.1 + 3) : ℤ) : ℝ))
    b := (nmPairs n_max).map fun p =>
      let x := Real.sqrt (((p.1 - p.2 - 1) * (p.1 - p.2) : ℤ) / (((2 * p.1 - 1) * (2 * p.1 + 1) : ℤ) : ℝ))
      if p.2 < 0 then x * -1 else x
    d := (nmPairs n_max).map fun p =>
      let x := 0.5 * Real.sqrt (((p.1 - p.2) * (p.1 + p.2 + 1) : ℤ) : ℝ)
      if p.2 < 0 then x * -1 else x
    g := (nmPairs n_max).map fun p =>
      if p.1 = p.2 then junk p.1 else ((2 * (p.2 + 1) : ℤ) : ℝ) / Real.sqrt (((p.1 - p.2) * (p.1 + p.2 + 1) : ℤ) : ℝ)
    h := (nmPairs n_max).map fun p =>
      if p.1 = p.2 then junk p.1
      else Real.sqrt ((((p.1 + p.2 + 2) * (p.1 - p.2 - 1) : ℤ) : ℝ) / (((p.1 - p.2) * (p.1 + p.2 + 1) : ℤ) : ℝ)) }

/-- Steps 1-5. -/
noncomputable def h_steps {J : ℕ} (idx : ℤ → ℤ → ℤ → ℤ) (C : HCoef) (co si : HRow J) (A : HArr J) : Py (HArr J) := do
  let w ← h_step_1 A.w
  let A ← h_step_2 idx C.g C.h C.n_max co si { A with w := w }
  let w ← h_step_3 idx C.a C.b C.n_max co si A.w A.x
  let (w, v) ← h_step_4 idx C.d C.n_max (w, A.v)
  let (w, v) ← h_step_5 idx C.d C.n_max (w, v)
  return { w := w, v := v, x := A.x }

/-- The arguments `cosβ` and `sinβ` of a call: `cosβ` as its shape and raveled values, `sinβ` as nothing or shape and raveled
values (values read with the same element order as `cosβ`).  An array whose number of values is not the product of its shape does
not occur. -/
structure HArgs where
  cshape : List ℕ
  co : List ℝ
  si : Option (List ℕ × List ℝ)

/-- The checks at the beginning of `__call__` — recursions/wignerH.py:468-481, WignerD/WignerDRecursion.py:430-445.
`np.max` of an empty array is a ValueError. -/
noncomputable def hArgs (x : HArgs) : Py (HRow x.co.length × HRow x.co.length) :=
  open Classical in
  if x.co = [] then .error .valueError
  else if (∃ c ∈ x.co, c > 1) ∨ (∃ c ∈ x.co, c < -1) then .error .valueError
  else match x.si with
    | none => .ok (fun j => x.co[j], fun j => Real.sqrt (1 - x.co[j] ^ 2))
    | some (sshape, s) =>
      if sshape ≠ x.cshape then .error .valueError else .ok (fun j => x.co[j], fun j => s.getD j 0)

/-- `HCalculator.workspace` — recursions/wignerH.py:462-465, for a one-axis `cosβ` of length `J`. -/
def hWorkspace (J : ℕ) (n_max : ℤ) : List (HRow J) :=
  List.replicate (wedge_size n_max + (n_max + 1) ^ 2 + n_max + 2).toNat (fun _ => 0)

/-- `HCalculator.__call__` — recursions/wignerH.py:467-491.  `Hwedge`, `Hv`, `Hextra` are slices (views) of the workspace; the
result is `Hwedge`, a view of the workspace.  The model returns the new contents of the workspace and the rows of `Hwedge`.
(`Hwedge.reshape(...)` at line 490 discards its result, so the returned array has shape `(wedge_size, cosβ.size)`.) -/
noncomputable def HCalculator_call (C : HCoef) (x : HArgs) (workspace : Option (List (HRow x.co.length))) :
    Py (List (HRow x.co.length) × List (HRow x.co.length)) := do
  let (co, si) ← hArgs x
  let ws := workspace.getD (hWorkspace x.co.length C.n_max)
  let W := (wedge_size C.n_max).toNat
  let V := ((C.n_max + 1) ^ 2).toNat
  let X := (C.n_max + 2).toNat
  let A ← h_steps wedge_index C co si { w := ws.take W, v := (ws.drop W).take V, x := (ws.drop (W + V)).take X }
  return (A.w ++ A.v ++ A.x ++ ws.drop (W + V + X), A.w)

/-- `HCalculator.__call__` of the full-matrix version — WignerD/WignerDRecursion.py:429-456: fresh zero arrays `Hextra`, `Hv`; the
workspace (or a fresh zero array) of `LMpM_total_size(0, n_max)` rows; the result is its first `LMpM_total_size(0, n_max)` rows. -/
noncomputable def HFull_call (C : HCoef) (x : HArgs) (workspace : Option (List (HRow x.co.length))) :
    Py (List (HRow x.co.length)) := do
  let (co, si) ← hArgs x
  let size := (LMpM_total_size 0 C.n_max).toNat
  let ws := workspace.getD (List.replicate size (fun _ => 0))
  let A ← h_steps nmpm_index C co si
    { w := ws, v := List.replicate ((C.n_max + 1) ^ 2).toNat (fun _ => 0), x := List.replicate (C.n_max + 2).toNat (fun _ => 0) }
  let H ← h_step_6 C.n_max A.w
  return H.take size

end SF
