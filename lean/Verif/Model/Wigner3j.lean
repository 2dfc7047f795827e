import Verif.Py
import Verif.Model.WignerD

/-!
# Model of `recursions/wigner3j.py`

`Wigner3jCalculator`, `Wigner3j` and `clebsch_gordan`.  Floating point numbers are real numbers.  The 32-bit signatures of
`A`, `B`, `Xf`, `Zf` are kept: arguments and the result of `B` are reduced modulo 2^32, and the 64-bit integer arithmetic
inside `A` modulo 2^64.  Scalar division by zero raises `ZeroDivisionError` (numba's default error model); division of an
array by a scalar does not raise (and here `x/0 = 0`; the proofs show the divisor is not zero).
-/

set_option autoImplicit false

namespace SF

/-- Conversion to a 32-bit signed integer. -/
def i32 (x : ℤ) : ℤ := (x + 2 ^ 31) % 2 ^ 32 - 2 ^ 31

/-- Conversion to a 64-bit signed integer. -/
def i64 (x : ℤ) : ℤ := (x + 2 ^ 63) % 2 ^ 64 - 2 ^ 63

/-- `A` — recursions/wigner3j.py:7-9.  (numba's `math.sqrt` of a negative number is nan; here it is 0.) -/
noncomputable def w3A (j j2 j3 m1 : ℤ) : ℝ :=
  let j := i32 j; let j2 := i32 j2; let j3 := i32 j3; let m1 := i32 m1
  Real.sqrt ((i64 ((j ^ 2 - (j2 - j3) ^ 2) * ((j2 + j3 + 1) ^ 2 - j ^ 2) * (j ^ 2 - m1 ^ 2)) : ℤ) : ℝ)

/-- `B`, also called `Yf` — recursions/wigner3j.py:12-14, 22 -/
def w3B (j j2 j3 m2 m3 : ℤ) : ℤ :=
  let j := i32 j; let j2 := i32 j2; let j3 := i32 j3; let m2 := i32 m2; let m3 := i32 m3
  i32 ((2 * j + 1) * ((m2 + m3) * (j2 * (j2 + 1) - j3 * (j3 + 1)) - (m2 - m3) * j * (j + 1)))

/-- `Xf` — recursions/wigner3j.py:17-19 -/
noncomputable def w3X (j j2 j3 m1 : ℤ) : ℝ := ((i32 j : ℤ) : ℝ) * w3A (i32 j + 1) j2 j3 m1

/-- `Zf` — recursions/wigner3j.py:25-27 -/
noncomputable def w3Z (j j2 j3 m1 : ℤ) : ℝ := ((i32 j + 1 : ℤ) : ℝ) * w3A j j2 j3 m1

/-- `a[lo:hi] op= …`: apply `g` to the entries of `a` in a slice. -/
def mapSlice (a : List ℝ) (lo hi : ℤ) (g : ℝ → ℝ) : List ℝ :=
  a.mapIdx fun i v => if lo ≤ (i : ℤ) ∧ (i : ℤ) < hi then g v else v

/-- `a[lo:hi] = g(b[lo:hi])` for two arrays of the same length. -/
def copySlice (a b : List ℝ) (lo hi : ℤ) (g : ℝ → ℝ) : List ℝ :=
  a.mapIdx fun i v => if lo ≤ (i : ℤ) ∧ (i : ℤ) < hi then g (b.getD i 0) else v

/-- `(-1)**n` for an integer `n` (numba's integer power, also for negative `n`). -/
def negOnePow (n : ℤ) : ℤ := if n % 2 = 0 then 1 else -1

/-- `normalize` — recursions/wigner3j.py:30-35 -/
noncomputable def w3normalize (f : List ℝ) (j_min j_max : ℤ) : Py (List ℝ) := do
  let norm ← forL (pyRange j_min (j_max + 1)) (0 : ℝ) fun j norm => do
    let v ← rd f j
    return norm + (2 * j + 1) * v ^ 2
  return mapSlice f j_min (j_max + 1) (fun v => v / Real.sqrt norm)

/-- `determine_signs` — recursions/wigner3j.py:38-41 -/
noncomputable def w3signs (f : List ℝ) (j_min j_max j2 j3 m2 m3 : ℤ) : Py (List ℝ) := do
  let v ← rd f j_max
  if (v < 0 ∧ negOnePow (j2 - j3 + m2 + m3) > 0) ∨ (v > 0 ∧ negOnePow (j2 - j3 + m2 + m3) < 0) then
    return mapSlice f j_min (j_max + 1) (fun v => v * -1)
  else return f

/-- The loop at recursions/wigner3j.py:160-167 (`for j in range(j_min+1, j_max)` with `break`): the list is the rest of the
range; the second component of the result is the value assigned to `j_minus` on `break`. -/
noncomputable def fwdLoop (X Y Z : ℤ → ℝ) : List ℤ → List ℝ → Py (List ℝ × Option ℤ)
  | [], sf => return (sf, none)
  | j :: js, sf => do
    let s ← rd sf (j - 1)
    let denominator := Y j + Z j * s
    if |X j| > |denominator| ∨ X j * denominator ≥ 0 ∨ denominator = 0 then return (sf, some (j - 1))
    else do
      let v ← pyDiv (-X j) denominator
      let sf ← wr sf j v
      fwdLoop X Y Z js sf

/-- Forward iteration — recursions/wigner3j.py:131-174.  `X j`, `Y j`, `Z j` stand for `Xf(j, j2, j3, m1)`,
`Yf(j, j2, j3, m2, m3)`, `Zf(j, j2, j3, m1)`.  Result: `sf`, `F_minus`, `j_minus`, `undefined_min`. -/
noncomputable def fwdPhase (X Y Z : ℤ → ℝ) (m1 m2 m3 j_min j_max : ℤ) (sf F_minus : List ℝ) :
    Py (List ℝ × List ℝ × ℤ × Bool) := do
  if m1 = 0 ∧ m2 = 0 ∧ m3 = 0 then
    let F_minus ← wr F_minus j_min 1
    let F_minus ← wr F_minus (j_min + 1) 0
    return (sf, F_minus, j_min + 1, false)
  else if Y j_min = 0 then
    if X j_min = 0 then return (sf, F_minus, j_min, true)
    else
      let F_minus ← wr F_minus j_min 1
      let F_minus ← wr F_minus (j_min + 1) 0
      return (sf, F_minus, j_min + 1, false)
  else if X j_min * Y j_min ≥ 0 then
    let F_minus ← wr F_minus j_min 1
    let v ← pyDiv (-Y j_min) (X j_min)
    let F_minus ← wr F_minus (j_min + 1) v
    return (sf, F_minus, j_min + 1, false)
  else
    let v ← pyDiv (-X j_min) (Y j_min)
    let sf ← wr sf j_min v
    let (sf, brk) ← fwdLoop X Y Z (pyRange (j_min + 1) j_max) sf
    let j_minus := brk.getD j_max
    let F_minus ← wr F_minus j_minus 1
    let F_minus ← forL (pyRange 1 (j_minus - j_min + 1)) F_minus fun k F_minus => do
      let a ← rd F_minus (j_minus - k + 1)
      let b ← rd sf (j_minus - k)
      wr F_minus (j_minus - k) (a * b)
    if j_minus = j_min then
      let v ← pyDiv (-Y j_min) (X j_min)
      let F_minus ← wr F_minus (j_min + 1) v
      return (sf, F_minus, j_min + 1, false)
    else return (sf, F_minus, j_minus, false)

/-- The loop at recursions/wigner3j.py:215-222 (`for j in range(j_max-1, j_minus-1, -1)` with `break`); the second
component of the result is the value assigned to `j_plus` on `break`. -/
noncomputable def revLoop (X Y Z : ℤ → ℝ) : List ℤ → List ℝ → Py (List ℝ × Option ℤ)
  | [], rf => return (rf, none)
  | j :: js, rf => do
    let r ← rd rf (j + 1)
    let denominator := Y j + X j * r
    if denominator = 0 ∨ |Z j| > |denominator| ∨ Z j * denominator ≥ 0 then return (rf, some (j + 1))
    else do
      let v ← pyDiv (-Z j) denominator
      let rf ← wr rf j v
      revLoop X Y Z js rf

/-- Reverse iteration — recursions/wigner3j.py:186-228.  `rf` is the same memory as `sf`.  Result: `rf`, `F_plus`, `j_plus`,
`undefined_max`. -/
noncomputable def revPhase (X Y Z : ℤ → ℝ) (m1 m2 m3 j_min j_max j_minus : ℤ) (rf F_plus : List ℝ) :
    Py (List ℝ × List ℝ × ℤ × Bool) := do
  if m1 = 0 ∧ m2 = 0 ∧ m3 = 0 then
    let F_plus ← wr F_plus j_max 1
    let F_plus ← wr F_plus (j_max - 1) 0
    return (rf, F_plus, j_max - 1, false)
  else if Y j_max = 0 then
    if Z j_max = 0 then return (rf, F_plus, j_max, true)
    else
      let F_plus ← wr F_plus j_max 1
      let v ← pyDiv (-Y j_max) (Z j_max)
      let F_plus ← wr F_plus (j_max - 1) v
      return (rf, F_plus, j_max - 1, false)
  else if Y j_max * Z j_max ≥ 0 then
    let F_plus ← wr F_plus j_max 1
    let v ← pyDiv (-Y j_max) (Z j_max)
    let F_plus ← wr F_plus (j_max - 1) v
    return (rf, F_plus, j_max - 1, false)
  else
    let v ← pyDiv (-Z j_max) (Y j_max)
    let rf ← wr rf j_max v
    let (rf, brk) ← revLoop X Y Z (pyRangeDown (j_max - 1) (j_minus - 1)) rf
    let j_plus := brk.getD j_min
    let F_plus ← wr F_plus j_plus 1
    let F_plus ← forL (pyRange 1 (j_max - j_plus + 1)) F_plus fun k F_plus => do
      let a ← rd F_plus (j_plus + k - 1)
      let b ← rd rf (j_plus + k)
      wr F_plus (j_plus + k) (a * b)
    if j_plus = j_max then
      let v ← pyDiv (-Y j_max) (Z j_max)
      let F_plus ← wr F_plus (j_max - 1) v
      return (rf, F_plus, j_max - 1, false)
    else return (rf, F_plus, j_plus, false)

/-- The loop at recursions/wigner3j.py:239-247 (`for j in range(j_minus, j_mid)` with `break`); the second component of the
result is the final value of `j_mid`. -/
noncomputable def midLoop (X Y Z : ℤ → ℝ) (j_min : ℤ) : List ℤ → List ℝ → ℤ → Py (List ℝ × ℤ)
  | [], F, j_mid => return (F, j_mid)
  | j :: js, F, j_mid => do
    let b ← rd F j
    let a ← rd F (j - 1)
    let v ← pyDiv (-(Y j * b + Z j * a)) (X j)
    let F ← wr F (j + 1) v
    let c ← rd F (j + 1)
    let F := if |c| > 1 then mapSlice F j_min (j + 1 + 1) (fun v => v / 1000) else F
    let c ← rd F (j + 1)
    let a ← rd F (j - 1)
    let q ← pyDiv c a
    if |q| < 1 ∧ c ≠ 0 then return (F, j + 1) else midLoop X Y Z j_min js F j_mid

/-- Body of the loops at recursions/wigner3j.py:252-257 and 279-284. -/
noncomputable def downStep (X Y Z : ℤ → ℝ) (j_max j : ℤ) (F : List ℝ) : Py (List ℝ) := do
  let a ← rd F (j + 1)
  let b ← rd F j
  let v ← pyDiv (-(X j * a + Y j * b)) (Z j)
  let F ← wr F (j - 1) v
  let c ← rd F (j - 1)
  return if |c| > 1 then mapSlice F (j - 1) (j_max + 1) (fun v => v / 1000) else F

/-- Body of the loop at recursions/wigner3j.py:269-274. -/
noncomputable def upStep (X Y Z : ℤ → ℝ) (j_min j : ℤ) (F : List ℝ) : Py (List ℝ) := do
  let a ← rd F (j - 1)
  let b ← rd F j
  let v ← pyDiv (-(Z j * a + Y j * b)) (X j)
  let F ← wr F (j + 1) v
  let c ← rd F (j + 1)
  return if |c| > 1 then mapSlice F j_min (j + 1 + 1) (fun v => v / 1000) else F

/-- Joining the two solutions — recursions/wigner3j.py:236-265.  Result: `f`, `F_minus`, `F_plus`. -/
noncomputable def meetPhase (X Y Z : ℤ → ℝ) (j_min j_max j_minus j_plus : ℤ) (f F_minus F_plus : List ℝ) :
    Py (List ℝ × List ℝ × List ℝ) := do
  let j_mid := (j_minus + j_plus) / 2
  let (F_minus, j_mid) ← midLoop X Y Z j_min (pyRange j_minus j_mid) F_minus j_mid
  let F_minus_j_mid ← rd F_minus j_mid
  let prev ← rd F_minus (j_mid - 1)
  let small ← if prev ≠ 0 then do
      let q ← pyDiv F_minus_j_mid prev
      pure (decide (|q| < 1 / 1000000))
    else pure false
  let j_mid := if small then j_mid - 1 else j_mid
  let F_minus_j_mid ← rd F_minus j_mid
  let F_plus ← forL (pyRangeDown j_plus j_mid) F_plus (downStep X Y Z j_max)
  let F_plus_j_mid ← rd F_plus j_mid
  if j_mid = j_max then return (copySlice f F_minus j_min (j_max + 1) id, F_minus, F_plus)
  else if j_mid = j_min then return (copySlice f F_plus j_min (j_max + 1) id, F_minus, F_plus)
  else
    let f := copySlice f F_minus j_min (j_mid + 1) (fun v => v * F_plus_j_mid / F_minus_j_mid)
    return (copySlice f F_plus (j_mid + 1) (j_max + 1) id, F_minus, F_plus)

/-- `Wigner3jCalculator` — recursions/wigner3j.py:44-55 -/
structure W3Calc where
  size : ℤ
  workspace : List ℝ

/-- `Wigner3jCalculator.__init__` — recursions/wigner3j.py:49-51; `junk` is the content of fresh memory. -/
noncomputable def W3Calc.new (junk : ℕ → ℝ) (j2_max j3_max : ℤ) : Py W3Calc := do
  let size := i32 (j2_max + j3_max + 1)
  let ws ← npEmpty junk (4 * size)
  return ⟨size, ws⟩

/-- The four arrays that make up the workspace — recursions/wigner3j.py:104-109 -/
structure W3Work where
  f : List ℝ
  sf : List ℝ
  F_minus : List ℝ
  F_plus : List ℝ

/-- The computation of `Wigner3jCalculator.calculate` on the four slices of the zeroed workspace —
recursions/wigner3j.py:97-292.  The returned Python array is the `f` component. -/
noncomputable def w3run (w : W3Work) (j2 j3 m2 m3 : ℤ) : Py W3Work := do
  let m1 := -(m2 + m3)
  let X := fun j => w3X j j2 j3 m1
  let Y := fun j => ((w3B j j2 j3 m2 m3 : ℤ) : ℝ)
  let Z := fun j => w3Z j j2 j3 m1
  let j_min := max |j2 - j3| |m2 + m3|
  let j_max := j2 + j3
  if |m2| > j2 ∨ |m3| > j3 then return w
  else if j_max < j_min then return w
  else if j_max = j_min then
    let v ← pyDiv 1 (Real.sqrt (2 * j_min + 1))
    let f ← wr w.f j_min v
    let v ← rd f j_min
    let f ← if (v < 0 ∧ negOnePow (j2 - j3 + m2 + m3) > 0) ∨ (v > 0 ∧ negOnePow (j2 - j3 + m2 + m3) < 0) then
        wr f j_min (v * -1)
      else pure f
    return { w with f := f }
  else
    let (sf, F_minus, j_minus, undefined_min) ← fwdPhase X Y Z m1 m2 m3 j_min j_max w.sf w.F_minus
    if j_minus = j_max then
      let f := copySlice w.f F_minus j_min (j_max + 1) id
      let f ← w3normalize f j_min j_max
      let f ← w3signs f j_min j_max j2 j3 m2 m3
      return ⟨f, sf, F_minus, w.F_plus⟩
    else
      let (sf, F_plus, j_plus, undefined_max) ← revPhase X Y Z m1 m2 m3 j_min j_max j_minus sf w.F_plus
      let (f, F_minus, F_plus) ←
        if undefined_min ∧ undefined_max then .error .valueError
        else if ¬ undefined_min ∧ ¬ undefined_max then
          meetPhase X Y Z j_min j_max j_minus j_plus w.f F_minus F_plus
        else if ¬ undefined_min ∧ undefined_max then do
          let F_minus ← forL (pyRange j_minus j_plus) F_minus (upStep X Y Z j_min)
          pure (copySlice w.f F_minus j_min (j_max + 1) id, F_minus, F_plus)
        else do
          let F_plus ← forL (pyRangeDown j_plus j_min) F_plus (downStep X Y Z j_max)
          pure (copySlice w.f F_plus j_min (j_max + 1) id, F_minus, F_plus)
      let f ← w3normalize f j_min j_max
      let f ← w3signs f j_min j_max j2 j3 m2 m3
      return ⟨f, sf, F_minus, F_plus⟩

/-- `Wigner3jCalculator.calculate` — recursions/wigner3j.py:57-292: zero the workspace, cut it into four slices, compute in
the slices (which are views, so the workspace afterwards is their concatenation).  The returned Python array is a view of
the first slice. -/
noncomputable def W3Calc.calculate (c : W3Calc) (j2 j3 m2 m3 : ℤ) : Py (List ℝ × W3Calc) := do
  let ws := c.workspace.map fun _ => (0 : ℝ)
  let n := c.size.toNat
  let w ← w3run ⟨ws.take n, (ws.drop n).take n, (ws.drop (2 * n)).take n, (ws.drop (3 * n)).take n⟩ j2 j3 m2 m3
  return (w.f, { c with workspace := w.f ++ w.sf ++ w.F_minus ++ w.F_plus })

/-- `Wigner3j` — recursions/wigner3j.py:295-340; `junk` is the content of the memory that `np.empty` returns. -/
noncomputable def Wigner3j (junk : ℕ → ℝ) (j_1 j_2 j_3 m_1 m_2 m_3 : ℤ) : Py ℝ := do
  if m_1 + m_2 + m_3 ≠ 0 then return 0
  else if |m_1| > j_1 ∨ |m_2| > j_2 ∨ |m_3| > j_3 then return 0
  else
    let (j_1, j_2, j_3, _, m_2, m_3) :=
      if j_1 = max j_1 (max j_2 j_3) then (j_1, j_2, j_3, m_1, m_2, m_3)
      else if j_2 = max j_1 (max j_2 j_3) then (j_2, j_3, j_1, m_2, m_3, m_1)
      else (j_3, j_1, j_2, m_3, m_1, m_2)
    if j_1 > j_2 + j_3 then return 0
    else
      let c ← W3Calc.new junk j_2 j_3
      let (w3j, _) ← c.calculate j_2 j_3 m_2 m_3
      rd w3j j_1

/-- `clebsch_gordan` — recursions/wigner3j.py:343-353.  (For negative `j_3` numba's `math.sqrt` gives nan, here 0.) -/
noncomputable def clebsch_gordan (junk : ℕ → ℝ) (j_1 m_1 j_2 m_2 j_3 m_3 : ℤ) : Py ℝ := do
  let w ← Wigner3j junk j_1 j_2 j_3 m_1 m_2 (-m_3)
  return (-1 : ℝ) ^ (j_1 - j_2 + m_3) * Real.sqrt (2 * j_3 + 1) * w

end SF
