import Verif.Model.WignerH
import Verif.Model.Multiplication

/-!
# Model of threads that share calculators and workspaces

The compiled functions of the package are built with `jit = njit(cache=True)` (`__init__.py:30-31`, no `nogil`) and `jitclass`, so a
compiled function holds CPython's global interpreter lock from its beginning to its end: it is one atomic step.  The methods of
`HCalculator` are Python code; another thread may run between any two of the five compiled steps of `__call__`
(recursions/wignerH.py:485-489).

* A thread makes a sequence of calls `calc(cosβ, sinβ, workspace=ws)` with one workspace and appends a copy of each result to a
  list; the copy (the result is a view of the workspace) is one further atomic step.
* The memory is a map from addresses to workspaces; the workspace at address `a` has `Jof a` columns.  A call without a workspace
  uses an array at an address that no other thread uses.
* The argument checks of `__call__` (lines 468-481, `hArgs`) read nothing that is shared; the calls of the model start after them
  with the rows `cosβ` and `sinβ`.
* The attributes of a calculator are never written after `__init__`, so that they are constants of the program.
* Interpreters without the global lock are not modelled.
-/

set_option autoImplicit false

namespace SF

/-- The views `Hwedge`, `Hv`, `Hextra` of a workspace — recursions/wignerH.py:482-484 -/
def hSplit {J : ℕ} (n_max : ℤ) (ws : List (HRow J)) : HArr J :=
  let W := (wedge_size n_max).toNat
  let V := ((n_max + 1) ^ 2).toNat
  let X := (n_max + 2).toNat
  { w := ws.take W, v := (ws.drop W).take V, x := (ws.drop (W + V)).take X }

/-- The contents of a workspace after its views have been changed. -/
def hMerge {J : ℕ} (n_max : ℤ) (ws : List (HRow J)) (A : HArr J) : List (HRow J) :=
  A.w ++ A.v ++ A.x ++ ws.drop ((wedge_size n_max).toNat + ((n_max + 1) ^ 2).toNat + (n_max + 2).toNat)

/-- The compiled function called at line 485 + k, `k = 0, …, 4` — recursions/wignerH.py:485-489 -/
noncomputable def hStep {J : ℕ} (C : HCoef) (co si : HRow J) (k : ℕ) (A : HArr J) : Py (HArr J) :=
  match k with
  | 0 => do
    let w ← h_step_1 A.w
    return { A with w := w }
  | 1 => h_step_2 wedge_index C.g C.h C.n_max co si A
  | 2 => do
    let w ← h_step_3 wedge_index C.a C.b C.n_max co si A.w A.x
    return { A with w := w }
  | 3 => do
    let (w, v) ← h_step_4 wedge_index C.d C.n_max (A.w, A.v)
    return { A with w := w, v := v }
  | _ => do
    let (w, v) ← h_step_5 wedge_index C.d C.n_max (A.w, A.v)
    return { A with w := w, v := v }

/-- What a thread runs: the calculator, the address of the workspace and the arguments `(cosβ, sinβ)` of its calls. -/
structure HProg (Jof : ℕ → ℕ) where
  C : HCoef
  addr : ℕ
  jobs : List (HRow (Jof addr) × HRow (Jof addr))

/-- The state of all threads: the memory, and for each thread the number of finished calls, the number of compiled steps made
in the current call, the copies of the results, and the exception if one was raised. -/
structure HState {Jof : ℕ → ℕ} (P : ℕ → HProg Jof) where
  mem : (a : ℕ) → List (HRow (Jof a))
  fin : ℕ → ℕ
  pc : ℕ → ℕ
  out : (i : ℕ) → List (List (HRow (Jof (P i).addr)))
  err : ℕ → Option PyErr

/-- The next atomic step of thread `i` — recursions/wignerH.py:485-491 and `.copy()` of the result.  A thread that has finished
or has raised does nothing. -/
noncomputable def HState.step {Jof : ℕ → ℕ} {P : ℕ → HProg Jof} (σ : HState P) (i : ℕ) : HState P :=
  if (σ.err i).isSome then σ
  else match (P i).jobs[σ.fin i]? with
    | none => σ
    | some (co, si) =>
      let ws := σ.mem (P i).addr
      let n_max := (P i).C.n_max
      if σ.pc i < 5 then
        match hStep (P i).C co si (σ.pc i) (hSplit n_max ws) with
        | .error e => { σ with err := Function.update σ.err i (some e) }
        | .ok A => { σ with
            mem := Function.update σ.mem (P i).addr (hMerge n_max ws A)
            pc := Function.update σ.pc i (σ.pc i + 1) }
      else { σ with
        out := Function.update σ.out i (σ.out i ++ [ws.take (wedge_size n_max).toNat])
        fin := Function.update σ.fin i (σ.fin i + 1)
        pc := Function.update σ.pc i 0 }

/-- A schedule is the list of the threads that make the successive atomic steps. -/
noncomputable def HState.run {Jof : ℕ → ℕ} {P : ℕ → HProg Jof} (σ : HState P) (S : List ℕ) : HState P :=
  S.foldl HState.step σ

/-- The state in which no thread has begun, with memory `mem`. -/
def HState.init {Jof : ℕ → ℕ} (P : ℕ → HProg Jof) (mem : (a : ℕ) → List (HRow (Jof a))) : HState P where
  mem := mem
  fin := fun _ => 0
  pc := fun _ => 0
  out := fun _ => []
  err := fun _ => none

/-- A call `calculate(j2, j3, m2, m3)` — recursions/wigner3j.py:57-292, one atomic step of the thread that makes it. -/
structure W3Call where
  j2 : ℤ
  j3 : ℤ
  m2 : ℤ
  m3 : ℤ

/-- Successive calls (by any threads) of `calculate` on one calculator.  What a variable holding the result of one of them sees later
is `W3Calc.view` (Model/Multiplication). -/
noncomputable def W3Calc.runCalls (c : W3Calc) : List W3Call → Py W3Calc
  | [] => .ok c
  | q :: l => do
    let (_, c') ← c.calculate q.j2 q.j3 q.m2 q.m3
    c'.runCalls l

end SF
