import Verif.Model.UfuncMethods
import Verif.Props.ModesOut
import Verif.Props.Grid

/-!
# Property C73: methods of ufuncs

`np.add.reduce(f)` and the like (also `f.sum()`, `f.mean()`, ...) never return a wrong number: they raise.  But `np.add.at(f, i, x)`, which
should change `f` in place, takes the index for the second operand; when it does not raise, it does nothing.  `outer` and `reduceat` do the
same as the ordinary call.
-/

set_option autoImplicit false

namespace SF

variable (junk junk' : ℕ → ℝ)

theorem arrayUfunc_sign {w : World} {self : MObj} {u : Ufunc} (hu : u = .positive ∨ u = .negative) (args args' : List UArg) :
    arrayUfunc junk junk' w self u args .none false = arrayUfunc junk junk' w self u args' .none false := by
  rcases hu with rfl | rfl <;> simp [arrayUfunc, Ufunc.passed]

/-- A call from `at` either is an ordinary call or raises. -/
theorem arrayUfunc_take {w : World} {u : Ufunc} (hu : u ∈ Ufunc.supported) {args : List UArg} (hn : args.length = u.nin + 1) {i : ℕ}
    (hi : firstModes args .none = some i) {self : MObj} (hs : w.objs[i]? = some self) :
    (∃ args', arrayUfunc junk junk' w self u (args.take u.nin) .none false = ufuncCall junk junk' w u args' .none false) ∨
    ∃ e, arrayUfunc junk junk' w self u (args.take u.nin) .none false = .error e := by
  by_cases h : u = .positive ∨ u = .negative
  · left
    refine ⟨[.modes i], ?_⟩
    rw [arrayUfunc_sign junk junk' h _ [.modes i]]
    rcases h with rfl | rfl <;> simp [ufuncCall, firstModes, Ufunc.nin, World.obj_ok hs, bind_ok]
  · simp only [Ufunc.supported, List.mem_cons, List.not_mem_nil, or_false] at hu
    have h2 : u.nin = 1 ∨ u.nin = 2 := by
      rcases hu with rfl | rfl | rfl | rfl | rfl | rfl | rfl | rfl <;> simp [Ufunc.nin]
    by_cases hf : firstModes (args.take u.nin) .none = some i
    · left
      refine ⟨args.take u.nin, ?_⟩
      unfold ufuncCall
      rw [if_neg (by rw [List.length_take]; omega), hf]
      simp only [World.obj_ok hs, bind_ok]
    · right
      have hall : (∃ a, args.take u.nin = [.arr a]) ∨ ∃ a b, args.take u.nin = [.arr a, .arr b] := by
        rcases h2 with h2 | h2
        · match args, hn with
          | [a, b], _ =>
            rw [h2] at hf ⊢
            cases a with
            | modes k => simp [firstModes] at hi hf; exact absurd hi hf
            | arr a => left; exact ⟨a, rfl⟩
          | [], hn => rw [h2] at hn; simp at hn
          | [_], hn => rw [h2] at hn; simp at hn
          | _ :: _ :: _ :: _, hn => rw [h2] at hn; simp at hn
        · match args, hn with
          | [a, b, c], _ =>
            rw [h2] at hf ⊢
            cases a with
            | modes k => simp [firstModes] at hi hf; exact absurd hi hf
            | arr a =>
              cases b with
              | modes k => simp [firstModes] at hi hf; exact absurd hi hf
              | arr b => right; exact ⟨a, b, rfl⟩
          | [], hn => rw [h2] at hn; simp at hn
          | [_], hn => rw [h2] at hn; simp at hn
          | [_, _], hn => rw [h2] at hn; simp at hn
          | _ :: _ :: _ :: _ :: _, hn => rw [h2] at hn; simp at hn
      rcases hall with ⟨a, ha⟩ | ⟨a, b, ha⟩ <;> rw [ha] <;>
        rcases hu with rfl | rfl | rfl | rfl | rfl | rfl | rfl | rfl <;>
        simp [arrayUfunc, Ufunc.passed, Ufunc.supported] at h ⊢

/-- **C73.** A call `np.<u>.at(...)` of a supported ufunc (other than `np.absolute`) that returns has returned `None` and has changed nothing: all
objects and all arrays are what they were. -/
theorem C73_at_never_changes {w : World} (hw : w.Valid) {u : Ufunc} (hu : u ∈ Ufunc.supported) (hua : u ≠ .absolute) {args : List UArg}
    {out : OutArg} {kwargs : Bool} {w' : World} {r : MRes} (e : ufuncMethod junk junk' w u .at args out kwargs = .ok (w', r)) :
    r = .none ∧ w'.objs = w.objs ∧ ∀ a : ArrRef, a.Valid w.heap → w'.heap.load a = w.heap.load a := by
  unfold ufuncMethod at e
  rw [if_neg (by simp)] at e
  split at e
  · cases e
  rename_i hn
  split at e
  · cases e
  rename_i hk
  have hk' : kwargs = false ∧ out = .none := by
    cases kwargs <;> cases out <;> simp [OutArg.given] at hk ⊢
  obtain ⟨rfl, rfl⟩ := hk'
  cases hi : firstModes args .none with
  | none => rw [hi] at e; cases e
  | some i =>
    rw [hi] at e
    simp only at e
    cases hs : w.objs[i]? with
    | none => rw [show w.obj i = .error .nameError by unfold World.obj; rw [hs]] at e; cases e
    | some self =>
      rw [World.obj_ok hs, bind_ok] at e
      unfold arrayUfuncMethod at e
      have hp : u ∉ Ufunc.passed := by
        simp only [Ufunc.supported, List.mem_cons, List.not_mem_nil, or_false] at hu
        rcases hu with rfl | rfl | rfl | rfl | rfl | rfl | rfl | rfl <;> decide
      have hlen : args.length = u.nin + 1 := by
        simpa [UMethod.nargs] using hn
      rw [if_neg hp, if_neg (not_not.2 hu), if_neg (by simp), if_neg (by omega)] at e
      rcases arrayUfunc_take junk junk' hu hlen hi hs with ⟨args', h⟩ | ⟨er, h⟩
      · cases hc : ufuncCall junk junk' w u args' .none false with
        | error er => rw [h, hc] at e; cases e
        | ok x =>
          rw [h, hc, bind_ok] at e
          simp only [if_neg hua, if_true] at e
          obtain ⟨w1, r1⟩ := x
          injection e with e
          injection e with e1 e2
          subst e1
          refine ⟨e2.symm, rfl, fun a ha => ?_⟩
          rcases ufunc_none_cases hw hc with rfl | ⟨g, -, rfl, -⟩
          · rfl
          · exact (push_old g).1 a ha
      · rw [h] at e; cases e

/-- What `at` does when the ordinary call gives `x`. -/
def atResult (w : World) (x : Py Modes) : Py (World × MRes) := x.map fun g => (⟨(w.push g).heap, w.objs⟩, .none)

theorem at_eq {w : World} {u : Ufunc} (hu : u ∈ Ufunc.supported) (hua : u ≠ .absolute) {i : ℕ} {f : MObj} (hf : w.objs[i]? = some f)
    {args rest : List UArg} (hl : (UArg.modes i :: args).length = u.nin) (hr : rest.length = 1) {x : Py Modes}
    (hx : ufuncCall junk junk' w u (.modes i :: args) .none false = x.map w.pushRes) :
    ufuncMethod junk junk' w u .at (.modes i :: args ++ rest) .none false = atResult w x := by
  unfold ufuncMethod
  rw [if_neg (by simp), if_neg (by rw [List.length_append, hl, hr]; simp [UMethod.nargs]), if_neg (by simp [OutArg.given])]
  rw [show firstModes (.modes i :: args ++ rest) .none = some i from rfl]
  simp only
  rw [World.obj_ok hf, bind_ok]
  unfold arrayUfuncMethod
  have hp : u ∉ Ufunc.passed := by
    simp only [Ufunc.supported, List.mem_cons, List.not_mem_nil, or_false] at hu
    rcases hu with rfl | rfl | rfl | rfl | rfl | rfl | rfl | rfl <;> decide
  rw [if_neg hp, if_neg (not_not.2 hu), if_neg (by simp), if_neg (by rw [List.length_append, hl, hr]; omega),
    List.take_append_of_le_length (by rw [hl]), List.take_of_length_le (by rw [hl])]
  unfold ufuncCall at hx
  rw [if_neg (by simpa using hl), show firstModes (.modes i :: args) .none = some i from rfl] at hx
  simp only at hx
  rw [World.obj_ok hf, bind_ok] at hx
  rw [hx]
  unfold atResult
  cases x with
  | error e => rfl
  | ok g =>
    simp only [Except.map, bind_ok, World.pushRes]
    rw [if_neg hua, if_true]
    rfl

/-- **C73.** The calls of `at` that return: for a consistent object `f`, any index (and any value `x`), `np.positive.at(f, idx)`,
`np.negative.at(f, idx)`, `np.conj.at(f, idx)`; `np.multiply.at(f, k, x)` and `np.divide.at(f, k, x)` for a number `k`;
`np.add.at(f, 0, x)` and `np.subtract.at(f, 0, x)`.  (By `C73_at_never_changes` they do nothing.)  With a nonzero index `np.add.at` and
`np.subtract.at` raise `TypeError`. -/
theorem C73_at_calls {w : World} (hw : w.Valid) {i : ℕ} {f : MObj} (hf : w.objs[i]? = some f) (hwf : (f.val w.heap).WF)
    (hne : f.ref.len ≠ 0) (idx x : UArg) :
    (∀ u ∈ [Ufunc.positive, .negative, .conjugate], ∃ w', ufuncMethod junk junk' w u .at [.modes i, idx] .none false = .ok (w', .none)) ∧
    (∀ u ∈ [Ufunc.multiply, .divide], ∀ k : ℂ, ∃ w',
      ufuncMethod junk junk' w u .at [.modes i, .arr (num k), x] .none false = .ok (w', .none)) ∧
    (∀ u ∈ [Ufunc.add, .subtract], ∃ w', ufuncMethod junk junk' w u .at [.modes i, .arr (num 0), x] .none false = .ok (w', .none)) ∧
    (∀ u ∈ [Ufunc.add, .subtract], ∀ a : Scalars, a.any = true →
      ufuncMethod junk junk' w u .at [.modes i, .arr a, x] .none false = .error .typeError) := by
  have hdat : (f.val w.heap).dat ≠ [] := by
    intro h
    have := load_length (hw.get hf)
    rw [show w.heap.load f.ref = [] from h] at this
    simp at this
    omega
  have hmul : ∀ (op : ℂ → ℂ → ℂ) (k : ℂ), ∃ g, (f.val w.heap).ufuncMulScalar op (num k) = .ok g := by
    intro op k
    unfold Modes.ufuncMulScalar
    rw [check_num hdat, bind_ok, if_pos rfl]
    obtain ⟨g, hg, -⟩ := scalarUfunc_ok hwf op (num k) (bcastShape_nil _)
    exact ⟨g, hg⟩
  have hA : ∀ {y : Py (World × MRes)} {x : Py Modes}, y = atResult w x → (∃ g, x = .ok g) → ∃ w', y = .ok (w', .none) := by
    rintro y x rfl ⟨g, rfl⟩
    exact ⟨_, rfl⟩
  obtain ⟨u1, u2, u3, -⟩ := C39_unary junk junk' hw hf
  refine ⟨?_, ?_, ?_, ?_⟩
  · intro u hu
    simp only [List.mem_cons, List.not_mem_nil, or_false] at hu
    rcases hu with rfl | rfl | rfl
    · refine hA (at_eq junk junk' (by decide) (by decide) hf (args := []) (rest := [idx]) rfl rfl u1) ?_
      exact ⟨_, positive_ok hwf⟩
    · refine hA (at_eq junk junk' (by decide) (by decide) hf (args := []) (rest := [idx]) rfl rfl u2) ?_
      obtain ⟨g, hg, -⟩ := negative_ok hwf
      exact ⟨_, hg⟩
    · refine hA (at_eq junk junk' (by decide) (by decide) hf (args := []) (rest := [idx]) rfl rfl u3) ?_
      obtain ⟨g, hg, -⟩ := conjugate_ok hwf false
      exact ⟨_, hg⟩
  · intro u hu k
    obtain ⟨-, -, h3, h4⟩ := C39_modes_array junk junk' hf (num k)
    simp only [List.mem_cons, List.not_mem_nil, or_false] at hu
    rcases hu with rfl | rfl
    · rw [check_num hdat, if_neg (by simp)] at h3
      refine hA (at_eq junk junk' (by decide) (by decide) hf (args := [.arr (num k)]) (rest := [x]) rfl rfl h3) ?_
      unfold Modes.multiplyScalar
      rw [check_num hdat, bind_ok, if_pos rfl]
      exact hmul _ k
    · refine hA (at_eq junk junk' (by decide) (by decide) hf (args := [.arr (num k)]) (rest := [x]) rfl rfl h4) ?_
      exact (hmul _ k)
  · intro u hu
    obtain ⟨h1, h2, -, -⟩ := C39_modes_array junk junk' hf (num 0)
    have hz : (num 0).any = false := by simp [Scalars.any, num]
    rw [hz] at h1 h2
    simp only [Bool.false_eq_true, if_false] at h1 h2
    have hadd : ∀ b, ∃ g, (f.val w.heap).addScalar (num 0) b = .ok g := by
      intro b
      unfold Modes.addScalar Modes.ufuncAddScalar
      rw [hz]
      simp only [Bool.false_eq_true, if_false]
      exact hmul _ 0
    simp only [List.mem_cons, List.not_mem_nil, or_false] at hu
    rcases hu with rfl | rfl
    · refine hA (at_eq junk junk' (by decide) (by decide) hf (args := [.arr (num 0)]) (rest := [x]) rfl rfl h1) ?_
      exact (hadd _)
    · refine hA (at_eq junk junk' (by decide) (by decide) hf (args := [.arr (num 0)]) (rest := [x]) rfl rfl h2) ?_
      exact (hadd _)
  · intro u hu a ha
    obtain ⟨h1, h2, -, -⟩ := C39_modes_array junk junk' hf a
    rw [ha] at h1 h2
    simp only [if_true] at h1 h2
    simp only [List.mem_cons, List.not_mem_nil, or_false] at hu
    rcases hu with rfl | rfl
    · exact at_eq junk junk' (by decide) (by decide) hf (args := [.arr a]) (rest := [x]) (x := .error .typeError) rfl rfl h1
    · exact at_eq junk junk' (by decide) (by decide) hf (args := [.arr a]) (rest := [x]) (x := .error .typeError) rfl rfl h2

/-- **C73.** `np.<u>.reduce(f)` and `np.<u>.accumulate(f)` for `add`, `subtract`, `multiply`, `divide`: `IndexError` without keyword arguments
(with or without `out`), `NotImplementedError` with them (`f.sum()`, `f.prod()`, `f.cumsum()`, `f.mean()`); for a ufunc that is not supported
(`f.max()`, `f.min()`) `TypeError`. -/
theorem C73_reductions {w : World} {i : ℕ} {f : MObj} (hf : w.objs[i]? = some f) (m : UMethod) (hm : m = .reduce ∨ m = .accumulate)
    (out : OutArg) :
    (∀ u ∈ [Ufunc.add, .subtract, .multiply, .divide],
      ufuncMethod junk junk' w u m [.modes i] out false = .error .indexError ∧
      ufuncMethod junk junk' w u m [.modes i] out true = .error .notImplementedError) ∧
    ∀ name kwargs, ufuncMethod junk junk' w (.other name 2) m [.modes i] out kwargs = .error .typeError := by
  constructor
  · intro u hu
    simp only [List.mem_cons, List.not_mem_nil, or_false] at hu
    rcases hm with rfl | rfl <;> rcases hu with rfl | rfl | rfl | rfl <;>
      simp [ufuncMethod, arrayUfuncMethod, UMethod.nargs, Ufunc.nin, Ufunc.passed, Ufunc.supported, firstModes, World.obj_ok hf, bind_ok]
  · intro name kwargs
    rcases hm with rfl | rfl <;>
      simp [ufuncMethod, arrayUfuncMethod, UMethod.nargs, Ufunc.nin, Ufunc.passed, Ufunc.supported, firstModes, World.obj_ok hf, bind_ok]

/-- **C73.** `np.<u>.outer(a, b)` and `np.<u>.reduceat(a, b)` do the same as `np.<u>(a, b)`: the same exceptions, results and effects.  (So
the "outer product" of two functions is their product, and the indices of `reduceat` are taken for numbers.) -/
theorem C73_outer_reduceat {w : World} {u : Ufunc} (hu : u ∈ [Ufunc.add, .subtract, .multiply, .divide]) (m : UMethod)
    (hm : m = .outer ∨ m = .reduceat) (a b : UArg) (out : OutArg) :
    ufuncMethod junk junk' w u m [a, b] out false
      = (ufuncCall junk junk' w u [a, b] out false).map fun x => (x.1, .res x.2) := by
  have hmn : ¬ m = .at := by rcases hm with rfl | rfl <;> decide
  have hn : u.nin = 2 ∧ u ∉ Ufunc.passed ∧ u ∈ Ufunc.supported ∧ u ≠ .absolute := by
    simp only [List.mem_cons, List.not_mem_nil, or_false] at hu
    rcases hu with rfl | rfl | rfl | rfl <;> decide
  obtain ⟨h1, h2, h3, h4⟩ := hn
  have hc : m.nargs u.nin = 2 := by rcases hm with rfl | rfl <;> rfl
  unfold ufuncMethod ufuncCall
  rw [if_neg (by simp [h1]), if_neg (by simp [hc]), if_neg (by simp [hmn]), if_neg (by simp [h1])]
  cases firstModes [a, b] out with
  | none => rfl
  | some i =>
    simp only
    cases hs : w.obj i with
    | error e => rfl
    | ok self =>
      simp only [bind_ok]
      unfold arrayUfuncMethod
      rw [if_neg h2, if_neg (not_not.2 h3), if_neg (by simp), if_neg (by simp [h1]), h1, List.take_of_length_le (by simp)]
      cases arrayUfunc junk junk' w self u [a, b] out false with
      | error e => rfl
      | ok x =>
        simp only [bind_ok]
        rw [if_neg h4, if_neg hmn]
        rfl

/-- **C73.** `f.any()`, `f.all()` (reductions of `np.logical_or`, `np.logical_and`) are numpy's, applied to the array of mode weights. -/
theorem C73_any_all {w : World} {i : ℕ} {f : MObj} (hf : w.objs[i]? = some f) (u : Ufunc) (hu : u = .logical_or ∨ u = .logical_and)
    (kwargs : Bool) :
    ufuncMethod junk junk' w u .reduce [.modes i] .none kwargs
      = .ok (w, .forwarded .reduce u [.nd f.ref.lead (w.heap.load f.ref)]) := by
  rcases hu with rfl | rfl <;>
    simp [ufuncMethod, arrayUfuncMethod, UMethod.nargs, Ufunc.nin, Ufunc.passed, firstModes, World.obj_ok hf, bind_ok, UArg.plain, pure,
      Except.pure]

/-! ## The same for `Grid` -/

/-- **C73.** `np.<u>.at(...)` on Grid objects never returns anything but `None`; `reduce` and `accumulate` raise `IndexError`, or
`NotImplementedError` when there are keyword arguments, `TypeError` for ufuncs that are not supported; `outer` and `reduceat` do the same as
the ordinary call. -/
theorem C73_grid (u : GUfunc) :
    (∀ args out kw g o, gridUfuncMethod u .at args out kw = .ok (g, o) → g = none ∧ o = none) ∧
    (∀ (m : UMethod) (g : Grid) (out : Option GArg), (m = .reduce ∨ m = .accumulate) → u ∈ [GUfunc.add, .subtract, .multiply, .divide] →
      gridUfuncMethod u m [.grid g] out false = .error .indexError ∧ gridUfuncMethod u m [.grid g] out true = .error .notImplementedError) ∧
    (∀ (m : UMethod) (g : Grid) (out : Option GArg) (kw : Bool), (m = .reduce ∨ m = .accumulate) →
      gridUfuncMethod .other m [.grid g] out kw = .error .typeError) ∧
    ∀ (m : UMethod) (a b : GArg) (out : Option GArg), (m = .outer ∨ m = .reduceat) → u ∈ [GUfunc.add, .subtract, .multiply, .divide, .power] →
      gridUfuncMethod u m [a, b] out false = (callUfunc u [a, b] out).map fun x => (some x.1, x.2) := by
  refine ⟨?_, ?_, ?_, ?_⟩
  · intro args out kw g o e
    unfold gridUfuncMethod at e
    rw [if_neg (by simp)] at e
    split at e
    · cases e
    split at e
    · cases e
    rename_i hk
    have hk' : kw = false ∧ out = none := by
      cases kw <;> cases out <;> simp at hk ⊢
    obtain ⟨rfl, rfl⟩ := hk'
    cases hi : firstGrid (args ++ (none : Option GArg).toList) with
    | none => rw [hi] at e; cases e
    | some self =>
      rw [hi] at e
      simp only at e
      unfold Grid.array_ufunc_method at e
      split at e
      · cases e
      rw [if_neg (by simp)] at e
      split at e
      · split at e <;> cases e
      cases hc : self.array_ufunc u (args.take u.nin) none false with
      | error er => rw [hc] at e; cases e
      | ok x =>
        rw [hc, bind_ok] at e
        simp only [if_true] at e
        injection e with e
        injection e with e1 e2
        refine ⟨e1.symm, ?_⟩
        rw [← e2]
        rcases array_ufunc_cases self u (args.take u.nin) false with ⟨er, h⟩ | ⟨r, sp, h⟩
        · rw [h none] at hc; cases hc
        · rw [h none] at hc
          unfold Grid.finish at hc
          obtain ⟨v, -, hc⟩ := bind_eq_ok hc
          obtain ⟨v, -, hc⟩ := bind_eq_ok hc
          simp only at hc
          cases hc
          rfl
  · intro m g out hm hu
    simp only [List.mem_cons, List.not_mem_nil, or_false] at hu
    rcases hm with rfl | rfl <;> rcases hu with rfl | rfl | rfl | rfl <;>
      simp [gridUfuncMethod, Grid.array_ufunc_method, UMethod.nargs, GUfunc.nin, firstGrid]
  · intro m g out kw hm
    rcases hm with rfl | rfl <;> simp [gridUfuncMethod, Grid.array_ufunc_method, UMethod.nargs, GUfunc.nin, firstGrid]
  · intro m a b out hm hu
    have hmn : ¬ m = .at := by rcases hm with rfl | rfl <;> decide
    have hn : u.nin = 2 := by
      simp only [List.mem_cons, List.not_mem_nil, or_false] at hu
      rcases hu with rfl | rfl | rfl | rfl | rfl <;> rfl
    have hc : m.nargs u.nin = 2 := by rcases hm with rfl | rfl <;> rfl
    unfold gridUfuncMethod callUfunc
    rw [if_neg (by simp [hn]), if_neg (by simp [hc]), if_neg (by simp [hmn])]
    cases firstGrid ([a, b] ++ out.toList) with
    | none => rfl
    | some self =>
      simp only
      have : self.array_ufunc_method u m [a, b] out false = (do
          let (g, o) ← self.array_ufunc u ([a, b].take u.nin) out false
          return (if m = .at then none else some g, o)) := by
        unfold Grid.array_ufunc_method
        simp only [List.mem_cons, List.not_mem_nil, or_false] at hu
        rcases hu with rfl | rfl | rfl | rfl | rfl <;> simp [GUfunc.nin]
      rw [this, hn, List.take_of_length_le (by simp)]
      cases self.array_ufunc u [a, b] out false with
      | error e => rfl
      | ok x =>
        simp only [bind_ok]
        rw [if_neg hmn]
        rfl

/-! ## Non-vacuity -/

/-- `np.negative.at(f, 1)` on a reachable object with weights 1, 2, 3, 4 returns, and the object still has the weight 3 of the mode (1, 0);
`np.add.at(f, 1, 5)` raises. -/
example : Reachable junk junk' exWorld ∧
    (∃ w', ufuncMethod junk junk' exWorld .negative .at [.modes 0, .arr (num 1)] .none false = .ok (w', .none) ∧
      ∃ o, w'.objs[0]? = some o ∧ (o.val w'.heap).coef 1 0 [] = 3) ∧
    ufuncMethod junk junk' exWorld .add .at [.modes 0, .arr (num 1), .arr (num 5)] .none false = .error .typeError := by
  have hv : exWorld.Valid := (exWorld_reachable junk junk').good.valid
  obtain ⟨h1, -, -, h4⟩ := C73_at_calls junk junk' hv (i := 0) (f := exObj 0) rfl (exObj_wf (by omega)) (by simp [exObj]) (.arr (num 1))
    (.arr (num 5))
  refine ⟨exWorld_reachable junk junk', ?_, h4 .add (by simp) (num 1) (by simp [Scalars.any, num, ValidIdx])⟩
  obtain ⟨w', e⟩ := h1 .negative (by simp)
  obtain ⟨-, h2, h3⟩ := C73_at_never_changes junk junk' hv (by decide) (by decide) e
  refine ⟨w', e, exObj 0, by rw [h2]; rfl, ?_⟩
  have : (exObj 0).val w'.heap = (exObj 0).val exHeap := by
    simp only [MObj.val]
    rw [h3 _ (exObj_valid (by omega))]
    rfl
  rw [this]
  simp [exObj, MObj.val, Modes.coef, exHeap, Heap.load, mpos, LM_index]

/-- `np.negative.at(g, idx)` on a Grid returns. -/
example (idx : GArg) : gridUfuncMethod .negative .at [.grid (exGrid 1), idx] none false = .ok (none, none) := by
  have h : (exGrid 1).array_ufunc .negative [.grid (exGrid 1)] none false = .ok (_, none) :=
    finish_view (op := fun z => -z) (by simp [exGrid]) (by simp [exGrid])
  simp only [gridUfuncMethod, UMethod.nargs, GUfunc.nin, List.cons_append, firstGrid, Grid.array_ufunc_method]
  rw [show List.take 1 [GArg.grid (exGrid 1), idx] = [.grid (exGrid 1)] from rfl, h]
  simp

end SF
