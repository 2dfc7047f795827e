import Verif.Lemmas.ModesAlg
import Verif.Spec.Modes

/-!
# Properties C23, C26–C31, C34: `Modes` objects as functions

`Modes.WF` is the class invariant; `WF_iff_constructed` shows that it describes exactly the objects that the constructor
can return (with `ell_max ≥ -1`).  "The function represented by `f`" is always accessed through `f.evaluate`.
-/

set_option autoImplicit false

namespace SF

open Finset ComplexConjugate Quaternion

/-! ## C23 -/

/-- The ways of calling `Modes(data, ...)` with spin weight `s` and first `ell` value `l0`: with `ell_max = L` given, or
left to be deduced. -/
def callsWithEllMax (s l0 L : ℤ) (t : TruncKey) : List (List ℤ × Kw) :=
  [([], ⟨some s, some l0, some L, t⟩), ([s], ⟨none, some l0, some L, t⟩), ([s, l0, L], ⟨none, none, none, t⟩)]

/-- See `callsWithEllMax`. -/
def callsWithout (s l0 : ℤ) (t : TruncKey) : List (List ℤ × Kw) :=
  [([], ⟨some s, some l0, none, t⟩), ([s], ⟨none, some l0, none, t⟩)]

theorem new_resolved_some {s l0 L : ℤ} {t : TruncKey} {c : List ℤ × Kw} (hc : c ∈ callsWithEllMax s l0 L t)
    (lead : List ℕ) (dat : List Slice) :
    Modes.new (.array lead dat) {} c.1 c.2 = if (dat.length : ℤ) ≠ LM_total_size l0 L then .error .valueError
      else .ok ⟨lead, s, L, t, zeroPrefix (s ^ 2).toNat
        (if l0 = 0 then dat else List.replicate (LM_total_size 0 (l0 - 1)).toNat (fun _ => 0) ++ dat)⟩ := by
  have ht : t.orElse .absent = t := by cases t <;> rfl
  simp only [callsWithEllMax, List.mem_cons, List.not_mem_nil, or_false] at hc
  rcases hc with rfl | rfl | rfl <;> unfold Modes.new <;> simp [bind_ok, ht, abs_sub_one_sq]

theorem new_resolved_none {s l0 : ℤ} {t : TruncKey} {c : List ℤ × Kw} (hc : c ∈ callsWithout s l0 t)
    (lead : List ℕ) (dat : List Slice) :
    Modes.new (.array lead dat) {} c.1 c.2 = LM_deduce_ell_max dat.length l0 >>= fun L =>
      if (dat.length : ℤ) ≠ LM_total_size l0 L then .error .valueError
      else .ok ⟨lead, s, L, t, zeroPrefix (s ^ 2).toNat
        (if l0 = 0 then dat else List.replicate (LM_total_size 0 (l0 - 1)).toNat (fun _ => 0) ++ dat)⟩ := by
  have ht : t.orElse .absent = t := by cases t <;> rfl
  simp only [callsWithout, List.mem_cons, List.not_mem_nil, or_false] at hc
  rcases hc with rfl | rfl <;> unfold Modes.new <;> simp [ht, abs_sub_one_sq]

theorem total_size_sq (l0 L : ℤ) : LM_total_size l0 L = (L + 1) ^ 2 - l0 ^ 2 := by unfold LM_total_size; ring

theorem padded_get {l0 L : ℤ} (h0 : 0 ≤ l0) {dat : List Slice}
    (hlen : (dat.length : ℤ) = (L + 1) ^ 2 - l0 ^ 2) {ell m : ℤ} (hm : |m| ≤ ell) (_hl : ell ≤ L) :
    (if l0 = 0 then dat else List.replicate (LM_total_size 0 (l0 - 1)).toNat (fun _ => (0 : ℂ)) ++ dat)[mpos ell m]?
      = if l0 ≤ ell then dat[(LM_index ell m l0).toNat]? else some fun _ => 0 := by
  have n1 : 0 ≤ ell := (abs_nonneg m).trans hm
  have lo := mpos_lo hm
  have hi := mpos_hi hm
  have hc := mpos_cast hm
  have hix : LM_index ell m l0 = LM_index ell m 0 - l0 ^ 2 := by unfold LM_index; ring
  have e0 : (LM_total_size 0 (l0 - 1)).toNat = (l0 ^ 2).toNat := by rw [LM_total_size_zero, sub_add_cancel]
  have hsq := sq_nonneg l0
  rw [e0, hix, LM_index_zero, ← hc]
  by_cases h : l0 = 0
  · subst h
    rw [if_pos rfl, if_pos n1]
    congr 1
  · rw [if_neg h]
    by_cases hle : l0 ≤ ell
    · have := sq_le_of h0 hle
      rw [if_pos hle, List.getElem?_append_right (by rw [List.length_replicate]; omega), List.length_replicate]
      congr 1
      omega
    · have := sq_le_of (show 0 ≤ ell + 1 by omega) (show ell + 1 ≤ l0 by omega)
      rw [if_neg hle, List.getElem?_append_left (by rw [List.length_replicate]; omega), List.getElem?_replicate,
        if_pos (by omega)]

/-- **C23 (success).** Data whose last axis holds a complete set of modes `l0 ≤ ell ≤ L` — that is
`(L+1)² - l0²` values — are accepted, whether or not `ell_max` is given, positionally or by keyword.  The result has
`(L+1)²` slots; the slot of `(ell, m)` holds the input's `(ell, m)` value if `ell ≥ |s|` and `ell ≥ l0`, else zero. -/
theorem C23_construct {s l0 L : ℤ} (h0 : 0 ≤ l0) (hL : -1 ≤ L) (t : TruncKey) (lead : List ℕ) (dat : List Slice)
    (hlen : (dat.length : ℤ) = (L + 1) ^ 2 - l0 ^ 2) (c : List ℤ × Kw)
    (hc : c ∈ callsWithEllMax s l0 L t ++ callsWithout s l0 t) :
    ∃ f, Modes.new (.array lead dat) {} c.1 c.2 = .ok f ∧ f.lead = lead ∧ f.s = s ∧ f.ell_max = L ∧ f.trunc = t ∧
      (f.dat.length : ℤ) = (L + 1) ^ 2 ∧
      (∀ ell m, |m| ≤ ell → ell ≤ L → |s| ≤ ell → l0 ≤ ell → ∃ v,
        dat[(LM_index ell m l0).toNat]? = some v ∧ f.dat[(LM_index ell m 0).toNat]? = some v) ∧
      (∀ ell m, |m| ≤ ell → ell ≤ L → ell < |s| ∨ ell < l0 → f.dat[(LM_index ell m 0).toNat]? = some fun _ => 0) := by
  have hts : (dat.length : ℤ) = LM_total_size l0 L := by rw [total_size_sq]; exact hlen
  set pad := (if l0 = 0 then dat else List.replicate (LM_total_size 0 (l0 - 1)).toNat (fun _ => (0 : ℂ)) ++ dat)
    with hpad
  have hpl : (pad.length : ℤ) = (L + 1) ^ 2 := by
    have := sq_nonneg l0
    rw [hpad]
    by_cases h : l0 = 0
    · rw [if_pos h, hlen, h]; ring
    · rw [if_neg h, LM_total_size_zero, sub_add_cancel, List.length_append, List.length_replicate]
      push_cast
      omega
  refine ⟨⟨lead, s, L, t, zeroPrefix (s ^ 2).toNat pad⟩, ?_, rfl, rfl, rfl, rfl, ?_, ?_, ?_⟩
  · rcases List.mem_append.mp hc with hc | hc
    · rw [new_resolved_some hc, if_neg (by simpa using hts)]
    · rw [new_resolved_none hc, LM_deduce_ok hL hts, bind_ok, if_neg (by simpa using hts)]
  · rw [zeroPrefix_length]; exact hpl
  all_goals
    intro ell m h1 h2
    have n1 : 0 ≤ ell := (abs_nonneg m).trans h1
    have lo := mpos_lo h1
    have hi := mpos_hi h1
    have hk := mpos_lt h1 h2 hpl
    have e : s ^ 2 = |s| ^ 2 := (sq_abs s).symm
    have sn : 0 ≤ s ^ 2 := sq_nonneg s
    have hp := padded_get h0 hlen h1 h2
    have key := zeroPrefix_get (n := (s ^ 2).toNat) hk
    rw [← hpad] at hp
    rw [hp] at key
  · intro h3 h4
    have := sq_le_of (abs_nonneg s) h3
    rw [if_neg (by omega), if_pos h4] at key
    refine ⟨(dat[(LM_index ell m l0).toNat]?).getD 0, ?_, ?_⟩
    · have : (LM_index ell m l0).toNat < dat.length := by
        have hc := mpos_cast h1
        have hix : LM_index ell m l0 = LM_index ell m 0 - l0 ^ 2 := by unfold LM_index; ring
        have := sq_le_of h0 h4
        have := LM_index_zero ell m
        omega
      rw [List.getElem?_eq_getElem this]; rfl
    · have : (LM_index ell m l0).toNat < dat.length := by
        have hc := mpos_cast h1
        have hix : LM_index ell m l0 = LM_index ell m 0 - l0 ^ 2 := by unfold LM_index; ring
        have := sq_le_of h0 h4
        have := LM_index_zero ell m
        omega
      unfold mpos at key
      simp only
      rw [key, List.getElem?_eq_getElem this]; rfl
  · intro h3
    unfold mpos at key
    simp only
    rw [key]
    by_cases h : |s| ≤ ell
    · rw [if_neg (by omega : ¬ l0 ≤ ell)]; simp
    · have := sq_le_of (show 0 ≤ ell + 1 by omega) (show ell + 1 ≤ |s| by omega)
      unfold mpos at hi lo
      rw [if_pos (by omega)]

/-- **C23 (rejection).** Every other length raises ValueError: if `ell_max` is given, any length but `(L+1)² - l0²`; if
not, any length that is not of this form for some `L ≥ -1`. -/
theorem C23_reject_length {s l0 : ℤ} (t : TruncKey) (lead : List ℕ) (dat : List Slice) (c : List ℤ × Kw) :
    (∀ L, c ∈ callsWithEllMax s l0 L t → (dat.length : ℤ) ≠ (L + 1) ^ 2 - l0 ^ 2 →
      Modes.new (.array lead dat) {} c.1 c.2 = .error .valueError) ∧
    (c ∈ callsWithout s l0 t → (¬ ∃ L, -1 ≤ L ∧ (dat.length : ℤ) = (L + 1) ^ 2 - l0 ^ 2) →
      Modes.new (.array lead dat) {} c.1 c.2 = .error .valueError) := by
  constructor
  · intro L hc hl
    rw [new_resolved_some hc, if_pos (by rw [total_size_sq]; exact hl)]
  · intro hc hl
    rw [new_resolved_none hc]
    rcases LM_deduce_cases dat.length l0 with ⟨L, h1, h2, -⟩ | ⟨-, h⟩
    · exact absurd ⟨L, h1, by rw [← total_size_sq]; exact h2⟩ hl
    · rw [h]; rfl

/-- **C23 (rejection).** No spin weight, or a wrong number of positional arguments, raises ValueError for all data. -/
theorem C23_reject_args (input : NdIn) (kw : Kw) :
    (kw.spin_weight = none → Modes.new input {} [] kw = .error .valueError) ∧
    (∀ args : List ℤ, args.length = 2 ∨ 3 < args.length → Modes.new input {} args kw = .error .valueError) := by
  constructor
  · intro h
    unfold Modes.new
    simp [h]
  · intro args h
    unfold Modes.new
    rw [if_pos h]

/-- **C23 (0-d input).** A zero-dimensional array gives an IndexError where ValueError was meant. -/
theorem C23_zero_dim (z : ℂ) (s : ℤ) : Modes.new (.scalar z) {} [s] {} = .error .indexError := by
  unfold Modes.new; simp [bind_ok]

/-- The well-formed objects are exactly those returned by the constructor for some complete data with `ell_max ≥ -1`. -/
theorem WF_iff_constructed (f : Modes) :
    f.WF ↔ ∃ (l0 : ℤ) (dat : List Slice) (c : List ℤ × Kw), 0 ≤ l0 ∧ -1 ≤ f.ell_max ∧
      (dat.length : ℤ) = (f.ell_max + 1) ^ 2 - l0 ^ 2 ∧
      c ∈ callsWithEllMax f.s l0 f.ell_max f.trunc ++ callsWithout f.s l0 f.trunc ∧
      Modes.new (.array f.lead dat) {} c.1 c.2 = .ok f := by
  constructor
  · intro hf
    have hc : (([], ⟨some f.s, some 0, none, f.trunc⟩) : List ℤ × Kw) ∈
        callsWithEllMax f.s 0 f.ell_max f.trunc ++ callsWithout f.s 0 f.trunc := by
      simp [callsWithEllMax, callsWithout]
    have hlen : (f.dat.length : ℤ) = (f.ell_max + 1) ^ 2 - 0 ^ 2 := by rw [hf.size]; ring
    refine ⟨0, f.dat, ([], ⟨some f.s, some 0, none, f.trunc⟩), le_rfl, hf.ell_max_ge, hlen, hc, ?_⟩
    obtain ⟨g, g1, g2, g3, g4, g5, g6, g7, g8⟩ :=
      C23_construct le_rfl hf.ell_max_ge f.trunc f.lead f.dat hlen _ hc
    rw [g1]
    congr 1
    have hg : g.WF := ⟨by rw [g4]; exact hf.ell_max_ge, by rw [g4]; exact g6, fun ell m h1 h2 h3 =>
      coef_of_get (g8 ell m h2 (by rw [← g4]; exact h3) (Or.inl (by rw [← g3]; exact h1)))⟩
    refine hg.ext hf g2 g3 g4 g5 ?_
    intro ell m h1 h2 h3
    rw [g3] at h1
    rw [g4] at h2
    obtain ⟨v, v1, v2⟩ := g7 ell m h3 h2 h1 ((abs_nonneg _).trans h1)
    rw [coef_of_get v2, coef_of_get v1]
  · rintro ⟨l0, dat, c, h0, hL, hlen, hc, h⟩
    obtain ⟨g, g1, g2, g3, g4, g5, g6, g7, g8⟩ := C23_construct h0 hL f.trunc f.lead dat hlen c hc
    rw [g1] at h
    obtain rfl : g = f := by injection h
    exact ⟨hL, g6, fun ell m h1 h2 h3 => coef_of_get (g8 ell m h2 h3 (Or.inl h1))⟩

/-- A concrete object: two functions of spin weight -1 with modes up to `ell = 2`. -/
def exModes : Modes :=
  ⟨[2], -1, 2, .absent, (fun _ => 0) :: (List.range 8).map fun (k : ℕ) idx => ((k : ℂ) + 1) * Complex.I + (idx.headD 0 : ℂ)⟩

theorem exModes_WF : exModes.WF := by
  refine ⟨by simp [exModes], by simp [exModes], ?_⟩
  intro ell m h1 h2 _
  have : ell = 0 := by
    have := (abs_nonneg m).trans h2
    simp [exModes] at h1
    omega
  subst this
  have : m = 0 := by simpa using h2
  subst this
  rfl

/-- Non-vacuity of C23: five values from `ell_min = 2` with spin weight 1 make an object with nine slots. -/
example : ∃ f, Modes.new (.array [] ((List.range 5).map fun (k : ℕ) _ => (k : ℂ) + 1)) {} [1] ⟨none, some 2, none, .absent⟩ = .ok f ∧
    f.ell_max = 2 ∧ f.dat[(LM_index 2 (-1) 0).toNat]? = some (fun _ => 2) ∧
    f.dat[(LM_index 1 1 0).toNat]? = some (fun _ => 0) := by
  obtain ⟨f, h1, -, -, h2, -, -, h3, h4⟩ := C23_construct (s := 1) (l0 := 2) (L := 2) (by norm_num) (by norm_num) .absent []
    ((List.range 5).map fun (k : ℕ) _ => (k : ℂ) + 1) (by simp) ([1], ⟨none, some 2, none, .absent⟩)
    (by simp [callsWithEllMax, callsWithout])
  refine ⟨f, h1, h2, ?_, h4 1 1 (by norm_num) (by norm_num) (by norm_num)⟩
  obtain ⟨v, v1, v2⟩ := h3 2 (-1) (by norm_num) (by norm_num) (by norm_num) (by norm_num)
  rw [v2, ← v1]
  have : (LM_index 2 (-1) 2).toNat = 1 := by norm_num [LM_index]
  rw [this]
  simp
  norm_num

/-! ## C26 -/

/-- **C26.** `index` returns the position of the mode exactly for the modes of a spin-`s` function; every other pair is a
ValueError. -/
theorem C26_index (f : Modes) (hf : f.WF) (ell m : ℤ) :
    (|f.s| ≤ ell ∧ |m| ≤ ell ∧ ell ≤ f.ell_max → ∃ i : ℕ, f.index ell m = .ok i ∧ i < f.dat.length ∧
      (i : ℤ) = ell * (ell + 1) + m) ∧
    (¬ (|f.s| ≤ ell ∧ |m| ≤ ell ∧ ell ≤ f.ell_max) → f.index ell m = .error .valueError) := by
  constructor
  · rintro ⟨h1, h2, h3⟩
    refine ⟨mpos ell m, ?_, mpos_lt h2 h3 hf.size, ?_⟩
    · rw [index_ok h1 h2 h3, LM_index_zero, mpos_cast h2]
    · rw [mpos_cast h2]; ring
  · intro h
    have := abs_nonneg f.s
    unfold Modes.index
    by_cases h1 : ell < |f.s| ∨ ell < |m|
    · rw [if_pos h1]
    · rw [if_neg h1, if_pos (by omega)]

/-- **C26.** Distinct modes have distinct positions. -/
theorem C26_index_injective (f : Modes) (ell m ell' m' i : ℤ) (h : f.index ell m = .ok i)
    (h' : f.index ell' m' = .ok i) : ell = ell' ∧ m = m' := by
  have key : ∀ e k, f.index e k = .ok i → |k| ≤ e ∧ i = LM_index e k 0 := by
    intro e k hk
    unfold Modes.index at hk
    by_cases h1 : e < |f.s| ∨ e < |k|
    · rw [if_pos h1] at hk; cases hk
    · rw [if_neg h1] at hk
      by_cases h2 : e < 0 ∨ e > f.ell_max
      · rw [if_pos h2] at hk; cases hk
      · rw [if_neg h2] at hk
        injection hk with hk
        exact ⟨by omega, hk.symm⟩
  obtain ⟨a1, a2⟩ := key _ _ h
  obtain ⟨b1, b2⟩ := key _ _ h'
  exact mpos_inj a1 b1 (by unfold mpos; rw [← a2, ← b2])

/-- Non-vacuity of C26. -/
example : exModes.index 2 (-1) = .ok 5 ∧ exModes.index 0 0 = .error .valueError := by decide

/-! ## C27 -/

/-- **C27.** `truncate_ell(L)` for `|s| ≤ L < ell_max` keeps exactly the modes with `ell ≤ L`; a larger `L` returns the
object unchanged; `L < |s|` raises ValueError. -/
theorem C27_truncate (f : Modes) (hf : f.WF) (L : ℤ) :
    (|f.s| ≤ L → L < f.ell_max → ∃ g, f.truncate_ell L = .ok g ∧ g.WF ∧ g.lead = f.lead ∧ g.s = f.s ∧ g.ell_max = L ∧
      (g.dat.length : ℤ) = (L + 1) ^ 2 ∧ g.dat = f.dat.take g.dat.length ∧
      ∀ ell m, |m| ≤ ell → ell ≤ L → g.dat[(LM_index ell m 0).toNat]? = f.dat[(LM_index ell m 0).toNat]?) ∧
    (f.ell_max ≤ L → f.truncate_ell L = .ok f) ∧
    (L < |f.s| → L < f.ell_max → f.truncate_ell L = .error .valueError) := by
  refine ⟨?_, ?_, ?_⟩
  · intro h1 h2
    obtain ⟨g, g1, g2, g3, g4, g5, g6, g7⟩ := truncate_ok hf h1 h2
    refine ⟨g, g1, g2, g3, g4, g5, by rw [g2.size, g5], ?_, ?_⟩
    · unfold Modes.truncate_ell at g1
      have h0 : 0 ≤ L := (abs_nonneg _).trans h1
      rw [if_neg (by omega), index_ok h1 (by rw [abs_of_nonneg h0]) (by omega), bind_ok] at g1
      injection g1 with g1
      rw [← g1]
      simp [getSlice]
    · intro ell m h3 h4
      have a := g2.get h3 (by omega)
      have b := hf.get h3 (by omega : ell ≤ f.ell_max)
      rw [g7 ell m h3 h4, ← b] at a
      exact a
  · intro h
    unfold Modes.truncate_ell
    rw [if_pos h]
  · intro h1 h2
    unfold Modes.truncate_ell
    rw [if_neg (by omega), (C26_index f hf L L).2 (by omega)]
    rfl

/-- Non-vacuity of C27. -/
example : ∃ g, exModes.truncate_ell 1 = .ok g ∧ g.ell_max = 1 := by
  obtain ⟨g, h1, -, -, -, h2, -⟩ := (C27_truncate exModes exModes_WF 1).1 (by decide) (by decide)
  exact ⟨g, h1, h2⟩

/-! ## C28 -/

/-- **C28 (values).** At every rotor and leading index the conjugate object evaluates to the complex conjugate; its spin
weight is `-s`. In-place and out-of-place variants. -/
theorem C28_conjugate {L : ℤ} {table : List ℝ} (ht : IsWignerTable L table) (junk : ℕ → ℤ × ℤ) (f : Modes) (hf : f.WF)
    (hL : f.ell_max ≤ L) (qs : List ℍ[ℝ]) (hne : qs ≠ []) (hq : ∀ q ∈ qs, GenericQ q) (inplace : Bool) :
    ∃ g vs, f.conjugate inplace = .ok g ∧ g.s = -f.s ∧ g.ell_max = f.ell_max ∧ g.lead = f.lead ∧
      f.evaluate table junk (qs.map comps) = .ok vs ∧
      g.evaluate table junk (qs.map comps) = .ok (vs.map fun v idx => conj (v idx)) := by
  obtain ⟨g, g1, g2⟩ := conjugate_ok hf inplace
  refine ⟨g, _, g1, g2.hs, g2.hL, g2.lead, evaluate_ok ht junk hf hL qs hq, ?_⟩
  rw [evaluate_ok ht junk g2.wf (by rw [g2.hL]; exact hL) qs hq, List.map_map]
  congr 1
  apply List.map_congr_left
  intro q _
  funext idx
  rw [Function.comp_apply, ← fieldValue_conj, g2.hs, g2.hL]
  apply fieldValue_congr
  intro ell m h1 h2 h3
  rw [g2.coef ell m h1 h2 h3]

/-- **C28 (modes).** Mode `(ell, m)` of the conjugate is `(-1)^(s+m) conj(f(ell, -m))`. -/
theorem C28_modes (f : Modes) (hf : f.WF) (inplace : Bool) :
    ∃ g, f.conjugate inplace = .ok g ∧ ∀ ell m, |f.s| ≤ ell → |m| ≤ ell → ell ≤ f.ell_max → ∃ v w,
      f.dat[(LM_index ell (-m) 0).toNat]? = some v ∧ g.dat[(LM_index ell m 0).toNat]? = some w ∧
      ∀ idx, w idx = (-1) ^ (f.s + m) * conj (v idx) := by
  obtain ⟨g, g1, g2⟩ := conjugate_ok hf inplace
  refine ⟨g, g1, fun ell m h1 h2 h3 => ⟨f.coef ell (-m), g.coef ell m, hf.get (by rwa [abs_neg]) h3,
    g2.wf.get h2 (by rw [g2.hL]; exact h3), fun idx => ?_⟩⟩
  rw [g2.coef ell m (by rwa [abs_neg]) h2 h3]

/-- **C28 (in place).** The in-place and the out-of-place conjugate have the same data and metadata. -/
theorem C28_inplace (f : Modes) (hf : f.WF) : f.conjugate true = f.conjugate false := by
  obtain ⟨g, g1, g2⟩ := conjugate_ok hf true
  obtain ⟨h, h1, h2⟩ := conjugate_ok hf false
  rw [g1, h1, g2.eq h2 fun _ _ _ _ _ _ => rfl]

/-- **C28 (involution).** -/
theorem C28_involution (f : Modes) (hf : f.WF) (b b' : Bool) : (f.conjugate b >>= fun g => g.conjugate b') = .ok f := by
  obtain ⟨g, g1, g2⟩ := (OpRes.refl hf).conjugate b
  obtain ⟨h, h1, h2⟩ := g2.conjugate b'
  rw [g1, bind_ok, h1]
  congr 1
  rw [neg_neg] at h2
  refine h2.eq (OpRes.refl hf) ?_
  intro ell m x _ _ _
  rw [map_mul, neg_neg, Complex.conj_conj, map_zpow₀, map_neg, map_one, ← mul_assoc, ← zpow_add₀ (by norm_num),
    show -f.s + m + (f.s + -m) = 0 by ring, zpow_zero, one_mul]

/-- Non-vacuity of C28. -/
example : ∃ table g vs, IsWignerTable 32 table ∧ exModes.conjugate true = .ok g ∧ g.s = 1 ∧
    exModes.evaluate table (fun _ => 0) ([mkQ (3/5) (4/5) 0 0].map comps) = .ok vs := by
  obtain ⟨t, ht⟩ := IsWignerTable.exists 32 (by norm_num)
  obtain ⟨g, vs, h1, h2, -, -, h3, -⟩ := C28_conjugate ht (fun _ => 0) exModes exModes_WF (by decide)
    [mkQ (3/5) (4/5) 0 0] (by simp) (by simpa using generic_example.1) true
  exact ⟨t, g, vs, ht, h1, h2, h3⟩

/-! ## C29 -/

/-- **C29 (values).** For spin weight 0, `real` and `imag` (in place or not) evaluate at every rotor to the real and
imaginary parts of the function. -/
theorem C29_real_imag {L : ℤ} {table : List ℝ} (ht : IsWignerTable L table) (junk : ℕ → ℤ × ℤ) (f : Modes) (hf : f.WF)
    (hs : f.s = 0) (hL : f.ell_max ≤ L) (qs : List ℍ[ℝ]) (hne : qs ≠ []) (hq : ∀ q ∈ qs, GenericQ q) (inplace : Bool) :
    ∃ g h vs, f.real_func inplace = .ok g ∧ f.imag_func inplace = .ok h ∧ g.s = 0 ∧ h.s = 0 ∧
      g.ell_max = f.ell_max ∧ h.ell_max = f.ell_max ∧
      f.evaluate table junk (qs.map comps) = .ok vs ∧
      g.evaluate table junk (qs.map comps) = .ok (vs.map fun v idx => ((v idx).re : ℂ)) ∧
      h.evaluate table junk (qs.map comps) = .ok (vs.map fun v idx => ((v idx).im : ℂ)) := by
  obtain ⟨g, g1, g2⟩ := real_ok hf hs inplace
  obtain ⟨h, h1, h2⟩ := imag_ok hf hs inplace
  have hc : ∀ (q : ℍ[ℝ]) (idx : MIdx),
      Spec.fieldValue 0 f.ell_max (fun ell m => (-1 : ℂ) ^ (0 + m) * conj (f.coef ell (-m) idx)) (partA q) (partB q)
        = conj (Spec.fieldValue 0 f.ell_max (fun ell m => f.coef ell m idx) (partA q) (partB q)) := by
    intro q idx
    have := fieldValue_conj 0 f.ell_max (fun ell m => f.coef ell m idx) (partA q) (partB q)
    simpa using this
  refine ⟨g, h, _, g1, h1, g2.hs, h2.hs, g2.hL, h2.hL, evaluate_ok ht junk hf hL qs hq, ?_, ?_⟩
  · rw [evaluate_ok ht junk g2.wf (by rw [g2.hL]; exact hL) qs hq, List.map_map]
    congr 1
    apply List.map_congr_left
    intro q _
    funext idx
    rw [Function.comp_apply, hs, Complex.re_eq_add_conj, ← hc, ← fieldValue_add, div_eq_inv_mul, ← fieldValue_smul,
      g2.hs, g2.hL]
    apply fieldValue_congr
    intro ell m k1 k2 k3
    rw [g2.coef ell m k1 k2 k3]
    simp only [realT]
    ring_nf
  · rw [evaluate_ok ht junk h2.wf (by rw [h2.hL]; exact hL) qs hq, List.map_map]
    congr 1
    apply List.map_congr_left
    intro q _
    funext idx
    rw [Function.comp_apply, hs, Complex.im_eq_sub_conj, ← hc, ← fieldValue_sub, div_eq_inv_mul, ← fieldValue_smul,
      h2.hs, h2.hL]
    apply fieldValue_congr
    intro ell m k1 k2 k3
    rw [h2.coef ell m k1 k2 k3, zero_add]
    simp only [imagT, div_eq_inv_mul]

/-- **C29 (decomposition).** `f.real + 1j * f.imag` is `f` again, as objects. -/
theorem C29_decompose (f : Modes) (hf : f.WF) (hs : f.s = 0) (hL : 0 ≤ f.ell_max) (b b' : Bool) :
    (do
      let g ← f.real_func b
      let h ← f.imag_func b'
      let h ← h.multiplyScalar (num Complex.I)
      g.addM h false) = .ok f := by
  obtain ⟨g, g1, g2⟩ := real_ok hf hs b
  obtain ⟨h, h1, h2⟩ := imag_ok hf hs b'
  obtain ⟨k, k1, k2⟩ := h2.scalar hL (· * ·) Complex.I
  obtain ⟨r, r1, r2⟩ := g2.addM k2 hL false
  have hm : h.multiplyScalar (num Complex.I) = .ok k := by
    unfold Modes.multiplyScalar
    rw [check_num (h2.wf.dat_ne_nil (by rw [h2.hL]; exact hL)), bind_ok, if_pos rfl]
    exact k1
  rw [g1, bind_ok, h1, bind_ok, hm, bind_ok, r1]
  congr 1
  have hr := OpRes.refl hf
  rw [hs] at hr
  refine r2.eq hr ?_
  intro ell m x _ _ _
  have hI := Complex.I_ne_zero
  simp only [Bool.false_eq_true, if_false, realT, imagT]
  field_simp
  ring

/-- **C29 (real functions).** Both parts are invariant under `conjugate`. -/
theorem C29_self_conjugate (f : Modes) (hf : f.WF) (hs : f.s = 0) (b b' : Bool) :
    (f.real_func b >>= fun g => g.conjugate b') = f.real_func b ∧
    (f.imag_func b >>= fun g => g.conjugate b') = f.imag_func b := by
  have key : ∀ m : ℤ, (-1 : ℂ) ^ m * (-1) ^ (-m) = 1 := fun m => by
    rw [← zpow_add₀ (by norm_num)]; simp
  constructor
  · obtain ⟨g, g1, g2⟩ := real_ok hf hs b
    obtain ⟨h, h1, h2⟩ := g2.conjugate b'
    rw [g1, bind_ok, h1]
    congr 1
    rw [neg_zero] at h2
    refine h2.eq g2 ?_
    intro ell m x _ _ _
    have := key m
    simp only [realT, map_div₀, map_add, map_mul, map_zpow₀, map_neg, map_one, Complex.conj_conj, neg_neg, zero_add, map_ofNat] at this ⊢
    linear_combination (f.coef ell m x / 2) * this
  · obtain ⟨g, g1, g2⟩ := imag_ok hf hs b
    obtain ⟨h, h1, h2⟩ := g2.conjugate b'
    rw [g1, bind_ok, h1]
    congr 1
    rw [neg_zero] at h2
    refine h2.eq g2 ?_
    intro ell m x _ _ _
    have := key m
    simp only [imagT, map_div₀, map_sub, map_mul, map_zpow₀, map_neg, map_one, Complex.conj_conj, neg_neg, zero_add, map_ofNat,
      Complex.conj_I] at this ⊢
    linear_combination (f.coef ell m x / (2 * Complex.I)) * this

/-- **C29 (in place).** In-place and out-of-place variants agree. -/
theorem C29_inplace (f : Modes) (hf : f.WF) (hs : f.s = 0) :
    f.real_func true = f.real_func false ∧ f.imag_func true = f.imag_func false := by
  constructor
  · obtain ⟨g, g1, g2⟩ := real_ok hf hs true
    obtain ⟨h, h1, h2⟩ := real_ok hf hs false
    rw [g1, h1, g2.eq h2 fun _ _ _ _ _ _ => rfl]
  · obtain ⟨g, g1, g2⟩ := imag_ok hf hs true
    obtain ⟨h, h1, h2⟩ := imag_ok hf hs false
    rw [g1, h1, g2.eq h2 fun _ _ _ _ _ _ => rfl]

/-- **C29 (rejection).** For nonzero spin weight a ValueError is raised. -/
theorem C29_reject (f : Modes) (hs : f.s ≠ 0) (b : Bool) :
    f.real_func b = .error .valueError ∧ f.imag_func b = .error .valueError := by
  unfold Modes.real_func Modes.imag_func
  rw [if_pos hs, if_pos hs]
  exact ⟨rfl, rfl⟩

/-- A concrete object of spin weight 0. -/
def exModes0 : Modes := ⟨[], 0, 1, .absent, (List.range 4).map fun (k : ℕ) _ => ((k : ℂ) + 1) * Complex.I + 2⟩

theorem exModes0_WF : exModes0.WF := by
  refine ⟨by simp [exModes0], by simp [exModes0], ?_⟩
  intro ell m h1 h2 _
  have := (abs_nonneg m).trans h2
  simp [exModes0] at h1
  omega

/-- Non-vacuity of C29. -/
example : ∃ table g, IsWignerTable 32 table ∧ exModes0.real_func true = .ok g ∧ g.ell_max = 1 := by
  obtain ⟨t, ht⟩ := IsWignerTable.exists 32 (by norm_num)
  obtain ⟨g, h, vs, h1, -, -, -, h2, -⟩ := C29_real_imag ht (fun _ => 0) exModes0 exModes0_WF rfl (by decide)
    [mkQ (3/5) (4/5) 0 0] (by simp) (by simpa using generic_example.1) true
  exact ⟨t, g, ht, h1, h2⟩

end SF
