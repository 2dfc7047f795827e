import Verif.Model.GridModes
import Verif.Props.Grid
import Verif.Props.ModesArith
import Verif.Props.Multiplication
import Verif.Props.Recursions

/-!
# Property C64: `Modes.grid`
-/

set_option autoImplicit false

namespace SF

open ComplexConjugate Quaternion Spec

/-- The parts `R.a`, `R.b` of the rotor that takes the z axis to the direction (θ, φ). -/
noncomputable def dirA (θ φ : ℝ) : ℂ := Real.cos (θ / 2) * Complex.exp (Complex.I * (φ / 2))
noncomputable def dirB (θ φ : ℝ) : ℂ := Real.sin (θ / 2) * Complex.exp (-(Complex.I * (φ / 2)))

/-- What is assumed about `spinsfast.salm2map`: given all modes up to `L` and at least `2L+1` points in each direction, it returns the
values of the function `Σ c(l,m) sYlm` at the points `θ_j = jπ/(n_theta-1)`, `φ_k = 2πk/n_phi`, on two new last axes. -/
def IsSalm2map (S : Salm2map) : Prop :=
  ∀ (lead : List ℕ) (dat : List Slice) (s L : ℤ) (nt np : ℕ), 0 ≤ L → (dat.length : ℤ) = (L + 1) ^ 2 → 2 * L + 1 ≤ nt → 2 * L + 1 ≤ np →
    ∃ v, S lead dat s L nt np = .ok ⟨lead ++ [nt, np], v⟩ ∧ ∀ li j k, ValidIdx lead li → j < nt → k < np →
      v (li ++ [j, k]) = fieldValue s L (fun l m => ((dat[(l * (l + 1) + m).toNat]?).getD fun _ => 0) li)
        (dirA (j * Real.pi / (nt - 1)) (2 * Real.pi * k / np)) (dirB (j * Real.pi / (nt - 1)) (2 * Real.pi * k / np))

/-- Such functions exist: the sum itself. -/
noncomputable def sumSalm2map : Salm2map := fun lead dat s L nt np =>
  .ok ⟨lead ++ [nt.toNat, np.toNat], fun idx => fieldValue s L (fun l m => ((dat[(l * (l + 1) + m).toNat]?).getD fun _ => 0) (idx.take lead.length))
    (dirA (((idx[lead.length]?).getD 0 : ℕ) * Real.pi / (nt - 1)) (2 * Real.pi * ((idx[lead.length + 1]?).getD 0 : ℕ) / np))
    (dirB (((idx[lead.length]?).getD 0 : ℕ) * Real.pi / (nt - 1)) (2 * Real.pi * ((idx[lead.length + 1]?).getD 0 : ℕ) / np))⟩

theorem isSalm2map_sum : IsSalm2map sumSalm2map := by
  intro lead dat s L nt np _ _ _ _
  refine ⟨_, rfl, fun li j k hv _ _ => ?_⟩
  have hl : li.length = lead.length := List.Forall₂.length_eq hv
  simp only [← hl, List.take_left', List.getElem?_append_right (le_refl _), Nat.sub_self, List.getElem?_cons_zero,
    List.getElem?_append_right (Nat.le_succ _), Nat.succ_eq_add_one, Nat.add_sub_cancel_left, List.getElem?_cons_succ, Option.getD_some, Int.cast_natCast]

/-- The number of points in the θ direction that the documentation promises for an argument: `None` stands for `2 ell_max+1`. -/
def thetaPoints (f : Modes) : Option ℕ → ℕ
  | none => (2 * f.ell_max + 1).toNat
  | some n => n

/-- In the φ direction `None` stands for the number of points in the θ direction. -/
def phiPoints (nt : ℕ) : Option ℕ → ℕ
  | none => nt
  | some n => n

theorem dir_unit (θ φ : ℝ) : IsUnit' (dirA θ φ) (dirB θ φ) := by
  have e1 : Complex.I * ((φ : ℂ) / 2) = ((φ / 2 : ℝ) : ℂ) * Complex.I := by push_cast; ring
  have e2 : -(Complex.I * ((φ : ℂ) / 2)) = ((-(φ / 2) : ℝ) : ℂ) * Complex.I := by push_cast; ring
  unfold IsUnit' dirA dirB
  rw [Complex.normSq_mul, Complex.normSq_mul, Complex.normSq_ofReal, Complex.normSq_ofReal, Complex.normSq_eq_norm_sq (Complex.exp _),
    Complex.normSq_eq_norm_sq (Complex.exp _), e2, e1, Complex.norm_exp_ofReal_mul_I, Complex.norm_exp_ofReal_mul_I]
  nlinarith [Real.sin_sq_add_cos_sq (θ / 2)]

/-- Every call of `grid` with enough points. -/
theorem grid_ok {S : Salm2map} (hS : IsSalm2map S) {f : Modes} (hf : f.WF) (hs : |f.s| ≤ f.ell_max) (a b : Option ℕ)
    (h1 : 2 * f.ell_max + 1 ≤ thetaPoints f a) (h2 : 2 * f.ell_max + 1 ≤ phiPoints (thetaPoints f a) b) :
    ∃ G, f.grid S (a.map Int.ofNat) (b.map Int.ofNat) none = .ok G ∧ G.WF ∧ G.lead = f.lead ∧ G.s = f.s ∧
      G.n_theta = thetaPoints f a ∧ G.n_phi = phiPoints (thetaPoints f a) b ∧
      ∀ li j k, ValidIdx f.lead li → j < G.n_theta → k < G.n_phi →
        G.at li j k = fieldValue f.s f.ell_max (fun l m => f.coef l m li)
          (dirA (j * Real.pi / (G.n_theta - 1)) (2 * Real.pi * k / G.n_phi)) (dirB (j * Real.pi / (G.n_theta - 1)) (2 * Real.pi * k / G.n_phi)) := by
  have h0 := abs_nonneg f.s
  obtain ⟨v, hv, hval⟩ := hS f.lead f.dat f.s f.ell_max _ _ (by omega) hf.size h1 h2
  have e1 : pyOr (a.map Int.ofNat) (2 * f.ell_max + 1) = thetaPoints f a := by
    cases a with
    | none => simp only [Option.map_none, pyOr, thetaPoints]; omega
    | some n => simp only [Option.map_some, pyOr, thetaPoints] at h1 ⊢; rw [if_neg (by simp; omega)]; rfl
  have e2 : pyOr (b.map Int.ofNat) (thetaPoints f a) = phiPoints (thetaPoints f a) b := by
    cases b with
    | none => rfl
    | some n => simp only [Option.map_some, pyOr, phiPoints] at h2 ⊢; rw [if_neg (by simp; omega)]; rfl
  refine ⟨⟨f.lead, thetaPoints f a, phiPoints (thetaPoints f a) b, f.s, v⟩, ?_, ⟨by simp only; omega, by simp only; omega⟩, rfl, rfl, rfl, rfl, ?_⟩
  · unfold Modes.grid
    simp only [e1, e2]
    rw [hv, bind_ok]
    exact Grid.make_ok v (by omega) (by omega)
  · intro li j k hli hj hk
    refine (hval li j k hli hj hk).trans ?_
    have e : ∀ l m : ℤ, mpos l m = (l * (l + 1) + m).toNat := fun l m => by unfold mpos; rw [LM_index_zero]; congr 1; ring
    simp only [Modes.coef, e]

/-- **C64 (shape and metadata).** With `None` or 0 the documented default number of points is used; the Grid has the leading shape and the
spin weight of the Modes object. -/
theorem C64_shape {S : Salm2map} (hS : IsSalm2map S) (f : Modes) (hf : f.WF) (hs : |f.s| ≤ f.ell_max) (a b : Option ℕ)
    (h1 : 2 * f.ell_max + 1 ≤ thetaPoints f a) (h2 : 2 * f.ell_max + 1 ≤ phiPoints (thetaPoints f a) b) :
    (∃ G, f.grid S (a.map Int.ofNat) (b.map Int.ofNat) none = .ok G ∧
      G.shape = f.lead ++ [thetaPoints f a, phiPoints (thetaPoints f a) b] ∧ G.s = f.s ∧ G.WF) ∧
    (∀ x kw, f.grid S (some 0) x kw = f.grid S none x kw) ∧ (∀ x kw, f.grid S x (some 0) kw = f.grid S x none kw) := by
  obtain ⟨G, e1, e2, e3, e4, e5, e6, -⟩ := grid_ok hS hf hs a b h1 h2
  refine ⟨⟨G, e1, by rw [Grid.shape, e3, e5, e6], e4, e2⟩, fun x kw => ?_, fun x kw => ?_⟩
  · simp [Modes.grid, pyOr]
  · simp [Modes.grid, pyOr]

/-- **C64 (too few points).** Whatever the transform does: if an array of the requested shape comes back and it has fewer than `2|s|+1`
points in a direction, `grid` raises; in particular the default fails for every Modes object with `ell_max < |s|`.  No call returns a Grid
with too few points. -/
theorem C64_too_few (S : Salm2map) (f : Modes) (n_theta n_phi : Option ℤ) (kw : Option ℤ) :
    (∀ G, f.grid S n_theta n_phi kw = .ok G → G.WF ∧ G.s = kw.getD f.s) ∧
    ((∀ lead dat s L, ∀ nt np : ℤ, ∀ r, S lead dat s L nt np = .ok r → r.shape = lead ++ [nt.toNat, np.toNat]) →
      f.ell_max < |f.s| → ∃ e, f.grid S none none none = .error e) := by
  constructor
  · intro G h
    unfold Modes.grid at h
    simp only at h
    cases hr : S f.lead f.dat f.s f.ell_max (pyOr n_theta (2 * f.ell_max + 1)) (pyOr n_phi (pyOr n_theta (2 * f.ell_max + 1))) with
    | error e => rw [hr] at h; cases h
    | ok r =>
      rw [hr, bind_ok] at h
      refine ⟨(C44_new_WF h).1, ?_⟩
      unfold Grid.new at h
      simp only [List.length_nil, gt_iff_lt, Nat.not_lt_zero, if_false, List.getElem?_nil, Option.none_or, Option.or_none] at h
      split at h
      · split at h
        · cases h
        · rename_i s hs
          split at h
          · cases h
          · obtain rfl := Except.ok.inj h
            cases kw <;> simp_all
      · cases h
  · intro hS hlt
    cases hg : f.grid S none none none with
    | error e => exact ⟨e, rfl⟩
    | ok G =>
      exfalso
      unfold Modes.grid at hg
      simp only [pyOr] at hg
      cases hr : S f.lead f.dat f.s f.ell_max (2 * f.ell_max + 1) (2 * f.ell_max + 1) with
      | error e => rw [hr] at hg; cases hg
      | ok r =>
        rw [hr, bind_ok] at hg
        have hsh := hS _ _ _ _ _ _ r hr
        obtain ⟨rs, rv⟩ := r
        simp only at hsh
        subst hsh
        have := Grid.make_few (lead := f.lead) (x := (2 * f.ell_max + 1).toNat) (y := (2 * f.ell_max + 1).toNat) (s := f.s) rv
          (by have := abs_nonneg f.s; omega)
        unfold Grid.make at this
        simp only [Option.none_or] at hg
        rw [this] at hg
        cases hg

/-! ## Values -/

theorem dirA_euler (θ φ : ℝ) : quat_a (from_euler_angles φ θ 0) = dirA θ φ := by
  rw [euler_a, dirA]; norm_num
theorem dirB_euler (θ φ : ℝ) : quat_b (from_euler_angles φ θ 0) = dirB θ φ := by
  rw [euler_b, dirB]; congr 2; push_cast; ring

/-- The rotor taking z to (θ, φ), as a quaternion. -/
noncomputable def dirQ (θ φ : ℝ) : ℍ[ℝ] :=
  mkQ (from_euler_angles φ θ 0).1 (from_euler_angles φ θ 0).2.1 (from_euler_angles φ θ 0).2.2.1 (from_euler_angles φ θ 0).2.2.2

theorem comps_dirQ (θ φ : ℝ) : comps (dirQ θ φ) = from_euler_angles φ θ 0 := rfl
theorem partA_dirQ (θ φ : ℝ) : partA (dirQ θ φ) = dirA θ φ := dirA_euler θ φ
theorem partB_dirQ (θ φ : ℝ) : partB (dirQ θ φ) = dirB θ φ := dirB_euler θ φ

theorem norm_dirA (θ φ : ℝ) : ‖dirA θ φ‖ = |Real.cos (θ / 2)| := by
  have e1 : Complex.I * ((φ : ℂ) / 2) = ((φ / 2 : ℝ) : ℂ) * Complex.I := by push_cast; ring
  rw [dirA, norm_mul, e1, Complex.norm_exp_ofReal_mul_I, mul_one, Complex.norm_real, Real.norm_eq_abs]
theorem norm_dirB (θ φ : ℝ) : ‖dirB θ φ‖ = |Real.sin (θ / 2)| := by
  have e2 : -(Complex.I * ((φ : ℂ) / 2)) = ((-(φ / 2) : ℝ) : ℂ) * Complex.I := by push_cast; ring
  rw [dirB, norm_mul, e2, Complex.norm_exp_ofReal_mul_I, mul_one, Complex.norm_real, Real.norm_eq_abs]

/-- For `0 < j < N` the sine of `jπ/(2N)` is at least `1/N`. -/
theorem sin_grid {N j : ℕ} (hj : 0 < j) (hjN : j ≤ N) : 1 / (N : ℝ) ≤ Real.sin (j * Real.pi / N / 2) := by
  have hN : (0 : ℝ) < N := by exact_mod_cast (by omega : 0 < N)
  have hj1 : (1 : ℝ) ≤ j := by exact_mod_cast hj
  have hjN' : (j : ℝ) ≤ N := by exact_mod_cast hjN
  have hpi := Real.pi_pos
  have key := Real.mul_le_sin (x := j * Real.pi / N / 2) (by positivity) (by
    rw [div_div, div_le_div_iff₀ (by positivity) (by norm_num)]; nlinarith)
  refine le_trans ?_ key
  rw [show 2 / Real.pi * (j * Real.pi / N / 2) = j / N by field_simp]
  gcongr

theorem grid_generic {n j : ℕ} (h1 : 1 ≤ n) (hn : n ≤ 10 ^ 14) (hj : j < n) (φ : ℝ) : GenericQ (dirQ (j * Real.pi / (n - 1)) φ) := by
  have heps : epsilon < 1 / (10 ^ 14 : ℝ) := by unfold epsilon; norm_num
  unfold GenericQ
  rw [partA_dirQ, partB_dirQ]
  refine ⟨dir_unit _ _, ?_, ?_⟩
  all_goals
    obtain ⟨N, rfl⟩ : ∃ N, n = N + 1 := ⟨n - 1, by omega⟩
    have eN : ((N + 1 : ℕ) : ℝ) - 1 = N := by push_cast; ring
    rw [eN]
  · rcases Nat.eq_zero_or_pos N with h0 | h0
    · right
      obtain rfl : j = 0 := by omega
      rw [norm_dirA]
      simp [epsilon]; norm_num
    have hN0 : (N : ℝ) ≠ 0 := by positivity
    by_cases hc : j = N
    · left
      rw [hc, dirA, mul_div_assoc, mul_div_cancel₀ _ hN0, Real.cos_pi_div_two]; simp
    · right
      have e : Real.cos (j * Real.pi / N / 2) = Real.sin (((N - j : ℕ) : ℝ) * Real.pi / N / 2) := by
        rw [← Real.sin_pi_div_two_sub, Nat.cast_sub (by omega)]
        congr 1
        field_simp
      rw [norm_dirA, e]
      refine lt_of_lt_of_le (lt_of_lt_of_le heps ?_) ((sin_grid (N := N) (j := N - j) (by omega) (by omega)).trans (le_abs_self _))
      have : (N : ℝ) ≤ 10 ^ 14 := by exact_mod_cast (by omega : N ≤ 10 ^ 14)
      gcongr
  · rcases Nat.eq_zero_or_pos j with h0 | h0
    · left
      rw [h0, dirB]; simp
    · right
      rw [norm_dirB]
      refine lt_of_lt_of_le (lt_of_lt_of_le heps ?_) ((sin_grid (N := N) (j := j) (by omega) (by omega)).trans (le_abs_self _))
      have : (N : ℝ) ≤ 10 ^ 14 := by exact_mod_cast (by omega : N ≤ 10 ^ 14)
      have : (0 : ℝ) < N := by exact_mod_cast (by omega : 0 < N)
      gcongr

/-- **C64 (values).** On the points of `theta_phi` with the same numbers of points, `grid` gives the values that `evaluate` gives at the
rotors of these directions. -/
theorem C64_values {S : Salm2map} (hS : IsSalm2map S) {L : ℤ} {table : List ℝ} (ht : IsWignerTable L table) (junk : ℕ → ℤ × ℤ)
    (f : Modes) (hf : f.WF) (hs : |f.s| ≤ f.ell_max) (hL : f.ell_max ≤ L) (a b : Option ℕ)
    (h1 : 2 * f.ell_max + 1 ≤ thetaPoints f a) (h2 : 2 * f.ell_max + 1 ≤ phiPoints (thetaPoints f a) b)
    (h3 : 2 ≤ thetaPoints f a) (h4 : thetaPoints f a ≤ 10 ^ 14) :
    ∃ G tp, f.grid S (a.map Int.ofNat) (b.map Int.ofNat) none = .ok G ∧ theta_phi G.n_theta G.n_phi = .ok tp ∧
      ∀ j k, j < G.n_theta → k < G.n_phi → ∃ θ φ v, (tp[j]?.bind fun row => row[k]?) = some (θ, φ) ∧
        f.evaluate table junk [from_euler_angles φ θ 0] = .ok [v] ∧ ∀ li, ValidIdx f.lead li → G.at li j k = v li := by
  have h0 := abs_nonneg f.s
  obtain ⟨G, e1, e2, e3, e4, e5, e6, e7⟩ := grid_ok hS hf hs a b h1 h2
  obtain ⟨tp, t1, -, -, t2, -⟩ := C56_theta_phi G.n_theta G.n_phi (by omega) (by omega)
  refine ⟨G, tp, e1, t1, fun j k hj hk => ⟨_, _, ?v, t2 j k hj hk, ?_, fun li hli => (e7 li j k hli hj hk).trans ?_⟩⟩
  case v =>
    exact fun li => fieldValue f.s f.ell_max (fun l m => f.coef l m li) (dirA (j * Real.pi / (G.n_theta - 1)) (2 * Real.pi * k / G.n_phi))
      (dirB (j * Real.pi / (G.n_theta - 1)) (2 * Real.pi * k / G.n_phi))
  · have := evaluate_ok ht junk hf hL [dirQ (j * Real.pi / (G.n_theta - 1)) (2 * Real.pi * k / G.n_phi)] (by
      intro q hq
      rw [List.mem_singleton] at hq
      subst hq
      exact grid_generic (by omega) (by omega) hj _)
    simpa only [List.map_cons, List.map_nil, comps_dirQ, partA_dirQ, partB_dirQ] using this
  · rfl

theorem bcRev_valid {a b sh r : List ℕ} (h : bcRev a b = some sh) (hv : List.Forall₂ (· < ·) r sh) :
    List.Forall₂ (· < ·) (List.zipWith (fun n i => if n = 1 then 0 else i) a r) a := by
  induction a generalizing b sh r with
  | nil => simp
  | cons x a ih =>
    cases b with
    | nil =>
      simp only [bcRev, Option.some.injEq] at h
      subst h
      cases hv with
      | cons h1 h2 =>
        refine List.Forall₂.cons (by simp only; split <;> omega) (ih (b := []) (by cases a <;> rfl) h2)
    | cons y b =>
      simp only [bcRev] at h
      split_ifs at h with c1 c2 c3
      all_goals
        rw [Option.map_eq_some_iff] at h
        obtain ⟨s, e1, rfl⟩ := h
        cases hv with
        | cons h1 h2 => exact List.Forall₂.cons (by simp only; split <;> omega) (ih e1 h2)

theorem bcIdx_valid {a b sh : List ℕ} {idx : MIdx} (h : bcastShape a b = some sh) (hv : ValidIdx sh idx) :
    ValidIdx a (bcIdx a idx) ∧ ValidIdx b (bcIdx b idx) := by
  have one : ∀ {a b : List ℕ}, bcastShape a b = some sh → ValidIdx a (bcIdx a idx) := by
    intro a b h
    unfold bcastShape at h
    rw [Option.map_eq_some_iff] at h
    obtain ⟨s, e1, rfl⟩ := h
    unfold ValidIdx bcIdx
    rw [← List.forall₂_reverse_iff, List.reverse_reverse]
    refine bcRev_valid e1 ?_
    unfold ValidIdx at hv
    rw [← List.forall₂_reverse_iff, List.reverse_reverse] at hv
    exact hv
  exact ⟨one h, one (by rw [bcastShape_comm]; exact h)⟩

/-! ## Arithmetic on the grid is arithmetic of the modes -/

/-- `G` is the result of `f.grid(nt, np)`. -/
def GridOf (S : Salm2map) (nt np : ℕ) (f : Modes) (G : Grid) : Prop := f.grid S (some nt) (some np) none = .ok G

/-- The two Grids have the same spin weight, shape and values. -/
def Grid.Same (F G : Grid) : Prop := F.s = G.s ∧ F.shape = G.shape ∧
  ∀ li j k, ValidIdx F.lead li → j < F.n_theta → k < F.n_phi → F.at li j k = G.at li j k

/-- **C64.** The grid of the conjugate is the conjugate of the grid. -/
theorem C64_conjugate {S : Salm2map} (hS : IsSalm2map S) (f : Modes) (hf : f.WF) (hs : |f.s| ≤ f.ell_max) (nt np : ℕ)
    (h1 : 2 * f.ell_max + 1 ≤ nt) (h2 : 2 * f.ell_max + 1 ≤ np) (inplace : Bool) :
    ∃ g F G R, f.conjugate inplace = .ok g ∧ GridOf S nt np f F ∧ GridOf S nt np g G ∧
      callUfunc .conj [.grid F] none = .ok (R, none) ∧ R.Same G := by
  obtain ⟨g, g1, g2⟩ := conjugate_ok hf inplace
  obtain ⟨F, a1, a2, a3, a4, a5, a6, a7⟩ := grid_ok hS hf hs (some nt) (some np) h1 h2
  obtain ⟨G, b1, b2, b3, b4, b5, b6, b7⟩ := grid_ok hS g2.wf (by rw [g2.hs, g2.hL, abs_neg]; exact hs) (some nt) (some np)
    (by rw [g2.hL]; exact h1) (by rw [g2.hL]; exact h2)
  simp only [thetaPoints, phiPoints] at a5 a6 b5 b6
  obtain ⟨R, r1, r2, r3, r4, r5, r6, r7⟩ := C44_unary .conj F (C44_unary_enough .conj (by simp) F a2)
  refine ⟨g, F, G, R, g1, a1, b1, r1, by rw [r3, b4, g2.hs, a4], by
    simp only [Grid.shape, r4, r5, r6, a3, a5, a6, b3, b5, b6, g2.lead], ?_⟩
  intro li j k hli hj hk
  rw [r4, a3] at hli
  rw [r7, a7 li j k hli (by omega) (by omega), b7 li j k (by rw [g2.lead]; exact hli) (by omega) (by omega)]
  simp only
  rw [← fieldValue_conj, g2.hs, g2.hL,
    a5, a6, b5, b6]
  apply fieldValue_congr
  intro l m q1 q2 q3
  rw [g2.coef l m (by simpa using q1) q2 q3]

/-- **C64.** The grid of a sum or difference is the sum or difference of the grids. -/
theorem C64_add_subtract {S : Salm2map} (hS : IsSalm2map S) (f g : Modes) (hf : f.WF) (hg : g.WF) (hfs : |f.s| ≤ f.ell_max)
    (hgs : |g.s| ≤ g.ell_max) (hspin : f.s = g.s) (lead : List ℕ) (hb : bcastShape f.lead g.lead = some lead) (nt np : ℕ)
    (h1 : 2 * max f.ell_max g.ell_max + 1 ≤ nt) (h2 : 2 * max f.ell_max g.ell_max + 1 ≤ np) (subtraction : Bool) :
    ∃ h F G H R, f.addM g subtraction = .ok h ∧ GridOf S nt np f F ∧ GridOf S nt np g G ∧ GridOf S nt np h H ∧
      callUfunc (if subtraction then .subtract else .add) [.grid F, .grid G] none = .ok (R, none) ∧ R.Same H := by
  have hf0 := abs_nonneg f.s
  have hg0 := abs_nonneg g.s
  have m1 := le_max_left f.ell_max g.ell_max
  have m2 := le_max_right f.ell_max g.ell_max
  obtain ⟨h, e1, e2, e3, e4, e5, e6, e7⟩ := addM_ok hf hg hspin (by omega) (by omega) hb subtraction
  obtain ⟨F, a1, a2, a3, a4, a5, a6, a7⟩ := grid_ok hS hf hfs (some nt) (some np) (by simp only [thetaPoints]; omega)
    (by simp only [phiPoints]; omega)
  obtain ⟨G, b1, b2, b3, b4, b5, b6, b7⟩ := grid_ok hS hg hgs (some nt) (some np) (by simp only [thetaPoints]; omega)
    (by simp only [phiPoints]; omega)
  obtain ⟨H, c1, c2, c3, c4, c5, c6, c7⟩ := grid_ok hS e2 (by rw [e4, e5]; omega) (some nt) (some np) (by rw [e5]; exact h1)
    (by rw [e5]; exact h2)
  simp only [thetaPoints, phiPoints] at a5 a6 b5 b6 c5 c6
  have hbc : bcastShape F.lead G.lead = some lead := by rw [a3, b3]; exact hb
  have hu : SumUfunc (if subtraction then .subtract else .add) (fun x y => if subtraction then x - y else x + y) := by
    cases subtraction
    · exact .add
    · exact .subtract
  obtain ⟨R, r1, -, r2, r3, r4, r5, r6, r7⟩ := C44_add_subtract hu F G a2 (by rw [a4, b4, hspin]) ⟨by rw [a5, b5], by rw [a6, b6]⟩
    (by rw [hbc]; rfl)
  have hl : R.lead = lead := by rw [hbc] at r4; exact (Option.some.inj r4).symm
  refine ⟨h, F, G, H, R, e1, a1, b1, c1, r1, by rw [r3, c4, e4, a4], by
    simp only [Grid.shape, hl, r5, r6, a5, a6, c3, c5, c6, e3], ?_⟩
  intro li j k hli hj hk
  have hli' : ValidIdx lead li := by rw [← hl]; exact hli
  rw [r7 li j k hli hj hk, a3, b3, a7 _ j k (bcIdx_valid hb hli').1 (by omega) (by omega),
    b7 _ j k (bcIdx_valid hb hli').2 (by omega) (by omega), c7 li j k (by rw [e3]; exact hli') (by omega) (by omega), a5, a6, b5, b6, c5, c6]
  set A := dirA (j * Real.pi / (nt - 1)) (2 * Real.pi * k / np)
  set B := dirB (j * Real.pi / (nt - 1)) (2 * Real.pi * k / np)
  have xf : fieldValue f.s f.ell_max (fun ell m => f.coef ell m (bcIdx f.lead li)) A B
      = fieldValue f.s h.ell_max (fun ell m => f.coefIn lead ell m li) A B := by
    rw [fieldValue_extend (L' := h.ell_max) _ _ (by rw [e5]; exact le_max_left _ _)
      (fun ell m h1 _ h3 => by rw [coef_of_gt hf h3 h1])]
    apply fieldValue_congr
    intro ell m _ _ _
    unfold Modes.coefIn
    rw [bcTo_valid _ hli']
  have xg : fieldValue g.s g.ell_max (fun ell m => g.coef ell m (bcIdx g.lead li)) A B
      = fieldValue f.s h.ell_max (fun ell m => g.coefIn lead ell m li) A B := by
    rw [fieldValue_extend (L' := h.ell_max) _ _ (by rw [e5]; exact le_max_right _ _)
      (fun ell m h1 _ h3 => by rw [coef_of_gt hg h3 h1]), ← hspin]
    apply fieldValue_congr
    intro ell m _ _ _
    unfold Modes.coefIn
    rw [bcTo_valid _ hli']
  simp only
  rw [xf, xg, ← fieldValue_add, ← fieldValue_sub, e4]
  cases subtraction
  · rw [if_neg (by simp)]
    apply fieldValue_congr
    intro ell m h1 h2 h3
    rw [e7 ell m h1 h2 (by rw [← e5]; exact h3)]
    simp
  · rw [if_pos rfl]
    apply fieldValue_congr
    intro ell m h1 h2 h3
    rw [e7 ell m h1 h2 (by rw [← e5]; exact h3)]
    simp

/-- **C64.** The grid of the (untruncated) product is the product of the grids, if there are enough points for the product. -/
theorem C64_multiply {S : Salm2map} (hS : IsSalm2map S) (junk junk' : ℕ → ℝ) (f g h : Modes) (hf : f.WF) (hg : g.WF) (hfs : |f.s| ≤ f.ell_max)
    (hgs : |g.s| ≤ g.ell_max) (hq : f.ell_max + g.ell_max ≤ 151) (lead : List ℕ) (hb : bcastShape f.lead g.lead = some lead)
    (truncator : Option Trunc) (hLp : ProductEllMax f g truncator (f.ell_max + g.ell_max)) (nt np : ℕ)
    (h1 : 2 * (f.ell_max + g.ell_max) + 1 ≤ nt) (h2 : 2 * (f.ell_max + g.ell_max) + 1 ≤ np)
    (hm : f.multiplyM junk junk' g truncator = .ok h) :
    ∃ F G H R, GridOf S nt np f F ∧ GridOf S nt np g G ∧ GridOf S nt np h H ∧
      callUfunc .multiply [.grid F, .grid G] none = .ok (R, none) ∧ R.Same H := by
  have hf0 := abs_nonneg f.s
  have hg0 := abs_nonneg g.s
  rcases multiplyM_ok (junk := junk) (junk' := junk') hf hg (by omega) (by omega) hq hLp (by omega) hb with ⟨h', e1, e2, e3, e4, e5, e6, e7⟩ | ⟨er, -⟩
  swap
  · rw [er] at hm; cases hm
  obtain rfl : h' = h := by rw [e1] at hm; exact Except.ok.inj hm
  have htri := abs_add_le f.s g.s
  obtain ⟨F, a1, a2, a3, a4, a5, a6, a7⟩ := grid_ok hS hf hfs (some nt) (some np) (by simp only [thetaPoints]; omega)
    (by simp only [phiPoints]; omega)
  obtain ⟨G, b1, b2, b3, b4, b5, b6, b7⟩ := grid_ok hS hg hgs (some nt) (some np) (by simp only [thetaPoints]; omega)
    (by simp only [phiPoints]; omega)
  obtain ⟨H, c1, c2, c3, c4, c5, c6, c7⟩ := grid_ok hS e2 (by rw [e4, e5]; omega) (some nt) (some np) (by rw [e5]; exact h1)
    (by rw [e5]; exact h2)
  simp only [thetaPoints, phiPoints] at a5 a6 b5 b6 c5 c6
  have hbc : bcastShape F.lead G.lead = some lead := by rw [a3, b3]; exact hb
  obtain ⟨R, r1, -, r2, r3, r4, r5, r6, r7⟩ := (C44_multiply_divide .multiply F G ⟨by rw [a5, b5], by rw [a6, b6]⟩
    (by rw [hbc]; rfl)).1 (by rw [a4, b4, a5, a6]; omega)
  have hl : R.lead = lead := by rw [hbc] at r4; exact (Option.some.inj r4).symm
  refine ⟨F, G, H, R, a1, b1, c1, r1, by rw [r3, c4, e4, a4, b4], by
    simp only [Grid.shape, hl, r5, r6, a5, a6, c3, c5, c6, e3], ?_⟩
  intro li j k hli hj hk
  have hli' : ValidIdx lead li := by rw [← hl]; exact hli
  rw [r7 li j k hli hj hk, a3, b3, a7 _ j k (bcIdx_valid hb hli').1 (by omega) (by omega),
    b7 _ j k (bcIdx_valid hb hli').2 (by omega) (by omega), c7 li j k (by rw [e3]; exact hli') (by omega) (by omega), a5, a6, b5, b6, c5, c6]
  exact (field_product hf hg (le_refl _) e4 e5 e7 (dir_unit _ _) hli').symm

/-- Concrete instances: two functions of spin weight -1 with `ell_max` 2 and 1 and leading shapes (2) and (), on the default grid of five
by five points and on seven by nine points. -/
example : ∃ table G tp, IsWignerTable 32 table ∧ exModes.grid sumSalm2map none none none = .ok G ∧ theta_phi G.n_theta G.n_phi = .ok tp := by
  obtain ⟨t, ht⟩ := IsWignerTable.exists 32 (by norm_num)
  obtain ⟨G, tp, e1, e2, -⟩ := C64_values isSalm2map_sum ht (fun _ => 0) exModes exModes_WF (by decide) (by decide) none none (by decide) (by decide)
    (by decide) (by decide)
  exact ⟨t, G, tp, ht, e1, e2⟩

example (junk : ℕ → ℝ) : ∃ h F G H R, exModes.multiplyM junk junk exModes1 none = .ok h ∧ GridOf sumSalm2map 7 9 exModes F ∧
    GridOf sumSalm2map 7 9 exModes1 G ∧ GridOf sumSalm2map 7 9 h H ∧ callUfunc .multiply [.grid F, .grid G] none = .ok (R, none) ∧ R.Same H := by
  have hL : ProductEllMax exModes exModes1 none 3 := (C32_default_ell_max rfl rfl 3).2 rfl
  rcases C32_product junk junk exModes exModes1 exModes_WF exModes1_WF (by decide) (by decide) (by decide) none 3 hL (by decide) [2] (by decide) with
    ⟨h, e1, _⟩ | ⟨_, hz⟩
  · obtain ⟨F, G, H, R, r⟩ := C64_multiply isSalm2map_sum junk junk exModes exModes1 h exModes_WF exModes1_WF (by decide) (by decide) (by decide) [2]
      (by decide) none hL 7 9 (by decide) (by decide) e1
    exact ⟨h, F, G, H, R, e1, r⟩
  · exact absurd hz (C32_no_exception (Or.inl (by decide)))

example : ∃ h F G H R, exModes.addM exModes1 true = .ok h ∧ GridOf sumSalm2map 5 6 exModes F ∧ GridOf sumSalm2map 5 6 exModes1 G ∧
    GridOf sumSalm2map 5 6 h H ∧ callUfunc .subtract [.grid F, .grid G] none = .ok (R, none) ∧ R.Same H :=
  C64_add_subtract isSalm2map_sum exModes exModes1 exModes_WF exModes1_WF (by decide) (by decide) rfl [2] (by decide) 5 6 (by decide) (by decide) true

example : ∃ g F G R, exModes.conjugate true = .ok g ∧ GridOf sumSalm2map 5 6 exModes F ∧ GridOf sumSalm2map 5 6 g G ∧
    callUfunc .conj [.grid F] none = .ok (R, none) ∧ R.Same G :=
  C64_conjugate isSalm2map_sum exModes exModes_WF (by decide) 5 6 (by decide) (by decide) true

end SF
