import Verif.Lemmas.Sampling
import Mathlib.LinearAlgebra.FiniteDimensional.Lemmas

/-!
# C85: the values on an equiangular grid determine the mode weights
-/

set_option autoImplicit false

namespace SF

open Finset ComplexConjugate Spec

/-- Enough points to determine a function with modes up to `L`: at least `2L+1` azimuths and `L+2` colatitudes (one of each for a constant). -/
def EnoughPoints (L : ℤ) (nt np : ℕ) : Prop := 2 * L + 1 ≤ np ∧ 1 ≤ np ∧ 1 ≤ nt ∧ (1 ≤ L → L + 2 ≤ nt)

theorem sY000 (a b : ℂ) : sYlm a b 0 0 0 = (Real.sqrt (1 / (4 * Real.pi)) : ℂ) := by
  simp [sYlm, wignerD, Dpq]

theorem sampling {s : ℤ} {L nt np : ℕ} (h : EnoughPoints L nt np) (c : ((_ : ℤ) × ℤ) → ℂ)
    (h0 : ∀ j < nt, ∀ k < np, ∑ p ∈ modeSet s L, c p * sYlm (dirA (j * Real.pi / (nt - 1)) (2 * Real.pi * k / np))
      (dirB (j * Real.pi / (nt - 1)) (2 * Real.pi * k / np)) s p.1 p.2 = 0) : ∀ p ∈ modeSet s L, c p = 0 := by
  obtain ⟨h1, h2, h3, h4⟩ := h
  rcases Nat.eq_zero_or_pos L with rfl | hL
  · intro p hp
    have hp' := hp
    rw [mem_modeSet] at hp'
    obtain ⟨a, b, d⟩ := hp'
    have hs := abs_nonneg s
    have hs0 : s = 0 := by
      have : |s| = 0 := by have : ((0 : ℕ) : ℤ) = 0 := rfl; omega
      exact abs_eq_zero.1 this
    have hp1 : p.1 = 0 := by have : ((0 : ℕ) : ℤ) = 0 := rfl; omega
    have hp2 : p.2 = 0 := by rw [hp1] at d; exact abs_eq_zero.1 (le_antisymm d (abs_nonneg _))
    have := h0 0 (by omega) 0 (by omega)
    rw [sum_eq_single_of_mem p hp, hp1, hp2, hs0, sY000, mul_eq_zero] at this
    · refine this.resolve_right ?_
      have : 0 < Real.sqrt (1 / (4 * Real.pi)) := Real.sqrt_pos.2 (by have := Real.pi_pos; positivity)
      exact_mod_cast this.ne'
    · intro q hq hne
      exfalso
      apply hne
      rw [mem_modeSet] at hq
      obtain ⟨qa, qb, qd⟩ := hq
      have hq1 : q.1 = 0 := by have : ((0 : ℕ) : ℤ) = 0 := rfl; omega
      have hq2 : q.2 = 0 := by rw [hq1] at qd; exact abs_eq_zero.1 (le_antisymm qd (abs_nonneg _))
      exact Sigma.ext (by rw [hq1, hp1]) (by rw [hq2, hp2])
  · exact grid_sampling (by have := h4 (by omega); omega) (by omega) c h0

/-- Two sums of harmonics that agree on the grid have the same coefficients. -/
theorem coef_of_field {f g : Modes} (hf : f.WF) (hg : g.WF) (hs : f.s = g.s) {nt np : ℕ} (hpf : EnoughPoints f.ell_max nt np)
    (hpg : EnoughPoints g.ell_max nt np) {i j : MIdx}
    (heq : ∀ t < nt, ∀ k < np, fieldValue f.s f.ell_max (fun l m => f.coef l m i) (dirA (t * Real.pi / (nt - 1)) (2 * Real.pi * k / np))
        (dirB (t * Real.pi / (nt - 1)) (2 * Real.pi * k / np))
      = fieldValue g.s g.ell_max (fun l m => g.coef l m j) (dirA (t * Real.pi / (nt - 1)) (2 * Real.pi * k / np))
        (dirB (t * Real.pi / (nt - 1)) (2 * Real.pi * k / np))) (l m : ℤ) (hm : |m| ≤ l) : f.coef l m i = g.coef l m j := by
  have zf : f.ell_max < l → f.coef l m i = 0 := fun h => by rw [hf.sized.coef_of_gt hm h]
  have zg : g.ell_max < l → g.coef l m j = 0 := fun h => by rw [hg.sized.coef_of_gt hm h]
  obtain ⟨L, hL⟩ : ∃ L : ℕ, (L : ℤ) = max 0 (max f.ell_max g.ell_max) := ⟨(max 0 (max f.ell_max g.ell_max)).toNat, by omega⟩
  have hP : EnoughPoints L nt np := by
    obtain ⟨a1, a2, a3, a4⟩ := hpf
    obtain ⟨b1, -, -, b4⟩ := hpg
    refine ⟨?_, a2, a3, fun h => ?_⟩
    · omega
    · rcases le_total f.ell_max g.ell_max with h' | h'
      · have := b4 (by omega); omega
      · have := a4 (by omega); omega
  have fld : ∀ (h : Modes) (k : MIdx) (a b : ℂ), h.WF → h.s = f.s → h.ell_max ≤ L →
      fieldValue h.s h.ell_max (fun l m => h.coef l m k) a b = ∑ p ∈ modeSet f.s L, h.coef p.1 p.2 k * sYlm a b f.s p.1 p.2 := by
    intro h k a b hh hsh hle
    have : fieldValue h.s h.ell_max (fun l m => h.coef l m k) a b
        = ∑ p ∈ modeSet f.s h.ell_max, h.coef p.1 p.2 k * sYlm a b f.s p.1 p.2 := by
      unfold fieldValue modeSet
      rw [sum_sigma, hsh]
    rw [this]
    apply sum_subset
    · intro p; rw [mem_modeSet, mem_modeSet]; omega
    · intro p h1 h2
      rw [mem_modeSet] at h1 h2
      rw [hh.sized.coef_of_gt h1.2.2 (by omega), zero_mul]
  have key := sampling (s := f.s) hP (fun p => f.coef p.1 p.2 i - g.coef p.1 p.2 j) fun t ht k hk => by
    have e := heq t ht k hk
    rw [fld f i _ _ hf rfl (by omega), fld g j _ _ hg hs.symm (by omega), ← sub_eq_zero, ← sum_sub_distrib] at e
    rw [← e]
    exact sum_congr rfl fun p _ => by ring
  by_cases hl : |f.s| ≤ l
  · by_cases hK : l ≤ L
    · have := key ⟨l, m⟩ (by rw [mem_modeSet]; exact ⟨hl, hK, hm⟩)
      exact sub_eq_zero.mp this
    · rw [zf (by omega), zg (by omega)]
  · have q1 : f.coef l m i = 0 := by
      by_cases h : l ≤ f.ell_max
      · rw [hf.low l m (by omega) hm h]
      · exact zf (by omega)
    have q2 : g.coef l m j = 0 := by
      by_cases h : l ≤ g.ell_max
      · rw [hg.low l m (by rw [← hs]; omega) hm h]
      · exact zg (by omega)
    rw [q1, q2]

/-- **C85 (`evaluate`).** Two functions of the same spin weight (of any `ell_max` up to the table limit) whose computed values agree at the
directions of `theta_phi(n_theta, n_phi)` have the same mode weights, if `n_theta ≥ ell_max+2` and `n_phi ≥ 2 ell_max+1`. -/
theorem C85_evaluate {L : ℤ} {table : List ℝ} (ht : IsWignerTable L table) (junk : ℕ → ℤ × ℤ) (f g : Modes) (hf : f.WF) (hg : g.WF)
    (hs : f.s = g.s) (hfL : f.ell_max ≤ L) (hgL : g.ell_max ≤ L) (nt np : ℕ) (h2 : 2 ≤ nt) (h1 : 1 ≤ np) (hnt : nt ≤ 10 ^ 14)
    (hft : f.ell_max + 2 ≤ nt) (hgt : g.ell_max + 2 ≤ nt) (hfp : 2 * f.ell_max + 1 ≤ np) (hgp : 2 * g.ell_max + 1 ≤ np) (i j : MIdx)
    (tp : List (List (ℝ × ℝ))) (htp : theta_phi nt np = .ok tp)
    (heq : ∀ row ∈ tp, ∀ d ∈ row, ∃ v w, f.evaluate table junk [from_euler_angles d.2 d.1 0] = .ok [v] ∧
      g.evaluate table junk [from_euler_angles d.2 d.1 0] = .ok [w] ∧ v i = w j) (l m : ℤ) (hm : |m| ≤ l) :
    f.coef l m i = g.coef l m j := by
  refine coef_of_field hf hg hs (nt := nt) (np := np) ⟨hfp, h1, by omega, fun _ => hft⟩ ⟨hgp, h1, by omega, fun _ => hgt⟩ (fun t ht' k hk => ?_) l m hm
  obtain ⟨tp', e, -, -, hval, -⟩ := C56_theta_phi nt np h2 h1
  rw [htp] at e
  cases e
  have hv := hval t k ht' hk
  rw [Option.bind_eq_some_iff] at hv
  obtain ⟨row, r1, r2⟩ := hv
  obtain ⟨v, w, e1, e2, e3⟩ := heq row (List.mem_of_getElem? r1) _ (List.mem_of_getElem? r2)
  have ev : ∀ (h : Modes), h.WF → h.ell_max ≤ L → h.evaluate table junk [from_euler_angles (2 * Real.pi * k / np) (t * Real.pi / (nt - 1)) 0]
      = .ok [fun idx => fieldValue h.s h.ell_max (fun l m => h.coef l m idx) (dirA (t * Real.pi / (nt - 1)) (2 * Real.pi * k / np))
        (dirB (t * Real.pi / (nt - 1)) (2 * Real.pi * k / np))] := by
    intro h hh hhL
    have := evaluate_ok ht junk hh hhL [dirQ (t * Real.pi / (nt - 1)) (2 * Real.pi * k / np)] (by
      intro q hq
      rw [List.mem_singleton] at hq
      subst hq
      exact grid_generic (by omega) (by omega) ht' _)
    simpa only [List.map_cons, List.map_nil, comps_dirQ, partA_dirQ, partB_dirQ] using this
  simp only at e1 e2
  rw [ev f hf hfL] at e1
  rw [ev g hg hgL] at e2
  cases e1
  cases e2
  exact e3

/-- **C85 (`grid`).** The Grid made from a Modes object determines it: if the Grids of two objects of the same spin weight, with the same
numbers of points (at least `2 ell_max+1` for both), have the same values at every point, all mode weights are equal. -/
theorem C85_grid {S : Salm2map} (hS : IsSalm2map S) (f g : Modes) (hf : f.WF) (hg : g.WF) (hfs : |f.s| ≤ f.ell_max) (hgs : |g.s| ≤ g.ell_max)
    (hs : f.s = g.s) (nt np : ℕ) (hft : 2 * f.ell_max + 1 ≤ nt) (hfp : 2 * f.ell_max + 1 ≤ np) (hgt : 2 * g.ell_max + 1 ≤ nt)
    (hgp : 2 * g.ell_max + 1 ≤ np) (F G : Grid) (hF : f.grid S (some nt) (some np) none = .ok F)
    (hG : g.grid S (some nt) (some np) none = .ok G) (i j : MIdx) (hi : ValidIdx f.lead i) (hj : ValidIdx g.lead j)
    (heq : ∀ t < nt, ∀ k < np, F.at i t k = G.at j t k) (l m : ℤ) (hm : |m| ≤ l) : f.coef l m i = g.coef l m j := by
  have h0 := abs_nonneg f.s
  have h0' := abs_nonneg g.s
  obtain ⟨F', a1, -, -, -, a5, a6, a7⟩ := grid_ok hS hf hfs (some nt) (some np) hft hfp
  obtain ⟨G', b1, -, -, -, b5, b6, b7⟩ := grid_ok hS hg hgs (some nt) (some np) hgt hgp
  simp only [Option.map_some, Int.ofNat_eq_natCast] at a1 b1
  rw [hF] at a1
  rw [hG] at b1
  cases a1
  cases b1
  simp only [thetaPoints, phiPoints] at a5 a6 b5 b6
  refine coef_of_field hf hg hs (nt := nt) (np := np) ⟨hfp, by omega, by omega, fun _ => by omega⟩ ⟨hgp, by omega, by omega, fun _ => by omega⟩
    (fun t ht k hk => ?_) l m hm
  have e1 := a7 i t k hi (by omega) (by omega)
  have e2 := b7 j t k hj (by omega) (by omega)
  rw [a5, a6] at e1
  rw [b5, b6] at e2
  rw [← e1, ← e2]
  exact heq t ht k hk

/-- **C85 (default numbers of points).** `f.grid()` determines `f` among the objects with the same spin weight and `ell_max`. -/
theorem C85_grid_default {S : Salm2map} (hS : IsSalm2map S) (f g : Modes) (hf : f.WF) (hg : g.WF) (hfs : |f.s| ≤ f.ell_max)
    (hs : f.s = g.s) (hl : f.ell_max = g.ell_max) (F G : Grid) (hF : f.grid S none none none = .ok F) (hG : g.grid S none none none = .ok G)
    (i j : MIdx) (hi : ValidIdx f.lead i) (hj : ValidIdx g.lead j)
    (heq : ∀ t < F.n_theta, ∀ k < F.n_phi, F.at i t k = G.at j t k) (l m : ℤ) (hm : |m| ≤ l) : f.coef l m i = g.coef l m j := by
  have h0 := abs_nonneg f.s
  have e : ∀ h : Modes, 0 ≤ h.ell_max → h.grid S none none none
      = h.grid S (some ((2 * h.ell_max + 1).toNat : ℕ)) (some ((2 * h.ell_max + 1).toNat : ℕ)) none := by
    intro h hh
    unfold Modes.grid
    have : ∀ d : ℤ, pyOr (some (((2 * h.ell_max + 1).toNat : ℕ) : ℤ)) d = 2 * h.ell_max + 1 := fun d => by
      unfold pyOr; simp only; rw [if_neg (by omega)]; omega
    simp only [this]
    rfl
  rw [e f (by omega)] at hF
  rw [e g (by omega), ← hl] at hG
  obtain ⟨F', a1, -, -, -, a5, a6, -⟩ := grid_ok hS hf hfs (some (2 * f.ell_max + 1).toNat) (some (2 * f.ell_max + 1).toNat)
    (by simp only [thetaPoints]; omega) (by simp only [phiPoints]; omega)
  simp only [Option.map_some, Int.ofNat_eq_natCast] at a1
  rw [hF] at a1
  cases a1
  simp only [thetaPoints, phiPoints] at a5 a6
  exact C85_grid hS f g hf hg hfs (by rw [← hs, ← hl]; exact hfs) hs _ _ (by omega) (by omega) (by omega) (by omega) F G hF hG i j hi hj
    (fun t ht k hk => heq t (by omega) k (by omega)) l m hm

/-- The mode weights of `Y_{n,n} - (-1)^n Y_{n,-n}`, a single function of spin weight 0. -/
noncomputable def aliasModes (n : ℕ) : Modes where
  lead := []
  s := 0
  ell_max := n
  trunc := .absent
  dat := (List.range ((n + 1) ^ 2)).map fun p _ => if p = n ^ 2 + 2 * n then 1 else if p = n ^ 2 then -(-1) ^ n else 0

theorem aliasModes_WF (n : ℕ) : (aliasModes n).WF := by
  refine ⟨by simp only [aliasModes]; omega, by simp [aliasModes], fun l m h1 h2 _ => ?_⟩
  have := abs_nonneg m
  simp only [aliasModes, abs_zero] at h1
  omega

theorem aliasModes_coef {n : ℕ} (hn : 1 ≤ n) {l m : ℤ} (hm : |m| ≤ l) (hl : l ≤ n) (i : MIdx) :
    (aliasModes n).coef l m i = if l = n ∧ m = n then 1 else if l = n ∧ m = -n then -(-1) ^ n else 0 := by
  have hc := mpos_cast hm
  have h1 := abs_le.1 hm
  have hlt : mpos l m < (n + 1) ^ 2 := by
    have : ((mpos l m : ℕ) : ℤ) < (((n + 1) ^ 2 : ℕ) : ℤ) := by rw [hc]; push_cast; nlinarith
    exact_mod_cast this
  have q1 : mpos l m = n ^ 2 + 2 * n ↔ l = n ∧ m = n := by
    constructor
    · intro h
      have h' : ((mpos l m : ℕ) : ℤ) = n ^ 2 + 2 * n := by rw [h]; push_cast; ring
      rw [hc] at h'
      have : l = n := by
        by_contra hne
        have : l ≤ n - 1 := by omega
        nlinarith
      subst this
      exact ⟨rfl, by nlinarith⟩
    · rintro ⟨rfl, rfl⟩
      have : ((mpos (n : ℤ) n : ℕ) : ℤ) = ((n ^ 2 + 2 * n : ℕ) : ℤ) := by rw [hc]; push_cast; ring
      exact_mod_cast this
  have q2 : mpos l m = n ^ 2 ↔ l = n ∧ m = -n := by
    constructor
    · intro h
      have h' : ((mpos l m : ℕ) : ℤ) = n ^ 2 := by rw [h]; push_cast; ring
      rw [hc] at h'
      have : l = n := by
        by_contra hne
        have : l ≤ n - 1 := by omega
        nlinarith
      subst this
      exact ⟨rfl, by nlinarith⟩
    · rintro ⟨rfl, rfl⟩
      have : ((mpos (n : ℤ) (-n) : ℕ) : ℤ) = ((n ^ 2 : ℕ) : ℤ) := by rw [hc]; push_cast; ring
      exact_mod_cast this
  unfold Modes.coef aliasModes
  rw [List.getElem?_map, List.getElem?_range hlt]
  simp only [Option.map_some, Option.getD_some, q1, q2]

theorem aliasModes_field {n : ℕ} (hn : 1 ≤ n) (i : MIdx) (θ : ℝ) (k : ℕ) :
    fieldValue 0 n (fun l m => (aliasModes n).coef l m i) (dirA θ (2 * Real.pi * k / (2 * n : ℕ))) (dirB θ (2 * Real.pi * k / (2 * n : ℕ))) = 0 := by
  set φ : ℝ := 2 * Real.pi * k / (2 * n : ℕ) with hφ
  have hn0 : (n : ℝ) ≠ 0 := by positivity
  have e1 : fieldValue 0 n (fun l m => (aliasModes n).coef l m i) (dirA θ φ) (dirB θ φ)
      = sYlm (dirA θ φ) (dirB θ φ) 0 n n + (-(-1) ^ n) * sYlm (dirA θ φ) (dirB θ φ) 0 n (-n) := by
    unfold fieldValue
    rw [sum_eq_single_of_mem (n : ℤ) (by rw [mem_Icc, abs_zero]; omega)]
    · have hsub : ({(n : ℤ), -(n : ℤ)} : Finset ℤ) ⊆ Icc (-(n : ℤ)) n := by
        intro x hx
        rw [mem_insert, mem_singleton] at hx
        rw [mem_Icc]
        omega
      rw [← sum_subset hsub, sum_pair (by omega)]
      · beta_reduce
        rw [aliasModes_coef hn (le_of_eq (by simp)) le_rfl, aliasModes_coef hn (le_of_eq (by simp)) le_rfl, if_pos ⟨rfl, rfl⟩, if_neg (by omega), if_pos ⟨rfl, rfl⟩, one_mul]
      · intro m hm hne
        rw [mem_Icc] at hm
        rw [mem_insert, mem_singleton, not_or] at hne
        beta_reduce
        rw [aliasModes_coef hn (abs_le.2 ⟨hm.1, hm.2⟩) le_rfl, if_neg (by omega), if_neg (by omega), zero_mul]
    · intro l hl hne
      rw [mem_Icc] at hl
      apply sum_eq_zero
      intro m hm
      rw [mem_Icc] at hm
      beta_reduce
      rw [aliasModes_coef hn (abs_le.2 ⟨hm.1, hm.2⟩) hl.2, if_neg (by omega), if_neg (by omega), zero_mul]
  rw [e1]
  have hc := sYlm_conj (Real.cos (θ / 2)) (Real.sin (θ / 2)) 0 n n
  have hreal : conj (sYlm (Real.cos (θ / 2)) (Real.sin (θ / 2)) 0 n n) = sYlm (Real.cos (θ / 2)) (Real.sin (θ / 2)) 0 n n := by
    obtain ⟨p', q', p, q, hsum, ha, hb, hc⟩ := valid_pq (validD_sm (s := 0) (ell := n) (m := n) ⟨by simp, by simp⟩)
    obtain ⟨d, hd⟩ := Dpq_real (Real.cos (θ / 2)) (Real.sin (θ / 2)) p' q' p q
    unfold sYlm
    rw [if_pos ⟨by simp, by simp⟩, wignerD_pq _ _ hsum ha hb hc, hd, zpow_zero, one_mul, map_mul, Complex.conj_ofReal, Complex.conj_ofReal]
  rw [hreal, neg_zero, zero_add, zpow_natCast] at hc
  rw [sYlm_dir, sYlm_dir, hc]
  have hx : Complex.exp (Complex.I * ((n : ℤ) : ℂ) * φ) = (-1) ^ k := by
    have : Complex.I * ((n : ℤ) : ℂ) * φ = k * (Real.pi * Complex.I) := by
      rw [hφ]; push_cast
      have : (n : ℂ) ≠ 0 := by exact_mod_cast hn0
      field_simp
    rw [this, Complex.exp_nat_mul, Complex.exp_pi_mul_I]
  have hy : Complex.exp (Complex.I * ((-(n : ℤ) : ℤ) : ℂ) * φ) = (-1) ^ k := by
    have : Complex.I * ((-(n : ℤ) : ℤ) : ℂ) * φ = -(Complex.I * ((n : ℤ) : ℂ) * φ) := by push_cast; ring
    rw [this, Complex.exp_neg, hx, ← inv_pow]
    norm_num
  rw [hx, hy]
  ring

/-- **C85 (sharpness: aliasing).** One azimuth fewer is not enough, whatever the number of colatitudes: for every `ell_max = n ≥ 1` there is a
non-zero function all of whose computed values at the directions of `theta_phi(n_theta, 2 ell_max)` vanish. -/
theorem C85_aliasing (n : ℕ) (hn : 1 ≤ n) {L : ℤ} {table : List ℝ} (ht : IsWignerTable L table) (junk : ℕ → ℤ × ℤ) (hL : n ≤ L)
    (nt : ℕ) (h2 : 2 ≤ nt) (hnt : nt ≤ 10 ^ 14) :
    ∃ f : Modes, f.WF ∧ f.s = 0 ∧ f.ell_max = n ∧ f.lead = [] ∧ f.coef n n [] = 1 ∧
      ∃ tp, theta_phi nt ((2 * n : ℕ) : ℤ) = .ok tp ∧ ∀ row ∈ tp, ∀ d ∈ row, ∃ v, f.evaluate table junk [from_euler_angles d.2 d.1 0] = .ok [v] ∧ ∀ i, v i = 0 := by
  refine ⟨aliasModes n, aliasModes_WF n, rfl, rfl, rfl, ?_, ?_⟩
  · rw [aliasModes_coef hn (by simp) le_rfl, if_pos ⟨rfl, rfl⟩]
  · obtain ⟨tp, e, hlen, hrow, hval, -⟩ := C56_theta_phi nt (2 * n) h2 (by omega)
    refine ⟨tp, e, fun row hr d hd => ?_⟩
    obtain ⟨t, ht1, ht2⟩ := List.mem_iff_getElem.1 hr
    obtain ⟨k, hk1, hk2⟩ := List.mem_iff_getElem.1 hd
    have htn : t < nt := by omega
    have hkn : k < 2 * n := by have := hrow row hr; omega
    have hv := hval t k htn hkn
    rw [List.getElem?_eq_getElem ht1, ht2] at hv
    simp only [Option.bind_some] at hv
    rw [List.getElem?_eq_getElem hk1, hk2] at hv
    cases hv
    have := evaluate_ok ht junk (aliasModes_WF n) hL [dirQ (t * Real.pi / (nt - 1)) (2 * Real.pi * k / (2 * n : ℕ))] (by
      intro q hq
      rw [List.mem_singleton] at hq
      subst hq
      exact grid_generic (by omega) (by omega) htn _)
    simp only [List.map_cons, List.map_nil, comps_dirQ, partA_dirQ, partB_dirQ] at this
    exact ⟨_, this, fun i => aliasModes_field hn i _ k⟩

/-- The mode weights of `Σ c_i Y_{i+1,1}`, `i = 0, …, n-1`, a single function of spin weight 0. -/
noncomputable def ringModes (n : ℕ) (c : Fin n → ℂ) : Modes where
  lead := []
  s := 0
  ell_max := n
  trunc := .absent
  dat := (List.range ((n + 1) ^ 2)).map fun p _ => ∑ i : Fin n, if p = ((i : ℕ) + 1) ^ 2 + ((i : ℕ) + 1) + 1 then c i else 0

theorem ringModes_WF (n : ℕ) (c : Fin n → ℂ) : (ringModes n c).WF := by
  refine ⟨by simp only [ringModes]; omega, by simp [ringModes], fun l m h1 h2 _ => ?_⟩
  have := abs_nonneg m
  simp only [ringModes, abs_zero] at h1
  omega

theorem ringModes_coef {n : ℕ} (c : Fin n → ℂ) {l m : ℤ} (hm : |m| ≤ l) (hl : l ≤ n) (i : MIdx) :
    (ringModes n c).coef l m i = ∑ a : Fin n, if l = (a : ℕ) + 1 ∧ m = 1 then c a else 0 := by
  have hc := mpos_cast hm
  have h1 := abs_le.1 hm
  have hlt : mpos l m < (n + 1) ^ 2 := by
    have : ((mpos l m : ℕ) : ℤ) < (((n + 1) ^ 2 : ℕ) : ℤ) := by rw [hc]; push_cast; nlinarith
    exact_mod_cast this
  unfold Modes.coef ringModes
  rw [List.getElem?_map, List.getElem?_range hlt]
  simp only [Option.map_some, Option.getD_some]
  refine sum_congr rfl fun a _ => ?_
  have q : mpos l m = ((a : ℕ) + 1) ^ 2 + ((a : ℕ) + 1) + 1 ↔ l = (a : ℕ) + 1 ∧ m = 1 := by
    have q0 : mpos l m = ((a : ℕ) + 1) ^ 2 + ((a : ℕ) + 1) + 1 ↔ l ^ 2 + l + m = ((a : ℕ) + 1 : ℤ) ^ 2 + ((a : ℕ) + 1) + 1 := by
      rw [← hc]
      constructor
      · intro h; rw [h]; push_cast; ring
      · intro h; exact_mod_cast h
    rw [q0]
    constructor
    · intro h
      have : l = (a : ℕ) + 1 := by
        rcases lt_trichotomy l ((a : ℕ) + 1) with h' | h' | h'
        · have : l ≤ (a : ℕ) := by omega
          nlinarith
        · exact h'
        · have : (a : ℕ) + 2 ≤ l := by omega
          nlinarith
      exact ⟨this, by rw [this] at h; linarith⟩
    · rintro ⟨rfl, rfl⟩; ring
  simp only [q]

theorem ringModes_field {n : ℕ} (c : Fin n → ℂ) (i : MIdx) (θ φ : ℝ) :
    fieldValue 0 n (fun l m => (ringModes n c).coef l m i) (dirA θ φ) (dirB θ φ)
      = Complex.exp (Complex.I * (1 : ℤ) * φ) * ∑ a : Fin n, c a * sYlm (Real.cos (θ / 2)) (Real.sin (θ / 2)) 0 (a + 1) 1 := by
  unfold fieldValue
  have e : ∀ l ∈ Icc |(0 : ℤ)| n, ∑ m ∈ Icc (-l) l, (ringModes n c).coef l m i * sYlm (dirA θ φ) (dirB θ φ) 0 l m
      = ∑ a : Fin n, if l = a + 1 then c a * sYlm (dirA θ φ) (dirB θ φ) 0 l 1 else 0 := by
    intro l hl
    rw [mem_Icc, abs_zero] at hl
    have : ∀ m ∈ Icc (-l) l, (ringModes n c).coef l m i * sYlm (dirA θ φ) (dirB θ φ) 0 l m
        = ∑ a : Fin n, if m = 1 then (if l = a + 1 then c a * sYlm (dirA θ φ) (dirB θ φ) 0 l 1 else 0) else 0 := by
      intro m hm
      rw [mem_Icc] at hm
      rw [ringModes_coef c (abs_le.2 hm) hl.2, sum_mul]
      refine sum_congr rfl fun a _ => ?_
      by_cases h1 : m = 1
      · subst h1
        by_cases h2 : l = a + 1
        · rw [if_pos ⟨h2, rfl⟩, if_pos rfl, if_pos h2]
        · rw [if_neg (fun h => h2 h.1), if_pos rfl, if_neg h2, zero_mul]
      · rw [if_neg (fun h => h1 h.2), if_neg h1, zero_mul]
    rw [sum_congr rfl this, sum_comm]
    refine sum_congr rfl fun a _ => ?_
    by_cases h2 : l = a + 1
    · rw [if_pos h2, sum_ite_eq' (Icc (-l) l) (1 : ℤ), if_pos (by rw [mem_Icc]; omega)]
    · simp [h2]
  rw [sum_congr rfl e, sum_comm, mul_sum]
  refine sum_congr rfl fun a _ => ?_
  rw [sum_ite_eq' (Icc |(0 : ℤ)| n) ((a : ℤ) + 1), if_pos (by rw [mem_Icc, abs_zero]; omega), sYlm_dir]
  ring

/-- **C85 (sharpness: colatitudes).** One colatitude fewer is not enough, whatever the number of azimuths: for every `ell_max = n ≥ 1` there is a
non-zero function all of whose computed values at the directions of `theta_phi(ell_max+1, n_phi)` vanish. -/
theorem C85_rings (n : ℕ) (hn : 1 ≤ n) {L : ℤ} {table : List ℝ} (ht : IsWignerTable L table) (junk : ℕ → ℤ × ℤ) (hL : n ≤ L)
    (np : ℕ) (h1 : 1 ≤ np) (hnt : n + 1 ≤ 10 ^ 14) :
    ∃ f : Modes, f.WF ∧ f.s = 0 ∧ f.ell_max = n ∧ f.lead = [] ∧ (∃ l m : ℤ, |m| ≤ l ∧ l ≤ n ∧ f.coef l m [] ≠ 0) ∧
      ∃ tp, theta_phi ((n + 1 : ℕ) : ℤ) np = .ok tp ∧ ∀ row ∈ tp, ∀ d ∈ row, ∃ v, f.evaluate table junk [from_euler_angles d.2 d.1 0] = .ok [v] ∧ ∀ i, v i = 0 := by
  let th : ℕ → ℝ := fun t => t * Real.pi / ((n + 1 : ℕ) - 1)
  let A : (Fin n → ℂ) →ₗ[ℂ] (Fin (n - 1) → ℂ) :=
    LinearMap.pi fun j => ∑ a : Fin n, sYlm (Real.cos (th (j + 1) / 2)) (Real.sin (th (j + 1) / 2)) 0 (a + 1) 1 • LinearMap.proj a
  have hA : LinearMap.ker A ≠ ⊥ := LinearMap.ker_ne_bot_of_finrank_lt (by simp; omega)
  obtain ⟨c, hc, hc0⟩ := (Submodule.ne_bot_iff _).1 hA
  rw [LinearMap.mem_ker] at hc
  obtain ⟨a, ha⟩ := Function.ne_iff.1 hc0
  have hzero : ∀ t < n + 1, ∑ b : Fin n, c b * sYlm (Real.cos (th t / 2)) (Real.sin (th t / 2)) 0 (b + 1) 1 = 0 := by
    intro t htn
    have hn0 : (n : ℝ) ≠ 0 := by positivity
    by_cases hp : t = 0 ∨ t = n
    · have hs : Real.sin (th t) = 0 := by
        rcases hp with rfl | rfl
        · simp [th]
        · have : th t = Real.pi := by simp only [th]; push_cast; rw [add_sub_cancel_right, mul_comm, mul_div_assoc, div_self hn0, mul_one]
          rw [this, Real.sin_pi]
      apply sum_eq_zero
      intro b _
      obtain ⟨P, -, hP⟩ := theta_poly (s := 0) (l := b + 1) (m := 1) (L := n) (by omega) 1 le_rfl (by norm_num)
      rw [hP, hs]
      simp
    · have := congrFun hc ⟨t - 1, by omega⟩
      simp only [A, LinearMap.pi_apply, LinearMap.sum_apply, LinearMap.smul_apply, LinearMap.proj_apply, smul_eq_mul, Pi.zero_apply,
        show t - 1 + 1 = t by omega] at this
      rw [← this]
      exact sum_congr rfl fun b _ => mul_comm _ _
  refine ⟨ringModes n c, ringModes_WF n c, rfl, rfl, rfl, ⟨a + 1, 1, ?_, by omega, ?_⟩, ?_⟩
  · rw [abs_one]; omega
  · rw [ringModes_coef c (by rw [abs_one]; omega) (by omega), sum_eq_single a]
    · rw [if_pos ⟨rfl, rfl⟩]; exact ha
    · intro b _ hb
      rw [if_neg]
      rintro ⟨h, -⟩
      exact hb (Fin.ext (by omega))
    · intro h; exact absurd (mem_univ a) h
  · obtain ⟨tp, e, hlen, hrow, hval, -⟩ := C56_theta_phi (n + 1) np (by omega) h1
    refine ⟨tp, e, fun row hr d hd => ?_⟩
    obtain ⟨t, ht1, ht2⟩ := List.mem_iff_getElem.1 hr
    obtain ⟨k, hk1, hk2⟩ := List.mem_iff_getElem.1 hd
    have htn : t < n + 1 := by omega
    have hkn : k < np := by have := hrow row hr; omega
    have hv := hval t k htn hkn
    rw [List.getElem?_eq_getElem ht1, ht2] at hv
    simp only [Option.bind_some] at hv
    rw [List.getElem?_eq_getElem hk1, hk2] at hv
    cases hv
    have := evaluate_ok ht junk (ringModes_WF n c) hL [dirQ (t * Real.pi / ((n + 1 : ℕ) - 1)) (2 * Real.pi * k / np)] (by
      intro q hq
      rw [List.mem_singleton] at hq
      subst hq
      exact grid_generic (by omega) (by omega) htn _)
    simp only [List.map_cons, List.map_nil, comps_dirQ, partA_dirQ, partB_dirQ] at this
    refine ⟨_, this, fun i => ?_⟩
    have := ringModes_field c i (th t) (2 * Real.pi * k / np)
    rw [hzero t htn, mul_zero] at this
    exact this

/-- Non-vacuity of C85: the object of the other examples meets the hypotheses with the default numbers of points. -/
example (F : Grid) (hF : exModes.grid sumSalm2map none none none = .ok F) (i j : MIdx) (hi : ValidIdx [2] i) (hj : ValidIdx [2] j)
    (heq : ∀ t < F.n_theta, ∀ k < F.n_phi, F.at i t k = F.at j t k) (l m : ℤ) (hm : |m| ≤ l) : exModes.coef l m i = exModes.coef l m j :=
  C85_grid_default isSalm2map_sum exModes exModes exModes_WF exModes_WF (by simp [exModes]) rfl rfl F F hF hF i j hi hj heq l m hm

end SF
