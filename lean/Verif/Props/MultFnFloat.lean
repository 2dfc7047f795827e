import Verif.Props.MultFloat

/-!
# C89, the plain function `multiply`

Arrays that begin with `ellmin > 0`: the loops visit the same contributions in the same order as for arrays padded with zeros, and adding a
zero contribution changes nothing.
-/

set_option autoImplicit false

namespace SF

open Finset Spec

theorem flatMap_pyRange_from {α : Type} {a N : ℤ} (ha : 0 ≤ a) (f : ℤ → List α) :
    (pyRange a N).flatMap f = (pyRange 0 N).flatMap fun x => if a ≤ x then f x else [] := by
  have e1 : ∀ {b : ℤ}, b ≤ a → (pyRange 0 b).flatMap (fun x => if a ≤ x then f x else []) = [] := by
    intro b hb
    rw [List.flatMap_eq_nil_iff]
    intro x hx
    rw [mem_pyRange] at hx
    rw [if_neg (by omega)]
  by_cases h : a ≤ N
  · rw [pyRange_append ha h, List.flatMap_append, e1 le_rfl, List.nil_append]
    apply List.flatMap_congr
    intro x hx
    rw [mem_pyRange] at hx
    rw [if_pos hx.1]
  · rw [pyRange_empty (by omega), e1 (by omega)]
    rfl

/-- The contributions with `ell1 ≥ a`, `ell2 ≥ b`. -/
theorem quads_filter {L a L1 b L2 l m : ℤ} (ha : 0 ≤ a) (hb : 0 ≤ b) :
    quads L a L1 b L2 l m = (quads L 0 L1 0 L2 l m).filter fun q => decide (a ≤ q.1 ∧ b ≤ q.2.2.1) := by
  unfold quads
  rw [flatMap_pyRange_from ha, List.filter_flatMap]
  apply List.flatMap_congr
  intro l1 _
  rw [List.filter_flatMap]
  by_cases h1 : a ≤ l1
  swap
  · rw [if_neg h1]
    symm
    rw [List.flatMap_eq_nil_iff]
    intro m1 _
    rw [List.filter_eq_nil_iff]
    intro q hq
    simp only [List.mem_flatMap] at hq
    obtain ⟨l2, -, m2, -, l3, -, hq⟩ := hq
    split at hq
    · rw [List.mem_singleton] at hq
      subst hq
      simp [h1]
    · cases hq
  · rw [if_pos h1]
    apply List.flatMap_congr
    intro m1 _
    rw [flatMap_pyRange_from hb, List.filter_flatMap]
    apply List.flatMap_congr
    intro l2 _
    by_cases h2 : b ≤ l2
    · rw [if_pos h2, List.filter_flatMap]
      apply List.flatMap_congr
      intro m2 _
      rw [List.filter_flatMap]
      apply List.flatMap_congr
      intro l3 _
      split
      · simp [h1, h2]
      · rfl
    · rw [if_neg h2]
      symm
      rw [List.filter_eq_nil_iff]
      intro q hq
      simp only [List.mem_flatMap] at hq
      obtain ⟨m2, -, l3, -, hq⟩ := hq
      split at hq
      · rw [List.mem_singleton] at hq
        subst hq
        simp [h2]
      · cases hq

theorem foldl_filter_eq {α β : Type} (p : α → Bool) (f g : β → α → β) (hp : ∀ z x, p x = true → f z x = g z x) (hn : ∀ z x, p x = false → g z x = z) :
    ∀ (xs : List α) (z : β), (xs.filter p).foldl f z = xs.foldl g z := by
  intro xs
  induction xs with
  | nil => intro z; rfl
  | cons x xs ih =>
    intro z
    rw [List.filter_cons]
    by_cases h : p x = true
    · rw [if_pos h, List.foldl_cons, List.foldl_cons, hp z x h, ih]
    · rw [if_neg h, List.foldl_cons, hn z x (by simpa using h), ih]

section
variable {u : ℝ} {δ : ℕ → ℝ} {M : ℤ} {F : ConvOps} (hF : F.Std u δ M)
include hF

theorem mulValF_zero (w3 : ℤ → ℤ → ℤ → ℤ → Py (List ℝ)) (s1 s2 : ℤ) {cf cg : ℤ → ℤ → Slice} {q : ℤ × ℤ × ℤ × ℤ} (l : ℤ) {x : MIdx}
    (h : cf q.1 q.2.1 x = 0 ∨ cg q.2.2.1 q.2.2.2 x = 0) : mulValF F w3 s1 s2 cf cg q l x = 0 := by
  have z0 : ∀ t : ℝ, F.mul t 0 = 0 := fun t => relErr_zero (u := u) (by have := hF.mul t 0; rwa [mul_zero] at this)
  have z1 : ∀ t : ℝ, F.mul 0 t = 0 := fun t => relErr_zero (u := u) (by have := hF.mul 0 t; rwa [zero_mul] at this)
  have ad : F.add 0 0 = 0 := hF.add_zero 0
  have sc : ∀ t : ℝ, mScale F.toModesOps t 0 = 0 := fun t => by
    unfold mScale; simp only [Complex.zero_re, Complex.zero_im, z0]; rfl
  have m1 : ∀ z : ℂ, mMul F.toModesOps 0 z = 0 := fun z => by
    unfold mMul; simp only [Complex.zero_re, Complex.zero_im, z1, neg_zero, ad]; rfl
  have m2 : ∀ z : ℂ, mMul F.toModesOps z 0 = 0 := fun z => by
    unfold mMul; simp only [Complex.zero_re, Complex.zero_im, z0, neg_zero, ad]; rfl
  unfold mulValF
  rcases h with h | h
  · rw [h, sc, sc, m1]
  · rw [h, sc, m2]

/-- **C89 (`multiply` on arrays).** The function `multiply` for arrays of the modes `ellmin ≤ ell ≤ ellmax`, `ellmin ≥ 0` arbitrary: it
returns, with `ellmin_fg = 0`, `ellmax_fg = ellmax_f + ellmax_g`, `s_fg = s_f + s_g` and an array of all modes up to `ellmax_fg`, and each
component of each mode differs from that of the exact product by at most `productErr` (missing modes count as zero). -/
theorem C89_multiply {w3 : ℤ → ℤ → ℤ → ℤ → Py (List ℝ)} {ε : ℤ → ℤ → ℤ → ℤ → ℤ → ℝ} (leadf leadg lead : List ℕ) (f g : List Slice)
    (ellmin_f ellmax_f s_f ellmin_g ellmax_g s_g : ℤ) (hf0 : 0 ≤ ellmin_f) (hf1 : ellmin_f ≤ ellmax_f) (hg0 : 0 ≤ ellmin_g)
    (hg1 : ellmin_g ≤ ellmax_g) (hlf : (f.length : ℤ) = (ellmax_f + 1) ^ 2 - ellmin_f ^ 2) (hlg : (g.length : ℤ) = (ellmax_g + 1) ^ 2 - ellmin_g ^ 2)
    (hb : bcastShape leadf leadg = some lead) (h3 : ThreeJApprox w3 ellmax_f s_f ellmax_g s_g ε) (hε : ∀ i l1 l2 m m', 0 ≤ ε i l1 l2 m m') :
    let mode : List Slice → ℤ → ℤ → ℤ → Slice := fun a ellmin l m => if ellmin ≤ l then (a[(l * (l + 1) + m - ellmin ^ 2).toNat]?).getD 0 else 0
    ∃ fg, multiplyFnF F w3 leadf f ellmin_f ellmax_f s_f leadg g ellmin_g ellmax_g s_g = .ok ((lead, fg), 0, ellmax_f + ellmax_g, s_f + s_g) ∧
      (fg.length : ℤ) = (ellmax_f + ellmax_g + 1) ^ 2 ∧
      ∀ l m, |m| ≤ l → l ≤ ellmax_f + ellmax_g → ∀ idx, ValidIdx lead idx →
        let c := fun l m => mode f ellmin_f l m (bcIdx leadf idx)
        let d := fun l m => mode g ellmin_g l m (bcIdx leadg idx)
        let p := productMode s_f ellmax_f c s_g ellmax_g d l m
        let E := productErr (gam u (((ellmax_f + 1) ^ 2 * (ellmax_g + 1)).toNat + 14)) ε s_f ellmax_f c s_g ellmax_g d l m
        |(mode fg 0 l m idx).re - p.re| ≤ E ∧ |(mode fg 0 l m idx).im - p.im| ≤ E := by
  intro mode
  set L := ellmax_f + ellmax_g with hL
  have hne : ∀ (a : List Slice) (lo hi : ℤ), 0 ≤ lo → lo ≤ hi → (a.length : ℤ) = (hi + 1) ^ 2 - lo ^ 2 → a ≠ [] := by
    rintro a lo hi h1 h2 h3 rfl
    simp only [List.length_nil, Nat.cast_zero] at h3
    nlinarith
  obtain ⟨N, hN⟩ : ∃ N : ℕ, (N : ℤ) = (L + 1) ^ 2 := ⟨((L + 1) ^ 2).toNat, by have := sq_nonneg (L + 1); omega⟩
  have hz : npZeros (α := Slice) (LM_total_size 0 L) = .ok (List.replicate N (0 : Slice)) := by
    unfold npZeros
    rw [LM_total_size_zero, ← hN, npEmpty_ok (by omega), Int.toNat_natCast]
    congr 1
    exact List.ext_getElem (by simp) (by simp)
  have hrd : ∀ (a : List Slice) (ld : List ℕ) (lo hi : ℤ), 0 ≤ lo → (a.length : ℤ) = (hi + 1) ^ 2 - lo ^ 2 → ∀ l m, lo ≤ l → l ≤ hi → |m| ≤ l →
      ∃ v, rd a (LM_index l m lo) = .ok v ∧ ∀ x, bcTo ld lead v x = (fun l m x => bcTo ld lead (mode a lo l m) x) l m x := by
    intro a ld lo hi h0 hlen l m h1 h2 h3
    have hm := abs_le.1 h3
    have e : LM_index l m lo = l * (l + 1) + m - lo ^ 2 := by unfold LM_index; ring
    have p : 0 ≤ l * (l + 1) + m - lo ^ 2 := by nlinarith
    have p' : l * (l + 1) + m - lo ^ 2 < a.length := by rw [hlen]; nlinarith
    have hlt : (l * (l + 1) + m - lo ^ 2).toNat < a.length := by omega
    refine ⟨mode a lo l m, ?_, fun _ => rfl⟩
    rw [e]
    refine rd_ok p ?_
    simp only [mode]
    rw [if_pos h1, List.getElem?_eq_getElem hlt]
    rfl
  obtain ⟨r, e, k2, k3⟩ := mulHelperF_spec F (L := L) (lead := lead) (leadf := leadf) (leadg := leadg) (fg := List.replicate N (0 : Slice)) hf0 hg0 h3
    (hrd f leadf _ _ hf0 hlf) (hrd g leadg _ _ hg0 hlg) (by rw [List.length_replicate]; exact hN)
  refine ⟨r, ?_, by rw [k2, List.length_replicate]; exact hN, fun l m hm hl idx hv => ?_⟩
  · unfold multiplyFnF
    simp only
    rw [if_neg (by have := hne f _ _ hf0 hf1 hlf; have := hne g _ _ hg0 hg1 hlg; tauto), hb]
    simp only
    rw [hz, bind_ok, e]
    rfl
  · have h0 : 0 ≤ l := (abs_nonneg _).trans hm
    have hmode : mode r 0 l m idx = (quads L ellmin_f ellmax_f ellmin_g ellmax_g l m).foldl
        (fun a q => mAdd F.toModesOps a (mulValF F w3 s_f s_g (fun l m x => bcTo leadf lead (mode f ellmin_f l m) x)
          (fun l m x => bcTo leadg lead (mode g ellmin_g l m) x) q l idx)) 0 := by
      have e1 : (l * (l + 1) + m - 0 ^ 2).toNat = mpos l m := by unfold mpos; rw [LM_index_zero]; congr 1; ring
      simp only [mode]
      rw [if_pos h0, e1, k3 l m hm hl 0 (by rw [List.getElem?_replicate, if_pos (mpos_lt hm hl hN)])]
      rfl
    have hz0 : ∀ z : ℂ, mAdd F.toModesOps z 0 = z := fun z => by
      unfold mAdd; simp only [Complex.zero_re, Complex.zero_im, hF.add_zero]
    have hcut : ∀ {a : List Slice} {ld : List ℕ} {lo l : ℤ} (m : ℤ) (x : MIdx), ¬ lo ≤ l → bcTo ld lead (mode a lo l m) x = 0 := by
      intro a ld lo l m x h
      simp only [mode]
      rw [if_neg h]
      unfold bcTo
      split <;> rfl
    rw [quads_filter hf0 hg0, foldl_filter_eq _ _ (fun a q => mAdd F.toModesOps a (mulValF F w3 s_f s_g (fun l m x => bcTo leadf lead (mode f ellmin_f l m) x)
          (fun l m x => bcTo leadg lead (mode g ellmin_g l m) x) q l idx)) (fun _ _ _ => rfl) (by
        intro z q hq
        simp only [decide_eq_false_iff_not, not_and_or] at hq
        rw [mulValF_zero hF, hz0]
        exact hq.imp (fun h => hcut _ _ h) (fun h => hcut _ _ h))] at hmode
    have := mode_err hF (L := L) (fun l m x => bcTo leadf lead (mode f ellmin_f l m) x) (fun l m x => bcTo leadg lead (mode g ellmin_g l m) x)
      (by omega) (by omega) h3 hε hm hl idx
    rw [← hmode] at this
    simp only [bcTo_valid _ hv] at this
    exact this

end

/-- Non-vacuity of `C89_multiply`: a function of spin weight 1 with modes `ell = 1` only, and a constant. -/
example : ∃ r, multiplyFnF (sloppyConv (2 ^ (-53 : ℤ))) (sloppy3j (2 ^ (-40 : ℤ))) [] [fun _ => 1, fun _ => 2, fun _ => 3] 1 1 1 []
    [fun _ => Complex.I] 0 0 0 = .ok (([], r), 0, 1, 1) ∧ r.length = 4 := by
  obtain ⟨r, e1, e2, -⟩ := C89_multiply (sloppyConv_std (u := 2 ^ (-53 : ℤ)) (by positivity) (by norm_num)) [] [] []
    [fun _ => 1, fun _ => 2, fun _ => 3] [fun _ => Complex.I] 1 1 1 0 0 0 (by norm_num) (by norm_num) (by norm_num) (by norm_num) (by simp) (by simp)
    rfl (sloppy3j_approx (η := 2 ^ (-40 : ℤ)) (by positivity) _ _ _ _) (fun _ _ _ _ _ => by positivity)
  refine ⟨r, e1, ?_⟩
  norm_num at e2
  exact_mod_cast e2

end SF
