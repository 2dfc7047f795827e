import Verif.Model.Threads
import Verif.Props.WignerH
import Verif.Props.Wigner3j

/-!
# C84: threads that share calculators and workspaces
-/

set_option autoImplicit false

namespace SF

open Spec

/-- The rows `H` are the result of `HCalculator(n_max)` for the angles `β`: `wedge_size(n_max)` rows, and the row found with
`wedge_index(*wedgeify_index(ell, mp, m))` is `H^{m',m}_ell(β)`. -/
def IsHTable {J : ℕ} (n_max : ℤ) (β : Fin J → ℝ) (H : List (HRow J)) : Prop :=
  (H.length : ℤ) = wedge_size n_max ∧ ∀ ell mp m, IsTriple 0 n_max (ell, mp, m) →
    ∃ row, H[(wedge_index (wedgeify_index ell mp m).1 (wedgeify_index ell mp m).2.1 (wedgeify_index ell mp m).2.2).toNat]? = some row ∧
      ∀ j, IsH (β j) ell mp m (row j)

/-- The arguments `cosβ`, `sinβ` of a call. -/
noncomputable def angleJob {J : ℕ} (β : Fin J → ℝ) : HRow J × HRow J := (fun j => Real.cos (β j), fun j => Real.sin (β j))

/-- Thread `i` uses `HCalculator(n i)` (any two threads may use the same object), and its calls are those for the angles `βs i`. -/
structure Uses {Jof : ℕ → ℕ} (P : ℕ → HProg Jof) (i : ℕ) (n : ℕ) (βs : List (Fin (Jof (P i).addr) → ℝ)) : Prop where
  pos : 1 ≤ n
  made : ∃ junk, HCoef.make junk n = .ok (P i).C
  jobs : (P i).jobs = βs.map angleJob

/-- In the schedule `S`, starting from `σ`, no thread makes a step while another one that uses the same workspace is between the
beginning of a call and the copying of its result. -/
def Exclusive {Jof : ℕ → ℕ} {P : ℕ → HProg Jof} : HState P → List ℕ → Prop
  | _, [] => True
  | σ, i :: S => (∀ j, j ≠ i → (P j).addr = (P i).addr → σ.pc j = 0) ∧ Exclusive (σ.step i) S

/-! ## The stages of a call -/

/-- What the arrays contain after `p` of the five compiled steps. -/
def Stage {J : ℕ} (N : ℕ) (β : Fin J → ℝ) (p : ℕ) (A : HArr J) : Prop :=
  A.w.length = (wedge_size N).toNat ∧ A.v.length = (N + 1) ^ 2 ∧ A.x.length = N + 2 ∧
  match p with
  | 0 => True
  | 1 => At A.w (wedge_index 0 0 0) (Hs β 0 0 0)
  | 2 => (∀ n m : ℤ, 0 ≤ m → m ≤ n → n ≤ N → At A.w (wedge_index n 0 m) (Hs β n 0 m)) ∧
      (∀ m : ℤ, 0 ≤ m → m ≤ N + 1 → At A.x m (Hs β (N + 1) 0 m)) ∧
      (∀ n : ℤ, 1 ≤ n → n ≤ N → At A.v (nm_index n 1) (Hs β n 1 0) ∧ At A.v (nm_index n 0) (Hs β n 0 (-1)))
  | 3 => Kn wedge_index N β (fun _ mp _ => mp = 0 ∨ mp = 1) A.w ∧
      (∀ n : ℤ, 1 ≤ n → n ≤ N → At A.v (nm_index n 1) (Hs β n 1 0) ∧ At A.v (nm_index n 0) (Hs β n 0 (-1)))
  | 4 => Kn wedge_index N β (fun _ mp _ => 0 ≤ mp) A.w ∧
      (∀ n : ℤ, 1 ≤ n → n ≤ N → At A.v (nm_index n 1) (Hs β n 1 0) ∧ At A.v (nm_index n 0) (Hs β n 0 (-1)))
  | _ => Kn wedge_index N β (fun _ _ _ => True) A.w

theorem stage_step {J N : ℕ} (hN : 1 ≤ N) {C : HCoef} (GC : GoodCoef C N) (β : Fin J → ℝ) {p : ℕ} (hp : p < 5) {A : HArr J}
    (h : Stage N β p A) :
    ∃ A', hStep C (fun j => Real.cos (β j)) (fun j => Real.sin (β j)) p A = .ok A' ∧ Stage N β (p + 1) A' := by
  have G := goodIdx_wedge N
  obtain ⟨hw, hv, hx, h⟩ := h
  match p, hp, h with
  | 0, _, _ =>
    have r0 := G.range 0 0 0 (wedge_iff.2 (by omega))
    have z := G.zero
    rw [z] at r0
    obtain ⟨w1, e1, l1, a1, -⟩ := wr_at (L := A.w) (i := 0) (fun _ : Fin J => (1 : ℝ)) le_rfl (by rw [hw]; exact r0.2)
    refine ⟨{ A with w := w1 }, ?_, by rw [← hw, ← l1], hv, hx, ?_⟩
    · unfold hStep h_step_1; simp only; rw [e1]; rfl
    · show At w1 (wedge_index 0 0 0) (Hs β 0 0 0)
      rw [z, Hs_zero]; exact a1
  | 1, _, h =>
    obtain ⟨A2, e2, lw2, lv2, lx2, k2, kx2, kv2⟩ := h_step_2_ok hN G GC β hw hv hx h
    exact ⟨A2, e2, lw2, lv2, lx2, k2, kx2, kv2⟩
  | 2, _, ⟨k2, kx2, kv2⟩ =>
    obtain ⟨w3, e3, lw3, k3⟩ := h_step_3_ok G GC β hw
      (fun n mp m hm h => by subst h; have := wedge_iff.1 hm; exact k2 n m (by omega) (by omega) (by omega)) kx2
    refine ⟨{ A with w := w3 }, ?_, lw3, hv, hx, k3, kv2⟩
    unfold hStep; simp only; rw [e3]; rfl
  | 3, _, ⟨k3, kv3⟩ =>
    obtain ⟨w4, v4, e4, lw4, lv4, k4, kv4⟩ := h_step_4_ok hN G GC β hw hv k3 kv3
    refine ⟨{ A with w := w4, v := v4 }, ?_, lw4, lv4, hx, k4, kv4⟩
    unfold hStep; simp only; rw [e4]; rfl
  | 4, _, ⟨k4, kv4⟩ =>
    obtain ⟨w5, v5, e5, lw5, lv5, k5⟩ := h_step_5_ok G GC β hw hv k4 kv4
    refine ⟨{ A with w := w5, v := v5 }, ?_, lw5, lv5, hx, k5⟩
    unfold hStep; simp only; rw [e5]; rfl

theorem stage_mono_zero {J N : ℕ} {β β' : Fin J → ℝ} {p : ℕ} {A : HArr J} (h : Stage N β p A) : Stage N β' 0 A :=
  ⟨h.1, h.2.1, h.2.2.1, trivial⟩

theorem hRows_nat (N : ℕ) : (hRows N).toNat = (wedge_size N).toNat + (N + 1) ^ 2 + (N + 2) ∧
    hRows N = ((wedge_size N).toNat + (N + 1) ^ 2 + (N + 2) : ℕ) := by
  have hW := wedge_size_nonneg (n := N) (by omega)
  have e4 : hRows N = ((wedge_size N).toNat + (N + 1) ^ 2 + (N + 2) : ℕ) := by
    unfold hRows; push_cast; rw [Int.toNat_of_nonneg hW]; ring
  exact ⟨by omega, e4⟩

theorem sq_toNat (N : ℕ) : (((N : ℤ) + 1) ^ 2).toNat = (N + 1) ^ 2 := by
  rw [show ((N : ℤ) + 1) ^ 2 = (((N + 1) ^ 2 : ℕ) : ℤ) by push_cast; ring]; exact Int.toNat_natCast _

theorem two_toNat (N : ℕ) : ((N : ℤ) + 2).toNat = N + 2 := by omega

theorem stage_zero {J N : ℕ} (β : Fin J → ℝ) {ws : List (HRow J)} (h : hRows N ≤ ws.length) : Stage N β 0 (hSplit N ws) := by
  have := (hRows_nat N).2
  refine ⟨?_, ?_, ?_, trivial⟩ <;> unfold hSplit <;> simp only [sq_toNat, two_toNat, List.length_take, List.length_drop] <;> omega

theorem hMerge_length {J N : ℕ} {β : Fin J → ℝ} {p : ℕ} {ws : List (HRow J)} (h : hRows N ≤ ws.length) {A : HArr J}
    (hA : Stage N β p A) : (hMerge N ws A).length = ws.length := by
  have := (hRows_nat N).2
  obtain ⟨h1, h2, h3, -⟩ := hA
  unfold hMerge
  simp only [sq_toNat, two_toNat, List.length_append, List.length_drop, h1, h2, h3]
  omega

theorem hSplit_merge {J N : ℕ} {β : Fin J → ℝ} {p : ℕ} (ws : List (HRow J)) {A : HArr J} (hA : Stage N β p A) :
    hSplit N (hMerge N ws A) = A := by
  obtain ⟨h1, h2, h3, -⟩ := hA
  unfold hSplit hMerge
  simp only [sq_toNat, two_toNat]
  obtain ⟨w, v, x⟩ := A
  simp only at h1 h2 h3
  congr 1
  · rw [List.append_assoc, List.append_assoc, List.take_left' h1]
  · rw [List.append_assoc, List.append_assoc, List.drop_left' h1, List.take_left' h2]
  · rw [List.append_assoc (w ++ v), List.drop_left' (by rw [List.length_append, h1, h2]), List.take_left' h3]

theorem stage_table {J N : ℕ} {β : Fin J → ℝ} {A : HArr J} (hA : Stage N β 5 A) : IsHTable N β A.w := by
  obtain ⟨h1, -, -, K⟩ := hA
  have K : Kn wedge_index N β (fun _ _ _ => True) A.w := K
  refine ⟨by rw [h1, Int.toNat_of_nonneg (wedge_size_nonneg (by omega))], fun ell mp m ht => ?_⟩
  obtain ⟨mp', m', e', hw, hs⟩ := C52_wedgeify N ell mp m ht
  rw [e']
  obtain ⟨-, -, h3, h4⟩ := ht
  refine ⟨_, (K _ _ _ hw trivial).2, fun j => ?_⟩
  rw [Hs_same β h3 h4 hs]
  exact Hs_isH β _ _ _ j

/-- The five compiled steps, one after the other, are the call. -/
theorem C84_steps {J : ℕ} (C : HCoef) (co si : HRow J) (A : HArr J) :
    h_steps wedge_index C co si A = hStep C co si 0 A >>= hStep C co si 1 >>= hStep C co si 2 >>= hStep C co si 3 >>= hStep C co si 4 := by
  unfold h_steps hStep
  simp only [bind_assoc, pure_bind]

/-! ## The invariant -/

/-- Thread `i` after `c` of its turns. -/
structure ThreadOk {Jof : ℕ → ℕ} {P : ℕ → HProg Jof} (σ : HState P) (i n : ℕ) (βs : List (Fin (Jof (P i).addr) → ℝ)) (c : ℕ) :
    Prop where
  noerr : σ.err i = none
  ws : hRows n ≤ (σ.mem (P i).addr).length
  pc_le : σ.pc i ≤ 5
  stage : 0 < σ.pc i → ∃ β, βs[σ.fin i]? = some β ∧ Stage n β (σ.pc i) (hSplit n (σ.mem (P i).addr))
  out_len : (σ.out i).length = σ.fin i
  out : ∀ (k : ℕ) (β : Fin (Jof (P i).addr) → ℝ), k < σ.fin i → βs[k]? = some β → ∃ H, (σ.out i)[k]? = some H ∧ IsHTable n β H
  progress : 6 * σ.fin i + σ.pc i = min c (6 * βs.length)

theorem ThreadOk.step_self {Jof : ℕ → ℕ} {P : ℕ → HProg Jof} {σ : HState P} {i n : ℕ} {βs : List (Fin (Jof (P i).addr) → ℝ)}
    {c : ℕ} (U : Uses P i n βs) (h : ThreadOk σ i n βs c) :
    ThreadOk (σ.step i) i n βs (c + 1) ∧ ((σ.step i).mem (P i).addr).length = (σ.mem (P i).addr).length := by
  obtain ⟨junk, hC⟩ := U.made
  have GC := goodCoef_make hC
  have hn := GC.n_max
  have hprog := h.progress
  unfold HState.step
  rw [if_neg (by rw [h.noerr]; simp), U.jobs, List.getElem?_map]
  cases hβ : βs[σ.fin i]? with
  | none =>
    have hl : βs.length ≤ σ.fin i := by rwa [List.getElem?_eq_none_iff] at hβ
    simp only [Option.map_none]
    exact ⟨⟨h.noerr, h.ws, h.pc_le, h.stage, h.out_len, h.out, by omega⟩, trivial⟩
  | some β =>
    have hl : σ.fin i < βs.length := by
      by_contra hcon; rw [List.getElem?_eq_none (by omega)] at hβ; cases hβ
    simp only [Option.map_some, angleJob, hn]
    have hst : Stage n β (σ.pc i) (hSplit n (σ.mem (P i).addr)) := by
      by_cases h0 : σ.pc i = 0
      · rw [h0]; exact stage_zero β h.ws
      · obtain ⟨β', e, hs⟩ := h.stage (by omega)
        rw [hβ] at e; cases e; exact hs
    by_cases hp : σ.pc i < 5
    · rw [if_pos hp]
      obtain ⟨A, eA, hA⟩ := stage_step (by have := U.pos; omega) GC β hp hst
      rw [eA]
      have hlen := hMerge_length h.ws hA
      refine ⟨⟨h.noerr, ?_, ?_, ?_, h.out_len, h.out, ?_⟩, ?_⟩
      · simp only [Function.update_self, hlen]; exact h.ws
      · simp only [Function.update_self]; omega
      · intro _
        simp only [Function.update_self]
        exact ⟨β, hβ, by rw [hSplit_merge _ hA]; exact hA⟩
      · simp only [Function.update_self]; omega
      · simp only [Function.update_self, hlen]
    · rw [if_neg hp]
      have hp5 : σ.pc i = 5 := by have := h.pc_le; omega
      rw [hp5] at hst
      refine ⟨⟨h.noerr, h.ws, ?_, ?_, ?_, ?_, ?_⟩, rfl⟩
      · simp only [Function.update_self]; omega
      · simp only [Function.update_self]; intro h0; omega
      · simp only [Function.update_self, List.length_append, List.length_singleton, h.out_len]
      · intro k β' hk hβ'
        simp only [Function.update_self] at hk ⊢
        by_cases hk' : k < σ.fin i
        · rw [List.getElem?_append_left (by rw [h.out_len]; exact hk')]
          exact h.out k β' hk' hβ'
        · have : k = σ.fin i := by omega
          subst this
          rw [hβ] at hβ'; cases hβ'
          refine ⟨_, by rw [List.getElem?_append_right (by rw [h.out_len]), h.out_len, Nat.sub_self]; rfl, ?_⟩
          exact stage_table hst
      · simp only [Function.update_self]; omega

/-- The four kinds of a step. -/
theorem step_cases {Jof : ℕ → ℕ} {P : ℕ → HProg Jof} (σ : HState P) (i : ℕ) :
    σ.step i = σ ∨ (∃ e, σ.step i = { σ with err := Function.update σ.err i (some e) }) ∨
    (∃ l, σ.step i = { σ with
      mem := Function.update σ.mem (P i).addr l
      pc := Function.update σ.pc i (σ.pc i + 1) }) ∨
    ∃ o, σ.step i = { σ with
      out := Function.update σ.out i o
      fin := Function.update σ.fin i (σ.fin i + 1)
      pc := Function.update σ.pc i 0 } := by
  unfold HState.step
  by_cases he : (σ.err i).isSome
  · rw [if_pos he]; exact .inl rfl
  · rw [if_neg he]
    cases (P i).jobs[σ.fin i]? with
    | none => exact .inl rfl
    | some q =>
      obtain ⟨co, si⟩ := q
      simp only
      by_cases hp : σ.pc i < 5
      · rw [if_pos hp]
        cases hStep (P i).C co si (σ.pc i) (hSplit (P i).C.n_max (σ.mem (P i).addr)) with
        | error e => exact .inr (.inl ⟨e, rfl⟩)
        | ok A => exact .inr (.inr (.inl ⟨_, rfl⟩))
      · rw [if_neg hp]; exact .inr (.inr (.inr ⟨_, rfl⟩))

theorem step_frame {Jof : ℕ → ℕ} {P : ℕ → HProg Jof} (σ : HState P) {i j : ℕ} (hij : j ≠ i) :
    (σ.step i).err j = σ.err j ∧ (σ.step i).pc j = σ.pc j ∧ (σ.step i).out j = σ.out j ∧ (σ.step i).fin j = σ.fin j := by
  rcases step_cases σ i with e | ⟨_, e⟩ | ⟨_, e⟩ | ⟨_, e⟩ <;> rw [e] <;> simp only [Function.update_of_ne hij, and_self]

theorem ThreadOk.step_other {Jof : ℕ → ℕ} {P : ℕ → HProg Jof} {σ : HState P} {i j n : ℕ} {βs : List (Fin (Jof (P j).addr) → ℝ)}
    {c : ℕ} (h : ThreadOk σ j n βs c) (hij : j ≠ i) (hex : (P j).addr = (P i).addr → σ.pc j = 0)
    (hlen : ((σ.step i).mem (P i).addr).length = (σ.mem (P i).addr).length) : ThreadOk (σ.step i) j n βs c := by
  have hm : ∀ a, a ≠ (P i).addr → (σ.step i).mem a = σ.mem a := by
    intro a ha
    rcases step_cases σ i with e | ⟨_, e⟩ | ⟨_, e⟩ | ⟨_, e⟩ <;> rw [e]
    simp only [Function.update_of_ne ha]
  obtain ⟨r1, r2, r3, r4⟩ := step_frame σ hij
  have hml : ((σ.step i).mem (P j).addr).length = (σ.mem (P j).addr).length := by
    by_cases ha : (P j).addr = (P i).addr
    · rw [ha]; exact hlen
    · rw [hm _ ha]
  refine ⟨by rw [r1]; exact h.noerr, by rw [hml]; exact h.ws, by rw [r2]; exact h.pc_le, ?_, by rw [r3, r4]; exact h.out_len, ?_, ?_⟩
  · intro h0
    rw [r2] at h0 ⊢
    have ha : (P j).addr ≠ (P i).addr := fun ha => by have := hex ha; omega
    rw [r4, hm _ ha]
    exact h.stage h0
  · rw [r3, r4]; exact h.out
  · rw [r2, r4]; exact h.progress

theorem run_ok {Jof : ℕ → ℕ} {P : ℕ → HProg Jof} (n : ℕ → ℕ) (βs : (i : ℕ) → List (Fin (Jof (P i).addr) → ℝ))
    (U : ∀ i, Uses P i (n i) (βs i)) (S : List ℕ) (σ : HState P) (c : ℕ → ℕ) (h : ∀ i, ThreadOk σ i (n i) (βs i) (c i))
    (hex : Exclusive σ S) (i : ℕ) : ThreadOk (σ.run S) i (n i) (βs i) (c i + S.count i) := by
  induction S generalizing σ c with
  | nil => exact h i
  | cons a S ih =>
    obtain ⟨h1, h2⟩ := hex
    obtain ⟨k1, k2⟩ := (h a).step_self (U a)
    have := ih (σ.step a) (fun j => if j = a then c j + 1 else c j) (fun j => by
      by_cases hj : j = a
      · subst hj; simp only [if_true]; exact k1
      · simp only [if_neg hj]; exact (h j).step_other hj (h1 j hj) k2) h2
    have e : (if i = a then c i + 1 else c i) + S.count i = c i + (a :: S).count i := by
      by_cases hi : i = a
      · subst hi; simp only [if_true, List.count_cons_self]; omega
      · rw [if_neg hi, List.count_cons_of_ne (Ne.symm hi)]
    rw [e] at this
    exact this

theorem init_ok {Jof : ℕ → ℕ} {P : ℕ → HProg Jof} {n : ℕ → ℕ} {βs : (i : ℕ) → List (Fin (Jof (P i).addr) → ℝ)}
    (mem : (a : ℕ) → List (HRow (Jof a))) (hws : ∀ i, hRows (n i) ≤ (mem (P i).addr).length) (i : ℕ) :
    ThreadOk (HState.init P mem) i (n i) (βs i) 0 where
  noerr := rfl
  ws := hws i
  pc_le := Nat.zero_le _
  stage := fun h => absurd h (lt_irrefl _)
  out_len := rfl
  out := fun k β h => absurd h (Nat.not_lt_zero _)
  progress := by simp [HState.init]

/-! ## C84 -/

/-- **C84.** Any number of threads, each with any number of calls, which may all use the same calculator object; the workspaces have
any contents.  In every schedule in which no thread makes a step while another thread that was given the same workspace is in the
middle of a call, no thread raises an exception, the `k`-th result of thread `i` is the table of `H` for its `k`-th array of
angles, and a thread that got `6 k` turns has finished `k` calls (or all of its calls). -/
theorem C84_exclusive {Jof : ℕ → ℕ} {P : ℕ → HProg Jof} (n : ℕ → ℕ) (βs : (i : ℕ) → List (Fin (Jof (P i).addr) → ℝ))
    (U : ∀ i, Uses P i (n i) (βs i)) (mem : (a : ℕ) → List (HRow (Jof a)))
    (hws : ∀ i, hRows (n i) ≤ (mem (P i).addr).length) (S : List ℕ) (hex : Exclusive (HState.init P mem) S) (i : ℕ) :
    ((HState.init P mem).run S).err i = none ∧
      (((HState.init P mem).run S).out i).length = min (S.count i / 6) (βs i).length ∧
      ∀ (k : ℕ) (H : List (HRow (Jof (P i).addr))), (((HState.init P mem).run S).out i)[k]? = some H →
        ∃ β, (βs i)[k]? = some β ∧ IsHTable (n i) β H := by
  have h := run_ok n βs U S (HState.init P mem) (fun _ => 0) (init_ok mem hws) hex i
  have hp := h.progress
  have hle := h.pc_le
  have hpc : ((HState.init P mem).run S).fin i = (βs i).length → ((HState.init P mem).run S).pc i = 0 := by
    intro e
    by_contra h0
    obtain ⟨β, hβ, -⟩ := h.stage (by omega)
    rw [List.getElem?_eq_none (by omega)] at hβ
    cases hβ
  refine ⟨h.noerr, by rw [h.out_len]; omega, fun k H hH => ?_⟩
  have hk : k < ((HState.init P mem).run S).fin i := by
    by_contra hcon
    rw [List.getElem?_eq_none (by rw [h.out_len]; omega)] at hH
    cases hH
  have hkl : k < (βs i).length := by omega
  have e := List.getElem?_eq_getElem hkl
  obtain ⟨H', e', ht⟩ := h.out k _ hk e
  rw [hH] at e'
  cases e'
  exact ⟨_, e, ht⟩

/-- **C84.** If the threads have different workspaces (or pass none), this holds for every schedule: a calculator may be shared by
any number of threads. -/
theorem C84_own_workspaces {Jof : ℕ → ℕ} {P : ℕ → HProg Jof} (n : ℕ → ℕ) (βs : (i : ℕ) → List (Fin (Jof (P i).addr) → ℝ))
    (U : ∀ i, Uses P i (n i) (βs i)) (mem : (a : ℕ) → List (HRow (Jof a)))
    (hws : ∀ i, hRows (n i) ≤ (mem (P i).addr).length) (hdis : ∀ i j, i ≠ j → (P i).addr ≠ (P j).addr) (S : List ℕ) (i : ℕ) :
    ((HState.init P mem).run S).err i = none ∧
      (((HState.init P mem).run S).out i).length = min (S.count i / 6) (βs i).length ∧
      ∀ (k : ℕ) (H : List (HRow (Jof (P i).addr))), (((HState.init P mem).run S).out i)[k]? = some H →
        ∃ β, (βs i)[k]? = some β ∧ IsHTable (n i) β H := by
  refine C84_exclusive n βs U mem hws S ?_ i
  have key : ∀ (S : List ℕ) (σ : HState P), Exclusive σ S := by
    intro S
    induction S with
    | nil => intro σ; exact trivial
    | cons a S ih => exact fun σ => ⟨fun j hj e => absurd e (hdis j a hj), ih _⟩
  exact key _ _

theorem exclusive_block {Jof : ℕ → ℕ} {P : ℕ → HProg Jof} (a : ℕ) (S : List ℕ) (k : ℕ) (σ : HState P) (h0 : ∀ j, j ≠ a → σ.pc j = 0)
    (h : Exclusive (σ.run (List.replicate k a)) S) : Exclusive σ (List.replicate k a ++ S) := by
  induction k generalizing σ with
  | zero => exact h
  | succ k ih =>
    rw [List.replicate_succ, List.cons_append]
    exact ⟨fun j hj _ => h0 j hj, ih _ (fun j hj => by rw [(step_frame σ hj).2.1]; exact h0 j hj) h⟩

theorem exclusive_calls {Jof : ℕ → ℕ} {P : ℕ → HProg Jof} (n : ℕ → ℕ) (βs : (i : ℕ) → List (Fin (Jof (P i).addr) → ℝ))
    (U : ∀ i, Uses P i (n i) (βs i)) (order : List ℕ) (σ : HState P) (d : ℕ → ℕ) (h : ∀ i, ThreadOk σ i (n i) (βs i) (6 * d i)) :
    Exclusive σ (order.flatMap (List.replicate 6)) := by
  induction order generalizing σ d with
  | nil => exact trivial
  | cons a order ih =>
    have h0 : ∀ j, σ.pc j = 0 := fun j => by have := (h j).progress; have := (h j).pc_le; omega
    rw [List.flatMap_cons]
    refine exclusive_block a _ 6 σ (fun j _ => h0 j) (ih _ (fun j => d j + (if j = a then 1 else 0)) fun j => ?_)
    have hex : Exclusive σ (List.replicate 6 a) := by
      have := exclusive_block a [] 6 σ (fun j _ => h0 j) trivial
      rwa [List.append_nil] at this
    have := run_ok n βs U (List.replicate 6 a) σ (fun j => 6 * d j) h hex j
    rw [List.count_replicate] at this
    have e : 6 * d j + (if a == j then 6 else 0) = 6 * (d j + if j = a then 1 else 0) := by
      by_cases hj : j = a
      · subst hj; simp; ring
      · have : ¬ a = j := fun h => hj h.symm
        simp [hj, this]
    rw [e] at this
    exact this

/-- **C84 (one call at a time).** If whole calls are made one after another, in any order of the threads — for example under a lock held
during every call — then all threads may use the same workspace: after the calls of the threads in the list `order`, thread `i` has as
many results as it has entries in `order` (as long as it has calls left to make), and its `k`-th result is the table of `H` for its
`k`-th array of angles. -/
theorem C84_whole_calls {Jof : ℕ → ℕ} {P : ℕ → HProg Jof} (n : ℕ → ℕ) (βs : (i : ℕ) → List (Fin (Jof (P i).addr) → ℝ))
    (U : ∀ i, Uses P i (n i) (βs i)) (mem : (a : ℕ) → List (HRow (Jof a)))
    (hws : ∀ i, hRows (n i) ≤ (mem (P i).addr).length) (order : List ℕ) (i : ℕ) :
    let σ := (HState.init P mem).run (order.flatMap (List.replicate 6))
    σ.err i = none ∧ (σ.out i).length = min (order.count i) (βs i).length ∧
      ∀ (k : ℕ) (H : List (HRow (Jof (P i).addr))), (σ.out i)[k]? = some H → ∃ β, (βs i)[k]? = some β ∧ IsHTable (n i) β H := by
  intro σ
  have hex := exclusive_calls n βs U order (HState.init P mem) (fun _ => 0) (fun i => init_ok mem hws i)
  obtain ⟨h1, h2, h3⟩ := C84_exclusive n βs U mem hws _ hex i
  refine ⟨h1, ?_, h3⟩
  rw [h2]
  congr 1
  have : (order.flatMap (List.replicate 6)).count i = 6 * order.count i := by
    clear h1 h2 h3 hex
    induction order with
    | nil => rfl
    | cons a order ih =>
      rw [List.flatMap_cons, List.count_append, ih, List.count_replicate, List.count_cons]
      by_cases ha : a = i <;> simp [ha] <;> ring
  rw [this]; omega

/-- Two threads (0 and 1) with one call each; both use the calculator `C` and the same workspace. -/
noncomputable def sharedProg {J : ℕ} (C : HCoef) (β₀ β₁ : Fin J → ℝ) (i : ℕ) : HProg (fun _ => J) :=
  ⟨C, 0, if i = 0 then [angleJob β₀] else if i = 1 then [angleJob β₁] else []⟩

theorem wignerd_one (β : ℝ) : wignerd β 1 0 0 = (Real.cos β : ℂ) := by
  have h : Real.cos β = Real.cos (β / 2) ^ 2 - Real.sin (β / 2) ^ 2 := by
    rw [← Real.cos_two_mul', mul_div_cancel₀ _ (two_ne_zero)]
  rw [h]
  unfold wignerd
  generalize Real.cos (β / 2) = c
  generalize Real.sin (β / 2) = s
  simp [wignerD, Dpq, Finset.sum_range_succ]
  ring

/-- A table determines the cosines of its angles. -/
theorem IsHTable.cos_eq {J n : ℕ} (hn : 1 ≤ n) {β β' : Fin J → ℝ} {H : List (HRow J)} (h : IsHTable n β H) (h' : IsHTable n β' H)
    (j : Fin J) : Real.cos (β j) = Real.cos (β' j) := by
  have ht : IsTriple 0 n (1, 0, 0) := by refine ⟨?_, ?_, ?_, ?_⟩ <;> simp <;> omega
  obtain ⟨r, e, k⟩ := h.2 1 0 0 ht
  obtain ⟨r', e', k'⟩ := h'.2 1 0 0 ht
  rw [e] at e'
  cases e'
  have a := k j
  have b := k' j
  unfold IsH at a b
  rw [← b, wignerd_one, wignerd_one] at a
  exact_mod_cast a

theorem sharedProg_uses {J n : ℕ} (hn : 1 ≤ n) {junk : ℤ → ℝ} {C : HCoef} (hC : HCoef.make junk n = .ok C) (β₀ β₁ : Fin J → ℝ) (i : ℕ) :
    Uses (sharedProg C β₀ β₁) i n (if i = 0 then [β₀] else if i = 1 then [β₁] else []) := by
  refine ⟨hn, ⟨junk, hC⟩, ?_⟩
  unfold sharedProg
  split_ifs <;> rfl

/-- **C84.** Threads that pass the same workspace and do not exclude each other get wrong values: whatever the angles of the two calls,
there is a schedule in which thread 0 finishes without an exception and its result is the table for the angles of the *other* thread,
which is not the table for its own ones if some cosines differ. -/
theorem C84_shared_workspace {J n : ℕ} (hn : 1 ≤ n) (junk : ℤ → ℝ) (β₀ β₁ : Fin J → ℝ) (mem : ℕ → List (HRow J))
    (hws : hRows n ≤ (mem 0).length) :
    ∃ C S H, HCoef.make junk n = .ok C ∧
      ((HState.init (sharedProg C β₀ β₁) mem).run S).err 0 = none ∧
      ((HState.init (sharedProg C β₀ β₁) mem).run S).out 0 = [H] ∧ IsHTable n β₁ H ∧
      ((∃ j, Real.cos (β₀ j) ≠ Real.cos (β₁ j)) → ¬ IsHTable n β₀ H) := by
  have hC : ∃ C, HCoef.make junk n = .ok C := by unfold HCoef.make; rw [if_neg (by omega)]; exact ⟨_, rfl⟩
  obtain ⟨C, hC⟩ := hC
  have U := sharedProg_uses hn hC β₀ β₁
  set P := sharedProg C β₀ β₁ with hP
  set σ₀ := HState.init P mem with hσ₀
  have i0 := init_ok (P := P) (n := fun _ => n) (βs := fun i => if i = 0 then [β₀] else if i = 1 then [β₁] else []) mem
    (fun i => hws)
  -- thread 0 makes its five steps
  have a0 := run_ok (P := P) (fun _ => n) _ U [0, 0, 0, 0, 0] σ₀ (fun _ => 0) i0
  have hex : Exclusive σ₀ [0, 0, 0, 0, 0] := by
    have fr : ∀ (σ : HState P) (j : ℕ), j ≠ 0 → σ.pc j = 0 → (σ.step 0).pc j = 0 := fun σ j hj h => by
      rw [(step_frame σ hj).2.1]; exact h
    refine ⟨fun j hj _ => rfl, fun j hj _ => ?_, fun j hj _ => ?_, fun j hj _ => ?_, fun j hj _ => ?_, trivial⟩
    all_goals repeat apply fr _ j hj
    all_goals rfl
  set σ₁ := σ₀.run [0, 0, 0, 0, 0] with hσ₁
  have b0 := a0 hex 0
  have b1 := a0 hex 1
  -- thread 1 makes its five steps
  have c1 := (((((b1.step_self (U 1)).1.step_self (U 1)).1.step_self (U 1)).1.step_self (U 1)).1.step_self (U 1)).1
  set σ₂ := ((((σ₁.step 1).step 1).step 1).step 1).step 1 with hσ₂
  have fr : σ₂.err 0 = σ₁.err 0 ∧ σ₂.pc 0 = σ₁.pc 0 ∧ σ₂.out 0 = σ₁.out 0 ∧ σ₂.fin 0 = σ₁.fin 0 := by
    have h := fun σ : HState P => step_frame σ (i := 1) (j := 0) (by omega)
    refine ⟨?_, ?_, ?_, ?_⟩
    · simp only [hσ₂, (h _).1]
    · simp only [hσ₂, (h _).2.1]
    · simp only [hσ₂, (h _).2.2.1]
    · simp only [hσ₂, (h _).2.2.2]
  obtain ⟨f1, f2, f3, f4⟩ := fr
  have p0 := b0.progress
  have p1 := c1.progress
  have q0 := b0.pc_le
  have q1 := c1.pc_le
  simp at p0 p1
  obtain ⟨β, hβ, hst⟩ := c1.stage (by omega)
  rw [show σ₂.fin 1 = 0 by omega] at hβ
  simp at hβ
  subst hβ
  rw [show σ₂.pc 1 = 5 by omega] at hst
  have hT : IsHTable n β₁ ((σ₂.mem 0).take (wedge_size n).toNat) := stage_table hst
  -- thread 0 copies its result
  have hjob : (P 0).jobs[σ₂.fin 0]? = some (angleJob β₀) := by rw [f4, show σ₁.fin 0 = 0 by omega]; rfl
  have hout : σ₂.out 0 = [] := by
    rw [f3]; exact List.length_eq_zero_iff.1 (by rw [b0.out_len]; omega)
  have hn' : (P 0).C.n_max = n := (goodCoef_make hC).n_max
  have hstep : (σ₂.step 0).err 0 = none ∧ (σ₂.step 0).out 0 = [(σ₂.mem 0).take (wedge_size n).toNat] := by
    unfold HState.step
    rw [if_neg (by rw [f1, b0.noerr]; simp), hjob]
    simp only [angleJob]
    rw [if_neg (by rw [f2]; omega)]
    refine ⟨by rw [f1]; exact b0.noerr, ?_⟩
    simp only [Function.update_self, hout, hn', List.nil_append]
    rfl
  have hrun : σ₀.run [0, 0, 0, 0, 0, 1, 1, 1, 1, 1, 0] = σ₂.step 0 := rfl
  refine ⟨C, [0, 0, 0, 0, 0, 1, 1, 1, 1, 1, 0], _, hC, by rw [← hP, ← hσ₀, hrun]; exact hstep.1,
    by rw [← hP, ← hσ₀, hrun]; exact hstep.2, hT, ?_⟩
  · rintro ⟨j, hj⟩ h
    exact hj (h.cos_eq hn hT j)

/-- **C84.** Any sequence of calls of `calculate` (made by any threads) on one `Wigner3jCalculator`, each of which is one atomic step and
returns: the array returned by any of the earlier calls holds, when it is read afterwards, the symbols of the *last* call. -/
theorem C84_wigner3j_shared {c c' : W3Calc} (hc : c.WF) (l : List W3Call) (q : W3Call)
    (hl : ∀ r ∈ l ++ [q], r.j2 + r.j3 < c.size) (hfit : |q.m2| ≤ q.j2 → |q.m3| ≤ q.j3 → W3Fits q.j2 q.j3 q.m2 q.m3)
    (hrun : c.runCalls (l ++ [q]) = .ok c') :
    c'.view.length = c.size.toNat ∧ ∀ i : ℕ, i < c'.view.length → c'.view[i]? = some (threeJ i q.j2 q.j3 (-(q.m2 + q.m3)) q.m2 q.m3) := by
  induction l generalizing c with
  | nil =>
    have hq := hl q (by simp)
    simp only [List.nil_append, W3Calc.runCalls] at hrun
    rcases C47_outcome hc hq hfit with ⟨f, c1, e, hf1, hf2⟩ | ⟨e, -⟩
    · rw [e, bind_ok] at hrun
      cases hrun
      have hv : c1.view = f ∧ c1.size = c.size := by
        rw [calculate_eq hc] at e
        cases hw : w3run ⟨List.replicate c.size.toNat 0, List.replicate c.size.toNat 0, List.replicate c.size.toNat 0,
            List.replicate c.size.toNat 0⟩ q.j2 q.j3 q.m2 q.m3 with
        | error x => rw [hw] at e; cases e
        | ok w =>
          rw [hw] at e
          cases e
          refine ⟨?_, rfl⟩
          unfold W3Calc.view
          simp only
          rw [List.append_assoc, List.append_assoc, List.take_left' hf1]
      rw [hv.1]
      exact ⟨hf1, hf2⟩
    · rw [e] at hrun; cases hrun
  | cons r l ih =>
    simp only [List.cons_append, W3Calc.runCalls] at hrun
    rcases C47_memory_safe hc (j2 := r.j2) (j3 := r.j3) (m2 := r.m2) (m3 := r.m3) (hl r (by simp)) with
      ⟨f, c1, e, h1, h2, -⟩ | e | e
    · rw [e, bind_ok] at hrun
      have := ih h1 (fun x hx => by rw [h2]; exact hl x (by simp at hx ⊢; tauto)) hrun
      rwa [h2] at this
    · rw [e] at hrun; cases hrun
    · rw [e] at hrun; cases hrun

/-! ## Non-vacuity -/

/-- Infinitely many threads with two calls each (for the angles 0 and 1, and for the angles 1 and 2), all with one `HCalculator(3)`, and
thread `i` with the workspace at address `i`. -/
noncomputable def exThreads (C : HCoef) (i : ℕ) : HProg (fun _ => 2) := ⟨C, i, [angleJob ![0, 1], angleJob ![1, 2]]⟩

example : ∃ C, ∀ i, Uses (exThreads C) i 3 [![0, 1], ![1, 2]] := by
  have hC : ∃ C, HCoef.make (fun _ => 0) (3 : ℕ) = .ok C := by unfold HCoef.make; rw [if_neg (by omega)]; exact ⟨_, rfl⟩
  obtain ⟨C, hC⟩ := hC
  exact ⟨C, fun i => ⟨by omega, ⟨_, hC⟩, rfl⟩⟩

/-- After twelve turns of thread 1 and seven of thread 0, in any order and with any turns of other threads in between, thread 1 has
its two results and thread 0 the first one. -/
example (C : HCoef) (U : ∀ i, Uses (exThreads C) i 3 [![0, 1], ![1, 2]]) (S : List ℕ) (h1 : S.count 1 = 12) (h0 : S.count 0 = 7)
    (mem : ℕ → List (HRow 2)) (hm : ∀ a, hRows 3 ≤ (mem a).length) :
    (((HState.init (exThreads C) mem).run S).out 1).length = 2 ∧ (((HState.init (exThreads C) mem).run S).out 0).length = 1 := by
  have h := C84_own_workspaces (P := exThreads C) (fun _ => 3) (fun _ => [![0, 1], ![1, 2]]) U mem (fun i => hm i) (fun i j h => h) S
  refine ⟨by rw [(h 1).2.1, h1]; rfl, by rw [(h 0).2.1, h0]; rfl⟩

/-- The same threads with one workspace, at address 5, for all of them. -/
noncomputable def exShared (C : HCoef) (_i : ℕ) : HProg (fun _ => 2) := ⟨C, 5, [angleJob ![0, 1], angleJob ![1, 2]]⟩

/-- One workspace for all threads: thread 0 makes a call, then thread 1, then thread 0. -/
example : ∃ C, HCoef.make (fun _ => 0) (3 : ℕ) = .ok C ∧ ∀ mem : ℕ → List (HRow 2), hRows 3 ≤ (mem 5).length →
    (((HState.init (exShared C) mem).run ([0, 1, 0].flatMap (List.replicate 6))).out 0).length = 2 ∧
    Exclusive (HState.init (exShared C) mem) ([0, 1, 0].flatMap (List.replicate 6)) := by
  have hC : ∃ C, HCoef.make (fun _ => 0) (3 : ℕ) = .ok C := by unfold HCoef.make; rw [if_neg (by omega)]; exact ⟨_, rfl⟩
  obtain ⟨C, hC⟩ := hC
  have U : ∀ i, Uses (exShared C) i 3 [![0, 1], ![1, 2]] := fun i => ⟨by omega, ⟨_, hC⟩, rfl⟩
  refine ⟨C, hC, fun mem hm => ⟨?_, exclusive_calls (P := exShared C) (fun _ => 3) (fun _ => [![0, 1], ![1, 2]]) U [0, 1, 0] _ (fun _ => 0)
    (fun i => init_ok (P := exShared C) (n := fun _ => 3) (βs := fun _ => [![0, 1], ![1, 2]]) mem (fun _ => hm) i)⟩⟩
  rw [(C84_whole_calls (P := exShared C) (fun _ => 3) (fun _ => [![0, 1], ![1, 2]]) U mem (fun _ => hm) [0, 1, 0] 0).2.1]
  rfl

/-- Two calls of `calculate` on one calculator: `(1, 1, 0, 0)` and then `(1, 1, 1, -1)`; both return. -/
example : ∃ c c', W3Calc.new (fun _ => 0) 1 1 = .ok c ∧ c.WF ∧ c.runCalls [⟨1, 1, 0, 0⟩, ⟨1, 1, 1, -1⟩] = .ok c' := by
  obtain ⟨c, e, hc, hs⟩ := C47_new (junk := fun _ => 0) (j2_max := 1) (j3_max := 1) (by norm_num) (by norm_num)
  obtain ⟨f, c1, e1⟩ := C47_returns_small hc (j2 := 1) (j3 := 1) (m2 := 0) (m3 := 0) (by omega) (by norm_num) (by norm_num)
  have hw1 : c1.WF ∧ c1.size = c.size := by
    rcases C47_memory_safe hc (j2 := 1) (j3 := 1) (m2 := 0) (m3 := 0) (by omega) with ⟨f', c'', e', g1, g2, _⟩ | e' | e' <;>
      rw [e1] at e' <;> cases e'
    exact ⟨g1, g2⟩
  obtain ⟨f2, c2, e2⟩ := C47_returns_small hw1.1 (j2 := 1) (j3 := 1) (m2 := 1) (m3 := -1) (by omega) (by norm_num) (by norm_num)
  refine ⟨c, c2, e, hc, ?_⟩
  simp only [W3Calc.runCalls]
  rw [e1, bind_ok]
  simp only
  rw [e2, bind_ok]

end SF
