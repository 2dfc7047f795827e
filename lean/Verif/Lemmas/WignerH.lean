import Verif.Model.WignerH
import Verif.Lemmas.HRow
import Verif.Props.Recursions

/-!
# The steps of the H recursion compute the H functions
-/

set_option autoImplicit false

namespace SF

/-! ## Arrays -/

/-- Entry `i` of the array is `v`. -/
def At {α : Type} (L : List α) (i : ℤ) (v : α) : Prop := 0 ≤ i ∧ L[i.toNat]? = some v

theorem At.rd {α : Type} {L : List α} {i : ℤ} {v : α} (h : At L i v) : SF.rd L i = .ok v := rd_ok h.1 h.2

theorem At.lt {α : Type} {L : List α} {i : ℤ} {v : α} (h : At L i v) : i < L.length := by
  obtain ⟨h0, h1⟩ := h
  by_contra hc
  rw [List.getElem?_eq_none (by omega)] at h1
  cases h1

theorem wr_at {α : Type} {L : List α} {i : ℤ} (v : α) (h0 : 0 ≤ i) (h1 : i < L.length) :
    ∃ L', wr L i v = .ok L' ∧ L'.length = L.length ∧ At L' i v ∧ ∀ k u, k ≠ i → At L k u → At L' k u := by
  refine ⟨_, wr_ok h0 h1, by simp, ⟨h0, ?_⟩, fun k u hk ⟨hk0, hk1⟩ => ⟨hk0, ?_⟩⟩
  · rw [List.getElem?_set_self (by omega)]
  · rw [List.getElem?_set_ne (by omega)]; exact hk1

theorem upd_at {α : Type} {L : List α} {i : ℤ} {v : α} (f : α → α) (h : At L i v) :
    ∃ L', upd L i f = .ok L' ∧ L'.length = L.length ∧ At L' i (f v) ∧ ∀ k u, k ≠ i → At L k u → At L' k u := by
  refine ⟨_, upd_ok h.1 h.lt, by simp, ⟨h.1, ?_⟩, fun k u hk ⟨hk0, hk1⟩ => ⟨hk0, ?_⟩⟩
  · rw [List.getElem?_modify, h.2]; simp
  · have hne : i.toNat ≠ k.toNat := by have := h.1; omega
    rw [List.getElem?_modify, hk1]; simp [hne]

theorem divR_ok {x y : ℝ} (h : y ≠ 0) : divR x y = .ok (x / y) := by unfold divR; rw [if_neg h]

/-! ## One row -/

/-- Unnormalized and normalized values of the row `m' = 0`. -/
noncomputable def hatR {J : ℕ} (co si : HRow J) (n i : ℕ) : HRow J := fun j => hatI n (co j) (si j) i

noncomputable def rowV {J : ℕ} (co si : HRow J) (n m : ℕ) : HRow J :=
  fun j => si j ^ m * hatI n (co j) (si j) (n - m) / Real.sqrt (4 * n + 2)

theorem h_row2_ok {J : ℕ} {g h : List ℝ} (co si : HRow J) {n : ℕ} (hn : 2 ≤ n) {n0n : ℤ} {H : List (HRow J)}
    (hB : (n : ℤ) ≤ n0n) (hlen : n0n < H.length)
    (hg : ∀ m : ℤ, 0 ≤ m → m < n → rd g (nm_index n m) = .ok (gco n m))
    (hh : ∀ m : ℤ, 0 ≤ m → m < n → rd h (nm_index n m) = .ok (hco n m)) :
    ∃ H', h_row2 g h co si n n0n (nm_index n n) (fun _ => hatTop (n - 1)) H = .ok H' ∧ H'.length = H.length ∧
      At H' n0n (fun _ => hatTop n) ∧ (∀ m : ℕ, m < n → At H' (n0n - n + m) (rowV co si n m)) ∧
      ∀ k u, k < n0n - n ∨ n0n < k → At H k u → At H' k u := by
  have nmi : ∀ i : ℤ, nm_index n n - i = nm_index n (n - i) := fun i => by unfold nm_index; ring
  unfold h_row2
  simp only [nmi]
  rw [hg (n - 1) (by omega) (by omega), bind_ok]
  obtain ⟨H1, e1, l1, a1, f1⟩ := wr_at (L := H) (i := n0n)
    (fun _ : Fin J => Real.sqrt (1 + 0.5 / ((n : ℤ) : ℝ)) * hatTop (n - 1)) (by omega) hlen
  have ht : (fun _ : Fin J => Real.sqrt (1 + 0.5 / ((n : ℤ) : ℝ)) * hatTop (n - 1)) = hatR co si n 0 := by
    funext j
    show _ = hatTop n
    obtain ⟨k, rfl⟩ : ∃ k, n = k + 1 := ⟨n - 1, by omega⟩
    rw [hatTop_succ, Nat.add_sub_cancel]; simp
  rw [e1, bind_ok, a1.rd, bind_ok]
  rw [ht] at a1
  obtain ⟨H2, e2, l2, a2, f2⟩ := wr_at (L := H1) (i := n0n - 1)
    (fun j : Fin J => gco n (n - 1) * co j * (Real.sqrt (1 + 0.5 / ((n : ℤ) : ℝ)) * hatTop (n - 1))) (by omega) (by omega)
  have ht1 : (fun j : Fin J => gco n (n - 1) * co j * (Real.sqrt (1 + 0.5 / ((n : ℤ) : ℝ)) * hatTop (n - 1)))
      = hatR co si n 1 := by
    funext j
    exact congrArg (fun z => gco n (n - 1) * co j * z) (congrFun ht j)
  rw [e2, bind_ok]
  rw [ht1] at a2
  -- loop over m = n-2, ..., 1
  obtain ⟨H3, e3, l3, a3, f3⟩ := forR_inv 2 (n : ℤ) (by omega)
    (fun i (L : List (HRow J)) => L.length = H.length ∧ (∀ k : ℕ, (k : ℤ) < i → At L (n0n - k) (hatR co si n k)) ∧
      ∀ k u, k < n0n - n ∨ n0n < k → At H k u → At L k u) H2
    (fun i H => do
      let gi ← rd g (nm_index n (n - i))
      let hi ← rd h (nm_index n (n - i))
      let x1 ← rd H (n0n - i + 1)
      let x2 ← rd H (n0n - i + 2)
      wr H (n0n - i) (fun j => gi * co j * x1 j - hi * si j ^ 2 * x2 j))
    ⟨by rw [l2, l1], fun k hk => by
        match k with
        | 0 => simpa using f2 _ _ (by omega) a1
        | 1 => simpa using a2
        | k + 2 => omega,
      fun k u hk hu => f2 _ _ (by omega) (f1 _ _ (by omega) hu)⟩
    (fun i L hi1 hi2 ⟨hl, ha, hf⟩ => by
      obtain ⟨k, rfl⟩ : ∃ k : ℕ, i = ((k + 2 : ℕ) : ℤ) := ⟨(i - 2).toNat, by omega⟩
      have x1 := ha (k + 1) (by omega)
      have x2 := ha k (by omega)
      rw [show n0n - ((k + 1 : ℕ) : ℤ) = n0n - ((k + 2 : ℕ) : ℤ) + 1 by push_cast; ring] at x1
      rw [show n0n - ((k : ℕ) : ℤ) = n0n - ((k + 2 : ℕ) : ℤ) + 2 by push_cast; ring] at x2
      rw [hg _ (by omega) (by omega), bind_ok, hh _ (by omega) (by omega), bind_ok, x1.rd, bind_ok, x2.rd, bind_ok]
      obtain ⟨L', e, l, a, f⟩ := wr_at (L := L) (i := n0n - ((k + 2 : ℕ) : ℤ)) (hatR co si n (k + 2)) (by omega) (by omega)
      refine ⟨L', e, by rw [l, hl], fun t ht => ?_, fun t u ht hu => f _ _ (by omega) (hf t u ht hu)⟩
      by_cases hteq : t = k + 2
      · subst hteq; exact a
      · exact f _ _ (by omega) (ha t (by omega)))
  rw [e3, bind_ok]
  simp only [sub_self]
  rw [hg 0 le_rfl (by omega), bind_ok,
    hh 0 le_rfl (by omega), bind_ok]
  obtain ⟨k, rfl⟩ : ∃ k : ℕ, n = k + 2 := ⟨n - 2, by omega⟩
  have x1 := a3 (k + 1) (by omega)
  have x2 := a3 k (by omega)
  rw [show n0n - ((k + 1 : ℕ) : ℤ) = n0n - ((k + 2 : ℕ) : ℤ) + 1 by push_cast; ring] at x1
  rw [show n0n - ((k : ℕ) : ℤ) = n0n - ((k + 2 : ℕ) : ℤ) + 2 by push_cast; ring] at x2
  rw [x1.rd, bind_ok, x2.rd, bind_ok]
  obtain ⟨H4, e4, l4, a4, f4⟩ := wr_at (L := H3) (i := n0n - ((k + 2 : ℕ) : ℤ)) (rowV co si (k + 2) 0) (by omega) (by omega)
  have hv0 : (fun j : Fin J => (gco ((k + 2 : ℕ) : ℤ) 0 * co j * hatR co si (k + 2) (k + 1) j
      - hco ((k + 2 : ℕ) : ℤ) 0 * si j ^ 2 * hatR co si (k + 2) k j) / Real.sqrt (4 * (((k + 2 : ℕ) : ℤ) : ℝ) + 2))
      = rowV co si (k + 2) 0 := by
    funext j
    unfold rowV
    simp only [pow_zero, one_mul, Nat.sub_zero, hatI, hatR, sub_self]
    simp
  rw [hv0, e4, bind_ok]
  -- normalization
  obtain ⟨st, e5, l5, p5, t5, z5, b5, a5, f5⟩ := forR_inv 1 ((k + 2 : ℕ) : ℤ) (by omega)
    (fun i (st : List (HRow J) × HRow J) => st.1.length = H.length ∧
      (st.2 = fun j => 1 / Real.sqrt (4 * (((k + 2 : ℕ) : ℤ) : ℝ) + 2) * si j ^ (i - 1).toNat) ∧
      At st.1 n0n (fun _ => hatTop (k + 2)) ∧ At st.1 (n0n - ((k + 2 : ℕ) : ℤ)) (rowV co si (k + 2) 0) ∧
      (∀ m : ℕ, 1 ≤ m → (m : ℤ) < i → At st.1 (n0n - ((k + 2 : ℕ) : ℤ) + m) (rowV co si (k + 2) m)) ∧
      (∀ m : ℕ, i ≤ m → m < k + 2 → At st.1 (n0n - ((k + 2 : ℕ) : ℤ) + m) (hatR co si (k + 2) (k + 2 - m))) ∧
      ∀ t u, t < n0n - ((k + 2 : ℕ) : ℤ) ∨ n0n < t → At H t u → At st.1 t u)
    (H4, ((fun _ => 1 / Real.sqrt (4 * (((k + 2 : ℕ) : ℤ) : ℝ) + 2)) : HRow J))
    (fun i st => do
      let pre : HRow J := fun j => st.2 j * si j
      let H ← upd st.1 (n0n - ((k + 2 : ℕ) : ℤ) + i) (fun x j => x j * pre j)
      return (H, pre))
    ⟨by rw [l4, l3], by funext j; simp, f4 _ _ (by omega) (by have := a3 0 (by omega); rw [Nat.cast_zero, sub_zero] at this; exact this), a4,
      fun m h1 h2 => by omega, fun m h1 h2 => by
        refine f4 _ _ (by omega) ?_
        have := a3 (k + 2 - m) (by omega)
        rwa [show n0n - ((k + 2 - m : ℕ) : ℤ) = n0n - ((k + 2 : ℕ) : ℤ) + m by omega] at this,
      fun t u ht hu => f4 _ _ (by omega) (f3 t u ht hu)⟩
    (fun i st hi1 hi2 ⟨hl, hp, ht, hz, hb, ha, hf⟩ => by
      obtain ⟨m, rfl⟩ : ∃ m : ℕ, i = m := ⟨i.toNat, by omega⟩
      have hm := ha m le_rfl (by omega)
      obtain ⟨L', e, l, a, f⟩ := upd_at (fun x j => x j * (st.2 j * si j)) hm
      refine ⟨(L', fun j => st.2 j * si j), ?_, by rw [l, hl], ?_, f _ _ (by omega) ht, f _ _ (by omega) hz,
        fun t h1 h2 => ?_, fun t h1 h2 => f _ _ (by omega) (ha t (by omega) h2),
        fun t u h1 hu => f _ _ (by omega) (hf t u h1 hu)⟩
      · simp only [e, bind_ok]; rfl
      · funext j
        simp only [hp]
        rw [show ((m : ℤ) + 1 - 1).toNat = ((m : ℤ) - 1).toNat + 1 by omega, pow_succ]; ring
      · by_cases hteq : t = m
        · subst hteq
          have : (fun j => hatR co si (k + 2) (k + 2 - t) j * (st.2 j * si j)) = rowV co si (k + 2) t := by
            funext j
            simp only [hp, rowV, hatR]
            obtain ⟨t', rfl⟩ : ∃ t', t = t' + 1 := ⟨t - 1, by omega⟩
            rw [show ((t' + 1 : ℕ) : ℤ) - 1 = t' by push_cast; ring, Int.toNat_natCast, pow_succ]
            push_cast; ring
          rw [this] at a; exact a
        · exact f _ _ (by omega) (hb t h1 (by omega)))
  refine ⟨st.1, ?_, l5, t5, fun m hm => ?_, fun t u ht hu => f5 t u ht hu⟩
  · simp only at e5 ⊢
    rw [e5]; rfl
  · by_cases h0 : m = 0
    · subst h0; simpa using z5
    · exact b5 m (by omega) (by omega)

/-! ## What the arrays should contain -/

/-- The row of values `H^{m',m}_n(β_j)`. -/
noncomputable def Hs {J : ℕ} (β : Fin J → ℝ) (n mp m : ℤ) : HRow J :=
  fun j => Hf (Real.cos (β j / 2)) (Real.sin (β j / 2)) n mp m

theorem rowV_eq {J : ℕ} (β : Fin J → ℝ) {n m : ℕ} (h : m ≤ n) :
    rowV (fun j => Real.cos (β j)) (fun j => Real.sin (β j)) n m = Hs β n 0 m := by
  funext j
  have := Hf_hat (β j) n (n - m) (by omega)
  rw [show n - (n - m) = m by omega, show (n : ℤ) - ((n - m : ℕ) : ℤ) = m by omega] at this
  unfold rowV Hs
  have h0 : Real.sqrt (4 * (n : ℝ) + 2) ≠ 0 := (Real.sqrt_pos.2 (by positivity)).ne'
  rw [div_eq_iff h0, this]; ring

theorem top_eq {J : ℕ} (β : Fin J → ℝ) (n : ℕ) :
    (fun j => hatTop n * (Real.sin (β j) ^ n / Real.sqrt (4 * (n : ℝ) + 2))) = Hs β n 0 n := by
  rw [← rowV_eq β le_rfl]
  funext j
  unfold rowV
  rw [Nat.sub_self]
  show _ = Real.sin (β j) ^ n * hatTop n / _
  ring

theorem Hs_symm {J : ℕ} (β : Fin J → ℝ) {n mp m : ℤ} (h1 : |mp| ≤ n) (h2 : |m| ≤ n) : Hs β n m mp = Hs β n mp m :=
  funext fun _ => Hf_symm _ _ h1 h2

theorem Hs_neg {J : ℕ} (β : Fin J → ℝ) {n mp m : ℤ} (h1 : |mp| ≤ n) (h2 : |m| ≤ n) : Hs β n (-mp) (-m) = Hs β n mp m :=
  funext fun _ => Hf_neg _ _ h1 h2

theorem Hs_zero {J : ℕ} (β : Fin J → ℝ) : Hs β 0 0 0 = fun _ => 1 := by
  funext j
  have := Hf_top (Real.cos (β j / 2)) (Real.sin (β j / 2)) 0
  simpa [Hs] using this

/-- What is needed of the index function of the main array. -/
structure GoodIdx (idx : ℤ → ℤ → ℤ → ℤ) (N : ℕ) (size : ℕ) : Prop where
  zero : idx 0 0 0 = 0
  lin : ∀ n mp m i, idx n mp (m + i) = idx n mp m + i
  range : ∀ n mp m, Spec.IsWedge N (n, mp, m) → 0 ≤ idx n mp m ∧ idx n mp m < size
  inj : ∀ n mp m n' mp' m', Spec.IsWedge N (n, mp, m) → Spec.IsWedge N (n', mp', m') → idx n mp m = idx n' mp' m' →
    n = n' ∧ mp = mp' ∧ m = m'

theorem wedge_iff {N : ℕ} {n mp m : ℤ} : Spec.IsWedge N (n, mp, m) ↔ n ≤ N ∧ -m ≤ mp ∧ mp ≤ m ∧ m ≤ n := by
  unfold Spec.IsWedge
  simp only [abs_le]
  omega

/-- What is needed of the coefficient arrays. -/
structure GoodCoef (C : HCoef) (N : ℕ) : Prop where
  n_max : C.n_max = N
  a : ∀ n m : ℤ, 0 ≤ m → m ≤ n → n ≤ N + 1 → rd C.a (nabsm_index n m) = .ok (aco n m)
  b : ∀ n m : ℤ, |m| ≤ n → n ≤ N + 1 → rd C.b (nm_index n m) = .ok (bco n m)
  d : ∀ n m : ℤ, |m| ≤ n → n ≤ N + 1 → rd C.d (nm_index n m) = .ok (dco n m)
  g : ∀ n m : ℤ, 0 ≤ m → m < n → n ≤ N + 1 → rd C.g (nm_index n m) = .ok (gco n m)
  h : ∀ n m : ℤ, 0 ≤ m → m < n → n ≤ N + 1 → rd C.h (nm_index n m) = .ok (hco n m)

theorem GoodIdx.add {idx : ℤ → ℤ → ℤ → ℤ} {N size : ℕ} (G : GoodIdx idx N size) (n mp : ℤ) {i m m' : ℤ} (h : m' = m + i) :
    i + idx n mp m = idx n mp m' := by
  rw [h, G.lin, add_comm]

theorem nm_lt {n n' m m' : ℤ} (h : |m| ≤ n) (h' : |m'| ≤ n') (hlt : n < n') : nm_index n m < nm_index n' m' := by
  rw [abs_le] at h h'
  unfold nm_index
  nlinarith

theorem nm_ne {n n' m m' : ℤ} (h : |m| ≤ n) (h' : |m'| ≤ n') (hne : n ≠ n' ∨ m ≠ m') : nm_index n m ≠ nm_index n' m' := by
  rcases lt_trichotomy n n' with hl | hl | hl
  · exact (nm_lt h h' hl).ne
  · subst hl
    unfold nm_index
    rcases hne with hne | hne
    · exact absurd rfl hne
    · omega
  · exact (nm_lt h' h hl).ne'

theorem nm_range {N : ℕ} {n m : ℤ} (h : |m| ≤ n) (hn : n ≤ N) : 0 ≤ nm_index n m ∧ nm_index n m < ((N + 1) ^ 2 : ℕ) := by
  rw [abs_le] at h
  unfold nm_index
  push_cast
  constructor <;> nlinarith

theorem GoodIdx.row_out {idx : ℤ → ℤ → ℤ → ℤ} {N size : ℕ} (G : GoodIdx idx N size) {n k mp m : ℤ} (hn0 : 0 ≤ n) (hn : n ≤ N)
    (hk : Spec.IsWedge N (k, mp, m)) (hne : k ≠ n) : idx k mp m < idx n 0 n - n ∨ idx n 0 n < idx k mp m := by
  by_contra hc
  push Not at hc
  have h0 := G.lin n 0 0 n
  have h1 := G.lin n 0 0 (idx k mp m - idx n 0 0)
  rw [zero_add] at h0 h1
  have := G.inj k mp m n 0 (idx k mp m - idx n 0 0) hk (wedge_iff.2 (by omega)) (by omega)
  omega

theorem h_step_2_ok {J : ℕ} {idx : ℤ → ℤ → ℤ → ℤ} {N size : ℕ} (hN : 1 ≤ N) (G : GoodIdx idx N size) {C : HCoef}
    (GC : GoodCoef C N) (β : Fin J → ℝ) {A : HArr J} (hw : A.w.length = size) (hv : A.v.length = (N + 1) ^ 2)
    (hx : A.x.length = N + 2) (h0 : At A.w (idx 0 0 0) (Hs β 0 0 0)) :
    ∃ A', h_step_2 idx C.g C.h C.n_max (fun j => Real.cos (β j)) (fun j => Real.sin (β j)) A = .ok A' ∧
      A'.w.length = size ∧ A'.v.length = (N + 1) ^ 2 ∧ A'.x.length = N + 2 ∧
      (∀ n m : ℤ, 0 ≤ m → m ≤ n → n ≤ N → At A'.w (idx n 0 m) (Hs β n 0 m)) ∧
      (∀ m : ℤ, 0 ≤ m → m ≤ N + 1 → At A'.x m (Hs β (N + 1) 0 m)) ∧
      (∀ n : ℤ, 1 ≤ n → n ≤ N → At A'.v (nm_index n 1) (Hs β n 1 0) ∧ At A'.v (nm_index n 0) (Hs β n 0 (-1))) := by
  have W0 : ∀ {n m : ℤ}, 0 ≤ m → m ≤ n → n ≤ N → Spec.IsWedge N (n, 0, m) := fun h1 h2 h3 => wedge_iff.2 (by omega)
  have s01 : ∀ n : ℤ, 1 ≤ n → Hs β n 0 1 = Hs β n 1 0 := fun n hn =>
    Hs_symm β (by rw [abs_le]; omega) (by rw [abs_le]; omega)
  have s0m : ∀ n : ℤ, 1 ≤ n → Hs β n 0 1 = Hs β n 0 (-1) := fun n hn => by
    have := Hs_neg β (n := n) (mp := 0) (m := 1) (by rw [abs_le]; omega) (by rw [abs_le]; omega)
    rw [← this, neg_zero]
  have ne1 : ∀ n : ℤ, 1 ≤ n → |(1 : ℤ)| ≤ n := fun n hn => by rw [abs_le]; omega
  have ne0 : ∀ n : ℤ, 0 ≤ n → |(0 : ℤ)| ≤ n := fun n hn => by rw [abs_le]; omega
  unfold h_step_2
  simp only [GC.n_max]
  -- n = 1
  have r11 := G.range _ _ _ (W0 (n := 1) (m := 1) (by omega) le_rfl (by omega))
  have l10 : idx 1 0 1 - 1 = idx 1 0 0 := by have := G.lin 1 0 0 1; rw [zero_add] at this; omega
  have r10 := G.range _ _ _ (W0 (n := 1) (m := 0) (by omega) (by omega) (by omega))
  obtain ⟨w1, e1, l1, a1, f1⟩ := wr_at (L := A.w) (i := idx 1 0 1) (fun _ : Fin J => Real.sqrt 3) r11.1 (by omega)
  rw [e1, bind_ok, show nm_index 1 1 - 1 = nm_index 1 0 by decide, GC.g 1 0 le_rfl (by omega) (by omega), bind_ok, l10]
  obtain ⟨w2, e2, l2, a2, f2⟩ := wr_at (L := w1) (i := idx 1 0 0) (Hs β 1 0 0) r10.1 (by omega)
  have hv10 : (fun j : Fin J => gco 1 0 * Real.cos (β j) / Real.sqrt 2) = Hs β 1 0 0 := by
    rw [show (Hs β 1 0 0) = Hs β ((1 : ℕ) : ℤ) 0 ((0 : ℕ) : ℤ) from rfl, ← rowV_eq β (by omega)]
    funext j
    unfold rowV
    show _ = Real.sin (β j) ^ 0 * (gco 1 (1 - 1) * Real.cos (β j) * Real.sqrt 3) / Real.sqrt (4 * ((1 : ℕ) : ℝ) + 2)
    rw [show (4 * ((1 : ℕ) : ℝ) + 2) = 2 * 3 by norm_num, Real.sqrt_mul (by norm_num), sub_self]
    have h2 : Real.sqrt 2 ≠ 0 := by positivity
    have h3 : Real.sqrt 3 ≠ 0 := by positivity
    field_simp
  rw [hv10, e2, bind_ok]
  -- main loop
  obtain ⟨A3, e3, lw3, lv3, lx3, p0, p1, p2, p3, p4⟩ := forR_inv 2 ((N : ℤ) + 2) (by omega)
    (fun n (A : HArr J) => A.w.length = size ∧ A.v.length = (N + 1) ^ 2 ∧ A.x.length = N + 2 ∧
      At A.w (idx 0 0 0) (Hs β 0 0 0) ∧
      (∀ k m : ℕ, 1 ≤ k → (k : ℤ) < n → k ≤ N → m < k → At A.w (idx k 0 m) (Hs β k 0 m)) ∧
      (∀ k : ℕ, 1 ≤ k → (k : ℤ) < n → k ≤ N → At A.w (idx k 0 k) (fun _ => hatTop k)) ∧
      (∀ k : ℕ, 2 ≤ k → (k : ℤ) < n → k ≤ N → At A.v (nm_index k 1) (Hs β k 1 0) ∧ At A.v (nm_index k 0) (Hs β k 0 (-1))) ∧
      ((N : ℤ) + 1 < n → (∀ m : ℕ, m ≤ N → At A.x m (Hs β (N + 1) 0 m)) ∧ At A.x (N + 1) (fun _ => hatTop (N + 1))))
    { A with w := w2 }
    (fun n A => do
      let prev ← rd A.w (idx (n - 1) 0 (n - 1))
      if n ≤ (N : ℤ) then do
        let w ← h_row2 C.g C.h (fun j => Real.cos (β j)) (fun j => Real.sin (β j)) n (idx n 0 n) (nm_index n n) prev A.w
        let y ← rd w (idx n 0 1)
        let v ← wr A.v (nm_index n 1) y
        let v ← wr v (nm_index n 0) y
        return { A with w := w, v := v }
      else do
        let x ← h_row2 C.g C.h (fun j => Real.cos (β j)) (fun j => Real.sin (β j)) n n (nm_index n n) prev A.x
        return { A with x := x })
    ⟨by rw [← hw, ← l1, ← l2], hv, hx,
      f2 _ _ (fun h => by have := G.inj _ _ _ _ _ _ (W0 le_rfl le_rfl (by omega)) (W0 le_rfl (by omega) (by omega)) h; omega)
        (f1 _ _ (fun h => by have := G.inj _ _ _ _ _ _ (W0 le_rfl le_rfl (by omega)) (W0 (by omega) le_rfl (by omega)) h; omega) h0),
      fun k m h1 h2 h3 h4 => by
        obtain rfl : k = 1 := by omega
        obtain rfl : m = 0 := by omega
        exact a2,
      fun k h1 h2 h3 => by
        obtain rfl : k = 1 := by omega
        exact f2 _ _ (by push_cast; omega) a1,
      fun k h1 h2 => by omega, fun h => by omega⟩
    (fun n A hn1 hn2 ⟨lw, lv, lx, q0, q1, q2, q3, q4⟩ => by
      obtain ⟨n, rfl⟩ : ∃ k : ℕ, n = k := ⟨n.toNat, by omega⟩
      have hprev := q2 (n - 1) (by omega) (by omega) (by omega)
      rw [show ((n - 1 : ℕ) : ℤ) = (n : ℤ) - 1 by omega] at hprev
      rw [hprev.rd, bind_ok]
      by_cases hle : (n : ℤ) ≤ N
      · rw [if_pos hle]
        have hrow0 := G.lin n 0 0 n
        rw [zero_add] at hrow0
        have rn := G.range _ _ _ (W0 (n := n) (m := n) (by omega) le_rfl hle)
        have r0 := G.range _ _ _ (W0 (n := n) (m := 0) le_rfl (by omega) hle)
        obtain ⟨w', ew, lw', at', av', af'⟩ := h_row2_ok (g := C.g) (h := C.h) (fun j => Real.cos (β j))
          (fun j => Real.sin (β j)) (n := n) (by omega) (n0n := idx n 0 n) (H := A.w) (by omega) (by omega)
          (fun m h1 h2 => GC.g _ _ h1 h2 (by omega)) (fun m h1 h2 => GC.h _ _ h1 h2 (by omega))
        have av : ∀ m : ℕ, m < n → At w' (idx n 0 m) (Hs β n 0 m) := fun m hm => by
          have := av' m hm
          have hl := G.lin n 0 0 m
          rw [zero_add] at hl
          rw [rowV_eq β (by omega), show idx n 0 n - n + m = idx n 0 m by omega] at this
          exact this
        rw [ew, bind_ok]
        have y := av 1 (by omega)
        rw [Nat.cast_one] at y
        rw [y.rd, bind_ok]
        have rv1 := nm_range (N := N) (ne1 n (by omega)) hle
        have rv0 := nm_range (N := N) (ne0 n (by omega)) hle
        obtain ⟨v1, ev1, lv1, av1, fv1⟩ := wr_at (L := A.v) (Hs β n 0 1) rv1.1 (by rw [lv]; exact rv1.2)
        obtain ⟨v2, ev2, lv2, av2, fv2⟩ := wr_at (L := v1) (Hs β n 0 1) rv0.1 (by rw [lv1, lv]; exact rv0.2)
        rw [ev1, bind_ok, ev2, bind_ok]
        refine ⟨_, rfl, by simp only; rw [lw', lw], by simp only; rw [lv2, lv1, lv], lx, ?_, ?_, ?_, ?_, fun h => by omega⟩
        · exact af' _ _ (G.row_out (by omega) hle (W0 le_rfl le_rfl (by omega)) (by omega)) q0
        · intro k m h1 h2 h3 h4
          by_cases hk : k = n
          · subst hk; exact av m h4
          · exact af' _ _ (G.row_out (by omega) hle (W0 (by omega) (by omega) (by omega)) (by omega))
              (q1 k m h1 (by omega) h3 h4)
        · intro k h1 h2 h3
          by_cases hk : k = n
          · subst hk; exact at'
          · exact af' _ _ (G.row_out (by omega) hle (W0 (by omega) (by omega) (by omega)) (by omega))
              (q2 k h1 (by omega) h3)
        · intro k h1 h2 h3
          by_cases hk : k = n
          · subst hk
            refine ⟨fv2 _ _ (nm_ne (ne1 _ (by omega)) (ne0 _ (by omega)) (.inr (by omega))) ?_, ?_⟩
            · rw [← s01 _ (by omega)]; exact av1
            · rw [← s0m _ (by omega)]; exact av2
          · have hk' : (k : ℤ) ≠ n := by omega
            obtain ⟨z1, z2⟩ := q3 k h1 (by omega) h3
            exact ⟨fv2 _ _ (nm_ne (ne1 _ (by omega)) (ne0 _ (by omega)) (.inl hk'))
                (fv1 _ _ (nm_ne (ne1 _ (by omega)) (ne1 _ (by omega)) (.inl hk')) z1),
              fv2 _ _ (nm_ne (ne0 _ (by omega)) (ne0 _ (by omega)) (.inl hk'))
                (fv1 _ _ (nm_ne (ne0 _ (by omega)) (ne1 _ (by omega)) (.inl hk')) z2)⟩
      · rw [if_neg hle]
        obtain rfl : n = N + 1 := by omega
        obtain ⟨x', ex, lx', at', av', af'⟩ := h_row2_ok (g := C.g) (h := C.h) (fun j => Real.cos (β j))
          (fun j => Real.sin (β j)) (n := N + 1) (by omega) (n0n := ((N + 1 : ℕ) : ℤ)) (H := A.x) (by omega) (by omega)
          (fun m h1 h2 => GC.g _ _ h1 h2 (by omega)) (fun m h1 h2 => GC.h _ _ h1 h2 (by omega))
        rw [ex, bind_ok]
        refine ⟨_, rfl, lw, lv, by simp only; rw [lx', lx], q0, ?_, ?_, ?_, fun _ => ⟨?_, ?_⟩⟩
        · intro k m h1 h2 h3 h4; exact q1 k m h1 (by omega) h3 h4
        · intro k h1 h2 h3; exact q2 k h1 (by omega) h3
        · intro k h1 h2 h3; exact q3 k h1 (by omega) h3
        · intro m hm
          have := av' m (by omega)
          rw [rowV_eq β (by omega), sub_self, zero_add] at this
          push_cast at this
          exact this
        · push_cast at at'; exact at')
  rw [e3, bind_ok]
  obtain ⟨px, pt⟩ := p4 (by omega)
  -- normalization of m = n
  obtain ⟨st, e4, l4, r4, u0, u1, u2, u3⟩ := forR_inv 1 ((N : ℤ) + 1) (by omega)
    (fun n (st : List (HRow J) × HRow J) => st.1.length = size ∧ (st.2 = fun j => Real.sin (β j) ^ (n - 1).toNat) ∧
      At st.1 (idx 0 0 0) (Hs β 0 0 0) ∧
      (∀ k m : ℕ, 1 ≤ k → k ≤ N → m < k → At st.1 (idx k 0 m) (Hs β k 0 m)) ∧
      (∀ k : ℕ, n ≤ k → k ≤ N → At st.1 (idx k 0 k) (fun _ => hatTop k)) ∧
      (∀ k : ℕ, 1 ≤ k → (k : ℤ) < n → At st.1 (idx k 0 k) (Hs β k 0 k)))
    (A3.w, ((fun _ => 1) : HRow J))
    (fun n st => do
      let pre : HRow J := fun j => st.2 j * Real.sin (β j)
      let w ← upd st.1 (idx n 0 n) (fun y j => y j * (pre j / Real.sqrt (4 * (n : ℝ) + 2)))
      return (w, pre))
    ⟨lw3, by funext j; simp, p0, fun k m h1 h2 h3 => p1 k m h1 (by omega) h2 h3,
      fun k h1 h2 => p2 k (by omega) (by omega) h2, fun k h1 h2 => by omega⟩
    (fun n st hn1 hn2 ⟨l, hp, z0, z1, z2, z3⟩ => by
      obtain ⟨n, rfl⟩ : ∃ k : ℕ, n = k := ⟨n.toNat, by omega⟩
      obtain ⟨L', e, l', a, f⟩ := upd_at (fun y j => y j * (st.2 j * Real.sin (β j) / Real.sqrt (4 * ((n : ℤ) : ℝ) + 2)))
        (z2 n le_rfl (by omega))
      have hval : (fun j : Fin J => hatTop n * (st.2 j * Real.sin (β j) / Real.sqrt (4 * ((n : ℤ) : ℝ) + 2))) = Hs β n 0 n := by
        rw [← top_eq]
        funext j
        rw [hp]
        simp only
        rw [← pow_succ, show ((n : ℤ) - 1).toNat + 1 = n by omega]; push_cast; rfl
      rw [hval] at a
      have ne : ∀ k m : ℕ, m ≤ k → k ≤ N → ¬ (k = n ∧ m = n) → idx k 0 m ≠ idx n 0 n := fun k m h1 h2 h3 h => by
        have := G.inj _ _ _ _ _ _ (W0 (by omega) (by omega) (by omega)) (W0 (by omega) le_rfl (by omega)) h; omega
      refine ⟨(L', fun j => st.2 j * Real.sin (β j)), ?_, by rw [← l, ← l'], ?_, ?_, ?_, ?_, ?_⟩
      · simp only [e, bind_ok]; rfl
      · funext j
        rw [hp]
        simp only
        rw [← pow_succ]; congr 1; omega
      · exact f _ _ (by have := ne 0 0 le_rfl (by omega) (by omega); simpa using this) z0
      · intro k m h1 h2 h3; exact f _ _ (ne k m (by omega) h2 (by omega)) (z1 k m h1 h2 h3)
      · intro k h1 h2; exact f _ _ (ne k k le_rfl h2 (by omega)) (z2 k (by omega) h2)
      · intro k h1 h2
        by_cases hk : k = n
        · subst hk; exact a
        · exact f _ _ (ne k k le_rfl (by omega) (by omega)) (z3 k h1 (by omega)))
  simp only at e4 ⊢
  rw [e4, bind_ok]
  obtain ⟨x5, e5, l5, a5, f5⟩ := upd_at (fun y j => y j * (st.2 j * Real.sin (β j) / Real.sqrt (4 * (((N : ℤ) + 1 : ℤ) : ℝ) + 2))) pt
  have hval : (fun j : Fin J => hatTop (N + 1) * (st.2 j * Real.sin (β j) / Real.sqrt (4 * (((N : ℤ) + 1 : ℤ) : ℝ) + 2)))
      = Hs β (N + 1) 0 (N + 1) := by
    have := top_eq β (N + 1)
    push_cast at this
    rw [← this]
    funext j
    rw [r4]
    simp only
    rw [← pow_succ, show ((N : ℤ) + 1 - 1).toNat + 1 = N + 1 by omega]; push_cast; rfl
  rw [hval] at a5
  rw [e5, bind_ok]
  have y := u3 1 le_rfl (by omega)
  rw [Nat.cast_one] at y
  rw [y.rd, bind_ok]
  have rv1 := nm_range (N := N) (n := 1) (ne1 1 (by omega)) (by omega)
  have rv0 := nm_range (N := N) (n := 1) (ne0 1 (by omega)) (by omega)
  obtain ⟨v1, ev1, lv1, av1, fv1⟩ := wr_at (L := A3.v) (Hs β 1 0 1) rv1.1 (by rw [lv3]; exact rv1.2)
  obtain ⟨v2, ev2, lv2, av2, fv2⟩ := wr_at (L := v1) (Hs β 1 0 1) rv0.1 (by rw [lv1, lv3]; exact rv0.2)
  rw [ev1, bind_ok, ev2, bind_ok]
  refine ⟨_, rfl, l4, by simp only; rw [lv2, lv1, lv3], by simp only; rw [l5, lx3], ?_, ?_, ?_⟩
  · intro n m h1 h2 h3
    obtain ⟨n, rfl⟩ : ∃ k : ℕ, n = k := ⟨n.toNat, by omega⟩
    obtain ⟨m, rfl⟩ : ∃ k : ℕ, m = k := ⟨m.toNat, by omega⟩
    by_cases hn : n = 0
    · subst hn
      obtain rfl : m = 0 := by omega
      simpa using u0
    · by_cases hm : m = n
      · subst hm; exact u3 m (by omega) (by omega)
      · exact u1 n m (by omega) (by omega) (by omega)
  · intro m h1 h2
    obtain ⟨m, rfl⟩ : ∃ k : ℕ, m = k := ⟨m.toNat, by omega⟩
    by_cases hm : m = N + 1
    · subst hm; push_cast; exact a5
    · exact f5 _ _ (by omega) (px m (by omega))
  · intro n h1 h2
    by_cases hn : n = 1
    · subst hn
      refine ⟨fv2 _ _ (by decide) ?_, ?_⟩
      · rw [← s01 _ (by omega)]; exact av1
      · rw [← s0m _ (by omega)]; exact av2
    · obtain ⟨n, rfl⟩ : ∃ k : ℕ, n = k := ⟨n.toNat, by omega⟩
      obtain ⟨z1, z2⟩ := p3 n (by omega) (by omega) (by omega)
      exact ⟨fv2 _ _ (nm_ne (ne1 _ (by omega)) (ne0 _ (by omega)) (.inl hn))
          (fv1 _ _ (nm_ne (ne1 _ (by omega)) (ne1 _ (by omega)) (.inl hn)) z1),
        fv2 _ _ (nm_ne (ne0 _ (by omega)) (ne0 _ (by omega)) (.inl hn))
          (fv1 _ _ (nm_ne (ne0 _ (by omega)) (ne1 _ (by omega)) (.inl hn)) z2)⟩

/-! ## Steps 3-5 -/

/-- The entries of the wedge that satisfy `S` have their final values. -/
def Kn {J : ℕ} (idx : ℤ → ℤ → ℤ → ℤ) (N : ℕ) (β : Fin J → ℝ) (S : ℤ → ℤ → ℤ → Prop) (w : List (HRow J)) : Prop :=
  ∀ n mp m, Spec.IsWedge N (n, mp, m) → S n mp m → At w (idx n mp m) (Hs β n mp m)

theorem Kn.mono {J : ℕ} {idx : ℤ → ℤ → ℤ → ℤ} {N : ℕ} {β : Fin J → ℝ} {S S' : ℤ → ℤ → ℤ → Prop} {w : List (HRow J)}
    (K : Kn idx N β S w) (h : ∀ n mp m, Spec.IsWedge N (n, mp, m) → S' n mp m → S n mp m) : Kn idx N β S' w :=
  fun n mp m hw hs => K n mp m hw (h n mp m hw hs)

theorem Kn.wr {J : ℕ} {idx : ℤ → ℤ → ℤ → ℤ} {N size : ℕ} (G : GoodIdx idx N size) {β : Fin J → ℝ} {S : ℤ → ℤ → ℤ → Prop}
    {w : List (HRow J)} (K : Kn idx N β S w) (hw : w.length = size) {n mp m : ℤ} (hm : Spec.IsWedge N (n, mp, m)) {i : ℤ}
    (hi : i = idx n mp m) {v : HRow J} (hv : v = Hs β n mp m) :
    ∃ w', SF.wr w i v = .ok w' ∧ w'.length = size ∧
      Kn idx N β (fun n' mp' m' => S n' mp' m' ∨ n' = n ∧ mp' = mp ∧ m' = m) w' := by
  subst hi hv
  obtain ⟨r0, r1⟩ := G.range _ _ _ hm
  obtain ⟨w', e, l, a, f⟩ := wr_at (L := w) (Hs β n mp m) r0 (by rw [hw]; exact r1)
  refine ⟨w', e, by rw [l, hw], fun n' mp' m' hw' hs => ?_⟩
  by_cases hc : n' = n ∧ mp' = mp ∧ m' = m
  · obtain ⟨rfl, rfl, rfl⟩ := hc
    exact a
  · exact f _ _ (fun h => hc (G.inj _ _ _ _ _ _ hw' hm h)) (K _ _ _ hw' (hs.resolve_right hc))

theorem dco_ne {n m : ℤ} (h1 : -n ≤ m) (h2 : m < n) : dco n m ≠ 0 := by
  unfold dco
  have : 0 < (((n - m) * (n + m + 1) : ℤ) : ℝ) := by
    have : 0 < (n - m) * (n + m + 1) := mul_pos (by omega) (by omega)
    exact_mod_cast this
  have h3 := Real.sqrt_pos.2 this
  split <;> positivity

theorem dco_top (n : ℤ) : dco n n = 0 := by unfold dco; simp

theorem bco_ne {n : ℤ} (h1 : 1 ≤ n) : bco (n + 1) 0 ≠ 0 := by
  unfold bco
  rw [if_neg (by omega)]
  have h : 0 < (((n + 1 - 0 - 1) * (n + 1 - 0) : ℤ) : ℝ) / (((2 * (n + 1) - 1) * (2 * (n + 1) + 1) : ℤ) : ℝ) := by
    apply div_pos
    · have : 0 < (n + 1 - 0 - 1) * (n + 1 - 0) := mul_pos (by omega) (by omega)
      exact_mod_cast this
    · have : 0 < (2 * (n + 1) - 1) * (2 * (n + 1) + 1) := mul_pos (by omega) (by omega)
      exact_mod_cast this
  have := Real.sqrt_pos.2 h
  rw [one_mul]
  exact this.ne'

theorem h_step_3_ok {J : ℕ} {idx : ℤ → ℤ → ℤ → ℤ} {N size : ℕ} (G : GoodIdx idx N size) {C : HCoef} (GC : GoodCoef C N)
    (β : Fin J → ℝ) {w x : List (HRow J)} (hw : w.length = size) (K : Kn idx N β (fun _ mp _ => mp = 0) w)
    (hx : ∀ m : ℤ, 0 ≤ m → m ≤ N + 1 → At x m (Hs β (N + 1) 0 m)) :
    ∃ w', h_step_3 idx C.a C.b C.n_max (fun j => Real.cos (β j)) (fun j => Real.sin (β j)) w x = .ok w' ∧ w'.length = size ∧
      Kn idx N β (fun _ mp _ => mp = 0 ∨ mp = 1) w' := by
  unfold h_step_3
  rw [GC.n_max]
  obtain ⟨w', e, l, k⟩ := forR_inv 1 ((N : ℤ) + 1) (by omega)
    (fun n w => w.length = size ∧ Kn idx N β (fun n' mp _ => mp = 0 ∨ mp = 1 ∧ n' < n) w) w
    (fun n w => do
      let b5 ← rd C.b (nm_index (n + 1) 0)
      forL (pyRange 0 n) w fun i w => do
        let b6 ← rd C.b (-i + nm_index (n + 1) 0 - 2)
        let b7 ← rd C.b (i + nm_index (n + 1) 0)
        let a8 ← rd C.a (i + nabsm_index n 1)
        let y2 ← rd (if n + 1 ≤ (N : ℤ) then w else x) (i + (if n + 1 ≤ (N : ℤ) then idx (n + 1) 0 0 else 0) + 2)
        let y0 ← rd (if n + 1 ≤ (N : ℤ) then w else x) (i + (if n + 1 ≤ (N : ℤ) then idx (n + 1) 0 0 else 0))
        let y1 ← rd (if n + 1 ≤ (N : ℤ) then w else x) (i + (if n + 1 ≤ (N : ℤ) then idx (n + 1) 0 0 else 0) + 1)
        let r ← divR 1 b5
        SF.wr w (i + idx n 1 1) (fun j => r * (0.5 * (b6 * (1 - Real.cos (β j)) * y2 j - b7 * (1 + Real.cos (β j)) * y0 j)
          - a8 * Real.sin (β j) * y1 j)))
    ⟨hw, K.mono fun n mp m hw h => by have := wedge_iff.1 hw; omega⟩
    (fun n w hn1 hn2 ⟨l, K⟩ => by
      rw [GC.b (n + 1) 0 (by rw [abs_le]; omega) (by omega), bind_ok]
      obtain ⟨w', e, l', k⟩ := forR_inv 0 n (by omega)
        (fun i w => w.length = size ∧ Kn idx N β (fun n' mp m => mp = 0 ∨ mp = 1 ∧ (n' < n ∨ n' = n ∧ m < 1 + i)) w) w
        (fun i w => do
          let b6 ← rd C.b (-i + nm_index (n + 1) 0 - 2)
          let b7 ← rd C.b (i + nm_index (n + 1) 0)
          let a8 ← rd C.a (i + nabsm_index n 1)
          let y2 ← rd (if n + 1 ≤ (N : ℤ) then w else x) (i + (if n + 1 ≤ (N : ℤ) then idx (n + 1) 0 0 else 0) + 2)
          let y0 ← rd (if n + 1 ≤ (N : ℤ) then w else x) (i + (if n + 1 ≤ (N : ℤ) then idx (n + 1) 0 0 else 0))
          let y1 ← rd (if n + 1 ≤ (N : ℤ) then w else x) (i + (if n + 1 ≤ (N : ℤ) then idx (n + 1) 0 0 else 0) + 1)
          let r ← divR 1 (bco (n + 1) 0)
          SF.wr w (i + idx n 1 1) (fun j => r * (0.5 * (b6 * (1 - Real.cos (β j)) * y2 j - b7 * (1 + Real.cos (β j)) * y0 j)
            - a8 * Real.sin (β j) * y1 j)))
        ⟨l, K.mono fun n mp m hw h => by have := wedge_iff.1 hw; omega⟩
        (fun i w hi1 hi2 ⟨l, K⟩ => by
          have y : ∀ k : ℤ, 0 ≤ k → k ≤ n + 1 → ∀ t, t = (if n + 1 ≤ (N : ℤ) then idx (n + 1) 0 0 else 0) + k →
              rd (if n + 1 ≤ (N : ℤ) then w else x) t = .ok (Hs β (n + 1) 0 k) := fun k hk1 hk2 t ht => by
            subst ht
            by_cases hc : n + 1 ≤ (N : ℤ)
            · simp only [if_pos hc]
              rw [← G.lin, zero_add]
              exact (K _ _ _ (wedge_iff.2 (by omega)) (.inl rfl)).rd
            · simp only [if_neg hc, zero_add]
              obtain rfl : n = N := by omega
              exact (hx k hk1 hk2).rd
          rw [show -i + nm_index (n + 1) 0 - 2 = nm_index (n + 1) (-(i + 1) - 1) by unfold nm_index; ring,
            GC.b _ _ (by rw [abs_le]; omega) (by omega), bind_ok,
            show i + nm_index (n + 1) 0 = nm_index (n + 1) (i + 1 - 1) by unfold nm_index; ring,
            GC.b _ _ (by rw [abs_le]; omega) (by omega), bind_ok,
            show i + nabsm_index n 1 = nabsm_index n (i + 1) by unfold nabsm_index; ring,
            GC.a _ _ (by omega) (by omega) (by omega), bind_ok,
            y (i + 1 + 1) (by omega) (by omega) _ (by ring), bind_ok, y (i + 1 - 1) (by omega) (by omega) _ (by ring), bind_ok,
            y (i + 1) (by omega) (by omega) _ (by ring), bind_ok, divR_ok (bco_ne (by omega)), bind_ok]
          obtain ⟨w', e, l', k⟩ := K.wr G l (n := n) (mp := 1) (m := i + 1) (wedge_iff.2 (by omega)) (i := i + idx n 1 1)
            (by have := G.lin n 1 1 i; rw [add_comm 1 i] at this; omega)
            (v := fun j => 1 / bco (n + 1) 0 * (0.5 * (bco (n + 1) (-(i + 1) - 1) * (1 - Real.cos (β j)) * Hs β (n + 1) 0 (i + 1 + 1) j
              - bco (n + 1) (i + 1 - 1) * (1 + Real.cos (β j)) * Hs β (n + 1) 0 (i + 1 - 1) j)
              - aco n (i + 1) * Real.sin (β j) * Hs β (n + 1) 0 (i + 1) j))
            (by
              funext j
              have h41 := Hf_41 (Real.cos (β j / 2)) (Real.sin (β j / 2)) (Real.cos_sq_add_sin_sq _) (n := n) (m := i + 1)
                (by omega) (by omega)
              rw [cos_half (β j), sin_half (β j)] at h41
              have hb := bco_ne (n := n) (by omega)
              unfold Hs
              rw [one_div, inv_mul_eq_iff_eq_mul₀ hb, h41]
              ring)
          exact ⟨w', e, l', k.mono fun n mp m hw h => by have := wedge_iff.1 hw; omega⟩)
      exact ⟨w', e, l', k.mono fun n mp m hw h => by have := wedge_iff.1 hw; omega⟩)
  exact ⟨w', e, l, k.mono fun n mp m hw h => by have := wedge_iff.1 hw; omega⟩

theorem h_body4_ok {J : ℕ} {idx : ℤ → ℤ → ℤ → ℤ} {N size : ℕ} (G : GoodIdx idx N size) {C : HCoef} (GC : GoodCoef C N)
    (β : Fin J → ℝ) {w v : List (HRow J)} (hw : w.length = size) (hv : v.length = (N + 1) ^ 2) {n mp : ℤ} (h1 : 1 ≤ mp)
    (h2 : mp < n) (hn : n ≤ N) {S : ℤ → ℤ → ℤ → Prop} (K : Kn idx N β S w)
    (hS : ∀ m, S n (mp - 1) m ∧ S n mp m) (hV : At v (nm_index n mp) (Hs β n mp (mp - 1))) :
    ∃ w' v', h_body4 idx C.d n mp (w, v) = .ok (w', v') ∧ w'.length = size ∧ v'.length = (N + 1) ^ 2 ∧
      Kn idx N β (fun n' mp' m' => S n' mp' m' ∨ n' = n ∧ mp' = mp + 1) w' ∧
      At v' (nm_index n (mp + 1)) (Hs β n (mp + 1) mp) ∧ ∀ k u, k ≠ nm_index n (mp + 1) → At v k u → At v' k u := by
  unfold h_body4
  simp only
  have rot : ∀ m : ℤ, |m| ≤ n → Hs β n (mp + 1) m = fun j => 1 / dco n mp *
      (dco n (mp - 1) * Hs β n (mp - 1) m j - dco n (m - 1) * Hs β n mp (m - 1) j + dco n m * Hs β n mp (m + 1) j) := fun m hm => by
    funext j
    have := Hf_rot (Real.cos (β j / 2)) (Real.sin (β j / 2)) (n := n) (mp := mp) (m := m) (by rw [abs_le]; omega) hm
    have hd := dco_ne (n := n) (m := mp) (by omega) (by omega)
    unfold Hs
    rw [one_div, eq_inv_mul_iff_mul_eq₀ hd]
    linarith
  rw [GC.d n mp (by rw [abs_le]; omega) (by omega), bind_ok, GC.d n (mp - 1) (by rw [abs_le]; omega) (by omega), bind_ok,
    divR_ok (dco_ne (by omega) (by omega)), bind_ok, bind_ok, bind_ok,
    (K n (mp - 1) mp (wedge_iff.2 (by omega)) (hS _).1).rd, bind_ok, hV.rd, bind_ok,
    (K n mp (mp + 1) (wedge_iff.2 (by omega)) (hS _).2).rd, bind_ok, ← rot mp (by rw [abs_le]; omega)]
  have rv := nm_range (N := N) (n := n) (m := mp + 1) (by rw [abs_le]; omega) hn
  obtain ⟨v', ev, lv, av, fv⟩ := wr_at (L := v) (Hs β n (mp + 1) mp) rv.1 (by rw [hv]; exact rv.2)
  rw [ev, bind_ok]
  obtain ⟨w1, e1, l1, k1⟩ := forR_inv 1 (n - mp) (by omega)
    (fun i w => w.length = size ∧ Kn idx N β (fun n' mp' m' => S n' mp' m' ∨ n' = n ∧ mp' = mp + 1 ∧ m' < mp + i) w) w
    (fun i w => do
      let d7 ← rd C.d (i + nm_index n (mp - 1))
      let d8 ← rd C.d (i + nm_index n mp)
      let y2 ← rd w (i + idx n (mp - 1) mp)
      let y3 ← rd w (i + idx n mp (mp - 1))
      let y4 ← rd w (i + idx n mp (mp + 1))
      SF.wr w (i + idx n (mp + 1) mp) (fun j => 1 / dco n mp * (dco n (mp - 1) * y2 j - d7 * y3 j + d8 * y4 j)))
    ⟨hw, K.mono fun n' mp' m' hw h => by
      have := wedge_iff.1 hw
      rcases h with h | h
      · exact h
      · omega⟩
    (fun i w hi1 hi2 ⟨l, K⟩ => by
      rw [show i + nm_index n (mp - 1) = nm_index n (mp + i - 1) by unfold nm_index; ring,
        GC.d _ _ (by rw [abs_le]; omega) (by omega), bind_ok,
        show i + nm_index n mp = nm_index n (mp + i) by unfold nm_index; ring,
        GC.d _ _ (by rw [abs_le]; omega) (by omega), bind_ok,
        G.add n (mp - 1) (m' := mp + i) rfl,
        (K n (mp - 1) (mp + i) (wedge_iff.2 (by omega)) (.inl (hS _).1)).rd, bind_ok,
        G.add n mp (m' := mp + i - 1) (by ring),
        (K n mp (mp + i - 1) (wedge_iff.2 (by omega)) (.inl (hS _).2)).rd, bind_ok,
        G.add n mp (m' := mp + i + 1) (by ring),
        (K n mp (mp + i + 1) (wedge_iff.2 (by omega)) (.inl (hS _).2)).rd, bind_ok]
      obtain ⟨w', e, l', k⟩ := K.wr G l (n := n) (mp := mp + 1) (m := mp + i) (wedge_iff.2 (by omega)) (i := i + idx n (mp + 1) mp)
        (G.add n (mp + 1) rfl) (rot (mp + i) (by rw [abs_le]; omega)).symm
      refine ⟨w', e, l', k.mono fun n' mp' m' hw h => ?_⟩
      rcases h with h | h
      · exact .inl (.inl h)
      · by_cases hm : m' = mp + i
        · exact .inr (by omega)
        · exact .inl (.inr (by omega)))
  rw [e1, bind_ok, show n - mp + nm_index n (mp - 1) = nm_index n (n - 1) by unfold nm_index; ring,
    GC.d _ _ (by rw [abs_le]; omega) (by omega), bind_ok,
    G.add n (mp - 1) (m' := n) (by ring),
    (k1 n (mp - 1) n (wedge_iff.2 (by omega)) (.inl (hS _).1)).rd, bind_ok,
    G.add n mp (m' := n - 1) (by ring),
    (k1 n mp (n - 1) (wedge_iff.2 (by omega)) (.inl (hS _).2)).rd, bind_ok]
  obtain ⟨w', e, l', k⟩ := k1.wr G l1 (n := n) (mp := mp + 1) (m := n) (wedge_iff.2 (by omega)) (i := n - mp + idx n (mp + 1) mp)
    (G.add n (mp + 1) (by ring))
    (v := fun j => 1 / dco n mp * (dco n (mp - 1) * Hs β n (mp - 1) n j - dco n (n - 1) * Hs β n mp (n - 1) j))
    (by
      rw [rot n (by rw [abs_le]; omega), dco_top]
      funext j; ring)
  rw [e, bind_ok]
  refine ⟨w', v', rfl, l', by rw [lv, hv], k.mono fun n' mp' m' hw h => ?_, av, fv⟩
  have := wedge_iff.1 hw
  rcases h with h | h
  · exact .inl (.inl h)
  · by_cases hm : m' = n
    · exact .inr (by omega)
    · exact .inl (.inr (by omega))

theorem h_step_4_ok {J : ℕ} {idx : ℤ → ℤ → ℤ → ℤ} {N size : ℕ} (hN : 1 ≤ N) (G : GoodIdx idx N size) {C : HCoef}
    (GC : GoodCoef C N) (β : Fin J → ℝ) {w v : List (HRow J)} (hw : w.length = size) (hv : v.length = (N + 1) ^ 2)
    (K : Kn idx N β (fun _ mp _ => mp = 0 ∨ mp = 1) w)
    (hV : ∀ n : ℤ, 1 ≤ n → n ≤ N → At v (nm_index n 1) (Hs β n 1 0) ∧ At v (nm_index n 0) (Hs β n 0 (-1))) :
    ∃ w' v', h_step_4 idx C.d C.n_max (w, v) = .ok (w', v') ∧ w'.length = size ∧ v'.length = (N + 1) ^ 2 ∧
      Kn idx N β (fun _ mp _ => 0 ≤ mp) w' ∧
      (∀ n : ℤ, 1 ≤ n → n ≤ N → At v' (nm_index n 1) (Hs β n 1 0) ∧ At v' (nm_index n 0) (Hs β n 0 (-1))) := by
  unfold h_step_4
  rw [GC.n_max]
  obtain ⟨⟨w', v'⟩, e, l, lv, k, kv⟩ := forR_inv 2 ((N : ℤ) + 1) (by omega)
    (fun n (st : List (HRow J) × List (HRow J)) => st.1.length = size ∧ st.2.length = (N + 1) ^ 2 ∧
      Kn idx N β (fun n' mp _ => mp = 0 ∨ mp = 1 ∨ 0 ≤ mp ∧ n' < n) st.1 ∧
      ∀ n : ℤ, 1 ≤ n → n ≤ N → At st.2 (nm_index n 1) (Hs β n 1 0) ∧ At st.2 (nm_index n 0) (Hs β n 0 (-1)))
    (w, v) (fun n st => forL (pyRange 1 n) st fun mp st => h_body4 idx C.d n mp st)
    ⟨hw, hv, K.mono fun n mp m hw h => by have := wedge_iff.1 hw; omega, hV⟩
    (fun n st hn1 hn2 ⟨l, lv, k, kv⟩ => by
      obtain ⟨w, v⟩ := st
      obtain ⟨⟨w', v'⟩, e, l', lv', k', kv', ka'⟩ := forR_inv 1 n (by omega)
        (fun i (st : List (HRow J) × List (HRow J)) => st.1.length = size ∧ st.2.length = (N + 1) ^ 2 ∧
          Kn idx N β (fun n' mp _ => mp = 0 ∨ mp = 1 ∨ 0 ≤ mp ∧ (n' < n ∨ n' = n ∧ mp ≤ i)) st.1 ∧
          (∀ n : ℤ, 1 ≤ n → n ≤ N → At st.2 (nm_index n 1) (Hs β n 1 0) ∧ At st.2 (nm_index n 0) (Hs β n 0 (-1))) ∧
          At st.2 (nm_index n i) (Hs β n i (i - 1)))
        (w, v) (fun mp st => h_body4 idx C.d n mp st)
        ⟨l, lv, k.mono fun n mp m hw h => by have := wedge_iff.1 hw; omega, kv, by rw [sub_self]; exact (kv n (by omega) (by omega)).1⟩
        (fun i st hi1 hi2 ⟨l, lv, k, kv, ka⟩ => by
          obtain ⟨w, v⟩ := st
          obtain ⟨w', v', e, l', lv', k', a', f'⟩ := h_body4_ok G GC β (n := n) (mp := i) l lv hi1 hi2 (by omega) k
            (fun m => ⟨.inr (.inr (by omega)), .inr (.inr (by omega))⟩) ka
          refine ⟨(w', v'), e, l', lv', k'.mono fun n mp m hw h => by have := wedge_iff.1 hw; omega, fun t ht1 ht2 => ?_, ?_⟩
          · obtain ⟨z1, z2⟩ := kv t ht1 ht2
            exact ⟨f' _ _ (nm_ne (by rw [abs_le]; omega) (by rw [abs_le]; omega) (.inr (by omega))) z1,
              f' _ _ (nm_ne (by rw [abs_le]; omega) (by rw [abs_le]; omega) (.inr (by omega))) z2⟩
          · rw [add_sub_cancel_right]; exact a')
      exact ⟨(w', v'), e, l', lv', k'.mono fun n mp m hw h => by have := wedge_iff.1 hw; omega, kv'⟩)
  exact ⟨w', v', e, l, lv, k.mono fun n mp m hw h => by have := wedge_iff.1 hw; omega, kv⟩

theorem h_body5_ok {J : ℕ} {idx : ℤ → ℤ → ℤ → ℤ} {N size : ℕ} (G : GoodIdx idx N size) {C : HCoef} (GC : GoodCoef C N)
    (β : Fin J → ℝ) {w v : List (HRow J)} (hw : w.length = size) (hv : v.length = (N + 1) ^ 2) {n mp : ℤ} (h1 : mp ≤ 0)
    (h2 : -n < mp) (hn : n ≤ N) {S : ℤ → ℤ → ℤ → Prop} (K : Kn idx N β S w)
    (hS : ∀ m, S n (mp + 1) m ∧ S n mp m) (hV : At v (nm_index n mp) (Hs β n mp (-mp - 1)))
    (hV1 : At v (nm_index n 1) (Hs β n 1 0)) :
    ∃ w' v', h_body5 idx C.d n mp (w, v) = .ok (w', v') ∧ w'.length = size ∧ v'.length = (N + 1) ^ 2 ∧
      Kn idx N β (fun n' mp' m' => S n' mp' m' ∨ n' = n ∧ mp' = mp - 1) w' ∧
      At v' (nm_index n (mp - 1)) (Hs β n (mp - 1) (-mp)) ∧ ∀ k u, k ≠ nm_index n (mp - 1) → At v k u → At v' k u := by
  unfold h_body5
  simp only
  have rot : ∀ m : ℤ, |m| ≤ n → Hs β n (mp - 1) m = fun j => 1 / dco n (mp - 1) *
      (dco n mp * Hs β n (mp + 1) m j + dco n (m - 1) * Hs β n mp (m - 1) j - dco n m * Hs β n mp (m + 1) j) := fun m hm => by
    funext j
    have := Hf_rot (Real.cos (β j / 2)) (Real.sin (β j / 2)) (n := n) (mp := mp) (m := m) (by rw [abs_le]; omega) hm
    have hd := dco_ne (n := n) (m := mp - 1) (by omega) (by omega)
    unfold Hs
    rw [one_div, eq_inv_mul_iff_mul_eq₀ hd]
    linarith
  have hy2 : (if mp = 0 then rd v (nm_index n (mp + 1)) else rd w (idx n (mp + 1) (-mp))) = .ok (Hs β n (mp + 1) (-mp)) := by
    split
    · next h => subst h; exact hV1.rd
    · exact (K n (mp + 1) (-mp) (wedge_iff.2 (by omega)) (hS _).1).rd
  rw [GC.d n (mp - 1) (by rw [abs_le]; omega) (by omega), bind_ok, GC.d n mp (by rw [abs_le]; omega) (by omega), bind_ok,
    divR_ok (dco_ne (by omega) (by omega)), bind_ok, GC.d n (-mp - 1) (by rw [abs_le]; omega) (by omega), bind_ok,
    GC.d n (-mp) (by rw [abs_le]; omega) (by omega), bind_ok, hy2, bind_ok, hV.rd, bind_ok,
    (K n mp (-mp + 1) (wedge_iff.2 (by omega)) (hS _).2).rd, bind_ok, ← rot (-mp) (by rw [abs_le]; omega)]
  have rv := nm_range (N := N) (n := n) (m := mp - 1) (by rw [abs_le]; omega) hn
  obtain ⟨v', ev, lv, av, fv⟩ := wr_at (L := v) (Hs β n (mp - 1) (-mp)) rv.1 (by rw [hv]; exact rv.2)
  rw [ev, bind_ok]
  obtain ⟨w1, e1, l1, k1⟩ := forR_inv 1 (n + mp) (by omega)
    (fun i w => w.length = size ∧ Kn idx N β (fun n' mp' m' => S n' mp' m' ∨ n' = n ∧ mp' = mp - 1 ∧ m' < -mp + i) w) w
    (fun i w => do
      let d7 ← rd C.d (i + nm_index n (-mp - 1))
      let d8 ← rd C.d (i + nm_index n (-mp))
      let y2 ← rd w (i + idx n (mp + 1) (-mp))
      let y3 ← rd w (i + idx n mp (-mp - 1))
      let y4 ← rd w (i + idx n mp (-mp + 1))
      SF.wr w (i + idx n (mp - 1) (-mp)) (fun j => 1 / dco n (mp - 1) * (dco n mp * y2 j + d7 * y3 j - d8 * y4 j)))
    ⟨hw, K.mono fun n' mp' m' hw h => by
      have := wedge_iff.1 hw
      rcases h with h | h
      · exact h
      · omega⟩
    (fun i w hi1 hi2 ⟨l, K⟩ => by
      rw [show i + nm_index n (-mp - 1) = nm_index n (-mp + i - 1) by unfold nm_index; ring,
        GC.d _ _ (by rw [abs_le]; omega) (by omega), bind_ok,
        show i + nm_index n (-mp) = nm_index n (-mp + i) by unfold nm_index; ring,
        GC.d _ _ (by rw [abs_le]; omega) (by omega), bind_ok,
        G.add n (mp + 1) (m' := -mp + i) rfl,
        (K n (mp + 1) (-mp + i) (wedge_iff.2 (by omega)) (.inl (hS _).1)).rd, bind_ok,
        G.add n mp (m' := -mp + i - 1) (by ring),
        (K n mp (-mp + i - 1) (wedge_iff.2 (by omega)) (.inl (hS _).2)).rd, bind_ok,
        G.add n mp (m' := -mp + i + 1) (by ring),
        (K n mp (-mp + i + 1) (wedge_iff.2 (by omega)) (.inl (hS _).2)).rd, bind_ok]
      obtain ⟨w', e, l', k⟩ := K.wr G l (n := n) (mp := mp - 1) (m := -mp + i) (wedge_iff.2 (by omega))
        (i := i + idx n (mp - 1) (-mp)) (G.add n (mp - 1) rfl) (rot (-mp + i) (by rw [abs_le]; omega)).symm
      refine ⟨w', e, l', k.mono fun n' mp' m' hw h => ?_⟩
      rcases h with h | h
      · exact .inl (.inl h)
      · by_cases hm : m' = -mp + i
        · exact .inr (by omega)
        · exact .inl (.inr (by omega)))
  rw [e1, bind_ok, show n + mp + nm_index n (-mp - 1) = nm_index n (n - 1) by unfold nm_index; ring,
    GC.d _ _ (by rw [abs_le]; omega) (by omega), bind_ok,
    G.add n (mp + 1) (m' := n) (by ring),
    (k1 n (mp + 1) n (wedge_iff.2 (by omega)) (.inl (hS _).1)).rd, bind_ok,
    G.add n mp (m' := n - 1) (by ring),
    (k1 n mp (n - 1) (wedge_iff.2 (by omega)) (.inl (hS _).2)).rd, bind_ok]
  obtain ⟨w', e, l', k⟩ := k1.wr G l1 (n := n) (mp := mp - 1) (m := n) (wedge_iff.2 (by omega)) (i := n + mp + idx n (mp - 1) (-mp))
    (G.add n (mp - 1) (by ring))
    (v := fun j => 1 / dco n (mp - 1) * (dco n mp * Hs β n (mp + 1) n j + dco n (n - 1) * Hs β n mp (n - 1) j))
    (by
      rw [rot n (by rw [abs_le]; omega), dco_top]
      funext j; ring)
  rw [e, bind_ok]
  refine ⟨w', v', rfl, l', by rw [lv, hv], k.mono fun n' mp' m' hw h => ?_, av, fv⟩
  have := wedge_iff.1 hw
  rcases h with h | h
  · exact .inl (.inl h)
  · by_cases hm : m' = n
    · exact .inr (by omega)
    · exact .inl (.inr (by omega))

theorem pyRangeDown_zero (n : ℤ) : pyRangeDown 0 (-n) = (pyRange 0 n).map fun k => -k := by
  unfold pyRangeDown pyRange
  rw [List.map_map]
  rw [show (0 - -n).toNat = (n - 0).toNat by congr 1; ring]
  apply List.map_congr_left
  intro k _
  simp

theorem h_step_5_ok {J : ℕ} {idx : ℤ → ℤ → ℤ → ℤ} {N size : ℕ} (G : GoodIdx idx N size) {C : HCoef}
    (GC : GoodCoef C N) (β : Fin J → ℝ) {w v : List (HRow J)} (hw : w.length = size) (hv : v.length = (N + 1) ^ 2)
    (K : Kn idx N β (fun _ mp _ => 0 ≤ mp) w)
    (hV : ∀ n : ℤ, 1 ≤ n → n ≤ N → At v (nm_index n 1) (Hs β n 1 0) ∧ At v (nm_index n 0) (Hs β n 0 (-1))) :
    ∃ w' v', h_step_5 idx C.d C.n_max (w, v) = .ok (w', v') ∧ w'.length = size ∧ v'.length = (N + 1) ^ 2 ∧
      Kn idx N β (fun _ _ _ => True) w' := by
  unfold h_step_5
  rw [GC.n_max]
  simp only [pyRangeDown_zero, forL_map]
  obtain ⟨⟨w', v'⟩, e, l, lv, k, kv⟩ := forR_inv 0 ((N : ℤ) + 1) (by omega)
    (fun n (st : List (HRow J) × List (HRow J)) => st.1.length = size ∧ st.2.length = (N + 1) ^ 2 ∧
      Kn idx N β (fun n' mp _ => 0 ≤ mp ∨ n' < n) st.1 ∧
      ∀ n : ℤ, 1 ≤ n → n ≤ N → At st.2 (nm_index n 1) (Hs β n 1 0) ∧ At st.2 (nm_index n 0) (Hs β n 0 (-1)))
    (w, v) (fun n st => forL (pyRange 0 n) st fun mp st => h_body5 idx C.d n (-mp) st)
    ⟨hw, hv, K.mono fun n mp m hw h => by have := wedge_iff.1 hw; omega, hV⟩
    (fun n st hn1 hn2 ⟨l, lv, k, kv⟩ => by
      obtain ⟨w, v⟩ := st
      by_cases hn0 : n = 0
      · subst hn0
        exact ⟨(w, v), rfl, l, lv, k.mono fun n mp m hw h => by have := wedge_iff.1 hw; omega, kv⟩
      obtain ⟨⟨w', v'⟩, e, l', lv', k', kv', ka'⟩ := forR_inv 0 n (by omega)
        (fun i (st : List (HRow J) × List (HRow J)) => st.1.length = size ∧ st.2.length = (N + 1) ^ 2 ∧
          Kn idx N β (fun n' mp _ => 0 ≤ mp ∨ n' < n ∨ n' = n ∧ -i ≤ mp) st.1 ∧
          (∀ n : ℤ, 1 ≤ n → n ≤ N → At st.2 (nm_index n 1) (Hs β n 1 0) ∧ At st.2 (nm_index n 0) (Hs β n 0 (-1))) ∧
          At st.2 (nm_index n (-i)) (Hs β n (-i) (- -i - 1)))
        (w, v) (fun mp st => h_body5 idx C.d n (-mp) st)
        ⟨l, lv, k.mono fun n mp m hw h => by have := wedge_iff.1 hw; omega, kv, (kv n (by omega) (by omega)).2⟩
        (fun i st hi1 hi2 ⟨l, lv, k, kv, ka⟩ => by
          obtain ⟨w, v⟩ := st
          obtain ⟨w', v', e, l', lv', k', a', f'⟩ := h_body5_ok G GC β (n := n) (mp := -i) l lv (by omega) (by omega) (by omega) k
            (fun m => ⟨.inr (.inr (by omega)), .inr (.inr (by omega))⟩) ka (kv n (by omega) (by omega)).1
          refine ⟨(w', v'), e, l', lv', k'.mono fun n mp m hw h => by have := wedge_iff.1 hw; omega, fun t ht1 ht2 => ?_, ?_⟩
          · obtain ⟨z1, z2⟩ := kv t ht1 ht2
            exact ⟨f' _ _ (nm_ne (by rw [abs_le]; omega) (by rw [abs_le]; omega) (.inr (by omega))) z1,
              f' _ _ (nm_ne (by rw [abs_le]; omega) (by rw [abs_le]; omega) (.inr (by omega))) z2⟩
          · rw [show -(i + 1) = -i - 1 by ring, show - (-i - 1) - 1 = - -i by ring]; exact a')
      exact ⟨(w', v'), e, l', lv', k'.mono fun n mp m hw h => by have := wedge_iff.1 hw; omega, kv'⟩)
  exact ⟨w', v', e, l, lv, k.mono fun n mp m hw h => by have := wedge_iff.1 hw; omega⟩

theorem h_steps_ok {J : ℕ} {idx : ℤ → ℤ → ℤ → ℤ} {N size : ℕ} (hN : 1 ≤ N) (G : GoodIdx idx N size) {C : HCoef}
    (GC : GoodCoef C N) (β : Fin J → ℝ) {A : HArr J} (hw : A.w.length = size) (hv : A.v.length = (N + 1) ^ 2)
    (hx : A.x.length = N + 2) :
    ∃ A', h_steps idx C (fun j => Real.cos (β j)) (fun j => Real.sin (β j)) A = .ok A' ∧ A'.w.length = size ∧
      A'.v.length = (N + 1) ^ 2 ∧ A'.x.length = N + 2 ∧ Kn idx N β (fun _ _ _ => True) A'.w := by
  unfold h_steps h_step_1
  have r0 := G.range 0 0 0 (wedge_iff.2 (by omega))
  rw [G.zero] at r0
  obtain ⟨w1, e1, l1, a1, -⟩ := wr_at (L := A.w) (i := 0) (fun _ : Fin J => (1 : ℝ)) le_rfl (by rw [hw]; exact r0.2)
  rw [e1, bind_ok]
  obtain ⟨A2, e2, lw2, lv2, lx2, k2, kx2, kv2⟩ := h_step_2_ok hN G GC β (A := { A with w := w1 }) (by rw [← hw, ← l1]) hv hx
    (by rw [G.zero, Hs_zero]; exact a1)
  rw [e2, bind_ok]
  obtain ⟨w3, e3, lw3, k3⟩ := h_step_3_ok G GC β lw2
    (fun n mp m hm h => by subst h; have := wedge_iff.1 hm; exact k2 n m (by omega) (by omega) (by omega)) kx2
  rw [e3, bind_ok]
  obtain ⟨w4, v4, e4, lw4, lv4, k4, kv4⟩ := h_step_4_ok hN G GC β lw3 lv2 k3 kv2
  rw [e4, bind_ok]
  obtain ⟨w5, v5, e5, lw5, lv5, k5⟩ := h_step_5_ok G GC β lw4 lv4 k4 kv4
  simp only
  rw [e5, bind_ok]
  exact ⟨_, rfl, lw5, lv5, lx2, k5⟩

end SF
