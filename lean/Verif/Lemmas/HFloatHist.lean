import Verif.Lemmas.HFloatSteps

/-!
# The H calculators do not read what they have not written

Two runs, with different contents of the arrays, are compared; the operations are arbitrary.
-/

set_option autoImplicit false

namespace SF

/-- Two computations raise the same exception, or both return, with related results. -/
def PyRel {α β : Type} (R : α → β → Prop) : Py α → Py β → Prop
  | .ok a, .ok b => R a b
  | .error e, .error e' => e = e'
  | _, _ => False

theorem PyRel.bind {α β γ δ : Type} {R : α → β → Prop} {S : γ → δ → Prop} {p : Py α} {q : Py β} {f : α → Py γ} {g : β → Py δ}
    (h : PyRel R p q) (hfg : ∀ a b, R a b → PyRel S (f a) (g b)) : PyRel S (p >>= f) (q >>= g) := by
  cases p <;> cases q
  · exact h
  · exact h.elim
  · exact h.elim
  · exact hfg _ _ h

theorem PyRel.eqBind {α γ δ : Type} {S : γ → δ → Prop} {p q : Py α} {f : α → Py γ} {g : α → Py δ}
    (h : p = q) (hfg : ∀ a, PyRel S (f a) (g a)) : PyRel S (p >>= f) (q >>= g) := by
  subst h
  cases p
  · rfl
  · exact hfg _

theorem PyRel.mono {α β : Type} {R R' : α → β → Prop} {p : Py α} {q : Py β} (h : PyRel R p q) (hR : ∀ a b, R a b → R' a b) :
    PyRel R' p q := by
  cases p <;> cases q
  · exact h
  · exact h.elim
  · exact h.elim
  · exact hR _ _ h

theorem forL_rel {σ τ : Type} (a b : ℤ) (hab : a ≤ b) (I : ℤ → σ → τ → Prop) {s : σ} {t : τ}
    {f : ℤ → σ → Py σ} {g : ℤ → τ → Py τ} (h0 : I a s t)
    (hs : ∀ (i : ℤ) (s : σ) (t : τ), a ≤ i → i < b → I i s t → PyRel (I (i + 1)) (f i s) (g i t)) :
    PyRel (I b) (forL (pyRange a b) s f) (forL (pyRange a b) t g) := by
  obtain ⟨n, rfl⟩ : ∃ n : ℕ, b = a + n := ⟨(b - a).toNat, by omega⟩
  induction n with
  | zero =>
    rw [pyRange_empty (by simp)]
    show I (a + (0 : ℕ)) s t
    simpa using h0
  | succ n ih =>
    have h1 := ih (by omega) (fun i s t h1 h2 => hs i s t h1 (by push_cast; omega))
    have e : a + ((n + 1 : ℕ) : ℤ) = (a + n) + 1 := by push_cast; ring
    rw [e, pyRange_succ (by omega), forL_append, forL_append]
    refine h1.bind fun s t hI => ?_
    rw [forL_cons, forL_cons]
    have h2 := hs (a + n) s t (by omega) (by push_cast; omega) hI
    refine h2.bind fun s t hI => ?_
    exact hI

/-- The arrays have length `l` and agree at the positions `K`. -/
def Agree {α : Type} (l : ℕ) (K : ℤ → Prop) (w1 w2 : List α) : Prop := (w1.length = l ∧ w2.length = l) ∧ ∀ i, K i → rd w1 i = rd w2 i

theorem Agree.mono {α : Type} {l : ℕ} {K K' : ℤ → Prop} {w1 w2 : List α} (h : Agree l K w1 w2) (hK : ∀ i, K' i → K i) : Agree l K' w1 w2 :=
  ⟨h.1, fun i hi => h.2 i (hK i hi)⟩

theorem Agree.len {α : Type} {l : ℕ} {K : ℤ → Prop} {w1 w2 : List α} (h : Agree l K w1 w2) : w1.length = w2.length := h.1.1.trans h.1.2.symm

theorem Agree.wr {α : Type} {l : ℕ} {K : ℤ → Prop} {w1 w2 : List α} (h : Agree l K w1 w2) (i : ℤ) (v : α) :
    PyRel (Agree l fun k => K k ∨ k = i) (SF.wr w1 i v) (SF.wr w2 i v) := by
  unfold SF.wr
  rw [h.len]
  cases hi : npIdx w2.length i with
  | none => rfl
  | some k =>
    show Agree _ _ (w1.set k v) (w2.set k v)
    refine ⟨⟨by simp [h.1.1], by simp [h.1.2]⟩, fun j hj => ?_⟩
    unfold SF.rd
    simp only [List.length_set, h.len]
    cases hj' : npIdx w2.length j with
    | none => rfl
    | some t =>
      simp only
      by_cases hkt : k = t
      · subst hkt
        have : (w1.set k v)[k]? = (w2.set k v)[k]? := by
          rw [List.getElem?_set, List.getElem?_set, h.len]; simp
        rw [this]
      · rw [List.getElem?_set_ne hkt, List.getElem?_set_ne hkt]
        rcases hj with hj | rfl
        · have := h.2 j hj
          unfold SF.rd at this
          rw [h.len, hj'] at this
          exact this
        · rw [hi] at hj'; cases hj'; exact absurd rfl hkt

theorem rd_some {α : Type} {w : List α} {i : ℤ} {k : ℕ} (h : npIdx w.length i = some k) :
    ∃ v, SF.rd w i = .ok v ∧ w[k]? = some v := by
  have hk : k < w.length := by
    unfold npIdx at h
    split_ifs at h <;> cases h <;> omega
  refine ⟨w[k], ?_, List.getElem?_eq_getElem hk⟩
  unfold SF.rd
  rw [h]
  simp only [List.getElem?_eq_getElem hk]

theorem Agree.upd {α : Type} {l : ℕ} {K : ℤ → Prop} {w1 w2 : List α} (h : Agree l K w1 w2) (i : ℤ) (f : α → α) :
    PyRel (Agree l K) (SF.upd w1 i f) (SF.upd w2 i f) := by
  unfold SF.upd
  rw [h.len]
  cases hk : npIdx w2.length i with
  | none => rfl
  | some k =>
    show Agree _ _ (w1.modify k f) (w2.modify k f)
    refine ⟨⟨by simp [h.1.1], by simp [h.1.2]⟩, fun j hj => ?_⟩
    have gen : ∀ t, w1[t]? = w2[t]? → (w1.modify k f)[t]? = (w2.modify k f)[t]? := fun t ht => by
      rw [List.getElem?_modify, List.getElem?_modify, ht]
    have val : ∀ j, K j → ∀ t, npIdx w2.length j = some t → w1[t]? = w2[t]? := fun j hj t ht => by
      obtain ⟨v2, q1, q2⟩ := rd_some ht
      obtain ⟨v1, q3, q4⟩ := rd_some (w := w1) (i := j) (k := t) (by rw [h.len]; exact ht)
      rw [q2, q4]
      have := h.2 j hj
      rw [q1, q3] at this
      cases this; rfl
    unfold SF.rd
    simp only [List.length_modify, h.len]
    cases hj' : npIdx w2.length j with
    | none => rfl
    | some t =>
      simp only
      rw [gen t (val j hj t hj')]

section
variable {J l lv lx : ℕ} {F : W3Ops} {co si : HRow J}

theorem h_row2F_rel {g g' h h' : List ℝ} {n n0n nn : ℤ} (hn : 2 ≤ n) {prev : HRow J} {K : ℤ → Prop} {H H' : List (HRow J)}
    (hg : ∀ i, 1 ≤ i → i ≤ n → rd g (nn - i) = rd g' (nn - i)) (hh : ∀ i, 1 ≤ i → i ≤ n → rd h (nn - i) = rd h' (nn - i))
    (hA : Agree l K H H') :
    PyRel (Agree l fun k => K k ∨ n0n - n ≤ k ∧ k ≤ n0n) (h_row2F F g h co si n n0n nn prev H) (h_row2F F g' h' co si n n0n nn prev H') := by
  unfold h_row2F
  refine PyRel.eqBind (hg 1 le_rfl (by omega)) fun gi => ?_
  refine PyRel.bind (hA.wr n0n _) fun H H' hA => ?_
  refine PyRel.eqBind (hA.2 _ (.inr rfl)) fun x => ?_
  refine PyRel.bind (hA.wr (n0n - 1) _) fun H H' hA => ?_
  refine PyRel.bind (forL_rel 2 n hn (fun i => Agree l fun k => K k ∨ n0n - i < k ∧ k ≤ n0n) (hA.mono ?_) ?_) fun H H' hA => ?_
  · intro k hk
    rcases hk with hk | hk
    · exact .inl (.inl hk)
    · by_cases h1 : k = n0n
      · exact .inl (.inr h1)
      · exact .inr (by omega)
  · intro i H H' hi1 hi2 hA
    refine PyRel.eqBind (hg i (by omega) (by omega)) fun gi => ?_
    refine PyRel.eqBind (hh i (by omega) (by omega)) fun hi => ?_
    refine PyRel.eqBind (hA.2 _ (.inr (by omega))) fun x1 => ?_
    refine PyRel.eqBind (hA.2 _ (.inr (by omega))) fun x2 => ?_
    refine (hA.wr _ _).mono fun _ _ h => h.mono fun k hk => ?_
    rcases hk with hk | hk
    · exact .inl (.inl hk)
    · by_cases h1 : k = n0n - i
      · exact .inr h1
      · exact .inl (.inr (by omega))
  refine PyRel.eqBind (hg n (by omega) (by omega)) fun gi => ?_
  refine PyRel.eqBind (hh n (by omega) (by omega)) fun hi => ?_
  refine PyRel.eqBind (hA.2 _ (.inr (by omega))) fun x1 => ?_
  refine PyRel.eqBind (hA.2 _ (.inr (by omega))) fun x2 => ?_
  refine PyRel.bind (hA.wr _ _) fun H H' hA => ?_
  refine PyRel.bind (forL_rel 1 n (by omega)
    (fun _ (s t : List (HRow J) × HRow J) => Agree l (fun k => K k ∨ n0n - n ≤ k ∧ k ≤ n0n) s.1 t.1 ∧ s.2 = t.2) ⟨hA.mono ?_, rfl⟩ ?_)
    fun s t hst => ?_
  · intro k hk
    rcases hk with hk | hk
    · exact .inl (.inl hk)
    · by_cases h1 : k = n0n - n
      · exact .inr h1
      · exact .inl (.inr (by omega))
  · rintro i ⟨H, p⟩ ⟨H', p'⟩ hi1 hi2 ⟨hA, rfl⟩
    refine PyRel.bind (hA.upd _ _) fun H H' hA => ?_
    exact ⟨hA, rfl⟩
  · exact hst.1

/-- Agreement at the positions `idx n m' m` with `S n m' m`. -/
abbrev KR (l : ℕ) (idx : ℤ → ℤ → ℤ → ℤ) (S : ℤ → ℤ → ℤ → Prop) (w1 w2 : List (HRow J)) : Prop :=
  Agree l (fun k => ∃ n mp m, S n mp m ∧ k = idx n mp m) w1 w2

theorem KR.to {idx : ℤ → ℤ → ℤ → ℤ} {S S' : ℤ → ℤ → ℤ → Prop} {w1 w2 : List (HRow J)} (h : KR l idx S w1 w2)
    (hS : ∀ n mp m, S' n mp m → S n mp m) : KR l idx S' w1 w2 :=
  h.mono fun _ ⟨n, mp, m, h1, h2⟩ => ⟨n, mp, m, hS _ _ _ h1, h2⟩

theorem KR.rd {idx : ℤ → ℤ → ℤ → ℤ} {S : ℤ → ℤ → ℤ → Prop} {w1 w2 : List (HRow J)} (h : KR l idx S w1 w2) {n mp m i : ℤ} (hS : S n mp m)
    (hi : i = idx n mp m) : SF.rd w1 i = SF.rd w2 i := h.2 _ ⟨n, mp, m, hS, hi⟩

theorem KR.wr {idx : ℤ → ℤ → ℤ → ℤ} {S S' : ℤ → ℤ → ℤ → Prop} {w1 w2 : List (HRow J)} (h : KR l idx S w1 w2) {n mp m i : ℤ}
    (hi : i = idx n mp m) (hS : ∀ n' mp' m', S' n' mp' m' → S n' mp' m' ∨ n' = n ∧ mp' = mp ∧ m' = m) (v : HRow J) :
    PyRel (KR l idx S') (SF.wr w1 i v) (SF.wr w2 i v) :=
  (Agree.wr h i v).mono fun _ _ h => h.mono fun k ⟨n', mp', m', h1, h2⟩ => by
    rcases hS _ _ _ h1 with h3 | ⟨rfl, rfl, rfl⟩
    · exact .inl ⟨n', mp', m', h3, h2⟩
    · exact .inr (by rw [h2, hi])

/-- Agreement of the arrays `Hv` at the positions `(n, m)` with `S n m`. -/
abbrev KV (l : ℕ) (S : ℤ → ℤ → Prop) (w1 w2 : List (HRow J)) : Prop := Agree l (fun k => ∃ n m, S n m ∧ k = nm_index n m) w1 w2

theorem KV.to {S S' : ℤ → ℤ → Prop} {w1 w2 : List (HRow J)} (h : KV lv S w1 w2) (hS : ∀ n m, S' n m → S n m) : KV lv S' w1 w2 :=
  h.mono fun _ ⟨n, m, h1, h2⟩ => ⟨n, m, hS _ _ h1, h2⟩

theorem KV.rd {S : ℤ → ℤ → Prop} {w1 w2 : List (HRow J)} (h : KV lv S w1 w2) {n m : ℤ} (hS : S n m) :
    SF.rd w1 (nm_index n m) = SF.rd w2 (nm_index n m) := h.2 _ ⟨n, m, hS, rfl⟩

theorem KV.wr {S S' : ℤ → ℤ → Prop} {w1 w2 : List (HRow J)} (h : KV lv S w1 w2) {n m : ℤ}
    (hS : ∀ n' m', S' n' m' → S n' m' ∨ n' = n ∧ m' = m) (v : HRow J) :
    PyRel (KV lv S') (SF.wr w1 (nm_index n m) v) (SF.wr w2 (nm_index n m) v) :=
  (Agree.wr h _ v).mono fun _ _ h => h.mono fun k ⟨n', m', h1, h2⟩ => by
    rcases hS _ _ h1 with h3 | ⟨rfl, rfl⟩
    · exact .inl ⟨n', m', h3, h2⟩
    · exact .inr h2

/-- The linearity of the index function in `m`. -/
abbrev Lin (idx : ℤ → ℤ → ℤ → ℤ) : Prop := ∀ n mp m i, idx n mp (m + i) = idx n mp m + i

theorem Lin.eq {idx : ℤ → ℤ → ℤ → ℤ} (L : Lin idx) (n mp : ℤ) {m m' i : ℤ} (h : m' = m + i) : i + idx n mp m = idx n mp m' := by
  rw [h, L]; ring

variable {idx : ℤ → ℤ → ℤ → ℤ}

theorem h_step_2F_rel (L : Lin idx) {N : ℤ} (hN : 1 ≤ N) {g g' h h' : List ℝ}
    (hg : ∀ n m, 0 ≤ m → m < n → n ≤ N + 1 → rd g (nm_index n m) = rd g' (nm_index n m))
    (hh : ∀ n m, 0 ≤ m → m < n → n ≤ N + 1 → rd h (nm_index n m) = rd h' (nm_index n m)) {A A' : HArr J}
    (hw : KR l idx (fun n mp m => n = 0 ∧ mp = 0 ∧ m = 0) A.w A'.w) (hv : A.v.length = lv ∧ A'.v.length = lv)
    (hx : A.x.length = lx ∧ A'.x.length = lx) :
    PyRel (fun B B' => KR l idx (fun n mp m => mp = 0 ∧ 0 ≤ m ∧ m ≤ n ∧ n ≤ N) B.w B'.w ∧ Agree lx (fun k => 0 ≤ k ∧ k ≤ N + 1) B.x B'.x ∧
        KV lv (fun n m => 1 ≤ n ∧ n ≤ N ∧ (m = 0 ∨ m = 1)) B.v B'.v)
      (h_step_2F F idx g h N co si A) (h_step_2F F idx g' h' N co si A') := by
  have nmi : ∀ n i : ℤ, nm_index n n - i = nm_index n (n - i) := fun n i => by unfold nm_index; ring
  unfold h_step_2F
  refine PyRel.bind (hw.wr (n := 1) (mp := 0) (m := 1) rfl (S' := fun n mp m => mp = 0 ∧ (n = 0 ∧ m = 0 ∨ n = 1 ∧ m = 1)) (by omega) _)
    fun w w' hw => ?_
  refine PyRel.eqBind (by rw [nmi]; exact hg _ _ (by omega) (by omega) (by omega)) fun gi => ?_
  refine PyRel.bind (hw.wr (n := 1) (mp := 0) (m := 0) (by have := L 1 0 0 1; rw [zero_add] at this; omega)
    (S' := fun n mp m => mp = 0 ∧ 0 ≤ m ∧ m ≤ n ∧ n < 2) (by omega) _) fun w w' hw => ?_
  refine PyRel.bind (forL_rel 2 (N + 2) (by omega) (fun i (B B' : HArr J) =>
    KR l idx (fun n mp m => mp = 0 ∧ 0 ≤ m ∧ m ≤ n ∧ n < i ∧ n ≤ N) B.w B'.w ∧ (B.x.length = lx ∧ B'.x.length = lx) ∧
    (N + 1 < i → Agree lx (fun k => 0 ≤ k ∧ k ≤ N + 1) B.x B'.x) ∧
        KV lv (fun n m => 2 ≤ n ∧ n < i ∧ n ≤ N ∧ (m = 0 ∨ m = 1)) B.v B'.v) ⟨hw.to (by omega), hx, fun h => by omega, hv, ?_⟩ ?_)
    fun B B' ⟨hw, hx', hx, hv⟩ => ?_
  · rintro k ⟨n, m, h1, h2⟩; omega
  · rintro n ⟨w, v, x⟩ ⟨w', v', x'⟩ hn1 hn2 ⟨hw, hx', hx, hv⟩
    simp only at hw hx hx' hv ⊢
    refine PyRel.eqBind (hw.rd (n := n - 1) (mp := 0) (m := n - 1) (by omega) rfl) fun prev => ?_
    have hg1 : ∀ i, 1 ≤ i → i ≤ n → rd g (nm_index n n - i) = rd g' (nm_index n n - i) := fun i h1 h2 => by
      rw [nmi]; exact hg _ _ (by omega) (by omega) (by omega)
    have hh1 : ∀ i, 1 ≤ i → i ≤ n → rd h (nm_index n n - i) = rd h' (nm_index n n - i) := fun i h1 h2 => by
      rw [nmi]; exact hh _ _ (by omega) (by omega) (by omega)
    split
    · next hc =>
      refine PyRel.bind (h_row2F_rel hn1 hg1 hh1 hw) fun w w' hw' => ?_
      have hw2 : KR l idx (fun n' mp m => mp = 0 ∧ 0 ≤ m ∧ m ≤ n' ∧ n' < n + 1 ∧ n' ≤ N) w w' := hw'.mono fun k ⟨n', mp, m, h1, h2⟩ => by
        by_cases hc : n' = n
        · right
          obtain ⟨rfl, h3⟩ := h1
          subst hc
          have e := L n' 0 m (n' - m)
          rw [add_sub_cancel] at e
          clear hw hw' hv hx
          omega
        · exact .inl ⟨n', mp, m, by omega, h2⟩
      refine PyRel.eqBind (hw2.rd (n := n) (mp := 0) (m := 1) (by omega) rfl) fun y => ?_
      refine PyRel.bind (hv.wr (n := n) (m := 1)
        (S' := fun n' m => 2 ≤ n' ∧ n' < n + 1 ∧ n' ≤ N ∧ (n' = n → m = 1) ∧ (m = 0 ∨ m = 1)) (by omega) _) fun v v' hv => ?_
      refine PyRel.bind (hv.wr (n := n) (m := 0)
        (S' := fun n' m => 2 ≤ n' ∧ n' < n + 1 ∧ n' ≤ N ∧ (m = 0 ∨ m = 1)) (by omega) _) fun v v' hv => ?_
      exact ⟨hw2, hx', fun h => by omega, hv⟩
    · next hc =>
      obtain rfl : n = N + 1 := by omega
      have hx0 : Agree lx (fun _ => False) x x' := ⟨hx', fun _ h => h.elim⟩
      refine PyRel.bind (h_row2F_rel (n0n := N + 1) hn1 hg1 hh1 hx0) fun x x' hx => ?_
      exact ⟨hw.to (by omega), hx.1, fun _ => hx.mono fun k hk => .inr (by omega), hv.to (by omega)⟩
  refine PyRel.bind (forL_rel 1 (N + 1) (by omega)
    (fun _ (s t : List (HRow J) × HRow J) => KR l idx (fun n mp m => mp = 0 ∧ 0 ≤ m ∧ m ≤ n ∧ n ≤ N) s.1 t.1 ∧ s.2 = t.2)
    ⟨hw.to (by omega), rfl⟩ ?_) ?_
  · rintro i ⟨H, p⟩ ⟨H', p'⟩ hi1 hi2 ⟨hA, rfl⟩
    refine PyRel.bind (Agree.upd hA _ _) fun H H' hA => ?_
    exact ⟨hA, rfl⟩
  · rintro ⟨w, p⟩ ⟨w', p'⟩ ⟨hw, rfl⟩
    simp only at hw ⊢
    refine PyRel.bind (Agree.upd (hx (by omega)) _ _) fun x x' hx => ?_
    refine PyRel.eqBind (hw.rd (n := 1) (mp := 0) (m := 1) (by omega) rfl) fun y => ?_
    refine PyRel.bind (hv.wr (n := 1) (m := 1) (S' := fun n m => 1 ≤ n ∧ n ≤ N ∧ (n = 1 → m = 1) ∧ (m = 0 ∨ m = 1)) (by omega) _)
      fun v v' hv => ?_
    refine PyRel.bind (hv.wr (n := 1) (m := 0) (S' := fun n m => 1 ≤ n ∧ n ≤ N ∧ (m = 0 ∨ m = 1)) (by omega) _) fun v v' hv => ?_
    exact ⟨hw, hx, hv⟩

theorem h_step_3F_rel (L : Lin idx) {N : ℤ} (hN : 1 ≤ N) {a b : List ℝ} {w w' x x' : List (HRow J)}
    (hw : KR l idx (fun n mp m => mp = 0 ∧ 0 ≤ m ∧ m ≤ n ∧ n ≤ N) w w') (hx : Agree lx (fun k => 0 ≤ k ∧ k ≤ N + 1) x x') :
    PyRel (KR l idx (fun n mp m => (mp = 0 ∨ mp = 1) ∧ mp ≤ m ∧ m ≤ n ∧ n ≤ N))
      (h_step_3F F idx a b N co si w x) (h_step_3F F idx a b N co si w' x') := by
  unfold h_step_3F
  refine (forL_rel 1 (N + 1) (by omega)
    (fun i => KR l idx (fun n mp m => (mp = 0 ∨ mp = 1 ∧ n < i) ∧ mp ≤ m ∧ m ≤ n ∧ n ≤ N)) (hw.to (by omega)) ?_).mono
    fun _ _ h => h.to (by omega)
  intro n w w' hn1 hn2 hw
  refine PyRel.eqBind rfl fun b5 => ?_
  refine (forL_rel 0 n (by omega)
    (fun i => KR l idx (fun n' mp m => (mp = 0 ∨ mp = 1 ∧ (n' < n ∨ n' = n ∧ m < 1 + i)) ∧ mp ≤ m ∧ m ≤ n' ∧ n' ≤ N))
    (hw.to (by omega)) ?_).mono fun _ _ h => h.to (by omega)
  intro i w w' hi1 hi2 hw
  refine PyRel.eqBind rfl fun b6 => PyRel.eqBind rfl fun b7 => PyRel.eqBind rfl fun a8 => ?_
  have y : ∀ k : ℤ, 0 ≤ k → k ≤ n + 1 → ∀ t, t = (if n + 1 ≤ N then idx (n + 1) 0 0 else 0) + k →
      rd (if n + 1 ≤ N then w else x) t = rd (if n + 1 ≤ N then w' else x') t := fun k hk1 hk2 t ht => by
    subst ht
    by_cases hc : n + 1 ≤ N
    · simp only [if_pos hc]
      exact hw.rd (n := n + 1) (mp := 0) (m := k) (by omega) (by rw [← L, zero_add])
    · simp only [if_neg hc, zero_add]
      exact hx.2 _ (by omega)
  refine PyRel.eqBind (y (i + 2) (by omega) (by omega) _ (by ring)) fun y2 => ?_
  refine PyRel.eqBind (y i (by omega) (by omega) _ (by ring)) fun y0 => ?_
  refine PyRel.eqBind (y (i + 1) (by omega) (by omega) _ (by ring)) fun y1 => ?_
  refine PyRel.eqBind rfl fun r => ?_
  exact hw.wr (n := n) (mp := 1) (m := 1 + i) (L.eq n 1 rfl) (by omega) _

theorem h_body4F_rel (L : Lin idx) {d : List ℝ} {n mp : ℤ} (h1 : 1 ≤ mp) (h2 : mp < n) {S : ℤ → ℤ → ℤ → Prop}
    {w w' v v' : List (HRow J)} (hw : KR l idx S w w') {T : ℤ → ℤ → Prop} (hv : KV lv T v v')
    (hS0 : ∀ m, mp - 1 ≤ m → m ≤ n → S n (mp - 1) m) (hS1 : ∀ m, mp ≤ m → m ≤ n → S n mp m) (hT : T n mp) :
    PyRel (fun s t => KR l idx (fun n' mp' m' => S n' mp' m' ∨ n' = n ∧ mp' = mp + 1 ∧ mp' ≤ m' ∧ m' ≤ n) s.1 t.1 ∧
        KV lv (fun n' m' => T n' m' ∨ n' = n ∧ m' = mp + 1) s.2 t.2)
      (h_body4F F idx d n mp (w, v)) (h_body4F F idx d n mp (w', v')) := by
  unfold h_body4F
  refine PyRel.eqBind rfl fun d5 => PyRel.eqBind rfl fun d6 => PyRel.eqBind rfl fun r => PyRel.eqBind rfl fun d7 =>
    PyRel.eqBind rfl fun d8 => ?_
  refine PyRel.eqBind (hw.rd (hS0 mp (by omega) (by omega)) rfl) fun y2 => ?_
  refine PyRel.eqBind (hv.rd hT) fun y3 => ?_
  refine PyRel.eqBind (hw.rd (hS1 (mp + 1) (by omega) (by omega)) rfl) fun y4 => ?_
  refine PyRel.bind (hv.wr (n := n) (m := mp + 1) (S' := fun n' m' => T n' m' ∨ n' = n ∧ m' = mp + 1) (fun _ _ h => h) _) fun v v' hv => ?_
  refine PyRel.bind (forL_rel 1 (n - mp) (by omega)
    (fun i => KR l idx (fun n' mp' m' => S n' mp' m' ∨ n' = n ∧ mp' = mp + 1 ∧ mp' ≤ m' ∧ m' < mp + i)) (hw.to ?_) ?_) fun w w' hw => ?_
  · rintro n' mp' m' (h | h)
    · exact h
    · omega
  · intro i w w' hi1 hi2 hw
    refine PyRel.eqBind rfl fun d7 => PyRel.eqBind rfl fun d8 => ?_
    refine PyRel.eqBind (hw.rd (.inl (hS0 (mp + i) (by omega) (by omega))) (L.eq _ _ rfl)) fun y2 => ?_
    refine PyRel.eqBind (hw.rd (.inl (hS1 (mp + i - 1) (by omega) (by omega))) (L.eq _ _ (by ring))) fun y3 => ?_
    refine PyRel.eqBind (hw.rd (.inl (hS1 (mp + i + 1) (by omega) (by omega))) (L.eq _ _ (by ring))) fun y4 => ?_
    refine hw.wr (n := n) (mp := mp + 1) (m := mp + i) (L.eq _ _ rfl) ?_ _
    rintro n' mp' m' (h | h)
    · exact .inl (.inl h)
    · by_cases hm : m' = mp + i
      · exact .inr (by omega)
      · exact .inl (.inr (by omega))
  refine PyRel.eqBind rfl fun d7 => ?_
  refine PyRel.eqBind (hw.rd (.inl (hS0 n (by omega) (by omega))) (L.eq _ _ (by ring))) fun y2 => ?_
  refine PyRel.eqBind (hw.rd (.inl (hS1 (n - 1) (by omega) (by omega))) (L.eq _ _ (by ring))) fun y3 => ?_
  refine PyRel.bind (hw.wr (n := n) (mp := mp + 1) (m := n) (L.eq _ _ (by ring))
    (S' := fun n' mp' m' => S n' mp' m' ∨ n' = n ∧ mp' = mp + 1 ∧ mp' ≤ m' ∧ m' ≤ n) ?_ _) fun w w' hw => ?_
  · rintro n' mp' m' (h | h)
    · exact .inl (.inl h)
    · by_cases hm : m' = n
      · exact .inr (by omega)
      · exact .inl (.inr (by omega))
  · exact ⟨hw, hv⟩

theorem h_step_4F_rel (L : Lin idx) {N : ℤ} (hN : 1 ≤ N) {d : List ℝ} {w w' v v' : List (HRow J)}
    (hw : KR l idx (fun n mp m => (mp = 0 ∨ mp = 1) ∧ mp ≤ m ∧ m ≤ n ∧ n ≤ N) w w')
    (hv : KV lv (fun n m => 1 ≤ n ∧ n ≤ N ∧ (m = 0 ∨ m = 1)) v v') :
    PyRel (fun s t => KR l idx (fun n mp m => 0 ≤ mp ∧ mp ≤ m ∧ m ≤ n ∧ n ≤ N) s.1 t.1 ∧
        KV lv (fun n m => 1 ≤ n ∧ n ≤ N ∧ (m = 0 ∨ m = 1)) s.2 t.2)
      (h_step_4F F idx d N (w, v)) (h_step_4F F idx d N (w', v')) := by
  unfold h_step_4F
  refine (forL_rel 2 (N + 1) (by omega) (fun i (s t : List (HRow J) × List (HRow J)) =>
      KR l idx (fun n mp m => (mp = 0 ∨ mp = 1 ∨ n < i) ∧ 0 ≤ mp ∧ mp ≤ m ∧ m ≤ n ∧ n ≤ N) s.1 t.1 ∧
        KV lv (fun n m => 1 ≤ n ∧ n ≤ N ∧ (m = 0 ∨ m = 1)) s.2 t.2) ⟨hw.to (by omega), hv⟩ ?_).mono
    fun _ _ h => ⟨h.1.to (by omega), h.2⟩
  intro n s t hn1 hn2 ⟨hw, hv⟩
  refine (forL_rel 1 n (by omega) (fun i (s t : List (HRow J) × List (HRow J)) =>
      KR l idx (fun n' mp m => (mp = 0 ∨ mp = 1 ∨ n' < n ∨ n' = n ∧ mp ≤ i) ∧ 0 ≤ mp ∧ mp ≤ m ∧ m ≤ n' ∧ n' ≤ N) s.1 t.1 ∧
        KV lv (fun n' m => 1 ≤ n' ∧ n' ≤ N ∧ (m = 0 ∨ m = 1) ∨ n' = n ∧ m = i) s.2 t.2) ⟨hw.to (by omega), hv.to (by omega)⟩ ?_).mono
    fun _ _ h => ⟨h.1.to (by omega), h.2.to (by omega)⟩
  rintro i ⟨w, v⟩ ⟨w', v'⟩ hi1 hi2 ⟨hw, hv⟩
  refine (h_body4F_rel L hi1 hi2 hw hv (by omega) (by omega) (by omega)).mono fun s t h => ⟨h.1.to (by omega), h.2.to (by omega)⟩

theorem h_body5F_rel (L : Lin idx) {d : List ℝ} {n mp : ℤ} (h1 : mp ≤ 0) (h2 : -n < mp) {S : ℤ → ℤ → ℤ → Prop}
    {w w' v v' : List (HRow J)} (hw : KR l idx S w w') {T : ℤ → ℤ → Prop} (hv : KV lv T v v')
    (hS0 : ∀ m, |mp + 1| ≤ m → m ≤ n → S n (mp + 1) m) (hS1 : ∀ m, -mp ≤ m → m ≤ n → S n mp m) (hT : T n mp) (hT1 : T n 1) :
    PyRel (fun s t => KR l idx (fun n' mp' m' => S n' mp' m' ∨ n' = n ∧ mp' = mp - 1 ∧ -mp' ≤ m' ∧ m' ≤ n) s.1 t.1 ∧
        KV lv (fun n' m' => T n' m' ∨ n' = n ∧ m' = mp - 1) s.2 t.2)
      (h_body5F F idx d n mp (w, v)) (h_body5F F idx d n mp (w', v')) := by
  unfold h_body5F
  refine PyRel.eqBind rfl fun d5 => PyRel.eqBind rfl fun d6 => PyRel.eqBind rfl fun r => PyRel.eqBind rfl fun d7 =>
    PyRel.eqBind rfl fun d8 => ?_
  have hy2 : (if mp = 0 then rd v (nm_index n (mp + 1)) else rd w (idx n (mp + 1) (-mp))) =
      (if mp = 0 then rd v' (nm_index n (mp + 1)) else rd w' (idx n (mp + 1) (-mp))) := by
    split
    · next h => subst h; exact hv.rd hT1
    · exact hw.rd (hS0 (-mp) (by rw [abs_le]; omega) (by omega)) rfl
  refine PyRel.eqBind hy2 fun y2 => ?_
  refine PyRel.eqBind (hv.rd hT) fun y3 => ?_
  refine PyRel.eqBind (hw.rd (hS1 (-mp + 1) (by omega) (by omega)) rfl) fun y4 => ?_
  refine PyRel.bind (hv.wr (n := n) (m := mp - 1) (S' := fun n' m' => T n' m' ∨ n' = n ∧ m' = mp - 1) (fun _ _ h => h) _) fun v v' hv => ?_
  refine PyRel.bind (forL_rel 1 (n + mp) (by omega)
    (fun i => KR l idx (fun n' mp' m' => S n' mp' m' ∨ n' = n ∧ mp' = mp - 1 ∧ -mp' ≤ m' ∧ m' < -mp + i)) (hw.to ?_) ?_) fun w w' hw => ?_
  · rintro n' mp' m' (h | h)
    · exact h
    · omega
  · intro i w w' hi1 hi2 hw
    refine PyRel.eqBind rfl fun d7 => PyRel.eqBind rfl fun d8 => ?_
    refine PyRel.eqBind (hw.rd (.inl (hS0 (-mp + i) (by rw [abs_le]; omega) (by omega))) (L.eq _ _ rfl)) fun y2 => ?_
    refine PyRel.eqBind (hw.rd (.inl (hS1 (-mp + i - 1) (by omega) (by omega))) (L.eq _ _ (by ring))) fun y3 => ?_
    refine PyRel.eqBind (hw.rd (.inl (hS1 (-mp + i + 1) (by omega) (by omega))) (L.eq _ _ (by ring))) fun y4 => ?_
    refine hw.wr (n := n) (mp := mp - 1) (m := -mp + i) (L.eq _ _ rfl) ?_ _
    rintro n' mp' m' (h | h)
    · exact .inl (.inl h)
    · by_cases hm : m' = -mp + i
      · exact .inr (by omega)
      · exact .inl (.inr (by omega))
  refine PyRel.eqBind rfl fun d7 => ?_
  refine PyRel.eqBind (hw.rd (.inl (hS0 n (by rw [abs_le]; omega) (by omega))) (L.eq _ _ (by ring))) fun y2 => ?_
  refine PyRel.eqBind (hw.rd (.inl (hS1 (n - 1) (by omega) (by omega))) (L.eq _ _ (by ring))) fun y3 => ?_
  refine PyRel.bind (hw.wr (n := n) (mp := mp - 1) (m := n) (L.eq _ _ (by ring))
    (S' := fun n' mp' m' => S n' mp' m' ∨ n' = n ∧ mp' = mp - 1 ∧ -mp' ≤ m' ∧ m' ≤ n) ?_ _) fun w w' hw => ?_
  · rintro n' mp' m' (h | h)
    · exact .inl (.inl h)
    · by_cases hm : m' = n
      · exact .inr (by omega)
      · exact .inl (.inr (by omega))
  · exact ⟨hw, hv⟩

theorem h_step_5F_rel (L : Lin idx) {N : ℤ} (hN : 1 ≤ N) {d : List ℝ} {w w' v v' : List (HRow J)}
    (hw : KR l idx (fun n mp m => 0 ≤ mp ∧ mp ≤ m ∧ m ≤ n ∧ n ≤ N) w w')
    (hv : KV lv (fun n m => 1 ≤ n ∧ n ≤ N ∧ (m = 0 ∨ m = 1)) v v') :
    PyRel (fun s t => KR l idx (fun n mp m => |mp| ≤ m ∧ m ≤ n ∧ n ≤ N) s.1 t.1)
      (h_step_5F F idx d N (w, v)) (h_step_5F F idx d N (w', v')) := by
  unfold h_step_5F
  simp only [pyRangeDown_zero, forL_map]
  refine (forL_rel 0 (N + 1) (by omega) (fun i (s t : List (HRow J) × List (HRow J)) =>
      KR l idx (fun n mp m => (0 ≤ mp ∨ n < i) ∧ |mp| ≤ m ∧ m ≤ n ∧ n ≤ N) s.1 t.1 ∧
        KV lv (fun n m => 1 ≤ n ∧ n ≤ N ∧ (m = 0 ∨ m = 1)) s.2 t.2) ⟨hw.to (fun n mp m h => ?_), hv⟩ ?_).mono
    fun _ _ h => h.1.to (by omega)
  · have := h.2.1; rw [abs_le] at this; omega
  intro n s t hn1 hn2 ⟨hw, hv⟩
  by_cases hn0 : n = 0
  · subst hn0
    exact ⟨hw.to (fun n mp m h => by have := h.2.1; rw [abs_le] at this; omega), hv⟩
  refine (forL_rel 0 n (by omega) (fun i (s t : List (HRow J) × List (HRow J)) =>
      KR l idx (fun n' mp m => (0 ≤ mp ∨ n' < n ∨ n' = n ∧ -i ≤ mp) ∧ |mp| ≤ m ∧ m ≤ n' ∧ n' ≤ N) s.1 t.1 ∧
        KV lv (fun n' m => 1 ≤ n' ∧ n' ≤ N ∧ (m = 0 ∨ m = 1) ∨ n' = n ∧ m = -i) s.2 t.2) ⟨hw.to (by omega), hv.to (by omega)⟩ ?_).mono
    fun _ _ h => ⟨h.1.to (fun n mp m h => by have := h.2.1; rw [abs_le] at this; omega), h.2.to (by omega)⟩
  rintro i ⟨w, v⟩ ⟨w', v'⟩ hi1 hi2 ⟨hw, hv⟩
  refine (h_body5F_rel L (by omega) (by omega) hw hv ?_ ?_ (by omega) (by omega)).mono fun s t h => ⟨h.1.to ?_, h.2.to (by omega)⟩
  · intro m h1 h2; exact ⟨by omega, by omega, by omega, by omega⟩
  · intro m h1 h2; exact ⟨by omega, by rw [abs_le]; omega, by omega, by omega⟩
  · rintro n' mp m ⟨h1, h2, h3, h4⟩
    rw [abs_le] at h2 ⊢
    omega

/-- Agreement of the coefficients, except for the non-finite ones. -/
structure CoefEq (C C' : HCoef) (N : ℤ) : Prop where
  n : C.n_max = N
  n' : C'.n_max = N
  a : C.a = C'.a
  b : C.b = C'.b
  d : C.d = C'.d
  g : ∀ n m, 0 ≤ m → m < n → n ≤ N + 1 → rd C.g (nm_index n m) = rd C'.g (nm_index n m)
  h : ∀ n m, 0 ≤ m → m < n → n ≤ N + 1 → rd C.h (nm_index n m) = rd C'.h (nm_index n m)

theorem h_stepsF_rel (L : Lin idx) (h0 : idx 0 0 0 = 0) {N : ℤ} (hN : 1 ≤ N) {C C' : HCoef} (hC : CoefEq C C' N) {A A' : HArr J}
    (hw : A.w.length = l ∧ A'.w.length = l) (hv : A.v.length = lv ∧ A'.v.length = lv)
    (hx : A.x.length = lx ∧ A'.x.length = lx) :
    PyRel (fun B B' => KR l idx (fun n mp m => |mp| ≤ m ∧ m ≤ n ∧ n ≤ N) B.w B'.w)
      (h_stepsF F idx C co si A) (h_stepsF F idx C' co si A') := by
  obtain ⟨n1, n2, ea, eb, ed, hg, hh⟩ := hC
  unfold h_stepsF h_step_1
  rw [n1, n2, ← ea, ← eb, ← ed]
  have hw0 : KR l idx (fun _ _ _ => False) A.w A'.w := ⟨hw, fun k ⟨_, _, _, h, _⟩ => h.elim⟩
  refine PyRel.bind (hw0.wr h0.symm (S' := fun n mp m => n = 0 ∧ mp = 0 ∧ m = 0) (fun _ _ _ h => .inr h) _) fun w w' hw => ?_
  refine PyRel.bind (h_step_2F_rel L hN hg hh (A := { A with w := w }) (A' := { A' with w := w' }) hw hv hx)
    fun B B' ⟨hw, hx, hv⟩ => ?_
  refine PyRel.bind (h_step_3F_rel L hN hw hx) fun w w' hw => ?_
  refine PyRel.bind (h_step_4F_rel L hN hw hv) ?_
  rintro ⟨w, v⟩ ⟨w', v'⟩ ⟨hw, hv⟩
  refine PyRel.bind (h_step_5F_rel L hN hw hv) ?_
  rintro ⟨w, v⟩ ⟨w', v'⟩ hw
  exact hw

theorem h_step_6_rel {N : ℤ} (hN : 1 ≤ N) {w w' : List (HRow J)} (hw : KR l nmpm_index (fun n mp m => |mp| ≤ m ∧ m ≤ n ∧ n ≤ N) w w') :
    PyRel (KR l nmpm_index (fun n mp m => |mp| ≤ n ∧ |m| ≤ n ∧ n ≤ N)) (h_step_6 N w) (h_step_6 N w') := by
  have hw : KR l nmpm_index (fun n mp m => (-m ≤ mp ∧ mp ≤ m) ∧ (-n ≤ mp ∧ mp ≤ n) ∧ (-n ≤ m ∧ m ≤ n) ∧ n ≤ N) w w' :=
    hw.to fun n mp m h => by rw [abs_le]; omega
  unfold h_step_6
  refine PyRel.bind (forL_rel 1 (N + 1) (by omega) (fun i => KR l nmpm_index (fun n mp m =>
    ((-m ≤ mp ∧ mp ≤ m) ∨ 0 ≤ mp + m ∧ n < i) ∧ (-n ≤ mp ∧ mp ≤ n) ∧ (-n ≤ m ∧ m ≤ n) ∧ n ≤ N)) (hw.to (by omega)) ?_) fun w w' hw => ?_
  · intro n w w' hn1 hn2 hw
    refine (forL_rel 1 (n + 1) (by omega) (fun i => KR l nmpm_index (fun n' mp m =>
      ((-m ≤ mp ∧ mp ≤ m) ∨ 0 ≤ mp + m ∧ (n' < n ∨ n' = n ∧ mp < i)) ∧ (-n' ≤ mp ∧ mp ≤ n') ∧ (-n' ≤ m ∧ m ≤ n') ∧ n' ≤ N))
      (hw.to (by omega)) ?_).mono fun _ _ h => h.to (by omega)
    intro mp w w' hp1 hp2 hw
    refine (forL_rel (max (-mp) (-n)) mp (by omega) (fun i => KR l nmpm_index (fun n' mp' m =>
      ((-m ≤ mp' ∧ mp' ≤ m) ∨ 0 ≤ mp' + m ∧ (n' < n ∨ n' = n ∧ (mp' < mp ∨ mp' = mp ∧ m < i))) ∧
        (-n' ≤ mp' ∧ mp' ≤ n') ∧ (-n' ≤ m ∧ m ≤ n') ∧ n' ≤ N))
      (hw.to (by omega)) ?_).mono fun _ _ h => h.to (by omega)
    intro m w w' hm1 hm2 hw
    refine PyRel.eqBind (hw.rd (n := n) (mp := m) (m := mp) (by omega) rfl) fun y => ?_
    exact hw.wr rfl (by omega) _
  · refine (forL_rel 1 (N + 1) (by omega) (fun i => KR l nmpm_index (fun n mp m =>
      (0 ≤ mp + m ∨ n < i) ∧ (-n ≤ mp ∧ mp ≤ n) ∧ (-n ≤ m ∧ m ≤ n) ∧ n ≤ N)) (hw.to (by omega)) ?_).mono
      fun _ _ h => h.to fun n mp m h => by rw [abs_le, abs_le] at h; omega
    intro n w w' hn1 hn2 hw
    refine (forL_rel (-n) n (by omega) (fun i => KR l nmpm_index (fun n' mp m =>
      (0 ≤ mp + m ∨ n' < n ∨ n' = n ∧ mp < i) ∧ (-n' ≤ mp ∧ mp ≤ n') ∧ (-n' ≤ m ∧ m ≤ n') ∧ n' ≤ N))
      (hw.to (by omega)) ?_).mono fun _ _ h => h.to (by omega)
    intro mp w w' hp1 hp2 hw
    refine (forL_rel (-n) (-mp) (by omega) (fun i => KR l nmpm_index (fun n' mp' m =>
      (0 ≤ mp' + m ∨ n' < n ∨ n' = n ∧ (mp' < mp ∨ mp' = mp ∧ m < i)) ∧
        (-n' ≤ mp' ∧ mp' ≤ n') ∧ (-n' ≤ m ∧ m ≤ n') ∧ n' ≤ N))
      (hw.to (by omega)) ?_).mono fun _ _ h => h.to (by omega)
    intro m w w' hm1 hm2 hw
    refine PyRel.eqBind (hw.rd (n := n) (mp := -mp) (m := -m) (by omega) rfl) fun y => ?_
    exact hw.wr rfl (by omega) _

theorem coefEq_make {junk junk' : ℤ → ℝ} {n_max : ℤ} (h0 : 0 ≤ n_max) {C C' : HCoef} (h : HCoef.makeF F junk n_max = .ok C)
    (h' : HCoef.makeF F junk' n_max = .ok C') : CoefEq C C' n_max := by
  obtain ⟨N, rfl⟩ : ∃ N : ℕ, n_max = N := ⟨n_max.toNat, by omega⟩
  unfold HCoef.makeF at h h'
  rw [if_neg (by omega)] at h h'
  cases h
  cases h'
  refine ⟨rfl, rfl, rfl, rfl, rfl, fun n m h1 h2 h3 => ?_, fun n m h1 h2 h3 => ?_⟩
  · obtain ⟨p0, p1⟩ := nmPairs_at (N := N) (n := n) (m := m) (by rw [abs_le]; omega) h3
    rw [rd_ok p0 (v := _) (by rw [List.getElem?_map, p1]; rfl), rd_ok p0 (v := _) (by rw [List.getElem?_map, p1]; rfl)]
    simp only [if_neg h2.ne']
  · obtain ⟨p0, p1⟩ := nmPairs_at (N := N) (n := n) (m := m) (by rw [abs_le]; omega) h3
    rw [rd_ok p0 (v := _) (by rw [List.getElem?_map, p1]; rfl), rd_ok p0 (v := _) (by rw [List.getElem?_map, p1]; rfl)]
    simp only [if_neg h2.ne']

theorem agree_all {α : Type} {l : ℕ} {K : ℤ → Prop} {w w' : List α} (h : Agree l K w w') (hK : ∀ k : ℤ, 0 ≤ k → k < l → K k) : w = w' := by
  apply List.ext_getElem?
  intro i
  by_cases hi : i < l
  · have := h.2 i (hK i (by omega) (by omega))
    have h1 : i < w.length := by rw [h.1.1]; exact hi
    have h2 : i < w'.length := by rw [h.1.2]; exact hi
    rw [rd_ok (v := w[i]) (by omega) (by simp [h1]), rd_ok (v := w'[i]) (by omega) (by simp [h2])] at this
    injection this with e
    rw [List.getElem?_eq_getElem h1, List.getElem?_eq_getElem h2, e]
  · rw [List.getElem?_eq_none (by rw [h.1.1]; omega), List.getElem?_eq_none (by rw [h.1.2]; omega)]

end

end SF
