import Verif.Props.HFloat
import Verif.Model.HLayout
import Verif.Lemmas.HColumns

/-! # C96: the H calculators act on every angle separately

Specification: `PickedArgs x x' σ` (angle `j` of `x'` is angle `σ j` of `x`), `oneAngle`, `Arr2.pos` (position in memory of an element).
The floating-point operations `F` are arbitrary throughout. -/

set_option autoImplicit false

namespace SF

/-- The angles of `x'` are among those of `x`: number `j` of `x'` is number `σ j` of `x`.  The sines are given in both, or in none. -/
structure PickedArgs (x x' : HArgs) (σ : Fin x'.co.length → Fin x.co.length) : Prop where
  nonempty : x'.co ≠ []
  co : ∀ j : Fin x'.co.length, x'.co[j] = x.co[σ j]
  si : (x.si = none ∧ x'.si = none) ∨ ∃ s s', x.si = some (x.cshape, s) ∧ x'.si = some (x'.cshape, s') ∧
    ∀ j : Fin x'.co.length, s'.getD j 0 = s.getD (σ j) 0

/-- A call with one angle. -/
def oneAngle (c s : ℝ) : HArgs := ⟨[], [c], some ([], [s])⟩

/-- A call with the cosine of one angle. -/
def oneCos (c : ℝ) : HArgs := ⟨[], [c], none⟩

theorem hArgsF_pick (F : W3Ops) {x x' : HArgs} {σ : Fin x'.co.length → Fin x.co.length} (h : PickedArgs x x' σ)
    {cs : HRow x.co.length × HRow x.co.length} (hx : hArgsF F x = .ok cs) : hArgsF F x' = .ok (pick σ cs.1, pick σ cs.2) := by
  unfold hArgsF at hx ⊢
  split_ifs at hx with h0 h1
  have h1' : ¬ ((∃ c ∈ x'.co, c > 1) ∨ (∃ c ∈ x'.co, c < -1)) := by
    have mem : ∀ c ∈ x'.co, c ∈ x.co := by
      intro c hc
      obtain ⟨j, hj, rfl⟩ := List.getElem_of_mem hc
      have := h.co ⟨j, hj⟩
      simp only [Fin.getElem_fin] at this
      rw [this]
      exact List.getElem_mem _
    rintro (⟨c, hc, hh⟩ | ⟨c, hc, hh⟩)
    · exact h1 (.inl ⟨c, mem c hc, hh⟩)
    · exact h1 (.inr ⟨c, mem c hc, hh⟩)
  rw [if_neg h.nonempty, if_neg h1']
  rcases h.si with ⟨e, e'⟩ | ⟨s, s', e, e', hs⟩
  · rw [e] at hx
    rw [e']
    simp only at hx ⊢
    cases hx
    congr 2
    · funext j; exact h.co j
    · funext j; show F.sqrt _ = F.sqrt _; rw [h.co j]
  · rw [e] at hx
    rw [e']
    simp only [ne_eq, not_true_eq_false, if_false] at hx ⊢
    cases hx
    congr 2
    · funext j; exact h.co j
    · funext j; exact hs j

/-- **C96.** For every arithmetic, `n_max ≥ 1` and all angles: if a calculator returns `H` for the angles `x`, then any calculator with
the same `n_max`, used before or not, returns for any of these angles, in any order and with repetitions, the corresponding columns of
`H`, bit for bit.  The same holds for the full-matrix calculator. -/
theorem C96_columns (F : W3Ops) (junk junk' : ℤ → ℝ) (n_max : ℤ) (hn : 1 ≤ n_max) (C C' : HCoef)
    (hC : HCoef.makeF F junk n_max = .ok C) (hC' : HCoef.makeF F junk' n_max = .ok C')
    (x x' : HArgs) (σ : Fin x'.co.length → Fin x.co.length) (h : PickedArgs x x' σ) :
    (∀ (ws : Option (List (HRow x.co.length))) (ws' : Option (List (HRow x'.co.length))),
      (∀ l, ws = some l → hRows n_max ≤ l.length) → (∀ l, ws' = some l → hRows n_max ≤ l.length) →
      ∀ w H, HCalculator_callF F C x ws = .ok (w, H) →
        ∃ w', HCalculator_callF F C' x' ws' = .ok (w', H.map fun row j => row (σ j))) ∧
    (∀ (ws : Option (List (HRow x.co.length))) (ws' : Option (List (HRow x'.co.length))),
      (∀ l, ws = some l → (l.length : ℤ) = LMpM_total_size 0 n_max) → (∀ l, ws' = some l → (l.length : ℤ) = LMpM_total_size 0 n_max) →
      ∀ H, HFull_callF F C x ws = .ok H → HFull_callF F C' x' ws' = .ok (H.map fun row j => row (σ j))) := by
  have hist := C94_H_history F junk junk' n_max hn C C' hC hC' x'
  have hCn : C.n_max = n_max := (coefEq_make (by omega) hC hC').n
  have hsq : (0 : ℤ) ≤ (n_max + 1) ^ 2 := by positivity
  have hW := wedge_size_nonneg (n := n_max) (by omega)
  constructor
  · intro ws ws' hws hws' w H hH
    set l := ws.getD (hWorkspace x.co.length C.n_max) with hl
    have hlen : hRows n_max ≤ l.length := by
      rw [hl]
      cases ws with
      | some l' => exact hws l' rfl
      | none =>
        simp only [Option.getD_none, hWorkspace, List.length_replicate, hCn]
        unfold hRows
        omega
    have key : ∃ w', HCalculator_callF F C x' (some (l.map (pick σ))) = .ok (w', H.map (pick σ)) := by
      unfold HCalculator_callF at hH ⊢
      cases hx : hArgsF F x with
      | error e => rw [hx] at hH; cases hH
      | ok cs =>
        rw [hx, bind_ok] at hH
        rw [hArgsF_pick F h hx, bind_ok]
        obtain ⟨co, si⟩ := cs
        simp only [Option.getD_some] at hH ⊢
        rw [← hl] at hH
        have nat := h_stepsF_nat σ F wedge_index C co si { w := l.take (wedge_size C.n_max).toNat, v := (l.drop (wedge_size C.n_max).toNat).take ((C.n_max + 1) ^ 2).toNat, x := (l.drop ((wedge_size C.n_max).toNat + ((C.n_max + 1) ^ 2).toNat)).take (C.n_max + 2).toNat }
        unfold HArr.pick at nat
        simp only [List.map_take, List.map_drop] at nat
        rw [nat]
        cases hA : h_stepsF F wedge_index C co si { w := l.take (wedge_size C.n_max).toNat, v := (l.drop (wedge_size C.n_max).toNat).take ((C.n_max + 1) ^ 2).toNat, x := (l.drop ((wedge_size C.n_max).toNat + ((C.n_max + 1) ^ 2).toNat)).take (C.n_max + 2).toNat } with
        | error e => rw [hA] at hH; cases hH
        | ok A =>
          rw [hA, bind_ok] at hH
          cases hH
          exact ⟨_, rfl⟩
    obtain ⟨w1, k1⟩ := key
    have k2 := hist.1 (some (l.map (pick σ))) ws' (fun l' e => by cases e; simpa using hlen) hws'
    rw [k1] at k2
    cases hc : HCalculator_callF F C' x' ws' with
    | error e => rw [hc] at k2; cases k2
    | ok r =>
      rw [hc] at k2
      obtain ⟨r1, r2⟩ := r
      cases k2
      exact ⟨r1, rfl⟩
  · intro ws ws' hws hws' H hH
    set l := ws.getD (List.replicate (LMpM_total_size 0 C.n_max).toNat (fun _ => 0)) with hl
    have hpos : 0 ≤ LMpM_total_size 0 n_max := by
      obtain ⟨N, rfl⟩ : ∃ N : ℕ, n_max = N := ⟨n_max.toNat, by omega⟩
      have := nmpm_range (N := N) (n := 0) (mp := 0) (m := 0) (triple_iff.2 (by omega))
      omega
    have hlen : (l.length : ℤ) = LMpM_total_size 0 n_max := by
      rw [hl]
      cases ws with
      | some l' => exact hws l' rfl
      | none =>
        simp only [Option.getD_none, List.length_replicate, hCn]
        omega
    have key : HFull_callF F C x' (some (l.map (pick σ))) = .ok (H.map (pick σ)) := by
      unfold HFull_callF at hH ⊢
      cases hx : hArgsF F x with
      | error e => rw [hx] at hH; cases hH
      | ok cs =>
        rw [hx, bind_ok] at hH
        rw [hArgsF_pick F h hx, bind_ok]
        obtain ⟨co, si⟩ := cs
        simp only [Option.getD_some] at hH ⊢
        rw [← hl] at hH
        have nat := h_stepsF_nat σ F nmpm_index C co si { w := l, v := List.replicate ((C.n_max + 1) ^ 2).toNat (fun _ => 0), x := List.replicate (C.n_max + 2).toNat (fun _ => 0) }
        unfold HArr.pick at nat
        simp only [List.map_replicate] at nat
        have z : pick σ (fun _ : Fin x.co.length => (0 : ℝ)) = fun _ => 0 := rfl
        rw [z] at nat
        rw [nat]
        cases hA : h_stepsF F nmpm_index C co si { w := l, v := List.replicate ((C.n_max + 1) ^ 2).toNat (fun _ => 0), x := List.replicate (C.n_max + 2).toNat (fun _ => 0) } with
        | error e => rw [hA] at hH; cases hH
        | ok A =>
          rw [hA, bind_ok] at hH
          show (h_step_6 C.n_max (A.w.map (pick σ)) >>= _) = _
          rw [h_step_6_nat]
          cases h6 : h_step_6 C.n_max A.w with
          | error e => rw [h6] at hH; cases hH
          | ok B =>
            rw [h6, bind_ok] at hH
            cases hH
            show Except.ok ((B.map (pick σ)).take _) = _
            rw [List.map_take]
    rw [← hist.2 (some (l.map (pick σ))) ws' (fun l' e => by cases e; simpa using hlen) hws']
    exact key

/-- Position in memory of the element `(i, j)`. -/
def Arr2.pos (a : Arr2) (i j : ℕ) : ℕ :=
  match a.layout with
  | .rows => i * a.c + j
  | .cols => j * a.r + i

theorem Arr2.pos_lt (a : Arr2) {i j : ℕ} (hi : i < a.r) (hj : j < a.c) : a.pos i j < a.ravelK.length := by
  unfold Arr2.pos Arr2.ravelK
  cases a.layout with
  | rows =>
    simp only [List.length_map, List.length_range]
    calc i * a.c + j < i * a.c + a.c := by omega
      _ = (i + 1) * a.c := by ring
      _ ≤ a.r * a.c := Nat.mul_le_mul_right _ hi
  | cols =>
    simp only [List.length_map, List.length_range]
    calc j * a.r + i < j * a.r + a.r := by omega
      _ = (j + 1) * a.r := by ring
      _ ≤ a.c * a.r := Nat.mul_le_mul_right _ hj
      _ = a.r * a.c := mul_comm _ _

theorem Arr2.ravelK_pos (a : Arr2) {i j : ℕ} (hi : i < a.r) (hj : j < a.c) : a.ravelK[a.pos i j]? = some (a.val i j) := by
  have := a.pos_lt hi hj
  revert this
  unfold Arr2.pos Arr2.ravelK
  cases a.layout with
  | rows =>
    simp only [List.length_map, List.length_range]
    intro hlt
    rw [List.getElem?_map, List.getElem?_range hlt, Option.map_some, mul_comm i, Nat.mul_add_div (by omega), Nat.div_eq_of_lt hj,
      Nat.mul_add_mod, Nat.mod_eq_of_lt hj, add_zero]
  | cols =>
    simp only [List.length_map, List.length_range]
    intro hlt
    rw [List.getElem?_map, List.getElem?_range hlt, Option.map_some, mul_comm j, Nat.mul_add_div (by omega), Nat.div_eq_of_lt hi,
      Nat.mul_add_mod, Nat.mod_eq_of_lt hi, add_zero]

/-- **C96 (two-dimensional arrays).** Column `k` of the result, where `k` is the position *in memory* of the element `(i, j)` of `cosβ`,
is the result for the single angle with cosine `cosβ[i, j]` and with the sine that lies at the same position of the memory of `sinβ`;
or with the computed sine if `sinβ` is not given. -/
theorem C96_memory_order (F : W3Ops) (junk : ℤ → ℝ) (n_max : ℤ) (hn : 1 ≤ n_max) (C : HCoef) (hC : HCoef.makeF F junk n_max = .ok C)
    (cosβ : Arr2) {i j : ℕ} (hi : i < cosβ.r) (hj : j < cosβ.c) :
    (∀ w H, HCalculator_callF F C (hArgs2 cosβ none) none = .ok (w, H) →
      ∃ w' H1, HCalculator_callF F C (oneCos (cosβ.val i j)) none = .ok (w', H1) ∧
        H1 = H.map fun row _ => row ⟨cosβ.pos i j, cosβ.pos_lt hi hj⟩) ∧
    (∀ sinβ : Arr2, ∀ w H, sinβ.r = cosβ.r → sinβ.c = cosβ.c → HCalculator_callF F C (hArgs2 cosβ (some sinβ)) none = .ok (w, H) →
      ∃ w' H1, HCalculator_callF F C (oneAngle (cosβ.val i j) (sinβ.ravelK.getD (cosβ.pos i j) 0)) none = .ok (w', H1) ∧
        H1 = H.map fun row _ => row ⟨cosβ.pos i j, cosβ.pos_lt hi hj⟩) := by
  have hval : (hArgs2 cosβ none).co[cosβ.pos i j]'(cosβ.pos_lt hi hj) = cosβ.val i j := by
    have := cosβ.ravelK_pos hi hj
    rw [List.getElem?_eq_getElem (cosβ.pos_lt hi hj)] at this
    exact Option.some.inj this
  constructor
  · intro w H hH
    obtain ⟨w', e⟩ := (C96_columns F junk junk n_max hn C C hC hC (hArgs2 cosβ none) (oneCos (cosβ.val i j))
      (fun _ => ⟨cosβ.pos i j, cosβ.pos_lt hi hj⟩)
      ⟨by simp [oneCos], fun t => by
        have ht : t.val = 0 := by have := t.isLt; simp [oneCos] at this; exact this
        simp only [Fin.getElem_fin, ht]
        exact hval.symm, .inl ⟨rfl, rfl⟩⟩).1 none none (fun _ h => by cases h) (fun _ h => by cases h) w H hH
    exact ⟨w', _, e, rfl⟩
  · intro sinβ w H hr hc hH
    obtain ⟨w', e⟩ := (C96_columns F junk junk n_max hn C C hC hC (hArgs2 cosβ (some sinβ))
      (oneAngle (cosβ.val i j) (sinβ.ravelK.getD (cosβ.pos i j) 0))
      (fun _ => ⟨cosβ.pos i j, cosβ.pos_lt hi hj⟩)
      ⟨by simp [oneAngle], fun t => by
        have ht : t.val = 0 := by have := t.isLt; simp [oneAngle] at this; exact this
        simp only [Fin.getElem_fin, ht]
        exact hval.symm, .inr ⟨sinβ.ravelK, _, by simp [hArgs2, hr, hc], rfl, fun t => by
        have ht : t.val = 0 := by have := t.isLt; simp [oneAngle] at this; exact this
        simp only [ht]
        rfl⟩⟩).1 none none (fun _ h => by cases h) (fun _ h => by cases h) w H hH
    exact ⟨w', _, e, rfl⟩

/-- **C96 (same layout).** If `cosβ` and `sinβ` have the same shape and the same memory layout, the column of the element `(i, j)` is
the result for the angle with cosine `cosβ[i, j]` and sine `sinβ[i, j]`. -/
theorem C96_same_layout (F : W3Ops) (junk : ℤ → ℝ) (n_max : ℤ) (hn : 1 ≤ n_max) (C : HCoef) (hC : HCoef.makeF F junk n_max = .ok C)
    (cosβ sinβ : Arr2) (hr : sinβ.r = cosβ.r) (hc : sinβ.c = cosβ.c) (hl : sinβ.layout = cosβ.layout) {i j : ℕ} (hi : i < cosβ.r)
    (hj : j < cosβ.c) (w H) (hH : HCalculator_callF F C (hArgs2 cosβ (some sinβ)) none = .ok (w, H)) :
    ∃ w' H1, HCalculator_callF F C (oneAngle (cosβ.val i j) (sinβ.val i j)) none = .ok (w', H1) ∧
      H1 = H.map fun row _ => row ⟨cosβ.pos i j, cosβ.pos_lt hi hj⟩ := by
  have h := (C96_memory_order F junk n_max hn C hC cosβ hi hj).2 sinβ w H hr hc hH
  have e : cosβ.pos i j = sinβ.pos i j := by unfold Arr2.pos; rw [hl, hr, hc]
  have hg : sinβ.ravelK.getD (cosβ.pos i j) 0 = sinβ.val i j := by
    rw [e, List.getD_eq_getElem?_getD, sinβ.ravelK_pos (by omega) (by omega), Option.getD_some]
  rw [hg] at h
  exact h

/-- **C96 (different layouts, a defect).** If `cosβ` is stored by rows and `sinβ` by columns, the call is accepted, but the cosine
`cosβ[i, j]` is combined with the sine of another element: that of row `(i*c + j) % r` and column `(i*c + j) / r`. -/
theorem C96_mixed_layout (F : W3Ops) (junk : ℤ → ℝ) (n_max : ℤ) (hn : 1 ≤ n_max) (C : HCoef) (hC : HCoef.makeF F junk n_max = .ok C)
    (cosβ sinβ : Arr2) (hr : sinβ.r = cosβ.r) (hc : sinβ.c = cosβ.c) (h1 : cosβ.layout = .rows) (h2 : sinβ.layout = .cols) {i j : ℕ}
    (hi : i < cosβ.r) (hj : j < cosβ.c) (w H) (hH : HCalculator_callF F C (hArgs2 cosβ (some sinβ)) none = .ok (w, H)) :
    ∃ w' H1, HCalculator_callF F C (oneAngle (cosβ.val i j) (sinβ.val ((i * cosβ.c + j) % cosβ.r) ((i * cosβ.c + j) / cosβ.r))) none =
        .ok (w', H1) ∧ H1 = H.map fun row _ => row ⟨cosβ.pos i j, cosβ.pos_lt hi hj⟩ := by
  have h := (C96_memory_order F junk n_max hn C hC cosβ hi hj).2 sinβ w H hr hc hH
  have hk := cosβ.pos_lt hi hj
  have e : cosβ.pos i j = i * cosβ.c + j := by unfold Arr2.pos; rw [h1]
  have hs : sinβ.ravelK = (List.range (cosβ.r * cosβ.c)).map fun k => sinβ.val (k % cosβ.r) (k / cosβ.r) := by
    unfold Arr2.ravelK; rw [h2, hr, hc]
  have hlen : cosβ.ravelK.length = cosβ.r * cosβ.c := by unfold Arr2.ravelK; rw [h1]; simp
  rw [hlen, e] at hk
  have hg : sinβ.ravelK.getD (cosβ.pos i j) 0 = sinβ.val ((i * cosβ.c + j) % cosβ.r) ((i * cosβ.c + j) / cosβ.r) := by
    rw [hs, e, List.getD_eq_getElem?_getD, List.getElem?_map, List.getElem?_range hk]
    rfl
  rw [hg] at h
  exact h

theorem ok_of_map {α β γ : Type} {f : α → γ} {g : β → γ} {p : Py α} {q : Py β} (h : p.map f = q.map g) {a : α} (hp : p = .ok a) :
    ∃ b, q = .ok b ∧ f a = g b := by
  subst hp
  cases q with
  | error e => cases h
  | ok b => exact ⟨b, rfl, Except.ok.inj h⟩

theorem h_stepsF_total {J : ℕ} (F : W3Ops) (idx : ℤ → ℤ → ℤ → ℤ) (C : HCoef) (co si co' si' : HRow J) (A : HArr J) {B : HArr J}
    (h : h_stepsF F idx C co si A = .ok B) : ∃ B', h_stepsF F idx C co' si' A = .ok B' ∧
      B.w.map (pick (Fin.elim0 : Fin 0 → Fin J)) = B'.w.map (pick (Fin.elim0 : Fin 0 → Fin J)) := by
  have n1 := h_stepsF_nat (Fin.elim0 : Fin 0 → Fin J) F idx C co si A
  have n2 := h_stepsF_nat (Fin.elim0 : Fin 0 → Fin J) F idx C co' si' A
  rw [Subsingleton.elim (pick (Fin.elim0 : Fin 0 → Fin J) co') (pick (Fin.elim0 : Fin 0 → Fin J) co),
    Subsingleton.elim (pick (Fin.elim0 : Fin 0 → Fin J) si') (pick (Fin.elim0 : Fin 0 → Fin J) si)] at n2
  obtain ⟨B', e1, e2⟩ := ok_of_map (n1.symm.trans n2) h
  exact ⟨B', e1, congrArg HArr.w e2⟩

/-- The calls after the checks of the arguments (for the proof). -/
noncomputable def wedgeCore {J : ℕ} (F : W3Ops) (C : HCoef) (co si : HRow J) (l : List (HRow J)) : Py (List (HRow J) × List (HRow J)) := do
  let W := (wedge_size C.n_max).toNat
  let V := ((C.n_max + 1) ^ 2).toNat
  let X := (C.n_max + 2).toNat
  let A ← h_stepsF F wedge_index C co si { w := l.take W, v := (l.drop W).take V, x := (l.drop (W + V)).take X }
  return (A.w ++ A.v ++ A.x ++ l.drop (W + V + X), A.w)

noncomputable def fullCore {J : ℕ} (F : W3Ops) (C : HCoef) (co si : HRow J) (l : List (HRow J)) : Py (List (HRow J)) := do
  let size := (LMpM_total_size 0 C.n_max).toNat
  let A ← h_stepsF F nmpm_index C co si
    { w := l, v := List.replicate ((C.n_max + 1) ^ 2).toNat (fun _ => 0), x := List.replicate (C.n_max + 2).toNat (fun _ => 0) }
  let H ← h_step_6 C.n_max A.w
  return H.take size

theorem callF_split {F : W3Ops} {C : HCoef} {x : HArgs} {co si : HRow x.co.length} (h : hArgsF F x = .ok (co, si))
    (ws : Option (List (HRow x.co.length))) :
    HCalculator_callF F C x ws = wedgeCore F C co si (ws.getD (hWorkspace x.co.length C.n_max)) ∧
    HFull_callF F C x ws = fullCore F C co si (ws.getD (List.replicate (LMpM_total_size 0 C.n_max).toNat (fun _ => 0))) := by
  unfold HCalculator_callF HFull_callF
  rw [h, bind_ok, bind_ok]
  exact ⟨rfl, rfl⟩

theorem wedgeCore_total {J : ℕ} {F : W3Ops} {C : HCoef} {co si : HRow J} (co' si' : HRow J) {l : List (HRow J)}
    {r : List (HRow J) × List (HRow J)} (h : wedgeCore F C co si l = .ok r) : ∃ w H, wedgeCore F C co' si' l = .ok (w, H) := by
  unfold wedgeCore at h ⊢
  simp only at h ⊢
  generalize { w := l.take (wedge_size C.n_max).toNat, v := (l.drop (wedge_size C.n_max).toNat).take ((C.n_max + 1) ^ 2).toNat, x := (l.drop ((wedge_size C.n_max).toNat + ((C.n_max + 1) ^ 2).toNat)).take (C.n_max + 2).toNat : HArr J} = A at h ⊢
  cases hA : h_stepsF F wedge_index C co si A with
  | error e => rw [hA] at h; cases h
  | ok B =>
    obtain ⟨B', b1, -⟩ := h_stepsF_total F wedge_index C _ _ co' si' _ hA
    rw [b1]
    exact ⟨_, _, rfl⟩

theorem fullCore_total {J : ℕ} {F : W3Ops} {C : HCoef} {co si : HRow J} (co' si' : HRow J) {l r : List (HRow J)}
    (h : fullCore F C co si l = .ok r) : ∃ H, fullCore F C co' si' l = .ok H := by
  unfold fullCore at h ⊢
  simp only at h ⊢
  generalize { w := l, v := List.replicate ((C.n_max + 1) ^ 2).toNat (fun _ => 0), x := List.replicate (C.n_max + 2).toNat (fun _ => 0) : HArr J} = A at h ⊢
  cases hA : h_stepsF F nmpm_index C co si A with
  | error e => rw [hA] at h; cases h
  | ok B =>
    obtain ⟨B', b1, b2⟩ := h_stepsF_total F nmpm_index C _ _ co' si' _ hA
    rw [hA, bind_ok] at h
    rw [b1, bind_ok]
    cases h6 : h_step_6 C.n_max B.w with
    | error e => rw [h6] at h; cases h
    | ok D =>
      have n1 := h_step_6_nat (Fin.elim0 : Fin 0 → Fin J) C.n_max B.w
      have n2 := h_step_6_nat (Fin.elim0 : Fin 0 → Fin J) C.n_max B'.w
      rw [← b2] at n2
      obtain ⟨D', d1, -⟩ := ok_of_map (n1.symm.trans n2) h6
      rw [d1]
      exact ⟨_, rfl⟩

/-- **C96 (the call always returns).** With operations of relative error `u ≤ 1/16`: whatever numbers are given as sines — of other
angles, or of none — the calls return, for all cosines in `[-1, 1]`, arrays of equal shape and workspaces of sufficient size. -/
theorem C96_returns {F : W3Ops} {u : ℝ} (hF : F.Std u) (hu : u ≤ 1 / 16) (junk : ℤ → ℝ) (n_max : ℤ) (hn : 1 ≤ n_max) (x : HArgs)
    (hx : GoodHArgs x) : ∃ C, HCoef.makeF F junk n_max = .ok C ∧
      (∀ ws : Option (List (HRow x.co.length)), (∀ l, ws = some l → hRows n_max ≤ l.length) →
        ∃ w H, HCalculator_callF F C x ws = .ok (w, H)) ∧
      (∀ ws : Option (List (HRow x.co.length)), (∀ l, ws = some l → (l.length : ℤ) = LMpM_total_size 0 n_max) →
        ∃ H, HFull_callF F C x ws = .ok H) := by
  obtain ⟨cshape, co, osi⟩ := x
  have hg0 : GoodHArgs ⟨cshape, co, some (cshape, co.map fun c => Real.sin (Real.arccos c))⟩ := ⟨hx.1, hx.2.1, rfl, by simp⟩
  obtain ⟨C, hC, a1, a2⟩ := C94_H_accuracy hF hu junk n_max hn _ hg0 (fun j => Real.arccos co[j]) (fun _ => 1)
    (fun _ => ⟨by linarith, le_rfl⟩) ⟨fun j => by
      have hm := hx.2.1 co[j] (List.getElem_mem _)
      show |co[j] - Real.cos (Real.arccos co[j])| ≤ 1
      rw [Real.cos_arccos hm.1 hm.2]; simp, cshape, _, rfl, fun j => by
      have hj : j.val < co.length := j.isLt
      rw [List.getD_eq_getElem?_getD, List.getElem?_map, List.getElem?_eq_getElem hj]
      simp⟩
  have e0 := hArgsF_ok (F := F) hg0
  have e1 := hArgsF_ok (F := F) hx
  refine ⟨C, hC, fun ws hws => ?_, fun ws hws => ?_⟩
  · obtain ⟨w, H, c1, -⟩ := a1 ws hws
    rw [(callF_split e0 ws).1] at c1
    rw [(callF_split e1 ws).1]
    exact wedgeCore_total _ _ c1
  · obtain ⟨H, c1, -⟩ := a2 ws hws
    rw [(callF_split e0 ws).2] at c1
    rw [(callF_split e1 ws).2]
    exact fullCore_total _ _ c1

/-- A `2 × 2` array of cosines stored by rows and one of sines stored by columns are accepted, and the column of the element `(0, 1)` is
computed with the sine of the element `(1, 0)`. -/
example (junk : ℤ → ℝ) (c s : ℕ → ℕ → ℝ) (hc : ∀ i j, -1 ≤ c i j ∧ c i j ≤ 1) : ∃ C w H w' H1, HCoef.makeF W3Ops53 junk 2 = .ok C ∧
    HCalculator_callF W3Ops53 C (hArgs2 ⟨2, 2, .rows, c⟩ (some ⟨2, 2, .cols, s⟩)) none = .ok (w, H) ∧
    HCalculator_callF W3Ops53 C (oneAngle (c 0 1) (s 1 0)) none = .ok (w', H1) ∧ H1 = H.map fun row _ => row (1 : Fin 4) := by
  obtain ⟨C, hC, h1, -⟩ := C96_returns W3Ops53_std (by norm_num) junk 2 (by norm_num) (hArgs2 ⟨2, 2, .rows, c⟩ (some ⟨2, 2, .cols, s⟩))
    ⟨by simp [hArgs2, Arr2.ravelK], by
      intro z hz
      simp only [hArgs2, Arr2.ravelK, List.mem_map] at hz
      obtain ⟨k, -, rfl⟩ := hz
      exact hc _ _, rfl, by simp [hArgs2, Arr2.ravelK]⟩
  obtain ⟨w, H, e⟩ := h1 none (fun _ h => by cases h)
  obtain ⟨w', H1, e', e''⟩ := C96_mixed_layout W3Ops53 junk 2 (by norm_num) C hC ⟨2, 2, .rows, c⟩ ⟨2, 2, .cols, s⟩ rfl rfl rfl rfl
    (i := 0) (j := 1) (by norm_num) (by norm_num) w H e
  rw [show s 1 0 = s ((0 * 2 + 1) % 2) ((0 * 2 + 1) / 2) from rfl]
  exact ⟨C, w, H, w', H1, hC, e, e', e''⟩

end SF
