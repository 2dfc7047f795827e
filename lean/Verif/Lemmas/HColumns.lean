import Verif.Lemmas.Leading
import Verif.Model.WignerHFloat

/-!
# The H calculators act on every angle separately

For a choice `σ` of columns (any function), every step commutes with taking the chosen columns.  The operations are arbitrary.
-/

set_option autoImplicit false

namespace SF

/-- The columns `σ` of a row. -/
def pick {J K : ℕ} (σ : Fin K → Fin J) (r : HRow J) : HRow K := fun j => r (σ j)

theorem upd_nat {α β : Type} (F : α → β) (a : List α) (i : ℤ) {f : α → α} {f' : β → β} (h : ∀ x, f' (F x) = F (f x)) :
    upd (a.map F) i f' = (upd a i f).map (List.map F) := by
  unfold upd
  rw [List.length_map]
  cases npIdx a.length i with
  | none => rfl
  | some k =>
    simp only [Except.map]
    congr 1
    apply List.ext_getElem?
    intro t
    simp only [List.getElem?_modify, List.getElem?_map]
    cases a[t]? with
    | none => rfl
    | some v => by_cases hk : k = t <;> simp [hk, h]

variable {J K : ℕ} (σ : Fin K → Fin J) (F : W3Ops)

theorem h_row2F_nat (g h : List ℝ) (co si : HRow J) (n n0n nn : ℤ) (prev : HRow J) (H : List (HRow J)) :
    h_row2F F g h (pick σ co) (pick σ si) n n0n nn (pick σ prev) (H.map (pick σ)) =
      (h_row2F F g h co si n n0n nn prev H).map (List.map (pick σ)) := by
  unfold h_row2F
  refine bind_same fun gi => ?_
  refine bind_nat (wr_nat (pick σ) _ _ (by rfl)) fun H => ?_
  refine bind_nat (rd_nat (pick σ) _ _) fun x => ?_
  refine bind_nat (wr_nat (pick σ) _ _ (by rfl)) fun H => ?_
  refine bind_nat (forL_nat (List.map (pick σ)) _ _ fun i H => ?_) fun H => ?_
  · refine bind_same fun gi => ?_
    refine bind_same fun hi => ?_
    refine bind_nat (rd_nat (pick σ) _ _) fun x1 => ?_
    refine bind_nat (rd_nat (pick σ) _ _) fun x2 => ?_
    exact wr_nat (pick σ) _ _ (by rfl)
  refine bind_same fun gi => ?_
  refine bind_same fun hi => ?_
  refine bind_nat (rd_nat (pick σ) _ _) fun x1 => ?_
  refine bind_nat (rd_nat (pick σ) _ _) fun x2 => ?_
  refine bind_nat (wr_nat (pick σ) _ _ (by rfl)) fun H => ?_
  refine bind_nat (forL_nat (fun st : List (HRow J) × HRow J => (st.1.map (pick σ), pick σ st.2)) _
    (H, ((fun _ => F.div 1 (F.sqrt (F.ofInt (4 * n + 2)))) : HRow J)) fun i st => ?_) fun st => ?_
  · exact bind_nat (upd_nat (pick σ) _ _ (by intro x; rfl)) fun H => rfl
  · rfl

/-- The chosen columns of the three arrays. -/
def HArr.pick (A : HArr J) : HArr K := { w := A.w.map (SF.pick σ), v := A.v.map (SF.pick σ), x := A.x.map (SF.pick σ) }

theorem h_step_1_nat (H : List (HRow J)) : h_step_1 (H.map (pick σ)) = (h_step_1 H).map (List.map (pick σ)) := wr_nat (pick σ) _ _ (by rfl)

theorem h_step_2F_nat (idx : ℤ → ℤ → ℤ → ℤ) (g h : List ℝ) (n_max : ℤ) (co si : HRow J) (A : HArr J) :
    h_step_2F F idx g h n_max (pick σ co) (pick σ si) (A.pick σ) = (h_step_2F F idx g h n_max co si A).map (HArr.pick σ) := by
  unfold h_step_2F
  refine bind_nat (wr_nat (pick σ) _ _ (by rfl)) fun w => ?_
  refine bind_same fun gi => ?_
  refine bind_nat (wr_nat (pick σ) _ _ (by rfl)) fun w => ?_
  refine bind_nat (forL_nat (HArr.pick σ) _ { A with w := w } fun n A => ?_) fun A => ?_
  · refine bind_nat (rd_nat (pick σ) _ _) fun prev => ?_
    by_cases hn : n ≤ n_max
    · rw [if_pos hn, if_pos hn]
      refine bind_nat (h_row2F_nat σ F _ _ _ _ _ _ _ _ _) fun w => ?_
      refine bind_nat (rd_nat (pick σ) _ _) fun y => ?_
      refine bind_nat (wr_nat (pick σ) _ _ (by rfl)) fun v => ?_
      refine bind_nat (wr_nat (pick σ) _ _ (by rfl)) fun v => ?_
      rfl
    · rw [if_neg hn, if_neg hn]
      refine bind_nat (h_row2F_nat σ F _ _ _ _ _ _ _ _ _) fun x => ?_
      rfl
  refine bind_nat (forL_nat (fun st : List (HRow J) × HRow J => (st.1.map (pick σ), pick σ st.2)) _
    (A.w, ((fun _ => 1) : HRow J)) fun i st => ?_) fun st => ?_
  · exact bind_nat (upd_nat (pick σ) _ _ (by intro x; rfl)) fun H => rfl
  refine bind_nat (upd_nat (pick σ) _ _ (by intro x; rfl)) fun x => ?_
  refine bind_nat (rd_nat (pick σ) _ _) fun y => ?_
  refine bind_nat (wr_nat (pick σ) _ _ (by rfl)) fun v => ?_
  refine bind_nat (wr_nat (pick σ) _ _ (by rfl)) fun v => ?_
  rfl

theorem h_step_3F_nat (idx : ℤ → ℤ → ℤ → ℤ) (a b : List ℝ) (n_max : ℤ) (co si : HRow J) (w x : List (HRow J)) :
    h_step_3F F idx a b n_max (pick σ co) (pick σ si) (w.map (pick σ)) (x.map (pick σ)) =
      (h_step_3F F idx a b n_max co si w x).map (List.map (pick σ)) := by
  unfold h_step_3F
  refine forL_nat (List.map (pick σ)) _ _ fun n w => ?_
  refine bind_same fun b5 => ?_
  refine forL_nat (List.map (pick σ)) _ _ fun i w => ?_
  refine bind_same fun b6 => ?_
  refine bind_same fun b7 => ?_
  refine bind_same fun a8 => ?_
  have e : (if n + 1 ≤ n_max then w.map (pick σ) else x.map (pick σ)) = (if n + 1 ≤ n_max then w else x).map (pick σ) := by
    split_ifs <;> rfl
  simp only [e]
  refine bind_nat (rd_nat (pick σ) _ _) fun y2 => ?_
  refine bind_nat (rd_nat (pick σ) _ _) fun y0 => ?_
  refine bind_nat (rd_nat (pick σ) _ _) fun y1 => ?_
  refine bind_same fun r => ?_
  exact wr_nat (pick σ) _ _ (by rfl)

/-- The chosen columns of a pair of arrays. -/
def pick2 (st : List (HRow J) × List (HRow J)) : List (HRow K) × List (HRow K) := (st.1.map (pick σ), st.2.map (pick σ))

theorem h_body4F_nat (idx : ℤ → ℤ → ℤ → ℤ) (d : List ℝ) (n mp : ℤ) (st : List (HRow J) × List (HRow J)) :
    h_body4F F idx d n mp (pick2 σ st) = (h_body4F F idx d n mp st).map (pick2 σ) := by
  unfold h_body4F
  obtain ⟨w, v⟩ := st
  refine bind_same fun d5 => ?_
  refine bind_same fun d6 => ?_
  refine bind_same fun r => ?_
  refine bind_same fun d7 => ?_
  refine bind_same fun d8 => ?_
  refine bind_nat (rd_nat (pick σ) _ _) fun y2 => ?_
  refine bind_nat (rd_nat (pick σ) _ _) fun y3 => ?_
  refine bind_nat (rd_nat (pick σ) _ _) fun y4 => ?_
  refine bind_nat (wr_nat (pick σ) _ _ (by rfl)) fun v => ?_
  refine bind_nat (forL_nat (List.map (pick σ)) _ _ fun i w => ?_) fun w => ?_
  · refine bind_same fun d7 => ?_
    refine bind_same fun d8 => ?_
    refine bind_nat (rd_nat (pick σ) _ _) fun y2 => ?_
    refine bind_nat (rd_nat (pick σ) _ _) fun y3 => ?_
    refine bind_nat (rd_nat (pick σ) _ _) fun y4 => ?_
    exact wr_nat (pick σ) _ _ (by rfl)
  refine bind_same fun d7 => ?_
  refine bind_nat (rd_nat (pick σ) _ _) fun y2 => ?_
  refine bind_nat (rd_nat (pick σ) _ _) fun y3 => ?_
  refine bind_nat (wr_nat (pick σ) _ _ (by rfl)) fun w => ?_
  rfl

theorem h_body5F_nat (idx : ℤ → ℤ → ℤ → ℤ) (d : List ℝ) (n mp : ℤ) (st : List (HRow J) × List (HRow J)) :
    h_body5F F idx d n mp (pick2 σ st) = (h_body5F F idx d n mp st).map (pick2 σ) := by
  unfold h_body5F
  obtain ⟨w, v⟩ := st
  refine bind_same fun d5 => ?_
  refine bind_same fun d6 => ?_
  refine bind_same fun r => ?_
  refine bind_same fun d7 => ?_
  refine bind_same fun d8 => ?_
  refine bind_nat (F := pick σ) ?_ fun y2 => ?_
  · by_cases hm : mp = 0
    · simp only [if_pos hm]
      exact rd_nat (pick σ) _ _
    · simp only [if_neg hm]
      exact rd_nat (pick σ) _ _
  refine bind_nat (rd_nat (pick σ) _ _) fun y3 => ?_
  refine bind_nat (rd_nat (pick σ) _ _) fun y4 => ?_
  refine bind_nat (wr_nat (pick σ) _ _ (by rfl)) fun v => ?_
  refine bind_nat (forL_nat (List.map (pick σ)) _ _ fun i w => ?_) fun w => ?_
  · refine bind_same fun d7 => ?_
    refine bind_same fun d8 => ?_
    refine bind_nat (rd_nat (pick σ) _ _) fun y2 => ?_
    refine bind_nat (rd_nat (pick σ) _ _) fun y3 => ?_
    refine bind_nat (rd_nat (pick σ) _ _) fun y4 => ?_
    exact wr_nat (pick σ) _ _ (by rfl)
  refine bind_same fun d7 => ?_
  refine bind_nat (rd_nat (pick σ) _ _) fun y2 => ?_
  refine bind_nat (rd_nat (pick σ) _ _) fun y3 => ?_
  refine bind_nat (wr_nat (pick σ) _ _ (by rfl)) fun w => ?_
  rfl

theorem h_step_4F_nat (idx : ℤ → ℤ → ℤ → ℤ) (d : List ℝ) (n_max : ℤ) (st : List (HRow J) × List (HRow J)) :
    h_step_4F F idx d n_max (pick2 σ st) = (h_step_4F F idx d n_max st).map (pick2 σ) := by
  unfold h_step_4F
  refine forL_nat (pick2 σ) _ _ fun n st => ?_
  exact forL_nat (pick2 σ) _ _ fun mp st => h_body4F_nat σ F idx d n mp st

theorem h_step_5F_nat (idx : ℤ → ℤ → ℤ → ℤ) (d : List ℝ) (n_max : ℤ) (st : List (HRow J) × List (HRow J)) :
    h_step_5F F idx d n_max (pick2 σ st) = (h_step_5F F idx d n_max st).map (pick2 σ) := by
  unfold h_step_5F
  refine forL_nat (pick2 σ) _ _ fun n st => ?_
  exact forL_nat (pick2 σ) _ _ fun mp st => h_body5F_nat σ F idx d n mp st

theorem h_stepsF_nat (idx : ℤ → ℤ → ℤ → ℤ) (C : HCoef) (co si : HRow J) (A : HArr J) :
    h_stepsF F idx C (pick σ co) (pick σ si) (A.pick σ) = (h_stepsF F idx C co si A).map (HArr.pick σ) := by
  unfold h_stepsF
  refine bind_nat (h_step_1_nat σ _) fun w => ?_
  refine bind_nat (h_step_2F_nat σ F _ _ _ _ _ _ { A with w := w }) fun A => ?_
  refine bind_nat (h_step_3F_nat σ F _ _ _ _ _ _ _ _) fun w => ?_
  refine bind_nat (h_step_4F_nat σ F _ _ _ (w, A.v)) fun st => ?_
  refine bind_nat (h_step_5F_nat σ F _ _ _ st) fun st => ?_
  rfl

theorem h_step_6_nat (n_max : ℤ) (H : List (HRow J)) : h_step_6 n_max (H.map (pick σ)) = (h_step_6 n_max H).map (List.map (pick σ)) := by
  unfold h_step_6
  refine bind_nat (forL_nat (List.map (pick σ)) _ _ fun n H => ?_) fun H => ?_
  · refine forL_nat (List.map (pick σ)) _ _ fun mp H => ?_
    refine forL_nat (List.map (pick σ)) _ _ fun m H => ?_
    refine bind_nat (rd_nat (pick σ) _ _) fun y => ?_
    exact wr_nat (pick σ) _ _ (by rfl)
  · refine forL_nat (List.map (pick σ)) _ _ fun n H => ?_
    refine forL_nat (List.map (pick σ)) _ _ fun mp H => ?_
    refine forL_nat (List.map (pick σ)) _ _ fun m H => ?_
    refine bind_nat (rd_nat (pick σ) _ _) fun y => ?_
    exact wr_nat (pick σ) _ _ (by rfl)

end SF
