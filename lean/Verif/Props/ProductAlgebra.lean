import Verif.Props.Rotation
import Verif.Props.Lie
import Verif.Props.GridModes

/-!
# C100: the algebra of products of `Modes`

Products of `Modes` objects are associative, commute with conjugation, and the differential operators of the class obey
the product rule.  All statements are about the modes that the truncations keep.  The mode `(0, 0)` of `conj(f) g` is the scalar
product of `f` and `g`.
-/

set_option autoImplicit false

namespace SF

open Finset ComplexConjugate Quaternion

/-- `h` is returned by `f.multiply(g, truncator)`, for some truncator that gives an `ell_max` of at least `-1`
(`junk` and `junk'` are the uninitialized numbers of the two arrays of 3-j symbols). -/
def Multiplied (f g h : Modes) : Prop :=
  ∃ (junk junk' : ℕ → ℝ) (truncator : Option Trunc) (L : ℤ), -1 ≤ L ∧ ProductEllMax f g truncator L ∧
    f.multiplyM junk junk' g truncator = .ok h

/-- What the return value is (C32). -/
theorem Multiplied.spec {f g h : Modes} (e : Multiplied f g h) (hf : f.WF) (hg : g.WF) (hf0 : 0 ≤ f.ell_max) (hg0 : 0 ≤ g.ell_max)
    (hq : f.ell_max + g.ell_max ≤ 151) {lead : List ℕ} (hb : bcastShape f.lead g.lead = some lead) :
    h.WF ∧ h.lead = lead ∧ h.s = f.s + g.s ∧ ∀ l m, |f.s + g.s| ≤ l → |m| ≤ l → l ≤ h.ell_max → h.coef l m
        = mulSum f.s g.s h.ell_max 0 f.ell_max 0 g.ell_max (f.coefIn lead) (g.coefIn lead) l m := by
  obtain ⟨junk, junk', t, L, hL1, hL, e⟩ := e
  rcases multiplyM_ok (junk := junk) (junk' := junk') hf hg hf0 hg0 hq hL hL1 hb with ⟨k, e1, e2, e3, e4, e5, e6, e7⟩ | ⟨er, -⟩
  · obtain rfl := Except.ok.inj (e.symm.trans e1)
    subst e5
    exact ⟨e2, e3, e4, e7⟩
  · rw [e] at er; cases er

/-- An object with the modes of the product up to `K`. -/
theorem full_product {f g : Modes} (hf : f.WF) (hg : g.WF) (hf0 : 0 ≤ f.ell_max) (hg0 : 0 ≤ g.ell_max) {K : ℤ}
    (hK : f.ell_max + g.ell_max ≤ K) (lead : List ℕ) :
    ∃ P : Modes, P.WF ∧ P.lead = lead ∧ P.s = f.s + g.s ∧ P.ell_max = K ∧
      (∀ l m, |f.s + g.s| ≤ l → |m| ≤ l → l ≤ K → P.coef l m
        = mulSum f.s g.s K 0 f.ell_max 0 g.ell_max (f.coefIn lead) (g.coefIn lead) l m) ∧
      ∀ Q : ℍ[ℝ], normSq Q = 1 → ∀ idx, ValidIdx lead idx →
        fv P Q idx = fv f Q (bcIdx f.lead idx) * fv g Q (bcIdx g.lead idx) := by
  have hlen : ((LMlist 0 K).length : ℤ) = (K + 1) ^ 2 := by
    rw [LMlist_length le_rfl (by omega), LM_total_size_zero]
  obtain ⟨P, -, h2, h3, h4, h5, -, h7⟩ := remake_ok f lead ((LMlist 0 K).map fun t =>
    mulSum f.s g.s K 0 f.ell_max 0 g.ell_max (f.coefIn lead) (g.coefIn lead) t.1 t.2) (f.s + g.s) K (by omega)
    (by rw [List.length_map]; exact hlen)
  have hc : ∀ l m, |f.s + g.s| ≤ l → |m| ≤ l → l ≤ K → P.coef l m
        = mulSum f.s g.s K 0 f.ell_max 0 g.ell_max (f.coefIn lead) (g.coefIn lead) l m := by
    intro l m k1 k2 k3
    have := abs_le.mp k2
    exact coef_of_get (f := P) (ell := l) (m := m) (by
        rw [h7 l m k2 k3, if_pos k1, List.getElem?_map]
        unfold mpos
        rw [(LMlist_index (a := 0) (b := K) le_rfl (by have := abs_nonneg m; omega) k3 this.1 this.2).2]
        rfl)
  refine ⟨P, h2, h3, h4, h5, hc, fun Q hQ idx hv => ?_⟩
  exact field_product hf hg hK h4 h5 hc (unitQ.mpr hQ) hv

/-- A truncated product has the modes of the full product. -/
theorem Multiplied.eq_full {f g h : Modes} (e : Multiplied f g h) (hf : f.WF) (hg : g.WF) (hf0 : 0 ≤ f.ell_max) (hg0 : 0 ≤ g.ell_max)
    (hq : f.ell_max + g.ell_max ≤ 151) {lead : List ℕ} (hb : bcastShape f.lead g.lead = some lead) {K : ℤ} {P : Modes} (hP : P.WF)
    (hs : P.s = f.s + g.s) (hPK : P.ell_max = K)
    (hc : ∀ l m, |f.s + g.s| ≤ l → |m| ≤ l → l ≤ K → P.coef l m
        = mulSum f.s g.s K 0 f.ell_max 0 g.ell_max (f.coefIn lead) (g.coefIn lead) l m) {l m : ℤ} (hm : |m| ≤ l) (hl : l ≤ h.ell_max)
    (hlK : l ≤ K) : h.coef l m = P.coef l m := by
  obtain ⟨h1, h2, h3, h4⟩ := e.spec hf hg hf0 hg0 hq hb
  by_cases k : |f.s + g.s| ≤ l
  · rw [h4 l m k hm hl, hc l m k hm hlK]
    funext x
    rw [mulSum_eq _ _ hl hm, mulSum_eq _ _ hlK hm]
  · rw [h1.low l m (by rw [h3]; omega) hm hl, hP.low l m (by rw [hs]; omega) hm (by omega)]

/-! ## Associativity -/

theorem bcRev_one {a b c : List ℕ} (h : bcRev a b = some c) (i : List ℕ) :
    List.zipWith (fun d i => if d = 1 then 0 else i) a (List.zipWith (fun d i => if d = 1 then 0 else i) c i)
      = List.zipWith (fun d i => if d = 1 then 0 else i) a i := by
  induction a generalizing b c i with
  | nil => rfl
  | cons x a ih =>
    cases b with
    | nil =>
      simp only [bcRev, Option.some.injEq] at h
      subst h
      cases i with
      | nil => rfl
      | cons j i =>
        simp only [List.zipWith_cons_cons]
        rw [ih (bcRev_nil a)]
        split_ifs <;> rfl
    | cons y b =>
      unfold bcRev at h
      cases i with
      | nil => simp
      | cons j i =>
        split_ifs at h with h1 h2 h3 <;> rw [Option.map_eq_some_iff] at h <;> obtain ⟨t, ht, rfl⟩ := h <;>
          simp only [List.zipWith_cons_cons, ih ht] <;> congr 1 <;> split_ifs <;> first | rfl | omega

/-- The broadcast index of a broadcast index. -/
theorem bcIdx_bcIdx {a b c : List ℕ} (h : bcastShape a b = some c) (idx : MIdx) : bcIdx a (bcIdx c idx) = bcIdx a idx := by
  unfold bcastShape at h
  rw [Option.map_eq_some_iff] at h
  obtain ⟨t, ht, rfl⟩ := h
  unfold bcIdx
  rw [List.reverse_reverse, List.reverse_reverse, bcRev_one ht]

theorem bcIdx_bcIdx' {a b c : List ℕ} (h : bcastShape a b = some c) (idx : MIdx) : bcIdx b (bcIdx c idx) = bcIdx b idx :=
  bcIdx_bcIdx (by rw [bcastShape_comm]; exact h) idx

theorem bcRev_assoc {a b c ab bc l : List ℕ} (h1 : bcRev a b = some ab) (h2 : bcRev ab c = some l) (h3 : bcRev b c = some bc) :
    bcRev a bc = some l := by
  induction a generalizing b c ab bc l with
  | nil =>
    simp only [bcRev, Option.some.injEq] at h1 ⊢
    subst h1
    rw [h2] at h3
    injection h3 with h3
    exact h3.symm
  | cons x a ih =>
    cases b with
    | nil =>
      simp only [bcRev, Option.some.injEq] at h1 h3
      subst h1 h3
      exact h2
    | cons y b =>
      cases c with
      | nil =>
        simp only [bcRev, Option.some.injEq] at h3
        rw [bcRev_nil] at h2
        injection h2 with h2
        subst h2 h3
        exact h1
      | cons z c =>
        unfold bcRev at h1 h3
        split_ifs at h1 <;> rw [Option.map_eq_some_iff] at h1 <;> obtain ⟨t, ht, rfl⟩ := h1 <;>
        split_ifs at h3 <;> rw [Option.map_eq_some_iff] at h3 <;> obtain ⟨u, hu, rfl⟩ := h3 <;>
        unfold bcRev at h2 ⊢ <;>
        split_ifs at h2 <;> rw [Option.map_eq_some_iff] at h2 <;> obtain ⟨v, hv, rfl⟩ := h2 <;>
        have := ih ht hv hu <;> simp_all

/-- Broadcasting of shapes is associative. -/
theorem bcastShape_assoc {a b c ab bc l : List ℕ} (h1 : bcastShape a b = some ab) (h2 : bcastShape ab c = some l)
    (h3 : bcastShape b c = some bc) : bcastShape a bc = some l := by
  unfold bcastShape at *
  rw [Option.map_eq_some_iff] at *
  obtain ⟨t, ht, rfl⟩ := h1
  obtain ⟨u, hu, rfl⟩ := h2
  obtain ⟨v, hv, rfl⟩ := h3
  rw [List.reverse_reverse] at hu ⊢
  exact ⟨u, bcRev_assoc ht hu hv, rfl⟩

/-- **C100 (associativity).** `(f g) k` and `f (g k)` agree in spin weight, in leading shape, and in every mode that both keep,
if the inner products keep all their modes. -/
theorem C100_assoc (f g k fg gk x y : Modes) (hf : f.WF) (hg : g.WF) (hk : k.WF) (hf0 : 0 ≤ f.ell_max) (hg0 : 0 ≤ g.ell_max)
    (hk0 : 0 ≤ k.ell_max) (l1 l2 lead : List ℕ) (hb1 : bcastShape f.lead g.lead = some l1) (hb2 : bcastShape g.lead k.lead = some l2)
    (hb : bcastShape l1 k.lead = some lead) (e1 : Multiplied f g fg) (e2 : Multiplied g k gk) (h1 : f.ell_max + g.ell_max ≤ fg.ell_max)
    (h2 : g.ell_max + k.ell_max ≤ gk.ell_max) (hq1 : fg.ell_max + k.ell_max ≤ 151) (hq2 : f.ell_max + gk.ell_max ≤ 151)
    (e3 : Multiplied fg k x) (e4 : Multiplied f gk y) :
    x.s = y.s ∧ x.lead = y.lead ∧ x.lead = lead ∧
      ∀ l m idx, |m| ≤ l → l ≤ x.ell_max → l ≤ y.ell_max → ValidIdx lead idx → x.coef l m idx = y.coef l m idx := by
  obtain ⟨a1, a2, a3, a4⟩ := e1.spec hf hg hf0 hg0 (by omega) hb1
  obtain ⟨b1, b2, b3, b4⟩ := e2.spec hg hk hg0 hk0 (by omega) hb2
  have hb' : bcastShape f.lead l2 = some lead := bcastShape_assoc hb1 hb hb2
  have hx0 : 0 ≤ fg.ell_max := by omega
  have hy0 : 0 ≤ gk.ell_max := by omega
  have hbx : bcastShape fg.lead k.lead = some lead := by rw [a2]; exact hb
  have hby : bcastShape f.lead gk.lead = some lead := by rw [b2]; exact hb'
  obtain ⟨x1, x2, x3, -⟩ := e3.spec a1 hk hx0 hk0 hq1 hbx
  obtain ⟨y1, y2, y3, -⟩ := e4.spec hf b1 hf0 hy0 hq2 hby
  have hs : x.s = y.s := by rw [x3, y3, a3, b3]; ring
  refine ⟨hs, x2.trans y2.symm, x2, fun l m idx hm hlx hly hv => ?_⟩
  by_cases low : |x.s| ≤ l
  swap
  · rw [x1.low l m (by omega) hm hlx, y1.low l m (by rw [← hs]; omega) hm hly]
  let K : ℤ := max (max (fg.ell_max + k.ell_max) (f.ell_max + gk.ell_max)) (max x.ell_max y.ell_max)
  have K1 : fg.ell_max + k.ell_max ≤ K := (le_max_left _ _).trans (le_max_left _ _)
  have K2 : f.ell_max + gk.ell_max ≤ K := (le_max_right _ _).trans (le_max_left _ _)
  have K3 : x.ell_max ≤ K := (le_max_left _ _).trans (le_max_right _ _)
  obtain ⟨X, X1, X2, X3, X4, X5, X6⟩ := full_product a1 hk hx0 hk0 K1 lead
  obtain ⟨Y, Y1, Y2, Y3, Y4, Y5, Y6⟩ := full_product hf b1 hf0 hy0 K2 lead
  rw [e3.eq_full a1 hk hx0 hk0 hq1 hbx X1 X3 X4 X5 hm hlx (hlx.trans K3),
    e4.eq_full hf b1 hf0 hy0 hq2 hby Y1 Y3 Y4 Y5 hm hly (hlx.trans K3)]
  refine fieldValue_unique (s := x.s) (K := K) (c := fun l m => X.coef l m idx) (c' := fun l m => Y.coef l m idx) (fun Q hQ => ?_) low
    (hlx.trans K3) hm
  have ex := X6 Q hQ idx hv
  have ey := Y6 Q hQ idx hv
  have v1 := (bcIdx_valid hb hv).1
  have v2 := (bcIdx_valid hb' hv).2
  have ef := field_product hf hg h1 a3 rfl a4 (unitQ.mpr hQ) v1
  have eg := field_product hg hk h2 b3 rfl b4 (unitQ.mpr hQ) v2
  have i1 : bcIdx f.lead (bcIdx l1 idx) = bcIdx f.lead idx := bcIdx_bcIdx hb1 idx
  have i2 : bcIdx g.lead (bcIdx l1 idx) = bcIdx g.lead idx := bcIdx_bcIdx' hb1 idx
  have i3 : bcIdx g.lead (bcIdx l2 idx) = bcIdx g.lead idx := bcIdx_bcIdx hb2 idx
  have i4 : bcIdx k.lead (bcIdx l2 idx) = bcIdx k.lead idx := bcIdx_bcIdx' hb2 idx
  rw [i1, i2] at ef
  rw [i3, i4] at eg
  rw [a2] at ex
  rw [b2] at ey
  unfold fv at ex ey
  rw [X3, X4, ef] at ex
  rw [Y3, Y4, eg] at ey
  rw [x3, ex, ← x3, hs, y3, ey]
  ring

/-! ## Conjugation -/

/-- **C100 (conjugation).** The conjugate of a product is the product of the conjugates. -/
theorem C100_conjugate (f g h f' g' h' k : Modes) (hf : f.WF) (hg : g.WF) (hf0 : 0 ≤ f.ell_max) (hg0 : 0 ≤ g.ell_max)
    (hq : f.ell_max + g.ell_max ≤ 151) (lead : List ℕ) (hb : bcastShape f.lead g.lead = some lead) (e : Multiplied f g h)
    (inplace : Bool) (cf : f.conjugate inplace = .ok f') (cg : g.conjugate inplace = .ok g') (ch : h.conjugate inplace = .ok h')
    (e' : Multiplied f' g' k) :
    h'.s = k.s ∧ h'.lead = k.lead ∧
      ∀ l m idx, |m| ≤ l → l ≤ h.ell_max → l ≤ k.ell_max → ValidIdx lead idx → h'.coef l m idx = k.coef l m idx := by
  obtain ⟨a1, a2, a3, a4⟩ := e.spec hf hg hf0 hg0 hq hb
  obtain ⟨f'', c1, c2⟩ := conjugate_ok hf inplace
  obtain rfl := Except.ok.inj (cf.symm.trans c1)
  obtain ⟨g'', d1, d2⟩ := conjugate_ok hg inplace
  obtain rfl := Except.ok.inj (cg.symm.trans d1)
  obtain ⟨h'', r1, r2⟩ := conjugate_ok a1 inplace
  obtain rfl := Except.ok.inj (ch.symm.trans r1)
  have hf0' : 0 ≤ f'.ell_max := by rw [c2.hL]; exact hf0
  have hg0' : 0 ≤ g'.ell_max := by rw [d2.hL]; exact hg0
  have hq' : f'.ell_max + g'.ell_max ≤ 151 := by rw [c2.hL, d2.hL]; exact hq
  have hb' : bcastShape f'.lead g'.lead = some lead := by rw [c2.lead, d2.lead]; exact hb
  obtain ⟨b1, b2, b3, b4⟩ := e'.spec c2.wf d2.wf hf0' hg0' hq' hb'
  have hs : h'.s = k.s := by rw [r2.hs, b3, c2.hs, d2.hs, a3]; ring
  refine ⟨hs, by rw [r2.lead, a2, b2], fun l m idx hm hl hl' hv => ?_⟩
  have hlh : l ≤ h'.ell_max := by rw [r2.hL]; exact hl
  by_cases low : |h'.s| ≤ l
  swap
  · rw [r2.wf.low l m (by omega) hm hlh, b1.low l m (by rw [← hs]; omega) hm hl']
  let K : ℤ := max (f.ell_max + g.ell_max) h.ell_max
  have K1 : f.ell_max + g.ell_max ≤ K := le_max_left _ _
  have K2 : h.ell_max ≤ K := le_max_right _ _
  have K1' : f'.ell_max + g'.ell_max ≤ K := by rw [c2.hL, d2.hL]; exact K1
  obtain ⟨X, X1, X2, X3, X4, X5, X6⟩ := full_product hf hg hf0 hg0 K1 lead
  obtain ⟨Y, Y1, Y2, Y3, Y4, Y5, Y6⟩ := full_product c2.wf d2.wf hf0' hg0' K1' lead
  have low' : |h.s| ≤ l := by rw [r2.hs, abs_neg] at low; exact low
  rw [e'.eq_full c2.wf d2.wf hf0' hg0' hq' hb' Y1 Y3 Y4 Y5 hm hl' (hl.trans K2), r2.coef l m (by rwa [abs_neg]) hm hl]
  beta_reduce
  rw [e.eq_full hf hg hf0 hg0 hq hb X1 X3 X4 X5 (by rwa [abs_neg]) hl (hl.trans K2)]
  refine fieldValue_unique (s := -h.s) (K := K) (c := fun l m => (-1 : ℂ) ^ (h.s + m) * conj (X.coef l (-m) idx))
    (c' := fun l m => Y.coef l m idx) (fun Q hQ => ?_) (by rwa [abs_neg]) (hl.trans K2) hm
  have ex := X6 Q hQ idx hv
  have ey := Y6 Q hQ idx hv
  have cv : ∀ {p p' : Modes}, OpRes p p' (-p.s) (fun ell m x => (-1 : ℂ) ^ (p.s + m) * conj (p.coef ell (-m) x)) → ∀ i,
      fv p' Q i = conj (fv p Q i) := by
    intro p p' o i
    unfold fv
    rw [← fieldValue_conj, o.hs, o.hL]
    exact fieldValue_congr _ _ fun ell m q1 q2 q3 => by rw [o.coef ell m (by simpa using q1) q2 q3]
  rw [cv c2, cv d2, c2.lead, d2.lead, ← map_mul, ← ex] at ey
  rw [fieldValue_conj (c := fun l m => X.coef l m idx)]
  unfold fv at ey
  rw [X3, X4, ← a3, Y3, Y4, c2.hs, d2.hs, show -f.s + -g.s = -h.s by rw [a3]; ring] at ey
  exact ey.symm

/-! ## The product rule -/

/-- The first-order differential operators of the class. -/
noncomputable def derivations : List (Modes → Py Modes) :=
  [Modes.Lz, Modes.Lplus, Modes.Lminus, Modes.Rz, Modes.Rplus, Modes.Rminus, Modes.eth, Modes.ethbar]

/-- The curve through `Q` generated by `v`, on the left or on the right. -/
noncomputable def curve (left : Bool) (v : ℍ[ℝ]) (Q : ℍ[ℝ]) (t : ℝ) : ℍ[ℝ] :=
  if left then NormedSpace.exp (t • v) * Q else Q * NormedSpace.exp (t • v)

theorem curve_zero (left : Bool) (v Q : ℍ[ℝ]) : curve left v Q 0 = Q := by
  unfold curve; split_ifs <;> simp

/-- The value of an operator is a fixed combination of derivatives along the three curves. -/
def ActsBy (T : Modes → Py Modes) (left : Bool) (cx cy cz : ℂ) : Prop :=
  ∀ f : Modes, f.WF → ∀ f', T f = .ok f' → ∀ (Q : ℍ[ℝ]) (idx : MIdx), ∃ dx dy dz : ℂ,
    HasDerivAt (fun t : ℝ => fv f (curve left (mkQ 0 1 0 0) Q t) idx) dx 0 ∧
    HasDerivAt (fun t : ℝ => fv f (curve left (mkQ 0 0 1 0) Q t) idx) dy 0 ∧
    HasDerivAt (fun t : ℝ => fv f (curve left (mkQ 0 0 0 1) Q t) idx) dz 0 ∧
    fv f' Q idx = cx * dx + cy * dy + cz * dz

theorem actsBy_left : ActsBy Modes.Lz true 0 0 (-(1 / 2) * Complex.I) ∧ ActsBy Modes.Lplus true (-(1 / 2) * Complex.I) (1 / 2) 0 ∧
    ActsBy Modes.Lminus true (-(1 / 2) * Complex.I) (-(1 / 2)) 0 := by
  have key : ∀ f : Modes, f.WF → ∃ gz gp gm, f.Lz = .ok gz ∧ f.Lplus = .ok gp ∧ f.Lminus = .ok gm ∧ ∀ Q idx,
      HasDerivAt (fun t : ℝ => fv f (curve true (mkQ 0 1 0 0) Q t) idx) (Complex.I * (fv gp Q idx + fv gm Q idx)) 0 ∧
      HasDerivAt (fun t : ℝ => fv f (curve true (mkQ 0 0 1 0) Q t) idx) (fv gp Q idx - fv gm Q idx) 0 ∧
      HasDerivAt (fun t : ℝ => fv f (curve true (mkQ 0 0 0 1) Q t) idx) (2 * Complex.I * fv gz Q idx) 0 := by
    intro f hf
    obtain ⟨gz, z1, -⟩ := Lz_ok hf
    obtain ⟨gp, p1, -⟩ := Lplus_ok hf
    obtain ⟨gm, m1, -⟩ := Lminus_ok hf
    refine ⟨gz, gp, gm, z1, p1, m1, fun Q idx => ?_⟩
    have g : ∀ {x y z : ℝ}, x ^ 2 + y ^ 2 + z ^ 2 = 1 →
        HasDerivAt (fun t : ℝ => fv f (NormedSpace.exp (t • mkQ 0 x y z) * Q) idx)
        (2 * Complex.I * (x * ((fv gp Q idx + fv gm Q idx) / 2) + y * ((fv gp Q idx - fv gm Q idx) / (2 * Complex.I))
          + z * fv gz Q idx)) 0 := by
      intro x y z hu
      obtain ⟨gz', gp', gm', e1, e2, e3, e4⟩ := C38_left_all_generators hf hu Q idx
      obtain rfl := Except.ok.inj (z1.symm.trans e1)
      obtain rfl := Except.ok.inj (p1.symm.trans e2)
      obtain rfl := Except.ok.inj (m1.symm.trans e3)
      exact e4
    have hI := Complex.I_ne_zero
    refine ⟨HasDerivAt.congr_deriv (g (x := 1) (y := 0) (z := 0) (by norm_num)) ?_,
      HasDerivAt.congr_deriv (g (x := 0) (y := 1) (z := 0) (by norm_num)) ?_,
      HasDerivAt.congr_deriv (g (x := 0) (y := 0) (z := 1) (by norm_num)) ?_⟩ <;> push_cast <;> field_simp <;> ring
  have I2 := Complex.I_mul_I
  refine ⟨fun f hf f' e Q idx => ?_, fun f hf f' e Q idx => ?_, fun f hf f' e Q idx => ?_⟩ <;>
    obtain ⟨gz, gp, gm, e1, e2, e3, e4⟩ := key f hf <;> obtain ⟨q1, q2, q3⟩ := e4 Q idx <;>
    refine ⟨_, _, _, q1, q2, q3, ?_⟩
  · obtain rfl := Except.ok.inj (e.symm.trans e1)
    linear_combination (fv f' Q idx) * I2
  · obtain rfl := Except.ok.inj (e.symm.trans e2)
    linear_combination (1 / 2) * (fv f' Q idx + fv gm Q idx) * I2
  · obtain rfl := Except.ok.inj (e.symm.trans e3)
    linear_combination (1 / 2) * (fv gp Q idx + fv f' Q idx) * I2

theorem actsBy_right : ActsBy Modes.Rz false 0 0 (-(1 / 2) * Complex.I) ∧ ActsBy Modes.Rplus false ((1 / 2) * Complex.I) (1 / 2) 0 ∧
    ActsBy Modes.Rminus false ((1 / 2) * Complex.I) (-(1 / 2)) 0 := by
  have key : ∀ f : Modes, f.WF → ∃ gz gp gm, f.Rz = .ok gz ∧ f.Rplus = .ok gp ∧ f.Rminus = .ok gm ∧ ∀ Q idx,
      HasDerivAt (fun t : ℝ => fv f (curve false (mkQ 0 1 0 0) Q t) idx) (-Complex.I * (fv gp Q idx + fv gm Q idx)) 0 ∧
      HasDerivAt (fun t : ℝ => fv f (curve false (mkQ 0 0 1 0) Q t) idx) (fv gp Q idx - fv gm Q idx) 0 ∧
      HasDerivAt (fun t : ℝ => fv f (curve false (mkQ 0 0 0 1) Q t) idx) (2 * Complex.I * fv gz Q idx) 0 := by
    intro f hf
    obtain ⟨gz, z1, -⟩ := Rz_ok hf
    obtain ⟨gp, p1, -⟩ := Rplus_ok hf
    obtain ⟨gm, m1, -⟩ := Rminus_ok hf
    refine ⟨gz, gp, gm, z1, p1, m1, fun Q idx => ?_⟩
    have g : ∀ {x y z : ℝ}, x ^ 2 + y ^ 2 + z ^ 2 = 1 →
        HasDerivAt (fun t : ℝ => fv f (Q * NormedSpace.exp (t • mkQ 0 x y z)) idx)
        (2 * Complex.I * (-(x * ((fv gp Q idx + fv gm Q idx) / 2)) - y * ((fv gm Q idx - fv gp Q idx) / (2 * Complex.I))
          + z * fv gz Q idx)) 0 := by
      intro x y z hu
      obtain ⟨gz', gp', gm', e1, e2, e3, e4⟩ := C38_right_all_generators hf hu Q idx
      obtain rfl := Except.ok.inj (z1.symm.trans e1)
      obtain rfl := Except.ok.inj (p1.symm.trans e2)
      obtain rfl := Except.ok.inj (m1.symm.trans e3)
      exact e4
    have hI := Complex.I_ne_zero
    refine ⟨HasDerivAt.congr_deriv (g (x := 1) (y := 0) (z := 0) (by norm_num)) ?_,
      HasDerivAt.congr_deriv (g (x := 0) (y := 1) (z := 0) (by norm_num)) ?_,
      HasDerivAt.congr_deriv (g (x := 0) (y := 0) (z := 1) (by norm_num)) ?_⟩ <;> push_cast <;> field_simp <;> ring
  have I2 := Complex.I_mul_I
  refine ⟨fun f hf f' e Q idx => ?_, fun f hf f' e Q idx => ?_, fun f hf f' e Q idx => ?_⟩ <;>
    obtain ⟨gz, gp, gm, e1, e2, e3, e4⟩ := key f hf <;> obtain ⟨q1, q2, q3⟩ := e4 Q idx <;>
    refine ⟨_, _, _, q1, q2, q3, ?_⟩
  · obtain rfl := Except.ok.inj (e.symm.trans e1)
    linear_combination (fv f' Q idx) * I2
  · obtain rfl := Except.ok.inj (e.symm.trans e2)
    linear_combination (1 / 2) * (fv f' Q idx + fv gm Q idx) * I2
  · obtain rfl := Except.ok.inj (e.symm.trans e3)
    linear_combination (1 / 2) * (fv gp Q idx + fv f' Q idx) * I2

theorem ActsBy.neg {T T' : Modes → Py Modes} {left : Bool} {cx cy cz : ℂ} (h : ActsBy T left cx cy cz)
    (hT : ∀ f : Modes, f.WF → ∃ a b, T f = .ok a ∧ T' f = .ok b ∧ ∀ Q idx, fv b Q idx = -fv a Q idx) :
    ActsBy T' left (-cx) (-cy) (-cz) := by
  intro f hf f' e Q idx
  obtain ⟨a, b, e1, e2, e3⟩ := hT f hf
  obtain rfl := Except.ok.inj (e.symm.trans e2)
  obtain ⟨dx, dy, dz, h1, h2, h3, h4⟩ := h f hf a e1 Q idx
  exact ⟨dx, dy, dz, h1, h2, h3, by rw [e3, h4]; ring⟩

/-- Every operator of the list is a derivation of this kind. -/
theorem derivations_act {T : Modes → Py Modes} (hT : T ∈ derivations) : ∃ left cx cy cz, ActsBy T left cx cy cz := by
  simp only [derivations, List.mem_cons, List.not_mem_nil, or_false] at hT
  rcases hT with rfl | rfl | rfl | rfl | rfl | rfl | rfl | rfl
  · exact ⟨_, _, _, _, actsBy_left.1⟩
  · exact ⟨_, _, _, _, actsBy_left.2.1⟩
  · exact ⟨_, _, _, _, actsBy_left.2.2⟩
  · exact ⟨_, _, _, _, actsBy_right.1⟩
  · exact ⟨_, _, _, _, actsBy_right.2.1⟩
  · exact ⟨_, _, _, _, actsBy_right.2.2⟩
  · exact ⟨_, _, _, _, actsBy_right.2.2⟩
  · refine ⟨_, _, _, _, actsBy_right.2.1.neg fun f hf => ?_⟩
    obtain ⟨a, a1, a2⟩ := Rplus_ok hf
    obtain ⟨b, b1, b2⟩ := ethbar_ok hf
    refine ⟨a, b, a1, b1, fun Q idx => ?_⟩
    unfold fv Spec.fieldValue
    rw [a2.hs, b2.hs, a2.hL, b2.hL, ← Finset.sum_neg_distrib]
    apply Finset.sum_congr rfl
    intro l h1
    rw [← Finset.sum_neg_distrib]
    apply Finset.sum_congr rfl
    intro m h2
    rw [mem_Icc] at h1 h2
    beta_reduce
    rw [a2.coef l m h1.1 (abs_le.mpr h2) h1.2, b2.coef l m h1.1 (abs_le.mpr h2) h1.2]
    ring

/-- The operators act on the modes of one `ell` only, and shift the spin weight by a fixed number. -/
theorem derivations_local {T : Modes → Py Modes} (hT : T ∈ derivations) : ∃ δ : ℤ, ∀ f : Modes, f.WF → ∃ f', T f = .ok f' ∧ f'.WF ∧
    f'.lead = f.lead ∧ f'.s = f.s + δ ∧ f'.ell_max = f.ell_max ∧
    ∀ g g' : Modes, g.WF → T g = .ok g' → g.s = f.s → ∀ l m idx, |m| ≤ l → l ≤ f.ell_max → l ≤ g.ell_max →
      (∀ n, |n| ≤ l → f.coef l n idx = g.coef l n idx) → f'.coef l m idx = g'.coef l m idx := by
  have key : ∀ {T : Modes → Py Modes} {δ : ℤ} (F : ℤ → ℤ → ℤ → (ℤ → ℂ) → ℂ),
      (∀ f : Modes, f.WF → ∃ f', T f = .ok f' ∧ OpRes f f' (f.s + δ) fun l m x => F f.s l m (fun n => f.coef l n x)) →
      (∀ s l m (c c' : ℤ → ℂ), |m| ≤ l → (∀ n, |n| ≤ l → c n = c' n) → F s l m c = F s l m c') →
      ∃ δ : ℤ, ∀ f : Modes, f.WF → ∃ f', T f = .ok f' ∧ f'.WF ∧
        f'.lead = f.lead ∧ f'.s = f.s + δ ∧ f'.ell_max = f.ell_max ∧
        ∀ g g' : Modes, g.WF → T g = .ok g' → g.s = f.s → ∀ l m idx, |m| ≤ l → l ≤ f.ell_max → l ≤ g.ell_max →
          (∀ n, |n| ≤ l → f.coef l n idx = g.coef l n idx) → f'.coef l m idx = g'.coef l m idx := by
    intro T δ F h hF
    refine ⟨δ, fun f hf => ?_⟩
    obtain ⟨f', a1, a2⟩ := h f hf
    refine ⟨f', a1, a2.wf, a2.lead, a2.hs, a2.hL, fun g g' hg e hs l m idx hm h1 h2 hc => ?_⟩
    obtain ⟨g'', b1, b2⟩ := h g hg
    obtain rfl := Except.ok.inj (e.symm.trans b1)
    by_cases low : |f.s + δ| ≤ l
    · rw [a2.coef l m low hm h1, b2.coef l m (by rw [hs]; exact low) hm h2]
      beta_reduce
      rw [hs]
      exact hF _ _ _ _ _ hm hc
    · rw [a2.wf.low l m (by rw [a2.hs]; omega) hm (by rw [a2.hL]; exact h1),
        b2.wf.low l m (by rw [b2.hs, hs]; omega) hm (by rw [b2.hL]; exact h2)]
  simp only [derivations, List.mem_cons, List.not_mem_nil, or_false] at hT
  rcases hT with rfl | rfl | rfl | rfl | rfl | rfl | rfl | rfl
  · refine key (δ := 0) (fun _ _ m c => (m : ℂ) * c m) (fun f hf => by simpa only [add_zero] using Lz_ok hf) ?_
    intro s l m c c' hm h; rw [h m hm]
  · refine key (δ := 0) (fun _ l m c => if m = -l then 0 else isqrtC ((l + m) * (l - m + 1)) * c (m - 1))
      (fun f hf => by simpa only [add_zero] using Lplus_ok hf) ?_
    intro s l m c c' hm h
    split_ifs with h1
    · rfl
    · have := abs_le.mp hm
      rw [h (m - 1) (abs_le.mpr (by omega))]
  · refine key (δ := 0) (fun _ l m c => if m = l then 0 else isqrtC ((l - m) * (l + m + 1)) * c (m + 1))
      (fun f hf => by simpa only [add_zero] using Lminus_ok hf) ?_
    intro s l m c c' hm h
    split_ifs with h1
    · rfl
    · have := abs_le.mp hm
      rw [h (m + 1) (abs_le.mpr (by omega))]
  · refine key (δ := 0) (fun s _ m c => -(s : ℂ) * c m) (fun f hf => by simpa only [add_zero] using Rz_ok hf) ?_
    intro s l m c c' hm h; rw [h m hm]
  · refine key (δ := -1) (fun s l m c => isqrtC ((l - (s - 1)) * (l + (s - 1) + 1)) * c m) (fun f hf => Rplus_ok hf) ?_
    intro s l m c c' hm h; rw [h m hm]
  · refine key (δ := 1) (fun s l m c => isqrtC ((l + (s + 1)) * (l - (s + 1) + 1)) * c m) (fun f hf => Rminus_ok hf) ?_
    intro s l m c c' hm h; rw [h m hm]
  · refine key (δ := 1) (fun s l m c => isqrtC ((l + (s + 1)) * (l - (s + 1) + 1)) * c m) (fun f hf => Rminus_ok hf) ?_
    intro s l m c c' hm h; rw [h m hm]
  · refine key (δ := -1) (fun s l m c => -(isqrtC ((l - (s - 1)) * (l + (s - 1) + 1)) * c m)) (fun f hf => ethbar_ok hf) ?_
    intro s l m c c' hm h; rw [h m hm]

theorem curve_unit (left : Bool) {x y z : ℝ} (hu : x ^ 2 + y ^ 2 + z ^ 2 = 1) {Q : ℍ[ℝ]} (hQ : normSq Q = 1) (t : ℝ) :
    normSq (curve left (mkQ 0 x y z) Q t) = 1 := by
  unfold curve
  split_ifs <;> rw [map_mul, exp_unit hu, hQ, one_mul]

/-- **C100 (the product rule).** Each of `Lz`, `Lplus`, `Lminus`, `Rz`, `Rplus`, `Rminus`, `eth` and `ethbar` obeys
`T(f g) = (T f) g + f (T g)`, in every mode that the three truncations keep. -/
theorem C100_product_rule (T : Modes → Py Modes) (hT : T ∈ derivations) (f g h f' g' h' a b : Modes) (hf : f.WF) (hg : g.WF)
    (hf0 : 0 ≤ f.ell_max) (hg0 : 0 ≤ g.ell_max) (hq : f.ell_max + g.ell_max ≤ 151) (lead : List ℕ)
    (hb : bcastShape f.lead g.lead = some lead) (e : Multiplied f g h) (ef : T f = .ok f') (eg : T g = .ok g') (eh : T h = .ok h')
    (ea : Multiplied f' g a) (eb : Multiplied f g' b) :
    h'.s = a.s ∧ a.s = b.s ∧ h'.lead = a.lead ∧ a.lead = b.lead ∧
      ∀ l m idx, |m| ≤ l → l ≤ h.ell_max → l ≤ a.ell_max → l ≤ b.ell_max → ValidIdx lead idx →
        h'.coef l m idx = a.coef l m idx + b.coef l m idx := by
  obtain ⟨δ, hloc⟩ := derivations_local hT
  obtain ⟨left, cx, cy, cz, hact⟩ := derivations_act hT
  obtain ⟨h1, h2, h3, -⟩ := e.spec hf hg hf0 hg0 hq hb
  obtain ⟨_, f1, f2, f3, f4, f5, -⟩ := hloc f hf
  obtain rfl := Except.ok.inj (ef.symm.trans f1)
  obtain ⟨_, g1, g2, g3, g4, g5, -⟩ := hloc g hg
  obtain rfl := Except.ok.inj (eg.symm.trans g1)
  obtain ⟨_, i1, i2, i3, i4, i5, i6⟩ := hloc h h1
  obtain rfl := Except.ok.inj (eh.symm.trans i1)
  have hf0' : 0 ≤ f'.ell_max := by rw [f5]; exact hf0
  have hg0' : 0 ≤ g'.ell_max := by rw [g5]; exact hg0
  have hqa : f'.ell_max + g.ell_max ≤ 151 := by rw [f5]; exact hq
  have hqb : f.ell_max + g'.ell_max ≤ 151 := by rw [g5]; exact hq
  have hba : bcastShape f'.lead g.lead = some lead := by rw [f3]; exact hb
  have hbb : bcastShape f.lead g'.lead = some lead := by rw [g3]; exact hb
  obtain ⟨a1, a2, a3, -⟩ := ea.spec f2 hg hf0' hg0 hqa hba
  obtain ⟨b1, b2, b3, -⟩ := eb.spec hf g2 hf0 hg0' hqb hbb
  have s1 : h'.s = a.s := by rw [i4, h3, a3, f4]; ring
  have s2 : a.s = b.s := by rw [a3, b3, f4, g4]; ring
  refine ⟨s1, s2, by rw [i3, h2, a2], by rw [a2, b2], fun l m idx hm hlh hla hlb hv => ?_⟩
  by_cases low : |h'.s| ≤ l
  swap
  · rw [i2.low l m (by omega) hm (by rw [i5]; exact hlh), a1.low l m (by rw [← s1]; omega) hm hla,
      b1.low l m (by rw [← s2, ← s1]; omega) hm hlb, add_zero]
  let K : ℤ := max (f.ell_max + g.ell_max) h.ell_max
  have K1 : f.ell_max + g.ell_max ≤ K := le_max_left _ _
  have K2 : h.ell_max ≤ K := le_max_right _ _
  have hlK : l ≤ K := hlh.trans K2
  obtain ⟨P, P1, P2, P3, P4, P5, P6⟩ := full_product hf hg hf0 hg0 K1 lead
  obtain ⟨A, A1, A2, A3, A4, A5, A6⟩ := full_product (K := K) f2 hg hf0' hg0 (by rw [f5]; exact K1) lead
  obtain ⟨B, B1, B2, B3, B4, B5, B6⟩ := full_product (K := K) hf g2 hf0 hg0' (by rw [g5]; exact K1) lead
  obtain ⟨P', p1, p2, p3, p4, p5, -⟩ := hloc P P1
  rw [ea.eq_full f2 hg hf0' hg0 hqa hba A1 A3 A4 A5 hm hla hlK, eb.eq_full hf g2 hf0 hg0' hqb hbb B1 B3 B4 B5 hm hlb hlK,
    i6 P P' P1 p1 (P3.trans h3.symm) l m idx hm hlh (by rw [P4]; exact hlK) fun n hn => by
      rw [e.eq_full hf hg hf0 hg0 hq hb P1 P3 P4 P5 hn hlh hlK]]
  refine fieldValue_unique (s := h'.s) (K := K) (c := fun l m => P'.coef l m idx)
    (c' := fun l m => A.coef l m idx + B.coef l m idx) (fun Q hQ => ?_) low hlK hm
  have sP : P'.s = h'.s := by rw [p4, P3, i4, h3]
  have sA : A.s = h'.s := by rw [A3, s1, a3]
  have sB : B.s = h'.s := by rw [B3, s1, s2, b3]
  have add : Spec.fieldValue h'.s K (fun l m => A.coef l m idx + B.coef l m idx) (partA Q) (partB Q) = fv A Q idx + fv B Q idx := by
    unfold fv Spec.fieldValue
    rw [sA, sB, A4, B4, ← Finset.sum_add_distrib]
    apply Finset.sum_congr rfl
    intro l _
    rw [← Finset.sum_add_distrib]
    apply Finset.sum_congr rfl
    intro m _
    ring
  have eP : Spec.fieldValue h'.s K (fun l m => P'.coef l m idx) (partA Q) (partB Q) = fv P' Q idx := by
    unfold fv; rw [sP, p5, P4]
  rw [add, eP, A6 Q hQ idx hv, B6 Q hQ idx hv, f3, g3]
  obtain ⟨dx, dy, dz, u1, u2, u3, u4⟩ := hact P P1 P' p1 Q idx
  obtain ⟨fx, fy, fz, v1, v2, v3, v4⟩ := hact f hf f' f1 Q (bcIdx f.lead idx)
  obtain ⟨gx, gy, gz, w1, w2, w3, w4⟩ := hact g hg g' g1 Q (bcIdx g.lead idx)
  have leib : ∀ {x y z : ℝ} {d d1 d2 : ℂ}, x ^ 2 + y ^ 2 + z ^ 2 = 1 →
      HasDerivAt (fun t : ℝ => fv P (curve left (mkQ 0 x y z) Q t) idx) d 0 →
      HasDerivAt (fun t : ℝ => fv f (curve left (mkQ 0 x y z) Q t) (bcIdx f.lead idx)) d1 0 →
      HasDerivAt (fun t : ℝ => fv g (curve left (mkQ 0 x y z) Q t) (bcIdx g.lead idx)) d2 0 →
      d = d1 * fv g Q (bcIdx g.lead idx) + fv f Q (bcIdx f.lead idx) * d2 := by
    intro x y z d d1 d2 hu k k1 k2
    have km := k1.mul k2
    have hfun : (fun t : ℝ => fv P (curve left (mkQ 0 x y z) Q t) idx)
        = (fun t : ℝ => fv f (curve left (mkQ 0 x y z) Q t) (bcIdx f.lead idx))
          * fun t : ℝ => fv g (curve left (mkQ 0 x y z) Q t) (bcIdx g.lead idx) := by
      funext t
      exact P6 _ (curve_unit left hu hQ t) idx hv
    rw [hfun] at k
    have := k.unique km
    rw [curve_zero] at this
    exact this
  rw [u4, v4, w4, leib (by norm_num) u1 v1 w1, leib (by norm_num) u2 v2 w2, leib (by norm_num) u3 v3 w3]
  ring

/-! ## Concrete cases -/

/-- Products of objects of small `ell_max` return. -/
theorem Multiplied.exists {f g : Modes} (hf : f.WF) (hg : g.WF) (hf0 : 0 ≤ f.ell_max) (hg0 : 0 ≤ g.ell_max)
    (hq : f.ell_max + g.ell_max ≤ 22) {lead : List ℕ} (hb : bcastShape f.lead g.lead = some lead) (L : ℤ) (hL : -1 ≤ L) :
    ∃ h, Multiplied f g h ∧ h.ell_max = L ∧ h.WF ∧ h.lead = lead := by
  rcases multiplyM_ok (junk := fun _ => 7) (junk' := fun _ => 8) (truncator := some fun _ _ => L) hf hg hf0 hg0 (by omega) (L := L) rfl hL hb
    with ⟨h, e1, e2, e3, e4, e5, e6, e7⟩ | ⟨-, hz⟩
  · exact ⟨h, ⟨_, _, some fun _ _ => L, L, hL, rfl, e1⟩, e5, e2, e3⟩
  · exact absurd hz (C32_no_exception (.inl hq))

/-- `ethbar` of the square of an object of spin weight `-1`, truncated at `ell = 3`. -/
example : ∃ h h' f' a b, Multiplied exModes exModes h ∧ h.ell_max = 3 ∧ h.ethbar = .ok h' ∧ exModes.ethbar = .ok f' ∧
    Multiplied f' exModes a ∧ Multiplied exModes f' b ∧ a.ell_max = 4 ∧ b.ell_max = 3 ∧
    h'.coef 3 2 [1] = a.coef 3 2 [1] + b.coef 3 2 [1] := by
  have h2 : exModes.ell_max = 2 := rfl
  have hb : bcastShape exModes.lead exModes.lead = some [2] := by decide
  obtain ⟨f', f1, f2⟩ := ethbar_ok exModes_WF
  have g2 : f'.ell_max = 2 := f2.hL.trans h2
  obtain ⟨h, e, e1, e2, -⟩ := Multiplied.exists exModes_WF exModes_WF (by omega) (by omega) (by omega) hb 3 (by omega)
  obtain ⟨a, ea, a1, -⟩ := Multiplied.exists f2.wf exModes_WF (by omega) (by omega) (by omega) (lead := [2]) (by rw [f2.lead]; exact hb) 4 (by omega)
  obtain ⟨b, eb, b1, -⟩ := Multiplied.exists exModes_WF f2.wf (by omega) (by omega) (by omega) (lead := [2]) (by rw [f2.lead]; exact hb) 3 (by omega)
  obtain ⟨h', h1, -⟩ := ethbar_ok e2
  exact ⟨h, h', f', a, b, e, e1, h1, f1, ea, eb, a1, b1,
    (C100_product_rule Modes.ethbar (by simp [derivations]) _ _ h f' f' h' a b exModes_WF exModes_WF (by omega) (by omega) (by omega) [2] hb
      e f1 f1 h1 ea eb).2.2.2.2 3 2 [1] (by norm_num) (by omega) (by omega) (by omega) (by unfold ValidIdx; simp)⟩

/-- The cube of an object, in the two orders, and the conjugate of its square. -/
example : ∃ h x y f' h' k, Multiplied exModes exModes h ∧ h.ell_max = 4 ∧ Multiplied h exModes x ∧ Multiplied exModes h y ∧
    x.ell_max = 6 ∧ y.ell_max = 5 ∧ x.coef 5 (-3) [1] = y.coef 5 (-3) [1] ∧ exModes.conjugate true = .ok f' ∧
    h.conjugate true = .ok h' ∧ Multiplied f' f' k ∧ k.ell_max = 3 ∧ h'.coef 3 (-2) [0] = k.coef 3 (-2) [0] := by
  have h2 : exModes.ell_max = 2 := rfl
  have hb : bcastShape exModes.lead exModes.lead = some [2] := by decide
  have hb' : bcastShape [2] exModes.lead = some [2] := by decide
  obtain ⟨h, e, e1, e2, e3⟩ := Multiplied.exists exModes_WF exModes_WF (by omega) (by omega) (by omega) hb 4 (by omega)
  obtain ⟨x, ex, x1, -⟩ := Multiplied.exists e2 exModes_WF (by omega) (by omega) (by omega) (lead := [2]) (by rw [e3]; exact hb') 6 (by omega)
  obtain ⟨y, ey, y1, -⟩ := Multiplied.exists exModes_WF e2 (by omega) (by omega) (by omega) (lead := [2]) (by rw [e3]; exact hb) 5 (by omega)
  obtain ⟨f', f1, f2⟩ := conjugate_ok exModes_WF true
  have g2 : f'.ell_max = 2 := f2.hL.trans h2
  obtain ⟨h', h1, -⟩ := conjugate_ok e2 true
  obtain ⟨k, ek, k1, -⟩ := Multiplied.exists f2.wf f2.wf (by omega) (by omega) (by omega) (lead := [2]) (by rw [f2.lead]; exact hb) 3 (by omega)
  refine ⟨h, x, y, f', h', k, e, e1, ex, ey, x1, y1, ?_, f1, h1, ek, k1, ?_⟩
  · exact (C100_assoc _ _ _ h h x y exModes_WF exModes_WF exModes_WF (by omega) (by omega) (by omega) [2] [2] [2] hb hb hb' e e (by omega)
      (by omega) (by omega) (by omega) ex ey).2.2.2 5 (-3) [1] (by norm_num) (by omega) (by omega) (by unfold ValidIdx; simp)
  · exact (C100_conjugate _ _ h f' f' h' k exModes_WF exModes_WF (by omega) (by omega) (by omega) [2] hb e true f1 f1 h1 ek).2.2
      3 (-2) [0] (by norm_num) (by omega) (by omega) (by unfold ValidIdx; simp)

/-! ## Scalar products -/

open Spec

theorem mulCoef_scalar {s l m : ℤ} (hs : |s| ≤ l) (hm : |m| ≤ l) :
    mulCoef (-s) s l (-m) l m 0 * Real.sqrt (4 * Real.pi) = (-1 : ℝ) ^ (s + m) := by
  have hl : 0 ≤ l := (abs_nonneg _).trans hs
  unfold mulCoef
  rw [show -(-s + s) = 0 by ring, show -(-m + m) = 0 by ring, threeJ_zero hs, threeJ_zero hm]
  have hp := Real.pi_pos
  have hl' : (0 : ℝ) ≤ l := by exact_mod_cast hl
  have r1 : Real.sqrt ((2 * (l : ℝ) + 1) / (4 * Real.pi)) * Real.sqrt (4 * Real.pi) = Real.sqrt (2 * l + 1) := by
    rw [← Real.sqrt_mul (by positivity), div_mul_cancel₀ _ (by positivity)]
  have r2 : Real.sqrt (2 * (l : ℝ) + 1) ≠ 0 := by positivity
  have sgn : (-1 : ℝ) ^ (l + l + 0 + (-s + s) + (-m + m)) * ((-1 : ℝ) ^ (l + s) * (-1 : ℝ) ^ (l + m)) = (-1 : ℝ) ^ (s + m) := by
    have h1 : (-1 : ℝ) ≠ 0 := by norm_num
    rw [← zpow_add₀ h1, ← zpow_add₀ h1, show l + l + 0 + (-s + s) + (-m + m) + (l + s + (l + m)) = (s + m) + 2 * (2 * l) by ring, zpow_add₀ h1,
      Even.neg_one_zpow (n := 2 * (2 * l)) ⟨2 * l, by ring⟩, mul_one]
  rw [show 2 * ((0 : ℤ) : ℝ) + 1 = 1 by push_cast; ring, Real.sqrt_one, ← sgn]
  calc _ = ((-1 : ℝ) ^ (l + l + 0 + (-s + s) + (-m + m)) * ((-1 : ℝ) ^ (l + s) * (-1 : ℝ) ^ (l + m)))
          * (Real.sqrt ((2 * (l : ℝ) + 1) / (4 * Real.pi)) * Real.sqrt (4 * Real.pi)) / Real.sqrt (2 * l + 1)
          * (Real.sqrt (2 * l + 1) / Real.sqrt (2 * l + 1)) := by ring
    _ = _ := by rw [r1, mul_div_assoc, div_self r2, mul_one, mul_one]

/-- The mode `(0, 0)` of a product of functions of opposite spin weight. -/
theorem productMode_scalar (s L1 L2 : ℤ) (c d : ℤ → ℤ → ℂ) :
    (Real.sqrt (4 * Real.pi) : ℂ) * productMode (-s) L1 (fun l m => (-1 : ℂ) ^ (s + m) * conj (c l (-m))) s L2 d 0 0
      = ∑ l ∈ Icc |s| (min L1 L2), ∑ m ∈ Icc (-l) l, conj (c l m) * d l m := by
  unfold productMode
  have inner : ∀ l1 ∈ Icc 0 L1, ∀ m1 ∈ Icc (-l1) l1, (Real.sqrt (4 * Real.pi) : ℂ) * ∑ l2 ∈ Icc 0 L2, ∑ m2 ∈ Icc (-l2) l2,
      (if m1 + m2 = 0 then
        (((-1 : ℝ) ^ (l1 + l2 + 0 + -s + s + 0) * Real.sqrt ((2 * l1 + 1) * (2 * l2 + 1) * (2 * ((0 : ℤ) : ℝ) + 1) / (4 * Real.pi))
          * Spec.threeJ l1 l2 0 (-s) s (-(-s) - s) * Spec.threeJ l1 l2 0 m1 m2 (-0) : ℝ) : ℂ)
            * ((-1 : ℂ) ^ (s + m1) * conj (c l1 (-m1)) * d l2 m2)
      else 0) = if |s| ≤ l1 ∧ l1 ≤ L2 then conj (c l1 (-m1)) * d l1 (-m1) else 0 := by
    intro l1 h1 m1 hm1
    rw [mem_Icc] at h1 hm1
    have off : ∀ l2 m2, l2 ≠ l1 ∨ ¬ |s| ≤ l1 → (if m1 + m2 = 0 then
        (((-1 : ℝ) ^ (l1 + l2 + 0 + -s + s + 0) * Real.sqrt ((2 * l1 + 1) * (2 * l2 + 1) * (2 * ((0 : ℤ) : ℝ) + 1) / (4 * Real.pi))
          * Spec.threeJ l1 l2 0 (-s) s (-(-s) - s) * Spec.threeJ l1 l2 0 m1 m2 (-0) : ℝ) : ℂ)
            * ((-1 : ℂ) ^ (s + m1) * conj (c l1 (-m1)) * d l2 m2)
      else 0) = 0 := by
      intro l2 m2 h
      rw [threeJ_eq_zero (j1 := l1) (m1 := -s)]
      · simp
      · rintro ⟨_, k2, _, _, k5, k6⟩
        rw [abs_neg] at k2
        rw [abs_le] at k5
        rcases h with h | h
        · omega
        · exact h k2
    by_cases hc : |s| ≤ l1 ∧ l1 ≤ L2
    · rw [if_pos hc, sum_eq_single l1, sum_eq_single (-m1)]
      · rw [if_pos (by ring)]
        have e := mulCoef_eq (s1 := -s) (s2 := s) (m1 := m1) (m2 := -m1) h1.1 h1.1 (le_refl (0 : ℤ))
        have e2 := mulCoef_scalar (s := s) (m := -m1) hc.1 (by rw [abs_neg]; exact abs_le.mpr hm1)
        rw [neg_neg, e, show m1 + -m1 = 0 by ring] at e2
        have sg : (-1 : ℂ) ^ (s + -m1) * (-1 : ℂ) ^ (s + m1) = 1 := by
          rw [← zpow_add₀ (by norm_num)]
          exact Even.neg_one_zpow ⟨s, by ring⟩
        have e3 := congrArg (fun x : ℝ => (x : ℂ)) e2
        rw [Complex.ofReal_mul] at e3
        rw [show (((-1 : ℝ) ^ (s + -m1) : ℝ) : ℂ) = (-1 : ℂ) ^ (s + -m1) by push_cast; rfl] at e3
        linear_combination ((-1 : ℂ) ^ (s + m1) * conj (c l1 (-m1)) * d l1 (-m1)) * e3 + conj (c l1 (-m1)) * d l1 (-m1) * sg
      · intro m2 _ h
        exact if_neg fun k => h (by omega)
      · intro h
        exact absurd (mem_Icc.mpr (by omega)) h
      · intro l2 _ h
        exact sum_eq_zero fun m2 _ => off l2 m2 (.inl h)
      · intro h
        exact absurd (mem_Icc.mpr ⟨h1.1, hc.2⟩) h
    · rw [if_neg hc, sum_eq_zero, mul_zero]
      intro l2 hl2
      rw [mem_Icc] at hl2
      refine sum_eq_zero fun m2 _ => off l2 m2 ?_
      by_cases k : |s| ≤ l1
      · left; intro k'; exact hc ⟨k, by omega⟩
      · exact .inr k
  rw [mul_sum]
  have step : ∀ l1 ∈ Icc 0 L1, ((Real.sqrt (4 * Real.pi) : ℂ) * ∑ m1 ∈ Icc (-l1) l1, ∑ l2 ∈ Icc 0 L2, ∑ m2 ∈ Icc (-l2) l2,
      (if m1 + m2 = 0 then
        (((-1 : ℝ) ^ (l1 + l2 + 0 + -s + s + 0) * Real.sqrt ((2 * l1 + 1) * (2 * l2 + 1) * (2 * ((0 : ℤ) : ℝ) + 1) / (4 * Real.pi))
          * Spec.threeJ l1 l2 0 (-s) s (-(-s) - s) * Spec.threeJ l1 l2 0 m1 m2 (-0) : ℝ) : ℂ)
            * ((-1 : ℂ) ^ (s + m1) * conj (c l1 (-m1)) * d l2 m2)
      else 0)) = if |s| ≤ l1 ∧ l1 ≤ L2 then ∑ m ∈ Icc (-l1) l1, conj (c l1 m) * d l1 m else 0 := by
    intro l1 h1
    rw [mul_sum, sum_congr rfl (inner l1 h1)]
    split_ifs
    · apply Finset.sum_nbij' (fun n => -n) (fun n => -n)
      · intro n hn; rw [mem_Icc] at hn ⊢; omega
      · intro n hn; rw [mem_Icc] at hn ⊢; omega
      · intro n _; simp
      · intro n _; simp
      · intro n _; rfl
    · exact sum_const_zero
  rw [sum_congr rfl step, ← sum_filter]
  apply sum_congr _ fun _ _ => rfl
  ext l
  simp only [mem_filter, mem_Icc]
  have := abs_nonneg s
  omega

/-- **C100 (scalar products).** The mode `(0, 0)` of the product of the conjugate of `f` with `g` is, up to `sqrt(4π)`, the scalar
product of the modes of `f` and `g`. -/
theorem C100_scalar_product (f g f' h : Modes) (hf : f.WF) (hg : g.WF) (hs : f.s = g.s) (hf0 : 0 ≤ f.ell_max) (hg0 : 0 ≤ g.ell_max)
    (hq : f.ell_max + g.ell_max ≤ 151) (lead : List ℕ) (hb : bcastShape f.lead g.lead = some lead) (inplace : Bool)
    (cf : f.conjugate inplace = .ok f') (e : Multiplied f' g h) (h0 : 0 ≤ h.ell_max) (idx : MIdx) (hv : ValidIdx lead idx) :
    h.s = 0 ∧ (Real.sqrt (4 * Real.pi) : ℂ) * h.coef 0 0 idx
      = ∑ l ∈ Icc |f.s| (min f.ell_max g.ell_max), ∑ m ∈ Icc (-l) l,
          conj (f.coef l m (bcIdx f.lead idx)) * g.coef l m (bcIdx g.lead idx) := by
  obtain ⟨f'', c1, c2⟩ := conjugate_ok hf inplace
  obtain rfl := Except.ok.inj (cf.symm.trans c1)
  obtain ⟨b1, b2, b3, b4⟩ := e.spec c2.wf hg (by rw [c2.hL]; exact hf0) hg0 (by rw [c2.hL]; exact hq) (lead := lead) (by rw [c2.lead]; exact hb)
  have z : f'.s + g.s = 0 := by rw [c2.hs, hs]; ring
  refine ⟨by rw [b3, z], ?_⟩
  rw [b4 0 0 (by rw [z]; simp) (by simp) h0, mulSum_eq _ _ h0 (by simp), c2.hL, c2.hs, ← hs, ← productMode_scalar]
  congr 1
  unfold productMode
  refine sum_congr rfl fun l1 h1 => sum_congr rfl fun m1 hm1 => sum_congr rfl fun l2 h2 => sum_congr rfl fun m2 hm2 => ?_
  rw [mem_Icc] at h1 hm1
  split_ifs
  swap
  · rfl
  have eg : g.coefIn lead l2 m2 idx = g.coef l2 m2 (bcIdx g.lead idx) := bcTo_valid _ hv
  have ef : f'.coefIn lead l1 m1 idx = (-1 : ℂ) ^ (f.s + m1) * conj (f.coef l1 (-m1) (bcIdx f.lead idx)) := by
    unfold Modes.coefIn
    rw [bcTo_valid _ hv, c2.lead]
    by_cases low : |f.s| ≤ l1
    · rw [c2.coef l1 m1 (by rwa [abs_neg]) (abs_le.mpr hm1) h1.2]
    · rw [c2.wf.low l1 m1 (by rw [c2.hs, abs_neg]; omega) (abs_le.mpr hm1) (by rw [c2.hL]; exact h1.2),
        hf.low l1 (-m1) (by omega) (by rw [abs_neg]; exact abs_le.mpr hm1) h1.2]
      simp
  simp only [eg, ef]

/-- **C100 (norms).** The mode `(0, 0)` of the product of the conjugate of `f` with `f` is the squared norm of `f`, up to `sqrt(4π)`. -/
theorem C100_norm (f f' h : Modes) (hf : f.WF) (hf0 : 0 ≤ f.ell_max) (hq : f.ell_max + f.ell_max ≤ 151) (inplace : Bool)
    (cf : f.conjugate inplace = .ok f') (e : Multiplied f' f h) (h0 : 0 ≤ h.ell_max) (idx : MIdx) (hv : ValidIdx f.lead idx) :
    (Real.sqrt (4 * Real.pi) : ℂ) * h.coef 0 0 idx = ((f.norm idx ^ 2 : ℝ) : ℂ) := by
  rw [(C100_scalar_product f f f' h hf hf rfl hf0 hf0 hq f.lead (bcastShape_self _) inplace cf e h0 idx hv).2, norm_eq hf,
    Real.sq_sqrt (by positivity), min_self, bcIdx_self hv]
  push_cast
  refine sum_congr rfl fun l _ => sum_congr rfl fun m _ => ?_
  rw [← Complex.normSq_eq_conj_mul_self, Complex.normSq_eq_norm_sq]
  push_cast
  rfl

/-- The squared norm of an object from the product with its conjugate, truncated at `ell = 0`. -/
example : ∃ f' h, exModes.conjugate false = .ok f' ∧ Multiplied f' exModes h ∧ h.ell_max = 0 ∧
    (Real.sqrt (4 * Real.pi) : ℂ) * h.coef 0 0 [1] = ((exModes.norm [1] ^ 2 : ℝ) : ℂ) := by
  have h2 : exModes.ell_max = 2 := rfl
  obtain ⟨f', f1, f2⟩ := conjugate_ok exModes_WF false
  have g2 : f'.ell_max = 2 := f2.hL.trans h2
  obtain ⟨h, e, e1, e2, e3⟩ := Multiplied.exists f2.wf exModes_WF (by omega) (by omega) (by omega) (lead := [2])
    (by rw [f2.lead]; exact bcastShape_self [2]) 0 (by omega)
  exact ⟨f', h, f1, e, e1, C100_norm _ f' h exModes_WF (by omega) (by omega) false f1 e (by omega) [1] (by unfold ValidIdx; simp [exModes])⟩

end SF
