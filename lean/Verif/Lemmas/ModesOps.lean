import Verif.Lemmas.Modes
import Verif.Lemmas.SWSH

/-! # What each method of `Modes` does to the mode weights -/

set_option autoImplicit false

namespace SF

open ComplexConjugate

/-- `g` has the metadata of `f` apart from its spin weight `s`, is well formed and has the mode weights `T`. -/
structure OpRes (f g : Modes) (s : ℤ) (T : ℤ → ℤ → Slice) : Prop where
  wf : g.WF
  lead : g.lead = f.lead
  hs : g.s = s
  hL : g.ell_max = f.ell_max
  trunc : g.trunc = f.trunc
  coef : ∀ ell m, |s| ≤ ell → |m| ≤ ell → ell ≤ f.ell_max → g.coef ell m = T ell m

/-- A loop over `ell` whose body writes slot 0 of the block and then the pairs `±m`. -/
theorem symEll {a L : ℤ} (h0 : 0 ≤ a) (c0 : List Slice) (body : ℤ → List Slice → Py (List Slice))
    (inner : ℤ → ℤ → List Slice → Py (List Slice)) (T : ℤ → ℤ → Slice) (hlen : (c0.length : ℤ) = (L + 1) ^ 2)
    (hbody : ∀ ell, a ≤ ell → ell ≤ L → ∀ c : List Slice, c.length = c0.length →
      (∀ m, |m| ≤ ell → c[mpos ell m]? = c0[mpos ell m]?) →
      body ell c = forL (pyRange 1 (ell + 1)) (c.set (mpos ell 0) (T ell 0)) (inner ell))
    (hinner : ∀ ell m, a ≤ ell → ell ≤ L → 1 ≤ m → m ≤ ell → ∀ c : List Slice, c.length = c0.length →
      c[mpos ell m]? = c0[mpos ell m]? → c[mpos ell (-m)]? = c0[mpos ell (-m)]? →
      inner ell m c = .ok ((c.set (mpos ell m) (T ell m)).set (mpos ell (-m)) (T ell (-m)))) :
    ∃ c', forL (pyRange a (L + 1)) c0 body = .ok c' ∧ c'.length = c0.length ∧
      ∀ ell m, 0 ≤ ell → ell ≤ L → |m| ≤ ell →
        c'[mpos ell m]? = if a ≤ ell then some (T ell m) else c0[mpos ell m]? := by
  apply ellLoop h0 c0 body T
  intro ell h1 h2 c hc1 hc2
  have hl0 : 0 ≤ ell := by omega
  have habs0 : |(0 : ℤ)| ≤ ell := by simpa using hl0
  have hsq : (ell + 1) ^ 2 ≤ (c0.length : ℤ) := by
    rw [hlen]; exact sq_le_of (by omega) (by omega)
  have hz : mpos ell 0 < c.length := by have := mpos_hi habs0; omega
  rw [hbody ell h1 h2 c hc1 hc2]
  obtain ⟨c', e1, e2, e3, e4⟩ := pairLoop hl0 (c.set (mpos ell 0) (T ell 0)) (inner ell) (T ell)
    (by rw [List.length_set, hc1]; exact hsq)
    (by
      intro m hm1 hm2 c2 g1 g2 g3
      have hne : ∀ m' : ℤ, m' ≠ 0 → |m'| ≤ ell → mpos ell 0 ≠ mpos ell m' :=
        fun m' hm' hm'' hh => hm' (mpos_inj habs0 hm'' hh).2.symm
      have hma : |m| ≤ ell := by rw [abs_of_nonneg (by omega)]; exact hm2
      have hna : |-m| ≤ ell := by rw [abs_neg]; exact hma
      rw [List.length_set, hc1] at g1
      rw [List.getElem?_set_ne (hne m (by omega) hma), hc2 m hma] at g2
      rw [List.getElem?_set_ne (hne (-m) (by omega) hna), hc2 (-m) hna] at g3
      exact hinner ell m h1 h2 hm1 hm2 c2 g1 g2 g3)
  refine ⟨c', e1, by rw [e2, List.length_set, hc1], ?_, ?_⟩
  · intro m hm
    rw [e3 m hm]
    by_cases hm0 : m = 0
    · subst hm0
      rw [if_pos rfl, List.getElem?_set_self hz]
    · rw [if_neg hm0]
  · intro k hk
    rw [e4 k hk, List.getElem?_set_ne]
    have := mpos_lo habs0
    have := mpos_hi habs0
    omega

theorem zerosLike_length (a : List Slice) : (zerosLike a).length = a.length := by simp [zerosLike]

theorem zerosLike_get {a : List Slice} {k : ℕ} (hk : k < a.length) : (zerosLike a)[k]? = some (fun _ => 0) := by
  unfold zerosLike
  rw [List.getElem?_map, List.getElem?_eq_getElem hk]
  rfl

/-- Replacing the data list by one of the same length, zero below the new spin weight. -/
theorem OpRes.of_data {f : Modes} (hf : f.WF) {d : List Slice} {s : ℤ} {T : ℤ → ℤ → Slice}
    (hd : d.length = f.dat.length)
    (hlow : ∀ ell m, ell < |s| → |m| ≤ ell → ell ≤ f.ell_max → d[mpos ell m]? = some (fun _ => 0))
    (h : ∀ ell m, |s| ≤ ell → |m| ≤ ell → ell ≤ f.ell_max → d[mpos ell m]? = some (T ell m)) :
    OpRes f { f with dat := d, s := s } s T where
  wf := ⟨hf.ell_max_ge, by simp only; rw [hd]; exact hf.size, fun ell m h1 h2 h3 => coef_of_get (hlow ell m h1 h2 h3)⟩
  lead := rfl
  hs := rfl
  hL := rfl
  trunc := rfl
  coef := fun ell m h1 h2 h3 => coef_of_get (h ell m h1 h2 h3)

/-- `type(self)(d, **metadata)` with data of the same length. -/
theorem OpRes.of_remake {f : Modes} (hf : f.WF) {d : List Slice} {s : ℤ} {T : ℤ → ℤ → Slice}
    (hd : d.length = f.dat.length)
    (h : ∀ ell m, |s| ≤ ell → |m| ≤ ell → ell ≤ f.ell_max → d[mpos ell m]? = some (T ell m)) :
    ∃ g, f.remake f.lead d s f.ell_max = .ok g ∧ OpRes f g s T := by
  obtain ⟨g, e1, e2, e3, e4, e5, e6, e7⟩ := remake_ok f f.lead d s f.ell_max hf.ell_max_ge (by rw [hd]; exact hf.size)
  refine ⟨g, e1, e2, e3, e4, e5, e6, ?_⟩
  intro ell m h1 h2 h3
  apply coef_of_get
  rw [e7 ell m h2 h3, if_pos h1, h ell m h1 h2 h3]

/-! ## conjugate, real, imag -/

/-- What the loops of `conjugate`, `real` and `imag` may assume about reading the input while writing. -/
def Reads (L : ℤ) (src : List Slice → List Slice) (c0 : List Slice) (F : ℤ → ℤ → Slice) : Prop :=
  ∀ c : List Slice, c.length = c0.length → ∀ ell m, |m| ≤ ell → ell ≤ L → c[mpos ell m]? = c0[mpos ell m]? →
    (src c)[mpos ell m]? = some (F ell m)

theorem reads_inplace {f : Modes} (hf : f.WF) : Reads f.ell_max id f.dat f.coef :=
  fun c _ ell m h1 h2 h3 => by rw [id, h3]; exact hf.get h1 h2

theorem reads_copy {f : Modes} (hf : f.WF) (c0 : List Slice) : Reads f.ell_max (fun _ => f.dat) c0 f.coef :=
  fun _ _ _ _ h1 h2 _ => hf.get h1 h2

/-- Modes of the conjugated function. -/
noncomputable def conjT (s : ℤ) (F : ℤ → ℤ → Slice) (ell m : ℤ) : Slice :=
  if (s + m) % 2 = 0 then fun x => conj (F ell (-m) x) else fun x => -conj (F ell (-m) x)

theorem conjLoop_ok {s L : ℤ} {src : List Slice → List Slice} {c0 : List Slice} {F : ℤ → ℤ → Slice}
    (hlen : (c0.length : ℤ) = (L + 1) ^ 2) (hr : Reads L src c0 F) :
    ∃ c', conjLoop s L src c0 = .ok c' ∧ c'.length = c0.length ∧
      ∀ ell m, 0 ≤ ell → ell ≤ L → |m| ≤ ell →
        c'[mpos ell m]? = if |s| ≤ ell then some (conjT s F ell m) else c0[mpos ell m]? := by
  unfold conjLoop
  refine symEll (abs_nonneg s) c0 _ (conjPair s src) (conjT s F) hlen ?_ ?_
  · intro ell h1 h2 c hc1 hc2
    have hl0 : 0 ≤ ell := (abs_nonneg s).trans h1
    have habs0 : |(0 : ℤ)| ≤ ell := by simpa using hl0
    have hz : mpos ell 0 < c.length := mpos_lt habs0 h2 (by rw [hc1]; exact hlen)
    simp only
    rw [rd_mpos habs0 (hr c hc1 ell 0 habs0 h2 (hc2 0 habs0)), bind_ok, wr_mpos habs0 _ hz, bind_ok]
    congr 2
    unfold conjT
    rw [add_zero, neg_zero]
  · intro ell m h1 h2 hm1 hm2 c hc1 hp hn
    have hma : |m| ≤ ell := by rw [abs_of_nonneg (by omega)]; exact hm2
    have hna : |-m| ≤ ell := by rw [abs_neg]; exact hma
    have hpl : mpos ell m < c.length := mpos_lt hma h2 (by rw [hc1]; exact hlen)
    have hnl : mpos ell (-m) < c.length := mpos_lt hna h2 (by rw [hc1]; exact hlen)
    unfold conjPair
    simp only
    rw [rd_mpos hna (hr c hc1 ell (-m) hna h2 hn), bind_ok, rd_mpos hma (hr c hc1 ell m hma h2 hp), bind_ok]
    have hpar : (s + -m) % 2 = 0 ↔ (s + m) % 2 = 0 := by omega
    by_cases he : (s + m) % 2 = 0
    · rw [if_pos he, wr_mpos hma _ hpl, bind_ok, wr_mpos hna _ (by rw [List.length_set]; exact hnl)]
      unfold conjT
      rw [if_pos he, if_pos (hpar.mpr he), neg_neg]
    · rw [if_neg he, wr_mpos hma _ hpl, bind_ok, wr_mpos hna _ (by rw [List.length_set]; exact hnl)]
      unfold conjT
      rw [if_neg he, if_neg (fun h => he (hpar.mp h)), neg_neg]

theorem conjT_eq (s : ℤ) (F : ℤ → ℤ → Slice) (ell m : ℤ) :
    conjT s F ell m = fun x => (-1 : ℂ) ^ (s + m) * conj (F ell (-m) x) := by
  unfold conjT
  rw [neg_one_zpow_iff]
  by_cases h : (s + m) % 2 = 0
  · rw [if_pos h, if_pos h]; funext x; rw [one_mul]
  · rw [if_neg h, if_neg h]; funext x; rw [neg_one_mul]

/-- `conjugate`, both variants. -/
theorem conjugate_ok {f : Modes} (hf : f.WF) (inplace : Bool) :
    ∃ g, f.conjugate inplace = .ok g ∧
      OpRes f g (-f.s) fun ell m x => (-1 : ℂ) ^ (f.s + m) * conj (f.coef ell (-m) x) := by
  have hT : (fun (ell m : ℤ) (x : MIdx) => (-1 : ℂ) ^ (f.s + m) * conj (f.coef ell (-m) x)) = conjT f.s f.coef := by
    funext ell m; rw [conjT_eq]
  rw [hT]
  unfold Modes.conjugate
  cases inplace
  · rw [if_neg (by simp)]
    obtain ⟨c, e1, e2, e3⟩ := conjLoop_ok (s := f.s) (by rw [zerosLike_length]; exact hf.size)
      (reads_copy hf (zerosLike f.dat))
    rw [e1, bind_ok]
    rw [zerosLike_length] at e2
    exact OpRes.of_remake hf e2 (fun ell m h1 h2 h3 => by
      rw [abs_neg] at h1
      rw [e3 ell m ((abs_nonneg _).trans h1) h3 h2, if_pos h1])
  · rw [if_pos rfl]
    obtain ⟨c, e1, e2, e3⟩ := conjLoop_ok (s := f.s) hf.size (reads_inplace hf)
    rw [e1, bind_ok]
    refine ⟨_, rfl, OpRes.of_data hf e2 ?_ ?_⟩
    · intro ell m h1 h2 h3
      rw [abs_neg] at h1
      rw [e3 ell m ((abs_nonneg _).trans h2) h3 h2, if_neg (by omega), hf.get h2 h3, hf.low ell m h1 h2 h3]
    · intro ell m h1 h2 h3
      rw [abs_neg] at h1
      rw [e3 ell m ((abs_nonneg _).trans h1) h3 h2, if_pos h1]

theorem neg_one_zpow_parity (m : ℤ) : ((-1 : ℂ) ^ m) = if m % 2 = 0 then 1 else -1 := neg_one_zpow_iff m

/-- Modes of the real part. -/
noncomputable def realT (F : ℤ → ℤ → Slice) (ell m : ℤ) : Slice :=
  fun x => (F ell m x + (-1 : ℂ) ^ m * conj (F ell (-m) x)) / 2

/-- Modes of the imaginary part. -/
noncomputable def imagT (F : ℤ → ℤ → Slice) (ell m : ℤ) : Slice :=
  fun x => (F ell m x - (-1 : ℂ) ^ m * conj (F ell (-m) x)) / (2 * Complex.I)

theorem realLoop_ok {s L : ℤ} {src : List Slice → List Slice} {c0 : List Slice} {F : ℤ → ℤ → Slice}
    (hlen : (c0.length : ℤ) = (L + 1) ^ 2) (hr : Reads L src c0 F) :
    ∃ c', realLoop s L src c0 = .ok c' ∧ c'.length = c0.length ∧
      ∀ ell m, 0 ≤ ell → ell ≤ L → |m| ≤ ell →
        c'[mpos ell m]? = if |s| ≤ ell then some (realT F ell m) else c0[mpos ell m]? := by
  unfold realLoop
  refine symEll (abs_nonneg s) c0 _ (realPair src) (realT F) hlen ?_ ?_
  · intro ell h1 h2 c hc1 hc2
    have hl0 : 0 ≤ ell := (abs_nonneg s).trans h1
    have habs0 : |(0 : ℤ)| ≤ ell := by simpa using hl0
    have hz : mpos ell 0 < c.length := mpos_lt habs0 h2 (by rw [hc1]; exact hlen)
    simp only
    rw [rd_mpos habs0 (hr c hc1 ell 0 habs0 h2 (hc2 0 habs0)), bind_ok, wr_mpos habs0 _ hz, bind_ok]
    congr 2
    unfold realT
    funext x
    rw [neg_zero, zpow_zero, one_mul, Complex.add_conj]
    simp
  · intro ell m h1 h2 hm1 hm2 c hc1 hp hn
    have hma : |m| ≤ ell := by rw [abs_of_nonneg (by omega)]; exact hm2
    have hna : |-m| ≤ ell := by rw [abs_neg]; exact hma
    have hpl : mpos ell m < c.length := mpos_lt hma h2 (by rw [hc1]; exact hlen)
    have hnl : mpos ell (-m) < c.length := mpos_lt hna h2 (by rw [hc1]; exact hlen)
    unfold realPair
    simp only
    rw [rd_mpos hma (hr c hc1 ell m hma h2 hp), bind_ok, rd_mpos hna (hr c hc1 ell (-m) hna h2 hn), bind_ok]
    have hpar : (-m) % 2 = 0 ↔ m % 2 = 0 := by omega
    unfold realT
    by_cases he : m % 2 = 0
    · rw [if_pos he, wr_mpos hma _ hpl, bind_ok, rd_mpos hma (List.getElem?_set_self hpl), bind_ok,
        wr_mpos hna _ (by rw [List.length_set]; exact hnl)]
      rw [neg_one_zpow_parity, neg_one_zpow_parity, if_pos he, if_pos (hpar.mpr he), neg_neg]
      congr 2
      · congr 1; funext x; rw [one_mul]
      · funext x
        simp only [map_div₀, map_add, Complex.conj_conj, one_mul, map_ofNat]
        ring
    · rw [if_neg he, wr_mpos hma _ hpl, bind_ok, rd_mpos hma (List.getElem?_set_self hpl), bind_ok,
        wr_mpos hna _ (by rw [List.length_set]; exact hnl)]
      rw [neg_one_zpow_parity, neg_one_zpow_parity, if_neg he, if_neg (fun h => he (hpar.mp h)), neg_neg]
      congr 2
      · congr 1; funext x; ring
      · funext x
        simp only [map_div₀, map_sub, Complex.conj_conj, map_ofNat]
        ring

theorem imagLoop_ok {s L : ℤ} {src : List Slice → List Slice} {c0 : List Slice} {F : ℤ → ℤ → Slice}
    (hlen : (c0.length : ℤ) = (L + 1) ^ 2) (hr : Reads L src c0 F) :
    ∃ c', imagLoop s L src c0 = .ok c' ∧ c'.length = c0.length ∧
      ∀ ell m, 0 ≤ ell → ell ≤ L → |m| ≤ ell →
        c'[mpos ell m]? = if |s| ≤ ell then some (imagT F ell m) else c0[mpos ell m]? := by
  have hI : (Complex.I : ℂ) ≠ 0 := Complex.I_ne_zero
  have hI2 : Complex.I * Complex.I = -1 := Complex.I_mul_I
  unfold imagLoop
  refine symEll (abs_nonneg s) c0 _ (imagPair src) (imagT F) hlen ?_ ?_
  · intro ell h1 h2 c hc1 hc2
    have hl0 : 0 ≤ ell := (abs_nonneg s).trans h1
    have habs0 : |(0 : ℤ)| ≤ ell := by simpa using hl0
    have hz : mpos ell 0 < c.length := mpos_lt habs0 h2 (by rw [hc1]; exact hlen)
    simp only
    rw [rd_mpos habs0 (hr c hc1 ell 0 habs0 h2 (hc2 0 habs0)), bind_ok, wr_mpos habs0 _ hz, bind_ok]
    congr 2
    unfold imagT
    funext x
    rw [neg_zero, zpow_zero, one_mul, Complex.sub_conj]
    field_simp
    push_cast
    ring
  · intro ell m h1 h2 hm1 hm2 c hc1 hp hn
    have hma : |m| ≤ ell := by rw [abs_of_nonneg (by omega)]; exact hm2
    have hna : |-m| ≤ ell := by rw [abs_neg]; exact hma
    have hpl : mpos ell m < c.length := mpos_lt hma h2 (by rw [hc1]; exact hlen)
    have hnl : mpos ell (-m) < c.length := mpos_lt hna h2 (by rw [hc1]; exact hlen)
    unfold imagPair
    simp only
    rw [rd_mpos hma (hr c hc1 ell m hma h2 hp), bind_ok, rd_mpos hna (hr c hc1 ell (-m) hna h2 hn), bind_ok]
    have hpar : (-m) % 2 = 0 ↔ m % 2 = 0 := by omega
    have key : ∀ z : ℂ, z / (2 * Complex.I) = -Complex.I * z / 2 := by
      intro z; field_simp; linear_combination z * hI2
    unfold imagT
    by_cases he : m % 2 = 0
    · rw [if_pos he, wr_mpos hma _ hpl, bind_ok, rd_mpos hma (List.getElem?_set_self hpl), bind_ok,
        wr_mpos hna _ (by rw [List.length_set]; exact hnl)]
      rw [neg_one_zpow_parity, neg_one_zpow_parity, if_pos he, if_pos (hpar.mpr he), neg_neg]
      congr 2
      · congr 1; funext x; rw [key]; ring
      · funext x
        rw [key]
        simp only [map_div₀, map_sub, map_mul, map_neg, Complex.conj_I, Complex.conj_conj, one_mul, map_ofNat]
        ring
    · rw [if_neg he, wr_mpos hma _ hpl, bind_ok, rd_mpos hma (List.getElem?_set_self hpl), bind_ok,
        wr_mpos hna _ (by rw [List.length_set]; exact hnl)]
      rw [neg_one_zpow_parity, neg_one_zpow_parity, if_neg he, if_neg (fun h => he (hpar.mp h)), neg_neg]
      congr 2
      · congr 1; funext x; rw [key]; ring
      · funext x
        rw [key]
        simp only [map_div₀, map_add, map_mul, map_neg, Complex.conj_I, Complex.conj_conj, map_ofNat]
        ring

theorem real_ok {f : Modes} (hf : f.WF) (hs : f.s = 0) (inplace : Bool) :
    ∃ g, f.real_func inplace = .ok g ∧ OpRes f g 0 (realT f.coef) := by
  unfold Modes.real_func
  rw [if_neg (by simpa using hs)]
  cases inplace
  · rw [if_neg (by simp)]
    obtain ⟨c, e1, e2, e3⟩ := realLoop_ok (s := f.s) (by rw [zerosLike_length]; exact hf.size)
      (reads_copy hf (zerosLike f.dat))
    rw [e1, bind_ok]
    rw [zerosLike_length] at e2
    rw [hs] at e3 ⊢
    exact OpRes.of_remake hf e2 (fun ell m h1 h2 h3 => by rw [e3 ell m ((abs_nonneg _).trans h1) h3 h2, if_pos h1])
  · rw [if_pos rfl]
    obtain ⟨c, e1, e2, e3⟩ := realLoop_ok (s := f.s) hf.size (reads_inplace hf)
    rw [e1, bind_ok]
    rw [hs] at e3
    have he : ({ f with dat := c } : Modes) = { f with dat := c, s := 0 } := by rw [← hs]
    refine ⟨_, rfl, he ▸ OpRes.of_data hf e2 ?_ ?_⟩
    · intro ell m h1 h2 h3
      have := (abs_nonneg m).trans h2
      simp at h1
      omega
    · intro ell m h1 h2 h3
      rw [e3 ell m ((abs_nonneg _).trans h1) h3 h2, if_pos h1]

theorem imag_ok {f : Modes} (hf : f.WF) (hs : f.s = 0) (inplace : Bool) :
    ∃ g, f.imag_func inplace = .ok g ∧ OpRes f g 0 (imagT f.coef) := by
  unfold Modes.imag_func
  rw [if_neg (by simpa using hs)]
  cases inplace
  · rw [if_neg (by simp)]
    obtain ⟨c, e1, e2, e3⟩ := imagLoop_ok (s := f.s) (by rw [zerosLike_length]; exact hf.size)
      (reads_copy hf (zerosLike f.dat))
    rw [e1, bind_ok]
    rw [zerosLike_length] at e2
    rw [hs] at e3 ⊢
    exact OpRes.of_remake hf e2 (fun ell m h1 h2 h3 => by rw [e3 ell m ((abs_nonneg _).trans h1) h3 h2, if_pos h1])
  · rw [if_pos rfl]
    obtain ⟨c, e1, e2, e3⟩ := imagLoop_ok (s := f.s) hf.size (reads_inplace hf)
    rw [e1, bind_ok]
    rw [hs] at e3
    have he : ({ f with dat := c } : Modes) = { f with dat := c, s := 0 } := by rw [← hs]
    refine ⟨_, rfl, he ▸ OpRes.of_data hf e2 ?_ ?_⟩
    · intro ell m h1 h2 h3
      have := (abs_nonneg m).trans h2
      simp at h1
      omega
    · intro ell m h1 h2 h3
      rw [e3 ell m ((abs_nonneg _).trans h1) h3 h2, if_pos h1]

/-! ## Index, truncation, pointwise operations -/

theorem index_ok {f : Modes} {ell m : ℤ} (h1 : |f.s| ≤ ell) (h2 : |m| ≤ ell) (h3 : ell ≤ f.ell_max) :
    f.index ell m = .ok (LM_index ell m 0) := by
  have := (abs_nonneg m).trans h2
  unfold Modes.index
  rw [if_neg (by omega), if_neg (by omega)]

theorem negative_ok {f : Modes} (hf : f.WF) :
    ∃ g, f.negative = .ok g ∧ OpRes f g f.s fun ell m x => -f.coef ell m x := by
  unfold Modes.negative
  apply OpRes.of_remake hf (by simp)
  intro ell m h1 h2 h3
  rw [List.getElem?_map, hf.get h2 h3]
  rfl

theorem positive_ok {f : Modes} (hf : f.WF) : f.positive = .ok f := by
  unfold Modes.positive
  obtain ⟨g, e1, e2⟩ := OpRes.of_remake (s := f.s) (T := f.coef) hf rfl (fun ell m h1 h2 h3 => hf.get h2 h3)
  rw [e1, e2.wf.ext hf e2.lead e2.hs e2.hL e2.trunc]
  intro ell m h1 h2 h3
  rw [e2.hs] at h1
  rw [e2.hL] at h2
  rw [e2.coef ell m h1 h3 h2]

theorem Rz_ok {f : Modes} (hf : f.WF) :
    ∃ g, f.Rz = .ok g ∧ OpRes f g f.s fun ell m x => -(f.s : ℂ) * f.coef ell m x := by
  unfold Modes.Rz
  apply OpRes.of_remake hf (by simp)
  intro ell m h1 h2 h3
  rw [List.getElem?_map, hf.get h2 h3]
  simp only [Option.map_some, Int.cast_neg]
  rfl

/-! ## L and R operators -/

theorem getSlice_get {α : Type} {a : List α} {i j k : ℕ} (h : i + k < j) :
    (getSlice a (i : ℤ) (j : ℤ))[k]? = a[i + k]? := by
  unfold getSlice
  rw [Int.toNat_natCast, Int.toNat_natCast, List.getElem?_take, if_pos (by omega), List.getElem?_drop]

theorem getSlice_length {α : Type} {a : List α} {i j : ℕ} (hj : j ≤ a.length) :
    (getSlice a (i : ℤ) (j : ℤ)).length = j - i := by
  unfold getSlice
  rw [Int.toNat_natCast, Int.toNat_natCast, List.length_take, List.length_drop]
  omega

theorem setSlice_ok {α : Type} {a vals : List α} {i j : ℕ} (hij : i ≤ j) (hj : j ≤ a.length)
    (hv : vals.length = j - i) :
    ∃ b, setSlice a (i : ℤ) (j : ℤ) vals = .ok b ∧ b.length = a.length ∧
      ∀ k : ℕ, b[k]? = if i ≤ k ∧ k < j then vals[k - i]? else a[k]? := by
  unfold setSlice
  simp only [Int.toNat_natCast]
  rw [min_eq_left (by omega : i ≤ a.length), min_eq_left hj, max_eq_right hij, if_pos hv]
  refine ⟨_, rfl, ?_, ?_⟩
  · simp only [List.length_append, List.length_take, List.length_drop]; omega
  · intro k
    by_cases h1 : k < i
    · rw [if_neg (by omega), List.append_assoc, List.getElem?_append_left (by rw [List.length_take]; omega),
        List.getElem?_take, if_pos h1]
    · by_cases h2 : k < j
      · rw [if_pos (by omega), List.append_assoc, List.getElem?_append_right (by rw [List.length_take]; omega),
          List.length_take, min_eq_left (by omega), List.getElem?_append_left (by omega)]
      · rw [if_neg (by omega), List.getElem?_append_right (by
          rw [List.length_append, List.length_take]; omega), List.length_append, List.length_take,
          min_eq_left (by omega), List.getElem?_drop]
        congr 1
        omega

/-- One step of `Lsquared`, `Rplus`, `Rminus`: block `ell` of the output is `c` times block `ell` of the input. -/
theorem blockStep {f : Modes} (hf : f.WF) {d : List Slice} (hd : d.length = f.dat.length) {ell : ℤ} (h0 : 0 ≤ ell)
    (hl : ell ≤ f.ell_max) (c : ℂ) :
    ∃ d', setSlice d (LM_index ell (-ell) 0) (LM_index ell ell 0 + 1)
        ((getSlice f.dat (LM_index ell (-ell) 0) (LM_index ell ell 0 + 1)).map (sscale c)) = .ok d' ∧
      d'.length = f.dat.length ∧ (∀ m, |m| ≤ ell → d'[mpos ell m]? = some (sscale c (f.coef ell m))) ∧
      (∀ k : ℕ, ((k : ℤ) < ell ^ 2 ∨ (ell + 1) ^ 2 ≤ (k : ℤ)) → d'[k]? = d[k]?) := by
  obtain ⟨l, rfl⟩ := Int.eq_ofNat_of_zero_le h0
  have e1 : LM_index (l : ℤ) (-l) 0 = ((l ^ 2 : ℕ) : ℤ) := by rw [LM_index_zero]; push_cast; ring
  have e2 : LM_index (l : ℤ) l 0 + 1 = (((l + 1) ^ 2 : ℕ) : ℤ) := by rw [LM_index_zero]; push_cast; ring
  have hle : (l + 1) ^ 2 ≤ f.dat.length := by
    have h1 := sq_le_of (show 0 ≤ (l : ℤ) + 1 by omega) (show (l : ℤ) + 1 ≤ f.ell_max + 1 by omega)
    have := hf.size
    have h3 : (((l + 1) ^ 2 : ℕ) : ℤ) = ((l : ℤ) + 1) ^ 2 := by push_cast; ring
    omega
  have hij : l ^ 2 ≤ (l + 1) ^ 2 := by nlinarith
  rw [e1, e2]
  obtain ⟨b, b1, b2, b3⟩ := setSlice_ok (a := d) (vals := (getSlice f.dat ((l ^ 2 : ℕ) : ℤ)
    (((l + 1) ^ 2 : ℕ) : ℤ)).map (sscale c)) hij (by omega) (by rw [List.length_map, getSlice_length hle])
  refine ⟨b, b1, by omega, ?_, ?_⟩
  · intro m hm
    have lo := mpos_lo hm
    have hi := mpos_hi hm
    have lo' : l ^ 2 ≤ mpos l m := by exact_mod_cast lo
    have hi' : mpos l m < (l + 1) ^ 2 := by exact_mod_cast hi
    rw [b3, if_pos ⟨lo', hi'⟩, List.getElem?_map, getSlice_get (by omega)]
    rw [show l ^ 2 + (mpos l m - l ^ 2) = mpos l m by omega, hf.get hm hl]
    rfl
  · intro k hk
    rw [b3, if_neg]
    rintro ⟨g1, g2⟩
    have g1' : (l : ℤ) ^ 2 ≤ k := by exact_mod_cast g1
    have g2' : (k : ℤ) < ((l : ℤ) + 1) ^ 2 := by exact_mod_cast g2
    omega

theorem OpRes.of_loop {f : Modes} (hf : f.WF) {c0 c : List Slice} {T : ℤ → ℤ → Slice}
    (hc0 : ∀ ell m, ell < |f.s| → |m| ≤ ell → ell ≤ f.ell_max → c0[mpos ell m]? = some (fun _ => 0))
    (hd : c.length = f.dat.length)
    (h : ∀ ell m, 0 ≤ ell → ell ≤ f.ell_max → |m| ≤ ell →
      c[mpos ell m]? = if |f.s| ≤ ell then some (T ell m) else c0[mpos ell m]?) :
    OpRes f { f with dat := c } f.s T := by
  refine OpRes.of_data hf (s := f.s) hd ?_ ?_
  · intro ell m h1 h2 h3
    rw [h ell m ((abs_nonneg m).trans h2) h3 h2, if_neg (by omega), hc0 ell m h1 h2 h3]
  · intro ell m h1 h2 h3
    rw [h ell m ((abs_nonneg m).trans h2) h3 h2, if_pos h1]

theorem low_dat {f : Modes} (hf : f.WF) : ∀ ell m, ell < |f.s| → |m| ≤ ell → ell ≤ f.ell_max →
    f.dat[mpos ell m]? = some (fun _ => 0) :=
  fun ell m h1 h2 h3 => by rw [hf.get h2 h3, hf.low ell m h1 h2 h3]

theorem low_zeros {f : Modes} (hf : f.WF) : ∀ ell m, ell < |f.s| → |m| ≤ ell → ell ≤ f.ell_max →
    (zerosLike f.dat)[mpos ell m]? = some (fun _ => 0) :=
  fun _ _ _ h2 h3 => zerosLike_get (mpos_lt h2 h3 hf.size)

theorem Lsquared_ok {f : Modes} (hf : f.WF) :
    ∃ g, f.Lsquared = .ok g ∧ OpRes f g f.s fun ell m x => ((ell * (ell + 1) : ℤ) : ℂ) * f.coef ell m x := by
  obtain ⟨c, e1, e2, e3⟩ := ellLoop (L := f.ell_max) (abs_nonneg f.s) f.dat
    (fun ell d => do
      let i ← f.index ell (-ell)
      let j ← f.index ell ell
      setSlice d i (j + 1) ((getSlice f.dat i (j + 1)).map (sscale ((ell * (ell + 1) : ℤ) : ℂ))))
    (fun ell m x => ((ell * (ell + 1) : ℤ) : ℂ) * f.coef ell m x)
    (by
      intro ell h1 h2 d hd _
      have h0 : 0 ≤ ell := (abs_nonneg _).trans h1
      rw [index_ok h1 (by rw [abs_neg, abs_of_nonneg h0]) h2, bind_ok, index_ok h1 (by rw [abs_of_nonneg h0]) h2, bind_ok]
      exact blockStep hf hd h0 h2 _)
  unfold Modes.Lsquared
  rw [e1, bind_ok]
  exact ⟨_, rfl, OpRes.of_loop hf (low_dat hf) e2 e3⟩

theorem Lz_ok {f : Modes} (hf : f.WF) :
    ∃ g, f.Lz = .ok g ∧ OpRes f g f.s fun ell m x => (m : ℂ) * f.coef ell m x := by
  obtain ⟨c, e1, e2, e3⟩ := ellLoop (L := f.ell_max) (abs_nonneg f.s) f.dat
    (fun ell d => forL (pyRange (-ell) (ell + 1)) d fun m d => do
      let i ← f.index ell m
      let v ← rd f.dat i
      wr d i (sscale (m : ℂ) v))
    (fun ell m x => (m : ℂ) * f.coef ell m x)
    (by
      intro ell h1 h2 d hd _
      have h0 : 0 ≤ ell := (abs_nonneg _).trans h1
      have hlen : (ell + 1) ^ 2 ≤ (d.length : ℤ) := by
        rw [hd, hf.size]; exact sq_le_of (by omega) (by omega)
      obtain ⟨c', g1, g2, g3, g4⟩ := mLoop (a := -ell) (b := ell + 1) le_rfl le_rfl d
        (fun m d => do
          let i ← f.index ell m
          let v ← rd f.dat i
          wr d i (sscale (m : ℂ) v)) (fun m => sscale (m : ℂ) (f.coef ell m)) hlen
        (by
          intro m hm1 hm2 c hc
          have hm : |m| ≤ ell := abs_le.mpr ⟨by omega, by omega⟩
          rw [index_ok h1 hm h2, bind_ok, rd_mpos hm (hf.get hm h2), bind_ok,
            wr_mpos hm _ (mpos_lt hm h2 (by rw [hc, hd]; exact hf.size))])
      refine ⟨c', g1, by omega, ?_, g4⟩
      intro m hm
      have := abs_le.mp hm
      rw [g3 m hm, if_pos (by omega)]
      rfl)
  unfold Modes.Lz
  rw [e1, bind_ok]
  exact ⟨_, rfl, OpRes.of_loop hf (low_dat hf) e2 e3⟩

theorem Lplus_ok {f : Modes} (hf : f.WF) :
    ∃ g, f.Lplus = .ok g ∧ OpRes f g f.s fun ell m x =>
      if m = -ell then 0 else isqrtC ((ell + m) * (ell - m + 1)) * f.coef ell (m - 1) x := by
  obtain ⟨c, e1, e2, e3⟩ := ellLoop (L := f.ell_max) (abs_nonneg f.s) (zerosLike f.dat)
    (fun ell d => do
      let i ← f.index ell (-ell)
      let d ← wr d i (fun _ => 0)
      forL (pyRange (-ell + 1) (ell + 1)) d fun m d => do
        let j ← f.index ell (m - 1)
        let v ← rd f.dat j
        let i ← f.index ell m
        wr d i (sscale (isqrtC ((ell + m) * (ell - m + 1))) v))
    (fun ell m x => if m = -ell then 0 else isqrtC ((ell + m) * (ell - m + 1)) * f.coef ell (m - 1) x)
    (by
      intro ell h1 h2 d hd _
      rw [zerosLike_length] at hd ⊢
      have h0 : 0 ≤ ell := (abs_nonneg _).trans h1
      have hnl : |-ell| ≤ ell := by rw [abs_neg, abs_of_nonneg h0]
      have hlen : (ell + 1) ^ 2 ≤ (d.length : ℤ) := by
        rw [hd, hf.size]; exact sq_le_of (by omega) (by omega)
      have hp : mpos ell (-ell) < d.length := mpos_lt hnl h2 (by rw [hd]; exact hf.size)
      rw [index_ok h1 hnl h2, bind_ok, wr_mpos hnl _ hp, bind_ok]
      obtain ⟨c', g1, g2, g3, g4⟩ := mLoop (ell := ell) (a := -ell + 1) (b := ell + 1) (by omega) le_rfl
        (d.set (mpos ell (-ell)) (fun _ => 0))
        (fun m d => do
          let j ← f.index ell (m - 1)
          let v ← rd f.dat j
          let i ← f.index ell m
          wr d i (sscale (isqrtC ((ell + m) * (ell - m + 1))) v))
        (fun m => sscale (isqrtC ((ell + m) * (ell - m + 1))) (f.coef ell (m - 1)))
        (by rw [List.length_set]; exact hlen)
        (by
          intro m hm1 hm2 c hc
          rw [List.length_set] at hc
          have hm : |m| ≤ ell := abs_le.mpr ⟨by omega, by omega⟩
          have hm' : |m - 1| ≤ ell := abs_le.mpr ⟨by omega, by omega⟩
          rw [index_ok h1 hm' h2, bind_ok, rd_mpos hm' (hf.get hm' h2), bind_ok, index_ok h1 hm h2, bind_ok,
            wr_mpos hm _ (mpos_lt hm h2 (by rw [hc, hd]; exact hf.size))])
      refine ⟨c', g1, by rw [g2, List.length_set, hd], ?_, ?_⟩
      · intro m hm
        have := abs_le.mp hm
        rw [g3 m hm]
        by_cases he : m = -ell
        · rw [if_neg (by omega)]
          subst he
          rw [List.getElem?_set_self hp]
          simp
        · rw [if_pos (by omega)]
          simp only [he, if_false]
          rfl
      · intro k hk
        rw [g4 k hk, List.getElem?_set_ne]
        have := mpos_lo hnl
        have := mpos_hi hnl
        omega)
  unfold Modes.Lplus
  rw [e1, bind_ok]
  rw [zerosLike_length] at e2
  exact ⟨_, rfl, OpRes.of_loop hf (low_zeros hf) e2 e3⟩

theorem Lminus_ok {f : Modes} (hf : f.WF) :
    ∃ g, f.Lminus = .ok g ∧ OpRes f g f.s fun ell m x =>
      if m = ell then 0 else isqrtC ((ell - m) * (ell + m + 1)) * f.coef ell (m + 1) x := by
  obtain ⟨c, e1, e2, e3⟩ := ellLoop (L := f.ell_max) (abs_nonneg f.s) (zerosLike f.dat)
    (fun ell d => do
      let d ← forL (pyRange (-ell) ell) d fun m d => do
        let j ← f.index ell (m + 1)
        let v ← rd f.dat j
        let i ← f.index ell m
        wr d i (sscale (isqrtC ((ell - m) * (ell + m + 1))) v)
      let i ← f.index ell ell
      wr d i (fun _ => 0))
    (fun ell m x => if m = ell then 0 else isqrtC ((ell - m) * (ell + m + 1)) * f.coef ell (m + 1) x)
    (by
      intro ell h1 h2 d hd _
      rw [zerosLike_length] at hd ⊢
      have h0 : 0 ≤ ell := (abs_nonneg _).trans h1
      have hnl : |ell| ≤ ell := by rw [abs_of_nonneg h0]
      have hlen : (ell + 1) ^ 2 ≤ (d.length : ℤ) := by
        rw [hd, hf.size]; exact sq_le_of (by omega) (by omega)
      have hp : mpos ell ell < d.length := mpos_lt hnl h2 (by rw [hd]; exact hf.size)
      obtain ⟨c', g1, g2, g3, g4⟩ := mLoop (ell := ell) (a := -ell) (b := ell) (by omega) (by omega) d
        (fun m d => do
          let j ← f.index ell (m + 1)
          let v ← rd f.dat j
          let i ← f.index ell m
          wr d i (sscale (isqrtC ((ell - m) * (ell + m + 1))) v))
        (fun m => sscale (isqrtC ((ell - m) * (ell + m + 1))) (f.coef ell (m + 1)))
        hlen
        (by
          intro m hm1 hm2 c hc
          have hm : |m| ≤ ell := abs_le.mpr ⟨by omega, by omega⟩
          have hm' : |m + 1| ≤ ell := abs_le.mpr ⟨by omega, by omega⟩
          rw [index_ok h1 hm' h2, bind_ok, rd_mpos hm' (hf.get hm' h2), bind_ok, index_ok h1 hm h2, bind_ok,
            wr_mpos hm _ (mpos_lt hm h2 (by rw [hc, hd]; exact hf.size))])
      rw [g1, bind_ok, index_ok h1 hnl h2, bind_ok, wr_mpos hnl _ (by omega)]
      refine ⟨_, rfl, by rw [List.length_set, g2, hd], ?_, ?_⟩
      · intro m hm
        have := abs_le.mp hm
        by_cases he : m = ell
        · subst he
          rw [List.getElem?_set_self (by omega)]
          simp
        · rw [List.getElem?_set_ne (fun hh => he (mpos_inj hnl hm hh).2.symm), g3 m hm, if_pos (by omega)]
          simp only [he, if_false]
          rfl
      · intro k hk
        rw [List.getElem?_set_ne, g4 k hk]
        have := mpos_lo hnl
        have := mpos_hi hnl
        omega)
  unfold Modes.Lminus
  rw [e1, bind_ok]
  rw [zerosLike_length] at e2
  exact ⟨_, rfl, OpRes.of_loop hf (low_zeros hf) e2 e3⟩

theorem new_ell_min_zero (f : Modes) (lead : List ℕ) (dat : List Slice) (s L : ℤ) :
    Modes.new (.array lead dat) {} [] ⟨some s, some 0, some L, f.trunc⟩ = f.remake lead dat s L := rfl

theorem RLoop_ok {f d : Modes} (hf : f.WF) (hd : d.WF) (hL : d.ell_max = f.ell_max)
    (hz : ∀ ell m, |m| ≤ ell → ell ≤ f.ell_max → d.dat[mpos ell m]? = some (fun _ => 0)) (hlead : d.lead = f.lead)
    (ht : d.trunc = f.trunc) (fac : ℤ → ℤ) :
    ∃ g, RLoop f d fac = .ok g ∧ OpRes f g d.s fun ell m x => isqrtC (fac ell) * f.coef ell m x := by
  have hlen : d.dat.length = f.dat.length := by
    have h1 := hf.size; have h2 := hd.size; rw [hL] at h2; omega
  obtain ⟨c, e1, e2, e3⟩ := ellLoop (L := d.ell_max) ((abs_nonneg d.s).trans (le_max_left |d.s| |f.s|)) d.dat
    (fun ell dat =>
      if ell ≥ 0 then do
        let i ← d.index ell (-ell)
        let j ← d.index ell ell
        let i' ← f.index ell (-ell)
        let j' ← f.index ell ell
        setSlice dat i (j + 1) ((getSlice f.dat i' (j' + 1)).map (sscale (isqrtC (fac ell))))
      else .ok dat)
    (fun ell m x => isqrtC (fac ell) * f.coef ell m x)
    (by
      intro ell h1 h2 c hc _
      have h1d : |d.s| ≤ ell := (le_max_left _ _).trans h1
      have h1f : |f.s| ≤ ell := (le_max_right _ _).trans h1
      have h0 : 0 ≤ ell := (abs_nonneg _).trans h1f
      have hn : |-ell| ≤ ell := by rw [abs_neg, abs_of_nonneg h0]
      have hp : |ell| ≤ ell := by rw [abs_of_nonneg h0]
      rw [if_pos h0, index_ok h1d hn h2, bind_ok, index_ok h1d hp h2, bind_ok, index_ok h1f hn (by omega), bind_ok,
        index_ok h1f hp (by omega), bind_ok]
      rw [hlen] at hc ⊢
      exact blockStep hf hc h0 (by omega) _)
  unfold RLoop
  rw [e1, bind_ok]
  have hcoef : ∀ ell m, |d.s| ≤ ell → |m| ≤ ell → ell ≤ f.ell_max →
      c[mpos ell m]? = some (fun x => isqrtC (fac ell) * f.coef ell m x) := by
    intro ell m h1 h2 h3
    rw [e3 ell m ((abs_nonneg _).trans h1) (by omega) h2]
    by_cases hfs : |f.s| ≤ ell
    · rw [if_pos (max_le h1 hfs)]
    · rw [if_neg (by rw [max_le_iff]; omega), hz ell m h2 h3, hf.low ell m (by omega) h2 h3]
      simp
  refine ⟨_, rfl, ⟨⟨hd.ell_max_ge, ?_, ?_⟩, hlead, rfl, hL, ht, ?_⟩⟩
  · simp only; rw [e2]; exact hd.size
  · intro ell m h1 h2 h3
    apply coef_of_get
    simp only at h1 h3 ⊢
    rw [e3 ell m ((abs_nonneg _).trans h2) h3 h2, if_neg (by rw [max_le_iff]; omega), hz ell m h2 (by omega)]
  · intro ell m h1 h2 h3
    exact coef_of_get (hcoef ell m h1 h2 h3)

theorem min_abs_zero (n : ℤ) : min |n| 0 = 0 := min_eq_right (abs_nonneg n)

theorem Rplus_ok {f : Modes} (hf : f.WF) :
    ∃ g, f.Rplus = .ok g ∧ OpRes f g (f.s - 1) fun ell m x =>
      isqrtC ((ell - (f.s - 1)) * (ell + (f.s - 1) + 1)) * f.coef ell m x := by
  unfold Modes.Rplus
  rw [min_abs_zero, new_ell_min_zero]
  obtain ⟨d, e1, e2, e3, e4, e5, e6, e7⟩ := remake_ok f f.lead (zerosLike f.dat) (f.s - 1) f.ell_max hf.ell_max_ge
    (by rw [zerosLike_length]; exact hf.size)
  rw [e1, bind_ok]
  obtain ⟨g, g1, g2⟩ := RLoop_ok hf e2 e5 (fun ell m h1 h2 => by
    rw [e7 ell m h1 h2, zerosLike_get (mpos_lt h1 h2 hf.size), ite_self]) e3 e6
    (fun ell => (ell - d.s) * (ell + d.s + 1))
  rw [e4] at g2
  rw [e4] at g1 ⊢
  exact ⟨g, g1, g2⟩

theorem Rminus_ok {f : Modes} (hf : f.WF) :
    ∃ g, f.Rminus = .ok g ∧ OpRes f g (f.s + 1) fun ell m x =>
      isqrtC ((ell + (f.s + 1)) * (ell - (f.s + 1) + 1)) * f.coef ell m x := by
  unfold Modes.Rminus
  rw [min_abs_zero, new_ell_min_zero]
  obtain ⟨d, e1, e2, e3, e4, e5, e6, e7⟩ := remake_ok f f.lead (zerosLike f.dat) (f.s + 1) f.ell_max hf.ell_max_ge
    (by rw [zerosLike_length]; exact hf.size)
  rw [e1, bind_ok]
  obtain ⟨g, g1, g2⟩ := RLoop_ok hf e2 e5 (fun ell m h1 h2 => by
    rw [e7 ell m h1 h2, zerosLike_get (mpos_lt h1 h2 hf.size), ite_self]) e3 e6
    (fun ell => (ell + d.s) * (ell - d.s + 1))
  rw [e4] at g2
  rw [e4] at g1 ⊢
  exact ⟨g, g1, g2⟩

theorem ethbar_ok {f : Modes} (hf : f.WF) :
    ∃ g, f.ethbar = .ok g ∧ OpRes f g (f.s - 1) fun ell m x =>
      -(isqrtC ((ell - (f.s - 1)) * (ell + (f.s - 1) + 1)) * f.coef ell m x) := by
  obtain ⟨d, d1, d2⟩ := Rplus_ok hf
  obtain ⟨g, g1, g2⟩ := negative_ok d2.wf
  unfold Modes.ethbar
  rw [d1, bind_ok]
  refine ⟨g, g1, g2.wf, g2.lead.trans d2.lead, g2.hs.trans d2.hs, g2.hL.trans d2.hL, g2.trunc.trans d2.trunc, ?_⟩
  intro ell m h1 h2 h3
  rw [g2.coef ell m (by rw [d2.hs]; exact h1) h2 (by rw [d2.hL]; exact h3), d2.coef ell m h1 h2 h3]

/-! ## Truncation, addition, scalar operations -/

theorem truncate_ok {f : Modes} (hf : f.WF) {L : ℤ} (h1 : |f.s| ≤ L) (h2 : L < f.ell_max) :
    ∃ g, f.truncate_ell L = .ok g ∧ g.WF ∧ g.lead = f.lead ∧ g.s = f.s ∧ g.ell_max = L ∧ g.trunc = f.trunc ∧
      ∀ ell m, |m| ≤ ell → ell ≤ L → g.coef ell m = f.coef ell m := by
  have h0 : 0 ≤ L := (abs_nonneg _).trans h1
  obtain ⟨l, rfl⟩ := Int.eq_ofNat_of_zero_le h0
  have hp : |(l : ℤ)| ≤ l := by rw [abs_of_nonneg h0]
  have e2 : LM_index (l : ℤ) l 0 + 1 = (((l + 1) ^ 2 : ℕ) : ℤ) := by rw [LM_index_zero]; push_cast; ring
  have hle : (l + 1) ^ 2 ≤ f.dat.length := by
    have h1 := sq_le_of (show 0 ≤ (l : ℤ) + 1 by omega) (show (l : ℤ) + 1 ≤ f.ell_max + 1 by omega)
    have := hf.size
    have h3 : (((l + 1) ^ 2 : ℕ) : ℤ) = ((l : ℤ) + 1) ^ 2 := by push_cast; ring
    omega
  have key : ∀ ell m : ℤ, |m| ≤ ell → ell ≤ l →
      (getSlice f.dat ((0 : ℕ) : ℤ) (((l + 1) ^ 2 : ℕ) : ℤ))[mpos ell m]? = f.dat[mpos ell m]? := by
    intro ell m h3 h4
    have := mpos_lt h3 h4 (n := (l + 1) ^ 2) (by push_cast; ring)
    rw [getSlice_get (by omega), Nat.zero_add]
  unfold Modes.truncate_ell
  rw [if_neg (by omega), index_ok h1 hp (by omega), bind_ok, e2]
  refine ⟨_, rfl, ⟨by simp only; omega, ?_, ?_⟩, rfl, rfl, rfl, rfl, ?_⟩
  · have := getSlice_length (i := 0) hle
    simp only at this ⊢
    rw [Nat.cast_zero] at this
    rw [this, Nat.sub_zero]
    push_cast
    ring
  · intro ell m g1 g2 g3
    apply coef_of_get
    simp only at g1 g3 ⊢
    have := key ell m g2 g3
    rw [Nat.cast_zero] at this
    rw [this, hf.get g2 (by omega), hf.low ell m g1 g2 (by omega)]
  · intro ell m g2 g3
    apply coef_of_get
    simp only
    have := key ell m g2 g3
    rw [Nat.cast_zero] at this
    rw [this, hf.get g2 (by omega)]

/-- Mode weights of `f` as seen from leading shape `lead`. -/
def Modes.coefIn (f : Modes) (lead : List ℕ) (ell m : ℤ) : Slice := bcTo f.lead lead (f.coef ell m)

theorem bcTo_zero (src dst : List ℕ) : bcTo src dst (fun _ => 0) = fun _ => 0 := by
  unfold bcTo; split <;> rfl

theorem Modes.Sized.coef_of_gt {f : Modes} (hf : f.Sized) {ell m : ℤ} (h : |m| ≤ ell) (h2 : f.ell_max < ell) :
    f.coef ell m = fun _ => 0 := by
  have := mpos_lo h
  have := sq_le_of (show 0 ≤ f.ell_max + 1 by have := hf.ell_max_ge; omega) (show f.ell_max + 1 ≤ ell by omega)
  have := hf.size
  unfold Modes.coef
  rw [List.getElem?_eq_none (by omega)]
  rfl

theorem coef_of_gt {f : Modes} (hf : f.WF) {ell m : ℤ} (h : |m| ≤ ell) (h2 : f.ell_max < ell) :
    f.coef ell m = fun _ => 0 := hf.sized.coef_of_gt h h2

theorem Modes.Sized.dat_ne_nil {f : Modes} (hf : f.Sized) (h : 0 ≤ f.ell_max) : f.dat ≠ [] := by
  intro hn
  have := hf.size
  rw [hn] at this
  have := sq_lt_of (le_refl (0 : ℤ)) (show (0 : ℤ) < f.ell_max + 1 by omega)
  simp at *
  omega

theorem Modes.WF.dat_ne_nil {f : Modes} (hf : f.WF) (h : 0 ≤ f.ell_max) : f.dat ≠ [] := hf.sized.dat_ne_nil h

theorem addM_sized {f g : Modes} (hf : f.Sized) (hg : g.Sized) (hs : f.s = g.s) (hfL : 0 ≤ f.ell_max) (hgL : 0 ≤ g.ell_max)
    {lead : List ℕ} (hb : bcastShape f.lead g.lead = some lead) (sub : Bool) :
    ∃ h, f.addM g sub = .ok h ∧ h.WF ∧ h.lead = lead ∧ h.s = f.s ∧ h.ell_max = max f.ell_max g.ell_max ∧
      h.trunc = f.trunc ∧ ∀ ell m, |f.s| ≤ ell → |m| ≤ ell → ell ≤ max f.ell_max g.ell_max →
        h.coef ell m = fun x => if sub then f.coefIn lead ell m x - g.coefIn lead ell m x
          else f.coefIn lead ell m x + g.coefIn lead ell m x := by
  unfold Modes.addM
  rw [if_neg (by simpa using hs)]
  have hlead : bcastLeads f g = .ok lead := by
    unfold bcastLeads
    rw [if_neg (by have := hf.dat_ne_nil hfL; have := hg.dat_ne_nil hgL; tauto), hb]
  simp only
  rw [hlead, bind_ok]
  set M := max f.ell_max g.ell_max with hM
  have hM0 : 0 ≤ M := hfL.trans (le_max_left _ _)
  obtain ⟨N, hN⟩ : ∃ N : ℕ, (N : ℤ) = (M + 1) ^ 2 := ⟨((M + 1) ^ 2).toNat, by have := sq_nonneg (M + 1); omega⟩
  have hz : npZeros (α := Slice) (LM_total_size 0 M) = .ok (List.replicate N (0 : Slice)) := by
    unfold npZeros
    rw [LM_total_size_zero, ← hN, npEmpty_ok (by omega), Int.toNat_natCast]
    congr 1
    exact List.ext_getElem (by simp) (by simp)
  rw [hz, bind_ok]
  have hfl : f.dat.length ≤ N := by
    have := hf.size
    have := sq_le_of (show 0 ≤ f.ell_max + 1 by omega) (show f.ell_max + 1 ≤ M + 1 by omega)
    omega
  have hgl : g.dat.length ≤ N := by
    have := hg.size
    have := sq_le_of (show 0 ≤ g.ell_max + 1 by omega) (show g.ell_max + 1 ≤ M + 1 by omega)
    omega
  set op : ℂ → ℂ → ℂ := if sub = true then (· - ·) else (· + ·) with hop
  have key : ∃ r, addSlices op lead f.lead g.lead f.ell_max g.ell_max (fun _ => f.dat) (fun _ => g.dat)
      (List.replicate N (0 : Slice)) = .ok r ∧ r.length = N ∧
      ∀ ell m, |m| ≤ ell → ell ≤ M →
        r[mpos ell m]? = some fun x => op (f.coefIn lead ell m x) (g.coefIn lead ell m x) := by
    have z0 : LM_total_size 0 (0 - 1) = ((0 : ℕ) : ℤ) := by rw [LM_total_size_zero]; simp
    have zf : ((0 : ℕ) : ℤ) + LM_total_size 0 f.ell_max = ((f.dat.length : ℕ) : ℤ) := by
      rw [LM_total_size_zero, hf.size]; simp
    have zg : ((0 : ℕ) : ℤ) + LM_total_size 0 g.ell_max = ((g.dat.length : ℕ) : ℤ) := by
      rw [LM_total_size_zero, hg.size]; simp
    unfold addSlices
    simp only
    rw [z0, zf, zg]
    obtain ⟨r1, a1, a2, a3⟩ := setSlice_ok (a := List.replicate N (0 : Slice)) (i := 0) (j := f.dat.length)
      (vals := f.dat.map (bcTo f.lead lead)) (by omega) (by rw [List.length_replicate]; exact hfl) (by simp)
    rw [List.length_replicate] at a2
    rw [a1, bind_ok]
    have lc := getSlice_length (a := r1) (i := 0) (j := g.dat.length) (by omega)
    rw [if_neg (by rw [lc]; simp)]
    obtain ⟨r2, b1, b2, b3⟩ := setSlice_ok (a := r1) (i := 0) (j := g.dat.length)
      (vals := List.zipWith (fun u v x => op (u x) (v x)) (getSlice r1 ((0 : ℕ) : ℤ) ((g.dat.length : ℕ) : ℤ))
        (g.dat.map (bcTo g.lead lead))) (by omega) (by omega) (by rw [List.length_zipWith, lc]; simp)
    refine ⟨r2, b1, by omega, ?_⟩
    have hr1 : ∀ ell m, |m| ≤ ell → ell ≤ M → r1[mpos ell m]? = some (f.coefIn lead ell m) := by
      intro ell m h1 h2
      have hlt := mpos_lt h1 h2 hN
      rw [a3]
      by_cases hk : ell ≤ f.ell_max
      · rw [if_pos ⟨by omega, mpos_lt h1 hk hf.size⟩, Nat.sub_zero, List.getElem?_map, hf.get h1 hk]
        rfl
      · have hlo := mpos_lo h1
        have := sq_le_of (show 0 ≤ f.ell_max + 1 by omega) (show f.ell_max + 1 ≤ ell by omega)
        have := hf.size
        rw [if_neg (by omega), List.getElem?_replicate, if_pos hlt]
        unfold Modes.coefIn
        rw [hf.coef_of_gt h1 (by omega), bcTo_zero]
        rfl
    intro ell m h1 h2
    have hlt := mpos_lt h1 h2 hN
    rw [b3]
    by_cases hk : ell ≤ g.ell_max
    · have hgk := mpos_lt h1 hk hg.size
      rw [if_pos ⟨by omega, hgk⟩, Nat.sub_zero, List.getElem?_zipWith, getSlice_get (by omega), Nat.zero_add,
        hr1 ell m h1 h2, List.getElem?_map, hg.get h1 hk]
      rfl
    · have hlo := mpos_lo h1
      have := sq_le_of (show 0 ≤ g.ell_max + 1 by omega) (show g.ell_max + 1 ≤ ell by omega)
      have := hg.size
      rw [if_neg (by omega), hr1 ell m h1 h2]
      congr 1
      funext x
      unfold Modes.coefIn
      rw [hg.coef_of_gt h1 (by omega), bcTo_zero, hop]
      cases sub <;> simp
  obtain ⟨r, k1, k2, k3⟩ := key
  rw [k1, bind_ok]
  obtain ⟨h, e1, e2, e3, e4, e5, e6, e7⟩ := remake_ok f lead r f.s M (by omega) (by rw [k2]; exact hN)
  refine ⟨h, e1, e2, e3, e4, e5, e6, ?_⟩
  intro ell m h1 h2 h3
  apply coef_of_get
  rw [e7 ell m h2 h3, if_pos h1, k3 ell m h2 h3, hop]
  cases sub <;> rfl

theorem addM_ok {f g : Modes} (hf : f.WF) (hg : g.WF) (hs : f.s = g.s) (hfL : 0 ≤ f.ell_max) (hgL : 0 ≤ g.ell_max)
    {lead : List ℕ} (hb : bcastShape f.lead g.lead = some lead) (sub : Bool) :
    ∃ h, f.addM g sub = .ok h ∧ h.WF ∧ h.lead = lead ∧ h.s = f.s ∧ h.ell_max = max f.ell_max g.ell_max ∧
      h.trunc = f.trunc ∧ ∀ ell m, |f.s| ≤ ell → |m| ≤ ell → ell ≤ max f.ell_max g.ell_max →
        h.coef ell m = fun x => if sub then f.coefIn lead ell m x - g.coefIn lead ell m x
          else f.coefIn lead ell m x + g.coefIn lead ell m x :=
  addM_sized hf.sized hg.sized hs hfL hgL hb sub

theorem scalarUfunc_ok {f : Modes} (hf : f.WF) (op : ℂ → ℂ → ℂ) (a : Scalars) {lead : List ℕ}
    (hb : bcastShape f.lead a.shape = some lead) :
    ∃ g, f.scalarUfunc op a = .ok g ∧ g.WF ∧ g.lead = lead ∧ g.s = f.s ∧ g.ell_max = f.ell_max ∧ g.trunc = f.trunc ∧
      ∀ ell m, |f.s| ≤ ell → |m| ≤ ell → ell ≤ f.ell_max →
        g.coef ell m = fun x => op (f.coefIn lead ell m x) (a.val (bcIdx a.shape x)) := by
  unfold Modes.scalarUfunc
  rw [hb]
  simp only
  obtain ⟨h, e1, e2, e3, e4, e5, e6, e7⟩ := remake_ok f lead
    (f.dat.map fun v idx => op (bcTo f.lead lead v idx) (a.val (bcIdx a.shape idx))) f.s f.ell_max hf.ell_max_ge
    (by rw [List.length_map]; exact hf.size)
  refine ⟨h, e1, e2, e3, e4, e5, e6, ?_⟩
  intro ell m h1 h2 h3
  apply coef_of_get
  rw [e7 ell m h2 h3, if_pos h1, List.getElem?_map, hf.get h2 h3]
  rfl

end SF
