import Verif.Lemmas.Chisq
import Mathlib.Algebra.Order.Ring.Rat
import Mathlib.Tactic.NormNum
import Mathlib.Data.Fin.VecNotation
import Mathlib.Algebra.BigOperators.Fin

/-!
# C06, C07, C09, C10, C11: statistic and amplitude scaling
-/

namespace Misfit
variable {K : Type*} [Field K] [LinearOrder K] [IsStrictOrderedRing K] {r c : Nat}

/-- The image holding the finite numbers `x`. -/
def finImg (x : Fin r → Fin c → K) : Img r c K := fun i j => .fin (x i j)

/-- Data with finite entries. -/
def finData (f e m w : Fin r → Fin c → K) : FitData r c K :=
  ⟨finImg f, finImg e, finImg m, finImg w⟩

/-! ## C06 -/

theorem modelChisq_fin (f e m w x : Fin r → Fin c → K) (he : ∀ i j, e i j ≠ 0) :
    modelChisq (finData f e m w) (finImg x) =
      .fin (∑ i, ∑ j, ((f i j - x i j) * m i j / e i j) * ((f i j - x i j) * m i j / e i j) * w i j) := by
  simp only [modelChisq, finData, finImg, chisqPixel_fin _ _ _ _ _ (he _ _), Fl.fin_sum]

/-- C06: the chi-square is finite, non-negative, and zero exactly when model and data agree
on every unmasked, positively weighted pixel. -/
theorem C06_nonneg_zero_iff (f e m w x : Fin r → Fin c → K) (he : ∀ i j, e i j ≠ 0)
    (hw : ∀ i j, 0 ≤ w i j) :
    ∃ q : K, modelChisq (finData f e m w) (finImg x) = .fin q ∧ 0 ≤ q ∧
      (q = 0 ↔ ∀ i j, m i j ≠ 0 → 0 < w i j → x i j = f i j) := by
  refine ⟨_, modelChisq_fin f e m w x he, ?_, ?_⟩
  · exact Finset.sum_nonneg fun i _ => Finset.sum_nonneg fun j _ =>
      mul_nonneg (mul_self_nonneg _) (hw i j)
  · rw [Finset.sum_eq_zero_iff_of_nonneg (fun i _ => Finset.sum_nonneg fun j _ =>
      mul_nonneg (mul_self_nonneg _) (hw i j))]
    constructor
    · intro h i j hm hwp
      have h1 := h i (Finset.mem_univ _)
      rw [Finset.sum_eq_zero_iff_of_nonneg (fun j _ =>
        mul_nonneg (mul_self_nonneg _) (hw i j))] at h1
      have h2 := h1 j (Finset.mem_univ _)
      rcases mul_eq_zero.1 h2 with h3 | h3
      · rcases div_eq_zero_iff.1 (mul_self_eq_zero.1 h3) with h4 | h4
        · rcases mul_eq_zero.1 h4 with h5 | h5
          · exact (sub_eq_zero.1 h5).symm
          · exact absurd h5 hm
        · exact absurd h4 (he i j)
      · exact absurd h3 hwp.ne'
    · intro h i _
      refine Finset.sum_eq_zero fun j _ => ?_
      by_cases hm : m i j = 0
      · simp [hm]
      · by_cases hwp : 0 < w i j
        · simp [h i j hm hwp]
        · have : w i j = 0 := le_antisymm (not_lt.1 hwp) (hw i j)
          simp [this]

/-- C06: finite values of data, error and model on masked pixels are irrelevant. -/
theorem C06_masked_irrelevant (f f' e e' m w x x' : Fin r → Fin c → K)
    (he : ∀ i j, e i j ≠ 0) (he' : ∀ i j, e' i j ≠ 0)
    (h : ∀ i j, m i j ≠ 0 → f i j = f' i j ∧ e i j = e' i j ∧ x i j = x' i j) :
    modelChisq (finData f e m w) (finImg x) = modelChisq (finData f' e' m w) (finImg x') := by
  rw [modelChisq_fin _ _ _ _ _ he, modelChisq_fin _ _ _ _ _ he']
  congr 1
  refine Finset.sum_congr rfl fun i _ => Finset.sum_congr rfl fun j _ => ?_
  by_cases hm : m i j = 0
  · simp [hm]
  · obtain ⟨h1, h2, h3⟩ := h i j hm
    rw [h1, h2, h3]

/-- A masked pixel whose value is not finite still ruins the statistic (NaN · 0 = NaN): this
is why bad pixels must be filled before a fit. -/
theorem C06_masked_nan_poisons :
    modelChisq (K := ℚ) (r := 1) (c := 2)
      ⟨fun _ j => if j = 0 then .nan else .fin 1, fun _ _ => .fin 1,
        fun _ j => if j = 0 then .fin 0 else .fin 1, fun _ _ => .fin 1⟩
      (fun _ _ => .fin 0) = .nan := by decide +kernel

example : modelChisq (K := ℚ) (r := 1) (c := 2)
    (finData ![![1, 5]] ![![2, 1]] ![![1, 0]] ![![1, 1]]) (finImg ![![3, 100]]) = .fin 1 := by
  decide +kernel

/-- The unweighted chi-square is the weighted one with unit weights. -/
theorem C06_no_weight_is_unit_weight (d : FitData r c K) (x : Img r c K)
    (hw : ∀ i j, d.weight i j = 1) (hx : ∀ i j, ∃ q, Fl.sq (((d.flux i j - x i j) * d.mask i j) /
      d.err i j) = .fin q) :
    modelChisq d x = modelChisqNoWeight d x := by
  unfold modelChisq modelChisqNoWeight chisqPixel
  refine Finset.sum_congr rfl fun i _ => Finset.sum_congr rfl fun j _ => ?_
  obtain ⟨q, hq⟩ := hx i j
  rw [hw, hq]
  simp

/-! ## C07 -/

/-- C07: the log-likelihood is `-1/2 (chi² + constant)` with a constant that does not involve
the model. -/
theorem C07_llike_affine (f e m w : Fin r → Fin c → ℝ) (he : ∀ i j, e i j ≠ 0)
    (hm : ∀ i j, m i j = 0 ∨ m i j = 1) :
    ∃ C : ℝ, ∀ x : Fin r → Fin c → ℝ, ∃ q : ℝ,
      modelChisq (finData f e m w) (finImg x) = .fin q ∧
      modelLlike (finData f e m w) (finImg x) = .fin (-(1/2) * (q + C)) := by
  refine ⟨∑ i, ∑ j, m i j * Real.logb 10 (2 * Real.pi * (e i j * e i j)), fun x => ⟨_,
    modelChisq_fin f e m w x he, ?_⟩⟩
  have hpos : ∀ i j, 0 < 2 * Real.pi * (e i j * e i j) := fun i j =>
    mul_pos (mul_pos two_pos Real.pi_pos) (mul_self_pos.2 (he i j))
  simp only [modelLlike, finData, finImg, Fl.fin_sub, Fl.fin_div_ne _ _ (he _ _), Fl.sq_fin,
    Fl.fin_mul, log10, if_pos (hpos _ _), Fl.fin_add, Fl.fin_sum]
  congr 2
  rw [← Finset.sum_add_distrib]
  refine Finset.sum_congr rfl fun i _ => ?_
  rw [← Finset.sum_add_distrib]
  refine Finset.sum_congr rfl fun j _ => ?_
  rcases hm i j with h | h <;> rw [h]
  · ring
  · ring

/-- C07: so two models on the same data are ranked by their chi-square. -/
theorem C07_ranking (f e m w : Fin r → Fin c → ℝ) (he : ∀ i j, e i j ≠ 0)
    (hm : ∀ i j, m i j = 0 ∨ m i j = 1) (x y : Fin r → Fin c → ℝ) :
    ∃ qx qy lx ly : ℝ, modelChisq (finData f e m w) (finImg x) = .fin qx ∧
      modelChisq (finData f e m w) (finImg y) = .fin qy ∧
      modelLlike (finData f e m w) (finImg x) = .fin lx ∧
      modelLlike (finData f e m w) (finImg y) = .fin ly ∧
      lx - ly = -(1/2) * (qx - qy) ∧ (lx ≤ ly ↔ qy ≤ qx) := by
  obtain ⟨C, hC⟩ := C07_llike_affine f e m w he hm
  obtain ⟨qx, h1, h2⟩ := hC x
  obtain ⟨qy, h3, h4⟩ := hC y
  refine ⟨qx, qy, _, _, h1, h3, h2, h4, by ring, ?_⟩
  constructor <;> intro h <;> linarith

example : ∃ f e m w : Fin 1 → Fin 2 → ℝ, (∀ i j, e i j ≠ 0) ∧ (∀ i j, m i j = 0 ∨ m i j = 1) ∧
    (m 0 0 ≠ m 0 1) :=
  ⟨fun _ _ => 3, fun _ _ => 1, ![![1, 0]], fun _ _ => 1, by simp, by
    intro i j; fin_cases i; fin_cases j <;> simp, by simp⟩

/-- With a mask value that is neither 0 nor 1 the claim fails: chi-square uses the square of
the mask, the likelihood the mask itself. -/
theorem C07_fails_for_fractional_mask :
    ∃ f e m w : Fin 1 → Fin 1 → ℝ, (∀ i j, e i j ≠ 0) ∧
      ¬ ∃ C : ℝ, ∀ x : Fin 1 → Fin 1 → ℝ, ∃ q : ℝ,
        modelChisq (finData f e m w) (finImg x) = .fin q ∧
        modelLlike (finData f e m w) (finImg x) = .fin (-(1/2) * (q + C)) := by
  refine ⟨fun _ _ => 0, fun _ _ => 1, fun _ _ => 1/2, fun _ _ => 1, by simp, ?_⟩
  rintro ⟨C, hC⟩
  have hpos : (0:ℝ) < 2 * Real.pi * (1 * 1) := by positivity
  have key : ∀ x : ℝ, ∃ q : ℝ, q = (-x * (1/2)) * (-x * (1/2)) ∧
      -(1/2) * ((1/2) * ((x * x) + Real.logb 10 (2 * Real.pi * (1 * 1)))) = -(1/2) * (q + C) := by
    intro x
    obtain ⟨q, h1, h2⟩ := hC (fun _ _ => x)
    rw [modelChisq_fin _ _ _ _ _ (by simp)] at h1
    refine ⟨q, ?_, ?_⟩
    · simp at h1
      rw [← h1]; ring
    · simp only [modelLlike, finData, finImg, Fl.fin_sub, Fl.fin_div_ne _ _ one_ne_zero, Fl.sq_fin,
        Fl.fin_mul, log10, if_pos hpos, Fl.fin_add, Fl.fin_sum, Fl.fin.injEq] at h2
      simp only [Finset.univ_unique, Finset.sum_singleton] at h2
      rw [← h2]
      ring
  obtain ⟨q0, a0, b0⟩ := key 0
  obtain ⟨q1, a1, b1⟩ := key 1
  rw [a0] at b0
  rw [a1] at b1
  linarith

/-! ## C09 -/

/-- Specification: error-weighted squared residual of row `f` against row `x` over the columns
of `cols`. -/
def rowResidual (f e x : Fin c → K) (cols : List (Fin c)) : K :=
  (cols.map fun j => ((f j - x j) / e j) ^ 2).sum

theorem scaleModel_fin (f e m : Fin r → Fin c → K) (nosky : List (Fin c))
    (he : ∀ i, ∀ j ∈ nosky, e i j ≠ 0) :
    scaleModel (finImg f) (finImg e) (finImg m) nosky =
      finImg fun i j => m i j *
        (if (nosky.map fun j => m i j * m i j / (e i j * e i j)).sum = 0 then 0 else
          (nosky.map fun j => f i j * m i j / (e i j * e i j)).sum /
          (nosky.map fun j => m i j * m i j / (e i j * e i j)).sum) := by
  funext i j
  simp only [scaleModel]
  rw [show (finImg f i) = fun j => Fl.fin (f i j) from rfl,
    show (finImg e i) = fun j => Fl.fin (e i j) from rfl,
    show (finImg m i) = fun j => Fl.fin (m i j) from rfl,
    scaleNum_fin _ _ _ _ (he i), scaleDen_fin _ _ _ (he i), scaleRatio_fin]
  rfl

/-- C09: the scaled model is finite and each row is a multiple of the unscaled row with the
smallest residual over the sky-free columns among all multiples; a row that vanishes there
becomes identically 0. -/
theorem C09_scaling_optimal (f e m : Fin r → Fin c → K) (nosky : List (Fin c))
    (he : ∀ i, ∀ j ∈ nosky, e i j ≠ 0) :
    ∃ s : Fin r → Fin c → K, scaleModel (finImg f) (finImg e) (finImg m) nosky = finImg s ∧
      (∀ i, ∃ a : K, (∀ j, s i j = a * m i j) ∧
        ∀ b : K, rowResidual (f i) (e i) (s i) nosky ≤
          rowResidual (f i) (e i) (fun j => b * m i j) nosky) ∧
      (∀ i, (∀ j ∈ nosky, m i j = 0) → ∀ j, s i j = 0) := by
  refine ⟨_, scaleModel_fin f e m nosky he, ?_, ?_⟩
  · intro i
    refine ⟨_, fun j => mul_comm _ _, fun b => ?_⟩
    have := quad_min nosky (f i) (e i) (m i) (he i) b
    simp only [rowResidual, pow_two]
    simpa only [mul_comm (m i _)] using this
  · intro i hm j
    have h0 : (nosky.map fun j => m i j * m i j / (e i j * e i j)).sum = 0 := by
      have : (nosky.map fun j => m i j * m i j / (e i j * e i j)) = nosky.map fun _ => (0 : K) :=
        List.map_congr_left fun j hj => by rw [hm j hj]; simp
      rw [this]; simp
    simp [h0]

/-- C09: the optimum is the only one when the row does not vanish on the sky-free columns. -/
theorem C09_scaling_unique (f e m : Fin r → Fin c → K) (nosky : List (Fin c))
    (he : ∀ i, ∀ j ∈ nosky, e i j ≠ 0) (i : Fin r) (hne : ∃ j ∈ nosky, m i j ≠ 0) (b : K)
    (s : Fin r → Fin c → K) (hs : scaleModel (finImg f) (finImg e) (finImg m) nosky = finImg s)
    (hb : rowResidual (f i) (e i) (fun j => b * m i j) nosky ≤ rowResidual (f i) (e i) (s i) nosky) :
    ∀ j, s i j = b * m i j := by
  have hd : (nosky.map fun j => m i j * m i j / (e i j * e i j)).sum ≠ 0 := by
    intro h
    obtain ⟨j, hj, hmj⟩ := hne
    exact hmj (den_eq_zero nosky (e i) (m i) (he i) h j hj)
  rw [scaleModel_fin f e m nosky he] at hs
  have hs' : ∀ j, s i j = m i j *
      ((nosky.map fun j => f i j * m i j / (e i j * e i j)).sum /
        (nosky.map fun j => m i j * m i j / (e i j * e i j)).sum) := by
    intro j
    have := congrFun (congrFun hs i) j
    simp only [finImg, Fl.fin.injEq, if_neg hd] at this
    exact this.symm
  set n := (nosky.map fun j => f i j * m i j / (e i j * e i j)).sum with hn
  set d := (nosky.map fun j => m i j * m i j / (e i j * e i j)).sum with hdd
  have hsf : s i = fun j => (n / d) * m i j := by
    funext j; rw [hs' j, mul_comm]
  rw [hsf] at hb
  simp only [rowResidual, pow_two] at hb
  rw [sum_quad nosky (f i) (e i) (m i) (he i) b, sum_quad nosky (f i) (e i) (m i) (he i) (n / d),
    ← hn, ← hdd] at hb
  have hdpos : 0 < d := lt_of_le_of_ne (den_nonneg nosky (e i) (m i)) (Ne.symm hd)
  have had : (n / d) * d = n := by field_simp
  have e1 : d * ((b - n / d) * (b - n / d)) =
      b * b * d - 2 * b * ((n / d) * d) + (n / d) * ((n / d) * d) := by ring
  rw [had] at e1
  have e2 : (n / d) * (n / d) * d = (n / d) * n := by rw [mul_assoc, had]
  rw [e2] at hb
  have h3 : d * ((b - n / d) * (b - n / d)) ≤ 0 := by linarith
  have h4 : (b - n / d) * (b - n / d) = 0 := by
    have h5 := mul_self_nonneg (b - n / d)
    rcases h5.lt_or_eq with h6 | h6
    · exact absurd (mul_pos hdpos h6) (not_lt.2 h3)
    · exact h6.symm
  have h5 : b = n / d := by
    have := mul_self_eq_zero.1 h4
    linarith
  intro j
  rw [hs' j, h5, mul_comm]

example : scaleModel (K := ℚ) (finImg (r := 2) (c := 2) ![![2, 4], ![1, 1]])
    (finImg ![![1, 1], ![1, 1]]) (finImg ![![1, 2], ![0, 5]]) [0] =
    finImg ![![2, 4], ![0, 0]] := by
  funext i j; fin_cases i <;> fin_cases j <;> decide +kernel

/-! ## C10 -/

/-- C10: the scaled model does not depend on the amplitudes of the rows of the model. -/
theorem C10_amplitude_independent (f e m : Fin r → Fin c → K) (nosky : List (Fin c))
    (he : ∀ i, ∀ j ∈ nosky, e i j ≠ 0) (k : Fin r → K) (hk : ∀ i, k i ≠ 0) :
    scaleModel (finImg f) (finImg e) (finImg fun i j => k i * m i j) nosky =
      scaleModel (finImg f) (finImg e) (finImg m) nosky := by
  rw [scaleModel_fin f e m nosky he, scaleModel_fin f e _ nosky he]
  funext i j
  simp only [finImg, Fl.fin.injEq]
  have e1 : (nosky.map fun j => k i * m i j * (k i * m i j) / (e i j * e i j)).sum =
      k i * k i * (nosky.map fun j => m i j * m i j / (e i j * e i j)).sum := by
    rw [← List.sum_map_mul_left]
    congr 1
    refine List.map_congr_left fun j _ => ?_
    ring
  have e2 : (nosky.map fun j => f i j * (k i * m i j) / (e i j * e i j)).sum =
      k i * (nosky.map fun j => f i j * m i j / (e i j * e i j)).sum := by
    rw [← List.sum_map_mul_left]
    congr 1
    refine List.map_congr_left fun j _ => ?_
    ring
  have hki := hk i
  rw [e1, e2]
  by_cases hd : (nosky.map fun j => m i j * m i j / (e i j * e i j)).sum = 0
  · simp [hd]
  · have : k i * k i * (nosky.map fun j => m i j * m i j / (e i j * e i j)).sum ≠ 0 :=
      mul_ne_zero (mul_ne_zero hki hki) hd
    rw [if_neg hd, if_neg this]
    field_simp

/-- C10: in particular a model and its negative are scaled to the same image. -/
theorem C10_sign_irrelevant (f e m : Fin r → Fin c → K) (nosky : List (Fin c))
    (he : ∀ i, ∀ j ∈ nosky, e i j ≠ 0) :
    scaleModel (finImg f) (finImg e) (finImg fun i j => -m i j) nosky =
      scaleModel (finImg f) (finImg e) (finImg m) nosky := by
  have := C10_amplitude_independent f e m nosky he (fun _ => -1) (fun _ => by simp)
  simpa using this

/-- C10: scaling a scaled model changes nothing. -/
theorem C10_idempotent (f e m : Fin r → Fin c → K) (nosky : List (Fin c))
    (he : ∀ i, ∀ j ∈ nosky, e i j ≠ 0) :
    scaleModel (finImg f) (finImg e) (scaleModel (finImg f) (finImg e) (finImg m) nosky) nosky =
      scaleModel (finImg f) (finImg e) (finImg m) nosky := by
  rw [scaleModel_fin f e m nosky he, scaleModel_fin f e _ nosky he]
  funext i j
  simp only [finImg, Fl.fin.injEq]
  set d := (nosky.map fun j => m i j * m i j / (e i j * e i j)).sum with hd
  set n := (nosky.map fun j => f i j * m i j / (e i j * e i j)).sum with hn
  set a := (if d = 0 then 0 else n / d) with ha
  have e1 : (nosky.map fun j => m i j * a * (m i j * a) / (e i j * e i j)).sum = a * a * d := by
    rw [hd, ← List.sum_map_mul_left]
    congr 1
    refine List.map_congr_left fun j _ => ?_
    ring
  have e2 : (nosky.map fun j => f i j * (m i j * a) / (e i j * e i j)).sum = a * n := by
    rw [hn, ← List.sum_map_mul_left]
    congr 1
    refine List.map_congr_left fun j _ => ?_
    ring
  rw [e1, e2]
  by_cases hd0 : d = 0
  · have : a = 0 := if_pos hd0
    simp [this]
  · have haa : a = n / d := if_neg hd0
    by_cases hn0 : n = 0
    · have : a = 0 := by rw [haa, hn0, zero_div]
      simp [this]
    · have ha0 : a ≠ 0 := by rw [haa]; exact div_ne_zero hn0 hd0
      rw [if_neg (mul_ne_zero (mul_ne_zero ha0 ha0) hd0)]
      have : a * n / (a * a * d) = 1 := by
        rw [haa]
        field_simp
      rw [this, mul_one]

example : (∀ i : Fin 1, ∀ j ∈ [(0 : Fin 2), 1], (![![(1:ℚ), 2]] : Fin 1 → Fin 2 → ℚ) i j ≠ 0) ∧
    scaleModel (K := ℚ) (finImg (r := 1) (c := 2) ![![2, 4]]) (finImg ![![1, 2]])
      (finImg ![![-3, -6]]) [0, 1] = finImg ![![2, 4]] := by
  constructor
  · intro i j _; fin_cases i; fin_cases j <;> simp
  · funext i j; fin_cases i; fin_cases j <;> decide +kernel

/-! ## C11 -/

/-- C11 is false: the scaling only looks at the sky-free columns while the reported chi-square
also counts unmasked sky columns.  Here column 1 is a sky column. -/
theorem C11_false :
    ∃ f e m w x : Fin 1 → Fin 2 → ℚ, ∃ nosky : List (Fin 2), ∃ b : ℚ,
      (∀ i j, e i j ≠ 0) ∧ (∀ i j, m i j = 1) ∧ (∀ i j, w i j = 1) ∧
      ∃ q q' : ℚ,
      modelChisq (finData f e m w) (scaleModel (finImg f) (finImg e) (finImg x) nosky) = .fin q ∧
      modelChisq (finData f e m w) (finImg fun i j => b * x i j) = .fin q' ∧ q' < q :=
  ⟨![![1, 3]], fun _ _ => 1, fun _ _ => 1, fun _ _ => 1, ![![1, 1]], [0], 2, by simp, by simp,
    by simp, 4, 2, by decide +kernel, by decide +kernel, by norm_num⟩

/-- C11, the part that holds.  Missing with respect to the full claim: it is required that
the unmasked pixels of every row are exactly the sky-free columns and that the weights are
constant along rows (they are, see C21). -/
theorem C11_scaling_minimises_chisq_partial (f e m w x : Fin r → Fin c → K)
    (nosky : List (Fin c)) (hnd : nosky.Nodup)
    (he : ∀ i j, e i j ≠ 0)
    (hm : ∀ i j, m i j = if j ∈ nosky then 1 else 0)
    (hw : ∀ i, ∃ v : K, 0 ≤ v ∧ ∀ j, w i j = v) (b : Fin r → K) :
    ∃ q q' : K,
      modelChisq (finData f e m w) (scaleModel (finImg f) (finImg e) (finImg x) nosky) = .fin q ∧
      modelChisq (finData f e m w) (finImg fun i j => b i * x i j) = .fin q' ∧ q ≤ q' := by
  obtain ⟨s, hs, hopt, _⟩ := C09_scaling_optimal f e x nosky (fun i j _ => he i j)
  rw [hs]
  refine ⟨_, _, modelChisq_fin _ _ _ _ _ he, modelChisq_fin _ _ _ _ _ he, ?_⟩
  refine Finset.sum_le_sum fun i _ => ?_
  obtain ⟨v, hv, hwv⟩ := hw i
  have key : ∀ y : Fin c → K,
      ∑ j, ((f i j - y j) * m i j / e i j) * ((f i j - y j) * m i j / e i j) * w i j =
        v * rowResidual (f i) (e i) y nosky := by
    intro y
    have : rowResidual (f i) (e i) y nosky =
        ∑ j, if j ∈ nosky then ((f i j - y j) / e i j) ^ 2 else 0 := by
      rw [← Finset.sum_filter]
      unfold rowResidual
      rw [show Finset.univ.filter (fun j => j ∈ nosky) = nosky.toFinset by ext; simp,
        List.sum_toFinset _ hnd]
    rw [this, Finset.mul_sum]
    refine Finset.sum_congr rfl fun j _ => ?_
    rw [hwv, hm]
    split_ifs <;> ring
  rw [key, key]
  obtain ⟨_, _, h3⟩ := hopt i
  exact mul_le_mul_of_nonneg_left (h3 (b i)) hv

example : ∃ m : Fin 1 → Fin 2 → ℚ, ∀ i j, m i j = if j ∈ [(0 : Fin 2)] then 1 else 0 :=
  ⟨![![1, 0]], by intro i j; fin_cases i; fin_cases j <;> simp⟩

end Misfit
