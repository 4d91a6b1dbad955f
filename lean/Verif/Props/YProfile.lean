import Verif.Lemmas.YProfile
import Verif.Model.Weights
import Mathlib.Analysis.SpecialFunctions.Gaussian.GaussianIntegral

/-!
# Properties of the Gaussian profiles and of the spatial extent (C99-C105)
-/

namespace Misfit
open Real
variable {r c : Nat}

/-! ## Specification -/

/-- A fitting routine that always returns something -/
def AlwaysReturns (O : YProblem → Except PyErr GausPar) : Prop := ∀ p, ∃ q, O p = .ok q

/-- A fitting routine that respects the bounds of the width -/
def WidthInBounds (O : YProblem → Except PyErr GausPar) : Prop :=
  ∀ p q, O p = .ok q → 0 ≤ q.sigma ∧ ∀ m, p.sigmaMax = some m → q.sigma ≤ m

/-- A fitting routine that only returns perfect fits -/
def PerfectOnly (O : YProblem → Except PyErr GausPar) : Prop :=
  ∀ p q, O p = .ok q → ∃ l, p.resid q = .ok l ∧ ∀ v ∈ l, v = .fin 0

/-! ## The structure of a measurement -/

/-- what a successful measurement consists of -/
theorem measure_ok {O : YProblem → Except PyErr GausPar} {s : YInput r c} {lo hi : ℝ} {A : Fl ℝ}
    {noise : List (List (Fl ℝ))} {y : YSize} (h : s.measure O lo hi A noise = .ok y) :
    s.fwhm ≠ 0 ∧ 0.8 ≤ (s.rows.length : ℝ) * s.pix / s.fwhm ∧
      ∃ p col, s.fitOnce O lo hi A s.prof = .ok p ∧ s.mcWidths O lo hi A noise = .ok col ∧
        y.obs = p.sigma ∧ y.int = intWidth p.sigma s.fwhm ∧ y.d50 = y.int * std2FWHM ∧
        errPair y.obs col = .ok y.obsErr ∧
        errPair y.int (col.map fun v => intWidth v s.fwhm) = .ok y.intErr ∧
        errPair y.d50 (col.map fun v => intWidth v s.fwhm * std2FWHM) = .ok y.d50Err := by
  simp only [YInput.measure] at h
  split at h
  · cases h
  · rename_i h0
    split at h
    · cases h
    · rename_i h1
      refine ⟨h0, not_lt.mp h1, ?_⟩
      split at h
      · cases h
      · rename_i p hp
        split at h
        · cases h
        · rename_i col hc
          split at h
          · rename_i a b d ha hb hd
            cases h
            exact ⟨p, col, hp, hc, rfl, rfl, rfl, ha, hb, hd⟩
          · cases h

/-- the outcome of the whole function -/
theorem fitEmission_ok {O : YProblem → Except PyErr GausPar} {s : YInput r c}
    {noise : List (List (Fl ℝ))} {y : YSize} (h : fitEmissionYProfile O s noise = .ok y) :
    y = YSize.missing ∨ (s.rows ≠ [] ∧ ∃ lo hi A, s.yy.min? = some lo ∧ s.yy.max? = some hi ∧
      s.measure O lo hi A noise = .ok y) := by
  simp only [fitEmissionYProfile] at h
  split at h
  · cases h
  · split at h
    · cases h; exact Or.inl rfl
    · rename_i hr
      split at h
      · rename_i lo hi A h1 h2 h3
        split at h
        · cases h
        · split at h
          · cases h; exact Or.inl rfl
          · rename_i y' hy
            cases h
            exact Or.inr ⟨hr, lo, hi, A, h1, h2, hy⟩
      · cases h

theorem fitOnce_ok {O : YProblem → Except PyErr GausPar} (hO : AlwaysReturns O) (s : YInput r c) (lo hi : ℝ)
    (A : Fl ℝ) (data : List (Fl ℝ)) : ∃ p, s.fitOnce O lo hi A data = .ok p := by
  obtain ⟨p, hp⟩ := hO (s.problem lo hi A none data)
  simp only [YInput.fitOnce, hp]
  split
  · exact hO _
  · exact ⟨p, rfl⟩

theorem mcWidths_ok {O : YProblem → Except PyErr GausPar} (hO : AlwaysReturns O) (s : YInput r c) (lo hi : ℝ)
    (A : Fl ℝ) (noise : List (List (Fl ℝ))) :
    ∃ col, s.mcWidths O lo hi A noise = .ok col ∧ col.length = noise.length := by
  induction noise with
  | nil => exact ⟨[], rfl, rfl⟩
  | cons n ns ih =>
    obtain ⟨col, hc, hl⟩ := ih
    obtain ⟨p, hp⟩ := fitOnce_ok hO s lo hi A
      (List.zipWith (· + ·) s.prof (List.zipWith (· * ·) s.profErr n))
    exact ⟨p.sigma :: col, by simp only [YInput.mcWidths, hp, hc], by simp [hl]⟩

theorem errPair_ok (v : ℝ) (col : List ℝ) (h : col ≠ []) : ∃ e, errPair v col = .ok e := by
  obtain ⟨lo, hi, hl, -⟩ := limits1_ok col h
  exact ⟨(v - lo, hi - v), by rw [errPair, hl]⟩

theorem measure_of {O : YProblem → Except PyErr GausPar} (hO : AlwaysReturns O) (s : YInput r c) (lo hi : ℝ)
    (A : Fl ℝ) (noise : List (List (Fl ℝ))) (hn : noise ≠ []) (h0 : s.fwhm ≠ 0)
    (h1 : 0.8 ≤ (s.rows.length : ℝ) * s.pix / s.fwhm) : ∃ y, s.measure O lo hi A noise = .ok y := by
  obtain ⟨p, hp⟩ := fitOnce_ok hO s lo hi A s.prof
  obtain ⟨col, hc, hl⟩ := mcWidths_ok hO s lo hi A noise
  have hcol : col ≠ [] := by
    rintro rfl; exact hn (List.length_eq_zero_iff.mp hl.symm)
  obtain ⟨a, ha⟩ := errPair_ok p.sigma col hcol
  obtain ⟨b, hb⟩ := errPair_ok (intWidth p.sigma s.fwhm) (col.map fun v => intWidth v s.fwhm)
    (by simpa using hcol)
  obtain ⟨d, hd⟩ := errPair_ok (intWidth p.sigma s.fwhm * std2FWHM)
    (col.map fun v => intWidth v s.fwhm * std2FWHM) (by simpa using hcol)
  exact ⟨_, by simp only [YInput.measure, if_neg h0, if_neg (not_lt.mpr h1), hp, hc, ha, hb, hd]; rfl⟩

/-! ## C99 -/

/-- C99: either every quantity carries the value for "not measured", or the extent is the observed width with the PSF removed in
quadrature (zero if the PSF is wider) and `D50` is its full width at half maximum, which is not negative. -/
theorem C99_outcome (O : YProblem → Except PyErr GausPar) (s : YInput r c) (noise : List (List (Fl ℝ)))
    (y : YSize) (h : fitEmissionYProfile O s noise = .ok y) :
    (y.obs = -99 ∧ y.int = -99 ∧ y.d50 = -99 ∧ y.obsErr = (-99, -99) ∧ y.intErr = (-99, -99) ∧
      y.d50Err = (-99, -99)) ∨
    (0 ≤ y.d50 ∧ y.d50 = 2 * √(2 * log 2) * y.int ∧
      (|s.fwhm| ≤ |2 * √(2 * log 2) * y.obs| → y.d50 ^ 2 + s.fwhm ^ 2 = (2 * √(2 * log 2) * y.obs) ^ 2) ∧
      (|2 * √(2 * log 2) * y.obs| < |s.fwhm| → y.d50 = 0)) := by
  rcases fitEmission_ok h with rfl | ⟨-, lo, hi, A, -, -, hm⟩
  · left; simp [YSize.missing]
  · right
    obtain ⟨-, -, p, col, -, -, ho, hi', hd, -⟩ := measure_ok hm
    have hs := std2FWHM_pos
    have hk : 2 * √(2 * log 2) = std2FWHM := rfl
    rw [hk, hd, hi', ho]
    refine ⟨mul_nonneg (intWidth_nonneg _ _) hs.le, mul_comm _ _, ?_, ?_⟩
    · intro hle
      have h2 : s.fwhm ^ 2 ≤ (std2FWHM * p.sigma) ^ 2 := sq_le_sq.mpr hle
      have : 0 ≤ p.sigma ^ 2 - (s.fwhm / std2FWHM) ^ 2 := by
        rw [div_pow, sub_nonneg, div_le_iff₀ (by positivity)]; linarith [mul_pow std2FWHM p.sigma 2]
      rw [intWidth, if_pos this, mul_pow, Real.sq_sqrt this]
      field_simp
      ring
    · intro hlt
      have h2 : (std2FWHM * p.sigma) ^ 2 < s.fwhm ^ 2 := sq_lt_sq.mpr hlt
      have : ¬ 0 ≤ p.sigma ^ 2 - (s.fwhm / std2FWHM) ^ 2 := by
        rw [div_pow, sub_nonneg, div_le_iff₀ (by positivity)]; linarith [mul_pow std2FWHM p.sigma 2]
      rw [intWidth, if_neg this, zero_mul]

/-- C99: with a fitting routine that does not fail and at least one noise realisation, the extent is measured exactly if a row is usable
and the usable rows cover 0.8 FWHM of the PSF. -/
theorem C99_measured_iff (O : YProblem → Except PyErr GausPar) (hO : AlwaysReturns O) (s : YInput r c)
    (noise : List (List (Fl ℝ))) (hn : noise ≠ []) (hp : 0 < s.pix) (hf : 0 < s.fwhm) (y : YSize)
    (h : fitEmissionYProfile O s noise = .ok y) :
    y.d50 ≠ -99 ↔ s.rows ≠ [] ∧ 0.8 * s.fwhm ≤ (s.rows.length : ℝ) * s.pix := by
  have hm : y = YSize.missing → y.d50 = -99 := fun h => by rw [h]; rfl
  constructor
  · intro hd
    rcases fitEmission_ok h with hy | ⟨hr, lo, hi, A, -, -, hy⟩
    · exact absurd (hm hy) hd
    · obtain ⟨-, h1, -⟩ := measure_ok hy
      exact ⟨hr, by rwa [le_div_iff₀ hf] at h1⟩
  · rintro ⟨hr, h1⟩
    rw [← le_div_iff₀ hf] at h1
    have hpos : y = YSize.missing → False := by
      intro hy
      simp only [fitEmissionYProfile] at h
      split at h
      · cases h
      · split at h
        · rename_i lo hi A _ _ _
          split at h
          · cases h
          · obtain ⟨y', hy'⟩ := measure_of hO s lo hi A noise hn hf.ne' h1
            rw [hy'] at h
            cases h
            obtain ⟨-, -, p, col, -, -, -, hi', hd, -⟩ := measure_ok hy'
            have : 0 ≤ y.d50 := by
              rw [hd, hi']; exact mul_nonneg (intWidth_nonneg _ _) std2FWHM_pos.le
            rw [hm hy] at this
            norm_num at this
        · cases h
    rcases C99_outcome O s noise y h with ⟨a, b, d, e, f, g⟩ | h
    · exfalso; apply hpos
      cases y; simp only at *; subst a b d e f g; rfl
    · intro hd; rw [hd] at h; linarith [h.1]

/-! ## C100 -/

/-- C100: if the fitting routine respects its bounds, the extent is never wider than the window that was fitted. -/
theorem C100_window (O : YProblem → Except PyErr GausPar) (hO : WidthInBounds O) (s : YInput r c)
    (noise : List (List (Fl ℝ))) (hp : 0 < s.pix) (y : YSize) (h : fitEmissionYProfile O s noise = .ok y)
    (hd : y.d50 ≠ -99) :
    0 ≤ y.obs ∧ 2 * √(2 * log 2) * y.obs ≤ ((s.mHi : ℝ) - s.mLo - 1) * s.pix ∧
      y.d50 ≤ 2 * √(2 * log 2) * y.obs := by
  rcases fitEmission_ok h with rfl | ⟨hr, lo, hi, A, h1, h2, hm⟩
  · exact absurd rfl hd
  · obtain ⟨-, -, p, col, hfit, -, ho, hi', hd', -⟩ := measure_ok hm
    have hs := std2FWHM_pos
    have hk : 2 * √(2 * log 2) = std2FWHM := rfl
    have hlt : s.mLo < s.mHi := by
      by_contra hc
      have : s.yy.length = 0 := by rw [yy_length]; omega
      rw [List.length_eq_zero_iff.mp this] at h1
      cases h1
    rw [yy_min s hlt hp] at h1
    rw [yy_max s hlt hp] at h2
    cases h1; cases h2
    have hb : 0 ≤ p.sigma ∧ p.sigma ≤ (((s.mHi : ℝ) - 1) * s.pix - s.mLo * s.pix) / std2FWHM := by
      simp only [YInput.fitOnce] at hfit
      split at hfit
      · cases hfit
      · rename_i q hq
        split at hfit
        · have := hO _ _ hfit
          exact ⟨this.1, this.2 _ rfl⟩
        · rename_i hnl
          cases hfit
          exact ⟨(hO _ _ hq).1, not_lt.mp hnl⟩
    rw [hk, hd', hi', ho]
    refine ⟨hb.1, ?_, ?_⟩
    · have := hb.2
      rw [le_div_iff₀ hs] at this
      linarith
    · have : intWidth p.sigma s.fwhm ≤ p.sigma := by
        simp only [intWidth]
        split
        · rw [Real.sqrt_le_left hb.1]; nlinarith [sq_nonneg (s.fwhm / std2FWHM)]
        · exact hb.1
      nlinarith

/-! ## C101 -/

/-- Two inputs that differ only in the image values of rows that are masked -/
def SameOnRows (s t : YInput r c) : Prop :=
  t = { s with flux := t.flux, err := t.err, sky := t.sky } ∧
    ∀ i : Fin r, (i : ℕ) ∉ s.low → ∀ j, t.flux i j = s.flux i j ∧ t.err i j = s.err i j ∧ t.sky i j = s.sky i j

theorem SameOnRows.prof {s t : YInput r c} (h : SameOnRows s t) (k : ℕ) (hk : k ∉ s.low) :
    t.prof[k]? = s.prof[k]? := by
  simp only [YInput.prof, List.getElem?_ofFn]
  split
  · rename_i hlt
    simp only [Option.some.injEq]
    exact Finset.sum_congr rfl fun j _ => by
      obtain ⟨h1, -, h3⟩ := h.2 ⟨k, hlt⟩ hk j
      rw [h1, h3]
  · rfl

theorem SameOnRows.profErr {s t : YInput r c} (h : SameOnRows s t) (k : ℕ) (hk : k ∉ s.low) :
    t.profErr[k]? = s.profErr[k]? := by
  simp only [YInput.profErr, List.getElem?_ofFn]
  split
  · rename_i hlt
    simp only [Option.some.injEq]
    congr 1
    exact Finset.sum_congr rfl fun j _ => by
      obtain ⟨-, h2, h3⟩ := h.2 ⟨k, hlt⟩ hk j
      rw [h2, h3]
  · rfl

theorem SameOnRows.fields {s t : YInput r c} (h : SameOnRows s t) :
    t.yy = s.yy ∧ t.rows = s.rows ∧ t.ypos = s.ypos ∧ t.pix = s.pix ∧ t.fwhm = s.fwhm ∧
      t.mLo = s.mLo ∧ t.mHi = s.mHi := by
  rw [h.1]; exact ⟨rfl, rfl, rfl, rfl, rfl, rfl, rfl⟩

theorem mem_rows (s : YInput r c) (k : ℕ) (h : k ∈ s.rows) : k ∉ s.low := by
  simp only [YInput.rows, List.mem_filter, decide_eq_true_eq] at h; exact h.2

theorem SameOnRows.problem {s t : YInput r c} (h : SameOnRows s t) (lo hi : ℝ) (A : Fl ℝ) (m : Option ℝ)
    (d d' : List (Fl ℝ)) (hd : ∀ k ∉ s.low, d'[k]? = d[k]?) :
    t.problem lo hi A m d' = s.problem lo hi A m d := by
  obtain ⟨h1, h2, h3, h4, -⟩ := h.fields
  simp only [YInput.problem, h1, h2, h3, h4]
  congr 1
  funext p
  exact gausResidualMask_congr p _ _ _ _ _ _ fun k hk =>
    ⟨hd k (mem_rows s k hk), h.profErr k (mem_rows s k hk)⟩

theorem SameOnRows.fitOnce {s t : YInput r c} (h : SameOnRows s t) (O : YProblem → Except PyErr GausPar)
    (lo hi : ℝ) (A : Fl ℝ) (d d' : List (Fl ℝ)) (hd : ∀ k ∉ s.low, d'[k]? = d[k]?) :
    t.fitOnce O lo hi A d' = s.fitOnce O lo hi A d := by
  simp only [YInput.fitOnce, h.problem lo hi A _ d d' hd]

theorem SameOnRows.mc {s t : YInput r c} (h : SameOnRows s t) (O : YProblem → Except PyErr GausPar)
    (lo hi : ℝ) (A : Fl ℝ) (noise : List (List (Fl ℝ))) :
    t.mcWidths O lo hi A noise = s.mcWidths O lo hi A noise := by
  induction noise with
  | nil => rfl
  | cons n ns ih =>
    simp only [YInput.mcWidths, ih]
    rw [h.fitOnce O lo hi A]
    intro k hk
    simp only [List.getElem?_zipWith, h.prof k hk, h.profErr k hk]

/-- C101 (partial): the values in masked rows do not matter as long as they do not change the largest value of the profile.  Missing: they do
change the result otherwise, see `C101_false`. -/
theorem C101_masked_rows_partial (O : YProblem → Except PyErr GausPar) (s t : YInput r c)
    (noise : List (List (Fl ℝ))) (h : SameOnRows s t) (hmax : npMaxF t.prof = npMaxF s.prof) :
    fitEmissionYProfile O t noise = fitEmissionYProfile O s noise := by
  obtain ⟨h1, h2, h3, h4, h5, h6, h7⟩ := h.fields
  have hm : ∀ lo hi A, t.measure O lo hi A noise = s.measure O lo hi A noise := by
    intro lo hi A
    simp only [YInput.measure, h2, h4, h5, h.mc, h.fitOnce O lo hi A _ _ fun k hk => h.prof k hk]
  simp only [fitEmissionYProfile, h1, h2, h6, h7, hmax, hm]

theorem fitOnce_congr {O O' : YProblem → Except PyErr GausPar} (s : YInput r c) (lo hi : ℝ) {A A' : Fl ℝ}
    (h : ∀ m d, O (s.problem lo hi A m d) = O' (s.problem lo hi A' m d)) (d : List (Fl ℝ)) :
    s.fitOnce O lo hi A d = s.fitOnce O' lo hi A' d := by
  simp only [YInput.fitOnce, h]

theorem mcWidths_congr {O O' : YProblem → Except PyErr GausPar} (s : YInput r c) (lo hi : ℝ) {A A' : Fl ℝ}
    (h : ∀ m d, O (s.problem lo hi A m d) = O' (s.problem lo hi A' m d)) (noise : List (List (Fl ℝ))) :
    s.mcWidths O lo hi A noise = s.mcWidths O' lo hi A' noise := by
  induction noise with
  | nil => rfl
  | cons x l ih => simp only [YInput.mcWidths, ih, fitOnce_congr s lo hi h]

theorem measure_congr {O O' : YProblem → Except PyErr GausPar} (s : YInput r c) (lo hi : ℝ) {A A' : Fl ℝ}
    (h : ∀ m d, O (s.problem lo hi A m d) = O' (s.problem lo hi A' m d)) (noise : List (List (Fl ℝ))) :
    s.measure O lo hi A noise = s.measure O' lo hi A' noise := by
  simp only [YInput.measure, mcWidths_congr s lo hi h, fitOnce_congr s lo hi h]

open Classical in
/-- **C101**, exactly: masked rows do not influence the extent, for all fitting routines and noise, if and only if they
leave the largest value of the profile as it is, or the extent is never measured at all. -/
theorem C101_exact (s t : YInput r c) (h : SameOnRows s t) :
    (∀ O noise, fitEmissionYProfile O t noise = fitEmissionYProfile O s noise) ↔
      npMaxF t.prof = npMaxF s.prof ∨ ∀ O noise y, fitEmissionYProfile O s noise = .ok y → y = YSize.missing := by
  constructor
  · intro hall
    refine or_iff_not_imp_left.2 fun hne O noise y hy => ?_
    by_contra hmiss
    -- a routine that works only for the starting amplitude of `s`
    have hs := hy
    unfold fitEmissionYProfile at hs
    split at hs
    · cases hs
    rename_i c1
    split at hs
    · cases hs; exact hmiss rfl
    rename_i c2
    split at hs
    swap
    · cases hs
    rename_i lo hi A e1 e2 e3
    split at hs
    · cases hs
    rename_i c3
    let O' : YProblem → Except PyErr GausPar := fun p => if p.A = A then O p else .error .valueError
    have hO : ∀ m d, O' (s.problem lo hi A m d) = O (s.problem lo hi A m d) := fun m d => if_pos rfl
    have hs' : fitEmissionYProfile O' s noise = .ok y := by
      rw [← hy]
      unfold fitEmissionYProfile
      rw [if_neg c1, if_neg c2, if_neg c1, if_neg c2, e1, e2, e3]
      simp only [measure_congr s lo hi hO]
    have ht := (hall O' noise).trans hs'
    obtain ⟨h1, h2, h3, h4, h5, h6, h7⟩ := h.fields
    unfold fitEmissionYProfile at ht
    rw [h6, h7, if_neg c1, h2, if_neg c2, h1, e1, e2] at ht
    split at ht
    swap
    · cases ht
    rename_i lo' hi' B e1' e2' e3'
    cases e1'
    cases e2'
    have hB : B ≠ A := fun hBA => hne (by rw [e3', e3, hBA])
    have hbad : ∀ d, t.fitOnce O' lo hi B d = .error .valueError := by
      intro d
      have : O' (t.problem lo hi B none d) = .error .valueError := if_neg hB
      unfold YInput.fitOnce
      rw [this]
    rw [if_neg c3] at ht
    split at ht
    · cases ht; exact hmiss rfl
    · rename_i y' hm
      unfold YInput.measure at hm
      split at hm
      · cases hm
      split at hm
      · cases hm
      rw [hbad] at hm
      cases hm
  · rintro (hmax | hnone) O noise
    · exact C101_masked_rows_partial O s t noise h hmax
    · obtain ⟨h1, h2, h3, h4, h5, h6, h7⟩ := h.fields
      have hsame : ∀ (O : YProblem → Except PyErr GausPar) lo hi A,
          t.measure O lo hi A noise = s.measure O lo hi A noise := by
        intro O lo hi A
        simp only [YInput.measure, h2, h4, h5, h.mc, h.fitOnce O lo hi A _ _ fun k hk => h.prof k hk]
      have hval : ∀ (O : YProblem → Except PyErr GausPar) lo hi A, ¬ s.mHi - s.mLo < 0 → s.rows ≠ [] →
          s.yy.min? = some lo → s.yy.max? = some hi → npMaxF s.prof = some A → lo ≠ hi →
          ∀ y, s.measure O lo hi A noise = .ok y → y = YSize.missing := by
        intro O lo hi A c1 c2 e1 e2 e3 c3 y hy
        refine hnone O noise y ?_
        unfold fitEmissionYProfile
        rw [if_neg c1, if_neg c2, e1, e2, e3]
        simp only [if_neg c3, hy]
      have hlen : ∀ l : List (Fl ℝ), npMaxF l = none ↔ l = [] := by
        intro l
        constructor
        · intro hl
          induction l with
          | nil => rfl
          | cons a l ih =>
            cases l with
            | nil => cases hl
            | cons b l =>
              cases hb : npMaxF (b :: l) with
              | none => exact absurd (ih hb) (by simp)
              | some v => rw [npMaxF, hb] at hl; exact absurd hl (by simp); simp
        · rintro rfl; rfl
      have hnil : npMaxF t.prof = none ↔ npMaxF s.prof = none := by
        rw [hlen, hlen, ← List.length_eq_zero_iff, ← List.length_eq_zero_iff]
        simp [YInput.prof]
      unfold fitEmissionYProfile
      rw [h6, h7, h2, h1]
      by_cases c1 : s.mHi - s.mLo < 0
      · rw [if_pos c1, if_pos c1]
      rw [if_neg c1, if_neg c1]
      by_cases c2 : s.rows = []
      · rw [if_pos c2, if_pos c2]
      rw [if_neg c2, if_neg c2]
      cases e1 : s.yy.min? with
      | none => rfl
      | some lo =>
      cases e2 : s.yy.max? with
      | none => rfl
      | some hi =>
      cases e3 : npMaxF s.prof with
      | none => rw [hnil.2 e3]
      | some A =>
      cases e4 : npMaxF t.prof with
      | none => rw [hnil.1 e4] at e3; cases e3
      | some B =>
      simp only
      by_cases c3 : lo = hi
      · rw [if_pos c3, if_pos c3]
      rw [if_neg c3, if_neg c3, hsame]
      have hB : s.measure O lo hi B noise = s.measure (fun p => O { p with A := B }) lo hi A noise :=
        measure_congr (O := O) (O' := fun p => O { p with A := B }) (A := B) (A' := A) s lo hi (fun m d => rfl) noise
      rw [hB]
      have k1 := hval (fun p => O { p with A := B }) lo hi A c1 c2 e1 e2 e3 c3
      have k2 := hval O lo hi A c1 c2 e1 e2 e3 c3
      generalize s.measure (fun p => O { p with A := B }) lo hi A noise = x at k1
      generalize s.measure O lo hi A noise = x' at k2
      cases x with
      | error e =>
        cases x' with
        | error e' => rfl
        | ok y' => rw [k2 y' rfl]
      | ok y =>
        rw [k1 y rfl]
        cases x' with
        | error e' => rfl
        | ok y' => rw [k2 y' rfl]

/-- If one row of the profile is NaN, masked or not, then at the starting point all residuals are zero, whatever the data. -/
theorem start_residual_zero (s : YInput r c) (h : Fl.nan ∈ s.prof) (lo hi : ℝ) (m : Option ℝ) (A : Fl ℝ)
    (hA : npMaxF s.prof = some A) (d : List (Fl ℝ)) (hd : d.length = r) (hrows : ∀ k ∈ s.rows, k < r) (mu sigma : ℝ) :
    (s.problem lo hi A m d).A = .nan ∧
      (s.problem lo hi A m d).resid ⟨mu, .nan, sigma⟩ = .ok (s.rows.map fun _ => .fin 0) := by
  rw [npMaxF_nan _ h] at hA
  cases hA
  refine ⟨rfl, gausResidualMask_nan _ _ _ _ _ _ fun k hk => ⟨?_, ?_, ?_⟩⟩
  · simp only [YInput.rows, List.mem_filter, List.mem_range] at hk; exact hk.1
  · rw [hd]; exact hrows k hk
  · simp only [YInput.profErr, List.length_ofFn]; exact hrows k hk

/-- Four rows of one pixel, the last one masked; `v` is the value in the masked row. -/
noncomputable def fourRows (v : Fl ℝ) : YInput 4 1 where
  flux := fun i _ => if i = 3 then v else .fin 5
  err := fun _ _ => .fin 1
  sky := fun _ _ => .fin 1
  mLo := 0
  mHi := 4
  low := [3]
  ypos := 1
  pix := 1
  fwhm := 1

open Classical in
/-- A fitting routine that stops at its starting point if the fit is perfect there, and fails otherwise. -/
noncomputable def startIfPerfect (p : YProblem) : Except PyErr GausPar :=
  match p.resid ⟨p.mu, p.A, p.sigma⟩ with
  | .ok l => if ∀ v ∈ l, v = .fin 0 then .ok ⟨p.mu, p.A, p.sigma⟩ else .error .valueError
  | .error e => .error e

theorem startIfPerfect_perfect : PerfectOnly startIfPerfect := by
  intro p q h
  simp only [startIfPerfect] at h
  split at h
  · rename_i l hl
    split at h
    · rename_i hz; cases h; exact ⟨l, hl, hz⟩
    · cases h
  · cases h

theorem fourRows_rows (v : Fl ℝ) : (fourRows v).rows = [0, 1, 2] := by
  have : (fourRows v).yy.length = 4 := by rw [yy_length]; rfl
  rw [YInput.rows, this]; rfl

theorem fourRows_sigma (v : Fl ℝ) (lo hi : ℝ) (A : Fl ℝ) (d : List (Fl ℝ)) :
    ((fourRows v).problem lo hi A none d).sigma = 1 := by
  simp only [YInput.problem]; norm_num

/-- C101: the expected claim (values in masked rows never matter) is false: a NaN in a masked row makes the amplitude the fit starts
from NaN, so that every residual is zero and a width is reported that has nothing to do with the data. -/
theorem C101_false : ∃ (O : YProblem → Except PyErr GausPar) (s t : YInput 4 1) (noise : List (List (Fl ℝ))),
    PerfectOnly O ∧ SameOnRows s t ∧
      (∃ y, fitEmissionYProfile O t noise = .ok y ∧ y.obs = 1) ∧
      (∃ y, fitEmissionYProfile O s noise = .ok y ∧ y.obs = -99) := by
  refine ⟨startIfPerfect, fourRows (.fin 0), fourRows .nan, [[.fin 0, .fin 0, .fin 0, .fin 0]],
    startIfPerfect_perfect, ⟨rfl, ?_⟩, ?_, ?_⟩
  · intro i hi j
    have : i ≠ 3 := by rintro rfl; simp [fourRows] at hi
    simp [fourRows, this]
  · have hnan : Fl.nan ∈ (fourRows .nan).prof := by
      rw [YInput.prof, List.mem_ofFn]; exact ⟨3, by simp [fourRows]; rfl⟩
    have hmax := npMaxF_nan _ hnan
    have hrows : ∀ k ∈ (fourRows .nan).rows, k < 4 := by rw [fourRows_rows]; decide
    have hO : ∀ lo hi (d : List (Fl ℝ)), d.length = 4 →
        ∃ mu, startIfPerfect ((fourRows .nan).problem lo hi .nan none d) = .ok ⟨mu, .nan, 1⟩ := by
      intro lo hi d hd
      have := (start_residual_zero (fourRows .nan) hnan lo hi none .nan hmax d hd hrows
        ((fourRows .nan).problem lo hi .nan none d).mu ((fourRows .nan).problem lo hi .nan none d).sigma).2
      refine ⟨((fourRows .nan).problem lo hi .nan none d).mu, ?_⟩
      simp only [startIfPerfect]
      have hA : ((fourRows .nan).problem lo hi .nan none d).A = .nan := rfl
      rw [hA, this]
      simp only
      rw [if_pos, fourRows_sigma]
      intro v hv
      obtain ⟨_, _, rfl⟩ := List.mem_map.mp hv
      rfl
    have hlo := yy_min (fourRows .nan) (by decide) (by norm_num [fourRows])
    have hhi := yy_max (fourRows .nan) (by decide) (by norm_num [fourRows])
    have hl0 : (((fourRows .nan).mLo : ℝ)) * (fourRows .nan).pix = 0 := by norm_num [fourRows]
    have hh0 : (((fourRows .nan).mHi : ℝ) - 1) * (fourRows .nan).pix = 3 := by norm_num [fourRows]
    rw [hl0] at hlo
    rw [hh0] at hhi
    have hwin : ¬ ((3 : ℝ) - 0) / std2FWHM < 1 := by
      rw [not_lt, le_div_iff₀ std2FWHM_pos]
      have : √(2 * log 2) ≤ 3 / 2 := by
        rw [Real.sqrt_le_left (by norm_num)]
        have := Real.log_two_lt_d9; norm_num; linarith
      simp only [std2FWHM]; linarith
    have hfit : ∀ d : List (Fl ℝ), d.length = 4 →
        ∃ mu, (fourRows .nan).fitOnce startIfPerfect 0 3 .nan d = .ok ⟨mu, .nan, 1⟩ := by
      intro d hd
      obtain ⟨mu, hmu⟩ := hO 0 3 d hd
      exact ⟨mu, by simp only [YInput.fitOnce, hmu, if_neg hwin]⟩
    obtain ⟨mu, hmu⟩ := hfit (fourRows .nan).prof (by simp [YInput.prof])
    obtain ⟨mu', hmu'⟩ := hfit (List.zipWith (· + ·) (fourRows .nan).prof
      (List.zipWith (· * ·) (fourRows .nan).profErr [.fin 0, .fin 0, .fin 0, .fin 0]))
      (by simp [YInput.prof, YInput.profErr])
    have hmc : (fourRows .nan).mcWidths startIfPerfect 0 3 .nan [[.fin 0, .fin 0, .fin 0, .fin 0]] =
        .ok [1] := by
      simp only [YInput.mcWidths, hmu']
    obtain ⟨a, ha⟩ := errPair_ok 1 [1] (by simp)
    obtain ⟨b, hb⟩ := errPair_ok (intWidth 1 (fourRows .nan).fwhm)
      ([(1 : ℝ)].map fun v => intWidth v (fourRows .nan).fwhm) (by simp)
    obtain ⟨d, hd⟩ := errPair_ok (intWidth 1 (fourRows .nan).fwhm * std2FWHM)
      ([(1 : ℝ)].map fun v => intWidth v (fourRows .nan).fwhm * std2FWHM) (by simp)
    have hspan : ¬ (((fourRows .nan).rows.length : ℝ) * (fourRows .nan).pix / (fourRows .nan).fwhm < 0.8) := by
      rw [fourRows_rows]; norm_num [fourRows]
    have hmeas : ∃ y, (fourRows .nan).measure startIfPerfect 0 3 .nan
        [[.fin 0, .fin 0, .fin 0, .fin 0]] = .ok y ∧ y.obs = 1 := by
      refine ⟨_, by
        simp only [YInput.measure, if_neg (by norm_num [fourRows] : ¬ (fourRows .nan).fwhm = 0), if_neg hspan,
          hmu, hmc, ha, hb, hd]; rfl, rfl⟩
    obtain ⟨y, hy, hobs⟩ := hmeas
    refine ⟨y, ?_, hobs⟩
    simp only [fitEmissionYProfile, hlo, hhi, hmax, fourRows_rows, hy]
    rw [if_neg (by decide), if_neg (List.cons_ne_nil _ _), if_neg (by norm_num)]
  · have hp0 : (fourRows (.fin 0)).prof = [.fin 5, .fin 5, .fin 5, .fin 0] := by
      simp [YInput.prof, fourRows, List.ofFn_succ]
    have he0 : (fourRows (.fin 0)).profErr = [.fin 1, .fin 1, .fin 1, .fin 1] := by
      simp [YInput.profErr, fourRows, List.ofFn_succ, Fl.sqrt, Fl.sq]
    have hmax : npMaxF (fourRows (.fin 0)).prof = some (.fin 5) := by
      rw [hp0]; simp [npMaxF, Fl.leB]
    have hlo := yy_min (fourRows (.fin 0)) (by decide) (by norm_num [fourRows])
    have hhi := yy_max (fourRows (.fin 0)) (by decide) (by norm_num [fourRows])
    have hl0 : (((fourRows (.fin 0)).mLo : ℝ)) * (fourRows (.fin 0)).pix = 0 := by norm_num [fourRows]
    have hh0 : (((fourRows (.fin 0)).mHi : ℝ) - 1) * (fourRows (.fin 0)).pix = 3 := by norm_num [fourRows]
    rw [hl0] at hlo
    rw [hh0] at hhi
    have hbad : ∃ e, startIfPerfect ((fourRows (.fin 0)).problem 0 3 (.fin 5) none (fourRows (.fin 0)).prof) =
        .error e := by
      simp only [startIfPerfect]
      split
      · rename_i l hl
        rw [if_neg]
        · exact ⟨_, rfl⟩
        · intro hz
          have hyy : (fourRows (.fin 0)).yy = [0, 1, 2, 3] := by
            simp [YInput.yy, fourRows, List.range_succ]
          have hmu : ((fourRows (.fin 0)).problem 0 3 (.fin 5) none (fourRows (.fin 0)).prof).mu = 1 := by
            simp [YInput.problem, fourRows, clipTo]
          rw [fourRows_sigma, hmu] at hl
          simp only [YInput.problem, fourRows_rows, hyy, hp0, he0] at hl
          simp only [gausResidualMask, List.getElem?_cons_zero, List.getElem?_cons_succ] at hl
          cases hl
          have h1 := hz _ (List.mem_cons_of_mem _ (List.mem_cons_self))
          simp only [gausAt, zero_lt_one, if_true, Fl.fin_mul, Fl.fin_sub, Fl.fin_div, one_ne_zero,
            if_false, Fl.isFinite, Fl.fin.injEq] at h1
          have h2 : exp (-(1 - 1) ^ 2 / (2 * 1 ^ 2)) / √(2 * π * 1) * 5 = 5 := by linarith [h1]
          have h3 : √(2 * π * 1) = 1 := by
            have hpos : (0 : ℝ) < √(2 * π * 1) := Real.sqrt_pos.mpr (by positivity)
            norm_num at h2
            have : √(2 * π) = 1 := by
              rw [← inv_eq_one]; simpa [mul_comm] using h2
            simpa using this
          rw [Real.sqrt_eq_one] at h3
          have := Real.pi_gt_three
          linarith
      · exact ⟨_, rfl⟩
    obtain ⟨e, he⟩ := hbad
    refine ⟨YSize.missing, ?_, rfl⟩
    simp only [fitEmissionYProfile, hlo, hhi, hmax, fourRows_rows, YInput.measure, YInput.fitOnce, he]
    rw [if_neg (by decide), if_neg (List.cons_ne_nil _ _), if_neg (by norm_num)]
    split_ifs <;> rfl

/-! ## C102 -/

/-- C102 (partial): the function does not raise for an image with rows, a non-zero pixel scale and at least two rows to fit.  Missing: it raises for a
single row, see `C102_false`. -/
theorem C102_returns_partial (O : YProblem → Except PyErr GausPar) (s : YInput r c)
    (noise : List (List (Fl ℝ))) (hr : 0 < r) (hm : s.mLo + 2 ≤ s.mHi) (hp : 0 < s.pix) :
    ∃ y, fitEmissionYProfile O s noise = .ok y := by
  have hlt : s.mLo < s.mHi := by omega
  obtain ⟨A, hA⟩ : ∃ A, npMaxF s.prof = some A := by
    obtain ⟨n, rfl⟩ : ∃ n, r = n + 1 := ⟨r - 1, by omega⟩
    rw [YInput.prof, List.ofFn_succ]; exact npMaxF_some _ _
  have hne : (s.mLo : ℝ) * s.pix ≠ ((s.mHi : ℝ) - 1) * s.pix := by
    intro h
    have := mul_right_cancel₀ hp.ne' h
    have : s.mLo = s.mHi - 1 := by exact_mod_cast this
    omega
  simp only [fitEmissionYProfile, yy_min s hlt hp, yy_max s hlt hp, hA, if_neg hne,
    if_neg (by omega : ¬ s.mHi - s.mLo < 0)]
  split
  · exact ⟨_, rfl⟩
  · split
    · exact ⟨_, rfl⟩
    · exact ⟨_, rfl⟩

/-- C102: the expected claim (a spectrum that cannot be measured is flagged, never an exception) is false: an image with one usable row raises
ValueError, whatever the fitting routine, because lmfit refuses equal bounds. -/
theorem C102_false (O : YProblem → Except PyErr GausPar) (s : YInput r c) (noise : List (List (Fl ℝ)))
    (hm : s.mHi = s.mLo + 1) (h0 : 0 ∉ s.low) : fitEmissionYProfile O s noise = .error .valueError := by
  have hl : (s.mHi - s.mLo).toNat = 1 := by omega
  have hyy : s.yy = [((s.mLo : ℝ) + (0 : ℕ)) * s.pix] := by
    simp only [YInput.yy, hl]; rfl
  have hr : s.rows ≠ [] := by
    simp only [YInput.rows, hyy]
    simp [h0, List.range_succ]
  simp only [fitEmissionYProfile, hyy, if_neg (by omega : ¬ s.mHi - s.mLo < 0), if_neg hr, List.min?_singleton,
    List.max?_singleton]
  split
  · rename_i h1 h2 _
    cases h1; cases h2
    rw [if_pos rfl]
  · rfl

/-- C102: exactly when the function returns, for an image with rows and a positive pixel scale: the row limits are in order, and there are at least two rows or
all of them are masked.  The only exception is ValueError. -/
theorem C102_exact (O : YProblem → Except PyErr GausPar) (s : YInput r c) (noise : List (List (Fl ℝ))) (hr : 0 < r)
    (hp : 0 < s.pix) :
    ((∃ y, fitEmissionYProfile O s noise = .ok y) ↔
      s.mLo ≤ s.mHi ∧ (s.mLo + 2 ≤ s.mHi ∨ ∀ k : Nat, (k : Int) < s.mHi - s.mLo → k ∈ s.low)) ∧
    ∀ e, fitEmissionYProfile O s noise = .error e → e = .valueError := by
  have hrows : s.rows = [] ↔ ∀ k : Nat, (k : Int) < s.mHi - s.mLo → k ∈ s.low := by
    simp only [YInput.rows, yy_length, List.filter_eq_nil_iff, List.mem_range, decide_eq_true_eq, not_not]
    exact forall_congr' fun k => ⟨fun h hk => h (by omega), fun h hk => h (by omega)⟩
  by_cases h1 : s.mLo ≤ s.mHi
  swap
  · have e : fitEmissionYProfile O s noise = .error .valueError := by
      simp only [fitEmissionYProfile, if_pos (by omega : s.mHi - s.mLo < 0)]
    rw [e]
    exact ⟨⟨fun ⟨y, h⟩ => (by cases h), fun h => absurd h.1 h1⟩, fun e h => by cases h; rfl⟩
  by_cases h2 : s.mLo + 2 ≤ s.mHi
  · obtain ⟨y, hy⟩ := C102_returns_partial O s noise hr h2 hp
    rw [hy]
    exact ⟨⟨fun _ => ⟨h1, .inl h2⟩, fun _ => ⟨y, rfl⟩⟩, fun e h => by cases h⟩
  by_cases h3 : s.rows = []
  · have e : fitEmissionYProfile O s noise = .ok YSize.missing := by
      simp only [fitEmissionYProfile, if_neg (by omega : ¬ s.mHi - s.mLo < 0), if_pos h3]
    rw [e]
    exact ⟨⟨fun _ => ⟨h1, .inr (hrows.1 h3)⟩, fun _ => ⟨_, rfl⟩⟩, fun e h => by cases h⟩
  · have h4 : ¬ ∀ k : Nat, (k : Int) < s.mHi - s.mLo → k ∈ s.low := fun h => h3 (hrows.2 h)
    have h5 : s.mHi = s.mLo + 1 := by
      by_contra h6
      exact h4 fun k hk => by omega
    have h7 : 0 ∉ s.low := fun h => h4 fun k hk => by
      have : k = 0 := by omega
      rwa [this]
    rw [C102_false O s noise h5 h7]
    exact ⟨⟨fun ⟨y, h⟩ => (by cases h), fun h => absurd h.2 (by rintro (h | h); exacts [h2 h, h4 h])⟩,
      fun e h => by cases h; rfl⟩

example : ∃ s : YInput 1 1, s.mHi = s.mLo + 1 ∧ 0 ∉ s.low ∧ s.rows = [0] :=
  ⟨⟨fun _ _ => .fin 1, fun _ _ => .fin 1, fun _ _ => .fin 1, 0, 1, [], 0, 1, 1⟩, rfl, by simp, by
    have : (YInput.yy (r := 1) (c := 1) ⟨fun _ _ => .fin 1, fun _ _ => .fin 1, fun _ _ => .fin 1, 0, 1, [], 0, 1, 1⟩).length = 1 := by
      rw [yy_length]; rfl
    rw [YInput.rows, this]; rfl⟩

/-- A case for C99 to C102 and C104: the hypotheses hold and the extent is measured. -/
theorem fourRows_measured : ∃ y, fitEmissionYProfile (fun p => .ok ⟨p.mu, p.A, 1⟩) (fourRows (.fin 0))
    [[.fin 0, .fin 0, .fin 0, .fin 0]] = .ok y ∧ y.d50 ≠ -99 := by
  obtain ⟨y, hy⟩ := C102_returns_partial (fun p => .ok ⟨p.mu, p.A, 1⟩) (fourRows (.fin 0))
    [[.fin 0, .fin 0, .fin 0, .fin 0]] (by norm_num) (by decide) (by norm_num [fourRows])
  refine ⟨y, hy, (C99_measured_iff _ (fun p => ⟨_, rfl⟩) _ _ (by simp) (by norm_num [fourRows])
    (by norm_num [fourRows]) y hy).mpr ?_⟩
  rw [fourRows_rows]
  refine ⟨by simp, by norm_num [fourRows]⟩

open Classical in
/-- A routine for C100: width one half, or failure if that is not allowed. -/
example : WidthInBounds (fun p => if ∀ m, p.sigmaMax = some m → 1 / 2 ≤ m then .ok ⟨p.mu, p.A, 1 / 2⟩
    else .error .valueError) := by
  intro p q h
  simp only at h
  split at h
  · rename_i hm; cases h; exact ⟨by norm_num, hm⟩
  · cases h

/-! ## C103 -/

/-- C103 (partial): every fit starts inside its closed bounds.  Missing: away from them, see `C103_false`. -/
theorem C103_start_partial (s : YInput r c) (lo hi : ℝ) (hlh : lo ≤ hi) (A : Fl ℝ) (m : Option ℝ)
    (hm : ∀ v, m = some v → 0 ≤ v) (d : List (Fl ℝ)) :
    let p := s.problem lo hi A m d
    p.muLo ≤ p.mu ∧ p.mu ≤ p.muHi ∧ 0 ≤ p.sigma ∧ ∀ v, p.sigmaMax = some v → p.sigma ≤ v := by
  have hc : ∀ a b v : ℝ, a ≤ b → a ≤ clipTo a b v ∧ clipTo a b v ≤ b := by
    intro a b v hab
    simp only [clipTo]
    split
    · exact ⟨hab, le_rfl⟩
    · split
      · exact ⟨le_rfl, hab⟩
      · constructor <;> linarith
  refine ⟨(hc lo hi _ hlh).1, (hc lo hi _ hlh).2, ?_, ?_⟩
  · cases m with
    | none => simp only [YInput.problem]; split <;> linarith
    | some v => exact (hc 0 v _ (hm v rfl)).1
  · intro v hv
    have hv' : m = some v := hv
    subst hv'
    exact (hc 0 v _ (hm v rfl)).2

/-- C103: exactly when the second, bounded fit starts away from its bounds: the centre if the object lies strictly between the first and the last row, the width if a quarter
of the number of rows - compared with a width in arcseconds - is below the bound. -/
theorem C103_exact (s : YInput r c) (lo hi : ℝ) (hlh : lo < hi) (A : Fl ℝ) (d : List (Fl ℝ)) (p : YProblem)
    (h : p = s.problem lo hi A (some ((hi - lo) / std2FWHM)) d) :
    (p.muLo < p.mu ∧ p.mu < p.muHi ↔ lo < s.ypos * s.pix ∧ s.ypos * s.pix < hi) ∧
    (0 < p.sigma ∧ (∀ m, p.sigmaMax = some m → p.sigma < m) ↔ 0 < r ∧ (r : ℝ) / 4 < (hi - lo) / std2FWHM) := by
  have hc : ∀ a b v : ℝ, a < b → (a < clipTo a b v ∧ clipTo a b v < b ↔ a < v ∧ v < b) := by
    intro a b v hab
    simp only [clipTo]
    split
    · constructor <;> intro h <;> linarith [h.1, h.2]
    · split
      · constructor <;> intro h <;> linarith [h.1, h.2]
      · exact Iff.rfl
  have hm : 0 < (hi - lo) / std2FWHM := div_pos (by linarith) std2FWHM_pos
  subst h
  refine ⟨hc lo hi _ hlh, ?_⟩
  have h2 := hc 0 _ ((r : ℝ) / 4) hm
  have h3 : (0 : ℝ) < r / 4 ↔ 0 < r := by
    constructor
    · intro h
      have : (0 : ℝ) < r := by linarith
      exact_mod_cast this
    · intro h
      have : (0 : ℝ) < r := by exact_mod_cast h
      linarith
  rw [h3] at h2
  rw [← h2]
  exact ⟨fun h => ⟨h.1, h.2 _ rfl⟩, fun h => ⟨h.1, fun m hm => by cases hm; exact h.2⟩⟩

/-- C103: the expected claim (the second, bounded fit starts away from its bounds) is false: for pixels of at most half an arcsecond the width always starts
exactly at its upper bound, because the starting value is in pixels and the bound in arcseconds. -/
theorem C103_false (s : YInput r c) (hp : 0 < s.pix) (hp' : s.pix ≤ 1 / 2) (hlo : s.mLo = 0)
    (hhi : s.mHi = r) (hr : 1 < r) (A : Fl ℝ) (d : List (Fl ℝ)) :
    ∃ lo hi, s.yy.min? = some lo ∧ s.yy.max? = some hi ∧
      (s.problem lo hi A (some ((hi - lo) / std2FWHM)) d).sigma = (hi - lo) / std2FWHM ∧
      0 < (hi - lo) / std2FWHM := by
  have hr' : (1 : ℝ) < r := by exact_mod_cast hr
  have hlt : s.mLo < s.mHi := by rw [hlo, hhi]; omega
  refine ⟨_, _, yy_min s hlt hp, yy_max s hlt hp, ?_, ?_⟩
  · simp only [YInput.problem, clipTo, hlo, hhi]
    rw [if_pos]
    rw [div_lt_iff₀ std2FWHM_pos]
    have := std2FWHM_gt_two
    push_cast
    nlinarith
  · apply div_pos _ std2FWHM_pos
    rw [hlo, hhi]; push_cast; nlinarith

example : ∃ s : YInput 5 1, 0 < s.pix ∧ s.pix ≤ 1 / 2 ∧ s.mLo = 0 ∧ s.mHi = 5 :=
  ⟨⟨fun _ _ => .fin 1, fun _ _ => .fin 1, fun _ _ => .fin 1, 0, 5, [], 0, 0.18, 1⟩, by norm_num, by norm_num, rfl, rfl⟩

/-! ## C104 -/

/-- C104: lower and upper error are distances to ordered limits, and the errors of `D50` are those of the intrinsic width times the factor
between them. -/
theorem C104_errors (O : YProblem → Except PyErr GausPar) (s : YInput r c) (noise : List (List (Fl ℝ)))
    (y : YSize) (h : fitEmissionYProfile O s noise = .ok y) (hd : y.d50 ≠ -99) :
    y.d50Err = (2 * √(2 * log 2) * y.intErr.1, 2 * √(2 * log 2) * y.intErr.2) ∧
      0 ≤ y.obsErr.1 + y.obsErr.2 ∧ 0 ≤ y.intErr.1 + y.intErr.2 ∧ 0 ≤ y.d50Err.1 + y.d50Err.2 ∧
      0 ≤ y.int - y.intErr.1 := by
  rcases fitEmission_ok h with rfl | ⟨hr, lo, hi, A, -, -, hm⟩
  · exact absurd rfl hd
  · obtain ⟨-, -, p, col, -, -, -, -, hd', he1, he2, he3⟩ := measure_ok hm
    have hs := std2FWHM_pos
    have hk : 2 * √(2 * log 2) = std2FWHM := rfl
    have hne : col ≠ [] := by
      rintro rfl
      rw [errPair, limits1_nil] at he1; cases he1
    obtain ⟨a, b, h1, hab, -, -⟩ := limits1_ok col hne
    obtain ⟨a', b', h2, hab', ha', hb'⟩ := limits1_ok (col.map fun v => intWidth v s.fwhm) (by simpa using hne)
    have h3 : limits1 (col.map fun v => intWidth v s.fwhm * std2FWHM) =
        .ok (std2FWHM * a', std2FWHM * b') := by
      have e : (col.map fun v => intWidth v s.fwhm * std2FWHM) =
          (col.map fun v => intWidth v s.fwhm).map (std2FWHM * ·) := by
        rw [List.map_map]; congr 1; funext v; simp [mul_comm]
      rw [e, limits1, percentilePair, percentile_scale _ hs _ _ _ ha', percentile_scale _ hs _ _ _ hb']
    have hpos : 0 ≤ a' := by
      obtain ⟨B, hB⟩ : ∃ B, ∀ x ∈ col.map fun v => intWidth v s.fwhm, x ≤ B := by
        refine ⟨(col.map fun v => intWidth v s.fwhm).sum, fun x hx => List.single_le_sum ?_ x hx⟩
        intro z hz
        obtain ⟨v, -, rfl⟩ := List.mem_map.mp hz
        exact intWidth_nonneg _ _
      refine (percentile_range _ _ _ 0 B (by simpa using hne) (by norm_num) (by norm_num) ?_ ha').1
      intro x hx
      refine ⟨?_, hB x hx⟩
      obtain ⟨v, -, rfl⟩ := List.mem_map.mp hx
      exact intWidth_nonneg _ _
    rw [errPair, h1] at he1
    rw [errPair, h2] at he2
    rw [errPair, h3] at he3
    have e1 := Except.ok.inj he1
    have e2 := Except.ok.inj he2
    have e3 := Except.ok.inj he3
    rw [← e1, ← e2, ← e3, hk, hd']
    refine ⟨?_, ?_, ?_, ?_, ?_⟩
    · ext <;> simp only <;> ring
    · simp only; linarith
    · simp only; linarith
    · simp only; nlinarith
    · simp only; linarith

/-! ## C105 -/

/-- The same function as used for the weights. -/
theorem gausAt_eq (x A mu sigma : ℝ) (hs : 0 < sigma) :
    gausAt x (.fin A) mu sigma = .fin (gausSimple x A mu sigma) := by
  simp only [gausAt, if_pos hs, Fl.fin_mul, gausSimple]

/-- C105: integral, maximum and symmetry of the Gaussian profile. -/
theorem C105_shape (A mu sigma : ℝ) (hs : 0 < sigma) :
    ∃ g : ℝ → ℝ, (∀ x, gausAt x (.fin A) mu sigma = .fin (g x)) ∧
      ∫ x, g x = A * √sigma ∧ g mu = A / √(2 * π * sigma) ∧
      (∀ d, g (mu + d) = g (mu - d)) ∧ (∀ x, |g x| ≤ |g mu|) := by
  have hsq : 0 < √(2 * π * sigma) := Real.sqrt_pos.mpr (by positivity)
  refine ⟨fun x => exp (-(x - mu) ^ 2 / (2 * sigma ^ 2)) / √(2 * π * sigma) * A, ?_, ?_, ?_, ?_, ?_⟩
  · intro x
    simp only [gausAt, if_pos hs, Fl.fin_mul]
  · have h0 : ∀ x : ℝ, exp (-(x - mu) ^ 2 / (2 * sigma ^ 2)) / √(2 * π * sigma) * A =
        (A / √(2 * π * sigma)) * (fun t => exp (-(1 / (2 * sigma ^ 2)) * t ^ 2)) (x - mu) := by
      intro x
      simp only
      rw [show -(x - mu) ^ 2 / (2 * sigma ^ 2) = -(1 / (2 * sigma ^ 2)) * (x - mu) ^ 2 by ring]
      ring
    simp_rw [h0]
    rw [MeasureTheory.integral_const_mul,
      MeasureTheory.integral_sub_right_eq_self (fun t => exp (-(1 / (2 * sigma ^ 2)) * t ^ 2)) mu,
      integral_gaussian]
    have h1 : π / (1 / (2 * sigma ^ 2)) = (2 * π * sigma) * sigma := by field_simp
    rw [h1, Real.sqrt_mul (by positivity : 0 ≤ 2 * π * sigma) sigma, ← mul_assoc, div_mul_cancel₀ _ hsq.ne']
  · simp only [sub_self]
    norm_num
    ring
  · intro d
    simp only [add_sub_cancel_left, sub_sub_cancel_left]
    rw [neg_sq]
  · intro x
    simp only [sub_self, abs_mul, abs_div, Real.abs_exp]
    apply mul_le_mul_of_nonneg_right _ (abs_nonneg _)
    apply div_le_div_of_nonneg_right _ (abs_nonneg _)
    rw [Real.exp_le_exp]
    have : 0 ≤ (x - mu) ^ 2 / (2 * sigma ^ 2) := by positivity
    have e : -(x - mu) ^ 2 / (2 * sigma ^ 2) = -((x - mu) ^ 2 / (2 * sigma ^ 2)) := by ring
    rw [e]; norm_num; exact this

/-- C105 (partial): the amplitude is the integral of the profile for unit width.  Missing: for other widths it is not, see `C105_false`. -/
theorem C105_normalised_partial (A mu : ℝ) :
    ∃ g : ℝ → ℝ, (∀ x, gausAt x (.fin A) mu 1 = .fin (g x)) ∧ ∫ x, g x = A := by
  obtain ⟨g, h1, h2, -⟩ := C105_shape A mu 1 one_pos
  exact ⟨g, h1, by simpa using h2⟩

/-- C105: the expected claim (the amplitude is the integral of the profile) is false for every width other than one: the normalisation uses the root of the
width instead of the width. -/
theorem C105_false (A mu sigma : ℝ) (hs : 0 < sigma) (hne : sigma ≠ 1) (hA : A ≠ 0) :
    ∃ g : ℝ → ℝ, (∀ x, gausAt x (.fin A) mu sigma = .fin (g x)) ∧ ∫ x, g x ≠ A := by
  obtain ⟨g, h1, h2, -⟩ := C105_shape A mu sigma hs
  refine ⟨g, h1, ?_⟩
  rw [h2]
  intro h
  have : √sigma = 1 := by
    have := mul_left_cancel₀ hA (h.trans (mul_one A).symm)
    exact this
  exact hne (Real.sqrt_eq_one.mp this)

/-- C105, exactly: with a positive width the profile integrates to its amplitude if and only if the amplitude is zero or
the width is one. -/
theorem C105_exact (A mu sigma : ℝ) (hs : 0 < sigma) :
    (∃ g : ℝ → ℝ, (∀ x, gausAt x (.fin A) mu sigma = .fin (g x)) ∧ ∫ x, g x = A) ↔ A = 0 ∨ sigma = 1 := by
  constructor
  · rintro ⟨g, h1, h2⟩
    by_contra hn
    push Not at hn
    obtain ⟨g', h1', h2'⟩ := C105_false A mu sigma hs hn.2 hn.1
    have : g' = g := funext fun x => Fl.fin.inj ((h1' x).symm.trans (h1 x))
    rw [this] at h2'
    exact h2' h2
  · intro h
    obtain ⟨g, h1, h2, -⟩ := C105_shape A mu sigma hs
    refine ⟨g, h1, ?_⟩
    rcases h with rfl | rfl
    · simpa using h2
    · simpa using h2

/-- C105: a width that is not positive gives NaN everywhere. -/
theorem C105_bad_width (x mu sigma : ℝ) (A : Fl ℝ) (C : Option ℝ) (hs : sigma ≤ 0) :
    gausAt x A mu sigma C = .nan := by
  simp only [gausAt, if_neg (not_lt.mpr hs)]

/-- C105: the three-image profile with negative images at equal distances is symmetric about the positive one. -/
theorem C105_triple (A mu delta sigma C : ℝ) (hs : 0 < sigma) (d : ℝ) :
    tripleGaus (mu + d) A mu (mu - delta) (mu + delta) sigma C =
      tripleGaus (mu - d) A mu (mu - delta) (mu + delta) sigma C := by
  simp only [tripleGaus, gausAt, if_pos hs, Fl.fin_mul, Fl.fin_add]
  congr 1
  have e1 : mu + d - mu = d := by ring
  have e2 : mu - d - mu = -d := by ring
  have e3 : mu + d - (mu - delta) = -(mu - d - (mu + delta)) := by ring
  have e4 : mu + d - (mu + delta) = -(mu - d - (mu - delta)) := by ring
  rw [e1, e2, e3, e4]
  simp only [neg_sq]
  ring

end Misfit
