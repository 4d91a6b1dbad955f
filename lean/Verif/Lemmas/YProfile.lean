import Verif.Model.YProfile
import Verif.Lemmas.Posterior
import Mathlib.Analysis.Complex.ExponentialBounds

/-! Helper lemmas for `Verif.Props.YProfile`. -/

namespace Misfit
variable {r c : Nat}

theorem std2FWHM_gt_two : 2 < std2FWHM := by
  have h := Real.log_two_gt_d9
  have : (1 : ℝ) < √(2 * Real.log 2) := by
    rw [Real.lt_sqrt (by norm_num)]; linarith
  simp only [std2FWHM]; linarith

theorem std2FWHM_pos : 0 < std2FWHM := lt_trans (by norm_num) std2FWHM_gt_two

theorem intWidth_nonneg (s f : ℝ) : 0 ≤ intWidth s f := by
  simp only [intWidth]; split
  · exact Real.sqrt_nonneg _
  · exact le_rfl

theorem yy_length (s : YInput r c) : s.yy.length = (s.mHi - s.mLo).toNat := by
  simp [YInput.yy]

theorem yy_min (s : YInput r c) (h : s.mLo < s.mHi) (hp : 0 < s.pix) :
    s.yy.min? = some ((s.mLo : ℝ) * s.pix) := by
  rw [List.min?_eq_some_iff]
  constructor
  · rw [YInput.yy, List.mem_map]
    exact ⟨0, by rw [List.mem_range]; omega, by push_cast; ring⟩
  · intro b hb
    rw [YInput.yy, List.mem_map] at hb
    obtain ⟨k, -, rfl⟩ := hb
    have : (0 : ℝ) ≤ k := Nat.cast_nonneg k
    nlinarith

theorem yy_max (s : YInput r c) (h : s.mLo < s.mHi) (hp : 0 < s.pix) :
    s.yy.max? = some (((s.mHi : ℝ) - 1) * s.pix) := by
  rw [List.max?_eq_some_iff]
  have hc : (((s.mHi - s.mLo).toNat - 1 : ℕ) : ℝ) = (s.mHi : ℝ) - 1 - s.mLo := by
    have : (((s.mHi - s.mLo).toNat - 1 : ℕ) : ℤ) = s.mHi - 1 - s.mLo := by omega
    exact_mod_cast congrArg (Int.cast : ℤ → ℝ) this
  constructor
  · rw [YInput.yy, List.mem_map]
    refine ⟨(s.mHi - s.mLo).toNat - 1, by rw [List.mem_range]; omega, ?_⟩
    rw [hc]; ring
  · intro b hb
    rw [YInput.yy, List.mem_map] at hb
    obtain ⟨k, hk, rfl⟩ := hb
    rw [List.mem_range] at hk
    have : (k : ℝ) ≤ (((s.mHi - s.mLo).toNat - 1 : ℕ) : ℝ) := by
      exact_mod_cast (by omega : k ≤ (s.mHi - s.mLo).toNat - 1)
    rw [hc] at this
    nlinarith

theorem npMaxF_some (a : Fl ℝ) (l : List (Fl ℝ)) : ∃ b, npMaxF (a :: l) = some b := by
  induction l generalizing a with
  | nil => exact ⟨a, rfl⟩
  | cons x l ih =>
    obtain ⟨b, hb⟩ := ih x
    exact ⟨_, by rw [npMaxF, hb]; simp⟩

theorem npMaxF_nan (l : List (Fl ℝ)) (h : Fl.nan ∈ l) : npMaxF l = some .nan := by
  induction l with
  | nil => simp at h
  | cons a l ih =>
    cases l with
    | nil => simp at h; rw [← h]; rfl
    | cons x l =>
      obtain ⟨b, hb⟩ := npMaxF_some x l
      rw [List.mem_cons] at h
      rcases h with h | h
      · rw [npMaxF, hb, ← h]; · simp
        simp
      · have := ih h
        rw [npMaxF, this]; · simp
        simp

theorem gausAt_nan (x mu sigma : ℝ) : gausAt x .nan mu sigma = .nan := by
  simp only [gausAt]; split <;> rfl

/-- the residuals only see the listed rows -/
theorem gausResidualMask_congr (p : GausPar) (xx : List ℝ) (d d' e e' : List (Fl ℝ)) (l : List Nat)
    (h : ∀ k ∈ l, d[k]? = d'[k]? ∧ e[k]? = e'[k]?) :
    gausResidualMask p xx d e l = gausResidualMask p xx d' e' l := by
  induction l with
  | nil => rfl
  | cons k ks ih =>
    obtain ⟨h1, h2⟩ := h k (by simp)
    have := ih fun k hk => h k (by simp [hk])
    simp only [gausResidualMask, h1, h2, this]

theorem gausResidualMask_nan (mu sigma : ℝ) (xx : List ℝ) (d e : List (Fl ℝ)) (l : List Nat)
    (h : ∀ k ∈ l, k < xx.length ∧ k < d.length ∧ k < e.length) :
    gausResidualMask ⟨mu, .nan, sigma⟩ xx d e l = .ok (l.map fun _ => .fin 0) := by
  induction l with
  | nil => rfl
  | cons k ks ih =>
    obtain ⟨h1, h2, h3⟩ := h k (by simp)
    have := ih fun k hk => h k (by simp [hk])
    rw [gausResidualMask, List.getElem?_eq_getElem h1, List.getElem?_eq_getElem h2,
      List.getElem?_eq_getElem h3, this]
    simp only [gausAt_nan, List.map_cons]
    have hn : ∀ a b : Fl ℝ, ((Fl.nan : Fl ℝ) - a) / b = .nan := by
      intro a b; cases a <;> cases b <;> rfl
    rw [hn]; simp [Fl.isFinite]

/-- percentiles scale with a positive factor -/
theorem percentile_scale (k : ℝ) (hk : 0 < k) (col : List ℝ) (q v : ℝ)
    (h : percentile col q = .ok v) : percentile (col.map (k * ·)) q = .ok (k * v) := by
  have hs : (col.map (k * ·)).insertionSort (· ≤ ·) = (col.insertionSort (· ≤ ·)).map (k * ·) := by
    rw [List.map_insertionSort (r := (· ≤ ·)) (s := (· ≤ ·))]
    intro a _ b _; exact (mul_le_mul_iff_right₀ hk).symm
  simp only [percentile, hs, List.length_map] at h ⊢
  simp only [lerpAt, List.getElem?_map] at h ⊢
  generalize (col.insertionSort (· ≤ ·))[⌊q / 100 * ((col.length : ℝ) - 1)⌋₊]? = a at *
  generalize (col.insertionSort (· ≤ ·))[⌊q / 100 * ((col.length : ℝ) - 1)⌋₊ + 1]? = b at *
  cases a <;> cases b <;> simp at h ⊢
  · exact Or.inl h
  · rw [← h]; ring

theorem limits1_ok (col : List ℝ) (h : col ≠ []) :
    ∃ lo hi, limits1 col = .ok (lo, hi) ∧ lo ≤ hi ∧
      percentile col 15.865 = .ok lo ∧ percentile col 84.135 = .ok hi := by
  obtain ⟨a, ha⟩ := percentile_ok col 15.865 h (by norm_num) (by norm_num)
  obtain ⟨b, hb⟩ := percentile_ok col 84.135 h (by norm_num) (by norm_num)
  exact ⟨a, b, by rw [limits1, percentilePair, ha, hb],
    percentile_mono col _ _ a b h (by norm_num) (by norm_num) (by norm_num) ha hb, ha, hb⟩

theorem limits1_nil : limits1 ([] : List ℝ) = .error .indexError := by
  simp [limits1, percentilePair, percentile, lerpAt]

end Misfit
