import Verif.Props.RotAper

/-!
# C209: the rotation aperture correction depends on ratios of angles only
-/

namespace Misfit

open Finset

/-- the same object and spectrograph with all angles multiplied by `k`: sizes, slit, seeing, window, radius, position -/
noncomputable def RotModel.scaled (m : RotModel) (k : ℝ) : RotModel :=
  { m with
    re := k * m.re
    slit := k * m.slit
    psf := { m.psf with fwhm := k * m.psf.fwhm }
    width := m.width.map (k * ·)
    rAper := m.rAper.map (k * ·)
    xc := k * m.xc
    yc := k * m.yc
    int := fun r z => m.int (r / k) (z / k) }

theorem scaled_phys (m : RotModel) (h : m.Phys) (k : ℝ) (hk : 0 < k) : (m.scaled k).Phys where
  npix := h.npix
  slit := mul_pos hk h.slit
  re := mul_pos hk h.re
  q := h.q
  sini0 := h.sini0
  sini1 := h.sini1
  width := by
    intro w hw
    obtain ⟨w0, h0, rfl⟩ := Option.map_eq_some_iff.1 hw
    exact mul_pos hk (h.width w0 h0)
  int := fun r z => h.int _ _
  lines := h.lines
  fwhm := mul_nonneg hk.le h.fwhm
  gauss := h.gauss
  moffat := fun e => ⟨mul_pos hk (h.moffat e).1, (h.moffat e).2⟩
  shift := h.shift
  eff := h.eff

theorem scaled_window (m : RotModel) (k : ℝ) (hk : 0 < k) : rotWindow (m.scaled k) = k * rotWindow m := by
  unfold rotWindow RotModel.scaled
  cases m.width with
  | some w => rfl
  | none =>
    simp only [Option.map_none]
    have hs : ∀ a b : ℝ, Real.sqrt ((k * a) ^ 2 + (k * b) ^ 2) = k * Real.sqrt (a ^ 2 + b ^ 2) := by
      intro a b
      rw [← Real.sqrt_sq hk.le, ← Real.sqrt_mul (sq_nonneg _), Real.sqrt_sq hk.le]
      congr 1
      ring
    have e1 : k * m.psf.fwhm / 2 = k * (m.psf.fwhm / 2) := by ring
    have e2 : m.q * (k * m.re) = k * (m.q * m.re) := by ring
    rw [e1, e2, hs, hs, mul_assoc, ← mul_max_of_nonneg _ _ hk.le]
    ring

theorem scaled_cell (m : RotModel) (k : ℝ) (hk : 0 < k) : rotCell (m.scaled k) = k * rotCell m := by
  unfold rotCell
  rw [scaled_window m k hk, mul_div_assoc]
  rfl

theorem scaled_cols (m : RotModel) (k : ℝ) (hk : 0 < k) : rotCols (m.scaled k) = rotCols m := by
  unfold rotCols
  rw [scaled_cell m k hk]
  have : (m.scaled k).slit = k * m.slit := rfl
  rw [this, mul_div_mul_left _ _ hk.ne']

theorem scaled_colWidth (m : RotModel) (k : ℝ) (hk : 0 < k) : rotColWidth (m.scaled k) = k * rotColWidth m := by
  unfold rotColWidth
  rw [scaled_cols m k hk]
  have : (m.scaled k).slit = k * m.slit := rfl
  rw [this, mul_div_assoc]

theorem scaled_padY (m : RotModel) (k : ℝ) (hk : 0 < k) : rotPadY (m.scaled k) = rotPadY m := by
  unfold rotPadY
  rw [scaled_cell m k hk]
  have : (m.scaled k).psf.fwhm * (m.scaled k).padFactor = k * (m.psf.fwhm * m.padFactor) := mul_assoc _ _ _
  rw [this, mul_div_mul_left _ _ hk.ne']

theorem scaled_padX (m : RotModel) (k : ℝ) (hk : 0 < k) : rotPadX (m.scaled k) = rotPadX m := by
  unfold rotPadX
  rw [scaled_colWidth m k hk]
  have : (m.scaled k).psf.fwhm * (m.scaled k).padFactor = k * (m.psf.fwhm * m.padFactor) := mul_assoc _ _ _
  rw [this, mul_div_mul_left _ _ hk.ne']

theorem scaled_X (m : RotModel) (k : ℝ) (hk : 0 < k) (a : ℕ) : rotX (m.scaled k) a = k * rotX m a := by
  unfold rotX
  rw [scaled_colWidth m k hk, scaled_cols m k hk, scaled_padX m k hk]
  have : (m.scaled k).xc = k * m.xc := rfl
  rw [this]
  ring

theorem scaled_Y (m : RotModel) (k : ℝ) (hk : 0 < k) (b : ℕ) : rotY (m.scaled k) b = k * rotY m b := by
  unfold rotY
  rw [scaled_cell m k hk, scaled_padY m k hk]
  have : (m.scaled k).yc = k * m.yc := rfl
  have e : (m.scaled k).nPixels = m.nPixels := rfl
  rw [this, e]
  ring

theorem discPoint_scale (sini pa x y z k : ℝ) : discPoint sini pa (k * x) (k * y) (k * z) =
    (k * (discPoint sini pa x y z).1, k * (discPoint sini pa x y z).2.1, k * (discPoint sini pa x y z).2.2) := by
  unfold discPoint
  ext <;> simp only <;> ring

theorem scaled_point (m : RotModel) (k : ℝ) (hk : 0 < k) (c b a : ℕ) :
    discPoint (m.scaled k).sini (m.scaled k).deltPA (rotX (m.scaled k) a) (rotY (m.scaled k) b)
      (skyZ (m.scaled k).nPixels (rotCell (m.scaled k)) c) =
    (k * (discPoint m.sini m.deltPA (rotX m a) (rotY m b) (skyZ m.nPixels (rotCell m) c)).1,
      k * (discPoint m.sini m.deltPA (rotX m a) (rotY m b) (skyZ m.nPixels (rotCell m) c)).2.1,
      k * (discPoint m.sini m.deltPA (rotX m a) (rotY m b) (skyZ m.nPixels (rotCell m) c)).2.2) := by
  rw [← discPoint_scale, scaled_X m k hk, scaled_Y m k hk]
  have : skyZ (m.scaled k).nPixels (rotCell (m.scaled k)) c = k * skyZ m.nPixels (rotCell m) c := by
    unfold skyZ
    rw [scaled_cell m k hk]
    have e : (m.scaled k).nPixels = m.nPixels := rfl
    rw [e]
    ring
  rw [this]
  rfl

theorem sqrt_scale (k x y : ℝ) (hk : 0 < k) : Real.sqrt ((k * x) ^ 2 + (k * y) ^ 2) = k * Real.sqrt (x ^ 2 + y ^ 2) := by
  have : (k * x) ^ 2 + (k * y) ^ 2 = k ^ 2 * (x ^ 2 + y ^ 2) := by ring
  rw [this, Real.sqrt_mul (sq_nonneg _), Real.sqrt_sq hk.le]

theorem scaled_emission (m : RotModel) (k : ℝ) (hk : 0 < k) (c b a : ℕ) :
    rotEmission (m.scaled k) c b a = rotEmission m c b a := by
  unfold rotEmission
  simp only
  rw [scaled_point m k hk]
  simp only
  rw [sqrt_scale _ _ _ hk]
  show m.int (k * _ / k) (k * _ / k) = _
  rw [mul_div_cancel_left₀ _ hk.ne', mul_div_cancel_left₀ _ hk.ne']

theorem scaled_speed (m : RotModel) (k : ℝ) (hk : 0 < k) (rt : ℝ) (c b a : ℕ) :
    rotSpeed (m.scaled k) (k * rt) c b a = rotSpeed m rt c b a := by
  unfold rotSpeed
  simp only
  rw [scaled_point m k hk]
  unfold discVelocity
  simp only
  rw [sqrt_scale _ _ _ hk]
  have : (m.scaled k).sini = m.sini := rfl
  rw [this, mul_div_mul_left _ _ hk.ne', mul_div_mul_left _ _ hk.ne']
  simp only [mul_eq_zero, hk.ne', false_or]

theorem scaled_light (m : RotModel) (k : ℝ) (hk : 0 < k) (b a : ℕ) :
    rotLight (m.scaled k) b a = k * rotLight m b a + 0 * rotLight m b a := by
  unfold rotLight
  simp only [scaled_emission m k hk, scaled_cell m k hk]
  have e : (m.scaled k).nPixels = m.nPixels := rfl
  rw [e]
  ring

theorem scaled_power (m : RotModel) (k : ℝ) (hk : 0 < k) (rt : ℝ) (b a : ℕ) :
    rotPower (m.scaled k) (k * rt) b a = k * rotPower m rt b a + 0 * rotPower m rt b a := by
  unfold rotPower
  simp only [scaled_emission m k hk, scaled_cell m k hk, scaled_speed m k hk]
  have e : (m.scaled k).nPixels = m.nPixels := rfl
  rw [e]
  ring

theorem filter_scale (k F c : ℝ) (hk : 0 < k) (l : List ℝ) :
    (l.map (k * ·)).filter (fun x => decide (|x - k * c| ≤ k * F)) = (l.filter fun x => decide (|x - c| ≤ F)).map (k * ·) := by
  rw [List.filter_map]
  congr 1
  refine List.filter_congr fun x _ => ?_
  simp only [Function.comp]
  rw [← mul_sub, abs_mul, abs_of_pos hk]
  exact decide_eq_decide.2 (mul_le_mul_iff_right₀ hk)

theorem scaled_kernelX (m : RotModel) (k : ℝ) (hk : 0 < k) : rotKernelX (m.scaled k) = (rotKernelX m).map (k * ·) := by
  unfold rotKernelX
  have hl : (List.range (rotCols m + 2 * rotPadX m)).map (rotX (m.scaled k)) =
      ((List.range (rotCols m + 2 * rotPadX m)).map (rotX m)).map (k * ·) := by
    rw [List.map_map]
    exact List.map_congr_left fun a _ => scaled_X m k hk a
  have e : (m.scaled k).psf.fwhm = k * m.psf.fwhm := rfl
  have e2 : ∀ x y : ℝ, (k * x + k * y) / 2 = k * ((x + y) / 2) := by intros; ring
  rw [scaled_cols m k hk, scaled_padX m k hk, hl, scaled_X m k hk, scaled_X m k hk, e, e2]
  convert filter_scale k m.psf.fwhm _ hk _ using 2

theorem scaled_kernelY (m : RotModel) (k : ℝ) (hk : 0 < k) : rotKernelY (m.scaled k) = (rotKernelY m).map (k * ·) := by
  unfold rotKernelY
  have hl : (List.range (m.nPixels + 2 * rotPadY m)).map (rotY (m.scaled k)) =
      ((List.range (m.nPixels + 2 * rotPadY m)).map (rotY m)).map (k * ·) := by
    rw [List.map_map]
    exact List.map_congr_left fun a _ => scaled_Y m k hk a
  have e : (m.scaled k).psf.fwhm = k * m.psf.fwhm := rfl
  have e1 : (m.scaled k).nPixels = m.nPixels := rfl
  have e2 : ∀ x y : ℝ, (k * x + k * y) / 2 = k * ((x + y) / 2) := by intros; ring
  rw [e1, scaled_padY m k hk, hl, scaled_Y m k hk, scaled_Y m k hk, e, e2]
  convert filter_scale k m.psf.fwhm _ hk _ using 2

theorem seeing_scale (p : PSF) (k x y : ℝ) (hk : 0 < k) :
    seeing { p with fwhm := k * p.fwhm } (k * x) (k * y) = seeing p x y := by
  unfold seeing
  have e : ∀ c : ℝ, c * ((k * x) ^ 2 + (k * y) ^ 2) / (k * p.fwhm) ^ 2 = c * (x ^ 2 + y ^ 2) / p.fwhm ^ 2 := by
    intro c
    have : c * ((k * x) ^ 2 + (k * y) ^ 2) = k ^ 2 * (c * (x ^ 2 + y ^ 2)) := by ring
    rw [this, mul_pow, mul_div_mul_left _ _ (pow_ne_zero 2 hk.ne')]
  cases hp : p.kind <;> simp only [e]

theorem getD_map_mul (k : ℝ) (l : List ℝ) (i : ℕ) : (l.map (k * ·)).getD i 0 = k * l.getD i 0 := by
  rw [List.getD_eq_getElem?_getD, List.getD_eq_getElem?_getD, List.getElem?_map]
  cases l[i]? <;> simp

theorem scaled_smear (m : RotModel) (k : ℝ) (hk : 0 < k) (A : ℕ → ℕ → ℝ) (b a : ℕ) :
    rotSmear (m.scaled k) A b a = rotSmear m A b a := by
  unfold rotSmear
  have e : (m.scaled k).psf.fwhm = k * m.psf.fwhm := rfl
  have e1 : (m.scaled k).nPixels = m.nPixels := rfl
  have hF : (0 < k * m.psf.fwhm) = (0 < m.psf.fwhm) := by rw [mul_pos_iff_of_pos_left hk]
  have hs : (fun j i => seeing (m.scaled k).psf ((rotKernelX (m.scaled k)).getD i 0) ((rotKernelY (m.scaled k)).getD j 0)) =
      fun j i => seeing m.psf ((rotKernelX m).getD i 0) ((rotKernelY m).getD j 0) := by
    funext j i
    rw [scaled_kernelX m k hk, scaled_kernelY m k hk, getD_map_mul, getD_map_mul]
    exact seeing_scale m.psf k _ _ hk
  simp only [hs]
  rw [scaled_kernelX m k hk, scaled_kernelY m k hk, List.length_map, List.length_map, scaled_padX m k hk,
    scaled_padY m k hk, scaled_cols m k hk, e1, e]
  simp only [hF]

theorem scaled_mean (m : RotModel) (k : ℝ) (hk : 0 < k) (rt : ℝ) : rotMean (m.scaled k) (k * rt) = rotMean m rt := by
  have hA : ∀ A : ℕ → ℕ → ℝ, rotInAperture (m.scaled k) (rotSmear (m.scaled k) fun b a => k * A b a + 0 * A b a) =
      k * rotInAperture m (rotSmear m A) := by
    intro A
    unfold rotInAperture
    rw [scaled_cols m k hk, scaled_padX m k hk, scaled_padY m k hk, Finset.mul_sum]
    refine Finset.sum_congr rfl fun j _ => ?_
    rw [Finset.mul_sum]
    refine Finset.sum_congr rfl fun i _ => ?_
    rw [scaled_smear m k hk, rotSmear_linear]
    show rotWeight m j * _ = _
    ring
  have e1 : rotPower (m.scaled k) (k * rt) = fun b a => k * rotPower m rt b a + 0 * rotPower m rt b a := by
    funext b a; exact scaled_power m k hk rt b a
  have e2 : rotLight (m.scaled k) = fun b a => k * rotLight m b a + 0 * rotLight m b a := by
    funext b a; exact scaled_light m k hk b a
  unfold rotMean
  rw [e1, e2, hA, hA, mul_div_mul_left _ _ hk.ne']

/-- **C209**: the aperture dispersion and the reference value do not change when all angles — galaxy size, turnover radius,
slit, window, seeing, reference radius and offsets — are multiplied by the same positive number. -/
theorem C209_scale (m : RotModel) (h : m.Phys) (hr : m.psf.fwhm = 0 ∨ m.Resolved)
    (hm : m.method = "optimal" ∨ m.method = "boxcar") (k : ℝ) (hk : 0 < k) (t0 : Option ℝ) (t1 t2 : ℝ) (ht : t2 ≠ 0)
    (rows rows') : aperModel1DRot (m.scaled k) t0 t1 (k * t2) rows = aperModel1DRot m t0 t1 t2 rows' := by
  have hr' : (m.scaled k).psf.fwhm = 0 ∨ (m.scaled k).Resolved := by
    rcases hr with e | hr
    · exact Or.inl (by show k * m.psf.fwhm = 0; rw [e, mul_zero])
    · refine Or.inr ?_
      have e : (m.scaled k).psf.fwhm = k * m.psf.fwhm := rfl
      have e1 : (m.scaled k).nPixels = m.nPixels := rfl
      unfold RotModel.Resolved at hr ⊢
      rw [scaled_cell m k hk, scaled_cols m k hk, scaled_colWidth m k hk, e, e1, mul_div_assoc, mul_div_assoc,
        mul_le_mul_iff_right₀ hk, mul_le_mul_iff_right₀ hk]
      exact hr
  have hR : rotRadius (m.scaled k) = k * rotRadius m := by
    unfold rotRadius RotModel.scaled
    cases m.rAper <;> rfl
  have hK : rotKin (m.scaled k) t0 t1 (k * t2) = rotKin m t0 t1 t2 := by
    unfold rotKin
    rw [hR, mul_div_mul_left _ _ hk.ne']
  rw [C208_value _ (scaled_phys m h k hk) hr' hm t0 t1 _ (mul_ne_zero hk.ne' ht) rows,
    C208_value m h hr hm t0 t1 t2 ht rows', hK, hR, mul_div_mul_left _ _ hk.ne', scaled_mean m k hk]

/-- the object of C208 and one twice as large on the sky -/
example (rows rows') : aperModel1DRot (rotExample.scaled 2) (some 3) 100 (2 * (1 / 2)) rows =
    aperModel1DRot rotExample (some 3) 100 (1 / 2) rows' :=
  C209_scale rotExample rotExample_phys (Or.inr rotExample_resolved) (Or.inl rfl) 2 (by norm_num) _ _ _ (by norm_num) _ _

end Misfit
