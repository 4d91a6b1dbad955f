import Verif.Model.DispAper
import Verif.Props.RotScale

/-!
# C210–C212: what the dispersion aperture models compute

Closed form of the aperture dispersion of `AperModel1DDisp` and `AperModel1DDispMisalign`, agreement of the two for round
galaxies, and invariance under a change of the angular scale.
-/

namespace Misfit

open Finset

/-! ## Specification -/

/-- what the aperture sees: an elliptical galaxy behind a slit -/
structure DispView where
  n : ℕ
  slit : ℝ
  window : ℝ
  xc : ℝ
  yc : ℝ
  q : ℝ
  pa : ℝ
  re : ℝ
  reMass : ℝ
  sersic : ℝ
  core : ℝ
  psf : PSF
  optimal : Bool

/-- width of a column: `2n+1` columns in the slit -/
noncomputable def DispView.dx (v : DispView) : ℝ := v.slit / (2 * v.n + 1)

/-- height of a row: `2n+1` rows in the window -/
noncomputable def DispView.dy (v : DispView) : ℝ := v.window / (2 * v.n + 1)

/-- elliptical radius (circularised) at row `b`, column `a`; the middle of the grid is number `2n+1` -/
noncomputable def DispView.radius (v : DispView) (b a : ℕ) : ℝ :=
  let x := ((a : ℝ) - (2 * v.n + 1)) * v.dx - v.xc
  let y := ((b : ℝ) - (2 * v.n + 1)) * v.dy - v.yc
  let al := v.pa * Real.pi / 180
  let major := x * Real.sin al + y * Real.cos al
  let minor := x * Real.cos al - y * Real.sin al
  Real.sqrt (v.q * major ^ 2 + minor ^ 2 / v.q)

/-- surface brightness: Sérsic profile with a core -/
noncomputable def DispView.light (v : DispView) (b a : ℕ) : ℝ :=
  Real.exp (-(2 * v.sersic - 0.324) * ((v.radius b a / v.re + v.core) ^ (1 / v.sersic) - 1))

/-- squared local dispersion in units of that at the half-mass radius -/
noncomputable def DispView.disp2 (v : DispView) (b a : ℕ) : ℝ :=
  (((v.radius b a / v.reMass + v.core) / (1 + v.core)) ^ (-0.089 : ℝ)) ^ 2

open Classical in
/-- an image seen through the seeing: the kernel is as large as the image -/
noncomputable def DispView.smear (v : DispView) (A : ℕ → ℕ → ℝ) (b a : ℕ) : ℝ :=
  if 0 < v.psf.fwhm then
    scatter (4 * v.n + 3) (4 * v.n + 3) (4 * v.n + 3) (4 * v.n + 3) A
      (fun j i => seeing v.psf (((i : ℝ) - (2 * v.n + 1)) * v.dx) (((j : ℝ) - (2 * v.n + 1)) * v.dy)) b a
  else A b a

/-- weight of row `j` of the `2n+1` rows of the aperture -/
noncomputable def DispView.weight (v : DispView) (j : ℕ) : ℝ :=
  if v.optimal then Real.exp (-(4 * Real.log 2 * ((j : ℝ) - v.n) ^ 2 / ((2 * v.n + 1) / 2) ^ 2)) else 1

/-- weighted sum over the aperture -/
noncomputable def DispView.inAperture (v : DispView) (A : ℕ → ℕ → ℝ) : ℝ :=
  ∑ j ∈ range (2 * v.n + 1), ∑ i ∈ range (2 * v.n + 1), v.weight j * A (v.n + 1 + j) (v.n + 1 + i)

/-- light-weighted mean of the squared dispersion in the aperture -/
noncomputable def DispView.mean (v : DispView) : ℝ :=
  v.inAperture (v.smear fun b a => v.disp2 b a * v.light b a) / v.inAperture (v.smear v.light)

/-- number of pixels: twice as many for small galaxies -/
noncomputable def dispPixels (m : Disp1DModel) (re : ℝ) : ℕ := open Classical in if re ≤ 0.1 then m.nPixels * 2 else m.nPixels

/-- window: given, or four times the larger half axis along the slit, seeing included -/
noncomputable def dispWindow (m : Disp1DModel) (re q pa : ℝ) : ℝ :=
  match m.width with
  | some w => w
  | none => 4 * max (Real.sqrt (re ^ 2 + (m.psf.fwhm / 2) ^ 2) * |Real.cos (pa * Real.pi / 180)|)
      (Real.sqrt ((q * re) ^ 2 + (m.psf.fwhm / 2) ^ 2))

/-- the view of `AperModel1DDisp`: a round galaxy of circularised radii -/
noncomputable def Disp1DModel.plain (m : Disp1DModel) : DispView :=
  { n := dispPixels m (m.re * Real.sqrt m.q), slit := m.slit, window := dispWindow m (m.re * Real.sqrt m.q) 1 0
    xc := m.xc, yc := m.yc, q := 1, pa := 0, re := m.re * Real.sqrt m.q, reMass := m.reMass * Real.sqrt m.qMass
    sersic := m.n, core := m.rCore, psf := m.psf, optimal := m.method = "optimal" }

/-- the view of `AperModel1DDispMisalign` -/
noncomputable def Disp1DModel.tilted (m : Disp1DModel) (pa : ℝ) : DispView :=
  { n := dispPixels m m.re, slit := m.slit, window := dispWindow m m.re m.q pa
    xc := m.xc, yc := m.yc, q := m.q, pa, re := m.re * Real.sqrt m.q, reMass := m.reMass * Real.sqrt m.qMass
    sersic := m.n, core := m.rCore, psf := m.psf, optimal := m.method = "optimal" }

/-! ## From the model to the view -/

theorem sigmaAperOf_value (nP : ℕ) (S I : ℕ → ℕ → ℝ) (fwhm : ℝ) (st : ConvStamp) (method : String) (width dx dy : ℝ)
    (sm : (ℕ → ℕ → ℝ) → ℕ → ℕ → ℝ) (k : ℝ) (hk : 0 < k)
    (hsm : ∀ A : ℕ → ℕ → ℝ, psfFlatObj (fun (y x : Fin (4 * nP + 3)) => A y x) fwhm st = .ok fun y x => k * sm A y x)
    (wt : ℕ → ℝ) (κ : ℝ) (hκ : 0 < κ)
    (hw : extractWeights method width dy (2 * nP + 1) = .ok fun j => .fin (κ * wt j)) (hd : dx * dy ≠ 0)
    (hL : 0 < ∑ j ∈ range (2 * nP + 1), ∑ i ∈ range (2 * nP + 1), wt j * sm I (nP + 1 + j) (nP + 1 + i))
    (hP : 0 ≤ ∑ j ∈ range (2 * nP + 1), ∑ i ∈ range (2 * nP + 1),
      wt j * sm (fun y x => S y x * I y x) (nP + 1 + j) (nP + 1 + i)) :
    sigmaAperOf nP (fun y x => S y x) (fun y x => I y x) fwhm st method width dx dy =
      .ok (.fin (Real.sqrt ((∑ j ∈ range (2 * nP + 1), ∑ i ∈ range (2 * nP + 1),
        wt j * sm (fun y x => S y x * I y x) (nP + 1 + j) (nP + 1 + i)) /
        ∑ j ∈ range (2 * nP + 1), ∑ i ∈ range (2 * nP + 1), wt j * sm I (nP + 1 + j) (nP + 1 + i)))) := by
  have e1 : min (3 * nP + 2) (4 * nP + 3) - min (nP + 1) (4 * nP + 3) = 2 * nP + 1 := by omega
  have hw' : extractWeights method width dy (min (3 * nP + 2) (4 * nP + 3) - min (nP + 1) (4 * nP + 3)) =
      .ok fun j => .fin (κ * wt j) := by
    rw [e1]; exact hw
  have hsum : ∀ A : ℕ → ℕ → ℝ, (∑ j : Fin (min (3 * nP + 2) (4 * nP + 3) - min (nP + 1) (4 * nP + 3)),
      ∑ i : Fin (min (3 * nP + 2) (4 * nP + 3) - min (nP + 1) (4 * nP + 3)), κ * wt j *
        slice2 (fun (y x : Fin (4 * nP + 3)) => k * A y x) (nP + 1) (3 * nP + 2) (nP + 1) (3 * nP + 2) j i) =
      κ * k * ∑ j ∈ range (2 * nP + 1), ∑ i ∈ range (2 * nP + 1), wt j * A (nP + 1 + j) (nP + 1 + i) := by
    intro A
    have h3 : 2 * nP + 1 + (nP + 1) = 3 * nP + 2 := by omega
    have := slice2_sum (n := 4 * nP + 3) (m := 4 * nP + 3) (fun y x => k * A y x) (fun j => κ * wt j) (nP + 1) (2 * nP + 1)
      (nP + 1) (2 * nP + 1) (by omega) (by omega)
    rw [h3] at this
    rw [this, Finset.mul_sum]
    refine Finset.sum_congr rfl fun j _ => ?_
    rw [Finset.mul_sum]
    refine Finset.sum_congr rfl fun i _ => ?_
    ring
  have hkk : 0 < κ * k := mul_pos hκ hk
  unfold sigmaAperOf
  rw [hsm (fun y x => S y x * I y x), hsm I]
  simp only [bind, Except.bind, hw']
  rw [aperSigma_fin _ _ (fun j => κ * wt j) _ _ hd (by rw [hsum]; exact mul_pos hkk hL)
    (by rw [hsum]; exact mul_nonneg hkk.le hP)]
  rw [hsum, hsum, mul_div_mul_left _ _ hkk.ne']

/-- sizes and point spread function for which the aperture dispersion is defined -/
structure DispView.Good (v : DispView) : Prop where
  slit : 0 < v.slit
  window : 0 < v.window
  re : 0 < v.re
  reMass : 0 < v.reMass
  core : 0 < v.core
  dither : v.psf.dither = none
  kind : v.psf.kind = .moffat → 1 < v.psf.beta

theorem DispView.Good.dx (v : DispView) (h : v.Good) : 0 < v.dx := by
  have := h.slit
  unfold DispView.dx
  positivity

theorem DispView.Good.dy (v : DispView) (h : v.Good) : 0 < v.dy := by
  have := h.window
  unfold DispView.dy
  positivity

/-- the grid of a view -/
noncomputable def DispView.grid (v : DispView) : Disp1DGrid where
  nPixels := v.n
  width := v.window
  deltX := v.dx
  deltY := v.dy
  xs := (List.range (4 * v.n + 3)).map fun a : ℕ => ((a : ℝ) - (2 * v.n + 1)) * v.dx - v.xc
  ys := (List.range (4 * v.n + 3)).map fun b : ℕ => ((b : ℝ) - (2 * v.n + 1)) * v.dy - v.yc

theorem disp_line (n : ℕ) (d c : ℝ) :
    (linspace ((-2 * (n : ℝ) - 1) * d) ((2 * (n : ℝ) + 1) * d) (4 * n + 3)).map (· - c) =
      (List.range (4 * n + 3)).map fun i : ℕ => ((i : ℝ) - (2 * n + 1)) * d - c := by
  refine List.ext_getElem? fun i => ?_
  by_cases hi : i < 4 * n + 3
  · rw [disp_coord n d c i hi, List.getElem?_map, List.getElem?_range hi]
    rfl
  · rw [List.getElem?_eq_none, List.getElem?_eq_none]
    · simpa using hi
    · simpa [linspace] using hi

/-- coordinates relative to their mean -/
theorem disp_centred (n : ℕ) (d c : ℝ) (l : List ℝ)
    (hl : l = (List.range (4 * n + 3)).map fun i : ℕ => ((i : ℝ) - (2 * n + 1)) * d - c) :
    (l.map fun x => x - l.sum / l.length) = (List.range (4 * n + 3)).map fun i : ℕ => ((i : ℝ) - (2 * n + 1)) * d := by
  have h := avgList_steps l (4 * n + 3) (-(2 * n + 1) * d - c) d (by omega) (by
    rw [hl]
    exact List.map_congr_left fun i _ => by ring)
  unfold avgList at h
  rw [h, hl, List.map_map]
  refine List.map_congr_left fun i _ => ?_
  simp only [Function.comp]
  push_cast
  ring

theorem disp_psf (v : DispView) (h : v.Good) : ∃ k : ℝ, 0 < k ∧ ∀ A : ℕ → ℕ → ℝ,
    psfFlatObj (fun (y x : Fin (4 * v.n + 3)) => A y x) v.psf.fwhm (disp1DStamp v.psf v.grid) =
      .ok fun y x => k * v.smear A y x := by
  by_cases hF : 0 < v.psf.fwhm
  · obtain ⟨c, -, hst⟩ := stamp_seeing v.psf hF (fun _ => h.dither) h.kind
    have hc : 0 < c := by
      have h1 := stamp_pos v.psf hF (fun _ => h.dither) h.kind [0] [0] ⟨0, by simp⟩ ⟨0, by simp⟩
      rw [hst] at h1
      exact (pos_iff_pos_of_mul_pos h1).2 (seeing_pos v.psf h.kind _ _)
    refine ⟨c, hc, fun A => ?_⟩
    unfold psfFlatObj disp1DStamp
    rw [if_pos hF]
    simp only [fftSame2]
    congr 1
    funext y x
    rw [hst, convSame2_stamp_mul]
    rw [disp_centred v.n v.dx v.xc v.grid.xs rfl, disp_centred v.n v.dy v.yc v.grid.ys rfl]
    rw [conv_scatter _ _ _ _ A fun j i => seeing v.psf
      (((List.range (4 * v.n + 3)).map fun i : ℕ => ((i : ℝ) - (2 * v.n + 1)) * v.dx).getD i 0)
      (((List.range (4 * v.n + 3)).map fun i : ℕ => ((i : ℝ) - (2 * v.n + 1)) * v.dy).getD j 0)]
    unfold DispView.smear
    rw [if_pos hF]
    simp only [List.length_map, List.length_range]
    congr 1
    unfold scatter
    refine Finset.sum_congr rfl fun y' _ => Finset.sum_congr rfl fun x' _ => Finset.sum_congr rfl fun j hj =>
      Finset.sum_congr rfl fun i hi => ?_
    beta_reduce
    rw [getD_range_map _ _ _ (Finset.mem_range.1 hi), getD_range_map _ _ _ (Finset.mem_range.1 hj)]
  · refine ⟨1, one_pos, fun A => ?_⟩
    unfold psfFlatObj
    rw [if_neg hF]
    congr 1
    funext y x
    unfold DispView.smear
    rw [if_neg hF, one_mul]

theorem view_light_pos (v : DispView) (b a : ℕ) : 0 < v.light b a := Real.exp_pos _

theorem view_weight_pos (v : DispView) (j : ℕ) : 0 < v.weight j := by
  unfold DispView.weight
  split
  · exact Real.exp_pos _
  · exact one_pos

theorem view_smear_nonneg (v : DispView) (h : v.Good) (A : ℕ → ℕ → ℝ) (hA : ∀ y x, 0 ≤ A y x) (b a : ℕ) :
    0 ≤ v.smear A b a := by
  unfold DispView.smear
  split
  · exact scatter_nonneg _ _ _ _ _ _ hA (fun j i => (seeing_pos _ h.kind _ _).le) _ _
  · exact hA _ _

theorem view_light_total (v : DispView) (h : v.Good) : 0 < v.inAperture (v.smear v.light) := by
  refine Finset.sum_pos (fun j hj => Finset.sum_pos (fun i hi => mul_pos (view_weight_pos v j) ?_)
    ⟨0, Finset.mem_range.2 (by omega)⟩) ⟨0, Finset.mem_range.2 (by omega)⟩
  have := Finset.mem_range.1 hj
  have := Finset.mem_range.1 hi
  unfold DispView.smear
  split
  · exact scatter_pos _ _ _ _ _ _ (view_light_pos v) (fun j i => seeing_pos _ h.kind _ _) _ _ (by omega) (by omega)
      (by omega) (by omega)
  · exact view_light_pos v _ _

theorem view_value (v : DispView) (h : v.Good) (method : String) (hm : method = "optimal" ∨ method = "boxcar")
    (ho : v.optimal = decide (method = "optimal")) :
    sigmaAperOf v.n (fun y x => v.disp2 y x) (fun y x => v.light y x) v.psf.fwhm (disp1DStamp v.psf v.grid) method v.window
      v.dx v.dy = .ok (.fin (Real.sqrt v.mean)) := by
  obtain ⟨k, hk, hps⟩ := disp_psf v h
  have hn : (0 : ℝ) < 2 * v.n + 1 := by positivity
  have hwd : v.window / v.dy = 2 * v.n + 1 := by
    have := h.window.ne'
    unfold DispView.dy
    field_simp
  obtain ⟨κ, hκ, hw⟩ := extractWeights_value method v.window v.dy (2 * v.n + 1) hm (by rw [hwd]; exact hn) (by omega)
  rw [hwd] at hw
  have hw' : extractWeights method v.window v.dy (2 * v.n + 1) = .ok fun j => .fin (κ * v.weight j) := by
    rw [hw]
    congr 1
    funext j
    unfold DispView.weight
    rw [ho]
    simp only [decide_eq_true_eq]
    push_cast
    have : ((j : ℕ) : ℝ) - (2 * (v.n : ℝ) + 1 - 1) / 2 = j - v.n := by ring
    rw [this]
  exact sigmaAperOf_value v.n v.disp2 v.light v.psf.fwhm _ method v.window v.dx v.dy v.smear k hk hps v.weight κ hκ hw'
    (mul_pos (DispView.Good.dx v h) (DispView.Good.dy v h)).ne' (view_light_total v h)
    (Finset.sum_nonneg fun j _ => Finset.sum_nonneg fun i _ => mul_nonneg (view_weight_pos v j).le
      (view_smear_nonneg v h _ (fun y x => mul_nonneg (sq_nonneg _) (view_light_pos v y x).le) _ _))

theorem view_radius (v : DispView) (b a : ℕ) : rIntEllip (((a : ℝ) - (2 * v.n + 1)) * v.dx - v.xc)
    (((b : ℝ) - (2 * v.n + 1)) * v.dy - v.yc) v.q v.pa = v.radius b a := by
  have e : v.pa * (Real.pi / 180) = v.pa * Real.pi / 180 := by ring
  unfold rIntEllip DispView.radius rad
  simp only [e]
  congr 1
  ring

theorem view_disp2 (v : DispView) (h : v.Good) (b a : ℕ) : dispSquare (((a : ℝ) - (2 * v.n + 1)) * v.dx - v.xc)
    (((b : ℝ) - (2 * v.n + 1)) * v.dy - v.yc) v.q v.pa v.reMass v.core = v.disp2 b a := by
  unfold dispSquare
  rw [view_radius]
  unfold sigmaProfile DispView.disp2
  have hr : 0 ≤ v.radius b a := Real.sqrt_nonneg _
  have h1 := h.reMass
  have h2 := h.core
  simp only
  have e1 : (v.reMass + v.core * v.reMass) / v.reMass = 1 + v.core := by field_simp
  have e2 : (v.radius b a + v.core * v.reMass) / v.reMass = v.radius b a / v.reMass + v.core := by field_simp
  rw [e1, e2, Real.div_rpow (by positivity) (by positivity)]
  congr 1
  ring

theorem view_light (v : DispView) (h : v.Good) (b a : ℕ) : iGal (((a : ℝ) - (2 * v.n + 1)) * v.dx - v.xc)
    (((b : ℝ) - (2 * v.n + 1)) * v.dy - v.yc) v.re v.sersic v.q v.pa v.core = v.light b a := by
  unfold iGal
  rw [view_radius]
  unfold iSersic DispView.light
  have h1 := h.re
  simp only
  have e2 : (v.radius b a + v.core * v.re) / v.re = v.radius b a / v.re + v.core := by field_simp
  rw [e2, one_mul]

theorem view_at (v : DispView) (f : ℝ → ℝ → ℝ) (y x : Fin (4 * v.n + 3)) :
    f (v.grid.xs.getD x 0) (v.grid.ys.getD y 0) =
      f ((((x : ℕ) : ℝ) - (2 * v.n + 1)) * v.dx - v.xc) ((((y : ℕ) : ℝ) - (2 * v.n + 1)) * v.dy - v.yc) := by
  have h1 : v.grid.xs.getD x 0 = (((x : ℕ) : ℝ) - (2 * v.n + 1)) * v.dx - v.xc := getD_range_map _ _ _ x.isLt
  have h2 : v.grid.ys.getD y 0 = (((y : ℕ) : ℝ) - (2 * v.n + 1)) * v.dy - v.yc := getD_range_map _ _ _ y.isLt
  rw [h1, h2]

theorem disp_window (m : Disp1DModel) (N : ℕ) (s x y re q pa : ℝ) (hre : 0 < re) :
    (setupDisp1D ⟨N, re, q, pa, m.psf.fwhm, s, m.width, x, y⟩).width = dispWindow m re q pa := by
  unfold dispWindow
  cases m.width with
  | some w => rfl
  | none =>
    have half : ∀ t : ℝ, 0.5 * Real.sqrt ((2 * t) ^ 2 + m.psf.fwhm ^ 2) = Real.sqrt (t ^ 2 + (m.psf.fwhm / 2) ^ 2) := by
      intro t
      have e : (2 * t) ^ 2 + m.psf.fwhm ^ 2 = 2 ^ 2 * (t ^ 2 + (m.psf.fwhm / 2) ^ 2) := by ring
      rw [e, Real.sqrt_mul (by norm_num), Real.sqrt_sq (by norm_num)]
      ring
    have hR : 0 < Real.sqrt (re ^ 2 + (m.psf.fwhm / 2) ^ 2) := by positivity
    have e2 : 2 * q * re = 2 * (q * re) := by ring
    have e3 : pa * (Real.pi / 180) = pa * Real.pi / 180 := by ring
    show extractionWidth re q pa m.psf.fwhm = _
    simp only [extractionWidth, yProjMajor, rad, e2, half]
    rw [mul_div_cancel₀ _ hR.ne', e3, abs_mul, abs_of_pos hR]
    split
    · rename_i hlt
      rw [max_eq_right hlt.le]
    · rename_i hlt
      rw [max_eq_left (not_lt.1 hlt)]

theorem dispWindow_pos (m : Disp1DModel) (h : m.Phys) (re q pa : ℝ) (hre : 0 < re) (hq : 0 < q) : 0 < dispWindow m re q pa := by
  unfold dispWindow
  cases e : m.width with
  | some w => exact h.width w e
  | none =>
    refine mul_pos (by norm_num) (lt_of_lt_of_le ?_ (le_max_right _ _))
    positivity

theorem setup_form (c : Disp1DIn) (w : ℝ) (n : ℕ) (hn : n = if c.re ≤ 0.1 then c.nPixels * 2 else c.nPixels)
    (hw : (setupDisp1D c).width = w) : setupDisp1D c = ⟨n, w, c.slit / (2 * n + 1), w / (2 * n + 1),
      (List.range (4 * n + 3)).map fun i : ℕ => ((i : ℝ) - (2 * n + 1)) * (c.slit / (2 * n + 1)) - c.xc,
      (List.range (4 * n + 3)).map fun i : ℕ => ((i : ℝ) - (2 * n + 1)) * (w / (2 * n + 1)) - c.yc⟩ := by
  have half : ∀ (t : ℝ) (n : ℕ), 0.5 * t / ((n : ℝ) + 0.5) = t / (2 * n + 1) := by
    intro t n
    have : (0 : ℝ) < n + 0.5 := by positivity
    have : (0 : ℝ) < 2 * n + 1 := by positivity
    field_simp
    ring
  unfold setupDisp1D at hw ⊢
  simp only at hw ⊢
  rw [hw, ← hn, half, half, disp_line, disp_line]

theorem setup_plain (m : Disp1DModel) (h : m.Phys) :
    setupDisp1D ⟨m.nPixels, m.re * Real.sqrt m.q, 1, 0, m.psf.fwhm, m.slit, m.width, m.xc, m.yc⟩ = m.plain.grid := by
  have h1 := h.re
  have h2 := h.q
  rw [setup_form _ _ m.plain.n rfl (disp_window m _ _ _ _ (m.re * Real.sqrt m.q) 1 0 (by positivity))]
  rfl

theorem setup_tilted (m : Disp1DModel) (h : m.Phys) (pa : ℝ) :
    setupDisp1D ⟨m.nPixels, m.re, m.q, pa, m.psf.fwhm, m.slit, m.width, m.xc, m.yc⟩ = (m.tilted pa).grid := by
  rw [setup_form _ _ (m.tilted pa).n rfl (disp_window m _ _ _ _ m.re m.q pa h.re)]
  rfl

theorem plain_good (m : Disp1DModel) (h : m.Phys) : m.plain.Good := by
  have h1 := h.re
  have h2 := h.q
  have h3 := h.reMass
  have h4 := h.qMass
  exact ⟨h.slit, dispWindow_pos m h _ _ _ (by positivity) one_pos, by show 0 < m.re * Real.sqrt m.q; positivity,
    by show 0 < m.reMass * Real.sqrt m.qMass; positivity, h.rCore, h.dither, h.kind⟩

theorem tilted_good (m : Disp1DModel) (h : m.Phys) (pa : ℝ) : (m.tilted pa).Good := by
  have h1 := h.re
  have h2 := h.q
  have h3 := h.reMass
  have h4 := h.qMass
  exact ⟨h.slit, dispWindow_pos m h _ _ _ h1 h2, by show 0 < m.re * Real.sqrt m.q; positivity,
    by show 0 < m.reMass * Real.sqrt m.qMass; positivity, h.rCore, h.dither, h.kind⟩

/-- the trimmed aperture with its first and last rows and columns left open -/
noncomputable def trimForm (nP : ℕ) (sigSq I : Fin (4 * nP + 3) → Fin (4 * nP + 3) → ℝ) (fwhm : ℝ) (s : ConvStamp)
    (method : String) (width dy dx : ℝ) (y1 x0 x1 : ℕ) : Except PyErr (Fl ℝ) := do
  let num ← psfFlatObj (fun y x => sigSq y x * I y x) fwhm s
  let den ← psfFlatObj I fwhm s
  let w ← extractWeights method width dy (min y1 (4 * nP + 3) - min (nP + 1) (4 * nP + 3))
  .ok (aperSigma (slice2 num (nP + 1) y1 x0 x1) (slice2 den (nP + 1) y1 x0 x1) w dx dy)

theorem misalignOf_eq (nP : ℕ) (sigSq I : Fin (4 * nP + 3) → Fin (4 * nP + 3) → ℝ) (fwhm : ℝ) (s : ConvStamp)
    (method : String) (slit width dx dy : ℝ) (hs : 0 < slit) (hdx : dx = 0.5 * slit / ((nP : ℝ) + 0.5)) :
    sigmaMisalignOf nP sigSq I fwhm s method slit width dx dy = sigmaAperOf nP sigSq I fwhm s method width dx dy := by
  have hx := misalign_pixels nP slit hs
  rw [← hdx] at hx
  have h1 : sigmaMisalignOf nP sigSq I fwhm s method slit width dx dy =
      trimForm nP sigSq I fwhm s method width dy (0.5 * slit / (((npRound (0.5 * slit / dx - 0.5)).toNat : ℝ) + 0.5))
        (2 * nP + (nP + 1) + 1) ((npRound (0.5 * slit / dx - 0.5)).toNat + 1)
        (2 * (npRound (0.5 * slit / dx - 0.5)).toNat + ((npRound (0.5 * slit / dx - 0.5)).toNat + 1) + 1) := rfl
  have h2 : 2 * nP + (nP + 1) + 1 = 3 * nP + 2 := by omega
  rw [h1, hx, h2, ← hdx]
  rfl

/-! ## C210: closed form -/

/-- **C210**: the aperture dispersion of the round model is the root of the light-weighted mean, after seeing, of the squared
local dispersion. -/
theorem C210_plain (quad : (ℝ → ℝ) → ℝ) (m : Disp1DModel) (h : m.Phys) :
    (aperModel1DDisp quad m).2 = .ok (.fin (Real.sqrt m.plain.mean),
      sigmaE quad (m.re * Real.sqrt m.q) m.n m.Ie m.d m.rCore (m.reMass * Real.sqrt m.qMass)) := by
  have hg := plain_good m h
  unfold aperModel1DDisp
  simp only
  rw [setup_plain m h]
  have : sigmaAperDispersion m.plain.grid (m.re * Real.sqrt m.q) (m.reMass * Real.sqrt m.qMass) m.n m.rCore m.psf.fwhm
      (disp1DStamp m.psf m.plain.grid) m.method = .ok (.fin (Real.sqrt m.plain.mean)) := by
    rw [← view_value m.plain hg m.method h.method rfl]
    unfold sigmaAperDispersion
    simp only
    congr 1
    · funext y x
      rw [← view_disp2 m.plain hg]
      exact view_at m.plain (fun a b => dispSquare a b 1 0 (m.reMass * Real.sqrt m.qMass) m.rCore) y x
    · funext y x
      rw [← view_light m.plain hg]
      exact view_at m.plain (fun a b => iGal a b (m.re * Real.sqrt m.q) m.n 1 0 m.rCore) y x
  rw [this]
  rfl

/-- **C210**: and that of the flattened, misaligned model. -/
theorem C210_tilted (quad : (ℝ → ℝ) → ℝ) (m : Disp1DModel) (h : m.Phys) (pa : ℝ) :
    (aperModel1DMisalign quad m pa).2 = .ok (.fin (Real.sqrt (m.tilted pa).mean),
      sigmaE quad (m.re * Real.sqrt m.q) m.n m.Ie m.d m.rCore (m.reMass * Real.sqrt m.qMass)) := by
  have hg := tilted_good m h pa
  unfold aperModel1DMisalign
  simp only
  rw [setup_tilted m h pa]
  have : sigmaAperMisalign (m.tilted pa).grid m.slit m.q pa (m.re * Real.sqrt m.q) (m.reMass * Real.sqrt m.qMass) m.n m.rCore
      m.psf.fwhm (disp1DStamp m.psf (m.tilted pa).grid) m.method = .ok (.fin (Real.sqrt (m.tilted pa).mean)) := by
    rw [← view_value (m.tilted pa) hg m.method h.method rfl]
    have hdx : (m.tilted pa).grid.deltX = 0.5 * m.slit / (((m.tilted pa).n : ℝ) + 0.5) := by
      have : (0 : ℝ) < ((m.tilted pa).n : ℝ) + 0.5 := by positivity
      have : (0 : ℝ) < 2 * ((m.tilted pa).n : ℝ) + 1 := by positivity
      show m.slit / (2 * ((m.tilted pa).n : ℝ) + 1) = _
      field_simp
      ring
    have e1 : (fun (y x : Fin (4 * (m.tilted pa).n + 3)) => dispSquare ((m.tilted pa).grid.xs.getD x 0)
        ((m.tilted pa).grid.ys.getD y 0) m.q pa (m.reMass * Real.sqrt m.qMass) m.rCore) =
        fun (y x : Fin (4 * (m.tilted pa).n + 3)) => (m.tilted pa).disp2 y x := by
      funext y x
      rw [← view_disp2 (m.tilted pa) hg]
      exact view_at (m.tilted pa) (fun a b => dispSquare a b m.q pa (m.reMass * Real.sqrt m.qMass) m.rCore) y x
    have e2 : (fun (y x : Fin (4 * (m.tilted pa).n + 3)) => iGal ((m.tilted pa).grid.xs.getD x 0)
        ((m.tilted pa).grid.ys.getD y 0) (m.re * Real.sqrt m.q) m.n m.q pa m.rCore) =
        fun (y x : Fin (4 * (m.tilted pa).n + 3)) => (m.tilted pa).light y x := by
      funext y x
      rw [← view_light (m.tilted pa) hg]
      exact view_at (m.tilted pa) (fun a b => iGal a b (m.re * Real.sqrt m.q) m.n m.q pa m.rCore) y x
    unfold sigmaAperMisalign
    show sigmaMisalignOf (m.tilted pa).n (fun (y x : Fin (4 * (m.tilted pa).n + 3)) => _) (fun (y x : Fin (4 * (m.tilted pa).n + 3)) => _) _ _ _ _ _ _ _ = _
    rw [e1, e2]
    exact misalignOf_eq _ _ _ _ _ _ _ _ _ _ h.slit hdx
  rw [this]
  rfl

/-! ## C211: a round galaxy has no orientation -/

theorem round_window (m : Disp1DModel) (re : ℝ) (hre : 0 < re) (pa : ℝ) : dispWindow m re 1 pa = dispWindow m re 1 0 := by
  unfold dispWindow
  cases m.width with
  | some w => rfl
  | none =>
    have hR : 0 ≤ Real.sqrt (re ^ 2 + (m.psf.fwhm / 2) ^ 2) := Real.sqrt_nonneg _
    have h : ∀ t : ℝ, Real.sqrt (re ^ 2 + (m.psf.fwhm / 2) ^ 2) * |Real.cos t| ≤ Real.sqrt (re ^ 2 + (m.psf.fwhm / 2) ^ 2) :=
      fun t => mul_le_of_le_one_right hR (Real.abs_cos_le_one t)
    simp only [one_mul]
    rw [max_eq_right (h _), max_eq_right (h _)]

theorem round_radius (x y a : ℝ) : rIntEllip x y 1 a = Real.sqrt (x ^ 2 + y ^ 2) := by
  unfold rIntEllip
  simp only
  congr 1
  have := Real.sin_sq_add_cos_sq (rad a)
  linear_combination (x ^ 2 + y ^ 2) * this

/-- **C211**: for a round galaxy the misaligned model gives what the round model gives, at any position angle: the stamp left
with the instrument, the outcome and both numbers. -/
theorem C211_round (quad : (ℝ → ℝ) → ℝ) (m : Disp1DModel) (hre : 0 < m.re) (hs : 0 < m.slit) (hq : m.q = 1) (pa : ℝ) :
    aperModel1DMisalign quad m pa = aperModel1DDisp quad m := by
  have hsq : Real.sqrt m.q = 1 := by rw [hq, Real.sqrt_one]
  have hg : setupDisp1D ⟨m.nPixels, m.re, m.q, pa, m.psf.fwhm, m.slit, m.width, m.xc, m.yc⟩ =
      setupDisp1D ⟨m.nPixels, m.re * Real.sqrt m.q, 1, 0, m.psf.fwhm, m.slit, m.width, m.xc, m.yc⟩ := by
    rw [hsq, mul_one, hq]
    rw [setup_form _ _ _ rfl (disp_window m _ _ _ _ m.re 1 pa hre), setup_form _ _ _ rfl (disp_window m _ _ _ _ m.re 1 0 hre),
      round_window m m.re hre]
  unfold aperModel1DMisalign aperModel1DDisp
  simp only
  rw [hg]
  congr 1
  congr 1
  have hdx : (setupDisp1D ⟨m.nPixels, m.re * Real.sqrt m.q, 1, 0, m.psf.fwhm, m.slit, m.width, m.xc, m.yc⟩).deltX =
      0.5 * m.slit / (((setupDisp1D ⟨m.nPixels, m.re * Real.sqrt m.q, 1, 0, m.psf.fwhm, m.slit, m.width, m.xc,
        m.yc⟩).nPixels : ℝ) + 0.5) := rfl
  generalize setupDisp1D ⟨m.nPixels, m.re * Real.sqrt m.q, 1, 0, m.psf.fwhm, m.slit, m.width, m.xc, m.yc⟩ = g at hdx ⊢
  unfold sigmaAperMisalign sigmaAperDispersion
  simp only
  rw [misalignOf_eq _ _ _ _ _ _ _ _ _ _ hs hdx]
  congr 1
  · funext y x
    unfold dispSquare
    rw [hq, round_radius, round_radius]
  · funext y x
    unfold iGal
    rw [hq, round_radius, round_radius]

/-! ## C212: only ratios of angles matter -/

/-- the same object and spectrograph with all angles multiplied by `k` -/
noncomputable def Disp1DModel.scaled (m : Disp1DModel) (k : ℝ) : Disp1DModel :=
  { m with
    re := k * m.re
    reMass := k * m.reMass
    slit := k * m.slit
    psf := { m.psf with fwhm := k * m.psf.fwhm }
    width := m.width.map (k * ·)
    xc := k * m.xc
    yc := k * m.yc }

noncomputable def DispView.scaled (v : DispView) (k : ℝ) : DispView :=
  { v with
    slit := k * v.slit
    window := k * v.window
    xc := k * v.xc
    yc := k * v.yc
    re := k * v.re
    reMass := k * v.reMass
    psf := { v.psf with fwhm := k * v.psf.fwhm } }

theorem viewScaled_dx (v : DispView) (k : ℝ) : (v.scaled k).dx = k * v.dx := mul_div_assoc _ _ _

theorem viewScaled_dy (v : DispView) (k : ℝ) : (v.scaled k).dy = k * v.dy := mul_div_assoc _ _ _

theorem viewScaled_radius (v : DispView) (k : ℝ) (hk : 0 < k) (b a : ℕ) : (v.scaled k).radius b a = k * v.radius b a := by
  unfold DispView.radius
  rw [viewScaled_dx, viewScaled_dy]
  show Real.sqrt (v.q * ((((a : ℝ) - (2 * v.n + 1)) * (k * v.dx) - k * v.xc) * Real.sin (v.pa * Real.pi / 180) +
    (((b : ℝ) - (2 * v.n + 1)) * (k * v.dy) - k * v.yc) * Real.cos (v.pa * Real.pi / 180)) ^ 2 +
    ((((a : ℝ) - (2 * v.n + 1)) * (k * v.dx) - k * v.xc) * Real.cos (v.pa * Real.pi / 180) -
    (((b : ℝ) - (2 * v.n + 1)) * (k * v.dy) - k * v.yc) * Real.sin (v.pa * Real.pi / 180)) ^ 2 / v.q) = _
  have hk2 := Real.sqrt_sq hk.le
  simp only
  conv_rhs => rw [← hk2, ← Real.sqrt_mul (sq_nonneg _)]
  congr 1
  ring

theorem viewScaled_light (v : DispView) (k : ℝ) (hk : 0 < k) (b a : ℕ) : (v.scaled k).light b a = v.light b a := by
  unfold DispView.light
  rw [viewScaled_radius v k hk]
  have : (v.scaled k).re = k * v.re := rfl
  rw [this, mul_div_mul_left _ _ hk.ne']
  rfl

theorem viewScaled_disp2 (v : DispView) (k : ℝ) (hk : 0 < k) (b a : ℕ) : (v.scaled k).disp2 b a = v.disp2 b a := by
  unfold DispView.disp2
  rw [viewScaled_radius v k hk]
  have : (v.scaled k).reMass = k * v.reMass := rfl
  rw [this, mul_div_mul_left _ _ hk.ne']
  rfl

theorem viewScaled_smear (v : DispView) (k : ℝ) (hk : 0 < k) (A : ℕ → ℕ → ℝ) (b a : ℕ) :
    (v.scaled k).smear A b a = v.smear A b a := by
  unfold DispView.smear
  have hF : (0 < (v.scaled k).psf.fwhm) = (0 < v.psf.fwhm) := by
    show (0 < k * v.psf.fwhm) = _
    rw [mul_pos_iff_of_pos_left hk]
  have hs : (fun (j i : ℕ) => seeing (v.scaled k).psf (((i : ℝ) - (2 * (v.scaled k).n + 1)) * (v.scaled k).dx)
      (((j : ℝ) - (2 * (v.scaled k).n + 1)) * (v.scaled k).dy)) =
      fun (j i : ℕ) => seeing v.psf (((i : ℝ) - (2 * v.n + 1)) * v.dx) (((j : ℝ) - (2 * v.n + 1)) * v.dy) := by
    funext j i
    rw [viewScaled_dx, viewScaled_dy, mul_left_comm, mul_left_comm _ k]
    exact seeing_scale v.psf k _ _ hk
  rw [hs]
  simp only [hF]
  rfl

theorem viewScaled_mean (v : DispView) (k : ℝ) (hk : 0 < k) : (v.scaled k).mean = v.mean := by
  have hA : ∀ A : ℕ → ℕ → ℝ, (v.scaled k).inAperture ((v.scaled k).smear A) = v.inAperture (v.smear A) := by
    intro A
    unfold DispView.inAperture
    simp only [viewScaled_smear v k hk]
    rfl
  unfold DispView.mean
  rw [hA, hA]
  have e1 : (fun b a => (v.scaled k).disp2 b a * (v.scaled k).light b a) = fun b a => v.disp2 b a * v.light b a := by
    funext b a
    rw [viewScaled_disp2 v k hk, viewScaled_light v k hk]
  have e2 : (v.scaled k).light = v.light := by
    funext b a
    exact viewScaled_light v k hk b a
  rw [e1, e2]

theorem scaled_dispWindow (m : Disp1DModel) (k re q pa : ℝ) (hk : 0 < k) :
    dispWindow (m.scaled k) (k * re) q pa = k * dispWindow m re q pa := by
  unfold dispWindow Disp1DModel.scaled
  cases m.width with
  | some w => rfl
  | none =>
    simp only [Option.map_none]
    have hs : ∀ a b : ℝ, Real.sqrt ((k * a) ^ 2 + (k * b) ^ 2) = k * Real.sqrt (a ^ 2 + b ^ 2) := by
      intro a b
      rw [← Real.sqrt_sq hk.le, ← Real.sqrt_mul (sq_nonneg _), Real.sqrt_sq hk.le]
      congr 1
      ring
    have e1 : k * m.psf.fwhm / 2 = k * (m.psf.fwhm / 2) := by ring
    have e2 : q * (k * re) = k * (q * re) := by ring
    rw [e1, e2, hs, hs, mul_assoc, ← mul_max_of_nonneg _ _ hk.le]
    ring

theorem scaled_disp_phys (m : Disp1DModel) (h : m.Phys) (k : ℝ) (hk : 0 < k) : (m.scaled k).Phys where
  re := mul_pos hk h.re
  reMass := mul_pos hk h.reMass
  q := h.q
  qMass := h.qMass
  rCore := h.rCore
  slit := mul_pos hk h.slit
  width := by
    intro w hw
    obtain ⟨w0, h0, rfl⟩ := Option.map_eq_some_iff.1 hw
    exact mul_pos hk (h.width w0 h0)
  method := h.method
  dither := h.dither
  kind := h.kind

theorem scaled_dispPixels (m : Disp1DModel) (k re : ℝ) (hs : k * re ≤ 0.1 ↔ re ≤ 0.1) :
    dispPixels (m.scaled k) (k * re) = dispPixels m re := by
  unfold dispPixels
  by_cases h : re ≤ 0.1
  · rw [if_pos h, if_pos (hs.2 h)]
    rfl
  · rw [if_neg h, if_neg (mt hs.1 h)]
    rfl

/-- **C212**: multiplying all angles by the same positive number leaves the aperture dispersion of the round model as it is,
provided the circularised radius stays on the same side of 0.1, where the number of pixels is doubled. -/
theorem C212_plain (quad quad' : (ℝ → ℝ) → ℝ) (m : Disp1DModel) (h : m.Phys) (k : ℝ) (hk : 0 < k)
    (hs : k * (m.re * Real.sqrt m.q) ≤ 0.1 ↔ m.re * Real.sqrt m.q ≤ 0.1) :
    (aperModel1DDisp quad (m.scaled k)).2.map Prod.fst = (aperModel1DDisp quad' m).2.map Prod.fst := by
  rw [C210_plain quad _ (scaled_disp_phys m h k hk), C210_plain quad' m h]
  have : (m.scaled k).plain = m.plain.scaled k := by
    have e1 : (m.scaled k).re * Real.sqrt (m.scaled k).q = k * (m.re * Real.sqrt m.q) := mul_assoc _ _ _
    have e2 : (m.scaled k).reMass * Real.sqrt (m.scaled k).qMass = k * (m.reMass * Real.sqrt m.qMass) := mul_assoc _ _ _
    unfold Disp1DModel.plain
    rw [e1, e2, scaled_dispPixels m k _ hs, scaled_dispWindow m k _ _ _ hk]
    rfl
  rw [this, viewScaled_mean _ k hk]
  rfl

/-- **C212**: and that of the misaligned model, whose doubling looks at the major axis radius. -/
theorem C212_tilted (quad quad' : (ℝ → ℝ) → ℝ) (m : Disp1DModel) (h : m.Phys) (k : ℝ) (hk : 0 < k) (pa : ℝ)
    (hs : k * m.re ≤ 0.1 ↔ m.re ≤ 0.1) :
    (aperModel1DMisalign quad (m.scaled k) pa).2.map Prod.fst = (aperModel1DMisalign quad' m pa).2.map Prod.fst := by
  rw [C210_tilted quad _ (scaled_disp_phys m h k hk), C210_tilted quad' m h]
  have : (m.scaled k).tilted pa = (m.tilted pa).scaled k := by
    have e0 : (m.scaled k).re = k * m.re := rfl
    have e1 : (m.scaled k).re * Real.sqrt (m.scaled k).q = k * (m.re * Real.sqrt m.q) := mul_assoc _ _ _
    have e2 : (m.scaled k).reMass * Real.sqrt (m.scaled k).qMass = k * (m.reMass * Real.sqrt m.qMass) := mul_assoc _ _ _
    unfold Disp1DModel.tilted
    rw [e1, e2, e0, scaled_dispPixels m k _ hs, scaled_dispWindow m k _ _ _ hk]
    rfl
  rw [this, viewScaled_mean _ k hk]
  rfl

/-! ## C213: half turns -/

/-- **C213**: turning the galaxy by 180 degrees changes nothing, whatever the inputs. -/
theorem C213_half_turn (quad : (ℝ → ℝ) → ℝ) (m : Disp1DModel) (pa : ℝ) :
    aperModel1DMisalign quad m (pa + 180) = aperModel1DMisalign quad m pa := by
  have hr : rad (pa + 180) = rad pa + Real.pi := by
    unfold rad
    ring
  have he : ∀ x y q, rIntEllip x y q (pa + 180) = rIntEllip x y q pa := by
    intro x y q
    unfold rIntEllip
    simp only [hr, Real.sin_add_pi, Real.cos_add_pi]
    congr 1
    ring
  have hw : ∀ re q f, extractionWidth re q (pa + 180) f = extractionWidth re q pa f := by
    intro re q f
    simp only [extractionWidth, yProjMajor, hr, Real.cos_add_pi, mul_neg, abs_neg]
    congr
  have hg : setupDisp1D ⟨m.nPixels, m.re, m.q, pa + 180, m.psf.fwhm, m.slit, m.width, m.xc, m.yc⟩ =
      setupDisp1D ⟨m.nPixels, m.re, m.q, pa, m.psf.fwhm, m.slit, m.width, m.xc, m.yc⟩ := by
    unfold setupDisp1D
    cases m.width <;> simp only [hw]
  unfold aperModel1DMisalign
  simp only [hg]
  unfold sigmaAperMisalign dispSquare iGal
  simp only [he]

/-- an image and its mirror image are spread alike by a kernel and its mirror image -/
theorem scatter_mirror (n kn c : ℕ) (a a' k k' : ℕ → ℕ → ℝ) (ha : ∀ y' x', x' < 2 * c + 1 → a' y' (2 * c - x') = a y' x')
    (hk : ∀ j i, i < 2 * c + 1 → k' j (2 * c - i) = k j i) (y x : ℕ) (hx : x < 2 * c + 1) :
    scatter n (2 * c + 1) kn (2 * c + 1) a' k' y (2 * c - x) = scatter n (2 * c + 1) kn (2 * c + 1) a k y x := by
  unfold scatter
  refine Finset.sum_congr rfl fun y' _ => ?_
  rw [← Finset.sum_range_reflect]
  refine Finset.sum_congr rfl fun x' hx' => Finset.sum_congr rfl fun j _ => ?_
  rw [← Finset.sum_range_reflect]
  refine Finset.sum_congr rfl fun i hi => ?_
  have h1 := Finset.mem_range.1 hx'
  have h2 := Finset.mem_range.1 hi
  have e1 : 2 * c + 1 - 1 - x' = 2 * c - x' := by omega
  have e2 : 2 * c + 1 - 1 - i = 2 * c - i := by omega
  have e3 : (2 * c - x' + (2 * c - i) = 2 * c - x + (2 * c + 1 - 1) / 2) = (x' + i = x + (2 * c + 1 - 1) / 2) :=
    propext (by omega)
  rw [e1, e2, ha y' x' h1, hk j i h2]
  simp only [e3]

/-- the view in a mirror along the slit -/
noncomputable def DispView.mirrored (v : DispView) : DispView := { v with pa := -v.pa, xc := -v.xc }

theorem mirrored_radius (v : DispView) (b a : ℕ) (ha : a < 4 * v.n + 3) :
    v.mirrored.radius b (4 * v.n + 2 - a) = v.radius b a := by
  unfold DispView.radius
  have e : ((4 * v.n + 2 - a : ℕ) : ℝ) = 4 * v.n + 2 - a := by
    rw [Nat.cast_sub (by omega)]
    push_cast
    rfl
  show Real.sqrt (v.q * (((((4 * v.n + 2 - a : ℕ) : ℝ) - (2 * v.n + 1)) * v.dx - -v.xc) * Real.sin (-v.pa * Real.pi / 180) +
    (((b : ℝ) - (2 * v.n + 1)) * v.dy - v.yc) * Real.cos (-v.pa * Real.pi / 180)) ^ 2 +
    (((((4 * v.n + 2 - a : ℕ) : ℝ) - (2 * v.n + 1)) * v.dx - -v.xc) * Real.cos (-v.pa * Real.pi / 180) -
    (((b : ℝ) - (2 * v.n + 1)) * v.dy - v.yc) * Real.sin (-v.pa * Real.pi / 180)) ^ 2 / v.q) = _
  have e2 : -v.pa * Real.pi / 180 = -(v.pa * Real.pi / 180) := by ring
  rw [e, e2, Real.sin_neg, Real.cos_neg]
  simp only
  congr 1
  ring

theorem mirrored_smear (v : DispView) (A A' : ℕ → ℕ → ℝ) (hA : ∀ b a, a < 4 * v.n + 3 → A' b (4 * v.n + 2 - a) = A b a)
    (b a : ℕ) (ha : a < 4 * v.n + 3) : v.mirrored.smear A' b (4 * v.n + 2 - a) = v.smear A b a := by
  unfold DispView.smear
  show (if 0 < v.psf.fwhm then _ else _) = _
  split
  · have e : 4 * v.n + 3 = 2 * (2 * v.n + 1) + 1 := by ring
    have e' : 4 * v.n + 2 = 2 * (2 * v.n + 1) := by ring
    show scatter (4 * v.n + 3) (4 * v.n + 3) (4 * v.n + 3) (4 * v.n + 3) A' (fun j i => seeing v.psf
      (((i : ℝ) - (2 * v.n + 1)) * v.dx) (((j : ℝ) - (2 * v.n + 1)) * v.dy)) b (4 * v.n + 2 - a) = _
    rw [e, e']
    refine scatter_mirror _ _ _ _ _ _ _ (fun y' x' hx => ?_) (fun j i hi => ?_) _ _ (by omega)
    · rw [← e']
      exact hA _ _ (by omega)
    · beta_reduce
      rw [Nat.cast_sub (by omega)]
      unfold seeing
      push_cast
      have : ∀ t u : ℝ, (((2 * (2 * (v.n : ℝ) + 1) - i) - (2 * v.n + 1)) * t) ^ 2 + u = (((i : ℝ) - (2 * v.n + 1)) * t) ^ 2 + u := by
        intro t u
        ring
      simp only [this]
  · exact hA _ _ ha

/-- **C213**: mirrored along the slit — position angle and offset across the slit change sign — the galaxy gives the same
aperture dispersion. -/
theorem C213_mirror (quad quad' : (ℝ → ℝ) → ℝ) (m : Disp1DModel) (h : m.Phys) (pa : ℝ) :
    (aperModel1DMisalign quad { m with xc := -m.xc } (-pa)).2.map Prod.fst = (aperModel1DMisalign quad' m pa).2.map Prod.fst := by
  have hw : dispWindow m m.re m.q (-pa) = dispWindow m m.re m.q pa := by
    unfold dispWindow
    have e2 : -pa * Real.pi / 180 = -(pa * Real.pi / 180) := by ring
    rw [e2, Real.cos_neg]
  have hv : Disp1DModel.tilted { m with xc := -m.xc } (-pa) = (m.tilted pa).mirrored := by
    have e : Disp1DModel.tilted { m with xc := -m.xc } (-pa) =
      { (m.tilted pa).mirrored with window := dispWindow m m.re m.q (-pa) } := rfl
    rw [e, hw]
    rfl
  have hp : Disp1DModel.Phys { m with xc := -m.xc } :=
    ⟨h.re, h.reMass, h.q, h.qMass, h.rCore, h.slit, h.width, h.method, h.dither, h.kind⟩
  rw [C210_tilted quad _ hp, C210_tilted quad' m h, hv]
  generalize m.tilted pa = v
  have hl : ∀ b a, a < 4 * v.n + 3 → v.mirrored.light b (4 * v.n + 2 - a) = v.light b a := by
    intro b a ha
    unfold DispView.light
    rw [mirrored_radius v b a ha]
    rfl
  have hd : ∀ b a, a < 4 * v.n + 3 → v.mirrored.disp2 b (4 * v.n + 2 - a) = v.disp2 b a := by
    intro b a ha
    unfold DispView.disp2
    rw [mirrored_radius v b a ha]
    rfl
  have hi : ∀ A A' : ℕ → ℕ → ℝ, (∀ b a, a < 4 * v.n + 3 → A' b (4 * v.n + 2 - a) = A b a) →
      v.mirrored.inAperture (v.mirrored.smear A') = v.inAperture (v.smear A) := by
    intro A A' hA
    unfold DispView.inAperture
    refine Finset.sum_congr rfl fun j _ => ?_
    rw [← Finset.sum_range_reflect]
    refine Finset.sum_congr rfl fun i hi => ?_
    have h1 : i < 2 * v.n + 1 := Finset.mem_range.1 hi
    have e : v.mirrored.n + 1 + (2 * v.mirrored.n + 1 - 1 - i) = 4 * v.n + 2 - (v.n + 1 + i) := by
      show v.n + 1 + (2 * v.n + 1 - 1 - i) = _
      omega
    rw [e, mirrored_smear v A A' hA _ _ (by omega)]
    rfl
  unfold DispView.mean
  rw [hi _ _ hl, hi _ _ fun b a ha => by rw [hl b a ha, hd b a ha]]
  rfl

/-! ## The hypotheses are met -/

/-- a galaxy with default window, Gaussian seeing and slit -/
noncomputable def dispExample : Disp1DModel where
  re := 1 / 2
  reMass := 1 / 2
  q := 1 / 2
  qMass := 1 / 2
  n := 1
  psf := { kind := .gaussian, fwhm := 3 / 5, beta := 0, dither := none }
  slit := 7 / 10

theorem dispExample_phys : dispExample.Phys where
  re := by norm_num [dispExample]
  reMass := by norm_num [dispExample]
  q := by norm_num [dispExample]
  qMass := by norm_num [dispExample]
  rCore := by norm_num [dispExample]
  slit := by norm_num [dispExample]
  width := by intro w hw; simp [dispExample] at hw
  method := Or.inl rfl
  dither := rfl
  kind := by intro hk; simp [dispExample] at hk

example (quad : (ℝ → ℝ) → ℝ) : (aperModel1DMisalign quad dispExample 30).2 =
    .ok (.fin (Real.sqrt (dispExample.tilted 30).mean), sigmaE quad (1 / 2 * Real.sqrt (1 / 2)) 1 1 (-0.089) (1 / 300)
      (1 / 2 * Real.sqrt (1 / 2))) := C210_tilted quad dispExample dispExample_phys 30

example (quad : (ℝ → ℝ) → ℝ) : aperModel1DMisalign quad { dispExample with q := 1 } 30 =
    aperModel1DDisp quad { dispExample with q := 1 } :=
  C211_round quad _ (by norm_num [dispExample]) (by norm_num [dispExample]) rfl 30

/-- twice the size: both radii are above 0.1 -/
example (quad : (ℝ → ℝ) → ℝ) : (aperModel1DMisalign quad (dispExample.scaled 2) 30).2.map Prod.fst =
    (aperModel1DMisalign quad dispExample 30).2.map Prod.fst :=
  C212_tilted quad quad dispExample dispExample_phys 2 two_pos 30 (by norm_num [dispExample])

example (quad : (ℝ → ℝ) → ℝ) : (aperModel1DMisalign quad dispExample (-30)).2.map Prod.fst =
    (aperModel1DMisalign quad dispExample 30).2.map Prod.fst := by
  have h := C213_mirror quad quad dispExample dispExample_phys 30
  have e : ({ dispExample with xc := -dispExample.xc } : Disp1DModel) = dispExample := by
    have : -dispExample.xc = dispExample.xc := neg_zero
    rw [this]
  rwa [e] at h

end Misfit
