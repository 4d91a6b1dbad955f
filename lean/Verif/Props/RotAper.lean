import Verif.Model.RotAper
import Verif.Lemmas.RotAper
import Verif.Props.BlurForm
import Verif.Props.Aper1DModel

/-!
# C206–C208: what the rotation aperture correction is

The aperture dispersion and the correction returned by the 1D rotation model, in closed form, and what follows from it.
-/

namespace Misfit

open Finset

/-! ## Specification -/

/-- default window: four times the larger of the half-light radius projected on the slit and the minor half axis, both
with half the seeing FWHM added in quadrature -/
noncomputable def rotWindow (m : RotModel) : ℝ :=
  match m.width with
  | some w => w
  | none => 4 * max (Real.sqrt (m.re ^ 2 + (m.psf.fwhm / 2) ^ 2) * |Real.cos (m.deltPA * Real.pi / 180)|)
      (Real.sqrt ((m.q * m.re) ^ 2 + (m.psf.fwhm / 2) ^ 2))

/-- height (and depth) of a cell -/
noncomputable def rotCell (m : RotModel) : ℝ := rotWindow m / m.nPixels

/-- number of columns in the slit: as few as make the cells no wider than high -/
noncomputable def rotCols (m : RotModel) : ℕ := ⌈m.slit / rotCell m⌉.toNat

/-- width of a column -/
noncomputable def rotColWidth (m : RotModel) : ℝ := m.slit / rotCols m

/-- rows added above and below for the seeing -/
noncomputable def rotPadY (m : RotModel) : ℕ := (npRound (m.psf.fwhm * m.padFactor / rotCell m)).toNat

/-- columns added left and right -/
noncomputable def rotPadX (m : RotModel) : ℕ := (npRound (m.psf.fwhm * m.padFactor / rotColWidth m)).toNat

/-- position of column `a` across the slit -/
noncomputable def rotX (m : RotModel) (a : ℕ) : ℝ :=
  ((a : ℝ) - rotPadX m - ((rotCols m : ℝ) - 1) / 2) * rotColWidth m - m.xc

/-- position of row `b` along the slit -/
noncomputable def rotY (m : RotModel) (b : ℕ) : ℝ :=
  ((b : ℝ) - rotPadY m - ((m.nPixels : ℝ) - 1) / 2) * rotCell m - m.yc

/-- emission of the cell in layer `c`, row `b`, column `a` -/
noncomputable def rotEmission (m : RotModel) (c b a : ℕ) : ℝ :=
  let p := discPoint m.sini m.deltPA (rotX m a) (rotY m b) (skyZ m.nPixels (rotCell m) c)
  m.int (Real.sqrt (p.1 ^ 2 + p.2.1 ^ 2)) p.2.2

/-- line-of-sight velocity there for a rotation curve of asymptotic velocity one -/
noncomputable def rotSpeed (m : RotModel) (rt : ℝ) (c b a : ℕ) : ℝ :=
  let p := discPoint m.sini m.deltPA (rotX m a) (rotY m b) (skyZ m.nPixels (rotCell m) c)
  discVelocity 1 rt m.sini p.1 p.2.1

/-- light of the column of cells behind row `b`, column `a` -/
noncomputable def rotLight (m : RotModel) (b a : ℕ) : ℝ := (∑ c ∈ range m.nPixels, rotEmission m c b a) * rotCell m

/-- light times squared velocity of that column of cells -/
noncomputable def rotPower (m : RotModel) (rt : ℝ) (b a : ℕ) : ℝ :=
  (∑ c ∈ range m.nPixels, rotSpeed m rt c b a ^ 2 * rotEmission m c b a) * rotCell m

open Classical in
/-- columns of the seeing kernel: those within one FWHM of the middle of the grid -/
noncomputable def rotKernelX (m : RotModel) : List ℝ :=
  ((List.range (rotCols m + 2 * rotPadX m)).map (rotX m)).filter fun x =>
    |x - (rotX m 0 + rotX m (rotCols m + 2 * rotPadX m - 1)) / 2| ≤ m.psf.fwhm

open Classical in
/-- rows of the seeing kernel -/
noncomputable def rotKernelY (m : RotModel) : List ℝ :=
  ((List.range (m.nPixels + 2 * rotPadY m)).map (rotY m)).filter fun y =>
    |y - (rotY m 0 + rotY m (m.nPixels + 2 * rotPadY m - 1)) / 2| ≤ m.psf.fwhm

open Classical in
/-- an image seen through the seeing -/
noncomputable def rotSmear (m : RotModel) (A : ℕ → ℕ → ℝ) (b a : ℕ) : ℝ :=
  if 0 < m.psf.fwhm then
    scatter (m.nPixels + 2 * rotPadY m) (rotCols m + 2 * rotPadX m) (rotKernelY m).length (rotKernelX m).length A
      (fun j i => seeing m.psf ((rotKernelX m).getD i 0) ((rotKernelY m).getD j 0)) b a
  else A b a

/-- weight of row `j` of the aperture: a Gaussian around the middle whose full width at half maximum is half the
aperture, or the same for all -/
noncomputable def rotWeight (m : RotModel) (j : ℕ) : ℝ :=
  if m.method = "optimal" then
    Real.exp (-(4 * Real.log 2 * ((j : ℝ) - ((m.nPixels : ℝ) - 1) / 2) ^ 2 / ((m.nPixels : ℝ) / 2) ^ 2))
  else 1

/-- weighted sum over the aperture -/
noncomputable def rotInAperture (m : RotModel) (A : ℕ → ℕ → ℝ) : ℝ :=
  ∑ j ∈ range m.nPixels, ∑ i ∈ range (rotCols m), rotWeight m j * A (rotPadY m + j) (rotPadX m + i)

/-- light-weighted mean of the squared line-of-sight velocity in the aperture, for a rotation curve of asymptotic velocity
one and turnover radius `rt` -/
noncomputable def rotMean (m : RotModel) (rt : ℝ) : ℝ :=
  rotInAperture m (rotSmear m (rotPower m rt)) / rotInAperture m (rotSmear m (rotLight m))

/-- reference radius -/
noncomputable def rotRadius (m : RotModel) : ℝ := m.rAper.getD m.re

/-- a galaxy, a spectrograph and keywords for which a correction is defined -/
structure RotModel.Phys (m : RotModel) : Prop where
  npix : 0 < m.nPixels
  slit : 0 < m.slit
  re : 0 < m.re
  q : 0 < m.q
  sini0 : 0 ≤ m.sini
  sini1 : m.sini ≤ 1
  width : ∀ w, m.width = some w → 0 < w
  int : ∀ r z, 0 < m.int r z
  lines : m.restwave ≠ []
  fwhm : 0 ≤ m.psf.fwhm
  gauss : m.psf.kind = .gaussian → m.psf.dither = none
  moffat : m.psf.kind = .moffat → 0 < m.psf.fwhm ∧ 1 < m.psf.beta
  shift : m.shift = false
  eff : m.eff = false

/-- The kernel has a pixel: an odd number of rows and columns, or a FWHM of at least half a cell. -/
def RotModel.Resolved (m : RotModel) : Prop :=
  (m.nPixels % 2 = 1 ∨ rotCell m / 2 ≤ m.psf.fwhm) ∧ (rotCols m % 2 = 1 ∨ rotColWidth m / 2 ≤ m.psf.fwhm)

/-! ## The grid -/

theorem rotWindow_eq (m : RotModel) (h : m.Phys) :
    m.width.getD (extractionWidth m.re m.q m.deltPA m.psf.fwhm) = rotWindow m := by
  unfold rotWindow
  cases m.width with
  | some w => rfl
  | none =>
    have hre := h.re
    have half : ∀ t : ℝ, 0.5 * Real.sqrt ((2 * t) ^ 2 + m.psf.fwhm ^ 2) = Real.sqrt (t ^ 2 + (m.psf.fwhm / 2) ^ 2) := by
      intro t
      have e : (2 * t) ^ 2 + m.psf.fwhm ^ 2 = 2 ^ 2 * (t ^ 2 + (m.psf.fwhm / 2) ^ 2) := by ring
      rw [e, Real.sqrt_mul (by norm_num), Real.sqrt_sq (by norm_num)]
      ring
    have hR : 0 < Real.sqrt (m.re ^ 2 + (m.psf.fwhm / 2) ^ 2) := by positivity
    have e2 : 2 * m.q * m.re = 2 * (m.q * m.re) := by ring
    simp only [Option.getD_none, extractionWidth, yProjMajor, rad, e2, half]
    have e3 : m.deltPA * (Real.pi / 180) = m.deltPA * Real.pi / 180 := by ring
    rw [mul_div_cancel₀ _ hR.ne', e3, abs_mul, abs_of_pos hR]
    split
    · rename_i hlt
      rw [max_eq_right hlt.le]
    · rename_i hlt
      rw [max_eq_left (not_lt.1 hlt)]

theorem rotWindow_pos (m : RotModel) (h : m.Phys) : 0 < rotWindow m := by
  rw [← rotWindow_eq m h]
  cases hw : m.width with
  | some w => exact h.width w hw
  | none => exact extractionWidth_pos _ _ _ _ h.re h.q

theorem rotCell_pos (m : RotModel) (h : m.Phys) : 0 < rotCell m :=
  div_pos (rotWindow_pos m h) (by exact_mod_cast h.npix)

theorem rotCols_pos (m : RotModel) (h : m.Phys) : 0 < rotCols m := by
  have : 0 < ⌈m.slit / rotCell m⌉ := Int.ceil_pos.2 (div_pos h.slit (rotCell_pos m h))
  unfold rotCols
  omega

theorem rotColWidth_pos (m : RotModel) (h : m.Phys) : 0 < rotColWidth m :=
  div_pos h.slit (by exact_mod_cast rotCols_pos m h)

/-- the grid the constructor sets up -/
noncomputable def rotGrid (m : RotModel) : RotGrid where
  nPixY := m.nPixels
  nPixX := rotCols m
  padX := rotPadX m
  padY := rotPadY m
  deltX := rotColWidth m
  deltY := rotCell m
  xs := (List.range (rotCols m + 2 * rotPadX m)).map (rotX m)
  ys := (List.range (m.nPixels + 2 * rotPadY m)).map (rotY m)

theorem rot_line (n pad : ℕ) (d c : ℝ) :
    (linspace (-((n : ℝ) / 2 + pad - 0.5) * d) (((n : ℝ) / 2 + pad - 0.5) * d) (n + 2 * pad)).map (· - c) =
      (List.range (n + 2 * pad)).map fun i : ℕ => ((i : ℝ) - pad - ((n : ℝ) - 1) / 2) * d - c := by
  refine List.ext_getElem? fun i => ?_
  by_cases hi : i < n + 2 * pad
  · rw [rot_coord n pad d c i hi, List.getElem?_map, List.getElem?_range hi]
    rfl
  · rw [List.getElem?_eq_none, List.getElem?_eq_none]
    · simpa using hi
    · simpa [linspace] using hi

theorem setupRot_eq (m : RotModel) (h : m.Phys) :
    setupRot m.nPixels (rotWindow m) m.slit m.psf.fwhm m.padFactor m.xc m.yc = .ok (rotGrid m) := by
  have h1 := h.npix
  have h2 : rotWindow m / m.nPixels ≠ 0 := (rotCell_pos m h).ne'
  have h3 : ⌈m.slit / (rotWindow m / m.nPixels)⌉.toNat ≠ 0 := (rotCols_pos m h).ne'
  rw [setupRot, if_neg h1.ne']
  simp only
  rw [if_neg h2, if_neg h3]
  congr 1
  unfold rotGrid
  congr 1
  · exact rot_line _ _ _ _
  · exact rot_line _ _ _ _

theorem rotKernelX_eq (m : RotModel) (h : m.Phys) : trimToFwhm (rotGrid m).xs m.psf.fwhm = rotKernelX m := by
  have := rotCols_pos m h
  refine trim_middle_steps _ (by omega) _ (rotX m 0) (rotColWidth m) (fun i _ => ?_) _
  unfold rotX
  push_cast
  ring

theorem rotKernelY_eq (m : RotModel) (h : m.Phys) : trimToFwhm (rotGrid m).ys m.psf.fwhm = rotKernelY m := by
  have := h.npix
  refine trim_middle_steps _ (by omega) _ (rotY m 0) (rotCell m) (fun i _ => ?_) _
  unfold rotY
  push_cast
  ring

theorem rotKernelX_nil (m : RotModel) (h : m.Phys) :
    rotKernelX m = [] ↔ ¬(rotCols m % 2 = 1 ∨ rotColWidth m / 2 ≤ m.psf.fwhm) := by
  have := rotCols_pos m h
  rw [← rotKernelX_eq m h, trim_steps_nil (rotGrid m).xs (rotCols m + 2 * rotPadX m) (rotX m 0) (rotColWidth m) _ (by omega) h.fwhm
    (List.map_congr_left fun i _ => by unfold rotX; push_cast; ring), abs_of_pos (rotColWidth_pos m h), not_or, not_le]
  refine and_congr_left fun _ => ?_
  omega

theorem rotKernelY_nil (m : RotModel) (h : m.Phys) :
    rotKernelY m = [] ↔ ¬(m.nPixels % 2 = 1 ∨ rotCell m / 2 ≤ m.psf.fwhm) := by
  have := h.npix
  rw [← rotKernelY_eq m h, trim_steps_nil (rotGrid m).ys (m.nPixels + 2 * rotPadY m) (rotY m 0) (rotCell m) _ (by omega) h.fwhm
    (List.map_congr_left fun i _ => by unfold rotY; push_cast; ring), abs_of_pos (rotCell_pos m h), not_or, not_le]
  refine and_congr_left fun _ => ?_
  omega

/-- the attributes the constructor sets up -/
noncomputable def rotFixed (m : RotModel) : RotFixed where
  grid := rotGrid m
  width := rotWindow m
  rAper := rotRadius m
  xint := fun c b a => (discPoint m.sini m.deltPA (rotX m a) (rotY m b) (skyZ m.nPixels (rotCell m) c)).1
  yint := fun c b a => (discPoint m.sini m.deltPA (rotX m a) (rotY m b) (skyZ m.nPixels (rotCell m) c)).2.1
  I := fun c b a => rotEmission m c b a
  xTrim := rotKernelX m
  yTrim := rotKernelY m

theorem setup_eq (m : RotModel) (h : m.Phys) : m.setup = .ok (rotFixed m) := by
  unfold RotModel.setup
  simp only
  rw [rotWindow_eq m h, setupRot_eq m h]
  have hs : ¬m.psf.StampFails := by
    rintro ⟨hk, h0⟩
    have := h.moffat hk
    rcases h0 with h0 | h0 <;> linarith [this.1, this.2]
  simp only
  rw [if_neg h.lines, if_neg hs, rotKernelX_eq m h, rotKernelY_eq m h]
  have hp : ∀ (c : Fin m.nPixels) (b : Fin (m.nPixels + 2 * rotPadY m)) (a : Fin (rotCols m + 2 * rotPadX m)),
      transformInt3d ((rotGrid m).xs.getD a 0) ((rotGrid m).ys.getD b 0)
        ((linspace (-((m.nPixels : ℝ) / 2 - 0.5) * rotCell m) (((m.nPixels : ℝ) / 2 - 0.5) * rotCell m)
          m.nPixels).getD c 0) m.deltPA (Real.arcsin m.sini) =
      discPoint m.sini m.deltPA (rotX m a) (rotY m b) (skyZ m.nPixels (rotCell m) c) := by
    intro c b a
    have e : (0.5 : ℝ) = 1 / 2 := by norm_num
    rw [discPoint_eq _ _ _ _ _ h.sini0 h.sini1, e, linspace_getD _ h.npix _ _ c.isLt]
    have hx : (rotGrid m).xs.getD a 0 = rotX m a := getD_range_map _ _ _ a.isLt
    have hy : (rotGrid m).ys.getD b 0 = rotY m b := getD_range_map _ _ _ b.isLt
    rw [hx, hy]
  congr 1
  unfold rotFixed rotEmission
  congr 1
  · funext c b a; exact congrArg (·.1) (hp c b a)
  · funext c b a; exact congrArg (·.2.1) (hp c b a)
  · funext c b a; exact congrArg (fun p => m.int (Real.sqrt (p.1 ^ 2 + p.2.1 ^ 2)) p.2.2) (hp c b a)

/-! ## The seeing -/

theorem seeing_pos (p : PSF) (hb : p.kind = .moffat → 1 < p.beta) (x y : ℝ) : 0 < seeing p x y := by
  unfold seeing
  cases hk : p.kind with
  | gaussian => exact Real.exp_pos _
  | moffat =>
    have h1 := hb hk
    refine Real.rpow_pos_of_pos ?_ _
    have : (1 : ℝ) ≤ (2 : ℝ) ^ (1 / p.beta) := Real.one_le_rpow (by norm_num) (by positivity)
    have : 0 ≤ 4 * ((2 : ℝ) ^ (1 / p.beta) - 1) * (x ^ 2 + y ^ 2) / p.fwhm ^ 2 :=
      div_nonneg (mul_nonneg (mul_nonneg (by norm_num) (by linarith)) (by positivity)) (by positivity)
    linarith

theorem scatter_nonneg (n m kn km : ℕ) (a k : ℕ → ℕ → ℝ) (ha : ∀ y x, 0 ≤ a y x) (hk : ∀ j i, 0 ≤ k j i) (y x : ℕ) :
    0 ≤ scatter n m kn km a k y x := by
  unfold scatter
  refine Finset.sum_nonneg fun _ _ => Finset.sum_nonneg fun _ _ => Finset.sum_nonneg fun _ _ => Finset.sum_nonneg fun _ _ => ?_
  split
  · exact mul_nonneg (ha _ _) (hk _ _)
  · exact le_rfl

theorem scatter_pos (n m kn km : ℕ) (a k : ℕ → ℕ → ℝ) (ha : ∀ y x, 0 < a y x) (hk : ∀ j i, 0 < k j i) (y x : ℕ)
    (hy : y < n) (hx : x < m) (hn : 0 < kn) (hm : 0 < km) : 0 < scatter n m kn km a k y x := by
  have t : ∀ y' x' j i, 0 ≤ if y' + j = y + (kn - 1) / 2 ∧ x' + i = x + (km - 1) / 2 then a y' x' * k j i else 0 := by
    intro y' x' j i
    split
    · exact (mul_pos (ha _ _) (hk _ _)).le
    · exact le_rfl
  unfold scatter
  refine Finset.sum_pos' (fun _ _ => Finset.sum_nonneg fun _ _ => Finset.sum_nonneg fun _ _ => Finset.sum_nonneg fun _ _ => t _ _ _ _)
    ⟨y, Finset.mem_range.2 hy, ?_⟩
  refine Finset.sum_pos' (fun _ _ => Finset.sum_nonneg fun _ _ => Finset.sum_nonneg fun _ _ => t _ _ _ _)
    ⟨x, Finset.mem_range.2 hx, ?_⟩
  refine Finset.sum_pos' (fun _ _ => Finset.sum_nonneg fun _ _ => t _ _ _ _)
    ⟨(kn - 1) / 2, Finset.mem_range.2 (by omega), ?_⟩
  refine Finset.sum_pos' (fun _ _ => t _ _ _ _) ⟨(km - 1) / 2, Finset.mem_range.2 (by omega), ?_⟩
  rw [if_pos ⟨rfl, rfl⟩]
  exact mul_pos (ha _ _) (hk _ _)

theorem scatter_linear (n m kn km : ℕ) (k : ℕ → ℕ → ℝ) (p q : ℝ) (a b : ℕ → ℕ → ℝ) (y x : ℕ) :
    scatter n m kn km (fun y x => p * a y x + q * b y x) k y x =
      p * scatter n m kn km a k y x + q * scatter n m kn km b k y x := by
  unfold scatter
  simp only [Finset.mul_sum, ← Finset.sum_add_distrib]
  refine Finset.sum_congr rfl fun _ _ => Finset.sum_congr rfl fun _ _ => Finset.sum_congr rfl fun _ _ =>
    Finset.sum_congr rfl fun _ _ => ?_
  split <;> ring

theorem rotSmear_linear (m : RotModel) (p q : ℝ) (a b : ℕ → ℕ → ℝ) (y x : ℕ) :
    rotSmear m (fun y x => p * a y x + q * b y x) y x = p * rotSmear m a y x + q * rotSmear m b y x := by
  unfold rotSmear
  split
  · exact scatter_linear _ _ _ _ _ _ _ _ _ _ _
  · rfl

theorem rotSmear_nonneg (m : RotModel) (h : m.Phys) (A : ℕ → ℕ → ℝ) (hA : ∀ y x, 0 ≤ A y x) (y x : ℕ) :
    0 ≤ rotSmear m A y x := by
  unfold rotSmear
  split
  · exact scatter_nonneg _ _ _ _ _ _ hA (fun j i => (seeing_pos _ (fun hk => (h.moffat hk).2) _ _).le) _ _
  · exact hA _ _

theorem rotSmear_pos (m : RotModel) (h : m.Phys) (hr : m.psf.fwhm = 0 ∨ m.Resolved) (A : ℕ → ℕ → ℝ) (hA : ∀ y x, 0 < A y x)
    (y x : ℕ) (hy : y < m.nPixels + 2 * rotPadY m) (hx : x < rotCols m + 2 * rotPadX m) : 0 < rotSmear m A y x := by
  unfold rotSmear
  split
  · rename_i hF
    have hR := hr.resolve_left hF.ne'
    refine scatter_pos _ _ _ _ _ _ hA (fun j i => seeing_pos _ (fun hk => (h.moffat hk).2) _ _) _ _ hy hx ?_ ?_
    · exact List.length_pos_iff.2 fun e => (rotKernelY_nil m h).1 e hR.1
    · exact List.length_pos_iff.2 fun e => (rotKernelX_nil m h).1 e hR.2
  · exact hA _ _

theorem rot_psf (m : RotModel) (h : m.Phys) : ∃ k : ℝ, 0 < k ∧ ∀ A : ℕ → ℕ → ℝ,
    psfFlatObj (fun (y : Fin (m.nPixels + 2 * rotPadY m)) (x : Fin (rotCols m + 2 * rotPadX m)) => A y x) m.psf.fwhm
      ((rotFixed m).stamp m.psf) = .ok fun y x => k * rotSmear m A y x := by
  by_cases hF : 0 < m.psf.fwhm
  · have hb : m.psf.kind = .moffat → 1 < m.psf.beta := fun hk => (h.moffat hk).2
    obtain ⟨c, -, hst⟩ := stamp_seeing m.psf hF h.gauss hb
    have hc : 0 < c := by
      have h1 := stamp_pos m.psf hF h.gauss hb [0] [0] ⟨0, by simp⟩ ⟨0, by simp⟩
      rw [hst] at h1
      exact (pos_iff_pos_of_mul_pos h1).2 (seeing_pos m.psf hb _ _)
    refine ⟨c, hc, fun A => ?_⟩
    unfold psfFlatObj
    rw [if_pos hF]
    unfold RotFixed.stamp
    simp only [fftSame2]
    congr 1
    funext y x
    show convSame2 (fun (y : Fin (m.nPixels + 2 * rotPadY m)) (x : Fin (rotCols m + 2 * rotPadX m)) => A y x)
      (m.psf.stamp (rotKernelX m) (rotKernelY m)) y x = _
    rw [hst, convSame2_stamp_mul]
    rw [conv_scatter _ _ _ _ A fun j i => seeing m.psf ((rotKernelX m).getD i 0) ((rotKernelY m).getD j 0)]
    unfold rotSmear
    rw [if_pos hF]
  · refine ⟨1, one_pos, fun A => ?_⟩
    unfold psfFlatObj
    rw [if_neg hF]
    congr 1
    funext y x
    unfold rotSmear
    rw [if_neg hF, one_mul]

/-! ## The second moment -/

theorem rotWeight_pos (m : RotModel) (j : ℕ) : 0 < rotWeight m j := by
  unfold rotWeight
  split
  · exact Real.exp_pos _
  · exact one_pos

theorem rotLight_pos (m : RotModel) (h : m.Phys) (b a : ℕ) : 0 < rotLight m b a := by
  have := h.npix
  refine mul_pos (Finset.sum_pos (fun c _ => ?_) ⟨0, Finset.mem_range.2 this⟩) (rotCell_pos m h)
  exact h.int _ _

theorem rotPower_nonneg (m : RotModel) (h : m.Phys) (rt : ℝ) (b a : ℕ) : 0 ≤ rotPower m rt b a :=
  mul_nonneg (Finset.sum_nonneg fun c _ => mul_nonneg (sq_nonneg _) (h.int _ _).le) (rotCell_pos m h).le

theorem rotInAperture_light (m : RotModel) (h : m.Phys) (hr : m.psf.fwhm = 0 ∨ m.Resolved) :
    0 < rotInAperture m (rotSmear m (rotLight m)) := by
  have h1 := h.npix
  have h2 := rotCols_pos m h
  refine Finset.sum_pos (fun j hj => Finset.sum_pos (fun i hi => mul_pos (rotWeight_pos m j) ?_)
    ⟨0, Finset.mem_range.2 h2⟩) ⟨0, Finset.mem_range.2 h1⟩
  have := Finset.mem_range.1 hj
  have := Finset.mem_range.1 hi
  exact rotSmear_pos m h hr _ (rotLight_pos m h) _ _ (by omega) (by omega)

theorem rotInAperture_power (m : RotModel) (h : m.Phys) (rt : ℝ) : 0 ≤ rotInAperture m (rotSmear m (rotPower m rt)) :=
  Finset.sum_nonneg fun j _ => Finset.sum_nonneg fun i _ =>
    mul_nonneg (rotWeight_pos m j).le (rotSmear_nonneg m h _ (rotPower_nonneg m h rt) _ _)

theorem rotMean_nonneg (m : RotModel) (h : m.Phys) (hr : m.psf.fwhm = 0 ∨ m.Resolved) (rt : ℝ) : 0 ≤ rotMean m rt :=
  div_nonneg (rotInAperture_power m h rt) (rotInAperture_light m h hr).le

theorem rot_moment (m : RotModel) (h : m.Phys) (hr : m.psf.fwhm = 0 ∨ m.Resolved)
    (hm : m.method = "optimal" ∨ m.method = "boxcar") (va rt s : ℝ) :
    (rotFixed m).moment m (some fun c b a => va * rotSpeed m rt c b a) (.fin s) =
      .ok (.fin (Real.sqrt (va ^ 2 * rotMean m rt + s ^ 2))) := by
  unfold RotFixed.moment
  rw [if_neg]
  · obtain ⟨k, hk, hps⟩ := rot_psf m h
    have hwd : rotWindow m / rotCell m = m.nPixels := by
      unfold rotCell
      have h1 : (m.nPixels : ℝ) ≠ 0 := by exact_mod_cast h.npix.ne'
      have h2 := (rotWindow_pos m h).ne'
      field_simp
    have hnp : (0 : ℝ) < m.nPixels := by exact_mod_cast h.npix
    obtain ⟨κ, hκ, hw⟩ := extractWeights_value m.method (rotWindow m) (rotCell m) m.nPixels hm
      (by rw [hwd]; exact hnp) h.npix
    rw [hwd] at hw
    exact rotSigma_value (rotGrid m) (rotSpeed m rt) (rotEmission m) va s (rotCell m) m.psf.fwhm _ m.method (rotWindow m)
      (rotSmear m) k hk hps (rotSmear_linear m) (rotWeight m) κ hκ hw
      (mul_pos (rotColWidth_pos m h) (rotCell_pos m h)).ne' (rotInAperture_light m h hr) (rotInAperture_power m h rt)
  · rintro ⟨hF, hnil⟩
    have hR := hr.resolve_left hF.ne'
    rcases hnil with e | e
    · exact (rotKernelX_nil m h).1 e hR.2
    · exact (rotKernelY_nil m h).1 e hR.1

/-! ## The whole calculation -/

/-- asymptotic velocity and dispersion: the given ratio `t0` of rotation to dispersion at the reference radius fixes the
other from the dummy value `t1` -/
noncomputable def rotKin (m : RotModel) (t0 : Option ℝ) (t1 t2 : ℝ) : ℝ × ℝ :=
  match t0 with
  | none => (t1, 0)
  | some r =>
    if r = 0 then (0, t1) else (t1, t1 * (2 / Real.pi * Real.arctan (rotRadius m / t2)) / r)

/-- **C208** (closed form): the aperture dispersion adds the light-weighted mean square velocity and the square of the
local dispersion; the reference value adds the squares of rotation and dispersion at the reference radius. -/
theorem C208_value (m : RotModel) (h : m.Phys) (hr : m.psf.fwhm = 0 ∨ m.Resolved)
    (hm : m.method = "optimal" ∨ m.method = "boxcar") (t0 : Option ℝ) (t1 t2 : ℝ)
    (ht : t2 ≠ 0) (rows) :
    aperModel1DRot m t0 t1 t2 rows =
      .ok (.fin (Real.sqrt ((rotKin m t0 t1 t2).1 ^ 2 * rotMean m t2 + (rotKin m t0 t1 t2).2 ^ 2)),
        .fin (Real.sqrt (((rotKin m t0 t1 t2).1 * (2 / Real.pi * Real.arctan (rotRadius m / t2))) ^ 2 +
          (rotKin m t0 t1 t2).2 ^ 2))) := by
  have hth : rotKinTheta t0 t1 t2 (rotFixed m).rAper =
      [.fin (rotKin m t0 t1 t2).1, .fin t2, .fin (rotKin m t0 t1 t2).2] := by
    unfold rotKinTheta rotKin
    cases t0 with
    | none => rfl
    | some r =>
      by_cases h0 : r = 0
      · simp [h0]
      · simp only [ne_eq, h0, not_false_eq_true, if_true, if_false]
        rw [velArctan_eq _ _ _ _ ht, Fl.fin_div, if_neg h0]
        have : (rotFixed m).rAper = rotRadius m := rfl
        rw [this]
        congr 5
        ring
  unfold aperModel1DRot
  rw [setup_eq m h]
  simp only [RotFixed.calc]
  rw [hth]
  simp only [h.shift, h.eff, rotShiftStep, Bool.or_self, Bool.false_eq_true, if_false]
  generalize (rotKin m t0 t1 t2).1 = va
  generalize (rotKin m t0 t1 t2).2 = sg
  have hV : (allFinite fun c b a => losVelocity [va, t2] m.sini ((rotFixed m).xint c b a) ((rotFixed m).yint c b a)) =
      some fun (c : Fin (rotFixed m).grid.nPixY) (b : Fin ((rotFixed m).grid.nPixY + 2 * (rotFixed m).grid.padY))
        (a : Fin ((rotFixed m).grid.nPixX + 2 * (rotFixed m).grid.padX)) => va * rotSpeed m t2 c b a := by
    rw [← allFinite_fin fun (c : Fin (rotFixed m).grid.nPixY)
      (b : Fin ((rotFixed m).grid.nPixY + 2 * (rotFixed m).grid.padY))
      (a : Fin ((rotFixed m).grid.nPixX + 2 * (rotFixed m).grid.padX)) => va * rotSpeed m t2 c b a]
    congr 1
    funext c b a
    rw [discVelocity_eq _ _ _ _ _ ht]
    congr 1
    unfold rotSpeed discVelocity rotFixed
    simp only
    split
    · ring
    · ring
  rw [hV, rot_moment m h hr hm, velArctan_eq _ _ _ _ ht]
  have e : (rotFixed m).rAper = rotRadius m := rfl
  rw [e]
  simp only [Fl.sq, Fl.fin_mul, Fl.fin_add, Fl.sqrt]
  rw [if_neg (not_lt.2 (add_nonneg (mul_self_nonneg _) (mul_self_nonneg _)))]
  congr 4
  ring

/-! ## C206: the dummy velocity and the brightness cancel -/

theorem fin_div_scale (k x y : ℝ) (hk : 0 < k) : (Fl.fin (k * x) / Fl.fin (k * y) : Fl ℝ) = Fl.fin x / Fl.fin y := by
  rw [Fl.fin_div, Fl.fin_div]
  by_cases hy : y = 0
  · rw [if_pos (by rw [hy, mul_zero]), if_pos hy]
    unfold Fl.infTimes
    by_cases hx : x = 0
    · simp [hx]
    · simp only [mul_eq_zero, hk.ne', hx, or_self, if_false, mul_pos_iff_of_pos_left hk]
  · rw [if_neg (mul_ne_zero hk.ne' hy), if_neg hy, mul_div_mul_left _ _ hk.ne']

theorem rotKin_scale (m : RotModel) (t0 : Option ℝ) (t1 t2 : ℝ) :
    rotKin m t0 t1 t2 = (t1 * (rotKin m t0 1 t2).1, t1 * (rotKin m t0 1 t2).2) := by
  unfold rotKin
  cases t0 with
  | none => simp
  | some r =>
    simp only
    split
    · simp
    · rw [mul_one, one_mul, mul_div_assoc]

/-- **C206**: the correction does not depend on the dummy velocity, as long as that is not zero. -/
theorem C206_velocity (m : RotModel) (h : m.Phys) (hr : m.psf.fwhm = 0 ∨ m.Resolved)
    (hm : m.method = "optimal" ∨ m.method = "boxcar") (t0 : Option ℝ) (t1 t1' t2 : ℝ)
    (ht : t2 ≠ 0) (h1 : t1 ≠ 0) (h1' : t1' ≠ 0) (rows rows') :
    (aperModel1DRot m t0 t1 t2 rows).map aperRatio = (aperModel1DRot m t0 t1' t2 rows').map aperRatio := by
  have key : ∀ t1 : ℝ, t1 ≠ 0 → ∀ rows, (aperModel1DRot m t0 t1 t2 rows).map aperRatio =
      .ok (Fl.fin (Real.sqrt ((rotKin m t0 1 t2).1 ^ 2 * rotMean m t2 + (rotKin m t0 1 t2).2 ^ 2)) /
        Fl.fin (Real.sqrt (((rotKin m t0 1 t2).1 * (2 / Real.pi * Real.arctan (rotRadius m / t2))) ^ 2 +
          (rotKin m t0 1 t2).2 ^ 2))) := by
    intro t1 h1 rows
    rw [C208_value m h hr hm t0 t1 t2 ht rows, rotKin_scale]
    simp only [Except.map, aperRatio]
    have hs : ∀ X : ℝ, Real.sqrt (t1 ^ 2 * X) = |t1| * Real.sqrt X := by
      intro X
      rw [Real.sqrt_mul (sq_nonneg _), Real.sqrt_sq_eq_abs]
    have e1 : ∀ a b c : ℝ, (t1 * a) ^ 2 * c + (t1 * b) ^ 2 = t1 ^ 2 * (a ^ 2 * c + b ^ 2) := by intros; ring
    have e2 : ∀ a b c : ℝ, (t1 * a * c) ^ 2 + (t1 * b) ^ 2 = t1 ^ 2 * ((a * c) ^ 2 + b ^ 2) := by intros; ring
    rw [e1, e2, hs, hs, fin_div_scale _ _ _ (abs_pos.2 h1)]
  rw [key t1 h1, key t1' h1']

/-- **C206** (the guard): with a dummy velocity of zero the correction is NaN. -/
theorem C206_zero (m : RotModel) (h : m.Phys) (hr : m.psf.fwhm = 0 ∨ m.Resolved)
    (hm : m.method = "optimal" ∨ m.method = "boxcar") (t0 : Option ℝ) (t2 : ℝ) (ht : t2 ≠ 0)
    (rows) : (aperModel1DRot m t0 0 t2 rows).map aperRatio = .ok .nan := by
  rw [C208_value m h hr hm t0 0 t2 ht rows, rotKin_scale]
  simp [Except.map, aperRatio, Fl.infTimes, Fl.fin_div]

/-- **C206** (brightness): multiplying the intensity by a positive factor changes neither number. -/
theorem C206_brightness (m : RotModel) (h : m.Phys) (hr : m.psf.fwhm = 0 ∨ m.Resolved)
    (hm : m.method = "optimal" ∨ m.method = "boxcar") (k : ℝ) (hk : 0 < k)
    (t0 : Option ℝ) (t1 t2 : ℝ) (ht : t2 ≠ 0) (rows rows') :
    aperModel1DRot { m with int := fun r z => k * m.int r z } t0 t1 t2 rows = aperModel1DRot m t0 t1 t2 rows' := by
  set m' : RotModel := { m with int := fun r z => k * m.int r z } with hm'
  have h' : m'.Phys := { h with int := fun r z => mul_pos hk (h.int r z) }
  have eE : ∀ c b a, rotEmission m' c b a = k * rotEmission m c b a := fun _ _ _ => rfl
  have eL : ∀ b a, rotLight m' b a = k * rotLight m b a + 0 * rotLight m b a := by
    intro b a
    unfold rotLight
    simp only [eE, ← Finset.mul_sum]
    have : rotCell m' = rotCell m := rfl
    have e : m'.nPixels = m.nPixels := rfl
    rw [this, e]
    ring
  have eP : ∀ b a, rotPower m' t2 b a = k * rotPower m t2 b a + 0 * rotPower m t2 b a := by
    intro b a
    unfold rotPower
    have e1 : ∀ c, rotSpeed m' t2 c b a ^ 2 * rotEmission m' c b a = k * (rotSpeed m t2 c b a ^ 2 * rotEmission m c b a) := by
      intro c
      have : rotSpeed m' t2 c b a = rotSpeed m t2 c b a := rfl
      rw [this, eE]
      ring
    simp only [e1, ← Finset.mul_sum]
    have : rotCell m' = rotCell m := rfl
    have e : m'.nPixels = m.nPixels := rfl
    rw [this, e]
    ring
  have eA : ∀ A : ℕ → ℕ → ℝ, rotInAperture m' (rotSmear m' fun b a => k * A b a + 0 * A b a) =
      k * rotInAperture m (rotSmear m A) := by
    intro A
    have e : rotInAperture m' (rotSmear m' fun b a => k * A b a + 0 * A b a) =
      rotInAperture m (rotSmear m fun b a => k * A b a + 0 * A b a) := rfl
    rw [e]
    unfold rotInAperture
    rw [Finset.mul_sum]
    refine Finset.sum_congr rfl fun j _ => ?_
    rw [Finset.mul_sum]
    refine Finset.sum_congr rfl fun i _ => ?_
    rw [rotSmear_linear]
    ring
  have eM : rotMean m' t2 = rotMean m t2 := by
    unfold rotMean
    have e1 : rotPower m' t2 = fun b a => k * rotPower m t2 b a + 0 * rotPower m t2 b a := by funext b a; exact eP b a
    have e2 : rotLight m' = fun b a => k * rotLight m b a + 0 * rotLight m b a := by funext b a; exact eL b a
    rw [e1, e2, eA, eA, mul_div_mul_left _ _ hk.ne']
  rw [C208_value m h hr hm t0 t1 t2 ht rows', C208_value m' h' hr hm t0 t1 t2 ht rows, eM]
  rfl

/-! ## C207: one number gives the corrections for all ratios -/

/-- **C207**: with `c` the correction for pure rotation, the correction for rotation over dispersion `r` at the reference
radius is `√((1 + r²c²)/(1 + r²))`, and one without rotation. -/
theorem C207_combination (m : RotModel) (h : m.Phys) (hr : m.psf.fwhm = 0 ∨ m.Resolved)
    (hm : m.method = "optimal" ∨ m.method = "boxcar") (t1 t2 : ℝ) (h1 : t1 ≠ 0)
    (ht : t2 ≠ 0) (hR : rotRadius m ≠ 0) (rows) :
    ∃ c, 0 ≤ c ∧ (aperModel1DRot m none t1 t2 rows).map aperRatio = .ok (.fin c) ∧
      (aperModel1DRot m (some 0) t1 t2 rows).map aperRatio = .ok (.fin 1) ∧
      ∀ r, r ≠ 0 → (aperModel1DRot m (some r) t1 t2 rows).map aperRatio =
        .ok (.fin (Real.sqrt ((1 + r ^ 2 * c ^ 2) / (1 + r ^ 2)))) := by
  set v := 2 / Real.pi * Real.arctan (rotRadius m / t2) with hv
  have hv0 : v ≠ 0 := by
    refine mul_ne_zero (div_ne_zero two_ne_zero Real.pi_ne_zero) ?_
    rw [Ne, Real.arctan_eq_zero_iff]
    exact div_ne_zero hR ht
  have hw := rotMean_nonneg m h hr t2
  have hvv : 0 < v ^ 2 := by positivity
  refine ⟨Real.sqrt (rotMean m t2 / v ^ 2), Real.sqrt_nonneg _, ?_, ?_, fun r h0 => ?_⟩
  · rw [C206_velocity m h hr hm none t1 1 t2 ht h1 one_ne_zero rows rows, C208_value m h hr hm _ _ _ ht]
    simp only [rotKin, ← hv, Except.map, aperRatio]
    have hs : Real.sqrt ((1 * v) ^ 2 + 0 ^ 2) ≠ 0 := by
      rw [Real.sqrt_ne_zero']
      nlinarith
    rw [Fl.fin_div, if_neg hs, ← Real.sqrt_div (by positivity)]
    congr 4 <;> ring
  · rw [C206_velocity m h hr hm (some 0) t1 1 t2 ht h1 one_ne_zero rows rows, C208_value m h hr hm _ _ _ ht]
    simp [rotKin, Except.map, aperRatio, Fl.fin_div]
  · rw [C206_velocity m h hr hm (some r) t1 1 t2 ht h1 one_ne_zero rows rows, C208_value m h hr hm _ _ _ ht]
    simp only [rotKin, ← hv, Except.map, aperRatio, if_neg h0]
    have hp : 0 < (1 * v) ^ 2 + (1 * v / r) ^ 2 := by positivity
    rw [Fl.fin_div, if_neg (Real.sqrt_ne_zero'.2 hp), ← Real.sqrt_div (by positivity), Real.sq_sqrt (by positivity)]
    congr 3
    field_simp
    ring

/-! ## C208: bounds and errors -/

theorem rotSpeed_sq_le (m : RotModel) (rt : ℝ) (c b a : ℕ) : rotSpeed m rt c b a ^ 2 ≤ m.sini ^ 2 := by
  unfold rotSpeed discVelocity
  simp only
  split
  · rw [zero_pow two_ne_zero]; positivity
  · rename_i hr
    set p := discPoint m.sini m.deltPA (rotX m a) (rotY m b) (skyZ m.nPixels (rotCell m) c)
    set r := Real.sqrt (p.1 ^ 2 + p.2.1 ^ 2) with hrd
    have hpi := Real.pi_pos
    have h1 : (2 / Real.pi * 1 * Real.arctan (r / rt)) ^ 2 ≤ 1 := by
      have ha := Real.arctan_lt_pi_div_two (r / rt)
      have hb := Real.neg_pi_div_two_lt_arctan (r / rt)
      rw [sq_le_one_iff_abs_le_one, mul_one, abs_mul, abs_of_pos (by positivity)]
      have : |Real.arctan (r / rt)| ≤ Real.pi / 2 := abs_le.2 ⟨by linarith, by linarith⟩
      calc 2 / Real.pi * |Real.arctan (r / rt)| ≤ 2 / Real.pi * (Real.pi / 2) := by gcongr
        _ = 1 := by field_simp
    have h2 : (p.2.1 / r) ^ 2 ≤ 1 := by
      rw [div_pow, hrd, Real.sq_sqrt (by positivity)]
      exact div_le_one_of_le₀ (by nlinarith [sq_nonneg p.1]) (by positivity)
    calc _ = (2 / Real.pi * 1 * Real.arctan (r / rt)) ^ 2 * (p.2.1 / r) ^ 2 * m.sini ^ 2 := by ring
      _ ≤ 1 * 1 * m.sini ^ 2 := by gcongr
      _ = m.sini ^ 2 := by ring

theorem rotMean_le (m : RotModel) (h : m.Phys) (hr : m.psf.fwhm = 0 ∨ m.Resolved) (rt : ℝ) :
    rotMean m rt ≤ m.sini ^ 2 := by
  have hL := rotInAperture_light m h hr
  unfold rotMean
  rw [div_le_iff₀ hL]
  have hd : ∀ b a, 0 ≤ m.sini ^ 2 * rotLight m b a + (-1) * rotPower m rt b a := by
    intro b a
    have : rotPower m rt b a ≤ m.sini ^ 2 * rotLight m b a := by
      unfold rotPower rotLight
      rw [← mul_assoc, Finset.mul_sum]
      refine mul_le_mul_of_nonneg_right (Finset.sum_le_sum fun c _ => ?_) (rotCell_pos m h).le
      exact mul_le_mul_of_nonneg_right (rotSpeed_sq_le m rt c b a) (h.int _ _).le
    linarith
  have hs : 0 ≤ rotInAperture m (rotSmear m fun b a => m.sini ^ 2 * rotLight m b a + (-1) * rotPower m rt b a) :=
    Finset.sum_nonneg fun j _ => Finset.sum_nonneg fun i _ =>
      mul_nonneg (rotWeight_pos m j).le (rotSmear_nonneg m h _ hd _ _)
  have e : rotInAperture m (rotSmear m fun b a => m.sini ^ 2 * rotLight m b a + (-1) * rotPower m rt b a) =
      m.sini ^ 2 * rotInAperture m (rotSmear m (rotLight m)) - rotInAperture m (rotSmear m (rotPower m rt)) := by
    unfold rotInAperture
    rw [Finset.mul_sum, ← Finset.sum_sub_distrib]
    refine Finset.sum_congr rfl fun j _ => ?_
    rw [Finset.mul_sum, ← Finset.sum_sub_distrib]
    refine Finset.sum_congr rfl fun i _ => ?_
    rw [rotSmear_linear]
    ring
  linarith

/-- **C208** (bound): the aperture dispersion of a pure rotator never exceeds its asymptotic velocity times the sine of the
inclination; in particular a face-on disc has none. -/
theorem C208_bound (m : RotModel) (h : m.Phys) (hr : m.psf.fwhm = 0 ∨ m.Resolved)
    (hm : m.method = "optimal" ∨ m.method = "boxcar") (t1 t2 : ℝ) (ht : t2 ≠ 0) (rows) :
    ∃ s v, aperModel1DRot m none t1 t2 rows = .ok (.fin s, .fin v) ∧ 0 ≤ s ∧ s ≤ |t1| * m.sini := by
  refine ⟨_, _, C208_value m h hr hm none t1 t2 ht rows, Real.sqrt_nonneg _, ?_⟩
  have h0 := h.sini0
  refine Real.sqrt_le_iff.2 ⟨by positivity, ?_⟩
  have := rotMean_le m h hr t2
  simp only [rotKin]
  rw [mul_pow, sq_abs]
  nlinarith [sq_nonneg t1]

/-- **C208** (coarse grid): with seeing below half a cell and an even number of cells the kernel is empty, and no number
comes out. -/
theorem C208_coarse (m : RotModel) (h : m.Phys) (hF : 0 < m.psf.fwhm) (hr : ¬m.Resolved) (t0 : Option ℝ) (t1 t2 : ℝ)
    (rows) : aperModel1DRot m t0 t1 t2 rows = .error .indexError := by
  have hn : 0 < m.psf.fwhm ∧ ((rotFixed m).xTrim = [] ∨ (rotFixed m).yTrim = []) := by
    refine ⟨hF, ?_⟩
    unfold RotModel.Resolved at hr
    rw [not_and_or] at hr
    rcases hr with hr | hr
    · exact Or.inr ((rotKernelY_nil m h).2 hr)
    · exact Or.inl ((rotKernelX_nil m h).2 hr)
  obtain ⟨va, sg, hth⟩ : ∃ va sg, rotKinTheta t0 t1 t2 (rotFixed m).rAper = [.fin va, .fin t2, sg] := by
    unfold rotKinTheta
    cases t0 with
    | none => exact ⟨_, _, rfl⟩
    | some r =>
      simp only
      split <;> exact ⟨_, _, rfl⟩
  unfold aperModel1DRot
  rw [setup_eq m h]
  simp only [RotFixed.calc]
  rw [hth]
  simp only [h.shift, h.eff, rotShiftStep, Bool.or_self, Bool.false_eq_true, if_false]
  unfold RotFixed.moment
  rw [if_pos hn]

/-- **C208** (refused): no pixels, no emission line, a Moffat profile without width or exponent, and an unknown extraction
method raise. -/
theorem C208_refused (m : RotModel) (t0 : Option ℝ) (t1 t2 : ℝ) (rows) :
    (m.nPixels = 0 → aperModel1DRot m t0 t1 t2 rows = .error .zeroDivisionError) ∧
    (0 < m.nPixels → 0 < m.slit → 0 < m.re → 0 < m.q → (∀ w, m.width = some w → 0 < w) →
      (m.restwave = [] → aperModel1DRot m t0 t1 t2 rows = .error .indexError) ∧
      (m.restwave ≠ [] → m.psf.kind = .moffat ∧ (m.psf.fwhm = 0 ∨ m.psf.beta = 0) →
        aperModel1DRot m t0 t1 t2 rows = .error .zeroDivisionError)) := by
  refine ⟨fun h => ?_, fun h1 h2 h3 h4 h5 => ?_⟩
  · unfold aperModel1DRot RotModel.setup
    simp only [setupRot, if_pos h]
  · have hw : 0 < m.width.getD (extractionWidth m.re m.q m.deltPA m.psf.fwhm) := by
      cases e : m.width with
      | some w => exact h5 w e
      | none => exact extractionWidth_pos _ _ _ _ h3 h4
    obtain ⟨g, hg, -⟩ := C71_rot m.nPixels _ m.slit m.psf.fwhm m.padFactor m.xc m.yc hw h2 h1
    refine ⟨fun h => ?_, fun h hs => ?_⟩
    · unfold aperModel1DRot RotModel.setup
      simp only [hg, if_pos h]
    · unfold aperModel1DRot RotModel.setup
      simp only [hg, if_neg h]
      have hs' : m.psf.StampFails := hs
      rw [if_pos hs']

/-- **C208** (unknown method): whatever the galaxy. -/
theorem C208_method (m : RotModel) (h : m.Phys) (hr : m.psf.fwhm = 0 ∨ m.Resolved)
    (hm : m.method ≠ "optimal" ∧ m.method ≠ "boxcar") (t0 : Option ℝ) (t1 t2 : ℝ) (rows) :
    aperModel1DRot m t0 t1 t2 rows = .error .valueError := by
  have hw : ∀ w d n, extractWeights m.method w d n = .error .valueError := by
    intro w d n
    rw [extractWeights, if_neg hm.1, if_neg hm.2]
  have hmom : ∀ V sg, (rotFixed m).moment m V sg = .error .valueError := by
    intro V sg
    unfold RotFixed.moment
    rw [if_neg]
    · have hpsf : ∀ {n k : ℕ} (A : Fin n → Fin k → ℝ), ∃ B, psfFlatObj A m.psf.fwhm ((rotFixed m).stamp m.psf) = .ok B := by
        intro n k A
        unfold psfFlatObj RotFixed.stamp
        split
        · exact ⟨_, rfl⟩
        · exact ⟨_, rfl⟩
      have hrot : ∀ (V sig I : Cube (rotFixed m).grid.nPixY ((rotFixed m).grid.nPixY + 2 * (rotFixed m).grid.padY)
          ((rotFixed m).grid.nPixX + 2 * (rotFixed m).grid.padX) ℝ) (dz : ℝ),
          rotSigma (rotFixed m).grid V sig I dz m.psf.fwhm ((rotFixed m).stamp m.psf) m.method (rotFixed m).width =
            .error .valueError := by
        intro V sig I dz
        unfold rotSigma
        obtain ⟨B, hB⟩ := hpsf fun y x => (∑ z, (V z y x ^ 2 + sig z y x ^ 2) * I z y x) * dz
        obtain ⟨C, hC⟩ := hpsf fun y x => (∑ z, I z y x) * dz
        simp only [hB, hC, hw, bind, Except.bind]
      cases V with
      | none => simp only [hw]; rfl
      | some V =>
        cases sg with
        | fin s => exact hrot _ _ _ _
        | _ => simp only [hw]; rfl
    · rintro ⟨hF, hnil⟩
      have hR := hr.resolve_left hF.ne'
      rcases hnil with e | e
      · exact (rotKernelX_nil m h).1 e hR.2
      · exact (rotKernelY_nil m h).1 e hR.1
  obtain ⟨va, sg, hth⟩ : ∃ va sg, rotKinTheta t0 t1 t2 (rotFixed m).rAper = [.fin va, .fin t2, sg] := by
    unfold rotKinTheta
    cases t0 with
    | none => exact ⟨_, _, rfl⟩
    | some r =>
      simp only
      split <;> exact ⟨_, _, rfl⟩
  unfold aperModel1DRot
  rw [setup_eq m h]
  simp only [RotFixed.calc]
  rw [hth]
  simp only [h.shift, h.eff, rotShiftStep, Bool.or_self, Bool.false_eq_true, if_false, hmom]

/-- The hypotheses hold for a disc seen at 30° through a slit one arcsecond wide, with a seeing of one arcsecond. -/
noncomputable def rotExample : RotModel where
  nPixels := 5
  re := 1
  q := 0.9
  sini := 0.5
  deltPA := 20
  restwave := [6564]
  slit := 1
  psf := ⟨.gaussian, 1, 0, none⟩
  width := some 2
  int := fun r z => Real.exp (-r) * Real.exp (-z ^ 2)

theorem rotExample_phys : rotExample.Phys where
  npix := by norm_num [rotExample]
  slit := by norm_num [rotExample]
  re := by norm_num [rotExample]
  q := by norm_num [rotExample]
  sini0 := by norm_num [rotExample]
  sini1 := by norm_num [rotExample]
  width := by
    intro w hw
    have : (2 : ℝ) = w := Option.some.inj hw
    rw [← this]
    norm_num
  int := fun r z => mul_pos (Real.exp_pos _) (Real.exp_pos _)
  lines := by simp [rotExample]
  fwhm := by norm_num [rotExample]
  gauss := fun _ => rfl
  moffat := fun h => by cases h
  shift := rfl
  eff := rfl

theorem rotExample_resolved : rotExample.Resolved := by
  have hc : rotCell rotExample = 2 / 5 := by norm_num [rotCell, rotWindow, rotExample]
  have hn : rotCols rotExample = 3 := by
    unfold rotCols
    rw [hc]
    have : ⌈rotExample.slit / (2 / 5)⌉ = 3 := by
      rw [Int.ceil_eq_iff]
      norm_num [rotExample]
    rw [this]
    rfl
  exact ⟨Or.inl (by norm_num [rotExample]), Or.inl (by rw [hn])⟩

example (rows) : ∃ c, 0 ≤ c ∧ (aperModel1DRot rotExample none 100 (1 / 2) rows).map aperRatio = .ok (.fin c) ∧
    (aperModel1DRot rotExample (some 3) 100 (1 / 2) rows).map aperRatio =
      .ok (.fin (Real.sqrt ((1 + 3 ^ 2 * c ^ 2) / (1 + 3 ^ 2)))) := by
  obtain ⟨c, hc, h1, -, h2⟩ := C207_combination rotExample rotExample_phys (Or.inr rotExample_resolved)
    (Or.inl rfl) 100 (1 / 2)
    (by norm_num) (by norm_num) (by norm_num [rotRadius, rotExample]) rows
  exact ⟨c, hc, h1, h2 3 (by norm_num)⟩

example (rows) : (aperModel1DRot rotExample (some 3) 100 (1 / 2) rows).map aperRatio =
    (aperModel1DRot rotExample (some 3) (-7) (1 / 2) rows).map aperRatio :=
  C206_velocity rotExample rotExample_phys (Or.inr rotExample_resolved)
    (Or.inl rfl) _ _ _ _ (by norm_num) (by norm_num) (by norm_num) _ _

end Misfit
