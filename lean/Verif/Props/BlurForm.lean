import Verif.Props.Seeing

/-!
# C203: closed form of the image with point spread function, instrumental broadening, adaptive wavelength sampling
and dispersion floor
-/

namespace Misfit

/-! ## The specification -/

/-- the number of padding columns on either side -/
noncomputable def padCols (cfg : AperCfg) : ℕ :=
  (npRound (cfg.psf.fwhm * cfg.padFactor / (cfg.slit / slitCells cfg))).toNat

/-- rows of the padded grid -/
noncomputable def nRows (cfg : AperCfg) : ℕ := cfg.nWhole * cfg.nSubpixels + 2 * padRows cfg

/-- columns of the padded grid -/
noncomputable def nCols (cfg : AperCfg) : ℕ := slitCells cfg + 2 * padCols cfg

/-- position across the slit of column `a` of the padded grid, relative to the object -/
noncomputable def gridX (cfg : AperCfg) (a : ℕ) : ℝ :=
  ((a : ℝ) - padCols cfg + 1 / 2 - slitCells cfg / 2) * (cfg.slit / slitCells cfg) - cfg.xc

/-- position along the slit of row `b` of the padded grid, relative to the object in row `m0` -/
noncomputable def gridY (cfg : AperCfg) (m0 : ℝ) (b : ℕ) : ℝ :=
  (1 / 2 - padRows cfg) * (cfg.pixscale / cfg.nSubpixels) + b * rowStep cfg - m0 * cfg.pixscale

/-- light of the column of cells in row `b` and column `a` of the padded grid -/
noncomputable def gridLight (cfg : AperCfg) (va rt sig m0 z lam : ℝ) (b a : ℕ) : ℝ :=
  ∑ c ∈ Finset.range (cfg.nWhole * cfg.nSubpixels),
    cellLight cfg va rt sig z (gridX cfg a) (gridY cfg m0 b)
      (skyZ (cfg.nWhole * cfg.nSubpixels) (cfg.pixscale / cfg.nSubpixels) c) lam *
      (cfg.pixscale / cfg.nSubpixels)

/-- the point spread function, up to a factor -/
noncomputable def seeing (p : PSF) (x y : ℝ) : ℝ :=
  match p.kind with
  | .gaussian => Real.exp (-(4 * Real.log 2 * (x ^ 2 + y ^ 2) / p.fwhm ^ 2))
  | .moffat => (1 + 4 * ((2 : ℝ) ^ (1 / p.beta) - 1) * (x ^ 2 + y ^ 2) / p.fwhm ^ 2) ^ (-p.beta)

open Classical in
/-- columns of the kernel: those within one FWHM of the middle of the grid -/
noncomputable def kernelX (cfg : AperCfg) : List ℝ :=
  ((List.range (nCols cfg)).map (gridX cfg)).filter fun x =>
    |x - (gridX cfg 0 + gridX cfg (nCols cfg - 1)) / 2| ≤ cfg.psf.fwhm

open Classical in
/-- rows of the kernel -/
noncomputable def kernelY (cfg : AperCfg) (m0 : ℝ) : List ℝ :=
  ((List.range (nRows cfg)).map (gridY cfg m0)).filter fun y =>
    |y - (gridY cfg m0 0 + gridY cfg m0 (nRows cfg - 1)) / 2| ≤ cfg.psf.fwhm

/-- light of an `n × m` image spread by a `kn × km` kernel `k`, the middle of the kernel (the lower one for even sizes)
on the source; what falls outside is lost -/
def scatter (n m kn km : ℕ) (a k : ℕ → ℕ → ℝ) (y x : ℕ) : ℝ :=
  ∑ y' ∈ Finset.range n, ∑ x' ∈ Finset.range m, ∑ j ∈ Finset.range kn, ∑ i ∈ Finset.range km,
    if y' + j = y + (kn - 1) / 2 ∧ x' + i = x + (km - 1) / 2 then a y' x' * k j i else 0

/-- total of `W` images -/
def total3 (W n m : ℕ) (a : ℕ → ℕ → ℕ → ℝ) : ℝ :=
  ∑ w ∈ Finset.range W, ∑ y ∈ Finset.range n, ∑ x ∈ Finset.range m, a w y x

/-- the cube after the point spread function: spread by the kernel, total unchanged -/
noncomputable def blurred (cfg : AperCfg) (m0 : ℝ) (W : ℕ) (A : ℕ → ℕ → ℕ → ℝ) (w y x : ℕ) : ℝ :=
  let B := fun w => scatter (nRows cfg) (nCols cfg) (kernelY cfg m0).length (kernelX cfg).length (A w)
    fun j i => seeing cfg.psf ((kernelX cfg).getD i 0) ((kernelY cfg m0).getD j 0)
  if 0 < cfg.psf.fwhm then total3 W (nRows cfg) (nCols cfg) A / total3 W (nRows cfg) (nCols cfg) B * B w y x
  else A w y x

/-- light of row `i` in the slit -/
noncomputable def throughSlit (cfg : AperCfg) (A : ℕ → ℕ → ℝ) (i : ℕ) : ℝ :=
  ∑ t ∈ Finset.range cfg.nSubpixels, ∑ a ∈ Finset.range (slitCells cfg),
    A (padRows cfg + i * cfg.nSubpixels + t) (padCols cfg + a) * (cfg.slit / slitCells cfg)

/-- an image of `W` wavelengths `lam` and `N` rows after the spectrograph with dispersion `d`: Gaussian weights up to
half the number of wavelengths away, total unchanged -/
noncomputable def dispersed (W N : ℕ) (lam : ℕ → ℝ) (d : ℝ) (A : ℕ → ℕ → ℝ) (w i : ℕ) : ℝ :=
  let B := fun w i => ∑ w' ∈ Finset.range W, if w ≤ w' + (W - 1) / 2 ∧ w' ≤ w + (W - 1) / 2 then
    A w' i * Real.exp (-(lam w - lam w') ^ 2 / (2 * d ^ 2)) else 0
  if 0 < d then (∑ w ∈ Finset.range W, ∑ i ∈ Finset.range N, A w i) /
    (∑ w ∈ Finset.range W, ∑ i ∈ Finset.range N, B w i) * B w i
  else A w i

/-- the image on the wavelengths `lam` -/
noncomputable def discImage (cfg : AperCfg) (r0 va rt sig m0 z : ℝ) (W : ℕ) (lam : ℕ → ℝ) (w i : ℕ) : ℝ :=
  dispersed W cfg.nWhole lam (cfg.res / lightSpeed * (r0 * (1 + z)))
    (fun w => throughSlit cfg (blurred cfg m0 W (fun w => gridLight cfg va rt sig m0 z (lam w)) w)) w i

/-- dispersion of one wavelength pixel of width `step` -/
noncomputable def pixelSpread (step lam0 : ℝ) : ℝ := step / lam0 * lightSpeed / 2.35

/-- the dispersion used: at least the floor, when there is one -/
noncomputable def flooredSigma (cfg : AperCfg) (step lam0 sig : ℝ) : ℝ :=
  if cfg.sigmaFloor then max sig (if cfg.adaptive then 0.75 * pixelSpread (step / cfg.factor) lam0 else pixelSpread step lam0)
  else sig

/-- samples per wavelength pixel -/
noncomputable def samples (cfg : AperCfg) (step lam0 sig : ℝ) : ℕ :=
  if cfg.adaptive = true ∧ sig < pixelSpread step lam0 then ⌊cfg.factor⌋₊ else 1

/-- sample `i`, with `n` samples in each pixel of width `step`, the first pixel centred on `w0` -/
noncomputable def fineWave (w0 step : ℝ) (n : ℕ) (i : ℕ) : ℝ := w0 - (step - step / n) / 2 + i * (step / n)

/-- row `i` and wavelength `j` of the image with `N` wavelengths `w0, w0 + step, …` -/
noncomputable def imageSpec (cfg : AperCfg) (w0 step : ℝ) (N : ℕ) (r0 va rt sig m0 z : ℝ) (i j : ℕ) : ℝ :=
  let n := samples cfg step (r0 * (1 + z)) sig
  ∑ k ∈ Finset.range n, discImage cfg r0 va rt (flooredSigma cfg step (r0 * (1 + z)) sig) m0 z (N * n)
    (fineWave w0 step n) (j * n + k) i

/-! ## The grid -/

theorem trim_middle_steps (n : ℕ) (hn : 0 < n) (F : ℕ → ℝ) (s d : ℝ) (hF : ∀ i < n, F i = s + (i : ℝ) * d) (w : ℝ) :
    trimToFwhm ((List.range n).map F) w =
      ((List.range n).map F).filter fun x => |x - (F 0 + F (n - 1)) / 2| ≤ w := by
  have hl : (List.range n).map F = (List.range n).map fun i : ℕ => s + (i : ℝ) * d :=
    List.map_congr_left fun i hi => hF i (List.mem_range.1 hi)
  unfold trimToFwhm
  rw [avgList_steps _ n s d hn hl, hF 0 hn, hF (n - 1) (by omega)]
  have : s + ((n : ℝ) - 1) / 2 * d = (s + ((0 : ℕ) : ℝ) * d + (s + ((n - 1 : ℕ) : ℝ) * d)) / 2 := by
    rw [Nat.cast_sub (by omega)]
    push_cast
    ring
  rw [this]

theorem getD_range_map (n : ℕ) (F : ℕ → ℝ) (i : ℕ) (h : i < n) : ((List.range n).map F).getD i 0 = F i := by
  rw [List.getD_eq_getElem?_getD, List.getElem?_map, List.getElem?_range h]
  rfl

theorem slitCells_pos (cfg : AperCfg) (hS : 0 < cfg.nSubpixels) (hp : 0 < cfg.pixscale) (hs : 0 < cfg.slit) :
    0 < slitCells cfg := by
  unfold slitCells
  have hS' : (0 : ℝ) < cfg.nSubpixels := by exact_mod_cast hS
  have : 0 < ⌈cfg.slit * cfg.nSubpixels / cfg.pixscale⌉ := Int.ceil_pos.2 (div_pos (mul_pos hs hS') hp)
  omega

/-- the padded grid -/
theorem blur_grid (cfg : AperCfg) (hc : Luminous cfg) (hF : 0 ≤ cfg.psf.fwhm) (m0 : ℝ) (G : Grid ℝ)
    (hG : setupGrid ⟨cfg.nWhole, cfg.nSubpixels, cfg.pixscale, cfg.slit, cfg.psf.fwhm, cfg.padFactor, cfg.xc, m0⟩ =
      .ok G) :
    G.nPixY = cfg.nWhole * cfg.nSubpixels ∧ G.nPixX = slitCells cfg ∧ G.padY = padRows cfg ∧ G.padX = padCols cfg ∧
      G.nY = nRows cfg ∧ G.nX = nCols cfg ∧ G.nZ = cfg.nWhole * cfg.nSubpixels ∧
      G.deltX = cfg.slit / slitCells cfg ∧ G.deltZ = cfg.pixscale / cfg.nSubpixels ∧
      G.xArr = (List.range (nCols cfg)).map (gridX cfg) ∧ G.yArr = (List.range (nRows cfg)).map (gridY cfg m0) ∧
      (∀ c < cfg.nWhole * cfg.nSubpixels, G.zArr.getD c 0 =
        skyZ (cfg.nWhole * cfg.nSubpixels) (cfg.pixscale / cfg.nSubpixels) c) ∧
      trimToFwhm G.xArr cfg.psf.fwhm = kernelX cfg ∧ trimToFwhm G.yArr cfg.psf.fwhm = kernelY cfg m0 := by
  have hphys : GridIn.Phys (⟨cfg.nWhole, cfg.nSubpixels, cfg.pixscale, cfg.slit, cfg.psf.fwhm,
      cfg.padFactor, cfg.xc, m0⟩ : GridIn ℝ) :=
    ⟨hc.rows, hc.sub, hc.pix, hc.slit, mul_nonneg hF hc.pad⟩
  obtain ⟨G', hG', hnY, hdY, hdZ, -, hpX, -, -, -, hX, hY, hZ, hpadY, hpadX, hxA, hzA, hyA⟩ := setupGrid_ok _ hphys
  rw [hG] at hG'
  cases hG'
  obtain ⟨hnX, hdX⟩ := setupGrid_nPixX _ _ hc.sub hc.pix hG
  simp only at hnY hdY hnX hdX hyA hpadY hpadX hxA
  have hcells : G.nPixX = slitCells cfg := hnX
  have hpy : G.padY = padRows cfg := by rw [hpadY, hdY]; rfl
  have hpx : G.padX = padCols cfg := by rw [hpadX, hdX, hcells]; rfl
  have hny : G.nY = nRows cfg := by rw [hY, hnY, hpy]; rfl
  have hnx : G.nX = nCols cfg := by rw [hX, hcells, hpx]; rfl
  have hdx : G.deltX = cfg.slit / slitCells cfg := by rw [hdX, hcells]
  have hS : (cfg.nSubpixels : ℝ) ≠ 0 := by exact_mod_cast hc.sub.ne'
  have hn0 := slitCells_pos cfg hc.sub hc.pix hc.slit
  have hNS := Nat.mul_pos hc.rows hc.sub
  have hxs : ∀ i < nCols cfg, gridX cfg i = (-((slitCells cfg : ℝ) / 2 + padCols cfg - 1 / 2) *
      (cfg.slit / slitCells cfg) - cfg.xc) + (i : ℝ) * (cfg.slit / slitCells cfg) := by
    intro i _
    unfold gridX
    ring
  have hys : ∀ i < nRows cfg, gridY cfg m0 i = ((1 / 2 - padRows cfg) * (cfg.pixscale / cfg.nSubpixels) -
      m0 * cfg.pixscale) + (i : ℝ) * rowStep cfg := by
    intro i _
    unfold gridY
    ring
  have hx : G.xArr = (List.range (nCols cfg)).map (gridX cfg) := by
    apply List.ext_getElem?
    intro i
    by_cases hi : i < nCols cfg
    · rw [hxA, hX, xArr_get _ _ _ hpX _ _ (by rw [← hX, hnx]; exact hi), List.getElem?_map,
        List.getElem?_range hi, hcells, hpx, hdx]
      rfl
    · rw [List.getElem?_eq_none (by rw [hxA]; simpa [linspace_length, hnx] using hi),
        List.getElem?_eq_none (by simpa using hi)]
  have hy : G.yArr = (List.range (nRows cfg)).map (gridY cfg m0) := by
    rw [hyA, linspace_steps, hny]
    refine List.map_congr_left fun i hi => ?_
    rw [hys i (List.mem_range.1 hi), hdY, hpy]
    have e1 : -((padRows cfg : ℝ) - 1 / 2) * (cfg.pixscale / cfg.nSubpixels) -
        m0 * cfg.nSubpixels * (cfg.pixscale / cfg.nSubpixels) =
        (1 / 2 - padRows cfg) * (cfg.pixscale / cfg.nSubpixels) - m0 * cfg.pixscale := by
      field_simp
      ring
    rw [e1]
    congr 1
    by_cases h1 : nRows cfg = 1
    · have : i = 0 := by have := List.mem_range.1 hi; omega
      subst this
      simp
    · rw [if_neg h1]
      congr 1
      unfold rowStep nRows
      push_cast
      rw [← mul_div_assoc]
      congr 1
      ring
  refine ⟨hnY, hcells, hpy, hpx, hny, hnx, by rw [hZ, hnY], hdx, by rw [hdZ, hdY], hx, hy, ?_, ?_, ?_⟩
  · intro c hcc
    rw [hzA, hZ, hnY, hdZ, hdY]
    exact linspace_getD _ hNS _ _ hcc
  · rw [hx, trim_middle_steps (nCols cfg) (by unfold nCols; omega) _ _ _ hxs]
    rfl
  · rw [hy, trim_middle_steps (nRows cfg) (by unfold nRows; omega) _ _ _ hys]
    rfl

/-! ## The point spread function -/

theorem conv_scatter (n m kn km : ℕ) (a k : ℕ → ℕ → ℝ) (y : Fin n) (x : Fin m) :
    convSame2 (fun (y : Fin n) (x : Fin m) => a y x) (fun (j : Fin kn) (i : Fin km) => k j i) y x =
      scatter n m kn km a k y x := by
  rw [convSame2_eq_spread]
  unfold spread scatter
  simp only [Finset.sum_range]
  refine Finset.sum_congr rfl fun y' _ => Finset.sum_congr rfl fun x' _ => Finset.sum_congr rfl fun j _ =>
    Finset.sum_congr rfl fun i _ => if_congr ?_ rfl rfl
  omega

theorem stamp_seeing (p : PSF) (hf : 0 < p.fwhm) (hd : p.kind = .gaussian → p.dither = none)
    (hb : p.kind = .moffat → 1 < p.beta) :
    ∃ c, c ≠ 0 ∧ ∀ (xs ys : List ℝ), p.stamp xs ys =
      fun (j : Fin ys.length) (i : Fin xs.length) => c * seeing p (xs.getD i 0) (ys.getD j 0) := by
  have hget : ∀ (l : List ℝ) (i : Fin l.length), l.get i = l.getD i 0 := by
    intro l i
    rw [List.getD_eq_getElem?_getD, List.getElem?_eq_getElem i.isLt]
    rfl
  cases hk : p.kind with
  | gaussian =>
    refine ⟨1, one_ne_zero, fun xs ys => ?_⟩
    funext j i
    have hl : 0 < Real.log 2 := Real.log_pos (by norm_num)
    unfold PSF.stamp PSF.stampAt seeing
    simp only [hk, hd hk, withDither, gaussStampAt, hget, one_mul]
    congr 1
    have h1 : Real.sqrt (2 * Real.log 2) ^ 2 = 2 * Real.log 2 := Real.sq_sqrt (by positivity)
    have h2 : Real.sqrt (2 * Real.log 2) ≠ 0 := (Real.sqrt_pos.2 (by positivity)).ne'
    rw [div_pow, mul_pow, h1]
    field_simp
    ring
  | moffat =>
    have hbeta := hb hk
    have hb0 : 0 < p.beta := by linarith
    have hq : 0 < (2 : ℝ) ^ (1 / p.beta) - 1 := by
      have := Real.one_lt_rpow (x := 2) (by norm_num) (one_div_pos.2 hb0)
      linarith
    have h1 : Real.sqrt ((2 : ℝ) ^ (1 / p.beta) - 1) ^ 2 = (2 : ℝ) ^ (1 / p.beta) - 1 := Real.sq_sqrt hq.le
    have h2 : Real.sqrt ((2 : ℝ) ^ (1 / p.beta) - 1) ≠ 0 := (Real.sqrt_pos.2 hq).ne'
    refine ⟨(p.beta - 1) / (Real.pi * (p.fwhm / (2 * Real.sqrt ((2 : ℝ) ^ (1 / p.beta) - 1))) ^ 2), ?_, fun xs ys => ?_⟩
    · have h3 : p.beta - 1 ≠ 0 := by linarith
      have h4 := hf.ne'
      have h5 := Real.pi_ne_zero
      positivity
    · funext j i
      unfold PSF.stamp PSF.stampAt seeing
      simp only [hk, withDither, moffatStampAt, hget]
      congr 2
      rw [div_pow, mul_pow, h1]
      field_simp
      ring

/-- the cube after the PSF -/
theorem psf_blur (cfg : AperCfg) (hc : Luminous cfg) (m0 : ℝ) (W : ℕ) (hW : 0 < W) (A : ℕ → ℕ → ℕ → ℝ)
    (hker : 0 < cfg.psf.fwhm → kernelX cfg ≠ [] ∧ kernelY cfg m0 ≠ [])
    (hA : ∀ w < W, ∀ y < nRows cfg, ∀ x < nCols cfg, 0 < A w y x) :
    psfConvolve (fun (w : Fin W) (y : Fin (nRows cfg)) (x : Fin (nCols cfg)) => A w y x) cfg.psf.fwhm
        (cfg.psf.stamp (kernelX cfg) (kernelY cfg m0)) =
      (fun w y x => .fin (blurred cfg m0 W A w y x)) ∧
    ∀ w < W, ∀ y < nRows cfg, ∀ x < nCols cfg, 0 < blurred cfg m0 W A w y x := by
  have hpos : ∀ (w : Fin W) (y : Fin (nRows cfg)) (x : Fin (nCols cfg)), 0 < A w y x :=
    fun w y x => hA w w.isLt y y.isLt x x.isLt
  have heq : psfConvolve (fun (w : Fin W) (y : Fin (nRows cfg)) (x : Fin (nCols cfg)) => A w y x) cfg.psf.fwhm
        (cfg.psf.stamp (kernelX cfg) (kernelY cfg m0)) =
      (fun w y x => .fin (blurred cfg m0 W A w y x)) := by
    unfold psfConvolve blurred
    by_cases hf : 0 < cfg.psf.fwhm
    · obtain ⟨c, hc0, hst⟩ := stamp_seeing cfg.psf hf hc.dither hc.beta
      obtain ⟨hkx, hky⟩ := hker hf
      set k : ℕ → ℕ → ℝ := fun j i => seeing cfg.psf ((kernelX cfg).getD i 0) ((kernelY cfg m0).getD j 0) with hk
      set B : ℕ → ℕ → ℕ → ℝ := fun w => scatter (nRows cfg) (nCols cfg) (kernelY cfg m0).length (kernelX cfg).length
        (A w) k with hB
      have hconv : ∀ (w : Fin W) (y : Fin (nRows cfg)) (x : Fin (nCols cfg)),
          convSame2 (fun (y : Fin (nRows cfg)) (x : Fin (nCols cfg)) => A w y x)
            (cfg.psf.stamp (kernelX cfg) (kernelY cfg m0)) y x = c * B w y x := by
        intro w y x
        rw [hst, convSame2_stamp_mul (fun (y : Fin (nRows cfg)) (x : Fin (nCols cfg)) => A w y x)
          (fun (j : Fin (kernelY cfg m0).length) (i : Fin (kernelX cfg).length) => k j i) c y x,
          conv_scatter (nRows cfg) (nCols cfg) _ _ (A w) k y x]
      have hcB : ∀ (w : Fin W) (y : Fin (nRows cfg)) (x : Fin (nCols cfg)), 0 < c * B w y x := by
        intro w y x
        rw [← hconv]
        have h1 := convSame2_ge (fun (y : Fin (nRows cfg)) (x : Fin (nCols cfg)) => A w y x)
          (cfg.psf.stamp (kernelX cfg) (kernelY cfg m0)) (fun y x => (hpos w y x).le)
          (fun j i => (stamp_pos cfg.psf hf hc.dither hc.beta _ _ j i).le)
          (List.length_pos_iff.2 hky) (List.length_pos_iff.2 hkx) y x
        exact (mul_pos (hpos w y x) (stamp_pos cfg.psf hf hc.dither hc.beta _ _ _ _)).trans_le h1
      have htot : 0 < c * total3 W (nRows cfg) (nCols cfg) B := by
        unfold total3
        simp only [Finset.sum_range, Finset.mul_sum]
        have hr : 0 < nRows cfg := by
          have := Nat.mul_pos hc.rows hc.sub
          unfold nRows; omega
        have hcol : 0 < nCols cfg := by
          have := slitCells_pos cfg hc.sub hc.pix hc.slit
          unfold nCols; omega
        haveI : Nonempty (Fin W) := ⟨⟨0, hW⟩⟩
        haveI : Nonempty (Fin (nRows cfg)) := ⟨⟨0, hr⟩⟩
        haveI : Nonempty (Fin (nCols cfg)) := ⟨⟨0, hcol⟩⟩
        exact Finset.sum_pos (fun w _ => Finset.sum_pos (fun y _ => Finset.sum_pos (fun x _ => hcB w y x)
          Finset.univ_nonempty) Finset.univ_nonempty) Finset.univ_nonempty
      have hB0 : total3 W (nRows cfg) (nCols cfg) B ≠ 0 := fun h => by rw [h, mul_zero] at htot; exact lt_irrefl _ htot
      simp only [if_pos hf]
      funext w y x
      simp only [hconv]
      have e1 : ∑ w : Fin W, ∑ y : Fin (nRows cfg), ∑ x : Fin (nCols cfg), c * B w y x =
          c * total3 W (nRows cfg) (nCols cfg) B := by
        unfold total3
        simp only [Finset.sum_range, Finset.mul_sum]
      have e2 : ∑ w : Fin W, ∑ y : Fin (nRows cfg), ∑ x : Fin (nCols cfg), A w y x =
          total3 W (nRows cfg) (nCols cfg) A := by
        unfold total3
        simp only [Finset.sum_range]
      rw [e1, e2, Fl.fin_div_ne _ _ htot.ne', Fl.fin_mul]
      congr 1
      field_simp
    · simp only [if_neg hf]
  refine ⟨heq, fun w hw y hy x hx => ?_⟩
  obtain ⟨D, hD, hconv⟩ := psfConvolve_pos (fun (w : Fin W) (y : Fin (nRows cfg)) (x : Fin (nCols cfg)) => A w y x)
    cfg.psf.fwhm (cfg.psf.stamp (kernelX cfg) (kernelY cfg m0)) hpos fun h =>
      ⟨List.length_pos_iff.2 (hker h).2, List.length_pos_iff.2 (hker h).1, fun j i =>
        stamp_pos cfg.psf h hc.dither hc.beta _ _ j i⟩
  rw [heq] at hconv
  have := congrFun (congrFun (congrFun hconv ⟨w, hw⟩) ⟨y, hy⟩) ⟨x, hx⟩
  rw [Fl.fin.injEq] at this
  rw [this]
  exact hD _ _ _

/-! ## The spectrograph -/

theorem inst_dispersed (W N : ℕ) (hW : 0 < W) (hN : 0 < N) (w0 step d : ℝ) (wave : Fin W → ℝ) (lam : ℕ → ℝ)
    (hw : ∀ i, wave i = lam i) (hl : ∀ i : ℕ, lam i = w0 + i * step) (A : ℕ → ℕ → ℝ)
    (hA : ∀ w < W, ∀ i < N, 0 < A w i) :
    instStage (fun (w : Fin W) (i : Fin N) => A w i) wave d =
      .ok (some fun (w : Fin W) (i : Fin N) => dispersed W N lam d A w i) := by
  unfold instStage dispersed
  by_cases hd : 0 < d
  · simp only [if_pos hd]
    have hw' : ∀ i : Fin W, wave i = w0 + i.val * step := fun i => by rw [hw, hl]
    have hpos : ∀ (w : Fin W) (i : Fin N), 0 < A w i := fun w i => hA w w.isLt i i.isLt
    haveI : Nonempty (Fin W) := ⟨⟨0, hW⟩⟩
    haveI : Nonempty (Fin N) := ⟨⟨0, hN⟩⟩
    have htot : 0 < ∑ w : Fin W, ∑ i : Fin N, A w i := Finset.sum_pos (fun w _ => Finset.sum_pos (fun i _ => hpos w i)
      Finset.univ_nonempty) Finset.univ_nonempty
    obtain ⟨hne, -⟩ := C34_nonneg (fun (w : Fin W) (i : Fin N) => A w i) w0 step d wave hw' hd
      (fun w i => (hpos w i).le) htot
    obtain ⟨out, fac, h1, h2, h3⟩ := C34_conserves (fun (w : Fin W) (i : Fin N) => A w i) wave d hne
    set B : ℕ → ℕ → ℝ := fun w i => ∑ w' ∈ Finset.range W, if w ≤ w' + (W - 1) / 2 ∧ w' ≤ w + (W - 1) / 2 then
      A w' i * Real.exp (-(lam w - lam w') ^ 2 / (2 * d ^ 2)) else 0 with hB
    have hrow : ∀ (w : Fin W) (i : Fin N), rowConv (fun (w : Fin W) (i : Fin N) => A w i) wave d w i = B w i := by
      intro w i
      rw [C34_uniform _ w0 step d wave hw' hd hW, hB]
      simp only [Finset.sum_range]
      refine Finset.sum_congr rfl fun w' _ => ?_
      have hiff : (2 * |(w.val : ℤ) - (w'.val : ℤ)| < (oddLen W : ℤ)) ↔
          (w.val ≤ w'.val + (W - 1) / 2 ∧ w'.val ≤ w.val + (W - 1) / 2) := by
        rw [show (2 : ℤ) * |(w.val : ℤ) - w'.val| = |2 * ((w.val : ℤ) - w'.val)| by rw [abs_mul]; rfl, abs_lt]
        have := w.isLt
        have := w'.isLt
        unfold oddLen
        split <;> omega
      refine if_congr hiff ?_ rfl
      congr 3
      rw [hl, hl]
      ring
    have hsum : ∑ w : Fin W, ∑ i : Fin N, rowConv (fun (w : Fin W) (i : Fin N) => A w i) wave d w i =
        ∑ w ∈ Finset.range W, ∑ i ∈ Finset.range N, B w i := by
      simp only [hrow]
      simp only [Finset.sum_range]
    have hfac : fac = (∑ w ∈ Finset.range W, ∑ i ∈ Finset.range N, A w i) /
        ∑ w ∈ Finset.range W, ∑ i ∈ Finset.range N, B w i := by
      rw [eq_div_iff (by rw [← hsum]; exact hne), ← hsum]
      simp only [Finset.sum_range]
      rw [← h3]
      simp only [h2, Finset.mul_sum]
    simp only [h1]
    rw [allFinite2_fin]
    congr 2
    funext w i
    rw [h2, hrow, hfac]
  · simp only [if_neg hd]

/-! ## The cube -/

/-- light of the column of cells in row `b` and column `a` of the padded grid when its velocity is raised by `dv` -/
noncomputable def gridLightAt (cfg : AperCfg) (va rt sig m0 z dv lam : ℝ) (b a : ℕ) : ℝ :=
  ∑ c ∈ Finset.range (cfg.nWhole * cfg.nSubpixels),
    cellLightAt cfg va rt sig z dv (gridX cfg a) (gridY cfg m0 b)
      (skyZ (cfg.nWhole * cfg.nSubpixels) (cfg.pixscale / cfg.nSubpixels) c) lam *
      (cfg.pixscale / cfg.nSubpixels)

theorem gridLightAt_zero (cfg : AperCfg) (va rt sig m0 z lam : ℝ) (b a : ℕ) :
    gridLightAt cfg va rt sig m0 z 0 lam b a = gridLight cfg va rt sig m0 z lam b a := by
  unfold gridLightAt gridLight
  simp only [cellLightAt_zero]

theorem blur_cube (cfg : AperCfg) (hc : Luminous cfg) (hF : 0 ≤ cfg.psf.fwhm) (hsp : cfg.specType = .wave)
    (hi0 : 0 ≤ cfg.sini) (hi1 : cfg.sini ≤ 1) (t0 t1 t2 m z : ℝ) (hz : 0 < 1 + z) (f : AperFixed)
    (hf : setupCalcs cfg [t0, t1, t2, m, z] = .ok f) (kin : KinProfile) (va rt sig : ℝ)
    (hv : ∃ n, kin.vel = some ⟨[va, rt], n⟩) (hrt : rt ≠ 0) (hs : 0 < sig) :
    ∃ V, velCube cfg f kin = some V ∧ ∀ (wave : List ℝ) (δ : ℕ → ℝ),
      addSigmaCollapseZ f.I (fun c b a => V c b a + δ b) (fun _ _ _ => sig) wave.get f.z cfg.restwave
        cfg.ratios f.grid.deltZ cfg.specType =
      .ok fun w b a => .fin (gridLightAt cfg va rt sig (cfg.m0 + m) z (δ b) (wave.get w) b.val a.val) := by
  obtain ⟨hne, hlen, hrest⟩ : cfg.restwave ≠ [] ∧ cfg.restwave.length ≤ cfg.ratios.length ∧
      ∀ r ∈ cfg.restwave, 0 < r := by
    rcases hc.axis with h | ⟨-, h1, h2, h3, -⟩
    · rw [hsp] at h; cases h
    · exact ⟨h1, h2, h3⟩
  obtain ⟨z', m', hz', hm', hfz, hg, hx, hy, hI⟩ := setupCalcs_inv _ _ _ hf
  cases hz'
  cases hm'
  obtain ⟨hpY, hpX, -, -, hnY, hnX, hnZ, -, hdZ, hxA, hyA, hzA, -, -⟩ := blur_grid cfg hc hF _ _ hg
  have hNS := Nat.mul_pos hc.rows hc.sub
  have hcol := slitCells_pos cfg hc.sub hc.pix hc.slit
  set P : ℕ → ℕ → ℕ → ℝ × ℝ × ℝ := fun c b a => discPoint cfg.sini cfg.deltPA (gridX cfg a)
    (gridY cfg (cfg.m0 + m) b) (skyZ (cfg.nWhole * cfg.nSubpixels) (cfg.pixscale / cfg.nSubpixels) c) with hP
  have htr : ∀ (c : Fin f.grid.nZ) (b : Fin f.grid.nY) (a : Fin f.grid.nX),
      transformInt3d (f.grid.xArr.getD a 0) (f.grid.yArr.getD b 0)
        (f.grid.zArr.getD c 0) cfg.deltPA (Real.arcsin cfg.sini) = P c b a := by
    intro c b a
    rw [hxA, hyA, getD_range_map _ _ _ (a.isLt.trans_eq hnX), getD_range_map _ _ _ (b.isLt.trans_eq hnY),
      hzA c (c.isLt.trans_eq hnZ), discPoint_eq _ _ _ _ _ hi0 hi1]
  have hvel : velCube cfg f kin = some fun (c : Fin f.grid.nZ) (b : Fin f.grid.nY) (a : Fin f.grid.nX) =>
        discVelocity va rt cfg.sini (P c b a).1 (P c b a).2.1 := by
    obtain ⟨n, hv⟩ := hv
    unfold velCube
    simp only [hv, hx, hy, htr, discVelocity_eq _ _ _ _ _ hrt]
    exact allFinite_fin fun (c : Fin f.grid.nZ) (b : Fin f.grid.nY) (a : Fin f.grid.nX) =>
      discVelocity va rt cfg.sini (P c b a).1 (P c b a).2.1
  refine ⟨_, hvel, fun wave δ => ?_⟩
  have hcast : ∀ F : ℕ → ℝ, ∑ c : Fin (cfg.nWhole * cfg.nSubpixels), F c = ∑ c : Fin f.grid.nZ, F c := by
    intro F
    rw [hnZ]
  rw [hsp, addSigma_broad _ _ _ _ _ _ _ _ hlen (by rw [hnZ]; exact hNS) (by rw [hnY]; unfold nRows; omega)
    (by rw [hnX]; unfold nCols; omega) (fun _ _ _ => hs.ne') (by rw [hfz]; exact hz.ne')
    (fun r hr => (hrest r hr).ne')]
  congr 1
  funext w b a
  congr 1
  unfold lineDensity gridLightAt
  rw [hfz]
  simp only
  rw [Finset.sum_range]
  rw [hcast fun c => cellLightAt cfg va rt sig z (δ b) (gridX cfg a) (gridY cfg (cfg.m0 + m) b)
    (skyZ (cfg.nWhole * cfg.nSubpixels) (cfg.pixscale / cfg.nSubpixels) c) (wave.get w) *
    (cfg.pixscale / cfg.nSubpixels)]
  have hcell : ∀ c : Fin f.grid.nZ, cellLightAt cfg va rt sig z (δ b) (gridX cfg a) (gridY cfg (cfg.m0 + m) b)
      (skyZ (cfg.nWhole * cfg.nSubpixels) (cfg.pixscale / cfg.nSubpixels) c) (wave.get w) *
      (cfg.pixscale / cfg.nSubpixels) = ((cfg.restwave.zip cfg.ratios).map fun p => f.I c b a *
        gaussDensity (p.1 * (1 + z) * (1 + (discVelocity va rt cfg.sini (P c b a).1 (P c b a).2.1 + δ b) / cKms))
        (sig / cKms * (p.1 * (1 + z))) (wave.get w) * f.grid.deltZ * p.2).sum := by
    intro c
    unfold cellLightAt
    simp only
    rw [lineSpectrum_eq _ _ _ _ _ hz hs (fun p hp => hrest _ (List.of_mem_zip hp).1), hI, hx, hy, htr]
    rw [hdZ, mul_assoc, ← List.sum_map_mul_right, ← List.sum_map_mul_left]
    congr 1
    refine List.map_congr_left fun p _ => ?_
    simp only [hP]
    ring
  rw [Finset.sum_congr rfl fun c _ => hcell c, finset_sum_list_sum]
  congr 1
  refine List.map_congr_left fun p _ => ?_
  rw [Finset.sum_mul, Finset.sum_mul]

/-! ## The stages after the cube -/

theorem psf_blur_at (cfg : AperCfg) (hc : Luminous cfg) (m0 : ℝ) (W : ℕ) (hW : 0 < W) (A : ℕ → ℕ → ℕ → ℝ)
    (hker : 0 < cfg.psf.fwhm → kernelX cfg ≠ [] ∧ kernelY cfg m0 ≠ [])
    (hA : ∀ w < W, ∀ y < nRows cfg, ∀ x < nCols cfg, 0 < A w y x) (n m : ℕ) (hn : n = nRows cfg) (hm : m = nCols cfg)
    (xs ys : List ℝ) (hx : xs = kernelX cfg) (hy : ys = kernelY cfg m0) :
    psfConvolve (fun (w : Fin W) (y : Fin n) (x : Fin m) => A w y x) cfg.psf.fwhm (cfg.psf.stamp xs ys) =
      (fun w y x => .fin (blurred cfg m0 W A w y x)) := by
  subst hn hm hx hy
  exact (psf_blur cfg hc m0 W hW A hker hA).1

theorem throughSlit_pos (cfg : AperCfg) (hc : Luminous cfg) (A : ℕ → ℕ → ℝ)
    (hA : ∀ y < nRows cfg, ∀ x < nCols cfg, 0 < A y x) (i : ℕ) (hi : i < cfg.nWhole) : 0 < throughSlit cfg A i := by
  have hcell := slitCells_pos cfg hc.sub hc.pix hc.slit
  have hd : 0 < cfg.slit / slitCells cfg := div_pos hc.slit (by exact_mod_cast hcell)
  unfold throughSlit
  refine Finset.sum_pos (fun t ht => Finset.sum_pos (fun a ha => mul_pos (hA _ ?_ _ ?_) hd) ?_) ?_
  · have ht := Finset.mem_range.1 ht
    have : i * cfg.nSubpixels + t < cfg.nWhole * cfg.nSubpixels := by
      calc i * cfg.nSubpixels + t < i * cfg.nSubpixels + cfg.nSubpixels := by omega
        _ = (i + 1) * cfg.nSubpixels := by ring
        _ ≤ cfg.nWhole * cfg.nSubpixels := Nat.mul_le_mul_right _ hi
    unfold nRows
    omega
  · have ha := Finset.mem_range.1 ha
    unfold nCols
    omega
  · exact Finset.nonempty_range_iff.2 hcell.ne'
  · exact Finset.nonempty_range_iff.2 hc.sub.ne'

theorem evalTail_blur (cfg : AperCfg) (hc : Luminous cfg) (m0 : ℝ) (xs ys : List ℝ) (g : Grid ℝ) (disp : ℝ)
    (wave : List ℝ) (w0 step : ℝ) (lam : ℕ → ℝ) (hl : ∀ i : ℕ, lam i = w0 + i * step)
    (hw : ∀ i : Fin wave.length, wave.get i = lam i) (hW : 0 < wave.length)
    (hker : 0 < cfg.psf.fwhm → kernelX cfg ≠ [] ∧ kernelY cfg m0 ≠ [])
    (hpY : g.nPixY = cfg.nWhole * cfg.nSubpixels) (hpX : g.nPixX = slitCells cfg) (hqY : g.padY = padRows cfg)
    (hqX : g.padX = padCols cfg) (hnY : g.nY = nRows cfg) (hnX : g.nX = nCols cfg)
    (hdX : g.deltX = cfg.slit / slitCells cfg) (hxs : xs = kernelX cfg) (hys : ys = kernelY cfg m0)
    (A : ℕ → ℕ → ℕ → ℝ) (hA : ∀ w < wave.length, ∀ y < nRows cfg, ∀ x < nCols cfg, 0 < A w y x) :
    evalTail false true cfg.nWhole cfg.psf xs ys g disp wave (.ok fun w b a => .fin (A w b a)) =
      .ok (some ⟨wave.length, cfg.nWhole, fun w i => dispersed wave.length cfg.nWhole lam disp
        (fun w => throughSlit cfg (blurred cfg m0 wave.length A w)) w i⟩) := by
  set N := cfg.nWhole with hNdef
  set S := cfg.nSubpixels with hSdef
  have hY : g.nY = g.nPixY + 2 * g.padY := by rw [hnY, hpY, hqY]; rfl
  have hX : g.nX = g.nPixX + 2 * g.padX := by rw [hnX, hpX, hqX]; rfl
  unfold evalTail
  simp only [Bool.false_eq_true, if_false, if_true]
  rw [allFinite_fin fun (w : Fin wave.length) (j : Fin g.nY) (x : Fin g.nX) => A w j.val x.val]
  simp only
  rw [psf_blur_at cfg hc m0 wave.length hW A hker hA g.nY g.nX hnY hnX xs ys hxs hys,
    allFinite_fin fun (w : Fin wave.length) (j : Fin g.nY) (x : Fin g.nX) => blurred cfg m0 wave.length A w j x]
  simp only
  rw [dif_pos ⟨hY, hX⟩]
  have ht : (⟨wave.length, g.nPixY, trimSum (fun (w : Fin wave.length) (j : Fin g.nY) (x : Fin g.nX) =>
      blurred cfg m0 wave.length A w j x) g hY hX⟩ : Arr2) = ⟨wave.length, N * S, fun w b =>
        (∑ a : Fin g.nPixX, blurred cfg m0 wave.length A w (b.val + g.padY) (a.val + g.padX)) * g.deltX⟩ := by
    unfold trimSum
    simp only
    clear hY
    generalize g.nPixY = q at hpY
    subst hpY
    rfl
  rw [ht]
  have hr : rebinArr ⟨wave.length, N * S, fun w b =>
        (∑ a : Fin g.nPixX, blurred cfg m0 wave.length A w (b.val + g.padY) (a.val + g.padX)) * g.deltX⟩
        wave.length N =
      .ok ⟨wave.length, N, fun w i => throughSlit cfg (blurred cfg m0 wave.length A w) i⟩ := by
    unfold rebinArr
    simp only
    rw [rebin_rows wave.length N S hW hc.rows fun w b =>
      (∑ a : Fin g.nPixX, blurred cfg m0 wave.length A w (b + g.padY) (a.val + g.padX)) * g.deltX]
    simp only
    congr 2
    funext w i
    unfold throughSlit
    rw [Finset.sum_range]
    refine Finset.sum_congr rfl fun t _ => ?_
    rw [hdX, hpX, hqY, hqX, Finset.sum_range, Finset.sum_mul]
    refine Finset.sum_congr rfl fun a _ => ?_
    congr 2
    · show i.val * S + t.val + padRows cfg = padRows cfg + i.val * S + t.val
      omega
    · omega
  rw [hr]
  simp only [dite_true]
  have hi := inst_dispersed wave.length N hW hc.rows w0 step disp (fun i => wave.get i) lam hw hl
    (fun w => throughSlit cfg (blurred cfg m0 wave.length A w)) fun w hw i hi => throughSlit_pos cfg hc _
      ((psf_blur cfg hc m0 wave.length hW A hker hA).2 w hw) i hi
  have hcast : (fun i : Fin wave.length => wave.get (Fin.cast rfl i)) = fun i => wave.get i := rfl
  simp only [hcast, hi]

theorem rebin_cols (p f q : ℕ) (hp : 0 < p) (hf : 0 < f) (hq : 0 < q) (A : ℕ → ℕ → ℝ) :
    rebin (fun (w : Fin (p * f)) (i : Fin q) => A w i) p q =
      .ok fun j i => ∑ k ∈ Finset.range f, A (j.val * f + k) i := by
  have h0 : p * f / p = f := Nat.mul_div_cancel_left _ hp
  have h1 : q / q = 1 := Nat.div_self hq
  unfold rebin
  rw [if_neg (by omega)]
  simp only
  rw [if_pos (by rw [h0, h1]; ring)]
  congr 1
  funext j i
  have key : ∀ g0 g1 : ℕ, g0 = f → g1 = 1 → (∑ s : Fin g0, ∑ t : Fin g1,
      flatAt (fun (w : Fin (p * f)) (i : Fin q) => A w i) (((j.val * g0 + s.val) * q + i.val) * g1 + t.val)) =
      ∑ k ∈ Finset.range f, A (j.val * f + k) i := by
    rintro g0 g1 rfl rfl
    rw [Finset.sum_range]
    refine Finset.sum_congr rfl fun s _ => ?_
    rw [Fin.sum_univ_one]
    unfold flatAt
    have hs := s.isLt
    have hi := i.isLt
    have hlt : j.val * g0 + s.val < p * g0 := by
      calc j.val * g0 + s.val < j.val * g0 + g0 := by omega
        _ = (j.val + 1) * g0 := by ring
        _ ≤ p * g0 := Nat.mul_le_mul_right _ j.isLt
    have e : ((j.val * g0 + s.val) * q + i.val) * 1 + (0 : Fin 1).val = i.val + q * (j.val * g0 + s.val) := by
      simp only [Fin.val_zero]
      ring
    have e1 : (((j.val * g0 + s.val) * q + i.val) * 1 + (0 : Fin 1).val) / q = j.val * g0 + s.val := by
      rw [e, Nat.add_mul_div_left _ _ hq, Nat.div_eq_of_lt hi, zero_add]
    have e2 : (((j.val * g0 + s.val) * q + i.val) * 1 + (0 : Fin 1).val) % q = i.val := by
      rw [e, Nat.add_mul_mod_self_left, Nat.mod_eq_of_lt hi]
    rw [dif_pos ⟨by rw [e1]; exact hlt, by rw [e2]; exact hi⟩]
    simp only [e1, e2]
  exact key _ _ h0 h1

/-! ## The whole evaluation -/

theorem blur_fixed (cfg : AperCfg) (hc : Luminous cfg) (hF : 0 ≤ cfg.psf.fwhm) (hst : ¬ cfg.psf.StampFails)
    (hsp : cfg.specType = .wave) (r0 : ℝ) (hr0 : cfg.restwave.head? = some r0) (va rt sig m z : ℝ) :
    ∃ f, setupCalcs cfg [va, rt, sig, m, z] = .ok f ∧ f.lam0 = r0 * (1 + z) ∧ f.waveReal = cfg.wave ∧
      f.deltReal = avgDiff cfg.wave ∧ f.floorValue = floorValueOf cfg (avgDiff cfg.wave) (r0 * (1 + z)) ∧
      f.upsampleValue = if cfg.adaptive then pixelDispersion .wave (avgDiff cfg.wave) (r0 * (1 + z)) else none := by
  have hphys : GridIn.Phys (⟨cfg.nWhole, cfg.nSubpixels, cfg.pixscale, cfg.slit, cfg.psf.fwhm,
      cfg.padFactor, cfg.xc, cfg.m0 + m⟩ : GridIn ℝ) :=
    ⟨hc.rows, hc.sub, hc.pix, hc.slit, mul_nonneg hF hc.pad⟩
  obtain ⟨G, hG, -⟩ := setupGrid_ok _ hphys
  obtain ⟨rs, hr⟩ : ∃ rs, cfg.restwave = r0 :: rs := by
    cases h : cfg.restwave with
    | nil => rw [h] at hr0; cases hr0
    | cons r rs => rw [h] at hr0; cases hr0; exact ⟨rs, rfl⟩
  have e1 : fromEnd [va, rt, sig, m, z] 1 = .ok z := rfl
  have e2 : fromEnd [va, rt, sig, m, z] 2 = .ok m := rfl
  rw [setupCalcs_arrays hst]
  unfold setupArrays
  simp only [e1, e2, bind, Except.bind, hG, hsp, hr, List.getElem?_cons_zero]
  exact ⟨_, rfl, rfl, rfl, rfl, rfl, rfl⟩

theorem floor_exact (cfg : AperCfg) (s : AperState) (sig v : ℝ) (hd : s.kin.disp = some ⟨[sig], 1⟩)
    (hs : 0 < sig) (hf : cfg.sigmaFloor = true → s.fixed.floorValue = some v) :
    (applySigmaFloor cfg s).2 = .ok (if cfg.sigmaFloor then max sig v else sig) ∧
      (applySigmaFloor cfg s).1.kin.vel = s.kin.vel := by
  unfold applySigmaFloor
  rw [hd]
  have hab : (if cfg.absvalsigma = true then ({ theta := List.map (fun a => |a|) [sig], nParams := 1 } : Profile) else
      ⟨[sig], 1⟩) = ⟨[sig], 1⟩ := by
    split
    · simp [abs_of_pos hs]
    · rfl
  simp only [hab, List.getElem?_cons_zero]
  by_cases hfl : cfg.sigmaFloor = true
  · rw [hf hfl]
    simp only [if_pos hfl, abs_of_pos hs]
    by_cases hlt : sig < v
    · simp only [if_pos hlt, max_eq_right hlt.le]
      constructor <;> first | rfl | trivial
    · simp only [if_neg hlt, max_eq_left (not_lt.1 hlt)]
      constructor <;> first | rfl | trivial
  · simp only [if_neg hfl]
    constructor <;> first | rfl | trivial

theorem fineWave_one (w0 step : ℝ) (i : ℕ) : fineWave w0 step 1 i = w0 + i * step := by
  unfold fineWave
  simp

/-- the wavelengths of an evaluation -/
theorem sampled_fine (cfg : AperCfg) (hc : Luminous cfg) (w0 step : ℝ) (N : ℕ) (hN : 2 ≤ N) (hst : 0 < step)
    (hwave : cfg.wave = uniformGrid w0 step N) (lam0 : ℝ) (s : AperState) (sig : ℝ) (hs : 0 < sig)
    (hd : s.kin.disp = some ⟨[sig], 1⟩) (hw : s.wave = cfg.wave) (hdr : s.fixed.deltReal = step)
    (hu : s.fixed.upsampleValue = if cfg.adaptive then pixelDispersion .wave step lam0 else none) :
    (sampled cfg s).2 = .ok () ∧ (sampled cfg s).1.kin = s.kin ∧ (sampled cfg s).1.fixed = s.fixed ∧
      (sampled cfg s).1.wave.length = N * samples cfg step lam0 sig ∧ 0 < samples cfg step lam0 sig ∧
      (cfg.adaptive = false → samples cfg step lam0 sig = 1) ∧
      ∀ i : Fin (sampled cfg s).1.wave.length, (sampled cfg s).1.wave.get i =
        fineWave w0 step (samples cfg step lam0 sig) i := by
  have hlen : cfg.wave.length = N := by rw [hwave]; simp [uniformGrid]
  have hbase : ∀ i : Fin s.wave.length, s.wave.get i = fineWave w0 step 1 i := by
    rw [hw, hwave]
    intro i
    rw [fineWave_one, List.get_eq_getElem]
    simp only [uniformGrid, List.getElem_map, List.getElem_range]
  unfold sampled samples
  by_cases ha : cfg.adaptive = true
  · rw [if_pos ha]
    rw [if_pos ha] at hu
    obtain ⟨hnp, n, hn, hfac⟩ := hc.adapt ha
    have hpw : pixelSpread step lam0 = step / lam0 * cKms / 2.35 := by unfold pixelSpread; rw [lightSpeed_eq]
    by_cases hlt : sig < pixelSpread step lam0
    · have hn0 : (0 : ℝ) < n := by exact_mod_cast hn
      have h := checkUpsample_uniform cfg s ⟨[sig], 1⟩ sig _ w0 step N hN hst (by rw [hfac]; exact hn0) hnp hd rfl
        hu (by rw [abs_of_pos hs, ← hpw]; exact hlt) (by rw [hw]; exact hwave) hdr
      rw [h, if_pos ⟨ha, hlt⟩]
      have hfl : ⌊cfg.factor⌋₊ = n := by rw [hfac]; exact Nat.floor_natCast n
      rw [hfl]
      have hnum : (npRound ((N : ℝ) * cfg.factor)).toNat = N * n := by
        rw [hfac, ← Nat.cast_mul, npRound_nat, Int.toNat_natCast]
      refine ⟨rfl, rfl, rfl, ?_, hn, (fun h => by rw [ha] at h; cases h), ?_⟩
      · simp only [hnum, linspace_length]
      · simp only
        rw [hnum]
        have h1 : N * n ≠ 1 := by
          have : 2 ≤ N * n := by nlinarith
          omega
        intro i
        have hi : i.val < N * n := i.isLt.trans_eq (by rw [linspace_length])
        have h2 := linspace_get (w0 - 1 / 2 * (step - step / cfg.factor))
          (w0 + ((N : ℝ) - 1) * step + 1 / 2 * (step - step / cfg.factor)) (N * n) i.val hi
        rw [if_neg h1, List.getElem?_eq_getElem i.isLt] at h2
        rw [List.get_eq_getElem, Option.some.inj h2]
        unfold fineWave
        rw [← hfac]
        have h3 : ((N * n : ℕ) : ℝ) - 1 ≠ 0 := by
          rw [sub_ne_zero]
          exact_mod_cast h1
        have h4 : (w0 + ((N : ℝ) - 1) * step + 1 / 2 * (step - step / cfg.factor) -
            (w0 - 1 / 2 * (step - step / cfg.factor))) / (((N * n : ℕ) : ℝ) - 1) = step / cfg.factor := by
          rw [div_eq_iff h3, hfac]
          push_cast
          field_simp
          ring
        rw [h4]
        ring
    · have : checkUpsample cfg s = (s, .ok ()) := by
        unfold checkUpsample
        have : ¬ |sig| < step / lam0 * cKms / 2.35 := by rw [abs_of_pos hs, ← hpw]; exact hlt
        simp only [hd, hu, pixelDispersion, List.getElem?_cons_zero, if_neg this]
      rw [this, if_neg fun h => hlt h.2]
      exact ⟨rfl, rfl, rfl, by simp [hw, hlen], one_pos, fun _ => rfl, hbase⟩
  · rw [if_neg ha, if_neg fun h => ha h.1]
    exact ⟨rfl, rfl, rfl, by simp [hw, hlen], one_pos, fun _ => rfl, hbase⟩

theorem gridLight_pos (cfg : AperCfg) (hc : Luminous cfg) (hsp : cfg.specType = .wave) (va rt sig m0 z lam : ℝ)
    (hs : 0 < sig) (hz : 0 < 1 + z) (b a : ℕ) : 0 < gridLight cfg va rt sig m0 z lam b a := by
  obtain ⟨hne, hlen, hrest, hrat⟩ : cfg.restwave ≠ [] ∧ cfg.restwave.length ≤ cfg.ratios.length ∧
      (∀ r ∈ cfg.restwave, 0 < r) ∧ ∀ f ∈ cfg.ratios, 0 < f := by
    rcases hc.axis with h | ⟨-, h1, h2, h3, h4⟩
    · rw [hsp] at h; cases h
    · exact ⟨h1, h2, h3, h4⟩
  have hS : (0 : ℝ) < cfg.nSubpixels := by exact_mod_cast hc.sub
  have hp := hc.pix
  unfold gridLight
  refine Finset.sum_pos (fun c _ => mul_pos ?_ (div_pos hp hS))
    (Finset.nonempty_range_iff.2 (Nat.mul_pos hc.rows hc.sub).ne')
  unfold cellLight
  refine mul_pos (hc.int _ _) ?_
  rw [lineSpectrum_eq _ _ _ _ _ hz hs fun p hp => hrest _ (List.of_mem_zip hp).1]
  have hcK := cKms_pos
  obtain ⟨r, rs, hr⟩ := List.exists_cons_of_ne_nil hne
  obtain ⟨q, qs, hq⟩ : ∃ q qs, cfg.ratios = q :: qs := by
    cases h : cfg.ratios with
    | nil => rw [h, hr] at hlen; simp at hlen
    | cons q qs => exact ⟨q, qs, rfl⟩
  refine List.sum_pos _ ?_ (by rw [hr, hq]; simp)
  intro x hx
  obtain ⟨p, hp, rfl⟩ := List.mem_map.1 hx
  obtain ⟨hp1, hp2⟩ := List.of_mem_zip hp
  have := hrest _ hp1
  exact mul_pos (hrat _ hp2) (gaussDensity_pos _ _ _ (by positivity))

/-- the image of a new model, pixel by pixel -/
theorem C203_build (cfg : AperCfg) (hc : Luminous cfg) (hF : 0 ≤ cfg.psf.fwhm) (hst : ¬ cfg.psf.StampFails)
    (hfit : cfg.psf.fwhm = 0 ∨ KernelFits cfg) (hsp : cfg.specType = .wave) (hi0 : 0 ≤ cfg.sini) (hi1 : cfg.sini ≤ 1)
    (w0 step : ℝ) (N : ℕ) (hN : 2 ≤ N) (hstep : 0 < step) (hwave : cfg.wave = uniformGrid w0 step N)
    (r0 : ℝ) (hr0 : cfg.restwave.head? = some r0)
    (kin : KinProfile) (hk : kin.shape = (some 2, some 1)) (va rt sig m z : ℝ) (hrt : rt ≠ 0) (hs : 0 < sig)
    (hz : 0 < 1 + z) :
    ∃ s img, buildModel cfg kin [va, rt, sig, m, z] = .ok (s, .ok (some img)) ∧ img.n = cfg.nWhole ∧ img.m = N ∧
      ∀ i j, img.val i j = imageSpec cfg w0 step N r0 va rt sig (cfg.m0 + m) z i j := by
  obtain ⟨f, hf, hfl, hfw, hfd, hff, hfu⟩ := blur_fixed cfg hc hF hst hsp r0 hr0 va rt sig m z
  obtain ⟨f', hf', -, -, -, -, -, -, -, -, -, -, -, -, -, hker'⟩ := luminous_setup cfg hc hF hst va rt sig m z
  rw [hf] at hf'
  cases hf'
  have hlen : cfg.wave.length = N := by rw [hwave]; simp [uniformGrid]
  have hdelt : avgDiff cfg.wave = step := by rw [hwave]; exact avgDiff_uniform _ _ _ hN
  rw [hdelt] at hfd hff hfu
  obtain ⟨z', m', hz', hm', hfz, hg, -⟩ := setupCalcs_inv _ _ _ hf
  cases hz'
  cases hm'
  obtain ⟨_, hm', hg', hxT, hyT⟩ := setupCalcs_trim _ _ _ hf
  cases hm'
  obtain ⟨hpY, hpX, hqY, hqX, hnY, hnX, -, hdX, -, -, -, -, hkX, hkY⟩ := blur_grid cfg hc hF _ _ hg
  rw [← hxT] at hkX
  rw [← hyT] at hkY
  have hker : 0 < cfg.psf.fwhm → kernelX cfg ≠ [] ∧ kernelY cfg (cfg.m0 + m) ≠ [] := by
    intro hpos
    have hfit' : KernelFits cfg := hfit.resolve_left hpos.ne'
    have h := not_or.1 fun h => hker'.1 h hfit'
    rw [hkX, hkY] at h
    exact h
  set lam0 := r0 * (1 + z) with hlam0
  have hup : kin.updateTheta [va, rt, sig, m, z] = .ok (sharpKin va rt sig m z) := by
    rw [updateTheta_congr kin ⟨[], some ⟨[], 2⟩, some ⟨[], 1⟩⟩ (by rw [hk]; rfl)]
    rfl
  obtain ⟨h1, h2, h3, hWlen, hn, hn1, hwav⟩ := sampled_fine cfg hc w0 step N hN hstep hwave lam0
    ⟨f, sharpKin va rt sig m z, cfg.wave, avgDiff cfg.wave⟩ sig hs rfl rfl hfd hfu
  set n := samples cfg step lam0 sig with hndef
  set fv := if cfg.adaptive then 0.75 * pixelSpread (step / cfg.factor) lam0 else pixelSpread step lam0 with hfv
  obtain ⟨h4, h6⟩ := floor_exact cfg (sampled cfg ⟨f, sharpKin va rt sig m z, cfg.wave, avgDiff cfg.wave⟩).1 sig fv
    (by rw [h2]; rfl) hs (by
      intro hfloor
      rw [h3, hff]
      unfold floorValueOf
      rw [if_pos hfloor, hsp, hfv]
      unfold pixelDispersion pixelSpread
      rw [lightSpeed_eq]
      split <;> rfl)
  have hsgdef : (if cfg.sigmaFloor = true then max sig fv else sig) = flooredSigma cfg step lam0 sig := rfl
  rw [hsgdef] at h4
  set sg := flooredSigma cfg step lam0 sig with hsg
  have h5 : 0 < sg := by
    rw [hsg]
    unfold flooredSigma
    split
    · exact lt_of_lt_of_le hs (le_max_left _ _)
    · exact hs
  have hkeep := applySigmaFloor_keeps cfg (sampled cfg ⟨f, sharpKin va rt sig m z, cfg.wave, avgDiff cfg.wave⟩).1
  unfold buildModel
  rw [hf]
  simp only
  rw [doModelCalcs_eq]
  simp only [hup]
  unfold calcsAfter
  have hsam : (if cfg.adaptive = true then checkUpsample cfg ⟨f, sharpKin va rt sig m z, cfg.wave, avgDiff cfg.wave⟩
      else (⟨f, sharpKin va rt sig m z, cfg.wave, avgDiff cfg.wave⟩, .ok ())) =
      sampled cfg ⟨f, sharpKin va rt sig m z, cfg.wave, avgDiff cfg.wave⟩ := rfl
  simp only [hsam]
  generalize sampled cfg ⟨f, sharpKin va rt sig m z, cfg.wave, avgDiff cfg.wave⟩ = U at *
  simp only [h1, h4]
  have hfix : (applySigmaFloor cfg U.1).1.fixed = f := by rw [hkeep.1, h3]
  have hwv : (applySigmaFloor cfg U.1).1.wave = U.1.wave := hkeep.2.1
  obtain ⟨V, hV, hcube⟩ := blur_cube cfg hc hF hsp hi0 hi1 va rt sig m z hz f hf (applySigmaFloor cfg U.1).1.kin va rt sg
    ⟨2, by rw [h6, h2]; rfl⟩ hrt h5
  have hcube0 := hcube U.1.wave fun _ => 0
  simp only [add_zero, gridLightAt_zero] at hcube0
  have hNpos : 0 < N := by omega
  have hWpos : 0 < U.1.wave.length := by rw [hWlen]; exact Nat.mul_pos hNpos hn
  have hmiss : ¬ KernelMissing cfg f := by
    rintro ⟨hpos, h | h⟩
    · exact (hker hpos).1 (hkX ▸ h)
    · exact (hker hpos).2 (hkY ▸ h)
  have hdisp : instDisp cfg f = cfg.res / lightSpeed * lam0 := by
    unfold instDisp
    rw [hsp, hfl, lightSpeed_eq]
  have heval : evalImage cfg f (applySigmaFloor cfg U.1).1.kin U.1.wave sg = .ok (some ⟨U.1.wave.length, cfg.nWhole,
      fun w i => discImage cfg r0 va rt sg (cfg.m0 + m) z U.1.wave.length (fineWave w0 step n) w i⟩) := by
    rw [evalImage_stages hmiss, evalStages_eq_tail, hV]
    simp only
    rw [hcube0, hc.mask, hc.reb]
    have hget : (fun (w : Fin U.1.wave.length) (b : Fin f.grid.nY) (a : Fin f.grid.nX) =>
        Fl.fin (gridLight cfg va rt sg (cfg.m0 + m) z (U.1.wave.get w) b.val a.val)) =
        fun (w : Fin U.1.wave.length) (b : Fin f.grid.nY) (a : Fin f.grid.nX) =>
          Fl.fin ((fun w : ℕ => gridLight cfg va rt sg (cfg.m0 + m) z (fineWave w0 step n w)) w b a) := by
      funext w b a
      rw [hwav]
    rw [hget, evalTail_blur cfg hc (cfg.m0 + m) f.xTrim f.yTrim f.grid (instDisp cfg f) U.1.wave
      (w0 - (step - step / n) / 2) (step / n) (fineWave w0 step n) (fun _ => rfl) hwav hWpos hker hpY hpX hqY hqX hnY hnX
      hdX hkX hkY (fun w => gridLight cfg va rt sg (cfg.m0 + m) z (fineWave w0 step n w)) fun w _ y _ x _ => gridLight_pos cfg hc hsp va rt sg (cfg.m0 + m) z _ h5 hz y x, hdisp]
    rfl
  have he : evalImage cfg (applySigmaFloor cfg U.1).1.fixed (applySigmaFloor cfg U.1).1.kin
      (applySigmaFloor cfg U.1).1.wave sg = evalImage cfg f (applySigmaFloor cfg U.1).1.kin U.1.wave sg := by
    rw [hfix, hwv]
  rw [he, heval]
  simp only
  have hspec : ∀ (i j : ℕ), imageSpec cfg w0 step N r0 va rt sig (cfg.m0 + m) z i j =
      ∑ k ∈ Finset.range n, discImage cfg r0 va rt sg (cfg.m0 + m) z (N * n) (fineWave w0 step n) (j * n + k) i :=
    fun i j => rfl
  by_cases had : cfg.adaptive = true
  · simp only [if_pos had]
    have hreb : ∀ (W : ℕ) (D : ℕ → ℕ → ℝ), W = N * n → rebinArr ⟨W, cfg.nWhole, fun w i => D w i⟩ N cfg.nWhole =
        .ok ⟨N, cfg.nWhole, fun j i => ∑ k ∈ Finset.range n, D (j.val * n + k) i⟩ := by
      rintro W D rfl
      unfold rebinArr
      simp only
      rw [rebin_cols N n cfg.nWhole hNpos hn hc.rows]
    have hds : (downsample cfg (applySigmaFloor cfg U.1).1 (some ⟨U.1.wave.length, cfg.nWhole, fun w i =>
        discImage cfg r0 va rt sg (cfg.m0 + m) z U.1.wave.length (fineWave w0 step n) w i⟩)).2 =
        .ok (some ⟨N, cfg.nWhole, fun j i => ∑ k ∈ Finset.range n,
          discImage cfg r0 va rt sg (cfg.m0 + m) z U.1.wave.length (fineWave w0 step n) (j.val * n + k) i⟩) := by
      unfold downsample
      simp only [hfix, hfw, hlen]
      rw [hreb _ (discImage cfg r0 va rt sg (cfg.m0 + m) z U.1.wave.length (fineWave w0 step n)) hWlen]
    rw [hds]
    simp only [Except.map, Option.map, Arr2.T]
    refine ⟨_, _, rfl, rfl, rfl, fun i j => ?_⟩
    rw [hspec, ← hWlen]
  · simp only [if_neg had]
    have hn1' : n = 1 := hn1 (by simpa using had)
    simp only [Except.map, Option.map, Arr2.T]
    refine ⟨_, _, rfl, rfl, by show U.1.wave.length = N; rw [hWlen, hn1', mul_one], fun i j => ?_⟩
    rw [hspec, ← hWlen, hn1']
    simp

/-- **C203**: for a complete set-up on equally spaced wavelengths, every pixel of the image of a new model and of every
later evaluation has the value `imageSpec`: light of the disc on the padded grid, point spread function, slit, subpixels,
spectrograph, adaptive sampling and floor of the dispersion.  The row of the centre and the redshift are those of the
construction. -/
theorem C203_image (cfg : AperCfg) (hc : Luminous cfg) (hF : 0 ≤ cfg.psf.fwhm) (hst : ¬ cfg.psf.StampFails)
    (hfit : cfg.psf.fwhm = 0 ∨ KernelFits cfg) (hsp : cfg.specType = .wave) (hi0 : 0 ≤ cfg.sini) (hi1 : cfg.sini ≤ 1)
    (w0 step : ℝ) (N : ℕ) (hN : 2 ≤ N) (hstep : 0 < step) (hwave : cfg.wave = uniformGrid w0 step N)
    (r0 : ℝ) (hr0 : cfg.restwave.head? = some r0) (t v d : List ℝ) (va rt sig m z : ℝ) (hrt : rt ≠ 0) (hs : 0 < sig)
    (hz : 0 < 1 + z) :
    ∃ s img, buildModel cfg ⟨t, some ⟨v, 2⟩, some ⟨d, 1⟩⟩ [va, rt, sig, m, z] = .ok (s, .ok (some img)) ∧
      img.n = cfg.nWhole ∧ img.m = N ∧
      (∀ i j, img.val i j = imageSpec cfg w0 step N r0 va rt sig (cfg.m0 + m) z i j) ∧
      ∀ (hist : List (List ℝ)) (va' rt' sig' m' z' : ℝ), (cfg.adaptive = true → AllReturn cfg s hist) → rt' ≠ 0 →
        0 < sig' → ∃ img' : Arr2,
          (updateModel cfg (runUpdates cfg s hist) [va', rt', sig', m', z']).2 = .ok (some img') ∧
          img'.n = cfg.nWhole ∧ img'.m = N ∧
          ∀ i j, img'.val i j = imageSpec cfg w0 step N r0 va' rt' sig' (cfg.m0 + m) z i j := by
  have hall := fun (va rt sig : ℝ) (hrt : rt ≠ 0) (hs : 0 < sig) => C203_build cfg hc hF hst hfit hsp hi0 hi1 w0 step N hN
    hstep hwave r0 hr0 ⟨t, some ⟨v, 2⟩, some ⟨d, 1⟩⟩ rfl va rt sig m z hrt hs hz
  obtain ⟨s, img, h1, h2, h3, h4⟩ := hall va rt sig hrt hs
  refine ⟨s, img, h1, h2, h3, h4, fun hist va' rt' sig' m' z' hret hrt' hs' => ?_⟩
  obtain ⟨s', h⟩ := C37_exact cfg t v d va rt sig m z va' rt' sig' m' z' hist s _ h1 fun ha => ⟨⟨_, rfl⟩, hret ha⟩
  obtain ⟨s'', img', h5, h6⟩ := hall va' rt' sig' hrt' hs'
  rw [h] at h5
  simp only [Except.ok.injEq, Prod.mk.injEq] at h5
  exact ⟨img', h5.2, h6⟩

/-- the hypotheses are met by a set-up with seeing, the default subsampling, instrumental broadening, adaptive sampling and
floor -/
example : ∃ s img, buildModel (smallSlit ⟨.moffat, 1, 5 / 2, none⟩) ⟨[], some ⟨[], 2⟩, some ⟨[], 1⟩⟩ [1, 1, 1, 0, 0] =
    .ok (s, .ok (some img)) ∧ img.n = 2 ∧ img.m = 2 ∧
    ∀ i j, img.val i j = imageSpec (smallSlit ⟨.moffat, 1, 5 / 2, none⟩) 1 1 2 1 1 1 1 (1 / 2 + 0) 0 i j := by
  have hl := smallSlit_luminous ⟨.moffat, 1, 5 / 2, none⟩ (fun h => by cases h) fun _ => by norm_num
  obtain ⟨s, img, h1, h2, h3, h4, -⟩ := C203_image (smallSlit ⟨.moffat, 1, 5 / 2, none⟩) hl zero_le_one
    (by rintro ⟨-, h | h⟩ <;> norm_num [smallSlit] at h)
    (Or.inr (kernelFits_wide _ hl (by norm_num [smallSlit]))) rfl (by norm_num [smallSlit])
    (by norm_num [smallSlit]) 1 1 2 le_rfl one_pos rfl 1 rfl [] [] [] 1 1 1 0 0 one_ne_zero one_pos (by norm_num)
  exact ⟨s, img, h1, h2, h3, h4⟩

end Misfit
