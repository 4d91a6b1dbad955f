import Verif.Props.BlurForm

/-!
# C204: closed form of the image on a velocity axis
-/

namespace Misfit

/-! ## The specification -/

/-- light of the column of cells in row `b` and column `a` of the padded grid at the velocity `v`: every cell has a
normal distribution of velocities -/
noncomputable def velLight (cfg : AperCfg) (va rt sig m0 v : ℝ) (b a : ℕ) : ℝ :=
  ∑ c ∈ Finset.range (cfg.nWhole * cfg.nSubpixels),
    let p := discPoint cfg.sini cfg.deltPA (gridX cfg a) (gridY cfg m0 b)
      (skyZ (cfg.nWhole * cfg.nSubpixels) (cfg.pixscale / cfg.nSubpixels) c)
    cfg.int (Real.sqrt (p.1 ^ 2 + p.2.1 ^ 2)) p.2.2 *
      ProbabilityTheory.gaussianPDFReal (discVelocity va rt cfg.sini p.1 p.2.1) (sig ^ 2).toNNReal v *
      (cfg.pixscale / cfg.nSubpixels)

/-- the image on the velocities `vel` -/
noncomputable def velImage (cfg : AperCfg) (va rt sig m0 : ℝ) (W : ℕ) (vel : ℕ → ℝ) (w i : ℕ) : ℝ :=
  dispersed W cfg.nWhole vel cfg.res
    (fun w => throughSlit cfg (blurred cfg m0 W (fun w => velLight cfg va rt sig m0 (vel w)) w)) w i

/-- dispersion of one velocity pixel of width `step` -/
noncomputable def velSpread (step : ℝ) : ℝ := step / 2.35

/-- the dispersion used: at least the floor, when there is one -/
noncomputable def velSigma (cfg : AperCfg) (step sig : ℝ) : ℝ :=
  if cfg.sigmaFloor then max sig (if cfg.adaptive then 0.75 * velSpread (step / cfg.factor) else velSpread step)
  else sig

/-- samples per velocity pixel -/
noncomputable def velSamples (cfg : AperCfg) (step sig : ℝ) : ℕ :=
  if cfg.adaptive = true ∧ sig < velSpread step then ⌊cfg.factor⌋₊ else 1

/-- row `i` and velocity `j` of the image with `N` velocities `w0, w0 + step, …` -/
noncomputable def velSpec (cfg : AperCfg) (w0 step : ℝ) (N : ℕ) (va rt sig m0 : ℝ) (i j : ℕ) : ℝ :=
  let n := velSamples cfg step sig
  ∑ k ∈ Finset.range n, velImage cfg va rt (velSigma cfg step sig) m0 (N * n) (fineWave w0 step n) (j * n + k) i

/-! ## Lemmas -/

theorem vel_fixed (cfg : AperCfg) (hc : Luminous cfg) (hF : 0 ≤ cfg.psf.fwhm) (hst : ¬ cfg.psf.StampFails)
    (hsp : cfg.specType = .velocity) (va rt sig m z : ℝ) :
    ∃ f, setupCalcs cfg [va, rt, sig, m, z] = .ok f ∧ f.waveReal = cfg.wave ∧
      f.deltReal = avgDiff cfg.wave ∧ f.floorValue = floorValueOf cfg (avgDiff cfg.wave) 1 ∧
      f.upsampleValue = if cfg.adaptive then pixelDispersion .velocity (avgDiff cfg.wave) 1 else none := by
  have hphys : GridIn.Phys (⟨cfg.nWhole, cfg.nSubpixels, cfg.pixscale, cfg.slit, cfg.psf.fwhm,
      cfg.padFactor, cfg.xc, cfg.m0 + m⟩ : GridIn ℝ) :=
    ⟨hc.rows, hc.sub, hc.pix, hc.slit, mul_nonneg hF hc.pad⟩
  obtain ⟨G, hG, -⟩ := setupGrid_ok _ hphys
  have e1 : fromEnd [va, rt, sig, m, z] 1 = .ok z := rfl
  have e2 : fromEnd [va, rt, sig, m, z] 2 = .ok m := rfl
  rw [setupCalcs_arrays hst]
  unfold setupArrays
  simp only [e1, e2, bind, Except.bind, hG, hsp]
  exact ⟨_, rfl, rfl, rfl, rfl, rfl⟩

theorem velSamples_eq (cfg : AperCfg) (step sig : ℝ) : velSamples cfg step sig = samples cfg step cKms sig := by
  have h : pixelSpread step cKms = velSpread step := by
    unfold pixelSpread velSpread
    rw [lightSpeed_eq, div_mul_cancel₀ _ cKms_pos.ne']
  unfold velSamples samples
  rw [h]

/-- the velocities of an evaluation -/
theorem sampled_vel (cfg : AperCfg) (hc : Luminous cfg) (w0 step : ℝ) (N : ℕ) (hN : 2 ≤ N) (hst : 0 < step)
    (hwave : cfg.wave = uniformGrid w0 step N) (s : AperState) (sig : ℝ) (hs : 0 < sig)
    (hd : s.kin.disp = some ⟨[sig], 1⟩) (hw : s.wave = cfg.wave) (hdr : s.fixed.deltReal = step)
    (hu : s.fixed.upsampleValue = if cfg.adaptive then pixelDispersion .velocity step 1 else none) :
    (sampled cfg s).2 = .ok () ∧ (sampled cfg s).1.kin = s.kin ∧ (sampled cfg s).1.fixed = s.fixed ∧
      (sampled cfg s).1.wave.length = N * velSamples cfg step sig ∧ 0 < velSamples cfg step sig ∧
      (cfg.adaptive = false → velSamples cfg step sig = 1) ∧
      ∀ i : Fin (sampled cfg s).1.wave.length, (sampled cfg s).1.wave.get i =
        fineWave w0 step (velSamples cfg step sig) i := by
  rw [velSamples_eq]
  refine sampled_fine cfg hc w0 step N hN hst hwave cKms s sig hs hd hw hdr ?_
  rw [hu]
  unfold pixelDispersion
  simp only [div_mul_cancel₀ _ cKms_pos.ne']

theorem velLight_pos (cfg : AperCfg) (hc : Luminous cfg) (va rt sig m0 v : ℝ)
    (hs : 0 < sig) (b a : ℕ) : 0 < velLight cfg va rt sig m0 v b a := by
  have hS : (0 : ℝ) < cfg.nSubpixels := by exact_mod_cast hc.sub
  have hp := hc.pix
  unfold velLight
  refine Finset.sum_pos (fun c _ => mul_pos (mul_pos (hc.int _ _) ?_) (div_pos hp hS))
    (Finset.nonempty_range_iff.2 (Nat.mul_pos hc.rows hc.sub).ne')
  exact ProbabilityTheory.gaussianPDFReal_pos _ _ _ (by
    rw [Ne, Real.toNNReal_eq_zero, not_le]; positivity)

theorem vel_cube (cfg : AperCfg) (hc : Luminous cfg) (hF : 0 ≤ cfg.psf.fwhm) (hsp : cfg.specType = .velocity)
    (hi0 : 0 ≤ cfg.sini) (hi1 : cfg.sini ≤ 1) (t0 t1 t2 m z : ℝ) (f : AperFixed)
    (hf : setupCalcs cfg [t0, t1, t2, m, z] = .ok f) (kin : KinProfile) (va rt sig : ℝ)
    (hv : ∃ n, kin.vel = some ⟨[va, rt], n⟩) (hrt : rt ≠ 0) (hs : 0 < sig) :
    ∃ V, velCube cfg f kin = some V ∧ ∀ (wave : List ℝ),
      addSigmaCollapseZ f.I V (fun _ _ _ => sig) wave.get f.z cfg.restwave
        cfg.ratios f.grid.deltZ cfg.specType =
      .ok fun w b a => .fin (velLight cfg va rt sig (cfg.m0 + m) (wave.get w) b.val a.val) := by
  obtain ⟨z', m', hz', hm', hfz, hg, hx, hy, hI⟩ := setupCalcs_inv _ _ _ hf
  cases hz'
  cases hm'
  obtain ⟨hpY, hpX, -, -, hnY, hnX, hnZ, -, hdZ, hxA, hyA, hzA, -, -⟩ := blur_grid cfg hc hF _ _ hg
  have hNS := Nat.mul_pos hc.rows hc.sub
  have hcol := slitCells_pos cfg hc.sub hc.pix hc.slit
  set P : ℕ → ℕ → ℕ → ℝ × ℝ × ℝ := fun c b a => discPoint cfg.sini cfg.deltPA (gridX cfg a)
    (gridY cfg (cfg.m0 + m) b) (skyZ (cfg.nWhole * cfg.nSubpixels) (cfg.pixscale / cfg.nSubpixels) c) with hP
  have htr : ∀ (c : Fin f.grid.nZ) (b : Fin f.grid.nY) (a : Fin f.grid.nX),
      transformInt3d (f.grid.xArr.getD a 0) (f.grid.yArr.getD b 0)
        (f.grid.zArr.getD c 0) cfg.deltPA (Real.arcsin cfg.sini) = P c b a := by
    intro c b a
    rw [hxA, hyA, getD_range_map _ _ _ (a.isLt.trans_eq hnX), getD_range_map _ _ _ (b.isLt.trans_eq hnY),
      hzA c (c.isLt.trans_eq hnZ), discPoint_eq _ _ _ _ _ hi0 hi1]
  have hvel : velCube cfg f kin = some fun (c : Fin f.grid.nZ) (b : Fin f.grid.nY) (a : Fin f.grid.nX) =>
        discVelocity va rt cfg.sini (P c b a).1 (P c b a).2.1 := by
    obtain ⟨n, hv⟩ := hv
    unfold velCube
    simp only [hv, hx, hy, htr, discVelocity_eq _ _ _ _ _ hrt]
    exact allFinite_fin fun (c : Fin f.grid.nZ) (b : Fin f.grid.nY) (a : Fin f.grid.nX) =>
      discVelocity va rt cfg.sini (P c b a).1 (P c b a).2.1
  refine ⟨_, hvel, fun wave => ?_⟩
  have hcast : ∀ F : ℕ → ℝ, ∑ c : Fin (cfg.nWhole * cfg.nSubpixels), F c = ∑ c : Fin f.grid.nZ, F c := by
    intro F
    rw [hnZ]
  have hZ0 : 0 < f.grid.nZ := by rw [hnZ]; exact hNS
  have hY0 : 0 < f.grid.nY := by rw [hnY]; unfold nRows; omega
  have hX0 : 0 < f.grid.nX := by rw [hnX]; unfold nCols; omega
  rw [hsp]
  unfold addSigmaCollapseZ
  simp only
  rw [if_neg (by omega), if_pos ⟨⟨0, hZ0⟩, ⟨0, hY0⟩, ⟨0, hX0⟩, abs_pos.2 hs.ne'⟩]
  congr 1
  funext w b a
  rw [broadSum_fin _ _ _ _ _ _ _ fun _ => hs.ne', zero_add]
  congr 1
  unfold velLight
  simp only
  rw [Finset.sum_range, Finset.sum_mul]
  rw [hcast fun c => cfg.int (Real.sqrt ((P c b a).1 ^ 2 + (P c b a).2.1 ^ 2)) (P c b a).2.2 *
      ProbabilityTheory.gaussianPDFReal (discVelocity va rt cfg.sini (P c b a).1 (P c b a).2.1) (sig ^ 2).toNNReal
        (wave.get w) * (cfg.pixscale / cfg.nSubpixels)]
  refine Finset.sum_congr rfl fun c _ => ?_
  rw [gaussDensity_eq_pdf _ _ _ hs, hI, hx, hy, htr, hdZ]

/-! ## The property -/

/-- the image of a new model, pixel by pixel -/
theorem C204_build (cfg : AperCfg) (hc : Luminous cfg) (hF : 0 ≤ cfg.psf.fwhm) (hst : ¬ cfg.psf.StampFails)
    (hfit : cfg.psf.fwhm = 0 ∨ KernelFits cfg) (hsp : cfg.specType = .velocity) (hi0 : 0 ≤ cfg.sini) (hi1 : cfg.sini ≤ 1)
    (w0 step : ℝ) (N : ℕ) (hN : 2 ≤ N) (hstep : 0 < step) (hwave : cfg.wave = uniformGrid w0 step N)
   
    (kin : KinProfile) (hk : kin.shape = (some 2, some 1)) (va rt sig m z : ℝ) (hrt : rt ≠ 0) (hs : 0 < sig) :
    ∃ s img, buildModel cfg kin [va, rt, sig, m, z] = .ok (s, .ok (some img)) ∧ img.n = cfg.nWhole ∧ img.m = N ∧
      ∀ i j, img.val i j = velSpec cfg w0 step N va rt sig (cfg.m0 + m) i j := by
  obtain ⟨f, hf, hfw, hfd, hff, hfu⟩ := vel_fixed cfg hc hF hst hsp va rt sig m z
  obtain ⟨f', hf', -, -, -, -, -, -, -, -, -, -, -, -, -, hker'⟩ := luminous_setup cfg hc hF hst va rt sig m z
  rw [hf] at hf'
  cases hf'
  have hlen : cfg.wave.length = N := by rw [hwave]; simp [uniformGrid]
  have hdelt : avgDiff cfg.wave = step := by rw [hwave]; exact avgDiff_uniform _ _ _ hN
  rw [hdelt] at hfd hff hfu
  obtain ⟨z', m', hz', hm', hfz, hg, -⟩ := setupCalcs_inv _ _ _ hf
  cases hz'
  cases hm'
  obtain ⟨_, hm', hg', hxT, hyT⟩ := setupCalcs_trim _ _ _ hf
  cases hm'
  obtain ⟨hpY, hpX, hqY, hqX, hnY, hnX, -, hdX, -, -, -, -, hkX, hkY⟩ := blur_grid cfg hc hF _ _ hg
  rw [← hxT] at hkX
  rw [← hyT] at hkY
  have hker : 0 < cfg.psf.fwhm → kernelX cfg ≠ [] ∧ kernelY cfg (cfg.m0 + m) ≠ [] := by
    intro hpos
    have hfit' : KernelFits cfg := hfit.resolve_left hpos.ne'
    have h := not_or.1 fun h => hker'.1 h hfit'
    rw [hkX, hkY] at h
    exact h
  have hup : kin.updateTheta [va, rt, sig, m, z] = .ok (sharpKin va rt sig m z) := by
    rw [updateTheta_congr kin ⟨[], some ⟨[], 2⟩, some ⟨[], 1⟩⟩ (by rw [hk]; rfl)]
    rfl
  obtain ⟨h1, h2, h3, hWlen, hn, hn1, hwav⟩ := sampled_vel cfg hc w0 step N hN hstep hwave
    ⟨f, sharpKin va rt sig m z, cfg.wave, avgDiff cfg.wave⟩ sig hs rfl rfl hfd hfu
  set n := velSamples cfg step sig with hndef
  set fv := if cfg.adaptive then 0.75 * velSpread (step / cfg.factor) else velSpread step with hfv
  obtain ⟨h4, h6⟩ := floor_exact cfg (sampled cfg ⟨f, sharpKin va rt sig m z, cfg.wave, avgDiff cfg.wave⟩).1 sig fv
    (by rw [h2]; rfl) hs (by
      intro hfloor
      rw [h3, hff]
      unfold floorValueOf
      rw [if_pos hfloor, hsp, hfv]
      unfold pixelDispersion velSpread
      split <;> rfl)
  have hsgdef : (if cfg.sigmaFloor = true then max sig fv else sig) = velSigma cfg step sig := rfl
  rw [hsgdef] at h4
  set sg := velSigma cfg step sig with hsg
  have h5 : 0 < sg := by
    rw [hsg]
    unfold velSigma
    split
    · exact lt_of_lt_of_le hs (le_max_left _ _)
    · exact hs
  have hkeep := applySigmaFloor_keeps cfg (sampled cfg ⟨f, sharpKin va rt sig m z, cfg.wave, avgDiff cfg.wave⟩).1
  unfold buildModel
  rw [hf]
  simp only
  rw [doModelCalcs_eq]
  simp only [hup]
  unfold calcsAfter
  have hsam : (if cfg.adaptive = true then checkUpsample cfg ⟨f, sharpKin va rt sig m z, cfg.wave, avgDiff cfg.wave⟩
      else (⟨f, sharpKin va rt sig m z, cfg.wave, avgDiff cfg.wave⟩, .ok ())) =
      sampled cfg ⟨f, sharpKin va rt sig m z, cfg.wave, avgDiff cfg.wave⟩ := rfl
  simp only [hsam]
  generalize sampled cfg ⟨f, sharpKin va rt sig m z, cfg.wave, avgDiff cfg.wave⟩ = U at *
  simp only [h1, h4]
  have hfix : (applySigmaFloor cfg U.1).1.fixed = f := by rw [hkeep.1, h3]
  have hwv : (applySigmaFloor cfg U.1).1.wave = U.1.wave := hkeep.2.1
  obtain ⟨V, hV, hcube⟩ := vel_cube cfg hc hF hsp hi0 hi1 va rt sig m z f hf (applySigmaFloor cfg U.1).1.kin va rt sg
    ⟨2, by rw [h6, h2]; rfl⟩ hrt h5
  have hcube0 := hcube U.1.wave
  have hNpos : 0 < N := by omega
  have hWpos : 0 < U.1.wave.length := by rw [hWlen]; exact Nat.mul_pos hNpos hn
  have hmiss : ¬ KernelMissing cfg f := by
    rintro ⟨hpos, h | h⟩
    · exact (hker hpos).1 (hkX ▸ h)
    · exact (hker hpos).2 (hkY ▸ h)
  have hdisp : instDisp cfg f = cfg.res := by
    unfold instDisp
    rw [hsp]
  have heval : evalImage cfg f (applySigmaFloor cfg U.1).1.kin U.1.wave sg = .ok (some ⟨U.1.wave.length, cfg.nWhole,
      fun w i => velImage cfg va rt sg (cfg.m0 + m) U.1.wave.length (fineWave w0 step n) w i⟩) := by
    rw [evalImage_stages hmiss, evalStages_eq_tail, hV]
    simp only
    rw [hcube0, hc.mask, hc.reb]
    have hget : (fun (w : Fin U.1.wave.length) (b : Fin f.grid.nY) (a : Fin f.grid.nX) =>
        Fl.fin (velLight cfg va rt sg (cfg.m0 + m) (U.1.wave.get w) b.val a.val)) =
        fun (w : Fin U.1.wave.length) (b : Fin f.grid.nY) (a : Fin f.grid.nX) =>
          Fl.fin ((fun w : ℕ => velLight cfg va rt sg (cfg.m0 + m) (fineWave w0 step n w)) w b a) := by
      funext w b a
      rw [hwav]
    rw [hget, evalTail_blur cfg hc (cfg.m0 + m) f.xTrim f.yTrim f.grid (instDisp cfg f) U.1.wave
      (w0 - (step - step / n) / 2) (step / n) (fineWave w0 step n) (fun _ => rfl) hwav hWpos hker hpY hpX hqY hqX hnY hnX
      hdX hkX hkY (fun w => velLight cfg va rt sg (cfg.m0 + m) (fineWave w0 step n w)) fun w _ y _ x _ => velLight_pos cfg hc va rt sg (cfg.m0 + m) _ h5 y x, hdisp]
    rfl
  have he : evalImage cfg (applySigmaFloor cfg U.1).1.fixed (applySigmaFloor cfg U.1).1.kin
      (applySigmaFloor cfg U.1).1.wave sg = evalImage cfg f (applySigmaFloor cfg U.1).1.kin U.1.wave sg := by
    rw [hfix, hwv]
  rw [he, heval]
  simp only
  have hspec : ∀ (i j : ℕ), velSpec cfg w0 step N va rt sig (cfg.m0 + m) i j =
      ∑ k ∈ Finset.range n, velImage cfg va rt sg (cfg.m0 + m) (N * n) (fineWave w0 step n) (j * n + k) i :=
    fun i j => rfl
  by_cases had : cfg.adaptive = true
  · simp only [if_pos had]
    have hreb : ∀ (W : ℕ) (D : ℕ → ℕ → ℝ), W = N * n → rebinArr ⟨W, cfg.nWhole, fun w i => D w i⟩ N cfg.nWhole =
        .ok ⟨N, cfg.nWhole, fun j i => ∑ k ∈ Finset.range n, D (j.val * n + k) i⟩ := by
      rintro W D rfl
      unfold rebinArr
      simp only
      rw [rebin_cols N n cfg.nWhole hNpos hn hc.rows]
    have hds : (downsample cfg (applySigmaFloor cfg U.1).1 (some ⟨U.1.wave.length, cfg.nWhole, fun w i =>
        velImage cfg va rt sg (cfg.m0 + m) U.1.wave.length (fineWave w0 step n) w i⟩)).2 =
        .ok (some ⟨N, cfg.nWhole, fun j i => ∑ k ∈ Finset.range n,
          velImage cfg va rt sg (cfg.m0 + m) U.1.wave.length (fineWave w0 step n) (j.val * n + k) i⟩) := by
      unfold downsample
      simp only [hfix, hfw, hlen]
      rw [hreb _ (velImage cfg va rt sg (cfg.m0 + m) U.1.wave.length (fineWave w0 step n)) hWlen]
    rw [hds]
    simp only [Except.map, Option.map, Arr2.T]
    refine ⟨_, _, rfl, rfl, rfl, fun i j => ?_⟩
    rw [hspec, ← hWlen]
  · simp only [if_neg had]
    have hn1' : n = 1 := hn1 (by simpa using had)
    simp only [Except.map, Option.map, Arr2.T]
    refine ⟨_, _, rfl, rfl, by show U.1.wave.length = N; rw [hWlen, hn1', mul_one], fun i j => ?_⟩
    rw [hspec, ← hWlen, hn1']
    simp

/-- **C204**: for a complete set-up on equally spaced velocities, every pixel of the image of a new model and of every
later evaluation has the value `velSpec`.  Redshift, lines and flux ratios do not enter; the row of the centre is that of
the construction. -/
theorem C204_image (cfg : AperCfg) (hc : Luminous cfg) (hF : 0 ≤ cfg.psf.fwhm) (hst : ¬ cfg.psf.StampFails)
    (hfit : cfg.psf.fwhm = 0 ∨ KernelFits cfg) (hsp : cfg.specType = .velocity) (hi0 : 0 ≤ cfg.sini) (hi1 : cfg.sini ≤ 1)
    (w0 step : ℝ) (N : ℕ) (hN : 2 ≤ N) (hstep : 0 < step) (hwave : cfg.wave = uniformGrid w0 step N)
    (t v d : List ℝ) (va rt sig m z : ℝ) (hrt : rt ≠ 0) (hs : 0 < sig) :
    ∃ s img, buildModel cfg ⟨t, some ⟨v, 2⟩, some ⟨d, 1⟩⟩ [va, rt, sig, m, z] = .ok (s, .ok (some img)) ∧
      img.n = cfg.nWhole ∧ img.m = N ∧
      (∀ i j, img.val i j = velSpec cfg w0 step N va rt sig (cfg.m0 + m) i j) ∧
      ∀ (hist : List (List ℝ)) (va' rt' sig' m' z' : ℝ), (cfg.adaptive = true → AllReturn cfg s hist) → rt' ≠ 0 →
        0 < sig' → ∃ img' : Arr2,
          (updateModel cfg (runUpdates cfg s hist) [va', rt', sig', m', z']).2 = .ok (some img') ∧
          img'.n = cfg.nWhole ∧ img'.m = N ∧
          ∀ i j, img'.val i j = velSpec cfg w0 step N va' rt' sig' (cfg.m0 + m) i j := by
  have hall := fun (va rt sig : ℝ) (hrt : rt ≠ 0) (hs : 0 < sig) => C204_build cfg hc hF hst hfit hsp hi0 hi1 w0 step N hN
    hstep hwave ⟨t, some ⟨v, 2⟩, some ⟨d, 1⟩⟩ rfl va rt sig m z hrt hs
  obtain ⟨s, img, h1, h2, h3, h4⟩ := hall va rt sig hrt hs
  refine ⟨s, img, h1, h2, h3, h4, fun hist va' rt' sig' m' z' hret hrt' hs' => ?_⟩
  obtain ⟨s', h⟩ := C37_exact cfg t v d va rt sig m z va' rt' sig' m' z' hist s _ h1 fun ha => ⟨⟨_, rfl⟩, hret ha⟩
  obtain ⟨s'', img', h5, h6⟩ := hall va' rt' sig' hrt' hs'
  rw [h] at h5
  simp only [Except.ok.injEq, Prod.mk.injEq] at h5
  exact ⟨img', h5.2, h6⟩

/-- the hypotheses are met by a set-up with seeing, instrumental broadening, adaptive sampling and floor, without any
lines -/
example : ∃ s img, buildModel { smallSlit ⟨.moffat, 1, 5 / 2, none⟩ with specType := .velocity, restwave := [], ratios := [] }
      ⟨[], some ⟨[], 2⟩, some ⟨[], 1⟩⟩ [1, 1, 1, 0, 0] = .ok (s, .ok (some img)) ∧ img.n = 2 ∧ img.m = 2 ∧
    ∀ i j, img.val i j = velSpec
      { smallSlit ⟨.moffat, 1, 5 / 2, none⟩ with specType := .velocity, restwave := [], ratios := [] }
      1 1 2 1 1 1 (1 / 2 + 0) i j := by
  have hl0 := smallSlit_luminous ⟨.moffat, 1, 5 / 2, none⟩ (fun h => by cases h) fun _ => by norm_num
  have hl : Luminous { smallSlit ⟨.moffat, 1, 5 / 2, none⟩ with specType := .velocity, restwave := [], ratios := [] } :=
    ⟨hl0.rows, hl0.sub, hl0.pix, hl0.slit, hl0.pad, hl0.int, .inl rfl, hl0.mask, hl0.reb, hl0.wave, hl0.adapt,
      hl0.dither, hl0.beta⟩
  obtain ⟨s, img, h1, h2, h3, h4, -⟩ := C204_image
    { smallSlit ⟨.moffat, 1, 5 / 2, none⟩ with specType := .velocity, restwave := [], ratios := [] } hl zero_le_one
    (by rintro ⟨-, h | h⟩ <;> norm_num [smallSlit] at h)
    (Or.inr (kernelFits_wide _ hl (by norm_num [smallSlit]))) rfl (by norm_num [smallSlit])
    (by norm_num [smallSlit]) 1 1 2 le_rfl one_pos rfl [] [] [] 1 1 1 0 0 one_ne_zero one_pos
  exact ⟨s, img, h1, h2, h3, h4⟩

end Misfit
