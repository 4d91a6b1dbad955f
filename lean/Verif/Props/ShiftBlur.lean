import Verif.Props.BlurForm
import Verif.Props.WaveShift

/-!
# C202 with seeing: closed form of the image with the positional wavelength shift, point spread function, spectrograph,
adaptive sampling and floor of the dispersion
-/

namespace Misfit

/-! ## The specification -/

/-- positions of the columns in the slit -/
noncomputable def slitPos (cfg : AperCfg) : List ℝ :=
  (List.range (slitCells cfg)).map fun a => gridX cfg (padCols cfg + a)

/-- light of the disc in row `b` and column `a` of the padded grid -/
noncomputable def skyLight (cfg : AperCfg) (m0 : ℝ) (b a : ℕ) : ℝ :=
  ∑ c ∈ Finset.range (cfg.nWhole * cfg.nSubpixels),
    let p := discPoint cfg.sini cfg.deltPA (gridX cfg a) (gridY cfg m0 b)
      (skyZ (cfg.nWhole * cfg.nSubpixels) (cfg.pixscale / cfg.nSubpixels) c)
    cfg.int (Real.sqrt (p.1 ^ 2 + p.2.1 ^ 2)) p.2.2

/-- light in the slit in row `b` after the point spread function -/
noncomputable def seenRow (cfg : AperCfg) (m0 : ℝ) (b : ℕ) : List (Fl ℝ) :=
  (List.range (slitCells cfg)).map fun a => .fin (blurred cfg m0 1 (fun _ => skyLight cfg m0) 0 b (padCols cfg + a))

/-- the fits of all rows of the padded grid succeed -/
def SeenFits (cfg : AperCfg) (m0 : ℝ) (fit : RowFit) (A mu F : ℕ → ℝ) : Prop :=
  ∀ b < nRows cfg, fit (slitPos cfg) (seenRow cfg m0 b) = .ok (A b, mu b, F b) ∧ 0 < F b

/-- `discImage` when the light of row `b` of the padded grid is shifted by the velocity `δ b` -/
noncomputable def discImageShift (cfg : AperCfg) (r0 va rt sig m0 z : ℝ) (δ : ℕ → ℝ) (W : ℕ) (lam : ℕ → ℝ) (w i : ℕ) : ℝ :=
  dispersed W cfg.nWhole lam (cfg.res / lightSpeed * (r0 * (1 + z)))
    (fun w => throughSlit cfg (blurred cfg m0 W (fun w b a => gridLightAt cfg va rt sig m0 z (δ b) (lam w) b a) w)) w i

/-- `imageSpec` with the shifts `δ` -/
noncomputable def imageSpecShift (cfg : AperCfg) (w0 step : ℝ) (N : ℕ) (r0 va rt sig m0 z : ℝ) (δ : ℕ → ℝ) (i j : ℕ) : ℝ :=
  let n := samples cfg step (r0 * (1 + z)) sig
  ∑ k ∈ Finset.range n, discImageShift cfg r0 va rt (flooredSigma cfg step (r0 * (1 + z)) sig) m0 z δ (N * n)
    (fineWave w0 step n) (j * n + k) i

/-- parameters with a turnover radius and a positive dispersion -/
def FiveParams (theta : List ℝ) : Prop := ∃ va rt sig m z : ℝ, theta = [va, rt, sig, m, z] ∧ rt ≠ 0 ∧ 0 < sig

/-! ## Stages -/

theorem gridLightAt_pos (cfg : AperCfg) (hc : Luminous cfg) (hsp : cfg.specType = .wave) (va rt sig m0 z dv lam : ℝ)
    (hs : 0 < sig) (hz : 0 < 1 + z) (b a : ℕ) : 0 < gridLightAt cfg va rt sig m0 z dv lam b a := by
  obtain ⟨hne, hlen, hrest, hrat⟩ : cfg.restwave ≠ [] ∧ cfg.restwave.length ≤ cfg.ratios.length ∧
      (∀ r ∈ cfg.restwave, 0 < r) ∧ ∀ f ∈ cfg.ratios, 0 < f := by
    rcases hc.axis with h | ⟨-, h1, h2, h3, h4⟩
    · rw [hsp] at h; cases h
    · exact ⟨h1, h2, h3, h4⟩
  have hS : (0 : ℝ) < cfg.nSubpixels := by exact_mod_cast hc.sub
  have hp := hc.pix
  unfold gridLightAt
  refine Finset.sum_pos (fun c _ => mul_pos ?_ (div_pos hp hS))
    (Finset.nonempty_range_iff.2 (Nat.mul_pos hc.rows hc.sub).ne')
  unfold cellLightAt
  refine mul_pos (hc.int _ _) ?_
  rw [lineSpectrum_eq _ _ _ _ _ hz hs fun p hp => hrest _ (List.of_mem_zip hp).1]
  have hcK := cKms_pos
  obtain ⟨r, rs, hr⟩ := List.exists_cons_of_ne_nil hne
  obtain ⟨q, qs, hq⟩ : ∃ q qs, cfg.ratios = q :: qs := by
    cases h : cfg.ratios with
    | nil => rw [h, hr] at hlen; simp at hlen
    | cons q qs => exact ⟨q, qs, rfl⟩
  refine List.sum_pos _ ?_ (by rw [hr, hq]; simp)
  intro x hx
  obtain ⟨p, hp, rfl⟩ := List.mem_map.1 hx
  obtain ⟨hp1, hp2⟩ := List.of_mem_zip hp
  have := hrest _ hp1
  exact mul_pos (hrat _ hp2) (gaussDensity_pos _ _ _ (by positivity))

/-- the stages before the spectrograph are those of the plain evaluation without broadening -/
theorem cubeStages_tail (cfg : AperCfg) (hreb : cfg.rebinOutput = true) (f : AperFixed)
    (V : Cube f.grid.nZ f.grid.nY f.grid.nX ℝ) (wave : List ℝ) (sig : ℝ) :
    cubeStages cfg f (some V) wave sig =
      evalTail cfg.slitMask true cfg.nWhole cfg.psf f.xTrim f.yTrim f.grid 0 wave
        (addSigmaCollapseZ f.I V (fun _ _ _ => sig) wave.get f.z cfg.restwave cfg.ratios f.grid.deltZ cfg.specType) := by
  unfold evalTail cubeStages
  simp only [hreb, if_true]
  cases addSigmaCollapseZ f.I V (fun _ _ _ => sig) wave.get f.z cfg.restwave cfg.ratios f.grid.deltZ cfg.specType with
  | error e => rfl
  | ok cube =>
    simp only
    split
    · rfl
    · cases allFinite cube with
      | none => rfl
      | some c1 =>
        simp only
        generalize allFinite (psfConvolve c1 cfg.psf.fwhm (cfg.psf.stamp f.xTrim f.yTrim)) = o2
        cases o2 with
        | none => rfl
        | some c2 =>
          simp only
          split
          · rename_i h
            cases hr : rebinArr ⟨wave.length, f.grid.nPixY, trimSum c2 f.grid h.1 h.2⟩ wave.length cfg.nWhole with
            | error e => rfl
            | ok img =>
              have hn : img.n = wave.length := by
                unfold rebinArr at hr
                split at hr
                · cases hr
                · cases hr; rfl
              simp only [dif_pos hn, instStage, if_neg (lt_irrefl (0 : ℝ))]
              rfl
          · rfl

theorem slitPart_pos (cfg : AperCfg) (g : Grid ℝ) (hpX : g.nPixX = slitCells cfg) (hqX : g.padX = padCols cfg)
    {α : Type} (l : List α) (F : ℕ → α) (hl : l = (List.range (nCols cfg)).map F) :
    slitPart g l = (List.range (slitCells cfg)).map fun a => F (padCols cfg + a) := by
  unfold slitPart
  rw [hpX, hqX, hl]
  refine List.ext_getElem (by simp [nCols]; omega) fun a h1 h2 => ?_
  simp

/-- the light that the rows are fitted to -/
theorem shiftLight_seen (cfg : AperCfg) (hc : Luminous cfg) (hF : 0 ≤ cfg.psf.fwhm) (hi0 : 0 ≤ cfg.sini)
    (hi1 : cfg.sini ≤ 1) (t0 t1 t2 m z : ℝ) (f : AperFixed) (hf : setupCalcs cfg [t0, t1, t2, m, z] = .ok f)
    (hker : 0 < cfg.psf.fwhm → kernelX cfg ≠ [] ∧ kernelY cfg (cfg.m0 + m) ≠ []) :
    shiftLight cfg f = fun b a => .fin (blurred cfg (cfg.m0 + m) 1 (fun _ => skyLight cfg (cfg.m0 + m)) 0 b a) := by
  obtain ⟨z', m', hz', hm', hfz, hg, hx, hy, hI⟩ := setupCalcs_inv _ _ _ hf
  cases hz'
  cases hm'
  obtain ⟨_, hm', hg', hxT, hyT⟩ := setupCalcs_trim _ _ _ hf
  cases hm'
  obtain ⟨hpY, hpX, -, -, hnY, hnX, hnZ, -, hdZ, hxA, hyA, hzA, hkX, hkY⟩ := blur_grid cfg hc hF _ _ hg
  rw [← hxT] at hkX
  rw [← hyT] at hkY
  have hlight : ∀ (b : Fin f.grid.nY) (a : Fin f.grid.nX), ∑ c, f.I c b a = skyLight cfg (cfg.m0 + m) b a := by
    intro b a
    unfold skyLight
    have hcast : ∀ F : ℕ → ℝ, ∑ c ∈ Finset.range (cfg.nWhole * cfg.nSubpixels), F c = ∑ c : Fin f.grid.nZ, F c := by
      intro F
      rw [← hnZ, Finset.sum_range]
    rw [hcast]
    refine Finset.sum_congr rfl fun c _ => ?_
    rw [hI, hx, hy, hxA, hyA, getD_range_map _ _ _ (a.isLt.trans_eq hnX), getD_range_map _ _ _ (b.isLt.trans_eq hnY),
      hzA c (c.isLt.trans_eq hnZ), discPoint_eq _ _ _ _ _ hi0 hi1]
  have hpos : ∀ y x, 0 < skyLight cfg (cfg.m0 + m) y x := fun y x =>
    Finset.sum_pos (fun c _ => hc.int _ _) (Finset.nonempty_range_iff.2 (Nat.mul_pos hc.rows hc.sub).ne')
  unfold shiftLight
  simp only [hlight]
  rw [psf_blur_at cfg hc (cfg.m0 + m) 1 one_pos (fun _ => skyLight cfg (cfg.m0 + m)) hker
    (fun _ _ y _ x _ => hpos y x) f.grid.nY f.grid.nX hnY hnX f.xTrim f.yTrim hkX hkY]
  rfl

/-- the shifts of all rows -/
theorem calcShift_seen (cfg : AperCfg) (hc : Luminous cfg) (hF : 0 ≤ cfg.psf.fwhm) (hi0 : 0 ≤ cfg.sini)
    (hi1 : cfg.sini ≤ 1) (hres : 0 ≤ cfg.res) (t0 t1 t2 m z : ℝ) (f : AperFixed)
    (hf : setupCalcs cfg [t0, t1, t2, m, z] = .ok f) (hl : 0 < f.lam0)
    (hker : 0 < cfg.psf.fwhm → kernelX cfg ≠ [] ∧ kernelY cfg (cfg.m0 + m) ≠ [])
    (hmiss : ¬ KernelMissing cfg f) (fit : RowFit) (A mu F : ℕ → ℝ) (hfit : SeenFits cfg (cfg.m0 + m) fit A mu F) :
    ∃ (d : List ℝ) (l : List (Fl ℝ)), (∀ b < nRows cfg, d.getD b 0 = slitOffset cfg.res cfg.slit (mu b)) ∧
      calcShift cfg f fit = .ok (d, l) := by
  have hseen := shiftLight_seen cfg hc hF hi0 hi1 t0 t1 t2 m z f hf hker
  obtain ⟨z', m', hz', hm', hfz, hg, -⟩ := setupCalcs_inv _ _ _ hf
  cases hz'
  cases hm'
  obtain ⟨-, hpX, -, hqX, hnY, hnX, -, -, -, hxA, -⟩ := blur_grid cfg hc hF _ _ hg
  have hxs : slitPart f.grid f.grid.xArr = slitPos cfg := slitPart_pos cfg f.grid hpX hqX _ (gridX cfg) hxA
  have hrow : ∀ b : Fin f.grid.nY, slitPart f.grid (List.ofFn (shiftLight cfg f b)) = seenRow cfg (cfg.m0 + m) b := by
    intro b
    refine slitPart_pos cfg f.grid hpX hqX _
      (fun a => Fl.fin (blurred cfg (cfg.m0 + m) 1 (fun _ => skyLight cfg (cfg.m0 + m)) 0 b a)) ?_
    rw [hseen]
    refine List.ext_getElem (by simp [hnX]) fun a h1 h2 => ?_
    simp
  have hne : slitPos cfg ≠ [] := by
    intro h
    have := congrArg List.length h
    simp only [slitPos, List.length_map, List.length_range, List.length_nil] at this
    have := slitCells_pos cfg hc.sub hc.pix hc.slit
    omega
  have hex : ∀ b : ℕ, ∃ g, b < nRows cfg → rowShift fit (slitPos cfg) cfg.res cfg.slit f.lam0
      (seenRow cfg (cfg.m0 + m) b) = .ok (slitOffset cfg.res cfg.slit (mu b), g) := by
    intro b
    by_cases hb : b < nRows cfg
    · obtain ⟨h1, h2⟩ := hfit b hb
      rcases hres.eq_or_lt with h0 | hres
      · obtain ⟨d, g, h3⟩ := checkSlitIllum_ok (slitPos cfg) ((slitPos cfg).map (slitGauss (A b) (mu b) (F b))) (mu b)
          (F b) cfg.slit hne (by simp)
        refine ⟨0, fun _ => ?_⟩
        unfold rowShift
        rw [h1]
        simp only [h3, if_pos h0.symm]
        unfold slitOffset
        rw [← h0, zero_mul, mul_zero]
      · obtain ⟨d, g, h3, h4⟩ := rowShift_ok fit (slitPos cfg) hne cfg.res cfg.slit f.lam0 hres hc.slit hl _ _ _ _ h1 h2.le
        exact ⟨_, fun _ => h4⟩
    · exact ⟨0, fun h => absurd h hb⟩
  choose g hg using hex
  refine ⟨(List.range (nRows cfg)).map fun b => slitOffset cfg.res cfg.slit (mu b), (List.range (nRows cfg)).map g,
    fun b hb => ?_, ?_⟩
  · rw [List.getD_eq_getElem?_getD, List.getElem?_eq_getElem (by simpa using hb), Option.getD_some]
    simp
  · unfold calcShift
    rw [if_neg hmiss]
    rw [mapM_ok (g := fun b : Fin f.grid.nY => (slitOffset cfg.res cfg.slit (mu b), g b)) _ fun b _ => by
        rw [hxs, hrow, hg b (by rw [← hnY]; exact b.isLt)]]
    simp only [List.map_map]
    have hfr : ∀ {β : Type} (k : ℕ → β), (List.finRange f.grid.nY).map (fun b => k b.val) =
        (List.range (nRows cfg)).map k := by
      intro β k
      rw [← hnY, ← List.map_coe_finRange_eq_range, List.map_map]
      rfl
    rw [← hfr, ← hfr]
    rfl

/-! ## The whole evaluation -/

/-- one evaluation with the shift, for given stored or new shifts -/
theorem seen_eval (cfg : AperCfg) (hc : Luminous cfg) (hF : 0 ≤ cfg.psf.fwhm) (hst : ¬ cfg.psf.StampFails)
    (hfit : cfg.psf.fwhm = 0 ∨ KernelFits cfg) (hsp : cfg.specType = .wave) (hi0 : 0 ≤ cfg.sini) (hi1 : cfg.sini ≤ 1)
    (w0 step : ℝ) (N : ℕ) (hN : 2 ≤ N) (hstep : 0 < step) (hwave : cfg.wave = uniformGrid w0 step N)
    (r0 : ℝ) (hr0 : cfg.restwave.head? = some r0) (va rt sig m z : ℝ) (hrt : rt ≠ 0) (hs : 0 < sig)
    (hz : 0 < 1 + z) (f : AperFixed) (hf : setupCalcs cfg [va, rt, sig, m, z] = .ok f)
    (d : List ℝ) (dsp : InstDispAttr) (hdsp : dsp ≠ .unset) (fit : RowFit) (s : ShiftState) (hfx : s.base.fixed = f)
    (hw : s.base.wave = cfg.wave) (hk : s.base.kin.shape = (some 2, some 1)) (m' z' : ℝ)
    (hshift : ∀ b : AperState, b.fixed = f →
      shiftStep ⟨true, false⟩ cfg fit { s with base := b } = (⟨b, some d, dsp⟩, .ok ())) :
    ∃ img : Arr2, (shiftCalcs ⟨true, false⟩ cfg fit s [va, rt, sig, m', z']).2 = .ok (some img) ∧
      img.n = cfg.nWhole ∧ img.m = N ∧
      (∀ i j, img.val i j = imageSpecShift cfg w0 step N r0 va rt sig (cfg.m0 + m) z (fun b => d.getD b 0) i j) ∧
      SmearedState cfg f d (shiftCalcs ⟨true, false⟩ cfg fit s [va, rt, sig, m', z']).1 := by
  obtain ⟨f', hf', hfl, hfw, hfd, hff, hfu⟩ := blur_fixed cfg hc hF hst hsp r0 hr0 va rt sig m z
  rw [hf] at hf'
  cases hf'
  obtain ⟨f', hf', -, -, -, -, -, -, -, -, -, -, -, -, -, hker'⟩ := luminous_setup cfg hc hF hst va rt sig m z
  rw [hf] at hf'
  cases hf'
  have hlen : cfg.wave.length = N := by rw [hwave]; simp [uniformGrid]
  have hdelt : avgDiff cfg.wave = step := by rw [hwave]; exact avgDiff_uniform _ _ _ hN
  rw [hdelt] at hfd hff hfu
  obtain ⟨z'', m'', hz', hm', hfz, hg, -⟩ := setupCalcs_inv _ _ _ hf
  cases hz'
  cases hm'
  obtain ⟨_, hm', hg', hxT, hyT⟩ := setupCalcs_trim _ _ _ hf
  cases hm'
  obtain ⟨hpY, hpX, hqY, hqX, hnY, hnX, -, hdX, -, -, -, -, hkX, hkY⟩ := blur_grid cfg hc hF _ _ hg
  rw [← hxT] at hkX
  rw [← hyT] at hkY
  have hker : 0 < cfg.psf.fwhm → kernelX cfg ≠ [] ∧ kernelY cfg (cfg.m0 + m) ≠ [] := by
    intro hpos
    have hfit' : KernelFits cfg := hfit.resolve_left hpos.ne'
    have h := not_or.1 fun h => hker'.1 h hfit'
    rw [hkX, hkY] at h
    exact h
  set lam0 := r0 * (1 + z) with hlam0
  have hup : s.base.kin.updateTheta [va, rt, sig, m', z'] = .ok (sharpKin va rt sig m' z') := by
    rw [updateTheta_congr s.base.kin ⟨[], some ⟨[], 2⟩, some ⟨[], 1⟩⟩ (by rw [hk]; rfl)]
    rfl
  obtain ⟨h1, h2, h3, hWlen, hn, hn1, hwav⟩ := sampled_fine cfg hc w0 step N hN hstep hwave lam0
    { s.base with kin := sharpKin va rt sig m' z' } sig hs rfl hw (by rw [← hfd, ← hfx]) (by rw [← hfu, ← hfx])
  set n := samples cfg step lam0 sig with hndef
  set fv := if cfg.adaptive then 0.75 * pixelSpread (step / cfg.factor) lam0 else pixelSpread step lam0 with hfv
  obtain ⟨h4, h6⟩ := floor_exact cfg (sampled cfg { s.base with kin := sharpKin va rt sig m' z' }).1 sig fv
    (by rw [h2]; rfl) hs (by
      intro hfloor
      rw [h3]
      show s.base.fixed.floorValue = _
      rw [hfx, hff]
      unfold floorValueOf
      rw [if_pos hfloor, hsp, hfv]
      unfold pixelDispersion pixelSpread
      rw [lightSpeed_eq]
      split <;> rfl)
  have hsgdef : (if cfg.sigmaFloor = true then max sig fv else sig) = flooredSigma cfg step lam0 sig := rfl
  rw [hsgdef] at h4
  set sg := flooredSigma cfg step lam0 sig with hsg
  have h5 : 0 < sg := by
    rw [hsg]
    unfold flooredSigma
    split
    · exact lt_of_lt_of_le hs (le_max_left _ _)
    · exact hs
  have hkeep := applySigmaFloor_keeps cfg (sampled cfg { s.base with kin := sharpKin va rt sig m' z' }).1
  have hprep : prepCalcs cfg s.base [va, rt, sig, m', z'] =
      ((applySigmaFloor cfg (sampled cfg { s.base with kin := sharpKin va rt sig m' z' }).1).1, .ok sg) := by
    unfold prepCalcs
    rw [hup]
    simp only
    have hsam : (if cfg.adaptive = true then checkUpsample cfg { s.base with kin := sharpKin va rt sig m' z' }
      else ({ s.base with kin := sharpKin va rt sig m' z' }, .ok ())) =
      sampled cfg { s.base with kin := sharpKin va rt sig m' z' } := rfl
    rw [hsam, h1]
    simp only
    rw [← h4]
  have hkinU : (sampled cfg { s.base with kin := sharpKin va rt sig m' z' }).1.kin.shape = (some 2, some 1) := by
    rw [h2]; rfl
  rw [shiftCalcs_eq, hprep]
  simp only
  generalize sampled cfg { s.base with kin := sharpKin va rt sig m' z' } = U at *
  have hfix : (applySigmaFloor cfg U.1).1.fixed = f := by rw [hkeep.1, h3]; exact hfx
  have hwv : (applySigmaFloor cfg U.1).1.wave = U.1.wave := hkeep.2.1
  have hsh : (applySigmaFloor cfg U.1).1.kin.shape = (some 2, some 1) := hkeep.2.2.2.trans hkinU
  have hvelk : (applySigmaFloor cfg U.1).1.kin.vel = some ⟨[va, rt], 2⟩ := by rw [h6, h2]; rfl
  unfold shiftRest
  rw [hshift _ hfix]
  simp only
  generalize (applySigmaFloor cfg U.1).1 = Q at *
  obtain ⟨V, hV, hcube⟩ := blur_cube cfg hc hF hsp hi0 hi1 va rt sig m z hz f hf Q.kin va rt sg ⟨2, hvelk⟩ hrt h5
  have hcube0 := hcube U.1.wave fun b => d.getD b 0
  have hNpos : 0 < N := by omega
  have hWpos : 0 < U.1.wave.length := by rw [hWlen]; exact Nat.mul_pos hNpos hn
  have hmiss : ¬ KernelMissing cfg f := by
    rintro ⟨hpos, h | h⟩
    · exact (hker hpos).1 (hkX ▸ h)
    · exact (hker hpos).2 (hkY ▸ h)
  subst hfix
  have hsv : shiftedVel ⟨true, false⟩ cfg Q.fixed Q.kin (some d) = some fun c b a => V c b a + d.getD b.val 0 := by
    unfold shiftedVel
    rw [hV]
    rfl
  set δ : ℕ → ℝ := fun b => d.getD b 0 with hδ
  set P : ℕ → ℕ → ℝ := fun w => throughSlit cfg (blurred cfg (cfg.m0 + m) U.1.wave.length
    (fun w b a => gridLightAt cfg va rt sg (cfg.m0 + m) z (δ b) (fineWave w0 step n w) b a) w) with hP
  have hApos : ∀ w < U.1.wave.length, ∀ y < nRows cfg, ∀ x < nCols cfg,
      0 < gridLightAt cfg va rt sg (cfg.m0 + m) z (δ y) (fineWave w0 step n w) y x :=
    fun w _ y _ x _ => gridLightAt_pos cfg hc hsp va rt sg (cfg.m0 + m) z _ _ h5 hz y x
  have himg : cubeImage cfg Q.fixed (shiftedVel ⟨true, false⟩ cfg Q.fixed Q.kin (some d)) Q.wave sg =
      .ok (some ⟨U.1.wave.length, cfg.nWhole, fun w i => P w i⟩) := by
    unfold cubeImage
    rw [hsv, hwv, cubeStages_tail cfg hc.reb, hcube0, hc.mask]
    have hget : (fun (w : Fin U.1.wave.length) (b : Fin Q.fixed.grid.nY) (a : Fin Q.fixed.grid.nX) =>
        Fl.fin (gridLightAt cfg va rt sg (cfg.m0 + m) z (δ b) (U.1.wave.get w) b.val a.val)) =
        fun (w : Fin U.1.wave.length) (b : Fin Q.fixed.grid.nY) (a : Fin Q.fixed.grid.nX) =>
          Fl.fin ((fun w b a : ℕ => gridLightAt cfg va rt sg (cfg.m0 + m) z (δ b) (fineWave w0 step n w) b a) w b a) := by
      funext w b a
      rw [hwav]
    rw [hget, evalTail_blur cfg hc (cfg.m0 + m) Q.fixed.xTrim Q.fixed.yTrim Q.fixed.grid 0 U.1.wave
      (w0 - (step - step / n) / 2) (step / n) (fineWave w0 step n) (fun _ => rfl) hwav hWpos hker hpY hpX hqY hqX hnY hnX
      hdX hkX hkY (fun w b a => gridLightAt cfg va rt sg (cfg.m0 + m) z (δ b) (fineWave w0 step n w) b a) hApos]
    simp only [if_neg hmiss]
    unfold dispersed
    simp only [if_neg (lt_irrefl (0 : ℝ))]
    rfl
  rw [himg]
  simp only
  have hphase : instPhase ⟨true, false⟩ cfg Q.fixed Q.wave dsp (some ⟨U.1.wave.length, cfg.nWhole, fun w i => P w i⟩) =
      (.scalar (cfg.res / cKms * Q.fixed.lam0), .ok (some ⟨U.1.wave.length, cfg.nWhole, fun w i =>
        discImageShift cfg r0 va rt sg (cfg.m0 + m) z δ U.1.wave.length (fineWave w0 step n) w i⟩)) := by
    unfold instPhase instConst
    simp only [hsp, if_true, Bool.false_eq_true, if_false]
    rw [hwv]
    simp only [dite_true]
    have hcast : (fun i : Fin U.1.wave.length => U.1.wave.get (Fin.cast rfl i)) = fun i => U.1.wave.get i := rfl
    have hi := inst_dispersed U.1.wave.length cfg.nWhole hWpos hc.rows (w0 - (step - step / n) / 2) (step / n)
      (cfg.res / cKms * Q.fixed.lam0) (fun i => U.1.wave.get i) (fineWave w0 step n) hwav (fun _ => rfl) P
      fun w hw i hi => throughSlit_pos cfg hc _ ((psf_blur cfg hc (cfg.m0 + m) U.1.wave.length hWpos
        (fun w b a => gridLightAt cfg va rt sg (cfg.m0 + m) z (δ b) (fineWave w0 step n w) b a) hker hApos).2 w hw) i hi
    rw [hfl, ← lightSpeed_eq] at hi ⊢
    simp only [hcast, hi]
    rfl
  rw [hphase]
  simp only
  have hspec : ∀ (i j : ℕ), imageSpecShift cfg w0 step N r0 va rt sig (cfg.m0 + m) z δ i j =
      ∑ k ∈ Finset.range n, discImageShift cfg r0 va rt sg (cfg.m0 + m) z δ (N * n) (fineWave w0 step n) (j * n + k) i :=
    fun i j => rfl
  by_cases had : cfg.adaptive = true
  · simp only [if_pos had]
    have hreb : ∀ (W : ℕ) (D : ℕ → ℕ → ℝ), W = N * n → rebinArr ⟨W, cfg.nWhole, fun w i => D w i⟩ N cfg.nWhole =
        .ok ⟨N, cfg.nWhole, fun j i => ∑ k ∈ Finset.range n, D (j.val * n + k) i⟩ := by
      rintro W D rfl
      unfold rebinArr
      simp only
      rw [rebin_cols N n cfg.nWhole hNpos hn hc.rows]
    have hds : downsample cfg Q (some ⟨U.1.wave.length, cfg.nWhole, fun w i =>
        discImageShift cfg r0 va rt sg (cfg.m0 + m) z δ U.1.wave.length (fineWave w0 step n) w i⟩) =
        ({ Q with wave := Q.fixed.waveReal, deltWave := Q.fixed.deltReal }, .ok (some ⟨N, cfg.nWhole, fun j i =>
          ∑ k ∈ Finset.range n,
          discImageShift cfg r0 va rt sg (cfg.m0 + m) z δ U.1.wave.length (fineWave w0 step n) (j.val * n + k) i⟩)) := by
      unfold downsample
      simp only [hfw, hlen]
      rw [hreb _ (discImageShift cfg r0 va rt sg (cfg.m0 + m) z δ U.1.wave.length (fineWave w0 step n)) hWlen]
    rw [hds]
    simp only [Except.map, Option.map, Arr2.T]
    refine ⟨_, rfl, rfl, rfl, fun i j => ?_, rfl, hfw, hsh, rfl, fun h => by cases h⟩
    rw [hspec, ← hWlen]
  · simp only [if_neg had]
    have hn1' : n = 1 := hn1 (by simpa using had)
    simp only [Except.map, Option.map, Arr2.T]
    have hUw : Q.wave = cfg.wave := by
      have hpw := (prepCalcs_smeared cfg (by simpa using had) s.base [va, rt, sig, m', z']).1
      rw [hprep] at hpw
      exact hpw.trans hw
    refine ⟨_, rfl, rfl, by show U.1.wave.length = N; rw [hWlen, hn1', mul_one], fun i j => ?_, rfl, hUw, hsh, rfl,
      fun h => by cases h⟩
    rw [hspec, ← hWlen, hn1']
    simp

/-- **C202**, with seeing, spectrograph, adaptive sampling and floor: with the positional shift alone in wavelength mode
every pixel of the image is that of a disc whose light in each row of the padded grid is shifted by the velocity offset of
the centre fitted to the light of the row as seen in the slit; for a new model and every later evaluation.  Missing: as
in `C202_shift_partial`. -/
theorem C202_seeing_partial (cfg : AperCfg) (hc : Luminous cfg) (hF : 0 ≤ cfg.psf.fwhm) (hst : ¬ cfg.psf.StampFails)
    (hker : cfg.psf.fwhm = 0 ∨ KernelFits cfg) (hsp : cfg.specType = .wave) (hi0 : 0 ≤ cfg.sini) (hi1 : cfg.sini ≤ 1)
    (hres : 0 ≤ cfg.res) (w0 step : ℝ) (N : ℕ) (hN : 2 ≤ N) (hstep : 0 < step) (hwave : cfg.wave = uniformGrid w0 step N)
    (r0 : ℝ) (hr0 : cfg.restwave.head? = some r0) (fit : RowFit) (t v dd : List ℝ) (va rt sig m z : ℝ) (hrt : rt ≠ 0)
    (hs : 0 < sig) (hz : 0 < 1 + z) (A mu F : ℕ → ℝ) (hfit : SeenFits cfg (cfg.m0 + m) fit A mu F) :
    ∃ (s : ShiftState) (img : Arr2) (δ : ℕ → ℝ), (∀ b < nRows cfg, δ b = slitOffset cfg.res cfg.slit (mu b)) ∧
      buildShift ⟨true, false⟩ cfg fit ⟨t, some ⟨v, 2⟩, some ⟨dd, 1⟩⟩ [va, rt, sig, m, z] = .ok (s, .ok (some img)) ∧
      img.n = cfg.nWhole ∧ img.m = N ∧
      (∀ i j, img.val i j = imageSpecShift cfg w0 step N r0 va rt sig (cfg.m0 + m) z δ i j) ∧
      ∀ (hist : List (List ℝ)) (va' rt' sig' m' z' : ℝ), (cfg.adaptive = true → ∀ th ∈ hist, FiveParams th) → rt' ≠ 0 →
        0 < sig' → ∃ img' : Arr2,
          (shiftCalcs ⟨true, false⟩ cfg fit (runShift ⟨true, false⟩ cfg fit s hist) [va', rt', sig', m', z']).2 =
            .ok (some img') ∧ img'.n = cfg.nWhole ∧ img'.m = N ∧
          ∀ i j, img'.val i j = imageSpecShift cfg w0 step N r0 va' rt' sig' (cfg.m0 + m) z δ i j := by
  obtain ⟨f, hf, hfl, -⟩ := blur_fixed cfg hc hF hst hsp r0 hr0 va rt sig m z
  obtain ⟨f', hf', -, -, -, -, -, -, -, -, -, -, -, -, -, hker'⟩ := luminous_setup cfg hc hF hst va rt sig m z
  rw [hf] at hf'
  cases hf'
  obtain ⟨_, _, hz', hm', -, hg, -⟩ := setupCalcs_inv _ _ _ hf
  cases hz'
  cases hm'
  obtain ⟨_, hm', -, hxT, hyT⟩ := setupCalcs_trim _ _ _ hf
  cases hm'
  obtain ⟨-, -, -, -, -, -, -, -, -, -, -, -, hkX, hkY⟩ := blur_grid cfg hc hF _ _ hg
  rw [← hxT] at hkX
  rw [← hyT] at hkY
  have hkn : 0 < cfg.psf.fwhm → kernelX cfg ≠ [] ∧ kernelY cfg (cfg.m0 + m) ≠ [] := by
    intro hpos
    have hfit' : KernelFits cfg := hker.resolve_left hpos.ne'
    have h := not_or.1 fun h => hker'.1 h hfit'
    rw [hkX, hkY] at h
    exact h
  have hmiss : ¬ KernelMissing cfg f := by
    rintro ⟨hpos, h | h⟩
    · exact (hkn hpos).1 (hkX ▸ h)
    · exact (hkn hpos).2 (hkY ▸ h)
  have hr0pos : 0 < r0 := by
    rcases hc.axis with h | ⟨-, -, -, h3, -⟩
    · rw [hsp] at h; cases h
    · exact h3 r0 (List.mem_of_mem_head? (by rw [hr0]; rfl))
  have hl : 0 < f.lam0 := by rw [hfl]; exact mul_pos hr0pos hz
  obtain ⟨d, l, hd, hcalc⟩ := calcShift_seen cfg hc hF hi0 hi1 hres va rt sig m z f hf hl hkn hmiss fit A mu F hfit
  have hfresh : ∀ b : AperState, b.fixed = f →
      shiftStep ⟨true, false⟩ cfg fit ⟨b, none, .unset⟩ = (⟨b, some d, .rows l⟩, .ok ()) := by
    intro b hb
    unfold shiftStep
    simp only [Bool.or_false, if_true]
    rw [hb, hcalc]
  have hset : ∀ va' rt' sig', setupCalcs cfg [va', rt', sig', m, z] = .ok f := by
    intro va' rt' sig'
    rw [← hf]
    rfl
  obtain ⟨img, h0, h1, h2, h3, hS⟩ := seen_eval cfg hc hF hst hker hsp hi0 hi1 w0 step N hN hstep hwave r0 hr0 va rt sig
    m z hrt hs hz f hf d (.rows l) (fun h => by cases h) fit
    ⟨⟨f, ⟨t, some ⟨v, 2⟩, some ⟨dd, 1⟩⟩, cfg.wave, avgDiff cfg.wave⟩, none, .unset⟩ rfl rfl rfl m z hfresh
  have hnext : ∀ (s : ShiftState), SmearedState cfg f d s → ∀ va' rt' sig' m' z' : ℝ, rt' ≠ 0 → 0 < sig' →
      ∃ img : Arr2, (shiftCalcs ⟨true, false⟩ cfg fit s [va', rt', sig', m', z']).2 = .ok (some img) ∧
      img.n = cfg.nWhole ∧ img.m = N ∧
      (∀ i j, img.val i j = imageSpecShift cfg w0 step N r0 va' rt' sig' (cfg.m0 + m) z (fun b => d.getD b 0) i j) ∧
      SmearedState cfg f d (shiftCalcs ⟨true, false⟩ cfg fit s [va', rt', sig', m', z']).1 := by
    intro s hs va' rt' sig' m' z' hrt' hs'
    exact seen_eval cfg hc hF hst hker hsp hi0 hi1 w0 step N hN hstep hwave r0 hr0 va' rt' sig' m z hrt' hs' hz f
      (hset _ _ _) d s.disp hs.disp fit s hs.fixed hs.wave hs.shape m' z' fun b _ => by
        rw [shiftStep_stored _ cfg fit _ (by exact ⟨⟨d, hs.delta⟩, hs.disp⟩), hs.delta]
  refine ⟨(shiftCalcs ⟨true, false⟩ cfg fit ⟨⟨f, ⟨t, some ⟨v, 2⟩, some ⟨dd, 1⟩⟩, cfg.wave, avgDiff cfg.wave⟩, none,
    .unset⟩ [va, rt, sig, m, z]).1, img, fun b => d.getD b 0, hd, ?_, h1, h2, h3, fun hist va' rt' sig' m' z' hh hrt' hs' => ?_⟩
  · unfold buildShift
    rw [hf]
    simp only
    rw [← h0]
  · have hrun : ∀ (hist : List (List ℝ)) (s : ShiftState), (cfg.adaptive = true → ∀ th ∈ hist, FiveParams th) →
        SmearedState cfg f d s → SmearedState cfg f d (runShift ⟨true, false⟩ cfg fit s hist) := by
      intro hist
      induction hist with
      | nil => exact fun s _ h => h
      | cons th hist ih =>
        intro s hh h
        refine ih _ (fun ha th hth => hh ha th (List.mem_cons_of_mem _ hth)) ?_
        by_cases ha : cfg.adaptive = true
        · obtain ⟨va, rt, sig, m', z', rfl, hrt, hs⟩ := hh ha th List.mem_cons_self
          exact (hnext s h va rt sig m' z' hrt hs).choose_spec.2.2.2.2
        · exact smearedState_step _ cfg (by simpa using ha) f d fit s h th
    obtain ⟨img', h4, h5, h6, h7, -⟩ := hnext _ (hrun hist _ hh hS) va' rt' sig' m' z' hrt' hs'
    exact ⟨img', h4, h5, h6, h7⟩

/-- the hypotheses are met by a set-up with Moffat seeing, adaptive sampling and floor, and a fit that finds the light a
quarter of an arcsecond off the middle; the shifts are not zero -/
example : ∃ s img δ, (∀ b < nRows (smallSlit ⟨.moffat, 1, 5 / 2, none⟩), 0 < δ b) ∧
    buildShift ⟨true, false⟩ (smallSlit ⟨.moffat, 1, 5 / 2, none⟩) (fun _ _ => .ok (1, 1 / 4, 1 / 2))
      ⟨[], some ⟨[], 2⟩, some ⟨[], 1⟩⟩ [1, 1, 1, 0, 0] = .ok (s, .ok (some img)) ∧
    ∀ i j, img.val i j = imageSpecShift (smallSlit ⟨.moffat, 1, 5 / 2, none⟩) 1 1 2 1 1 1 1 (1 / 2 + 0) 0 δ i j := by
  have hl := smallSlit_luminous ⟨.moffat, 1, 5 / 2, none⟩ (fun h => by cases h) fun _ => by norm_num
  obtain ⟨s, img, δ, h0, h1, -, -, h4, -⟩ := C202_seeing_partial (smallSlit ⟨.moffat, 1, 5 / 2, none⟩) hl zero_le_one
    (by rintro ⟨-, h | h⟩ <;> norm_num [smallSlit] at h)
    (Or.inr (kernelFits_wide _ hl (by norm_num [smallSlit]))) rfl (by norm_num [smallSlit])
    (by norm_num [smallSlit]) (by norm_num [smallSlit]) 1 1 2 le_rfl one_pos rfl 1 rfl
    (fun _ _ => .ok (1, 1 / 4, 1 / 2)) [] [] [] 1 1 1 0 0 one_ne_zero one_pos (by norm_num)
    (fun _ => 1) (fun _ => 1 / 4) (fun _ => 1 / 2) fun b _ => ⟨rfl, by norm_num⟩
  refine ⟨s, img, δ, fun b hb => ?_, h1, h4⟩
  rw [h0 b hb]
  have hR := resFactor_pos
  have hslit : (0 : ℝ) < (smallSlit ⟨.moffat, 1, 5 / 2, none⟩).slit := hl.slit
  have hres : (0 : ℝ) < (smallSlit ⟨.moffat, 1, 5 / 2, none⟩).res := by norm_num [smallSlit]
  unfold slitOffset
  exact mul_pos (div_pos (lt_max_of_lt_right (lt_min (by norm_num) (by positivity))) hslit) (mul_pos hres hR)

end Misfit
