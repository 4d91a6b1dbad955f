import Verif.Props.Floor
import Verif.Props.VelForm

/-!
# C205: a spectral axis that is neither wavelength nor velocity
-/

namespace Misfit

/-! ## The specification -/

/-- what an evaluation gives: an exception, an image that is not finite, or an image of zeros -/
inductive Blank
  | refused
  | notFinite
  | zeros

/-- Which of the three happens.  Adaptive sampling and the floor compare the dispersion with a width that does not exist.
Seeing and spectrograph divide zero light by zero light. -/
noncomputable def blankOf (cfg : AperCfg) : Blank :=
  if cfg.adaptive = true ∨ cfg.sigmaFloor = true then .refused
  else if 0 < cfg.psf.fwhm ∨ 0 < cfg.res then .notFinite
  else .zeros

/-- the outcome of an evaluation is the given one, with `N` samples along the spectral axis -/
def ShowsBlank (cfg : AperCfg) (N : ℕ) : Blank → Except PyErr (Option Arr2) → Prop
  | .refused, r => r = .error .typeError
  | .notFinite, r => r = .ok none
  | .zeros, r => ∃ img : Arr2, r = .ok (some img) ∧ img.n = cfg.nWhole ∧ img.m = N ∧ ∀ i j, img.val i j = 0

/-- the same set-up on a velocity axis -/
def AperCfg.onVelocity (cfg : AperCfg) : AperCfg := { cfg with specType := .velocity }

/-! ## Lemmas -/

theorem convSame2_dark {n m kn km : ℕ} (k : Fin kn → Fin km → ℝ) (i : Fin n) (j : Fin m) :
    convSame2 (fun (_ : Fin n) (_ : Fin m) => (0 : ℝ)) k i j = 0 := by
  have h : ∀ (n : ℕ) (t : ℤ), ext (fun _ : Fin n => (0 : ℝ)) t = 0 := by
    intro n t
    unfold ext
    split <;> rfl
  unfold convSame2
  simp [h]

theorem dark_ratio : Fl.fin (0 : ℝ) * (Fl.fin (0 : ℝ) / Fl.fin (0 : ℝ)) = Fl.nan := by
  show Fl.mul (Fl.fin 0) (Fl.div (Fl.fin 0) (Fl.fin 0)) = _
  simp [Fl.div, Fl.infTimes, Fl.mul]

theorem psfConvolve_dark {nW n m kn km : ℕ} (fwhm : ℝ) (hF : 0 < fwhm) (k : Fin kn → Fin km → ℝ) :
    psfConvolve (fun (_ : Fin nW) (_ : Fin n) (_ : Fin m) => (0 : ℝ)) fwhm k = fun _ _ _ => Fl.nan := by
  unfold psfConvolve
  rw [if_pos hF]
  funext w y x
  simp only [convSame2_dark, Finset.sum_const_zero]
  exact dark_ratio

theorem instStage_dark {nW m : ℕ} (hW : 0 < nW) (hm : 0 < m) (wave : Fin nW → ℝ) (disp : ℝ) :
    instStage (fun (_ : Fin nW) (_ : Fin m) => (0 : ℝ)) wave disp =
      .ok (if 0 < disp then none else some fun _ _ => 0) := by
  unfold instStage
  split
  · unfold instConvolComplete convolInstConst
    simp only [convSame2_dark, Finset.sum_const_zero]
    congr 1
    unfold allFinite2
    rw [if_neg]
    intro h
    have := h ⟨0, hW⟩ ⟨0, hm⟩
    simp only [dark_ratio] at this
    cases this
  · rfl

theorem dark_tail (nWhole : ℕ) (psf : PSF) (xs ys : List ℝ) (g : Grid ℝ) (disp : ℝ) (wave : List ℝ) (S : ℕ)
    (hW : 0 < wave.length) (hN : 0 < nWhole) (hpY : g.nPixY = nWhole * S) (hY : g.nY = g.nPixY + 2 * g.padY)
    (hX : g.nX = g.nPixX + 2 * g.padX) (hY0 : 0 < g.nY) (hX0 : 0 < g.nX) :
    evalTail false true nWhole psf xs ys g disp wave (.ok fun _ _ _ => 0) =
      .ok (if 0 < psf.fwhm ∨ 0 < disp then none else some ⟨wave.length, nWhole, fun _ _ => 0⟩) := by
  unfold evalTail
  simp only [Bool.false_eq_true, if_false, if_true]
  have h0 : allFinite (fun (_ : Fin wave.length) (_ : Fin g.nY) (_ : Fin g.nX) => (0 : Fl ℝ)) = some fun _ _ _ => 0 :=
    allFinite_fin fun (_ : Fin wave.length) (_ : Fin g.nY) (_ : Fin g.nX) => (0 : ℝ)
  rw [h0]
  simp only
  by_cases hF : 0 < psf.fwhm
  · rw [psfConvolve_dark _ hF, if_pos (Or.inl hF)]
    have : allFinite (fun (_ : Fin wave.length) (_ : Fin g.nY) (_ : Fin g.nX) => (Fl.nan : Fl ℝ)) = none := by
      unfold allFinite
      rw [if_neg]
      intro h
      cases h ⟨0, hW⟩ ⟨0, hY0⟩ ⟨0, hX0⟩
    rw [this]
  · have hp : psfConvolve (fun (_ : Fin wave.length) (_ : Fin g.nY) (_ : Fin g.nX) => (0 : ℝ)) psf.fwhm (psf.stamp xs ys) =
        fun _ _ _ => Fl.fin 0 := by
      unfold psfConvolve
      rw [if_neg hF]
    rw [hp, allFinite_fin fun (_ : Fin wave.length) (_ : Fin g.nY) (_ : Fin g.nX) => (0 : ℝ)]
    simp only
    rw [dif_pos ⟨hY, hX⟩]
    have ht : (⟨wave.length, g.nPixY, trimSum (fun (_ : Fin wave.length) (_ : Fin g.nY) (_ : Fin g.nX) => (0 : ℝ)) g hY hX⟩ :
        Arr2) = ⟨wave.length, nWhole * S, fun _ _ => 0⟩ := by
      unfold trimSum
      simp only [Finset.sum_const_zero, zero_mul]
      clear hY
      generalize g.nPixY = q at hpY
      subst hpY
      rfl
    have hr : rebinArr ⟨wave.length, nWhole * S, fun _ _ => 0⟩ wave.length nWhole =
        .ok ⟨wave.length, nWhole, fun _ _ => 0⟩ := by
      unfold rebinArr
      simp only
      rw [rebin_rows wave.length nWhole S hW hN fun _ _ => 0]
      simp
    rw [ht, hr]
    simp only [dite_true]
    rw [instStage_dark hW hN]
    by_cases hd : 0 < disp
    · simp [hd]
    · simp [hd, hF]

theorem other_fixed (cfg : AperCfg) (hc : Luminous cfg.onVelocity) (hF : 0 ≤ cfg.psf.fwhm) (hst : ¬ cfg.psf.StampFails)
    (hsp : cfg.specType = .other) (va rt sig m z : ℝ) :
    ∃ f, setupCalcs cfg [va, rt, sig, m, z] = .ok f := by
  have hphys : GridIn.Phys (⟨cfg.nWhole, cfg.nSubpixels, cfg.pixscale, cfg.slit, cfg.psf.fwhm,
      cfg.padFactor, cfg.xc, cfg.m0 + m⟩ : GridIn ℝ) :=
    ⟨hc.rows, hc.sub, hc.pix, hc.slit, mul_nonneg hF hc.pad⟩
  obtain ⟨G, hG, -⟩ := setupGrid_ok _ hphys
  have e1 : fromEnd [va, rt, sig, m, z] 1 = .ok z := rfl
  have e2 : fromEnd [va, rt, sig, m, z] 2 = .ok m := rfl
  rw [setupCalcs_arrays hst]
  unfold setupArrays
  simp only [e1, e2, bind, Except.bind, hG, hsp]
  exact ⟨_, rfl⟩

/-! ## The property -/

theorem other_build (cfg : AperCfg) (hc : Luminous cfg.onVelocity) (hF : 0 ≤ cfg.psf.fwhm) (hst : ¬ cfg.psf.StampFails)
    (hfit : cfg.psf.fwhm = 0 ∨ KernelFits cfg) (hsp : cfg.specType = .other)
    (kin : KinProfile) (hk : kin.shape = (some 2, some 1)) (va rt sig m z : ℝ) (hrt : rt ≠ 0) :
    ∃ s r, buildModel cfg kin [va, rt, sig, m, z] = .ok (s, r) ∧ ShowsBlank cfg cfg.wave.length (blankOf cfg) r := by
  obtain ⟨f, hf⟩ := other_fixed cfg hc hF hst hsp va rt sig m z
  obtain ⟨h1, h2, -⟩ := setupCalcs_values cfg va rt sig m z f hf
  have hfl : f.floorValue = none := by
    rw [h1]; unfold floorValueOf
    rw [hsp]
    split
    · split <;> rfl
    · rfl
  have hup : f.upsampleValue = none := by
    rw [h2, hsp]; split <;> rfl
  have hkin : kin.updateTheta [va, rt, sig, m, z] = .ok (sharpKin va rt sig m z) := by
    rw [updateTheta_congr kin ⟨[], some ⟨[], 2⟩, some ⟨[], 1⟩⟩ (by rw [hk]; rfl)]
    rfl
  unfold buildModel
  rw [hf]
  simp only
  rw [doModelCalcs_eq]
  simp only [hkin]
  unfold calcsAfter blankOf
  by_cases ha : cfg.adaptive = true
  · have : checkUpsample cfg ⟨f, sharpKin va rt sig m z, cfg.wave, avgDiff cfg.wave⟩ =
        (⟨f, sharpKin va rt sig m z, cfg.wave, avgDiff cfg.wave⟩, .error .typeError) := by
      unfold checkUpsample sharpKin
      simp only [hup]
    rw [if_pos (Or.inl ha)]
    simp only [if_pos ha, this]
    exact ⟨_, _, rfl, rfl⟩
  · simp only [if_neg ha]
    by_cases hsf : cfg.sigmaFloor = true
    · have : (applySigmaFloor cfg ⟨f, sharpKin va rt sig m z, cfg.wave, avgDiff cfg.wave⟩).2 = .error .typeError := by
        unfold applySigmaFloor sharpKin
        by_cases hb : cfg.absvalsigma = true <;> simp [hsf, hfl, hb]
      rw [if_pos (Or.inr hsf)]
      simp only [this]
      exact ⟨_, _, rfl, rfl⟩
    · rw [if_neg (not_or.2 ⟨ha, hsf⟩)]
      obtain ⟨sg, hsg⟩ : ∃ sg, (applySigmaFloor cfg ⟨f, sharpKin va rt sig m z, cfg.wave, avgDiff cfg.wave⟩).2 = .ok sg := by
        unfold applySigmaFloor sharpKin
        by_cases hb : cfg.absvalsigma = true <;> simp [hsf, hb]
      have hvel : (applySigmaFloor cfg ⟨f, sharpKin va rt sig m z, cfg.wave, avgDiff cfg.wave⟩).1.kin.vel =
          some ⟨[va, rt], 2⟩ := by
        unfold applySigmaFloor sharpKin
        by_cases hb : cfg.absvalsigma = true <;> simp [hsf, hb]
      have hkeep := applySigmaFloor_keeps cfg ⟨f, sharpKin va rt sig m z, cfg.wave, avgDiff cfg.wave⟩
      simp only [hsg]
      generalize applySigmaFloor cfg ⟨f, sharpKin va rt sig m z, cfg.wave, avgDiff cfg.wave⟩ = U at *
      have hfix : U.1.fixed = f := hkeep.1
      have hwv : U.1.wave = cfg.wave := hkeep.2.1
      obtain ⟨f', hf', -, -, -, -, -, -, -, -, -, -, -, -, -, hker'⟩ :=
        luminous_setup cfg.onVelocity hc hF hst va rt sig m z
      obtain ⟨_, hm', hg, hxT, hyT⟩ := setupCalcs_trim _ _ _ hf
      cases hm'
      obtain ⟨_, hm', hg', hxT', hyT'⟩ := setupCalcs_trim _ _ _ hf'
      cases hm'
      have hgg : f'.grid = f.grid := by
        have : Except.ok (ε := PyErr) f'.grid = .ok f.grid := by rw [← hg, ← hg']; rfl
        exact Except.ok.inj this
      have hmiss : ¬ KernelMissing cfg f := by
        rintro ⟨hpos, h⟩
        rw [hxT, hyT, ← hgg] at h
        exact hker'.1 (by rw [hxT', hyT']; exact h) (hfit.resolve_left hpos.ne')
      obtain ⟨hpY, hpX, hqY, hqX, hnY, hnX, -⟩ := blur_grid cfg.onVelocity hc hF _ _ hg
      have hV : ∃ V, velCube cfg f U.1.kin = some V := by
        unfold velCube
        simp only [hvel, discVelocity_eq _ _ _ _ _ hrt]
        exact ⟨_, allFinite_fin fun (c : Fin f.grid.nZ) (b : Fin f.grid.nY) (a : Fin f.grid.nX) =>
          discVelocity va rt cfg.sini (f.xint c b a) (f.yint c b a)⟩
      obtain ⟨V, hV⟩ := hV
      obtain ⟨w0, step, N, -, hN, hwave⟩ := hc.wave
      have hwave : cfg.wave = uniformGrid w0 step N := hwave
      have hW : 0 < cfg.wave.length := by
        rw [hwave]; simp only [uniformGrid, List.length_map, List.length_range]; omega
      have hcol := slitCells_pos cfg.onVelocity hc.sub hc.pix hc.slit
      have hrow := Nat.mul_pos hc.rows hc.sub
      have heval : evalImage cfg f U.1.kin cfg.wave sg = .ok (if 0 < cfg.psf.fwhm ∨ 0 < cfg.res then none else
          some ⟨cfg.wave.length, cfg.nWhole, fun _ _ => 0⟩) := by
        have hm : cfg.slitMask = false := hc.mask
        have hr : cfg.rebinOutput = true := hc.reb
        have hz : addSigmaCollapseZ f.I V (fun _ _ _ => sg) cfg.wave.get f.z cfg.restwave cfg.ratios f.grid.deltZ
            cfg.specType = .ok fun _ _ _ => 0 := by rw [hsp]; rfl
        have hi : instDisp cfg f = cfg.res := by unfold instDisp; rw [hsp]
        rw [evalImage_stages hmiss, evalStages_eq_tail, hV]
        simp only
        rw [hz, hm, hr, hi]
        exact dark_tail cfg.nWhole cfg.psf f.xTrim f.yTrim f.grid cfg.res cfg.wave cfg.nSubpixels hW hc.rows hpY
          (by rw [hnY, hpY, hqY]; rfl) (by rw [hnX, hpX, hqX]; rfl)
          (by rw [hnY]; unfold nRows; omega) (by rw [hnX]; unfold nCols; omega)
      rw [hfix, hwv, heval]
      by_cases hd : 0 < cfg.psf.fwhm ∨ 0 < cfg.res
      · simp only [if_pos hd]
        exact ⟨_, _, rfl, rfl⟩
      · simp only [if_neg hd]
        exact ⟨_, _, rfl, _, rfl, rfl, rfl, fun _ _ => rfl⟩

/-- **C205** (partial: false as stated).  A set-up that works on a velocity axis is built without complaint when the type
of the spectral axis is neither `'wave'` nor `'velocity'`.  The image has no light: it is not finite with seeing or a
spectrograph, and zero without.  The only exception is a TypeError, with adaptive sampling or a floor. -/
theorem C205_exact_partial (cfg : AperCfg) (hc : Luminous cfg.onVelocity) (hF : 0 ≤ cfg.psf.fwhm)
    (hst : ¬ cfg.psf.StampFails) (hfit : cfg.psf.fwhm = 0 ∨ KernelFits cfg) (hsp : cfg.specType = .other)
    (t v d : List ℝ) (va rt sig m z : ℝ) (hrt : rt ≠ 0) :
    ∃ s r, buildModel cfg ⟨t, some ⟨v, 2⟩, some ⟨d, 1⟩⟩ [va, rt, sig, m, z] = .ok (s, r) ∧
      ShowsBlank cfg cfg.wave.length (blankOf cfg) r :=
  other_build cfg hc hF hst hfit hsp _ rfl va rt sig m z hrt

/-- the slit of the example with the type of the axis misspelt -/
noncomputable def misspelt (psf : PSF) (adaptive floor : Bool) (res : ℝ) : AperCfg :=
  { smallSlit psf with specType := .other, adaptive := adaptive, sigmaFloor := floor, res := res }

theorem misspelt_luminous (psf : PSF) (adaptive floor : Bool) (res : ℝ) (h1 : psf.kind = .gaussian → psf.dither = none)
    (h2 : psf.kind = .moffat → 1 < psf.beta) : Luminous (misspelt psf adaptive floor res).onVelocity := by
  have hl0 := smallSlit_luminous psf h1 h2
  exact ⟨hl0.rows, hl0.sub, hl0.pix, hl0.slit, hl0.pad, hl0.int, .inl rfl, hl0.mask, hl0.reb, hl0.wave,
    fun _ => ⟨rfl, 3, by norm_num, by simp [misspelt, AperCfg.onVelocity, smallSlit]⟩, hl0.dither, hl0.beta⟩

/-- all three cases happen -/
theorem C205_false_images : ∃ psf : PSF,
    (∃ s, buildModel (misspelt psf false false 1) ⟨[], some ⟨[], 2⟩, some ⟨[], 1⟩⟩ [1, 1, 1, 0, 0] = .ok (s, .ok none)) ∧
    (∃ s img, buildModel (misspelt psf false false 0) ⟨[], some ⟨[], 2⟩, some ⟨[], 1⟩⟩ [1, 1, 1, 0, 0] =
      .ok (s, .ok (some img)) ∧ ∀ i j, img.val i j = 0) ∧
    (∃ s, buildModel (misspelt psf true false 0) ⟨[], some ⟨[], 2⟩, some ⟨[], 1⟩⟩ [1, 1, 1, 0, 0] =
      .ok (s, .error .typeError)) := by
  refine ⟨⟨.gaussian, 0, 1, none⟩, ?_, ?_, ?_⟩
  all_goals
    have key := fun a r => C205_exact_partial (misspelt ⟨.gaussian, 0, 1, none⟩ a false r)
      (misspelt_luminous _ _ _ _ (fun _ => rfl) fun h => by cases h) le_rfl
      (by rintro ⟨h, -⟩; cases h) (Or.inl rfl) rfl [] [] [] 1 1 1 0 0 one_ne_zero
  · obtain ⟨s, r, h, hr⟩ := key false 1
    have : blankOf (misspelt ⟨.gaussian, 0, 1, none⟩ false false 1) = .notFinite := by
      simp [blankOf, misspelt]
    rw [this] at hr
    exact ⟨s, by rw [h, hr]⟩
  · obtain ⟨s, r, h, hr⟩ := key false 0
    have : blankOf (misspelt ⟨.gaussian, 0, 1, none⟩ false false 0) = .zeros := by
      simp [blankOf, misspelt, smallSlit]
    rw [this] at hr
    obtain ⟨img, hr, -, -, h0⟩ := hr
    exact ⟨s, img, by rw [h, hr], h0⟩
  · obtain ⟨s, r, h, hr⟩ := key true 0
    have : blankOf (misspelt ⟨.gaussian, 0, 1, none⟩ true false 0) = .refused := by
      simp [blankOf, misspelt]
    rw [this] at hr
    exact ⟨s, by rw [h, hr]⟩

end Misfit
