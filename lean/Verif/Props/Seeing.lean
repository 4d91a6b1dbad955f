import Verif.Lemmas.Bright

/-!
# Which point spread functions the slit model accepts

C148: a PSF of zero width.  C149: the model has an image for every PSF width.
-/

namespace Misfit

/-- A complete set-up: at least one row, positive sizes, light everywhere, the lines with their ratios (or a velocity
axis), equally spaced wavelengths, and for adaptive wavelength sampling an integer factor and a numpy that has
`np.float`.  Nothing is said about the width of the point spread function. -/
structure Luminous (cfg : AperCfg) : Prop where
  rows : 0 < cfg.nWhole
  sub : 0 < cfg.nSubpixels
  pix : 0 < cfg.pixscale
  slit : 0 < cfg.slit
  pad : 0 ≤ cfg.padFactor
  int : ∀ r z, 0 < cfg.int r z
  axis : cfg.specType = .velocity ∨ cfg.specType = .wave ∧ cfg.restwave ≠ [] ∧
    cfg.restwave.length ≤ cfg.ratios.length ∧ (∀ r ∈ cfg.restwave, 0 < r) ∧ ∀ f ∈ cfg.ratios, 0 < f
  mask : cfg.slitMask = false
  reb : cfg.rebinOutput = true
  wave : ∃ w0 step N, 0 < step ∧ 2 ≤ N ∧ cfg.wave = uniformGrid w0 step N
  adapt : cfg.adaptive = true → cfg.npFloat = true ∧ ∃ n : ℕ, 0 < n ∧ cfg.factor = n
  dither : cfg.psf.kind = .gaussian → cfg.psf.dither = none
  beta : cfg.psf.kind = .moffat → 1 < cfg.psf.beta

/-- the number of padding rows on either side -/
noncomputable def padRows (cfg : AperCfg) : ℕ :=
  (npRound (cfg.psf.fwhm * cfg.padFactor / (cfg.pixscale / cfg.nSubpixels))).toNat

/-- distance of neighbouring subpixel rows of the model grid (which is not the subpixel size, see C36) -/
noncomputable def rowStep (cfg : AperCfg) : ℝ :=
  cfg.pixscale / cfg.nSubpixels * ((((cfg.nWhole : ℝ) - 1) * cfg.nSubpixels + 2 * padRows cfg - 1) /
    ((cfg.nWhole : ℝ) * cfg.nSubpixels + 2 * padRows cfg - 1))

/-- The kernel of the point spread function has at least one pixel: the number of subpixels is odd, or the central two
are within one FWHM of the middle.  In both directions. -/
def KernelFits (cfg : AperCfg) : Prop :=
  (cfg.nWhole * cfg.nSubpixels % 2 = 0 → |rowStep cfg| / 2 ≤ cfg.psf.fwhm) ∧
  (slitCells cfg % 2 = 0 → cfg.slit / slitCells cfg / 2 ≤ cfg.psf.fwhm)

theorem luminous_fixed (cfg : AperCfg) (hc : Luminous cfg) (hst : ¬ cfg.psf.StampFails)
    (va rt sig m z : ℝ) (G : Grid ℝ) (hG : setupGrid ⟨cfg.nWhole, cfg.nSubpixels, cfg.pixscale, cfg.slit, cfg.psf.fwhm,
      cfg.padFactor, cfg.xc, cfg.m0 + m⟩ = .ok G) :
    ∃ f, setupCalcs cfg [va, rt, sig, m, z] = .ok f ∧ f.grid = G ∧
      f.z = z ∧ f.waveReal = cfg.wave ∧ f.deltReal = avgDiff cfg.wave ∧
      (cfg.sigmaFloor = true → ∃ v, f.floorValue = some v) ∧
      (cfg.adaptive = true → ∃ v, f.upsampleValue = some v) := by
  have hpd : ∀ d l, ∃ v, pixelDispersion cfg.specType d l = some v := by
    intro d l
    rcases hc.axis with hv | ⟨hw, -⟩
    · rw [hv]; exact ⟨_, rfl⟩
    · rw [hw]; exact ⟨_, rfl⟩
  have hfl : ∀ d l, cfg.sigmaFloor = true → ∃ v, floorValueOf cfg d l = some v := by
    intro d l h
    unfold floorValueOf
    rw [if_pos h]
    split
    · obtain ⟨v, hv⟩ := hpd (d / cfg.factor) l
      rw [hv]; exact ⟨_, rfl⟩
    · exact hpd _ _
  have hup : ∀ d l, cfg.adaptive = true →
      ∃ v, (if cfg.adaptive then pixelDispersion cfg.specType d l else none) = some v := by
    intro d l h
    rw [if_pos h]; exact hpd _ _
  have e1 : fromEnd [va, rt, sig, m, z] 1 = .ok z := rfl
  have e2 : fromEnd [va, rt, sig, m, z] 2 = .ok m := rfl
  rw [setupCalcs_arrays hst]
  unfold setupArrays
  rcases hc.axis with hv | ⟨hv, hne, -⟩
  · simp only [e1, e2, bind, Except.bind, hG, hv]
    rw [hv] at hup
    exact ⟨_, rfl, rfl, rfl, rfl, rfl, hfl _ _, hup _ _⟩
  · obtain ⟨r, rs, hr⟩ : ∃ r rs, cfg.restwave = r :: rs := by
      cases h : cfg.restwave with
      | nil => exact absurd h hne
      | cons r rs => exact ⟨r, rs, rfl⟩
    simp only [e1, e2, bind, Except.bind, hG, hv, hr, List.getElem?_cons_zero]
    rw [hv] at hup
    exact ⟨_, rfl, rfl, rfl, rfl, rfl, hfl _ _, hup _ _⟩

theorem luminous_xTrim (cfg : AperCfg) (hF : 0 ≤ cfg.psf.fwhm) (G : Grid ℝ) (hcells : G.nPixX = slitCells cfg)
    (hpX : 0 < G.nPixX) (hdX : G.deltX = cfg.slit / G.nPixX) (hdX0 : 0 < G.deltX) (hX : G.nX = G.nPixX + 2 * G.padX)
    (hxA : G.xArr = (linspace (-((G.nPixX : ℝ) / 2 + G.padX - 1 / 2) * G.deltX)
        (((G.nPixX : ℝ) / 2 + G.padX - 1 / 2) * G.deltX) G.nX).map (· - cfg.xc)) :
    trimToFwhm G.xArr cfg.psf.fwhm = [] ↔
      slitCells cfg % 2 = 0 ∧ cfg.psf.fwhm < cfg.slit / slitCells cfg / 2 := by
  have hpos : 0 < cfg.slit / slitCells cfg := by rw [← hcells, ← hdX]; exact hdX0
  have hmod : (G.nPixX + 2 * G.padX) % 2 = slitCells cfg % 2 := by rw [hcells]; omega
  rw [hxA, linspace_steps, trim_steps_nil _ G.nX _ _ _ (by rw [hX]; omega) hF rfl, hX, hmod]
  refine and_congr_right fun hev => ?_
  have h1 : G.nPixX + 2 * G.padX ≠ 1 := by omega
  rw [if_neg h1]
  have h2 : (((G.nPixX : ℝ) / 2 + G.padX - 1 / 2) * G.deltX - -((G.nPixX : ℝ) / 2 + G.padX - 1 / 2) * G.deltX) /
      (((G.nPixX + 2 * G.padX : ℕ) : ℝ) - 1) = cfg.slit / slitCells cfg := by
    have h3 : ((G.nPixX + 2 * G.padX : ℕ) : ℝ) - 1 ≠ 0 := by
      rw [sub_ne_zero]; exact_mod_cast h1
    rw [div_eq_iff h3, ← hcells, ← hdX]
    push_cast
    ring
  rw [h2, abs_of_pos hpos]

theorem luminous_yTrim (cfg : AperCfg) (hF : 0 ≤ cfg.psf.fwhm) (hNS : 0 < cfg.nWhole * cfg.nSubpixels) (m : ℝ)
    (G : Grid ℝ) (hnY : G.nPixY = cfg.nWhole * cfg.nSubpixels) (hdY : G.deltY = cfg.pixscale / cfg.nSubpixels)
    (hpr : G.padY = padRows cfg) (hY : G.nY = G.nPixY + 2 * G.padY)
    (hyA : G.yArr = (linspace (-((G.padY : ℝ) - 1 / 2) * G.deltY)
        ((((cfg.nWhole : ℝ) - 1) * cfg.nSubpixels + G.padY - 1 / 2) * G.deltY) G.nY).map (· - m)) :
    trimToFwhm G.yArr cfg.psf.fwhm = [] ↔
      cfg.nWhole * cfg.nSubpixels % 2 = 0 ∧ cfg.psf.fwhm < |rowStep cfg| / 2 := by
  have hmod : (cfg.nWhole * cfg.nSubpixels + 2 * padRows cfg) % 2 = cfg.nWhole * cfg.nSubpixels % 2 := by omega
  rw [hyA, linspace_steps, trim_steps_nil _ G.nY _ _ _ (by rw [hY, hnY]; omega) hF rfl, hY, hnY, hpr, hmod]
  refine and_congr_right fun hev => ?_
  have h1 : cfg.nWhole * cfg.nSubpixels + 2 * padRows cfg ≠ 1 := by omega
  rw [if_neg h1]
  have h2 : ((((cfg.nWhole : ℝ) - 1) * cfg.nSubpixels + padRows cfg - 1 / 2) * G.deltY -
      -((padRows cfg : ℝ) - 1 / 2) * G.deltY) /
      (((cfg.nWhole * cfg.nSubpixels + 2 * padRows cfg : ℕ) : ℝ) - 1) = rowStep cfg := by
    unfold rowStep
    rw [hdY]
    push_cast
    rw [← mul_div_assoc]
    congr 1
    ring
  rw [h2]

/-- the attributes of a complete set-up -/
theorem luminous_setup (cfg : AperCfg) (hc : Luminous cfg) (hF : 0 ≤ cfg.psf.fwhm) (hst : ¬ cfg.psf.StampFails)
    (va rt sig m z : ℝ) : ∃ f, setupCalcs cfg [va, rt, sig, m, z] = .ok f ∧ f.z = z ∧
      f.grid.nPixY = cfg.nWhole * cfg.nSubpixels ∧ f.grid.nY = f.grid.nPixY + 2 * f.grid.padY ∧
      f.grid.nX = f.grid.nPixX + 2 * f.grid.padX ∧ f.grid.nZ = f.grid.nPixY ∧ 0 < f.grid.nPixX ∧
      0 < f.grid.deltX ∧ 0 < f.grid.deltZ ∧ (∀ c b a, 0 < f.I c b a) ∧
      f.waveReal = cfg.wave ∧ f.deltReal = avgDiff cfg.wave ∧
      (cfg.sigmaFloor = true → ∃ v, f.floorValue = some v) ∧
      (cfg.adaptive = true → ∃ v, f.upsampleValue = some v) ∧
      ((f.xTrim = [] ∨ f.yTrim = []) ↔ ¬ KernelFits cfg) := by
  have hphys : GridIn.Phys (⟨cfg.nWhole, cfg.nSubpixels, cfg.pixscale, cfg.slit, cfg.psf.fwhm,
      cfg.padFactor, cfg.xc, cfg.m0 + m⟩ : GridIn ℝ) :=
    ⟨hc.rows, hc.sub, hc.pix, hc.slit, mul_nonneg hF hc.pad⟩
  obtain ⟨G, hG, hnY, hdY, hdZ, hdpos, hpX, -, hdX0, -, hX, hY, hZ, hpadY, -, hxA, -, hyA⟩ :=
    setupGrid_ok _ hphys
  obtain ⟨hnX, hdX⟩ := setupGrid_nPixX _ _ hc.sub hc.pix hG
  simp only at hnY hdY hnX hdX hyA hpadY hxA
  obtain ⟨f, hf, hfg, hfz, hfw, hfd, hff, hfu⟩ := luminous_fixed cfg hc hst va rt sig m z G hG
  obtain ⟨_, _, -, -, -, -, -, -, hI⟩ := setupCalcs_inv _ _ _ hf
  obtain ⟨_, -, -, hxT, hyT⟩ := setupCalcs_trim _ _ _ hf
  have hx := luminous_xTrim cfg hF G hnX hpX hdX hdX0 hX hxA
  have hy := luminous_yTrim cfg hF (Nat.mul_pos hc.rows hc.sub) _ G hnY hdY (by rw [hpadY, hdY]; rfl) hY hyA
  rw [← hfg] at hx hy hnY hdX0 hX hY hZ hdZ hdpos hpX
  rw [← hxT] at hx
  rw [← hyT] at hy
  refine ⟨f, hf, hfz, hnY, hY, hX, hZ, hpX, hdX0, by rw [hdZ]; exact hdpos,
    fun c b a => by rw [hI]; exact hc.int _ _, hfw, hfd, hff, hfu, ?_⟩
  rw [hx, hy]
  unfold KernelFits
  constructor
  · rintro (⟨h1, h2⟩ | ⟨h1, h2⟩) ⟨h3, h4⟩
    · exact absurd (h4 h1) (not_le.2 h2)
    · exact absurd (h3 h1) (not_le.2 h2)
  · intro h
    by_contra hn
    obtain ⟨h1, h2⟩ := not_or.1 hn
    exact h ⟨fun h3 => not_lt.1 fun h4 => h2 ⟨h3, h4⟩, fun h3 => not_lt.1 fun h4 => h1 ⟨h3, h4⟩⟩

/-- one evaluation of a complete set-up with a kernel -/
theorem luminous_eval (cfg : AperCfg) (hc : Luminous cfg) (f : AperFixed) (theta : List ℝ)
    (hf : setupCalcs cfg theta = .ok f) (kin : KinProfile) (va rt sg : ℝ)
    (hv : ∃ n, kin.vel = some ⟨[va, rt], n⟩) (hrt : rt ≠ 0) (hs : 0 < sg) (hz : 0 < 1 + f.z)
    (wave : List ℝ) (w0 step : ℝ) (hw : ∀ i : Fin wave.length, wave.get i = w0 + i.val * step) (hW : 0 < wave.length)
    (hnY : f.grid.nPixY = cfg.nWhole * cfg.nSubpixels) (hY : f.grid.nY = f.grid.nPixY + 2 * f.grid.padY)
    (hX : f.grid.nX = f.grid.nPixX + 2 * f.grid.padX) (hZ : f.grid.nZ = f.grid.nPixY) (hpX : 0 < f.grid.nPixX)
    (hdX : 0 < f.grid.deltX) (hdZ : 0 < f.grid.deltZ) (hI : ∀ c b a, 0 < f.I c b a) :
    (KernelMissing cfg f → evalImage cfg f kin wave sg = .error .indexError) ∧
    (¬ KernelMissing cfg f → ∃ a : Arr2, evalImage cfg f kin wave sg = .ok (some a) ∧ a.n = wave.length ∧
      a.m = cfg.nWhole ∧ ∀ i j, 0 < a.val i j) := by
  have hNS : 0 < cfg.nWhole * cfg.nSubpixels := Nat.mul_pos hc.rows hc.sub
  obtain ⟨n, hv⟩ := hv
  have hvel : velCube cfg f kin = some fun c b a => discVelocity va rt cfg.sini (f.xint c b a) (f.yint c b a) := by
    unfold velCube
    simp only [hv, discVelocity_eq _ _ _ _ _ hrt]
    exact allFinite_fin fun (c : Fin f.grid.nZ) (b : Fin f.grid.nY) (a : Fin f.grid.nX) =>
      discVelocity va rt cfg.sini (f.xint c b a) (f.yint c b a)
  obtain ⟨C, hC, hcube⟩ := cube_pos f.I (fun c b a => discVelocity va rt cfg.sini (f.xint c b a) (f.yint c b a))
    wave.get f.z f.grid.deltZ sg cfg.restwave cfg.ratios cfg.specType hc.axis (by rw [hZ, hnY]; exact hNS)
    (by rw [hY, hnY]; omega) (by rw [hX]; omega) hI hs hz hdZ
  have hstages : evalStages cfg f kin wave sg = evalTail false true cfg.nWhole cfg.psf f.xTrim f.yTrim f.grid
      (instDisp cfg f) wave (.ok fun w b a => .fin (C w b a)) := by
    rw [evalStages_eq_tail, hvel]
    simp only
    rw [hcube, hc.mask, hc.reb]
  constructor
  · intro hk
    unfold evalImage
    rw [if_pos hk, hstages]
    have : ∃ o, evalTail false true cfg.nWhole cfg.psf f.xTrim f.yTrim f.grid (instDisp cfg f) wave
        (.ok fun w b a => .fin (C w b a)) = .ok o := by
      unfold evalTail
      simp only [Bool.false_eq_true, if_false, if_true, allFinite_fin]
      split
      · exact ⟨_, rfl⟩
      · rename_i conv _
        rw [dif_pos ⟨hY, hX⟩]
        obtain ⟨out, h1, -⟩ := C33_blocks wave.length cfg.nWhole 1 cfg.nSubpixels hW hc.rows one_pos hc.sub
          (fun u v => trimSum conv f.grid hY hX (Fin.cast (by simp) u) (Fin.cast hnY.symm v))
        have hr : ∃ b, rebinArr ⟨wave.length, f.grid.nPixY, trimSum conv f.grid hY hX⟩ wave.length cfg.nWhole =
            .ok b ∧ b.n = wave.length := by
          unfold rebinArr
          have hk : ∀ (p q : ℕ) (A : Fin p → Fin q → ℝ), p = wave.length * 1 → q = cfg.nWhole * cfg.nSubpixels →
              ∃ o, rebin A wave.length cfg.nWhole = .ok o := by
            intro p q A hp hq
            subst hp hq
            obtain ⟨o, h, -⟩ := C33_blocks wave.length cfg.nWhole 1 cfg.nSubpixels hW hc.rows one_pos hc.sub A
            exact ⟨o, h⟩
          obtain ⟨o, ho⟩ := hk _ _ (trimSum conv f.grid hY hX) (by simp) hnY
          simp only [ho]
          exact ⟨_, rfl, rfl⟩
        obtain ⟨b, hb, hbn⟩ := hr
        simp only [hb]
        rw [dif_pos hbn]
        unfold instStage
        by_cases hd : 0 < instDisp cfg f
        · simp only [if_pos hd, instConvolComplete]
          split
          · rename_i h; cases h
          · exact ⟨_, rfl⟩
          · exact ⟨_, rfl⟩
        · simp only [if_neg hd]
          exact ⟨_, rfl⟩
    obtain ⟨o, ho⟩ := this
    rw [ho]
  · intro hk
    rw [evalImage_stages hk, hstages]
    refine evalTail_pos cfg.nWhole cfg.nSubpixels hc.rows hc.sub cfg.psf f.xTrim f.yTrim f.grid _ wave w0 step hw hW
      hnY hY hX hpX hdX (fun h => ⟨fun e => hk ⟨h, Or.inl e⟩, fun e => hk ⟨h, Or.inr e⟩, fun j i =>
        stamp_pos cfg.psf h hc.dither hc.beta _ _ j i⟩) C hC

/-- the wavelengths of an evaluation of a complete set-up -/
theorem luminous_sampled (cfg : AperCfg) (hc : Luminous cfg) (s : AperState) (sig : ℝ) (hs : 0 < sig)
    (hd : s.kin.disp = some ⟨[sig], 1⟩) (hw : s.wave = cfg.wave) (hdr : s.fixed.deltReal = avgDiff cfg.wave)
    (hu : cfg.adaptive = true → ∃ v, s.fixed.upsampleValue = some v) :
    (sampled cfg s).2 = .ok () ∧ (sampled cfg s).1.kin = s.kin ∧ (sampled cfg s).1.fixed = s.fixed ∧
      ∃ (w0 step : ℝ) (n : ℕ), 0 < n ∧ (cfg.adaptive = false → n = 1) ∧
        (sampled cfg s).1.wave.length = cfg.wave.length * n ∧
        ∀ i : Fin (sampled cfg s).1.wave.length, (sampled cfg s).1.wave.get i = w0 + i.val * step := by
  obtain ⟨w0, step, N, hst, hN, hwave⟩ := hc.wave
  have hlen : cfg.wave.length = N := by rw [hwave]; simp [uniformGrid]
  have hbase : ∀ i : Fin s.wave.length, s.wave.get i = w0 + i.val * step := by
    rw [hw, hwave]
    intro i
    rw [List.get_eq_getElem]
    simp only [uniformGrid, List.getElem_map, List.getElem_range]
  unfold sampled
  by_cases ha : cfg.adaptive = true
  · rw [if_pos ha]
    obtain ⟨lim, hlim⟩ := hu ha
    obtain ⟨hnp, n, hn, hfac⟩ := hc.adapt ha
    by_cases hlt : |sig| < lim
    · have hn0 : (0 : ℝ) < n := by exact_mod_cast hn
      have h := checkUpsample_uniform cfg s ⟨[sig], 1⟩ sig lim w0 step N hN hst (by rw [hfac]; exact hn0) hnp hd rfl
        hlim hlt (by rw [hw]; exact hwave) (by rw [hdr, hwave]; exact avgDiff_uniform _ _ _ hN)
      rw [h]
      refine ⟨rfl, rfl, rfl, ?_⟩
      simp only
      have hnum : (npRound ((N : ℝ) * cfg.factor)).toNat = N * n := by
        rw [hfac, ← Nat.cast_mul, npRound_nat, Int.toNat_natCast]
      rw [hnum]
      have h1 : N * n ≠ 1 := by
        have : 2 ≤ N * n := by nlinarith
        omega
      refine ⟨w0 - 1 / 2 * (step - step / cfg.factor), (w0 + ((N : ℝ) - 1) * step + 1 / 2 * (step - step / cfg.factor) -
        (w0 - 1 / 2 * (step - step / cfg.factor))) / (((N * n : ℕ) : ℝ) - 1), n, hn, ?_, ?_, fun i => ?_⟩
      · intro h; rw [ha] at h; cases h
      · rw [linspace_length, hlen]
      have hi : i.val < N * n := i.isLt.trans_eq (linspace_length _ _ _)
      have h2 := linspace_get (w0 - 1 / 2 * (step - step / cfg.factor))
        (w0 + ((N : ℝ) - 1) * step + 1 / 2 * (step - step / cfg.factor)) (N * n) i.val hi
      rw [if_neg h1, List.getElem?_eq_getElem i.isLt] at h2
      rw [List.get_eq_getElem, Option.some.inj h2, add_comm]
    · have : checkUpsample cfg s = (s, .ok ()) := by
        unfold checkUpsample
        simp only [hd, hlim, List.getElem?_cons_zero, if_neg hlt]
      rw [this]
      exact ⟨rfl, rfl, rfl, w0, step, 1, one_pos, fun _ => rfl, by simp [hw], hbase⟩
  · rw [if_neg ha]
    exact ⟨rfl, rfl, rfl, w0, step, 1, one_pos, fun _ => rfl, by simp [hw], hbase⟩

/-- **C149**, the exact condition: a complete set-up with rotation radius not zero and positive dispersion builds a
model; the model has an image, finite and positive in every pixel and of the shape of the data, when the width of the
point spread function is zero or its kernel is not empty (`KernelFits`), and otherwise its evaluation is an
IndexError. -/
theorem C149_exact (cfg : AperCfg) (hc : Luminous cfg) (hF : 0 ≤ cfg.psf.fwhm) (hst : ¬ cfg.psf.StampFails)
    (kin : KinProfile) (hk : kin.shape = (some 2, some 1)) (va rt sig m z : ℝ) (hrt : rt ≠ 0) (hs : 0 < sig)
    (hz : 0 < 1 + z) :
    ∃ s r, buildModel cfg kin [va, rt, sig, m, z] = .ok (s, r) ∧
      ((cfg.psf.fwhm = 0 ∨ KernelFits cfg) → ∃ img : Arr2, r = .ok (some img) ∧ img.n = cfg.nWhole ∧
        img.m = cfg.wave.length ∧ ∀ i j, 0 < img.val i j) ∧
      (¬ (cfg.psf.fwhm = 0 ∨ KernelFits cfg) → r = .error .indexError) := by
  obtain ⟨f, hf, hfz, hnY, hY, hX, hZ, hpX, hdX, hdZ, hI, hfw, hfd, hff, hfu, hker⟩ :=
    luminous_setup cfg hc hF hst va rt sig m z
  have hup : kin.updateTheta [va, rt, sig, m, z] = .ok (sharpKin va rt sig m z) := by
    rw [updateTheta_congr kin ⟨[], some ⟨[], 2⟩, some ⟨[], 1⟩⟩ (by rw [hk]; rfl)]
    rfl
  obtain ⟨h1, h2, h3, w0, step, n, hn, hn1, hlen, hwav⟩ := luminous_sampled cfg hc
    ⟨f, sharpKin va rt sig m z, cfg.wave, avgDiff cfg.wave⟩ sig hs rfl rfl hfd hfu
  obtain ⟨sg, h4, h5, h6⟩ := applySigmaFloor_pos cfg
    (sampled cfg ⟨f, sharpKin va rt sig m z, cfg.wave, avgDiff cfg.wave⟩).1 sig (by rw [h2]; rfl) hs
    (by rw [h3]; exact hff)
  have hkeep := applySigmaFloor_keeps cfg (sampled cfg ⟨f, sharpKin va rt sig m z, cfg.wave, avgDiff cfg.wave⟩).1
  have hW0 : 0 < cfg.wave.length := by
    obtain ⟨w0, step, N, -, hN, hwave⟩ := hc.wave
    rw [hwave]
    simp only [uniformGrid, List.length_map, List.length_range]
    omega
  unfold buildModel
  rw [hf]
  simp only
  rw [doModelCalcs_eq]
  simp only [hup]
  unfold calcsAfter
  have hsam : (if cfg.adaptive = true then checkUpsample cfg ⟨f, sharpKin va rt sig m z, cfg.wave, avgDiff cfg.wave⟩
      else (⟨f, sharpKin va rt sig m z, cfg.wave, avgDiff cfg.wave⟩, .ok ())) =
      sampled cfg ⟨f, sharpKin va rt sig m z, cfg.wave, avgDiff cfg.wave⟩ := rfl
  simp only [hsam]
  generalize sampled cfg ⟨f, sharpKin va rt sig m z, cfg.wave, avgDiff cfg.wave⟩ = U at *
  simp only [h1, h4]
  have heval := luminous_eval cfg hc f _ hf (applySigmaFloor cfg U.1).1.kin va rt sg
    ⟨2, by rw [h6, h2]; rfl⟩ hrt h5 (by rw [hfz]; exact hz) U.1.wave w0 step hwav
    (by rw [hlen]; exact Nat.mul_pos hW0 hn) hnY hY hX hZ hpX hdX hdZ hI
  have hmiss : KernelMissing cfg f ↔ ¬ (cfg.psf.fwhm = 0 ∨ KernelFits cfg) := by
    unfold KernelMissing
    constructor
    · rintro ⟨h, h'⟩ (h0 | h0)
      · exact h.ne' h0
      · exact hker.1 h' h0
    · intro h
      obtain ⟨h0, h0'⟩ := not_or.1 h
      have hp := lt_of_le_of_ne hF (Ne.symm h0)
      exact ⟨hp, hker.2 h0'⟩
  have hfix : (applySigmaFloor cfg U.1).1.fixed = f := by rw [hkeep.1, h3]
  have hwv : (applySigmaFloor cfg U.1).1.wave = U.1.wave := hkeep.2.1
  have he : evalImage cfg (applySigmaFloor cfg U.1).1.fixed (applySigmaFloor cfg U.1).1.kin
      (applySigmaFloor cfg U.1).1.wave sg = evalImage cfg f (applySigmaFloor cfg U.1).1.kin U.1.wave sg := by
    rw [hfix, hwv]
  by_cases hcase : cfg.psf.fwhm = 0 ∨ KernelFits cfg
  · obtain ⟨a, ha, han, ham, hapos⟩ := heval.2 fun h => (hmiss.1 h) hcase
    rw [he, ha]
    simp only
    by_cases had : cfg.adaptive = true
    · obtain ⟨b, hb, hbn, hbm, hbpos⟩ := rebinArr_pos a cfg.wave.length cfg.nWhole n 1 hW0 hc.rows hn one_pos
        (by rw [han, hlen]) (by rw [ham, mul_one]) hapos
      simp only [if_pos had]
      have hds : (downsample cfg (applySigmaFloor cfg U.1).1 (some a)).2 = .ok (some b) := by
        unfold downsample
        simp only [hfix, hfw, hb]
      refine ⟨_, _, rfl, fun _ => ⟨b.T, ?_, hbm, hbn, fun i j => hbpos j i⟩, fun h => absurd hcase h⟩
      rw [hds]
      rfl
    · simp only [if_neg had]
      refine ⟨_, _, rfl, fun _ => ⟨a.T, rfl, ham, ?_, fun i j => hapos j i⟩, fun h => absurd hcase h⟩
      have : n = 1 := hn1 (by simpa using had)
      show a.n = _
      rw [han, hlen, this, mul_one]
  · rw [he, heval.1 (hmiss.2 hcase)]
    exact ⟨_, _, rfl, fun h => absurd h hcase, fun _ => rfl⟩

theorem kernelFits_wide (cfg : AperCfg) (hc : Luminous cfg) (hwide : cfg.pixscale / cfg.nSubpixels / 2 ≤ cfg.psf.fwhm) :
    KernelFits cfg := by
  have hS : (0 : ℝ) < cfg.nSubpixels := by exact_mod_cast hc.sub
  have hN : (1 : ℝ) ≤ cfg.nWhole := by exact_mod_cast hc.rows
  have hS1 : (1 : ℝ) ≤ cfg.nSubpixels := by exact_mod_cast hc.sub
  have hpix := hc.pix
  constructor
  · intro hev
    refine le_trans ?_ hwide
    have hp0 : (0 : ℝ) ≤ padRows cfg := Nat.cast_nonneg _
    have hge : (2 : ℝ) ≤ (cfg.nWhole : ℝ) * cfg.nSubpixels := by
      have : 2 ≤ cfg.nWhole * cfg.nSubpixels := by
        have := Nat.mul_pos hc.rows hc.sub
        omega
      exact_mod_cast this
    have hden : 0 < (cfg.nWhole : ℝ) * cfg.nSubpixels + 2 * padRows cfg - 1 := by linarith
    have hratio : |(((cfg.nWhole : ℝ) - 1) * cfg.nSubpixels + 2 * padRows cfg - 1) /
        ((cfg.nWhole : ℝ) * cfg.nSubpixels + 2 * padRows cfg - 1)| ≤ 1 := by
      rw [abs_div, abs_of_pos hden, div_le_one hden, abs_le]
      constructor
      · nlinarith
      · nlinarith
    have : |rowStep cfg| ≤ cfg.pixscale / cfg.nSubpixels := by
      unfold rowStep
      rw [abs_mul, abs_of_pos (div_pos hpix hS)]
      exact mul_le_of_le_one_right (div_pos hpix hS).le hratio
    linarith
  · intro hev
    refine le_trans ?_ hwide
    have hc0 : (0 : ℝ) < slitCells cfg := by
      have : 0 < slitCells cfg := by
        unfold slitCells
        have : 0 < ⌈cfg.slit * cfg.nSubpixels / cfg.pixscale⌉ :=
          Int.ceil_pos.2 (div_pos (mul_pos hc.slit hS) hpix)
        omega
      exact_mod_cast this
    have hle : cfg.slit * cfg.nSubpixels / cfg.pixscale ≤ slitCells cfg := by
      unfold slitCells
      have h1 := Int.le_ceil (cfg.slit * cfg.nSubpixels / cfg.pixscale)
      have h2 : (⌈cfg.slit * cfg.nSubpixels / cfg.pixscale⌉ : ℤ) ≤
          ((⌈cfg.slit * cfg.nSubpixels / cfg.pixscale⌉.toNat : ℕ) : ℤ) := Int.self_le_toNat _
      have h3 : ((⌈cfg.slit * cfg.nSubpixels / cfg.pixscale⌉ : ℤ) : ℝ) ≤
          ((⌈cfg.slit * cfg.nSubpixels / cfg.pixscale⌉.toNat : ℕ) : ℝ) := by exact_mod_cast h2
      exact h1.trans h3
    have : cfg.slit / slitCells cfg ≤ cfg.pixscale / cfg.nSubpixels := by
      rw [div_le_div_iff₀ hc0 hS]
      rw [div_le_iff₀ hpix] at hle
      linarith
    linarith

/-- **C149**, the usable part: a width of at least half a subpixel always gives an image, finite and positive in every
pixel, for a new model and for every later evaluation after any sequence of evaluations that returned.  Missing:
smaller widths, see `C149_false` and the exact condition `C149_exact`. -/
theorem C149_wide_partial (cfg : AperCfg) (hc : Luminous cfg) (hF : 0 < cfg.psf.fwhm)
    (hwide : cfg.pixscale / cfg.nSubpixels / 2 ≤ cfg.psf.fwhm) (t v d : List ℝ) (va rt sig m z : ℝ) (hrt : rt ≠ 0)
    (hs : 0 < sig) (hz : 0 < 1 + z) :
    ∃ s img, buildModel cfg ⟨t, some ⟨v, 2⟩, some ⟨d, 1⟩⟩ [va, rt, sig, m, z] = .ok (s, .ok (some img)) ∧
      img.n = cfg.nWhole ∧ img.m = cfg.wave.length ∧ (∀ i j, 0 < img.val i j) ∧
      ∀ (hist : List (List ℝ)) (va' rt' sig' m' z' : ℝ), AllReturn cfg s hist → rt' ≠ 0 → 0 < sig' →
        ∃ img' : Arr2, (updateModel cfg (runUpdates cfg s hist) [va', rt', sig', m', z']).2 = .ok (some img') ∧
          img'.n = cfg.nWhole ∧ img'.m = cfg.wave.length ∧ ∀ i j, 0 < img'.val i j := by
  have hS : (0 : ℝ) < cfg.nSubpixels := by exact_mod_cast hc.sub
  have hN : (1 : ℝ) ≤ cfg.nWhole := by exact_mod_cast hc.rows
  have hS1 : (1 : ℝ) ≤ cfg.nSubpixels := by exact_mod_cast hc.sub
  have hpix := hc.pix
  have hst : ¬ cfg.psf.StampFails := by
    rintro ⟨hk, h | h⟩
    · exact hF.ne' h
    · have := hc.beta hk; linarith
  have hfit := kernelFits_wide cfg hc hwide
  have hall : ∀ (va rt sig : ℝ), rt ≠ 0 → 0 < sig → ∃ s img,
      buildModel cfg ⟨t, some ⟨v, 2⟩, some ⟨d, 1⟩⟩ [va, rt, sig, m, z] = .ok (s, .ok (some img)) ∧
      img.n = cfg.nWhole ∧ img.m = cfg.wave.length ∧ ∀ i j, 0 < img.val i j := by
    intro va rt sig hrt hs
    obtain ⟨s, r, h1, h2, -⟩ := C149_exact cfg hc hF.le hst ⟨t, some ⟨v, 2⟩, some ⟨d, 1⟩⟩ rfl va rt sig m z hrt hs hz
    obtain ⟨img, h3, h4⟩ := h2 (Or.inr hfit)
    exact ⟨s, img, by rw [h1, h3], h4⟩
  obtain ⟨s, img, h1, h2, h3, h4⟩ := hall va rt sig hrt hs
  refine ⟨s, img, h1, h2, h3, h4, fun hist va' rt' sig' m' z' hret hrt' hs' => ?_⟩
  obtain ⟨s', h⟩ := C37_exact cfg t v d va rt sig m z va' rt' sig' m' z' hist s _ h1 fun _ => ⟨⟨_, rfl⟩, hret⟩
  obtain ⟨s'', img', h5, h6⟩ := hall va' rt' sig' hrt' hs'
  rw [h] at h5
  simp only [Except.ok.injEq, Prod.mk.injEq] at h5
  exact ⟨img', h5.2, h6⟩

/-- **C148**, what holds: with a Gaussian point spread function of zero width the model image is, pixel by pixel, the
image without any blurring (the specification `pixelSpec`), whatever the PSF's other settings.  Missing: the Moffat
class, see `C148_false`. -/
theorem C148_gaussian_partial (cfg : AperCfg) (hc : Sharp cfg) (beta : ℝ) (dither : Option ℝ) (t v d : List ℝ)
    (va rt sig m z : ℝ) (hrt : rt ≠ 0) (hs : 0 < sig) (hz : 0 < 1 + z) :
    ∃ s, buildModel { cfg with psf := ⟨.gaussian, 0, beta, dither⟩ } ⟨t, some ⟨v, 2⟩, some ⟨d, 1⟩⟩
      [va, rt, sig, m, z] = .ok (s, .ok (some ⟨cfg.nWhole, cfg.wave.length,
        fun i j => pixelSpec cfg va rt sig (cfg.m0 + m) z i.val (cfg.wave.get j)⟩)) := by
  have hc' : Sharp { cfg with psf := ⟨.gaussian, 0, beta, dither⟩ } := by
    obtain ⟨⟩ := hc
    constructor <;> first | assumption | rfl
  exact sharp_calcs _ hc' _ rfl va rt sig m z hrt hs hz

/-- **C148** is false: with a Moffat point spread function of zero width no model can be built, whatever the set-up;
where every other part of the set-up is in order the exception is a ZeroDivisionError. -/
theorem C148_false (cfg : AperCfg) (hk : cfg.psf.kind = .moffat) (hf : cfg.psf.fwhm = 0) (kin : KinProfile)
    (theta : List ℝ) : (∃ e, buildModel cfg kin theta = .error e) ∧
      (Luminous cfg → ∀ va rt sig m z, theta = [va, rt, sig, m, z] →
        buildModel cfg kin theta = .error .zeroDivisionError) := by
  have hst : cfg.psf.StampFails := ⟨hk, Or.inl hf⟩
  constructor
  · unfold buildModel setupCalcs
    cases setupArrays cfg theta with
    | error e => exact ⟨e, rfl⟩
    | ok f => simp only [if_pos hst]; exact ⟨_, rfl⟩
  · rintro hc va rt sig m z rfl
    have hphys : GridIn.Phys (⟨cfg.nWhole, cfg.nSubpixels, cfg.pixscale, cfg.slit, cfg.psf.fwhm,
        cfg.padFactor, cfg.xc, cfg.m0 + m⟩ : GridIn ℝ) :=
      ⟨hc.rows, hc.sub, hc.pix, hc.slit, by simp [hf]⟩
    obtain ⟨G, hG, -⟩ := setupGrid_ok _ hphys
    have e1 : fromEnd [va, rt, sig, m, z] 1 = .ok z := rfl
    have e2 : fromEnd [va, rt, sig, m, z] 2 = .ok m := rfl
    have : ∃ f, setupArrays cfg [va, rt, sig, m, z] = .ok f := by
      unfold setupArrays
      rcases hc.axis with hv | ⟨hv, hne, -⟩
      · simp only [e1, e2, bind, Except.bind, hG, hv]
        exact ⟨_, rfl⟩
      · obtain ⟨r, rs, hr⟩ : ∃ r rs, cfg.restwave = r :: rs := by
          cases h : cfg.restwave with
          | nil => exact absurd h hne
          | cons r rs => exact ⟨r, rs, rfl⟩
        simp only [e1, e2, bind, Except.bind, hG, hv, hr, List.getElem?_cons_zero]
        exact ⟨_, rfl⟩
    obtain ⟨f, hf'⟩ := this
    unfold buildModel setupCalcs
    rw [hf']
    simp only [if_pos hst]

/-- two rows of two subpixels (the default subsampling), two wavelengths, everything else of unit size -/
noncomputable def smallSlit (psf : PSF) : AperCfg where
  nWhole := 2
  wave := uniformGrid 1 1 2
  restwave := [1]
  ratios := [1]
  m0 := 1 / 2
  sini := 1 / 2
  deltPA := 0
  pixscale := 1
  slit := 1
  psf := psf
  res := 1
  slitMask := false
  int := fun _ _ => 1
  nSubpixels := 2
  padFactor := 1 / 2
  xc := 0
  rebinOutput := true
  specType := .wave
  absvalsigma := false
  adaptive := true
  factor := 3
  sigmaFloor := true
  npFloat := true

theorem smallSlit_luminous (psf : PSF) (h1 : psf.kind = .gaussian → psf.dither = none)
    (h2 : psf.kind = .moffat → 1 < psf.beta) : Luminous (smallSlit psf) where
  rows := by norm_num [smallSlit]
  sub := by norm_num [smallSlit]
  pix := by norm_num [smallSlit]
  slit := by norm_num [smallSlit]
  pad := by norm_num [smallSlit]
  int := fun _ _ => one_pos
  axis := Or.inr (by simp [smallSlit])
  mask := rfl
  reb := rfl
  wave := ⟨1, 1, 2, one_pos, le_rfl, rfl⟩
  adapt := fun _ => ⟨rfl, 3, by norm_num, by simp [smallSlit]⟩
  dither := h1
  beta := h2

/-- the hypotheses of `C149_wide_partial` are met by a set-up with the default subsampling, instrumental broadening,
adaptive sampling and dispersion floor -/
example : ∃ s img, buildModel (smallSlit ⟨.gaussian, 1, 0, none⟩) ⟨[], some ⟨[], 2⟩, some ⟨[], 1⟩⟩ [1, 1, 1, 0, 0] =
    .ok (s, .ok (some img)) ∧ img.n = 2 ∧ img.m = 2 ∧ ∀ i j, 0 < img.val i j := by
  obtain ⟨s, img, h1, h2, h3, h4, -⟩ := C149_wide_partial (smallSlit ⟨.gaussian, 1, 0, none⟩)
    (smallSlit_luminous _ (fun _ => rfl) fun h => by cases h) one_pos (by norm_num [smallSlit]) [] [] []
    1 1 1 0 0 one_ne_zero one_pos (by norm_num)
  exact ⟨s, img, h1, h2, by rw [h3]; simp [smallSlit, uniformGrid], h4⟩

/-- … and of `C148_false` -/
example : buildModel (smallSlit ⟨.moffat, 0, 5 / 2, none⟩) ⟨[], some ⟨[], 2⟩, some ⟨[], 1⟩⟩ [1, 1, 1, 0, 0] =
    .error .zeroDivisionError :=
  (C148_false (smallSlit ⟨.moffat, 0, 5 / 2, none⟩) rfl rfl _ _).2
    (smallSlit_luminous _ (fun h => by cases h) fun _ => by norm_num) _ _ _ _ _ rfl

/-- … and of `C148_gaussian_partial` -/
example : Sharp threeRows := threeRows_sharp

/-- **C149** is false: there is a complete set-up with a positive PSF width and no image; with the default two subpixels
per row every width below the limit fails. -/
theorem C149_false (fwhm : ℝ) (h0 : 0 < fwhm) (h1 : fwhm < 1 / 12) :
    Luminous (smallSlit ⟨.gaussian, fwhm, 0, none⟩) ∧ ∀ (kin : KinProfile), kin.shape = (some 2, some 1) →
      ∀ va rt sig m z : ℝ, rt ≠ 0 → 0 < sig → 0 < 1 + z →
      ∃ s, buildModel (smallSlit ⟨.gaussian, fwhm, 0, none⟩) kin [va, rt, sig, m, z] = .ok (s, .error .indexError) := by
  have hl := smallSlit_luminous ⟨.gaussian, fwhm, 0, none⟩ (fun _ => rfl) fun h => by cases h
  refine ⟨hl, fun kin hk va rt sig m z hrt hs hz => ?_⟩
  obtain ⟨s, r, hb, -, hno⟩ := C149_exact _ hl h0.le (fun h => by cases h.1) kin hk va rt sig m z hrt hs hz
  refine ⟨s, ?_⟩
  rw [hb, hno]
  rintro (h | h)
  · exact h0.ne' h
  · have hpad : padRows (smallSlit ⟨.gaussian, fwhm, 0, none⟩) = 0 := by
      unfold padRows smallSlit
      have hn := npRound_near (fwhm * (1 / 2) / (1 / ((2 : ℕ) : ℝ)))
      have h2 := abs_le.1 hn
      have e : fwhm * (1 / 2) / (1 / ((2 : ℕ) : ℝ)) = fwhm := by norm_num
      rw [e] at h2
      simp only [e]
      have h3 : ((npRound fwhm : ℤ) : ℝ) < 1 := by
        rcases h2 with ⟨ha, hb⟩
        linarith
      have h4 : npRound fwhm < 1 := by exact_mod_cast h3
      omega
    have h5 := h.1 (by norm_num [smallSlit])
    unfold rowStep at h5
    rw [hpad] at h5
    norm_num [smallSlit] at h5
    linarith

/-- **C148**, exact condition: with PSF_FWHM = 0 and everything else usable, the model can be built exactly for the Gaussian class
(and is then the unblurred image, see `C148_gaussian_partial`). -/
theorem C148_exact (cfg : AperCfg) (hc : Sharp cfg) (kind : PSFKind) (beta : ℝ) (dither : Option ℝ) (t v d : List ℝ)
    (va rt sig m z : ℝ) (hrt : rt ≠ 0) (hs : 0 < sig) (hz : 0 < 1 + z) :
    (∃ s, buildModel { cfg with psf := ⟨kind, 0, beta, dither⟩ } ⟨t, some ⟨v, 2⟩, some ⟨d, 1⟩⟩
      [va, rt, sig, m, z] = .ok (s, .ok (some ⟨cfg.nWhole, cfg.wave.length,
        fun i j => pixelSpec cfg va rt sig (cfg.m0 + m) z i.val (cfg.wave.get j)⟩))) ↔ kind = .gaussian := by
  constructor
  · rintro ⟨s, hs⟩
    cases kind with
    | gaussian => rfl
    | moffat =>
      obtain ⟨e, he⟩ := (C148_false { cfg with psf := ⟨.moffat, 0, beta, dither⟩ } rfl rfl ⟨t, some ⟨v, 2⟩, some ⟨d, 1⟩⟩
        [va, rt, sig, m, z]).1
      rw [he] at hs
      cases hs
  · rintro rfl
    exact C148_gaussian_partial cfg hc beta dither t v d va rt sig m z hrt hs hz

end Misfit
