import Verif.Props.Image
import Verif.Lemmas.ImageForm

/-!
# C80, C81: closed form of the image without point spread function and instrumental broadening
-/

namespace Misfit

/-! ## The specification: an emitting inclined rotating disc seen through a slit -/

/-- speed of light in km/s -/
noncomputable def lightSpeed : ℝ := 299792.458

/-- the point of the disc frame seen at sky position `(x, y)` and depth `z`: rotation by the
misalignment (degrees) in the sky, then by the inclination (given by its sine) about the `y` axis -/
noncomputable def discPoint (sini deltPA x y z : ℝ) : ℝ × ℝ × ℝ :=
  let al := deltPA * Real.pi / 180
  let u := x * Real.cos al + y * Real.sin al
  let v := y * Real.cos al - x * Real.sin al
  let cosi := Real.sqrt (1 - sini ^ 2)
  (cosi * u + sini * z, v, cosi * z - sini * u)

/-- arctan rotation curve, projected on the line of sight: the disc's `y` axis is the major axis -/
noncomputable def discVelocity (va rt sini x y : ℝ) : ℝ :=
  let r := Real.sqrt (x ^ 2 + y ^ 2)
  if r = 0 then 0 else 2 / Real.pi * va * Real.arctan (r / rt) * (y / r) * sini

/-- emission lines `(rest wavelength, flux ratio)` of unit total flux each, redshifted by `z` and
the velocity `v`, broadened by the velocity dispersion `sig` -/
noncomputable def lineSpectrum (lines : List (ℝ × ℝ)) (z v sig lam : ℝ) : ℝ :=
  (lines.map fun p => p.2 * ProbabilityTheory.gaussianPDFReal (p.1 * (1 + z) * (1 + v / lightSpeed))
    ((p.1 * (1 + z) * (sig / lightSpeed)) ^ 2).toNNReal lam).sum

/-- light of one cell at sky position `(x, y)` and depth `z'` per unit volume -/
noncomputable def cellLight (cfg : AperCfg) (va rt sig z x y z' lam : ℝ) : ℝ :=
  let p := discPoint cfg.sini cfg.deltPA x y z'
  cfg.int (Real.sqrt (p.1 ^ 2 + p.2.1 ^ 2)) p.2.2 *
    lineSpectrum (cfg.restwave.zip cfg.ratios) z (discVelocity va rt cfg.sini p.1 p.2.1) sig lam

/-- number of subpixels across the slit -/
noncomputable def slitCells (cfg : AperCfg) : ℕ := ⌈cfg.slit * cfg.nSubpixels / cfg.pixscale⌉.toNat

/-- the pixel in row `i` at wavelength `lam`, for an object in row `m0` of the slit: the sum over
the subpixels of the row, the subpixels across the slit and the cells along the line of sight, each
of depth one subpixel, of light times depth times width -/
noncomputable def pixelSpec (cfg : AperCfg) (va rt sig m0 z : ℝ) (i : ℕ) (lam : ℝ) : ℝ :=
  ∑ t ∈ Finset.range cfg.nSubpixels, ∑ a ∈ Finset.range (slitCells cfg),
    ∑ c ∈ Finset.range (cfg.nWhole * cfg.nSubpixels),
      cellLight cfg va rt sig z (skyX (slitCells cfg) cfg.slit cfg.xc a)
        (skyY cfg.nWhole cfg.nSubpixels cfg.pixscale m0 (i * cfg.nSubpixels + t))
        (skyZ (cfg.nWhole * cfg.nSubpixels) (cfg.pixscale / cfg.nSubpixels) c) lam *
      (cfg.pixscale / cfg.nSubpixels) * (cfg.slit / slitCells cfg)

/-- Set-up of the closed form: wavelength mode, no point spread function, no instrumental
broadening, no adaptive sampling and no dispersion floor; otherwise physical. -/
structure Sharp (cfg : AperCfg) : Prop where
  st : cfg.specType = .wave
  kind : cfg.psf.kind = .gaussian
  fwhm : cfg.psf.fwhm = 0
  res : cfg.res = 0
  mask : cfg.slitMask = false
  reb : cfg.rebinOutput = true
  adaptive : cfg.adaptive = false
  floor : cfg.sigmaFloor = false
  rows : 0 < cfg.nWhole
  sub : 0 < cfg.nSubpixels
  pix : 0 < cfg.pixscale
  slit : 0 < cfg.slit
  sini0 : 0 ≤ cfg.sini
  sini1 : cfg.sini ≤ 1
  wave : cfg.wave ≠ []
  lines : cfg.restwave ≠ []
  len : cfg.restwave.length ≤ cfg.ratios.length
  rest : ∀ r ∈ cfg.restwave, 0 < r

theorem discPoint_eq (sini deltPA x y z : ℝ) (h0 : 0 ≤ sini) (h1 : sini ≤ 1) :
    transformInt3d x y z deltPA (Real.arcsin sini) = discPoint sini deltPA x y z := by
  have e : deltPA * (Real.pi / 180) = deltPA * Real.pi / 180 := by ring
  unfold transformInt3d discPoint rad
  rw [Real.sin_arcsin (by linarith) h1, Real.cos_arcsin, e]
  ext <;> simp only <;> ring

theorem discVelocity_eq (va rt sini x y : ℝ) (hrt : rt ≠ 0) :
    losVelocity [va, rt] sini x y = .fin (discVelocity va rt sini x y) := by
  rw [losVelocity_fin _ _ _ _ _ hrt]
  unfold discVelocity
  simp only
  split <;> simp

theorem lightSpeed_eq : lightSpeed = cKms := by unfold lightSpeed cKms; norm_num

theorem lineSpectrum_eq (lines : List (ℝ × ℝ)) (z v sig lam : ℝ) (hz : 0 < 1 + z) (hs : 0 < sig)
    (hr : ∀ p ∈ lines, 0 < p.1) :
    lineSpectrum lines z v sig lam = (lines.map fun p => p.2 *
      gaussDensity (p.1 * (1 + z) * (1 + v / cKms)) (sig / cKms * (p.1 * (1 + z))) lam).sum := by
  unfold lineSpectrum
  congr 1
  refine List.map_congr_left fun p hp => ?_
  have hc := cKms_pos
  have hp := hr p hp
  have e : p.1 * (1 + z) * (sig / cKms) = sig / cKms * (p.1 * (1 + z)) := by ring
  rw [lightSpeed_eq, e, gaussDensity_eq_pdf _ _ _ (by positivity)]

/-- the light of the column of cells in subpixel row `b` and subpixel column `a` -/
noncomputable def columnLight (cfg : AperCfg) (va rt sig m0 z lam : ℝ) (b a : ℕ) : ℝ :=
  ∑ c ∈ Finset.range (cfg.nWhole * cfg.nSubpixels),
    cellLight cfg va rt sig z (skyX (slitCells cfg) cfg.slit cfg.xc a)
      (skyY cfg.nWhole cfg.nSubpixels cfg.pixscale m0 b)
      (skyZ (cfg.nWhole * cfg.nSubpixels) (cfg.pixscale / cfg.nSubpixels) c) lam *
      (cfg.pixscale / cfg.nSubpixels)

/-- light of one cell whose velocity is raised by `dv` -/
noncomputable def cellLightAt (cfg : AperCfg) (va rt sig z dv x y z' lam : ℝ) : ℝ :=
  let p := discPoint cfg.sini cfg.deltPA x y z'
  cfg.int (Real.sqrt (p.1 ^ 2 + p.2.1 ^ 2)) p.2.2 *
    lineSpectrum (cfg.restwave.zip cfg.ratios) z (discVelocity va rt cfg.sini p.1 p.2.1 + dv) sig lam

/-- the light of a column of cells whose velocity is raised by `dv` -/
noncomputable def columnLightAt (cfg : AperCfg) (va rt sig m0 z dv lam : ℝ) (b a : ℕ) : ℝ :=
  ∑ c ∈ Finset.range (cfg.nWhole * cfg.nSubpixels),
    cellLightAt cfg va rt sig z dv (skyX (slitCells cfg) cfg.slit cfg.xc a)
      (skyY cfg.nWhole cfg.nSubpixels cfg.pixscale m0 b)
      (skyZ (cfg.nWhole * cfg.nSubpixels) (cfg.pixscale / cfg.nSubpixels) c) lam *
      (cfg.pixscale / cfg.nSubpixels)

theorem cellLightAt_zero (cfg : AperCfg) (va rt sig z x y z' lam : ℝ) :
    cellLightAt cfg va rt sig z 0 x y z' lam = cellLight cfg va rt sig z x y z' lam := by
  unfold cellLightAt cellLight
  simp only [add_zero]

theorem columnLightAt_zero (cfg : AperCfg) (va rt sig m0 z lam : ℝ) (b a : ℕ) :
    columnLightAt cfg va rt sig m0 z 0 lam b a = columnLight cfg va rt sig m0 z lam b a := by
  unfold columnLightAt columnLight
  simp only [cellLightAt_zero]

/-- the profile with the parameters in place -/
def sharpKin (va rt sig m z : ℝ) : KinProfile :=
  ⟨[va, rt, sig, m, z], some ⟨[va, rt], 2⟩, some ⟨[sig], 1⟩⟩

/-- the attributes of a sharp model and its cube, with velocities raised by `δ b` in subpixel row `b` -/
theorem sharp_cube_at (cfg : AperCfg) (hc : Sharp cfg) (kin : KinProfile) (hk : kin.shape = (some 2, some 1))
    (va rt sig m z : ℝ) (hrt : rt ≠ 0) (hs : 0 < sig) (hz : 0 < 1 + z) :
    ∃ f, setupCalcs cfg [va, rt, sig, m, z] = .ok f ∧ f.grid.padY = 0 ∧ f.grid.padX = 0 ∧
      f.grid.nPixY = cfg.nWhole * cfg.nSubpixels ∧ f.grid.nPixX = slitCells cfg ∧
      f.grid.nY = f.grid.nPixY + 2 * f.grid.padY ∧ f.grid.nX = f.grid.nPixX + 2 * f.grid.padX ∧
      f.grid.deltX = cfg.slit / slitCells cfg ∧
      kin.updateTheta [va, rt, sig, m, z] = .ok (sharpKin va rt sig m z) ∧
      (∀ s : AperState, s.kin = sharpKin va rt sig m z → applySigmaFloor cfg s = (s, .ok sig)) ∧
      (∀ r0 ∈ cfg.restwave.head?, f.lam0 = r0 * (1 + z)) ∧
      f.grid.xArr.length = f.grid.nX ∧
      (∀ a, a < f.grid.nX → f.grid.xArr.getD a 0 = skyX (slitCells cfg) cfg.slit cfg.xc a) ∧
      (∀ (b : Fin f.grid.nY) (a : Fin f.grid.nX), ∑ c, f.I c b a =
        ∑ c ∈ Finset.range (cfg.nWhole * cfg.nSubpixels),
          let p := discPoint cfg.sini cfg.deltPA (skyX (slitCells cfg) cfg.slit cfg.xc a)
            (skyY cfg.nWhole cfg.nSubpixels cfg.pixscale (cfg.m0 + m) b)
            (skyZ (cfg.nWhole * cfg.nSubpixels) (cfg.pixscale / cfg.nSubpixels) c)
          cfg.int (Real.sqrt (p.1 ^ 2 + p.2.1 ^ 2)) p.2.2) ∧
      ∃ V, velCube cfg f (sharpKin va rt sig m z) = some V ∧ ∀ δ : ℕ → ℝ,
        addSigmaCollapseZ f.I (fun c b a => V c b a + δ b) (fun _ _ _ => sig) cfg.wave.get f.z cfg.restwave
          cfg.ratios f.grid.deltZ cfg.specType =
          .ok fun w b a => .fin (columnLightAt cfg va rt sig (cfg.m0 + m) z (δ b) (cfg.wave.get w) b.val a.val) := by
  have hphys : GridIn.Phys (⟨cfg.nWhole, cfg.nSubpixels, cfg.pixscale, cfg.slit, cfg.psf.fwhm,
      cfg.padFactor, cfg.xc, cfg.m0 + m⟩ : GridIn ℝ) :=
    ⟨hc.rows, hc.sub, hc.pix, hc.slit, by simp [hc.fwhm]⟩
  obtain ⟨G, hG, hnY, hdY, hdZ, hdpos, hpX, _, _, _, hX, hY, hZ, hpadY, hpadX, hxA, hzA, hyA⟩ :=
    setupGrid_ok _ hphys
  obtain ⟨hnX, hdX⟩ := setupGrid_nPixX _ _ hc.sub hc.pix hG
  simp only at hnY hdY hnX hdX hyA
  have hpadY0 : G.padY = 0 := by simpa [hc.fwhm, npRound_zero] using hpadY
  have hpadX0 : G.padX = 0 := by simpa [hc.fwhm, npRound_zero] using hpadX
  obtain ⟨r0, rs, hrs⟩ : ∃ r0 rs, cfg.restwave = r0 :: rs := by
    cases h : cfg.restwave with
    | nil => exact absurd h hc.lines
    | cons r rs => exact ⟨r, rs, rfl⟩
  -- the attributes set at construction
  obtain ⟨f, hf, hfg, hfz, hfl⟩ : ∃ f, setupCalcs cfg [va, rt, sig, m, z] = .ok f ∧ f.grid = G ∧ f.z = z ∧
      f.lam0 = r0 * (1 + z) := by
    have e1 : fromEnd [va, rt, sig, m, z] 1 = .ok z := rfl
    have e2 : fromEnd [va, rt, sig, m, z] 2 = .ok m := rfl
    rw [setupCalcs_arrays fun h => by cases hc.kind.symm.trans h.1]
    unfold setupArrays
    simp only [e1, e2, bind, Except.bind, hG, hc.st, hrs, List.getElem?_cons_zero]
    exact ⟨_, rfl, rfl, rfl, rfl⟩
  obtain ⟨z', m', hz', hm', _, hg', hx, hy, hI⟩ := setupCalcs_inv _ _ _ hf
  have hxg : ∀ a : ℕ, a < f.grid.nX → f.grid.xArr.getD a 0 = skyX (slitCells cfg) cfg.slit cfg.xc a := by
    intro a ha
    rw [hfg] at ha ⊢
    rw [hxA, hX, List.getD_eq_getElem?_getD, xArr_get _ _ _ hpX _ _ (by omega), hpadX0]
    simp only [Option.getD_some, Nat.cast_zero, sub_zero, hdX, hnX]
    rfl
  have hyg : ∀ b : ℕ, b < f.grid.nY → f.grid.yArr.getD b 0 =
      skyY cfg.nWhole cfg.nSubpixels cfg.pixscale (cfg.m0 + m) b := by
    intro b hb
    rw [hfg] at hb ⊢
    rw [hyA, hY, hnY, hpadY0, hdY]
    exact yArr_getD _ _ hc.rows hc.sub _ _ _ (by rw [hY, hnY, hpadY0] at hb; omega)
  have hzg : ∀ c : ℕ, c < f.grid.nZ → f.grid.zArr.getD c 0 =
      skyZ (cfg.nWhole * cfg.nSubpixels) (cfg.pixscale / cfg.nSubpixels) c := by
    intro c hcc
    rw [hfg] at hcc ⊢
    rw [hzA, hZ, hnY, hdZ, hdY]
    exact linspace_getD _ (Nat.mul_pos hc.rows hc.sub) _ _ (by rw [hZ, hnY] at hcc; exact hcc)
  -- update of the parameters
  have hup : kin.updateTheta [va, rt, sig, m, z] =
      .ok ⟨[va, rt, sig, m, z], some ⟨[va, rt], 2⟩, some ⟨[sig], 1⟩⟩ := by
    rw [updateTheta_congr kin ⟨[], some ⟨[], 2⟩, some ⟨[], 1⟩⟩ (by rw [hk]; rfl)]
    rfl
  have hfloor : ∀ s : AperState, s.kin = ⟨[va, rt, sig, m, z], some ⟨[va, rt], 2⟩, some ⟨[sig], 1⟩⟩ →
      applySigmaFloor cfg s = (s, .ok sig) := by
    rintro ⟨sf, sk, sw, sd⟩ rfl
    unfold applySigmaFloor
    simp only [hc.floor]
    by_cases ha : cfg.absvalsigma = true
    · simp [ha, abs_of_pos hs]
    · simp [ha]
  -- the cube
  set P : ℕ → ℕ → ℕ → ℝ × ℝ × ℝ := fun c b a => discPoint cfg.sini cfg.deltPA
    (skyX (slitCells cfg) cfg.slit cfg.xc a) (skyY cfg.nWhole cfg.nSubpixels cfg.pixscale (cfg.m0 + m) b)
    (skyZ (cfg.nWhole * cfg.nSubpixels) (cfg.pixscale / cfg.nSubpixels) c) with hP
  have htr : ∀ (c : Fin f.grid.nZ) (b : Fin f.grid.nY) (a : Fin f.grid.nX),
      transformInt3d (f.grid.xArr.getD a 0) (f.grid.yArr.getD b 0)
        (f.grid.zArr.getD c 0) cfg.deltPA (Real.arcsin cfg.sini) = P c b a := by
    intro c b a
    rw [hxg a a.isLt, hyg b b.isLt, hzg c c.isLt, discPoint_eq _ _ _ _ _ hc.sini0 hc.sini1]
  have hvel : velCube cfg f ⟨[va, rt, sig, m, z], some ⟨[va, rt], 2⟩, some ⟨[sig], 1⟩⟩ =
      some fun (c : Fin f.grid.nZ) (b : Fin f.grid.nY) (a : Fin f.grid.nX) =>
        discVelocity va rt cfg.sini (P c b a).1 (P c b a).2.1 := by
    unfold velCube
    simp only [hx, hy, htr, discVelocity_eq _ _ _ _ _ hrt]
    exact allFinite_fin fun (c : Fin f.grid.nZ) (b : Fin f.grid.nY) (a : Fin f.grid.nX) =>
      discVelocity va rt cfg.sini (P c b a).1 (P c b a).2.1
  have hNS : 0 < cfg.nWhole * cfg.nSubpixels := Nat.mul_pos hc.rows hc.sub
  have hposZ : 0 < f.grid.nZ := by rw [hfg, hZ, hnY]; exact hNS
  have hposY : 0 < f.grid.nY := by rw [hfg, hY, hnY]; omega
  have hposX : 0 < f.grid.nX := by rw [hfg, hX]; omega
  have hcast : ∀ F : ℕ → ℝ, ∑ c : Fin (cfg.nWhole * cfg.nSubpixels), F c = ∑ c : Fin f.grid.nZ, F c := by
    intro F
    have : f.grid.nZ = cfg.nWhole * cfg.nSubpixels := by rw [hfg, hZ, hnY]
    rw [this]
  have hcube : ∀ δ : ℕ → ℝ, addSigmaCollapseZ f.I
      (fun (c : Fin f.grid.nZ) (b : Fin f.grid.nY) (a : Fin f.grid.nX) =>
        discVelocity va rt cfg.sini (P c b a).1 (P c b a).2.1 + δ b) (fun _ _ _ => sig) cfg.wave.get f.z
      cfg.restwave cfg.ratios f.grid.deltZ cfg.specType =
      .ok fun w b a => .fin (columnLightAt cfg va rt sig (cfg.m0 + m) z (δ b) (cfg.wave.get w) b.val a.val) := by
    intro δ
    rw [hc.st, addSigma_broad _ _ _ _ _ _ _ _ hc.len hposZ hposY hposX (fun _ _ _ => hs.ne')
      (by rw [hfz]; exact hz.ne') (fun r hr => (hc.rest r hr).ne')]
    congr 1
    funext w b a
    congr 1
    unfold lineDensity columnLightAt
    rw [hfz]
    simp only
    rw [Finset.sum_range]
    rw [hcast fun c => cellLightAt cfg va rt sig z (δ b) (skyX (slitCells cfg) cfg.slit cfg.xc a)
      (skyY cfg.nWhole cfg.nSubpixels cfg.pixscale (cfg.m0 + m) b)
      (skyZ (cfg.nWhole * cfg.nSubpixels) (cfg.pixscale / cfg.nSubpixels) c) (cfg.wave.get w) *
      (cfg.pixscale / cfg.nSubpixels)]
    have hcell : ∀ c : Fin f.grid.nZ, cellLightAt cfg va rt sig z (δ b) (skyX (slitCells cfg) cfg.slit cfg.xc a)
        (skyY cfg.nWhole cfg.nSubpixels cfg.pixscale (cfg.m0 + m) b)
        (skyZ (cfg.nWhole * cfg.nSubpixels) (cfg.pixscale / cfg.nSubpixels) c) (cfg.wave.get w) *
        (cfg.pixscale / cfg.nSubpixels) = ((cfg.restwave.zip cfg.ratios).map fun p => f.I c b a *
          gaussDensity (p.1 * (1 + z) * (1 + (discVelocity va rt cfg.sini (P c b a).1 (P c b a).2.1 + δ b) / cKms))
          (sig / cKms * (p.1 * (1 + z))) (cfg.wave.get w) * f.grid.deltZ * p.2).sum := by
      intro c
      unfold cellLightAt
      simp only
      rw [lineSpectrum_eq _ _ _ _ _ hz hs (fun p hp => hc.rest _ (List.of_mem_zip hp).1), hI, hx, hy, htr]
      have hdz : f.grid.deltZ = cfg.pixscale / cfg.nSubpixels := by rw [hfg, hdZ, hdY]
      rw [hdz, mul_assoc, ← List.sum_map_mul_right, ← List.sum_map_mul_left]
      congr 1
      refine List.map_congr_left fun p _ => ?_
      simp only [hP]
      ring
    rw [Finset.sum_congr rfl fun c _ => hcell c, finset_sum_list_sum]
    congr 1
    refine List.map_congr_left fun p _ => ?_
    rw [Finset.sum_mul, Finset.sum_mul]
  have hnx : f.grid.nPixX = slitCells cfg := by rw [hfg, hnX]; rfl
  have hdx : f.grid.deltX = cfg.slit / slitCells cfg := by rw [hfg, hdX, hnX]; rfl
  have hlen : f.grid.xArr.length = f.grid.nX := by rw [hfg, hxA]; simp [linspace_length, hX]
  have hlight : ∀ (b : Fin f.grid.nY) (a : Fin f.grid.nX), ∑ c, f.I c b a =
        ∑ c ∈ Finset.range (cfg.nWhole * cfg.nSubpixels),
          cfg.int (Real.sqrt ((P c b a).1 ^ 2 + (P c b a).2.1 ^ 2)) (P c b a).2.2 := by
    intro b a
    rw [Finset.sum_range, hcast fun c => cfg.int (Real.sqrt ((P c b a).1 ^ 2 + (P c b a).2.1 ^ 2)) (P c b a).2.2]
    refine Finset.sum_congr rfl fun c _ => ?_
    rw [hI, hx, hy, htr]
  exact ⟨f, hf, by rw [hfg, hpadY0], by rw [hfg, hpadX0], by rw [hfg, hnY], hnx, by rw [hfg, hY], by rw [hfg, hX],
    hdx, hup, hfloor, fun r hr => by rw [hrs] at hr; cases hr; exact hfl, hlen, hxg, hlight, _, hvel, hcube⟩

/-- the attributes of a sharp model and its cube -/
theorem sharp_cube (cfg : AperCfg) (hc : Sharp cfg) (kin : KinProfile) (hk : kin.shape = (some 2, some 1))
    (va rt sig m z : ℝ) (hrt : rt ≠ 0) (hs : 0 < sig) (hz : 0 < 1 + z) :
    ∃ f, setupCalcs cfg [va, rt, sig, m, z] = .ok f ∧ f.grid.padY = 0 ∧ f.grid.padX = 0 ∧
      f.grid.nPixY = cfg.nWhole * cfg.nSubpixels ∧ f.grid.nPixX = slitCells cfg ∧
      f.grid.nY = f.grid.nPixY + 2 * f.grid.padY ∧ f.grid.nX = f.grid.nPixX + 2 * f.grid.padX ∧
      f.grid.deltX = cfg.slit / slitCells cfg ∧
      kin.updateTheta [va, rt, sig, m, z] = .ok (sharpKin va rt sig m z) ∧
      (∀ s : AperState, s.kin = sharpKin va rt sig m z → applySigmaFloor cfg s = (s, .ok sig)) ∧
      ∃ V, velCube cfg f (sharpKin va rt sig m z) = some V ∧
        addSigmaCollapseZ f.I V (fun _ _ _ => sig) cfg.wave.get f.z cfg.restwave cfg.ratios f.grid.deltZ
          cfg.specType =
          .ok fun w b a => .fin (columnLight cfg va rt sig (cfg.m0 + m) z (cfg.wave.get w) b.val a.val) := by
  obtain ⟨f, h1, h2, h3, h4, h5, h6, h7, h8, h9, h10, -, -, -, -, V, hV, hcube⟩ :=
    sharp_cube_at cfg hc kin hk va rt sig m z hrt hs hz
  have h := hcube fun _ => 0
  simp only [add_zero, columnLightAt_zero] at h
  exact ⟨f, h1, h2, h3, h4, h5, h6, h7, h8, h9, h10, V, hV, h⟩

/-- the evaluation of a sharp model -/
theorem sharp_calcs (cfg : AperCfg) (hc : Sharp cfg) (kin : KinProfile) (hk : kin.shape = (some 2, some 1))
    (va rt sig m z : ℝ) (hrt : rt ≠ 0) (hs : 0 < sig) (hz : 0 < 1 + z) :
    ∃ s, buildModel cfg kin [va, rt, sig, m, z] = .ok (s, .ok (some ⟨cfg.nWhole, cfg.wave.length,
      fun i j => pixelSpec cfg va rt sig (cfg.m0 + m) z i.val (cfg.wave.get j)⟩)) := by
  obtain ⟨f, hf, hpadY0, hpadX0, hnY, hnx, hY, hX, hdx, hup, hfloor, V, hvel, hcube⟩ :=
    sharp_cube cfg hc kin hk va rt sig m z hrt hs hz
  have hdisp : ¬ 0 < instDisp cfg f := by
    unfold instDisp
    rw [hc.st, hc.res]
    simp
  have heval : evalImage cfg f (sharpKin va rt sig m z) cfg.wave sig =
      .ok (some ⟨cfg.wave.length, cfg.nWhole,
        fun j i => pixelSpec cfg va rt sig (cfg.m0 + m) z i.val (cfg.wave.get j)⟩) := by
    rw [evalImage_stages fun h => lt_irrefl _ (hc.fwhm ▸ h.1), evalStages_eq_tail, hvel]
    simp only
    rw [hcube, hc.mask, hc.reb]
    have := evalTail_sharp cfg.nWhole cfg.nSubpixels hc.rows cfg.psf (by rw [hc.fwhm]; exact lt_irrefl _)
      f.xTrim f.yTrim f.grid (instDisp cfg f) hdisp cfg.wave (List.length_pos_iff.2 hc.wave)
      hnY hY hX (columnLight cfg va rt sig (cfg.m0 + m) z)
    rw [this]
    congr 3
    funext w i
    unfold pixelSpec
    rw [Finset.sum_range]
    refine Finset.sum_congr rfl fun t _ => ?_
    rw [hdx, hpadY0, hpadX0, hnx, Finset.sum_range, Finset.sum_mul]
    refine Finset.sum_congr rfl fun a _ => ?_
    simp only [columnLight, Nat.add_zero, Finset.sum_mul]
  refine ⟨⟨f, sharpKin va rt sig m z, cfg.wave, avgDiff cfg.wave⟩, ?_⟩
  unfold buildModel
  rw [hf]
  simp only
  rw [doModelCalcs_eq]
  simp only [hup]
  unfold calcsAfter
  have ha : ¬ cfg.adaptive = true := by rw [hc.adaptive]; exact Bool.false_ne_true
  simp only [if_neg ha]
  rw [hfloor _ rfl]
  simp only [heval]
  rfl

/-- **C80** Without point spread function and instrumental broadening the model image is, pixel by
pixel, the discretised integral of the specification: for a new model, and for every evaluation after
any sequence of earlier evaluations (which cannot change it; centre shift and redshift stay those of
the construction, see `C37_false`). -/
theorem C80_closed_form (cfg : AperCfg) (hc : Sharp cfg) (t v d : List ℝ) (va rt sig m z : ℝ) (hrt : rt ≠ 0)
    (hs : 0 < sig) (hz : 0 < 1 + z) :
    ∃ s, buildModel cfg ⟨t, some ⟨v, 2⟩, some ⟨d, 1⟩⟩ [va, rt, sig, m, z] =
        .ok (s, .ok (some ⟨cfg.nWhole, cfg.wave.length,
          fun i j => pixelSpec cfg va rt sig (cfg.m0 + m) z i.val (cfg.wave.get j)⟩)) ∧
      ∀ (hist : List (List ℝ)) (va' rt' sig' m' z' : ℝ), rt' ≠ 0 → 0 < sig' →
        (updateModel cfg (runUpdates cfg s hist) [va', rt', sig', m', z']).2 =
          .ok (some ⟨cfg.nWhole, cfg.wave.length,
            fun i j => pixelSpec cfg va' rt' sig' (cfg.m0 + m) z i.val (cfg.wave.get j)⟩) := by
  obtain ⟨s, hb⟩ := sharp_calcs cfg hc ⟨t, some ⟨v, 2⟩, some ⟨d, 1⟩⟩ rfl va rt sig m z hrt hs hz
  refine ⟨s, hb, fun hist va' rt' sig' m' z' hrt' hs' => ?_⟩
  obtain ⟨s', h⟩ := C37_exact cfg t v d va rt sig m z va' rt' sig' m' z' hist s _ hb
    (fun ha => by rw [hc.adaptive] at ha; cases ha)
  obtain ⟨s'', h'⟩ := sharp_calcs cfg hc ⟨t, some ⟨v, 2⟩, some ⟨d, 1⟩⟩ rfl va' rt' sig' m z hrt' hs' hz
  rw [h] at h'
  simp only [Except.ok.injEq, Prod.mk.injEq] at h'
  exact h'.2

/-- image `b` is image `a` moved by one row -/
def MovedByOneRow (a b : Arr2) : Prop :=
  a.n = b.n ∧ a.m = b.m ∧ ∀ (i j : ℕ) (h1 : i < a.n) (h2 : i + 1 < b.n) (h3 : j < a.m) (h4 : j < b.m),
    b.val ⟨i + 1, h2⟩ ⟨j, h4⟩ = a.val ⟨i, h1⟩ ⟨j, h3⟩

/-- **C81**, what holds: raising the centre shift by `((N-1)·S - 1)/(N·S - 1)` pixels (`N` rows of `S`
subpixels) moves the image by exactly one row.  Missing: the shift that moves the image by one row
is not one pixel, see `C81_false`. -/
theorem C81_shift_partial (cfg : AperCfg) (hc : Sharp cfg) (t v d : List ℝ) (va rt sig m z : ℝ)
    (hrt : rt ≠ 0) (hs : 0 < sig) (hz : 0 < 1 + z) :
    ∃ s s' a b, buildModel cfg ⟨t, some ⟨v, 2⟩, some ⟨d, 1⟩⟩ [va, rt, sig, m, z] = .ok (s, .ok (some a)) ∧
      buildModel cfg ⟨t, some ⟨v, 2⟩, some ⟨d, 1⟩⟩ [va, rt, sig,
        m + (((cfg.nWhole : ℝ) - 1) * cfg.nSubpixels - 1) / ((cfg.nWhole : ℝ) * cfg.nSubpixels - 1), z] =
          .ok (s', .ok (some b)) ∧ MovedByOneRow a b := by
  obtain ⟨s, h⟩ := sharp_calcs cfg hc ⟨t, some ⟨v, 2⟩, some ⟨d, 1⟩⟩ rfl va rt sig m z hrt hs hz
  obtain ⟨s', h'⟩ := sharp_calcs cfg hc ⟨t, some ⟨v, 2⟩, some ⟨d, 1⟩⟩ rfl va rt sig
    (m + (((cfg.nWhole : ℝ) - 1) * cfg.nSubpixels - 1) / ((cfg.nWhole : ℝ) * cfg.nSubpixels - 1)) z hrt hs hz
  refine ⟨s, s', _, _, h, h', rfl, rfl, fun i j _ _ _ _ => ?_⟩
  show pixelSpec cfg va rt sig _ z (i + 1) _ = pixelSpec cfg va rt sig _ z i _
  unfold pixelSpec
  refine Finset.sum_congr rfl fun t _ => ?_
  have : skyY cfg.nWhole cfg.nSubpixels cfg.pixscale
      (cfg.m0 + (m + (((cfg.nWhole : ℝ) - 1) * cfg.nSubpixels - 1) / ((cfg.nWhole : ℝ) * cfg.nSubpixels - 1)))
      ((i + 1) * cfg.nSubpixels + t) =
      skyY cfg.nWhole cfg.nSubpixels cfg.pixscale (cfg.m0 + m) (i * cfg.nSubpixels + t) := by
    have hS : (cfg.nSubpixels : ℝ) ≠ 0 := by exact_mod_cast hc.sub.ne'
    unfold skyY
    generalize (((cfg.nWhole : ℝ) - 1) * cfg.nSubpixels - 1) / ((cfg.nWhole : ℝ) * cfg.nSubpixels - 1) = k
    push_cast
    field_simp
    ring
  simp only
  rw [this]

/-- three rows of one subpixel, face-on, a point source in row 0.5 -/
noncomputable def threeRows : AperCfg where
  nWhole := 3
  wave := [1]
  restwave := [1]
  ratios := [1]
  m0 := 1 / 2
  sini := 0
  deltPA := 0
  pixscale := 1
  slit := 1
  psf := ⟨.gaussian, 0, 0, none⟩
  res := 0
  slitMask := false
  int := fun r _ => if r = 0 then 1 else 0
  nSubpixels := 1
  padFactor := 1 / 2
  xc := 0
  rebinOutput := true
  specType := .wave
  absvalsigma := false
  adaptive := false
  factor := 3
  sigmaFloor := false
  npFloat := true

theorem threeRows_sharp : Sharp threeRows := by
  constructor <;> simp [threeRows]

theorem threeRows_cells : slitCells threeRows = 1 := by
  unfold slitCells threeRows
  norm_num

theorem threeRows_light (m0 : ℝ) (b c : ℕ) :
    cellLight threeRows 0 1 1 0 (skyX (slitCells threeRows) threeRows.slit threeRows.xc 0)
      (skyY threeRows.nWhole threeRows.nSubpixels threeRows.pixscale m0 b)
      (skyZ (threeRows.nWhole * threeRows.nSubpixels) (threeRows.pixscale / threeRows.nSubpixels) c) 1 =
    (if (1 / 2 + (b : ℝ) / 2 - m0) = 0 then 1 else 0) *
      ProbabilityTheory.gaussianPDFReal 1 ((1 / lightSpeed) ^ 2).toNNReal 1 := by
  have hx : skyX (slitCells threeRows) threeRows.slit threeRows.xc 0 = 0 := by
    rw [threeRows_cells]; simp [skyX, threeRows]
  have hy : skyY threeRows.nWhole threeRows.nSubpixels threeRows.pixscale m0 b = 1 / 2 + (b : ℝ) / 2 - m0 := by
    unfold skyY threeRows
    norm_num
    ring
  rw [hx, hy]
  unfold cellLight
  have hp : ∀ y z, discPoint threeRows.sini threeRows.deltPA 0 y z = (0, y, z) := by
    intro y z; simp [discPoint, threeRows]
  rw [hp]
  simp only
  have hv : ∀ y, discVelocity 0 1 threeRows.sini 0 y = 0 := by
    intro y; simp [discVelocity]
  rw [hv]
  have hl : lineSpectrum (threeRows.restwave.zip threeRows.ratios) 0 0 1 1 =
      ProbabilityTheory.gaussianPDFReal 1 ((1 / lightSpeed) ^ 2).toNNReal 1 := by
    simp [lineSpectrum, threeRows]
  rw [hl]
  congr 1
  simp only [threeRows]
  have : Real.sqrt (0 ^ 2 + (1 / 2 + (b : ℝ) / 2 - m0) ^ 2) = |1 / 2 + (b : ℝ) / 2 - m0| := by
    rw [zero_pow two_ne_zero, zero_add, Real.sqrt_sq_eq_abs]
  rw [this]
  simp only [abs_eq_zero]

theorem threeRows_pixel (m0 : ℝ) (i : ℕ) : pixelSpec threeRows 0 1 1 m0 0 i 1 =
    3 * ((if (1 / 2 + (i : ℝ) / 2 - m0) = 0 then 1 else 0) *
      ProbabilityTheory.gaussianPDFReal 1 ((1 / lightSpeed) ^ 2).toNNReal 1) := by
  unfold pixelSpec
  rw [threeRows_cells]
  have h1 : threeRows.nSubpixels = 1 := rfl
  have h2 : threeRows.nWhole * threeRows.nSubpixels = 3 := rfl
  have h3 : threeRows.pixscale / threeRows.nSubpixels = 1 := by simp [threeRows]
  have h4 : threeRows.slit / ((1 : ℕ) : ℝ) = 1 := by simp [threeRows]
  rw [h4]
  have hl := threeRows_light m0
  rw [threeRows_cells] at hl
  simp only [h1, Finset.sum_range_one, mul_one, add_zero] at hl ⊢
  simp only [hl]
  have h5 : threeRows.pixscale = 1 := rfl
  have h6 : threeRows.nWhole = 3 := rfl
  simp only [h5, h6, Nat.cast_one, div_one, mul_one, Finset.sum_const, Finset.card_range, nsmul_eq_mul]
  norm_num

/-- C81 is false: raising the centre shift by one pixel moves a point source from row 0 to row 2. -/
theorem C81_false : ∃ cfg kin va rt sig m z s s' a b, Sharp cfg ∧ 0 < sig ∧ 0 < 1 + z ∧ rt ≠ 0 ∧
    buildModel cfg kin [va, rt, sig, m, z] = .ok (s, .ok (some a)) ∧
    buildModel cfg kin [va, rt, sig, m + 1, z] = .ok (s', .ok (some b)) ∧ ¬ MovedByOneRow a b := by
  obtain ⟨s, h⟩ := sharp_calcs threeRows threeRows_sharp ⟨[], some ⟨[], 2⟩, some ⟨[], 1⟩⟩ rfl 0 1 1 0 0
    one_ne_zero one_pos (by norm_num)
  obtain ⟨s', h'⟩ := sharp_calcs threeRows threeRows_sharp ⟨[], some ⟨[], 2⟩, some ⟨[], 1⟩⟩ rfl 0 1 1 (0 + 1) 0
    one_ne_zero one_pos (by norm_num)
  refine ⟨threeRows, ⟨[], some ⟨[], 2⟩, some ⟨[], 1⟩⟩, 0, 1, 1, 0, 0, s, s', _, _, threeRows_sharp, one_pos,
    by norm_num, one_ne_zero, h, h', fun hm => ?_⟩
  have h1 := hm.2.2 0 0 (by decide) (by decide) (by decide) (by decide)
  have hw : threeRows.wave.get (⟨0, by decide⟩ : Fin threeRows.wave.length) = 1 := rfl
  simp only [hw] at h1
  have e0 : threeRows.m0 = 1 / 2 := rfl
  rw [threeRows_pixel, threeRows_pixel, e0] at h1
  have hpos : 0 < ProbabilityTheory.gaussianPDFReal 1 ((1 / lightSpeed) ^ 2).toNNReal 1 := by
    apply ProbabilityTheory.gaussianPDFReal_pos
    rw [Ne, Real.toNNReal_eq_zero, not_le]
    have : lightSpeed ≠ 0 := by rw [lightSpeed_eq]; exact cKms_pos.ne'
    positivity
  generalize ProbabilityTheory.gaussianPDFReal 1 ((1 / lightSpeed) ^ 2).toNNReal 1 = g at h1 hpos
  norm_num at h1
  exact hpos.ne' h1

end Misfit
