import Verif.Props.ImageTurn

/-!
# C217: only observed wavelengths matter.  C218: superposition.  C219: the unit of velocity
-/

namespace Misfit

/-! ## C217 -/

/-- the set-up with the observed wavelengths of the lines in place of the rest wavelengths -/
noncomputable def AperCfg.observed (cfg : AperCfg) (z : ℝ) : AperCfg :=
  { cfg with restwave := cfg.restwave.map fun r => r * (1 + z) }

theorem lineSpectrum_observed (rest ratios : List ℝ) (z v sig lam : ℝ) :
    lineSpectrum ((rest.map fun r => r * (1 + z)).zip ratios) 0 v sig lam = lineSpectrum (rest.zip ratios) z v sig lam := by
  unfold lineSpectrum
  rw [List.zip_map_left, List.map_map]
  congr 1
  refine List.map_congr_left fun p _ => ?_
  simp only [Function.comp_apply, Prod.map_fst, Prod.map_snd, id_eq]
  rw [add_zero, mul_one]

theorem imageSpec_observed (cfg : AperCfg) (w0 step : ℝ) (N : ℕ) (r0 va rt sig m0 z : ℝ) (i j : ℕ) :
    imageSpec (cfg.observed z) w0 step N (r0 * (1 + z)) va rt sig m0 0 i j = imageSpec cfg w0 step N r0 va rt sig m0 z i j := by
  have h : ∀ sig, gridLight (cfg.observed z) va rt sig m0 0 = gridLight cfg va rt sig m0 z := by
    intro sig
    funext lam b a
    unfold gridLight
    refine Finset.sum_congr rfl fun c _ => ?_
    unfold cellLight
    simp only [AperCfg.observed, lineSpectrum_observed]
    rfl
  unfold imageSpec discImage
  rw [add_zero, mul_one]
  simp only [h]
  rfl

/-- **C217**: rest wavelengths and redshift only matter through the observed wavelengths of the lines: the model of the
lines at their observed wavelengths with redshift 0 has the same image, at the construction and at every later evaluation. -/
theorem C217_observed (cfg : AperCfg) (hc : Luminous cfg) (hF : 0 ≤ cfg.psf.fwhm) (hst : ¬ cfg.psf.StampFails)
    (hfit : cfg.psf.fwhm = 0 ∨ KernelFits cfg) (hsp : cfg.specType = .wave) (hi0 : 0 ≤ cfg.sini) (hi1 : cfg.sini ≤ 1)
    (t v d : List ℝ) (va rt sig m z : ℝ) (hrt : rt ≠ 0) (hs : 0 < sig) (hz : 0 < 1 + z) :
    ∃ s s' img,
      buildModel { cfg with restwave := cfg.restwave.map fun r => r * (1 + z) } ⟨t, some ⟨v, 2⟩, some ⟨d, 1⟩⟩ [va, rt, sig, m, 0] =
        .ok (s, .ok (some img)) ∧
      buildModel cfg ⟨t, some ⟨v, 2⟩, some ⟨d, 1⟩⟩ [va, rt, sig, m, z] = .ok (s', .ok (some img)) ∧
      ∀ (hist hist' : List (List ℝ)) (va' rt' sig' m' z' z'' : ℝ),
        (cfg.adaptive = true → AllReturn { cfg with restwave := cfg.restwave.map fun r => r * (1 + z) } s hist ∧
          AllReturn cfg s' hist') → rt' ≠ 0 → 0 < sig' →
        (updateModel { cfg with restwave := cfg.restwave.map fun r => r * (1 + z) }
          (runUpdates { cfg with restwave := cfg.restwave.map fun r => r * (1 + z) } s hist) [va', rt', sig', m', z']).2 =
          (updateModel cfg (runUpdates cfg s' hist') [va', rt', sig', m', z'']).2 := by
  obtain ⟨w0, step, N, hstep, hN, hw⟩ := hc.wave
  obtain hv | ⟨-, hr, hlen, hpos, hrat⟩ := hc.axis
  · rw [hsp] at hv
    cases hv
  have hc' : Luminous (cfg.observed z) := by
    refine ⟨hc.rows, hc.sub, hc.pix, hc.slit, hc.pad, hc.int, Or.inr ⟨hsp, ?_, ?_, ?_, hrat⟩, hc.mask, hc.reb, hc.wave, hc.adapt,
      hc.dither, hc.beta⟩
    · simpa [AperCfg.observed] using hr
    · simpa [AperCfg.observed] using hlen
    · intro r hr'
      obtain ⟨r', h1, rfl⟩ := List.mem_map.1 hr'
      exact mul_pos (hpos r' h1) hz
  obtain ⟨r0, hr0⟩ : ∃ r0, cfg.restwave.head? = some r0 := by
    cases h : cfg.restwave with
    | nil => exact absurd h hr
    | cons a l => exact ⟨a, rfl⟩
  have hr0' : (cfg.observed z).restwave.head? = some (r0 * (1 + z)) := by
    simp [AperCfg.observed, hr0]
  obtain ⟨s, img, h1, h2, h3, h4, h5⟩ := C203_image (cfg.observed z) hc' hF hst hfit hsp
    hi0 hi1 w0 step N hN hstep hw (r0 * (1 + z)) hr0' t v d va rt sig m 0 hrt hs (by norm_num)
  obtain ⟨s', img', h1', h2', h3', h4', h5'⟩ := C203_image cfg hc hF hst hfit hsp hi0 hi1
    w0 step N hN hstep hw r0 hr0 t v d va rt sig m z hrt hs hz
  have e : img = img' := same_arr h2 h3 (fun i j => (h4 i j).trans (imageSpec_observed cfg _ _ _ _ _ _ _ _ _ _ _)) h2' h3' h4'
  refine ⟨s, s', img, h1, e ▸ h1', fun hist hist' va' rt' sig' m' z' z'' hret hrt' hs' => ?_⟩
  obtain ⟨i1, g1, g2, g3, g4⟩ := h5 hist va' rt' sig' m' z' (fun ha => (hret ha).1) hrt' hs'
  obtain ⟨i2, g1', g2', g3', g4'⟩ := h5' hist' va' rt' sig' m' z'' (fun ha => (hret ha).2) hrt' hs'
  have g1e : (updateModel { cfg with restwave := cfg.restwave.map fun r => r * (1 + z) }
          (runUpdates { cfg with restwave := cfg.restwave.map fun r => r * (1 + z) } s hist) [va', rt', sig', m', z']).2 =
      .ok (some i1) := g1
  rw [g1e, g1', same_arr g2 g3 (fun i j => (g4 i j).trans (imageSpec_observed cfg _ _ _ _ _ _ _ _ _ _ _)) g2' g3' g4']

/-! ## C219 -/

theorem gaussian_scale (k : ℝ) (hk : 0 < k) (μ sig x : ℝ) :
    ProbabilityTheory.gaussianPDFReal (k * μ) ((k * sig) ^ 2).toNNReal (k * x) =
      ProbabilityTheory.gaussianPDFReal μ (sig ^ 2).toNNReal x / k := by
  unfold ProbabilityTheory.gaussianPDFReal
  rw [Real.coe_toNNReal _ (sq_nonneg _), Real.coe_toNNReal _ (sq_nonneg _)]
  have e1 : (2 * Real.pi * (k * sig) ^ 2) = k ^ 2 * (2 * Real.pi * sig ^ 2) := by ring
  rw [e1, Real.sqrt_mul (sq_nonneg k), Real.sqrt_sq hk.le]
  have e2 : -(k * x - k * μ) ^ 2 / (2 * (k * sig) ^ 2) = -(x - μ) ^ 2 / (2 * sig ^ 2) := by
    rw [show -(k * x - k * μ) ^ 2 = k ^ 2 * -(x - μ) ^ 2 by ring, show 2 * (k * sig) ^ 2 = k ^ 2 * (2 * sig ^ 2) by ring]
    exact mul_div_mul_left _ _ (by positivity)
  rw [e2, mul_inv]
  field_simp

/-- the set-up with all velocities in another unit -/
noncomputable def AperCfg.inVelocityUnit (cfg : AperCfg) (k : ℝ) : AperCfg :=
  { cfg with wave := cfg.wave.map fun x => k * x, res := k * cfg.res }

theorem dispersed_scale (W N : ℕ) (lam : ℕ → ℝ) (d k : ℝ) (hk : 0 < k) (A : ℕ → ℕ → ℝ) (w i : ℕ) :
    dispersed W N (fun i => k * lam i) (k * d) (fun w i => A w i / k) w i = dispersed W N lam d A w i / k := by
  have e : ∀ w w', -(k * lam w - k * lam w') ^ 2 / (2 * (k * d) ^ 2) = -(lam w - lam w') ^ 2 / (2 * d ^ 2) := by
    intro w w'
    rw [show -(k * lam w - k * lam w') ^ 2 = k ^ 2 * -(lam w - lam w') ^ 2 by ring, show 2 * (k * d) ^ 2 = k ^ 2 * (2 * d ^ 2) by ring]
    exact mul_div_mul_left _ _ (by positivity)
  have hB : ∀ w i, (∑ w' ∈ Finset.range W, if w ≤ w' + (W - 1) / 2 ∧ w' ≤ w + (W - 1) / 2 then
      A w' i / k * Real.exp (-(lam w - lam w') ^ 2 / (2 * d ^ 2)) else 0) =
      (∑ w' ∈ Finset.range W, if w ≤ w' + (W - 1) / 2 ∧ w' ≤ w + (W - 1) / 2 then
        A w' i * Real.exp (-(lam w - lam w') ^ 2 / (2 * d ^ 2)) else 0) / k := by
    intro w i
    rw [Finset.sum_div]
    refine Finset.sum_congr rfl fun w' _ => ?_
    split_ifs
    · ring
    · simp
  unfold dispersed
  simp only [e, hB, mul_pos_iff_of_pos_left hk, ← Finset.sum_div]
  split_ifs
  · field_simp
  · rfl

theorem scatter_div (n m kn km : ℕ) (a K : ℕ → ℕ → ℝ) (k : ℝ) :
    scatter n m kn km (fun y x => a y x / k) K = fun y x => scatter n m kn km a K y x / k := by
  funext y x
  unfold scatter
  simp only [Finset.sum_div]
  refine Finset.sum_congr rfl fun _ _ => Finset.sum_congr rfl fun _ _ => Finset.sum_congr rfl fun _ _ =>
    Finset.sum_congr rfl fun _ _ => ?_
  split_ifs
  · ring
  · simp

theorem total3_div (W n m : ℕ) (a : ℕ → ℕ → ℕ → ℝ) (k : ℝ) :
    total3 W n m (fun w y x => a w y x / k) = total3 W n m a / k := by
  unfold total3
  simp only [Finset.sum_div]

theorem blurred_div (cfg : AperCfg) (m0 : ℝ) (W : ℕ) (A : ℕ → ℕ → ℕ → ℝ) (k : ℝ) (hk : 0 < k) (w y x : ℕ) :
    blurred cfg m0 W (fun w y x => A w y x / k) w y x = blurred cfg m0 W A w y x / k := by
  unfold blurred
  simp only [scatter_div, total3_div]
  split_ifs
  · field_simp
  · rfl

theorem velSpec_unit (cfg : AperCfg) (k : ℝ) (hk : 0 < k) (w0 step : ℝ) (N : ℕ) (va rt sig m0 : ℝ) (i j : ℕ) :
    velSpec (cfg.inVelocityUnit k) (k * w0) (k * step) N (k * va) rt (k * sig) m0 i j =
      velSpec cfg w0 step N va rt sig m0 i j / k := by
  have hsp : ∀ step, velSpread (k * step) = k * velSpread step := by intro s; unfold velSpread; ring
  have hn : velSamples (cfg.inVelocityUnit k) (k * step) (k * sig) = velSamples cfg step sig := by
    unfold velSamples
    rw [hsp]
    simp only [mul_lt_mul_iff_right₀ hk]
    rfl
  have hsg : velSigma (cfg.inVelocityUnit k) (k * step) (k * sig) = k * velSigma cfg step sig := by
    unfold velSigma
    show (if cfg.sigmaFloor then max (k * sig) (if cfg.adaptive then 0.75 * velSpread (k * step / cfg.factor) else velSpread (k * step))
      else k * sig) = _
    rw [mul_div_assoc, hsp, hsp]
    split_ifs
    · rw [show 0.75 * (k * velSpread (step / cfg.factor)) = k * (0.75 * velSpread (step / cfg.factor)) by ring, mul_max_of_nonneg _ _ hk.le]
    · rw [mul_max_of_nonneg _ _ hk.le]
    · rfl
  have hv : ∀ x y, discVelocity (k * va) rt cfg.sini x y = k * discVelocity va rt cfg.sini x y := by
    intro x y
    unfold discVelocity
    simp only
    split_ifs
    · simp
    · ring
  have hL : ∀ sig v b a, velLight (cfg.inVelocityUnit k) (k * va) rt (k * sig) m0 (k * v) b a = velLight cfg va rt sig m0 v b a / k := by
    intro sig v b a
    unfold velLight
    rw [Finset.sum_div]
    refine Finset.sum_congr rfl fun c _ => ?_
    simp only
    show cfg.int _ _ * ProbabilityTheory.gaussianPDFReal (discVelocity (k * va) rt cfg.sini _ _) _ _ * _ = _
    rw [hv, gaussian_scale k hk]
    have hr : ∀ A B D : ℝ, A * (B / k) * D = A * B * D / k := fun A B D => by ring
    exact hr _ _ _
  have hw : ∀ n, fineWave (k * w0) (k * step) n = fun i => k * fineWave w0 step n i := by
    intro n
    funext i
    unfold fineWave
    ring
  unfold velSpec
  simp only [hn, hsg, hw]
  rw [Finset.sum_div]
  refine Finset.sum_congr rfl fun l _ => ?_
  unfold velImage
  rw [← dispersed_scale _ _ _ _ k hk]
  refine congrArg (fun f => dispersed _ _ _ _ f _ _) ?_
  funext w i
  show throughSlit cfg (blurred cfg m0 _ (fun w => velLight (cfg.inVelocityUnit k) (k * va) rt (k * velSigma cfg step sig) m0
    (k * fineWave w0 step _ w)) w) i = _
  have h1 : (fun w => velLight (cfg.inVelocityUnit k) (k * va) rt (k * velSigma cfg step sig) m0
      (k * fineWave w0 step (velSamples cfg step sig) w)) =
      fun w y x => (fun w => velLight cfg va rt (velSigma cfg step sig) m0 (fineWave w0 step (velSamples cfg step sig) w)) w y x / k := by
    funext w y x
    exact hL _ _ _ _
  rw [h1]
  unfold throughSlit
  simp only [blurred_div _ _ _ _ k hk, Finset.sum_div]
  refine Finset.sum_congr rfl fun _ _ => Finset.sum_congr rfl fun _ _ => ?_
  ring

/-- **C219**: on a velocity axis the unit of velocity does not matter: velocities of the pixels, instrumental dispersion,
velocity amplitude and dispersion in another unit give the image per new unit of velocity, at the construction and at every
later evaluation. -/
theorem C219_velocity_unit (cfg : AperCfg) (hc : Luminous cfg) (hF : 0 ≤ cfg.psf.fwhm) (hst : ¬ cfg.psf.StampFails)
    (hfit : cfg.psf.fwhm = 0 ∨ KernelFits cfg) (hsp : cfg.specType = .velocity) (hi0 : 0 ≤ cfg.sini) (hi1 : cfg.sini ≤ 1)
    (k : ℝ) (hk : 0 < k) (t v d : List ℝ) (va rt sig m z : ℝ) (hrt : rt ≠ 0) (hs : 0 < sig) :
    ∃ s s' img img',
      buildModel { cfg with wave := cfg.wave.map fun x => k * x, res := k * cfg.res } ⟨t, some ⟨v, 2⟩, some ⟨d, 1⟩⟩
        [k * va, rt, k * sig, m, z] = .ok (s, .ok (some img)) ∧
      buildModel cfg ⟨t, some ⟨v, 2⟩, some ⟨d, 1⟩⟩ [va, rt, sig, m, z] = .ok (s', .ok (some img')) ∧
      img = ⟨img'.n, img'.m, fun i j => img'.val i j / k⟩ ∧
      ∀ (hist hist' : List (List ℝ)) (va' rt' sig' m' z' : ℝ),
        (cfg.adaptive = true → AllReturn { cfg with wave := cfg.wave.map fun x => k * x, res := k * cfg.res } s hist ∧
          AllReturn cfg s' hist') → rt' ≠ 0 → 0 < sig' → ∃ a a' : Arr2,
        (updateModel { cfg with wave := cfg.wave.map fun x => k * x, res := k * cfg.res }
          (runUpdates { cfg with wave := cfg.wave.map fun x => k * x, res := k * cfg.res } s hist) [k * va', rt', k * sig', m', z']).2 =
            .ok (some a) ∧
          (updateModel cfg (runUpdates cfg s' hist') [va', rt', sig', m', z']).2 = .ok (some a') ∧
          a = ⟨a'.n, a'.m, fun i j => a'.val i j / k⟩ := by
  obtain ⟨w0, step, N, hstep, hN, hw⟩ := hc.wave
  have hw' : (cfg.inVelocityUnit k).wave = uniformGrid (k * w0) (k * step) N := by
    show cfg.wave.map (fun x => k * x) = _
    rw [hw]
    unfold uniformGrid
    rw [List.map_map]
    refine List.map_congr_left fun i _ => ?_
    simp only [Function.comp_apply]
    ring
  have hc' : Luminous (cfg.inVelocityUnit k) :=
    ⟨hc.rows, hc.sub, hc.pix, hc.slit, hc.pad, hc.int, Or.inl hsp, hc.mask, hc.reb, ⟨_, _, N, mul_pos hk hstep, hN, hw'⟩, hc.adapt,
      hc.dither, hc.beta⟩
  obtain ⟨s, img, h1, h2, h3, h4, h5⟩ := C204_image (cfg.inVelocityUnit k) hc' hF hst hfit hsp
    hi0 hi1 (k * w0) (k * step) N hN (mul_pos hk hstep) hw' t v d (k * va) rt (k * sig) m z hrt (mul_pos hk hs)
  obtain ⟨s', img', h1', h2', h3', h4', h5'⟩ := C204_image cfg hc hF hst hfit hsp hi0 hi1
    w0 step N hN hstep hw t v d va rt sig m z hrt hs
  refine ⟨s, s', img, img', h1, h1', ?_, fun hist hist' va' rt' sig' m' z' hret hrt' hs' => ?_⟩
  · exact same_arr (F := fun i j => velSpec cfg w0 step N va rt sig (cfg.m0 + m) i j / k) h2 h3 (fun i j => (h4 i j).trans (velSpec_unit cfg k hk _ _ _ _ _ _ _ _ _)) h2' h3'
      fun i j => by simp only [h4']
  · obtain ⟨i1, g1, g2, g3, g4⟩ := h5 hist (k * va') rt' (k * sig') m' z' (fun ha => (hret ha).1) hrt' (mul_pos hk hs')
    obtain ⟨i2, g1', g2', g3', g4'⟩ := h5' hist' va' rt' sig' m' z' (fun ha => (hret ha).2) hrt' hs'
    exact ⟨i1, i2, g1, g1', same_arr (F := fun i j => velSpec cfg w0 step N va' rt' sig' (cfg.m0 + m) i j / k) g2 g3 (fun i j => (g4 i j).trans (velSpec_unit cfg k hk _ _ _ _ _ _ _ _ _)) g2' g3'
      fun i j => by simp only [g4']⟩

/-! ## C218 -/

/-- the set-up with another light profile -/
def AperCfg.withLight (cfg : AperCfg) (I : ℝ → ℝ → ℝ) : AperCfg := { cfg with int := I }

theorem Luminous.withLight {cfg : AperCfg} (hc : Luminous cfg) {I : ℝ → ℝ → ℝ} (hI : ∀ r z, 0 < I r z) :
    Luminous (cfg.withLight I) :=
  ⟨hc.rows, hc.sub, hc.pix, hc.slit, hc.pad, hI, hc.axis, hc.mask, hc.reb, hc.wave, hc.adapt, hc.dither, hc.beta⟩

theorem gridLight_add (cfg : AperCfg) (I J : ℝ → ℝ → ℝ) (va rt sig m0 z lam : ℝ) (b a : ℕ) :
    gridLight (cfg.withLight fun r z => I r z + J r z) va rt sig m0 z lam b a =
      gridLight (cfg.withLight I) va rt sig m0 z lam b a + gridLight (cfg.withLight J) va rt sig m0 z lam b a := by
  unfold gridLight
  refine Eq.trans ?_ Finset.sum_add_distrib
  refine Finset.sum_congr rfl fun c _ => ?_
  have hr : ∀ A B C D : ℝ, (A + B) * C * D = A * C * D + B * C * D := fun A B C D => by ring
  exact hr _ _ _ _

theorem velLight_add (cfg : AperCfg) (I J : ℝ → ℝ → ℝ) (va rt sig m0 v : ℝ) (b a : ℕ) :
    velLight (cfg.withLight fun r z => I r z + J r z) va rt sig m0 v b a =
      velLight (cfg.withLight I) va rt sig m0 v b a + velLight (cfg.withLight J) va rt sig m0 v b a := by
  unfold velLight
  refine Eq.trans ?_ Finset.sum_add_distrib
  refine Finset.sum_congr rfl fun c _ => ?_
  have hr : ∀ A B C D : ℝ, (A + B) * C * D = A * C * D + B * C * D := fun A B C D => by ring
  exact hr _ _ _ _

theorem slit_add (cfg : AperCfg) (A B : ℕ → ℕ → ℝ) (i : ℕ) :
    throughSlit cfg (fun y x => A y x + B y x) i = throughSlit cfg A i + throughSlit cfg B i := by
  unfold throughSlit
  simp only [← Finset.sum_add_distrib]
  refine Finset.sum_congr rfl fun _ _ => Finset.sum_congr rfl fun _ _ => ?_
  ring

theorem blurred_sharp (cfg : AperCfg) (hF : cfg.psf.fwhm = 0) (m0 : ℝ) (W : ℕ) (A : ℕ → ℕ → ℕ → ℝ) (w : ℕ) :
    blurred cfg m0 W A w = A w := by
  funext y x
  unfold blurred
  exact if_neg (by rw [hF]; exact lt_irrefl _)

theorem imageSpec_add (cfg : AperCfg) (hF : cfg.psf.fwhm = 0) (hres : cfg.res = 0) (I J : ℝ → ℝ → ℝ) (w0 step : ℝ) (N : ℕ)
    (r0 va rt sig m0 z : ℝ) (i j : ℕ) :
    imageSpec (cfg.withLight fun r z => I r z + J r z) w0 step N r0 va rt sig m0 z i j =
      imageSpec (cfg.withLight I) w0 step N r0 va rt sig m0 z i j + imageSpec (cfg.withLight J) w0 step N r0 va rt sig m0 z i j := by
  have hd : ∀ I : ℝ → ℝ → ℝ, ∀ sig W lam w i, discImage (cfg.withLight I) r0 va rt sig m0 z W lam w i =
      throughSlit cfg (fun y x => gridLight (cfg.withLight I) va rt sig m0 z (lam w) y x) i := by
    intro I sig W lam w i
    have h1 : ¬ (0 : ℝ) < (cfg.withLight I).res / lightSpeed * (r0 * (1 + z)) := by
      show ¬ (0 : ℝ) < cfg.res / lightSpeed * (r0 * (1 + z))
      rw [hres, zero_div, zero_mul]
      exact lt_irrefl _
    unfold discImage dispersed
    simp only [if_neg h1, blurred_sharp (cfg.withLight I) hF]
    rfl
  unfold imageSpec
  simp only [hd, gridLight_add, slit_add]
  exact Finset.sum_add_distrib

theorem velSpec_add (cfg : AperCfg) (hF : cfg.psf.fwhm = 0) (hres : cfg.res = 0) (I J : ℝ → ℝ → ℝ) (w0 step : ℝ) (N : ℕ)
    (va rt sig m0 : ℝ) (i j : ℕ) :
    velSpec (cfg.withLight fun r z => I r z + J r z) w0 step N va rt sig m0 i j =
      velSpec (cfg.withLight I) w0 step N va rt sig m0 i j + velSpec (cfg.withLight J) w0 step N va rt sig m0 i j := by
  have hd : ∀ I : ℝ → ℝ → ℝ, ∀ sig W lam w i, velImage (cfg.withLight I) va rt sig m0 W lam w i =
      throughSlit cfg (fun y x => velLight (cfg.withLight I) va rt sig m0 (lam w) y x) i := by
    intro I sig W lam w i
    have h1 : ¬ (0 : ℝ) < (cfg.withLight I).res := by
      show ¬ (0 : ℝ) < cfg.res
      rw [hres]
      exact lt_irrefl _
    unfold velImage dispersed
    simp only [if_neg h1, blurred_sharp (cfg.withLight I) hF]
    rfl
  unfold velSpec
  simp only [hd, velLight_add, slit_add]
  exact Finset.sum_add_distrib

/-- **C218**, where it holds: without point spread function and instrumental broadening the image of a galaxy with two
components of light is the sum of the images of the components.  Missing: with a point spread function it is false, see
`C218_false`. -/
theorem C218_superposition_partial (cfg : AperCfg) (hc : Luminous cfg) (hF : cfg.psf.fwhm = 0) (hst : ¬ cfg.psf.StampFails)
    (hres : cfg.res = 0) (hi0 : 0 ≤ cfg.sini) (hi1 : cfg.sini ≤ 1) (I J : ℝ → ℝ → ℝ) (hI : ∀ r z, 0 < I r z) (hJ : ∀ r z, 0 < J r z)
    (t v d : List ℝ) (va rt sig m z : ℝ) (hrt : rt ≠ 0) (hs : 0 < sig) (hz : 0 < 1 + z) :
    ∃ s s1 s2, ∃ a a1 a2 : Arr2,
      buildModel { cfg with int := fun r z => I r z + J r z } ⟨t, some ⟨v, 2⟩, some ⟨d, 1⟩⟩ [va, rt, sig, m, z] =
        .ok (s, .ok (some a)) ∧
      buildModel { cfg with int := I } ⟨t, some ⟨v, 2⟩, some ⟨d, 1⟩⟩ [va, rt, sig, m, z] = .ok (s1, .ok (some a1)) ∧
      buildModel { cfg with int := J } ⟨t, some ⟨v, 2⟩, some ⟨d, 1⟩⟩ [va, rt, sig, m, z] = .ok (s2, .ok (some a2)) ∧
      ∃ (h1 : a1.n = a.n) (h1' : a1.m = a.m) (h2 : a2.n = a.n) (h2' : a2.m = a.m), ∀ i j,
        a.val i j = a1.val (Fin.cast h1.symm i) (Fin.cast h1'.symm j) + a2.val (Fin.cast h2.symm i) (Fin.cast h2'.symm j) := by
  obtain ⟨w0, step, N, hstep, hN, hw⟩ := hc.wave
  have hIJ : ∀ r z, 0 < I r z + J r z := fun r z => add_pos (hI r z) (hJ r z)
  obtain ⟨F, hFadd, hb⟩ : ∃ F : (ℝ → ℝ → ℝ) → ℕ → ℕ → ℝ, (∀ i j, F (fun r z => I r z + J r z) i j = F I i j + F J i j) ∧
      ∀ K : ℝ → ℝ → ℝ, (∀ r z, 0 < K r z) → ∃ s, ∃ a : Arr2,
        buildModel { cfg with int := K } ⟨t, some ⟨v, 2⟩, some ⟨d, 1⟩⟩ [va, rt, sig, m, z] = .ok (s, .ok (some a)) ∧
        a.n = cfg.nWhole ∧ a.m = N ∧ ∀ i j, a.val i j = F K i j := by
    rcases hc.axis with hv | ⟨hv, hr, -⟩
    · refine ⟨fun K => velSpec (cfg.withLight K) w0 step N va rt sig (cfg.m0 + m), fun i j => velSpec_add cfg hF hres _ _ _ _ _ _ _ _ _ _ _,
        fun K hK => ?_⟩
      obtain ⟨s, a, h1, h2, h3, h4, -⟩ := C204_image (cfg.withLight K) (hc.withLight hK) hF.ge hst (Or.inl hF) hv hi0 hi1 w0 step N hN
        hstep hw t v d va rt sig m z hrt hs
      exact ⟨s, a, h1, h2, h3, h4⟩
    · obtain ⟨r0, hr0⟩ : ∃ r0, cfg.restwave.head? = some r0 := by
        cases h : cfg.restwave with
        | nil => exact absurd h hr
        | cons a l => exact ⟨a, rfl⟩
      refine ⟨fun K => imageSpec (cfg.withLight K) w0 step N r0 va rt sig (cfg.m0 + m) z,
        fun i j => imageSpec_add cfg hF hres _ _ _ _ _ _ _ _ _ _ _ _ _, fun K hK => ?_⟩
      obtain ⟨s, a, h1, h2, h3, h4, -⟩ := C203_image (cfg.withLight K) (hc.withLight hK) hF.ge hst (Or.inl hF) hv hi0 hi1 w0 step N hN
        hstep hw r0 hr0 t v d va rt sig m z hrt hs hz
      exact ⟨s, a, h1, h2, h3, h4⟩
  obtain ⟨s, a, e1, e2, e3, e4⟩ := hb _ hIJ
  obtain ⟨s1, a1, f1, f2, f3, f4⟩ := hb I hI
  obtain ⟨s2, a2, g1, g2, g3, g4⟩ := hb J hJ
  exact ⟨s, s1, s2, a, a1, a2, e1, f1, g1, f2.trans e2.symm, f3.trans e3.symm, g2.trans e2.symm, g3.trans e3.symm, fun i j => by
    rw [e4, f4, g4, hFadd]
    rfl⟩

/-- light of the two columns of an edge-on disc turned by 45 degrees, half a pixel below the middle of the pixel: the first
column shows the receding side, the second one the minor axis -/
theorem twoCols_mixed (I : ℝ → ℝ → ℝ) (v : ℝ) :
    velLight (twoCols 45 0 I) 1 (Real.sqrt 2 / 2) 1 0 v 0 0 = I (Real.sqrt 2 / 2) 0 * ProbabilityTheory.gaussianPDFReal (1 / 2) 1 v ∧
    velLight (twoCols 45 0 I) 1 (Real.sqrt 2 / 2) 1 0 v 0 1 = I 0 (-(Real.sqrt 2 / 2)) * ProbabilityTheory.gaussianPDFReal 0 1 v := by
  have h45 : (45 : ℝ) * Real.pi / 180 = Real.pi / 4 := by ring
  have hh : 0 < Real.sqrt 2 / 2 := by positivity
  have hp : ∀ a : ℕ, discPoint 1 45 (a - 1 / 2) (1 / 2 - 0) 0 = (0, (1 - a) * (Real.sqrt 2 / 2), -(a * (Real.sqrt 2 / 2))) := by
    intro a
    unfold discPoint
    simp only [h45, Real.cos_pi_div_four, Real.sin_pi_div_four]
    refine Prod.ext ?_ (Prod.ext ?_ ?_) <;> simp <;> ring
  have hr : Real.sqrt ((0 : ℝ) ^ 2 + (Real.sqrt 2 / 2) ^ 2) = Real.sqrt 2 / 2 := by
    rw [zero_pow two_ne_zero, zero_add, Real.sqrt_sq hh.le]
  have hr0 : Real.sqrt ((0 : ℝ) ^ 2 + (0 : ℝ) ^ 2) = 0 := by simp
  have hv : discVelocity 1 (Real.sqrt 2 / 2) 1 0 (Real.sqrt 2 / 2) = 1 / 2 := by
    unfold discVelocity
    simp only [hr]
    rw [if_neg hh.ne', div_self hh.ne', Real.arctan_one]
    have := Real.pi_ne_zero
    field_simp
    norm_num
  have hv0 : discVelocity 1 (Real.sqrt 2 / 2) 1 0 0 = 0 := by
    unfold discVelocity
    simp only [hr0, if_true]
  have hz : skyZ 1 1 0 = 0 := by unfold skyZ; norm_num
  have hsub : (twoCols 45 0 I).nWhole * (twoCols 45 0 I).nSubpixels = 1 := rfl
  have hd : (twoCols 45 0 I).pixscale / ((twoCols 45 0 I).nSubpixels : ℝ) = 1 := by norm_num [twoCols]
  have hall : ∀ a : ℕ, velLight (twoCols 45 0 I) 1 (Real.sqrt 2 / 2) 1 0 v 0 a =
      I (Real.sqrt ((0 : ℝ) ^ 2 + ((1 - a) * (Real.sqrt 2 / 2)) ^ 2)) (-(a * (Real.sqrt 2 / 2))) *
        ProbabilityTheory.gaussianPDFReal (discVelocity 1 (Real.sqrt 2 / 2) 1 0 ((1 - a) * (Real.sqrt 2 / 2))) 1 v := by
    intro a
    unfold velLight
    simp only [hsub, hd, Finset.sum_range_one, twoCols_x, twoCols_y, hz]
    show I (Real.sqrt ((discPoint 1 45 (a - 1 / 2) (1 / 2 - 0) 0).1 ^ 2 + (discPoint 1 45 (a - 1 / 2) (1 / 2 - 0) 0).2.1 ^ 2))
      (discPoint 1 45 (a - 1 / 2) (1 / 2 - 0) 0).2.2 * ProbabilityTheory.gaussianPDFReal (discVelocity 1 (Real.sqrt 2 / 2) 1
      (discPoint 1 45 (a - 1 / 2) (1 / 2 - 0) 0).1 (discPoint 1 45 (a - 1 / 2) (1 / 2 - 0) 0).2.1) ((1 : ℝ) ^ 2).toNNReal v * 1 = _
    rw [hp]
    simp
  refine ⟨?_, ?_⟩
  · rw [hall]
    simp only [Nat.cast_zero, sub_zero, one_mul, zero_mul, neg_zero, hr, hv]
  · rw [hall]
    simp only [Nat.cast_one, sub_self, one_mul, zero_mul, hr0, hv0]

/-- C218 is false with a point spread function: a uniform component and one that is brighter in the middle.  The light that
the kernel throws off the grid is put back in proportion to the total, which differs between the components. -/
theorem C218_false : ∃ (cfg : AperCfg) (I J : ℝ → ℝ → ℝ) (rt : ℝ), Luminous cfg ∧ 0 < cfg.psf.fwhm ∧ ¬ cfg.psf.StampFails ∧
    KernelFits cfg ∧ cfg.res = 0 ∧ 0 ≤ cfg.sini ∧ cfg.sini ≤ 1 ∧ rt ≠ 0 ∧ (∀ r z, 0 < I r z) ∧ (∀ r z, 0 < J r z) ∧
    ∀ t v d : List ℝ, ∃ s s1 s2, ∃ a a1 a2 : Arr2,
      buildModel { cfg with int := fun r z => I r z + J r z } ⟨t, some ⟨v, 2⟩, some ⟨d, 1⟩⟩ [1, rt, 1, 0, 0] = .ok (s, .ok (some a)) ∧
      buildModel { cfg with int := I } ⟨t, some ⟨v, 2⟩, some ⟨d, 1⟩⟩ [1, rt, 1, 0, 0] = .ok (s1, .ok (some a1)) ∧
      buildModel { cfg with int := J } ⟨t, some ⟨v, 2⟩, some ⟨d, 1⟩⟩ [1, rt, 1, 0, 0] = .ok (s2, .ok (some a2)) ∧
      ∃ (h1 : a1.n = a.n) (h1' : a1.m = a.m) (h2 : a2.n = a.n) (h2' : a2.m = a.m) (i : Fin a.n) (j : Fin a.m),
        a.val i j ≠ a1.val (Fin.cast h1.symm i) (Fin.cast h1'.symm j) + a2.val (Fin.cast h2.symm i) (Fin.cast h2'.symm j) := by
  have hst : ∀ I, ¬ (twoCols 45 0 I).psf.StampFails := by
    intro I
    rintro ⟨h, -⟩
    cases h
  have hI : ∀ r z : ℝ, (0 : ℝ) < (fun _ _ => 1 : ℝ → ℝ → ℝ) r z := fun _ _ => one_pos
  have hJ : ∀ r z : ℝ, (0 : ℝ) < (fun r _ => 3 / (1 + 4 * r ^ 2) : ℝ → ℝ → ℝ) r z := fun r _ => by positivity
  have hkf : ∀ I, (∀ r z, 0 < I r z) → KernelFits (twoCols 45 0 I) :=
    fun I hI => kernelFits_wide _ (twoCols_luminous 45 0 I hI) (by norm_num [twoCols])
  refine ⟨twoCols 45 0 fun _ _ => 1, fun _ _ => 1, fun r _ => 3 / (1 + 4 * r ^ 2), Real.sqrt 2 / 2, twoCols_luminous 45 0 _ hI,
    one_pos, hst _, hkf _ hI, rfl, zero_le_one, le_rfl, by positivity, hI, hJ, fun t v d => ?_⟩
  have hb := fun I hI => C204_image (twoCols 45 0 I) (twoCols_luminous 45 0 I hI) zero_le_one (hst I) (Or.inr (hkf I hI)) rfl
    zero_le_one le_rfl (-1) 2 2 le_rfl two_pos rfl t v d 1 (Real.sqrt 2 / 2) 1 0 0 (by positivity) one_pos
  obtain ⟨s, a, e1, e2, e3, e4, -⟩ := hb (fun r z => 1 + 3 / (1 + 4 * r ^ 2)) fun r z => by positivity
  obtain ⟨s1, a1, f1, f2, f3, f4, -⟩ := hb (fun r z => 1) hI
  obtain ⟨s2, a2, g1, g2, g3, g4, -⟩ := hb (fun r z => 3 / (1 + 4 * r ^ 2)) hJ
  have hn : (twoCols 45 0 fun _ _ => 1).nWhole = 1 := rfl
  refine ⟨s, s1, s2, a, a1, a2, e1, f1, g1, f2.trans e2.symm, f3.trans e3.symm, g2.trans e2.symm, g3.trans e3.symm,
    ⟨0, by rw [e2]; exact one_pos⟩, ⟨0, by rw [e3]; exact two_pos⟩, ?_⟩
  rw [e4, f4, g4]
  have hm : ∀ I, (twoCols 45 0 I).m0 + 0 = 0 := by intro I; show (0 : ℝ) + 0 = 0; norm_num
  simp only [hm, Fin.val_cast]
  rw [twoCols_image 45 0 _ 1 _ 1 0 _ fun w a => rfl, twoCols_image 45 0 _ 1 _ 1 0 _ fun w a => rfl,
    twoCols_image 45 0 _ 1 _ 1 0 _ fun w a => rfl]
  simp only [(twoCols_mixed _ _).1, (twoCols_mixed _ _).2]
  have hh : (Real.sqrt 2 / 2) ^ 2 = 1 / 2 := by rw [div_pow, Real.sq_sqrt zero_le_two]; norm_num
  simp only [hh, ProbabilityTheory.gaussianPDFReal]
  set c := (Real.sqrt (2 * Real.pi * (1 : NNReal)))⁻¹ with hc
  have hc0 : 0 < c := by
    rw [hc]
    have := Real.pi_pos
    have : (0 : ℝ) < 2 * Real.pi * (1 : NNReal) := by simpa using this
    positivity
  norm_num
  have hq : Real.exp (-(9 / 8)) < Real.exp (-(1 / 8)) := Real.exp_lt_exp.2 (by norm_num)
  have hq0 := Real.exp_pos (-(9 / 8))
  have hp0 := Real.exp_pos (-(1 / 8))
  have hg0 := Real.exp_pos (-(1 / 2))
  generalize Real.exp (-(9 / 8)) = Q at *
  generalize Real.exp (-(1 / 8)) = P at *
  generalize Real.exp (-(1 / 2)) = G at *
  intro heq
  have key : c * (P - Q) * ((P + Q) * G ^ 2 / ((P + Q + 2 * G) * (P + Q + G) * (P + Q + 3 * G))) = 0 := by
    have := sub_eq_zero.2 heq
    rw [← neg_eq_zero, ← this]
    field_simp
    ring
  have h1 : 0 < c * (P - Q) := mul_pos hc0 (sub_pos.2 hq)
  have h2 : 0 < (P + Q) * G ^ 2 / ((P + Q + 2 * G) * (P + Q + G) * (P + Q + 3 * G)) := by positivity
  exact (mul_pos h1 h2).ne' key

/-! ## The hypotheses are met -/

/-- a set-up on velocities -/
noncomputable def velSlit : AperCfg := { turnSlit with specType := .velocity }

theorem velSlit_luminous : Luminous velSlit := by
  have h := turnSlit_luminous
  exact ⟨h.rows, h.sub, h.pix, h.slit, h.pad, h.int, Or.inl rfl, h.mask, h.reb, h.wave, h.adapt, h.dither, h.beta⟩

/-- the hypotheses of `C217_observed` and `C219_velocity_unit` are met -/
example : (Luminous turnSlit ∧ turnSlit.specType = .wave) ∧ (Luminous velSlit ∧ velSlit.specType = .velocity) ∧
    (0 ≤ velSlit.psf.fwhm ∧ ¬ velSlit.psf.StampFails ∧ KernelFits velSlit ∧ KernelFits turnSlit) :=
  ⟨⟨turnSlit_luminous, rfl⟩, ⟨velSlit_luminous, rfl⟩, zero_le_one, (by rintro ⟨h, -⟩; cases h),
    kernelFits_wide _ velSlit_luminous (by norm_num [velSlit, turnSlit, smallSlit]),
    kernelFits_wide _ turnSlit_luminous (by norm_num [turnSlit, smallSlit])⟩

/-- … and those of `C218_superposition_partial` -/
example : ∃ cfg : AperCfg, Luminous cfg ∧ cfg.psf.fwhm = 0 ∧ ¬ cfg.psf.StampFails ∧ cfg.res = 0 ∧ cfg.adaptive = true := by
  have h := smallSlit_luminous ⟨.gaussian, 0, 0, none⟩ (fun _ => rfl) fun h => by cases h
  exact ⟨{ smallSlit ⟨.gaussian, 0, 0, none⟩ with res := 0 }, ⟨h.rows, h.sub, h.pix, h.slit, h.pad, h.int, h.axis, h.mask, h.reb,
    h.wave, h.adapt, h.dither, h.beta⟩, rfl, (by rintro ⟨h, -⟩; cases h), rfl, rfl⟩

end Misfit
