import Verif.Lemmas.Cube3D
import Verif.Props.ImageForm

/-!
# Properties of the data cubes (C106-C108)
-/

namespace Misfit

/-! ## Specification -/

/-- what the constructor needs: pixels, subpixels, a pixel size, a wavelength, and padding that is not negative -/
structure IfuInput (cfg : AperCfg) : Prop where
  rows : 0 < cfg.nWhole
  sub : 0 < cfg.nSubpixels
  pix : 0 < cfg.pixscale
  wave : cfg.wave ≠ []
  padding : 0 ≤ cfg.psf.fwhm * cfg.padFactor

/-- number of subpixels added on each side for the point spread function -/
noncomputable def padCells (cfg : AperCfg) : ℕ :=
  (npRound (cfg.psf.fwhm * cfg.padFactor / (cfg.pixscale / cfg.nSubpixels))).toNat

theorem ifu_grid {cfg : AperCfg} (hi : IfuInput cfg) {theta : List ℝ} {f : AperFixed}
    (h : setupCalcs (ifuCfg cfg) theta = .ok f) :
    f.grid.nPixY = cfg.nWhole * cfg.nSubpixels ∧ f.grid.nPixX = cfg.nWhole * cfg.nSubpixels ∧
      f.grid.padY = padCells cfg ∧ f.grid.padX = padCells cfg ∧
      f.grid.nY = f.grid.nPixY + 2 * f.grid.padY ∧ f.grid.nX = f.grid.nPixX + 2 * f.grid.padX := by
  obtain ⟨z, m0, _, _, _, hg, _⟩ := setupCalcs_inv _ _ _ h
  have hn : (0 : ℝ) < cfg.nWhole := by exact_mod_cast hi.rows
  have hS : (0 : ℝ) < cfg.nSubpixels := by exact_mod_cast hi.sub
  have hp := hi.pix
  obtain ⟨G, hG, hnY, hdY, hdZ, hdpos, hpX, _, _, _, hX, hY, hZ, hpadY, hpadX, _⟩ := setupGrid_ok
    (⟨cfg.nWhole, cfg.nSubpixels, cfg.pixscale, cfg.nWhole * cfg.pixscale, cfg.psf.fwhm,
      cfg.padFactor, 0, cfg.m0 + m0⟩ : GridIn ℝ) ⟨hi.rows, hi.sub, hi.pix, by positivity, hi.padding⟩
  obtain ⟨hnX, hdX⟩ := setupGrid_nPixX _ _ hi.sub hi.pix hG
  have hg' : setupGrid (⟨cfg.nWhole, cfg.nSubpixels, cfg.pixscale, cfg.nWhole * cfg.pixscale, cfg.psf.fwhm,
      cfg.padFactor, 0, cfg.m0 + m0⟩ : GridIn ℝ) = .ok f.grid := hg
  rw [hG] at hg'
  cases hg'
  simp only at hnX hdX hnY hdY hpadY hpadX
  have e : (cfg.nWhole : ℝ) * cfg.pixscale * cfg.nSubpixels / cfg.pixscale =
      ((cfg.nWhole * cfg.nSubpixels : ℕ) : ℝ) := by
    push_cast; field_simp
  have hnX' : f.grid.nPixX = cfg.nWhole * cfg.nSubpixels := by
    rw [hnX, e, Int.ceil_natCast, Int.toNat_natCast]
  have hd : f.grid.deltX = cfg.pixscale / cfg.nSubpixels := by
    rw [hdX, hnX']; push_cast; field_simp
  exact ⟨hnY, hnX', by rw [hpadY, hdY]; rfl, by rw [hpadX, hd]; rfl, hY, hX⟩

/-- wavelengths at equal distances -/
def EqualSteps (wave : List ℝ) : Prop := ∃ w0 step N, 0 < step ∧ 2 ≤ N ∧ wave = uniformGrid w0 step N

/-- The wavelengths with which the cube of equally spaced wavelengths is evaluated: these, or three for each. -/
theorem evalPoint_length {cfg : AperCfg} {theta : List ℝ} {f : AperFixed} {k : KinProfile} {s1 : AperState} {sig : ℝ}
    (hw : EqualSteps cfg.wave) (hf : setupCalcs (ifuCfg cfg) theta = .ok f)
    (h : evalPoint (ifuCfg cfg) ⟨f, k, cfg.wave, avgDiff cfg.wave⟩ theta = some (s1, sig)) :
    ∃ g, 0 < g ∧ s1.wave.length = cfg.wave.length * g := by
  obtain ⟨w0, step, N, h0, hN, hwave⟩ := hw
  have hreal := (setupCalcs_real (ifuCfg cfg) theta f hf)
  have hlen : cfg.wave.length = N := by rw [hwave]; simp [uniformGrid]
  unfold evalPoint at h
  split at h
  · cases h
  · rename_i k' hk
    simp only at h
    by_cases ha : (ifuCfg cfg).adaptive = true
    · simp only [if_pos ha] at h
      have h1 := applySigmaFloor_keeps (ifuCfg cfg) (checkUpsample (ifuCfg cfg) ⟨f, k', cfg.wave, avgDiff cfg.wave⟩).1
      split at h
      · cases h
      · rename_i hup
        split at h
        · cases h
        · cases h
          rw [h1.2.1]
          unfold checkUpsample at hup
          split at hup
          · cases hup
          · rename_i d hd
            split at hup
            · cases hup
            · rename_i lim hlim
              split at hup
              · rename_i hth
                refine ⟨1, one_pos, ?_⟩
                unfold checkUpsample
                simp only at hd hlim
                simp only [hd, hlim, hth, mul_one]
              · rename_i sg hth
                by_cases hlt : |sg| < lim
                · cases hnp : (ifuCfg cfg).npFloat with
                  | false => simp only [if_pos hlt, hnp, if_true] at hup; cases hup
                  | true =>
                    have h3 := C38_fine_grid (ifuCfg cfg) ⟨f, k', cfg.wave, avgDiff cfg.wave⟩ d sg lim w0 step N 3 hN
                      (by norm_num) h0 (by norm_num [ifuCfg]) hnp hd hth hlim hlt hwave
                      (by rw [hreal.2]; show avgDiff cfg.wave = step; rw [hwave]; exact avgDiff_uniform _ _ _ hN)
                    exact ⟨3, by norm_num, by rw [h3.2.1, hlen]⟩
                · refine ⟨1, one_pos, ?_⟩
                  unfold checkUpsample
                  simp only at hd hlim
                  simp only [hd, hlim, hth, if_neg hlt, mul_one]
    · simp only [if_neg ha] at h
      have h1 := applySigmaFloor_keeps (ifuCfg cfg) ⟨f, k', cfg.wave, avgDiff cfg.wave⟩
      split at h
      · cases h
      · cases h
        exact ⟨1, one_pos, by rw [h1.2.1, mul_one]⟩

/-- A first call of `make_3D_int_model` step by step. -/
theorem make_first (m : CubeModel) (cfg : AperCfg) (hi : IfuInput cfg) (fit : List ℝ) (hm : m.aper = none)
    (p : KinParams ℝ) (hp : m.params.update fit = (p, none)) (k : KinProfile)
    (hk : m.kin.updateTheta p.theta = .ok k) (s : AperState) (img : Option Arr2)
    (hb : buildModel (ifuCfg cfg) k p.theta = .ok (s, .ok img)) :
    ∃ f raw s1, setupCalcs (ifuCfg cfg) p.theta = .ok f ∧
      keptCubes (ifuCfg cfg) ⟨f, k, cfg.wave, avgDiff cfg.wave⟩ p.theta =
        some (raw, trimmedCube f (convCube (ifuCfg cfg) f raw)) ∧
      (cfg.adaptive = false → s1 = cfg.wave) ∧
      (EqualSteps cfg.wave → ∃ g, 0 < g ∧ s1.length = cfg.wave.length * g) ∧ raw.nW = List.length s1 ∧ raw.nY = f.grid.nY ∧ raw.nX = f.grid.nX ∧
      m.make cfg fit = match (trimmedCube f (convCube (ifuCfg cfg) f raw)).rebin cfg.wave.length
          (cfg.nWhole + 2 * padCells cfg) (cfg.nWhole + 2 * padCells cfg) with
        | .error e => (⟨p, s.kin, some (ifuCfg cfg, s), m.cube⟩, .error e)
        | .ok c => (⟨p, s.kin, some (ifuCfg cfg, s), some c⟩, .ok ()) := by
  unfold buildModel at hb
  split at hb
  · cases hb
  · rename_i f hf
    simp only [Except.ok.injEq] at hb
    obtain ⟨s1, sig, raw, he, hr, hkc⟩ := keptCubes_of_ok hb
    obtain ⟨hfix, hw⟩ := evalPoint_fixed he
    simp only at hfix
    rw [hfix] at hkc hr
    obtain ⟨n0, n1, n2⟩ := rawCube_size hr
    obtain ⟨_, _, hpy, hpx, _⟩ := ifu_grid hi hf
    refine ⟨f, raw, s1.wave, hf, hkc, hw, fun hs => evalPoint_length hs hf he, n0, n1, n2, ?_⟩
    have hb' : doModelCalcs (ifuCfg cfg) ⟨f, k, cfg.wave, avgDiff cfg.wave⟩ p.theta = (s, .ok img) := hb
    have hkc' : keptCubes (ifuCfg cfg) ⟨f, k, cfg.wave, avgDiff cfg.wave⟩ p.theta =
        some (raw, trimmedCube f (convCube (ifuCfg cfg) f raw)) := hkc
    unfold CubeModel.make
    rw [hp]
    simp only
    rw [hk]
    simp only [hm]
    rw [hf]
    simp only
    rw [hb']
    simp only
    rw [hkc']
    simp only
    rw [hpy, hpx]
    generalize (trimmedCube f (convCube (ifuCfg cfg) f raw)).rebin cfg.wave.length (cfg.nWhole + 2 * padCells cfg)
      (cfg.nWhole + 2 * padCells cfg) = x
    cases x <;> rfl

/-! ## C106: one spaxel per pixel -/

/-- **C106**, exact outcome without adaptive sampling or for equally spaced wavelengths: when the model image can be computed at all, the cube is returned exactly if the padded image
size in pixels divides the number of subpixels; otherwise the call raises.  Missing: success for every padding, see `C106_false`. -/
theorem C106_outcome_partial (m : CubeModel) (cfg : AperCfg) (hi : IfuInput cfg)
    (ha : cfg.adaptive = false ∨ EqualSteps cfg.wave) (fit : List ℝ)
    (hm : m.aper = none) (p : KinParams ℝ) (hp : m.params.update fit = (p, none)) (k : KinProfile)
    (hk : m.kin.updateTheta p.theta = .ok k) (s : AperState) (img : Option Arr2)
    (hb : buildModel (ifuCfg cfg) k p.theta = .ok (s, .ok img)) :
    (m.make cfg fit).2 = if cfg.nWhole + 2 * padCells cfg ∣ cfg.nWhole * cfg.nSubpixels then .ok ()
      else .error .valueError := by
  obtain ⟨f, raw, w, hf, _, hw, hw', n0, n1, n2, e⟩ := make_first m cfg hi fit hm p hp k hk s img hb
  obtain ⟨g1, g2, g3, g4, g5, g6⟩ := ifu_grid hi hf
  have hN := Nat.mul_pos hi.rows hi.sub
  obtain ⟨g, hg0, hg⟩ : ∃ g, 0 < g ∧ w.length = cfg.wave.length * g := by
    rcases ha with ha | ha
    · exact ⟨1, one_pos, by rw [hw ha, mul_one]⟩
    · exact hw' ha
  have hW : (trimmedCube f (convCube (ifuCfg cfg) f raw)).nW = cfg.wave.length * g := by
    show (convCube (ifuCfg cfg) f raw).nW = _
    rw [convCube_size, n0, hg]
  have hY : (trimmedCube f (convCube (ifuCfg cfg) f raw)).nY = cfg.nWhole * cfg.nSubpixels := g1
  have hX : (trimmedCube f (convCube (ifuCfg cfg) f raw)).nX = cfg.nWhole * cfg.nSubpixels := g2
  have hl : 0 < cfg.wave.length := List.length_pos_iff.2 hi.wave
  have hr := Cube3.rebin_iff (trimmedCube f (convCube (ifuCfg cfg) f raw)) (by rw [hW]; exact Nat.mul_pos hl hg0) (by omega) (by omega)
    cfg.wave.length (cfg.nWhole + 2 * padCells cfg) (cfg.nWhole + 2 * padCells cfg)
  rw [hW, hY, hX] at hr
  rw [e]
  by_cases hd : cfg.nWhole + 2 * padCells cfg ∣ cfg.nWhole * cfg.nSubpixels
  · obtain ⟨b, hbb⟩ := hr.2 ⟨dvd_mul_right _ _, hd, hd⟩
    rw [hbb, if_pos hd]
  · rw [if_neg hd]
    split
    · rename_i er her
      unfold Cube3.rebin at her
      split at her
      · cases her; rfl
      · simp only at her
        split at her
        · cases her
        · cases her; rfl
    · rename_i b hbb
      exact absurd (hr.1 ⟨b, hbb⟩).2.1 hd

/-- **C106** is false: as soon as the point spread function needs padding, a first call never produces a cube with one row of spaxels per
pixel row, whatever the parameters and the options. -/
theorem C106_false (m : CubeModel) (cfg : AperCfg) (hi : IfuInput cfg) (hpad : 0 < padCells cfg) (fit : List ℝ)
    (hm : m.aper = none) (h : (m.make cfg fit).2 = .ok ()) :
    ∃ c, (m.make cfg fit).1.cube = some c ∧ c.nY = cfg.nWhole + 2 * padCells cfg ∧ c.nY ≠ cfg.nWhole ∧
      c.nX ≠ cfg.nWhole := by
  generalize hr : m.make cfg fit = r at h ⊢
  unfold CubeModel.make at hr
  split at hr
  · subst hr; cases h
  · split at hr
    · subst hr; cases h
    · simp only [hm] at hr
      split at hr
      · subst hr; cases h
      · rename_i f hf
        obtain ⟨_, _, hpy, hpx, _⟩ := ifu_grid hi hf
        split at hr
        · subst hr; cases h
        · split at hr
          · subst hr; cases h
          · split at hr
            · subst hr; cases h
            · rename_i c hc
              subst hr
              refine ⟨c, rfl, ?_⟩
              unfold Cube3.rebin at hc
              split at hc
              · cases hc
              · simp only at hc
                split at hc
                · cases hc
                  simp only [hpy, hpx]
                  exact ⟨trivial, by omega, by omega⟩
                · cases hc

/-- With one subpixel per pixel and any padding the call never returns. -/
theorem C106_false_single (m : CubeModel) (cfg : AperCfg) (hi : IfuInput cfg)
    (ha : cfg.adaptive = false ∨ EqualSteps cfg.wave)
    (h1 : cfg.nSubpixels = 1) (hpad : 0 < padCells cfg) (fit : List ℝ)
    (hm : m.aper = none) (p : KinParams ℝ) (hp : m.params.update fit = (p, none)) (k : KinProfile)
    (hk : m.kin.updateTheta p.theta = .ok k) (s : AperState) (img : Option Arr2)
    (hb : buildModel (ifuCfg cfg) k p.theta = .ok (s, .ok img)) :
    (m.make cfg fit).2 = .error .valueError := by
  rw [C106_outcome_partial m cfg hi ha fit hm p hp k hk s img hb, if_neg]
  intro hd
  have := Nat.le_of_dvd (Nat.mul_pos hi.rows hi.sub) hd
  rw [h1] at this
  omega

/-- light in the square spaxel in row `j` and column `k`: the columns of cells of its subpixels -/
noncomputable def spaxelSpec (cfg : AperCfg) (va rt sig m0 z lam : ℝ) (j k : ℕ) : ℝ :=
  ∑ t ∈ Finset.range cfg.nSubpixels, ∑ u ∈ Finset.range cfg.nSubpixels,
    columnLight cfg va rt sig m0 z lam (j * cfg.nSubpixels + t) (k * cfg.nSubpixels + u)

/-- the subpixel cube -/
noncomputable def subpixelCube (cfg : AperCfg) (va rt sig m0 z : ℝ) : Cube3 :=
  ⟨cfg.wave.length, cfg.nWhole * cfg.nSubpixels, cfg.nWhole * cfg.nSubpixels,
    fun w b a => .fin (columnLight cfg va rt sig m0 z (cfg.wave.get w) b.val a.val)⟩

/-- the pixel cube -/
noncomputable def spaxelCube (cfg : AperCfg) (va rt sig m0 z : ℝ) : Cube3 :=
  ⟨cfg.wave.length, cfg.nWhole, cfg.nWhole,
    fun w j k => .fin (spaxelSpec cfg va rt sig m0 z (cfg.wave.get w) j.val k.val)⟩

theorem updateTheta_sharp (kin : KinProfile) (hk : kin.shape = (some 2, some 1)) (va rt sig m z : ℝ) :
    kin.updateTheta [va, rt, sig, m, z] = .ok (sharpKin va rt sig m z) := by
  rw [updateTheta_congr kin ⟨[], some ⟨[], 2⟩, some ⟨[], 1⟩⟩ (by rw [hk]; rfl)]
  rfl

theorem floor_sharp (cfg : AperCfg) (hf : cfg.sigmaFloor = false) (va rt sig m z : ℝ) (hs : 0 < sig) (s : AperState)
    (h : s.kin = sharpKin va rt sig m z) : applySigmaFloor cfg s = (s, .ok sig) := by
  obtain ⟨sf, sk, sw, sd⟩ := s
  subst h
  unfold applySigmaFloor sharpKin
  simp only [hf]
  by_cases ha : cfg.absvalsigma = true
  · simp [ha, abs_of_pos hs]
  · simp [ha]

theorem setupCalcs_last (cfg : AperCfg) (va rt sig va' rt' sig' m z : ℝ) :
    setupCalcs cfg [va, rt, sig, m, z] = setupCalcs cfg [va', rt', sig', m, z] := by
  have e1 : fromEnd [va, rt, sig, m, z] 1 = .ok z := rfl
  have e2 : fromEnd [va, rt, sig, m, z] 2 = .ok m := rfl
  have e1' : fromEnd [va', rt', sig', m, z] 1 = .ok z := rfl
  have e2' : fromEnd [va', rt', sig', m, z] 2 = .ok m := rfl
  unfold setupCalcs setupArrays
  simp only [e1, e2, e1', e2']

theorem slitCells_ifu (cfg : AperCfg) (hp : 0 < cfg.pixscale) :
    slitCells (ifuCfg cfg) = cfg.nWhole * cfg.nSubpixels := by
  have e : (cfg.nWhole : ℝ) * cfg.pixscale * cfg.nSubpixels / cfg.pixscale =
      ((cfg.nWhole * cfg.nSubpixels : ℕ) : ℝ) := by
    push_cast; field_simp
  show ⌈(cfg.nWhole : ℝ) * cfg.pixscale * cfg.nSubpixels / cfg.pixscale⌉.toNat = _
  rw [e, Int.ceil_natCast, Int.toNat_natCast]

theorem cube_cast {nW a b a' b' : Nat} (ha : a = a') (hb : b = b') (F : Fin nW → ℕ → ℕ → Fl ℝ) :
    (⟨nW, a, b, fun w i j => F w i.val j.val⟩ : Cube3) = ⟨nW, a', b', fun w i j => F w i.val j.val⟩ := by
  subst ha hb; rfl

theorem cube_castW {n n' a b : Nat} (h : n = n') (F : Fin n' → Fin a → Fin b → Fl ℝ) :
    (⟨n, a, b, fun w i j => F (Fin.cast h w) i j⟩ : Cube3) = ⟨n', a, b, F⟩ := by
  subst h; rfl

/-- the cubes kept by a sharp model -/
theorem kept_sharp (cfg : AperCfg) (hc : Sharp (ifuCfg cfg)) (f : AperFixed) (va rt sig m z va' rt' sig' m' z' : ℝ)
    (hf : setupCalcs (ifuCfg cfg) [va, rt, sig, m, z] = .ok f) (hrt : rt' ≠ 0) (hs : 0 < sig') (hz : 0 < 1 + z)
    (s : AperState) (h1 : s.fixed = f) (h2 : s.wave = cfg.wave) (h3 : s.kin.shape = (some 2, some 1)) :
    keptCubes (ifuCfg cfg) s [va', rt', sig', m', z'] =
      some (subpixelCube (ifuCfg cfg) va' rt' sig' (cfg.m0 + m) z, subpixelCube (ifuCfg cfg) va' rt' sig' (cfg.m0 + m) z) := by
  obtain ⟨f', hf', hpadY0, hpadX0, hnY, hnx, hY, hX, hdx, _, _, V, hvel, hcube⟩ :=
    sharp_cube (ifuCfg cfg) hc s.kin h3 va' rt' sig' m z hrt hs hz
  rw [setupCalcs_last _ va' rt' sig' va rt sig, hf] at hf'
  cases hf'
  have hpix : 0 < cfg.pixscale := hc.pix
  rw [slitCells_ifu cfg hpix] at hnx
  have hY' : f.grid.nY = cfg.nWhole * cfg.nSubpixels := by rw [hY, hpadY0, hnY]; rfl
  have hX' : f.grid.nX = cfg.nWhole * cfg.nSubpixels := by rw [hX, hpadX0, hnx]; rfl
  have ha : ¬ (ifuCfg cfg).adaptive = true := by rw [hc.adaptive]; exact Bool.false_ne_true
  have hev : evalPoint (ifuCfg cfg) s [va', rt', sig', m', z'] =
      some ({ s with kin := sharpKin va' rt' sig' m' z' }, sig') := by
    unfold evalPoint
    rw [updateTheta_sharp s.kin h3]
    simp only [if_neg ha]
    rw [floor_sharp (ifuCfg cfg) hc.floor va' rt' sig' m' z' hs _ rfl]
  have hvel' : velCube (ifuCfg cfg) f (sharpKin va' rt' sig' m' z') = some V := hvel
  have hraw : rawCube (ifuCfg cfg) f (sharpKin va' rt' sig' m' z') cfg.wave sig' =
      .ok (subpixelCube (ifuCfg cfg) va' rt' sig' (cfg.m0 + m) z) := by
    unfold rawCube
    rw [hvel']
    simp only
    have hcube' : addSigmaCollapseZ f.I V (fun _ _ _ => sig') cfg.wave.get f.z (ifuCfg cfg).restwave
      (ifuCfg cfg).ratios f.grid.deltZ (ifuCfg cfg).specType = _ := hcube
    rw [hcube']
    simp only [Except.ok.injEq]
    exact cube_cast hY' hX' fun w i j =>
      .fin (columnLight (ifuCfg cfg) va' rt' sig' (cfg.m0 + m) z (cfg.wave.get w) i j)
  unfold keptCubes
  rw [hev]
  simp only [h1, h2]
  rw [hraw]
  simp only [Option.some.injEq, Prod.mk.injEq, true_and]
  have hfw : ¬ 0 < (ifuCfg cfg).psf.fwhm := by rw [hc.fwhm]; exact lt_irrefl _
  unfold convCube
  rw [if_neg hfw]
  unfold trimmedCube
  have hb : ∀ b : Fin f.grid.nPixY, b.val + f.grid.padY < cfg.nWhole * cfg.nSubpixels := by
    intro b; rw [hpadY0]; exact lt_of_lt_of_eq b.isLt hnY
  have hb2 : ∀ b : Fin f.grid.nPixX, b.val + f.grid.padX < cfg.nWhole * cfg.nSubpixels := by
    intro b; rw [hpadX0]; exact lt_of_lt_of_eq b.isLt hnx
  have e : (fun (w : Fin cfg.wave.length) (b : Fin f.grid.nPixY) (a : Fin f.grid.nPixX) =>
      if h : b.val + f.grid.padY < (subpixelCube (ifuCfg cfg) va' rt' sig' (cfg.m0 + m) z).nY ∧
          a.val + f.grid.padX < (subpixelCube (ifuCfg cfg) va' rt' sig' (cfg.m0 + m) z).nX then
        (subpixelCube (ifuCfg cfg) va' rt' sig' (cfg.m0 + m) z).val w ⟨b.val + f.grid.padY, h.1⟩ ⟨a.val + f.grid.padX, h.2⟩
      else Fl.nan) = fun w b a =>
      .fin (columnLight (ifuCfg cfg) va' rt' sig' (cfg.m0 + m) z (cfg.wave.get w) b.val a.val) := by
    funext w b a
    rw [dif_pos ⟨hb b, hb2 a⟩]
    show Fl.fin (columnLight (ifuCfg cfg) va' rt' sig' (cfg.m0 + m) z (cfg.wave.get w) (b.val + f.grid.padY) (a.val + f.grid.padX)) = _
    rw [hpadY0, hpadX0]
    rfl
  refine Eq.trans (congrArg (Cube3.mk cfg.wave.length f.grid.nPixY f.grid.nPixX) e) ?_
  exact cube_cast hnY hnx fun w i j =>
      .fin (columnLight (ifuCfg cfg) va' rt' sig' (cfg.m0 + m) z (cfg.wave.get w) i j)

theorem rebin_subpixels (cfg : AperCfg) (va rt sig m0 z : ℝ) (hw : cfg.wave ≠ []) (hn : 0 < cfg.nWhole) :
    (subpixelCube cfg va rt sig m0 z).rebin cfg.wave.length cfg.nWhole cfg.nWhole =
      .ok (spaxelCube cfg va rt sig m0 z) := by
  have h := Cube3.rebin_blocks cfg.wave.length cfg.nWhole cfg.nWhole 1 cfg.nSubpixels cfg.nSubpixels
    (List.length_pos_iff.2 hw) hn hn fun w b a =>
      .fin (columnLight cfg va rt sig m0 z (cfg.wave.get (Fin.cast (Nat.mul_one _) w)) b.val a.val)
  have e : (⟨cfg.wave.length * 1, cfg.nWhole * cfg.nSubpixels, cfg.nWhole * cfg.nSubpixels, fun w b a =>
      .fin (columnLight cfg va rt sig m0 z (cfg.wave.get (Fin.cast (Nat.mul_one _) w)) b.val a.val)⟩ : Cube3) =
      subpixelCube cfg va rt sig m0 z :=
    cube_castW (Nat.mul_one _) fun w b a => .fin (columnLight cfg va rt sig m0 z (cfg.wave.get w) b.val a.val)
  rw [e] at h
  rw [h]
  unfold spaxelCube
  congr 2
  funext w j k
  simp only [Fin.sum_univ_one, Fl.fin_sum]
  unfold spaxelSpec
  rw [Finset.sum_range]
  congr 1
  refine Finset.sum_congr rfl fun t _ => ?_
  rw [Finset.sum_range]
  refine Finset.sum_congr rfl fun u _ => ?_
  have hw1 : Fin.cast (Nat.mul_one _) (finProdFinEquiv (w, (0 : Fin 1))) = w := by
    apply Fin.ext
    simp [finProdFinEquiv_apply_val]
  rw [hw1]
  simp only [finProdFinEquiv_apply_val]
  congr 1 <;> ring

theorem ifu_of_sharp {cfg : AperCfg} (hc : Sharp (ifuCfg cfg)) : IfuInput cfg :=
  ⟨hc.rows, hc.sub, hc.pix, hc.wave, by have : cfg.psf.fwhm = 0 := hc.fwhm; rw [this, zero_mul]⟩

theorem padCells_sharp {cfg : AperCfg} (hc : Sharp (ifuCfg cfg)) : padCells cfg = 0 := by
  have : cfg.psf.fwhm = 0 := hc.fwhm
  unfold padCells
  rw [this, zero_mul, zero_div, npRound_zero]
  rfl

/-- the state after a first call on a sharp model -/
theorem make_sharp (m : CubeModel) (cfg : AperCfg) (hc : Sharp (ifuCfg cfg)) (fit : List ℝ) (hm : m.aper = none)
    (p : KinParams ℝ) (hp : m.params.update fit = (p, none)) (hk : m.kin.shape = (some 2, some 1))
    (va rt sig mm z : ℝ) (ht : p.theta = [va, rt, sig, mm, z]) (hrt : rt ≠ 0) (hs : 0 < sig) (hz : 0 < 1 + z) :
    ∃ f s img, setupCalcs (ifuCfg cfg) [va, rt, sig, mm, z] = .ok f ∧ s.fixed = f ∧ s.wave = cfg.wave ∧
      s.kin.shape = (some 2, some 1) ∧
      buildModel (ifuCfg cfg) (sharpKin va rt sig mm z) [va, rt, sig, mm, z] = .ok (s, .ok img) ∧
      m.make cfg fit = (⟨p, s.kin, some (ifuCfg cfg, s), some (spaxelCube (ifuCfg cfg) va rt sig (cfg.m0 + mm) z)⟩,
        .ok ()) := by
  have hup := updateTheta_sharp m.kin hk va rt sig mm z
  obtain ⟨s, hb⟩ := sharp_calcs (ifuCfg cfg) hc (sharpKin va rt sig mm z) rfl va rt sig mm z hrt hs hz
  obtain ⟨f, raw, _, hf, hkc, _, _, _, _, _, e⟩ := make_first m cfg (ifu_of_sharp hc) fit hm p hp _ (by rw [ht]; exact hup) s _
    (by rw [ht]; exact hb)
  rw [ht] at hf hkc
  have hkeep := doModelCalcs_keeps (ifuCfg cfg) ⟨f, sharpKin va rt sig mm z, cfg.wave, avgDiff cfg.wave⟩ [va, rt, sig, mm, z]
  have hb' := hb
  unfold buildModel at hb'
  rw [hf] at hb'
  simp only [Except.ok.injEq] at hb'
  have hb'' : doModelCalcs (ifuCfg cfg) ⟨f, sharpKin va rt sig mm z, cfg.wave, avgDiff cfg.wave⟩ [va, rt, sig, mm, z] = _ := hb'
  rw [hb''] at hkeep
  refine ⟨f, s, _, hf, hkeep.1, (hkeep.2.2.1 hc.adaptive).1, hkeep.2.1, hb, ?_⟩
  have hkc' := kept_sharp cfg hc f va rt sig mm z va rt sig mm z hf hrt hs hz
    ⟨f, sharpKin va rt sig mm z, cfg.wave, avgDiff cfg.wave⟩ rfl rfl rfl
  rw [hkc'] at hkc
  simp only [Option.some.injEq, Prod.mk.injEq] at hkc
  rw [e, ← hkc.2, padCells_sharp hc]
  have := rebin_subpixels (ifuCfg cfg) va rt sig (cfg.m0 + mm) z hc.wave hc.rows
  have this' : (subpixelCube (ifuCfg cfg) va rt sig (cfg.m0 + mm) z).rebin cfg.wave.length (cfg.nWhole + 2 * 0)
    (cfg.nWhole + 2 * 0) = _ := this
  rw [this']

/-- **C106**, what holds: without point spread function the first call returns a cube with one spaxel per pixel of the square field,
each holding the light of its subpixels, and adding the spaxels of a row (times the subpixel width) gives that row of the image
of a slit as wide as the field.  Missing: point spread functions that need padding, see `C106_false`. -/
theorem C106_cube_partial (m : CubeModel) (cfg : AperCfg) (hc : Sharp (ifuCfg cfg)) (fit : List ℝ) (hm : m.aper = none)
    (p : KinParams ℝ) (hp : m.params.update fit = (p, none)) (hk : m.kin.shape = (some 2, some 1))
    (va rt sig mm z : ℝ) (ht : p.theta = [va, rt, sig, mm, z]) (hrt : rt ≠ 0) (hs : 0 < sig) (hz : 0 < 1 + z) :
    (m.make cfg fit).2 = .ok () ∧
    (m.make cfg fit).1.cube = some ⟨cfg.wave.length, cfg.nWhole, cfg.nWhole, fun w j k =>
      .fin (spaxelSpec (ifuCfg cfg) va rt sig (cfg.m0 + mm) z (cfg.wave.get w) j.val k.val)⟩ ∧
    ∀ (lam : ℝ) (j : ℕ), ∑ k ∈ Finset.range cfg.nWhole,
        spaxelSpec (ifuCfg cfg) va rt sig (cfg.m0 + mm) z lam j k * (cfg.pixscale / cfg.nSubpixels) =
      pixelSpec (ifuCfg cfg) va rt sig (cfg.m0 + mm) z j lam := by
  obtain ⟨f, s, img, _, _, _, _, _, e⟩ := make_sharp m cfg hc fit hm p hp hk va rt sig mm z ht hrt hs hz
  rw [e]
  refine ⟨rfl, rfl, fun lam j => ?_⟩
  have hpix : 0 < cfg.pixscale := hc.pix
  have hn : (0 : ℝ) < cfg.nWhole := by exact_mod_cast (hc.rows : 0 < cfg.nWhole)
  have hS : (0 : ℝ) < cfg.nSubpixels := by exact_mod_cast (hc.sub : 0 < cfg.nSubpixels)
  have hw : (ifuCfg cfg).slit / slitCells (ifuCfg cfg) = cfg.pixscale / cfg.nSubpixels := by
    rw [slitCells_ifu cfg hpix]
    show (cfg.nWhole : ℝ) * cfg.pixscale / _ = _
    push_cast
    field_simp
  have hsplit : ∀ F : ℕ → ℝ, ∑ a ∈ Finset.range (cfg.nWhole * cfg.nSubpixels), F a =
      ∑ k ∈ Finset.range cfg.nWhole, ∑ u ∈ Finset.range cfg.nSubpixels, F (k * cfg.nSubpixels + u) := by
    intro F
    rw [Finset.sum_range, Finset.sum_range, ← finProdFinEquiv.sum_comp, Fintype.sum_prod_type]
    refine Finset.sum_congr rfl fun k _ => ?_
    rw [Finset.sum_range]
    refine Finset.sum_congr rfl fun u _ => ?_
    rw [finProdFinEquiv_apply_val]
    congr 1
    simp only
    ring
  have h1 : pixelSpec (ifuCfg cfg) va rt sig (cfg.m0 + mm) z j lam =
      ∑ t ∈ Finset.range cfg.nSubpixels, ∑ a ∈ Finset.range (cfg.nWhole * cfg.nSubpixels),
        columnLight (ifuCfg cfg) va rt sig (cfg.m0 + mm) z lam (j * cfg.nSubpixels + t) a *
          (cfg.pixscale / cfg.nSubpixels) := by
    unfold pixelSpec
    rw [slitCells_ifu cfg hpix]
    refine Finset.sum_congr rfl fun t _ => Finset.sum_congr rfl fun a _ => ?_
    have hw' := hw
    rw [slitCells_ifu cfg hpix] at hw'
    rw [← Finset.sum_mul, hw']
    unfold columnLight
    rw [slitCells_ifu cfg hpix]
    rfl
  rw [h1]
  simp only [hsplit]
  rw [Finset.sum_comm]
  refine Finset.sum_congr rfl fun k _ => ?_
  unfold spaxelSpec
  simp only [Finset.sum_mul]
  rfl

/-! ## C107, C108: updating the cube -/

/-- five parameters, all free -/
def AllFree (p : KinParams ℝ) : Prop := p.theta.length = 5 ∧ p.vary = [true, true, true, true, true] ∧ p.nFree = 5

theorem AllFree.update {p : KinParams ℝ} (h : AllFree p) (fit : List ℝ) :
    (fit.length = 5 → p.update fit = (⟨fit, p.vary, 5⟩, none)) ∧
    (fit.length ≠ 5 → p.update fit = (p, some .valueError)) := by
  obtain ⟨t, v, n⟩ := p
  obtain ⟨h1, h2, h3⟩ := h
  simp only at h1 h2 h3
  subst h2 h3
  constructor
  · intro hf
    match t, h1 with
    | [a, b, c, d, e], _ =>
      match fit, hf with
      | [a', b', c', d', e'], _ => rfl
  · intro hf
    unfold KinParams.update
    rw [if_pos hf]

/-- calls of `update_3D_int_model`, exceptions caught by the caller -/
noncomputable def CubeModel.run (m : CubeModel) (hist : List (List ℝ)) : CubeModel :=
  hist.foldl (fun m fit => (m.update fit).1) m

theorem run_aper (cfg : AperCfg) (hist : List (List ℝ)) : ∀ (m : CubeModel) (s : AperState), AllFree m.params →
    m.aper = some (cfg, s) → AllFree (m.run hist).params ∧
      (m.run hist).aper = some (cfg, runUpdates cfg s (hist.filter fun l => l.length = 5)) := by
  induction hist with
  | nil => intro m s ha hm; exact ⟨ha, hm⟩
  | cons fit rest ih =>
    intro m s ha hm
    obtain ⟨h1, h2⟩ := ha.update fit
    by_cases hf : fit.length = 5
    · have hstep : AllFree (m.update fit).1.params ∧
          (m.update fit).1.aper = some (cfg, (updateModel cfg s fit).1) := by
        unfold CubeModel.update updateModel
        rw [h1 hf]
        simp only [hm]
        have hA : AllFree ⟨fit, m.params.vary, 5⟩ := ⟨hf, ha.2.1, rfl⟩
        generalize hd : doModelCalcs cfg s fit = r
        obtain ⟨s', x⟩ := r
        cases x with
        | error e => exact ⟨hA, rfl⟩
        | ok im =>
          simp only
          cases keptCubes cfg s fit with
          | none => exact ⟨hA, rfl⟩
          | some c => exact ⟨hA, rfl⟩
      rw [List.filter_cons_of_pos (by simpa using hf)]
      exact ih _ _ hstep.1 hstep.2
    · have hstep : (m.update fit).1 = m := by
        unfold CubeModel.update
        rw [h2 hf]
      rw [List.filter_cons_of_neg (by simpa using hf)]
      show AllFree (CubeModel.run (m.update fit).1 rest).params ∧ (CubeModel.run (m.update fit).1 rest).aper = _
      rw [hstep]
      exact ih _ _ ha hm

theorem runUpdates_same (cfg : AperCfg) (ha : cfg.adaptive = false) (hist : List (List ℝ)) : ∀ s : AperState,
    (runUpdates cfg s hist).fixed = s.fixed ∧ (runUpdates cfg s hist).wave = s.wave ∧
      (runUpdates cfg s hist).kin.shape = s.kin.shape := by
  induction hist with
  | nil => intro s; exact ⟨rfl, rfl, rfl⟩
  | cons t rest ih =>
    intro s
    have hk := doModelCalcs_keeps cfg s t
    obtain ⟨i1, i2, i3⟩ := ih (updateModel cfg s t).1
    exact ⟨i1.trans hk.1, i2.trans (hk.2.2.1 ha).1, i3.trans hk.2.1⟩

/-- **C107**, what an update stores: whatever calls of `update_3D_int_model` came in between (also failing ones), it stores the cube of
subpixels for the given parameters; centre shift and redshift stay those of the construction. -/
theorem C107_update_partial (m : CubeModel) (cfg : AperCfg) (hc : Sharp (ifuCfg cfg)) (hm : m.aper = none)
    (hfree : AllFree m.params) (hk : m.kin.shape = (some 2, some 1)) (va rt sig mm z : ℝ) (hrt : rt ≠ 0) (hs : 0 < sig)
    (hz : 0 < 1 + z) (hist : List (List ℝ)) (va' rt' sig' mm' z' : ℝ) (hrt' : rt' ≠ 0) (hs' : 0 < sig') :
    let after := ((m.make cfg [va, rt, sig, mm, z]).1.run hist).update [va', rt', sig', mm', z']
    after.2 = .ok () ∧
    after.1.cube = some ⟨cfg.wave.length, cfg.nWhole * cfg.nSubpixels, cfg.nWhole * cfg.nSubpixels, fun w b a =>
      .fin (columnLight (ifuCfg cfg) va' rt' sig' (cfg.m0 + mm) z (cfg.wave.get w) b.val a.val)⟩ := by
  intro after
  obtain ⟨f, s, img, hf, s1, s2, s3, hb, e⟩ := make_sharp m cfg hc _ hm _ ((hfree.update _).1 rfl) hk va rt sig mm z rfl hrt hs hz
  have hA : AllFree (m.make cfg [va, rt, sig, mm, z]).1.params := by rw [e]; exact ⟨rfl, hfree.2.1, rfl⟩
  obtain ⟨hA', hap⟩ := run_aper (ifuCfg cfg) hist _ s hA (by rw [e])
  obtain ⟨k1, k2, k3⟩ := runUpdates_same (ifuCfg cfg) hc.adaptive (hist.filter fun l => l.length = 5) s
  have hkc := kept_sharp cfg hc f va rt sig mm z va' rt' sig' mm' z' hf hrt' hs' hz _ (k1.trans s1) (k2.trans s2) (k3.trans s3)
  obtain ⟨s0, hb0, hupd⟩ := C80_closed_form (ifuCfg cfg) hc [va, rt, sig, mm, z] [va, rt] [sig] va rt sig mm z hrt hs hz
  have hb0' : buildModel (ifuCfg cfg) (sharpKin va rt sig mm z) [va, rt, sig, mm, z] = _ := hb0
  rw [hb] at hb0'
  simp only [Except.ok.injEq, Prod.mk.injEq] at hb0'
  rw [← hb0'.1] at hupd
  have hu := hupd (hist.filter fun l => l.length = 5) va' rt' sig' mm' z' hrt' hs'
  have key : after = ((m.make cfg [va, rt, sig, mm, z]).1.run hist).update [va', rt', sig', mm', z'] := rfl
  generalize hq : (m.make cfg [va, rt, sig, mm, z]).1.run hist = q at *
  unfold CubeModel.update at key
  rw [(hA'.update _).1 rfl] at key
  simp only [hap] at key
  unfold updateModel at hu
  generalize hd : doModelCalcs (ifuCfg cfg) (runUpdates (ifuCfg cfg) s (hist.filter fun l => l.length = 5))
    [va', rt', sig', mm', z'] = r at *
  obtain ⟨s', x⟩ := r
  simp only at hu
  subst hu
  simp only [hkc] at key
  rw [key]
  exact ⟨rfl, rfl⟩

/-- **C107**, where it holds: with one subpixel per pixel and no point spread function an update with the parameters of the construction
stores the same cube again. -/
theorem C107_same_partial (m : CubeModel) (cfg : AperCfg) (hc : Sharp (ifuCfg cfg)) (h1 : cfg.nSubpixels = 1)
    (hm : m.aper = none) (hfree : AllFree m.params) (hk : m.kin.shape = (some 2, some 1)) (va rt sig mm z : ℝ)
    (hrt : rt ≠ 0) (hs : 0 < sig) (hz : 0 < 1 + z) (hist : List (List ℝ)) :
    (((m.make cfg [va, rt, sig, mm, z]).1.run hist).update [va, rt, sig, mm, z]).1.cube =
      (m.make cfg [va, rt, sig, mm, z]).1.cube := by
  rw [(C107_update_partial m cfg hc hm hfree hk va rt sig mm z hrt hs hz hist va rt sig mm z hrt hs).2,
    (C106_cube_partial m cfg hc _ hm _ ((hfree.update _).1 rfl) hk va rt sig mm z rfl hrt hs hz).2.1]
  congr 1
  have e : (fun (w : Fin cfg.wave.length) (j k : Fin cfg.nWhole) =>
      Fl.fin (spaxelSpec (ifuCfg cfg) va rt sig (cfg.m0 + mm) z (cfg.wave.get w) j.val k.val)) = fun w j k =>
      .fin (columnLight (ifuCfg cfg) va rt sig (cfg.m0 + mm) z (cfg.wave.get w) j.val k.val) := by
    funext w j k
    unfold spaxelSpec
    have h1' : (ifuCfg cfg).nSubpixels = 1 := h1
    rw [h1']
    simp
  rw [e]
  have hN : cfg.nWhole * cfg.nSubpixels = cfg.nWhole := by rw [h1, mul_one]
  exact cube_cast hN hN fun w i j => .fin (columnLight (ifuCfg cfg) va rt sig (cfg.m0 + mm) z (cfg.wave.get w) i j)

/-- **C107** is false: with more than one subpixel per pixel an update with the very same parameters stores a cube of another size. -/
theorem C107_false (m : CubeModel) (cfg : AperCfg) (hc : Sharp (ifuCfg cfg)) (h1 : 2 ≤ cfg.nSubpixels)
    (hm : m.aper = none) (hfree : AllFree m.params) (hk : m.kin.shape = (some 2, some 1)) (va rt sig mm z : ℝ)
    (hrt : rt ≠ 0) (hs : 0 < sig) (hz : 0 < 1 + z) (hist : List (List ℝ)) :
    ∃ c c', (m.make cfg [va, rt, sig, mm, z]) = ((m.make cfg [va, rt, sig, mm, z]).1, .ok ()) ∧
      (m.make cfg [va, rt, sig, mm, z]).1.cube = some c ∧
      (((m.make cfg [va, rt, sig, mm, z]).1.run hist).update [va, rt, sig, mm, z]).2 = .ok () ∧
      (((m.make cfg [va, rt, sig, mm, z]).1.run hist).update [va, rt, sig, mm, z]).1.cube = some c' ∧
      c'.nY = c.nY * cfg.nSubpixels ∧ c' ≠ c := by
  obtain ⟨hu1, hu2⟩ := C107_update_partial m cfg hc hm hfree hk va rt sig mm z hrt hs hz hist va rt sig mm z hrt hs
  obtain ⟨a1, a2, _⟩ := C106_cube_partial m cfg hc _ hm _ ((hfree.update _).1 rfl) hk va rt sig mm z rfl hrt hs hz
  refine ⟨_, _, Prod.ext rfl a1, a2, hu1, hu2, rfl, fun h => ?_⟩
  have := congrArg Cube3.nY h
  simp only at this
  have hr : 0 < cfg.nWhole := hc.rows
  have := Nat.eq_of_mul_eq_mul_left hr (this.trans (Nat.mul_one _).symm)
  omega

/-- **C107**, exactly, without point spread function: an update with the parameters of the construction stores the cube of
the construction, whatever updates happened in between, if and only if there is one subpixel per pixel. -/
theorem C107_exact (m : CubeModel) (cfg : AperCfg) (hc : Sharp (ifuCfg cfg)) (hm : m.aper = none)
    (hfree : AllFree m.params) (hk : m.kin.shape = (some 2, some 1)) (va rt sig mm z : ℝ)
    (hrt : rt ≠ 0) (hs : 0 < sig) (hz : 0 < 1 + z) (hist : List (List ℝ)) :
    (((m.make cfg [va, rt, sig, mm, z]).1.run hist).update [va, rt, sig, mm, z]).1.cube =
      (m.make cfg [va, rt, sig, mm, z]).1.cube ↔ cfg.nSubpixels = 1 := by
  refine ⟨fun h => ?_, fun h1 => C107_same_partial m cfg hc h1 hm hfree hk va rt sig mm z hrt hs hz hist⟩
  by_contra hn
  have hpos : 0 < cfg.nSubpixels := hc.sub
  obtain ⟨c, c', -, h1, -, h2, -, h3⟩ :=
    C107_false m cfg hc (by omega) hm hfree hk va rt sig mm z hrt hs hz hist
  rw [h1, h2] at h
  exact h3 (Option.some.inj h)

/-- **C107** is false with a point spread function as well: the cube stored by an update does not depend on the point spread function of
the aperture model, the light is not spread at all. -/
theorem C107_psf_false (m : CubeModel) (cfg : AperCfg) (s : AperState) (psf : PSF) (fit : List ℝ)
    (h1 : (({ m with aper := some (cfg, s) } : CubeModel).update fit).2 = .ok ())
    (h2 : (({ m with aper := some ({ cfg with psf := psf }, s) } : CubeModel).update fit).2 = .ok ()) :
    (({ m with aper := some ({ cfg with psf := psf }, s) } : CubeModel).update fit).1.cube =
      (({ m with aper := some (cfg, s) } : CubeModel).update fit).1.cube := by
  unfold CubeModel.update at h1 h2 ⊢
  cases hp : m.params.update fit with
  | mk p e =>
    cases e with
    | some e => simp only [hp] at h1; cases h1
    | none =>
      simp only [hp] at h1 h2 ⊢
      cases ha : doModelCalcs cfg s p.theta with
      | mk a xa =>
        cases hb : doModelCalcs { cfg with psf := psf } s p.theta with
        | mk b xb =>
          cases xa with
          | error e => simp only [ha] at h1; cases h1
          | ok xa =>
            cases xb with
            | error e => simp only [hb] at h2; cases h2
            | ok xb =>
              simp only [ha] at h1
              simp only [hb] at h2
              simp only
              have e1 : evalPoint { cfg with psf := psf } s p.theta = evalPoint cfg s p.theta := rfl
              have e2 : ∀ f k w x, rawCube { cfg with psf := psf } f k w x = rawCube cfg f k w x := fun _ _ _ _ => rfl
              unfold keptCubes at h1 h2 ⊢
              rw [e1] at h2 ⊢
              cases hev : evalPoint cfg s p.theta with
              | none => simp only [hev] at h1; cases h1
              | some q =>
                obtain ⟨s1, sig⟩ := q
                simp only [hev] at h1 h2 ⊢
                rw [e2] at h2 ⊢
                cases hr : rawCube cfg s1.fixed s1.kin s1.wave sig with
                | error e => simp only [hr] at h1; cases h1
                | ok raw => rfl

/-- **C145** is false: the sampling factor given for the model has no effect on a cube made with adaptive sampling: with every
other factor the call does the same. -/
theorem C145_false (m : CubeModel) (cfg : AperCfg) (fit : List ℝ) (x : ℝ) :
    m.make { cfg with factor := x } fit = m.make cfg fit := rfl

/-- **C108** is false: on an object that already has its aperture model `make_3D_int_model` never returns, whatever galaxy and parameters. -/
theorem C108_false (m : CubeModel) (a : AperCfg × AperState) (hm : m.aper = some a) (cfg : AperCfg) (fit : List ℝ) :
    (m.make cfg fit).2 ≠ .ok () := by
  intro h
  unfold CubeModel.make at h
  split at h
  · cases h
  · split at h
    · cases h
    · simp only [hm] at h
      split at h <;> cases h

/-- **C108**, what holds: the failing call has taken over the parameters but keeps the stored cube of the old ones.
Missing: the call itself raises, see `C108_false`. -/
theorem C108_keeps_partial (m : CubeModel) (cfg cfg' : AperCfg) (hc : Sharp (ifuCfg cfg)) (hm : m.aper = none)
    (hfree : AllFree m.params) (hk : m.kin.shape = (some 2, some 1)) (va rt sig mm z : ℝ) (hrt : rt ≠ 0) (hs : 0 < sig)
    (hz : 0 < 1 + z) (va' rt' sig' mm' z' : ℝ) (hrt' : rt' ≠ 0) (hs' : 0 < sig') :
    let first := (m.make cfg [va, rt, sig, mm, z]).1
    let again := first.make cfg' [va', rt', sig', mm', z']
    again.2 = .error .nameError ∧ again.1.cube = first.cube ∧ again.1.params.theta = [va', rt', sig', mm', z'] := by
  intro first again
  obtain ⟨f, s, img, hf, s1, s2, s3, hb, e⟩ := make_sharp m cfg hc _ hm _ ((hfree.update _).1 rfl) hk va rt sig mm z rfl hrt hs hz
  have hfirst : first = _ := congrArg Prod.fst e
  have key : again = first.make cfg' [va', rt', sig', mm', z'] := rfl
  rw [hfirst] at key ⊢
  unfold CubeModel.make at key
  have hA : AllFree ⟨[va, rt, sig, mm, z], m.params.vary, 5⟩ := ⟨rfl, hfree.2.1, rfl⟩
  rw [(hA.update _).1 rfl] at key
  simp only at key
  rw [updateTheta_sharp s.kin s3] at key
  simp only at key
  obtain ⟨s0, hb0, hupd⟩ := C80_closed_form (ifuCfg cfg) hc [va, rt, sig, mm, z] [va, rt] [sig] va rt sig mm z hrt hs hz
  have hb0' : buildModel (ifuCfg cfg) (sharpKin va rt sig mm z) [va, rt, sig, mm, z] = _ := hb0
  rw [hb] at hb0'
  simp only [Except.ok.injEq, Prod.mk.injEq] at hb0'
  rw [← hb0'.1] at hupd
  have hu := hupd [] va' rt' sig' mm' z' hrt' hs'
  have hsame : doModelCalcs (ifuCfg cfg) { s with kin := sharpKin va' rt' sig' mm' z' } [va', rt', sig', mm', z'] =
      doModelCalcs (ifuCfg cfg) s [va', rt', sig', mm', z'] := by
    unfold doModelCalcs
    rw [updateTheta_sharp s.kin s3, updateTheta_sharp (sharpKin va' rt' sig' mm' z') rfl]
  rw [hsame] at key
  have hu' : (doModelCalcs (ifuCfg cfg) s [va', rt', sig', mm', z']).2 = _ := hu
  generalize hd : doModelCalcs (ifuCfg cfg) s [va', rt', sig', mm', z'] = r at *
  obtain ⟨s', x⟩ := r
  simp only at hu'
  subst hu'
  rw [key]
  exact ⟨rfl, rfl, rfl⟩

/-! ## The hypotheses can be met -/

/-- three rows, `S` subpixels per pixel, point spread function of width `fwhm` -/
noncomputable def ifuExample (S : ℕ) (fwhm : ℝ) : AperCfg :=
  { threeRows with nSubpixels := S, psf := ⟨.gaussian, fwhm, 0, none⟩, padFactor := 1 }

theorem ifuExample_sharp (S : ℕ) (hS : 0 < S) : Sharp (ifuCfg (ifuExample S 0)) := by
  constructor <;> simp [ifuCfg, ifuExample, threeRows, hS]

example : ∃ m : CubeModel, m.aper = none ∧ AllFree m.params ∧ m.kin.shape = (some 2, some 1) :=
  ⟨⟨KinParams.init [0, 0, 0, 0, 0] [true, true, true, true, true], sharpKin 0 1 1 0 0, none, none⟩, rfl,
    ⟨rfl, rfl, rfl⟩, rfl⟩

/-- two subpixels, no point spread function: the cases of `C106_cube_partial`, `C107_false` -/
example : Sharp (ifuCfg (ifuExample 2 0)) ∧ 2 ≤ (ifuExample 2 0).nSubpixels := ⟨ifuExample_sharp 2 (by norm_num), le_rfl⟩

/-- one subpixel: the case of `C107_same_partial` -/
example : Sharp (ifuCfg (ifuExample 1 0)) ∧ (ifuExample 1 0).nSubpixels = 1 := ⟨ifuExample_sharp 1 (by norm_num), rfl⟩

/-- a point spread function of two pixels needs padding: the case of `C106_false` -/
example : IfuInput (ifuExample 1 2) ∧ padCells (ifuExample 1 2) = 2 := by
  constructor
  · constructor <;> simp [ifuExample, threeRows]
  · have e : (2 : ℝ) * 1 / (1 / ((1 : ℕ) : ℝ)) = ((2 : ℕ) : ℝ) := by norm_num
    show (npRound ((2 : ℝ) * 1 / (1 / ((1 : ℕ) : ℝ)))).toNat = 2
    rw [e, npRound_nat]
    rfl

/-- The kept cube has the padded size whenever the call returns. -/
theorem cube_size (m : CubeModel) (cfg : AperCfg) (hi : IfuInput cfg) (fit : List ℝ)
    (hm : m.aper = none) (h : (m.make cfg fit).2 = .ok ()) :
    ∃ c, (m.make cfg fit).1.cube = some c ∧ c.nY = cfg.nWhole + 2 * padCells cfg ∧ c.nX = cfg.nWhole + 2 * padCells cfg := by
  generalize hr : m.make cfg fit = r at h ⊢
  unfold CubeModel.make at hr
  split at hr
  · subst hr; cases h
  · split at hr
    · subst hr; cases h
    · simp only [hm] at hr
      split at hr
      · subst hr; cases h
      · rename_i f hf
        obtain ⟨_, _, hpy, hpx, _⟩ := ifu_grid hi hf
        split at hr
        · subst hr; cases h
        · split at hr
          · subst hr; cases h
          · split at hr
            · subst hr; cases h
            · rename_i c hc
              subst hr
              refine ⟨c, rfl, ?_⟩
              unfold Cube3.rebin at hc
              split at hc
              · cases hc
              · simp only at hc
                split at hc
                · cases hc
                  simp only [hpy, hpx]
                  exact ⟨trivial, trivial⟩
                · cases hc

/-- **C106**, exact condition: when the slit image itself can be computed, `make_3D_int_model` returns and keeps a cube with one
spectrum per pixel of the square field exactly if the point spread function needs no padding. -/
theorem C106_exact (m : CubeModel) (cfg : AperCfg) (hi : IfuInput cfg)
    (ha : cfg.adaptive = false ∨ EqualSteps cfg.wave) (fit : List ℝ)
    (hm : m.aper = none) (p : KinParams ℝ) (hp : m.params.update fit = (p, none)) (k : KinProfile)
    (hk : m.kin.updateTheta p.theta = .ok k) (s : AperState) (img : Option Arr2)
    (hb : buildModel (ifuCfg cfg) k p.theta = .ok (s, .ok img)) :
    ((m.make cfg fit).2 = .ok () ∧ ∃ c, (m.make cfg fit).1.cube = some c ∧ c.nY = cfg.nWhole ∧ c.nX = cfg.nWhole) ↔
      padCells cfg = 0 := by
  constructor
  · rintro ⟨h, c, hc, hy, -⟩
    obtain ⟨c', hc', hy', -⟩ := cube_size m cfg hi fit hm h
    rw [hc] at hc'
    cases hc'
    omega
  · intro h0
    have h : (m.make cfg fit).2 = .ok () := by
      rw [C106_outcome_partial m cfg hi ha fit hm p hp k hk s img hb, h0, Nat.mul_zero, Nat.add_zero, if_pos (Dvd.intro _ rfl)]
    obtain ⟨c, hc, hy, hx⟩ := cube_size m cfg hi fit hm h
    exact ⟨h, c, hc, by omega, by omega⟩

end Misfit
