import Verif.Props.Aper

/-!
# C38, C58: adaptive wavelength sampling
-/

namespace Misfit

/-- C38: whatever the sequence of evaluations, as long as they return, the wavelength array and
sampling are those of the galaxy afterwards. -/
theorem C38_restores (cfg : AperCfg) (kin : KinProfile) (theta0 : List ℝ) (hist : List (List ℝ))
    (s0 : AperState) (r : Option Arr2) (hb : buildModel cfg kin theta0 = .ok (s0, .ok r))
    (hok : AllReturn cfg s0 hist) : Restored cfg (runUpdates cfg s0 hist) := by
  unfold buildModel at hb
  cases hsu : setupCalcs cfg theta0 with
  | error e => rw [hsu] at hb; cases hb
  | ok f =>
    rw [hsu] at hb
    simp only [Except.ok.injEq] at hb
    have hreal := setupCalcs_real cfg theta0 f hsu
    have hk := doModelCalcs_keeps cfg ⟨f, kin, cfg.wave, avgDiff cfg.wave⟩ theta0
    rw [hb] at hk
    simp only at hk
    have hres : Restored cfg s0 := by
      by_cases ha : cfg.adaptive = true
      · have := hk.2.2.2 ha r rfl
        rw [hreal.1, hreal.2] at this
        exact this
      · exact hk.2.2.1 (by simpa using ha)
    exact (runUpdates_inv cfg f hreal kin.shape hist s0 hk.1 hk.2.1 hres (fun _ => hok)).2.2

/-! ### shapes -/

theorem rebinArr_shape (a b : Arr2) (p q : Nat) (h : rebinArr a p q = .ok b) : b.n = p ∧ b.m = q := by
  unfold rebinArr at h
  split at h
  · cases h
  · cases h; exact ⟨rfl, rfl⟩

theorem evalImage_shape (cfg : AperCfg) (f : AperFixed) (kin : KinProfile) (wave : List ℝ) (sig : ℝ)
    (a : Arr2) (h : evalImage cfg f kin wave sig = .ok (some a)) :
    a.n = wave.length ∧ a.m = if cfg.rebinOutput then cfg.nWhole else f.grid.nPixY := by
  replace h := (evalImage_ok h).1
  unfold evalStages at h
  simp only at h
  split at h
  · split at h <;> cases h
  · split at h
    · cases h
    · split at h
      · cases h
      · split at h
        · cases h
        · split at h
          · cases h
          · split at h
            · split at h
              · cases h
              · rename_i img2 himg
                split at h
                · rename_i hn
                  split at h
                  · cases h
                  · cases h
                  · cases h
                    refine ⟨hn, ?_⟩
                    simp only
                    split
                    · rename_i hr
                      rw [if_pos hr] at himg
                      exact (rebinArr_shape _ _ _ _ himg).2
                    · rename_i hr
                      rw [if_neg hr] at himg
                      cases himg; rfl
                · cases h
            · cases h

/-- C38, C58: shape of the returned image.  With adaptive sampling it is always the shape of the
data, also after upsampling and also when `rebin_output` is off. -/
theorem C38_shape (cfg : AperCfg) (s : AperState) (theta : List ℝ) (img : Arr2)
    (h : (updateModel cfg s theta).2 = .ok (some img)) :
    (cfg.adaptive = true → img.n = cfg.nWhole ∧ img.m = s.fixed.waveReal.length) ∧
    (cfg.adaptive = false → img.n = (if cfg.rebinOutput then cfg.nWhole else s.fixed.grid.nPixY) ∧
      img.m = s.wave.length) := by
  unfold updateModel at h
  rw [doModelCalcs_eq] at h
  split at h
  · cases h
  · rename_i k hk
    unfold calcsAfter at h
    simp only at h
    have hu := checkUpsample_kin cfg { s with kin := k }
    by_cases ha : cfg.adaptive = true
    · simp only [if_pos ha] at h
      generalize checkUpsample cfg { s with kin := k } = U at *
      refine ⟨fun _ => ?_, fun h' => absurd ha (by rw [h']; decide)⟩
      split at h
      · cases h
      · have hf := applySigmaFloor_keeps cfg U.1
        generalize applySigmaFloor cfg U.1 = F at *
        split at h
        · cases h
        · split at h
          · cases h
          · rename_i img0 _
            simp only at h
            obtain ⟨a, h1, h2⟩ := (Except.map_ok_iff _ _ _).1 h
            rcases img0 with _ | a0
            · cases h1; cases h2
            · unfold downsample at h1
              simp only at h1
              split at h1
              · cases h1
              · rename_i b hb
                cases h1
                have := rebinArr_shape _ _ _ _ hb
                cases h2
                refine ⟨this.2, this.1.trans ?_⟩
                rw [hf.1, hu.2]
    · simp only [if_neg ha] at h
      refine ⟨fun h' => absurd h' ha, fun _ => ?_⟩
      have hf := applySigmaFloor_keeps cfg { s with kin := k }
      generalize applySigmaFloor cfg { s with kin := k } = F at *
      split at h
      · cases h
      · split at h
        · cases h
        · rename_i img0 himg
          simp only at h
          obtain ⟨a, h1, h2⟩ := (Except.map_ok_iff _ _ _).1 h
          cases h1
          rcases img0 with _ | a0
          · cases h2
          · cases h2
            have := evalImage_shape _ _ _ _ _ _ himg
            refine ⟨this.2.trans ?_, this.1.trans ?_⟩
            · rw [hf.1]
            · rw [hf.2.1]

/-- C58, full statement: with `rebin_output` off an image has one row per subpixel. -/
def HighResOutput (cfg : AperCfg) (s : AperState) (theta : List ℝ) : Prop :=
  cfg.rebinOutput = false → ∀ img, (updateModel cfg s theta).2 = .ok (some img) →
    img.n = s.fixed.grid.nPixY

/-- C58 holds without adaptive sampling. -/
theorem C58_partial (cfg : AperCfg) (s : AperState) (theta : List ℝ) (h : cfg.adaptive = false) :
    HighResOutput cfg s theta := by
  intro hr img himg
  have := ((C38_shape cfg s theta img himg).2 h).1
  rw [this, hr]; rfl

/-- C58 is false with adaptive sampling (the default): the rows are those of the data, so with more
than one subpixel per row the high resolution is lost. -/
theorem C58_false (cfg : AperCfg) (s : AperState) (theta : List ℝ) (img : Arr2)
    (ha : cfg.adaptive = true) (hs : s.fixed.grid.nPixY = cfg.nWhole * cfg.nSubpixels)
    (h1 : 0 < cfg.nWhole) (h2 : 1 < cfg.nSubpixels) (himg : (updateModel cfg s theta).2 = .ok (some img))
    (hr : cfg.rebinOutput = false) : ¬ HighResOutput cfg s theta := by
  intro h
  have e1 := h hr img himg
  have e2 := ((C38_shape cfg s theta img himg).1 ha).1
  rw [e2, hs] at e1
  nlinarith

/-- C58, exact condition: a returned image has one row per detector pixel with rebinning and one per sub-pixel without exactly if
the sampling is not adaptive, the output is rebinned, or there is one sub-pixel per pixel. -/
theorem C58_exact (cfg : AperCfg) (s : AperState) (theta : List ℝ) (img : Arr2)
    (hs : s.fixed.grid.nPixY = cfg.nWhole * cfg.nSubpixels) (h1 : 0 < cfg.nWhole)
    (himg : (updateModel cfg s theta).2 = .ok (some img)) :
    (cfg.rebinOutput = true → img.n = cfg.nWhole) ∧
    ((cfg.rebinOutput = false → img.n = cfg.nWhole * cfg.nSubpixels) ↔
      cfg.adaptive = false ∨ cfg.rebinOutput = true ∨ cfg.nSubpixels = 1) := by
  obtain ⟨ha, hn⟩ := C38_shape cfg s theta img himg
  rw [hs] at hn
  cases hA : cfg.adaptive with
  | false =>
    have h := (hn hA).1
    refine ⟨fun hr => by rw [h, hr]; rfl, fun _ => Or.inl rfl, fun _ hr => by rw [h, hr]; rfl⟩
  | true =>
    have h := (ha hA).1
    refine ⟨fun _ => h, fun hh => ?_, ?_⟩
    · cases hr : cfg.rebinOutput with
      | true => exact Or.inr (Or.inl rfl)
      | false =>
        have e := hh hr
        rw [h] at e
        exact Or.inr (Or.inr (Nat.eq_of_mul_eq_mul_left h1 (by omega)))
    · rintro (h' | h' | h') hr
      · cases h'
      · rw [hr] at h'; cases h'
      · rw [h, h', Nat.mul_one]

/-! ### the fine grid -/

/-- the uniform grid of `N` wavelengths -/
def uniformGrid (lam0 d : ℝ) (N : Nat) : List ℝ := (List.range N).map fun i : Nat => lam0 + i * d

theorem uniformGrid_get (lam0 d : ℝ) (N i : Nat) (h : i < N) :
    (uniformGrid lam0 d N)[i]? = some (lam0 + i * d) := by simp [uniformGrid, h]

theorem avgDiff_uniform (lam0 d : ℝ) (N : Nat) (hN : 2 ≤ N) : avgDiff (uniformGrid lam0 d N) = d := by
  have h : List.zipWith (fun b a => b - a) ((uniformGrid lam0 d N).drop 1) (uniformGrid lam0 d N).dropLast =
      List.replicate (N - 1) d := by
    apply List.ext_getElem
    · simp [uniformGrid]
    · intro i h1 h2
      simp only [uniformGrid, List.getElem_zipWith, List.getElem_drop, List.getElem_map,
        List.getElem_range, List.getElem_dropLast, List.getElem_replicate]
      push_cast; ring
  unfold avgDiff
  rw [h]
  have hl : (uniformGrid lam0 d N).length = N := by simp [uniformGrid]
  rw [hl, List.sum_replicate, nsmul_eq_mul, Nat.cast_sub (by omega), Nat.cast_one]
  have : (N : ℝ) - 1 ≠ 0 := by
    have : (2 : ℝ) ≤ N := by exact_mod_cast hN
    intro h; linarith
  field_simp

theorem uniformGrid_min (lam0 d : ℝ) (N : Nat) (hN : 0 < N) (hd : 0 ≤ d) :
    (uniformGrid lam0 d N).min? = some lam0 := by
  rw [List.min?_eq_some_iff]
  constructor
  · exact List.mem_map.2 ⟨0, List.mem_range.2 hN, by simp⟩
  · intro b hb
    obtain ⟨i, _, rfl⟩ := List.mem_map.1 hb
    have : 0 ≤ (i : ℝ) * d := by positivity
    linarith

theorem uniformGrid_max (lam0 d : ℝ) (N : Nat) (hN : 0 < N) (hd : 0 ≤ d) :
    (uniformGrid lam0 d N).max? = some (lam0 + ((N : ℝ) - 1) * d) := by
  rw [List.max?_eq_some_iff]
  constructor
  · refine List.mem_map.2 ⟨N - 1, List.mem_range.2 (by omega), ?_⟩
    rw [Nat.cast_sub hN]; simp
  · intro b hb
    obtain ⟨i, hi, rfl⟩ := List.mem_map.1 hb
    have h1 : (i : ℝ) ≤ (N : ℝ) - 1 := by
      have := List.mem_range.1 hi
      have : (i : ℝ) + 1 ≤ N := by exact_mod_cast this
      linarith
    have := mul_le_mul_of_nonneg_right h1 hd
    linarith

/-- below the threshold, on a uniform grid, with any positive factor: number of fine wavelengths
`round(N f)` between the two ends -/
theorem checkUpsample_uniform (cfg : AperCfg) (s : AperState) (dp : Profile) (sig lim lam0 d : ℝ) (N : Nat)
    (hN : 2 ≤ N) (hd : 0 < d) (hfac : 0 < cfg.factor) (hnp : cfg.npFloat = true)
    (hdisp : s.kin.disp = some dp) (hsig : dp.theta[0]? = some sig)
    (hlim : s.fixed.upsampleValue = some lim) (hlt : |sig| < lim)
    (hwave : s.wave = uniformGrid lam0 d N) (hdr : s.fixed.deltReal = d) :
    checkUpsample cfg s = ({ s with
      deltWave := d / cfg.factor
      wave := linspace (lam0 - 1 / 2 * (d - d / cfg.factor))
        (lam0 + ((N : ℝ) - 1) * d + 1 / 2 * (d - d / cfg.factor)) (npRound ((N : ℝ) * cfg.factor)).toNat },
      .ok ()) := by
  have harg : (lam0 + ((N : ℝ) - 1) * d + 1 / 2 * (d - d / cfg.factor) -
      (lam0 - 1 / 2 * (d - d / cfg.factor))) / (d / cfg.factor) + 1 = (N : ℝ) * cfg.factor := by
    field_simp; ring
  have hnn : ¬ npRound ((N : ℝ) * cfg.factor) < 0 := not_lt.2 (npRound_nonneg _ (by positivity))
  unfold checkUpsample
  rw [hdisp]
  simp only
  rw [hlim]
  simp only
  rw [hsig]
  simp only
  rw [if_pos hlt, if_neg (by rw [hnp]; decide), if_neg hfac.ne', hwave,
    uniformGrid_min _ _ _ (by omega) hd.le, uniformGrid_max _ _ _ (by omega) hd.le]
  simp only
  rw [hdr, harg, if_neg hnn]

/-- C38: with an integer factor `f` on a uniform grid, the `f` fine wavelengths of pixel `i` are
spaced by `d/f` and centred on it. -/
theorem C38_fine_grid (cfg : AperCfg) (s : AperState) (dp : Profile) (sig lim lam0 d : ℝ) (N f : Nat)
    (hN : 2 ≤ N) (hf : 0 < f) (hd : 0 < d) (hfac : cfg.factor = f) (hnp : cfg.npFloat = true)
    (hdisp : s.kin.disp = some dp) (hsig : dp.theta[0]? = some sig)
    (hlim : s.fixed.upsampleValue = some lim) (hlt : |sig| < lim)
    (hwave : s.wave = uniformGrid lam0 d N) (hdr : s.fixed.deltReal = d) :
    (checkUpsample cfg s).2 = .ok () ∧ (checkUpsample cfg s).1.wave.length = N * f ∧
    (∀ i t : Nat, i < N → t < f → (checkUpsample cfg s).1.wave[i * f + t]? =
      some ((lam0 + i * d) + ((t : ℝ) - ((f : ℝ) - 1) / 2) * (d / f))) ∧
    ∀ i : Nat, i < N → (∑ t ∈ Finset.range f,
      ((lam0 + i * d) + ((t : ℝ) - ((f : ℝ) - 1) / 2) * (d / f))) / f = lam0 + i * d := by
  have hf0 : (0 : ℝ) < f := by exact_mod_cast hf
  have h := checkUpsample_uniform cfg s dp sig lim lam0 d N hN hd (by rw [hfac]; exact hf0) hnp hdisp hsig
    hlim hlt hwave hdr
  have hr : (npRound ((N : ℝ) * cfg.factor)).toNat = N * f := by
    rw [hfac, ← Nat.cast_mul, npRound_nat, Int.toNat_natCast]
  rw [hr] at h
  rw [h]
  refine ⟨rfl, linspace_length _ _ _, ?_, ?_⟩
  · intro i t hi ht
    have hlt : i * f + t < N * f := by
      calc i * f + t < i * f + f := by omega
        _ = (i + 1) * f := by ring
        _ ≤ N * f := Nat.mul_le_mul_right _ hi
    simp only
    rw [linspace_get _ _ _ _ hlt, hfac]
    have h2 : 2 ≤ N * f := by nlinarith
    rw [if_neg (by omega)]
    congr 1
    have hstep : (lam0 + ((N : ℝ) - 1) * d + 1 / 2 * (d - d / f) - (lam0 - 1 / 2 * (d - d / f))) /
        (((N * f : ℕ) : ℝ) - 1) = d / f := by
      have : ((N * f : ℕ) : ℝ) - 1 ≠ 0 := by
        have : (2 : ℝ) ≤ ((N * f : ℕ) : ℝ) := by exact_mod_cast h2
        intro h; linarith
      rw [div_eq_iff this]
      push_cast
      field_simp; ring
    rw [hstep]
    push_cast
    field_simp; ring
  · intro i _
    rw [Finset.sum_add_distrib, Finset.sum_const, Finset.card_range, ← Finset.sum_mul,
      Finset.sum_sub_distrib, Finset.sum_const, Finset.card_range]
    have hg : ∀ n : ℕ, 0 < n → ∑ t ∈ Finset.range n, (t : ℝ) = n * (((n : ℝ) - 1) / 2) := by
      intro n hn
      induction n with
      | zero => omega
      | succ n ih =>
        rw [Finset.sum_range_succ]
        rcases Nat.eq_zero_or_pos n with h | h
        · subst h; simp
        · rw [ih h]; push_cast; ring
    rw [hg f hf, nsmul_eq_mul, nsmul_eq_mul]
    field_simp; ring

/-- C38, flux: the value returned for wavelength pixel `i` is the plain sum over its `f` fine
wavelengths.  (For the flux calibration to be that of an evaluation without upsampling it would
have to be their mean, see `C38_false_calibration`.) -/
theorem C38_sum (cfg : AperCfg) (s : AperState) (a : Arr2) (f : Nat) (hf : 0 < f)
    (hn : a.n = s.fixed.waveReal.length * f) (hm : a.m = cfg.nWhole) (hN : 0 < s.fixed.waveReal.length)
    (hW : 0 < cfg.nWhole) :
    ∃ b : Arr2, (downsample cfg s (some a)).2 = .ok (some b) ∧ b.n = s.fixed.waveReal.length ∧
      b.m = cfg.nWhole ∧ ∀ (i : Fin b.n) (j : Fin b.m), b.val i j = ∑ u : Fin a.n, ∑ v : Fin a.m,
        if u.val / f = i.val ∧ v.val = j.val then a.val u v else 0 := by
  obtain ⟨n, m, val⟩ := a
  simp only at hn hm
  subst hn
  obtain rfl : m = cfg.nWhole * 1 := by omega
  obtain ⟨out, h1, h2, -⟩ := C33_blocks s.fixed.waveReal.length cfg.nWhole f 1 hN hW hf one_pos val
  refine ⟨⟨s.fixed.waveReal.length, cfg.nWhole, out⟩, ?_, rfl, rfl, ?_⟩
  · unfold downsample rebinArr
    simp only [h1]
  · intro i j
    simp only
    rw [h2 i j]
    simp only [Nat.div_one]

/-! ### failures -/

/-- C38 is false with numpy 1.24 or later (`np.float` is gone): every evaluation with a dispersion
below the threshold fails. -/
theorem C38_false_numpy (cfg : AperCfg) (s : AperState) (k : KinProfile) (dp : Profile) (theta : List ℝ)
    (sig lim : ℝ) (ha : cfg.adaptive = true) (hnp : cfg.npFloat = false)
    (hk : s.kin.updateTheta theta = .ok k) (hdisp : k.disp = some dp) (hsig : dp.theta[0]? = some sig)
    (hlim : s.fixed.upsampleValue = some lim) (hlt : |sig| < lim) :
    (updateModel cfg s theta).2 = .error .attributeError := by
  unfold updateModel
  rw [doModelCalcs_eq, hk]
  simp only
  unfold calcsAfter
  have : checkUpsample cfg { s with kin := k } = ({ s with kin := k }, .error .attributeError) := by
    unfold checkUpsample
    simp only [hdisp, hlim, hsig, if_pos hlt, hnp, if_true]
  rw [if_pos ha, this]

theorem avg12 : avgDiff [1, 2] = 1 := by norm_num [avgDiff]

theorem uniform12 : ([1, 2] : List ℝ) = uniformGrid 1 1 2 := by
  norm_num [uniformGrid, List.range_succ]

/-- evaluation of the single cell model on wavelengths 1, 2 with upsampling, dispersion 1 -/
theorem one_calcs_up (factor : ℝ) (hfac : 0 < factor) (t v d : List ℝ) (dw m z : ℝ)
    (hlen : 0 < (npRound (2 * factor)).toNat) :
    ∃ s, s.wave = linspace (1 - 1 / 2 * (1 - 1 / factor)) (2 + 1 / 2 * (1 - 1 / factor))
          (npRound (2 * factor)).toNat ∧ s.fixed = oneFixed [1, 2] true 0 ∧
      doModelCalcs (oneCell [1, 2] true true factor) (oneState [1, 2] true 0 t v d [1, 2] dw) [0, 1, 1, m, z] =
        ((downsample (oneCell [1, 2] true true factor) s
            (some ⟨s.wave.length, 1, fun w _ => cellSpec 1 0 (s.wave.get w)⟩)).1,
          (downsample (oneCell [1, 2] true true factor) s
            (some ⟨s.wave.length, 1, fun w _ => cellSpec 1 0 (s.wave.get w)⟩)).2.map
              fun o => o.map Arr2.T) := by
  have hc := cKms_pos
  have hlim : (1 : ℝ) < 1 / (1 * (1 + 0)) * cKms / 2.35 := by unfold cKms; norm_num
  have hup := checkUpsample_uniform (oneCell [1, 2] true true factor)
    ⟨oneFixed [1, 2] true 0, ⟨[0, 1, 1, m, z], some ⟨[0, 1], 2⟩, some ⟨[1], 1⟩⟩, [1, 2], dw⟩ ⟨[1], 1⟩ 1
    (1 / (1 * (1 + 0)) * cKms / 2.35) 1 1 2 le_rfl one_pos hfac rfl rfl rfl
    (by show (if true = true then some (avgDiff [1, 2] / (1 * (1 + 0)) * cKms / 2.35) else none) = _
        rw [if_pos rfl, avg12]) (by rw [abs_one]; exact hlim) uniform12 avg12
  have e2 : (1 : ℝ) + (((2 : ℕ) : ℝ) - 1) * 1 = 2 := by norm_num
  rw [e2] at hup
  refine ⟨⟨oneFixed [1, 2] true 0, ⟨[0, 1, 1, m, z], some ⟨[0, 1], 2⟩, some ⟨[1], 1⟩⟩,
    linspace (1 - 1 / 2 * (1 - 1 / factor)) (2 + 1 / 2 * (1 - 1 / factor)) (npRound (2 * factor)).toNat,
    1 / factor⟩, rfl, rfl, ?_⟩
  rw [doModelCalcs_eq]
  unfold oneState
  simp only
  rw [fiducial_update]
  simp only
  unfold calcsAfter
  have ha : (oneCell [1, 2] true true factor).adaptive = true := rfl
  rw [if_pos ha, hup]
  simp only
  have hfl : ∀ s : AperState, s.kin.disp = some ⟨[1], 1⟩ →
      applySigmaFloor (oneCell [1, 2] true true factor) s = (s, .ok 1) := by
    rintro ⟨sf, ⟨kt, kv, kd⟩, sw, sd⟩ h
    simp only at h
    subst h
    unfold applySigmaFloor
    have h1 : ¬ (oneCell [1, 2] true true factor).absvalsigma = true := Bool.false_ne_true
    have h2 : ¬ (oneCell [1, 2] true true factor).sigmaFloor = true := Bool.false_ne_true
    simp only [if_neg h1, if_neg h2]
    rfl
  rw [hfl _ rfl]
  simp only
  have hfn : (oneCell [1, 2] true true factor).factor = factor := rfl
  rw [hfn]
  have h2c : ((2 : ℕ) : ℝ) = 2 := by norm_num
  rw [h2c]
  rw [one_eval [1, 2] _ true true factor 0 0 1 1 one_ne_zero _ 2 _ _ (by rw [linspace_length]; exact hlen)
    (one_cube _ 1 0 one_ne_zero (by norm_num))]
  simp only [if_pos ha]

/-- C38 is false for a factor that does not divide evenly: the evaluation fails when rebinning, and
the model is left on the fine wavelength array, so that the grid is not restored. -/
theorem C38_false_stuck : ∃ cfg kin theta s0, cfg.adaptive = true ∧ cfg.npFloat = true ∧
    buildModel cfg kin theta = .ok (s0, .error .valueError) ∧ ¬ Restored cfg s0 := by
  have hr : (npRound ((2 : ℝ) * (3 / 2))).toNat = 3 := by
    have : (2 : ℝ) * (3 / 2) = ((3 : ℕ) : ℝ) := by norm_num
    rw [this, npRound_nat]; rfl
  obtain ⟨s, hw, hf, h⟩ := one_calcs_up (3 / 2) (by norm_num) [] [] [] (avgDiff [1, 2]) 0 0 (by rw [hr]; decide)
  rw [hr] at hw
  have hlen : s.wave.length = 3 := by rw [hw, linspace_length]
  have hds : downsample (oneCell [1, 2] true true (3 / 2)) s
      (some ⟨s.wave.length, 1, fun w _ => cellSpec 1 0 (s.wave.get w)⟩) = (s, .error .valueError) := by
    unfold downsample
    simp only
    have hreb : ∀ (n : Nat) (val : Fin n → Fin 1 → ℝ), n = 3 → rebinArr ⟨n, 1, val⟩ 2 1 = .error .valueError := by
      intro n val hn
      subst hn
      unfold rebinArr
      have := (C33_error (by norm_num : 0 < 3) (by norm_num : 0 < 1) val 2 1).1.2 (by decide)
      simp only [this]
    have hl2 : s.fixed.waveReal.length = 2 := by rw [hf]; rfl
    have hnW : (oneCell [1, 2] true true (3 / 2)).nWhole = 1 := rfl
    rw [hl2, hnW, hreb _ _ hlen]
  rw [hds] at h
  refine ⟨oneCell [1, 2] true true (3 / 2), ⟨[], some ⟨[], 2⟩, some ⟨[], 1⟩⟩, [0, 1, 1, 0, 0], s, rfl, rfl, ?_, ?_⟩
  · unfold buildModel
    rw [oneFixed_eq]
    simp only
    congr 1
  · intro hR
    have : s.wave = [1, 2] := hR.1
    rw [this] at hlen
    simp at hlen

/-- C38 is false for the flux calibration: the same model (dispersion 1 km/s, below the threshold,
factor 3) has a larger value in a wavelength pixel with adaptive sampling than without. -/
theorem C38_false_calibration : ∃ (cfg : AperCfg) (kin : KinProfile) (theta : List ℝ) (s1 s2 : AperState)
    (img1 img2 : Arr2),
    buildModel { cfg with adaptive := true } kin theta = .ok (s1, .ok (some img1)) ∧
    buildModel { cfg with adaptive := false } kin theta = .ok (s2, .ok (some img2)) ∧
    ∃ (h1 : 0 < img1.n) (h1' : 0 < img1.m) (h2 : 0 < img2.n) (h2' : 0 < img2.m),
      img2.val ⟨0, h2⟩ ⟨0, h2'⟩ < img1.val ⟨0, h1⟩ ⟨0, h1'⟩ := by
  have hr : (npRound ((2 : ℝ) * 3)).toNat = 6 := by
    have : (2 : ℝ) * 3 = ((6 : ℕ) : ℝ) := by norm_num
    rw [this, npRound_nat]; rfl
  obtain ⟨s, hw, hf, h⟩ := one_calcs_up 3 (by norm_num) [] [] [] (avgDiff [1, 2]) 0 0 (by rw [hr]; decide)
  rw [hr] at hw
  have hlen : s.wave.length = 6 := by rw [hw, linspace_length]
  have hl2 : s.fixed.waveReal.length = 2 := by rw [hf]; rfl
  obtain ⟨b, hb1, hbn, hbm, hbv⟩ := C38_sum (oneCell [1, 2] true true 3) s
    ⟨s.wave.length, 1, fun w _ => cellSpec 1 0 (s.wave.get w)⟩ 3 (by norm_num) (by rw [hl2]; exact hlen) rfl
    (by rw [hl2]; norm_num) one_pos
  rw [hb1] at h
  have hbuild2 := one_build [1, 2] true 3 [] [] [] 0 1 1 0 one_ne_zero one_ne_zero (by norm_num) (by simp)
  obtain ⟨s1, hbuild1⟩ : ∃ s1, buildModel (oneCell [1, 2] true true 3)
      ⟨[], some ⟨[], 2⟩, some ⟨[], 1⟩⟩ [0, 1, 1, 0, 0] = .ok (s1, .ok (some b.T)) := by
    generalize (downsample (oneCell [1, 2] true true 3) s
      (some ⟨s.wave.length, 1, fun w _ => cellSpec 1 0 (s.wave.get w)⟩)).1 = s1 at h
    refine ⟨s1, ?_⟩
    unfold buildModel
    rw [oneFixed_eq]
    exact congrArg Except.ok h
  refine ⟨oneCell [1, 2] true true 3, ⟨[], some ⟨[], 2⟩, some ⟨[], 1⟩⟩, [0, 1, 1, 0, 0], s1, _, b.T, _,
    hbuild1, hbuild2, ?_⟩
  · have hb0 : 0 < b.n := by rw [hbn, hl2]; norm_num
    have hb0' : 0 < b.m := by rw [hbm]; exact one_pos
    refine ⟨hb0', hb0, one_pos, by simp, ?_⟩
    show cellSpec 1 0 1 < b.val ⟨0, hb0⟩ ⟨0, hb0'⟩
    rw [hbv]
    have hpos : ∀ x, 0 < cellSpec 1 0 x := by
      intro x
      have := cKms_pos
      unfold cellSpec gaussDensity
      have : 0 < (1 : ℝ) / cKms * (1 * (1 + 0)) * Real.sqrt (2 * Real.pi) := by positivity
      exact mul_pos (one_div_pos.2 this) (Real.exp_pos _)
    -- the fine wavelengths 1 - 1/3, 1, 1 + 1/3 belong to pixel 0
    have hg : ∀ (u : Fin s.wave.length) , s.wave.get u = (u.val : ℝ) * (1 / 3) + 2 / 3 := by
      intro u
      have hu : u.val < 6 := by have := u.2; omega
      have h2 := linspace_get (1 - 1 / 2 * (1 - 1 / (3 : ℝ))) (2 + 1 / 2 * (1 - 1 / 3)) 6 u.val hu
      rw [← hw] at h2
      have h3 : s.wave[u.val]? = some (s.wave.get u) := by simp
      rw [h3] at h2
      simp only [Option.some.injEq] at h2
      rw [h2]; norm_num
    have hsplit : ∀ u : Fin s.wave.length, (∑ v : Fin 1, if u.val / 3 = 0 ∧ v.val = 0 then
        cellSpec 1 0 (s.wave.get u) else 0) = if u.val / 3 = 0 then cellSpec 1 0 (s.wave.get u) else 0 := by
      intro u; simp
    simp only
    rw [Finset.sum_congr rfl fun u _ => hsplit u]
    have hlt : ∀ (n : Nat) (g : Fin n → ℝ), (∀ u, 0 < g u) → (hn : n = 6) →
        g ⟨1, by omega⟩ < ∑ u : Fin n, if u.val / 3 = 0 then g u else 0 := by
      intro n g hg hn
      have hle : ∀ u : Fin n, 0 ≤ if u.val / 3 = 0 then g u else 0 := fun u => by
        split
        · exact (hg u).le
        · exact le_rfl
      have hs := Finset.single_lt_sum (f := fun u : Fin n => if u.val / 3 = 0 then g u else 0)
        (i := ⟨1, by omega⟩) (j := ⟨0, by omega⟩) (s := Finset.univ) (by simp) (Finset.mem_univ _)
        (Finset.mem_univ _) (by simpa using hg _) (fun k _ _ => hle k)
      simpa using hs
    have h1 := hlt s.wave.length (fun u => cellSpec 1 0 (s.wave.get u)) (fun u => hpos _) hlen
    have e1 : s.wave.get ⟨1, by omega⟩ = 1 := by rw [hg]; norm_num
    simp only [e1] at h1
    exact h1

/-- C38, full statement, and the part that holds: shape, grid and sum (`C38_restores`, `C38_shape`,
`C38_fine_grid`, `C38_sum`); missing: flux calibration, non-integer factors, recent numpy. -/
theorem C38_transparent_partial (cfg : AperCfg) (s : AperState) (theta : List ℝ) (img : Arr2)
    (ha : cfg.adaptive = true) (hf : s.fixed.waveReal = cfg.wave ∧ s.fixed.deltReal = avgDiff cfg.wave)
    (h : (updateModel cfg s theta).2 = .ok (some img)) :
    Restored cfg (updateModel cfg s theta).1 ∧ img.n = cfg.nWhole ∧ img.m = cfg.wave.length := by
  have h1 := (doModelCalcs_keeps cfg s theta).2.2.2 ha _ h
  have h2 := (C38_shape cfg s theta img h).1 ha
  rw [hf.1] at h1 h2
  rw [hf.2] at h1
  exact ⟨h1, h2⟩

end Misfit
