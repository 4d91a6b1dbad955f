import Verif.Props.Seeing

/-!
# C230: which sampling factors work

For a line narrower than a wavelength pixel the model is sampled `round(N f)` times between the ends of the `N` pixels, `f` being the
sampling factor, and added up again to `N` pixels.  This works exactly if the number of samples is a positive multiple of the number of
pixels.
-/

namespace Misfit

/-- the sampling factor only enters the dispersion floor -/
theorem setup_factor (cfg : AperCfg) (k : ℝ) (hst : ¬ cfg.psf.StampFails) (theta : List ℝ) (f : AperFixed)
    (hf : setupCalcs { cfg with factor := k } theta = .ok f) :
    setupCalcs cfg theta = .ok { f with floorValue := floorValueOf cfg (avgDiff cfg.wave) f.lam0 } := by
  rw [setupCalcs_arrays hst]
  rw [setupCalcs_arrays (cfg := { cfg with factor := k }) hst] at hf
  unfold setupArrays at hf ⊢
  cases h1 : fromEnd theta 1 with
  | error e => simp only [h1, bind, Except.bind] at hf; cases hf
  | ok z =>
    cases h2 : fromEnd theta 2 with
    | error e => simp only [h1, h2, bind, Except.bind] at hf; cases hf
    | ok m =>
      cases hG : setupGrid ⟨cfg.nWhole, cfg.nSubpixels, cfg.pixscale, cfg.slit, cfg.psf.fwhm, cfg.padFactor, cfg.xc, cfg.m0 + m⟩ with
      | error e => simp only [h1, h2, hG, bind, Except.bind] at hf; cases hf
      | ok G =>
        simp only [h1, h2, hG, bind, Except.bind] at hf ⊢
        split at hf
        · cases hf
        · rename_i lam0 hl
          simp only [Except.ok.injEq] at hf
          subst hf
          rfl

/-- neither the sampling factor nor the value of the floor is used when the image is computed -/
theorem eval_factor (cfg : AperCfg) (k : ℝ) (f : AperFixed) (fl : Option ℝ) (kin : KinProfile) (wave : List ℝ) (sig : ℝ) :
    evalImage cfg { f with floorValue := fl } kin wave sig = evalImage { cfg with factor := k } f kin wave sig := by
  have h : evalStages cfg { f with floorValue := fl } kin wave sig = evalStages { cfg with factor := k } f kin wave sig := by
    have hv : velCube cfg { f with floorValue := fl } kin = velCube { cfg with factor := k } f kin := by
      unfold velCube
      rfl
    have hd : instDisp cfg { f with floorValue := fl } = instDisp { cfg with factor := k } f := by
      unfold instDisp
      rfl
    rw [evalStages_eq_tail, evalStages_eq_tail, hv, hd]
    cases velCube { cfg with factor := k } f kin with
    | none => rfl
    | some V => rfl
  unfold evalImage
  rw [h]
  rfl

/-- the lines are narrower than a wavelength pixel: dispersion below the width `step` of a pixel divided by 2.35, as a velocity -/
def Narrow (cfg : AperCfg) (step z sig : ℝ) : Prop :=
  (cfg.specType = .velocity → sig < step / 2.35) ∧
  (cfg.specType = .wave → ∀ r0, cfg.restwave[0]? = some r0 → sig < step / (r0 * (1 + z)) * cKms / 2.35)

theorem narrow_limit (cfg : AperCfg) (ha : cfg.adaptive = true) (step z sig va rt m : ℝ) (hn : Narrow cfg step z sig)
    (hd : avgDiff cfg.wave = step) (f : AperFixed) (hst : ¬ cfg.psf.StampFails) (hax : cfg.specType ≠ .other)
    (hf : setupCalcs cfg [va, rt, sig, m, z] = .ok f) : ∃ lim, f.upsampleValue = some lim ∧ sig < lim := by
  rw [setupCalcs_arrays hst] at hf
  unfold setupArrays at hf
  have h1 : fromEnd [va, rt, sig, m, z] 1 = .ok z := rfl
  have h2 : fromEnd [va, rt, sig, m, z] 2 = .ok m := rfl
  cases hG : setupGrid ⟨cfg.nWhole, cfg.nSubpixels, cfg.pixscale, cfg.slit, cfg.psf.fwhm, cfg.padFactor, cfg.xc, cfg.m0 + m⟩ with
  | error e => simp only [h1, h2, hG, bind, Except.bind] at hf; cases hf
  | ok G =>
    simp only [h1, h2, hG, bind, Except.bind] at hf
    split at hf
    · cases hf
    · rename_i lam0 hl
      simp only [Except.ok.injEq] at hf
      subst hf
      simp only [if_pos ha]
      cases hsp : cfg.specType with
      | other => exact absurd hsp hax
      | velocity =>
        refine ⟨_, rfl, ?_⟩
        rw [hd]
        exact hn.1 hsp
      | wave =>
        refine ⟨_, rfl, ?_⟩
        rw [hsp] at hl
        simp only at hl
        cases hr : cfg.restwave[0]? with
        | none => rw [hr] at hl; cases hl
        | some r0 =>
          rw [hr] at hl
          simp only [Except.ok.injEq] at hl
          rw [hd, ← hl]
          exact hn.2 hsp r0 hr

/-- sampling of narrow lines with any factor that is not zero -/
theorem checkUpsample_any (cfg : AperCfg) (s : AperState) (dp : Profile) (sig lim lam0 d : ℝ) (N : Nat)
    (hN : 2 ≤ N) (hd : 0 < d) (hfac : cfg.factor ≠ 0) (hnp : cfg.npFloat = true)
    (hdisp : s.kin.disp = some dp) (hsig : dp.theta[0]? = some sig)
    (hlim : s.fixed.upsampleValue = some lim) (hlt : |sig| < lim)
    (hwave : s.wave = uniformGrid lam0 d N) (hdr : s.fixed.deltReal = d) :
    (npRound ((N : ℝ) * cfg.factor) < 0 → (checkUpsample cfg s).2 = .error .valueError) := by
  have harg : (lam0 + ((N : ℝ) - 1) * d + 1 / 2 * (d - d / cfg.factor) -
      (lam0 - 1 / 2 * (d - d / cfg.factor))) / (d / cfg.factor) + 1 = (N : ℝ) * cfg.factor := by
    field_simp; ring
  intro hneg
  unfold checkUpsample
  rw [hdisp]
  simp only
  rw [hlim]
  simp only
  rw [hsig]
  simp only
  rw [if_pos hlt, if_neg (by rw [hnp]; decide), if_neg hfac, hwave,
    uniformGrid_min _ _ _ (by omega) hd.le, uniformGrid_max _ _ _ (by omega) hd.le]
  simp only
  rw [hdr, harg, if_pos hneg]

/-- rebinning the wavelengths of an image with the right number of rows -/
theorem rebin_divides (a : Arr2) (p q : ℕ) (hp : 0 < p) (hq : 0 < q) (hm : a.m = q) (hn : 0 < a.n) :
    (p ∣ a.n → ∃ b, rebinArr a p q = .ok b) ∧ (¬ p ∣ a.n → rebinArr a p q = .error .valueError) := by
  have h1 : a.m / q = 1 := by rw [hm]; exact Nat.div_self hq
  have hiff : p * (a.n / p) * (q * (a.m / q)) = a.n * a.m ↔ p ∣ a.n := by
    rw [h1, hm, mul_one]
    constructor
    · intro h
      exact Dvd.intro _ (Nat.eq_of_mul_eq_mul_right hq h)
    · intro h
      rw [Nat.mul_div_cancel' h]
  unfold rebinArr rebin
  simp only
  rw [if_neg (by omega)]
  constructor
  · intro h
    rw [if_pos (hiff.2 h)]
    exact ⟨_, rfl⟩
  · intro h
    rw [if_neg (fun h' => h (hiff.1 h'))]

/-- **C230**: for lines narrower than a pixel the sampling factor 0, and factors so negative that the number `round(N f)` of samples is
negative, are a ValueError; a positive number of samples gives an image of the shape of the data if it is a multiple of the number `N` of
wavelengths, and otherwise is a ValueError that leaves the object with the samples as its wavelengths. -/
theorem C230_factor (cfg : AperCfg) (hc : Luminous { cfg with factor := 1 }) (ha : cfg.adaptive = true) (hF : 0 ≤ cfg.psf.fwhm)
    (hst : ¬ cfg.psf.StampFails) (hker : cfg.psf.fwhm = 0 ∨ KernelFits cfg) (w0 step : ℝ) (N : ℕ) (hN : 2 ≤ N) (hstep : 0 < step)
    (hw : cfg.wave = uniformGrid w0 step N) (kin : KinProfile) (hk : kin.shape = (some 2, some 1)) (va rt sig m z : ℝ) (hrt : rt ≠ 0)
    (hs : 0 < sig) (hz : 0 < 1 + z) (hnar : Narrow cfg step z sig) :
    ∃ s r, buildModel cfg kin [va, rt, sig, m, z] = .ok (s, r) ∧
      (cfg.factor = 0 ∨ npRound ((N : ℝ) * cfg.factor) < 0 → r = .error .valueError) ∧
      ∀ k : ℕ, 0 < k → npRound ((N : ℝ) * cfg.factor) = k →
        (N ∣ k → ∃ img : Arr2, r = .ok (some img) ∧ img.n = cfg.nWhole ∧ img.m = N ∧ s.wave = cfg.wave) ∧
        (¬ N ∣ k → r = .error .valueError ∧ s.wave.length = k) := by
  have hlenw : cfg.wave.length = N := by rw [hw]; simp [uniformGrid]
  have havg : avgDiff cfg.wave = step := by rw [hw]; exact avgDiff_uniform _ _ _ hN
  have hax : cfg.specType ≠ .other := by
    rcases hc.axis with h | ⟨h, -⟩ <;> rw [show cfg.specType = _ from h] <;> intro h' <;> cases h'
  obtain ⟨f1, hf1, hfz, hnY, hY, hX, hZ, hpX, hdX, hdZ, hI, hfw, hfd, hff, hfu, hkers⟩ :=
    luminous_setup { cfg with factor := 1 } hc hF hst va rt sig m z
  have hf := setup_factor cfg 1 hst _ f1 hf1
  obtain ⟨f, hfe⟩ : ∃ f : AperFixed, f = { f1 with floorValue := floorValueOf cfg (avgDiff cfg.wave) f1.lam0 } := ⟨_, rfl⟩
  rw [← hfe] at hf
  obtain ⟨lim, hlim, hlt⟩ := narrow_limit cfg ha step z sig va rt m hnar havg f hst hax hf
  have hlt' : |sig| < lim := by rw [abs_of_pos hs]; exact hlt
  have hup : kin.updateTheta [va, rt, sig, m, z] = .ok (sharpKin va rt sig m z) := by
    rw [updateTheta_congr kin ⟨[], some ⟨[], 2⟩, some ⟨[], 1⟩⟩ (by rw [hk]; rfl)]
    rfl
  have hnp : cfg.npFloat = true := (hc.adapt ha).1
  unfold buildModel
  rw [hf]
  simp only
  rw [doModelCalcs_eq]
  simp only [hup]
  unfold calcsAfter
  simp only [if_pos ha]
  obtain ⟨S, hS⟩ : ∃ S : AperState, S = ⟨f, sharpKin va rt sig m z, cfg.wave, avgDiff cfg.wave⟩ := ⟨_, rfl⟩
  have hSd : S.kin.disp = some ⟨[sig], 1⟩ := by rw [hS]; rfl
  have hSl : S.fixed.upsampleValue = some lim := by rw [hS]; exact hlim
  have hSw : S.wave = uniformGrid w0 step N := by rw [hS]; exact hw
  have hSr : S.fixed.deltReal = step := by rw [hS, hfe]; exact hfd.trans havg
  rw [← hS]
  by_cases h0 : cfg.factor = 0
  · have hcu : checkUpsample cfg S = (S, .error .valueError) := by
      unfold checkUpsample
      rw [hSd]
      simp only [hSl, List.getElem?_cons_zero]
      rw [if_pos hlt', if_neg (by rw [hnp]; decide), if_pos h0]
    rw [hcu]
    refine ⟨_, _, rfl, fun _ => rfl, fun k hk0 hkr => ?_⟩
    rw [h0, mul_zero] at hkr
    rw [npRound_zero] at hkr
    omega
  by_cases hneg : npRound ((N : ℝ) * cfg.factor) < 0
  · have hcu := checkUpsample_any cfg S _ sig lim w0 step N hN hstep h0 hnp hSd rfl hSl hlt' hSw hSr hneg
    simp only [hcu]
    refine ⟨_, _, rfl, fun _ => rfl, fun k hk0 hkr => ?_⟩
    omega
  have hlow : ∀ k : ℕ, 0 < k → npRound ((N : ℝ) * cfg.factor) = k → 0 < cfg.factor := by
    intro k hk0 hkr
    by_contra hf0
    have h1 := (abs_le.1 (npRound_near ((N : ℝ) * cfg.factor))).2
    rw [hkr] at h1
    have h2 : (N : ℝ) * cfg.factor ≤ 0 := mul_nonpos_of_nonneg_of_nonpos (Nat.cast_nonneg _) (not_lt.1 hf0)
    have h3 : (1 : ℝ) ≤ ((k : ℤ) : ℝ) := by exact_mod_cast hk0
    linarith
  by_cases hpos : 0 < cfg.factor
  swap
  · refine ⟨_, _, rfl, fun h => absurd h (not_or.2 ⟨h0, hneg⟩), fun k hk0 hkr => absurd (hlow k hk0 hkr) hpos⟩
  have hcu := checkUpsample_uniform cfg S _ sig lim w0 step N hN hstep hpos hnp hSd rfl hSl hlt' hSw hSr
  by_cases hk0 : 0 < (npRound ((N : ℝ) * cfg.factor)).toNat
  swap
  · refine ⟨_, _, rfl, fun h => absurd h (not_or.2 ⟨h0, hneg⟩), fun k hk1 hkr => ?_⟩
    rw [hkr] at hk0
    simp only [Int.toNat_natCast] at hk0
    exact absurd hk1 hk0
  obtain ⟨n, hn⟩ : ∃ n : ℕ, n = (npRound ((N : ℝ) * cfg.factor)).toNat := ⟨_, rfl⟩
  rw [← hn] at hcu hk0
  obtain ⟨U, hU⟩ : ∃ U : AperState, U = (checkUpsample cfg S).1 := ⟨_, rfl⟩
  have hU2 : (checkUpsample cfg S).2 = .ok () := by rw [hcu]
  have hUk : U.kin = sharpKin va rt sig m z := by rw [hU, hcu, hS]
  have hUf : U.fixed = f := by rw [hU, hcu, hS]
  have hUl : U.wave.length = n := by rw [hU, hcu]; exact linspace_length _ _ _
  have hUw : ∃ a b : ℝ, ∀ i : Fin U.wave.length, U.wave.get i = a + i.val * b := by
    have hw' : U.wave = linspace (w0 - 1 / 2 * (step - step / cfg.factor))
        (w0 + ((N : ℝ) - 1) * step + 1 / 2 * (step - step / cfg.factor)) n := by rw [hU, hcu]
    generalize (w0 - 1 / 2 * (step - step / cfg.factor)) = a at hw'
    generalize (w0 + ((N : ℝ) - 1) * step + 1 / 2 * (step - step / cfg.factor)) = b at hw'
    refine ⟨a, if n = 1 then 0 else (b - a) / ((n : ℝ) - 1), fun i => ?_⟩
    have hi : i.val < n := i.isLt.trans_eq hUl
    have h2 := linspace_get a b n i.val hi
    rw [← hw', List.getElem?_eq_getElem i.isLt] at h2
    rw [List.get_eq_getElem, Option.some.inj h2]
    split_ifs
    · ring
    · ring
  obtain ⟨a, b, hab⟩ := hUw
  obtain ⟨sg, h4, h5, h6⟩ := applySigmaFloor_pos cfg U sig (by rw [hUk]; rfl) hs (by
    intro hfl
    rw [hUf, hfe]
    simp only [floorValueOf, if_pos hfl, if_pos ha]
    cases hsp : cfg.specType with
    | other => exact absurd hsp hax
    | velocity => exact ⟨_, rfl⟩
    | wave => exact ⟨_, rfl⟩)
  have hkeep := applySigmaFloor_keeps cfg U
  have hmiss : ¬ KernelMissing { cfg with factor := 1 } f1 := by
    rintro ⟨h, h'⟩
    rcases hker with h0 | h0
    · exact h.ne' h0
    · exact hkers.1 h' h0
  obtain ⟨img, hi1, hi2, hi3, -⟩ := (luminous_eval { cfg with factor := 1 } hc f1 _ hf1 (applySigmaFloor cfg U).1.kin va rt sg
    ⟨2, by rw [h6, hUk]; rfl⟩ hrt h5 (by rw [hfz]; exact hz) U.wave a b hab (by rw [hUl]; exact hk0) hnY hY hX hZ hpX hdX hdZ hI).2
    hmiss
  have he : evalImage cfg (applySigmaFloor cfg U).1.fixed (applySigmaFloor cfg U).1.kin (applySigmaFloor cfg U).1.wave sg =
      .ok (some img) := by
    rw [hkeep.1, hkeep.2.1, hUf, ← hi1, hfe]
    exact eval_factor cfg 1 f1 _ _ _ _
  have hwr : (applySigmaFloor cfg U).1.fixed.waveReal = cfg.wave := by rw [hkeep.1, hUf, hfe]; exact hfw
  rw [← hU]
  simp only [hU2, h4, he]
  have hreb := rebin_divides img N cfg.nWhole (by omega) hc.rows hi3 (by rw [hi2, hUl]; exact hk0)
  rw [hi2, hUl] at hreb
  refine ⟨_, _, rfl, fun h => absurd h (not_or.2 ⟨h0, hneg⟩), fun k hk1 hkr => ?_⟩
  have hnk : n = k := by rw [hn, hkr, Int.toNat_natCast]
  rw [← hnk]
  constructor
  · intro hd
    obtain ⟨o, ho⟩ := hreb.1 hd
    obtain ⟨ho1, ho2⟩ := rebinArr_shape _ _ _ _ ho
    have hds : downsample cfg (applySigmaFloor cfg U).1 (some img) =
        ({ (applySigmaFloor cfg U).1 with wave := cfg.wave, deltWave := (applySigmaFloor cfg U).1.fixed.deltReal }, .ok (some o)) := by
      unfold downsample
      simp only [hwr, hlenw, ho]
    rw [hds]
    exact ⟨o.T, rfl, ho2, ho1, rfl⟩
  · intro hd
    have hds : downsample cfg (applySigmaFloor cfg U).1 (some img) = ((applySigmaFloor cfg U).1, .error .valueError) := by
      unfold downsample
      simp only [hwr, hlenw, hreb.2 hd]
    rw [hds]
    refine ⟨rfl, ?_⟩
    rw [hkeep.2.1]
    exact hUl

/-- two wavelengths: the factor 0 is refused, the factor 3/2 (three samples) is refused and leaves the three samples behind, and the
factor 33/16 (33/8 rounded to four samples) gives an image -/
example : (∃ s, buildModel { smallSlit ⟨.gaussian, 1, 0, none⟩ with factor := 0 } ⟨[], some ⟨[], 2⟩, some ⟨[], 1⟩⟩ [1, 1, 1, 0, 0] =
      .ok (s, .error .valueError)) ∧
    (∃ s, buildModel { smallSlit ⟨.gaussian, 1, 0, none⟩ with factor := 3 / 2 } ⟨[], some ⟨[], 2⟩, some ⟨[], 1⟩⟩ [1, 1, 1, 0, 0] =
      .ok (s, .error .valueError) ∧ s.wave.length = 3) ∧
    ∃ s img, buildModel { smallSlit ⟨.gaussian, 1, 0, none⟩ with factor := 33 / 16 } ⟨[], some ⟨[], 2⟩, some ⟨[], 1⟩⟩
      [1, 1, 1, 0, 0] = .ok (s, .ok (some img)) := by
  have h := smallSlit_luminous ⟨.gaussian, 1, 0, none⟩ (fun _ => rfl) fun h => by cases h
  have hl : ∀ k : ℝ, Luminous { { smallSlit ⟨.gaussian, 1, 0, none⟩ with factor := k } with factor := 1 } := fun k =>
    ⟨h.rows, h.sub, h.pix, h.slit, h.pad, h.int, h.axis, h.mask, h.reb, h.wave, fun _ => ⟨rfl, 1, one_pos, by simp⟩, h.dither, h.beta⟩
  have hkf := kernelFits_wide _ h (by norm_num [smallSlit])
  have hu := fun k : ℝ => C230_factor { smallSlit ⟨.gaussian, 1, 0, none⟩ with factor := k } (hl k) rfl zero_le_one
    (by rintro ⟨h, -⟩; cases h) (Or.inr hkf) 1 1 2 le_rfl one_pos rfl
    ⟨[], some ⟨[], 2⟩, some ⟨[], 1⟩⟩ rfl 1 1 1 0 0 one_ne_zero one_pos (by norm_num)
    ⟨(fun h => by cases h), fun _ r0 hr => by
      obtain rfl : (1 : ℝ) = r0 := Option.some.inj hr
      norm_num [cKms]⟩
  refine ⟨?_, ?_, ?_⟩
  · obtain ⟨s, r, h1, h2, -⟩ := hu 0
    rw [h2 (Or.inl rfl)] at h1
    exact ⟨s, h1⟩
  · obtain ⟨s, r, h1, -, h2⟩ := hu (3 / 2)
    have hr : npRound (((2 : ℕ) : ℝ) * (3 / 2)) = ((3 : ℕ) : ℤ) := by
      rw [show ((2 : ℕ) : ℝ) * (3 / 2) = ((3 : ℕ) : ℝ) by norm_num, npRound_nat]
    obtain ⟨h3, h4⟩ := (h2 3 (by norm_num) hr).2 (by norm_num)
    rw [h3] at h1
    exact ⟨s, h1, h4⟩
  · obtain ⟨s, r, h1, -, h2⟩ := hu (33 / 16)
    have hr : npRound (((2 : ℕ) : ℝ) * (33 / 16)) = ((4 : ℕ) : ℤ) := by
      have hfl : ⌊((2 : ℕ) : ℝ) * (33 / 16)⌋ = 4 := by rw [Int.floor_eq_iff]; norm_num
      unfold npRound
      simp only [hfl]
      norm_num
    obtain ⟨img, h3, -⟩ := (h2 4 (by norm_num) hr).1 (by norm_num)
    rw [h3] at h1
    exact ⟨s, img, h1⟩

end Misfit
