import Verif.Lemmas.ImageScale
import Verif.Props.Aper

/-!
# C124: the dispersion floor

With `sigma_floor` the model is evaluated at the given dispersion, or at the floor if that is larger.
-/

namespace Misfit

/-! ## Specification -/

/-- average width of a wavelength pixel: distance between the first and last wavelength over the number of steps -/
noncomputable def pixelWidth (first last : ℝ) (n : ℕ) : ℝ := (last - first) / ((n : ℝ) - 1)

/-- The dispersion (km/s) whose FWHM is a wavelength interval `w`, for the reference line observed at `lam0` (wavelength
units) or with an axis in km/s. -/
noncomputable def widthInKms (inVelocity : Bool) (w lam0 : ℝ) : ℝ :=
  (if inVelocity then w else w / lam0 * cKms) / 2.35

/-- The documented floor: one data pixel, or three quarters of one pixel of the finer grid if the grid may be refined. -/
noncomputable def dispersionFloor (cfg : AperCfg) (inVelocity : Bool) (first last rest0 z : ℝ) : ℝ :=
  if cfg.adaptive then
    0.75 * widthInKms inVelocity (pixelWidth first last cfg.wave.length / cfg.factor) (rest0 * (1 + z))
  else widthInKms inVelocity (pixelWidth first last cfg.wave.length) (rest0 * (1 + z))

/-- what building a model returns: an image, or an exception -/
noncomputable def builtImage (cfg : AperCfg) (kin : KinProfile) (theta : List ℝ) : Except PyErr (Option Arr2) :=
  match buildModel cfg kin theta with
  | .error e => .error e
  | .ok r => r.2

/-! ## Proof -/

theorem diffs_sum : ∀ (l : List ℝ) (a : ℝ),
    (List.zipWith (fun b a => b - a) ((a :: l).drop 1) (a :: l).dropLast).sum = (a :: l).getLast (by simp) - a
  | [], a => by simp
  | b :: l, a => by
      have ih := diffs_sum l b
      simp only [List.drop_succ_cons, List.drop_zero, List.dropLast_cons₂, List.zipWith_cons_cons, List.sum_cons] at ih ⊢
      rw [ih, List.getLast_cons (List.cons_ne_nil b l) (a := a)]
      ring

theorem avgDiff_ends (wave : List ℝ) (first last : ℝ) (hf : wave.head? = some first) (hl : wave.getLast? = some last) :
    avgDiff wave = pixelWidth first last wave.length := by
  rcases wave with _ | ⟨a, l⟩
  · cases hf
  · cases hf
    rw [List.getLast?_eq_getLast_of_ne_nil (by simp)] at hl
    cases hl
    unfold avgDiff pixelWidth
    rw [diffs_sum]

/-- without the floor -/
noncomputable def AperFixed.noFloor (f : AperFixed) : AperFixed := { f with floorValue := none }

/-- the effect of refining the grid does not depend on the floor, nor on the dispersion beyond the comparison with the limit -/
theorem checkUpsample_floor (cfg : AperCfg) (f : AperFixed) (t t' : List ℝ) (v : Option Profile) (n : ℕ) (sig sig' : ℝ)
    (wave : List ℝ) (dw : ℝ) (hlim : ∀ lim, f.upsampleValue = some lim → (|sig| < lim ↔ |sig'| < lim)) :
    ∃ w d r, checkUpsample cfg ⟨f, ⟨t, v, some ⟨[sig], n⟩⟩, wave, dw⟩ = (⟨f, ⟨t, v, some ⟨[sig], n⟩⟩, w, d⟩, r) ∧
      checkUpsample { cfg with sigmaFloor := false } ⟨f.noFloor, ⟨t', v, some ⟨[sig'], n⟩⟩, wave, dw⟩ =
        (⟨f.noFloor, ⟨t', v, some ⟨[sig'], n⟩⟩, w, d⟩, r) := by
  unfold checkUpsample AperFixed.noFloor
  simp only [List.getElem?_cons_zero]
  cases hu : f.upsampleValue with
  | none => exact ⟨_, _, _, rfl, rfl⟩
  | some lim =>
    have h := hlim lim hu
    simp only
    by_cases h1 : |sig| < lim
    · rw [if_pos h1, if_pos (h.1 h1)]
      split
      · exact ⟨_, _, _, rfl, rfl⟩
      · split
        · exact ⟨_, _, _, rfl, rfl⟩
        · split
          · split
            · exact ⟨_, _, _, rfl, rfl⟩
            · exact ⟨_, _, _, rfl, rfl⟩
          · exact ⟨_, _, _, rfl, rfl⟩
    · rw [if_neg h1, if_neg (fun h2 => h1 (h.2 h2))]
      exact ⟨_, _, _, rfl, rfl⟩

/-- the dispersion used with the floor is the one used without at the raised value -/
theorem applySigmaFloor_raise (cfg : AperCfg) (f : AperFixed) (t t' : List ℝ) (v : Option Profile) (n : ℕ) (sig F : ℝ)
    (wave : List ℝ) (dw : ℝ) (hsf : cfg.sigmaFloor = true) (hF : f.floorValue = some F) :
    ∃ s, (applySigmaFloor cfg ⟨f, ⟨t, v, some ⟨[sig], n⟩⟩, wave, dw⟩) =
        (⟨f, ⟨t, v, some ⟨[s], n⟩⟩, wave, dw⟩, .ok s) ∧
      (applySigmaFloor { cfg with sigmaFloor := false }
        ⟨f.noFloor, ⟨t', v, some ⟨[if |sig| < F then F else sig], n⟩⟩, wave, dw⟩) =
        (⟨f.noFloor, ⟨t', v, some ⟨[s], n⟩⟩, wave, dw⟩, .ok s) := by
  unfold applySigmaFloor AperFixed.noFloor
  by_cases ha : cfg.absvalsigma = true
  · by_cases h : |sig| < F
    · have h0 : |F| = F := abs_of_pos (lt_of_le_of_lt (abs_nonneg _) h)
      refine ⟨F, ?_, ?_⟩
      · simp [ha, hsf, hF, h]
      · simp [ha, h, h0]
    · refine ⟨|sig|, ?_, ?_⟩
      · simp [ha, hsf, hF, h]
      · simp [ha, h]
  · by_cases h : |sig| < F
    · refine ⟨F, ?_, ?_⟩
      · simp [ha, hsf, hF, h]
      · simp [ha, h]
    · refine ⟨sig, ?_, ?_⟩
      · simp [ha, hsf, hF, h]
      · simp [ha, h]

theorem downsample_floor (cfg : AperCfg) (f : AperFixed) (k k' : KinProfile) (wave : List ℝ) (dw : ℝ) (img : Option Arr2) :
    (downsample cfg ⟨f, k, wave, dw⟩ img).2 =
      (downsample { cfg with sigmaFloor := false } ⟨f.noFloor, k', wave, dw⟩ img).2 := by
  rcases img with _ | a
  · rfl
  · unfold downsample AperFixed.noFloor
    simp only
    split <;> rfl

theorem calcsAfter_floor (cfg : AperCfg) (f : AperFixed) (t t' : List ℝ) (v : Option Profile) (n : ℕ) (sig F : ℝ)
    (wave : List ℝ) (dw : ℝ) (hsf : cfg.sigmaFloor = true) (hF : f.floorValue = some F)
    (hlim : cfg.adaptive = true → ∀ lim, f.upsampleValue = some lim → |sig| < F → F < lim) :
    (calcsAfter cfg ⟨f, ⟨t, v, some ⟨[sig], n⟩⟩, wave, dw⟩).2 =
      (calcsAfter { cfg with sigmaFloor := false }
        ⟨f.noFloor, ⟨t', v, some ⟨[if |sig| < F then F else sig], n⟩⟩, wave, dw⟩).2 := by
  unfold calcsAfter
  have hup : ∃ w d r, (if cfg.adaptive = true then checkUpsample cfg ⟨f, ⟨t, v, some ⟨[sig], n⟩⟩, wave, dw⟩ else
        (⟨f, ⟨t, v, some ⟨[sig], n⟩⟩, wave, dw⟩, .ok ())) = (⟨f, ⟨t, v, some ⟨[sig], n⟩⟩, w, d⟩, r) ∧
      (if cfg.adaptive = true then checkUpsample { cfg with sigmaFloor := false }
          ⟨f.noFloor, ⟨t', v, some ⟨[if |sig| < F then F else sig], n⟩⟩, wave, dw⟩ else
        (⟨f.noFloor, ⟨t', v, some ⟨[if |sig| < F then F else sig], n⟩⟩, wave, dw⟩, .ok ())) =
        (⟨f.noFloor, ⟨t', v, some ⟨[if |sig| < F then F else sig], n⟩⟩, w, d⟩, r) := by
    by_cases ha : cfg.adaptive = true
    · rw [if_pos ha, if_pos ha]
      refine checkUpsample_floor cfg f t t' v n sig _ wave dw fun lim hl => ?_
      by_cases h : |sig| < F
      · have hFl := hlim ha lim hl h
        have h0 : |F| = F := abs_of_pos (lt_of_le_of_lt (abs_nonneg _) h)
        rw [if_pos h, h0]
        exact ⟨fun _ => hFl, fun _ => h.trans hFl⟩
      · rw [if_neg h]
    · rw [if_neg ha, if_neg ha]
      exact ⟨_, _, _, rfl, rfl⟩
  obtain ⟨w, d, r, h1, h2⟩ := hup
  simp only
  rw [h1, h2]
  rcases r with e | ⟨⟩
  · rfl
  · obtain ⟨s, h3, h4⟩ := applySigmaFloor_raise cfg f t t' v n sig F w d hsf hF
    simp only
    rw [h3, h4]
    simp only
    have he : evalImage { cfg with sigmaFloor := false } f.noFloor ⟨t', v, some ⟨[s], n⟩⟩ w s =
        evalImage cfg f ⟨t, v, some ⟨[s], n⟩⟩ w s := by
      have hm : KernelMissing { cfg with sigmaFloor := false } f.noFloor ↔ KernelMissing cfg f := Iff.rfl
      suffices hst : evalStages { cfg with sigmaFloor := false } f.noFloor ⟨t', v, some ⟨[s], n⟩⟩ w s =
          evalStages cfg f ⟨t, v, some ⟨[s], n⟩⟩ w s by
        unfold evalImage
        by_cases hc : KernelMissing cfg f
        · rw [if_pos (hm.2 hc), if_pos hc, hst]
        · rw [if_neg (fun h => hc (hm.1 h)), if_neg hc, hst]
      rw [evalStages_eq_tail, evalStages_eq_tail]
      have e1 : velCube { cfg with sigmaFloor := false } f.noFloor ⟨t', v, some ⟨[s], n⟩⟩ =
          velCube cfg f ⟨t, v, some ⟨[s], n⟩⟩ := rfl
      have e2 : instDisp { cfg with sigmaFloor := false } f.noFloor = instDisp cfg f := rfl
      rw [e1, e2]
      cases velCube cfg f ⟨t, v, some ⟨[s], n⟩⟩ with
      | none => rfl
      | some V => rfl
    rw [he]
    split
    · rfl
    · simp only
      by_cases ha : cfg.adaptive = true
      · rw [if_pos ha, if_pos ha, downsample_floor cfg f ⟨t, v, some ⟨[s], n⟩⟩ ⟨t', v, some ⟨[s], n⟩⟩ w d]
      · rw [if_neg ha, if_neg ha]

/-- setup with and without the floor -/
theorem setupArrays_floor (cfg : AperCfg) (va rt sig sig' m z : ℝ) :
    setupArrays { cfg with sigmaFloor := false } [va, rt, sig', m, z] =
      (setupArrays cfg [va, rt, sig, m, z]).map AperFixed.noFloor := by
  unfold setupArrays
  have h1 : ∀ s, fromEnd [va, rt, s, m, z] 1 = .ok z := fun s => rfl
  have h2 : ∀ s, fromEnd [va, rt, s, m, z] 2 = .ok m := fun s => rfl
  simp only [h1, h2, bind, Except.bind]
  split
  · rfl
  · split
    · rfl
    · rfl

theorem setupCalcs_floor (cfg : AperCfg) (va rt sig sig' m z : ℝ) :
    setupCalcs { cfg with sigmaFloor := false } [va, rt, sig', m, z] =
      (setupCalcs cfg [va, rt, sig, m, z]).map AperFixed.noFloor := by
  unfold setupCalcs
  rw [setupArrays_floor cfg va rt sig sig' m z]
  cases setupArrays cfg [va, rt, sig, m, z] with
  | error e => rfl
  | ok f =>
    have hm : ({ cfg with sigmaFloor := false } : AperCfg).psf.StampFails ↔ cfg.psf.StampFails := Iff.rfl
    by_cases hc : cfg.psf.StampFails
    · simp only [Except.map, if_pos hc]
    · simp only [Except.map, if_neg hc]

theorem setupCalcs_values (cfg : AperCfg) (va rt sig m z : ℝ) (f : AperFixed)
    (h : setupCalcs cfg [va, rt, sig, m, z] = .ok f) :
    f.floorValue = floorValueOf cfg (avgDiff cfg.wave) f.lam0 ∧
    f.upsampleValue = (if cfg.adaptive then pixelDispersion cfg.specType (avgDiff cfg.wave) f.lam0 else none) ∧
    (cfg.specType = .wave → ∃ r0, cfg.restwave[0]? = some r0 ∧ f.lam0 = r0 * (1 + z)) := by
  replace h := (setupCalcs_ok h).1
  unfold setupArrays at h
  have h1 : fromEnd [va, rt, sig, m, z] 1 = .ok z := rfl
  have h2 : fromEnd [va, rt, sig, m, z] 2 = .ok m := rfl
  simp only [h1, h2, bind, Except.bind] at h
  split at h
  · cases h
  · split at h
    · cases h
    · rename_i lam0 hl
      cases h
      refine ⟨rfl, rfl, fun hw => ?_⟩
      rw [hw] at hl
      simp only at hl
      split at hl
      · rename_i r hr
        cases hl
        exact ⟨r, hr, rfl⟩
      · cases hl

theorem builtImage_eq (cfg : AperCfg) (t v d : List ℝ) (va rt sig m z : ℝ) :
    builtImage cfg ⟨t, some ⟨v, 2⟩, some ⟨d, 1⟩⟩ [va, rt, sig, m, z] =
      match setupCalcs cfg [va, rt, sig, m, z] with
      | .error e => .error e
      | .ok f => (calcsAfter cfg ⟨f, ⟨[va, rt, sig, m, z], some ⟨[va, rt], 2⟩, some ⟨[sig], 1⟩⟩, cfg.wave,
          avgDiff cfg.wave⟩).2 := by
  unfold builtImage buildModel
  cases setupCalcs cfg [va, rt, sig, m, z] with
  | error e => rfl
  | ok f =>
    simp only
    rw [doModelCalcs_eq]
    simp only
    rw [fiducial_update]

/-- the floor of a model object that exists -/
theorem setup_floor (cfg : AperCfg) (va rt sig m z : ℝ) (f : AperFixed) (inVelocity : Bool) (first last rest0 : ℝ)
    (hsf : cfg.sigmaFloor = true) (hst : cfg.specType = if inVelocity then .velocity else .wave)
    (hfirst : cfg.wave.head? = some first) (hlast : cfg.wave.getLast? = some last)
    (hrest : cfg.restwave.head? = some rest0)
    (h : setupCalcs cfg [va, rt, sig, m, z] = .ok f) :
    f.floorValue = some (dispersionFloor cfg inVelocity first last rest0 z) ∧
    (cfg.adaptive = true → 1 ≤ cfg.factor → ∀ lim, f.upsampleValue = some lim →
      0 < dispersionFloor cfg inVelocity first last rest0 z →
      dispersionFloor cfg inVelocity first last rest0 z < lim) := by
  obtain ⟨h1, h2, h3⟩ := setupCalcs_values cfg va rt sig m z f h
  have hw := avgDiff_ends cfg.wave first last hfirst hlast
  have hp : ∀ w, pixelDispersion cfg.specType w f.lam0 = some (widthInKms inVelocity w (rest0 * (1 + z))) := by
    intro w
    cases inVelocity with
    | true => rw [hst]; rfl
    | false =>
      obtain ⟨r0, h4, h5⟩ := h3 hst
      rw [← List.head?_eq_getElem?, hrest] at h4
      cases h4
      rw [hst, h5]
      rfl
  have hscale : ∀ w, widthInKms inVelocity (w / cfg.factor) (rest0 * (1 + z)) =
      widthInKms inVelocity w (rest0 * (1 + z)) / cfg.factor := by
    intro w
    unfold widthInKms
    cases inVelocity <;> simp only [Bool.false_eq_true, if_true, if_false] <;> ring
  constructor
  · rw [h1]
    unfold floorValueOf dispersionFloor
    rw [if_pos hsf]
    split
    · rw [hp, hw]; rfl
    · rw [hp, hw]
  · intro ha hfac lim hl hpos
    rw [h2, if_pos ha, hp, hw] at hl
    cases hl
    unfold dispersionFloor at hpos ⊢
    rw [if_pos ha, hscale] at hpos ⊢
    set L := widthInKms inVelocity (pixelWidth first last cfg.wave.length) (rest0 * (1 + z))
    have hfp : 0 < cfg.factor := lt_of_lt_of_le one_pos hfac
    have hL : 0 < L := by
      by_contra hn
      have : L / cfg.factor ≤ 0 := div_nonpos_of_nonpos_of_nonneg (not_lt.1 hn) hfp.le
      linarith
    have : L / cfg.factor ≤ L := div_le_self hL.le hfac
    linarith

/-! ## C124 -/

/-- **C124**: for every configuration (spectral axis in wavelength or velocity, with or without PSF, instrumental
broadening, absolute values, refined wavelength grid), a model with dispersion floor gives for every parameter vector
what the model without floor (same refinement) gives with the dispersion raised to the floor if its absolute value is
smaller; same image or same exception.  The floor is one data pixel, or three quarters of a refined pixel. -/
theorem C124_floor (cfg : AperCfg) (t v d : List ℝ) (va rt sig m z : ℝ) (inVelocity : Bool) (first last rest0 : ℝ)
    (hsf : cfg.sigmaFloor = true) (hst : cfg.specType = if inVelocity then .velocity else .wave)
    (hfirst : cfg.wave.head? = some first) (hlast : cfg.wave.getLast? = some last)
    (hrest : cfg.restwave.head? = some rest0) (hfac : cfg.adaptive = true → 1 ≤ cfg.factor) :
    builtImage cfg ⟨t, some ⟨v, 2⟩, some ⟨d, 1⟩⟩ [va, rt, sig, m, z] =
      builtImage { cfg with sigmaFloor := false } ⟨t, some ⟨v, 2⟩, some ⟨d, 1⟩⟩
        [va, rt, if |sig| < dispersionFloor cfg inVelocity first last rest0 z then
          dispersionFloor cfg inVelocity first last rest0 z else sig, m, z] := by
  rw [builtImage_eq, builtImage_eq, setupCalcs_floor cfg va rt sig]
  cases hs : setupCalcs cfg [va, rt, sig, m, z] with
  | error e => rfl
  | ok f =>
    obtain ⟨h1, h2⟩ := setup_floor cfg va rt sig m z f inVelocity first last rest0 hsf hst hfirst hlast hrest hs
    exact calcsAfter_floor cfg f _ _ _ 1 sig _ cfg.wave (avgDiff cfg.wave) hsf h1
      (fun ha lim hl hlt => h2 ha (hfac ha) lim hl (lt_of_le_of_lt (abs_nonneg _) hlt))

/-- **C124**, consequence: below the floor the dispersion has no effect on the model. -/
theorem C124_flat (cfg : AperCfg) (t v d : List ℝ) (va rt sig sig' m z : ℝ) (inVelocity : Bool) (first last rest0 : ℝ)
    (hsf : cfg.sigmaFloor = true) (hst : cfg.specType = if inVelocity then .velocity else .wave)
    (hfirst : cfg.wave.head? = some first) (hlast : cfg.wave.getLast? = some last)
    (hrest : cfg.restwave.head? = some rest0) (hfac : cfg.adaptive = true → 1 ≤ cfg.factor)
    (h : |sig| < dispersionFloor cfg inVelocity first last rest0 z)
    (h' : |sig'| < dispersionFloor cfg inVelocity first last rest0 z) :
    builtImage cfg ⟨t, some ⟨v, 2⟩, some ⟨d, 1⟩⟩ [va, rt, sig, m, z] =
      builtImage cfg ⟨t, some ⟨v, 2⟩, some ⟨d, 1⟩⟩ [va, rt, sig', m, z] := by
  rw [C124_floor cfg t v d va rt sig m z inVelocity first last rest0 hsf hst hfirst hlast hrest hfac,
    C124_floor cfg t v d va rt sig' m z inVelocity first last rest0 hsf hst hfirst hlast hrest hfac, if_pos h, if_pos h']

/-- **C124**, the remaining case: with a spectral axis that is neither `'wave'` nor `'velocity'` there is no floor value
and every evaluation whose object exists is a TypeError. -/
theorem C124_no_axis (cfg : AperCfg) (t v d : List ℝ) (va rt sig m z : ℝ) (f : AperFixed)
    (hsf : cfg.sigmaFloor = true) (hst : cfg.specType = .other)
    (hs : setupCalcs cfg [va, rt, sig, m, z] = .ok f) :
    builtImage cfg ⟨t, some ⟨v, 2⟩, some ⟨d, 1⟩⟩ [va, rt, sig, m, z] = .error .typeError := by
  rw [builtImage_eq, hs]
  obtain ⟨h1, h2, _⟩ := setupCalcs_values cfg va rt sig m z f hs
  have hfl : f.floorValue = none := by
    rw [h1]; unfold floorValueOf
    rw [if_pos hsf, hst]
    split <;> rfl
  have hup : f.upsampleValue = none := by
    rw [h2, hst]; split <;> rfl
  simp only
  unfold calcsAfter
  by_cases ha : cfg.adaptive = true
  · have : checkUpsample cfg ⟨f, ⟨[va, rt, sig, m, z], some ⟨[va, rt], 2⟩, some ⟨[sig], 1⟩⟩, cfg.wave, avgDiff cfg.wave⟩ =
        (⟨f, ⟨[va, rt, sig, m, z], some ⟨[va, rt], 2⟩, some ⟨[sig], 1⟩⟩, cfg.wave, avgDiff cfg.wave⟩, .error .typeError) := by
      unfold checkUpsample
      simp only [hup]
    simp only
    rw [if_pos ha, this]
  · simp only
    rw [if_neg ha]
    have : (applySigmaFloor cfg ⟨f, ⟨[va, rt, sig, m, z], some ⟨[va, rt], 2⟩, some ⟨[sig], 1⟩⟩, cfg.wave,
        avgDiff cfg.wave⟩).2 = .error .typeError := by
      unfold applySigmaFloor
      by_cases hb : cfg.absvalsigma = true <;> simp [hsf, hfl, hb]
    simp only
    rw [this]

/-- example: one galaxy pixel, three wavelengths, floor on; the floor is positive, so dispersions on both sides of it
exist, and the image without floor changes with the dispersion (`cellSpec_redshift` is such a change) -/
noncomputable def floorCell : AperCfg := { oneCell [1, 2, 3] false true 3 with sigmaFloor := true }

example : floorCell.sigmaFloor = true ∧ floorCell.specType = .wave ∧ floorCell.wave.head? = some 1 ∧
    floorCell.wave.getLast? = some 3 ∧ floorCell.restwave.head? = some 1 := ⟨rfl, rfl, rfl, rfl, rfl⟩

example : dispersionFloor floorCell false 1 3 1 0 = cKms / 2.35 ∧ 0 < dispersionFloor floorCell false 1 3 1 0 := by
  have h : dispersionFloor floorCell false 1 3 1 0 = cKms / 2.35 := by
    unfold dispersionFloor widthInKms pixelWidth floorCell oneCell
    norm_num
  exact ⟨h, by rw [h]; exact div_pos cKms_pos (by norm_num)⟩

/-- its image below the floor is the spectrum at the floor, not a spike -/
example : builtImage floorCell ⟨[], some ⟨[], 2⟩, some ⟨[], 1⟩⟩ [0, 1, 0, 0, 0] =
    .ok (some ⟨1, 3, fun _ w => cellSpec (cKms / 2.35) 0 (([1, 2, 3] : List ℝ).get w)⟩) := by
  have hF : dispersionFloor floorCell false 1 3 1 0 = cKms / 2.35 := by
    unfold dispersionFloor widthInKms pixelWidth floorCell oneCell
    norm_num
  have hpos : (0 : ℝ) < cKms / 2.35 := div_pos cKms_pos (by norm_num)
  rw [C124_floor floorCell [] [] [] 0 1 0 0 0 false 1 3 1 rfl rfl rfl rfl rfl (fun h => absurd h Bool.false_ne_true), hF,
    abs_zero, if_pos hpos]
  have hc : ({ floorCell with sigmaFloor := false } : AperCfg) = oneCell [1, 2, 3] false true 3 := rfl
  rw [hc]
  unfold builtImage
  rw [one_build [1, 2, 3] true 3 [] [] [] 0 1 (cKms / 2.35) 0 one_ne_zero hpos.ne' (by norm_num) (by simp)]
  rfl

end Misfit
