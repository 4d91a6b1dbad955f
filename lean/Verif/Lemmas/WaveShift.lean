import Verif.Model.WaveShift
import Verif.Lemmas.ImageForm
import Verif.Lemmas.Trim
import Verif.Lemmas.Aper1D

/-! Helper lemmas for the positional wavelength shift (C202) -/

namespace Misfit

theorem instConst_ok (wave : List ℝ) (d : ℝ) (img : Option Arr2) : ∃ r, instConst wave d img = .ok r := by
  unfold instConst instStage instConvolComplete
  rcases img with _ | a
  · exact ⟨_, rfl⟩
  · simp only
    by_cases h : a.n = wave.length
    · rw [dif_pos h]
      by_cases hd : 0 < d
      · simp only [if_pos hd]
        split
        · rename_i h; cases h
        · exact ⟨_, rfl⟩
        · exact ⟨_, rfl⟩
      · simp only [if_neg hd]
        exact ⟨_, rfl⟩
    · rw [dif_neg h]
      exact ⟨_, rfl⟩

theorem evalStages_eq_cube (cfg : AperCfg) (f : AperFixed) (kin : KinProfile) (wave : List ℝ) (sig : ℝ) :
    evalStages cfg f kin wave sig = match cubeStages cfg f (velCube cfg f kin) wave sig with
      | .error e => .error e
      | .ok r => instConst wave (instDisp cfg f) r := by
  unfold evalStages cubeStages
  cases velCube cfg f kin with
  | none => simp only; split <;> rfl
  | some V =>
    simp only
    cases addSigmaCollapseZ f.I V (fun _ _ _ => sig) wave.get f.z cfg.restwave
            cfg.ratios f.grid.deltZ cfg.specType with
    | error e => rfl
    | ok c0 =>
      simp only
      split
      · rfl
      · cases allFinite c0 with
        | none => rfl
        | some cube =>
          simp only
          cases allFinite (psfConvolve cube cfg.psf.fwhm (cfg.psf.stamp f.xTrim f.yTrim)) with
          | none => rfl
          | some conv =>
            simp only
            split
            · rename_i h
              cases (if cfg.rebinOutput = true then rebinArr ⟨wave.length, f.grid.nPixY,
                trimSum conv f.grid h.1 h.2⟩ wave.length cfg.nWhole else .ok ⟨wave.length, f.grid.nPixY,
                trimSum conv f.grid h.1 h.2⟩) with
              | error e => rfl
              | ok a => rfl
            · rfl

/-- the plain evaluation in terms of the stages of the evaluation with shifts -/
theorem evalImage_eq_cube (cfg : AperCfg) (f : AperFixed) (kin : KinProfile) (wave : List ℝ) (sig : ℝ) :
    evalImage cfg f kin wave sig = match cubeImage cfg f (velCube cfg f kin) wave sig with
      | .error e => .error e
      | .ok r => instConst wave (instDisp cfg f) r := by
  unfold evalImage cubeImage
  rw [evalStages_eq_cube]
  cases cubeStages cfg f (velCube cfg f kin) wave sig with
  | error e => split <;> rfl
  | ok r =>
    obtain ⟨x, hx⟩ := instConst_ok wave (instDisp cfg f) r
    simp only [hx]
    split <;> simp_all

/-- the part of an evaluation before the positional shift -/
noncomputable def prepCalcs (cfg : AperCfg) (s : AperState) (theta : List ℝ) : AperState × Except PyErr ℝ :=
  match s.kin.updateTheta theta with
  | .error e => (s, .error e)
  | .ok k =>
    let up := if cfg.adaptive then checkUpsample cfg { s with kin := k } else ({ s with kin := k }, .ok ())
    match up.2 with
    | .error e => (up.1, .error e)
    | .ok () => applySigmaFloor cfg up.1

theorem prepCalcs_fixed (cfg : AperCfg) (s : AperState) (theta : List ℝ) :
    (prepCalcs cfg s theta).1.fixed = s.fixed := by
  unfold prepCalcs
  cases s.kin.updateTheta theta with
  | error e => rfl
  | ok k =>
    simp only
    have hup : (if cfg.adaptive = true then checkUpsample cfg { s with kin := k }
        else ({ s with kin := k }, .ok ())).1.fixed = s.fixed := by
      split
      · exact (checkUpsample_kin cfg _).2
      · rfl
    split
    · exact hup
    · exact (applySigmaFloor_keeps cfg _).1.trans hup

/-- the part from the positional shift on -/
noncomputable def shiftRest (o : ShiftOpts) (cfg : AperCfg) (fit : RowFit) (s : ShiftState) (sig : ℝ) :
    ShiftState × Except PyErr (Option Arr2) :=
  let sh := shiftStep o cfg fit s
  match sh.2 with
  | .error e => (sh.1, .error e)
  | .ok () =>
    let b := sh.1.base
    match cubeImage cfg b.fixed (shiftedVel o cfg b.fixed b.kin sh.1.delta) b.wave sig with
    | .error e => (sh.1, .error e)
    | .ok img =>
      let ip := instPhase o cfg b.fixed b.wave sh.1.disp img
      match ip.2 with
      | .error e => ({ sh.1 with disp := ip.1 }, .error e)
      | .ok img =>
        let ds := if cfg.adaptive then downsample cfg b img else (b, .ok img)
        (⟨ds.1, sh.1.delta, ip.1⟩, ds.2.map fun o => o.map Arr2.T)

theorem shiftCalcs_eq (o : ShiftOpts) (cfg : AperCfg) (fit : RowFit) (s : ShiftState) (theta : List ℝ) :
    shiftCalcs o cfg fit s theta = match (prepCalcs cfg s.base theta).2 with
      | .error e => ({ s with base := (prepCalcs cfg s.base theta).1 }, .error e)
      | .ok sig => shiftRest o cfg fit { s with base := (prepCalcs cfg s.base theta).1 } sig := by
  unfold shiftCalcs prepCalcs
  cases s.base.kin.updateTheta theta with
  | error e => rfl
  | ok k =>
    simp only
    generalize (if cfg.adaptive = true then checkUpsample cfg _ else _) = up
    obtain ⟨u1, u2⟩ := up
    cases u2 with
    | error e => rfl
    | ok u =>
      simp only
      generalize applySigmaFloor cfg u1 = fl
      obtain ⟨f1, f2⟩ := fl
      cases f2 <;> rfl

theorem doModelCalcs_eq_prep (cfg : AperCfg) (s : AperState) (theta : List ℝ) :
    doModelCalcs cfg s theta = match (prepCalcs cfg s theta).2 with
      | .error e => ((prepCalcs cfg s theta).1, .error e)
      | .ok sig =>
        match evalImage cfg (prepCalcs cfg s theta).1.fixed (prepCalcs cfg s theta).1.kin
            (prepCalcs cfg s theta).1.wave sig with
        | .error e => ((prepCalcs cfg s theta).1, .error e)
        | .ok img =>
          let ds := if cfg.adaptive then downsample cfg (prepCalcs cfg s theta).1 img
            else ((prepCalcs cfg s theta).1, .ok img)
          (ds.1, ds.2.map fun o => o.map Arr2.T) := by
  unfold doModelCalcs prepCalcs
  cases s.kin.updateTheta theta with
  | error e => rfl
  | ok k =>
    simp only
    generalize (if cfg.adaptive = true then checkUpsample cfg _ else _) = up
    obtain ⟨u1, u2⟩ := up
    cases u2 with
    | error e => rfl
    | ok u =>
      simp only
      generalize applySigmaFloor cfg u1 = fl
      obtain ⟨f1, f2⟩ := fl
      cases f2 <;> rfl

theorem shiftStep_base (o : ShiftOpts) (cfg : AperCfg) (fit : RowFit) (s : ShiftState) :
    (shiftStep o cfg fit s).1.base = s.base := by
  unfold shiftStep
  split
  · split
    · rfl
    · rfl
    · split <;> rfl
  · rfl

theorem downsample_fixed (cfg : AperCfg) (s : AperState) (img : Option Arr2) :
    (downsample cfg s img).1.fixed = s.fixed := by
  unfold downsample
  split
  · rfl
  · simp only
    split <;> rfl

theorem shiftCalcs_fixed (o : ShiftOpts) (cfg : AperCfg) (fit : RowFit) (s : ShiftState) (theta : List ℝ) :
    (shiftCalcs o cfg fit s theta).1.base.fixed = s.base.fixed := by
  rw [shiftCalcs_eq]
  have hp := prepCalcs_fixed cfg s.base theta
  cases (prepCalcs cfg s.base theta).2 with
  | error e => exact hp
  | ok sig =>
    simp only
    unfold shiftRest
    have hb := shiftStep_base o cfg fit { s with base := (prepCalcs cfg s.base theta).1 }
    simp only at hb
    generalize shiftStep o cfg fit { s with base := (prepCalcs cfg s.base theta).1 } = sh at hb
    obtain ⟨sh1, sh2⟩ := sh
    simp only at hb ⊢
    rw [← hb] at hp
    cases sh2 with
    | error e => exact hp
    | ok u =>
      simp only
      split
      · exact hp
      · split
        · exact hp
        · simp only
          split
          · exact (downsample_fixed cfg _ _).trans hp
          · exact hp

/-- an evaluation whose velocities are not shifted is the plain one -/
theorem shiftCalcs_plain (o : ShiftOpts) (ho : o.shift = false) (cfg : AperCfg) (fit : RowFit) (s : ShiftState)
    (theta : List ℝ) (h : ∀ b : AperState, b.fixed = s.base.fixed →
      (shiftStep o cfg fit { s with base := b }).2 = .ok ()) :
    (shiftCalcs o cfg fit s theta).2 = (doModelCalcs cfg s.base theta).2 ∧
      (shiftCalcs o cfg fit s theta).1.base = (doModelCalcs cfg s.base theta).1 := by
  rw [shiftCalcs_eq, doModelCalcs_eq_prep]
  have hp := prepCalcs_fixed cfg s.base theta
  generalize prepCalcs cfg s.base theta = P at hp
  obtain ⟨b, r⟩ := P
  cases r with
  | error e => exact ⟨rfl, rfl⟩
  | ok sig =>
    simp only at hp ⊢
    have hs := h b hp
    have hb := shiftStep_base o cfg fit { s with base := b }
    unfold shiftRest
    simp only at hb ⊢
    generalize shiftStep o cfg fit { s with base := b } = sh at hs hb
    obtain ⟨⟨b', d, i⟩, r⟩ := sh
    simp only at hs hb
    subst hs hb
    have hv : shiftedVel o cfg b'.fixed b'.kin d = velCube cfg b'.fixed b'.kin := by
      unfold shiftedVel
      rw [ho]
    simp only [hv]
    rw [evalImage_eq_cube]
    cases cubeImage cfg b'.fixed (velCube cfg b'.fixed b'.kin) b'.wave sig with
    | error e => exact ⟨rfl, rfl⟩
    | ok r =>
      have hi : instPhase o cfg b'.fixed b'.wave i r =
          (.scalar (instDisp cfg b'.fixed), instConst b'.wave (instDisp cfg b'.fixed) r) := by
        unfold instPhase
        rw [ho]
        rfl
      simp only [hi]
      obtain ⟨x, hx⟩ := instConst_ok b'.wave (instDisp cfg b'.fixed) r
      rw [hx]
      exact ⟨rfl, rfl⟩

/-- the two outcomes of the check of the slit -/
theorem checkSlitIllum_form (xs ms : List ℝ) (mu fwhm w : ℝ) :
    ∃ (B : Bool) (g half : ℝ), (B = false → ¬ mu - 0.5 * fwhm < -0.5 * w ∧ ¬ mu + 0.5 * fwhm > 0.5 * w) ∧
      checkSlitIllum xs ms mu fwhm w = if B = true then
        (match (if g = 0 then
            match xs[argmaxL ms]?, xs[argminL (ms.map fun v => |v - half|)]? with
            | some a, some b => .ok (a - b)
            | _, _ => .error .valueError
          else .ok g : Except PyErr ℝ) with
        | .error e => .error e
        | .ok f' => .ok (if (if mu > 0.5 * w then 0.5 * w else mu) < -0.5 * w then -0.5 * w
            else if mu > 0.5 * w then 0.5 * w else mu, f')) else .ok (mu, fwhm) := by
  refine ⟨_, _, _, ?_, rfl⟩
  intro h
  simp only [Bool.or_eq_false_iff, decide_eq_false_iff_not] at h
  exact ⟨h.1.1.1, h.1.1.2⟩

/-- the centroid given by the check of the slit is the fitted centre clipped to the slit -/
theorem checkSlitIllum_centre (xs ms : List ℝ) (mu fwhm w d f : ℝ) (hf : 0 ≤ fwhm) (hw : 0 ≤ w)
    (h : checkSlitIllum xs ms mu fwhm w = .ok (d, f)) : d = max (-(w / 2)) (min mu (w / 2)) := by
  have hclip : ∀ m : ℝ, (if (if m > 0.5 * w then 0.5 * w else m) < -0.5 * w then -0.5 * w
        else if m > 0.5 * w then 0.5 * w else m) = max (-(w / 2)) (min m (w / 2)) := by
    intro m
    have e1 : (0.5 : ℝ) * w = w / 2 := by ring
    have e2 : (-0.5 : ℝ) * w = -(w / 2) := by ring
    rw [e1, e2]
    have e3 : (if m > w / 2 then w / 2 else m) = min m (w / 2) := by
      rw [min_def]
      split_ifs <;> first | rfl | linarith
    rw [e3, max_def]
    split_ifs <;> first | rfl | linarith
  obtain ⟨B, g, half, hB, e⟩ := checkSlitIllum_form xs ms mu fwhm w
  rw [e] at h
  cases B with
  | true =>
    rw [if_pos rfl] at h
    split at h
    · cases h
    · rw [hclip] at h
      exact (Prod.mk.inj (Except.ok.inj h)).1.symm
  | false =>
    rw [if_neg Bool.false_ne_true] at h
    obtain ⟨rfl, rfl⟩ := Prod.mk.inj (Except.ok.inj h)
    have hm' := hB rfl
    rw [min_eq_left (by linarith [hm'.2]), max_eq_right (by linarith [hm'.1])]

theorem checkSlitIllum_ok (xs ms : List ℝ) (mu fwhm w : ℝ) (hx : xs ≠ []) (hl : ms.length = xs.length) :
    ∃ d f, checkSlitIllum xs ms mu fwhm w = .ok (d, f) := by
  have hms : ms ≠ [] := by intro h; rw [h] at hl; exact hx (List.length_eq_zero_iff.1 hl.symm)
  obtain ⟨h1, -⟩ := argmaxL_spec ms hms
  obtain ⟨B, g, half, -, e⟩ := checkSlitIllum_form xs ms mu fwhm w
  obtain ⟨h2, -⟩ := argmaxL_spec ((ms.map fun v => |v - half|).map fun v => -v) (by simpa using hms)
  have h2' : argminL (ms.map fun v => |v - half|) < xs.length := by
    unfold argminL
    simpa [hl] using h2
  rw [e]
  cases B with
  | false => exact ⟨_, _, rfl⟩
  | true =>
    rw [if_pos rfl, List.getElem?_eq_getElem (hl ▸ h1), List.getElem?_eq_getElem h2']
    by_cases hg : g = 0
    · rw [if_pos hg]
      exact ⟨_, _, rfl⟩
    · rw [if_neg hg]
      exact ⟨_, _, rfl⟩

end Misfit
