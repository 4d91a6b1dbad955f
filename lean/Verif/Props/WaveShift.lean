import Verif.Props.ImageForm
import Verif.Props.Aper1D
import Verif.Lemmas.WaveShift

/-!
# C202: the options for a wavelength shift by position in the slit

`o.shift` is `do_position_wave_shift`, `o.eff` is `do_inst_res_conv_effective`; `fit` is the Gaussian fit of the
light in one row of the grid.
-/

namespace Misfit

/-! ## The specification -/

/-- a sequence of evaluations with the same options -/
noncomputable def runShift (o : ShiftOpts) (cfg : AperCfg) (fit : RowFit) (s : ShiftState) (hist : List (List ℝ)) :
    ShiftState := hist.foldl (fun s theta => (shiftCalcs o cfg fit s theta).1) s

/-- factor between FWHM and dispersion of a Gaussian -/
noncomputable def resFactor : ℝ := 2 * Real.sqrt (2 * Real.log 2)

theorem resFactor_pos : 0 < resFactor := by
  have : 0 < Real.log 2 := Real.log_pos (by norm_num)
  unfold resFactor
  positivity

/-- the velocity offset of light centred at `mu` arcsec from the middle of the slit: the FWHM of the instrument's
resolution in km/s is the velocity range across the slit; light outside the slit counts at the edge -/
noncomputable def slitOffset (res w mu : ℝ) : ℝ := max (-(w / 2)) (min mu (w / 2)) / w * (res * resFactor)

/-- positions of the subpixels across the slit -/
noncomputable def slitX (cfg : AperCfg) : List ℝ :=
  (List.range (slitCells cfg)).map fun a => skyX (slitCells cfg) cfg.slit cfg.xc a

/-- light of the disc in subpixel row `b`, for each subpixel across the slit -/
noncomputable def rowLight (cfg : AperCfg) (m0 : ℝ) (b : ℕ) : List (Fl ℝ) :=
  (List.range (slitCells cfg)).map fun a => .fin (∑ c ∈ Finset.range (cfg.nWhole * cfg.nSubpixels),
    let p := discPoint cfg.sini cfg.deltPA (skyX (slitCells cfg) cfg.slit cfg.xc a)
      (skyY cfg.nWhole cfg.nSubpixels cfg.pixscale m0 b)
      (skyZ (cfg.nWhole * cfg.nSubpixels) (cfg.pixscale / cfg.nSubpixels) c)
    cfg.int (Real.sqrt (p.1 ^ 2 + p.2.1 ^ 2)) p.2.2)

/-- the pixel of `pixelSpec` when the light of subpixel row `b` is shifted by the velocity `δ b` -/
noncomputable def pixelSpecShift (cfg : AperCfg) (va rt sig m0 z : ℝ) (δ : ℕ → ℝ) (i : ℕ) (lam : ℝ) : ℝ :=
  ∑ t ∈ Finset.range cfg.nSubpixels, ∑ a ∈ Finset.range (slitCells cfg),
    ∑ c ∈ Finset.range (cfg.nWhole * cfg.nSubpixels),
      cellLightAt cfg va rt sig z (δ (i * cfg.nSubpixels + t)) (skyX (slitCells cfg) cfg.slit cfg.xc a)
        (skyY cfg.nWhole cfg.nSubpixels cfg.pixscale m0 (i * cfg.nSubpixels + t))
        (skyZ (cfg.nWhole * cfg.nSubpixels) (cfg.pixscale / cfg.nSubpixels) c) lam *
      (cfg.pixscale / cfg.nSubpixels) * (cfg.slit / slitCells cfg)

/-- the fits of all rows succeed with positive widths -/
def RowFits (cfg : AperCfg) (m0 : ℝ) (fit : RowFit) (A mu F : ℕ → ℝ) : Prop :=
  ∀ b < cfg.nWhole * cfg.nSubpixels, fit (slitX cfg) (rowLight cfg m0 b) = .ok (A b, mu b, F b) ∧ 0 < F b

/-! ## Options that leave the velocities alone -/

theorem runShift_plain (o : ShiftOpts) (ho : o.shift = false) (cfg : AperCfg) (fit : RowFit) (f : AperFixed)
    (h : ∀ s : ShiftState, s.base.fixed = f → (shiftStep o cfg fit s).2 = .ok ()) :
    ∀ (hist : List (List ℝ)) (s : ShiftState), s.base.fixed = f →
      (runShift o cfg fit s hist).base = runUpdates cfg s.base hist ∧ (runShift o cfg fit s hist).base.fixed = f := by
  intro hist
  induction hist with
  | nil => exact fun s hs => ⟨rfl, hs⟩
  | cons th hist ih =>
    intro s hs
    have h1 := (shiftCalcs_plain o ho cfg fit s th fun b hb => h _ (hb.trans hs)).2
    have h2 := ih (shiftCalcs o cfg fit s th).1 ((shiftCalcs_fixed o cfg fit s th).trans hs)
    rw [h1] at h2
    exact h2

theorem build_plain (o : ShiftOpts) (ho : o.shift = false) (cfg : AperCfg) (fit : RowFit) (kin : KinProfile)
    (theta : List ℝ) (f : AperFixed) (hf : setupCalcs cfg theta = .ok f)
    (h : ∀ s : ShiftState, s.base.fixed = f → (shiftStep o cfg fit s).2 = .ok ()) :
    ∃ s s' r, buildModel cfg kin theta = .ok (s, r) ∧ buildShift o cfg fit kin theta = .ok (s', r) ∧
      ∀ hist th, (shiftCalcs o cfg fit (runShift o cfg fit s' hist) th).2 =
        (updateModel cfg (runUpdates cfg s hist) th).2 := by
  have h1 := shiftCalcs_plain o ho cfg fit ⟨⟨f, kin, cfg.wave, avgDiff cfg.wave⟩, none, .unset⟩ theta
    fun b hb => h _ hb
  refine ⟨_, (shiftCalcs o cfg fit ⟨⟨f, kin, cfg.wave, avgDiff cfg.wave⟩, none, .unset⟩ theta).1, _,
    by unfold buildModel; rw [hf], ?_, fun hist th => ?_⟩
  · unfold buildShift
    rw [hf]
    simp only
    rw [← h1.1]
  · have h2 := runShift_plain o ho cfg fit f h hist
      (shiftCalcs o cfg fit ⟨⟨f, kin, cfg.wave, avgDiff cfg.wave⟩, none, .unset⟩ theta).1 (shiftCalcs_fixed _ _ _ _ _)
    have h3 := (shiftCalcs_plain o ho cfg fit (runShift o cfg fit (shiftCalcs o cfg fit
      ⟨⟨f, kin, cfg.wave, avgDiff cfg.wave⟩, none, .unset⟩ theta).1 hist) th fun b hb => h _ (hb.trans h2.2)).1
    rw [h3, h2.1, h1.2]
    rfl

/-- **C202** With both options off the model is the plain one: construction and every sequence of evaluations give
the same images and exceptions. -/
theorem C202_off (cfg : AperCfg) (fit : RowFit) (kin : KinProfile) (theta : List ℝ) (f : AperFixed)
    (hf : setupCalcs cfg theta = .ok f) :
    ∃ s s' r, buildModel cfg kin theta = .ok (s, r) ∧ buildShift ⟨false, false⟩ cfg fit kin theta = .ok (s', r) ∧
      ∀ hist th, (shiftCalcs ⟨false, false⟩ cfg fit (runShift ⟨false, false⟩ cfg fit s' hist) th).2 =
        (updateModel cfg (runUpdates cfg s hist) th).2 :=
  build_plain _ rfl cfg fit kin theta f hf fun _ _ => rfl

/-- C202 is false of the option for the effective resolution alone: when the fits of the rows succeed it changes no
image, whatever the fitted widths. -/
theorem C202_false_effective (cfg : AperCfg) (fit : RowFit) (kin : KinProfile) (theta : List ℝ) (f : AperFixed)
    (hf : setupCalcs cfg theta = .ok f) (r : List ℝ × List (Fl ℝ)) (hr : calcShift cfg f fit = .ok r) :
    ∃ s s' r, buildModel cfg kin theta = .ok (s, r) ∧ buildShift ⟨false, true⟩ cfg fit kin theta = .ok (s', r) ∧
      ∀ hist th, (shiftCalcs ⟨false, true⟩ cfg fit (runShift ⟨false, true⟩ cfg fit s' hist) th).2 =
        (updateModel cfg (runUpdates cfg s hist) th).2 := by
  refine build_plain _ rfl cfg fit kin theta f hf fun s hs => ?_
  unfold shiftStep
  rw [hs, hr]
  simp only [Bool.or_true, if_true]
  split <;> rfl

/-- If the fit of a row raises, no evaluation with one of the options returns an image. -/
theorem C202_fit_fails (o : ShiftOpts) (ho : (o.shift || o.eff) = true) (cfg : AperCfg) (fit : RowFit)
    (kin : KinProfile) (theta : List ℝ) (f : AperFixed) (hf : setupCalcs cfg theta = .ok f) (e : PyErr)
    (hr : calcShift cfg f fit = .error e) :
    ∃ s r, buildShift o cfg fit kin theta = .ok (s, r) ∧ (∀ img, r ≠ .ok img) ∧
      ∀ hist th img, (shiftCalcs o cfg fit (runShift o cfg fit s hist) th).2 ≠ .ok img := by
  have key : ∀ (s : ShiftState) (th : List ℝ), s.base.fixed = f → s.delta = none →
      (∀ img, (shiftCalcs o cfg fit s th).2 ≠ .ok img) ∧ (shiftCalcs o cfg fit s th).1.delta = none ∧
        (shiftCalcs o cfg fit s th).1.base.fixed = f := by
    intro s th hs hd
    refine ⟨?_, ?_, (shiftCalcs_fixed o cfg fit s th).trans hs⟩
    all_goals
      rw [shiftCalcs_eq]
      have hp := (prepCalcs_fixed cfg s.base th).trans hs
      have hstep : shiftStep o cfg fit { s with base := (prepCalcs cfg s.base th).1 } =
          ({ s with base := (prepCalcs cfg s.base th).1 }, .error e) := by
        unfold shiftStep
        rw [if_pos ho]
        simp only [hd, hp, hr]
      cases (prepCalcs cfg s.base th).2 with
      | error e' => first | exact hd | exact fun img h => by cases h
      | ok sig =>
        simp only
        unfold shiftRest
        rw [hstep]
        first | exact hd | exact fun img h => by cases h
  have hrun : ∀ (hist : List (List ℝ)) (s : ShiftState), s.base.fixed = f → s.delta = none →
      (runShift o cfg fit s hist).base.fixed = f ∧ (runShift o cfg fit s hist).delta = none := by
    intro hist
    induction hist with
    | nil => exact fun s h1 h2 => ⟨h1, h2⟩
    | cons th hist ih =>
      intro s h1 h2
      exact ih _ (key s th h1 h2).2.2 (key s th h1 h2).2.1
  have h0 := key ⟨⟨f, kin, cfg.wave, avgDiff cfg.wave⟩, none, .unset⟩ theta rfl rfl
  refine ⟨_, _, by unfold buildShift; rw [hf], h0.1, fun hist th => ?_⟩
  have h1 := hrun hist _ h0.2.2 h0.2.1
  exact (key _ th h1.1 h1.2).1

/-! ## The shift in velocity mode -/

/-- C202 is false of models in velocity mode: with the positional shift no evaluation returns an image. -/
theorem C202_false_velocity (o : ShiftOpts) (ho : o.shift = true) (cfg : AperCfg) (hv : cfg.specType = .velocity)
    (fit : RowFit) (s : ShiftState) (theta : List ℝ) (img : Option Arr2) :
    (shiftCalcs o cfg fit s theta).2 ≠ .ok img := by
  rw [shiftCalcs_eq]
  cases (prepCalcs cfg s.base theta).2 with
  | error e => exact fun h => by cases h
  | ok sig =>
    simp only
    unfold shiftRest
    simp only
    split
    · exact fun h => by cases h
    · split
      · exact fun h => by cases h
      · have hi : ∀ f w d r, (instPhase o cfg f w d r).2 = .error .valueError := by
          intro f w d r
          unfold instPhase
          rw [if_pos ho, hv]
        rw [hi]
        exact fun h => by cases h

/-! ## The shifts -/

theorem velShift_offset (res w lam0 mu : ℝ) (hr : 0 < res) (hw : 0 < w) (hl : 0 < lam0) :
    velShift (cKms / (res * (2 * Real.sqrt (2 * Real.log 2)))) w w lam0 (max (-(w / 2)) (min mu (w / 2))) cKms =
      slitOffset res w mu := by
  have hc := cKms_pos
  have hF := resFactor_pos
  have e : (2 * Real.sqrt (2 * Real.log 2)) = resFactor := rfl
  unfold velShift slitOffset
  rw [e]
  field_simp

/-- a row whose fit succeeds: the shift is the offset of the fitted centre -/
theorem rowShift_ok (fit : RowFit) (xs : List ℝ) (hx : xs ≠ []) (res w lam0 : ℝ) (hr : 0 < res) (hw : 0 < w)
    (hl : 0 < lam0) (row : List (Fl ℝ)) (A mu F : ℝ) (hfit : fit xs row = .ok (A, mu, F)) (hF : 0 ≤ F) :
    ∃ d f, checkSlitIllum xs (xs.map (slitGauss A mu F)) mu F w = .ok (d, f) ∧
      rowShift fit xs res w lam0 row = .ok (slitOffset res w mu,
        rowDisp (cKms / (res * (2 * Real.sqrt (2 * Real.log 2)))) w lam0 f) := by
  obtain ⟨d, f, h⟩ := checkSlitIllum_ok xs (xs.map (slitGauss A mu F)) mu F w hx (by simp)
  refine ⟨d, f, h, ?_⟩
  have hd := checkSlitIllum_centre _ _ _ _ _ _ _ hF hw.le h
  unfold rowShift
  rw [hfit]
  simp only [h, if_neg hr.ne']
  rw [hd, velShift_offset res w lam0 mu hr hw hl]

theorem mapM_ok_inv {α β : Type} (g : α → Except PyErr β) :
    ∀ (l : List α) (r : List β), l.mapM g = .ok r → List.Forall₂ (fun a b => g a = .ok b) l r := by
  intro l
  induction l with
  | nil => intro r h; cases h; exact .nil
  | cons a l ih =>
    intro r h
    rw [List.mapM_cons] at h
    cases ha : g a with
    | error e => rw [ha] at h; cases h
    | ok b =>
      rw [ha] at h
      cases hl : l.mapM g with
      | error e => rw [hl] at h; cases h
      | ok r' =>
        rw [hl] at h
        cases h
        exact .cons ha (ih _ hl)

theorem calcShift_rows (cfg : AperCfg) (f : AperFixed) (fit : RowFit) (d : List ℝ) (l : List (Fl ℝ))
    (h : calcShift cfg f fit = .ok (d, l)) : ∃ p : List (ℝ × Fl ℝ), d = p.map Prod.fst ∧ l = p.map Prod.snd ∧
      p.length = f.grid.nY ∧
      ∀ q ∈ p, ∃ row, rowShift fit (slitPart f.grid f.grid.xArr) cfg.res cfg.slit f.lam0 row = .ok q := by
  unfold calcShift at h
  split at h
  · cases h
  · split at h
    · cases h
    · rename_i p hp
      have hf := mapM_ok_inv _ _ _ hp
      obtain ⟨rfl, rfl⟩ := Prod.mk.inj (Except.ok.inj h)
      refine ⟨p, rfl, rfl, by rw [← hf.length_eq, List.length_finRange], fun q hq => ?_⟩
      obtain ⟨i, hi, rfl⟩ := List.mem_iff_getElem.1 hq
      exact ⟨_, (List.forall₂_iff_get.1 hf).2 i (by rw [hf.length_eq]; exact hi) hi⟩

/-- what a successful row tells about its fit -/
theorem rowShift_inv (fit : RowFit) (xs : List ℝ) (res w lam0 : ℝ) (hr : 0 < res) (hw : 0 < w) (hl : 0 < lam0)
    (row : List (Fl ℝ)) (q : ℝ × Fl ℝ) (hfit : ∀ A mu F, fit xs row = .ok (A, mu, F) → 0 ≤ F)
    (h : rowShift fit xs res w lam0 row = .ok q) :
    ∃ A mu F f, fit xs row = .ok (A, mu, F) ∧ q.1 = slitOffset res w mu ∧
      q.2 = rowDisp (cKms / (res * (2 * Real.sqrt (2 * Real.log 2)))) w lam0 f ∧
      ∃ d, checkSlitIllum xs (xs.map (slitGauss A mu F)) mu F w = .ok (d, f) := by
  unfold rowShift at h
  split at h
  · cases h
  · rename_i A mu F hfx
    split at h
    · cases h
    · rename_i d f hchk
      rw [if_neg hr.ne'] at h
      simp only at h
      have hd := checkSlitIllum_centre _ _ _ _ _ _ _ (hfit _ _ _ hfx) hw.le hchk
      rw [hd, velShift_offset res w lam0 mu hr hw hl] at h
      cases h
      exact ⟨A, mu, F, f, hfx, rfl, rfl, _, hchk⟩

/-- with perfect resolution a row has no shift and no dispersion -/
theorem rowShift_perfect (fit : RowFit) (xs : List ℝ) (res w lam0 : ℝ) (hr : res = 0) (row : List (Fl ℝ)) (q : ℝ × Fl ℝ)
    (h : rowShift fit xs res w lam0 row = .ok q) : q = (0, 0) := by
  unfold rowShift at h
  split at h
  · cases h
  · split at h
    · cases h
    · rw [if_pos hr] at h
      exact (Except.ok.inj h).symm

/-- **C202** No row is shifted by more than half the FWHM of the instrument's resolution, whatever PSF, light
distribution and fits. -/
theorem C202_bound (cfg : AperCfg) (f : AperFixed) (fit : RowFit) (d : List ℝ) (l : List (Fl ℝ))
    (hr : 0 ≤ cfg.res) (hw : 0 < cfg.slit) (hl : 0 < f.lam0)
    (hfit : ∀ xs row A mu F, fit xs row = .ok (A, mu, F) → 0 ≤ F) (h : calcShift cfg f fit = .ok (d, l)) :
    d.length = f.grid.nY ∧ ∀ v ∈ d, |v| ≤ cfg.res * resFactor / 2 := by
  obtain ⟨p, rfl, rfl, hlen, hp⟩ := calcShift_rows cfg f fit d l h
  refine ⟨by simpa using hlen, fun v hv => ?_⟩
  obtain ⟨q, hq, rfl⟩ := List.mem_map.1 hv
  obtain ⟨row, hrow⟩ := hp q hq
  rcases hr.eq_or_lt with h0 | hr
  · rw [rowShift_perfect fit _ _ _ _ h0.symm row q hrow, ← h0]
    simp
  obtain ⟨A, mu, F, f', -, hv, -⟩ := rowShift_inv fit _ _ _ _ hr hw hl row q (hfit _ _) hrow
  rw [hv]
  unfold slitOffset
  have hk : 0 < cfg.res * resFactor := mul_pos hr resFactor_pos
  have h1 : |max (-(cfg.slit / 2)) (min mu (cfg.slit / 2))| ≤ cfg.slit / 2 :=
    abs_le.2 ⟨le_max_left _ _, max_le (by linarith) (min_le_right _ _)⟩
  rw [abs_mul, abs_div, abs_of_pos hw, abs_of_pos hk, div_mul_eq_mul_div, div_le_iff₀ hw]
  nlinarith [mul_le_mul_of_nonneg_right h1 hk.le]

/-! ## Stored shifts -/

/-- both attributes are set -/
def Stored (s : ShiftState) : Prop := (∃ d, s.delta = some d) ∧ s.disp ≠ .unset

theorem shiftStep_stored (o : ShiftOpts) (cfg : AperCfg) (fit : RowFit) (s : ShiftState) (hs : Stored s) :
    shiftStep o cfg fit s = (s, .ok ()) := by
  obtain ⟨b, d, i⟩ := s
  obtain ⟨⟨d', rfl⟩, hi⟩ := hs
  unfold shiftStep
  cases i with
  | unset => exact absurd rfl hi
  | scalar x => split <;> rfl
  | rows l => split <;> rfl

theorem instPhase_set (o : ShiftOpts) (cfg : AperCfg) (f : AperFixed) (wave : List ℝ) (i : InstDispAttr)
    (hi : i ≠ .unset) (img : Option Arr2) : (instPhase o cfg f wave i img).1 ≠ .unset := by
  unfold instPhase
  split
  · split
    · exact hi
    · simp only
      split
      · rename_i h
        split at h
        · exact absurd h hi
        · cases h
      · rename_i h; rw [h]; exact fun h => by cases h
      · rename_i h; rw [h]; exact fun h => by cases h
      · rename_i h; rw [h]; exact fun h => by cases h
  · exact fun h => by cases h

/-- an evaluation keeps stored shifts -/
theorem shiftCalcs_stored (o : ShiftOpts) (cfg : AperCfg) (fit : RowFit) (s : ShiftState) (hs : Stored s)
    (theta : List ℝ) : Stored (shiftCalcs o cfg fit s theta).1 ∧ (shiftCalcs o cfg fit s theta).1.delta = s.delta := by
  rw [shiftCalcs_eq]
  cases (prepCalcs cfg s.base theta).2 with
  | error e => exact ⟨hs, rfl⟩
  | ok sig =>
    simp only
    unfold shiftRest
    rw [shiftStep_stored o cfg fit _ (by exact hs)]
    simp only
    split
    · exact ⟨hs, rfl⟩
    · split
      · exact ⟨⟨hs.1, instPhase_set _ _ _ _ _ hs.2 _⟩, rfl⟩
      · exact ⟨⟨hs.1, instPhase_set _ _ _ _ _ hs.2 _⟩, rfl⟩

theorem shiftCalcs_oracle (o : ShiftOpts) (cfg : AperCfg) (fit fit' : RowFit) (s : ShiftState) (hs : Stored s)
    (theta : List ℝ) : shiftCalcs o cfg fit s theta = shiftCalcs o cfg fit' s theta := by
  rw [shiftCalcs_eq, shiftCalcs_eq]
  cases (prepCalcs cfg s.base theta).2 with
  | error e => rfl
  | ok sig =>
    simp only
    unfold shiftRest
    rw [shiftStep_stored o cfg fit _ (by exact hs), shiftStep_stored o cfg fit' _ (by exact hs)]

/-- **C202** The rows are fitted once: after an evaluation with one of the options that returned an image, every
sequence of further evaluations with any options gives the same with any other fitting function, and keeps the
shifts. -/
theorem C202_once (o : ShiftOpts) (ho : (o.shift || o.eff) = true) (cfg : AperCfg) (fit : RowFit) (s : ShiftState)
    (theta : List ℝ) (img : Option Arr2) (h : (shiftCalcs o cfg fit s theta).2 = .ok img) :
    ∃ d, (shiftCalcs o cfg fit s theta).1.delta = some d ∧
      ∀ (fit₁ fit₂ : RowFit) (hist : List (ShiftOpts × List ℝ)),
        hist.foldl (fun s q => (shiftCalcs q.1 cfg fit₁ s q.2).1) (shiftCalcs o cfg fit s theta).1 =
          hist.foldl (fun s q => (shiftCalcs q.1 cfg fit₂ s q.2).1) (shiftCalcs o cfg fit s theta).1 ∧
        (hist.foldl (fun s q => (shiftCalcs q.1 cfg fit₁ s q.2).1) (shiftCalcs o cfg fit s theta).1).delta = some d ∧
        ∀ q : ShiftOpts × List ℝ,
          (shiftCalcs q.1 cfg fit₁ (hist.foldl (fun s q => (shiftCalcs q.1 cfg fit₁ s q.2).1)
            (shiftCalcs o cfg fit s theta).1) q.2).2 =
          (shiftCalcs q.1 cfg fit₂ (hist.foldl (fun s q => (shiftCalcs q.1 cfg fit₂ s q.2).1)
            (shiftCalcs o cfg fit s theta).1) q.2).2 := by
  have hst : Stored (shiftCalcs o cfg fit s theta).1 := by
    revert h
    rw [shiftCalcs_eq]
    cases (prepCalcs cfg s.base theta).2 with
    | error e => exact fun h => by cases h
    | ok sig =>
      simp only
      unfold shiftRest
      have hS : (shiftStep o cfg fit { s with base := (prepCalcs cfg s.base theta).1 }).2 = .ok () →
          Stored (shiftStep o cfg fit { s with base := (prepCalcs cfg s.base theta).1 }).1 := by
        unfold shiftStep
        rw [if_pos ho]
        split
        · rename_i h1 h2; exact fun _ => ⟨⟨_, h1⟩, by rw [h2]; exact fun h => by cases h⟩
        · rename_i h1 h2; exact fun _ => ⟨⟨_, h1⟩, by rw [h2]; exact fun h => by cases h⟩
        · split
          · exact fun h => by cases h
          · exact fun _ => ⟨⟨_, rfl⟩, fun h => by cases h⟩
      simp only
      generalize shiftStep o cfg fit { s with base := (prepCalcs cfg s.base theta).1 } = sh at hS
      obtain ⟨s1, r1⟩ := sh
      cases r1 with
      | error e => exact fun h => by cases h
      | ok u =>
        have hS := hS rfl
        simp only at hS ⊢
        split
        · exact fun h => by cases h
        · split
          · exact fun h => by cases h
          · exact fun _ => ⟨hS.1, instPhase_set _ _ _ _ _ hS.2 _⟩
  generalize (shiftCalcs o cfg fit s theta).1 = s1 at hst
  obtain ⟨d, hd⟩ := hst.1
  refine ⟨d, hd, fun fit₁ fit₂ hist => ?_⟩
  have key : ∀ (hist : List (ShiftOpts × List ℝ)) (s1 : ShiftState), Stored s1 → s1.delta = some d →
      hist.foldl (fun s q => (shiftCalcs q.1 cfg fit₁ s q.2).1) s1 =
          hist.foldl (fun s q => (shiftCalcs q.1 cfg fit₂ s q.2).1) s1 ∧
      (hist.foldl (fun s q => (shiftCalcs q.1 cfg fit₁ s q.2).1) s1).delta = some d ∧
      Stored (hist.foldl (fun s q => (shiftCalcs q.1 cfg fit₁ s q.2).1) s1) := by
    intro hist
    induction hist with
    | nil => exact fun s1 h1 h2 => ⟨rfl, h2, h1⟩
    | cons q hist ih =>
      intro s1 h1 h2
      obtain ⟨h3, h4⟩ := shiftCalcs_stored q.1 cfg fit₁ s1 h1 q.2
      obtain ⟨h5, h6⟩ := ih _ h3 (h4.trans h2)
      simp only [List.foldl_cons]
      exact ⟨by rw [h5, shiftCalcs_oracle q.1 cfg fit₁ fit₂ s1 h1], h6⟩
  obtain ⟨h1, h2, h3⟩ := key hist s1 hst hd
  refine ⟨h1, h2, fun q => ?_⟩
  rw [← h1, shiftCalcs_oracle q.1 cfg fit₁ fit₂ _ h3]

/-! ## Centred light -/

theorem slitOffset_zero (res w : ℝ) (hw : 0 < w) : slitOffset res w 0 = 0 := by
  unfold slitOffset
  rw [min_eq_left (by linarith), max_eq_right (by linarith)]
  simp

/-- a stored list of zero shifts -/
def ZeroShift (cfg : AperCfg) (f : AperFixed) (s : ShiftState) : Prop :=
  s.base.fixed = f ∧ (s.delta = none ∨ ∃ d, s.delta = some d ∧ ∀ v ∈ d, v = 0)

/-- In wavelength mode an evaluation with the shift only, and zero shifts, is the plain one. -/
theorem shiftCalcs_zero (cfg : AperCfg) (hst : cfg.specType = .wave) (fit : RowFit) (f : AperFixed) (d : List ℝ)
    (l : List (Fl ℝ)) (hr : calcShift cfg f fit = .ok (d, l)) (hd : ∀ v ∈ d, v = 0) (s : ShiftState)
    (hs : ZeroShift cfg f s) (theta : List ℝ) :
    (shiftCalcs ⟨true, false⟩ cfg fit s theta).2 = (doModelCalcs cfg s.base theta).2 ∧
      (shiftCalcs ⟨true, false⟩ cfg fit s theta).1.base = (doModelCalcs cfg s.base theta).1 ∧
      ZeroShift cfg f (shiftCalcs ⟨true, false⟩ cfg fit s theta).1 := by
  have hfix := (shiftCalcs_fixed ⟨true, false⟩ cfg fit s theta).trans hs.1
  suffices h : (shiftCalcs ⟨true, false⟩ cfg fit s theta).2 = (doModelCalcs cfg s.base theta).2 ∧
      (shiftCalcs ⟨true, false⟩ cfg fit s theta).1.base = (doModelCalcs cfg s.base theta).1 ∧
      ((shiftCalcs ⟨true, false⟩ cfg fit s theta).1.delta = none ∨
        ∃ d, (shiftCalcs ⟨true, false⟩ cfg fit s theta).1.delta = some d ∧ ∀ v ∈ d, v = 0) from
    ⟨h.1, h.2.1, hfix, h.2.2⟩
  clear hfix
  rw [shiftCalcs_eq, doModelCalcs_eq_prep]
  have hp := (prepCalcs_fixed cfg s.base theta).trans hs.1
  generalize prepCalcs cfg s.base theta = P at hp
  obtain ⟨b, r⟩ := P
  cases r with
  | error e => exact ⟨rfl, rfl, hs.2⟩
  | ok sig =>
    simp only at hp ⊢
    have hstep : ∃ d' i, shiftStep ⟨true, false⟩ cfg fit { s with base := b } = (⟨b, some d', i⟩, .ok ()) ∧
        ∀ v ∈ d', v = 0 := by
      unfold shiftStep
      simp only [Bool.or_false, if_true]
      rw [hp, hr]
      split
      · rename_i h1 h2
        rcases hs.2 with h3 | ⟨d', h3, h4⟩
        · rw [h1] at h3; cases h3
        · rw [h1] at h3; cases h3
          exact ⟨_, _, by rw [← h1], h4⟩
      · rename_i h1 h2
        rcases hs.2 with h3 | ⟨d', h3, h4⟩
        · rw [h1] at h3; cases h3
        · rw [h1] at h3; cases h3
          exact ⟨_, _, by rw [← h1], h4⟩
      · exact ⟨_, _, rfl, hd⟩
    obtain ⟨d', i, hstep, hd'⟩ := hstep
    unfold shiftRest
    rw [hstep]
    have hv : shiftedVel ⟨true, false⟩ cfg b.fixed b.kin (some d') = velCube cfg b.fixed b.kin := by
      have h0 : ∀ k, d'.getD k 0 = 0 := by
        intro k
        rw [List.getD_eq_getElem?_getD]
        cases hk : d'[k]? with
        | none => rfl
        | some v => exact hd' v (List.mem_of_getElem? hk)
      unfold shiftedVel
      simp only [h0, add_zero]
      cases velCube cfg b.fixed b.kin <;> rfl
    simp only [hv]
    rw [evalImage_eq_cube]
    cases cubeImage cfg b.fixed (velCube cfg b.fixed b.kin) b.wave sig with
    | error e => exact ⟨rfl, rfl, .inr ⟨d', rfl, hd'⟩⟩
    | ok r =>
      have hi : instPhase ⟨true, false⟩ cfg b.fixed b.wave i r =
          (.scalar (instDisp cfg b.fixed), instConst b.wave (instDisp cfg b.fixed) r) := by
        unfold instPhase instDisp
        simp only [hst, if_true, Bool.false_eq_true, if_false]
      simp only [hi]
      obtain ⟨x, hx⟩ := instConst_ok b.wave (instDisp cfg b.fixed) r
      rw [hx]
      exact ⟨rfl, rfl, .inr ⟨d', rfl, hd'⟩⟩

/-- **C202** In wavelength mode, when all fitted rows are centred in the slit, the positional shift changes nothing:
construction and every sequence of evaluations are those of the plain model, for every PSF, intensity profile and
sampling. -/
theorem C202_centred (cfg : AperCfg) (hst : cfg.specType = .wave) (fit : RowFit) (kin : KinProfile) (theta : List ℝ)
    (f : AperFixed) (hf : setupCalcs cfg theta = .ok f) (r : List ℝ × List (Fl ℝ))
    (hr : calcShift cfg f fit = .ok r) (hres : 0 < cfg.res) (hw : 0 < cfg.slit) (hl : 0 < f.lam0)
    (hfit : ∀ xs row A mu F, fit xs row = .ok (A, mu, F) → mu = 0 ∧ 0 ≤ F) :
    ∃ s s' r, buildModel cfg kin theta = .ok (s, r) ∧ buildShift ⟨true, false⟩ cfg fit kin theta = .ok (s', r) ∧
      ∀ hist th, (shiftCalcs ⟨true, false⟩ cfg fit (runShift ⟨true, false⟩ cfg fit s' hist) th).2 =
        (updateModel cfg (runUpdates cfg s hist) th).2 := by
  obtain ⟨d, l⟩ := r
  have hd : ∀ v ∈ d, v = 0 := by
    obtain ⟨p, rfl, rfl, -, hp⟩ := calcShift_rows cfg f fit d l hr
    intro v hv
    obtain ⟨q, hq, rfl⟩ := List.mem_map.1 hv
    obtain ⟨row, hrow⟩ := hp q hq
    obtain ⟨A, mu, F, f', h1, h2, -⟩ := rowShift_inv fit _ _ _ _ hres hw hl row q
      (fun A mu F h => (hfit _ _ _ _ _ h).2) hrow
    rw [h2, (hfit _ _ _ _ _ h1).1, slitOffset_zero _ _ hw]
  have hrun : ∀ (hist : List (List ℝ)) (s : ShiftState), ZeroShift cfg f s →
      (runShift ⟨true, false⟩ cfg fit s hist).base = runUpdates cfg s.base hist ∧
        ZeroShift cfg f (runShift ⟨true, false⟩ cfg fit s hist) := by
    intro hist
    induction hist with
    | nil => exact fun s hs => ⟨rfl, hs⟩
    | cons th hist ih =>
      intro s hs
      obtain ⟨-, h1, h2⟩ := shiftCalcs_zero cfg hst fit f d l hr hd s hs th
      have := ih _ h2
      rw [h1] at this
      exact this
  have h0 := shiftCalcs_zero cfg hst fit f d l hr hd ⟨⟨f, kin, cfg.wave, avgDiff cfg.wave⟩, none, .unset⟩
    ⟨rfl, .inl rfl⟩ theta
  refine ⟨_, (shiftCalcs ⟨true, false⟩ cfg fit ⟨⟨f, kin, cfg.wave, avgDiff cfg.wave⟩, none, .unset⟩ theta).1, _,
    by unfold buildModel; rw [hf], ?_, fun hist th => ?_⟩
  · unfold buildShift
    rw [hf]
    simp only
    rw [← h0.1]
  · obtain ⟨h1, h2⟩ := hrun hist _ h0.2.2
    rw [(shiftCalcs_zero cfg hst fit f d l hr hd _ h2 th).1, h1, h0.2.1]
    rfl

/-! ## Both options -/

/-- the dispersion of a row is positive if the effective width is -/
theorem rowDisp_pos (R w lam0 f : ℝ) (hR : 0 < R) (hw : 0 < w) (hl : 0 < lam0) (hf : 0 < f) :
    Fl.ltB 0 (rowDisp R w lam0 f) = true := by
  have hF := resFactor_pos
  unfold resFactor at hF
  have h1 : R * w / f ≠ 0 := (div_pos (mul_pos hR hw) hf).ne'
  have e : rowDisp R w lam0 f = .fin (lam0 / (R * w / f) / (2 * Real.sqrt (2 * Real.log 2))) := by
    unfold rowDisp
    simp only
    rw [Fl.fin_div_ne _ _ hf.ne', Fl.fin_div_ne _ _ h1, Fl.fin_div_ne _ _ hF.ne']
  rw [e]
  have : 0 < lam0 / (R * w / f) / (2 * Real.sqrt (2 * Real.log 2)) := by positivity
  exact decide_eq_true this

/-- the part of the fitted width inside the slit is positive for an object that reaches into it -/
theorem overlap_pos (xs ms : List ℝ) (mu F w d f : ℝ) (hF : 0 < F) (hw : 0 < w) (hl : mu - F / 2 < w / 2)
    (hu : -(w / 2) < mu + F / 2) (h : checkSlitIllum xs ms mu F w = .ok (d, f)) : 0 < f := by
  obtain ⟨d', f', h', hf, -⟩ := C50_overlap_partial xs ms mu F w hF.le hw hl hu
  rw [h] at h'
  obtain ⟨rfl, rfl⟩ := Prod.mk.inj (Except.ok.inj h')
  rw [hf, sub_pos, max_lt_iff, lt_min_iff, lt_min_iff]
  exact ⟨⟨by linarith, hl⟩, hu, by linarith⟩

/-- C202 is false with both options on: when every fitted row reaches into the slit, no evaluation returns an
image (the broadening row by row always raises). -/
theorem C202_false_both (cfg : AperCfg) (fit : RowFit) (kin : KinProfile) (theta : List ℝ) (f : AperFixed)
    (hf : setupCalcs cfg theta = .ok f) (hres : 0 < cfg.res) (hw : 0 < cfg.slit) (hl : 0 < f.lam0)
    (hfit : ∀ xs row A mu F, fit xs row = .ok (A, mu, F) → 0 < F ∧ mu - F / 2 < cfg.slit / 2 ∧
      -(cfg.slit / 2) < mu + F / 2) :
    ∃ s r, buildShift ⟨true, true⟩ cfg fit kin theta = .ok (s, r) ∧ (∀ img, r ≠ .ok img) ∧
      ∀ hist th img, (shiftCalcs ⟨true, true⟩ cfg fit (runShift ⟨true, true⟩ cfg fit s hist) th).2 ≠ .ok img := by
  -- the stored dispersions are positive
  let Inv : ShiftState → Prop := fun s => s.base.fixed = f ∧ (s.delta = none ∨
    ∃ d l, s.delta = some d ∧ s.disp = .rows l ∧ l.all (Fl.ltB 0) = true)
  have hcalc : ∀ d l, calcShift cfg f fit = .ok (d, l) → l.all (Fl.ltB 0) = true := by
    intro d l h
    obtain ⟨p, rfl, rfl, -, hp⟩ := calcShift_rows cfg f fit d l h
    rw [List.all_eq_true]
    intro v hv
    obtain ⟨q, hq, rfl⟩ := List.mem_map.1 hv
    obtain ⟨row, hrow⟩ := hp q hq
    obtain ⟨A, mu, F, f', h1, -, h3, d', h4⟩ := rowShift_inv fit _ _ _ _ hres hw hl row q
      (fun A mu F h => (hfit _ _ _ _ _ h).1.le) hrow
    obtain ⟨hF, h5, h6⟩ := hfit _ _ _ _ _ h1
    have hF' := resFactor_pos
    unfold resFactor at hF'
    have hc := cKms_pos
    rw [h3]
    exact rowDisp_pos _ _ _ _ (by positivity) hw hl (overlap_pos _ _ _ _ _ _ _ hF hw h5 h6 h4)
  have key : ∀ (s : ShiftState) (th : List ℝ), Inv s →
      (∀ img, (shiftCalcs ⟨true, true⟩ cfg fit s th).2 ≠ .ok img) ∧
        Inv (shiftCalcs ⟨true, true⟩ cfg fit s th).1 := by
    intro s th hs
    have hfix := (shiftCalcs_fixed ⟨true, true⟩ cfg fit s th).trans hs.1
    suffices h : (∀ img, (shiftCalcs ⟨true, true⟩ cfg fit s th).2 ≠ .ok img) ∧
        ((shiftCalcs ⟨true, true⟩ cfg fit s th).1.delta = none ∨ ∃ d l,
          (shiftCalcs ⟨true, true⟩ cfg fit s th).1.delta = some d ∧
          (shiftCalcs ⟨true, true⟩ cfg fit s th).1.disp = .rows l ∧ l.all (Fl.ltB 0) = true) from
      ⟨h.1, hfix, h.2⟩
    clear hfix
    rw [shiftCalcs_eq]
    have hp := (prepCalcs_fixed cfg s.base th).trans hs.1
    generalize prepCalcs cfg s.base th = P at hp
    obtain ⟨b, r⟩ := P
    cases r with
    | error e => exact ⟨fun img h => (by cases h), hs.2⟩
    | ok sig =>
      simp only at hp ⊢
      have hstep : (∃ e, shiftStep ⟨true, true⟩ cfg fit { s with base := b } = ({ s with base := b }, .error e)) ∨
          ∃ d l, shiftStep ⟨true, true⟩ cfg fit { s with base := b } = (⟨b, some d, .rows l⟩, .ok ()) ∧
            l.all (Fl.ltB 0) = true := by
        unfold shiftStep
        simp only [Bool.or_true, if_true]
        rw [hp]
        split
        · rename_i h1 h2
          rcases hs.2 with h3 | ⟨d', l, h3, h4, h5⟩
          · rw [h1] at h3; cases h3
          · rw [h2] at h4; cases h4
        · rename_i h1 h2
          rcases hs.2 with h3 | ⟨d', l, h3, h4, h5⟩
          · rw [h1] at h3; cases h3
          · exact .inr ⟨d', l, by rw [h3, h4], h5⟩
        · split
          · exact .inl ⟨_, rfl⟩
          · rename_i d l hc
            exact .inr ⟨d, l, rfl, hcalc d l hc⟩
      unfold shiftRest
      rcases hstep with ⟨e, hstep⟩ | ⟨d, l, hstep, hpos⟩
      · rw [hstep]
        exact ⟨fun img h => (by cases h), hs.2⟩
      · rw [hstep]
        have hi : ∀ img, ∃ e, instPhase ⟨true, true⟩ cfg b.fixed b.wave (.rows l) img = (.rows l, .error e) := by
          intro img
          unfold instPhase
          simp only [if_true]
          split
          · exact ⟨_, rfl⟩
          · split
            · rename_i h; cases h
            · rename_i h; cases h
            · rename_i h; exact ⟨_, rfl⟩
            · rename_i l' _ h
              cases h
              rw [if_pos hpos]
              exact ⟨_, rfl⟩
        simp only
        split
        · exact ⟨fun img h => (by cases h), .inr ⟨d, l, rfl, rfl, hpos⟩⟩
        · rename_i img himg
          obtain ⟨e, hi⟩ := hi img
          rw [hi]
          exact ⟨fun img h => (by cases h), .inr ⟨d, l, rfl, rfl, hpos⟩⟩
  have hrun : ∀ (hist : List (List ℝ)) (s : ShiftState), Inv s → Inv (runShift ⟨true, true⟩ cfg fit s hist) := by
    intro hist
    induction hist with
    | nil => exact fun s h => h
    | cons th hist ih => exact fun s h => ih _ (key s th h).2
  have h0 := key ⟨⟨f, kin, cfg.wave, avgDiff cfg.wave⟩, none, .unset⟩ theta ⟨rfl, .inl rfl⟩
  exact ⟨_, _, by unfold buildShift; rw [hf], h0.1, fun hist th => (key _ th (hrun hist _ h0.2)).1⟩

/-! ## Closed form with the shift -/

/-- Set-up of the closed form: as in `Sharp`, but with an instrumental resolution. -/
def Smeared (cfg : AperCfg) : Prop := Sharp { cfg with res := 0 } ∧ 0 < cfg.res

theorem smeared_cube (cfg : AperCfg) (hc : Smeared cfg) (kin : KinProfile) (hk : kin.shape = (some 2, some 1))
    (va rt sig m z : ℝ) (hrt : rt ≠ 0) (hs : 0 < sig) (hz : 0 < 1 + z) :
    ∃ f, setupCalcs cfg [va, rt, sig, m, z] = .ok f ∧ f.grid.padY = 0 ∧ f.grid.padX = 0 ∧
      f.grid.nPixY = cfg.nWhole * cfg.nSubpixels ∧ f.grid.nPixX = slitCells cfg ∧
      f.grid.nY = f.grid.nPixY + 2 * f.grid.padY ∧ f.grid.nX = f.grid.nPixX + 2 * f.grid.padX ∧
      f.grid.deltX = cfg.slit / slitCells cfg ∧
      kin.updateTheta [va, rt, sig, m, z] = .ok (sharpKin va rt sig m z) ∧
      (∀ s : AperState, s.kin = sharpKin va rt sig m z → applySigmaFloor cfg s = (s, .ok sig)) ∧
      (∀ r0 ∈ cfg.restwave.head?, f.lam0 = r0 * (1 + z)) ∧
      f.grid.xArr.length = f.grid.nX ∧
      (∀ a, a < f.grid.nX → f.grid.xArr.getD a 0 = skyX (slitCells cfg) cfg.slit cfg.xc a) ∧
      (∀ (b : Fin f.grid.nY) (a : Fin f.grid.nX), ∑ c, f.I c b a =
        ∑ c ∈ Finset.range (cfg.nWhole * cfg.nSubpixels),
          let p := discPoint cfg.sini cfg.deltPA (skyX (slitCells cfg) cfg.slit cfg.xc a)
            (skyY cfg.nWhole cfg.nSubpixels cfg.pixscale (cfg.m0 + m) b)
            (skyZ (cfg.nWhole * cfg.nSubpixels) (cfg.pixscale / cfg.nSubpixels) c)
          cfg.int (Real.sqrt (p.1 ^ 2 + p.2.1 ^ 2)) p.2.2) ∧
      ∃ V, velCube cfg f (sharpKin va rt sig m z) = some V ∧ ∀ δ : ℕ → ℝ,
        addSigmaCollapseZ f.I (fun c b a => V c b a + δ b) (fun _ _ _ => sig) cfg.wave.get f.z cfg.restwave
          cfg.ratios f.grid.deltZ cfg.specType =
          .ok fun w b a => .fin (columnLightAt cfg va rt sig (cfg.m0 + m) z (δ b) (cfg.wave.get w) b.val a.val) :=
  sharp_cube_at { cfg with res := 0 } hc.1 kin hk va rt sig m z hrt hs hz

/-- the stages before the instrumental broadening, without mask and PSF -/
theorem cubeImage_smeared (cfg : AperCfg) (hc : Smeared cfg) (f : AperFixed) (va rt sig m0 z : ℝ)
    (hpadY0 : f.grid.padY = 0) (hpadX0 : f.grid.padX = 0) (hnY : f.grid.nPixY = cfg.nWhole * cfg.nSubpixels)
    (hnx : f.grid.nPixX = slitCells cfg) (hY : f.grid.nY = f.grid.nPixY + 2 * f.grid.padY)
    (hX : f.grid.nX = f.grid.nPixX + 2 * f.grid.padX) (hdx : f.grid.deltX = cfg.slit / slitCells cfg)
    (δ : ℕ → ℝ) (V : Cube f.grid.nZ f.grid.nY f.grid.nX ℝ)
    (hcube : addSigmaCollapseZ f.I (fun c b a => V c b a + δ b) (fun _ _ _ => sig) cfg.wave.get f.z cfg.restwave
          cfg.ratios f.grid.deltZ cfg.specType =
          .ok fun w b a => .fin (columnLightAt cfg va rt sig m0 z (δ b) (cfg.wave.get w) b.val a.val)) :
    cubeImage cfg f (some fun c b a => V c b a + δ b) cfg.wave sig =
      .ok (some ⟨cfg.wave.length, cfg.nWhole,
        fun j i => pixelSpecShift cfg va rt sig m0 z δ i.val (cfg.wave.get j)⟩) := by
  have hmask : cfg.slitMask = false := hc.1.mask
  have hreb : cfg.rebinOutput = true := hc.1.reb
  have hfwhm : cfg.psf.fwhm = 0 := hc.1.fwhm
  have hN : 0 < cfg.nWhole := hc.1.rows
  have hwl : 0 < cfg.wave.length := List.length_pos_iff.2 hc.1.wave
  have hpsf : ¬ 0 < cfg.psf.fwhm := by rw [hfwhm]; exact lt_irrefl _
  have hkm : ¬ KernelMissing cfg f := fun h => hpsf h.1
  have htail := evalTail_sharp cfg.nWhole cfg.nSubpixels hN cfg.psf hpsf f.xTrim f.yTrim f.grid 0 (lt_irrefl _)
    cfg.wave hwl hnY hY hX fun lam b a => columnLightAt cfg va rt sig m0 z (δ b) lam b a
  have hst : cubeStages cfg f (some fun c b a => V c b a + δ b) cfg.wave sig =
      .ok (some ⟨cfg.wave.length, cfg.nWhole,
        fun j i => pixelSpecShift cfg va rt sig m0 z δ i.val (cfg.wave.get j)⟩) := by
    have e : evalTail false true cfg.nWhole cfg.psf f.xTrim f.yTrim f.grid 0 cfg.wave
        (.ok fun w j x => .fin (columnLightAt cfg va rt sig m0 z (δ j.val) (cfg.wave.get w) j.val x.val)) =
        cubeStages cfg f (some fun c b a => V c b a + δ b) cfg.wave sig := by
      unfold evalTail cubeStages
      simp only [hcube, hmask, hreb, Bool.false_eq_true, if_false, if_true]
      generalize (allFinite fun (w : Fin cfg.wave.length) (j : Fin f.grid.nY) (x : Fin f.grid.nX) =>
        Fl.fin (columnLightAt cfg va rt sig m0 z (δ j.val) (cfg.wave.get w) j.val x.val)) = o1
      cases o1 with
      | none => rfl
      | some c1 =>
        simp only
        generalize allFinite (psfConvolve c1 cfg.psf.fwhm (cfg.psf.stamp f.xTrim f.yTrim)) = o2
        cases o2 with
        | none => rfl
        | some c2 =>
          simp only [dif_pos (And.intro hY hX)]
          cases hr : rebinArr ⟨cfg.wave.length, f.grid.nPixY, trimSum c2 f.grid hY hX⟩ cfg.wave.length cfg.nWhole with
          | error e => rfl
          | ok img =>
            have hn : img.n = cfg.wave.length := by
              unfold rebinArr at hr
              split at hr
              · cases hr
              · cases hr; rfl
            simp only [dif_pos hn, instStage, if_neg (lt_irrefl (0 : ℝ))]
            rfl
    rw [← e, htail]
    congr 3
    funext w i
    unfold pixelSpecShift
    rw [Finset.sum_range]
    refine Finset.sum_congr rfl fun t _ => ?_
    rw [hdx, hpadY0, hpadX0, hnx, Finset.sum_range, Finset.sum_mul]
    refine Finset.sum_congr rfl fun a _ => ?_
    simp only [columnLightAt, Nat.add_zero, Finset.sum_mul]
  unfold cubeImage
  rw [hst]
  simp only [if_neg hkm]

theorem slitPart_all {α : Type} (g : Grid ℝ) (l : List α) (hp : g.padX = 0) (hl : l.length = g.nPixX) :
    slitPart g l = l := by
  unfold slitPart
  rw [hp, List.drop_zero, ← hl, List.take_length]

/-- the shifts in the set-up of the closed form -/
theorem calcShift_smeared (cfg : AperCfg) (hc : Smeared cfg) (f : AperFixed) (m : ℝ)
    (hpadY0 : f.grid.padY = 0) (hpadX0 : f.grid.padX = 0) (hnY : f.grid.nPixY = cfg.nWhole * cfg.nSubpixels)
    (hnx : f.grid.nPixX = slitCells cfg) (hY : f.grid.nY = f.grid.nPixY + 2 * f.grid.padY)
    (hX : f.grid.nX = f.grid.nPixX + 2 * f.grid.padX) (hl : 0 < f.lam0) (hlen : f.grid.xArr.length = f.grid.nX)
    (hxg : ∀ a, a < f.grid.nX → f.grid.xArr.getD a 0 = skyX (slitCells cfg) cfg.slit cfg.xc a)
    (hlight : ∀ (b : Fin f.grid.nY) (a : Fin f.grid.nX), ∑ c, f.I c b a =
        ∑ c ∈ Finset.range (cfg.nWhole * cfg.nSubpixels),
          let p := discPoint cfg.sini cfg.deltPA (skyX (slitCells cfg) cfg.slit cfg.xc a)
            (skyY cfg.nWhole cfg.nSubpixels cfg.pixscale (cfg.m0 + m) b)
            (skyZ (cfg.nWhole * cfg.nSubpixels) (cfg.pixscale / cfg.nSubpixels) c)
          cfg.int (Real.sqrt (p.1 ^ 2 + p.2.1 ^ 2)) p.2.2)
    (fit : RowFit) (A mu F : ℕ → ℝ) (hfit : RowFits cfg (cfg.m0 + m) fit A mu F) :
    ∃ (d : List ℝ) (g : ℕ → ℝ), (∀ b, b < cfg.nWhole * cfg.nSubpixels →
        d.getD b 0 = slitOffset cfg.res cfg.slit (mu b) ∧
        ∃ d, checkSlitIllum (slitX cfg) ((slitX cfg).map (slitGauss (A b) (mu b) (F b))) (mu b) (F b) cfg.slit =
          .ok (d, g b)) ∧
      calcShift cfg f fit = .ok (d, (List.range (cfg.nWhole * cfg.nSubpixels)).map fun b =>
        rowDisp (cKms / (cfg.res * (2 * Real.sqrt (2 * Real.log 2)))) cfg.slit f.lam0 (g b)) := by
  have hfwhm : cfg.psf.fwhm = 0 := hc.1.fwhm
  have hpsf : ¬ 0 < cfg.psf.fwhm := by rw [hfwhm]; exact lt_irrefl _
  have hkm : ¬ KernelMissing cfg f := fun h => hpsf h.1
  have hslit : 0 < cfg.slit := hc.1.slit
  have hpix : 0 < cfg.pixscale := hc.1.pix
  have hsub : 0 < cfg.nSubpixels := hc.1.sub
  have hcells : 0 < slitCells cfg := by
    unfold slitCells
    have : (0 : ℝ) < cfg.slit * cfg.nSubpixels / cfg.pixscale := by
      have : (0 : ℝ) < cfg.nSubpixels := by exact_mod_cast hsub
      positivity
    have := Int.ceil_pos.2 this
    omega
  have hnX : f.grid.nX = slitCells cfg := by rw [hX, hnx, hpadX0]; omega
  have hnY' : f.grid.nY = cfg.nWhole * cfg.nSubpixels := by rw [hY, hnY, hpadY0]; omega
  have hxs : slitPart f.grid f.grid.xArr = slitX cfg := by
    rw [slitPart_all _ _ hpadX0 (by rw [hlen, hnX, hnx])]
    refine List.ext_getElem (by simp [slitX, hlen, hnX]) fun a h1 h2 => ?_
    have := hxg a (by rw [← hlen]; exact h1)
    rw [List.getD_eq_getElem?_getD, List.getElem?_eq_getElem h1, Option.getD_some] at this
    simp [slitX, this]
  have hrow : ∀ b : Fin f.grid.nY, slitPart f.grid (List.ofFn (shiftLight cfg f b)) =
      rowLight cfg (cfg.m0 + m) b := by
    intro b
    have hsl : shiftLight cfg f b = fun a => .fin (∑ c, f.I c b a) := by
      unfold shiftLight psfConvolve
      rw [if_neg hpsf]
    rw [slitPart_all _ _ hpadX0 (by simp [hnX, hnx]), hsl]
    refine List.ext_getElem (by simp [rowLight, hnX]) fun a h1 h2 => ?_
    simp only [List.length_ofFn] at h1
    simp only [List.getElem_ofFn, rowLight, List.getElem_map, List.getElem_range]
    rw [hlight b ⟨a, h1⟩]
  have hne : slitX cfg ≠ [] := by
    intro h
    have := congrArg List.length h
    simp only [slitX, List.length_map, List.length_range, List.length_nil] at this
    omega
  have hex : ∀ b : ℕ, ∃ g, b < cfg.nWhole * cfg.nSubpixels → (∃ d, checkSlitIllum (slitX cfg)
        ((slitX cfg).map (slitGauss (A b) (mu b) (F b))) (mu b) (F b) cfg.slit = .ok (d, g)) ∧
      rowShift fit (slitX cfg) cfg.res cfg.slit f.lam0 (rowLight cfg (cfg.m0 + m) b) =
        .ok (slitOffset cfg.res cfg.slit (mu b),
          rowDisp (cKms / (cfg.res * (2 * Real.sqrt (2 * Real.log 2)))) cfg.slit f.lam0 g) := by
    intro b
    by_cases hb : b < cfg.nWhole * cfg.nSubpixels
    · obtain ⟨h1, h2⟩ := hfit b hb
      obtain ⟨d, g, h3, h4⟩ := rowShift_ok fit (slitX cfg) hne cfg.res cfg.slit f.lam0 hc.2 hslit hl _ _ _ _ h1 h2.le
      exact ⟨g, fun _ => ⟨⟨d, h3⟩, h4⟩⟩
    · exact ⟨0, fun h => absurd h hb⟩
  choose g hg using hex
  refine ⟨(List.range (cfg.nWhole * cfg.nSubpixels)).map fun b => slitOffset cfg.res cfg.slit (mu b), g,
    fun b hb => ⟨?_, (hg b hb).1⟩, ?_⟩
  · rw [List.getD_eq_getElem?_getD, List.getElem?_eq_getElem (by simpa using hb), Option.getD_some]
    simp
  · unfold calcShift
    rw [if_neg hkm]
    rw [mapM_ok (g := fun b : Fin f.grid.nY => (slitOffset cfg.res cfg.slit (mu b),
      rowDisp (cKms / (cfg.res * (2 * Real.sqrt (2 * Real.log 2)))) cfg.slit f.lam0 (g b))) _ fun b _ => by
        rw [hxs, hrow, (hg b (by rw [← hnY']; exact b.isLt)).2]]
    simp only [List.map_map]
    have hfr : ∀ {β : Type} (k : ℕ → β), (List.finRange f.grid.nY).map (fun b => k b.val) =
        (List.range (cfg.nWhole * cfg.nSubpixels)).map k := by
      intro β k
      rw [← hnY', ← List.map_coe_finRange_eq_range, List.map_map]
      rfl
    rw [← hfr, ← hfr]
    rfl

/-- the state after a history in the set-up of the closed form -/
structure SmearedState (cfg : AperCfg) (f : AperFixed) (d : List ℝ) (s : ShiftState) : Prop where
  fixed : s.base.fixed = f
  wave : s.base.wave = cfg.wave
  shape : s.base.kin.shape = (some 2, some 1)
  delta : s.delta = some d
  disp : s.disp ≠ .unset

theorem prepCalcs_smeared (cfg : AperCfg) (ha : cfg.adaptive = false) (s : AperState) (theta : List ℝ) :
    (prepCalcs cfg s theta).1.wave = s.wave ∧ (prepCalcs cfg s theta).1.kin.shape = s.kin.shape := by
  unfold prepCalcs
  rw [ha]
  cases h : s.kin.updateTheta theta with
  | error e => exact ⟨rfl, rfl⟩
  | ok k =>
    have hk := updateTheta_shape s.kin k theta h
    simp only [Bool.false_eq_true, if_false]
    obtain ⟨-, h2, -, h4⟩ := applySigmaFloor_keeps cfg { s with kin := k }
    exact ⟨h2, h4.trans hk⟩

theorem smearedState_step (o : ShiftOpts) (cfg : AperCfg) (ha : cfg.adaptive = false) (f : AperFixed) (d : List ℝ)
    (fit : RowFit) (s : ShiftState) (hs : SmearedState cfg f d s) (theta : List ℝ) :
    SmearedState cfg f d (shiftCalcs o cfg fit s theta).1 := by
  obtain ⟨h1, h2⟩ := shiftCalcs_stored o cfg fit s ⟨⟨d, hs.delta⟩, hs.disp⟩ theta
  have hb : (shiftCalcs o cfg fit s theta).1.base = (prepCalcs cfg s.base theta).1 := by
    rw [shiftCalcs_eq]
    cases (prepCalcs cfg s.base theta).2 with
    | error e => rfl
    | ok sig =>
      simp only
      unfold shiftRest
      rw [shiftStep_stored o cfg fit _ (by exact ⟨⟨d, hs.delta⟩, hs.disp⟩)]
      simp only [ha, Bool.false_eq_true, if_false]
      split
      · rfl
      · split <;> rfl
  obtain ⟨h3, h4⟩ := prepCalcs_smeared cfg ha s.base theta
  exact ⟨by rw [hb, prepCalcs_fixed, hs.fixed], by rw [hb, h3, hs.wave], by rw [hb, h4, hs.shape],
    h2.trans hs.delta, h1.2⟩

/-- an evaluation with the shift in the set-up of the closed form -/
theorem smeared_eval (o : ShiftOpts) (ho : o.shift = true) (cfg : AperCfg) (hc : Smeared cfg) (f : AperFixed)
    (d : List ℝ) (dsp : InstDispAttr) (fit : RowFit) (s : ShiftState) (va rt sig m z : ℝ) (hrt : rt ≠ 0)
    (hs : 0 < sig) (hz : 0 < 1 + z) (hf : setupCalcs cfg [va, rt, sig, m, z] = .ok f) (hfix : s.base.fixed = f)
    (hw : s.base.wave = cfg.wave) (hk : s.base.kin.shape = (some 2, some 1)) (m' z' : ℝ)
    (hdsp : dsp ≠ .unset) (hstep : ∀ b : AperState, b.fixed = f →
      shiftStep o cfg fit { s with base := b } = (⟨b, some d, dsp⟩, .ok ())) :
    (shiftCalcs o cfg fit s [va, rt, sig, m', z']).2 =
      (instPhase o cfg f cfg.wave dsp (some ⟨cfg.wave.length, cfg.nWhole, fun j i =>
        pixelSpecShift cfg va rt sig (cfg.m0 + m) z (fun b => d.getD b 0) i.val (cfg.wave.get j)⟩)).2.map
        (Option.map Arr2.T) ∧
      SmearedState cfg f d (shiftCalcs o cfg fit s [va, rt, sig, m', z']).1 := by
  have ha : cfg.adaptive = false := hc.1.adaptive
  obtain ⟨f', hf', h1, h2, h3, h4, h5, h6, h7, -, -, -, -, -, -, V, hV, hcube⟩ :=
    smeared_cube cfg hc s.base.kin hk va rt sig m z hrt hs hz
  rw [hf] at hf'
  cases hf'
  obtain ⟨-, -, -, -, -, -, -, -, -, hup, hfl, -⟩ :=
    smeared_cube cfg hc s.base.kin hk va rt sig m' z hrt hs hz
  have hup' : s.base.kin.updateTheta [va, rt, sig, m', z'] = .ok (sharpKin va rt sig m' z') := by
    rw [updateTheta_congr s.base.kin ⟨[], some ⟨[], 2⟩, some ⟨[], 1⟩⟩ (by rw [hk]; rfl)]
    rfl
  have hfl' : ∀ s : AperState, s.kin = sharpKin va rt sig m' z' → applySigmaFloor cfg s = (s, .ok sig) := by
    rintro ⟨sf, sk, sw, sd⟩ rfl
    unfold applySigmaFloor
    have hfloor : cfg.sigmaFloor = false := hc.1.floor
    simp only [hfloor, sharpKin]
    by_cases ha : cfg.absvalsigma = true
    · simp [ha, abs_of_pos hs]
    · simp [ha]
  have hprep : prepCalcs cfg s.base [va, rt, sig, m', z'] =
      ({ s.base with kin := sharpKin va rt sig m' z' }, .ok sig) := by
    unfold prepCalcs
    rw [hup', ha]
    simp only [Bool.false_eq_true, if_false]
    exact hfl' _ rfl
  rw [shiftCalcs_eq, hprep]
  simp only
  unfold shiftRest
  have hst' := hstep { s.base with kin := sharpKin va rt sig m' z' } hfix
  simp only at hst' ⊢
  rw [hst']
  have hvel : velCube cfg s.base.fixed (sharpKin va rt sig m' z') = velCube cfg s.base.fixed (sharpKin va rt sig m z) :=
    rfl
  have hsv : shiftedVel o cfg s.base.fixed (sharpKin va rt sig m' z') (some d) =
      (velCube cfg s.base.fixed (sharpKin va rt sig m z)).map fun V c b a => V c b a + d.getD b.val 0 := by
    unfold shiftedVel
    rw [ho]
    rfl
  simp only [hsv, hw, ha, Bool.false_eq_true, if_false]
  subst hfix
  rw [hV]
  simp only [Option.map_some]
  have himg := cubeImage_smeared cfg hc s.base.fixed va rt sig (cfg.m0 + m) z h1 h2 h3 h4 h5 h6 h7
    (fun b => d.getD b 0) V (hcube fun b => d.getD b 0)
  rw [himg]
  simp only
  have hset := instPhase_set o cfg s.base.fixed cfg.wave dsp hdsp (some ⟨cfg.wave.length, cfg.nWhole, fun j i =>
    pixelSpecShift cfg va rt sig (cfg.m0 + m) z (fun b => d.getD b 0) i.val (cfg.wave.get j)⟩)
  cases (instPhase o cfg s.base.fixed cfg.wave dsp _).2
  · exact ⟨rfl, rfl, rfl, rfl, rfl, hset⟩
  · exact ⟨rfl, rfl, rfl, rfl, rfl, hset⟩

/-- the broadened image of a spectrum for every row, with rows first; `none` if not finite -/
noncomputable def broadened (cfg : AperCfg) (disp : ℝ) (img : ℕ → ℝ → ℝ) : Option Arr2 :=
  match instConvolComplete (fun (j : Fin cfg.wave.length) (i : Fin cfg.nWhole) => img i.val (cfg.wave.get j))
      cfg.wave.get (.const disp) with
  | .ok a => (allFinite2 a).map fun v => ⟨cfg.nWhole, cfg.wave.length, fun i j => v j i⟩
  | .error _ => none

/-- **C202**, what holds: with the positional shift alone (wavelength mode, no PSF, otherwise any physical
settings) the image is, pixel by pixel, that of a disc whose light in each subpixel row is shifted by the velocity
offset of the fitted centre of the row in the slit, broadened by the resolution of the instrument; for a new model and
every later evaluation.  Missing: rows have no effective resolution of their own (`C202_false_effective`,
`C202_false_both`), and velocity mode (`C202_false_velocity`). -/
theorem C202_shift_partial (cfg : AperCfg) (hc : Smeared cfg) (fit : RowFit) (t v dd : List ℝ)
    (va rt sig m z : ℝ) (hrt : rt ≠ 0) (hs : 0 < sig) (hz : 0 < 1 + z) (A mu F : ℕ → ℝ)
    (hfit : RowFits cfg (cfg.m0 + m) fit A mu F) (r0 : ℝ) (hr0 : cfg.restwave.head? = some r0) :
    ∃ s δ, (∀ b, b < cfg.nWhole * cfg.nSubpixels → δ b = slitOffset cfg.res cfg.slit (mu b)) ∧
      buildShift ⟨true, false⟩ cfg fit ⟨t, some ⟨v, 2⟩, some ⟨dd, 1⟩⟩ [va, rt, sig, m, z] =
        .ok (s, .ok (broadened cfg (cfg.res / lightSpeed * (r0 * (1 + z)))
          (pixelSpecShift cfg va rt sig (cfg.m0 + m) z δ))) ∧
      ∀ (hist : List (List ℝ)) (va' rt' sig' m' z' : ℝ), rt' ≠ 0 → 0 < sig' →
        (shiftCalcs ⟨true, false⟩ cfg fit (runShift ⟨true, false⟩ cfg fit s hist) [va', rt', sig', m', z']).2 =
          .ok (broadened cfg (cfg.res / lightSpeed * (r0 * (1 + z)))
            (pixelSpecShift cfg va' rt' sig' (cfg.m0 + m) z δ)) := by
  have ha : cfg.adaptive = false := hc.1.adaptive
  have hst : cfg.specType = .wave := hc.1.st
  obtain ⟨f, hf, h1, h2, h3, h4, h5, h6, h7, -, -, hlam, hlen, hxg, hlight, -⟩ :=
    smeared_cube cfg hc ⟨t, some ⟨v, 2⟩, some ⟨dd, 1⟩⟩ rfl va rt sig m z hrt hs hz
  have hlam := hlam r0 (by rw [hr0]; rfl)
  have hr0pos : 0 < r0 := hc.1.rest r0 (List.mem_of_mem_head? (by rw [hr0]; rfl))
  have hl : 0 < f.lam0 := by rw [hlam]; exact mul_pos hr0pos hz
  obtain ⟨d, g, hd, hcalc⟩ := calcShift_smeared cfg hc f m h1 h2 h3 h4 h5 h6 hl hlen hxg hlight fit A mu F hfit
  have hphase : ∀ dsp img, (instPhase ⟨true, false⟩ cfg f cfg.wave dsp (some ⟨cfg.wave.length, cfg.nWhole,
      fun j i => img i.val (cfg.wave.get j)⟩)).2.map (Option.map Arr2.T) =
      .ok (broadened cfg (cfg.res / lightSpeed * (r0 * (1 + z))) img) := by
    intro dsp img
    have hpos : 0 < cfg.res / cKms * f.lam0 := mul_pos (div_pos hc.2 cKms_pos) hl
    unfold instPhase
    simp only [hst, if_true, Bool.false_eq_true, if_false]
    unfold instConst instStage broadened
    simp only [dite_true, if_pos hpos]
    rw [← hlam, lightSpeed_eq]
    have hcast : (fun i : Fin cfg.wave.length => cfg.wave.get (Fin.cast rfl i)) = cfg.wave.get := rfl
    rw [hcast]
    unfold instConvolComplete
    simp only
    generalize allFinite2 _ = o
    cases o <;> rfl
  have hset : ∀ va' rt' sig', setupCalcs cfg [va', rt', sig', m, z] = .ok f := by
    intro va' rt' sig'
    rw [← hf]
    rfl
  have hfresh : ∀ b : AperState, b.fixed = f →
      shiftStep ⟨true, false⟩ cfg fit ⟨b, none, .unset⟩ = (⟨b, some d, .rows ((List.range
        (cfg.nWhole * cfg.nSubpixels)).map fun b => rowDisp (cKms / (cfg.res * (2 * Real.sqrt (2 * Real.log 2))))
          cfg.slit f.lam0 (g b))⟩, .ok ()) := by
    intro b hb
    unfold shiftStep
    simp only [Bool.or_false, if_true]
    rw [hb, hcalc]
  obtain ⟨h0, hS⟩ := smeared_eval ⟨true, false⟩ rfl cfg hc f d _ fit
    ⟨⟨f, ⟨t, some ⟨v, 2⟩, some ⟨dd, 1⟩⟩, cfg.wave, avgDiff cfg.wave⟩, none, .unset⟩ va rt sig m z hrt hs hz hf rfl rfl
    rfl m z (fun h => by cases h) hfresh
  rw [hphase _ (pixelSpecShift cfg va rt sig (cfg.m0 + m) z fun b => d.getD b 0)] at h0
  refine ⟨(shiftCalcs ⟨true, false⟩ cfg fit ⟨⟨f, ⟨t, some ⟨v, 2⟩, some ⟨dd, 1⟩⟩, cfg.wave, avgDiff cfg.wave⟩, none,
    .unset⟩ [va, rt, sig, m, z]).1, fun b => d.getD b 0, fun b hb => (hd b hb).1, ?_, ?_⟩
  · unfold buildShift
    rw [hf, ← h0]
  · intro hist va' rt' sig' m' z' hrt' hs'
    have hrun : ∀ (hist : List (List ℝ)) (s : ShiftState), SmearedState cfg f d s →
        SmearedState cfg f d (runShift ⟨true, false⟩ cfg fit s hist) := by
      intro hist
      induction hist with
      | nil => exact fun s h => h
      | cons x l ih => exact fun s h => ih _ (smearedState_step _ cfg ha f d fit s h x)
    have hT := hrun hist _ hS
    generalize runShift _ cfg fit _ hist = s at hT
    obtain ⟨h9, -⟩ := smeared_eval ⟨true, false⟩ rfl cfg hc f d s.disp fit s va' rt' sig' m z hrt' hs' hz
      (hset va' rt' sig') hT.fixed hT.wave hT.shape m' z' hT.disp (by
        intro b hb
        rw [shiftStep_stored _ cfg fit _ (by exact ⟨⟨d, hT.delta⟩, hT.disp⟩), hT.delta])
    rw [h9, hphase _ (pixelSpecShift cfg va' rt' sig' (cfg.m0 + m) z fun b => d.getD b 0)]

/-! ## The hypotheses can be met -/

/-- a disc in three rows seen with an instrument of finite resolution -/
noncomputable def threeRowsRes : AperCfg := { threeRows with res := 1 }

theorem threeRowsRes_smeared : Smeared threeRowsRes := by
  refine ⟨?_, by norm_num [threeRowsRes]⟩
  have h : { threeRowsRes with res := 0 } = threeRows := rfl
  rw [h]
  exact threeRows_sharp

/-- C202_shift_partial: a fit that finds the light a quarter of an arcsecond off the middle -/
example : Smeared threeRowsRes ∧ RowFits threeRowsRes (threeRowsRes.m0 + 0) (fun _ _ => .ok (1, 1 / 4, 1 / 2))
      (fun _ => 1) (fun _ => 1 / 4) (fun _ => 1 / 2) ∧ threeRowsRes.restwave.head? = some 1 ∧
    slitOffset threeRowsRes.res threeRowsRes.slit (1 / 4) ≠ 0 :=
  ⟨threeRowsRes_smeared, fun b _ => ⟨rfl, by norm_num⟩, rfl, by
    have h := resFactor_pos
    have : (max (-((1 : ℝ) / 2)) (min (1 / 4) (1 / 2))) = 1 / 4 := by
      rw [min_eq_left (by norm_num), max_eq_right (by norm_num)]
    show slitOffset 1 1 (1 / 4) ≠ 0
    unfold slitOffset
    rw [this]
    positivity⟩

/-- C202_off, C202_false_effective, C202_bound, C202_once, C202_centred, C202_false_both: a model whose rows are
fitted, with the light in the middle of the slit -/
example : ∃ f d l, setupCalcs threeRowsRes [1, 1, 1, 0, 0] = .ok f ∧ 0 < f.lam0 ∧
    calcShift threeRowsRes f (fun _ _ => .ok (1, 0, 1 / 2)) = .ok (d, l) ∧ d.length = 3 := by
  have hc := threeRowsRes_smeared
  obtain ⟨f, hf, h1, h2, h3, h4, h5, h6, h7, -, -, hlam, hlen, hxg, hlight, -⟩ :=
    smeared_cube threeRowsRes hc ⟨[], some ⟨[], 2⟩, some ⟨[], 1⟩⟩ rfl 1 1 1 0 0 one_ne_zero one_pos (by norm_num)
  have hl : 0 < f.lam0 := by rw [hlam 1 rfl]; norm_num
  obtain ⟨d, g, -, hcalc⟩ := calcShift_smeared threeRowsRes hc f 0 h1 h2 h3 h4 h5 h6 hl hlen hxg hlight
    (fun _ _ => .ok (1, 0, 1 / 2)) (fun _ => 1) (fun _ => 0) (fun _ => 1 / 2) (fun b _ => ⟨rfl, by norm_num⟩)
  refine ⟨f, d, _, hf, hl, hcalc, ?_⟩
  have := (C202_bound threeRowsRes f _ d _ hc.2.le hc.1.slit hl (fun xs row A mu F h => by
    cases h; norm_num) hcalc).1
  rw [this, h5, h3, h1]
  rfl

end Misfit
