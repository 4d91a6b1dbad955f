import Verif.Props.Prepare
import Verif.Props.Geometry

/-!
# C170, C171: the line and the angles of a prepared spectrum

`fit_prep_calcs` determines the observed wavelength and the row of the line, and the angle between slit and galaxy.
-/

namespace Misfit

/-! ## What the stages between leave alone -/

/-- line set, observed wavelength, redshift and angles -/
def lineInfo (s : PrepAll) : (Option ℝ × LineSet × Option ℝ × String × Bool) × Option ℝ × Option ℝ × Bool × Option (Option ℝ) ×
    Option ℝ × Option ℝ :=
  ((s.spec.lam0, s.spec.lines, s.gal.z, s.spec.specType, s.spec.prepared), s.gal.deltPA, s.gal.deltPAabs, s.gal.generateModel,
    s.gal.imgPA, s.gal.sersicPA, s.spec.slitPA)

/-- a stage that changes none of them -/
def Kept (f : PrepStep) : Prop := ∀ s, lineInfo (f s).1 = lineInfo s

theorem kept_run : ∀ (l : List PrepStep), (∀ f ∈ l, Kept f) → Kept (runSteps l)
  | [], _ => fun _ => rfl
  | f :: fs, h => fun s => by
    have h1 := h f (List.mem_cons_self) s
    have h2 := kept_run fs (fun g hg => h g (List.mem_cons_of_mem _ hg))
    rw [runSteps]
    rcases hf : f s with ⟨u, _ | e⟩
    · rw [hf] at h1
      exact (h2 u).trans h1
    · rw [hf] at h1
      exact h1

theorem kept_ensure : Kept ensureStep := fun _ => rfl

theorem kept_missing2D : Kept missing2DStep := fun s => by
  unfold missing2DStep
  split <;> rfl

theorem kept_missing1D : Kept missing1DStep := fun s => by
  unfold missing1DStep
  split
  · rfl
  · split
    · rfl
    · split <;> rfl

theorem kept_from1D : Kept from1DStep := fun s => by
  unfold from1DStep
  split
  · rfl
  · split
    · split <;> rfl
    · rfl

theorem kept_fill (m) : Kept (fillStep m) := fun s => by
  unfold fillStep
  split <;> rfl

theorem kept_ranges : Kept rangesStep := fun s => by
  unfold rangesStep
  dsimp only
  split
  · rfl
  · split
    · rfl
    · split <;> rfl

theorem kept_copy : Kept copyStep := fun _ => rfl

theorem kept_cont (O) : Kept (contStep O) := fun s => by
  unfold contStep
  split
  · rfl
  · split
    · rfl
    · split
      · rfl
      · split
        · rfl
        · rfl
        · dsimp only
          split
          · rfl
          · split <;> rfl
    · rfl

theorem kept_full : Kept fullRangeStep := fun s => by
  unfold fullRangeStep
  dsimp only
  split
  · rfl
  · split
    · rfl
    · split
      · rfl
      · split <;> rfl

theorem kept_trim : Kept trimStep := fun s => by
  unfold trimStep
  split
  · rfl
  · split
    · rfl
    · dsimp only
      split <;> rfl
  · rfl

theorem kept_sky : Kept skyMaskStep := fun s => by
  obtain ⟨o, g⟩ := s
  obtain ⟨r, c, wave, flux, err, obswave, weight, mask, inclCont, contModel, maskQual, rest⟩ := o
  unfold skyMaskStep
  dsimp only
  cases maskQual with
  | none =>
    cases mask with
    | none => split <;> rfl
    | some m =>
      dsimp only
      split
      · rfl
      · split
        · rfl
        · split
          · rfl
          · split <;> rfl
  | some q =>
    dsimp only
    split
    · rfl
    · split
      · rfl
      · split
        · rfl
        · split <;> rfl

theorem kept_low : Kept lowSnrStep := fun s => by
  unfold lowSnrStep
  split
  · split <;> rfl
  · rfl

theorem kept_spatial (V m) : Kept (spatialStep V m) := fun s => by
  unfold spatialStep
  dsimp only
  split
  · rfl
  · rfl
  · rfl
  · split
    · rfl
    · split
      · rfl
      · split
        · split <;> rfl
        · rfl

theorem kept_weights (W) : Kept (weightsStep W) := fun s => by
  unfold weightsStep
  dsimp only
  split
  · split_ifs
    · rfl
    · rfl
    · split <;> rfl
  · rfl

/-- the stages between the observed wavelength and the angles -/
noncomputable def middleSteps (O : PrepOracle) : List PrepStep :=
  [ensureStep] ++ continuumSteps O ++
    [trimStep, skyMaskStep, lowSnrStep, spatialStep O.vert O.median, weightsStep O.optimal]

theorem kept_middle (O : PrepOracle) : Kept (runSteps (middleSteps O)) := by
  refine kept_run _ fun f hf => ?_
  unfold middleSteps continuumSteps at hf
  simp only [List.cons_append, List.nil_append, List.mem_cons, List.not_mem_nil, or_false] at hf
  rcases hf with rfl | rfl | rfl | rfl | rfl | rfl | rfl | rfl | rfl | rfl | rfl | rfl | rfl | rfl
  · exact kept_ensure
  · exact kept_missing2D
  · exact kept_missing1D
  · exact kept_from1D
  · exact kept_fill _
  · exact kept_ranges
  · exact kept_copy
  · exact kept_cont _
  · exact kept_full
  · exact kept_trim
  · exact kept_sky
  · exact kept_low
  · exact kept_spatial _ _
  · exact kept_weights _

theorem prepSteps_split (O : PrepOracle) : prepSteps O =
    [lineNamesStep, lineWavesStep, lineRatiosStep, skyLevelsStep] ++ ([derivedStep] ++ (middleSteps O ++ [angleStep, centreStep O.centre])) := rfl

/-- the stages of a successful preparation -/
theorem prepare_stages {O : PrepOracle} {s t : PrepAll} (h0 : s.spec.prepared = false) (h : prepare O s = (t, none)) :
    ∃ a b m n u, runSteps [lineNamesStep, lineWavesStep, lineRatiosStep, skyLevelsStep] s = (a, none) ∧ derivedStep a = (b, none) ∧
      lineInfo m = lineInfo b ∧ angleStep m = (n, none) ∧ centreStep O.centre n = (u, none) ∧
      t = { spec := { u.spec with prepared := true }, gal := { u.gal with linked := true } } := by
  obtain ⟨u, hu, ht⟩ := prepare_ok h0 h
  rw [prepSteps_split, runSteps_append_ok] at hu
  obtain ⟨a, ha, hu⟩ := hu
  rw [runSteps_append_ok] at hu
  obtain ⟨b, hb, hu⟩ := hu
  rw [runSteps_append_ok] at hu
  obtain ⟨m, hm, hu⟩ := hu
  simp only [runSteps_cons_ok, runSteps_nil_ok] at hu hb
  obtain ⟨n, hn, v, hv, rfl⟩ := hu
  obtain ⟨b', hb, rfl⟩ := hb
  have := kept_middle O b'
  rw [hm] at this
  exact ⟨a, b', m, n, v, ha, hb, this, hn, hv, ht⟩

/-- the stages before the observed wavelength change line set and sky level only -/
theorem firstSteps_keep {s a : PrepAll} (h : runSteps [lineNamesStep, lineWavesStep, lineRatiosStep, skyLevelsStep] s = (a, none)) :
    a.spec.lam0 = s.spec.lam0 ∧ a.gal = s.gal ∧ a.spec.specType = s.spec.specType ∧ a.spec.slitPA = s.spec.slitPA := by
  simp only [runSteps_cons_ok, runSteps_nil_ok] at h
  obtain ⟨u1, h1, u2, h2, u3, h3, u4, h4, rfl⟩ := h
  obtain ⟨L1, -, rfl⟩ := lineNamesStep_ok h1
  obtain ⟨L2, -, rfl⟩ := lineWavesStep_ok h2
  obtain ⟨L3, -, rfl⟩ := lineRatiosStep_ok h3
  obtain ⟨cu, un, -, rfl⟩ := skyLevelsStep_ok h4
  exact ⟨rfl, rfl, rfl, rfl⟩

/-! ## Specification -/

/-- A centre of the line in wavelength is accepted if it lies in the central half of the window, at most a quarter of the window from
the expected wavelength. -/
def GoodWave (lo hi expected x : ℝ) : Prop :=
  lo + (hi - lo) / 4 ≤ x ∧ x ≤ hi - (hi - lo) / 4 ∧ |expected - x| ≤ (hi - lo) / 4

/-- A row of the line is accepted if it is a row of the image at most two rows from the given position, or at most two rows from the
peak of a clear detection. -/
def GoodRow (t : Obs2D) (y x : ℝ) : Prop :=
  0 ≤ x ∧ x ≤ (t.r : ℝ) - 1 ∧ (|y - x| ≤ 2 ∨ (|t.m0 - x| ≤ 2 ∧ |t.shiftFit| ≤ 1 ∧ 3 ≤ t.peakSnr))

/-- the flux of a row in the columns and rows that are used -/
noncomputable def usedRow (t : Obs2D) (sky low : Img t.r t.c ℝ) (i : Fin t.r) : Fl ℝ := ∑ j, t.flux i j * sky i j * low i j

/-- the flux of a column in the columns and rows that are used -/
noncomputable def usedCol (t : Obs2D) (sky low : Img t.r t.c ℝ) (j : Fin t.c) : Fl ℝ := ∑ i, t.flux i j * sky i j * low i j

/-! ## C170 -/

theorem centre_cases (p : LinePos ℝ) (usable : Bool) (y l : Option ℝ) :
    ((getM0Lam0 p usable y l).shift = 0 ∨ ∃ mu, usable = true ∧ y = some mu ∧ (getM0Lam0 p usable y l).shift = mu - p.m0 ∧
      0 ≤ mu ∧ mu ≤ (p.rows : ℝ) - 1 ∧ (|p.ypos - mu| ≤ 2 ∨ (|p.m0 - mu| ≤ 2 ∧ |p.shiftFit| ≤ 1 ∧ 3 ≤ p.peakSnr))) ∧
    (∀ mu, usable = true → y = some mu → 0 ≤ mu → mu ≤ (p.rows : ℝ) - 1 →
      (|p.ypos - mu| ≤ 2 ∨ (|p.m0 - mu| ≤ 2 ∧ |p.shiftFit| ≤ 1 ∧ 3 ≤ p.peakSnr)) →
        (getM0Lam0 p usable y l).shift = mu - p.m0) ∧
    ((getM0Lam0 p usable y l).lam0 = p.lam0 ∨ ∃ mu, usable = true ∧ l = some mu ∧ (getM0Lam0 p usable y l).lam0 = mu ∧
      GoodWave p.lamMin p.lamMax p.lam0 mu) ∧
    (∀ mu, usable = true → l = some mu → GoodWave p.lamMin p.lamMax p.lam0 mu → (getM0Lam0 p usable y l).lam0 = mu) := by
  unfold getM0Lam0 GoodWave
  cases usable with
  | false =>
    refine ⟨Or.inl rfl, ?_, Or.inl rfl, ?_⟩
    · intro mu h
      exact absurd h Bool.false_ne_true
    · intro mu h
      exact absurd h Bool.false_ne_true
  | true =>
    simp only [if_true]
    refine ⟨?_, ?_, ?_, ?_⟩
    · cases y with
      | none => exact Or.inl rfl
      | some mu =>
        simp only
        split
        · rename_i h1
          split
          · rename_i h2
            exact Or.inr ⟨mu, trivial, rfl, rfl, h1.1, h1.2, Or.inl h2⟩
          · split
            · rename_i h3
              exact Or.inr ⟨mu, trivial, rfl, rfl, h1.1, h1.2, Or.inr h3⟩
            · exact Or.inl rfl
        · exact Or.inl rfl
    · intro mu _ hy h1 h2 h3
      subst hy
      simp only
      rw [if_pos ⟨h1, h2⟩]
      split
      · rfl
      · rename_i h4
        rw [if_pos (h3.resolve_left h4)]
    · cases l with
      | none => exact Or.inl rfl
      | some mu =>
        simp only
        split
        · rename_i h1
          split
          · rename_i h2
            exact Or.inr ⟨mu, trivial, rfl, rfl, h1.1, h1.2, h2⟩
          · exact Or.inl rfl
        · exact Or.inl rfl
    · intro mu _ hl h
      subst hl
      simp only
      rw [if_pos ⟨h.1, h.2.1⟩, if_pos h.2.2]

theorem derived_wave {a b : PrepAll} (h : derivedStep a = (b, none)) (hw : a.spec.specType = "wave") (hl : a.spec.lam0 = none) :
    ∃ w ws z, a.spec.lines.waves = some (w :: ws) ∧ a.gal.z = some z ∧
      b = { a with spec := { a.spec with lam0 := some ((w : ℝ) * (1 + z)) } } := by
  unfold derivedStep at h
  split at h
  · cases h
  · rw [if_pos ⟨hl, hw⟩] at h
    split at h <;> cases h
    rename_i w ws z h1 h2
    exact ⟨w, ws, z, h1, h2, rfl⟩

theorem list_min_mem {l : List ℝ} (h : l ≠ []) : ∃ x, l.min? = some x ∧ x ∈ l ∧ ∀ y ∈ l, x ≤ y := by
  cases hx : l.min? with
  | none => exact absurd (List.min?_eq_none_iff.1 hx) h
  | some x =>
    have := List.min?_eq_some_iff.1 hx
    exact ⟨x, rfl, this.1, this.2⟩

theorem list_max_mem {l : List ℝ} (h : l ≠ []) : ∃ x, l.max? = some x ∧ x ∈ l ∧ ∀ y ∈ l, y ≤ x := by
  cases hx : l.max? with
  | none => exact absurd (List.max?_eq_none_iff.1 hx) h
  | some x =>
    have := List.max?_eq_some_iff.1 hx
    exact ⟨x, rfl, this.1, this.2⟩

/-- **C170**: after a successful preparation of a spectrum in wavelengths, the observed wavelength of the line is the redshifted rest
wavelength of the first line, or a centre fitted to the column sums that lies in the central half of the window and at most a quarter
of the window from it; and a fitted centre of this kind is used whenever rows and columns are left.  The position of the line differs
from the peak row by the fitted row exactly if that row is acceptable, and not at all otherwise. -/
theorem C170_position (O : PrepOracle) (s t : PrepAll) (h0 : s.spec.prepared = false) (hw : s.spec.specType = "wave")
    (hl : s.spec.lam0 = none) (h : prepare O s = (t, none)) :
    ∃ w ws z y sky low fit, t.spec.lines.waves = some (w :: ws) ∧ s.gal.z = some z ∧ t.spec.ypos = some y ∧
      (∃ k, t.spec.maskSky = some k ∧ k.shaped t.spec.r t.spec.c = some sky) ∧
      (∃ k, t.spec.maskLow = some k ∧ k.shaped t.spec.r t.spec.c = some low) ∧
      (∃ c : CentreIn, fit = O.centre c ∧ c.y = List.ofFn (usedRow t.spec sky low) ∧ c.lam = List.ofFn (usedCol t.spec sky low) ∧
        c.wave = List.ofFn t.spec.wave ∧ c.ypos = y ∧ c.lam0 = (w : ℝ) * (1 + z) ∧ c.cols = t.spec.whNosky ∧
        ∀ i, i ∈ c.rows ↔ i < t.spec.r ∧ i ∉ t.spec.lowRows) ∧
      (∃ x, t.spec.lam0 = some x ∧
        (x = (w : ℝ) * (1 + z) ∨ fit.2 = some x) ∧
        (∀ lo hi : Fin t.spec.c, (∀ j, t.spec.wave lo ≤ t.spec.wave j ∧ t.spec.wave j ≤ t.spec.wave hi) →
          (x ≠ (w : ℝ) * (1 + z) → GoodWave (t.spec.wave lo) (t.spec.wave hi) ((w : ℝ) * (1 + z)) x) ∧
          ∀ mu, fit.2 = some mu → GoodWave (t.spec.wave lo) (t.spec.wave hi) ((w : ℝ) * (1 + z)) mu →
            t.spec.whNosky ≠ [] → (∃ i, i < t.spec.r ∧ i ∉ t.spec.lowRows) → x = mu)) ∧
      ∃ d, t.spec.shift = some d ∧
        (d ≠ 0 → ∃ mu, fit.1 = some mu ∧ d = mu - t.spec.m0 ∧ GoodRow t.spec y mu) ∧
        ∀ mu, fit.1 = some mu → GoodRow t.spec y mu → t.spec.whNosky ≠ [] → (∃ i, i < t.spec.r ∧ i ∉ t.spec.lowRows) →
          d = mu - t.spec.m0 := by
  obtain ⟨a, b, m, n, u, ha, hb, hm, hn, hu, rfl⟩ := prepare_stages h0 h
  obtain ⟨e1, e2, e3, -⟩ := firstSteps_keep ha
  obtain ⟨w, ws, z, hws, hz, rfl⟩ := derived_wave hb (e3.trans hw) (e1.trans hl)
  obtain ⟨pa, pb, rfl⟩ := angleStep_ok hn
  have hlam : m.spec.lam0 = some ((w : ℝ) * (1 + z)) := congrArg (fun p => p.1.1) hm
  have hlines : m.spec.lines = a.spec.lines := congrArg (fun p => p.1.2.1) hm
  unfold centreStep at hu
  dsimp only at hu
  split at hu
  · rename_i sky low y hk hlo hy
    have hlam' : m.spec.lam0.getD 0 = (w : ℝ) * (1 + z) := by rw [hlam]; rfl
    obtain ⟨rows, hrows⟩ : ∃ rows, rows = (List.range m.spec.r).filter fun i => decide (i ∉ m.spec.lowRows) := ⟨_, rfl⟩
    rw [hlam', ← hrows] at hu
    have hmem : ∀ i, i ∈ rows ↔ i < m.spec.r ∧ i ∉ m.spec.lowRows := by
      intro i
      rw [hrows, List.mem_filter, List.mem_range, decide_eq_true_eq]
    generalize hc : (CentreIn.mk _ _ rows _ _ _ _ _ _) = ci at hu
    generalize hP : (LinePos.mk _ _ _ _ _ _ _ _ _ : LinePos ℝ) = P at hu
    obtain ⟨k1, k2, k3, k4⟩ := centre_cases P (!rows.isEmpty && !m.spec.whNosky.isEmpty) (O.centre ci).1 (O.centre ci).2
    have hus : m.spec.whNosky ≠ [] → (∃ i, i < m.spec.r ∧ i ∉ m.spec.lowRows) →
        (!rows.isEmpty && !m.spec.whNosky.isEmpty) = true := by
      rintro h1 ⟨i, hi⟩
      have h2 : rows ≠ [] := List.ne_nil_of_mem ((hmem i).2 hi)
      simp [h1, h2]
    generalize getM0Lam0 P (!rows.isEmpty && !m.spec.whNosky.isEmpty) (O.centre ci).1 (O.centre ci).2 = res at hu k1 k2 k3 k4
    cases hu
    rw [Option.bind_eq_some_iff] at hk hlo
    subst hP
    simp only at k1 k2 k3 k4
    refine ⟨w, ws, z, y, sky, low, O.centre ci, ?_, ?_, hy, hk, hlo, ⟨ci, rfl, ?_⟩, ⟨res.lam0, ?_, ?_, ?_⟩, res.shift, rfl, ?_, ?_⟩
    · rw [← hws]; exact congrArg LineSet.waves hlines
    · rw [← hz, e2]
    · subst hc
      exact ⟨rfl, rfl, rfl, rfl, rfl, rfl, hmem⟩
    · rw [hlam]; rfl
    · rcases k3 with k3 | ⟨mu, -, h1, h2, -⟩
      · exact Or.inl k3
      · exact Or.inr (h1.trans (congrArg some h2.symm))
    · intro lo hi hall
      have hne : List.ofFn m.spec.wave ≠ [] := List.ne_nil_of_mem ((List.mem_ofFn' _ _).2 ⟨lo, rfl⟩)
      obtain ⟨x, hx, hxm, hxl⟩ := list_min_mem hne
      obtain ⟨x', hx', hxm', hxl'⟩ := list_max_mem hne
      have e1 : x = m.spec.wave lo := by
        obtain ⟨j, rfl⟩ := (List.mem_ofFn' _ _).1 hxm
        exact le_antisymm (hxl _ ((List.mem_ofFn' _ _).2 ⟨lo, rfl⟩)) (hall j).1
      have e2 : x' = m.spec.wave hi := by
        obtain ⟨j, rfl⟩ := (List.mem_ofFn' _ _).1 hxm'
        exact le_antisymm (hall j).2 (hxl' _ ((List.mem_ofFn' _ _).2 ⟨hi, rfl⟩))
      rw [hx, hx', e1, e2] at k3 k4
      simp only [Option.getD_some] at k3 k4
      refine ⟨fun hd => ?_, fun mu hmu hg h1 h2 => k4 mu (hus h1 h2) hmu hg⟩
      rcases k3 with k3 | ⟨mu, -, -, h2, h3⟩
      · exact absurd k3 hd
      · rw [h2]; exact h3
    · intro hd
      rcases k1 with k1 | ⟨mu, -, h1, h2, h3, h4, h5⟩
      · exact absurd k1 hd
      · exact ⟨mu, h1, h2, h3, h4, h5⟩
    · rintro mu hmu ⟨g1, g2, g3⟩ h1 h2
      exact k2 mu (hus h1 h2) hmu g1 g2 g3
  · cases hu

/-- the spectrum of C127 in wavelengths is prepared -/
example (O : PrepOracle) : ∃ s t, s.spec.prepared = false ∧ s.spec.specType = "wave" ∧ s.spec.lam0 = none ∧
    prepare O s = (t, none) := by
  obtain ⟨t, ht, -⟩ := C128_prepares O skyAll (skyAll_preparable O) (Or.inl ⟨_, rfl⟩)
  exact ⟨skyAll, t, rfl, rfl, rfl, ht⟩

/-! ## C171 -/

/-- **C171**: after a successful preparation the angle between slit and galaxy is known.  A given angle is kept; otherwise it is the
difference of the position angles modulo 180 degrees, between -90 and 90 degrees, stored together with its absolute value. -/
theorem C171_angle (O : PrepOracle) (s t : PrepAll) (h0 : s.spec.prepared = false) (h : prepare O s = (t, none)) :
    (∀ d, s.gal.deltPA = some d → t.gal.deltPA = some d ∧ t.gal.deltPAabs = s.gal.deltPAabs) ∧
    (s.gal.deltPA = none → s.gal.generateModel = false ∧ ∃ ser slit img d, s.gal.sersicPA = some ser ∧ s.spec.slitPA = some slit ∧
      s.gal.imgPA = some (some img) ∧ t.gal.deltPA = some d ∧ t.gal.deltPAabs = some |d| ∧
      (Real.cos ((ser - (slit - img)) * Real.pi / 180) ≠ 0 →
        -90 < d ∧ d < 90 ∧ ∃ k : ℤ, d = ser - (slit - img) - k * 180)) := by
  obtain ⟨a, b, m, n, u, ha, hb, hm, hn, hu, rfl⟩ := prepare_stages h0 h
  obtain ⟨-, e2, -, e4⟩ := firstSteps_keep ha
  obtain ⟨la, rfl, -⟩ := derivedStep_ok hb
  obtain ⟨p, q, rfl⟩ := centreStep_ok hu
  have h1 : m.gal.deltPA = s.gal.deltPA := (congrArg (fun p => p.2.1) hm).trans (congrArg PrepGal.deltPA e2)
  have h2 : m.gal.deltPAabs = s.gal.deltPAabs := (congrArg (fun p => p.2.2.1) hm).trans (congrArg PrepGal.deltPAabs e2)
  have h3 : m.gal.generateModel = s.gal.generateModel :=
    (congrArg (fun p => p.2.2.2.1) hm).trans (congrArg PrepGal.generateModel e2)
  have h4 : m.gal.imgPA = s.gal.imgPA := (congrArg (fun p => p.2.2.2.2.1) hm).trans (congrArg PrepGal.imgPA e2)
  have h5 : m.gal.sersicPA = s.gal.sersicPA := (congrArg (fun p => p.2.2.2.2.2.1) hm).trans (congrArg PrepGal.sersicPA e2)
  have h6 : m.spec.slitPA = s.spec.slitPA := (congrArg (fun p => p.2.2.2.2.2.2) hm).trans e4
  unfold angleStep at hn
  rw [h1, h3, h4, h5, h6] at hn
  constructor
  · intro d hd
    rw [hd] at hn
    cases hn
    exact ⟨h1.trans hd, h2⟩
  · intro hd
    rw [hd] at hn
    dsimp only at hn
    split at hn
    · cases hn
    · rename_i hg
      split at hn
      · cases hn
      · cases hn
      · rename_i img himg
        split at hn
        · rename_i slit ser hslit hser
          split at hn
          · cases hn
          · rename_i A hA
            cases hn
            refine ⟨by simpa using hg, ser, slit, img, Real.arctan (Real.tan ((ser - (slit - img)) * Real.pi / 180)) * 180 / Real.pi,
              hser, hslit, himg, ?_, ?_, fun hc => ?_⟩
            · cases hA; rfl
            · cases hA; rfl
            · obtain ⟨g', d, hg', hd', -, r1, r2, r3⟩ := C24_normalised ⟨false, ser, slit, img, none, none⟩ rfl hc
              cases hg'
              have hd' : Real.arctan (Real.tan ((ser - (slit - img)) * Real.pi / 180)) * 180 / Real.pi = d := Option.some.inj hd'
              rw [hd']
              exact ⟨r1, r2, r3⟩
        · cases hn

/-- the spectrum of C127 with position angles instead of the misalignment is prepared -/
example (O : PrepOracle) : ∃ s t, s.spec.prepared = false ∧ s.gal.deltPA = none ∧ s.gal.sersicPA = some 100 ∧
    s.spec.slitPA = some 30 ∧ s.gal.imgPA = some (some 10) ∧ prepare O s = (t, none) := by
  obtain ⟨s, hs⟩ : ∃ s : PrepAll, s = ⟨{ skyObs with slitPA := some 30 },
    { skyGal with deltPA := none, sersicPA := some 100, imgPA := some (some 10) }⟩ := ⟨_, rfl⟩
  have hp : PreparableCore O s := by
    subst hs
    exact {
      fresh := ⟨rfl, rfl⟩
      finite := fun m hm => by cases hm
      rows := le_refl 15
      columns := ⟨"HA", [], 2, [], [1], (0, 10), (0, 10), (0, 10), 0, rfl, Or.inl rfl, Or.inl rfl, Or.inl rfl, rfl, rfl,
        ⟨(0 : Fin 5), skyAll_inRanges 0⟩, Or.inl rfl, Or.inl rfl⟩
      sky := Or.inl ⟨_, rfl, rfl⟩
      ypos := ⟨_, rfl⟩
      weighting := Or.inl rfl }
  obtain ⟨t, ht, -⟩ := C128_prepares O s hp (by subst hs; exact Or.inr ⟨rfl, _, _, _, rfl, rfl, rfl⟩)
  exact ⟨s, t, by subst hs; rfl, by subst hs; rfl, by subst hs; rfl, by subst hs; rfl, by subst hs; rfl, ht⟩

end Misfit
