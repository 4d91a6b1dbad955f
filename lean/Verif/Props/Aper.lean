import Verif.Lemmas.OneCell
import Verif.Props.Collapse
import Verif.Props.PSF

/-!
# C37, C38, C57, C58: evaluating and updating the 2D aperture model
-/

namespace Misfit

/-! ## C37 -/

/-- a sequence of `update_model` calls -/
noncomputable def runUpdates (cfg : AperCfg) (s : AperState) (hist : List (List ℝ)) : AperState :=
  hist.foldl (fun s theta => (updateModel cfg s theta).1) s

/-- every call of the sequence returns without exception -/
def AllReturn (cfg : AperCfg) : AperState → List (List ℝ) → Prop
  | _, [] => True
  | s, theta :: hist =>
    (∃ r, (updateModel cfg s theta).2 = .ok r) ∧ AllReturn cfg (updateModel cfg s theta).1 hist

/-- the wavelength arrays are those of the galaxy -/
def Restored (cfg : AperCfg) (s : AperState) : Prop :=
  s.wave = cfg.wave ∧ s.deltWave = avgDiff cfg.wave

theorem setupCalcs_real (cfg : AperCfg) (theta : List ℝ) (f : AperFixed)
    (h : setupCalcs cfg theta = .ok f) : f.waveReal = cfg.wave ∧ f.deltReal = avgDiff cfg.wave := by
  replace h := (setupCalcs_ok h).1
  unfold setupArrays at h
  simp only [bind, Except.bind] at h
  split at h
  · cases h
  · split at h
    · cases h
    · split at h
      · cases h
      · split at h
        · cases h
        · cases h; exact ⟨rfl, rfl⟩

/-- the invariant kept by a sequence of updates -/
theorem runUpdates_inv (cfg : AperCfg) (f : AperFixed) (hf : f.waveReal = cfg.wave ∧ f.deltReal = avgDiff cfg.wave)
    (sh : Option Nat × Option Nat) : ∀ (hist : List (List ℝ)) (s : AperState), s.fixed = f →
    s.kin.shape = sh → Restored cfg s → (cfg.adaptive = true → AllReturn cfg s hist) →
    (runUpdates cfg s hist).fixed = f ∧ (runUpdates cfg s hist).kin.shape = sh ∧
      Restored cfg (runUpdates cfg s hist) := by
  intro hist
  induction hist with
  | nil => exact fun s h1 h2 h3 _ => ⟨h1, h2, h3⟩
  | cons theta hist ih =>
    intro s h1 h2 h3 h4
    have hk := doModelCalcs_keeps cfg s theta
    refine ih (updateModel cfg s theta).1 (hk.1.trans h1) (hk.2.1.trans h2) ?_ ?_
    · by_cases ha : cfg.adaptive = true
      · obtain ⟨⟨r, hr⟩, _⟩ := h4 ha
        have := hk.2.2.2 ha r hr
        rw [h1, hf.1, hf.2] at this
        exact this
      · have := hk.2.2.1 (by simpa using ha)
        exact ⟨this.1.trans h3.1, this.2.trans h3.2⟩
    · intro ha; exact (h4 ha).2

theorem fromEnd_congr (t t' : List ℝ) (h : t.reverse.take 2 = t'.reverse.take 2) :
    fromEnd t 1 = fromEnd t' 1 ∧ fromEnd t 2 = fromEnd t' 2 := by
  have h0 : t.reverse[0]? = t'.reverse[0]? := by
    have := congrArg (fun l : List ℝ => l[0]?) h
    simpa using this
  have h1 : t.reverse[1]? = t'.reverse[1]? := by
    have := congrArg (fun l : List ℝ => l[1]?) h
    simpa using this
  unfold fromEnd
  simp only [Nat.sub_self, Nat.reduceSub, h0, h1, and_self]

theorem setupCalcs_congr (cfg : AperCfg) (t t' : List ℝ) (h : t.reverse.take 2 = t'.reverse.take 2) :
    setupCalcs cfg t = setupCalcs cfg t' := by
  obtain ⟨h1, h2⟩ := fromEnd_congr t t' h
  unfold setupCalcs setupArrays
  rw [h1, h2]

/-- C37, the full statement: after building a model with `theta0` and any history of updates
(without exceptions), an update returns what a new model would return. -/
def UpdateIsFresh (cfg : AperCfg) (kin : KinProfile) (theta0 : List ℝ) (hist : List (List ℝ))
    (theta : List ℝ) : Prop :=
  ∀ s0 r0, buildModel cfg kin theta0 = .ok (s0, r0) →
    (cfg.adaptive = true → (∃ r, r0 = .ok r) ∧ AllReturn cfg s0 hist) →
    ∃ s', buildModel cfg kin theta = .ok (s', (updateModel cfg (runUpdates cfg s0 hist) theta).2)

/-- C37 holds when the last two entries (centre shift and redshift) are those the model was built
with.  Missing: new values of these two, see `C37_false`. -/
theorem C37_update_partial (cfg : AperCfg) (kin : KinProfile) (theta0 : List ℝ) (hist : List (List ℝ))
    (theta : List ℝ) (hlast : theta.reverse.take 2 = theta0.reverse.take 2) :
    UpdateIsFresh cfg kin theta0 hist theta := by
  intro s0 r0 hb hok
  unfold buildModel at hb ⊢
  rw [setupCalcs_congr cfg theta theta0 hlast]
  cases hsu : setupCalcs cfg theta0 with
  | error e => rw [hsu] at hb; cases hb
  | ok f =>
    rw [hsu] at hb
    simp only [Except.ok.injEq] at hb
    have hreal := setupCalcs_real cfg theta0 f hsu
    have hk := doModelCalcs_keeps cfg ⟨f, kin, cfg.wave, avgDiff cfg.wave⟩ theta0
    rw [hb] at hk
    simp only at hk
    have hres : Restored cfg s0 := by
      by_cases ha : cfg.adaptive = true
      · obtain ⟨⟨r, hr⟩, _⟩ := hok ha
        have := hk.2.2.2 ha r hr
        rw [hreal.1, hreal.2] at this
        exact this
      · exact hk.2.2.1 (by simpa using ha)
    have hinv := runUpdates_inv cfg f hreal kin.shape hist s0 hk.1 hk.2.1 hres (fun ha => (hok ha).2)
    refine ⟨(doModelCalcs cfg ⟨f, kin, cfg.wave, avgDiff cfg.wave⟩ theta).1, ?_⟩
    simp only
    have := doModelCalcs_congr cfg (runUpdates cfg s0 hist) ⟨f, kin, cfg.wave, avgDiff cfg.wave⟩ theta
      hinv.1 hinv.2.1 hinv.2.2.1 hinv.2.2.2
    unfold updateModel
    rw [this]

/-- C37, what an update really does with the five fiducial parameters: it returns what a new model
would return if centre shift and redshift were still those of the first build. -/
theorem C37_exact (cfg : AperCfg) (t v d : List ℝ) (va0 rt0 sig0 m0 z0 va rt sig m z : ℝ)
    (hist : List (List ℝ)) (s0 : AperState) (r0 : Except PyErr (Option Arr2))
    (hb : buildModel cfg ⟨t, some ⟨v, 2⟩, some ⟨d, 1⟩⟩ [va0, rt0, sig0, m0, z0] = .ok (s0, r0))
    (hok : cfg.adaptive = true → (∃ r, r0 = .ok r) ∧ AllReturn cfg s0 hist) :
    ∃ s', buildModel cfg ⟨t, some ⟨v, 2⟩, some ⟨d, 1⟩⟩ [va, rt, sig, m0, z0] =
      .ok (s', (updateModel cfg (runUpdates cfg s0 hist) [va, rt, sig, m, z]).2) := by
  obtain ⟨s', h⟩ := C37_update_partial cfg ⟨t, some ⟨v, 2⟩, some ⟨d, 1⟩⟩ [va0, rt0, sig0, m0, z0] hist
    [va, rt, sig, m0, z0] rfl s0 r0 hb hok
  refine ⟨s', ?_⟩
  rw [h]
  congr 2
  -- the state after the history has the same parameter numbers
  have hshape : (runUpdates cfg s0 hist).kin.shape = (some 2, some 1) := by
    unfold buildModel at hb
    split at hb
    · cases hb
    · rename_i f hsu
      simp only [Except.ok.injEq] at hb
      have hk := doModelCalcs_keeps cfg ⟨f, ⟨t, some ⟨v, 2⟩, some ⟨d, 1⟩⟩, cfg.wave, avgDiff cfg.wave⟩
        [va0, rt0, sig0, m0, z0]
      rw [hb] at hk
      have : ∀ (hist : List (List ℝ)) (s : AperState), (runUpdates cfg s hist).kin.shape = s.kin.shape := by
        intro hist
        induction hist with
        | nil => exact fun _ => rfl
        | cons th hist ih => exact fun s => (ih _).trans (doModelCalcs_keeps cfg s th).2.1
      rw [this hist s0, hk.2.1]
      rfl
  unfold updateModel
  generalize runUpdates cfg s0 hist = S at *
  rw [doModelCalcs_eq, doModelCalcs_eq]
  have hcongr : ∀ th, S.kin.updateTheta th =
      KinProfile.updateTheta ⟨t, some ⟨v, 2⟩, some ⟨d, 1⟩⟩ th := fun th =>
    updateTheta_congr _ _ (by rw [hshape]; rfl) th
  rw [hcongr, hcongr, fiducial_update, fiducial_update]
  simp only
  exact (calcsAfter_setTheta cfg
    { S with kin := ⟨[va, rt, sig, m, z], some ⟨[va, rt], 2⟩, some ⟨[sig], 1⟩⟩ } [va, rt, sig, m0, z0])

/-- spectrum of the single cell with dispersion `sig ≠ 0` at redshift `z` -/
noncomputable def cellSpec (sig z lam : ℝ) : ℝ :=
  gaussDensity (1 * (1 + z) * (1 + 0 / cKms)) (sig / cKms * (1 * (1 + z))) lam

theorem one_cube (wave : List ℝ) (sig z : ℝ) (hs : sig ≠ 0) (hz : 1 + z ≠ 0) :
    addSigmaCollapseZ (fun _ _ _ => 1 : Cube 1 1 1 ℝ) (fun _ _ _ => 0) (fun _ _ _ => sig) wave.get z [1] [1]
      1 .wave = .ok fun w _ _ => .fin (cellSpec sig z (wave.get w)) := by
  rw [addSigma_broad _ _ _ _ _ _ _ _ (le_refl _) one_pos one_pos one_pos (fun _ _ _ => hs) hz
    (fun r hr => by simp at hr; rw [hr]; exact one_ne_zero)]
  congr 1
  funext w j k
  simp [lineDensity, cellSpec]

/-- a state of the single cell model whose profile has the fiducial parameter numbers -/
noncomputable def oneState (wave0 : List ℝ) (adaptive : Bool) (z0 : ℝ) (t v d wave : List ℝ) (dw : ℝ) :
    AperState := ⟨oneFixed wave0 adaptive z0, ⟨t, some ⟨v, 2⟩, some ⟨d, 1⟩⟩, wave, dw⟩

/-- without upsampling the single cell model returns the spectrum at its wavelengths -/
theorem one_calcs (wave : List ℝ) (npFloat : Bool) (factor z0 : ℝ) (t v d : List ℝ) (dw va rt sig m z : ℝ)
    (hrt : rt ≠ 0) (hs : sig ≠ 0) (hz : 1 + z0 ≠ 0) (hw : 0 < wave.length) :
    doModelCalcs (oneCell wave false npFloat factor) (oneState wave false z0 t v d wave dw)
      [va, rt, sig, m, z] =
    (oneState wave false z0 [va, rt, sig, m, z] [va, rt] [sig] wave dw,
      .ok (some ⟨1, wave.length, fun _ w => cellSpec sig z0 (wave.get w)⟩)) := by
  rw [doModelCalcs_eq]
  unfold oneState
  simp only
  rw [fiducial_update]
  simp only
  unfold calcsAfter
  have ha : ¬ (oneCell wave false npFloat factor).adaptive = true := Bool.false_ne_true
  simp only [if_neg ha]
  have hfl : applySigmaFloor (oneCell wave false npFloat factor)
      ⟨oneFixed wave false z0, ⟨[va, rt, sig, m, z], some ⟨[va, rt], 2⟩, some ⟨[sig], 1⟩⟩, wave, dw⟩ =
      (⟨oneFixed wave false z0, ⟨[va, rt, sig, m, z], some ⟨[va, rt], 2⟩, some ⟨[sig], 1⟩⟩, wave, dw⟩,
        .ok sig) := by
    unfold applySigmaFloor
    have h1 : ¬ (oneCell wave false npFloat factor).absvalsigma = true := Bool.false_ne_true
    have h2 : ¬ (oneCell wave false npFloat factor).sigmaFloor = true := Bool.false_ne_true
    simp only [if_neg h1, if_neg h2]
    rfl
  rw [hfl]
  simp only
  rw [one_eval wave wave false npFloat factor z0 va rt sig hrt _ 2 _ _ hw (one_cube wave sig z0 hs hz)]
  rfl

theorem one_build (wave : List ℝ) (npFloat : Bool) (factor : ℝ) (t v d : List ℝ) (va rt sig z : ℝ)
    (hrt : rt ≠ 0) (hs : sig ≠ 0) (hz : 1 + z ≠ 0) (hw : 0 < wave.length) :
    buildModel (oneCell wave false npFloat factor) ⟨t, some ⟨v, 2⟩, some ⟨d, 1⟩⟩ [va, rt, sig, 0, z] =
    .ok (oneState wave false z [va, rt, sig, 0, z] [va, rt] [sig] wave (avgDiff wave),
      .ok (some ⟨1, wave.length, fun _ w => cellSpec sig z (wave.get w)⟩)) := by
  unfold buildModel
  rw [oneFixed_eq]
  simp only
  congr 1
  exact one_calcs wave npFloat factor z t v d (avgDiff wave) va rt sig 0 z hrt hs hz hw

theorem cellSpec_redshift : cellSpec 1 1 1 < cellSpec 1 0 1 := by
  have hc := cKms_pos
  have hpi : 0 < Real.sqrt (2 * Real.pi) := by positivity
  have e0 : cellSpec 1 0 1 = 1 / (1 / cKms * Real.sqrt (2 * Real.pi)) := by
    simp [cellSpec, gaussDensity]
  have e1 : cellSpec 1 1 1 ≤ 1 / (2 / cKms * Real.sqrt (2 * Real.pi)) := by
    unfold cellSpec gaussDensity
    have hE : ∀ x y : ℝ, 0 < y → Real.exp (-x ^ 2 / (2 * y ^ 2)) ≤ 1 := fun x y _ => by
      apply Real.exp_le_one_iff.2
      rw [neg_div]
      exact neg_nonpos.2 (by positivity)
    have e2 : (1 : ℝ) / cKms * (1 * (1 + 1)) = 2 / cKms := by ring
    rw [e2]
    calc _ ≤ 1 / (2 / cKms * Real.sqrt (2 * Real.pi)) * 1 :=
          mul_le_mul_of_nonneg_left (hE _ _ (by positivity)) (by positivity)
      _ = _ := mul_one _
  refine e1.trans_lt ?_
  rw [e0]
  apply one_div_lt_one_div_of_lt (by positivity)
  apply mul_lt_mul_of_pos_right _ hpi
  exact div_lt_div_of_pos_right (by norm_num) hc

/-- C37 is false: a model built at redshift 0 and updated to redshift 1 still shows the line at
redshift 0. -/
theorem C37_false : ∃ cfg kin theta0 theta, ¬ UpdateIsFresh cfg kin theta0 [] theta := by
  refine ⟨oneCell [1, 2] false true 3, ⟨[], some ⟨[], 2⟩, some ⟨[], 1⟩⟩, [0, 1, 1, 0, 0],
    [0, 1, 1, 0, 1], fun h => ?_⟩
  have hb0 := one_build [1, 2] true 3 [] [] [] 0 1 1 0 one_ne_zero one_ne_zero (by norm_num) (by simp)
  have hb1 := one_build [1, 2] true 3 [] [] [] 0 1 1 1 one_ne_zero one_ne_zero (by norm_num) (by simp)
  obtain ⟨s', h2⟩ := h _ _ hb0 (fun ha => absurd ha Bool.false_ne_true)
  rw [hb1] at h2
  simp only [Except.ok.injEq, Prod.mk.injEq] at h2
  have h3 := h2.2
  have hu := one_calcs [1, 2] true 3 0 [0, 1, 1, 0, 0] [0, 1] [1] (avgDiff [1, 2]) 0 1 1 0 1 one_ne_zero
    one_ne_zero (by norm_num) (by simp)
  have h4 : (updateModel (oneCell [1, 2] false true 3) (runUpdates (oneCell [1, 2] false true 3)
      (oneState [1, 2] false 0 [0, 1, 1, 0, 0] [0, 1] [1] [1, 2] (avgDiff [1, 2])) [])
      [0, 1, 1, 0, 1]).2 = .ok (some ⟨1, 2, fun _ w => cellSpec 1 0 (([1, 2] : List ℝ).get w)⟩) :=
    congrArg (fun p => p.2) hu
  rw [h4] at h3
  simp only [Except.ok.injEq, Option.some.injEq] at h3
  have h5 : (fun (_ : Fin 1) (w : Fin 2) => cellSpec 1 1 (([1, 2] : List ℝ).get w)) =
      fun (_ : Fin 1) (w : Fin 2) => cellSpec 1 0 (([1, 2] : List ℝ).get w) := by
    have := (Arr2.mk.injEq _ _ _ _ _ _).mp h3
    exact eq_of_heq this.2.2
  have h6 : cellSpec 1 1 1 = cellSpec 1 0 1 := congrFun (congrFun h5 0) 0
  exact cellSpec_redshift.ne h6

/-- non-trivial instance of `C37_update_partial`: a history that visits other redshifts and
dispersions, back to the redshift of the build -/
example : UpdateIsFresh (oneCell [1, 2] false true 3) ⟨[], some ⟨[], 2⟩, some ⟨[], 1⟩⟩
    [100, 1, 50, 0, 0] [[120, 1, 60, 0, 0.5], [90, 2, 1, 0.1, 0]] [110, 1, 55, 0, 0] :=
  C37_update_partial _ _ _ _ _ rfl

end Misfit
