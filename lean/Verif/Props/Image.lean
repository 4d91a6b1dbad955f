import Verif.Lemmas.ImageScale

/-!
# The model image as a whole

C78: every image is non-negative.  C79: the image is proportional to the intensity profile.
-/

namespace Misfit

/-- What a physical set-up requires for C78: light is not negative, rest wavelengths are positive,
sizes are not negative, and the point spread function has no negative dither images. -/
structure Physical (cfg : AperCfg) : Prop where
  int : ∀ r z, 0 ≤ cfg.int r z
  rest : ∀ r ∈ cfg.restwave, 0 < r
  ratios : ∀ r ∈ cfg.ratios, 0 ≤ r
  pixscale : 0 ≤ cfg.pixscale
  slit : 0 ≤ cfg.slit
  dither : cfg.psf.kind = .gaussian → cfg.psf.dither = none
  beta : cfg.psf.kind = .moffat → 1 ≤ cfg.psf.beta

theorem fromEnd_getLast (theta : List ℝ) (z : ℝ) (h : theta.getLast? = some z) : fromEnd theta 1 = .ok z := by
  unfold fromEnd
  rw [Nat.sub_self, ← List.head?_eq_getElem?, List.head?_reverse, h]

theorem calcs_nonneg (cfg : AperCfg) (hp : Physical cfg) (s : AperState) (theta0 : List ℝ) (z0 : ℝ)
    (hs : setupCalcs cfg theta0 = .ok s.fixed) (hk : s.kin.shape = (some 2, some 1))
    (hz0 : theta0.getLast? = some z0) (hz : 0 < 1 + z0)
    (va rt sig : ℝ) (rest : List ℝ) (hsig : cfg.absvalsigma = true ∨ 0 ≤ sig) (img : Arr2)
    (h : (doModelCalcs cfg s (va :: rt :: sig :: rest)).2 = .ok (some img)) :
    ∀ i j, 0 ≤ img.val i j := by
  obtain ⟨k, kin', wave, sg, a, b, hu, _, he, ⟨s1, hf1, hk1, hfl⟩, hb, rfl⟩ := doModelCalcs_inv _ _ _ _ h
  obtain ⟨z, m0shift, hz1, _, hfz, hg, _, _, hI⟩ := setupCalcs_inv _ _ _ hs
  rw [fromEnd_getLast _ _ hz0] at hz1
  cases hz1
  have hd := setupGrid_delta _ _ hg hp.pixscale hp.slit
  have hsg : 0 ≤ sg := by
    generalize s.kin = kin0 at hk hu
    obtain ⟨t, v, d⟩ := kin0
    rcases v with _ | v
    · simp [KinProfile.shape] at hk
    rcases d with _ | d
    · simp [KinProfile.shape] at hk
    simp [KinProfile.shape] at hk
    have : k = ⟨va :: rt :: sig :: rest, some ⟨[va, rt], 2⟩, some ⟨[sig], 1⟩⟩ := by
      simp only [KinProfile.updateTheta, Option.map_some, hk.1, hk.2, Except.ok.injEq] at hu
      rw [← hu]
      simp
    have hdisp : s1.kin.disp = some ⟨[sig], 1⟩ := by rw [hk1, this]
    rcases applySigmaFloor_value cfg s1 _ sig sg [] hdisp rfl hfl with h1 | ⟨_, _, h1⟩
    · rw [h1]
      split
      · exact abs_nonneg _
      · rename_i hn
        exact hsig.resolve_left hn
    · exact (abs_nonneg _).trans h1.le
  have ha := evalImage_nonneg _ _ _ _ _ _ he hsg (fun c b a => by rw [hI]; exact hp.int _ _) hd.1 hd.2
    (by rw [hfz]; exact hz) hp.rest hp.ratios hp.dither hp.beta
  have hbn : ∀ i j, 0 ≤ b.val i j := by
    by_cases had : cfg.adaptive = true
    · rw [if_pos had] at hb
      exact rebinArr_nonneg _ _ _ _ ha hb
    · rw [if_neg had] at hb
      cases hb
      exact ha
  exact fun i j => hbn j i

/-- **C78** For a physical set-up, whatever image a model returns has no negative pixel: at
construction and at any later evaluation, after any sequence of earlier evaluations (including
failed ones), with or without PSF, instrumental broadening, adaptive wavelength sampling and
dispersion floor.  The dispersion parameter must be non-negative unless its absolute value is
taken. -/
theorem C78_nonneg (cfg : AperCfg) (hp : Physical cfg) (kin : KinProfile) (hk : kin.shape = (some 2, some 1))
    (theta0 : List ℝ) (z0 : ℝ) (hz0 : theta0.getLast? = some z0) (hz : 0 < 1 + z0)
    (s0 : AperState) (r0 : Except PyErr (Option Arr2)) (hb : buildModel cfg kin theta0 = .ok (s0, r0)) :
    (∀ va rt sig rest img, theta0 = va :: rt :: sig :: rest → (cfg.absvalsigma = true ∨ 0 ≤ sig) →
      r0 = .ok (some img) → ∀ i j, 0 ≤ img.val i j) ∧
    ∀ (hist : List (List ℝ)) va rt sig rest img, (cfg.absvalsigma = true ∨ 0 ≤ sig) →
      (updateModel cfg (runUpdates cfg s0 hist) (va :: rt :: sig :: rest)).2 = .ok (some img) →
      ∀ i j, 0 ≤ img.val i j := by
  unfold buildModel at hb
  cases hf : setupCalcs cfg theta0 with
  | error e => rw [hf] at hb; cases hb
  | ok f =>
    rw [hf] at hb
    simp only [Except.ok.injEq] at hb
    have h0 := doModelCalcs_keeps cfg ⟨f, kin, cfg.wave, avgDiff cfg.wave⟩ theta0
    rw [hb] at h0
    constructor
    · intro va rt sig rest img ht hsig hr
      refine calcs_nonneg cfg hp ⟨f, kin, cfg.wave, avgDiff cfg.wave⟩ theta0 z0 hf hk hz0 hz va rt sig rest
        hsig img ?_
      rw [← ht, hb]
      exact hr
    · intro hist va rt sig rest img hsig hr
      have h1 := runUpdates_keeps cfg hist s0
      refine calcs_nonneg cfg hp (runUpdates cfg s0 hist) theta0 z0 ?_ ?_ hz0 hz va rt sig rest hsig img hr
      · rw [h1.1, h0.1]; exact hf
      · rw [h1.2, h0.2.1]; exact hk

theorem one_physical (wave : List ℝ) (a b : Bool) (f : ℝ) : Physical (oneCell wave a b f) where
  int := fun _ _ => zero_le_one
  rest := fun r hr => by simp [oneCell] at hr; rw [hr]; exact one_pos
  ratios := fun r hr => by simp [oneCell] at hr; rw [hr]; exact zero_le_one
  pixscale := zero_le_one
  slit := zero_le_one
  dither := fun _ => rfl
  beta := fun h => by cases h

/-- the hypotheses of C78 are met by a model with a bright pixel -/
example : ∃ s img, buildModel (oneCell [1, 2] false true 3) ⟨[], some ⟨[], 2⟩, some ⟨[], 1⟩⟩ [0, 1, 1, 0, 0] =
    .ok (s, .ok (some img)) ∧ (∀ i j, 0 ≤ img.val i j) ∧ ∃ i j, 0 < img.val i j := by
  have hb := one_build [1, 2] true 3 [] [] [] 0 1 1 0 one_ne_zero one_ne_zero (by norm_num) (by simp)
  refine ⟨_, _, hb, (C78_nonneg _ (one_physical _ _ _ _) _ rfl [0, 1, 1, 0, 0] 0 rfl (by norm_num) _ _ hb).1
    0 1 1 [0, 0] _ rfl (Or.inr zero_le_one) rfl, 0, (0 : Fin 2), ?_⟩
  have := cKms_pos
  simp only [cellSpec, gaussDensity]
  positivity

/-- the sign condition on the dispersion cannot be dropped: a negative dispersion gives a negative
pixel -/
theorem C78_sign_needed : ∃ cfg kin theta s img, Physical cfg ∧ KinProfile.shape kin = (some 2, some 1) ∧
    buildModel cfg kin theta = .ok (s, .ok (some img)) ∧ ∃ i j, img.val i j < 0 := by
  have hb := one_build [1, 2] true 3 [] [] [] 0 1 (-1) 0 one_ne_zero (by norm_num) (by norm_num) (by simp)
  refine ⟨_, _, _, _, _, one_physical _ _ _ _, rfl, hb, 0, (0 : Fin 2), ?_⟩
  have := cKms_pos
  have hpi : 0 < Real.sqrt (2 * Real.pi) := by positivity
  simp only [cellSpec, gaussDensity]
  apply mul_neg_of_neg_of_pos _ (Real.exp_pos _)
  apply div_neg_of_pos_of_neg one_pos
  apply mul_neg_of_neg_of_pos _ hpi
  rw [add_zero, mul_one, mul_one]
  exact div_neg_of_neg_of_pos (by norm_num) this

theorem runUpdates_scale (k : ℝ) (hk : 0 < k) (cfg : AperCfg) (hist : List (List ℝ)) (s : AperState) :
    runUpdates (cfg.smul k) (s.smul k) hist = (runUpdates cfg s hist).smul k := by
  induction hist generalizing s with
  | nil => rfl
  | cons t l ih =>
    have : runUpdates (cfg.smul k) (s.smul k) (t :: l) =
      runUpdates (cfg.smul k) (doModelCalcs (cfg.smul k) (s.smul k) t).1 l := rfl
    rw [this, doModelCalcs_scale k hk, ih]
    rfl

/-- **C79** The model is proportional to the light: if the intensity profile of the second model is
`k > 0` times that of the first and everything else is the same, then the second model can be built
exactly when the first can (with the same exception otherwise), and then after any sequence of
evaluations each evaluation of the second returns the image of the first with every pixel multiplied
by `k`, or fails with the same exception, or is non-finite too. -/
theorem C79_amplitude (k : ℝ) (hk : 0 < k) (cfg cfg' : AperCfg) (hc : cfg'.int = fun r z => k * cfg.int r z)
    (hsame : { cfg' with int := cfg.int } = cfg) (kin : KinProfile) (theta0 : List ℝ) :
    (∀ e, buildModel cfg kin theta0 = .error e ↔ buildModel cfg' kin theta0 = .error e) ∧
    ∀ s0 r0 s0' r0', buildModel cfg kin theta0 = .ok (s0, r0) → buildModel cfg' kin theta0 = .ok (s0', r0') →
      r0' = r0.map (Option.map fun a => ⟨a.n, a.m, fun i j => k * a.val i j⟩) ∧
      ∀ hist theta, (updateModel cfg' (runUpdates cfg' s0' hist) theta).2 =
        (updateModel cfg (runUpdates cfg s0 hist) theta).2.map
          (Option.map fun a => ⟨a.n, a.m, fun i j => k * a.val i j⟩) := by
  have hcfg : cfg' = cfg.smul k := by
    unfold AperCfg.smul
    rw [← hc, ← hsame]
  subst hcfg
  have hset := setupCalcs_scale k cfg theta0
  unfold buildModel
  rw [hset]
  cases hf : setupCalcs cfg theta0 with
  | error e => exact ⟨fun _ => Iff.rfl, fun _ _ _ _ h => by cases h⟩
  | ok f =>
    simp only [Except.map]
    have hd := doModelCalcs_scale k hk cfg ⟨f, kin, cfg.wave, avgDiff cfg.wave⟩ theta0
    have hst : (⟨f.smul k, kin, (cfg.smul k).wave, avgDiff (cfg.smul k).wave⟩ : AperState) =
      AperState.smul k ⟨f, kin, cfg.wave, avgDiff cfg.wave⟩ := rfl
    rw [hst, hd]
    refine ⟨fun _ => ⟨fun h => (by simp at h), fun h => (by simp at h)⟩, ?_⟩
    intro s0 r0 s0' r0' h h'
    simp only [Except.ok.injEq] at h h'
    rw [h] at h'
    simp only [Prod.mk.injEq] at h'
    refine ⟨h'.2.symm, fun hist theta => ?_⟩
    rw [← h'.1, runUpdates_scale k hk]
    unfold updateModel
    rw [doModelCalcs_scale k hk]
    rfl

/-- twice the light: twice the pixel -/
example : ∃ s img, buildModel { oneCell [1, 2] false true 3 with int := fun _ _ => 2 }
    ⟨[], some ⟨[], 2⟩, some ⟨[], 1⟩⟩ [0, 1, 1, 0, 0] = .ok (s, .ok (some img)) ∧
    ∃ i j, img.val i j = 2 * cellSpec 1 0 1 := by
  have hb := one_build [1, 2] true 3 [] [] [] 0 1 1 0 one_ne_zero one_ne_zero (by norm_num) (by simp)
  have h := C79_amplitude 2 two_pos (oneCell [1, 2] false true 3)
    { oneCell [1, 2] false true 3 with int := fun _ _ => 2 } (by simp [oneCell]) rfl
    ⟨[], some ⟨[], 2⟩, some ⟨[], 1⟩⟩ [0, 1, 1, 0, 0]
  cases hb' : buildModel { oneCell [1, 2] false true 3 with int := fun _ _ => 2 }
      ⟨[], some ⟨[], 2⟩, some ⟨[], 1⟩⟩ [0, 1, 1, 0, 0] with
  | error e =>
    have := (h.1 e).2 hb'
    rw [hb] at this
    cases this
  | ok p =>
    obtain ⟨s', r'⟩ := p
    have h2 := (h.2 _ _ _ _ hb hb').1
    refine ⟨s', _, by rw [h2]; rfl, 0, (0 : Fin 2), rfl⟩

end Misfit
