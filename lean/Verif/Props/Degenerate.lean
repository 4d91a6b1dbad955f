import Verif.Props.ImageTurn
import Verif.Props.Continuous
import Mathlib.Analysis.SpecialFunctions.Trigonometric.Arctan

/-!
# C229: parameters that cannot be told apart

Changing the signs of both the rotation speed and the turnover radius leaves the image and the likelihood as they are; without rotation
the turnover radius has no effect; face-on neither of them has.  Two other pairs of these parameters give different velocity fields.
-/

namespace Misfit

/-! ## Velocity fields -/

theorem velocity_neg (va rt i x y : ℝ) : discVelocity (-va) (-rt) i x y = discVelocity va rt i x y := by
  unfold discVelocity
  simp only [div_neg, Real.arctan_neg]
  split_ifs
  · rfl
  · ring

theorem velocity_on_axis (va rt i R : ℝ) (hR : 0 < R) : discVelocity va rt i 0 R = 2 / Real.pi * va * Real.arctan (R / rt) * i := by
  unfold discVelocity
  have : √((0 : ℝ) ^ 2 + R ^ 2) = R := by rw [show (0 : ℝ) ^ 2 + R ^ 2 = R ^ 2 by ring, Real.sqrt_sq hR.le]
  simp only [this]
  rw [if_neg hR.ne', div_self hR.ne', mul_one]

theorem arctan_ray (va rt : ℝ) (hrt : 0 < rt) :
    Filter.Tendsto (fun R => va * Real.arctan (R / rt)) Filter.atTop (nhds (va * (Real.pi / 2))) :=
  (((tendsto_nhds_of_tendsto_nhdsWithin Real.tendsto_arctan_atTop).comp
    (Filter.tendsto_id.atTop_div_const hrt))).const_mul va

/-- two arctan curves with positive turnover radii agree only if they are the same or both vanish -/
theorem arctan_curves (va va' rt rt' : ℝ) (hrt : 0 < rt) (hrt' : 0 < rt')
    (h : ∀ R, 0 < R → va * Real.arctan (R / rt) = va' * Real.arctan (R / rt')) : va = va' ∧ (va = 0 ∨ rt = rt') := by
  have e : va * (Real.pi / 2) = va' * (Real.pi / 2) := by
    refine tendsto_nhds_unique (arctan_ray va rt hrt) ((arctan_ray va' rt' hrt').congr' ?_)
    filter_upwards [Filter.eventually_gt_atTop 0] with R hR
    exact (h R hR).symm
  have e' : va = va' := mul_right_cancel₀ (by positivity) e
  refine ⟨e', ?_⟩
  by_cases h0 : va = 0
  · exact Or.inl h0
  · right
    have h1 := h 1 one_pos
    rw [← e'] at h1
    have h2 := Real.arctan_injective (mul_left_cancel₀ h0 h1)
    rw [one_div, one_div] at h2
    exact inv_injective h2

/-- **C229**: two discs have the same velocity field exactly if speed and turnover radius are the same, or both have changed sign, or
neither disc rotates, or the disc is seen face-on. -/
theorem C229_velocity (va va' rt rt' i : ℝ) (hrt : rt ≠ 0) (hrt' : rt' ≠ 0) :
    (∀ x y, discVelocity va rt i x y = discVelocity va' rt' i x y) ↔
      i = 0 ∨ (va = 0 ∧ va' = 0) ∨ (va' = va ∧ rt' = rt) ∨ (va' = -va ∧ rt' = -rt) := by
  constructor
  · intro h
    by_cases hi : i = 0
    · exact Or.inl hi
    right
    have key : ∀ va va' rt rt' : ℝ, 0 < rt → 0 < rt' → (∀ x y, discVelocity va rt i x y = discVelocity va' rt' i x y) →
        va = va' ∧ (va = 0 ∨ rt = rt') := by
      intro va va' rt rt' hrt hrt' h
      refine arctan_curves va va' rt rt' hrt hrt' fun R hR => ?_
      have h1 := h 0 R
      rw [velocity_on_axis _ _ _ _ hR, velocity_on_axis _ _ _ _ hR] at h1
      have h2 := mul_right_cancel₀ hi h1
      rw [mul_assoc, mul_assoc] at h2
      exact mul_left_cancel₀ (by positivity) h2
    rcases lt_or_gt_of_ne hrt with hn | hp <;> rcases lt_or_gt_of_ne hrt' with hn' | hp'
    · obtain ⟨e1, e2⟩ := key (-va) (-va') (-rt) (-rt') (by linarith) (by linarith) fun x y => by
        rw [velocity_neg, velocity_neg]; exact h x y
      rcases e2 with e2 | e2
      · left; constructor <;> linarith
      · right; left; constructor <;> linarith
    · obtain ⟨e1, e2⟩ := key (-va) va' (-rt) rt' (by linarith) hp' fun x y => by rw [velocity_neg]; exact h x y
      rcases e2 with e2 | e2
      · left; constructor <;> linarith
      · right; right; constructor <;> linarith
    · obtain ⟨e1, e2⟩ := key va (-va') rt (-rt') hp (by linarith) fun x y => by rw [velocity_neg]; exact h x y
      rcases e2 with e2 | e2
      · left; constructor <;> linarith
      · right; right; constructor <;> linarith
    · obtain ⟨e1, e2⟩ := key va va' rt rt' hp hp' h
      rcases e2 with e2 | e2
      · left; constructor <;> linarith
      · right; left; constructor <;> linarith
  · rintro (rfl | ⟨rfl, rfl⟩ | ⟨rfl, rfl⟩ | ⟨rfl, rfl⟩) x y
    · unfold discVelocity; simp
    · unfold discVelocity; simp
    · rfl
    · exact (velocity_neg _ _ _ _ _).symm

/-! ## Images -/

theorem imageSpec_velocity (cfg : AperCfg) (w0 step : ℝ) (N : ℕ) (r0 va va' rt rt' sig m0 z : ℝ)
    (h : ∀ x y, discVelocity va rt cfg.sini x y = discVelocity va' rt' cfg.sini x y) :
    imageSpec cfg w0 step N r0 va rt sig m0 z = imageSpec cfg w0 step N r0 va' rt' sig m0 z := by
  have hg : ∀ sig, gridLight cfg va rt sig m0 z = gridLight cfg va' rt' sig m0 z := by
    intro sig
    funext lam b a
    unfold gridLight cellLight
    simp only [h]
  funext i j
  unfold imageSpec discImage
  simp only [hg]

theorem velSpec_velocity (cfg : AperCfg) (w0 step : ℝ) (N : ℕ) (va va' rt rt' sig m0 : ℝ)
    (h : ∀ x y, discVelocity va rt cfg.sini x y = discVelocity va' rt' cfg.sini x y) :
    velSpec cfg w0 step N va rt sig m0 = velSpec cfg w0 step N va' rt' sig m0 := by
  have hg : ∀ sig, velLight cfg va rt sig m0 = velLight cfg va' rt' sig m0 := by
    intro sig
    funext v b a
    unfold velLight
    simp only [h]
  funext i j
  unfold velSpec velImage
  simp only [hg]

/-- **C229**: parameters with the same velocity field give the same image, with seeing, instrumental broadening, dispersion floor and
adaptive sampling. -/
theorem C229_image (cfg : AperCfg) (hc : Luminous cfg) (hF : 0 ≤ cfg.psf.fwhm) (hst : ¬ cfg.psf.StampFails)
    (hfit : cfg.psf.fwhm = 0 ∨ KernelFits cfg) (hi0 : 0 ≤ cfg.sini) (hi1 : cfg.sini ≤ 1)
    (kin : KinProfile) (hk : kin.shape = (some 2, some 1)) (va va' rt rt' sig m z : ℝ) (hrt : rt ≠ 0) (hrt' : rt' ≠ 0)
    (hs : 0 < sig) (hz : 0 < 1 + z)
    (h : cfg.sini = 0 ∨ (va = 0 ∧ va' = 0) ∨ (va' = va ∧ rt' = rt) ∨ (va' = -va ∧ rt' = -rt)) :
    ∃ s s' img, buildModel cfg kin [va, rt, sig, m, z] = .ok (s, .ok (some img)) ∧
      buildModel cfg kin [va', rt', sig, m, z] = .ok (s', .ok (some img)) := by
  have hv := (C229_velocity va va' rt rt' cfg.sini hrt hrt').2 h
  obtain ⟨w0, step, N, hstep, hN, hw⟩ := hc.wave
  rcases hc.axis with ha | ⟨ha, hr, -⟩
  · obtain ⟨s, img, h1, h2, h3, h4⟩ := C204_build cfg hc hF hst hfit ha hi0 hi1 w0 step N hN hstep hw kin hk va rt sig m z hrt hs
    obtain ⟨s', img', h1', h2', h3', h4'⟩ := C204_build cfg hc hF hst hfit ha hi0 hi1 w0 step N hN hstep hw kin hk va' rt' sig m z
      hrt' hs
    rw [velSpec_velocity cfg w0 step N va va' rt rt' sig _ hv] at h4
    obtain rfl := same_arr h2 h3 h4 h2' h3' h4'
    exact ⟨s, s', img, h1, h1'⟩
  · obtain ⟨r0, hr0⟩ : ∃ r0, cfg.restwave.head? = some r0 := by
      cases h : cfg.restwave with
      | nil => exact absurd h hr
      | cons a l => exact ⟨a, rfl⟩
    obtain ⟨s, img, h1, h2, h3, h4⟩ := C203_build cfg hc hF hst hfit ha hi0 hi1 w0 step N hN hstep hw r0 hr0 kin hk va rt sig m z
      hrt hs hz
    obtain ⟨s', img', h1', h2', h3', h4'⟩ := C203_build cfg hc hF hst hfit ha hi0 hi1 w0 step N hN hstep hw r0 hr0 kin hk va' rt'
      sig m z hrt' hs hz
    rw [imageSpec_velocity cfg w0 step N r0 va va' rt rt' sig _ z hv] at h4
    obtain rfl := same_arr h2 h3 h4 h2' h3' h4'
    exact ⟨s, s', img, h1, h1'⟩

/-! ## Likelihood -/

theorem finish_same {r c : ℕ} (M M' : KinModelState r c) (g : KinInput r c) (img : Option Arr2) (hns : M.noScale = M'.noScale)
    (s s' : AperState) (ha : M.aper = some (g, s)) (ha' : M'.aper = some (g, s')) :
    (finishModel M g img).2 = (finishModel M' g img).2 ∧ (finishModel M g img).1.llike = (finishModel M' g img).1.llike := by
  unfold finishModel KinModelState.llike
  rw [hns]
  cases M'.noScale with
  | true => simp [ha, ha']
  | false =>
    simp only [Bool.false_eq_true, if_false]
    cases g.nosky <;> simp [ha, ha']

/-- making the model with parameters for which the aperture model gives an image -/
theorem make_image {r c : ℕ} (g : KinInput r c) (theta0 : List ℝ) (vary : List Bool) (kin : KinProfile) (ns : Bool)
    (hl : vary.length = theta0.length) (hk : kin.shape = (some 2, some 1)) (fit : List ℝ) (hfit : fit.length = vary.count true)
    (va rt sig m z : ℝ) (hfull : (updateParameters theta0 vary fit).1 = [va, rt, sig, m, z]) (s : AperState) (img : Option Arr2)
    (hb : buildModel g.aperCfg (sharpKin va rt sig m z) [va, rt, sig, m, z] = .ok (s, .ok img)) :
    ∃ M : KinModelState r c, M.noScale = ns ∧ M.aper = some (g, s) ∧
      (KinModelState.init theta0 vary kin ns : KinModelState r c).make g fit = finishModel M g img := by
  have hpu := ((ParamsFrom.init theta0 vary).update hl fit hfit).1
  rw [hfull] at hpu
  have hup : kin.updateTheta [va, rt, sig, m, z] = .ok (sharpKin va rt sig m z) := by
    rw [updateTheta_congr kin ⟨[], some ⟨[], 2⟩, some ⟨[], 1⟩⟩ (by rw [hk]; rfl)]
    rfl
  unfold KinModelState.make
  rw [show (KinModelState.init theta0 vary kin ns : KinModelState r c).params = KinParams.init theta0 vary from rfl, hpu]
  simp only [KinModelState.init, hup, hb]
  exact ⟨_, by dsimp only, by dsimp only, rfl⟩

/-- **C229**: fitting vectors for parameters with the same velocity field have the same likelihood, whatever was evaluated before. -/
theorem C229_likelihood {r c : ℕ} (g : KinInput r c) (hc : Luminous g.aperCfg) (hF : 0 ≤ g.cfg.psf.fwhm)
    (hst : ¬ g.cfg.psf.StampFails) (hker : g.cfg.psf.fwhm = 0 ∨ KernelFits g.aperCfg) (hi0 : 0 ≤ g.cfg.sini) (hi1 : g.cfg.sini ≤ 1)
    (kin : KinProfile) (hk : kin.shape = (some 2, some 1)) (ns : Bool) (ts : List ℝ) (vs : List Bool) (shift z : ℝ)
    (hl : vs.length = ts.length) (hz : 0 < 1 + z) (f0 : List ℝ) (calls calls' : List (KinCall r c)) (m0 m1 : KinModelState r c)
    (hm0 : m0 = KinModelState.init (ts ++ [shift, z]) (vs ++ [false, false]) kin ns) (hm1 : m1 = (m0.make g f0).1)
    (h0 : (m0.make g f0).2 = .ok ()) (hall : g.cfg.adaptive = true → AllOk m1 calls ∧ AllOk m1 calls')
    (fit fit' : List ℝ) (hf : fit.length = vs.count true) (hf' : fit'.length = vs.count true) (va va' rt rt' sig : ℝ)
    (hfull : (updateParameters (ts ++ [shift, z]) (vs ++ [false, false]) fit).1 = [va, rt, sig, shift, z])
    (hfull' : (updateParameters (ts ++ [shift, z]) (vs ++ [false, false]) fit').1 = [va', rt', sig, shift, z])
    (hrt : rt ≠ 0) (hrt' : rt' ≠ 0) (hs : 0 < sig)
    (h : g.cfg.sini = 0 ∨ (va = 0 ∧ va' = 0) ∨ (va' = va ∧ rt' = rt) ∨ (va' = -va ∧ rt' = -rt)) :
    ((m1.run calls).lnlike fit).2 = ((m1.run calls').lnlike fit').2 := by
  have hlen : (vs ++ [false, false]).length = (ts ++ [shift, z]).length := by simp [hl]
  have hcnt : (vs ++ [false, false]).count true = vs.count true := by simp
  have e := (C85_history g ts vs shift z kin ns hl f0 calls m0 m1 hm0 hm1 h0 (fun ha => (hall ha).1) fit).1
  have e' := (C85_history g ts vs shift z kin ns hl f0 calls' m0 m1 hm0 hm1 h0 (fun ha => (hall ha).2) fit').1
  obtain ⟨s, s', img, hb, hb'⟩ := C229_image g.aperCfg hc hF hst hker hi0 hi1 ⟨[], some ⟨[], 2⟩, some ⟨[], 1⟩⟩ rfl va va' rt rt' sig
    shift z hrt hrt' hs hz h
  have hsame : (m0.make g fit).2 = (m0.make g fit').2 ∧ (m0.make g fit).1.llike = (m0.make g fit').1.llike := by
    subst hm0
    obtain ⟨M, a1, a2, a3⟩ := make_image g _ _ kin ns hlen hk fit (by rw [hcnt]; exact hf) va rt sig shift z hfull s (some img)
      hb
    obtain ⟨M', b1, b2, b3⟩ := make_image g _ _ kin ns hlen hk fit' (by rw [hcnt]; exact hf') va' rt' sig shift z hfull' s' (some img)
      hb'
    rw [a3, b3]
    exact finish_same M M' g (some img) (a1.trans b1.symm) s s' a2 b2
  unfold KinModelState.lnlike
  revert e e'
  generalize (m1.run calls).update fit = x
  generalize (m1.run calls').update fit' = x'
  obtain ⟨a, ra⟩ := x
  obtain ⟨a', ra'⟩ := x'
  rintro ⟨h1, h2⟩ ⟨h1', h2'⟩
  simp only at h1 h2 h1' h2'
  have hr : ra = ra' := by rw [h1, h1', hsame.1]
  subst hr
  cases ra with
  | error e => rfl
  | ok u => exact ((h2 rfl).2.2.trans hsame.2).trans (h2' rfl).2.2.symm

/-! ## Examples -/

/-- the hypotheses of `C229_image` are met with seeing, a tilted slit and both signs changed -/
example : ∃ s s' img, buildModel turnSlit ⟨[], some ⟨[], 2⟩, some ⟨[], 1⟩⟩ [100, 1, 30, 0, 0] = .ok (s, .ok (some img)) ∧
    buildModel turnSlit ⟨[], some ⟨[], 2⟩, some ⟨[], 1⟩⟩ [-100, -1, 30, 0, 0] = .ok (s', .ok (some img)) :=
  C229_image turnSlit turnSlit_luminous zero_le_one (by rintro ⟨h, -⟩; cases h)
    (Or.inr (kernelFits_wide _ turnSlit_luminous (by norm_num [turnSlit, smallSlit]))) (by norm_num [turnSlit, smallSlit])
    (by norm_num [turnSlit, smallSlit]) _ rfl 100 (-100) 1 (-1) 30 0 0 one_ne_zero (by norm_num) (by norm_num) (by norm_num)
    (Or.inr (Or.inr (Or.inr ⟨rfl, rfl⟩)))

/-- a disc with another speed has another velocity field -/
example : ¬ ∀ x y, discVelocity 100 1 1 x y = discVelocity 120 1 1 x y := by
  rw [C229_velocity _ _ _ _ _ one_ne_zero one_ne_zero]
  norm_num

/-- the hypotheses of `C229_likelihood` are met: a fit of speed, radius and dispersion in which the signs are changed -/
example : ∃ (g : KinInput 2 2) (m0 : KinModelState 2 2), (m0.make g [1, 1, 1]).2 = .ok () ∧
    ∀ calls calls' : List (KinCall 2 2), ∀ va rt sig, rt ≠ 0 → 0 < sig →
      (((m0.make g [1, 1, 1]).1.run calls).lnlike [va, rt, sig]).2 =
        (((m0.make g [1, 1, 1]).1.run calls').lnlike [-va, -rt, sig]).2 := by
  obtain ⟨g, -, ⟨hg, hno⟩, hlum, had, -, -, -, -, -⟩ := steady_object
  have hcfg : g.aperCfg = steadySlit := by
    unfold KinInput.aperCfg
    rw [hg]
    rfl
  have hF : 0 ≤ g.cfg.psf.fwhm := by rw [hg]; exact zero_le_one
  have hst : ¬ g.cfg.psf.StampFails := by rw [hg]; rintro ⟨h, -⟩; cases h
  have hker : g.cfg.psf.fwhm = 0 ∨ KernelFits g.aperCfg := Or.inr (by rw [hcfg]; exact steadySlit_kernel)
  have hi0 : 0 ≤ g.cfg.sini := by rw [hg]; norm_num [steadySlit, smallSlit]
  have hi1 : g.cfg.sini ≤ 1 := by rw [hg]; norm_num [steadySlit, smallSlit]
  obtain ⟨s, -, img, hb, -⟩ := C229_image g.aperCfg hlum hF hst hker hi0 hi1 (sharpKin 1 1 1 0 0) rfl 1 1 1 1 1 0 0 one_ne_zero
    one_ne_zero one_pos (by norm_num) (Or.inr (Or.inr (Or.inl ⟨rfl, rfl⟩)))
  obtain ⟨M, hM, -, hmk⟩ := make_image g ([1, 1, 1] ++ [0, 0]) ([true, true, true] ++ [false, false])
    ⟨[], some ⟨[], 2⟩, some ⟨[], 1⟩⟩ false rfl rfl [1, 1, 1] rfl 1 1 1 0 0 rfl s (some img) hb
  have h0 : ((KinModelState.init ([1, 1, 1] ++ [0, 0]) ([true, true, true] ++ [false, false])
      ⟨[], some ⟨[], 2⟩, some ⟨[], 1⟩⟩ false : KinModelState 2 2).make g [1, 1, 1]).2 = .ok () := by
    rw [hmk]
    unfold finishModel
    simp only [hM, Bool.false_eq_true, if_false, hno]
  refine ⟨g, _, h0, fun calls calls' va rt sig hrt hs => ?_⟩
  exact C229_likelihood g hlum hF hst hker hi0 hi1 _ rfl false [1, 1, 1] [true, true, true] 0 0 rfl
    (by norm_num) [1, 1, 1] calls calls' _ _ rfl rfl h0 (fun ha => by rw [had] at ha; cases ha) [va, rt, sig] [-va, -rt, sig] rfl rfl
    va (-va) rt (-rt) sig rfl rfl hrt (neg_ne_zero.2 hrt) hs (Or.inr (Or.inr (Or.inr ⟨rfl, rfl⟩)))

end Misfit
