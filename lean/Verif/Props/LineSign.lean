import Verif.Props.MockFit
import Verif.Props.FitTurn

/-!
# C238: the sign of the fitted line flux
-/

namespace Misfit
variable {r c : Nat}

/-- Specification: the error-weighted overlap of row `i` of the data with row `i` of the unscaled image over the columns of `cols`. -/
noncomputable def rowOverlap (f e x : Fin r → Fin c → ℝ) (cols : List (Fin c)) (i : Fin r) : ℝ :=
  (cols.map fun j => f i j * x i j / e i j ^ 2).sum

/-- **C238**: the scaled row of a positive image has no negative pixel exactly if the overlap of data and image is not negative; otherwise all
its pixels are negative. -/
theorem C238_exact (f e x : Fin r → Fin c → ℝ) (cols : List (Fin c)) (he : ∀ i, ∀ j ∈ cols, e i j ≠ 0) (hx : ∀ i j, 0 < x i j)
    (hc : cols ≠ []) :
    ∃ s, scaleModel (finImg f) (finImg e) (finImg x) cols = finImg s ∧
      ∀ i, ((∀ j, 0 ≤ s i j) ↔ 0 ≤ rowOverlap f e x cols i) ∧ ((∀ j, s i j < 0) ↔ rowOverlap f e x cols i < 0) := by
  refine ⟨_, scaleModel_fin f e x cols he, fun i => ?_⟩
  have hpos : 0 < (cols.map fun j => x i j * x i j / (e i j * e i j)).sum := by
    apply List.sum_pos
    · intro y hy
      obtain ⟨k, hk, rfl⟩ := List.mem_map.1 hy
      exact div_pos (mul_pos (hx i k) (hx i k)) (mul_self_pos.2 (he i k hk))
    · simpa using hc
  have ho : (cols.map fun j => f i j * x i j / (e i j * e i j)).sum = rowOverlap f e x cols i := by
    unfold rowOverlap
    simp only [pow_two]
  obtain ⟨j0, -⟩ := List.exists_mem_of_ne_nil _ hc
  simp only [if_neg hpos.ne', ho]
  constructor
  · constructor
    · intro h
      by_contra hn
      exact absurd (h j0) (not_le.2 (mul_neg_of_pos_of_neg (hx i j0) (div_neg_of_neg_of_pos (not_le.1 hn) hpos)))
    · exact fun h j => mul_nonneg (hx i j).le (div_nonneg h hpos.le)
  · constructor
    · intro h
      by_contra hn
      exact absurd (h j0) (not_lt.2 (mul_nonneg (hx i j0).le (div_nonneg (not_lt.1 hn) hpos.le)))
    · exact fun h j => mul_neg_of_pos_of_neg (hx i j) (div_neg_of_neg_of_pos h hpos)

/-- a spectrum of negative pixels has a negative overlap with every positive image -/
example : rowOverlap (fun (_ : Fin 1) (_ : Fin 2) => (-1 : ℝ)) (fun _ _ => 1) (fun _ _ => 2) [0, 1] 0 < 0 := by
  norm_num [rowOverlap]

/-- The image of an object that scales is the scaled image of one that does not. -/
theorem make_scaled (theta0 : List ℝ) (vary : List Bool) (kin : KinProfile) (g : KinInput r c) (cols : List (Fin c))
    (hn : g.nosky = some cols) (fit : List ℝ) :
    ((KinModelState.init theta0 vary kin false : KinModelState r c).make g fit).2 =
      ((KinModelState.init theta0 vary kin true : KinModelState r c).make g fit).2 ∧
    ((KinModelState.init theta0 vary kin false : KinModelState r c).make g fit).1.model =
      ((KinModelState.init theta0 vary kin true : KinModelState r c).make g fit).1.model.map
        fun im => scaleModel g.data.flux g.data.err im cols := by
  unfold KinModelState.make
  simp only [KinModelState.init]
  rcases (KinParams.init theta0 vary).update fit with ⟨p, _ | e⟩
  · simp only
    cases kin.updateTheta p.theta with
    | error e => exact ⟨rfl, rfl⟩
    | ok k =>
      simp only
      rcases buildModel g.aperCfg k p.theta with e | ⟨s, e | img⟩
      · exact ⟨rfl, rfl⟩
      · exact ⟨rfl, rfl⟩
      · simp only [finishModel, hn, if_true, Bool.false_eq_true, if_false]
        exact ⟨trivial, rfl⟩
  · exact ⟨rfl, rfl⟩

/-- **C238**, for data without negative pixels in the sky-free columns: whenever the unscaled image is positive (C149), the fitted image
has no negative pixel. -/
theorem C238_partial (theta0 : List ℝ) (vary : List Bool) (kin : KinProfile) (g : KinInput r c) (cols : List (Fin c))
    (hn : g.nosky = some cols) (hc : cols ≠ []) (fit : List ℝ) (f e m w x : Fin r → Fin c → ℝ) (hd : g.data = finData f e m w)
    (he : ∀ i, ∀ j ∈ cols, e i j ≠ 0) (hf : ∀ i, ∀ j ∈ cols, 0 ≤ f i j) (hx : ∀ i j, 0 < x i j)
    (him : ((KinModelState.init theta0 vary kin true : KinModelState r c).make g fit).1.model = some (finImg x)) :
    ∃ s, ((KinModelState.init theta0 vary kin false : KinModelState r c).make g fit).1.model = some (finImg s) ∧ ∀ i j, 0 ≤ s i j := by
  obtain ⟨s, h1, h2⟩ := C238_exact f e x cols he hx hc
  refine ⟨s, ?_, fun i => (h2 i).1.2 ?_⟩
  · rw [(make_scaled theta0 vary kin g cols hn fit).2, him, hd]
    exact congrArg some h1
  · refine List.sum_nonneg fun y hy => ?_
    obtain ⟨k, hk, rfl⟩ := List.mem_map.1 hy
    exact div_nonneg (mul_nonneg (hf i k hk) (hx i k).le) (sq_nonneg _)

/-- The spectrum with the negative of a positive image as its flux is fitted perfectly. -/
theorem absorption_fitted (theta0 : List ℝ) (vary : List Bool) (kin : KinProfile) (g : KinInput r c) (cols : List (Fin c))
    (hn : g.nosky = some cols) (hc : cols ≠ []) (fit : List ℝ) (f e m w x : Fin r → Fin c → ℝ) (hd : g.data = finData f e m w)
    (he : ∀ i j, e i j ≠ 0) (hx : ∀ i j, 0 < x i j)
    (him : ((KinModelState.init theta0 vary kin true : KinModelState r c).make g fit).1.model = some (finImg x)) :
    ∃ g' : KinInput r c, g'.cfg = g.cfg ∧ g'.nosky = g.nosky ∧ g'.data = finData (fun i j => -x i j) e m w ∧
      ((KinModelState.init theta0 vary kin false : KinModelState r c).make g' fit).2 =
        ((KinModelState.init theta0 vary kin true : KinModelState r c).make g fit).2 ∧
      ((KinModelState.init theta0 vary kin false : KinModelState r c).make g' fit).1.model = some (finImg fun i j => -x i j) ∧
      (∀ i j, -x i j < 0) ∧ modelChisq g'.data (finImg fun i j => -x i j) = 0 := by
  have hsame : ∀ d, ((KinModelState.init theta0 vary kin true : KinModelState r c).make { g with data := d } fit).2 =
        ((KinModelState.init theta0 vary kin true : KinModelState r c).make g fit).2 ∧
      ((KinModelState.init theta0 vary kin true : KinModelState r c).make { g with data := d } fit).1.model =
        ((KinModelState.init theta0 vary kin true : KinModelState r c).make g fit).1.model := by
    intro d
    have hcfg : ({ g with data := d } : KinInput r c).aperCfg = g.aperCfg := rfl
    unfold KinModelState.make
    simp only [KinModelState.init, hcfg]
    rcases (KinParams.init theta0 vary).update fit with ⟨p, _ | e⟩
    · simp only
      cases kin.updateTheta p.theta with
      | error e => exact ⟨rfl, rfl⟩
      | ok k =>
        simp only
        rcases buildModel g.aperCfg k p.theta with e | ⟨s, e | img⟩ <;> exact ⟨rfl, rfl⟩
    · exact ⟨rfl, rfl⟩
  obtain ⟨h1, h2⟩ := hsame (finData (fun i j => -x i j) e m w)
  obtain ⟨h3, h4⟩ := make_scaled theta0 vary kin { g with data := finData (fun i j => -x i j) e m w } cols hn fit
  refine ⟨{ g with data := finData (fun i j => -x i j) e m w }, rfl, rfl, rfl, h3.trans h1, ?_, fun i j => neg_lt_zero.2 (hx i j), ?_⟩
  · rw [h4, h2, him]
    refine congrArg some ?_
    show scaleModel (finImg fun i j => -x i j) (finImg e) (finImg x) cols = _
    rw [scaleModel_fin _ e x cols fun i j _ => he i j]
    funext i j
    have hpos : 0 < (cols.map fun j => x i j * x i j / (e i j * e i j)).sum := by
      apply List.sum_pos
      · intro y hy
        obtain ⟨k, -, rfl⟩ := List.mem_map.1 hy
        exact div_pos (mul_pos (hx i k) (hx i k)) (mul_self_pos.2 (he i k))
      · simpa using hc
    have hneg : (cols.map fun j => -x i j * x i j / (e i j * e i j)).sum = -(cols.map fun j => x i j * x i j / (e i j * e i j)).sum := by
      rw [← neg_one_mul, ← List.sum_map_mul_left]
      congr 1
      refine List.map_congr_left fun k _ => ?_
      ring
    simp only [finImg, if_neg hpos.ne', hneg, neg_div, div_self hpos.ne', mul_neg, mul_one]
  · show modelChisq (finData (fun i j => -x i j) e m w) _ = 0
    rw [modelChisq_fin _ e m w _ he]
    simp only [sub_self, zero_mul, zero_div, Finset.sum_const_zero]
    rfl

/-- In the set-ups of C149 the object that does not scale has a positive image. -/
theorem make_positive (g : KinInput r c) (hc : Luminous g.aperCfg) (hF : 0 ≤ g.cfg.psf.fwhm) (hst : ¬ g.cfg.psf.StampFails)
    (hker : g.cfg.psf.fwhm = 0 ∨ KernelFits g.aperCfg) (theta0 : List ℝ) (vary : List Bool) (kin : KinProfile)
    (hl : vary.length = theta0.length) (hk : kin.shape = (some 2, some 1)) (fit : List ℝ) (hfit : fit.length = vary.count true)
    (va rt sig m z : ℝ) (hfull : (updateParameters theta0 vary fit).1 = [va, rt, sig, m, z]) (hrt : rt ≠ 0) (hs : 0 < sig)
    (hz : 0 < 1 + z) :
    ∃ x : Fin r → Fin c → ℝ, (∀ i j, 0 < x i j) ∧
      ((KinModelState.init theta0 vary kin true : KinModelState r c).make g fit).1.model = some (finImg x) ∧
      ((KinModelState.init theta0 vary kin true : KinModelState r c).make g fit).2 = .ok () := by
  obtain ⟨s, res, hb, hyes, -⟩ := C149_exact g.aperCfg hc hF hst (sharpKin va rt sig m z) rfl va rt sig m z hrt hs hz
  obtain ⟨img, rfl, hn, hm, hpos⟩ := hyes hker
  obtain ⟨M, hM, -, hmk⟩ := make_image g theta0 vary kin true hl hk fit hfit va rt sig m z hfull s (some img) hb
  have hr : r = img.n := by rw [hn]; exact g.rows.symm
  have hcc : c = img.m := by rw [hm]; exact g.cols.symm
  subst hr hcc
  refine ⟨fun i j => img.val i j, hpos, ?_, ?_⟩
  · rw [hmk]
    unfold finishModel
    simp only [hM, if_true]
    refine congrArg some ?_
    funext i j
    simp [toImg, finImg]
  · rw [hmk]
    unfold finishModel
    simp only [hM, if_true]

/-- **C238** is false: for every set-up of C149 and all parameters there is a spectrum, with the errors, mask and weights that are given, whose
fitted image is negative in every pixel and has chi-square zero: absorption is fitted perfectly by the emission-line model. -/
theorem C238_false (g : KinInput r c) (hc : Luminous g.aperCfg) (hF : 0 ≤ g.cfg.psf.fwhm) (hst : ¬ g.cfg.psf.StampFails)
    (hker : g.cfg.psf.fwhm = 0 ∨ KernelFits g.aperCfg) (cols : List (Fin c)) (hn : g.nosky = some cols) (hcols : cols ≠ [])
    (f e mk w : Fin r → Fin c → ℝ) (hd : g.data = finData f e mk w) (he : ∀ i j, e i j ≠ 0)
    (theta0 : List ℝ) (vary : List Bool) (kin : KinProfile)
    (hl : vary.length = theta0.length) (hk : kin.shape = (some 2, some 1)) (fit : List ℝ) (hfit : fit.length = vary.count true)
    (va rt sig m z : ℝ) (hfull : (updateParameters theta0 vary fit).1 = [va, rt, sig, m, z]) (hrt : rt ≠ 0) (hs : 0 < sig)
    (hz : 0 < 1 + z) :
    ∃ (g' : KinInput r c) (y : Fin r → Fin c → ℝ), g'.cfg = g.cfg ∧ g'.nosky = g.nosky ∧ g'.data = finData y e mk w ∧
      ((KinModelState.init theta0 vary kin false : KinModelState r c).make g' fit).2 = .ok () ∧
      ((KinModelState.init theta0 vary kin false : KinModelState r c).make g' fit).1.model = some (finImg y) ∧
      (∀ i j, y i j < 0) ∧ modelChisq g'.data (finImg y) = 0 := by
  obtain ⟨x, hx, him, hok⟩ := make_positive g hc hF hst hker theta0 vary kin hl hk fit hfit va rt sig m z hfull hrt hs hz
  obtain ⟨g', h1, h2, h3, h4, h5, h6, h7⟩ := absorption_fitted theta0 vary kin g cols hn hcols fit f e mk w x hd he hx him
  exact ⟨g', _, h1, h2, h3, h4.trans hok, h5, h6, h7⟩

/-- the tilted disc with seeing of C231 meets the hypotheses of `C238_false` and of `C238_partial` -/
example : (∃ (g' : KinInput 2 2) (y : Fin 2 → Fin 2 → ℝ), g'.cfg = turnFit.cfg ∧
      ((turnObject 1).make g' [1, 1, 1]).1.model = some (finImg y) ∧ ∀ i j, y i j < 0) ∧
    ∃ s, ((turnObject 1).make turnFit [1, 1, 1]).1.model = some (finImg s) ∧ ∀ i j, 0 ≤ s i j := by
  have h := turnSlit_luminous
  have hl : Luminous turnFit.aperCfg := ⟨h.rows, h.sub, h.pix, h.slit, h.pad, h.int, h.axis, h.mask, rfl, h.wave, (fun h => by cases h),
    h.dither, h.beta⟩
  have hst : ¬ turnFit.cfg.psf.StampFails := by rintro ⟨h, -⟩; cases h
  have hkf : KernelFits turnFit.aperCfg :=
    kernelFits_wide _ hl (by norm_num [KinInput.aperCfg, turnFit, turnSlit, smallSlit])
  constructor
  · obtain ⟨g', y, h1, -, -, -, h5, h6, -⟩ := C238_false turnFit hl zero_le_one hst (Or.inr hkf) [0, 1] rfl (by simp) _ _ _ _ rfl
      (fun _ _ => one_ne_zero) ([1, 1, 1] ++ [0, 1]) ([true, true, true] ++ [false, false]) ⟨[], some ⟨[], 2⟩, some ⟨[], 1⟩⟩ rfl rfl
      [1, 1, 1] rfl 1 1 1 0 1 rfl one_ne_zero one_pos (by norm_num)
    exact ⟨g', y, h1, h5, h6⟩
  · obtain ⟨x, hx, him, -⟩ := make_positive turnFit hl zero_le_one hst (Or.inr hkf) ([1, 1, 1] ++ [0, 1])
      ([true, true, true] ++ [false, false]) ⟨[], some ⟨[], 2⟩, some ⟨[], 1⟩⟩ rfl rfl [1, 1, 1] rfl 1 1 1 0 1 rfl one_ne_zero one_pos
      (by norm_num)
    exact C238_partial _ _ _ turnFit [0, 1] rfl (by simp) _ _ _ _ _ x rfl (fun _ _ _ => one_ne_zero) (fun _ _ _ => zero_le_one) hx him

end Misfit
