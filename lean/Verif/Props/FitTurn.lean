import Verif.Props.Degenerate
import Verif.Props.ImageSum

/-!
# C231: different descriptions of one galaxy have the same likelihood

The galaxy turned by half a turn with the opposite rotation, the galaxy mirrored along the slit, and the lines at their observed wavelengths
with redshift 0 give the same likelihood, whatever was evaluated before.
-/

namespace Misfit

theorem finish_two {r c : ℕ} (M M' : KinModelState r c) (g g' : KinInput r c) (hdat : g.data = g'.data) (hsky : g.nosky = g'.nosky)
    (img : Option Arr2) (hns : M.noScale = M'.noScale) (s s' : AperState) (ha : M.aper = some (g, s)) (ha' : M'.aper = some (g', s')) :
    (finishModel M g img).2 = (finishModel M' g' img).2 ∧ (finishModel M g img).1.llike = (finishModel M' g' img).1.llike := by
  unfold finishModel KinModelState.llike
  rw [hns, hsky, hdat]
  cases M'.noScale with
  | true => simp [ha, ha', hdat]
  | false =>
    simp only [Bool.false_eq_true, if_false]
    cases g'.nosky <;> simp [ha, ha', hdat]

/-- two model objects whose aperture models give one image for two fitting vectors have the same likelihood for them -/
theorem like_images {r c : ℕ} (g g' : KinInput r c) (hdat : g.data = g'.data) (hsky : g.nosky = g'.nosky)
    (kin : KinProfile) (hk : kin.shape = (some 2, some 1)) (ns : Bool) (ts ts' : List ℝ) (vs : List Bool) (shift shift' z z' : ℝ)
    (hl : vs.length = ts.length) (hl' : vs.length = ts'.length) (f0 f0' : List ℝ) (calls calls' : List (KinCall r c))
    (m0 m1 m0' m1' : KinModelState r c)
    (hm0 : m0 = KinModelState.init (ts ++ [shift, z]) (vs ++ [false, false]) kin ns) (hm1 : m1 = (m0.make g f0).1)
    (hm0' : m0' = KinModelState.init (ts' ++ [shift', z']) (vs ++ [false, false]) kin ns) (hm1' : m1' = (m0'.make g' f0').1)
    (h0 : (m0.make g f0).2 = .ok ()) (h0' : (m0'.make g' f0').2 = .ok ())
    (hall : g.cfg.adaptive = true → AllOk m1 calls) (hall' : g'.cfg.adaptive = true → AllOk m1' calls')
    (fit fit' : List ℝ) (hf : fit.length = vs.count true) (hf' : fit'.length = vs.count true) (va va' rt rt' sig sig' : ℝ)
    (hfull : (updateParameters (ts ++ [shift, z]) (vs ++ [false, false]) fit).1 = [va, rt, sig, shift, z])
    (hfull' : (updateParameters (ts' ++ [shift', z']) (vs ++ [false, false]) fit').1 = [va', rt', sig', shift', z'])
    (s s' : AperState) (img : Option Arr2)
    (hb : buildModel g.aperCfg (sharpKin va rt sig shift z) [va, rt, sig, shift, z] = .ok (s, .ok img))
    (hb' : buildModel g'.aperCfg (sharpKin va' rt' sig' shift' z') [va', rt', sig', shift', z'] = .ok (s', .ok img)) :
    ((m1.run calls).lnlike fit).2 = ((m1'.run calls').lnlike fit').2 := by
  have hlen : (vs ++ [false, false]).length = (ts ++ [shift, z]).length := by simp [hl]
  have hlen' : (vs ++ [false, false]).length = (ts' ++ [shift', z']).length := by simp [hl']
  have hcnt : (vs ++ [false, false]).count true = vs.count true := by simp
  have e := (C85_history g ts vs shift z kin ns hl f0 calls m0 m1 hm0 hm1 h0 hall fit).1
  have e' := (C85_history g' ts' vs shift' z' kin ns hl' f0' calls' m0' m1' hm0' hm1' h0' hall' fit').1
  have hsame : (m0.make g fit).2 = (m0'.make g' fit').2 ∧ (m0.make g fit).1.llike = (m0'.make g' fit').1.llike := by
    subst hm0 hm0'
    obtain ⟨M, a1, a2, a3⟩ := make_image g _ _ kin ns hlen hk fit (by rw [hcnt]; exact hf) va rt sig shift z hfull s img hb
    obtain ⟨M', b1, b2, b3⟩ := make_image g' _ _ kin ns hlen' hk fit' (by rw [hcnt]; exact hf') va' rt' sig' shift' z' hfull' s' img
      hb'
    rw [a3, b3]
    exact finish_two M M' g g' hdat hsky img (a1.trans b1.symm) s s' a2 b2
  unfold KinModelState.lnlike
  revert e e'
  generalize (m1.run calls).update fit = x
  generalize (m1'.run calls').update fit' = x'
  obtain ⟨a, ra⟩ := x
  obtain ⟨a', ra'⟩ := x'
  rintro ⟨h1, h2⟩ ⟨h1', h2'⟩
  simp only at h1 h2 h1' h2'
  have hr : ra = ra' := by rw [h1, h1', hsame.1]
  subst hr
  cases ra with
  | error e => rfl
  | ok u => exact ((h2 rfl).2.2.trans hsame.2).trans (h2' rfl).2.2.symm

/-- the same data and galaxy, the position angle changed -/
def KinInput.atAngle {r c : ℕ} (g : KinInput r c) (a : ℝ) : KinInput r c :=
  { g with cfg := { g.cfg with deltPA := a }, rows := g.rows, cols := g.cols }

/-- the same data and galaxy, the rest wavelengths of the lines multiplied by `k` -/
def KinInput.atWave {r c : ℕ} (g : KinInput r c) (k : ℝ) : KinInput r c :=
  { g with cfg := { g.cfg with restwave := g.cfg.restwave.map fun r => r * k }, rows := g.rows, cols := g.cols }

/-- **C231**: a galaxy turned by 180 degrees has the likelihood of the galaxy with the opposite rotation speed. -/
theorem C231_half_turn {r c : ℕ} (g : KinInput r c) (hc : Luminous g.aperCfg) (hF : 0 ≤ g.cfg.psf.fwhm)
    (hst : ¬ g.cfg.psf.StampFails) (hker : g.cfg.psf.fwhm = 0 ∨ KernelFits g.aperCfg) (hi0 : 0 ≤ g.cfg.sini) (hi1 : g.cfg.sini ≤ 1)
    (he : ∀ r z, g.cfg.int r (-z) = g.cfg.int r z)
    (kin : KinProfile) (hk : kin.shape = (some 2, some 1)) (ns : Bool) (ts ts' : List ℝ) (vs : List Bool) (shift z : ℝ)
    (hl : vs.length = ts.length) (hl' : vs.length = ts'.length) (hz : 0 < 1 + z) (f0 f0' : List ℝ) (calls calls' : List (KinCall r c))
    (m0 m1 m0' m1' : KinModelState r c)
    (hm0 : m0 = KinModelState.init (ts ++ [shift, z]) (vs ++ [false, false]) kin ns) (hm1 : m1 = (m0.make g f0).1)
    (hm0' : m0' = KinModelState.init (ts' ++ [shift, z]) (vs ++ [false, false]) kin ns)
    (hm1' : m1' = (m0'.make (g.atAngle (g.cfg.deltPA + 180)) f0').1)
    (h0 : (m0.make g f0).2 = .ok ()) (h0' : (m0'.make (g.atAngle (g.cfg.deltPA + 180)) f0').2 = .ok ())
    (hall : g.cfg.adaptive = true → AllOk m1 calls ∧ AllOk m1' calls')
    (fit fit' : List ℝ) (hf : fit.length = vs.count true) (hf' : fit'.length = vs.count true) (va rt sig : ℝ)
    (hfull : (updateParameters (ts ++ [shift, z]) (vs ++ [false, false]) fit).1 = [-va, rt, sig, shift, z])
    (hfull' : (updateParameters (ts' ++ [shift, z]) (vs ++ [false, false]) fit').1 = [va, rt, sig, shift, z])
    (hrt : rt ≠ 0) (hs : 0 < sig) :
    ((m1.run calls).lnlike fit).2 = ((m1'.run calls').lnlike fit').2 := by
  obtain ⟨s, s', img, hb, hb', -⟩ := C215_half_turn g.aperCfg hc hF hst hker hi0 hi1 he [] [] [] va rt sig shift z hrt hs hz
  exact like_images g (g.atAngle (g.cfg.deltPA + 180)) rfl rfl kin hk ns ts ts' vs shift shift z z hl hl' f0 f0' calls calls' m0 m1 m0'
    m1' hm0 hm1 hm0' hm1' h0 h0' (fun h => (hall h).1) (fun h => (hall h).2) fit fit' hf hf' (-va) va rt rt sig sig hfull hfull'
    s' s (some img) hb' hb

/-- **C231**: a galaxy mirrored along the slit has the same likelihood, without seeing or with an odd number of subpixels across the
slit. -/
theorem C231_mirror {r c : ℕ} (g : KinInput r c) (hc : Luminous g.aperCfg) (hF : 0 ≤ g.cfg.psf.fwhm)
    (hst : ¬ g.cfg.psf.StampFails) (hker : g.cfg.psf.fwhm = 0 ∨ KernelFits g.aperCfg)
    (hodd : g.cfg.psf.fwhm = 0 ∨ slitCells g.aperCfg % 2 = 1) (hi0 : 0 ≤ g.cfg.sini) (hi1 : g.cfg.sini ≤ 1)
    (he : ∀ r z, g.cfg.int r (-z) = g.cfg.int r z)
    (kin : KinProfile) (hk : kin.shape = (some 2, some 1)) (ns : Bool) (ts ts' : List ℝ) (vs : List Bool) (shift z : ℝ)
    (hl : vs.length = ts.length) (hl' : vs.length = ts'.length) (hz : 0 < 1 + z) (f0 f0' : List ℝ) (calls calls' : List (KinCall r c))
    (m0 m1 m0' m1' : KinModelState r c)
    (hm0 : m0 = KinModelState.init (ts ++ [shift, z]) (vs ++ [false, false]) kin ns) (hm1 : m1 = (m0.make g f0).1)
    (hm0' : m0' = KinModelState.init (ts' ++ [shift, z]) (vs ++ [false, false]) kin ns)
    (hm1' : m1' = (m0'.make (g.atAngle (-g.cfg.deltPA)) f0').1)
    (h0 : (m0.make g f0).2 = .ok ()) (h0' : (m0'.make (g.atAngle (-g.cfg.deltPA)) f0').2 = .ok ())
    (hall : g.cfg.adaptive = true → AllOk m1 calls ∧ AllOk m1' calls')
    (fit fit' : List ℝ) (hf : fit.length = vs.count true) (hf' : fit'.length = vs.count true) (va rt sig : ℝ)
    (hfull : (updateParameters (ts ++ [shift, z]) (vs ++ [false, false]) fit).1 = [va, rt, sig, shift, z])
    (hfull' : (updateParameters (ts' ++ [shift, z]) (vs ++ [false, false]) fit').1 = [va, rt, sig, shift, z])
    (hrt : rt ≠ 0) (hs : 0 < sig) :
    ((m1.run calls).lnlike fit).2 = ((m1'.run calls').lnlike fit').2 := by
  obtain ⟨s, s', img, hb, hb', -⟩ := C216_mirror g.aperCfg hc hF hst hker hodd hi0 hi1 he [] [] [] va rt sig shift z hrt hs hz
  have hcfg : ({ g.aperCfg with deltPA := -g.aperCfg.deltPA, xc := -g.aperCfg.xc } : AperCfg) = (g.atAngle (-g.cfg.deltPA)).aperCfg := by
    unfold KinInput.aperCfg KinInput.atAngle
    simp only [neg_zero]
  rw [hcfg] at hb
  exact like_images g (g.atAngle (-g.cfg.deltPA)) rfl rfl kin hk ns ts ts' vs shift shift z z hl hl' f0 f0' calls calls' m0 m1 m0'
    m1' hm0 hm1 hm0' hm1' h0 h0' (fun h => (hall h).1) (fun h => (hall h).2) fit fit' hf hf' va va rt rt sig sig hfull hfull'
    s' s (some img) hb' hb

/-- **C231**: lines given at their observed wavelengths with redshift 0 have the same likelihood as at rest with redshift `z`. -/
theorem C231_observed {r c : ℕ} (g : KinInput r c) (hc : Luminous g.aperCfg) (hF : 0 ≤ g.cfg.psf.fwhm)
    (hst : ¬ g.cfg.psf.StampFails) (hker : g.cfg.psf.fwhm = 0 ∨ KernelFits g.aperCfg) (hsp : g.cfg.specType = .wave)
    (hi0 : 0 ≤ g.cfg.sini) (hi1 : g.cfg.sini ≤ 1)
    (kin : KinProfile) (hk : kin.shape = (some 2, some 1)) (ns : Bool) (ts ts' : List ℝ) (vs : List Bool) (shift z : ℝ)
    (hl : vs.length = ts.length) (hl' : vs.length = ts'.length) (hz : 0 < 1 + z) (f0 f0' : List ℝ) (calls calls' : List (KinCall r c))
    (m0 m1 m0' m1' : KinModelState r c)
    (hm0 : m0 = KinModelState.init (ts ++ [shift, z]) (vs ++ [false, false]) kin ns) (hm1 : m1 = (m0.make g f0).1)
    (hm0' : m0' = KinModelState.init (ts' ++ [shift, 0]) (vs ++ [false, false]) kin ns)
    (hm1' : m1' = (m0'.make (g.atWave (1 + z)) f0').1)
    (h0 : (m0.make g f0).2 = .ok ()) (h0' : (m0'.make (g.atWave (1 + z)) f0').2 = .ok ())
    (hall : g.cfg.adaptive = true → AllOk m1 calls ∧ AllOk m1' calls')
    (fit fit' : List ℝ) (hf : fit.length = vs.count true) (hf' : fit'.length = vs.count true) (va rt sig : ℝ)
    (hfull : (updateParameters (ts ++ [shift, z]) (vs ++ [false, false]) fit).1 = [va, rt, sig, shift, z])
    (hfull' : (updateParameters (ts' ++ [shift, 0]) (vs ++ [false, false]) fit').1 = [va, rt, sig, shift, 0])
    (hrt : rt ≠ 0) (hs : 0 < sig) :
    ((m1.run calls).lnlike fit).2 = ((m1'.run calls').lnlike fit').2 := by
  obtain ⟨s, s', img, hb, hb', -⟩ := C217_observed g.aperCfg hc hF hst hker hsp hi0 hi1 [] [] [] va rt sig shift z hrt hs hz
  exact like_images g (g.atWave (1 + z)) rfl rfl kin hk ns ts ts' vs shift shift z 0 hl hl' f0 f0' calls calls' m0 m1 m0'
    m1' hm0 hm1 hm0' hm1' h0 h0' (fun h => (hall h).1) (fun h => (hall h).2) fit fit' hf hf' va va rt rt sig sig hfull hfull'
    s' s (some img) hb' hb

/-! ## The hypotheses are met -/

/-- data of two rows and two wavelengths of the disc `turnSlit` -/
noncomputable def turnFit : KinInput 2 2 where
  cfg := { turnSlit with adaptive := false }
  rows := rfl
  cols := by simp [turnSlit, smallSlit, uniformGrid]
  data := finData (fun _ _ => 1) (fun _ _ => 1) (fun _ _ => 1) (fun _ _ => 1)
  nosky := some [0, 1]

/-- the model object of a fit of speed, radius and dispersion -/
noncomputable def turnObject (z : ℝ) : KinModelState 2 2 :=
  KinModelState.init ([1, 1, 1] ++ [0, z]) ([true, true, true] ++ [false, false]) ⟨[], some ⟨[], 2⟩, some ⟨[], 1⟩⟩ false

theorem turn_ready (g : KinInput 2 2) (hc : Luminous g.aperCfg) (hF : 0 ≤ g.cfg.psf.fwhm) (hst : ¬ g.cfg.psf.StampFails)
    (hker : g.cfg.psf.fwhm = 0 ∨ KernelFits g.aperCfg) (hi0 : 0 ≤ g.cfg.sini) (hi1 : g.cfg.sini ≤ 1) (hno : g.nosky = some [0, 1])
    (z : ℝ) (hz : 0 < 1 + z) : ((turnObject z).make g [1, 1, 1]).2 = .ok () := by
  obtain ⟨s, -, img, hb, -⟩ := C229_image g.aperCfg hc hF hst hker hi0 hi1 (sharpKin 1 1 1 0 z) rfl 1 1 1 1 1 0 z one_ne_zero
    one_ne_zero one_pos hz (Or.inr (Or.inr (Or.inl ⟨rfl, rfl⟩)))
  obtain ⟨M, hM, -, hmk⟩ := make_image g ([1, 1, 1] ++ [0, z]) ([true, true, true] ++ [false, false])
    ⟨[], some ⟨[], 2⟩, some ⟨[], 1⟩⟩ false rfl rfl [1, 1, 1] rfl 1 1 1 0 z rfl s (some img) hb
  unfold turnObject
  rw [hmk]
  unfold finishModel
  simp only [hM, Bool.false_eq_true, if_false, hno]

/-- the likelihoods of all fitting vectors of a disc with seeing, tilted in the slit, turned, mirrored and moved to its observed
wavelengths -/
example : ∀ calls calls' : List (KinCall 2 2), ∀ va rt sig : ℝ, rt ≠ 0 → 0 < sig →
    (((turnObject 1).make turnFit [1, 1, 1]).1.run calls |>.lnlike [-va, rt, sig]).2 =
      (((turnObject 1).make (turnFit.atAngle (turnFit.cfg.deltPA + 180)) [1, 1, 1]).1.run calls' |>.lnlike [va, rt, sig]).2 ∧
    (((turnObject 1).make turnFit [1, 1, 1]).1.run calls |>.lnlike [va, rt, sig]).2 =
      (((turnObject 1).make (turnFit.atAngle (-turnFit.cfg.deltPA)) [1, 1, 1]).1.run calls' |>.lnlike [va, rt, sig]).2 ∧
    (((turnObject 1).make turnFit [1, 1, 1]).1.run calls |>.lnlike [va, rt, sig]).2 =
      (((turnObject 0).make (turnFit.atWave (1 + 1)) [1, 1, 1]).1.run calls' |>.lnlike [va, rt, sig]).2 := by
  intro calls calls' va rt sig hrt hs
  have h := turnSlit_luminous
  have hl : Luminous turnFit.aperCfg := ⟨h.rows, h.sub, h.pix, h.slit, h.pad, h.int, h.axis, h.mask, rfl, h.wave, (fun h => by cases h),
    h.dither, h.beta⟩
  have hla : ∀ a, Luminous (turnFit.atAngle a).aperCfg := fun a =>
    ⟨h.rows, h.sub, h.pix, h.slit, h.pad, h.int, h.axis, h.mask, rfl, h.wave, (fun h => by cases h), h.dither, h.beta⟩
  have hlw : Luminous (turnFit.atWave (1 + 1)).aperCfg :=
    ⟨h.rows, h.sub, h.pix, h.slit, h.pad, h.int, Or.inr (by simp [KinInput.aperCfg, KinInput.atWave, turnFit, turnSlit, smallSlit]),
      h.mask, rfl, h.wave, (fun h => by cases h), h.dither, h.beta⟩
  have hst : ¬ turnFit.cfg.psf.StampFails := by rintro ⟨h, -⟩; cases h
  have hkf : KernelFits turnFit.aperCfg :=
    kernelFits_wide _ hl (by norm_num [KinInput.aperCfg, turnFit, turnSlit, smallSlit])
  have hi0 : 0 ≤ turnFit.cfg.sini := by norm_num [turnFit, turnSlit, smallSlit]
  have hi1 : turnFit.cfg.sini ≤ 1 := by norm_num [turnFit, turnSlit, smallSlit]
  have he : ∀ r z, turnFit.cfg.int r (-z) = turnFit.cfg.int r z := fun r z => by
    show Real.exp (-r - (-z) ^ 2) = Real.exp (-r - z ^ 2)
    rw [neg_sq]
  have h0 := turn_ready turnFit hl zero_le_one hst (Or.inr hkf) hi0 hi1 rfl 1 (by norm_num)
  have h0a := fun a => turn_ready (turnFit.atAngle a) (hla a) zero_le_one hst (Or.inr hkf) hi0 hi1 rfl 1 (by norm_num)
  have h0w := turn_ready (turnFit.atWave (1 + 1)) hlw zero_le_one hst (Or.inr hkf) hi0 hi1 rfl 0 (by norm_num)
  refine ⟨?_, ?_, ?_⟩
  · exact C231_half_turn turnFit hl zero_le_one hst (Or.inr hkf) hi0 hi1 he _ rfl false [1, 1, 1] [1, 1, 1] [true, true, true] 0 1 rfl
      rfl (by norm_num) [1, 1, 1] [1, 1, 1] calls calls' _ _ _ _ rfl rfl rfl rfl h0 (h0a _) (fun h => by cases h) [-va, rt, sig]
      [va, rt, sig] rfl rfl va rt sig rfl rfl hrt hs
  · exact C231_mirror turnFit hl zero_le_one hst (Or.inr hkf) (Or.inr (by
      show slitCells turnSlit % 2 = 1
      rw [turnSlit_cells])) hi0 hi1 he _ rfl false [1, 1, 1] [1, 1, 1] [true, true, true] 0 1 rfl
      rfl (by norm_num) [1, 1, 1] [1, 1, 1] calls calls' _ _ _ _ rfl rfl rfl rfl h0 (h0a _) (fun h => by cases h) [va, rt, sig]
      [va, rt, sig] rfl rfl va rt sig rfl rfl hrt hs
  · exact C231_observed turnFit hl zero_le_one hst (Or.inr hkf) rfl hi0 hi1 _ rfl false [1, 1, 1] [1, 1, 1] [true, true, true] 0 1 rfl
      rfl (by norm_num) [1, 1, 1] [1, 1, 1] calls calls' _ _ _ _ rfl rfl rfl rfl h0 h0w (fun h => by cases h) [va, rt, sig]
      [va, rt, sig] rfl rfl va rt sig rfl rfl hrt hs

end Misfit
