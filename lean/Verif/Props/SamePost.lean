import Verif.Props.FitTurn
import Verif.Props.Params

/-!
# C229 and C231 for the posterior

The value returned by `lnprob` for parameters that cannot be told apart, and for different descriptions of one galaxy.
-/

namespace Misfit
variable {r c : ℕ}

/-- Specification: the posterior inside the bounds, `-inf` in place of a likelihood that is not a number. -/
def insidePost : Except PyErr (Fl ℝ) → Except PyErr (Fl ℝ)
  | .error e => .error e
  | .ok l => .ok (if l.isFinite then l else .ninf)

/-- `lnprob` after any calls: `-inf` outside the bounds, the likelihood inside. -/
theorem post_of_like (g : KinInput r c) (ts : List ℝ) (vs : List Bool) (shift z : ℝ) (kin : KinProfile) (ns : Bool)
    (hl : vs.length = ts.length) (f0 : List ℝ) (calls : List (KinCall r c)) (m0 m1 : KinModelState r c)
    (hm0 : m0 = KinModelState.init (ts ++ [shift, z]) (vs ++ [false, false]) kin ns) (hm1 : m1 = (m0.make g f0).1)
    (h0 : (m0.make g f0).2 = .ok ()) (hall : g.cfg.adaptive = true → AllOk m1 calls)
    (bounds : List (Option (Fl ℝ × Fl ℝ))) (hb : ∀ i : Nat, vs[i]? = some true → ∃ b, bounds[i]? = some (some b))
    (fit : List ℝ) (hfit : fit.length = vs.count true) :
    (¬ InBounds vs.length vs bounds (fit.map Fl.fin) → ((m1.run calls).lnprob bounds fit).2 = .ok .ninf) ∧
    (InBounds vs.length vs bounds (fit.map Fl.fin) →
      ((m1.run calls).lnprob bounds fit).2 = insidePost ((m1.run calls).lnlike fit).2) := by
  have hlen : (vs ++ [false, false]).length = (ts ++ [shift, z]).length := by simp [hl]
  obtain ⟨hvary, hlen'⟩ : (m1.run calls).params.vary = vs ++ [false, false] ∧
      (m1.run calls).params.theta.length = vs.length + 2 := by
    subst hm0
    obtain ⟨_, fx, s, hs, hB, hr, _⟩ := make_built g _ _ kin ns hlen f0 h0
    obtain ⟨_, hB', _⟩ := run_built hlen (setupCalcs_real _ _ _ hs) calls _ s hB hr (by rw [← hm1]; exact hall)
    rw [← hm1] at hB'
    exact ⟨hB'.params.varyEq, hB'.params.len.trans (by simp [hl])⟩
  have hlast : ∀ i, vs.length ≤ i → (vs ++ [false, false])[i]? ≠ some true := by
    intro i hi hv
    rw [List.getElem?_append_right hi] at hv
    rcases h : i - vs.length with _ | _ | n <;> rw [h] at hv <;> simp at hv
  have hin : InBounds (vs.length + 2) (vs ++ [false, false]) bounds (fit.map Fl.fin) ↔
      InBounds vs.length vs bounds (fit.map Fl.fin) := by
    unfold InBounds
    constructor
    · intro H i hi hv
      have h := H i (by omega) (by rw [List.getElem?_append_left hi]; exact hv)
      rwa [List.take_append_of_le_length (by omega)] at h
    · intro H i hi hv
      by_cases h3 : i < vs.length
      · rw [List.getElem?_append_left h3] at hv
        rw [List.take_append_of_le_length (by omega)]
        exact H i h3 hv
      · exact absurd hv (hlast i (not_lt.1 h3))
  have hpr := C03_prior_indicator ((m1.run calls).params.theta.map Fl.fin) (vs ++ [false, false]) bounds
    (fit.map Fl.fin) (by simp [hlen']) (by
      rw [List.length_map, hlen', List.length_map, hfit, List.take_of_length_le (by simp)]
      simp) (by
      intro i hi hv
      by_cases h3 : i < vs.length
      · rw [List.getElem?_append_left h3] at hv
        exact hb i hv
      · exact absurd hv (hlast i (not_lt.1 h3)))
  rw [List.length_map, hlen', hin] at hpr
  have hfin : (fit.map Fl.fin).map Fl.finVal = fit := by
    rw [List.map_map]
    exact List.map_id'' (fun x => rfl) fit
  constructor
  · intro hout
    unfold KinModelState.lnprob lnprob
    rw [hvary, hpr.2 hout]
    rfl
  · intro hins
    unfold KinModelState.lnprob lnprob
    rw [hvary, hpr.1 hins]
    simp only [hfin]
    generalize ((m1.run calls).lnlike fit) = x
    obtain ⟨a, b⟩ := x
    have hz : Fl.isFinite (0 : Fl ℝ) = true := rfl
    simp only [hz, if_true]
    cases b with
    | error e => rfl
    | ok l => simp only [zero_add, insidePost]

/-- Two set-ups whose likelihoods agree have the same posterior where both fitting vectors are inside the bounds or both outside. -/
theorem post_same (g g' : KinInput r c) (ts ts' : List ℝ) (vs : List Bool) (shift shift' z z' : ℝ) (kin : KinProfile) (ns : Bool)
    (hl : vs.length = ts.length) (hl' : vs.length = ts'.length) (f0 f0' : List ℝ) (calls calls' : List (KinCall r c))
    (m0 m1 m0' m1' : KinModelState r c)
    (hm0 : m0 = KinModelState.init (ts ++ [shift, z]) (vs ++ [false, false]) kin ns) (hm1 : m1 = (m0.make g f0).1)
    (hm0' : m0' = KinModelState.init (ts' ++ [shift', z']) (vs ++ [false, false]) kin ns) (hm1' : m1' = (m0'.make g' f0').1)
    (h0 : (m0.make g f0).2 = .ok ()) (h0' : (m0'.make g' f0').2 = .ok ())
    (hall : g.cfg.adaptive = true → AllOk m1 calls) (hall' : g'.cfg.adaptive = true → AllOk m1' calls')
    (bounds bounds' : List (Option (Fl ℝ × Fl ℝ))) (hb : ∀ i : Nat, vs[i]? = some true → ∃ b, bounds[i]? = some (some b))
    (hb' : ∀ i : Nat, vs[i]? = some true → ∃ b, bounds'[i]? = some (some b))
    (fit fit' : List ℝ) (hf : fit.length = vs.count true) (hf' : fit'.length = vs.count true)
    (hin : InBounds vs.length vs bounds (fit.map Fl.fin) ↔ InBounds vs.length vs bounds' (fit'.map Fl.fin))
    (hlike : ((m1.run calls).lnlike fit).2 = ((m1'.run calls').lnlike fit').2) :
    ((m1.run calls).lnprob bounds fit).2 = ((m1'.run calls').lnprob bounds' fit').2 := by
  obtain ⟨a1, a2⟩ := post_of_like g ts vs shift z kin ns hl f0 calls m0 m1 hm0 hm1 h0 hall bounds hb fit hf
  obtain ⟨b1, b2⟩ := post_of_like g' ts' vs shift' z' kin ns hl' f0' calls' m0' m1' hm0' hm1' h0' hall' bounds' hb' fit' hf'
  by_cases hi : InBounds vs.length vs bounds (fit.map Fl.fin)
  · rw [a2 hi, b2 (hin.1 hi), hlike]
  · rw [a1 hi, b1 (fun h => hi (hin.2 h))]

/-- **C229**: fitting vectors for parameters with the same velocity field, both inside the bounds or both outside, have the same posterior. -/
theorem C229_posterior (g : KinInput r c) (hc : Luminous g.aperCfg) (hF : 0 ≤ g.cfg.psf.fwhm)
    (hst : ¬ g.cfg.psf.StampFails) (hker : g.cfg.psf.fwhm = 0 ∨ KernelFits g.aperCfg) (hi0 : 0 ≤ g.cfg.sini) (hi1 : g.cfg.sini ≤ 1)
    (kin : KinProfile) (hk : kin.shape = (some 2, some 1)) (ns : Bool) (ts : List ℝ) (vs : List Bool) (shift z : ℝ)
    (hl : vs.length = ts.length) (hz : 0 < 1 + z) (f0 : List ℝ) (calls calls' : List (KinCall r c)) (m0 m1 : KinModelState r c)
    (hm0 : m0 = KinModelState.init (ts ++ [shift, z]) (vs ++ [false, false]) kin ns) (hm1 : m1 = (m0.make g f0).1)
    (h0 : (m0.make g f0).2 = .ok ()) (hall : g.cfg.adaptive = true → AllOk m1 calls ∧ AllOk m1 calls')
    (bounds : List (Option (Fl ℝ × Fl ℝ))) (hb : ∀ i : Nat, vs[i]? = some true → ∃ b, bounds[i]? = some (some b))
    (fit fit' : List ℝ) (hf : fit.length = vs.count true) (hf' : fit'.length = vs.count true) (va va' rt rt' sig : ℝ)
    (hin : InBounds vs.length vs bounds (fit.map Fl.fin) ↔ InBounds vs.length vs bounds (fit'.map Fl.fin))
    (hfull : (updateParameters (ts ++ [shift, z]) (vs ++ [false, false]) fit).1 = [va, rt, sig, shift, z])
    (hfull' : (updateParameters (ts ++ [shift, z]) (vs ++ [false, false]) fit').1 = [va', rt', sig, shift, z])
    (hrt : rt ≠ 0) (hrt' : rt' ≠ 0) (hs : 0 < sig)
    (h : g.cfg.sini = 0 ∨ (va = 0 ∧ va' = 0) ∨ (va' = va ∧ rt' = rt) ∨ (va' = -va ∧ rt' = -rt)) :
    ((m1.run calls).lnprob bounds fit).2 = ((m1.run calls').lnprob bounds fit').2 :=
  post_same g g ts ts vs shift shift z z kin ns hl hl f0 f0 calls calls' m0 m1 m0 m1 hm0 hm1 hm0 hm1 h0 h0 (fun a => (hall a).1)
    (fun a => (hall a).2) bounds bounds hb hb fit fit' hf hf' hin
    (C229_likelihood g hc hF hst hker hi0 hi1 kin hk ns ts vs shift z hl hz f0 calls calls' m0 m1 hm0 hm1 h0 hall fit fit' hf hf' va va'
      rt rt' sig hfull hfull' hrt hrt' hs h)

/-- **C231**: the posterior of a galaxy mirrored along the slit is the same, without seeing or with an odd number of subpixels across the slit. -/
theorem C231_mirror_posterior (g : KinInput r c) (hc : Luminous g.aperCfg) (hF : 0 ≤ g.cfg.psf.fwhm)
    (hst : ¬ g.cfg.psf.StampFails) (hker : g.cfg.psf.fwhm = 0 ∨ KernelFits g.aperCfg)
    (hodd : g.cfg.psf.fwhm = 0 ∨ slitCells g.aperCfg % 2 = 1) (hi0 : 0 ≤ g.cfg.sini) (hi1 : g.cfg.sini ≤ 1)
    (he : ∀ r z, g.cfg.int r (-z) = g.cfg.int r z)
    (kin : KinProfile) (hk : kin.shape = (some 2, some 1)) (ns : Bool) (ts : List ℝ) (vs : List Bool) (shift z : ℝ)
    (hl : vs.length = ts.length) (hz : 0 < 1 + z) (f0 f0' : List ℝ) (calls calls' : List (KinCall r c))
    (m0 m1 m1' : KinModelState r c)
    (hm0 : m0 = KinModelState.init (ts ++ [shift, z]) (vs ++ [false, false]) kin ns) (hm1 : m1 = (m0.make g f0).1)
    (hm1' : m1' = (m0.make (g.atAngle (-g.cfg.deltPA)) f0').1)
    (h0 : (m0.make g f0).2 = .ok ()) (h0' : (m0.make (g.atAngle (-g.cfg.deltPA)) f0').2 = .ok ())
    (hall : g.cfg.adaptive = true → AllOk m1 calls ∧ AllOk m1' calls')
    (bounds : List (Option (Fl ℝ × Fl ℝ))) (hb : ∀ i : Nat, vs[i]? = some true → ∃ b, bounds[i]? = some (some b))
    (fit : List ℝ) (hf : fit.length = vs.count true) (va rt sig : ℝ)
    (hfull : (updateParameters (ts ++ [shift, z]) (vs ++ [false, false]) fit).1 = [va, rt, sig, shift, z])
    (hrt : rt ≠ 0) (hs : 0 < sig) :
    ((m1.run calls).lnprob bounds fit).2 = ((m1'.run calls').lnprob bounds fit).2 :=
  post_same g (g.atAngle (-g.cfg.deltPA)) ts ts vs shift shift z z kin ns hl hl f0 f0' calls calls' m0 m1 m0 m1' hm0 hm1 hm0 hm1' h0 h0'
    (fun a => (hall a).1) (fun a => (hall a).2) bounds bounds hb hb fit fit hf hf Iff.rfl
    (C231_mirror g hc hF hst hker hodd hi0 hi1 he kin hk ns ts ts vs shift z hl hl hz f0 f0' calls calls' m0 m1 m0 m1' hm0 hm1 hm0 hm1' h0
      h0' hall fit fit hf hf va rt sig hfull hfull hrt hs)

/-- **C231**: the posterior with the lines at their observed wavelengths and redshift 0 is the posterior with the rest wavelengths and
redshift `z`. -/
theorem C231_observed_posterior (g : KinInput r c) (hc : Luminous g.aperCfg) (hF : 0 ≤ g.cfg.psf.fwhm)
    (hst : ¬ g.cfg.psf.StampFails) (hker : g.cfg.psf.fwhm = 0 ∨ KernelFits g.aperCfg) (hsp : g.cfg.specType = .wave)
    (hi0 : 0 ≤ g.cfg.sini) (hi1 : g.cfg.sini ≤ 1)
    (kin : KinProfile) (hk : kin.shape = (some 2, some 1)) (ns : Bool) (ts : List ℝ) (vs : List Bool) (shift z : ℝ)
    (hl : vs.length = ts.length) (hz : 0 < 1 + z) (f0 f0' : List ℝ) (calls calls' : List (KinCall r c))
    (m0 m1 m0' m1' : KinModelState r c)
    (hm0 : m0 = KinModelState.init (ts ++ [shift, z]) (vs ++ [false, false]) kin ns) (hm1 : m1 = (m0.make g f0).1)
    (hm0' : m0' = KinModelState.init (ts ++ [shift, 0]) (vs ++ [false, false]) kin ns)
    (hm1' : m1' = (m0'.make (g.atWave (1 + z)) f0').1)
    (h0 : (m0.make g f0).2 = .ok ()) (h0' : (m0'.make (g.atWave (1 + z)) f0').2 = .ok ())
    (hall : g.cfg.adaptive = true → AllOk m1 calls ∧ AllOk m1' calls')
    (bounds : List (Option (Fl ℝ × Fl ℝ))) (hb : ∀ i : Nat, vs[i]? = some true → ∃ b, bounds[i]? = some (some b))
    (fit : List ℝ) (hf : fit.length = vs.count true) (va rt sig : ℝ)
    (hfull : (updateParameters (ts ++ [shift, z]) (vs ++ [false, false]) fit).1 = [va, rt, sig, shift, z])
    (hfull' : (updateParameters (ts ++ [shift, 0]) (vs ++ [false, false]) fit).1 = [va, rt, sig, shift, 0])
    (hrt : rt ≠ 0) (hs : 0 < sig) :
    ((m1.run calls).lnprob bounds fit).2 = ((m1'.run calls').lnprob bounds fit).2 :=
  post_same g (g.atWave (1 + z)) ts ts vs shift shift z 0 kin ns hl hl f0 f0' calls calls' m0 m1 m0' m1' hm0 hm1 hm0' hm1' h0 h0'
    (fun a => (hall a).1) (fun a => (hall a).2) bounds bounds hb hb fit fit hf hf Iff.rfl
    (C231_observed g hc hF hst hker hsp hi0 hi1 kin hk ns ts ts vs shift z hl hl hz f0 f0' calls calls' m0 m1 m0' m1' hm0 hm1 hm0' hm1' h0
      h0' hall fit fit hf hf va rt sig hfull hfull' hrt hs)

/-- **C231**: the posterior of the galaxy turned by 180 degrees is that of the galaxy with the opposite rotation speed, where both speeds are
allowed or both not. -/
theorem C231_turn_posterior (g : KinInput r c) (hc : Luminous g.aperCfg) (hF : 0 ≤ g.cfg.psf.fwhm)
    (hst : ¬ g.cfg.psf.StampFails) (hker : g.cfg.psf.fwhm = 0 ∨ KernelFits g.aperCfg) (hi0 : 0 ≤ g.cfg.sini) (hi1 : g.cfg.sini ≤ 1)
    (he : ∀ r z, g.cfg.int r (-z) = g.cfg.int r z)
    (kin : KinProfile) (hk : kin.shape = (some 2, some 1)) (ns : Bool) (ts ts' : List ℝ) (vs : List Bool) (shift z : ℝ)
    (hl : vs.length = ts.length) (hl' : vs.length = ts'.length) (hz : 0 < 1 + z) (f0 f0' : List ℝ) (calls calls' : List (KinCall r c))
    (m0 m1 m0' m1' : KinModelState r c)
    (hm0 : m0 = KinModelState.init (ts ++ [shift, z]) (vs ++ [false, false]) kin ns) (hm1 : m1 = (m0.make g f0).1)
    (hm0' : m0' = KinModelState.init (ts' ++ [shift, z]) (vs ++ [false, false]) kin ns)
    (hm1' : m1' = (m0'.make (g.atAngle (g.cfg.deltPA + 180)) f0').1)
    (h0 : (m0.make g f0).2 = .ok ()) (h0' : (m0'.make (g.atAngle (g.cfg.deltPA + 180)) f0').2 = .ok ())
    (hall : g.cfg.adaptive = true → AllOk m1 calls ∧ AllOk m1' calls')
    (bounds bounds' : List (Option (Fl ℝ × Fl ℝ))) (hb : ∀ i : Nat, vs[i]? = some true → ∃ b, bounds[i]? = some (some b))
    (hb' : ∀ i : Nat, vs[i]? = some true → ∃ b, bounds'[i]? = some (some b))
    (fit fit' : List ℝ) (hf : fit.length = vs.count true) (hf' : fit'.length = vs.count true) (va rt sig : ℝ)
    (hin : InBounds vs.length vs bounds (fit.map Fl.fin) ↔ InBounds vs.length vs bounds' (fit'.map Fl.fin))
    (hfull : (updateParameters (ts ++ [shift, z]) (vs ++ [false, false]) fit).1 = [-va, rt, sig, shift, z])
    (hfull' : (updateParameters (ts' ++ [shift, z]) (vs ++ [false, false]) fit').1 = [va, rt, sig, shift, z])
    (hrt : rt ≠ 0) (hs : 0 < sig) :
    ((m1.run calls).lnprob bounds fit).2 = ((m1'.run calls').lnprob bounds' fit').2 :=
  post_same g (g.atAngle (g.cfg.deltPA + 180)) ts ts' vs shift shift z z kin ns hl hl' f0 f0' calls calls' m0 m1 m0' m1' hm0 hm1 hm0' hm1'
    h0 h0' (fun a => (hall a).1) (fun a => (hall a).2) bounds bounds' hb hb' fit fit' hf hf' hin
    (C231_half_turn g hc hF hst hker hi0 hi1 he kin hk ns ts ts' vs shift z hl hl' hz f0 f0' calls calls' m0 m1 m0' m1' hm0 hm1 hm0' hm1'
      h0 h0' hall fit fit' hf hf' va rt sig hfull hfull' hrt hs)

/-- the posteriors of a disc with seeing, tilted in the slit, and of the turned, mirrored and moved disc, with bounds symmetric in the speed -/
example : ∀ calls calls' : List (KinCall 2 2), ∀ va rt sig : ℝ, rt ≠ 0 → 0 < sig →
    let b : List (Option (Fl ℝ × Fl ℝ)) := [some (.fin (-300), .fin 300), some (.fin 1, .fin 2), some (.fin 1, .fin 90)]
    (((turnObject 1).make turnFit [1, 1, 1]).1.run calls |>.lnprob b [-va, rt, sig]).2 =
      (((turnObject 1).make (turnFit.atAngle (turnFit.cfg.deltPA + 180)) [1, 1, 1]).1.run calls' |>.lnprob b [va, rt, sig]).2 ∧
    (((turnObject 1).make turnFit [1, 1, 1]).1.run calls |>.lnprob b [va, rt, sig]).2 =
      (((turnObject 1).make (turnFit.atAngle (-turnFit.cfg.deltPA)) [1, 1, 1]).1.run calls' |>.lnprob b [va, rt, sig]).2 ∧
    (((turnObject 1).make turnFit [1, 1, 1]).1.run calls |>.lnprob b [va, rt, sig]).2 =
      (((turnObject 0).make (turnFit.atWave (1 + 1)) [1, 1, 1]).1.run calls' |>.lnprob b [va, rt, sig]).2 := by
  intro calls calls' va rt sig hrt hs b
  have h := turnSlit_luminous
  have hl : Luminous turnFit.aperCfg := ⟨h.rows, h.sub, h.pix, h.slit, h.pad, h.int, h.axis, h.mask, rfl, h.wave, (fun h => by cases h),
    h.dither, h.beta⟩
  have hla : ∀ a, Luminous (turnFit.atAngle a).aperCfg := fun a =>
    ⟨h.rows, h.sub, h.pix, h.slit, h.pad, h.int, h.axis, h.mask, rfl, h.wave, (fun h => by cases h), h.dither, h.beta⟩
  have hlw : Luminous (turnFit.atWave (1 + 1)).aperCfg :=
    ⟨h.rows, h.sub, h.pix, h.slit, h.pad, h.int, Or.inr (by simp [KinInput.aperCfg, KinInput.atWave, turnFit, turnSlit, smallSlit]),
      h.mask, rfl, h.wave, (fun h => by cases h), h.dither, h.beta⟩
  have hst : ¬ turnFit.cfg.psf.StampFails := by rintro ⟨h, -⟩; cases h
  have hkf : KernelFits turnFit.aperCfg :=
    kernelFits_wide _ hl (by norm_num [KinInput.aperCfg, turnFit, turnSlit, smallSlit])
  have hi0 : 0 ≤ turnFit.cfg.sini := by norm_num [turnFit, turnSlit, smallSlit]
  have hi1 : turnFit.cfg.sini ≤ 1 := by norm_num [turnFit, turnSlit, smallSlit]
  have he : ∀ r z, turnFit.cfg.int r (-z) = turnFit.cfg.int r z := fun r z => by
    show Real.exp (-r - (-z) ^ 2) = Real.exp (-r - z ^ 2)
    rw [neg_sq]
  have h0 := turn_ready turnFit hl zero_le_one hst (Or.inr hkf) hi0 hi1 rfl 1 (by norm_num)
  have h0a := fun a => turn_ready (turnFit.atAngle a) (hla a) zero_le_one hst (Or.inr hkf) hi0 hi1 rfl 1 (by norm_num)
  have h0w := turn_ready (turnFit.atWave (1 + 1)) hlw zero_le_one hst (Or.inr hkf) hi0 hi1 rfl 0 (by norm_num)
  have hb : ∀ i : Nat, [true, true, true][i]? = some true → ∃ x, b[i]? = some (some x) := by
    intro i hi
    rcases i with _ | _ | _ | i
    · exact ⟨_, rfl⟩
    · exact ⟨_, rfl⟩
    · exact ⟨_, rfl⟩
    · simp at hi
  have hin : ∀ v : ℝ, InBounds 3 [true, true, true] b ([v, rt, sig].map Fl.fin) ↔
      (-300 ≤ v ∧ v ≤ 300) ∧ (1 ≤ rt ∧ rt ≤ 2) ∧ (1 ≤ sig ∧ sig ≤ 90) := by
    intro v
    unfold InBounds
    constructor
    · intro H
      obtain ⟨_, _, e1, e2, a1, a2⟩ := H 0 (by omega) rfl
      obtain ⟨_, _, e3, e4, a3, a4⟩ := H 1 (by omega) rfl
      obtain ⟨_, _, e5, e6, a5, a6⟩ := H 2 (by omega) rfl
      cases e1; cases e2; cases e3; cases e4; cases e5; cases e6
      exact ⟨⟨of_decide_eq_true a1, of_decide_eq_true a2⟩, ⟨of_decide_eq_true a3, of_decide_eq_true a4⟩,
        of_decide_eq_true a5, of_decide_eq_true a6⟩
    · rintro ⟨⟨a1, a2⟩, ⟨a3, a4⟩, a5, a6⟩ i hi -
      rcases i with _ | _ | _ | i
      · exact ⟨_, _, rfl, rfl, decide_eq_true a1, decide_eq_true a2⟩
      · exact ⟨_, _, rfl, rfl, decide_eq_true a3, decide_eq_true a4⟩
      · exact ⟨_, _, rfl, rfl, decide_eq_true a5, decide_eq_true a6⟩
      · omega
  refine ⟨?_, ?_, ?_⟩
  · exact C231_turn_posterior turnFit hl zero_le_one hst (Or.inr hkf) hi0 hi1 he _ rfl false [1, 1, 1] [1, 1, 1] [true, true, true] 0 1 rfl
      rfl (by norm_num) [1, 1, 1] [1, 1, 1] calls calls' _ _ _ _ rfl rfl rfl rfl h0 (h0a _) (fun h => by cases h) b b hb hb [-va, rt, sig]
      [va, rt, sig] rfl rfl va rt sig (by
        refine (hin (-va)).trans (Iff.trans ?_ (hin va).symm)
        constructor <;> rintro ⟨⟨h1, h2⟩, h3⟩ <;> exact ⟨⟨by linarith, by linarith⟩, h3⟩) rfl rfl hrt hs
  · exact C231_mirror_posterior turnFit hl zero_le_one hst (Or.inr hkf) (Or.inr (by
      show slitCells turnSlit % 2 = 1
      rw [turnSlit_cells])) hi0 hi1 he _ rfl false [1, 1, 1] [true, true, true] 0 1
      rfl (by norm_num) [1, 1, 1] [1, 1, 1] calls calls' _ _ _ rfl rfl rfl h0 (h0a _) (fun h => by cases h) b hb
      [va, rt, sig] rfl va rt sig rfl hrt hs
  · exact C231_observed_posterior turnFit hl zero_le_one hst (Or.inr hkf) rfl hi0 hi1 _ rfl false [1, 1, 1] [true, true, true] 0 1
      rfl (by norm_num) [1, 1, 1] [1, 1, 1] calls calls' _ _ _ _ rfl rfl rfl rfl h0 h0w (fun h => by cases h) b hb
      [va, rt, sig] rfl va rt sig rfl rfl hrt hs

end Misfit
