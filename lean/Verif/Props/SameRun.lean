import Verif.Props.FlipData
import Verif.Props.Reweigh

/-!
# C231 and C241 for whole sampling runs

Descriptions of one galaxy, and data turned by half a turn, for which the same fitting vectors have the same likelihood give the same samples.
-/

namespace Misfit
variable {r c : ℕ}

/-- Specification: inside the bounds the fitting vector stands for a rotation speed, a turnover radius other than zero and a positive
dispersion. -/
def BoundsPhysical (ts : List ℝ) (vs : List Bool) (shift : ℝ) (bounds : List (Option (Fl ℝ × Fl ℝ))) : Prop :=
  ∀ fit : List ℝ, fit.length = vs.count true → InBounds vs.length vs bounds (fit.map Fl.fin) → ∃ va rt sig : ℝ,
    (∀ z, (updateParameters (ts ++ [shift, z]) (vs ++ [false, false]) fit).1 = [va, rt, sig, shift, z]) ∧ rt ≠ 0 ∧ 0 < sig

/-- a fitting vector of the wrong length: `lnprob` depends on the flags, the bounds and the number of parameters only -/
theorem post_wrong_length (g : KinInput r c) (ts : List ℝ) (vs : List Bool) (shift z : ℝ) (kin : KinProfile) (ns : Bool)
    (hl : vs.length = ts.length) (f0 : List ℝ) (calls : List (KinCall r c)) (m0 m1 : KinModelState r c)
    (hm0 : m0 = KinModelState.init (ts ++ [shift, z]) (vs ++ [false, false]) kin ns) (hm1 : m1 = (m0.make g f0).1)
    (h0 : (m0.make g f0).2 = .ok ()) (hall : g.cfg.adaptive = true → AllOk m1 calls)
    (bounds : List (Option (Fl ℝ × Fl ℝ))) (fit : List ℝ) (hfit : fit.length ≠ vs.count true) :
    ((m1.run calls).lnprob bounds fit).2 =
      match priorStatements (vs.length + 2) (vs ++ [false, false]) bounds (fit.map Fl.fin) with
      | .error e => .error e
      | .ok st => if st.all id then .error .valueError else .ok .ninf := by
  have hlen : (vs ++ [false, false]).length = (ts ++ [shift, z]).length := by simp [hl]
  have hcnt : (vs ++ [false, false]).count true = vs.count true := by simp
  have hP : ParamsFrom (ts ++ [shift, z]) (vs ++ [false, false]) (m1.run calls).params := by
    subst hm0
    obtain ⟨_, fx, s, hs, hB, hr, _⟩ := make_built g _ _ kin ns hlen f0 h0
    obtain ⟨_, hB', _⟩ := run_built hlen (setupCalcs_real _ _ _ hs) calls _ s hB hr (by rw [← hm1]; exact hall)
    rw [← hm1] at hB'
    exact hB'.params
  have hbad := KinParams.update_bad (m1.run calls).params fit (by rw [hP.varyEq]; exact hP.nFree) (by rw [hP.varyEq, hcnt]; exact hfit)
  have hlk : ((m1.run calls).lnlike fit).2 = .error .valueError := by
    unfold KinModelState.lnlike KinModelState.update
    rw [hbad]
  have hfin : (fit.map Fl.fin).map Fl.finVal = fit := by
    rw [List.map_map]
    exact List.map_id'' (fun x => rfl) fit
  unfold KinModelState.lnprob lnprob logPrior
  rw [hP.varyEq, List.length_map, hP.len.trans (by simp [hl] : _ = vs.length + 2)]
  cases priorStatements (vs.length + 2) (vs ++ [false, false]) bounds (fit.map Fl.fin) with
  | error e => rfl
  | ok st =>
    simp only [hfin]
    cases st.all id with
    | false => rfl
    | true =>
      revert hlk
      generalize (m1.run calls).lnlike fit = x
      obtain ⟨a, b⟩ := x
      rintro rfl
      rfl

/-- Two set-ups whose likelihoods agree inside the bounds have the same posterior for all fitting vectors. -/
theorem post_everywhere (g g' : KinInput r c) (ts : List ℝ) (vs : List Bool) (shift z z' : ℝ) (kin : KinProfile) (ns : Bool)
    (hl : vs.length = ts.length) (f0 f0' : List ℝ) (calls calls' : List (KinCall r c)) (m0 m1 m0' m1' : KinModelState r c)
    (hm0 : m0 = KinModelState.init (ts ++ [shift, z]) (vs ++ [false, false]) kin ns) (hm1 : m1 = (m0.make g f0).1)
    (hm0' : m0' = KinModelState.init (ts ++ [shift, z']) (vs ++ [false, false]) kin ns) (hm1' : m1' = (m0'.make g' f0').1)
    (h0 : (m0.make g f0).2 = .ok ()) (h0' : (m0'.make g' f0').2 = .ok ())
    (hall : g.cfg.adaptive = true → AllOk m1 calls) (hall' : g'.cfg.adaptive = true → AllOk m1' calls')
    (bounds : List (Option (Fl ℝ × Fl ℝ))) (hb : ∀ i : Nat, vs[i]? = some true → ∃ b, bounds[i]? = some (some b))
    (hp : BoundsPhysical ts vs shift bounds)
    (hlike : ∀ (fit : List ℝ) (va rt sig : ℝ), fit.length = vs.count true →
      (∀ z, (updateParameters (ts ++ [shift, z]) (vs ++ [false, false]) fit).1 = [va, rt, sig, shift, z]) → rt ≠ 0 → 0 < sig →
      ((m1.run calls).lnlike fit).2 = ((m1'.run calls').lnlike fit).2) (fit : List ℝ) :
    ((m1.run calls).lnprob bounds fit).2 = ((m1'.run calls').lnprob bounds fit).2 := by
  by_cases hf : fit.length = vs.count true
  · obtain ⟨a1, a2⟩ := post_of_like g ts vs shift z kin ns hl f0 calls m0 m1 hm0 hm1 h0 hall bounds hb fit hf
    obtain ⟨b1, b2⟩ := post_of_like g' ts vs shift z' kin ns hl f0' calls' m0' m1' hm0' hm1' h0' hall' bounds hb fit hf
    by_cases hi : InBounds vs.length vs bounds (fit.map Fl.fin)
    · obtain ⟨va, rt, sig, hfull, hrt, hs⟩ := hp fit hf hi
      rw [a2 hi, b2 hi, hlike fit va rt sig hf hfull hrt hs]
    · rw [a1 hi, b1 hi]
  · rw [post_wrong_length g ts vs shift z kin ns hl f0 calls m0 m1 hm0 hm1 h0 hall bounds fit hf,
      post_wrong_length g' ts vs shift z' kin ns hl f0' calls' m0' m1' hm0' hm1' h0' hall' bounds fit hf]

/-- **C231** for a whole fit: a sampling run for the galaxy mirrored along the slit, with the same random numbers, returns the same samples and
log-probabilities or ends in the same exception. -/
theorem C231_mirror_run (g : KinInput r c) (hc : Luminous g.aperCfg) (hF : 0 ≤ g.cfg.psf.fwhm)
    (hst : ¬ g.cfg.psf.StampFails) (hker : g.cfg.psf.fwhm = 0 ∨ KernelFits g.aperCfg)
    (hodd : g.cfg.psf.fwhm = 0 ∨ slitCells g.aperCfg % 2 = 1) (hi0 : 0 ≤ g.cfg.sini) (hi1 : g.cfg.sini ≤ 1)
    (he : ∀ r z, g.cfg.int r (-z) = g.cfg.int r z)
    (kin : KinProfile) (hk : kin.shape = (some 2, some 1)) (ns : Bool) (ts : List ℝ) (vs : List Bool) (shift z : ℝ)
    (hl : vs.length = ts.length) (hz : 0 < 1 + z) (f0 f0' : List ℝ) (calls calls' : List (KinCall r c)) (m0 m1 m1' : KinModelState r c)
    (hm0 : m0 = KinModelState.init (ts ++ [shift, z]) (vs ++ [false, false]) kin ns) (hm1 : m1 = (m0.make g f0).1)
    (hm1' : m1' = (m0.make (g.atAngle (-g.cfg.deltPA)) f0').1)
    (h0 : (m0.make g f0).2 = .ok ()) (h0' : (m0.make (g.atAngle (-g.cfg.deltPA)) f0').2 = .ok ())
    (hall : g.cfg.adaptive = true → AllOk m1 calls ∧ AllOk m1' calls')
    (bounds : List (Option (Fl ℝ × Fl ℝ))) (hb : ∀ i : Nat, vs[i]? = some true → ∃ b, bounds[i]? = some (some b))
    (hp : BoundsPhysical ts vs shift bounds) (v : EmceeVersion) (o : RunOpts ℝ) (cpuCount : Nat)
    (initial : List (List (Fl ℝ))) (burnMoves moves : Nat → List (Move ℝ))
    (diag : List (List (Walker ℝ)) → StepDiag ℝ) (file : List (List (Walker ℝ))) :
    runMcmc v o cpuCount (fun x => ((m1.run calls).lnprob bounds (x.map Fl.finVal)).2) initial burnMoves moves diag file =
      runMcmc v o cpuCount (fun x => ((m1'.run calls').lnprob bounds (x.map Fl.finVal)).2) initial burnMoves moves diag file := by
  simp only [post_everywhere g (g.atAngle (-g.cfg.deltPA)) ts vs shift z z kin ns hl f0 f0' calls calls' m0 m1 m0 m1' hm0 hm1 hm0 hm1' h0 h0'
    (fun a => (hall a).1) (fun a => (hall a).2) bounds hb hp fun fit va rt sig hf hfull hrt hs =>
      C231_mirror g hc hF hst hker hodd hi0 hi1 he kin hk ns ts ts vs shift z hl hl hz f0 f0' calls calls' m0 m1 m0 m1' hm0 hm1 hm0 hm1' h0
        h0' hall fit fit hf hf va rt sig (hfull z) (hfull z) hrt hs]

/-- **C231** for a whole fit: a sampling run with the lines at their observed wavelengths and redshift 0, with the same random numbers, returns
the same samples and log-probabilities or ends in the same exception. -/
theorem C231_observed_run (g : KinInput r c) (hc : Luminous g.aperCfg) (hF : 0 ≤ g.cfg.psf.fwhm)
    (hst : ¬ g.cfg.psf.StampFails) (hker : g.cfg.psf.fwhm = 0 ∨ KernelFits g.aperCfg) (hsp : g.cfg.specType = .wave)
    (hi0 : 0 ≤ g.cfg.sini) (hi1 : g.cfg.sini ≤ 1)
    (kin : KinProfile) (hk : kin.shape = (some 2, some 1)) (ns : Bool) (ts : List ℝ) (vs : List Bool) (shift z : ℝ)
    (hl : vs.length = ts.length) (hz : 0 < 1 + z) (f0 f0' : List ℝ) (calls calls' : List (KinCall r c))
    (m0 m1 m0' m1' : KinModelState r c)
    (hm0 : m0 = KinModelState.init (ts ++ [shift, z]) (vs ++ [false, false]) kin ns) (hm1 : m1 = (m0.make g f0).1)
    (hm0' : m0' = KinModelState.init (ts ++ [shift, 0]) (vs ++ [false, false]) kin ns)
    (hm1' : m1' = (m0'.make (g.atWave (1 + z)) f0').1)
    (h0 : (m0.make g f0).2 = .ok ()) (h0' : (m0'.make (g.atWave (1 + z)) f0').2 = .ok ())
    (hall : g.cfg.adaptive = true → AllOk m1 calls ∧ AllOk m1' calls')
    (bounds : List (Option (Fl ℝ × Fl ℝ))) (hb : ∀ i : Nat, vs[i]? = some true → ∃ b, bounds[i]? = some (some b))
    (hp : BoundsPhysical ts vs shift bounds) (v : EmceeVersion) (o : RunOpts ℝ) (cpuCount : Nat)
    (initial : List (List (Fl ℝ))) (burnMoves moves : Nat → List (Move ℝ))
    (diag : List (List (Walker ℝ)) → StepDiag ℝ) (file : List (List (Walker ℝ))) :
    runMcmc v o cpuCount (fun x => ((m1.run calls).lnprob bounds (x.map Fl.finVal)).2) initial burnMoves moves diag file =
      runMcmc v o cpuCount (fun x => ((m1'.run calls').lnprob bounds (x.map Fl.finVal)).2) initial burnMoves moves diag file := by
  simp only [post_everywhere g (g.atWave (1 + z)) ts vs shift z 0 kin ns hl f0 f0' calls calls' m0 m1 m0' m1' hm0 hm1 hm0' hm1' h0 h0'
    (fun a => (hall a).1) (fun a => (hall a).2) bounds hb hp fun fit va rt sig hf hfull hrt hs =>
      C231_observed g hc hF hst hker hsp hi0 hi1 kin hk ns ts ts vs shift z hl hl hz f0 f0' calls calls' m0 m1 m0' m1' hm0 hm1 hm0' hm1' h0
        h0' hall fit fit hf hf va rt sig (hfull z) (hfull 0) hrt hs]

/-- **C241** for a whole fit: a sampling run on the data turned by half a turn, with the same random numbers, returns the same samples and
log-probabilities or ends in the same exception. -/
theorem C241_turned_run (g : KinInput r c)
    (kin : KinProfile) (hk : kin.shape = (some 2, some 1)) (ns : Bool) (ts : List ℝ) (vs : List Bool) (shift z : ℝ)
    (hl : vs.length = ts.length) (f0 f0' : List ℝ) (calls calls' : List (KinCall r c)) (m0 m1 m1' : KinModelState r c)
    (hm0 : m0 = KinModelState.init (ts ++ [shift, z]) (vs ++ [false, false]) kin ns) (hm1 : m1 = (m0.make g f0).1)
    (hm1' : m1' = (m0.make (g.flip true) f0').1)
    (h0 : (m0.make g f0).2 = .ok ()) (h0' : (m0.make (g.flip true) f0').2 = .ok ())
    (hall : g.cfg.adaptive = true → AllOk m1 calls ∧ AllOk m1' calls')
    (hline : LineInMiddle g.aperCfg z) (hc : CentredDisc g.aperCfg shift)
    (hpsf : g.cfg.psf.fwhm ≤ 0 ∨ ((g.cfg.nWhole * g.cfg.nSubpixels) % 2 = 1 ∧ slitCells g.aperCfg % 2 = 1))
    (bounds : List (Option (Fl ℝ × Fl ℝ))) (hb : ∀ i : Nat, vs[i]? = some true → ∃ b, bounds[i]? = some (some b))
    (hp : BoundsPhysical ts vs shift bounds) (v : EmceeVersion) (o : RunOpts ℝ) (cpuCount : Nat)
    (initial : List (List (Fl ℝ))) (burnMoves moves : Nat → List (Move ℝ))
    (diag : List (List (Walker ℝ)) → StepDiag ℝ) (file : List (List (Walker ℝ))) :
    runMcmc v o cpuCount (fun x => ((m1.run calls).lnprob bounds (x.map Fl.finVal)).2) initial burnMoves moves diag file =
      runMcmc v o cpuCount (fun x => ((m1'.run calls').lnprob bounds (x.map Fl.finVal)).2) initial burnMoves moves diag file := by
  simp only [post_everywhere g (g.flip true) ts vs shift z z kin ns hl f0 f0' calls calls' m0 m1 m0 m1' hm0 hm1 hm0 hm1' h0 h0'
    (fun a => (hall a).1) (fun a => (hall a).2) bounds hb hp fun fit va rt sig hf hfull _ hs =>
      C241_turned g kin hk ns ts ts vs shift z hl hl f0 f0' calls calls' m0 m1 m0 m1' hm0 hm1 hm0 hm1' h0 h0' hall fit fit hf hf va rt sig
        (hfull z) (hfull z) hline hs.ne' hc hpsf]

/-! ## The hypotheses are met -/

/-- bounds of a fit of speed, radius and dispersion -/
def threeBounds : List (Option (Fl ℝ × Fl ℝ)) := [some (.fin (-300), .fin 300), some (.fin 1, .fin 2), some (.fin 1, .fin 90)]

theorem threeBounds_given : ∀ i : Nat, [true, true, true][i]? = some true → ∃ x, threeBounds[i]? = some (some x) := by
  intro i hi
  rcases i with _ | _ | _ | i
  · exact ⟨_, rfl⟩
  · exact ⟨_, rfl⟩
  · exact ⟨_, rfl⟩
  · simp at hi

theorem threeBounds_physical : BoundsPhysical [1, 1, 1] [true, true, true] 0 threeBounds := by
  intro fit hf hin
  obtain ⟨va, rt, sig, rfl⟩ : ∃ va rt sig, fit = [va, rt, sig] := by
    rcases fit with _ | ⟨a, _ | ⟨b, _ | ⟨d, _ | ⟨e, l⟩⟩⟩⟩ <;> simp at hf
    exact ⟨a, b, d, rfl⟩
  obtain ⟨_, _, e3, e4, a3, -⟩ := hin 1 (by show 1 < 3; omega) rfl
  obtain ⟨_, _, e5, e6, a5, -⟩ := hin 2 (by show 2 < 3; omega) rfl
  cases e3; cases e4; cases e5; cases e6
  have h3 : (1 : ℝ) ≤ rt := of_decide_eq_true a3
  have h5 : (1 : ℝ) ≤ sig := of_decide_eq_true a5
  exact ⟨va, rt, sig, fun z => rfl, by linarith, by linarith⟩

/-- all sampling runs on the turned data, with all starting points and random numbers -/
example (calls calls' : List (KinCall 3 2)) (v : EmceeVersion) (o : RunOpts ℝ) (cpuCount : Nat) (initial : List (List (Fl ℝ)))
    (burnMoves moves : Nat → List (Move ℝ)) (diag : List (List (Walker ℝ)) → StepDiag ℝ) (file : List (List (Walker ℝ))) :
    runMcmc v o cpuCount (fun x => (((flipObject.make flipFit [1, 1, 1]).1.run calls).lnprob threeBounds (x.map Fl.finVal)).2) initial
        burnMoves moves diag file =
      runMcmc v o cpuCount (fun x => (((flipObject.make (flipFit.flip true) [1, 1, 1]).1.run calls').lnprob threeBounds
        (x.map Fl.finVal)).2) initial burnMoves moves diag file :=
  C241_turned_run flipFit _ rfl false [1, 1, 1] [true, true, true] 0 (1 / 2) rfl [1, 1, 1] [1, 1, 1] calls calls' _ _ _ rfl rfl rfl
    (flip_ready true).1 (flip_ready true).2 (fun h => by cases h) flip_line flip_centred (Or.inr ⟨rfl, flip_odd⟩) threeBounds
    threeBounds_given threeBounds_physical v o cpuCount initial burnMoves moves diag file

/-- all sampling runs for the mirrored galaxy and for the observed wavelengths -/
example (calls calls' : List (KinCall 2 2)) (v : EmceeVersion) (o : RunOpts ℝ) (cpuCount : Nat) (initial : List (List (Fl ℝ)))
    (burnMoves moves : Nat → List (Move ℝ)) (diag : List (List (Walker ℝ)) → StepDiag ℝ) (file : List (List (Walker ℝ))) :
    runMcmc v o cpuCount (fun x => ((((turnObject 1).make turnFit [1, 1, 1]).1.run calls).lnprob threeBounds (x.map Fl.finVal)).2) initial
        burnMoves moves diag file =
      runMcmc v o cpuCount (fun x => ((((turnObject 1).make (turnFit.atAngle (-turnFit.cfg.deltPA)) [1, 1, 1]).1.run calls').lnprob
        threeBounds (x.map Fl.finVal)).2) initial burnMoves moves diag file ∧
    runMcmc v o cpuCount (fun x => ((((turnObject 1).make turnFit [1, 1, 1]).1.run calls).lnprob threeBounds (x.map Fl.finVal)).2) initial
        burnMoves moves diag file =
      runMcmc v o cpuCount (fun x => ((((turnObject 0).make (turnFit.atWave (1 + 1)) [1, 1, 1]).1.run calls').lnprob
        threeBounds (x.map Fl.finVal)).2) initial burnMoves moves diag file := by
  have h := turnSlit_luminous
  have hl : Luminous turnFit.aperCfg := ⟨h.rows, h.sub, h.pix, h.slit, h.pad, h.int, h.axis, h.mask, rfl, h.wave, (fun h => by cases h),
    h.dither, h.beta⟩
  have hla : ∀ a, Luminous (turnFit.atAngle a).aperCfg := fun a =>
    ⟨h.rows, h.sub, h.pix, h.slit, h.pad, h.int, h.axis, h.mask, rfl, h.wave, (fun h => by cases h), h.dither, h.beta⟩
  have hlw : Luminous (turnFit.atWave (1 + 1)).aperCfg :=
    ⟨h.rows, h.sub, h.pix, h.slit, h.pad, h.int, Or.inr (by simp [KinInput.aperCfg, KinInput.atWave, turnFit, turnSlit, smallSlit]),
      h.mask, rfl, h.wave, (fun h => by cases h), h.dither, h.beta⟩
  have hst : ¬ turnFit.cfg.psf.StampFails := by rintro ⟨h, -⟩; cases h
  have hkf : KernelFits turnFit.aperCfg :=
    kernelFits_wide _ hl (by norm_num [KinInput.aperCfg, turnFit, turnSlit, smallSlit])
  have hi0 : 0 ≤ turnFit.cfg.sini := by norm_num [turnFit, turnSlit, smallSlit]
  have hi1 : turnFit.cfg.sini ≤ 1 := by norm_num [turnFit, turnSlit, smallSlit]
  have he : ∀ r z, turnFit.cfg.int r (-z) = turnFit.cfg.int r z := fun r z => by
    show Real.exp (-r - (-z) ^ 2) = Real.exp (-r - z ^ 2)
    rw [neg_sq]
  have h0 := turn_ready turnFit hl zero_le_one hst (Or.inr hkf) hi0 hi1 rfl 1 (by norm_num)
  have h0a := fun a => turn_ready (turnFit.atAngle a) (hla a) zero_le_one hst (Or.inr hkf) hi0 hi1 rfl 1 (by norm_num)
  have h0w := turn_ready (turnFit.atWave (1 + 1)) hlw zero_le_one hst (Or.inr hkf) hi0 hi1 rfl 0 (by norm_num)
  constructor
  · exact C231_mirror_run turnFit hl zero_le_one hst (Or.inr hkf) (Or.inr (by
      show slitCells turnSlit % 2 = 1
      rw [turnSlit_cells])) hi0 hi1 he _ rfl false [1, 1, 1] [true, true, true] 0 1 rfl (by norm_num) [1, 1, 1] [1, 1, 1] calls calls' _ _ _
      rfl rfl rfl h0 (h0a _) (fun h => by cases h) threeBounds threeBounds_given threeBounds_physical v o cpuCount initial burnMoves moves
      diag file
  · exact C231_observed_run turnFit hl zero_le_one hst (Or.inr hkf) rfl hi0 hi1 _ rfl false [1, 1, 1] [true, true, true] 0 1 rfl
      (by norm_num) [1, 1, 1] [1, 1, 1] calls calls' _ _ _ _ rfl rfl rfl rfl h0 h0w (fun h => by cases h) threeBounds threeBounds_given
      threeBounds_physical v o cpuCount initial burnMoves moves diag file

end Misfit
