import Verif.Props.AngleRun
import Verif.Props.Light
import Verif.Props.WaveUnits

/-!
# C84, C169 and C231 for whole sampling runs

A factor on the light profile and the unit of wavelengths have no effect on the samples; the galaxy turned by 180 degrees has the samples with
the sign of the speed changed.
-/

namespace Misfit
variable {r c : ℕ}

/-- Two set-ups whose likelihoods agree at opposite speeds have posteriors that agree at opposite speeds, with the mirrored bounds. -/
theorem mirror_post_everywhere (g g' : KinInput r c) (ts : List ℝ) (vs : List Bool) (shift z : ℝ) (kin : KinProfile) (ns : Bool)
    (hl : (true :: vs).length = ts.length) (f0 f0' : List ℝ) (calls calls' : List (KinCall r c)) (m0 m1 m1' : KinModelState r c)
    (hm0 : m0 = KinModelState.init (ts ++ [shift, z]) (true :: vs ++ [false, false]) kin ns) (hm1 : m1 = (m0.make g f0).1)
    (hm1' : m1' = (m0.make g' f0').1) (h0 : (m0.make g f0).2 = .ok ()) (h0' : (m0.make g' f0').2 = .ok ())
    (hall : g.cfg.adaptive = true → AllOk m1 calls) (hall' : g'.cfg.adaptive = true → AllOk m1' calls')
    (bounds : List (Option (Fl ℝ × Fl ℝ))) (hb : ∀ i : Nat, (true :: vs)[i]? = some true → ∃ b, bounds[i]? = some (some b))
    (hp : BoundsPhysical ts (true :: vs) shift bounds)
    (hlike : ∀ (fit fit' : List ℝ) (va rt sig : ℝ), fit.length = (true :: vs).count true → fit'.length = (true :: vs).count true →
      (updateParameters (ts ++ [shift, z]) (true :: vs ++ [false, false]) fit).1 = [va, rt, sig, shift, z] →
      (updateParameters (ts ++ [shift, z]) (true :: vs ++ [false, false]) fit').1 = [-va, rt, sig, shift, z] → rt ≠ 0 → 0 < sig →
      ((m1.run calls).lnlike fit).2 = ((m1'.run calls').lnlike fit').2) (fit : List ℝ) :
    ((m1'.run calls').lnprob (mirrorBounds bounds) (negHead fit)).2 = ((m1.run calls).lnprob bounds fit).2 := by
  have hpr : ∀ n, priorStatements (n + 1) (true :: vs) (mirrorBounds bounds) ((negHead fit).map Fl.fin) =
      priorStatements (n + 1) (true :: vs) bounds (fit.map Fl.fin) := fun n => by
    rw [negHead_map_fin]
    exact prior_mirror n vs bounds _
  have hpr2 : priorStatements ((true :: vs).length + 2) (true :: vs ++ [false, false]) (mirrorBounds bounds) ((negHead fit).map Fl.fin) =
      priorStatements ((true :: vs).length + 2) (true :: vs ++ [false, false]) bounds (fit.map Fl.fin) := by
    rw [negHead_map_fin]
    exact prior_mirror (vs.length + 2) (vs ++ [false, false]) bounds _
  have hbm : ∀ i : Nat, (true :: vs)[i]? = some true → ∃ b, (mirrorBounds bounds)[i]? = some (some b) := by
    intro i hi
    obtain ⟨b, h⟩ := hb i hi
    rcases bounds with _ | ⟨_ | ⟨lo, hi⟩, bs⟩
    · exact ⟨b, h⟩
    · exact ⟨b, h⟩
    · cases i with
      | zero => exact ⟨_, rfl⟩
      | succ i => exact ⟨b, h⟩
  by_cases hf : fit.length = (true :: vs).count true
  · have hf' : (negHead fit).length = (true :: vs).count true := by rw [negHead_length]; exact hf
    have hin : InBounds (true :: vs).length (true :: vs) bounds (fit.map Fl.fin) ↔
        InBounds (true :: vs).length (true :: vs) (mirrorBounds bounds) ((negHead fit).map Fl.fin) := by
      obtain ⟨st, hst⟩ := priorStatements_ok (true :: vs).length (true :: vs) bounds (fit.map Fl.fin) le_rfl
        (by rw [List.take_length, List.length_map, hf]) (fun i _ hi => hb i hi)
      have h1 := priorStatements_spec _ _ _ _ _ hst
      have h2 := priorStatements_spec _ _ _ _ _ ((hpr vs.length).trans hst)
      exact h1.symm.trans h2
    by_cases hi : InBounds (true :: vs).length (true :: vs) bounds (fit.map Fl.fin)
    · obtain ⟨va, rt, sig, hfull, hrt, hs⟩ := hp fit hf hi
      have hneg : (updateParameters (ts ++ [shift, z]) (true :: vs ++ [false, false]) (negHead fit)).1 = [-va, rt, sig, shift, z] := by
        have h := hfull z
        cases fit with
        | nil => simp at hf
        | cons a l =>
          cases ts with
          | nil => simp at hl
          | cons t ts =>
            simp only [List.cons_append, updateParameters, negHead] at h ⊢
            injection h with h1 h2
            rw [h1, h2]
      rw [(post_of_like g ts (true :: vs) shift z kin ns hl f0 calls m0 m1 hm0 hm1 h0 hall bounds hb fit hf).2 hi,
        (post_of_like g' ts (true :: vs) shift z kin ns hl f0' calls' m0 m1' hm0 hm1' h0' hall'
          (mirrorBounds bounds) hbm (negHead fit) hf').2 (hin.1 hi), hlike fit (negHead fit) va rt sig hf hf' (hfull z) hneg hrt hs]
    · rw [(post_of_like g ts (true :: vs) shift z kin ns hl f0 calls m0 m1 hm0 hm1 h0 hall bounds hb fit hf).1 hi,
        (post_of_like g' ts (true :: vs) shift z kin ns hl f0' calls' m0 m1' hm0 hm1' h0' hall'
          (mirrorBounds bounds) hbm (negHead fit) hf').1 (fun h => hi (hin.2 h))]
  · rw [post_wrong_length g ts (true :: vs) shift z kin ns hl f0 calls m0 m1 hm0 hm1 h0 hall bounds fit hf,
      post_wrong_length g' ts (true :: vs) shift z kin ns hl f0' calls' m0 m1' hm0 hm1' h0' hall'
        (mirrorBounds bounds) (negHead fit) (by rw [negHead_length]; exact hf), hpr2]

/-- **C231** for a whole fit: a sampling run for the galaxy turned by 180 degrees, with mirrored starting points, proposals and bounds, returns
the samples with the sign of the speed changed and the same log-probabilities, or ends in the same exception. -/
theorem C231_turn_run (g : KinInput r c) (hc : Luminous g.aperCfg) (hF : 0 ≤ g.cfg.psf.fwhm)
    (hst : ¬ g.cfg.psf.StampFails) (hker : g.cfg.psf.fwhm = 0 ∨ KernelFits g.aperCfg) (hi0 : 0 ≤ g.cfg.sini) (hi1 : g.cfg.sini ≤ 1)
    (he : ∀ r z, g.cfg.int r (-z) = g.cfg.int r z)
    (kin : KinProfile) (hk : kin.shape = (some 2, some 1)) (ns : Bool) (ts : List ℝ) (vs : List Bool) (shift z : ℝ)
    (hl : (true :: vs).length = ts.length) (hz : 0 < 1 + z) (f0 f0' : List ℝ) (calls calls' : List (KinCall r c))
    (m0 m1 m1' : KinModelState r c)
    (hm0 : m0 = KinModelState.init (ts ++ [shift, z]) (true :: vs ++ [false, false]) kin ns) (hm1 : m1 = (m0.make g f0).1)
    (hm1' : m1' = (m0.make (g.atAngle (g.cfg.deltPA + 180)) f0').1)
    (h0 : (m0.make g f0).2 = .ok ()) (h0' : (m0.make (g.atAngle (g.cfg.deltPA + 180)) f0').2 = .ok ())
    (hall : g.cfg.adaptive = true → AllOk m1 calls ∧ AllOk m1' calls')
    (bounds : List (Option (Fl ℝ × Fl ℝ))) (hb : ∀ i : Nat, (true :: vs)[i]? = some true → ∃ b, bounds[i]? = some (some b))
    (hp : BoundsPhysical ts (true :: vs) shift bounds) (v : EmceeVersion) (o : RunOpts ℝ) (cpuCount : Nat)
    (initial : List (List (Fl ℝ))) (burnMoves burnMoves' moves moves' : Nat → List (Move ℝ))
    (hbm : ∀ n, List.Forall₂ (Move.Follows negHead) (burnMoves n) (burnMoves' n))
    (hm : ∀ n, List.Forall₂ (Move.Follows negHead) (moves n) (moves' n))
    (diag diag' : List (List (Walker ℝ)) → StepDiag ℝ) (hd : ∀ hist, diag' (hist.map (List.map (Walker.through negHead))) = diag hist)
    (file : List (List (Walker ℝ))) :
    runMcmc v o cpuCount (fun x => ((m1'.run calls').lnprob (mirrorBounds bounds) (x.map Fl.finVal)).2) (initial.map negHead) burnMoves'
        moves' diag' (file.map (List.map (Walker.through negHead))) =
      (runMcmc v o cpuCount (fun x => ((m1.run calls).lnprob bounds (x.map Fl.finVal)).2) initial burnMoves moves diag file).map
        (SamplerDict.through negHead) := by
  refine C242_equivariant (fun x => ?_) v o cpuCount initial burnMoves burnMoves' moves moves' hbm hm diag diag' hd file
  simp only [negHead_map_finVal]
  exact mirror_post_everywhere g (g.atAngle (g.cfg.deltPA + 180)) ts vs shift z kin ns hl f0 f0' calls calls' m0 m1 m1' hm0 hm1 hm1' h0 h0'
    (fun a => (hall a).1) (fun a => (hall a).2) bounds hb hp (fun fit fit' va rt sig hf hf' hfull hfull' hrt hs =>
      C231_half_turn g hc hF hst hker hi0 hi1 he kin hk ns ts ts (true :: vs) shift z hl hl hz f0 f0' calls calls' m0 m1 m0 m1' hm0 hm1 hm0
        hm1' h0 h0' hall fit fit' hf hf' (-va) rt sig (by rw [neg_neg]; exact hfull) hfull' hrt hs) _

/-- **C84** for a whole fit: a positive factor on the light profile changes neither the samples, nor the log-probabilities, nor the exception
of a sampling run. -/
theorem C84_run (k : ℝ) (hk : 0 < k) (theta : List ℝ) (vary : List Bool) (kin : KinProfile)
    (calls : List (KinCall r c)) (hgood : ∀ call ∈ calls, call.On KinInput.HasCols) (m0 : KinModelState r c)
    (hm0 : m0 = KinModelState.init theta vary kin false) (bounds : List (Option (Fl ℝ × Fl ℝ))) (v : EmceeVersion) (o : RunOpts ℝ)
    (cpuCount : Nat) (initial : List (List (Fl ℝ))) (burnMoves moves : Nat → List (Move ℝ))
    (diag : List (List (Walker ℝ)) → StepDiag ℝ) (file : List (List (Walker ℝ))) :
    runMcmc v o cpuCount (fun x => ((m0.run (calls.map (KinCall.scaleLight k))).lnprob bounds (x.map Fl.finVal)).2) initial burnMoves moves
        diag file =
      runMcmc v o cpuCount (fun x => ((m0.run calls).lnprob bounds (x.map Fl.finVal)).2) initial burnMoves moves diag file := by
  simp only [C84_posterior k hk theta vary kin calls hgood m0 hm0 bounds]

/-- **C169** for a whole fit: the unit of wavelengths changes neither the samples, nor the log-probabilities, nor the exception of a sampling
run. -/
theorem C169_run (u : ℝ) (hu : 0 < u) (theta : List ℝ) (vary : List Bool) (kin : KinProfile)
    (calls calls' : List (KinCall r c)) (hcalls : List.Forall₂ (KinCall.InWaves u) calls calls')
    (m0 : KinModelState r c) (hm0 : m0 = KinModelState.init theta vary kin false)
    (bounds : List (Option (Fl ℝ × Fl ℝ))) (v : EmceeVersion) (o : RunOpts ℝ)
    (cpuCount : Nat) (initial : List (List (Fl ℝ))) (burnMoves moves : Nat → List (Move ℝ))
    (diag : List (List (Walker ℝ)) → StepDiag ℝ) (file : List (List (Walker ℝ))) :
    runMcmc v o cpuCount (fun x => ((m0.run calls').lnprob bounds (x.map Fl.finVal)).2) initial burnMoves moves diag file =
      runMcmc v o cpuCount (fun x => ((m0.run calls).lnprob bounds (x.map Fl.finVal)).2) initial burnMoves moves diag file := by
  simp only [C169_posterior u hu theta vary kin calls calls' hcalls m0 hm0 bounds]

/-! ## The hypotheses are met -/

/-- all runs of stretch moves for the turned galaxy -/
example (calls calls' : List (KinCall 2 2)) (v : EmceeVersion) (o : RunOpts ℝ) (cpuCount : Nat) (initial : List (List (Fl ℝ)))
    (i j : ℕ → ℕ) (k : ℕ → ℝ) (thr : ℕ → Fl ℝ) (d : ℕ → StepDiag ℝ) (file : List (List (Walker ℝ))) :
    runMcmc v o cpuCount (fun x => ((((turnObject 1).make (turnFit.atAngle (turnFit.cfg.deltPA + 180)) [1, 1, 1]).1.run calls').lnprob
        (mirrorBounds threeBounds) (x.map Fl.finVal)).2) (initial.map negHead) (fun n => [stretchMove (i n) (j n) (k n) (thr n)])
        (fun n => [stretchMove (i n) (j n) (k n) (thr n)]) (fun h => d h.length) (file.map (List.map (Walker.through negHead))) =
      (runMcmc v o cpuCount (fun x => ((((turnObject 1).make turnFit [1, 1, 1]).1.run calls).lnprob threeBounds (x.map Fl.finVal)).2) initial
        (fun n => [stretchMove (i n) (j n) (k n) (thr n)]) (fun n => [stretchMove (i n) (j n) (k n) (thr n)]) (fun h => d h.length)
        file).map (SamplerDict.through negHead) := by
  have h := turnSlit_luminous
  have hl : Luminous turnFit.aperCfg := ⟨h.rows, h.sub, h.pix, h.slit, h.pad, h.int, h.axis, h.mask, rfl, h.wave, (fun h => by cases h),
    h.dither, h.beta⟩
  have hla : ∀ a, Luminous (turnFit.atAngle a).aperCfg := fun a =>
    ⟨h.rows, h.sub, h.pix, h.slit, h.pad, h.int, h.axis, h.mask, rfl, h.wave, (fun h => by cases h), h.dither, h.beta⟩
  have hst : ¬ turnFit.cfg.psf.StampFails := by rintro ⟨h, -⟩; cases h
  have hkf : KernelFits turnFit.aperCfg :=
    kernelFits_wide _ hl (by norm_num [KinInput.aperCfg, turnFit, turnSlit, smallSlit])
  have hi0 : 0 ≤ turnFit.cfg.sini := by norm_num [turnFit, turnSlit, smallSlit]
  have hi1 : turnFit.cfg.sini ≤ 1 := by norm_num [turnFit, turnSlit, smallSlit]
  have he : ∀ r z, turnFit.cfg.int r (-z) = turnFit.cfg.int r z := fun r z => by
    show Real.exp (-r - (-z) ^ 2) = Real.exp (-r - z ^ 2)
    rw [neg_sq]
  have h0 := turn_ready turnFit hl zero_le_one hst (Or.inr hkf) hi0 hi1 rfl 1 (by norm_num)
  have h0a := fun a => turn_ready (turnFit.atAngle a) (hla a) zero_le_one hst (Or.inr hkf) hi0 hi1 rfl 1 (by norm_num)
  exact C231_turn_run turnFit hl zero_le_one hst (Or.inr hkf) hi0 hi1 he _ rfl false [1, 1, 1] [true, true] 0 1 rfl (by norm_num)
    [1, 1, 1] [1, 1, 1] calls calls' _ _ _ rfl rfl rfl h0 (h0a _) (fun h => by cases h) threeBounds threeBounds_given threeBounds_physical
    v o cpuCount initial _ _ _ _ (fun _ => .cons (C242_stretch _ _ _ _) .nil) (fun _ => .cons (C242_stretch _ _ _ _) .nil) _ _
    (fun hist => by simp only [List.length_map]) file

/-- all runs after two calls, with a factor on the light profile and in two units of wavelengths -/
example (bounds : List (Option (Fl ℝ × Fl ℝ))) (v : EmceeVersion) (o : RunOpts ℝ) (cpuCount : Nat) (initial : List (List (Fl ℝ)))
    (burnMoves moves : Nat → List (Move ℝ)) (diag : List (List (Walker ℝ)) → StepDiag ℝ) (file : List (List (Walker ℝ))) :
    let m0 := oneObj [0, 1, 1, 0, 0] [true, true, true, false, false] false
    let calls := [KinCall.make oneInput [100, 1, 50], .update [120, 1, 60]]
    runMcmc v o cpuCount (fun x => ((m0.run (calls.map (KinCall.scaleLight 3))).lnprob bounds (x.map Fl.finVal)).2) initial burnMoves moves
        diag file =
      runMcmc v o cpuCount (fun x => ((m0.run calls).lnprob bounds (x.map Fl.finVal)).2) initial burnMoves moves diag file ∧
    runMcmc v o cpuCount (fun x => ((m0.run [KinCall.make (oneInput.wl 2) [100, 1, 50], .update [120, 1, 60]]).lnprob bounds
        (x.map Fl.finVal)).2) initial burnMoves moves diag file =
      runMcmc v o cpuCount (fun x => ((m0.run calls).lnprob bounds (x.map Fl.finVal)).2) initial burnMoves moves diag file := by
  refine ⟨C84_run 3 (by norm_num) _ _ _ _ ?_ _ rfl bounds v o cpuCount initial burnMoves moves diag file,
    C169_run 2 two_pos _ _ _ _ _ ?_ _ rfl bounds v o cpuCount initial burnMoves moves diag file⟩
  · intro call hcall
    simp only [List.mem_cons, List.not_mem_nil, or_false] at hcall
    rcases hcall with rfl | rfl
    · simp [KinCall.On, KinInput.HasCols, oneInput]
    · trivial
  · refine .cons ⟨⟨⟨rfl, rfl, rfl, rfl⟩, rfl, rfl⟩, ?_, rfl⟩ (.cons rfl .nil)
    simp [KinInput.HasCols, oneInput]

end Misfit
