import Verif.Lemmas.Workers
import Verif.Props.Prune
import Verif.Props.Sampler

/-!
# C198: a sampling run does not depend on where the posterior is evaluated
-/

namespace Misfit
variable {V : Type*} {r c : Nat}

theorem eachReturns_append {σ : Type*} (step : σ → List ℝ → σ × Except PyErr (Fl ℝ)) (fit : List ℝ) :
    ∀ (done : List (List ℝ)) (x : σ), EachReturns step x done →
      (∃ v, (step (done.foldl (fun x fit => (step x fit).1) x) fit).2 = .ok v) → EachReturns step x (done ++ [fit])
  | [], _, _, h => ⟨h, trivial⟩
  | _ :: done, _, h1, h => ⟨h1.1, eachReturns_append step fit done _ h1.2 h⟩

/-- what evaluations of a copy leave behind -/
def Evaluated (x : PrunedFit V r c) (o : PrunedFit V r c) : Prop :=
  ∃ done, EachReturns PrunedFit.lnprob x done ∧ o = x.evals done

/-- one evaluation in one of the processes -/
theorem atPos_gives (w : Meaning V r c) (s s' : Fit2D r c) (hs : s.setupModel = (s', .ok ())) (t : FitSettings)
    (ht : s.settings = some t) (hl : t.vary.length = t.theta.length) (a : FitAttrs V)
    (ha : a.read w = .ok s'.input) (x : PrunedFit V r c) (hx : s'.prune w a = .ok x)
    (other : List (Fl ℝ) → Except PyErr (Fl ℝ)) (plan : Plan) (p : List (Fl ℝ)) :
    Gives (Evaluated x) (plan.eval x (PrunedFit.atPos other) p) (s'.atPos other p) := by
  refine eval_gives plan x (PrunedFit.atPos other) ⟨[], trivial, rfl⟩ ?_ ?_ p
  · rintro o p ⟨done, hd, rfl⟩
    unfold PrunedFit.atPos Fit2D.atPos
    cases reals p with
    | none => rfl
    | some fit => exact C193_posterior w s s' hs t ht hl a ha x hx done [] (fun _ => hd) (fun _ => trivial) fit
  · rintro o p v ⟨done, hd, rfl⟩ hv
    unfold PrunedFit.atPos at hv ⊢
    cases hp : reals p with
    | none => exact ⟨done, hd, rfl⟩
    | some fit =>
      rw [hp] at hv
      exact ⟨done ++ [fit], eachReturns_append _ fit done x hd ⟨v, hv⟩, by
        unfold PrunedFit.evals
        rw [List.foldl_append]
        rfl⟩

/-- **C198** The run of the program - the copies are changed by every evaluation, and each process has its own - ends exactly like the
run in which every position gets the posterior of the fit that was set up: the same samples, or the same exception.  For every
distribution of the evaluations over processes, whether or not the copy is sent again, for both versions of emcee, all
options, proposals, thresholds and starting positions; adaptive wavelength sampling included. -/
theorem C198_run (w : Meaning V r c) (s s' : Fit2D r c) (hs : s.setupModel = (s', .ok ())) (t : FitSettings)
    (ht : s.settings = some t) (hl : t.vary.length = t.theta.length) (a : FitAttrs V)
    (ha : a.read w = .ok s'.input) (x : PrunedFit V r c) (hx : s'.prune w a = .ok x)
    (other : List (Fl ℝ) → Except PyErr (Fl ℝ)) (plan : Plan) (v : EmceeVersion) (o : RunOpts ℝ) (cpuCount : Nat)
    (initial : List (List (Fl ℝ))) (burnMoves moves : Nat → List (Move ℝ))
    (diag : List (List (Walker ℝ)) → StepDiag ℝ) (file : List (List (Walker ℝ))) :
    (runMcmcW v o cpuCount (plan.eval x (PrunedFit.atPos other)) initial burnMoves moves diag file (Workers.start x)).2 =
      runMcmc v o cpuCount (s'.atPos other) initial burnMoves moves diag file :=
  (runMcmcW_gives (atPos_gives w s s' hs t ht hl a ha x hx other plan) v o cpuCount initial burnMoves moves diag file
    (Workers.start x) fun _ => ⟨[], trivial, rfl⟩).1

/-- **C198** So two distributions of the evaluations over processes give the same samples. -/
theorem C198_processes (w : Meaning V r c) (s s' : Fit2D r c) (hs : s.setupModel = (s', .ok ())) (t : FitSettings)
    (ht : s.settings = some t) (hl : t.vary.length = t.theta.length) (a : FitAttrs V)
    (ha : a.read w = .ok s'.input) (x : PrunedFit V r c) (hx : s'.prune w a = .ok x)
    (other : List (Fl ℝ) → Except PyErr (Fl ℝ)) (plan plan' : Plan) (v : EmceeVersion) (o : RunOpts ℝ) (cpuCount : Nat)
    (initial : List (List (Fl ℝ))) (burnMoves moves : Nat → List (Move ℝ))
    (diag : List (List (Walker ℝ)) → StepDiag ℝ) (file : List (List (Walker ℝ))) :
    (runMcmcW v o cpuCount (plan.eval x (PrunedFit.atPos other)) initial burnMoves moves diag file (Workers.start x)).2 =
    (runMcmcW v o cpuCount (plan'.eval x (PrunedFit.atPos other)) initial burnMoves moves diag file
      (Workers.start x)).2 := by
  rw [C198_run w s s' hs t ht hl a ha x hx other plan, C198_run w s s' hs t ht hl a ha x hx other plan']

/-- **C198** Every sample of a run that returned is stored with the posterior that the fit, evaluated at this position after
any other evaluations, has there (emcee 3 continuing a file keeps the samples in it). -/
theorem C198_values (w : Meaning V r c) (s s' : Fit2D r c) (hs : s.setupModel = (s', .ok ())) (t : FitSettings)
    (ht : s.settings = some t) (hl : t.vary.length = t.theta.length) (a : FitAttrs V)
    (ha : a.read w = .ok s'.input) (x : PrunedFit V r c) (hx : s'.prune w a = .ok x)
    (other : List (Fl ℝ) → Except PyErr (Fl ℝ)) (plan : Plan) (v : EmceeVersion) (o : RunOpts ℝ) (cpuCount : Nat)
    (initial : List (List (Fl ℝ))) (burnMoves moves : Nat → List (Move ℝ))
    (diag : List (List (Walker ℝ)) → StepDiag ℝ) (file : List (List (Walker ℝ))) (hv : v = .v2 ∨ o.overwrite = true)
    (d : SamplerDict (List (Fl ℝ)) (Fl ℝ))
    (h : (runMcmcW v o cpuCount (plan.eval x (PrunedFit.atPos other)) initial burnMoves moves diag file
      (Workers.start x)).2 = .ok d) (done : List (List ℝ))
    (hd : s.input.cfg.adaptive = true → EachReturns Fit2D.lnprob s' done) :
    d.flatlnprobability.length = d.flatchain.length ∧
    ∀ (k : Nat) (fit : List ℝ), d.flatchain[k]? = some (fit.map Fl.fin) →
      ∃ p, d.flatlnprobability[k]? = some p ∧ ((s'.evals done).lnprob fit).2 = .ok p := by
  rw [C198_run w s s' hs t ht hl a ha x hx other plan] at h
  obtain ⟨e0, e1, old, hist, h0, h1, ho, hh, _, _, rfl⟩ := runMcmc_ok h
  have hP : Accepts (s'.atPos other) fun y => s'.atPos other y.pos = .ok y.prob := fun y hy _ _ => hy
  obtain ⟨_, hI1⟩ := burnIn_inv hP burnMoves _ _ h1 (startEnsemble_ok _ h0).2
  obtain ⟨tail, hte, hall, _⟩ := produce_spec hP o.stop moves diag old.length o.stop.nSteps 0 none hh rfl hI1
  rw [(storedBefore_ok ho).1 hv, List.nil_append] at hte
  rw [(dictOf_flat _ _).1, (dictOf_flat _ _).2]
  refine ⟨by rw [List.length_map, List.length_map], fun k fit hk => ?_⟩
  rw [List.getElem?_map] at hk
  obtain ⟨y, hy, hyp⟩ := Option.map_eq_some_iff.1 hk
  refine ⟨y.prob, by rw [List.getElem?_map, hy]; rfl, ?_⟩
  obtain ⟨e, he, hye⟩ := chainOf_mem (List.mem_of_getElem? hy)
  have hq := (hall e (hte ▸ he)).2 y hye
  rw [hyp] at hq
  have hr : reals (fit.map Fl.fin) = some fit := by
    clear hk hyp hq
    induction fit with
    | nil => rfl
    | cons u l ih => rw [List.map_cons, reals, ih]; rfl
  unfold Fit2D.atPos at hq
  rw [hr] at hq
  simp only at hq
  rw [← hq, ← C193_posterior w s s' hs t ht hl a ha x hx [] done (fun _ => trivial) hd fit]
  exact C193_posterior w s s' hs t ht hl a ha x hx [] [] (fun _ => trivial) (fun _ => trivial) fit

/-- the fit of the examples has a copy, so the hypotheses are met: four processes or one, the samples are the same -/
example : ∃ (s' : Fit2D 1 2) (x : PrunedFit Bool 1 2), oneFit.setupModel = (s', .ok ()) ∧
    s'.prune oneMeaning (oneAttrs false) = .ok x ∧ ∀ other v o cpuCount initial burnMoves moves diag file,
    (runMcmcW v o cpuCount (Plan.eval ⟨(· % 4), (· % 3 == 0)⟩ x (PrunedFit.atPos other)) initial burnMoves moves diag file
      (Workers.start x)).2 =
    (runMcmcW v o cpuCount (Plan.eval ⟨fun _ => 0, fun _ => false⟩ x (PrunedFit.atPos other)) initial burnMoves moves diag
      file (Workers.start x)).2 := by
  have hs : oneFit.setupModel = (oneFit.setupModel.1, .ok ()) := by
    rw [← one_setup_ok]
  obtain ⟨x, hx⟩ := (C194_exact_partial oneMeaning oneFit _ hs (oneAttrs false) (one_read false)).2
    ⟨⟨false, rfl, rfl⟩, fun k _ => ⟨_, rfl⟩, fun sp hsp k _ => by cases hsp; exact ⟨_, rfl⟩, fun k _ => ⟨_, rfl⟩⟩
  exact ⟨_, x, hs, hx, fun other => C198_processes oneMeaning oneFit _ hs _ rfl rfl (oneAttrs false) (one_read false) x hx
    other _ _⟩

/-- an object that counts its evaluations and returns the count -/
def countingPost (n : Nat) (_ : List (Fl ℚ)) : Nat × Except PyErr (Fl ℚ) := (n + 1, .ok (.fin n))

/-- a run on it, as far as it returned: the stored values -/
def countingRun (plan : Plan) : Option (List (Fl ℚ)) :=
  (runMcmcW .v3 (runExampleOpts true) 8 (plan.eval 0 countingPost) [[.fin 1], [.fin 2]] runExampleMoves runExampleMoves
    (fun _ => ⟨.nan, none⟩) [] (Workers.start 0)).2.toOption.map (·.flatlnprobability)

/-- For objects whose evaluation depends on the evaluations before, the number of processes does matter in this model, so
C198 says something about the fit. -/
example : (countingRun ⟨fun _ => 0, fun _ => false⟩).isSome ∧
    countingRun ⟨fun _ => 0, fun _ => false⟩ ≠ countingRun ⟨fun n => n, fun _ => false⟩ ∧
    countingRun ⟨fun _ => 0, fun _ => false⟩ ≠ countingRun ⟨fun _ => 0, fun _ => true⟩ := by
  refine ⟨?_, ?_, ?_⟩ <;> decide +kernel

end Misfit
