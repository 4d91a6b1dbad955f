import Verif.Model.Sampler
import Verif.Model.Masks

/-!
# What a sampling run writes: log, files, saved diagnostics

Source: `misfit/fit/fit_core.py` 206-500 (`_run_mcmc_emcee_221`), 503-829 (`_run_mcmc_emcee_3`),
`misfit/fit/fit_io.py` 11-92 (`make_emcee_sampler_dict`), `misfit/general/general_utils.py` 178-184
(`file_or_stdout`: the log goes to the file, opened for writing, or to standard output).

The moves of the sampler are those of `Verif.Model.Sampler`.  Added here is everything the run writes, in the
order of writing: the lines of the log with the numbers in them, the two plots of the walkers and the file with the
samples; and the diagnostics kept with the samples.  Not modelled: the lines with dates and run times, the number of subpixels, the
PSF, the fixed lines `*****` and `Ideal acceptance frac`, what is printed on the screen, the rounding of
the printed numbers, the copies of the fitting objects in the dictionary, and pickling itself.  At least one parameter
varies, so that there is at least one autocorrelation time (`np.max` of an empty array raises).
-/

namespace Misfit

variable {K : Type*} [Field K] [LinearOrder K]

/-- What `sampler.get_autocorr_time` does: a time for each parameter (`first`, `rest`), a RuntimeError, or another
exception. -/
inductive AcorRes (K : Type*)
  | times (first : Fl K) (rest : List (Fl K))
  | runtime
  | raised (e : PyErr)

/-- The dictionary of the samples with its counters and diagnostics (fit_io.py 76-90).  `acorTime = none` is NaN. -/
structure SavedRun (K : Type*) where
  samples : SamplerDict (List (Fl K)) (Fl K)
  nIter : Nat
  nParam : Nat
  nWalkers : Nat
  nCPU : Int
  acceptance : Fl K
  acorTime : Option (List (Fl K))

/-- What a run writes.  In the log: -/
inductive Out (K : Type*)
  /-- `NoThread = `, `nCPUs: ` -/
  | noThread (b : Bool)
  | cpus (n : Int)
  /-- `Burn-in:` -/
  | burnHead
  /-- the block after the burn-in; `acor = none` is the text `Undefined, chain did not converge` -/
  | burnSummary (nCPU : Int) (nParam nWalkers nBurn : Nat) (keys : List String) (af : Fl K)
      (acor : Option (List (Fl K)))
  /-- `nBurn is less than 2*acorr time` -/
  | burnShort
  /-- `acorr time undefined -> can't check convergence` -/
  | burnUnknown
  /-- `Ensemble sampling:` -/
  | runHead
  /-- `ii: acor_time = ...`, ` ii: Chain too short for acor to run` -/
  | acorAt (ii : Nat) (times : List (Fl K))
  | tooShort (ii : Nat)
  /-- ` Enforced min step limit: n.` -/
  | minLimit (n : Nat)
  /-- ` Finishing calculations early at step n.` -/
  | early (n : Nat)
  /-- `Caution: no convergence within nSteps.` -/
  | caution
  /-- `Finished n steps` -/
  | finished (n : Nat)
  /-- the block at the end; `acor = none` is the text `Undefined, chain not converged` -/
  | runSummary (nCPU : Int) (nParam nWalkers nSteps : Nat) (keys : List String) (af : Fl K)
      (acor : Option (List (Fl K)))
  /-- Files: the plot of the walkers of the burn-in and of the run, the samples. -/
  | burnPlot (d : SavedRun K)
  | pickle (d : SavedRun K)
  | runPlot (d : SavedRun K)

/-- a computation that writes and may raise -/
abbrev Logged (K α : Type*) := List (Out K) × Except PyErr α

/-- write something -/
def Logged.write (l : List (Out K)) : Logged K Unit := (l, .ok ())

/-- one computation after another: what was written before an exception stays -/
def Logged.andThen {α β : Type*} (x : Logged K α) (f : α → Logged K β) : Logged K β :=
  match x.2 with
  | .error e => (x.1, .error e)
  | .ok a => (x.1 ++ (f a).1, (f a).2)

/-- What the run reads from the samplers (of the burn-in and of the production): the mean acceptance fraction and
the autocorrelation times, functions of what the sampler stores. -/
structure RunObs (K : Type*) where
  af : List (List (Walker K)) → Fl K
  acor : List (List (Walker K)) → AcorRes K

/-- What is particular to a fit: names of the varying parameters, options naming files, the plotting routine
(an oracle that may raise), see fit_core.py 1136-1144. -/
structure RunFiles (K : Type*) where
  keys : List String
  nParam : Nat
  traceBurnin : Bool
  sampler : Bool
  trace : Bool
  plotTrace : SavedRun K → Except PyErr Unit

/-- The value of `acor_time` for the summaries.  The code for emcee 2 calls
`sampler.get_autocorr_time(fitEmis2D, low=5, c=10)` (fit_core.py 299, 442): the first positional argument is `low`, given twice,
hence a TypeError, caught by a bare `except`.  For emcee 3 see 621 (not caught) and 769-771 (caught). -/
def endAcor (v : EmceeVersion) : AcorRes K → Option (List (Fl K))
  | .times a l => if v = .v2 then none else some (a :: l)
  | _ => none

/-- `acor_time` of the dictionary (fit_io.py 44-50): `tol=10, quiet=True` are unknown to emcee 2, and the second attempt names `self`,
which does not exist; both are caught. -/
def dictAcor (v : EmceeVersion) : AcorRes K → Option (List (Fl K))
  | .times a l => if v = .v2 then none else some (a :: l)
  | _ => none

/-- the longest autocorrelation time, `np.max(acor_time)` -/
def longest (a : Fl K) (l : List (Fl K)) : Fl K := l.foldl npMax2 a

/-- `make_emcee_sampler_dict` (fit_io.py 11-92) with `nBurn=0`.  `sampler.iteration` (emcee 3) and
`sampler.iterations` (emcee 2, zero after `reset`) are the number of stored steps.  `sampler.threads` exists for emcee 2 only;
for emcee 3 the number of processes is that of the pool, `1` without pool (62-68). -/
def savedRun (v : EmceeVersion) (nW nParam : Nat) (nCPU : Int) (obs : RunObs K) (hist : List (List (Walker K))) :
    SavedRun K where
  samples := dictOf nW hist
  nIter := hist.length
  nParam := nParam
  nWalkers := nW
  nCPU := if v = .v2 ∨ 1 < nCPU then nCPU else 1
  acceptance := obs.af hist
  acorTime := dictAcor v (obs.acor hist)

/-- the burn-in (fit_core.py 281-286, 601-606) with the steps stored by its sampler: see `burnIn` -/
def burnHist (post : List (Fl K) → Except PyErr (Fl K)) (moves : Nat → List (Move K)) : Nat → Nat →
    List (Walker K) → List (List (Walker K)) → Except PyErr (List (Walker K) × List (List (Walker K)))
  | _, 0, ens, hist => .ok (ens, hist)
  | k, rem + 1, ens, hist =>
    match stepEnsemble post ens (moves k) with
    | .error e => .error e
    | .ok ens' => burnHist post moves (k + 1) rem ens' (hist ++ [ens'])

/-- The test of the length of the burn-in (fit_core.py 332-343, 651-662): `nBurn < np.max(acor_time) * 2`; for the
text `Undefined, ...` the product with an integer is a text again (or `np.max` of a text raises), and the comparison
raises. -/
def burnVerdict (nBurn : Nat) : Option (List (Fl K)) → List (Out K)
  | some (a :: l) => if Fl.ltB (.fin (nBurn : K)) (longest a l * .fin 2) then [.burnShort] else []
  | _ => [.burnUnknown]

/-- exceptions of `get_autocorr_time` after the burn-in: caught with emcee 2 (298-301), not caught with emcee 3 (621) -/
def burnAcorErr (v : EmceeVersion) (r : AcorRes K) : Except PyErr Unit :=
  match v, r with
  | .v3, .runtime => .error .runtimeError
  | .v3, .raised e => .error e
  | _, _ => .ok ()

/-- The plot of the walkers, if a file is named: the plot is written if the plotting routine returns. -/
def plotStep (wanted : Bool) (plot : SavedRun K → Except PyErr Unit) (d : SavedRun K) (o : Out K) : Logged K Unit :=
  if wanted then
    match plot d with
    | .error e => ([], .error e)
    | .ok _ => ([o], .ok ())
  else ([], .ok ())

/-- The part up to the end of the burn-in (fit_core.py 257-368, 577-681); the result is the ensemble with which the production starts,
`none` if there was no step and the starting positions have not been evaluated. -/
def burnPhase (v : EmceeVersion) (nBurn : Nat) (nCPU : Int) (post : List (Fl K) → Except PyErr (Fl K))
    (initial : List (List (Fl K))) (burnMoves : Nat → List (Move K)) (obs : RunObs K) (burnFile : List (List (Walker K)))
    (files : RunFiles K) : Logged K (Option (List (Walker K))) :=
  if nBurn = 0 then ([], .ok none)
  else
    (Logged.write [.burnHead]).andThen fun _ =>
    match startEnsemble post initial with
    | .error e => ([], .error e)
    | .ok e0 =>
      match burnHist post burnMoves 0 nBurn e0 burnFile with
      | .error e => ([], .error e)
      | .ok (ens, hist) =>
        match burnAcorErr v (obs.acor hist) with
        | .error e => ([], .error e)
        | .ok _ =>
          let acor := endAcor v (obs.acor hist)
          (Logged.write (.burnSummary nCPU files.nParam initial.length nBurn files.keys (obs.af hist) acor ::
            burnVerdict nBurn acor)).andThen fun _ =>
          (plotStep files.traceBurnin files.plotTrace (savedRun v initial.length files.nParam nCPU obs hist)
            (.burnPlot (savedRun v initial.length files.nParam nCPU obs hist))).andThen fun _ => ([], .ok (some ens))

/-- the diagnostics of a step in the form used by `stopTest` -/
def RunObs.diag (obs : RunObs K) (hist : List (List (Walker K))) : StepDiag K where
  af := obs.af hist
  acor := match obs.acor hist with
    | .times a l => some (longest a l)
    | _ => none

/-- what the log says after the step with index `ii` (fit_core.py 398-403, 725-730) -/
def stepLine (ii : Nat) : AcorRes K → List (Out K)
  | .times a l => [.acorAt ii (a :: l)]
  | _ => [.tooShort ii]

/-- The production loop (fit_core.py 379-421, 708-748) with what it writes.  Exceptions of `get_autocorr_time` other than
RuntimeError are not caught.  The result is the last index and what the sampler stores. -/
def prodLoop (o : StopOpts K) (post : List (Fl K) → Except PyErr (Fl K)) (moves : Nat → List (Move K)) (obs : RunObs K) :
    Option Nat → Nat → Nat → List (Walker K) → List (List (Walker K)) →
    Logged K (Option Nat × List (List (Walker K)))
  | last, _, 0, _, hist => ([], .ok (last, hist))
  | _, ii, rem + 1, ens, hist =>
    match stepEnsemble post ens (moves ii) with
    | .error e => ([], .error e)
    | .ok ens' =>
      match obs.acor (hist ++ [ens']) with
      | .raised e => ([], .error e)
      | r =>
        (Logged.write (stepLine ii r)).andThen fun _ =>
        if stopTest o ii (obs.diag (hist ++ [ens'])) then
          ((if ii = acorForceMin then [.minLimit (ii + 1)] else []) ++ [.early (ii + 1)],
            .ok (some ii, hist ++ [ens']))
        else prodLoop o post moves obs (some ii) (ii + 1) rem ens' (hist ++ [ens'])

/-- the warning after the loop (fit_core.py 426-432, 753-759) -/
def cautionLine (o : StopOpts K) (n : Nat) : List (Out K) :=
  if n = o.nSteps ∧ o.minAF.isSome ∧ o.maxAF.isSome ∧ o.nEff.isSome ∧ o.runAllSteps = false then [.caution] else []

/-- The end of a run (fit_core.py 426-500, 753-829) with the last index `ii` (unbound for `none`) -/
def finishRun (v : EmceeVersion) (o : RunOpts K) (nCPU : Int) (nW : Nat) (obs : RunObs K) (files : RunFiles K)
    (last : Option Nat) (hist : List (List (Walker K))) : Logged K (SavedRun K) :=
  match last with
  | none => ([], .error .nameError)
  | some ii =>
    (Logged.write (cautionLine o.stop (ii + 1) ++ [.finished (ii + 1),
      .runSummary nCPU files.nParam nW o.stop.nSteps files.keys (obs.af hist) (endAcor v (obs.acor hist))])).andThen
      fun _ =>
    let d := savedRun v nW files.nParam nCPU obs hist
    if v = .v2 ∧ ¬ 1 < nCPU then ([], .error .attributeError)
    else
      (Logged.write (if files.sampler then [.pickle d] else [])).andThen fun _ =>
      (plotStep files.trace files.plotTrace d (.runPlot d)).andThen fun _ => ([], .ok d)

/-- the ensemble with which the production starts (fit_core.py 364-367, 677-680): without burn-in the starting positions -/
def startFrom (post : List (Fl K) → Except PyErr (Fl K)) (initial : List (List (Fl K))) :
    Option (List (Walker K)) → Except PyErr (List (Walker K))
  | some ens => .ok ens
  | none => startEnsemble post initial

/-- `_run_mcmc_emcee_221`, `_run_mcmc_emcee_3` from the starting positions on.  `burnFile`, `file`: what the HDF5 file of emcee 3
contains for burn-in and production; a table of another number of walkers is refused when the sampler is made, for the burn-in
before the log is opened (569-572), for the production after it (684-698). -/
def runOut [FloorRing K] (v : EmceeVersion) (o : RunOpts K) (cpuCount : Nat)
    (post : List (Fl K) → Except PyErr (Fl K)) (initial : List (List (Fl K)))
    (burnMoves moves : Nat → List (Move K)) (obsBurn obs : RunObs K)
    (burnFile file : List (List (Walker K))) (files : RunFiles K) : Logged K (SavedRun K) :=
  match storedBefore v o.overwrite initial.length burnFile with
  | .error e => ([], .error e)
  | .ok burnOld =>
    (Logged.write [.noThread o.noThread, .cpus (o.cpus cpuCount)]).andThen fun _ =>
    (burnPhase v o.nBurn (o.cpus cpuCount) post initial burnMoves obsBurn burnOld files).andThen fun burnt =>
    match storedBefore v o.overwrite initial.length file with
    | .error e => ([], .error e)
    | .ok old =>
      (Logged.write [.runHead]).andThen fun _ =>
      match o.stop.nSteps with
      | 0 => ([], .error .nameError)
      | n + 1 =>
        match startFrom post initial burnt with
        | .error e => ([], .error e)
        | .ok ens =>
          (prodLoop o.stop post moves obs none 0 (n + 1) ens old).andThen fun r =>
          finishRun v o (o.cpus cpuCount) initial.length obs files r.1 r.2

/-- The attribute `sampler_dict` of the fit after a run (fit_core.py 498, 827), before it `d0`. -/
def attachedAfter (d0 : Option (SavedRun K)) (r : Logged K (SavedRun K)) : Option (SavedRun K) :=
  match r.2 with
  | .error _ => d0
  | .ok d => some d

end Misfit
