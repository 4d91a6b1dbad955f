import Verif.Model.Params

/-!
# The sampling loop, the saved sampler dictionary

Sources: `misfit/fit/fit_core.py` (`_run_mcmc_emcee_221`, `_run_mcmc_emcee_3`),
`misfit/fit/fit_io.py` (`make_emcee_sampler_dict`).

The sampler itself (emcee) is an oracle: what the loop sees of it is, for every step,
the mean acceptance fraction and the largest autocorrelation time.
-/

namespace Misfit

section loop
variable {K : Type*} [Field K] [LinearOrder K]

/-- The options of `MCMC2DOptions` used by the loop (fit_core.py 1119-1150): `None` is
`none`. -/
structure StopOpts (K : Type*) where
  minAF : Option (Fl K)
  maxAF : Option (Fl K)
  nEff : Option (Fl K)
  runAllSteps : Bool
  nSteps : Nat

/-- What the loop reads from the sampler after a step: `np.mean(acceptance_fraction)` and
`np.max(get_autocorr_time(...))`; `acor = none` is the caught `RuntimeError`
(fit_core.py 398-403, 725-730). -/
structure StepDiag (K : Type*) where
  af : Fl K
  acor : Option (Fl K)

/-- `acor_force_min = 49` (fit_core.py 27). -/
def acorForceMin : Nat := 49

/-- The test of the loop body that leads to `break` (fit_core.py 410-421, 737-748), for
the step with index `ii`. -/
def stopTest (o : StopOpts K) (ii : Nat) (d : StepDiag K) : Bool :=
  match o.minAF, o.maxAF, o.nEff, d.acor with
  | some lo, some hi, some ne, some ac =>
      if (Fl.ltB lo d.af && Fl.ltB d.af hi) && !o.runAllSteps
          && Fl.ltB (ac * ne) (.fin (ii : K)) then
        decide (acorForceMin ≤ ii)
      else false
  | _, _, _, _ => false

/-- The loop `for ii in range(nSteps)` (fit_core.py 379-421, 708-748) from index `ii`
with `rem` iterations left; the result is the value of the variable `ii` after the loop
(`none`: never assigned). -/
def sampleLoop (o : StopOpts K) (diag : Nat → StepDiag K) (last : Option Nat) :
    Nat → Nat → Option Nat
  | _, 0 => last
  | ii, rem + 1 =>
      if stopTest o ii (diag ii) then some ii
      else sampleLoop o diag (some ii) (ii + 1) rem

/-- What a run reports (fit_core.py 426-439, 753-766): the number of finished steps and
whether `Caution: no convergence within nSteps.` was written. -/
structure RunReport where
  finishedSteps : Nat
  caution : Bool
  deriving DecidableEq, Repr

/-- The production run (fit_core.py 379-439, 708-766).  With `nSteps = 0` the variable
`ii` is unbound: `UnboundLocalError`, a `NameError`. -/
def productionRun (o : StopOpts K) (diag : Nat → StepDiag K) : Except PyErr RunReport :=
  match sampleLoop o diag none 0 o.nSteps with
  | none => .error .nameError
  | some ii =>
      .ok { finishedSteps := ii + 1
            caution := decide (ii + 1 = o.nSteps) &&
              (o.minAF.isSome && o.maxAF.isSome && o.nEff.isSome) && !o.runAllSteps }

end loop

section dict

/-- The part of the dictionary of `make_emcee_sampler_dict` that holds the samples
(fit_io.py 76-90).  Arrays are nested lists: walkers, steps, parameters. -/
structure SamplerDict (α β : Type*) where
  chain : List (List α)
  lnprobability : List (List β)
  flatchain : List α
  flatlnprobability : List β

/-- `make_emcee_sampler_dict` (fit_io.py 21-24, 76-90) for a non-negative `nBurn`:
`chain[:, nBurn:, :].reshape((-1, nDim))`, `lnprobability[:, nBurn:].reshape((-1))`
(C order: the walker index is the slow one).  `α` is a parameter vector (one row of the
chain), so the axis of length `nDim` is not touched.  The counters are in `Verif.Model.RunLog`, the copies of the fitting objects
in the dictionary are not modelled. -/
def makeSamplerDict {α β : Type*} (chain : List (List α)) (lnprob : List (List β))
    (nBurn : Nat) : SamplerDict α β where
  chain := chain.map (List.drop nBurn)
  lnprobability := lnprob.map (List.drop nBurn)
  flatchain := (chain.map (List.drop nBurn)).flatten
  flatlnprobability := (lnprob.map (List.drop nBurn)).flatten

end dict

end Misfit
