import Verif.Model.MCMC
import Mathlib.Algebra.Order.Floor.Defs

/-!
# A whole sampling run

Source: `misfit/fit/fit_core.py` 187-203 (`run_mcmc`), 206-500 (`_run_mcmc_emcee_221`),
503-829 (`_run_mcmc_emcee_3`).

emcee is modelled by its interface: a step is a sequence of Metropolis moves of single walkers.  The
proposed position may depend in any way on the ensemble (and on random numbers), the acceptance test is
`lnpdiff > log(u)` with `lnpdiff = (ndim - 1) * log(z) + p_new - p_old`, written here as
`threshold < p_new - p_old` with an arbitrary threshold that is not NaN.  emcee raises ValueError when the
posterior returns NaN.  Not modelled: emcee's tests of the starting positions (linear independence, number of
walkers), failures of the HDF5 file itself (no file name set, a burn-in table of another shape), `np.int` missing
from recent numpy.  The log, the plots and the saved file are in `Verif.Model.RunLog`.
-/

namespace Misfit

variable {K : Type*} [Field K] [LinearOrder K]

/-- a walker: position and stored log-probability -/
structure Walker (K : Type*) where
  pos : List (Fl K)
  prob : Fl K
  deriving DecidableEq

/-- a move: which walker, the proposed position, the acceptance threshold -/
structure Move (K : Type*) where
  walker : Nat
  proposal : List (Walker K) → List (Fl K)
  threshold : Fl K

/-- the posterior as emcee uses it -/
def evalPost (post : List (Fl K) → Except PyErr (Fl K)) (x : List (Fl K)) : Except PyErr (Walker K) :=
  match post x with
  | .error e => .error e
  | .ok p => if p = .nan then .error .valueError else .ok ⟨x, p⟩

/-- one Metropolis move -/
def moveOne (post : List (Fl K) → Except PyErr (Fl K)) (ens : List (Walker K)) (mv : Move K) :
    Except PyErr (List (Walker K)) :=
  match ens[mv.walker]? with
  | none => .error .indexError
  | some w =>
    match evalPost post (mv.proposal ens) with
    | .error e => .error e
    | .ok w' => if Fl.ltB mv.threshold (w'.prob - w.prob) then .ok (ens.set mv.walker w') else .ok ens

/-- one step of the sampler -/
def stepEnsemble (post : List (Fl K) → Except PyErr (Fl K)) : List (Walker K) → List (Move K) →
    Except PyErr (List (Walker K))
  | ens, [] => .ok ens
  | ens, mv :: rest =>
    match moveOne post ens mv with
    | .error e => .error e
    | .ok ens' => stepEnsemble post ens' rest

/-- the walkers with the log-probabilities of their starting positions -/
def startEnsemble (post : List (Fl K) → Except PyErr (Fl K)) : List (List (Fl K)) → Except PyErr (List (Walker K))
  | [] => .ok []
  | x :: xs =>
    match evalPost post x with
    | .error e => .error e
    | .ok w =>
      match startEnsemble post xs with
      | .error e => .error e
      | .ok ws => .ok (w :: ws)

/-- burn-in (fit_core.py 281-286, 601-606): step after step, nothing kept but the last ensemble -/
def burnIn (post : List (Fl K) → Except PyErr (Fl K)) (moves : Nat → List (Move K)) : Nat → Nat →
    List (Walker K) → Except PyErr (List (Walker K))
  | _, 0, ens => .ok ens
  | k, rem + 1, ens =>
    match stepEnsemble post ens (moves k) with
    | .error e => .error e
    | .ok ens' => burnIn post moves (k + 1) rem ens'

/-- The production loop (fit_core.py 379-421, 708-748) from index `ii` with `rem` iterations left: the
ensembles stored by the sampler, `hist` first.  `diag` is what the loop reads from the sampler, a function
of what the sampler stores. -/
def produce (o : StopOpts K) (post : List (Fl K) → Except PyErr (Fl K)) (moves : Nat → List (Move K))
    (diag : List (List (Walker K)) → StepDiag K) : Nat → Nat → List (Walker K) → List (List (Walker K)) →
    Except PyErr (List (List (Walker K)))
  | _, 0, _, hist => .ok hist
  | ii, rem + 1, ens, hist =>
    match stepEnsemble post ens (moves ii) with
    | .error e => .error e
    | .ok ens' =>
      if stopTest o ii (diag (hist ++ [ens'])) then .ok (hist ++ [ens'])
      else produce o post moves diag (ii + 1) rem ens' (hist ++ [ens'])

/-- the emcee version (fit_core.py 198-201) -/
inductive EmceeVersion
  | v2 | v3
  deriving DecidableEq

/-- the options of `MCMC2DOptions` used by a run (fit_core.py 1119-1134) -/
structure RunOpts (K : Type*) where
  stop : StopOpts K
  nBurn : Nat
  nCPUs : Option Int
  cpuFrac : K
  noThread : Bool
  overwrite : Bool

/-- number of processes (fit_core.py 218-221, 517-520) -/
def RunOpts.cpus [FloorRing K] (o : RunOpts K) (cpuCount : Nat) : Int :=
  if o.noThread then 1
  else match o.nCPUs with
    | some n => n
    | none => ⌊(cpuCount : K) * o.cpuFrac⌋

/-- the array `chain` of the sampler: walkers, then steps -/
def chainOf (nW : Nat) (hist : List (List (Walker K))) : List (List (Walker K)) :=
  (List.range nW).map fun w => hist.filterMap fun ens => ens[w]?

/-- the dictionary saved by a run (fit_core.py 475, 802) -/
def dictOf (nW : Nat) (hist : List (List (Walker K))) : SamplerDict (List (Fl K)) (Fl K) :=
  makeSamplerDict ((chainOf nW hist).map (List.map Walker.pos)) ((chainOf nW hist).map (List.map Walker.prob)) 0

/-- What the sampler of the production run stores already (fit_core.py 360, 687-698): nothing with emcee 2 or with
`overwrite`, otherwise what the file contains; emcee refuses stored steps with another number of
walkers. -/
def storedBefore (v : EmceeVersion) (overwrite : Bool) (nW : Nat) (file : List (List (Walker K))) :
    Except PyErr (List (List (Walker K))) :=
  if v = .v2 ∨ overwrite = true then .ok []
  else if file.all (fun e => e.length == nW) then .ok file else .error .valueError

/-- `_run_mcmc_emcee_221`, `_run_mcmc_emcee_3` from the starting positions on.  emcee 2 creates a pool only for more
than one thread, and the code closes `sampler.pool` in any case (fit_core.py 478): AttributeError
for `None`, before the samples are saved or returned (480-500).  With emcee 3 the pool is closed only if there is one
(806-809).
Simplified: the starting positions are evaluated with the first step, so that with neither burn-in nor steps the code does not
evaluate them; here they always are. -/
def runMcmc [FloorRing K] (v : EmceeVersion) (o : RunOpts K) (cpuCount : Nat)
    (post : List (Fl K) → Except PyErr (Fl K)) (initial : List (List (Fl K)))
    (burnMoves moves : Nat → List (Move K)) (diag : List (List (Walker K)) → StepDiag K)
    (file : List (List (Walker K))) : Except PyErr (SamplerDict (List (Fl K)) (Fl K)) :=
  match startEnsemble post initial with
  | .error e => .error e
  | .ok ens =>
    match burnIn post burnMoves 0 o.nBurn ens with
    | .error e => .error e
    | .ok ens =>
      match storedBefore v o.overwrite initial.length file with
      | .error e => .error e
      | .ok old =>
        match produce o.stop post moves diag 0 o.stop.nSteps ens old with
        | .error e => .error e
        | .ok hist =>
          if o.stop.nSteps = 0 then .error .nameError
          else if v = .v2 ∧ ¬ 1 < o.cpus cpuCount then .error .attributeError
          else .ok (dictOf initial.length hist)

/-- `init_walker_pos` (fit_core.py 909-917): one vector of draws for each walker -/
def initWalkers (ra : List (Fl K × Fl K)) : List (List (Fl K)) → Except PyErr (List (List (Fl K)))
  | [] => .ok []
  | u :: us =>
    match walkerPos u ra with
    | .error e => .error e
    | .ok p =>
      match initWalkers ra us with
      | .error e => .error e
      | .ok ps => .ok (p :: ps)

/-- The posterior of a fit with the flat prior (fit_core.py 168-183).  `like` is the log-likelihood as a function of the
fitting vector: that it does not depend on the earlier evaluations is C85. -/
def flatPost (theta : List (Fl K)) (vary : List Bool) (bounds : List (Option (Fl K × Fl K)))
    (like : List (Fl K) → Except PyErr (Fl K)) (x : List (Fl K)) : Except PyErr (Fl K) :=
  (lnprob (logPrior theta vary bounds) (fun (_ : Unit) y => ((), like y)) () x).2

/-- `run_mcmc` (fit_core.py 187-203) with the flat prior: walkers from the draws, then the run -/
def runFit [FloorRing K] (v : EmceeVersion) (o : RunOpts K) (cpuCount : Nat)
    (theta : List (Fl K)) (vary : List Bool) (bounds : List (Option (Fl K × Fl K)))
    (like : List (Fl K) → Except PyErr (Fl K)) (draws : List (List (Fl K)))
    (burnMoves moves : Nat → List (Move K)) (diag : List (List (Walker K)) → StepDiag K)
    (file : List (List (Walker K))) : Except PyErr (SamplerDict (List (Fl K)) (Fl K)) :=
  match rangeArrs theta.length vary bounds with
  | .error e => .error e
  | .ok ra =>
    match initWalkers ra draws with
    | .error e => .error e
    | .ok initial =>
      runMcmc v o cpuCount (flatPost theta vary bounds like) initial burnMoves moves diag file

end Misfit
