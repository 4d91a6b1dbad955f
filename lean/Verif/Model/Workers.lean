import Verif.Model.Prune

/-!
# A sampling run on objects with a state, in one or several processes

Source: `misfit/fit/fit_core.py` 234-252 (`EnsembleSampler(..., lnprob, args=[fitEmis2D_fit], threads=nCPUs)`), 531-575
(`Pool(nCPUs)`, `EnsembleSampler(..., pool=pool)`), 150-183 (`lnprob` evaluates, and thereby changes, the object it is given).

`Verif.Model.Sampler` takes the posterior to be a function of the position.  In the program it is the method of an object
that is changed by each evaluation.  Here the objects are explicit: evaluation number `n` takes place in the process
`who n`, on the object left there by the evaluations before, or, if `resend n`, on a new copy of the object as it was before the run
(multiprocessing sends the object along with the tasks).  One process without pool is `who n = 0`, `resend n = false`.

Simplification: the moves of a step are evaluated one after another; emcee evaluates the proposals for half of the walkers
at the same time, which makes no difference for their values, but after an exception in one of them others may have been
evaluated too.
-/

namespace Misfit

variable {K : Type*} [Field K] [LinearOrder K] {S : Type*}

/-- Where the evaluations take place -/
structure Plan where
  who : Nat → Nat
  resend : Nat → Bool

/-- The number of evaluations so far and the object of each process -/
structure Workers (S : Type*) where
  done : Nat
  obj : Nat → S

/-- before the run every process has the same object -/
def Workers.start (x : S) : Workers S := ⟨0, fun _ => x⟩

/-- a computation that changes the objects and may raise -/
abbrev Working (S α : Type*) := Workers S → Workers S × Except PyErr α

/-- one evaluation: the object of the process is changed -/
def Plan.eval (plan : Plan) (x0 : S) (P : S → List (Fl K) → S × Except PyErr (Fl K)) (x : List (Fl K)) :
    Working S (Fl K) := fun w =>
  let o := if plan.resend w.done then x0 else w.obj (plan.who w.done)
  (⟨w.done + 1, fun i => if i = plan.who w.done then (P o x).1 else w.obj i⟩, (P o x).2)

/-- `evalPost`, with objects -/
def evalPostW (E : List (Fl K) → Working S (Fl K)) (x : List (Fl K)) : Working S (Walker K) := fun w =>
  match E x w with
  | (w, .error e) => (w, .error e)
  | (w, .ok p) => if p = .nan then (w, .error .valueError) else (w, .ok ⟨x, p⟩)

/-- `moveOne`, with objects -/
def moveOneW (E : List (Fl K) → Working S (Fl K)) (ens : List (Walker K)) (mv : Move K) :
    Working S (List (Walker K)) := fun w =>
  match ens[mv.walker]? with
  | none => (w, .error .indexError)
  | some old =>
    match evalPostW E (mv.proposal ens) w with
    | (w, .error e) => (w, .error e)
    | (w, .ok new) =>
      (w, .ok (if Fl.ltB mv.threshold (new.prob - old.prob) then ens.set mv.walker new else ens))

/-- `stepEnsemble`, with objects -/
def stepEnsembleW (E : List (Fl K) → Working S (Fl K)) : List (Walker K) → List (Move K) → Working S (List (Walker K))
  | ens, [], w => (w, .ok ens)
  | ens, mv :: rest, w =>
    match moveOneW E ens mv w with
    | (w, .error e) => (w, .error e)
    | (w, .ok ens') => stepEnsembleW E ens' rest w

/-- `startEnsemble`, with objects -/
def startEnsembleW (E : List (Fl K) → Working S (Fl K)) : List (List (Fl K)) → Working S (List (Walker K))
  | [], w => (w, .ok [])
  | x :: xs, w =>
    match evalPostW E x w with
    | (w, .error e) => (w, .error e)
    | (w, .ok a) =>
      match startEnsembleW E xs w with
      | (w, .error e) => (w, .error e)
      | (w, .ok as) => (w, .ok (a :: as))

/-- `burnIn`, with objects -/
def burnInW (E : List (Fl K) → Working S (Fl K)) (moves : Nat → List (Move K)) : Nat → Nat → List (Walker K) →
    Working S (List (Walker K))
  | _, 0, ens, w => (w, .ok ens)
  | k, rem + 1, ens, w =>
    match stepEnsembleW E ens (moves k) w with
    | (w, .error e) => (w, .error e)
    | (w, .ok ens') => burnInW E moves (k + 1) rem ens' w

/-- `produce`, with objects -/
def produceW (o : StopOpts K) (E : List (Fl K) → Working S (Fl K)) (moves : Nat → List (Move K))
    (diag : List (List (Walker K)) → StepDiag K) : Nat → Nat → List (Walker K) → List (List (Walker K)) →
    Working S (List (List (Walker K)))
  | _, 0, _, hist, w => (w, .ok hist)
  | ii, rem + 1, ens, hist, w =>
    match stepEnsembleW E ens (moves ii) w with
    | (w, .error e) => (w, .error e)
    | (w, .ok ens') =>
      if stopTest o ii (diag (hist ++ [ens'])) then (w, .ok (hist ++ [ens']))
      else produceW o E moves diag (ii + 1) rem ens' (hist ++ [ens']) w

/-- `runMcmc`, with objects (fit_core.py 206-500, 503-829 from the starting positions on) -/
def runMcmcW [FloorRing K] (v : EmceeVersion) (o : RunOpts K) (cpuCount : Nat)
    (E : List (Fl K) → Working S (Fl K)) (initial : List (List (Fl K)))
    (burnMoves moves : Nat → List (Move K)) (diag : List (List (Walker K)) → StepDiag K)
    (file : List (List (Walker K))) : Working S (SamplerDict (List (Fl K)) (Fl K)) := fun w =>
  match startEnsembleW E initial w with
  | (w, .error e) => (w, .error e)
  | (w, .ok ens) =>
    match burnInW E burnMoves 0 o.nBurn ens w with
    | (w, .error e) => (w, .error e)
    | (w, .ok ens) =>
      match storedBefore v o.overwrite initial.length file with
      | .error e => (w, .error e)
      | .ok old =>
        match produceW o.stop E moves diag 0 o.stop.nSteps ens old w with
        | (w, .error e) => (w, .error e)
        | (w, .ok hist) =>
          (w, if o.stop.nSteps = 0 then .error .nameError
            else if v = .v2 ∧ ¬ 1 < o.cpus cpuCount then .error .attributeError
            else .ok (dictOf initial.length hist))

/-- a position as a list of numbers, if it is one -/
def reals : List (Fl ℝ) → Option (List ℝ)
  | [] => some []
  | .fin x :: l => (reals l).map (x :: ·)
  | _ :: _ => none

variable {V : Type*} {r c : Nat}

/-- `lnprob` (fit_core.py 150-183) of the copy at a position of the sampler.  Positions that are not numbers are
outside the model of the evaluation: `other` says what happens there. -/
noncomputable def PrunedFit.atPos (other : List (Fl ℝ) → Except PyErr (Fl ℝ)) (x : PrunedFit V r c) (p : List (Fl ℝ)) :
    PrunedFit V r c × Except PyErr (Fl ℝ) :=
  match reals p with
  | some fit => x.lnprob fit
  | none => (x, other p)

/-- the posterior of the fit at a position of the sampler -/
noncomputable def Fit2D.atPos (other : List (Fl ℝ) → Except PyErr (Fl ℝ)) (s : Fit2D r c) (p : List (Fl ℝ)) :
    Except PyErr (Fl ℝ) :=
  match reals p with
  | some fit => (s.lnprob fit).2
  | none => other p

end Misfit
