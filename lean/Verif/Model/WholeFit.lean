import Verif.Model.Workers

/-!
# A 2D fit with its sampling run

Source: `misfit/fit/fit2D.py` 259-281, 375-376, `misfit/fit/fit_core.py` 187-252, 493-500, 503-575, 822-829 (`run_mcmc`), 909-917
(`init_walker_pos`).

`Verif.Model.Fit2D` takes the sampling run of a fit as given.  Here it is the run of the program: the reduced copy
(`Verif.Model.Prune`), the starting positions from the bounds of the prior, the run on the copies
(`Verif.Model.Workers`), and the samples as columns.
-/

namespace Misfit
variable {V : Type*} {r c : Nat}

/-- What comes from outside into a run: the version of emcee, the options, the number of CPUs, the random draws for the starting
positions, the proposals and thresholds, the diagnostics, the samples in the file, where the evaluations take place, and the
likelihood at positions that are not numbers. -/
structure SampleEnv where
  version : EmceeVersion
  opts : RunOpts ℝ
  cpuCount : Nat
  draws : List (List (Fl ℝ))
  burnMoves : Nat → List (Move ℝ)
  moves : Nat → List (Move ℝ)
  diag : List (List (Walker ℝ)) → StepDiag ℝ
  file : List (List (Walker ℝ))
  plan : Plan
  other : List (Fl ℝ) → Except PyErr (Fl ℝ)

/-- `lnprob` (fit_core.py 168-183) at positions that are not numbers: prior first, then the likelihood -/
noncomputable def priorThen (p : PriorObj) (other : List (Fl ℝ) → Except PyErr (Fl ℝ)) (x : List (Fl ℝ)) : Except PyErr (Fl ℝ) :=
  (Misfit.lnprob p.logp (fun (_ : Unit) y => ((), other y)) () x).2

/-- `range_arrs` (general_utils.py 188-197) with the bounds of the prior; without bounds a TypeError at the first
varying parameter -/
noncomputable def priorRanges (n : Nat) (vary : List Bool) : Option (List (Option (Fl ℝ × Fl ℝ))) →
    Except PyErr (List (Fl ℝ × Fl ℝ))
  | some bounds => rangeArrs n vary bounds
  | none =>
    match priorNoBounds n vary with
    | .error e => .error e
    | .ok _ => .ok []

/-- The samples as columns.  emcee keeps them in an array with `n` columns: a position of another length is a
ValueError. -/
def chainOfRows (n : Nat) (rows : List (List (Fl ℝ))) : Except PyErr Chain :=
  if rows.all fun x => x.length == n then
    .ok ⟨rows.length, (List.range n).map fun j k => (rows[k]).getD j .nan⟩
  else .error .valueError

/-- `run_mcmc` of a fit (fit_core.py 187-252, 503-575): the copy, the starting positions, the run, the samples -/
noncomputable def Fit2D.sample (w : Meaning V r c) (a : FitAttrs V) (env : SampleEnv) (s : Fit2D r c) :
    Except PyErr Chain :=
  match s.prune w a with
  | .error e => .error e
  | .ok x =>
    match s.kinModel, s.prior with
    | some k, some p =>
      match priorRanges k.names.length k.m.params.vary p.bounds with
      | .error e => .error e
      | .ok ra =>
        match initWalkers ra env.draws with
        | .error e => .error e
        | .ok initial =>
          match (runMcmcW env.version env.opts env.cpuCount (env.plan.eval x (PrunedFit.atPos (priorThen x.prior env.other)))
            initial env.burnMoves env.moves env.diag env.file (Workers.start x)).2 with
          | .error e => .error e
          | .ok d => chainOfRows k.m.params.nFree d.flatchain
    | _, _ => .error .attributeError

end Misfit
