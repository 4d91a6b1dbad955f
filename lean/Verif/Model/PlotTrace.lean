import Verif.Model.MCMC
import Verif.Model.PlotFit

/-!
# The plot of the walkers against the step number

Source: `misfit/plot/plot_trace.py`.  Drawing is recorded as the numbers handed to matplotlib; widths, colours and the
file are not modelled.  `np.float` is taken as the alias of `float` that it was in the versions of numpy that had it.
-/

namespace Misfit

/-- Labels of the panels (plot_trace.py 29-33): the names of the varying parameters, in order; IndexError if
`theta_vary` or `theta_names_nice` is too short. -/
def traceNames (vary : List Bool) (nice : List String) : Nat → Nat → Except PyErr (List String)
  | _, 0 => .ok []
  | i, n + 1 =>
    match itemE vary i with
    | .error e => .error e
    | .ok false => traceNames vary nice (i + 1) n
    | .ok true =>
      match itemE nice i with
      | .error e => .error e
      | .ok s =>
        match traceNames vary nice (i + 1) n with
        | .error e => .error e
        | .ok ns => .ok (s :: ns)

/-- One panel: label, the paths drawn thin and black, and the paths drawn thick and in colours. -/
structure TracePanel (α : Type*) where
  label : String
  black : List (List α)
  coloured : List (List α)

/-- `sampler_dict['chain'][w,:,k]` (plot_trace.py 68, 71): parameter `k` of walker `w` against the step number -/
def tracePath {α : Type*} (chain : List (List (List α))) (k w : Nat) : Except PyErr (List α) :=
  match itemE chain w with
  | .error e => .error e
  | .ok p => mapE (fun x => itemE x k) p

/-- `np.setdiff1d(range(nWalkers), trace_inds)` (plot_trace.py 61): sorted, without repetition -/
def normInds (nWalkers : Nat) (traced : List Nat) : List Nat :=
  (List.range nWalkers).filter (fun w => !(traced.contains w))

/-- Panel `k` (plot_trace.py 65-78). -/
def tracePanel {α : Type*} (chain : List (List (List α))) (names : List String) (nWalkers : Nat)
    (traced : List Nat) (k : Nat) : Except PyErr (TracePanel α) :=
  match mapE (tracePath chain k) (normInds nWalkers traced) with
  | .error e => .error e
  | .ok black =>
    match mapE (tracePath chain k) traced with
    | .error e => .error e
    | .ok coloured =>
      match itemE names k with
      | .error e => .error e
      | .ok label => .ok ⟨label, black, coloured⟩

/-- `plot_trace` (plot_trace.py 25-87).  `nTheta` is the length of `theta`; `traced` are the five draws of
`np.random.randint(0, nWalkers, size=5)`.  A grid without rows is refused by `GridSpec` (ValueError), and the
reciprocal of no walkers is a ZeroDivisionError. -/
def plotTrace {α : Type*} (nTheta : Nat) (vary : List Bool) (nice : List String) (chain : List (List (List α)))
    (nWalkers : Nat) (traced : List Nat) : Except PyErr (List (TracePanel α)) :=
  match traceNames vary nice 0 nTheta with
  | .error e => .error e
  | .ok names =>
    if names.length = 0 then .error .valueError
    else if nWalkers = 0 then .error .zeroDivisionError
    else mapE (tracePanel chain names nWalkers traced) (List.range names.length)

end Misfit
