import Verif.Model.Num

/-!
# Parameter vectors, prior, posterior, initial walkers

Sources: `misfit/model/kin_model.py`, `misfit/model/kin_classes.py`,
`misfit/model/kin_functions.py`, `misfit/fit/fit_core.py`,
`misfit/general/general_utils.py`.
-/

namespace Misfit

variable {α : Type*}

/-- `KinModel2D.update_parameters` (kin_model.py 126-135).  The Python loop walks
over `theta` with the running index `j` into `theta_fitting` and overwrites `theta`
in place; the pair returned here is the array after the call together with the
exception that stopped the loop, if any (already written entries stay written).
`theta_fitting[j]`, `theta_vary[i]` out of range are IndexErrors. -/
def updateParameters : List α → List Bool → List α → List α × Option PyErr
  | [], _, _ => ([], none)
  | t :: ts, [], _ => (t :: ts, some .indexError)
  | t :: ts, false :: vs, fit =>
      let r := updateParameters ts vs fit
      (t :: r.1, r.2)
  | t :: ts, true :: _, [] => (t :: ts, some .indexError)
  | _ :: ts, true :: vs, f :: fs =>
      let r := updateParameters ts vs fs
      (f :: r.1, r.2)

/-- The part of `KinModel2D` that holds the parameters (kin_model.py 71-75, 116-118).
`nFree` is the attribute `n_free_param`. -/
structure KinParams (α : Type*) where
  theta : List α
  vary : List Bool
  nFree : Nat

/-- `KinModel2D.__init__`/`setAttr` (kin_model.py 71-72, 116-118): the number of free
parameters is the number of true entries of `theta_vary`. -/
def KinParams.init (theta : List α) (vary : List Bool) : KinParams α :=
  { theta := theta, vary := vary, nFree := vary.count true }

/-- The parameter part of `KinModel2D.make_model` / `update_model`
(kin_model.py 160-165, 193-198): length check, then in-place update.  The evaluation
of the model itself is not part of this definition. -/
def KinParams.update (m : KinParams α) (fit : List α) : KinParams α × Option PyErr :=
  if fit.length ≠ m.nFree then (m, some .valueError)
  else
    let r := updateParameters m.theta m.vary fit
    ({ m with theta := r.1 }, r.2)

/-- A user calling `update_model` repeatedly and ignoring exceptions. -/
def KinParams.run (m : KinParams α) : List (List α) → KinParams α
  | [] => m
  | fit :: rest => ((m.update fit).1).run rest

/-- `initialize_fitting_theta` (fit_core.py 138-147): collect the varying entries. -/
def initializeFittingTheta : List α → List Bool → Except PyErr (List α)
  | [], _ => .ok []
  | _ :: _, [] => .error .indexError
  | t :: ts, v :: vs =>
      match initializeFittingTheta ts vs with
      | .error e => .error e
      | .ok r => .ok (if v then t :: r else r)

section prior
variable {K : Type*} [Field K] [LinearOrder K]

/-- `_between` (kin_functions.py 27-28): `bounds[0] <= value <= bounds[1]`. -/
def between (b : Fl K × Fl K) (x : Fl K) : Bool := Fl.leB b.1 x && Fl.leB x b.2

/-- The loop of `ThetaPriorFlat.log_prior` (kin_classes.py 287-293) collecting the
statements.  `n` is the number of remaining entries of `self.theta` (only its length
is used).  `theta_bounds[i]` may be `None`, which is a TypeError when subscripted. -/
def priorStatements : Nat → List Bool → List (Option (Fl K × Fl K)) → List (Fl K) →
    Except PyErr (List Bool)
  | 0, _, _, _ => .ok []
  | _ + 1, [], _, _ => .error .indexError
  | n + 1, false :: vs, bs, fit => priorStatements n vs bs.tail fit
  | _ + 1, true :: _, [], _ => .error .indexError
  | _ + 1, true :: _, _ :: _, [] => .error .indexError
  | _ + 1, true :: _, none :: _, _ :: _ => .error .typeError
  | n + 1, true :: vs, some b :: bs, x :: xs =>
      match priorStatements n vs bs xs with
      | .error e => .error e
      | .ok r => .ok (between b x :: r)

/-- `ThetaPriorFlat.log_prior` (kin_classes.py 286-300).  `np.array([]).all()` is
true, as is `List.all` of the empty list. -/
def logPrior (theta : List (Fl K)) (vary : List Bool) (bounds : List (Option (Fl K × Fl K)))
    (fit : List (Fl K)) : Except PyErr (Fl K) :=
  match priorStatements theta.length vary bounds fit with
  | .error e => .error e
  | .ok st => .ok (if st.all id then 0 else .ninf)

/-- `lnprob` (fit_core.py 168-183) with `lnlike` (fit_core.py 150-166) abstracted to a
state transformer: `S` is the state of `fitEmis2D`, `like` updates the model and returns
the log-likelihood (any float, or an exception). -/
def lnprob {S : Type*} (prior : List (Fl K) → Except PyErr (Fl K))
    (like : S → List (Fl K) → S × Except PyErr (Fl K))
    (s : S) (fit : List (Fl K)) : S × Except PyErr (Fl K) :=
  match prior fit with
  | .error e => (s, .error e)
  | .ok lnPrior =>
      if lnPrior.isFinite then
        match like s fit with
        | (s', .error e) => (s', .error e)
        | (s', .ok lnLike) =>
            let p := lnPrior + lnLike
            (s', .ok (if p.isFinite then p else .ninf))
      else (s, .ok .ninf)

/-- Python's `max((a, b))`: keeps the first unless the second is larger. -/
def pyMax (b : Fl K × Fl K) : Fl K := if Fl.ltB b.1 b.2 then b.2 else b.1
/-- Python's `min((a, b))`: keeps the first unless the second is smaller. -/
def pyMin (b : Fl K × Fl K) : Fl K := if Fl.ltB b.2 b.1 then b.2 else b.1

/-- `range_arrs` (general_utils.py 188-197): pairs `(param_range, param_lower)` of the
varying parameters.  `n` is `len(theta_names)`. -/
def rangeArrs : Nat → List Bool → List (Option (Fl K × Fl K)) →
    Except PyErr (List (Fl K × Fl K))
  | 0, _, _ => .ok []
  | _ + 1, [], _ => .error .indexError
  | n + 1, false :: vs, bs => rangeArrs n vs bs.tail
  | _ + 1, true :: _, [] => .error .indexError
  | _ + 1, true :: _, none :: _ => .error .typeError
  | n + 1, true :: vs, some b :: bs =>
      match rangeArrs n vs bs with
      | .error e => .error e
      | .ok r => .ok ((pyMax b - pyMin b, pyMin b) :: r)

/-- One walker of `init_walker_pos` (fit_core.py 909-917): `u` is the vector returned by
`np.random.random_sample(ndim)`; numpy raises ValueError when the shapes differ (the
broadcast of length-one arrays is not modelled). -/
def walkerPos (u : List (Fl K)) (ra : List (Fl K × Fl K)) : Except PyErr (List (Fl K)) :=
  if u.length = ra.length then .ok (List.zipWith (fun x r => x * r.1 + r.2) u ra)
  else .error .valueError

end prior
end Misfit
