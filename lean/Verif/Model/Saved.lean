import Verif.Model.Workers

/-!
# The fit object saved with the samples

Source: `misfit/fit/fit_io.py` 11-42, 77 (`make_emcee_sampler_dict`: a copy of the object the sampler evaluates, with the
parts of its aperture model moved to the top, options of the fit added and the aperture model deleted), called in
`misfit/fit/fit_core.py` 475, 802; evaluation of the saved object by `misfit/fit/fit_core.py` 130-136, 150-183 and
`misfit/model/kin_model.py` 160-208.

Simplification: the light profile (`intensityProfile`), copied like the kinematic profile, is part of the input of the model
and not repeated.  The object the sampler evaluates is given (emcee 2: `sampler.args[0]`, emcee 3: `sampler.log_prob_fn.args[0]`).
-/

namespace Misfit
variable {V : Type*} {r c : Nat}

/-- the attributes copied from the fit (fit_io.py 37-39) -/
def savedOptions : List String := ["mcmcOptions", "kinModelOptions", "thetaSettings"]

/-- The saved object: galaxy with spectrum and instrument, kinematic profile (fit_io.py 32-34), options (37-39), the model
without its aperture model, the attributes the model still has (42), the prior. -/
structure KeptFit (V : Type*) (r c : Nat) where
  attrs : FitAttrs V
  profile : KinProfile
  options : Attrs V
  kin : KinModelState r c
  kinKeys : List String
  prior : PriorObj

/-- The copy made by `make_emcee_sampler_dict(sampler, fitEmis2D=fit)` (fit_io.py 25-42) of the object `x` the sampler
evaluates; `fit = none` is the default `None`, otherwise the attributes of the fit.  Galaxy, instrument and profile are read
from the aperture model: without one (`None`) an AttributeError, before the options are read. -/
def saveFit (x : PrunedFit V r c) (fit : Option (Attrs V)) : Except PyErr (KeptFit V r c) :=
  match x.kin.aper with
  | none => .error .attributeError
  | some (_, s) =>
    match fit with
    | none => .error .attributeError
    | some d =>
      match copyKeys d savedOptions with
      | .error e => .error e
      | .ok o => .ok ⟨x.attrs, s.kin, o, { x.kin with aper := none }, x.kinKeys.filter (· ≠ "aperModel"), x.prior⟩

/-- `update_model(theta_fitting)` of the saved object (fit_core.py 135-136, kin_model.py 192-208): the parameters are stored,
then the aperture model is read. -/
noncomputable def KeptFit.update (x : KeptFit V r c) (fit : List ℝ) : KeptFit V r c × Except PyErr Unit :=
  match x.kin.params.update fit with
  | (p, some e) => ({ x with kin := { x.kin with params := p } }, .error e)
  | (p, none) =>
    let x' := { x with kin := { x.kin with params := p } }
    if x.kinKeys.contains "aperModel" then
      let res := x'.kin.update fit
      ({ x with kin := res.1 }, res.2)
    else (x', .error .attributeError)

/-- `lnprob(theta_fitting, saved)` (fit_core.py 150-183) -/
noncomputable def KeptFit.lnprob (x : KeptFit V r c) (fit : List ℝ) : KeptFit V r c × Except PyErr (Fl ℝ) :=
  Misfit.lnprob x.prior.logp (fun (x : KeptFit V r c) f =>
    match x.update (f.map Fl.finVal) with
    | (x', .error e) => (x', .error e)
    | (x', .ok ()) => (x', x'.kin.llike)) x (fit.map Fl.fin)

/-- `make_model(galaxy, instrument, theta_fitting)` of the saved object (fit_core.py 130-133, kin_model.py 160-190): as
for the copy that is evaluated the model has no kinematic profile any more. -/
noncomputable def KeptFit.makeModel (x : KeptFit V r c) (g : KinInput r c) (fit : List ℝ) :
    KeptFit V r c × Except PyErr Unit :=
  if makeReads.all x.kinKeys.contains then
    let res := x.kin.make g fit
    ({ x with kin := res.1 }, res.2)
  else
    match x.kin.params.update fit with
    | (p, some e) => ({ x with kin := { x.kin with params := p } }, .error e)
    | (p, none) => ({ x with kin := { x.kin with params := p } }, .error .attributeError)

end Misfit
