import Verif.Model.KinModel
import Verif.Model.Posterior

/-!
# The 2D fit object

Source: `misfit/fit/fit2D.py` 142-204, 259-449 (class `FitEmissionLines2D`), `misfit/fit/fit_core.py` 920-1113
(`get_chain_results`), `misfit/general/general_utils.py` 200-259.

The object owns settings, prior, kinematic model, samples and results.  The sampling itself is
`Verif.Model.Sampler`; here a run is the value it returns.  Simplifications: `setup` (line lists, preparation) is
`Verif.Model.Lines` and `Verif.Model.Objects`; plots and the log are left out; of the sampler dictionary only
`flatchain` is kept; `add_v_re_22` leaves whole columns in the kinematic profile, which the next `make_model`
overwrites, so this is not represented; the copy stored as best fit does not contain the previous best fit; the
names in the results are written together with the other results.
-/

namespace Misfit

/-! ## Analysis of the samples -/

/-- The peak searches of scipy: `fmin` on `gaussian_kde` of one column from a starting value, and of several
columns from a starting vector (general_utils.py 210-214, 222-233).  Oracles. -/
structure PeakFinder where
  peak : List ℝ → ℝ → ℝ
  joint : List (List ℝ) → List ℝ → List ℝ

/-- the value of a finite float -/
def Fl.toReal? : Fl ℝ → Option ℝ
  | .fin x => some x
  | _ => none

/-- One column of the chain as numbers; `np.histogram` (fit_core.py 1038) raises ValueError when a sample is NaN or
infinite. -/
def colValues {L : Nat} (c : Fin L → Fl ℝ) : Except PyErr (List ℝ) :=
  match (List.ofFn c).mapM Fl.toReal? with
  | some l => .ok l
  | none => .error .valueError

/-- apply a function that may raise to every entry -/
def mapE {α β : Type*} (f : α → Except PyErr β) : List α → Except PyErr (List β)
  | [] => .ok []
  | a :: as =>
    match f a with
    | .error e => .error e
    | .ok b =>
      match mapE f as with
      | .error e => .error e
      | .ok bs => .ok (b :: bs)

/-- `gaussian_kde(flatchain[:,i])` and `fmin` (general_utils.py 211-213): scipy raises ValueError for a single sample
and LinAlgError (a ValueError) when the sample variance is zero.  In floating point the variance of equal samples
may come out as a rounding error instead of zero. -/
noncomputable def kdePeak (o : PeakFinder) (col : List ℝ) (seed : ℝ) : Except PyErr ℝ :=
  open Classical in
  if col.length ≤ 1 ∨ ∃ x, ∀ y ∈ col, y = x then .error .valueError else .ok (o.peak col seed)

/-- An entry of `theta_linked_posteriors`: the word `'all'` or column indices (negative ones are not
modelled). -/
inductive RawLink
  | all
  | inds (l : List Nat)

/-- indices checked against the number of columns: IndexError -/
def RawLink.check (n : Nat) : RawLink → Except PyErr (LinkSet n)
  | .all => .ok .all
  | .inds l =>
    match mapE (fun i => if h : i < n then .ok (⟨i, h⟩ : Fin n) else .error .indexError) l with
    | .error e => .error e
    | .ok l => .ok (.inds l)

/-- `MCMCResults` after an analysis (fit_core.py 1054-1113) -/
structure FitResults where
  names : List String
  best : List ℝ
  err1 : List (ℝ × ℝ)
  err2 : List (ℝ × ℝ)
  opp : List ℝ
  fitting : List ℝ

/-- What the analysis computes for one column before the linked parameters: limits, starting value, peak
(fit_core.py 1031-1051) -/
noncomputable def columnStats (o : PeakFinder) (col : List ℝ) : Except PyErr ((ℝ × ℝ) × (ℝ × ℝ) × ℝ) :=
  match limits1 col with
  | .error e => .error e
  | .ok l1 =>
    match limits2 col with
    | .error e => .error e
    | .ok l2 =>
      match seedOf col with
      | .error e => .error e
      | .ok seed =>
        match kdePeak o col seed with
        | .error e => .error e
        | .ok p => .ok (l1, l2, p)

/-- `get_param_posterior_bestfits` (fit_core.py 1027-1113) for the columns of the chain; `nFree` is
`kinModel.n_free_param`.  The order of the exceptions of different columns is not that of the code. -/
noncomputable def paramPosterior (o : PeakFinder) (cols : List (List ℝ)) (linked : Option (List RawLink))
    (names : List String) (nFree : Nat) : Except PyErr FitResults :=
  match mapE (columnStats o) cols with
  | .error e => .error e
  | .ok st =>
    match mapE (RawLink.check st.length) (linked.getD []) with
    | .error e => .error e
    | .ok sets =>
      let post := posteriorOf (fun l start => o.joint (l.map fun i => cols.getD i.val []) start)
        (fun i => st[i].1) (fun i => st[i].2.1) (fun i => st[i].2.2)
        (match linked with | none => none | some _ => some sets)
      match mapE (fun bc : ℝ × List ℝ => percentOpp (.fin bc.1) (bc.2.map Fl.fin))
          ((List.ofFn post.best).zip cols) with
      | .error e => .error e
      | .ok opp =>
        .ok { names := names, best := List.ofFn post.best, err1 := List.ofFn post.err1
              err2 := List.ofFn post.err2, opp := opp, fitting := (List.ofFn post.best).take nFree }

/-! ## The fit object -/

/-- `Theta2DSettings` (kin_classes.py 308-320) without the LaTeX names -/
structure FitSettings where
  theta : List ℝ
  vary : List Bool
  names : List String
  bounds : Option (List (Option (Fl ℝ × Fl ℝ)))
  linked : Option (List RawLink)

/-- A prior object: the attributes `name` (`none`: no such attribute) and `theta_bounds`, and `log_prior` as a
function of `theta_bounds` and the fitting vector. -/
structure PriorObj where
  name : Option String
  bounds : Option (List (Option (Fl ℝ × Fl ℝ)))
  eval : Option (List (Option (Fl ℝ × Fl ℝ))) → List (Fl ℝ) → Except PyErr (Fl ℝ)

/-- value of the prior object at a fitting vector -/
def PriorObj.logp (p : PriorObj) (fit : List (Fl ℝ)) : Except PyErr (Fl ℝ) := p.eval p.bounds fit

/-- `ThetaPriorFlat.log_prior` (kin_classes.py 286-300) when `theta_bounds` is `None`: a TypeError at the first
varying parameter -/
noncomputable def priorNoBounds : Nat → List Bool → Except PyErr (Fl ℝ)
  | 0, _ => .ok 0
  | _ + 1, [] => .error .indexError
  | n + 1, false :: vs => priorNoBounds n vs
  | _ + 1, true :: _ => .error .typeError

/-- `ThetaPriorFlat(theta, theta_vary, theta_bounds)` (kin_classes.py 276-300) -/
noncomputable def PriorObj.flat (theta : List ℝ) (vary : List Bool) (bounds : Option (List (Option (Fl ℝ × Fl ℝ)))) :
    PriorObj :=
  ⟨some "ThetaPriorFlat", bounds, fun b fit =>
    match b with
    | none => priorNoBounds theta.length vary
    | some b => logPrior (theta.map Fl.fin) vary b fit⟩

/-- `flatchain` of a sampler dictionary -/
structure Chain where
  len : Nat
  cols : Cols len

/-- the kinematic model of a fit with its parameter names and its attribute `bestfit` (kin_model.py 71-94) -/
structure KinObj (r c : Nat) where
  m : KinModelState r c
  names : List String
  bestfit : Option (KinModelState r c)

/-- `FitEmissionLines2D` (fit2D.py 142-204): galaxy with instrument, `instrument_resolution`, `re_mass_arcsec`,
settings, kinematic profile, the option `absvalsigma`, prior, linked parameters, model, samples, results; `sampleFile`
says whether `filename_sampler` is set, `modelFile` whether `filename_bestfit_model` is, `pstamp` whether the galaxy
has the attribute `pstamp`. -/
structure Fit2D (r c : Nat) where
  input : KinInput r c
  resolution : Fl ℝ
  re : ℝ
  settings : Option FitSettings
  kinProfile : KinProfile
  absvalsigma : Bool
  prior : Option PriorObj
  linked : Option (List RawLink)
  kinModel : Option (KinObj r c)
  sampler : Option Chain
  results : Option FitResults
  sampleFile : Bool
  modelFile : Bool
  pstamp : Bool

/-- the pickled results object (fit_core.py 50-94, fit2D.py 405-431) -/
structure SavedFit (r c : Nat) where
  input : KinInput r c
  resolution : Fl ℝ
  re : ℝ
  settings : Option FitSettings
  kinProfile : KinProfile
  absvalsigma : Bool
  prior : Option PriorObj
  linked : Option (List RawLink)
  results : Option FitResults
  sampleFile : Bool
  modelFile : Bool
  pstamp : Bool

/-- the files a fit reads and writes -/
structure Disk (r c : Nat) where
  samples : Option Chain
  model : Option (SavedFit r c)

variable {r c : Nat}

/-- `make_model` of the fit (fit2D.py 330-333); the kinematic profile is one object shared with the model. -/
noncomputable def Fit2D.makeModel (s : Fit2D r c) (fit : List ℝ) : Fit2D r c × Except PyErr Unit :=
  match s.kinModel with
  | none => (s, .error .attributeError)
  | some k =>
    let res := k.m.make s.input fit
    ({ s with kinProfile := res.1.kin, kinModel := some { k with m := res.1 } }, res.2)

/-- `update_model` of the fit (fit2D.py 335-336) -/
noncomputable def Fit2D.updateModel (s : Fit2D r c) (fit : List ℝ) : Fit2D r c × Except PyErr Unit :=
  match s.kinModel with
  | none => (s, .error .attributeError)
  | some k =>
    let res := k.m.update fit
    ({ s with kinProfile := res.1.kin, kinModel := some { k with m := res.1 } }, res.2)

/-- The prior after the tests of `setup_model` (fit2D.py 353-360); without the attribute `name` an
AttributeError.  When the prior is created its bounds are those of the settings already. -/
noncomputable def setupPrior (prior : Option PriorObj) (t : FitSettings) : PriorObj × Except PyErr Unit :=
  let p := prior.getD (PriorObj.flat t.theta t.vary t.bounds)
  match p.name with
  | none => (p, .error .attributeError)
  | some n =>
    if n = "ThetaPriorFlat" ∧ t.bounds.isSome then ({ p with bounds := t.bounds }, .ok ())
    else (p, .ok ())

/-- `setup_model` (fit2D.py 338-373); the settings are copied, so the model does not write into them.  If
`update_theta` raises, what it has written into the profile is not represented. -/
noncomputable def Fit2D.setupModel (s : Fit2D r c) : Fit2D r c × Except PyErr Unit :=
  match s.settings with
  | none => (s, .error .attributeError)
  | some t =>
    match s.kinProfile.updateTheta t.theta with
    | .error e => (s, .error e)
    | .ok k =>
      let s := { s with
        kinProfile := k, kinModel := some ⟨KinModelState.init t.theta t.vary k false, t.names, none⟩ }
      match setupPrior s.prior t with
      | (p, .error e) => ({ s with prior := some p }, .error e)
      | (p, .ok ()) =>
        let s := { s with prior := some p }
        match initializeFittingTheta t.theta t.vary with
        | .error e => (s, .error e)
        | .ok fit0 => Fit2D.makeModel { s with linked := t.linked } fit0

/-- `set_bestfit` (fit2D.py 382-387) -/
noncomputable def Fit2D.setBestfit (s : Fit2D r c) (fit : List ℝ) : Fit2D r c × Except PyErr Unit :=
  match s.makeModel fit with
  | (s, .error e) => (s, .error e)
  | (s, .ok ()) => ({ s with kinModel := s.kinModel.map fun k => { k with bestfit := some k.m } }, .ok ())

/-- `get_chain_results` (fit2D.py 378-379, fit_core.py 920-1113); without samples a TypeError -/
noncomputable def Fit2D.chainResults (o : PeakFinder) (s : Fit2D r c) : Fit2D r c × Except PyErr FitResults :=
  match s.kinModel with
  | none => (s, .error .attributeError)
  | some k =>
    match s.sampler with
    | none => (s, .error .typeError)
    | some ch =>
      match addVRe22 { theta := k.m.params.theta.map Fl.fin, vary := k.m.params.vary, names := k.names
                       flatchain := ch.cols, absvalsigma := s.absvalsigma, re := s.re } with
      | .error e => (s, .error e)
      | .ok (out, names) =>
        let s := { s with sampler := some ⟨ch.len, out.flatchain⟩ }
        match mapE colValues out.flatchain with
        | .error e => (s, .error e)
        | .ok cols =>
          match paramPosterior o cols s.linked names k.m.params.nFree with
          | .error e => (s, .error e)
          | .ok res => ({ s with results := some res }, .ok res)

/-- `reload_sampler` (fit2D.py 433-436) as used by `analyze_results`; a missing file (FileNotFoundError) is
reported as a ValueError. -/
def Fit2D.reloadSampler (s : Fit2D r c) (d : Disk r c) : Fit2D r c × Except PyErr Unit :=
  if s.sampleFile then
    match d.samples with
    | none => (s, .error .valueError)
    | some ch => ({ s with sampler := some ch }, .ok ())
  else (s, .ok ())

/-- `analyze_results` (fit2D.py 312-322) -/
noncomputable def Fit2D.analyze (o : PeakFinder) (s : Fit2D r c) (d : Disk r c) :
    Fit2D r c × Except PyErr Unit :=
  match (if s.sampler.isNone then s.reloadSampler d else (s, .ok ())) with
  | (s, .error e) => (s, .error e)
  | (s, .ok ()) =>
    match s.chainResults o with
    | (s, .error e) => (s, .error e)
    | (s, .ok res) => s.setBestfit res.fitting

/-- `run_mcmc` (fit2D.py 375-376): `run` is the chain returned by the sampling of the object, which works on
copies (fit_core.py 832-905); the samples are written to the file if there is one (fit_core.py 480-482). -/
def Fit2D.runMcmc (run : Fit2D r c → Except PyErr Chain) (s : Fit2D r c) (d : Disk r c) :
    Fit2D r c × Disk r c × Except PyErr Unit :=
  match run s with
  | .error e => (s, d, .error e)
  | .ok ch => ({ s with sampler := some ch }, if s.sampleFile then { d with samples := some ch } else d, .ok ())

/-- `make_pruned_fitEmis2D_result_class`, `save_bestfit_model` (fit2D.py 389-431): the attribute `pstamp` of the
copied galaxy is deleted, an AttributeError if there is none. -/
def Fit2D.save (s : Fit2D r c) (d : Disk r c) : Disk r c × Except PyErr Unit :=
  if s.pstamp then
    (if s.modelFile then
      { d with model := some ⟨s.input, s.resolution, s.re, s.settings, s.kinProfile, s.absvalsigma, s.prior,
        s.linked, s.results, s.sampleFile, s.modelFile, false⟩ } else d, .ok ())
  else (d, .error .attributeError)

/-- `reload_bestfit_model` (fit2D.py 439-449); a missing file (FileNotFoundError) is reported as a ValueError. -/
def Fit2D.reloadBestfit (s : Fit2D r c) (d : Disk r c) : Fit2D r c × Except PyErr Unit :=
  if s.modelFile then
    match d.model with
    | none => (s, .error .valueError)
    | some f => ({ s with
        input := f.input, resolution := f.resolution, re := f.re, settings := f.settings
        kinProfile := f.kinProfile, absvalsigma := f.absvalsigma, prior := f.prior, linked := f.linked
        results := f.results, sampleFile := f.sampleFile, modelFile := f.modelFile, pstamp := f.pstamp }, .ok ())
  else (s, .ok ())

/-- `fit(**kwargs)` (fit2D.py 259-281) with the keyword `thetaSettings` (`none`: not given) up to the plots -/
noncomputable def Fit2D.fit (o : PeakFinder) (run : Fit2D r c → Except PyErr Chain) (new : Option FitSettings)
    (s : Fit2D r c) (d : Disk r c) : Fit2D r c × Disk r c × Except PyErr Unit :=
  let s := match new with | none => s | some t => { s with settings := some t }
  if Fl.ltB s.resolution 0 then (s, d, .error .valueError)
  else
    match s.setupModel with
    | (s, .error e) => (s, d, .error e)
    | (s, .ok ()) =>
      match s.runMcmc run d with
      | (s, d, .error e) => (s, d, .error e)
      | (s, d, .ok ()) =>
        match s.analyze o d with
        | (s, .error e) => (s, d, .error e)
        | (s, .ok ()) => (s, (s.save d).1, (s.save d).2)

/-- `reload_results` (fit2D.py 287-309) without resaving and plots -/
noncomputable def Fit2D.reloadResults (o : PeakFinder) (s : Fit2D r c) (d : Disk r c) :
    Fit2D r c × Except PyErr Unit :=
  match (if s.kinModel.isNone then s.setupModel else (s, .ok ())) with
  | (s, .error e) => (s, .error e)
  | (s, .ok ()) => s.analyze o d

/-- A call on the fit object. -/
inductive FitCall (r c : Nat)
  | setup
  | make (fit : List ℝ)
  | update (fit : List ℝ)
  | setBest (fit : List ℝ)
  | fit (run : Fit2D r c → Except PyErr Chain)
  | analyze
  | reload
  | save

/-- one call, exceptions caught by the caller -/
noncomputable def FitCall.step (o : PeakFinder) (x : Fit2D r c × Disk r c) : FitCall r c → Fit2D r c × Disk r c
  | .setup => (x.1.setupModel.1, x.2)
  | .make f => ((x.1.makeModel f).1, x.2)
  | .update f => ((x.1.updateModel f).1, x.2)
  | .setBest f => ((x.1.setBestfit f).1, x.2)
  | .fit run => ((x.1.fit o run none x.2).1, (x.1.fit o run none x.2).2.1)
  | .analyze => ((x.1.analyze o x.2).1, x.2)
  | .reload => ((x.1.reloadResults o x.2).1, x.2)
  | .save => (x.1, (x.1.save x.2).1)

/-- a sequence of calls -/
noncomputable def Fit2D.runCalls (o : PeakFinder) (x : Fit2D r c × Disk r c) (calls : List (FitCall r c)) :
    Fit2D r c × Disk r c := calls.foldl (FitCall.step o) x

/-! ## Several fit objects -/

/-- The results objects of all fits of a Python session: `refs` is the results object of each fit, object 0 is the one
created with the default argument `mcmc_results = MCMCResults()` (fit2D.py 152, 190), `next` is the next new object. -/
structure FitWorld where
  refs : List Nat
  next : Nat
  heap : Nat → Option FitResults

/-- no fit yet -/
def FitWorld.start : FitWorld := ⟨[], 1, fun _ => none⟩

/-- creating a fit, with its own `MCMCResults()` or with the default one; an analysis of fit `i` that ends with
the given results -/
inductive WorldOp
  | create (own : Bool)
  | analyze (i : Nat) (res : FitResults)

/-- fit2D.py 152, 190 (creation), fit_core.py 1054-1111 (the analysis writes into the results object) -/
def FitWorld.step (w : FitWorld) : WorldOp → FitWorld
  | .create true => { w with refs := w.refs ++ [w.next], next := w.next + 1 }
  | .create false => { w with refs := w.refs ++ [0] }
  | .analyze i res =>
    match w.refs[i]? with
    | none => w
    | some p => { w with heap := Function.update w.heap p (some res) }

/-- a sequence of operations -/
def FitWorld.run (w : FitWorld) (ops : List WorldOp) : FitWorld := ops.foldl FitWorld.step w

/-- the attribute `mcmc_results` of fit `i` (`none`: nothing stored yet, or no such fit) -/
def FitWorld.results (w : FitWorld) (i : Nat) : Option FitResults := w.refs[i]?.bind w.heap

end Misfit
