import Verif.Model.Fit2D
import Verif.Model.Sampler

/-!
# The reduced copy of a fit that the sampler evaluates

Source: `misfit/fit/fit_core.py` 100-136 (`FitEmissionLines2DBasic`), 150-183 (`lnlike`, `lnprob`), 218-227, 517-526,
832-903 (`make_pruned_fitEmis2D_class`); attributes of `GalaxyBasic` and `ObsSpectrum2DBasic` in
`misfit/galaxy.py` 33-66, 278-293, 435-451, 584-599; what an evaluation reads in
`misfit/model/kin_model.py` 63-123, 160-208, 333-350, `misfit/model/kin_classes.py` 218-228, 259-261 and
`misfit/model/aper_model.py` 564-895.

Objects are tables of attributes with values of an arbitrary type.  Simplifications: the profile classes are those of the code,
so that deleting `theta_names`, `theta_names_nice` of the kinematic profile succeeds; an evaluation reads all the attributes it needs
before it computes, so that a missing attribute is reported first.
-/

namespace Misfit

/-- the attributes of an object, `none`: no such attribute -/
abbrev Attrs (V : Type*) := String → Option V

variable {V : Type*}

/-- reading an attribute, `obj.k` -/
def Attrs.get (a : Attrs V) (k : String) : Except PyErr V :=
  match a k with
  | none => .error .attributeError
  | some v => .ok v

/-- `del obj.k` -/
def Attrs.del (a : Attrs V) (k : String) : Except PyErr (Attrs V) :=
  match a k with
  | none => .error .attributeError
  | some _ => .ok fun x => if x = k then none else a x

/-- The loops `for key in ...: new.__dict__[key] = copy.deepcopy(old.__dict__[key])` (fit_core.py 861-867) on an object with
the attributes `keys`; a missing one is a KeyError. -/
def copyKeys (old : Attrs V) : List String → Except PyErr (Attrs V)
  | [] => .ok fun _ => none
  | k :: ks =>
    match old k with
    | none => .error .keyError
    | some v =>
      match copyKeys old ks with
      | .error e => .error e
      | .ok new => .ok fun x => if x = k then some v else new x

/-- the attributes of `GalaxyBasic` (galaxy.py 35-51) other than `spec2D` -/
def galaxyKeys : List String :=
  ["z", "n", "re_arcsec", "q", "re_mass_arcsec", "q_mass", "q0", "delt_PA", "generate_model"]

/-- the attributes of `ObsSpectrum2DBasic` (galaxy.py 280-287, 438-441) -/
def basicSpecKeys : List String :=
  ["wave", "flux", "flux_err", "spec_mask", "units_wave", "units_flux", "spec_type", "band", "slit_PA"]

/-- the attributes added (fit_core.py 837-843; `wave` is there already) -/
def addedSpecKeys : List String :=
  ["flux_ratio_arr", "lam0", "m0", "wh_nosky", "restwave_arr", "fitting_weight_matrix"]

/-- the attributes deleted (fit_core.py 846-849) -/
def deletedSpecKeys : List String := ["units_flux", "units_wave", "band", "slit_PA"]

/-- the attributes of the spectrum of the copy -/
def specKeys : List String := (basicSpecKeys ++ addedSpecKeys).filter fun k => !(deletedSpecKeys.contains k)

/-- the copied instrument without name and band (fit_core.py 853-855) -/
def pruneInstrument (a : Attrs V) : Except PyErr (Attrs V) :=
  match a.del "instrument_name" with
  | .error e => .error e
  | .ok a => a.del "band"

/-- Galaxy, 2D spectrum and instrument of a fit; `spec2D = none` is `None`. -/
structure FitAttrs (V : Type*) where
  galaxy : Attrs V
  spec2D : Option (Attrs V)
  instrument : Attrs V

/-- What attribute values mean: the truth value of `generate_model`, and what galaxy, spectrum and instrument
with certain values are for the model (together with the profiles and options of the fit, which are copied as a whole). -/
structure Meaning (V : Type*) (r c : Nat) where
  truth : V → Bool
  input : List V → KinInput r c

variable {r c : Nat}

/-- The attributes of the galaxy an evaluation reads (kin_classes.py 218-228, aper_model.py 657-660, 735) -/
def galaxyReads : List String := ["n", "re_arcsec", "q0", "q", "generate_model", "delt_PA"]

/-- The attributes of the 2D spectrum it reads (aper_model.py 660-663, 716-719, 739, 825-826; kin_model.py 144-148, 337-342) -/
def specReads (generate : Bool) : List String :=
  (if generate then "shape" else "flux") ::
    ["m0", "restwave_arr", "wave", "flux_ratio_arr", "wh_nosky", "flux", "flux_err", "spec_mask", "fitting_weight_matrix"]

/-- The attributes of the instrument it reads (aper_model.py 603-620, 667-691, 801-813, 838, 844, 871, 877-879) -/
def instrumentReads : List String := ["pixscale", "slit_width", "PSF", "slit_mask", "instrument_resolution"]

/-- Galaxy, spectrum and instrument as an evaluation sees them.  Reading an attribute of `None` is an AttributeError. -/
def FitAttrs.read (w : Meaning V r c) (a : FitAttrs V) : Except PyErr (KinInput r c) :=
  match a.spec2D with
  | none => .error .attributeError
  | some sp =>
    match a.galaxy.get "generate_model" with
    | .error e => .error e
    | .ok gen =>
      match mapE a.galaxy.get galaxyReads, mapE sp.get (specReads (w.truth gen)), mapE a.instrument.get instrumentReads with
      | .ok g, .ok s, .ok i => .ok (w.input (g ++ s ++ i))
      | _, _, _ => .error .attributeError

/-- the attributes of `KinModel2D` (kin_model.py 71-102, 119) -/
def kinModelKeys : List String :=
  ["theta", "theta_vary", "theta_names", "theta_names_nice", "theta_init", "kinProfile", "intensityProfile", "spec_type",
    "do_position_wave_shift", "do_inst_res_conv_effective", "no_scale", "kinModelOptions", "model", "bestfit", "aperModel",
    "debug", "n_free_param"]

/-- the attributes deleted from the model of the copy (fit_core.py 896-901) -/
def deletedKinModelKeys : List String :=
  ["kinModelOptions", "kinProfile", "intensityProfile", "bestfit", "theta_names_nice", "theta_names", "theta_init",
    "do_position_wave_shift"]

/-- the attributes left -/
def prunedKinKeys : List String := kinModelKeys.filter fun x => !(deletedKinModelKeys.contains x)

/-- the attributes `update_model` and `model_llike` read (kin_model.py 129-135, 142-157, 192-208, 295, 335-342) -/
def updateReads : List String := ["n_free_param", "theta", "theta_vary", "aperModel", "no_scale", "model"]

/-- the attributes `make_model` reads besides (kin_model.py 138, 166-183) -/
def makeReads : List String := "kinProfile" :: updateReads

/-- The reduced copy: galaxy, spectrum and instrument, the model, the attributes the model still has,
the prior, which has no name any more. -/
structure PrunedFit (V : Type*) (r c : Nat) where
  attrs : FitAttrs V
  kin : KinModelState r c
  kinKeys : List String
  prior : PriorObj

/-- Galaxy, spectrum and instrument of the copy (fit_core.py 833-867) -/
def FitAttrs.prune (a : FitAttrs V) : Except PyErr (FitAttrs V) :=
  match pruneInstrument a.instrument with
  | .error e => .error e
  | .ok inst =>
    match copyKeys a.galaxy galaxyKeys with
    | .error e => .error e
    | .ok gal =>
      match a.spec2D with
      | none => .error .attributeError
      | some sp =>
        match copyKeys sp specKeys with
        | .error e => .error e
        | .ok sp' => .ok ⟨gal, some sp', inst⟩

/-- the prior of the copy: `del thetaPrior.name` (fit_core.py 894), an AttributeError for `None` -/
def prunePrior : Option PriorObj → Except PyErr PriorObj
  | none => .error .attributeError
  | some p =>
    match p.name with
    | none => .error .attributeError
    | some _ => .ok { p with name := none }

/-- `make_pruned_fitEmis2D_class` (fit_core.py 832-904) of the fit `s` whose galaxy, spectrum and instrument have the
attributes `a` -/
noncomputable def Fit2D.prune (w : Meaning V r c) (s : Fit2D r c) (a : FitAttrs V) : Except PyErr (PrunedFit V r c) :=
  match a.prune with
  | .error e => .error e
  | .ok a' =>
    match s.settings with
    | none => .error .attributeError
    | some t =>
      match s.kinProfile.updateTheta t.theta with
      | .error e => .error e
      | .ok k =>
        match initializeFittingTheta t.theta t.vary with
        | .error e => .error e
        | .ok f0 =>
          match a'.read w with
          | .error e => .error e
          | .ok g =>
            match (KinModelState.init t.theta t.vary k false).make g f0 with
            | (_, .error e) => .error e
            | (m, .ok ()) =>
              match prunePrior s.prior with
              | .error e => .error e
              | .ok p => .ok ⟨a', m, prunedKinKeys, p⟩

/-- `lnprob(theta_fitting, obj)` (fit_core.py 150-183) for an object with prior and model; sampler positions are finite numbers. -/
noncomputable def objLnprob (p : PriorObj) (m : KinModelState r c) (fit : List ℝ) :
    KinModelState r c × Except PyErr (Fl ℝ) :=
  Misfit.lnprob p.logp (fun m f => m.lnlike (f.map Fl.finVal)) m (fit.map Fl.fin)

/-- `lnprob` of the fit itself; without prior or model reading an attribute of `None` -/
noncomputable def Fit2D.lnprob (s : Fit2D r c) (fit : List ℝ) : Fit2D r c × Except PyErr (Fl ℝ) :=
  match s.prior, s.kinModel with
  | some p, some k =>
    let res := objLnprob p k.m fit
    ({ s with kinProfile := res.1.kin, kinModel := some { k with m := res.1 } }, res.2)
  | _, _ => (s, .error .attributeError)

/-- `lnprob` of the copy: an AttributeError if the model lacks an attribute that is read once the prior is finite. -/
noncomputable def PrunedFit.lnprob (x : PrunedFit V r c) (fit : List ℝ) : PrunedFit V r c × Except PyErr (Fl ℝ) :=
  let res := Misfit.lnprob x.prior.logp (fun (m : KinModelState r c) f =>
    if updateReads.all x.kinKeys.contains then m.lnlike (f.map Fl.finVal) else (m, .error .attributeError)) x.kin
      (fit.map Fl.fin)
  ({ x with kin := res.1 }, res.2)

/-- `make_model` of the copy (fit_core.py 130-133): reads the kinematic profile of the model -/
noncomputable def PrunedFit.makeModel (x : PrunedFit V r c) (g : KinInput r c) (fit : List ℝ) :
    PrunedFit V r c × Except PyErr Unit :=
  if makeReads.all x.kinKeys.contains then
    let res := x.kin.make g fit
    ({ x with kin := res.1 }, res.2)
  else
    -- the length of the vector is tested and the parameters are stored before the profile is read
    match x.kin.params.update fit with
    | (p, some e) => ({ x with kin := { x.kin with params := p } }, .error e)
    | (p, none) => ({ x with kin := { x.kin with params := p } }, .error .attributeError)

/-- evaluations one after another -/
noncomputable def PrunedFit.evals (x : PrunedFit V r c) (fits : List (List ℝ)) : PrunedFit V r c :=
  fits.foldl (fun x fit => (x.lnprob fit).1) x

/-- evaluations of the fit itself -/
noncomputable def Fit2D.evals (s : Fit2D r c) (fits : List (List ℝ)) : Fit2D r c :=
  fits.foldl (fun s fit => (s.lnprob fit).1) s

/-! ## The number of processes -/

/-- The options after a run was started: the number of processes is stored in them (fit_core.py 218-221, 517-520). -/
def RunOpts.started {K : Type*} [Field K] [LinearOrder K] [FloorRing K] (o : RunOpts K) (cpuCount : Nat) : RunOpts K :=
  { o with nCPUs := some (o.cpus cpuCount) }

end Misfit
