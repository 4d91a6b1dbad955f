import Verif.Model.Num
import Verif.Model.Params
import Verif.Model.Lines

/-!
# Objects: attribute dictionaries, constructors, one-time preparation, shared defaults

Sources: the `setAttr` methods and constructors of `misfit/galaxy.py`, `misfit/instrument.py`,
`misfit/model/kin_classes.py`, `misfit/model/kin_model.py`,
`misfit/model/emission_lines_model.py`, and `ObsSpectrum2D.fit_prep_calcs`.
-/

namespace Misfit

/-- A Python dict (`__dict__`, `kwargs`): pairs in insertion order. -/
abbrev Dict (V : Type) := List (String × V)

/-- `d.get(k)`, `none` when the key is absent. -/
def Dict.get {V : Type} : Dict V → String → Option V
  | [], _ => none
  | (k', v) :: rest, k => if k' = k then some v else Dict.get rest k

/-- The keys of a dict, in order. -/
def Dict.keys {V : Type} (d : Dict V) : List String := d.map Prod.fst

/-- `d[k] = v` -/
def Dict.set {V : Type} : Dict V → String → V → Dict V
  | [], k, v => [(k, v)]
  | (k', v') :: rest, k, v => if k' = k then (k', v) :: rest else (k', v') :: Dict.set rest k v

/-- `d.update(pairs)` -/
def Dict.update {V : Type} (d pairs : Dict V) : Dict V :=
  pairs.foldl (fun acc p => acc.set p.1 p.2) d

/-- `setAttr` as defined in galaxy.py 55-57, 291-293, instrument.py 29-32, 100-103,
kin_model.py 47-49, kin_classes.py 25-27, 43-45, 113-115, 168-170, 214-216, 322-324,
fit_core.py 92-94, 123-125, fit2D.py 209-211, aper_model.py 43-45, 560-562:
`self.__dict__.update(dict([(key, kwargs.get(key)) for key in kwargs if key in self.__dict__]))` -/
def setAttr {V : Type} (kw d : Dict V) : Dict V :=
  d.update (kw.keys.filterMap fun k =>
    if k ∈ d.keys then (kw.get k).map fun v => (k, v) else none)

/-- `setAttr` of the 1D line models (emission_lines_model.py 85-87, 223-225), first line:
`self.__dict__.update(kwargs)`, no filter. -/
def setAttrAll {V : Type} (kw d : Dict V) : Dict V := d.update kw

/-! ## Constructors -/

/-- The statements of a constructor, including those of the parent constructors it calls:
`self.k = v`, `self.k = k` for a named parameter with a default, and
`self.setAttr(**kwargs)` where `named` are the keywords already bound to named parameters
(which are therefore not in `kwargs`). -/
inductive CtorStep (V : Type)
  | assign (k : String) (v : V)
  | param (k : String) (dflt : V)
  | update (named : List String)

/-- One statement of a constructor called with keywords `kw`. -/
def CtorStep.run {V : Type} (kw : Dict V) (d : Dict V) : CtorStep V → Dict V
  | .assign k v => d.set k v
  | .param k dflt => d.set k ((kw.get k).getD dflt)
  | .update named => setAttr (kw.filter fun p => decide (p.1 ∉ named)) d

/-- The constructed object. -/
def construct {V : Type} (steps : List (CtorStep V)) (kw : Dict V) : Dict V :=
  steps.foldl (fun d s => s.run kw d) []

/-- Attribute values, as far as they are needed here. -/
inductive PyVal
  | none
  | bool (b : Bool)
  | str (s : String)
  | num (q : ℚ)
  | nums (l : List ℚ)
  | names (l : List String)
  | obj (id : Nat)
  deriving DecidableEq, Repr

/-- `VelArctanProfile(**kwargs)` (kin_classes.py 20-23, 62-67) -/
def velArctanCtor : List (CtorStep PyVal) :=
  [.assign "theta" .none, .assign "name" .none, .update [],
   .assign "theta" (.nums [0, 0]), .assign "name" (.str "VelArctanProfile")]

/-- `DispConstProfile(**kwargs)` (kin_classes.py 38-41, 86-91) -/
def dispConstCtor : List (CtorStep PyVal) :=
  [.assign "theta" .none, .assign "name" .none, .update [],
   .assign "theta" (.nums [0]), .assign "name" (.str "DispConstProfile")]

/-- The named parameters of `KinProfile.__init__` (kin_classes.py 98-99) -/
def kinProfileNamed : List String :=
  ["theta", "name", "theta_names", "theta_names_nice", "velProfile", "dispProfile"]

/-- `KinProfileFiducial(**kwargs)` (kin_classes.py 98-111, 149-158); `v`, `d` are the fresh
profile objects. The parameter counts set by `setup_profiles` are not attributes of this object. -/
def kinProfileFiducialCtor (v d : Nat) : List (CtorStep PyVal) :=
  (kinProfileNamed.map fun k => CtorStep.param k .none) ++
  [.update kinProfileNamed, .assign "name" (.str "VelArctanDispConstProfile"),
   .assign "velProfile" (.obj v), .assign "dispProfile" (.obj d), .update []]

/-- The named parameters of `Theta2DSettings.__init__` (kin_classes.py 308-310) -/
def thetaNamed : List String :=
  ["theta", "theta_vary", "theta_names", "theta_names_nice", "theta_bounds",
   "theta_linked_posteriors"]

/-- `Theta2DSettingsFiducial(usetex=…, **kwargs)` (kin_classes.py 308-320, 338-350), vary mask and
nice names abbreviated to objects. -/
def thetaFiducialCtor (vary nice : Nat) : List (CtorStep PyVal) :=
  (thetaNamed.map fun k => CtorStep.param k .none) ++
  [.update ("usetex" :: thetaNamed), .assign "theta" (.nums [0, 0, 0, 0, 0]),
   .assign "theta_vary" (.obj vary),
   .assign "theta_names" (.names ["V_a", "r_t", "sigma0", "m0_shift", "z"]),
   .assign "theta_names_nice" (.obj nice), .update ["usetex"]]

/-- `IntProfileSersic(galaxy, **kwargs)` (kin_classes.py 205-224, 231-237) for a galaxy with
Sersic index `n`, radius `re` and thickness `q0` -/
def intSersicCtor (n re q0 : PyVal) : List (CtorStep PyVal) :=
  [.param "n" .none, .param "re_arcsec" .none, .update ["n", "re_arcsec"],
   .assign "n" n, .assign "re_arcsec" re, .assign "q0" q0, .assign "Ie" (.num 1), .update [],
   .assign "n" n, .assign "re_arcsec" re, .assign "q0" q0]

/-- `PSFMoffat(PSF_beta=2.5, **kwargs)` (instrument.py 20-27, 55-61) -/
def psfMoffatCtor : List (CtorStep PyVal) :=
  [.assign "PSF_type" (.str "plain"), .assign "PSF_FWHM" .none,
   .assign "yspace_dither_arc" .none, .assign "_conv_stamp" .none, .update ["PSF_beta"],
   .assign "PSF_type" (.str "Moffat"), .param "PSF_beta" (.num 2.5), .update ["PSF_beta"]]

/-- The part of `FitEmissionLines1D(**kwargs)` concerning the galaxy and the redshift
(fit1D.py 120-156): defaults, filtered update, `self.z = self.galaxy.z`. -/
def fit1DCtor (galaxyZ : PyVal) : List (CtorStep PyVal) :=
  [.assign "galaxy" .none, .assign "z" .none, .assign "vel_disp" .none, .update [],
   .assign "z" galaxyZ]

/-! ## Options of a 2D model -/

/-- The options stored by `KinModel2D.__init__` (kin_model.py 63-98): its own two named options
and the options object. -/
structure ModelOptions where
  ownShift : Bool
  ownRes : Bool
  optShift : Bool
  optRes : Bool
  deriving DecidableEq

/-- The two options `make_model` hands to the aperture model (kin_model.py 177-178). -/
def ModelOptions.used (o : ModelOptions) : Bool × Bool := (o.optShift, o.optRes)

/-! ## One-time preparation -/

/-- State seen by `fit_prep_calcs`: the attributes of the spectrum, the galaxy (any type),
and whether `galaxy.spec2D` is this spectrum. -/
structure PrepState (γ : Type) where
  attrs : Dict PyVal
  gal : γ
  linked : Bool
  deriving DecidableEq

/-- Truth value of an attribute (only booleans and None occur for the flag; a number is tested
against zero, a list for emptiness). -/
def PyVal.truthy : PyVal → Bool
  | .none => false
  | .bool b => b
  | .str s => s != ""
  | .num q => decide (q ≠ 0)
  | .nums l => !l.isEmpty
  | .names l => !l.isEmpty
  | .obj _ => true

/-- `ObsSpectrum2D.fit_prep_calcs` (galaxy.py 737-804).  `steps` are the calculations
between lines 746 and 798, an arbitrary state change that may raise (the state is then left
as it is at that point and the flag is not set). -/
def fitPrep {γ : Type} (steps : PrepState γ → PrepState γ × Option PyErr) (kw : Dict PyVal)
    (s : PrepState γ) : PrepState γ × Option PyErr :=
  let s1 := { s with attrs := setAttr kw s.attrs }
  match s1.attrs.get "prepared_for_fitting" with
  | none => (s1, some .attributeError)
  | some v =>
      if v.truthy then ({ s1 with linked := true }, none)
      else
        match steps s1 with
        | (s2, some e) => (s2, some e)
        | (s2, none) =>
            ({ s2 with attrs := s2.attrs.set "prepared_for_fitting" (.bool true), linked := true },
              none)

/-- Repeated calls, one keyword dict per call, stopping at an exception. -/
def fitPrepRun {γ : Type} (steps : PrepState γ → PrepState γ × Option PyErr) :
    List (Dict PyVal) → PrepState γ → PrepState γ × Option PyErr
  | [], s => (s, none)
  | kw :: kws, s =>
      match fitPrep steps kw s with
      | (s', some e) => (s', some e)
      | (s', none) => fitPrepRun steps kws s'

/-- The line names step of the preparation on the attribute dictionary
(galaxy.py 816-829 with the shipped table). -/
def linesetNamesStep {γ : Type} (s : PrepState γ) : PrepState γ × Option PyErr :=
  match s.attrs.get "linenames_arr", s.attrs.get "linegroup_name" with
  | some .none, some (.str g) =>
      match readLineNames (some g) with
      | .ok ns => ({ s with attrs := s.attrs.set "linenames_arr" (.names ns) }, none)
      | .error e => (s, some e)
  | some .none, _ => (s, some .valueError)
  | some _, _ => (s, none)
  | none, _ => (s, some .attributeError)

/-! ## 1D line model objects -/

/-- `EmissionLines1DModel.setAttr` (emission_lines_model.py 223-244) on the line attributes, after
the unfiltered update: when wavelengths *or* ratios are missing, both are read. -/
def setLines1D (name : Option String) (s : LineSet) : Except PyErr LineSet :=
  match (match s.names with
    | some ns => Except.ok ns
    | none => readLineNames name) with
  | .error e => .error e
  | .ok ns =>
      match s.waves, s.ratios with
      | some w, some r => .ok ⟨some ns, some w, some r⟩
      | _, _ =>
          match readAll readRestwave ns with
          | .error e => .error e
          | .ok w =>
              match readAll readLineRatio ns with
              | .error e => .error e
              | .ok r => .ok ⟨some ns, some w, some r⟩

/-! ## Shared default objects -/

variable {α β : Type}

/-- The mutable objects several models may refer to: parameter arrays and intensity profiles
(`β`: the galaxy parameters n, re, q0 they hold). Default arguments of a Python constructor are
evaluated once, so all models built with defaults refer to the same objects. -/
structure Heap (α β : Type) where
  theta : Nat → List α
  int : Nat → β

/-- The references of a `KinModel2D` (kin_model.py 71-84). -/
structure ModelObj where
  thetaRef : Nat
  vary : List Bool
  intRef : Nat

/-- `KinModel2D.__init__` (kin_model.py 63-102): the references are stored, the intensity profile
takes the values of the galaxy.  The kinematic profile is not modelled here, it is
overwritten from `theta` before every use (kin_model.py 166, aper_model.py 635). -/
def newModel (h : Heap α β) (gal : β) (m : ModelObj) : Heap α β :=
  { h with int := Function.update h.int m.intRef gal }

/-- `KinModel2D.update_parameters` (kin_model.py 126-135), after the length check of `make_model`:
writes into the referenced array. -/
def writeParams (h : Heap α β) (m : ModelObj) (fit : List α) : Heap α β :=
  if fit.length = m.vary.count true then
    let new := (updateParameters (h.theta m.thetaRef) m.vary fit).1
    { h with theta := Function.update h.theta m.thetaRef new }
  else h

/-- What the first `make_model` of a model passes on (kin_model.py 160-190): the parameter vector
and the values held by the intensity profile at that moment. -/
def modelInputs (h : Heap α β) (m : ModelObj) : List α × β := (h.theta m.thetaRef, h.int m.intRef)

/-- Something done to a model: its construction for a galaxy, or an update of its parameters. -/
inductive ModelOp (α β : Type)
  | new (gal : β) (m : ModelObj)
  | fit (m : ModelObj) (fit : List α)

/-- The model an operation is about. -/
def ModelOp.target : ModelOp α β → ModelObj
  | .new _ m => m
  | .fit m _ => m

/-- A sequence of operations. -/
def runOps (h : Heap α β) : List (ModelOp α β) → Heap α β
  | [] => h
  | .new g m :: ops => runOps (newModel h g m) ops
  | .fit m f :: ops => runOps (writeParams h m f) ops

end Misfit
