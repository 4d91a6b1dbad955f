import Verif.Model.Objects
import Verif.Model.PSF

/-!
# Galaxies, spectra, postage stamps and instruments as objects

Sources: constructors of `misfit/galaxy.py` and `misfit/instrument.py`, `set_spectrum_1D`,
`set_spectrum_2D`, `load_basic_defaults`, `calculate_restwave`.

A constructor is the list of its statements, parent constructors included, in the order in which
they are executed (`CtorStep`).
-/

namespace Misfit

/-- `GalaxyBasic(**kwargs)` (galaxy.py 33-53) -/
def galaxyBasicCtor : List (CtorStep PyVal) :=
  [.assign "z" .none, .assign "n" .none, .assign "re_arcsec" .none, .assign "q" .none,
   .assign "re_mass_arcsec" .none, .assign "q_mass" .none, .assign "q0" (.num (19 / 100)),
   .assign "delt_PA" .none, .assign "generate_model" (.bool false), .assign "spec2D" .none,
   .update []]

/-- `Galaxy(**kwargs)` (galaxy.py 179-225) -/
def galaxyCtor : List (CtorStep PyVal) :=
  galaxyBasicCtor ++
  [.assign "field" .none, .assign "maskname" .none, .assign "ID" .none, .assign "RA" .none,
   .assign "DEC" .none, .assign "z" .none, .assign "Av" .none, .assign "lmass" .none,
   .assign "lage" .none, .assign "ltau" .none, .assign "lsfr" .none, .assign "Av_neb" .none,
   .assign "sersicRA" .none, .assign "sersicDEC" .none, .assign "n" .none,
   .assign "re_arcsec" .none, .assign "sersicPA" .none, .assign "q" .none,
   .assign "re_mass_arcsec" .none, .assign "q_mass" .none, .assign "q0" (.num (19 / 100)),
   .assign "delt_PA" .none, .assign "spec1D" .none, .assign "spec2D" .none,
   .assign "pstamp" .none, .assign "dither" (.bool true), .assign "debug" (.bool false),
   .update []]

/-- `Spectrum(**kwargs)` (galaxy.py 279-289) -/
def spectrumCtor : List (CtorStep PyVal) :=
  [.assign "wave" .none, .assign "flux" .none, .assign "flux_err" .none,
   .assign "spec_mask" .none, .assign "units_wave" (.str "angstroms"),
   .assign "units_flux" (.str "flam"), .assign "spec_type" (.str "wave"), .update []]

/-- `ObsSpectrum(**kwargs)` (galaxy.py 435-443) -/
def obsSpectrumCtor : List (CtorStep PyVal) :=
  spectrumCtor ++ [.assign "band" .none, .assign "slit_PA" .none, .update []]

/-- `ObsSpectrum1D(**kwargs)` (galaxy.py 494-507) -/
def obsSpectrum1DCtor : List (CtorStep PyVal) :=
  obsSpectrumCtor ++
  [.assign "extraction_method" (.str "optimal"), .assign "extraction_spatial_profile" .none,
   .assign "units_spatial" (.str "arcsec"), .assign "trim_obswave_range" .none,
   .assign "trim_restwave_range" .none, .assign "num_mask_edge" (.num 10), .update []]

/-- `ObsSpectrum2DBasic(**kwargs)` (galaxy.py 584-589) -/
def obsSpectrum2DBasicCtor : List (CtorStep PyVal) := obsSpectrumCtor ++ [.update []]

/-- `ObsSpectrum2D(**kwargs)` (galaxy.py 659-728) -/
def obsSpectrum2DCtor : List (CtorStep PyVal) :=
  obsSpectrum2DBasicCtor ++
  [.assign "dlam" .none, .assign "m0" .none, .assign "m_lims" .none, .assign "lam0" .none,
   .assign "ypos" .none, .assign "yoffset" (.num 0), .assign "y_width" .none,
   .assign "spec_weight" .none, .assign "spec_mask" .none, .assign "median_flux_error" .none,
   .assign "band_cutoff" .none, .assign "band_cutoff_units" (.str "timesMedianErr"),
   .assign "band_cutoff_param_filename" .none, .assign "wh_sky" .none, .assign "wh_nosky" .none,
   .assign "wh_sky_fit" .none, .assign "prepared_for_fitting" (.bool false),
   .assign "no_continuum_subtraction" (.bool false), .assign "row_snr_cut" (.num 2),
   .assign "low_snr_row_inds" .none, .assign "mask_qual" .none, .assign "mask_sky" .none,
   .assign "mask_low_snr" .none, .assign "weighting_type" (.str "up-edges"),
   .assign "fitting_weight_profile" .none, .assign "fitting_weight_matrix" .none,
   .assign "linegroup_name" .none, .assign "linenames_arr" .none, .assign "restwave_arr" .none,
   .assign "flux_ratio_arr" .none, .assign "trim_obswave_range" .none,
   .assign "trim_restwave_range" .none, .assign "wave_full_range_rest" .none,
   .assign "wave_line_range_rest" .none, .assign "mask_lines_wave_range_rest" .none,
   .assign "linenames_param_filename" .none, .assign "restwave_param_filename" .none,
   .assign "wave_full_range_rest_param_filename" .none,
   .assign "wave_line_range_rest_param_filename" .none,
   .assign "mask_lines_wave_range_rest_param_filename" .none, .update []]

/-- `Pstamp(**kwargs)` (galaxy.py 945-953) -/
def pstampCtor : List (CtorStep PyVal) :=
  [.assign "pstamp" .none, .assign "pstamp_hdr" .none, .assign "img_PA" .none, .update []]

/-- `PSFGaussian(**kwargs)` (instrument.py 20-27, 42-47) -/
def psfGaussianCtor : List (CtorStep PyVal) :=
  [.assign "PSF_type" (.str "plain"), .assign "PSF_FWHM" .none,
   .assign "yspace_dither_arc" .none, .assign "_conv_stamp" .none, .update [],
   .assign "PSF_type" (.str "Gaussian"), .update []]

/-- `KinModel2DOptions(**kwargs)` (kin_model.py 29-45) -/
def kinModelOptionsCtor : List (CtorStep PyVal) :=
  [.param "nSubpixels" (.num 2), .param "pad_factor" (.num (1 / 2)),
   .param "do_position_wave_shift" (.bool false),
   .param "do_inst_res_conv_effective" (.bool false), .param "absvalsigma" (.bool false),
   .param "adaptive_upsample_wave" (.bool true), .param "adaptive_upsample_factor" (.num 3),
   .param "sigma_floor" (.bool true),
   .update ["nSubpixels", "pad_factor", "do_position_wave_shift", "do_inst_res_conv_effective",
     "absvalsigma", "adaptive_upsample_wave", "adaptive_upsample_factor", "sigma_floor"]]

/-! ## Instruments -/

/-- Attributes of `Instrument` around the PSF object, and of `Spectrograph` (instrument.py 79-98,
113-127). `psf` is the number of the PSF object made by the constructor. `Imager` (instrument.py
134-138) adds nothing. -/
def instrumentCtor (psf : Nat) : List (CtorStep PyVal) :=
  [.assign "instrument_name" .none, .assign "band" .none, .assign "pixscale" .none,
   .assign "PSF" (.obj psf), .update []]

/-- `Spectrograph.__init__` (instrument.py 113-127) -/
def spectrographCtor (psf : Nat) : List (CtorStep PyVal) :=
  instrumentCtor psf ++
  [.assign "slit_width" .none, .assign "slit_length" .none,
   .assign "instrument_resolution" .none, .assign "conv_sigma" .none, .assign "slit_mask" .none,
   .update []]

/-- An instrument with the PSF object created for it. -/
structure InstrumentObj where
  attrs : Dict PyVal
  kind : PSFKind
  psf : Dict PyVal


/-- `Spectrograph(**kwargs)` with the choice of the PSF class (instrument.py 87-93). A missing
`PSF_type` is a KeyError; `None` and other values without `strip` an AttributeError. -/
def newSpectrograph (psf : Nat) (kw : Dict PyVal) : Except PyErr InstrumentObj :=
  match kw.get "PSF_type" with
  | none => .error .keyError
  | some (.str s) =>
    match psfKind (some s.toList) with
    | .error e => .error e
    | .ok .gaussian => .ok ⟨construct (spectrographCtor psf) kw, .gaussian, construct psfGaussianCtor kw⟩
    | .ok .moffat => .ok ⟨construct (spectrographCtor psf) kw, .moffat, construct psfMoffatCtor kw⟩
  | some _ => .error .attributeError

/-- `instrument.setAttr(**kwargs)` (instrument.py 100-103) -/
def InstrumentObj.set (i : InstrumentObj) (kw : Dict PyVal) : InstrumentObj :=
  { i with attrs := setAttr kw i.attrs }

/-! ## Attaching spectra -/

/-- An array of one or two dimensions (rows). -/
inductive NdArr (α : Type*)
  | vec (l : List α)
  | mat (rows : List (List α))
  deriving DecidableEq

/-- `np.ones(a.shape)` -/
def NdArr.onesLike {α β : Type*} [One β] : NdArr α → NdArr β
  | .vec l => .vec (l.map fun _ => 1)
  | .mat rows => .mat (rows.map fun r => r.map fun _ => 1)

/-- The attributes of a spectrum that attaching it to a galaxy reads or writes; `obswave`,
`restwave` are `none` while the attribute does not exist. -/
structure SpecObj (K : Type*) where
  wave : Option (List K)
  flux : Option (NdArr (Fl K))
  err : Option (NdArr (Fl K))
  mask : Option (NdArr (Fl K))
  specType : String
  obswave : Option (List K)
  restwave : Option (List (Fl K))

/-- Which class: `ObsSpectrum1D`, or `ObsSpectrum2D` (and `ObsSpectrum2DBasic`). -/
inductive SpecClass
  | oneD
  | twoD
  deriving DecidableEq

variable {K : Type*} [Field K] [LinearOrder K]

/-- `calculate_restwave` (galaxy.py 453-455) -/
def SpecObj.calcRest (s : SpecObj K) (w : List K) (z : K) : SpecObj K :=
  { s with obswave := some w, restwave := some (w.map fun x => Fl.fin x / Fl.fin (1 + z)) }

/-- first half of `load_basic_defaults` (galaxy.py 447-448, 513-514, 595-596) -/
def SpecObj.withRest (s : SpecObj K) (z : Option K) : SpecObj K :=
  match z, s.wave with
  | some z, some w => if s.specType = "wave" then s.calcRest w z else s
  | _, _ => s

/-- `load_basic_defaults(galaxy)` (galaxy.py 509-517 for 1D, 591-599 for 2D) without keywords, as
`set_spectrum_1D/2D` call it; the object keeps what was done before an exception. -/
def SpecObj.loadDefaults (cls : SpecClass) (s : SpecObj K) (z : Option K) :
    SpecObj K × Option PyErr :=
  let s := s.withRest z
  match s.mask with
  | some _ => (s, none)
  | none =>
    match cls with
    | .oneD =>
      match s.wave with
      | none => (s, some .typeError)
      | some w => ({ s with mask := some (.vec (w.map fun _ => 1)) }, none)
    | .twoD =>
      match s.flux with
      | none => (s, none)
      | some f => ({ s with mask := some f.onesLike }, none)

/-- Spectra live in memory and are referred to by galaxies. -/
structure GalObj (K : Type*) where
  z : Option K
  spec1D : Option Nat
  spec2D : Option Nat

/-- `galaxy.set_spectrum_1D(spec)`, `galaxy.set_spectrum_2D(spec)` (galaxy.py 62-66, 227-237): the
reference is stored first, then the object is completed in place. -/
def attach (cls : SpecClass) (mem : Nat → SpecObj K) (g : GalObj K) (ref : Nat) :
    (Nat → SpecObj K) × GalObj K × Option PyErr :=
  let g' := match cls with
    | .oneD => { g with spec1D := some ref }
    | .twoD => { g with spec2D := some ref }
  let r := (mem ref).loadDefaults cls g.z
  (Function.update mem ref r.1, g', r.2)

/-- `galaxy.setAttr(z=z)` or `galaxy.z = z` (galaxy.py 55-57) -/
def GalObj.setZ (g : GalObj K) (z : K) : GalObj K := { g with z := some z }

end Misfit
