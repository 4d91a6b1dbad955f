import Verif.Model.Masks
import Verif.Model.Posterior
import Verif.Model.Objects
import Mathlib.Analysis.SpecialFunctions.Exp
import Mathlib.Analysis.Real.Pi.Bounds
import Mathlib.Analysis.SpecialFunctions.Sqrt

/-!
# 1D line models and the 1D fit

Sources: `misfit/model/emission_lines_model.py`, `misfit/fit/fit1D.py`.
`lmfit.minimize` is an oracle; pickled matrices are inputs.
-/

namespace Misfit

/-- `c_kms` (emission_lines_model.py 23-24) -/
noncomputable def c1D : ℝ := 299792.458

/-- `scipy.stats.norm.pdf(x, mu, sig)`: NaN for a non-positive scale. -/
noncomputable def normPdf (x mu sig : ℝ) : Fl ℝ :=
  if 0 < sig then .fin (Real.exp (-((x - mu) / sig) ^ 2 / 2) / Real.sqrt (2 * Real.pi) / sig)
  else .nan

/-- `gaussian_line` (emission_lines_model.py 272-283).  `gaus.max()` of an empty array is a
ValueError. -/
noncomputable def gaussianLine (xs : List ℝ) (mu velSig flux : ℝ) : Except PyErr (List (Fl ℝ)) :=
  let sig := velSig / c1D * mu
  let gaus := xs.map fun x => normPdf x mu sig
  let scale : Fl ℝ := Fl.fin flux / Fl.fin (sig * Real.sqrt (2 * Real.pi))
  match npMax gaus with
  | none => .error .valueError
  | some mx => .ok (gaus.map fun g => g / mx * scale)

/-- Elementwise `profile += p` for arrays of equal length. -/
noncomputable def addArr (a b : List (Fl ℝ)) : List (Fl ℝ) := List.zipWith (· + ·) a b

/-- The loop of `EmissionLines1DModel.make1DProfile` (emission_lines_model.py 262-264) over the
lines, given as (rest wavelength, flux ratio). -/
noncomputable def addLines (xs : List ℝ) (z velDisp flux : ℝ) :
    List (ℝ × ℝ) → List (Fl ℝ) → Except PyErr (List (Fl ℝ))
  | [], prof => .ok prof
  | (w, r) :: lines, prof =>
      match gaussianLine xs (w * (1 + z)) velDisp (flux * r) with
      | .error e => .error e
      | .ok g => addLines xs z velDisp flux lines (addArr prof g)

/-- `EmissionLines1DModel.make1DProfile` (emission_lines_model.py 249-266) -/
noncomputable def lineProfile (xs : List ℝ) (z velDisp flux : ℝ) (lines : List (ℝ × ℝ)) :
    Except PyErr (List (Fl ℝ)) :=
  addLines xs z velDisp flux lines (xs.map fun _ => .fin 0)

/-- First loop of `EmissionLinesSpectrum1DModel.make1DProfile` (emission_lines_model.py 119-122)
over the line sets with their fluxes. -/
noncomputable def addSets (xs : List ℝ) (z velDisp : ℝ) :
    List (ℝ × List (ℝ × ℝ)) → List (Fl ℝ) → Except PyErr (List (Fl ℝ))
  | [], prof => .ok prof
  | (flux, lines) :: sets, prof =>
      match lineProfile xs z velDisp flux lines with
      | .error e => .error e
      | .ok g => addSets xs z velDisp sets (addArr prof g)

/-- Second loop (emission_lines_model.py 126-127): continuum terms, coefficients in 1e-18. -/
noncomputable def addCont (xs : List ℝ) : Nat → List ℝ → List (Fl ℝ) → List (Fl ℝ)
  | _, [], prof => prof
  | i, c :: cs, prof =>
      addCont xs (i + 1) cs (addArr prof (xs.map fun x => .fin (c * 1e-18 * x ^ i)))

/-- `EmissionLinesSpectrum1DModel.make1DProfile` (emission_lines_model.py 94-131) -/
noncomputable def spectrumProfile (xs : List ℝ) (z velDisp : ℝ) (sets : List (ℝ × List (ℝ × ℝ)))
    (cont : List ℝ) : Except PyErr (List (Fl ℝ)) :=
  match addSets xs z velDisp sets (xs.map fun _ => .fin 0) with
  | .error e => .error e
  | .ok prof => .ok (addCont xs 0 cont prof)

/-- One pixel of the spectrum to be fitted. -/
structure Pix where
  wave : ℝ
  data : Fl ℝ
  err : Fl ℝ
  mask : ℝ

/-- Non-finite values replaced by zero (emission_lines_model.py 141). -/
noncomputable def zeroBad (a : Fl ℝ) : Fl ℝ := if a.isFinite then a else .fin 0

/-- `residual1DProfile` (emission_lines_model.py 134-143) -/
noncomputable def residual1D (z velDisp : ℝ) (sets : List (ℝ × List (ℝ × ℝ))) (cont : List ℝ)
    (pix : List Pix) : Except PyErr (List (Fl ℝ)) :=
  let good := pix.filter fun p => decide (p.mask = 1)
  match spectrumProfile (good.map Pix.wave) z velDisp sets cont with
  | .error e => .error e
  | .ok model => .ok (List.zipWith (fun m p => zeroBad ((m - p.data) / p.err)) model good)

/-! ## The fit -/

section Fit
variable {K : Type} [Field K] [LinearOrder K]

/-- The values of a minimisation result. -/
structure Fit1DResult (K : Type) where
  z : K
  velDisp : K
  flux : List K
  cont : List K

/-- The choice of the second minimisation (fit1D.py 310-324): bounds on dispersion and fluxes. -/
def refitBounds (r : Fit1DResult K) (f0 : K) : Option (Bool × Bool) :=
  if r.velDisp < 0 ∧ f0 < 0 then some (true, true)
  else if r.velDisp < 0 then some (true, false)
  else if f0 < 0 then some (false, true)
  else none

/-- The result after the second minimisation, if there is one (fit1D.py 304-324); `f0` is the first
flux of the first minimisation. -/
def refit (minimize : Bool → Bool → Fit1DResult K) (f0 : K) : Fit1DResult K :=
  match refitBounds (minimize false false) f0 with
  | none => minimize false false
  | some (b1, b2) => minimize b1 b2

/-- Arguments of `FitEmissionLines1D.fit` (fit1D.py 231-234); a file name is present or not. -/
structure Fit1DArgs where
  reloadErrors : Bool := false
  noErrors : Bool := false
  noPlot : Bool := false
  plotFile : Bool := false
  errFile : Bool := false
  /-- `galaxy.ID` is a number (it is printed with `{:d}`, fit1D.py 372) -/
  hasID : Bool := true

/-- What `fit` has stored when it ends: the result and, if reached, the errors of redshift,
dispersion, fluxes and continuum as (lower, upper) pairs. -/
structure Fit1DState (K : Type) where
  result : Option (Fit1DResult K)
  errors : Option (List (K × K))

/-- `np.percentile(value_matrix, [15.865, 84.135], axis=0).T` (fit1D.py 498), column by column -/
def mcLimits [FloorRing K] : List (List K) → Except PyErr (List (K × K))
  | [] => .ok []
  | col :: cols =>
      match limits1 col with
      | .error e => .error e
      | .ok l =>
        match mcLimits cols with
        | .error e => .error e
        | .ok ls => .ok (l :: ls)

/-- Lower and upper errors from the columns of the matrix of fitted values
(fit1D.py 497-500): values minus/plus the percentile limits.  A matrix with one column is
broadcast, any other number of columns than of values is a ValueError. -/
def mcErrors [FloorRing K] (vals : List K) (cols : List (List K)) :
    Except PyErr (List (K × K)) :=
  match mcLimits cols with
  | .error e => .error e
  | .ok lims =>
    if lims.length = vals.length then
      .ok (List.zipWith (fun v (l : K × K) => (v - l.1, l.2 - v)) vals lims)
    else
      match lims with
      | [l] => .ok (vals.map fun v => (v - l.1, l.2 - v))
      | _ => .error .valueError

/-- `FitEmissionLines1D.fit` (fit1D.py 231-585).  `res` is the instrument resolution (`none`:
None, which Python 3 cannot compare), `nNames` the number of line sets, `minimize` the
fitting routine for given bounds, `cols` the columns of the matrix of Monte Carlo values (computed,
or loaded, which may fail). Of plotting only the check of the file name is here; the figure is in `fit1DPlot` (Model/Plot1D). -/
def fit1D [FloorRing K] (res : Option K) (minimize : Bool → Bool → Fit1DResult K)
    (cols : Except PyErr (List (List K))) (a : Fit1DArgs) (s : Fit1DState K) :
    Fit1DState K × Option PyErr :=
  match res with
  | none => (s, some .typeError)
  | some res =>
    if res < 0 then (s, some .valueError)
    else
      let r0 := minimize false false
      match r0.flux[0]? with
      | none => (s, some .keyError)
      | some f0 =>
        let r := refit minimize f0
        let s1 : Fit1DState K := { s with result := some r }
        if !a.hasID then (s1, some .typeError)
        else if !a.noPlot && !a.plotFile then (s1, some .valueError)
        else if !a.noErrors then
          if !a.errFile then (s1, some .valueError)
          else
            match cols with
            | .error e => (s1, some e)
            | .ok cols =>
              match mcErrors ([r.z, r.velDisp] ++ r.flux ++ r.cont) cols with
              | .error e => (s1, some e)
              | .ok es => ({ s1 with errors := some es }, some .valueError)
        else
          ({ s1 with errors := some ((r.z :: r.velDisp :: (r.flux ++ r.cont)).map fun _ => (0, 0)) },
            none)

end Fit

/-! ## Instrument corrected dispersion -/

/-- The correction (fit1D.py 601-604) -/
noncomputable def instCorr (velDisp res : ℝ) : ℝ :=
  if |velDisp| > |res| then Real.sqrt (velDisp ^ 2 - res ^ 2) else 0

/-- The correction of the Monte Carlo values (fit1D.py 617-620): a negative radicand is NaN in
numpy and replaced by zero. -/
noncomputable def instCorrMC (res : ℝ) (v : ℝ) : ℝ :=
  if 0 ≤ v ^ 2 - res ^ 2 then Real.sqrt (v ^ 2 - res ^ 2) else 0

/-- What `calculate_inst_corr_vel_disp` stores. -/
structure InstCorr where
  value : Option ℝ
  err : Option (ℝ × ℝ)

/-- `calculate_inst_corr_vel_disp` (fit1D.py 589-637): `res` is the resolution of the instrument
object, `specRes` an attribute of that name on the 1D spectrum (missing unless created by
hand), `mc` the saved dispersions. -/
noncomputable def calcInstCorr (velDisp : ℝ) (res specRes : Option ℝ) (noErrors errFile : Bool)
    (mc : List ℝ) (s : InstCorr) : InstCorr × Option PyErr :=
  match res with
  | none => (s, none)
  | some r =>
    let c := instCorr velDisp r
    let s1 : InstCorr := { s with value := some c }
    if noErrors then ({ s1 with err := some (0, 0) }, none)
    else if !errFile then (s1, some .valueError)
    else
      match specRes with
      | none => (s1, some .attributeError)
      | some r' =>
        match limits1 (mc.map (instCorrMC r')) with
        | .error e => (s1, some e)
        | .ok (lo, hi) => ({ s1 with err := some (c - lo, hi - c) }, none)

/-- `ObsSpectrum1D(**kwargs)` (galaxy.py 278-289, 433-443, 493-507) -/
def spectrum1DCtor : List (CtorStep PyVal) :=
  [.assign "wave" .none, .assign "flux" .none, .assign "flux_err" .none, .assign "spec_mask" .none,
   .assign "units_wave" (.str "angstroms"), .assign "units_flux" (.str "flam"),
   .assign "spec_type" (.str "wave"), .update [],
   .assign "band" .none, .assign "slit_PA" .none, .update [],
   .assign "extraction_method" (.str "optimal"), .assign "extraction_spatial_profile" .none,
   .assign "units_spatial" (.str "arcsec"), .assign "trim_obswave_range" .none,
   .assign "trim_restwave_range" .none, .assign "num_mask_edge" (.num 10), .update []]

end Misfit
