import Verif.Model.Aper
import Verif.Model.Aper1D
import Verif.Model.KinModel

/-!
# The 2D aperture model with the options for a wavelength shift by position in the slit

Sources: `misfit/model/aper_model.py` 528-529, 538-539, 794-821, 865-883 and
`misfit/model/kin_functions.py` 170-257, 470-496, 528-539.

`do_position_wave_shift` and `do_inst_res_conv_effective` are arguments of every evaluation, because
`setAttr` may change them between evaluations.  `lmfit_gaussian` is an oracle.  Simplified: the fitted
FWHM is not zero, the slit width is positive and the reference wavelength is not zero (otherwise numpy
goes on with NaN).
-/

namespace Misfit

/-- `do_position_wave_shift` and `do_inst_res_conv_effective` (aper_model.py 528-529) -/
structure ShiftOpts where
  shift : Bool
  eff : Bool

/-- The attribute `inst_disp_wave` (aper_model.py 539, 806, 872, 878-880): `None`, a number, or one
number for every row of the grid. -/
inductive InstDispAttr
  | unset
  | scalar (x : ℝ)
  | rows (l : List (Fl ℝ))

/-- The attributes that change during evaluations; `delta` is `delta_position_velspace`
(aper_model.py 538). -/
structure ShiftState where
  base : AperState
  delta : Option (List ℝ)
  disp : InstDispAttr

/-- `lmfit_gaussian(x, y)` (kin_functions.py 528-539): amplitude, centre and FWHM, or an exception -/
abbrev RowFit := List ℝ → List (Fl ℝ) → Except PyErr (ℝ × ℝ × ℝ)

/-- One row of `calculate_effective_inst_res_lam_shift` (kin_functions.py 224-254): velocity shift and
dispersion.  The resolution is `R = c/(res*2.35)` (aper_model.py 801); for `res = 0` it is infinite in
numpy, which gives shift and dispersion 0. -/
noncomputable def rowShift (fit : RowFit) (xs : List ℝ) (res slit lam0 : ℝ) (row : List (Fl ℝ)) :
    Except PyErr (ℝ × Fl ℝ) :=
  match fit xs row with
  | .error e => .error e
  | .ok (A, mu, fwhm) =>
    match checkSlitIllum xs (xs.map (slitGauss A mu fwhm)) mu fwhm slit with
    | .error e => .error e
    | .ok (d, f) =>
      if res = 0 then .ok (0, 0)
      else
        let R := cKms / (res * (2 * Real.sqrt (2 * Real.log 2)))
        .ok (velShift R slit slit lam0 d cKms, rowDisp R slit lam0 f)

/-- `a[padX : n_pix_x+padX]`, the pixels in the slit (aper_model.py 798) -/
def slitPart {α : Type} (g : Grid ℝ) (l : List α) : List α := (l.drop g.padX).take g.nPixX

/-- light summed along the line of sight and convolved with the PSF (kin_functions.py 196-212) -/
noncomputable def shiftLight (cfg : AperCfg) (f : AperFixed) : Fin f.grid.nY → Fin f.grid.nX → Fl ℝ :=
  psfConvolve (fun (_ : Fin 1) b a => ∑ c, f.I c b a) cfg.psf.fwhm (cfg.psf.stamp f.xTrim f.yTrim) 0

open Classical in
/-- `calculate_effective_inst_res_lam_shift` (kin_functions.py 170-257) as called in aper_model.py
798-813: shifts and dispersions of all rows of the grid.  With an empty stamp the convolution is an
empty one-dimensional array and taking `[0,:,:]` is an IndexError. -/
noncomputable def calcShift (cfg : AperCfg) (f : AperFixed) (fit : RowFit) :
    Except PyErr (List ℝ × List (Fl ℝ)) :=
  if KernelMissing cfg f then .error .indexError
  else
    match (List.finRange f.grid.nY).mapM fun b =>
        rowShift fit (slitPart f.grid f.grid.xArr) cfg.res cfg.slit f.lam0
          (slitPart f.grid (List.ofFn (shiftLight cfg f b))) with
    | .error e => .error e
    | .ok l => .ok (l.map Prod.fst, l.map Prod.snd)

/-- Lines 794-813 of `calculate_spectral_cube`: shifts and dispersions are computed unless both
attributes are set. -/
noncomputable def shiftStep (o : ShiftOpts) (cfg : AperCfg) (fit : RowFit) (s : ShiftState) :
    ShiftState × Except PyErr Unit :=
  if o.shift || o.eff then
    match s.delta, s.disp with
    | some _, .scalar _ => (s, .ok ())
    | some _, .rows _ => (s, .ok ())
    | _, _ =>
      match calcShift cfg s.base.fixed fit with
      | .error e => (s, .error e)
      | .ok (d, l) => ({ s with delta := some d, disp := .rows l }, .ok ())
  else (s, .ok ())

/-- line-of-sight velocities with the shifts added row by row (aper_model.py 775-779, 818-821), `none`
if one is not finite.  `delta` has one entry per row; it is never `None` here, see `shiftStep`. -/
noncomputable def shiftedVel (o : ShiftOpts) (cfg : AperCfg) (f : AperFixed) (k : KinProfile)
    (delta : Option (List ℝ)) : Option (Cube f.grid.nZ f.grid.nY f.grid.nX ℝ) :=
  match o.shift, delta with
  | true, some d => (velCube cfg f k).map fun V c b a => V c b a + d.getD b 0
  | _, _ => velCube cfg f k

/-- `add_sigma_collapse_z` … `trim_downsample_spectral_cube` (aper_model.py 824-861) for given
velocities; `none`: not finite. -/
noncomputable def cubeStages (cfg : AperCfg) (f : AperFixed)
    (V : Option (Cube f.grid.nZ f.grid.nY f.grid.nX ℝ)) (wave : List ℝ) (sig : ℝ) :
    Except PyErr (Option Arr2) :=
  match V with
  | none => if cfg.slitMask then .error .valueError else .ok none
  | some V =>
    match addSigmaCollapseZ f.I V (fun _ _ _ => sig) wave.get f.z cfg.restwave cfg.ratios
        f.grid.deltZ cfg.specType with
    | .error e => .error e
    | .ok cube =>
      if cfg.slitMask then .error .valueError
      else
        match allFinite cube with
        | none => .ok none
        | some cube =>
          match allFinite (psfConvolve cube cfg.psf.fwhm (cfg.psf.stamp f.xTrim f.yTrim)) with
          | none => .ok none
          | some conv =>
            if h : f.grid.nY = f.grid.nPixY + 2 * f.grid.padY ∧
                f.grid.nX = f.grid.nPixX + 2 * f.grid.padX then
              let img : Arr2 := ⟨wave.length, f.grid.nPixY, trimSum conv f.grid h.1 h.2⟩
              (if cfg.rebinOutput then rebinArr img wave.length cfg.nWhole else .ok img).map some
            else .ok none

open Classical in
/-- the same with the IndexError of an empty stamp, as in `evalImage` -/
noncomputable def cubeImage (cfg : AperCfg) (f : AperFixed)
    (V : Option (Cube f.grid.nZ f.grid.nY f.grid.nX ℝ)) (wave : List ℝ) (sig : ℝ) :
    Except PyErr (Option Arr2) :=
  match cubeStages cfg f V wave sig with
  | .error e => .error e
  | .ok r => if KernelMissing cfg f then .error .indexError else .ok r

/-- `inst_convol_complete` with a single dispersion on an image that may be NaN
(kin_functions.py 470-496) -/
noncomputable def instConst (wave : List ℝ) (disp : ℝ) (img : Option Arr2) : Except PyErr (Option Arr2) :=
  match img with
  | none => .ok none
  | some a =>
    if h : a.n = wave.length then
      match instStage a.val (fun i => wave.get (Fin.cast h i)) disp with
      | .error e => .error e
      | .ok none => .ok none
      | .ok (some v) => .ok (some ⟨a.n, a.m, v⟩)
    else .ok none

/-- `convolve_instrument_resolution` (aper_model.py 865-883): the new value of `inst_disp_wave` and the
image.  An array of positive dispersions takes the branch of `inst_convol_complete` that calls
`convol_inst`, which raises ValueError (kin_functions.py 422-423, 475-494); `min` of an empty array is a
ValueError and `None` has no `min`.  The
numbers are numpy numbers (a Python float has no `min`; in wavelength mode the redshifted wavelength is a
numpy number). -/
noncomputable def instPhase (o : ShiftOpts) (cfg : AperCfg) (f : AperFixed) (wave : List ℝ)
    (disp : InstDispAttr) (img : Option Arr2) : InstDispAttr × Except PyErr (Option Arr2) :=
  if o.shift then
    match cfg.specType with
    | .velocity => (disp, .error .valueError)
    | _ =>
      let disp := if o.eff then disp else .scalar (cfg.res / cKms * f.lam0)
      match disp with
      | .unset => (disp, .error .attributeError)
      | .scalar x => (disp, instConst wave x img)
      | .rows [] => (disp, .error .valueError)
      | .rows l => (disp, if l.all (Fl.ltB 0) then .error .valueError else .ok img)
  else (.scalar (instDisp cfg f), instConst wave (instDisp cfg f) img)

/-- `do_model_calcs` (aper_model.py 633-651) with the options for the positional shift.  An exception
leaves the state as it was when it was raised. -/
noncomputable def shiftCalcs (o : ShiftOpts) (cfg : AperCfg) (fit : RowFit) (s : ShiftState)
    (theta : List ℝ) : ShiftState × Except PyErr (Option Arr2) :=
  match s.base.kin.updateTheta theta with
  | .error e => (s, .error e)
  | .ok k =>
    let b : AperState := { s.base with kin := k }
    let up := if cfg.adaptive then checkUpsample cfg b else (b, .ok ())
    match up.2 with
    | .error e => ({ s with base := up.1 }, .error e)
    | .ok () =>
      let fl := applySigmaFloor cfg up.1
      match fl.2 with
      | .error e => ({ s with base := fl.1 }, .error e)
      | .ok sig =>
        let sh := shiftStep o cfg fit { s with base := fl.1 }
        match sh.2 with
        | .error e => (sh.1, .error e)
        | .ok () =>
          let b := sh.1.base
          match cubeImage cfg b.fixed (shiftedVel o cfg b.fixed b.kin sh.1.delta) b.wave sig with
          | .error e => (sh.1, .error e)
          | .ok img =>
            let ip := instPhase o cfg b.fixed b.wave sh.1.disp img
            match ip.2 with
            | .error e => ({ sh.1 with disp := ip.1 }, .error e)
            | .ok img =>
              let ds := if cfg.adaptive then downsample cfg b img else (b, .ok img)
              (⟨ds.1, sh.1.delta, ip.1⟩, ds.2.map fun o => o.map Arr2.T)

/-- `AperModel2D(...)` with the options (aper_model.py 517-560, 622-626) -/
noncomputable def buildShift (o : ShiftOpts) (cfg : AperCfg) (fit : RowFit) (kin : KinProfile)
    (theta : List ℝ) : Except PyErr (ShiftState × Except PyErr (Option Arr2)) :=
  match setupCalcs cfg theta with
  | .error e => .error e
  | .ok f => .ok (shiftCalcs o cfg fit ⟨⟨f, kin, cfg.wave, avgDiff cfg.wave⟩, none, .unset⟩ theta)

end Misfit
