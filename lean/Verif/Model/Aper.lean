import Verif.Model.Grid
import Verif.Model.PSF
import Verif.Model.Convolve

/-!
# The 2D aperture model as a state machine

Source: `misfit/model/aper_model.py` 508-894 (class `AperModel2D`).

The options `do_position_wave_shift` and `do_inst_res_conv_effective` are off, as by default (with them:
`Model/WaveShift`); `debug` is not modelled.  The PSF stamp is stored in the instrument's PSF object, which other models may share;
here it belongs to the model.  Floating point NaN: as soon as one value of an intermediate array
is not finite, the whole image is taken to be NaN (`none`); with PSF convolution the code does
that too, because an FFT spreads a NaN over the whole array.
-/

namespace Misfit

/-- What the constructor arguments of `AperModel2D` (galaxy, instrument, intensity profile and
options) provide. -/
structure AperCfg where
  /-- rows of the image (aper_model.py 660-663) -/
  nWhole : Nat
  wave : List ℝ
  restwave : List ℝ
  ratios : List ℝ
  m0 : ℝ
  /-- `sin_i(q, q0)`, see `sinI`; finite, that is `q ≤ 1` -/
  sini : ℝ
  deltPA : ℝ
  pixscale : ℝ
  slit : ℝ
  psf : PSF
  /-- `instrument_resolution` in km/s -/
  res : ℝ
  /-- `slit_mask is not None` -/
  slitMask : Bool
  /-- `intensityProfile.int` -/
  int : ℝ → ℝ → ℝ
  nSubpixels : Nat
  padFactor : ℝ
  xc : ℝ
  rebinOutput : Bool
  specType : SpecType
  absvalsigma : Bool
  adaptive : Bool
  factor : ℝ
  sigmaFloor : Bool
  /-- whether numpy still has `np.float` (removed in version 1.24) -/
  npFloat : Bool

/-- The attributes set once by `setup_calcs` (aper_model.py 564-624). -/
structure AperFixed where
  grid : Grid ℝ
  z : ℝ
  lam0 : ℝ
  waveReal : List ℝ
  deltReal : ℝ
  xint : Cube grid.nZ grid.nY grid.nX ℝ
  yint : Cube grid.nZ grid.nY grid.nX ℝ
  I : Cube grid.nZ grid.nY grid.nX ℝ
  floorValue : Option ℝ
  upsampleValue : Option ℝ
  xTrim : List ℝ
  yTrim : List ℝ

/-- The attributes that change during evaluations.  `nWave`, `I_matrix` and `wave_ref_matrix`
always belong to `wave_arr` (they are assigned together, aper_model.py 740-748, 759-765,
889-894) and are not stored separately. -/
structure AperState where
  fixed : AperFixed
  kin : KinProfile
  wave : List ℝ
  deltWave : ℝ

/-- an image: `n × m` -/
structure Arr2 where
  n : Nat
  m : Nat
  val : Fin n → Fin m → ℝ

/-- `theta[-k]` -/
def fromEnd (theta : List ℝ) (k : Nat) : Except PyErr ℝ :=
  match theta.reverse[k - 1]? with
  | some a => .ok a
  | none => .error .indexError

/-- `np.average(wave[1:] - wave[:-1])`; NaN (here 0) for fewer than two wavelengths -/
noncomputable def avgDiff (wave : List ℝ) : ℝ :=
  (List.zipWith (fun b a => b - a) (wave.drop 1) wave.dropLast).sum / ((wave.length : ℝ) - 1)

/-- `np.average` -/
noncomputable def avgList (l : List ℝ) : ℝ := l.sum / l.length

open Classical in
/-- the coordinates within one FWHM of their mean (aper_model.py 599-602) -/
noncomputable def trimToFwhm (l : List ℝ) (fwhm : ℝ) : List ℝ :=
  l.filter fun a => decide (|a - avgList l| ≤ fwhm)

/-- dispersion of one wavelength pixel (aper_model.py 569-572, 582-585) -/
noncomputable def pixelDispersion (st : SpecType) (delt lam0 : ℝ) : Option ℝ :=
  match st with
  | .wave => some (delt / lam0 * cKms / 2.35)
  | .velocity => some (delt / 2.35)
  | .other => none

/-- `sigma_floor_value` (aper_model.py 567-572, 586-594).  Simplification: where numpy divides by zero (sampling factor 0, or
redshift -1 in `pixelDispersion`) the limits are infinite in the code and 0 here. -/
noncomputable def floorValueOf (cfg : AperCfg) (delt lam0 : ℝ) : Option ℝ :=
  if cfg.sigmaFloor then
    if cfg.adaptive then (pixelDispersion cfg.specType (delt / cfg.factor) lam0).map (0.75 * ·)
    else pixelDispersion cfg.specType delt lam0
  else none

/-- The attributes computed by `setup_model_grid` and `setup_calcs` (aper_model.py 564-624, 654-748), apart from the
stamp -/
noncomputable def setupArrays (cfg : AperCfg) (theta : List ℝ) : Except PyErr AperFixed := do
  let z ← fromEnd theta 1
  let m0shift ← fromEnd theta 2
  let m0fit := cfg.m0 + m0shift
  let grid ← setupGrid ⟨cfg.nWhole, cfg.nSubpixels, cfg.pixscale, cfg.slit, cfg.psf.fwhm,
    cfg.padFactor, cfg.xc, m0fit⟩
  let lam0 ← (match cfg.specType with
    | .wave => match cfg.restwave[0]? with
      | some r => .ok (r * (1 + z))
      | none => .error .indexError
    | _ => .ok 1 : Except PyErr ℝ)
  let iRad := Real.arcsin cfg.sini
  let tr := fun (c : Fin grid.nZ) (b : Fin grid.nY) (a : Fin grid.nX) =>
    transformInt3d (grid.xArr.getD a 0) (grid.yArr.getD b 0) (grid.zArr.getD c 0) cfg.deltPA iRad
  let xint := fun c b a => (tr c b a).1
  let yint := fun c b a => (tr c b a).2.1
  let I := fun c b a => cfg.int (Real.sqrt (xint c b a ^ 2 + yint c b a ^ 2)) (tr c b a).2.2
  let delt := avgDiff cfg.wave
  .ok { grid, z, lam0, waveReal := cfg.wave, deltReal := delt, xint, yint, I
        floorValue := floorValueOf cfg delt lam0
        upsampleValue := if cfg.adaptive then pixelDispersion cfg.specType delt lam0 else none
        xTrim := trimToFwhm grid.xArr cfg.psf.fwhm
        yTrim := trimToFwhm grid.yArr cfg.psf.fwhm }

open Classical in
/-- `setup_calcs` (aper_model.py 564-624): at its end the stamp of the PSF is computed (615), which may raise.  The
stamp itself is a function of the trimmed coordinates, see `PSF.stamp`. -/
noncomputable def setupCalcs (cfg : AperCfg) (theta : List ℝ) : Except PyErr AperFixed :=
  match setupArrays cfg theta with
  | .error e => .error e
  | .ok f => if cfg.psf.StampFails then .error .zeroDivisionError else .ok f

open Classical in
/-- `check_do_upsample_wave` (aper_model.py 750-765), called when `adaptive_upsample_wave`.
A dispersion profile without parameter gives an empty array, whose truth value is `False`.  The sampling
factor 0 makes the numpy step infinite and the number of samples NaN: `int(np.round(nan))` is a ValueError (the infinite step,
not a number of ℝ, is not stored in the state). -/
noncomputable def checkUpsample (cfg : AperCfg) (s : AperState) : AperState × Except PyErr Unit :=
  match s.kin.disp with
  | none => (s, .error .attributeError)
  | some d =>
    match s.fixed.upsampleValue with
    | none => (s, .error .typeError)
    | some lim =>
      match d.theta[0]? with
      | none => (s, .ok ())
      | some sig =>
        if |sig| < lim then
          if cfg.npFloat = false then (s, .error .attributeError)
          else if cfg.factor = 0 then (s, .error .valueError)
          else
            let delt := s.fixed.deltReal / cfg.factor
            match s.wave.min?, s.wave.max? with
            | some lo, some hi =>
              let nwmin := lo - 1 / 2 * (s.fixed.deltReal - delt)
              let nwmax := hi + 1 / 2 * (s.fixed.deltReal - delt)
              let num := npRound ((nwmax - nwmin) / delt + 1)
              if num < 0 then ({ s with deltWave := delt }, .error .valueError)
              else ({ s with deltWave := delt, wave := linspace nwmin nwmax num.toNat }, .ok ())
            | _, _ => ({ s with deltWave := delt }, .error .valueError)
        else (s, .ok ())

open Classical in
/-- the dispersion used by `calculate_spectral_cube` (aper_model.py 785-791): absolute value and
floor replace the parameter of the dispersion profile -/
noncomputable def applySigmaFloor (cfg : AperCfg) (s : AperState) : AperState × Except PyErr ℝ :=
  match s.kin.disp with
  | none => (s, .error .attributeError)
  | some d =>
    let d : Profile := if cfg.absvalsigma then { d with theta := d.theta.map fun a => |a| } else d
    let d' : Except PyErr Profile :=
      if cfg.sigmaFloor then
        match d.theta[0]?, s.fixed.floorValue with
        | none, _ => .ok d
        | some _, none => .error .typeError
        | some sig, some v => if |sig| < v then .ok { d with theta := [v] } else .ok d
      else .ok d
    match d' with
    | .error e => ({ s with kin := { s.kin with disp := some d } }, .error e)
    | .ok d' =>
      ({ s with kin := { s.kin with disp := some d' } },
        match d'.theta[0]? with
        | none => .error .indexError
        | some sig => .ok sig)

/-- all values, if they are finite -/
def allFinite {n m p : Nat} (a : Fin n → Fin m → Fin p → Fl ℝ) :
    Option (Fin n → Fin m → Fin p → ℝ) :=
  if ∀ i j k, (a i j k).isFinite = true then
    some fun i j k => match a i j k with
      | .fin x => x
      | _ => 0
  else none

/-- all values of an image, if they are finite -/
def allFinite2 {n m : Nat} (a : Fin n → Fin m → Fl ℝ) : Option (Fin n → Fin m → ℝ) :=
  if ∀ i j, (a i j).isFinite = true then
    some fun i j => match a i j with
      | .fin x => x
      | _ => 0
  else none

/-- line-of-sight velocities (aper_model.py 775-779), `none` if one is not finite -/
noncomputable def velCube (cfg : AperCfg) (f : AperFixed) (k : KinProfile) :
    Option (Cube f.grid.nZ f.grid.nY f.grid.nX ℝ) :=
  allFinite fun c b a => losVelocity (match k.vel with | some v => v.theta | none => [])
    cfg.sini (f.xint c b a) (f.yint c b a)

/-- `trim_downsample_spectral_cube` up to the rebinning (aper_model.py 842-857): the rows
`padY … padY+n_pix_y` and the columns `padX … padX+n_pix_x`, summed over the columns -/
noncomputable def trimSum {nW nY nX : Nat} (cube : Fin nW → Fin nY → Fin nX → ℝ) (g : Grid ℝ)
    (hY : nY = g.nPixY + 2 * g.padY) (hX : nX = g.nPixX + 2 * g.padX) :
    Fin nW → Fin g.nPixY → ℝ := fun w b =>
  (∑ a : Fin g.nPixX, cube w ⟨b + g.padY, by omega⟩ ⟨a + g.padX, by omega⟩) * g.deltX

/-- `inst_disp_wave` (aper_model.py 879-883) -/
noncomputable def instDisp (cfg : AperCfg) (f : AperFixed) : ℝ :=
  match cfg.specType with
  | .wave => cfg.res / cKms * f.lam0
  | _ => cfg.res

open Classical in
/-- `convolve_instrument_resolution` (aper_model.py 864-886) without position shifts -/
noncomputable def instStage {nW m : Nat} (img : Fin nW → Fin m → ℝ) (wave : Fin nW → ℝ) (disp : ℝ) :
    Except PyErr (Option (Fin nW → Fin m → ℝ)) :=
  if 0 < disp then
    match instConvolComplete img wave (.const disp) with
    | .error e => .error e
    | .ok a => .ok (allFinite2 a)
  else .ok (some img)

/-- `rebin` on an image that may be NaN; only the sizes matter for the error -/
noncomputable def rebinArr (a : Arr2) (p q : Nat) : Except PyErr Arr2 :=
  match rebin a.val p q with
  | .error e => .error e
  | .ok v => .ok ⟨p, q, v⟩

/-- The value computed by `calculate_spectral_cube` … `convolve_instrument_resolution`
(aper_model.py 768-886) for the present wavelength array and dispersion `sig`, indexed by wavelength
and row.  `none`: not finite.  Errors that do not depend on finiteness (slit mask, rebinning) come
first where the value is not finite. -/
noncomputable def evalStages (cfg : AperCfg) (f : AperFixed) (kin : KinProfile) (wave : List ℝ)
    (sig : ℝ) : Except PyErr (Option Arr2) :=
  let nW := wave.length
  let waveF : Fin nW → ℝ := wave.get
  match velCube cfg f kin with
  | none => if cfg.slitMask then .error .valueError else .ok none
  | some V =>
    match addSigmaCollapseZ f.I V (fun _ _ _ => sig) waveF f.z cfg.restwave cfg.ratios
        f.grid.deltZ cfg.specType with
    | .error e => .error e
    | .ok cube =>
      if cfg.slitMask then .error .valueError
      else
        match allFinite cube with
        | none => .ok none
        | some cube =>
          match allFinite (psfConvolve cube cfg.psf.fwhm (cfg.psf.stamp f.xTrim f.yTrim)) with
          | none => .ok none
          | some conv =>
            if h : f.grid.nY = f.grid.nPixY + 2 * f.grid.padY ∧
                f.grid.nX = f.grid.nPixX + 2 * f.grid.padX then
              let img : Arr2 := ⟨nW, f.grid.nPixY, trimSum conv f.grid h.1 h.2⟩
              match (if cfg.rebinOutput then rebinArr img nW cfg.nWhole else .ok img) with
              | .error e => .error e
              | .ok img2 =>
                if hn : img2.n = nW then
                  match instStage img2.val (fun i => waveF (Fin.cast hn i)) (instDisp cfg f) with
                  | .error e => .error e
                  | .ok none => .ok none
                  | .ok (some v) => .ok (some ⟨img2.n, img2.m, v⟩)
                else .ok none
            else .ok none

/-- No grid coordinate lies within one FWHM of the mean, so the stamp is an empty array; it is used only for a positive
FWHM (kin_functions.py 366). -/
def KernelMissing (cfg : AperCfg) (f : AperFixed) : Prop := 0 < cfg.psf.fwhm ∧ (f.xTrim = [] ∨ f.yTrim = [])

open Classical in
/-- `calculate_spectral_cube` … `convolve_instrument_resolution` (aper_model.py 768-886).  With an empty stamp
`fftconvolve` returns an empty one-dimensional array, and taking its three-dimensional slice (aper_model.py 852-853) is an
IndexError; the earlier exceptions (cube, slit mask) come first. -/
noncomputable def evalImage (cfg : AperCfg) (f : AperFixed) (kin : KinProfile) (wave : List ℝ)
    (sig : ℝ) : Except PyErr (Option Arr2) :=
  if KernelMissing cfg f then
    match evalStages cfg f kin wave sig with
    | .error e => .error e
    | .ok _ => .error .indexError
  else evalStages cfg f kin wave sig

/-- transpose -/
def Arr2.T (a : Arr2) : Arr2 := ⟨a.m, a.n, fun j i => a.val i j⟩

/-- `downsample_to_real_wave` (aper_model.py 886-894): the arrays are restored only if the rebinning
succeeds. -/
noncomputable def downsample (cfg : AperCfg) (s : AperState) (img : Option Arr2) :
    AperState × Except PyErr (Option Arr2) :=
  let done : AperState := { s with wave := s.fixed.waveReal, deltWave := s.fixed.deltReal }
  match img with
  | none => (done, .ok none)
  | some a =>
    match rebinArr a s.fixed.waveReal.length cfg.nWhole with
    | .error e => (s, .error e)
    | .ok b => (done, .ok (some b))

/-- `do_model_calcs` (aper_model.py 633-651).  An exception leaves the state as it was when it was
raised. -/
noncomputable def doModelCalcs (cfg : AperCfg) (s : AperState) (theta : List ℝ) :
    AperState × Except PyErr (Option Arr2) :=
  match s.kin.updateTheta theta with
  | .error e => (s, .error e)
  | .ok k =>
    let s : AperState := { s with kin := k }
    let up := if cfg.adaptive then checkUpsample cfg s else (s, .ok ())
    match up.2 with
    | .error e => (up.1, .error e)
    | .ok () =>
      let fl := applySigmaFloor cfg up.1
      match fl.2 with
      | .error e => (fl.1, .error e)
      | .ok sig =>
        match evalImage cfg fl.1.fixed fl.1.kin fl.1.wave sig with
        | .error e => (fl.1, .error e)
        | .ok img =>
          let ds := if cfg.adaptive then downsample cfg fl.1 img else (fl.1, .ok img)
          (ds.1, ds.2.map fun o => o.map Arr2.T)

/-- `AperModel2D(...)`: `make_model` (aper_model.py 625-629).  If `setup_calcs` fails there is no
object. -/
noncomputable def buildModel (cfg : AperCfg) (kin : KinProfile) (theta : List ℝ) :
    Except PyErr (AperState × Except PyErr (Option Arr2)) :=
  match setupCalcs cfg theta with
  | .error e => .error e
  | .ok f => .ok (doModelCalcs cfg ⟨f, kin, cfg.wave, avgDiff cfg.wave⟩ theta)

/-- `update_model(theta=…)` (aper_model.py 631) -/
noncomputable def updateModel (cfg : AperCfg) (s : AperState) (theta : List ℝ) :
    AperState × Except PyErr (Option Arr2) := doModelCalcs cfg s theta

end Misfit
