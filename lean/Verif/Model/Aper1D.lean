import Verif.Model.Grid
import Verif.Model.Convolve
import Verif.Model.Profiles
import Verif.Model.Fit1D
import Verif.Model.PSF
import Mathlib.Algebra.Order.Archimedean.Real.Basic

/-!
# Aperture dispersions and the slit illumination correction

Sources: `misfit/model/kin_functions.py` 170-356, 518-840, `misfit/model/aper_model.py` 20-505.

`lmfit` and `scipy.integrate.quad` are oracles; `fftconvolve` is the exact convolution of
`Verif/Model/Convolve.lean`.
-/

namespace Misfit

/-! ## Slit illumination -/

/-- `np.argmax` of a list: the first index of the largest value (0 for the empty list, for which
numpy raises). -/
noncomputable def argmaxL : List ℝ → Nat
  | [] => 0
  | [_] => 0
  | a :: b :: l =>
      let i := argmaxL (b :: l)
      if (b :: l).getD i 0 ≤ a then 0 else i + 1

/-- `np.where(v == v.min())[0][0]`: the first index of the smallest value. -/
noncomputable def argminL (l : List ℝ) : Nat := argmaxL (l.map fun v => -v)

/-- `check_slit_illum` (kin_functions.py 260-356).  `xs` are the coordinates of the pixels in the
slit (`xarr[wh_in_slit_x]`, the only ones used), `ms` the fitted profile
`A_tmp*gaus_from_fwhm(x, FWHM, mu)` there (finite unless `FWHM = 0`).  An empty slit raises
ValueError in `max` (only when it gets there). -/
noncomputable def checkSlitIllum (xs ms : List ℝ) (mu fwhm w : ℝ) : Except PyErr (ℝ × ℝ) :=
  let xl := mu - 0.5 * fwhm
  let xu := mu + 0.5 * fwhm
  let m1 := decide (xl < -0.5 * w)
  let xl := if xl < -0.5 * w then -0.5 * w else xl
  let m2 := m1 || decide (xu > 0.5 * w)
  let xu := if xu > 0.5 * w then 0.5 * w else xu
  let cross := decide (xl > xu)
  let m3 := m2 || (cross && decide (xu < -0.5 * w))
  let xu := if cross && decide (xu < -0.5 * w) then -0.5 * w else xu
  let m4 := m3 || (cross && decide (xl > 0.5 * w))
  let xl := if cross && decide (xl > 0.5 * w) then 0.5 * w else xl
  if m4 then
    let f := xu - xl
    let half := (ms.getD (argmaxL ms) 0) * 0.5
    let f' : Except PyErr ℝ :=
      if f = 0 then
        match xs[argmaxL ms]?, xs[argminL (ms.map fun v => |v - half|)]? with
        | some a, some b => .ok (a - b)
        | _, _ => .error .valueError
      else .ok f
    match f' with
    | .error e => .error e
    | .ok f' =>
      let d := if mu > 0.5 * w then 0.5 * w else mu
      let d := if d < -0.5 * w then -0.5 * w else d
      .ok (d, f')
  else .ok (mu, fwhm)

/-- The fitted Gaussian at one pixel (kin_functions.py 292, 502-511), for `fwhm ≠ 0`. -/
noncomputable def slitGauss (A mu fwhm x : ℝ) : ℝ :=
  A * Real.exp (-1 * (x - mu) ^ 2 / (2 * (fwhm / (2 * Real.sqrt (2 * Real.log 2))) ^ 2))

/-- Velocity shift of one row (kin_functions.py 240-252): `w` total slit width, `wR` slit width of
the resolution measurement, `c` the speed of light. -/
noncomputable def velShift (R wR w lam0 delx c : ℝ) : ℝ :=
  let Rw := R * wR
  let Rfull := Rw / w
  let delLam := lam0 / Rfull
  let scale := delLam / w
  delx * scale / lam0 * c

/-- Instrument dispersion of one row in wavelength (kin_functions.py 240-247). -/
noncomputable def rowDisp (R wR lam0 fwhm : ℝ) : Fl ℝ :=
  let Reff : Fl ℝ := Fl.fin (R * wR) / Fl.fin fwhm
  Fl.fin lam0 / Reff / Fl.fin (2 * Real.sqrt (2 * Real.log 2))

/-! ## The PSF stamp of the instrument -/

/-- The attribute `_conv_stamp` of the PSF object that belongs to the instrument
(instrument.py 25, 34-35): `None`, a 2D array (aper_model.py 168-169, 207-208, 274-275) or a
`1 × kn × km` array (aper_model.py 615-620). -/
inductive ConvStamp
  | unset
  | flat (kn km : Nat) (k : Fin kn → Fin km → ℝ)
  | cube (kn km : Nat) (k : Fin kn → Fin km → ℝ)

/-- `fftconvolve(a, PSF._conv_stamp, mode='same')` for a 2D array: ValueError unless the numbers of
dimensions agree. -/
noncomputable def fftSame2 {n m : Nat} (a : Fin n → Fin m → ℝ) : ConvStamp →
    Except PyErr (Fin n → Fin m → ℝ)
  | .flat _ _ k => .ok (convSame2 a k)
  | _ => .error .valueError

/-- `PSF_convolve_flat` (kin_functions.py 379-402) -/
noncomputable def psfFlatObj {n m : Nat} (a : Fin n → Fin m → ℝ) (fwhm : ℝ) (s : ConvStamp) :
    Except PyErr (Fin n → Fin m → ℝ) :=
  if 0 < fwhm then fftSame2 a s else .ok a

/-- `PSF_convolve` (kin_functions.py 361-375) with the stamp found in the PSF object. -/
noncomputable def psfConvolveObj {nW n m : Nat} (cube : Fin nW → Fin n → Fin m → ℝ) (fwhm : ℝ)
    (s : ConvStamp) : Except PyErr (Fin nW → Fin n → Fin m → Fl ℝ) :=
  if 0 < fwhm then
    match s with
    | .cube _ _ k => .ok (psfConvolve cube fwhm k)
    | _ => .error .valueError
  else .ok fun w y x => .fin (cube w y x)

/-! ## Weighted sum over the aperture -/

/-- `a[y0:y1, x0:x1]` -/
def slice2 {α : Type} {n m : Nat} (a : Fin n → Fin m → α) (y0 y1 x0 x1 : Nat) :
    Fin (min y1 n - min y0 n) → Fin (min x1 m - min x0 m) → α :=
  fun j i => a ⟨min y0 n + j, by omega⟩ ⟨min x0 m + i, by omega⟩

/-- The row weights (kin_functions.py 643-656, 815-828; aper_model.py 488-500). -/
noncomputable def extractWeights (method : String) (width deltY : ℝ) (rows : Nat) :
    Except PyErr (Fin rows → Fl ℝ) :=
  if method = "optimal" then
    let s := (0.5 * width / deltY) / (2 * Real.sqrt (2 * Real.log 2))
    let g := fun j : Fin rows => normPdf ((j : ℝ) - ((rows : ℝ) - 1) / 2) 0 s
    .ok fun j => g j / ∑ i, g i
  else if method = "boxcar" then .ok fun _ => .fin 1
  else .error .valueError

/-- The weighted ratio and its root (kin_functions.py 658-661, 830-832; aper_model.py 503-505). -/
noncomputable def aperSigma {n m : Nat} (num den : Fin n → Fin m → ℝ) (g : Fin n → Fl ℝ)
    (dx dy : ℝ) : Fl ℝ :=
  Fl.sqrt ((∑ j, ∑ i, Fl.fin (num j i) * g j * Fl.fin dx * Fl.fin dy) /
    (∑ j, ∑ i, Fl.fin (den j i) * g j * Fl.fin dx * Fl.fin dy))

/-! ## `AperModel1DDisp` and `AperModel1DDispMisalign` -/

/-- What `AperModel1DDispBase.setup_model_grid` reads. -/
structure Disp1DIn where
  nPixels : Nat
  re : ℝ
  q : ℝ
  deltPA : ℝ
  fwhm : ℝ
  slit : ℝ
  width : Option ℝ
  xc : ℝ := 0
  yc : ℝ := 0

/-- Attributes set by `setup_model_grid`. -/
structure Disp1DGrid where
  nPixels : Nat
  width : ℝ
  deltX : ℝ
  deltY : ℝ
  xs : List ℝ
  ys : List ℝ

/-- Default extraction width (aper_model.py 75-90, 326-341): meaningful when the convolved radius
is not zero. -/
noncomputable def extractionWidth (re q deltPA fwhm : ℝ) : ℝ :=
  let reConv := 0.5 * Real.sqrt ((2 * re) ^ 2 + fwhm ^ 2)
  let minorConv := 0.5 * Real.sqrt ((2 * q * re) ^ 2 + fwhm ^ 2)
  let qConv := minorConv / reConv
  let yProj := yProjMajor reConv deltPA
  let yProj := if yProj < reConv * qConv then reConv * qConv else yProj
  4 * yProj

/-- `AperModel1DDispBase.setup_model_grid` (aper_model.py 62-112) -/
noncomputable def setupDisp1D (g : Disp1DIn) : Disp1DGrid :=
  let nP := if g.re ≤ 0.1 then g.nPixels * 2 else g.nPixels
  let width := match g.width with
    | some w => w
    | none => extractionWidth g.re g.q g.deltPA g.fwhm
  let deltX := 0.5 * g.slit / ((nP : ℝ) + 0.5)
  let deltY := 0.5 * width / ((nP : ℝ) + 0.5)
  { nPixels := nP, width, deltX, deltY
    xs := (linspace ((-2 * (nP : ℝ) - 1) * deltX) ((2 * (nP : ℝ) + 1) * deltX) (4 * nP + 3)).map
      (· - g.xc)
    ys := (linspace ((-2 * (nP : ℝ) - 1) * deltY) ((2 * (nP : ℝ) + 1) * deltY) (4 * nP + 3)).map
      (· - g.yc) }

/-- The stamp set in `setup_calcs` (aper_model.py 164-169, 203-208): the PSF on the grid
coordinates minus their mean.  Not modelled: for a Moffat PSF with `fwhm = 0` or `beta = 0` computing the stamp raises
(see `PSF.StampFails`). -/
noncomputable def disp1DStamp (psf : PSF) (g : Disp1DGrid) : ConvStamp :=
  let xo := g.xs.map fun x => x - g.xs.sum / g.xs.length
  let yo := g.ys.map fun y => y - g.ys.sum / g.ys.length
  .flat yo.length xo.length (psf.stamp xo yo)

/-- The image part of `sigma_aper_dispersion` (kin_functions.py 606-661) after the dispersion and
intensity images `sigSq`, `I` (both of the size of the grid) are known. -/
noncomputable def sigmaAperOf (nP : Nat) (sigSq I : Fin (4 * nP + 3) → Fin (4 * nP + 3) → ℝ)
    (fwhm : ℝ) (s : ConvStamp) (method : String) (width dx dy : ℝ) : Except PyErr (Fl ℝ) := do
  let num ← psfFlatObj (fun y x => sigSq y x * I y x) fwhm s
  let den ← psfFlatObj I fwhm s
  let w ← extractWeights method width dy (min (3 * nP + 2) (4 * nP + 3) - min (nP + 1) (4 * nP + 3))
  .ok (aperSigma (slice2 num (nP + 1) (3 * nP + 2) (nP + 1) (3 * nP + 2))
    (slice2 den (nP + 1) (3 * nP + 2) (nP + 1) (3 * nP + 2)) w dx dy)

/-- `sigma_aper_dispersion` (kin_functions.py 594-664): round galaxy of circularised radii. -/
noncomputable def sigmaAperDispersion (g : Disp1DGrid) (re reMass n rCore fwhm : ℝ) (s : ConvStamp)
    (method : String) : Except PyErr (Fl ℝ) :=
  let at2 := fun (f : ℝ → ℝ → ℝ) (y x : Fin (4 * g.nPixels + 3)) =>
    f (g.xs.getD x 0) (g.ys.getD y 0)
  sigmaAperOf g.nPixels (at2 fun x y => dispSquare x y 1 0 reMass rCore)
    (at2 fun x y => iGal x y re n 1 0 rCore) fwhm s method g.width g.deltX g.deltY

/-- The image part of `sigma_aper_dispersion_misalign` (kin_functions.py 698-712, 789-832):
the number of pixels across the slit and their size are recomputed before trimming. -/
noncomputable def sigmaMisalignOf (nP : Nat) (sigSq I : Fin (4 * nP + 3) → Fin (4 * nP + 3) → ℝ)
    (fwhm : ℝ) (s : ConvStamp) (method : String) (slit width dx dy : ℝ) :
    Except PyErr (Fl ℝ) := do
  let num ← psfFlatObj (fun y x => sigSq y x * I y x) fwhm s
  let den ← psfFlatObj I fwhm s
  let nx := (npRound (0.5 * slit / dx - 0.5)).toNat
  let dx' := 0.5 * slit / ((nx : ℝ) + 0.5)
  let y0 := nP + 1
  let y1 := 2 * nP + (nP + 1) + 1
  let x0 := nx + 1
  let x1 := 2 * nx + (nx + 1) + 1
  let w ← extractWeights method width dy (min y1 (4 * nP + 3) - min y0 (4 * nP + 3))
  .ok (aperSigma (slice2 num y0 y1 x0 x1) (slice2 den y0 y1 x0 x1) w dx' dy)

/-- `sigma_aper_dispersion_misalign` (kin_functions.py 675-840) -/
noncomputable def sigmaAperMisalign (g : Disp1DGrid) (slit q deltPA re reMass n rCore fwhm : ℝ)
    (s : ConvStamp) (method : String) : Except PyErr (Fl ℝ) :=
  let at2 := fun (f : ℝ → ℝ → ℝ) (y x : Fin (4 * g.nPixels + 3)) =>
    f (g.xs.getD x 0) (g.ys.getD y 0)
  sigmaMisalignOf g.nPixels (at2 fun x y => dispSquare x y q deltPA reMass rCore)
    (at2 fun x y => iGal x y re n q deltPA rCore) fwhm s method slit g.width g.deltX g.deltY

/-- The integrands of `sigma_e_dispersion` (kin_functions.py 583-589), with the slope `d` of the
model object. -/
noncomputable def sigsqIntegrand (re n Ie d rCore reMass r : ℝ) : ℝ :=
  sigmaProfile r reMass d rCore ^ 2 * iSersic r re n Ie rCore * 2 * Real.pi * r
noncomputable def intIntegrand (re n Ie rCore r : ℝ) : ℝ :=
  iSersic r re n Ie rCore * 2 * Real.pi * r

/-- `sigma_e_dispersion` (kin_functions.py 555-566); `quad f` stands for
`integrate.quad(f, 0, r_outer)[0]`. -/
noncomputable def sigmaE (quad : (ℝ → ℝ) → ℝ) (re n Ie d rCore reMass : ℝ) : Fl ℝ :=
  Fl.sqrt (Fl.fin (quad (sigsqIntegrand re n Ie d rCore reMass)) /
    Fl.fin (quad (intIntegrand re n Ie rCore)))

/-- What `AperModel1DDisp` reads from galaxy, instrument and keywords. -/
structure Disp1DModel where
  nPixels : Nat := 100
  re : ℝ
  reMass : ℝ
  q : ℝ
  qMass : ℝ
  n : ℝ
  d : ℝ := -0.089
  rCore : ℝ := 1 / 300
  Ie : ℝ := 1
  psf : PSF
  slit : ℝ
  width : Option ℝ := none
  method : String := "optimal"
  xc : ℝ := 0
  yc : ℝ := 0

/-- `AperModel1DDisp(...)` (aper_model.py 147-181): the stamp left in the instrument, and the pair
`sigma_ap`, `sigma_e` whose quotient is the correction. -/
noncomputable def aperModel1DDisp (quad : (ℝ → ℝ) → ℝ) (m : Disp1DModel) :
    ConvStamp × Except PyErr (Fl ℝ × Fl ℝ) :=
  let re := m.re * Real.sqrt m.q
  let reMass := m.reMass * Real.sqrt m.qMass
  let g := setupDisp1D ⟨m.nPixels, re, 1, 0, m.psf.fwhm, m.slit, m.width, m.xc, m.yc⟩
  let s := disp1DStamp m.psf g
  (s, (sigmaAperDispersion g re reMass m.n m.rCore m.psf.fwhm s m.method).map fun a =>
    (a, sigmaE quad re m.n m.Ie m.d m.rCore reMass))

/-! ## `AperModel1DRot` -/

/-- Sizes of the rotation aperture grid (aper_model.py 349-387). -/
structure RotGrid where
  nPixY : Nat
  nPixX : Nat
  padX : Nat
  padY : Nat
  deltX : ℝ
  deltY : ℝ
  xs : List ℝ
  ys : List ℝ

/-- `AperModel1DRot.setup_model_grid` (aper_model.py 349-387); `width` is the extraction width,
`fwhm*pad` is not negative.  `width/nPixels` with `nPixels = 0`, `slit/delt_y` with
`delt_y = 0` and `slit/n_pix_x` with `n_pix_x = 0` are Python float divisions. -/
noncomputable def setupRot (nPixels : Nat) (width slit fwhm pad xc yc : ℝ) : Except PyErr RotGrid :=
  if nPixels = 0 then .error .zeroDivisionError
  else
    let dy := width / nPixels
    if dy = 0 then .error .zeroDivisionError
    else
      let nx := (⌈slit / dy⌉).toNat
      if nx = 0 then .error .zeroDivisionError
      else
        let dx := slit / nx
        let padY := (npRound (fwhm * pad / dy)).toNat
        let padX := (npRound (fwhm * pad / dx)).toNat
        .ok { nPixY := nPixels, nPixX := nx, padX, padY, deltX := dx, deltY := dy
              xs := (linspace (-((nx : ℝ) / 2 + padX - 0.5) * dx) (((nx : ℝ) / 2 + padX - 0.5) * dx)
                (nx + 2 * padX)).map (· - xc)
              ys := (linspace (-((nPixels : ℝ) / 2 + padY - 0.5) * dy)
                (((nPixels : ℝ) / 2 + padY - 0.5) * dy) (nPixels + 2 * padY)).map (· - yc) }

/-- `calculate_kin_cube` from line 451 on, `convolve_kin_arr_PSF`, `trim_sum_aperture`
(aper_model.py 451-505): second moment over the aperture. -/
noncomputable def rotSigma {nZ : Nat} (g : RotGrid)
    (V sig I : Cube nZ (g.nPixY + 2 * g.padY) (g.nPixX + 2 * g.padX) ℝ)
    (deltZ fwhm : ℝ) (s : ConvStamp) (method : String) (yAper : ℝ) : Except PyErr (Fl ℝ) := do
  let num := fun y x => (∑ z, (V z y x ^ 2 + sig z y x ^ 2) * I z y x) * deltZ
  let den := fun y x => (∑ z, I z y x) * deltZ
  let num ← psfFlatObj num fwhm s
  let den ← psfFlatObj den fwhm s
  let y0 := g.padY
  let y1 := g.nPixY + g.padY
  let w ← extractWeights method yAper g.deltY
    (min y1 (g.nPixY + 2 * g.padY) - min y0 (g.nPixY + 2 * g.padY))
  .ok (aperSigma (slice2 num y0 y1 g.padX (g.nPixX + g.padX))
    (slice2 den y0 y1 g.padX (g.nPixX + g.padX)) w g.deltX g.deltY)

/-- `update_kinProfile` (aper_model.py 298-320) for the arctan profile: the parameters
`[V_a, r_t, sigma_0]` that the kinematic profile ends with; `t0 = none` is `None`. -/
noncomputable def rotKinTheta (t0 : Option ℝ) (t1 t2 rAper : ℝ) : List (Fl ℝ) :=
  match t0 with
  | none => [.fin t1, .fin t2, .fin 0]
  | some r =>
    if r ≠ 0 then [.fin t1, .fin t2, velArctan [t1, t2] rAper / .fin r]
    else [.fin 0, .fin t2, .fin t1]

/-- The attributes of `AperModel1DRot` that guard the calculation of the positional shift
(aper_model.py 244-246, 423-443).  `inst_disp_wave` is never an attribute. -/
structure RotShift where
  delta : Option (List ℝ)
  instDispVel : Option (List (Fl ℝ))

/-- Lines 423-443 of `calculate_kin_cube`: `shiftCalc` stands for
`calculate_effective_inst_res_lam_shift` (or the exception it raises). -/
def rotShiftStep (shift eff : Bool)
    (shiftCalc : Except PyErr (List ℝ × List (Fl ℝ))) (s : RotShift) : RotShift × Option PyErr :=
  if shift || eff then
    match s.delta with
    | some _ => (s, some .attributeError)
    | none =>
      match shiftCalc with
      | .error e => (s, some e)
      | .ok (d, i) => (⟨some d, some i⟩, none)
  else (s, none)

/-- `calculate_effective_inst_res_lam_shift` (kin_functions.py 170-257): the PSF convolution comes
first; `rows` stands for the fits row by row. -/
noncomputable def effectiveShift {nY nX : Nat} (I : Fin nY → Fin nX → ℝ) (fwhm : ℝ) (s : ConvStamp)
    (rows : (Fin nY → Fin nX → Fl ℝ) → Except PyErr (List ℝ × List (Fl ℝ))) :
    Except PyErr (List ℝ × List (Fl ℝ)) :=
  match psfConvolveObj (fun _ : Fin 1 => I) fwhm s with
  | .error e => .error e
  | .ok c => rows (c 0)

/-! ## Models that share an instrument -/

/-- Building an aperture model with a given instrument stores a stamp there: a `1 × kn × km` one for
the 2D model, a 2D one for the others. -/
inductive InstOp
  | build2D (kn km : Nat) (k : Fin kn → Fin km → ℝ)
  | build1D (kn km : Nat) (k : Fin kn → Fin km → ℝ)

/-- `set_conv_stamp` (instrument.py 34-35) -/
def InstOp.run : ConvStamp → InstOp → ConvStamp
  | _, .build2D kn km k => .cube kn km k
  | _, .build1D kn km k => .flat kn km k

end Misfit
