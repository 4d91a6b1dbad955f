import Verif.Model.Aper
import Verif.Model.Aper1D

/-!
# The rotation aperture model as an object

Source: `misfit/model/aper_model.py` 20-46 and 223-505 (`AperModel1DRot`), put together from the stages of
`Verif/Model/Aper1D.lean`.  The kinematic profile is the arctan rotation curve with a constant dispersion.  The fits
of the slit illumination row by row (positional shifts only) are an oracle, as in `effectiveShift`.
-/

namespace Misfit

/-- What `AperModel1DRot` reads from galaxy, instrument, profiles and keywords (aper_model.py 20-39, 223-248).
`sini` is `sin_i(q, q0)`, finite (`q ≤ 1`).  Values of the intensity profile are finite. -/
structure RotModel where
  nPixels : Nat := 201
  re : ℝ
  q : ℝ
  sini : ℝ
  deltPA : ℝ
  restwave : List ℝ
  slit : ℝ
  psf : PSF
  padFactor : ℝ := 1 / 2
  width : Option ℝ := none
  method : String := "optimal"
  rAper : Option ℝ := none
  xc : ℝ := 0
  yc : ℝ := 0
  int : ℝ → ℝ → ℝ
  shift : Bool := false
  eff : Bool := false

/-- The attributes after `setup_calcs`. -/
structure RotFixed where
  grid : RotGrid
  width : ℝ
  rAper : ℝ
  xint : Cube grid.nPixY (grid.nPixY + 2 * grid.padY) (grid.nPixX + 2 * grid.padX) ℝ
  yint : Cube grid.nPixY (grid.nPixY + 2 * grid.padY) (grid.nPixX + 2 * grid.padX) ℝ
  I : Cube grid.nPixY (grid.nPixY + 2 * grid.padY) (grid.nPixX + 2 * grid.padX) ℝ
  xTrim : List ℝ
  yTrim : List ℝ

open Classical in
/-- `setup_calcs` and `setup_model_grid` (aper_model.py 255-275, 322-409).  As many layers along the line of sight as
rows.  `restwave_arr[0]` of an empty array is an IndexError. -/
noncomputable def RotModel.setup (m : RotModel) : Except PyErr RotFixed :=
  let width := m.width.getD (extractionWidth m.re m.q m.deltPA m.psf.fwhm)
  match setupRot m.nPixels width m.slit m.psf.fwhm m.padFactor m.xc m.yc with
  | .error e => .error e
  | .ok g =>
    if m.restwave = [] then .error .indexError
    else if m.psf.StampFails then .error .zeroDivisionError
    else
      let zs := linspace (-((g.nPixY : ℝ) / 2 - 0.5) * g.deltY) (((g.nPixY : ℝ) / 2 - 0.5) * g.deltY) g.nPixY
      let tr := fun (c : Fin g.nPixY) (b : Fin (g.nPixY + 2 * g.padY)) (a : Fin (g.nPixX + 2 * g.padX)) =>
        transformInt3d (g.xs.getD a 0) (g.ys.getD b 0) (zs.getD c 0) m.deltPA (Real.arcsin m.sini)
      .ok { grid := g, width, rAper := m.rAper.getD m.re
            xint := fun c b a => (tr c b a).1
            yint := fun c b a => (tr c b a).2.1
            I := fun c b a => m.int (Real.sqrt ((tr c b a).1 ^ 2 + (tr c b a).2.1 ^ 2)) (tr c b a).2.2
            xTrim := trimToFwhm g.xs m.psf.fwhm
            yTrim := trimToFwhm g.ys m.psf.fwhm }

/-- the stamp left in the instrument (aper_model.py 274-275) -/
noncomputable def RotFixed.stamp (f : RotFixed) (psf : PSF) : ConvStamp :=
  .flat f.yTrim.length f.xTrim.length (psf.stamp f.xTrim f.yTrim)

open Classical in
/-- `convolve_kin_arr_PSF` and `trim_sum_aperture` (aper_model.py 460-505) with velocities `V` and dispersion `sig`, which
are `none` when not finite: then so is the sum.  (There is padding only with seeing, and then the FFT spreads NaN over
the whole image.)  With an empty stamp `fftconvolve` returns an empty one-dimensional array and the slice is an
IndexError. -/
noncomputable def RotFixed.moment (f : RotFixed) (m : RotModel)
    (V : Option (Cube f.grid.nPixY (f.grid.nPixY + 2 * f.grid.padY) (f.grid.nPixX + 2 * f.grid.padX) ℝ))
    (sig : Fl ℝ) : Except PyErr (Fl ℝ) :=
  if 0 < m.psf.fwhm ∧ (f.xTrim = [] ∨ f.yTrim = []) then .error .indexError
  else
    match V, sig with
    | some V, .fin s => rotSigma f.grid V (fun _ _ _ => s) f.I f.grid.deltY m.psf.fwhm (f.stamp m.psf) m.method f.width
    | _, _ => (extractWeights m.method f.width f.grid.deltY f.grid.nPixY).map fun _ => .nan

/-- `calc_aper_correction` (aper_model.py 278-296): the pair `sigma_aper`, `V_RMS_aper`.  `rows` stands for the fits row by
row.  The velocities at the pixels are those of the 2D model (`losVelocity`, aper_model.py 412-420).
Meaningful for a turnover radius other than zero (`r/rt` at the reference radius is a division of Python floats) and a
resolution other than zero (aper_model.py 430).  The last case does not occur: `rotKinTheta` returns three entries. -/
noncomputable def RotFixed.calc (f : RotFixed) (m : RotModel) (t0 : Option ℝ) (t1 t2 : ℝ)
    (rows : (Fin (f.grid.nPixY + 2 * f.grid.padY) → Fin (f.grid.nPixX + 2 * f.grid.padX) → Fl ℝ) →
      Except PyErr (List ℝ × List (Fl ℝ))) (s : RotShift) : RotShift × Except PyErr (Fl ℝ × Fl ℝ) :=
  match rotKinTheta t0 t1 t2 f.rAper with
  | [.fin va, .fin rt, sig] =>
    let V := allFinite fun c b a => losVelocity [va, rt] m.sini (f.xint c b a) (f.yint c b a)
    let st := rotShiftStep m.shift m.eff
      (effectiveShift (fun b a => ∑ c, f.I c b a) m.psf.fwhm (f.stamp m.psf) rows) s
    match st.2 with
    | some e => (st.1, .error e)
    | none =>
      let V := if m.shift then
          V.map fun V c b a => V c b a + (match st.1.delta with | some d => d.getD b.val 0 | none => 0)
        else V
      match f.moment m V sig with
      | .error e => (st.1, .error e)
      | .ok a => (st.1, .ok (a, Fl.sqrt (Fl.sq (velArctan [va, rt] f.rAper) + Fl.sq sig)))
  | _ => (s, .ok (.nan, .nan))

/-- `AperModel1DRot(...)` (aper_model.py 248-250): `sigma_aper` and `V_RMS_aper`; the attribute `disp_aper_ratio` is their
quotient. -/
noncomputable def aperModel1DRot (m : RotModel) (t0 : Option ℝ) (t1 t2 : ℝ)
    (rows : (f : RotFixed) → (Fin (f.grid.nPixY + 2 * f.grid.padY) → Fin (f.grid.nPixX + 2 * f.grid.padX) → Fl ℝ) →
      Except PyErr (List ℝ × List (Fl ℝ))) : Except PyErr (Fl ℝ × Fl ℝ) :=
  match m.setup with
  | .error e => .error e
  | .ok f => (f.calc m t0 t1 t2 (rows f) ⟨none, none⟩).2

/-- `disp_aper_ratio` (aper_model.py 293) -/
noncomputable def aperRatio (p : Fl ℝ × Fl ℝ) : Fl ℝ := p.1 / p.2

end Misfit
