import Verif.Model.Aper1D

/-!
# The dispersion aperture model of a flattened, misaligned galaxy as an object

Source: `misfit/model/aper_model.py` 184-222 (`AperModel1DDispMisalign`).
-/

namespace Misfit

/-- `AperModel1DDispMisalign(...)` (aper_model.py 184-220): the stamp left in the instrument, and the pair `sigma_ap`,
`sigma_e` whose quotient is the correction.  The grid is that of the major axis, the profiles have circularised radii.
As in `aperModel1DDisp` a Moffat profile with `fwhm = 0` or `beta = 0` is not modelled. -/
noncomputable def aperModel1DMisalign (quad : (ℝ → ℝ) → ℝ) (m : Disp1DModel) (deltPA : ℝ) :
    ConvStamp × Except PyErr (Fl ℝ × Fl ℝ) :=
  let re := m.re * Real.sqrt m.q
  let reMass := m.reMass * Real.sqrt m.qMass
  let g := setupDisp1D ⟨m.nPixels, m.re, m.q, deltPA, m.psf.fwhm, m.slit, m.width, m.xc, m.yc⟩
  let s := disp1DStamp m.psf g
  (s, (sigmaAperMisalign g m.slit m.q deltPA re reMass m.n m.rCore m.psf.fwhm s m.method).map fun a =>
    (a, sigmaE quad re m.n m.Ie m.d m.rCore reMass))

end Misfit
