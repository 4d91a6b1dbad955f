import Verif.Model.Collapse

/-!
# Point spread function

Source: `misfit/instrument.py` 15-98, 143-185.
-/

namespace Misfit

/-- the two PSF classes -/
inductive PSFKind | gaussian | moffat
  deriving DecidableEq

/-- The class chosen by `Instrument.__init__` (instrument.py 87-93) for the keyword `PSF_type`
(`none`: keyword missing, a KeyError).  `strip` is modelled on spaces. -/
def psfKind (kw : Option (List Char)) : Except PyErr PSFKind :=
  match kw with
  | none => .error .keyError
  | some s =>
    let t := ((s.dropWhile (· == ' ')).reverse.dropWhile (· == ' ')).reverse.map Char.toLower
    if t = "gaussian".toList then .ok .gaussian
    else if t = "moffat".toList then .ok .moffat
    else .ok .gaussian

/-- A PSF object: class, `PSF_FWHM`, `PSF_beta`, `yspace_dither_arc` -/
structure PSF where
  kind : PSFKind
  fwhm : ℝ
  beta : ℝ
  dither : Option ℝ

/-- one Gaussian of `PSF_stamp_gauss` (instrument.py 153, 156-157); meaningful for `fwhm ≠ 0` -/
noncomputable def gaussStampAt (fwhm x y : ℝ) : ℝ :=
  let sigma := fwhm / (2 * Real.sqrt (2 * Real.log 2))
  Real.exp (-(x ^ 2 + y ^ 2) / (2 * sigma ^ 2))

/-- one Moffat of `PSF_stamp_moffat` (instrument.py 175-176); meaningful for `alpha ≠ 0` -/
noncomputable def moffatStampAt (alpha beta x y : ℝ) : ℝ :=
  (beta - 1) / (Real.pi * alpha ^ 2) * (1 + (x ^ 2 + y ^ 2) / alpha ^ 2) ^ (-beta)

/-- the negative dither images (instrument.py 155-158, 178-183) -/
noncomputable def withDither (f : ℝ → ℝ → ℝ) (dither : Option ℝ) (x y : ℝ) : ℝ :=
  match dither with
  | none => f x y
  | some s => f x y - 1 / 2 * (f x (y + s) + f x (y - s))

/-- `generate_conv_stamp` (instrument.py 47-52, 63-71) at one point of the grid; the pixel in row
`j` and column `i` of the stamp is the value at `(x[i], y[j])`.  The Moffat class does not pass
the dither separation on. -/
noncomputable def PSF.stampAt (p : PSF) (x y : ℝ) : ℝ :=
  match p.kind with
  | .gaussian => withDither (gaussStampAt p.fwhm) p.dither x y
  | .moffat =>
    let alpha := p.fwhm / (2 * Real.sqrt ((2 : ℝ) ^ (1 / p.beta) - 1))
    withDither (moffatStampAt alpha p.beta) none x y

/-- Computing the stamp of a Moffat PSF raises ZeroDivisionError for `PSF_beta = 0` (`1./beta`, instrument.py 69) and
for `PSF_FWHM = 0`: then `alpha` is 0 and `(beta-1)/(np.pi*alpha**2)` (instrument.py 175) is a division of two
scalars in a function compiled by numba, which raises as Python does.  The Gaussian divides arrays only. -/
def PSF.StampFails (p : PSF) : Prop := p.kind = .moffat ∧ (p.fwhm = 0 ∨ p.beta = 0)

/-- the whole stamp -/
noncomputable def PSF.stamp (p : PSF) (xs ys : List ℝ) : Fin ys.length → Fin xs.length → ℝ :=
  fun j i => p.stampAt (xs.get i) (ys.get j)

end Misfit
