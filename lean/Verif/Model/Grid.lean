import Verif.Model.Num
import Mathlib.Algebra.Order.Floor.Ring
import Mathlib.Algebra.Order.Round

/-!
# Model grid of the 2D aperture model

Source: `misfit/model/aper_model.py` 654-706.
-/

namespace Misfit

section
variable {K : Type} [Field K] [LinearOrder K] [IsStrictOrderedRing K] [FloorRing K]

/-- `np.round`: to the nearest integer, halves to the even one -/
def npRound (x : K) : ℤ :=
  let f := ⌊x⌋
  let d := x - f
  if d < 1 / 2 then f
  else if 1 / 2 < d then f + 1
  else if f % 2 = 0 then f else f + 1

/-- `np.linspace(a, b, num)` -/
def linspace (a b : K) (num : Nat) : List K :=
  (List.range num).map fun i : Nat => if num = 1 then a else (i : K) * ((b - a) / ((num : K) - 1)) + a

/-- What `setup_model_grid` reads: number of spatial rows, `nSubpixels`, `instrument.pixscale`,
`instrument.slit_width`, `PSF_FWHM`, `pad_factor`, `xc` and `m0_fit` -/
structure GridIn (K : Type) where
  nWhole : Nat
  S : Nat
  pixscale : K
  slit : K
  fwhm : K
  pad : K
  xc : K
  m0fit : K

/-- The grid attributes set by `setup_model_grid` -/
structure Grid (K : Type) where
  nPixY : Nat
  nPixX : Nat
  padX : Nat
  padY : Nat
  deltX : K
  deltY : K
  deltZ : K
  nX : Nat
  nY : Nat
  nZ : Nat
  xArr : List K
  yArr : List K
  zArr : List K

/-- number of unpadded pixels across the slit (aper_model.py 671-676) -/
def nPixXOf (g : GridIn K) (deltY yAper : K) (nPixY : Nat) : Nat :=
  if yAper = g.slit then nPixY else (⌈g.slit / deltY⌉).toNat

/-- `setup_model_grid`, the sizes and coordinates (aper_model.py 663-706, 713).  The number of
subpixels is a natural number, pixel scale and slit width are not negative, and the padding
`PSF_FWHM*pad_factor` is not negative (negative values would give negative sizes).  The divisions
by zero are Python float divisions. -/
def setupGrid (g : GridIn K) : Except PyErr (Grid K) :=
  if g.S = 0 then .error .zeroDivisionError
  else if g.pixscale = 0 then .error .zeroDivisionError
  else
    let nPixY := g.nWhole * g.S
    let deltY := g.pixscale / g.S
    let yAper := nPixY * deltY
    let nPixX := nPixXOf g deltY yAper nPixY
    if nPixX = 0 then .error .zeroDivisionError
    else
      let deltX := g.slit / nPixX
      let nPixZ := nPixY
      let deltZ := deltY
      let padY := (npRound (g.fwhm * g.pad / deltY)).toNat
      let padX := (npRound (g.fwhm * g.pad / deltX)).toNat
      let nX := nPixX + 2 * padX
      let nY := nPixY + 2 * padY
      let nZ := nPixZ
      let xArr := linspace (-((nPixX : K) / 2 + padX - 1 / 2) * deltX)
        (((nPixX : K) / 2 + padX - 1 / 2) * deltX) nX
      let xArr := xArr.map (· - g.xc)
      let zArr := linspace (-((nPixZ : K) / 2 - 1 / 2) * deltZ) (((nPixZ : K) / 2 - 1 / 2) * deltZ) nZ
      let yArr := linspace (-((padY : K) - 1 / 2) * deltY)
        ((((g.nWhole : K) - 1) * g.S + padY - 1 / 2) * deltY) nY
      let yArr := yArr.map (· - g.m0fit * g.S * deltY)
      .ok { nPixY, nPixX, padX, padY, deltX, deltY, deltZ, nX, nY, nZ, xArr, yArr, zArr }

end
end Misfit
