import Mathlib.Analysis.SpecialFunctions.Log.Base
import Verif.Model.Plot
import Verif.Model.PlotFit
import Verif.Model.Convolve
import Verif.Model.PSF
import Verif.Model.Grid
import Verif.Model.Geometry

/-!
# The plot of the image with the slit

Source: `misfit/plot/plot_image_slit.py` 38-481, `misfit/plot/plot_utils.py` 162-237.  World coordinates (astropy) and the
interpolation of `scipy.ndimage.rotate` are arguments: the pixel positions of the object and of the Sersic fit, and the
stamp after rotation.  Drawing is recorded as the numbers handed to matplotlib; the axes are given by the caller (`ax`).
-/

namespace Misfit

/-! ## Bringing the image to the resolution of the spectrum -/

/-- The default of `conv_sigma` as a full width (plot_image_slit.py 84-87): NaN when the image is less sharp than the
spectrum. -/
noncomputable def convFwhm (fwhmSpec fwhmImg : ℝ) : Fl ℝ := Fl.sqrt (.fin (fwhmSpec ^ 2 - fwhmImg ^ 2))

/-- The kernel of `convolve_rot_gal` (plot_utils.py 210-226): the PSF on the pixels of the stamp, around the position
of the object on the rotated stamp. -/
noncomputable def rotKernel (psf : PSF) (pix fwhm x0 y0 : ℝ) (ny nx : Nat) (j : Fin ny) (i : Fin nx) : ℝ :=
  ({ psf with fwhm := fwhm } : PSF).stampAt (((i.val : ℝ) - x0) * pix) (((j.val : ℝ) - y0) * pix)

/-- `convolve_rot_gal` (plot_utils.py 203-237) from the rotated stamp on, whose values are finite (simplification).  A
Gaussian of width 0 or NaN has NaN or only zeros on the grid; both give NaN everywhere after the division by the total. -/
noncomputable def convolveRot {ny nx : Nat} (psf : PSF) (pix : ℝ) (fwhm : Fl ℝ) (rot : Fin ny → Fin nx → ℝ) (x0 y0 : ℝ) :
    Except PyErr (Fin ny → Fin nx → Fl ℝ) :=
  match psf.kind, fwhm with
  | .moffat, .fin F =>
    if psf.beta = 0 ∨ F = 0 then .error .zeroDivisionError
    else
      let conv := convSame2 rot (rotKernel psf pix F x0 y0 ny nx)
      .ok fun y x => .fin (conv y x) * (.fin (∑ y, ∑ x, rot y x) / .fin (∑ y, ∑ x, conv y x))
  | .moffat, _ => if psf.beta = 0 then .error .zeroDivisionError else .ok fun _ _ => .nan
  | .gaussian, .fin F =>
    if F = 0 then .ok fun _ _ => .nan
    else
      let conv := convSame2 rot (rotKernel psf pix F x0 y0 ny nx)
      .ok fun y x => .fin (conv y x) * (.fin (∑ y, ∑ x, rot y x) / .fin (∑ y, ∑ x, conv y x))
  | .gaussian, _ => .ok fun _ _ => .nan

/-! ## Downsampling -/

/-- the number in a finite value; only used where all values are finite -/
def Fl.num {K : Type*} [Zero K] : Fl K → K
  | .fin a => a
  | _ => 0

/-- `box_integrate_pstamp` (plot_image_slit.py 460-481): rows first, then columns.  The result is indexed by new row,
then new column (`boxIntegrate` has one entry for each new position).  When an intermediate value is not finite, which
takes fewer than two pixels along an axis, the row is given as NaN (simplification). -/
def boxIntegratePstamp {K : Type*} [Field K] [LinearOrder K] {ny nx my mx : Nat} (img : Fin ny → Fin nx → K) (x : Fin nx → K)
    (y : Fin ny → K) (xnew : Fin mx → K) (ynew : Fin my → K) (j : Fin my) (p : Fin mx) : Fl K :=
  let tmp : Fin nx → Fl K := fun i => (boxIntegrate y (fun k => img k i) (List.ofFn ynew)).getD j .nan
  if ∀ i, (tmp i).isFinite = true then (boxIntegrate x (fun i => (tmp i).num) (List.ofFn xnew)).getD p .nan
  else .nan

/-! ## The panel -/

/-- Arguments of `plot_image_slit` -/
structure SlitOpts where
  m0 : Option ℝ
  rotate : Bool
  convolve : Bool
  downsample : Bool
  nSpatial : Option Nat
  showGalfit : Bool
  verbose : Bool

/-- What is read of galaxy and instruments.  `hasRe`: `re_arcsec` is an attribute; `obj`, `gal`: pixel positions (x, y)
of the object and of the Sersic fit on the stamp; `spec2D`: `slit_PA` and `yoffset`, `spec1D`: `slit_PA`;
`slitLength`: outer `none` if the attribute is missing; `reKpc`: `none` if it is missing, `None` or zero.  `raw` is the
stamp, `turned` and `blurred` are the outcomes of `rotate_pstamp` and of `convolve_rot_gal`, all with finite values (simplification;
the latter without infinities or NaN is `convolveRot`).  `pixImg` and
`pixSpec` are the pixel scales, which are not zero, `fwhm` the width of the PSF of the spectrum. -/
structure SlitIn (ny nx : Nat) where
  hasRe : Bool
  re : ℝ
  q : ℝ
  reKpc : Option ℝ
  sersicPA : ℝ
  imgPA : ℝ
  spec2D : Option (Option ℝ × Option ℝ)
  spec1D : Option (Option ℝ)
  obj : ℝ × ℝ
  gal : ℝ × ℝ
  raw : Fin ny → Fin nx → ℝ
  turned : Except PyErr (Fin ny → Fin nx → ℝ)
  blurred : Except PyErr (Fin ny → Fin nx → ℝ)
  pixImg : ℝ
  pixSpec : ℝ
  fwhm : ℝ
  slitWidth : ℝ
  slitLength : Option (Option ℝ)

/-- `slit_PA - img_PA`, of the 2D spectrum or else of the 1D spectrum (plot_image_slit.py 125-130, 293-298) -/
def SlitIn.slitAngle {ny nx : Nat} (g : SlitIn ny nx) : Except PyErr ℝ :=
  match g.spec2D with
  | some (some a, _) => .ok (a - g.imgPA)
  | _ =>
    match g.spec1D with
    | none => .error .attributeError
    | some none => .error .typeError
    | some (some a) => .ok (a - g.imgPA)

/-- the stamp in the panel (plot_image_slit.py 113-123, 138-144): `convolve` is looked at only when rotating -/
def SlitIn.stamp {ny nx : Nat} (g : SlitIn ny nx) (o : SlitOpts) : Except PyErr (Fin ny → Fin nx → ℝ) :=
  if o.rotate then (if o.convolve then g.blurred else g.turned) else .ok g.raw

/-- `np.median` of a sorted list -/
def medianSorted {K : Type*} [Field K] (l : List K) : Fl K :=
  match l[(l.length - 1) / 2]?, l[l.length / 2]? with
  | some a, some b => .fin ((a + b) / 2)
  | _, _ => .nan

/-- the finite numbers among the values of the cut-out (plot_image_slit.py 256-258), in order -/
def finiteNums {K : Type*} : List (Fl K) → List K
  | [] => []
  | .fin a :: l => a :: finiteNums l
  | _ :: l => finiteNums l

/-- The median of the lower half of the absolute values in the field of view (plot_image_slit.py 252-263).  The
rounded limits are used as a Python slice. -/
def fieldNoise {K : Type} [Field K] [LinearOrder K] [IsStrictOrderedRing K] [FloorRing K] {ny nx : Nat} (img : Fin ny → Fin nx → Fl K)
    (xlim ylim : K × K) : Fl K :=
  let rows := (List.finRange ny).filter fun j =>
    decide (pySliceBound ny (npRound ylim.1) ≤ j.val) && decide (j.val < pySliceBound ny (npRound ylim.2))
  let cols := (List.finRange nx).filter fun i =>
    decide (pySliceBound nx (npRound xlim.1) ≤ i.val) && decide (i.val < pySliceBound nx (npRound xlim.2))
  let vals := (finiteNums (rows.flatMap fun j => cols.map fun i => img j i)).map (|·|)
  medianSorted ((vals.insertionSort (· ≤ ·)).take ((vals.length + 1) / 2))

/-- The value of a pixel on the colour scale of the panel (plot_image_slit.py 265-271 and the linear scale of `imshow`): 0 at `vmin`, 1 at `vmax`,
for a positive noise level; `np.log10` of zero is minus infinity and of a negative number NaN. -/
noncomputable def imageShade (noise v : ℝ) : Fl ℝ :=
  let vmin := Real.logb 10 ((-1 + 3) * noise)
  let vmax := Real.logb 10 ((100 + 3) * noise)
  if 0 < v + noise * 3 then .fin ((Real.logb 10 (v + noise * 3) - vmin) / (vmax - vmin))
  else if v + noise * 3 = 0 then .ninf
  else .nan

/-- The numbers drawn. -/
structure SlitPlot where
  /-- pixel scale of the panel -/
  scale : ℝ
  xlim : ℝ × ℝ
  ylim : ℝ × ℝ
  noise : Fl ℝ
  /-- corners of the slit, the first one repeated -/
  slit : List (ℝ × ℝ)
  /-- position of the object, centre of the ellipse, minor and major half axis in pixels, angle in degrees -/
  obj : ℝ × ℝ
  centre : ℝ × ℝ
  semi : ℝ × ℝ
  angle : ℝ
  bar : ℝ

/-- Side of the field of view in pixels (plot_image_slit.py 224-233) -/
noncomputable def trimSize (n : Option Nat) (pixSpec scale : ℝ) : ℝ :=
  match n with
  | none => 2 / scale
  | some n => if 2 / scale * scale ≠ n * pixSpec then n * pixSpec / scale else 2 / scale

/-- Lower and upper limit of the panel (plot_image_slit.py 238-244) -/
noncomputable def panelYlim (m0 : Option ℝ) (y0 trim pixSpec scale : ℝ) : ℝ × ℝ :=
  let ylim := (y0 - trim / 2, y0 + trim / 2)
  match m0 with
  | none => ylim
  | some m0 =>
    let off := (y0 - ylim.1) - (m0 + 1 / 2) * pixSpec / scale
    (ylim.1 + off, ylim.2 + off)

/-- From the image in the panel on (plot_image_slit.py 223-449): `obj`, `gal` positions in the panel, `noise` of an
image for given limits.  Limits of the field of view, corners of the slit, ellipse, length of the bar. -/
noncomputable def slitPanel {ny nx : Nat} (o : SlitOpts) (g : SlitIn ny nx) (scale : ℝ) (rows : Nat) (obj gal : ℝ × ℝ)
    (noise : ℝ × ℝ → ℝ × ℝ → Fl ℝ) : Except PyErr SlitPlot :=
  let trim := trimSize o.nSpatial g.pixSpec scale
  let xlim := (gal.1 - trim / 2, gal.1 + trim / 2)
  let ylim := panelYlim o.m0 gal.2 trim g.pixSpec scale
  let len : Option ℝ := match g.slitLength with
    | none => some (rows + 20)
    | some l => l
  match (if o.rotate then (.ok 0 : Except PyErr ℝ) else g.slitAngle) with
  | .error e => .error e
  | .ok slitAngle =>
    match g.spec2D with
    | none => .error .attributeError
    | some (_, none) => .error .typeError
    | some (_, some yoffset) =>
      match len with
      | none => .error .typeError
      | some len =>
        let y0 := yoffset / g.pixSpec
        let w := g.slitWidth / scale
        let shear := w * Real.tan ((4 - 0.22) * (Real.pi / 180))
        let corner (a b : ℝ) := rotCoord (a, b) (slitAngle * (Real.pi / 180)) obj.1 obj.2
        let c11 := corner (obj.1 - w / 2) (obj.2 - y0 - 1 / 2 * len / scale + shear)
        let c12 := corner (obj.1 - w / 2) (obj.2 - y0 + 1 / 2 * len / scale)
        let c21 := corner (obj.1 + w / 2) (obj.2 - y0 - 1 / 2 * len / scale)
        let c22 := corner (obj.1 + w / 2) (obj.2 - y0 + 1 / 2 * len / scale - shear)
        match (if o.rotate then g.slitAngle else .ok 0) with
        | .error e => .error e
        | .ok turn =>
          let angle := Real.arctan (Real.tan ((g.sersicPA - turn) * Real.pi / 180)) * 180 / Real.pi
          let major := if o.convolve then convolvedRadius g.re g.fwhm else g.re
          let minor := if o.convolve then convolvedRadius (g.re * g.q) g.fwhm else g.re * g.q
          .ok { scale := scale, xlim := xlim, ylim := ylim, noise := noise xlim ylim, slit := [c11, c21, c22, c12, c11],
                obj := obj, centre := gal, semi := (minor / scale, major / scale), angle := angle,
                bar := match g.reKpc with
                  | some k => g.re / k / scale
                  | none => 0.25 / scale }

/-- Number of pixels along an axis of the downsampled stamp (plot_image_slit.py 166) -/
noncomputable def nRound (ny : Nat) (pixImg pixSpec : ℝ) : ℤ := ⌊(ny : ℝ) * pixImg / pixSpec⌋

/-- `plot_image_slit` (plot_image_slit.py 38-456) with given axes.  Without `re_arcsec` or `show_galfit` the position of the
Sersic fit is not bound (UnboundLocalError, a NameError).  `np.linspace` with a negative number of points is a ValueError;
the array of positions is printed with a format for numbers when `verbose` is set. -/
noncomputable def plotImageSlit {ny nx : Nat} (o : SlitOpts) (g : SlitIn ny nx) : Except PyErr SlitPlot :=
  match g.stamp o, (if o.rotate then g.slitAngle else .ok 0) with
  | .error e, _ => .error e
  | _, .error e => .error e
  | .ok img, .ok turn =>
    if g.hasRe && o.showGalfit then
      let cent : ℝ × ℝ := (((nx : ℝ) - 1) / 2, ((ny : ℝ) - 1) / 2)
      let gal := if o.rotate then rotCoord g.gal (-1 * turn * (Real.pi / 180)) cent.1 cent.2 else g.gal
      let obj := if o.rotate then rotCoord g.obj (-1 * turn * (Real.pi / 180)) cent.1 cent.2 else g.obj
      if o.downsample then
        if nRound ny g.pixImg g.pixSpec < 0 then .error .valueError
        else
          let n := (nRound ny g.pixImg g.pixSpec).toNat
          match o.m0 with
          | none => .error .typeError
          | some m0 =>
            if o.verbose then .error .typeError
            else
              let xcent := ((n : ℝ) - 1) / 2
              let new : Fin n → Fin n → Fl ℝ := boxIntegratePstamp img (fun i : Fin nx => ((i.val : ℝ) - gal.1) * g.pixImg)
                (fun j : Fin ny => ((j.val : ℝ) - gal.2) * g.pixImg) (fun i : Fin n => ((i.val : ℝ) - xcent) * g.pixSpec)
                (fun j : Fin n => ((j.val : ℝ) - m0) * g.pixSpec)
              let xtr (x : ℝ) := (x - gal.1) * g.pixImg / g.pixSpec + xcent
              let ytr (y : ℝ) := (y - gal.2) * g.pixImg / g.pixSpec + m0
              slitPanel o g g.pixSpec n (xtr obj.1, ytr obj.2) (xtr gal.1, ytr gal.2) (fieldNoise new)
      else slitPanel o g g.pixImg ny obj gal (fieldNoise fun j i => .fin (img j i))
    else .error .nameError

end Misfit
