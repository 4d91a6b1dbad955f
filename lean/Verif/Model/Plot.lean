import Verif.Model.Num
import Mathlib.Data.List.FinRange
import Mathlib.Analysis.SpecialFunctions.Complex.Arg

/-!
# Geometry and resampling helpers of the plotting package

Source: `misfit/plot/plot_utils.py`, `misfit/plot/plot_image_slit.py`.
-/

namespace Misfit

section box
variable {K : Type*} [Field K] [LinearOrder K]

/-- `np.average(x[1:] - x[:-1])` (plot_image_slit.py 492-493); NaN for fewer than two positions -/
def meanStep (x : List K) : Fl K :=
  .fin (List.zipWith (fun b a => b - a) (x.drop 1) x.dropLast).sum / .fin ((x.length - 1 : Nat) : K)

/-- One new pixel `[low, high]` of `box_integrate` before the division (plot_image_slit.py 500-541).
Positions `x` and values `y` of the old array have the same length `n` (simplification); `dx` is its
mean step.  `np.where(…)[0].max()` is the last index of the filtered range, `.min()` the first; the
exceptions of the empty cases are swallowed by the code, the terms are then missing. -/
def boxSum {n : Nat} (x y : Fin n → K) (dx low high : K) : K :=
  let inside := (List.finRange n).filter fun k => decide (low ≤ x k - dx / 2) && decide (x k + dx / 2 ≤ high)
  let left := ((List.finRange n).filter fun k => decide (x k - dx / 2 ≤ low)).getLast?
  let right := ((List.finRange n).filter fun k => decide (high ≤ x k + dx / 2)).head?
  (inside.map y).sum * dx + (match left with | some k => y k * (x k + dx / 2 - low) | none => 0) +
    (match right with | some k => y k * (high - (x k - dx / 2)) | none => 0)

/-- `box_integrate(x, y, x_new)` (plot_image_slit.py 486-550).  With a single old position the mean step is
NaN, every comparison is false and the sum stays 0; with a single new position everything is NaN. -/
def boxIntegrate {n : Nat} (x y : Fin n → K) (xnew : List K) : List (Fl K) :=
  match meanStep (List.ofFn x), meanStep xnew with
  | .fin dx, .fin dxn => xnew.map fun p => .fin (boxSum x y dx (p - dxn / 2) (p + dxn / 2)) / .fin dxn
  | _, .fin dxn => xnew.map fun _ => 0 / .fin dxn
  | _, _ => xnew.map fun _ => .nan

end box

/-- `arctan2(y, x)` -/
noncomputable def arctan2 (y x : ℝ) : ℝ := Complex.arg ⟨x, y⟩

/-- `pstamp_position_angle` (plot_utils.py 21-42): the header entries `CD2_1`, `CD2_2`, if present -/
noncomputable def pstampPositionAngle (cd21 cd22 : Option ℝ) : ℝ :=
  let c1 := cd21.getD 0
  let c2 := cd22.getD 0
  if c2 = 0 ∧ c1 = 0 then 0
  else if c2 = 0 then 90
  else arctan2 c1 c2 * 180 / Real.pi

/-- `pos_angle` (plot_utils.py 45-63) for the two unit strings; any other one raises ValueError.
Coordinates in radians; `np.tan` is the real tangent, so declinations of exactly ±90° are outside the
model's domain (they are not representable in floats either). -/
noncomputable def posAngle (ra1 dec1 ra2 dec2 : ℝ) (units : String) : Except PyErr ℝ :=
  let radiff := ra1 - ra2
  let angle := arctan2 (-Real.sin radiff)
    (Real.cos dec1 * Real.tan dec2 - Real.sin dec1 * Real.cos radiff)
  if units = "degrees" then .ok (angle * 180 / Real.pi)
  else if units = "radians" then .ok angle
  else .error .valueError

/-- `sign_from_pos_angle` (plot_utils.py 65-82).  `numpyFloat` tells whether the argument is a numpy float;
a plain Python float has no `.copy()`. -/
noncomputable def signFromPosAngle (numpyFloat : Bool) (a : ℝ) : Except PyErr ℝ :=
  let a := if a < 0 then a + 360 else a
  if a > 180 then
    if numpyFloat then
      let a := 360 - a
      if a > 90 then .ok (-1) else if a < 90 then .ok 1 else .ok 0
    else .error .attributeError
  else if a > 90 then .ok (-1) else if a < 90 then .ok 1 else .ok 0

/-- `y_sign_pos_angle` (plot_utils.py 84-86) -/
noncomputable def ySignPosAngle (numpyFloat : Bool) (a : ℝ) : Except PyErr ℝ := signFromPosAngle numpyFloat a

/-- `x_sign_pos_angle` (plot_utils.py 88-90) -/
noncomputable def xSignPosAngle (numpyFloat : Bool) (a : ℝ) : Except PyErr ℝ :=
  signFromPosAngle numpyFloat (a - 90)

/-- `rot_coord_angle` (plot_utils.py 119-132) -/
noncomputable def rotCoord (p : ℝ × ℝ) (th x0 y0 : ℝ) : ℝ × ℝ :=
  let a := p.1 - x0
  let b := p.2 - y0
  (a * Real.cos th - b * Real.sin th + x0, a * Real.sin th + b * Real.cos th + y0)

/-- What `rot_corner_coords` returns: two arrays, or two scalars for a single corner, or an exception. -/
inductive Corners where
  | arrays (xs ys : List ℝ)
  | scalars (x y : ℝ)

/-- `rot_corner_coords` (plot_utils.py 134-152).  `corners` is a flat pair after the first corner, so
`corners.T[0]` of a single corner is its first coordinate; without corners indexing fails. -/
noncomputable def rotCorners (coords : List (ℝ × ℝ)) (th x0 y0 : ℝ) : Except PyErr Corners :=
  match coords.map fun p => rotCoord p th x0 y0 with
  | [] => .error .indexError
  | [p] => .ok (.scalars p.1 p.2)
  | ps => .ok (.arrays (ps.map Prod.fst) (ps.map Prod.snd))

/-- `rot_object_center` (plot_utils.py 154-156) -/
noncomputable def rotObjectCenter (x0 y0 : ℝ) (cent : ℝ × ℝ) (angle : ℝ) : Except PyErr Corners :=
  rotCorners [(x0, y0)] angle cent.1 cent.2

/-- Where `rotate_pstamp` (plot_utils.py 93-116) moves the content of pixel position `p`:
`scipy.ndimage.rotate(…, axes=(1, 0), reshape=False)` rotates the content clockwise by `slit_PA - img_PA` degrees
about the centre of the stamp (direction as stated in the source comment, lines 108-109).  Interpolation is not modelled. -/
noncomputable def stampContentMove (slitPA imgPA : ℝ) (cent p : ℝ × ℝ) : ℝ × ℝ :=
  rotCoord p (-((slitPA - imgPA) * (Real.pi / 180))) cent.1 cent.2

/-- The object position used by `convolve_rot_gal` on the rotated stamp (plot_utils.py 196-197) -/
noncomputable def rotatedObject (slitPA : ℝ) (cent p : ℝ × ℝ) : Except PyErr Corners :=
  rotObjectCenter p.1 p.2 cent (-1 * slitPA * (Real.pi / 180))

end Misfit
