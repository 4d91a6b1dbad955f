import Verif.Model.Masks
import Mathlib.Analysis.SpecialFunctions.Trigonometric.Arctan
import Mathlib.Analysis.SpecialFunctions.Trigonometric.Inverse

/-!
# Geometry: coordinates, inclination, misalignment, projections

Source: `misfit/model/kin_functions.py` 42-69, 516-522, `misfit/general/general_utils.py`
136-174, `misfit/general/galaxy_utils.py` 1311-1324.
-/

namespace Misfit

/-- degrees to radians (`np.radians`, `deg2rad`) -/
noncomputable def rad (d : ℝ) : ℝ := d * (Real.pi / 180)

/-- `transform_int_3d` (kin_functions.py 42-69) -/
noncomputable def transformInt3d (x y z deltPA iRad : ℝ) : ℝ × ℝ × ℝ :=
  let a := rad deltPA
  let xp := x * Real.cos a + y * Real.sin a
  let yp := -x * Real.sin a + y * Real.cos a
  let zp := z
  (Real.cos iRad * xp + Real.sin iRad * zp, yp, -Real.sin iRad * xp + Real.cos iRad * zp)

/-- `sin_i` (kin_functions.py 516-522).  The function is compiled by numba, whose scalar
division raises ZeroDivisionError. -/
noncomputable def sinI (q q0 : ℝ) : Except PyErr (Fl ℝ) :=
  if q < q0 then .ok 1
  else if 1 - q0 ^ 2 = 0 then .error .zeroDivisionError
  else .ok (Fl.sqrt (.fin ((1 - q ^ 2) / (1 - q0 ^ 2))))

/-- `np.arccos` (NaN outside [-1,1]) -/
noncomputable def Fl.arccos : Fl ℝ → Fl ℝ
  | .fin x => if -1 ≤ x ∧ x ≤ 1 then .fin (Real.arccos x) else .nan
  | _ => .nan

/-- `inclination_angle` (general_utils.py 173-174) on numpy floats -/
noncomputable def inclinationAngle (q q0 : ℝ) : Fl ℝ :=
  Fl.arccos (Fl.sqrt (Fl.fin (q ^ 2 - q0 ^ 2) / Fl.fin (1 - q0 ^ 2)))

/-- `y_proj_phys` (general_utils.py 136-137) -/
noncomputable def yProjPhys (re deltPA q : ℝ) : Fl ℝ :=
  Fl.fin (q * re) / Fl.fin (Real.sqrt ((q * Real.cos (rad deltPA)) ^ 2 + Real.sin (rad deltPA) ^ 2))

/-- `x_proj_phys` (general_utils.py 139-140) -/
noncomputable def xProjPhys (re deltPA q : ℝ) : Fl ℝ :=
  Fl.fin (q * re) /
    Fl.fin (Real.sqrt ((q * Real.cos (rad (90 - deltPA))) ^ 2 + Real.sin (rad (90 - deltPA)) ^ 2))

/-- `x_proj_major` (general_utils.py 142-146); the axis ratio argument is unused -/
noncomputable def xProjMajor (re deltPA : ℝ) : ℝ := |re * Real.sin (rad deltPA)|

/-- `y_proj_major` (general_utils.py 148-152) -/
noncomputable def yProjMajor (re deltPA : ℝ) : ℝ := |re * Real.cos (rad deltPA)|

/-- `r_unproj_major` (general_utils.py 154-157); the axis ratio argument is unused -/
noncomputable def rUnprojMajor (yProj deltPA : ℝ) : Fl ℝ :=
  Fl.abs (Fl.fin yProj / Fl.fin (Real.cos (rad deltPA)))

/-- `y_proj_major_inslit` (general_utils.py 159-171) -/
noncomputable def yProjMajorInslit (re deltPA slitWidth : ℝ) : Fl ℝ :=
  let hw := 1 / 2 * slitWidth
  let aSlit := Fl.abs (Fl.fin hw / Fl.fin (Real.sin (rad deltPA)))
  let xProj := |re * Real.sin (rad deltPA)|
  if xProj ≤ hw then .fin |re * Real.cos (rad deltPA)|
  else Fl.abs (aSlit * Fl.fin (Real.cos (rad deltPA)))

/-- The galaxy attributes used by `calculate_slit_offset_angles` -/
structure SlitAngles where
  generateModel : Bool
  /-- `galaxy.sersicPA`, `galaxy.spec2D.slit_PA`, `galaxy.pstamp.img_PA` -/
  sersicPA : ℝ
  slitPA : ℝ
  imgPA : ℝ
  deltPA : Option ℝ
  deltPAabs : Option ℝ

/-- `calculate_slit_offset_angles` (galaxy_utils.py 1311-1324).  `np.abs(None)` is a TypeError.
The three position angles are assumed to be set.  For a difference that is an odd multiple of 90
degrees the floating point tangent is a huge number of either sign; real arithmetic has no value,
and the theorems exclude that case. -/
noncomputable def calcSlitOffsetAngles (g : SlitAngles) : Except PyErr SlitAngles :=
  let g := if g.generateModel then g else
    let slitPAonImg := g.slitPA - g.imgPA
    let d := g.sersicPA - slitPAonImg
    { g with deltPA := some (Real.arctan (Real.tan (d * Real.pi / 180)) * 180 / Real.pi) }
  match g.deltPA with
  | none => .error .typeError
  | some d => .ok { g with deltPAabs := some |d| }

end Misfit
