import Verif.Model.Geometry
import Mathlib.Analysis.SpecialFunctions.Pow.Real

/-!
# Kinematic and intensity profiles

Source: `misfit/model/kin_classes.py` 15-271, `misfit/model/kin_functions.py` 998-1062,
`misfit/model/aper_model.py` 768-789.
-/

namespace Misfit

/-- `np.arctan` -/
noncomputable def Fl.arctan : Fl ℝ → Fl ℝ
  | .fin x => .fin (Real.arctan x)
  | .pinf => .fin (Real.pi / 2)
  | .ninf => .fin (-(Real.pi / 2))
  | .nan => .nan

/-- `VelArctanProfile.vel` (kin_classes.py 69-73) at one radius.  A missing parameter is an
IndexError, which the blanket `except` turns into `inf`. -/
noncomputable def velArctan (theta : List ℝ) (r : ℝ) : Fl ℝ :=
  match theta[0]?, theta[1]? with
  | some va, some rt => Fl.fin (2 / Real.pi * va) * Fl.arctan (Fl.fin r / Fl.fin rt)
  | _, _ => .pinf

/-- `DispConstProfile.sigma` (kin_classes.py 93-94) at one radius -/
def dispConst (theta : List ℝ) (r : ℝ) : Except PyErr ℝ :=
  match theta[0]? with
  | some s => .ok (0 * r + s)
  | none => .error .indexError

/-- A velocity or dispersion profile object: its current parameters and `n_params` (set by
`KinProfile.setup_profiles`). -/
structure Profile where
  theta : List ℝ
  nParams : Nat

/-- `KinProfile` (kin_classes.py 97-121) without the names -/
structure KinProfile where
  theta : List ℝ
  vel : Option Profile
  disp : Option Profile

/-- `KinProfile.setup_profiles` (kin_classes.py 117-121) -/
def KinProfile.setup (k : KinProfile) : KinProfile :=
  { k with vel := k.vel.map fun p => { p with nParams := p.theta.length }
           disp := k.disp.map fun p => { p with nParams := p.theta.length } }

/-- `KinProfileFiducial` (kin_classes.py 148-158) without keyword arguments -/
def KinProfile.fiducial : KinProfile :=
  KinProfile.setup { theta := [], vel := some ⟨[0, 0], 0⟩, disp := some ⟨[0], 0⟩ }

/-- `KinProfile.update_theta` (kin_classes.py 125-137).  With a dispersion profile but no
velocity profile `self.velProfile.n_params` is an AttributeError. -/
def KinProfile.updateTheta (k : KinProfile) (theta : List ℝ) : Except PyErr KinProfile :=
  let k : KinProfile := { k with theta := theta }
  let k : KinProfile := { k with vel := k.vel.map fun p : Profile => { p with theta := theta.take p.nParams } }
  match k.disp with
  | none => .ok k
  | some d =>
    match k.vel with
    | none => .error .attributeError
    | some v => .ok { k with disp := some { d with
        theta := (theta.drop v.nParams).take (v.nParams + d.nParams - v.nParams) } }

/-- `KinProfile.vel` with the arctan profile (kin_classes.py 139-141) -/
noncomputable def KinProfile.velAt (k : KinProfile) (r : ℝ) : Except PyErr (Fl ℝ) :=
  match k.vel with
  | none => .error .attributeError
  | some p => .ok (velArctan p.theta r)

/-- `KinProfile.sigma` with the constant profile (kin_classes.py 143-144) -/
def KinProfile.sigmaAt (k : KinProfile) (r : ℝ) : Except PyErr ℝ :=
  match k.disp with
  | none => .error .attributeError
  | some p => dispConst p.theta r

/-- Line-of-sight velocity of the 2D model at one grid point (aper_model.py 717-719, 775-779):
`cos_phi = yint/r`, replaced by 0 where `r == 0`, times rotation velocity times `sini`. -/
noncomputable def losVelocity (theta : List ℝ) (sini xint yint : ℝ) : Fl ℝ :=
  let r := Real.sqrt (xint ^ 2 + yint ^ 2)
  let cosPhi : Fl ℝ := if r = 0 then .fin 0 else Fl.fin yint / Fl.fin r
  velArctan theta r * cosPhi * Fl.fin sini

/-- `IntProfileSersic.int` (kin_classes.py 239-242) with `Ie = 1`.  Meaningful for `re > 0`,
`n ≠ 0`, `r ≥ 0` (otherwise numpy gives NaN or infinities, or Python ZeroDivisionError). -/
noncomputable def intSersic (n re r : ℝ) : ℝ :=
  let bn := 2 * n - 0.324
  1 * Real.exp (-bn * ((r / re) ^ (1 / n) - 1))

/-- `IntProfileExpZ.int` and `update_values` (kin_classes.py 251-256); `scale = 1` is
`IntProfileExpZ`, `scale = 1.676` is `IntProfileExpZScale` (266-271) -/
noncomputable def intExpZ (scale q0 re z : ℝ) : ℝ :=
  let z0 := q0 * (re / scale)
  Real.exp (-|z| / z0)

/-- `IntensityProfile.int` (kin_classes.py 176-177) with the Sersic and exponential factors;
`scale = 1` is `IntensityProfileFiducial`, `scale = 1.676` `IntensityProfileSersicExpScale`. -/
noncomputable def intensity (scale n re q0 r z : ℝ) : ℝ :=
  intSersic n re r * intExpZ scale q0 re z

/-- `sigma_profile` (kin_functions.py 1032-1041) -/
noncomputable def sigmaProfile (r re d rCore : ℝ) : ℝ :=
  let rc := rCore * re
  let cnst := 1 / ((re + rc) / re) ^ d
  cnst * ((r + rc) / re) ^ d

/-- `I_sersic` (kin_functions.py 1054-1062) -/
noncomputable def iSersic (r re n Ie rCore : ℝ) : ℝ :=
  let bn := 2 * n - 0.324
  let rc := rCore * re
  Ie * Real.exp (-bn * (((r + rc) / re) ^ (1 / n) - 1))

/-- `r_int_ellip` (kin_functions.py 1012-1021) -/
noncomputable def rIntEllip (x y q deltPA : ℝ) : ℝ :=
  let yp := Real.sin (rad deltPA) * x + Real.cos (rad deltPA) * y
  let xp := Real.cos (rad deltPA) * x - Real.sin (rad deltPA) * y
  Real.sqrt (q * yp ^ 2 + 1 / q * xp ^ 2)

/-- `disp_square` (kin_functions.py 998-1006), slope at its default -0.089 -/
noncomputable def dispSquare (x y q deltPA reMass rCore : ℝ) : ℝ :=
  sigmaProfile (rIntEllip x y q deltPA) reMass (-0.089) rCore ^ 2

/-- `Igal` (kin_functions.py 1044-1050) -/
noncomputable def iGal (x y re n q deltPA rCore : ℝ) : ℝ :=
  iSersic (rIntEllip x y q deltPA) re n 1 rCore

end Misfit
