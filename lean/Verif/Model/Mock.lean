import Verif.Model.Cube3D
import Verif.Model.Continuum
import Verif.Model.Lines

/-!
# Mock slit observations and data cubes

Source: `misfit/mock/generate_basic.py` 18-138, with the constructors it uses
(`misfit/instrument.py` 40-62, 80-130, `misfit/galaxy.py` 62-66, 584-599, 816-847,
`misfit/model/kin_model.py` 25-45, 63-123, 160-190).

Simplifications: `slit_length`, `PSF_type` and `yshift` may keep their default `None`; the other
arguments without a usable default are given as numbers, `wave` as an array of finite numbers, `nymin`
and `nSubpixels` as natural numbers.  `kinProfile` is not given by the caller, so that all calls share
the one default object; `intensityProfile` neither, whose values are overwritten by every call before
they are used.  `do_position_wave_shift` and `do_inst_res_conv_effective` keep their default `False`.
-/

namespace Misfit

/-- The keyword arguments of `generate_mock_slit_obs` (generate_basic.py 18-47).  `ID`,
`instrument_name`, `band`, `line_primary` and `debug` do not enter the calculation; `psfBeta` stands for a
keyword argument `PSF_beta`, which ends up in the unused `**kwargs`. -/
structure MockArgs where
  z : ℝ
  va : ℝ
  rt : ℝ
  sigma0 : ℝ
  yshift : Option ℝ
  n : ℝ
  re : ℝ
  q : ℝ
  q0 : ℝ
  deltPA : ℝ
  dither : Bool
  wave : List ℝ
  pixscale : ℝ
  res : ℝ
  slitWidth : ℝ
  slitLength : Option ℝ
  nymin : Nat
  fwhm : ℝ
  psfType : Option (List Char)
  psfBeta : Option ℝ
  linegroup : Option String
  specType : SpecType
  nSubpixels : Nat
  padFactor : ℝ

/-- `Spectrograph(PSF_type=…)` (generate_basic.py 53-55, instrument.py 87): `None` has no `strip`. -/
def mockPsfKind (kw : Option (List Char)) : Except PyErr PSFKind :=
  match kw with
  | none => .error .attributeError
  | some s => psfKind (some s)

/-- `restwave_arr` and `flux_ratio_arr` of the spectrum (generate_basic.py 72-73): only set for
`spec_type='wave'`; otherwise not used. -/
def mockLines (st : SpecType) (group : Option String) : Except PyErr (List ℝ × List ℝ) :=
  match st with
  | .wave =>
    match initializeLineset group ⟨none, none, none⟩ with
    | .error e => .error e
    | .ok s => .ok ((s.waves.getD []).map (fun x : ℚ => (x : ℝ)), (s.ratios.getD []).map (fun x : ℚ => (x : ℝ)))
  | _ => .ok ([], [])

/-- What the arguments mean for the aperture model: `Spectrograph` is given neither `PSF_beta` (so 2.5 is used)
nor a dither separation (generate_basic.py 53-57), the galaxy is given `dither=False` (61-64), the options of the
model are the defaults apart from two numbers (84-87, kin_model.py 29-45).  `sini` is filled in by the aperture model. -/
noncomputable def mockCfg (npFloat : Bool) (a : MockArgs) (kind : PSFKind) (rows : Nat) (m0 : ℝ)
    (lines : List ℝ × List ℝ) (sini : ℝ) : AperCfg where
  nWhole := rows
  wave := a.wave
  restwave := lines.1
  ratios := lines.2
  m0 := m0
  sini := sini
  deltPA := a.deltPA
  pixscale := a.pixscale
  slit := a.slitWidth
  psf := ⟨kind, a.fwhm, 2.5, none⟩
  res := a.res
  slitMask := false
  int := intensity 1 a.n a.re a.q0
  nSubpixels := a.nSubpixels
  padFactor := a.padFactor
  xc := 0
  rebinOutput := true
  specType := a.specType
  absvalsigma := false
  adaptive := true
  factor := 3
  sigmaFloor := true
  npFloat := npFloat

/-- `generate_mock_basis` (generate_basic.py 50-113) up to the profile: PSF class, number of rows, `m0`, and the
lines; in the order in which the code can fail. -/
noncomputable def mockBasis (a : MockArgs) : Except PyErr (PSFKind × Nat × ℝ × (List ℝ × List ℝ)) :=
  match a.slitLength with
  | none => .error .typeError
  | some len =>
    match mockPsfKind a.psfType with
    | .error e => .error e
    | .ok kind =>
      match mockRows len a.pixscale a.nymin with
      | .error e => .error e
      | .ok (_, rows, m0) =>
        match mockLines a.specType a.linegroup with
        | .error e => .error e
        | .ok lines => .ok (kind, rows, m0, lines)

/-- The parameters, `np.array([Va, rt, sigma0, yshift, galaxy.z])` (generate_basic.py 97); `yshift` is read by
the aperture model only. -/
def mockTheta (a : MockArgs) (m : ℝ) : List ℝ := [a.va, a.rt, a.sigma0, m, a.z]

/-- `AperModel2D(...)` (kin_model.py 168-180), seen from the profile object it is given -/
noncomputable def mockBuild (cfg : AperCfg) (k : KinProfile) (theta : List ℝ) :
    KinProfile × Except PyErr (Option Arr2) :=
  match buildModel cfg k theta with
  | .error e => (k, .error e)
  | .ok (st, r) => (st.kin, r)

/-- The construction of the aperture model in `make_model` (kin_model.py 160-190, aper_model.py 654-748), with the
profile `k` after `update_theta`.  `sin_i` comes first; for `q > 1` it is NaN, and so is every intensity and every
pixel, while the exceptions are those of any other inclination.  With `yshift=None` the sum `m0 + None`
(aper_model.py 715) raises, after the grid spacings have been computed. -/
noncomputable def mockImage (npFloat : Bool) (a : MockArgs) (b : PSFKind × Nat × ℝ × (List ℝ × List ℝ))
    (k : KinProfile) : KinProfile × Except PyErr (Option Arr2) :=
  match sinI a.q a.q0 with
  | .error e => (k, .error e)
  | .ok s =>
    match a.yshift with
    | none =>
      match setupGrid (⟨b.2.1, a.nSubpixels, a.pixscale, a.slitWidth, a.fwhm, a.padFactor, 0, 0⟩ : GridIn ℝ) with
      | .error e => (k, .error e)
      | .ok _ => (k, .error .typeError)
    | some m =>
      match s with
      | .fin sini => mockBuild (mockCfg npFloat a b.1 b.2.1 b.2.2.1 b.2.2.2 sini) k (mockTheta a m)
      | _ =>
        let r := mockBuild (mockCfg npFloat a b.1 b.2.1 b.2.2.1 b.2.2.2 0) k (mockTheta a m)
        (r.1, r.2.map fun _ => none)

/-- `generate_mock_slit_obs(**kwargs)` (generate_basic.py 129-138): the new state of the shared default profile, and
the image or the exception.  No parameter is varied, so `make_model(theta_fitting=[])` leaves the parameters as they
are, and `no_scale=True`.  With `yshift=None` the parameter vector put into the profile contains `None` in a place the
profile does not read; it is modelled as 0. -/
noncomputable def mockSlit (npFloat : Bool) (kin : KinProfile) (a : MockArgs) :
    KinProfile × Except PyErr (Option Arr2) :=
  match mockBasis a with
  | .error e => (kin, .error e)
  | .ok b =>
    match kin.updateTheta (mockTheta a (a.yshift.getD 0)) with
    | .error e => (kin, .error e)
    | .ok k => mockImage npFloat a b k

/-- `make_3D_int_model(theta_fitting=[])` (generate_basic.py 119-120, kin_model.py 212-275) on the object of a mock: no
parameter is varied, no aperture model yet -/
noncomputable def mockCube (cfg : AperCfg) (k : KinProfile) (theta : List ℝ) : Except PyErr Cube3 :=
  let m := CubeModel.make ⟨KinParams.init theta (List.replicate 5 false), k, none, none⟩ cfg []
  match m.2, m.1.cube with
  | .error e, _ => .error e
  | .ok (), some c => .ok c
  | .ok (), none => .error .attributeError

/-- `generate_mock_IFU_cube(**kwargs)` (generate_basic.py 117-126) with the default `debug=False`; the state of the
shared profile is not followed here.  `sin_i` and `yshift=None` as in `mockImage`. -/
noncomputable def mockIFU (npFloat : Bool) (kin : KinProfile) (a : MockArgs) : Except PyErr Cube3 :=
  match mockBasis a with
  | .error e => .error e
  | .ok b =>
    match kin.updateTheta (mockTheta a (a.yshift.getD 0)) with
    | .error e => .error e
    | .ok k =>
      match sinI a.q a.q0 with
      | .error e => .error e
      | .ok s =>
        match a.yshift with
        | none =>
          match setupGrid (⟨b.2.1, a.nSubpixels, a.pixscale, b.2.1 * a.pixscale, a.fwhm, a.padFactor, 0, 0⟩ : GridIn ℝ) with
          | .error e => .error e
          | .ok _ => .error .typeError
        | some m =>
          match s with
          | .fin sini => mockCube (mockCfg npFloat a b.1 b.2.1 b.2.2.1 b.2.2.2 sini) k (mockTheta a m)
          | _ => (mockCube (mockCfg npFloat a b.1 b.2.1 b.2.2.1 b.2.2.2 0) k (mockTheta a m)).map
              fun c => Cube3.nan c.nW c.nY c.nX

/-- the shared default profile after a sequence of calls, exceptions caught by the caller -/
noncomputable def mockHistory (npFloat : Bool) (hist : List MockArgs) : KinProfile :=
  hist.foldl (fun k a => (mockSlit npFloat k a).1) KinProfile.fiducial

/-- the result of a call after a sequence of calls -/
noncomputable def mockAfter (npFloat : Bool) (hist : List MockArgs) (a : MockArgs) : Except PyErr (Option Arr2) :=
  (mockSlit npFloat (mockHistory npFloat hist) a).2

end Misfit
