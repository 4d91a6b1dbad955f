import Verif.Model.KinModel

/-!
# Data cubes for integral field mocks

Source: `misfit/model/kin_model.py` 212-292 (`make_3D_int_model`, `update_3D_int_model`) and the attributes `spectra_cube`,
`spectra_cube_conv` of `AperModel2D` (aper_model.py 806-857).

The image itself is computed by the functions of `Verif.Model.Aper`; here the two cubes are exposed that the object keeps.
`debug` is not modelled.
-/

namespace Misfit

/-- a cube: wavelength, row, column; values may be non-finite -/
structure Cube3 where
  nW : Nat
  nY : Nat
  nX : Nat
  val : Fin nW → Fin nY → Fin nX → Fl ℝ

/-- element number `pos` of a cube in row-major order -/
noncomputable def Cube3.flat (a : Cube3) (pos : Nat) : Fl ℝ :=
  if h : pos / (a.nY * a.nX) < a.nW ∧ pos / a.nX % a.nY < a.nY ∧ pos % a.nX < a.nX then
    a.val ⟨_, h.1⟩ ⟨_, h.2.1⟩ ⟨_, h.2.2⟩
  else .nan

/-- `rebin` (kin_functions.py 409-416) of a cube: truncated factors, then `reshape`, which fails if the number of elements differs
(zero targets: division by zero, an unusable factor) -/
noncomputable def Cube3.rebin (a : Cube3) (p q w : Nat) : Except PyErr Cube3 :=
  if p = 0 ∨ q = 0 ∨ w = 0 then .error .valueError
  else
    let f0 := a.nW / p
    let f1 := a.nY / q
    let f2 := a.nX / w
    if p * f0 * (q * f1) * (w * f2) = a.nW * a.nY * a.nX then
      .ok ⟨p, q, w, fun i j k => ∑ s : Fin f0, ∑ t : Fin f1, ∑ u : Fin f2,
        a.flat (((((i * f0 + s) * q + j) * f1 + t) * w + k) * f2 + u)⟩
    else .error .valueError

/-- a cube of NaN -/
noncomputable def Cube3.nan (nW nY nX : Nat) : Cube3 := ⟨nW, nY, nX, fun _ _ _ => .nan⟩

/-- `spectra_cube` after `calculate_spectral_cube` (aper_model.py 806-815) -/
noncomputable def rawCube (cfg : AperCfg) (f : AperFixed) (kin : KinProfile) (wave : List ℝ) (sig : ℝ) :
    Except PyErr Cube3 :=
  match velCube cfg f kin with
  | none => .ok (Cube3.nan wave.length f.grid.nY f.grid.nX)
  | some V =>
    match addSigmaCollapseZ f.I V (fun _ _ _ => sig) wave.get f.z cfg.restwave cfg.ratios
        f.grid.deltZ cfg.specType with
    | .error e => .error e
    | .ok cube => .ok ⟨wave.length, f.grid.nY, f.grid.nX, cube⟩

/-- `PSF_convolve` (kin_functions.py 361-375) of a cube that may be non-finite; the FFT spreads NaN over everything -/
noncomputable def convCube (cfg : AperCfg) (f : AperFixed) (raw : Cube3) : Cube3 :=
  if 0 < cfg.psf.fwhm then
    match allFinite raw.val with
    | none => Cube3.nan raw.nW raw.nY raw.nX
    | some cube => ⟨raw.nW, raw.nY, raw.nX, psfConvolve cube cfg.psf.fwhm (cfg.psf.stamp f.xTrim f.yTrim)⟩
  else raw

/-- `spectra_cube_conv` after `trim_downsample_spectral_cube` (aper_model.py 821-848): rows `padY …` and columns `padX …` of the convolved
cube -/
noncomputable def trimmedCube (f : AperFixed) (conv : Cube3) : Cube3 :=
  ⟨conv.nW, f.grid.nPixY, f.grid.nPixX, fun w b a =>
    if h : b + f.grid.padY < conv.nY ∧ a + f.grid.padX < conv.nX then
      conv.val w ⟨b + f.grid.padY, h.1⟩ ⟨a + f.grid.padX, h.2⟩
    else .nan⟩

/-- the state of the aperture model and the dispersion with which `do_model_calcs` evaluates the cube (aper_model.py 635-641) -/
noncomputable def evalPoint (cfg : AperCfg) (s : AperState) (theta : List ℝ) : Option (AperState × ℝ) :=
  match s.kin.updateTheta theta with
  | .error _ => none
  | .ok k =>
    let s : AperState := { s with kin := k }
    let up := if cfg.adaptive then checkUpsample cfg s else (s, .ok ())
    match up.2 with
    | .error _ => none
    | .ok () =>
      let fl := applySigmaFloor cfg up.1
      match fl.2 with
      | .error _ => none
      | .ok sig => some (fl.1, sig)

/-- the cubes kept after an evaluation: raw, and convolved and trimmed -/
noncomputable def keptCubes (cfg : AperCfg) (s : AperState) (theta : List ℝ) : Option (Cube3 × Cube3) :=
  match evalPoint cfg s theta with
  | none => none
  | some (s1, sig) =>
    match rawCube cfg s1.fixed s1.kin s1.wave sig with
    | .error _ => none
    | .ok raw => some (raw, trimmedCube s1.fixed (convCube cfg s1.fixed raw))

/-- The attributes of `KinModel2D` used here: parameters, profile, aperture model, `model_cube`. -/
structure CubeModel where
  params : KinParams ℝ
  kin : KinProfile
  aper : Option (AperCfg × AperState)
  cube : Option Cube3

/-- The aperture model for a cube (kin_model.py 226-249): the slit becomes a square of the size of the image; `adaptive_upsample_factor` is not passed on,
so the default 3 is used. -/
noncomputable def ifuCfg (cfg : AperCfg) : AperCfg :=
  { cfg with slit := (cfg.nWhole : ℝ) * cfg.pixscale, rebinOutput := true, xc := 0, factor := 3 }

/-- `make_3D_int_model` (kin_model.py 212-275).  When the aperture model exists already, `n_pix_y_whole` is not bound. -/
noncomputable def CubeModel.make (m : CubeModel) (cfg : AperCfg) (fit : List ℝ) :
    CubeModel × Except PyErr Unit :=
  match m.params.update fit with
  | (p, some e) => ({ m with params := p }, .error e)
  | (p, none) =>
    match m.kin.updateTheta p.theta with
    | .error e => ({ m with params := p }, .error e)
    | .ok k =>
      let m := { m with params := p, kin := k }
      match m.aper with
      | none =>
        match setupCalcs (ifuCfg cfg) p.theta with
        | .error e => (m, .error e)
        | .ok f =>
          let s0 : AperState := ⟨f, k, cfg.wave, avgDiff cfg.wave⟩
          match doModelCalcs (ifuCfg cfg) s0 p.theta with
          | (s, .error e) => ({ m with kin := s.kin }, .error e)
          | (s, .ok _) =>
            let m := { m with kin := s.kin, aper := some (ifuCfg cfg, s) }
            match keptCubes (ifuCfg cfg) s0 p.theta with
            | none => (m, .error .valueError)
            | some (_, conv) =>
              match conv.rebin cfg.wave.length (cfg.nWhole + 2 * f.grid.padY) (cfg.nWhole + 2 * f.grid.padX) with
              | .error e => (m, .error e)
              | .ok c => ({ m with cube := some c }, .ok ())
      | some (cfg0, s) =>
        match doModelCalcs cfg0 { s with kin := k } p.theta with
        | (s', .error e) => ({ m with kin := s'.kin, aper := some (cfg0, s') }, .error e)
        | (s', .ok _) => ({ m with kin := s'.kin, aper := some (cfg0, s') }, .error .nameError)

/-- `update_3D_int_model` (kin_model.py 277-292): the cube before the convolution is copied. -/
noncomputable def CubeModel.update (m : CubeModel) (fit : List ℝ) : CubeModel × Except PyErr Unit :=
  match m.params.update fit with
  | (p, some e) => ({ m with params := p }, .error e)
  | (p, none) =>
    let m := { m with params := p }
    match m.aper with
    | none => (m, .error .attributeError)
    | some (cfg, s) =>
      match doModelCalcs cfg s p.theta with
      | (s', .error e) => ({ m with kin := s'.kin, aper := some (cfg, s') }, .error e)
      | (s', .ok _) =>
        let m := { m with kin := s'.kin, aper := some (cfg, s') }
        match keptCubes cfg s p.theta with
        | none => (m, .error .valueError)
        | some (raw, _) => ({ m with cube := some raw }, .ok ())

end Misfit
