import Verif.Model.Aper
import Verif.Model.Params
import Verif.Model.Chisq

/-!
# The 2D kinematic model object

Source: `misfit/model/kin_model.py` 57-208, 333-350 (class `KinModel2D`), `misfit/fit/fit_core.py`
138-183, 832-905 and `misfit/fit/fit2D.py` 330-390 (how a fit uses it).

`KinModel2D` owns the full parameter vector and the stored model image; the expensive part is the
`AperModel2D` of `Verif.Model.Aper`, built by the first successful `make_model` and reused later.
Simplifications: all galaxies passed to one object have the same image size `r × c`; the parameter
vector is finite; `debug` and the IFU cubes are not part of this file.
-/

namespace Misfit
variable {r c : Nat}

/-- What `make_model` is called with: galaxy and instrument (with the intensity profile and the
options of the object these determine the aperture model), the data, and `spec2D.wh_nosky`
(`none`: not set, as for mock galaxies). -/
structure KinInput (r c : Nat) where
  cfg : AperCfg
  rows : cfg.nWhole = r
  cols : cfg.wave.length = c
  data : FitData r c ℝ
  nosky : Option (List (Fin c))

/-- The attributes of `KinModel2D` (kin_model.py 71-102): parameters, `kinProfile`, `no_scale`,
`aperModel` (`none`: not built yet) with the galaxy it was built for, and `model`. -/
structure KinModelState (r c : Nat) where
  params : KinParams ℝ
  kin : KinProfile
  noScale : Bool
  aper : Option (KinInput r c × AperState)
  model : Option (Img r c ℝ)

/-- `KinModel2D.__init__` (kin_model.py 63-123): no aperture model and no image yet. -/
def KinModelState.init (theta : List ℝ) (vary : List Bool) (kin : KinProfile) (noScale : Bool) :
    KinModelState r c := ⟨KinParams.init theta vary, kin, noScale, none, none⟩

/-- The image of the aperture model as an array of floats; `none` is the image of NaNs.  The sizes
agree for every image the code returns (`C38_shape`). -/
def toImg (r c : Nat) : Option Arr2 → Img r c ℝ
  | none => fun _ _ => .nan
  | some a => fun i j =>
      if h : a.n = r ∧ a.m = c then .fin (a.val (Fin.cast h.1.symm i) (Fin.cast h.2.symm j)) else .nan

/-- The aperture model is built with the default `rebin_output` and `xc` (kin_model.py 168-180,
aper_model.py 527-532). -/
def KinInput.aperCfg (g : KinInput r c) : AperCfg := { g.cfg with rebinOutput := true, xc := 0 }

/-- The end of `make_model` and `update_model` (kin_model.py 187-190, 205-208): copy the image, then
scale it. -/
noncomputable def finishModel (m : KinModelState r c) (g : KinInput r c) (img : Option Arr2) :
    KinModelState r c × Except PyErr Unit :=
  let im := toImg r c img
  if m.noScale then ({ m with model := some im }, .ok ())
  else
    match g.nosky with
    | none => ({ m with model := some im }, .error .attributeError)
    | some cols => ({ m with model := some (scaleModel g.data.flux g.data.err im cols) }, .ok ())

/-- Evaluation with an existing aperture model (kin_model.py 185, 204). -/
noncomputable def evalExisting (m : KinModelState r c) (g : KinInput r c) (s : AperState) :
    KinModelState r c × Except PyErr Unit :=
  let res := updateModel g.aperCfg s m.params.theta
  let m' := { m with kin := res.1.kin, aper := some (g, res.1) }
  match res.2 with
  | .error e => (m', .error e)
  | .ok img => finishModel m' g img

/-- `KinModel2D.make_model` (kin_model.py 160-190).  If the constructor of the aperture model raises,
`aperModel` stays `None`.  `kinProfile` is one object shared with the aperture model. -/
noncomputable def KinModelState.make (m : KinModelState r c) (g : KinInput r c) (fit : List ℝ) :
    KinModelState r c × Except PyErr Unit :=
  match m.params.update fit with
  | (p, some e) => ({ m with params := p }, .error e)
  | (p, none) =>
    match m.kin.updateTheta p.theta with
    | .error e => ({ m with params := p }, .error e)
    | .ok k =>
      let m := { m with params := p, kin := k }
      match m.aper with
      | none =>
        match buildModel g.aperCfg k p.theta with
        | .error e => (m, .error e)
        | .ok (s, .error e) => ({ m with kin := s.kin }, .error e)
        | .ok (s, .ok img) => finishModel { m with kin := s.kin, aper := some (g, s) } g img
      | some (g0, s) => evalExisting m g0 { s with kin := k }

/-- `KinModel2D.update_model` (kin_model.py 192-208) -/
noncomputable def KinModelState.update (m : KinModelState r c) (fit : List ℝ) :
    KinModelState r c × Except PyErr Unit :=
  match m.params.update fit with
  | (p, some e) => ({ m with params := p }, .error e)
  | (p, none) =>
    match m.aper with
    | none => ({ m with params := p }, .error .attributeError)
    | some (g, s) => evalExisting { m with params := p } g s

/-- A call on the object: `make_model` or `update_model`. -/
inductive KinCall (r c : Nat)
  | make (g : KinInput r c) (fit : List ℝ)
  | update (fit : List ℝ)

/-- one call -/
noncomputable def KinModelState.step (m : KinModelState r c) : KinCall r c →
    KinModelState r c × Except PyErr Unit
  | .make g fit => m.make g fit
  | .update fit => m.update fit

/-- a sequence of calls, exceptions caught by the caller -/
noncomputable def KinModelState.run (m : KinModelState r c) (calls : List (KinCall r c)) :
    KinModelState r c := calls.foldl (fun m call => (m.step call).1) m

/-- `model_llike()` (kin_model.py 295, 333-350): the data of the galaxy of the aperture model, the stored
image. -/
noncomputable def KinModelState.llike (m : KinModelState r c) : Except PyErr (Fl ℝ) :=
  match m.aper, m.model with
  | some (g, _), some im => .ok (modelLlike g.data im)
  | _, _ => .error .attributeError

/-- `lnlike` (fit_core.py 150-166) -/
noncomputable def KinModelState.lnlike (m : KinModelState r c) (fit : List ℝ) :
    KinModelState r c × Except PyErr (Fl ℝ) :=
  match m.update fit with
  | (m', .error e) => (m', .error e)
  | (m', .ok ()) => (m', m'.llike)

/-- the number in a float that is known to be finite -/
def Fl.finVal : Fl ℝ → ℝ
  | .fin a => a
  | _ => 0

/-- `lnprob` (fit_core.py 168-183) on the model object, with the flat prior of
`setup_model` (fit2D.py 353-361); sampler positions are finite numbers. -/
noncomputable def KinModelState.lnprob (bounds : List (Option (Fl ℝ × Fl ℝ))) (m : KinModelState r c)
    (fit : List ℝ) : KinModelState r c × Except PyErr (Fl ℝ) :=
  Misfit.lnprob (logPrior (m.params.theta.map Fl.fin) m.params.vary bounds)
    (fun m f => m.lnlike (f.map Fl.finVal)) m (fit.map Fl.fin)

end Misfit
