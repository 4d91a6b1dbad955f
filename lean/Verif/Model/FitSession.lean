import Verif.Model.Fit2D

/-!
# Several 2D fits with shared profile objects

Source: `misfit/fit/fit2D.py` 142-172, 338-373, `misfit/model/kin_model.py` 63-84.  The default arguments
`kinProfile=KinProfileFiducial()` and `intensityProfile=IntensityProfileFiducial(...)` of the fit are created once, so all fits
created without these arguments share two mutable objects.  `update_values` writes the light of a galaxy into the intensity
profile, when the fit is created (fit2D.py 172) and when its model is created (fit2D.py 345, kin_model.py 84).

The shared results object is `FitWorld` (C123).  The instrument is not shared here (for this see C74), nor are file names.
-/

namespace Misfit

/-- A fit of a session: `fit.input.cfg.int` is the light of its galaxy; `lightRef` and `kinRef` are the identities of its attributes
`intensityProfile` and `kinProfile`. -/
structure SessFit where
  r : Nat
  c : Nat
  fit : Fit2D r c
  disk : Disk r c
  lightRef : Nat
  kinRef : Nat

/-- All fits, what the intensity profile objects contain, and what the kinematic profile objects contain -/
structure Session where
  fits : List SessFit
  light : Nat → ℝ → ℝ → ℝ
  kin : Nat → KinProfile

/-- Creating a fit, or a call on fit `i` -/
inductive SessOp
  | create (x : SessFit)
  | call (i : Nat) (f : ∀ r c, FitCall r c)

variable {r c : Nat}

/-- the fit as seen when the intensity profile object contains `l` -/
def Fit2D.withLight (s : Fit2D r c) (l : ℝ → ℝ → ℝ) : Fit2D r c :=
  { s with input := { cfg := { s.input.cfg with int := l }, rows := s.input.rows, cols := s.input.cols
                      data := s.input.data, nosky := s.input.nosky } }

/-- the model as seen when the kinematic profile object, shared with the aperture model, contains `k` -/
def KinModelState.withKin (m : KinModelState r c) (k : KinProfile) : KinModelState r c :=
  { m with kin := k, aper := m.aper.map fun p => (p.1, { p.2 with kin := k }) }

/-- the fit as seen when the kinematic profile object contains `k`; the stored best model is a deep copy -/
def Fit2D.withKin (s : Fit2D r c) (k : KinProfile) : Fit2D r c :=
  { s with kinProfile := k, kinModel := s.kinModel.map fun o => { o with m := o.m.withKin k } }

/-- whether `setup_model` gets as far as `update_values` (kin_model.py 73-84) -/
noncomputable def Fit2D.setsLight (s : Fit2D r c) : Bool :=
  match s.settings with
  | none => false
  | some t => match s.kinProfile.updateTheta t.theta with
    | .error _ => false
    | .ok _ => true

/-- whether a call on the fit writes the light of its galaxy into the intensity profile: fit2D.py 262-270 (`fit`), 294-295 (`reload_results`), 345
(`setup_model`) -/
noncomputable def FitCall.setsLight (s : Fit2D r c) : FitCall r c → Bool
  | .setup => s.setsLight
  | .fit _ => !Fl.ltB s.resolution 0 && s.setsLight
  | .reload => s.kinModel.isNone && s.setsLight
  | _ => false

/-- how a call ends -/
noncomputable def FitCall.outcome (o : PeakFinder) (x : Fit2D r c × Disk r c) : FitCall r c → Except PyErr Unit
  | .setup => x.1.setupModel.2
  | .make f => (x.1.makeModel f).2
  | .update f => (x.1.updateModel f).2
  | .setBest f => (x.1.setBestfit f).2
  | .fit run => (x.1.fit o run none x.2).2.2
  | .analyze => (x.1.analyze o x.2).2
  | .reload => (x.1.reloadResults o x.2).2
  | .save => (x.1.save x.2).2

/-- one operation: a new fit writes its light into its intensity profile (fit2D.py 172); a call works with the contents of the shared
objects and leaves the kinematic profile changed.  No call changes the galaxy. -/
noncomputable def Session.step (o : PeakFinder) (w : Session) : SessOp → Session
  | .create x => { w with fits := w.fits ++ [x], light := Function.update w.light x.lightRef x.fit.input.cfg.int }
  | .call i f =>
    match w.fits[i]? with
    | none => w
    | some x =>
      let s := x.fit.withKin (w.kin x.kinRef)
      let light := if (f x.r x.c).setsLight s then Function.update w.light x.lightRef x.fit.input.cfg.int else w.light
      let res := (f x.r x.c).step o (s.withLight (light x.lightRef), x.disk)
      { fits := w.fits.set i { x with fit := res.1.withLight x.fit.input.cfg.int, disk := res.2 }
        light := light
        kin := Function.update w.kin x.kinRef res.1.kinProfile }

/-- how the call `f` on fit `i` of the session ends (no such fit: IndexError) -/
noncomputable def Session.outcome (o : PeakFinder) (w : Session) (i : Nat) (f : ∀ r c, FitCall r c) : Except PyErr Unit :=
  match w.fits[i]? with
  | none => .error .indexError
  | some x =>
    let s := x.fit.withKin (w.kin x.kinRef)
    let light := if (f x.r x.c).setsLight s then Function.update w.light x.lightRef x.fit.input.cfg.int else w.light
    (f x.r x.c).outcome o (s.withLight (light x.lightRef), x.disk)

/-- a sequence of operations -/
noncomputable def Session.run (o : PeakFinder) (w : Session) (ops : List SessOp) : Session := ops.foldl (Session.step o) w

end Misfit
