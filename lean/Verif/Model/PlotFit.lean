import Verif.Model.Fit2D
import Verif.Model.Masks

/-!
# What the plots of a fit show

Source: `misfit/plot/plot_mcmc.py`, `misfit/plot/plot_bestfit.py`, `misfit/fit/fit2D.py`.  The libraries matplotlib and
corner are not modelled: drawing is recorded as the numbers handed to them, the limits of the axes of a panel are an
argument, and so is the success of `corner.corner`.  Texts are recorded as the numbers in them, without rounding.
-/

namespace Misfit

/-! ## The corner plot -/

/-- The word in the annotation: "disp" or "rot" (plot_mcmc.py 172-183, 202-213). -/
inductive Verdict
  | disp
  | rot
  deriving DecidableEq

/-- `np.where(np.array(names) == s)[0][0]` (plot_mcmc.py 150, 164, 191): IndexError if there is none -/
def nameIndex (names : List String) (s : String) : Except PyErr Nat :=
  match names.findIdx? (fun n => n == s) with
  | none => .error .indexError
  | some i => .ok i

/-- `l[i]` for a non-negative index -/
def itemE {α : Type*} (l : List α) (i : Nat) : Except PyErr α :=
  match l[i]? with
  | none => .error .indexError
  | some x => .ok x

/-- plot_mcmc.py 168-182, 198-213: the signs of `best - lower` and `best + upper` are compared. -/
noncomputable def verdictOf (best : ℝ) (e : ℝ × ℝ) : Verdict :=
  if Fl.sign (.fin (best - e.1)) ≠ Fl.sign (.fin (best + e.2)) then .disp else .rot

/-- best value, lower and upper uncertainty of one parameter of the results -/
def tripleAt (best : List ℝ) (err : List (ℝ × ℝ)) (i : Nat) : Except PyErr (ℝ × ℝ × ℝ) :=
  match itemE best i, itemE err i with
  | .ok b, .ok e => .ok (b, e.1, e.2)
  | .error x, _ => .error x
  | _, .error x => .error x

/-- The numbers in titles and annotations of the corner plot. -/
structure CornerText where
  titles : List (ℝ × ℝ × ℝ)
  sigma : ℝ × ℝ × ℝ
  vre1 : (ℝ × ℝ × ℝ) × Verdict
  vre2 : (ℝ × ℝ × ℝ) × Verdict × ℝ

/-- `truths` (plot_mcmc.py 34-37): the best values without the last two -/
def truthsOf (best : List ℝ) : List ℝ := best.take (best.length - 2)

/-- Titles and annotations (plot_mcmc.py 57-80, 149-219).  The titles also index the names of the parameters, which
are as many as the best values. -/
noncomputable def cornerText (res : FitResults) : Except PyErr CornerText :=
  match mapE (tripleAt (truthsOf res.best) res.err1) (List.range (truthsOf res.best).length) with
  | .error e => .error e
  | .ok titles =>
    match nameIndex res.names "sigma0" with
    | .error e => .error e
    | .ok ks =>
      match tripleAt res.best res.err1 ks with
      | .error e => .error e
      | .ok sg =>
        match nameIndex res.names "V_RE" with
        | .error e => .error e
        | .ok kv =>
          match tripleAt res.best res.err1 kv with
          | .error e => .error e
          | .ok v1 =>
            match itemE res.opp kv with
            | .error e => .error e
            | .ok opp =>
              match tripleAt res.best res.err2 kv with
              | .error e => .error e
              | .ok v2 =>
                .ok ⟨titles, sg, (v1, verdictOf v1.1 v1.2), (v2, verdictOf v2.1 v2.2, opp)⟩

/-- The rows of `theta_tmp` (plot_mcmc.py 99-117) as functions of the entry `y` of `col2arr`, after the parameters
`i, …, i + n - 1`; `none`: the variable is not bound yet (UnboundLocalError, a NameError). -/
def tmpRows (l : List Nat) (l0 : Nat) (best : List ℝ) : Nat → Nat → Option (List (ℝ → ℝ)) →
    Except PyErr (Option (List (ℝ → ℝ)))
  | _, 0, st => .ok st
  | i, n + 1, st =>
    if i ∈ l then
      if i = l0 then tmpRows l l0 best (i + 1) n (some [fun _ => 1])
      else
        match st with
        | none => .error .nameError
        | some rows => tmpRows l l0 best (i + 1) n (some (rows ++ [fun y => y]))
    else
      match itemE best i with
      | .error e => .error e
      | .ok b =>
        if 0 < i then
          match st with
          | none => .error .nameError
          | some rows => tmpRows l l0 best (i + 1) n (some (rows ++ [fun _ => b]))
        else tmpRows l l0 best (i + 1) n (some [fun _ => b])

/-- a panel of the corner plot and the two curves drawn in it: points `(col1, col2)` -/
structure LinkedCurves where
  panel : Nat
  re : List (Fl ℝ × ℝ)
  r22 : List (Fl ℝ × ℝ)

/-- The velocity of a profile with the parameters of one entry of `col2arr`. -/
noncomputable def dummyVel (k : KinProfile) (rows : List (ℝ → ℝ)) (rad y : ℝ) : Except PyErr (Fl ℝ) :=
  match k.updateTheta (rows.map fun f => f y) with
  | .error e => .error e
  | .ok k => k.velAt rad

/-- One curve (plot_mcmc.py 119-133): the best value divided by the velocity at unit amplitude -/
noncomputable def curveAt (k : KinProfile) (rows : List (ℝ → ℝ)) (rad v : ℝ) (ys : List ℝ) :
    Except PyErr (List (Fl ℝ × ℝ)) :=
  mapE (fun y => match dummyVel k rows rad y with
    | .error e => .error e
    | .ok d => .ok (.fin v / d, y)) ys

/-- The curves of one linked set (plot_mcmc.py 83-135).  `best`: parameters of the best-fit model (`none`: no best-fit
model, AttributeError), `truths` the best values, `nCol` the number of columns shown, `re` the effective radius of the
light, `ylim` the array `col2arr` of a panel.  An entry `'all'` is indexed as a string: `'a' + 'l'*nCol` is no index of
a list.  With no row at all `theta_tmp` is not bound, unless an earlier set has been drawn (`later`): the variable then still contains the rows of
that set.  Simplification: these rows are left out; in the code they are replaced when the first index of the set is reached, so they
only matter for a set with a parameter 0 whose first index is not a parameter of the profile.  What a failing call leaves in the
profile is not represented. -/
noncomputable def linkedCurves (k : KinProfile) (best : Option (List ℝ)) (truths : List ℝ) (nCol : Nat) (re : ℝ)
    (ylim : Nat → List ℝ) (later : Bool) : RawLink → Except PyErr (KinProfile × LinkedCurves)
  | .all => .error .typeError
  | .inds l =>
    match itemE l 0, itemE l 1 with
    | .error e, _ => .error e
    | _, .error e => .error e
    | .ok l0, .ok l1 =>
      let ind := l0 + l1 * nCol
      if nCol * nCol ≤ ind then .error .indexError
      else
        match itemE truths.reverse 1, itemE truths.reverse 0 with
        | .error e, _ => .error e
        | _, .error e => .error e
        | .ok vre, .ok v22 =>
          match best with
          | none => .error .attributeError
          | some b =>
            match tmpRows l l0 b 0 k.theta.length (if later then some [] else none) with
            | .error e => .error e
            | .ok none => .error .nameError
            | .ok (some rows) =>
              match curveAt k rows re vre (ylim ind), curveAt k rows (2.2 / 1.676 * re) v22 (ylim ind),
                  k.updateTheta k.theta with
              | .error e, _, _ => .error e
              | _, .error e, _ => .error e
              | _, _, .error e => .error e
              | .ok a, .ok c, .ok k => .ok (k, ⟨ind, a, c⟩)

/-- the loop over the linked sets; `later`: not the first -/
noncomputable def linkedLoopCurves (k : KinProfile) (best : Option (List ℝ)) (truths : List ℝ) (nCol : Nat) (re : ℝ)
    (ylim : Nat → List ℝ) (later : Bool) : List RawLink → Except PyErr (KinProfile × List LinkedCurves)
  | [] => .ok (k, [])
  | s :: rest =>
    match linkedCurves k best truths nCol re ylim later s with
    | .error e => .error e
    | .ok (k, c) =>
      match linkedLoopCurves k best truths nCol re ylim true rest with
      | .error e => .error e
      | .ok (k, cs) => .ok (k, c :: cs)

variable {r c : Nat}

/-- `plot_param_corner` (plot_mcmc.py 24-227) with `showLinked` and a fit object whose model and kinematic profile
belong together.  `drawn` is the outcome of `corner.corner` for the columns shown. -/
noncomputable def cornerPlot (drawn : Except PyErr Unit) (re : ℝ) (ylim : Nat → List ℝ) (s : Fit2D r c) :
    Except PyErr (KinProfile × List LinkedCurves × CornerText) :=
  match s.results with
  | none => .error .attributeError
  | some res =>
    match s.sampler with
    | none => .error .typeError
    | some ch =>
      match drawn with
      | .error e => .error e
      | .ok () =>
        match linkedLoopCurves s.kinProfile ((s.kinModel.bind KinObj.bestfit).map fun m => m.params.theta)
            (truthsOf res.best) (ch.cols.length - 2) re ylim false (s.linked.getD []) with
        | .error e => .error e
        | .ok (k, cs) =>
          match cornerText res with
          | .error e => .error e
          | .ok t => .ok (k, cs, t)

/-! ## The plot of the best-fit model -/

/-- The radius after convolution (plot_bestfit.py 140-148 and plot_image_slit.py 349-362): widths of Gaussians with
half width at half maximum `re` and full width `fwhm` are added in quadrature. -/
noncomputable def convolvedRadius (re fwhm : ℝ) : ℝ :=
  let conv := fwhm / (2 * Real.sqrt (2 * Real.log 2))
  let sig := re / Real.sqrt (2 * Real.log 2)
  Real.sqrt (conv ^ 2 + sig ^ 2) * Real.sqrt (2 * Real.log 2)

/-- The axis ratio of the ellipse drawn over the convolved image (plot_image_slit.py 340-370): both half axes are
widened, `q_new = semi_minor/semi_major`. -/
noncomputable def convolvedRatio (re q fwhm : ℝ) : ℝ := convolvedRadius (re * q) fwhm / convolvedRadius re fwhm

/-- The three horizontal lines over the spectra (plot_bestfit.py 168-188): centre and convolved effective radius
projected on the slit, in pixels. -/
noncomputable def spectrumLines (m0 m0shift re fwhm deltPA pixscale : ℝ) : ℝ × ℝ × ℝ :=
  let w := yProjMajor (convolvedRadius re fwhm) deltPA / pixscale
  (m0 + m0shift - w, m0 + m0shift, m0 + m0shift + w)

/-- The horizontal edges drawn for masked rows (plot_bestfit.py 190-210): none at the edges of the image.  `minRow`
and `maxRow` are the smallest and largest row of a run. -/
def rowEdges (nRows : Nat) (low : List Nat) : List ℚ :=
  (whContinuous low).flatMap fun w =>
    (if minRow w ≠ 0 then [(minRow w : ℚ) - 1 / 2] else []) ++
    (if (maxRow w : ℤ) ≠ (nRows : ℤ) - 1 then [(maxRow w : ℚ) + 1 / 2] else [])

/-- The hatched bands (plot_bestfit.py 219-249): lower and upper edge of each run of masked rows.  A run is never
empty. -/
def hatchBands (low : List Nat) : List (ℚ × ℚ) :=
  (whContinuous low).map fun w => ((w.headD 0 : ℚ) - 1 / 2, (w.getLastD 0 : ℚ) + 1 - 1 / 2)

/-- The hatching of sky columns (plot_bestfit.py 251-302): the runs are lists, and `wh_cont[0]-pad` subtracts a float
from a list.  The attribute is `None` before the sky mask is made. -/
def skyHatch : Option (List Nat) → Except PyErr Unit
  | none => .error .typeError
  | some l => match whContinuous l with
    | [] => .ok ()
    | _ :: _ => .error .typeError

/-- What the plot of the best-fit model needs of the galaxy: `wh_nosky` is set, `low_snr_row_inds`, `wh_sky_fit`, the
row of the object and angle and size of the galaxy; `images` is the outcome of the two image panels. -/
structure BestfitPlotIn where
  noskySet : Bool
  lowRows : Option (List Nat)
  skyFit : Option (List Nat)
  m0 : ℝ
  re : ℝ
  deltPA : ℝ
  fwhm : ℝ
  pixscale : ℝ
  images : ℝ → Except PyErr Unit

/-- The numbers drawn over the spectra. -/
structure BestfitPlot (r c : Nat) where
  shift : ℝ
  model : Option (Img r c ℝ)
  lines : ℝ × ℝ × ℝ
  edges : List ℚ
  bands : List (ℚ × ℚ)

/-- `plot_bestfit_model` (plot_bestfit.py 38-328).  Without a kinematic model the panels are laid out, but
`kinModel.bestfit` is an AttributeError.  `theta[-2]` of the best-fit model is the shift.  Colour scales are not
modelled here; the panels and their colour scale are in `Verif.Model.PlotPanels`, where an object without image fails. -/
noncomputable def bestfitPlot (g : BestfitPlotIn) (s : Fit2D r c) : Except PyErr (BestfitPlot r c) :=
  match s.kinModel with
  | none => .error .attributeError
  | some k =>
    match (match k.bestfit with
      | none => (.ok 0 : Except PyErr ℝ)
      | some b => itemE b.params.theta.reverse 1) with
    | .error e => .error e
    | .ok shift =>
      match g.images (g.m0 + shift) with
      | .error e => .error e
      | .ok () =>
        if g.noskySet then
          match g.lowRows with
          | none => .error .typeError
          | some low =>
            match skyHatch g.skyFit with
            | .error e => .error e
            | .ok () => .ok ⟨shift, k.m.model, spectrumLines g.m0 shift g.re g.fwhm g.deltPA g.pixscale,
                rowEdges r low, hatchBands low⟩
        else .error .typeError

/-! ## A whole fit -/

/-- `plot_results` (fit2D.py 325-327) -/
noncomputable def plotResults (drawn : Except PyErr Unit) (ylim : Nat → List ℝ) (g : BestfitPlotIn) (s : Fit2D r c) :
    Except PyErr ((List LinkedCurves × CornerText) × BestfitPlot r c) :=
  match cornerPlot drawn g.re ylim s with
  | .error e => .error e
  | .ok (k, cs, t) =>
    match bestfitPlot g { s with kinProfile := k } with
    | .error e => .error e
    | .ok b => .ok ((cs, t), b)

/-- `fit(**kwargs)` (fit2D.py 259-281) with its plots: what is left in the object and on disk, and the outcome. -/
noncomputable def fitAndPlot (o : PeakFinder) (run : Fit2D r c → Except PyErr Chain) (drawn : Fit2D r c → Except PyErr Unit)
    (ylim : Nat → List ℝ) (g : BestfitPlotIn) (new : Option FitSettings) (s : Fit2D r c) (d : Disk r c) :
    Fit2D r c × Disk r c × Except PyErr Unit :=
  match s.fit o run new d with
  | (s, d, .error e) => (s, d, .error e)
  | (s, d, .ok ()) =>
    match plotResults (drawn s) ylim g s with
    | .error e => (s, d, .error e)
    | .ok _ => (s, d, .ok ())

end Misfit
