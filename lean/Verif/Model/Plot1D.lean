import Verif.Model.Fit1DObj
import Verif.Model.PlotFit

/-!
# The plot of a 1D fit

Source: `misfit/fit/fit1D.py` 380-420 and 519-585.  Drawing is recorded as the numbers handed to matplotlib; colours, sizes and
the curves of the Monte Carlo fits are not modelled (a call that computes errors never gets to saving the figure,
fit1D.py 509).  The error bars are taken as matplotlib accepts them.
-/

namespace Misfit

/-- What the plot reads: the object (`names_arr`, `restwave_arr`), the galaxy, the trimmed spectrum, and the lines of the model. -/
structure Plot1DIn where
  names : List String
  restwave : List (List ℝ)
  zGal : ℝ
  pix : List Pix
  sets : List (List (ℝ × ℝ))
  maskname : Option (List Char)
  field : Option (List Char)
  id : List Char

/-- The figure: vertical lines at the fitted and at the catalogued redshift, black and grey data points, continuum, model, axes,
the two annotated values and the title. -/
structure Plot1D where
  solid : List ℝ
  dashed : List ℝ
  black : List Pix
  grey : List Pix
  cont : List ℝ
  model : List (Fl ℝ)
  xlim : ℝ × ℝ
  ylim : ℝ × ℝ
  labels : ℝ × ℝ
  title : List Char

/-- `restwave_arr[i]` for the indices of the names (fit1D.py 399-400); IndexError if there are too few. -/
def markWaves (names : List String) (restwave : List (List ℝ)) : Except PyErr (List ℝ) :=
  match mapE (fun i => itemE restwave i) (List.range names.length) with
  | .error e => .error e
  | .ok l => .ok l.flatten

/-- `cont_model` at one wavelength (fit1D.py 522-525) -/
noncomputable def contAt : Nat → List ℝ → ℝ → ℝ
  | _, [], _ => 0
  | i, c :: cs, x => c * 1e-18 * x ^ i + contAt (i + 1) cs x

/-- `ndarray.min()` (NaN propagates); `none` for an empty array -/
noncomputable def npMin (l : List (Fl ℝ)) : Option (Fl ℝ) := (npMax (l.map fun a => -a)).map fun a => -a

/-- `names_cat` (fit1D.py 534-538) -/
def namesCat : List (List Char) → List Char
  | [] => []
  | [n] => n
  | n :: m :: ns => n ++ '+' :: namesCat (m :: ns)

/-- `r'\_'.join(maskname.split('_'))` (fit1D.py 573) -/
def escapeName (l : List Char) : List Char := l.flatMap fun c => if c = '_' then ['\\', '_'] else [c]

/-- The title (fit1D.py 572-575): without mask name the field is needed, and `None + '-'` is a TypeError. -/
def plotTitle (P : Plot1DIn) : Except PyErr (List Char) :=
  let tail := '-' :: (P.id ++ ' ' :: namesCat (P.names.map String.toList))
  match P.maskname, P.field with
  | some m, _ => .ok (escapeName m ++ tail)
  | none, some f => .ok (f ++ tail)
  | none, none => .error .typeError

/-- `set_ylim` (fit1D.py 565-567, 579): limits that are not finite are a ValueError in matplotlib.  `max()` of an empty array
is a ValueError too. -/
noncomputable def plotYlim (model : List (Fl ℝ)) : Except PyErr (ℝ × ℝ) :=
  match npMax model, npMin model with
  | some (.fin hi), some (.fin lo) => .ok (lo - |hi - lo| * 0.15, hi + |hi - lo| * 0.15)
  | _, _ => .error .valueError

/-- `set_xlim` (fit1D.py 563-564, 578) -/
noncomputable def plotXlim (pix : List Pix) : Except PyErr (ℝ × ℝ) :=
  match (pix.map Pix.wave).min?, (pix.map Pix.wave).max? with
  | some lo, some hi => .ok (lo - 20, hi + 20)
  | _, _ => .error .valueError

open Classical in
/-- The end of the plot (fit1D.py 519-585) for a fit without errors; `waves` are the rest wavelengths marked before.  The
limits are computed before the title and handed to the axes after it. -/
noncomputable def finishPlot1D (P : Plot1DIn) (r : Fit1DResult ℝ) (waves : List ℝ) (model : List (Fl ℝ)) : Except PyErr Plot1D :=
  match plotXlim P.pix with
  | .error e => .error e
  | .ok xl =>
    match plotTitle P with
    | .error e => .error e
    | .ok t =>
      match plotYlim model with
      | .error e => .error e
      | .ok yl => .ok
        { solid := waves.map fun w => (1 + r.z) * w
          dashed := waves.map fun w => (1 + P.zGal) * w
          black := P.pix.filter fun p => decide (p.mask = 1)
          grey := P.pix.filter fun p => decide (p.mask = 0)
          cont := P.pix.map fun p => contAt 0 r.cont p.wave
          model, xlim := xl, ylim := yl, labels := (r.z, r.velDisp), title := t }

/-- `FitEmissionLines1D.fit` (fit1D.py 231-585) as in `fit1D`, with the stored model (349-350) and the plot: the state, the
exception, and the figure if one is saved. -/
noncomputable def fit1DPlot (P : Plot1DIn) (res : Option ℝ) (minimize : Bool → Bool → Fit1DResult ℝ)
    (cols : Except PyErr (List (List ℝ))) (a : Fit1DArgs) (s : Fit1DState ℝ) :
    Fit1DState ℝ × Option PyErr × Option Plot1D :=
  match res with
  | none => (s, some .typeError, none)
  | some rs =>
    if rs < 0 then (s, some .valueError, none)
    else
      match (minimize false false).flux[0]? with
      | none => (s, some .keyError, none)
      | some f0 =>
        let r := refit minimize f0
        match finalModel r P.sets P.pix with
        | .error e => (s, some e, none)
        | .ok model =>
          let s1 : Fit1DState ℝ := { s with result := some r }
          if !a.hasID then (s1, some .typeError, none)
          else if a.noPlot then
            let out := fit1D res minimize cols a s
            (out.1, out.2, none)
          else if !a.plotFile then (s1, some .valueError, none)
          else
            match markWaves P.names P.restwave with
            | .error e => (s1, some e, none)
            | .ok waves =>
              let out := fit1D res minimize cols a s
              match out.2 with
              | some e => (out.1, some e, none)
              | none =>
                match finishPlot1D P r waves model with
                | .error e => (out.1, some e, none)
                | .ok p => (out.1, none, some p)

end Misfit
