import Verif.Model.PlotFit
import Verif.Model.Plot1D

/-!
# The panels with the spectra in the plot of the best-fit model

Source: `misfit/plot/plot_bestfit.py` 70-72, 98-128.  `imshow` is not modelled; recorded are the arrays and the colour limits it gets.
-/

namespace Misfit
variable {r c : Nat}

/-- The pixels that set the colour scale (plot_bestfit.py 102-108): those of the sky-free columns, or all if there is no such column. -/
def scalePixels (flux : Img r c ℝ) (cols : List (Fin c)) : List (Fl ℝ) :=
  if 0 < cols.length then (List.ofFn fun i => cols.map fun j => flux i j).flatten
  else (List.ofFn fun i => List.ofFn fun j => flux i j).flatten

/-- `vmin`, `vmax` (plot_bestfit.py 101-108).  `len(None)` is a TypeError, the minimum of no pixels a ValueError. -/
noncomputable def panelScale (flux : Img r c ℝ) : Option (List (Fin c)) → Except PyErr (Fl ℝ × Fl ℝ)
  | none => .error .typeError
  | some cols =>
    match npMin (scalePixels flux cols), npMax (scalePixels flux cols) with
    | some lo, some hi => .ok (lo, hi)
    | _, _ => .error .valueError

/-- The three panels: common colour limits, and the arrays shown. -/
structure SpecPanels (r c : Nat) where
  vmin : Fl ℝ
  vmax : Fl ℝ
  data : Img r c ℝ
  model : Img r c ℝ
  residual : Img r c ℝ

/-- The panels of `plot_bestfit_model` (plot_bestfit.py 73, 101-125).  Without a kinematic model `kinModel.bestfit` has failed before; an
object without image hands `None` to `imshow`, a TypeError. -/
noncomputable def specPanels (s : Fit2D r c) : Except PyErr (SpecPanels r c) :=
  match s.kinModel with
  | none => .error .attributeError
  | some k =>
    match panelScale s.input.data.flux s.input.nosky with
    | .error e => .error e
    | .ok (lo, hi) =>
      match k.m.model with
      | none => .error .typeError
      | some im => .ok ⟨lo, hi, s.input.data.flux, im, fun i j => s.input.data.flux i j - im i j⟩

end Misfit
