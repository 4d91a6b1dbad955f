import Verif.Model.Masks
import Mathlib.Analysis.SpecialFunctions.Exp
import Mathlib.Analysis.Real.Pi.Bounds

/-!
# Fitting weights

Source: `misfit/general/galaxy_utils.py` 1243-1306, `misfit/general/general_utils.py` 48-59.
-/

namespace Misfit
variable {K : Type*} [Field K] [LinearOrder K] {r c : Nat}

/-- `a[inds] = 0.` -/
def zeroAt (a : Fin r → Fl K) (inds : List Nat) : Fin r → Fl K :=
  fun i => if i.val ∈ inds then 0 else a i

/-- Unnormalised 'up-edges' weights (galaxy_utils.py 1252-1258) from the row S/N -/
def upEdges (snr : Fin r → Fl K) (low : List Nat) : Fin r → Fl K :=
  zeroAt (fun i => 1 / snr i) low

/-- Normalisation (galaxy_utils.py 1294-1300) -/
def normaliseWeights (w : Fin r → Fl K) : Fin r → Fl K :=
  let tot := ∑ i, w i
  fun i => if Fl.eqB tot 0 then 0 else w i / tot

/-- `gaus_simple` without constant (general_utils.py 48-59), for `sigma > 0`; note the square
root of `2 pi sigma`. -/
noncomputable def gausSimple (x A mu sigma : ℝ) : ℝ :=
  Real.exp (-(x - mu) ^ 2 / (2 * sigma ^ 2)) / Real.sqrt (2 * Real.pi * sigma) * A

/-- `calculate_2D_fit_weights` (galaxy_utils.py 1243-1306): profile and matrix.  `fit` is the
result `(A, mu, sigma)` of the lmfit Gaussian fit, only used for 'optimal'.  An unknown type
only prints a message, then `weights_nonnorm` is unbound. -/
noncomputable def fitWeights (kind : String) (flux err maskSky : Img r c ℝ) (low : List Nat)
    (fit : ℝ × ℝ × ℝ) : Except PyErr ((Fin r → Fl ℝ) × Img r c ℝ) :=
  let fin := fun (w : Fin r → Fl ℝ) =>
    (Except.ok (normaliseWeights w, fun i _ => normaliseWeights w i) :
      Except PyErr ((Fin r → Fl ℝ) × Img r c ℝ))
  if kind = "up-edges" then fin (upEdges (rowSnr flux err maskSky) low)
  else if kind = "none" then fin (fun _ => 1)
  else if kind = "optimal" then
    fin (zeroAt (fun i => .fin (gausSimple (i.val : ℝ) fit.1 fit.2.1 fit.2.2)) low)
  else .error .nameError

end Misfit
