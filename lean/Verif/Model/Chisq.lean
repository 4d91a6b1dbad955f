import Verif.Model.Num
import Mathlib.Analysis.SpecialFunctions.Log.Base

/-!
# Chi-square, likelihood, amplitude scaling

Source: `misfit/model/kin_model.py`.

Arrays of the same shape `(r, c)` are functions `Fin r → Fin c → Fl K`; shape mismatches
(numpy broadcasting errors) are therefore not expressible.
-/

namespace Misfit
variable {K : Type*} [Field K] [LinearOrder K] {r c : Nat}

/-- A 2D float array with `r` spatial rows and `c` wavelength columns. -/
abbrev Img (r c : Nat) (K : Type*) := Fin r → Fin c → Fl K

/-- The attributes of `galaxy.spec2D` used by the statistic: `flux`, `flux_err`,
`spec_mask`, `fitting_weight_matrix`. -/
structure FitData (r c : Nat) (K : Type*) where
  flux : Img r c K
  err : Img r c K
  mask : Img r c K
  weight : Img r c K

/-- one pixel of `_model_chisq` (kin_model.py 389-391) -/
def chisqPixel (flux err mask weight model : Fl K) : Fl K :=
  Fl.sq (((flux - model) * mask) / err) * weight

/-- `_model_chisq` (kin_model.py 354-395) -/
def modelChisq (d : FitData r c K) (model : Img r c K) : Fl K :=
  ∑ i, ∑ j, chisqPixel (d.flux i j) (d.err i j) (d.mask i j) (d.weight i j) (model i j)

/-- `_model_chisq_no_weight` (kin_model.py 398-438) -/
def modelChisqNoWeight (d : FitData r c K) (model : Img r c K) : Fl K :=
  ∑ i, ∑ j, Fl.sq (((d.flux i j - model i j) * d.mask i j) / d.err i j)

/-- `nPix = len(np.where(spec_mask == 1)[0])` (kin_model.py 305-308) -/
def nPix (d : FitData r c K) : Nat :=
  ∑ i, ∑ j, if Fl.eqB (d.mask i j) 1 then 1 else 0

/-- `model_redchisq` (kin_model.py 302-310); numpy division, so `nPix = nFree` gives
inf/NaN, not an exception. -/
def modelRedchisq (d : FitData r c K) (nFree : Nat) (model : Img r c K) : Fl K :=
  modelChisq d model / .fin (((nPix d : ℤ) - (nFree : ℤ) : ℤ) : K)

/-- `model_redchisq_no_weight` (kin_model.py 323-331) -/
def modelRedchisqNoWeight (d : FitData r c K) (nFree : Nat) (model : Img r c K) : Fl K :=
  modelChisqNoWeight d model / .fin (((nPix d : ℤ) - (nFree : ℤ) : ℤ) : K)

/-- `model_redchisq_weight_ref` (kin_model.py 312-321): the sum of the fitting weights over *all* pixels -/
def redchisqWeightRef (d : FitData r c K) (nFree : Nat) : Fl K :=
  (∑ i, ∑ j, d.weight i j) / .fin (((nPix d : ℤ) - (nFree : ℤ) : ℤ) : K)

/-- `np.log10` -/
noncomputable def log10 : Fl ℝ → Fl ℝ
  | .fin x => if 0 < x then .fin (Real.logb 10 x) else if x = 0 then .ninf else .nan
  | .pinf => .pinf
  | .ninf => .nan
  | .nan => .nan

/-- `_model_llike` (kin_model.py 336-350) -/
noncomputable def modelLlike (d : FitData r c ℝ) (model : Img r c ℝ) : Fl ℝ :=
  .fin (-(1/2)) * ∑ i, ∑ j, d.mask i j *
    (d.weight i j * Fl.sq ((d.flux i j - model i j) / d.err i j) +
      log10 (.fin (2 * Real.pi) * Fl.sq (d.err i j)))

/-- The row sums of `scale_model` (kin_model.py 145-147). `nosky` is `spec2D.wh_nosky`. -/
def scaleNum (flux err model : Fin c → Fl K) (nosky : List (Fin c)) : Fl K :=
  (nosky.map fun j => flux j * model j / Fl.sq (err j)).sum

/-- see `scaleNum` -/
def scaleDen (err model : Fin c → Fl K) (nosky : List (Fin c)) : Fl K :=
  (nosky.map fun j => Fl.sq (model j) / Fl.sq (err j)).sum

/-- The amplitude of one row (kin_model.py 149-153), statements in source order. -/
def scaleRatio (num den : Fl K) : Fl K :=
  let num := if num.isFinite then num else 0
  let num := if Fl.eqB (Fl.abs den) 0 then 0 else num
  let den := if Fl.eqB (Fl.abs den) 0 then .fin (-99) else den
  num / den

/-- `scale_model` (kin_model.py 141-157) -/
def scaleModel (flux err model : Img r c K) (nosky : List (Fin c)) : Img r c K :=
  fun i j => model i j * scaleRatio (scaleNum (flux i) (err i) (model i) nosky)
    (scaleDen (err i) (model i) nosky)

end Misfit
