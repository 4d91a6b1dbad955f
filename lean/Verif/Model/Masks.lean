import Verif.Model.Chisq
import Mathlib.Analysis.Real.Sqrt
import Mathlib.Data.List.Sort
import Mathlib.Data.List.Defs

/-!
# Masking functions

Source: `misfit/general/galaxy_utils.py`, `misfit/general/general_utils.py`.
Python mutates mask arrays in place and returns them; the model returns the new array.
-/

namespace Misfit
variable {K : Type*} [Field K] [LinearOrder K] {r c n : Nat}

/-- `np.maximum`-style maximum of two floats as used by `ndarray.max` (NaN propagates). -/
def npMax2 (a b : Fl K) : Fl K :=
  match a, b with
  | .nan, _ => .nan
  | _, .nan => .nan
  | a, b => if Fl.leB a b then b else a

/-- `ndarray.max()` of a non-empty 1D array; `none` for an empty one (numpy: ValueError). -/
def npMax : List (Fl K) → Option (Fl K)
  | [] => none
  | x :: xs => some (xs.foldl npMax2 x)

/-- `spec_mask_missing` (galaxy_utils.py 703-727) for 1D arrays.  `np.abs(spec_err).max()`
is evaluated even when `nonfinite_only` is set (`&` does not short-circuit), so an empty
array is a ValueError. -/
def specMaskMissing1D (spec err : Fin n → Fl K) (weight mask : Option (Fin n → Fl K))
    (nonfiniteOnly : Bool) : Except PyErr (Fin n → Fl K) :=
  match npMax (List.ofFn fun j => Fl.abs (err j)) with
  | none => .error .valueError
  | some mx =>
    let m0 := match mask with | none => fun _ => 1 | some m => m
    let m1 := if !nonfiniteOnly && Fl.ltB 0 mx then
        fun j => if Fl.eqB (err j) 0 then 0 else m0 j
      else m0
    let m2 := fun j => if (spec j).isFinite then m1 j else 0
    let m3 := fun j => if (err j).isFinite then m2 j else 0
    .ok (match weight with
      | none => m3
      | some w => fun j => if Fl.eqB (w j) 0 then 0 else m3 j)

/-- `spec_mask_missing` (galaxy_utils.py 703-727) for 2D arrays.  In the zero-error branch
`np.where(spec_err == 0.)[0]` holds row indices, so whole rows are masked. -/
def specMaskMissing2D (spec err : Img r c K) (weight mask : Option (Img r c K))
    (nonfiniteOnly : Bool) : Except PyErr (Img r c K) :=
  match npMax ((List.ofFn fun i => List.ofFn fun j => Fl.abs (err i j)).flatten) with
  | none => .error .valueError
  | some mx =>
    let m0 := match mask with | none => fun _ _ => 1 | some m => m
    let m1 := if !nonfiniteOnly && Fl.ltB 0 mx then
        fun i j => if (List.ofFn (err i)).any (fun e => Fl.eqB e 0) then 0 else m0 i j
      else m0
    let m2 := fun i j => if (spec i j).isFinite then m1 i j else 0
    let m3 := fun i j => if (err i j).isFinite then m2 i j else 0
    .ok (match weight with
      | none => m3
      | some w => fun i j => if Fl.eqB (w i j) 0 then 0 else m3 i j)

/-- `mask_spec2D_from_1D` (galaxy_utils.py 730-736).  A 1D mask longer than the image is
wide (IndexError) is not expressible here. -/
def maskSpec2DFrom1D (mask2D : Img r c K) (mask1D : Fin c → Fl K) : Img r c K :=
  fun i j => if Fl.eqB (mask1D j) 0 then 0 else mask2D i j

/-- `spec_nan_masking` (galaxy_utils.py 738-753), for arrays of any index type. -/
def specNanMasking {ι : Type*} (flux mask : ι → Fl K) (fill : Fl K)
    (maskZero maskAllMasked : Bool) : ι → Fl K :=
  let f1 := fun p => if (maskAllMasked || !(flux p).isFinite) && Fl.eqB (mask p) 0
    then fill else flux p
  if maskZero then fun p => if Fl.eqB (f1 p) 0 && Fl.eqB (mask p) 0 then fill else f1 p
  else f1

/-- The masking and filling done first in `subtract_continuum_2D` (galaxy_utils.py 283-300):
2D missing data, columns from the (already prepared) 1D mask unless continuum subtraction is
off (`mask1D = none`), then filling of flux and error.  Returns mask, flux, error. -/
def prepareBadPixels (flux err weight mask : Img r c K) (mask1D : Option (Fin c → Fl K))
    (fill : Fl K) : Except PyErr (Img r c K × Img r c K × Img r c K) :=
  match specMaskMissing2D flux err (some weight) (some mask) true with
  | .error e => .error e
  | .ok m =>
    let m := match mask1D with | none => m | some m1 => maskSpec2DFrom1D m m1
    let flux' := fun i => specNanMasking (flux i) (m i) fill false false
    let err' := fun i => specNanMasking (err i) (m i) fill true false
    .ok (m, flux', err')

/-- `np.sqrt` -/
noncomputable def Fl.sqrt : Fl ℝ → Fl ℝ
  | .fin x => if x < 0 then .nan else .fin (Real.sqrt x)
  | .pinf => .pinf
  | .ninf => .nan
  | .nan => .nan

/-- `wh_skylines_1D` with `full=True` (galaxy_utils.py 759-767): `(wh_nosky, wh_sky)`.
`cutoff=None` is a TypeError in the product. -/
def whSkylines1D (errSpec : Fin c → Fl K) (cutoff median : Option (Fl K)) :
    Except PyErr (List (Fin c) × List (Fin c)) :=
  match median, cutoff with
  | none, _ => .error .valueError
  | some _, none => .error .typeError
  | some md, some cut =>
      .ok ((List.finRange c).filter fun j => Fl.ltB (errSpec j) (cut * md),
           (List.finRange c).filter fun j => Fl.leB (cut * md) (errSpec j))

/-- Column quadrature sum `np.sqrt(np.sum((err*mask)**2, axis=0))` (galaxy_utils.py 565) -/
noncomputable def colQuad (err mask : Img r c ℝ) (j : Fin c) : Fl ℝ :=
  Fl.sqrt (∑ i, Fl.sq (err i j * mask i j))

/-- `mask_skylines_2D` with `full=True` (galaxy_utils.py 548-583): mask, `wh_sky`,
`wh_nosky`.  `wh_nosky` is recomputed as the complement of `wh_sky`. -/
noncomputable def maskSkylines2D (err mask : Img r c ℝ) (cutoff : Option (Fl ℝ)) (units : String)
    (median : Option (Fl ℝ)) : Except PyErr (Img r c ℝ × List (Fin c) × List (Fin c)) :=
  if units ≠ "timesMedianErr" then .error .valueError
  else
    match whSkylines1D (colQuad err mask) cutoff median with
    | .error e => .error e
    | .ok (_, sky) =>
      .ok (fun i j => if j ∈ sky then 0 else mask i j, sky,
        (List.finRange c).filter fun j => j ∉ sky)

/-- The loop of `wh_continuous` (general_utils.py 117-132); `arr` is the run being built. -/
def whContinuousLoop {α : Type*} [Sub α] [One α] [DecidableEq α] : List α → List α → List (List α)
  | [], _ => []
  | [x], arr => [arr ++ [x]]
  | x :: y :: rest, arr =>
      if y - x = 1 then whContinuousLoop (y :: rest) (arr ++ [x])
      else (arr ++ [x]) :: whContinuousLoop (y :: rest) []

/-- `wh_continuous` (general_utils.py 117-132).  Used with `α = ℤ`, and with `α = ℕ` for row
indices (`y - x = 1` has the same meaning for truncated subtraction). -/
def whContinuous {α : Type*} [Sub α] [One α] [DecidableEq α] (l : List α) : List (List α) :=
  whContinuousLoop l []

/-- minimum of a list of row indices; only used on non-empty lists -/
def minRow : List Nat → Nat
  | [] => 0
  | [a] => a
  | a :: l => min a (minRow l)
/-- maximum of a list of row indices; only used on non-empty lists -/
def maxRow : List Nat → Nat
  | [] => 0
  | [a] => a
  | a :: l => max a (maxRow l)

/-- First clean-up of `mask_low_snr_rows_2D` (galaxy_utils.py 598-604): when there are several
runs of high S/N rows only runs of more than two rows are kept. -/
def keepRuns (high : List Nat) : List Nat :=
  let runs := whContinuous high
  if runs.length > 1 then (runs.filter fun w => w.length > 2).flatten else high

/-- "Mask contiguous to outside" below the centre (galaxy_utils.py 610-618).
`low.min() < nrows/2.` is written `2*min < nrows`. -/
def extendDown (nrows : Nat) (high low : List Nat) : List Nat :=
  if 2 * minRow low < nrows ∧ minRow high < minRow low then
    (low ++ List.range (minRow low)).insertionSort (· ≤ ·) else low

/-- "Mask contiguous to outside" above the centre (galaxy_utils.py 623-631). -/
def extendUp (nrows : Nat) (high low : List Nat) : List Nat :=
  if 2 * maxRow low > nrows ∧ maxRow high > maxRow low then
    (low ++ ((List.range nrows).filter fun i => maxRow low < i).reverse).insertionSort (· ≤ ·)
  else low

/-- The low S/N rows of `mask_low_snr_rows_2D` (galaxy_utils.py 606-631) as a function of the
kept high S/N rows. -/
def lowRows (nrows : Nat) (high : List Nat) : List Nat :=
  let low := (List.range nrows).filter fun i => i ∉ high
  if low ≠ [] ∧ high ≠ [] then extendUp nrows high (extendDown nrows high low) else low

/-- Row S/N (galaxy_utils.py 589-593) -/
noncomputable def rowSnr (flux err maskCalc : Img r c ℝ) (i : Fin r) : Fl ℝ :=
  Fl.abs ((∑ j, flux i j * maskCalc i j) / Fl.sqrt (∑ j, Fl.sq (err i j * maskCalc i j)))

/-- `mask_low_snr_rows_2D` (galaxy_utils.py 586-677) from the S/N of the rows on: returns the
new mask and the list of low S/N rows. -/
def maskLowSnrRows (snr : Fin r → Fl K) (cut : Fl K) (mask : Img r c K) :
    Img r c K × List Nat :=
  let high := ((List.finRange r).filter fun i => Fl.leB cut (snr i)).map Fin.val
  let low := lowRows r (keepRuns high)
  (fun i j => if i.val ∈ low then 0 else mask i j, low)

/-- `mask_low_snr_rows_2D` (galaxy_utils.py 586-677) -/
noncomputable def maskLowSnrRows2D (flux err mask maskCalc : Img r c ℝ) (cut : Fl ℝ) :
    Img r c ℝ × List Nat :=
  maskLowSnrRows (rowSnr flux err maskCalc) cut mask

/-- Start/stop of a Python slice on an axis of length `n`: negative values count from the
end, everything is clipped to `[0, n]`. -/
def pySliceBound (n : Nat) (k : Int) : Nat :=
  if k < 0 then (n + k).toNat else min k.toNat n

/-- `a[start:stop] = 0` on a 1D array -/
def zeroSlice (mask : Fin n → Fl K) (start stop : Int) : Fin n → Fl K :=
  fun j => if pySliceBound n start ≤ j.val ∧ j.val < pySliceBound n stop then 0 else mask j

/-- `mask_edges_1D` (galaxy_utils.py 680-699); `len(spec)` equals the mask length. -/
def maskEdges1D (mask : Fin n → Fl K) (numEdge : Nat) : Fin n → Fl K :=
  let unmasked := (List.finRange n).filter fun j => Fl.eqB (mask j) 1
  match unmasked.head?, unmasked.getLast? with
  | some l, some rr =>
      let m1 := if 0 < l.val then zeroSlice mask l.val (l.val + numEdge) else mask
      if (rr.val : Int) < (n : Int) - 1 then
        zeroSlice m1 ((rr.val : Int) - numEdge - 1) (rr.val + 1) else m1
  | _, _ => mask

end Misfit
