import Verif.Model.Grid
import Mathlib.Data.Int.Basic

/-!
# Spatial position of the object and centre of the line

Source: `misfit/general/galaxy_utils.py` 777-1240 (`vert_position`) and 1328-1473
(`get_m0_lam0_pos_2D`).  The lmfit fits are oracles, except that they refuse equal bounds (ValueError) and fewer
rows than free parameters (TypeError of scipy).
-/

namespace Misfit
variable {K : Type} [Field K] [LinearOrder K] [IsStrictOrderedRing K] [FloorRing K]

/-- numpy indexing `a[i]` of a 1D array, negative indices count from the end -/
def npIndex (a : List K) (i : Int) : Except PyErr K :=
  let j := if i < 0 then i + a.length else i
  if j < 0 then .error .indexError
  else match a[j.toNat]? with
    | some x => .ok x
    | none => .error .indexError

/-- What `vert_position` returns: `m0, m0_shift_fit, m0_peak_snr, m_min, m_max` -/
structure VertRes (K : Type) where
  m0 : Int
  shift : K
  snr : K
  mMin : Int
  mMax : Int
deriving DecidableEq

/-- half width of the window (galaxy_utils.py 929-940): with dither from the rounded positions of the two negative images at
`mu ± deltl`, otherwise 1.5 arcsec in total (the pixel scale is assumed non-zero) -/
def vertCut (dither : Bool) (pix : K) (m0 : Int) (mu deltl : K) (off : Int) : Int :=
  if dither then
    let m1 := npRound (mu - deltl) + off
    let m2 := npRound (mu + deltl) + off
    let diff := ((|m0 - m1| + |m0 - m2| : Int) : K) / 2
    ⌈diff / 2⌉
  else ⌈3 / 2 / pix / 2⌉

/-- `m0_closest` (galaxy_utils.py 898-903): nearest index of an array of length `n` -/
def closestRow (n : Nat) (m0 : Int) : Int :=
  if m0 > (n : Int) - 1 then (n : Int) - 1 else if m0 < 0 then 0 else m0

/-- a fit whose image is not trimmed (galaxy_utils.py 897-944 and 972-1022) -/
def vertStep (dither : Bool) (pix : K) (snr : List K) (mu deltl : K) : Except PyErr (VertRes K) := do
  let m0 := npRound mu
  let s ← npIndex snr (closestRow snr.length m0)
  let cut := vertCut dither pix m0 mu deltl 0
  .ok ⟨m0, mu - m0, s, m0 - cut, m0 + cut⟩

/-- why the first fit to `n` rows is refused (galaxy_utils.py 871-893): equal bounds of the position for one row (an empty array has no
maximum), equal bounds of the image distance for two rows with dither; the free parameters are position, amplitude,
constant, width and, with dither, the distance.  A second fit with fixed position has fewer parameters. -/
def vertRefused (dither : Bool) (n : Nat) : Option PyErr :=
  if n ≤ 1 ∨ (dither = true ∧ n = 2) then some .valueError
  else if n < (if dither then 5 else 4) then some .typeError else none

/-- why the fit to `n` rows left after trimming is refused (galaxy_utils.py 1047-1069): no maximum of an empty array, equal bounds `1` and
`(n - 1)/2` of the image distance; free are amplitude, constant, width and, with dither, the distance. -/
def vertTrimRefused (dither : Bool) (n : Nat) : Option PyErr :=
  if n = 0 ∨ (dither = true ∧ n = 3) then some .valueError
  else if n < (if dither then 4 else 3) then some .typeError else none

/-- the fit after trimming five rows at both ends, with the position fixed (galaxy_utils.py 1030-1118).  `snr` is the
array before trimming. -/
def vertTrimmed (dither : Bool) (pix : K) (snr : List K) (ypos deltl : K) : Except PyErr (VertRes K) := do
  match vertTrimRefused dither (snr.length - 10) with
  | some e => .error e
  | none =>
    let snr' := (snr.drop 5).take (snr.length - 10)
    let mu := ypos - 5
    let m0 := npRound mu + 5
    let s ← npIndex snr' (closestRow snr'.length m0 - 5)
    let cut := vertCut dither pix m0 mu deltl 5
    .ok ⟨m0, mu + 5 - m0, s, m0 - cut, m0 + cut⟩

/-- `vert_position(…, refit=False)` (galaxy_utils.py 852-1180).  `snr` are the S/N of the rows (lines 807-815).
`mu1, d1` is the result of the first fit, `d2` and `d3` the free image distances of the fits with fixed position.
Without `ypos` the last branch computes `None - 5`. -/
def vertPosition (dither : Bool) (pix : K) (snr : List K) (ypos : Option K) (skip : Bool)
    (mu1 d1 d2 d3 : K) : Except PyErr (VertRes K) := do
  match vertRefused dither snr.length with
  | some e => .error e
  | none =>
    let r1 ← vertStep dither pix snr mu1 d1
    match ypos with
    | some y =>
      let r2 ← if 2 < |y - (r1.m0 : K)| ∧ skip = false then vertStep dither pix snr y d2 else .ok r1
      if 4 < ((r2.mMax - r2.mMin : Int) : K) * pix ∨ r2.mMax - r2.mMin < 5 then vertTrimmed dither pix snr y d3
      else .ok r2
    | none =>
      if r1.mMax - r1.mMin > (snr.length : Int) - 5 ∨ r1.mMax - r1.mMin < 5 then .error .typeError
      else .ok r1

/-- The part of a 2D spectrum used by `get_m0_lam0_pos_2D`: `m0`, `ypos`, `m0_shift_fit`, `m0_peak_snr`, `m0_shift`,
`lam0`, and smallest and largest wavelength, number of rows. -/
structure LinePos (K : Type) where
  m0 : K
  ypos : K
  shiftFit : K
  peakSnr : K
  shift : K
  lam0 : K
  lamMin : K
  lamMax : K
  rows : Nat

/-- `get_m0_lam0_pos_2D` (galaxy_utils.py 1328-1473).  `usable` says whether any row and any column is not masked
(line 1358).  `yFit`, `lamFit` are the fitted centres; `none` stands for an exception in the fit or a NaN result, which take
the same branches.  The row coordinates run from 0 to `rows - 1` (`m_lims` is set by the trimming, line 253). -/
def getM0Lam0 (s : LinePos K) (usable : Bool) (yFit lamFit : Option K) : LinePos K :=
  if usable then
    let shift := match yFit with
      | some mu =>
        if 0 ≤ mu ∧ mu ≤ (s.rows : K) - 1 then
          if |s.ypos - mu| ≤ 2 then mu - s.m0
          else if |s.m0 - mu| ≤ 2 ∧ |s.shiftFit| ≤ 1 ∧ 3 ≤ s.peakSnr then mu - s.m0
          else 0
        else 0
      | none => 0
    let range := s.lamMax - s.lamMin
    let lam := match lamFit with
      | some mu =>
        if s.lamMin + range / 4 ≤ mu ∧ mu ≤ s.lamMax - range / 4 then
          if |s.lam0 - mu| ≤ range / 4 then mu else s.lam0
        else s.lam0
      | none => s.lam0
    { s with shift := shift, lam0 := lam }
  else { s with shift := 0 }

end Misfit
