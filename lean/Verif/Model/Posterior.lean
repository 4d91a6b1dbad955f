import Verif.Model.MCMC
import Verif.Model.Profiles
import Mathlib.Algebra.Order.Floor.Ring
import Mathlib.Algebra.Order.Floor.Semiring
import Mathlib.Data.List.Sort

/-!
# Analysis of a chain: derived columns, best fit, credible intervals

Sources: `misfit/fit/fit_core.py` (`add_v_re_22`, `get_param_posterior_bestfits`),
`misfit/general/general_utils.py` (`get_bestfit_values_linked`).

The kernel density peak finders (`find_peak_gaussian_KDE`,
`find_peak_gaussian_KDE_multiD`: scipy `gaussian_kde` and `fmin`) are oracles.
-/

namespace Misfit

section derived

/-- A flattened chain with `L` samples, as the list of its columns
(`flatchain.T`): one entry per parameter, each a column of `L` values. -/
abbrev Cols (L : Nat) := List (Fin L → Fl ℝ)

/-- `VelArctanProfile.vel` (kin_classes.py 69-73) at radius `r` for the parameters of one
sample of a chain (the profile is evaluated on whole columns, entry by entry). -/
noncomputable def velSample (va rt : Fl ℝ) (r : ℝ) : Fl ℝ :=
  .fin (2 / Real.pi) * va * Fl.arctan (.fin r / rt)

/-- `DispConstProfile.sigma` (kin_classes.py 93-94) at radius `r` for one sample. -/
noncomputable def sigmaSample (s0 : Fl ℝ) (r : ℝ) : Fl ℝ := .fin (0 * r) + s0

/-- The loop of `add_v_re_22` that builds `theta_chain` (fit_core.py 957-972): for every
parameter its column of the chain (free) or its repeated value (fixed).
`flatchain.T[i_free]` out of range and `theta_vary[i]` out of range are IndexErrors. -/
def thetaChain {L : Nat} (cols : Cols L) : List (Fl ℝ) → List Bool → Nat → Except PyErr (Cols L)
  | [], _, _ => .ok []
  | _ :: _, [], _ => .error .indexError
  | _ :: ts, true :: vs, iFree =>
      match cols[iFree]? with
      | none => .error .indexError
      | some c =>
          match thetaChain cols ts vs (iFree + 1) with
          | .error e => .error e
          | .ok r => .ok (c :: r)
  | t :: ts, false :: vs, iFree =>
      match thetaChain cols ts vs iFree with
      | .error e => .error e
      | .ok r => .ok ((fun _ => t) :: r)

/-- `free_inds` of `add_v_re_22` (fit_core.py 941-948): the column of each parameter,
`None` for fixed parameters. -/
def freeInds : List Bool → Nat → List (Option Nat)
  | [], _ => []
  | true :: vs, j => some j :: freeInds vs (j + 1)
  | false :: vs, j => none :: freeInds vs j

/-- `flatchain[:, ind] = np.abs(flatchain[:, ind])` (fit_core.py 950-951).  With
`ind = None` the index `[:, None]` adds an axis and selects the *whole* array. -/
noncomputable def absColumn {L : Nat} (cols : Cols L) : Option Nat → Except PyErr (Cols L)
  | none => .ok (cols.map fun c k => Fl.abs (c k))
  | some j =>
      match cols[j]? with
      | none => .error .indexError
      | some c => .ok (cols.set j fun k => Fl.abs (c k))

/-- The object `add_v_re_22` works on: parameters and vary mask of the model, the
flattened chain, the option `absvalsigma`, `galaxy.re_mass_arcsec`, and the parameter
names of the results.  The kinematic profile is the default one (arctangent rotation
curve with two parameters, constant dispersion with one). -/
structure ChainIn (L : Nat) where
  theta : List (Fl ℝ)
  vary : List Bool
  names : List String
  flatchain : Cols L
  absvalsigma : Bool
  re : ℝ

/-- The dispersion column treatment of `add_v_re_22` (fit_core.py 936-953); the
three-dimensional `chain` gets the same treatment and is not modelled.  The velocity
profile has two parameters, so `ind_all = 2`. -/
noncomputable def absSigma {L : Nat} (s : ChainIn L) : Except PyErr (Cols L) :=
  if s.absvalsigma then
    match (freeInds (s.vary.take s.theta.length) 0)[2]? with
    | none => .error .indexError
    | some ind => absColumn s.flatchain ind
  else .ok s.flatchain

/-- The free names (fit_core.py 1000-1003). -/
def freeNames : List String → List Bool → List String
  | n :: ns, true :: vs => n :: freeNames ns vs
  | _ :: ns, false :: vs => freeNames ns vs
  | _, _ => []

/-- `add_v_re_22` (fit_core.py 930-1024): the new chain and the parameter names of the
results.  A parameter vector with fewer than three entries is reported as an IndexError
(in the code: a failing `update_theta`, caught and turned into values of the wrong
shape that cannot be appended). -/
noncomputable def addVRe22 {L : Nat} (s : ChainIn L) :
    Except PyErr (ChainIn L × List String) :=
  match absSigma s with
  | .error e => .error e
  | .ok fc =>
      match thetaChain fc s.theta s.vary 0 with
      | .error e => .error e
      | .ok tc =>
          match tc with
          | va :: rt :: sg :: _ =>
              let r22 := 2.2 / 1.676 * s.re
              .ok ({ s with flatchain := fc ++
                      [fun k => velSample (va k) (rt k) s.re,
                       fun k => velSample (va k) (rt k) r22,
                       fun k => sigmaSample (sg k) s.re,
                       fun k => sigmaSample (sg k) r22] },
                   freeNames s.names s.vary ++ ["V_RE", "V_22", "sigma_RE", "sigma_22"])
          | _ => .error .indexError

end derived

section percentiles
variable {K : Type*} [Field K] [LinearOrder K] [IsStrictOrderedRing K] [FloorRing K]

/-- Linear interpolation in a sorted array at the (non-negative) virtual index `h`, the
default method of `np.percentile`. -/
def lerpAt (s : List K) (h : K) : Except PyErr K :=
  match s[⌊h⌋₊]?, s[⌊h⌋₊ + 1]? with
  | some a, some b => .ok (a + (h - (⌊h⌋₊ : K)) * (b - a))
  | some a, none => .ok a
  | none, _ => .error .indexError

/-- `np.percentile(col, q)` for finite samples: sort, interpolate at `q/100·(n−1)`.
An empty column is an IndexError. -/
def percentile (col : List K) (q : K) : Except PyErr K :=
  lerpAt (col.insertionSort (· ≤ ·)) (q / 100 * ((col.length : K) - 1))

/-- The two limits of one column (fit_core.py 1031-1032). -/
def percentilePair (col : List K) (qlo qhi : K) : Except PyErr (K × K) :=
  match percentile col qlo, percentile col qhi with
  | .ok a, .ok b => .ok (a, b)
  | .error e, _ => .error e
  | _, .error e => .error e

/-- `mcmc_limits` (fit_core.py 1031) of one column. -/
def limits1 (col : List K) : Except PyErr (K × K) := percentilePair col 15.865 84.135
/-- `mcmc_limits_2sig` (fit_core.py 1032) of one column. -/
def limits2 (col : List K) : Except PyErr (K × K) := percentilePair col 2.275 97.725

/-- Edge `i` of the 50 equal bins of `np.histogram(samples, bins=50)`; a column with a
single value gets the range `[x − 0.5, x + 0.5]`. -/
def histEdge (lo hi : K) (i : Nat) : K :=
  if lo = hi then (lo - 1/2) + (i : K) * (1 / 50) else lo + (i : K) * ((hi - lo) / 50)

/-- Counts of `np.histogram`: half-open bins, the last one closed. -/
def histCount (col : List K) (lo hi : K) (i : Nat) : Nat :=
  col.countP fun x => decide (histEdge lo hi i ≤ x) &&
    (decide (x < histEdge lo hi (i + 1)) || (decide (i = 49) && decide (x ≤ histEdge lo hi (i + 1))))

/-- `np.where(yb == yb.max())[0][0]` (fit_core.py 1039) over the 50 bins. -/
def histPeakIdx (col : List K) (lo hi : K) : Option Nat :=
  (List.range 50).find? fun i =>
    (List.range 50).all fun j => decide (histCount col lo hi j ≤ histCount col lo hi i)

/-- The starting value of the peak search for one column (fit_core.py 1037-1046): centre
of the fullest bin, replaced by the median if it is off by more than 15 % of the sample
range (division by a zero range: `x/0 = inf > 0.15` unless `x = 0`).  `samples.min()` of
an empty column is a ValueError (raised by `np.histogram`). -/
def seedOf (col : List K) : Except PyErr K :=
  match col.min?, col.max? with
  | some lo, some hi =>
      match histPeakIdx col lo hi, percentile col 50 with
      | some w, .ok q50 =>
          let pk := (histEdge lo hi w + histEdge lo hi (w + 1)) / 2
          if Fl.ltB (.fin (15 / 100)) (Fl.abs (.fin (pk - q50)) / .fin (hi - lo)) then .ok q50
          else .ok pk
      | none, _ => .error .indexError
      | _, .error e => .error e
  | _, _ => .error .valueError

end percentiles

section linked
variable {K : Type*} [Field K]

/-- Results for `n` parameters: best fit, (lower, upper) 1σ and 2σ uncertainties. -/
structure Posterior (n : Nat) (K : Type*) where
  best : Fin n → K
  err1 : Fin n → K × K
  err2 : Fin n → K × K

/-- `(v[0]-v[1], v[2]-v[0])` (fit_core.py 1057-1063). -/
def errFrom (b : K) (l : K × K) : K × K := (b - l.1, l.2 - b)

/-- The writing loop of `get_bestfit_values_linked` (general_utils.py 254-257): for every
linked index the joint peak value goes into the best fit and its uncertainties. -/
def writeLinked {n : Nat} (lims : Fin n → K × K) (best : Fin n → K) (err : Fin n → K × K) :
    List (Fin n × K) → (Fin n → K) × (Fin n → K × K)
  | [] => (best, err)
  | (p, v) :: rest =>
      writeLinked lims (Function.update best p v) (Function.update err p (errFrom v (lims p))) rest

/-- A set of jointly analysed parameters: `'all'` (every column but the last four) or a
list of column indices. -/
inductive LinkSet (n : Nat)
  | all
  | inds (l : List (Fin n))

/-- The column indices of a linked set (general_utils.py 242-246). -/
def LinkSet.resolve {n : Nat} : LinkSet n → List (Fin n)
  | .all => (List.finRange n).take (n - 4)
  | .inds l => l

/-- `get_bestfit_values_linked` (general_utils.py 236-259): `joint` is the multivariate
peak finder, called with the linked columns and the current best-fit values there.
Indices outside the chain (an IndexError) are not representable. -/
def bestfitLinked {n : Nat} (joint : List (Fin n) → List K → List K) (lims : Fin n → K × K)
    (best : Fin n → K) (err : Fin n → K × K) (s : LinkSet n) :
    (Fin n → K) × (Fin n → K × K) :=
  writeLinked lims best err (s.resolve.zip (joint s.resolve (s.resolve.map best)))

/-- The loop over the linked sets (fit_core.py 1075-1089): `cur` is the variable
`mcmc_lims_zip`, which holds the 1σ limits at the first iteration only. -/
def linkedLoop {n : Nat} (joint : List (Fin n) → List K → List K) (lims2 : Fin n → K × K)
    (cur : Fin n → K × K) (st : Posterior n K) : List (LinkSet n) → Posterior n K
  | [] => st
  | s :: rest =>
      let a := bestfitLinked joint cur st.best st.err1 s
      let b := bestfitLinked joint lims2 a.1 st.err2 s
      linkedLoop joint lims2 lims2 { best := a.1, err1 := a.2, err2 := b.2 } rest

/-- `get_param_posterior_bestfits` (fit_core.py 1048-1089) from the limits and the
marginal peaks on; `linked = none` is `theta_linked_posteriors is None`. -/
def posteriorOf {n : Nat} (joint : List (Fin n) → List K → List K)
    (lims1 lims2 : Fin n → K × K) (peak : Fin n → K) (linked : Option (List (LinkSet n))) :
    Posterior n K :=
  let st : Posterior n K :=
    { best := peak
      err1 := fun p => errFrom (peak p) (lims1 p)
      err2 := fun p => errFrom (peak p) (lims2 p) }
  match linked with
  | none => st
  | some sets => linkedLoop joint lims2 lims1 st sets

end linked

section opp
variable {K : Type*} [Field K] [LinearOrder K]

/-- `np.sign` -/
def Fl.sign : Fl K → Fl K
  | .fin x => if x < 0 then .fin (-1) else if x = 0 then .fin 0 else .fin 1
  | .nan => .nan
  | .pinf => .fin 1
  | .ninf => .fin (-1)

/-- `percent_oppsign` of one column (fit_core.py 1101-1106).  An empty column is a
ZeroDivisionError (Python float division). -/
def percentOpp (best : Fl K) (col : List (Fl K)) : Except PyErr K :=
  if col.length = 0 then .error .zeroDivisionError
  else .ok (((col.countP fun x => Fl.ltB (Fl.sign best * x) (.fin 0) : Nat) : K)
    / (col.length : K) * 100)

end opp

end Misfit
