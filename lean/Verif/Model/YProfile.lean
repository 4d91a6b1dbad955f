import Verif.Model.Posterior
import Mathlib.Analysis.SpecialFunctions.Log.Basic
import Mathlib.Analysis.Real.Pi.Bounds

/-!
# Gaussian profiles and the spatial extent of the emission

Source: `misfit/general/general_utils.py` 48-115 (Gaussian profiles and residuals) and `misfit/general/galaxy_utils.py` 1476-1687 (`fit_emission_y_profile`).
lmfit is an oracle; random numbers are an argument; printing and plotting are left out.
-/

namespace Misfit

/-- `gaus_simple` (general_utils.py 48-59) at one point.  A width that is not positive gives NaN: the root of a negative
number, or `0/0`. -/
noncomputable def gausAt (x : ℝ) (A : Fl ℝ) (mu sigma : ℝ) (C : Option ℝ := none) : Fl ℝ :=
  if 0 < sigma then
    let g := Fl.fin (Real.exp (-(x - mu) ^ 2 / (2 * sigma ^ 2)) / √(2 * Real.pi * sigma)) * A
    match C with
    | some C => g + .fin C
    | none => g
  else .nan

/-- `vert_triple_gaus_profile` (general_utils.py 92-107) at one point: a positive image and two negative ones -/
noncomputable def tripleGaus (x A mu muL muR sigma C : ℝ) : Fl ℝ :=
  gausAt x (.fin A) mu sigma + gausAt x (.fin (-A)) muL sigma +
    gausAt x (.fin (-A)) muR sigma + .fin C

/-- The parameters of `gaus_profile` as used for the extent (general_utils.py 62-75, no offset) -/
structure GausPar where
  mu : ℝ
  A : Fl ℝ
  sigma : ℝ

/-- `gaus_residual_mask` (general_utils.py 85-89): the residuals at the given indices, non-finite ones set to zero -/
noncomputable def gausResidualMask (p : GausPar) (xx : List ℝ) (data err : List (Fl ℝ)) :
    List Nat → Except PyErr (List (Fl ℝ))
  | [] => .ok []
  | k :: ks =>
    match xx[k]?, data[k]?, err[k]? with
    | some x, some d, some e =>
      match gausResidualMask p xx data err ks with
      | .error e => .error e
      | .ok rest =>
        let v := (gausAt x p.A p.mu p.sigma - d) / e
        .ok ((if v.isFinite then v else .fin 0) :: rest)
    | _, _, _ => .error .indexError

/-- `max()` of a numpy array, NaN if one value is NaN; `none` for an empty array -/
noncomputable def npMaxF : List (Fl ℝ) → Option (Fl ℝ)
  | [] => none
  | [a] => some a
  | a :: l =>
    match npMaxF l with
    | none => none
    | some b => some (if a = .nan ∨ b = .nan then .nan else if Fl.leB b a then a else b)

/-- `2 sqrt(2 ln 2)` (galaxy_utils.py 1520) -/
noncomputable def std2FWHM : ℝ := 2 * √(2 * Real.log 2)

/-- A minimisation problem handed to lmfit (galaxy_utils.py 1521-1526, 1537-1540): starting values, the range of the
centre, the largest width (`none`: unbounded) and the residual function.  The lower bound of the width is zero. -/
structure YProblem where
  mu : ℝ
  muLo : ℝ
  muHi : ℝ
  A : Fl ℝ
  sigma : ℝ
  sigmaMax : Option ℝ
  resid : GausPar → Except PyErr (List (Fl ℝ))

/-- lmfit moves a starting value into its bounds. -/
noncomputable def clipTo (lo hi v : ℝ) : ℝ := if hi < v then hi else if v < lo then lo else v

/-- What `fit_emission_y_profile` stores: observed and intrinsic width, FWHM of the latter (`D50`), and their errors. -/
structure YSize where
  obs : ℝ
  int : ℝ
  d50 : ℝ
  obsErr : ℝ × ℝ
  intErr : ℝ × ℝ
  d50Err : ℝ × ℝ

/-- The value for "not measured" (galaxy_utils.py 1665-1672, 1676-1683) -/
def YSize.missing : YSize := ⟨-99, -99, -99, (-99, -99), (-99, -99), (-99, -99)⟩

/-- The part of the spectrum and instrument that is used: image, error, sky mask, `m_lims`, low S/N rows, `ypos`, pixel scale and
FWHM of the PSF (a Python float). -/
structure YInput (r c : Nat) where
  flux : Img r c ℝ
  err : Img r c ℝ
  sky : Img r c ℝ
  mLo : Int
  mHi : Int
  low : List Nat
  ypos : ℝ
  pix : ℝ
  fwhm : ℝ

variable {r c : Nat}

/-- `y_prof` (galaxy_utils.py 1481-1487) -/
noncomputable def YInput.prof (s : YInput r c) : List (Fl ℝ) := List.ofFn fun i => ∑ j, s.flux i j * s.sky i j

/-- `y_prof_err` (galaxy_utils.py 1482, 1488) -/
noncomputable def YInput.profErr (s : YInput r c) : List (Fl ℝ) :=
  List.ofFn fun i => Fl.sqrt (∑ j, Fl.sq (s.err i j * s.sky i j))

/-- `yy_arr` (galaxy_utils.py 1489-1490): `m_lims[0]*pix, (m_lims[0]+1)*pix, …` -/
noncomputable def YInput.yy (s : YInput r c) : List ℝ :=
  (List.range (s.mHi - s.mLo).toNat).map fun (k : Nat) => ((s.mLo : ℝ) + k) * s.pix

/-- `wh_not_mask_y` (galaxy_utils.py 1494) -/
noncomputable def YInput.rows (s : YInput r c) : List Nat :=
  (List.range s.yy.length).filter fun k => decide (k ∉ s.low)

/-- the problem for a profile `data` (galaxy_utils.py 1521-1526, 1545-1549, 1604-1607, 1614-1618) -/
noncomputable def YInput.problem (s : YInput r c) (lo hi : ℝ) (A : Fl ℝ) (smax : Option ℝ)
    (data : List (Fl ℝ)) : YProblem where
  mu := clipTo lo hi (s.ypos * s.pix)
  muLo := lo
  muHi := hi
  A := A
  sigma := match smax with
    | none => if (r : ℝ) / 4 < 0 then 0 else (r : ℝ) / 4
    | some m => clipTo 0 m ((r : ℝ) / 4)
  sigmaMax := smax
  resid := fun p => gausResidualMask p s.yy data s.profErr s.rows

/-- one fit, repeated with an upper bound if the width is too large (galaxy_utils.py 1537-1550, 1609-1622) -/
noncomputable def YInput.fitOnce (O : YProblem → Except PyErr GausPar) (s : YInput r c) (lo hi : ℝ)
    (A : Fl ℝ) (data : List (Fl ℝ)) : Except PyErr GausPar :=
  match O (s.problem lo hi A none data) with
  | .error e => .error e
  | .ok p =>
    if (hi - lo) / std2FWHM < p.sigma then O (s.problem lo hi A (some ((hi - lo) / std2FWHM)) data)
    else .ok p

/-- PSF-corrected width (galaxy_utils.py 1569-1571, 1629-1631): the root of a negative number is NaN and replaced by zero -/
noncomputable def intWidth (sigma fwhm : ℝ) : ℝ :=
  if 0 ≤ sigma ^ 2 - (fwhm / std2FWHM) ^ 2 then √(sigma ^ 2 - (fwhm / std2FWHM) ^ 2) else 0

/-- The fitted widths for the perturbed profiles (galaxy_utils.py 1585-1628) -/
noncomputable def YInput.mcWidths (O : YProblem → Except PyErr GausPar) (s : YInput r c) (lo hi : ℝ)
    (A : Fl ℝ) : List (List (Fl ℝ)) → Except PyErr (List ℝ)
  | [] => .ok []
  | noise :: more =>
    match s.fitOnce O lo hi A (List.zipWith (· + ·) s.prof (List.zipWith (· * ·) s.profErr noise)) with
    | .error e => .error e
    | .ok p =>
      match s.mcWidths O lo hi A more with
      | .error e => .error e
      | .ok l => .ok (p.sigma :: l)

/-- lower and upper error of one quantity (galaxy_utils.py 1636-1639) -/
noncomputable def errPair (v : ℝ) (col : List ℝ) : Except PyErr (ℝ × ℝ) :=
  match limits1 col with
  | .error e => .error e
  | .ok (lo, hi) => .ok (v - lo, hi - v)

/-- the body of the `try` statement (galaxy_utils.py 1530-1645) -/
noncomputable def YInput.measure (O : YProblem → Except PyErr GausPar) (s : YInput r c) (lo hi : ℝ)
    (A : Fl ℝ) (noise : List (List (Fl ℝ))) : Except PyErr YSize :=
  if s.fwhm = 0 then .error .zeroDivisionError
  else if (s.rows.length : ℝ) * s.pix / s.fwhm < 0.8 then .error .valueError
  else
    match s.fitOnce O lo hi A s.prof with
    | .error e => .error e
    | .ok p =>
      let i := intWidth p.sigma s.fwhm
      match s.mcWidths O lo hi A noise with
      | .error e => .error e
      | .ok col =>
        match errPair p.sigma col, errPair i (col.map fun v => intWidth v s.fwhm),
          errPair (i * std2FWHM) (col.map fun v => intWidth v s.fwhm * std2FWHM) with
        | .ok a, .ok b, .ok d => .ok ⟨p.sigma, i, i * std2FWHM, a, b, d⟩
        | _, _, _ => .error .indexError

/-- `fit_emission_y_profile` (galaxy_utils.py 1476-1687).  `np.linspace` refuses a negative number of points; lmfit refuses equal bounds
(`mu`, outside the `try`).  `y_prof` has no maximum for an image without rows. -/
noncomputable def fitEmissionYProfile (O : YProblem → Except PyErr GausPar) (s : YInput r c)
    (noise : List (List (Fl ℝ))) : Except PyErr YSize :=
  if s.mHi - s.mLo < 0 then .error .valueError
  else if s.rows = [] then .ok YSize.missing
  else
    match s.yy.min?, s.yy.max?, npMaxF s.prof with
    | some lo, some hi, some A =>
      if lo = hi then .error .valueError
      else
        match s.measure O lo hi A noise with
        | .error _ => .ok YSize.missing
        | .ok y => .ok y
    | _, _, _ => .error .valueError

end Misfit
