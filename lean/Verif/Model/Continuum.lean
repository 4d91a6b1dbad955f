import Verif.Model.Masks
import Verif.Model.Lines

/-!
# Continuum subtraction

Sources: `misfit/general/galaxy_utils.py` 279-519, `misfit/general/general_utils.py` 28-45.

The minimiser (`lmfit.minimize`) and `np.median` are parameters.  Plots are left out.  Arrays of one
spectrum have the same number of columns, and the 1D spectrum has as many pixels as the 2D spectrum
has columns (otherwise numpy raises an IndexError, or trims the 1D spectrum at the wrong places).
-/

namespace Misfit

variable {r c : Nat}

/-- The attributes of the 2D spectrum that are read. -/
structure ContSpec (r c : Nat) where
  flux : Img r c ℝ
  err : Img r c ℝ
  weight : Img r c ℝ
  mask : Img r c ℝ
  wave : Fin c → ℝ
  obswave : Fin c → ℝ

/-- The attributes of the 1D spectrum that are read. -/
structure Cont1D (c : Nat) where
  flux : Fin c → Fl ℝ
  err : Fin c → Fl ℝ
  mask : Option (Fin c → Fl ℝ)

/-- Data for one straight line fit: abscissae, values, errors and mask. -/
structure LineData where
  xx : List ℝ
  yy : List (Fl ℝ)
  err : List (Fl ℝ)
  mask : List (Fl ℝ)

/-- One entry of `weighted_linear_residual` (general_utils.py 28-45) -/
noncomputable def linResidual (a b : Fl ℝ) (x : ℝ) (y e m : Fl ℝ) : Fl ℝ :=
  let v := (a * .fin x + b - y) / e
  let v := if Fl.eqB m 0 then 0 else v
  if v.isFinite then v else 0

/-- `lmfit.minimize(weighted_linear_residual, ...)`: `fit1D` returns slope and intercept when both
vary and the intercept when the slope is fixed at 0; `fitRow slope b0` returns the intercept. -/
structure ContFit where
  both : LineData → Fl ℝ × Fl ℝ
  intercept : LineData → Fl ℝ
  row : Fl ℝ → Fl ℝ → LineData → Fl ℝ

/-- The wavelength windows left of the lines, right of the lines, and the full range
(galaxy_utils.py 346-352); `f` full range and `m` masked line range, observed. -/
noncomputable def contWindows (obs : Fin c → ℝ) (f m : ℝ × ℝ) : List (Fin c) × List (Fin c) × List (Fin c) :=
  ((List.finRange c).filter fun j => decide (f.1 ≤ obs j ∧ obs j < m.1),
   (List.finRange c).filter fun j => decide (obs j ≤ f.2 ∧ m.2 < obs j),
   (List.finRange c).filter fun j => decide (f.1 ≤ obs j ∧ obs j ≤ f.2))

/-- `arr.max() > 0.` for a non-empty array -/
noncomputable def maxPos (l : List (Fl ℝ)) : Bool :=
  match npMax l with
  | some v => Fl.ltB 0 v
  | none => false

/-- Whether the slope varies (galaxy_utils.py 396-408). -/
noncomputable def slopeVaries (l r : List (Fin c)) (mask : Fin c → Fl ℝ) : Bool :=
  !l.isEmpty && !r.isEmpty && maxPos (l.map mask) && maxPos (r.map mask)

/-- `np.append(v[wh_l], v[wh_r])` -/
def twoSides {α : Type} (v : Fin c → α) (l r : List (Fin c)) : List α := l.map v ++ r.map v

/-- 1D spectrum (galaxy_utils.py 288-292, 382-423): mask with missing data and edges, the mask after
sky columns have been zeroed (`spec_mask_tmp` is a view, so this is also the mask of the spectrum
afterwards), and slope and intercept.  Without any column on either side lmfit raises a TypeError (more parameters
than data). -/
noncomputable def fitCont1D (O : ContFit) (s1 : Cont1D c) (mask1 : Fin c → Fl ℝ)
    (median : Fl ℝ) (cutoff : Option (Fl ℝ)) (obs : Fin c → ℝ) (l r : List (Fin c)) :
    Except PyErr ((Fin c → Fl ℝ) × Fl ℝ × Fl ℝ) :=
  match whSkylines1D (fun j => Fl.sqrt (Fl.sq (s1.err j * mask1 j))) cutoff (some median) with
  | .error e => .error e
  | .ok (_, sky) =>
    let tmp := fun j => if j ∈ sky then 0 else mask1 j
    let d : LineData := ⟨twoSides obs l r, twoSides s1.flux l r, twoSides s1.err l r, twoSides tmp l r⟩
    if l.isEmpty && r.isEmpty then .error .typeError
    else .ok (tmp, if slopeVaries l r tmp then O.both d else (0, O.intercept d))

/-- The fitted continuum of a row (galaxy_utils.py 455-468): a straight line in `wave`. -/
noncomputable def rowCont (O : ContFit) (slope b0 : Fl ℝ) (d : LineData) (wave : Fin c → ℝ) :
    Fin c → Fl ℝ :=
  fun j => slope * .fin (wave j) + O.row slope b0 d

/-- `np.isfinite(continuum_fit.max())` -/
noncomputable def contFinite (f : Fin c → Fl ℝ) : Bool :=
  match npMax (List.ofFn f) with
  | some v => v.isFinite
  | none => false

/-- What the function leaves in the 2D and 1D spectrum. -/
structure ContOut (r : Nat) where
  wave : List ℝ
  inclCont : Fin r → List (Fl ℝ)
  contModel : Fin r → List (Fl ℝ)
  flux : Fin r → List (Fl ℝ)
  err : Fin r → List (Fl ℝ)
  mask : Fin r → List (Fl ℝ)
  weight : Fin r → List (Fl ℝ)
  mask1D : List (Fl ℝ)

/-- Columns `wh` of an image -/
def pick {α : Type} (a : Fin r → Fin c → α) (wh : List (Fin c)) : Fin r → List α := fun i => wh.map (a i)

/-- The mask of the 1D spectrum before the fit (galaxy_utils.py 288-291): missing data and edges. -/
noncomputable def prepMask1D (s1 : Cont1D c) : Except PyErr (Fin c → Fl ℝ) :=
  (specMaskMissing1D s1.flux s1.err none s1.mask false).map fun m => maskEdges1D m 10

/-- `subtract_continuum_2D` (galaxy_utils.py 279-519) with continuum subtraction.  When a row fails
the exception leaves earlier rows subtracted; only the exception is modelled. -/
noncomputable def subtractContinuum (O : ContFit) (median : List (Fl ℝ) → Fl ℝ) (s : ContSpec r c)
    (s1 : Cont1D c) (cutoff : Option (Fl ℝ)) (f m : ℝ × ℝ) (fill : Fl ℝ) :
    Except PyErr (ContOut r) :=
  match specMaskMissing2D s.flux s.err (some s.weight) (some s.mask) true, prepMask1D s1 with
  | .error e, _ => .error e
  | _, .error e => .error e
  | .ok _, .ok mask1 =>
    match prepareBadPixels s.flux s.err s.weight s.mask (some mask1) fill with
    | .error e => .error e
    | .ok (mask, flux, err) =>
      let med := median (List.ofFn fun j => colQuad err mask j)
      let w := contWindows s.obswave f m
      match fitCont1D O s1 mask1 med cutoff s.obswave w.1 w.2.1 with
      | .error e => .error e
      | .ok (tmp, slope, b0) =>
        let cont := fun i => rowCont O slope b0 ⟨twoSides s.obswave w.1 w.2.1,
          twoSides (flux i) w.1 w.2.1, twoSides (err i) w.1 w.2.1, twoSides (mask i) w.1 w.2.1⟩ s.wave
        if (List.finRange r).all fun i => contFinite (cont i) then
          .ok ⟨w.2.2.map s.wave, pick flux w.2.2, pick cont w.2.2,
            pick (fun i j => flux i j - cont i j) w.2.2, pick err w.2.2, pick mask w.2.2,
            pick s.weight w.2.2, w.2.2.map tmp⟩
        else .error .valueError

/-- The same with `no_cont_subtraction=True`: the 1D spectrum is not read and not changed. -/
noncomputable def skipContinuum (s : ContSpec r c) (f m : ℝ × ℝ) (fill : Fl ℝ) :
    Except PyErr (ContOut r) :=
  match prepareBadPixels s.flux s.err s.weight s.mask none fill with
  | .error e => .error e
  | .ok (mask, flux, err) =>
    let w := contWindows s.obswave f m
    .ok ⟨w.2.2.map s.wave, pick flux w.2.2, pick (fun _ _ => 0) w.2.2, pick flux w.2.2,
      pick err w.2.2, pick mask w.2.2, pick s.weight w.2.2, []⟩

/-! ## Mock observations -/

/-- `generate_mock_basis` (generate_basic.py 50-75): slit length after the minimum has been enforced,
number of rows, and object centre `m0`.  `slit/pixscale` is a Python float division; negative
results of `ceil` do not occur for a positive pixel scale and `nymin ≥ 0`. -/
noncomputable def mockRows (slit p : ℝ) (nymin : Nat) : Except PyErr (ℝ × Nat × ℝ) :=
  let L := if slit < nymin * p then nymin * p else slit
  if p = 0 then .error .zeroDivisionError
  else .ok (L, ⌈L / p⌉.toNat, (⌈L / p⌉ : ℝ) / 2 - 0.5)

end Misfit
