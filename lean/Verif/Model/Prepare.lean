import Verif.Model.Continuum
import Verif.Model.Weights
import Verif.Model.VertPos
import Verif.Model.Trim
import Verif.Model.Geometry

/-!
# Preparing a 2D spectrum for fitting

Sources: `misfit/galaxy.py` 453-455, 724-928 (`ObsSpectrum2D.fit_prep_calcs` and the methods it calls),
`misfit/general/galaxy_utils.py` 78-138, 176-276, 279-519, 526-545, 1243-1306, 1328-1473.

The spectrum and the galaxy are one state.  A step changes the state and may raise; the state is then left as it is at that point.
The images of a spectrum have the same shape by construction (numpy would raise or broadcast otherwise); masks that survive from an
earlier call and the 1D spectrum have a shape of their own.  lmfit fits and `np.median` are oracles that do not raise
(except for the continuum fit without data).  The keyword arguments of `fit_prep_calcs` are left out (see `Objects`), as are `dlam`, the parameter file names (the shipped tables are used),
printing and plotting.
-/

namespace Misfit

variable {r c n : Nat}

/-- An image together with its shape -/
structure Pic where
  r : Nat
  c : Nat
  px : Img r c ℝ

/-- The image if it has the given shape.  (numpy would also broadcast a shape with ones; this is left out.) -/
def Pic.shaped (p : Pic) (r c : Nat) : Option (Img r c ℝ) :=
  if h : p.r = r ∧ p.c = c then some fun i j => p.px (i.cast h.1.symm) (j.cast h.2.symm) else none

/-- `a[:, wh]` -/
def colSel {α : Type} (a : Fin r → Fin c → α) (wh : List (Fin c)) : Fin r → Fin wh.length → α :=
  fun i j => a i (wh.get j)

/-- `a[wh]` of a 1D array along the wavelength axis -/
def waveSel {α : Type} (a : Fin c → α) (wh : List (Fin c)) : Fin wh.length → α := fun j => a (wh.get j)

theorem pySliceBound_le (n : Nat) (k : Int) : pySliceBound n k ≤ n := by
  unfold pySliceBound
  split_ifs <;> omega

/-- The row of `a` that is row `i` of the slice `a[l:h]` -/
def sliceRow (r : Nat) (l h : Int) (i : Fin (pySliceBound r h - pySliceBound r l)) : Fin r :=
  ⟨pySliceBound r l + i.val, by have := i.isLt; have := pySliceBound_le r h; omega⟩

/-- `a[l:h, :]` -/
def rowSel {α : Type} (a : Fin r → Fin c → α) (l h : Int) :
    Fin (pySliceBound r h - pySliceBound r l) → Fin c → α :=
  fun i j => a (sliceRow r l h i) j

/-- `p[l:h, :]` -/
def Pic.rows (p : Pic) (l h : Int) : Pic :=
  ⟨pySliceBound p.r h - pySliceBound p.r l, p.c, rowSel p.px l h⟩

/-- An `ObsSpectrum2D` (galaxy.py 655-722), the attributes used in the preparation.  `none` is `None` or a missing attribute.
`gone` says that `wave`, `flux`, `flux_err`, `spec_mask`, `spec_weight` have been set to `None` because the trimmed range is empty
(galaxy_utils.py 132-137); the arrays of the record are then not read any more. -/
structure Obs2D where
  r : Nat
  c : Nat
  wave : Fin c → ℝ
  flux : Img r c ℝ
  err : Img r c ℝ
  obswave : Option (Fin c → ℝ)
  weight : Option (Img r c ℝ)
  mask : Option (Img r c ℝ)
  inclCont : Option (Img r c ℝ)
  contModel : Option (Img r c ℝ)
  maskQual : Option Pic
  maskSky : Option Pic
  maskLow : Option Pic
  lowRows : List Nat
  whSky : List Nat
  whNosky : List Nat
  median : Option (Fl ℝ)
  group : Option String
  lines : LineSet
  fullRange : Option (ℝ × ℝ)
  lineRange : Option (ℝ × ℝ)
  maskRange : Option (ℝ × ℝ)
  band : Option String
  cutoff : Option (Fl ℝ)
  units : String
  rowCut : Fl ℝ
  weighting : String
  profile : List (Fl ℝ)
  slitPA : Option ℝ
  ypos : Option ℝ
  m0 : ℝ
  mLims : Nat × Nat
  shiftFit : ℝ
  peakSnr : ℝ
  fullRows : Int × Int
  shift : Option ℝ
  lam0 : Option ℝ
  specType : String
  noCont : Bool
  prepared : Bool
  gone : Bool

/-- A 1D spectrum: `n` pixels; the extraction profile has one entry per spatial row. -/
structure Obs1D where
  n : Nat
  wave : Fin n → ℝ
  flux : Fin n → Fl ℝ
  err : Fin n → Fl ℝ
  mask : Option (Fin n → Fl ℝ)
  profile : Option (List ℝ)

/-- The galaxy and the instrument's pixel scale.  `spec2D` is the spectrum being prepared; `linked` says that it has been
assigned at the end of the preparation (galaxy.py 804). -/
structure PrepGal where
  z : Option ℝ
  dither : Bool
  generateModel : Bool
  spec1D : Option Obs1D
  sersicPA : Option ℝ
  /-- `none`: no postage stamp; `some none`: a stamp without `img_PA` -/
  imgPA : Option (Option ℝ)
  deltPA : Option ℝ
  deltPAabs : Option ℝ
  pix : ℝ
  linked : Bool

/-- The state: spectrum and galaxy -/
structure PrepAll where
  spec : Obs2D
  gal : PrepGal

/-- A step of the preparation: new state and the exception, if any -/
abbrev PrepStep := PrepAll → PrepAll × Option PyErr

/-- Steps one after the other, stopping at the first exception -/
def runSteps : List PrepStep → PrepStep
  | [], s => (s, none)
  | f :: fs, s =>
    match f s with
    | (s', some e) => (s', some e)
    | (s', none) => runSteps fs s'

/-! ## Line set, sky level, derived values, missing arrays -/

/-- `initialize_lineset`, the names (galaxy.py 824-829) -/
def lineNamesStep : PrepStep := fun s =>
  match s.spec.lines.names with
  | some _ => (s, none)
  | none =>
    match readLineNames s.spec.group with
    | .error e => (s, some e)
    | .ok ns => ({ s with spec := { s.spec with lines := { s.spec.lines with names := some ns } } }, none)

/-- `initialize_lineset`, the wavelengths (galaxy.py 831-839).  Without names nothing is done. -/
def lineWavesStep : PrepStep := fun s =>
  match s.spec.lines.names, s.spec.lines.waves with
  | some ns, none =>
    match readAll readRestwave ns with
    | .error e => (s, some e)
    | .ok w => ({ s with spec := { s.spec with lines := { s.spec.lines with waves := some w } } }, none)
  | _, _ => (s, none)

/-- `initialize_lineset`, the flux ratios (galaxy.py 841-849) -/
def lineRatiosStep : PrepStep := fun s =>
  match s.spec.lines.names, s.spec.lines.ratios with
  | some ns, none =>
    match readAll readLineRatio ns with
    | .error e => (s, some e)
    | .ok w => ({ s with spec := { s.spec with lines := { s.spec.lines with ratios := some w } } }, none)
  | _, _ => (s, none)

/-- `initialize_skylevels` (galaxy.py 852-863) with `read_skyline_band_cutoff` (io.py 107-120) -/
noncomputable def skyLevelsStep : PrepStep := fun s =>
  match s.spec.cutoff with
  | some _ => (s, none)
  | none =>
    match readRow bandCutoff s.spec.band with
    | .error e => (s, some e)
    | .ok (v, u) => ({ s with spec := { s.spec with cutoff := some (.fin ((v : ℚ) : ℝ)), units := u } }, none)

/-- `initialize_derived_variables` (galaxy.py 806-814) -/
noncomputable def derivedStep : PrepStep := fun s =>
  if s.spec.gone then (s, some .typeError)
  else if s.spec.lam0 = none ∧ s.spec.specType = "wave" then
    match s.spec.lines.waves, s.gal.z with
    | none, _ => (s, some .typeError)
    | some [], _ => (s, some .indexError)
    | some (_ :: _), none => (s, some .typeError)
    | some (w :: _), some z => ({ s with spec := { s.spec with lam0 := some ((w : ℝ) * (1 + z)) } }, none)
  else (s, none)

/-- `_ensure_mask_weight` (galaxy.py 724-729) -/
noncomputable def ensureStep : PrepStep := fun s =>
  ({ s with spec := { s.spec with
      weight := some (s.spec.weight.getD fun _ _ => 1), mask := some (s.spec.mask.getD fun _ _ => 1) } }, none)

/-! ## Continuum subtraction -/

/-- Missing data in the 2D spectrum (galaxy_utils.py 283-285) -/
noncomputable def missing2DStep : PrepStep := fun s =>
  match specMaskMissing2D s.spec.flux s.spec.err s.spec.weight s.spec.mask true with
  | .error e => (s, some e)
  | .ok m => ({ s with spec := { s.spec with mask := some m } }, none)

/-- Missing data and edges of the 1D spectrum (galaxy_utils.py 287-292).  An exception in `spec_mask_missing` (an empty
spectrum) leaves everything as it is. -/
noncomputable def missing1DStep : PrepStep := fun s =>
  if s.spec.noCont then (s, none)
  else
    match s.gal.spec1D with
    | none => (s, some .attributeError)
    | some o =>
      match specMaskMissing1D o.flux o.err none o.mask false with
      | .error e => (s, some e)
      | .ok m => ({ s with gal := { s.gal with spec1D := some { o with mask := some (maskEdges1D m 10) } } }, none)

/-- The columns masked in the 1D spectrum (galaxy_utils.py 296, 730-736): a column beyond the image is an IndexError, columns before
it are masked. -/
noncomputable def from1DStep : PrepStep := fun s =>
  if s.spec.noCont then (s, none)
  else
    match s.gal.spec1D, s.spec.mask with
    | some o, some m =>
      match o.mask with
      | none => (s, some .typeError)
      | some m1 =>
        let wh := (List.finRange o.n).filter fun k => Fl.eqB (m1 k) 0
        let hit := fun (j : Fin s.spec.c) => decide (j.val ∈ wh.map Fin.val)
        let m' : Img s.spec.r s.spec.c ℝ := fun i j => if hit j then 0 else m i j
        ({ s with spec := { s.spec with mask := some m' } },
          if wh.all fun k => decide (k.val < s.spec.c) then none else some .indexError)
    | _, _ => (s, some .typeError)

/-- Filling of bad pixels, median error (galaxy_utils.py 298-307) -/
noncomputable def fillStep (median : List (Fl ℝ) → Fl ℝ) : PrepStep := fun s =>
  match s.spec.mask with
  | none => (s, some .typeError)
  | some m =>
    let flux := fun i => specNanMasking (s.spec.flux i) (m i) (.fin (-99)) false false
    let err := fun i => specNanMasking (s.spec.err i) (m i) (.fin (-99)) true false
    ({ s with spec := { s.spec with
        flux := flux, err := err, median := some (median (List.ofFn fun j => colQuad err m j)) } }, none)

/-- a wavelength range from a table, as real numbers -/
noncomputable def realRange (p : ℚ × ℚ) : ℝ × ℝ := ((p.1 : ℝ), (p.2 : ℝ))

/-- A wavelength range: the stored one, otherwise that of the table for the first line (galaxy_utils.py 313-336).  A range given by
the user is assumed to be an array (a list cannot be multiplied by the redshift factor). -/
noncomputable def rangeOr (names : Option (List String)) (t : List (String × ℚ × ℚ)) (cur : Option (ℝ × ℝ)) :
    Except PyErr (ℝ × ℝ) :=
  match cur, names with
  | some v, _ => .ok v
  | none, none => .error .typeError
  | none, some [] => .error .indexError
  | none, some (l :: _) =>
    match readWaveRange t l with
    | .error e => .error e
    | .ok q => .ok (realRange q)

/-- The three wavelength ranges (galaxy_utils.py 313-336) -/
noncomputable def rangesStep : PrepStep := fun s =>
  match rangeOr s.spec.lines.names fullRange2D s.spec.fullRange with
  | .error e => (s, some e)
  | .ok f =>
    let s1 := { s with spec := { s.spec with fullRange := some f } }
    match rangeOr s.spec.lines.names lineRange2D s.spec.lineRange with
    | .error e => (s1, some e)
    | .ok l =>
      let s2 := { s1 with spec := { s1.spec with lineRange := some l } }
      match rangeOr s.spec.lines.names maskRange2D s.spec.maskRange with
      | .error e => (s2, some e)
      | .ok m => ({ s2 with spec := { s2.spec with maskRange := some m } }, none)

/-- Copy including the continuum, zero continuum model (galaxy_utils.py 344-345) -/
noncomputable def copyStep : PrepStep := fun s =>
  ({ s with spec := { s.spec with inclCont := some s.spec.flux, contModel := some fun _ _ => 0 } }, none)

/-- `range*(1.+z)` -/
noncomputable def redshifted (p : ℝ × ℝ) (z : ℝ) : ℝ × ℝ := (p.1 * (1 + z), p.2 * (1 + z))

/-- The windows (galaxy_utils.py 349-355) -/
noncomputable def prepWindows (s : PrepAll) :
    Except PyErr (List (Fin s.spec.c) × List (Fin s.spec.c) × List (Fin s.spec.c)) :=
  match s.spec.fullRange, s.spec.maskRange, s.gal.z with
  | some f, some m, some z =>
    match s.spec.obswave with
    | none => .error .attributeError
    | some w => .ok (contWindows w (redshifted f z) (redshifted m z))
  | _, _, _ => .error .typeError

/-- `a[wh]` of a 1D array of another length: IndexError beyond its end -/
def pickAt {α : Type} (a : Fin n → α) (wh : List (Fin c)) : Except PyErr (List α) :=
  wh.mapM fun j => if h : j.val < n then .ok (a ⟨j.val, h⟩) else .error .indexError

/-- The fit to the 1D spectrum (galaxy_utils.py 381-428): sky columns are zeroed in the 1D mask (`spec_mask_tmp` is a view); slope and
intercept.  Without any column on either side lmfit refuses to fit more parameters than data: TypeError (from
`scipy.optimize.leastsq`). -/
noncomputable def slope1D (O : ContFit) (o : Obs1D) (m1 : Fin o.n → Fl ℝ) (cutoff median : Option (Fl ℝ))
    (obs : Fin c → ℝ) (l rr : List (Fin c)) :
    (Option (Fin o.n → Fl ℝ)) × Except PyErr (Fl ℝ × Fl ℝ) :=
  match whSkylines1D (fun j => Fl.sqrt (Fl.sq (o.err j * m1 j))) cutoff median with
  | .error e => (none, .error e)
  | .ok (_, sky) =>
    let tmp := fun j => if j ∈ sky then 0 else m1 j
    (some tmp, do
      let ml ← pickAt tmp l
      let mr ← pickAt tmp rr
      let yl ← pickAt o.flux l
      let yr ← pickAt o.flux rr
      let el ← pickAt o.err l
      let er ← pickAt o.err rr
      let d : LineData := ⟨twoSides obs l rr, yl ++ yr, el ++ er, ml ++ mr⟩
      if l.isEmpty && rr.isEmpty then .error .typeError
      else .ok (if !l.isEmpty && !rr.isEmpty && maxPos ml && maxPos mr then O.both d else (0, O.intercept d)))

/-- The continuum of a row (galaxy_utils.py 455-468) -/
noncomputable def prepCont (O : ContFit) (s : Obs2D) (incl mask : Img s.r s.c ℝ) (obs : Fin s.c → ℝ)
    (slope b0 : Fl ℝ) (l rr : List (Fin s.c)) : Img s.r s.c ℝ :=
  fun i => rowCont O slope b0 ⟨twoSides obs l rr, twoSides (incl i) l rr, twoSides (s.err i) l rr, twoSides (mask i) l rr⟩ s.wave

/-- The fits (galaxy_utils.py 381-481).  The first row whose continuum is not finite raises a ValueError: the rows before it have been
subtracted and the continuum model is filled up to this row. -/
noncomputable def contStep (O : ContFit) : PrepStep := fun s =>
  if s.spec.noCont then (s, none)
  else
    match prepWindows s, s.gal.spec1D, s.spec.inclCont, s.spec.contModel, s.spec.mask, s.spec.obswave with
    | .error e, _, _, _, _, _ => (s, some e)
    | .ok w, some o, some incl, some cm, some m, some obs =>
      match o.mask with
      | none => (s, some .typeError)
      | some m1 =>
        match slope1D O o m1 s.spec.cutoff s.spec.median obs w.1 w.2.1 with
        | (none, .error e) => (s, some e)
        | (none, .ok _) => (s, none)
        | (some tmp, res) =>
          let s1 := { s with gal := { s.gal with spec1D := some { o with mask := some tmp } } }
          match res with
          | .error e => (s1, some e)
          | .ok (slope, b0) =>
            let cont := prepCont O s.spec incl m obs slope b0 w.1 w.2.1
            match (List.finRange s.spec.r).find? fun i => !contFinite (cont i) with
            | none =>
              ({ s1 with spec := { s1.spec with contModel := some cont, flux := fun i j => incl i j - cont i j } }, none)
            | some b =>
              ({ s1 with spec := { s1.spec with
                  contModel := some fun i => if i ≤ b then cont i else cm i
                  flux := fun i j => if i < b then incl i j - cont i j else s.spec.flux i j } }, some .valueError)
    | _, _, _, _, _, _ => (s, some .typeError)

/-- The columns `wh` of all arrays, with `calculate_restwave` (galaxy.py 453-455) -/
def Obs2D.cols (s : Obs2D) (wh : List (Fin s.c)) : Obs2D :=
  { s with
    c := wh.length
    wave := waveSel s.wave wh
    flux := colSel s.flux wh
    err := colSel s.err wh
    obswave := some (waveSel s.wave wh)
    weight := s.weight.map fun a => colSel a wh
    mask := s.mask.map fun a => colSel a wh
    inclCont := s.inclCont.map fun a => colSel a wh
    contModel := s.contModel.map fun a => colSel a wh }

/-- The pixels `wh` of the 1D spectrum, which has as many as needed -/
def Obs1D.cols (o : Obs1D) (wh : List (Fin c)) (h : ∀ j ∈ wh, j.val < o.n) : Obs1D :=
  { o with
    n := wh.length
    wave := fun k => o.wave ⟨(wh.get k).val, h _ (List.get_mem wh k)⟩
    flux := fun k => o.flux ⟨(wh.get k).val, h _ (List.get_mem wh k)⟩
    err := fun k => o.err ⟨(wh.get k).val, h _ (List.get_mem wh k)⟩
    mask := o.mask.map fun m k => m ⟨(wh.get k).val, h _ (List.get_mem wh k)⟩ }

/-- Restriction to the full range (galaxy_utils.py 501-519).  A 1D spectrum that is too short raises an IndexError after the 2D
arrays have been cut (its own `obswave` and that of the 2D spectrum are then not updated). -/
noncomputable def fullRangeStep : PrepStep := fun s =>
  match prepWindows s with
  | .error e => (s, some e)
  | .ok w =>
    let cut := s.spec.cols w.2.2
    if s.spec.noCont then ({ s with spec := cut }, none)
    else
      match s.gal.spec1D with
      | none => ({ s with spec := cut }, some .attributeError)
      | some o =>
        if h : ∀ j ∈ w.2.2, j.val < o.n then
          (⟨cut, { s.gal with spec1D := some (o.cols w.2.2 h) }⟩, none)
        else ({ s with spec := { cut with obswave := s.spec.obswave.map fun a => waveSel a w.2.2 } }, some .indexError)

/-! ## Trimming in wavelength, masks -/

/-- `trim_spectrum_wavelength` as called (galaxy.py 764-768, galaxy_utils.py 89-138): the rest-frame line range is always set at this
point.  `flux_incl_cont` and `cont_model` are kept when the range is empty. -/
noncomputable def trimStep : PrepStep := fun s =>
  match s.spec.lines.names, s.spec.lineRange, s.gal.z with
  | some [], _, _ => (s, some .indexError)
  | some (_ :: _), some l, some z =>
    match s.spec.obswave with
    | none => (s, some .attributeError)
    | some w =>
      let o := redshifted l z
      let wh := (List.finRange s.spec.c).filter fun j => decide (o.1 ≤ w j ∧ w j ≤ o.2)
      if wh.length > 0 then ({ s with spec := s.spec.cols wh }, none)
      else ({ s with spec := { s.spec with gone := true } }, none)
  | _, _, _ => (s, some .typeError)

/-- `get_skyline_mask` (galaxy.py 866-871, galaxy_utils.py 526-535) -/
noncomputable def skyMaskStep : PrepStep := fun s =>
  if s.spec.gone then (s, some .attributeError)
  else
    match s.spec.maskQual, s.spec.mask with
    | none, none => (s, some .attributeError)
    | q, m =>
      let s1 := match q, m with
        | none, some m => { s with spec := { s.spec with maskQual := some ⟨s.spec.r, s.spec.c, m⟩ } }
        | _, _ => s
      match s1.spec.maskQual with
      | none => (s1, some .attributeError)
      | some q =>
        if s1.spec.units ≠ "timesMedianErr" then (s1, some .valueError)
        else
          match q.shaped s1.spec.r s1.spec.c with
          | none => (s1, some .valueError)
          | some q =>
            match maskSkylines2D s1.spec.err q s1.spec.cutoff s1.spec.units s1.spec.median with
            | .error e => (s1, some e)
            | .ok (m, sky, nosky) =>
              ({ s1 with spec := { s1.spec with
                  maskSky := some ⟨s1.spec.r, s1.spec.c, m⟩, whSky := sky.map Fin.val, whNosky := nosky.map Fin.val } }, none)

/-- `get_low_snr_mask` and the product of the masks (galaxy.py 873-880, 782-784, galaxy_utils.py 538-545) -/
noncomputable def lowSnrStep : PrepStep := fun s =>
  match s.spec.maskQual, s.spec.maskSky, s.spec.mask with
  | some q, some k, some m =>
    match q.shaped s.spec.r s.spec.c, k.shaped s.spec.r s.spec.c with
    | some q, some k =>
      let res := maskLowSnrRows2D s.spec.flux s.spec.err q k s.spec.rowCut
      ({ s with spec := { s.spec with
          maskLow := some ⟨s.spec.r, s.spec.c, res.1⟩, lowRows := res.2
          mask := some fun i j => m i j * res.1 i j } }, none)
    | _, _ => (s, some .valueError)
  | _, _, _ => (s, some .typeError)

/-! ## Spatial trimming -/

/-- What the position fit is given: dither, pixel scale, position, profile and error (galaxy_utils.py 798-822) -/
structure VertIn where
  dither : Bool
  pix : ℝ
  ypos : Option ℝ
  sp : List (Fl ℝ)
  err : List (Fl ℝ)

/-- The error image of `vert_position`: masked errors, the fill value replaced (galaxy_utils.py 184, 798) -/
noncomputable def vertErr (median : List (Fl ℝ) → Fl ℝ) (e : Img r c ℝ) : Img r c ℝ :=
  let md := median (List.ofFn fun i => List.ofFn (e i)).flatten
  fun i j => if Fl.eqB (e i j) (.fin (-99)) then md * .fin 3 else e i j

/-- S/N of a row with non-finite values set to zero (galaxy_utils.py 806-811) -/
noncomputable def vertSnr (flux err : Img r c ℝ) (i : Fin r) : ℝ :=
  match Fl.abs ((∑ j, flux i j) / Fl.sqrt (∑ j, Fl.sq (err i j))) with
  | .fin x => x
  | _ => 0

/-- index of the first largest value -/
noncomputable def argmaxIdx : List ℝ → Nat
  | [] => 0
  | x :: l => if ∀ y ∈ l, y ≤ x then 0 else argmaxIdx l + 1

/-- The profile with an extreme value at the edge removed (galaxy_utils.py 818-824) -/
noncomputable def edgeCut (snr : List ℝ) (sp : List (Fl ℝ)) : List (Fl ℝ) :=
  if argmaxIdx snr = 0 then sp.set 0 (.fin 0)
  else if argmaxIdx snr + 1 = sp.length then sp.set (sp.length - 1) (.fin 0) else sp

/-- `vert_position` as called (galaxy_utils.py 182-189) -/
noncomputable def prepVert (V : VertIn → ℝ × ℝ × ℝ × ℝ) (median : List (Fl ℝ) → Fl ℝ) (dither : Bool) (pix : ℝ)
    (ypos : Option ℝ) (flux err sky : Img r c ℝ) : Except PyErr (VertRes ℝ) :=
  let f : Img r c ℝ := fun i j => flux i j * sky i j
  let e : Img r c ℝ := vertErr median fun i j => err i j * sky i j
  let snr := List.ofFn fun i => vertSnr f e i
  let fit := V ⟨dither, pix, ypos, edgeCut snr (List.ofFn fun i => ∑ j, f i j),
    List.ofFn fun i => Fl.sqrt (∑ j, Fl.sq (e i j))⟩
  vertPosition dither pix snr ypos false fit.1 fit.2.1 fit.2.2.1 fit.2.2.2

/-- The rows `l:h` of all arrays (galaxy_utils.py 206-220) -/
def Obs2D.rows (s : Obs2D) (l h : Int) : Obs2D :=
  { s with
    r := pySliceBound s.r h - pySliceBound s.r l
    flux := rowSel s.flux l h
    err := rowSel s.err l h
    inclCont := s.inclCont.map fun a => rowSel a l h
    contModel := s.contModel.map fun a => rowSel a l h
    weight := s.weight.map fun a => rowSel a l h
    mask := s.mask.map fun a => rowSel a l h
    maskQual := s.maskQual.map fun p => p.rows l h
    maskSky := s.maskSky.map fun p => p.rows l h
    maskLow := s.maskLow.map fun p => p.rows l h }

/-- The 1D extraction profile restricted to the rows (galaxy_utils.py 237-239) -/
def trimProfile (g : PrepGal) (l h : Int) : PrepGal :=
  { g with spec1D := g.spec1D.map fun o => { o with profile := o.profile.map fun p => pySlice p l h } }

/-- `trim_spectrum_2D_spatial` (galaxy_utils.py 176-276).  Without `ypos` the last statement computes `None - l_ind`.  The
wavelength of the first line is needed (line 185). -/
noncomputable def spatialStep (V : VertIn → ℝ × ℝ × ℝ × ℝ) (median : List (Fl ℝ) → Fl ℝ) : PrepStep := fun s =>
  match s.spec.lines.waves, s.gal.z with
  | none, _ => (s, some .typeError)
  | some [], _ => (s, some .indexError)
  | some (_ :: _), none => (s, some .typeError)
  | some (_ :: _), some _ =>
    match s.spec.maskSky.bind fun k => k.shaped s.spec.r s.spec.c with
    | none => (s, some .valueError)
    | some sky =>
      match prepVert V median s.gal.dither s.gal.pix s.spec.ypos s.spec.flux s.spec.err sky with
      | .error e => (s, some e)
      | .ok v =>
        let lr := trimRows s.gal.dither s.spec.r v.mMin v.mMax
        let t := s.spec.rows lr.1 lr.2
        match t.maskQual.bind fun k => k.shaped t.r t.c, t.maskSky.bind fun k => k.shaped t.r t.c with
        | some q, some k =>
          let low := (maskLowSnrRows2D t.flux t.err q k t.rowCut).2
          let t := { t with lowRows := low, fullRows := lr, m0 := (v.m0 : ℝ) - ((lr.1 : Int) : ℝ), shiftFit := v.shift,
                            peakSnr := v.snr, mLims := (0, t.r) }
          let g := trimProfile s.gal lr.1 lr.2
          match t.ypos with
          | none => (⟨t, g⟩, some .typeError)
          | some y => (⟨{ t with ypos := some (y - ((lr.1 : Int) : ℝ)) }, g⟩, none)
        | _, _ => ({ s with spec := t }, some .valueError)

/-! ## Weights, misalignment, position of the line -/

/-- `calculate_fit_weights` (galaxy.py 912-916, galaxy_utils.py 1243-1306).  `W` is the lmfit Gaussian fit of 'optimal' to the row
sums; the maximum of an empty profile raises, and so does a fit of three parameters to fewer rows. -/
noncomputable def weightsStep (W : List (Fl ℝ) → List (Fl ℝ) → ℝ × ℝ × ℝ) : PrepStep := fun s =>
  match s.spec.maskSky.bind fun k => k.shaped s.spec.r s.spec.c, s.spec.inclCont with
  | some k, some incl =>
    if s.spec.weighting = "optimal" ∧ s.spec.r = 0 then (s, some .valueError)
    else if s.spec.weighting = "optimal" ∧ s.spec.r < 3 then (s, some .typeError)
    else
      let fit := W (List.ofFn fun i => Fl.abs (∑ j, incl i j * k i j)) (List.ofFn fun i => Fl.abs (∑ j, s.spec.err i j * k i j))
      match fitWeights s.spec.weighting s.spec.flux s.spec.err k s.spec.lowRows fit with
      | .error e => (s, some e)
      | .ok (w, _) => ({ s with spec := { s.spec with profile := List.ofFn w } }, none)
  | _, _ => (s, some .typeError)

/-- The misalignment if it is not known (galaxy.py 793-794, galaxy_utils.py 1311-1324): a missing postage stamp is an
AttributeError, a missing angle a TypeError. -/
noncomputable def angleStep : PrepStep := fun s =>
  match s.gal.deltPA with
  | some _ => (s, none)
  | none =>
    if s.gal.generateModel then (s, some .typeError)
    else
      match s.gal.imgPA with
      | none => (s, some .attributeError)
      | some none => (s, some .typeError)
      | some (some img) =>
        match s.spec.slitPA, s.gal.sersicPA with
        | some slit, some ser =>
          match calcSlitOffsetAngles ⟨false, ser, slit, img, none, none⟩ with
          | .error e => (s, some e)
          | .ok a => ({ s with gal := { s.gal with deltPA := a.deltPA, deltPAabs := a.deltPAabs } }, none)
        | _, _ => (s, some .typeError)

/-- What the two Gaussian fits are given: rows, errors, usable rows, columns, errors, usable columns (galaxy_utils.py 1338-1356) -/
structure CentreIn where
  y : List (Fl ℝ)
  yErr : List (Fl ℝ)
  rows : List Nat
  lam : List (Fl ℝ)
  lamErr : List (Fl ℝ)
  cols : List Nat
  wave : List ℝ
  ypos : ℝ
  lam0 : ℝ

/-- `get_m0_lam0_pos` (galaxy.py 918-922, galaxy_utils.py 1328-1473).  `C` are the fitted centres, `none` for an exception or NaN.
The fit for the wavelength needs `lam0` (set for spectra in wavelength units); without it `lam0` stays `None`. -/
noncomputable def centreStep (C : CentreIn → Option ℝ × Option ℝ) : PrepStep := fun s =>
  match s.spec.maskSky.bind fun k => k.shaped s.spec.r s.spec.c, s.spec.maskLow.bind fun k => k.shaped s.spec.r s.spec.c,
      s.spec.ypos with
  | some k, some lo, some ypos =>
    let f : Img s.spec.r s.spec.c ℝ := fun i j => s.spec.flux i j * k i j * lo i j
    let e : Img s.spec.r s.spec.c ℝ := fun i j => s.spec.err i j * k i j * lo i j
    let rows := (List.range s.spec.r).filter fun i => decide (i ∉ s.spec.lowRows)
    let fit := C ⟨List.ofFn fun i => ∑ j, f i j, List.ofFn fun i => Fl.sqrt (∑ j, Fl.sq (e i j)), rows,
      List.ofFn fun j => ∑ i, f i j, List.ofFn fun j => Fl.sqrt (∑ i, Fl.sq (e i j)), s.spec.whNosky,
      List.ofFn s.spec.wave, ypos, s.spec.lam0.getD 0⟩
    let usable := !rows.isEmpty && !s.spec.whNosky.isEmpty
    let waves := List.ofFn s.spec.wave
    let res := getM0Lam0 ⟨s.spec.m0, ypos, s.spec.shiftFit, s.spec.peakSnr, 0, s.spec.lam0.getD 0,
      (waves.min?).getD 0, (waves.max?).getD 0, s.spec.r⟩ usable fit.1 fit.2
    ({ s with spec := { s.spec with shift := some res.shift, lam0 := s.spec.lam0.map fun _ => res.lam0 } }, none)
  | _, _, _ => (s, some .typeError)

/-! ## The whole preparation -/

/-- The numerical routines -/
structure PrepOracle where
  median : List (Fl ℝ) → Fl ℝ
  cont : ContFit
  vert : VertIn → ℝ × ℝ × ℝ × ℝ
  optimal : List (Fl ℝ) → List (Fl ℝ) → ℝ × ℝ × ℝ
  centre : CentreIn → Option ℝ × Option ℝ

/-- `subtract_continuum` (galaxy.py 882-888, galaxy_utils.py 279-519) -/
noncomputable def continuumSteps (O : PrepOracle) : List PrepStep :=
  [missing2DStep, missing1DStep, from1DStep, fillStep O.median, rangesStep, copyStep, contStep O.cont, fullRangeStep]

/-- The steps of `fit_prep_calcs` (galaxy.py 746-798) -/
noncomputable def prepSteps (O : PrepOracle) : List PrepStep :=
  [lineNamesStep, lineWavesStep, lineRatiosStep, skyLevelsStep, derivedStep, ensureStep] ++ continuumSteps O ++
  [trimStep, skyMaskStep, lowSnrStep, spatialStep O.vert O.median, weightsStep O.optimal, angleStep, centreStep O.centre]

/-- `fit_prep_calcs` (galaxy.py 737-804) without keyword arguments -/
noncomputable def prepare (O : PrepOracle) : PrepStep := fun s =>
  if s.spec.prepared then ({ s with gal := { s.gal with linked := true } }, none)
  else
    match runSteps (prepSteps O) s with
    | (s', some e) => (s', some e)
    | (s', none) =>
      ({ spec := { s'.spec with prepared := true }, gal := { s'.gal with linked := true } }, none)

end Misfit
