import Verif.Model.Masks

/-!
# Trimming of spectra

Source: `misfit/general/galaxy_utils.py` 25-276, `misfit/galaxy.py` 457-459.
Images are lists of rows, so that differing sizes can be expressed.  When a numpy indexing
error occurs half way the model drops the partly updated object.
-/

namespace Misfit
variable {K : Type} [Field K] [LinearOrder K] {α : Type}

/-- numpy indexing `a[k]` with a non-negative index (IndexError out of range) -/
def getIdx (a : List α) (k : Nat) : Except PyErr α :=
  match a[k]? with | some x => .ok x | none => .error .indexError

/-- numpy indexing `a[wh]` with a list of non-negative indices -/
def fancyIndex (a : List α) (wh : List Nat) : Except PyErr (List α) := wh.mapM (getIdx a)

/-- numpy indexing `a[:, wh]` -/
def fancyCols (a : List (List α)) (wh : List Nat) : Except PyErr (List (List α)) :=
  a.mapM fun row => fancyIndex row wh

/-- indexing a 1D attribute that may be `None` (TypeError) -/
def optIndex (a : Option (List α)) (wh : List Nat) : Except PyErr (List α) :=
  match a with
  | none => .error .typeError
  | some a => fancyIndex a wh

/-- the same for an image -/
def optCols (a : Option (List (List α))) (wh : List Nat) : Except PyErr (List (List α)) :=
  match a with
  | none => .error .typeError
  | some a => fancyCols a wh

/-- `(w[k] >= lo) & (w[k] <= hi)` -/
def rangeAt (w : List K) (lo hi : K) (k : Nat) : Bool :=
  match w[k]? with
  | some x => decide (lo ≤ x ∧ x ≤ hi)
  | none => false

/-- `np.where((w >= lo) & (w <= hi))[0]` -/
def whRange (w : List K) (lo hi : K) : List Nat :=
  (List.range w.length).filter (rangeAt w lo hi)

/-- The attributes of an `ObsSpectrum2D` touched by trimming; `none` is Python's `None` or a
missing attribute.  Pixel contents are of any type. -/
structure Spec2D (K α : Type) where
  wave : Option (List K)
  obswave : Option (List K)
  restwave : Option (List (Fl K))
  flux : Option (List (List α))
  err : Option (List (List α))
  mask : Option (List (List α))
  weight : Option (List (List α))
  inclCont : Option (List (List α))
  contModel : Option (List (List α))
  trimObs : Option (K × K)
  trimRest : Option (Fl K × Fl K)

/-- Choice of the observed and rest-frame range (galaxy_utils.py 91-108).  `lookup` is the
result of reading the parameter table, `none` if neither file nor line name is given. -/
def trimRanges (z : K) (rest obs : Option (K × K)) (lookup : Option (Except PyErr (K × K))) :
    Except PyErr ((K × K) × (Fl K × Fl K)) :=
  match rest, obs, lookup with
  | none, none, none => .error .valueError
  | some _, some _, _ => .error .valueError
  | some (a, b), none, _ => .ok ((a * (1 + z), b * (1 + z)), (.fin a, .fin b))
  | none, some (a, b), _ =>
      .ok ((a, b), (Fl.fin a / Fl.fin (1 + z), Fl.fin b / Fl.fin (1 + z)))
  | none, none, some (.error e) => .error e
  | none, none, some (.ok (a, b)) => .ok ((a * (1 + z), b * (1 + z)), (.fin a, .fin b))

/-- `calculate_restwave` (galaxy.py 453-455) on an existing wave array -/
def calcRestwave (s : Spec2D K α) (z : K) (w : List K) : Spec2D K α :=
  { s with obswave := some w, restwave := some (w.map fun x => Fl.fin x / Fl.fin (1 + z)) }

/-- The selection of columns (galaxy_utils.py 113-140 in place, 145-167 on a copy). -/
def trimSelect (s : Spec2D K α) (z : K) (obs : K × K) (rest : Fl K × Fl K) (inplace : Bool) :
    Except PyErr (Spec2D K α) :=
  match s.obswave with
  | none => .error .attributeError
  | some ow =>
    let wh := whRange ow obs.1 obs.2
    let s := { s with trimObs := some obs, trimRest := some rest }
    if wh.length > 0 then do
      let w ← optIndex s.wave wh
      let flux ← optCols s.flux wh
      let err ← optCols s.err wh
      let mask ← optCols s.mask wh
      let weight ← optCols s.weight wh
      let s := { s with wave := some w, flux := some flux, err := some err,
                        mask := some mask, weight := some weight }
      let s := if inplace then
          match optCols s.inclCont wh, optCols s.contModel wh with
          | .ok a, .ok b => { s with inclCont := some a, contModel := some b }
          | _, _ => { s with inclCont := none, contModel := none }
        else s
      .ok (calcRestwave s z w)
    else
      .ok { s with wave := none, flux := none, err := none, mask := none, weight := none }

/-- `trim_spectrum_2D_wavelength` (galaxy_utils.py 78-171); `none` for a missing spectrum. -/
def trimWavelength2D (s : Option (Spec2D K α)) (z : K) (rest obs : Option (K × K))
    (lookup : Option (Except PyErr (K × K))) (inplace : Bool) :
    Except PyErr (Option (Spec2D K α)) :=
  match trimRanges z rest obs lookup with
  | .error e => .error e
  | .ok (o, r) =>
    match s with
    | none => .ok none
    | some s => (trimSelect s z o r inplace).map some

/-- Python slice `a[start:stop]` along the first axis -/
def pySlice (a : List α) (start stop : Int) : List α :=
  (a.take (pySliceBound a.length stop)).drop (pySliceBound a.length start)

/-- What `trim_spectrum_2D_spatial` reads and writes.  `m0`, `shift`, `peakSnr`, `ypos` are
numbers; the object centre is an integer pixel. -/
structure SpatialSpec (K α : Type) where
  flux : List (List α)
  err : List (List α)
  inclCont : List (List α)
  contModel : List (List α)
  weight : List (List α)
  mask : List (List α)
  maskQual : List (List α)
  maskSky : List (List α)
  maskLowSnr : List (List α)
  lowRows : List Nat
  profile1D : Option (List K)
  nSpatial : Nat
  m0 : K
  mLims : Int × Int
  ypos : K
  fullM0 : K
  fullL : Int
  fullR : Int

/-- Row limits (galaxy_utils.py 198-203) -/
def trimRows (dither : Bool) (n : Nat) (mMin mMax : Int) : Int × Int :=
  if dither then (max 0 mMin, min ((n : Int) - 1) mMax) else (0, (n : Int) - 1)

/-- `trim_spectrum_2D_spatial` (galaxy_utils.py 176-276).  The result `(m0, m_min, m_max)` of
`vert_position` is an input; `recompute` stands for `mask_low_snr_rows_2D` on the trimmed
arrays (modelled in `Masks`), a function of trimmed flux, error, quality and sky mask. -/
def trimSpatial (s : SpatialSpec K α) (dither : Bool) (m0 : K) (mMin mMax : Int)
    (recompute : List (List α) → List (List α) → List (List α) → List (List α) → List Nat) :
    SpatialSpec K α :=
  let lr := trimRows dither s.flux.length mMin mMax
  let cut := fun (a : List (List α)) => pySlice a lr.1 lr.2
  { flux := cut s.flux, err := cut s.err, inclCont := cut s.inclCont,
    contModel := cut s.contModel, weight := cut s.weight, mask := cut s.mask,
    maskQual := cut s.maskQual, maskSky := cut s.maskSky, maskLowSnr := cut s.maskLowSnr,
    lowRows := recompute (cut s.flux) (cut s.err) (cut s.maskQual) (cut s.maskSky)
    profile1D := s.profile1D.map fun p => pySlice p lr.1 lr.2
    nSpatial := (cut s.flux).length
    m0 := m0 - ((lr.1 : Int) : K), mLims := (0, (cut s.flux).length),
    ypos := s.ypos - ((lr.1 : Int) : K), fullM0 := m0, fullL := lr.1, fullR := lr.2 }

/-- A redshift as Python holds it: plain numbers have no `.tolist()`. -/
inductive PyNum (K : Type)
  | plain (x : K) | numpy (x : K)

/-- A 1D spectrum, as far as trimming is concerned -/
structure Spec1D (K α : Type) where
  wave : Option (List K)
  obswave : Option (List K)
  restwave : Option (List (Fl K))
  flux : Option (List α)
  err : Option (List α)
  mask : Option (List α)

/-- `trim_spectrum_1D` (galaxy_utils.py 25-75).  Without redshift and observed range the
function prints a message and returns `None`.  `(1.+galaxy.z).tolist()` (line 49) is an
AttributeError for a plain Python number. -/
def trimSpectrum1D (s : Option (Spec1D K α)) (z : Option (PyNum K)) (rest obs : Option (K × K))
    (lookup : Except PyErr (K × K)) : Except PyErr (Option (Spec1D K α)) :=
  match z, obs with
  | none, none => .ok none
  | _, _ => do
    let rest' ← match rest, obs with
      | none, none => lookup.map some
      | _, _ => .ok rest
    let obs' ← match obs, rest', z with
      | some o, _, _ => .ok o
      | none, some (a, b), some (.numpy z) => .ok (a * (1 + z), b * (1 + z))
      | none, _, some (.plain _) => .error .attributeError
      | none, _, _ => .error .typeError
    match s with
    | none => .ok none
    | some s =>
      match s.obswave with
      | none => .error .attributeError
      | some ow =>
        let wh := whRange ow obs'.1 obs'.2
        if wh.length > 0 then do
          let w ← optIndex s.wave wh
          let f ← optIndex s.flux wh
          let e ← optIndex s.err wh
          let m ← optIndex s.mask wh
          match z with
          | none => .error .typeError
          | some (.plain zz) | some (.numpy zz) =>
            .ok (some { wave := some w, obswave := some w,
                        restwave := some (w.map fun x => Fl.fin x / Fl.fin (1 + zz)),
                        flux := some f, err := some e, mask := some m })
        else .ok (some { s with wave := none, flux := none, err := none, mask := none })

end Misfit
