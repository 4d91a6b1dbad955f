import Verif.Model.Profiles

/-!
# Spectral cube

Source: `misfit/model/kin_functions.py` 73-165.
-/

namespace Misfit

/-- speed of light in km/s, `c_kms` (kin_functions.py 15, `astropy.constants.c`) -/
def cKms {K : Type*} [Field K] : K := 299792458 / 1000

/-- an intensity, velocity or dispersion cube: `nZ × nY × nX` -/
abbrev Cube (nZ nY nX : Nat) (K : Type*) := Fin nZ → Fin nY → Fin nX → K

section
variable {K : Type*} [Field K] [LinearOrder K]

/-- `np.argmin` of an array without NaN: the first index of the smallest entry -/
def argmin {n : Nat} (f : Fin n → K) : Option (Fin n) :=
  (List.finRange n).find? fun i => (List.finRange n).all fun j => decide (f i ≤ f j)

/-- `np.abs` of a finite number -/
def absK (x : K) : K := if x < 0 then -x else x

/-- One pass of the loop body of `I_simple_collapse` (kin_functions.py 155-163) for the cell
`(m,j,k)`.  `np.argmin` of an empty array is a ValueError. -/
def simpleCollapseStep {nW nZ nY nX : Nat} (I V : Cube nZ nY nX K) (wave : Fin nW → K)
    (deltZ lam0 : K) (acc : Cube nW nY nX K) (c : Fin nX × Fin nY × Fin nZ) :
    Except PyErr (Cube nW nY nX K) :=
  let k := c.1; let j := c.2.1; let m := c.2.2
  let lam := lam0 * (1 + V m j k / cKms)
  match argmin fun i => absK (lam - wave i) with
  | none => .error .valueError
  | some w => .ok fun w' j' k' =>
      if w' = w ∧ j' = j ∧ k' = k then acc w' j' k' + I m j k * deltZ else acc w' j' k'

/-- the order in which the three nested loops visit the cells (kin_functions.py 149-153) -/
def simpleCollapseCells (nZ nY nX : Nat) : List (Fin nX × Fin nY × Fin nZ) :=
  (List.finRange nX).flatMap fun k => (List.finRange nY).flatMap fun j =>
    (List.finRange nZ).map fun m => (k, j, m)

/-- `I_simple_collapse` (kin_functions.py 137-165); `delt_wave` is unused -/
def iSimpleCollapse {nW nZ nY nX : Nat} (I V : Cube nZ nY nX K) (wave : Fin nW → K)
    (deltZ lam0 : K) : Except PyErr (Cube nW nY nX K) :=
  (simpleCollapseCells nZ nY nX).foldlM (simpleCollapseStep I V wave deltZ lam0) fun _ _ _ => 0

end

/-- `np.exp` -/
noncomputable def Fl.exp : Fl ℝ → Fl ℝ
  | .fin x => .fin (Real.exp x)
  | .pinf => .pinf
  | .ninf => .fin 0
  | .nan => .nan

/-- The broadened sum over the line of sight at one sky position and wavelength
(kin_functions.py 103-111 and 121-128): Gaussians centred on `cen` with width `sig`, weighted by
the intensity, summed over `z`, times `delt_z`. -/
noncomputable def broadSum {nZ nY nX : Nat} (I cen sig : Cube nZ nY nX ℝ) (deltZ lam : ℝ)
    (j : Fin nY) (k : Fin nX) : Fl ℝ :=
  (∑ m, Fl.fin (I m j k) *
    (Fl.fin 1 / Fl.fin (sig m j k * Real.sqrt (2 * Real.pi)) *
      Fl.exp (Fl.fin (-(cen m j k - lam) ^ 2) / Fl.fin (2 * sig m j k ^ 2)))) * Fl.fin deltZ

/-- `spec_type` -/
inductive SpecType | wave | velocity | other

open Classical in
/-- One emission line in wavelength mode (kin_functions.py 97-115).  `I_matrix` and
`wave_ref_matrix` are the intensity cube and wavelength array repeated, as `AperModel2D` builds
them.  The caller has checked that the cube is not empty. -/
noncomputable def oneLine {nW nZ nY nX : Nat} (I V sig : Cube nZ nY nX ℝ) (wave : Fin nW → ℝ)
    (z deltZ rest : ℝ) : Except PyErr (Fin nW → Fin nY → Fin nX → Fl ℝ) :=
  let lam0 := rest * (1 + z)
  if ∃ m j k, 0 < |sig m j k| then
    .ok fun w j k => broadSum I (fun m j k => lam0 * (1 + V m j k / cKms))
      (fun m j k => sig m j k / cKms * lam0) deltZ (wave w) j k
  else do
    let c ← iSimpleCollapse I V wave deltZ lam0
    .ok fun w j k => .fin (c w j k)

/-- The loop over the lines (kin_functions.py 96-117) -/
noncomputable def collapseLines {nW nZ nY nX : Nat} (I V sig : Cube nZ nY nX ℝ) (wave : Fin nW → ℝ)
    (z deltZ : ℝ) : List ℝ → List ℝ → (Fin nW → Fin nY → Fin nX → Fl ℝ) →
      Except PyErr (Fin nW → Fin nY → Fin nX → Fl ℝ)
  | [], _, acc => .ok acc
  | rest :: rs, ratios, acc =>
    match oneLine I V sig wave z deltZ rest with
    | .error e => .error e
    | .ok one =>
      match ratios with
      | [] => .error .indexError
      | f :: fs => collapseLines I V sig wave z deltZ rs fs
          fun w j k => acc w j k + one w j k * Fl.fin f

open Classical in
/-- `add_sigma_collapse_z` (kin_functions.py 73-132).  The maximum of an empty array is a
ValueError.  In velocity mode without dispersion `lam0` is not defined: UnboundLocalError, a
NameError.  An unknown `spec_type` leaves the cube at zero. -/
noncomputable def addSigmaCollapseZ {nW nZ nY nX : Nat} (I V sig : Cube nZ nY nX ℝ)
    (wave : Fin nW → ℝ) (z : ℝ) (restwave ratios : List ℝ) (deltZ : ℝ) (st : SpecType) :
    Except PyErr (Fin nW → Fin nY → Fin nX → Fl ℝ) :=
  match st with
  | .wave =>
    if restwave ≠ [] ∧ (nZ = 0 ∨ nY = 0 ∨ nX = 0) then .error .valueError
    else collapseLines I V sig wave z deltZ restwave ratios fun _ _ _ => 0
  | .velocity =>
    if nZ = 0 ∨ nY = 0 ∨ nX = 0 then .error .valueError
    else if ∃ m j k, 0 < |sig m j k| then
      .ok fun w j k => 0 + broadSum I V sig deltZ (wave w) j k
    else .error .nameError
  | .other => .ok fun _ _ _ => 0

end Misfit
