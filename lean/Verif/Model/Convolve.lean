import Verif.Model.Collapse

/-!
# Convolution and rebinning

Source: `misfit/model/kin_functions.py` 361-511.
`scipy.signal.fftconvolve(a, k, mode='same')` is modelled by the exact discrete convolution it
approximates: the central part, of the shape of `a`, of the full convolution, which starts at
index `(size k - 1) // 2` in each axis.
-/

namespace Misfit

section
variable {K : Type*} [Field K]

/-- an array continued by zero -/
def ext {n : Nat} (a : Fin n → K) (p : ℤ) : K :=
  if h : 0 ≤ p ∧ p < n then a ⟨p.toNat, by omega⟩ else 0

/-- 1D `fftconvolve(a, k, mode='same')` -/
def convSame {n m : Nat} (a : Fin n → K) (k : Fin m → K) (i : Fin n) : K :=
  ∑ j : Fin m, ext a ((i : ℤ) + ((m - 1) / 2 : ℕ) - j) * k j

/-- 2D `fftconvolve(a, k, mode='same')` -/
def convSame2 {n m kn km : Nat} (a : Fin n → Fin m → K) (k : Fin kn → Fin km → K)
    (y : Fin n) (x : Fin m) : K :=
  ∑ j : Fin kn, ∑ i : Fin km,
    ext (fun y' => ext (a y') ((x : ℤ) + ((km - 1) / 2 : ℕ) - i))
      ((y : ℤ) + ((kn - 1) / 2 : ℕ) - j) * k j i

end

section
variable {K : Type*} [Field K] [LinearOrder K]

/-- `PSF_convolve` (kin_functions.py 361-375).  The stamp is `1 × kn × km`, so the convolution acts
on every wavelength slice.  The division of the totals is a numpy division. -/
def psfConvolve {nW n m kn km : Nat} (cube : Fin nW → Fin n → Fin m → K) (fwhm : K)
    (stamp : Fin kn → Fin km → K) : Fin nW → Fin n → Fin m → Fl K :=
  if 0 < fwhm then
    let c := fun w => convSame2 (cube w) stamp
    let factor := Fl.fin (∑ w, ∑ y, ∑ x, cube w y x) / Fl.fin (∑ w, ∑ y, ∑ x, c w y x)
    fun w y x => Fl.fin (c w y x) * factor
  else fun w y x => .fin (cube w y x)

/-- element number `pos` of an `n × m` array in row-major order -/
def flatAt {n m : Nat} (a : Fin n → Fin m → K) (pos : Nat) : K :=
  if h : pos / m < n ∧ pos % m < m then a ⟨pos / m, h.1⟩ ⟨pos % m, h.2⟩ else 0

/-- `rebin` (kin_functions.py 409-416) of an `n × m` array to `p × q`.  The factors are the
truncated quotients; `reshape` keeps the row-major order of the elements and is a ValueError when
the number of elements differs (a zero target gives a negative or unusable factor: also an
error).  The position below is that of element `(i, s, j, t)` of the reshaped array. -/
def rebin {n m : Nat} (a : Fin n → Fin m → K) (p q : Nat) :
    Except PyErr (Fin p → Fin q → K) :=
  if p = 0 ∨ q = 0 then .error .valueError
  else
    let f0 := n / p
    let f1 := m / q
    if p * f0 * (q * f1) = n * m then
      .ok fun i j => ∑ s : Fin f0, ∑ t : Fin f1,
        flatAt a (((i.val * f0 + s.val) * q + j.val) * f1 + t.val)
    else .error .valueError

end

/-- `gaus_from_fwhm` (kin_functions.py 502-511) at one point -/
noncomputable def gausFromFwhm (x fwhm x0 : ℝ) : Fl ℝ :=
  let sig := fwhm / (2 * Real.sqrt (2 * Real.log 2))
  Fl.exp (Fl.fin (-1 * (x - x0) ^ 2) / Fl.fin (2 * sig ^ 2))

/-- non-finite values replaced by zero (kin_functions.py 455-456) -/
noncomputable def finiteOr0 : Fl ℝ → ℝ
  | .fin x => x
  | _ => 0

/-- `convol_instconstfwhm` (kin_functions.py 453-464).  `model` is indexed by wavelength, then
spatial row.  The kernel has one column, so every spatial row is convolved in wavelength. -/
noncomputable def convolInstConst {nW nY nK : Nat} (model : Fin nW → Fin nY → ℝ) (xx : Fin nK → ℝ)
    (lamCent fwhm : ℝ) : Fin nW → Fin nY → Fl ℝ :=
  let gaus := fun i => finiteOr0 (gausFromFwhm (xx i) fwhm lamCent)
  let c := convSame2 model (fun i (_ : Fin 1) => gaus i)
  let factor := Fl.fin (∑ w, ∑ y, model w y) / Fl.fin (∑ w, ∑ y, c w y)
  fun w y => Fl.fin (c w y) * factor

/-- The resolution argument of `inst_convol_complete`: a number or an array (one entry per row) -/
inductive Resolution
  | const (disp : ℝ)
  | array (disp : List ℝ)

/-- the odd length of the kernel grid (kin_functions.py 486-489): the last wavelength is dropped
when the number of wavelengths is even -/
def oddLen (n : Nat) : Nat := if n % 2 = 0 then n - 1 else n

theorem oddLen_le (n : Nat) : oddLen n ≤ n := by unfold oddLen; split <;> omega

/-- `inst_convol_complete` (kin_functions.py 470-496).  The variable-resolution branch calls
`convol_inst`, which raises ValueError (422-423).  Empty arrays are not modelled
separately. -/
noncomputable def instConvolComplete {nW nY : Nat} (model : Fin nW → Fin nY → ℝ) (wave : Fin nW → ℝ)
    (res : Resolution) : Except PyErr (Fin nW → Fin nY → Fl ℝ) :=
  match res with
  | .array _ => .error .valueError
  | .const d =>
    let fwhm := d * (2 * Real.sqrt (2 * Real.log 2))
    let xx : Fin (oddLen nW) → ℝ := fun i => wave (Fin.castLE (oddLen_le nW) i)
    let lamCent := (∑ i, xx i) / (oddLen nW : ℝ)
    .ok (convolInstConst model xx lamCent fwhm)

end Misfit
