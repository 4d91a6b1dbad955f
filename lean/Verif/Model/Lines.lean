import Verif.Model.Num
import Mathlib.Data.Rat.Defs
import Mathlib.Algebra.Order.Ring.Rat

/-!
# Line tables, line set initialisation

Sources: `misfit/lib/*.dat`, `misfit/lib/*.param` (the data), `misfit/general/io.py` (the
readers), `misfit/galaxy.py` (`ObsSpectrum2D.initialize_lineset`),
`misfit/fit/fit2D.py` (`FitEmissionLines2D.setup`).

The tables are those shipped with the code, as lists of rows in file order; comment lines
are skipped by the `commented_header` reader.
-/

namespace Misfit

/-- misfit/lib/line_names_cat.dat 2-7 (the second column already split at commas). -/
def lineNamesCat : List (String × List String) :=
  [("Halpha", ["HA6565"]), ("Hbeta", ["HB4863"]), ("OIII", ["OIII5008", "OIII4960"]),
   ("NII", ["NII6550", "NII6585"]), ("SII", ["SII6733", "SII6718"]),
   ("OII", ["OII3727", "OII3730"])]

/-- misfit/lib/line_wavelengths_ratios.dat 2-11: name, rest wavelength, strength. -/
def lineWavelengths : List (String × ℚ × ℚ) :=
  [("HA6565", 6564.60, 1), ("HB4863", 4862.71, 1), ("OIII5008", 5008.24, 1),
   ("OIII4960", 4960.295, 0.333333), ("NII6550", 6549.86, 0.333333), ("NII6585", 6585.27, 1),
   ("SII6718", 6718.294, 0.261111), ("SII6733", 6732.673, 1), ("OII3727", 3727.10, 1),
   ("OII3730", 3729.86, 0.233333)]

/-- misfit/lib/full_range_restwave_2D.param 3-5. -/
def fullRange2D : List (String × ℚ × ℚ) :=
  [("HA6565", 6454.60, 6674.60), ("HB4863", 4787.71, 4932.71), ("OIII5008", 4880.24, 5118.24)]

/-- misfit/lib/mask_lines_range_restwave_2D.param 3-5. -/
def maskRange2D : List (String × ℚ × ℚ) :=
  [("HA6565", 6533.60, 6599.60), ("HB4863", 4852.71, 4872.71), ("OIII5008", 4928.24, 5038.24)]

/-- misfit/lib/line_range_restwave_2D.param 3-5. -/
def lineRange2D : List (String × ℚ × ℚ) :=
  [("HA6565", 6555.60, 6573.60), ("HB4863", 4856.71, 4868.71), ("OIII5008", 5002.29, 5015.24)]

/-- misfit/lib/trim_wavelengths_1D.param 3-8. -/
def trimRange1D : List (String × ℚ × ℚ) :=
  [("HA6565", 6480, 6650), ("HB4863", 4800, 4920), ("OIII5008", 4950, 5060),
   ("Halpha", 6480, 6650), ("Hbeta", 4800, 4920), ("OIII", 4930, 5060)]

/-- misfit/lib/band_sky_cutoff_mosfire.dat 2-5. -/
def bandCutoff : List (String × ℚ × String) :=
  [("K", 2, "timesMedianErr"), ("H", 3, "timesMedianErr"), ("J", 3, "timesMedianErr"),
   ("Y", 3, "timesMedianErr")]

/-- The common part of the readers of io.py (26-113): `np.where(column == key)[0]`, ValueError
if there is no match, the first match otherwise.  `none` is a key `None`, which equals no
entry. -/
def readRow {α : Type} : List (String × α) → Option String → Except PyErr α
  | _, none => .error .valueError
  | [], some _ => .error .valueError
  | (k, v) :: rest, some n => if k = n then .ok v else readRow rest (some n)

/-- `read_line_names` (io.py 26-50) of the shipped table. -/
def readLineNames (name : Option String) : Except PyErr (List String) := readRow lineNamesCat name

/-- `read_restwave` (io.py 54-68) of the shipped table. -/
def readRestwave (line : String) : Except PyErr ℚ :=
  match readRow lineWavelengths (some line) with
  | .ok r => .ok r.1
  | .error e => .error e

/-- `read_line_ratio` (io.py 70-86) of the shipped table. -/
def readLineRatio (line : String) : Except PyErr ℚ :=
  match readRow lineWavelengths (some line) with
  | .ok r => .ok r.2
  | .error e => .error e

/-- `read_wave_range` (io.py 89-105). -/
def readWaveRange (t : List (String × ℚ × ℚ)) (line : String) : Except PyErr (ℚ × ℚ) :=
  readRow t (some line)

/-- The loops `for linename in linenames_arr: arr.append(read(...))` (galaxy.py 836-838,
845-847, fit2D.py 233-236, 246-249): the first failing lookup stops. -/
def readAll (f : String → Except PyErr ℚ) : List String → Except PyErr (List ℚ)
  | [] => .ok []
  | n :: ns =>
      match f n with
      | .error e => .error e
      | .ok v =>
          match readAll f ns with
          | .error e => .error e
          | .ok vs => .ok (v :: vs)

/-- The three line attributes `linenames_arr`, `restwave_arr`, `flux_ratio_arr` of a
spectrum or a fit object (`none` is `None`). -/
structure LineSet where
  names : Option (List String)
  waves : Option (List ℚ)
  ratios : Option (List ℚ)
  deriving DecidableEq, Repr

/-- `ObsSpectrum2D.initialize_lineset` (galaxy.py 816-847) with the shipped tables;
`group` is `linegroup_name`. -/
def initializeLineset (group : Option String) (s : LineSet) : Except PyErr LineSet :=
  match (match s.names with
    | some ns => Except.ok ns
    | none => readLineNames group) with
  | .error e => .error e
  | .ok ns =>
      match (match s.waves with
        | some w => Except.ok w
        | none => readAll readRestwave ns) with
      | .error e => .error e
      | .ok w =>
          match (match s.ratios with
            | some r => Except.ok r
            | none => readAll readLineRatio ns) with
          | .error e => .error e
          | .ok r => .ok { names := some ns, waves := some w, ratios := some r }

/-- First part of `FitEmissionLines2D.setup` (fit2D.py 217-226): line names of the fit object
(`a`) and of its spectrum (`b`). -/
def setupNames (group : Option String) (a b : LineSet) : Except PyErr (LineSet × LineSet) :=
  match a.names with
  | some _ => .ok (a, b)
  | none =>
      match b.names with
      | some ns => .ok ({ a with names := some ns }, b)
      | none =>
          match readLineNames group with
          | .error e => .error e
          | .ok ns => .ok ({ a with names := some ns }, { b with names := some ns })

/-- Second part (fit2D.py 228-239): rest wavelengths. -/
def setupWaves (a b : LineSet) : Except PyErr (LineSet × LineSet) :=
  match a.names, a.waves with
  | some ns, none =>
      match b.names, b.waves with
      | some _, none =>
          match readAll readRestwave ns with
          | .error e => .error e
          | .ok w => .ok ({ a with waves := some w }, { b with waves := some w })
      | _, bw => .ok ({ a with waves := bw }, b)
  | _, _ => .ok (a, b)

/-- Third part (fit2D.py 241-252): flux ratios. -/
def setupRatios (a b : LineSet) : Except PyErr (LineSet × LineSet) :=
  match a.names, a.ratios with
  | some ns, none =>
      match b.names, b.ratios with
      | some _, none =>
          match readAll readLineRatio ns with
          | .error e => .error e
          | .ok r => .ok ({ a with ratios := some r }, { b with ratios := some r })
      | _, br => .ok ({ a with ratios := br }, b)
  | _, _ => .ok (a, b)

/-- The line part of constructing a 2D fit object (fit2D.py 216-256 and galaxy.py 750-751):
`setup`, then the preparation of the spectrum, of which only `initialize_lineset` is
included. `ga`, `gb` are the group names of the fit object and of the spectrum. -/
def setup2D (ga gb : Option String) (a b : LineSet) : Except PyErr (LineSet × LineSet) :=
  match setupNames ga a b with
  | .error e => .error e
  | .ok (a1, b1) =>
      match setupWaves a1 b1 with
      | .error e => .error e
      | .ok (a2, b2) =>
          match setupRatios a2 b2 with
          | .error e => .error e
          | .ok (a3, b3) =>
              match initializeLineset gb b3 with
              | .error e => .error e
              | .ok b4 => .ok (a3, b4)

/-- The three ranges read when a spectrum is prepared (galaxy_utils.py 311-333), for the
first line of the set: full range, fitted line range, masked range. -/
def readRanges2D (names : List String) : Except PyErr ((ℚ × ℚ) × (ℚ × ℚ) × (ℚ × ℚ)) :=
  match names.head? with
  | none => .error .indexError
  | some l =>
      match readWaveRange fullRange2D l with
      | .error e => .error e
      | .ok f =>
          match readWaveRange lineRange2D l with
          | .error e => .error e
          | .ok r =>
              match readWaveRange maskRange2D l with
              | .error e => .error e
              | .ok m => .ok (f, r, m)

end Misfit
