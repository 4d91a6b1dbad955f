import Verif.Model.Fit1D
import Verif.Model.Trim
import Verif.Model.Lines

/-!
# The 1D fit object

Source: `misfit/fit/fit1D.py` 120-660 (`FitEmissionLines1D`), `misfit/galaxy.py` 521-547,
`misfit/model/emission_lines_model.py` 214-243.

Simplifications: the galaxy is always given; starting dispersion and fluxes are numbers;
`lmfit.minimize` and the random numbers are inputs; pickles are a map from file names to matrices;
the figure is modelled in Model/Plot1D, here only the check of its file name, so `final_model` is not part of the state
(see `finalModel`).
-/

namespace Misfit
variable {K : Type} [Field K] [LinearOrder K]

/-- The number itself -/
def PyNum.val : PyNum K → K
  | .plain x => x
  | .numpy x => x

/-- The galaxy as far as the 1D fit is concerned.  `trim` is `galaxy.spec1D_trim` (`none`: `None`
or missing), `numEdge` is `spec1D.num_mask_edge` (galaxy.py 505, copied with the spectrum). -/
structure Gal1D (K : Type) where
  z : Option (PyNum K)
  hasID : Bool
  spec : Option (Spec1D K (Fl K))
  numEdge : Nat
  trim : Option (Spec1D K (Fl K))

/-- Attributes of a `FitEmissionLines1D` (fit1D.py 120-150 and those added by `fit`).  `none` is
Python's `None` or a missing attribute. -/
structure F1 (K : Type) where
  z : Option K := none
  names : Option (List String) := none
  flux : Option (List K) := none
  velDisp : K
  cont : Option (List K) := none
  shape : String := "gaussian"
  contOrder : Nat := 1
  delLam : K
  trimFile : Option (List (String × ℚ × ℚ)) := none
  trimRest : Option (K × K) := none
  numMC : Nat := 500
  linenames : Option (List (List String)) := none
  restwave : Option (List (List K)) := none
  zErr : Option (K × K) := none
  velErr : Option (K × K) := none
  fluxErr : Option (List (K × K)) := none
  contErr : Option (List (K × K)) := none

/-- Keyword arguments of the constructor and of `setAttr`: `none` is "not given".  The inner
option is a value or an explicit `None`.  A keyword `z` is overwritten by line 156, so it is left
out. -/
structure F1Kw (K : Type) where
  names : Option (List String) := none
  flux : Option (List K) := none
  velDisp : Option K := none
  cont : Option (Option (List K)) := none
  shape : Option String := none
  contOrder : Option Nat := none
  delLam : Option K := none
  trimFile : Option (Option (List (String × ℚ × ℚ))) := none
  trimRest : Option (Option (K × K)) := none
  numMC : Option Nat := none
  linenames : Option (Option (List (List String))) := none
  restwave : Option (Option (List (List K))) := none

/-- `self.__dict__.update(…)` (fit1D.py 154) -/
def F1.update (o : F1 K) (kw : F1Kw K) : F1 K :=
  { o with
    names := match kw.names with | some v => some v | none => o.names
    flux := match kw.flux with | some v => some v | none => o.flux
    velDisp := kw.velDisp.getD o.velDisp
    cont := kw.cont.getD o.cont
    shape := kw.shape.getD o.shape
    contOrder := kw.contOrder.getD o.contOrder
    delLam := kw.delLam.getD o.delLam
    trimFile := kw.trimFile.getD o.trimFile
    trimRest := kw.trimRest.getD o.trimRest
    numMC := kw.numMC.getD o.numMC
    linenames := kw.linenames.getD o.linenames
    restwave := kw.restwave.getD o.restwave }

/-- `for name in self.names_arr: … io.read_line_names(…)` (fit1D.py 169-171) -/
def readGroups : List String → Except PyErr (List (List String))
  | [] => .ok []
  | n :: ns =>
      match readLineNames (some n) with
      | .error e => .error e
      | .ok l =>
        match readGroups ns with
        | .error e => .error e
        | .ok ls => .ok (l :: ls)

/-- The loops of fit1D.py 178-182 over the line names -/
def readWaves : List (List String) → Except PyErr (List (List K))
  | [] => .ok []
  | l :: ls =>
      match readAll readRestwave l with
      | .error e => .error e
      | .ok ws =>
        match readWaves ls with
        | .error e => .error e
        | .ok wss => .ok (ws.map (fun (q : ℚ) => (q : K)) :: wss)

/-- Rows of differing lengths: `np.array` of them is a ValueError from numpy 1.24 on, an array of
lists before. -/
def ragged (l : List (List K)) : Bool :=
  match l with
  | [] => false
  | a :: rest => rest.any fun b => b.length != a.length

/-- The second part of `setAttr` (fit1D.py 174-184): the rest wavelengths of the lines `l`.  `strict`
says whether numpy refuses ragged arrays. -/
def F1.setWaves (strict : Bool) (l : List (List String)) (o : F1 K) : F1 K × Option PyErr :=
  match o.restwave with
  | some _ => (o, none)
  | none =>
    match readWaves l with
    | .error e => (o, some e)
    | .ok w =>
      if strict && ragged w then (o, some .valueError)
      else ({ o with restwave := some w }, none)

/-- The line names after `setAttr` (fit1D.py 162-172) -/
def F1.groupNames (o : F1 K) : Except PyErr (List (List String)) :=
  match o.linenames with
  | some l => .ok l
  | none =>
    match o.names with
    | none => .error .typeError
    | some ns => readGroups ns

/-- `setAttr` (fit1D.py 152-184).  Attributes set before an exception stay set. -/
def F1.setAttr (strict : Bool) (g : Gal1D K) (kw : F1Kw K) (o : F1 K) : F1 K × Option PyErr :=
  let o := { o.update kw with z := g.z.map PyNum.val }
  if o.shape ≠ "gaussian" then (o, some .valueError)
  else
    match o.groupNames with
    | .error e => (o, some e)
    | .ok l => F1.setWaves strict l { o with linenames := some l }

/-- `spec1D_trim.mask_edges()` (galaxy.py 545-547).  Without pixels in the range the mask is
`None`, `np.where(None == 1)` is empty and the mask stays `None` (numpy before 2.1). -/
def maskEdgesSpec (numEdge : Nat) (s : Spec1D K (Fl K)) : Spec1D K (Fl K) :=
  { s with mask := s.mask.map fun m => List.ofFn (maskEdges1D (fun i => m.get i) numEdge) }

/-- The wavelength table for the trimming (fit1D.py 190-195): without a file the shipped one, which
`trim_spectrum_1D` also takes when it gets no file name. -/
def F1.lookup (o : F1 K) (name : String) : Except PyErr (K × K) :=
  match readWaveRange (o.trimFile.getD trimRange1D) name with
  | .ok r => .ok ((r.1 : K), (r.2 : K))
  | .error e => .error e

/-- `setup_spectrum` (fit1D.py 186-205): the trimmed spectrum is stored in the galaxy. -/
def F1.setupSpectrum (o : F1 K) (g : Gal1D K) : Gal1D K × Option PyErr :=
  match g.spec with
  | none => (g, some .attributeError)
  | some s =>
    match o.names with
    | none => (g, some .typeError)
    | some [] => (g, some .indexError)
    | some (n :: _) =>
      match trimSpectrum1D (some s) g.z o.trimRest none (o.lookup n) with
      | .error e => (g, some e)
      | .ok none => ({ g with trim := none }, some .attributeError)
      | .ok (some t) => ({ g with trim := some (maskEdgesSpec g.numEdge t) }, none)

/-- `FitEmissionLines1D(galaxy=…, **kwargs)` (fit1D.py 120-150).  The dispersion has no default in
the code (`None`); here it is 0 until given. -/
def F1.make (strict : Bool) (g : Gal1D K) (kw : F1Kw K) : F1 K × Gal1D K × Option PyErr :=
  match F1.setAttr strict g kw { velDisp := 0, delLam := 20 } with
  | (o, some e) => (o, g, some e)
  | (o, none) =>
    let r := o.setupSpectrum g
    (o, r.1, r.2)

/-! ## Parameters and minimisation -/

/-- A parameter of lmfit: value and bounds -/
structure LmPar (K : Type) where
  value : K
  lo : Option K := none
  hi : Option K := none

/-- The parameters of one minimisation -/
structure Params1D (K : Type) where
  z : LmPar K
  velDisp : LmPar K
  flux : List (LmPar K)
  cont : List (LmPar K)

/-- lmfit exchanges bounds in the wrong order and refuses equal ones (`Parameter._init_bounds`;
the comparison there is up to rounding). -/
def lmBounds (lo hi : K) : Except PyErr (K × K) :=
  if lo = hi then .error .valueError
  else if hi < lo then .ok (hi, lo) else .ok (lo, hi)

/-- `[self.flux_arr[i] for i in range(n)]` -/
def takeIdx (l : List K) (n : Nat) : Except PyErr (List K) :=
  if l.length < n then .error .indexError else .ok (l.take n)

/-- A line with its rest wavelength (fit1D.py 213: `self.restwave_arr[0][0]`) -/
def F1.firstWave (o : F1 K) : Except PyErr K :=
  match o.restwave with
  | none => .error .typeError
  | some [] => .error .indexError
  | some ([] :: _) => .error .indexError
  | some ((w :: _) :: _) => .ok w

/-- The bounds of the redshift (fit1D.py 213-214, 445-446); a zero wavelength is a
ZeroDivisionError (Python number; a numpy number would give infinity). -/
def F1.zBounds (o : F1 K) (zg : K) : Except PyErr (K × K) :=
  match o.firstWave with
  | .error e => .error e
  | .ok w =>
    if w = 0 then .error .zeroDivisionError
    else lmBounds (zg - o.delLam / w) (zg + o.delLam / w)

/-- The starting values and the bounds of the redshift that `make_params` collects -/
structure Start1D (K : Type) where
  z : K
  b : K × K
  velDisp : K
  flux : List K
  cont : List K

/-- The part of `make_params` (fit1D.py 208-229) that can fail, in a galaxy at `zg`.  `setAttr` has
set the redshift of the object when the galaxy had one; an object made before the galaxy got its
redshift (which the constructor refuses) would start at `zg`. -/
def F1.start (o : F1 K) (zg : K) : Except PyErr (Start1D K) :=
  match o.zBounds zg with
  | .error e => .error e
  | .ok b =>
    match o.names, o.flux, o.cont with
    | none, _, _ => .error .typeError
    | _, none, _ => .error .typeError
    | _, _, none => .error .typeError
    | some ns, some fl, some ct =>
      match takeIdx fl ns.length with
      | .error e => .error e
      | .ok fs =>
        match takeIdx ct (o.contOrder + 1) with
        | .error e => .error e
        | .ok cs => .ok ⟨o.z.getD zg, b, o.velDisp, fs, cs⟩

/-- `make_params` (fit1D.py 208-229): the optional lower bounds 0 -/
def Start1D.params (p : Start1D K) (velB fluxB : Bool) : Params1D K :=
  { z := { value := p.z, lo := some p.b.1, hi := some p.b.2 }
    velDisp := { value := p.velDisp, lo := if velB then some 0 else none }
    flux := p.flux.map fun f => { value := f, lo := if fluxB then some 0 else none }
    cont := p.cont.map fun c => { value := c } }

/-- The lines of a group with ratios, as `EmissionLines1DModel(name=…)` reads them
(emission_lines_model.py 225-243) -/
def groupLines (name : String) : Except PyErr (List (ℚ × ℚ)) :=
  match readLineNames (some name) with
  | .error e => .error e
  | .ok ns =>
    match readAll readRestwave ns, readAll readLineRatio ns with
    | .ok ws, .ok rs => .ok (ws.zip rs)
    | .error e, _ => .error e
    | _, .error e => .error e

/-- The line sets of `EmissionLinesSpectrum1DModel(names_arr=…)` (emission_lines_model.py 119-120):
made from the names alone -/
def modelLines : List String → Except PyErr (List (List (ℚ × ℚ)))
  | [] => .ok []
  | n :: ns =>
      match groupLines n with
      | .error e => .error e
      | .ok l =>
        match modelLines ns with
        | .error e => .error e
        | .ok ls => .ok (l :: ls)

/-- What `lmfit.minimize` gets: lines of the model, parameters and the data. -/
structure Problem1D (K : Type) where
  lines : List (List (ℚ × ℚ))
  params : Params1D K
  data : Spec1D K (Fl K)

/-- Number of pixels with mask 1 (emission_lines_model.py 136) -/
def goodCount (s : Spec1D K (Fl K)) : Nat :=
  match s.mask with
  | none => 0
  | some m => (m.filter fun x => Fl.eqB x 1).length

/-- Exceptions of a minimisation: an unknown line group (ValueError), no good pixel (`gaus.max()`
of an empty array, ValueError; without line sets the residual is empty and falls under the next
case), fewer pixels than parameters (TypeError of the leastsq routine). -/
def minimizeGuard (ns : List String) (nPar : Nat) (s : Spec1D K (Fl K)) :
    Except PyErr (List (List (ℚ × ℚ))) :=
  match modelLines ns with
  | .error e => .error e
  | .ok ls =>
    if goodCount s = 0 ∧ ns ≠ [] then .error .valueError
    else if goodCount s < nPar then .error .typeError
    else .ok ls

/-! ## The fit -/

/-- A stored matrix of Monte Carlo values (`np.zeros((num_MC, n))`) -/
structure Mat1 (K : Type) where
  rows : List (List K)
  ncols : Nat

/-- Its columns -/
def Mat1.cols (m : Mat1 K) : List (List K) :=
  (List.range m.ncols).map fun j => m.rows.filterMap fun r => r[j]?

/-- The saved files -/
abbrev Files1 (K : Type) := String → Option (Mat1 K)

/-- What is outside the program: minimiser and random numbers (realisation, pixel). -/
structure Lm1 (K : Type) where
  minimize : Problem1D K → Fit1DResult K
  randn : Nat → Nat → K

/-- `spec_perturb` (fit1D.py 438-441) -/
def perturb (rand : Nat → K) (s : Spec1D K (Fl K)) : Spec1D K (Fl K) :=
  { s with flux := match s.flux, s.err with
      | some f, some e => some ((List.zipWith (· + ·) f
          ((e.zipIdx).map fun p => p.1 * Fl.fin (rand p.2))))
      | f, _ => f }

/-- Parameters of a Monte Carlo fit (fit1D.py 443-461): started at the best fit, only the redshift
bounded -/
def mcParams (b : K × K) (r : Fit1DResult K) : Params1D K :=
  { z := { value := r.z, lo := some b.1, hi := some b.2 }
    velDisp := { value := r.velDisp }
    flux := r.flux.map fun f => { value := f }
    cont := r.cont.map fun c => { value := c } }

/-- A row of the matrix (fit1D.py 475-483) -/
def Fit1DResult.row (r : Fit1DResult K) : List K := [r.z, r.velDisp] ++ r.flux ++ r.cont

/-- The matrix of Monte Carlo values (fit1D.py 428-487) -/
def mcMatrix (O : Lm1 K) (lines : List (List (ℚ × ℚ))) (b : K × K) (t : Spec1D K (Fl K))
    (nPar numMC : Nat) (r : Fit1DResult K) : Mat1 K :=
  { rows := (List.range numMC).map fun i =>
      (O.minimize ⟨lines, mcParams b r, perturb (O.randn i) t⟩).row
    ncols := nPar }

/-- Arguments of `fit` (fit1D.py 231-234) -/
structure Fit1DCall where
  reloadErrors : Bool := false
  noErrors : Bool := false
  noPlot : Bool := false
  plotFile : Option String := none
  errFile : Option String := none

/-- The options as far as `fit1D` needs them -/
def Fit1DCall.args (c : Fit1DCall) (hasID : Bool) : Fit1DArgs :=
  { reloadErrors := c.reloadErrors, noErrors := c.noErrors, noPlot := c.noPlot,
    plotFile := c.plotFile.isSome, errFile := c.errFile.isSome, hasID := hasID }

/-- The best fit of the two minimisations (fit1D.py 304-324) -/
def bestFit (minimize : Bool → Bool → Fit1DResult K) : Fit1DResult K :=
  let r0 := minimize false false
  match r0.flux[0]? with
  | none => r0
  | some f0 => refit minimize f0

/-- Results and errors written back (fit1D.py 352-367, 502-507, 513-516) -/
def F1.store (o : F1 K) (s : Fit1DState K) : F1 K :=
  let o := match s.result with
    | none => o
    | some r => { o with z := some r.z, velDisp := r.velDisp, flux := some r.flux,
                         cont := some r.cont }
  match s.errors with
  | none => o
  | some es =>
    let n := (o.names.getD []).length
    { o with zErr := es[0]?, velErr := es[1]?, fluxErr := some ((es.drop 2).take n),
             contErr := some ((es.drop (2 + n)).take (o.contOrder + 1)) }

/-- The Monte Carlo matrix of one call: loaded (`load_mc_sim_matrix`, fit1D.py 651-660; OSError for
a missing file) or computed. -/
def F1.matrix (o : F1 K) (O : Lm1 K) (files : Files1 K) (c : Fit1DCall)
    (lines : List (List (ℚ × ℚ))) (b : K × K) (t : Spec1D K (Fl K)) (nPar : Nat)
    (r : Fit1DResult K) : Except PyErr (Mat1 K) :=
  if c.reloadErrors then
    match c.errFile with
    | none => .error .valueError
    | some f =>
      match files f with
      | none => .error .osError
      | some m => .ok m
  else .ok (mcMatrix O lines b t nPar o.numMC r)

/-- Whether a call gets to writing the matrix (fit1D.py 372, 390, 424-426, 486-487, 639-649) -/
def Fit1DCall.saves (c : Fit1DCall) (hasID : Bool) : Bool :=
  hasID && (c.noPlot || c.plotFile.isSome) && !c.noErrors && !c.reloadErrors

/-- The part of `fit` after the parameters have been made (fit1D.py 296-585) -/
def F1.fitRun [FloorRing K] (O : Lm1 K) (res : K) (g : Gal1D K) (files : Files1 K) (c : Fit1DCall)
    (o : F1 K) (p : Start1D K) (t : Spec1D K (Fl K)) (lines : List (List (ℚ × ℚ))) (nPar : Nat) :
    (F1 K × Files1 K) × Option PyErr :=
  let mini := fun vb fb => O.minimize ⟨lines, p.params vb fb, t⟩
  let m := o.matrix O files c lines p.b t nPar (bestFit mini)
  let out := fit1D (some res) mini (m.map Mat1.cols) (c.args g.hasID) ⟨none, none⟩
  let files' := match c.saves g.hasID && (mini false false).flux[0]?.isSome, c.errFile, m with
    | true, some f, .ok m => fun k => if k = f then some m else files k
    | _, _, _ => files
  ((o.store out.1, files'), out.2)

/-- Missing continuum coefficients become zeros (fit1D.py 290-294). -/
def F1.initCont (o : F1 K) : F1 K :=
  match o.cont with
  | none => { o with cont := some (List.replicate (o.contOrder + 1) 0) }
  | some _ => o

/-- `fit` (fit1D.py 231-585); `res` is the instrument resolution. -/
def F1.fit [FloorRing K] (O : Lm1 K) (res : Option K) (g : Gal1D K) (c : Fit1DCall) (o : F1 K)
    (files : Files1 K) : (F1 K × Files1 K) × Option PyErr :=
  match res with
  | none => ((o, files), some .typeError)
  | some res =>
    if res < 0 then ((o, files), some .valueError)
    else
      match g.z, o.names with
      | none, _ => ((o.initCont, files), some .typeError)
      | _, none => ((o.initCont, files), some .typeError)
      | some zg, some ns =>
        match o.initCont.start zg.val with
        | .error e => ((o.initCont, files), some e)
        | .ok p =>
          match g.trim with
          | none => ((o.initCont, files), some .attributeError)
          | some t =>
            match minimizeGuard ns (2 + ns.length + (o.contOrder + 1)) t with
            | .error e => ((o.initCont, files), some e)
            | .ok lines =>
              F1.fitRun O res g files c o.initCont p t lines (2 + ns.length + (o.contOrder + 1))

/-- `self.final_model` (fit1D.py 349-350): the profile at all wavelengths of the trimmed spectrum -/
noncomputable def finalModel (r : Fit1DResult ℝ) (sets : List (List (ℝ × ℝ))) (pix : List Pix) :
    Except PyErr (List (Fl ℝ)) :=
  spectrumProfile (pix.map Pix.wave) r.z r.velDisp (r.flux.zip sets) r.cont

/-! ## One line set -/

/-- Line attributes of an `EmissionLines1DModel` after `setAttr` (emission_lines_model.py 225-243):
`names`, `waves` and `ratios` as given. -/
def lineModel1D (group : Option String) (s : LineSet) : Except PyErr LineSet :=
  match (match s.names with
    | some ns => Except.ok ns
    | none => readLineNames group) with
  | .error e => .error e
  | .ok ns =>
    match s.waves, s.ratios with
    | some ws, some rs => .ok ⟨some ns, some ws, some rs⟩
    | _, _ =>
      match readAll readRestwave ns, readAll readLineRatio ns with
      | .ok ws, .ok rs => .ok ⟨some ns, some ws, some rs⟩
      | .error e, _ => .error e
      | _, .error e => .error e

end Misfit
