# Formal model of misfit in Lean 4

The code under study is sedonaprice/misfit (`/repo`, Python).  Nothing of it is
run; the model is a hand translation.  Every Lean definition cites the file and
lines it translates and says what it leaves out.

## Layout

* `lean/Verif/Model/*.lean`  translation of the Python functions (no theorems
  apart from the arithmetic of `Fl` in `Model/Num.lean`).
* `lean/Verif/Lemmas/*.lean` helper lemmas.
* `lean/Verif/Props/*.lean`  property theorems `Cnn_…`, each with a small
  independent specification and an `example` showing its hypotheses can be met.
* `MANIFEST.json` maps property ids to theorem names and status.
* `seeded/LOG.jsonl` log of mutation tests.

Theorem names: `Cnn_…_partial` proves part of the property and says in its doc
comment what is missing; `Cnn_false…` proves that the property, as stated, does
not hold of the code, with a concrete witness or for all inputs.  A property with
a `_false` theorem has status `partial`: the statement is kept as a user would
expect it, and the disagreement is listed at the end of this file.

## Modelling decisions

* Numbers.  Python floats are modelled by exact numbers of an ordered field
  (often generic, `ℝ` where transcendental functions occur).  Rounding, overflow
  and signed zero are not modelled.  Where NaN and infinities matter (masks,
  prior, posterior, chi-square of bad pixels, weights, amplitudes) a type `Fl K`
  with the constructors `fin x`, `nan`, `pinf`, `ninf` and the IEEE rules is used.
* Arrays are lists or functions on `Fin n`.  Index errors and shape errors are
  explicit values of the result type (`Except PyErr _` or `Option`), except where
  a definition says that equal shapes are assumed.
* Exceptions are values (`PyErr`).  Division by zero is either guarded by a
  hypothesis or lands in `Fl` (`x/0 = ±inf`, `0/0 = nan`), never in `x/0 = 0`.
* Objects with mutable attributes are records; methods return the new record and
  the result, also when they raise (the attributes assigned before the exception
  keep their new values).
* `fftconvolve(mode='same')` is the exact discrete convolution.
* `lmfit.minimize`, `emcee` moves, `fmin`, `gaussian_kde`, `integrate.quad` are
  oracles: theorems quantify over their results.  They are assumed to return, except
  that fits to fewer data than parameters, which scipy refuses with a TypeError, are
  refused in the model for the 1D fit, for the continuum fit without data (C225), for
  the fit of the position along the slit and for the 'optimal' weights.
* Drawing, printing on the screen, file paths, the format of files and
  multiprocessing are not modelled.
* The code for emcee 2 is read with the signature
  `get_autocorr_time(low, high, step, c, fast)` of emcee 2.2.1, that for emcee 3
  with `get_autocorr_time(discard, thin, **kwargs)`.

## Trusted base

* Lean's kernel (version 4.33.0).  All modules are replayed by `vcheck`.
* The axioms `propext`, `Classical.choice`, `Quot.sound`; no theorem depends on
  anything else, no axiom is declared, no `sorry`, `native_decide`, `bv_decide`,
  `implemented_by` or `unsafe` occurs.  `decide +kernel` is evaluated by the kernel.
* Mathlib's definitions (reals, integrals, finite sums, convex sets).
* The faithfulness of the hand translation; this is what the citations are for.

## What is modelled, per file

| File | Modelled | Not modelled |
|---|---|---|
| `model/kin_model.py` | parameters, `make_model`, `update_model`, `scale_model`, chi-square, reduced chi-square, likelihood, `make_3D_int_model`, `update_3D_int_model` (`Params`, `Chisq`, `KinModel`, `Objects`, `Cube3D`) | `debug` attributes |
| `model/kin_classes.py` | profiles, parameter routing, prior, settings (`Profiles`, `Params`, `Objects`) | LaTeX labels |
| `model/kin_functions.py` | geometry, cube collapse, effective resolution, slit illumination, convolution, rebinning, instrumental broadening, dispersions, Sersic profile (`Geometry`, `Collapse`, `Convolve`, `Aper1D`, `WaveShift`, `Profiles`) | the unused `sigma_aper_dispersion_misalign_ORIG`; `lmfit_gaussian` is an oracle |
| `model/aper_model.py` | all 1D aperture models and `AperModel2D` with its options (`Grid`, `Aper`, `Aper1D`, `RotAper`, `DispAper`, `WaveShift`) | debug output |
| `model/emission_lines_model.py` | line profile, 1D model, residual, attribute setting (`Fit1D`, `Objects`, `LineObj`) | |
| `galaxy.py` | construction, keyword handling, preparation sequence with all its effects, rest wavelengths, line lists, attaching spectra (`Objects`, `GalaxyObj`, `Lines`, `Trim`, `Prepare`) | contents of postage stamps |
| `general/galaxy_utils.py` | trimming, continuum subtraction, all masks, fit weights, slit angle, object position (`Trim`, `Continuum`, `Masks`, `Weights`, `Geometry`, `VertPos`), spatial extent (`YProfile`) | — |
| `general/general_utils.py` | runs, projections, inclination, start ranges, best fit values, linear model, Gaussian profiles (`Masks`, `Geometry`, `Params`, `Posterior`, `Continuum`, `YProfile`) | text output |
| `general/io.py` | table lookups (`Lines`) | file access |
| `instrument.py` | PSF stamps, construction (`PSF`, `Objects`, `GalaxyObj`) | |
| `fit/fit_core.py` | walkers, likelihood, posterior, convergence loop, whole run, chain flattening, derived columns, credible intervals, log and files of a run, the reduced copy that is sampled, evaluation in several processes (`Params`, `MCMC`, `Sampler`, `RunLog`, `Posterior`, `KinModel`, `Prune`, `Workers`, `WholeFit`) | emcee itself (interface only), HDF5 file failures, dates and run times in the log |
| `fit/fit1D.py` | fit driver, error estimation, corrected dispersion (`Fit1D`); the object with constructor, `setAttr`, trimming, bounds, `fit`, Monte Carlo files (`Fit1DObj`) | plots; lmfit and random draws are arguments |
| `fit/fit2D.py` | line lists (`Lines`), keyword handling (`Objects`), the fit object with set-up, fit, analysis, best fit, saving and reloading (`Fit2D`) | plots, resaving |
| `fit/fit_io.py` | chain flattening, counters and diagnostics saved with it (`MCMC`, `RunLog`) | the copies of the fit objects, pickling itself |
| `mock/generate_basic.py` | size and centring of mocks (`Continuum`), slit observations and data cubes (`Mock`) | `debug=True` of the cube |
| `plot/*` | `box_integrate`, angle and rotation helpers (`Plot`); numbers in the corner plot and over the spectra (`PlotFit`); field, slit, ellipse, convolution and downsampling of the image (`SlitPlot`); paths of the walkers (`PlotTrace`) | drawing, colours |

## Per property

Module names refer to `Verif/Model/X.lean` and `Verif/Props/X.lean`.

| Id | Modelled by | How proved |
|---|---|---|
| C01, C02 | `Params`: list recursion mirroring the loop of `update_parameters` | Induction on the parameter vector; C02 by induction on the history of accepted and rejected calls. |
| C03, C04 | `Params`: `_between`, `log_prior`, `lnlike`, `lnprob` over `Fl` | Case analysis on IEEE comparison, induction on the bounds list. The posterior counts calls of the model to show it is untouched outside the prior. |
| C05 | `Params`: `range_arrs`, `init_walker_pos` | Interval arithmetic for every oracle value of `np.random.rand` in [0,1); infinite and reversed bounds are covered by separate theorems. |
| C06, C07 | `Chisq`: the sums pixel by pixel | Finite sums over `Fin r × Fin c`; C07 exhibits the model-independent constant. |
| C08 | `Masks`: preparation chain followed by `Chisq` | Finiteness is pushed through every step; a witness shows zero errors survive. |
| C09, C10, C11 | `Chisq`: `scale_model` | Completing the square in the amplitude of each row. |
| C12–C18 | `Masks` | Pixelwise for C12–C14, induction on index lists for C15 (maximal runs), set characterisation of the rows for C16 and C17, index arithmetic for C18. |
| C19, C20, C54 | `Trim` | Selection of the same index set from every array. |
| C21 | `Weights` | Sums over rows, positivity of the Gaussian. |
| C22–C25 | `Geometry` | Real trigonometry. |
| C26–C29, C55 | `Profiles` | Monotonicity from derivatives or order lemmas of Mathlib; C27 uses a bound on the polynomial for b_n. |
| C30, C31, C56, C82 | `Collapse` | Sums over the depth axis; C31 and C82 use Gaussian integrals (total, first and second moment). |
| C32–C34, C57 | `Convolve`, `Props/Kernel` | Exchange of finite sums; the kernel theorem follows a point source through `fftconvolve(mode='same')`. |
| C35, C36 | `Grid` | Arithmetic of `linspace` and rounding. |
| C37, C38, C58 | `Aper` | The whole `AperModel2D` as a state machine; relations between states are kept by every step. |
| C39, C40, C59 | `MCMC` | The loop runs on oracle results of the sampler; induction on the remaining budget. |
| C41–C43, C60, C61 | `Posterior` | Sorted columns, quantiles by rank; induction on linked sets. |
| C44, C45, C63–C67 | `Fit1D`, `Objects` | Case analysis of the driver with fit results as oracles. |
| C46, C47, C62 | `Lines` | Induction on the table; the shipped tables are evaluated by the kernel. |
| C48, C68–C70 | `Objects` | Attribute dictionaries; default arguments are modelled as shared cells of a store. |
| C49 | `PSF` | Real analysis of Gaussian and Moffat stamps. |
| C50, C51, C71–C75 | `Aper1D` | Sums over grids, weighted means, store with a shared PSF object. |
| C52, C76, C77 | `Continuum` | Pixelwise; the fit is an oracle, C76 characterises its optimum. |
| C53 | `Continuum`: mock generator | Ceiling arithmetic. |
| C78–C81 | `Aper` through the whole pipeline | Positivity and proportionality are kept by every stage; C80 unfolds all stages into one sum. |
| C83 | `Chisq` | Pixel count as cardinality of a set of positions. |
| C84–C88 | `KinModel`: object with parameters, profiles, aperture model and image | Relations between two runs, preserved by every call, induction on the list of calls. Sampling runs for C84: Props/MoreRuns. |
| C89 | `Plot`: `box_integrate` | First and last index of a filtered range; sum over old pixels split at the two edge pixels. |
| C90–C94 | `Plot`: angles and rotations | Real trigonometry; C91 compares with the tangent frame of the sphere. |
| C95–C98 | `VertPos`: `vert_position` and `get_m0_lam0_pos_2D` with fits as oracles | Case analysis of the refit branches, rounding bounds, Python index rules; C98 by induction on the calls. |
| C99–C104 | `YProfile`: `fit_emission_y_profile` with the fitting routine as oracle and the noise as argument | Case analysis of the driver; percentiles commute with scaling; C101 compares the two fit problems as functions. |
| C105 | `YProfile`: Gaussian profiles | Gaussian integral of Mathlib. |
| C106–C108 | `Cube3D`: the cubes kept by the aperture model, `make_3D_int_model`, `update_3D_int_model` | Row-major reshape gives exact divisibility condition and block sums; closed form from the cube of C80; induction on the updates. |
| C109–C113 | `Sampler`: `run_mcmc` from the random draws to the saved dictionary, emcee as a sequence of Metropolis moves with arbitrary proposals and thresholds | Invariant of single moves, steps, burn-in and the production loop; refinement of the loop of C39; outcome by showing that no stage can raise. |
| C114–C116 | `Chisq`, `KinModel`, `Sampler` | Algebra of IEEE values under positive factors; relation between two objects preserved by every call; relation between two chains preserved by every move. |
| C117–C123 | `Fit2D`: the object `FitEmissionLines2D` and its files, `get_chain_results`; sampler and peak search are arguments | Invariant of all calls; two objects with equal inputs stay equal; the second analysis computed from the first; C120 reduces to C85; induction over a session with a heap of results objects. |
| C124 | `Aper`: `floorValueOf`, `applySigmaFloor`, `checkUpsample` | Two builds, with and without floor, compared stage by stage. |
| C125 | `Fit2D.chainResults`; scipy's peak searches are arguments assumed to stop at local maxima of a kernel density estimate | Derivative along every line vanishes, so the peak is a weighted mean of the samples (any dimension); induction over the linked sets. |
| C126–C130 | `Prepare`: `fit_prep_calcs` as a list of steps on the pair (spectrum, galaxy), each of which may raise and leave its partial effects; lmfit and `np.median` are arguments | Shape of the state after every successful step, composed; for success, every step shown to return; C129 and C130 by running the steps again on the state left. |
| C131–C137, C140 | `Fit1DObj`: the object `FitEmissionLines1D` with its galaxy and Monte Carlo files; lmfit and the random draws are arguments | Invariant of all `fit` calls (C131); stage-by-stage inversion of `fit` (C132, C133, C137); congruence of runs in the fields that are ignored (C134, C137); two constructors composed (C135). |
| C138, C139 | `Fit1DObj.finalModel`, `lineModel1D` over `Fit1D.spectrumProfile` | The profile depends on the pixel array only through the distance of the nearest pixel (C45). |
| C141–C144 | `Fit1DObj`: realisations, reloaded matrices, pixel count | Inversion of `fit`; pixelwise specification of the noisy spectrum; concrete objects for the negations. |
| C145 | `Cube3D.ifuCfg` | Equality of runs. |
| C146, C147 | `Aper` (whole evaluation) | Every stage from the light cube to the final image commutes with reversing the wavelengths and, for odd kernels, with inverting the image; the sampled wavelengths stay centred on the line; the invariance of light and velocities under inversion comes from the grid formulas of C35 and C36. |
| C148, C149 | `Aper` (whole evaluation), `PSF` | Every stage keeps the values finite and positive, so a complete set-up yields an image; the trimmed coordinates of an arithmetic progression are empty exactly when their number is even and the width is below half the spacing. |
| C150–C157 | `Mock` on top of `Aper`, `Cube3D`, `Lines` | Corollaries of C149, C146, C147 and C106 for the objects the mock functions build; induction over the history of calls for the shared default profile. |
| C158 | `KinModel` on top of `Mock`, `Chisq`, `Params` | The configuration read from a set-up that satisfies `SetUpFor` is the one the mock builds; the positive image of C150 scaled to itself is itself; C06 and C07 for the maximum. |
| C159 | `Aper1D.sigmaE` with the interval integral | Continuity of the integrands, positivity and monotonicity of the integral. |
| C160–C163 | `GalaxyObj` on top of `Objects`, `PSF` | A constructor is the list of its statements; induction over the list shows that one ending in `setAttr` overrides exactly the defaults. Attaching is a function on a memory of spectra; the false claims are general theorems about every galaxy and spectrum. |
| C164 | `Chisq.redchisqWeightRef` | The difference of the two values is the sum of the weights of masked pixels. |
| C165 | `Prepare`, `Lemmas/PrepUnits` | Relational proof: each of the 21 steps maps a pair of states related by the unit to the same exception or a related pair. Bad pixels hold fill values that are not in the unit, so the relation only speaks of good pixels and uses that masks vanish elsewhere. |
| C166 | `Chisq.scaleModel`, `Chisq.modelChisq` | The amplitude of a row is an affine function of each masked pixel with light; the chi-square of the row is a quadratic in the amplitude with positive leading coefficient if a pixel that counts has light. |
| C167 | `Prepare`, `Chisq` | C165 for the good pixels, C166 for the amplitudes. The counterexample computes the chi-square of a prepared 15x5 spectrum as an explicit function of the unit. |
| C168 | `Grid`, `PSF`, `Aper`, `KinModel`, `Lemmas/AngleUnits` | Every stage commutes with the change of unit: the grid has the same shape and scaled positions, the kernels are equal after normalisation, the cube is multiplied by the cell area. The scaled model does not depend on a positive factor (`scaleModel_light`). Histories by induction over calls. Whole runs (`Props/AngleRun`): `C242_equivariant` with the change of unit of the varied turnover radius; stretch moves follow it (`C168_stretch`). |
| C169 | `Collapse`, `Aper`, `KinModel`, `Lemmas/WaveUnits` | As C168; the cube is divided by the unit where lines are broadened and equal where they are counted, instrument kernel and adaptive grid have the same shape. Sampling runs: Props/MoreRuns. |
| C170 | `Prepare`, `Props/PrepLine` | Every step after the derived wavelength keeps it (`Kept` relation, composed over the list of steps); the last step is split into the accepted and rejected fits. |
| C171 | `Prepare`, `Geometry`, `Props/PrepLine` | As C170 for the angle, with the range and congruence of the wrapped angle from the geometry lemmas. |
| C172 | `Aper`, `KinModel`, `Lemmas/Continuous` | Every stage maps continuous positive families to continuous positive families (the renormalisations divide by positive totals); independence of the history from C85. |
| C173 | `Prepare`, `Props/PrepFail` | Run of the list of steps split at the failing one; the row loop is the first row whose continuum is not finite (`find?`). |
| C174 | `Prepare`, `Masks`, `Props/Prep1DMask` | The mask is followed through the steps that change it, composed into one formula per pixel left. |
| C175 | `Prepare`, `VertPos`, `Props/PrepVert` | Values of error times mask before the position fit are computed: never -99, so both branches of the replacement agree. |
| C176 | `Posterior`, `Props/Coverage` | Counting below and above the interpolated percentile in the sorted chain; the two counts of an interval are subtracted. |

| C177 | `PlotFit`, `Fit2D`, `Props/PlotFit` | The texts are inverted to entries of the results, signs compared by cases; the samples enter through C176. |
| C178 | `PlotFit`, `Fit2D`, `Props/PlotFit` | A successful fit is inverted to its results; the loop over titles and the annotations are then computed; two failing families. |
| C179 | `PlotFit`, `Profiles`, `Props/PlotLines` | Induction over the loop that builds the rows, then linearity of the rotation curve in its first parameter; strict monotonicity of arctan for the wrong radius. |
| C180 | `PlotFit`, `Masks`, `Props/PlotLines` | Runs of the increasing list of masked rows are maximal intervals (`run_range`, `runs_succ`, `runs_pred`); the list is shown to be increasing. |
| C181 | `PlotFit`, `Props/PlotLines` | Closed form of the sum of squares, inequalities by squaring. |
| C182 | `SlitPlot`, `Props/SlitPlot` | The panel is inverted to its limits; rotations and the change of pixels keep distances on the sky. |
| C183 | `SlitPlot`, `Props/SlitPlot` | Corner points by ring identities of sine and cosine; strict monotonicity of the tangent for the length. |
| C184 | `SlitPlot`, `Props/SlitPlot` | Case analysis over all options and missing attributes; Python slices with a negative lower bound are empty. |
| C185 | `SlitPlot`, `Plot`, `Props/SlitPlot` | C89 applied in both directions. |
| C186 | `SlitPlot`, `Convolve`, `PSF`, `Props/SlitPlot` | The convolution as a sum over source pixels; positivity of the kernels; a point source for the shift. |
| C187 | `SlitPlot`, `Geometry`, `Props/SlitPlot` | arctan of tan is the identity modulo 180 degrees; the panels with and without `convolve` are compared. |
| C188 | `PlotTrace`, `MCMC`, `Sampler`, `Props/PlotTrace` | Induction on the list of parameters for the labels; the runs of C109 for the length of the samples; pigeonhole for the draws. |
| C189 | `Fit1DObj`, `Props/Fit1DStale` | Case analysis of the fit after the last check that both calls share; the object is an arbitrary one, so that the old errors are arbitrary. |
| C190 | Model/RunLog, Props/RunLog | run with all its outputs in order (log lines, plots, sample file) as a writer with exceptions; stages of a returned run; longest time by induction on the list of times |
| C191 | Model/RunLog, Lemmas/RunLog, Props/RunLog | induction on the production loop: steps, last index and lines; refinement of `runMcmc` both ways |
| C192 | Model/RunLog, Props/RunLog | case distinction on the last part of the run; nothing before it writes a file with samples |
| C193 | Model/Prune, Lemmas/Prune, Props/Prune | the copy keeps every attribute that is read; history independence of the posterior (C85) on both sides, induction on the evaluations |
| C194 | Model/Prune, Lemmas/Prune, Props/Prune | case distinction on the attribute lists; the reads of `make_model` are not among the kept attributes |
| C195 | Model/Prune, Props/Prune | case distinction; the options after a run are those of the next one |
| C196 | Model/RunLog, Lemmas/RunFail, Props/RunFail | induction on moves, steps and loop: every exception traced to its cause; contrapositive for runs that return |
| C197 | Model/Fit1DObj, Props/Fit1DFail | case distinction over the whole of `fit` in both directions, induction on the line sets |
| C198 | Model/Workers, Lemmas/Workers, Props/Workers | simulation: invariant on the objects of all processes, kept by every evaluation that returns; induction on moves, steps and loop; C193 for a single evaluation |
| C199 | Model/WholeFit, Lemmas/WholeFit, Props/WholeFit | composition: C198 replaces the run on copies by the pure run, C109 keeps all samples inside the bounds, the columns and the treatment of the dispersion keep the values, C42 for the intervals |
| C200 | Model/Saved, Lemmas/Saved, Props/Saved | invariant over all sequences of evaluations; the object of a process in which nothing is evaluated is unchanged by a run (induction over the run) |
| C201 | Model/Saved, Props/Saved | exact outcome at every vector, comparison with the evaluation of the fit; negation with a concrete fit |
| C202 | Model/WaveShift, Lemmas/WaveShift, Props/WaveShift, Props/ShiftBlur | case analysis of an evaluation through its stages; invariant over histories for the stored shifts; closed form of the cube (ImageForm) with a velocity offset per row |
| C203 | Model/Aper, Props/BlurForm | closed form of each stage (grid, cube, PSF, trimming and rebinning, spectrograph, sampling) and composition; C37_exact for histories |
| C204 | Model/Aper, Model/Collapse, Props/VelForm | stages of an evaluation composed as for C203, with the cube of the velocity mode |
| C205 | Props/NoAxis | the cube stays zero for an unknown type; zero divided by zero in the renormalisations of PSF and spectrograph; no floor or sampling width |
| C206 | Props/RotAper | both numbers scale with the dummy velocity (corollary of the closed form C208); the seeing and the weights are linear in the intensity |
| C207 | Props/RotAper | algebra from the closed form C208: the squared dispersion is a constant added to every cell, so it passes the seeing and the weighted mean unchanged |
| C208 | Props/RotAper | the whole constructor (Model/RotAper) is unfolded to index sums: `setup_eq`, `rot_psf`, `rotSigma_value`; the specification (`rotMean`) is written with grid formulas of its own |
| C209 | Props/RotScale | equality of the closed forms of C208 for the scaled and the original model |
| C210 | Props/DispAper | grid, window, stamp, trimming and weights reduced to the specification, normalisations cancel in the quotient |
| C211 | Props/DispAper | same window since the cosine is at most one, same radius since sin²+cos²=1, recomputed columns equal the old ones |
| C212 | Props/DispAper | the closed form of C210 of the scaled model equals that of the original |
| C213 | Props/DispAper | periodicity of sine and cosine; reflection of the columns in image, kernel and aperture |
| C214 | Props/Fit1DShape | branch by branch; negation for all objects and keywords, with a witness |
| C215 | Props/ImageTurn | closed forms of both set-ups (C203, C204), reflection of the sum along the line of sight |
| C216 | Props/ImageTurn | closed forms of both set-ups, mirror image of grid, kernel and convolution; two-column counterexample computed exactly |
| C217 | Props/ImageSum | closed form C203 of both set-ups |
| C218 | Props/ImageSum | linearity of the closed forms; counterexample computed exactly |
| C219 | Props/ImageSum | closed form C204 of both set-ups, scaling of the normal density |
| C220 | Props/Plot1D | closed form of both sets of marks, exact condition for agreement with the model lines, witness for all other wavelengths |
| C221 | Props/Plot1D | black and grey points as filters of the pixels; exact condition; witness for every other mask value |
| C222 | Props/Plot1D | closed form of the model from C45, maximum and minimum of finite arrays |
| C223 | Props/Plot1D | exact list of conditions; NaN model for every line without positive width |
| C224 | Props/Plot1D | case analysis of the whole call; witness |
| C225 | Props/NoWindow | Both windows are empty exactly if no column is beside the lines; the steps run up to the fit, and inversion of a successful run. |
| C226 | Props/FitSession | simulation: the run of a session restricted to one fit follows the run of that fit alone, up to the light of the shared intensity profile, by induction over the operations |
| C227 | Props/SlitNoise | the sorted lower half characterised by counting (IsKth); scaling by permutation and order; shade by monotone logarithm |
| C228 | Props/BestExists | continuity of the posterior (C172_posterior) on the compact box of allowed parameters; extreme value theorem |
| C229 | Props/Degenerate | closed forms of the image (C203, C204); limits of arctan for the converse; C85 for the history Posterior: Props/SamePost. |
| C230 | Props/SampleFactor | The set-up does not depend on the factor but for the floor; number of samples round(N f); the image of the samples exists by `luminous_eval`; rebinning succeeds exactly for divisors. |
| C231 | Props/FitTurn | Equal images (C215–C217) and equal data give equal scaled models and likelihoods; independence of the history by C85. Posterior: Props/SamePost. Sampling runs: Props/SameRun (equal posteriors at every fitting vector, of any length). Turned galaxy: Props/MoreRuns, through `C242_equivariant`. |
| C232 | Props/ErrScale | numerator and denominator of the scale factor are both divided by the square of the factor; pixel by pixel identity for the log-likelihood with `fin_mul_affine`; induction over the calls with `step_err` |
| C233 | Props/NoColumns | invariant over the calls: the galaxy of the aperture model has no columns and scaling is on; case analysis of one evaluation |
| C234 | Props/LineObj | invariant over the calls (values match, or the tables have still to be read) with `set_fresh`, `set_error`; `matches_iff` relates the rows of the table to what is read |
| C235 | Props/Residual1D | the profile is homogeneous of degree one in fluxes and coefficients also for NaN and infinite values (induction over lines, sets and coefficients); the bounds are invariant under positive factors |
| C236 | `Props/Rows` | Sums over rows; a relation between two runs that agree in one row, preserved by every call, induction on the list of calls. |
| C237 | `Model/PlotPanels`: colour limits and arrays of the three panels | Extremes of finite lists; the image of a successful fit exists. |
| C238 | Props/LineSign | Sign of the least-squares amplitude of a positive row; positive unscaled images by C149; the negative of an image as counterexample. |
| C239 | Props/Reweigh | Positive factors pass through the extended arithmetic pixel by pixel; simulation between the two series of calls; C232 for the scaled model. |
| C240 | Props/FluxSign | Negation passes through the extended arithmetic; simulation between the two series of calls; equal posteriors give equal runs. |
| C241 | Props/FlipData | Sums and scaling are invariant under the reversal; the images of C146/C147 carried through make_model; C85 for any history; post_same for the posterior. Sampling runs: Props/SameRun. |
| C242 | Props/MirrorRun | Simulation of the whole run under a map of the positions; C241 for the posterior; the loop of the prior with mirrored bounds; emcee's stretch move commutes with the mirror. |

## Disagreements between expected behaviour and code

Each line is proved by the `_false` theorem of that property.

* C08 (Prepared data give a finite chi-square). False as stated: an unmasked pixel with zero error survives (C08_false). Proved when no unmasked pixel has zero error. C08_exact: the chi-square is finite for all finite models exactly when no usable pixel has error zero.
* C101 (Masked rows do not influence the extent). Proved if the largest value of the profile does not change; otherwise false: a NaN in a masked row makes the starting amplitude NaN and all residuals zero (C101_false). C101_exact: exactly if the largest value of the profile stays or the extent is never measured.
* C102 (Measuring the extent never raises). Proved for at least two rows; a single usable row raises ValueError because lmfit refuses equal bounds (C102_false). C102_exact: the exact condition for a return, and the only exception.
* C103 (Fits of the extent start away from their bounds). The closed bounds are respected; the bounded width always starts on its upper bound for pixels up to 0.5 arcsec (C103_false). C103_exact: when the starting values are strictly inside their bounds.
* C105 (The amplitude of the Gaussian profile is its integral). Shape and NaN behaviour proved; the integral is A*sqrt(sigma), equal to A only for unit width (C105_false). C105_exact: exactly for amplitude zero or unit width.
* C106 (The data cube has one spaxel per pixel). Exact condition for success proved, with and without adaptive sampling (padded size divides the number of subpixels); closed form and consistency with the slit image without point spread function. With padding the cube is rebinned to the padded size although it is already trimmed: ValueError or wrong size (C106_false). C106_exact: the cube has the size of the field exactly if the PSF needs no padding.
* C107 (Updating the data cube is the same as making it). Proved for one subpixel without point spread function, for every history of updates; false otherwise: the update stores the subpixel cube before rebinning (C107_false). C107_exact: without point spread function exactly for one subpixel per pixel.
* C108 (A data cube can be made again). False for every object and every argument: the size of the image is only bound when the aperture model is built, NameError (C108_false).
* C11 (Scaling minimises the reported chi-square). False as stated (C11_false: the scaling ignores mask and weights). Proved when the unmasked pixels are the sky-free columns and weights are constant along rows; C11_exact gives the exact condition: the best factor of the sky-free columns is the best factor of the unmasked, weighted pixels in every row.
* C111 (A run returns one sample for each walker and each of its production steps). Proved for emcee 2 and for emcee 3 with overwrite; without overwrite the steps already in the file are returned too, even from a fit with other bounds (C111_false). C111_exact: the count holds exactly if nothing is appended to earlier steps (or there is no walker).
* C112 (A run that can sample returns its samples). Proved for emcee 3 and for more than one process. With emcee 2 on one process (NoThread, nCPUs=1, or default options on at most two CPUs) sampler.pool is None and its close() raises AttributeError after the last step, before anything is saved (C112_false, C112_false_default). What emcee itself does with one thread is part of the trusted interface. C112_exact: exactly with emcee 3 or more than one process.
* C118 (The prior follows the settings). False after a second set-up with other varying parameters: only the bounds of the prior are renewed, its vary flags stay (C118_false). Proved for the first set-up and for unchanged vary flags, with the exact value otherwise. Exact condition for complete settings: the prior is that of the new settings iff the parameters varying then and now pair up in order with the same admitted values (C118_exact_partial).
* C119 (Reloading saved samples reproduces the results). Proved for another object with the same inputs. False for the object that ran the fit: the derived columns are appended to its samples a second time, so there are four more best-fit values than names (C119_false).
* C121 (Any finished run can be analysed). False with the dispersion fixed or with V_a and r_t both fixed: a derived column is constant and gaussian_kde raises for every chain (C121_false; in exact arithmetic, rounding can leave a tiny variance). Proved when the three kinematic parameters are free and every column varies. C121_exact: with the three kinematic parameters free, analysis returns exactly when no column and no derived column is constant.
* C122 (A saved fit can be restored and used). Loading restores the values, but the loaded galaxy has no attribute pstamp, which saving deletes: saving and fitting raise AttributeError (C122_false).
* C123 (Results belong to one fit). False for fits created with the default results object, which is shared (C123_false, exact). Proved for own results objects.
* C127 (Columns dominated by sky lines are found and left out of the fit). The sky columns are found as stated (C127_sky_columns_partial) and zero in the sky mask, but the comment "Combine full mask: missing + sky + low S/N" is not what happens: the sky mask is never multiplied into the mask of the fit (C127_sky_not_excluded for all spectra, C127_false with a concrete sky line).
* C129 (A failed preparation can be repeated). The second call succeeds (C129_retry_partial, continuum subtracted before) but the failed one has already cut off a row, so the result has one row less (C129_false).
* C130 (Preparing a 2D spectrum leaves the 1D spectrum alone). Holds without continuum subtraction. With it the 1D spectrum is cut in place to the columns of the full range (C130_pixels_left); if an out-of-range column precedes one in range, a second copy of the 2D spectrum cannot be prepared any more (C130_false). C130_exact: the 1D spectrum keeps its pixels exactly if the continuum is not subtracted or all its pixels are in the full range.
* C133 (1D error bars are not negative). False (C133_false): the best fit may lie outside the percentile interval of the refits. For the redshift, the dispersion, every flux and every continuum coefficient, lower plus upper error is the non-negative width of that interval, and both are non-negative exactly if the best fit lies inside (C133_width_partial).
* C134 (The 1D fit uses the lines it was given). False (C134_false): names and wavelengths given by the user only matter through the first wavelength; the model is always built from the catalogue. With catalogued lines recorded and fitted wavelengths agree (C134_catalogue_partial).
* C135 (Two 1D fit objects on one galaxy are independent). False (C135_false, C135_overwritten): the trimmed spectrum belongs to the galaxy and is replaced by the second object. Holds for equal first group and trimming options (C135_same_partial). Exact condition: all fits of the first object stay the same iff the second object left the same trimmed spectrum (C135_exact_partial).
* C136 (Changing an option keeps the results of a 1D fit). False for the redshift (C136_false): every setAttr resets it to the galaxy's. The other results are kept (C136_rest_partial). C136_exact: all results are kept exactly if the fitted redshift is the galaxy's.
* C137 (Options changed on a 1D fit object take effect at the next fit). False for the wavelength range (C137_range_false, the spectrum is trimmed only by the constructor) and for a raised continuum order after a fit (C137_order_false, exception). Holds for the number of realisations (C137_count_partial) and for the order in every fit that stores a result (C137_order_partial).
* C138 (The stored 1D model is the fitted model). False when a masked pixel is nearest to a line (C138_false): gaussian_line normalises by the maximum over the pixels it is given, all of them for the stored model, only good ones in the fit. Holds when a good pixel is nearest to every line (C138_same_model_partial). C138_exact: with positive fluxes exactly then; otherwise the stored model is below the fitted one at every good pixel.
* C139 (Explicit line attributes of a 1D line model are kept). False when only one of wavelengths and ratios is given (C139_false): both are replaced by the catalogue's. Kept when both are given (C139_both_partial). C139_exact: the exact result for every set with names.
* C140 (Every documented line group can be set up for a 1D fit). False for the mixed list Halpha, NII (C140_false, ragged array, current numpy) and for NII, SII, OII (C140_no_range_false, not in the 1D trimming table). C140_exact_partial says exactly which lists can be set up; C140_single_partial gives the trimmed spectrum for Halpha, Hbeta and OIII alone.
* C142 (Monte Carlo fits obey the bounds of the best fit). False (C142_false): make_params bounds only the best fit, the Monte Carlo parameters are added without lower bounds (the bound is commented out in the source). The bounds agree when the first minimisation finds a non-negative dispersion and first flux (C142_bounds_partial).
* C143 (A Monte Carlo matrix of another fit is refused). Refused when the number of columns differs and is not one (C143_refused_partial). False for one column, which numpy broadcasts (C143_one_column_false), and for a fit of other lines with as many parameters (C143_false). Exact condition: a rectangular matrix with rows is accepted iff it has one column or as many as parameters (C143_exact_partial).
* C145 (The adaptive sampling factor is used for data cubes). False (C145_false): the factor is not passed to the aperture model of a cube, every factor gives the same cube.
* C147 (A centred disc gives a point-symmetric image). Holds without a PSF, and with one when the numbers of subpixels in both directions are odd (C147_point_symmetric_partial). False for even numbers (C147_false): an even kernel has no central element and moves the light by half a subpixel; the default of two subpixels per pixel always gives an even kernel.
* C148 (A PSF of zero width leaves the image unblurred). True for the Gaussian class (C148_gaussian_partial: the closed form of the unblurred image). False for Moffat (C148_false): computing the stamp divides by alpha = 0 and no model can be built. C148_exact: the model can be built exactly for the Gaussian class.
* C149 (Every physical set-up has a finite, positive model image). Exact condition proved (C149_exact): with complete inputs there is an image, finite and positive everywhere and of the data's shape, exactly when the width is zero or the PSF kernel has a pixel. A width of half a subpixel or more always works, at construction and after any evaluations (C149_wide_partial). Smaller widths with an even number of subpixels, e.g. the default two per row, raise IndexError (C149_false).
* C152 (The mock honours dither and PSF_beta). False: the galaxy and the spectrograph are created with fixed dither=False, yspace_dither_arc=None and without PSF_beta, so neither argument has any effect (C152_false_ignored) and no pixel of a mock with dither=True is negative (C152_false_dither).
* C156 (An axis ratio above one is rejected). False: the sine of the inclination is the square root of a negative number, NaN, and the call returns an image of NaNs (C156_false); data cubes too (C156_false_cube).
* C157 (A mock data cube has one spectrum per pixel). Exact condition proved (C157_outcome_partial). False with the default two subpixels (or one) as soon as the PSF needs padding: ValueError, or for a field exactly twice as large as the padding a cube with twice as many rows (C157_false). C157_exact: the cube has one spectrum per pixel exactly if the PSF needs no padding.
* C162 (Rest wavelengths follow the redshift of the galaxy). False of the code: the rest wavelengths are computed when the spectrum is attached and not again; a later redshift leaves them stale or missing, and a shared spectrum follows the last galaxy. Proved: attaching again refreshes them. C162_exact: the rest wavelengths belong to a later redshift exactly if it is the same one (or all wavelengths are zero).
* C163 (PSF settings given to an instrument are used). False of the code: an unknown PSF name silently gives a Gaussian that reports the unknown name, and setAttr(PSF_FWHM=...) on the instrument changes nothing. Proved: what is given to the constructor is used.
* C164 (The weighted reference of the reduced chi-square). False of the code when pixels are masked: the weights of masked pixels are counted. Proved: equality exactly when the weights of masked pixels add up to zero.
* C166 (Masked pixels do not influence the fit). False as stated: scale_model uses every pixel of the sky-free columns, masked or not. C166_false: one masked pixel can drive the chi-square above every bound. C166_exact: the exact condition on the model. C166_unmasked_only_partial: true if the model has no light in masked pixels of sky-free columns.
* C167 (The chi-square of a prepared spectrum does not depend on the flux unit). False as stated: bad pixels hold flux -99 and error -99 in every unit and enter the amplitudes. C167_false: a spectrum with one bad pixel, prepared in two units, end to end. C167_partial: true if the model has no light in masked pixels of sky-free columns.
* C17 (Rows outside a low S/N row are masked outwards). False as stated (C17_false): only the outermost low row of each half extends outwards, which is what is proved. C17_exact gives the exact set of masked rows.
* C178 (A fit that stores its results also returns). Holds with the usual names and no linked sets (C178_returns_partial). Findings: without a varying parameter called exactly sigma0 fit() raises IndexError after storing everything (C178_false_name); linked posteriors "all" raise TypeError (C178_false_all). C178_exact: without linked sets fit() returns exactly if a varying parameter is called sigma0 and the masks the plot needs exist.
* C179 (The curves for linked parameters in the corner plot). Holds for linked V_a, r_t at the radius of the light (C179_curve_partial). Findings: V(R_E) was computed at the radius of the mass, so the curve is wrong when the two radii differ (C179_false_mass); the pair in the order [1, 0] raises UnboundLocalError (C179_false_order); for linked r_t and sigma0 the curve is the one of V_a and r_t (C179_false_later). After another linked set the reverse pair does not raise but draws with the leftovers of that set (C179_false_order_later).
* C18 (Edge masking removes exactly num_edge pixels next to each interior edge). Exact behaviour proved; the claim is false for the right edge, which loses num+2 pixels or none.
* C180 (What is drawn over the spectra in the plot of the best model). Sky columns are not hatched: any masked sky column makes the plot raise TypeError (C180_false_sky); galaxy.py 869 always sets an empty list. Without a model the plot raises AttributeError although it lays out panels for that case (C180_false_none). np.float in line 59 is assumed to exist (old numpy).
* C183 (The outline of the slit on the image). Direction and shape proved (C183_slit_partial). Findings: the shear that mimics the tilt of the slit shortens the long sides (C183_false_length); on an image with its own pixels the offset is divided by the pixel scale of the spectrum (C183_false_offset).
* C184 (When the image with the slit can be plotted). C184_exact is the exact condition. Findings: without the ellipse UnboundLocalError (C184_false_galfit); the default slit length None raises TypeError, the except branch is never used (C184_false_length); a 1D spectrum alone does not suffice (C184_false_1D); a field that begins below or left of the stamp has no pixels and the image is blank (C184_false_blank).
* C185 (Downsampling a stamp). Every pixel of the new image is the sum of the old values weighted with the product, over both axes, of common length plus extra length (C185_exact); average for edges strictly inside different old pixels (C185_average_partial); with coinciding grids the image is multiplied by nine (C185_false_same).
* C186 (The image at the resolution of the spectrum). Width and flux proved. Findings: the image is moved by the distance of the object from the middle pixel (C186_false_shift); an image not sharper than the spectrum becomes NaN (C186_false_sharp).
* C187 (The ellipse of the galaxy on the image). Angle and half axes proved; odd multiples of 90 degrees are excluded (no real tangent). Finding: without rotation the ellipse is widened but the image is not convolved (C187_false_blur).
* C188 (What the trace plot shows). Panels, labels, errors and plottability of every finished run proved. Finding: with fewer than five walkers one of the walkers followed in colour is always shown twice (C188_false_five); the draws are with replacement.
* C189 (Values and errors of a 1D fit belong together). False (C189_false): a call with error estimation but without a file for the Monte Carlo values raises ValueError and leaves the errors of an earlier call next to the values of the new fit. A call that returns leaves all errors zero, one pair for each value (C189_returned_partial).
* C190 (The log tells when the burn-in was too short). C190_times_partial: emcee 3, exact condition of the warning, times in log and dictionary. C190_false: with emcee 2 (any run) the calls of get_autocorr_time end in swallowed exceptions (low given twice, unknown keyword, undefined self): never a warning, always 'undefined', NaN with the samples.
* C191 (The log agrees with the run). C191_same, C191_returns: the run with all its outputs refines the run of Model/Sampler, both directions. C191_log_partial: which lines are in the log, exactly. C191_false, C191_false_missing: the line on the enforced minimum appears iff the run stopped at step 50, whether or not the criterion was met before; missing: that line's intended meaning.
* C192 (What a run leaves behind). C192_returned (proved for every returned run), C192_failed_partial: what is left by every failed run. C192_false: emcee 2 on one process reports finished steps, but the samples are lost (AttributeError on sampler.pool.close).
* C194 (A fit that can be evaluated can be sampled). C194_exact_partial: the copy can be made iff generate_model is false and z, re_mass_arcsec, q_mass, lam0, spec_type, instrument_name, band exist; C194_failures: the exceptions otherwise. C194_false (fit marked as generating a model cannot be sampled), C194_false_settings (settings replaced after setup_model), C194_make (make_model of the copy always AttributeError). Missing: the claim holds only under these conditions.
* C195 (Number of processes). C195_first_partial: the number of a run with fresh options, exactly. C195_false: the number is stored in the options, so later changes of cpuFrac, NoThread=False or another computer have no effect. C195_exact: exactly when the changed options have an effect on the number. C195_runs: the numbers of all runs of a sequence of runs with changing options.
* C20 (Spatial trimming keeps the object's rows in lock-step). False as stated: the top row is always lost (C20_false), dithers make it worse. Lockstep of the arrays is proved. C20_exact: no row is removed only if there is none.
* C201 (The saved fit object can be evaluated again). False: the aperture model is deleted from the saved object, so at every vector with a finite posterior the evaluation is an AttributeError, after the parameters have been overwritten (C201_false, C201_exact), and make_model is one too (C201_make). C201_outside_partial: where the prior is not finite or the number of parameters is wrong both agree.
* C202 (Options for the position of the light in the slit). Shift alone, wavelength mode: closed form of every pixel for a new model and after any history, without PSF (C202_shift_partial) and with any PSF, spectrograph, adaptive sampling and floor (C202_seeing_partial), offsets within half of the resolution's FWHM (C202_bound), nothing changed for centred light with any settings (C202_centred), rows fitted once (C202_once), nothing changed without the options (C202_off), and no image when a fit fails (C202_fit_fails). False: the option for the effective resolution alone never changes an image (C202_false_effective); both options together raise ValueError for every object that reaches into the slit (C202_false_both); in velocity mode the shift never returns an image (C202_false_velocity).
* C205 (An unknown type of spectral axis is refused). False as stated: C205_false_images shows a model with a misspelt type that returns a black image, one that returns NaN and one with TypeError. C205_exact_partial says which of the three happens for every set-up: TypeError with adaptive sampling or floor, otherwise NaN with seeing or spectrograph, otherwise zeros.
* C214 (A refused line shape leaves the 1D fit as it was). False as stated: the attribute is assigned before it is checked, so every later `setAttr` that does not name the shape raises as well (`C214_false`, witness `C214_false_witness`). `C214_refused` and `C214_constructor` give the exception; `C214_recovers_partial` shows that naming the Gaussian shape makes up for a refused call that asked for nothing else.
* C218 (Superposition of components of light). True without point spread function and instrumental broadening (C218_superposition_partial), with adaptive sampling and floor. False with a point spread function (C218_false): PSF_convolve rescales the convolved cube to the total before, so light thrown off the grid comes back spread like the rest, in a proportion that depends on the whole distribution of light. The witness is a slit of two columns with a uniform and a centrally bright component.
* C220 (The plot of a 1D fit marks the fitted lines). False: the marks use the rest wavelengths held by the object, the model those of its names; they agree exactly if the two lists agree.
* C221 (The plot of a 1D fit shows every pixel once). False for mask values other than 0 and 1; exact condition.
* C223 (A 1D fit with plot saves its figure). False: never with errors (the default), nor if a line of the best fit has no positive width (NaN model, ValueError after storing); exact condition.
* C224 (Plotting does not change what a 1D fit stores). False: with too few rest wavelengths the plot raises an IndexError before the errors are stored; true otherwise. The fitted values are stored in each case (C224_values).
* C234 (The wavelengths of a 1D line model are those of its lines). C234_partial: the claim for series of calls that leave the three lists alone or ask for them to be read again; C234_exact: with new line names only, wavelengths match exactly if they are the same in the tables; C234_name: another group name changes nothing else; C234_false: witnesses; C234_stuck: an unknown line stays in the object.
* C237 (The panels with spectrum, model and residual). The residual panel uses the colour scale of the flux: when the flux of the sky-free columns is positive and the fit is better than the smallest flux there, every pixel of the residual panel lies below the lower end of the scale (C237_false). The data panel is never clipped in sky-free columns (C237_panels_partial).
* C238 (The fitted image has no negative line flux). False of the code: the row amplitudes are not restricted to non-negative values (scale_model). C238_exact gives the sign of each fitted row; for every usable set-up and all parameters C238_false gives a spectrum in absorption that the emission-line model fits with chi-square zero.
* C27 (Intensity model is positive and decreasing). False for Sersic index below 0.162 (C27_false). C27_exact: true exactly from 0.162 on.
* C36 (Spatial model grid has the instrument's pixel spacing). False for every physical grid with two or more subpixels (C36_false): spacing is deltY*(nY-1-S)/(nY-1). That spacing and the centring of the grid are proved. C36_exact: the spacing is as described only for a grid of a single subpixel.
* C37 (Updating the model equals building it anew). False for redshift and centre shift (C37_false), which are read only when the model is built; C37_exact describes every update. Proved when these two are unchanged.
* C38 (Wavelength upsampling is transparent). Restoration, shape, fine grid and block sum proved. False: flux calibration (values are summed, not averaged), non-integer factors leave the fine grid behind, and numpy without np.float.
* C41 (Derived posterior columns correspond row by row). False as stated: every further analysis appends four more columns (C41_false, for every chain). The row-by-row content of the first analysis and the error branch are proved.
* C42 (Credible intervals are nested). Nestedness is proved for every non-empty column. The uncertainty claim is false after linked analysis: from the second linked set on the 1-sigma errors use the 2-sigma limits (C42_false_second), and the 2-sigma errors may refer to a different peak than the reported one (C42_false_restart). C42_linked1_partial and C42_linked2_partial say exactly what holds. C42_all: which columns the word all stands for. C42_exact: the 1-sigma errors of a parameter refer to its 1-sigma limits exactly if it is in no linked set but possibly the first, or its limits agree.
* C45 (1D line profile is linear in fluxes and peaks at the line flux density). Linearity proved. The profile is flux times the normal density only if the line centre is a pixel; otherwise it is rescaled (C45_false). C45_exact: exactly then (or for zero flux).
* C46 (Line tables are internally consistent). Lookup proved for every table and key. False for the groups NII, SII and OII, which have no ranges (C46_false). C46_exact: of all names only Halpha, Hbeta and OIII can be prepared.
* C47 (Preparation for fitting happens once). User line lists proved. Idempotence proved for every preparation when repeated calls bring no changed keywords; false for a repeated call with linenames_arr=None (C47_false).
* C49 (PSF stamps are symmetric, peak at the centre and have the requested FWHM). Shape proved for every FWHM and (Moffat) beta > 1; false for beta <= 1 (C49_false_beta). Dither images proved for the Gaussian, false for Moffat (C49_false_dither). C49_exact: exactly Gaussians and Moffat profiles with beta > 1.
* C50 (Slit illumination correction stays inside the slit). Inside the slit and for overlapping objects the claim holds (C50_inside, C50_centroid, C50_overlap_partial, C50_right, C50_shift); it is false for objects entirely to the left of the slit, whose effective width is always negative (C50_false, C50_false_dispersion). C50_exact: the effective width is between 0 and the slit width exactly if the object reaches into the slit or lies to the right of it.
* C54 (1D spectra can be trimmed to a rest-frame range for every redshift). False for a plain Python redshift (C54_false); proved for numpy redshifts. C54_exact: exactly for a numpy redshift and a range with a pixel in it.
* C55 (Aperture corrections and 2D model use the same major axis). False: the position angle is mirrored (C55_false); proved up to the mirror image. C55_exact: the radii agree at a position exactly if it is on an axis of the slit, or the galaxy is round, or aligned with or across the slit.
* C56 (Velocity-space cubes exist for every dispersion). False for zero dispersion (NameError, C56_false); proved for positive dispersion. C56_exact: the cube exists exactly if some cell has a non-zero dispersion.
* C57 (PSF kernel is centred). False off the grid centre (C57_false). C57_exact gives the exact condition on the coordinates, C57_exact_grid for odd kernels: the object is at most half a grid step from the middle row and the middle of the slit.
* C58 (High-resolution output). False with adaptive sampling, the default (C58_false); proved without. C58_exact: the claim holds exactly without adaptive sampling, with rebinned output or with one sub-pixel per pixel.
* C59 (The no-convergence warning appears exactly when the run did not converge). False as stated: convergence at the last allowed step still writes the warning (C59_false); C59_exact says exactly when the warning is written.
* C60 (The absolute-dispersion option changes only the dispersion samples). False as stated: with a fixed dispersion every column is replaced by absolute values (C60_false, C60_fixed). C60_exact: exactly if the dispersion is free or no sample is changed by taking the absolute value.
* C62 (Lines given to the 2D fit are the lines that are modelled). False when line data are given to the fit object (C62_false_ignored, C62_false_mixed); proved when none are given to it. C62_exact: what fit object and spectrum have after setting up, for all inputs.
* C63 (The 1D fit returns). False with error estimation, which always ends in an exception (C63_false). Proved without it. C63_exact: the exact condition for a normal return.
* C64 (Errors of the corrected dispersion can be computed). False: the code reads an attribute that spectra never have (C64_false, C64_absent). Proved if it is added by hand. Exact condition: errors are stored, and no exception raised, iff there is a file name, saved values, and that attribute (C64_exact_partial).
* C65 (Fitted dispersion and first flux are not negative). False when the first fit has exactly one negative value (C65_false). Proved otherwise. C65_exact: the sign is guaranteed exactly outside the two mixed cases.
* C66 (The 1D residual vanishes only where the model matches). False for non-positive dispersion, for any collection of lines (C66_false, C66_false_sets). Proved for positive dispersion; C66_exact: the claim holds exactly for positive dispersions.
* C67 (Starting values of the 1D fit take effect). False for the redshift (C67_false, for every keyword set); proved for the dispersion. C67_exact: both starting values are used exactly if the redshift is the galaxy's.
* C68 (Constructor keywords take effect). The general rules are proved. Keywords of elementary profiles and the model's own options never take effect (C68_false_*).
* C69 (1D line models keep the line data given to them). False for wavelengths without ratios and for unknown keywords (C69_false_*). C69_exact: given wavelengths are kept exactly if ratios are given too or they equal the tables.
* C70 (Models are independent of each other). False for models built with default arguments, which share mutable objects (C70_false, C70_false_fixed). Proved for separate objects. C70_exact: independence holds exactly if the profile is not shared and either the parameter array is not shared or nothing is free.
* C72 (A custom dispersion slope is used for the aperture dispersion). False: sigma_aper_dispersion ignores the slope of the model (C72_false), sigma_e uses it (C72_false_sigma_e); true for the default slope -0.089 (C72_default_partial).
* C73 (The rotation aperture correction can be computed with positional shifts). False: with seeing the 2D stamp meets a 3D cube (ValueError, C73_false_first); a second calculation raises AttributeError (C73_false_second). Without seeing the first calculation works (C73_first_partial). C73_exact: the first calculation returns exactly if both options are off or there is no seeing.
* C74 (Aperture models that share an instrument do not affect each other). False: the stamp is stored in the shared PSF object; a 1D model built last makes every update of the 2D model fail (C74_false). True without seeing or when later models store the same stamp (C74_partial). C74_exact: exactly if there is no seeing, nothing was built later, or the last stamp gives the same convolution.
* C77 (Sky masking for the continuum fit leaves the 1D mask alone). False: the temporary mask is a numpy view (arr[:]), so sky pixels are zeroed in the stored 1D mask (C77_false). C77_exact_partial gives the mask that is stored.
* C81 (A centre shift of one pixel moves the image by one row). False as stated (C81_false: with three rows a one-pixel shift moves a point source by two rows, because the rows of the model grid are not one pixel apart, see C36). Proved: the shift that moves the image by one row is ((N-1)S-1)/(NS-1) pixels.
* C86 (The likelihood responds to centre shift and redshift when they are free). False of the code: after the model is built the image and likelihood are flat in centre shift and redshift (C86_false); the witness shows a first build does respond to redshift.
* C87 (make_model uses the galaxy it is given). Holds for the first successful call (C87_first_partial); false afterwards, galaxy and instrument are ignored (C87_false). C87_exact: the model is the one asked for exactly if there was none before or one of the same galaxy and instrument.
* C88 (A failing call leaves the object unchanged). Holds for a wrong number of parameters; false for update_model before make_model, which raises AttributeError with theta overwritten (C88_false). C88_exact: after any history, every call with the right number of parameters stores them, whether or not it raises.
* C89 (Box integration averages the old pixels). Proved for new pixels whose edges lie strictly inside two different old pixels. False: coinciding edges count edge pixels twice (the same grid triples every value), finer pixels and pixels beyond the data are wrong (C89_false_*). C89_exact: the result for every new pixel as a closed formula, and exactly when it is the average.
* C93 (Orientation of a postage stamp). False for CD2_2 = 0 and negative CD2_1 (90 instead of -90 degrees). C93_exact: exactly if CD2_2 is not zero or CD2_1 not negative.
* C94 (The stamp's PSF is centred on the object). True for images oriented north up; otherwise the image angle is ignored (C94_false). scipy's rotation direction is taken from the source comment. C94_exact: exactly for an object at the centre or an image angle that is a multiple of 360 degrees.
* C96 (The reported peak S/N belongs to the reported row). Proved away from the edges; false after trimming for the lowest five and the highest ten rows (C96_false, C96_false_witness). C96_exact: which row is read and which exception is raised, for every number of rows.
* C97 (The object position is optional). Proved when the first window is between five rows and the number of rows minus five; otherwise TypeError, always for pixels of 0.375 arcsec or more without dither (C97_false). C97_exact: without dither and position the call returns exactly for pixels below 0.375 arcsec and enough rows.
