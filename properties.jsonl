{"id": "C01", "title": "Fitting vector is unpacked into the parameter vector exactly", "statement": "KinModel2D.make_model/update_model with a fitting vector whose length equals the number of varying parameters replaces, in order, exactly the varying entries of the full parameter vector and leaves every fixed entry and the length untouched; packing the result again gives the fitting vector back. A fitting vector of any other length raises ValueError and changes nothing.", "quantifier": "every parameter vector, every vary mask, every fitting vector", "why_tests_cant": "the set of vary masks and vectors is unbounded; a test only exercises the fiducial five-parameter layout", "anchors": ["misfit/model/kin_model.py: KinModel2D.update_parameters, make_model, update_model", "misfit/fit/fit_core.py: initialize_fitting_theta"]}
{"id": "C02", "title": "Parameter vector depends only on the last accepted fitting vector", "statement": "After any sequence of update_model calls (including rejected ones of wrong length), the full parameter vector equals the one obtained from the initial vector by a single update with the last accepted fitting vector.", "quantifier": "every finite history of update calls", "why_tests_cant": "histories are unbounded sequences", "anchors": ["misfit/model/kin_model.py: KinModel2D.update_parameters, update_model"]}
{"id": "C03", "title": "Flat prior is exactly the indicator of the bounds of the varying parameters", "statement": "ThetaPriorFlat.log_prior returns 0 when every varying parameter lies in its own closed bounds and -inf otherwise; bounds of fixed parameters are never consulted (they may be None); a NaN parameter gives -inf; a fitting vector that is too short raises IndexError.", "quantifier": "every parameter count, vary mask, bounds table and fitting vector including NaN and infinities", "why_tests_cant": "needs all masks and all real values including boundary equality", "anchors": ["misfit/model/kin_classes.py: ThetaPriorFlat.log_prior", "misfit/model/kin_functions.py: _between"]}
{"id": "C04", "title": "Posterior handed to the sampler is never NaN or +inf and the model is not touched outside the prior", "statement": "lnprob returns either -inf or a finite number, equal to log_prior + log-likelihood whenever that sum is finite; when the prior is not finite it returns -inf without evaluating or changing the model.", "quantifier": "every prior value, every likelihood outcome (finite, NaN, +-inf) and every model state", "why_tests_cant": "one must cover every non-finite intermediate value and absence of side effects", "anchors": ["misfit/fit/fit_core.py: lnprob, lnlike"]}
{"id": "C05", "title": "Initial walkers lie inside the prior", "statement": "Every initial walker position generated from the prior bounds lies in the closed bounds of every varying parameter, so its prior is 0.", "quantifier": "every bounds table with lower <= upper, every vary mask, every number of walkers, every draw in [0,1)", "why_tests_cant": "random draws cannot be enumerated", "anchors": ["misfit/fit/fit_core.py: init_walker_pos", "misfit/general/general_utils.py: range_arrs", "misfit/model/kin_classes.py: ThetaPriorFlat.log_prior"]}
{"id": "C06", "title": "Chi-square is a non-negative masked weighted distance", "statement": "With finite data, non-zero errors and non-negative weights, the chi-square is >= 0, is 0 exactly when the model equals the data on every unmasked positively weighted pixel, and does not change when data or model values change on masked pixels.", "quantifier": "every image size, data, error, mask, weight and model image", "why_tests_cant": "arbitrary image sizes and real values", "anchors": ["misfit/model/kin_model.py: _model_chisq, _model_chisq_no_weight"]}
{"id": "C07", "title": "Log-likelihood ranks models as chi-square does", "statement": "For a 0/1 mask the log-likelihood equals -1/2 (chi-square + a constant independent of the model); so for two models on the same data the likelihood difference is -1/2 of the chi-square difference.", "quantifier": "every image, error, 0/1 mask, weight and pair of models", "why_tests_cant": "arbitrary images and models", "anchors": ["misfit/model/kin_model.py: _model_llike, _model_chisq"]}
{"id": "C08", "title": "Prepared data give a finite chi-square", "statement": "After the missing-data masking and filling performed before a fit, the chi-square of any finite model is finite, whatever NaN, infinite or zero-error pixels the input contained.", "quantifier": "every input flux, error, weight and mask image", "why_tests_cant": "bad-pixel patterns are unbounded", "anchors": ["misfit/general/galaxy_utils.py: subtract_continuum_2D, spec_mask_missing, spec_nan_masking", "misfit/model/kin_model.py: _model_chisq"]}
{"id": "C09", "title": "Row amplitude scaling is the least-squares optimum", "statement": "After scaling, each row of the model is the multiple of the unscaled row that minimises the error-weighted squared residual over the sky-free columns; a row that is zero on those columns becomes 0.", "quantifier": "every model, data and error image, every set of sky-free columns", "why_tests_cant": "optimality is over all real multipliers", "anchors": ["misfit/model/kin_model.py: KinModel2D.scale_model"]}
{"id": "C10", "title": "The scaled model does not depend on the model's row amplitudes", "statement": "Multiplying any rows of the unscaled model by arbitrary non-zero constants does not change the scaled model; scaling an already scaled model changes nothing.", "quantifier": "every image and every choice of non-zero row constants", "why_tests_cant": "arbitrary reals and sizes", "anchors": ["misfit/model/kin_model.py: KinModel2D.scale_model"]}
{"id": "C11", "title": "Scaling minimises the reported chi-square", "statement": "The row amplitudes chosen by the scaling minimise the reported chi-square over all row amplitudes.", "quantifier": "every data, error, mask, weight, sky-column selection and model", "why_tests_cant": "optimality over all amplitudes for all masks", "anchors": ["misfit/model/kin_model.py: KinModel2D.scale_model, _model_chisq", "misfit/general/galaxy_utils.py: mask_skylines_2D"]}
{"id": "C12", "title": "Masking steps never unmask a pixel and mask every unusable pixel", "statement": "Each masking step (missing data, spectrum edges, columns from the 1D mask, sky columns, low S/N rows) leaves a masked pixel masked; after the missing-data step every pixel with non-finite flux or error, or zero weight, is masked and every other pixel keeps its mask value, in 1D and in 2D spectra.", "quantifier": "every image size, data, mask and parameter", "why_tests_cant": "arbitrary images", "anchors": ["misfit/general/galaxy_utils.py: spec_mask_missing, mask_edges_1D, mask_spec2D_from_1D, mask_skylines_2D, mask_low_snr_rows_2D"]}
{"id": "C13", "title": "Filling bad pixels never alters usable data", "statement": "Replacing non-finite (and optionally zero) values by the fill value changes only masked pixels that are non-finite (or zero); unmasked and finite pixels keep their value; after masking missing data no non-finite value remains.", "quantifier": "every image, mask, fill value and option", "why_tests_cant": "arbitrary images", "anchors": ["misfit/general/galaxy_utils.py: spec_nan_masking, spec_mask_missing"]}
{"id": "C14", "title": "Sky and sky-free columns partition the detector", "statement": "Every column is either a sky column (its error quadrature sum is at least cutoff times the median error) or a sky-free column, never both; exactly the sky columns are masked. A missing median or an unsupported unit raises ValueError.", "quantifier": "every error image, mask, cutoff and median", "why_tests_cant": "arbitrary images and thresholds", "anchors": ["misfit/general/galaxy_utils.py: mask_skylines_2D, wh_skylines_1D"]}
{"id": "C15", "title": "Index lists split into maximal consecutive runs", "statement": "wh_continuous returns non-empty runs of consecutive integers whose concatenation is the input, and neighbouring runs are never mergeable.", "quantifier": "every integer list", "why_tests_cant": "lists are unbounded", "anchors": ["misfit/general/general_utils.py: wh_continuous"]}
{"id": "C16", "title": "Rows kept for the fit have sufficient S/N", "statement": "Every row that is not in the returned low-S/N index list has S/N at or above the cut, and when several high-S/N runs exist it lies in a run of at least three rows; all rows in the list are fully masked and no other pixel changes.", "quantifier": "every image, mask and cut", "why_tests_cant": "arbitrary S/N patterns", "anchors": ["misfit/general/galaxy_utils.py: mask_low_snr_rows_2D"]}
{"id": "C17", "title": "Rows outside a low S/N row are masked outwards", "statement": "If a row below the middle is low S/N then every row below it is masked, and likewise above the middle.", "quantifier": "every S/N pattern", "why_tests_cant": "arbitrary row patterns", "anchors": ["misfit/general/galaxy_utils.py: mask_low_snr_rows_2D"]}
{"id": "C18", "title": "Edge masking removes exactly num_edge pixels next to each interior edge", "statement": "When the first (last) unmasked pixel of a 1D spectrum is not at the array end, exactly the num_edge pixels starting at that edge are masked; otherwise nothing is masked on that side.", "quantifier": "every mask, spectrum length and num_edge", "why_tests_cant": "arbitrary masks", "anchors": ["misfit/general/galaxy_utils.py: mask_edges_1D"]}
{"id": "C19", "title": "Wavelength trimming keeps exactly the requested columns in lock-step", "statement": "Trimming in wavelength keeps exactly the columns whose observed wavelength lies in the closed range, in the original order, and applies the same selection to wavelength, flux, error, mask and weight; giving both or no range raises ValueError; the rest wavelengths and the recorded rest-frame range are the observed ones divided by 1+z; an empty selection yields None arrays; a rest-frame range selects the same columns as that range times (1+z) in the observed frame.", "quantifier": "every wavelength grid, image, range and redshift > -1", "why_tests_cant": "arbitrary grids", "anchors": ["misfit/general/galaxy_utils.py: trim_spectrum_2D_wavelength"]}
{"id": "C20", "title": "Spatial trimming keeps the object's rows in lock-step", "statement": "Spatial trimming cuts the same row range from flux, error, weight and all masks and shifts the object centre by the number of rows removed at the bottom; without dithering no row is removed.", "quantifier": "every image height, object position and limits", "why_tests_cant": "arbitrary sizes and positions", "anchors": ["misfit/general/galaxy_utils.py: trim_spectrum_2D_spatial"]}
{"id": "C21", "title": "Fit weights are a probability profile over usable rows", "statement": "The fit weight profile is non-negative and sums to 1 whenever some row is usable, is 0 on low S/N rows (weighting up-edges), is identical in every column, and is unchanged when flux and error are multiplied by a common positive constant.", "quantifier": "every image, S/N pattern and weighting type", "why_tests_cant": "arbitrary images", "anchors": ["misfit/general/galaxy_utils.py: calculate_2D_fit_weights"]}
{"id": "C22", "title": "Sky to disc coordinates are an invertible isometry", "statement": "The transform from sky coordinates to intrinsic galaxy coordinates preserves distances, is invertible, and composes rotation about the line of sight by the slit misalignment with rotation about the major axis by the inclination.", "quantifier": "every point, misalignment and inclination", "why_tests_cant": "real-valued angles", "anchors": ["misfit/model/kin_functions.py: transform_int_3d"]}
{"id": "C23", "title": "Inclination from axis ratio is well defined", "statement": "For 0 <= q0 < 1 and q <= 1 the sine of the inclination lies in [0,1], is 1 at q <= q0, 0 at q = 1, is non-increasing in q, and agrees with the inclination angle helper on q0 <= q <= 1.", "quantifier": "every axis ratio and thickness", "why_tests_cant": "real-valued parameters", "anchors": ["misfit/model/kin_functions.py: sin_i", "misfit/general/general_utils.py: inclination_angle"]}
{"id": "C24", "title": "Slit misalignment angle is normalised modulo 180 degrees", "statement": "The stored misalignment lies strictly between -90 and 90 degrees and differs from sersicPA - (slit_PA - img_PA) by a multiple of 180 degrees; its absolute value is stored too.", "quantifier": "every triple of position angles for which the difference is not an odd multiple of 90", "why_tests_cant": "real-valued angles", "anchors": ["misfit/general/galaxy_utils.py: calculate_slit_offset_angles"]}
{"id": "C25", "title": "Projected radii are consistent", "statement": "The in-slit projected radius never exceeds the unclipped projected radius, both are at most the radius; deprojecting the projected radius gives the radius back; the physical projection of an ellipse lies between the minor and major radius.", "quantifier": "every radius, misalignment, axis ratio and slit width", "why_tests_cant": "real-valued parameters", "anchors": ["misfit/general/general_utils.py: y_proj_major, y_proj_major_inslit, r_unproj_major, x_proj_major, y_proj_phys, x_proj_phys"]}
{"id": "C26", "title": "Arctan rotation curve is bounded, monotone and odd", "statement": "With positive turnover radius the rotation velocity is 0 at the centre, half of V_a at the turnover radius, strictly below |V_a| in absolute value, monotone in radius for V_a >= 0, and changes sign with V_a; the line-of-sight velocity of the model never exceeds |V_a|.", "quantifier": "every radius, V_a and r_t > 0, every inclination and position", "why_tests_cant": "real-valued parameters", "anchors": ["misfit/model/kin_classes.py: VelArctanProfile.vel", "misfit/model/aper_model.py: AperModel2D.calculate_spectral_cube"]}
{"id": "C27", "title": "Intensity model is positive and decreasing", "statement": "The fiducial intensity is positive, equals 1 at the effective radius in the plane, is non-increasing in radius and in height, and is symmetric about the plane.", "quantifier": "every radius, height, Sersic index, effective radius and thickness > 0", "why_tests_cant": "real-valued parameters", "anchors": ["misfit/model/kin_classes.py: IntensityProfile.int, IntProfileSersic.int, IntProfileExpZ.int, IntProfileExpZScale.int"]}
{"id": "C28", "title": "Intrinsic dispersion profile is normalised at the effective radius", "statement": "The dispersion profile used for aperture corrections equals 1 at the effective radius whatever the core radius and slope, is positive and non-increasing for negative slope, and depends on radius only through radius over effective radius.", "quantifier": "every radius, effective radius > 0, core radius > 0, slope", "why_tests_cant": "real-valued parameters", "anchors": ["misfit/model/kin_functions.py: sigma_profile, disp_square"]}
{"id": "C29", "title": "Parameters are routed to the right profile", "statement": "Updating a kinematic profile gives the velocity profile exactly its first n parameters and the dispersion profile exactly the following m; later entries (position shift, redshift) influence neither velocity nor dispersion.", "quantifier": "every parameter vector and every pair of profile sizes", "why_tests_cant": "arbitrary profile sizes", "anchors": ["misfit/model/kin_classes.py: KinProfile.update_theta, vel, sigma"]}
{"id": "C30", "title": "Zero-dispersion cube conserves flux", "statement": "Without dispersion the spectral cube at every sky position sums over wavelength to the line-of-sight integral of the intensity; every parcel goes to a wavelength pixel nearest its Doppler-shifted wavelength; the cube is non-negative for non-negative intensity.", "quantifier": "every intensity and velocity cube, wavelength grid and line wavelength", "why_tests_cant": "arbitrary cubes", "anchors": ["misfit/model/kin_functions.py: I_simple_collapse"]}
{"id": "C31", "title": "Broadened cube conserves flux and adds lines linearly", "statement": "With positive dispersion the model spectral density at each sky position, integrated over wavelength, equals the sum over lines of the flux ratio times the line-of-sight integral of the intensity; the cube is linear in the intensity and additive over lines.", "quantifier": "every cube, line list, flux ratios, redshift and dispersion", "why_tests_cant": "integral over all wavelengths, arbitrary cubes", "anchors": ["misfit/model/kin_functions.py: add_sigma_collapse_z"]}
{"id": "C32", "title": "PSF convolution conserves total flux and ignores stamp amplitude", "statement": "PSF convolution leaves the cube unchanged for non-positive FWHM; otherwise the total flux of the result equals that of the input, the result does not change when the stamp is multiplied by a non-zero constant, no flux moves between wavelengths before the common rescaling, and a non-negative cube and stamp give a non-negative result.", "quantifier": "every cube and stamp with non-zero convolved total", "why_tests_cant": "arbitrary cubes and kernels", "anchors": ["misfit/model/kin_functions.py: PSF_convolve"]}
{"id": "C33", "title": "Rebinning conserves flux and needs exact divisibility", "statement": "Rebinning sums non-overlapping blocks so the total is conserved and every input pixel is counted in exactly one output pixel; rebinning to the same shape is the identity; a target shape that does not divide the input shape raises an error.", "quantifier": "every array size, factor and content", "why_tests_cant": "arbitrary sizes", "anchors": ["misfit/model/kin_functions.py: rebin"]}
{"id": "C34", "title": "Instrumental broadening conserves total flux", "statement": "Convolving with the constant instrument resolution leaves the total of the 2D model unchanged and acts on every spatial row separately up to one common factor; a per-row resolution array raises an error.", "quantifier": "every model image, wavelength grid and resolution with non-zero convolved total", "why_tests_cant": "arbitrary images", "anchors": ["misfit/model/kin_functions.py: inst_convol_complete, convol_instconstfwhm, convol_inst"]}
{"id": "C35", "title": "Model grid covers the slit with equal pixels", "statement": "Across the slit the sub-pixel centres are symmetric about the slit centre and equally spaced, the unpadded sub-pixels tile the slit width exactly and are not larger than the sub-pixels along the slit.", "quantifier": "every slit width, pixel scale, sub-pixel number and padding", "why_tests_cant": "arbitrary geometry", "anchors": ["misfit/model/aper_model.py: AperModel2D.setup_model_grid"]}
{"id": "C36", "title": "Spatial model grid has the instrument's pixel spacing", "statement": "Along the slit neighbouring sub-pixel centres are one sub-pixel apart, and the sub-pixels of spatial row k are centred on k times the pixel scale relative to row 0.", "quantifier": "every image height, sub-pixel number, padding and object centre", "why_tests_cant": "arbitrary geometry", "anchors": ["misfit/model/aper_model.py: AperModel2D.setup_model_grid"]}
{"id": "C37", "title": "Updating the model equals building it anew", "statement": "After any history of updates, the model returned by an update with a parameter vector equals the model a freshly built instance would return for that vector.", "quantifier": "every history of parameter vectors", "why_tests_cant": "histories are unbounded; only some parameters are affected", "anchors": ["misfit/model/aper_model.py: AperModel2D.make_model, update_model, do_model_calcs, setup_model_grid"]}
{"id": "C38", "title": "Wavelength upsampling is transparent", "statement": "Evaluating a model restores the wavelength grid and work arrays for every dispersion; with an integer factor on a uniform grid the upsampled pixels of each wavelength pixel are centred on it and the result has the original shape and the same flux calibration as without upsampling.", "quantifier": "every uniform grid, factor, dispersion and sequence of evaluations", "why_tests_cant": "threshold crossing depends on real dispersion and history", "anchors": ["misfit/model/aper_model.py: AperModel2D.check_do_upsample_wave, downsample_to_real_wave, do_model_calcs"]}
{"id": "C39", "title": "Sampling stops only when converged and never exceeds the step budget", "statement": "The sampler runs at most nSteps steps; it stops earlier only if the acceptance fraction is strictly inside its limits, the step index exceeds nEff times the largest autocorrelation time, at least 50 steps were made and running all steps was not requested.", "quantifier": "every sequence of acceptance fractions and autocorrelation times, every option setting", "why_tests_cant": "random sequences of sampler diagnostics", "anchors": ["misfit/fit/fit_core.py: _run_mcmc_emcee_221, _run_mcmc_emcee_3"]}
{"id": "C40", "title": "Flattened chain and probabilities stay aligned", "statement": "In the saved sampler dictionary entry k of the flattened chain and entry k of the flattened log-probability come from the same walker and step, burn-in steps are excluded, and every later sample appears exactly once.", "quantifier": "every number of walkers, steps, parameters and burn-in", "why_tests_cant": "arbitrary chain shapes", "anchors": ["misfit/fit/fit_io.py: make_emcee_sampler_dict"]}
{"id": "C41", "title": "Derived posterior columns correspond row by row", "statement": "Analysing a chain appends exactly V and sigma at the effective and 2.2 scale radius, computed for each sample from that sample's free values and the fixed parameters; analysing again does not change the result.", "quantifier": "every chain, vary mask and parameter vector", "why_tests_cant": "arbitrary chains and repeated analysis", "anchors": ["misfit/fit/fit_core.py: add_v_re_22, get_chain_results"]}
{"id": "C42", "title": "Credible intervals are nested", "statement": "For every parameter the 2-sigma lower percentile is at most the 1-sigma lower percentile, which is at most the 1-sigma upper, which is at most the 2-sigma upper; uncertainties are best minus lower and upper minus best, also after joint (linked) best-fit analysis.", "quantifier": "every chain and every list of linked parameter sets", "why_tests_cant": "arbitrary chains", "anchors": ["misfit/fit/fit_core.py: get_param_posterior_bestfits", "misfit/general/general_utils.py: get_bestfit_values_linked"]}
{"id": "C43", "title": "Opposite-sign fraction is a percentage", "statement": "The reported opposite-sign percentage of each parameter lies in [0,100], is the fraction of samples whose sign is strictly opposite to the best fit, and is 0 for a zero best fit.", "quantifier": "every non-empty chain and best fit", "why_tests_cant": "arbitrary chains", "anchors": ["misfit/fit/fit_core.py: get_param_posterior_bestfits"]}
{"id": "C44", "title": "Instrument-corrected dispersion is physical", "statement": "The corrected dispersion is real and non-negative, never exceeds the measured one, satisfies corrected^2 + resolution^2 = measured^2 when the line is resolved, and is 0 when it is not.", "quantifier": "every measured dispersion and resolution", "why_tests_cant": "real-valued inputs of either sign", "anchors": ["misfit/fit/fit1D.py: calculate_inst_corr_vel_disp"]}
{"id": "C45", "title": "1D line profile is linear in fluxes and peaks at the line flux density", "statement": "The 1D model is the sum of line profiles plus a polynomial continuum, linear in all fluxes and continuum coefficients; the line profile equals flux times the normalised Gaussian.", "quantifier": "every wavelength array, redshift, dispersion, flux list", "why_tests_cant": "real-valued inputs", "anchors": ["misfit/model/emission_lines_model.py: gaussian_line, EmissionLines1DModel.make1DProfile, EmissionLinesSpectrum1DModel.make1DProfile"]}
{"id": "C46", "title": "Line tables are internally consistent", "statement": "Every line of every catalogued group has a rest wavelength and flux ratio; the wavelength range fitted lies inside the masked line range, which lies inside the full range; every group can be prepared for a 2D fit.", "quantifier": "every catalogued line group", "why_tests_cant": "requires a statement about the whole data tables and lookup semantics for every name", "anchors": ["misfit/general/io.py: read_line_names, read_restwave, read_line_ratio, read_wave_range", "misfit/lib/*.dat, *.param"]}
{"id": "C47", "title": "Preparation for fitting happens once", "statement": "Preparing a 2D spectrum twice equals preparing it once; line lists supplied by the user are never overwritten.", "quantifier": "every spectrum state and every number of repeated calls", "why_tests_cant": "repeated stateful calls", "anchors": ["misfit/galaxy.py: ObsSpectrum2D.fit_prep_calcs, initialize_lineset"]}
{"id": "C48", "title": "Setting attributes touches only known attributes", "statement": "Keyword updates change exactly the attributes that exist and were given, and never create new ones.", "quantifier": "every object state and keyword set", "why_tests_cant": "arbitrary keyword sets", "anchors": ["misfit/instrument.py: PSFBase.setAttr, Instrument.setAttr", "misfit/galaxy.py: GalaxyBasic.setAttr", "misfit/model/kin_model.py: KinModel2DOptions.setAttr"]}
{"id": "C49", "title": "PSF stamps are symmetric, peak at the centre and have the requested FWHM", "statement": "Without dither images Gaussian and Moffat stamps are positive, even in both axes, maximal at the origin and fall to half of the maximum at FWHM/2; with a dither separation each stamp has negative images of half strength at plus and minus the separation.", "quantifier": "every FWHM > 0, beta, separation and grid", "why_tests_cant": "real-valued inputs", "anchors": ["misfit/instrument.py: PSF_stamp_gauss, PSF_stamp_moffat, PSFGaussian.generate_conv_stamp, PSFMoffat.generate_conv_stamp, Instrument.__init__"]}
{"id": "C50", "title": "Slit illumination correction stays inside the slit", "statement": "The effective light centroid used for the wavelength shift always lies within the slit; an object entirely inside the slit is unchanged; the effective illuminated width is between 0 and the slit width.", "quantifier": "every fitted centre, width, amplitude, grid and slit width", "why_tests_cant": "real-valued inputs", "anchors": ["misfit/model/kin_functions.py: check_slit_illum, calculate_effective_inst_res_lam_shift"]}
{"id": "C51", "title": "Aperture dispersion is a weighted mean", "statement": "The aperture dispersion lies between the smallest and largest local dispersion in the model whenever intensity, stamp and extraction weights are non-negative with positive total; an unknown extraction method raises ValueError.", "quantifier": "every intensity and dispersion image, stamp and extraction weights", "why_tests_cant": "arbitrary images", "anchors": ["misfit/model/kin_functions.py: sigma_aper_dispersion, sigma_aper_dispersion_misalign", "misfit/model/aper_model.py: AperModel1DRot.trim_sum_aperture"]}
{"id": "C52", "title": "Continuum subtraction is exactly reversible", "statement": "After continuum subtraction flux plus continuum model equals the stored flux including continuum at every pixel; the continuum fit windows are disjoint, inside the full range and exclude the masked line range; with continuum subtraction disabled the flux is unchanged.", "quantifier": "every spectrum, fit result and range", "why_tests_cant": "arbitrary fit results", "anchors": ["misfit/general/galaxy_utils.py: subtract_continuum_2D"]}
{"id": "C53", "title": "Mock observations are centred and at least nymin rows tall", "statement": "A generated mock has at least nymin rows, covers the slit length, and its object centre is the centre of the rows.", "quantifier": "every slit length, pixel scale > 0 and nymin", "why_tests_cant": "real-valued inputs", "anchors": ["misfit/mock/generate_basic.py: generate_mock_basis"]}
{"id": "C54", "title": "1D spectra can be trimmed to a rest-frame range for every redshift", "statement": "Trimming a 1D spectrum to a rest-frame wavelength range keeps exactly the pixels whose rest wavelength lies in the closed range, in all arrays, whether the redshift is a plain Python number or a numpy number.", "quantifier": "every 1D spectrum, range and redshift", "why_tests_cant": "arbitrary arrays and both number types", "anchors": ["misfit/general/galaxy_utils.py: trim_spectrum_1D"]}
{"id": "C55", "title": "Aperture corrections and 2D model use the same major axis", "statement": "The elliptical radius used for 1D aperture corrections is measured along the same major axis direction (position angle counted counter-clockwise from the slit) as the 2D model, vanishes only at the centre, scales with distance and is the circular radius for a round galaxy.", "quantifier": "every position, axis ratio and position angle", "why_tests_cant": "real-valued positions and angles", "anchors": ["misfit/model/kin_functions.py: r_int_ellip, transform_int_3d"]}
{"id": "C56", "title": "Velocity-space cubes exist for every dispersion", "statement": "In velocity mode the spectral cube exists for every dispersion including zero, its integral over velocity at each sky position is the line-of-sight integral of the intensity, and it does not depend on redshift or line list.", "quantifier": "every cube, velocity grid and dispersion", "why_tests_cant": "arbitrary cubes, integral over the real line", "anchors": ["misfit/model/kin_functions.py: add_sigma_collapse_z"]}
{"id": "C57", "title": "PSF kernel is centred", "statement": "The kernel with which the model convolves its cube is symmetric about, and largest at, the kernel pixel that the convolution uses as origin, so that convolution with the PSF does not displace the light along or across the slit.", "quantifier": "every grid geometry, object centre and PSF", "why_tests_cant": "the displacement depends continuously on the object centre relative to the grid", "anchors": ["misfit/model/aper_model.py: AperModel2D.setup_calcs", "misfit/model/kin_functions.py: PSF_convolve", "misfit/instrument.py: PSFGaussian.generate_conv_stamp"]}
{"id": "C58", "title": "High-resolution output", "statement": "With rebinning of the output turned off, a model image has one row per sub-pixel along the slit; with rebinning it has one row per detector pixel.", "quantifier": "every configuration and parameter vector", "why_tests_cant": "depends on the interplay of independent options", "anchors": ["misfit/model/aper_model.py: AperModel2D.trim_downsample_spectral_cube, downsample_to_real_wave"]}
{"id": "C59", "title": "The no-convergence warning appears exactly when the run did not converge", "statement": "In a sampling run with all convergence limits set and not forced to run all steps, the log contains the caution about missing convergence if and only if the convergence criterion was not met at any executed step.", "quantifier": "every sequence of acceptance fractions and autocorrelation times, every option setting", "why_tests_cant": "the coincidence of convergence with the last allowed step is one point in a large space", "anchors": ["misfit/fit/fit_core.py: _run_mcmc_emcee_221, _run_mcmc_emcee_3"]}
{"id": "C60", "title": "The absolute-dispersion option changes only the dispersion samples", "statement": "With the option to use absolute dispersion values, analysing a chain replaces the samples of the dispersion parameter by their absolute values and leaves the samples of every other parameter unchanged.", "quantifier": "every chain, parameter vector and vary mask", "why_tests_cant": "depends on which parameters are fixed, over all masks", "anchors": ["misfit/fit/fit_core.py: add_v_re_22"]}
{"id": "C61", "title": "Peak search starts inside the sampled range", "statement": "The starting value of the posterior peak search of each parameter exists and lies between its smallest and largest sample, also for constant chains.", "quantifier": "every non-empty chain", "why_tests_cant": "arbitrary chains, including degenerate ones", "anchors": ["misfit/fit/fit_core.py: get_param_posterior_bestfits"]}
{"id": "C62", "title": "Lines given to the 2D fit are the lines that are modelled", "statement": "After constructing a 2D fit object, the line names, rest wavelengths and flux ratios of its spectrum (from which the model is built) are those of the fit object.", "quantifier": "every combination of line attributes given to the fit object and to the spectrum", "why_tests_cant": "many combinations of given and missing attributes", "anchors": ["misfit/fit/fit2D.py: FitEmissionLines2D.setup", "misfit/galaxy.py: ObsSpectrum2D.initialize_lineset"]}
{"id": "C67", "title": "Starting values of the 1D fit take effect", "statement": "Redshift and dispersion given as starting values to the 1D fit are the starting values of the fit.", "quantifier": "every keyword set and galaxy", "why_tests_cant": "arbitrary keyword sets", "anchors": ["misfit/fit/fit1D.py: FitEmissionLines1D.__init__, setAttr"]}
{"id": "C68", "title": "Constructor keywords take effect", "statement": "A keyword naming an attribute of a profile, settings, PSF or model object has effect on the constructed object.", "quantifier": "every keyword set", "why_tests_cant": "arbitrary keyword sets and orders of assignments", "anchors": ["misfit/model/kin_classes.py: constructors", "misfit/instrument.py: PSFMoffat.__init__", "misfit/model/kin_model.py: KinModel2D.__init__, make_model"]}
{"id": "C69", "title": "1D line models keep the line data given to them", "statement": "Names, rest wavelengths and flux ratios given to a 1D line model are kept, missing ones are filled from the tables, and unknown keywords are ignored.", "quantifier": "every combination of given and missing line data", "why_tests_cant": "many combinations", "anchors": ["misfit/model/emission_lines_model.py: EmissionLines1DModel.setAttr"]}
{"id": "C70", "title": "Models are independent of each other", "statement": "Constructing or updating one 2D model never changes the parameters or the light profile used by another one.", "quantifier": "every sequence of constructions and updates of other models", "why_tests_cant": "arbitrary interleavings of operations on several objects", "anchors": ["misfit/model/kin_model.py: KinModel2D.__init__, update_parameters, make_model"]}
{"id": "C63", "title": "The 1D fit returns", "statement": "A 1D fit with a known non-negative instrument resolution and the required file names stores redshift, dispersion, fluxes, continuum and their lower and upper errors, and returns normally.", "quantifier": "every minimiser result, Monte Carlo matrix and option combination", "why_tests_cant": "depends on the outcome of the minimiser for every spectrum", "anchors": ["misfit/fit/fit1D.py: FitEmissionLines1D.fit"]}
{"id": "C64", "title": "Errors of the corrected dispersion can be computed", "statement": "After a fit with saved Monte Carlo values and a resolution set on the instrument, asking for the instrument-corrected dispersion also stores its lower and upper error.", "quantifier": "every spectrum object, its keywords and updates, every set of saved values", "why_tests_cant": "every way of building and updating the spectrum object", "anchors": ["misfit/fit/fit1D.py: calculate_inst_corr_vel_disp", "misfit/galaxy.py: ObsSpectrum1D"]}
{"id": "C65", "title": "Fitted dispersion and first flux are not negative", "statement": "If the minimiser respects the bounds it is given, the dispersion and the first line flux stored by the 1D fit are not negative.", "quantifier": "every minimiser that respects bounds", "why_tests_cant": "quantifies over minimiser behaviours", "anchors": ["misfit/fit/fit1D.py: FitEmissionLines1D.fit, make_params"]}
{"id": "C66", "title": "The 1D residual vanishes only where the model matches", "statement": "The residual minimised by the 1D fit has one entry per unmasked pixel, (model - data)/error, and for good data it is zero only where model and data agree.", "quantifier": "every spectrum, mask, dispersion, redshift, flux and continuum", "why_tests_cant": "real-valued inputs; the failing parameter region is never visited by tests starting from good guesses", "anchors": ["misfit/model/emission_lines_model.py: residual1DProfile"]}
{"id": "C71", "title": "Aperture sums cover exactly slit and extraction window", "statement": "The pixels kept by the aperture sum of the 1D aperture models are exactly those whose centre lies inside the slit and inside the extraction window; their sizes add up to the slit width and the extraction width; with boxcar extraction the aperture dispersion is the light weighted mean over these pixels and no others.", "quantifier": "every pixel number, slit, extraction width, offset, seeing and image", "why_tests_cant": "off-by-one trimming changes results by one pixel row and hides in tolerances; all sizes are covered", "anchors": ["misfit/model/aper_model.py: setup_model_grid", "misfit/model/kin_functions.py: sigma_aper_dispersion"]}
{"id": "C72", "title": "A custom dispersion slope is used for the aperture dispersion", "statement": "When a 1D dispersion aperture model is given a dispersion slope, the aperture dispersion is finite and between the smallest and largest local dispersion of the profile with that slope.", "quantifier": "every slope, galaxy, instrument and extraction", "why_tests_cant": "real-valued slope; the default slope behaves correctly", "anchors": ["misfit/model/aper_model.py: AperModel1DDisp", "misfit/model/kin_functions.py: sigma_aper_dispersion, disp_square"]}
{"id": "C73", "title": "The rotation aperture correction can be computed with positional shifts", "statement": "A rotation aperture model with positional wavelength shift or effective instrument resolution switched on can compute its correction, and compute it again.", "quantifier": "every image, seeing, option combination and repeated call", "why_tests_cant": "needs all sequences of calls and option combinations", "anchors": ["misfit/model/aper_model.py: AperModel1DRot.calculate_kin_cube", "misfit/model/kin_functions.py: calculate_effective_inst_res_lam_shift, PSF_convolve"]}
{"id": "C74", "title": "Aperture models that share an instrument do not affect each other", "statement": "Updating a 2D aperture model gives the same result whatever aperture models were built with the same instrument after it.", "quantifier": "every sequence of models built with one instrument", "why_tests_cant": "aliasing through a shared object over unbounded sequences of constructions", "anchors": ["misfit/instrument.py: PSFBase.set_conv_stamp", "misfit/model/aper_model.py: setup_calcs"]}
{"id": "C75", "title": "Rotation aperture model has the requested ratio of velocity to dispersion", "statement": "Given a non-zero ratio, the kinematic profile of the rotation aperture model has the requested velocity parameters and a dispersion such that velocity divided by dispersion at the aperture radius is that ratio; ratio 0 gives no rotation, and no ratio gives no dispersion.", "quantifier": "every ratio, velocity, turnover radius and aperture radius", "why_tests_cant": "real-valued parameters", "anchors": ["misfit/model/aper_model.py: AperModel1DRot.update_kinProfile"]}
{"id": "C76", "title": "A linear continuum is removed exactly", "statement": "If the spectrum outside the masked line range is a straight line in wavelength with one common slope and a separate offset per row, and the fits find an exact solution when one exists, continuum subtraction stores exactly that line as the continuum model of each row and leaves exactly zero flux at the unmasked continuum pixels.", "quantifier": "every slope, offset per row, line flux, mask, error and number of rows and columns", "why_tests_cant": "real-valued data of any size", "anchors": ["misfit/general/galaxy_utils.py: subtract_continuum_2D", "misfit/general/general_utils.py: weighted_linear_residual"]}
{"id": "C77", "title": "Sky masking for the continuum fit leaves the 1D mask alone", "statement": "Continuum subtraction uses a temporary copy of the 1D mask to leave sky lines out of the slope fit; the mask stored in the 1D spectrum afterwards only reflects missing data and edges.", "quantifier": "every 1D and 2D spectrum and cutoff", "why_tests_cant": "depends on aliasing of arrays", "anchors": ["misfit/general/galaxy_utils.py: subtract_continuum_2D"]}
{"id": "C78", "title": "Model images are never negative", "statement": "For a physical set-up (non-negative intensity profile and flux ratios, positive rest wavelengths, non-negative pixel scale and slit width, a point spread function without negative dither images) every image returned by a 2D aperture model has only non-negative pixels, at construction and at every later update after any history of updates, provided the dispersion parameter is non-negative or its absolute value is taken.", "quantifier": "every configuration, parameter vector and history of updates, including failed ones", "why_tests_cant": "unbounded histories and real-valued parameters; the result depends on convolution, normalisation, rebinning and adaptive resampling together", "anchors": ["misfit/model/aper_model.py: AperModel2D.make_model", "misfit/model/aper_model.py: AperModel2D.update_model"]}
{"id": "C79", "title": "The image is proportional to the intensity", "statement": "Multiplying the intensity profile by a positive constant and changing nothing else multiplies every pixel of every image by that constant, at construction and at every update after any history; the same calls fail, with the same exceptions, and the same images are non-finite.", "quantifier": "every configuration, positive constant, parameter vector and history of updates", "why_tests_cant": "equality of two whole runs for arbitrary configurations and histories", "anchors": ["misfit/model/aper_model.py: AperModel2D"]}
{"id": "C80", "title": "Without PSF and instrumental broadening the image is the discretised disc integral", "statement": "With a zero-width PSF and perfect spectral resolution, each pixel of the image returned by the 2D aperture model equals the sum over the subpixels of its row, the subpixels across the slit and the cells along the line of sight of intensity times redshifted, Doppler-shifted, dispersion-broadened unit-flux emission lines times cell depth and width, for the inclined and misaligned disc with arctan rotation curve; updates return the same formula with the new velocity and dispersion parameters after any history.", "quantifier": "every intensity profile, geometry, line list, grid size, parameter vector and history of updates", "why_tests_cant": "an exact formula for all sizes and real parameters; a numerical test compares a few pixels to a tolerance", "anchors": ["misfit/model/aper_model.py: AperModel2D", "misfit/model/kin_functions.py: add_sigma_collapse_z", "misfit/model/kin_functions.py: transform_int_3d"]}
{"id": "C81", "title": "A centre shift of one pixel moves the image by one row", "statement": "Building the model with the spatial centre shift raised by one pixel gives the same image moved by one row.", "quantifier": "every model without PSF and instrumental broadening, every parameter vector", "why_tests_cant": "holds or fails for all grids at once; the error is below a pixel for the usual sizes and looks like noise in a test", "anchors": ["misfit/model/aper_model.py: setup_model_grid"]}
{"id": "C82", "title": "Centroid and width of the model line", "statement": "For a single emission line with positive dispersion, the model cube samples at each sky position a density in wavelength whose centroid is the redshifted line Doppler shifted by the intensity-weighted mean line-of-sight velocity, and whose variance is the squared redshifted wavelength over c times (intensity-weighted mean squared dispersion plus intensity-weighted velocity variance).", "quantifier": "every intensity, velocity and dispersion cube, redshift, line, and wavelength grid", "why_tests_cant": "statement about integrals over all wavelengths for arbitrary cubes", "anchors": ["misfit/model/kin_functions.py: add_sigma_collapse_z"]}
{"id": "C83", "title": "Reduced chi-square", "statement": "The reduced chi-square is the weighted squared residual summed over the spectrum divided by the number of pixels with mask one minus the number of free parameters; masked pixels enter neither the sum nor the count. With as many free parameters as pixels it is plus infinity, or NaN for a perfect fit.", "quantifier": "every finite data set with non-zero errors, every mask, weight and model image, every number of free parameters", "why_tests_cant": "counting errors by the few masked pixels change the value by a percent, invisible in a tolerance test", "anchors": ["misfit/model/kin_model.py: KinModel2D.model_redchisq", "misfit/model/kin_model.py: KinModel2D.model_redchisq_no_weight"]}
{"id": "C84", "title": "Brightness of the light profile does not matter to a fit", "statement": "Two series of make_model and update_model calls that differ only by a positive factor on the light profile raise the same exceptions and leave the same parameters, image and log-likelihood, and the log-posterior of every point is the same. A whole sampling run with the same random numbers returns the same samples and log-probabilities or ends in the same exception.", "quantifier": "every kinematic model object that scales its model to the data, every series of calls, every positive factor, every spectrum with a list of sky-free columns whatever its flux and errors (NaN, infinite and zero errors included), every set of bounds and every point", "why_tests_cant": "quantifies over all call histories and profiles", "anchors": ["misfit/model/kin_model.py: KinModel2D.make_model", "misfit/model/kin_model.py: KinModel2D.update_model", "misfit/model/kin_model.py: KinModel2D.scale_model", "misfit/fit/fit_core.py: lnprob, _run_mcmc_emcee_221, _run_mcmc_emcee_3"]}
{"id": "C85", "title": "The posterior is a function of the fitting vector", "statement": "With centre shift and redshift fixed, evaluating the model at a vector gives the exception, parameters, image, log-likelihood and log-posterior a new object would give on its first evaluation there, whatever vectors were evaluated before.", "quantifier": "every galaxy, profile, parameter set, every history of make_model and update_model calls, every vector", "why_tests_cant": "needs all call histories; a stale cache shows only for particular orders", "anchors": ["misfit/model/kin_model.py: KinModel2D.make_model", "misfit/model/kin_model.py: KinModel2D.update_model", "misfit/fit/fit_core.py: lnprob"]}
{"id": "C86", "title": "The likelihood responds to centre shift and redshift when they are free", "statement": "If centre shift and redshift are declared free parameters, evaluating the model at a different redshift gives the image of that redshift.", "quantifier": "every kinematic model object with five free parameters", "why_tests_cant": "the missing response looks like a poorly constrained parameter, not like a failure", "anchors": ["misfit/model/kin_model.py: KinModel2D.update_model", "misfit/model/aper_model.py: AperModel2D.update_model"]}
{"id": "C87", "title": "make_model uses the galaxy it is given", "statement": "make_model(galaxy, instrument) leaves the object holding the model of that galaxy and instrument.", "quantifier": "every object state, galaxy, instrument and vector", "why_tests_cant": "tests build one model per object; only reuse of an object shows the difference", "anchors": ["misfit/model/kin_model.py: KinModel2D.make_model"]}
{"id": "C88", "title": "A failing call leaves the object unchanged", "statement": "If make_model or update_model raises, the parameters of the object are those before the call.", "quantifier": "every object state and vector", "why_tests_cant": "state after an exception is rarely inspected", "anchors": ["misfit/model/kin_model.py: KinModel2D.update_model", "misfit/model/kin_model.py: KinModel2D.update_theta"]}
{"id": "C89", "title": "Box integration averages the old pixels", "statement": "box_integrate gives each new pixel the average of the old piecewise constant function over the new pixel; where the new grid extends beyond the old one the missing data count as zero.", "quantifier": "all equally spaced old and new grids with at least two pixels, all values", "why_tests_cant": "wrong only for particular relative positions of the grids; plots hide a factor", "anchors": ["misfit/plot/plot_image_slit.py: box_integrate"]}
{"id": "C90", "title": "Signs from a position angle", "statement": "The y (x) sign for a position angle is the sign of its cosine (sine); angles given as plain Python floats above 180 or between -180 and 0 degrees raise AttributeError.", "quantifier": "all numpy angles between -450 and 450 degrees (y), -360 and 540 degrees (x), all plain angles from -180 degrees", "why_tests_cant": "continuum of angles with special cases at multiples of 90 degrees", "anchors": ["misfit/plot/plot_utils.py: sign_from_pos_angle", "misfit/plot/plot_utils.py: y_sign_pos_angle", "misfit/plot/plot_utils.py: x_sign_pos_angle"]}
{"id": "C91", "title": "Position angle on the sky", "statement": "pos_angle returns the angle, from north through east, of the direction in which the second position is seen from the first: the argument of north component plus i times east component of the second position's unit vector. Unknown units raise ValueError.", "quantifier": "all pairs of positions, the second not at a pole", "why_tests_cant": "continuum of positions, quadrant errors", "anchors": ["misfit/plot/plot_utils.py: pos_angle"]}
{"id": "C92", "title": "Rotation of corner coordinates", "statement": "Rotating coordinates about a centre fixes the centre, keeps distances, composes by adding angles and is counter-clockwise for positive angles; several corners come back in order, one corner as two scalars, none raises IndexError.", "quantifier": "all points, centres, angles and lists of corners", "why_tests_cant": "algebraic law for all angles", "anchors": ["misfit/plot/plot_utils.py: rot_coord_angle", "misfit/plot/plot_utils.py: rot_corner_coords"]}
{"id": "C93", "title": "Orientation of a postage stamp", "statement": "pstamp_position_angle is the argument of CD2_2 + i CD2_1 in degrees, and 0 without both header entries.", "quantifier": "all header values", "why_tests_cant": "wrong on a half line only", "anchors": ["misfit/plot/plot_utils.py: pstamp_position_angle"]}
{"id": "C94", "title": "The stamp's PSF is centred on the object", "statement": "convolve_rot_gal centres the PSF at the position of the object on the rotated stamp.", "quantifier": "all slit and image position angles and object positions", "why_tests_cant": "invisible for objects in the middle of the stamp or images oriented north up", "anchors": ["misfit/plot/plot_utils.py: convolve_rot_gal", "misfit/plot/plot_utils.py: rotate_pstamp"]}
{"id": "C95", "title": "Reported object position and window", "statement": "Whatever the profile fits return, the reported row plus fraction is the position of the first fit or the given position, the fraction is at most half a row, the window is symmetric about the reported row (with dither it ends half way to the negative images to within 3/2 rows), and unless the check is skipped the row is at most two rows from the given position. With at least 15 rows a position is always reported.", "quantifier": "all row S/N arrays, fit results, given positions, pixel scales, with and without dither", "why_tests_cant": "quantifies over all results of the external fits and all rounding cases", "anchors": ["misfit/general/galaxy_utils.py: vert_position"]}
{"id": "C96", "title": "The reported peak S/N belongs to the reported row", "statement": "vert_position reports the S/N of the row it reports as object position.", "quantifier": "all S/N arrays and fit results", "why_tests_cant": "negative indices do not raise; wrong only near the edges after trimming", "anchors": ["misfit/general/galaxy_utils.py: vert_position"]}
{"id": "C97", "title": "The object position is optional", "statement": "vert_position works without a given position (ypos=None, the default).", "quantifier": "all S/N arrays and fit results", "why_tests_cant": "fails only on the branch for too narrow or too wide windows", "anchors": ["misfit/general/galaxy_utils.py: vert_position"]}
{"id": "C98", "title": "Centre shift and line centre stay plausible", "statement": "After any number of get_m0_lam0_pos calls with any fit results, the object position is m0 itself, or on the detector within two rows of the extraction position, or within two rows of m0 for a detection of S/N at least 3; the line centre is the initial one or lies in the middle half of the wavelength range. After position search and trimming the centre shift is at most 4 rows.", "quantifier": "all spectra, all fit results, all numbers of calls", "why_tests_cant": "quantifies over all results of the external fits and call histories", "anchors": ["misfit/general/galaxy_utils.py: get_m0_lam0_pos_2D", "misfit/general/galaxy_utils.py: vert_position", "misfit/general/galaxy_utils.py: trim_spectrum_2D_spatial"]}
{"id": "C99", "title": "The measured spatial extent is complete or flagged", "statement": "fit_emission_y_profile either stores -99 for every quantity, or a non-negative D50 with D50^2 + FWHM_psf^2 = (observed FWHM)^2, and D50 = 0 if the observed profile is narrower than the PSF. With a fitting routine that does not fail the extent is measured exactly if a row is usable and the usable rows cover 0.8 FWHM of the PSF.", "quantifier": "all spectra, all results of the fitting routine, all noise realisations", "why_tests_cant": "quantifies over all results of an external optimiser and random draws", "anchors": ["misfit/general/galaxy_utils.py: fit_emission_y_profile"]}
{"id": "C100", "title": "The extent is not wider than the fitted window", "statement": "If the fitting routine respects its bounds, the observed full width at half maximum is at most the length of the fitted window, and D50 at most the observed one.", "quantifier": "all spectra, all bound-respecting fitting routines", "why_tests_cant": "needs the refit branch for every possible first result", "anchors": ["misfit/general/galaxy_utils.py: fit_emission_y_profile"]}
{"id": "C101", "title": "Masked rows do not influence the extent", "statement": "Changing image, error or sky mask values in rows that are masked for low S/N does not change the measured extent.", "quantifier": "all spectra and fitting routines", "why_tests_cant": "the influence is through the starting amplitude, and through NaN in masked rows", "anchors": ["misfit/general/galaxy_utils.py: fit_emission_y_profile", "misfit/general/general_utils.py: gaus_residual_mask"]}
{"id": "C102", "title": "Measuring the extent never raises", "statement": "A spectrum whose extent cannot be measured is flagged with -99; fit_emission_y_profile raises no exception.", "quantifier": "all spectra and fitting routines", "why_tests_cant": "fails only for images with a single usable row", "anchors": ["misfit/general/galaxy_utils.py: fit_emission_y_profile"]}
{"id": "C103", "title": "Fits of the extent start away from their bounds", "statement": "The starting values handed to the optimiser lie inside the bounds, and the width of the second fit not on its upper bound.", "quantifier": "all spectra", "why_tests_cant": "the start value is moved silently into the bounds", "anchors": ["misfit/general/galaxy_utils.py: fit_emission_y_profile"]}
{"id": "C104", "title": "Errors of the extent are consistent", "statement": "The errors of D50 are the errors of the intrinsic width times the FWHM factor, lower and upper limit are ordered and the lower limit of the intrinsic width is not negative.", "quantifier": "all spectra, fitting routines and noise realisations", "why_tests_cant": "random realisations", "anchors": ["misfit/general/galaxy_utils.py: fit_emission_y_profile"]}
{"id": "C105", "title": "The amplitude of the Gaussian profile is its integral", "statement": "gaus_simple is symmetric, largest at its centre and integrates to its amplitude; widths that are not positive give NaN; the three-image profile is symmetric.", "quantifier": "all amplitudes, centres and widths", "why_tests_cant": "an integral over the real line for all widths", "anchors": ["misfit/general/general_utils.py: gaus_simple, vert_triple_gaus_profile"]}
{"id": "C106", "title": "The data cube has one spaxel per pixel", "statement": "make_3D_int_model returns a cube with one spectrum per pixel of the square field; each spaxel holds the light of its subpixels, and adding a row of spaxels gives that row of the slit image.", "quantifier": "all galaxies, instruments, parameters and numbers of subpixels", "why_tests_cant": "depends on divisibility of padded sizes; a test picks one instrument", "anchors": ["misfit/model/kin_model.py: make_3D_int_model", "misfit/model/kin_functions.py: rebin"]}
{"id": "C107", "title": "Updating the data cube is the same as making it", "statement": "update_3D_int_model with the parameters of make_3D_int_model stores the same cube, whatever updates happened in between.", "quantifier": "all parameters and sequences of updates", "why_tests_cant": "unbounded sequences of calls", "anchors": ["misfit/model/kin_model.py: make_3D_int_model, update_3D_int_model"]}
{"id": "C108", "title": "A data cube can be made again", "statement": "make_3D_int_model may be called again on the same object with other parameters and then holds the cube of these parameters.", "quantifier": "all objects with an aperture model, all parameters", "why_tests_cant": "the failure is independent of the values and a test of a single call does not see it", "anchors": ["misfit/model/kin_model.py: make_3D_int_model"]}
{"id": "C109", "title": "Every sample of a run lies inside the prior bounds", "statement": "Every entry of the flattened chain returned by run_mcmc lies inside the closed prior bounds of every varying parameter.", "quantifier": "all emcee versions, options, bounds, likelihoods (including NaN and infinite values), random draws, proposals and numbers of burn-in and production steps", "why_tests_cant": "random chains of unbounded length; a single accepted sample outside the bounds would be a rare event", "anchors": ["misfit/fit/fit_core.py: run_mcmc, init_walker_pos, lnprob", "misfit/model/kin_classes.py: ThetaPriorFlat.log_prior"]}
{"id": "C110", "title": "Stored log-probabilities belong to the stored samples", "statement": "In the dictionary returned by run_mcmc the k-th flattened log-probability is the value of the posterior at the k-th flattened sample, and both arrays have the same length.", "quantifier": "all options, likelihoods, draws and proposals", "why_tests_cant": "positions and probabilities are handed from step to step and from burn-in to production; unbounded number of steps", "anchors": ["misfit/fit/fit_core.py: run_mcmc", "misfit/fit/fit_io.py: make_emcee_sampler_dict"]}
{"id": "C111", "title": "A run returns one sample for each walker and each of its production steps", "statement": "The samples returned by run_mcmc are those of the production steps of this run, one for each walker and step: their number is the number of walkers times the reported number of finished steps.", "quantifier": "all emcee versions, options and contents of the output file", "why_tests_cant": "depends on the early stop, on burn-in and on what earlier runs left in the file", "anchors": ["misfit/fit/fit_core.py: _run_mcmc_emcee_221, _run_mcmc_emcee_3"]}
{"id": "C112", "title": "A run that can sample returns its samples", "statement": "If the likelihood raises nothing, bounds are set and at least one step is requested, run_mcmc returns the samples, on any number of processes.", "quantifier": "all emcee versions, options, numbers of CPUs, likelihoods without exceptions", "why_tests_cant": "the outcome depends on the machine and on the installed emcee", "anchors": ["misfit/fit/fit_core.py: _run_mcmc_emcee_221, _run_mcmc_emcee_3"]}
{"id": "C113", "title": "Credible limits of a run lie inside the prior bounds", "statement": "For every varying parameter the lower and upper one and two sigma limits computed from the samples of a new run exist, are nested and lie inside the prior bounds of the parameter.", "quantifier": "all runs that start a new chain, all varying parameters", "why_tests_cant": "random chains of unbounded length", "anchors": ["misfit/fit/fit_core.py: run_mcmc, get_param_posterior_bestfits"]}
{"id": "C114", "title": "Scaling and chi-square do not depend on the flux unit", "statement": "If flux and flux error are multiplied by a positive number, the model scaled to the data is multiplied by the same number, chi-square and reduced chi-square (with and without weights) do not change, and the log-likelihood changes by a constant that does not depend on the model.", "quantifier": "all images (including NaN, infinite values, zero errors), all finite masks, all weights, all positive factors", "why_tests_cant": "all factors and all images, including the exceptional values where cancellation is not obvious", "anchors": ["misfit/model/kin_model.py: scale_model, model_chisq, model_redchisq, model_llike"]}
{"id": "C115", "title": "The model object does not depend on the flux unit", "statement": "Two series of calls of make_model and update_model on data that differ only by a positive factor on flux and error raise the same exceptions call by call, leave the same parameters and the same image up to the factor, and the log-posterior differs by a constant.", "quantifier": "all galaxies with sky-free columns, all instruments, all parameters, all series of calls", "why_tests_cant": "unbounded series of calls, all factors", "anchors": ["misfit/model/kin_model.py: make_model, update_model", "misfit/fit/fit_core.py: lnprob"]}
{"id": "C116", "title": "A sampling run does not depend on the flux unit", "statement": "With the same random numbers a run of the sampler on data in another flux unit ends in the same exception or returns the same samples, with all log-probabilities changed by one constant.", "quantifier": "all data, units, starting positions, proposals, thresholds and options of runs that start a new chain", "why_tests_cant": "random chains of unbounded length", "anchors": ["misfit/fit/fit_core.py: run_mcmc, lnprob", "misfit/model/kin_model.py: update_model"]}
{"id": "C117", "title": "Setting up a 2D fit starts afresh", "statement": "Whatever was done before with a 2D fit object (set-ups, evaluations, fits, analyses, failing calls), its settings and data are those given by the user and setting it up ends exactly as for the new object: same exception, or same model, prior and linked parameters.", "quantifier": "every fit object and every sequence of calls", "why_tests_cant": "unbounded call histories including failures", "anchors": ["misfit/fit/fit2D.py: setup_model, fit, analyze_results, reload_results, set_bestfit"]}
{"id": "C118", "title": "The prior follows the settings", "statement": "After a 2D fit has been set up, its default prior is the flat prior described by its current settings, also after new settings were given.", "quantifier": "every pair of settings and every fitting vector", "why_tests_cant": "depends on earlier settings of the same object", "anchors": ["misfit/fit/fit2D.py: setup_model, fit", "misfit/model/kin_classes.py: ThetaPriorFlat"]}
{"id": "C119", "title": "Reloading saved samples reproduces the results", "statement": "Reloading the results of a finished fit from its sample file gives the results and the best-fit model of the fit.", "quantifier": "every fit object, sampler run and peak search", "why_tests_cant": "all runs; in-place changes of the stored samples", "anchors": ["misfit/fit/fit2D.py: fit, reload_results, analyze_results", "misfit/fit/fit_core.py: get_chain_results, add_v_re_22"]}
{"id": "C120", "title": "The stored best-fit model is a snapshot", "statement": "The best-fit model stored for a vector has the parameters and image of a first evaluation at that vector, whatever was evaluated before, and keeps them whatever is evaluated or saved later.", "quantifier": "every sequence of evaluations before and after", "why_tests_cant": "aliasing over unbounded call sequences", "anchors": ["misfit/fit/fit2D.py: set_bestfit, make_model, update_model", "misfit/model/kin_model.py: make_model, copy"]}
{"id": "C121", "title": "Any finished run can be analysed", "statement": "Whichever kinematic parameters are held fixed, a fit whose sampling succeeded returns its results.", "quantifier": "every choice of fixed parameters, every chain, every peak search", "why_tests_cant": "all chains of all lengths", "anchors": ["misfit/fit/fit_core.py: get_chain_results, add_v_re_22", "misfit/general/general_utils.py: find_peak_gaussian_KDE"]}
{"id": "C122", "title": "A saved fit can be restored and used", "statement": "Loading a saved fit restores data, settings, options, prior and results, and the restored fit can be run and saved again.", "quantifier": "every fit object and every later run", "why_tests_cant": "all states of the object", "anchors": ["misfit/fit/fit2D.py: save_bestfit_model, make_pruned_fitEmis2D_result_class, reload_bestfit_model"]}
{"id": "C123", "title": "Results belong to one fit", "statement": "The results attribute of a fit object always contains the results of the last analysis of that object, whatever other fits are created and analysed.", "quantifier": "every sequence of creations and analyses of any number of fits", "why_tests_cant": "arbitrary interleavings over any number of objects", "anchors": ["misfit/fit/fit2D.py: FitEmissionLines2D.__init__", "misfit/fit/fit_core.py: get_chain_results"]}
{"id": "C124", "title": "The dispersion floor replaces exactly the dispersions below it", "statement": "With the dispersion floor switched on, a model equals the model without floor evaluated at the same parameters if the absolute dispersion is at least the floor, and at the floor otherwise; the floor is the dispersion of one data pixel, or three quarters of that of one refined pixel when the wavelength grid may be refined.", "quantifier": "every configuration with a wavelength or velocity axis and every parameter vector", "why_tests_cant": "all configurations and parameters", "anchors": ["misfit/model/aper_model.py: setup_calcs, calculate_spectral_cube, check_do_upsample_wave"]}
{"id": "C125", "title": "The best fit lies inside the prior", "statement": "The best-fit value of every sampled parameter lies between the smallest and largest sample of that parameter (with absvalsigma, for the dispersion, of the absolute values of its samples), also after a joint analysis of linked parameters; so without absvalsigma, if the prior accepts every sample it accepts the best fit.", "quantifier": "every chain, every list of linked parameter sets, every kernel bandwidth, every peak search that stops at a local maximum of the kernel density estimate", "why_tests_cant": "all chains, in any number of dimensions", "anchors": ["misfit/general/general_utils.py: find_peak_gaussian_KDE, find_peak_gaussian_KDE_multiD, get_bestfit_values_linked", "misfit/fit/fit_core.py: get_param_posterior_bestfits"]}
{"id": "C126", "title": "A prepared spectrum is a cut-out of the original with exactly the good pixels in use", "statement": "When a 2D spectrum that has not been prepared before is prepared successfully, the result consists of consecutive rows and, in order, exactly those columns of the original whose wavelength lies in both the full range and the line range (given by the user or read from the tables for the first line). Wavelengths and weights are the original ones; a pixel takes part in the fit exactly if it was usable (not masked, finite flux and error, nonzero weight, not masked through the 1D spectrum) and its row is kept; kept rows reach the S/N cut; flux and error at such a pixel are the original ones (the flux less the finite continuum model); everything is finite; the position of the object moves with the rows, the row limits are those of the cut-out and the measured row is at most two rows from the position.", "quantifier": "every spectrum, galaxy and outcome of the numerical fits for which the preparation returns", "why_tests_cant": "all data, masks, ranges and fit results; pixelwise characterisation", "anchors": ["misfit/galaxy.py: ObsSpectrum2D.fit_prep_calcs", "misfit/general/galaxy_utils.py: subtract_continuum_2D, trim_spectrum_2D_wavelength, trim_spectrum_2D_spatial, get_low_snr_mask_2D"]}
{"id": "C127", "title": "Columns dominated by sky lines are found and left out of the fit", "statement": "Preparing a 2D spectrum marks exactly the columns whose noise reaches the sky level times the median noise, and the mask used in the fit (missing data, sky, low S/N combined) excludes them.", "quantifier": "every spectrum with a given sky level for which the preparation returns", "why_tests_cant": "all noise patterns and sky levels", "anchors": ["misfit/galaxy.py: ObsSpectrum2D.fit_prep_calcs, get_skyline_mask", "misfit/general/galaxy_utils.py: get_skyline_mask_2D, mask_skylines_2D"]}
{"id": "C128", "title": "A complete spectrum can be prepared whatever the fits return", "statement": "A 2D spectrum of at least 15 rows with a column inside its wavelength ranges, whose lines, ranges, sky level, object position and weighting are known, of a galaxy with redshift and known (or computable) misalignment, is prepared without exception, marked as prepared and attached to the galaxy; the continuum must have been subtracted before, or there must be a 1D spectrum with the same columns and straight-line fits must give finite numbers.", "quantifier": "every such spectrum and galaxy, every outcome of the position, weight and centre fits", "why_tests_cant": "all data and all outcomes of the numerical routines", "anchors": ["misfit/galaxy.py: ObsSpectrum2D.fit_prep_calcs"]}
{"id": "C129", "title": "A failed preparation can be repeated", "statement": "If the preparation of a 2D spectrum raises because the misalignment is unknown and there is no postage stamp, then after setting the misalignment a second call gives the same result as if the misalignment had been set from the beginning.", "quantifier": "every preparable spectrum without misalignment and stamp", "why_tests_cant": "all spectra; state left by an exception", "anchors": ["misfit/galaxy.py: ObsSpectrum2D.fit_prep_calcs", "misfit/general/galaxy_utils.py: trim_spectrum_2D_spatial"]}
{"id": "C130", "title": "Preparing a 2D spectrum leaves the 1D spectrum alone", "statement": "Preparing a 2D spectrum of a galaxy does not change wavelengths, fluxes and errors of the galaxy's 1D spectrum, so a second 2D spectrum of the same galaxy can be prepared as well.", "quantifier": "every spectrum and galaxy for which the preparation returns", "why_tests_cant": "aliasing between objects, for all spectra", "anchors": ["misfit/general/galaxy_utils.py: subtract_continuum_2D", "misfit/galaxy.py: ObsSpectrum2D.fit_prep_calcs"]}
{"id": "C131", "title": "1D fits keep the redshift within its window", "statement": "Whatever sequence of fits is made with a 1D fit object, with a minimiser that respects its bounds, the redshift of the object and every redshift in a Monte Carlo matrix that is written keep the first line within del_obs_lam of its place at the galaxy's redshift.", "quantifier": "every fit object with positive first rest wavelength, every sequence of fit calls, every minimiser that respects bounds", "why_tests_cant": "unbounded sequences of fits and all minimisers", "anchors": ["misfit/fit/fit1D.py: FitEmissionLines1D.make_params", "misfit/fit/fit1D.py: FitEmissionLines1D.fit"]}
{"id": "C132", "title": "1D errors are the distances to the Monte Carlo percentiles", "statement": "When a 1D fit with error estimation leaves errors on the object, the Monte Carlo matrix is in the given file, and the lower and upper error of the redshift, the dispersion, each flux and each continuum coefficient are the distances of the best fit to the 15.865th and 84.135th percentile of the corresponding column.", "quantifier": "every galaxy, fit object, fit call, file system and minimiser", "why_tests_cant": "all spectra, all random draws, all numbers of lines and coefficients", "anchors": ["misfit/fit/fit1D.py: FitEmissionLines1D.fit"]}
{"id": "C133", "title": "1D error bars are not negative", "statement": "Lower and upper errors of the results of a 1D fit are non-negative.", "quantifier": "every 1D fit with errors and every minimiser that respects bounds", "why_tests_cant": "depends on the random draws of the Monte Carlo realisations", "anchors": ["misfit/fit/fit1D.py: FitEmissionLines1D.fit"]}
{"id": "C134", "title": "The 1D fit uses the lines it was given", "statement": "The lines fitted are those recorded on the 1D fit object (linenames_arr, restwave_arr), also when they were given by the user.", "quantifier": "every fit object, all line names and rest wavelengths", "why_tests_cant": "all line lists and all spectra", "anchors": ["misfit/fit/fit1D.py: FitEmissionLines1D.setAttr", "misfit/fit/fit1D.py: FitEmissionLines1D.fit"]}
{"id": "C135", "title": "Two 1D fit objects on one galaxy are independent", "statement": "Making a second 1D fit object on a galaxy does not change what fits of the first one do.", "quantifier": "every galaxy, all options of both objects, every later fit call", "why_tests_cant": "shared mutable state, for all options", "anchors": ["misfit/fit/fit1D.py: FitEmissionLines1D.setup_spectrum", "misfit/fit/fit1D.py: FitEmissionLines1D.fit"]}
{"id": "C136", "title": "Changing an option keeps the results of a 1D fit", "statement": "setAttr with some options leaves the results that were fitted before (redshift, dispersion, fluxes, continuum, errors) as they were.", "quantifier": "every fit object in any state, all options that are not results", "why_tests_cant": "all states of the object", "anchors": ["misfit/fit/fit1D.py: FitEmissionLines1D.setAttr"]}
{"id": "C137", "title": "Options changed on a 1D fit object take effect at the next fit", "statement": "A wavelength range, continuum order or number of Monte Carlo realisations given to setAttr after construction is the one used by the next fit.", "quantifier": "every fit object in any state, all values of these options, every later fit call", "why_tests_cant": "all states and values", "anchors": ["misfit/fit/fit1D.py: FitEmissionLines1D.setAttr", "misfit/fit/fit1D.py: FitEmissionLines1D.fit"]}
{"id": "C138", "title": "The stored 1D model is the fitted model", "statement": "At the pixels that are not masked, the model spectrum stored by the 1D fit (final_model) agrees with the model that was compared to the data in the fit, at the best-fit parameters.", "quantifier": "all parameters, lines, wavelengths and masks", "why_tests_cant": "all masks and wavelength grids", "anchors": ["misfit/fit/fit1D.py: FitEmissionLines1D.fit", "misfit/model/emission_lines_model.py: EmissionLinesSpectrum1DModel.residual1DProfile", "misfit/model/emission_lines_model.py: gaussian_line"]}
{"id": "C139", "title": "Explicit line attributes of a 1D line model are kept", "statement": "Rest wavelengths or flux ratios given to a 1D line model are the ones it uses.", "quantifier": "all names, wavelengths and ratios, given alone or together", "why_tests_cant": "all combinations of given and missing attributes with all values", "anchors": ["misfit/model/emission_lines_model.py: EmissionLines1DModel.setAttr"]}
{"id": "C140", "title": "Every documented line group can be set up for a 1D fit", "statement": "A 1D fit object can be made for every list of catalogued line groups on a galaxy with redshift and a 1D spectrum that covers the range of the first group; its spectrum then has exactly the pixels of that range.", "quantifier": "every list of catalogued groups, every galaxy and spectrum", "why_tests_cant": "all spectra and line lists", "anchors": ["misfit/fit/fit1D.py: FitEmissionLines1D.setAttr", "misfit/fit/fit1D.py: FitEmissionLines1D.setup_spectrum", "misfit/general/galaxy_utils.py: trim_spectrum_1D"]}
{"id": "C141", "title": "Monte Carlo rows are fits to noisy copies of the spectrum", "statement": "The error file written by a 1D fit holds one row per realisation; each row is what the minimiser finds, starting from the stored best fit, for the fitted spectrum with every flux changed by its own error times its own random number (wavelengths, errors and mask unchanged). No other file changes.", "quantifier": "every spectrum, object, option combination, minimiser and random numbers", "why_tests_cant": "random numbers and minimiser results are unbounded", "anchors": ["misfit/fit/fit1D.py: FitEmissionLines1D.fit, save_mc_sim_matrix"]}
{"id": "C142", "title": "Monte Carlo fits obey the bounds of the best fit", "statement": "If the best 1D fit was made with dispersion or fluxes bounded at zero, the Monte Carlo fits are bounded in the same way, so saved dispersions are not negative.", "quantifier": "every spectrum and minimiser that respects bounds", "why_tests_cant": "depends on minimiser behaviour", "anchors": ["misfit/fit/fit1D.py: FitEmissionLines1D.fit"]}
{"id": "C143", "title": "A Monte Carlo matrix of another fit is refused", "statement": "When errors are reloaded from a file that belongs to a fit with other parameters, the 1D fit raises and stores no errors.", "quantifier": "every object, saved matrix and option combination", "why_tests_cant": "all pairs of fits and shapes of matrices", "anchors": ["misfit/fit/fit1D.py: FitEmissionLines1D.fit, load_mc_sim_matrix"]}
{"id": "C144", "title": "Too few pixels are refused", "statement": "A 1D fit to a trimmed spectrum with fewer good pixels than fit parameters raises; redshift, dispersion, fluxes, errors and files stay as they were.", "quantifier": "every object, galaxy, option combination and set of files", "why_tests_cant": "all masks, all states of the object", "anchors": ["misfit/fit/fit1D.py: FitEmissionLines1D.fit", "misfit/model/emission_lines_model.py: residual1DProfile"]}
{"id": "C145", "title": "The adaptive sampling factor is used for data cubes", "statement": "make_3D_int_model with adaptive sampling uses the sampling factor set in the model options.", "quantifier": "all models, options and parameters", "why_tests_cant": "needs the comparison of all factors", "anchors": ["misfit/model/kin_model.py: make_3D_int_model, KinModel2DOptions"]}
{"id": "C146", "title": "Reversing the rotation mirrors the spectra about the line", "statement": "For one emission line in the middle of an equally spaced wavelength (or velocity) array, evaluating the 2D model with the asymptotic velocity -Va gives the image for Va with every spectrum reversed; an evaluation that raises raises the same exception for both. It holds for a new model and after any evaluations.", "quantifier": "all geometries, PSFs, resolutions, row numbers, sampling and floor options, light distributions, parameters with non-zero dispersion, histories of evaluations", "why_tests_cant": "all option combinations, all parameters, all array sizes and all histories", "anchors": ["misfit/model/kin_model.py: KinModel2D.update_model", "misfit/model/aper_model.py: AperModel2D"]}
{"id": "C147", "title": "A centred disc gives a point-symmetric image", "statement": "For one emission line in the middle of the wavelength array and an object in the middle of slit and rows, each spectrum of the model image is the reversed spectrum of the row as far on the other side of the middle.", "quantifier": "all geometries, PSFs, resolutions, row and subpixel numbers, options, light distributions symmetric about the disc plane, parameters with non-zero dispersion", "why_tests_cant": "all sizes, options and parameters; the failure depends on the parity of the subpixel numbers", "anchors": ["misfit/model/aper_model.py: AperModel2D", "misfit/model/kin_functions.py: PSF_convolve"]}
{"id": "C148", "title": "A PSF of zero width leaves the image unblurred", "statement": "With PSF_FWHM = 0 the 2D slit model returns the image without any blurring by the point spread function, whichever PSF type the instrument has and whatever its other settings.", "quantifier": "all PSF types and settings, all geometries, sizes, light distributions and parameters", "why_tests_cant": "zero width is a boundary value that the two PSF classes reach by different formulas; all set-ups", "anchors": ["misfit/instrument.py: PSFMoffat, PSFGaussian", "misfit/model/aper_model.py: AperModel2D.setup_calcs"]}
{"id": "C149", "title": "Every physical set-up has a finite, positive model image", "statement": "For positive sizes, light everywhere, equally spaced wavelengths, positive dispersion and any PSF width, building and evaluating the 2D slit model returns an image of the shape of the data in which every pixel is finite and positive.", "quantifier": "all row, subpixel and wavelength numbers, slit widths, PSF widths and types, resolutions, sampling and floor options, geometries, parameters, histories of evaluations", "why_tests_cant": "the failure depends on the relation of PSF width, subpixel size and the parity of the subpixel number; totality over all set-ups", "anchors": ["misfit/model/aper_model.py: AperModel2D", "misfit/model/kin_functions.py: PSF_convolve"]}
{"id": "C150", "title": "A mock slit observation has a finite, positive image of the requested size", "statement": "generate_mock_slit_obs with usable arguments and a PSF at least half a subpixel wide returns an image with max(nymin, ceil(slit_length/pixscale)) rows and one column per wavelength, every pixel of which is finite and positive, whatever mocks were generated before.", "quantifier": "all usable arguments, all six line groups and velocity axes, both PSF classes, all histories of earlier calls (with numpy < 1.24)", "why_tests_cant": "real-valued arguments and unbounded histories", "anchors": ["misfit/mock/generate_basic.py: generate_mock_basis, generate_mock_slit_obs"]}
{"id": "C151", "title": "A mock does not depend on earlier mocks", "statement": "Although all calls share one default profile object, the result of generate_mock_slit_obs (image or exception) is the same whatever calls, also failing ones, came before.", "quantifier": "all arguments, all pairs of histories", "why_tests_cant": "unbounded sequences of calls on shared mutable state", "anchors": ["misfit/mock/generate_basic.py: generate_mock_basis", "misfit/model/kin_classes.py: KinProfile.update_theta"]}
{"id": "C152", "title": "The mock honours dither and PSF_beta", "statement": "dither=True adds the negative images of the object, and PSF_beta changes the wings of a Moffat PSF.", "quantifier": "all usable arguments", "why_tests_cant": "an argument that is silently ignored passes any test that does not look for its effect", "anchors": ["misfit/mock/generate_basic.py: generate_mock_basis", "misfit/instrument.py: Instrument"]}
{"id": "C153", "title": "A mock without slit length, PSF type, position or line group raises", "statement": "Leaving slit_length, PSF_type or yshift, or for wavelength axes linegroup_name, at its default None raises an exception: TypeError, AttributeError, TypeError and ValueError respectively when everything else is usable. No image is returned.", "quantifier": "all other arguments, all histories", "why_tests_cant": "quantifies over all values of the other arguments", "anchors": ["misfit/mock/generate_basic.py: generate_mock_basis", "misfit/instrument.py: Instrument.__init__", "misfit/model/aper_model.py: setup_model_grid"]}
{"id": "C154", "title": "Reversed rotation mirrors a mock", "statement": "With the only line (or velocity zero) in the middle of an equally spaced axis, generating the mock with -Va gives the image of Va with every row reversed, or the same exception.", "quantifier": "all arguments with a non-zero dispersion, all histories", "why_tests_cant": "real-valued arguments", "anchors": ["misfit/mock/generate_basic.py: generate_mock_slit_obs"]}
{"id": "C155", "title": "A centred mock is symmetric about its centre", "statement": "With yshift = 0 and the only line in the middle of the axis, the image is unchanged by turning it by 180 degrees, if there is no PSF or the numbers of subpixels along and across the slit are odd.", "quantifier": "all usable arguments, inclinations, position angles and histories", "why_tests_cant": "real-valued arguments", "anchors": ["misfit/mock/generate_basic.py: generate_mock_basis, generate_mock_slit_obs"]}
{"id": "C156", "title": "An axis ratio above one is rejected", "statement": "generate_mock_slit_obs with q > 1 raises.", "quantifier": "all usable arguments with q > 1", "why_tests_cant": "quantifies over all axis ratios; the NaN image only shows where it is looked at", "anchors": ["misfit/mock/generate_basic.py: generate_mock_slit_obs", "misfit/model/kin_functions.py: sin_i"]}
{"id": "C157", "title": "A mock data cube has one spectrum per pixel", "statement": "generate_mock_IFU_cube with usable arguments returns a cube with one spectrum per pixel of a square field as large as the slit is long.", "quantifier": "all usable arguments, all histories", "why_tests_cant": "depends on divisibility of padded sizes; a test picks one instrument", "anchors": ["misfit/mock/generate_basic.py: generate_mock_IFU_cube", "misfit/model/kin_model.py: make_3D_int_model"]}
{"id": "C158", "title": "The true parameters reproduce a mock exactly", "statement": "A slit model set up with the galaxy, spectrograph and options of a wavelength mock, whatever parameters are free and wherever the object starts: make_model with the true values of the free parameters gives exactly the mock as its image, with and without scaling to the data; the chi-square is zero, and no other values of the free parameters with a finite image have a higher likelihood.", "quantifier": "all usable mock arguments, all histories of mocks, all choices of free parameters and starting values, all errors, 0/1 masks and non-negative weights", "why_tests_cant": "quantifies over real-valued arguments and over all competing parameter values", "anchors": ["misfit/mock/generate_basic.py: generate_mock_slit_obs", "misfit/model/kin_model.py: make_model, model_llike"]}
{"id": "C159", "title": "The effective dispersion is a mean of local dispersions", "statement": "sigma_e_dispersion is finite, positive and between the smallest and largest local dispersion inside the outer radius; inside the radius of normalisation it is at least 1 for a dispersion that falls outwards and at most 1 for one that rises.", "quantifier": "all slopes, core sizes, radii and Sersic indices, with exact integrals", "why_tests_cant": "real-valued profile parameters", "anchors": ["misfit/model/kin_functions.py: sigma_e_dispersion, sigsq_I_circ_nosee_integrand, I_circ_nosee_integrand"]}
{"id": "C160", "title": "Constructors of galaxies, spectra and instruments honour their keywords", "statement": "A new Galaxy, ObsSpectrum1D, ObsSpectrum2D, Pstamp, PSFGaussian, Spectrograph or KinModel2DOptions has, for each documented attribute, the value given by keyword or else the documented default; unknown keywords have no effect.", "quantifier": "all keyword sets, all attribute names", "why_tests_cant": "parent constructors set and reset the same attributes; a test checks single keywords, not every combination", "anchors": ["misfit/galaxy.py: GalaxyBasic, Galaxy, Spectrum, ObsSpectrum, ObsSpectrum1D, ObsSpectrum2D, Pstamp", "misfit/instrument.py: PSFGaussian, Instrument, Spectrograph", "misfit/model/kin_model.py: KinModel2DOptions"]}
{"id": "C161", "title": "Attaching a spectrum completes it", "statement": "set_spectrum_1D / set_spectrum_2D store the spectrum in the galaxy, leave its data and all other spectra alone, keep an existing mask and otherwise make one with a 1 for every pixel, and give it rest wavelengths that times 1+z are the observed ones. It fails exactly for a 1D spectrum with neither wavelengths nor mask. Attaching twice is the same as once.", "quantifier": "all spectra, galaxies, redshifts and other spectra in memory", "why_tests_cant": "arbitrary lengths, shapes and redshifts", "anchors": ["misfit/galaxy.py: set_spectrum_1D, set_spectrum_2D, load_basic_defaults, calculate_restwave"]}
{"id": "C162", "title": "Rest wavelengths follow the redshift of the galaxy", "statement": "The rest wavelengths of a galaxy's spectrum belong to the galaxy's redshift, also after the redshift is set or corrected, and when another galaxy uses the same spectrum.", "quantifier": "all spectra, redshifts and galaxies", "why_tests_cant": "depends on the order of calls and on sharing of objects", "anchors": ["misfit/galaxy.py: setAttr, calculate_restwave, set_spectrum_2D"]}
{"id": "C163", "title": "PSF settings given to an instrument are used", "statement": "An instrument has a PSF of the named type with the given width, dither distance and beta; unknown types are rejected; a width given later with setAttr is used.", "quantifier": "all keyword sets and PSF names", "why_tests_cant": "the name is free text; the silent fallback shows only with a misspelt name", "anchors": ["misfit/instrument.py: Instrument, Spectrograph, PSFGaussian, PSFMoffat, setAttr"]}
{"id": "C164", "title": "The weighted reference of the reduced chi-square", "statement": "model_redchisq_weight_ref is the weighted reduced chi-square of a model that misses every used pixel by exactly its error.", "quantifier": "all images, masks of 0 and 1, weights, numbers of free parameters", "why_tests_cant": "depends on masked pixels and weights of images of any size", "anchors": ["misfit/model/kin_model.py: model_redchisq_weight_ref, model_redchisq"]}
{"id": "C165", "title": "Preparing a spectrum does not depend on the flux unit", "statement": "Multiplying flux and errors of the 2D and 1D spectra by a positive number before fit_prep_calcs leads to the same exception, or to the same masks, sky columns, rows, weights, position, line centre and misalignment; flux and errors of unmasked pixels and the subtracted continuum are multiplied by that number.", "quantifier": "all positive factors, spectra of any size with non-negative masks and errors, settings, exact fit and median routines", "why_tests_cant": "any hidden absolute threshold or fill value at any of 21 stages breaks it; tests use one unit", "anchors": ["misfit/galaxy.py: fit_prep_calcs", "misfit/general/galaxy_utils.py: subtract_continuum, trim_spectrum_2D_wavelength, mask_skylines, mask_low_snr_rows, trim_spectrum_2D_spatial, calculate_2D_fit_weights, get_m0_lam0_pos"]}
{"id": "C166", "title": "Masked pixels do not influence the fit", "statement": "The chi-square that the 2D fit assigns to a model (scale the rows of the model to the data, then compare) depends only on the pixels whose mask is not zero; a cosmic ray in a pixel masked by the user has no effect.", "quantifier": "all image sizes, data, non-zero errors, masks, non-negative weights, models and sets of sky-free columns", "why_tests_cant": "it compares all values of a masked pixel; a test with a zero or typical value in the masked pixel sees no difference", "anchors": ["misfit/model/kin_model.py: KinModel2D.scale_model", "misfit/model/kin_model.py: _model_chisq"]}
{"id": "C167", "title": "The chi-square of a prepared spectrum does not depend on the flux unit", "statement": "If flux and errors of a spectrum are multiplied by a positive number before fit_prep_calcs, a model image obtains amplitudes multiplied by that number and the same chi-square.", "quantifier": "all positive factors, spectra of any size with non-negative masks and positive errors, settings, exact fit and median routines, model images", "why_tests_cant": "needs a bad pixel under the line, and the comparison of two runs in different units; the effect is small in usual units", "anchors": ["misfit/general/galaxy_utils.py: subtract_continuum_2D, spec_nan_masking", "misfit/galaxy.py: fit_prep_calcs", "misfit/model/kin_model.py: KinModel2D.scale_model"]}
{"id": "C168", "title": "The unit of angles has no effect on a fit", "statement": "Giving pixel scale, slit width, PSF width and dither, the effective radius and the turnover radius in another unit of angle multiplies every model image by the area of the unit, raises the same exceptions, and changes neither the scaled model, nor the likelihood, nor the posterior (with the bounds of the turnover radius in that unit). A whole sampling run in that unit, with starting points, proposals and bounds in it, returns the samples with the turnover radius in that unit and the same log-probabilities, or ends in the same exception.", "quantifier": "all positive unit factors, galaxies, instruments, PSF types, parameters, bounds and series of make and update calls, with and without adaptive sampling, and all runs of the sampler whose proposals follow the change of unit (stretch moves do)", "why_tests_cant": "it relates two full runs for every unit and every history; a grid or kernel size that depends on a number with a unit shows only for some factors", "anchors": ["misfit/model/aper_model.py: AperModel2D", "misfit/model/kin_model.py: KinModel2D.make_model, update_model, scale_model", "misfit/model/kin_functions.py: PSF_convolve, inst_convol_complete", "misfit/instrument.py: PSFGaussian, PSFMoffat", "misfit/fit/fit_core.py: lnprob, _run_mcmc_emcee_221, _run_mcmc_emcee_3"]}
{"id": "C169", "title": "The unit of wavelengths has no effect on a fit", "statement": "Giving the wavelength grid and the rest wavelengths in another unit divides every model image with non-zero dispersion by that unit, raises the same exceptions, and changes neither the scaled model, nor the likelihood, nor the posterior. A whole sampling run with the same random numbers returns the same samples and log-probabilities or ends in the same exception.", "quantifier": "all positive unit factors, galaxies, instruments, lines, parameters, bounds and series of make and update calls, with and without adaptive sampling", "why_tests_cant": "it relates two full runs for every unit and every history, including those that switch the wavelength sampling", "anchors": ["misfit/model/aper_model.py: AperModel2D", "misfit/model/kin_functions.py: add_sigma_collapse_z", "misfit/model/kin_functions.py: inst_convol_complete", "misfit/model/kin_model.py: KinModel2D", "misfit/fit/fit_core.py: lnprob, _run_mcmc_emcee_221, _run_mcmc_emcee_3"]}
{"id": "C170", "title": "Where the line is expected after the preparation", "statement": "After a successful fit_prep_calcs of a spectrum in wavelengths, lam0 is the redshifted rest wavelength of the first line or the fitted centre; a fitted centre is used exactly if it lies in the central half of the window and within a quarter of the window of the expected wavelength. The position offset is the fitted row minus the peak row if the fitted row is acceptable, and zero otherwise; the fit sees the sums of the unmasked fluxes.", "quantifier": "all spectra of any size, galaxies, settings and results of the fit routines", "why_tests_cant": "the accept/reject conditions depend on fit results that tests only reach for well behaved lines", "anchors": ["misfit/galaxy.py: fit_prep_calcs", "misfit/general/galaxy_utils.py: get_m0_lam0_pos_2D"]}
{"id": "C171", "title": "The angle between slit and galaxy after the preparation", "statement": "After a successful fit_prep_calcs a given misalignment angle is unchanged; a missing one is the difference of the position angles modulo 180 degrees, in (-90, 90) unless slit and galaxy are perpendicular, and is stored with its absolute value.", "quantifier": "all spectra, galaxies, position angles and results of the fit routines", "why_tests_cant": "the wrapping must hold for all position angles, and no later step may overwrite the angle", "anchors": ["misfit/galaxy.py: fit_prep_calcs", "misfit/general/galaxy_utils.py: calculate_slit_offset_angles"]}
{"id": "C172", "title": "The likelihood has no jumps", "statement": "With constant wavelength sampling, the slit image and the log-likelihood returned by lnlike are finite and continuous functions of V_a, r_t and sigma wherever r_t is not zero and sigma is positive, with and without PSF, instrumental broadening, scaling to the data and a floor on the dispersion; the function does not depend on what was evaluated before or on which parameters are free.", "quantifier": "all luminous galaxies, instruments, finite data with non-zero errors, parameter vectors and histories of make_model and update_model calls", "why_tests_cant": "continuity is a statement about all pairs of nearby parameters; a jump shows only at its threshold", "anchors": ["misfit/model/aper_model.py: AperModel2D", "misfit/model/kin_model.py: KinModel2D.update_model, scale_model", "misfit/fit/fit_core.py: lnlike"]}
{"id": "C173", "title": "What a failed continuum subtraction leaves behind", "statement": "If fit_prep_calcs of a fresh spectrum raises ValueError after it has begun to store the continuum, there is a row whose continuum is not finite; exactly the rows before it have been subtracted, the others still hold their continuum. If the subtraction is repeated and succeeds, the stored flux including the continuum is, in the usable pixels of the rows already subtracted, the flux without the continuum.", "quantifier": "all spectra of any size, settings and results of the fit routines", "why_tests_cant": "the failing row and the results of the fits are arbitrary; tests never continue after the exception", "anchors": ["misfit/galaxy.py: fit_prep_calcs", "misfit/general/galaxy_utils.py: subtract_continuum_2D"]}
{"id": "C174", "title": "The mask of the 1D spectrum after the preparation", "statement": "After a successful fit_prep_calcs with continuum subtraction, the 1D spectrum holds wavelengths, fluxes, errors and mask of the same pixels: the mask of each pixel left is the mask given by the user, zero if the pixel is missing, next to a missing region, or noisier than the cutoff times the median noise.", "quantifier": "all 1D and 2D spectra of any size, masks, settings and results of the fit routines", "why_tests_cant": "the mask passes five steps that change its length and its values; a shift by one pixel shows only in single pixels", "anchors": ["misfit/galaxy.py: fit_prep_calcs", "misfit/general/galaxy_utils.py: mask_edges_1D, wh_skylines_1D"]}
{"id": "C175", "title": "The noise and the number of rows in the fit of the position", "statement": "With a mask of zeros and ones and errors that are not negative, the replacement of missing errors by three times the median error never applies during fit_prep_calcs: the position along the slit is fitted with the noise of the unmasked pixels, whatever the median error, and with the fluxes of the rows, where the first or last row counts zero if it has the largest signal to noise ratio. A spectrum that can be prepared has at least four rows, at least five if it is dithered.", "quantifier": "all spectra of any size without a quality mask, masks, settings and results of the fit routines", "why_tests_cant": "that a branch can never be taken is a statement about all inputs", "anchors": ["misfit/galaxy.py: fit_prep_calcs", "misfit/general/galaxy_utils.py: vert_position"]}
{"id": "C176", "title": "Credible intervals hold the stated fraction of the samples", "statement": "For every parameter, the one-sigma interval of the posterior with its ends holds at least 68.27 per cent of the intervals between n samples (0.6827 (n-1)), less one sample, and without its ends at most that plus one sample; the same for the two-sigma interval with 95.45 per cent. Each tail outside the interval holds at most 15.865 (2.275) per cent plus one sample, and at least that if the end is counted. In general fewer than q (n-1) + 1 samples, or exactly that many, lie strictly below the q-percentile and more than q (n-1) at or below it.", "quantifier": "all chains with at least one sample, of any length and with any values, repeated values included", "why_tests_cant": "coverage is a counting statement over chains of every length and every pattern of repeated values", "anchors": ["misfit/fit/fit_core.py: get_param_posterior_bestfits"]}
{"id": "C177", "title": "The verdict on rotation in the corner plot", "statement": "The corner plot has a title for every column of the samples but the last two, with the best value and, outside linked sets, its distances to the ends of the one sigma interval. If V_RE belongs to no linked set, the corner plot shows the best value of V_RE and its distances to the ends of the one and two sigma intervals of the samples. It says \"rot\" for one (two) sigma exactly if the ends of that interval are both positive, both negative or both zero; \"rot\" at two sigma implies \"rot\" at one sigma. The percentage shown is the one of samples with the sign opposite to the best value: for \"rot\" at two sigma and a best value inside the interval it is at most 2.275 per cent plus one sample, and for \"disp\" with no end at zero each sign has at least about 2.275 per cent of the samples.", "quantifier": "all results and all chains of any length, names in any order", "why_tests_cant": "the verdict depends on signs of sums of stored numbers over all chains", "anchors": ["misfit/plot/plot_mcmc.py: plot_param_corner", "misfit/fit/fit_core.py: get_param_posterior_bestfits"]}
{"id": "C178", "title": "A fit that stores its results also returns", "statement": "When the sampler, the analysis and the images of the plots succeed, fit() of the 2D fitter stores chain and model and then returns without an exception, whatever the names of the parameters and the linked sets are.", "quantifier": "all settings, chains, linked sets and parameter names", "why_tests_cant": "needs a full fit for every naming and linking of parameters", "anchors": ["misfit/fit/fit2D.py: fit, plot_results", "misfit/plot/plot_mcmc.py: plot_param_corner", "misfit/plot/plot_bestfit.py: plot_bestfit_model"]}
{"id": "C179", "title": "The curves for linked parameters in the corner plot", "statement": "For two linked parameters the corner plot shows, in the panel of these two, the curve of all parameter pairs whose disc has the best value of V(R_E) at the effective radius, and the one of V(2.2); the curves can be drawn for each linked pair, in either order, and drawing them leaves the kinematic profile as it was, also when another set of linked parameters was drawn before.", "quantifier": "all profiles, best values, axis limits and linked sets", "why_tests_cant": "the points of the curve are real numbers for every axis range; the claim is an equation for each of them", "anchors": ["misfit/plot/plot_mcmc.py: plot_param_corner"]}
{"id": "C180", "title": "What is drawn over the spectra in the plot of the best model", "statement": "After a fit the plot shows the image of the best-fit model; the solid line is at the row of the object plus the fitted shift; the dotted lines are away from it by the effective radius, widened in quadrature by half the seeing, projected on the slit, in rows. The hatching covers exactly the rows masked for low signal-to-noise, and dashed edges are drawn exactly between a masked and an unmasked row. Masked sky columns are hatched as well.", "quantifier": "all masks and images of any size, all fits and galaxies", "why_tests_cant": "all patterns of masked rows, including those at the edges of the image", "anchors": ["misfit/plot/plot_bestfit.py: plot_bestfit_model", "misfit/general/general_utils.py: wh_continuous, y_proj_major", "misfit/general/galaxy_utils.py: mask_low_snr_rows_2D"]}
{"id": "C181", "title": "The ellipse over the convolved image", "statement": "In the plot of the image at the resolution of the spectrum, the half axes of the ellipse are the square roots of the sums of the squares of half axis and half the width of the point spread function. The axis ratio shown is between the intrinsic one and one; it is the intrinsic one only without seeing or for a round galaxy, and one only for a round galaxy.", "quantifier": "all sizes, axis ratios and widths", "why_tests_cant": "inequalities over the real numbers", "anchors": ["misfit/plot/plot_image_slit.py: plot_image_slit"]}
{"id": "C182", "title": "The field of the image next to the spectra", "statement": "The panel with the image shows a square field whose side on the sky is that of the spectrum along the slit (number of rows times pixel scale), or 2 arcsec if no number of rows is given. The galaxy is in the middle from left to right and, when the row of the object is given, as far from the lower edge as that row is from the lower edge of the spectrum. The distance between object and galaxy is the one on the sky. On an image brought to the pixels of the spectrum, the rows of the panel are those of the spectrum. Image, galaxy and object are drawn at consistent places: a pixel of the stamp and the place of the panel where its light is shown have the same offset from the galaxy on the sky.", "quantifier": "all images, pixel scales, positions, angles and options for which the plot is made", "why_tests_cant": "equations between real numbers for all geometries and both pixel scales", "anchors": ["misfit/plot/plot_image_slit.py: plot_image_slit"]}
{"id": "C183", "title": "The outline of the slit on the image", "statement": "The outline is a closed figure around the position of the object, moved along the slit by the offset of the object in the slit; its long sides have the length and the direction of the slit on the image (upwards on a rotated image), the other sides its width.", "quantifier": "all slits, angles, offsets and pixel scales", "why_tests_cant": "equations of the corner points over the real numbers", "anchors": ["misfit/plot/plot_image_slit.py: plot_image_slit", "misfit/plot/plot_utils.py: rot_corner_coords"]}
{"id": "C184", "title": "When the image with the slit can be plotted", "statement": "The plot is made for a galaxy with a stamp and a slit angle from the 2D or the 1D spectrum, with or without the ellipse of the galaxy, with a given or an unknown slit length, and silently or verbosely; the grey scale follows the noise within the field.", "quantifier": "all options, galaxies and instruments", "why_tests_cant": "an exact condition over all combinations of missing attributes and options", "anchors": ["misfit/plot/plot_image_slit.py: plot_image_slit", "misfit/instrument.py: Spectrograph"]}
{"id": "C185", "title": "Downsampling a stamp", "statement": "Downsampling gives each new pixel the average over its area of the old image, each old pixel counted with the area it shares with the new one.", "quantifier": "all images and uniform grids in both directions", "why_tests_cant": "all sizes, offsets and ratios of the pixel scales", "anchors": ["misfit/plot/plot_image_slit.py: box_integrate_pstamp, box_integrate"]}
{"id": "C186", "title": "The image at the resolution of the spectrum", "statement": "Bringing the rotated image to the resolution of the spectrum blurs it with a kernel whose width adds in quadrature to that of the image, keeps its total flux and leaves sources where they are.", "quantifier": "all images, point spread functions and positions of the object", "why_tests_cant": "sums over arbitrary images and kernels of any size", "anchors": ["misfit/plot/plot_image_slit.py: plot_image_slit", "misfit/plot/plot_utils.py: convolve_rot_gal"]}
{"id": "C187", "title": "The ellipse of the galaxy on the image", "statement": "On the image the angle from the slit to the major axis of the ellipse is the angle between them that is stored with the galaxy, up to half turns, whether or not the image is rotated. The half axes are the effective radius and its product with the axis ratio, in pixels of the panel, and they are widened by the seeing exactly when the image is. The scale bar is 1 kpc long if the effective radius is known in kpc, otherwise 0.25 arcsec.", "quantifier": "all angles, sizes and options", "why_tests_cant": "identities of trigonometric functions over the real numbers", "anchors": ["misfit/plot/plot_image_slit.py: plot_image_slit", "misfit/general/galaxy_utils.py: calculate_slit_offset_angles"]}
{"id": "C188", "title": "What the trace plot shows", "statement": "The plot of the walkers has one panel per free parameter, in the order of the parameters and labelled with its printed name. Each panel shows every walker: those not drawn at random once each, in black and in the order of the chain, and the drawn ones in colour in the order of the draws, each with its value of that parameter at every step. With at least one free parameter, a name for each parameter and at least one walker, the samples of every run that returned can be plotted; without free parameters the plot raises ValueError and without walkers ZeroDivisionError.", "quantifier": "all parameter lists, numbers of walkers and steps, draws and finished runs of both emcee versions", "why_tests_cant": "the walkers shown in colour are drawn at random and chains have any length; a test sees a few draws of one chain", "anchors": ["misfit/plot/plot_trace.py: plot_trace", "misfit/fit/fit_core.py: _run_mcmc_emcee_221", "misfit/fit/fit_core.py: _run_mcmc_emcee_3"]}
{"id": "C189", "title": "Values and errors of a 1D fit belong together", "statement": "After every call of the fit on a 1D fit object, whether it returns or raises, the errors on the object belong to the same call as the fitted values: either they were computed by that call or there are none.", "quantifier": "all 1D fit objects, spectra, options, results of the minimiser and earlier calls", "why_tests_cant": "depends on the history of the object; a test of a fresh object never sees old errors", "anchors": ["misfit/fit/fit1D.py: fit"]}
{"id": "C190", "title": "The log tells when the burn-in was too short", "statement": "After a burn-in the log of run_mcmc reports the autocorrelation times of the burn-in and warns exactly when the burn-in is shorter than twice the longest of them; at the end it reports those of the whole chain, which are also saved with the samples.", "quantifier": "all posteriors, starting positions, moves of the walkers, options, autocorrelation times (NaN and infinities included), both supported emcee versions", "why_tests_cant": "The warning depends on autocorrelation times of long stochastic runs, and the calls for one emcee version end in exceptions that are silently caught, so a test with the other version or without reading the log sees nothing.", "anchors": ["misfit/fit/fit_core.py:298-301", "misfit/fit/fit_core.py:332-343", "misfit/fit/fit_core.py:440-444", "misfit/fit/fit_core.py:621-662", "misfit/fit/fit_io.py:44-50"]}
{"id": "C191", "title": "The log agrees with the run", "statement": "The log of a run that returns gives the number of its production steps, one line for each step with the autocorrelation times after it, the step at which it finished early exactly when the convergence criterion held there, and says that the minimum number of steps was enforced exactly when the criterion was met before that minimum; writing log and files does not change the samples.", "quantifier": "all posteriors, starting positions, moves of the walkers, options, sampler diagnostics, stored earlier runs and named output files", "why_tests_cant": "Runs of thousands of evaluations of every option combination and every order of diagnostics cannot be enumerated.", "anchors": ["misfit/fit/fit_core.py:379-444", "misfit/fit/fit_core.py:708-771"]}
{"id": "C192", "title": "What a run leaves behind", "statement": "When the log of run_mcmc reports its finished steps, the samples are in the named file. A run that returns leaves the same samples in the file, in the plot of the walkers and in the fit object, with the number of walkers, steps, parameters and processes of the run; a run that fails leaves the samples of the fit object as they were.", "quantifier": "all posteriors, starting positions, moves of the walkers, options, numbers of processes, exceptions of the posterior, of the sampler diagnostics and of the plotting routines", "why_tests_cant": "The failure can happen at any step of a stochastic run, and the result depends on emcee version and number of processes.", "anchors": ["misfit/fit/fit_core.py:470-500", "misfit/fit/fit_core.py:797-829", "misfit/fit/fit_io.py:52-92"]}
{"id": "C193", "title": "The sampler samples the posterior of the fit", "statement": "run_mcmc evaluates the posterior on a reduced copy of the fit, in this process or in worker processes. For every vector, the log-posterior of the copy is the log-posterior of the fit that was set up, with the same exceptions, whatever vectors either object has evaluated before, and every attribute the copy has is equal to that of the fit.", "quantifier": "all fits that have been set up, all attributes of galaxy, spectrum and instrument, all parameter vectors, all histories of evaluations on copy and original", "why_tests_cant": "The copy is made from a hand-written list of attributes; a missing or stale attribute shows only for certain settings and evaluation histories.", "anchors": ["misfit/fit/fit_core.py:832-898", "misfit/fit/fit_core.py:206-240", "misfit/fit/fit_core.py:503-530"]}
{"id": "C194", "title": "A fit that can be evaluated can be sampled", "statement": "For every fit that has been set up and whose posterior can be evaluated, run_mcmc can make its reduced copy and evaluate the posterior on it; the copy supports the same operations on the model as the fit.", "quantifier": "all fits that have been set up, all sets of attributes of galaxy, spectrum and instrument, all later changes of the settings", "why_tests_cant": "The exact set of attributes that must exist is a property of all objects; a test shows only one.", "anchors": ["misfit/fit/fit_core.py:832-898", "misfit/fit/fit_core.py:234-240"]}
{"id": "C195", "title": "Number of processes", "statement": "Every run of run_mcmc uses the number of processes its options ask for at that time: one with NoThread, otherwise nCPUs, otherwise the fraction cpuFrac of the CPUs of the computer.", "quantifier": "all options, all numbers of CPUs, all sequences of runs with changed options", "why_tests_cant": "The number of processes of a run depends on earlier runs with the same options object and on the computer.", "anchors": ["misfit/fit/fit_core.py:217-221", "misfit/fit/fit_core.py:516-520", "misfit/fit/fit_core.py:1123"]}
{"id": "C196", "title": "Why a sampling run fails", "statement": "When run_mcmc raises after the starting positions are known, the reason is one of: the posterior raised or was NaN at a starting position or a proposal; a kept file holds steps of another number of walkers; no steps were asked for; the autocorrelation time raised; a requested plot failed; emcee 2 on one process; and the exception is the one belonging to that reason. A posterior that raises or is NaN at a starting position makes every run fail with nothing saved, and without any of these reasons the run returns.", "quantifier": "all posteriors, starting positions, proposals, options, versions, diagnostics, plots and files", "why_tests_cant": "Absence of further causes of failure is a statement over all executions.", "anchors": ["misfit/fit/fit_core.py:206-500", "misfit/fit/fit_core.py:503-829"]}
{"id": "C197", "title": "Exactly when a 1D fit returns", "statement": "A call of FitEmissionLines1D.fit without error estimation returns if and only if: the resolution is a non-negative number; the galaxy has a redshift, a number and a trimmed spectrum with at least as many good pixels as parameters; the line sets are known and there is at least one; their first rest wavelength and the redshift window are not zero; there are enough starting values for fluxes and continuum; and a plot, if wanted, has a file name. Otherwise the exception is the one belonging to a missing condition.", "quantifier": "all fit objects, galaxies, spectra, masks, resolutions, arguments and minimisers that return one value per parameter", "why_tests_cant": "An exact characterisation covers all combinations of missing or malformed inputs, and excludes other causes.", "anchors": ["misfit/fit/fit1D.py:208-229", "misfit/fit/fit1D.py:231-400", "misfit/model/emission_lines_model.py:119-140"]}
{"id": "C198", "title": "Sampling does not depend on where the posterior is evaluated", "statement": "The objects that are sampled are changed by every evaluation of the posterior, and with several processes each process changes its own copy. Nevertheless, run_mcmc ends exactly as if every position simply had the posterior of the fit that was set up: with the same samples and posterior values, or the same exception, for every number of processes and every distribution of evaluations over them; if no file with earlier samples is continued, every stored sample carries the posterior the fit has at this position, whatever is evaluated on the fit before (with adaptive sampling: whatever evaluations that return).", "quantifier": "all fits that were set up, all positions, proposals, acceptance thresholds, options, versions, and all assignments of evaluations to processes with or without sending the object again", "why_tests_cant": "Schedules of a process pool are not reproducible and unbounded; the claim is a refinement over all of them.", "anchors": ["misfit/fit/fit_core.py:150-183", "misfit/fit/fit_core.py:218-252", "misfit/fit/fit_core.py:517-575"]}
{"id": "C199", "title": "The intervals of a whole fit lie inside the bounds of the settings", "statement": "If fitEmis2D.fit returns for a fit with a new flat prior, the one and two sigma intervals it stores for every unlinked varying parameter are nested and lie inside the bounds given for this parameter (with absvalsigma for non-negative bounds). The attributes of the object, the saved files and the outcome of the call, exceptions included, are the same for every distribution of the evaluations of the posterior over processes.", "quantifier": "all data, instruments and models, all likelihood values including NaN, all proposals, thresholds, options, emcee versions, peak searches and process schedules; a file with earlier samples is not continued", "why_tests_cant": "The claim crosses the whole pipeline, from walkers and the prior over the sampler to percentiles; a test follows one random run on one data set.", "anchors": ["misfit/fit/fit2D.py:259-281", "misfit/fit/fit2D.py:351-376", "misfit/fit/fit_core.py:187-252", "misfit/fit/fit_core.py:503-575", "misfit/fit/fit_core.py:909-917"]}
{"id": "C200", "title": "The fit object saved with the samples describes the run", "statement": "make_emcee_sampler_dict puts a copy of the sampled fit object into the dictionary. It can do so exactly if the fit is passed and has mcmcOptions, kinModelOptions and thetaSettings (otherwise AttributeError or KeyError). Every attribute of galaxy, spectrum and instrument in the saved object has the value it had in the fit when sampling began, the three options are those of the fit at the time of saving, and the prior has the values of the prior of the fit. The parameters, and those of the kinematic profile, are the settings with the last vector evaluated in this process (the settings themselves if none was, in particular when all evaluations took place in worker processes), not those of the best sample.", "quantifier": "all fits that were set up, all attribute tables, all sequences of vectors evaluated before saving (of any length, inside and outside the prior), all distributions of the evaluations over processes", "why_tests_cant": "which vector is left in the object depends on the whole history of evaluations and on the number of processes; a test runs one history", "anchors": ["misfit/fit/fit_io.py:25-42", "misfit/fit/fit_core.py:475", "misfit/fit/fit_core.py:802"]}
{"id": "C201", "title": "The saved fit object can be evaluated again", "statement": "The posterior of the fit object saved with the samples is that of the fit: at every vector it gives the value, or the exception, that evaluating the fit gives.", "quantifier": "all fits that were set up, all histories before saving, all vectors", "why_tests_cant": "the claim is about every vector; a test of vectors outside the prior passes", "anchors": ["misfit/fit/fit_io.py:42", "misfit/fit/fit_core.py:150-183", "misfit/model/kin_model.py:192-208"]}
{"id": "C202", "title": "Options for the position of the light in the slit", "statement": "With do_position_wave_shift the light of every subpixel row is shifted in velocity by the offset of the fitted centre of that row from the middle of the slit (the FWHM of the resolution is the velocity range across the slit, light outside counts at the edge), for a new 2D model and all later evaluations; with do_inst_res_conv_effective every row is broadened by the resolution that belongs to the fitted width of the light in the slit; without the options nothing changes.", "quantifier": "all settings, discs, spectral types, fitting functions, parameter vectors and histories of evaluations", "why_tests_cant": "the offsets depend on a fit of every row and are stored across evaluations; tests cover one setting of the options, if any", "anchors": ["misfit/model/aper_model.py:794-821", "misfit/model/aper_model.py:865-883", "misfit/model/kin_functions.py:170-257", "misfit/model/kin_functions.py:422-496"]}
{"id": "C203", "title": "Closed form of the image with seeing, spectrograph, adaptive sampling and dispersion floor", "statement": "For a 2D model on equally spaced wavelengths every pixel of the image is given by one formula: lines of the rotating disc, added along the line of sight in every cell of the padded grid, spread by the point spread function sampled at the grid positions within one FWHM of the middle of the grid (total light unchanged), summed over the cells in the slit and the subpixels of the row, spread in wavelength by a Gaussian of the instrumental dispersion (total unchanged), and summed over the samples of the wavelength pixel; the number of samples is the sampling factor if the dispersion is below that of one pixel and 1 otherwise, and the dispersion is raised to the floor if there is one. The same holds for every later evaluation, with the centre row and redshift of the construction.", "quantifier": "all complete set-ups (any number of rows, subpixels, padding, slit, lines and ratios, intensity profile, Gaussian or Moffat PSF of any width with a non-empty kernel, any resolution, with or without adaptive sampling and floor), all parameters with non-zero turn-over radius and positive dispersion, all histories of returned evaluations", "why_tests_cant": "a formula for every pixel of every grid; tests compare a few images with themselves or with tolerances", "anchors": ["misfit/model/aper_model.py:564-624", "misfit/model/aper_model.py:654-765", "misfit/model/aper_model.py:768-894", "misfit/model/kin_functions.py:361-375", "misfit/model/kin_functions.py:409-496", "misfit/instrument.py:143-185"]}
{"id": "C204", "title": "Closed form of the image on a velocity axis", "statement": "For a 2D model with spec_type velocity on equally spaced velocities every pixel of the image is given by one formula: in every cell of the padded grid the light has a normal distribution of velocities around the projected rotation velocity of the disc; it is added along the line of sight, spread by the point spread function (total light unchanged), summed over the cells in the slit and the subpixels of the row, spread by a Gaussian of the instrumental dispersion in km/s (total unchanged), and summed over the samples of the velocity pixel; the number of samples is the sampling factor if the dispersion is below that of one pixel and 1 otherwise, and the dispersion is raised to the floor if there is one. Redshift, line names and flux ratios have no influence. The same holds for every later evaluation, with the centre row of the construction.", "quantifier": "all complete set-ups on a velocity axis (any number of rows, subpixels, padding, slit, intensity profile, Gaussian or Moffat PSF of any width with a non-empty kernel, any resolution, with or without adaptive sampling and floor, any or no lines), all parameters with non-zero turn-over radius and positive dispersion, all histories of returned evaluations", "why_tests_cant": "The formula holds for grids, kernels, samplings and histories of every size; tests compare single images within a tolerance.", "anchors": ["misfit/model/aper_model.py:564-886", "misfit/model/kin_functions.py:73-132", "misfit/model/kin_functions.py:360-420"]}
{"id": "C205", "title": "An unknown type of spectral axis is refused", "statement": "Building a 2D model whose spectrum has a spec_type other than 'wave' and 'velocity' raises an exception, rather than returning an image.", "quantifier": "all set-ups that work on a velocity axis (any grid, slit, PSF whose stamp exists, resolution, intensity profile), all parameter vectors with a nonzero turnover radius", "why_tests_cant": "A test uses one misspelling with one combination of options; whether there is an exception, a NaN image or a black image depends on seeing, resolution, adaptive sampling and floor together, for every size of the grid.", "anchors": ["misfit/model/kin_functions.py:95-132 (no branch for other types)", "misfit/model/aper_model.py:567-597 (floor and upsampling values)", "misfit/model/aper_model.py:864-880", "misfit/galaxy.py:275"]}
{"id": "C206", "title": "The rotation aperture correction does not depend on the dummy velocity or the brightness", "statement": "For the 1D aperture model of a rotating disc (AperModel1DRot) the attribute disp_aper_ratio is the same for every non-zero second entry of the parameters (the velocity that stands for the unknown one), whatever ratio of rotation to dispersion is given, and for a ratio of None. Multiplying the intensity profile by a positive factor changes neither sigma_aper nor V_RMS_aper. A dummy velocity of zero gives NaN.", "quantifier": "for all galaxies, slits, point spread functions, windows, pixel numbers, positive intensity profiles, ratios, turnover radii other than zero", "why_tests_cant": "The claim is an identity over all velocities and profiles; a test compares a few values with a tolerance.", "anchors": ["misfit/model/aper_model.py:255-320", "misfit/model/aper_model.py:410-505"]}
{"id": "C207", "title": "The correction for pure rotation determines that for every ratio of rotation to dispersion", "statement": "For one galaxy and instrument, with c the disp_aper_ratio of AperModel1DRot for a ratio of None (no dispersion), the one for a ratio r other than zero is sqrt((1 + r^2 c^2)/(1 + r^2)), and the one for a ratio of zero is 1.", "quantifier": "for all galaxies, slits, point spread functions, windows, pixel numbers, positive intensity profiles, dummy velocities, turnover radii and reference radii other than zero, all r", "why_tests_cant": "Relates infinitely many runs of the model; tests can check a table of ratios only.", "anchors": ["misfit/model/aper_model.py:278-320", "misfit/model/aper_model.py:451-505"]}
{"id": "C208", "title": "Closed form of the rotation aperture correction", "statement": "sigma_aper of AperModel1DRot is the root of V_a^2 w + sigma^2, where w is the light-weighted mean over the aperture (Gaussian row weights with a full width at half maximum of half the window, or equal weights), after the seeing, of the squared line-of-sight velocity of a unit arctan rotation curve on the grid of cells, and V_RMS_aper is the root of the sum of squares of rotation velocity and dispersion at the reference radius. For pure rotation sigma_aper is at most |V_a| sin i. If the seeing is positive but below half a cell and the number of cells is even the constructor raises IndexError; no pixels raise ZeroDivisionError, no emission line IndexError, a Moffat profile without width or exponent ZeroDivisionError, an unknown extraction method ValueError.", "quantifier": "for all galaxies, slits, point spread functions, windows, pixel numbers, positive intensity profiles, parameters with a turnover radius other than zero, without the two options for positional shifts", "why_tests_cant": "The formula is over all grids and profiles; running the code gives single numbers without an independent value to compare with.", "anchors": ["misfit/model/aper_model.py:223-296", "misfit/model/aper_model.py:322-505", "misfit/model/kin_functions.py:379-402"]}
{"id": "C209", "title": "The rotation aperture correction depends on ratios of angles only", "statement": "For an extended galaxy, a slit, a seeing no coarser than a pixel allows and either extraction method, multiplying the galaxy size, the turnover radius, the slit width, the seeing, the extraction window, the reference radius and the offsets by the same positive number changes neither the aperture dispersion nor the reference value returned by the rotating 1D aperture model.", "quantifier": "for all physical model inputs, all parameters with non-zero turnover radius and all positive factors", "why_tests_cant": "A test tries one factor for one galaxy; padding, number of columns and trimming all involve rounding of quotients of these angles, and the claim is that none of them moves for any factor.", "anchors": ["misfit/model/aper_model.py:223-296", "misfit/model/aper_model.py:322-505", "misfit/model/kin_functions.py:379-402"]}
{"id": "C210", "title": "Closed form of the dispersion aperture models", "statement": "For positive radii, axis ratios, core, slit and window, an undithered PSF and method optimal or boxcar, the aperture dispersion of the round and of the misaligned 1D dispersion models is the square root of the row-weighted mean, over the 2n+1 by 2n+1 pixels of the aperture, of squared local dispersion times light after the seeing, divided by that of the light after the seeing; n is nPixels, doubled when the radius is at most 0.1 arcsec; the window is the given one or four times the larger projected half axis.", "quantifier": "for all physical model inputs, all position angles, with or without seeing, Gaussian or Moffat, both extraction methods", "why_tests_cant": "A test compares one number; the closed form holds for every galaxy, every seeing and every pixel number at once, and rules out any other use of grid, padding, kernel or weights.", "anchors": ["misfit/model/aper_model.py:147-220", "misfit/model/kin_functions.py:594-840"]}
{"id": "C211", "title": "A round galaxy has no orientation", "statement": "When the axis ratio is one, the misaligned dispersion model returns exactly what the round dispersion model returns, at every position angle: same outcome, same dispersions, same PSF stamp left with the instrument.", "quantifier": "for all position angles, all positive radii and slits, any other input, including those that raise", "why_tests_cant": "A test samples position angles; the two classes run separate code (the misaligned one recomputes the number of columns by rounding) and the claim covers all angles and all failing inputs.", "anchors": ["misfit/model/aper_model.py:147-220", "misfit/model/kin_functions.py:594-840"]}
{"id": "C212", "title": "The dispersion aperture correction depends on ratios of angles only, away from the pixel doubling", "statement": "Multiplying galaxy radii, slit, seeing, window and offsets by the same positive number leaves the aperture dispersion of both dispersion models as it is whenever the radius that decides on doubling the number of pixels stays on its side of 0.1 arcsec: the circularised radius for the round model, the major axis radius for the misaligned one.", "quantifier": "for all physical inputs, all positive factors and all position angles", "why_tests_cant": "A test tries a few factors; the claim covers all of them and names the only exception.", "anchors": ["misfit/model/aper_model.py:147-220", "misfit/model/kin_functions.py:594-840"]}
{"id": "C213", "title": "Half turns and mirror images of the galaxy", "statement": "Turning the galaxy by 180 degrees changes nothing in the result of the misaligned dispersion model, whatever the inputs. Mirroring it along the slit (position angle and offset across the slit change sign) leaves the aperture dispersion as it is for all physical inputs.", "quantifier": "for all position angles; half turn: all inputs; mirror: all physical inputs", "why_tests_cant": "A test compares a few angles on one grid; symmetry of grid, kernel, trimming and weights has to hold for every pixel number and every seeing.", "anchors": ["misfit/model/aper_model.py:184-220", "misfit/model/kin_functions.py:675-840"]}
{"id": "C214", "title": "A refused line shape leaves the 1D fit as it was", "statement": "Asking the 1D emission line fit for a line shape other than Gaussian, in the constructor or with setAttr, raises ValueError, and later calls of setAttr give what they would have given without the refused call.", "quantifier": "for all galaxies, all states of the object, all keywords and all shapes", "why_tests_cant": "A test asks for one shape once; the claim is about every later call, whatever is set.", "anchors": ["misfit/fit/fit1D.py:152-184"]}
{"id": "C215", "title": "Half a turn of the galaxy is a reversed rotation", "statement": "For a model on equally spaced wavelengths or velocities whose light is the same on both sides of the plane of the disc, adding 180 degrees to the angle between galaxy and slit gives, pixel by pixel, the image of the same model with the velocity amplitude of opposite sign, with any point spread function, instrumental broadening, adaptive sampling and dispersion floor, at the construction and at every later evaluation.", "quantifier": "all set-ups with positive sizes and light, equally spaced axis and a kernel that is not empty, all light profiles even in height, all amplitudes, turnover radii other than 0, positive dispersions, rows, redshifts above -1, and all histories of evaluations (that return, with adaptive sampling)", "why_tests_cant": "the equality relates two runs with different set-ups for every combination of options and real parameters; floating point tests on a few configurations can only show it approximately", "anchors": ["misfit/model/aper_model.py:654-765", "misfit/model/aper_model.py:768-894", "misfit/model/kin_functions.py:42-69"]}
{"id": "C216", "title": "Mirror image along the slit", "statement": "For a model on equally spaced wavelengths or velocities whose light is the same on both sides of the plane of the disc, changing the sign of the angle between galaxy and slit and of the offset across the slit leaves every pixel of the image as it is, if there is no point spread function or the number of subpixels across the slit is odd. With a point spread function and an even number of subpixels across the slit the two images can differ.", "quantifier": "all set-ups as in C215 with zero FWHM or odd number of columns; for the last sentence one set-up", "why_tests_cant": "the equality relates two runs with different set-ups for all real parameters; which numbers of columns break it is not visible from a few configurations", "anchors": ["misfit/model/aper_model.py:654-765", "misfit/model/aper_model.py:768-894", "misfit/model/kin_functions.py:42-69", "misfit/model/kin_functions.py:361-375"]}
{"id": "C217", "title": "Only the observed wavelengths of the lines matter", "statement": "A 2D model on equally spaced wavelengths has, pixel by pixel, the image of the model whose rest wavelengths are replaced by the observed wavelengths, with redshift 0, at the construction and at every later evaluation, whatever redshift that evaluation is given.", "quantifier": "all set-ups with positive sizes and light and a kernel that is not empty, all line lists, all redshifts above -1, all parameters with turnover radius other than 0 and positive dispersion, all histories of evaluations (that return, with adaptive sampling)", "why_tests_cant": "it relates two runs for all real redshifts and lines, through sampling, floor and spectrograph, each of which uses the redshift by itself", "anchors": ["misfit/model/aper_model.py:564-624", "misfit/model/aper_model.py:768-894", "misfit/model/kin_functions.py:409-496"]}
{"id": "C218", "title": "Superposition of components of light", "statement": "The image of a galaxy whose light profile is the sum of two components is the sum of the images of the components, for the same kinematics.", "quantifier": "all set-ups with positive sizes, all positive components, on wavelengths and velocities, all parameters", "why_tests_cant": "it relates three runs for all light profiles; the deviation is small for well padded grids", "anchors": ["misfit/model/kin_functions.py:361-375", "misfit/model/aper_model.py:768-894"]}
{"id": "C219", "title": "The unit of velocity does not matter on a velocity axis", "statement": "On an equally spaced velocity axis, giving the velocities of the pixels, the instrumental dispersion, the velocity amplitude and the dispersion in another unit divides every pixel of the image by that unit, at the construction and at every later evaluation, with point spread function, spectrograph, adaptive sampling and floor.", "quantifier": "all positive unit factors, all set-ups as in C204, all parameters with turnover radius other than 0 and positive dispersion, all histories", "why_tests_cant": "it relates two full runs for every unit and every history, including those that switch the sampling", "anchors": ["misfit/model/aper_model.py:564-624", "misfit/model/aper_model.py:768-894", "misfit/model/kin_functions.py:409-496"]}
{"id": "C220", "title": "The plot of a 1D fit marks the fitted lines", "statement": "The solid vertical lines of the figure saved by a 1D fit are at the observed wavelengths of the lines of the fitted model, and the dashed ones at those lines for the redshift of the galaxy.", "quantifier": "every object, galaxy, spectrum, minimiser and option combination for which a figure is saved", "why_tests_cant": "the marks are read from an attribute that the model does not use, for every list of lines and every fitted redshift", "anchors": ["misfit/fit/fit1D.py:399-404"]}
{"id": "C221", "title": "The plot of a 1D fit shows every pixel once", "statement": "Every pixel of the trimmed spectrum is in the figure of a 1D fit, black if it was used in the fit and grey if not.", "quantifier": "every spectrum and mask for which a figure is saved", "why_tests_cant": "all mask arrays of any length", "anchors": ["misfit/fit/fit1D.py:406-424"]}
{"id": "C222", "title": "Curves, axes and labels of the plot of a 1D fit", "statement": "The figure of a 1D fit shows the stored model of the whole trimmed spectrum and the fitted continuum; their difference is the model of the lines alone; the axes contain the whole spectrum with margins of 20 and the whole model curve with margins of 15 % of its range; the labels are the stored redshift and dispersion; the title is the mask or else the field, the identifier and the names of the lines joined by a plus sign, with a backslash before each underscore.", "quantifier": "every fit for which a figure is saved", "why_tests_cant": "all spectra, models and continuum orders", "anchors": ["misfit/fit/fit1D.py:522-582"]}
{"id": "C223", "title": "A 1D fit with plot saves its figure", "statement": "A 1D fit that is asked for a plot and has a file name for it saves the figure.", "quantifier": "all option combinations, spectra, line sets and minimisers that return one flux per line set", "why_tests_cant": "all combinations of options with all results of the minimiser", "anchors": ["misfit/fit/fit1D.py:380-585"]}
{"id": "C224", "title": "Plotting does not change what a 1D fit stores", "statement": "A 1D fit called with plot stores the same values and errors as the same call without plot.", "quantifier": "all spectra, options, minimisers, states before the call", "why_tests_cant": "compares two calls for all inputs, including those that raise", "anchors": ["misfit/fit/fit1D.py:380-420", "misfit/fit/fit1D.py:513-516"]}
{"id": "C225", "title": "A spectrum without continuum beside the lines is refused", "statement": "If the continuum has to be subtracted and no column of the 2D spectrum lies in the full range to the left or to the right of the masked lines, the subtraction raises a TypeError; it leaves the missing pixels filled and a continuum model of zero for all rows, and a finite flux unchanged. Conversely, whenever the subtraction returns, at least one column lies beside the lines.", "quantifier": "every spectrum with a 1D spectrum of the same length, every range of wavelengths, redshift and outcome of the numerical fits", "why_tests_cant": "Only some combinations of redshift, ranges and coverage leave no column; a test fixes one. The claim covers all of them and the state that is left behind.", "anchors": ["misfit/general/galaxy_utils.py:346-352", "misfit/general/galaxy_utils.py:395-426", "misfit/general/galaxy_utils.py:449-478"]}
{"id": "C226", "title": "Fits that share their profiles do not disturb each other", "statement": "2D fits that share their kinematic and intensity profile objects, as all fits created with the defaults do, can be created, set up, evaluated, fitted, analysed, plotted, saved and reloaded in any order: a fit whose set-up works ends with the same galaxy, settings, prior, samples, results, parameters, image, likelihood, best model and samples file as if it had been used alone, and every next call on it ends the same way.", "quantifier": "for all numbers of fits, all galaxies, settings and all sequences of creations and calls", "why_tests_cant": "The interference would only appear for particular interleavings of calls on several objects; tests use one fit at a time.", "anchors": ["misfit/fit/fit2D.py: FitEmissionLines2D.__init__", "misfit/fit/fit2D.py: FitEmissionLines2D.setup_model", "misfit/model/kin_model.py: KinModel2D"]}
{"id": "C227", "title": "The contrast of the image plot", "statement": "The noise level of the image plot is the median of the lower half of the absolute values of the finite pixels in view, or NaN if there is none. Changing the unit or the sign of the image by a factor changes the level by the absolute factor. In the logarithmic scale a pixel of minus the level gets the lower end, a pixel of hundred times the level the upper end, brighter pixels never a lower shade, and the shades do not depend on the unit.", "quantifier": "for all images of any size, masks, views, factors and pixel values", "why_tests_cant": "Colours of a plot are not tested; a wrong median or scale gives a plot that still looks plausible.", "anchors": ["misfit/plot/plot_image_slit.py: plot_image_slit"]}
{"id": "C228", "title": "There is a best set of parameters", "statement": "For a luminous galaxy with finite data, constant wavelength sampling and bounds that are not empty and leave out a vanishing turnover radius and dispersions that are not positive, lnprob has a maximum: there is a fitting vector inside the bounds at which it is finite and not smaller than at any other fitting vector, the same one whatever was evaluated before.", "quantifier": "all set-ups, data, masks and weights, all subsets of free parameters among V_a, r_t and sigma, all bounds, all sequences of earlier calls, all fitting vectors", "why_tests_cant": "a supremum over a continuum of parameters cannot be tested; that it is attained needs continuity and compactness", "anchors": ["misfit/fit/fit_core.py:150-183", "misfit/model/kin_model.py:160-208", "misfit/model/kin_classes.py:276-300"]}
{"id": "C229", "title": "Parameters that cannot be told apart", "statement": "Changing the signs of both V_a and r_t changes neither the image nor the likelihood; without rotation (V_a = 0) the turnover radius has no effect, and face-on neither V_a nor r_t has. Any other two pairs V_a, r_t give different velocity fields. Fitting vectors for such parameters, both inside the bounds or both outside, have the same posterior.", "quantifier": "all luminous set-ups on a wavelength or velocity axis, with seeing, instrumental broadening, dispersion floor and adaptive sampling; all parameters with r_t not zero and sigma positive; all histories of calls", "why_tests_cant": "an equality of likelihoods for all parameters and all histories, and a statement about all other parameters", "anchors": ["misfit/model/kin_functions.py:42-69", "misfit/model/aper_model.py:768-894", "misfit/fit/fit_core.py:150-166"]}
{"id": "C230", "title": "Which adaptive sampling factors work", "statement": "For lines narrower than a wavelength pixel and adaptive sampling with factor f on N equally spaced wavelengths, constructing the 2D model is a ValueError for f = 0 and for every f for which round(N f) is negative; for a positive number round(N f) of samples it gives an image of the shape of the data exactly if the number is a multiple of N, and otherwise is a ValueError after which the object keeps the samples as its wavelengths.", "quantifier": "every complete set-up with or without seeing, every real factor, every parameters with lines narrower than a pixel", "why_tests_cant": "depends on the rounding of the product of factor and number of wavelengths, for every real factor and every number of wavelengths", "anchors": ["misfit/model/aper_model.py: AperModel2D.check_do_upsample_wave, downsample_to_real_wave, do_model_calcs", "misfit/model/kin_functions.py: rebin"]}
{"id": "C231", "title": "Different descriptions of one galaxy have the same likelihood", "statement": "The log-likelihood of a fitting vector is the same for the galaxy turned by 180 degrees as for the galaxy with the opposite rotation speed, the same for the galaxy mirrored along the slit (no seeing, or an odd number of subpixels across), and the same for the lines at their observed wavelengths with redshift 0 as at rest wavelengths with the redshift, whatever was evaluated on the two model objects before. The posteriors agree in the same way where both fitting vectors are inside their bounds or both are outside. For the mirrored galaxy and the observed wavelengths a sampling run with the same random numbers also returns the same samples and log-probabilities or ends in the same exception, if the bounds allow only nonzero turnover radii and positive dispersions. For the turned galaxy a run with mirrored starting points, proposals and speed bounds returns the samples with the sign of the speed changed.", "quantifier": "every complete set-up and data, every light distribution the same on both sides of the disc (turn and mirror), every fitting vectors with non-zero turnover radius and positive dispersion, every sequences of earlier calls", "why_tests_cant": "the symmetry holds for every geometry, light distribution, data and history", "anchors": ["misfit/model/kin_model.py: KinModel2D.make_model, update_model, model_llike", "misfit/fit/fit_core.py: lnlike", "misfit/model/aper_model.py: AperModel2D", "misfit/fit/fit_core.py: lnprob, _run_mcmc_emcee_221, _run_mcmc_emcee_3"]}
{"id": "C232", "title": "A common factor on the errors does not move the best fit", "statement": "If every error of the spectrum is multiplied by the same positive number (weights, mask and sky-free columns as before), the model scaled to the data does not change, chi-square and reduced chi-square (with and without weights) are divided by the square of the number, and the log-likelihood is divided by it and shifted by a constant that does not depend on the model. Series of calls of make_model and update_model raise the same exceptions and leave the same parameters and images, and of two points of parameter space the same one has the larger posterior.", "quantifier": "all positive factors, all images (for the scaling and chi-square including NaN, infinite values and zero errors; for the likelihood finite masks and finite errors that are not zero), all weights, all parameters, all series of calls", "why_tests_cant": "all factors, all images with exceptional values, unbounded series of calls", "anchors": ["misfit/model/kin_model.py: scale_model, model_chisq, model_redchisq, model_llike, make_model, update_model", "misfit/fit/fit_core.py: lnprob"]}
{"id": "C233", "title": "A spectrum without sky-free columns cannot be fitted", "statement": "A 2D spectrum whose sky-free columns were never set (it was not prepared for fitting) is refused: no call of make_model or update_model that scales the model to the data returns, whatever was called before, and no point of parameter space gets a finite posterior. Where the model itself can be computed the exception is an AttributeError, and the unscaled image is left in the object. Models that are not scaled do not need the columns and do not depend on them.", "quantifier": "all galaxies, instruments, profiles and parameters, all series of calls, all bounds", "why_tests_cant": "unbounded series of calls and all points of parameter space", "anchors": ["misfit/model/kin_model.py: scale_model, make_model, update_model", "misfit/fit/fit_core.py: lnprob"]}
{"id": "C234", "title": "The wavelengths of a 1D line model are those of its lines", "statement": "After every setAttr call that succeeds, the rest wavelengths and flux ratios of a 1D emission line model that was made from a line name are those of the shipped table for its line names. (False: a call that gives other line names, or another group name, leaves the old wavelengths and ratios in place, so that an Halpha model given the lines of Hbeta still has the wavelength of Halpha; it holds for all calls that leave the lists alone or give wavelengths or ratios as None. After a failing call with an unknown line the object keeps the unknown name, and later calls fail too.)", "quantifier": "all constructor keywords, all series of setAttr calls, all lists of line names", "why_tests_cant": "unbounded series of calls with exceptions in between, all lists of names", "anchors": ["misfit/model/emission_lines_model.py: EmissionLines1DModel.__init__, setAttr", "misfit/general/io.py: read_line_names, read_restwave, read_line_ratio"]}
{"id": "C235", "title": "The best 1D fit depends neither on the unit of flux nor on a common factor of the errors", "statement": "With flux, errors, line fluxes and continuum coefficients in another unit the residuals of the 1D fit are the same; with all errors multiplied by a factor they are divided by it; what masked pixels contain does not matter. The residuals are always numbers. Hence, with the bounds the fit uses (a window for the redshift, zero for dispersion and fluxes), a point has the smallest sum of squares in one unit exactly if the converted point has it in the other, and the factor on the errors does not change which points are best.", "quantifier": "all positive factors, all spectra (with NaN, infinite values and zero errors), all line lists, redshifts, dispersions (zero and negative ones too), fluxes and continuum coefficients of any number", "why_tests_cant": "all factors and spectra, and a minimum over an infinite set of points", "anchors": ["misfit/model/emission_lines_model.py: make1DProfile, residual1DProfile, gaussian_line", "misfit/fit/fit1D.py: make_params"]}
{"id": "C236", "title": "A spectrum is fitted row by row", "statement": "Each row of the model is scaled to the data as if the spectrum consisted of that row alone, and chi-square and log-likelihood are the sums of the values of the rows. Two series of make_model and update_model calls on spectra that agree in one row raise the same exceptions and leave the same parameters and the same row of the image. Rows without an unmasked pixel of non-zero weight do not influence the fit: changing them changes the log-likelihood of every image by the same constant.", "quantifier": "every spectrum (NaN, infinite and zero errors included for the first three parts; finite with non-zero errors for the last), every image, every series of calls, every row", "why_tests_cant": "quantifies over all spectra, images and call histories, and relates two runs", "anchors": ["misfit/model/kin_model.py: KinModel2D.scale_model", "misfit/model/kin_model.py: KinModel2D._model_chisq", "misfit/model/kin_model.py: KinModel2D._model_llike", "misfit/model/kin_model.py: KinModel2D.make_model", "misfit/model/kin_model.py: KinModel2D.update_model"]}
{"id": "C237", "title": "The panels with spectrum, model and residual", "statement": "After a successful fit the plot of the best model shows the flux of the galaxy, the image of the best-fit model and their difference on one colour scale; the scale runs from the smallest to the largest flux in the sky-free columns, and no pixel of these columns is clipped in any of the three panels. The unweighted chi-square is the sum over the unmasked pixels of the squared residual panel in units of the errors. A missing model, image or list of sky-free columns is refused.", "quantifier": "every successful fit of a finite spectrum with rows and sky-free columns", "why_tests_cant": "quantifies over all spectra, fits and samplers", "anchors": ["misfit/plot/plot_bestfit.py: plot_bestfit_model", "misfit/fit/fit2D.py: FitEmissionLines2D.plot_results", "misfit/model/kin_model.py: KinModel2D.model_chisq_no_weight"]}
{"id": "C238", "title": "The fitted image has no negative line flux", "statement": "The image that a 2D model compares with the data, scaled row by row to the data, is an emission-line image: no pixel of it is negative. A fitted row is negative in every pixel exactly if the error-weighted overlap of the data row with the unscaled row over the sky-free columns is negative, and has no negative pixel otherwise.", "quantifier": "every set-up with a positive light profile, all parameters, every finite spectrum with non-zero errors and every non-empty choice of sky-free columns", "why_tests_cant": "quantifies over all real data, parameters and image sizes", "anchors": ["misfit/model/kin_model.py: KinModel2D.scale_model, make_model"]}
{"id": "C239", "title": "Errors and weights act through the weights over the squared errors", "statement": "If every error of the spectrum is multiplied by u > 0 and every weight by k > 0, the scaled model, the parameters and all exceptions stay the same, chi-square and reduced chi-square are multiplied by k/u^2, the values without weights by 1/u^2, and the log-posterior by k/u^2 up to a constant that does not depend on flux, weights, model and parameters. With k = u^2 chi-square stays the same and the log-posterior is shifted by -log10(u) times the sum of the mask, and a sampling run with the same random numbers returns the same samples or the same exception.", "quantifier": "all positive factors, all series of make_model and update_model calls, all fluxes, weights and models, finite masks and finite non-zero errors, all bounds and fitting vectors", "why_tests_cant": "quantifies over real factors, image sizes and series of calls", "anchors": ["misfit/model/kin_model.py: _model_chisq, _model_llike, KinModel2D.scale_model", "misfit/fit/fit_core.py: lnprob"]}
{"id": "C240", "title": "The sign of the flux cannot be seen in a fit", "statement": "If every flux of the spectrum is negated, the model scaled to the data is negated, chi-square and reduced chi-square (with and without weights), log-likelihood and posterior are the same, every make_model and update_model call raises the same exceptions and leaves the same parameters, and a sampling run with the same random numbers returns the same samples and log-probabilities or ends in the same exception.", "quantifier": "all fluxes, errors, masks, weights and models including NaN and infinities, all series of calls on galaxies with sky-free columns, all bounds, fitting vectors and sampler settings", "why_tests_cant": "quantifies over all data, image sizes, series of calls and random numbers", "anchors": ["misfit/model/kin_model.py: KinModel2D.scale_model, model_chisq, model_llike, make_model, update_model", "misfit/fit/fit_core.py: lnprob, _run_mcmc_emcee_221, _run_mcmc_emcee_3"]}
{"id": "C241", "title": "A spectrum reversed about its line is fitted by the reversed rotation", "statement": "If flux, error, mask, weights and sky-free columns are reversed in wavelength, and one emission line lies in the middle of an equally spaced wavelength (or velocity) axis, then the log-likelihood of the reversed data at rotation speed -v is the log-likelihood of the data at v, whatever was evaluated before, and an evaluation that raises does so for both with the same exception. The posteriors agree where both parameter sets are inside their bounds or both outside. For a disc in the middle of the slit, without a PSF or with odd numbers of subpixels, data turned by half a turn (rows and wavelengths together) have the likelihood and posterior of the data at the same parameters. A sampling run on the turned data with the same random numbers then returns the same samples and log-probabilities or ends in the same exception, if the bounds allow only nonzero turnover radii and positive dispersions.", "quantifier": "all data including NaN, all image sizes, PSFs, resolutions, inclinations, positions, sampling options, scaled or not, all fitting vectors with nonzero dispersion, all earlier calls (that succeed, with adaptive sampling)", "why_tests_cant": "quantifies over all observations, set-ups and series of earlier calls", "anchors": ["misfit/model/kin_model.py: KinModel2D.make_model, update_model, scale_model, model_llike", "misfit/model/aper_model.py: AperModel2D", "misfit/fit/fit_core.py: lnlike, lnprob"]}
{"id": "C242", "title": "The samples for a reversed spectrum are the mirrored samples", "statement": "Take a spectrum with one line in the middle of an equally spaced axis, and the spectrum reversed in wavelength. With the bounds of the rotation speed mirrored, the posterior of the reversed spectrum at the opposite speed equals the posterior of the spectrum for every fitting vector, of whatever length. A sampling run on the reversed spectrum with mirrored starting points and the same random numbers of stretch moves returns the samples of the run on the spectrum with the sign of the speed changed, with the same log-probabilities, or ends in the same exception.", "quantifier": "all data, set-ups, earlier calls, bounds that allow only nonzero turnover radii and positive dispersions, starting points, numbers of steps and walkers, sampler options, stored steps, and all proposals that commute with the mirror (stretch moves do)", "why_tests_cant": "quantifies over all observations, random numbers and lengths of the run", "anchors": ["misfit/fit/fit_core.py: lnprob, _run_mcmc_emcee_221, _run_mcmc_emcee_3", "misfit/model/kin_classes.py: ThetaPriorFlat.log_prior", "misfit/model/kin_model.py: KinModel2D"]}
