{
 "claims": [
  {
   "property": "C01",
   "status": "proved",
   "theorems": [
    "Misfit.C01_update_exact",
    "Misfit.C01_update_wrong_length"
   ],
   "note": ""
  },
  {
   "property": "C02",
   "status": "proved",
   "theorems": [
    "Misfit.C02_history"
   ],
   "note": ""
  },
  {
   "property": "C03",
   "status": "proved",
   "theorems": [
    "Misfit.C03_prior_indicator",
    "Misfit.C03_fixed_bounds_irrelevant",
    "Misfit.C03_short_vector",
    "Misfit.C03_nan_rejected"
   ],
   "note": ""
  },
  {
   "property": "C04",
   "status": "proved",
   "theorems": [
    "Misfit.C04_range",
    "Misfit.C04_inside",
    "Misfit.C04_outside",
    "Misfit.C04_flat_prior_outside"
   ],
   "note": ""
  },
  {
   "property": "C05",
   "status": "proved",
   "theorems": [
    "Misfit.C05_walkers_inside",
    "Misfit.C05_infinite_lower_bound_degenerate",
    "Misfit.C05_infinite_lower_bound_rejected",
    "Misfit.C05_reversed_bounds_rejected",
    "Misfit.C05_between"
   ],
   "note": "Finite bounds. With an infinite lower bound the start positions are NaN, with reversed bounds every walker is rejected; both proved."
  },
  {
   "property": "C06",
   "status": "proved",
   "theorems": [
    "Misfit.C06_nonneg_zero_iff",
    "Misfit.C06_masked_irrelevant",
    "Misfit.C06_masked_nan_poisons",
    "Misfit.C06_no_weight_is_unit_weight"
   ],
   "note": ""
  },
  {
   "property": "C07",
   "status": "proved",
   "theorems": [
    "Misfit.C07_llike_affine",
    "Misfit.C07_ranking",
    "Misfit.C07_fails_for_fractional_mask"
   ],
   "note": ""
  },
  {
   "property": "C08",
   "status": "partial",
   "theorems": [
    "Misfit.C08_false",
    "Misfit.C08_exact",
    "Misfit.C08_finite_chisq_partial"
   ],
   "note": "False as stated: an unmasked pixel with zero error survives (C08_false). Proved when no unmasked pixel has zero error. C08_exact: the chi-square is finite for all finite models exactly when no usable pixel has error zero."
  },
  {
   "property": "C09",
   "status": "proved",
   "theorems": [
    "Misfit.C09_scaling_optimal",
    "Misfit.C09_scaling_unique"
   ],
   "note": ""
  },
  {
   "property": "C10",
   "status": "proved",
   "theorems": [
    "Misfit.C10_amplitude_independent",
    "Misfit.C10_sign_irrelevant",
    "Misfit.C10_idempotent"
   ],
   "note": ""
  },
  {
   "property": "C11",
   "status": "partial",
   "theorems": [
    "Misfit.C11_false",
    "Misfit.C11_scaling_minimises_chisq_partial",
    "Misfit.C11_exact"
   ],
   "note": "False as stated (C11_false: the scaling ignores mask and weights). Proved when the unmasked pixels are the sky-free columns and weights are constant along rows; C11_exact gives the exact condition: the best factor of the sky-free columns is the best factor of the unmasked, weighted pixels in every row."
  },
  {
   "property": "C12",
   "status": "proved",
   "theorems": [
    "Misfit.C12_missing_exact",
    "Misfit.C12_missing_empty",
    "Misfit.C12_missing_monotone",
    "Misfit.C12_from1D_exact",
    "Misfit.C12_sky_monotone",
    "Misfit.C12_lowsnr_monotone",
    "Misfit.C12_edges_monotone",
    "Misfit.C12_missing1D"
   ],
   "note": "The missing-data step is proved for 2D and 1D spectra."
  },
  {
   "property": "C13",
   "status": "proved",
   "theorems": [
    "Misfit.C13_unmasked_kept",
    "Misfit.C13_finite_kept",
    "Misfit.C13_filled",
    "Misfit.C13_all_finite"
   ],
   "note": ""
  },
  {
   "property": "C14",
   "status": "proved",
   "theorems": [
    "Misfit.C14_partition",
    "Misfit.C14_quadrature",
    "Misfit.C14_errors",
    "Misfit.C14_helper_drops_nan",
    "Misfit.C14_helper_partition"
   ],
   "note": ""
  },
  {
   "property": "C15",
   "status": "proved",
   "theorems": [
    "Misfit.C15_runs"
   ],
   "note": ""
  },
  {
   "property": "C16",
   "status": "proved",
   "theorems": [
    "Misfit.C16_kept_rows"
   ],
   "note": ""
  },
  {
   "property": "C17",
   "status": "partial",
   "theorems": [
    "Misfit.C17_false",
    "Misfit.C17_outward_partial",
    "Misfit.C17_exact"
   ],
   "note": "False as stated (C17_false): only the outermost low row of each half extends outwards, which is what is proved. C17_exact gives the exact set of masked rows."
  },
  {
   "property": "C18",
   "status": "partial",
   "theorems": [
    "Misfit.C18_exact",
    "Misfit.C18_left_edge_partial",
    "Misfit.C18_false",
    "Misfit.C18_false_wrap"
   ],
   "note": "Exact behaviour proved; the claim is false for the right edge, which loses num+2 pixels or none."
  },
  {
   "property": "C19",
   "status": "proved",
   "theorems": [
    "Misfit.C19_exact_columns",
    "Misfit.C19_continuum_arrays",
    "Misfit.C19_restwave",
    "Misfit.C19_rest_frame",
    "Misfit.C19_errors",
    "Misfit.C19_sizes"
   ],
   "note": ""
  },
  {
   "property": "C20",
   "status": "partial",
   "theorems": [
    "Misfit.C20_lockstep_partial",
    "Misfit.C20_false",
    "Misfit.C20_false_dither",
    "Misfit.C20_exact"
   ],
   "note": "False as stated: the top row is always lost (C20_false), dithers make it worse. Lockstep of the arrays is proved. C20_exact: no row is removed only if there is none."
  },
  {
   "property": "C21",
   "status": "proved",
   "theorems": [
    "Misfit.C21_normalised",
    "Misfit.C21_no_usable_row",
    "Misfit.C21_up_edges",
    "Misfit.C21_none",
    "Misfit.C21_optimal",
    "Misfit.C21_unknown",
    "Misfit.C21_scale_invariant"
   ],
   "note": ""
  },
  {
   "property": "C22",
   "status": "proved",
   "theorems": [
    "Misfit.C22_isometry",
    "Misfit.C22_bijective",
    "Misfit.C22_axes"
   ],
   "note": ""
  },
  {
   "property": "C23",
   "status": "proved",
   "theorems": [
    "Misfit.C23_range",
    "Misfit.C23_antitone",
    "Misfit.C23_agrees",
    "Misfit.C23_outside"
   ],
   "note": ""
  },
  {
   "property": "C24",
   "status": "proved",
   "theorems": [
    "Misfit.C24_normalised",
    "Misfit.C24_generate"
   ],
   "note": ""
  },
  {
   "property": "C25",
   "status": "proved",
   "theorems": [
    "Misfit.C25_inslit",
    "Misfit.C25_unproject",
    "Misfit.C25_physical"
   ],
   "note": ""
  },
  {
   "property": "C26",
   "status": "proved",
   "theorems": [
    "Misfit.C26_values",
    "Misfit.C26_shape",
    "Misfit.C26_line_of_sight",
    "Misfit.C26_symmetry",
    "Misfit.C26_zero_turnover"
   ],
   "note": ""
  },
  {
   "property": "C27",
   "status": "partial",
   "theorems": [
    "Misfit.C27_exact",
    "Misfit.C27_decreasing_partial",
    "Misfit.C27_strict_partial",
    "Misfit.C27_false"
   ],
   "note": "False for Sersic index below 0.162 (C27_false). C27_exact: true exactly from 0.162 on."
  },
  {
   "property": "C28",
   "status": "proved",
   "theorems": [
    "Misfit.C28_normalised",
    "Misfit.C28_monotone",
    "Misfit.C28_scale_free"
   ],
   "note": ""
  },
  {
   "property": "C29",
   "status": "proved",
   "theorems": [
    "Misfit.C29_routing",
    "Misfit.C29_rest_irrelevant",
    "Misfit.C29_fiducial",
    "Misfit.C29_no_velocity"
   ],
   "note": ""
  },
  {
   "property": "C30",
   "status": "proved",
   "theorems": [
    "Misfit.C30_nearest",
    "Misfit.C30_no_wavelengths",
    "Misfit.C30_flux"
   ],
   "note": ""
  },
  {
   "property": "C31",
   "status": "proved",
   "theorems": [
    "Misfit.C31_flux",
    "Misfit.C31_linear",
    "Misfit.C31_additive",
    "Misfit.C31_sign",
    "Misfit.C31_mixed"
   ],
   "note": ""
  },
  {
   "property": "C32",
   "status": "proved",
   "theorems": [
    "Misfit.C32_no_psf",
    "Misfit.C32_conserves",
    "Misfit.C32_amplitude",
    "Misfit.C32_nonneg"
   ],
   "note": ""
  },
  {
   "property": "C33",
   "status": "proved",
   "theorems": [
    "Misfit.C33_blocks",
    "Misfit.C33_identity",
    "Misfit.C33_error"
   ],
   "note": ""
  },
  {
   "property": "C34",
   "status": "proved",
   "theorems": [
    "Misfit.C34_conserves",
    "Misfit.C34_uniform",
    "Misfit.C34_nonneg",
    "Misfit.C34_array"
   ],
   "note": ""
  },
  {
   "property": "C35",
   "status": "proved",
   "theorems": [
    "Misfit.C35_grid",
    "Misfit.C35_padding",
    "Misfit.C35_error"
   ],
   "note": ""
  },
  {
   "property": "C36",
   "status": "partial",
   "theorems": [
    "Misfit.C36_spacing_partial",
    "Misfit.C36_false",
    "Misfit.C36_exact"
   ],
   "note": "False for every physical grid with two or more subpixels (C36_false): spacing is deltY*(nY-1-S)/(nY-1). That spacing and the centring of the grid are proved. C36_exact: the spacing is as described only for a grid of a single subpixel."
  },
  {
   "property": "C37",
   "status": "partial",
   "theorems": [
    "Misfit.C37_update_partial",
    "Misfit.C37_exact",
    "Misfit.C37_false"
   ],
   "note": "False for redshift and centre shift (C37_false), which are read only when the model is built; C37_exact describes every update. Proved when these two are unchanged."
  },
  {
   "property": "C38",
   "status": "partial",
   "theorems": [
    "Misfit.C38_restores",
    "Misfit.C38_shape",
    "Misfit.C38_fine_grid",
    "Misfit.C38_sum",
    "Misfit.C38_false_numpy",
    "Misfit.C38_false_stuck",
    "Misfit.C38_false_calibration",
    "Misfit.C38_transparent_partial"
   ],
   "note": "Restoration, shape, fine grid and block sum proved. False: flux calibration (values are summed, not averaged), non-integer factors leave the fine grid behind, and numpy without np.float."
  },
  {
   "property": "C39",
   "status": "proved",
   "theorems": [
    "Misfit.C39_stop",
    "Misfit.C39_budget",
    "Misfit.C39_returns"
   ],
   "note": ""
  },
  {
   "property": "C40",
   "status": "proved",
   "theorems": [
    "Misfit.C40_aligned",
    "Misfit.C40_once"
   ],
   "note": ""
  },
  {
   "property": "C41",
   "status": "partial",
   "theorems": [
    "Misfit.C41_columns_partial",
    "Misfit.C41_names",
    "Misfit.C41_false",
    "Misfit.C41_error"
   ],
   "note": "False as stated: every further analysis appends four more columns (C41_false, for every chain). The row-by-row content of the first analysis and the error branch are proved."
  },
  {
   "property": "C42",
   "status": "partial",
   "theorems": [
    "Misfit.C42_nested",
    "Misfit.C42_within",
    "Misfit.C42_unlinked",
    "Misfit.C42_linked1_partial",
    "Misfit.C42_linked2_partial",
    "Misfit.C42_all",
    "Misfit.C42_false_second",
    "Misfit.C42_false_restart",
    "Misfit.C42_exact"
   ],
   "note": "Nestedness is proved for every non-empty column. The uncertainty claim is false after linked analysis: from the second linked set on the 1-sigma errors use the 2-sigma limits (C42_false_second), and the 2-sigma errors may refer to a different peak than the reported one (C42_false_restart). C42_linked1_partial and C42_linked2_partial say exactly what holds. C42_all: which columns the word all stands for. C42_exact: the 1-sigma errors of a parameter refer to its 1-sigma limits exactly if it is in no linked set but possibly the first, or its limits agree."
  },
  {
   "property": "C43",
   "status": "proved",
   "theorems": [
    "Misfit.C43_percentage",
    "Misfit.C43_zero"
   ],
   "note": ""
  },
  {
   "property": "C44",
   "status": "proved",
   "theorems": [
    "Misfit.C44_corrected",
    "Misfit.C44_stored"
   ],
   "note": ""
  },
  {
   "property": "C45",
   "status": "partial",
   "theorems": [
    "Misfit.C45_line",
    "Misfit.C45_density_partial",
    "Misfit.C45_false",
    "Misfit.C45_exact",
    "Misfit.C45_degenerate",
    "Misfit.C45_linear",
    "Misfit.C45_scaling"
   ],
   "note": "Linearity proved. The profile is flux times the normal density only if the line centre is a pixel; otherwise it is rescaled (C45_false). C45_exact: exactly then (or for zero flux)."
  },
  {
   "property": "C46",
   "status": "partial",
   "theorems": [
    "Misfit.C46_lookup",
    "Misfit.C46_complete_partial",
    "Misfit.C46_ranges_partial",
    "Misfit.C46_windows_partial",
    "Misfit.C46_exact",
    "Misfit.C46_false"
   ],
   "note": "Lookup proved for every table and key. False for the groups NII, SII and OII, which have no ranges (C46_false). C46_exact: of all names only Halpha, Hbeta and OIII can be prepared."
  },
  {
   "property": "C47",
   "status": "partial",
   "theorems": [
    "Misfit.C47_lineset",
    "Misfit.C47_lineset_idem",
    "Misfit.C47_flag",
    "Misfit.C47_idempotent_partial",
    "Misfit.C47_failed",
    "Misfit.C47_runs",
    "Misfit.C47_false",
    "Misfit.C47_prepare"
   ],
   "note": "User line lists proved. Idempotence proved for every preparation when repeated calls bring no changed keywords; false for a repeated call with linenames_arr=None (C47_false)."
  },
  {
   "property": "C48",
   "status": "proved",
   "theorems": [
    "Misfit.C48_setAttr"
   ],
   "note": ""
  },
  {
   "property": "C49",
   "status": "partial",
   "theorems": [
    "Misfit.C49_shape_partial",
    "Misfit.C49_false_beta",
    "Misfit.C49_exact",
    "Misfit.C49_dither_gauss",
    "Misfit.C49_false_dither",
    "Misfit.C49_dispatch",
    "Misfit.C49_orientation"
   ],
   "note": "Shape proved for every FWHM and (Moffat) beta > 1; false for beta <= 1 (C49_false_beta). Dither images proved for the Gaussian, false for Moffat (C49_false_dither). C49_exact: exactly Gaussians and Moffat profiles with beta > 1."
  },
  {
   "property": "C50",
   "status": "partial",
   "theorems": [
    "Misfit.C50_inside",
    "Misfit.C50_centroid",
    "Misfit.C50_overlap_partial",
    "Misfit.C50_false",
    "Misfit.C50_right",
    "Misfit.C50_exact",
    "Misfit.C50_shift",
    "Misfit.C50_false_dispersion"
   ],
   "note": "Inside the slit and for overlapping objects the claim holds (C50_inside, C50_centroid, C50_overlap_partial, C50_right, C50_shift); it is false for objects entirely to the left of the slit, whose effective width is always negative (C50_false, C50_false_dispersion). C50_exact: the effective width is between 0 and the slit width exactly if the object reaches into the slit or lies to the right of it."
  },
  {
   "property": "C51",
   "status": "proved",
   "theorems": [
    "Misfit.C51_disp",
    "Misfit.C51_misalign",
    "Misfit.C51_rot",
    "Misfit.C51_unknown",
    "Misfit.C51_model"
   ],
   "note": ""
  },
  {
   "property": "C52",
   "status": "proved",
   "theorems": [
    "Misfit.C52_reversible",
    "Misfit.C52_disabled",
    "Misfit.C52_windows",
    "Misfit.C52_default_ranges",
    "Misfit.C52_line_flux_irrelevant"
   ],
   "note": ""
  },
  {
   "property": "C53",
   "status": "proved",
   "theorems": [
    "Misfit.C53_mock",
    "Misfit.C53_grid"
   ],
   "note": ""
  },
  {
   "property": "C54",
   "status": "partial",
   "theorems": [
    "Misfit.C54_false",
    "Misfit.C54_trim_1D_partial",
    "Misfit.C54_exact"
   ],
   "note": "False for a plain Python redshift (C54_false); proved for numpy redshifts. C54_exact: exactly for a numpy redshift and a range with a pixel in it."
  },
  {
   "property": "C55",
   "status": "partial",
   "theorems": [
    "Misfit.C55_false",
    "Misfit.C55_mirrored_partial",
    "Misfit.C55_exact",
    "Misfit.C55_radius"
   ],
   "note": "False: the position angle is mirrored (C55_false); proved up to the mirror image. C55_exact: the radii agree at a position exactly if it is on an axis of the slit, or the galaxy is round, or aligned with or across the slit."
  },
  {
   "property": "C56",
   "status": "partial",
   "theorems": [
    "Misfit.C56_false",
    "Misfit.C56_exact",
    "Misfit.C56_broadened_partial"
   ],
   "note": "False for zero dispersion (NameError, C56_false); proved for positive dispersion. C56_exact: the cube exists exactly if some cell has a non-zero dispersion."
  },
  {
   "property": "C57",
   "status": "partial",
   "theorems": [
    "Misfit.C57_exact",
    "Misfit.C57_exact_grid",
    "Misfit.C57_centred_partial",
    "Misfit.C57_false",
    "Misfit.C57_point_source"
   ],
   "note": "False off the grid centre (C57_false). C57_exact gives the exact condition on the coordinates, C57_exact_grid for odd kernels: the object is at most half a grid step from the middle row and the middle of the slit."
  },
  {
   "property": "C58",
   "status": "partial",
   "theorems": [
    "Misfit.C58_partial",
    "Misfit.C58_false",
    "Misfit.C58_exact"
   ],
   "note": "False with adaptive sampling, the default (C58_false); proved without. C58_exact: the claim holds exactly without adaptive sampling, with rebinned output or with one sub-pixel per pixel."
  },
  {
   "property": "C59",
   "status": "partial",
   "theorems": [
    "Misfit.C59_caution_partial",
    "Misfit.C59_exact",
    "Misfit.C59_false"
   ],
   "note": "False as stated: convergence at the last allowed step still writes the warning (C59_false); C59_exact says exactly when the warning is written."
  },
  {
   "property": "C60",
   "status": "partial",
   "theorems": [
    "Misfit.C60_abs_partial",
    "Misfit.C60_false",
    "Misfit.C60_fixed",
    "Misfit.C60_exact"
   ],
   "note": "False as stated: with a fixed dispersion every column is replaced by absolute values (C60_false, C60_fixed). C60_exact: exactly if the dispersion is free or no sample is changed by taking the absolute value."
  },
  {
   "property": "C61",
   "status": "proved",
   "theorems": [
    "Misfit.C61_seed",
    "Misfit.C61_exists",
    "Misfit.C61_bins",
    "Misfit.C61_value"
   ],
   "note": ""
  },
  {
   "property": "C62",
   "status": "partial",
   "theorems": [
    "Misfit.C62_setup_partial",
    "Misfit.C62_exact",
    "Misfit.C62_false_ignored",
    "Misfit.C62_false_mixed"
   ],
   "note": "False when line data are given to the fit object (C62_false_ignored, C62_false_mixed); proved when none are given to it. C62_exact: what fit object and spectrum have after setting up, for all inputs."
  },
  {
   "property": "C67",
   "status": "partial",
   "theorems": [
    "Misfit.C67_false",
    "Misfit.C67_others_partial",
    "Misfit.C67_exact"
   ],
   "note": "False for the redshift (C67_false, for every keyword set); proved for the dispersion. C67_exact: both starting values are used exactly if the redshift is the galaxy's."
  },
  {
   "property": "C68",
   "status": "partial",
   "theorems": [
    "Misfit.C68_overwritten",
    "Misfit.C68_effective",
    "Misfit.C68_named",
    "Misfit.C68_keywords_partial",
    "Misfit.C68_false_profiles",
    "Misfit.C68_false_intensity",
    "Misfit.C68_false_options"
   ],
   "note": "The general rules are proved. Keywords of elementary profiles and the model's own options never take effect (C68_false_*)."
  },
  {
   "property": "C69",
   "status": "partial",
   "theorems": [
    "Misfit.C69_false_unknown",
    "Misfit.C69_kept_partial",
    "Misfit.C69_exact",
    "Misfit.C69_false_waves"
   ],
   "note": "False for wavelengths without ratios and for unknown keywords (C69_false_*). C69_exact: given wavelengths are kept exactly if ratios are given too or they equal the tables."
  },
  {
   "property": "C70",
   "status": "partial",
   "theorems": [
    "Misfit.C70_frame_partial",
    "Misfit.C70_own",
    "Misfit.C70_false",
    "Misfit.C70_false_fixed",
    "Misfit.C70_exact"
   ],
   "note": "False for models built with default arguments, which share mutable objects (C70_false, C70_false_fixed). Proved for separate objects. C70_exact: independence holds exactly if the profile is not shared and either the parameter array is not shared or nothing is free."
  },
  {
   "property": "C63",
   "status": "partial",
   "theorems": [
    "Misfit.C63_false",
    "Misfit.C63_no_errors_partial",
    "Misfit.C63_exact"
   ],
   "note": "False with error estimation, which always ends in an exception (C63_false). Proved without it. C63_exact: the exact condition for a normal return."
  },
  {
   "property": "C64",
   "status": "partial",
   "theorems": [
    "Misfit.C64_absent",
    "Misfit.C64_false",
    "Misfit.C64_by_hand_partial",
    "Misfit.C64_exact_partial"
   ],
   "note": "False: the code reads an attribute that spectra never have (C64_false, C64_absent). Proved if it is added by hand. Exact condition: errors are stored, and no exception raised, iff there is a file name, saved values, and that attribute (C64_exact_partial)."
  },
  {
   "property": "C65",
   "status": "partial",
   "theorems": [
    "Misfit.C65_nonneg_partial",
    "Misfit.C65_exact",
    "Misfit.C65_false",
    "Misfit.C65_object_partial"
   ],
   "note": "False when the first fit has exactly one negative value (C65_false). Proved otherwise. C65_exact: the sign is guaranteed exactly outside the two mixed cases."
  },
  {
   "property": "C66",
   "status": "partial",
   "theorems": [
    "Misfit.C66_false_sets",
    "Misfit.C66_exact",
    "Misfit.C66_residual_partial",
    "Misfit.C66_false"
   ],
   "note": "False for non-positive dispersion, for any collection of lines (C66_false, C66_false_sets). Proved for positive dispersion; C66_exact: the claim holds exactly for positive dispersions."
  },
  {
   "property": "C71",
   "status": "proved",
   "theorems": [
    "Misfit.C71_disp",
    "Misfit.C71_rot",
    "Misfit.C71_boxcar",
    "Misfit.C71_rot_pad"
   ],
   "note": ""
  },
  {
   "property": "C72",
   "status": "partial",
   "theorems": [
    "Misfit.C72_default_partial",
    "Misfit.C72_false",
    "Misfit.C72_false_sigma_e"
   ],
   "note": "False: sigma_aper_dispersion ignores the slope of the model (C72_false), sigma_e uses it (C72_false_sigma_e); true for the default slope -0.089 (C72_default_partial)."
  },
  {
   "property": "C73",
   "status": "partial",
   "theorems": [
    "Misfit.C73_false_first",
    "Misfit.C73_false_second",
    "Misfit.C73_first_partial",
    "Misfit.C73_exact"
   ],
   "note": "False: with seeing the 2D stamp meets a 3D cube (ValueError, C73_false_first); a second calculation raises AttributeError (C73_false_second). Without seeing the first calculation works (C73_first_partial). C73_exact: the first calculation returns exactly if both options are off or there is no seeing."
  },
  {
   "property": "C74",
   "status": "partial",
   "theorems": [
    "Misfit.C74_false",
    "Misfit.C74_partial",
    "Misfit.C74_exact"
   ],
   "note": "False: the stamp is stored in the shared PSF object; a 1D model built last makes every update of the 2D model fail (C74_false). True without seeing or when later models store the same stamp (C74_partial). C74_exact: exactly if there is no seeing, nothing was built later, or the last stamp gives the same convolution."
  },
  {
   "property": "C75",
   "status": "proved",
   "theorems": [
    "Misfit.C75_ratio",
    "Misfit.C75_special"
   ],
   "note": ""
  },
  {
   "property": "C76",
   "status": "proved",
   "theorems": [
    "Misfit.C76_linear_removed",
    "Misfit.C76_clean"
   ],
   "note": ""
  },
  {
   "property": "C77",
   "status": "partial",
   "theorems": [
    "Misfit.C77_false",
    "Misfit.C77_exact_partial"
   ],
   "note": "False: the temporary mask is a numpy view (arr[:]), so sky pixels are zeroed in the stored 1D mask (C77_false). C77_exact_partial gives the mask that is stored."
  },
  {
   "property": "C78",
   "status": "proved",
   "theorems": [
    "Misfit.C78_nonneg",
    "Misfit.C78_sign_needed"
   ],
   "note": ""
  },
  {
   "property": "C79",
   "status": "proved",
   "theorems": [
    "Misfit.C79_amplitude"
   ],
   "note": "For a positive constant."
  },
  {
   "property": "C80",
   "status": "proved",
   "theorems": [
    "Misfit.C80_closed_form"
   ],
   "note": ""
  },
  {
   "property": "C81",
   "status": "partial",
   "theorems": [
    "Misfit.C81_shift_partial",
    "Misfit.C81_false"
   ],
   "note": "False as stated (C81_false: with three rows a one-pixel shift moves a point source by two rows, because the rows of the model grid are not one pixel apart, see C36). Proved: the shift that moves the image by one row is ((N-1)S-1)/(NS-1) pixels."
  },
  {
   "property": "C82",
   "status": "proved",
   "theorems": [
    "Misfit.C82_moments"
   ],
   "note": ""
  },
  {
   "property": "C83",
   "status": "proved",
   "theorems": [
    "Misfit.C83_value",
    "Misfit.C83_no_freedom",
    "Misfit.C83_calibrated",
    "Misfit.C83_masked_irrelevant"
   ],
   "note": ""
  },
  {
   "property": "C84",
   "status": "proved",
   "theorems": [
    "Misfit.C84_light_irrelevant",
    "Misfit.C84_all_data",
    "Misfit.C84_posterior",
    "Misfit.C84_run"
   ],
   "note": "C84_all_data and C84_posterior hold for all data; C84_light_irrelevant is the earlier form for finite data."
  },
  {
   "property": "C85",
   "status": "proved",
   "theorems": [
    "Misfit.C85_history",
    "Misfit.C85_posterior"
   ],
   "note": ""
  },
  {
   "property": "C86",
   "status": "partial",
   "theorems": [
    "Misfit.C86_false",
    "Misfit.C86_false_witness"
   ],
   "note": "False of the code: after the model is built the image and likelihood are flat in centre shift and redshift (C86_false); the witness shows a first build does respond to redshift."
  },
  {
   "property": "C87",
   "status": "partial",
   "theorems": [
    "Misfit.C87_first_partial",
    "Misfit.C87_centred_partial",
    "Misfit.C87_false",
    "Misfit.C87_exact"
   ],
   "note": "Holds for the first successful call (C87_first_partial); false afterwards, galaxy and instrument are ignored (C87_false). C87_exact: the model is the one asked for exactly if there was none before or one of the same galaxy and instrument."
  },
  {
   "property": "C88",
   "status": "partial",
   "theorems": [
    "Misfit.C88_wrong_number_partial",
    "Misfit.C88_false",
    "Misfit.C88_exact"
   ],
   "note": "Holds for a wrong number of parameters; false for update_model before make_model, which raises AttributeError with theta overwritten (C88_false). C88_exact: after any history, every call with the right number of parameters stores them, whether or not it raises."
  },
  {
   "property": "C89",
   "status": "partial",
   "theorems": [
    "Misfit.C89_average_partial",
    "Misfit.C89_false_same",
    "Misfit.C89_false_binning",
    "Misfit.C89_false_finer",
    "Misfit.C89_false_outside",
    "Misfit.C89_exact"
   ],
   "note": "Proved for new pixels whose edges lie strictly inside two different old pixels. False: coinciding edges count edge pixels twice (the same grid triples every value), finer pixels and pixels beyond the data are wrong (C89_false_*). C89_exact: the result for every new pixel as a closed formula, and exactly when it is the average."
  },
  {
   "property": "C90",
   "status": "proved",
   "theorems": [
    "Misfit.C90_sign",
    "Misfit.C90_plain",
    "Misfit.C90_range"
   ],
   "note": "The ranges are sharp at 540 degrees (C90_range)."
  },
  {
   "property": "C91",
   "status": "proved",
   "theorems": [
    "Misfit.C91_bearing",
    "Misfit.C91_axes",
    "Misfit.C91_units"
   ],
   "note": ""
  },
  {
   "property": "C92",
   "status": "proved",
   "theorems": [
    "Misfit.C92_rotation",
    "Misfit.C92_corners"
   ],
   "note": ""
  },
  {
   "property": "C93",
   "status": "partial",
   "theorems": [
    "Misfit.C93_angle_partial",
    "Misfit.C93_false",
    "Misfit.C93_exact"
   ],
   "note": "False for CD2_2 = 0 and negative CD2_1 (90 instead of -90 degrees). C93_exact: exactly if CD2_2 is not zero or CD2_1 not negative."
  },
  {
   "property": "C94",
   "status": "partial",
   "theorems": [
    "Misfit.C94_centre_partial",
    "Misfit.C94_exact",
    "Misfit.C94_false"
   ],
   "note": "True for images oriented north up; otherwise the image angle is ignored (C94_false). scipy's rotation direction is taken from the source comment. C94_exact: exactly for an object at the centre or an image angle that is a multiple of 360 degrees."
  },
  {
   "property": "C95",
   "status": "proved",
   "theorems": [
    "Misfit.C95_position",
    "Misfit.C95_returns",
    "Misfit.C95_short"
   ],
   "note": "The fits are oracles; fits to fewer rows than parameters are refused. A spectrum of five to ten rows with a narrow window raises ValueError (C95_short)."
  },
  {
   "property": "C96",
   "status": "partial",
   "theorems": [
    "Misfit.C96_row_partial",
    "Misfit.C96_false",
    "Misfit.C96_exact",
    "Misfit.C96_false_witness"
   ],
   "note": "Proved away from the edges; false after trimming for the lowest five and the highest ten rows (C96_false, C96_false_witness). C96_exact: which row is read and which exception is raised, for every number of rows."
  },
  {
   "property": "C97",
   "status": "partial",
   "theorems": [
    "Misfit.C97_without_position_partial",
    "Misfit.C97_false",
    "Misfit.C97_exact"
   ],
   "note": "Proved when the first window is between five rows and the number of rows minus five; otherwise TypeError, always for pixels of 0.375 arcsec or more without dither (C97_false). C97_exact: without dither and position the call returns exactly for pixels below 0.375 arcsec and enough rows."
  },
  {
   "property": "C98",
   "status": "proved",
   "theorems": [
    "Misfit.C98_rules",
    "Misfit.C98_bounded_shift"
   ],
   "note": ""
  },
  {
   "property": "C99",
   "status": "proved",
   "theorems": [
    "Misfit.C99_outcome",
    "Misfit.C99_measured_iff"
   ],
   "note": ""
  },
  {
   "property": "C100",
   "status": "proved",
   "theorems": [
    "Misfit.C100_window"
   ],
   "note": ""
  },
  {
   "property": "C101",
   "status": "partial",
   "theorems": [
    "Misfit.C101_masked_rows_partial",
    "Misfit.C101_exact",
    "Misfit.C101_false"
   ],
   "note": "Proved if the largest value of the profile does not change; otherwise false: a NaN in a masked row makes the starting amplitude NaN and all residuals zero (C101_false). C101_exact: exactly if the largest value of the profile stays or the extent is never measured."
  },
  {
   "property": "C102",
   "status": "partial",
   "theorems": [
    "Misfit.C102_returns_partial",
    "Misfit.C102_false",
    "Misfit.C102_exact"
   ],
   "note": "Proved for at least two rows; a single usable row raises ValueError because lmfit refuses equal bounds (C102_false). C102_exact: the exact condition for a return, and the only exception."
  },
  {
   "property": "C103",
   "status": "partial",
   "theorems": [
    "Misfit.C103_start_partial",
    "Misfit.C103_exact",
    "Misfit.C103_false"
   ],
   "note": "The closed bounds are respected; the bounded width always starts on its upper bound for pixels up to 0.5 arcsec (C103_false). C103_exact: when the starting values are strictly inside their bounds."
  },
  {
   "property": "C104",
   "status": "proved",
   "theorems": [
    "Misfit.C104_errors"
   ],
   "note": ""
  },
  {
   "property": "C105",
   "status": "partial",
   "theorems": [
    "Misfit.C105_shape",
    "Misfit.C105_normalised_partial",
    "Misfit.C105_false",
    "Misfit.C105_exact",
    "Misfit.C105_bad_width",
    "Misfit.C105_triple"
   ],
   "note": "Shape and NaN behaviour proved; the integral is A*sqrt(sigma), equal to A only for unit width (C105_false). C105_exact: exactly for amplitude zero or unit width."
  },
  {
   "property": "C106",
   "status": "partial",
   "theorems": [
    "Misfit.C106_outcome_partial",
    "Misfit.C106_false",
    "Misfit.C106_false_single",
    "Misfit.C106_cube_partial",
    "Misfit.C106_exact"
   ],
   "note": "Exact condition for success proved, with and without adaptive sampling (padded size divides the number of subpixels); closed form and consistency with the slit image without point spread function. With padding the cube is rebinned to the padded size although it is already trimmed: ValueError or wrong size (C106_false). C106_exact: the cube has the size of the field exactly if the PSF needs no padding."
  },
  {
   "property": "C107",
   "status": "partial",
   "theorems": [
    "Misfit.C107_update_partial",
    "Misfit.C107_same_partial",
    "Misfit.C107_false",
    "Misfit.C107_exact",
    "Misfit.C107_psf_false"
   ],
   "note": "Proved for one subpixel without point spread function, for every history of updates; false otherwise: the update stores the subpixel cube before rebinning (C107_false). C107_exact: without point spread function exactly for one subpixel per pixel."
  },
  {
   "property": "C108",
   "status": "partial",
   "theorems": [
    "Misfit.C108_false",
    "Misfit.C108_keeps_partial"
   ],
   "note": "False for every object and every argument: the size of the image is only bound when the aperture model is built, NameError (C108_false)."
  },
  {
   "property": "C109",
   "status": "proved",
   "theorems": [
    "Misfit.C109_inside"
   ],
   "note": "emcee is modelled by its acceptance rule; samples an earlier run left in the HDF5 file (emcee 3, overwrite=False) are assumed inside."
  },
  {
   "property": "C110",
   "status": "proved",
   "theorems": [
    "Misfit.C110_prob"
   ],
   "note": "Same model; for samples left by an earlier run it is assumed."
  },
  {
   "property": "C111",
   "status": "partial",
   "theorems": [
    "Misfit.C111_count_partial",
    "Misfit.C111_continued_partial",
    "Misfit.C111_exact",
    "Misfit.C111_false"
   ],
   "note": "Proved for emcee 2 and for emcee 3 with overwrite; without overwrite the steps already in the file are returned too, even from a fit with other bounds (C111_false). C111_exact: the count holds exactly if nothing is appended to earlier steps (or there is no walker)."
  },
  {
   "property": "C112",
   "status": "partial",
   "theorems": [
    "Misfit.C112_returns_partial",
    "Misfit.C112_false",
    "Misfit.C112_false_default",
    "Misfit.C112_exact"
   ],
   "note": "Proved for emcee 3 and for more than one process. With emcee 2 on one process (NoThread, nCPUs=1, or default options on at most two CPUs) sampler.pool is None and its close() raises AttributeError after the last step, before anything is saved (C112_false, C112_false_default). What emcee itself does with one thread is part of the trusted interface. C112_exact: exactly with emcee 3 or more than one process."
  },
  {
   "property": "C113",
   "status": "proved",
   "theorems": [
    "Misfit.C113_limits"
   ],
   "note": "Composition of C109, C111 and C42. The best fit value itself (peak of a kernel density found by scipy's fmin) is an oracle and nothing is claimed about it."
  },
  {
   "property": "C114",
   "status": "proved",
   "theorems": [
    "Misfit.C114_scale",
    "Misfit.C114_chisq",
    "Misfit.C114_llike"
   ],
   "note": "Over all IEEE special values; exact arithmetic."
  },
  {
   "property": "C115",
   "status": "proved",
   "theorems": [
    "Misfit.C115_object",
    "Misfit.C115_posterior"
   ],
   "note": "For objects that scale the model to the data (no_scale=False, the default). Prepared data: the masks are given."
  },
  {
   "property": "C116",
   "status": "proved",
   "theorems": [
    "Misfit.C116_run"
   ],
   "note": "Proposals and diagnostics may depend on the positions of the walkers in any way. The posterior is that of the object after any series of calls; that it is a function of the parameters is C85."
  },
  {
   "property": "C117",
   "status": "proved",
   "theorems": [
    "Misfit.C117_setup"
   ],
   "note": "Histories may contain failing calls; new settings are C118."
  },
  {
   "property": "C118",
   "status": "partial",
   "theorems": [
    "Misfit.C118_new_partial",
    "Misfit.C118_stale_partial",
    "Misfit.C118_false",
    "Misfit.C118_exact_partial"
   ],
   "note": "False after a second set-up with other varying parameters: only the bounds of the prior are renewed, its vary flags stay (C118_false). Proved for the first set-up and for unchanged vary flags, with the exact value otherwise. Exact condition for complete settings: the prior is that of the new settings iff the parameters varying then and now pair up in order with the same admitted values (C118_exact_partial)."
  },
  {
   "property": "C119",
   "status": "partial",
   "theorems": [
    "Misfit.C119_reload_partial",
    "Misfit.C119_false"
   ],
   "note": "Proved for another object with the same inputs. False for the object that ran the fit: the derived columns are appended to its samples a second time, so there are four more best-fit values than names (C119_false)."
  },
  {
   "property": "C120",
   "status": "proved",
   "theorems": [
    "Misfit.C120_bestfit"
   ],
   "note": "Centre shift and redshift fixed, as in C85."
  },
  {
   "property": "C121",
   "status": "partial",
   "theorems": [
    "Misfit.C121_false",
    "Misfit.C121_analysis_partial",
    "Misfit.C121_exact"
   ],
   "note": "False with the dispersion fixed or with V_a and r_t both fixed: a derived column is constant and gaussian_kde raises for every chain (C121_false; in exact arithmetic, rounding can leave a tiny variance). Proved when the three kinematic parameters are free and every column varies. C121_exact: with the three kinematic parameters free, analysis returns exactly when no column and no derived column is constant."
  },
  {
   "property": "C122",
   "status": "partial",
   "theorems": [
    "Misfit.C122_reload_partial",
    "Misfit.C122_false"
   ],
   "note": "Loading restores the values, but the loaded galaxy has no attribute pstamp, which saving deletes: saving and fitting raise AttributeError (C122_false)."
  },
  {
   "property": "C123",
   "status": "partial",
   "theorems": [
    "Misfit.C123_own_partial",
    "Misfit.C123_false"
   ],
   "note": "False for fits created with the default results object, which is shared (C123_false, exact). Proved for own results objects."
  },
  {
   "property": "C124",
   "status": "proved",
   "theorems": [
    "Misfit.C124_floor",
    "Misfit.C124_flat",
    "Misfit.C124_no_axis"
   ],
   "note": "For the axis types wave and velocity; with any other axis type every evaluation is a TypeError (C124_no_axis). With refinement the factor must be at least 1."
  },
  {
   "property": "C125",
   "status": "proved",
   "theorems": [
    "Misfit.C125_range",
    "Misfit.C125_between",
    "Misfit.C125_prior",
    "Misfit.C125_folded"
   ],
   "note": "C125_folded covers absvalsigma=True. Assumption on scipy: the searches stop at local maxima of a Gaussian kernel density estimate, any bandwidth; bestPeak shows the assumption can be met."
  },
  {
   "property": "C126",
   "status": "proved",
   "theorems": [
    "Misfit.C126_cutout",
    "Misfit.C126_all_rows"
   ],
   "note": "For a spectrum without quality mask from an earlier call and with finite mask values. lmfit and np.median are arguments. C126_all_rows: with the continuum already subtracted and all rows above the cut, every good pixel is used."
  },
  {
   "property": "C127",
   "status": "partial",
   "theorems": [
    "Misfit.C127_sky_columns_partial",
    "Misfit.C127_sky_not_excluded",
    "Misfit.C127_false"
   ],
   "note": "The sky columns are found as stated (C127_sky_columns_partial) and zero in the sky mask, but the comment \"Combine full mask: missing + sky + low S/N\" is not what happens: the sky mask is never multiplied into the mask of the fit (C127_sky_not_excluded for all spectra, C127_false with a concrete sky line)."
  },
  {
   "property": "C128",
   "status": "proved",
   "theorems": [
    "Misfit.C128_angle",
    "Misfit.C128_prepares"
   ],
   "note": "lmfit and np.median are arguments that do not raise. `C128_angle` gives the outcome, exception included, by what is known of the angles."
  },
  {
   "property": "C129",
   "status": "partial",
   "theorems": [
    "Misfit.C129_retry_partial",
    "Misfit.C129_false"
   ],
   "note": "The second call succeeds (C129_retry_partial, continuum subtracted before) but the failed one has already cut off a row, so the result has one row less (C129_false)."
  },
  {
   "property": "C130",
   "status": "partial",
   "theorems": [
    "Misfit.C130_no_continuum_partial",
    "Misfit.C130_pixels_left",
    "Misfit.C130_false",
    "Misfit.C130_exact"
   ],
   "note": "Holds without continuum subtraction. With it the 1D spectrum is cut in place to the columns of the full range (C130_pixels_left); if an out-of-range column precedes one in range, a second copy of the 2D spectrum cannot be prepared any more (C130_false). C130_exact: the 1D spectrum keeps its pixels exactly if the continuum is not subtracted or all its pixels are in the full range."
  },
  {
   "property": "C131",
   "status": "proved",
   "theorems": [
    "Misfit.C131_redshift_window"
   ],
   "note": "lmfit's minimize and np.random are arguments; a minimiser 'respects' bounds when its result is inside them."
  },
  {
   "property": "C132",
   "status": "proved",
   "theorems": [
    "Misfit.C132_errors"
   ],
   "note": "For a matrix reloaded from a file, the file must have one column per parameter."
  },
  {
   "property": "C133",
   "status": "partial",
   "theorems": [
    "Misfit.C133_false",
    "Misfit.C133_width_partial"
   ],
   "note": "False (C133_false): the best fit may lie outside the percentile interval of the refits. For the redshift, the dispersion, every flux and every continuum coefficient, lower plus upper error is the non-negative width of that interval, and both are non-negative exactly if the best fit lies inside (C133_width_partial)."
  },
  {
   "property": "C134",
   "status": "partial",
   "theorems": [
    "Misfit.C134_false",
    "Misfit.C134_catalogue_partial"
   ],
   "note": "False (C134_false): names and wavelengths given by the user only matter through the first wavelength; the model is always built from the catalogue. With catalogued lines recorded and fitted wavelengths agree (C134_catalogue_partial)."
  },
  {
   "property": "C135",
   "status": "partial",
   "theorems": [
    "Misfit.C135_exact_partial",
    "Misfit.C135_overwritten",
    "Misfit.C135_same_partial",
    "Misfit.C135_false"
   ],
   "note": "False (C135_false, C135_overwritten): the trimmed spectrum belongs to the galaxy and is replaced by the second object. Holds for equal first group and trimming options (C135_same_partial). Exact condition: all fits of the first object stay the same iff the second object left the same trimmed spectrum (C135_exact_partial)."
  },
  {
   "property": "C136",
   "status": "partial",
   "theorems": [
    "Misfit.C136_false",
    "Misfit.C136_rest_partial",
    "Misfit.C136_exact"
   ],
   "note": "False for the redshift (C136_false): every setAttr resets it to the galaxy's. The other results are kept (C136_rest_partial). C136_exact: all results are kept exactly if the fitted redshift is the galaxy's."
  },
  {
   "property": "C137",
   "status": "partial",
   "theorems": [
    "Misfit.C137_order_partial",
    "Misfit.C137_range_false",
    "Misfit.C137_order_false",
    "Misfit.C137_count_partial"
   ],
   "note": "False for the wavelength range (C137_range_false, the spectrum is trimmed only by the constructor) and for a raised continuum order after a fit (C137_order_false, exception). Holds for the number of realisations (C137_count_partial) and for the order in every fit that stores a result (C137_order_partial)."
  },
  {
   "property": "C138",
   "status": "partial",
   "theorems": [
    "Misfit.C138_same_model_partial",
    "Misfit.C138_false",
    "Misfit.C138_exact"
   ],
   "note": "False when a masked pixel is nearest to a line (C138_false): gaussian_line normalises by the maximum over the pixels it is given, all of them for the stored model, only good ones in the fit. Holds when a good pixel is nearest to every line (C138_same_model_partial). C138_exact: with positive fluxes exactly then; otherwise the stored model is below the fitted one at every good pixel."
  },
  {
   "property": "C139",
   "status": "partial",
   "theorems": [
    "Misfit.C139_both_partial",
    "Misfit.C139_false",
    "Misfit.C139_exact"
   ],
   "note": "False when only one of wavelengths and ratios is given (C139_false): both are replaced by the catalogue's. Kept when both are given (C139_both_partial). C139_exact: the exact result for every set with names."
  },
  {
   "property": "C140",
   "status": "partial",
   "theorems": [
    "Misfit.C140_false",
    "Misfit.C140_no_range_false",
    "Misfit.C140_single_partial",
    "Misfit.C140_exact_partial"
   ],
   "note": "False for the mixed list Halpha, NII (C140_false, ragged array, current numpy) and for NII, SII, OII (C140_no_range_false, not in the 1D trimming table). C140_exact_partial says exactly which lists can be set up; C140_single_partial gives the trimmed spectrum for Halpha, Hbeta and OIII alone."
  },
  {
   "property": "C141",
   "status": "proved",
   "theorems": [
    "Misfit.C141_realisations"
   ],
   "note": "Proved for every minimiser, random numbers and state (C141_realisations); the file is written before the exception of C63."
  },
  {
   "property": "C142",
   "status": "partial",
   "theorems": [
    "Misfit.C142_false",
    "Misfit.C142_bounds_partial"
   ],
   "note": "False (C142_false): make_params bounds only the best fit, the Monte Carlo parameters are added without lower bounds (the bound is commented out in the source). The bounds agree when the first minimisation finds a non-negative dispersion and first flux (C142_bounds_partial)."
  },
  {
   "property": "C143",
   "status": "partial",
   "theorems": [
    "Misfit.C143_refused_partial",
    "Misfit.C143_one_column_false",
    "Misfit.C143_false",
    "Misfit.C143_exact_partial"
   ],
   "note": "Refused when the number of columns differs and is not one (C143_refused_partial). False for one column, which numpy broadcasts (C143_one_column_false), and for a fit of other lines with as many parameters (C143_false). Exact condition: a rectangular matrix with rows is accepted iff it has one column or as many as parameters (C143_exact_partial)."
  },
  {
   "property": "C144",
   "status": "proved",
   "theorems": [
    "Misfit.C144_too_few"
   ],
   "note": "Proved (C144_too_few); assumes the leastsq routine refuses fewer residuals than parameters, as scipy does."
  },
  {
   "property": "C145",
   "status": "partial",
   "theorems": [
    "Misfit.C145_false"
   ],
   "note": "False (C145_false): the factor is not passed to the aperture model of a cube, every factor gives the same cube."
  },
  {
   "property": "C146",
   "status": "proved",
   "theorems": [
    "Misfit.C146_reverse",
    "Misfit.C146_updates"
   ],
   "note": "Proved for new models (C146_reverse) and all later evaluations (C146_updates)."
  },
  {
   "property": "C147",
   "status": "partial",
   "theorems": [
    "Misfit.C147_point_symmetric_partial",
    "Misfit.C147_false"
   ],
   "note": "Holds without a PSF, and with one when the numbers of subpixels in both directions are odd (C147_point_symmetric_partial). False for even numbers (C147_false): an even kernel has no central element and moves the light by half a subpixel; the default of two subpixels per pixel always gives an even kernel."
  },
  {
   "property": "C148",
   "status": "partial",
   "theorems": [
    "Misfit.C148_gaussian_partial",
    "Misfit.C148_false",
    "Misfit.C148_exact"
   ],
   "note": "True for the Gaussian class (C148_gaussian_partial: the closed form of the unblurred image). False for Moffat (C148_false): computing the stamp divides by alpha = 0 and no model can be built. C148_exact: the model can be built exactly for the Gaussian class."
  },
  {
   "property": "C149",
   "status": "partial",
   "theorems": [
    "Misfit.C149_exact",
    "Misfit.C149_wide_partial",
    "Misfit.C149_false"
   ],
   "note": "Exact condition proved (C149_exact): with complete inputs there is an image, finite and positive everywhere and of the data's shape, exactly when the width is zero or the PSF kernel has a pixel. A width of half a subpixel or more always works, at construction and after any evaluations (C149_wide_partial). Smaller widths with an even number of subpixels, e.g. the default two per row, raise IndexError (C149_false)."
  },
  {
   "property": "C150",
   "status": "proved",
   "theorems": [
    "Misfit.C150_image"
   ],
   "note": "For numpy with np.float (npFloat = true); without it a small dispersion raises, see C38."
  },
  {
   "property": "C151",
   "status": "proved",
   "theorems": [
    "Misfit.C151_independent"
   ],
   "note": "The shared profile keeps its numbers of parameters through every call; everything else in it is overwritten."
  },
  {
   "property": "C152",
   "status": "partial",
   "theorems": [
    "Misfit.C152_false_ignored",
    "Misfit.C152_false_dither"
   ],
   "note": "False: the galaxy and the spectrograph are created with fixed dither=False, yspace_dither_arc=None and without PSF_beta, so neither argument has any effect (C152_false_ignored) and no pixel of a mock with dither=True is negative (C152_false_dither)."
  },
  {
   "property": "C153",
   "status": "proved",
   "theorems": [
    "Misfit.C153_missing"
   ],
   "note": "Exceptions for every value of the other arguments; the exact classes where the rest is usable."
  },
  {
   "property": "C154",
   "status": "proved",
   "theorems": [
    "Misfit.C154_mirror"
   ],
   "note": ""
  },
  {
   "property": "C155",
   "status": "proved",
   "theorems": [
    "Misfit.C155_point_symmetric"
   ],
   "note": "The restriction to odd numbers of subpixels is necessary in general, see C147_false."
  },
  {
   "property": "C156",
   "status": "partial",
   "theorems": [
    "Misfit.C156_false",
    "Misfit.C156_false_cube"
   ],
   "note": "False: the sine of the inclination is the square root of a negative number, NaN, and the call returns an image of NaNs (C156_false); data cubes too (C156_false_cube)."
  },
  {
   "property": "C157",
   "status": "partial",
   "theorems": [
    "Misfit.C157_outcome_partial",
    "Misfit.C157_false",
    "Misfit.C157_exact"
   ],
   "note": "Exact condition proved (C157_outcome_partial). False with the default two subpixels (or one) as soon as the PSF needs padding: ValueError, or for a field exactly twice as large as the padding a cube with twice as many rows (C157_false). C157_exact: the cube has one spectrum per pixel exactly if the PSF needs no padding."
  },
  {
   "property": "C158",
   "status": "proved",
   "theorems": [
    "Misfit.C158_truth"
   ],
   "note": "In exact arithmetic. The specification SetUpFor lists what the fit has to share with the mock; np.float has to exist."
  },
  {
   "property": "C159",
   "status": "proved",
   "theorems": [
    "Misfit.C159_between",
    "Misfit.C159_normalised"
   ],
   "note": "integrate.quad is taken as the exact integral."
  },
  {
   "property": "C160",
   "status": "proved",
   "theorems": [
    "Misfit.C160_keywords",
    "Misfit.C160_basic",
    "Misfit.C160_spectrum1D",
    "Misfit.C160_options"
   ],
   "note": ""
  },
  {
   "property": "C161",
   "status": "proved",
   "theorems": [
    "Misfit.C161_attached",
    "Misfit.C161_mask",
    "Misfit.C161_fails_iff",
    "Misfit.C161_again"
   ],
   "note": ""
  },
  {
   "property": "C162",
   "status": "partial",
   "theorems": [
    "Misfit.C162_reattach_partial",
    "Misfit.C162_false_stale",
    "Misfit.C162_false_late",
    "Misfit.C162_false_shared",
    "Misfit.C162_exact"
   ],
   "note": "False of the code: the rest wavelengths are computed when the spectrum is attached and not again; a later redshift leaves them stale or missing, and a shared spectrum follows the last galaxy. Proved: attaching again refreshes them. C162_exact: the rest wavelengths belong to a later redshift exactly if it is the same one (or all wavelengths are zero)."
  },
  {
   "property": "C163",
   "status": "partial",
   "theorems": [
    "Misfit.C163_created_partial",
    "Misfit.C163_unnamed",
    "Misfit.C163_false_unknown",
    "Misfit.C163_false_set"
   ],
   "note": "False of the code: an unknown PSF name silently gives a Gaussian that reports the unknown name, and setAttr(PSF_FWHM=...) on the instrument changes nothing. Proved: what is given to the constructor is used."
  },
  {
   "property": "C164",
   "status": "partial",
   "theorems": [
    "Misfit.C164_exact",
    "Misfit.C164_unmasked_partial",
    "Misfit.C164_false"
   ],
   "note": "False of the code when pixels are masked: the weights of masked pixels are counted. Proved: equality exactly when the weights of masked pixels add up to zero."
  },
  {
   "property": "C165",
   "status": "proved",
   "theorems": [
    "Misfit.C165_units"
   ],
   "note": "Proved for all 21 stages with the median, straight line fits and Gaussian fits as routines that carry the unit. Errors must not be negative: -99 marks bad errors."
  },
  {
   "property": "C166",
   "status": "partial",
   "theorems": [
    "Misfit.C166_unmasked_only_partial",
    "Misfit.C166_false",
    "Misfit.C166_exact"
   ],
   "note": "False as stated: scale_model uses every pixel of the sky-free columns, masked or not. C166_false: one masked pixel can drive the chi-square above every bound. C166_exact: the exact condition on the model. C166_unmasked_only_partial: true if the model has no light in masked pixels of sky-free columns."
  },
  {
   "property": "C167",
   "status": "partial",
   "theorems": [
    "Misfit.C167_partial",
    "Misfit.C167_false"
   ],
   "note": "False as stated: bad pixels hold flux -99 and error -99 in every unit and enter the amplitudes. C167_false: a spectrum with one bad pixel, prepared in two units, end to end. C167_partial: true if the model has no light in masked pixels of sky-free columns."
  },
  {
   "property": "C168",
   "status": "proved",
   "theorems": [
    "Misfit.C168_run",
    "Misfit.C168_stretch",
    "Misfit.C168_image",
    "Misfit.C168_object",
    "Misfit.C168_posterior"
   ],
   "note": "Proved for the arctan rotation curve with one dispersion, any intensity profile given as a function of angle ratios (the Sersic profile of the code is one), and the scaled model (no_scale = False)."
  },
  {
   "property": "C169",
   "status": "proved",
   "theorems": [
    "Misfit.C169_run",
    "Misfit.C169_image",
    "Misfit.C169_object",
    "Misfit.C169_posterior"
   ],
   "note": "Proved for wavelength spectra (spec_type \"wave\", the only one fits use) and the scaled model. With zero dispersion the image is not a density and does not change at all; the scaled model is the same in both cases."
  },
  {
   "property": "C170",
   "status": "proved",
   "theorems": [
    "Misfit.C170_position"
   ],
   "note": "The results of the two Gaussian fits are arbitrary inputs; what is proved is which of them are accepted and what is fitted. Stated for spectra whose lam0 is not set before the preparation."
  },
  {
   "property": "C171",
   "status": "proved",
   "theorems": [
    "Misfit.C171_angle"
   ],
   "note": "The value for perpendicular slit and galaxy, where the tangent is undefined, is left open."
  },
  {
   "property": "C172",
   "status": "proved",
   "theorems": [
    "Misfit.C172_posterior",
    "Misfit.C172_image",
    "Misfit.C172_likelihood"
   ],
   "note": "Light everywhere (positive intensity), equally spaced wavelengths, no slit mask, a kernel that is not empty (C149), centre shift and redshift fixed. With adaptive wavelength sampling the image jumps where the sampling changes (C38_false_calibration). C172_posterior: the same for lnprob inside the bounds."
  },
  {
   "property": "C173",
   "status": "proved",
   "theorems": [
    "Misfit.C173_failed",
    "Misfit.C173_retry",
    "Misfit.C173_no_1D"
   ],
   "note": "Of the continuum subtraction alone (all its steps, before trimming). Another finding about repeated preparations beside C129: a second attempt subtracts a continuum from rows that have none."
  },
  {
   "property": "C174",
   "status": "proved",
   "theorems": [
    "Misfit.C174_mask"
   ],
   "note": "Stated for spectra with continuum subtraction; without it the 1D spectrum is not touched (C130)."
  },
  {
   "property": "C175",
   "status": "proved",
   "theorems": [
    "Misfit.C175_noise",
    "Misfit.C175_rows"
   ],
   "note": "Finding: the 3 x median replacement in vert_position compares with -99 after masked errors were multiplied by zero, so it is dead code in the preparation. Fewer rows than parameters of the position fit are refused by scipy (TypeError), an undetermined start by a ValueError (C175_rows)."
  },
  {
   "property": "C176",
   "status": "proved",
   "theorems": [
    "Misfit.C176_percentile",
    "Misfit.C176_coverage"
   ],
   "note": "Samples are exact numbers; a chain with NaN samples is not covered."
  },
  {
   "property": "C177",
   "status": "proved",
   "theorems": [
    "Misfit.C177_verdict",
    "Misfit.C177_titles",
    "Misfit.C177_samples"
   ],
   "note": "The link to the samples is proved for parameters outside linked sets; the numbers in the texts are not rounded in the model."
  },
  {
   "property": "C178",
   "status": "partial",
   "theorems": [
    "Misfit.C178_returns_partial",
    "Misfit.C178_false_name",
    "Misfit.C178_false_all",
    "Misfit.C178_exact",
    "Misfit.C178_missing"
   ],
   "note": "Holds with the usual names and no linked sets (C178_returns_partial). Findings: without a varying parameter called exactly sigma0 fit() raises IndexError after storing everything (C178_false_name); linked posteriors \"all\" raise TypeError (C178_false_all). C178_exact: without linked sets fit() returns exactly if a varying parameter is called sigma0 and the masks the plot needs exist."
  },
  {
   "property": "C179",
   "status": "partial",
   "theorems": [
    "Misfit.C179_curve_partial",
    "Misfit.C179_false_mass",
    "Misfit.C179_false_order",
    "Misfit.C179_false_order_later",
    "Misfit.C179_false_later",
    "Misfit.C179_restored",
    "Misfit.C179_order"
   ],
   "note": "Holds for linked V_a, r_t at the radius of the light (C179_curve_partial). Findings: V(R_E) was computed at the radius of the mass, so the curve is wrong when the two radii differ (C179_false_mass); the pair in the order [1, 0] raises UnboundLocalError (C179_false_order); for linked r_t and sigma0 the curve is the one of V_a and r_t (C179_false_later). After another linked set the reverse pair does not raise but draws with the leftovers of that set (C179_false_order_later)."
  },
  {
   "property": "C180",
   "status": "partial",
   "theorems": [
    "Misfit.C180_bands",
    "Misfit.C180_edges",
    "Misfit.C180_mask",
    "Misfit.C180_lines",
    "Misfit.C180_plot_partial",
    "Misfit.C180_false_sky",
    "Misfit.C180_false_none"
   ],
   "note": "Sky columns are not hatched: any masked sky column makes the plot raise TypeError (C180_false_sky); galaxy.py 869 always sets an empty list. Without a model the plot raises AttributeError although it lays out panels for that case (C180_false_none). np.float in line 59 is assumed to exist (old numpy)."
  },
  {
   "property": "C181",
   "status": "proved",
   "theorems": [
    "Misfit.C181_ellipse"
   ],
   "note": ""
  },
  {
   "property": "C182",
   "status": "proved",
   "theorems": [
    "Misfit.C182_view",
    "Misfit.C182_rows",
    "Misfit.C182_image"
   ],
   "note": ""
  },
  {
   "property": "C183",
   "status": "partial",
   "theorems": [
    "Misfit.C183_slit_partial",
    "Misfit.C183_false_offset",
    "Misfit.C183_false_length"
   ],
   "note": "Direction and shape proved (C183_slit_partial). Findings: the shear that mimics the tilt of the slit shortens the long sides (C183_false_length); on an image with its own pixels the offset is divided by the pixel scale of the spectrum (C183_false_offset)."
  },
  {
   "property": "C184",
   "status": "partial",
   "theorems": [
    "Misfit.C184_exact",
    "Misfit.C184_false_galfit",
    "Misfit.C184_false_length",
    "Misfit.C184_false_1D",
    "Misfit.C184_false_blank"
   ],
   "note": "C184_exact is the exact condition. Findings: without the ellipse UnboundLocalError (C184_false_galfit); the default slit length None raises TypeError, the except branch is never used (C184_false_length); a 1D spectrum alone does not suffice (C184_false_1D); a field that begins below or left of the stamp has no pixels and the image is blank (C184_false_blank)."
  },
  {
   "property": "C185",
   "status": "partial",
   "theorems": [
    "Misfit.C185_average_partial",
    "Misfit.C185_false_same",
    "Misfit.C185_exact"
   ],
   "note": "Every pixel of the new image is the sum of the old values weighted with the product, over both axes, of common length plus extra length (C185_exact); average for edges strictly inside different old pixels (C185_average_partial); with coinciding grids the image is multiplied by nine (C185_false_same)."
  },
  {
   "property": "C186",
   "status": "partial",
   "theorems": [
    "Misfit.C186_width",
    "Misfit.C186_false_sharp",
    "Misfit.C186_flux",
    "Misfit.C186_false_shift"
   ],
   "note": "Width and flux proved. Findings: the image is moved by the distance of the object from the middle pixel (C186_false_shift); an image not sharper than the spectrum becomes NaN (C186_false_sharp)."
  },
  {
   "property": "C187",
   "status": "partial",
   "theorems": [
    "Misfit.C187_angle",
    "Misfit.C187_axes",
    "Misfit.C187_bar",
    "Misfit.C187_false_blur"
   ],
   "note": "Angle and half axes proved; odd multiples of 90 degrees are excluded (no real tangent). Finding: without rotation the ellipse is widened but the image is not convolved (C187_false_blur)."
  },
  {
   "property": "C188",
   "status": "partial",
   "theorems": [
    "Misfit.C188_panels",
    "Misfit.C188_refused",
    "Misfit.C188_made",
    "Misfit.C188_false_five",
    "Misfit.C188_run"
   ],
   "note": "Panels, labels, errors and plottability of every finished run proved. Finding: with fewer than five walkers one of the walkers followed in colour is always shown twice (C188_false_five); the draws are with replacement."
  },
  {
   "property": "C189",
   "status": "partial",
   "theorems": [
    "Misfit.C189_returned_partial",
    "Misfit.C189_false"
   ],
   "note": "False (C189_false): a call with error estimation but without a file for the Monte Carlo values raises ValueError and leaves the errors of an earlier call next to the values of the new fit. A call that returns leaves all errors zero, one pair for each value (C189_returned_partial)."
  },
  {
   "property": "C190",
   "status": "partial",
   "theorems": [
    "Misfit.C190_times_partial",
    "Misfit.C190_false"
   ],
   "note": "C190_times_partial: emcee 3, exact condition of the warning, times in log and dictionary. C190_false: with emcee 2 (any run) the calls of get_autocorr_time end in swallowed exceptions (low given twice, unknown keyword, undefined self): never a warning, always 'undefined', NaN with the samples."
  },
  {
   "property": "C191",
   "status": "partial",
   "theorems": [
    "Misfit.C191_same",
    "Misfit.C191_log_partial",
    "Misfit.C191_early",
    "Misfit.C191_returns",
    "Misfit.C191_false",
    "Misfit.C191_false_missing"
   ],
   "note": "C191_same, C191_returns: the run with all its outputs refines the run of Model/Sampler, both directions. C191_log_partial: which lines are in the log, exactly. C191_false, C191_false_missing: the line on the enforced minimum appears iff the run stopped at step 50, whether or not the criterion was met before; missing: that line's intended meaning."
  },
  {
   "property": "C192",
   "status": "partial",
   "theorems": [
    "Misfit.C192_returned",
    "Misfit.C192_failed_partial",
    "Misfit.C192_false"
   ],
   "note": "C192_returned (proved for every returned run), C192_failed_partial: what is left by every failed run. C192_false: emcee 2 on one process reports finished steps, but the samples are lost (AttributeError on sampler.pool.close)."
  },
  {
   "property": "C193",
   "status": "proved",
   "theorems": [
    "Misfit.C193_posterior",
    "Misfit.C193_values"
   ],
   "note": "C193_posterior: posterior of the copy = posterior of the fit after any evaluations on either (with adaptive sampling: evaluations that returned); C193_values: attribute by attribute. Attribute values are opaque; what model and instrument read from them is an abstract meaning function of exactly the attributes the code reads."
  },
  {
   "property": "C194",
   "status": "partial",
   "theorems": [
    "Misfit.C194_exact_partial",
    "Misfit.C194_failures",
    "Misfit.C194_false_settings",
    "Misfit.C194_make",
    "Misfit.C194_false"
   ],
   "note": "C194_exact_partial: the copy can be made iff generate_model is false and z, re_mass_arcsec, q_mass, lam0, spec_type, instrument_name, band exist; C194_failures: the exceptions otherwise. C194_false (fit marked as generating a model cannot be sampled), C194_false_settings (settings replaced after setup_model), C194_make (make_model of the copy always AttributeError). Missing: the claim holds only under these conditions."
  },
  {
   "property": "C195",
   "status": "partial",
   "theorems": [
    "Misfit.C195_first_partial",
    "Misfit.C195_false",
    "Misfit.C195_exact",
    "Misfit.C195_runs"
   ],
   "note": "C195_first_partial: the number of a run with fresh options, exactly. C195_false: the number is stored in the options, so later changes of cpuFrac, NoThread=False or another computer have no effect. C195_exact: exactly when the changed options have an effect on the number. C195_runs: the numbers of all runs of a sequence of runs with changing options."
  },
  {
   "property": "C196",
   "status": "proved",
   "theorems": [
    "Misfit.C196_causes",
    "Misfit.C196_start",
    "Misfit.C196_returns"
   ],
   "note": "C196_causes (complete list with exceptions), C196_start, C196_returns. emcee moves only existing walkers (hypothesis Moving)."
  },
  {
   "property": "C197",
   "status": "proved",
   "theorems": [
    "Misfit.C197_causes",
    "Misfit.C197_exact"
   ],
   "note": "C197_causes, C197_exact: exact characterisation; calls with error estimation never return (C63)."
  },
  {
   "property": "C198",
   "status": "proved",
   "theorems": [
    "Misfit.C198_run",
    "Misfit.C198_processes",
    "Misfit.C198_values"
   ],
   "note": "C198_run (refinement of the pure posterior), C198_processes, C198_values. An example shows that objects with a history-dependent value would give different chains."
  },
  {
   "property": "C199",
   "status": "proved",
   "theorems": [
    "Misfit.C199_limits",
    "Misfit.C199_processes",
    "Misfit.C199_no_bounds"
   ],
   "note": "C199_limits (end to end: settings to stored intervals), C199_processes. A concrete fit that returns is given as an example."
  },
  {
   "property": "C200",
   "status": "proved",
   "theorems": [
    "Misfit.C200_exact",
    "Misfit.C200_values",
    "Misfit.C200_parameters",
    "Misfit.C200_processes",
    "Misfit.C200_no_model"
   ],
   "note": "C200_exact: when saving succeeds and the exceptions otherwise. C200_values: attributes, options, prior. C200_parameters: the parameters are those of the last evaluation, specified by LastEvaluated and IsUnpack, by an invariant over the history. C200_processes: in a run evaluated in other processes they are those of the settings. C200_no_model: saving without an aperture model raises AttributeError."
  },
  {
   "property": "C201",
   "status": "partial",
   "theorems": [
    "Misfit.C201_exact",
    "Misfit.C201_outside_partial",
    "Misfit.C201_false",
    "Misfit.C201_make"
   ],
   "note": "False: the aperture model is deleted from the saved object, so at every vector with a finite posterior the evaluation is an AttributeError, after the parameters have been overwritten (C201_false, C201_exact), and make_model is one too (C201_make). C201_outside_partial: where the prior is not finite or the number of parameters is wrong both agree."
  },
  {
   "property": "C202",
   "status": "partial",
   "theorems": [
    "Misfit.C202_seeing_partial",
    "Misfit.C202_off",
    "Misfit.C202_false_effective",
    "Misfit.C202_fit_fails",
    "Misfit.C202_false_velocity",
    "Misfit.C202_bound",
    "Misfit.C202_once",
    "Misfit.C202_centred",
    "Misfit.C202_false_both",
    "Misfit.C202_shift_partial"
   ],
   "note": "Shift alone, wavelength mode: closed form of every pixel for a new model and after any history, without PSF (C202_shift_partial) and with any PSF, spectrograph, adaptive sampling and floor (C202_seeing_partial), offsets within half of the resolution's FWHM (C202_bound), nothing changed for centred light with any settings (C202_centred), rows fitted once (C202_once), nothing changed without the options (C202_off), and no image when a fit fails (C202_fit_fails). False: the option for the effective resolution alone never changes an image (C202_false_effective); both options together raise ValueError for every object that reaches into the slit (C202_false_both); in velocity mode the shift never returns an image (C202_false_velocity)."
  },
  {
   "property": "C203",
   "status": "proved",
   "theorems": [
    "Misfit.C203_build",
    "Misfit.C203_image"
   ],
   "note": "C203_image, for new models and after any history; C203_build for any initial profile. Velocity axis: C204. For unequal wavelengths there is no such theorem. The specification keeps the grid of the code, whose rows are not one subpixel apart (C36) and whose kernel is centred on the object and not on the middle (C57)."
  },
  {
   "property": "C204",
   "status": "proved",
   "theorems": [
    "Misfit.C204_build",
    "Misfit.C204_image"
   ],
   "note": "C204_image, for new models and after any history; C204_build for any initial profile. The specification keeps the grid of the code, whose rows are not one subpixel apart (C36) and whose kernel is centred on the object and not on the middle (C57)."
  },
  {
   "property": "C205",
   "status": "partial",
   "theorems": [
    "Misfit.C205_exact_partial",
    "Misfit.C205_false_images"
   ],
   "note": "False as stated: C205_false_images shows a model with a misspelt type that returns a black image, one that returns NaN and one with TypeError. C205_exact_partial says which of the three happens for every set-up: TypeError with adaptive sampling or floor, otherwise NaN with seeing or spectrograph, otherwise zeros."
  },
  {
   "property": "C206",
   "status": "proved",
   "theorems": [
    "Misfit.C206_velocity",
    "Misfit.C206_zero",
    "Misfit.C206_brightness"
   ],
   "note": ""
  },
  {
   "property": "C207",
   "status": "proved",
   "theorems": [
    "Misfit.C207_combination"
   ],
   "note": ""
  },
  {
   "property": "C208",
   "status": "proved",
   "theorems": [
    "Misfit.C208_value",
    "Misfit.C208_bound",
    "Misfit.C208_coarse",
    "Misfit.C208_refused",
    "Misfit.C208_method"
   ],
   "note": ""
  },
  {
   "property": "C209",
   "status": "proved",
   "theorems": [
    "Misfit.C209_scale"
   ],
   "note": "`RotModel.scaled` multiplies every angle; `C209_scale` gives equality of the whole result for every positive factor, through the closed form of C208 (window, cell, columns, paddings, kernels, light, speeds)."
  },
  {
   "property": "C210",
   "status": "proved",
   "theorems": [
    "Misfit.C210_plain",
    "Misfit.C210_tilted"
   ],
   "note": "`DispView` is a small independent description (pixels, elliptical radius, S\u00e9rsic light, dispersion, kernel, weights); `C210_plain` and `C210_tilted` say that both classes return the root of its mean together with the quotient of integrals of `sigmaE`."
  },
  {
   "property": "C211",
   "status": "proved",
   "theorems": [
    "Misfit.C211_round"
   ],
   "note": "`C211_round`: equality of the complete results of the two constructors."
  },
  {
   "property": "C212",
   "status": "proved",
   "theorems": [
    "Misfit.C212_plain",
    "Misfit.C212_tilted"
   ],
   "note": "`C212_plain`, `C212_tilted`. The numerical integral of the reference value is an oracle, so the claim is about the aperture dispersion."
  },
  {
   "property": "C213",
   "status": "proved",
   "theorems": [
    "Misfit.C213_half_turn",
    "Misfit.C213_mirror"
   ],
   "note": "`C213_half_turn`, `C213_mirror`."
  },
  {
   "property": "C214",
   "status": "partial",
   "theorems": [
    "Misfit.C214_refused",
    "Misfit.C214_constructor",
    "Misfit.C214_false",
    "Misfit.C214_false_witness",
    "Misfit.C214_recovers_partial"
   ],
   "note": "False as stated: the attribute is assigned before it is checked, so every later `setAttr` that does not name the shape raises as well (`C214_false`, witness `C214_false_witness`). `C214_refused` and `C214_constructor` give the exception; `C214_recovers_partial` shows that naming the Gaussian shape makes up for a refused call that asked for nothing else."
  },
  {
   "property": "C215",
   "status": "proved",
   "theorems": [
    "Misfit.C215_half_turn"
   ],
   "note": "The closed forms C203 and C204 at position angle plus half a turn: every cell of the line of sight is exchanged with the one at the opposite depth, where the disc point is the opposite one, so that the velocity changes sign."
  },
  {
   "property": "C216",
   "status": "proved",
   "theorems": [
    "Misfit.C216_mirror",
    "Misfit.C216_even"
   ],
   "note": "C216_mirror proves the equality at the construction and at every later evaluation; the kernel has an odd number of columns exactly when the slit has, and is its own mirror image. C216_even gives an edge-on disc seen by a slit of two columns, turned by a quarter turn either way: the point spread function, whose middle is the left one of two columns, gives the left column twice the weight of the right one, so that the two images differ."
  },
  {
   "property": "C217",
   "status": "proved",
   "theorems": [
    "Misfit.C217_observed"
   ],
   "note": "Closed form C203 of both set-ups: redshift and rest wavelengths occur only in the products."
  },
  {
   "property": "C218",
   "status": "partial",
   "theorems": [
    "Misfit.C218_superposition_partial",
    "Misfit.C218_false"
   ],
   "note": "True without point spread function and instrumental broadening (C218_superposition_partial), with adaptive sampling and floor. False with a point spread function (C218_false): PSF_convolve rescales the convolved cube to the total before, so light thrown off the grid comes back spread like the rest, in a proportion that depends on the whole distribution of light. The witness is a slit of two columns with a uniform and a centrally bright component."
  },
  {
   "property": "C219",
   "status": "proved",
   "theorems": [
    "Misfit.C219_velocity_unit"
   ],
   "note": "Closed form C204 of both set-ups: the density of every cell, the sampling, the floor and the weights of the spectrograph scale. Units of wavelengths are C169."
  },
  {
   "property": "C220",
   "status": "partial",
   "theorems": [
    "Misfit.C220_exact",
    "Misfit.C220_lines_partial",
    "Misfit.C220_false"
   ],
   "note": "False: the marks use the rest wavelengths held by the object, the model those of its names; they agree exactly if the two lists agree."
  },
  {
   "property": "C221",
   "status": "partial",
   "theorems": [
    "Misfit.C221_exact",
    "Misfit.C221_all_partial",
    "Misfit.C221_false"
   ],
   "note": "False for mask values other than 0 and 1; exact condition."
  },
  {
   "property": "C222",
   "status": "proved",
   "theorems": [
    "Misfit.C222_curves",
    "Misfit.C222_title"
   ],
   "note": "Proved for every saved figure, with its title (C222_title)."
  },
  {
   "property": "C223",
   "status": "partial",
   "theorems": [
    "Misfit.C223_exact",
    "Misfit.C223_errors_false",
    "Misfit.C223_width_false"
   ],
   "note": "False: never with errors (the default), nor if a line of the best fit has no positive width (NaN model, ValueError after storing); exact condition."
  },
  {
   "property": "C224",
   "status": "partial",
   "theorems": [
    "Misfit.C224_same_partial",
    "Misfit.C224_values",
    "Misfit.C224_false"
   ],
   "note": "False: with too few rest wavelengths the plot raises an IndexError before the errors are stored; true otherwise. The fitted values are stored in each case (C224_values)."
  },
  {
   "property": "C225",
   "status": "proved",
   "theorems": [
    "Misfit.C225_refused",
    "Misfit.C225_needed"
   ],
   "note": "Modelled: the TypeError of scipy's leastsq when there are fewer data than parameters."
  },
  {
   "property": "C226",
   "status": "proved",
   "theorems": [
    "Misfit.C226_alternate"
   ],
   "note": "The fits that share a galaxy object are in C118/C143; the set-up condition is needed: a fit whose set-up raised after creating the model builds its aperture model with whatever light the shared intensity profile contains."
  },
  {
   "property": "C227",
   "status": "proved",
   "theorems": [
    "Misfit.C227_level",
    "Misfit.C227_scale",
    "Misfit.C227_shade"
   ],
   "note": "np.nanmedian of the sorted values is defined in the model; the specification uses order statistics by counting."
  },
  {
   "property": "C228",
   "status": "proved",
   "theorems": [
    "Misfit.C228_maximum"
   ],
   "note": "Centre shift and redshift fixed. With adaptive sampling the likelihood jumps (C172) and the proof does not apply."
  },
  {
   "property": "C229",
   "status": "proved",
   "theorems": [
    "Misfit.C229_velocity",
    "Misfit.C229_image",
    "Misfit.C229_likelihood",
    "Misfit.C229_posterior"
   ],
   "note": "C229_velocity is an equivalence for the velocity fields; C229_image and C229_likelihood carry the equality to images and likelihoods. Samples with negative r_t therefore have the opposite sign of V_a. C229_posterior: the same for lnprob."
  },
  {
   "property": "C230",
   "status": "proved",
   "theorems": [
    "Misfit.C230_factor"
   ],
   "note": "C230_factor: refused factors, and the exact condition for an image. Factors whose number of samples rounds to 0 are not covered."
  },
  {
   "property": "C231",
   "status": "proved",
   "theorems": [
    "Misfit.C231_half_turn",
    "Misfit.C231_mirror",
    "Misfit.C231_observed",
    "Misfit.C231_turn_run",
    "Misfit.C231_mirror_posterior",
    "Misfit.C231_observed_posterior",
    "Misfit.C231_turn_posterior",
    "Misfit.C231_mirror_run",
    "Misfit.C231_observed_run"
   ],
   "note": "C231_half_turn, C231_mirror, C231_observed: equality of the likelihoods of two model objects with different histories. C231_turn_posterior, C231_mirror_posterior, C231_observed_posterior: the same for lnprob."
  },
  {
   "property": "C232",
   "status": "proved",
   "theorems": [
    "Misfit.C232_scale",
    "Misfit.C232_chisq",
    "Misfit.C232_llike",
    "Misfit.C232_object",
    "Misfit.C232_posterior",
    "Misfit.C232_order"
   ],
   "note": "C232_scale and C232_chisq for every image; C232_llike is the affine change of the log-likelihood; C232_object and C232_posterior follow series of calls; C232_order says that the affine change keeps the order of two posteriors."
  },
  {
   "property": "C233",
   "status": "proved",
   "theorems": [
    "Misfit.C233_refused",
    "Misfit.C233_posterior",
    "Misfit.C233_exception",
    "Misfit.C233_unscaled"
   ],
   "note": "C233_refused and C233_posterior after any series of calls; C233_exception names the exception and the image that is left; C233_unscaled: without scaling the columns do not matter."
  },
  {
   "property": "C234",
   "status": "partial",
   "theorems": [
    "Misfit.C234_partial",
    "Misfit.C234_exact",
    "Misfit.C234_name",
    "Misfit.C234_false",
    "Misfit.C234_stuck"
   ],
   "note": "C234_partial: the claim for series of calls that leave the three lists alone or ask for them to be read again; C234_exact: with new line names only, wavelengths match exactly if they are the same in the tables; C234_name: another group name changes nothing else; C234_false: witnesses; C234_stuck: an unknown line stays in the object."
  },
  {
   "property": "C235",
   "status": "proved",
   "theorems": [
    "Misfit.C235_flux",
    "Misfit.C235_err",
    "Misfit.C235_mask",
    "Misfit.C235_finite",
    "Misfit.C235_best_flux",
    "Misfit.C235_best_err"
   ],
   "note": "C235_flux, C235_err, C235_mask for the residuals, C235_finite that they are numbers, C235_best_flux and C235_best_err for the points with the smallest sum of squares. The search for the minimum (lmfit) is not modelled."
  },
  {
   "property": "C236",
   "status": "proved",
   "theorems": [
    "Misfit.C236_scale",
    "Misfit.C236_chisq",
    "Misfit.C236_llike",
    "Misfit.C236_object",
    "Misfit.C236_rows_without_weight"
   ],
   "note": ""
  },
  {
   "property": "C237",
   "status": "partial",
   "theorems": [
    "Misfit.C237_scale",
    "Misfit.C237_panels_partial",
    "Misfit.C237_false",
    "Misfit.C237_refused"
   ],
   "note": "The residual panel uses the colour scale of the flux: when the flux of the sky-free columns is positive and the fit is better than the smallest flux there, every pixel of the residual panel lies below the lower end of the scale (C237_false). The data panel is never clipped in sky-free columns (C237_panels_partial)."
  },
  {
   "property": "C238",
   "status": "partial",
   "theorems": [
    "Misfit.C238_exact",
    "Misfit.C238_partial",
    "Misfit.C238_false"
   ],
   "note": "False of the code: the row amplitudes are not restricted to non-negative values (scale_model). C238_exact gives the sign of each fitted row; for every usable set-up and all parameters C238_false gives a spectrum in absorption that the emission-line model fits with chi-square zero."
  },
  {
   "property": "C239",
   "status": "proved",
   "theorems": [
    "Misfit.C239_chisq",
    "Misfit.C239_llike",
    "Misfit.C239_object",
    "Misfit.C239_posterior",
    "Misfit.C239_ratio",
    "Misfit.C239_run"
   ],
   "note": "Multiplying all weights by k is the case u = 1. The log-likelihood contains log10(2 pi err^2) without the weights, so weights alone change its scale against that term; this shifts it by a constant only."
  },
  {
   "property": "C240",
   "status": "proved",
   "theorems": [
    "Misfit.C240_scale",
    "Misfit.C240_chisq",
    "Misfit.C240_llike",
    "Misfit.C240_object",
    "Misfit.C240_posterior",
    "Misfit.C240_run"
   ],
   "note": "With C238: an absorption spectrum gives the same kinematic parameters, uncertainties and chi-square as the emission spectrum it mirrors, so a fit to absorption is not noticed. Without scaling (no_scale) the claim does not hold; scaling needs the sky-free columns (C233). Signed zeros are not modelled."
  },
  {
   "property": "C241",
   "status": "proved",
   "theorems": [
    "Misfit.C241_scale",
    "Misfit.C241_flip",
    "Misfit.C241_reverse",
    "Misfit.C241_turned",
    "Misfit.C241_posterior",
    "Misfit.C241_turned_posterior",
    "Misfit.C241_turned_run"
   ],
   "note": "Combines the symmetry of the image (C146, C147) with the likelihood, the history independence (C85) and the prior (C03). The restriction of the half-turn to no PSF or odd numbers of subpixels is the one of C147, which is false without it."
  },
  {
   "property": "C242",
   "status": "proved",
   "theorems": [
    "Misfit.C242_equivariant",
    "Misfit.C242_posterior",
    "Misfit.C242_run",
    "Misfit.C242_stretch"
   ],
   "note": "The run is equivariant under any map of the positions (C242_equivariant); the stretch move of emcee is stated as a specification, since emcee itself is not part of the code. The rotation speed must be a free parameter."
  }
 ]
}