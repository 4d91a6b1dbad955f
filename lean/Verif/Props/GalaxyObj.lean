import Verif.Model.Fit1D
import Verif.Model.GalaxyObj
import Verif.Props.Objects

/-!
# Galaxies, spectra and instruments: constructors and attaching spectra (C160 - C163)
-/

namespace Misfit

section
variable {V : Type}

/-- statements of constructors that take all keywords through `setAttr` -/
def PlainStep : CtorStep V → Prop
  | .assign _ _ => True
  | .param _ _ => False
  | .update named => named = []

theorem setAttr_nil (d : Dict V) : setAttr [] d = d := setAttr_same [] d (by simp [Dict.get])

theorem keys_set_iff (d : Dict V) (k j : String) (v : V) :
    j ∈ (d.set k v).keys ↔ j = k ∨ j ∈ d.keys := by
  rw [Dict.mem_keys_iff, Dict.get_set, Dict.mem_keys_iff]
  by_cases h : k = j
  · simp [h]
  · rw [if_neg h]
    constructor
    · exact Or.inr
    · rintro (h' | h')
      · exact absurd h'.symm h
      · exact h'

theorem runs_agree (kw : Dict V) (k : String) (hk : kw.get k = none) :
    ∀ (pre : List (CtorStep V)), (∀ s ∈ pre, PlainStep s) → ∀ d d' : Dict V,
      d.get k = d'.get k →
      Dict.get (pre.foldl (fun d s => s.run kw d) d) k =
        Dict.get (pre.foldl (fun d s => s.run [] d) d') k := by
  intro pre
  induction pre with
  | nil => intro _ d d' h; exact h
  | cons s pre ih =>
    intro hp d d' h
    rw [List.foldl_cons, List.foldl_cons]
    refine ih (fun t ht => hp t (by simp [ht])) _ _ ?_
    have hs := hp s (by simp)
    cases s with
    | assign j v => simp only [CtorStep.run, Dict.get_set, h]
    | param j v => exact hs.elim
    | update named =>
      obtain rfl : named = [] := hs
      simp only [CtorStep.run, List.not_mem_nil, not_false_iff, decide_true, List.filter_nil,
        setAttr_nil]
      rw [(C48_setAttr _ d).2.2.1, h]
      rw [← Dict.get_none_iff]
      simpa using hk

theorem runs_keys (kw : Dict V) (k : String) :
    ∀ (pre : List (CtorStep V)) (d d' : Dict V), (k ∈ d.keys ↔ k ∈ d'.keys) →
      (k ∈ Dict.keys (pre.foldl (fun d s => s.run kw d) d) ↔
        k ∈ Dict.keys (pre.foldl (fun d s => s.run [] d) d')) := by
  intro pre
  induction pre with
  | nil => intro d d' h; exact h
  | cons s pre ih =>
    intro d d' h
    rw [List.foldl_cons, List.foldl_cons]
    refine ih _ _ ?_
    cases s with
    | assign j v => simp only [CtorStep.run, keys_set_iff, h]
    | param j v => simp only [CtorStep.run, keys_set_iff, h]
    | update named => simp only [CtorStep.run, (C48_setAttr _ _).1, h]

/-- A constructor that ends by taking over its keywords: every attribute has the value given for it,
or the value it has without keywords; there are no other attributes. -/
theorem construct_override (pre : List (CtorStep V)) (hp : ∀ s ∈ pre, PlainStep s) (kw : Dict V)
    (k : String) :
    Dict.get (construct (pre ++ [.update []]) kw) k =
      (Dict.get (construct pre []) k).map fun d => (kw.get k).getD d := by
  have hkeys := runs_keys kw k pre [] [] Iff.rfl
  change k ∈ (construct pre kw).keys ↔ k ∈ (construct pre []).keys at hkeys
  have hform : construct (pre ++ [.update []]) kw = setAttr kw (construct pre kw) := by
    simp [construct, CtorStep.run]
  rw [hform]
  by_cases hk : k ∈ (construct pre kw).keys
  · obtain ⟨d, hd⟩ := Option.isSome_iff_exists.1 ((Dict.mem_keys_iff _ _).1 (hkeys.1 hk))
    rw [hd, Option.map_some]
    cases hv : kw.get k with
    | some v => rw [(C48_setAttr kw _).2.1 k v hk hv]; rfl
    | none =>
      rw [(C48_setAttr kw _).2.2.1 k ((Dict.get_none_iff _ _).1 hv)]
      have := runs_agree kw k hv pre hp [] [] rfl
      change (construct pre kw).get k = (construct pre []).get k at this
      rw [this, hd]
      rfl
  · rw [(C48_setAttr kw _).2.2.2 k hk, (Dict.get_none_iff _ _).2 fun h => hk (hkeys.2 h)]
    rfl

end

/-! ## C160: keywords of galaxies, spectra, stamps and instruments -/

/-- attributes of a new `Galaxy` without keywords -/
def galaxyDefaults : Dict PyVal :=
  [("z", .none), ("n", .none), ("re_arcsec", .none), ("q", .none), ("re_mass_arcsec", .none),
   ("q_mass", .none), ("q0", .num 0.19), ("delt_PA", .none), ("generate_model", .bool false),
   ("spec2D", .none), ("field", .none), ("maskname", .none), ("ID", .none), ("RA", .none),
   ("DEC", .none), ("Av", .none), ("lmass", .none), ("lage", .none), ("ltau", .none),
   ("lsfr", .none), ("Av_neb", .none), ("sersicRA", .none), ("sersicDEC", .none),
   ("sersicPA", .none), ("spec1D", .none), ("pstamp", .none), ("dither", .bool true),
   ("debug", .bool false)]

/-- attributes of a new `ObsSpectrum1D` without keywords -/
def spec1DDefaults : Dict PyVal :=
  [("wave", .none), ("flux", .none), ("flux_err", .none), ("spec_mask", .none),
   ("units_wave", .str "angstroms"), ("units_flux", .str "flam"), ("spec_type", .str "wave"),
   ("band", .none), ("slit_PA", .none), ("extraction_method", .str "optimal"),
   ("extraction_spatial_profile", .none), ("units_spatial", .str "arcsec"),
   ("trim_obswave_range", .none), ("trim_restwave_range", .none), ("num_mask_edge", .num 10)]

/-- attributes of a new `ObsSpectrum2D` without keywords -/
def spec2DDefaults : Dict PyVal :=
  [("wave", .none), ("flux", .none), ("flux_err", .none), ("spec_mask", .none),
   ("units_wave", .str "angstroms"), ("units_flux", .str "flam"), ("spec_type", .str "wave"),
   ("band", .none), ("slit_PA", .none), ("dlam", .none), ("m0", .none), ("m_lims", .none),
   ("lam0", .none), ("ypos", .none), ("yoffset", .num 0), ("y_width", .none),
   ("spec_weight", .none), ("median_flux_error", .none), ("band_cutoff", .none),
   ("band_cutoff_units", .str "timesMedianErr"), ("band_cutoff_param_filename", .none),
   ("wh_sky", .none), ("wh_nosky", .none), ("wh_sky_fit", .none),
   ("prepared_for_fitting", .bool false), ("no_continuum_subtraction", .bool false),
   ("row_snr_cut", .num 2), ("low_snr_row_inds", .none), ("mask_qual", .none),
   ("mask_sky", .none), ("mask_low_snr", .none), ("weighting_type", .str "up-edges"),
   ("fitting_weight_profile", .none), ("fitting_weight_matrix", .none), ("linegroup_name", .none),
   ("linenames_arr", .none), ("restwave_arr", .none), ("flux_ratio_arr", .none),
   ("trim_obswave_range", .none), ("trim_restwave_range", .none), ("wave_full_range_rest", .none),
   ("wave_line_range_rest", .none), ("mask_lines_wave_range_rest", .none),
   ("linenames_param_filename", .none), ("restwave_param_filename", .none),
   ("wave_full_range_rest_param_filename", .none), ("wave_line_range_rest_param_filename", .none),
   ("mask_lines_wave_range_rest_param_filename", .none)]

/-- attributes of a new postage stamp without keywords -/
def pstampDefaults : Dict PyVal := [("pstamp", .none), ("pstamp_hdr", .none), ("img_PA", .none)]

/-- attributes of a new Gaussian PSF without keywords -/
def psfGaussianDefaults : Dict PyVal :=
  [("PSF_type", .str "Gaussian"), ("PSF_FWHM", .none), ("yspace_dither_arc", .none),
   ("_conv_stamp", .none)]

/-- attributes of a new spectrograph with PSF object `p`, without further keywords -/
def spectrographDefaults (p : Nat) : Dict PyVal :=
  [("instrument_name", .none), ("band", .none), ("pixscale", .none), ("PSF", .obj p),
   ("slit_width", .none), ("slit_length", .none), ("instrument_resolution", .none),
   ("conv_sigma", .none), ("slit_mask", .none)]

/-- attributes of new model options without keywords -/
def kinModelOptionsDefaults : Dict PyVal :=
  [("nSubpixels", .num 2), ("pad_factor", .num 0.5), ("do_position_wave_shift", .bool false),
   ("do_inst_res_conv_effective", .bool false), ("absvalsigma", .bool false),
   ("adaptive_upsample_wave", .bool true), ("adaptive_upsample_factor", .num 3),
   ("sigma_floor", .bool true)]

/-- What a constructor is expected to do: every attribute of the table has the value given for it, or
the value of the table; other keywords have no effect. -/
def HonoursKeywords (steps : List (CtorStep PyVal)) (defaults : Dict PyVal) : Prop :=
  ∀ (kw : Dict PyVal) (k : String),
    Dict.get (construct steps kw) k = (defaults.get k).map fun d => (kw.get k).getD d

theorem honours_of (pre : List (CtorStep PyVal)) (defaults : Dict PyVal)
    (hp : ∀ s ∈ pre, PlainStep s) (hd : construct pre [] = defaults) :
    HonoursKeywords (pre ++ [.update []]) defaults := by
  intro kw k
  rw [construct_override pre hp kw k, hd]

instance : DecidablePred (PlainStep (V := PyVal)) := fun s =>
  match s with
  | .assign _ _ => isTrue trivial
  | .param _ _ => isFalse id
  | .update named => inferInstanceAs (Decidable (named = []))

/-- **C160**: galaxies, 1D and 2D spectra, postage stamps, Gaussian PSFs, spectrographs and model options
have after construction, for every set of keywords, the value given for each attribute, the documented
default where none is given, and nothing else. -/
theorem C160_keywords :
    HonoursKeywords galaxyCtor galaxyDefaults ∧
    HonoursKeywords obsSpectrum1DCtor spec1DDefaults ∧
    HonoursKeywords obsSpectrum2DCtor spec2DDefaults ∧
    HonoursKeywords pstampCtor pstampDefaults ∧
    HonoursKeywords psfGaussianCtor psfGaussianDefaults ∧
    ∀ p, HonoursKeywords (spectrographCtor p) (spectrographDefaults p) := by
  refine ⟨?_, ?_, ?_, ?_, ?_, ?_⟩
  · exact honours_of galaxyCtor.dropLast _ (by decide +kernel) (by decide +kernel)
  · exact honours_of obsSpectrum1DCtor.dropLast _ (by decide +kernel) (by decide +kernel)
  · exact honours_of obsSpectrum2DCtor.dropLast _ (by decide +kernel) (by decide +kernel)
  · exact honours_of pstampCtor.dropLast _ (by decide +kernel) (by decide +kernel)
  · exact honours_of psfGaussianCtor.dropLast _ (by decide +kernel) (by decide +kernel)
  · intro p
    refine honours_of (spectrographCtor p).dropLast _ ?_ rfl
    simp [spectrographCtor, instrumentCtor, PlainStep]

/-- attributes of a new `GalaxyBasic` without keywords -/
def galaxyBasicDefaults : Dict PyVal :=
  [("z", .none), ("n", .none), ("re_arcsec", .none), ("q", .none), ("re_mass_arcsec", .none),
   ("q_mass", .none), ("q0", .num 0.19), ("delt_PA", .none), ("generate_model", .bool false),
   ("spec2D", .none)]

/-- attributes of a new `Spectrum` without keywords -/
def spectrumDefaults : Dict PyVal :=
  [("wave", .none), ("flux", .none), ("flux_err", .none), ("spec_mask", .none),
   ("units_wave", .str "angstroms"), ("units_flux", .str "flam"), ("spec_type", .str "wave")]

/-- attributes of a new `ObsSpectrum` or `ObsSpectrum2DBasic` without keywords -/
def obsSpectrumDefaults : Dict PyVal := spectrumDefaults ++ [("band", .none), ("slit_PA", .none)]

/-- attributes of a new `Instrument` or `Imager` with PSF object `p`, without further keywords -/
def instrumentDefaults (p : Nat) : Dict PyVal :=
  [("instrument_name", .none), ("band", .none), ("pixscale", .none), ("PSF", .obj p)]

/-- **C160** (basic classes): the classes for galaxies and spectra without survey data, and instruments without a
slit, honour their keywords too. -/
theorem C160_basic :
    HonoursKeywords galaxyBasicCtor galaxyBasicDefaults ∧
    HonoursKeywords spectrumCtor spectrumDefaults ∧
    HonoursKeywords obsSpectrumCtor obsSpectrumDefaults ∧
    HonoursKeywords obsSpectrum2DBasicCtor obsSpectrumDefaults ∧
    ∀ p, HonoursKeywords (instrumentCtor p) (instrumentDefaults p) := by
  refine ⟨?_, ?_, ?_, ?_, ?_⟩
  · exact honours_of galaxyBasicCtor.dropLast _ (by decide +kernel) (by decide +kernel)
  · exact honours_of spectrumCtor.dropLast _ (by decide +kernel) (by decide +kernel)
  · exact honours_of obsSpectrumCtor.dropLast _ (by decide +kernel) (by decide +kernel)
  · exact honours_of obsSpectrum2DBasicCtor.dropLast _ (by decide +kernel) (by decide +kernel)
  · intro p
    refine honours_of (instrumentCtor p).dropLast _ ?_ rfl
    simp [instrumentCtor, PlainStep]

/-- **C160** (1D spectra): the constructor that the 1D fits use (`C68`) honours its keywords too. -/
theorem C160_spectrum1D : HonoursKeywords spectrum1DCtor spec1DDefaults :=
  honours_of spectrum1DCtor.dropLast _ (by decide +kernel) (by decide +kernel)

/-- **C160** (model options): here the keywords are named parameters; they take effect in the same way. -/
theorem C160_options : HonoursKeywords kinModelOptionsCtor kinModelOptionsDefaults := by
  intro kw k
  by_cases hk : k ∈ kinModelOptionsDefaults.keys
  · have hform : kinModelOptionsCtor = kinModelOptionsCtor.dropLast ++
        [.update kinModelOptionsDefaults.keys] := by rfl
    rw [hform, construct, List.foldl_append, runs_leave kw k [_] (by simpa [Leaves] using hk)]
    simp only [kinModelOptionsDefaults, Dict.keys, List.map_cons, List.map_nil, List.mem_cons,
      List.not_mem_nil, or_false] at hk
    rcases hk with rfl | rfl | rfl | rfl | rfl | rfl | rfl | rfl <;>
      simp [kinModelOptionsCtor, kinModelOptionsDefaults, CtorStep.run, Dict.set, Dict.get] <;> norm_num
  · rw [(Dict.get_none_iff _ _).2 hk]
    refine (Dict.get_none_iff _ _).2 fun h => hk ?_
    have := (runs_keys kw k kinModelOptionsCtor [] [] Iff.rfl).1 h
    have hd : kinModelOptionsCtor.foldl (fun d s => s.run [] d) [] = kinModelOptionsDefaults := by
      decide +kernel
    rwa [hd] at this

example : Dict.get (construct obsSpectrum2DCtor [("row_snr_cut", .num 5), ("rows", .num 1)])
    "row_snr_cut" = some (.num 5) := by
  rw [C160_keywords.2.2.1]; decide +kernel
example : Dict.get (construct galaxyCtor [("z", .num 2), ("redshift", .num 1)]) "redshift" = none := by
  rw [C160_keywords.1]; decide +kernel

/-! ## C163: the PSF of an instrument -/

/-- **C163** (partial): an instrument is created for every PSF name; the PSF created with it has the width and the
dither distance given, a Moffat PSF also the `PSF_beta` given, and the Moffat class is used exactly for that name up
to case and surrounding blanks. Missing from the full claim: unknown names are accepted and later changes of the
width are ignored, see the theorems named `C163_false`. -/
theorem C163_created_partial (p : Nat) (kw : Dict PyVal) (s : String) (h : kw.get "PSF_type" = some (.str s)) :
    ∃ i, newSpectrograph p kw = .ok i ∧
      psfKind (some s.toList) = .ok i.kind ∧
      (kw.get "PSF" = none → i.attrs.get "PSF" = some (.obj p)) ∧
      (∀ k ∈ ["PSF_FWHM", "yspace_dither_arc"], i.psf.get k = some ((kw.get k).getD .none)) ∧
      (i.kind = .moffat → i.psf.get "PSF_beta" = some ((kw.get "PSF_beta").getD (.num 2.5))) := by
  have hP : kw.get "PSF" = none → Dict.get (construct (spectrographCtor p) kw) "PSF" = some (.obj p) := by
    intro hn
    rw [C160_keywords.2.2.2.2.2 p, hn]
    rfl
  unfold newSpectrograph
  rw [h]
  simp only
  cases hk : psfKind (some s.toList) with
  | error e =>
    unfold psfKind at hk
    simp only at hk
    split at hk
    · cases hk
    · split at hk <;> cases hk
  | ok kind =>
    cases kind with
    | gaussian =>
      refine ⟨_, rfl, rfl, hP, ?_, by simp⟩
      intro k hk
      rw [C160_keywords.2.2.2.2.1]
      simp only [List.mem_cons, List.not_mem_nil, or_false] at hk
      rcases hk with rfl | rfl <;> rfl
    | moffat =>
      refine ⟨_, rfl, rfl, hP, ?_, ?_⟩
      · intro k hk
        cases hv : kw.get k with
        | some v =>
          refine (C68_keywords_partial kw k v hv).2.2 ?_
          simp only [List.mem_cons, List.not_mem_nil, or_false] at hk
          rcases hk with rfl | rfl <;> simp
        | none =>
          simp only [List.mem_cons, List.not_mem_nil, or_false] at hk
          have hnot : ∀ d : Dict PyVal, Dict.get (setAttr (kw.filter fun q => decide (q.1 ∉ ["PSF_beta"])) d) k =
              d.get k := by
            intro d
            apply (C48_setAttr _ d).2.2.1
            rw [← Dict.get_none_iff, Dict.get_filter_named, hv]
            simp
          rcases hk with rfl | rfl <;>
            simp only [construct, psfMoffatCtor, List.foldl_cons, List.foldl_nil, CtorStep.run, hnot,
              Dict.get_set] <;> simp
      · intro _
        have hform : psfMoffatCtor = psfMoffatCtor.take 6 ++
            .param "PSF_beta" (.num 2.5) :: [.update ["PSF_beta"]] := rfl
        show Dict.get (construct psfMoffatCtor kw) "PSF_beta" = _
        rw [hform, construct, List.foldl_append, List.foldl_cons,
          runs_leave kw "PSF_beta" _ (by simp [Leaves]), CtorStep.run, Dict.get_set, if_pos rfl]

/-- **C163**: without a PSF name no instrument is created, KeyError; with a value that is not a string AttributeError. -/
theorem C163_unnamed (p : Nat) (kw : Dict PyVal) :
    (newSpectrograph p kw = .error .keyError ↔ kw.get "PSF_type" = none) ∧
      (newSpectrograph p kw = .error .attributeError ↔ ∃ v, kw.get "PSF_type" = some v ∧ ∀ s, v ≠ .str s) := by
  cases h : kw.get "PSF_type" with
  | none =>
    unfold newSpectrograph
    rw [h]
    exact ⟨by simp, by simp⟩
  | some v =>
    by_cases hs : ∃ s, v = .str s
    · obtain ⟨s, rfl⟩ := hs
      obtain ⟨i, hi, -⟩ := C163_created_partial p kw s h
      rw [hi]
      simp
    · push Not at hs
      have he : newSpectrograph p kw = .error .attributeError := by
        unfold newSpectrograph
        rw [h]
        cases v <;> first | rfl | exact absurd rfl (hs _)
      rw [he]
      exact ⟨by simp, fun _ => ⟨v, rfl, hs⟩, fun _ => rfl⟩

example : newSpectrograph 7 [("PSF_FWHM", .num 0.6)] = .error .keyError := (C163_unnamed 7 _).1.2 rfl
example : newSpectrograph 7 [("PSF_type", .none)] = .error .attributeError :=
  (C163_unnamed 7 _).2.2 ⟨.none, rfl, fun _ h => by cases h⟩

/-- **C163**, negation (unknown name): an unknown PSF name is accepted; a Gaussian is used while the PSF reports the
unknown name. -/
theorem C163_false_unknown (p : Nat) (kw : Dict PyVal) (s : String) (h : kw.get "PSF_type" = some (.str s))
    (hm : psfKind (some s.toList) ≠ .ok .moffat) :
    ∃ i, newSpectrograph p kw = .ok i ∧ i.kind = .gaussian ∧ i.psf.get "PSF_type" = some (.str s) := by
  obtain ⟨i, hi, hk, -⟩ := C163_created_partial p kw s h
  have hg : psfKind (some s.toList) = .ok .gaussian := by
    rw [hk] at hm ⊢
    cases hc : i.kind with
    | gaussian => rfl
    | moffat => rw [hc] at hm; exact absurd rfl hm
  refine ⟨_, by unfold newSpectrograph; rw [h]; simp only [hg]; rfl, rfl, ?_⟩
  show Dict.get (construct psfGaussianCtor kw) "PSF_type" = _
  rw [C160_keywords.2.2.2.2.1, h]
  rfl

/-- **C163**, negation (later changes): `instrument.setAttr(PSF_FWHM=…)` — or any other setting of the PSF — changes
nothing, whatever the instrument. -/
theorem C163_false_set (p : Nat) (kw : Dict PyVal) (i : InstrumentObj) (h : newSpectrograph p kw = .ok i)
    (k : String) (hk : k ∈ ["PSF_FWHM", "PSF_type", "PSF_beta", "yspace_dither_arc"]) (v : PyVal) :
    i.set [(k, v)] = i := by
  have ha : i.attrs = construct (spectrographCtor p) kw := by
    unfold newSpectrograph at h
    split at h
    · cases h
    · split at h
      · cases h
      · cases h; rfl
      · cases h; rfl
    · cases h
  have hs : setAttr [(k, v)] i.attrs = i.attrs := by
    apply setAttr_same
    intro j w hj
    right
    have : j = k := by
      by_contra hne
      simp only [Dict.get, if_neg (fun e : k = j => hne e.symm)] at hj
      cases hj
    subst this
    rw [ha, C160_keywords.2.2.2.2.2 p]
    simp only [List.mem_cons, List.not_mem_nil, or_false] at hk
    rcases hk with rfl | rfl | rfl | rfl <;> rfl
  unfold InstrumentObj.set
  rw [hs]

example : ∃ i, newSpectrograph 7 [("PSF_type", .str "airy"), ("PSF_FWHM", .num 0.6)] = .ok i ∧
    i.kind = .gaussian ∧ i.psf.get "PSF_type" = some (.str "airy") :=
  C163_false_unknown 7 _ "airy" rfl (by decide +kernel)
example : ∃ i, newSpectrograph 7 [("PSF_type", .str "Moffat"), ("PSF_beta", .num 4)] = .ok i ∧
    i.kind = .moffat := by
  obtain ⟨i, h, hk, -⟩ := C163_created_partial 7 [("PSF_type", .str "Moffat"), ("PSF_beta", .num 4)] "Moffat" rfl
  refine ⟨i, h, ?_⟩
  have : psfKind (some "Moffat".toList) = .ok .moffat := by decide +kernel
  rw [this] at hk
  cases hc : i.kind with
  | moffat => rfl
  | gaussian => rw [hc] at hk; cases hk

/-! ## C161: attaching a spectrum completes it -/

section
variable {K : Type*} [Field K] [LinearOrder K] [IsStrictOrderedRing K]

theorem withRest_mask (s : SpecObj K) (z : Option K) :
    (s.withRest z).mask = s.mask ∧ (s.withRest z).wave = s.wave ∧ (s.withRest z).flux = s.flux ∧
    (s.withRest z).err = s.err ∧ (s.withRest z).specType = s.specType := by
  unfold SpecObj.withRest
  split
  · split
    · exact ⟨rfl, rfl, rfl, rfl, rfl⟩
    · exact ⟨rfl, rfl, rfl, rfl, rfl⟩
  · exact ⟨rfl, rfl, rfl, rfl, rfl⟩

/-- **C161**: attaching a spectrum stores it in the galaxy, leaves data and all other spectra alone and keeps a mask
that is there. For a galaxy at a redshift other than -1 and a spectrum in wavelengths, observed and rest-frame
wavelengths belong together pixel by pixel. -/
theorem C161_attached (cls : SpecClass) (mem : Nat → SpecObj K) (g : GalObj K) (ref : Nat)
    (mem' : Nat → SpecObj K) (g' : GalObj K) (e : Option PyErr)
    (h : attach cls mem g ref = (mem', g', e)) :
    (g'.z = g.z ∧
      (cls = .oneD → g'.spec1D = some ref ∧ g'.spec2D = g.spec2D) ∧
      (cls = .twoD → g'.spec2D = some ref ∧ g'.spec1D = g.spec1D)) ∧
    (∀ r, r ≠ ref → mem' r = mem r) ∧
    ((mem' ref).wave = (mem ref).wave ∧ (mem' ref).flux = (mem ref).flux ∧
      (mem' ref).err = (mem ref).err ∧ (mem' ref).specType = (mem ref).specType) ∧
    (∀ m, (mem ref).mask = some m → (mem' ref).mask = some m) ∧
    (∀ z w, g.z = some z → (mem ref).wave = some w → (mem ref).specType = "wave" → z ≠ -1 →
      (mem' ref).obswave = some w ∧
      ∃ rest : List K, (mem' ref).restwave = some (rest.map Fl.fin) ∧
        rest.map (fun x => x * (1 + z)) = w) := by
  unfold attach at h
  simp only [Prod.mk.injEq] at h
  obtain ⟨rfl, rfl, -⟩ := h
  obtain ⟨hm, hw, hf, he, ht⟩ := withRest_mask (mem ref) g.z
  have hld : ∀ (P : SpecObj K → Prop), P ((mem ref).withRest g.z) →
      (∀ m, (mem ref).mask = none → P { (mem ref).withRest g.z with mask := m }) →
      P ((mem ref).loadDefaults cls g.z).1 := by
    intro P h1 h2
    unfold SpecObj.loadDefaults
    simp only [hm]
    cases hmm : (mem ref).mask with
    | some m => exact h1
    | none =>
      cases cls with
      | oneD =>
        simp only
        cases hc : ((mem ref).withRest g.z).wave with
        | none => simpa [hc] using h1
        | some w => simpa [hc] using h2 _ hmm
      | twoD =>
        simp only
        cases hc : ((mem ref).withRest g.z).flux with
        | none => simpa [hc] using h1
        | some w => simpa [hc] using h2 _ hmm
  refine ⟨⟨by cases cls <;> rfl, by rintro rfl; exact ⟨rfl, rfl⟩, by rintro rfl; exact ⟨rfl, rfl⟩⟩,
    fun r hr => Function.update_of_ne hr _ _, ?_, ?_, ?_⟩
  · rw [Function.update_self]
    exact hld (fun s => s.wave = _ ∧ s.flux = _ ∧ s.err = _ ∧ s.specType = _) ⟨hw, hf, he, ht⟩
      fun _ _ => ⟨hw, hf, he, ht⟩
  · intro m hmm
    rw [Function.update_self]
    refine hld (fun s => s.mask = _) (by rw [hm, hmm]) fun _ hn => ?_
    rw [hmm] at hn; cases hn
  · intro z w hz hwv hst hz1
    have hr : ((mem ref).withRest g.z).obswave = some w ∧ ((mem ref).withRest g.z).restwave =
        some ((w.map fun x => x / (1 + z)).map Fl.fin) := by
      have h0 : (1 + z) ≠ 0 := fun h => hz1 (by linarith)
      simp only [SpecObj.withRest, hz, hwv, hst, if_true, SpecObj.calcRest, List.map_map, true_and]
      congr 1
      apply List.map_congr_left
      intro x _
      simp only [Function.comp, Fl.fin_div, if_neg h0]
    rw [Function.update_self]
    refine hld (fun s => s.obswave = some w ∧ ∃ rest : List K, s.restwave = some (rest.map Fl.fin) ∧
        rest.map (fun x => x * (1 + z)) = w) ⟨hr.1, _, hr.2, ?_⟩ fun _ _ => ⟨hr.1, _, hr.2, ?_⟩
    all_goals
      rw [List.map_map]
      conv_rhs => rw [← List.map_id w]
      apply List.map_congr_left
      intro x _
      have h0 : (1 + z) ≠ 0 := fun h => hz1 (by linarith)
      simp only [Function.comp, id]
      exact div_mul_cancel₀ x h0

/-- **C161**: the mask made for a spectrum without one has one entry, 1, for every pixel. -/
theorem C161_mask (mem : Nat → SpecObj K) (g : GalObj K) (ref : Nat) (hm : (mem ref).mask = none) :
    (∀ w, (mem ref).wave = some w →
      ((attach .oneD mem g ref).1 ref).mask = some (.vec (List.replicate w.length 1)) ∧
      (attach .oneD mem g ref).2.2 = none) ∧
    (∀ rows, (mem ref).flux = some (.mat rows) →
      ((attach .twoD mem g ref).1 ref).mask =
        some (.mat (rows.map fun r => List.replicate r.length 1)) ∧
      (attach .twoD mem g ref).2.2 = none) := by
  obtain ⟨hmm, hw, hf, -, -⟩ := withRest_mask (mem ref) g.z
  rw [hm] at hmm
  constructor
  · intro w h
    rw [h] at hw
    simp [attach, SpecObj.loadDefaults, hmm, hw, Function.update_self]
  · intro rows h
    rw [h] at hf
    simp [attach, SpecObj.loadDefaults, hmm, hf, Function.update_self, NdArr.onesLike]

/-- **C161**: attaching fails exactly for a 1D spectrum that has neither wavelengths nor a mask; the galaxy refers to
it all the same. -/
theorem C161_fails_iff (cls : SpecClass) (mem : Nat → SpecObj K) (g : GalObj K) (ref : Nat) :
    ((attach cls mem g ref).2.2 ≠ none ↔
      cls = .oneD ∧ (mem ref).wave = none ∧ (mem ref).mask = none) ∧
    ((attach cls mem g ref).2.2 ≠ none →
      (attach cls mem g ref).2.2 = some .typeError ∧ (attach cls mem g ref).2.1.spec1D = some ref) := by
  obtain ⟨hmm, hw, hf, -, -⟩ := withRest_mask (mem ref) g.z
  have key : (attach cls mem g ref).2.2 =
      if cls = .oneD ∧ (mem ref).wave = none ∧ (mem ref).mask = none then some .typeError else none := by
    unfold attach SpecObj.loadDefaults
    simp only [hmm]
    cases hm : (mem ref).mask with
    | some m => simp
    | none =>
      cases cls with
      | oneD =>
        simp only [hw]
        cases (mem ref).wave <;> simp
      | twoD =>
        simp only [hf]
        cases (mem ref).flux <;> simp
  constructor
  · rw [key]
    split_ifs with h
    · simp [h]
    · simp [h]
  · intro hne
    rw [key] at hne ⊢
    split_ifs at hne ⊢ with h
    · refine ⟨rfl, ?_⟩
      obtain ⟨rfl, -, -⟩ := h
      rfl
    · exact absurd rfl hne

/-- **C161**: attaching the same spectrum again changes nothing. -/
theorem C161_again (cls : SpecClass) (mem : Nat → SpecObj K) (g : GalObj K) (ref : Nat) :
    attach cls (attach cls mem g ref).1 (attach cls mem g ref).2.1 ref = attach cls mem g ref := by
  have hwr : ∀ (s : SpecObj K) (z : Option K), (s.withRest z).withRest z = s.withRest z := by
    intro s z
    obtain ⟨w, f, e, m, t, o, r⟩ := s
    by_cases ht : t = "wave" <;> cases z <;> cases w <;> simp [SpecObj.withRest, SpecObj.calcRest, ht]
  have hmask : ∀ w f e m m' t o r (z : Option K),
      (SpecObj.mk (K := K) w f e m t o r).withRest z = ⟨w, f, e, m, t, o, r⟩ →
      (SpecObj.mk (K := K) w f e m' t o r).withRest z = ⟨w, f, e, m', t, o, r⟩ := by
    intro w f e m m' t o r z h
    by_cases ht : t = "wave" <;> cases z <;> cases w <;>
      simp [SpecObj.withRest, SpecObj.calcRest, ht] at h ⊢ <;> simp [h]
  have hld : ∀ (s : SpecObj K) (z : Option K),
      (s.loadDefaults cls z).1.loadDefaults cls z = s.loadDefaults cls z := by
    intro s z
    have h2 := hwr s z
    unfold SpecObj.loadDefaults
    generalize s.withRest z = t at *
    obtain ⟨w, f, e, m, t, o, r⟩ := t
    cases m with
    | some m => simp only [h2]
    | none =>
      cases cls with
      | oneD =>
        cases w with
        | none => simp only [h2]
        | some w => simp only [hmask _ _ _ _ _ _ _ _ z h2]
      | twoD =>
        cases f with
        | none => simp only [h2]
        | some w => simp only [hmask _ _ _ _ _ _ _ _ z h2]
  unfold attach
  cases cls <;> simp only [Function.update_self, Function.update_idem, hld]

/-! ## C162: rest wavelengths follow the redshift of the galaxy -/

/-- **C162** (partial): attaching the spectrum again brings the rest-frame wavelengths in line with the present redshift.
Missing from the full claim: without that step they stay as they were, see `C162_false_stale`. -/
theorem C162_reattach_partial (cls : SpecClass) (mem : Nat → SpecObj K) (g : GalObj K) (ref : Nat) (z : K)
    (w : List K) (hw : (mem ref).wave = some w) (ht : (mem ref).specType = "wave") (hz : z ≠ -1) :
    ∃ rest : List K,
      ((attach cls (attach cls mem g ref).1 ((attach cls mem g ref).2.1.setZ z) ref).1 ref).restwave =
        some (rest.map Fl.fin) ∧ rest.map (fun x => x * (1 + z)) = w := by
  obtain ⟨-, -, ⟨h1, -, -, h4⟩, -, -⟩ := C161_attached cls mem g ref _ _ _ rfl
  exact ((C161_attached cls (attach cls mem g ref).1 ((attach cls mem g ref).2.1.setZ z) ref _ _ _ rfl).2.2.2.2
    z w rfl (h1.trans hw) (h4.trans ht) hz).2

/-- **C162**, negation (changed redshift): after attaching a spectrum with at least one wavelength that is not zero,
giving the galaxy another redshift leaves rest wavelengths that do not belong to it. -/
theorem C162_false_stale (cls : SpecClass) (mem : Nat → SpecObj K) (g : GalObj K) (ref : Nat) (z z' : K)
    (w : List K) (hg : g.z = some z) (hw : (mem ref).wave = some w) (ht : (mem ref).specType = "wave")
    (hz : z ≠ -1) (hne : z' ≠ z) (hx : ∃ x ∈ w, x ≠ 0) :
    ∃ rest : List K, ((attach cls mem g ref).1 ref).restwave = some (rest.map Fl.fin) ∧
      ((attach cls mem g ref).2.1.setZ z').z = some z' ∧
      rest.map (fun x => x * (1 + z')) ≠ w := by
  obtain ⟨-, rest, hr, hmul⟩ := (C161_attached cls mem g ref _ _ _ rfl).2.2.2.2 z w hg hw ht hz
  refine ⟨rest, hr, rfl, fun h => ?_⟩
  obtain ⟨x, hxw, hx0⟩ := hx
  rw [← hmul] at hxw h
  obtain ⟨y, hy, rfl⟩ := List.mem_map.1 hxw
  have := List.map_inj_left.1 h y hy
  have hy0 : y ≠ 0 := fun h0 => hx0 (by rw [h0, zero_mul])
  exact hne (by have := mul_left_cancel₀ hy0 this; linarith)

/-- **C162**, negation (redshift set late): a spectrum attached before the galaxy has a redshift has no observed
wavelengths afterwards either; they are missing when the redshift is set. -/
theorem C162_false_late (cls : SpecClass) (mem : Nat → SpecObj K) (g : GalObj K) (ref : Nat) (z : K)
    (hg : g.z = none) (ho : (mem ref).obswave = none) (hr : (mem ref).restwave = none) :
    ((attach cls mem g ref).2.1.setZ z).z = some z ∧
    ((attach cls mem g ref).1 ref).obswave = none ∧ ((attach cls mem g ref).1 ref).restwave = none := by
  have h0 : (mem ref).withRest none = mem ref := by
    unfold SpecObj.withRest; rfl
  refine ⟨rfl, ?_⟩
  simp only [attach, Function.update_self, hg, SpecObj.loadDefaults, h0]
  cases hm : (mem ref).mask with
  | some m => exact ⟨ho, hr⟩
  | none =>
    cases cls with
    | oneD =>
      simp only
      cases (mem ref).wave with
      | none => exact ⟨ho, hr⟩
      | some w => exact ⟨ho, hr⟩
    | twoD =>
      simp only
      cases (mem ref).flux with
      | none => exact ⟨ho, hr⟩
      | some w => exact ⟨ho, hr⟩

/-- **C162**, negation (shared spectrum): attaching the spectrum of one galaxy to another replaces the rest wavelengths
of the first. -/
theorem C162_false_shared (cls : SpecClass) (mem : Nat → SpecObj K) (g g2 : GalObj K) (ref : Nat) (z z2 : K)
    (w : List K) (hg : g.z = some z) (hg2 : g2.z = some z2) (hw : (mem ref).wave = some w)
    (ht : (mem ref).specType = "wave") (hz : z ≠ -1) (hz2 : z2 ≠ -1) (hne : z2 ≠ z) (hx : ∃ x ∈ w, x ≠ 0) :
    ((attach cls (attach cls mem g ref).1 g2 ref).1 ref).restwave ≠
      ((attach cls mem g ref).1 ref).restwave := by
  obtain ⟨rest, hr, -, hns⟩ := C162_false_stale cls mem g ref z z2 w hg hw ht hz hne hx
  obtain ⟨-, -, ⟨h1, -, -, h4⟩, -, -⟩ := C161_attached cls mem g ref _ _ _ rfl
  obtain ⟨rest2, hr2, hm2⟩ := ((C161_attached cls (attach cls mem g ref).1 g2 ref _ _ _ rfl).2.2.2.2
    z2 w hg2 (h1.trans hw) (h4.trans ht) hz2).2
  rw [hr]
  intro h
  apply hns
  have h' := Option.some.inj (hr2.symm.trans h)
  have hinj : Function.Injective (List.map (Fl.fin : K → Fl K)) :=
    List.map_injective_iff.2 fun a b hab => by cases hab; rfl
  rw [← hinj h', hm2]

/-- two spectra, one galaxy at redshift 1 -/
def exampleSpectra (n : Nat) : SpecObj ℚ :=
  if n = 0 then ⟨some [10, 20, 30], some (.vec [.fin 1, .fin 2, .fin 3]), none, none, "wave", none, none⟩
  else ⟨some [10, 20], some (.mat [[.fin 1, .nan], [.fin 3, .fin 4]]), none, none, "wave", none, none⟩

/-- attached to a galaxy at redshift 1 -/
example : ((attach .oneD exampleSpectra ⟨some 1, none, none⟩ 0).1 0).restwave = some [.fin 5, .fin 10, .fin 15] ∧
    ((attach .oneD exampleSpectra ⟨some 1, none, none⟩ 0).1 0).mask = some (.vec [1, 1, 1]) ∧
    ((attach .twoD exampleSpectra ⟨some 1, none, none⟩ 1).1 1).mask = some (.mat [[1, 1], [1, 1]]) := by
  decide +kernel

/-- the redshift is then corrected to 3 -/
example : ∃ rest : List ℚ, ((attach .oneD exampleSpectra ⟨some 1, none, none⟩ 0).1 0).restwave =
      some (rest.map Fl.fin) ∧
    ((attach .oneD exampleSpectra ⟨some 1, none, none⟩ 0).2.1.setZ 3).z = some 3 ∧
    rest.map (fun x => x * (1 + 3)) ≠ [10, 20, 30] :=
  C162_false_stale .oneD exampleSpectra ⟨some 1, none, none⟩ 0 1 3 [10, 20, 30] rfl rfl rfl (by norm_num) (by norm_num)
    ⟨10, by simp, by norm_num⟩

end

section
variable {K : Type*} [Field K] [LinearOrder K] [IsStrictOrderedRing K]
/-- **C162**, exact condition: after a spectrum has been attached to a galaxy with redshift `z`, the rest wavelengths belong to a
redshift set later exactly if it is the same one (or every wavelength is zero). -/
theorem C162_exact (cls : SpecClass) (mem : Nat → SpecObj K) (g : GalObj K) (ref : Nat) (z z' : K)
    (w : List K) (hg : g.z = some z) (hw : (mem ref).wave = some w) (ht : (mem ref).specType = "wave") (hz : z ≠ -1) :
    ((attach cls mem g ref).2.1.setZ z').z = some z' ∧
    ∃ rest : List K, ((attach cls mem g ref).1 ref).restwave = some (rest.map Fl.fin) ∧
      (rest.map (fun x => x * (1 + z')) = w ↔ z' = z ∨ ∀ x ∈ w, x = 0) := by
  refine ⟨rfl, ?_⟩
  by_cases h : z' = z ∨ ∀ x ∈ w, x = 0
  · obtain ⟨-, rest, hr, hmul⟩ := (C161_attached cls mem g ref _ _ _ rfl).2.2.2.2 z w hg hw ht hz
    refine ⟨rest, hr, fun _ => h, fun _ => ?_⟩
    rcases h with rfl | h
    · exact hmul
    · rw [← hmul]
      refine List.map_congr_left fun y hy => ?_
      have h0 := h (y * (1 + z)) (by rw [← hmul]; exact List.mem_map.2 ⟨y, hy, rfl⟩)
      have hy0 : y = 0 := by
        rcases mul_eq_zero.1 h0 with h | h
        · exact h
        · exact absurd (by linarith) hz
      rw [hy0, zero_mul, zero_mul]
  · push Not at h
    obtain ⟨rest, hr, -, hne⟩ := C162_false_stale cls mem g ref z z' w hg hw ht hz h.1 h.2
    exact ⟨rest, hr, fun he => absurd he hne, fun hh => absurd hh (by push Not; exact h)⟩
end

end Misfit
