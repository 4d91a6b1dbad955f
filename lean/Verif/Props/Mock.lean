import Verif.Model.Mock
import Verif.Props.Seeing
import Verif.Props.Mirror
import Verif.Props.Continuum
import Verif.Props.Cube3D

/-!
# Mock slit observations

C150: the image.  C151: earlier mocks.  C152: ignored arguments.  C153: missing arguments.
C154, C155: symmetries.  C156: impossible axis ratios.  C157: data cubes.
-/

namespace Misfit

/-- A call with usable arguments: sizes positive, `slit_length` and `yshift` given, some name for the PSF, an equally
spaced axis of at least two velocities, or of wavelengths together with one of the six known groups of lines, an
object with positive radius, index and thickness, a positive dispersion, a turnover radius that is not 0.  The axis
ratio is not restricted here. -/
structure MockUsable (a : MockArgs) : Prop where
  pix : 0 < a.pixscale
  width : 0 < a.slitWidth
  length : ∃ len, a.slitLength = some len ∧ 0 < len
  sub : 0 < a.nSubpixels
  pad : 0 ≤ a.padFactor
  shift : ∃ m, a.yshift = some m
  size : 0 < a.n ∧ 0 < a.re ∧ 0 < a.q0 ∧ a.q0 < 1
  axis : a.specType = .velocity ∨ a.specType = .wave ∧
    ∃ g ∈ ["Halpha", "Hbeta", "OIII", "NII", "SII", "OII"], a.linegroup = some g
  wave : ∃ w0 step N, 0 < step ∧ 2 ≤ N ∧ a.wave = uniformGrid w0 step N
  psf : ∃ s, a.psfType = some s
  turn : a.rt ≠ 0
  disp : 0 < a.sigma0
  red : 0 < 1 + a.z

/-! ## Helpers -/

theorem psfKind_total (s : List Char) : ∃ k, psfKind (some s) = .ok k := by
  unfold psfKind
  simp only
  split_ifs <;> exact ⟨_, rfl⟩

theorem mockRows_value (len p : ℝ) (nymin : Nat) (hp : 0 < p) (hl : 0 < len) :
    ∃ L m0, mockRows len p nymin = .ok (L, max nymin ⌈len / p⌉₊, m0) ∧
      m0 = ((max nymin ⌈len / p⌉₊ : ℕ) : ℝ) / 2 - 1 / 2 := by
  unfold mockRows
  simp only [if_neg hp.ne']
  split_ifs with h
  · have e : (nymin : ℝ) * p / p = nymin := by field_simp
    have h1 : ⌈len / p⌉₊ ≤ nymin := by
      rw [Nat.ceil_le, div_le_iff₀ hp]
      exact h.le
    rw [max_eq_left h1, e, Int.ceil_natCast]
    refine ⟨_, _, rfl, ?_⟩
    push_cast
    norm_num
  · have h0 : 0 < len / p := div_pos hl hp
    have h1 : nymin ≤ ⌈len / p⌉₊ := by
      have h2 : (nymin : ℝ) ≤ len / p := by rw [le_div_iff₀ hp]; exact not_lt.1 h
      have h3 : (nymin : ℝ) ≤ (⌈len / p⌉₊ : ℝ) := h2.trans (Nat.le_ceil _)
      exact_mod_cast h3
    rw [max_eq_right h1]
    refine ⟨_, _, rfl, ?_⟩
    have h4 : ((⌈len / p⌉₊ : ℕ) : ℝ) = ((⌈len / p⌉ : ℤ) : ℝ) := by
      have : ((⌈len / p⌉.toNat : ℕ) : ℤ) = ⌈len / p⌉ := Int.toNat_of_nonneg (Int.ceil_nonneg h0.le)
      exact_mod_cast this
    rw [h4]
    norm_num

/-- the six groups have lines with positive wavelengths and strengths -/
theorem mockLines_group (g : String) (hg : g ∈ ["Halpha", "Hbeta", "OIII", "NII", "SII", "OII"]) :
    ∃ w f : List ℚ, initializeLineset (some g) ⟨none, none, none⟩ = .ok ⟨(readLineNames (some g)).toOption, some w, some f⟩ ∧
      w ≠ [] ∧ w.length ≤ f.length ∧ (∀ r ∈ w, 0 < r) ∧ ∀ r ∈ f, 0 < r := by
  simp only [List.mem_cons, List.not_mem_nil, or_false] at hg
  rcases hg with rfl | rfl | rfl | rfl | rfl | rfl
  · exact ⟨[6564.60], [1], by decide +kernel, by decide +kernel, by decide +kernel, by decide +kernel, by decide +kernel⟩
  · exact ⟨[4862.71], [1], by decide +kernel, by decide +kernel, by decide +kernel, by decide +kernel, by decide +kernel⟩
  · exact ⟨[5008.24, 4960.295], [1, 0.333333], by decide +kernel, by decide +kernel, by decide +kernel,
      by decide +kernel, by decide +kernel⟩
  · exact ⟨[6549.86, 6585.27], [0.333333, 1], by decide +kernel, by decide +kernel, by decide +kernel,
      by decide +kernel, by decide +kernel⟩
  · exact ⟨[6732.673, 6718.294], [1, 0.261111], by decide +kernel, by decide +kernel, by decide +kernel,
      by decide +kernel, by decide +kernel⟩
  · exact ⟨[3727.10, 3729.86], [1, 0.233333], by decide +kernel, by decide +kernel, by decide +kernel,
      by decide +kernel, by decide +kernel⟩

theorem fiducial_shape : KinProfile.fiducial.shape = (some 2, some 1) := rfl

theorem mockImage_shape (np : Bool) (a : MockArgs) (b : PSFKind × Nat × ℝ × (List ℝ × List ℝ)) (k : KinProfile) :
    (mockImage np a b k).1.shape = k.shape := by
  have hb : ∀ cfg theta, (mockBuild cfg k theta).1.shape = k.shape := by
    intro cfg theta
    unfold mockBuild buildModel
    cases setupCalcs cfg theta with
    | error e => rfl
    | ok f => exact (doModelCalcs_keeps cfg _ theta).2.1
  unfold mockImage
  cases sinI a.q a.q0 with
  | error e => rfl
  | ok s =>
    simp only
    cases a.yshift with
    | none => simp only; split <;> rfl
    | some m =>
      simp only
      cases s with
      | fin x => exact hb _ _
      | _ => exact hb _ _

theorem mockSlit_shape (np : Bool) (k : KinProfile) (a : MockArgs) : (mockSlit np k a).1.shape = k.shape := by
  unfold mockSlit
  cases mockBasis a with
  | error e => rfl
  | ok b =>
    simp only
    cases h : k.updateTheta (mockTheta a (a.yshift.getD 0)) with
    | error e => rfl
    | ok k' => exact (mockImage_shape np a b k').trans (updateTheta_shape _ _ _ h)

theorem mockHistory_shape (np : Bool) (hist : List MockArgs) : (mockHistory np hist).shape = (some 2, some 1) := by
  unfold mockHistory
  suffices h : ∀ k : KinProfile, (hist.foldl (fun k a => (mockSlit np k a).1) k).shape = k.shape from
    (h _).trans fiducial_shape
  induction hist with
  | nil => exact fun k => rfl
  | cons a rest ih => exact fun k => (ih _).trans (mockSlit_shape np k a)

/-- a profile with the two parameters of the rotation curve and the one of the dispersion -/
def mockKin (t : List ℝ) : KinProfile := ⟨t, some ⟨t.take 2, 2⟩, some ⟨(t.drop 2).take 1, 1⟩⟩

theorem mock_updateTheta (k : KinProfile) (hk : k.shape = (some 2, some 1)) (t : List ℝ) :
    k.updateTheta t = .ok (mockKin t) := by
  rw [updateTheta_congr k ⟨[], some ⟨[], 2⟩, some ⟨[], 1⟩⟩ (by rw [hk]; rfl)]
  rfl

theorem mockAfter_eq (np : Bool) (hist : List MockArgs) (a : MockArgs) :
    mockAfter np hist a = match mockBasis a with
      | .error e => .error e
      | .ok b => (mockImage np a b (mockKin (mockTheta a (a.yshift.getD 0)))).2 := by
  unfold mockAfter mockSlit
  cases mockBasis a with
  | error e => rfl
  | ok b => simp only [mock_updateTheta _ (mockHistory_shape np hist)]

theorem sinI_fin (q q0 : ℝ) (h0 : 0 < q0) (h1 : q0 < 1) (hq0 : -1 ≤ q) (hq : q ≤ 1) : ∃ s, sinI q q0 = .ok (.fin s) := by
  unfold sinI
  split_ifs with h h2
  · exact ⟨1, rfl⟩
  · nlinarith
  · refine ⟨Real.sqrt ((1 - q ^ 2) / (1 - q0 ^ 2)), ?_⟩
    have : ¬ (1 - q ^ 2) / (1 - q0 ^ 2) < 0 := by
      apply not_lt.2
      apply div_nonneg <;> nlinarith
    simp only [Fl.sqrt, if_neg this]

theorem sinI_nan (q q0 : ℝ) (h0 : 0 < q0) (h1 : q0 < 1) (hq : 1 < q) : sinI q q0 = .ok .nan := by
  unfold sinI
  rw [if_neg (by linarith), if_neg (by nlinarith)]
  have : (1 - q ^ 2) / (1 - q0 ^ 2) < 0 := by
    apply div_neg_of_neg_of_pos <;> nlinarith
  simp only [Fl.sqrt, if_pos this]

/-- number of rows of the image -/
noncomputable def mockNRows (a : MockArgs) (len : ℝ) : ℕ := max a.nymin ⌈len / a.pixscale⌉₊

/-- what is built for usable arguments -/
theorem mockBasis_usable (a : MockArgs) (ha : MockUsable a) (len : ℝ) (hl : a.slitLength = some len) :
    ∃ kind lines, mockBasis a =
      .ok (kind, mockNRows a len, ((mockNRows a len : ℕ) : ℝ) / 2 - 1 / 2, lines) ∧
      0 < mockNRows a len ∧ (∀ s, a.psfType = some s → psfKind (some s) = .ok kind) ∧
      ∀ np sini, 0 ≤ a.fwhm → Luminous (mockCfg np a kind (mockNRows a len)
        (((mockNRows a len : ℕ) : ℝ) / 2 - 1 / 2) lines sini) ∨ np = false := by
  obtain ⟨len', hl', hpos⟩ := ha.length
  obtain rfl : len' = len := by rw [hl] at hl'; exact (Option.some.inj hl').symm
  obtain ⟨s, hs⟩ := ha.psf
  obtain ⟨kind, hkind⟩ := psfKind_total s
  obtain ⟨L, m0, hrow, hm0⟩ := mockRows_value len' a.pixscale a.nymin ha.pix hpos
  have hlines : ∃ lines, mockLines a.specType a.linegroup = .ok lines ∧
      (a.specType = .velocity ∨ a.specType = .wave ∧ lines.1 ≠ [] ∧
        lines.1.length ≤ lines.2.length ∧ (∀ r ∈ lines.1, 0 < r) ∧ ∀ f ∈ lines.2, 0 < f) := by
    rcases ha.axis with hv | ⟨hw, g, hg, hgr⟩
    · exact ⟨([], []), by rw [hv]; rfl, Or.inl hv⟩
    · obtain ⟨w, f, hi, h1, h2, h3, h4⟩ := mockLines_group g hg
      refine ⟨(w.map (fun x : ℚ => (x : ℝ)), f.map (fun x : ℚ => (x : ℝ))), ?_, Or.inr ⟨hw, ?_, ?_, ?_, ?_⟩⟩
      · unfold mockLines
        rw [hw, hgr]
        simp only [hi, Option.getD_some]
      · simpa using h1
      · simpa using h2
      · intro r hr
        obtain ⟨x, hx, rfl⟩ := List.mem_map.1 hr
        exact_mod_cast h3 x hx
      · intro r hr
        obtain ⟨x, hx, rfl⟩ := List.mem_map.1 hr
        exact_mod_cast h4 x hx
  obtain ⟨lines, hlin, hax⟩ := hlines
  have hR : 0 < mockNRows a len' := by
    unfold mockNRows
    exact lt_of_lt_of_le (Nat.ceil_pos.2 (div_pos hpos ha.pix)) (le_max_right _ _)
  refine ⟨kind, lines, ?_, hR, ?_, ?_⟩
  · unfold mockBasis
    rw [hl, hs]
    simp only [mockPsfKind, hkind, hrow, hlin, hm0]
    rfl
  · intro s' hs'
    rw [hs] at hs'
    cases hs'
    exact hkind
  · intro np sini hF
    cases np with
    | false => exact Or.inr rfl
    | true =>
      refine Or.inl ⟨hR, ha.sub, ha.pix, ha.width, ha.pad, fun r z => ?_, hax, rfl, rfl, ha.wave,
        fun _ => ⟨rfl, 3, by norm_num, by norm_num [mockCfg]⟩, fun _ => rfl, fun _ => by norm_num [mockCfg]⟩
      exact mul_pos (by unfold intSersic; positivity) (by unfold intExpZ; positivity)

/-! ## C150 -/

/-- **C150** -/
theorem C150_image (a : MockArgs) (ha : MockUsable a) (hq0 : -1 ≤ a.q) (hq : a.q ≤ 1)
    (hwide : a.pixscale / a.nSubpixels / 2 ≤ a.fwhm) (hist : List MockArgs) (len : ℝ)
    (hl : a.slitLength = some len) :
    ∃ img : Arr2, mockAfter true hist a = .ok (some img) ∧ img.n = max a.nymin ⌈len / a.pixscale⌉₊ ∧
      img.m = a.wave.length ∧ ∀ i j, 0 < img.val i j := by
  obtain ⟨kind, lines, hb, hR, -, hlum⟩ := mockBasis_usable a ha len hl
  obtain ⟨m, hm⟩ := ha.shift
  obtain ⟨s, hs⟩ := sinI_fin a.q a.q0 ha.size.2.2.1 ha.size.2.2.2 hq0 hq
  have hS : (0 : ℝ) < a.nSubpixels := by exact_mod_cast ha.sub
  have hF : 0 < a.fwhm := lt_of_lt_of_le (by have := ha.pix; positivity) hwide
  have hlum' := (hlum true s hF.le).resolve_right (by simp)
  obtain ⟨st, img, h1, h2, h3, h4, -⟩ := C149_wide_partial _ hlum' hF hwide (mockTheta a m)
    ((mockTheta a m).take 2) (((mockTheta a m).drop 2).take 1) a.va a.rt a.sigma0 m a.z ha.turn ha.disp ha.red
  refine ⟨img, ?_, h2, h3, h4⟩
  rw [mockAfter_eq, hb]
  unfold mockImage mockBuild
  simp only [hs, hm, Option.getD_some]
  have h1' : buildModel (mockCfg true a kind (mockNRows a len) (((mockNRows a len : ℕ) : ℝ) / 2 - 1 / 2) lines s)
      (mockKin (mockTheta a m)) (mockTheta a m) = .ok (st, .ok (some img)) := h1
  rw [h1']

/-! ## C151 -/

/-- **C151** -/
theorem C151_independent (np : Bool) (hist hist' : List MockArgs) (a : MockArgs) :
    mockAfter np hist a = mockAfter np hist' a := by
  rw [mockAfter_eq, mockAfter_eq]

/-! ## C152 -/

/-- **C152** is false, first half: the two arguments have no effect, whatever was done before. -/
theorem C152_false_ignored (np : Bool) (hist : List MockArgs) (a : MockArgs) (d : Bool) (b : Option ℝ) :
    mockAfter np hist { a with dither := d, psfBeta := b } = mockAfter np hist a := by
  rw [mockAfter_eq, mockAfter_eq]
  rfl

/-- **C152** is false, second half: with `dither=True` no pixel is negative. -/
theorem C152_false_dither (a : MockArgs) (ha : MockUsable a) (hq0 : -1 ≤ a.q) (hq : a.q ≤ 1)
    (hwide : a.pixscale / a.nSubpixels / 2 ≤ a.fwhm) (hist : List MockArgs) :
    ∃ img : Arr2, mockAfter true hist { a with dither := true } = .ok (some img) ∧ ∀ i j, 0 < img.val i j := by
  obtain ⟨len, hl, -⟩ := ha.length
  obtain ⟨img, h1, -, -, h2⟩ := C150_image a ha hq0 hq hwide hist len hl
  refine ⟨img, ?_, h2⟩
  rw [← h1]
  exact C152_false_ignored true hist a true a.psfBeta

/-! ## C153 -/

/-- **C153** -/
theorem C153_missing (np : Bool) (hist : List MockArgs) (a : MockArgs) :
    (a.slitLength = none → mockAfter np hist a = .error .typeError) ∧
    (a.psfType = none → ∃ e, mockAfter np hist a = .error e) ∧
    (a.yshift = none → ∃ e, mockAfter np hist a = .error e) ∧
    (a.specType = .wave → a.linegroup = none → ∃ e, mockAfter np hist a = .error e) ∧
    (MockUsable { a with psfType := some [], yshift := some 0 } → a.psfType = none →
      mockAfter np hist a = .error .attributeError) ∧
    (MockUsable { a with yshift := some 0 } → a.yshift = none → 0 ≤ a.fwhm →
      mockAfter np hist a = .error .typeError) ∧
    (MockUsable { a with specType := .velocity, yshift := some 0 } → a.specType = .wave → a.linegroup = none →
      mockAfter np hist a = .error .valueError) := by
  rw [mockAfter_eq]
  have hlin : initializeLineset none ⟨none, none, none⟩ = .error .valueError := by decide +kernel
  refine ⟨fun h => ?_, fun h => ?_, fun h => ?_, fun hw h => ?_, fun hu h => ?_, fun hu h hF => ?_, fun hu hw h => ?_⟩
  · unfold mockBasis; rw [h]
  · unfold mockBasis mockPsfKind
    rw [h]
    cases a.slitLength with
    | none => exact ⟨_, rfl⟩
    | some len => exact ⟨_, rfl⟩
  · cases mockBasis a with
    | error e => exact ⟨e, rfl⟩
    | ok b =>
      unfold mockImage
      simp only [h]
      cases sinI a.q a.q0 with
      | error e => exact ⟨e, rfl⟩
      | ok s =>
        simp only
        cases setupGrid (⟨b.2.1, a.nSubpixels, a.pixscale, a.slitWidth, a.fwhm, a.padFactor, 0, 0⟩ : GridIn ℝ) with
        | error e => exact ⟨e, rfl⟩
        | ok g => exact ⟨_, rfl⟩
  · unfold mockBasis mockLines
    rw [hw, h]
    simp only [hlin]
    cases a.slitLength with
    | none => exact ⟨_, rfl⟩
    | some len =>
      simp only
      cases mockPsfKind a.psfType with
      | error e => exact ⟨e, rfl⟩
      | ok k =>
        simp only
        cases mockRows len a.pixscale a.nymin with
        | error e => exact ⟨e, rfl⟩
        | ok r => exact ⟨_, rfl⟩
  · obtain ⟨len, hl, -⟩ := hu.length
    unfold mockBasis mockPsfKind
    have hl' : a.slitLength = some len := hl
    rw [h, hl']
  · obtain ⟨len, hl, -⟩ := hu.length
    obtain ⟨kind, lines, hb, hR, -, -⟩ := mockBasis_usable _ hu len hl
    have hb' : mockBasis a = .ok (kind, mockNRows a len, ((mockNRows a len : ℕ) : ℝ) / 2 - 1 / 2, lines) := hb
    rw [hb']
    unfold mockImage
    have hsin : ∃ s, sinI a.q a.q0 = .ok s := by
      have h1 : 0 < a.q0 := hu.size.2.2.1
      have h2 : a.q0 < 1 := hu.size.2.2.2
      unfold sinI
      split_ifs with h3 h4
      · exact ⟨_, rfl⟩
      · nlinarith
      · exact ⟨_, rfl⟩
    obtain ⟨s, hs⟩ := hsin
    obtain ⟨G, hG, -⟩ := setupGrid_ok (⟨mockNRows a len, a.nSubpixels, a.pixscale, a.slitWidth, a.fwhm, a.padFactor,
      0, 0⟩ : GridIn ℝ) ⟨hR, hu.sub, hu.pix, hu.width, mul_nonneg hF hu.pad⟩
    simp only [hs, h, hG]
  · obtain ⟨len, hl, hpos⟩ := hu.length
    obtain ⟨s, hs⟩ := hu.psf
    have hl' : a.slitLength = some len := hl
    have hs' : a.psfType = some s := hs
    obtain ⟨kind, hkind⟩ := psfKind_total s
    obtain ⟨L, m0, hrow, -⟩ := mockRows_value len a.pixscale a.nymin hu.pix hpos
    unfold mockBasis mockLines
    rw [hw, h, hl', hs']
    simp only [hlin, mockPsfKind, hkind, hrow]

/-! ## C154 -/

/-- The only line of the group in the middle of the equally spaced wavelengths, or velocity zero in the middle of the
equally spaced velocities. -/
def MockCentred (a : MockArgs) : Prop :=
  (a.specType = .wave ∧ ∃ r : ℝ, (a.linegroup = some "Halpha" ∧ r = 6564.60 ∨ a.linegroup = some "Hbeta" ∧ r = 4862.71) ∧
    ∃ step, 0 < step ∧ 2 ≤ a.wave.length ∧ ∀ i : Fin a.wave.length, a.wave.get i =
      r * (1 + a.z) + ((i : ℝ) - ((a.wave.length : ℝ) - 1) / 2) * step) ∨
  (a.specType = .velocity ∧ ∃ step, 0 < step ∧ 2 ≤ a.wave.length ∧
    ∀ i : Fin a.wave.length, a.wave.get i = ((i : ℝ) - ((a.wave.length : ℝ) - 1) / 2) * step)

theorem mockBasis_lines (a : MockArgs) (b : PSFKind × Nat × ℝ × (List ℝ × List ℝ)) (h : mockBasis a = .ok b) :
    mockLines a.specType a.linegroup = .ok b.2.2.2 := by
  unfold mockBasis at h
  cases h1 : a.slitLength with
  | none => rw [h1] at h; cases h
  | some len =>
    rw [h1] at h
    simp only at h
    cases h2 : mockPsfKind a.psfType with
    | error e => rw [h2] at h; cases h
    | ok k =>
      rw [h2] at h
      simp only at h
      cases h3 : mockRows len a.pixscale a.nymin with
      | error e => rw [h3] at h; cases h
      | ok r =>
        rw [h3] at h
        simp only at h
        cases h4 : mockLines a.specType a.linegroup with
        | error e => rw [h4] at h; cases h
        | ok l =>
          rw [h4] at h
          cases h
          rfl

theorem mockCentred_line (np : Bool) (a : MockArgs) (ha : MockCentred a) (b : PSFKind × Nat × ℝ × (List ℝ × List ℝ))
    (hb : mockBasis a = .ok b) (sini : ℝ) :
    LineInMiddle (mockCfg np a b.1 b.2.1 b.2.2.1 b.2.2.2 sini) a.z := by
  refine ⟨?_, fun _ => by norm_num [mockCfg]⟩
  rcases ha with ⟨hw, r, hr, step, h0, h2, hwave⟩ | h
  · refine Or.inl ⟨hw, r, ?_, step, h0, h2, hwave⟩
    have hl := mockBasis_lines a b hb
    rw [hw] at hl
    unfold mockLines at hl
    have ea : initializeLineset (some "Halpha") ⟨none, none, none⟩ =
      .ok ⟨some ["HA6565"], some [6564.60], some [1]⟩ := by decide +kernel
    have eb : initializeLineset (some "Hbeta") ⟨none, none, none⟩ =
      .ok ⟨some ["HB4863"], some [4862.71], some [1]⟩ := by decide +kernel
    rcases hr with ⟨hg, rfl⟩ | ⟨hg, rfl⟩ <;> rw [hg] at hl
    · simp only [ea, Option.getD_some, Except.ok.injEq] at hl
      show b.2.2.2.1 = _
      rw [← hl]
      simp only [List.map_cons, List.map_nil]
      norm_num
    · simp only [eb, Option.getD_some, Except.ok.injEq] at hl
      show b.2.2.2.1 = _
      rw [← hl]
      simp only [List.map_cons, List.map_nil]
      norm_num
  · exact Or.inr h

/-- **C154** -/
theorem C154_mirror (np : Bool) (hist : List MockArgs) (a : MockArgs) (ha : MockCentred a) (hs : a.sigma0 ≠ 0) :
    Reflected false (mockAfter np hist a) (mockAfter np hist { a with va := -a.va }) := by
  rw [mockAfter_eq, mockAfter_eq]
  have hb' : mockBasis { a with va := -a.va } = mockBasis a := rfl
  rw [hb']
  cases hb : mockBasis a with
  | error e => exact rfl
  | ok b =>
    unfold mockImage
    simp only
    cases sinI a.q a.q0 with
    | error e => exact rfl
    | ok s =>
      simp only
      cases a.yshift with
      | none =>
        simp only
        cases setupGrid (⟨b.2.1, a.nSubpixels, a.pixscale, a.slitWidth, a.fwhm, a.padFactor, 0, 0⟩ : GridIn ℝ) with
        | error e => exact rfl
        | ok g => exact rfl
      | some m =>
        simp only [Option.getD_some]
        have key : ∀ sini : ℝ, Reflected false (mockBuild (mockCfg np a b.1 b.2.1 b.2.2.1 b.2.2.2 sini)
            (mockKin (mockTheta a m)) (mockTheta a m)).2 (mockBuild (mockCfg np a b.1 b.2.1 b.2.2.1 b.2.2.2 sini)
            (mockKin (mockTheta { a with va := -a.va } m)) (mockTheta { a with va := -a.va } m)).2 := by
          intro sini
          have h := C146_reverse (mockCfg np a b.1 b.2.1 b.2.2.1 b.2.2.2 sini) (mockTheta a m) ((mockTheta a m).take 2)
            (((mockTheta a m).drop 2).take 1) a.va a.rt a.sigma0 m a.z (mockCentred_line np a ha b hb sini) hs
          unfold mockBuild buildModel
          unfold buildModel at h
          have e1 : mockTheta a m = [a.va, a.rt, a.sigma0, m, a.z] := rfl
          have e2 : mockTheta { a with va := -a.va } m = [-a.va, a.rt, a.sigma0, m, a.z] := rfl
          rw [e1, e2] at *
          cases h1 : setupCalcs (mockCfg np a b.1 b.2.1 b.2.2.1 b.2.2.2 sini) [a.va, a.rt, a.sigma0, m, a.z] with
          | error e =>
            rw [h1] at h
            cases h2 : setupCalcs (mockCfg np a b.1 b.2.1 b.2.2.1 b.2.2.2 sini) [-a.va, a.rt, a.sigma0, m, a.z] with
            | error e' => rw [h2] at h; exact h
            | ok f => rw [h2] at h; exact (h : False).elim
          | ok f =>
            rw [h1] at h
            cases h2 : setupCalcs (mockCfg np a b.1 b.2.1 b.2.2.1 b.2.2.2 sini) [-a.va, a.rt, a.sigma0, m, a.z] with
            | error e' => rw [h2] at h; exact (h : False).elim
            | ok f' =>
              rw [h2] at h
              simp only at h ⊢
              rw [doModelCalcs_congr _ ⟨f', mockKin [-a.va, a.rt, a.sigma0, m, a.z], _, _⟩ ⟨f', _, _, _⟩ _ rfl _ rfl rfl]
              · exact h
              · rfl
        have key0 := key 0
        have hnone : Reflected false ((mockBuild (mockCfg np a b.1 b.2.1 b.2.2.1 b.2.2.2 0)
            (mockKin (mockTheta a m)) (mockTheta a m)).2.map fun _ => none)
            ((mockBuild (mockCfg np a b.1 b.2.1 b.2.2.1 b.2.2.2 0) (mockKin (mockTheta { a with va := -a.va } m))
            (mockTheta { a with va := -a.va } m)).2.map fun _ => none) := by
          generalize (mockBuild (mockCfg np a b.1 b.2.1 b.2.2.1 b.2.2.2 0) (mockKin (mockTheta a m)) (mockTheta a m)).2
            = r at key0 ⊢
          generalize (mockBuild (mockCfg np a b.1 b.2.1 b.2.2.1 b.2.2.2 0) (mockKin (mockTheta { a with va := -a.va } m))
            (mockTheta { a with va := -a.va } m)).2 = r' at key0 ⊢
          rcases r with e | _ | _ <;> rcases r' with e' | _ | _ <;> first | exact key0.elim | exact key0 | trivial
        cases s with
        | fin x => exact key x
        | _ => exact hnone

/-! ## C155 -/

/-- **C155** -/
theorem C155_point_symmetric (np : Bool) (hist : List MockArgs) (a : MockArgs) (ha : MockUsable a) (hc : MockCentred a)
    (hF : 0 ≤ a.fwhm) (h0 : a.yshift = some 0) (hq0 : -1 ≤ a.q) (hq : a.q ≤ 1) (len : ℝ) (hl : a.slitLength = some len)
    (hmoff : a.fwhm = 0 → a.psfType = some "Gaussian".toList)
    (h1 : 1 < max a.nymin ⌈len / a.pixscale⌉₊ * a.nSubpixels)
    (hk : a.fwhm = 0 ∨ (max a.nymin ⌈len / a.pixscale⌉₊ * a.nSubpixels) % 2 = 1 ∧
      ⌈a.slitWidth * a.nSubpixels / a.pixscale⌉.toNat % 2 = 1) :
    Reflected true (mockAfter np hist a) (mockAfter np hist a) := by
  obtain ⟨kind, lines, hb, hR, hkind, hlum⟩ := mockBasis_usable a ha len hl
  obtain ⟨s, hs⟩ := sinI_fin a.q a.q0 ha.size.2.2.1 ha.size.2.2.2 hq0 hq
  have hcent : CentredDisc (mockCfg np a kind (mockNRows a len) (((mockNRows a len : ℕ) : ℝ) / 2 - 1 / 2) lines s) 0 := by
    refine ⟨hR, ha.sub, h1, ha.pix, ha.width, mul_nonneg hF ha.pad, ?_, rfl, fun r z => ?_, fun h => ⟨?_, ?_⟩⟩
    · show ((mockNRows a len : ℕ) : ℝ) / 2 - 1 / 2 + 0 = ((mockNRows a len : ℕ) - 1) / 2
      ring
    · show intensity _ _ _ _ _ _ = intensity _ _ _ _ _ _
      unfold intensity intExpZ
      rw [abs_neg]
    · intro hz
      have h2 := hkind _ (hmoff hz)
      have h3 : psfKind (some "Gaussian".toList) = .ok .gaussian := by decide +kernel
      rw [h3] at h2
      cases h2
      cases h
    · show (2.5 : ℝ) ≠ 0
      norm_num
  obtain ⟨st, r, h2, h3⟩ := C147_point_symmetric_partial _ (mockTheta a 0) ((mockTheta a 0).take 2)
    (((mockTheta a 0).drop 2).take 1) a.va a.rt a.sigma0 0 a.z (mockCentred_line np a hc _ hb s) ha.disp.ne' hcent
    (hk.imp (fun h => h.le) id)
  have h2' : buildModel (mockCfg np a kind (mockNRows a len) (((mockNRows a len : ℕ) : ℝ) / 2 - 1 / 2) lines s)
      (mockKin (mockTheta a 0)) (mockTheta a 0) = .ok (st, r) := h2
  rw [mockAfter_eq, hb]
  unfold mockImage mockBuild
  simp only [hs, h0, Option.getD_some]
  rw [h2']
  exact h3

/-! ## C156 -/

/-- **C156** is false: the call returns, with an image of NaNs. -/
theorem C156_false (a : MockArgs) (ha : MockUsable a) (hq : 1 < a.q)
    (hwide : a.pixscale / a.nSubpixels / 2 ≤ a.fwhm) (hist : List MockArgs) :
    mockAfter true hist a = .ok none := by
  obtain ⟨len, hl, -⟩ := ha.length
  obtain ⟨kind, lines, hb, hR, -, hlum⟩ := mockBasis_usable a ha len hl
  obtain ⟨m, hm⟩ := ha.shift
  have hs := sinI_nan a.q a.q0 ha.size.2.2.1 ha.size.2.2.2 hq
  have hS : (0 : ℝ) < a.nSubpixels := by exact_mod_cast ha.sub
  have hF : 0 < a.fwhm := lt_of_lt_of_le (by have := ha.pix; positivity) hwide
  have hlum' := (hlum true 0 hF.le).resolve_right (by simp)
  obtain ⟨st, img, h1, h2, h3, h4, -⟩ := C149_wide_partial _ hlum' hF hwide (mockTheta a m)
    ((mockTheta a m).take 2) (((mockTheta a m).drop 2).take 1) a.va a.rt a.sigma0 m a.z ha.turn ha.disp ha.red
  rw [mockAfter_eq, hb]
  unfold mockImage mockBuild
  simp only [hs, hm, Option.getD_some]
  have h1' : buildModel (mockCfg true a kind (mockNRows a len) (((mockNRows a len : ℕ) : ℝ) / 2 - 1 / 2) lines 0)
      (mockKin (mockTheta a m)) (mockTheta a m) = .ok (st, .ok (some img)) := h1
  rw [h1']
  rfl

/-- **C156** is false for data cubes too: if there is a cube for an axis ratio in range, then there is one, of the same
size, for every larger ratio, and each of its values is NaN; nothing is raised that is not raised otherwise. -/
theorem C156_false_cube (np : Bool) (kin : KinProfile) (a : MockArgs) (ha : MockUsable a) (hq : 1 < a.q) :
    match mockIFU np kin { a with q := 1 } with
    | .error e => mockIFU np kin a = .error e
    | .ok c => ∃ d, mockIFU np kin a = .ok d ∧ d.nW = c.nW ∧ d.nY = c.nY ∧ d.nX = c.nX ∧ ∀ w y x, d.val w y x = .nan := by
  have h1 : sinI 1 a.q0 = .ok (.fin 0) := by
    have h0 := ha.size.2.2.1
    have h2 := ha.size.2.2.2
    unfold sinI
    rw [if_neg (by linarith), if_neg (by nlinarith)]
    simp [Fl.sqrt]
  have hs := sinI_nan a.q a.q0 ha.size.2.2.1 ha.size.2.2.2 hq
  obtain ⟨m, hm⟩ := ha.shift
  clear ha hq
  rcases a with ⟨z, va, rt, s0, ys, n, re, q, q0, dp, di, wv, px, rs, sw, sl, ny, fw, pt, pb, lg, st, ns, pf⟩
  simp only at h1 hs hm
  subst hm
  have hb : mockBasis ⟨z, va, rt, s0, some m, n, re, 1, q0, dp, di, wv, px, rs, sw, sl, ny, fw, pt, pb, lg, st, ns, pf⟩ =
    mockBasis ⟨z, va, rt, s0, some m, n, re, q, q0, dp, di, wv, px, rs, sw, sl, ny, fw, pt, pb, lg, st, ns, pf⟩ := rfl
  have ht : mockTheta ⟨z, va, rt, s0, some m, n, re, 1, q0, dp, di, wv, px, rs, sw, sl, ny, fw, pt, pb, lg, st, ns, pf⟩ m =
    mockTheta ⟨z, va, rt, s0, some m, n, re, q, q0, dp, di, wv, px, rs, sw, sl, ny, fw, pt, pb, lg, st, ns, pf⟩ m := rfl
  unfold mockIFU
  rw [hb]
  simp only [hs, h1, ht, Option.getD_some]
  generalize mockTheta _ m = t
  cases mockBasis ⟨z, va, rt, s0, some m, n, re, q, q0, dp, di, wv, px, rs, sw, sl, ny, fw, pt, pb, lg, st, ns, pf⟩ with
  | error e => rfl
  | ok b =>
    simp only
    have hc : mockCfg np ⟨z, va, rt, s0, some m, n, re, 1, q0, dp, di, wv, px, rs, sw, sl, ny, fw, pt, pb, lg, st, ns, pf⟩
        b.1 b.2.1 b.2.2.1 b.2.2.2 0 =
      mockCfg np ⟨z, va, rt, s0, some m, n, re, q, q0, dp, di, wv, px, rs, sw, sl, ny, fw, pt, pb, lg, st, ns, pf⟩
        b.1 b.2.1 b.2.2.1 b.2.2.2 0 := rfl
    rw [hc]
    cases kin.updateTheta t with
    | error e => rfl
    | ok k =>
      simp only
      cases mockCube (mockCfg np ⟨z, va, rt, s0, some m, n, re, q, q0, dp, di, wv, px, rs, sw, sl, ny, fw, pt, pb, lg,
          st, ns, pf⟩ b.1 b.2.1 b.2.2.1 b.2.2.2 0) k t with
      | error e => rfl
      | ok c => exact ⟨_, rfl, rfl, rfl, rfl, fun _ _ _ => rfl⟩

/-! ## C157 -/

/-- subpixels added on each side of the field for the point spread function -/
noncomputable def mockPad (a : MockArgs) : ℕ :=
  (npRound (a.fwhm * a.padFactor / (a.pixscale / a.nSubpixels))).toNat

/-- **C157**, the exact outcome: a cube, of the size of the padded field, exactly if this size divides the number of
subpixels in a row; a ValueError otherwise. -/
theorem C157_outcome_partial (a : MockArgs) (ha : MockUsable a) (hq0 : -1 ≤ a.q) (hq : a.q ≤ 1)
    (hwide : a.pixscale / a.nSubpixels / 2 ≤ a.fwhm) (hist : List MockArgs) (len : ℝ)
    (hl : a.slitLength = some len) (R P : ℕ) (hR : R = max a.nymin ⌈len / a.pixscale⌉₊) (hP : P = R + 2 * mockPad a) :
    (P ∣ R * a.nSubpixels → ∃ c, mockIFU true (mockHistory true hist) a = .ok c ∧ c.nW = a.wave.length ∧
      c.nY = P ∧ c.nX = P) ∧
    (¬ P ∣ R * a.nSubpixels → mockIFU true (mockHistory true hist) a = .error .valueError) := by
  obtain ⟨kind, lines, hb, hpos, -, hlum⟩ := mockBasis_usable a ha len hl
  obtain rfl : R = mockNRows a len := hR
  obtain ⟨m, hm⟩ := ha.shift
  obtain ⟨s, hs⟩ := sinI_fin a.q a.q0 ha.size.2.2.1 ha.size.2.2.2 hq0 hq
  have hS : (0 : ℝ) < a.nSubpixels := by exact_mod_cast ha.sub
  have hF : 0 < a.fwhm := lt_of_lt_of_le (by have := ha.pix; positivity) hwide
  have hlum0 := (hlum true s hF.le).resolve_right (by simp)
  generalize hcfg : mockCfg true a kind (mockNRows a len) (((mockNRows a len : ℕ) : ℝ) / 2 - 1 / 2) lines s = cfg at hlum0
  have hfw : cfg.psf.fwhm = a.fwhm := by rw [← hcfg]; rfl
  have hpx : cfg.pixscale = a.pixscale := by rw [← hcfg]; rfl
  have hsb : cfg.nSubpixels = a.nSubpixels := by rw [← hcfg]; rfl
  have hpf : cfg.padFactor = a.padFactor := by rw [← hcfg]; rfl
  have hrw : cfg.nWhole = mockNRows a len := by rw [← hcfg]; rfl
  have hwv : cfg.wave = a.wave := by rw [← hcfg]; rfl
  have hfac : cfg.factor = 3 := by rw [← hcfg]; rfl
  have hrows : (0 : ℝ) < cfg.nWhole := by exact_mod_cast hlum0.rows
  have hpix := hlum0.pix
  have hlum' : Luminous (ifuCfg cfg) :=
    ⟨hlum0.rows, hlum0.sub, hlum0.pix, by show 0 < (cfg.nWhole : ℝ) * cfg.pixscale; positivity, hlum0.pad, hlum0.int,
      hlum0.axis, hlum0.mask, rfl, hlum0.wave, fun h => ⟨(hlum0.adapt h).1, 3, by norm_num, by norm_num [ifuCfg]⟩,
      hlum0.dither, hlum0.beta⟩
  have hi : IfuInput cfg := by
    refine ⟨hlum0.rows, hlum0.sub, hlum0.pix, ?_, ?_⟩
    · obtain ⟨w0, step, N, -, hN, hw⟩ := hlum0.wave
      rw [hw]
      intro h
      have := congrArg List.length h
      simp [uniformGrid] at this
      omega
    · rw [hfw, hpf]
      exact mul_nonneg hF.le ha.pad
  obtain ⟨st, img, h1, -⟩ := C149_wide_partial (ifuCfg cfg) hlum' (by show 0 < cfg.psf.fwhm; rw [hfw]; exact hF)
    (by show cfg.pixscale / cfg.nSubpixels / 2 ≤ cfg.psf.fwhm; rw [hfw, hpx, hsb]; exact hwide) (mockTheta a m)
    ((mockTheta a m).take 2) (((mockTheta a m).drop 2).take 1) a.va a.rt a.sigma0 m a.z ha.turn ha.disp ha.red
  have hpad : padCells cfg = mockPad a := by
    unfold padCells mockPad
    rw [hfw, hpf, hpx, hsb]
  have hup : (KinParams.init (mockTheta a m) (List.replicate 5 false)).update [] =
      (KinParams.init (mockTheta a m) (List.replicate 5 false), none) := by
    simp [KinParams.update, KinParams.init, mockTheta, updateParameters]
  have hk : (mockKin (mockTheta a m)).updateTheta (mockTheta a m) = .ok (mockKin (mockTheta a m)) :=
    mock_updateTheta _ rfl _
  have hout := C106_outcome_partial ⟨KinParams.init (mockTheta a m) (List.replicate 5 false), mockKin (mockTheta a m),
    none, none⟩ cfg hi (Or.inr hlum0.wave) [] rfl _ hup _ hk st (some img) h1
  obtain ⟨f, raw, w, hf, -, -, -, -, -, -, hmake⟩ := make_first ⟨KinParams.init (mockTheta a m) (List.replicate 5 false),
    mockKin (mockTheta a m), none, none⟩ cfg hi [] rfl _ hup _ hk st (some img) h1
  have hval : mockIFU true (mockHistory true hist) a = mockCube cfg (mockKin (mockTheta a m)) (mockTheta a m) := by
    unfold mockIFU
    rw [hb]
    simp only [mock_updateTheta _ (mockHistory_shape true hist), hs, hm, Option.getD_some, hcfg]
  rw [hval, hP]
  rw [hpad, hrw, hsb] at hout
  unfold mockCube
  simp only
  constructor
  · intro hd
    rw [if_pos hd] at hout
    rw [hmake] at hout ⊢
    split at hout
    · cases hout
    · rename_i c hc
      refine ⟨c, by simp only [hc], ?_⟩
      unfold Cube3.rebin at hc
      split at hc
      · cases hc
      · simp only at hc
        split at hc
        · cases hc
          simp only [hpad, hrw, hwv]
          exact ⟨trivial, trivial, trivial⟩
        · cases hc
  · intro hd
    rw [if_neg hd] at hout
    rw [hout]

/-- **C157** is false: with at most two subpixels per pixel, the default, and a point spread function that needs
padding there is no cube, unless the padding is half as wide as the field, and then it has the wrong size. -/
theorem C157_false (a : MockArgs) (ha : MockUsable a) (hq0 : -1 ≤ a.q) (hq : a.q ≤ 1)
    (hwide : a.pixscale / a.nSubpixels / 2 ≤ a.fwhm) (hist : List MockArgs) (len : ℝ)
    (hl : a.slitLength = some len) (h2 : a.nSubpixels ≤ 2) (hpad : 0 < mockPad a) :
    (max a.nymin ⌈len / a.pixscale⌉₊ ≠ 2 * mockPad a → mockIFU true (mockHistory true hist) a = .error .valueError) ∧
    ∀ c, mockIFU true (mockHistory true hist) a = .ok c → c.nY = 2 * max a.nymin ⌈len / a.pixscale⌉₊ := by
  obtain ⟨h3, h4⟩ := C157_outcome_partial a ha hq0 hq hwide hist len hl _ _ rfl rfl
  obtain ⟨len', hl', hpos⟩ := ha.length
  obtain rfl : len' = len := by rw [hl] at hl'; exact (Option.some.inj hl').symm
  have hR : 0 < max a.nymin ⌈len' / a.pixscale⌉₊ :=
    lt_of_lt_of_le (Nat.ceil_pos.2 (div_pos hpos ha.pix)) (le_max_right _ _)
  generalize max a.nymin ⌈len' / a.pixscale⌉₊ = R at *
  have hs := ha.sub
  have key : (R + 2 * mockPad a) ∣ R * a.nSubpixels → R = 2 * mockPad a := by
    rintro ⟨c, hc⟩
    have hS : a.nSubpixels = 1 ∨ a.nSubpixels = 2 := by omega
    rcases Nat.eq_zero_or_pos c with rfl | h0
    · rcases hS with h | h <;> rw [h] at hc <;> omega
    · rcases Nat.lt_or_ge 1 c with h1 | h1
      · have : (R + 2 * mockPad a) * 2 ≤ (R + 2 * mockPad a) * c := Nat.mul_le_mul_left _ h1
        rcases hS with h | h <;> rw [h] at hc <;> omega
      · obtain rfl : c = 1 := by omega
        rcases hS with h | h <;> rw [h] at hc <;> omega
  constructor
  · intro hne
    exact h4 fun hd => hne (key hd)
  · intro c hc
    by_cases hd : (R + 2 * mockPad a) ∣ R * a.nSubpixels
    · obtain ⟨c', hc', -, h5, -⟩ := h3 hd
      rw [hc] at hc'
      cases hc'
      rw [h5]
      have := key hd
      omega
    · rw [h4 hd] at hc
      cases hc

/-! ## The hypotheses are met -/

/-- an H-alpha observation with 21 wavelengths, the line on the middle one, 13 rows -/
noncomputable def typicalMock : MockArgs where
  z := 1
  va := 200
  rt := 1
  sigma0 := 50
  yshift := some 0
  n := 1
  re := 1
  q := 0.5
  q0 := 0.19
  deltPA := 0
  dither := false
  wave := uniformGrid (6564.60 * 2 - 10) 1 21
  pixscale := 0.2
  res := 30
  slitWidth := 0.6
  slitLength := some 2
  nymin := 13
  fwhm := 0.6
  psfType := some "Gaussian".toList
  psfBeta := none
  linegroup := some "Halpha"
  specType := .wave
  nSubpixels := 1
  padFactor := 0.5

theorem typicalMock_usable : MockUsable typicalMock := by
  refine ⟨?_, ?_, ⟨2, rfl, by norm_num⟩, ?_, ?_, ⟨0, rfl⟩, ?_, Or.inr ⟨rfl, "Halpha", by decide, rfl⟩,
    ⟨_, 1, 21, by norm_num, by norm_num, rfl⟩, ⟨_, rfl⟩, ?_, ?_, ?_⟩ <;> norm_num [typicalMock]

theorem typicalMock_centred : MockCentred typicalMock := by
  refine Or.inl ⟨rfl, 6564.60, Or.inl ⟨rfl, rfl⟩, 1, by norm_num, ?_, fun i => ?_⟩
  · simp [typicalMock, uniformGrid]
  · have hlen : ((typicalMock.wave.length : ℕ) : ℝ) = 21 := by simp [typicalMock, uniformGrid]
    have hi : (i : ℕ) < 21 := i.isLt.trans_eq (by simp [typicalMock, uniformGrid])
    have hget : typicalMock.wave.get i = 6564.60 * 2 - 10 + ((i : ℕ) : ℝ) * 1 := by
      have h := uniformGrid_get (6564.60 * 2 - 10) 1 21 i hi
      rw [List.get_eq_getElem]
      exact Option.some.inj ((List.getElem?_eq_getElem i.isLt).symm.trans h)
    have hz : typicalMock.z = 1 := rfl
    rw [hget, hz]
    simp only [hlen]
    norm_num
    ring

theorem typicalMock_rows : max typicalMock.nymin ⌈(2 : ℝ) / typicalMock.pixscale⌉₊ = 13 := by
  have : ⌈(2 : ℝ) / typicalMock.pixscale⌉₊ = 10 := by
    rw [Nat.ceil_eq_iff (by norm_num)]
    norm_num [typicalMock]
  rw [this]
  rfl

example : ∃ img : Arr2, mockAfter true [typicalMock, { typicalMock with slitLength := none }] typicalMock = .ok (some img) ∧
    img.n = 13 ∧ img.m = 21 ∧ ∀ i j, 0 < img.val i j := by
  obtain ⟨img, h1, h2, h3, h4⟩ := C150_image typicalMock typicalMock_usable (by norm_num [typicalMock])
    (by norm_num [typicalMock]) (by norm_num [typicalMock]) [typicalMock, { typicalMock with slitLength := none }] 2 rfl
  exact ⟨img, h1, h2.trans typicalMock_rows, h3.trans (by simp [typicalMock, uniformGrid]), h4⟩

example : Reflected true (mockAfter true [] typicalMock) (mockAfter true [] typicalMock) := by
  refine C155_point_symmetric true [] typicalMock typicalMock_usable typicalMock_centred (by norm_num [typicalMock]) rfl
    (by norm_num [typicalMock]) (by norm_num [typicalMock]) 2 rfl (fun h => rfl) ?_ (Or.inr ⟨?_, ?_⟩)
  · rw [typicalMock_rows]; norm_num [typicalMock]
  · rw [typicalMock_rows]; norm_num [typicalMock]
  · have : typicalMock.slitWidth * typicalMock.nSubpixels / typicalMock.pixscale = ((3 : ℤ) : ℝ) := by
      norm_num [typicalMock]
    rw [this, Int.ceil_intCast]
    rfl

example : MockCentred typicalMock ∧ typicalMock.sigma0 ≠ 0 := ⟨typicalMock_centred, by norm_num [typicalMock]⟩

example : mockAfter true [] { typicalMock with q := 2 } = .ok none := by
  refine C156_false { typicalMock with q := 2 } ?_ (by norm_num) (by norm_num [typicalMock]) []
  obtain ⟨⟩ := typicalMock_usable
  constructor <;> assumption

example : mockAfter true [] { typicalMock with yshift := none } = .error .typeError := by
  refine (C153_missing true [] { typicalMock with yshift := none }).2.2.2.2.2.1 ?_ rfl (by norm_num [typicalMock])
  exact typicalMock_usable

/-- the typical observation as a data cube: two rows of padding, a ValueError -/
example : mockIFU true (mockHistory true []) typicalMock = .error .valueError := by
  have hp : mockPad typicalMock = 2 := by
    unfold mockPad
    have e : typicalMock.fwhm * typicalMock.padFactor / (typicalMock.pixscale / typicalMock.nSubpixels) = 3 / 2 := by
      norm_num [typicalMock]
    rw [e]
    norm_num [npRound]
    rfl
  refine (C157_false typicalMock typicalMock_usable (by norm_num [typicalMock]) (by norm_num [typicalMock])
    (by norm_num [typicalMock]) [] 2 rfl (by norm_num [typicalMock]) (by rw [hp]; norm_num)).1 ?_
  rw [typicalMock_rows, hp]
  norm_num

/-- **C157**, exact condition: with usable arguments the cube has one spectrum per pixel of the field exactly if the point spread
function needs no padding. -/
theorem C157_exact (a : MockArgs) (ha : MockUsable a) (hq0 : -1 ≤ a.q) (hq : a.q ≤ 1)
    (hwide : a.pixscale / a.nSubpixels / 2 ≤ a.fwhm) (hist : List MockArgs) (len : ℝ)
    (hl : a.slitLength = some len) :
    (∃ c, mockIFU true (mockHistory true hist) a = .ok c ∧ c.nW = a.wave.length ∧
      c.nY = max a.nymin ⌈len / a.pixscale⌉₊ ∧ c.nX = max a.nymin ⌈len / a.pixscale⌉₊) ↔ mockPad a = 0 := by
  obtain ⟨h1, h2⟩ := C157_outcome_partial a ha hq0 hq hwide hist len hl _ _ rfl rfl
  constructor
  · rintro ⟨c, hc, -, hy, -⟩
    by_cases hd : max a.nymin ⌈len / a.pixscale⌉₊ + 2 * mockPad a ∣ max a.nymin ⌈len / a.pixscale⌉₊ * a.nSubpixels
    · obtain ⟨c', hc', -, hy', -⟩ := h1 hd
      rw [hc] at hc'
      cases hc'
      omega
    · rw [h2 hd] at hc
      cases hc
  · intro hp
    rw [hp, Nat.mul_zero, Nat.add_zero] at h1
    exact h1 (Dvd.intro _ rfl)

end Misfit
