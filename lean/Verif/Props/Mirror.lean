import Verif.Lemmas.MirrorEval
import Verif.Props.ImageForm

/-!
# C146, C147: symmetries of the model image
-/

namespace Misfit

/-! ## The specification -/

/-- Two outcomes of an evaluation are each other's reflection: both fail with the same exception, both
are NaN, or the second image is the first one with every spectrum reversed and, if `rows`, the rows
counted from the other end. -/
def Reflected (rows : Bool) : Except PyErr (Option Arr2) → Except PyErr (Option Arr2) → Prop
  | .error e, .error e' => e' = e
  | .ok none, .ok none => True
  | .ok (some a), .ok (some b) => ∃ (hn : b.n = a.n) (hm : b.m = a.m), ∀ (i : Fin b.n) (j : Fin b.m),
      b.val i j = a.val (if rows then (Fin.cast hn i).rev else Fin.cast hn i) (Fin.cast hm j).rev
  | _, _ => False

/-- One emission line in the middle of an equally spaced grid of at least two wavelengths (velocities):
in wavelength mode the redshifted wavelength of the only line, in velocity mode zero. -/
structure LineInMiddle (cfg : AperCfg) (z : ℝ) : Prop where
  line : (cfg.specType = .wave ∧ ∃ r, cfg.restwave = [r] ∧ ∃ step, 0 < step ∧ 2 ≤ cfg.wave.length ∧
      ∀ i : Fin cfg.wave.length, cfg.wave.get i =
        r * (1 + z) + ((i : ℝ) - ((cfg.wave.length : ℝ) - 1) / 2) * step) ∨
    (cfg.specType = .velocity ∧ ∃ step, 0 < step ∧ 2 ≤ cfg.wave.length ∧
      ∀ i : Fin cfg.wave.length, cfg.wave.get i = ((i : ℝ) - ((cfg.wave.length : ℝ) - 1) / 2) * step)
  factor : cfg.adaptive = true → 1 ≤ cfg.factor

/-! ## Helpers -/

theorem reflected_map (b : Bool) (r : Except PyErr (Option Arr2)) :
    Reflected b r (r.map (Option.map (Arr2.mirror b))) := by
  rcases r with e | o
  · exact rfl
  · rcases o with _ | a
    · trivial
    · refine ⟨rfl, rfl, fun i j => ?_⟩
      cases b <;> rfl

theorem LineInMiddle.centre {cfg : AperCfg} {z : ℝ} (h : LineInMiddle cfg z) :
    ∃ ctr step, 0 < step ∧ 2 ≤ cfg.wave.length ∧ LineAt cfg.specType cfg.restwave z ctr ∧
      cfg.wave = uniformGrid (ctr - ((cfg.wave.length : ℝ) - 1) / 2 * step) step cfg.wave.length := by
  have key : ∀ ctr step : ℝ, (∀ i : Fin cfg.wave.length, cfg.wave.get i =
      ctr + ((i : ℝ) - ((cfg.wave.length : ℝ) - 1) / 2) * step) →
      cfg.wave = uniformGrid (ctr - ((cfg.wave.length : ℝ) - 1) / 2 * step) step cfg.wave.length := by
    intro ctr step hw
    apply List.ext_getElem
    · simp [uniformGrid]
    · intro i h1 h2
      have := hw ⟨i, h1⟩
      simp only [List.get_eq_getElem] at this
      rw [this]
      simp only [uniformGrid, List.getElem_map, List.getElem_range]
      ring
  rcases h.line with ⟨hst, r, hr, step, h0, h2, hw⟩ | ⟨hst, step, h0, h2, hw⟩
  · exact ⟨r * (1 + z), step, h0, h2, Or.inl ⟨hst, r, hr, rfl⟩, key _ _ hw⟩
  · exact ⟨0, step, h0, h2, Or.inr ⟨hst, rfl⟩, key _ _ fun i => by rw [hw i]; ring⟩

theorem uniform_centred (ctr step : ℝ) (N : Nat) :
    CentredOn ctr (uniformGrid (ctr - ((N : ℝ) - 1) / 2 * step) step N) := by
  refine ⟨step, fun i => ?_⟩
  have hl : (uniformGrid (ctr - ((N : ℝ) - 1) / 2 * step) step N).length = N := by simp [uniformGrid]
  have hlr : ((uniformGrid (ctr - ((N : ℝ) - 1) / 2 * step) step N).length : ℝ) = N := by rw [hl]
  simp only [hlr]
  have hg : (uniformGrid (ctr - ((N : ℝ) - 1) / 2 * step) step N).get i =
      ctr - ((N : ℝ) - 1) / 2 * step + (i.val : ℝ) * step := by
    rw [List.get_eq_getElem]
    simp only [uniformGrid, List.getElem_map, List.getElem_range]
  rw [hg]
  ring

theorem linspace_centred (ctr a b : ℝ) (n : Nat) (hn : n ≠ 1) (h : a + b = 2 * ctr) :
    CentredOn ctr (linspace a b n) := by
  refine ⟨(b - a) / ((n : ℝ) - 1), fun i => ?_⟩
  have hl : (linspace a b n).length = n := linspace_length a b n
  have hi : i.val < n := by have := i.isLt; omega
  have h1 : (linspace a b n)[i.val]? = some ((linspace a b n).get i) := by
    rw [List.get_eq_getElem]; exact List.getElem?_eq_getElem _
  rw [linspace_get _ _ _ _ hi, if_neg hn] at h1
  have hlr : ((linspace a b n).length : ℝ) = n := by rw [hl]
  rw [← Option.some.inj h1]
  simp only [hlr]
  have h2 : (n : ℝ) - 1 ≠ 0 := by
    rw [sub_ne_zero]; exact_mod_cast hn
  have h3 : a = ctr - (b - a) / 2 := by linarith
  field_simp
  have h4 : ctr = (a + b) / 2 := by linarith
  rw [h4]
  ring

theorem npRound_ge_two (x : ℝ) (h : 2 ≤ x) : (npRound x).toNat ≠ 1 := by
  have := npRound_near x
  have h1 := (abs_le.1 this).1
  intro h2
  have h3 : npRound x = 1 := by omega
  rw [h3] at h1
  push_cast at h1
  linarith

/-- the wavelengths of an evaluation stay centred on the line -/
theorem sampled_centred (cfg : AperCfg) (s : AperState) (z ctr step : ℝ) (hl : LineInMiddle cfg z)
    (h0 : 0 < step) (h2 : 2 ≤ cfg.wave.length)
    (hw : cfg.wave = uniformGrid (ctr - ((cfg.wave.length : ℝ) - 1) / 2 * step) step cfg.wave.length)
    (hsw : s.wave = cfg.wave) (hdr : s.fixed.deltReal = avgDiff cfg.wave)
    (hok : (sampled cfg s).2 = .ok ()) : CentredOn ctr (sampled cfg s).1.wave := by
  have hbase : CentredOn ctr s.wave := by rw [hsw, hw]; exact uniform_centred _ _ _
  have hd : s.fixed.deltReal = step := by rw [hdr, hw]; exact avgDiff_uniform _ _ _ h2
  unfold sampled at hok ⊢
  by_cases ha : cfg.adaptive = true
  · rw [if_pos ha] at hok ⊢
    by_cases hc : ∃ dp lim sig, s.kin.disp = some dp ∧ s.fixed.upsampleValue = some lim ∧
        dp.theta[0]? = some sig ∧ |sig| < lim ∧ cfg.npFloat = true
    · obtain ⟨dp, lim, sig, h3, h4, h5, h6, h7⟩ := hc
      have hf := hl.factor ha
      rw [checkUpsample_uniform cfg s dp sig lim _ step _ h2 h0 (by linarith) h7 h3 h5 h4 h6
        (by rw [hsw]; exact hw) hd]
      simp only
      have hN : (2 : ℝ) ≤ cfg.wave.length := by exact_mod_cast h2
      apply linspace_centred
      · exact npRound_ge_two _ (by nlinarith)
      · ring
    · have : (checkUpsample cfg s).1 = s := by
        unfold checkUpsample
        cases h3 : s.kin.disp with
        | none => rfl
        | some dp =>
          simp only
          cases h4 : s.fixed.upsampleValue with
          | none => rfl
          | some lim =>
            simp only
            cases h5 : dp.theta[0]? with
            | none => rfl
            | some sig =>
              simp only
              by_cases h6 : |sig| < lim
              · rw [if_pos h6]
                by_cases h7 : cfg.npFloat = false
                · rw [if_pos h7]
                · exact absurd ⟨dp, lim, sig, h3, h4, h5, h6, by simpa using h7⟩ hc
              · rw [if_neg h6]
      rw [this]
      exact hbase
  · rw [if_neg ha]
    exact hbase

/-- the dispersion of an evaluation is not zero when its parameter is not -/
theorem applySigmaFloor_ne (cfg : AperCfg) (s : AperState) (d : Profile) (sig0 sig : ℝ)
    (hd : s.kin.disp = some d) (ht : d.theta = [sig0]) (hs : sig0 ≠ 0)
    (h : (applySigmaFloor cfg s).2 = .ok sig) : sig ≠ 0 := by
  rcases applySigmaFloor_value cfg s d sig0 sig [] hd ht h with h1 | ⟨_, _, h1⟩
  · rw [h1]
    split
    · exact abs_ne_zero.2 hs
    · exact hs
  · intro h2
    rw [h2] at h1
    exact absurd h1 (not_lt.2 (abs_nonneg _))

theorem velArctan_two (va rt r : ℝ) : (∃ v, velArctan [va, rt] r = .fin v ∧ velArctan [-va, rt] r = .fin (-v)) ∨
    (velArctan [va, rt] r = .nan ∧ velArctan [-va, rt] r = .nan) := by
  unfold velArctan
  simp only [List.getElem?_cons_zero, List.getElem?_cons_succ]
  have hcase : (∃ v, Fl.arctan (Fl.fin r / Fl.fin rt) = .fin v) ∨ Fl.arctan (Fl.fin r / Fl.fin rt) = .nan := by
    cases (Fl.fin r / Fl.fin rt : Fl ℝ) with
    | fin x => exact Or.inl ⟨_, rfl⟩
    | nan => exact Or.inr rfl
    | pinf => exact Or.inl ⟨_, rfl⟩
    | ninf => exact Or.inl ⟨_, rfl⟩
  rcases hcase with ⟨v, hv⟩ | hv
  · left
    refine ⟨2 / Real.pi * va * v, by rw [hv, Fl.fin_mul], ?_⟩
    rw [hv, Fl.fin_mul]
    congr 1
    ring
  · right
    rw [hv]
    exact ⟨rfl, rfl⟩

/-- the cosine of the azimuth used by the model is a number, and odd -/
theorem losVelocity_cases (va rt sini x y : ℝ) :
    (∃ v, losVelocity [va, rt] sini x y = .fin v ∧ losVelocity [-va, rt] sini x y = .fin (-v) ∧
      losVelocity [va, rt] sini (-x) (-y) = .fin (-v)) ∨
    ((losVelocity [va, rt] sini x y).isFinite = false ∧ (losVelocity [-va, rt] sini x y).isFinite = false ∧
      (losVelocity [va, rt] sini (-x) (-y)).isFinite = false) := by
  unfold losVelocity
  simp only [neg_sq]
  by_cases hr : Real.sqrt (x ^ 2 + y ^ 2) = 0
  · simp only [if_pos hr]
    rcases velArctan_two va rt (Real.sqrt (x ^ 2 + y ^ 2)) with ⟨v, h1, h2⟩ | ⟨h1, h2⟩
    · left
      rw [h1, h2]
      exact ⟨0, by simp, by simp, by simp⟩
    · right
      rw [h1, h2]
      exact ⟨rfl, rfl, rfl⟩
  · simp only [if_neg hr, Fl.fin_div_ne _ _ hr]
    rcases velArctan_two va rt (Real.sqrt (x ^ 2 + y ^ 2)) with ⟨v, h1, h2⟩ | ⟨h1, h2⟩
    · left
      rw [h1, h2]
      refine ⟨v * (y / Real.sqrt (x ^ 2 + y ^ 2)) * sini, by simp, ?_, ?_⟩
      · simp only [Fl.fin_mul, Fl.fin.injEq]; ring
      · simp only [Fl.fin_mul, Fl.fin.injEq]; ring
    · right
      rw [h1, h2]
      exact ⟨rfl, rfl, rfl⟩

theorem allFinite_neg {n m p : Nat} (b : Bool) (a a' : Fin n → Fin m → Fin p → Fl ℝ)
    (h : ∀ i j k, (∃ v, a (flipIf b i) (flipIf b j) (flipIf b k) = .fin v ∧ a' i j k = .fin (-v)) ∨
      ((a (flipIf b i) (flipIf b j) (flipIf b k)).isFinite = false ∧ (a' i j k).isFinite = false)) :
    allFinite a' = (allFinite a).map fun V i j k => -V (flipIf b i) (flipIf b j) (flipIf b k) := by
  unfold allFinite
  have hiff : (∀ i j k, (a' i j k).isFinite = true) ↔ ∀ i j k, (a i j k).isFinite = true := by
    constructor
    · intro hf i j k
      have h1 := h (flipIf b i) (flipIf b j) (flipIf b k)
      simp only [flipIf_flipIf] at h1
      rcases h1 with ⟨v, h2, h3⟩ | ⟨h2, h3⟩
      · rw [h2]; rfl
      · rw [hf] at h3; exact Bool.noConfusion h3
    · intro hf i j k
      rcases h i j k with ⟨v, h2, h3⟩ | ⟨h2, h3⟩
      · rw [h3]; rfl
      · rw [hf] at h2; exact Bool.noConfusion h2
  by_cases hf : ∀ i j k, (a i j k).isFinite = true
  · rw [if_pos hf, if_pos (hiff.2 hf)]
    show some _ = some _
    congr 1
    funext i j k
    rcases h i j k with ⟨v, h2, h3⟩ | ⟨h2, h3⟩
    · beta_reduce
      rw [h2, h3]
    · rw [hf] at h2; exact Bool.noConfusion h2
  · rw [if_neg hf, if_neg fun h' => hf (hiff.1 h')]
    rfl

/-! ## C146 -/

/-- **C146** Reversing the sense of rotation reverses every spectrum of the image about the line and
leaves everything else as it is: for every PSF, resolution, inclination, misalignment, object position,
sampling, with and without rebinning, adaptive sampling and dispersion floor.  An evaluation that fails
fails for both senses with the same exception. -/
theorem C146_reverse (cfg : AperCfg) (t v d : List ℝ) (va rt sig m z : ℝ) (hl : LineInMiddle cfg z)
    (hs : sig ≠ 0) :
    match buildModel cfg ⟨t, some ⟨v, 2⟩, some ⟨d, 1⟩⟩ [va, rt, sig, m, z],
      buildModel cfg ⟨t, some ⟨v, 2⟩, some ⟨d, 1⟩⟩ [-va, rt, sig, m, z] with
    | .error e, .error e' => e' = e
    | .ok r, .ok r' => Reflected false r.2 r'.2
    | _, _ => False := by
  obtain ⟨ctr, step, h0, h2, hline, hw⟩ := hl.centre
  unfold buildModel
  rw [setupCalcs_congr cfg [-va, rt, sig, m, z] [va, rt, sig, m, z] rfl]
  cases hf : setupCalcs cfg [va, rt, sig, m, z] with
  | error e => exact rfl
  | ok f =>
    simp only
    have hreal := setupCalcs_real cfg _ f hf
    obtain ⟨z', m', hz', _, hfz, _⟩ := setupCalcs_inv cfg _ f hf
    have hz'' : f.z = z := by
      have : fromEnd [va, rt, sig, m, z] 1 = .ok z := rfl
      rw [this] at hz'
      rw [hfz, Except.ok.inj hz']
    rw [doModelCalcs_eq, doModelCalcs_eq]
    simp only [fiducial_update]
    set s : AperState := ⟨f, ⟨[va, rt, sig, m, z], some ⟨[va, rt], 2⟩, some ⟨[sig], 1⟩⟩, cfg.wave,
      avgDiff cfg.wave⟩ with hsdef
    have hset : (calcsAfter cfg (⟨f, ⟨[-va, rt, sig, m, z], some ⟨[-va, rt], 2⟩, some ⟨[sig], 1⟩⟩, cfg.wave,
        avgDiff cfg.wave⟩ : AperState)).2 = (calcsAfter cfg (s.setVel (some ⟨[-va, rt], 2⟩))).2 :=
      (calcsAfter_setTheta cfg (s.setVel (some ⟨[-va, rt], 2⟩)) [-va, rt, sig, m, z])
    rw [hset, calcsAfter_flip false cfg s (some ⟨[-va, rt], 2⟩)]
    · exact reflected_map false _
    · intro hok sg hsg
      have hkin : (sampled cfg s).1.kin = s.kin := by
        unfold sampled
        split
        · exact (checkUpsample_kin cfg s).1
        · rfl
      apply evalImage_flip false cfg f s.kin _ _ sg ctr
      · exact applySigmaFloor_ne cfg _ ⟨[sig], 1⟩ sig sg (by rw [hkin]) rfl hs hsg
      · intro _ _ _; rfl
      · apply allFinite_neg
        intro c y x
        rcases losVelocity_cases va rt cfg.sini (f.xint c y x) (f.yint c y x) with ⟨u, h3, h4, _⟩ | ⟨h3, h4, _⟩
        · exact Or.inl ⟨u, h3, h4⟩
        · exact Or.inr ⟨h3, h4⟩
      · rw [hz'']; exact hline
      · exact sampled_centred cfg s z ctr step hl h0 h2 hw rfl hreal.2 hok
      · intro h; exact Bool.noConfusion h

/-- C146 for the later evaluations: after any evaluations of a model, the images for the two senses of
rotation are each other's reflection (about the line at the redshift of the construction). -/
theorem C146_updates (cfg : AperCfg) (t v d : List ℝ) (va0 rt0 sig0 m0 z0 va rt sig m z : ℝ)
    (hl : LineInMiddle cfg z0) (hs : sig ≠ 0) (hist hist' : List (List ℝ)) (s0 : AperState)
    (r0 : Except PyErr (Option Arr2))
    (hb : buildModel cfg ⟨t, some ⟨v, 2⟩, some ⟨d, 1⟩⟩ [va0, rt0, sig0, m0, z0] = .ok (s0, r0))
    (hok : cfg.adaptive = true → (∃ r, r0 = .ok r) ∧ AllReturn cfg s0 hist ∧ AllReturn cfg s0 hist') :
    Reflected false (updateModel cfg (runUpdates cfg s0 hist) [va, rt, sig, m, z]).2
      (updateModel cfg (runUpdates cfg s0 hist') [-va, rt, sig, m, z]).2 := by
  obtain ⟨s1, h1⟩ := C37_exact cfg t v d va0 rt0 sig0 m0 z0 va rt sig m z hist s0 r0 hb
    fun ha => ⟨(hok ha).1, (hok ha).2.1⟩
  obtain ⟨s2, h2⟩ := C37_exact cfg t v d va0 rt0 sig0 m0 z0 (-va) rt sig m z hist' s0 r0 hb
    fun ha => ⟨(hok ha).1, (hok ha).2.2⟩
  have h := C146_reverse cfg t v d va rt sig m0 z0 hl hs
  rw [h1, h2] at h
  exact h

/-! ## C147 -/

/-- The object sits in the middle of the image: centre of the slit and of the row numbers, the light is
the same in front of and behind the disc plane.  A Moffat PSF has a width and an exponent. -/
structure CentredDisc (cfg : AperCfg) (m : ℝ) : Prop where
  rows : 0 < cfg.nWhole
  sub : 0 < cfg.nSubpixels
  more : 1 < cfg.nWhole * cfg.nSubpixels
  pix : 0 < cfg.pixscale
  slit : 0 < cfg.slit
  pad : 0 ≤ cfg.psf.fwhm * cfg.padFactor
  row : cfg.m0 + m = ((cfg.nWhole : ℝ) - 1) / 2
  col : cfg.xc = 0
  even : ∀ r z, cfg.int r (-z) = cfg.int r z
  moffat : cfg.psf.kind = .moffat → cfg.psf.fwhm ≠ 0 ∧ cfg.psf.beta ≠ 0

theorem stampAt_neg (p : PSF) (x y : ℝ) : p.stampAt (-x) (-y) = p.stampAt x y := by
  have hg : ∀ x y, gaussStampAt p.fwhm (-x) (-y) = gaussStampAt p.fwhm x y := by
    intro x y; unfold gaussStampAt; simp only [neg_sq]
  have hm : ∀ a b x y, moffatStampAt a b (-x) (-y) = moffatStampAt a b x y := by
    intro a b x y; unfold moffatStampAt; simp only [neg_sq]
  unfold PSF.stampAt
  cases p.kind with
  | gaussian =>
    simp only
    cases p.dither with
    | none => exact hg x y
    | some d =>
      unfold withDither
      simp only
      have e1 : -y + d = -(y - d) := by ring
      have e2 : -y - d = -(y + d) := by ring
      rw [e1, e2, hg, hg, hg]
      ring
  | moffat => exact hm _ _ _ _

/-- a list that is odd under reversal and has no zero has an even number of elements -/
theorem symmetric_even (l : List ℝ) (h : l.reverse.map (fun a => -a) = l) (h0 : ∀ a ∈ l, a ≠ 0) :
    l.length % 2 = 0 := by
  by_contra hne
  have ho : l.length % 2 = 1 := by omega
  have := symmetric_get l h ((l.length - 1) / 2) ((l.length - 1) / 2) (by omega) (by omega) (by omega)
  exact h0 _ (List.getElem_mem (by omega : (l.length - 1) / 2 < l.length)) (by linarith)

/-- trimming such a list does not change the parity of its length -/
theorem trim_parity (l : List ℝ) (fwhm : ℝ) (hf : 0 ≤ fwhm) (h : l.reverse.map (fun a => -a) = l) :
    (trimToFwhm l fwhm).length % 2 = l.length % 2 := by
  have hsum : avgList l = 0 := by
    have h1 : (l.reverse.map fun a => -a).sum = l.sum := by rw [h]
    rw [List.map_reverse, List.sum_reverse] at h1
    have h2 : ∀ l : List ℝ, (l.map fun a => -a).sum = -l.sum := by
      intro l
      induction l with
      | nil => simp
      | cons a l ih => rw [List.map_cons, List.sum_cons, ih, List.sum_cons]; ring
    rw [h2] at h1
    have h3 : l.sum = 0 := by linarith
    unfold avgList
    rw [h3, zero_div]
  have hrem : (l.filter fun a => !decide (|a - avgList l| ≤ fwhm)).length % 2 = 0 := by
    apply symmetric_even
    · rw [hsum]
      have hc : ∀ l : List ℝ, (l.filter fun a => !decide (|a - 0| ≤ fwhm)).reverse.map (fun a => -a) =
          (l.reverse.map fun a => -a).filter fun a => !decide (|a - 0| ≤ fwhm) := by
        intro l
        rw [List.filter_map, ← List.filter_reverse]
        congr 1
        apply List.filter_congr
        intro a _
        simp [abs_neg]
      rw [hc, h]
    · intro a ha
      have := (List.mem_filter.1 ha).2
      rw [hsum] at this
      simp only [sub_zero, Bool.not_eq_eq_eq_not, Bool.not_true, decide_eq_false_iff_not, not_le] at this
      intro h0
      rw [h0, abs_zero] at this
      linarith
  have hadd := List.length_eq_length_filter_add (l := l) (fun a => decide (|a - avgList l| ≤ fwhm))
  unfold trimToFwhm
  omega

theorem getD_flip (l : List ℝ) (n : Nat) (hl : l.length = n) (h : l.reverse.map (fun a => -a) = l) (i : Fin n) :
    l.getD (flipIf true i).val 0 = -l.getD i.val 0 := by
  have h1 : i.val < l.length := by omega
  have h2 : (flipIf true i).val < l.length := by omega
  have h3 : (flipIf true i).val = n - (i.val + 1) := by rw [flipIf_true]; exact Fin.val_rev i
  rw [List.getD_eq_getElem?_getD, List.getD_eq_getElem?_getD, List.getElem?_eq_getElem h1,
    List.getElem?_eq_getElem h2, Option.getD_some, Option.getD_some]
  exact symmetric_get l h _ _ h2 h1 (by omega)

theorem transform_neg (x y z p i : ℝ) : transformInt3d (-x) (-y) (-z) p i =
    (-(transformInt3d x y z p i).1, -(transformInt3d x y z p i).2.1, -(transformInt3d x y z p i).2.2) := by
  unfold transformInt3d
  simp only [Prod.mk.injEq]
  exact ⟨by ring, by ring, by ring⟩

theorem setupCalcs_total (cfg : AperCfg) (va rt sig m z : ℝ) (hl : LineInMiddle cfg z) (hc : CentredDisc cfg m) :
    ∃ f, setupCalcs cfg [va, rt, sig, m, z] = .ok f := by
  have hphys : GridIn.Phys (⟨cfg.nWhole, cfg.nSubpixels, cfg.pixscale, cfg.slit, cfg.psf.fwhm,
      cfg.padFactor, cfg.xc, cfg.m0 + m⟩ : GridIn ℝ) := ⟨hc.rows, hc.sub, hc.pix, hc.slit, hc.pad⟩
  obtain ⟨G, hG, -⟩ := setupGrid_ok _ hphys
  have e1 : fromEnd [va, rt, sig, m, z] 1 = .ok z := rfl
  have e2 : fromEnd [va, rt, sig, m, z] 2 = .ok m := rfl
  rw [setupCalcs_arrays fun h => (not_or.2 (hc.moffat h.1)) h.2]
  unfold setupArrays
  rcases hl.line with ⟨hst, r, hr, -⟩ | ⟨hst, -⟩
  · simp only [e1, e2, bind, Except.bind, hG, hst, hr, List.getElem?_cons_zero]
    exact ⟨_, rfl⟩
  · simp only [e1, e2, bind, Except.bind, hG, hst]
    exact ⟨_, rfl⟩

/-- **C147** The image of a disc in the middle of the image is point-symmetric: each spectrum is the
reversed spectrum of the row as far on the other side of the middle, whatever the rotation curve,
inclination, misalignment, line spread, sampling and floor options, when there is no PSF or when the
numbers of subpixels in both directions are odd.  Missing: even numbers of subpixels, for which the
statement is false with a PSF, see `C147_false`. -/
theorem C147_point_symmetric_partial (cfg : AperCfg) (t v d : List ℝ) (va rt sig m z : ℝ)
    (hl : LineInMiddle cfg z) (hs : sig ≠ 0) (hc : CentredDisc cfg m)
    (hk : cfg.psf.fwhm ≤ 0 ∨ ((cfg.nWhole * cfg.nSubpixels) % 2 = 1 ∧ slitCells cfg % 2 = 1)) :
    ∃ s r, buildModel cfg ⟨t, some ⟨v, 2⟩, some ⟨d, 1⟩⟩ [va, rt, sig, m, z] = .ok (s, r) ∧
      Reflected true r r := by
  obtain ⟨ctr, step, h0, h2, hline, hw⟩ := hl.centre
  unfold buildModel
  obtain ⟨f, hf⟩ := setupCalcs_total cfg va rt sig m z hl hc
  rw [hf]
  simp only
  refine ⟨(doModelCalcs cfg ⟨f, ⟨t, some ⟨v, 2⟩, some ⟨d, 1⟩⟩, cfg.wave, avgDiff cfg.wave⟩ [va, rt, sig, m, z]).1,
    (doModelCalcs cfg ⟨f, ⟨t, some ⟨v, 2⟩, some ⟨d, 1⟩⟩, cfg.wave, avgDiff cfg.wave⟩ [va, rt, sig, m, z]).2, rfl, ?_⟩
  · 
    have hreal := setupCalcs_real cfg _ f hf
    obtain ⟨z', m', hz', hm', hfz, hgrid, hxi, hyi, hIi⟩ := setupCalcs_inv cfg _ f hf
    obtain ⟨m'', hm'', -, hxt, hyt⟩ := setupCalcs_trim cfg _ f hf
    have hz'' : f.z = z := by
      have : fromEnd [va, rt, sig, m, z] 1 = .ok z := rfl
      rw [this] at hz'
      rw [hfz, Except.ok.inj hz']
    have hmm : m' = m := by
      have : fromEnd [va, rt, sig, m, z] 2 = .ok m := rfl
      rw [this] at hm'
      exact (Except.ok.inj hm').symm
    subst hmm
    have hphys : GridIn.Phys (⟨cfg.nWhole, cfg.nSubpixels, cfg.pixscale, cfg.slit, cfg.psf.fwhm,
        cfg.padFactor, cfg.xc, cfg.m0 + m'⟩ : GridIn ℝ) := ⟨hc.rows, hc.sub, hc.pix, hc.slit, hc.pad⟩
    obtain ⟨G, hG, -, -, -, -, -, -, -, -, hnX, hnY, hnZ, -, -, -, hzA, -⟩ := setupGrid_ok _ hphys
    obtain ⟨G1, hG1, hxlen, -, hsx, -⟩ := C35_grid _ hphys
    obtain ⟨G2, hG2, hylen, hnY2, -, -, hsy⟩ := C36_spacing_partial _ hphys
    have hnPx := setupGrid_nPixX _ _ hc.sub hc.pix hgrid
    rw [hgrid] at hG hG1 hG2
    cases hG; cases hG1; cases hG2
    have hxs : f.grid.xArr.reverse.map (fun a => -a) = f.grid.xArr := by
      apply symmetric_of_get
      intro i j a b hij ha hb
      have := hsx i j a b hij ha hb
      simp only [hc.col] at this
      linarith
    have hys : f.grid.yArr.reverse.map (fun a => -a) = f.grid.yArr := by
      apply symmetric_of_get
      intro i j a b hij ha hb
      have := hsy i j a b (by rw [hnY2]; have := hc.more; simp only; omega) (by rw [← hylen]; exact hij) ha hb
      simp only [hc.row, sub_self, zero_mul] at this
      linarith
    have hzs : ∀ c : Fin f.grid.nZ, f.grid.zArr.getD (flipIf true c).val 0 = -f.grid.zArr.getD c.val 0 := by
      intro c
      rw [hzA, linspace_getD _ c.pos _ _ (flipIf true c).isLt, linspace_getD _ c.pos _ _ c.isLt]
      rw [flipIf_true, Fin.val_rev]
      unfold skyZ
      have : ((f.grid.nZ - (c.val + 1) : ℕ) : ℝ) = f.grid.nZ - (c.val + 1) := by
        rw [Nat.cast_sub (by omega)]; push_cast; ring
      rw [this]
      ring
    have hpt : ∀ (c : Fin f.grid.nZ) (y : Fin f.grid.nY) (x : Fin f.grid.nX),
        transformInt3d (f.grid.xArr.getD (flipIf true x).val 0) (f.grid.yArr.getD (flipIf true y).val 0)
          (f.grid.zArr.getD (flipIf true c).val 0) cfg.deltPA (Real.arcsin cfg.sini) =
        (-f.xint c y x, -f.yint c y x, -(transformInt3d (f.grid.xArr.getD x.val 0)
          (f.grid.yArr.getD y.val 0) (f.grid.zArr.getD c.val 0) cfg.deltPA (Real.arcsin cfg.sini)).2.2) := by
      intro c y x
      rw [getD_flip _ _ (by rw [hxlen, hnX]) hxs, getD_flip _ _ hylen hys, hzs, transform_neg, hxi, hyi]
    have hxf : ∀ c y x, f.xint (flipIf true c) (flipIf true y) (flipIf true x) = -f.xint c y x := by
      intro c y x; rw [hxi (flipIf true c), hpt]
    have hyf : ∀ c y x, f.yint (flipIf true c) (flipIf true y) (flipIf true x) = -f.yint c y x := by
      intro c y x; rw [hyi (flipIf true c), hpt]
    rw [doModelCalcs_eq]
    simp only [fiducial_update]
    set s : AperState := ⟨f, ⟨[va, rt, sig, m', z], some ⟨[va, rt], 2⟩, some ⟨[sig], 1⟩⟩, cfg.wave,
      avgDiff cfg.wave⟩ with hsdef
    have key : (calcsAfter cfg (s.setVel s.kin.vel)).2 =
        (calcsAfter cfg s).2.map (Option.map (Arr2.mirror true)) := by
      apply calcsAfter_flip true cfg s s.kin.vel
      intro hok sg hsg
      have hkin : (sampled cfg s).1.kin = s.kin := by
        unfold sampled
        split
        · exact (checkUpsample_kin cfg s).1
        · rfl
      apply evalImage_flip true cfg f s.kin _ _ sg ctr
      · exact applySigmaFloor_ne cfg _ ⟨[sig], 1⟩ sig sg (by rw [hkin]) rfl hs hsg
      · intro c y x
        rw [hIi, hIi c, hxf, hyf, hpt, hc.even]
        simp only [neg_sq]
      · apply allFinite_neg
        intro c y x
        simp only [hxf, hyf]
        rcases losVelocity_cases va rt cfg.sini (f.xint c y x) (f.yint c y x) with ⟨u, h3, _, h4⟩ | ⟨h3, _, h4⟩
        · refine Or.inl ⟨-u, h4, ?_⟩
          rw [neg_neg]; exact h3
        · exact Or.inr ⟨h4, h3⟩
      · rw [hz'']; exact hline
      · exact sampled_centred cfg s z ctr step hl h0 h2 hw rfl hreal.2 hok
      · intro _ hfw
        rcases hk with hk | ⟨hky, hkx⟩
        · linarith
        · have hxs' : f.xTrim.reverse.map (fun a => -a) = f.xTrim := by rw [hxt]; exact trim_symmetric _ _ hxs
          have hys' : f.yTrim.reverse.map (fun a => -a) = f.yTrim := by rw [hyt]; exact trim_symmetric _ _ hys
          refine ⟨fun j i => ?_, ?_, ?_⟩
          · show cfg.psf.stampAt f.xTrim[i.rev] f.yTrim[j.rev] = cfg.psf.stampAt f.xTrim[i] f.yTrim[j]
            have h1 : f.xTrim[i.rev] = -f.xTrim[i] :=
              symmetric_get _ hxs' i.rev.val i.val i.rev.2 i.2 (by rw [Fin.val_rev]; omega)
            have h2 : f.yTrim[j.rev] = -f.yTrim[j] :=
              symmetric_get _ hys' j.rev.val j.val j.rev.2 j.2 (by rw [Fin.val_rev]; omega)
            rw [h1, h2, stampAt_neg]
          · rw [hyt, trim_parity _ _ hfw.le hys, hylen, hnY2]
            simp only
            omega
          · rw [hxt, trim_parity _ _ hfw.le hxs, hxlen, hnPx.1]
            have : slitCells cfg = ⌈cfg.slit * cfg.nSubpixels / cfg.pixscale⌉.toNat := rfl
            simp only
            omega
    have hrefl := reflected_map true (calcsAfter cfg s).2
    rw [← key] at hrefl
    exact hrefl

/-- the single cell of `oneCell` with a second row and a PSF of one pixel -/
noncomputable def twoRows : AperCfg :=
  { oneCell [1 / 2, 3 / 2] false true 3 with
    nWhole := 2, psf := ⟨.gaussian, 1, 0, none⟩, padFactor := 0, rebinOutput := false }

theorem twoRows_line : LineInMiddle twoRows 0 := by
  refine ⟨Or.inl ⟨rfl, 1, rfl, 1, one_pos, le_refl 2, ?_⟩, fun h => by cases h⟩
  show ∀ i : Fin 2, ([1 / 2, 3 / 2] : List ℝ).get i = 1 * (1 + 0) + ((i.val : ℝ) - (((2 : ℕ) : ℝ) - 1) / 2) * 1
  intro i
  fin_cases i
  · show (1 / 2 : ℝ) = 1 * (1 + 0) + (((0 : ℕ) : ℝ) - (((2 : ℕ) : ℝ) - 1) / 2) * 1
    norm_num
  · show (3 / 2 : ℝ) = 1 * (1 + 0) + (((1 : ℕ) : ℝ) - (((2 : ℕ) : ℝ) - 1) / 2) * 1
    norm_num

theorem twoRows_centred : CentredDisc twoRows 0 where
  moffat := fun h => by cases h
  rows := by show 0 < 2; omega
  sub := by show 0 < 1; omega
  more := by show 1 < 2 * 1; omega
  pix := by show (0 : ℝ) < 1; norm_num
  slit := by show (0 : ℝ) < 1; norm_num
  pad := by show (0 : ℝ) ≤ 1 * 0; norm_num
  row := by show (1 / 2 : ℝ) + 0 = (((2 : ℕ) : ℝ) - 1) / 2; norm_num
  col := rfl
  even := fun _ _ => rfl

/-- its grid -/
noncomputable def twoGrid : Grid ℝ := ⟨2, 1, 0, 0, 1, 1, 1, 1, 2, 2, [0], [0, 0], [-1 / 2, 1 / 2]⟩

theorem twoGrid_eq : setupGrid (⟨2, 1, 1, 1, 1, 0, 0, 1 / 2 + 0⟩ : GridIn ℝ) = .ok twoGrid := by
  have h1 : nPixXOf (⟨2, 1, 1, 1, 1, 0, 0, 2⁻¹⟩ : GridIn ℝ) 1 2 2 = 1 := by
    simp [nPixXOf]
  unfold setupGrid
  simp [h1, npRound_zero, linspace, twoGrid, List.range_succ]
  norm_num

/-- the last steps without rebinning and without instrumental broadening -/
theorem evalTail_plain (N : Nat) (psf : PSF) (xs ys : List ℝ) (g : Grid ℝ) (disp : ℝ) (hd : ¬ 0 < disp)
    (wave : List ℝ) (cube conv : Fin wave.length → Fin g.nY → Fin g.nX → ℝ)
    (hp : psfConvolve cube psf.fwhm (psf.stamp xs ys) = fun w y x => .fin (conv w y x))
    (hY : g.nY = g.nPixY + 2 * g.padY) (hX : g.nX = g.nPixX + 2 * g.padX) :
    evalTail false false N psf xs ys g disp wave (.ok fun w y x => .fin (cube w y x)) =
      .ok (some ⟨wave.length, g.nPixY, trimSum conv g hY hX⟩) := by
  unfold evalTail
  simp only [Bool.false_eq_true, if_false]
  rw [allFinite_fin cube]
  simp only
  rw [hp, allFinite_fin conv]
  simp only
  rw [dif_pos ⟨hY, hX⟩, dif_pos trivial]
  simp only [instStage, if_neg hd]

theorem two_tail (C : Fin 2 → ℝ) (hC : ∀ w, 0 < C w) (xs ys : List ℝ) (hx : xs = [0]) (hy : ys = [0, 0])
    (wave : List ℝ) (hw : wave = [1 / 2, 3 / 2]) (c : Except PyErr (Fin wave.length → Fin twoGrid.nY → Fin twoGrid.nX → Fl ℝ))
    (hc : c = .ok fun w _ _ => .fin (C (Fin.cast (by rw [hw]; rfl) w))) (disp : ℝ) (hd : ¬ 0 < disp) :
    evalTail false false 2 ⟨.gaussian, 1, 0, none⟩ xs ys twoGrid disp wave c =
      .ok (some ⟨2, 2, fun w b => if b.val = 0 then 2 / 3 * C w else 4 / 3 * C w⟩) := by
  subst hx hy hw hc
  have hst : ∀ (j : Fin 2) (i : Fin 1), PSF.stamp ⟨.gaussian, 1, 0, none⟩ [0] [0, 0] j i = 1 := by
    intro j i
    have h1 : ([0, 0] : List ℝ).get j = 0 := by fin_cases j <;> rfl
    have h2 : ([0] : List ℝ).get i = 0 := by fin_cases i; rfl
    show PSF.stampAt ⟨.gaussian, 1, 0, none⟩ (([0] : List ℝ).get i) (([0, 0] : List ℝ).get j) = 1
    rw [h1, h2]
    simp [PSF.stampAt, withDither, gaussStampAt]
  have hconv : ∀ (w : Fin 2) (y : Fin 2) (x : Fin 1),
      convSame2 (fun (_ : Fin 2) (_ : Fin 1) => C w) (PSF.stamp ⟨.gaussian, 1, 0, none⟩ [0] [0, 0]) y x =
        if y.val = 0 then C w else 2 * C w := by
    intro w y x
    have e : PSF.stamp ⟨.gaussian, 1, 0, none⟩ [0] [0, 0] = fun (_ : Fin 2) (_ : Fin 1) => (1 : ℝ) := by
      funext j i; exact hst j i
    show convSame2 (fun (_ : Fin 2) (_ : Fin 1) => C w) (PSF.stamp ⟨.gaussian, 1, 0, none⟩ [0] [0, 0] : Fin 2 → Fin 1 → ℝ) y x = _
    rw [e]
    fin_cases y <;> fin_cases x <;> simp [convSame2, ext, Fin.sum_univ_two] <;> ring
  have hp : psfConvolve (fun (w : Fin 2) (_ : Fin 2) (_ : Fin 1) => C w) (1 : ℝ)
      (PSF.stamp ⟨.gaussian, 1, 0, none⟩ [0] [0, 0] : Fin 2 → Fin 1 → ℝ) =
      fun w y _ => .fin (if y.val = 0 then 2 / 3 * C w else 4 / 3 * C w) := by
    unfold psfConvolve
    rw [if_pos one_pos]
    simp only
    have h0 := hC 0
    have h1 := hC 1
    have hne : (∑ w : Fin 2, ∑ y : Fin 2, ∑ x : Fin 1, convSame2 (fun (_ : Fin 2) (_ : Fin 1) => C w)
        (PSF.stamp ⟨.gaussian, 1, 0, none⟩ [0] [0, 0] : Fin 2 → Fin 1 → ℝ) y x) = 3 * (C 0 + C 1) := by
      simp only [Fin.sum_univ_two, Finset.univ_unique, Finset.sum_singleton]
      rw [hconv, hconv, hconv, hconv]
      simp
      ring
    rw [hne, Fl.fin_div_ne _ _ (by positivity)]
    funext w y x
    rw [hconv]
    have hs : (∑ w : Fin 2, ∑ _y : Fin 2, ∑ _x : Fin 1, C w) = 2 * (C 0 + C 1) := by
      simp [Fin.sum_univ_two]
      ring
    rw [hs]
    have hq : 2 * (C 0 + C 1) / (3 * (C 0 + C 1)) = 2 / 3 := by
      have : C 0 + C 1 ≠ 0 := by positivity
      field_simp
    rw [hq]
    split
    · simp only [Fl.fin_mul, Fl.fin.injEq]; ring
    · simp only [Fl.fin_mul, Fl.fin.injEq]; ring
  have ht : trimSum (fun (w : Fin ([1 / 2, 3 / 2] : List ℝ).length) (y : Fin twoGrid.nY) (_ : Fin twoGrid.nX) =>
      if y.val = 0 then 2 / 3 * C w else 4 / 3 * C w) twoGrid rfl rfl =
      fun w b => if b.val = 0 then 2 / 3 * C w else 4 / 3 * C w := by
    have : ∀ (w : Fin 2) (b : Fin 2), (∑ _a : Fin 1, if b.val + 0 = 0 then 2 / 3 * C w else 4 / 3 * C w) * 1 =
        if b.val = 0 then 2 / 3 * C w else 4 / 3 * C w := by
      intro w b; simp
    funext w b
    exact this w b
  refine (evalTail_plain 2 ⟨.gaussian, 1, 0, none⟩ [0] [0, 0] twoGrid disp hd [1 / 2, 3 / 2]
    (fun w _ _ => C w) (fun w y _ => if y.val = 0 then 2 / 3 * C w else 4 / 3 * C w) hp rfl rfl).trans ?_
  rw [ht]
  rfl

/-- the image of the two rows: the second row has twice the light of the first -/
theorem two_build (t v d : List ℝ) : ∃ (s : AperState) (C : Fin 2 → ℝ), (∀ w, 0 < C w) ∧
    buildModel twoRows ⟨t, some ⟨v, 2⟩, some ⟨d, 1⟩⟩ [0, 1, 1, 0, 0] =
      .ok (s, .ok (some ⟨2, 2, fun b w => if b.val = 0 then 2 / 3 * C w else 4 / 3 * C w⟩)) := by
  obtain ⟨f, hf⟩ := setupCalcs_total twoRows 0 1 1 0 0 twoRows_line twoRows_centred
  obtain ⟨z', m', hz', hm', hfz, hgrid, hxi, hyi, hIi⟩ := setupCalcs_inv twoRows _ f hf
  obtain ⟨m'', hm'', -, hxt, hyt⟩ := setupCalcs_trim twoRows _ f hf
  have hz0 : f.z = 0 := by
    have : fromEnd ([0, 1, 1, 0, 0] : List ℝ) 1 = .ok 0 := rfl
    rw [this] at hz'
    rw [hfz, ← Except.ok.inj hz']
  have hm0 : m' = 0 := by
    have : fromEnd ([0, 1, 1, 0, 0] : List ℝ) 2 = .ok 0 := rfl
    rw [this] at hm'
    exact (Except.ok.inj hm').symm
  rw [hm0] at hgrid
  have hG : f.grid = twoGrid := by
    have := twoGrid_eq
    have h2 : setupGrid ⟨twoRows.nWhole, twoRows.nSubpixels, twoRows.pixscale, twoRows.slit, twoRows.psf.fwhm,
      twoRows.padFactor, twoRows.xc, twoRows.m0 + 0⟩ = .ok twoGrid := this
    rw [h2] at hgrid
    exact (Except.ok.inj hgrid).symm
  have hI1 : f.I = fun _ _ _ => 1 := by funext c y x; rw [hIi]; rfl
  have hd : ¬ 0 < instDisp twoRows f := by
    have : instDisp twoRows f = 0 / cKms * f.lam0 := rfl
    rw [this, zero_div, zero_mul]; exact lt_irrefl _
  have hvel : velCube twoRows f ⟨[0, 1, 1, 0, 0], some ⟨[0, 1], 2⟩, some ⟨[1], 1⟩⟩ = some fun _ _ _ => 0 := by
    unfold velCube
    have : ∀ x y : ℝ, losVelocity [0, 1] twoRows.sini x y = .fin 0 := by
      intro x y
      rw [losVelocity_fin _ _ _ _ _ one_ne_zero]
      simp
    simp only [this]
    exact allFinite_fin fun _ _ _ => 0
  obtain ⟨g, z, lam0, wr, dr, xi, yi, I, fv, uv, xt, yt⟩ := f
  simp only at hG hI1 hz0 hxt hyt hgrid
  subst hG hI1 hz0
  set f : AperFixed := ⟨twoGrid, 0, lam0, wr, dr, xi, yi, fun _ _ _ => 1, fv, uv, xt, yt⟩ with hfd
  have hx0 : xt = [0] := by
    rw [hxt]
    show trimToFwhm [0] 1 = [0]
    simp [trimToFwhm, avgList]
  have hy0 : yt = [0, 0] := by
    rw [hyt]
    show trimToFwhm [0, 0] 1 = [0, 0]
    simp [trimToFwhm, avgList]
  set C : Fin 2 → ℝ := fun w => lineDensity (fun _ _ _ => 1 : Cube 2 2 1 ℝ) (fun _ _ _ => 0) (fun _ _ _ => 1)
    0 1 [1] [1] 0 0 (([1 / 2, 3 / 2] : List ℝ).get w) with hCd
  have hCpos : ∀ w, 0 < C w := by
    intro w
    have hc := cKms_pos
    simp only [hCd, lineDensity, List.zip_cons_cons, List.zip_nil_right, List.map_cons, List.map_nil, List.sum_cons,
      List.sum_nil, gaussDensity, Fin.sum_univ_two]
    positivity
  have hcube : addSigmaCollapseZ (fun _ _ _ => 1 : Cube twoGrid.nZ twoGrid.nY twoGrid.nX ℝ) (fun _ _ _ => 0)
      (fun _ _ _ => 1) twoRows.wave.get 0 twoRows.restwave twoRows.ratios twoGrid.deltZ twoRows.specType =
      .ok fun w _ _ => .fin (C w) := by
    have := addSigma_broad (fun _ _ _ => 1 : Cube 2 2 1 ℝ) (fun _ _ _ => 0) (fun _ _ _ => 1)
      (([1 / 2, 3 / 2] : List ℝ).get) 0 1 [1] [1] (le_refl _) (by omega) (by omega) (by omega)
      (fun _ _ _ => one_ne_zero) (by norm_num) (by simp)
    refine Eq.trans this ?_
    congr 1
  have heval : evalImage twoRows f ⟨[0, 1, 1, 0, 0], some ⟨[0, 1], 2⟩, some ⟨[1], 1⟩⟩ twoRows.wave 1 =
      .ok (some ⟨2, 2, fun w b => if b.val = 0 then 2 / 3 * C w else 4 / 3 * C w⟩) := by
    rw [evalImage_stages (f := f) (fun h => by
      rcases h.2 with h | h
      · exact List.cons_ne_nil _ _ (hx0.symm.trans h)
      · exact List.cons_ne_nil _ _ (hy0.symm.trans h)), evalStages_eq_tail, hvel]
    simp only
    rw [hcube]
    exact two_tail C hCpos xt yt hx0 hy0 [1 / 2, 3 / 2] rfl _ rfl _ hd
  refine ⟨⟨f, ⟨[0, 1, 1, 0, 0], some ⟨[0, 1], 2⟩, some ⟨[1], 1⟩⟩, twoRows.wave, avgDiff twoRows.wave⟩, C, hCpos, ?_⟩
  unfold buildModel
  rw [hf]
  simp only
  rw [doModelCalcs_eq]
  simp only [fiducial_update]
  unfold calcsAfter
  have ha : ¬ twoRows.adaptive = true := Bool.false_ne_true
  simp only [if_neg ha]
  have hfl : ∀ s : AperState, s.kin.disp = some ⟨[1], 1⟩ → applySigmaFloor twoRows s = (s, .ok 1) := by
    rintro ⟨sf, ⟨st, sv, sd⟩, sw, sl⟩ h
    simp only at h
    subst h
    rfl
  rw [hfl _ rfl]
  simp only [heval]
  rfl

/-- C147 is false for an even number of subpixel rows: two rows, a source without rotation that looks
the same from both, a PSF of one pixel.  The second row gets twice the light of the first. -/
theorem C147_false : ∃ (cfg : AperCfg) (va rt sig m z : ℝ), LineInMiddle cfg z ∧ CentredDisc cfg m ∧
    sig ≠ 0 ∧ 0 < rt ∧ cfg.psf.fwhm = cfg.pixscale ∧ cfg.psf.dither = none ∧
    ∀ t v d : List ℝ, ∃ s r, buildModel cfg ⟨t, some ⟨v, 2⟩, some ⟨d, 1⟩⟩ [va, rt, sig, m, z] = .ok (s, r) ∧
      ¬ Reflected true r r := by
  refine ⟨twoRows, 0, 1, 1, 0, 0, twoRows_line, twoRows_centred, one_ne_zero, one_pos, rfl, rfl, fun t v d => ?_⟩
  obtain ⟨s, C, hC, hb⟩ := two_build t v d
  refine ⟨s, _, hb, ?_⟩
  rintro ⟨hn, hm, h⟩
  have h1 := h (0 : Fin 2) (0 : Fin 2)
  have h2 := h (0 : Fin 2) (1 : Fin 2)
  have e1 : (2 / 3 : ℝ) * C 0 = 4 / 3 * C 1 := h1
  have e2 : (2 / 3 : ℝ) * C 1 = 4 / 3 * C 0 := h2
  have := hC 0
  linarith

/-! ## The hypotheses are met -/

/-- three rows and a PSF: an odd number of subpixels in both directions -/
noncomputable def mirrorRows : AperCfg :=
  { oneCell [1 / 2, 3 / 2] true true 3 with
    nWhole := 3, m0 := 1, sini := 1 / 2, psf := ⟨.gaussian, 1, 0, some 2⟩, res := 50 }

example : LineInMiddle mirrorRows 0 ∧ CentredDisc mirrorRows 0 ∧
    (mirrorRows.nWhole * mirrorRows.nSubpixels) % 2 = 1 ∧ slitCells mirrorRows % 2 = 1 := by
  refine ⟨⟨?_, fun _ => by show (1 : ℝ) ≤ 3; norm_num⟩, ⟨by show 0 < 3; omega, by show 0 < 1; omega,
    by show 1 < 3 * 1; omega, by show (0 : ℝ) < 1; norm_num, by show (0 : ℝ) < 1; norm_num,
    by show (0 : ℝ) ≤ 1 * (1 / 2); norm_num, by show (1 : ℝ) + 0 = (((3 : ℕ) : ℝ) - 1) / 2; norm_num, rfl,
    fun _ _ => rfl, fun h => by cases h⟩, rfl, ?_⟩
  · exact twoRows_line.line
  · have : slitCells mirrorRows = ⌈(1 : ℝ) * ((1 : ℕ) : ℝ) / 1⌉.toNat := rfl
    rw [this]
    norm_num

end Misfit
