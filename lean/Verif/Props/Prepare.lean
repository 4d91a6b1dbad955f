import Verif.Lemmas.PrepRun

/-!
# Preparing a 2D spectrum for fitting: C126–C129
-/

namespace Misfit

/-! ## C126: a prepared spectrum is a cut-out of the original -/

/-- Specification: `t` is what a preparation of `s` should leave.

* rows and columns of `t` are rows and columns of `s`, with their wavelengths and weights;
* the columns are exactly those inside the two wavelength ranges, given by the user or read from the tables for the first line;
* the pixels used in the fit are the good pixels of the rows kept;
* where the mask is not zero it is the square of the mask of the user (1 if there is none);
* a row with a used pixel reaches the S/N cut;
* the flux is the flux before continuum subtraction minus the continuum, and everything is finite; at a used pixel these are the
  original flux and error; elsewhere a flux or error that is not finite is -99;
* the columns for the amplitudes are the columns not recorded as sky;
* there is one fitting weight per row; for the weighting 'none' all are the inverse of their number;
* the position of the object is moved with the rows. -/
structure PreparedFrom (s t : PrepAll) (first : Nat) (row : Fin t.spec.r → Fin s.spec.r) (col : Fin t.spec.c → Fin s.spec.c) : Prop
    extends CutOut s.spec t.spec first row col where
  columns : ∃ full line z obs, t.spec.fullRange = some full ∧ t.spec.lineRange = some line ∧ s.gal.z = some z ∧
    s.spec.obswave = some obs ∧ NamesFor s.spec.group s.spec.lines.names t.spec.lines.names ∧
    RangeFor t.spec.lines.names s.spec.fullRange fullRange2D full ∧ RangeFor t.spec.lines.names s.spec.lineRange lineRange2D line ∧
    ∀ j, (∃ k, col k = j) ↔ InRanges s full line z obs j
  used : ∃ (m : Img t.spec.r t.spec.c ℝ) (keep : Fin t.spec.r → Prop), t.spec.mask = some m ∧
    ∀ i j, m i j ≠ 0 ↔ keep i ∧ GoodPixel s (row i) (col j) ∧ GoodColumn s (col j)
  maskValue : ∃ (m : Img t.spec.r t.spec.c ℝ), t.spec.mask = some m ∧ ∀ i j, m i j ≠ 0 →
    m i j = (s.spec.mask.getD fun _ _ => 1) (row i) (col j) * (s.spec.mask.getD fun _ _ => 1) (row i) (col j)
  rowsHigh : ∃ (m k : Img t.spec.r t.spec.c ℝ), t.spec.mask = some m ∧ t.spec.maskSky = some ⟨_, _, k⟩ ∧
    ∀ i j, m i j ≠ 0 → Fl.leB s.spec.rowCut (Fl.abs ((∑ j, t.spec.flux i j * k i j) / Fl.sqrt (∑ j, Fl.sq (t.spec.err i j * k i j)))) = true
  values : ∃ (m I C : Img t.spec.r t.spec.c ℝ), t.spec.mask = some m ∧ t.spec.inclCont = some I ∧ t.spec.contModel = some C ∧
    (∀ i j, t.spec.flux i j = I i j - C i j) ∧
    (∀ i j, (t.spec.flux i j).isFinite = true ∧ (t.spec.err i j).isFinite = true ∧ (C i j).isFinite = true ∧ (m i j).isFinite = true) ∧
    (∀ i j, m i j ≠ 0 → I i j = s.spec.flux (row i) (col j) ∧ t.spec.err i j = s.spec.err (row i) (col j)) ∧
    (s.spec.noCont = true → ∀ i j, C i j = 0) ∧
    ∀ i j, FilledPixel (s.spec.flux (row i) (col j)) (s.spec.err (row i) (col j)) (I i j) (t.spec.err i j)
  noSky : ∀ j : Fin t.spec.c, j.val ∈ t.spec.whNosky ↔ j.val ∉ t.spec.whSky
  profile : t.spec.profile.length = t.spec.r ∧ (s.spec.weighting = "none" → ∀ x ∈ t.spec.profile, x = .fin (1 / t.spec.profile.length))
  position : t.spec.r ≠ 0 → ∃ y, s.spec.ypos = some y ∧ t.spec.ypos = some (y - (first : ℝ))
  limits : t.spec.mLims = (0, t.spec.r)
  centre : t.spec.r ≠ 0 → (∃ m : ℤ, t.spec.m0 = (m : ℝ)) ∧ ∃ y, t.spec.ypos = some y ∧ |t.spec.m0 - y| ≤ 2

/-- The state after the steps, as left by a successful call -/
theorem prepare_ok {O : PrepOracle} {s t : PrepAll} (h0 : s.spec.prepared = false) (h : prepare O s = (t, none)) :
    ∃ u, runSteps (prepSteps O) s = (u, none) ∧
      t = { spec := { u.spec with prepared := true }, gal := { u.gal with linked := true } } := by
  unfold prepare at h
  rw [if_neg (by simp [h0])] at h
  split at h
  · cases h
  · rename_i u hu
    cases h
    exact ⟨u, hu, rfl⟩

theorem prepare_of_steps {O : PrepOracle} {s u : PrepAll} (h0 : s.spec.prepared = false) (h : runSteps (prepSteps O) s = (u, none)) :
    prepare O s = ({ spec := { u.spec with prepared := true }, gal := { u.gal with linked := true } }, none) := by
  unfold prepare
  rw [if_neg (by simp [h0]), h]

theorem fl_sub_finite {a b : Fl ℝ} (ha : a.isFinite = true) (hb : b.isFinite = true) : (a - b).isFinite = true := by
  obtain ⟨x, rfl⟩ := Fl.exists_of_isFinite ha
  obtain ⟨y, rfl⟩ := Fl.exists_of_isFinite hb
  rfl

theorem pySliceBound_first {n : Nat} {lo hi : Int} (h0 : 0 ≤ lo) (hr : pySliceBound n hi - pySliceBound n lo ≠ 0) :
    (pySliceBound n lo : Int) = lo := by
  have hle := pySliceBound_le n hi
  have hlt : pySliceBound n lo < n := by omega
  unfold pySliceBound at hlt ⊢
  rw [if_neg (by omega)] at hlt ⊢
  omega

open Classical in
/-- Specification: the noise of a column of the input, from its good pixels -/
noncomputable def columnNoise (s : PrepAll) (j : Fin s.spec.c) : Fl ℝ :=
  Fl.sqrt (∑ i, if GoodPixel s i j ∧ GoodColumn s j then Fl.sq (s.spec.err i j * (s.spec.mask.getD fun _ _ => 1) i j) else 0)

theorem colQuad_noise {s : PrepAll} {M E : Img s.spec.r s.spec.c ℝ} (hM : ∀ i j, M i j ≠ 0 ↔ GoodPixel s i j ∧ GoodColumn s j)
    (hv : ∀ i j, M i j ≠ 0 → M i j = (s.spec.mask.getD fun _ _ => 1) i j ∧ E i j = s.spec.err i j)
    (hE : ∀ i j, (E i j).isFinite = true) (j : Fin s.spec.c) : colQuad E M j = columnNoise s j := by
  unfold colQuad columnNoise
  congr 1
  refine Finset.sum_congr rfl fun i _ => ?_
  by_cases h0 : M i j = 0
  · rw [if_neg (fun h => (hM i j).2 h h0), h0, fl_mul_zero_right (hE i j)]
    simp [Fl.sq]
  · rw [if_pos ((hM i j).1 h0), (hv i j h0).1, (hv i j h0).2]

open Classical in
/-- Specification: the S/N of a row of the input in the columns `col`, from the good pixels outside the columns `sky` -/
noncomputable def rowSignal (s : PrepAll) {c : Nat} (col : Fin c → Fin s.spec.c) (sky : List Nat) (i : Fin s.spec.r) : Fl ℝ :=
  Fl.abs ((∑ j, if (GoodPixel s i (col j) ∧ GoodColumn s (col j)) ∧ j.val ∉ sky then
      s.spec.flux i (col j) * (s.spec.mask.getD fun _ _ => 1) i (col j) else 0) /
    Fl.sqrt (∑ j, if (GoodPixel s i (col j) ∧ GoodColumn s (col j)) ∧ j.val ∉ sky then
      Fl.sq (s.spec.err i (col j) * (s.spec.mask.getD fun _ _ => 1) i (col j)) else 0))

theorem whContinuousLoop_range' (a n : Nat) (arr : List Nat) :
    whContinuousLoop (List.range' a (n + 1)) arr = [arr ++ List.range' a (n + 1)] := by
  induction n generalizing a arr with
  | zero => rfl
  | succ n ih =>
    show whContinuousLoop (a :: (a + 1) :: List.range' (a + 2) n) arr = _
    rw [whContinuousLoop, if_pos (by omega)]
    have := ih (a + 1) (arr ++ [a])
    rw [List.range'_succ] at this
    rw [this]
    simp [List.range'_succ]

/-- If all rows reach the cut, none is dropped. -/
theorem maskLowSnrRows_none {r c : Nat} (snr : Fin r → Fl ℝ) (cut : Fl ℝ) (mask : Img r c ℝ) (h : ∀ i, Fl.leB cut (snr i) = true) :
    (maskLowSnrRows snr cut mask).2 = [] := by
  have hall : ((List.finRange r).filter fun i => Fl.leB cut (snr i)).map Fin.val = List.range r := by
    rw [List.filter_eq_self.2 (fun i _ => h i)]
    exact List.map_coe_finRange_eq_range
  show lowRows r (keepRuns _) = []
  rw [hall]
  have hk : keepRuns (List.range r) = List.range r := by
    unfold keepRuns
    cases r with
    | zero => rfl
    | succ n =>
      simp only
      rw [List.range_eq_range', whContinuous, whContinuousLoop_range', if_neg (by simp)]
  rw [hk]
  unfold lowRows
  have : ((List.range r).filter fun i => decide (i ∉ List.range r)) = [] := by
    rw [List.filter_eq_nil_iff]
    intro i hi
    simp [hi]
  simp only [this]
  simp

/-- All that is proved below about a prepared spectrum, for one choice of rows and columns -/
theorem prepared_facts (O : PrepOracle) (s t : PrepAll) (h0 : s.spec.prepared = false) (hq : s.spec.maskQual = none)
    (hfin : ∀ m, s.spec.mask = some m → ∀ i j, (m i j).isFinite = true) (h : prepare O s = (t, none)) :
    ∃ first row col, PreparedFrom s t first row col ∧
      (∀ x, s.spec.cutoff = some x → ∀ j : Fin t.spec.c, j.val ∈ t.spec.whSky ↔
        Fl.leB (x * O.median (List.ofFn fun j => columnNoise s j)) (columnNoise s (col j)) = true) ∧
      (∃ k : Img t.spec.r t.spec.c ℝ, t.spec.maskSky = some ⟨_, _, k⟩ ∧
        (∀ i j, j.val ∈ t.spec.whSky → k i j = 0) ∧
        (∀ i j, j.val ∉ t.spec.whSky → (k i j ≠ 0 ↔ GoodPixel s (row i) (col j) ∧ GoodColumn s (col j)))) ∧
      (s.spec.noCont = true → (∀ i, Fl.leB s.spec.rowCut (rowSignal s col t.spec.whSky i) = true) →
        ∃ m, t.spec.mask = some m ∧ ∀ i j, m i j ≠ 0 ↔ GoodPixel s (row i) (col j) ∧ GoodColumn s (col j)) := by
  obtain ⟨u, hu, rfl⟩ := prepare_ok h0 h
  obtain ⟨b, g, c, col, M, F, E, C, full, line, z, obs, S, sky, low, lo, hi, rfl, hmono, hf, hl, hz, hobs, hnm, hrf, hrl, hcols, hM, hval, hfil, hfin', hno,
    hlow, hsky, hS, hwh, hnw, hpl, hp1, v, y, hlohi, hy, hby, hm0, hml, pix, snr, m1, d1, d2, d3, -, hvp⟩ := prepSteps_ok hq hfin hu
  clear h hu
  have hmem : ∀ j : Fin c, j.val ∈ b.whSky ↔ j ∈ sky := by
    intro j
    rw [hwh, List.mem_map]
    constructor
    · rintro ⟨k, hk, e⟩
      rw [← Fin.ext e]; exact hk
    · exact fun hj => ⟨j, hj, rfl⟩
  have hMval : ∀ i j, M i j ≠ 0 → M i j = (s.spec.mask.getD fun _ _ => 1) i j ∧ E i j = s.spec.err i j :=
    fun i j hne => ⟨(hval i j hne).1, (hval i j hne).2.2⟩
  have hnoise := colQuad_noise hM hMval fun i j => (hfin' i j).2.2.2
  refine ⟨pySliceBound s.spec.r lo, sliceRow s.spec.r lo hi, col,
    { rows := fun i => rfl, cols := hmono, wave := fun j => rfl, weight := ⟨_, rfl, fun i j => rfl⟩
      columns := ⟨full, line, z, obs, hf, hl, hz, hobs, hnm, hrf, hrl, hcols⟩
      used := ⟨_, fun i => (sliceRow s.spec.r lo hi i).val ∉ low, rfl, ?_⟩
      maskValue := ⟨_, rfl, ?_⟩
      rowsHigh := ⟨_, _, rfl, rfl, ?_⟩
      values := ⟨_, _, _, rfl, rfl, rfl, fun i j => rfl, fun i j => ⟨?_, (hfin' _ _).2.2.2, (hfin' _ _).2.2.1, ?_⟩, ?_,
        fun hn i j => hno hn _ _, fun i j => hfil _ _⟩
      noSky := ?_, profile := ⟨hpl, hp1⟩
      position := ?_, limits := hml, centre := fun _ => ⟨⟨v.m0 - lo, ?_⟩, _, hby, ?_⟩ }, ?_, ⟨_, rfl, ?_, ?_⟩, ?_⟩
  · intro i j
    show M _ _ * (if _ then _ else _) ≠ 0 ↔ _
    rw [← hM]
    split
    · rename_i hmem
      rw [fl_mul_zero_right (hfin' _ _).1]
      simp [hmem]
    · rename_i hmem
      rw [fl_mul_self_ne (hfin' _ _).1]
      simp [hmem]
  · intro i j hne
    have hne : M (sliceRow s.spec.r lo hi i) (col j) *
        (if (sliceRow s.spec.r lo hi i).val ∈ low then 0 else M (sliceRow s.spec.r lo hi i) (col j)) ≠ 0 := hne
    show M (sliceRow s.spec.r lo hi i) (col j) *
        (if (sliceRow s.spec.r lo hi i).val ∈ low then 0 else M (sliceRow s.spec.r lo hi i) (col j)) = _
    split at hne
    · exact absurd (fl_mul_zero_right (hfin' _ _).1) hne
    · rename_i hmem
      rw [if_neg hmem, ← (hval _ _ ((fl_mul_self_ne (hfin' _ _).1).1 hne)).1]
  · intro i j hne
    have hmem : (sliceRow s.spec.r lo hi i).val ∉ low := by
      intro hmem
      apply hne
      show M _ _ * (if _ then _ else _) = 0
      rw [if_pos hmem, fl_mul_zero_right (hfin' _ _).1]
    rw [hlow] at hmem
    obtain ⟨_, hh⟩ := ((C16_kept_rows _ _ _).1 _ hmem).1
    exact hh
  · exact fl_sub_finite (hfin' _ _).2.1 (hfin' _ _).2.2.1
  · refine fl_mul_finite (hfin' _ _).1 ?_
    split
    · rfl
    · exact (hfin' _ _).1
  · intro i j hne
    have hm : M (sliceRow s.spec.r lo hi i) (col j) ≠ 0 := by
      intro h0
      apply hne
      show M _ _ * (if _ then _ else _) = 0
      rw [h0]
      split
      · exact fl_mul_zero_right rfl
      · exact fl_mul_zero_right rfl
    exact (hval _ _ hm).2
  · intro j
    refine Iff.trans ?_ (not_congr (hmem j)).symm
    show j.val ∈ b.whNosky ↔ _
    rw [hnw, List.mem_map]
    constructor
    · rintro ⟨k, hk, e⟩
      have := (List.mem_filter.1 hk).2
      rw [← Fin.ext e]
      exact of_decide_eq_true this
    · exact fun hj => ⟨j, List.mem_filter.2 ⟨List.mem_finRange _, decide_eq_true hj⟩, rfl⟩
  · intro hr
    refine ⟨y, hy, hby.trans ?_⟩
    have hr : pySliceBound s.spec.r hi - pySliceBound s.spec.r lo ≠ 0 := hr
    have hlo : 0 ≤ lo ∧ hi ≤ (s.spec.r : Int) - 1 := by
      have e1 := congrArg Prod.fst hlohi
      have e2 := congrArg Prod.snd hlohi
      unfold trimRows at e1 e2
      simp only at e1 e2
      subst e1 e2
      split <;> simp
    have : (pySliceBound s.spec.r lo : Int) = lo := pySliceBound_first hlo.1 hr
    have : ((pySliceBound s.spec.r lo : Nat) : ℝ) = ((lo : Int) : ℝ) := by
      rw [← Int.cast_natCast, this]
    rw [this]
  · show b.m0 = _
    rw [hm0]
    push_cast
    rfl
  · show |b.m0 - _| ≤ 2
    rw [hm0]
    have := (C95_position _ _ _ _ _ _ _ _ _ _ hvp).2 rfl
    rwa [sub_sub_sub_cancel_right]
  · intro x hx j
    refine (hmem j).trans ?_
    rw [hsky x hx, List.mem_filter]
    have e1 : colQuad (fun i j => E i (col j)) (fun i j => M i (col j)) j = columnNoise s (col j) := hnoise (col j)
    have e2 : (fun j => colQuad E M j) = fun j => columnNoise s j := funext hnoise
    rw [e1, e2]
    simp [List.mem_finRange]
  · intro i j hj
    show S _ _ = 0
    rw [hS, if_pos ((hmem j).1 hj)]
  · intro i j hj
    show S _ _ ≠ 0 ↔ _
    rw [hS, if_neg (fun h => hj ((hmem j).2 h))]
    exact hM _ _
  · intro hn hall
    refine ⟨_, rfl, fun i j => ?_⟩
    show M _ _ * (if _ then _ else _) ≠ 0 ↔ _
    have hl0 : low = [] := by
      rw [hlow]
      refine maskLowSnrRows_none _ _ _ fun i => ?_
      have hall : Fl.leB s.spec.rowCut (rowSignal s col b.whSky i) = true := hall i
      have e : rowSnr (fun i j => F i (col j) - C i (col j)) (fun i j => E i (col j)) S i = rowSignal s col b.whSky i := by
        unfold rowSnr rowSignal
        congr 2
        · refine Finset.sum_congr rfl fun j _ => ?_
          show (F i (col j) - C i (col j)) * S i j = _
          rw [hS, hno hn]
          by_cases hj : j ∈ sky
          · rw [if_pos hj, if_neg (fun h => h.2 ((hmem j).2 hj)), fl_mul_zero_right (fl_sub_finite (hfin' _ _).2.1 rfl)]
          · rw [if_neg hj]
            by_cases hg : M i (col j) = 0
            · rw [if_neg (fun h => (hM _ _).2 h.1 hg), hg, fl_mul_zero_right (fl_sub_finite (hfin' _ _).2.1 rfl)]
            · rw [if_pos ⟨(hM _ _).1 hg, fun h => hj ((hmem j).1 h)⟩, (hval _ _ hg).1, (hval _ _ hg).2.1]
              congr 1
              have := ((hM _ _).1 hg).1.2.1
              obtain ⟨x, hx⟩ := Fl.exists_of_isFinite this
              rw [hx, Fl.zero_def, Fl.fin_sub, sub_zero]
        · congr 1
          refine Finset.sum_congr rfl fun j _ => ?_
          show Fl.sq (E i (col j) * S i j) = _
          rw [hS]
          by_cases hj : j ∈ sky
          · rw [if_pos hj, if_neg (fun h => h.2 ((hmem j).2 hj)), fl_mul_zero_right (hfin' _ _).2.2.2]
            simp [Fl.sq]
          · rw [if_neg hj]
            by_cases hg : M i (col j) = 0
            · rw [if_neg (fun h => (hM _ _).2 h.1 hg), hg, fl_mul_zero_right (hfin' _ _).2.2.2]
              simp [Fl.sq]
            · rw [if_pos ⟨(hM _ _).1 hg, fun h => hj ((hmem j).1 h)⟩, (hval _ _ hg).1, (hval _ _ hg).2.2]
      rw [e]
      exact hall
    rw [← hM, hl0]
    simp only [List.not_mem_nil, if_false]
    exact fl_mul_self_ne (hfin' _ _).1

/-- **C126**: a successful preparation of a spectrum that has not been prepared before leaves a cut-out of the spectrum in which the
used pixels are the good pixels of rows with enough signal, with the original values. -/
theorem C126_cutout (O : PrepOracle) (s t : PrepAll) (h0 : s.spec.prepared = false) (hq : s.spec.maskQual = none)
    (hfin : ∀ m, s.spec.mask = some m → ∀ i j, (m i j).isFinite = true) (h : prepare O s = (t, none)) :
    ∃ first row col, PreparedFrom s t first row col := by
  obtain ⟨first, row, col, hP, -⟩ := prepared_facts O s t h0 hq hfin h
  exact ⟨first, row, col, hP⟩

/-- **C47**: a successful preparation marks the spectrum as prepared and its galaxy as linked, and preparing again changes nothing,
whatever the fit routines return then; a spectrum already prepared is only linked. -/
theorem C47_prepare (O O' : PrepOracle) (s t : PrepAll) (h : prepare O s = (t, none)) :
    t.spec.prepared = true ∧ t.gal.linked = true ∧ prepare O' t = (t, none) ∧
      (s.spec.prepared = true → t.spec = s.spec ∧ t.gal = { s.gal with linked := true }) := by
  have key : ∀ v : PrepAll, v.spec.prepared = true → v.gal.linked = true → prepare O' v = (v, none) := by
    intro v h1 h2
    unfold prepare
    rw [if_pos h1]
    obtain ⟨sp, ga⟩ := v
    cases ga
    cases h2
    rfl
  by_cases hp : s.spec.prepared = true
  · unfold prepare at h
    rw [if_pos hp] at h
    obtain rfl := (Prod.mk.inj h).1
    exact ⟨hp, rfl, key _ hp rfl, fun _ => ⟨rfl, rfl⟩⟩
  · obtain ⟨v, -, rfl⟩ := prepare_ok (by simpa using hp) h
    exact ⟨rfl, rfl, key _ rfl rfl, fun h => absurd h hp⟩

/-- **C126**: if the continuum has been subtracted and all rows have enough signal, every good pixel of the cut-out is used. -/
theorem C126_all_rows (O : PrepOracle) (s t : PrepAll) (h0 : s.spec.prepared = false) (hq : s.spec.maskQual = none)
    (hfin : ∀ m, s.spec.mask = some m → ∀ i j, (m i j).isFinite = true) (hn : s.spec.noCont = true) (h : prepare O s = (t, none)) :
    ∃ first row col, PreparedFrom s t first row col ∧
      ((∀ i, Fl.leB s.spec.rowCut (rowSignal s col t.spec.whSky i) = true) →
        ∃ m, t.spec.mask = some m ∧ ∀ i j, m i j ≠ 0 ↔ GoodPixel s (row i) (col j) ∧ GoodColumn s (col j)) := by
  obtain ⟨first, row, col, hP, -, -, h4⟩ := prepared_facts O s t h0 hq hfin h
  exact ⟨first, row, col, hP, h4 hn⟩

/-! ## C127: sky lines -/

/-- **C127** (partial): with a given sky level, the columns recorded as dominated by sky are those whose noise reaches this level times
the median of the noise of all columns of the input.  They are zero in the sky mask and elsewhere the sky mask marks the good pixels.
Missing: the fit does not use the sky mask (`C127_false`). -/
theorem C127_sky_columns_partial (O : PrepOracle) (s t : PrepAll) (h0 : s.spec.prepared = false) (hq : s.spec.maskQual = none)
    (hfin : ∀ m, s.spec.mask = some m → ∀ i j, (m i j).isFinite = true) (x : Fl ℝ) (hx : s.spec.cutoff = some x)
    (h : prepare O s = (t, none)) :
    ∃ first row col, PreparedFrom s t first row col ∧
      (∀ j : Fin t.spec.c, j.val ∈ t.spec.whSky ↔
        Fl.leB (x * O.median (List.ofFn fun j => columnNoise s j)) (columnNoise s (col j)) = true) ∧
      ∃ k : Img t.spec.r t.spec.c ℝ, t.spec.maskSky = some ⟨_, _, k⟩ ∧
        (∀ i j, j.val ∈ t.spec.whSky → k i j = 0) ∧
        (∀ i j, j.val ∉ t.spec.whSky → (k i j ≠ 0 ↔ GoodPixel s (row i) (col j) ∧ GoodColumn s (col j))) := by
  obtain ⟨first, row, col, hP, h2, h3, -⟩ := prepared_facts O s t h0 hq hfin h
  exact ⟨first, row, col, hP, h2 x hx, h3⟩

/-- **C127**: the recorded sky columns play no role for the pixels used in the fit: in a row with a used pixel, each good pixel of a sky
column is used. -/
theorem C127_sky_not_excluded (O : PrepOracle) (s t : PrepAll) (h0 : s.spec.prepared = false) (hq : s.spec.maskQual = none)
    (hfin : ∀ m, s.spec.mask = some m → ∀ i j, (m i j).isFinite = true) (h : prepare O s = (t, none)) :
    ∃ first row col m, PreparedFrom s t first row col ∧ t.spec.mask = some m ∧
      ∀ i j j', m i j ≠ 0 → j'.val ∈ t.spec.whSky → GoodPixel s (row i) (col j') → GoodColumn s (col j') → m i j' ≠ 0 := by
  obtain ⟨first, row, col, hP⟩ := C126_cutout O s t h0 hq hfin h
  obtain ⟨m, keep, hm, hu⟩ := hP.used
  exact ⟨first, row, col, m, hP, hm, fun i j j' hne _ h1 h2 => (hu i j').2 ⟨((hu i j).1 hne).1, h1, h2⟩⟩

/-! ## C128: a well-formed spectrum can be prepared -/

/-- **C128**: whatever the numerical routines return, a spectrum with lines, ranges, sky level, position and weighting (and a galaxy with
a redshift and a known or computable misalignment) can be prepared if its continuum has been subtracted already, or can be subtracted
because there is a matching 1D spectrum and the straight-line fits return finite numbers. -/
theorem C128_prepares (O : PrepOracle) (s : PrepAll) (h : PreparableCore O s) (ha : AngleKnown s) :
    ∃ t, prepare O s = (t, none) ∧ t.spec.prepared = true ∧ t.gal.linked = true ∧
      (s.gal.dither = false → t.spec.r = s.spec.r - 1) := by
  obtain ⟨u, hu, hr⟩ := prepSteps_run (O := O) h ha
  exact ⟨_, prepare_of_steps h.fresh.1 hu, rfl, rfl, hr⟩

/-! ## A spectrum with a sky line -/

/-- 15 rows and 5 columns of flux 10 and error 1; the last column has error 10.  The continuum has been subtracted. -/
noncomputable def skyObs : Obs2D where
  r := 15
  c := 5
  wave := fun j => (j.val : ℝ)
  flux := fun _ _ => .fin 10
  err := fun _ j => if j.val = 4 then .fin 10 else .fin 1
  obswave := some fun j => (j.val : ℝ)
  weight := none
  mask := none
  inclCont := none
  contModel := none
  maskQual := none
  maskSky := none
  maskLow := none
  lowRows := []
  whSky := []
  whNosky := []
  median := none
  group := none
  lines := ⟨some ["HA"], some [2], some [1]⟩
  fullRange := some (0, 10)
  lineRange := some (0, 10)
  maskRange := some (0, 10)
  band := none
  cutoff := some (.fin 2)
  units := "timesMedianErr"
  rowCut := .fin 2
  weighting := "up-edges"
  profile := []
  slitPA := some 0
  ypos := some 7
  m0 := 0
  mLims := (0, 0)
  shiftFit := 0
  peakSnr := 0
  fullRows := (0, 0)
  shift := none
  lam0 := none
  specType := "wave"
  noCont := true
  prepared := false
  gone := false

/-- The galaxy of the example: at redshift 0, with a known misalignment -/
noncomputable def skyGal : PrepGal where
  z := some 0
  dither := false
  generateModel := false
  spec1D := none
  sersicPA := some 0
  imgPA := none
  deltPA := some 0
  deltPAabs := some 0
  pix := 1
  linked := false

/-- the example -/
noncomputable def skyAll : PrepAll := ⟨skyObs, skyGal⟩

theorem skyAll_inRanges (j : Fin 5) : InRanges skyAll (0, 10) (0, 10) 0 (fun j => (j.val : ℝ)) j := by
  have h1 : (0 : ℝ) ≤ (j.val : ℝ) := Nat.cast_nonneg _
  have h2 : (j.val : ℝ) ≤ 10 := by exact_mod_cast (show j.val ≤ 10 by omega)
  have key : (0 : ℝ) * (1 + 0) ≤ (j.val : ℝ) ∧ (j.val : ℝ) ≤ 10 * (1 + 0) := by
    constructor <;> linarith
  exact ⟨key, key⟩

theorem skyAll_preparable (O : PrepOracle) : PreparableCore O skyAll where
  fresh := ⟨rfl, rfl⟩
  finite := fun m hm => by cases hm
  rows := le_refl 15
  columns := ⟨"HA", [], 2, [], [1], (0, 10), (0, 10), (0, 10), 0, rfl, Or.inl rfl, Or.inl rfl, Or.inl rfl, rfl, rfl,
    ⟨(0 : Fin 5), skyAll_inRanges 0⟩, Or.inl rfl, Or.inl rfl⟩
  sky := Or.inl ⟨_, rfl, rfl⟩
  ypos := ⟨_, rfl⟩
  weighting := Or.inl rfl

/-- The hypotheses of `C126_cutout` and `C128_prepares` are met by a spectrum with a sky line. -/
example (O : PrepOracle) : ∃ t, prepare O skyAll = (t, none) ∧ t.spec.r = 14 ∧ ∃ first row col, PreparedFrom skyAll t first row col := by
  obtain ⟨t, ht, -, -, hr⟩ := C128_prepares O skyAll (skyAll_preparable O) (Or.inl ⟨_, rfl⟩)
  exact ⟨t, ht, hr rfl, C126_cutout O skyAll t rfl rfl (fun m hm => by cases hm) ht⟩

/-! ### C127 is false -/

theorem columnNoise_const {s : PrepAll} (j : Fin s.spec.c) (v : ℝ) (hg : ∀ i, GoodPixel s i j ∧ GoodColumn s j)
    (hv : ∀ i, s.spec.err i j * (s.spec.mask.getD fun _ _ => 1) i j = .fin v) :
    columnNoise s j = .fin (Real.sqrt (s.spec.r * (v * v))) := by
  unfold columnNoise
  rw [Finset.sum_congr rfl (fun i _ => if_pos (hg i))]
  simp only [hv, Fl.sq, Fl.fin_mul]
  rw [Fl.fin_sum, Finset.sum_const, Finset.card_univ, Fintype.card_fin, Fl.sqrt, if_neg]
  · rw [nsmul_eq_mul]
  · rw [nsmul_eq_mul]
    exact not_lt.2 (mul_nonneg (Nat.cast_nonneg _) (mul_self_nonneg v))

theorem rowSignal_const {s : PrepAll} {c : Nat} (col : Fin c → Fin s.spec.c) (sky : List Nat) (i : Fin s.spec.r) (f : ℝ) (hf : 0 ≤ f)
    (hg : ∀ j, GoodPixel s i j ∧ GoodColumn s j)
    (hfl : ∀ j, s.spec.flux i (col j) * (s.spec.mask.getD fun _ _ => 1) i (col j) = .fin f)
    (he : ∀ j, j.val ∉ sky → s.spec.err i (col j) * (s.spec.mask.getD fun _ _ => 1) i (col j) = .fin 1)
    (k : Fin c) (hk : k.val ∉ sky) : Fl.leB (.fin f) (rowSignal s col sky i) = true := by
  classical
  have h1 : rowSignal s col sky i = Fl.abs ((∑ j : Fin c, Fl.fin (if j.val ∉ sky then f else 0)) /
      Fl.sqrt (∑ j : Fin c, Fl.fin (if j.val ∉ sky then (1 : ℝ) else 0))) := by
    unfold rowSignal
    congr 2
    · refine Finset.sum_congr rfl fun j _ => ?_
      by_cases hj : j.val ∈ sky
      · rw [if_neg (fun h => h.2 hj), if_neg (fun h => h hj)]
        rfl
      · rw [if_pos ⟨hg _, hj⟩, if_pos hj, hfl]
    · congr 1
      refine Finset.sum_congr rfl fun j _ => ?_
      by_cases hj : j.val ∈ sky
      · rw [if_neg (fun h => h.2 hj), if_neg (fun h => h hj)]
        rfl
      · rw [if_pos ⟨hg _, hj⟩, if_pos hj, he _ hj]
        simp [Fl.sq]
  have hn : (1 : ℝ) ≤ ∑ j : Fin c, (if j.val ∉ sky then (1 : ℝ) else 0) := by
    have := Finset.single_le_sum (f := fun j : Fin c => if j.val ∉ sky then (1 : ℝ) else 0) (s := Finset.univ)
      (fun j _ => by positivity) (Finset.mem_univ k)
    simpa [hk] using this
  have hfs : ∑ j : Fin c, (if j.val ∉ sky then f else 0) = f * ∑ j : Fin c, (if j.val ∉ sky then (1 : ℝ) else 0) := by
    rw [Finset.mul_sum]
    refine Finset.sum_congr rfl fun j _ => ?_
    split <;> simp
  rw [h1, Fl.fin_sum, Fl.fin_sum, hfs]
  generalize ∑ j : Fin c, (if j.val ∉ sky then (1 : ℝ) else 0) = n at hn
  have hs : 0 < Real.sqrt n := Real.sqrt_pos.2 (by linarith)
  rw [Fl.sqrt, if_neg (by linarith), Fl.fin_div, if_neg hs.ne']
  have hval : f * n / Real.sqrt n = f * Real.sqrt n := by
    rw [mul_div_assoc, Real.div_sqrt]
  rw [hval, Fl.abs, if_neg (not_lt.2 (mul_nonneg hf hs.le)), Fl.leB_fin, decide_eq_true_iff]
  have h1 : 1 ≤ Real.sqrt n := by
    rw [← Real.sqrt_one]
    exact Real.sqrt_le_sqrt hn
  nlinarith

theorem skyAll_good (i : Fin skyAll.spec.r) (j : Fin skyAll.spec.c) : GoodPixel skyAll i j ∧ GoodColumn skyAll j := by
  refine ⟨⟨?_, rfl, ?_, ?_⟩, Or.inl rfl⟩
  · intro m hm
    cases hm
  · show (if j.val = 4 then Fl.fin (10 : ℝ) else Fl.fin 1).isFinite = true
    split <;> rfl
  · intro m hm
    cases hm

theorem skyAll_err (i : Fin skyAll.spec.r) (j : Fin skyAll.spec.c) :
    skyAll.spec.err i j * (skyAll.spec.mask.getD fun _ _ => 1) i j = .fin (if j.val = 4 then 10 else 1) := by
  show (if j.val = 4 then Fl.fin (10 : ℝ) else Fl.fin 1) * 1 = _
  split <;> simp

theorem skyAll_noise (j : Fin skyAll.spec.c) :
    columnNoise skyAll j = .fin (if j.val = 4 then 10 * Real.sqrt 15 else Real.sqrt 15) := by
  rw [columnNoise_const j (if j.val = 4 then 10 else 1) (fun i => skyAll_good i j) (fun i => skyAll_err i j)]
  have : ((skyAll.spec.r : Nat) : ℝ) = 15 := by
    show ((15 : Nat) : ℝ) = 15
    norm_num
  rw [this]
  congr 1
  split
  · rw [show (15 : ℝ) * (10 * 10) = 10 ^ 2 * 15 by norm_num, Real.sqrt_mul (by norm_num), Real.sqrt_sq (by norm_num)]
  · norm_num

/-- The sky column is recorded, and all pixels are used in the fit. -/
theorem C127_false (O : PrepOracle) (hmed : ∀ a b : Fl ℝ, O.median [a, a, a, a, b] = a) :
    ∃ t, prepare O skyAll = (t, none) ∧ t.spec.c = 5 ∧ t.spec.whSky ≠ [] ∧
      ∃ m, t.spec.mask = some m ∧ ∀ i j, m i j ≠ 0 := by
  obtain ⟨t, ht, -, -, hr⟩ := C128_prepares O skyAll (skyAll_preparable O) (Or.inl ⟨_, rfl⟩)
  obtain ⟨first, row, col, hP, hsky, -, hall⟩ := prepared_facts O skyAll t rfl rfl (fun m hm => by cases hm) ht
  obtain ⟨full, line, z, obs, -, -, hz, hobs, -, hf, hl, hcols⟩ := hP.columns
  have hz : (0 : ℝ) = z := Option.some.inj hz
  subst hz
  have hobs := Option.some.inj hobs
  subst hobs
  have hf : (0, 10) = full := by
    rcases hf with h | ⟨h, -⟩
    · exact Option.some.inj h
    · cases h
  subst hf
  have hl : (0, 10) = line := by
    rcases hl with h | ⟨h, -⟩
    · exact Option.some.inj h
    · cases h
  subst hl
  have hsurj : ∀ j, ∃ k, col k = j := fun j => (hcols j).2 (skyAll_inRanges j)
  have hc : t.spec.c = 5 := col_card col hP.cols hsurj
  have hnoise : O.median (List.ofFn fun j => columnNoise skyAll j) = .fin (Real.sqrt 15) := by
    have : (List.ofFn fun j => columnNoise skyAll j) = [Fl.fin (Real.sqrt 15), .fin (Real.sqrt 15), .fin (Real.sqrt 15),
        .fin (Real.sqrt 15), .fin (10 * Real.sqrt 15)] := by
      rw [show (fun j => columnNoise skyAll j) = fun j => Fl.fin (if j.val = 4 then 10 * Real.sqrt 15 else Real.sqrt 15) from
        funext skyAll_noise]
      show (List.ofFn fun j : Fin 5 => Fl.fin (if j.val = 4 then 10 * Real.sqrt 15 else Real.sqrt 15)) = _
      simp [List.ofFn_succ]
    rw [this, hmed]
  have h15 : 0 < Real.sqrt 15 := Real.sqrt_pos.2 (by norm_num)
  have hsk : ∀ j, j.val ∈ t.spec.whSky ↔ (col j).val = 4 := by
    intro j
    rw [hsky (.fin 2) rfl j, hnoise, skyAll_noise, Fl.fin_mul, Fl.leB_fin, decide_eq_true_iff]
    constructor
    · intro h
      by_contra hne
      rw [if_neg hne] at h
      linarith
    · intro h
      rw [if_pos h]
      linarith
  refine ⟨t, ht, hc, ?_, ?_⟩
  · obtain ⟨k, hk⟩ := hsurj (4 : Fin 5)
    exact List.ne_nil_of_mem ((hsk k).2 (congrArg Fin.val hk))
  · obtain ⟨k, hk⟩ := hsurj (0 : Fin 5)
    obtain ⟨m, hm, hused⟩ := hall rfl (by
      intro i
      have h := rowSignal_const col t.spec.whSky i 10 (by norm_num) (skyAll_good i)
        (fun j => by show (Fl.fin (10 : ℝ)) * 1 = _; simp)
        (fun j hj => by rw [skyAll_err, if_neg (fun h => hj ((hsk j).2 h))]) k
        (fun hmem => by
          have := (hsk k).1 hmem
          rw [hk] at this
          exact absurd this (by decide))
      show Fl.leB (.fin 2) _ = true
      revert h
      cases rowSignal skyAll col t.spec.whSky i with
      | fin x =>
        simp only [Fl.leB_fin, decide_eq_true_iff]
        intro h
        linarith
      | nan => exact id
      | pinf => exact id
      | ninf => exact id)
    exact ⟨m, hm, fun i j => (hused i j).2 (skyAll_good _ _)⟩

/-! ## C129: preparing again after a failure -/

theorem preparable_deltPA {O : PrepOracle} {s : PrepAll} (h : PreparableCore O s) (x : Option ℝ) :
    PreparableCore O { s with gal := { s.gal with deltPA := x } } :=
  ⟨h.fresh, h.finite, h.rows, h.columns, h.sky, h.ypos, h.weighting⟩

/-- What a failure because of a missing postage stamp leaves -/
theorem prepare_no_stamp {O : PrepOracle} {s : PrepAll} (h : PreparableCore O s) (hn : s.spec.noCont = true) (hno : s.gal.deltPA = none)
    (hg : s.gal.generateModel = false) (hi : s.gal.imgPA = none) :
    ∃ t, prepare O s = (t, some .attributeError) ∧ t.gal.dither = s.gal.dither ∧ (s.gal.dither = false → t.spec.r = s.spec.r - 1) ∧
      (15 ≤ t.spec.r → PreparableCore O t) := by
  obtain ⟨t, ht, hd, hgm, himg, -, -, hdi, -, -, -, hr, hcore⟩ := prefix_run (O := O) h
  refine ⟨t, ?_, hdi, hr, fun h15 => hcore h15 hn⟩
  have hang : angleStep t = (t, some .attributeError) := by
    unfold angleStep
    rw [hd, hno, hgm, hg, himg, hi]
    rfl
  have hrun : runSteps (prepSteps O) s = (t, some .attributeError) := by
    rw [prepSteps_prefix, runSteps_append_of_ok ht, runSteps, hang]
  unfold prepare
  rw [if_neg (by simp [h.fresh.1]), hrun]

/-- **C129** (partial): after a failure because the misalignment is unknown and there is no postage stamp, the preparation succeeds once
the misalignment has been set, if at least 15 rows are left.  Missing: the result is not that of a preparation that did not fail
(`C129_false`). -/
theorem C129_retry_partial (O : PrepOracle) (s t : PrepAll) (h : PreparableCore O s) (hn : s.spec.noCont = true)
    (hno : s.gal.deltPA = none)
    (hg : s.gal.generateModel = false) (hi : s.gal.imgPA = none) (a : ℝ) (ht : (prepare O s).1 = t) (hr : 15 ≤ t.spec.r) :
    ∃ u, prepare O { t with gal := { t.gal with deltPA := some a } } = (u, none) := by
  obtain ⟨t', ht', -, -, hcore⟩ := prepare_no_stamp (O := O) h hn hno hg hi
  rw [ht'] at ht
  subst ht
  obtain ⟨u, hu, -⟩ := C128_prepares O _ (preparable_deltPA (hcore hr) (some a)) (Or.inl ⟨a, rfl⟩)
  exact ⟨u, hu⟩

/-- C129 is false: the failed attempt has dropped a row, and the second one drops another. -/
theorem C129_false (O : PrepOracle) (s : PrepAll) (h : PreparableCore O s) (hn : s.spec.noCont = true) (hr : 16 ≤ s.spec.r) (hd : s.gal.dither = false)
    (hno : s.gal.deltPA = none) (hg : s.gal.generateModel = false) (hi : s.gal.imgPA = none) (a : ℝ) :
    ∃ t, prepare O s = (t, some .attributeError) ∧
      (∃ u, prepare O { t with gal := { t.gal with deltPA := some a } } = (u, none) ∧ u.spec.r = s.spec.r - 2) ∧
      (∃ u, prepare O { s with gal := { s.gal with deltPA := some a } } = (u, none) ∧ u.spec.r = s.spec.r - 1) := by
  obtain ⟨t, ht, hdi, hrt, hcore⟩ := prepare_no_stamp (O := O) h hn hno hg hi
  have hrt := hrt hd
  refine ⟨t, ht, ?_, ?_⟩
  · obtain ⟨u, hu, -, -, hur⟩ := C128_prepares O _ (preparable_deltPA (hcore (by omega)) (some a)) (Or.inl ⟨a, rfl⟩)
    refine ⟨u, hu, ?_⟩
    rw [hur (hdi.trans hd)]
    show t.spec.r - 1 = _
    omega
  · obtain ⟨u, hu, -, -, hur⟩ := C128_prepares O _ (preparable_deltPA h (some a)) (Or.inl ⟨a, rfl⟩)
    exact ⟨u, hu, hur hd⟩

/-- A spectrum of 16 rows -/
noncomputable def tallAll : PrepAll :=
  ⟨{ skyObs with r := 16, flux := fun _ _ => .fin 10, err := fun _ _ => .fin 1, weight := none, mask := none, inclCont := none
                 contModel := none }, { skyGal with deltPA := none }⟩

/-- The hypotheses of `C129_false` can be met. -/
example (O : PrepOracle) : PreparableCore O tallAll ∧ tallAll.spec.noCont = true ∧ 16 ≤ tallAll.spec.r ∧ tallAll.gal.dither = false ∧ tallAll.gal.deltPA = none ∧
    tallAll.gal.generateModel = false ∧ tallAll.gal.imgPA = none := by
  refine ⟨⟨⟨rfl, rfl⟩, fun m hm => (by cases hm), Nat.le_succ 15,
    ⟨"HA", [], 2, [], [1], (0, 10), (0, 10), (0, 10), 0, rfl, Or.inl rfl, Or.inl rfl, Or.inl rfl, rfl, rfl,
      ⟨(0 : Fin 5), skyAll_inRanges 0⟩, Or.inl rfl, Or.inl rfl⟩, Or.inl ⟨_, rfl, rfl⟩, ⟨_, rfl⟩, Or.inl rfl⟩, rfl, le_refl 16, rfl, rfl, rfl, rfl⟩

end Misfit
