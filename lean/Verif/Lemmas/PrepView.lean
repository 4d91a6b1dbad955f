import Verif.Lemmas.Prepare
import Verif.Props.Masks

/-!
# Vocabulary for the preparation of a spectrum, and the prepared spectrum in full

The definitions of the first section are specifications used in `Props/Prepare`.
-/

namespace Misfit

/-! ## Specification -/

/-- An input pixel that can be used: not masked by the user, finite flux and error, non-zero weight. -/
def GoodPixel (s : PrepAll) (i : Fin s.spec.r) (j : Fin s.spec.c) : Prop :=
  (∀ m, s.spec.mask = some m → m i j ≠ 0) ∧ (s.spec.flux i j).isFinite = true ∧ (s.spec.err i j).isFinite = true ∧
  (∀ w, s.spec.weight = some w → w i j ≠ 0)

/-- A column that the 1D spectrum does not exclude: always the case without continuum subtraction; otherwise the 1D pixel of that
number, if there is one, is neither masked, nor missing, nor one of the masked pixels near the edges of the 1D spectrum. -/
def GoodColumn (s : PrepAll) (j : Fin s.spec.c) : Prop :=
  s.spec.noCont = true ∨ ∃ o m1, s.gal.spec1D = some o ∧ specMaskMissing1D o.flux o.err none o.mask false = .ok m1 ∧
    ∀ h : j.val < o.n, maskEdges1D m1 10 ⟨j.val, h⟩ ≠ 0

/-- A column inside the two wavelength ranges, both in the rest frame -/
def InRanges (s : PrepAll) (full line : ℝ × ℝ) (z : ℝ) (obs : Fin s.spec.c → ℝ) (j : Fin s.spec.c) : Prop :=
  (full.1 * (1 + z) ≤ obs j ∧ obs j ≤ full.2 * (1 + z)) ∧ (line.1 * (1 + z) ≤ s.spec.wave j ∧ s.spec.wave j ≤ line.2 * (1 + z))

/-- `t` is a cut-out of `s`: consecutive rows from `first` on, and columns in increasing order -/
structure CutOut (s t : Obs2D) (first : Nat) (row : Fin t.r → Fin s.r) (col : Fin t.c → Fin s.c) : Prop where
  rows : ∀ i, (row i).val = first + i.val
  cols : StrictMono col
  wave : ∀ j, t.wave j = s.wave (col j)
  weight : ∃ w, t.weight = some w ∧ ∀ i j, w i j = (s.weight.getD fun _ _ => 1) (row i) (col j)

/-! ## The state before and after the choice of rows -/

theorem fl_mul_zero_right {a : Fl ℝ} (h : a.isFinite = true) : a * 0 = 0 := by
  obtain ⟨x, rfl⟩ := Fl.exists_of_isFinite h
  simp

theorem fl_mul_self_ne {a : Fl ℝ} (h : a.isFinite = true) : a * a ≠ 0 ↔ a ≠ 0 := by
  obtain ⟨x, rfl⟩ := Fl.exists_of_isFinite h
  simp

/-- Columns chosen twice -/
theorem two_filters {c : Nat} (w : Fin c → ℝ) (p : Fin c → Prop) (q : ℝ → Prop) [DecidablePred p] [DecidablePred q] (j : Fin c) :
    (∃ k, ((List.finRange c).filter fun j => decide (p j)).get (((List.finRange _).filter fun j' =>
      decide (q (waveSel w ((List.finRange c).filter fun j => decide (p j)) j'))).get k) = j) ↔ p j ∧ q (w j) := by
  constructor
  · rintro ⟨k, rfl⟩
    exact ⟨of_decide_eq_true (get_filter_prop (fun j => decide (p j)) _), of_decide_eq_true (get_filter_prop
      (fun j' => decide (q (waveSel w ((List.finRange c).filter fun j => decide (p j)) j'))) k)⟩
  · rintro ⟨hj1, hj2⟩
    obtain ⟨k1, hk1⟩ := (exists_get_filter (fun j => decide (p j)) j).2 (decide_eq_true hj1)
    subst hk1
    obtain ⟨k2, hk2⟩ := (exists_get_filter (fun j' => decide (q (waveSel w ((List.finRange c).filter fun j => decide (p j)) j'))) k1).2
      (decide_eq_true hj2)
    exact ⟨k2, congrArg _ hk2⟩

/-- The columns have been chosen; nothing has been decided about the rows.  `b` and `g` are the attributes that play no role. -/
theorem columns_ok {O : PrepOracle} {s v1 : PrepAll}
    (hfin : ∀ m, s.spec.mask = some m → ∀ i j, (m i j).isFinite = true)
    (h : ∃ u2, (∃ u1, runSteps [lineNamesStep, lineWavesStep, lineRatiosStep, skyLevelsStep, derivedStep, ensureStep] s = (u1, none) ∧
      runSteps (continuumSteps O) u1 = (u2, none)) ∧ trimStep u2 = (v1, none)) (hgone : v1.spec.gone = false) :
    ∃ (b : Obs2D) (g : PrepGal) (c : Nat) (col : Fin c → Fin s.spec.c) (M F E C : Img s.spec.r s.spec.c ℝ)
      (full line : ℝ × ℝ) (z : ℝ) (obs : Fin s.spec.c → ℝ),
      v1 = ⟨{ b with r := s.spec.r, c := c, wave := fun j => s.spec.wave (col j), flux := fun i j => F i (col j) - C i (col j)
                     err := fun i j => E i (col j), obswave := some fun j => s.spec.wave (col j)
                     weight := some fun i j => (s.spec.weight.getD fun _ _ => 1) i (col j), mask := some fun i j => M i (col j)
                     inclCont := some fun i j => F i (col j), contModel := some fun i j => C i (col j) }, g⟩ ∧
      StrictMono col ∧ b.fullRange = some full ∧ b.lineRange = some line ∧ s.gal.z = some z ∧ s.spec.obswave = some obs ∧
      NamesFor s.spec.group s.spec.lines.names b.lines.names ∧
      RangeFor b.lines.names s.spec.fullRange fullRange2D full ∧ RangeFor b.lines.names s.spec.lineRange lineRange2D line ∧
      (∀ j, (∃ k, col k = j) ↔ InRanges s full line z obs j) ∧
      (∀ i j, M i j ≠ 0 ↔ GoodPixel s i j ∧ GoodColumn s j) ∧
      (∀ i j, M i j ≠ 0 → M i j = (s.spec.mask.getD fun _ _ => 1) i j ∧ F i j = s.spec.flux i j ∧ E i j = s.spec.err i j) ∧
      (∀ i j, FilledPixel (s.spec.flux i j) (s.spec.err i j) (F i j) (E i j)) ∧
      (∀ i j, (M i j).isFinite = true ∧ (F i j).isFinite = true ∧ (C i j).isFinite = true ∧ (E i j).isFinite = true) ∧
      (s.spec.noCont = true → ∀ i j, C i j = 0) ∧
      b.median = some (O.median (List.ofFn fun j => colQuad E M j)) ∧
      b.rowCut = s.spec.rowCut ∧ b.maskQual = s.spec.maskQual ∧ (∀ x, s.spec.cutoff = some x → b.cutoff = some x) ∧
      b.ypos = s.spec.ypos ∧ g.dither = s.gal.dither ∧ b.weighting = s.spec.weighting := by
  obtain ⟨u2, ⟨u1, hA, hB⟩, h1⟩ := h
  obtain ⟨hg, L, cu, un, la, hcu, hnm, rfl⟩ := headSteps_ok hA
  obtain ⟨hit, M, F, E, C, X, f, l, mr, sp1, z, obs, hhit, hz, hobs, hrf, hrl, hMg, hMb, hF, hX, hCn, rfl⟩ :=
    continuumSteps_ok rfl rfl hB
  -- the mask before the rows are judged
  have hM : ∀ i j, M i j ≠ 0 ↔ GoodPixel s i j ∧ GoodColumn s j := by
    have hcol : ∀ j, hit j = false ↔ GoodColumn s j := by
      intro j
      rcases hhit with ⟨hn, hh⟩ | ⟨hn, o, m1, ho, hm1, hh⟩
      · exact ⟨fun _ => Or.inl hn, fun _ => hh j⟩
      · constructor
        · intro hj
          refine Or.inr ⟨o, m1, ho, hm1, fun hlt h0 => ?_⟩
          have := (hh j).2 ⟨hlt, h0⟩
          rw [hj] at this
          cases this
        · rintro (hn' | ⟨o', m1', ho', hm1', hgood⟩)
          · exact Bool.noConfusion (hn'.symm.trans hn)
          · have ho'' : o = o' := Option.some.inj (ho.symm.trans ho')
            subst ho''
            have hm1'' : m1 = m1' := Except.ok.inj (hm1.symm.trans hm1')
            subst hm1''
            cases hj : hit j
            · rfl
            · obtain ⟨hlt, h0⟩ := (hh j).1 hj
              exact absurd h0 (hgood hlt)
    have hw1 : ∀ i j, (s.spec.weight.getD fun _ _ => 1) i j ≠ 0 ↔ ∀ w, s.spec.weight = some w → w i j ≠ 0 := by
      intro i j
      cases hw : s.spec.weight with
      | none => simp
      | some w => simp
    have hm1 : ∀ i j, (s.spec.mask.getD fun _ _ => 1) i j ≠ 0 ↔ ∀ m, s.spec.mask = some m → m i j ≠ 0 := by
      intro i j
      cases hw : s.spec.mask with
      | none => simp
      | some w => simp
    intro i j
    rw [← hcol j]
    unfold GoodPixel
    rw [← hw1, ← hm1]
    constructor
    · intro hne
      have hu : Usable (s.spec.flux i j) (s.spec.err i j) ((s.spec.weight.getD fun _ _ => 1) i j) ∧ hit j = false := by
        by_contra hn
        exact hne (hMb i j hn)
      refine ⟨⟨?_, hu.1.1, hu.1.2.1, hu.1.2.2⟩, hu.2⟩
      rw [← hMg i j hu]
      exact hne
    · rintro ⟨⟨h1, h2, h3, h4⟩, h5⟩
      rw [hMg i j ⟨⟨h2, h3, h4⟩, h5⟩]
      exact h1
  have hMfin : ∀ i j, (M i j).isFinite = true := by
    intro i j
    by_cases hu : Usable (s.spec.flux i j) (s.spec.err i j) ((s.spec.weight.getD fun _ _ => 1) i j) ∧ hit j = false
    · rw [hMg i j hu]
      cases hm : s.spec.mask with
      | none => rfl
      | some m => exact hfin m hm i j
    · rw [hMb i j hu]; rfl
  have hXe : X = fun i j => F i j - C i j := funext fun i => funext fun j => (hX i j).2
  subst hXe
  have hMv : ∀ i j, M i j ≠ 0 → M i j = (s.spec.mask.getD fun _ _ => 1) i j ∧ F i j = s.spec.flux i j ∧ E i j = s.spec.err i j := by
    intro i j hne
    have hu : Usable (s.spec.flux i j) (s.spec.err i j) ((s.spec.weight.getD fun _ _ => 1) i j) ∧ hit j = false := by
      by_contra hn
      exact hne (hMb i j hn)
    exact ⟨hMg i j hu, (hF i j).2.2.2.1 hne⟩
  have hcut : ∀ x, s.spec.cutoff = some x → cu = some x := by
    intro x hx
    exact hcu x hx
  obtain ⟨l', z', obs', hl', hz', hobs', hv1⟩ := trimStep_ok h1
  have hl'' : l = l' := Option.some.inj hl'
  subst hl''
  have hz'' : z = z' := Option.some.inj (hz.symm.trans hz')
  subst hz''
  have hobs'' := Option.some.inj hobs'
  subst hobs''
  clear h1 hA hB hMg hMb hhit hobs' hz' hl'
  rcases hv1 with rfl | rfl
  swap
  · cases hgone
  refine ⟨{ s.spec with
      lines := L, cutoff := cu, units := un, lam0 := la, median := some (O.median (List.ofFn fun j => colQuad E M j))
      fullRange := some f, lineRange := some l, maskRange := some mr }, { s.gal with spec1D := sp1 }, _,
    fun j => List.get _ (List.get _ j), M, F, E, C, f, l, z, obs, rfl, (get_filter_strictMono _).comp (get_filter_strictMono _),
    rfl, rfl, hz, hobs, hnm, hrf, hrl, ?_, hM, hMv, fun i j => (hF i j).2.2.2.2, fun i j => ⟨hMfin i j, (hF i j).1, (hX i j).1, (hF i j).2.1⟩, hCn, rfl, rfl, rfl, hcut, rfl, rfl, rfl⟩
  intro j
  exact two_filters s.spec.wave (fun j => f.1 * (1 + z) ≤ obs j ∧ obs j ≤ f.2 * (1 + z))
      (fun x => l.1 * (1 + z) ≤ x ∧ x ≤ l.2 * (1 + z)) j

/-- The prepared spectrum in full: columns `col` and rows `lo:hi` of images with the shape of the input. -/
theorem prepSteps_ok {O : PrepOracle} {s t : PrepAll} (hq : s.spec.maskQual = none)
    (hfin : ∀ m, s.spec.mask = some m → ∀ i j, (m i j).isFinite = true)
    (h : runSteps (prepSteps O) s = (t, none)) :
    ∃ (b : Obs2D) (g : PrepGal) (c : Nat) (col : Fin c → Fin s.spec.c) (M F E C : Img s.spec.r s.spec.c ℝ)
      (full line : ℝ × ℝ) (z : ℝ) (obs : Fin s.spec.c → ℝ) (S : Img s.spec.r c ℝ) (sky : List (Fin c)) (low : List Nat) (lo hi : Int),
      t = ⟨{ b with r := pySliceBound s.spec.r hi - pySliceBound s.spec.r lo, c := c, wave := fun j => s.spec.wave (col j)
                    flux := fun i j => F (sliceRow s.spec.r lo hi i) (col j) - C (sliceRow s.spec.r lo hi i) (col j)
                    err := fun i j => E (sliceRow s.spec.r lo hi i) (col j), obswave := some fun j => s.spec.wave (col j)
                    weight := some fun i j => (s.spec.weight.getD fun _ _ => 1) (sliceRow s.spec.r lo hi i) (col j)
                    mask := some fun i j => M (sliceRow s.spec.r lo hi i) (col j) *
                      (if (sliceRow s.spec.r lo hi i).val ∈ low then 0 else M (sliceRow s.spec.r lo hi i) (col j))
                    inclCont := some fun i j => F (sliceRow s.spec.r lo hi i) (col j)
                    contModel := some fun i j => C (sliceRow s.spec.r lo hi i) (col j)
                    maskSky := some ⟨_, c, fun i j => S (sliceRow s.spec.r lo hi i) j⟩ }, g⟩ ∧
      StrictMono col ∧ b.fullRange = some full ∧ b.lineRange = some line ∧ s.gal.z = some z ∧ s.spec.obswave = some obs ∧
      NamesFor s.spec.group s.spec.lines.names b.lines.names ∧
      RangeFor b.lines.names s.spec.fullRange fullRange2D full ∧ RangeFor b.lines.names s.spec.lineRange lineRange2D line ∧
      (∀ j, (∃ k, col k = j) ↔ InRanges s full line z obs j) ∧
      (∀ i j, M i j ≠ 0 ↔ GoodPixel s i j ∧ GoodColumn s j) ∧
      (∀ i j, M i j ≠ 0 → M i j = (s.spec.mask.getD fun _ _ => 1) i j ∧ F i j = s.spec.flux i j ∧ E i j = s.spec.err i j) ∧
      (∀ i j, FilledPixel (s.spec.flux i j) (s.spec.err i j) (F i j) (E i j)) ∧
      (∀ i j, (M i j).isFinite = true ∧ (F i j).isFinite = true ∧ (C i j).isFinite = true ∧ (E i j).isFinite = true) ∧
      (s.spec.noCont = true → ∀ i j, C i j = 0) ∧
      low = (maskLowSnrRows2D (fun i j => F i (col j) - C i (col j)) (fun i j => E i (col j)) (fun i j => M i (col j)) S
        s.spec.rowCut).2 ∧
      (∀ x, s.spec.cutoff = some x → sky = (List.finRange c).filter fun j => Fl.leB (x * O.median (List.ofFn fun j => colQuad E M j))
        (colQuad (fun i j => E i (col j)) (fun i j => M i (col j)) j)) ∧
      (∀ i j, S i j = if j ∈ sky then 0 else M i (col j)) ∧ b.whSky = sky.map Fin.val ∧
      b.whNosky = ((List.finRange c).filter fun j => decide (j ∉ sky)).map Fin.val ∧
      b.profile.length = pySliceBound s.spec.r hi - pySliceBound s.spec.r lo ∧ (s.spec.weighting = "none" → ∀ x ∈ b.profile, x = .fin (1 / b.profile.length)) ∧
      (∃ v y, (lo, hi) = trimRows s.gal.dither s.spec.r v.mMin v.mMax ∧ s.spec.ypos = some y ∧ b.ypos = some (y - (lo : ℝ)) ∧
        b.m0 = (v.m0 : ℝ) - (lo : ℝ) ∧ b.mLims = (0, pySliceBound s.spec.r hi - pySliceBound s.spec.r lo) ∧
        ∃ pix snr m1 d1 d2 d3, snr.length = s.spec.r ∧
          vertPosition s.gal.dither pix snr (some y) false m1 d1 d2 d3 = .ok v) := by
  unfold prepSteps at h
  rw [runSteps_append_ok] at h
  obtain ⟨u2, h, hC⟩ := h
  rw [runSteps_append_ok] at h
  simp only [runSteps_cons_ok, runSteps_nil_ok] at hC
  obtain ⟨v1, h1, v2, h2, v3, h3, v4, h4, v5, h5, v6, h6, v7, h7, rfl⟩ := hC
  have hgone : v1.spec.gone = false := by
    unfold skyMaskStep at h2
    split at h2
    · cases h2
    · rename_i hg; simpa using hg
  obtain ⟨b, g, c, col, M, F, E, C, full, line, z, obs, rfl, hcol, hf, hl, hz, hobs, hnm, hrf, hrl, hcols, hM, hsame, hfil, hfin', hno, hmed, hrc, hmq, hcut,
    hy, hd, hbw⟩ := columns_ok hfin ⟨u2, h, h1⟩ hgone
  clear h h1
  obtain ⟨-, S, sky, nosky, hk, rfl⟩ := skyMaskStep_ok (h := h2) (by exact hmq.trans hq) (by exact rfl)
  clear h2
  have hS : (∀ i j, S i j = if j ∈ sky then 0 else M i (col j)) ∧ (∀ x, s.spec.cutoff = some x → sky = (List.finRange c).filter fun j =>
      Fl.leB (x * O.median (List.ofFn fun j => colQuad E M j)) (colQuad (fun i j => E i (col j)) (fun i j => M i (col j)) j)) ∧
      nosky = (List.finRange c).filter fun j => decide (j ∉ sky) := by
    unfold maskSkylines2D at hk
    split at hk
    · cases hk
    · split at hk
      · cases hk
      · rename_i sky' hsky
        cases hk
        refine ⟨fun i j => rfl, fun x hx => ?_, rfl⟩
        have hsky : whSkylines1D (colQuad (fun i j => E i (col j)) (fun i j => M i (col j))) b.cutoff b.median = _ := hsky
        rw [hcut x hx, hmed] at hsky
        have := Except.ok.inj hsky
        exact (congrArg Prod.snd this).symm
  have h3' := lowSnrStep_ok (h := h3) (by exact rfl) (by exact rfl) (by exact rfl)
  subst h3'
  clear h3
  obtain ⟨sky', v, y, -, hy', hv, low, m0, sf, ps, ml, ⟨hm0, hml⟩, rfl⟩ := spatialStep_ok h4
  clear h4
  obtain ⟨p, rfl, hpl, hp1⟩ := weightsStep_ok h5
  clear h5
  obtain ⟨a, b', rfl⟩ := angleStep_ok h6
  clear h6
  obtain ⟨sh, la', rfl⟩ := centreStep_ok h7
  clear h7
  refine ⟨{ b with
      whSky := sky.map Fin.val, whNosky := nosky.map Fin.val, profile := p, shift := sh, lam0 := la', lowRows := low
      fullRows := trimRows g.dither s.spec.r v.mMin v.mMax, m0 := m0, shiftFit := sf, peakSnr := ps, mLims := ml
      r := pySliceBound s.spec.r (trimRows g.dither s.spec.r v.mMin v.mMax).2 -
        pySliceBound s.spec.r (trimRows g.dither s.spec.r v.mMin v.mMax).1
      c := c, wave := fun j => 0, flux := fun _ _ => 0, err := fun _ _ => 0, obswave := none, weight := none, mask := none
      inclCont := none, contModel := none
      maskQual := some ⟨_, _, rowSel (fun i j => M i (col j)) (trimRows g.dither s.spec.r v.mMin v.mMax).1
        (trimRows g.dither s.spec.r v.mMin v.mMax).2⟩
      maskLow := some ⟨_, _, rowSel (maskLowSnrRows2D (fun i j => F i (col j) - C i (col j)) (fun i j => E i (col j))
        (fun i j => M i (col j)) S b.rowCut).1 (trimRows g.dither s.spec.r v.mMin v.mMax).1
        (trimRows g.dither s.spec.r v.mMin v.mMax).2⟩
      ypos := some (y - (((trimRows g.dither s.spec.r v.mMin v.mMax).1 : Int) : ℝ)) }, _,
    c, col, M, F, E, C, full, line, z, obs, S, sky,
    (maskLowSnrRows2D (fun i j => F i (col j) - C i (col j)) (fun i j => E i (col j)) (fun i j => M i (col j)) S b.rowCut).2,
    (trimRows g.dither s.spec.r v.mMin v.mMax).1, (trimRows g.dither s.spec.r v.mMin v.mMax).2, rfl,
    hcol, hf, hl, hz, hobs, hnm, hrf, hrl, hcols, hM, hsame, hfil, hfin', hno, by rw [hrc], hS.2.1, hS.1, rfl, by rw [hS.2.2], hpl, fun hn => hp1 (hbw.trans hn), v, y, by rw [hd], ?_, rfl, hm0, hml, ?_⟩
  · rw [← hy]; exact hy'
  · have hyb : b.ypos = some y := hy'
    unfold prepVert at hv
    rw [← hd, ← hyb]
    exact ⟨_, _, _, _, _, _, by rw [List.length_ofFn], hv⟩

end Misfit
