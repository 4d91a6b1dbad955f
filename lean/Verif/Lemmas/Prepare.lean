import Verif.Model.Prepare
import Verif.Props.Masks
import Verif.Props.VertPos
import Verif.Props.Continuum

/-!
# Steps of the preparation, one by one
-/

namespace Misfit

theorem runSteps_cons_ok {f : PrepStep} {fs : List PrepStep} {s t : PrepAll} :
    runSteps (f :: fs) s = (t, none) ↔ ∃ u, f s = (u, none) ∧ runSteps fs u = (t, none) := by
  rw [runSteps]
  rcases hf : f s with ⟨u, _ | e⟩
  · simp only
    exact ⟨fun h => ⟨u, rfl, h⟩, fun ⟨v, h1, h2⟩ => by cases h1; exact h2⟩
  · simp

theorem runSteps_append_ok {a b : List PrepStep} {s t : PrepAll} :
    runSteps (a ++ b) s = (t, none) ↔ ∃ u, runSteps a s = (u, none) ∧ runSteps b u = (t, none) := by
  induction a generalizing s with
  | nil => simp [runSteps]
  | cons f fs ih =>
    rw [List.cons_append, runSteps_cons_ok]
    constructor
    · rintro ⟨v, h1, h2⟩
      obtain ⟨u, h3, h4⟩ := ih.1 h2
      exact ⟨u, runSteps_cons_ok.2 ⟨v, h1, h3⟩, h4⟩
    · rintro ⟨u, h1, h2⟩
      obtain ⟨v, h3, h4⟩ := runSteps_cons_ok.1 h1
      exact ⟨v, h3, ih.2 ⟨u, h4, h2⟩⟩

theorem runSteps_nil_ok {s t : PrepAll} : runSteps [] s = (t, none) ↔ s = t := by
  simp [runSteps]

/-- Steps before an exception happened without exception. -/
theorem runSteps_append_of_ok {a b : List PrepStep} {s u : PrepAll} (h : runSteps a s = (u, none)) :
    runSteps (a ++ b) s = runSteps b u := by
  induction a generalizing s with
  | nil => rw [runSteps_nil_ok] at h; subst h; rfl
  | cons f fs ih =>
    obtain ⟨v, h1, h2⟩ := runSteps_cons_ok.1 h
    rw [List.cons_append, runSteps, h1]
    exact ih h2

/-! ## Before the continuum -/

/-- Specification: the wavelength range used is the given one, or that of the table for the first line. -/
def RangeFor (names : Option (List String)) (given : Option (ℝ × ℝ)) (table : List (String × ℚ × ℚ)) (x : ℝ × ℝ) : Prop :=
  given = some x ∨ (given = none ∧ ∃ l ls q, names = some (l :: ls) ∧ readWaveRange table l = .ok q ∧ x = realRange q)

/-- Specification: the lines used are the given ones, or those of the group. -/
def NamesFor (group : Option String) (given names : Option (List String)) : Prop :=
  ∃ ns, names = some ns ∧ (given = some ns ∨ (given = none ∧ readLineNames group = .ok ns))

theorem lineNamesStep_ok {s t : PrepAll} (h : lineNamesStep s = (t, none)) :
    ∃ L, NamesFor s.spec.group s.spec.lines.names L.names ∧ t = { s with spec := { s.spec with lines := L } } := by
  unfold lineNamesStep at h
  split at h
  · rename_i ns hns
    cases h
    exact ⟨_, ⟨ns, hns, Or.inl hns⟩, rfl⟩
  · rename_i hno
    split at h
    · cases h
    · rename_i ns hns
      cases h
      exact ⟨_, ⟨ns, rfl, Or.inr ⟨hno, hns⟩⟩, rfl⟩

theorem lineWavesStep_ok {s t : PrepAll} (h : lineWavesStep s = (t, none)) :
    ∃ L, L.names = s.spec.lines.names ∧ t = { s with spec := { s.spec with lines := L } } := by
  unfold lineWavesStep at h
  split at h
  · split at h
    · cases h
    · cases h; refine ⟨_, ?_, rfl⟩; rfl
  · cases h; refine ⟨_, ?_, rfl⟩; rfl

theorem lineRatiosStep_ok {s t : PrepAll} (h : lineRatiosStep s = (t, none)) :
    ∃ L, L.names = s.spec.lines.names ∧ t = { s with spec := { s.spec with lines := L } } := by
  unfold lineRatiosStep at h
  split at h
  · split at h
    · cases h
    · cases h; refine ⟨_, ?_, rfl⟩; rfl
  · cases h; refine ⟨_, ?_, rfl⟩; rfl

theorem skyLevelsStep_ok {s t : PrepAll} (h : skyLevelsStep s = (t, none)) :
    ∃ cu un, (∀ x, s.spec.cutoff = some x → cu = some x) ∧ t = { s with spec := { s.spec with cutoff := cu, units := un } } := by
  unfold skyLevelsStep at h
  split at h
  · cases h; exact ⟨_, _, fun _ h => h, rfl⟩
  · rename_i hno
    split at h
    · cases h
    · cases h; exact ⟨_, _, fun x hx => (by rw [hno] at hx; cases hx), rfl⟩

theorem derivedStep_ok {s t : PrepAll} (h : derivedStep s = (t, none)) :
    ∃ la, t = { s with spec := { s.spec with lam0 := la } } ∧ s.spec.gone = false := by
  unfold derivedStep at h
  split at h
  · cases h
  · rename_i hg
    have hg : s.spec.gone = false := by simpa using hg
    split at h
    · split at h <;> cases h
      exact ⟨_, rfl, hg⟩
    · cases h; exact ⟨_, rfl, hg⟩

/-- The steps before the continuum subtraction -/
theorem headSteps_ok {s t : PrepAll}
    (h : runSteps [lineNamesStep, lineWavesStep, lineRatiosStep, skyLevelsStep, derivedStep, ensureStep] s = (t, none)) :
    s.spec.gone = false ∧ ∃ L cu un la, (∀ x, s.spec.cutoff = some x → cu = some x) ∧
    NamesFor s.spec.group s.spec.lines.names L.names ∧ t = { s with spec := { s.spec with
      lines := L, cutoff := cu, units := un, lam0 := la
      weight := some (s.spec.weight.getD fun _ _ => 1), mask := some (s.spec.mask.getD fun _ _ => 1) } } := by
  simp only [runSteps_cons_ok, runSteps_nil_ok] at h
  obtain ⟨u1, h1, u2, h2, u3, h3, u4, h4, u5, h5, u6, h6, rfl⟩ := h
  obtain ⟨L1, hL1, rfl⟩ := lineNamesStep_ok h1
  obtain ⟨L2, hL2, rfl⟩ := lineWavesStep_ok h2
  obtain ⟨L3, hL3, rfl⟩ := lineRatiosStep_ok h3
  obtain ⟨cu, un, hcu, rfl⟩ := skyLevelsStep_ok h4
  obtain ⟨la, rfl, hg⟩ := derivedStep_ok h5
  cases h6
  exact ⟨hg, L3, cu, un, la, hcu, by rw [hL3]; exact hL2 ▸ hL1, rfl⟩

/-! ## Continuum subtraction -/

theorem missing2DStep_ok {s t : PrepAll} {w m : Img s.spec.r s.spec.c ℝ} (hw : s.spec.weight = some w)
    (hm : s.spec.mask = some m) (h : missing2DStep s = (t, none)) :
    ∃ m2 : Img s.spec.r s.spec.c ℝ, t = { s with spec := { s.spec with mask := some m2 } } ∧
      ∀ i j, (Usable (s.spec.flux i j) (s.spec.err i j) (w i j) → m2 i j = m i j) ∧
        (¬ Usable (s.spec.flux i j) (s.spec.err i j) (w i j) → m2 i j = 0) := by
  unfold missing2DStep at h
  split at h
  · cases h
  · rename_i m2 hok
    cases h
    refine ⟨m2, rfl, fun i j => ?_⟩
    rw [hw, hm] at hok
    obtain ⟨m', h1, h2⟩ := C12_missing_exact s.spec.flux s.spec.err w m i.pos j.pos
    rw [h1] at hok
    cases hok
    exact h2 i j

theorem missing1DStep_ok {s t : PrepAll} (h : missing1DStep s = (t, none)) :
    (s.spec.noCont = true ∧ t = s) ∨ (s.spec.noCont = false ∧ ∃ o m1, s.gal.spec1D = some o ∧
      specMaskMissing1D o.flux o.err none o.mask false = .ok m1 ∧
      t = { s with gal := { s.gal with spec1D := some { o with mask := some (maskEdges1D m1 10) } } }) := by
  unfold missing1DStep at h
  split at h
  · rename_i hn
    cases h
    exact Or.inl ⟨hn, rfl⟩
  · rename_i hn
    have hn : s.spec.noCont = false := by simpa using hn
    split at h
    · cases h
    · rename_i o ho
      split at h
      · cases h
      · rename_i m hm
        cases h
        exact Or.inr ⟨hn, o, m, ho, hm, rfl⟩

theorem from1DStep_ok {s t : PrepAll} {m : Img s.spec.r s.spec.c ℝ}
    (hm : s.spec.mask = some m) (h : from1DStep s = (t, none)) :
    (s.spec.noCont = true ∧ t = s) ∨ (s.spec.noCont = false ∧
      ∃ (o : Obs1D) (m1 : Fin o.n → Fl ℝ) (hit : Fin s.spec.c → Bool), s.gal.spec1D = some o ∧ o.mask = some m1 ∧
      (∀ j, hit j = true ↔ ∃ h : j.val < o.n, m1 ⟨j.val, h⟩ = 0) ∧
      t = { s with spec := { s.spec with mask := some fun i j => if hit j then 0 else m i j } }) := by
  unfold from1DStep at h
  split at h
  · rename_i hn
    cases h
    exact Or.inl ⟨hn, rfl⟩
  · rename_i hn
    have hn : s.spec.noCont = false := by simpa using hn
    split at h
    · rename_i o m' ho hm'
      rw [hm] at hm'
      cases hm'
      split at h
      · cases h
      · rename_i m1 hm1
        simp only at h
        obtain ⟨h1, h2⟩ := Prod.mk.inj h
        refine Or.inr ⟨hn, o, m1, fun j => decide (j.val ∈ ((List.finRange o.n).filter fun k => Fl.eqB (m1 k) 0).map Fin.val),
          ho, hm1, fun j => ?_, h1.symm⟩
        rw [decide_eq_true_iff, List.mem_map]
        constructor
        · rintro ⟨k, hk, hkj⟩
          have hk := (List.mem_filter.1 hk).2
          have hlt : j.val < o.n := by rw [← hkj]; exact k.2
          refine ⟨hlt, ?_⟩
          have : (⟨j.val, hlt⟩ : Fin o.n) = k := Fin.ext hkj.symm
          rw [this]
          exact (Fl.eqB_zero_iff _).1 hk
        · rintro ⟨hlt, h0⟩
          exact ⟨⟨j.val, hlt⟩, List.mem_filter.2 ⟨List.mem_finRange _, (Fl.eqB_zero_iff _).2 h0⟩, rfl⟩
    · cases h

theorem fillStep_ok {median : List (Fl ℝ) → Fl ℝ} {s t : PrepAll} {m : Img s.spec.r s.spec.c ℝ}
    (hm : s.spec.mask = some m) (h : fillStep median s = (t, none)) :
    t = { s with spec := { s.spec with
      flux := fun i => specNanMasking (s.spec.flux i) (m i) (.fin (-99)) false false
      err := fun i => specNanMasking (s.spec.err i) (m i) (.fin (-99)) true false
      median := some (median (List.ofFn fun j =>
        colQuad (fun i => specNanMasking (s.spec.err i) (m i) (.fin (-99)) true false) m j)) } } := by
  unfold fillStep at h
  rw [hm] at h
  cases h
  rfl

theorem rangeOr_ok {names : Option (List String)} {t : List (String × ℚ × ℚ)} {cur : Option (ℝ × ℝ)} {x : ℝ × ℝ}
    (h : rangeOr names t cur = .ok x) : RangeFor names cur t x := by
  unfold rangeOr at h
  split at h
  · cases h; exact Or.inl rfl
  · cases h
  · cases h
  · rename_i l ls
    split at h
    · cases h
    · rename_i q hq
      cases h
      exact Or.inr ⟨rfl, l, ls, q, rfl, hq, rfl⟩

theorem rangesStep_ok {s t : PrepAll} (h : rangesStep s = (t, none)) :
    ∃ f l m, RangeFor s.spec.lines.names s.spec.fullRange fullRange2D f ∧ RangeFor s.spec.lines.names s.spec.lineRange lineRange2D l ∧
      t = { s with spec := { s.spec with fullRange := some f, lineRange := some l, maskRange := some m } } := by
  unfold rangesStep at h
  simp only at h
  split at h
  · cases h
  · rename_i f hf
    split at h
    · cases h
    · rename_i l hl
      split at h
      · cases h
      · cases h; exact ⟨_, _, _, rangeOr_ok hf, rangeOr_ok hl, rfl⟩

theorem contStep_ok {O : ContFit} {s t : PrepAll} {incl : Img s.spec.r s.spec.c ℝ} (hi : s.spec.inclCont = some incl)
    (h : contStep O s = (t, none)) :
    (s.spec.noCont = true ∧ t = s) ∨ (s.spec.noCont = false ∧ ∃ (C : Img s.spec.r s.spec.c ℝ) (sp1 : Option Obs1D),
      (∀ i j, (C i j).isFinite = true) ∧
      t = ⟨{ s.spec with contModel := some C, flux := fun i j => incl i j - C i j }, { s.gal with spec1D := sp1 }⟩) := by
  unfold contStep at h
  split at h
  · rename_i hn
    cases h
    exact Or.inl ⟨hn, rfl⟩
  · rename_i hn
    have hn : s.spec.noCont = false := by simpa using hn
    right
    refine ⟨hn, ?_⟩
    split at h
    · cases h
    · rename_i w o incl' cm m obs hw ho hi' hcm hm hobs
      rw [hi] at hi'
      cases hi'
      split at h
      · cases h
      · rename_i m1 hm1
        split at h
        · cases h
        · rename_i hbad
          exfalso
          unfold slope1D at hbad
          split at hbad <;> simp at hbad
        · simp only at h
          split at h
          · cases h
          · rename_i slope b0 hsl
            split at h
            · rename_i hfind
              cases h
              refine ⟨_, _, fun i j => ?_, rfl⟩
              have hfin : contFinite (prepCont O s.spec incl m obs slope b0 w.1 w.2.1 i) = true := by
                have := List.find?_eq_none.1 hfind i (List.mem_finRange i)
                simpa using this
              obtain ⟨a, b, -, -, hab⟩ := rowCont_finite _ _ _ _ _ hfin
              rw [show prepCont O s.spec incl m obs slope b0 w.1 w.2.1 i j = _ from hab j]
              rfl
            · cases h
    · cases h

theorem fullRangeStep_ok {s t : PrepAll} (h : fullRangeStep s = (t, none)) :
    ∃ f m z obs sp1, s.spec.fullRange = some f ∧ s.spec.maskRange = some m ∧ s.gal.z = some z ∧ s.spec.obswave = some obs ∧
      t = ⟨s.spec.cols ((List.finRange s.spec.c).filter fun j =>
        decide (f.1 * (1 + z) ≤ obs j ∧ obs j ≤ f.2 * (1 + z))), { s.gal with spec1D := sp1 }⟩ := by
  unfold fullRangeStep at h
  have key : ∀ w, prepWindows s = .ok w → ∃ f m z obs, s.spec.fullRange = some f ∧ s.spec.maskRange = some m ∧
      s.gal.z = some z ∧ s.spec.obswave = some obs ∧ w.2.2 = (List.finRange s.spec.c).filter fun j =>
        decide (f.1 * (1 + z) ≤ obs j ∧ obs j ≤ f.2 * (1 + z)) := by
    intro w hw
    unfold prepWindows at hw
    split at hw
    · rename_i f m z hf hm hz
      split at hw
      · cases hw
      · rename_i obs hobs
        cases hw
        exact ⟨f, m, z, obs, hf, hm, hz, hobs, rfl⟩
    · cases hw
  split at h
  · cases h
  · rename_i w hw
    obtain ⟨f, m, z, obs, hf, hm, hz, hobs, hwh⟩ := key w hw
    refine ⟨f, m, z, obs, ?_⟩
    rw [← hwh]
    simp only at h
    split at h
    · cases h
      exact ⟨_, hf, hm, hz, hobs, rfl⟩
    · split at h
      · cases h
      · split at h
        · cases h
          exact ⟨_, hf, hm, hz, hobs, rfl⟩
        · cases h

/-! ## After the continuum -/

theorem trimStep_ok {s t : PrepAll} (h : trimStep s = (t, none)) :
    ∃ l z obs, s.spec.lineRange = some l ∧ s.gal.z = some z ∧ s.spec.obswave = some obs ∧
      (t = { s with spec := s.spec.cols ((List.finRange s.spec.c).filter fun j =>
        decide (l.1 * (1 + z) ≤ obs j ∧ obs j ≤ l.2 * (1 + z))) } ∨
        t = { s with spec := { s.spec with gone := true } }) := by
  unfold trimStep at h
  split at h
  · cases h
  · rename_i a as l z ha hl hz
    split at h
    · cases h
    · rename_i obs hobs
      refine ⟨l, z, obs, hl, hz, hobs, ?_⟩
      simp only at h
      split at h
      · cases h; exact Or.inl rfl
      · cases h; exact Or.inr rfl
  · cases h

theorem Pic.shaped_self (r c : Nat) (m : Img r c ℝ) : Pic.shaped ⟨r, c, m⟩ r c = some m := by
  unfold Pic.shaped
  rw [dif_pos ⟨rfl, rfl⟩]
  rfl

theorem skyMaskStep_ok {s t : PrepAll} {m : Img s.spec.r s.spec.c ℝ} (hq : s.spec.maskQual = none)
    (hm : s.spec.mask = some m) (h : skyMaskStep s = (t, none)) :
    s.spec.gone = false ∧ ∃ k sky nosky, maskSkylines2D s.spec.err m s.spec.cutoff s.spec.units s.spec.median = .ok (k, sky, nosky) ∧
      t = { s with spec := { s.spec with maskQual := some ⟨s.spec.r, s.spec.c, m⟩, maskSky := some ⟨s.spec.r, s.spec.c, k⟩
                                         whSky := sky.map Fin.val, whNosky := nosky.map Fin.val } } := by
  unfold skyMaskStep at h
  split at h
  · cases h
  · rename_i hg
    refine ⟨by simpa using hg, ?_⟩
    rw [hq, hm] at h
    simp only at h
    rw [Pic.shaped_self] at h
    split at h
    · cases h
    · simp only at h
      split at h
      · cases h
      · rename_i k sky nosky hk
        cases h
        exact ⟨k, sky, nosky, hk, rfl⟩

theorem lowSnrStep_ok {s t : PrepAll} {q k m : Img s.spec.r s.spec.c ℝ} (hq : s.spec.maskQual = some ⟨_, _, q⟩)
    (hk : s.spec.maskSky = some ⟨_, _, k⟩) (hm : s.spec.mask = some m) (h : lowSnrStep s = (t, none)) :
    t = { s with spec := { s.spec with
      maskLow := some ⟨s.spec.r, s.spec.c, (maskLowSnrRows2D s.spec.flux s.spec.err q k s.spec.rowCut).1⟩
      lowRows := (maskLowSnrRows2D s.spec.flux s.spec.err q k s.spec.rowCut).2
      mask := some fun i j => m i j * (maskLowSnrRows2D s.spec.flux s.spec.err q k s.spec.rowCut).1 i j } } := by
  unfold lowSnrStep at h
  rw [hq, hk, hm] at h
  simp only [Pic.shaped_self] at h
  cases h
  rfl

/-- Whatever happens after the rows have been chosen, the spectrum consists of these rows. -/
theorem spatialStep_ok {V : VertIn → ℝ × ℝ × ℝ × ℝ} {median : List (Fl ℝ) → Fl ℝ} {s t : PrepAll}
    (h : spatialStep V median s = (t, none)) :
    ∃ sky v y, s.spec.maskSky.bind (fun k => k.shaped s.spec.r s.spec.c) = some sky ∧ s.spec.ypos = some y ∧
      prepVert V median s.gal.dither s.gal.pix s.spec.ypos s.spec.flux s.spec.err sky = .ok v ∧
      ∃ low m0 sf ps ml, (m0 = (v.m0 : ℝ) - (((trimRows s.gal.dither s.spec.r v.mMin v.mMax).1 : Int) : ℝ) ∧
        ml = (0, pySliceBound s.spec.r (trimRows s.gal.dither s.spec.r v.mMin v.mMax).2 -
          pySliceBound s.spec.r (trimRows s.gal.dither s.spec.r v.mMin v.mMax).1)) ∧
      t = ⟨{ s.spec.rows (trimRows s.gal.dither s.spec.r v.mMin v.mMax).1
          (trimRows s.gal.dither s.spec.r v.mMin v.mMax).2 with
        lowRows := low, fullRows := trimRows s.gal.dither s.spec.r v.mMin v.mMax, m0 := m0, shiftFit := sf, peakSnr := ps
        mLims := ml, ypos := some (y - (((trimRows s.gal.dither s.spec.r v.mMin v.mMax).1 : Int) : ℝ)) },
        trimProfile s.gal (trimRows s.gal.dither s.spec.r v.mMin v.mMax).1
          (trimRows s.gal.dither s.spec.r v.mMin v.mMax).2⟩ := by
  unfold spatialStep at h
  split at h
  · cases h
  · cases h
  · cases h
  · split at h
    · cases h
    · rename_i sky hsky
      split at h
      · cases h
      · rename_i v hv
        simp only at h
        split at h
        · split at h
          · cases h
          · rename_i y hy
            cases h
            exact ⟨sky, v, y, hsky, hy, hv, _, _, _, _, _, ⟨rfl, rfl⟩, rfl⟩
        · cases h

theorem weightsStep_ok {W : List (Fl ℝ) → List (Fl ℝ) → ℝ × ℝ × ℝ} {s t : PrepAll} (h : weightsStep W s = (t, none)) :
    ∃ p, t = { s with spec := { s.spec with profile := p } } ∧ p.length = s.spec.r ∧
      (s.spec.weighting = "none" → ∀ x ∈ p, x = .fin (1 / p.length)) := by
  unfold weightsStep at h
  split at h
  · split_ifs at h
    · cases h
    · cases h
    · simp only at h
      split at h
      · cases h
      · rename_i w _ hfw
        cases h
        refine ⟨_, rfl, by rw [List.length_ofFn], fun hn x hx => ?_⟩
        rw [hn] at hfw
        unfold fitWeights at hfw
        rw [if_neg (by decide), if_pos rfl] at hfw
        obtain ⟨i, rfl⟩ := (List.mem_ofFn' _ _).1 hx
        have hr : ((s.spec.r : Nat) : ℝ) ≠ 0 := Nat.cast_ne_zero.2 (Nat.ne_of_gt (Nat.lt_of_le_of_lt (Nat.zero_le _) i.2))
        have hw : normaliseWeights (fun _ => 1) i = w i := congrFun (congrArg Prod.fst (Except.ok.inj hfw)) i
        rw [← hw, List.length_ofFn]
        unfold normaliseWeights
        have ht : (∑ _ : Fin s.spec.r, (1 : Fl ℝ)) = .fin (s.spec.r : ℝ) := by
          rw [show (1 : Fl ℝ) = .fin 1 from rfl, Fl.fin_sum]
          simp
        simp only [ht]
        rw [if_neg (by simpa [Fl.eqB] using hr), show (1 : Fl ℝ) = .fin 1 from rfl, Fl.fin_div, if_neg hr]
  · cases h

theorem angleStep_ok {s t : PrepAll} (h : angleStep s = (t, none)) :
    ∃ a b, t = { s with gal := { s.gal with deltPA := a, deltPAabs := b } } := by
  unfold angleStep at h
  split at h
  · cases h; exact ⟨_, _, rfl⟩
  · split at h
    · cases h
    · split at h
      · cases h
      · cases h
      · split at h
        · split at h
          · cases h
          · cases h; exact ⟨_, _, rfl⟩
        · cases h

theorem centreStep_ok {C : CentreIn → Option ℝ × Option ℝ} {s t : PrepAll} (h : centreStep C s = (t, none)) :
    ∃ a b, t = { s with spec := { s.spec with shift := a, lam0 := b } } := by
  unfold centreStep at h
  split at h
  · cases h; exact ⟨_, _, rfl⟩
  · cases h

end Misfit

namespace Misfit

/-- The columns masked because of the 1D spectrum -/
def Hit1D (s : PrepAll) (hit : Fin s.spec.c → Bool) : Prop :=
  (s.spec.noCont = true ∧ ∀ j, hit j = false) ∨
  (s.spec.noCont = false ∧ ∃ o m1, s.gal.spec1D = some o ∧ specMaskMissing1D o.flux o.err none o.mask false = .ok m1 ∧
    ∀ j, hit j = true ↔ ∃ h : j.val < o.n, maskEdges1D m1 10 ⟨j.val, h⟩ = 0)

/-- Specification: how bad values are replaced.  `F` and `E` stand for flux and error of a pixel with input values `flux` and `err`. -/
def FilledPixel (flux err F E : Fl ℝ) : Prop :=
  (F = if flux.isFinite then flux else .fin (-99)) ∧ (err.isFinite = false → E = .fin (-99)) ∧ (err.isFinite = true → err ≠ 0 → E = err)

theorem fill_facts {r c : Nat} (flux err w m m3 : Img r c ℝ) (hit : Fin c → Bool)
    (hgood : ∀ i j, Usable (flux i j) (err i j) (w i j) ∧ hit j = false → m3 i j = m i j)
    (hbad : ∀ i j, ¬ (Usable (flux i j) (err i j) (w i j) ∧ hit j = false) → m3 i j = 0) (i : Fin r) (j : Fin c) :
    (specNanMasking (flux i) (m3 i) (.fin (-99)) false false j).isFinite = true ∧
    (specNanMasking (err i) (m3 i) (.fin (-99)) true false j).isFinite = true ∧
    (m3 i j = 0 → specNanMasking (err i) (m3 i) (.fin (-99)) true false j ≠ 0) ∧
    (m3 i j ≠ 0 → specNanMasking (flux i) (m3 i) (.fin (-99)) false false j = flux i j ∧
      specNanMasking (err i) (m3 i) (.fin (-99)) true false j = err i j) ∧
    FilledPixel (flux i j) (err i j) (specNanMasking (flux i) (m3 i) (.fin (-99)) false false j)
      (specNanMasking (err i) (m3 i) (.fin (-99)) true false j) := by
  have hne : (Fl.fin (-99) : Fl ℝ) ≠ 0 := by simp
  have hfill : FilledPixel (flux i j) (err i j) (specNanMasking (flux i) (m3 i) (.fin (-99)) false false j)
      (specNanMasking (err i) (m3 i) (.fin (-99)) true false j) := by
    refine ⟨?_, fun he => ?_, fun he hz => C13_finite_kept _ _ _ _ _ he (fun _ => hz)⟩
    · split
      · rename_i hf
        exact C13_finite_kept _ _ _ _ _ hf (by simp)
      · rename_i hf
        exact C13_filled _ _ _ _ _ (hbad i j fun h => hf h.1.1) (Or.inl (by simpa using hf))
    · exact C13_filled _ _ _ _ _ (hbad i j fun h => by rw [h.1.2.1] at he; cases he) (Or.inl he)
  by_cases h0 : m3 i j = 0
  · refine ⟨?_, ?_, fun _ => ?_, fun h => absurd h0 h, hfill⟩
    · by_cases hf : (flux i j).isFinite = true
      · rw [C13_finite_kept _ _ _ _ _ hf (by simp)]; exact hf
      · rw [C13_filled _ _ _ _ _ h0 (Or.inl (by simpa using hf))]; rfl
    · by_cases he : (err i j).isFinite = true
      · by_cases hz : err i j = 0
        · rw [C13_filled _ _ _ _ _ h0 (Or.inr ⟨rfl, hz⟩)]; rfl
        · rw [C13_finite_kept _ _ _ _ _ he (fun _ => hz)]; exact he
      · rw [C13_filled _ _ _ _ _ h0 (Or.inl (by simpa using he))]; rfl
    · by_cases hz : err i j = 0
      · rw [C13_filled _ _ _ _ _ h0 (Or.inr ⟨rfl, hz⟩)]; exact hne
      · by_cases he : (err i j).isFinite = true
        · rw [C13_finite_kept _ _ _ _ _ he (fun _ => hz)]; exact hz
        · rw [C13_filled _ _ _ _ _ h0 (Or.inl (by simpa using he))]; exact hne
  · have hu : Usable (flux i j) (err i j) (w i j) ∧ hit j = false := by
      by_contra hn; exact h0 (hbad i j hn)
    rw [C13_unmasked_kept _ _ _ _ _ _ h0, C13_unmasked_kept _ _ _ _ _ _ h0] at hfill ⊢
    exact ⟨hu.1.1, hu.1.2.1, fun h => absurd h h0, fun _ => ⟨rfl, rfl⟩, hfill⟩

/-- The spectrum after the continuum subtraction -/
theorem continuumSteps_ok {O : PrepOracle} {s t : PrepAll} {w m : Img s.spec.r s.spec.c ℝ} (hw : s.spec.weight = some w)
    (hm : s.spec.mask = some m) (h : runSteps (continuumSteps O) s = (t, none)) :
    ∃ (hit : Fin s.spec.c → Bool) (M F E C X : Img s.spec.r s.spec.c ℝ) (f l mr : ℝ × ℝ) (sp1 : Option Obs1D)
      (z : ℝ) (obs : Fin s.spec.c → ℝ),
      Hit1D s hit ∧ s.gal.z = some z ∧ s.spec.obswave = some obs ∧
      RangeFor s.spec.lines.names s.spec.fullRange fullRange2D f ∧ RangeFor s.spec.lines.names s.spec.lineRange lineRange2D l ∧
      (∀ i j, Usable (s.spec.flux i j) (s.spec.err i j) (w i j) ∧ hit j = false → M i j = m i j) ∧
      (∀ i j, ¬ (Usable (s.spec.flux i j) (s.spec.err i j) (w i j) ∧ hit j = false) → M i j = 0) ∧
      (∀ i j, (F i j).isFinite = true ∧ (E i j).isFinite = true ∧ (M i j = 0 → E i j ≠ 0) ∧
        (M i j ≠ 0 → F i j = s.spec.flux i j ∧ E i j = s.spec.err i j) ∧
        FilledPixel (s.spec.flux i j) (s.spec.err i j) (F i j) (E i j)) ∧
      (∀ i j, (C i j).isFinite = true ∧ X i j = F i j - C i j) ∧
      (s.spec.noCont = true → ∀ i j, C i j = 0) ∧
      t = ⟨({ s.spec with mask := some M, flux := X, err := E, inclCont := some F, contModel := some C
                          median := some (O.median (List.ofFn fun j => colQuad E M j))
                          fullRange := some f, lineRange := some l, maskRange := some mr } : Obs2D).cols
            ((List.finRange s.spec.c).filter fun j => decide (f.1 * (1 + z) ≤ obs j ∧ obs j ≤ f.2 * (1 + z))),
          { s.gal with spec1D := sp1 }⟩ := by
  simp only [continuumSteps, runSteps_cons_ok, runSteps_nil_ok] at h
  obtain ⟨u1, h1, u2, h2, u3, h3, u4, h4, u5, h5, u6, h6, u7, h7, u8, h8, rfl⟩ := h
  obtain ⟨m2, rfl, hm2⟩ := missing2DStep_ok hw hm h1
  have hfin0 : ∀ (F C : Fl ℝ), F.isFinite = true → C = 0 → F = F - C := by
    intro F C hF hC
    obtain ⟨x, rfl⟩ := Fl.exists_of_isFinite hF
    rw [hC, Fl.zero_def, Fl.fin_sub, sub_zero]
  rcases missing1DStep_ok h2 with ⟨hn, rfl⟩ | ⟨hn, o, m1, ho, hm1, rfl⟩
  · -- no continuum subtraction
    rcases from1DStep_ok (h := h3) rfl with ⟨-, rfl⟩ | ⟨hn', -⟩
    swap
    · exact Bool.noConfusion (hn.symm.trans hn')
    have hu4 := fillStep_ok (h := h4) rfl
    subst hu4
    obtain ⟨f, l, mr, hrf, hrl, rfl⟩ := rangesStep_ok h5
    cases h6
    rcases contStep_ok (h := h7) rfl with ⟨-, rfl⟩ | ⟨hn', -⟩
    swap
    · exact Bool.noConfusion (hn.symm.trans hn')
    obtain ⟨f', mr', z, obs, sp1, hf', -, hz, hobs, rfl⟩ := fullRangeStep_ok h8
    cases hf'
    have hg : ∀ i j, Usable (s.spec.flux i j) (s.spec.err i j) (w i j) ∧ (fun _ => false : Fin s.spec.c → Bool) j = false →
        m2 i j = m i j := fun i j hu => (hm2 i j).1 hu.1
    have hb : ∀ i j, ¬ (Usable (s.spec.flux i j) (s.spec.err i j) (w i j) ∧ (fun _ => false : Fin s.spec.c → Bool) j = false) →
        m2 i j = 0 := fun i j hu => (hm2 i j).2 (fun h => hu ⟨h, rfl⟩)
    have hF := fill_facts s.spec.flux s.spec.err w m m2 (fun _ => false) hg hb
    exact ⟨fun _ => false, m2, _, _, _, _, f, l, mr, sp1, z, obs, Or.inl ⟨hn, fun _ => rfl⟩, hz, hobs, hrf, hrl, hg, hb, hF,
      fun i j => ⟨rfl, hfin0 _ _ (hF i j).1 rfl⟩, fun _ _ _ => rfl, rfl⟩
  · rcases from1DStep_ok (h := h3) rfl with ⟨hn', -⟩ | ⟨-, o', m1', hit, ho', hm1', hhit, rfl⟩
    · exact Bool.noConfusion (hn.symm.trans hn')
    cases ho'
    cases hm1'
    have hu4 := fillStep_ok (h := h4) rfl
    subst hu4
    obtain ⟨f, l, mr, hrf, hrl, rfl⟩ := rangesStep_ok h5
    cases h6
    rcases contStep_ok (h := h7) rfl with ⟨hn', -⟩ | ⟨-, C, sp1', hC, rfl⟩
    · exact Bool.noConfusion (hn.symm.trans hn')
    obtain ⟨f', mr', z, obs, sp1, hf', -, hz, hobs, rfl⟩ := fullRangeStep_ok h8
    cases hf'
    have hg : ∀ i j, Usable (s.spec.flux i j) (s.spec.err i j) (w i j) ∧ hit j = false →
        (if hit j then (0 : Fl ℝ) else m2 i j) = m i j := fun i j hu => by
      rw [hu.2]; exact (hm2 i j).1 hu.1
    have hb : ∀ i j, ¬ (Usable (s.spec.flux i j) (s.spec.err i j) (w i j) ∧ hit j = false) →
        (if hit j then (0 : Fl ℝ) else m2 i j) = 0 := fun i j hu => by
      by_cases hh : hit j = true
      · rw [if_pos hh]
      · rw [if_neg hh]
        exact (hm2 i j).2 (fun h => hu ⟨h, by simpa using hh⟩)
    have hF := fill_facts s.spec.flux s.spec.err w m _ hit hg hb
    exact ⟨hit, _, _, _, C, _, f, l, mr, sp1, z, obs, Or.inr ⟨hn, o, m1, ho, hm1, hhit⟩, hz, hobs, hrf, hrl, hg, hb, hF,
      fun i j => ⟨hC i j, rfl⟩, fun hn' => Bool.noConfusion (hn.symm.trans hn'), rfl⟩

/-! ## Selecting columns -/

/-- The selected columns in increasing order -/
theorem get_filter_strictMono {c : Nat} (p : Fin c → Bool) :
    StrictMono fun k => ((List.finRange c).filter p).get k := by
  intro a b hab
  exact List.pairwise_iff_getElem.1 ((List.pairwise_lt_finRange c).filter p) a.1 b.1 a.2 b.2 hab

theorem exists_get_filter {c : Nat} (p : Fin c → Bool) (j : Fin c) :
    (∃ k, ((List.finRange c).filter p).get k = j) ↔ p j = true := by
  rw [← List.mem_iff_get, List.mem_filter]
  simp [List.mem_finRange]

theorem get_filter_prop {c : Nat} (p : Fin c → Bool) (k) : p (((List.finRange c).filter p).get k) = true :=
  (exists_get_filter p _).1 ⟨k, rfl⟩

end Misfit
