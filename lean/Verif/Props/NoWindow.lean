import Verif.Props.PrepFail

/-!
# C225: a spectrum without continuum beside the lines
-/

namespace Misfit

/-- Specification: a column on the left or on the right of the lines, inside the full range; the ranges are in the rest frame. -/
def BesideLines (full mask : ℝ × ℝ) (z x : ℝ) : Prop :=
  (full.1 * (1 + z) ≤ x ∧ x < mask.1 * (1 + z)) ∨ (x ≤ full.2 * (1 + z) ∧ mask.2 * (1 + z) < x)

theorem contWindows_empty_iff {c : Nat} (obs : Fin c → ℝ) (full mask : ℝ × ℝ) (z : ℝ) :
    ((contWindows obs (redshifted full z) (redshifted mask z)).1.isEmpty &&
      (contWindows obs (redshifted full z) (redshifted mask z)).2.1.isEmpty) = true ↔ ∀ j, ¬ BesideLines full mask z (obs j) := by
  rw [Bool.and_eq_true, List.isEmpty_iff, List.isEmpty_iff]
  constructor
  · rintro ⟨h1, h2⟩ j (hj | hj)
    · exact List.ne_nil_of_mem (a := j) (List.mem_filter.2 ⟨List.mem_finRange _, decide_eq_true hj⟩) h1
    · exact List.ne_nil_of_mem (a := j) (List.mem_filter.2 ⟨List.mem_finRange _, decide_eq_true hj⟩) h2
  · intro h
    constructor
    · refine List.filter_eq_nil_iff.2 fun j _ hj => h j (Or.inl (of_decide_eq_true hj))
    · refine List.filter_eq_nil_iff.2 fun j _ hj => h j (Or.inr (of_decide_eq_true hj))

/-- The fits raise when no column is left. -/
theorem contStep_empty {O : ContFit} {s : PrepAll} {o : Obs1D} {m1 : Fin o.n → Fl ℝ}
    {incl cm m : Img s.spec.r s.spec.c ℝ} {f mr : ℝ × ℝ} {z : ℝ} {obs : Fin s.spec.c → ℝ} {x md : Fl ℝ}
    (hn : s.spec.noCont = false) (ho : s.gal.spec1D = some o) (hm1 : o.mask = some m1) (hi : s.spec.inclCont = some incl)
    (hcm : s.spec.contModel = some cm) (hm : s.spec.mask = some m) (hf : s.spec.fullRange = some f) (hmr : s.spec.maskRange = some mr)
    (hz : s.gal.z = some z) (hobs : s.spec.obswave = some obs) (hx : s.spec.cutoff = some x) (hmd : s.spec.median = some md)
    (hno : ∀ j, ¬ BesideLines f mr z (obs j)) :
    ∃ tmp, contStep O s = (⟨s.spec, { s.gal with spec1D := some { o with mask := some tmp } }⟩, some .typeError) := by
  have hw : prepWindows s = .ok (contWindows obs (redshifted f z) (redshifted mr z)) := by
    unfold prepWindows
    rw [hf, hmr, hz, hobs]
  have he := (contWindows_empty_iff obs f mr z).2 hno
  have he' := he
  rw [Bool.and_eq_true, List.isEmpty_iff, List.isEmpty_iff] at he'
  have hsl : ∃ tmp, slope1D O o m1 (some x) (some md) obs (contWindows obs (redshifted f z) (redshifted mr z)).1
      (contWindows obs (redshifted f z) (redshifted mr z)).2.1 = (some tmp, .error .typeError) := by
    rw [he'.1, he'.2]
    exact ⟨_, rfl⟩
  obtain ⟨tmp, hsl⟩ := hsl
  refine ⟨tmp, ?_⟩
  unfold contStep
  rw [if_neg (by simp [hn]), hw, ho, hi, hcm, hm, hobs]
  simp only
  rw [hm1]
  simp only
  rw [hx, hmd, hsl]

/-- **C225**: without a column beside the lines the subtraction of the continuum raises a TypeError.  The missing pixels have been
filled and a continuum of zero is stored. -/
theorem C225_refused (O : PrepOracle) (s : PrepAll) (l : String) (ls : List String) (full line mask : ℝ × ℝ) (z : ℝ) (x : Fl ℝ)
    (o : Obs1D) (hr : 0 < s.spec.r) (hc : 0 < s.spec.c)
    (hn : s.spec.noCont = false) (ho : s.gal.spec1D = some o) (hon : o.n = s.spec.c)
    (hx : s.spec.cutoff = some x) (hnm : s.spec.lines.names = some (l :: ls))
    (hf : RangeUsed s.spec.fullRange fullRange2D l full) (hl : RangeUsed s.spec.lineRange lineRange2D l line)
    (hm : RangeUsed s.spec.maskRange maskRange2D l mask) (hz : s.gal.z = some z) (hobs : s.spec.obswave = some s.spec.wave)
    (hno : ∀ j, ¬ BesideLines full mask z (s.spec.wave j)) :
    ∃ M F E md sp1, runSteps (continuumSteps O) s = (⟨{ s.spec with
      mask := some M, flux := F, err := E, median := some md
      fullRange := some full, lineRange := some line, maskRange := some mask
      inclCont := some F, contModel := some fun _ _ => 0 }, { s.gal with spec1D := some sp1 }⟩, some .typeError) ∧
      ∀ i j, (s.spec.flux i j).isFinite = true → F i j = s.spec.flux i j := by
  obtain ⟨m', hm'⟩ := specMaskMissing2D_run hr hc s.spec.flux s.spec.err s.spec.weight s.spec.mask true
  have e1 : missing2DStep s = ({ s with spec := { s.spec with mask := some m' } }, none) := by
    unfold missing2DStep
    rw [hm']
  obtain ⟨m1, e2⟩ := missing1DStep_run (s := { s with spec := { s.spec with mask := some m' } }) hn ho (by omega)
  obtain ⟨m3, e3⟩ := from1DStep_run (s := ⟨{ s.spec with mask := some m' },
    { s.gal with spec1D := some { o with mask := some m1 } }⟩) hn rfl rfl rfl (le_of_eq hon)
  obtain ⟨tmp, e7⟩ := contStep_empty (O := O.cont) (s := ⟨{ s.spec with
      mask := some m3, flux := fun i => specNanMasking (s.spec.flux i) (m3 i) (.fin (-99)) false false
      err := fun i => specNanMasking (s.spec.err i) (m3 i) (.fin (-99)) true false
      median := some (O.median (List.ofFn fun j =>
        colQuad (fun i => specNanMasking (s.spec.err i) (m3 i) (.fin (-99)) true false) m3 j))
      fullRange := some full, lineRange := some line, maskRange := some mask
      inclCont := some fun i => specNanMasking (s.spec.flux i) (m3 i) (.fin (-99)) false false, contModel := some fun _ _ => 0 },
      { s.gal with spec1D := some { o with mask := some m1 } }⟩) hn rfl rfl rfl rfl rfl rfl rfl hz hobs hx rfl hno
  have e5 := rangesStep_run (s := ⟨{ s.spec with
      mask := some m3, flux := fun i => specNanMasking (s.spec.flux i) (m3 i) (.fin (-99)) false false
      err := fun i => specNanMasking (s.spec.err i) (m3 i) (.fin (-99)) true false
      median := some (O.median (List.ofFn fun j =>
        colQuad (fun i => specNanMasking (s.spec.err i) (m3 i) (.fin (-99)) true false) m3 j)) },
      { s.gal with spec1D := some { o with mask := some m1 } }⟩) hnm hf hl hm
  refine ⟨m3, _, _, _, _, (runSteps_next e1).trans ((runSteps_next e2).trans ((runSteps_next e3).trans ((runSteps_next rfl).trans
    ((runSteps_next e5).trans ((runSteps_next rfl).trans (runSteps_stop e7)))))), fun i j hfin => ?_⟩
  exact C13_finite_kept _ _ _ _ _ hfin (fun h => by cases h)

theorem contStep_beside {O : ContFit} {s t : PrepAll} (hn : s.spec.noCont = false) (h : contStep O s = (t, none)) :
    ∃ f mr z obs, s.spec.fullRange = some f ∧ s.spec.maskRange = some mr ∧ s.gal.z = some z ∧ s.spec.obswave = some obs ∧
      t.spec.fullRange = some f ∧ t.spec.maskRange = some mr ∧ ∃ j, BesideLines f mr z (obs j) := by
  unfold contStep at h
  rw [if_neg (by simp [hn])] at h
  split at h
  · cases h
  · rename_i w o incl cm m obs hw ho hi hcm hm hobs
    unfold prepWindows at hw
    split at hw
    · rename_i f mr z hf hmr hz
      rw [hobs] at hw
      cases hw
      refine ⟨f, mr, z, obs, hf, hmr, hz, hobs, ?_⟩
      have hex : (∃ j, BesideLines f mr z (obs j)) ∨ ((contWindows obs (redshifted f z) (redshifted mr z)).1 = [] ∧
          (contWindows obs (redshifted f z) (redshifted mr z)).2.1 = []) := by
        by_cases hj : ∃ j, BesideLines f mr z (obs j)
        · exact Or.inl hj
        · have := (contWindows_empty_iff obs f mr z).2 (not_exists.1 hj)
          rw [Bool.and_eq_true, List.isEmpty_iff, List.isEmpty_iff] at this
          exact Or.inr this
      split at h
      · cases h
      · rename_i m1 hm1
        rcases hex with hj | ⟨h1, h2⟩
        · split at h
          · cases h
          · rename_i hbad
            unfold slope1D at hbad
            split at hbad
            · cases hbad
            · cases hbad
          · simp only at h
            split at h
            · cases h
            · split at h
              · cases h
                exact ⟨hf, hmr, hj⟩
              · cases h
        · simp only [h1, h2] at h
          unfold slope1D at h
          split at h
          · cases h
          · rename_i hbad
            split at hbad
            · cases hbad
            · cases hbad
          · rename_i hbad
            split at hbad
            · cases hbad
            · cases hbad
              cases h
    · cases hw
  · cases h

/-- **C225**: a subtraction of the continuum that returns had a column beside the lines. -/
theorem C225_needed (O : PrepOracle) (s t : PrepAll) (hn : s.spec.noCont = false)
    (h : runSteps (continuumSteps O) s = (t, none)) :
    ∃ f mr z obs, t.spec.fullRange = some f ∧ t.spec.maskRange = some mr ∧ s.gal.z = some z ∧ s.spec.obswave = some obs ∧
      ∃ j, BesideLines f mr z (obs j) := by
  simp only [continuumSteps, runSteps_cons_ok, runSteps_nil_ok] at h
  obtain ⟨u1, h1, u2, h2, u3, h3, u4, h4, u5, h5, u6, h6, u7, h7, u8, h8, rfl⟩ := h
  unfold missing2DStep at h1
  split at h1
  · cases h1
  rename_i m2 hm2
  cases h1
  rcases missing1DStep_ok h2 with ⟨hn', -⟩ | ⟨-, o, m1, ho, hm1, rfl⟩
  · exact Bool.noConfusion (hn.symm.trans hn')
  rcases from1DStep_ok (h := h3) rfl with ⟨hn', -⟩ | ⟨-, o', m1', hit, -, -, -, rfl⟩
  · exact Bool.noConfusion (hn.symm.trans hn')
  have hu4 := fillStep_ok (h := h4) rfl
  subst hu4
  obtain ⟨f, l, mr, -, -, rfl⟩ := rangesStep_ok h5
  cases h6
  obtain ⟨f', mr', z, obs, -, -, hz, hobs, hf7, hm7, j, hj⟩ := contStep_beside (h := h7) (by exact hn)
  obtain ⟨f2, mr2, z2, obs2, sp1, hf2, hmr2, -, -, rfl⟩ := fullRangeStep_ok h8
  exact ⟨f', mr', z, obs, hf7, hm7, hz, hobs, j, hj⟩

/-- Columns at the wavelengths 0, ..., 4, the first outside the full range, and all others inside the lines -/
noncomputable def coveredAll : PrepAll := ⟨{ contAll.spec with maskRange := some (1, 10) }, contAll.gal⟩

/-- The hypotheses of `C225_refused` are met by this spectrum. -/
example (O : PrepOracle) : ∃ t, runSteps (continuumSteps O) coveredAll = (t, some .typeError) := by
  obtain ⟨_, _, _, _, _, h, -⟩ := C225_refused O coveredAll "HA" [] (1, 10) (0, 10) (1, 10) 0 _ _ (by decide : 0 < 15)
    (by decide : 0 < 5) rfl rfl rfl rfl rfl (Or.inl rfl) (Or.inl rfl) (Or.inl rfl) rfl rfl (fun j => by
      rintro (⟨h1, h2⟩ | ⟨h1, h2⟩) <;> exact absurd (lt_of_lt_of_le h2 h1) (lt_irrefl _))
  exact ⟨_, h⟩

/-- The hypotheses of `C225_needed` are met by a spectrum with narrower lines. -/
example (O : PrepOracle) (hO : O.cont.Finite) : halfDone.spec.noCont = false ∧ ∃ u, runSteps (continuumSteps O) halfDone = (u, none) := by
  obtain ⟨_, _, _, _, _, _, _, h, -⟩ := continuum_run (O := O) (s := halfDone) (full := (1, 10)) (line := (0, 10)) (mask := (2, 3)) (z := 0)
    (Or.inr ⟨rfl, hO, ⟨_, rfl, rfl⟩, (1 : Fin 5), by
      show (1 : ℝ) * (1 + 0) ≤ ((1 : Fin 5).val : ℝ) ∧ ((1 : Fin 5).val : ℝ) < 2 * (1 + 0)
      norm_num⟩) (by decide : 0 < 15) (by decide : 0 < 5) rfl rfl rfl (Or.inl rfl) (Or.inl rfl) (Or.inl rfl) rfl rfl
  exact ⟨rfl, _, h⟩

end Misfit
