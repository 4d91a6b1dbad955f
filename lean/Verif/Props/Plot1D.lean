import Verif.Lemmas.Plot1D
import Verif.Lemmas.Fit1DObj

/-!
# C220-C224: the plot of a 1D fit
-/

namespace Misfit

variable {P : Plot1DIn} {res : Option ℝ} {mini : Bool → Bool → Fit1DResult ℝ} {cols : Except PyErr (List (List ℝ))}
  {a : Fit1DArgs} {s : Fit1DState ℝ}

/-- the errors stored if none are asked for -/
def zeroErrors (r : Fit1DResult ℝ) : List (ℝ × ℝ) := (r.z :: r.velDisp :: (r.flux ++ r.cont)).map fun _ => (0, 0)

theorem fit1D_zero {rs : ℝ} (hr : ¬ rs < 0) (hid : a.hasID = true) (hp : a.noPlot = true ∨ a.plotFile = true)
    (hn : a.noErrors = true) {f0 : ℝ} (hf : (mini false false).flux[0]? = some f0) :
    fit1D (some rs) mini cols a s = (⟨some (bestFit mini), some (zeroErrors (bestFit mini))⟩, none) := by
  have hplot : (!a.noPlot && !a.plotFile) = false := by
    rcases hp with hp | hp <;> rw [hp] <;> simp
  unfold fit1D
  simp only [if_neg hr, hf, hplot, hn, hid, Bool.not_true, Bool.false_eq_true, if_false]
  rw [bestFit_some hf]
  rfl

/-- the figure that is saved, for the limits of the axes -/
noncomputable def figure1D (P : Plot1DIn) (r : Fit1DResult ℝ) (model : ℝ → ℝ) (xl yl : ℝ × ℝ) (t : List Char) : Plot1D where
  solid := (P.restwave.take P.names.length).flatten.map fun w => (1 + r.z) * w
  dashed := (P.restwave.take P.names.length).flatten.map fun w => (1 + P.zGal) * w
  black := goodPix P.pix
  grey := P.pix.filter fun p => decide (p.mask = 0)
  cont := P.pix.map fun p => ∑ j ∈ Finset.range r.cont.length, 1e-18 * (r.cont[j]?.getD 0) * p.wave ^ j
  model := P.pix.map fun p => .fin (model p.wave)
  xlim := xl
  ylim := yl
  labels := (r.z, r.velDisp)
  title := t

/-- A fit that can be plotted, step by step. -/
theorem fit1DPlot_saved {rs : ℝ} (hr : ¬ rs < 0) (hid : a.hasID = true) (hp : a.noPlot = false) (hf : a.plotFile = true)
    (hn : a.noErrors = true) (hw : P.names.length ≤ P.restwave.length) {t : List Char} (ht : plotTitle P = .ok t)
    (hlen : ∀ b1 b2, (mini b1 b2).flux.length = P.sets.length) (hsets : P.sets ≠ []) (hpix : P.pix ≠ [])
    (hpos : ∀ ls ∈ P.sets, ∀ l ∈ ls, 0 < lineSig (bestFit mini).velDisp (l.1 * (1 + (bestFit mini).z))) :
    ∃ (lines : ℝ → ℝ) (xl yl lo hi : ℝ), (∃ p ∈ P.pix, p.wave = xl) ∧ (∃ p ∈ P.pix, p.wave = yl) ∧
      (∀ p ∈ P.pix, xl ≤ p.wave ∧ p.wave ≤ yl) ∧
      (let m : ℝ → ℝ := fun x => lines x + ∑ j ∈ Finset.range (bestFit mini).cont.length, 1e-18 * ((bestFit mini).cont[j]?.getD 0) * x ^ j
      finalModel { bestFit mini with cont := [] } P.sets P.pix = .ok (P.pix.map fun p => .fin (lines p.wave)) ∧
      finalModel (bestFit mini) P.sets P.pix = .ok (P.pix.map fun p => .fin (m p.wave)) ∧
      (∃ p ∈ P.pix, m p.wave = lo) ∧ (∃ p ∈ P.pix, m p.wave = hi) ∧
      (∀ p ∈ P.pix, lo ≤ m p.wave ∧ m p.wave ≤ hi) ∧
      fit1DPlot P (some rs) mini cols a s = (⟨some (bestFit mini), some (zeroErrors (bestFit mini))⟩, none,
        some (figure1D P (bestFit mini) m (xl - 20, yl + 20)
          (lo - (hi - lo) * 0.15, hi + (hi - lo) * 0.15) t))) := by
  have hf0 : ∃ f0, (mini false false).flux[0]? = some f0 := by
    have := hlen false false
    cases hl : (mini false false).flux with
    | nil => rw [hl] at this; exact absurd (List.length_eq_zero_iff.1 this.symm) hsets
    | cons f0 l => exact ⟨f0, rfl⟩
  obtain ⟨f0, hf0⟩ := hf0
  have hblen : (bestFit mini).flux.length = P.sets.length := by
    obtain ⟨b1, b2, h⟩ := bestFit_mem mini
    rw [h]; exact hlen b1 b2
  obtain ⟨x0, -, hx0⟩ := C45_linear (P.pix.map Pix.wave) (by simpa using hpix) (bestFit mini).z (bestFit mini).velDisp P.sets hpos
  have hm := hx0 (bestFit mini).flux (bestFit mini).cont hblen
  have hm0 := hx0 (bestFit mini).flux [] hblen
  obtain ⟨xl, yl, hxl, hyl, hxy, hX⟩ := plotXlim_ok P.pix hpix
  refine ⟨linesSum (bestFit mini).z (bestFit mini).velDisp ((bestFit mini).flux.zip P.sets) x0, xl, yl, ?_⟩
  set m : ℝ → ℝ := fun x => linesSum (bestFit mini).z (bestFit mini).velDisp ((bestFit mini).flux.zip P.sets) x0 x +
    ∑ j ∈ Finset.range (bestFit mini).cont.length, 1e-18 * ((bestFit mini).cont[j]?.getD 0) * x ^ j with hmdef
  have hM : finalModel (bestFit mini) P.sets P.pix = .ok (P.pix.map fun p => .fin (m p.wave)) := by
    unfold finalModel
    rw [hm, List.map_map]
    rfl
  obtain ⟨lo, hlo, hi, hhi, hb, hY⟩ := plotYlim_fin (P.pix.map fun p => m p.wave) (by simpa using hpix)
  obtain ⟨pl, hpl, hpl'⟩ := List.mem_map.1 hlo
  obtain ⟨ph, hph, hph'⟩ := List.mem_map.1 hhi
  refine ⟨lo, hi, hxl, hyl, hxy, ?_, hM, ⟨pl, hpl, hpl'⟩, ⟨ph, hph, hph'⟩, fun p hp => hb _ (List.mem_map_of_mem hp), ?_⟩
  · unfold finalModel
    simp only
    rw [hm0, List.map_map]
    refine congrArg _ (List.map_congr_left fun p _ => ?_)
    simp
  · have hY' : plotYlim (P.pix.map fun p => Fl.fin (m p.wave)) = .ok (lo - (hi - lo) * 0.15, hi + (hi - lo) * 0.15) := by
      rw [← hY, List.map_map]; rfl
    have hfit := fit1D_zero (cols := cols) (s := s) hr hid (.inr hf) hn hf0
    unfold fit1DPlot
    simp only [if_neg hr, hf0, ← bestFit_some hf0, hM, hid, hp, hf, markWaves_ok _ _ hw, hfit, Bool.not_true, Bool.false_eq_true,
      if_false]
    unfold finishPlot1D
    simp only [hX, ht, hY', figure1D, contAt_eq, zero_add, goodPix]

/-! ## C223: when a figure is saved -/

theorem plotTitle_ok (P : Plot1DIn) : (∃ t, plotTitle P = .ok t) ↔ P.maskname.isSome ∨ P.field.isSome := by
  unfold plotTitle
  cases P.maskname <;> cases P.field <;> simp

/-- **C223**, exact: a figure is saved if and only if the resolution is known and not negative, there is a line set and a
pixel, the galaxy has a number and a mask or field name, a plot is wanted and has a file name, no errors are asked for, there
are rest wavelengths for all line sets, and every line of the best fit has a positive width. -/
theorem C223_exact (hlen : ∀ b1 b2, (mini b1 b2).flux.length = P.sets.length) :
    (fit1DPlot P res mini cols a s).2.2.isSome ↔
      (∃ rs, res = some rs ∧ ¬ rs < 0) ∧ P.sets ≠ [] ∧ P.pix ≠ [] ∧ a.hasID = true ∧ (P.maskname.isSome ∨ P.field.isSome) ∧
      a.noPlot = false ∧ a.plotFile = true ∧ a.noErrors = true ∧ P.names.length ≤ P.restwave.length ∧
      ∀ ls ∈ P.sets, ∀ l ∈ ls, 0 < lineSig (bestFit mini).velDisp (l.1 * (1 + (bestFit mini).z)) := by
  constructor
  · intro h
    unfold fit1DPlot at h
    split at h
    · cases h
    · rename_i rs
      split at h
      · cases h
      · rename_i hr
        split at h
        · cases h
        · rename_i f0 hf0
          simp only [← bestFit_some hf0] at h
          split at h
          · cases h
          · rename_i model hM
            split at h
            · cases h
            · rename_i hid
              split at h
              · cases h
              · rename_i hp
                split at h
                · cases h
                · rename_i hf
                  split at h
                  · cases h
                  · rename_i waves hw
                    split at h
                    · cases h
                    · rename_i hout
                      obtain ⟨-, -, -, -, hn⟩ := (C63_exact (some rs) mini cols a s).1 hout
                      split at h
                      · cases h
                      · rename_i fig hfig
                        unfold finishPlot1D at hfig
                        have hpix : P.pix ≠ [] := by
                          intro h0
                          rw [h0] at hfig
                          cases hfig
                        split at hfig
                        · cases hfig
                        · split at hfig
                          · cases hfig
                          · rename_i t ht
                            split at hfig
                            · cases hfig
                            · rename_i yl hY
                              refine ⟨⟨rs, rfl, hr⟩, ?_, hpix, by simpa using hid, (plotTitle_ok P).1 ⟨t, ht⟩, by simpa using hp,
                                by simpa using hf, hn, ?_, ?_⟩
                              · intro h0
                                have := hlen false false
                                rw [h0] at this
                                rw [List.length_eq_zero_iff.1 this] at hf0
                                cases hf0
                              · by_contra hlt
                                rw [markWaves_short _ _ (by omega)] at hw
                                cases hw
                              · by_contra hneg
                                push Not at hneg
                                obtain ⟨ls, hls, l, hl, hle⟩ := hneg
                                obtain ⟨b1, b2, hb⟩ := bestFit_mem mini
                                have hz : ∃ ls ∈ (bestFit mini).flux.zip P.sets, ∃ l ∈ ls.2,
                                    lineSig (bestFit mini).velDisp (l.1 * (1 + (bestFit mini).z)) ≤ 0 := by
                                  obtain ⟨i, hi, hi'⟩ := List.mem_iff_getElem.1 hls
                                  have hi2 : i < (bestFit mini).flux.length := by rw [hb, hlen]; exact hi
                                  refine ⟨((bestFit mini).flux[i], P.sets[i]), ?_, l, by rw [hi']; exact hl, hle⟩
                                  exact List.mem_iff_getElem.2 ⟨i, by simp [hi2, hi], by simp⟩
                                unfold finalModel at hM
                                rw [spectrumProfile_any_nan _ (by simpa using hpix) _ _ _ _ hz] at hM
                                cases hM
                                rw [plotYlim_nan] at hY
                                cases hY
  · rintro ⟨⟨rs, rfl, hr⟩, hsets, hpix, hid, ht, hp, hf, hn, hw, hpos⟩
    obtain ⟨t, ht⟩ := (plotTitle_ok P).2 ht
    obtain ⟨_, _, _, _, _, _, _, _, _, _, _, _, _, h⟩ := fit1DPlot_saved (cols := cols) (s := s) hr hid hp hf hn hw ht hlen hsets hpix hpos
    rw [h]
    rfl

/-- **C223**, negation: no figure is ever saved for a fit with errors (the default), whatever the spectrum, options and
minimiser. -/
theorem C223_errors_false (ha : a.noErrors = false) : (fit1DPlot P res mini cols a s).2.2 = none := by
  obtain ⟨s', e, he⟩ := C63_false res mini cols a ha s
  unfold fit1DPlot
  rw [he]
  simp only
  repeat' split
  all_goals first | rfl | (rename_i h; cases h)

/-- **C223**, negation for a fit without errors: if the best fit leaves a line without positive width, the call ends with a
ValueError from the axes, after all values and errors have been stored, and there is no figure. -/
theorem C223_width_false {rs : ℝ} (hr : ¬ rs < 0) (hid : a.hasID = true) (hp : a.noPlot = false) (hf : a.plotFile = true)
    (hn : a.noErrors = true) (hw : P.names.length ≤ P.restwave.length) (ht : P.maskname.isSome ∨ P.field.isSome)
    (hlen : ∀ b1 b2, (mini b1 b2).flux.length = P.sets.length) (hpix : P.pix ≠ [])
    (hneg : ∃ ls ∈ P.sets, ∃ l ∈ ls, lineSig (bestFit mini).velDisp (l.1 * (1 + (bestFit mini).z)) ≤ 0) :
    fit1DPlot P (some rs) mini cols a s =
      (⟨some (bestFit mini), some (zeroErrors (bestFit mini))⟩, some .valueError, none) := by
  obtain ⟨ls, hls, l, hl, hle⟩ := hneg
  obtain ⟨t, ht⟩ := (plotTitle_ok P).2 ht
  obtain ⟨b1, b2, hb⟩ := bestFit_mem mini
  obtain ⟨i, hi, hi'⟩ := List.mem_iff_getElem.1 hls
  have hi2 : i < (bestFit mini).flux.length := by rw [hb, hlen]; exact hi
  have hz : ∃ ls ∈ (bestFit mini).flux.zip P.sets, ∃ l ∈ ls.2,
      lineSig (bestFit mini).velDisp (l.1 * (1 + (bestFit mini).z)) ≤ 0 :=
    ⟨((bestFit mini).flux[i], P.sets[i]), List.mem_iff_getElem.2 ⟨i, by simp [hi2, hi], by simp⟩, l,
      by rw [hi']; exact hl, hle⟩
  have hM : finalModel (bestFit mini) P.sets P.pix = .ok ((P.pix.map Pix.wave).map fun _ => .nan) :=
    spectrumProfile_any_nan _ (by simpa using hpix) _ _ _ _ hz
  obtain ⟨f0, hf0⟩ : ∃ f0, (mini false false).flux[0]? = some f0 :=
    ⟨_, List.getElem?_eq_getElem (by rw [hlen]; omega)⟩
  obtain ⟨xl, yl, -, -, -, hX⟩ := plotXlim_ok P.pix hpix
  have hfit := fit1D_zero (cols := cols) (s := s) hr hid (.inr hf) hn hf0
  unfold fit1DPlot
  simp only [if_neg hr, hf0, ← bestFit_some hf0, hM, hid, hp, hf, markWaves_ok _ _ hw, hfit, Bool.not_true, Bool.false_eq_true,
    if_false]
  unfold finishPlot1D
  simp only [hX, ht, plotYlim_nan]

/-! ## C220: the marked wavelengths -/

/-- What every saved figure shows. -/
theorem figure_of_saved (hlen : ∀ b1 b2, (mini b1 b2).flux.length = P.sets.length) {fig : Plot1D}
    (h : (fit1DPlot P res mini cols a s).2.2 = some fig) :
    (∀ ls ∈ P.sets, ∀ l ∈ ls, 0 < lineSig (bestFit mini).velDisp (l.1 * (1 + (bestFit mini).z))) ∧
    P.names.length ≤ P.restwave.length ∧
    (fit1DPlot P res mini cols a s).1 = ⟨some (bestFit mini), some (zeroErrors (bestFit mini))⟩ ∧
    ∃ (lines : ℝ → ℝ) (xl yl lo hi : ℝ) (t : List Char), (∃ p ∈ P.pix, p.wave = xl) ∧ (∃ p ∈ P.pix, p.wave = yl) ∧
      (∀ p ∈ P.pix, xl ≤ p.wave ∧ p.wave ≤ yl) ∧
      (let m : ℝ → ℝ := fun x => lines x + ∑ j ∈ Finset.range (bestFit mini).cont.length, 1e-18 * ((bestFit mini).cont[j]?.getD 0) * x ^ j
      finalModel { bestFit mini with cont := [] } P.sets P.pix = .ok (P.pix.map fun p => .fin (lines p.wave)) ∧
      finalModel (bestFit mini) P.sets P.pix = .ok (P.pix.map fun p => .fin (m p.wave)) ∧
      (∃ p ∈ P.pix, m p.wave = lo) ∧ (∃ p ∈ P.pix, m p.wave = hi) ∧
      (∀ p ∈ P.pix, lo ≤ m p.wave ∧ m p.wave ≤ hi) ∧
      fig = figure1D P (bestFit mini) m (xl - 20, yl + 20) (lo - (hi - lo) * 0.15, hi + (hi - lo) * 0.15) t) := by
  obtain ⟨⟨rs, rfl, hr⟩, hsets, hpix, hid, ht, hp, hf, hn, hw, hpos⟩ := (C223_exact hlen).1 (by rw [h]; rfl)
  obtain ⟨t, ht⟩ := (plotTitle_ok P).2 ht
  obtain ⟨lines, xl, yl, lo, hi, h1, h2, h3, h4, h5, h6, h7, h8, h9⟩ :=
    fit1DPlot_saved (cols := cols) (s := s) hr hid hp hf hn hw ht hlen hsets hpix hpos
  refine ⟨hpos, hw, by rw [h9], lines, xl, yl, lo, hi, t, h1, h2, h3, h4, h5, h6, h7, h8, ?_⟩
  rw [h9] at h
  exact (Option.some.inj h).symm

/-- **C220**, exact: the vertical lines of a saved figure are at the rest wavelengths that the object holds for its line
sets, times one plus the fitted redshift (solid) and one plus the redshift of the galaxy (dashed).  The solid lines are at the
lines of the fitted model if and only if the rest wavelengths held are those of the model. -/
theorem C220_exact (hlen : ∀ b1 b2, (mini b1 b2).flux.length = P.sets.length) {fig : Plot1D}
    (h : (fit1DPlot P res mini cols a s).2.2 = some fig) : ∃ r, (fit1DPlot P res mini cols a s).1.result = some r ∧
      fig.solid = (P.restwave.take P.names.length).flatten.map (fun w => w * (1 + r.z)) ∧
      fig.dashed = (P.restwave.take P.names.length).flatten.map (fun w => w * (1 + P.zGal)) ∧
      (fig.solid = P.sets.flatten.map (fun l => l.1 * (1 + r.z)) ↔
        (P.restwave.take P.names.length).flatten = P.sets.flatten.map Prod.fst) := by
  obtain ⟨hpos, hw, hst, lines, xl, yl, lo, hi, t, -, -, -, -, -, -, -, -, rfl⟩ := figure_of_saved hlen h
  have hs : (P.restwave.take P.names.length).flatten.map (fun w => (1 + (bestFit mini).z) * w) =
      (P.restwave.take P.names.length).flatten.map (fun w => w * (1 + (bestFit mini).z)) :=
    List.map_congr_left fun w _ => mul_comm _ _
  refine ⟨bestFit mini, by rw [hst], hs, List.map_congr_left fun w _ => mul_comm _ _, ?_⟩
  have hm : P.sets.flatten.map (fun l => l.1 * (1 + (bestFit mini).z)) =
      (P.sets.flatten.map Prod.fst).map (fun w => w * (1 + (bestFit mini).z)) := by rw [List.map_map]; rfl
  show List.map _ _ = _ ↔ _
  rw [hs, hm]
  constructor
  · intro he
    by_cases hz : 1 + (bestFit mini).z = 0
    · have hnil : P.sets.flatten = [] := by
        rw [List.eq_nil_iff_forall_not_mem]
        intro l hl
        obtain ⟨ls, hls, hl⟩ := List.mem_flatten.1 hl
        have := hpos ls hls l hl
        rw [hz] at this
        unfold lineSig at this
        simp at this
      rw [hnil] at he ⊢
      exact List.map_eq_nil_iff.1 he
    · exact List.map_injective_iff.2 (fun x y hxy => mul_right_cancel₀ hz hxy) he
  · intro he
    rw [he]

/-- **C220** (partial): if the object holds the rest wavelengths of its line sets, the solid lines are at the lines of the
fitted model and the dashed ones at the same lines for the redshift of the galaxy.
Missing from the full claim: objects with other rest wavelengths, see `C220_false`. -/
theorem C220_lines_partial (hlen : ∀ b1 b2, (mini b1 b2).flux.length = P.sets.length) {fig : Plot1D}
    (h : (fit1DPlot P res mini cols a s).2.2 = some fig) (hn : P.names.length = P.sets.length)
    (hw : P.restwave = P.sets.map (List.map Prod.fst)) : ∃ r, (fit1DPlot P res mini cols a s).1.result = some r ∧
      fig.solid = P.sets.flatten.map (fun l => l.1 * (1 + r.z)) ∧
      fig.dashed = P.sets.flatten.map (fun l => l.1 * (1 + P.zGal)) := by
  obtain ⟨r, h1, -, h3, h4⟩ := C220_exact hlen h
  have he : (P.restwave.take P.names.length).flatten = P.sets.flatten.map Prod.fst := by
    rw [hw, List.take_of_length_le (by simp [hn]), ← List.map_flatten]
  refine ⟨r, h1, h4.2 he, ?_⟩
  rw [h3, he, List.map_map]
  rfl

/-- one good pixel on and one masked pixel beside a line at 5000 -/
noncomputable def plotToy (restwave : List (List ℝ)) (m1 m2 : ℝ) : Plot1DIn :=
  { names := ["OIII5008"], restwave, zGal := 0, pix := [⟨5000, .fin 1, .fin 1, m1⟩, ⟨5001, .fin 1, .fin 1, m2⟩],
    sets := [[(5000, 1)]], maskname := none, field := some "COSMOS".toList, id := "1".toList }

/-- a minimiser with the given dispersion -/
def plotMini (v : ℝ) : Bool → Bool → Fit1DResult ℝ := fun _ _ => ⟨0, v, [1], [0, 0]⟩

theorem plotMini_best (v : ℝ) : bestFit (plotMini v) = ⟨0, v, [1], [0, 0]⟩ := by
  obtain ⟨b1, b2, h⟩ := bestFit_mem (plotMini v)
  rw [h]
  rfl

/-- a call without errors -/
def plotArgs : Fit1DArgs := { noErrors := true, plotFile := true }

theorem plotToy_saved {v : ℝ} (hv : 0 < v) (w : List ℝ) (m1 m2 : ℝ) (s : Fit1DState ℝ) :
    ∃ fig, (fit1DPlot (plotToy [w] m1 m2) (some 0) (plotMini v) (.ok []) plotArgs s).2.2 = some fig := by
  have h := (C223_exact (P := plotToy [w] m1 m2) (res := some 0) (mini := plotMini v) (cols := .ok []) (a := plotArgs)
    (s := s) (fun _ _ => rfl)).2 ⟨⟨0, rfl, lt_irrefl 0⟩, by simp [plotToy], by simp [plotToy], rfl, .inr rfl, rfl, rfl, rfl,
    by simp [plotToy], by
      intro ls hls l hl
      have : ls = [(5000, 1)] := by simpa [plotToy] using hls
      subst this
      have : l = (5000, 1) := by simpa using hl
      subst this
      rw [plotMini_best]
      unfold lineSig
      have := c1D_pos
      positivity⟩
  exact Option.isSome_iff_exists.1 h

/-- **C220**, negation: an object whose rest wavelengths are not those of its line names (for all of them other than the one
in the catalogue) saves a figure whose solid line is not at the line of the fitted model. -/
theorem C220_false {v : ℝ} (hv : 0 < v) (w : ℝ) (hw : w ≠ 5000) (m1 m2 : ℝ) (s : Fit1DState ℝ) :
    ∃ fig, (fit1DPlot (plotToy [[w]] m1 m2) (some 0) (plotMini v) (.ok []) plotArgs s).2.2 = some fig ∧
      fig.solid = [w] ∧ (plotToy [[w]] m1 m2).sets = [[(5000, 1)]] := by
  obtain ⟨fig, hfig⟩ := plotToy_saved hv [w] m1 m2 s
  refine ⟨fig, hfig, ?_, rfl⟩
  obtain ⟨r, h1, h2, -, -⟩ := C220_exact (fun _ _ => rfl) hfig
  obtain ⟨-, -, hst, -⟩ := figure_of_saved (fun _ _ => rfl) hfig
  rw [hst, plotMini_best] at h1
  rw [h2, ← Option.some.inj h1]
  simp [plotToy]

/-- the hypotheses of `C220_lines_partial` are met -/
example : ∃ fig, (fit1DPlot (plotToy [[5000]] 1 0) (some 0) (plotMini 50) (.ok []) plotArgs ⟨none, none⟩).2.2 = some fig ∧
    (plotToy [[5000]] 1 0).names.length = (plotToy [[5000]] 1 0).sets.length ∧
    (plotToy [[5000]] 1 0).restwave = (plotToy [[5000]] 1 0).sets.map (List.map Prod.fst) := by
  obtain ⟨fig, h⟩ := plotToy_saved (v := 50) (by norm_num) [5000] 1 0 ⟨none, none⟩
  exact ⟨fig, h, rfl, rfl⟩

/-! ## C221: the data points -/

/-- **C221**, exact: the black points of a saved figure are the pixels with mask 1, in order, and the grey ones those with
mask 0; all pixels of the trimmed spectrum are shown if and only if every mask value is 0 or 1. -/
theorem C221_exact (hlen : ∀ b1 b2, (mini b1 b2).flux.length = P.sets.length) {fig : Plot1D}
    (h : (fit1DPlot P res mini cols a s).2.2 = some fig) :
    fig.black = P.pix.filter (fun p => decide (p.mask = 1)) ∧ (∀ p, p ∈ fig.grey ↔ p ∈ P.pix ∧ p.mask = 0) ∧
      fig.grey.Sublist P.pix ∧ (∀ p ∈ fig.black, p ∉ fig.grey) ∧
      ((∀ p ∈ P.pix, p ∈ fig.black ∨ p ∈ fig.grey) ↔ ∀ p ∈ P.pix, p.mask = 0 ∨ p.mask = 1) := by
  obtain ⟨-, -, -, lines, xl, yl, lo, hi, t, -, -, -, -, -, -, -, -, rfl⟩ := figure_of_saved hlen h
  refine ⟨rfl, by simp [figure1D], List.filter_sublist, ?_, ?_⟩
  · intro p hp hg
    simp only [figure1D, goodPix, List.mem_filter, decide_eq_true_eq] at hp hg
    rw [hp.2] at hg
    exact one_ne_zero hg.2
  · simp only [figure1D, goodPix, List.mem_filter, decide_eq_true_eq]
    constructor
    · intro h p hp
      rcases h p hp with h | h
      · exact .inr h.2
      · exact .inl h.2
    · intro h p hp
      rcases h p hp with h | h
      · exact .inr ⟨hp, h⟩
      · exact .inl ⟨hp, h⟩

/-- **C221** (partial): with mask values 0 and 1 every pixel is shown exactly once.
Missing from the full claim: other mask values, see `C221_false`. -/
theorem C221_all_partial (hlen : ∀ b1 b2, (mini b1 b2).flux.length = P.sets.length) {fig : Plot1D}
    (h : (fit1DPlot P res mini cols a s).2.2 = some fig) (hm : ∀ p ∈ P.pix, p.mask = 0 ∨ p.mask = 1) :
    fig.black.length + fig.grey.length = P.pix.length ∧ ∀ p ∈ P.pix, p ∈ fig.black ∨ p ∈ fig.grey := by
  refine ⟨?_, (C221_exact hlen h).2.2.2.2.2 hm⟩
  obtain ⟨-, -, -, lines, xl, yl, lo, hi, t, -, -, -, -, -, -, -, -, rfl⟩ := figure_of_saved hlen h
  show (P.pix.filter fun p => decide (p.mask = 1)).length + (P.pix.filter fun p => decide (p.mask = 0)).length = _
  have he : (P.pix.filter fun p => decide (p.mask = 0)) = P.pix.filter fun p => !decide (p.mask = 1) := by
    apply List.filter_congr
    intro p hp
    rcases hm p hp with h | h <;> simp [h]
  rw [he, ← List.length_eq_length_filter_add]

/-- **C221**, negation: a pixel with any other mask value is not in the figure. -/
theorem C221_false {v : ℝ} (hv : 0 < v) (m : ℝ) (h0 : m ≠ 0) (h1 : m ≠ 1) (s : Fit1DState ℝ) :
    ∃ fig, (fit1DPlot (plotToy [[5000]] 1 m) (some 0) (plotMini v) (.ok []) plotArgs s).2.2 = some fig ∧
      fig.black.length + fig.grey.length = 1 ∧ (plotToy [[5000]] 1 m).pix.length = 2 := by
  obtain ⟨fig, hfig⟩ := plotToy_saved hv [5000] 1 m s
  refine ⟨fig, hfig, ?_, rfl⟩
  obtain ⟨-, -, -, lines, xl, yl, lo, hi, t, -, -, -, -, -, -, -, -, rfl⟩ := figure_of_saved (fun _ _ => rfl) hfig
  simp [figure1D, goodPix, plotToy, h0, h1]

/-! ## C222: the curves and the axes -/

/-- **C222**: the curves of a saved figure are, pixel by pixel, the stored model of the whole trimmed spectrum and the
polynomial with the fitted coefficients in units of 1e-18; their difference is the model with the same lines and no
continuum.  The horizontal axis ends 20 beyond the first and last wavelength, the vertical axis 15 % of the range of the model
beyond its extremes, so the whole curve is inside; the labels are the stored redshift and dispersion. -/
theorem C222_curves (hlen : ∀ b1 b2, (mini b1 b2).flux.length = P.sets.length) {fig : Plot1D}
    (h : (fit1DPlot P res mini cols a s).2.2 = some fig) :
    ∃ r, (fit1DPlot P res mini cols a s).1.result = some r ∧ fig.labels = (r.z, r.velDisp) ∧
      finalModel r P.sets P.pix = .ok fig.model ∧
      fig.cont = P.pix.map (fun p => ∑ j ∈ Finset.range r.cont.length, 1e-18 * (r.cont[j]?.getD 0) * p.wave ^ j) ∧
      (∃ lines : List ℝ, finalModel { r with cont := [] } P.sets P.pix = .ok (lines.map Fl.fin) ∧
        fig.model = List.zipWith (fun l c => Fl.fin (l + c)) lines fig.cont) ∧
      (∀ p ∈ P.pix, fig.xlim.1 + 20 ≤ p.wave ∧ p.wave ≤ fig.xlim.2 - 20) ∧
      (∃ p ∈ P.pix, p.wave = fig.xlim.1 + 20) ∧ (∃ p ∈ P.pix, p.wave = fig.xlim.2 - 20) ∧
      ∃ lo hi, Fl.fin lo ∈ fig.model ∧ Fl.fin hi ∈ fig.model ∧ (∀ m ∈ fig.model, ∃ x, m = Fl.fin x ∧ lo ≤ x ∧ x ≤ hi) ∧
        fig.ylim.1 = lo - 0.15 * (hi - lo) ∧ fig.ylim.2 = hi + 0.15 * (hi - lo) := by
  obtain ⟨-, -, hst, lines, xl, yl, lo, hi, t, ⟨p1, hp1, hx⟩, ⟨p2, hp2, hy⟩, hxy, hm0, hm, ⟨q1, hq1, hlo⟩, ⟨q2, hq2, hhi⟩, hb, rfl⟩ :=
    figure_of_saved hlen h
  refine ⟨bestFit mini, by rw [hst], rfl, hm, rfl, ⟨P.pix.map fun p => lines p.wave, ?_, ?_⟩, ?_, ⟨p1, hp1, ?_⟩, ⟨p2, hp2, ?_⟩, lo, hi, ?_, ?_, ?_, ?_, ?_⟩
  · rw [hm0, List.map_map]; rfl
  · show List.map _ _ = List.zipWith _ (List.map _ _) (List.map _ _)
    rw [List.zipWith_map, List.zipWith_self]
  · intro p hp
    have := hxy p hp
    simp only [figure1D]
    constructor <;> linarith
  · simp only [figure1D]; linarith
  · simp only [figure1D]; linarith
  · exact List.mem_map.2 ⟨q1, hq1, by rw [← hlo]⟩
  · exact List.mem_map.2 ⟨q2, hq2, by rw [← hhi]⟩
  · intro m hm
    obtain ⟨p, hp, rfl⟩ := List.mem_map.1 hm
    exact ⟨_, rfl, hb p hp⟩
  · simp only [figure1D]; ring
  · simp only [figure1D]; ring

theorem title_of_saved {fig : Plot1D} (h : (fit1DPlot P res mini cols a s).2.2 = some fig) : plotTitle P = .ok fig.title := by
  unfold fit1DPlot at h
  split at h
  · cases h
  split at h
  · cases h
  split at h
  · cases h
  simp only at h
  split at h
  · cases h
  split at h
  · cases h
  split at h
  · cases h
  split at h
  · cases h
  split at h
  · cases h
  split at h
  · cases h
  split at h
  · cases h
  rename_i hfig
  unfold finishPlot1D at hfig
  split at hfig
  · cases hfig
  split at hfig
  · cases hfig
  rename_i ht
  split at hfig
  · cases hfig
  cases hfig
  cases h
  exact ht

theorem namesCat_eq : ∀ l : List (List Char), namesCat l = List.intercalate ['+'] l
  | [] => rfl
  | [n] => by simp [namesCat, List.intercalate]
  | n :: m :: ns => by
      rw [namesCat, namesCat_eq (m :: ns)]
      simp [List.intercalate]

theorem escapeName_eq : ∀ l : List Char, escapeName l = List.intercalate ['\\', '_'] (l.splitOn '_')
  | [] => rfl
  | c :: l => by
      have ih := escapeName_eq l
      rw [show escapeName (c :: l) = (if c = '_' then ['\\', '_'] else [c]) ++ escapeName l from rfl, ih]
      obtain ⟨x, xs, hx⟩ : ∃ x xs, l.splitOn '_' = x :: xs := List.exists_cons_of_ne_nil (List.splitOnP_ne_nil _ _)
      by_cases hc : c = '_'
      · subst hc
        rw [if_pos rfl, show ('_' :: l).splitOn '_' = [] :: l.splitOn '_' from by
          rw [List.splitOn, List.splitOnP_cons, if_pos (by simp)]; rfl, hx]
        simp [List.intercalate]
      · rw [if_neg hc, show (c :: l).splitOn '_' = (l.splitOn '_').modifyHead (List.cons c) from by
          rw [List.splitOn, List.splitOnP_cons, if_neg (by simpa using hc)]; rfl, hx]
        cases xs <;> simp [List.intercalate]

/-- **C222**: the title of a saved figure is the name of the mask with escaped underscores, or else the field, followed by the number
of the galaxy and the names of the lines joined by plus signs. -/
theorem C222_title {fig : Plot1D} (h : (fit1DPlot P res mini cols a s).2.2 = some fig) :
    ∃ first, fig.title = first ++ ['-'] ++ P.id ++ [' '] ++ List.intercalate ['+'] (P.names.map String.toList) ∧
      (∀ m, P.maskname = some m → first = List.intercalate ['\\', '_'] (m.splitOn '_')) ∧
      (P.maskname = none → P.field = some first) := by
  have ht := title_of_saved h
  unfold plotTitle at ht
  simp only [namesCat_eq] at ht
  cases hm : P.maskname with
  | some m =>
    rw [hm] at ht
    simp only [Except.ok.injEq] at ht
    exact ⟨escapeName m, by rw [← ht]; simp, fun m' e => by cases e; exact escapeName_eq m, fun e => by cases e⟩
  | none =>
    cases hf : P.field with
    | none => rw [hm, hf] at ht; cases ht
    | some f =>
      rw [hm, hf] at ht
      simp only [Except.ok.injEq] at ht
      exact ⟨f, by rw [← ht]; simp, fun m e => (by cases e), fun _ => rfl⟩

/-! ## C224: plotting leaves the results alone -/

/-- **C224** (partial): if there are rest wavelengths for all line sets and a file name, a fit stores with plot what it stores
without: values and errors.
Missing from the full claim: objects with too few rest wavelengths, see `C224_false`. -/
theorem C224_same_partial (hw : P.names.length ≤ P.restwave.length) (hf : a.plotFile = true) :
    (fit1DPlot P res mini cols a s).1 = (fit1DPlot P res mini cols { a with noPlot := true } s).1 := by
  have hfit : ∀ res, fit1D res mini cols a s = fit1D res mini cols { a with noPlot := true } s := by
    intro res
    unfold fit1D
    simp only [hf, Bool.not_true, Bool.and_false]
  unfold fit1DPlot
  rw [markWaves_ok _ _ hw]
  cases res with
  | none => rfl
  | some rs =>
    simp only [hf, hfit (some rs)]
    split
    · rfl
    · split
      · rfl
      · split
        · rfl
        · split
          · rfl
          · simp only [Bool.not_true, Bool.false_eq_true, if_false, if_true]
            repeat' split
            all_goals rfl

/-- **C224**: the fitted values that a call stores are the same with and without plot, whatever the plot runs into. -/
theorem C224_values : (fit1DPlot P res mini cols a s).1.result = (fit1DPlot P res mini cols { a with noPlot := true } s).1.result := by
  have hfit : ∀ (rs : ℝ) (b : Fit1DArgs), ¬ rs < 0 → ∀ f0, (mini false false).flux[0]? = some f0 →
      (fit1D (some rs) mini cols b s).1.result = some (refit mini f0) := by
    intro rs b hr f0 hf
    unfold fit1D
    simp only [if_neg hr, hf]
    repeat' split
    all_goals rfl
  unfold fit1DPlot
  cases res with
  | none => rfl
  | some rs =>
    simp only
    split
    · rfl
    · rename_i hr
      split
      · rfl
      · rename_i f0 hf
        split
        · rfl
        · split
          · rfl
          · have h1 := hfit rs a hr f0 hf
            have h2 := hfit rs { a with noPlot := true } hr f0 hf
            simp only [if_true]
            repeat' split
            all_goals first | exact h2.symm | exact h1.trans h2.symm

/-- **C224**, negation: with too few rest wavelengths the call with plot ends with an IndexError before the errors are stored,
the call without plot stores them. -/
theorem C224_false {v : ℝ} (hv : 0 < v) (m1 m2 : ℝ) :
    fit1DPlot (plotToy [] m1 m2) (some 0) (plotMini v) (.ok []) plotArgs ⟨none, none⟩ =
      (⟨some ⟨0, v, [1], [0, 0]⟩, none⟩, some .indexError, none) ∧
    fit1DPlot (plotToy [] m1 m2) (some 0) (plotMini v) (.ok []) { plotArgs with noPlot := true } ⟨none, none⟩ =
      (⟨some ⟨0, v, [1], [0, 0]⟩, some [(0, 0), (0, 0), (0, 0), (0, 0), (0, 0)]⟩, none, none) := by
  have hf0 : (plotMini v false false).flux[0]? = some 1 := rfl
  have hM : ∃ model, finalModel (bestFit (plotMini v)) (plotToy [] m1 m2).sets (plotToy [] m1 m2).pix = .ok model := by
    rw [plotMini_best]
    obtain ⟨_, -, h⟩ := C45_linear ((plotToy [] m1 m2).pix.map Pix.wave) (by simp [plotToy]) 0 v (plotToy [] m1 m2).sets (by
      intro ls hls l hl
      have : ls = [(5000, 1)] := by simpa [plotToy] using hls
      subst this
      have : l = (5000, 1) := by simpa using hl
      subst this
      unfold lineSig
      have := c1D_pos
      positivity)
    exact ⟨_, h [1] [0, 0] rfl⟩
  obtain ⟨model, hM⟩ := hM
  have hfit := fit1D_zero (mini := plotMini v) (cols := .ok []) (a := { plotArgs with noPlot := true }) (s := ⟨none, none⟩)
    (lt_irrefl (0 : ℝ)) rfl (.inl rfl) rfl hf0
  have hmark : markWaves (plotToy [] m1 m2).names (plotToy [] m1 m2).restwave = .error .indexError := rfl
  constructor
  · unfold fit1DPlot
    simp only [lt_irrefl, if_false, hf0, ← bestFit_some hf0, hM, hmark]
    simp [plotArgs, plotMini_best]
  · unfold fit1DPlot
    simp only [lt_irrefl, if_false, hf0, ← bestFit_some hf0, hM, hfit]
    simp [plotArgs, plotMini_best, zeroErrors]

/-- the hypotheses of `C224_same_partial` are met -/
example : (plotToy [[5000]] 1 0).names.length ≤ (plotToy [[5000]] 1 0).restwave.length ∧ plotArgs.plotFile = true :=
  ⟨le_refl _, rfl⟩

/-- … and those of `C223_width_false`, for every dispersion that is not positive -/
example (v : ℝ) (hv : v ≤ 0) : ∃ ls ∈ (plotToy [[5000]] 1 0).sets, ∃ l ∈ ls,
    lineSig (bestFit (plotMini v)).velDisp (l.1 * (1 + (bestFit (plotMini v)).z)) ≤ 0 := by
  refine ⟨[(5000, 1)], by simp [plotToy], (5000, 1), by simp, ?_⟩
  rw [plotMini_best]
  unfold lineSig
  exact mul_nonpos_of_nonpos_of_nonneg (div_nonpos_of_nonpos_of_nonneg hv c1D_pos.le) (by norm_num)

end Misfit
