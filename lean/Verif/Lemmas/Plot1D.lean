import Verif.Model.Plot1D
import Verif.Props.Fit1DModel
import Verif.Lemmas.PlotFit

/-!
# Helper lemmas for the plot of a 1D fit
-/

namespace Misfit

theorem mapE_item_range {α : Type*} (l : List α) : ∀ n k, k + n ≤ l.length →
    mapE (fun i => itemE l i) (List.range' k n) = .ok ((l.drop k).take n) := by
  intro n
  induction n with
  | zero => intro k _; rfl
  | succ n ih =>
    intro k h
    rw [List.range'_succ, mapE, itemE_lt l k (by omega), ih (k + 1) (by omega)]
    rw [← List.cons_getElem_drop_succ (h := (by omega : k < l.length)), List.take_succ_cons]

theorem mapE_item_short {α : Type*} (l : List α) : ∀ n k, l.length < k + n → k ≤ l.length →
    mapE (fun i => itemE l i) (List.range' k n) = .error .indexError := by
  intro n
  induction n with
  | zero => intro k h h'; omega
  | succ n ih =>
    intro k h h'
    rw [List.range'_succ, mapE]
    by_cases hk : k < l.length
    · rw [itemE_lt l k hk, ih (k + 1) (by omega) (by omega)]
    · have : itemE l k = .error .indexError := by
        unfold itemE
        rw [List.getElem?_eq_none (by omega)]
      rw [this]

theorem markWaves_ok (names : List String) (rw' : List (List ℝ)) (h : names.length ≤ rw'.length) :
    markWaves names rw' = .ok (rw'.take names.length).flatten := by
  unfold markWaves
  rw [List.range_eq_range', mapE_item_range _ _ _ (by omega)]
  rfl

theorem markWaves_short (names : List String) (rw' : List (List ℝ)) (h : rw'.length < names.length) :
    markWaves names rw' = .error .indexError := by
  unfold markWaves
  rw [List.range_eq_range', mapE_item_short _ _ _ (by omega) (by omega)]

/-- A line sampled at some pixels, of any width: an array of the same length, all NaN for a width that is not positive. -/
theorem gaussianLine_any (xs : List ℝ) (hx : xs ≠ []) (mu velSig flux : ℝ) :
    ∃ g, gaussianLine xs mu velSig flux = .ok g ∧ g.length = xs.length ∧
      (lineSig velSig mu ≤ 0 → g = xs.map fun _ => Fl.nan) := by
  by_cases h : 0 < lineSig velSig mu
  · obtain ⟨x0, -, h3⟩ := gaussianLine_eq xs hx mu velSig h
    exact ⟨_, h3 flux, by simp, fun h' => absurd h (not_lt.2 h')⟩
  · exact ⟨_, (C45_degenerate mu velSig flux).2 xs hx (not_lt.1 h), by simp, fun _ => rfl⟩

theorem addArr_length (a b : List (Fl ℝ)) (h : b.length = a.length) : (addArr a b).length = a.length := by
  unfold addArr
  rw [List.length_zipWith, h, min_self]

theorem addLines_any (xs : List ℝ) (hx : xs ≠ []) (z velDisp flux : ℝ) : ∀ (lines : List (ℝ × ℝ)) (prof : List (Fl ℝ)),
    prof.length = xs.length → ∃ g, addLines xs z velDisp flux lines prof = .ok g ∧ g.length = xs.length ∧
      ((prof = xs.map fun _ => Fl.nan) ∨ (∃ l ∈ lines, lineSig velDisp (l.1 * (1 + z)) ≤ 0) → g = xs.map fun _ => Fl.nan)
  | [], prof, h => ⟨prof, rfl, h, by rintro (h | ⟨l, hl, -⟩); exacts [h, absurd hl (by simp)]⟩
  | (w, r) :: lines, prof, h => by
      obtain ⟨g, h1, h2, h3⟩ := gaussianLine_any xs hx (w * (1 + z)) velDisp (flux * r)
      obtain ⟨g', h4, h5, h6⟩ := addLines_any xs hx z velDisp flux lines (addArr prof g)
        (by rw [addArr_length _ _ (h2.trans h.symm), h])
      refine ⟨g', by rw [addLines, h1]; exact h4, h5, ?_⟩
      rintro (hp | ⟨l, hl, hs⟩)
      · exact h6 (.inl (by rw [hp, addArr_nan_left _ _ h2]))
      · rcases List.mem_cons.1 hl with rfl | hl
        · exact h6 (.inl (by rw [h3 hs, addArr_nan_right _ _ h]))
        · exact h6 (.inr ⟨l, hl, hs⟩)

theorem addSets_any (xs : List ℝ) (hx : xs ≠ []) (z velDisp : ℝ) : ∀ (sets : List (ℝ × List (ℝ × ℝ))) (prof : List (Fl ℝ)),
    prof.length = xs.length → ∃ g, addSets xs z velDisp sets prof = .ok g ∧ g.length = xs.length ∧
      ((prof = xs.map fun _ => Fl.nan) ∨ (∃ ls ∈ sets, ∃ l ∈ ls.2, lineSig velDisp (l.1 * (1 + z)) ≤ 0) →
        g = xs.map fun _ => Fl.nan)
  | [], prof, h => ⟨prof, rfl, h, by rintro (h | ⟨l, hl, -⟩); exacts [h, absurd hl (by simp)]⟩
  | (flux, lines) :: sets, prof, h => by
      obtain ⟨g, h1, h2, h3⟩ := addLines_any xs hx z velDisp flux lines (xs.map fun _ => .fin 0) (by simp)
      obtain ⟨g', h4, h5, h6⟩ := addSets_any xs hx z velDisp sets (addArr prof g)
        (by rw [addArr_length _ _ (h2.trans h.symm), h])
      refine ⟨g', by rw [addSets, lineProfile, h1]; exact h4, h5, ?_⟩
      rintro (hp | ⟨ls, hls, hs⟩)
      · exact h6 (.inl (by rw [hp, addArr_nan_left _ _ h2]))
      · rcases List.mem_cons.1 hls with rfl | hls
        · exact h6 (.inl (by rw [h3 (.inr hs), addArr_nan_right _ _ h]))
        · exact h6 (.inr ⟨ls, hls, hs⟩)

theorem plotCont_nan (xs : List ℝ) : ∀ (cs : List ℝ) (i : Nat), addCont xs i cs (xs.map fun _ => Fl.nan) = xs.map fun _ => Fl.nan
  | [], _ => rfl
  | c :: cs, i => by rw [addCont, addArr_nan_left _ _ (by simp), plotCont_nan xs cs]

/-- Spectra sampled at some pixels are all NaN as soon as one line has a width that is not positive. -/
theorem spectrumProfile_any_nan (xs : List ℝ) (hx : xs ≠ []) (z velDisp : ℝ) (sets : List (ℝ × List (ℝ × ℝ))) (cont : List ℝ)
    (h : ∃ ls ∈ sets, ∃ l ∈ ls.2, lineSig velDisp (l.1 * (1 + z)) ≤ 0) :
    spectrumProfile xs z velDisp sets cont = .ok (xs.map fun _ => .nan) := by
  obtain ⟨g, h1, -, h3⟩ := addSets_any xs hx z velDisp sets (xs.map fun _ => .fin 0) (by simp)
  unfold spectrumProfile
  rw [h1]
  simp only
  rw [h3 (.inr h), plotCont_nan]

theorem contAt_eq (x : ℝ) : ∀ (cs : List ℝ) (i : Nat), contAt i cs x =
    ∑ j ∈ Finset.range cs.length, 1e-18 * (cs[j]?.getD 0) * x ^ (i + j)
  | [], i => by simp [contAt]
  | c :: cs, i => by
      rw [contAt, contAt_eq x cs, List.length_cons, Finset.sum_range_succ']
      simp only [List.getElem?_cons_succ, List.getElem?_cons_zero, Option.getD_some, add_zero]
      have : ∀ j, i + 1 + j = i + (j + 1) := fun j => by omega
      simp only [this]
      ring

theorem npMin_fin (l : List ℝ) (hl : l ≠ []) :
    ∃ m ∈ l, npMin (l.map Fl.fin) = some (Fl.fin m) ∧ ∀ y ∈ l, m ≤ y := by
  obtain ⟨m, hm, h1, h2⟩ := npMax_fin (l.map fun x => -x) (by simpa using hl)
  obtain ⟨m', hm', rfl⟩ := List.mem_map.1 hm
  refine ⟨m', hm', ?_, fun y hy => ?_⟩
  · unfold npMin
    have e : ((l.map Fl.fin).map fun a : Fl ℝ => -a) = (l.map fun x => -x).map Fl.fin := by
      rw [List.map_map, List.map_map]; rfl
    rw [e, h1]
    show some (Fl.fin (- -m')) = _
    rw [neg_neg]
  · have := h2 (-y) (List.mem_map_of_mem hy)
    linarith

/-- A model with a NaN everywhere cannot be given axes. -/
theorem plotYlim_nan (xs : List ℝ) : plotYlim (xs.map fun _ => Fl.nan) = .error .valueError := by
  unfold plotYlim
  cases xs with
  | nil => rfl
  | cons x xs =>
    have : npMax ((x :: xs).map fun _ => (Fl.nan : Fl ℝ)) = some Fl.nan := by
      rw [List.map_cons, npMax, foldl_npMax2_nan]
    rw [this]

theorem plotYlim_fin (l : List ℝ) (hl : l ≠ []) : ∃ lo ∈ l, ∃ hi ∈ l, (∀ y ∈ l, lo ≤ y ∧ y ≤ hi) ∧
    plotYlim (l.map Fl.fin) = .ok (lo - (hi - lo) * 0.15, hi + (hi - lo) * 0.15) := by
  obtain ⟨hi, h1, h2, h3⟩ := npMax_fin l hl
  obtain ⟨lo, h4, h5, h6⟩ := npMin_fin l hl
  refine ⟨lo, h4, hi, h1, fun y hy => ⟨h6 y hy, h3 y hy⟩, ?_⟩
  unfold plotYlim
  rw [h2, h5]
  simp only
  rw [abs_of_nonneg (by have := h6 hi h1; linarith)]

theorem plotXlim_ok (pix : List Pix) (hp : pix ≠ []) : ∃ lo hi, (∃ p ∈ pix, p.wave = lo) ∧ (∃ p ∈ pix, p.wave = hi) ∧
    (∀ p ∈ pix, lo ≤ p.wave ∧ p.wave ≤ hi) ∧ plotXlim pix = .ok (lo - 20, hi + 20) := by
  have hne : pix.map Pix.wave ≠ [] := by simpa using hp
  unfold plotXlim
  obtain ⟨lo, h1⟩ := Option.isSome_iff_exists.1 (List.isSome_min?_of_ne_nil hne)
  obtain ⟨hi, h2⟩ := Option.isSome_iff_exists.1 (List.isSome_max?_of_ne_nil hne)
  rw [h1, h2]
  rw [List.min?_eq_some_iff] at h1
  rw [List.max?_eq_some_iff] at h2
  obtain ⟨p, hp1, hp2⟩ := List.mem_map.1 h1.1
  obtain ⟨q, hq1, hq2⟩ := List.mem_map.1 h2.1
  exact ⟨lo, hi, ⟨p, hp1, hp2⟩, ⟨q, hq1, hq2⟩, fun x hx =>
    ⟨h1.2 _ (List.mem_map_of_mem hx), h2.2 _ (List.mem_map_of_mem hx)⟩, rfl⟩

end Misfit
