import Verif.Lemmas.Trim
import Mathlib.Data.Rat.Defs
import Mathlib.Algebra.Order.Field.Rat
import Mathlib.Tactic.NormNum

/-!
# C19, C20, C54: trimming
-/

namespace Misfit
variable {K : Type} [Field K] [LinearOrder K] {α : Type}

/-! ## C19 -/

/-- A spectrum whose arrays all have the width of the wavelength grid. -/
structure Spec2D.WellShaped (s : Spec2D K α) (w : List K) (f e m wt : List (List α)) : Prop where
  wave : s.wave = some w
  obswave : s.obswave = some w
  flux : s.flux = some f
  err : s.err = some e
  mask : s.mask = some m
  weight : s.weight = some wt
  width : ∀ img ∈ [f, e, m, wt], ∀ row ∈ img, row.length = w.length

/-- C19: the closed observed range selects the same columns in every array, in order. -/
theorem C19_exact_columns (s : Spec2D K α) (w : List K) (f e m wt : List (List α))
    (hs : s.WellShaped w f e m wt) (z lo hi : K)
    (lookup : Option (Except PyErr (K × K))) (inplace : Bool) :
    ∃ s', trimWavelength2D (some s) z none (some (lo, hi)) lookup inplace = .ok (some s') ∧
      s'.trimObs = some (lo, hi) ∧
      ((∃ x ∈ w, lo ≤ x ∧ x ≤ hi) →
        s'.wave = some (w.filter fun x => decide (lo ≤ x ∧ x ≤ hi)) ∧
        s'.obswave = s'.wave ∧
        s'.flux = some (f.map (inRange lo hi w)) ∧ s'.err = some (e.map (inRange lo hi w)) ∧
        s'.mask = some (m.map (inRange lo hi w)) ∧ s'.weight = some (wt.map (inRange lo hi w))) ∧
      ((¬ ∃ x ∈ w, lo ≤ x ∧ x ≤ hi) →
        s'.wave = none ∧ s'.flux = none ∧ s'.err = none ∧ s'.mask = none ∧ s'.weight = none) := by
  obtain ⟨h1, h2, h3, h4, h5, h6, h7⟩ := hs
  have hw : inRange lo hi w w = w.filter fun x => decide (lo ≤ x ∧ x ≤ hi) := by
    unfold inRange
    clear h1 h2 h7
    induction w with
    | nil => rfl
    | cons x w ih =>
      rw [List.zip_cons_cons, List.filter_cons, List.filter_cons]
      by_cases hx : lo ≤ x ∧ x ≤ hi
      · simp only [hx, and_self, decide_true, if_true, List.map_cons, ih]
      · simp only [hx, decide_false, Bool.false_eq_true, if_false, ih]
  have hf := fancyCols_whRange lo hi w f (h7 f (by simp))
  have he := fancyCols_whRange lo hi w e (h7 e (by simp))
  have hm := fancyCols_whRange lo hi w m (h7 m (by simp))
  have hwt := fancyCols_whRange lo hi w wt (h7 wt (by simp))
  have hww := fancyIndex_whRange lo hi w w rfl
  simp only [trimWavelength2D, trimRanges, trimSelect, h2]
  by_cases hne : 0 < (whRange w lo hi).length
  · rw [if_pos hne]
    simp only [h1, h3, h4, h5, h6, hww, optCols, optIndex, hf, he, hm, hwt, bind, Except.bind, Except.map]
    refine ⟨_, rfl, ?_, fun _ => ?_, fun h => absurd ((whRange_ne_nil lo hi w).1 hne) h⟩
    · cases inplace
      · rfl
      · simp only [calcRestwave, if_true]; split <;> rfl
    · cases inplace
      · simp [calcRestwave, hw]
      · simp only [calcRestwave, if_true, hw]
        split <;> simp
  · rw [if_neg hne]
    exact ⟨_, rfl, rfl, fun h => absurd ((whRange_ne_nil lo hi w).2 h) hne,
      fun _ => ⟨rfl, rfl, rfl, rfl, rfl⟩⟩

/-- C19: in place, the continuum arrays follow; on a copy they keep the full width. -/
theorem C19_continuum_arrays (s : Spec2D K α) (w : List K) (f e m wt ic cm : List (List α))
    (hs : s.WellShaped w f e m wt) (hic : s.inclCont = some ic) (hcm : s.contModel = some cm)
    (hw : ∀ row ∈ ic ++ cm, row.length = w.length) (z lo hi : K)
    (hne : ∃ x ∈ w, lo ≤ x ∧ x ≤ hi) (lookup : Option (Except PyErr (K × K))) :
    (∃ s', trimWavelength2D (some s) z none (some (lo, hi)) lookup true = .ok (some s') ∧
      s'.inclCont = some (ic.map (inRange lo hi w)) ∧
      s'.contModel = some (cm.map (inRange lo hi w))) ∧
    (∃ s', trimWavelength2D (some s) z none (some (lo, hi)) lookup false = .ok (some s') ∧
      s'.inclCont = some ic ∧ s'.contModel = some cm) := by
  obtain ⟨h1, h2, h3, h4, h5, h6, h7⟩ := hs
  have hf := fancyCols_whRange lo hi w f (h7 f (by simp))
  have he := fancyCols_whRange lo hi w e (h7 e (by simp))
  have hm := fancyCols_whRange lo hi w m (h7 m (by simp))
  have hwt := fancyCols_whRange lo hi w wt (h7 wt (by simp))
  have hww := fancyIndex_whRange lo hi w w rfl
  have hi1 := fancyCols_whRange lo hi w ic (fun row h => hw row (by simp [h]))
  have hi2 := fancyCols_whRange lo hi w cm (fun row h => hw row (by simp [h]))
  have hne' := (whRange_ne_nil lo hi w).2 hne
  simp only [trimWavelength2D, trimRanges, trimSelect, h2, if_pos hne', h1, h3, h4, h5, h6, hww,
    optCols, optIndex, hf, he, hm, hwt, bind, Except.bind, Except.map, hic, hcm, hi1, hi2, if_true]
  exact ⟨⟨_, rfl, rfl, rfl⟩, ⟨_, rfl, rfl, rfl⟩⟩

/-- C19: the rest wavelengths and the recorded rest-frame range follow; without any column in the range the observed
and rest wavelengths stay as they were, next to missing wavelengths and fluxes. -/
theorem C19_restwave (s : Spec2D K α) (w : List K) (f e m wt : List (List α))
    (hs : s.WellShaped w f e m wt) (z lo hi : K) (hz : 1 + z ≠ 0)
    (lookup : Option (Except PyErr (K × K))) (inplace : Bool) (s' : Spec2D K α)
    (h : trimWavelength2D (some s) z none (some (lo, hi)) lookup inplace = .ok (some s')) :
    s'.trimRest = some (.fin (lo / (1 + z)), .fin (hi / (1 + z))) ∧
    ((∃ x ∈ w, lo ≤ x ∧ x ≤ hi) →
      s'.restwave = some ((w.filter fun x => decide (lo ≤ x ∧ x ≤ hi)).map fun x => .fin (x / (1 + z)))) ∧
    ((¬ ∃ x ∈ w, lo ≤ x ∧ x ≤ hi) → s'.obswave = some w ∧ s'.restwave = s.restwave) := by
  have hdiv : ∀ x : K, Fl.fin x / Fl.fin (1 + z) = Fl.fin (x / (1 + z)) := fun x => by
    show Fl.div _ _ = _
    simp [Fl.div, hz]
  obtain ⟨s1, h1, -, hin, -⟩ := C19_exact_columns s w f e m wt hs z lo hi lookup inplace
  rw [h] at h1
  obtain rfl := Option.some.inj (Except.ok.inj h1)
  simp only [trimWavelength2D, trimRanges, trimSelect, hs.obswave, hdiv] at h
  by_cases hne : 0 < (whRange w lo hi).length
  · have hex := (whRange_ne_nil lo hi w).1 hne
    obtain ⟨hwv, -⟩ := hin hex
    have hf := fancyCols_whRange lo hi w f (hs.width f (by simp))
    have he := fancyCols_whRange lo hi w e (hs.width e (by simp))
    have hm := fancyCols_whRange lo hi w m (hs.width m (by simp))
    have hwt := fancyCols_whRange lo hi w wt (hs.width wt (by simp))
    have hww := fancyIndex_whRange lo hi w w rfl
    rw [if_pos hne] at h
    simp only [hs.wave, hs.flux, hs.err, hs.mask, hs.weight, hww, optCols, optIndex, hf, he, hm, hwt, bind,
      Except.bind, Except.map, calcRestwave, hdiv] at h
    obtain rfl := Option.some.inj (Except.ok.inj h)
    refine ⟨?_, fun _ => ?_, fun hn => absurd hex hn⟩
    · cases inplace
      · rfl
      · simp only [if_true]; split <;> rfl
    · have hin' : inRange lo hi w w = w.filter fun x => decide (lo ≤ x ∧ x ≤ hi) := by
        refine Option.some.inj ?_
        cases inplace
        · exact hwv
        · simp only [if_true] at hwv; split at hwv <;> exact hwv
      rw [hin']
  · have hex := fun h' => hne ((whRange_ne_nil lo hi w).2 h')
    rw [if_neg hne] at h
    obtain rfl := Option.some.inj (Except.ok.inj h)
    exact ⟨rfl, fun h' => absurd h' hex, fun _ => ⟨rfl, rfl⟩⟩

/-- C19: a rest-frame range gives the same outcome (result or exception) as the range times
(1+z) in the observed frame, up to the recorded rest-frame range. -/
theorem C19_rest_frame (s : Option (Spec2D K α)) (z lo hi : K) (lookup) (inplace : Bool) :
    (trimWavelength2D s z (some (lo, hi)) none lookup inplace).map
        (Option.map fun t => { t with trimRest := none }) =
    (trimWavelength2D s z none (some (lo * (1 + z), hi * (1 + z))) lookup inplace).map
        (Option.map fun t => { t with trimRest := none }) := by
  cases s with
  | none => rfl
  | some s =>
  simp only [trimWavelength2D, trimRanges]
  unfold trimSelect
  rcases s.obswave with _ | ow
  · rfl
  simp only
  by_cases hne : 0 < (whRange ow (lo * (1 + z)) (hi * (1 + z))).length
  · rw [if_pos hne, if_pos hne]
    generalize whRange ow (lo * (1 + z)) (hi * (1 + z)) = wh
    rcases optIndex s.wave wh with er | w
    · rfl
    rcases optCols s.flux wh with er | f
    · rfl
    rcases optCols s.err wh with er | e
    · rfl
    rcases optCols s.mask wh with er | m
    · rfl
    rcases optCols s.weight wh with er | wt
    · rfl
    cases inplace
    · rfl
    · rcases optCols s.inclCont wh with _ | a <;> rcases optCols s.contModel wh with _ | b <;> rfl
  · rw [if_neg hne, if_neg hne]; rfl

/-- C19: both ranges, or no range and no table entry, raise ValueError; no spectrum gives
`None`. -/
theorem C19_errors (s : Option (Spec2D K α)) (z : K) (a b : K × K) (lookup) (inplace : Bool) :
    trimWavelength2D s z (some a) (some b) lookup inplace = .error .valueError ∧
    trimWavelength2D s z none none none inplace = .error .valueError ∧
    trimWavelength2D (α := α) none z (some a) none lookup inplace = .ok none := by
  refine ⟨?_, ?_, ?_⟩
  · simp [trimWavelength2D, trimRanges]
  · simp [trimWavelength2D, trimRanges]
  · obtain ⟨a1, a2⟩ := a
    simp [trimWavelength2D, trimRanges]

/-- C19, arrays of any sizes: trimming returns a spectrum exactly if every pixel selected by the wavelengths exists in
the wavelength array and in every row of flux, error, mask and weight; otherwise it raises IndexError. -/
theorem C19_sizes (s : Spec2D K α) (ow w : List K) (f e m wt : List (List α)) (h1 : s.obswave = some ow)
    (h2 : s.wave = some w) (h3 : s.flux = some f) (h4 : s.err = some e) (h5 : s.mask = some m)
    (h6 : s.weight = some wt) (z lo hi : K) (lookup : Option (Except PyErr (K × K))) (inplace : Bool) :
    ((∃ s', trimWavelength2D (some s) z none (some (lo, hi)) lookup inplace = .ok (some s')) ↔
      ∀ k x, ow[k]? = some x → lo ≤ x → x ≤ hi →
        k < w.length ∧ ∀ img ∈ [f, e, m, wt], ∀ row ∈ img, k < row.length) ∧
    ((¬ ∃ s', trimWavelength2D (some s) z none (some (lo, hi)) lookup inplace = .ok (some s')) →
      trimWavelength2D (some s) z none (some (lo, hi)) lookup inplace = .error .indexError) := by
  have hmem := fun k => mem_whRange ow lo hi k
  simp only [trimWavelength2D, trimRanges, trimSelect, h1]
  by_cases hne : (whRange ow lo hi).length > 0
  · rw [if_pos hne]
    generalize whRange ow lo hi = wh at hmem
    simp only [optIndex, optCols, h2, h3, h4, h5, h6]
    have step : ∀ {P : Prop} {r : Except PyErr (Option (Spec2D K α))},
        (P ∧ ∃ s', r = .ok (some s')) ∨ (¬ P ∧ r = .error .indexError) →
        ((∃ s', r = .ok (some s')) ↔ P) ∧ ((¬ ∃ s', r = .ok (some s')) → r = .error .indexError) := by
      rintro P r (⟨hp, s', h⟩ | ⟨hp, h⟩)
      · exact ⟨⟨fun _ => hp, fun _ => ⟨s', h⟩⟩, fun hn => absurd ⟨s', h⟩ hn⟩
      · exact ⟨⟨fun ⟨s', h'⟩ => by rw [h] at h'; (cases h'), fun h => absurd h hp⟩, fun _ => h⟩
    refine step ?_
    have bad : ∀ (k : Nat) (P : Prop), k ∈ wh →
        ((k < w.length ∧ ∀ img ∈ [f, e, m, wt], ∀ row ∈ img, k < row.length) → False) →
        ¬ ∀ k x, ow[k]? = some x → lo ≤ x → x ≤ hi →
          k < w.length ∧ ∀ img ∈ [f, e, m, wt], ∀ row ∈ img, k < row.length := by
      intro k _ hk h hall
      obtain ⟨x, hx, h1, h2⟩ := (hmem k).1 hk
      exact h (hall k x hx h1 h2)
    rcases fancyIndex_cases w wh with ⟨hw, w', ew⟩ | ⟨⟨k, hk, hlt⟩, ew⟩
    swap
    · rw [ew]
      exact .inr ⟨bad k True hk fun h => absurd h.1 (by omega), rfl⟩
    rw [ew]
    rcases fancyCols_cases f wh with ⟨hf, f', ef⟩ | ⟨⟨row, hrow, k, hk, hlt⟩, ef⟩
    swap
    · rw [ef]
      exact .inr ⟨bad k True hk fun h => absurd (h.2 f (by simp) row hrow) (by omega), rfl⟩
    rw [ef]
    rcases fancyCols_cases e wh with ⟨he, e', ee⟩ | ⟨⟨row, hrow, k, hk, hlt⟩, ee⟩
    swap
    · rw [ee]
      exact .inr ⟨bad k True hk fun h => absurd (h.2 e (by simp) row hrow) (by omega), rfl⟩
    rw [ee]
    rcases fancyCols_cases m wh with ⟨hm, m', em⟩ | ⟨⟨row, hrow, k, hk, hlt⟩, em⟩
    swap
    · rw [em]
      exact .inr ⟨bad k True hk fun h => absurd (h.2 m (by simp) row hrow) (by omega), rfl⟩
    rw [em]
    rcases fancyCols_cases wt wh with ⟨hwt, wt', ewt⟩ | ⟨⟨row, hrow, k, hk, hlt⟩, ewt⟩
    swap
    · rw [ewt]
      exact .inr ⟨bad k True hk fun h => absurd (h.2 wt (by simp) row hrow) (by omega), rfl⟩
    rw [ewt]
    refine .inl ⟨fun k x hx h1 h2 => ?_, _, rfl⟩
    have hk := (hmem k).2 ⟨x, hx, h1, h2⟩
    refine ⟨hw k hk, fun img hi row hr => ?_⟩
    simp only [List.mem_cons, List.not_mem_nil, or_false] at hi
    rcases hi with rfl | rfl | rfl | rfl
    · exact hf row hr k hk
    · exact he row hr k hk
    · exact hm row hr k hk
    · exact hwt row hr k hk
  · rw [if_neg hne]
    refine ⟨⟨fun _ k x hx h1 h2 => ?_, fun _ => ⟨_, rfl⟩⟩, fun hn => absurd ⟨_, rfl⟩ hn⟩
    exact absurd (List.length_pos_of_mem ((hmem k).2 ⟨x, hx, h1, h2⟩)) hne

/-- a row of the image is one pixel short -/
example : trimWavelength2D (K := ℚ) (α := ℕ) (some
    { wave := some [1, 2], obswave := some [1, 2], restwave := none, flux := some [[1, 2], [4]],
      err := some [[1, 1], [1, 1]], mask := some [[1, 1], [1, 1]], weight := some [[1, 1], [1, 1]],
      inclCont := none, contModel := none, trimObs := none, trimRest := none }) 0 none (some (2, 3)) none true =
    .error .indexError :=
  (C19_sizes _ [1, 2] [1, 2] [[1, 2], [4]] [[1, 1], [1, 1]] [[1, 1], [1, 1]] [[1, 1], [1, 1]] rfl rfl rfl rfl rfl rfl
    0 2 3 none true).2 fun h => by
      have := ((C19_sizes _ [1, 2] [1, 2] [[1, 2], [4]] [[1, 1], [1, 1]] [[1, 1], [1, 1]] [[1, 1], [1, 1]] rfl rfl rfl
        rfl rfl rfl 0 2 3 none true).1.1 h 1 2 rfl (by norm_num) (by norm_num)).2 [[1, 2], [4]] (by simp) [4] (by simp)
      simp at this

/-- a concrete well-shaped spectrum and its trimming -/
example : Spec2D.WellShaped (K := ℚ) (α := ℕ)
    { wave := some [1, 2, 3], obswave := some [1, 2, 3], restwave := none,
      flux := some [[1, 2, 3], [4, 5, 6]], err := some [[1, 1, 1], [1, 1, 1]],
      mask := some [[1, 1, 1], [1, 1, 1]], weight := some [[1, 1, 1], [1, 1, 1]],
      inclCont := none, contModel := none, trimObs := none, trimRest := none }
    [1, 2, 3] [[1, 2, 3], [4, 5, 6]] [[1, 1, 1], [1, 1, 1]] [[1, 1, 1], [1, 1, 1]]
    [[1, 1, 1], [1, 1, 1]] ∧
    [[1, 2, 3], [4, 5, 6]].map (inRange (2 : ℚ) 3 [1, 2, 3]) = [[2, 3], [5, 6]] := by
  refine ⟨⟨rfl, rfl, rfl, rfl, rfl, rfl, ?_⟩, by decide +kernel⟩
  decide

/-! ## C54: 1D trimming -/

/-- C54 is false: with the redshift held as a plain Python number (as set by a user, e.g.
`galaxy.z = 2.1`), trimming a 1D spectrum to a rest-frame range always raises AttributeError. -/
theorem C54_false (s : Option (Spec1D K α)) (z : K) (rest : K × K) (lookup) :
    trimSpectrum1D s (some (.plain z)) (some rest) none lookup = .error .attributeError := by
  cases s <;> rfl

/-- C54, the part that holds: with a numpy redshift a rest-frame range selects exactly the
columns whose observed wavelength is in the range times (1+z), in all four arrays. -/
theorem C54_trim_1D_partial (w : List K) (f e m : List α) (rw' : Option (List (Fl K))) (z lo hi : K)
    (hf : f.length = w.length) (he : e.length = w.length) (hm : m.length = w.length)
    (hne : ∃ x ∈ w, lo * (1 + z) ≤ x ∧ x ≤ hi * (1 + z)) (lookup) :
    ∃ s', trimSpectrum1D (some ⟨some w, some w, rw', some f, some e, some m⟩) (some (.numpy z))
        (some (lo, hi)) none lookup = .ok (some s') ∧
      s'.wave = some (inRange (lo * (1 + z)) (hi * (1 + z)) w w) ∧ s'.obswave = s'.wave ∧
      s'.flux = some (inRange (lo * (1 + z)) (hi * (1 + z)) w f) ∧
      s'.err = some (inRange (lo * (1 + z)) (hi * (1 + z)) w e) ∧
      s'.mask = some (inRange (lo * (1 + z)) (hi * (1 + z)) w m) := by
  have hne' := (whRange_ne_nil _ _ w).2 hne
  have h1 := fancyIndex_whRange (lo * (1 + z)) (hi * (1 + z)) w w rfl
  have h2 := fancyIndex_whRange (lo * (1 + z)) (hi * (1 + z)) w f hf.symm
  have h3 := fancyIndex_whRange (lo * (1 + z)) (hi * (1 + z)) w e he.symm
  have h4 := fancyIndex_whRange (lo * (1 + z)) (hi * (1 + z)) w m hm.symm
  simp only [trimSpectrum1D, bind, Except.bind, if_pos hne', optIndex, h1, h2, h3, h4]
  exact ⟨_, rfl, rfl, rfl, rfl, rfl, rfl⟩

/-- C54, exactly: trimming a spectrum to a rest-frame range gives the pixels of the range if and only if the redshift is
a numpy number and there is a pixel in the range.  With a plain redshift it raises AttributeError; without a pixel in the
range it empties the arrays. -/
theorem C54_exact (w : List K) (f e m : List α) (rw' : Option (List (Fl K))) (z : PyNum K) (lo hi : K)
    (hf : f.length = w.length) (he : e.length = w.length) (hm : m.length = w.length) (lookup) :
    ((∃ s' a b, trimSpectrum1D (some ⟨some w, some w, rw', some f, some e, some m⟩) (some z)
        (some (lo, hi)) none lookup = .ok (some s') ∧ s'.wave = some (inRange a b w w) ∧
          s'.flux = some (inRange a b w f)) ↔
      ∃ zz, z = .numpy zz ∧ ∃ x ∈ w, lo * (1 + zz) ≤ x ∧ x ≤ hi * (1 + zz)) ∧
    (∀ zz, z = .numpy zz → (∀ x ∈ w, ¬ (lo * (1 + zz) ≤ x ∧ x ≤ hi * (1 + zz))) →
      trimSpectrum1D (some ⟨some w, some w, rw', some f, some e, some m⟩) (some z) (some (lo, hi)) none lookup =
        .ok (some ⟨none, some w, rw', none, none, none⟩)) ∧
    (∀ zz, z = .plain zz →
      trimSpectrum1D (some ⟨some w, some w, rw', some f, some e, some m⟩) (some z) (some (lo, hi)) none lookup =
        .error .attributeError) := by
  have hempty : ∀ zz, (∀ x ∈ w, ¬ (lo * (1 + zz) ≤ x ∧ x ≤ hi * (1 + zz))) →
      trimSpectrum1D (some ⟨some w, some w, rw', some f, some e, some m⟩) (some (.numpy zz)) (some (lo, hi)) none
        lookup = .ok (some ⟨none, some w, rw', none, none, none⟩) := by
    intro zz hn
    have hne' : ¬ (whRange w (lo * (1 + zz)) (hi * (1 + zz))).length > 0 := by
      intro h
      obtain ⟨x, hx, h⟩ := (whRange_ne_nil _ _ w).1 h
      exact hn x hx h
    simp only [trimSpectrum1D, bind, Except.bind, if_neg hne']
  refine ⟨⟨?_, ?_⟩, fun zz hz hn => by rw [hz]; exact hempty zz hn, fun zz hz => by rw [hz]; exact C54_false _ _ _ _⟩
  · rintro ⟨s', a, b, h, hw, -⟩
    cases z with
    | plain zz => rw [C54_false] at h; cases h
    | numpy zz =>
      refine ⟨zz, rfl, ?_⟩
      by_contra hn
      push Not at hn
      rw [hempty zz (fun x hx h => absurd h.2 (not_le.2 (hn x hx h.1)))] at h
      cases h
      cases hw
  · rintro ⟨zz, rfl, hne⟩
    obtain ⟨s', h, h1, -, h2, -⟩ := C54_trim_1D_partial w f e m rw' zz lo hi hf he hm hne lookup
    exact ⟨s', _, _, h, h1, h2⟩

example : ∃ s', trimSpectrum1D (K := ℚ) (α := ℕ)
    (some ⟨some [2, 4, 6], some [2, 4, 6], none, some [1, 2, 3], some [1, 1, 1], some [1, 1, 1]⟩)
    (some (.numpy 1)) (some (2, 3)) none (.error .valueError) = .ok (some s') ∧
    s'.flux = some [2, 3] :=
  ⟨{ wave := some [4, 6], obswave := some [4, 6], restwave := some [.fin 2, .fin 3],
     flux := some [2, 3], err := some [1, 1], mask := some [1, 1] }, by
     have e : whRange ([2, 4, 6] : List ℚ) (2 * (1 + 1)) (3 * (1 + 1)) = [1, 2] := by decide +kernel
     simp only [trimSpectrum1D, bind, Except.bind, e, optIndex]
     have d : (Fl.fin 4 / Fl.fin (1 + 1) : Fl ℚ) = .fin 2 ∧ (Fl.fin 6 / Fl.fin (1 + 1) : Fl ℚ) = .fin 3 := by
       decide +kernel
     simp [fancyIndex, getIdx, d.1, d.2, pure, Except.pure, bind, Except.bind], rfl⟩

/-! ## C20 -/

/-- C20, the part that holds: the same rows `l ≤ · < r` are cut from every array and from the 1D profile, noisy rows are looked for among
them, and the object centre and the position shift by the number of rows removed at the bottom. Missing: without
dithering the last row is lost, see `C20_false`. -/
theorem C20_lockstep_partial (s : SpatialSpec K α) (dither : Bool) (m0 : K) (mMin mMax : Int) (rc) :
    let s' := trimSpatial s dither m0 mMin mMax rc
    let l := s'.fullL
    0 ≤ l ∧
    (∀ p ∈ [(s'.flux, s.flux), (s'.err, s.err), (s'.inclCont, s.inclCont),
        (s'.contModel, s.contModel), (s'.weight, s.weight), (s'.mask, s.mask),
        (s'.maskQual, s.maskQual), (s'.maskSky, s.maskSky), (s'.maskLowSnr, s.maskLowSnr)],
      p.2.length = s.flux.length →
      ∀ k : Nat, p.1[k]? =
        if l.toNat + k < pySliceBound s.flux.length s'.fullR then p.2[l.toNat + k]? else none) ∧
    s'.m0 = m0 - (l : K) ∧ s'.ypos = s.ypos - (l : K) ∧ s'.fullM0 = m0 ∧
    s'.mLims = (0, (s'.flux.length : Int)) ∧ s'.nSpatial = s'.flux.length ∧
    (dither = true → l = max 0 mMin ∧ s'.fullR = min ((s.flux.length : Int) - 1) mMax) ∧
    s'.lowRows = rc s'.flux s'.err s'.maskQual s'.maskSky ∧ s'.profile1D.isSome = s.profile1D.isSome ∧
    (∀ p p', s.profile1D = some p → s'.profile1D = some p' → p.length = s.flux.length →
      ∀ k : Nat, p'[k]? = if l.toNat + k < pySliceBound s.flux.length s'.fullR then p[l.toNat + k]? else none) := by
  have hl : 0 ≤ (trimRows dither s.flux.length mMin mMax).1 := by
    unfold trimRows; split <;> simp
  refine ⟨hl, ?_, rfl, rfl, rfl, rfl, rfl, ?_, rfl, Option.isSome_map, ?_⟩
  · intro p hp hlen k
    simp only [List.mem_cons, List.not_mem_nil, or_false] at hp
    rw [← hlen]
    rcases hp with rfl | rfl | rfl | rfl | rfl | rfl | rfl | rfl | rfl <;>
      exact pySlice_getElem? _ _ _ hl k
  · intro hd
    simp [trimSpatial, trimRows, hd]
  · intro p p' hp hp' hlen k
    have e : some p' = some (pySlice p (trimRows dither s.flux.length mMin mMax).1 (trimRows dither s.flux.length mMin mMax).2) := by
      rw [← hp']
      show s.profile1D.map _ = _
      rw [hp]
      rfl
    cases e
    have := pySlice_getElem? p _ (trimRows dither s.flux.length mMin mMax).2 hl k
    rw [hlen] at this
    exact this

/-- C20 is false: without dithering the last row is always removed (and nothing else). -/
theorem C20_false (s : SpatialSpec K α) (m0 : K) (mMin mMax : Int) (rc)
    (h : 0 < s.flux.length) :
    (trimSpatial s false m0 mMin mMax rc).flux = s.flux.take (s.flux.length - 1) ∧
    (trimSpatial s false m0 mMin mMax rc).flux ≠ s.flux := by
  have h1 : (trimSpatial s false m0 mMin mMax rc).flux = s.flux.take (s.flux.length - 1) := by
    have : pySliceBound s.flux.length ((s.flux.length : Int) - 1) = s.flux.length - 1 := by
      unfold pySliceBound
      rw [if_neg (by omega)]
      omega
    have h0 : pySliceBound s.flux.length 0 = 0 := by simp [pySliceBound]
    simp only [trimSpatial, trimRows, pySlice, Bool.false_eq_true, if_false, this, h0, List.drop_zero]
  refine ⟨h1, fun h2 => ?_⟩
  have := congrArg List.length (h1.symm.trans h2)
  rw [List.length_take] at this
  omega

/-- with dithering and limits beyond the image the last row is lost as well -/
theorem C20_false_dither (s : SpatialSpec K α) (m0 : K) (mMin mMax : Int) (rc)
    (h1 : mMin ≤ 0) (h2 : (s.flux.length : Int) ≤ mMax) (h : 0 < s.flux.length) :
    (trimSpatial s true m0 mMin mMax rc).flux = s.flux.take (s.flux.length - 1) := by
  have : pySliceBound s.flux.length ((s.flux.length : Int) - 1) = s.flux.length - 1 := by
    unfold pySliceBound
    rw [if_neg (by omega)]
    omega
  have hm : min ((s.flux.length : Int) - 1) mMax = (s.flux.length : Int) - 1 := by omega
  have hl : max 0 mMin = 0 := by omega
  have h0 : pySliceBound s.flux.length 0 = 0 := by simp [pySliceBound]
  simp only [trimSpatial, trimRows, pySlice, if_true, hm, hl, this, h0, List.drop_zero]

/-- C20, exactly: no row is removed if and only if there is none, with dithering or without. -/
theorem C20_exact (s : SpatialSpec K α) (dither : Bool) (m0 : K) (mMin mMax : Int) (rc) :
    (trimSpatial s dither m0 mMin mMax rc).flux = s.flux ↔ s.flux = [] := by
  constructor
  · intro h
    by_contra hne
    have hlen : 0 < s.flux.length := List.length_pos_iff.2 hne
    have hle : (trimRows dither s.flux.length mMin mMax).2 ≤ (s.flux.length : Int) - 1 := by
      unfold trimRows
      split
      · exact min_le_left _ _
      · exact le_refl _
    have hb : pySliceBound s.flux.length (trimRows dither s.flux.length mMin mMax).2 < s.flux.length := by
      unfold pySliceBound
      split <;> omega
    have h1 : (trimSpatial s dither m0 mMin mMax rc).flux =
      pySlice s.flux (trimRows dither s.flux.length mMin mMax).1 (trimRows dither s.flux.length mMin mMax).2 := rfl
    have := congrArg List.length (h1.symm.trans h)
    unfold pySlice at this
    rw [List.length_drop, List.length_take] at this
    omega
  · intro h
    have h1 : (trimSpatial s dither m0 mMin mMax rc).flux =
      pySlice s.flux (trimRows dither s.flux.length mMin mMax).1 (trimRows dither s.flux.length mMin mMax).2 := rfl
    rw [h1, h]
    simp [pySlice]

example : pySlice [10, 11, 12, 13, 14] (max 0 1) (min 4 9) = [11, 12, 13] := by decide

end Misfit
