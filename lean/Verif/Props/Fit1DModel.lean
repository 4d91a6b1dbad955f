import Verif.Props.Fit1DUse
import Verif.Props.Trim
import Verif.Props.Masks

/-!
# C138-C140: the stored model, explicit lines, and which line lists can be set up
-/

namespace Misfit

/-! ## C138: the stored model is the fitted model -/

/-- The values of a model array at the pixels with mask 1 -/
noncomputable def atGood (pix : List Pix) (model : List (Fl ℝ)) : List (Fl ℝ) :=
  ((pix.zip model).filter fun p => decide (p.1.mask = 1)).map Prod.snd

/-- The pixels that are fitted -/
noncomputable def goodPix (pix : List Pix) : List Pix := pix.filter fun p => decide (p.mask = 1)

theorem lineShape_congr (mu sig x0 x0' x : ℝ) (h : |x0 - mu| = |x0' - mu|) :
    lineShape mu sig x0 x = lineShape mu sig x0' x := by
  unfold lineShape normalDensity1D
  have : (x0 - mu) ^ 2 = (x0' - mu) ^ 2 := by rw [← sq_abs, h, sq_abs]
  rw [this]

theorem setShape_congr (z velDisp x : ℝ) : ∀ (lines : List (ℝ × ℝ)) (a b : List ℝ),
    List.Forall₂ (fun (l : ℝ × ℝ) (p : ℝ × ℝ) => |p.1 - l.1 * (1 + z)| = |p.2 - l.1 * (1 + z)|)
      lines (a.zip b) → a.length = b.length →
    setShape z velDisp lines a x = setShape z velDisp lines b x
  | [], _, _, _, _ => by simp [setShape]
  | _ :: _, [], [], h, _ => by cases h
  | _ :: _, [], _ :: _, _, hl => by simp at hl
  | _ :: _, _ :: _, [], _, hl => by simp at hl
  | l :: lines, a :: as, b :: bs, h, hl => by
      rw [List.zip_cons_cons, List.forall₂_cons] at h
      rw [setShape, setShape, lineShape_congr _ _ a b x h.1,
        setShape_congr z velDisp x lines as bs h.2 (by simpa using hl)]

/-- Nearest pixels of two arrays are equally near if the first array is part of the second and has
one that is as near as any of the second. -/
theorem nearestAll_congr (xs ys : List ℝ) (z : ℝ) (hsub : ∀ x ∈ xs, x ∈ ys) :
    ∀ (lines : List (ℝ × ℝ)) (a b : List ℝ), NearestAll xs z lines a → NearestAll ys z lines b →
    (∀ l ∈ lines, ∃ x ∈ xs, ∀ y ∈ ys, |x - l.1 * (1 + z)| ≤ |y - l.1 * (1 + z)|) →
    List.Forall₂ (fun (l : ℝ × ℝ) (p : ℝ × ℝ) => |p.1 - l.1 * (1 + z)| = |p.2 - l.1 * (1 + z)|)
      lines (a.zip b) ∧ a.length = b.length
  | [], a, b, ha, hb, _ => by cases ha; cases hb; exact ⟨.nil, rfl⟩
  | l :: lines, a, b, ha, hb, hn => by
      cases ha with
      | cons ha1 ha2 =>
        cases hb with
        | cons hb1 hb2 =>
          rename_i x0 as y0 bs
          obtain ⟨h1, h2⟩ := nearestAll_congr xs ys z hsub lines as bs ha2 hb2
            (fun l' hl' => hn l' (by simp [hl']))
          obtain ⟨x, hx, hmin⟩ := hn l (by simp)
          refine ⟨?_, by simp [h2]⟩
          rw [List.zip_cons_cons]
          refine .cons ?_ h1
          exact le_antisymm ((ha1.2 x hx).trans (hmin y0 hb1.1)) (hb1.2 x0 (hsub x0 ha1.1))

theorem linesSum_congr (xs ys : List ℝ) (z velDisp x : ℝ) (hsub : ∀ x ∈ xs, x ∈ ys) :
    ∀ (sets : List (List (ℝ × ℝ))) (fluxes : List ℝ) (a b : List (List ℝ)),
    List.Forall₂ (NearestAll xs z) sets a → List.Forall₂ (NearestAll ys z) sets b →
    (∀ ls ∈ sets, ∀ l ∈ ls, ∃ x ∈ xs, ∀ y ∈ ys, |x - l.1 * (1 + z)| ≤ |y - l.1 * (1 + z)|) →
    linesSum z velDisp (fluxes.zip sets) a x = linesSum z velDisp (fluxes.zip sets) b x
  | [], fluxes, a, b, _, _, _ => by simp [linesSum]
  | ls :: sets, [], a, b, _, _, _ => by simp [linesSum]
  | ls :: sets, f :: fluxes, a, b, ha, hb, hn => by
      cases ha with
      | cons ha1 ha2 =>
        cases hb with
        | cons hb1 hb2 =>
          obtain ⟨h1, h2⟩ := nearestAll_congr xs ys z hsub ls _ _ ha1 hb1 (hn ls (by simp))
          rw [List.zip_cons_cons, linesSum, linesSum, setShape_congr z velDisp x ls _ _ h1 h2,
            linesSum_congr xs ys z velDisp x hsub sets fluxes _ _ ha2 hb2
              (fun l' hl' => hn l' (by simp [hl']))]

theorem atGood_map (pix : List Pix) (f : ℝ → ℝ) :
    atGood pix ((pix.map Pix.wave).map fun x => Fl.fin (f x)) =
      ((goodPix pix).map Pix.wave).map fun x => Fl.fin (f x) := by
  unfold atGood goodPix
  induction pix with
  | nil => rfl
  | cons p pix ih =>
    simp only [List.map_cons, List.zip_cons_cons, List.filter_cons]
    split
    · simp only [List.map_cons, ih]
    · exact ih

/-- **C138** (partial): if for every line a good pixel is at least as near to the line as all other
pixels, the stored model of the spectrum agrees at the good pixels with the model that was fitted
to them (positive line widths, at least one good pixel).
Missing from the full claim: masked pixels nearest to a line, see `C138_false`. -/
theorem C138_same_model_partial (r : Fit1DResult ℝ) (sets : List (List (ℝ × ℝ))) (pix : List Pix)
    (hlen : r.flux.length = sets.length) (hgood : goodPix pix ≠ [])
    (hpos : ∀ ls ∈ sets, ∀ l ∈ ls, 0 < lineSig r.velDisp (l.1 * (1 + r.z)))
    (hnear : ∀ ls ∈ sets, ∀ l ∈ ls, ∃ p ∈ goodPix pix, ∀ q ∈ pix,
      |p.wave - l.1 * (1 + r.z)| ≤ |q.wave - l.1 * (1 + r.z)|) :
    ∃ model fitted, finalModel r sets pix = .ok model ∧
      spectrumProfile ((goodPix pix).map Pix.wave) r.z r.velDisp (r.flux.zip sets) r.cont =
        .ok fitted ∧ atGood pix model = fitted := by
  have hsub : ∀ x ∈ (goodPix pix).map Pix.wave, x ∈ pix.map Pix.wave := by
    intro x hx
    obtain ⟨p, hp, rfl⟩ := List.mem_map.1 hx
    exact List.mem_map_of_mem (List.mem_of_mem_filter hp)
  obtain ⟨a, ha, hA⟩ := C45_linear ((goodPix pix).map Pix.wave) (by simpa using hgood) r.z r.velDisp
    sets hpos
  obtain ⟨b, hb, hB⟩ := C45_linear (pix.map Pix.wave) (by
    intro h
    exact hgood (List.map_eq_nil_iff.1 (List.eq_nil_iff_forall_not_mem.2 fun x hx => by
      have := hsub x hx; rw [h] at this; exact absurd this (by simp)))) r.z r.velDisp sets hpos
  refine ⟨_, _, hB r.flux r.cont hlen, hA r.flux r.cont hlen, ?_⟩
  rw [atGood_map]
  apply List.map_congr_left
  intro x _
  congr 2
  refine (linesSum_congr _ _ r.z r.velDisp x hsub sets r.flux a b ha hb ?_).symm
  intro ls hls l hl
  obtain ⟨p, hp, h⟩ := hnear ls hls l hl
  refine ⟨p.wave, List.mem_map_of_mem hp, fun y hy => ?_⟩
  obtain ⟨q, hq, rfl⟩ := List.mem_map.1 hy
  exact h q hq

/-- Two good pixels, the line at the first: the hypotheses of `C138_same_model_partial`. -/
example : let pix : List Pix := [⟨100, .fin 1, .fin 1, 1⟩, ⟨101, .fin 1, .fin 1, 0⟩,
      ⟨102, .fin 1, .fin 1, 1⟩]
    goodPix pix ≠ [] ∧ ∃ p ∈ goodPix pix, ∀ q ∈ pix,
      |p.wave - 100 * (1 + 0)| ≤ |q.wave - 100 * (1 + 0)| := by
  intro pix
  have h : goodPix pix = [⟨100, .fin 1, .fin 1, 1⟩, ⟨102, .fin 1, .fin 1, 1⟩] := by
    simp [goodPix, pix]
  rw [h]
  refine ⟨by simp, _, List.mem_cons_self, ?_⟩
  intro q hq
  simp only [add_zero, mul_one, sub_self, abs_zero]
  exact abs_nonneg _

/-- **C138**, negation: with the pixel at the line masked and one other pixel `x`, the stored model
at `x` is smaller than the model that was fitted there, for every width and positive flux. -/
theorem C138_false (w x velDisp flux : ℝ) (hs : 0 < lineSig velDisp w) (hf : 0 < flux)
    (hx : x ≠ w) (d e d' e' : Fl ℝ) :
    ∃ a b, (finalModel ⟨0, velDisp, [flux], [0]⟩ [[(w, 1)]] [⟨w, d, e, 0⟩, ⟨x, d', e', 1⟩]).map
        (atGood [⟨w, d, e, 0⟩, ⟨x, d', e', 1⟩]) = .ok [.fin a] ∧
      spectrumProfile ((goodPix [⟨w, d, e, 0⟩, ⟨x, d', e', 1⟩]).map Pix.wave) 0 velDisp
        ([flux].zip [[(w, 1)]]) [0] = .ok [.fin b] ∧ a < b := by
  have hg : goodPix [⟨w, d, e, 0⟩, ⟨x, d', e', 1⟩] = [⟨x, d', e', 1⟩] := by simp [goodPix]
  have hpos : ∀ ls ∈ [[(w, (1 : ℝ))]], ∀ l ∈ ls, 0 < lineSig velDisp (l.1 * (1 + 0)) := by
    simpa using hs
  obtain ⟨a, ha, hA⟩ := C45_linear [x] (by simp) 0 velDisp [[(w, 1)]] hpos
  obtain ⟨b, hb, hB⟩ := C45_linear [w, x] (by simp) 0 velDisp [[(w, 1)]] hpos
  cases ha with
  | cons ha1 ha2 =>
    cases ha2
    cases ha1 with
    | cons ha3 ha4 =>
      cases ha4
      cases hb with
      | cons hb1 hb2 =>
        cases hb2
        cases hb1 with
        | cons hb3 hb4 =>
          cases hb4
          rename_i x0 y0
          simp only [add_zero, mul_one] at ha3 hb3
          have hx0 : x0 = x := by simpa using ha3.1
          have hy0 : y0 = w := by
            have := hb3.2 w (by simp)
            rw [sub_self, abs_zero] at this
            exact sub_eq_zero.1 (abs_eq_zero.1 (le_antisymm this (abs_nonneg _)))
          subst hx0
          subst hy0
          have e1 := hA [flux] [0] rfl
          have e2 := hB [flux] [0] rfl
          refine ⟨flux * lineShape y0 (lineSig velDisp y0) y0 x0,
            flux * lineShape y0 (lineSig velDisp y0) x0 x0, ?_, ?_, ?_⟩
          · unfold finalModel
            simp only [List.map_cons, List.map_nil]
            rw [e2]
            simp [Except.map, atGood, linesSum, setShape]
          · rw [hg]
            simp only [List.map_cons, List.map_nil]
            rw [e1]
            simp [linesSum, setShape]
          · apply mul_lt_mul_of_pos_left _ hf
            unfold lineShape
            have hp := normalDensity1D_pos y0 (lineSig velDisp y0) x0 hs
            have hp0 := normalDensity1D_pos y0 (lineSig velDisp y0) y0 hs
            apply mul_lt_mul_of_pos_right _ (div_pos one_pos (mul_pos hs sqrt2pi_pos))
            rw [div_self hp.ne', div_lt_one hp0]
            unfold normalDensity1D
            apply div_lt_div_of_pos_right _ (mul_pos hs sqrt2pi_pos)
            rw [Real.exp_lt_exp]
            have h1 : 0 < (x0 - y0) ^ 2 := by
              have := sub_ne_zero.2 hx
              positivity
            rw [sub_self]
            simp only [ne_eq, OfNat.ofNat_ne_zero, not_false_eq_true, zero_pow, neg_zero, zero_div]
            exact div_neg_of_neg_of_pos (by linarith) (by positivity)

theorem lineShape_lt (mu sig x0 y0 x : ℝ) (hs : 0 < sig) (h : |y0 - mu| < |x0 - mu|) :
    lineShape mu sig y0 x < lineShape mu sig x0 x := by
  unfold lineShape
  have hp := normalDensity1D_pos mu sig x hs
  have hx := normalDensity1D_pos mu sig x0 hs
  apply mul_lt_mul_of_pos_right _ (div_pos one_pos (mul_pos hs sqrt2pi_pos))
  apply div_lt_div_of_pos_left hp hx
  unfold normalDensity1D
  apply div_lt_div_of_pos_right _ (mul_pos hs sqrt2pi_pos)
  rw [Real.exp_lt_exp]
  apply div_lt_div_of_pos_right _ (by positivity)
  have := sq_lt_sq.2 h
  linarith

/-- With positive ratios the shape of a set sampled at fewer pixels is at least that sampled at
all, and equal only if one of the fewer pixels is nearest to every line. -/
theorem setShape_le (xs ys : List ℝ) (z velDisp x : ℝ) (hsub : ∀ x ∈ xs, x ∈ ys) :
    ∀ (lines : List (ℝ × ℝ)) (a b : List ℝ), NearestAll xs z lines a → NearestAll ys z lines b →
    (∀ l ∈ lines, 0 < l.2 ∧ 0 < lineSig velDisp (l.1 * (1 + z))) →
    setShape z velDisp lines b x ≤ setShape z velDisp lines a x ∧
      (setShape z velDisp lines b x = setShape z velDisp lines a x →
        ∀ l ∈ lines, ∃ x ∈ xs, ∀ y ∈ ys, |x - l.1 * (1 + z)| ≤ |y - l.1 * (1 + z)|)
  | [], a, b, ha, hb, _ => by cases ha; cases hb; simp [setShape]
  | (w, r) :: lines, a, b, ha, hb, hp => by
      cases ha with
      | cons ha1 ha2 =>
        cases hb with
        | cons hb1 hb2 =>
          rename_i x0 as y0 bs
          obtain ⟨h1, h2⟩ := setShape_le xs ys z velDisp x hsub lines as bs ha2 hb2
            (fun l' hl' => hp l' (by simp [hl']))
          obtain ⟨hr, hs⟩ := hp (w, r) (by simp)
          have hle : |y0 - w * (1 + z)| ≤ |x0 - w * (1 + z)| := hb1.2 x0 (hsub x0 ha1.1)
          rw [setShape, setShape]
          rcases hle.lt_or_eq with hlt | heq
          · have h3 := mul_lt_mul_of_pos_left (lineShape_lt _ _ x0 y0 x hs hlt) hr
            exact ⟨by simp only at h3; linarith, fun h => by simp only at h3; linarith⟩
          · rw [lineShape_congr _ _ y0 x0 x heq]
            refine ⟨by linarith, fun h l hl => ?_⟩
            rcases List.mem_cons.1 hl with rfl | hl
            · exact ⟨x0, ha1.1, fun y hy => by
                have := hb1.2 y hy
                simp only at this ⊢
                rw [← heq]; exact this⟩
            · exact h2 (by linarith) l hl

theorem linesSum_le (xs ys : List ℝ) (z velDisp x : ℝ) (hsub : ∀ x ∈ xs, x ∈ ys) :
    ∀ (sets : List (List (ℝ × ℝ))) (fluxes : List ℝ) (a b : List (List ℝ)),
    fluxes.length = sets.length → (∀ f ∈ fluxes, 0 < f) →
    List.Forall₂ (NearestAll xs z) sets a → List.Forall₂ (NearestAll ys z) sets b →
    (∀ ls ∈ sets, ∀ l ∈ ls, 0 < l.2 ∧ 0 < lineSig velDisp (l.1 * (1 + z))) →
    linesSum z velDisp (fluxes.zip sets) b x ≤ linesSum z velDisp (fluxes.zip sets) a x ∧
      (linesSum z velDisp (fluxes.zip sets) b x = linesSum z velDisp (fluxes.zip sets) a x →
        ∀ ls ∈ sets, ∀ l ∈ ls, ∃ x ∈ xs, ∀ y ∈ ys, |x - l.1 * (1 + z)| ≤ |y - l.1 * (1 + z)|)
  | [], fluxes, a, b, _, _, _, _, _ => by simp [linesSum]
  | ls :: sets, [], a, b, hl, _, _, _, _ => by simp at hl
  | ls :: sets, f :: fluxes, a, b, hl, hf, ha, hb, hp => by
      cases ha with
      | cons ha1 ha2 =>
        cases hb with
        | cons hb1 hb2 =>
          obtain ⟨h1, h2⟩ := setShape_le xs ys z velDisp x hsub ls _ _ ha1 hb1 (hp ls (by simp))
          obtain ⟨h3, h4⟩ := linesSum_le xs ys z velDisp x hsub sets fluxes _ _
            (by simpa using hl) (fun f' hf' => hf f' (by simp [hf'])) ha2 hb2
            (fun l' hl' => hp l' (by simp [hl']))
          have hf0 := hf f (by simp)
          rw [List.zip_cons_cons, linesSum, linesSum]
          have h5 := mul_le_mul_of_nonneg_left h1 hf0.le
          refine ⟨by linarith, fun h ls' hls' => ?_⟩
          rcases List.mem_cons.1 hls' with rfl | hls'
          · exact h2 (mul_left_cancel₀ hf0.ne' (by linarith))
          · exact h4 (by linarith) ls' hls'

/-- **C138**, exact: with positive fluxes, ratios and widths the stored model at the good pixels
is nowhere above the fitted model, and it equals the fitted model exactly if for every line a good
pixel is at least as near to the line as all other pixels; if not, it is below the fitted model
at every good pixel. -/
theorem C138_exact (r : Fit1DResult ℝ) (sets : List (List (ℝ × ℝ))) (pix : List Pix)
    (hlen : r.flux.length = sets.length) (hgood : goodPix pix ≠ []) (hf : ∀ f ∈ r.flux, 0 < f)
    (hpos : ∀ ls ∈ sets, ∀ l ∈ ls, 0 < l.2 ∧ 0 < lineSig r.velDisp (l.1 * (1 + r.z))) :
    ∃ (model : List (Fl ℝ)) (stored fitted : ℝ → ℝ), finalModel r sets pix = .ok model ∧
      atGood pix model = (goodPix pix).map (fun p => Fl.fin (stored p.wave)) ∧
      spectrumProfile ((goodPix pix).map Pix.wave) r.z r.velDisp (r.flux.zip sets) r.cont =
        .ok ((goodPix pix).map fun p => Fl.fin (fitted p.wave)) ∧
      (∀ p ∈ goodPix pix, stored p.wave ≤ fitted p.wave) ∧
      ((∀ ls ∈ sets, ∀ l ∈ ls, ∃ p ∈ goodPix pix, ∀ q ∈ pix,
          |p.wave - l.1 * (1 + r.z)| ≤ |q.wave - l.1 * (1 + r.z)|) ↔
        ∀ p ∈ goodPix pix, stored p.wave = fitted p.wave) ∧
      ((∃ ls ∈ sets, ∃ l ∈ ls, ∀ p ∈ goodPix pix, ∃ q ∈ pix,
          |q.wave - l.1 * (1 + r.z)| < |p.wave - l.1 * (1 + r.z)|) →
        ∀ p ∈ goodPix pix, stored p.wave < fitted p.wave) := by
  have hsub : ∀ x ∈ (goodPix pix).map Pix.wave, x ∈ pix.map Pix.wave := by
    intro x hx
    obtain ⟨p, hp, rfl⟩ := List.mem_map.1 hx
    exact List.mem_map_of_mem (List.mem_of_mem_filter hp)
  have hpos' : ∀ ls ∈ sets, ∀ l ∈ ls, 0 < lineSig r.velDisp (l.1 * (1 + r.z)) :=
    fun ls hls l hl => (hpos ls hls l hl).2
  obtain ⟨a, ha, hA⟩ := C45_linear ((goodPix pix).map Pix.wave) (by simpa using hgood) r.z r.velDisp
    sets hpos'
  obtain ⟨b, hb, hB⟩ := C45_linear (pix.map Pix.wave) (by
    intro h
    exact hgood (List.map_eq_nil_iff.1 (List.eq_nil_iff_forall_not_mem.2 fun x hx => by
      have := hsub x hx; rw [h] at this; exact absurd this (by simp)))) r.z r.velDisp sets hpos'
  have hle := fun x => linesSum_le _ _ r.z r.velDisp x hsub sets r.flux a b hlen hf ha hb hpos
  have key : ∀ x, linesSum r.z r.velDisp (r.flux.zip sets) b x =
      linesSum r.z r.velDisp (r.flux.zip sets) a x → ∀ ls ∈ sets, ∀ l ∈ ls, ∃ p ∈ goodPix pix,
        ∀ q ∈ pix, |p.wave - l.1 * (1 + r.z)| ≤ |q.wave - l.1 * (1 + r.z)| := by
    intro x hx ls hls l hl
    obtain ⟨y, hy, h⟩ := (hle x).2 hx ls hls l hl
    obtain ⟨p, hp, rfl⟩ := List.mem_map.1 hy
    exact ⟨p, hp, fun q hq => h q.wave (List.mem_map_of_mem hq)⟩
  refine ⟨_, fun x => linesSum r.z r.velDisp (r.flux.zip sets) b x +
      ∑ j ∈ Finset.range r.cont.length, 1e-18 * (r.cont[j]?.getD 0) * x ^ j,
    fun x => linesSum r.z r.velDisp (r.flux.zip sets) a x +
      ∑ j ∈ Finset.range r.cont.length, 1e-18 * (r.cont[j]?.getD 0) * x ^ j,
    hB r.flux r.cont hlen, ?_, ?_, ?_, ⟨?_, ?_⟩, ?_⟩
  · rw [atGood_map, List.map_map]; rfl
  · rw [hA r.flux r.cont hlen, List.map_map]; rfl
  · intro p _
    have := (hle p.wave).1
    simp only; linarith
  · intro h p _
    simp only
    congr 1
    refine (linesSum_congr _ _ r.z r.velDisp p.wave hsub sets r.flux a b ha hb ?_).symm
    intro ls hls l hl
    obtain ⟨p, hp, h⟩ := h ls hls l hl
    refine ⟨p.wave, List.mem_map_of_mem hp, fun y hy => ?_⟩
    obtain ⟨q, hq, rfl⟩ := List.mem_map.1 hy
    exact h q hq
  · intro h
    obtain ⟨p, hp⟩ := List.exists_mem_of_ne_nil _ hgood
    have := h p hp
    simp only [add_left_inj] at this
    exact key p.wave this
  · rintro ⟨ls, hls, l, hl, hn⟩ p hp
    have h1 := (hle p.wave).1
    simp only [add_lt_add_iff_right]
    refine lt_of_le_of_ne h1 fun h => ?_
    obtain ⟨p', hp', h'⟩ := key p.wave h ls hls l hl
    obtain ⟨q, hq, h2⟩ := hn p' hp'
    exact absurd (h' q hq) (not_le.2 h2)

/-- A masked pixel at the line, one good pixel beside it: the last case of `C138_exact`. -/
example : let pix : List Pix := [⟨100, .fin 1, .fin 1, 0⟩, ⟨101, .fin 1, .fin 1, 1⟩]
    goodPix pix ≠ [] ∧ ∀ p ∈ goodPix pix, ∃ q ∈ pix,
      |q.wave - 100 * (1 + 0)| < |p.wave - 100 * (1 + 0)| := by
  intro pix
  have h : goodPix pix = [⟨101, .fin 1, .fin 1, 1⟩] := by simp [goodPix, pix]
  rw [h]
  refine ⟨by simp, fun p hp => ⟨⟨100, .fin 1, .fin 1, 0⟩, by simp [pix], ?_⟩⟩
  obtain rfl := List.mem_singleton.1 hp
  norm_num

/-! ## C139: explicit lines of one set -/

/-- **C139** (partial): wavelengths and flux ratios that are both given are kept, with the names
given or those of the group.
Missing from the full claim: only one of the two given, see `C139_false`. -/
theorem C139_both_partial (group : Option String) (ns : List String) (ws rs : List ℚ) :
    lineModel1D group ⟨some ns, some ws, some rs⟩ = .ok ⟨some ns, some ws, some rs⟩ := rfl

/-- **C139**, negation: wavelengths given without ratios (or ratios without wavelengths) are
replaced by the catalogued ones, or lead to an exception when a name is not catalogued. -/
theorem C139_false (group : Option String) (ns : List String) (ws ws' rs rs' : List ℚ) :
    lineModel1D group ⟨some ns, some ws, none⟩ = lineModel1D group ⟨some ns, some ws', none⟩ ∧
    lineModel1D group ⟨some ns, none, some rs⟩ = lineModel1D group ⟨some ns, none, some rs'⟩ ∧
    lineModel1D (some "Halpha") ⟨none, some [6000], none⟩ =
      .ok ⟨some ["HA6565"], some [6564.60], some [1]⟩ ∧
    lineModel1D none ⟨some ["mine"], some [6000], none⟩ = .error .valueError :=
  ⟨rfl, rfl, rfl, rfl⟩

/-- The catalogue knows the wavelengths `ws` and the flux ratios `rs` of the lines `ns`. -/
def Catalogued : List String → List ℚ → List ℚ → Prop
  | [], ws, rs => ws = [] ∧ rs = []
  | n :: ns, ws, rs => ∃ w r ws' rs', readRestwave n = .ok w ∧ readLineRatio n = .ok r ∧
      ws = w :: ws' ∧ rs = r :: rs' ∧ Catalogued ns ws' rs'

theorem catalogued_iff (ns : List String) (ws rs : List ℚ) :
    Catalogued ns ws rs ↔ readAll readRestwave ns = .ok ws ∧ readAll readLineRatio ns = .ok rs := by
  induction ns generalizing ws rs with
  | nil =>
    unfold Catalogued readAll
    exact ⟨fun h => ⟨by rw [h.1], by rw [h.2]⟩, fun h => ⟨(Except.ok.inj h.1).symm, (Except.ok.inj h.2).symm⟩⟩
  | cons n ns ih =>
    unfold Catalogued
    constructor
    · rintro ⟨w, r, ws', rs', a, b, rfl, rfl, hc⟩
      obtain ⟨c, d⟩ := (ih ws' rs').1 hc
      unfold readAll
      rw [a, b, c, d]
      exact ⟨rfl, rfl⟩
    · rintro ⟨h1, h2⟩
      unfold readAll at h1 h2
      split at h1
      · cases h1
      · rename_i w hw
        split at h1
        · cases h1
        · rename_i ws' hws
          split at h2
          · cases h2
          · rename_i r hr
            split at h2
            · cases h2
            · rename_i rs' hrs
              exact ⟨w, r, ws', rs', hw, hr, (Except.ok.inj h1).symm, (Except.ok.inj h2).symm,
                (ih ws' rs').2 ⟨hws, hrs⟩⟩

/-- **C139**, exactly, for a set with names: the set can be set up in two cases only, with the
wavelengths and the ratios given if both are given, and otherwise with those that the catalogue
gives for the names.  So what is given alone is kept only if it is what the catalogue says. -/
theorem C139_exact (group : Option String) (ns : List String) (ws rs : Option (List ℚ)) (out : LineSet) :
    lineModel1D group ⟨some ns, ws, rs⟩ = .ok out ↔
      out.names = some ns ∧
      ((∃ w r, ws = some w ∧ rs = some r ∧ out.waves = some w ∧ out.ratios = some r) ∨
       ((ws = none ∨ rs = none) ∧ ∃ w r, Catalogued ns w r ∧ out.waves = some w ∧ out.ratios = some r)) := by
  have hcat : (match readAll readRestwave ns, readAll readLineRatio ns with
        | .ok w, .ok r => Except.ok (⟨some ns, some w, some r⟩ : LineSet)
        | .error e, _ => .error e
        | _, .error e => .error e) = .ok out ↔
      out.names = some ns ∧ ∃ w r, Catalogued ns w r ∧ out.waves = some w ∧ out.ratios = some r := by
    constructor
    · intro h
      split at h
      · rename_i w r hw hr
        cases h
        exact ⟨rfl, w, r, (catalogued_iff ns w r).2 ⟨hw, hr⟩, rfl, rfl⟩
      · cases h
      · cases h
    · rintro ⟨hn, w, r, hc, hw, hr⟩
      obtain ⟨a, b⟩ := (catalogued_iff ns w r).1 hc
      rw [a, b]
      obtain ⟨n, w', r'⟩ := out
      simp only at hn hw hr
      subst hn hw hr
      rfl
  rcases ws with _ | w
  · refine hcat.trans ?_
    simp
  · rcases rs with _ | r
    · refine hcat.trans ?_
      simp
    · unfold lineModel1D
      obtain ⟨n, w', r'⟩ := out
      simp
      constructor
      · rintro ⟨rfl, rfl, rfl⟩; exact ⟨rfl, rfl, rfl⟩
      · rintro ⟨rfl, rfl, rfl⟩; exact ⟨rfl, rfl, rfl⟩

example : Catalogued ["HA6565"] [6564.60] [1] ∧
    lineModel1D none ⟨some ["HA6565"], some [6564.60], none⟩ =
      .ok ⟨some ["HA6565"], some [6564.60], some [1]⟩ :=
  ⟨⟨_, _, _, _, rfl, rfl, rfl, rfl, rfl, rfl⟩, rfl⟩

/-! ## C140: which line lists can be set up -/

section Setup
variable {K : Type} [Field K] [LinearOrder K]

/-- **C140**, negation for mixed sets: with a numpy that refuses ragged arrays, the documented line
list Hα and [NII] raises in the constructor, for every galaxy and all other options, unless the
lines are given by hand. -/
theorem C140_false (g : Gal1D K) (kw : F1Kw K) (hn : kw.names = some ["Halpha", "NII"])
    (h1 : kw.linenames = none) (h2 : kw.restwave = none) :
    ∃ o e, F1.make true g kw = (o, g, some e) := by
  unfold F1.make
  cases hs : F1.setAttr true g kw { velDisp := 0, delLam := 20 } with
  | mk o e =>
    cases e with
    | some e => exact ⟨o, e, rfl⟩
    | none =>
      exfalso
      obtain ⟨l, W, -, -, -, hl, hw⟩ := setAttr_ok hs
      obtain ⟨ns, hns, hg⟩ := hl (by simp [F1.update, h1])
      obtain ⟨hW, hr⟩ := hw (by simp [F1.update, h2])
      simp only [F1.update, hn, Option.some.injEq] at hns
      subst hns
      have e1 : readGroups ["Halpha", "NII"] = .ok [["HA6565"], ["NII6550", "NII6585"]] := rfl
      rw [e1] at hg
      obtain rfl := Except.ok.inj hg
      have e2 : readWaves (K := K) [["HA6565"], ["NII6550", "NII6585"]] =
          .ok [[((6564.60 : ℚ) : K)], [((6549.86 : ℚ) : K), ((6585.27 : ℚ) : K)]] := rfl
      rw [e2] at hW
      obtain rfl := Except.ok.inj hW
      simp [ragged] at hr

/-- **C140**, negation for the groups without trimming range: [NII], [SII] and [OII] raise in the
constructor with the shipped tables, for every galaxy with a spectrum and a redshift. -/
theorem C140_no_range_false (strict : Bool) (g : Gal1D K) (zg : PyNum K) (hz : g.z = some zg)
    (n : String) (hnn : n ∈ ["NII", "SII", "OII"]) (ns : List String) (kw : F1Kw K)
    (hn : kw.names = some (n :: ns)) (hf : kw.trimFile = none) (hr : kw.trimRest = none) :
    ∃ o e, F1.make strict g kw = (o, g, some e) := by
  unfold F1.make
  cases hs : F1.setAttr strict g kw { velDisp := 0, delLam := 20 } with
  | mk o e =>
    cases e with
    | some e => exact ⟨o, e, rfl⟩
    | none =>
      obtain ⟨l, W, rfl, -, -, -, -⟩ := setAttr_ok hs
      have hlook : ∀ o : F1 K, o.trimFile = none → o.lookup n = .error .valueError := by
        intro o ho
        unfold F1.lookup
        rw [ho]
        simp only [List.mem_cons, List.not_mem_nil, or_false] at hnn
        rcases hnn with rfl | rfl | rfl <;> rfl
      unfold F1.setupSpectrum
      cases g.spec with
      | none => exact ⟨_, _, rfl⟩
      | some s =>
        have e1 : (F1.update ({ velDisp := 0, delLam := 20 } : F1 K) kw).names = some (n :: ns) := by
          simp [F1.update, hn]
        have e2 : (F1.update ({ velDisp := 0, delLam := 20 } : F1 K) kw).trimRest = none := by
          simp [F1.update, hr]
        have e3 : (F1.update ({ velDisp := 0, delLam := 20 } : F1 K) kw).trimFile = none := by
          simp [F1.update, hf]
        simp only [e1, e2, hz]
        rw [hlook _ (by simpa using e3)]
        exact ⟨_, _, rfl⟩

/-- **C140** (partial): an object for one of the groups Hα, Hβ, [OIII] can be made on every galaxy
with a numpy redshift and a 1D spectrum with arrays of one length and at least one pixel in the
range of the table; the trimmed spectrum has exactly the pixels of that range, and its mask is that
of the spectrum with the edges masked (the pixels of C18).
Missing from the full claim: other groups and mixed lists, see `C140_false`,
`C140_no_range_false`. -/
theorem C140_single_partial (strict : Bool) (z : K) (hasID : Bool) (numEdge : Nat)
    (trim : Option (Spec1D K (Fl K))) (w : List K) (f e m : List (Fl K))
    (rw' : Option (List (Fl K))) (hf : f.length = w.length) (he : e.length = w.length)
    (hm : m.length = w.length) (n : String) (lo hi : ℚ)
    (hn : (n, lo, hi) ∈ [("Halpha", (6480 : ℚ), (6650 : ℚ)), ("Hbeta", 4800, 4920),
      ("OIII", 4930, 5060)])
    (hne : ∃ x ∈ w, (lo : K) * (1 + z) ≤ x ∧ x ≤ (hi : K) * (1 + z)) :
    ∃ o g' t, F1.make strict ⟨some (.numpy z), hasID,
        some ⟨some w, some w, rw', some f, some e, some m⟩, numEdge, trim⟩
        { names := some [n] } = (o, g', none) ∧
      g'.trim = some t ∧ o.z = some z ∧
      t.obswave = some (inRange ((lo : K) * (1 + z)) ((hi : K) * (1 + z)) w w) ∧
      t.flux = some (inRange ((lo : K) * (1 + z)) ((hi : K) * (1 + z)) w f) ∧
      t.err = some (inRange ((lo : K) * (1 + z)) ((hi : K) * (1 + z)) w e) ∧
      ∃ m', t.mask = some m' ∧
        m'.length = (inRange ((lo : K) * (1 + z)) ((hi : K) * (1 + z)) w m).length ∧
        ∀ l r, FirstLast (inRange ((lo : K) * (1 + z)) ((hi : K) * (1 + z)) w m).get l r →
          ∀ j, m'[j.val]? = some (if (0 < l.val ∧ l.val ≤ j.val ∧ j.val < l.val + numEdge) ∨
            (r.val + 1 < (inRange ((lo : K) * (1 + z)) ((hi : K) * (1 + z)) w m).length ∧
              rightStart (inRange ((lo : K) * (1 + z)) ((hi : K) * (1 + z)) w m).length r.val numEdge
                ≤ j.val ∧ j.val ≤ r.val) then 0
            else (inRange ((lo : K) * (1 + z)) ((hi : K) * (1 + z)) w m).get j) := by
  have hne' := (whRange_ne_nil _ _ w).2 hne
  have h1 := fancyIndex_whRange ((lo : K) * (1 + z)) ((hi : K) * (1 + z)) w w rfl
  have h2 := fancyIndex_whRange ((lo : K) * (1 + z)) ((hi : K) * (1 + z)) w f hf.symm
  have h3 := fancyIndex_whRange ((lo : K) * (1 + z)) ((hi : K) * (1 + z)) w e he.symm
  have h4 := fancyIndex_whRange ((lo : K) * (1 + z)) ((hi : K) * (1 + z)) w m hm.symm
  have hlook : readWaveRange trimRange1D n = .ok (lo, hi) := by
    simp only [List.mem_cons, Prod.mk.injEq, List.not_mem_nil, or_false] at hn
    rcases hn with ⟨rfl, rfl, rfl⟩ | ⟨rfl, rfl, rfl⟩ | ⟨rfl, rfl, rfl⟩ <;> rfl
  have hset : ∃ l W, F1.setAttr strict (⟨some (.numpy z), hasID,
        some ⟨some w, some w, rw', some f, some e, some m⟩, numEdge, trim⟩ : Gal1D K)
        { names := some [n] } { velDisp := 0, delLam := 20 } =
      ({ velDisp := 0, delLam := 20, z := some z, names := some [n], linenames := some l,
         restwave := some W }, none) := by
    simp only [List.mem_cons, Prod.mk.injEq, List.not_mem_nil, or_false] at hn
    cases strict <;> rcases hn with ⟨rfl, -, -⟩ | ⟨rfl, -, -⟩ | ⟨rfl, -, -⟩ <;> exact ⟨_, _, rfl⟩
  obtain ⟨l, W, hs⟩ := hset
  unfold F1.make
  rw [hs]
  simp only
  unfold F1.setupSpectrum F1.lookup
  simp only [Option.getD_none, hlook, trimSpectrum1D, bind, Except.bind, Except.map, if_pos hne',
    optIndex, h1, h2, h3, h4]
  refine ⟨_, _, _, rfl, rfl, rfl, rfl, rfl, rfl, _, rfl, List.length_ofFn, ?_⟩
  intro l r hlr j
  rw [List.getElem?_ofFn, dif_pos j.2]
  exact congrArg some (C18_exact _ numEdge l r hlr j)

/-- The number of lines in each catalogued group. -/
def linesIn : List (String × Nat) :=
  [("Halpha", 1), ("Hbeta", 1), ("OIII", 2), ("NII", 2), ("SII", 2), ("OII", 2)]

theorem readLineNames_catalogued (n : String) (k : Nat) (h : (n, k) ∈ linesIn) :
    ∃ l ws, readLineNames (some n) = .ok l ∧ readAll readRestwave l = .ok ws ∧ ws.length = k := by
  simp only [linesIn, List.mem_cons, Prod.mk.injEq, List.not_mem_nil, or_false] at h
  rcases h with ⟨rfl, rfl⟩ | ⟨rfl, rfl⟩ | ⟨rfl, rfl⟩ | ⟨rfl, rfl⟩ | ⟨rfl, rfl⟩ | ⟨rfl, rfl⟩ <;>
    exact ⟨_, _, rfl, rfl, rfl⟩

theorem readGroups_catalogued : ∀ (l : List (String × Nat)), (∀ p ∈ l, p ∈ linesIn) →
    ∃ g W, readGroups (l.map Prod.fst) = .ok g ∧ readWaves (K := K) g = .ok W ∧
      W.map List.length = l.map Prod.snd
  | [], _ => ⟨[], [], rfl, rfl, rfl⟩
  | (n, k) :: l, h => by
    obtain ⟨a, ws, h1, h2, h3⟩ := readLineNames_catalogued n k (h _ (by simp))
    obtain ⟨g, W, h4, h5, h6⟩ := readGroups_catalogued l fun p hp => h p (by simp [hp])
    refine ⟨a :: g, ws.map (fun (q : ℚ) => (q : K)) :: W, ?_, ?_, ?_⟩
    · simp only [List.map_cons, readGroups, h1, h4]
    · simp only [readWaves, h2, h5]
    · simp [h3, h6]

theorem ragged_iff (W : List (List K)) (k : Nat) (ks : List Nat) (h : W.map List.length = k :: ks) :
    ragged W = true ↔ ∃ j ∈ ks, j ≠ k := by
  cases W with
  | nil => cases h
  | cons a W =>
    rw [List.map_cons, List.cons.injEq] at h
    obtain ⟨rfl, rfl⟩ := h
    simp only [ragged, List.any_eq_true, bne_iff_ne, List.mem_map]
    exact ⟨fun ⟨b, hb, h⟩ => ⟨_, ⟨b, hb, rfl⟩, h⟩, fun ⟨_, ⟨b, hb, rfl⟩, h⟩ => ⟨b, hb, h⟩⟩

/-- **C140** (partial): exactly which lists of catalogued groups can be set up, on a galaxy with a numpy redshift and
a 1D spectrum with arrays of one length: the first group must be one of Hα, Hβ, [OIII] and, with a numpy that refuses
ragged arrays, all groups must have the same number of lines.  Pixels in the range are not needed.
Missing from the full claim: the other lists. -/
theorem C140_exact_partial (strict : Bool) (z : K) (hasID : Bool) (numEdge : Nat)
    (trim : Option (Spec1D K (Fl K))) (w : List K) (f e m : List (Fl K))
    (rw' : Option (List (Fl K))) (hf : f.length = w.length) (he : e.length = w.length)
    (hm : m.length = w.length) (n : String) (k : Nat) (l : List (String × Nat))
    (hl : ∀ p ∈ (n, k) :: l, p ∈ linesIn) (fl : Option (List K)) (vd dl : Option K) (co num : Option Nat) :
    (F1.make strict ⟨some (.numpy z), hasID, some ⟨some w, some w, rw', some f, some e, some m⟩, numEdge, trim⟩
      { names := some (n :: l.map Prod.fst), flux := fl, velDisp := vd, delLam := dl, contOrder := co,
        numMC := num }).2.2 = none ↔
    n ∈ ["Halpha", "Hbeta", "OIII"] ∧ (strict = true → ∀ p ∈ l, p.2 = k) := by
  obtain ⟨g, W, hg, hW, hlen⟩ := readGroups_catalogued (K := K) ((n, k) :: l) hl
  have hrag := ragged_iff W k (l.map Prod.snd) hlen
  simp only [List.map_cons] at hg
  unfold F1.make F1.setAttr
  simp only [F1.update, Option.getD_none, ne_eq, not_true_eq_false, if_false, F1.groupNames, hg, F1.setWaves, hW]
  by_cases hbad : (strict && ragged W) = true
  · rw [if_pos hbad]
    simp only [Bool.and_eq_true] at hbad
    obtain ⟨j, hj, hjk⟩ := hrag.1 hbad.2
    obtain ⟨p, hp, rfl⟩ := List.mem_map.1 hj
    simp only [reduceCtorEq, false_iff]
    exact fun h => hjk (h.2 hbad.1 p hp)
  · rw [if_neg hbad]
    have hok : strict = true → ∀ p ∈ l, p.2 = k := by
      intro hs p hp
      by_contra hne
      refine hbad ?_
      rw [hs, hrag.2 ⟨p.2, List.mem_map_of_mem hp, hne⟩]; rfl
    unfold F1.setupSpectrum F1.lookup
    simp only [Option.getD_none]
    by_cases hn : n ∈ ["Halpha", "Hbeta", "OIII"]
    · obtain ⟨r, hr⟩ : ∃ r, readWaveRange trimRange1D n = .ok r := by
        simp only [List.mem_cons, List.not_mem_nil, or_false] at hn
        rcases hn with rfl | rfl | rfl <;> exact ⟨_, rfl⟩
      have h1 := fancyIndex_whRange ((r.1 : K) * (1 + z)) ((r.2 : K) * (1 + z)) w w rfl
      have h2 := fancyIndex_whRange ((r.1 : K) * (1 + z)) ((r.2 : K) * (1 + z)) w f hf.symm
      have h3 := fancyIndex_whRange ((r.1 : K) * (1 + z)) ((r.2 : K) * (1 + z)) w e he.symm
      have h4 := fancyIndex_whRange ((r.1 : K) * (1 + z)) ((r.2 : K) * (1 + z)) w m hm.symm
      simp only [hr, trimSpectrum1D, bind, Except.bind, Except.map, optIndex, h1, h2, h3, h4, hn, true_and]
      refine ⟨fun _ => hok, fun _ => ?_⟩
      by_cases hne : 0 < (whRange w ((r.1 : K) * (1 + z)) ((r.2 : K) * (1 + z))).length
      · simp only [if_pos hne]
      · simp only [if_neg hne]
    · have hr : readWaveRange trimRange1D n = .error .valueError := by
        have := hl (n, k) (by simp)
        simp only [linesIn, List.mem_cons, Prod.mk.injEq, List.not_mem_nil, or_false] at this hn
        rcases this with ⟨rfl, -⟩ | ⟨rfl, -⟩ | ⟨rfl, -⟩ | ⟨rfl, -⟩ | ⟨rfl, -⟩ | ⟨rfl, -⟩ <;>
          first | rfl | exact absurd (by simp) hn
      simp only [hr, trimSpectrum1D, hn, false_and, iff_false]
      exact fun h => by cases h

end Setup

/-- The hypotheses of `C140_single_partial`: a pixel of the toy spectrum in the range of Hα. -/
example : ∃ x ∈ ([14450, 19550] : List ℚ), ((6480 : ℚ) : ℚ) * (1 + 2) ≤ x ∧ x ≤ ((6650 : ℚ) : ℚ) * (1 + 2) :=
  ⟨19550, by simp, by norm_num, by norm_num⟩

/-- The hypotheses of `C140_exact_partial` for [OIII] and [NII], which can be set up, and Hα and [NII], which cannot. -/
example : (∀ p ∈ [("OIII", 2), ("NII", 2)], p ∈ linesIn) ∧ ∀ p ∈ [("Halpha", 1), ("NII", 2)], p ∈ linesIn := by
  decide +kernel

end Misfit
