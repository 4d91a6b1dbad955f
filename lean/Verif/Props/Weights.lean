import Verif.Model.Weights
import Verif.Props.Masks
import Mathlib.Tactic.Positivity

/-!
# C21: fit weights
-/

namespace Misfit
variable {K : Type*} [Field K] [LinearOrder K] [IsStrictOrderedRing K] {r c : Nat}

/-- Specification of a weight profile: finite, non-negative, summing to one. -/
def IsProfile (w : Fin r → Fl K) : Prop :=
  ∃ v : Fin r → K, (∀ i, w i = .fin (v i)) ∧ (∀ i, 0 ≤ v i) ∧ ∑ i, v i = 1

/-- normalising finite non-negative weights -/
theorem normaliseWeights_fin (v : Fin r → K) (hs : ∑ i, v i ≠ 0) (i : Fin r) :
    normaliseWeights (fun i => .fin (v i)) i = .fin (v i / ∑ i, v i) := by
  unfold normaliseWeights
  simp only [Fl.fin_sum]
  have : Fl.eqB (Fl.fin (∑ i, v i)) (0 : Fl K) = false := by
    rw [Fl.zero_def, Fl.eqB_fin]; simpa using hs
  rw [this, Fl.fin_div_ne _ _ hs]
  rfl

/-- C21, normalisation: weights of one sign with non-zero sum become a profile. -/
theorem C21_normalised (v : Fin r → K) (hsign : (∀ i, 0 ≤ v i) ∨ (∀ i, v i ≤ 0))
    (hs : ∑ i, v i ≠ 0) : IsProfile (normaliseWeights fun i => .fin (v i)) := by
  refine ⟨fun i => v i / ∑ i, v i, fun i => normaliseWeights_fin v hs i, fun i => ?_, ?_⟩
  · rcases hsign with h | h
    · exact div_nonneg (h i) (Finset.sum_nonneg fun i _ => h i)
    · exact div_nonneg_of_nonpos (h i) (Finset.sum_nonpos fun i _ => h i)
  · rw [← Finset.sum_div, div_self hs]

/-- C21: all weights zero stay zero (no NaN). -/
theorem C21_no_usable_row (v : Fin r → Fl K) (hs : ∑ i, v i = 0) (i : Fin r) :
    normaliseWeights v i = 0 := by
  unfold normaliseWeights
  rw [hs]
  simp

/-- The row weights with up-edges weighting: `1/S/N` for kept rows. -/
theorem upEdges_fin (snr : Fin r → Fl K) (cut : K) (hcut : 0 < cut) (mask : Img r c K) :
    ∃ v : Fin r → K, upEdges snr (maskLowSnrRows snr (.fin cut) mask).2 = (fun i => .fin (v i)) ∧
      ∀ i, (i.val ∈ (maskLowSnrRows snr (.fin cut) mask).2 → v i = 0) ∧
        (i.val ∉ (maskLowSnrRows snr (.fin cut) mask).2 →
          (snr i = .pinf ∧ v i = 0) ∨ ∃ s, snr i = .fin s ∧ cut ≤ s ∧ v i = 1 / s) := by
  have key : ∀ i : Fin r, ∃ x : K,
      upEdges snr (maskLowSnrRows snr (.fin cut) mask).2 i = .fin x ∧
      (i.val ∈ (maskLowSnrRows snr (.fin cut) mask).2 → x = 0) ∧
      (i.val ∉ (maskLowSnrRows snr (.fin cut) mask).2 →
          (snr i = .pinf ∧ x = 0) ∨ ∃ s, snr i = .fin s ∧ cut ≤ s ∧ x = 1 / s) := by
    intro i
    by_cases hi : i.val ∈ (maskLowSnrRows snr (.fin cut) mask).2
    · exact ⟨0, by simp only [upEdges, zeroAt, if_pos hi]; rfl, fun _ => rfl, fun h => absurd hi h⟩
    · obtain ⟨⟨h1, h2⟩, _⟩ := (C16_kept_rows snr (.fin cut) mask).1 i hi
      have h2 : Fl.leB (Fl.fin cut) (snr i) = true := h2
      cases hs : snr i with
      | fin s =>
        rw [hs] at h2
        have h3 : cut ≤ s := by simpa using h2
        refine ⟨1 / s, ?_, fun h => absurd h hi, fun _ => Or.inr ⟨s, rfl, h3, rfl⟩⟩
        simp only [upEdges, zeroAt, if_neg hi, hs]
        rw [Fl.one_def, Fl.fin_div_ne _ _ (hcut.trans_le h3).ne']
      | nan => rw [hs] at h2; simp [Fl.leB] at h2
      | pinf =>
        refine ⟨0, ?_, fun h => absurd h hi, fun _ => Or.inl ⟨rfl, rfl⟩⟩
        simp only [upEdges, zeroAt, if_neg hi, hs]
        rfl
      | ninf => rw [hs] at h2; simp [Fl.leB] at h2
  choose v hv using key
  exact ⟨v, funext fun i => (hv i).1, fun i => ⟨(hv i).2.1, (hv i).2.2⟩⟩

/-- C21, up-edges: with a positive S/N cut and the low S/N rows of the same image, the weights
are a profile as soon as one kept row has finite S/N, are 0 exactly on rows that are low S/N or
have infinite S/N, and are otherwise inversely proportional to the S/N. -/
theorem C21_up_edges (flux err mask maskSky : Img r c ℝ) (cut : ℝ) (hcut : 0 < cut)
    (fit : ℝ × ℝ × ℝ)
    (husable : ∃ i : Fin r, i.val ∉ (maskLowSnrRows2D flux err mask maskSky (.fin cut)).2 ∧
      (rowSnr flux err maskSky i).isFinite = true) :
    ∃ w m, fitWeights "up-edges" flux err maskSky
        (maskLowSnrRows2D flux err mask maskSky (.fin cut)).2 fit = .ok (w, m) ∧
      IsProfile w ∧ (∀ i j, m i j = w i) ∧
      (∀ i : Fin r, i.val ∈ (maskLowSnrRows2D flux err mask maskSky (.fin cut)).2 → w i = 0) ∧
      (∃ k : ℝ, 0 < k ∧ ∀ (i : Fin r) (s : ℝ),
        i.val ∉ (maskLowSnrRows2D flux err mask maskSky (.fin cut)).2 →
        rowSnr flux err maskSky i = .fin s → w i = .fin (k / s)) := by
  obtain ⟨v, hv, hprop⟩ := upEdges_fin (rowSnr flux err maskSky) cut hcut mask
  have hnn : ∀ i, 0 ≤ v i := by
    intro i
    by_cases hi : i.val ∈ (maskLowSnrRows (rowSnr flux err maskSky) (.fin cut) mask).2
    · exact ((hprop i).1 hi).ge
    · rcases (hprop i).2 hi with h | ⟨s, _, hs, h⟩
      · exact h.2.ge
      · rw [h]; exact (one_div_pos.2 (hcut.trans_le hs)).le
  have hpos : 0 < ∑ i, v i := by
    obtain ⟨i, hi, hfin⟩ := husable
    refine Finset.sum_pos' (fun i _ => hnn i) ⟨i, Finset.mem_univ _, ?_⟩
    rcases (hprop i).2 hi with h | ⟨s, _, hs, h⟩
    · rw [h.1] at hfin; simp at hfin
    · rw [h]; exact one_div_pos.2 (hcut.trans_le hs)
  have hw : ∀ i, normaliseWeights (upEdges (rowSnr flux err maskSky)
      (maskLowSnrRows (rowSnr flux err maskSky) (.fin cut) mask).2) i = .fin (v i / ∑ i, v i) := by
    intro i; rw [hv]; exact normaliseWeights_fin v hpos.ne' i
  refine ⟨normaliseWeights (upEdges (rowSnr flux err maskSky)
      (maskLowSnrRows (rowSnr flux err maskSky) (.fin cut) mask).2), _,
    by simp only [fitWeights, if_true]; rfl, ?_, fun _ _ => rfl, ?_, ?_⟩
  · have := C21_normalised v (Or.inl hnn) hpos.ne'
    rw [← hv] at this
    exact this
  · intro i hi
    have h0 := (hprop i).1 hi
    have := hw i
    rw [h0, zero_div] at this
    exact this
  · refine ⟨1 / ∑ i, v i, one_div_pos.2 hpos, fun i s hi hs => ?_⟩
    have := hw i
    rcases (hprop i).2 hi with h | ⟨s', hs', _, h⟩
    · rw [h.1] at hs; exact absurd hs (by simp)
    · rw [hs] at hs'
      obtain rfl : s = s' := by simpa using hs'
      rw [h] at this
      refine this.trans ?_
      congr 1
      rw [div_right_comm]

/-- C21, no weighting: every row gets the same share. -/
theorem C21_none (flux err maskSky : Img r c ℝ) (low : List Nat) (fit : ℝ × ℝ × ℝ) (hr : 0 < r) :
    ∃ w m, fitWeights "none" flux err maskSky low fit = .ok (w, m) ∧ IsProfile w ∧
      (∀ i j, m i j = w i) ∧ ∀ i, w i = .fin (1 / r) := by
  have hne : ∑ _i : Fin r, (1 : ℝ) ≠ 0 := by simp; omega
  refine ⟨_, _, rfl, C21_normalised (fun _ => (1 : ℝ)) (Or.inl fun _ => zero_le_one) hne,
    fun _ _ => rfl, fun i => ?_⟩
  have := normaliseWeights_fin (fun _ : Fin r => (1 : ℝ)) hne i
  simpa using this

/-- C21, optimal: whatever Gaussian (of positive width, non-zero amplitude) the fit returns, the
weights are a profile that is 0 on low S/N rows. -/
theorem C21_optimal (flux err maskSky : Img r c ℝ) (low : List Nat) (A mu sigma : ℝ)
    (hA : A ≠ 0) (hs : 0 < sigma) (hrow : ∃ i : Fin r, i.val ∉ low) :
    ∃ w m, fitWeights "optimal" flux err maskSky low (A, mu, sigma) = .ok (w, m) ∧ IsProfile w ∧
      (∀ i j, m i j = w i) ∧ (∀ i : Fin r, i.val ∈ low → w i = 0) ∧
      (∀ i : Fin r, i.val ∉ low → w i ≠ 0) := by
  set v : Fin r → ℝ := fun i => if i.val ∈ low then 0 else gausSimple i.val A mu sigma with hvdef
  have hz : zeroAt (fun i : Fin r => Fl.fin (gausSimple (i.val : ℝ) A mu sigma)) low =
      fun i => Fl.fin (v i) := by
    funext i
    simp only [zeroAt, hvdef]
    split <;> rfl
  have hg : ∀ x : ℝ, 0 < Real.exp (-(x - mu) ^ 2 / (2 * sigma ^ 2)) /
      Real.sqrt (2 * Real.pi * sigma) := by
    intro x; have := Real.pi_pos; positivity
  have hsum : ∑ i, v i = A * ∑ i : Fin r, if i.val ∈ low then 0 else
      Real.exp (-((i.val : ℝ) - mu) ^ 2 / (2 * sigma ^ 2)) / Real.sqrt (2 * Real.pi * sigma) := by
    rw [Finset.mul_sum]
    refine Finset.sum_congr rfl fun i _ => ?_
    simp only [hvdef, gausSimple]
    split
    · simp
    · ring
  have hne : ∑ i, v i ≠ 0 := by
    rw [hsum]
    refine mul_ne_zero hA (Finset.sum_pos' (fun i _ => ?_) ?_).ne'
    · split
      · exact le_rfl
      · exact (hg _).le
    · obtain ⟨i, hi⟩ := hrow
      exact ⟨i, Finset.mem_univ _, by rw [if_neg hi]; exact hg _⟩
  have hsign : (∀ i, 0 ≤ v i) ∨ (∀ i, v i ≤ 0) := by
    rcases lt_or_gt_of_ne hA with h | h
    · right; intro i
      simp only [hvdef, gausSimple]
      split
      · exact le_rfl
      · exact mul_nonpos_of_nonneg_of_nonpos (hg _).le h.le
    · left; intro i
      simp only [hvdef, gausSimple]
      split
      · exact le_rfl
      · exact mul_nonneg (hg _).le h.le
  have hw : ∀ i, normaliseWeights (zeroAt (fun i : Fin r => Fl.fin (gausSimple (i.val : ℝ) A mu sigma))
      low) i = .fin (v i / ∑ i, v i) := by
    intro i; rw [hz]; exact normaliseWeights_fin v hne i
  refine ⟨_, _, rfl, ?_, fun _ _ => rfl, fun i hi => ?_, fun i hi => ?_⟩
  · have := C21_normalised v hsign hne
    rw [← hz] at this
    exact this
  · have := hw i
    simp only [hvdef, if_pos hi, zero_div] at this
    exact this
  · have := hw i
    intro h0
    have h1 := this.symm.trans h0
    simp only [Fl.zero_def, Fl.fin.injEq, div_eq_zero_iff] at h1
    rcases h1 with h1 | h1
    · simp only [hvdef, if_neg hi, gausSimple] at h1
      exact absurd h1 (mul_ne_zero (hg _).ne' hA)
    · exact hne h1

/-- C21: an unknown weighting type raises NameError. -/
theorem C21_unknown (kind : String) (flux err maskSky : Img r c ℝ) (low : List Nat)
    (fit : ℝ × ℝ × ℝ) (h : kind ≠ "up-edges" ∧ kind ≠ "none" ∧ kind ≠ "optimal") :
    fitWeights kind flux err maskSky low fit = .error .nameError := by
  simp [fitWeights, h.1, h.2.1, h.2.2]

/-- C21: a common positive factor in finite flux and error changes nothing. -/
theorem C21_scale_invariant (flux err : Fin r → Fin c → ℝ) (maskSky : Fin r → Fin c → ℝ)
    (low : List Nat) (fit : ℝ × ℝ × ℝ) (k : ℝ) (hk : 0 < k) :
    fitWeights "up-edges" (finImg fun i j => k * flux i j) (finImg fun i j => k * err i j)
        (finImg maskSky) low fit =
      fitWeights "up-edges" (finImg flux) (finImg err) (finImg maskSky) low fit := by
  have : rowSnr (finImg fun i j => k * flux i j) (finImg fun i j => k * err i j) (finImg maskSky) =
      rowSnr (finImg flux) (finImg err) (finImg maskSky) := by
    funext i
    simp only [rowSnr, finImg, Fl.fin_mul, Fl.sq_fin, Fl.fin_sum, Fl.sqrt]
    have h1 : ∑ j, k * flux i j * maskSky i j = k * ∑ j, flux i j * maskSky i j := by
      rw [Finset.mul_sum]; exact Finset.sum_congr rfl fun _ _ => by ring
    have h2 : ∑ j, k * err i j * maskSky i j * (k * err i j * maskSky i j) =
        k ^ 2 * ∑ j, err i j * maskSky i j * (err i j * maskSky i j) := by
      rw [Finset.mul_sum]; exact Finset.sum_congr rfl fun _ _ => by ring
    have h3 : 0 ≤ ∑ j, err i j * maskSky i j * (err i j * maskSky i j) :=
      Finset.sum_nonneg fun _ _ => mul_self_nonneg _
    rw [h1, h2, if_neg (not_lt.2 h3), if_neg (not_lt.2 (mul_nonneg (sq_nonneg k) h3)),
      Real.sqrt_mul (sq_nonneg k), Real.sqrt_sq hk.le]
    generalize ∑ j, flux i j * maskSky i j = F
    generalize Real.sqrt (∑ j, err i j * maskSky i j * (err i j * maskSky i j)) = E
    by_cases hE : E = 0
    · subst hE
      rw [mul_zero]
      congr 1
      show Fl.div _ _ = Fl.div _ _
      simp only [Fl.div, if_true, Fl.infTimes]
      simp [hk.ne', hk]
    · rw [Fl.fin_div_ne _ _ (mul_ne_zero hk.ne' hE), Fl.fin_div_ne _ _ hE,
        mul_div_mul_left _ _ hk.ne']
  simp only [fitWeights, if_true, this]

/-- the hypotheses of `C21_up_edges` are met by a single bright row -/
example : (0 : Fin 1).val ∉ (maskLowSnrRows2D (r := 1) (c := 1) (finImg fun _ _ => 4)
      (finImg fun _ _ => 1) (finImg fun _ _ => 1) (finImg fun _ _ => 1) (.fin 2)).2 ∧
    rowSnr (r := 1) (c := 1) (finImg fun _ _ => 4) (finImg fun _ _ => 1) (finImg fun _ _ => 1) 0 =
      .fin 4 := by
  have h : rowSnr (r := 1) (c := 1) (finImg fun _ _ => 4) (finImg fun _ _ => 1)
      (finImg fun _ _ => 1) = fun _ => .fin 4 := by
    funext i
    simp only [rowSnr, finImg, Fl.fin_mul, Fl.sq_fin, Fl.fin_sum, Fl.sqrt]
    rw [if_neg (by norm_num)]
    rw [Fl.fin_div_ne _ _ (by norm_num)]
    norm_num [Fl.abs]
  refine ⟨?_, congrFun h 0⟩
  have hl : (maskLowSnrRows (r := 1) (c := 1) (fun _ => .fin (4 : ℝ)) (.fin 2)
      (finImg fun _ _ => 1)).2 = [] := by
    have h2 : ((List.finRange 1).filter fun _ => Fl.leB (.fin (2 : ℝ)) (.fin 4)).map Fin.val = [0] := by
      simp; norm_num; decide
    simp only [maskLowSnrRows]
    rw [h2]
    decide
  unfold maskLowSnrRows2D
  rw [h, hl]
  simp

/-- concrete profile: S/N 2, 4, low, inf -/
example : normaliseWeights (upEdges (K := ℚ) ![.fin 2, .fin 4, .fin 1, .pinf] [2]) =
    ![.fin (2 / 3), .fin (1 / 3), .fin 0, .fin 0] := by
  funext i; fin_cases i <;> decide +kernel

end Misfit
