import Verif.Model.Aper1D
import Verif.Lemmas.Convolve
import Verif.Lemmas.Fit1D
import Verif.Props.Grid
import Mathlib.Tactic.Linarith
import Mathlib.Tactic.Positivity
import Mathlib.Tactic.FieldSimp
import Mathlib.Tactic.LinearCombination

namespace Misfit

/-! ## first maximum -/

theorem argmaxL_spec : ∀ l : List ℝ, l ≠ [] → ∃ h : argmaxL l < l.length,
    (∀ i (hi : i < l.length), l[i] ≤ l[argmaxL l]) ∧
    ∀ i (hi : i < argmaxL l), l[i]'(lt_trans hi h) < l[argmaxL l] := by
  intro l
  induction l with
  | nil => intro h; exact absurd rfl h
  | cons a l ih =>
    intro _
    cases l with
    | nil =>
      refine ⟨by simp [argmaxL], ?_, ?_⟩
      · intro i hi
        simp only [List.length_cons, List.length_nil] at hi
        have : i = 0 := by omega
        subst this
        exact le_refl _
      · intro i hi
        simp [argmaxL] at hi
    | cons b l =>
      obtain ⟨h, h1, h2⟩ := ih (by simp)
      have hget : (b :: l).getD (argmaxL (b :: l)) 0 = (b :: l)[argmaxL (b :: l)] := by
        rw [List.getD_eq_getElem?_getD, List.getElem?_eq_getElem h, Option.getD_some]
      have hdef : argmaxL (a :: b :: l) =
          if (b :: l)[argmaxL (b :: l)] ≤ a then 0 else argmaxL (b :: l) + 1 := by
        rw [argmaxL]
        simp only [hget]
      by_cases hc : (b :: l)[argmaxL (b :: l)] ≤ a
      · rw [if_pos hc] at hdef
        have hlt : argmaxL (a :: b :: l) < (a :: b :: l).length := by rw [hdef]; simp
        have hval : (a :: b :: l)[argmaxL (a :: b :: l)] = a := by
          simp [hdef]
        refine ⟨hlt, ?_, ?_⟩
        · intro i hi
          rw [hval]
          cases i with
          | zero => exact le_refl _
          | succ i =>
            rw [List.getElem_cons_succ]
            exact le_trans (h1 i (by simpa using hi)) hc
        · intro i hi
          rw [hdef] at hi
          omega
      · rw [if_neg hc] at hdef
        have hlt : argmaxL (a :: b :: l) < (a :: b :: l).length := by
          rw [hdef]; simp only [List.length_cons] at h ⊢; omega
        have hval : (a :: b :: l)[argmaxL (a :: b :: l)] = (b :: l)[argmaxL (b :: l)] := by
          simp [hdef]
        refine ⟨hlt, ?_, ?_⟩
        · intro i hi
          rw [hval]
          cases i with
          | zero => exact le_of_lt (not_le.1 hc)
          | succ i =>
            rw [List.getElem_cons_succ]
            exact h1 i (by simpa using hi)
        · intro i hi
          rw [hval]
          cases i with
          | zero => exact not_le.1 hc
          | succ i =>
            rw [List.getElem_cons_succ]
            exact h2 i (by rw [hdef] at hi; omega)

theorem argminL_spec (l : List ℝ) (hl : l ≠ []) : ∃ h : argminL l < l.length,
    (∀ i (hi : i < l.length), l[argminL l] ≤ l[i]) ∧
    ∀ i (hi : i < argminL l), l[argminL l] < l[i]'(lt_trans hi h) := by
  obtain ⟨h, h1, h2⟩ := argmaxL_spec (l.map fun v => -v) (by simpa using hl)
  rw [List.length_map] at h
  refine ⟨h, fun i hi => ?_, fun i hi => ?_⟩
  · have := h1 i (by simpa using hi)
    rw [List.getElem_map, List.getElem_map] at this
    exact neg_le_neg_iff.1 this
  · have := h2 i hi
    rw [List.getElem_map, List.getElem_map] at this
    exact neg_lt_neg_iff.1 this

/-! ## convolution -/

section
variable {K : Type*} [Field K] [LinearOrder K] [IsStrictOrderedRing K]

omit [IsStrictOrderedRing K] in
theorem ext_mono {n : Nat} (a b : Fin n → K) (h : ∀ i, a i ≤ b i) (p : ℤ) : ext a p ≤ ext b p := by
  unfold ext; split
  · exact h _
  · exact le_rfl

theorem convSame2_mono {n m kn km : Nat} (a b : Fin n → Fin m → K) (k : Fin kn → Fin km → K)
    (hab : ∀ y x, a y x ≤ b y x) (hk : ∀ j i, 0 ≤ k j i) (y : Fin n) (x : Fin m) :
    convSame2 a k y x ≤ convSame2 b k y x :=
  Finset.sum_le_sum fun _ _ => Finset.sum_le_sum fun _ _ =>
    mul_le_mul_of_nonneg_right (ext_mono _ _ (fun y' => ext_mono _ _ (hab y') _) _) (hk _ _)

omit [LinearOrder K] [IsStrictOrderedRing K] in
theorem convSame2_smul {n m kn km : Nat} (c : K) (a : Fin n → Fin m → K) (k : Fin kn → Fin km → K)
    (y : Fin n) (x : Fin m) :
    convSame2 (fun y x => c * a y x) k y x = c * convSame2 a k y x := by
  unfold convSame2
  rw [Finset.mul_sum]
  refine Finset.sum_congr rfl fun j _ => ?_
  rw [Finset.mul_sum]
  refine Finset.sum_congr rfl fun i _ => ?_
  rw [← mul_assoc]
  congr 1
  unfold ext
  split
  · split <;> simp
  · simp

end

/-! ## the aperture sum -/

theorem aperSigma_bounds {n m : Nat} (num den : Fin n → Fin m → ℝ) (g : Fin n → ℝ) (dx dy lo hi : ℝ)
    (hd : 0 < dx * dy) (hg : ∀ j, 0 ≤ g j) (hlo : 0 ≤ lo)
    (h1 : ∀ j i, lo * den j i ≤ num j i) (h2 : ∀ j i, num j i ≤ hi * den j i)
    (hpos : 0 < ∑ j, ∑ i, den j i * g j) :
    ∃ s, aperSigma num den (fun j => .fin (g j)) dx dy = .fin s ∧
      Real.sqrt lo ≤ s ∧ s ≤ Real.sqrt hi ∧
      s ^ 2 * (∑ j, ∑ i, den j i * g j) = ∑ j, ∑ i, num j i * g j := by
  have hsum : ∀ f : Fin n → Fin m → ℝ,
      (∑ j, ∑ i, Fl.fin (f j i) * Fl.fin (g j) * Fl.fin dx * Fl.fin dy) =
        Fl.fin ((∑ j, ∑ i, f j i * g j) * (dx * dy)) := by
    intro f
    simp only [Fl.fin_mul, Fl.fin_sum]
    congr 1
    rw [Finset.sum_mul]
    refine Finset.sum_congr rfl fun j _ => ?_
    rw [Finset.sum_mul]
    refine Finset.sum_congr rfl fun i _ => ?_
    ring
  have hD : 0 < (∑ j, ∑ i, den j i * g j) * (dx * dy) := mul_pos hpos hd
  have hN1 : lo * (∑ j, ∑ i, den j i * g j) ≤ ∑ j, ∑ i, num j i * g j := by
    rw [Finset.mul_sum]
    refine Finset.sum_le_sum fun j _ => ?_
    rw [Finset.mul_sum]
    refine Finset.sum_le_sum fun i _ => ?_
    rw [← mul_assoc]
    exact mul_le_mul_of_nonneg_right (h1 j i) (hg j)
  have hN2 : ∑ j, ∑ i, num j i * g j ≤ hi * (∑ j, ∑ i, den j i * g j) := by
    rw [Finset.mul_sum]
    refine Finset.sum_le_sum fun j _ => ?_
    rw [Finset.mul_sum]
    refine Finset.sum_le_sum fun i _ => ?_
    rw [← mul_assoc]
    exact mul_le_mul_of_nonneg_right (h2 j i) (hg j)
  have hratio : (∑ j, ∑ i, num j i * g j) * (dx * dy) / ((∑ j, ∑ i, den j i * g j) * (dx * dy)) =
      (∑ j, ∑ i, num j i * g j) / (∑ j, ∑ i, den j i * g j) :=
    mul_div_mul_right _ _ (ne_of_gt hd)
  have hlo' : lo ≤ (∑ j, ∑ i, num j i * g j) / (∑ j, ∑ i, den j i * g j) := by
    rw [le_div_iff₀ hpos]; exact hN1
  have hhi' : (∑ j, ∑ i, num j i * g j) / (∑ j, ∑ i, den j i * g j) ≤ hi := by
    rw [div_le_iff₀ hpos]; exact hN2
  refine ⟨Real.sqrt ((∑ j, ∑ i, num j i * g j) / (∑ j, ∑ i, den j i * g j)), ?_,
    Real.sqrt_le_sqrt hlo', Real.sqrt_le_sqrt hhi', ?_⟩
  · unfold aperSigma
    rw [hsum num, hsum den, Fl.fin_div, if_neg (ne_of_gt hD), hratio]
    show (if _ < 0 then Fl.nan else Fl.fin _) = _
    rw [if_neg (not_lt.2 (le_trans hlo hlo'))]
  · rw [Real.sq_sqrt (le_trans hlo hlo'), div_mul_cancel₀ _ (ne_of_gt hpos)]

theorem fwhmFactor_pos : 0 < 2 * Real.sqrt (2 * Real.log 2) := by
  have : 0 < Real.log 2 := Real.log_pos (by norm_num)
  have : 0 < Real.sqrt (2 * Real.log 2) := Real.sqrt_pos.2 (by linarith)
  linarith

/-- Both known extraction methods give positive weights. -/
theorem extractWeights_pos (method : String) (width deltY : ℝ) (rows : Nat)
    (hm : method = "optimal" ∨ method = "boxcar") (hw : 0 < width / deltY) (hr : 0 < rows) :
    ∃ g : Fin rows → ℝ, extractWeights method width deltY rows = .ok (fun j => .fin (g j)) ∧
      ∀ j, 0 < g j := by
  rcases hm with rfl | rfl
  · have hs : 0 < (0.5 * width / deltY) / (2 * Real.sqrt (2 * Real.log 2)) := by
      apply div_pos _ fwhmFactor_pos
      rw [mul_div_assoc]
      exact mul_pos (by norm_num) hw
    set s := (0.5 * width / deltY) / (2 * Real.sqrt (2 * Real.log 2)) with hsdef
    set p : Fin rows → ℝ := fun j =>
      Real.exp (-((((j : ℝ) - ((rows : ℝ) - 1) / 2) - 0) / s) ^ 2 / 2) / Real.sqrt (2 * Real.pi) / s
      with hp
    have hpp : ∀ j, 0 < p j := fun j =>
      div_pos (div_pos (Real.exp_pos _) sqrt2pi_pos) hs
    have hsum : 0 < ∑ i, p i := by
      haveI : Nonempty (Fin rows) := ⟨⟨0, hr⟩⟩
      exact Finset.sum_pos (fun i _ => hpp i) Finset.univ_nonempty
    refine ⟨fun j => p j / ∑ i, p i, ?_, fun j => div_pos (hpp j) hsum⟩
    have hn : ∀ j : Fin rows, normPdf ((j : ℝ) - ((rows : ℝ) - 1) / 2) 0 s = .fin (p j) := by
      intro j
      rw [normPdf, if_pos hs]
    rw [extractWeights, if_pos rfl]
    simp only [← hsdef, hn, Fl.fin_sum, Fl.fin_div, if_neg (ne_of_gt hsum)]
  · refine ⟨fun _ => 1, ?_, fun _ => one_pos⟩
    rw [extractWeights, if_neg (by decide), if_pos rfl]

end Misfit
