import Verif.Props.Chisq
import Mathlib.Algebra.BigOperators.Group.Finset.Sigma
import Mathlib.Algebra.Order.Ring.Rat

/-!
# C83: the reduced chi-square

The specification counts pixels as a set of positions.
-/

namespace Misfit
variable {K : Type*} [Field K] [LinearOrder K] [IsStrictOrderedRing K] {r c : Nat}

/-- the positions used in the fit -/
def goodPixels (m : Fin r → Fin c → K) : Finset (Fin r × Fin c) :=
  Finset.univ.filter fun p => m p.1 p.2 = 1

theorem nPix_card (f e m w : Fin r → Fin c → K) : nPix (finData f e m w) = (goodPixels m).card := by
  unfold nPix goodPixels
  rw [Finset.card_filter, Fintype.sum_prod_type]
  refine Finset.sum_congr rfl fun i _ => Finset.sum_congr rfl fun j _ => ?_
  have : Fl.eqB ((finData f e m w).mask i j) (1 : Fl K) = decide (m i j = 1) := by
    simp only [finData, finImg]
    rfl
  rw [this]
  simp

/-- **C83**: with finite data and non-zero errors the reduced chi-square is the weighted squared residual
summed over the grid, divided by the number of used pixels minus the number of free parameters. -/
theorem C83_value (f e m w x : Fin r → Fin c → K) (he : ∀ i j, e i j ≠ 0) (n : Nat)
    (hn : (goodPixels m).card ≠ n) :
    modelRedchisq (finData f e m w) n (finImg x) =
      .fin ((∑ i, ∑ j, ((f i j - x i j) * m i j / e i j) ^ 2 * w i j) / (((goodPixels m).card : K) - n)) ∧
    modelRedchisqNoWeight (finData f e m w) n (finImg x) =
      .fin ((∑ i, ∑ j, ((f i j - x i j) * m i j / e i j) ^ 2) / (((goodPixels m).card : K) - n)) := by
  have h0 : (((goodPixels m).card : K) - n) ≠ 0 := by
    rw [sub_ne_zero]
    exact_mod_cast hn
  have h1 : ((((goodPixels m).card : ℤ) - (n : ℤ) : ℤ) : K) = ((goodPixels m).card : K) - n := by push_cast; rfl
  have hw : modelChisqNoWeight (finData f e m w) (finImg x) =
      .fin (∑ i, ∑ j, ((f i j - x i j) * m i j / e i j) ^ 2) := by
    have h2 : ∀ i j, Fl.sq ((((finData f e m w).flux i j - finImg x i j) * (finData f e m w).mask i j) /
        (finData f e m w).err i j) = .fin (((f i j - x i j) * m i j / e i j) ^ 2) := by
      intro i j
      simp only [finData, finImg]
      rw [Fl.fin_sub, Fl.fin_mul, Fl.fin_div, if_neg (he i j), Fl.sq, Fl.fin_mul, pow_two]
    simp only [modelChisqNoWeight, h2, Fl.fin_sum]
  constructor
  · unfold modelRedchisq
    rw [nPix_card, modelChisq_fin _ _ _ _ _ he, h1, Fl.fin_div, if_neg h0]
    simp only [pow_two]
  · unfold modelRedchisqNoWeight
    rw [nPix_card, hw, h1, Fl.fin_div, if_neg h0]

/-- **C83**: with as many free parameters as used pixels the reduced chi-square is not a number that can be
compared: NaN for a perfect fit, plus infinity otherwise. -/
theorem C83_no_freedom (f e m w x : Fin r → Fin c → K) (he : ∀ i j, e i j ≠ 0) (hw : ∀ i j, 0 ≤ w i j) :
    modelRedchisq (finData f e m w) (goodPixels m).card (finImg x) =
      if ∀ i j, m i j ≠ 0 → 0 < w i j → x i j = f i j then .nan else .pinf := by
  obtain ⟨q, hq, h0, hiff⟩ := C06_nonneg_zero_iff f e m w x he hw
  unfold modelRedchisq
  rw [nPix_card, hq, Fl.fin_div, if_pos (by simp)]
  by_cases h : ∀ i j, m i j ≠ 0 → 0 < w i j → x i j = f i j
  · rw [if_pos h, hiff.2 h]
    simp [Fl.infTimes]
  · rw [if_neg h]
    have hp : 0 < q := lt_of_le_of_ne h0 fun h' => h (hiff.1 h'.symm)
    simp only [Fl.infTimes]
    simp [hp, hp.ne', not_lt.2 hp.le]

/-- **C83**: calibration. If the mask is 0 or 1, the weights are one and the model misses every used pixel by
exactly its error, the reduced chi-square is `N / (N - n)`, whatever the masked pixels contain. -/
theorem C83_calibrated (f e m x : Fin r → Fin c → K) (he : ∀ i j, e i j ≠ 0)
    (hm : ∀ i j, m i j = 0 ∨ m i j = 1) (hx : ∀ i j, m i j = 1 → (f i j - x i j) ^ 2 = (e i j) ^ 2)
    (n : Nat) (hn : (goodPixels m).card ≠ n) :
    modelRedchisq (finData f e m fun _ _ => 1) n (finImg x) =
      .fin (((goodPixels m).card : K) / (((goodPixels m).card : K) - n)) := by
  rw [(C83_value f e m (fun _ _ => 1) x he n hn).1]
  congr 2
  rw [show goodPixels m = Finset.univ.filter fun p : Fin r × Fin c => m p.1 p.2 = 1 from rfl,
    Finset.card_filter, Nat.cast_sum, Fintype.sum_prod_type]
  refine Finset.sum_congr rfl fun i _ => Finset.sum_congr rfl fun j _ => ?_
  rcases hm i j with h | h
  · simp [h]
  · simp only [h, mul_one, if_true, Nat.cast_one]
    rw [div_pow, hx i j h, div_self (pow_ne_zero 2 (he i j))]

/-- **C83**: masked pixels do not enter, neither in the sum nor in the count. -/
theorem C83_masked_irrelevant (f f' e e' m w x x' : Fin r → Fin c → K)
    (he : ∀ i j, e i j ≠ 0) (he' : ∀ i j, e' i j ≠ 0)
    (h : ∀ i j, m i j ≠ 0 → f i j = f' i j ∧ e i j = e' i j ∧ x i j = x' i j) (n : Nat) :
    modelRedchisq (finData f e m w) n (finImg x) = modelRedchisq (finData f' e' m w) n (finImg x') := by
  unfold modelRedchisq
  rw [C06_masked_irrelevant f f' e e' m w x x' he he' h, nPix_card, nPix_card]

/-! ## C164: the weighted reference value -/

theorem weightRef_value (f e m w : Fin r → Fin c → K) (n : Nat) (hn : (goodPixels m).card ≠ n) :
    redchisqWeightRef (finData f e m w) n =
      .fin ((∑ i, ∑ j, w i j) / (((goodPixels m).card : K) - n)) := by
  have h0 : (((goodPixels m).card : K) - n) ≠ 0 := by
    rw [sub_ne_zero]
    exact_mod_cast hn
  have h1 : ((((goodPixels m).card : ℤ) - (n : ℤ) : ℤ) : K) = ((goodPixels m).card : K) - n := by push_cast; rfl
  have h2 : (∑ i, ∑ j, (finData f e m w).weight i j) = Fl.fin (∑ i, ∑ j, w i j) := by
    simp only [finData, finImg, Fl.fin_sum]
  unfold redchisqWeightRef
  rw [nPix_card, h1, h2, Fl.fin_div, if_neg h0]

/-- **C164**: exactly when does the reference value equal the weighted reduced chi-square of a model that misses every
used pixel by exactly its error? When the weights of the masked pixels add up to nothing. -/
theorem C164_exact (f e m w x : Fin r → Fin c → K) (he : ∀ i j, e i j ≠ 0)
    (hm : ∀ i j, m i j = 0 ∨ m i j = 1) (hx : ∀ i j, m i j = 1 → (f i j - x i j) ^ 2 = (e i j) ^ 2)
    (n : Nat) (hn : (goodPixels m).card ≠ n) :
    redchisqWeightRef (finData f e m w) n = modelRedchisq (finData f e m w) n (finImg x) ↔
      (∑ i, ∑ j, if m i j = 1 then 0 else w i j) = 0 := by
  have h0 : (((goodPixels m).card : K) - n) ≠ 0 := by
    rw [sub_ne_zero]
    exact_mod_cast hn
  rw [weightRef_value f e m w n hn, (C83_value f e m w x he n hn).1, Fl.fin.injEq, div_left_inj' h0,
    ← sub_eq_zero, ← Finset.sum_sub_distrib]
  have : ∀ i j, w i j - ((f i j - x i j) * m i j / e i j) ^ 2 * w i j = if m i j = 1 then 0 else w i j := by
    intro i j
    rcases hm i j with h | h
    · simp [h]
    · rw [if_pos h, h, mul_one, div_pow, hx i j h, div_self (pow_ne_zero 2 (he i j)), one_mul, sub_self]
  simp only [← Finset.sum_sub_distrib, this]

/-- **C164** (partial): without masked pixels the reference is the reduced chi-square of such a model. Missing from the
full claim: masked pixels, see `C164_false`. -/
theorem C164_unmasked_partial (f e w x : Fin r → Fin c → K) (he : ∀ i j, e i j ≠ 0)
    (hx : ∀ i j, (f i j - x i j) ^ 2 = (e i j) ^ 2) (n : Nat) (hn : r * c ≠ n) :
    redchisqWeightRef (finData f e (fun _ _ => 1) w) n =
      modelRedchisq (finData f e (fun _ _ => 1) w) n (finImg x) := by
  refine (C164_exact f e _ w x he (fun _ _ => Or.inr rfl) (fun i j _ => hx i j) n ?_).2 (by simp)
  simpa [goodPixels] using hn

/-- **C164**, negation: with positive weights and at least one masked pixel the reference differs from the reduced
chi-square of such a model; for more used pixels than parameters it is larger. -/
theorem C164_false (f e m w x : Fin r → Fin c → K) (he : ∀ i j, e i j ≠ 0)
    (hm : ∀ i j, m i j = 0 ∨ m i j = 1) (hx : ∀ i j, m i j = 1 → (f i j - x i j) ^ 2 = (e i j) ^ 2)
    (hw : ∀ i j, 0 < w i j) (hmask : ∃ i j, m i j = 0) (n : Nat) (hn : n < (goodPixels m).card) :
    ∃ ref red, redchisqWeightRef (finData f e m w) n = .fin ref ∧
      modelRedchisq (finData f e m w) n (finImg x) = .fin red ∧ red < ref := by
  refine ⟨_, _, weightRef_value f e m w n hn.ne', (C83_value f e m w x he n hn.ne').1, ?_⟩
  have hpos : (0 : K) < ((goodPixels m).card : K) - n := by
    rw [sub_pos]; exact_mod_cast hn
  refine div_lt_div_of_pos_right ?_ hpos
  have hle : ∀ i j, ((f i j - x i j) * m i j / e i j) ^ 2 * w i j ≤ w i j ∧
      (m i j = 0 → ((f i j - x i j) * m i j / e i j) ^ 2 * w i j < w i j) := by
    intro i j
    rcases hm i j with h | h
    · simp [h, hw i j, (hw i j).le]
    · refine ⟨?_, fun h' => absurd (h.symm.trans h') one_ne_zero⟩
      rw [h, mul_one, div_pow, hx i j h, div_self (pow_ne_zero 2 (he i j)), one_mul]
  obtain ⟨i, j, hij⟩ := hmask
  refine Finset.sum_lt_sum (fun i _ => Finset.sum_le_sum fun j _ => (hle i j).1) ⟨i, Finset.mem_univ _, ?_⟩
  exact Finset.sum_lt_sum (fun j _ => (hle i j).1) ⟨j, Finset.mem_univ _, (hle i j).2 hij⟩

/-- three pixels of weight one, one masked, one free parameter: reference 3, reduced chi-square 2 -/
example : redchisqWeightRef (K := ℚ) (r := 1) (c := 3)
    (finData ![![1, 5, 7]] ![![2, 1, 1]] ![![1, 0, 1]] ![![1, 1, 1]]) 1 = .fin 3 := by
  decide +kernel

/-- three pixels, one masked, one free parameter: chi-square 1 + 1 over 2 - 1 -/
example : modelRedchisq (K := ℚ) (r := 1) (c := 3)
    (finData ![![1, 5, 7]] ![![2, 1, 1]] ![![1, 0, 1]] ![![1, 1, 1]]) 1 (finImg ![![3, 100, 8]]) = .fin 2 := by
  decide +kernel

example : modelRedchisq (K := ℚ) (r := 1) (c := 3)
    (finData ![![1, 5, 7]] ![![2, 1, 1]] ![![1, 0, 1]] ![![1, 1, 1]]) 2 (finImg ![![3, 100, 8]]) = .pinf := by
  decide +kernel

end Misfit
