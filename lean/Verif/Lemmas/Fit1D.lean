import Verif.Model.Fit1D
import Mathlib.Tactic.Positivity
import Mathlib.Tactic.FieldSimp
import Mathlib.Tactic.Linarith

namespace Misfit

section Max
variable {K : Type} [Field K] [LinearOrder K]

theorem foldl_npMax2_fin : ∀ (l : List K) (a : K), ∃ m, (l.map Fl.fin).foldl npMax2 (Fl.fin a) =
    Fl.fin m ∧ (m = a ∨ m ∈ l) ∧ a ≤ m ∧ ∀ y ∈ l, y ≤ m := by
  intro l
  induction l with
  | nil => intro a; exact ⟨a, rfl, Or.inl rfl, le_refl a, by simp⟩
  | cons b l ih =>
    intro a
    have hstep : npMax2 (Fl.fin a) (Fl.fin b) = Fl.fin (if a ≤ b then b else a) := by
      simp only [npMax2, Fl.leB_fin, decide_eq_true_eq]
      split <;> rfl
    obtain ⟨m, h1, h2, h3, h4⟩ := ih (if a ≤ b then b else a)
    refine ⟨m, ?_, ?_, ?_, ?_⟩
    · rw [List.map_cons, List.foldl_cons, hstep, h1]
    · rcases h2 with h2 | h2
      · by_cases hab : a ≤ b
        · rw [if_pos hab] at h2; exact Or.inr (by simp [h2])
        · rw [if_neg hab] at h2; exact Or.inl h2
      · exact Or.inr (by simp [h2])
    · refine le_trans ?_ h3
      split
      · assumption
      · exact le_refl a
    · intro y hy
      rw [List.mem_cons] at hy
      rcases hy with rfl | hy
      · refine le_trans ?_ h3
        split
        · exact le_refl _
        · rename_i h; exact le_of_lt (not_le.1 h)
      · exact h4 y hy

/-- The maximum of a non-empty array of finite values. -/
theorem npMax_fin (l : List K) (hl : l ≠ []) :
    ∃ m ∈ l, npMax (l.map Fl.fin) = some (Fl.fin m) ∧ ∀ y ∈ l, y ≤ m := by
  cases l with
  | nil => exact absurd rfl hl
  | cons a l =>
    obtain ⟨m, h1, h2, h3, h4⟩ := foldl_npMax2_fin l a
    refine ⟨m, ?_, ?_, ?_⟩
    · rcases h2 with h2 | h2
      · simp [h2]
      · simp [h2]
    · rw [List.map_cons, npMax, h1]
    · intro y hy
      rw [List.mem_cons] at hy
      rcases hy with rfl | hy
      · exact h3
      · exact h4 y hy

end Max

theorem foldl_npMax2_nan : ∀ l : List (Fl ℝ), l.foldl npMax2 Fl.nan = Fl.nan := by
  intro l
  induction l with
  | nil => rfl
  | cons a l ih => rw [List.foldl_cons]; exact ih

/-- The maximal Gaussian value is the one at the pixel nearest to the centre. -/
theorem gauss_nearest {x x0 mu sig : ℝ} (hs : 0 < sig)
    (h : Real.exp (-((x - mu) / sig) ^ 2 / 2) ≤ Real.exp (-((x0 - mu) / sig) ^ 2 / 2)) :
    |x0 - mu| ≤ |x - mu| := by
  rw [Real.exp_le_exp] at h
  have h2 : ((x0 - mu) / sig) ^ 2 ≤ ((x - mu) / sig) ^ 2 := by linarith
  rw [div_pow, div_pow, div_le_div_iff_of_pos_right (by positivity)] at h2
  exact sq_le_sq.1 h2

theorem sqrt2pi_pos : 0 < Real.sqrt (2 * Real.pi) := by
  apply Real.sqrt_pos.2
  have := Real.pi_pos
  linarith

theorem c1D_pos : 0 < c1D := by unfold c1D; norm_num

end Misfit
