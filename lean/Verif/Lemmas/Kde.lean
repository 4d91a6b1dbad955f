import Mathlib.Analysis.SpecialFunctions.ExpDeriv
import Mathlib.Analysis.Calculus.LocalExtr.Basic
import Mathlib.Analysis.Calculus.Deriv.Pow
import Mathlib.LinearAlgebra.BilinearForm.Basic
import Mathlib.LinearAlgebra.BilinearForm.Properties

/-!
# Stationary points of Gaussian kernel density estimates

A point where a sum of equal Gaussian bumps is largest along every line lies between the smallest and the largest sample,
measured with any linear function.
-/

namespace Misfit

section
variable {E : Type*} [AddCommGroup E] [Module ℝ E]

/-- sum of one Gaussian bump for each sample, with the quadratic form of `b` -/
noncomputable def bumps (b : LinearMap.BilinForm ℝ E) (xs : List E) (x : E) : ℝ :=
  (xs.map fun y => Real.exp (-(1 / 2) * b (x - y) (x - y))).sum

theorem bumps_deriv (b : LinearMap.BilinForm ℝ E) (hb : b.IsSymm) (x v : E) : ∀ xs : List E,
    HasDerivAt (fun t : ℝ => bumps b xs (x + t • v))
      (xs.map fun y => Real.exp (-(1 / 2) * b (x - y) (x - y)) * -(b (x - y) v)).sum 0
  | [] => by
      have : (fun t : ℝ => bumps b [] (x + t • v)) = fun _ => 0 := rfl
      rw [this]
      exact hasDerivAt_const _ _
  | y :: xs => by
      have ih := bumps_deriv b hb x v xs
      have hq : ∀ t : ℝ, b (x + t • v - y) (x + t • v - y) =
          b (x - y) (x - y) + t * (2 * b (x - y) v) + t ^ 2 * b v v := by
        intro t
        have e : x + t • v - y = (x - y) + t • v := by abel
        have hs : b v (x - y) = b (x - y) v := hb.eq v (x - y) |>.symm ▸ rfl
        rw [e]
        simp only [map_add, LinearMap.add_apply, map_smul, LinearMap.smul_apply, smul_eq_mul, hs]
        ring
      have h1 : HasDerivAt (fun t : ℝ => -(1 / 2) * b (x + t • v - y) (x + t • v - y)) (-(b (x - y) v)) 0 := by
        simp only [hq]
        have h2 : HasDerivAt (fun t : ℝ => b (x - y) (x - y) + t * (2 * b (x - y) v) + t ^ 2 * b v v)
            (2 * b (x - y) v) 0 := by
          have ha := ((hasDerivAt_id (0 : ℝ)).mul_const (2 * b (x - y) v)).const_add (b (x - y) (x - y))
          have hc := (((hasDerivAt_id (0 : ℝ)).pow 2).mul_const (b v v))
          exact (ha.add hc).congr_deriv (by simp)
        have h4 := h2.const_mul (-(1 / 2) : ℝ)
        have e5 : -(1 / 2) * (2 * b (x - y) v) = -(b (x - y) v) := by ring
        rw [e5] at h4
        exact h4
      have h3 := h1.exp
      have e0 : x + (0 : ℝ) • v - y = x - y := by simp
      rw [e0] at h3
      have := h3.add ih
      rw [List.map_cons, List.sum_cons]
      exact this

theorem list_sum_zero_mem {α : Type*} (g : α → ℝ) : ∀ l : List α, (∀ a ∈ l, 0 < g a) → l ≠ [] → 0 < (l.map g).sum
  | [a], h, _ => by simpa using h a (by simp)
  | a :: c :: l, h, _ => by
      rw [List.map_cons, List.sum_cons]
      have := list_sum_zero_mem g (c :: l) (fun d hd => h d (List.mem_cons_of_mem _ hd)) (by simp)
      exact add_pos (h a (by simp)) this

/-- At a point that is a local maximum along every line, the samples balance. -/
theorem bumps_balance (b : LinearMap.BilinForm ℝ E) (hb : b.IsSymm) (hpos : ∀ v, v ≠ 0 → 0 < b v v) (xs : List E) (x : E)
    (hmax : ∀ v, IsLocalMax (fun t : ℝ => bumps b xs (x + t • v)) 0) :
    (xs.map fun y => Real.exp (-(1 / 2) * b (x - y) (x - y)) • (x - y)).sum = 0 := by
  have hz : ∀ v, (xs.map fun y => Real.exp (-(1 / 2) * b (x - y) (x - y)) * -(b (x - y) v)).sum = 0 := fun v =>
    (hmax v).hasDerivAt_eq_zero (bumps_deriv b hb x v xs)
  set S := (xs.map fun y => Real.exp (-(1 / 2) * b (x - y) (x - y)) • (x - y)).sum with hS
  by_contra hne
  have hbS : ∀ v, b S v = -(xs.map fun y => Real.exp (-(1 / 2) * b (x - y) (x - y)) * -(b (x - y) v)).sum := by
    intro v
    rw [hS]
    clear_value S
    clear hS hne hz hmax
    induction xs with
    | nil => simp
    | cons y xs ih =>
      simp only [List.map_cons, List.sum_cons, map_add, LinearMap.add_apply, map_smul, LinearMap.smul_apply, smul_eq_mul, ih]
      ring
  have := hpos S hne
  rw [hbS S, hz S] at this
  simp at this

/-- … so no linear function is smaller there than at all samples, nor larger. -/
theorem bumps_between (b : LinearMap.BilinForm ℝ E) (hb : b.IsSymm) (hpos : ∀ v, v ≠ 0 → 0 < b v v) (xs : List E) (x : E)
    (hne : xs ≠ []) (hmax : ∀ v, IsLocalMax (fun t : ℝ => bumps b xs (x + t • v)) 0) (φ : E →ₗ[ℝ] ℝ) (lo hi : ℝ)
    (hlo : ∀ y ∈ xs, lo ≤ φ y) (hhi : ∀ y ∈ xs, φ y ≤ hi) : lo ≤ φ x ∧ φ x ≤ hi := by
  have hbal := congrArg φ (bumps_balance b hb hpos xs x hmax)
  rw [map_zero, map_list_sum, List.map_map] at hbal
  have e : (φ ∘ fun y => Real.exp (-(1 / 2) * b (x - y) (x - y)) • (x - y)) =
      fun y => Real.exp (-(1 / 2) * b (x - y) (x - y)) * (φ x - φ y) := by
    funext y
    simp
  rw [e] at hbal
  constructor
  · by_contra h
    rw [not_le] at h
    have := list_sum_zero_mem (fun y => -(Real.exp (-(1 / 2) * b (x - y) (x - y)) * (φ x - φ y))) xs
      (fun y hy => by
        have := hlo y hy
        have h2 : φ x - φ y < 0 := by linarith
        exact neg_pos.2 (mul_neg_of_pos_of_neg (Real.exp_pos _) h2)) hne
    have e2 : (xs.map fun y => -(Real.exp (-(1 / 2) * b (x - y) (x - y)) * (φ x - φ y))).sum =
        -(xs.map fun y => Real.exp (-(1 / 2) * b (x - y) (x - y)) * (φ x - φ y)).sum := by
      clear this hbal e h hlo hhi hmax hne
      induction xs with
      | nil => simp
      | cons y xs ih =>
        rw [List.map_cons, List.sum_cons, ih, List.map_cons, List.sum_cons, neg_add]
    rw [e2, hbal] at this
    simp at this
  · by_contra h
    rw [not_le] at h
    have := list_sum_zero_mem (fun y => Real.exp (-(1 / 2) * b (x - y) (x - y)) * (φ x - φ y)) xs
      (fun y hy => by
        have := hhi y hy
        have h2 : 0 < φ x - φ y := by linarith
        exact mul_pos (Real.exp_pos _) h2) hne
    rw [hbal] at this
    exact lt_irrefl _ this

end

end Misfit
