import Verif.Model.Chisq
import Mathlib.Tactic.FieldSimp
import Mathlib.Tactic.Positivity

/-! Helper lemmas for `Verif.Props.Units`: multiplication of floats by a positive number. -/

namespace Misfit
variable {K : Type*} [Field K] [LinearOrder K] [IsStrictOrderedRing K]

/-- a float times a number (which will be positive) -/
def Fl.scale (u : K) : Fl K → Fl K
  | .fin a => .fin (u * a)
  | .nan => .nan
  | .pinf => .pinf
  | .ninf => .ninf

namespace Fl

theorem infTimes_pos {u : K} (hu : 0 < u) (a : K) : infTimes (u * a) = infTimes a := by
  unfold infTimes
  by_cases h0 : a = 0
  · rw [if_pos h0, if_pos (by rw [h0, mul_zero])]
  · rw [if_neg h0, if_neg (mul_ne_zero hu.ne' h0)]
    simp [hu]

theorem scale_infTimes (u a : K) : scale u (infTimes a) = infTimes a := by
  unfold infTimes
  split_ifs <;> rfl

theorem scale_eq_mul {u : K} (hu : 0 < u) (a : Fl K) : scale u a = fin u * a := by
  cases a with
  | fin a => rfl
  | nan => rfl
  | pinf =>
    show pinf = infTimes u
    rw [infTimes, if_neg hu.ne', if_pos hu]
  | ninf =>
    show ninf = infTimes (-u)
    rw [infTimes, if_neg (neg_ne_zero.2 hu.ne'), if_neg (by simpa using hu.le)]

theorem scale_add (u : K) (a b : Fl K) : scale u (a + b) = scale u a + scale u b := by
  cases a <;> cases b <;> first | rfl | exact congrArg fin (mul_add _ _ _)

theorem scale_sub (u : K) (a b : Fl K) : scale u (a - b) = scale u a - scale u b := by
  cases a <;> cases b <;> first | rfl | skip
  rename_i x y
  show fin (u * (x + -y)) = fin (u * x + -(u * y))
  congr 1
  ring

theorem scale_mul {u : K} (hu : 0 < u) (a b : Fl K) : scale u a * b = scale u (a * b) := by
  cases a with
  | fin x =>
    cases b with
    | fin y => exact congrArg fin (mul_assoc _ _ _)
    | nan => rfl
    | pinf =>
      show infTimes (u * x) = scale u (infTimes x)
      rw [scale_infTimes, infTimes_pos hu]
    | ninf =>
      show infTimes (-(u * x)) = scale u (infTimes (-x))
      rw [scale_infTimes, ← mul_neg, infTimes_pos hu]
  | nan => cases b <;> rfl
  | pinf =>
    cases b with
    | fin y => exact (scale_infTimes u y).symm
    | nan => rfl
    | pinf => rfl
    | ninf => rfl
  | ninf =>
    cases b with
    | fin y => exact (scale_infTimes u (-y)).symm
    | nan => rfl
    | pinf => rfl
    | ninf => rfl

theorem mul_comm' (a b : Fl K) : a * b = b * a := by
  cases a <;> cases b <;> first | rfl | exact congrArg fin (mul_comm _ _)

theorem mul_scale {u : K} (hu : 0 < u) (a b : Fl K) : a * scale u b = scale u (a * b) := by
  rw [mul_comm', scale_mul hu, mul_comm']

theorem scale_div {u : K} (hu : 0 < u) (a b : Fl K) : scale u a / b = scale u (a / b) := by
  cases a with
  | fin x =>
    cases b with
    | fin y =>
      show (if y = 0 then infTimes (u * x) else fin (u * x / y)) = scale u (if y = 0 then infTimes x else fin (x / y))
      split
      · rw [scale_infTimes, infTimes_pos hu]
      · exact congrArg fin (mul_div_assoc _ _ _)
    | nan => rfl
    | pinf => exact congrArg fin (mul_zero u).symm
    | ninf => exact congrArg fin (mul_zero u).symm
  | nan => cases b <;> rfl
  | pinf =>
    cases b with
    | fin y =>
      show (if y < 0 then ninf else pinf) = scale u (if y < 0 then ninf else pinf)
      split <;> rfl
    | nan => rfl
    | pinf => rfl
    | ninf => rfl
  | ninf =>
    cases b with
    | fin y =>
      show (if y < 0 then pinf else ninf) = scale u (if y < 0 then pinf else ninf)
      split <;> rfl
    | nan => rfl
    | pinf => rfl
    | ninf => rfl

theorem div_units {u : K} (hu : 0 < u) (a b : Fl K) : a / scale u b = scale u⁻¹ (a / b) := by
  cases b with
  | fin y =>
    have h0 : u * y = 0 ↔ y = 0 := by simp [hu.ne']
    have hlt : u * y < 0 ↔ y < 0 := by
      constructor
      · intro h; by_contra hn; exact absurd h (not_lt.2 (mul_nonneg hu.le (not_lt.1 hn)))
      · intro h; exact mul_neg_of_pos_of_neg hu h
    cases a with
    | fin x =>
      show (if u * y = 0 then infTimes x else fin (x / (u * y))) =
        scale u⁻¹ (if y = 0 then infTimes x else fin (x / y))
      by_cases hy : y = 0
      · rw [if_pos (h0.2 hy), if_pos hy, scale_infTimes]
      · rw [if_neg (fun h => hy (h0.1 h)), if_neg hy]
        refine congrArg fin ?_
        field_simp
    | nan => rfl
    | pinf =>
      show (if u * y < 0 then ninf else pinf) = scale u⁻¹ (if y < 0 then ninf else pinf)
      by_cases hy : y < 0
      · rw [if_pos (hlt.2 hy), if_pos hy]; rfl
      · rw [if_neg (fun h => hy (hlt.1 h)), if_neg hy]; rfl
    | ninf =>
      show (if u * y < 0 then pinf else ninf) = scale u⁻¹ (if y < 0 then pinf else ninf)
      by_cases hy : y < 0
      · rw [if_pos (hlt.2 hy), if_pos hy]; rfl
      · rw [if_neg (fun h => hy (hlt.1 h)), if_neg hy]; rfl
  | nan => cases a <;> rfl
  | pinf => cases a <;> first | rfl | exact congrArg fin (mul_zero _).symm
  | ninf => cases a <;> first | rfl | exact congrArg fin (mul_zero _).symm

theorem scale_scale (u w : K) (a : Fl K) : scale u (scale w a) = scale (u * w) a := by
  cases a <;> first | rfl | exact congrArg fin (mul_assoc _ _ _).symm

theorem scale_one (a : Fl K) : scale 1 a = a := by
  cases a <;> first | rfl | exact congrArg fin (one_mul _)

theorem scale_div_scale {u : K} (hu : 0 < u) (a b : Fl K) : scale u a / scale u b = a / b := by
  rw [scale_div hu, div_units hu, scale_scale, mul_inv_cancel₀ hu.ne', scale_one]

theorem sq_scale {u : K} (hu : 0 < u) (a : Fl K) : sq (scale u a) = scale (u * u) (sq a) := by
  unfold sq
  rw [scale_mul hu, mul_scale hu, scale_scale]

theorem scale_list_sum {ι : Type*} (u : K) (f : ι → Fl K) : ∀ (l : List ι),
    (l.map fun j => scale u (f j)).sum = scale u (l.map f).sum
  | [] => congrArg fin (mul_zero u).symm
  | a :: l => by
      simp only [List.map_cons, List.sum_cons]
      rw [scale_list_sum u f l, scale_add]

theorem isFinite_scale (u : K) (a : Fl K) : (scale u a).isFinite = a.isFinite := by cases a <;> rfl

theorem abs_zero_scale {u : K} (hu : 0 < u) (a : Fl K) : eqB (abs (scale u a)) 0 = eqB (abs a) 0 := by
  cases a with
  | fin x =>
    show decide ((if u * x < 0 then -(u * x) else u * x) = 0) = decide ((if x < 0 then -x else x) = 0)
    have h1 : (if u * x < 0 then -(u * x) else u * x) = 0 ↔ x = 0 := by split <;> simp [hu.ne']
    have h2 : (if x < 0 then -x else x) = 0 ↔ x = 0 := by split <;> simp
    exact decide_eq_decide.2 (h1.trans h2.symm)
  | nan => rfl
  | pinf => rfl
  | ninf => rfl

/-- adding a number inside a product with a number -/
theorem fin_mul_add_fin (m k : K) (a : Fl K) : (fin m : Fl K) * (a + fin k) = fin m * a + fin (m * k) := by
  have h : ∀ x : K, infTimes x + fin (m * k) = infTimes x := by
    intro x
    unfold infTimes
    split_ifs <;> rfl
  cases a with
  | fin x => exact congrArg fin (mul_add _ _ _)
  | nan => rfl
  | pinf => exact (h m).symm
  | ninf => exact (h (-m)).symm

end Fl

theorem log10_scale {u : ℝ} (hu : 0 < u) (a : Fl ℝ) :
    log10 (Fl.scale u a) = log10 a + .fin (Real.logb 10 u) := by
  cases a with
  | fin x =>
    have h0 : u * x = 0 ↔ x = 0 := by simp [hu.ne']
    show (if 0 < u * x then Fl.fin (Real.logb 10 (u * x)) else if u * x = 0 then .ninf else .nan) =
      (if 0 < x then Fl.fin (Real.logb 10 x) else if x = 0 then .ninf else .nan) + .fin (Real.logb 10 u)
    by_cases hx : 0 < x
    · rw [if_pos hx, if_pos (mul_pos hu hx), Real.logb_mul hu.ne' hx.ne', Fl.fin_add, add_comm]
    · rw [if_neg hx, if_neg (fun h => hx (pos_of_mul_pos_right h hu.le))]
      by_cases h : x = 0
      · rw [if_pos h, if_pos (h0.2 h)]; rfl
      · rw [if_neg h, if_neg (fun h' => h (h0.1 h'))]; rfl
  | nan => rfl
  | pinf => rfl
  | ninf => rfl

end Misfit
