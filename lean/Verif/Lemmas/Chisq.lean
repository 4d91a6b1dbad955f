import Verif.Model.Chisq
import Mathlib.Tactic.FieldSimp
import Mathlib.Tactic.Linarith
import Mathlib.Algebra.Order.BigOperators.Group.Finset
import Mathlib.Algebra.Order.BigOperators.Group.List
import Mathlib.Algebra.BigOperators.Ring.Finset

namespace Misfit
variable {K : Type*} [Field K] [LinearOrder K] [IsStrictOrderedRing K] {r c : Nat}

omit [IsStrictOrderedRing K] in
theorem Fl.fin_div_ne (a b : K) (hb : b ≠ 0) : (Fl.fin a / Fl.fin b : Fl K) = .fin (a / b) := by
  rw [Fl.fin_div, if_neg hb]

omit [IsStrictOrderedRing K] in
theorem Fl.sq_fin (a : K) : Fl.sq (Fl.fin a) = .fin (a * a) := rfl

omit [IsStrictOrderedRing K] in
theorem chisqPixel_fin (f e m w x : K) (he : e ≠ 0) :
    chisqPixel (.fin f) (.fin e) (.fin m) (.fin w) (.fin x) =
      .fin (((f - x) * m / e) * ((f - x) * m / e) * w) := by
  simp only [chisqPixel, Fl.fin_sub, Fl.fin_mul, Fl.fin_div_ne _ _ he, Fl.sq_fin]

omit [IsStrictOrderedRing K] in
theorem scaleNum_fin (f e m : Fin c → K) (nosky : List (Fin c)) (he : ∀ j ∈ nosky, e j ≠ 0) :
    scaleNum (fun j => .fin (f j)) (fun j => .fin (e j)) (fun j => .fin (m j)) nosky =
      .fin (nosky.map fun j => f j * m j / (e j * e j)).sum := by
  unfold scaleNum
  rw [← Fl.fin_list_sum]
  congr 1
  refine List.map_congr_left fun j hj => ?_
  simp only [Fl.sq_fin, Fl.fin_mul, Fl.fin_div_ne _ _ (mul_ne_zero (he j hj) (he j hj))]

omit [IsStrictOrderedRing K] in
theorem scaleDen_fin (e m : Fin c → K) (nosky : List (Fin c)) (he : ∀ j ∈ nosky, e j ≠ 0) :
    scaleDen (fun j => .fin (e j)) (fun j => .fin (m j)) nosky =
      .fin (nosky.map fun j => m j * m j / (e j * e j)).sum := by
  unfold scaleDen
  rw [← Fl.fin_list_sum]
  congr 1
  refine List.map_congr_left fun j hj => ?_
  simp only [Fl.sq_fin, Fl.fin_div_ne _ _ (mul_ne_zero (he j hj) (he j hj))]

theorem scaleRatio_fin (n d : K) :
    scaleRatio (.fin n) (.fin d) = .fin (if d = 0 then 0 else n / d) := by
  have habs : Fl.eqB (Fl.abs (Fl.fin d)) 0 = decide (d = 0) := by
    show decide ((if d < 0 then -d else d) = 0) = decide (d = 0)
    congr 1
    split <;> simp
  have h99 : (-99 : K) ≠ 0 := by
    have : (99 : K) ≠ 0 := by exact_mod_cast (by norm_num : (99 : ℕ) ≠ 0)
    simpa using this
  unfold scaleRatio
  simp only [habs, Fl.isFinite_fin, if_true, decide_eq_true_eq]
  split_ifs with h
  · rw [show (0 : Fl K) = .fin 0 from rfl, Fl.fin_div_ne _ _ h99]; simp
  · rw [Fl.fin_div_ne _ _ h]

/-- algebra: the quadratic `Σ ((f - b m)/e)²` -/
theorem list_sum_nonneg {ι : Type*} (l : List ι) (g : ι → K) (h : ∀ j ∈ l, 0 ≤ g j) :
    0 ≤ (l.map g).sum := by
  apply List.sum_nonneg
  intro x hx
  obtain ⟨j, hj, rfl⟩ := List.mem_map.1 hx
  exact h j hj

omit [LinearOrder K] [IsStrictOrderedRing K] in
theorem sum_quad {ι : Type*} (l : List ι) (f e m : ι → K) (he : ∀ j ∈ l, e j ≠ 0) (b : K) :
    (l.map fun j => ((f j - b * m j) / e j) * ((f j - b * m j) / e j)).sum =
      (l.map fun j => f j * f j / (e j * e j)).sum
      - 2 * b * (l.map fun j => f j * m j / (e j * e j)).sum
      + b * b * (l.map fun j => m j * m j / (e j * e j)).sum := by
  induction l with
  | nil => simp
  | cons a l ih =>
    have ha := he a (List.mem_cons_self ..)
    simp only [List.map_cons, List.sum_cons]
    rw [ih fun j hj => he j (List.mem_cons_of_mem _ hj)]
    field_simp
    ring

theorem den_nonneg {ι : Type*} (l : List ι) (e m : ι → K) :
    0 ≤ (l.map fun j => m j * m j / (e j * e j)).sum :=
  list_sum_nonneg _ _ fun j _ => div_nonneg (mul_self_nonneg _) (mul_self_nonneg _)

theorem den_eq_zero {ι : Type*} (l : List ι) (e m : ι → K) (he : ∀ j ∈ l, e j ≠ 0)
    (h : (l.map fun j => m j * m j / (e j * e j)).sum = 0) : ∀ j ∈ l, m j = 0 := by
  induction l with
  | nil => simp
  | cons a l ih =>
    simp only [List.map_cons, List.sum_cons] at h
    have h1 : 0 ≤ m a * m a / (e a * e a) := div_nonneg (mul_self_nonneg _) (mul_self_nonneg _)
    have h2 := den_nonneg l e m
    have ha := he a (List.mem_cons_self ..)
    intro j hj
    rcases List.mem_cons.1 hj with rfl | hj
    · have h3 : m j * m j / (e j * e j) = 0 := by linarith
      rcases div_eq_zero_iff.1 h3 with h4 | h4
      · exact mul_self_eq_zero.1 h4
      · exact absurd (mul_self_eq_zero.1 h4) ha
    · exact ih (fun j hj => he j (List.mem_cons_of_mem _ hj)) (by linarith) j hj

omit [LinearOrder K] [IsStrictOrderedRing K] in
theorem num_eq_zero {ι : Type*} (l : List ι) (f e m : ι → K) (h : ∀ j ∈ l, m j = 0) :
    (l.map fun j => f j * m j / (e j * e j)).sum = 0 := by
  induction l with
  | nil => simp
  | cons a l ih =>
    simp only [List.map_cons, List.sum_cons]
    rw [ih fun j hj => h j (List.mem_cons_of_mem _ hj), h a (List.mem_cons_self ..)]
    simp

/-- the quotient `num/den` (or any number when `den = 0`) minimises the quadratic -/
theorem quad_min {ι : Type*} (l : List ι) (f e m : ι → K) (he : ∀ j ∈ l, e j ≠ 0) (b : K) :
    let n := (l.map fun j => f j * m j / (e j * e j)).sum
    let d := (l.map fun j => m j * m j / (e j * e j)).sum
    let a := if d = 0 then 0 else n / d
    (l.map fun j => ((f j - a * m j) / e j) * ((f j - a * m j) / e j)).sum ≤
      (l.map fun j => ((f j - b * m j) / e j) * ((f j - b * m j) / e j)).sum := by
  intro n d a
  rw [sum_quad l f e m he a, sum_quad l f e m he b]
  by_cases hd : d = 0
  · have hm := den_eq_zero l e m he hd
    have hn := num_eq_zero l f e m hm
    rw [hn, show (l.map fun j => m j * m j / (e j * e j)).sum = 0 from hd]
    simp
  · have hdpos : 0 < d := lt_of_le_of_ne (den_nonneg l e m) (Ne.symm hd)
    have ha : a = n / d := if_neg hd
    change _ - 2 * a * n + a * a * d ≤ _ - 2 * b * n + b * b * d
    have had : a * d = n := by rw [ha]; field_simp
    have : 0 ≤ d * ((b - a) * (b - a)) := mul_nonneg hdpos.le (mul_self_nonneg _)
    have e1 : d * ((b - a) * (b - a)) = b * b * d - 2 * b * (a * d) + a * (a * d) := by ring
    have e2 : a * a * d = a * n := by rw [mul_assoc, had]
    rw [had] at e1
    rw [e2]
    linarith

end Misfit
