import Verif.Model.SlitPlot
import Mathlib.Data.List.Sort
import Mathlib.Tactic.Linarith
import Mathlib.Tactic.FieldSimp

/-!
# C227: the contrast of the image plot
-/

namespace Misfit

section Order
variable {K : Type} [Field K] [LinearOrder K]

/-- Specification: `a` is the value number `k` (counted from 0) when the values are put in order: it is one of them, at most `k` are smaller, and more
than `k` are not larger. -/
def IsKth (vals : List K) (k : Nat) (a : K) : Prop :=
  a ∈ vals ∧ vals.countP (fun x => decide (x < a)) ≤ k ∧ k < vals.countP fun x => decide (x ≤ a)

theorem sorted_kth (l : List K) (hl : l.Pairwise (· ≤ ·)) (k : Nat) (a : K) (ha : l[k]? = some a) : IsKth l k a := by
  obtain ⟨hk, e⟩ := List.getElem?_eq_some_iff.mp ha
  have hsplit : l = l.take k ++ a :: l.drop (k + 1) := by
    rw [← e, List.cons_getElem_drop_succ, List.take_append_drop]
  have hp := hl
  rw [hsplit, List.pairwise_append] at hp
  obtain ⟨-, h2, h3⟩ := hp
  rw [List.pairwise_cons] at h2
  have hlen : (l.take k).length = k := by rw [List.length_take]; omega
  refine ⟨List.mem_of_getElem? ha, ?_, ?_⟩
  · conv_lhs => rw [hsplit]
    rw [List.countP_append]
    have h0 : (a :: l.drop (k + 1)).countP (fun x => decide (x < a)) = 0 := by
      rw [List.countP_eq_zero]
      intro x hx
      rcases List.mem_cons.mp hx with rfl | hx
      · simp
      · simpa using h2.1 x hx
    rw [h0]
    have := (l.take k).countP_le_length (p := fun x => decide (x < a))
    omega
  · conv_rhs => rw [hsplit]
    rw [List.countP_append, List.countP_cons_of_pos (by simp)]
    have : (l.take k).countP (fun x => decide (x ≤ a)) = (l.take k).length := by
      rw [List.countP_eq_length]
      intro x hx
      simpa using h3 x hx a List.mem_cons_self
    omega

theorem isKth_perm {l l' : List K} (h : l.Perm l') {k : Nat} {a : K} (ha : IsKth l k a) : IsKth l' k a :=
  ⟨h.mem_iff.mp ha.1, h.countP_eq _ ▸ ha.2.1, h.countP_eq _ ▸ ha.2.2⟩

end Order

variable {K : Type} [Field K] [LinearOrder K] [IsStrictOrderedRing K] [FloorRing K] {ny nx : Nat}

/-- Specification: row or column `j` of `n` is in the Python slice between the two rounded limits; negative numbers count from the end. -/
def InSlice (n : Nat) (lim : K × K) (j : Nat) : Prop :=
  let from' := npRound lim.1
  let to' := npRound lim.2
  (if from' < 0 then from' + n else from') ≤ j ∧ (j : Int) < (if to' < 0 then to' + n else to')

/-- Specification: the absolute value of a finite number -/
def absNum {K : Type} [Field K] [LinearOrder K] : Fl K → Option K
  | .fin x => some |x|
  | _ => none

open Classical in
/-- Specification: the absolute values of the finite pixels in view -/
noncomputable def viewValues (img : Fin ny → Fin nx → Fl K) (xlim ylim : K × K) : List K :=
  (List.finRange ny).flatMap fun j : Fin ny => (List.finRange nx).filterMap fun i : Fin nx =>
    if InSlice ny ylim j.val ∧ InSlice nx xlim i.val then absNum (img j i) else none

theorem inSlice_bound (n : Nat) (lim : K × K) (j : Nat) (hj : j < n) :
    (decide (pySliceBound n (npRound lim.1) ≤ j) && decide (j < pySliceBound n (npRound lim.2))) = true ↔ InSlice n lim j := by
  unfold InSlice pySliceBound
  simp only [Bool.and_eq_true, decide_eq_true_eq]
  split_ifs <;> omega

/-- the number of a finite float -/
def finNum? {K : Type} : Fl K → Option K
  | .fin a => some a
  | _ => none

theorem finiteNums_filterMap {K : Type} (l : List (Fl K)) : finiteNums l = l.filterMap finNum? := by
  induction l with
  | nil => rfl
  | cons a l ih =>
    cases a with
    | fin x => rw [List.filterMap_cons_some (f := finNum?) (b := x) rfl, ← ih]; rfl
    | nan => rw [List.filterMap_cons_none rfl, ← ih]; rfl
    | pinf => rw [List.filterMap_cons_none rfl, ← ih]; rfl
    | ninf => rw [List.filterMap_cons_none rfl, ← ih]; rfl

theorem flatMap_filter {α β : Type*} (p : α → Bool) (f : α → List β) (l : List α) :
    (l.filter p).flatMap f = l.flatMap fun a => if p a then f a else [] := by
  induction l with
  | nil => rfl
  | cons a l ih =>
    rw [List.flatMap_cons, ← ih]
    by_cases h : p a = true
    · rw [List.filter_cons_of_pos h, List.flatMap_cons, if_pos h]
    · rw [List.filter_cons_of_neg h, if_neg h, List.nil_append]

theorem fieldNoise_values (img : Fin ny → Fin nx → Fl K) (xlim ylim : K × K) :
    fieldNoise img xlim ylim = medianSorted (((viewValues img xlim ylim).insertionSort (· ≤ ·)).take
      (((viewValues img xlim ylim).length + 1) / 2)) := by
  have h : viewValues img xlim ylim = (finiteNums (((List.finRange ny).filter fun j =>
      decide (pySliceBound ny (npRound ylim.1) ≤ j.val) && decide (j.val < pySliceBound ny (npRound ylim.2))).flatMap fun j =>
      ((List.finRange nx).filter fun i => decide (pySliceBound nx (npRound xlim.1) ≤ i.val) && decide (i.val < pySliceBound nx (npRound xlim.2))).map
        fun i => img j i)).map (|·|) := by
    rw [finiteNums_filterMap, List.map_filterMap, List.filterMap_flatMap, flatMap_filter]
    unfold viewValues
    refine List.flatMap_congr fun j _ => ?_
    have hj := inSlice_bound ny ylim j.val j.isLt
    by_cases h1 : InSlice ny ylim j.val
    · rw [if_pos (hj.mpr h1), List.filterMap_map, List.filterMap_filter]
      refine List.filterMap_congr fun i _ => ?_
      have hi := inSlice_bound nx xlim i.val i.isLt
      by_cases h2 : InSlice nx xlim i.val
      · rw [if_pos ⟨h1, h2⟩, if_pos (hi.mpr h2)]
        simp only [Function.comp]
        cases img j i <;> rfl
      · rw [if_neg (fun h => h2 h.2), if_neg (fun h => h2 (hi.mp h))]
    · rw [if_neg (fun h => h1 (hj.mp h))]
      rw [List.filterMap_eq_nil_iff]
      intro i _
      rw [if_neg (fun h => h1 h.1)]
  rw [h]
  rfl

/-- **C227**: the noise level of the image plot comes from the absolute values of the finite pixels in view: with `n` of them and `h` the half of `n` rounded
up, it is the mean of the values number `(h - 1)/2` and `h/2` in order (rounded down, counted from 0), that is the median of the lower half; without finite pixels in
view it is NaN. -/
theorem C227_level (img : Fin ny → Fin nx → Fl K) (xlim ylim : K × K) (vals : List K) (hv : vals = viewValues img xlim ylim) (h : Nat)
    (hh : h = (vals.length + 1) / 2) :
    (vals = [] → fieldNoise img xlim ylim = .nan) ∧
    (vals ≠ [] → ∃ a b, IsKth vals ((h - 1) / 2) a ∧ IsKth vals (h / 2) b ∧ fieldNoise img xlim ylim = .fin ((a + b) / 2)) := by
  rw [fieldNoise_values, ← hv, ← hh]
  constructor
  · intro h0
    rw [h0, List.insertionSort_nil, List.take_nil]
    rfl
  · intro h0
    have hpos : 0 < vals.length := List.length_pos_iff.mpr h0
    have hlen : (vals.insertionSort (· ≤ ·)).length = vals.length := List.length_insertionSort _ _
    have hperm := List.perm_insertionSort (· ≤ ·) vals
    have hsort : (vals.insertionSort (· ≤ ·)).Pairwise (· ≤ ·) := List.pairwise_insertionSort _ _
    have htl : ((vals.insertionSort (· ≤ ·)).take h).length = h := by rw [List.length_take, hlen]; omega
    have get : ∀ k, k < h → ∃ a, ((vals.insertionSort (· ≤ ·)).take h)[k]? = some a ∧ IsKth vals k a := by
      intro k hk
      refine ⟨_, List.getElem?_eq_getElem (by rw [htl]; exact hk), isKth_perm hperm (sorted_kth _ hsort k _ ?_)⟩
      rw [List.getElem_take]
      exact List.getElem?_eq_getElem _
    obtain ⟨a, ha, ha'⟩ := get ((h - 1) / 2) (by omega)
    obtain ⟨b, hb, hb'⟩ := get (h / 2) (by omega)
    refine ⟨a, b, ha', hb', ?_⟩
    unfold medianSorted
    rw [htl, ha, hb]

theorem isKth_unique {vals : List K} {k : Nat} {a b : K} (ha : IsKth vals k a) (hb : IsKth vals k b) : a = b := by
  have key : ∀ a b, IsKth vals k a → IsKth vals k b → ¬ a < b := by
    intro a b ha hb hab
    have : vals.countP (fun x => decide (x ≤ a)) ≤ vals.countP fun x => decide (x < b) := by
      refine List.countP_mono_left fun x _ hx => ?_
      simp only [decide_eq_true_eq] at hx ⊢
      exact lt_of_le_of_lt hx hab
    have h1 := ha.2.2
    have h2 := hb.2.1
    omega
  exact le_antisymm (not_lt.mp (key b a hb ha)) (not_lt.mp (key a b ha hb))

theorem isKth_mul {vals : List K} {k : Nat} {a : K} (ha : IsKth vals k a) (s : K) (hs : 0 < s) : IsKth (vals.map fun x => s * x) k (s * a) := by
  refine ⟨List.mem_map.mpr ⟨a, ha.1, rfl⟩, ?_, ?_⟩
  · rw [List.countP_map]
    have : ((fun x => decide (x < s * a)) ∘ fun x => s * x) = fun x => decide (x < a) := by
      funext x
      simp only [Function.comp, mul_lt_mul_iff_right₀ hs]
    rw [this]
    exact ha.2.1
  · rw [List.countP_map]
    have : ((fun x => decide (x ≤ s * a)) ∘ fun x => s * x) = fun x => decide (x ≤ a) := by
      funext x
      simp only [Function.comp, mul_le_mul_iff_right₀ hs]
    rw [this]
    exact ha.2.2

theorem absNum_mul (s : K) (hs : s ≠ 0) (y : Fl K) : absNum (.fin s * y) = (absNum y).map fun x => |s| * x := by
  cases y with
  | fin x =>
    show some |s * x| = some (|s| * |x|)
    rw [abs_mul]
  | nan => rfl
  | pinf =>
    show absNum (Fl.infTimes s) = none
    unfold Fl.infTimes
    split_ifs <;> rfl
  | ninf =>
    show absNum (Fl.infTimes (-s)) = none
    unfold Fl.infTimes
    split_ifs <;> rfl

/-- **C227**: the noise level goes with the unit of the image, and does not change with its sign. -/
theorem C227_scale (img : Fin ny → Fin nx → Fl K) (xlim ylim : K × K) (s : K) (hs : s ≠ 0) :
    fieldNoise (fun j i => .fin s * img j i) xlim ylim = .fin |s| * fieldNoise img xlim ylim := by
  have hpos : 0 < |s| := abs_pos.mpr hs
  have hv : viewValues (fun j i => .fin s * img j i) xlim ylim = (viewValues img xlim ylim).map fun x => |s| * x := by
    unfold viewValues
    rw [List.map_flatMap]
    refine List.flatMap_congr fun j _ => ?_
    rw [List.map_filterMap]
    refine List.filterMap_congr fun i _ => ?_
    split_ifs
    · exact absNum_mul s hs _
    · rfl
  obtain ⟨h1, h2⟩ := C227_level img xlim ylim _ rfl _ rfl
  obtain ⟨g1, g2⟩ := C227_level (fun j i => .fin s * img j i) xlim ylim _ rfl _ rfl
  rw [hv] at g1 g2
  rw [List.length_map] at g2
  by_cases h0 : viewValues img xlim ylim = []
  · rw [h1 h0, g1 (by rw [h0]; rfl)]
    rfl
  · obtain ⟨a, b, ha, hb, e⟩ := h2 h0
    obtain ⟨a', b', ha', hb', e'⟩ := g2 (by simpa using h0)
    rw [e, e', isKth_unique ha' (isKth_mul ha _ hpos), isKth_unique hb' (isKth_mul hb _ hpos), Fl.fin_mul]
    congr 1
    ring

/-- **C227**: on the colour scale of the plot, a pixel of minus the noise level is at the lower end and one of a hundred times the noise level at the upper end; pixels above
minus three times the noise level are shown and the brighter of two is higher on the scale, the others are not shown; and the picture does not depend on the unit of the
image. -/
theorem C227_shade (n : ℝ) (hn : 0 < n) :
    imageShade n (-n) = .fin 0 ∧ imageShade n (100 * n) = .fin 1 ∧
    (∀ v, (∃ t, imageShade n v = .fin t) ↔ -3 * n < v) ∧
    (∀ v w t u, imageShade n v = .fin t → imageShade n w = .fin u → (v < w ↔ t < u)) ∧
    ∀ s v, 0 < s → imageShade (s * n) (s * v) = imageShade n v := by
  have hlog : ∀ x y : ℝ, 0 < x → 0 < y → (x < y ↔ Real.logb 10 x < Real.logb 10 y) := fun x y hx hy =>
    (Real.logb_lt_logb_iff (by norm_num) hx hy).symm
  have hw : Real.logb 10 ((-1 + 3) * n) < Real.logb 10 ((100 + 3) * n) :=
    (hlog _ _ (by linarith) (by linarith)).mp (by linarith)
  have hd : 0 < Real.logb 10 ((100 + 3) * n) - Real.logb 10 ((-1 + 3) * n) := sub_pos.mpr hw
  have val : ∀ v, 0 < v + n * 3 → imageShade n v = .fin ((Real.logb 10 (v + n * 3) - Real.logb 10 ((-1 + 3) * n)) /
      (Real.logb 10 ((100 + 3) * n) - Real.logb 10 ((-1 + 3) * n))) := fun v hv => if_pos hv
  have shown : ∀ v, (∃ t, imageShade n v = .fin t) ↔ 0 < v + n * 3 := by
    intro v
    constructor
    · rintro ⟨t, ht⟩
      by_contra h
      unfold imageShade at ht
      dsimp only at ht
      rw [if_neg h] at ht
      split_ifs at ht
    · intro h
      exact ⟨_, val v h⟩
  refine ⟨?_, ?_, ?_, ?_, ?_⟩
  · rw [val _ (by linarith), show -n + n * 3 = (-1 + 3) * n by ring, sub_self, zero_div]
  · rw [val _ (by linarith), show 100 * n + n * 3 = (100 + 3) * n by ring, div_self hd.ne']
  · intro v
    rw [shown]
    constructor <;> intro h <;> linarith
  · intro v w t u ht hu
    have hv := (shown v).mp ⟨t, ht⟩
    have hw' := (shown w).mp ⟨u, hu⟩
    rw [val v hv] at ht
    rw [val w hw'] at hu
    cases ht
    cases hu
    rw [div_lt_div_iff_of_pos_right hd, sub_lt_sub_iff_right, ← hlog _ _ hv hw']
    exact (add_lt_add_iff_right _).symm
  · intro s v hs
    have e1 : s * v + s * n * 3 = s * (v + n * 3) := by ring
    have lg : ∀ x, 0 < x → Real.logb 10 (s * x) = Real.logb 10 s + Real.logb 10 x := fun x hx =>
      Real.logb_mul hs.ne' hx.ne'
    unfold imageShade
    dsimp only
    rw [e1, show (-1 + 3) * (s * n) = s * ((-1 + 3) * n) by ring, show (100 + 3) * (s * n) = s * ((100 + 3) * n) by ring,
      lg _ (by linarith : (0 : ℝ) < (-1 + 3) * n), lg _ (by linarith : (0 : ℝ) < (100 + 3) * n)]
    by_cases h : 0 < v + n * 3
    · rw [if_pos h, if_pos (mul_pos hs h), lg _ h]
      congr 1
      ring
    · rw [if_neg h, if_neg (fun h' => h ((mul_pos_iff_of_pos_left hs).mp h'))]
      simp only [mul_eq_zero, hs.ne', false_or]

/-- a case: five finite pixels in view, the lower half has three values, the level is the second smallest -/
example : viewValues (K := ℚ) (ny := 2) (nx := 3) (fun j i => if j.val = 1 ∧ i.val = 2 then .nan else .fin (-(j.val + 2 * i.val))) (0, 3) (0, 2) ≠ [] ∧
    fieldNoise (K := ℚ) (ny := 2) (nx := 3) (fun j i => if j.val = 1 ∧ i.val = 2 then .nan else .fin (-(j.val + 2 * i.val))) (0, 3) (0, 2) = .fin 1 := by
  have h : fieldNoise (K := ℚ) (ny := 2) (nx := 3) (fun j i => if j.val = 1 ∧ i.val = 2 then .nan else .fin (-(j.val + 2 * i.val))) (0, 3) (0, 2) =
    .fin 1 := by decide +kernel
  refine ⟨fun h0 => ?_, h⟩
  rw [(C227_level _ _ _ _ rfl _ rfl).1 h0] at h
  cases h

end Misfit
