import Verif.Lemmas.Posterior

/-! # C176: how many samples the credible intervals contain -/

namespace Misfit

variable {K : Type*} [Field K] [LinearOrder K] [IsStrictOrderedRing K] [FloorRing K]

/-- Specification: number of samples with a property -/
def howMany (col : List K) (P : K → Prop) [DecidablePred P] : Nat := (col.filter fun x => decide (P x)).length

theorem howMany_sort (col : List K) (P : K → Prop) [DecidablePred P] :
    howMany (col.insertionSort (· ≤ ·)) P = howMany col P :=
  ((List.perm_insertionSort (· ≤ ·) col).filter _).length_eq

theorem howMany_split (col : List K) (P : K → Prop) [DecidablePred P] :
    howMany col P + howMany col (fun x => ¬ P x) = col.length := by
  induction col with
  | nil => rfl
  | cons a l ih =>
    unfold howMany at ih ⊢
    by_cases h : P a
    · rw [List.filter_cons_of_pos (by simpa using h), List.filter_cons_of_neg (by simpa using h)]
      simp only [List.length_cons]
      simp only at ih
      omega
    · rw [List.filter_cons_of_neg (by simpa using h), List.filter_cons_of_pos (by simpa using h)]
      simp only [List.length_cons]
      simp only at ih
      omega

/-- If the first `k` entries of a list have a property, at least `k` of its entries do. -/
theorem le_howMany_take (s : List K) (P : K → Prop) [DecidablePred P] (k : Nat) (hk : k ≤ s.length)
    (h : ∀ (i : Nat) (hi : i < s.length), i < k → P s[i]) : k ≤ howMany s P := by
  have h1 : (s.take k).filter (fun x => decide (P x)) = s.take k := by
    rw [List.filter_eq_self]
    intro x hx
    obtain ⟨i, hi, rfl⟩ := List.mem_iff_getElem.1 hx
    rw [List.length_take] at hi
    rw [List.getElem_take]
    exact decide_eq_true (h i (by omega) (by omega))
  have h2 : ((s.take k).filter fun x => decide (P x)).length ≤ howMany s P :=
    ((List.take_sublist k s).filter _).length_le
  rw [h1, List.length_take, min_eq_left hk] at h2
  exact h2

/-- If the entries from `k` on lack a property, at most `k` entries have it. -/
theorem howMany_le_take (s : List K) (P : K → Prop) [DecidablePred P] (k : Nat)
    (h : ∀ (i : Nat) (hi : i < s.length), k ≤ i → ¬ P s[i]) : howMany s P ≤ k := by
  have hsplit : s = s.take k ++ s.drop k := (List.take_append_drop k s).symm
  have h1 : (s.drop k).filter (fun x => decide (P x)) = [] := by
    rw [List.filter_eq_nil_iff]
    intro x hx
    obtain ⟨i, hi, rfl⟩ := List.mem_iff_getElem.1 hx
    rw [List.length_drop] at hi
    rw [List.getElem_drop, decide_eq_true_eq]
    exact h (k + i) (by omega) (by omega)
  unfold howMany
  rw [hsplit, List.filter_append, h1, List.append_nil]
  calc ((s.take k).filter fun x => decide (P x)).length ≤ (s.take k).length := List.length_filter_le _ _
    _ ≤ k := List.length_take_le _ _

/-- **C176**: the `q`th percentile splits the samples: more than `q` % of the number of samples less one are not above it, and at most one
more than that are below it. -/
theorem C176_percentile (col : List K) (q v : K) (hne : col ≠ []) (h0 : 0 ≤ q) (h1 : q ≤ 100) (hv : percentile col q = .ok v) :
    q / 100 * ((col.length : K) - 1) < howMany col (fun x => x ≤ v) ∧
      (howMany col (fun x => x < v) : K) ≤ q / 100 * ((col.length : K) - 1) + 1 := by
  have hlen : 0 < col.length := List.length_pos_iff.mpr hne
  have hc : (1 : K) ≤ (col.length : K) := by exact_mod_cast hlen
  have hs := asc_sort col
  have hh0 : 0 ≤ q / 100 * ((col.length : K) - 1) := mul_nonneg (div_nonneg h0 (by norm_num)) (by linarith)
  obtain ⟨w, hk, hw, hlo, hhi⟩ := lerpAt_bounds _ hs (q / 100 * ((col.length : K) - 1)) hh0 (by
    rw [List.length_insertionSort]
    calc q / 100 * ((col.length : K) - 1) ≤ 1 * ((col.length : K) - 1) :=
          mul_le_mul_of_nonneg_right (by rw [div_le_one (by norm_num)]; exact h1) (by linarith)
      _ = _ := one_mul _)
  have hvw : v = w := Except.ok.inj (hv.symm.trans hw)
  subst hvw
  rw [← howMany_sort col (fun x => x ≤ v), ← howMany_sort col (fun x => x < v)]
  obtain ⟨h, hh⟩ : ∃ h, h = q / 100 * ((col.length : K) - 1) := ⟨_, rfl⟩
  simp only [← hh] at hk hlo hhi hh0 ⊢
  constructor
  · refine lt_of_lt_of_le (Nat.lt_floor_add_one h) ?_
    have : ⌊h⌋₊ + 1 ≤ howMany (col.insertionSort (· ≤ ·)) (fun x => x ≤ v) :=
      le_howMany_take _ _ _ hk fun i hi hik => le_trans (hs i _ hi hk (by omega)) hlo
    exact_mod_cast this
  · have : howMany (col.insertionSort (· ≤ ·)) (fun x => x < v) ≤ ⌊h⌋₊ + 1 :=
      howMany_le_take _ _ _ fun i hi hik => not_lt.2 (le_trans (hhi (by omega)) (hs _ i (by omega) hi hik))
    calc (howMany (col.insertionSort (· ≤ ·)) (fun x => x < v) : K) ≤ ((⌊h⌋₊ + 1 : Nat) : K) := by exact_mod_cast this
      _ = (⌊h⌋₊ : K) + 1 := by push_cast; rfl
      _ ≤ h + 1 := by have := Nat.floor_le hh0; linarith

/-- Samples between two limits, by the samples below and not above. -/
theorem howMany_between (col : List K) (a b : K) (hab : a ≤ b) :
    howMany col (fun x => a ≤ x ∧ x ≤ b) + howMany col (fun x => x < a) = howMany col (fun x => x ≤ b) ∧
      howMany col (fun x => a < x ∧ x < b) + howMany col (fun x => x ≤ a) ≤ howMany col (fun x => x < b) + howMany col (fun x => x = b ∧ a = b) := by
  induction col with
  | nil => exact ⟨rfl, le_refl _⟩
  | cons y l ih =>
    obtain ⟨i1, i2⟩ := ih
    have key : ∀ (P : K → Prop) [DecidablePred P], howMany (y :: l) P = (if P y then 1 else 0) + howMany l P := by
      intro P _
      unfold howMany
      by_cases h : P y
      · rw [List.filter_cons_of_pos (by simpa using h), if_pos h, List.length_cons]
        omega
      · rw [List.filter_cons_of_neg (by simpa using h), if_neg h]
        omega
    simp only [key]
    constructor
    · rw [← i1]
      by_cases h1 : y < a
      · rw [if_neg (fun h => absurd h.1 (not_le.2 h1)), if_pos h1, if_pos (le_trans h1.le hab)]
        omega
      · rw [if_neg h1]
        by_cases h2 : y ≤ b
        · rw [if_pos ⟨not_lt.1 h1, h2⟩, if_pos h2]
          omega
        · rw [if_neg (fun h => h2 h.2), if_neg h2]
          omega
    · by_cases h1 : y ≤ a
      · rw [if_neg (fun h => absurd h.1 (not_lt.2 h1)), if_pos h1]
        by_cases h2 : y < b
        · rw [if_pos h2]
          omega
        · have e1 : y = b := le_antisymm (le_trans h1 hab) (not_lt.1 h2)
          have e2 : a = b := le_antisymm hab (e1 ▸ h1)
          rw [if_neg h2, if_pos ⟨e1, e2⟩]
          omega
      · rw [if_neg h1]
        by_cases h2 : y < b
        · rw [if_pos ⟨not_le.1 h1, h2⟩, if_pos h2]
          omega
        · rw [if_neg (fun h => h2 h.2), if_neg h2]
          omega

/-- Specification: an interval `l` holds the fraction `p` of the samples, up to one sample: more than `p` times the number of samples less
one, minus one, are in it, and (unless it is a point) at most one more than `p` times that number are inside it. -/
def HoldsFraction (col : List K) (p : K) (l : K × K) : Prop :=
  p * ((col.length : K) - 1) - 1 < howMany col (fun x => l.1 ≤ x ∧ x ≤ l.2) ∧
    (l.1 < l.2 → (howMany col (fun x => l.1 < x ∧ x < l.2) : K) < p * ((col.length : K) - 1) + 1)

theorem interval_fraction (col : List K) (hne : col ≠ []) (qlo qhi : K) (h0 : 0 ≤ qlo) (hq : qlo ≤ qhi) (h1 : qhi ≤ 100) (l : K × K)
    (h : percentilePair col qlo qhi = .ok l) : HoldsFraction col ((qhi - qlo) / 100) l := by
  obtain ⟨a, ha⟩ := percentile_ok col qlo hne h0 (le_trans hq h1)
  obtain ⟨b, hb⟩ := percentile_ok col qhi hne (le_trans h0 hq) h1
  rw [percentilePair, ha, hb] at h
  obtain rfl := Except.ok.inj h
  have hab := percentile_mono col _ _ _ _ hne h0 hq h1 ha hb
  obtain ⟨a1, a2⟩ := C176_percentile col qlo a hne h0 (le_trans hq h1) ha
  obtain ⟨b1, b2⟩ := C176_percentile col qhi b hne (le_trans h0 hq) h1 hb
  obtain ⟨i1, i2⟩ := howMany_between col a b hab
  have e : (qhi - qlo) / 100 * ((col.length : K) - 1) = qhi / 100 * ((col.length : K) - 1) - qlo / 100 * ((col.length : K) - 1) := by ring
  unfold HoldsFraction
  rw [e]
  constructor
  · have : (howMany col (fun x => a ≤ x ∧ x ≤ b) : K) + howMany col (fun x => x < a) = howMany col (fun x => x ≤ b) := by
      exact_mod_cast i1
    simp only
    linarith
  · intro hlt
    have hz : howMany col (fun x => x = b ∧ a = b) = 0 := by
      unfold howMany
      rw [List.length_eq_zero_iff, List.filter_eq_nil_iff]
      intro x _
      rw [decide_eq_true_eq]
      exact fun hh => absurd hh.2 (ne_of_lt hlt)
    rw [hz, add_zero] at i2
    have : (howMany col (fun x => a < x ∧ x < b) : K) + howMany col (fun x => x ≤ a) ≤ howMany col (fun x => x < b) := by
      exact_mod_cast i2
    simp only
    linarith

/-- **C176**: for every parameter the 1σ interval holds 68.27 % and the 2σ interval 95.45 % of the samples, with equal fractions of
15.865 % and 2.275 % left out on either side. -/
theorem C176_coverage (col : List K) (hne : col ≠ []) :
    ∃ l1 l2 : K × K, limits1 col = .ok l1 ∧ limits2 col = .ok l2 ∧
      HoldsFraction col 0.6827 l1 ∧ HoldsFraction col 0.9545 l2 ∧
      (∀ p l, (p = 0.15865 ∧ l = l1) ∨ (p = 0.02275 ∧ l = l2) →
        (howMany col (fun x => x < l.1) : K) ≤ p * ((col.length : K) - 1) + 1 ∧
        (howMany col (fun x => l.2 < x) : K) < p * ((col.length : K) - 1) + 1 ∧
        p * ((col.length : K) - 1) < howMany col (fun x => x ≤ l.1) ∧
        p * ((col.length : K) - 1) ≤ howMany col (fun x => l.2 ≤ x)) := by
  have hlen : 0 < col.length := List.length_pos_iff.mpr hne
  obtain ⟨a, ha⟩ := percentile_ok col 15.865 hne (by norm_num) (by norm_num)
  obtain ⟨b, hb⟩ := percentile_ok col 84.135 hne (by norm_num) (by norm_num)
  obtain ⟨c, hc⟩ := percentile_ok col 2.275 hne (by norm_num) (by norm_num)
  obtain ⟨d, hd⟩ := percentile_ok col 97.725 hne (by norm_num) (by norm_num)
  have e1 : limits1 col = .ok (a, b) := by rw [limits1, percentilePair, ha, hb]
  have e2 : limits2 col = .ok (c, d) := by rw [limits2, percentilePair, hc, hd]
  have key : ∀ (qlo qhi x y : K), 0 ≤ qlo → qlo ≤ 100 → qhi = 100 - qlo → percentile col qlo = .ok x → percentile col qhi = .ok y →
      (howMany col (fun t => t < x) : K) ≤ qlo / 100 * ((col.length : K) - 1) + 1 ∧
        (howMany col (fun t => y < t) : K) < qlo / 100 * ((col.length : K) - 1) + 1 ∧
        qlo / 100 * ((col.length : K) - 1) < howMany col (fun t => t ≤ x) ∧
        qlo / 100 * ((col.length : K) - 1) ≤ howMany col (fun t => y ≤ t) := by
    intro qlo qhi x y p1 p2 p3 hx hy
    obtain ⟨a1, a2⟩ := C176_percentile col qlo x hne p1 p2 hx
    obtain ⟨b1, b2⟩ := C176_percentile col qhi y hne (by rw [p3]; linarith) (by rw [p3]; linarith) hy
    have s1 := howMany_split col (fun t => t ≤ y)
    have s2 := howMany_split col (fun t => t < y)
    simp only [not_le] at s1
    simp only [not_lt] at s2
    have s1' : (howMany col (fun t => t ≤ y) : K) + howMany col (fun t => y < t) = col.length := by exact_mod_cast s1
    have s2' : (howMany col (fun t => t < y) : K) + howMany col (fun t => y ≤ t) = col.length := by exact_mod_cast s2
    have e : qhi / 100 * ((col.length : K) - 1) = (col.length : K) - 1 - qlo / 100 * ((col.length : K) - 1) := by
      rw [p3]
      ring
    rw [e] at b1 b2
    refine ⟨a2, by linarith, a1, by linarith⟩
  refine ⟨(a, b), (c, d), e1, e2, ?_, ?_, ?_⟩
  · have := interval_fraction col hne 15.865 84.135 (by norm_num) (by norm_num) (by norm_num) (a, b) e1
    rwa [show ((84.135 : K) - 15.865) / 100 = 0.6827 by norm_num] at this
  · have := interval_fraction col hne 2.275 97.725 (by norm_num) (by norm_num) (by norm_num) (c, d) e2
    rwa [show ((97.725 : K) - 2.275) / 100 = 0.9545 by norm_num] at this
  · rintro p l (⟨rfl, rfl⟩ | ⟨rfl, rfl⟩)
    · have := key 15.865 84.135 a b (by norm_num) (by norm_num) (by norm_num) ha hb
      rwa [show (15.865 : K) / 100 = 0.15865 by norm_num] at this
    · have := key 2.275 97.725 c d (by norm_num) (by norm_num) (by norm_num) hc hd
      rwa [show (2.275 : K) / 100 = 0.02275 by norm_num] at this

/-- the quartiles of five samples: three are in the interval, one inside -/
example : percentilePair [30, 10, 50, 20, (40 : ℚ)] 25 75 = .ok (20, 40) ∧
    howMany [30, 10, 50, 20, (40 : ℚ)] (fun x => 20 ≤ x ∧ x ≤ 40) = 3 ∧
    howMany [30, 10, 50, 20, (40 : ℚ)] (fun x => 20 < x ∧ x < 40) = 1 := by
  decide +kernel

end Misfit
