import Verif.Model.Plot
import Mathlib.Algebra.BigOperators.Fin
import Mathlib.Algebra.Order.Ring.Rat
import Mathlib.Tactic.Linarith
import Mathlib.Tactic.Positivity
import Mathlib.Tactic.FieldSimp
import Mathlib.Tactic.Ring
import Mathlib.Data.Fin.VecNotation

/-!
# C89: box integration
-/

namespace Misfit
variable {K : Type*} [Field K] [LinearOrder K] [IsStrictOrderedRing K]

/-- length of the common part of `[a, b]` and `[c, d]` -/
def overlapLen (a b c d : K) : K := max 0 (min b d - max a c)

/-- equally spaced positions -/
def uniform (n : Nat) (x0 dx : K) : Fin n → K := fun k => x0 + (k : Nat) * dx

theorem getLast_filter {n : Nat} (P : Fin n → Bool) (i : Fin n) (hi : P i = true)
    (h : ∀ k, i < k → P k = false) : ((List.finRange n).filter P).getLast? = some i := by
  have hs := (List.pairwise_lt_finRange n).filter (p := P)
  have hm : i ∈ (List.finRange n).filter P := by simp [hi]
  cases hl : ((List.finRange n).filter P).getLast? with
  | none =>
    rw [List.getLast?_eq_none_iff] at hl
    rw [hl] at hm
    simp at hm
  | some j =>
    obtain ⟨l, hl'⟩ := List.getLast?_eq_some_iff.1 hl
    have hj : P j = true := by
      have : j ∈ (List.finRange n).filter P := by rw [hl']; simp
      simpa using this
    rw [hl'] at hs hm
    rcases List.mem_append.1 hm with h1 | h1
    · have := List.pairwise_append.1 hs
      have h2 := this.2.2 i h1 j (by simp)
      exact absurd (h j h2) (by simp [hj])
    · simp only [List.mem_singleton] at h1
      rw [h1]

theorem head_filter {n : Nat} (P : Fin n → Bool) (i : Fin n) (hi : P i = true)
    (h : ∀ k, k < i → P k = false) : ((List.finRange n).filter P).head? = some i := by
  have hs := (List.pairwise_lt_finRange n).filter (p := P)
  have hm : i ∈ (List.finRange n).filter P := by simp [hi]
  cases hl : (List.finRange n).filter P with
  | nil => rw [hl] at hm; simp at hm
  | cons j l =>
    have hj : P j = true := by
      have : j ∈ (List.finRange n).filter P := by rw [hl]; simp
      simpa using this
    rw [hl] at hs hm
    rcases List.mem_cons.1 hm with h1 | h1
    · simp [h1]
    · have h2 := (List.pairwise_cons.1 hs).1 i h1
      exact absurd (h j h2) (by simp [hj])

theorem sum_filter_finRange {n : Nat} (P : Fin n → Bool) (y : Fin n → K) :
    (((List.finRange n).filter P).map y).sum = ∑ k, if P k = true then y k else 0 := by
  rw [← List.sum_ofFn, List.ofFn_eq_map]
  generalize List.finRange n = l
  induction l with
  | nil => rfl
  | cons a l ih =>
    by_cases h : P a = true
    · simp [h, ih]
    · simp [h, ih]

theorem uniform_edge {n : Nat} (x0 dx : K) (hdx : 0 < dx) {i k : Fin n} (h : i < k) :
    uniform n x0 dx i + dx / 2 ≤ uniform n x0 dx k - dx / 2 := by
  have h1 : ((i : Nat) : K) + 1 ≤ ((k : Nat) : K) := by exact_mod_cast h
  have h2 := mul_le_mul_of_nonneg_right h1 hdx.le
  unfold uniform
  linarith

theorem uniform_upper (n : Nat) (x0 dx : K) (k : Fin n) :
    uniform n x0 dx k + dx / 2 = uniform n x0 dx k - dx / 2 + dx := by ring

/-- A new pixel that starts strictly inside one old pixel and ends strictly inside a later one. -/
theorem boxSum_average {n : Nat} (x0 dx : K) (hdx : 0 < dx) (y : Fin n → K) (low high : K) (i j : Fin n)
    (hij : i < j)
    (hl1 : uniform n x0 dx i - dx / 2 < low) (hl2 : low < uniform n x0 dx i + dx / 2)
    (hh1 : uniform n x0 dx j - dx / 2 < high) (hh2 : high < uniform n x0 dx j + dx / 2) :
    boxSum (uniform n x0 dx) y dx low high =
      ∑ k, y k * overlapLen (uniform n x0 dx k - dx / 2) (uniform n x0 dx k + dx / 2) low high := by
  unfold boxSum
  have hL := getLast_filter (fun k => decide (uniform n x0 dx k - dx / 2 ≤ low)) i (by simpa using hl1.le)
    (fun k hk => by
      have := uniform_edge x0 dx hdx hk
      simp only [decide_eq_false_iff_not, not_le]
      linarith)
  have hR := head_filter (fun k => decide (high ≤ uniform n x0 dx k + dx / 2)) j (by simpa using hh2.le)
    (fun k hk => by
      have := uniform_edge x0 dx hdx hk
      simp only [decide_eq_false_iff_not, not_le]
      linarith)
  simp only [hL, hR, sum_filter_finRange]
  have hlow : low < high := by
    have := uniform_edge x0 dx hdx hij
    linarith
  have hsplit : ∀ k, y k * overlapLen (uniform n x0 dx k - dx / 2) (uniform n x0 dx k + dx / 2) low high =
      (if (decide (low ≤ uniform n x0 dx k - dx / 2) && decide (uniform n x0 dx k + dx / 2 ≤ high)) = true
        then y k else 0) * dx +
      (if k = i then y k * (uniform n x0 dx k + dx / 2 - low) else 0) +
      (if k = j then y k * (high - (uniform n x0 dx k - dx / 2)) else 0) := by
    intro k
    have hu := uniform_upper n x0 dx k
    unfold overlapLen
    rcases lt_trichotomy k i with h | h | h
    · have h1 := uniform_edge x0 dx hdx h
      have h2 := uniform_edge x0 dx hdx (h.trans hij)
      rw [if_neg h.ne, if_neg (h.trans hij).ne, if_neg (by
        simp only [Bool.and_eq_true, decide_eq_true_eq, not_and, not_le]; intro h3; linarith)]
      rw [max_eq_left (by rw [sub_nonpos]; exact le_trans (min_le_left _ _) (le_trans (by linarith) (le_max_right _ _)))]
      ring
    · subst h
      rw [if_pos rfl, if_neg hij.ne, if_neg (by
        simp only [Bool.and_eq_true, decide_eq_true_eq, not_and, not_le]; intro h3; linarith)]
      have h1 := uniform_edge x0 dx hdx hij
      rw [min_eq_left (by linarith), max_eq_right (a := uniform n x0 dx k - dx / 2) hl1.le, max_eq_right (by linarith)]
      ring
    · have h0 := uniform_edge x0 dx hdx h
      rcases lt_trichotomy k j with h' | h' | h'
      · have h1 := uniform_edge x0 dx hdx h'
        rw [if_neg h.ne', if_neg h'.ne, if_pos (by
          simp only [Bool.and_eq_true, decide_eq_true_eq]; constructor <;> linarith)]
        rw [min_eq_left (by linarith), max_eq_left (a := uniform n x0 dx k - dx / 2) (by linarith),
          max_eq_right (by linarith)]
        ring
      · subst h'
        rw [if_neg h.ne', if_pos rfl, if_neg (by
          simp only [Bool.and_eq_true, decide_eq_true_eq, not_and, not_le]; intro h3; linarith)]
        rw [min_eq_right (by linarith), max_eq_left (a := uniform n x0 dx k - dx / 2) (by linarith),
          max_eq_right (by linarith)]
        ring
      · have h1 := uniform_edge x0 dx hdx h'
        rw [if_neg h.ne', if_neg h'.ne', if_neg (by
          simp only [Bool.and_eq_true, decide_eq_true_eq, not_and, not_le]; intro h3; linarith)]
        rw [max_eq_left (by
          rw [sub_nonpos]; exact le_trans (min_le_right _ _) (le_trans (by linarith) (le_max_left _ _)))]
        ring
  rw [Finset.sum_congr rfl fun k _ => hsplit k, Finset.sum_add_distrib, Finset.sum_add_distrib,
    ← Finset.sum_mul]
  simp

/-- A new pixel whose edges coincide with edges of old pixels `i ≤ j`. -/
theorem boxSum_aligned {n : Nat} (x0 dx : K) (hdx : 0 < dx) (y : Fin n → K) (i j : Fin n) (hij : i ≤ j) :
    boxSum (uniform n x0 dx) y dx (uniform n x0 dx i - dx / 2) (uniform n x0 dx j + dx / 2) =
      (∑ k, if i ≤ k ∧ k ≤ j then y k else 0) * dx + y i * dx + y j * dx := by
  unfold boxSum
  have hle : ∀ a b : Fin n, uniform n x0 dx a ≤ uniform n x0 dx b ↔ a ≤ b := by
    intro a b
    constructor
    · intro h
      by_contra hc
      have := uniform_edge x0 dx hdx (not_le.1 hc)
      linarith
    · intro h
      rcases h.eq_or_lt with rfl | h
      · exact le_rfl
      · have := uniform_edge x0 dx hdx h
        linarith
  have hL := getLast_filter (fun k => decide (uniform n x0 dx k - dx / 2 ≤ uniform n x0 dx i - dx / 2)) i (by simp)
    (fun k hk => by
      have := uniform_edge x0 dx hdx hk
      simp only [decide_eq_false_iff_not, not_le]
      linarith)
  have hR := head_filter (fun k => decide (uniform n x0 dx j + dx / 2 ≤ uniform n x0 dx k + dx / 2)) j (by simp)
    (fun k hk => by
      have := uniform_edge x0 dx hdx hk
      simp only [decide_eq_false_iff_not, not_le]
      linarith)
  simp only [hL, hR, sum_filter_finRange]
  have hc : ∀ k, ((decide (uniform n x0 dx i - dx / 2 ≤ uniform n x0 dx k - dx / 2) &&
      decide (uniform n x0 dx k + dx / 2 ≤ uniform n x0 dx j + dx / 2)) = true) ↔ (i ≤ k ∧ k ≤ j) := by
    intro k
    simp only [Bool.and_eq_true, decide_eq_true_eq, sub_le_sub_iff_right, add_le_add_iff_right, hle]
  simp only [hc]
  ring

theorem zipWith_steps (f : Nat → K) (n : Nat) :
    (List.zipWith (fun b a => b - a) ((List.ofFn fun k : Fin (n + 1) => f k).drop 1)
      (List.ofFn fun k : Fin (n + 1) => f k).dropLast).sum = f n - f 0 := by
  induction n generalizing f with
  | zero => simp
  | succ n ih =>
    have h1 := ih (fun k => f (k + 1))
    rw [List.ofFn_succ]
    rw [List.ofFn_succ] at h1
    rw [List.ofFn_succ]
    simp only [Fin.val_zero, Fin.val_succ, List.drop_succ_cons, List.drop_zero, List.dropLast_cons₂,
      List.zipWith_cons_cons, List.sum_cons] at h1 ⊢
    rw [h1]
    ring

/-- the mean step of equally spaced positions is the step -/
theorem meanStep_uniform (n : Nat) (hn : 2 ≤ n) (x0 dx : K) :
    meanStep (List.ofFn (uniform n x0 dx)) = .fin dx := by
  obtain ⟨m, rfl⟩ : ∃ m, n = m + 1 + 1 := ⟨n - 2, by omega⟩
  unfold meanStep
  have h := zipWith_steps (fun k => x0 + (k : K) * dx) (m + 1)
  rw [show List.ofFn (uniform (m + 1 + 1) x0 dx) = List.ofFn fun k : Fin (m + 1 + 1) => x0 + ((k : Nat) : K) * dx from rfl, h]
  have hz : (((List.ofFn fun k : Fin (m + 1 + 1) => x0 + ((k : Nat) : K) * dx).length - 1 : Nat) : K) ≠ 0 := by
    simp only [List.length_ofFn, Nat.add_sub_cancel]
    exact_mod_cast Nat.succ_ne_zero m
  rw [Fl.fin_div, if_neg hz]
  congr 1
  rw [div_eq_iff hz]
  simp only [List.length_ofFn, Nat.add_sub_cancel]
  simp
  ring

theorem boxIntegrate_uniform {n m : Nat} (hn : 2 ≤ n) (hm : 2 ≤ m) (x0 dx x0' dx' : K) (hdx' : 0 < dx')
    (y : Fin n → K) :
    boxIntegrate (uniform n x0 dx) y (List.ofFn (uniform m x0' dx')) =
      List.ofFn fun p => .fin (boxSum (uniform n x0 dx) y dx (uniform m x0' dx' p - dx' / 2)
        (uniform m x0' dx' p + dx' / 2) / dx') := by
  unfold boxIntegrate
  rw [meanStep_uniform n hn, meanStep_uniform m hm]
  simp only [List.map_ofFn]
  congr 1
  funext p
  simp only [Function.comp, Fl.fin_div, if_neg hdx'.ne']

/-- **C89** (partial): a new pixel that starts strictly inside one old pixel and ends strictly inside a later one
receives the average of the old piecewise constant function over it: every old value times the length of the
common part, divided by the width of the new pixel.  Missing: pixel edges that coincide, new
pixels inside one old pixel or beyond the data, see the `C89_false` theorems. -/
theorem C89_average_partial {n m : Nat} (hn : 2 ≤ n) (hm : 2 ≤ m) (x0 dx x0' dx' : K) (hdx : 0 < dx) (hdx' : 0 < dx')
    (y : Fin n → K) (p : Fin m) (i j : Fin n) (hij : i < j)
    (hl1 : uniform n x0 dx i - dx / 2 < uniform m x0' dx' p - dx' / 2)
    (hl2 : uniform m x0' dx' p - dx' / 2 < uniform n x0 dx i + dx / 2)
    (hh1 : uniform n x0 dx j - dx / 2 < uniform m x0' dx' p + dx' / 2)
    (hh2 : uniform m x0' dx' p + dx' / 2 < uniform n x0 dx j + dx / 2) :
    (boxIntegrate (uniform n x0 dx) y (List.ofFn (uniform m x0' dx')))[(p : Nat)]? =
      some (.fin ((∑ k, y k * overlapLen (uniform n x0 dx k - dx / 2) (uniform n x0 dx k + dx / 2)
        (uniform m x0' dx' p - dx' / 2) (uniform m x0' dx' p + dx' / 2)) / dx')) := by
  rw [boxIntegrate_uniform hn hm x0 dx x0' dx' hdx', List.getElem?_ofFn, dif_pos p.2,
    ← boxSum_average x0 dx hdx y _ _ i j hij hl1 hl2 hh1 hh2]

/-- **C89**, negation: resampling onto the same positions triples every value. -/
theorem C89_false_same {n : Nat} (hn : 2 ≤ n) (x0 dx : K) (hdx : 0 < dx) (y : Fin n → K) :
    boxIntegrate (uniform n x0 dx) y (List.ofFn (uniform n x0 dx)) = List.ofFn fun k => .fin (3 * y k) := by
  rw [boxIntegrate_uniform hn hn x0 dx x0 dx hdx]
  congr 1
  funext p
  rw [boxSum_aligned x0 dx hdx y p p le_rfl]
  have : (∑ k, if p ≤ k ∧ k ≤ p then y k else 0) = y p := by
    rw [Finset.sum_eq_single p]
    · simp
    · intro b _ hb
      rw [if_neg]
      exact fun h => hb (le_antisymm h.2 h.1)
    · simp
  rw [this]
  congr 1
  field_simp
  ring

/-- **C89**, negation: binning by an exact factor `m` adds the first and the last value of each bin once more. -/
theorem C89_false_binning {n b m : Nat} (hm : 1 ≤ m) (hb : 2 ≤ b) (hnb : n = b * m) (x0 dx : K) (hdx : 0 < dx)
    (y : Fin n → K) (p : Fin b) (i j : Fin n) (hi : (i : Nat) = p * m) (hj : (j : Nat) = p * m + (m - 1)) :
    (boxIntegrate (uniform n x0 dx) y
      (List.ofFn (uniform b (x0 + ((m : K) - 1) / 2 * dx) ((m : K) * dx))))[(p : Nat)]? =
      some (.fin (((∑ k, if i ≤ k ∧ k ≤ j then y k else 0) + y i + y j) / m)) := by
  have hm0 : (0 : K) < (m : K) := by exact_mod_cast hm
  have hn : 2 ≤ n := by rw [hnb]; nlinarith
  rw [boxIntegrate_uniform hn hb x0 dx _ _ (mul_pos hm0 hdx), List.getElem?_ofFn, dif_pos p.2]
  have hij : i ≤ j := by
    rw [Fin.le_def, hi, hj]
    omega
  have e1 : uniform b (x0 + ((m : K) - 1) / 2 * dx) ((m : K) * dx) p - (m : K) * dx / 2 = uniform n x0 dx i - dx / 2 := by
    unfold uniform
    rw [hi]
    push_cast
    ring
  have e2 : uniform b (x0 + ((m : K) - 1) / 2 * dx) ((m : K) * dx) p + (m : K) * dx / 2 = uniform n x0 dx j + dx / 2 := by
    unfold uniform
    rw [hj]
    push_cast [Nat.cast_sub hm]
    ring
  rw [show (⟨(p : Nat), p.2⟩ : Fin b) = p from rfl, e1, e2, boxSum_aligned x0 dx hdx y i j hij]
  congr 2
  field_simp

/-- **C89**, negation: a new pixel strictly inside old pixel `i` receives its value times `1 + dx / dx'`. -/
theorem C89_false_finer {n m : Nat} (hn : 2 ≤ n) (hm : 2 ≤ m) (x0 dx x0' dx' : K) (hdx : 0 < dx) (hdx' : 0 < dx')
    (y : Fin n → K) (p : Fin m) (i : Fin n)
    (hl : uniform n x0 dx i - dx / 2 < uniform m x0' dx' p - dx' / 2)
    (hh : uniform m x0' dx' p + dx' / 2 < uniform n x0 dx i + dx / 2) :
    (boxIntegrate (uniform n x0 dx) y (List.ofFn (uniform m x0' dx')))[(p : Nat)]? =
      some (.fin (y i * (1 + dx / dx'))) := by
  rw [boxIntegrate_uniform hn hm x0 dx x0' dx' hdx', List.getElem?_ofFn, dif_pos p.2]
  rw [show (⟨(p : Nat), p.2⟩ : Fin m) = p from rfl]
  generalize hlo : uniform m x0' dx' p - dx' / 2 = low at hl
  generalize hhi : uniform m x0' dx' p + dx' / 2 = high at hh
  have hw : high - low = dx' := by rw [← hlo, ← hhi]; ring
  have hL := getLast_filter (fun k => decide (uniform n x0 dx k - dx / 2 ≤ low)) i (by simpa using hl.le)
    (fun k hk => by
      have := uniform_edge x0 dx hdx hk
      simp only [decide_eq_false_iff_not, not_le]
      linarith)
  have hR := head_filter (fun k => decide (high ≤ uniform n x0 dx k + dx / 2)) i (by simpa using hh.le)
    (fun k hk => by
      have := uniform_edge x0 dx hdx hk
      simp only [decide_eq_false_iff_not, not_le]
      linarith)
  have h0 : ∀ k, ¬ ((decide (low ≤ uniform n x0 dx k - dx / 2) && decide (uniform n x0 dx k + dx / 2 ≤ high)) = true) := by
    intro k
    simp only [Bool.and_eq_true, decide_eq_true_eq, not_and, not_le]
    intro h3
    have hu := uniform_upper n x0 dx k
    have hui := uniform_upper n x0 dx i
    linarith
  unfold boxSum
  simp only [hL, hR, sum_filter_finRange, if_neg (h0 _), Finset.sum_const_zero, zero_mul, zero_add]
  rw [show high = low + dx' by rw [← hw]; ring]
  congr 2
  field_simp
  ring

/-- **C89**, negation: beyond the last old pixel the result is not zero but the last value with a negative
factor. -/
theorem C89_false_outside {n m : Nat} (hm : 2 ≤ m) (x0 dx x0' dx' : K) (hdx : 0 < dx)
    (hdx' : 0 < dx') (y : Fin (n + 2) → K) (p : Fin m)
    (hl : uniform (n + 2) x0 dx (Fin.last _) + dx / 2 < uniform m x0' dx' p - dx' / 2) :
    (boxIntegrate (uniform (n + 2) x0 dx) y (List.ofFn (uniform m x0' dx')))[(p : Nat)]? =
      some (.fin (-(y (Fin.last _) * ((uniform m x0' dx' p - dx' / 2 -
        (uniform (n + 2) x0 dx (Fin.last _) + dx / 2)) / dx')))) := by
  rw [boxIntegrate_uniform (by omega) hm x0 dx x0' dx' hdx', List.getElem?_ofFn, dif_pos p.2]
  rw [show (⟨(p : Nat), p.2⟩ : Fin m) = p from rfl]
  have hw : uniform m x0' dx' p - dx' / 2 < uniform m x0' dx' p + dx' / 2 := by linarith
  generalize uniform m x0' dx' p - dx' / 2 = low at hl hw
  generalize uniform m x0' dx' p + dx' / 2 = high at hw
  have hlast : ∀ k, uniform (n + 2) x0 dx k ≤ uniform (n + 2) x0 dx (Fin.last _) := by
    intro k
    rcases (Fin.le_last k).eq_or_lt with rfl | h
    · exact le_rfl
    · have := uniform_edge x0 dx hdx h
      linarith
  have hL := getLast_filter (fun k => decide (uniform (n + 2) x0 dx k - dx / 2 ≤ low)) (Fin.last _)
    (by simp only [decide_eq_true_eq]; linarith) (fun k hk => absurd (Fin.le_last k) (not_le.2 hk))
  have hR : (List.finRange (n + 2)).filter (fun k => decide (high ≤ uniform (n + 2) x0 dx k + dx / 2)) = [] := by
    rw [List.filter_eq_nil_iff]
    intro k _
    have := hlast k
    simp only [decide_eq_true_eq, not_le]
    linarith
  have h0 : ∀ k, ¬ ((decide (low ≤ uniform (n + 2) x0 dx k - dx / 2) &&
      decide (uniform (n + 2) x0 dx k + dx / 2 ≤ high)) = true) := by
    intro k
    have := hlast k
    simp only [Bool.and_eq_true, decide_eq_true_eq, not_and, not_le]
    intro h3
    linarith
  unfold boxSum
  simp only [hL, hR, List.head?_nil, sum_filter_finRange, if_neg (h0 _), Finset.sum_const_zero, zero_mul, zero_add]
  congr 2
  ring

/-- What `box_integrate` adds to the common length of an old pixel `[lo, lo + dx]` and a new pixel
`[low, high]`: its width once more for every edge that coincides while the old pixel lies in the new one, its
width when the new pixel is part of it, and a negative length for the pixels at the ends of the data. -/
def boxExtra (first last : Prop) [Decidable first] [Decidable last] (lo dx low high : K) : K :=
  (if low = lo ∧ lo + dx ≤ high then dx else 0) + (if high = lo + dx ∧ low ≤ lo then dx else 0) +
  (if lo ≤ low ∧ high ≤ lo + dx ∧ ¬ (low = lo ∧ high = lo + dx) then dx else 0) +
  (if last ∧ lo + dx < low then lo + dx - low else 0) + (if first ∧ high < lo then high - lo else 0)

theorem boxExtra_spec (first last : Prop) [Decidable first] [Decidable last] (lo dx low high : K)
    (hdx : 0 < dx) (hlh : low < high) :
    (if low ≤ lo ∧ lo + dx ≤ high then dx else 0) +
      (if lo ≤ low ∧ (last ∨ low < lo + dx) then lo + dx - low else 0) +
      (if high ≤ lo + dx ∧ (first ∨ lo < high) then high - lo else 0) =
    overlapLen lo (lo + dx) low high + boxExtra first last lo dx low high := by
  unfold overlapLen boxExtra
  obtain ⟨hi, rfl⟩ : ∃ hi, dx = hi - lo := ⟨lo + dx, by ring⟩
  have hlt : lo < hi := sub_pos.1 hdx
  simp only [add_sub_cancel]
  rcases lt_trichotomy low lo with h1 | rfl | h1
  · rw [max_eq_left h1.le]
    rcases lt_trichotomy high hi with h2 | rfl | h2
    · rw [min_eq_right h2.le]
      rcases lt_trichotomy high lo with h3 | rfl | h3
      · rw [max_eq_left (by linarith)]
        simp [h1.not_ge, h1.ne, h2.not_ge, h2.ne, h2.le, h3, h3.le, h3.not_gt, (h1.trans hlt).not_gt]
      · simp [h1.not_ge, h1.ne, h2.not_ge, h2.ne, h2.le, (h1.trans hlt).not_gt]
      · rw [max_eq_right (by linarith)]
        simp [h1.not_ge, h1.ne, h2.not_ge, h2.ne, h2.le, h3, h3.not_gt, (h1.trans hlt).not_gt]
    · rw [min_self, max_eq_right (by linarith)]
      simp [h1.not_ge, h1.ne, h1.le, hlt, hlt.not_gt, (h1.trans hlt).not_gt]
    · rw [min_eq_left h2.le, max_eq_right (by linarith)]
      simp [h1.not_ge, h1.ne, h1.le, h2.le, h2.not_ge, h2.ne', (hlt.trans h2).not_gt, (h1.trans hlt).not_gt]
  · rw [max_self]
    rcases lt_trichotomy high hi with h2 | rfl | h2
    · rw [min_eq_right h2.le, max_eq_right (by linarith)]
      simp [h2.not_ge, h2.ne, h2.le, hlh, hlh.not_gt, hlt, hlt.not_gt]
      ring
    · rw [min_self, max_eq_right (by linarith)]
      simp [hlt, hlt.not_gt]
      ring
    · rw [min_eq_left h2.le, max_eq_right (by linarith)]
      simp [hlt, hlt.not_gt, h2.le, h2.not_ge, h2.ne', hlh.not_gt]
  · rw [max_eq_right h1.le]
    have h5 : lo < high := h1.trans hlh
    rcases lt_trichotomy high hi with h2 | rfl | h2
    · rw [min_eq_right h2.le, max_eq_right (by linarith)]
      simp [h1.not_ge, h1.le, h1.ne', h2.not_ge, h2.ne, h2.le, h5, h5.not_gt, hlh.trans h2, (hlh.trans h2).not_gt]
      ring
    · rw [min_self, max_eq_right (by linarith)]
      simp [h1.not_ge, h1.le, h1.ne', h5, h5.not_gt, hlh, hlh.not_gt]
    · rw [min_eq_left h2.le]
      rcases lt_trichotomy low hi with h3 | rfl | h3
      · rw [max_eq_right (by linarith)]
        simp [h1.not_ge, h1.le, h1.ne', h2.not_ge, h2.ne', h5.not_gt, h3, h3.not_gt]
      · simp [h1.not_ge, h1.ne', h2.not_ge, h2.ne', h5.not_gt]
      · rw [max_eq_left (by linarith)]
        simp [h1.not_ge, h1.le, h1.ne', h2.not_ge, h2.ne', h5.not_gt, h3, h3.not_gt]

/-- The sum of `box_integrate` for every new pixel: common lengths plus the extra lengths. -/
theorem boxSum_formula {n : Nat} (x0 dx : K) (hdx : 0 < dx) (y : Fin n → K) (low high : K) (hlh : low < high) :
    boxSum (uniform n x0 dx) y dx low high =
      ∑ k : Fin n, y k * (overlapLen (uniform n x0 dx k - dx / 2) (uniform n x0 dx k + dx / 2) low high +
        boxExtra ((k : Nat) = 0) ((k : Nat) + 1 = n) (uniform n x0 dx k - dx / 2) dx low high) := by
  have hstep : ∀ (k : Nat) (h : k + 1 < n), uniform n x0 dx ⟨k + 1, h⟩ - dx / 2 =
      uniform n x0 dx ⟨k, by omega⟩ - dx / 2 + dx := by
    intro k h; simp only [uniform]; push_cast; ring
  have hL : (match ((List.finRange n).filter fun k => decide (uniform n x0 dx k - dx / 2 ≤ low)).getLast? with
      | some k => y k * (uniform n x0 dx k + dx / 2 - low) | none => 0) =
      ∑ k : Fin n, y k * (if uniform n x0 dx k - dx / 2 ≤ low ∧
        ((k : Nat) + 1 = n ∨ low < uniform n x0 dx k - dx / 2 + dx) then
          uniform n x0 dx k - dx / 2 + dx - low else 0) := by
    cases hl : ((List.finRange n).filter fun k => decide (uniform n x0 dx k - dx / 2 ≤ low)).getLast? with
    | none =>
      rw [List.getLast?_eq_none_iff, List.filter_eq_nil_iff] at hl
      refine (Finset.sum_eq_zero fun k _ => ?_).symm
      rw [if_neg fun h => by simpa using (hl k (by simp) (by simpa using h.1)), mul_zero]
    | some i =>
      obtain ⟨l, hl'⟩ := List.getLast?_eq_some_iff.1 hl
      have hi : uniform n x0 dx i - dx / 2 ≤ low := by
        have : i ∈ (List.finRange n).filter fun k => decide (uniform n x0 dx k - dx / 2 ≤ low) := by
          rw [hl']; simp
        simpa using this
      have hgt : ∀ k, i < k → low < uniform n x0 dx k - dx / 2 := by
        intro k hk
        by_contra hc
        have hm : k ∈ (List.finRange n).filter fun k => decide (uniform n x0 dx k - dx / 2 ≤ low) := by
          simpa using hc
        have hs := (List.pairwise_lt_finRange n).filter (p := fun k => decide (uniform n x0 dx k - dx / 2 ≤ low))
        rw [hl'] at hm hs
        rcases List.mem_append.1 hm with h1 | h1
        · exact absurd ((List.pairwise_append.1 hs).2.2 k h1 i (by simp)) (not_lt.2 hk.le)
        · exact absurd (List.mem_singleton.1 h1) hk.ne'
      rw [Finset.sum_eq_single i]
      · have hc : (i : Nat) + 1 = n ∨ low < uniform n x0 dx i - dx / 2 + dx := by
          by_cases hn : (i : Nat) + 1 = n
          · exact .inl hn
          · right
            have h1 := hgt ⟨i + 1, by omega⟩ (by rw [Fin.lt_def]; simp)
            rw [hstep] at h1
            exact h1
        rw [if_pos ⟨hi, hc⟩, ← uniform_upper]
      · intro k _ hk
        rw [if_neg, mul_zero]
        rintro ⟨h1, h2⟩
        have hki : k < i := lt_of_le_of_ne (not_lt.1 fun h => absurd (hgt k h) (not_lt.2 h1)) hk
        rcases h2 with h2 | h2
        · have := i.2
          rw [Fin.lt_def] at hki; omega
        · have := uniform_edge x0 dx hdx hki
          linarith
      · intro h; exact absurd (Finset.mem_univ _) h
  have hR : (match ((List.finRange n).filter fun k => decide (high ≤ uniform n x0 dx k + dx / 2)).head? with
      | some k => y k * (high - (uniform n x0 dx k - dx / 2)) | none => 0) =
      ∑ k : Fin n, y k * (if high ≤ uniform n x0 dx k - dx / 2 + dx ∧
        ((k : Nat) = 0 ∨ uniform n x0 dx k - dx / 2 < high) then
          high - (uniform n x0 dx k - dx / 2) else 0) := by
    cases hl : (List.finRange n).filter fun k => decide (high ≤ uniform n x0 dx k + dx / 2) with
    | nil =>
      rw [List.filter_eq_nil_iff] at hl
      refine (Finset.sum_eq_zero fun k _ => ?_).symm
      rw [if_neg fun h => by
        have := hl k (by simp)
        rw [uniform_upper] at this
        exact this (by simpa using h.1), mul_zero]
    | cons i l =>
      have hi : high ≤ uniform n x0 dx i + dx / 2 := by
        have : i ∈ (List.finRange n).filter fun k => decide (high ≤ uniform n x0 dx k + dx / 2) := by
          rw [hl]; simp
        simpa using this
      have hgt : ∀ k, k < i → uniform n x0 dx k + dx / 2 < high := by
        intro k hk
        by_contra hc
        have hm : k ∈ (List.finRange n).filter fun k => decide (high ≤ uniform n x0 dx k + dx / 2) := by
          simpa using hc
        have hs := (List.pairwise_lt_finRange n).filter (p := fun k => decide (high ≤ uniform n x0 dx k + dx / 2))
        rw [hl] at hm hs
        rcases List.mem_cons.1 hm with h1 | h1
        · exact absurd h1 hk.ne
        · exact absurd ((List.pairwise_cons.1 hs).1 k h1) (not_lt.2 hk.le)
      rw [Finset.sum_eq_single i]
      · have hc : (i : Nat) = 0 ∨ uniform n x0 dx i - dx / 2 < high := by
          by_cases hn : (i : Nat) = 0
          · exact .inl hn
          · right
            have h1 := hgt ⟨i - 1, by omega⟩ (by rw [Fin.lt_def]; simp; omega)
            have h2 := hstep (i - 1) (by omega)
            have h3 : (⟨(i : Nat) - 1 + 1, by omega⟩ : Fin n) = i := by ext; simp; omega
            rw [h3] at h2
            rw [uniform_upper, ← h2] at h1
            exact h1
        rw [if_pos ⟨by rw [← uniform_upper]; exact hi, hc⟩]
        rfl
      · intro k _ hk
        rw [if_neg, mul_zero]
        rintro ⟨h1, h2⟩
        rw [← uniform_upper] at h1
        have hki : i < k := lt_of_le_of_ne (not_lt.1 fun h => absurd (hgt k h) (not_lt.2 h1)) (Ne.symm hk)
        rcases h2 with h2 | h2
        · rw [Fin.lt_def] at hki; omega
        · have := uniform_edge x0 dx hdx hki
          linarith
      · intro h; exact absurd (Finset.mem_univ _) h
  unfold boxSum
  refine (congrArg₂ (· + ·) (congrArg₂ (· + ·) rfl hL) hR).trans ?_
  rw [sum_filter_finRange, Finset.sum_mul, ← Finset.sum_add_distrib, ← Finset.sum_add_distrib]
  refine Finset.sum_congr rfl fun k _ => ?_
  rw [uniform_upper, ← boxExtra_spec _ _ _ _ _ _ hdx hlh]
  simp only [Bool.and_eq_true, decide_eq_true_eq]
  split_ifs <;> ring

/-- **C89**, exact: for every new pixel the result is the sum of the old values times the common length plus
the extra length (`boxExtra`), over the new width; it is the average for all values exactly if there is no extra
length, that is, if no old pixel shares an edge with the new pixel from inside, the new pixel is not part of one
old pixel, and it is neither beyond the last nor before the first old pixel. -/
theorem C89_exact {n m : Nat} (hn : 2 ≤ n) (hm : 2 ≤ m) (x0 dx x0' dx' : K) (hdx : 0 < dx) (hdx' : 0 < dx')
    (p : Fin m) (low high : K) (hlow : low = uniform m x0' dx' p - dx' / 2)
    (hhigh : high = uniform m x0' dx' p + dx' / 2) :
    (∀ y : Fin n → K, (boxIntegrate (uniform n x0 dx) y (List.ofFn (uniform m x0' dx')))[(p : Nat)]? =
      some (.fin ((∑ k : Fin n, y k * (overlapLen (uniform n x0 dx k - dx / 2) (uniform n x0 dx k + dx / 2) low high +
        boxExtra ((k : Nat) = 0) ((k : Nat) + 1 = n) (uniform n x0 dx k - dx / 2) dx low high)) / dx'))) ∧
    ((∀ y : Fin n → K, (boxIntegrate (uniform n x0 dx) y (List.ofFn (uniform m x0' dx')))[(p : Nat)]? =
        some (.fin ((∑ k, y k * overlapLen (uniform n x0 dx k - dx / 2) (uniform n x0 dx k + dx / 2) low high) / dx'))) ↔
      (∀ k : Fin n, let lo := uniform n x0 dx k - dx / 2; let hi := uniform n x0 dx k + dx / 2
        ¬ (low = lo ∧ hi ≤ high) ∧ ¬ (high = hi ∧ low ≤ lo) ∧ ¬ (lo ≤ low ∧ high ≤ hi) ∧
        ¬ ((k : Nat) + 1 = n ∧ hi < low) ∧ ¬ ((k : Nat) = 0 ∧ high < lo))) := by
  have hlh : low < high := by rw [hlow, hhigh]; linarith
  have hall : ∀ y : Fin n → K, (boxIntegrate (uniform n x0 dx) y (List.ofFn (uniform m x0' dx')))[(p : Nat)]? =
      some (.fin ((∑ k : Fin n, y k * (overlapLen (uniform n x0 dx k - dx / 2) (uniform n x0 dx k + dx / 2) low high +
        boxExtra ((k : Nat) = 0) ((k : Nat) + 1 = n) (uniform n x0 dx k - dx / 2) dx low high)) / dx')) := by
    intro y
    rw [boxIntegrate_uniform hn hm x0 dx x0' dx' hdx', List.getElem?_ofFn, dif_pos p.2,
      ← boxSum_formula x0 dx hdx y low high hlh, hlow, hhigh]
  have hzero : ∀ k : Fin n, boxExtra ((k : Nat) = 0) ((k : Nat) + 1 = n) (uniform n x0 dx k - dx / 2) dx low high = 0 ↔
      (let lo := uniform n x0 dx k - dx / 2; let hi := uniform n x0 dx k + dx / 2
        ¬ (low = lo ∧ hi ≤ high) ∧ ¬ (high = hi ∧ low ≤ lo) ∧ ¬ (lo ≤ low ∧ high ≤ hi) ∧
        ¬ ((k : Nat) + 1 = n ∧ hi < low) ∧ ¬ ((k : Nat) = 0 ∧ high < lo)) := by
    intro k
    simp only
    rw [uniform_upper]
    generalize uniform n x0 dx k - dx / 2 = lo
    unfold boxExtra
    constructor
    · intro h
      by_cases h4 : (k : Nat) + 1 = n ∧ lo + dx < low
      · rw [if_neg (fun h => by linarith [h.1, h4.2]), if_neg (fun h => by linarith [h.1, h4.2]),
          if_neg (fun h => by linarith [h.2.1, h4.2]), if_pos h4, if_neg (fun h => by linarith [h.2, h4.2])] at h
        linarith [h4.2]
      · by_cases h5 : (k : Nat) = 0 ∧ high < lo
        · rw [if_neg (fun h => by linarith [h.2, h5.2]), if_neg (fun h => by linarith [h.1, h5.2]),
            if_neg (fun h => by linarith [h.1, h5.2]), if_neg (fun h => by linarith [h.2, h5.2]), if_pos h5] at h
          linarith [h5.2]
        · rw [if_neg h4, if_neg h5] at h
          refine ⟨fun h1 => ?_, fun h1 => ?_, fun h1 => ?_, h4, h5⟩
          · rw [if_pos h1] at h
            split_ifs at h <;> linarith
          · rw [if_pos h1] at h
            split_ifs at h <;> linarith
          · by_cases h2 : low = lo ∧ high = lo + dx
            · rw [if_pos ⟨h2.1, h2.2.ge⟩, if_pos ⟨h2.2, h2.1.le⟩] at h
              split_ifs at h <;> linarith
            · rw [if_pos (show lo ≤ low ∧ high ≤ lo + dx ∧ ¬ (low = lo ∧ high = lo + dx) from ⟨h1.1, h1.2, h2⟩)] at h
              split_ifs at h <;> linarith
    · rintro ⟨h1, h2, h3, h4, h5⟩
      rw [if_neg h1, if_neg h2, if_neg fun h => h3 ⟨h.1, h.2.1⟩, if_neg h4, if_neg h5]
      simp
  refine ⟨hall, ⟨fun h k => ?_, fun h y => ?_⟩⟩
  · rw [← hzero k]
    have h1 := h fun i => if i = k then 1 else 0
    rw [hall] at h1
    have h2 := Fl.fin.inj (Option.some.inj h1)
    rw [div_left_inj' hdx'.ne'] at h2
    simpa using h2
  · rw [hall y]
    congr 3
    refine Finset.sum_congr rfl fun k _ => ?_
    rw [(hzero k).2 (h k), add_zero]

/-- a new pixel [-7/4, 5/4] that begins before the old pixels [-1/2, 7/2]: the condition of `C89_exact`, so the
missing data count as zero -/
example : (∀ k : Fin 4, let lo := uniform 4 (0 : ℚ) 1 k - 1 / 2; let hi := uniform 4 (0 : ℚ) 1 k + 1 / 2
      ¬ (-(7 / 4) = lo ∧ hi ≤ 5 / 4) ∧ ¬ ((5 / 4) = hi ∧ -(7 / 4) ≤ lo) ∧ ¬ (lo ≤ -(7 / 4) ∧ 5 / 4 ≤ hi) ∧
      ¬ ((k : Nat) + 1 = 4 ∧ hi < -(7 / 4)) ∧ ¬ ((k : Nat) = 0 ∧ 5 / 4 < lo)) ∧
    boxIntegrate (K := ℚ) (uniform 4 0 1) ![2, 4, 8, 16] (List.ofFn (uniform 2 (-(1 / 4)) 3)) =
      [.fin ((2 * 1 + 4 * (3 / 4)) / 3), .fin ((4 * (1 / 4) + 8 + 16) / 3)] := by
  decide +kernel

/-- a misaligned grid meets the hypotheses of `C89_average_partial`: old pixels of width 1 at 0, 1, 2, 3, new pixels of width
3/2 at 1 and 5/2; pixel 0 covers [1/4, 7/4] -/
example : boxIntegrate (K := ℚ) (uniform 4 0 1) ![2, 4, 8, 16] (List.ofFn (uniform 2 1 (3 / 2))) =
    [.fin ((2 * (1 / 4) + 4 * 1 + 8 * (1 / 4)) / (3 / 2)), .fin ((8 * (3 / 4) + 16 * (3 / 4)) / (3 / 2))] := by
  decide +kernel

example : boxIntegrate (K := ℚ) (uniform 4 0 1) ![2, 4, 8, 16] (List.ofFn (uniform 2 (1 / 2) 2)) =
    [.fin ((2 + 4 + 2 + 4) / 2), .fin ((8 + 16 + 8 + 16) / 2)] := by
  decide +kernel

end Misfit
