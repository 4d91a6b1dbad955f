import Verif.Model.Convolve
import Verif.Lemmas.Collapse
import Mathlib.Logic.Equiv.Fin.Basic
import Mathlib.Tactic.Linarith
import Mathlib.Tactic.FieldSimp

/-! Helper lemmas for `Props/Convolve.lean` -/

namespace Misfit

section
variable {K : Type*} [Field K]

theorem ext_eq_sum {n : Nat} (a : Fin n → K) (p : ℤ) :
    ext a p = ∑ i : Fin n, if (i : ℤ) = p then a i else 0 := by
  unfold ext
  split
  · rename_i h
    rw [Finset.sum_eq_single ⟨p.toNat, by omega⟩]
    · rw [if_pos]; simp only; omega
    · intro i _ hi
      rw [if_neg]; intro e; apply hi; apply Fin.ext; simp only; omega
    · intro h; exact absurd (Finset.mem_univ _) h
  · rename_i h
    symm
    apply Finset.sum_eq_zero
    intro i _
    rw [if_neg]; intro e; apply h; have := i.isLt; omega

theorem ext_val {n : Nat} (a : Fin n → K) (i : Fin n) : ext a (i : ℤ) = a i := by
  unfold ext
  rw [dif_pos (by have := i.isLt; omega)]
  congr 1

theorem ext_zero {n : Nat} (a : Fin n → K) (h : ∀ i, a i = 0) (p : ℤ) : ext a p = 0 := by
  unfold ext; split
  · exact h _
  · rfl

theorem ext_mul_const {n : Nat} (a : Fin n → K) (c : K) (p : ℤ) :
    ext (fun i => c * a i) p = c * ext a p := by
  unfold ext; split
  · rfl
  · rw [mul_zero]

/-- discrete convolution is symmetric: sum over the source instead of the kernel -/
theorem conv_swap {n m : Nat} (a : Fin n → K) (k : Fin m → K) (c : ℤ) :
    ∑ j : Fin m, ext a (c - j) * k j = ∑ i : Fin n, a i * ext k (c - i) := by
  have e1 : ∀ j : Fin m, ext a (c - j) * k j = ∑ i : Fin n, if (i : ℤ) + j = c then a i * k j else 0 := by
    intro j
    rw [ext_eq_sum, Finset.sum_mul]
    apply Finset.sum_congr rfl
    intro i _
    by_cases h : (i : ℤ) = c - j
    · rw [if_pos h, if_pos (by omega)]
    · rw [if_neg h, if_neg (by omega), zero_mul]
  have e2 : ∀ i : Fin n, a i * ext k (c - i) = ∑ j : Fin m, if (i : ℤ) + j = c then a i * k j else 0 := by
    intro i
    rw [ext_eq_sum, Finset.mul_sum]
    apply Finset.sum_congr rfl
    intro j _
    by_cases h : (j : ℤ) = c - i
    · rw [if_pos h, if_pos (by omega)]
    · rw [if_neg h, if_neg (by omega), mul_zero]
  simp only [e1, e2]
  exact Finset.sum_comm

theorem ext_sum {n : Nat} {ι : Type*} (s : Finset ι) (f : ι → Fin n → K) (p : ℤ) :
    ext (fun i => ∑ x ∈ s, f x i) p = ∑ x ∈ s, ext (f x) p := by
  unfold ext; split
  · rfl
  · simp

/-- 2D convolution as a sum over the source pixels -/
theorem convSame2_source {n m kn km : Nat} (a : Fin n → Fin m → K) (k : Fin kn → Fin km → K)
    (y : Fin n) (x : Fin m) :
    convSame2 a k y x = ∑ y', ∑ x', a y' x' *
      ext (fun j => ext (k j) ((x : ℤ) - x' + ((km - 1) / 2 : ℕ))) ((y : ℤ) - y' + ((kn - 1) / 2 : ℕ)) := by
  unfold convSame2
  -- inner sum over i: for fixed j, swap along x
  have e1 : ∀ j : Fin kn, (∑ i : Fin km,
      ext (fun y' => ext (a y') ((x : ℤ) + ((km - 1) / 2 : ℕ) - i)) ((y : ℤ) + ((kn - 1) / 2 : ℕ) - j) * k j i) =
      ext (fun y' => ∑ x', a y' x' * ext (k j) ((x : ℤ) + ((km - 1) / 2 : ℕ) - x'))
        ((y : ℤ) + ((kn - 1) / 2 : ℕ) - j) := by
    intro j
    unfold ext
    by_cases h : 0 ≤ (y : ℤ) + ((kn - 1) / 2 : ℕ) - j ∧ (y : ℤ) + ((kn - 1) / 2 : ℕ) - j < n
    · simp only [dif_pos h]
      exact conv_swap (a ⟨((y : ℤ) + ((kn - 1) / 2 : ℕ) - j).toNat, by omega⟩) (k j) _
    · simp only [dif_neg h, zero_mul, Finset.sum_const_zero]
  simp only [e1]
  -- now sum over j: pull the sum over x' out and swap along y
  have e2 : ∀ j : Fin kn, ext (fun y' => ∑ x', a y' x' * ext (k j) ((x : ℤ) + ((km - 1) / 2 : ℕ) - x'))
      ((y : ℤ) + ((kn - 1) / 2 : ℕ) - j) = ∑ x', ext (fun y' => a y' x')
        ((y : ℤ) + ((kn - 1) / 2 : ℕ) - j) * ext (k j) ((x : ℤ) + ((km - 1) / 2 : ℕ) - x') := by
    intro j
    rw [ext_sum]
    apply Finset.sum_congr rfl
    intro x' _
    unfold ext
    split <;> simp
  simp only [e2]
  rw [Finset.sum_comm]
  have e3 : ∀ x' : Fin m, (∑ j : Fin kn, ext (fun y' => a y' x') ((y : ℤ) + ((kn - 1) / 2 : ℕ) - j) *
      ext (k j) ((x : ℤ) + ((km - 1) / 2 : ℕ) - x')) =
      ∑ y', a y' x' * ext (fun j => ext (k j) ((x : ℤ) - x' + ((km - 1) / 2 : ℕ)))
        ((y : ℤ) - y' + ((kn - 1) / 2 : ℕ)) := by
    intro x'
    rw [conv_swap (fun y' => a y' x') (fun j => ext (k j) ((x : ℤ) + ((km - 1) / 2 : ℕ) - x'))]
    apply Finset.sum_congr rfl
    intro y' _
    have h1 : (x : ℤ) + ((km - 1) / 2 : ℕ) - x' = (x : ℤ) - x' + ((km - 1) / 2 : ℕ) := by ring
    have h2 : (y : ℤ) + ((kn - 1) / 2 : ℕ) - y' = (y : ℤ) - y' + ((kn - 1) / 2 : ℕ) := by ring
    rw [h1, h2]
  simp only [e3]
  exact Finset.sum_comm

theorem convSame2_stamp_mul {n m kn km : Nat} (a : Fin n → Fin m → K) (k : Fin kn → Fin km → K)
    (c : K) (y : Fin n) (x : Fin m) :
    convSame2 a (fun j i => c * k j i) y x = c * convSame2 a k y x := by
  unfold convSame2
  rw [Finset.mul_sum]
  apply Finset.sum_congr rfl; intro j _
  rw [Finset.mul_sum]
  apply Finset.sum_congr rfl; intro i _
  ring

end

section
variable {K : Type*} [Field K] [LinearOrder K] [IsStrictOrderedRing K]

omit [IsStrictOrderedRing K] in
theorem ext_nonneg {n : Nat} (a : Fin n → K) (h : ∀ i, 0 ≤ a i) (p : ℤ) : 0 ≤ ext a p := by
  unfold ext; split
  · exact h _
  · exact le_rfl

theorem convSame2_nonneg {n m kn km : Nat} (a : Fin n → Fin m → K) (k : Fin kn → Fin km → K)
    (ha : ∀ y x, 0 ≤ a y x) (hk : ∀ j i, 0 ≤ k j i) (y : Fin n) (x : Fin m) :
    0 ≤ convSame2 a k y x :=
  Finset.sum_nonneg fun _ _ => Finset.sum_nonneg fun _ _ =>
    mul_nonneg (ext_nonneg _ (fun y' => ext_nonneg _ (ha y') _) _) (hk _ _)

/-- a stamp that is positive at its centre keeps at least that part of every pixel -/
theorem convSame2_ge {n m kn km : Nat} (a : Fin n → Fin m → K) (k : Fin kn → Fin km → K)
    (ha : ∀ y x, 0 ≤ a y x) (hk : ∀ j i, 0 ≤ k j i) (hkn : 0 < kn) (hkm : 0 < km)
    (y : Fin n) (x : Fin m) :
    a y x * k ⟨(kn - 1) / 2, by omega⟩ ⟨(km - 1) / 2, by omega⟩ ≤ convSame2 a k y x := by
  rw [convSame2_source]
  have hnn : ∀ y' x', 0 ≤ a y' x' *
      ext (fun j => ext (k j) ((x : ℤ) - x' + ((km - 1) / 2 : ℕ))) ((y : ℤ) - y' + ((kn - 1) / 2 : ℕ)) :=
    fun y' x' => mul_nonneg (ha _ _) (ext_nonneg _ (fun j => ext_nonneg _ (hk j) _) _)
  calc _ = a y x * ext (fun j => ext (k j) ((x : ℤ) - x + ((km - 1) / 2 : ℕ)))
        ((y : ℤ) - y + ((kn - 1) / 2 : ℕ)) := by
        congr 1
        have e1 : (x : ℤ) - x + ((km - 1) / 2 : ℕ) = ((⟨(km - 1) / 2, by omega⟩ : Fin km) : ℕ) := by
          simp
        have e2 : (y : ℤ) - y + ((kn - 1) / 2 : ℕ) = ((⟨(kn - 1) / 2, by omega⟩ : Fin kn) : ℕ) := by
          simp
        rw [e1, e2, ext_val (fun j => ext (k j) _), ext_val]
    _ ≤ ∑ x', a y x' * ext (fun j => ext (k j) ((x : ℤ) - x' + ((km - 1) / 2 : ℕ)))
        ((y : ℤ) - y + ((kn - 1) / 2 : ℕ)) :=
        Finset.single_le_sum (f := fun x' => a y x' *
          ext (fun j => ext (k j) ((x : ℤ) - x' + ((km - 1) / 2 : ℕ)))
            ((y : ℤ) - y + ((kn - 1) / 2 : ℕ))) (fun x' _ => hnn y x') (Finset.mem_univ x)
    _ ≤ _ := Finset.single_le_sum (f := fun y' => ∑ x', a y' x' *
          ext (fun j => ext (k j) ((x : ℤ) - x' + ((km - 1) / 2 : ℕ)))
            ((y : ℤ) - y' + ((kn - 1) / 2 : ℕ)))
            (fun y' _ => Finset.sum_nonneg fun x' _ => hnn y' x') (Finset.mem_univ y)

end

theorem flatAt_eq {K : Type*} [Field K] {n m : Nat} (a : Fin n → Fin m → K) (u : Fin n) (v : Fin m)
    (pos : Nat) (h : pos = v.val + m * u.val) : flatAt a pos = a u v := by
  have hm : 0 < m := by have := v.isLt; omega
  have h1 : pos / m = u.val := by
    rw [h, Nat.add_mul_div_left _ _ hm, Nat.div_eq_of_lt v.isLt, Nat.zero_add]
  have h2 : pos % m = v.val := by rw [h, Nat.add_mul_mod_self_left, Nat.mod_eq_of_lt v.isLt]
  unfold flatAt
  rw [dif_pos ⟨by rw [h1]; exact u.isLt, by rw [h2]; exact v.isLt⟩]
  exact congrArg₂ a (Fin.ext h1) (Fin.ext h2)

/-- block sums as sums over all indices with the given quotient -/
theorem sum_block {K : Type*} [Field K] (p f : Nat) (g : Fin (p * f) → K) (i : Fin p) :
    (∑ u : Fin (p * f), if u.val / f = i.val then g u else 0) =
      ∑ s : Fin f, g (finProdFinEquiv (i, s)) := by
  rw [← finProdFinEquiv.sum_comp, Fintype.sum_prod_type]
  rw [Finset.sum_eq_single i]
  · apply Finset.sum_congr rfl
    intro s _
    rw [if_pos]
    have := s.isLt
    simp only [finProdFinEquiv_apply_val]
    rw [Nat.add_mul_div_left _ _ (by omega), Nat.div_eq_of_lt this, Nat.zero_add]
  · intro i' _ hi
    apply Finset.sum_eq_zero
    intro s _
    rw [if_neg]
    have := s.isLt
    simp only [finProdFinEquiv_apply_val]
    rw [Nat.add_mul_div_left _ _ (by omega), Nat.div_eq_of_lt this, Nat.zero_add]
    exact fun h => hi (Fin.ext h)
  · intro h; exact absurd (Finset.mem_univ _) h

end Misfit
