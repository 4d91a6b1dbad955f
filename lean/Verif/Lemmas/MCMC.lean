import Verif.Model.MCMC
import Mathlib.Data.List.Flatten
import Mathlib.Tactic.Linarith

/-! Helper lemmas for the sampling loop and the flattened chain. -/

namespace Misfit

section loop
variable {K : Type*} [Field K] [LinearOrder K]

theorem sampleLoop_spec (o : StopOpts K) (diag : Nat → StepDiag K) (rem : Nat) :
    ∀ (ii : Nat) (last : Option Nat) (r : Nat), 0 < rem →
      sampleLoop o diag last ii rem = some r →
      ii ≤ r ∧ r < ii + rem ∧ (r + 1 < ii + rem → stopTest o r (diag r) = true) ∧
        ∀ j, ii ≤ j → j < r → stopTest o j (diag j) = false := by
  induction rem with
  | zero => intro ii last r h; omega
  | succ n ih =>
    intro ii last r _ hr
    rw [sampleLoop] at hr
    by_cases ht : stopTest o ii (diag ii) = true
    · rw [if_pos ht] at hr
      obtain rfl := Option.some.inj hr
      exact ⟨le_refl _, by omega, fun _ => ht, fun j h1 h2 => by omega⟩
    · rw [if_neg ht] at hr
      have ht' : stopTest o ii (diag ii) = false := by simpa using ht
      rcases Nat.eq_zero_or_pos n with h0 | hpos
      · subst h0
        rw [sampleLoop] at hr
        obtain rfl := Option.some.inj hr
        exact ⟨le_refl _, by omega, fun h => by omega, fun j h1 h2 => by omega⟩
      · obtain ⟨h1, h2, h3, h4⟩ := ih (ii + 1) (some ii) r hpos hr
        refine ⟨by omega, by omega, fun h => h3 (by omega), fun j hj1 hj2 => ?_⟩
        rcases Nat.eq_or_lt_of_le hj1 with h | h
        · subst h; exact ht'
        · exact h4 j h hj2

theorem sampleLoop_some (o : StopOpts K) (diag : Nat → StepDiag K) (rem : Nat) :
    ∀ (ii : Nat) (last : Option Nat), (0 < rem ∨ last.isSome) →
      ∃ r, sampleLoop o diag last ii rem = some r := by
  induction rem with
  | zero =>
    intro ii last h
    rcases h with h | h
    · omega
    · obtain ⟨r, hr⟩ := Option.isSome_iff_exists.mp h
      exact ⟨r, by rw [sampleLoop, hr]⟩
  | succ n ih =>
    intro ii last _
    rw [sampleLoop]
    by_cases ht : stopTest o ii (diag ii) = true
    · exact ⟨ii, if_pos ht⟩
    · rw [if_neg ht]
      exact ih (ii + 1) (some ii) (Or.inr rfl)

end loop

/-- Indexing the concatenation of lists of the same length. -/
theorem flatten_getElem? {α : Type*} (m : Nat) (hm : 0 < m) :
    ∀ (l : List (List α)), (∀ x ∈ l, x.length = m) → ∀ k : Nat,
      l.flatten[k]? = (l[k / m]?).bind (fun x => x[k % m]?) := by
  intro l
  induction l with
  | nil => intro _ k; simp
  | cons x xs ih =>
    intro h k
    have hx : x.length = m := h x (by simp)
    rw [List.flatten_cons]
    rcases Nat.lt_or_ge k m with hk | hk
    · rw [List.getElem?_append_left (by omega), Nat.div_eq_of_lt hk, Nat.mod_eq_of_lt hk]
      simp
    · rw [List.getElem?_append_right (by omega), hx,
        ih (fun y hy => h y (by simp [hy])) (k - m)]
      have hd : k / m = (k - m) / m + 1 := by
        rw [Nat.div_eq_sub_div hm hk]
      have hmod : k % m = (k - m) % m := Nat.mod_eq_sub_mod hk
      rw [hd, hmod, List.getElem?_cons_succ]

theorem flatten_length_of {α : Type*} (m : Nat) (l : List (List α))
    (h : ∀ x ∈ l, x.length = m) : l.flatten.length = l.length * m := by
  induction l with
  | nil => simp
  | cons x xs ih =>
    rw [List.flatten_cons, List.length_append, h x (by simp),
      ih (fun y hy => h y (by simp [hy])), List.length_cons]
    ring

end Misfit
