import Verif.Lemmas.Masks

/-!
# Which pixels of a 1D spectrum are masked as missing
-/

namespace Misfit
variable {K : Type*} [Field K] [LinearOrder K] [IsStrictOrderedRing K] {n : Nat}

theorem foldl_npMax2_of_nan : ∀ l : List (Fl K), l.foldl npMax2 Fl.nan = Fl.nan
  | [] => rfl
  | x :: xs => by
    rw [List.foldl_cons, show npMax2 Fl.nan x = Fl.nan by cases x <;> rfl]
    exact foldl_npMax2_of_nan xs

theorem npMax2_nan_right (a : Fl K) : npMax2 a Fl.nan = Fl.nan := by cases a <;> rfl

theorem npMax2_ne_nan {a b : Fl K} (ha : a ≠ .nan) (hb : b ≠ .nan) : npMax2 a b ≠ .nan := by
  cases a <;> cases b <;> simp_all [npMax2, Fl.leB] <;> split_ifs <;> simp

theorem npMax2_pos {a b : Fl K} (ha : a ≠ .nan) (hb : b ≠ .nan) :
    Fl.ltB 0 (npMax2 a b) = true ↔ Fl.ltB 0 a = true ∨ Fl.ltB 0 b = true := by
  cases a with
  | nan => exact absurd rfl ha
  | fin x =>
    cases b with
    | nan => exact absurd rfl hb
    | fin y =>
      show Fl.ltB (.fin 0) (if Fl.leB (.fin x) (.fin y) then Fl.fin y else .fin x) = true ↔
        Fl.ltB (.fin 0) (.fin x) = true ∨ Fl.ltB (.fin 0) (.fin y) = true
      by_cases h : x ≤ y
      · rw [if_pos (by simpa [Fl.leB] using h)]
        simp only [Fl.ltB, decide_eq_true_eq]
        exact ⟨Or.inr, fun h' => h'.elim (fun h' => lt_of_lt_of_le h' h) id⟩
      · rw [if_neg (by simpa [Fl.leB] using h)]
        simp only [Fl.ltB, decide_eq_true_eq]
        exact ⟨Or.inl, fun h' => h'.elim id (fun h' => lt_of_lt_of_le h' (le_of_not_ge h))⟩
    | pinf => exact ⟨fun _ => Or.inr rfl, fun _ => rfl⟩
    | ninf =>
      show Fl.ltB 0 (Fl.fin x) = true ↔ _ ∨ Fl.ltB (.fin 0) Fl.ninf = true
      exact ⟨Or.inl, fun h => h.elim id (fun h => by cases h)⟩
  | pinf =>
    cases b with
    | nan => exact absurd rfl hb
    | fin y => exact ⟨fun _ => Or.inl rfl, fun _ => rfl⟩
    | pinf => exact ⟨fun _ => Or.inl rfl, fun _ => rfl⟩
    | ninf => exact ⟨fun _ => Or.inl rfl, fun _ => rfl⟩
  | ninf =>
    cases b with
    | nan => exact absurd rfl hb
    | fin y => exact ⟨Or.inr, fun h => h.elim (fun h => by cases h) id⟩
    | pinf => exact ⟨Or.inr, fun h => h.elim (fun h => by cases h) id⟩
    | ninf => exact ⟨Or.inr, fun h => h.elim (fun h => by cases h) id⟩

theorem foldl_npMax2_pos : ∀ (l : List (Fl K)) (a : Fl K), Fl.ltB 0 (l.foldl npMax2 a) = true ↔
    (∀ x ∈ a :: l, x ≠ .nan) ∧ ∃ x ∈ a :: l, Fl.ltB 0 x = true
  | [], a => by
    show Fl.ltB 0 a = true ↔ _
    constructor
    · intro h
      exact ⟨(fun x hx => by rw [List.mem_singleton] at hx; subst hx; rintro rfl; exact Bool.noConfusion (show false = true from h)), a, List.mem_singleton_self a, h⟩
    · rintro ⟨-, x, hx, h⟩
      rw [List.mem_singleton] at hx
      exact hx ▸ h
  | b :: l, a => by
    rw [List.foldl_cons]
    by_cases ha : a = .nan
    · subst ha
      rw [show npMax2 (Fl.nan : Fl K) b = Fl.nan by cases b <;> rfl, foldl_npMax2_of_nan]
      exact ⟨(fun h => by cases h), fun h => absurd rfl (h.1 _ (List.mem_cons_self ..))⟩
    · by_cases hb : b = .nan
      · subst hb
        rw [npMax2_nan_right, foldl_npMax2_of_nan]
        exact ⟨(fun h => by cases h), fun h => absurd rfl (h.1 _ (List.mem_cons_of_mem _ (List.mem_cons_self ..)))⟩
      · rw [foldl_npMax2_pos l (npMax2 a b)]
        simp only [List.forall_mem_cons, List.exists_mem_cons_iff]
        rw [npMax2_pos ha hb]
        exact ⟨fun h => ⟨⟨ha, hb, h.1.2⟩, by tauto⟩, fun h => ⟨⟨npMax2_ne_nan ha hb, h.1.2.2⟩, by tauto⟩⟩

/-- A pixel of a 1D spectrum that is not usable: flux or error is not a number, its weight is zero, or its error is
zero while another pixel has an error (and no error is NaN: with a NaN error zero errors count as usable). -/
def Missing1D (flux err : Fin n → Fl K) (weight : Option (Fin n → Fl K)) (nonfiniteOnly : Bool) (j : Fin n) : Prop :=
  (∀ x, flux j ≠ .fin x) ∨ (∀ x, err j ≠ .fin x) ∨ (∃ w, weight = some w ∧ w j = .fin 0) ∨
    (nonfiniteOnly = false ∧ err j = .fin 0 ∧ (∀ k, err k ≠ .nan) ∧ ∃ k, err k ≠ .fin 0)

theorem abs_pos_iff (x : Fl K) : Fl.ltB 0 (Fl.abs x) = true ↔ x ≠ .nan ∧ x ≠ .fin 0 := by
  cases x with
  | fin x =>
    show Fl.ltB (.fin 0) (.fin (if x < 0 then -x else x)) = true ↔ _
    simp only [Fl.ltB, decide_eq_true_eq, ne_eq, reduceCtorEq, not_false_eq_true, true_and, Fl.fin.injEq]
    split_ifs with h
    · exact ⟨fun _ => h.ne, fun _ => neg_pos.2 h⟩
    · exact ⟨fun h' => h'.ne', fun h' => lt_of_le_of_ne (le_of_not_gt h) (Ne.symm h')⟩
  | nan => exact ⟨(fun h => by cases h), fun h => absurd rfl h.1⟩
  | pinf => exact ⟨fun _ => ⟨by simp, by simp⟩, fun _ => rfl⟩
  | ninf => exact ⟨fun _ => ⟨by simp, by simp⟩, fun _ => rfl⟩

theorem abs_nan_iff (x : Fl K) : Fl.abs x = .nan ↔ x = .nan := by cases x <;> simp [Fl.abs]

theorem missing1D_finite_iff (x : Fl K) : x.isFinite = true ↔ ∃ a, x = .fin a := by cases x <;> simp [Fl.isFinite]

theorem eqB_zero_iff' (x : Fl K) : Fl.eqB x 0 = true ↔ x = .fin 0 := by
  cases x with
  | fin x => exact (by simp [Fl.eqB] : Fl.eqB (.fin x) (.fin 0) = true ↔ Fl.fin x = Fl.fin 0)
  | nan => exact ⟨(fun h => by cases h), (fun h => by cases h)⟩
  | pinf => exact ⟨(fun h => by cases h), (fun h => by cases h)⟩
  | ninf => exact ⟨(fun h => by cases h), (fun h => by cases h)⟩

theorem missing1D_form (flux err : Fin n → Fl K) (weight mask : Option (Fin n → Fl K)) (b : Bool) (mx : Fl K)
    (h : npMax (List.ofFn fun j => Fl.abs (err j)) = some mx) :
    ∃ m, specMaskMissing1D flux err weight mask b = .ok m ∧ ∀ j, m j =
      if ∃ w, weight = some w ∧ w j = .fin 0 then .fin 0
      else if (err j).isFinite = true then
        if (flux j).isFinite = true then
          if (!b && Fl.ltB 0 mx) = true then
            if Fl.eqB (err j) 0 = true then .fin 0 else (mask.getD fun _ => 1) j
          else (mask.getD fun _ => 1) j
        else .fin 0
      else .fin 0 := by
  unfold specMaskMissing1D
  rw [h]
  have hq : ∀ (p : Bool) (f : Fin n → Fl K) (j : Fin n), (if p = true then (fun j => if Fl.eqB (err j) 0 = true then 0 else f j) else f) j =
      if p = true then if Fl.eqB (err j) 0 = true then .fin 0 else f j else f j := by
    intro p f j
    cases p <;> rfl
  cases weight with
  | none =>
    refine ⟨_, rfl, fun j => ?_⟩
    rw [if_neg (c := ∃ w, (none : Option (Fin n → Fl K)) = some w ∧ w j = .fin 0) (by rintro ⟨w, h, -⟩; cases h)]
    cases mask with
    | none => rw [← hq]; rfl
    | some m => rw [← hq]; rfl
  | some w =>
    refine ⟨_, rfl, fun j => ?_⟩
    have e : (∃ w', some w = some w' ∧ w' j = .fin 0) ↔ Fl.eqB (w j) 0 = true := by
      rw [eqB_zero_iff']
      exact ⟨fun ⟨w', e, h⟩ => by cases e; exact h, fun h => ⟨w, rfl, h⟩⟩
    rw [if_congr e rfl rfl]
    cases mask with
    | none => rw [← hq]; rfl
    | some m => rw [← hq]; rfl

/-- **C12**: the missing-data step of a 1D spectrum with at least one pixel masks exactly the pixels that are not
usable and keeps the mask of every other one; without pixels it is a ValueError. -/
theorem C12_missing1D (flux err : Fin n → Fl K) (weight mask : Option (Fin n → Fl K)) (b : Bool) :
    (0 < n → ∃ m, specMaskMissing1D flux err weight mask b = .ok m ∧
      ∀ j, (Missing1D flux err weight b j → m j = .fin 0) ∧
        (¬ Missing1D flux err weight b j → m j = (mask.getD fun _ => 1) j)) ∧
    (n = 0 → specMaskMissing1D flux err weight mask b = .error .valueError) := by
  constructor
  · intro hn
    obtain ⟨l, hl⟩ : ∃ l, l = List.ofFn fun j => Fl.abs (err j) := ⟨_, rfl⟩
    have hmem : ∀ x, x ∈ l ↔ ∃ j, Fl.abs (err j) = x := fun x => by rw [hl, List.mem_ofFn]
    cases l with
    | nil => exact absurd ((hmem _).2 ⟨⟨0, hn⟩, rfl⟩) (by simp)
    | cons a l =>
      have hpos : Fl.ltB 0 (l.foldl npMax2 a) = true ↔ (∀ k, err k ≠ .nan) ∧ ∃ k, err k ≠ .fin 0 := by
        rw [foldl_npMax2_pos]
        constructor
        · rintro ⟨h1, x, hx, h2⟩
          obtain ⟨k, rfl⟩ := (hmem x).1 hx
          exact ⟨fun k hk => h1 _ ((hmem _).2 ⟨k, rfl⟩) ((abs_nan_iff _).2 hk), k, ((abs_pos_iff _).1 h2).2⟩
        · rintro ⟨h1, k, h2⟩
          refine ⟨fun x hx => ?_, _, (hmem _).2 ⟨k, rfl⟩, (abs_pos_iff _).2 ⟨h1 k, h2⟩⟩
          obtain ⟨k, rfl⟩ := (hmem x).1 hx
          exact fun h => h1 k ((abs_nan_iff _).1 h)
      obtain ⟨m, hm, hv⟩ := missing1D_form flux err weight mask b (l.foldl npMax2 a) (by rw [← hl]; rfl)
      refine ⟨m, hm, fun j => ?_⟩
      rw [hv]
      by_cases h1 : ∃ w, weight = some w ∧ w j = .fin 0
      · rw [if_pos h1]
        exact ⟨fun _ => rfl, fun h => absurd (Or.inr (Or.inr (Or.inl h1))) h⟩
      rw [if_neg h1]
      by_cases h2 : (err j).isFinite = true
      swap
      · rw [if_neg h2]
        refine ⟨fun _ => rfl, fun h => absurd (Or.inr (Or.inl fun x hx => h2 ?_)) h⟩
        rw [hx]; rfl
      rw [if_pos h2]
      by_cases h3 : (flux j).isFinite = true
      swap
      · rw [if_neg h3]
        refine ⟨fun _ => rfl, fun h => absurd (Or.inl fun x hx => h3 ?_) h⟩
        rw [hx]; rfl
      rw [if_pos h3]
      have hmiss : Missing1D flux err weight b j ↔
          (b = false ∧ err j = .fin 0 ∧ (∀ k, err k ≠ .nan) ∧ ∃ k, err k ≠ .fin 0) := by
        obtain ⟨x, hx⟩ := (missing1D_finite_iff _).1 h2
        obtain ⟨y, hy⟩ := (missing1D_finite_iff _).1 h3
        constructor
        · rintro (h | h | h | h)
          · exact absurd hy (h y)
          · exact absurd hx (h x)
          · exact absurd h h1
          · exact h
        · exact fun h => Or.inr (Or.inr (Or.inr h))
      rw [hmiss]
      by_cases h4 : (!b && Fl.ltB 0 (l.foldl npMax2 a)) = true
      · rw [if_pos h4]
        rw [Bool.and_eq_true, Bool.not_eq_true', hpos] at h4
        by_cases h5 : Fl.eqB (err j) 0 = true
        · rw [if_pos h5]
          exact ⟨fun _ => rfl, fun h => absurd ⟨h4.1, (eqB_zero_iff' _).1 h5, h4.2⟩ h⟩
        · rw [if_neg h5]
          exact ⟨fun h => absurd ((eqB_zero_iff' _).2 h.2.1) h5, fun _ => rfl⟩
      · rw [if_neg h4]
        rw [Bool.and_eq_true, Bool.not_eq_true', hpos] at h4
        exact ⟨fun h => absurd ⟨h.1, h.2.2⟩ h4, fun _ => rfl⟩
  · rintro rfl
    rfl

/-- Of three pixels with errors 0, 2 and infinity the first and the last are masked; if one error is NaN the zero error
is not noticed; if all errors vanish nothing is masked. -/
example :
    (specMaskMissing1D ![.fin 1, .fin 2, .fin 3] ![.fin 0, .fin 2, .pinf] none none false).map List.ofFn =
      (.ok [.fin 0, .fin 1, .fin 0] : Except PyErr (List (Fl ℚ))) ∧
    (specMaskMissing1D ![.fin 1, .fin 2, .fin 3] ![.fin 0, .fin 2, .nan] none none false).map List.ofFn =
      (.ok [.fin 1, .fin 1, .fin 0] : Except PyErr (List (Fl ℚ))) ∧
    (specMaskMissing1D ![.fin 1, .fin 2] ![.fin 0, .fin 0] none none false).map List.ofFn =
      (.ok [.fin 1, .fin 1] : Except PyErr (List (Fl ℚ))) := by
  decide +kernel

end Misfit
