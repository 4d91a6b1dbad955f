import Verif.Model.Trim

namespace Misfit
variable {K : Type} [Field K] [LinearOrder K] {α : Type}

theorem mapM_ok {β γ : Type} {f : β → Except PyErr γ} {g : β → γ} :
    ∀ (l : List β), (∀ k ∈ l, f k = .ok (g k)) → l.mapM f = .ok (l.map g)
  | [], _ => rfl
  | a :: l, h => by
      rw [List.mapM_cons, h a (by simp), mapM_ok l (fun k hk => h k (by simp [hk]))]
      rfl

theorem mapM_map {β γ δ : Type} (f : γ → Except PyErr δ) (g : β → γ) :
    ∀ (l : List β), (l.map g).mapM f = l.mapM fun x => f (g x)
  | [] => rfl
  | a :: l => by rw [List.map_cons, List.mapM_cons, List.mapM_cons, mapM_map f g l]

theorem fancyIndex_cons_succ (a : α) (row : List α) (l : List Nat) :
    fancyIndex (a :: row) (l.map Nat.succ) = fancyIndex row l := by
  unfold fancyIndex
  rw [mapM_map]
  rfl

theorem whRange_cons (x : K) (w : List K) (lo hi : K) :
    whRange (x :: w) lo hi =
      (if lo ≤ x ∧ x ≤ hi then [0] else []) ++ (whRange w lo hi).map Nat.succ := by
  unfold whRange
  rw [List.length_cons, List.range_succ_eq_map, List.filter_cons, List.filter_map]
  have : rangeAt (x :: w) lo hi ∘ Nat.succ = rangeAt w lo hi := by
    funext k; simp [rangeAt]
  rw [this]
  by_cases h : lo ≤ x ∧ x ≤ hi
  · simp [h, rangeAt]
  · have h' : rangeAt (x :: w) lo hi 0 = false := by simpa [rangeAt] using h
    rw [h', if_neg h]; simp

/-- Specification: entries of `row` whose wavelength lies in `[lo, hi]`, in order. -/
def inRange (lo hi : K) (w : List K) (row : List α) : List α :=
  ((w.zip row).filter fun p => decide (lo ≤ p.1 ∧ p.1 ≤ hi)).map Prod.snd

theorem fancyIndex_whRange (lo hi : K) : ∀ (w : List K) (row : List α), w.length = row.length →
    fancyIndex row (whRange w lo hi) = .ok (inRange lo hi w row)
  | [], [], _ => rfl
  | x :: w, a :: row, h => by
      have ih := fancyIndex_whRange lo hi w row (by simpa using h)
      rw [whRange_cons]
      by_cases hx : lo ≤ x ∧ x ≤ hi
      · rw [if_pos hx]
        unfold fancyIndex
        rw [List.cons_append, List.nil_append, List.mapM_cons]
        have : List.mapM (getIdx (a :: row)) ((whRange w lo hi).map Nat.succ) =
            .ok (inRange lo hi w row) := (fancyIndex_cons_succ a row _).trans ih
        rw [this]
        simp only [inRange, List.zip_cons_cons, List.filter_cons, hx, and_self, decide_true, if_true,
          List.map_cons]
        rfl
      · rw [if_neg hx, List.nil_append, fancyIndex_cons_succ, ih]
        congr 1
        have hx' : ¬ (lo ≤ x ∧ x ≤ hi) := hx
        simp only [inRange, List.zip_cons_cons, List.filter_cons, hx', decide_false,
          Bool.false_eq_true, if_false]

theorem whRange_ne_nil (lo hi : K) : ∀ (w : List K), (0 < (whRange w lo hi).length ↔
    ∃ x ∈ w, lo ≤ x ∧ x ≤ hi)
  | [] => by simp [whRange]
  | x :: w => by
      have ih := whRange_ne_nil lo hi w
      rw [whRange_cons]
      by_cases hx : lo ≤ x ∧ x ≤ hi
      · simp [hx]
      · simp only [hx, if_false, List.nil_append, List.length_map, ih, List.mem_cons,
          exists_eq_or_imp, false_or]

theorem fancyCols_whRange (lo hi : K) (w : List K) (img : List (List α))
    (h : ∀ row ∈ img, row.length = w.length) :
    fancyCols img (whRange w lo hi) = .ok (img.map (inRange lo hi w)) :=
  mapM_ok img fun row hr => fancyIndex_whRange lo hi w row (h row hr).symm

theorem pySlice_getElem? (a : List α) (l r : Int) (hl : 0 ≤ l) (k : Nat) :
    (pySlice a l r)[k]? =
      if l.toNat + k < pySliceBound a.length r then a[l.toNat + k]? else none := by
  unfold pySlice
  have h1 : pySliceBound a.length l = min l.toNat a.length := by
    unfold pySliceBound; rw [if_neg (by omega)]
  rw [h1, List.getElem?_drop]
  rw [List.getElem?_take]
  by_cases hla : l.toNat ≤ a.length
  · rw [min_eq_left hla]
  · have h2 : pySliceBound a.length r ≤ a.length := by
      unfold pySliceBound; split <;> omega
    rw [if_neg (by omega), if_neg (by omega)]

/-- indexing succeeds exactly for indices in range; the exception is an IndexError -/
theorem fancyIndex_cases (a : List α) (wh : List Nat) :
    ((∀ k ∈ wh, k < a.length) ∧ ∃ l, fancyIndex a wh = .ok l) ∨
      ((∃ k ∈ wh, a.length ≤ k) ∧ fancyIndex a wh = .error .indexError) := by
  unfold fancyIndex
  induction wh with
  | nil => exact .inl ⟨by simp, [], rfl⟩
  | cons k wh ih =>
    rw [List.mapM_cons]
    by_cases hk : k < a.length
    · have h1 : getIdx a k = .ok a[k] := by unfold getIdx; rw [List.getElem?_eq_getElem hk]
      rw [h1]
      rcases ih with ⟨h, l, hl⟩ | ⟨⟨j, hj, hlt⟩, h⟩
      · rw [hl]
        exact .inl ⟨by simpa using ⟨hk, h⟩, _, rfl⟩
      · rw [h]
        exact .inr ⟨⟨j, by simp [hj], hlt⟩, rfl⟩
    · have h1 : getIdx a k = .error .indexError := by
        unfold getIdx; rw [List.getElem?_eq_none (by omega)]
      rw [h1]
      exact .inr ⟨⟨k, by simp, by omega⟩, rfl⟩

theorem fancyCols_cases (a : List (List α)) (wh : List Nat) :
    ((∀ row ∈ a, ∀ k ∈ wh, k < row.length) ∧ ∃ l, fancyCols a wh = .ok l) ∨
      ((∃ row ∈ a, ∃ k ∈ wh, row.length ≤ k) ∧ fancyCols a wh = .error .indexError) := by
  unfold fancyCols
  induction a with
  | nil => exact .inl ⟨by simp, [], rfl⟩
  | cons r a ih =>
    rw [List.mapM_cons]
    rcases fancyIndex_cases r wh with ⟨hk, l, hl⟩ | ⟨hk, hl⟩
    · rw [hl]
      rcases ih with ⟨h, l', hl'⟩ | ⟨⟨j, hj, hlt⟩, h⟩
      · rw [hl']
        exact .inl ⟨by simpa using ⟨hk, h⟩, _, rfl⟩
      · rw [h]
        exact .inr ⟨⟨j, by simp [hj], hlt⟩, rfl⟩
    · rw [hl]
      exact .inr ⟨⟨r, by simp, hk⟩, rfl⟩

theorem mem_whRange (w : List K) (lo hi : K) (k : Nat) :
    k ∈ whRange w lo hi ↔ ∃ x, w[k]? = some x ∧ lo ≤ x ∧ x ≤ hi := by
  unfold whRange rangeAt
  rw [List.mem_filter, List.mem_range]
  constructor
  · rintro ⟨hk, h⟩
    rw [List.getElem?_eq_getElem hk] at h ⊢
    exact ⟨_, rfl, of_decide_eq_true h⟩
  · rintro ⟨x, hx, h⟩
    rw [hx]
    exact ⟨(List.getElem?_eq_some_iff.1 hx).1, decide_eq_true h⟩

end Misfit
