import Verif.Model.Masks
import Mathlib.Tactic.Linarith

namespace Misfit
variable {K : Type*} [Field K] [LinearOrder K] {r c n : Nat}

theorem Fl.eqB_zero_iff (a : Fl K) : Fl.eqB a 0 = true ↔ a = 0 := by
  cases a <;> simp [Fl.eqB]

theorem Fl.eqB_one_iff (a : Fl K) : Fl.eqB a 1 = true ↔ a = 1 := by
  cases a <;> simp [Fl.eqB]

/-! ### wh_continuous -/

section runs
variable {α : Type*} [Sub α] [One α] [Add α] [DecidableEq α]

omit [Add α] in
theorem whContinuousLoop_flatten : ∀ (l arr : List α), (l = [] → arr = []) →
    (whContinuousLoop l arr).flatten = arr ++ l
  | [], arr, h => by simp [whContinuousLoop, h rfl]
  | [x], arr, _ => by simp [whContinuousLoop]
  | x :: y :: rest, arr, _ => by
      unfold whContinuousLoop
      split
      · rw [whContinuousLoop_flatten (y :: rest) _ (by simp)]; simp
      · rw [List.flatten_cons, whContinuousLoop_flatten (y :: rest) _ (by simp)]; simp

omit [Add α] in
theorem whContinuousLoop_nonempty : ∀ (l arr : List α), ∀ w ∈ whContinuousLoop l arr, w ≠ []
  | [], arr, w, h => by simp [whContinuousLoop] at h
  | [x], arr, w, h => by simp [whContinuousLoop] at h; simp [h]
  | x :: y :: rest, arr, w, h => by
      unfold whContinuousLoop at h
      split at h
      · exact whContinuousLoop_nonempty (y :: rest) _ w h
      · rcases List.mem_cons.1 h with rfl | h
        · simp
        · exact whContinuousLoop_nonempty (y :: rest) _ w h

/-- every run is a chain of successors -/
theorem whContinuousLoop_chain (hsub : ∀ x y : α, y - x = 1 ↔ y = x + 1) :
    ∀ (l arr : List α),
    (arr ++ l.take 1).IsChain (fun x y => y = x + 1) →
    ∀ w ∈ whContinuousLoop l arr, w.IsChain (fun x y => y = x + 1)
  | [], arr, _, w, h => by simp [whContinuousLoop] at h
  | [x], arr, hc, w, h => by simp [whContinuousLoop] at h; subst h; simpa using hc
  | x :: y :: rest, arr, hc, w, h => by
      unfold whContinuousLoop at h
      simp only [List.take_succ_cons, List.take_zero] at hc
      split at h
      · rename_i hxy
        refine whContinuousLoop_chain hsub (y :: rest) _ ?_ w h
        simp only [List.take_succ_cons, List.take_zero]
        rw [List.isChain_append]
        refine ⟨hc, by simp, ?_⟩
        intro a ha b hb
        simp at ha hb
        subst ha hb
        exact (hsub _ _).1 hxy
      · rcases List.mem_cons.1 h with rfl | h
        · exact hc
        · exact whContinuousLoop_chain hsub (y :: rest) [] (by simp) w h

omit [Add α] in
/-- the first run starts with `arr ++ l.head` -/
theorem whContinuousLoop_head : ∀ (l arr : List α), l ≠ [] →
    ∃ w ws, whContinuousLoop l arr = w :: ws ∧ w.head? = (arr ++ l.take 1).head?
  | [], arr, h => absurd rfl h
  | [x], arr, _ => ⟨_, [], rfl, by simp⟩
  | x :: y :: rest, arr, _ => by
      unfold whContinuousLoop
      split
      · obtain ⟨w, ws, h1, h2⟩ := whContinuousLoop_head (y :: rest) (arr ++ [x]) (by simp)
        refine ⟨w, ws, h1, ?_⟩
        rw [h2]
        cases arr <;> simp
      · exact ⟨_, _, rfl, by simp⟩

/-- neighbouring runs do not touch -/
theorem whContinuousLoop_maximal (hsub : ∀ x y : α, y - x = 1 ↔ y = x + 1) :
    ∀ (l arr : List α),
    (whContinuousLoop l arr).IsChain (fun u v => ∀ a ∈ u.getLast?, ∀ b ∈ v.head?, b ≠ a + 1)
  | [], arr => by simp [whContinuousLoop]
  | [x], arr => by simp [whContinuousLoop]
  | x :: y :: rest, arr => by
      unfold whContinuousLoop
      split
      · exact whContinuousLoop_maximal hsub (y :: rest) _
      · rename_i hxy
        obtain ⟨w, ws, h1, h2⟩ := whContinuousLoop_head (y :: rest) ([] : List α) (by simp)
        have ih := whContinuousLoop_maximal hsub (y :: rest) ([] : List α)
        rw [h1] at ih ⊢
        refine List.IsChain.cons_cons ?_ ih
        intro a ha b hb
        simp at ha
        rw [h2] at hb
        simp at hb
        subst ha hb
        exact fun h => hxy ((hsub _ _).2 h)

end runs

/-! ### row indices -/

theorem minRow_mem : ∀ (l : List Nat), l ≠ [] → minRow l ∈ l
  | [], h => absurd rfl h
  | [a], _ => by simp [minRow]
  | a :: b :: l, _ => by
      have ih := minRow_mem (b :: l) (by simp)
      rw [minRow]
      · rcases min_choice a (minRow (b :: l)) with h | h
        · rw [h]; simp
        · rw [h]; exact List.mem_cons_of_mem _ ih
      · simp

theorem minRow_le : ∀ (l : List Nat), ∀ a ∈ l, minRow l ≤ a
  | [], a, h => by simp at h
  | [b], a, h => by simp at h; simp [minRow, h]
  | b :: d :: l, a, h => by
      rw [minRow]
      · rcases List.mem_cons.1 h with rfl | h
        · exact min_le_left _ _
        · exact (min_le_right _ _).trans (minRow_le (d :: l) a h)
      · simp

theorem maxRow_mem : ∀ (l : List Nat), l ≠ [] → maxRow l ∈ l
  | [], h => absurd rfl h
  | [a], _ => by simp [maxRow]
  | a :: b :: l, _ => by
      have ih := maxRow_mem (b :: l) (by simp)
      rw [maxRow]
      · rcases max_choice a (maxRow (b :: l)) with h | h
        · rw [h]; simp
        · rw [h]; exact List.mem_cons_of_mem _ ih
      · simp

theorem le_maxRow : ∀ (l : List Nat), ∀ a ∈ l, a ≤ maxRow l
  | [], a, h => by simp at h
  | [b], a, h => by simp at h; simp [maxRow, h]
  | b :: d :: l, a, h => by
      rw [maxRow]
      · rcases List.mem_cons.1 h with rfl | h
        · exact le_max_left _ _
        · exact (le_maxRow (d :: l) a h).trans (le_max_right _ _)
      · simp

theorem mem_extendDown (nrows : Nat) (high low : List Nat) (i : Nat) :
    i ∈ extendDown nrows high low ↔
      i ∈ low ∨ (2 * minRow low < nrows ∧ minRow high < minRow low ∧ i < minRow low) := by
  unfold extendDown
  split
  · rename_i h
    rw [List.mem_insertionSort, List.mem_append, List.mem_range]
    exact ⟨fun h' => h'.imp id fun h'' => ⟨h.1, h.2, h''⟩, fun h' => h'.imp id fun h'' => h''.2.2⟩
  · rename_i h
    exact ⟨Or.inl, fun h' => h'.elim id fun h'' => absurd ⟨h''.1, h''.2.1⟩ h⟩

theorem mem_extendUp (nrows : Nat) (high low : List Nat) (i : Nat) :
    i ∈ extendUp nrows high low ↔
      i ∈ low ∨ (2 * maxRow low > nrows ∧ maxRow high > maxRow low ∧ maxRow low < i ∧
        i < nrows) := by
  unfold extendUp
  split
  · rename_i h
    rw [List.mem_insertionSort, List.mem_append, List.mem_reverse, List.mem_filter,
      List.mem_range]
    simp only [decide_eq_true_eq]
    exact ⟨fun h' => h'.imp id fun h'' => ⟨h.1, h.2, h''.2, h''.1⟩,
      fun h' => h'.imp id fun h'' => ⟨h''.2.2.2, h''.2.2.1⟩⟩
  · rename_i h
    exact ⟨Or.inl, fun h' => h'.elim id fun h'' => absurd ⟨h''.1, h''.2.1⟩ h⟩

/-- rows that are not high are always in the list -/
theorem mem_lowRows_of_not_high (nrows : Nat) (high : List Nat) (i : Nat) (hi : i < nrows)
    (h : i ∉ high) : i ∈ lowRows nrows high := by
  have h0 : i ∈ (List.range nrows).filter fun i => i ∉ high := by simp [hi, h]
  unfold lowRows
  simp only
  split
  · rw [mem_extendUp, mem_extendDown]
    exact Or.inl (Or.inl h0)
  · exact h0

theorem lowRows_lt (nrows : Nat) (high : List Nat) (i : Nat)
    (h : i ∈ lowRows nrows high) : i < nrows := by
  have hbase : ∀ k, k ∈ (List.range nrows).filter (fun i => i ∉ high) → k < nrows := by
    intro k hk; simp at hk; exact hk.1
  unfold lowRows at h
  simp only at h
  split at h
  · rename_i hne
    have hmin := hbase _ (minRow_mem _ hne.1)
    rw [mem_extendUp, mem_extendDown] at h
    rcases h with (h | h) | h
    · exact hbase i h
    · omega
    · exact h.2.2.2
  · exact hbase i h

theorem keepRuns_subset (high : List Nat) (i : Nat) (h : i ∈ keepRuns high) : i ∈ high := by
  unfold keepRuns at h
  simp only at h
  split at h
  · rw [List.mem_flatten] at h
    obtain ⟨w, hw, hi⟩ := h
    rw [List.mem_filter] at hw
    have : i ∈ (whContinuous high).flatten := List.mem_flatten.2 ⟨w, hw.1, hi⟩
    unfold whContinuous at this
    rw [whContinuousLoop_flatten high [] (by simp)] at this
    simpa using this
  · exact h

theorem natSub (x y : Nat) : y - x = 1 ↔ y = x + 1 := by omega

/-- in a chain of successors the `k`-th element is the first plus `k` -/
theorem chain_get : ∀ (w : List Nat), w.IsChain (fun x y => y = x + 1) → ∀ a, w.head? = some a →
    ∀ k, k < w.length → w[k]? = some (a + k)
  | [], _, a, h, _, _ => by simp at h
  | x :: xs, hc, a, h, k, hk => by
      simp at h; subst h
      cases k with
      | zero => simp
      | succ k =>
        cases xs with
        | nil => simp at hk
        | cons y ys =>
          have h1 := List.isChain_cons_cons.1 hc
          have := chain_get (y :: ys) h1.2 y (by simp) k (by simpa using hk)
          rw [List.getElem?_cons_succ, this, h1.1]
          congr 1
          omega

theorem chain_mem_iff (w : List Nat) (hc : w.IsChain (fun x y => y = x + 1)) (a : Nat)
    (ha : w.head? = some a) (i : Nat) : i ∈ w ↔ a ≤ i ∧ i < a + w.length := by
  constructor
  · intro h
    obtain ⟨k, hk, rfl⟩ := List.mem_iff_getElem.1 h
    have := chain_get w hc a ha k hk
    rw [List.getElem?_eq_getElem hk, Option.some.injEq] at this
    rw [this]
    omega
  · rintro ⟨h1, h2⟩
    have := chain_get w hc a ha (i - a) (by omega)
    rw [show a + (i - a) = i by omega] at this
    exact List.mem_of_getElem? this

/-- a contiguous block of a strictly increasing list of high rows lies in one run -/
theorem runs_mem (high : List Nat) (w : List Nat) (hw : w ∈ whContinuous high) :
    ∃ a, w.head? = some a ∧ w.IsChain (fun x y => y = x + 1) ∧ ∀ i ∈ w, i ∈ high := by
  have h1 := whContinuousLoop_nonempty high [] w hw
  have h2 := whContinuousLoop_chain natSub high [] (by
    cases high <;> simp) w hw
  cases w with
  | nil => exact absurd rfl h1
  | cons a l =>
    refine ⟨a, rfl, h2, ?_⟩
    intro i hi
    have : i ∈ (whContinuous high).flatten := List.mem_flatten.2 ⟨_, hw, hi⟩
    unfold whContinuous at this
    rw [whContinuousLoop_flatten high [] (by simp)] at this
    simpa using this

end Misfit

namespace Misfit

/-- runs of a strictly increasing list are closed under successor inside the list -/
theorem loop_succ : ∀ (l arr : List Nat), (arr ++ l).Pairwise (· < ·) →
    ∀ w ∈ whContinuousLoop l arr, ∀ x ∈ w, x + 1 ∈ arr ++ l → x + 1 ∈ w
  | [], arr, _, w, hw, x, hx, h => by simp [whContinuousLoop] at hw
  | [y], arr, _, w, hw, x, hx, h => by simp [whContinuousLoop] at hw; subst hw; exact h
  | u :: y :: rest, arr, hs, w, hw, x, hx, h => by
      unfold whContinuousLoop at hw
      split at hw
      · refine loop_succ (y :: rest) (arr ++ [u]) (by simpa using hs) w hw x hx (by simpa using h)
      · rename_i hne
        rw [List.pairwise_append] at hs
        obtain ⟨hs1, hs2, hs3⟩ := hs
        have hs2' := List.pairwise_cons.1 hs2
        rcases List.mem_cons.1 hw with rfl | hw
        · rcases List.mem_append.1 h with h | h
          · exact List.mem_append_left _ h
          · rcases List.mem_cons.1 h with h | h
            · rw [h]; simp
            · exfalso
              have hxu : x ≤ u := by
                rcases List.mem_append.1 hx with hx | hx
                · exact (hs3 x hx u (by simp)).le
                · simp at hx; exact hx.le
              have hyu : u < y := hs2'.1 y (by simp)
              have : y ≤ x + 1 := by
                rcases List.mem_cons.1 h with h | h
                · exact h.ge
                · exact ((List.pairwise_cons.1 hs2'.2).1 _ h).le
              omega
        · have hxin : x ∈ y :: rest := by
            have : x ∈ (whContinuousLoop (y :: rest) []).flatten := List.mem_flatten.2 ⟨w, hw, hx⟩
            rw [whContinuousLoop_flatten _ _ (by simp)] at this
            simpa using this
          have hux : u < x := hs2'.1 x hxin
          refine loop_succ (y :: rest) [] (by simpa using hs2'.2) w hw x hx ?_
          rcases List.mem_append.1 h with h | h
          · have := hs3 _ h u (by simp)
            omega
          · rcases List.mem_cons.1 h with h | h
            · omega
            · simpa using h

theorem runs_succ (high : List Nat) (hs : high.Pairwise (· < ·)) (w : List Nat)
    (hw : w ∈ whContinuous high) (x : Nat) (hx : x ∈ w) (h : x + 1 ∈ high) : x + 1 ∈ w :=
  loop_succ high [] (by simpa using hs) w hw x hx (by simpa using h)

theorem runs_unique (high : List Nat) (hs : high.Pairwise (· < ·)) (w w' : List Nat)
    (hw : w ∈ whContinuous high) (hw' : w' ∈ whContinuous high) (x : Nat) (hx : x ∈ w)
    (hx' : x ∈ w') : w = w' := by
  have hnd : (whContinuous high).flatten.Nodup := by
    unfold whContinuous
    rw [whContinuousLoop_flatten high [] (by simp)]
    rw [List.nil_append]
    exact hs.imp (fun h => Nat.ne_of_lt h)
  rw [List.nodup_flatten] at hnd
  by_contra hne
  have : Std.Symm (List.Disjoint (α := Nat)) := ⟨fun _ _ h => h.symm⟩
  exact hnd.2.forall hw hw' hne hx hx'

theorem runs_pred (high : List Nat) (hs : high.Pairwise (· < ·)) (w : List Nat)
    (hw : w ∈ whContinuous high) (x : Nat) (hx : x + 1 ∈ w) (h : x ∈ high) : x ∈ w := by
  have hfl : x ∈ (whContinuous high).flatten := by
    unfold whContinuous
    rw [whContinuousLoop_flatten high [] (by simp)]
    simpa using h
  obtain ⟨w', hw', hxw'⟩ := List.mem_flatten.1 hfl
  have hx1 : x + 1 ∈ high := by
    have : x + 1 ∈ (whContinuous high).flatten := List.mem_flatten.2 ⟨w, hw, hx⟩
    unfold whContinuous at this
    rw [whContinuousLoop_flatten high [] (by simp)] at this
    simpa using this
  have := runs_succ high hs w' hw' x hxw' hx1
  rw [runs_unique high hs w w' hw hw' (x + 1) hx this]
  exact hxw'

/-- a stretch of high rows is kept or dropped as a whole -/
theorem keepRuns_stretch (high : List Nat) (hs : high.Pairwise (· < ·)) (a b k : Nat)
    (hab : ∀ i, a ≤ i → i ≤ b → i ∈ high) (hk : k ∈ keepRuns high) (hak : a ≤ k) (hkb : k ≤ b) :
    ∀ i, a ≤ i → i ≤ b → i ∈ keepRuns high := by
  unfold keepRuns at hk ⊢
  simp only at hk ⊢
  split at hk
  · rename_i hlen
    rw [if_pos hlen]
    obtain ⟨w, hw, hkw⟩ := List.mem_flatten.1 hk
    have hwr := (List.mem_filter.1 hw).1
    have up : ∀ n, k + n ≤ b → k + n ∈ w := by
      intro n
      induction n with
      | zero => intro _; exact hkw
      | succ n ih =>
        intro h
        exact runs_succ high hs w hwr (k + n) (ih (by omega)) (hab _ (by omega) (by omega))
    have down : ∀ n, n ≤ k → a ≤ k - n → k - n ∈ w := by
      intro n
      induction n with
      | zero => intro _ _; exact hkw
      | succ n ih =>
        intro h1 h2
        refine runs_pred high hs w hwr (k - (n + 1)) ?_ (hab _ (by omega) (by omega))
        rw [show k - (n + 1) + 1 = k - n by omega]
        exact ih (by omega) (by omega)
    intro i h1 h2
    refine List.mem_flatten.2 ⟨w, hw, ?_⟩
    rcases le_total k i with h | h
    · have := up (i - k) (by omega)
      rwa [show k + (i - k) = i by omega] at this
    · have := down (k - i) (by omega) (by omega)
      rwa [show k - (k - i) = i by omega] at this
  · rename_i hlen
    rw [if_neg hlen]
    exact hab

/-- below the lowest low row, in the lower half, everything is masked -/
theorem lowRows_down (nrows : Nat) (high : List Nat) (l : Nat) (hl : 2 * l < nrows)
    (hlow : l ∉ high) (hall : ∀ i, i < l → i ∈ high) (k : Nat) (hk : k < l) :
    k ∈ lowRows nrows high := by
  have hlmem : l ∈ (List.range nrows).filter (fun i => i ∉ high) := by
    simp [hlow]; omega
  have hkh := hall k hk
  unfold lowRows
  simp only
  rw [if_pos ⟨List.ne_nil_of_mem hlmem, List.ne_nil_of_mem hkh⟩, mem_extendUp, mem_extendDown]
  left; right
  have hmin : minRow ((List.range nrows).filter fun i => i ∉ high) = l := by
    apply le_antisymm (minRow_le _ _ hlmem)
    by_contra hlt
    have hm := minRow_mem _ (List.ne_nil_of_mem hlmem)
    rw [List.mem_filter] at hm
    have h2 := hall _ (not_le.1 hlt)
    simp only [decide_eq_true_eq] at hm
    exact hm.2 h2
  rw [hmin]
  exact ⟨hl, lt_of_le_of_lt (minRow_le _ _ hkh) hk, hk⟩

/-- above the highest low row, in the upper half, everything is masked -/
theorem lowRows_up (nrows : Nat) (high : List Nat) (l : Nat) (hl : 2 * l > nrows)
    (hln : l < nrows) (hlow : l ∉ high) (hall : ∀ i, l < i → i < nrows → i ∈ high)
    (k : Nat) (hk : l < k) (hkn : k < nrows) : k ∈ lowRows nrows high := by
  have hlmem : l ∈ (List.range nrows).filter (fun i => i ∉ high) := by
    simp [hlow, hln]
  have hkh := hall k hk hkn
  unfold lowRows
  simp only
  rw [if_pos ⟨List.ne_nil_of_mem hlmem, List.ne_nil_of_mem hkh⟩, mem_extendUp]
  right
  have hlmem1 : l ∈ extendDown nrows high ((List.range nrows).filter fun i => i ∉ high) :=
    (mem_extendDown _ _ _ _).2 (Or.inl hlmem)
  have hmax : maxRow (extendDown nrows high ((List.range nrows).filter fun i => i ∉ high)) = l := by
    apply le_antisymm _ (le_maxRow _ _ hlmem1)
    by_contra hlt
    have hm := maxRow_mem _ (List.ne_nil_of_mem hlmem1)
    rw [mem_extendDown] at hm
    rcases hm with hm | hm
    · rw [List.mem_filter, List.mem_range] at hm
      have h2 := hall _ (not_le.1 hlt) hm.1
      simp only [decide_eq_true_eq] at hm
      exact hm.2 h2
    · have := minRow_le _ _ hlmem
      omega
  rw [hmax]
  exact ⟨hl, lt_of_lt_of_le hk (le_maxRow _ _ hkh), hk, hkn⟩

end Misfit
