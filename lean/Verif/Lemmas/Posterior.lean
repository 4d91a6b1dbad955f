import Verif.Model.Posterior
import Mathlib.Data.List.Sort
import Mathlib.Tactic.Linarith
import Mathlib.Tactic.NormNum

/-! Helper lemmas for the analysis of a chain. -/

namespace Misfit

section derived

theorem thetaChain_ok {L : Nat} (cols : Cols L) :
    ∀ (theta : List (Fl ℝ)) (vary : List Bool) (i0 : Nat), vary.length = theta.length →
      i0 + vary.count true ≤ cols.length →
      ∃ tc, thetaChain cols theta vary i0 = .ok tc ∧ tc.length = theta.length ∧
        ∀ i : Nat, i < theta.length →
          tc[i]? = if vary[i]? = some true then cols[i0 + (vary.take i).count true]?
            else theta[i]?.map (fun t => fun _ => t) := by
  intro theta
  induction theta with
  | nil =>
    intro vary i0 _ _
    exact ⟨[], rfl, rfl, fun i hi => by simp at hi⟩
  | cons t ts ih =>
    intro vary i0 hv hc
    cases vary with
    | nil => simp at hv
    | cons v vs =>
      have hv' : vs.length = ts.length := by simpa using hv
      cases v with
      | true =>
        have hc' : i0 + 1 + vs.count true ≤ cols.length := by
          rw [List.count_cons_self] at hc; omega
        obtain ⟨tc, h1, h2, h3⟩ := ih vs (i0 + 1) hv' hc'
        have hlt : i0 < cols.length := by omega
        refine ⟨cols[i0] :: tc, ?_, by simp [h2], ?_⟩
        · rw [thetaChain, List.getElem?_eq_getElem hlt]
          simp only [h1]
        · intro i hi
          cases i with
          | zero => simp [List.getElem?_eq_getElem hlt]
          | succ j =>
            simp only [List.getElem?_cons_succ, List.take_succ_cons, List.count_cons_self]
            rw [h3 j (by simpa using hi)]
            have : i0 + 1 + (vs.take j).count true = i0 + ((vs.take j).count true + 1) := by omega
            rw [this]
      | false =>
        have hc' : i0 + vs.count true ≤ cols.length := by
          rw [List.count_cons_of_ne (by decide)] at hc; exact hc
        obtain ⟨tc, h1, h2, h3⟩ := ih vs i0 hv' hc'
        refine ⟨(fun _ => t) :: tc, ?_, by simp [h2], ?_⟩
        · rw [thetaChain]
          simp only [h1]
        · intro i hi
          cases i with
          | zero => simp
          | succ j =>
            simp only [List.getElem?_cons_succ, List.take_succ_cons]
            rw [List.count_cons_of_ne (by decide)]
            exact h3 j (by simpa using hi)

theorem freeInds_get : ∀ (vs : List Bool) (j0 i : Nat), i < vs.length →
    (freeInds vs j0)[i]? = some (if vs[i]? = some true then
      some (j0 + (vs.take i).count true) else none) := by
  intro vs
  induction vs with
  | nil => intro _ i hi; simp at hi
  | cons v vs ih =>
    intro j0 i hi
    cases v with
    | true =>
      cases i with
      | zero => simp [freeInds]
      | succ i =>
        rw [freeInds, List.getElem?_cons_succ, ih (j0 + 1) i (by simpa using hi)]
        simp only [List.getElem?_cons_succ, List.take_succ_cons, List.count_cons_self]
        have : j0 + 1 + (vs.take i).count true = j0 + ((vs.take i).count true + 1) := by omega
        rw [this]
    | false =>
      cases i with
      | zero => simp [freeInds]
      | succ i =>
        rw [freeInds, List.getElem?_cons_succ, ih j0 i (by simpa using hi)]
        simp only [List.getElem?_cons_succ, List.take_succ_cons]
        rw [List.count_cons_of_ne (by decide)]

end derived

section percentiles
variable {K : Type*} [Field K] [LinearOrder K] [IsStrictOrderedRing K] [FloorRing K]

/-- ascending list -/
def Asc (s : List K) : Prop :=
  ∀ (i j : Nat) (hi : i < s.length) (hj : j < s.length), i ≤ j → s[i] ≤ s[j]

/-- value of the interpolation between two entries of an ascending list -/
theorem lerpAt_bounds (s : List K) (hs : Asc s) (h : K) (h0 : 0 ≤ h)
    (hn : h ≤ (s.length : K) - 1) :
    ∃ (v : K) (hk : ⌊h⌋₊ < s.length), lerpAt s h = .ok v ∧ s[⌊h⌋₊] ≤ v ∧
      ∀ (hk1 : ⌊h⌋₊ + 1 < s.length), v ≤ s[⌊h⌋₊ + 1] := by
  have hk : ⌊h⌋₊ < s.length := by
    rw [Nat.floor_lt h0]; linarith
  have hfl : (⌊h⌋₊ : K) ≤ h := Nat.floor_le h0
  have hfl2 : h < (⌊h⌋₊ : K) + 1 := Nat.lt_floor_add_one h
  rw [lerpAt, List.getElem?_eq_getElem hk]
  by_cases hk1 : ⌊h⌋₊ + 1 < s.length
  · rw [List.getElem?_eq_getElem hk1]
    have hab := hs _ _ hk hk1 (Nat.le_succ _)
    refine ⟨_, hk, rfl, ?_, fun _ => ?_⟩
    · have : 0 ≤ (h - (⌊h⌋₊ : K)) * (s[⌊h⌋₊ + 1] - s[⌊h⌋₊]) :=
        mul_nonneg (by linarith) (by linarith)
      linarith
    · have : (h - (⌊h⌋₊ : K)) * (s[⌊h⌋₊ + 1] - s[⌊h⌋₊]) ≤ 1 * (s[⌊h⌋₊ + 1] - s[⌊h⌋₊]) :=
        mul_le_mul_of_nonneg_right (by linarith) (by linarith)
      linarith
  · rw [List.getElem?_eq_none (by omega)]
    exact ⟨_, hk, rfl, le_refl _, fun h => absurd h hk1⟩

theorem lerpAt_mono (s : List K) (hs : Asc s) (h h' v v' : K) (h0 : 0 ≤ h) (hle : h ≤ h')
    (hn : h' ≤ (s.length : K) - 1) (hv : lerpAt s h = .ok v) (hv' : lerpAt s h' = .ok v') :
    v ≤ v' := by
  obtain ⟨w, hk, hw, hlo, hhi⟩ := lerpAt_bounds s hs h h0 (le_trans hle hn)
  obtain ⟨w', hk', hw', hlo', hhi'⟩ := lerpAt_bounds s hs h' (le_trans h0 hle) hn
  rw [hv] at hw; rw [hv'] at hw'
  obtain rfl := Except.ok.inj hw
  obtain rfl := Except.ok.inj hw'
  have hfle : ⌊h⌋₊ ≤ ⌊h'⌋₊ := Nat.floor_le_floor hle
  rcases Nat.eq_or_lt_of_le hfle with heq | hlt
  · -- same cell
    rw [lerpAt, ← heq] at hv'
    rw [lerpAt] at hv
    rw [List.getElem?_eq_getElem hk] at hv hv'
    by_cases hk1 : ⌊h⌋₊ + 1 < s.length
    · rw [List.getElem?_eq_getElem hk1] at hv hv'
      have hab := hs _ _ hk hk1 (Nat.le_succ _)
      have e1 := Except.ok.inj hv
      have e2 := Except.ok.inj hv'
      rw [← e1, ← e2]
      have : (h - (⌊h⌋₊ : K)) * (s[⌊h⌋₊ + 1] - s[⌊h⌋₊]) ≤
          (h' - (⌊h⌋₊ : K)) * (s[⌊h⌋₊ + 1] - s[⌊h⌋₊]) :=
        mul_le_mul_of_nonneg_right (by linarith) (by linarith)
      linarith
    · rw [List.getElem?_eq_none (by omega)] at hv hv'
      have e1 := Except.ok.inj hv
      have e2 := Except.ok.inj hv'
      rw [← e1, ← e2]
  · have h1 : ⌊h⌋₊ + 1 < s.length := by omega
    calc v ≤ s[⌊h⌋₊ + 1] := hhi h1
      _ ≤ s[⌊h'⌋₊] := hs _ _ h1 hk' hlt
      _ ≤ v' := hlo'

theorem asc_sort (l : List K) : Asc (l.insertionSort (· ≤ ·)) := by
  have h := List.pairwise_insertionSort (· ≤ ·) l
  intro i j hi hj hij
  rcases Nat.eq_or_lt_of_le hij with rfl | hlt
  · exact le_refl _
  · exact List.pairwise_iff_getElem.mp h i j hi hj hlt

theorem percentile_ok (col : List K) (q : K) (hne : col ≠ []) (h0 : 0 ≤ q) (h1 : q ≤ 100) :
    ∃ v, percentile col q = .ok v := by
  have hlen : 0 < col.length := List.length_pos_iff.mpr hne
  have hc : (1 : K) ≤ (col.length : K) := by exact_mod_cast hlen
  obtain ⟨v, _, hv, _⟩ := lerpAt_bounds _ (asc_sort col)
    (q / 100 * ((col.length : K) - 1))
    (mul_nonneg (div_nonneg h0 (by norm_num)) (by linarith))
    (by
      rw [List.length_insertionSort]
      calc q / 100 * ((col.length : K) - 1) ≤ 1 * ((col.length : K) - 1) :=
            mul_le_mul_of_nonneg_right (by rw [div_le_one (by norm_num)]; exact h1) (by linarith)
        _ = _ := one_mul _)
  exact ⟨v, hv⟩

theorem percentile_mono (col : List K) (q q' v v' : K) (hne : col ≠ []) (h0 : 0 ≤ q)
    (hq : q ≤ q') (h1 : q' ≤ 100) (hv : percentile col q = .ok v)
    (hv' : percentile col q' = .ok v') : v ≤ v' := by
  have hlen : 0 < col.length := List.length_pos_iff.mpr hne
  have hc : (1 : K) ≤ (col.length : K) := by exact_mod_cast hlen
  refine lerpAt_mono _ (asc_sort col) _ _ v v' ?_ ?_ ?_ hv hv'
  · exact mul_nonneg (div_nonneg h0 (by norm_num)) (by linarith)
  · exact mul_le_mul_of_nonneg_right (div_le_div_of_nonneg_right hq (by norm_num)) (by linarith)
  · rw [List.length_insertionSort]
    calc q' / 100 * ((col.length : K) - 1) ≤ 1 * ((col.length : K) - 1) :=
          mul_le_mul_of_nonneg_right (by rw [div_le_one (by norm_num)]; exact h1) (by linarith)
      _ = _ := one_mul _

/-- a percentile lies between any bounds of the samples -/
theorem percentile_range (col : List K) (q v lo hi : K) (hne : col ≠ []) (h0 : 0 ≤ q)
    (h1 : q ≤ 100) (hb : ∀ x ∈ col, lo ≤ x ∧ x ≤ hi) (hv : percentile col q = .ok v) :
    lo ≤ v ∧ v ≤ hi := by
  have hlen : 0 < col.length := List.length_pos_iff.mpr hne
  have hc : (1 : K) ≤ (col.length : K) := by exact_mod_cast hlen
  have hs := asc_sort col
  have hmem : ∀ x ∈ col.insertionSort (· ≤ ·), lo ≤ x ∧ x ≤ hi :=
    fun x hx => hb x ((List.mem_insertionSort _).mp hx)
  obtain ⟨w, hk, hw, hlo, hhi⟩ := lerpAt_bounds _ hs
    (q / 100 * ((col.length : K) - 1))
    (mul_nonneg (div_nonneg h0 (by norm_num)) (by linarith))
    (by
      rw [List.length_insertionSort]
      calc q / 100 * ((col.length : K) - 1) ≤ 1 * ((col.length : K) - 1) :=
            mul_le_mul_of_nonneg_right (by rw [div_le_one (by norm_num)]; exact h1) (by linarith)
        _ = _ := one_mul _)
  rw [percentile] at hv
  have hv2 := hv
  rw [hw] at hv
  obtain rfl := Except.ok.inj hv
  refine ⟨le_trans (hmem _ (List.getElem_mem hk)).1 hlo, ?_⟩
  by_cases hk1 : ⌊q / 100 * ((col.length : K) - 1)⌋₊ + 1 <
      (col.insertionSort (· ≤ ·)).length
  · exact le_trans (hhi hk1) (hmem _ (List.getElem_mem hk1)).2
  · rw [lerpAt, List.getElem?_eq_getElem hk, List.getElem?_eq_none (by omega)] at hv2
    rw [← Except.ok.inj hv2]
    exact (hmem _ (List.getElem_mem hk)).2

end percentiles

section linked
variable {K : Type*} [Field K]

theorem writeLinked_spec {n : Nat} (lims : Fin n → K × K) :
    ∀ (ps : List (Fin n × K)) (best : Fin n → K) (err : Fin n → K × K) (p : Fin n),
      (p ∉ ps.map Prod.fst →
        (writeLinked lims best err ps).1 p = best p ∧
        (writeLinked lims best err ps).2 p = err p) ∧
      (p ∈ ps.map Prod.fst →
        (writeLinked lims best err ps).2 p =
          errFrom ((writeLinked lims best err ps).1 p) (lims p)) := by
  intro ps
  induction ps with
  | nil => intro best err p; simp [writeLinked]
  | cons x ps ih =>
    intro best err p
    obtain ⟨q, v⟩ := x
    have ihp := ih (Function.update best q v) (Function.update err q (errFrom v (lims q))) p
    rw [writeLinked]
    by_cases hin : p ∈ ps.map Prod.fst
    · exact ⟨fun h => absurd (List.mem_cons_of_mem _ hin) (by simpa using h),
        fun _ => ihp.2 hin⟩
    · obtain ⟨h1, h2⟩ := ihp.1 hin
      rw [h1, h2]
      by_cases hpq : p = q
      · subst hpq
        refine ⟨fun h => absurd (by simp) h, fun _ => ?_⟩
        simp
      · refine ⟨fun _ => ⟨Function.update_of_ne hpq _ _, Function.update_of_ne hpq _ _⟩,
          fun h => ?_⟩
        rw [List.map_cons, List.mem_cons] at h
        rcases h with h | h
        · exact absurd h hpq
        · exact absurd h hin

/-- written values do not depend on what was there before -/
theorem writeLinked_best_indep {n : Nat} (lims lims' : Fin n → K × K) :
    ∀ (ps : List (Fin n × K)) (best best' : Fin n → K) (err err' : Fin n → K × K) (p : Fin n),
      (p ∈ ps.map Prod.fst ∨ best p = best' p) →
      (writeLinked lims best err ps).1 p = (writeLinked lims' best' err' ps).1 p := by
  intro ps
  induction ps with
  | nil =>
    intro best best' err err' p h
    rcases h with h | h
    · simp at h
    · exact h
  | cons x ps ih =>
    intro best best' err err' p h
    obtain ⟨q, v⟩ := x
    rw [writeLinked, writeLinked]
    apply ih
    by_cases hpq : p = q
    · right; subst hpq; simp
    · rcases h with h | h
      · rw [List.map_cons, List.mem_cons] at h
        rcases h with h | h
        · exact absurd h hpq
        · exact Or.inl h
      · right
        rw [Function.update_of_ne hpq, Function.update_of_ne hpq, h]

end linked

end Misfit
