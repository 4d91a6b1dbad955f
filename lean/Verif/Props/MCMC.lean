import Verif.Lemmas.MCMC
import Mathlib.Data.Rat.Floor
import Mathlib.Tactic.NormNum

/-!
# C39, C40, C59: the sampling loop and the saved chain
-/

namespace Misfit

section loop
variable {K : Type*} [Field K] [LinearOrder K]

/-- The documented convergence criterion at the step with (zero based) index `ii`, in
terms of the options and of what the sampler reports: all limits are set, the
autocorrelation time could be computed, the mean acceptance fraction is strictly inside
its limits, the step index exceeds `nEff` autocorrelation times, at least 50 steps were
made, and running all steps was not requested. -/
def Converged (o : StopOpts K) (diag : Nat → StepDiag K) (ii : Nat) : Prop :=
  ∃ lo hi ne ac, o.minAF = some lo ∧ o.maxAF = some hi ∧ o.nEff = some ne ∧
    (diag ii).acor = some ac ∧ Fl.ltB lo (diag ii).af = true ∧
    Fl.ltB (diag ii).af hi = true ∧ Fl.ltB (ac * ne) (.fin (ii : K)) = true ∧
    50 ≤ ii + 1 ∧ o.runAllSteps = false

theorem stopTest_iff (o : StopOpts K) (diag : Nat → StepDiag K) (ii : Nat) :
    stopTest o ii (diag ii) = true ↔ Converged o diag ii := by
  unfold stopTest Converged
  cases h1 : o.minAF with
  | none => simp
  | some lo =>
    cases h2 : o.maxAF with
    | none => simp
    | some hi =>
      cases h3 : o.nEff with
      | none => simp
      | some ne =>
        cases h4 : (diag ii).acor with
        | none => simp
        | some ac =>
          simp only [Option.some.injEq, exists_and_left, exists_eq_left']
          unfold acorForceMin
          constructor
          · intro h
            split at h
            · rename_i hc
              simp only [Bool.and_eq_true, Bool.not_eq_true'] at hc
              simp only [decide_eq_true_eq] at h
              exact ⟨hc.1.1.1, hc.1.1.2, hc.2, by omega, hc.1.2⟩
            · exact absurd h (by simp)
          · rintro ⟨a, b, c, d, e⟩
            rw [if_pos (by simp [a, b, c, e])]
            simp only [decide_eq_true_eq]
            omega

/-- **C39**: a run makes at least one and at most `nSteps` steps; if it makes fewer, the
convergence criterion holds at its last step; and it never goes past a step at which
the criterion held.  For every sequence of acceptance fractions and autocorrelation
times (NaN and infinities included) and every option setting. -/
theorem C39_stop (o : StopOpts K) (diag : Nat → StepDiag K) (r : RunReport)
    (h : productionRun o diag = .ok r) :
    1 ≤ r.finishedSteps ∧ r.finishedSteps ≤ o.nSteps ∧
      (r.finishedSteps < o.nSteps → Converged o diag (r.finishedSteps - 1)) ∧
      ∀ j, j + 1 < r.finishedSteps → ¬ Converged o diag j := by
  unfold productionRun at h
  cases hs : sampleLoop o diag none 0 o.nSteps with
  | none => rw [hs] at h; exact absurd h (by simp)
  | some ii =>
    rw [hs] at h
    obtain rfl := Except.ok.inj h
    have hpos : 0 < o.nSteps := by
      rcases Nat.eq_zero_or_pos o.nSteps with h0 | h0
      · rw [h0, sampleLoop] at hs; exact absurd hs (by simp)
      · exact h0
    obtain ⟨_, h2, h3, h4⟩ := sampleLoop_spec o diag o.nSteps 0 none ii hpos hs
    refine ⟨by simp, by show ii + 1 ≤ o.nSteps; omega, fun hlt => ?_, fun j hj hc => ?_⟩
    · have := h3 (by simpa using hlt)
      simpa using (stopTest_iff o diag ii).mp this
    · have hj' : j < ii := by simpa using hj
      have := h4 j (Nat.zero_le _) hj'
      rw [(stopTest_iff o diag j).mpr hc] at this
      exact absurd this (by simp)

/-- **C39** (consequences): a run that stops early made at least 50 steps; with
`runAllSteps` or with one of the limits unset all `nSteps` steps are made. -/
theorem C39_budget (o : StopOpts K) (diag : Nat → StepDiag K) (r : RunReport)
    (h : productionRun o diag = .ok r) :
    (r.finishedSteps < o.nSteps → 50 ≤ r.finishedSteps) ∧
    (o.runAllSteps = true ∨ o.minAF = none ∨ o.maxAF = none ∨ o.nEff = none →
      r.finishedSteps = o.nSteps) := by
  obtain ⟨h1, h2, h3, _⟩ := C39_stop o diag r h
  constructor
  · intro hlt
    obtain ⟨_, _, _, _, _, _, _, _, _, _, _, h50, _⟩ := h3 hlt
    omega
  · intro hor
    by_contra hne
    obtain ⟨lo, hi, ne, ac, a1, a2, a3, _, _, _, _, _, ha⟩ := h3 (by omega)
    rcases hor with h' | h' | h' | h'
    · rw [h'] at ha; exact absurd ha (by simp)
    · rw [h'] at a1; exact absurd a1 (by simp)
    · rw [h'] at a2; exact absurd a2 (by simp)
    · rw [h'] at a3; exact absurd a3 (by simp)

/-- **C39** (error branch): a run returns for every positive step budget; a budget of
zero steps is a `NameError` (the loop variable is read after the loop). -/
theorem C39_returns (o : StopOpts K) (diag : Nat → StepDiag K) :
    (0 < o.nSteps → ∃ r, productionRun o diag = .ok r) ∧
    (o.nSteps = 0 → productionRun o diag = .error .nameError) := by
  constructor
  · intro h
    obtain ⟨r, hr⟩ := sampleLoop_some o diag o.nSteps 0 none (Or.inl h)
    exact ⟨_, by rw [productionRun, hr]⟩
  · intro h
    rw [productionRun, h]
    rfl

/-- **C59** (partial): in a run with all limits set and not forced to run all steps, the
warning about missing convergence is written whenever the criterion held at no executed
step, and is not written when the run stopped early.
Missing from the full claim (warning exactly when not converged): the case of
convergence at the very last step, see `C59_false`. -/
theorem C59_caution_partial (o : StopOpts K) (diag : Nat → StepDiag K) (r : RunReport)
    (h : productionRun o diag = .ok r)
    (hset : o.minAF.isSome ∧ o.maxAF.isSome ∧ o.nEff.isSome) (hall : o.runAllSteps = false) :
    ((∀ j, j < r.finishedSteps → ¬ Converged o diag j) → r.caution = true) ∧
    (r.finishedSteps < o.nSteps → r.caution = false) := by
  obtain ⟨h1, h2, h3, _⟩ := C39_stop o diag r h
  have hc : r.caution = decide (r.finishedSteps = o.nSteps) := by
    unfold productionRun at h
    cases hs : sampleLoop o diag none 0 o.nSteps with
    | none => rw [hs] at h; exact absurd h (by simp)
    | some ii =>
      rw [hs] at h
      obtain rfl := Except.ok.inj h
      simp [hset.1, hset.2.1, hset.2.2, hall]
  rw [hc]
  constructor
  · intro hno
    rcases Nat.lt_or_ge r.finishedSteps o.nSteps with hlt | hge
    · exact absurd (h3 hlt) (hno _ (by omega))
    · simp; omega
  · intro hlt
    simp; omega

/-- **C59**, what the warning says: it is written exactly when the criterion held at no step but possibly
the last allowed one. -/
theorem C59_exact (o : StopOpts K) (diag : Nat → StepDiag K) (r : RunReport)
    (h : productionRun o diag = .ok r)
    (hset : o.minAF.isSome ∧ o.maxAF.isSome ∧ o.nEff.isSome) (hall : o.runAllSteps = false) :
    r.caution = true ↔ ∀ j, j + 1 < o.nSteps → ¬ Converged o diag j := by
  obtain ⟨h1, h2, h3, h4⟩ := C39_stop o diag r h
  have hc : r.caution = decide (r.finishedSteps = o.nSteps) := by
    unfold productionRun at h
    cases hs : sampleLoop o diag none 0 o.nSteps with
    | none => rw [hs] at h; exact absurd h (by simp)
    | some ii =>
      rw [hs] at h
      obtain rfl := Except.ok.inj h
      simp [hset.1, hset.2.1, hset.2.2, hall]
  rw [hc, decide_eq_true_eq]
  constructor
  · intro he j hj
    exact h4 j (by omega)
  · intro hno
    rcases Nat.lt_or_ge r.finishedSteps o.nSteps with hlt | hge
    · exact absurd (h3 hlt) (hno _ (by omega))
    · omega

end loop

/-- options of the examples: `0.2 < af < 0.5`, `nEff = 1`, at most `n` steps -/
def exOpts (n : Nat) : StopOpts ℚ :=
  { minAF := some (.fin (1/5)), maxAF := some (.fin (1/2)), nEff := some (.fin 1),
    runAllSteps := false, nSteps := n }

/-- a well behaved sampler: acceptance fraction 0.3, autocorrelation time 10 once the
chain has 20 steps -/
def exDiag (ii : Nat) : StepDiag ℚ :=
  { af := .fin (3/10), acor := if ii < 20 then none else some (.fin 10) }

/-- With 100 allowed steps the run stops after 50 and does not warn. -/
example : productionRun (exOpts 100) exDiag = .ok { finishedSteps := 50, caution := false } := by
  decide +kernel

/-- **C59**, negation: with a budget of 50 steps the same sampler converges at its last
step, and the run still writes the warning "no convergence within nSteps". -/
theorem C59_false :
    ∃ (o : StopOpts ℚ) (diag : Nat → StepDiag ℚ) (r : RunReport),
      productionRun o diag = .ok r ∧ Converged o diag (r.finishedSteps - 1) ∧
        r.caution = true := by
  refine ⟨exOpts 50, exDiag, { finishedSteps := 50, caution := true }, by decide +kernel,
    ?_, rfl⟩
  rw [← stopTest_iff]
  decide +kernel

section dict
variable {α β : Type*}

/-- A sampler's arrays: `W` walkers, `S` steps each. -/
def Rect (W S : Nat) (l : List (List α)) : Prop := l.length = W ∧ ∀ x ∈ l, x.length = S

/-- The sample of walker `w` at step `s`. -/
def sampleAt (l : List (List α)) (w s : Nat) : Option α := (l[w]?).bind (fun x => x[s]?)

theorem rect_drop {γ : Type*} {W S : Nat} (nBurn : Nat) {l : List (List γ)} (h : Rect W S l) :
    ∀ x ∈ l.map (List.drop nBurn), x.length = S - nBurn := by
  intro x hx
  obtain ⟨y, hy, rfl⟩ := List.mem_map.mp hx
  rw [List.length_drop, h.2 y hy]

theorem rect_drop_length {γ : Type*} {W S : Nat} (nBurn : Nat) {l : List (List γ)} (h : Rect W S l) :
    ((l.map (List.drop nBurn)).flatten).length = W * (S - nBurn) := by
  rw [flatten_length_of _ _ (rect_drop nBurn h), List.length_map, h.1]

theorem rect_drop_get {γ : Type*} {W S : Nat} (nBurn k : Nat) (hm : 0 < S - nBurn) {l : List (List γ)}
    (h : Rect W S l) : ((l.map (List.drop nBurn)).flatten)[k]? =
      sampleAt l (k / (S - nBurn)) (nBurn + k % (S - nBurn)) := by
  rw [flatten_getElem? _ hm _ (rect_drop nBurn h), List.getElem?_map, sampleAt]
  cases l[k / (S - nBurn)]? with
  | none => rfl
  | some x => simp [List.getElem?_drop]

/-- **C40**: in the saved dictionary the flattened chain and the flattened
log-probability have one entry per walker and step after burn-in, and entry `k` of both
is the sample of walker `k / (S − nBurn)` at step `nBurn + k % (S − nBurn)`. -/
theorem C40_aligned (W S nBurn : Nat) (chain : List (List α)) (lnp : List (List β))
    (hc : Rect W S chain) (hp : Rect W S lnp) :
    (makeSamplerDict chain lnp nBurn).flatchain.length = W * (S - nBurn) ∧
    (makeSamplerDict chain lnp nBurn).flatlnprobability.length = W * (S - nBurn) ∧
    ∀ k : Nat, k < W * (S - nBurn) →
      (makeSamplerDict chain lnp nBurn).flatchain[k]? =
        sampleAt chain (k / (S - nBurn)) (nBurn + k % (S - nBurn)) ∧
      (makeSamplerDict chain lnp nBurn).flatlnprobability[k]? =
        sampleAt lnp (k / (S - nBurn)) (nBurn + k % (S - nBurn)) ∧
      k / (S - nBurn) < W ∧ nBurn + k % (S - nBurn) < S := by
  refine ⟨rect_drop_length nBurn hc, rect_drop_length nBurn hp, fun k hk => ?_⟩
  have hm : 0 < S - nBurn := by
    rcases Nat.eq_zero_or_pos (S - nBurn) with h0 | h0
    · rw [h0, Nat.mul_zero] at hk; omega
    · exact h0
  refine ⟨rect_drop_get nBurn k hm hc, rect_drop_get nBurn k hm hp, ?_, ?_⟩
  · rw [Nat.div_lt_iff_lt_mul hm]; exact hk
  · have := Nat.mod_lt k hm
    omega

/-- **C40**: every sample after burn-in appears exactly once: for every walker and every
step from `nBurn` on there is exactly one position of the flattened chain with that
walker and step. -/
theorem C40_once (W S nBurn w s : Nat) (hw : w < W) (hs : nBurn ≤ s) (hsS : s < S) :
    ∃! k, k < W * (S - nBurn) ∧ k / (S - nBurn) = w ∧ nBurn + k % (S - nBurn) = s := by
  have hm : 0 < S - nBurn := by omega
  have hlt : s - nBurn < S - nBurn := by omega
  refine ⟨w * (S - nBurn) + (s - nBurn), ⟨?_, ?_, ?_⟩, ?_⟩
  · calc w * (S - nBurn) + (s - nBurn) < w * (S - nBurn) + (S - nBurn) := by omega
      _ = (w + 1) * (S - nBurn) := by ring
      _ ≤ W * (S - nBurn) := Nat.mul_le_mul_right _ hw
  · show (w * (S - nBurn) + (s - nBurn)) / (S - nBurn) = w
    rw [Nat.mul_comm, Nat.mul_add_div hm, Nat.div_eq_of_lt hlt, Nat.add_zero]
  · show nBurn + (w * (S - nBurn) + (s - nBurn)) % (S - nBurn) = s
    rw [Nat.mul_comm, Nat.mul_add_mod, Nat.mod_eq_of_lt hlt]
    omega
  · rintro k ⟨_, h2, h3⟩
    have := Nat.div_add_mod k (S - nBurn)
    rw [h2] at this
    rw [← this, Nat.mul_comm]
    omega

/-- two walkers, three steps, one burn-in step -/
example : (makeSamplerDict [[10, 11, 12], [20, 21, 22]] [["a", "b", "c"], ["d", "e", "f"]] 1).flatchain
    = [11, 12, 21, 22] ∧
    (makeSamplerDict [[10, 11, 12], [20, 21, 22]] [["a", "b", "c"], ["d", "e", "f"]]
      1).flatlnprobability = ["b", "c", "e", "f"] ∧
    Rect 2 3 [[10, 11, 12], [20, 21, 22]] := by
  refine ⟨rfl, rfl, rfl, ?_⟩
  intro x hx
  simp at hx
  rcases hx with rfl | rfl <;> rfl

end dict

end Misfit
