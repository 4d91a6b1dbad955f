import Verif.Model.Params

/-! Helper lemmas for `Verif.Props.Params`. -/

namespace Misfit
variable {α : Type*}

theorem updateParameters_no_err : ∀ (theta : List α) (vary : List Bool) (fit : List α),
    vary.length = theta.length → fit.length = vary.count true →
    (updateParameters theta vary fit).2 = none
  | [], _, _, _, _ => rfl
  | _ :: _, [], _, h, _ => by simp at h
  | t :: ts, false :: vs, fit, h, h' => by
      simp only [updateParameters]
      exact updateParameters_no_err ts vs fit (by simpa using h) (by simpa using h')
  | t :: ts, true :: vs, [], h, h' => by simp at h'
  | t :: ts, true :: vs, f :: fs, h, h' => by
      simp only [updateParameters]
      exact updateParameters_no_err ts vs fs (by simpa using h) (by simpa using h')

theorem updateParameters_length : ∀ (theta : List α) (vary : List Bool) (fit : List α),
    (updateParameters theta vary fit).1.length = theta.length
  | [], _, _ => rfl
  | _ :: _, [], _ => rfl
  | t :: ts, false :: vs, fit => by
      simp [updateParameters, updateParameters_length ts vs fit]
  | t :: ts, true :: vs, [] => rfl
  | t :: ts, true :: vs, f :: fs => by
      simp [updateParameters, updateParameters_length ts vs fs]

theorem updateParameters_get : ∀ (theta : List α) (vary : List Bool) (fit : List α),
    vary.length = theta.length → fit.length = vary.count true → ∀ i, i < theta.length →
    (updateParameters theta vary fit).1[i]? =
      if vary[i]? = some true then fit[(vary.take i).count true]? else theta[i]?
  | [], _, _, _, _, i, hi => by simp at hi
  | _ :: _, [], _, h, _, _, _ => by simp at h
  | t :: ts, false :: vs, fit, h, h', i, hi => by
      have ih := updateParameters_get ts vs fit (by simpa using h) (by simpa using h')
      cases i with
      | zero => simp [updateParameters]
      | succ i =>
        simp only [updateParameters, List.getElem?_cons_succ, List.take_succ_cons]
        rw [ih i (by simpa using hi)]
        simp
  | t :: ts, true :: vs, [], h, h', i, hi => by simp at h'
  | t :: ts, true :: vs, f :: fs, h, h', i, hi => by
      have ih := updateParameters_get ts vs fs (by simpa using h) (by simpa using h')
      cases i with
      | zero => simp [updateParameters]
      | succ i =>
        simp only [updateParameters, List.getElem?_cons_succ, List.take_succ_cons]
        rw [ih i (by simpa using hi)]
        simp

theorem initializeFittingTheta_update : ∀ (theta : List α) (vary : List Bool) (fit : List α),
    vary.length = theta.length → fit.length = vary.count true →
    initializeFittingTheta (updateParameters theta vary fit).1 vary = .ok fit
  | [], [], fit, _, h' => by
      have : fit = [] := by simpa using h'
      subst this; rfl
  | [], _ :: _, _, h, _ => by simp at h
  | _ :: _, [], _, h, _ => by simp at h
  | t :: ts, false :: vs, fit, h, h' => by
      have ih := initializeFittingTheta_update ts vs fit (by simpa using h) (by simpa using h')
      simp [updateParameters, initializeFittingTheta, ih]
  | t :: ts, true :: vs, [], h, h' => by simp at h'
  | t :: ts, true :: vs, f :: fs, h, h' => by
      have ih := initializeFittingTheta_update ts vs fs (by simpa using h) (by simpa using h')
      simp [updateParameters, initializeFittingTheta, ih]

theorem updateParameters_update : ∀ (theta : List α) (vary : List Bool) (f g : List α),
    vary.length = theta.length → f.length = vary.count true → g.length = vary.count true →
    updateParameters (updateParameters theta vary f).1 vary g = updateParameters theta vary g
  | [], _, _, _, _, _, _ => rfl
  | _ :: _, [], _, _, h, _, _ => by simp at h
  | t :: ts, false :: vs, f, g, h, hf, hg => by
      have ih := updateParameters_update ts vs f g (by simpa using h) (by simpa using hf)
        (by simpa using hg)
      simp [updateParameters, ih]
  | t :: ts, true :: vs, [], _, h, hf, _ => by simp at hf
  | t :: ts, true :: vs, _ :: _, [], h, _, hg => by simp at hg
  | t :: ts, true :: vs, f :: fs, g :: gs, h, hf, hg => by
      have ih := updateParameters_update ts vs fs gs (by simpa using h) (by simpa using hf)
        (by simpa using hg)
      simp [updateParameters, ih]

section
variable {K : Type*} [Field K] [LinearOrder K]

theorem priorStatements_spec : ∀ (n : Nat) (vary : List Bool)
    (bounds : List (Option (Fl K × Fl K))) (fit : List (Fl K)) (st : List Bool),
    priorStatements n vary bounds fit = .ok st →
    (st.all id = true ↔ ∀ i < n, vary[i]? = some true →
      ∃ b x, bounds[i]? = some (some b) ∧ fit[(vary.take i).count true]? = some x ∧
        Fl.leB b.1 x = true ∧ Fl.leB x b.2 = true)
  | 0, _, _, _, st, h => by
      simp only [priorStatements, Except.ok.injEq] at h; subst h; simp
  | n + 1, [], _, _, st, h => by simp [priorStatements] at h
  | n + 1, false :: vs, bs, fit, st, h => by
      simp only [priorStatements] at h
      rw [priorStatements_spec n vs bs.tail fit st h]
      constructor
      · intro H i hi hv
        cases i with
        | zero => simp at hv
        | succ i =>
          obtain ⟨b, x, h1, h2⟩ := H i (by omega) (by simpa using hv)
          exact ⟨b, x, by simpa using h1, by simpa using h2⟩
      · intro H i hi hv
        obtain ⟨b, x, h1, h2⟩ := H (i + 1) (by omega) (by simpa using hv)
        exact ⟨b, x, by simpa using h1, by simpa using h2⟩
  | n + 1, true :: vs, [], fit, st, h => by simp [priorStatements] at h
  | n + 1, true :: vs, none :: bs, [], st, h => by simp [priorStatements] at h
  | n + 1, true :: vs, some _ :: bs, [], st, h => by simp [priorStatements] at h
  | n + 1, true :: vs, none :: bs, x :: xs, st, h => by simp [priorStatements] at h
  | n + 1, true :: vs, some b :: bs, x :: xs, st, h => by
      simp only [priorStatements] at h
      split at h
      · simp at h
      · rename_i r hr
        simp only [Except.ok.injEq] at h
        subst h
        have ih := priorStatements_spec n vs bs xs r hr
        simp only [List.all_cons, id, Bool.and_eq_true]
        have ih' : (r.all id = true) ↔ _ := ih
        constructor
        · rintro ⟨hb, hr'⟩ i hi hv
          cases i with
          | zero =>
            simp only [between, Bool.and_eq_true] at hb
            exact ⟨b, x, by simp, by simp, hb.1, hb.2⟩
          | succ i =>
            obtain ⟨b', x', h1, h2⟩ := ih'.1 hr' i (by omega) (by simpa using hv)
            exact ⟨b', x', by simpa using h1, by simpa using h2⟩
        · intro H
          refine ⟨?_, ih'.2 ?_⟩
          · obtain ⟨b', x', h1, h2, h3⟩ := H 0 (by omega) (by simp)
            simp at h1 h2
            subst h1 h2
            simp [between, h3]
          · intro i hi hv
            obtain ⟨b', x', h1, h2⟩ := H (i + 1) (by omega) (by simpa using hv)
            exact ⟨b', x', by simpa using h1, by simpa using h2⟩

theorem priorStatements_ok : ∀ (n : Nat) (vary : List Bool)
    (bounds : List (Option (Fl K × Fl K))) (fit : List (Fl K)),
    n ≤ vary.length → (vary.take n).count true ≤ fit.length →
    (∀ i < n, vary[i]? = some true → ∃ b, bounds[i]? = some (some b)) →
    ∃ st, priorStatements n vary bounds fit = .ok st
  | 0, _, _, _, _, _, _ => ⟨_, rfl⟩
  | n + 1, [], _, _, h, _, _ => by simp at h
  | n + 1, false :: vs, bs, fit, h, h', H => by
      simp only [priorStatements]
      refine priorStatements_ok n vs bs.tail fit (by simpa using h) (by simpa using h') ?_
      intro i hi hv
      obtain ⟨b, hb⟩ := H (i + 1) (by omega) (by simpa using hv)
      exact ⟨b, by simpa using hb⟩
  | n + 1, true :: vs, [], fit, h, h', H => by
      obtain ⟨b, hb⟩ := H 0 (by omega) (by simp)
      simp at hb
  | n + 1, true :: vs, _ :: bs, [], h, h', H => by simp at h'
  | n + 1, true :: vs, none :: bs, x :: xs, h, h', H => by
      obtain ⟨b, hb⟩ := H 0 (by omega) (by simp)
      simp at hb
  | n + 1, true :: vs, some b :: bs, x :: xs, h, h', H => by
      obtain ⟨st, hst⟩ := priorStatements_ok n vs bs xs (by simpa using h) (by simpa using h') (by
        intro i hi hv
        obtain ⟨b, hb⟩ := H (i + 1) (by omega) (by simpa using hv)
        exact ⟨b, by simpa using hb⟩)
      exact ⟨between b x :: st, by simp [priorStatements, hst]⟩

theorem priorStatements_short : ∀ (n : Nat) (vary : List Bool)
    (bounds : List (Option (Fl K × Fl K))) (fit : List (Fl K)),
    n ≤ vary.length → fit.length < (vary.take n).count true →
    (∀ i < n, vary[i]? = some true → ∃ b, bounds[i]? = some (some b)) →
    priorStatements n vary bounds fit = .error .indexError
  | 0, _, _, _, _, h', _ => by simp at h'
  | n + 1, [], _, _, h, _, _ => by simp at h
  | n + 1, false :: vs, bs, fit, h, h', H => by
      simp only [priorStatements]
      refine priorStatements_short n vs bs.tail fit (by simpa using h) (by simpa using h') ?_
      intro i hi hv
      obtain ⟨b, hb⟩ := H (i + 1) (by omega) (by simpa using hv)
      exact ⟨b, by simpa using hb⟩
  | n + 1, true :: vs, [], fit, h, h', H => by simp [priorStatements]
  | n + 1, true :: vs, _ :: bs, [], h, h', H => by simp [priorStatements]
  | n + 1, true :: vs, none :: bs, x :: xs, h, h', H => by
      obtain ⟨b, hb⟩ := H 0 (by omega) (by simp)
      simp at hb
  | n + 1, true :: vs, some b :: bs, x :: xs, h, h', H => by
      have := priorStatements_short n vs bs xs (by simpa using h) (by simpa using h') (by
        intro i hi hv
        obtain ⟨b, hb⟩ := H (i + 1) (by omega) (by simpa using hv)
        exact ⟨b, by simpa using hb⟩)
      simp [priorStatements, this]

theorem priorStatements_congr : ∀ (n : Nat) (vary : List Bool)
    (bs bs' : List (Option (Fl K × Fl K))) (fit : List (Fl K)),
    bs.length = bs'.length →
    (∀ i : Nat, vary[i]? = some true → bs[i]? = bs'[i]?) →
    priorStatements n vary bs fit = priorStatements n vary bs' fit
  | 0, _, _, _, _, _, _ => rfl
  | n + 1, [], _, _, _, _, _ => rfl
  | n + 1, false :: vs, bs, bs', fit, hl, H => by
      simp only [priorStatements]
      refine priorStatements_congr n vs _ _ fit (by simp [hl]) ?_
      intro i hv
      have := H (i + 1) (by simpa using hv)
      simpa using this
  | n + 1, true :: vs, [], [], fit, hl, H => rfl
  | n + 1, true :: vs, [], _ :: _, fit, hl, H => by simp at hl
  | n + 1, true :: vs, _ :: _, [], fit, hl, H => by simp at hl
  | n + 1, true :: vs, b :: bs, b' :: bs', fit, hl, H => by
      have h0 := H 0 (by simp)
      simp at h0
      subst h0
      have ih := priorStatements_congr n vs bs bs' fit.tail (by simpa using hl) (by
        intro i hv
        have := H (i + 1) (by simpa using hv)
        simpa using this)
      cases fit with
      | nil => cases b <;> simp [priorStatements]
      | cons x xs =>
        simp only [List.tail_cons] at ih
        cases b <;> simp [priorStatements, ih]

theorem rangeArrs_length : ∀ (n : Nat) (vary : List Bool)
    (bounds : List (Option (Fl K × Fl K))) (ra : List (Fl K × Fl K)),
    rangeArrs n vary bounds = .ok ra → ra.length = (vary.take n).count true
  | 0, _, _, ra, h => by simp [rangeArrs] at h; subst h; simp
  | n + 1, [], _, ra, h => by simp [rangeArrs] at h
  | n + 1, false :: vs, bs, ra, h => by
      simp only [rangeArrs] at h
      simpa using rangeArrs_length n vs bs.tail ra h
  | n + 1, true :: vs, [], ra, h => by simp [rangeArrs] at h
  | n + 1, true :: vs, none :: bs, ra, h => by simp [rangeArrs] at h
  | n + 1, true :: vs, some b :: bs, ra, h => by
      simp only [rangeArrs] at h
      split at h
      · simp at h
      · rename_i r hr
        simp only [Except.ok.injEq] at h
        subst h
        simpa using rangeArrs_length n vs bs r hr

end
end Misfit
