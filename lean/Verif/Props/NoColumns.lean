import Verif.Props.ErrScale

/-!
# C233: a spectrum without sky-free columns cannot be fitted
-/

namespace Misfit

variable {r c : Nat}

theorem finish_noScale (m : KinModelState r c) (g : KinInput r c) (img : Option Arr2) :
    (finishModel m g img).1.noScale = m.noScale := by
  unfold finishModel
  split
  · rfl
  · split <;> rfl

theorem eval_noScale (m : KinModelState r c) (g : KinInput r c) (s : AperState) :
    (evalExisting m g s).1.noScale = m.noScale := by
  unfold evalExisting
  simp only
  split
  · rfl
  · exact finish_noScale _ _ _

theorem step_noScale (m : KinModelState r c) (call : KinCall r c) : (m.step call).1.noScale = m.noScale := by
  cases call with
  | make g fit =>
    simp only [KinModelState.step]
    unfold KinModelState.make
    split
    · rfl
    · split
      · rfl
      · simp only
        split
        · split
          · rfl
          · rfl
          · exact finish_noScale _ _ _
        · exact eval_noScale _ _ _
  | update fit =>
    simp only [KinModelState.step]
    unfold KinModelState.update
    split
    · rfl
    · split
      · rfl
      · exact eval_noScale _ _ _

theorem run_noScale : ∀ (calls : List (KinCall r c)) (m : KinModelState r c), (m.run calls).noScale = m.noScale
  | [], _ => rfl
  | call :: calls, m => (run_noScale calls (m.step call).1).trans (step_noScale m call)

theorem finish_refused (m : KinModelState r c) (g : KinInput r c) (img : Option Arr2) (hs : m.noScale = false) (hg : g.nosky = none) :
    (finishModel m g img).2 = .error .attributeError := by
  unfold finishModel
  simp only [hs, Bool.false_eq_true, if_false, hg]

theorem eval_refused (m : KinModelState r c) (g : KinInput r c) (s : AperState) (hs : m.noScale = false) (hg : g.nosky = none) :
    (evalExisting m g s).2 ≠ .ok () := by
  unfold evalExisting
  simp only
  split
  · simp
  · rw [finish_refused]
    · simp
    · exact hs
    · exact hg

theorem step_refused (m : KinModelState r c) (hs : m.noScale = false) (hm : ∀ g s, m.aper = some (g, s) → g.nosky = none)
    (call : KinCall r c) (hc : call.On fun g => g.nosky = none) : (m.step call).2 ≠ .ok () := by
  cases call with
  | make g fit =>
    simp only [KinModelState.step]
    unfold KinModelState.make
    split
    · simp
    · split
      · simp
      · simp only
        split
        · split
          · simp
          · simp
          · rw [finish_refused]
            · simp
            · exact hs
            · exact hc
        · rename_i g0 s ha
          exact eval_refused _ _ _ hs (hm g0 s ha)
  | update fit =>
    simp only [KinModelState.step]
    unfold KinModelState.update
    split
    · simp
    · split
      · simp
      · rename_i g0 s ha
        exact eval_refused _ _ _ hs (hm g0 s ha)

/-- **C233**: on spectra without sky-free columns no call of `make_model` or `update_model` that scales the model succeeds, whatever
was called before. -/
theorem C233_refused (theta : List ℝ) (vary : List Bool) (kin : KinProfile) (calls : List (KinCall r c))
    (hcalls : ∀ call ∈ calls, call.On fun g => g.nosky = none) (call : KinCall r c) (hc : call.On fun g => g.nosky = none) :
    (((KinModelState.init theta vary kin false).run calls).step call).2 ≠ .ok () :=
  step_refused _ (run_noScale _ _) (run_on calls _ (by intro g s h; cases h) hcalls) call hc

/-- **C233**: no point of parameter space has a finite posterior: the evaluation raises or gives `-inf`. -/
theorem C233_posterior (theta : List ℝ) (vary : List Bool) (kin : KinProfile) (calls : List (KinCall r c))
    (hcalls : ∀ call ∈ calls, call.On fun g => g.nosky = none) (bounds : List (Option (Fl ℝ × Fl ℝ))) (fit : List ℝ) :
    (∃ e, (((KinModelState.init theta vary kin false).run calls).lnprob bounds fit).2 = .error e) ∨
    (((KinModelState.init theta vary kin false).run calls).lnprob bounds fit).2 = .ok .ninf := by
  have hr := C233_refused theta vary kin calls hcalls (.update ((fit.map Fl.fin).map Fl.finVal)) trivial
  generalize (KinModelState.init theta vary kin false).run calls = m at hr
  simp only [KinModelState.step] at hr
  unfold KinModelState.lnprob Misfit.lnprob
  split
  · exact Or.inl ⟨_, rfl⟩
  · split
    · have hl : ∃ e, (m.lnlike ((fit.map Fl.fin).map Fl.finVal)).2 = .error e := by
        unfold KinModelState.lnlike
        generalize m.update ((fit.map Fl.fin).map Fl.finVal) = R at hr
        obtain ⟨n, x⟩ := R
        cases x with
        | error e => exact ⟨e, rfl⟩
        | ok _ => exact absurd rfl hr
      obtain ⟨e, he⟩ := hl
      refine Or.inl ⟨e, ?_⟩
      simp only
      generalize m.lnlike ((fit.map Fl.fin).map Fl.finVal) = R at he
      obtain ⟨n, x⟩ := R
      simp only at he
      subst he
      rfl
    · exact Or.inr rfl

/-- **C233**: where the unscaled evaluation succeeds, the exception is an AttributeError, the parameters are those of the unscaled
evaluation and the unscaled image is left in the object. -/
theorem C233_exception (theta : List ℝ) (vary : List Bool) (kin : KinProfile) (g : KinInput r c) (hg : g.nosky = none) (fit : List ℝ)
    (h : ((KinModelState.init theta vary kin true).make g fit).2 = .ok ()) :
    ((KinModelState.init theta vary kin false).make g fit).2 = .error .attributeError ∧
    ((KinModelState.init theta vary kin false).make g fit).1.model = ((KinModelState.init theta vary kin true).make g fit).1.model ∧
    ((KinModelState.init theta vary kin false).make g fit).1.params = ((KinModelState.init theta vary kin true).make g fit).1.params := by
  unfold KinModelState.make at h ⊢
  simp only [KinModelState.init] at h ⊢
  generalize KinParams.update _ fit = p at h ⊢
  obtain ⟨p, e⟩ := p
  cases e with
  | some e => cases h
  | none =>
    simp only at h ⊢
    cases hk : kin.updateTheta p.theta with
    | error e => rw [hk] at h; cases h
    | ok k =>
      simp only [hk] at h ⊢
      cases hb : buildModel g.aperCfg k p.theta with
      | error e => rw [hb] at h; cases h
      | ok sr =>
        obtain ⟨s1, r1⟩ := sr
        cases r1 with
        | error e => rw [hb] at h; cases h
        | ok img =>
          simp only [finishModel, hg]
          exact ⟨rfl, rfl, rfl⟩

/-- Specification: the same galaxy with other sky-free columns. -/
def KinInput.withCols (cols : Option (List (Fin c))) (g : KinInput r c) : KinInput r c := { g with nosky := cols }

/-- **C233**: without scaling the columns do not matter. -/
theorem C233_unscaled (theta : List ℝ) (vary : List Bool) (kin : KinProfile) (g : KinInput r c) (cols : Option (List (Fin c)))
    (fit : List ℝ) :
    ((KinModelState.init theta vary kin true).make (g.withCols cols) fit).2 = ((KinModelState.init theta vary kin true).make g fit).2 ∧
    ((KinModelState.init theta vary kin true).make (g.withCols cols) fit).1.model =
      ((KinModelState.init theta vary kin true).make g fit).1.model := by
  unfold KinModelState.make
  rw [show (g.withCols cols).aperCfg = g.aperCfg from rfl]
  simp only [KinModelState.init]
  generalize KinParams.update _ fit = p
  obtain ⟨p, e⟩ := p
  cases e with
  | some e => exact ⟨rfl, rfl⟩
  | none =>
    simp only
    cases hk : kin.updateTheta p.theta with
    | error e => exact ⟨rfl, rfl⟩
    | ok k =>
      simp only
      cases hb : buildModel g.aperCfg k p.theta with
      | error e => exact ⟨rfl, rfl⟩
      | ok sr =>
        obtain ⟨s1, r1⟩ := sr
        cases r1 with
        | error e => exact ⟨rfl, rfl⟩
        | ok img => exact ⟨rfl, rfl⟩

/-- the hypotheses are met by an evaluation that succeeds without scaling -/
example : (oneInput.withCols none).nosky = none ∧
    ((oneObj [0, 1, 1, 0, 0] [true, true, true, false, false] true).make (oneInput.withCols none) [100, 1, 50]).2 = .ok () ∧
    ((oneObj [0, 1, 1, 0, 0] [true, true, true, false, false] false).make (oneInput.withCols none) [100, 1, 50]).2 =
      .error .attributeError := by
  have h : ((oneObj [0, 1, 1, 0, 0] [true, true, true, false, false] true).make (oneInput.withCols none) [100, 1, 50]).2 = .ok () := by
    rw [oneObj, (C233_unscaled _ _ _ _ _ _).1]
    have := one_make_three 0 1 1 0 true 100 1 50 (by norm_num) (by norm_num) (by norm_num)
    rw [oneObj] at this
    rw [this]
    exact finish_one_ok _ _
  exact ⟨rfl, h, (C233_exception _ _ _ _ rfl _ h).1⟩

end Misfit
