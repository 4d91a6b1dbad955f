import Verif.Model.KinModel
import Verif.Props.Aper
import Verif.Props.Params

/-! Helper lemmas for `Verif.Props.KinModel`. -/

namespace Misfit
variable {r c : Nat}

theorem updateParameters_tail (ts : List ℝ) (vs : List Bool) (fit : List ℝ) (a b : ℝ)
    (h : vs.length = ts.length) (hf : fit.length = vs.count true) :
    (updateParameters (ts ++ [a, b]) (vs ++ [false, false]) fit).1 =
      (updateParameters ts vs fit).1 ++ [a, b] := by
  induction ts generalizing vs fit with
  | nil =>
    have : vs = [] := by simpa using h
    subst this
    rfl
  | cons t ts ih =>
    cases vs with
    | nil => simp at h
    | cons v vs =>
      cases v with
      | false =>
        simp only [List.cons_append, updateParameters]
        rw [ih vs fit (by simpa using h) (by simpa using hf)]
      | true =>
        cases fit with
        | nil => simp at hf
        | cons x xs =>
          simp only [List.cons_append, updateParameters]
          rw [ih vs xs (by simpa using h) (by simpa using hf)]

theorem updateParameters_last (ts : List ℝ) (vs : List Bool) (fit : List ℝ) (a b : ℝ)
    (h : vs.length = ts.length) (hf : fit.length = vs.count true) :
    (updateParameters (ts ++ [a, b]) (vs ++ [false, false]) fit).1.reverse.take 2 = [b, a] := by
  rw [updateParameters_tail ts vs fit a b h hf]
  simp

/-- the outcome of `KinParams.update` for a vector of the right length -/
theorem KinParams.update_ok (p : KinParams ℝ) (fit : List ℝ) (hn : p.nFree = p.vary.count true)
    (hl : p.vary.length = p.theta.length) (hf : fit.length = p.vary.count true) :
    p.update fit = ({ p with theta := (updateParameters p.theta p.vary fit).1 }, none) := by
  unfold KinParams.update
  rw [if_neg (by rw [hn]; exact fun h => h hf)]
  simp only [updateParameters_no_err _ _ _ hl hf]

theorem KinParams.update_bad (p : KinParams ℝ) (fit : List ℝ) (hn : p.nFree = p.vary.count true)
    (hf : fit.length ≠ p.vary.count true) : p.update fit = (p, some .valueError) := by
  unfold KinParams.update
  rw [if_pos (by rw [hn]; exact hf)]

/-- parameters reachable from `theta0` -/
structure ParamsFrom (theta0 : List ℝ) (vary : List Bool) (p : KinParams ℝ) : Prop where
  varyEq : p.vary = vary
  nFree : p.nFree = vary.count true
  len : p.theta.length = theta0.length
  next : ∀ fit, fit.length = vary.count true →
    updateParameters p.theta vary fit = updateParameters theta0 vary fit

theorem ParamsFrom.init (theta0 : List ℝ) (vary : List Bool) :
    ParamsFrom theta0 vary (KinParams.init theta0 vary) := ⟨rfl, rfl, rfl, fun _ _ => rfl⟩

theorem ParamsFrom.update {theta0 : List ℝ} {vary : List Bool} {p : KinParams ℝ}
    (h : ParamsFrom theta0 vary p) (hl : vary.length = theta0.length) (fit : List ℝ)
    (hf : fit.length = vary.count true) :
    p.update fit = (⟨(updateParameters theta0 vary fit).1, vary, vary.count true⟩, none) ∧
      ParamsFrom theta0 vary ⟨(updateParameters theta0 vary fit).1, vary, vary.count true⟩ := by
  obtain ⟨t, v, n⟩ := p
  obtain ⟨h1, h2, h3, h4⟩ := h
  simp only at h1 h2 h3 h4
  subst h1 h2
  constructor
  · rw [KinParams.update_ok _ _ rfl (by simp only; rw [hl, h3]) hf]
    simp only
    rw [h4 fit hf]
  · exact ⟨rfl, rfl, updateParameters_length _ _ _, fun f' hf' => updateParameters_update _ _ _ _ hl hf hf'⟩

theorem ParamsFrom.update_any {theta0 : List ℝ} {vary : List Bool} {p : KinParams ℝ}
    (h : ParamsFrom theta0 vary p) (hl : vary.length = theta0.length) (fit : List ℝ) :
    ParamsFrom theta0 vary (p.update fit).1 := by
  by_cases hf : fit.length = vary.count true
  · rw [(h.update hl fit hf).1]
    exact (h.update hl fit hf).2
  · rw [KinParams.update_bad p fit (by rw [h.varyEq]; exact h.nFree) (by rw [h.varyEq]; exact hf)]
    exact h

theorem updateTheta_ok_congr (k k' : KinProfile) (h : k.shape = k'.shape) (t t' : List ℝ) (k1 : KinProfile)
    (hk : k.updateTheta t = .ok k1) : ∃ k2, k'.updateTheta t' = .ok k2 ∧ k2.shape = k.shape := by
  obtain ⟨a, v, d⟩ := k
  obtain ⟨a', v', d'⟩ := k'
  simp only [KinProfile.shape, Prod.mk.injEq] at h
  obtain ⟨hv, hd⟩ := h
  rcases v with _ | v <;> rcases v' with _ | v' <;> rcases d with _ | d <;> rcases d' with _ | d' <;>
    simp_all [KinProfile.updateTheta, KinProfile.shape]

theorem finishModel_keeps (m : KinModelState r c) (g : KinInput r c) (img : Option Arr2) :
    (finishModel m g img).1.params = m.params ∧ (finishModel m g img).1.kin = m.kin ∧
    (finishModel m g img).1.noScale = m.noScale ∧ (finishModel m g img).1.aper = m.aper := by
  unfold finishModel
  simp only
  split
  · exact ⟨rfl, rfl, rfl, rfl⟩
  · split <;> exact ⟨rfl, rfl, rfl, rfl⟩

theorem finishModel_congr (m m' : KinModelState r c) (g : KinInput r c) (img : Option Arr2)
    (h : m.noScale = m'.noScale) :
    (finishModel m g img).2 = (finishModel m' g img).2 ∧
    (finishModel m g img).1.model = (finishModel m' g img).1.model := by
  unfold finishModel
  simp only [h]
  split
  · exact ⟨rfl, rfl⟩
  · split <;> exact ⟨rfl, rfl⟩

/-- what stays true of an object after its first successful evaluation with `g` -/
structure Built (g : KinInput r c) (f : AperFixed) (sh : Option Nat × Option Nat) (ns : Bool)
    (theta0 : List ℝ) (vary : List Bool) (m : KinModelState r c) (s : AperState) : Prop where
  params : ParamsFrom theta0 vary m.params
  noScale : m.noScale = ns
  aper : m.aper = some (g, s)
  kin : m.kin.shape = sh
  skin : s.kin.shape = sh
  fixed : s.fixed = f

theorem evalExisting_keeps (m : KinModelState r c) (g : KinInput r c) (s : AperState) :
    (evalExisting m g s).1.params = m.params ∧ (evalExisting m g s).1.noScale = m.noScale ∧
    (evalExisting m g s).1.aper = some (g, (updateModel g.aperCfg s m.params.theta).1) ∧
    (evalExisting m g s).1.kin = (updateModel g.aperCfg s m.params.theta).1.kin ∧
    ((evalExisting m g s).2 = .ok () → ∃ img, (updateModel g.aperCfg s m.params.theta).2 = .ok img) := by
  unfold evalExisting
  simp only
  cases hr : (updateModel g.aperCfg s m.params.theta).2 with
  | error e => exact ⟨rfl, rfl, rfl, rfl, fun h => by cases h⟩
  | ok img =>
    have := finishModel_keeps
      { m with kin := (updateModel g.aperCfg s m.params.theta).1.kin
               aper := some (g, (updateModel g.aperCfg s m.params.theta).1) } g img
    exact ⟨this.1, this.2.2.1, this.2.2.2, this.2.1, fun _ => ⟨img, rfl⟩⟩

/-- one call keeps the invariant -/
theorem Built.step {g : KinInput r c} {f : AperFixed} {sh : Option Nat × Option Nat} {ns : Bool}
    {theta0 : List ℝ} {vary : List Bool} {m : KinModelState r c} {s : AperState}
    (h : Built g f sh ns theta0 vary m s) (hl : vary.length = theta0.length)
    (hreal : f.waveReal = g.aperCfg.wave ∧ f.deltReal = avgDiff g.aperCfg.wave) (call : KinCall r c)
    (hr : Restored g.aperCfg s) (hok : g.aperCfg.adaptive = true → (m.step call).2 = .ok ()) :
    ∃ s', Built g f sh ns theta0 vary (m.step call).1 s' ∧ Restored g.aperCfg s' := by
  -- evaluation with the existing aperture model
  have heval : ∀ (m1 : KinModelState r c) (k : KinProfile), ParamsFrom theta0 vary m1.params →
      m1.noScale = ns → k.shape = sh → (g.aperCfg.adaptive = true →
        (evalExisting m1 g { s with kin := k }).2 = .ok ()) →
      ∃ s', Built g f sh ns theta0 vary (evalExisting m1 g { s with kin := k }).1 s' ∧
        Restored g.aperCfg s' := by
    intro m1 k hp hns hk hok1
    obtain ⟨e1, e2, e3, e4, e5⟩ := evalExisting_keeps m1 g { s with kin := k }
    have hkeep := doModelCalcs_keeps g.aperCfg { s with kin := k } m1.params.theta
    refine ⟨(updateModel g.aperCfg { s with kin := k } m1.params.theta).1, ⟨by rw [e1]; exact hp,
      by rw [e2]; exact hns, e3, ?_, ?_, ?_⟩, ?_⟩
    · rw [e4]; exact hkeep.2.1.trans hk
    · exact hkeep.2.1.trans hk
    · exact hkeep.1.trans h.fixed
    · by_cases ha : g.aperCfg.adaptive = true
      · obtain ⟨img, hi⟩ := e5 (hok1 ha)
        have := hkeep.2.2.2 ha img hi
        exact ⟨this.1.trans ((congrArg AperFixed.waveReal h.fixed).trans hreal.1),
          this.2.trans ((congrArg AperFixed.deltReal h.fixed).trans hreal.2)⟩
      · have := hkeep.2.2.1 (by simpa using ha)
        exact ⟨this.1.trans hr.1, this.2.trans hr.2⟩
  have hpar := fun fit => h.params.update_any hl fit
  cases call with
  | make g' fit =>
    simp only [KinModelState.step] at hok ⊢
    unfold KinModelState.make at hok ⊢
    have hp := hpar fit
    revert hok
    generalize hu : m.params.update fit = u
    rw [hu] at hp
    obtain ⟨p, e⟩ := u
    cases e with
    | some e => exact fun _ => ⟨s, ⟨hp, h.noScale, h.aper, h.kin, h.skin, h.fixed⟩, hr⟩
    | none =>
      simp only
      cases hk : m.kin.updateTheta p.theta with
      | error e => exact fun _ => ⟨s, ⟨hp, h.noScale, h.aper, h.kin, h.skin, h.fixed⟩, hr⟩
      | ok k =>
        simp only [h.aper]
        exact heval { m with params := p, kin := k, aper := some (g, s) } k hp h.noScale
          ((updateTheta_shape _ _ _ hk).trans h.kin)
  | update fit =>
    simp only [KinModelState.step] at hok ⊢
    unfold KinModelState.update at hok ⊢
    have hp := hpar fit
    revert hok
    generalize hu : m.params.update fit = u
    rw [hu] at hp
    obtain ⟨p, e⟩ := u
    cases e with
    | some e => exact fun _ => ⟨s, ⟨hp, h.noScale, h.aper, h.kin, h.skin, h.fixed⟩, hr⟩
    | none =>
      simp only [h.aper]
      exact heval { m with params := p, aper := some (g, s) } s.kin hp h.noScale h.skin

end Misfit
