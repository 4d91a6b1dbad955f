import Verif.Props.AngleUnits

/-!
# C84 for all data
-/

namespace Misfit

variable {r c : Nat}

/-- two objects that differ only in the brightness of their light profile -/
structure SameLight (k : ℝ) (m m' : KinModelState r c) : Prop where
  params : m.params = m'.params
  kin : m.kin = m'.kin
  ns : m.noScale = false
  ns' : m'.noScale = false
  model : m.model = m'.model
  aper : (m.aper = none ∧ m'.aper = none) ∨
    ∃ g s, m.aper = some (g, s) ∧ m'.aper = some (g.scaleLight k, s.smul k) ∧ g.HasCols

theorem lightened_image (k : ℝ) (hk : 0 < k) (flux err : Img r c ℝ) (cols : List (Fin c)) (img : Option Arr2) :
    scaleModel flux err (toImg r c (img.map (Arr2.smul k))) cols = scaleModel flux err (toImg r c img) cols := by
  have h : toImg r c (img.map (Arr2.smul k)) = (toImg r c img).inUnits k := by
    rw [inUnits_eq hk]
    cases img with
    | none => rfl
    | some a =>
      funext i j
      by_cases h : a.n = r ∧ a.m = c
      · have h' : (Arr2.smul k a).n = r ∧ (Arr2.smul k a).m = c := h
        simp only [toImg, Option.map_some, dif_pos h, dif_pos h']
        rfl
      · have h' : ¬ ((Arr2.smul k a).n = r ∧ (Arr2.smul k a).m = c) := h
        simp only [toImg, Option.map_some, dif_neg h, dif_neg h']
        rfl
  rw [h]
  exact scaleModel_light hk flux err _ cols

theorem finish_lighter (k : ℝ) (hk : 0 < k) (g : KinInput r c) (hg : g.HasCols) (img : Option Arr2)
    (m m' : KinModelState r c) (h : SameLight k m m') :
    (finishModel m g img).2 = (finishModel m' (g.scaleLight k) (img.map (Arr2.smul k))).2 ∧
    SameLight k (finishModel m g img).1 (finishModel m' (g.scaleLight k) (img.map (Arr2.smul k))).1 := by
  obtain ⟨cols, hc⟩ := Option.ne_none_iff_exists'.1 hg
  unfold finishModel
  rw [if_neg (by rw [h.ns]; exact Bool.false_ne_true), if_neg (by rw [h.ns']; exact Bool.false_ne_true)]
  have hn : (g.scaleLight k).nosky = g.nosky := rfl
  have hd : (g.scaleLight k).data = g.data := rfl
  rw [hn, hd, hc]
  refine ⟨rfl, h.params, h.kin, h.ns, h.ns', ?_, h.aper⟩
  simp only
  rw [lightened_image k hk]

theorem eval_lighter (k : ℝ) (hk : 0 < k) (g : KinInput r c) (hg : g.HasCols) (s : AperState)
    (m m' : KinModelState r c) (h : SameLight k m m') :
    (evalExisting m g s).2 = (evalExisting m' (g.scaleLight k) (s.smul k)).2 ∧
    SameLight k (evalExisting m g s).1 (evalExisting m' (g.scaleLight k) (s.smul k)).1 := by
  unfold evalExisting updateModel
  have hcfg : (g.scaleLight k).aperCfg = g.aperCfg.smul k := rfl
  rw [hcfg, ← h.params, doModelCalcs_scale k hk]
  generalize doModelCalcs g.aperCfg s m.params.theta = R
  obtain ⟨s1, r1⟩ := R
  simp only
  have hrel : SameLight k { m with kin := s1.kin, aper := some (g, s1) }
      { m' with params := m.params, kin := (s1.smul k).kin, aper := some (g.scaleLight k, s1.smul k) } :=
    ⟨rfl, rfl, h.ns, h.ns', h.model, Or.inr ⟨g, s1, rfl, rfl, hg⟩⟩
  cases r1 with
  | error e => exact ⟨rfl, hrel⟩
  | ok img => exact finish_lighter k hk g hg img _ _ hrel

theorem step_lighter (k : ℝ) (hk : 0 < k) (m m' : KinModelState r c) (h : SameLight k m m')
    (call : KinCall r c) (hc : call.On KinInput.HasCols) :
    (m.step call).2 = (m'.step (call.scaleLight k)).2 ∧
    SameLight k (m.step call).1 (m'.step (call.scaleLight k)).1 := by
  cases call with
  | make g fit =>
    simp only [KinModelState.step, KinCall.scaleLight]
    unfold KinModelState.make
    rw [← h.params]
    generalize m.params.update fit = u
    obtain ⟨p, e⟩ := u
    cases e with
    | some e => exact ⟨rfl, rfl, h.kin, h.ns, h.ns', h.model, h.aper⟩
    | none =>
      simp only
      rw [← h.kin]
      cases hu : m.kin.updateTheta p.theta with
      | error e => exact ⟨rfl, rfl, rfl, h.ns, h.ns', h.model, h.aper⟩
      | ok kk =>
        simp only
        rcases h.aper with ⟨ha, ha'⟩ | ⟨g0, s, ha, ha', hg0⟩
        · rw [ha, ha']
          simp only
          unfold buildModel
          have hcfg : (g.scaleLight k).aperCfg = g.aperCfg.smul k := rfl
          rw [hcfg, setupCalcs_scale]
          cases setupCalcs g.aperCfg p.theta with
          | error e => exact ⟨rfl, rfl, rfl, h.ns, h.ns', h.model, Or.inl ⟨rfl, rfl⟩⟩
          | ok f =>
            simp only [Except.map]
            have hst : (⟨f.smul k, kk, (g.aperCfg.smul k).wave, avgDiff (g.aperCfg.smul k).wave⟩ : AperState) =
              AperState.smul k ⟨f, kk, g.aperCfg.wave, avgDiff g.aperCfg.wave⟩ := rfl
            rw [hst, doModelCalcs_scale k hk]
            generalize doModelCalcs g.aperCfg ⟨f, kk, g.aperCfg.wave, avgDiff g.aperCfg.wave⟩ p.theta = R
            obtain ⟨s1, r1⟩ := R
            cases r1 with
            | error e => exact ⟨rfl, rfl, rfl, h.ns, h.ns', h.model, Or.inl ⟨rfl, rfl⟩⟩
            | ok img =>
              exact finish_lighter k hk g hc img _ _
                ⟨rfl, rfl, h.ns, h.ns', h.model, Or.inr ⟨g, s1, rfl, rfl, hc⟩⟩
        · rw [ha, ha']
          simp only
          exact eval_lighter k hk g0 hg0 { s with kin := kk } _ _
            ⟨rfl, rfl, h.ns, h.ns', h.model, Or.inr ⟨g0, s, rfl, rfl, hg0⟩⟩
  | update fit =>
    simp only [KinModelState.step, KinCall.scaleLight]
    unfold KinModelState.update
    rw [← h.params]
    generalize m.params.update fit = u
    obtain ⟨p, e⟩ := u
    cases e with
    | some e => exact ⟨rfl, rfl, h.kin, h.ns, h.ns', h.model, h.aper⟩
    | none =>
      simp only
      rcases h.aper with ⟨ha, ha'⟩ | ⟨g0, s, ha, ha', hg0⟩
      · rw [ha, ha']
        exact ⟨rfl, rfl, h.kin, h.ns, h.ns', h.model, Or.inl ⟨rfl, rfl⟩⟩
      · rw [ha, ha']
        simp only
        exact eval_lighter k hk g0 hg0 s _ _ ⟨rfl, h.kin, h.ns, h.ns', h.model, Or.inr ⟨g0, s, rfl, rfl, hg0⟩⟩

theorem run_lighter (k : ℝ) (hk : 0 < k) : ∀ (calls : List (KinCall r c)) (m m' : KinModelState r c), SameLight k m m' →
    (∀ call ∈ calls, call.On KinInput.HasCols) → SameLight k (m.run calls) (m'.run (calls.map (KinCall.scaleLight k)))
  | [], _, _, h, _ => h
  | call :: calls, m, m', h, hg =>
    run_lighter k hk calls _ _ (step_lighter k hk m m' h call (hg call (by simp))).2 (fun x hx => hg x (by simp [hx]))

/-- **C84**, for every spectrum with a list of sky-free columns, whatever its flux and errors are (NaN, infinite values and zero errors
included): for an object that scales its
model to the data, two series of calls that differ only by a positive factor on the light profile
give, call by call, the same exceptions, and leave the same parameters, image and likelihood. -/
theorem C84_all_data (k : ℝ) (hk : 0 < k) (theta : List ℝ) (vary : List Bool) (kin : KinProfile)
    (calls : List (KinCall r c)) (hgood : ∀ call ∈ calls, call.On KinInput.HasCols) (m0 : KinModelState r c)
    (hm0 : m0 = KinModelState.init theta vary kin false) :
    (m0.run calls).params = (m0.run (calls.map (KinCall.scaleLight k))).params ∧
    (m0.run calls).model = (m0.run (calls.map (KinCall.scaleLight k))).model ∧
    (m0.run calls).llike = (m0.run (calls.map (KinCall.scaleLight k))).llike ∧
    ∀ call, call.On KinInput.HasCols → ((m0.run calls).step call).2 =
      ((m0.run (calls.map (KinCall.scaleLight k))).step (call.scaleLight k)).2 := by
  have h := run_lighter k hk calls m0 m0 (by subst hm0; exact ⟨rfl, rfl, rfl, rfl, rfl, Or.inl ⟨rfl, rfl⟩⟩) hgood
  refine ⟨h.params, h.model, ?_, fun call hc => (step_lighter k hk _ _ h call hc).1⟩
  unfold KinModelState.llike
  rw [← h.model]
  rcases h.aper with ⟨ha, ha'⟩ | ⟨g0, s, ha, ha', _⟩
  · rw [ha, ha']
  · rw [ha, ha']
    cases (m0.run calls).model <;> rfl

/-- **C84**: the posterior of every point is the same, after any series of calls, for all data. -/
theorem C84_posterior (k : ℝ) (hk : 0 < k) (theta : List ℝ) (vary : List Bool) (kin : KinProfile)
    (calls : List (KinCall r c)) (hgood : ∀ call ∈ calls, call.On KinInput.HasCols) (m0 : KinModelState r c)
    (hm0 : m0 = KinModelState.init theta vary kin false) (bounds : List (Option (Fl ℝ × Fl ℝ))) (fit : List ℝ) :
    ((m0.run calls).lnprob bounds fit).2 = ((m0.run (calls.map (KinCall.scaleLight k))).lnprob bounds fit).2 := by
  have h := run_lighter k hk calls m0 m0 (by subst hm0; exact ⟨rfl, rfl, rfl, rfl, rfl, Or.inl ⟨rfl, rfl⟩⟩) hgood
  generalize m0.run calls = m at h
  generalize m0.run (calls.map (KinCall.scaleLight k)) = m' at h
  have hl : ∀ f, (m.lnlike f).2 = (m'.lnlike f).2 := by
    intro f
    obtain ⟨hr, hn⟩ := step_lighter k hk m m' h (.update f) trivial
    simp only [KinModelState.step, KinCall.scaleLight] at hr hn
    unfold KinModelState.lnlike
    generalize m.update f = R at hr hn
    generalize m'.update f = R' at hr hn
    obtain ⟨n, x⟩ := R
    obtain ⟨n', x'⟩ := R'
    simp only at hr hn
    subst hr
    cases x with
    | error e => rfl
    | ok _ =>
      simp only
      unfold KinModelState.llike
      rw [← hn.model]
      rcases hn.aper with ⟨ha, ha'⟩ | ⟨g0, s, ha, ha', _⟩
      · rw [ha, ha']
      · rw [ha, ha']
        cases n.model <;> rfl
  unfold KinModelState.lnprob Misfit.lnprob
  rw [← h.params]
  cases logPrior (m.params.theta.map Fl.fin) m.params.vary bounds (fit.map Fl.fin) with
  | error e => rfl
  | ok pr =>
    simp only
    split
    · have := hl ((fit.map Fl.fin).map Fl.finVal)
      generalize m.lnlike ((fit.map Fl.fin).map Fl.finVal) = R at this
      generalize m'.lnlike ((fit.map Fl.fin).map Fl.finVal) = R' at this
      obtain ⟨n, x⟩ := R
      obtain ⟨n', x'⟩ := R'
      simp only at this
      subst this
      cases x <;> rfl
    · rfl

/-- calls that succeed, on a spectrum with a missing pixel and a zero error, meet the hypotheses -/
example : (∀ call ∈ [KinCall.make { oneInput with data := { oneInput.data with flux := fun _ j => if j = 0 then .nan else .fin 1
                                                                               err := fun _ j => if j = 0 then .fin 1 else .fin 0 } }
      [100, 1, 50], .update [120, 1, 60]], call.On KinInput.HasCols) ∧ (0 : ℝ) < 2 := by
  refine ⟨fun call hc => ?_, by norm_num⟩
  simp only [List.mem_cons, List.not_mem_nil, or_false] at hc
  rcases hc with rfl | rfl
  · simp [KinCall.On, KinInput.HasCols, oneInput]
  · trivial

end Misfit
