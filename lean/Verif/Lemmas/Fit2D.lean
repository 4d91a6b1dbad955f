import Verif.Model.Fit2D
import Verif.Props.KinModel

/-!
# Lemmas about the 2D fit object
-/

namespace Misfit
variable {r c : Nat}

theorem setupPrior_again (pr : Option PriorObj) (t : FitSettings) :
    setupPrior (some (setupPrior pr t).1) t = setupPrior pr t := by
  unfold setupPrior
  simp only [Option.getD_some]
  generalize pr.getD (PriorObj.flat t.theta t.vary t.bounds) = p
  obtain ⟨n, b, e⟩ := p
  cases n with
  | none => rfl
  | some n =>
    simp only
    by_cases h : n = "ThetaPriorFlat" ∧ t.bounds.isSome
    · simp only [if_pos h]
    · simp only [if_neg h]

/-- what no call on a fit object changes -/
structure FitInv (s0 s : Fit2D r c) : Prop where
  input : s.input = s0.input
  resolution : s.resolution = s0.resolution
  re : s.re = s0.re
  settings : s.settings = s0.settings
  absval : s.absvalsigma = s0.absvalsigma
  sampleFile : s.sampleFile = s0.sampleFile
  modelFile : s.modelFile = s0.modelFile
  pstamp : s.pstamp = s0.pstamp
  shape : s.kinProfile.shape = s0.kinProfile.shape
  model : ∀ k, s.kinModel = some k → ∃ v n, Keeps s0.kinProfile.shape v n k.m
  prior : s.prior = s0.prior ∨ ∃ t, s0.settings = some t ∧ s.prior = some (setupPrior s0.prior t).1

theorem FitInv.makeModel {s0 s : Fit2D r c} (h : FitInv s0 s) (f : List ℝ) : FitInv s0 (s.makeModel f).1 := by
  unfold Fit2D.makeModel
  cases hk : s.kinModel with
  | none => exact h
  | some k =>
    obtain ⟨v, n, hkeep⟩ := h.model k hk
    have h1 := hkeep.step (.make s.input f)
    exact ⟨h.input, h.resolution, h.re, h.settings, h.absval, h.sampleFile, h.modelFile, h.pstamp, h1.kin,
      fun k' hk' => by cases hk'; exact ⟨v, n, h1⟩, h.prior⟩

theorem FitInv.updateModel {s0 s : Fit2D r c} (h : FitInv s0 s) (f : List ℝ) : FitInv s0 (s.updateModel f).1 := by
  unfold Fit2D.updateModel
  cases hk : s.kinModel with
  | none => exact h
  | some k =>
    obtain ⟨v, n, hkeep⟩ := h.model k hk
    have h1 := hkeep.step (.update f)
    exact ⟨h.input, h.resolution, h.re, h.settings, h.absval, h.sampleFile, h.modelFile, h.pstamp, h1.kin,
      fun k' hk' => by cases hk'; exact ⟨v, n, h1⟩, h.prior⟩

theorem FitInv.setBestfit {s0 s : Fit2D r c} (h : FitInv s0 s) (f : List ℝ) : FitInv s0 (s.setBestfit f).1 := by
  have h1 := h.makeModel f
  unfold Fit2D.setBestfit
  generalize s.makeModel f = x at h1
  obtain ⟨s1, e⟩ := x
  cases e with
  | error e => exact h1
  | ok u =>
    refine ⟨h1.input, h1.resolution, h1.re, h1.settings, h1.absval, h1.sampleFile, h1.modelFile, h1.pstamp,
      h1.shape, ?_, h1.prior⟩
    intro k' hk'
    simp only at hk' h1
    cases hm : s1.kinModel with
    | none => rw [hm] at hk'; cases hk'
    | some k => rw [hm] at hk'; cases hk'; exact h1.model k hm

theorem FitInv.chainResults {s0 s : Fit2D r c} (h : FitInv s0 s) (o : PeakFinder) :
    FitInv s0 (s.chainResults o).1 := by
  have hs : ∀ (x : Option Chain) (y : Option FitResults), FitInv s0 { s with sampler := x, results := y } := fun x y =>
    ⟨h.input, h.resolution, h.re, h.settings, h.absval, h.sampleFile, h.modelFile, h.pstamp, h.shape, h.model,
      h.prior⟩
  unfold Fit2D.chainResults
  split
  · exact h
  · split
    · exact h
    · split
      · exact h
      · simp only
        split
        · exact hs _ s.results
        · split
          · exact hs _ s.results
          · exact hs _ _

theorem FitInv.reloadSampler {s0 s : Fit2D r c} (h : FitInv s0 s) (d : Disk r c) :
    FitInv s0 (s.reloadSampler d).1 := by
  unfold Fit2D.reloadSampler
  split
  · split
    · exact h
    · exact ⟨h.input, h.resolution, h.re, h.settings, h.absval, h.sampleFile, h.modelFile, h.pstamp, h.shape,
        h.model, h.prior⟩
  · exact h

theorem FitInv.analyze {s0 s : Fit2D r c} (h : FitInv s0 s) (o : PeakFinder) (d : Disk r c) :
    FitInv s0 (s.analyze o d).1 := by
  unfold Fit2D.analyze
  have h1 : FitInv s0 (if s.sampler.isNone then s.reloadSampler d else (s, .ok ())).1 := by
    split
    · exact h.reloadSampler d
    · exact h
  revert h1
  generalize (if s.sampler.isNone then s.reloadSampler d else (s, .ok ())) = x
  obtain ⟨s1, e⟩ := x
  intro h1
  cases e with
  | error e => exact h1
  | ok u =>
    simp only at h1 ⊢
    have h2 := h1.chainResults o
    revert h2
    generalize s1.chainResults o = y
    obtain ⟨s2, e2⟩ := y
    intro h2
    cases e2 with
    | error e => exact h2
    | ok res => exact FitInv.setBestfit h2 _

theorem FitInv.runMcmc {s0 s : Fit2D r c} (h : FitInv s0 s) (run : Fit2D r c → Except PyErr Chain)
    (d : Disk r c) : FitInv s0 (s.runMcmc run d).1 := by
  unfold Fit2D.runMcmc
  split
  · exact h
  · exact ⟨h.input, h.resolution, h.re, h.settings, h.absval, h.sampleFile, h.modelFile, h.pstamp, h.shape,
      h.model, h.prior⟩

/-- setting up gives the same prior from the original prior and from the one left by an earlier set-up -/
theorem FitInv.setupPrior_eq {s0 s : Fit2D r c} (h : FitInv s0 s) (t : FitSettings) (ht : s0.settings = some t) :
    Misfit.setupPrior s.prior t = Misfit.setupPrior s0.prior t := by
  rcases h.prior with hp | ⟨t', ht', hp⟩
  · rw [hp]
  · rw [ht] at ht'
    cases ht'
    rw [hp, setupPrior_again]

/-- the state in which `setup_model` evaluates the first model -/
noncomputable def Fit2D.ready (s : Fit2D r c) (t : FitSettings) (k : KinProfile) : Fit2D r c :=
  { s with kinProfile := k, kinModel := some ⟨KinModelState.init t.theta t.vary k false, t.names, none⟩
           prior := some (setupPrior s.prior t).1 }

theorem init_keeps (t : List ℝ) (v : List Bool) (k : KinProfile) (ns : Bool) :
    Keeps k.shape v t.length (KinModelState.init t v k ns : KinModelState r c) :=
  ⟨rfl, rfl, rfl, fun _ _ h => (by cases h), rfl⟩

/-- the cases of `setup_model` -/
theorem setupModel_cases (s : Fit2D r c) :
    (s.settings = none ∧ s.setupModel = (s, .error .attributeError)) ∨
    ∃ t, s.settings = some t ∧
      ((∃ e, s.kinProfile.updateTheta t.theta = .error e ∧ s.setupModel = (s, .error e)) ∨
      ∃ k, s.kinProfile.updateTheta t.theta = .ok k ∧
        ((∃ e, (setupPrior s.prior t).2 = .error e ∧ s.setupModel = (s.ready t k, .error e)) ∨
        ((setupPrior s.prior t).2 = .ok () ∧
          ((∃ e, initializeFittingTheta t.theta t.vary = .error e ∧ s.setupModel = (s.ready t k, .error e)) ∨
          ∃ f0, initializeFittingTheta t.theta t.vary = .ok f0 ∧
            s.setupModel = Fit2D.makeModel { s.ready t k with linked := t.linked } f0)))) := by
  unfold Fit2D.setupModel Fit2D.ready
  cases s.settings with
  | none => exact .inl ⟨rfl, rfl⟩
  | some t =>
    refine .inr ⟨t, rfl, ?_⟩
    simp only
    cases s.kinProfile.updateTheta t.theta with
    | error e => exact .inl ⟨e, rfl, rfl⟩
    | ok k =>
      refine .inr ⟨k, rfl, ?_⟩
      simp only
      generalize setupPrior s.prior t = x
      obtain ⟨p, e⟩ := x
      cases e with
      | error e => exact .inl ⟨e, rfl, rfl⟩
      | ok u =>
        refine .inr ⟨rfl, ?_⟩
        simp only
        cases initializeFittingTheta t.theta t.vary with
        | error e => exact .inl ⟨e, rfl, rfl⟩
        | ok f0 => exact .inr ⟨f0, rfl, rfl⟩

theorem FitInv.ready {s0 s : Fit2D r c} (h : FitInv s0 s) (t : FitSettings) (ht : s.settings = some t)
    (k : KinProfile) (hk : s.kinProfile.updateTheta t.theta = .ok k) : FitInv s0 (s.ready t k) := by
  have hsh := (updateTheta_shape _ _ _ hk).trans h.shape
  have ht0 : s0.settings = some t := h.settings.symm.trans ht
  refine ⟨h.input, h.resolution, h.re, h.settings, h.absval, h.sampleFile, h.modelFile, h.pstamp, hsh, ?_,
    .inr ⟨t, ht0, congrArg some (congrArg Prod.fst (h.setupPrior_eq t ht0))⟩⟩
  intro k' hk'
  cases hk'
  exact ⟨_, _, hsh ▸ init_keeps t.theta t.vary k false⟩

theorem FitInv.setupModel {s0 s : Fit2D r c} (h : FitInv s0 s) : FitInv s0 s.setupModel.1 := by
  rcases setupModel_cases s with ⟨_, e⟩ | ⟨t, ht, ⟨_, _, e⟩ | ⟨k, hk, ⟨_, _, e⟩ | ⟨_, ⟨_, _, e⟩ | ⟨f0, _, e⟩⟩⟩⟩
  · rw [e]; exact h
  · rw [e]; exact h
  · rw [e]; exact h.ready t ht k hk
  · rw [e]; exact h.ready t ht k hk
  · rw [e]
    have h1 := h.ready t ht k hk
    apply FitInv.makeModel
    exact ⟨h1.input, h1.resolution, h1.re, h1.settings, h1.absval, h1.sampleFile, h1.modelFile,
      h1.pstamp, h1.shape, h1.model, h1.prior⟩

theorem FitInv.fit {s0 s : Fit2D r c} (h : FitInv s0 s) (o : PeakFinder) (run : Fit2D r c → Except PyErr Chain)
    (d : Disk r c) : FitInv s0 (s.fit o run none d).1 := by
  unfold Fit2D.fit
  simp only
  split
  · exact h
  · have h1 := h.setupModel
    revert h1
    generalize s.setupModel = x
    obtain ⟨s1, e⟩ := x
    intro h1
    cases e with
    | error e => exact h1
    | ok u =>
      simp only at h1 ⊢
      have h2 := h1.runMcmc run d
      revert h2
      generalize s1.runMcmc run d = y
      obtain ⟨s2, d2, e2⟩ := y
      intro h2
      cases e2 with
      | error e => exact h2
      | ok u =>
        simp only at h2 ⊢
        have h3 := h2.analyze o d2
        revert h3
        generalize s2.analyze o d2 = z
        obtain ⟨s3, e3⟩ := z
        intro h3
        cases e3 <;> exact h3

theorem FitInv.reloadResults {s0 s : Fit2D r c} (h : FitInv s0 s) (o : PeakFinder) (d : Disk r c) :
    FitInv s0 (s.reloadResults o d).1 := by
  unfold Fit2D.reloadResults
  have h1 : FitInv s0 (if s.kinModel.isNone then s.setupModel else (s, .ok ())).1 := by
    split
    · exact h.setupModel
    · exact h
  revert h1
  generalize (if s.kinModel.isNone then s.setupModel else (s, .ok ())) = x
  obtain ⟨s1, e⟩ := x
  intro h1
  cases e with
  | error e => exact h1
  | ok u => exact FitInv.analyze h1 o d

theorem FitInv.step {s0 : Fit2D r c} (o : PeakFinder) (x : Fit2D r c × Disk r c) (h : FitInv s0 x.1)
    (call : FitCall r c) : FitInv s0 (call.step o x).1 := by
  cases call with
  | setup => exact h.setupModel
  | make f => exact h.makeModel f
  | update f => exact h.updateModel f
  | setBest f => exact h.setBestfit f
  | fit run => exact h.fit o run x.2
  | analyze => exact h.analyze o x.2
  | reload => exact h.reloadResults o x.2
  | save => exact h

theorem FitInv.runCalls {s0 : Fit2D r c} (o : PeakFinder) : ∀ (calls : List (FitCall r c))
    (x : Fit2D r c × Disk r c), FitInv s0 x.1 → FitInv s0 (Fit2D.runCalls o x calls).1 := by
  intro calls
  induction calls with
  | nil => exact fun _ h => h
  | cons call calls ih => exact fun x h => ih _ (h.step o x call)

theorem FitInv.refl (s : Fit2D r c) (h : s.kinModel = none) : FitInv s s :=
  ⟨rfl, rfl, rfl, rfl, rfl, rfl, rfl, rfl, rfl, fun k hk => (by rw [h] at hk; cases hk), Or.inl rfl⟩

/-- two objects with the same inputs are set up in the same way -/
theorem setupModel_congr (s s' : Fit2D r c) (hi : s'.input = s.input) (ht : s'.settings = s.settings)
    (hk : s'.kinProfile.shape = s.kinProfile.shape)
    (hp : ∀ t, s.settings = some t → setupPrior s'.prior t = setupPrior s.prior t) :
    s'.setupModel.2 = s.setupModel.2 ∧ (s.setupModel.2 = .ok () →
      s'.setupModel.1.kinModel = s.setupModel.1.kinModel ∧ s'.setupModel.1.prior = s.setupModel.1.prior ∧
      s'.setupModel.1.linked = s.setupModel.1.linked) := by
  have hcong := updateTheta_congr _ _ hk
  rcases setupModel_cases s with ⟨h1, e⟩ | ⟨t, h1, ⟨x, h2, e⟩ | ⟨k, h2, ⟨x, h3, e⟩ | ⟨h3, ⟨x, h4, e⟩ |
    ⟨f0, h4, e⟩⟩⟩⟩ <;>
  rcases setupModel_cases s' with ⟨g1, e'⟩ | ⟨t', g1, ⟨x', g2, e'⟩ | ⟨k', g2, ⟨x', g3, e'⟩ | ⟨g3, ⟨x', g4, e'⟩ |
    ⟨f0', g4, e'⟩⟩⟩⟩ <;> rw [e, e'] <;> rw [ht, h1] at g1 <;> cases g1 <;>
    (try rw [hcong, h2] at g2) <;> (try cases g2) <;> (try rw [hp t h1, h3] at g3) <;> (try cases g3) <;>
    (try rw [h4] at g4) <;> (try cases g4) <;> (try exact ⟨rfl, fun h => by cases h⟩)
  unfold Fit2D.makeModel Fit2D.ready
  simp only [hi, hp t h1]
  exact ⟨trivial, fun _ => ⟨trivial, trivial, trivial⟩⟩

/-- the part of two fit objects the analysis works on -/
structure SameFit (s s' : Fit2D r c) : Prop where
  input : s'.input = s.input
  re : s'.re = s.re
  absval : s'.absvalsigma = s.absvalsigma
  linked : s'.linked = s.linked
  kinModel : s'.kinModel = s.kinModel
  sampler : s'.sampler = s.sampler

theorem SameFit.makeModel {s s' : Fit2D r c} (h : SameFit s s') (f : List ℝ) :
    (s'.makeModel f).2 = (s.makeModel f).2 ∧ SameFit (s.makeModel f).1 (s'.makeModel f).1 ∧
      (s.makeModel f).1.results = s.results ∧ (s'.makeModel f).1.results = s'.results := by
  unfold Fit2D.makeModel
  rw [h.kinModel, h.input]
  cases s.kinModel with
  | none => exact ⟨rfl, h, rfl, rfl⟩
  | some k => exact ⟨rfl, ⟨rfl, h.re, h.absval, h.linked, rfl, h.sampler⟩, rfl, rfl⟩

theorem SameFit.setBestfit {s s' : Fit2D r c} (h : SameFit s s') (f : List ℝ) :
    (s'.setBestfit f).2 = (s.setBestfit f).2 ∧ SameFit (s.setBestfit f).1 (s'.setBestfit f).1 ∧
      (s.setBestfit f).1.results = s.results ∧ (s'.setBestfit f).1.results = s'.results := by
  obtain ⟨h1, h2, h3, h4⟩ := h.makeModel f
  unfold Fit2D.setBestfit
  generalize s.makeModel f = x at h1 h2 h3
  generalize s'.makeModel f = x' at h1 h2 h4
  obtain ⟨a, e⟩ := x
  obtain ⟨a', e'⟩ := x'
  simp only at h1 h2 h3 h4
  subst h1
  cases e' with
  | error e => exact ⟨rfl, h2, h3, h4⟩
  | ok u =>
    refine ⟨rfl, ⟨h2.input, h2.re, h2.absval, h2.linked, ?_, h2.sampler⟩, h3, h4⟩
    simp only
    rw [h2.kinModel]

theorem SameFit.chainResults {s s' : Fit2D r c} (h : SameFit s s') (o : PeakFinder) :
    (s'.chainResults o).2 = (s.chainResults o).2 ∧ SameFit (s.chainResults o).1 (s'.chainResults o).1 ∧
      ∀ res, (s.chainResults o).2 = .ok res →
        (s.chainResults o).1.results = some res ∧ (s'.chainResults o).1.results = some res := by
  unfold Fit2D.chainResults
  rw [h.kinModel, h.sampler, h.re, h.absval, h.linked]
  cases s.kinModel with
  | none => exact ⟨rfl, h, fun _ h => by cases h⟩
  | some k =>
    cases s.sampler with
    | none => exact ⟨rfl, h, fun _ h => by cases h⟩
    | some ch =>
      simp only
      split
      · exact ⟨rfl, h, fun _ h => by cases h⟩
      · split
        · exact ⟨rfl, ⟨h.input, rfl, rfl, rfl, rfl, rfl⟩, fun _ h => by cases h⟩
        · split
          · exact ⟨rfl, ⟨h.input, rfl, rfl, rfl, rfl, rfl⟩, fun _ h => by cases h⟩
          · exact ⟨rfl, ⟨h.input, rfl, rfl, rfl, rfl, rfl⟩, fun _ h => by cases h; exact ⟨rfl, rfl⟩⟩

/-- `make_model` changes the parameters as `update_parameters` does -/
theorem make_params (m : KinModelState r c) (g : KinInput r c) (fit : List ℝ) :
    (m.make g fit).1.params = (m.params.update fit).1 := by
  unfold KinModelState.make
  generalize m.params.update fit = x
  obtain ⟨p, e⟩ := x
  cases e with
  | some e => rfl
  | none =>
    simp only
    split
    · rfl
    · split
      · split
        · rfl
        · rfl
        · rw [(finishModel_keeps _ _ _).1]
      · rw [(evalExisting_keeps _ _ _).1]

/-- the wrong number of parameters is an error -/
theorem make_ok_length (m : KinModelState r c) (g : KinInput r c) (fit : List ℝ) (h : (m.make g fit).2 = .ok ()) :
    fit.length = m.params.nFree ∧ (m.params.update fit).1 =
      { m.params with theta := (updateParameters m.params.theta m.params.vary fit).1 } := by
  by_cases hl : fit.length = m.params.nFree
  · refine ⟨hl, ?_⟩
    rw [KinParams.update, if_neg (by simpa using hl)]
  · exfalso
    unfold KinModelState.make at h
    rw [KinParams.update, if_pos hl] at h
    cases h

/-- the model after `set_bestfit` -/
theorem setBestfit_model (s s1 : Fit2D r c) (f : List ℝ) (h : s.setBestfit f = (s1, .ok ())) :
    ∃ k, s.kinModel = some k ∧ (k.m.make s.input f).2 = .ok () ∧
      s1 = { s with kinProfile := (k.m.make s.input f).1.kin
                    kinModel := some { k with m := (k.m.make s.input f).1
                                              bestfit := some (k.m.make s.input f).1 } } := by
  unfold Fit2D.setBestfit Fit2D.makeModel at h
  cases hk : s.kinModel with
  | none => rw [hk] at h; cases h
  | some k =>
    rw [hk] at h
    refine ⟨k, rfl, ?_⟩
    simp only at h
    revert h
    generalize k.m.make s.input f = x
    obtain ⟨m, e⟩ := x
    intro h
    cases e with
    | error e => cases h
    | ok u => cases h; exact ⟨rfl, rfl⟩

theorem chainResults_inv (o : PeakFinder) (s : Fit2D r c) (res : FitResults) (h : (s.chainResults o).2 = .ok res) :
    ∃ k ch out names cols, s.kinModel = some k ∧ s.sampler = some ch ∧
      addVRe22 { theta := k.m.params.theta.map Fl.fin, vary := k.m.params.vary, names := k.names
                 flatchain := ch.cols, absvalsigma := s.absvalsigma, re := s.re } = .ok (out, names) ∧
      mapE colValues out.flatchain = .ok cols ∧
      paramPosterior o cols s.linked names k.m.params.nFree = .ok res ∧
      (s.chainResults o).1 = { s with sampler := some ⟨ch.len, out.flatchain⟩, results := some res } := by
  unfold Fit2D.chainResults at h ⊢
  cases hk : s.kinModel with
  | none => rw [hk] at h; cases h
  | some k =>
    rw [hk] at h
    simp only at h ⊢
    cases hs : s.sampler with
    | none => rw [hs] at h; cases h
    | some ch =>
      rw [hs] at h
      simp only at h ⊢
      cases ha : addVRe22 { theta := k.m.params.theta.map Fl.fin, vary := k.m.params.vary, names := k.names
                            flatchain := ch.cols, absvalsigma := s.absvalsigma, re := s.re } with
      | error e => rw [ha] at h; cases h
      | ok on =>
        obtain ⟨out, names⟩ := on
        rw [ha] at h
        simp only at h ⊢
        cases hc : mapE colValues out.flatchain with
        | error e => rw [hc] at h; cases h
        | ok cols =>
          rw [hc] at h
          simp only at h ⊢
          cases hp : paramPosterior o cols s.linked names k.m.params.nFree with
          | error e => rw [hp] at h; cases h
          | ok res' =>
            rw [hp] at h
            cases h
            exact ⟨k, ch, out, names, cols, rfl, rfl, ha, hc, hp, rfl⟩

/-- what an analysis without exception has done -/
theorem analyze_inv (o : PeakFinder) (s s1 : Fit2D r c) (d : Disk r c) (h : s.analyze o d = (s1, .ok ())) :
    ∃ sa res, (sa = s ∨ s.sampler = none ∧ ∃ ch, sa = { s with sampler := some ch }) ∧ (sa.chainResults o).2 = .ok res ∧
      ((sa.chainResults o).1).setBestfit res.fitting = (s1, .ok ()) := by
  unfold Fit2D.analyze at h
  have hx : ∀ x : Fit2D r c × Except PyErr Unit,
      x = (if s.sampler.isNone then s.reloadSampler d else (s, .ok ())) → x.2 = .ok () →
      (x.1 = s ∨ s.sampler = none ∧ ∃ ch, x.1 = { s with sampler := some ch }) := by
    intro x hx hok
    subst hx
    split
    · rename_i hn
      rw [if_pos hn] at hok
      unfold Fit2D.reloadSampler at hok ⊢
      split
      · rename_i hf
        rw [if_pos hf] at hok
        split
        · rename_i hd
          rw [hd] at hok
          cases hok
        · exact .inr ⟨by simpa using hn, _, rfl⟩
      · exact .inl rfl
    · exact .inl rfl
  revert h
  generalize hg : (if s.sampler.isNone then s.reloadSampler d else (s, .ok ())) = x
  have hx' := hx x hg.symm
  obtain ⟨sa, e⟩ := x
  intro h
  cases e with
  | error e => cases h
  | ok u =>
    simp only at h
    refine ⟨sa, ?_⟩
    revert h
    cases hr : (sa.chainResults o).2 with
    | error e =>
      intro h
      generalize hy : sa.chainResults o = y at h hr
      obtain ⟨b, f⟩ := y
      simp only at hr
      subst hr
      cases h
    | ok res =>
      intro h
      refine ⟨res, hx' rfl, rfl, ?_⟩
      generalize hy : sa.chainResults o = y at h hr
      obtain ⟨b, f⟩ := y
      simp only at hr
      subst hr
      exact h

/-- `set_bestfit` touches the model only -/
theorem setBestfit_keeps (s : Fit2D r c) (f : List ℝ) :
    (s.setBestfit f).1.sampler = s.sampler ∧ (s.setBestfit f).1.results = s.results ∧
    (s.setBestfit f).1.linked = s.linked ∧ (s.setBestfit f).1.absvalsigma = s.absvalsigma ∧
    (s.setBestfit f).1.re = s.re := by
  have h : (s.makeModel f).1.sampler = s.sampler ∧ (s.makeModel f).1.results = s.results ∧
      (s.makeModel f).1.linked = s.linked ∧ (s.makeModel f).1.absvalsigma = s.absvalsigma ∧
      (s.makeModel f).1.re = s.re := by
    unfold Fit2D.makeModel
    split <;> exact ⟨rfl, rfl, rfl, rfl, rfl⟩
  unfold Fit2D.setBestfit
  revert h
  generalize s.makeModel f = x
  obtain ⟨a, e⟩ := x
  intro h
  cases e <;> exact h

end Misfit
