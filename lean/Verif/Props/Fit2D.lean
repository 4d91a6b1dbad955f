import Verif.Lemmas.Fit2D
import Verif.Lemmas.Analysis

/-!
# C117-C123: the 2D fit object
-/

namespace Misfit
variable {r c : Nat}

/-! ## C117: setting up -/

/-- **C117**: whatever has been done with a fit object (set-ups, evaluations, fits, analyses, also
failing ones), its settings and its galaxy are the ones given by the user, and setting up again ends with the
exception, or gives the model, prior and linked parameters, of the set-up of the new object. -/
theorem C117_setup (o : PeakFinder) (s : Fit2D r c) (hnew : s.kinModel = none) (d : Disk r c)
    (calls : List (FitCall r c)) (s' : Fit2D r c) (hs' : s' = (Fit2D.runCalls o (s, d) calls).1) :
    s'.settings = s.settings ∧ s'.input = s.input ∧ s'.setupModel.2 = s.setupModel.2 ∧
    (s.setupModel.2 = .ok () →
      s'.setupModel.1.kinModel = s.setupModel.1.kinModel ∧ s'.setupModel.1.prior = s.setupModel.1.prior ∧
      s'.setupModel.1.linked = s.setupModel.1.linked) := by
  have h := FitInv.runCalls o calls (s, d) (FitInv.refl s hnew)
  rw [← hs'] at h
  have e := setupModel_congr s s' h.input h.settings h.shape fun t ht => h.setupPrior_eq t ht
  exact ⟨h.settings, h.input, e.1, e.2⟩

/-- A fit object for the single cell model: five parameters, the first three vary. -/
noncomputable def oneFit : Fit2D 1 2 where
  input := oneInput
  resolution := .fin 50
  re := 1
  settings := some ⟨[0, 1, 1, 0, 0], [true, true, true, false, false], ["V_a", "r_t", "sigma0", "m0_shift", "z"],
    some [some (.fin 0, .fin 400), some (.fin 0, .fin 5), some (.fin 0, .fin 100), none, none], none⟩
  kinProfile := ⟨[], some ⟨[], 2⟩, some ⟨[], 1⟩⟩
  absvalsigma := false
  prior := none
  linked := none
  kinModel := none
  sampler := none
  results := none
  sampleFile := true
  modelFile := true
  pstamp := true

theorem one_init_make (fit : List ℝ) (va rt sig : ℝ) (hfit : fit = [va, rt, sig]) (hrt : rt ≠ 0) (hs : sig ≠ 0)
    (k : KinProfile) (hk : k = ⟨[0, 1, 1, 0, 0], some ⟨[0, 1], 2⟩, some ⟨[1], 1⟩⟩) :
    ((KinModelState.init [0, 1, 1, 0, 0] [true, true, true, false, false] k false : KinModelState 1 2).make
      oneInput fit) =
    ((oneObj [0, 1, 1, 0, 0] [true, true, true, false, false] false).make oneInput [va, rt, sig]) := by
  subst hfit hk
  unfold KinModelState.make
  rfl

theorem one_setup_ok : oneFit.setupModel.2 = .ok () := by
  have h := one_make_three 0 1 1 0 false 0 1 1 one_ne_zero one_ne_zero (by norm_num)
  have h2 := one_init_make [0, 1, 1] 0 1 1 rfl one_ne_zero one_ne_zero _ rfl
  have e : oneFit.setupModel.2 = ((KinModelState.init [0, 1, 1, 0, 0] [true, true, true, false, false]
    ⟨[0, 1, 1, 0, 0], some ⟨[0, 1], 2⟩, some ⟨[1], 1⟩⟩ false : KinModelState 1 2).make oneInput [0, 1, 1]).2 := rfl
  rw [e, h2, h]
  exact finish_one_ok _ _

/-- the hypotheses are met: an object that can be set up, after a wrong call and two evaluations -/
example (o : PeakFinder) (d : Disk 1 2) (s' : Fit2D 1 2)
    (hs' : s' = (Fit2D.runCalls o (oneFit, d) [.setup, .make [1], .update [3, 2, 1], .analyze, .setBest [100, 1, 40]]).1) :
    oneFit.setupModel.2 = .ok () ∧ s'.setupModel.2 = .ok () ∧
      s'.setupModel.1.kinModel = oneFit.setupModel.1.kinModel := by
  obtain ⟨_, _, h3, h4⟩ := C117_setup o oneFit rfl d _ s' hs'
  exact ⟨one_setup_ok, h3.trans one_setup_ok, (h4 one_setup_ok).1⟩

/-! ## C118: prior and settings -/

/-- Specification: the value of the flat prior described by the settings.  Without bounds it fails as soon as one
parameter varies. -/
noncomputable def FitSettings.flatValue (t : FitSettings) (fit : List (Fl ℝ)) : Except PyErr (Fl ℝ) :=
  match t.bounds with
  | some b => logPrior (t.theta.map Fl.fin) t.vary b fit
  | none =>
    if true ∈ t.vary.take t.theta.length then .error .typeError
    else if t.vary.length < t.theta.length then .error .indexError
    else .ok (.fin 0)

/-- the prior without bounds -/
theorem priorNoBounds_eq : ∀ (n : Nat) (vs : List Bool), priorNoBounds n vs =
    if true ∈ vs.take n then .error .typeError else if vs.length < n then .error .indexError else .ok (.fin 0)
  | 0, vs => by simp [priorNoBounds]
  | n + 1, [] => by simp [priorNoBounds]
  | n + 1, false :: vs => by
    rw [priorNoBounds, priorNoBounds_eq n vs]
    simp
  | n + 1, true :: vs => by simp [priorNoBounds]

/-- the prior left by a set-up without exception -/
theorem setup_prior (s : Fit2D r c) (t : FitSettings) (ht : s.settings = some t) (h : s.setupModel.2 = .ok ()) :
    s.setupModel.1.prior = some (setupPrior s.prior t).1 := by
  rcases setupModel_cases s with ⟨h1, e⟩ | ⟨t', h1, ⟨x, h2, e⟩ | ⟨k, h2, ⟨x, h3, e⟩ | ⟨h3, ⟨x, h4, e⟩ |
    ⟨f0, h4, e⟩⟩⟩⟩ <;> rw [e] at h ⊢ <;> try cases h
  rw [ht] at h1
  cases h1
  unfold Fit2D.makeModel Fit2D.ready
  rfl

/-- **C118** (partial): after the set-up of an object without a prior, the prior is the flat prior of the settings.
Missing from the full claim: later set-ups with other settings, see `C118_false`. -/
theorem C118_new_partial (s : Fit2D r c) (t : FitSettings) (ht : s.settings = some t) (hp : s.prior = none)
    (h : s.setupModel.2 = .ok ()) : ∃ p, s.setupModel.1.prior = some p ∧ ∀ fit, p.logp fit = t.flatValue fit := by
  refine ⟨_, setup_prior s t ht h, fun fit => ?_⟩
  rw [hp]
  unfold setupPrior FitSettings.flatValue PriorObj.logp
  cases hb : t.bounds <;> simp [PriorObj.flat, priorNoBounds_eq]

/-- the prior after two set-ups -/
theorem setupPrior_stale (t0 t : FitSettings) (b : List (Option (Fl ℝ × Fl ℝ))) (hb : t.bounds = some b)
    (fit : List (Fl ℝ)) :
    (setupPrior (some (setupPrior none t0).1) t).1.logp fit = logPrior (t0.theta.map Fl.fin) t0.vary b fit := by
  have e2 : (setupPrior none t0).1 = PriorObj.flat t0.theta t0.vary t0.bounds := by
    unfold setupPrior
    simp only [Option.getD_none, PriorObj.flat]
    split <;> rfl
  rw [e2]
  unfold setupPrior PriorObj.logp
  simp only [Option.getD_some, PriorObj.flat, hb, Option.isSome_some, and_self, if_true]

/-- **C118** (exact behaviour, partial): new settings given to an object that has been set up before change the bounds
of its prior but not the varying parameters it looks at.  So the prior is the one of the new settings when the same
parameters vary. -/
theorem C118_stale_partial (s : Fit2D r c) (t0 t : FitSettings) (b : List (Option (Fl ℝ × Fl ℝ)))
    (ht0 : s.settings = some t0) (hp : s.prior = none) (h0 : s.setupModel.2 = .ok ())
    (s' : Fit2D r c) (hs' : s' = { s.setupModel.1 with settings := some t }) (hb : t.bounds = some b)
    (h : s'.setupModel.2 = .ok ()) :
    ∃ p, s'.setupModel.1.prior = some p ∧
      (∀ fit, p.logp fit = logPrior (t0.theta.map Fl.fin) t0.vary b fit) ∧
      (t.vary = t0.vary → t.theta.length = t0.theta.length → ∀ fit, p.logp fit = t.flatValue fit) := by
  have hp0 := setup_prior s t0 ht0 h0
  have hp1 := setup_prior s' t (by rw [hs']) h
  have key : ∀ fit, (setupPrior s'.prior t).1.logp fit = logPrior (t0.theta.map Fl.fin) t0.vary b fit := by
    intro fit
    have e : s'.prior = some (setupPrior s.prior t0).1 := by rw [hs']; exact hp0
    rw [e, hp]
    exact setupPrior_stale t0 t b hb fit
  refine ⟨_, hp1, key, fun hv hl fit => ?_⟩
  rw [key, FitSettings.flatValue, hb]
  simp only
  rw [hv, logPrior_length (t.theta.map Fl.fin) (t0.theta.map Fl.fin) _ _ _ (by simpa using hl)]

/-- settings of the object with one more varying parameter -/
noncomputable def oneMore : FitSettings :=
  ⟨[0, 1, 1, 0, 0], [true, true, true, true, false], ["V_a", "r_t", "sigma0", "m0_shift", "z"],
    some [some (.fin 0, .fin 400), some (.fin 0, .fin 5), some (.fin 0, .fin 100), some (.fin (-1), .fin 1), none], none⟩

/-- settings of the object with one varying parameter fewer -/
noncomputable def oneFewer : FitSettings :=
  ⟨[0, 1, 1, 0, 0], [true, true, false, false, false], ["V_a", "r_t", "sigma0", "m0_shift", "z"],
    some [some (.fin 0, .fin 400), some (.fin 0, .fin 5), none, none, none], none⟩

/-- **C118**, negation: after a second set-up with one more varying parameter the prior accepts a value of it outside
its bounds, and with one varying parameter fewer the prior raises at every vector of the right length. -/
theorem C118_false :
    (∃ p, ({ oneFit.setupModel.1 with settings := some oneMore } : Fit2D 1 2).setupModel.1.prior = some p ∧
      p.logp [.fin 100, .fin 1, .fin 50, .fin 7] = .ok 0 ∧
      oneMore.flatValue [.fin 100, .fin 1, .fin 50, .fin 7] = .ok .ninf) ∧
    (∃ p, ({ oneFit.setupModel.1 with settings := some oneFewer } : Fit2D 1 2).setupModel.1.prior = some p ∧
      ∀ x y : ℝ, p.logp [.fin x, .fin y] = .error .typeError ∨ p.logp [.fin x, .fin y] = .error .indexError) := by
  have hp0 := setup_prior oneFit _ rfl one_setup_ok
  have hgen : ∀ (t : FitSettings), t.theta = [0, 1, 1, 0, 0] → t.vary.length = 5 →
      ({ oneFit.setupModel.1 with settings := some t } : Fit2D 1 2).setupModel.1.prior =
        some (setupPrior oneFit.setupModel.1.prior t).1 := by
    intro t h1 h2
    rcases setupModel_cases ({ oneFit.setupModel.1 with settings := some t } : Fit2D 1 2) with ⟨g1, e⟩ |
      ⟨t', g1, ⟨x, g2, e⟩ | ⟨k, g2, ⟨x, g3, e⟩ | ⟨g3, ⟨x, g4, e⟩ | ⟨f0, g4, e⟩⟩⟩⟩
    · cases g1
    · exfalso
      have hinv := (FitInv.refl oneFit rfl).setupModel
      have hc := updateTheta_congr _ _ hinv.shape t'.theta
      simp only at g2
      rw [hc] at g2
      cases g2
    all_goals
      rw [e]
      cases g1
      first
        | rfl
        | (unfold Fit2D.makeModel Fit2D.ready; rfl)
  constructor
  · refine ⟨_, hgen oneMore rfl rfl, ?_, ?_⟩
    · rw [hp0]
      rw [show oneFit.prior = none from rfl, setupPrior_stale _ oneMore _ rfl]
      norm_num [logPrior, priorStatements, between, Fl.leB]
    · norm_num [FitSettings.flatValue, oneMore, logPrior, priorStatements, between, Fl.leB]
  · refine ⟨_, hgen oneFewer rfl rfl, fun x y => .inr ?_⟩
    rw [hp0]
    rfl

/-! ## C119: reloading -/

/-- **C119** (partial): a fit that returns has saved its samples; an object with the same inputs that has no samples
reloads them and ends with the same results, the same model and the same best-fit model, without exception.
Missing from the full claim: reloading with the object that ran the fit, see `C119_false`. -/
theorem C119_reload_partial (o : PeakFinder) (run : Fit2D r c → Except PyErr Chain) (s s1 : Fit2D r c)
    (d d1 : Disk r c) (hfile : s.sampleFile = true)
    (h : s.fit o run none d = (s1, d1, .ok ()))
    (s' : Fit2D r c) (hi : s'.input = s.input) (hre : s'.re = s.re) (ha : s'.absvalsigma = s.absvalsigma)
    (ht : s'.settings = s.settings) (hp : s'.prior = s.prior) (hk : s'.kinProfile.shape = s.kinProfile.shape)
    (hf : s'.sampleFile = true) (hm : s'.kinModel = none) (hsam : s'.sampler = none) :
    ∃ s2, s'.reloadResults o d1 = (s2, .ok ()) ∧ s2.results = s1.results ∧ s2.kinModel = s1.kinModel ∧
      (∃ res, s1.results = some res) := by
  unfold Fit2D.fit at h
  simp only at h
  split at h
  · cases h
  have hcong := setupModel_congr s s' hi ht hk fun t _ => by rw [hp]
  -- what setting up leaves alone
  have hkeep : ∀ x : Fit2D r c, x.setupModel.1.re = x.re ∧ x.setupModel.1.absvalsigma = x.absvalsigma ∧
      x.setupModel.1.sampleFile = x.sampleFile ∧ x.setupModel.1.input = x.input ∧
      x.setupModel.1.sampler = x.sampler := by
    intro x
    rcases setupModel_cases x with ⟨_, e⟩ | ⟨t, _, ⟨_, _, e⟩ | ⟨k, _, ⟨_, _, e⟩ | ⟨_, ⟨_, _, e⟩ | ⟨f0, _, e⟩⟩⟩⟩ <;>
      rw [e] <;> first | exact ⟨rfl, rfl, rfl, rfl, rfl⟩ | skip
  have k1 := hkeep s
  have k2 := hkeep s'
  unfold Fit2D.reloadResults
  rw [hm]
  simp only [Option.isNone_none, if_true]
  revert h hcong k1 k2
  generalize s.setupModel = x
  generalize s'.setupModel = x'
  obtain ⟨a, e⟩ := x
  obtain ⟨a', e'⟩ := x'
  intro h hcong k1 k2
  obtain ⟨hc1, hc2⟩ := hcong
  simp only at hc1 hc2 k1 k2
  subst hc1
  cases e' with
  | error e => cases h
  | ok u =>
    obtain ⟨hc2, hc3, hc4⟩ := hc2 rfl
    simp only at h ⊢
    unfold Fit2D.runMcmc at h
    cases hr : run a with
    | error e => rw [hr] at h; cases h
    | ok ch =>
      rw [hr] at h
      have hfa : a.sampleFile = true := k1.2.2.1.trans hfile
      simp only at h
      rw [if_pos hfa] at h
      unfold Fit2D.analyze at h
      simp only [Option.isNone_some, Bool.false_eq_true, if_false] at h
      have hd1 : ∀ (y : Fit2D r c), (y.save { d with samples := some ch }).1.samples = some ch := by
        intro y
        unfold Fit2D.save
        split
        · split <;> rfl
        · rfl
      have hsame : SameFit { a with sampler := some ch } { a' with sampler := some ch } :=
        ⟨k2.2.2.2.1.trans (hi.trans k1.2.2.2.1.symm), k2.1.trans (hre.trans k1.1.symm),
          k2.2.1.trans (ha.trans k1.2.1.symm), hc4, hc2, rfl⟩
      obtain ⟨q1, q2, q3⟩ := hsame.chainResults o
      have hload : (if a'.sampler.isNone then a'.reloadSampler d1 else (a', .ok ())) =
          (if a'.sampler.isNone then
            (match d1.samples with
              | none => (a', .error .valueError)
              | some ch => ({ a' with sampler := some ch }, .ok ()))
            else (a', .ok ())) := by
        unfold Fit2D.reloadSampler
        rw [k2.2.2.1, hf]
        rfl
      unfold Fit2D.analyze
      rw [hload, k2.2.2.2.2, hsam]
      simp only [Option.isNone_none, if_true]
      revert h q1 q2 q3
      generalize Fit2D.chainResults o { a with sampler := some ch } = y
      obtain ⟨b, f⟩ := y
      intro h q1 q2 q3
      cases f with
      | error e => cases h
      | ok res =>
        simp only at h q1 q2 q3
        obtain ⟨p1, p2, p3, p4⟩ := q2.setBestfit res.fitting
        revert h p1 p2 p3
        generalize b.setBestfit res.fitting = z
        obtain ⟨b1, g⟩ := z
        intro h p1 p2 p3
        cases g with
        | error e => cases h
        | ok u =>
          simp only [Prod.mk.injEq] at h
          obtain ⟨rfl, rfl, hsave⟩ := h
          rw [hd1]
          simp only
          revert q1 q3 p1 p2 p4
          generalize Fit2D.chainResults o { a' with sampler := some ch } = y'
          obtain ⟨b', f'⟩ := y'
          intro q1 q3 p1 p2 p4
          simp only at q1 q3 p1 p2 p4
          subst q1
          simp only
          refine ⟨(b'.setBestfit res.fitting).1, Prod.ext rfl p2, ?_, p4.kinModel, ⟨res, p3.trans (q3 res rfl).1⟩⟩
          · rw [p1]
            exact (q3 res rfl).2.trans (p3.trans (q3 res rfl).1).symm

/-- **C119**, negation: `reload_results` of the object that has analysed its samples (for instance by `fit`) analyses
samples to which the derived quantities have been appended already: the new results have the same names but four more
best-fit values, the last four being repeated. -/
theorem C119_false (o : PeakFinder) (s s1 : Fit2D r c) (d d' : Disk r c) (h1 : s.analyze o d = (s1, .ok ()))
    (hl : s.linked = none) (ha : s.absvalsigma = false) :
    ∃ r1 r2, s1.results = some r1 ∧ (s1.reloadResults o d').1.results = some r2 ∧ r2.names = r1.names ∧
      r2.fitting = r1.fitting ∧ 4 ≤ r1.best.length ∧ r2.best = r1.best ++ r1.best.drop (r1.best.length - 4) := by
  obtain ⟨sa, r1, hsa, hr1, hb1⟩ := analyze_inv o s s1 d h1
  obtain ⟨k, ch, out, names, cols, e1, e2, e3, e4, e5, e6⟩ := chainResults_inv o sa r1 hr1
  have hla : sa.linked = none ∧ sa.absvalsigma = false := by
    rcases hsa with h | ⟨_, c, h⟩ <;> rw [h] <;> exact ⟨hl, ha⟩
  rw [e6] at hb1
  obtain ⟨k', g1, g2, g3⟩ := setBestfit_model _ _ _ hb1
  simp only at g1 g2 g3
  rw [e1] at g1
  cases g1
  obtain ⟨n1, n2⟩ := make_ok_length _ _ _ g2
  have n3 := make_params k.m sa.input r1.fitting
  rw [n2] at n3
  obtain ⟨fc, va, rt, sg, rest, f1, f2, f3, f4⟩ := addVRe22_inv _ _ _ e3
  simp only [absSigma, hla.2] at f1
  cases f1
  simp only at f2 f3 f4
  -- the values of the columns
  obtain ⟨A, D, hA, hD, hAD⟩ : ∃ A D, mapE colValues ch.cols = .ok A ∧
      mapE colValues (derivedCols sa.re va rt sg) = .ok D ∧ cols = A ++ D := by
    rw [f3, mapE_append] at e4
    cases hA : mapE colValues ch.cols with
    | error e => rw [hA] at e4; cases e4
    | ok A =>
      rw [hA] at e4
      simp only at e4
      cases hD : mapE colValues (derivedCols sa.re va rt sg) with
      | error e => rw [hD] at e4; cases e4
      | ok D => rw [hD] at e4; cases e4; exact ⟨A, D, rfl, rfl, rfl⟩
  subst hAD
  rw [hla.1] at e5
  obtain ⟨r2, hr2, hbest⟩ := paramPosterior_again o A D names _ r1 e5
  have l1 := paramPosterior_length o _ _ _ _ _ e5
  have l2 := paramPosterior_length o _ _ _ _ _ hr2
  have lD : D.length = 4 := (mapE_spec _ _ _ hD).1
  have hlen : r1.best.length - 4 = A.length := by rw [l1.1, List.length_append]; omega
  have hn : k.m.params.nFree ≤ r1.best.length := by
    rw [l1.2.2, List.length_take] at n1
    omega
  refine ⟨r1, r2, by rw [g3], ?_, l2.2.1.trans l1.2.1.symm, ?_, ?_, by rw [hlen]; exact hbest⟩
  · -- the second analysis
    have hres : ∀ x : Fit2D r c, (x.chainResults o).2 = .ok r2 → x.kinModel.isNone = false →
        x.sampler.isNone = false → (x.reloadResults o d').1.results = some r2 := by
      intro x hx hk hs
      obtain ⟨_, _, _, _, _, _, _, _, _, _, hx6⟩ := chainResults_inv o x r2 hx
      unfold Fit2D.reloadResults
      rw [hk]
      simp only [Bool.false_eq_true, if_false]
      unfold Fit2D.analyze
      rw [hs]
      simp only [Bool.false_eq_true, if_false]
      have hkeep := (setBestfit_keeps (x.chainResults o).1 r2.fitting).2.1
      revert hx hx6 hkeep
      generalize x.chainResults o = y
      obtain ⟨y1, y2⟩ := y
      intro hx hx6 hkeep
      simp only at hx hx6 hkeep
      subst hx
      simp only
      rw [hkeep, hx6]
    apply hres
    · rw [g3]
      unfold Fit2D.chainResults
      simp only
      have hadd : addVRe22 { theta := ((k.m.make sa.input r1.fitting).1.params.theta).map Fl.fin
                             vary := (k.m.make sa.input r1.fitting).1.params.vary, names := k.names
                             flatchain := out.flatchain, absvalsigma := sa.absvalsigma, re := sa.re } =
          .ok ({ theta := ((k.m.make sa.input r1.fitting).1.params.theta).map Fl.fin
                 vary := (k.m.make sa.input r1.fitting).1.params.vary, names := k.names
                 flatchain := out.flatchain ++ derivedCols sa.re va rt sg
                 absvalsigma := sa.absvalsigma, re := sa.re }, names) := by
        unfold addVRe22 absSigma
        simp only [hla.2, Bool.false_eq_true, if_false]
        rw [n3]
        simp only
        rw [thetaChain_update, f3, thetaChain_append _ _ _ _ _ _ f2]
        simp only
        rw [f4]
        rfl
      rw [hadd]
      simp only
      rw [mapE_append, e4, hD]
      simp only
      rw [hla.1, n3]
      simp only
      rw [hr2]
    · rw [g3]; rfl
    · rw [g3]; rfl
  · rw [l1.2.2, l2.2.2, hbest, List.take_append_of_le_length hn]
  · rw [l1.1, List.length_append]; omega

/-! ## C120: the stored best-fit model -/

/-- evaluations of the model and savings -/
def FitCall.isEval : FitCall r c → Bool
  | .make _ | .update _ | .save => true
  | _ => false

/-- the calls of the model object made by evaluations -/
def FitCall.kin (g : KinInput r c) : FitCall r c → Option (KinCall r c)
  | .make f => some (.make g f)
  | .update f => some (.update f)
  | _ => none

/-- evaluations through the fit object are evaluations of its model -/
theorem runCalls_eval (o : PeakFinder) : ∀ (calls : List (FitCall r c)) (x : Fit2D r c × Disk r c) (k : KinObj r c),
    x.1.kinModel = some k → (∀ call ∈ calls, call.isEval = true) →
    (Fit2D.runCalls o x calls).1.input = x.1.input ∧
    (Fit2D.runCalls o x calls).1.kinModel =
      some { k with m := k.m.run (calls.filterMap (FitCall.kin x.1.input)) } := by
  intro calls
  induction calls with
  | nil => intro x k hk _; exact ⟨rfl, hk⟩
  | cons call calls ih =>
    intro x k hk hc
    have hrest := fun call' h' => hc call' (List.mem_cons_of_mem _ h')
    cases call with
    | make f =>
      have e : (FitCall.step o x (.make f)).1.kinModel = some { k with m := (k.m.make x.1.input f).1 } := by
        simp only [FitCall.step, Fit2D.makeModel, hk]
      have e' : (FitCall.step o x (.make f)).1.input = x.1.input := by
        simp only [FitCall.step, Fit2D.makeModel, hk]
      obtain ⟨h1, h2⟩ := ih _ _ e hrest
      refine ⟨h1.trans e', ?_⟩
      rw [e'] at h2
      exact h2
    | update f =>
      have e : (FitCall.step o x (.update f)).1.kinModel = some { k with m := (k.m.update f).1 } := by
        simp only [FitCall.step, Fit2D.updateModel, hk]
      have e' : (FitCall.step o x (.update f)).1.input = x.1.input := by
        simp only [FitCall.step, Fit2D.updateModel, hk]
      obtain ⟨h1, h2⟩ := ih _ _ e hrest
      refine ⟨h1.trans e', ?_⟩
      rw [e'] at h2
      exact h2
    | save => exact ih (x.1, (x.1.save x.2).1) k hk hrest
    | setup => cases hc _ List.mem_cons_self
    | setBest f => cases hc _ List.mem_cons_self
    | fit run => cases hc _ List.mem_cons_self
    | analyze => cases hc _ List.mem_cons_self
    | reload => cases hc _ List.mem_cons_self

/-- **C120**: with centre shift and redshift fixed, the best-fit model stored by `set_bestfit(v)` has the parameters and
the image of the first evaluation of a new model at `v`, whatever was evaluated before, and it keeps them
whatever is evaluated or saved later.  (With adaptive wavelength sampling the evaluations before must have returned
normally.) -/
theorem C120_bestfit (o : PeakFinder) (s : Fit2D r c) (ts : List ℝ) (vs : List Bool) (shift z : ℝ) (t : FitSettings)
    (ht : s.settings = some t) (hth : t.theta = ts ++ [shift, z]) (hv : t.vary = vs ++ [false, false])
    (hl : vs.length = ts.length) (hs : s.setupModel.2 = .ok ()) (d d' : Disk r c)
    (before after : List (FitCall r c)) (hb : ∀ call ∈ before, call.isEval = true)
    (ha : ∀ call ∈ after, call.isEval = true)
    (hada : s.input.cfg.adaptive = true → ∀ k, s.setupModel.1.kinModel = some k →
      AllOk k.m (before.filterMap (FitCall.kin s.input)))
    (v : List ℝ) (s2 : Fit2D r c)
    (h : (Fit2D.runCalls o (s.setupModel.1, d) before).1.setBestfit v = (s2, .ok ())) :
    ∃ k b kin, s.kinProfile.updateTheta t.theta = .ok kin ∧
      (Fit2D.runCalls o (s2, d') after).1.kinModel = some k ∧ k.bestfit = some b ∧
      ((KinModelState.init t.theta t.vary kin false : KinModelState r c).make s.input v).2 = .ok () ∧
      b.params.theta = ((KinModelState.init t.theta t.vary kin false : KinModelState r c).make s.input v).1.params.theta ∧
      b.model = ((KinModelState.init t.theta t.vary kin false : KinModelState r c).make s.input v).1.model := by
  -- the state after setting up
  obtain ⟨kin, f0, hkin, hm, hok, hinp⟩ : ∃ kin f0, s.kinProfile.updateTheta t.theta = .ok kin ∧ s.setupModel.1.kinModel =
      some ⟨((KinModelState.init t.theta t.vary kin false : KinModelState r c).make s.input f0).1, t.names, none⟩ ∧
      ((KinModelState.init t.theta t.vary kin false : KinModelState r c).make s.input f0).2 = .ok () ∧
      s.setupModel.1.input = s.input := by
    rcases setupModel_cases s with ⟨h1, e⟩ | ⟨t', h1, ⟨x, h2, e⟩ | ⟨k, h2, ⟨x, h3, e⟩ | ⟨h3, ⟨x, h4, e⟩ |
      ⟨f0, h4, e⟩⟩⟩⟩ <;> rw [e] at hs ⊢ <;> try cases hs
    rw [ht] at h1
    cases h1
    exact ⟨k, f0, h2, rfl, hs, rfl⟩
  obtain ⟨hi1, hk1⟩ := runCalls_eval o before (s.setupModel.1, d) _ hm hb
  rw [hinp] at hi1 hk1
  obtain ⟨k', g1, g2, g3⟩ := setBestfit_model _ _ _ h
  rw [hk1] at g1
  cases g1
  simp only at g2 g3
  rw [hi1] at g2 g3
  obtain ⟨hi2, hk2⟩ := runCalls_eval o after (s2, d') _ (by rw [g3]) ha
  obtain ⟨q1, q2⟩ := (C85_history s.input ts vs shift z kin false hl f0 (before.filterMap (FitCall.kin s.input))
    (KinModelState.init t.theta t.vary kin false) _ (by rw [hth, hv]) rfl hok (fun h => hada h _ hm) v).2 s.input
  refine ⟨_, _, kin, hkin, hk2, rfl, q1.symm.trans g2, (q2 g2).1, (q2 g2).2.1⟩

/-! ## C121: any run can be analysed -/

/-- constant columns cannot be analysed -/
theorem paramPosterior_const (o : PeakFinder) {L : Nat} (fc : Cols L) (cols : List (List ℝ)) (c : Fin L → Fl ℝ)
    (hc : c ∈ fc) (t : Fl ℝ) (ht : ∀ k, c k = t) (hcols : mapE colValues fc = .ok cols) (linked : Option (List RawLink))
    (names : List String) (n : Nat) : ∃ e, paramPosterior o cols linked names n = .error e := by
  obtain ⟨i, hi, hic⟩ := List.mem_iff_getElem.mp hc
  obtain ⟨hlen, hspec⟩ := mapE_spec _ _ _ hcols
  obtain ⟨col, h1, h2⟩ := hspec i c (by rw [List.getElem?_eq_getElem hi, hic])
  rw [colValues_ok] at h2
  have hconst : ∃ z, ∀ y ∈ col, y = z := by
    cases t with
    | fin z =>
      refine ⟨z, fun y hy => ?_⟩
      have : Fl.fin y ∈ List.ofFn c := by rw [h2]; exact List.mem_map_of_mem hy
      obtain ⟨k, hk⟩ := List.mem_ofFn.mp this
      rw [ht] at hk
      cases hk
      rfl
    | _ =>
      refine ⟨0, fun y hy => ?_⟩
      have : Fl.fin y ∈ List.ofFn c := by rw [h2]; exact List.mem_map_of_mem hy
      obtain ⟨k, hk⟩ := List.mem_ofFn.mp this
      rw [ht] at hk
      cases hk
  obtain ⟨z, hz⟩ := hconst
  obtain ⟨e, he⟩ := columnStats_const o col z hz
  obtain ⟨e', he'⟩ := mapE_error (columnStats o) col e he cols (List.mem_of_getElem? h1)
  exact ⟨e', by unfold paramPosterior; rw [he']⟩

/-- with the dispersion fixed, or both parameters of the rotation curve, a derived column is constant -/
theorem chainResults_const (o : PeakFinder) (s : Fit2D r c) (k : KinObj r c) (hk : s.kinModel = some k)
    (hfix : k.m.params.vary[2]? = some false ∨ k.m.params.vary[0]? = some false ∧ k.m.params.vary[1]? = some false) :
    ∃ e, (s.chainResults o).2 = .error e := by
  cases hr : (s.chainResults o).2 with
  | error e => exact ⟨e, rfl⟩
  | ok res =>
    exfalso
    obtain ⟨k', ch, out, names, cols, e1, e2, e3, e4, e5, e6⟩ := chainResults_inv o s res hr
    rw [hk] at e1
    cases e1
    obtain ⟨fc, va, rt, sg, rest, f1, f2, f3, f4⟩ := addVRe22_inv _ _ _ e3
    simp only at f2 f3
    have hfixed := thetaChain_fixed fc _ _ 0 _ f2
    obtain ⟨c, hc, t, ht⟩ : ∃ c ∈ out.flatchain, ∃ t, ∀ i, c i = t := by
      rcases hfix with h | ⟨h1, h2⟩
      · obtain ⟨t, ht⟩ := hfixed 2 sg h rfl
        refine ⟨fun k => sigmaSample (sg k) s.re, by rw [f3]; simp [derivedCols], sigmaSample t s.re, fun i => ?_⟩
        simp only [ht]
      · obtain ⟨t, ht⟩ := hfixed 0 va h1 rfl
        obtain ⟨t', ht'⟩ := hfixed 1 rt h2 rfl
        refine ⟨fun k => velSample (va k) (rt k) s.re, by rw [f3]; simp [derivedCols], velSample t t' s.re, fun i => ?_⟩
        simp only [ht, ht']
    obtain ⟨e, he⟩ := paramPosterior_const o _ _ c hc t ht e4 s.linked names k.m.params.nFree
    rw [e5] at he
    cases he

/-- **C121**, negation: with the dispersion fixed, or with both parameters of the rotation curve fixed, `fit` never
returns normally, whatever the samples and the peak search. -/
theorem C121_false (o : PeakFinder) (run : Fit2D r c → Except PyErr Chain) (s : Fit2D r c) (d : Disk r c)
    (t : FitSettings) (ht : s.settings = some t)
    (hfix : t.vary[2]? = some false ∨ t.vary[0]? = some false ∧ t.vary[1]? = some false) :
    ∃ e, (s.fit o run none d).2.2 = .error e := by
  unfold Fit2D.fit
  simp only
  split
  · exact ⟨_, rfl⟩
  have hkm : s.setupModel.2 = .ok () → ∃ k, s.setupModel.1.kinModel = some k ∧ k.m.params.vary = t.vary := by
    intro hs
    rcases setupModel_cases s with ⟨h1, e⟩ | ⟨t', h1, ⟨x, h2, e⟩ | ⟨k, h2, ⟨x, h3, e⟩ | ⟨h3, ⟨x, h4, e⟩ |
      ⟨f0, h4, e⟩⟩⟩⟩ <;> rw [e] at hs ⊢ <;> try cases hs
    rw [ht] at h1
    cases h1
    refine ⟨_, rfl, ?_⟩
    simp only
    rw [make_params, (KinParams.update_keeps _ _).1]
    rfl
  revert hkm
  generalize s.setupModel = x
  obtain ⟨s1, e⟩ := x
  intro hkm
  cases e with
  | error e => exact ⟨e, rfl⟩
  | ok u =>
    obtain ⟨k, hk, hvk⟩ := hkm rfl
    simp only at hk ⊢
    unfold Fit2D.runMcmc
    cases hr : run s1 with
    | error e => exact ⟨e, rfl⟩
    | ok ch =>
      simp only
      unfold Fit2D.analyze
      simp only [Option.isNone_some, Bool.false_eq_true, if_false]
      obtain ⟨e, he⟩ := chainResults_const o { s1 with sampler := some ch } k hk (by rw [hvk]; exact hfix)
      revert he
      generalize Fit2D.chainResults o { s1 with sampler := some ch } = y
      obtain ⟨y1, y2⟩ := y
      intro he
      simp only at he
      subst he
      exact ⟨e, rfl⟩

/-- the fit object with fixed dispersion can be set up and evaluated -/
noncomputable def oneFixedSigma : Fit2D 1 2 :=
  { oneFit with settings := some ⟨[0, 1, 1, 0, 0], [true, true, false, false, false],
      ["V_a", "r_t", "sigma0", "m0_shift", "z"],
      some [some (.fin 0, .fin 400), some (.fin 0, .fin 5), none, none, none], none⟩ }

example (o : PeakFinder) (run : Fit2D 1 2 → Except PyErr Chain) (d : Disk 1 2) :
    ∃ e, (oneFixedSigma.fit o run none d).2.2 = .error e := C121_false o run _ d _ rfl (.inl rfl)

/-- the rotation velocity of a sample -/
theorem velSample_fin (va rt re : ℝ) (h : rt ≠ 0) :
    velSample (.fin va) (.fin rt) re = .fin (2 / Real.pi * va * Real.arctan (re / rt)) := by
  unfold velSample
  rw [Fl.fin_div_ne _ _ h]
  rfl

/-- the samples can be analysed -/
theorem chainResults_free (o : PeakFinder) (s : Fit2D r c) (k : KinObj r c)
    (hk : s.kinModel = some k) (habs : s.absvalsigma = false) (vs : List Bool)
    (hv : k.m.params.vary = true :: true :: true :: vs)
    (hlen : k.m.params.vary.length = k.m.params.theta.length) (L : Nat) (va rt sg : Fin L → ℝ)
    (rest : List (Fin L → ℝ)) (hrest : rest.length = vs.count true)
    (hs : s.sampler = some ⟨L, (va :: rt :: sg :: rest).map fun col i => .fin (col i)⟩)
    (hdiff : ∀ col ∈ va :: rt :: sg :: rest, ∃ i j, col i ≠ col j) (hrt : ∀ i, rt i ≠ 0)
    (hV : ∀ R ∈ [s.re, 2.2 / 1.676 * s.re],
      ∃ i j, va i * Real.arctan (R / rt i) ≠ va j * Real.arctan (R / rt j))
    (hl : ∀ ls, s.linked = some ls → ∀ l, .inds l ∈ ls → ∀ i ∈ l, i < vs.count true + 7) :
    ∃ res, (s.chainResults o).2 = .ok res ∧ res.best.length = vs.count true + 7 := by
  -- the real columns after appending the derived ones
  obtain ⟨X, hX⟩ : ∃ X : List (Fin L → ℝ), X = (va :: rt :: sg :: rest) ++
      [fun i => 2 / Real.pi * va i * Real.arctan (s.re / rt i),
       fun i => 2 / Real.pi * va i * Real.arctan (2.2 / 1.676 * s.re / rt i), sg, sg] := ⟨_, rfl⟩
  have hXlen : X.length = vs.count true + 7 := by rw [hX]; simp [hrest]
  have hpi : (2 / Real.pi) ≠ 0 := by positivity
  have hXdiff : ∀ col ∈ X, ∃ i j, col i ≠ col j := by
    intro col hc
    rw [hX, List.mem_append] at hc
    rcases hc with hc | hc
    · exact hdiff col hc
    · simp only [List.mem_cons, List.not_mem_nil, or_false] at hc
      have hvel : ∀ R ∈ [s.re, 2.2 / 1.676 * s.re], ∃ i j, 2 / Real.pi * va i * Real.arctan (R / rt i) ≠
          2 / Real.pi * va j * Real.arctan (R / rt j) := by
        intro R hR
        obtain ⟨i, j, h⟩ := hV R hR
        refine ⟨i, j, fun e => h ?_⟩
        rw [mul_assoc, mul_assoc] at e
        exact mul_left_cancel₀ hpi e
      rcases hc with rfl | rfl | rfl | rfl
      · exact hvel s.re (by simp)
      · exact hvel _ (by simp)
      · exact hdiff _ (by simp)
      · exact hdiff _ (by simp)
  have hcols : ∀ Y : List (Fin L → ℝ), mapE colValues (Y.map fun col i => Fl.fin (col i)) =
      .ok (Y.map List.ofFn) := by
    intro Y
    induction Y with
    | nil => rfl
    | cons y ys ih =>
      rw [List.map_cons, mapE, colValues_finite _ y (fun _ => rfl), ih]
      rfl
  obtain ⟨ts, hts⟩ : ∃ a b c ts, k.m.params.theta = a :: b :: c :: ts ∧ vs.length = ts.length := by
    rw [hv] at hlen
    match hth : k.m.params.theta, hlen with
    | a :: b :: c :: ts, h => exact ⟨a, b, c, ts, rfl, by simpa using h⟩
  obtain ⟨b, c', ts, hth, hts⟩ := hts
  obtain ⟨tc, htc, -⟩ := thetaChain_ok ((va :: rt :: sg :: rest).map fun col (i : Fin L) => Fl.fin (col i))
    (ts.map Fl.fin) vs 3 (by simpa using hts) (by simp [hrest]; omega)
  have hadd : ∃ out names, addVRe22 (⟨k.m.params.theta.map Fl.fin, k.m.params.vary, k.names,
      (va :: rt :: sg :: rest).map fun col (i : Fin L) => Fl.fin (col i), s.absvalsigma, s.re⟩ : ChainIn L) =
        .ok (out, names) ∧
      out.flatchain = X.map fun col i => Fl.fin (col i) := by
    unfold addVRe22 absSigma
    simp only [habs, Bool.false_eq_true, if_false]
    rw [hth, hv]
    simp only [List.map_cons, thetaChain, List.getElem?_cons_zero, List.getElem?_cons_succ, Nat.zero_add,
      Nat.reduceAdd]
    simp only [List.map_cons] at htc
    rw [htc]
    refine ⟨_, _, rfl, ?_⟩
    rw [hX]
    simp only [List.map_append, List.map_cons, List.map_nil, List.cons_append, List.cons.injEq, true_and]
    congr 1
    simp only [List.cons.injEq, and_true]
    refine ⟨?_, ?_, ?_, ?_⟩ <;> funext i
    · exact velSample_fin _ _ _ (hrt i)
    · exact velSample_fin _ _ _ (hrt i)
    · simp [sigmaSample]
    · simp [sigmaSample]
  obtain ⟨out, names, e3, e3'⟩ := hadd
  obtain ⟨res, hres⟩ := paramPosterior_ok o (X.map List.ofFn) s.linked names k.m.params.nFree
    (by
      intro col hc
      obtain ⟨x, hx, rfl⟩ := List.mem_map.mp hc
      obtain ⟨i, j, hij⟩ := hXdiff x hx
      exact ⟨x i, List.mem_ofFn.mpr ⟨i, rfl⟩, x j, List.mem_ofFn.mpr ⟨j, rfl⟩, hij⟩)
    (by
      intro ls h1 l h2 i h3
      rw [List.length_map, hXlen]
      exact hl ls h1 l h2 i h3)
  have hchain : (s.chainResults o).2 = .ok res := by
    unfold Fit2D.chainResults
    rw [hk, hs]
    simp only
    rw [e3]
    simp only
    rw [e3', hcols]
    simp only
    rw [hres]
  exact ⟨res, hchain, by rw [(paramPosterior_length o _ _ _ _ _ hres).1, List.length_map, hXlen]⟩

/-- **C121** (partial): with `V_a`, `r_t` and `sigma0` free the analysis produces results if every parameter and every
derived velocity takes at least two different values among the samples and the linked parameters exist.
Missing from the full claim: fixed parameters, see `C121_false`. -/
theorem C121_analysis_partial (o : PeakFinder) (s : Fit2D r c) (d : Disk r c) (k : KinObj r c)
    (hk : s.kinModel = some k) (habs : s.absvalsigma = false) (vs : List Bool)
    (hv : k.m.params.vary = true :: true :: true :: vs)
    (hlen : k.m.params.vary.length = k.m.params.theta.length) (L : Nat) (va rt sg : Fin L → ℝ)
    (rest : List (Fin L → ℝ)) (hrest : rest.length = vs.count true)
    (hs : s.sampler = some ⟨L, (va :: rt :: sg :: rest).map fun col i => .fin (col i)⟩)
    (hdiff : ∀ col ∈ va :: rt :: sg :: rest, ∃ i j, col i ≠ col j) (hrt : ∀ i, rt i ≠ 0)
    (hV : ∀ R ∈ [s.re, 2.2 / 1.676 * s.re],
      ∃ i j, va i * Real.arctan (R / rt i) ≠ va j * Real.arctan (R / rt j))
    (hl : ∀ ls, s.linked = some ls → ∀ l, .inds l ∈ ls → ∀ i ∈ l, i < vs.count true + 7) :
    ∃ res, (s.analyze o d).1.results = some res ∧ res.best.length = vs.count true + 7 := by
  obtain ⟨res, hchain, hlen'⟩ := chainResults_free o s k hk habs vs hv hlen L va rt sg rest hrest hs hdiff hrt hV hl
  obtain ⟨_, _, _, _, _, _, _, _, _, _, h6⟩ := chainResults_inv o s res hchain
  refine ⟨res, ?_, hlen'⟩
  · unfold Fit2D.analyze
    rw [hs]
    simp only [Option.isNone_some, Bool.false_eq_true, if_false]
    have hkeep := (setBestfit_keeps (s.chainResults o).1 res.fitting).2.1
    revert hchain h6 hkeep
    generalize s.chainResults o = y
    obtain ⟨y1, y2⟩ := y
    intro h1 h2 h3
    simp only at h1 h2 h3
    subst h1
    simp only
    rw [h3, h2]

/-- **C121**, exact condition: with `V_a`, `r_t` and `sigma0` free, finite samples with `r_t ≠ 0` and no linked sets, the analysis
of the samples returns exactly if every parameter and both derived velocities take at least two different values. -/
theorem C121_exact (o : PeakFinder) (s : Fit2D r c) (k : KinObj r c)
    (hk : s.kinModel = some k) (habs : s.absvalsigma = false) (vs : List Bool)
    (hv : k.m.params.vary = true :: true :: true :: vs)
    (hlen : k.m.params.vary.length = k.m.params.theta.length) (L : Nat) (va rt sg : Fin L → ℝ)
    (rest : List (Fin L → ℝ)) (hrest : rest.length = vs.count true)
    (hs : s.sampler = some ⟨L, (va :: rt :: sg :: rest).map fun col i => .fin (col i)⟩)
    (hrt : ∀ i, rt i ≠ 0) (hl : s.linked = none) :
    (∃ res, (s.chainResults o).2 = .ok res) ↔
      (∀ col ∈ va :: rt :: sg :: rest, ∃ i j, col i ≠ col j) ∧
      ∀ R ∈ [s.re, 2.2 / 1.676 * s.re], ∃ i j, va i * Real.arctan (R / rt i) ≠ va j * Real.arctan (R / rt j) := by
  constructor
  · rintro ⟨res, hr⟩
    obtain ⟨k', ch, out, names, cols, e1, e2, e3, e4, e5, e6⟩ := chainResults_inv o s res hr
    rw [hk] at e1
    cases e1
    rw [hs] at e2
    cases e2
    have hconst : ∀ c ∈ out.flatchain, ¬ ∃ t, ∀ i, c i = t := by
      rintro c hc ⟨t, ht⟩
      obtain ⟨e, he⟩ := paramPosterior_const o _ _ c hc t ht e4 s.linked names k.m.params.nFree
      rw [e5] at he
      cases he
    obtain ⟨fc, va', rt', sg', rest', f1, f2, f3, f4⟩ := addVRe22_inv _ _ _ e3
    unfold absSigma at f1
    simp only [habs, Bool.false_eq_true, if_false] at f1 f2 f3
    cases f1
    obtain ⟨a, b, c', ts, hth⟩ : ∃ a b c ts, k.m.params.theta = a :: b :: c :: ts := by
      rw [hv] at hlen
      match hth : k.m.params.theta, hlen with
      | a :: b :: c :: ts, h => exact ⟨a, b, c, ts, rfl⟩
    rw [hth, hv] at f2
    simp only [List.map_cons, thetaChain, List.getElem?_cons_zero, List.getElem?_cons_succ, Nat.zero_add,
      Nat.reduceAdd] at f2
    have hva : va' = (fun i => Fl.fin (va i)) ∧ rt' = fun i => Fl.fin (rt i) := by
      split at f2
      · cases f2
      · rename_i x hx
        split at hx
        · cases hx
        · rename_i y hy
          split at hy
          · cases hy
          · cases hy
            cases hx
            cases f2
            exact ⟨rfl, rfl⟩
    obtain ⟨rfl, rfl⟩ := hva
    constructor
    · intro col hcol
      by_contra hno
      push Not at hno
      by_cases hL : Nonempty (Fin L)
      · obtain ⟨i0⟩ := hL
        refine hconst (fun i => .fin (col i)) ?_ ⟨.fin (col i0), fun i => by rw [hno i i0]⟩
        rw [f3]
        exact List.mem_append_left _ (List.mem_map.2 ⟨col, hcol, rfl⟩)
      · refine hconst (fun i => .fin (col i)) ?_ ⟨.nan, fun i => absurd ⟨i⟩ hL⟩
        rw [f3]
        exact List.mem_append_left _ (List.mem_map.2 ⟨col, hcol, rfl⟩)
    · intro R hR
      by_contra hno
      push Not at hno
      have hmem : (fun i => velSample (.fin (va i)) (.fin (rt i)) R) ∈ out.flatchain := by
        rw [f3]
        refine List.mem_append_right _ ?_
        simp only [List.mem_cons, List.not_mem_nil, or_false] at hR
        rcases hR with rfl | rfl <;> simp [derivedCols]
      by_cases hL : Nonempty (Fin L)
      · obtain ⟨i0⟩ := hL
        refine hconst _ hmem ⟨velSample (.fin (va i0)) (.fin (rt i0)) R, fun i => ?_⟩
        rw [velSample_fin _ _ _ (hrt i), velSample_fin _ _ _ (hrt i0), mul_assoc, mul_assoc, hno i i0]
      · exact hconst _ hmem ⟨.nan, fun i => absurd ⟨i⟩ hL⟩
  · rintro ⟨h1, h2⟩
    obtain ⟨res, h, -⟩ := chainResults_free o s k hk habs vs hv hlen L va rt sg rest hrest hs h1 hrt h2
      (fun ls h => by rw [hl] at h; cases h)
    exact ⟨res, h⟩

/-- a peak search that always ends at 1 -/
def peakOne : PeakFinder := ⟨fun _ _ => 1, fun _ l => l⟩

/-- three samples of `V_a`, `r_t` and `sigma0` -/
noncomputable def oneVa : Fin 3 → ℝ := ![100, 200, 100]
noncomputable def oneRt : Fin 3 → ℝ := ![1, 1, 2]
noncomputable def oneSg : Fin 3 → ℝ := ![50, 60, 50]

/-- a run of the sampler that returns them -/
noncomputable def oneRun : Fit2D 1 2 → Except PyErr Chain := fun _ =>
  .ok ⟨3, [oneVa, oneRt, oneSg].map fun col i => .fin (col i)⟩

theorem peakOne_column (col : List ℝ) (x : (ℝ × ℝ) × (ℝ × ℝ) × ℝ) (h2 : columnStats peakOne col = .ok x) : x.2.2 = 1 := by
  unfold columnStats kdePeak at h2
  split at h2
  · cases h2
  · split at h2
    · cases h2
    · split at h2
      · cases h2
      · split at h2
        · cases h2
        · rename_i p hp
          have h3 := congrArg (fun x => x.2.2) (Except.ok.inj h2)
          split at hp
          · cases hp
          · cases hp; exact h3.symm

theorem writeLinked_one {n : Nat} (lims : Fin n → ℝ × ℝ) : ∀ (ps : List (Fin n × ℝ)) (best : Fin n → ℝ) (err : Fin n → ℝ × ℝ),
    (∀ p, best p = 1) → (∀ q ∈ ps, q.2 = 1) → ∀ p, (writeLinked lims best err ps).1 p = 1
  | [], best, err, h, _ => h
  | (q, v) :: ps, best, err, h, hp => by
      rw [writeLinked]
      refine writeLinked_one lims ps _ _ (fun p => ?_) (fun q hq => hp q (List.mem_cons_of_mem _ hq))
      by_cases e : p = q
      · subst e
        rw [Function.update_self]
        exact hp (p, v) List.mem_cons_self
      · rw [Function.update_of_ne e]
        exact h p

theorem linkedLoop_one {n : Nat} (lims2 : Fin n → ℝ × ℝ) : ∀ (sets : List (LinkSet n)) (cur : Fin n → ℝ × ℝ) (st : Posterior n ℝ),
    (∀ p, st.best p = 1) → ∀ p, (linkedLoop (fun _ start => start) lims2 cur st sets).best p = 1
  | [], cur, st, h => h
  | s :: rest, cur, st, h => by
      rw [linkedLoop]
      refine linkedLoop_one lims2 rest _ _ (writeLinked_one cur _ _ _ h fun q hq => ?_)
      obtain ⟨p, -, hp⟩ := List.mem_map.1 (List.of_mem_zip hq).2
      rw [← hp, h]

theorem peakOne_best (cols : List (List ℝ)) (linked : Option (List RawLink)) (names : List String) (n : Nat) (res : FitResults)
    (h : paramPosterior peakOne cols linked names n = .ok res) : ∀ x ∈ res.best, x = 1 := by
  unfold paramPosterior at h
  cases hst : mapE (columnStats peakOne) cols with
  | error e => rw [hst] at h; cases h
  | ok st =>
    rw [hst] at h
    simp only at h
    obtain ⟨hlen, hspec⟩ := mapE_spec _ _ _ hst
    have hpeak : ∀ p : Fin st.length, st[p].2.2 = 1 := by
      intro p
      obtain ⟨b, h1, h2⟩ := hspec p (cols[(p : ℕ)]'(hlen ▸ p.2)) (List.getElem?_eq_getElem _)
      rw [List.getElem?_eq_getElem p.2] at h1
      have := peakOne_column _ _ h2
      rw [← Option.some.inj h1] at this
      exact this
    split at h
    · cases h
    · rename_i sets hsets
      split at h
      · cases h
      · cases h
        intro x hx
        obtain ⟨p, rfl⟩ := List.mem_ofFn.1 hx
        cases linked with
        | none => exact hpeak p
        | some ls => exact linkedLoop_one _ sets _ _ hpeak p

/-- the fit object with other names and linked parameters -/
noncomputable def oneFitWith (names : List String) (linked : Option (List RawLink)) : Fit2D 1 2 :=
  { oneFit with settings := some ⟨[0, 1, 1, 0, 0], [true, true, true, false, false], names,
      some [some (.fin 0, .fin 400), some (.fin 0, .fin 5), some (.fin 0, .fin 100), none, none], linked⟩ }

/-- **The fit of the single cell model runs to its end.** -/
theorem one_fit_with (pnames : List String) (plinked : Option (List RawLink))
    (hlk : ∀ ls, plinked = some ls → ∀ l, .inds l ∈ ls → ∀ i ∈ l, i < 7) (d : Disk 1 2) :
    ∃ s1 d1, (oneFitWith pnames plinked).fit peakOne oneRun none d = (s1, d1, .ok ()) := by
  have h0 : (oneFitWith pnames plinked).setupModel.2 = .ok () := one_setup_ok
  have hk : (oneFitWith pnames plinked).setupModel.1.kinModel = some ⟨((KinModelState.init [0, 1, 1, 0, 0] [true, true, true, false, false]
    ⟨[0, 1, 1, 0, 0], some ⟨[0, 1], 2⟩, some ⟨[1], 1⟩⟩ false : KinModelState 1 2).make oneInput [0, 1, 1]).1,
    pnames, none⟩ := rfl
  have hok0 : ((KinModelState.init [0, 1, 1, 0, 0] [true, true, true, false, false]
      ⟨[0, 1, 1, 0, 0], some ⟨[0, 1], 2⟩, some ⟨[1], 1⟩⟩ false : KinModelState 1 2).make oneInput [0, 1, 1]).2 =
        .ok () := h0
  have hrest : (oneFitWith pnames plinked).setupModel.1.absvalsigma = false ∧ (oneFitWith pnames plinked).setupModel.1.linked = plinked ∧
      (oneFitWith pnames plinked).setupModel.1.re = 1 ∧ (oneFitWith pnames plinked).setupModel.1.input = oneInput ∧ (oneFitWith pnames plinked).setupModel.1.pstamp = true :=
    ⟨rfl, rfl, rfl, rfl, rfl⟩
  unfold Fit2D.fit
  simp only
  rw [if_neg (by simp [oneFitWith, oneFit, Fl.ltB])]
  revert h0 hk hrest
  generalize (oneFitWith pnames plinked).setupModel = x
  obtain ⟨S, e⟩ := x
  intro h0 hk hrest
  simp only at h0 hk hrest
  subst h0
  obtain ⟨r1, r2, r3, r4, r5⟩ := hrest
  simp only
  unfold Fit2D.runMcmc oneRun
  simp only
  -- the analysis
  have hfree := chainResults_free peakOne
    { S with sampler := some ⟨3, [oneVa, oneRt, oneSg].map fun col i => .fin (col i)⟩ } _ hk r1 [false, false]
    (by simp only [make_params, (KinParams.update_keeps _ _).1]; rfl)
    (by simp only [make_params, (KinParams.update_keeps _ _).1, (KinParams.update_keeps _ _).2.1]; rfl)
    3 oneVa oneRt oneSg [] rfl rfl
    (by
      intro col hc
      simp only [List.mem_cons, List.not_mem_nil, or_false] at hc
      rcases hc with rfl | rfl | rfl
      · exact ⟨0, 1, by norm_num [oneVa]⟩
      · exact ⟨0, 2, show (1 : ℝ) ≠ 2 by norm_num⟩
      · exact ⟨0, 1, by norm_num [oneSg]⟩)
    (by intro i; fin_cases i <;> norm_num [oneRt])
    (by
      intro R hR
      have hpos : 0 < R := by
        simp only [r3, List.mem_cons, List.not_mem_nil, or_false] at hR
        rcases hR with rfl | rfl <;> norm_num
      have hat : 0 < Real.arctan R := Real.arctan_pos.mpr hpos
      refine ⟨0, 1, ?_⟩
      simp only [oneVa, oneRt, Matrix.cons_val_zero, Matrix.cons_val_one, div_one]
      intro h
      nlinarith)
    (by intro ls h; simp only [r2] at h; exact hlk ls h)
  obtain ⟨res, hres, hlen⟩ := hfree
  obtain ⟨k', ch, out, names, cols, e1, e2, e3, e4, e5, e6⟩ := chainResults_inv peakOne _ res hres
  simp only at e1 e5
  rw [hk] at e1
  cases e1
  rw [r2] at e5
  have hb := peakOne_best _ _ _ _ _ e5
  have hfit : res.fitting = [1, 1, 1] := by
    rw [(paramPosterior_length _ _ _ _ _ _ e5).2.2]
    have hn : ((KinModelState.init [0, 1, 1, 0, 0] [true, true, true, false, false]
      ⟨[0, 1, 1, 0, 0], some ⟨[0, 1], 2⟩, some ⟨[1], 1⟩⟩ false : KinModelState 1 2).make oneInput
        [0, 1, 1]).1.params.nFree = 3 := by
      rw [make_params, (KinParams.update_keeps _ _).2.2]; rfl
    simp only [hn]
    have hl7 : res.best.length = 7 := hlen
    match hbe : res.best, hl7 with
    | [a, b, c, _, _, _, _], _ =>
      have h1 := hb a (by rw [hbe]; simp)
      have h2 := hb b (by rw [hbe]; simp)
      have h3 := hb c (by rw [hbe]; simp)
      rw [h1, h2, h3]
      rfl
  unfold Fit2D.analyze
  simp only [Option.isNone_some, Bool.false_eq_true, if_false]
  revert hres e6
  generalize Fit2D.chainResults peakOne _ = y
  obtain ⟨y1, y2⟩ := y
  intro hres e6
  simp only at hres e6
  subst hres
  simp only
  -- the best-fit model
  have hmake := (C85_history oneInput [0, 1, 1] [true, true, true] 0 0
    ⟨[0, 1, 1, 0, 0], some ⟨[0, 1], 2⟩, some ⟨[1], 1⟩⟩ false rfl [0, 1, 1] [] _ _ rfl rfl hok0
    (fun h => absurd h Bool.false_ne_true) [1, 1, 1]).2 oneInput
  have hfirst := one_init_make [1, 1, 1] 1 1 1 rfl one_ne_zero one_ne_zero _ rfl
  have hok : ((KinModelState.init [0, 1, 1, 0, 0] [true, true, true, false, false]
      ⟨[0, 1, 1, 0, 0], some ⟨[0, 1], 2⟩, some ⟨[1], 1⟩⟩ false : KinModelState 1 2).make oneInput [1, 1, 1]).2 =
        .ok () := by
    rw [hfirst, one_make_three 0 1 1 0 false 1 1 1 one_ne_zero one_ne_zero (by norm_num)]
    exact finish_one_ok _ _
  have hset : (y1.setBestfit res.fitting).2 = .ok () := by
    rw [hfit, e6]
    unfold Fit2D.setBestfit Fit2D.makeModel
    simp only [hk, r4]
    have hm := hmake.1.trans hok
    revert hm
    simp only [KinModelState.run, List.foldl_nil, List.cons_append, List.nil_append]
    generalize KinModelState.make _ oneInput [1, 1, 1] = z
    obtain ⟨z1, z2⟩ := z
    intro hm
    simp only at hm
    subst hm
    rfl
  have hst : (y1.setBestfit res.fitting).1.pstamp = true := by
    have : y1.pstamp = true := by rw [e6]; exact r5
    unfold Fit2D.setBestfit Fit2D.makeModel
    cases y1.kinModel with
    | none => exact this
    | some kk =>
      simp only
      generalize kk.m.make y1.input res.fitting = z
      obtain ⟨z1, z2⟩ := z
      cases z2 <;> exact this
  revert hset hst
  generalize y1.setBestfit res.fitting = z
  obtain ⟨z1, z2⟩ := z
  intro hset hst
  simp only at hset hst
  subst hset
  simp only
  have hsv : ∀ D, (z1.save D).2 = .ok () := by
    intro D
    unfold Fit2D.save
    rw [if_pos hst]
  exact ⟨_, _, Prod.ext rfl (Prod.ext rfl (hsv _))⟩

theorem one_fit_ok (d : Disk 1 2) : ∃ s1 d1, oneFit.fit peakOne oneRun none d = (s1, d1, .ok ()) :=
  one_fit_with ["V_a", "r_t", "sigma0", "m0_shift", "z"] none (fun _ h => by cases h) d

/-- the hypotheses of C119 are met: the samples of this fit are reloaded by a copy of the object -/
example (d : Disk 1 2) : ∃ s1 d1 s2 res, oneFit.fit peakOne oneRun none d = (s1, d1, .ok ()) ∧
    oneFit.reloadResults peakOne d1 = (s2, .ok ()) ∧ s1.results = some res ∧ s2.results = some res := by
  obtain ⟨s1, d1, h⟩ := one_fit_ok d
  obtain ⟨s2, h1, h2, _, res, h4⟩ := C119_reload_partial peakOne oneRun oneFit s1 d d1 rfl h oneFit rfl rfl rfl rfl rfl
    rfl rfl rfl rfl
  exact ⟨s1, d1, s2, res, h, h1, h4, h2.trans h4⟩

/-- the end of a fit that returns -/
theorem fit_analyzed (o : PeakFinder) (run : Fit2D r c → Except PyErr Chain) (s s1 : Fit2D r c) (d d1 : Disk r c)
    (h : s.fit o run none d = (s1, d1, .ok ())) :
    ∃ (sb : Fit2D r c) (db : Disk r c), sb.analyze o db = (s1, .ok ()) ∧ s.setupModel.2 = .ok () ∧ sb.linked = s.setupModel.1.linked ∧
      sb.absvalsigma = s.setupModel.1.absvalsigma := by
  unfold Fit2D.fit at h
  simp only at h
  split at h
  · cases h
  revert h
  generalize s.setupModel = x
  obtain ⟨a, e⟩ := x
  intro h
  cases e with
  | error e => cases h
  | ok u =>
    simp only at h ⊢
    unfold Fit2D.runMcmc at h
    cases hr : run a with
    | error e => rw [hr] at h; cases h
    | ok ch =>
      rw [hr] at h
      simp only at h
      refine ⟨{ a with sampler := some ch }, if a.sampleFile then { d with samples := some ch } else d, ?_, ?_⟩
      · revert h
        generalize Fit2D.analyze o { a with sampler := some ch }
          (if a.sampleFile then { d with samples := some ch } else d) = y
        obtain ⟨y1, y2⟩ := y
        intro h
        cases y2 with
        | error e => cases h
        | ok u =>
          simp only [Prod.mk.injEq] at h
          rw [h.1]
      · exact ⟨trivial, rfl, rfl⟩

/-- reloading with the object that ran this fit gives eleven best-fit values for seven names -/
example (d : Disk 1 2) : ∃ s1 d1 r1 r2, oneFit.fit peakOne oneRun none d = (s1, d1, .ok ()) ∧ s1.results = some r1 ∧
    (s1.reloadResults peakOne d1).1.results = some r2 ∧ r2.best.length = r1.best.length + 4 ∧ r2.names = r1.names := by
  obtain ⟨s1, d1, h⟩ := one_fit_ok d
  obtain ⟨sb, db, h1, _, h2, h3⟩ := fit_analyzed _ _ _ _ _ _ h
  obtain ⟨r1, r2, e1, e2, e3, e4, e5, e6⟩ := C119_false peakOne sb s1 db d1 h1 (h2.trans rfl) (h3.trans rfl)
  refine ⟨s1, d1, r1, r2, h, e1, e2, ?_, e3⟩
  rw [e6, List.length_append, List.length_drop]
  omega

/-- the hypotheses of C118 are met -/
example : ∃ p, oneFit.setupModel.1.prior = some p ∧ p.logp [.fin 100, .fin 1, .fin 50] = .ok 0 ∧
    p.logp [.fin 100, .fin 7, .fin 50] = .ok .ninf := by
  obtain ⟨p, h1, h2⟩ := C118_new_partial oneFit _ rfl rfl one_setup_ok
  refine ⟨p, h1, ?_, ?_⟩
  · rw [h2]; norm_num [FitSettings.flatValue, logPrior, priorStatements, between, Fl.leB]
  · rw [h2]; norm_num [FitSettings.flatValue, logPrior, priorStatements, between, Fl.leB]

/-- the hypotheses of C120 are met: the best-fit model stored by the example stays after an evaluation elsewhere -/
example (o : PeakFinder) (d : Disk 1 2) : ∃ s2, oneFit.setupModel.1.setBestfit [1, 1, 1] = (s2, .ok ()) ∧
    ∃ k b, (Fit2D.runCalls o (s2, d) [.make [100, 2, 60], .save, .update [3]]).1.kinModel = some k ∧
      k.bestfit = some b ∧ b.params.theta = [1, 1, 1, 0, 0] := by
  have hok0 : ((KinModelState.init [0, 1, 1, 0, 0] [true, true, true, false, false]
      ⟨[0, 1, 1, 0, 0], some ⟨[0, 1], 2⟩, some ⟨[1], 1⟩⟩ false : KinModelState 1 2).make oneInput [0, 1, 1]).2 =
        .ok () := one_setup_ok
  have hmake := (C85_history oneInput [0, 1, 1] [true, true, true] 0 0
    ⟨[0, 1, 1, 0, 0], some ⟨[0, 1], 2⟩, some ⟨[1], 1⟩⟩ false rfl [0, 1, 1] [] _ _ rfl rfl hok0
    (fun h => absurd h Bool.false_ne_true) [1, 1, 1]).2 oneInput
  have hfirst := one_init_make [1, 1, 1] 1 1 1 rfl one_ne_zero one_ne_zero _ rfl
  have hok : ((KinModelState.init [0, 1, 1, 0, 0] [true, true, true, false, false]
      ⟨[0, 1, 1, 0, 0], some ⟨[0, 1], 2⟩, some ⟨[1], 1⟩⟩ false : KinModelState 1 2).make oneInput [1, 1, 1]).2 =
        .ok () := by
    rw [hfirst, one_make_three 0 1 1 0 false 1 1 1 one_ne_zero one_ne_zero (by norm_num)]
    exact finish_one_ok _ _
  have hset : (oneFit.setupModel.1.setBestfit [1, 1, 1]).2 = .ok () := by
    have hm := hmake.1.trans hok
    have e : oneFit.setupModel.1.makeModel [1, 1, 1] = ({ oneFit.setupModel.1 with
        kinProfile := (KinModelState.make (((KinModelState.init [0, 1, 1, 0, 0] [true, true, true, false, false]
          ⟨[0, 1, 1, 0, 0], some ⟨[0, 1], 2⟩, some ⟨[1], 1⟩⟩ false : KinModelState 1 2).make oneInput
            [0, 1, 1]).1) oneInput [1, 1, 1]).1.kin,
        kinModel := some ⟨(KinModelState.make (((KinModelState.init [0, 1, 1, 0, 0] [true, true, true, false, false]
          ⟨[0, 1, 1, 0, 0], some ⟨[0, 1], 2⟩, some ⟨[1], 1⟩⟩ false : KinModelState 1 2).make oneInput
            [0, 1, 1]).1) oneInput [1, 1, 1]).1, ["V_a", "r_t", "sigma0", "m0_shift", "z"], none⟩ },
        (KinModelState.make (((KinModelState.init [0, 1, 1, 0, 0] [true, true, true, false, false]
          ⟨[0, 1, 1, 0, 0], some ⟨[0, 1], 2⟩, some ⟨[1], 1⟩⟩ false : KinModelState 1 2).make oneInput
            [0, 1, 1]).1) oneInput [1, 1, 1]).2) := rfl
    unfold Fit2D.setBestfit
    rw [e, show (KinModelState.make (((KinModelState.init [0, 1, 1, 0, 0] [true, true, true, false, false]
          ⟨[0, 1, 1, 0, 0], some ⟨[0, 1], 2⟩, some ⟨[1], 1⟩⟩ false : KinModelState 1 2).make oneInput
            [0, 1, 1]).1) oneInput [1, 1, 1]).2 = .ok () from hm]
  refine ⟨_, Prod.ext rfl hset, ?_⟩
  obtain ⟨k, b, kin, -, h1, h2, h3, h4, h5⟩ := C120_bestfit o oneFit [0, 1, 1] [true, true, true] 0 0 _ rfl rfl rfl rfl
    one_setup_ok d d [] [.make [100, 2, 60], .save, .update [3]] (by simp)
    (by intro call hc; simp only [List.mem_cons, List.not_mem_nil, or_false] at hc; rcases hc with rfl | rfl | rfl <;> rfl)
    (fun h => absurd h Bool.false_ne_true) [1, 1, 1] _ (Prod.ext rfl hset)
  refine ⟨k, b, h1, h2, ?_⟩
  rw [h4, make_params]
  rfl

/-! ## C122: the saved fit -/

/-- **C122** (partial): a saved fit is restored by `reload_bestfit_model` of any fit object: data, settings, options,
prior, linked parameters and results.  Missing from the full claim: the restored object can be used like the original, see
`C122_false`. -/
theorem C122_reload_partial (s s' : Fit2D r c) (d d1 : Disk r c) (hf : s.modelFile = true) (hf' : s'.modelFile = true)
    (h : s.save d = (d1, .ok ())) :
    ∃ s2, s'.reloadBestfit d1 = (s2, .ok ()) ∧ s2.input = s.input ∧ s2.settings = s.settings ∧
      s2.resolution = s.resolution ∧ s2.re = s.re ∧ s2.absvalsigma = s.absvalsigma ∧ s2.prior = s.prior ∧
      s2.linked = s.linked ∧ s2.results = s.results ∧ s2.kinProfile = s.kinProfile := by
  unfold Fit2D.save at h
  split at h
  · cases h
    unfold Fit2D.reloadBestfit
    rw [if_pos hf']
    exact ⟨_, rfl, rfl, rfl, rfl, rfl, rfl, rfl, rfl, rfl, rfl⟩
  · cases h

/-- **C122**, negation: a new fit object into which a saved fit has been loaded cannot be saved, and `fit` never returns
normally, for every run of the sampler. -/
theorem C122_false (s s' s2 : Fit2D r c) (d d1 : Disk r c) (hf : s.modelFile = true) (hf' : s'.modelFile = true)
    (hnew : s'.kinModel = none) (h : s.save d = (d1, .ok ())) (h2 : s'.reloadBestfit d1 = (s2, .ok ())) :
    (∀ d2, s2.save d2 = (d2, .error .attributeError)) ∧
    ∀ o run d2, ∃ e, (s2.fit o run none d2).2.2 = .error e := by
  have hp : s2.pstamp = false ∧ s2.kinModel = none := by
    unfold Fit2D.save at h
    split at h
    · cases h
      unfold Fit2D.reloadBestfit at h2
      rw [if_pos hf'] at h2
      cases h2
      exact ⟨rfl, hnew⟩
    · cases h
  have hsave : ∀ x : Fit2D r c, x.pstamp = false → ∀ d2, x.save d2 = (d2, .error .attributeError) := by
    intro x hx d2
    unfold Fit2D.save
    rw [hx]
    rfl
  refine ⟨hsave s2 hp.1, fun o run d2 => ?_⟩
  cases hr : (s2.fit o run none d2).2.2 with
  | error e => exact ⟨e, rfl⟩
  | ok u =>
    exfalso
    have hinv := ((FitInv.refl s2 hp.2).fit o run d2).pstamp
    revert hr hinv
    unfold Fit2D.fit
    simp only
    split
    · intro hr; cases hr
    generalize s2.setupModel = x
    obtain ⟨s3, e⟩ := x
    cases e with
    | error e => intro hr; cases hr
    | ok u =>
      simp only
      generalize s3.runMcmc run d2 = y
      obtain ⟨s4, d4, e⟩ := y
      cases e with
      | error e => intro hr; cases hr
      | ok u =>
        simp only
        generalize s4.analyze o d4 = z
        obtain ⟨s5, e⟩ := z
        cases e with
        | error e => intro hr; cases hr
        | ok u =>
          simp only
          intro hr hinv
          rw [hsave s5 (hinv.trans hp.1)] at hr
          cases hr

/-- the hypotheses are met: the new object of the example is saved and loaded into a copy -/
example (d : Disk 1 2) : ∃ d1 s2, oneFit.save d = (d1, .ok ()) ∧ oneFit.reloadBestfit d1 = (s2, .ok ()) ∧
    ∀ d2, s2.save d2 = (d2, .error .attributeError) := by
  refine ⟨_, _, rfl, rfl, ?_⟩
  exact (C122_false oneFit oneFit _ d _ rfl rfl rfl rfl rfl).1

/-! ## C123: results of several fits -/

/-- which fits were created with their own results object -/
def ownFlags : List WorldOp → List Bool
  | [] => []
  | .create own :: ops => own :: ownFlags ops
  | .analyze _ _ :: ops => ownFlags ops

/-- every analysis is one of a fit created before -/
def ValidOps (ops : List WorldOp) : Prop :=
  ∀ pre i res post, ops = pre ++ .analyze i res :: post → i < (ownFlags pre).length

/-- Specification: the results of the last analysis of one of the fits chosen by `P`. -/
def lastResults (P : Nat → Bool) : List WorldOp → Option FitResults
  | [] => none
  | .create _ :: ops => lastResults P ops
  | .analyze i res :: ops => (lastResults P ops).or (if P i then some res else none)

theorem ownFlags_append (a b : List WorldOp) : ownFlags (a ++ b) = ownFlags a ++ ownFlags b := by
  induction a with
  | nil => rfl
  | cons x xs ih => cases x <;> simp [ownFlags, ih]

theorem lastResults_append (P : Nat → Bool) (a b : List WorldOp) :
    lastResults P (a ++ b) = (lastResults P b).or (lastResults P a) := by
  induction a with
  | nil => simp [lastResults]
  | cons x xs ih =>
    cases x with
    | create own => exact ih
    | analyze i res => simp only [List.cons_append, lastResults, ih, Option.or_assoc]

theorem lastResults_congr (P Q : Nat → Bool) (n : Nat) (h : ∀ j < n, P j = Q j) : ∀ ops : List WorldOp,
    (∀ i res, .analyze i res ∈ ops → i < n) → lastResults P ops = lastResults Q ops := by
  intro ops
  induction ops with
  | nil => intro _; rfl
  | cons x xs ih =>
    intro hx
    have ih' := ih fun i res hi => hx i res (List.mem_cons_of_mem _ hi)
    cases x with
    | create own => exact ih'
    | analyze i res => simp only [lastResults, ih', h i (hx i res List.mem_cons_self)]

theorem lastResults_false : ∀ ops : List WorldOp, lastResults (fun _ => false) ops = none := by
  intro ops
  induction ops with
  | nil => rfl
  | cons x xs ih => cases x <;> simp [lastResults, ih]

theorem ValidOps.prefix {ops : List WorldOp} {x : WorldOp} (h : ValidOps (ops ++ [x])) : ValidOps ops :=
  fun pre i res post e => h pre i res (post ++ [x]) (by rw [e]; simp)

theorem ValidOps.bound {ops : List WorldOp} (h : ValidOps ops) (i : Nat) (res : FitResults)
    (hi : .analyze i res ∈ ops) : i < (ownFlags ops).length := by
  obtain ⟨pre, post, e⟩ := List.append_of_mem hi
  have := h pre i res post e
  rw [e, ownFlags_append, List.length_append]
  omega

/-- objects of a session: the default one is 0, own ones are new and belong to one fit -/
structure FitWorld.Good (ops : List WorldOp) (w : FitWorld) : Prop where
  len : w.refs.length = (ownFlags ops).length
  dflt : ∀ i : Nat, (ownFlags ops)[i]? = some false → w.refs[i]? = some 0
  own : ∀ i : Nat, (ownFlags ops)[i]? = some true → ∃ p, w.refs[i]? = some p ∧ 0 < p ∧ p < w.next ∧
    w.heap p = lastResults (· == i) ops ∧ ∀ j : Nat, w.refs[j]? = some p → j = i
  pos : 0 < w.next
  fresh : ∀ p, w.next ≤ p → w.heap p = none
  zero : w.heap 0 = lastResults (fun j => (ownFlags ops)[j]? == some false) ops

theorem FitWorld.good : ∀ ops : List WorldOp, ValidOps ops → FitWorld.Good ops (FitWorld.start.run ops) := by
  intro ops
  induction ops using List.reverseRecOn with
  | nil =>
    intro _
    exact ⟨rfl, fun i h => by simp [ownFlags] at h, fun i h => by simp [ownFlags] at h, Nat.one_pos,
      fun _ _ => rfl, rfl⟩
  | append_singleton ops x ih =>
    intro hv
    have g := ih hv.prefix
    have hb := hv.prefix.bound
    have hrun : FitWorld.start.run (ops ++ [x]) = (FitWorld.start.run ops).step x := by
      simp [FitWorld.run]
    rw [hrun]
    revert g
    generalize FitWorld.start.run ops = w
    intro g
    have hsmall : ∀ j p : Nat, w.refs[j]? = some p → p < w.next := by
      intro j p hj
      have hjl : j < w.refs.length := (List.getElem?_eq_some_iff.mp hj).1
      rw [g.len] at hjl
      cases hf : (ownFlags ops)[j] with
      | true =>
        obtain ⟨q, h1, _, h3, _⟩ := g.own j (by rw [List.getElem?_eq_getElem hjl, hf])
        rw [hj] at h1; cases h1; exact h3
      | false =>
        have h1 := g.dflt j (by rw [List.getElem?_eq_getElem hjl, hf])
        rw [hj] at h1; cases h1; exact g.pos
    cases x with
    | create own =>
      have hflags : ownFlags (ops ++ [.create own]) = ownFlags ops ++ [own] := by rw [ownFlags_append]; rfl
      have hlast : ∀ P, lastResults P (ops ++ [.create own]) = lastResults P ops := by
        intro P; rw [lastResults_append]; rfl
      have hzero : w.heap 0 = lastResults (fun j => (ownFlags (ops ++ [.create own]))[j]? == some false)
          (ops ++ [.create own]) := by
        rw [hlast, g.zero]
        apply lastResults_congr _ _ _ _ ops hb
        intro j hj
        rw [hflags, List.getElem?_append_left hj]
      have hnone : ∀ i, (ownFlags ops).length ≤ i → lastResults (· == i) ops = none := by
        intro i hi
        have : lastResults (· == i) ops = lastResults (fun _ => false) ops :=
          lastResults_congr _ _ _ (fun j hj => by simp; omega) ops hb
        rw [this, lastResults_false]
      cases own with
      | true =>
        refine ⟨by simp [FitWorld.step, hflags, g.len], ?_, ?_, ?_, ?_, hzero⟩
        · intro i hi
          rw [hflags] at hi
          rcases lt_or_ge i (ownFlags ops).length with h | h
          · rw [List.getElem?_append_left h] at hi
            have := g.dflt i hi
            simp only [FitWorld.step]
            rw [List.getElem?_append_left (by rw [g.len]; exact h)]
            exact this
          · rw [List.getElem?_append_right h] at hi
            rcases Nat.eq_zero_or_pos (i - (ownFlags ops).length) with h0 | h0
            · rw [h0] at hi; simp at hi
            · rw [List.getElem?_eq_none (by simp; omega)] at hi; cases hi
        · intro i hi
          rw [hflags] at hi
          simp only [FitWorld.step, hlast]
          rcases lt_or_ge i (ownFlags ops).length with h | h
          · rw [List.getElem?_append_left h] at hi
            obtain ⟨p, h1, h2, h3, h4, h5⟩ := g.own i hi
            refine ⟨p, by rw [List.getElem?_append_left (by rw [g.len]; exact h)]; exact h1, h2, by omega, h4, ?_⟩
            intro j hj
            rcases lt_or_ge j w.refs.length with hjl | hjl
            · rw [List.getElem?_append_left hjl] at hj
              exact h5 j hj
            · rw [List.getElem?_append_right hjl] at hj
              rcases Nat.eq_zero_or_pos (j - w.refs.length) with h0 | h0
              · rw [h0] at hj
                simp at hj
                omega
              · rw [List.getElem?_eq_none (by simp; omega)] at hj; cases hj
          · rw [List.getElem?_append_right h] at hi
            have hieq : i = (ownFlags ops).length := by
              rcases Nat.eq_zero_or_pos (i - (ownFlags ops).length) with h0 | h0
              · omega
              · rw [List.getElem?_eq_none (by simp; omega)] at hi; cases hi
            refine ⟨w.next, ?_, g.pos, by omega, ?_, ?_⟩
            · rw [hieq, ← g.len, List.getElem?_append_right (le_refl _)]; simp
            · rw [g.fresh _ (le_refl _), hnone i h]
            · intro j hj
              rcases lt_or_ge j w.refs.length with hjl | hjl
              · rw [List.getElem?_append_left hjl] at hj
                have := hsmall j _ hj
                omega
              · rw [List.getElem?_append_right hjl] at hj
                rcases Nat.eq_zero_or_pos (j - w.refs.length) with h0 | h0
                · rw [hieq, ← g.len]; omega
                · rw [List.getElem?_eq_none (by simp; omega)] at hj; cases hj
        · simp only [FitWorld.step]; omega
        · intro p hp
          simp only [FitWorld.step] at hp ⊢
          exact g.fresh p (by omega)
      | false =>
        refine ⟨by simp [FitWorld.step, hflags, g.len], ?_, ?_, g.pos, g.fresh, hzero⟩
        · intro i hi
          rw [hflags] at hi
          simp only [FitWorld.step]
          rcases lt_or_ge i (ownFlags ops).length with h | h
          · rw [List.getElem?_append_left h] at hi
            rw [List.getElem?_append_left (by rw [g.len]; exact h)]
            exact g.dflt i hi
          · rw [List.getElem?_append_right h] at hi
            rcases Nat.eq_zero_or_pos (i - (ownFlags ops).length) with h0 | h0
            · rw [List.getElem?_append_right (by rw [g.len]; exact h), g.len, h0]; rfl
            · rw [List.getElem?_eq_none (by simp; omega)] at hi; cases hi
        · intro i hi
          rw [hflags] at hi
          simp only [FitWorld.step, hlast]
          rcases lt_or_ge i (ownFlags ops).length with h | h
          · rw [List.getElem?_append_left h] at hi
            obtain ⟨p, h1, h2, h3, h4, h5⟩ := g.own i hi
            refine ⟨p, by rw [List.getElem?_append_left (by rw [g.len]; exact h)]; exact h1, h2, h3, h4, ?_⟩
            intro j hj
            rcases lt_or_ge j w.refs.length with hjl | hjl
            · rw [List.getElem?_append_left hjl] at hj
              exact h5 j hj
            · rw [List.getElem?_append_right hjl] at hj
              rcases Nat.eq_zero_or_pos (j - w.refs.length) with h0 | h0
              · rw [h0] at hj
                simp at hj
                omega
              · rw [List.getElem?_eq_none (by simp; omega)] at hj; cases hj
          · rw [List.getElem?_append_right h] at hi
            rcases Nat.eq_zero_or_pos (i - (ownFlags ops).length) with h0 | h0
            · rw [h0] at hi; simp at hi
            · rw [List.getElem?_eq_none (by simp; omega)] at hi; cases hi
    | analyze i res =>
      have hflags : ownFlags (ops ++ [.analyze i res]) = ownFlags ops := by rw [ownFlags_append]; simp [ownFlags]
      have hlast : ∀ P : Nat → Bool, lastResults P (ops ++ [.analyze i res]) =
          if P i then some res else lastResults P ops := by
        intro P
        rw [lastResults_append]
        simp only [lastResults, Option.none_or]
        split <;> simp
      have hi : i < (ownFlags ops).length := hv ops i res [] rfl
      obtain ⟨p, hp⟩ : ∃ p, w.refs[i]? = some p := ⟨_, List.getElem?_eq_getElem (by rw [g.len]; exact hi)⟩
      have hstep : w.step (.analyze i res) = { w with heap := Function.update w.heap p (some res) } := by
        simp only [FitWorld.step, hp]
      rw [hstep]
      refine ⟨by rw [hflags]; exact g.len, by rw [hflags]; exact g.dflt, ?_, g.pos, ?_, ?_⟩
      · intro j hj
        rw [hflags] at hj
        obtain ⟨q, h1, h2, h3, h4, h5⟩ := g.own j hj
        refine ⟨q, h1, h2, h3, ?_, h5⟩
        rw [hlast]
        simp only
        by_cases hq : q = p
        · have : i = j := h5 i (hq ▸ hp)
          rw [hq, Function.update_self, this]
          simp
        · have : i ≠ j := by
            rintro rfl
            rw [hp] at h1
            cases h1
            exact hq rfl
          rw [Function.update_of_ne hq, h4]
          simp [this]
      · intro q hq
        have := hsmall i p hp
        simp only at hq ⊢
        rw [Function.update_of_ne (by omega)]
        exact g.fresh q hq
      · rw [hlast, hflags]
        simp only
        cases hf : (ownFlags ops)[i] with
        | true =>
          obtain ⟨q, h1, h2, _⟩ := g.own i (by rw [List.getElem?_eq_getElem hi, hf])
          rw [hp] at h1
          cases h1
          rw [Function.update_of_ne (by omega), g.zero, List.getElem?_eq_getElem hi, hf]
          simp
        | false =>
          have h1 := g.dflt i (by rw [List.getElem?_eq_getElem hi, hf])
          rw [hp] at h1
          cases h1
          rw [Function.update_self, List.getElem?_eq_getElem hi, hf]
          simp

/-- **C123** (partial): whatever fits are created and analysed in a session, the results of a fit created with its own
results object are those of its last analysis.  Missing from the full claim: fits created without
one, whose results are those of the last analysis of any of them, see `C123_false`. -/
theorem C123_own_partial (ops : List WorldOp) (hv : ValidOps ops) (i : Nat) (hi : (ownFlags ops)[i]? = some true) :
    (FitWorld.start.run ops).results i = lastResults (· == i) ops := by
  obtain ⟨p, h1, _, _, h4, _⟩ := (FitWorld.good ops hv).own i hi
  rw [FitWorld.results, h1, Option.bind_some, h4]

/-- **C123**, negation: the results of a fit created with the default results object are those of the last analysis of any
such fit; so with two such fits the results of the first are replaced by those of the second. -/
theorem C123_false :
    (∀ (ops : List WorldOp), ValidOps ops → ∀ i : Nat, (ownFlags ops)[i]? = some false →
      (FitWorld.start.run ops).results i = lastResults (fun j => (ownFlags ops)[j]? == some false) ops) ∧
    ∀ r1 r2 : FitResults, (FitWorld.start.run [.create false, .create false, .analyze 0 r1, .analyze 1 r2]).results 0 =
      some r2 := by
  refine ⟨fun ops hv i hi => ?_, fun r1 r2 => rfl⟩
  rw [FitWorld.results, (FitWorld.good ops hv).dflt i hi, Option.bind_some, (FitWorld.good ops hv).zero]

/-- the hypotheses are met: an own and two default results objects -/
example (r1 r2 r3 : FitResults) :
    (FitWorld.start.run [.create false, .create true, .analyze 1 r1, .create false, .analyze 2 r2,
      .analyze 0 r3]).results 1 = some r1 := by
  refine (C123_own_partial _ ?_ 1 rfl).trans rfl
  intro pre i res post e
  match pre, e with
  | [_, _], e => cases e; simp [ownFlags]
  | [_, _, _, _], e => cases e; simp [ownFlags]
  | [_, _, _, _, _], e => cases e; simp [ownFlags]
  | [], e => cases e
  | [_], e => cases e
  | [_, _, _], e => cases e
  | _ :: _ :: _ :: _ :: _ :: _ :: t, e => simp at e

end Misfit
