import Verif.Lemmas.Saved
import Verif.Props.Workers
import Verif.Props.WholeFit

/-!
# C200, C201: the fit object saved with the samples
-/

namespace Misfit
variable {V : Type*} {r c : Nat}

/-! ## C200: what the saved object says -/

/-- Specification: `f` is the last of the vectors `done` that was evaluated, that is, the last one with the right number `n` of
entries at which the prior is finite. -/
def LastEvaluated (p : PriorObj) (n : Nat) (done : List (List ℝ)) (f : List ℝ) : Prop :=
  ∃ before after, done = before ++ f :: after ∧ (f.length = n ∧ ∃ q, p.logp (f.map Fl.fin) = .ok q ∧ q.isFinite = true) ∧
    ∀ g ∈ after, ¬ (g.length = n ∧ ∃ q, p.logp (g.map Fl.fin) = .ok q ∧ q.isFinite = true)

/-- the object after evaluations -/
theorem evals_state (w : Meaning V r c) (s s' : Fit2D r c) (hs : s.setupModel = (s', .ok ())) (t : FitSettings)
    (ht : s.settings = some t) (hl : t.vary.length = t.theta.length) (a : FitAttrs V)
    (ha : a.read w = .ok s'.input) (x : PrunedFit V r c) (hx : s'.prune w a = .ok x) (done : List (List ℝ)) :
    ∃ sh, (∃ (k : KinProfile) (t : List ℝ) (k' : KinProfile), k.shape = sh ∧ k.updateTheta t = .ok k') ∧
      EvalInv sh t.theta t.vary x.kin ∧ x.kin.params.theta = t.theta ∧
      x.evals done = { x with kin := objEvals x.prior x.kin done } ∧
      ∃ g st, (objEvals x.prior x.kin done).aper = some (g, st) := by
  obtain ⟨t0, k, f0, p, n, ht0, hp, _, hxp, hmk, hkm, hxk, hkk, _⟩ := prune_state w s s' hs a ha x hx
  rw [ht] at ht0
  cases ht0
  obtain ⟨t1, k1, f1, ht1, _, _, hk1, hf1, _, hmk1, hm1⟩ := setup_state s s' hs
  rw [ht] at ht1
  cases ht1
  rw [hkm] at hm1
  have hxk1 : x.kin = ((KinModelState.init t.theta t.vary k1 false).make s.input f1).1 := by
    simpa using congrArg (fun o : Option (KinObj r c) => o.map (·.m)) hm1
  obtain ⟨h1, h2, ⟨s0, h3⟩, h4⟩ := make_inv s.input t.theta t.vary k1 hl f1 hf1 hmk1
  rw [← hxk1] at h1 h2 h3
  refine ⟨k1.shape, h4, h1, h2, (prunedEvals_obj done x hkk).1, ?_⟩
  have keep : ∀ (fits : List (List ℝ)) (m : KinModelState r c), (∃ g st, m.aper = some (g, st)) →
      ∃ g st, (objEvals x.prior m fits).aper = some (g, st) := by
    intro fits
    induction fits with
    | nil => exact fun m h => h
    | cons f fits ih =>
      intro m hm
      refine ih (objLnprob x.prior m f).1 ?_
      rcases objLnprob_state x.prior m f with e | ⟨e, _⟩
      · rw [e]; exact hm
      · rw [e]
        obtain ⟨g, st, hg⟩ := hm
        unfold KinModelState.update
        rcases m.params.update f with ⟨p', _ | e'⟩
        · simp only [hg]
          exact ⟨g, _, (evalExisting_keeps _ g st).2.2.1⟩
        · exact ⟨g, st, hg⟩
  exact keep done x.kin ⟨_, s0, h3⟩

/-- **C200** Saving succeeds, whatever was evaluated before, exactly if the fit is passed and has its three options; without the fit it is an
AttributeError, without an option a KeyError. -/
theorem C200_exact (w : Meaning V r c) (s s' : Fit2D r c) (hs : s.setupModel = (s', .ok ())) (t : FitSettings)
    (ht : s.settings = some t) (hl : t.vary.length = t.theta.length) (a : FitAttrs V)
    (ha : a.read w = .ok s'.input) (x : PrunedFit V r c) (hx : s'.prune w a = .ok x) (done : List (List ℝ))
    (fit : Option (Attrs V)) :
    ((∃ y, saveFit (x.evals done) fit = .ok y) ↔ ∃ d, fit = some d ∧ (∃ v, d "mcmcOptions" = some v) ∧
      (∃ v, d "kinModelOptions" = some v) ∧ ∃ v, d "thetaSettings" = some v) ∧
    (fit = none → saveFit (x.evals done) fit = .error .attributeError) ∧
    (∀ d, fit = some d → (d "mcmcOptions" = none ∨ d "kinModelOptions" = none ∨ d "thetaSettings" = none) →
      saveFit (x.evals done) fit = .error .keyError) := by
  obtain ⟨sh, _, _, _, he, g, st, hap⟩ := evals_state w s s' hs t ht hl a ha x hx done
  rw [he]
  unfold saveFit
  simp only [hap]
  cases fit with
  | none => exact ⟨⟨fun ⟨y, h⟩ => (by cases h), fun ⟨d, h, _⟩ => (by cases h)⟩, fun _ => rfl, fun d h => (by cases h)⟩
  | some d =>
    simp only
    rcases copyKeys_cases d savedOptions with ⟨h1, h2⟩ | ⟨⟨k, hk, hk'⟩, h2⟩
    · rw [h2]
      have hall : (∃ v, d "mcmcOptions" = some v) ∧ (∃ v, d "kinModelOptions" = some v) ∧ ∃ v, d "thetaSettings" = some v :=
        ⟨Option.isSome_iff_exists.1 (h1 _ (by decide)), Option.isSome_iff_exists.1 (h1 _ (by decide)),
          Option.isSome_iff_exists.1 (h1 _ (by decide))⟩
      refine ⟨⟨fun _ => ⟨d, rfl, hall⟩, fun _ => ⟨_, rfl⟩⟩, fun h => (by cases h), fun d' hd' h => ?_⟩
      cases hd'
      obtain ⟨⟨v1, e1⟩, ⟨v2, e2⟩, ⟨v3, e3⟩⟩ := hall
      rw [e1, e2, e3] at h
      simp at h
    · rw [h2]
      refine ⟨⟨fun ⟨y, h⟩ => (by cases h), fun ⟨d', h, h3, h4, h5⟩ => ?_⟩, fun h => (by cases h), fun _ _ _ => rfl⟩
      cases h
      exfalso
      have : k = "mcmcOptions" ∨ k = "kinModelOptions" ∨ k = "thetaSettings" := by simpa [savedOptions] using hk
      rcases this with rfl | rfl | rfl
      · obtain ⟨v, hv⟩ := h3; rw [hv] at hk'; cases hk'
      · obtain ⟨v, hv⟩ := h4; rw [hv] at hk'; cases hk'
      · obtain ⟨v, hv⟩ := h5; rw [hv] at hk'; cases hk'

/-- **C200** The attributes of galaxy, spectrum and instrument in the saved object have the values they had in the fit when
sampling began, and as a whole they are the input of the model; the options are those of the fit when it was saved; the prior has
the same value as that of the fit at every vector. -/
theorem C200_values (w : Meaning V r c) (s s' : Fit2D r c) (hs : s.setupModel = (s', .ok ())) (t : FitSettings)
    (ht : s.settings = some t) (hl : t.vary.length = t.theta.length) (a : FitAttrs V)
    (ha : a.read w = .ok s'.input) (x : PrunedFit V r c) (hx : s'.prune w a = .ok x) (done : List (List ℝ))
    (d : Attrs V) (y : KeptFit V r c) (hy : saveFit (x.evals done) (some d) = .ok y) :
    (∀ k v, y.attrs.galaxy k = some v → a.galaxy k = some v) ∧
    (∃ sp sp', a.spec2D = some sp ∧ y.attrs.spec2D = some sp' ∧ ∀ k v, sp' k = some v → sp k = some v) ∧
    (∀ k v, y.attrs.instrument k = some v → a.instrument k = some v) ∧ y.attrs.read w = .ok s'.input ∧
    (y.options "mcmcOptions" = d "mcmcOptions" ∧ y.options "kinModelOptions" = d "kinModelOptions" ∧
      y.options "thetaSettings" = d "thetaSettings") ∧
    ∃ p, s'.prior = some p ∧ ∀ fit, y.prior.logp fit = p.logp fit := by
  obtain ⟨h1, h2, h3, h4⟩ := C193_values w s s' hs a ha x hx
  obtain ⟨t0, k, f0, p, n, _, hp, _, hxp, _⟩ := prune_state w s s' hs a ha x hx
  obtain ⟨sh, _, _, _, he, g, st, hap⟩ := evals_state w s s' hs t ht hl a ha x hx done
  rw [he] at hy
  unfold saveFit at hy
  simp only [hap] at hy
  rcases copyKeys_cases d savedOptions with ⟨_, e2⟩ | ⟨_, e2⟩
  · rw [e2] at hy
    cases hy
    exact ⟨h1, h2, h3, h4, ⟨rfl, rfl, rfl⟩, p, hp, fun fit => by rw [hxp]; rfl⟩
  · rw [e2] at hy
    cases hy

/-- **C200** The parameters of the saved object, and those of its kinematic profile, are the ones of the settings with the vector last
evaluated; those of the settings if none was.  They are not those of the best sample. -/
theorem C200_parameters (w : Meaning V r c) (s s' : Fit2D r c) (hs : s.setupModel = (s', .ok ())) (t : FitSettings)
    (ht : s.settings = some t) (hl : t.vary.length = t.theta.length) (a : FitAttrs V)
    (ha : a.read w = .ok s'.input) (x : PrunedFit V r c) (hx : s'.prune w a = .ok x) (done : List (List ℝ))
    (fit : Option (Attrs V)) (y : KeptFit V r c) (hy : saveFit (x.evals done) fit = .ok y) :
    (∀ f, LastEvaluated y.prior (t.vary.count true) done f → IsUnpack t.theta t.vary f y.kin.params.theta) ∧
    ((¬ ∃ f, LastEvaluated y.prior (t.vary.count true) done f) → y.kin.params.theta = t.theta) ∧
    y.profile.theta = y.kin.params.theta := by
  obtain ⟨sh, hsh, hinv, hth, he, g, st, hap⟩ := evals_state w s s' hs t ht hl a ha x hx done
  rw [he] at hy
  unfold saveFit at hy
  simp only [hap] at hy
  have hprops : y.prior = x.prior ∧ y.profile = st.kin ∧ y.kin.params = (objEvals x.prior x.kin done).params := by
    cases fit with
    | none => cases hy
    | some d =>
      simp only at hy
      cases hc : copyKeys d savedOptions with
      | error e => rw [hc] at hy; cases hy
      | ok o => rw [hc] at hy; cases hy; exact ⟨rfl, rfl, rfl⟩
  obtain ⟨hyp, hyk, hym⟩ := hprops
  rw [hyp, hyk, hym]
  have hI := objEvals_inv hl hsh x.prior done x.kin hinv
  refine ⟨?_, ?_, (hI.1.agrees g st hap).1⟩
  · rintro f ⟨before, after, rfl, hf, haft⟩
    have hb := (objEvals_inv hl hsh x.prior before x.kin hinv).1
    obtain ⟨n1, n2, _⟩ := hb.next hl hsh x.prior f
    have hlast := (objEvals_inv hl hsh x.prior after _ n1).2 haft
    rw [objEvals_append, show objEvals x.prior (objEvals x.prior x.kin before) (f :: after) =
      objEvals x.prior (objLnprob x.prior (objEvals x.prior x.kin before) f).1 after from rfl, hlast, n2 hf]
    exact ⟨updateParameters_length _ _ _, updateParameters_get _ _ _ hl hf.1⟩
  · intro hno
    have : ∀ f ∈ done, ¬ StoresAt x.prior (t.vary.count true) f := by
      by_contra hc
      push Not at hc
      -- take the last one
      have key : ∀ l : List (List ℝ), (∃ f ∈ l, StoresAt x.prior (t.vary.count true) f) →
          ∃ f, LastEvaluated x.prior (t.vary.count true) l f := by
        intro l
        induction l with
        | nil => rintro ⟨f, hf, _⟩; cases hf
        | cons b l ih =>
          rintro ⟨f, hf, hs⟩
          by_cases hl' : ∃ f ∈ l, StoresAt x.prior (t.vary.count true) f
          · obtain ⟨f', bf, af, e, h1, h2⟩ := ih hl'
            exact ⟨f', b :: bf, af, by rw [e]; rfl, h1, h2⟩
          · rcases List.mem_cons.1 hf with rfl | hf
            · exact ⟨f, [], l, rfl, hs, fun g hg hgs => hl' ⟨g, hg, hgs⟩⟩
            · exact absurd ⟨f, hf, hs⟩ hl'
      exact hno (key done hc)
    rw [hI.2 this, hth]

/-- **C200** In a run whose evaluations all take place in other processes, the object of this process, and so the saved one, has the
parameters of the settings, whatever was sampled. -/
theorem C200_processes (w : Meaning V r c) (s s' : Fit2D r c) (hs : s.setupModel = (s', .ok ())) (t : FitSettings)
    (ht : s.settings = some t) (hl : t.vary.length = t.theta.length) (a : FitAttrs V)
    (ha : a.read w = .ok s'.input) (x : PrunedFit V r c) (hx : s'.prune w a = .ok x)
    (other : List (Fl ℝ) → Except PyErr (Fl ℝ)) (plan : Plan) (here : Nat) (hplan : ∀ n, plan.who n ≠ here)
    (v : EmceeVersion) (o : RunOpts ℝ) (cpuCount : Nat)
    (initial : List (List (Fl ℝ))) (burnMoves moves : Nat → List (Move ℝ))
    (diag : List (List (Walker ℝ)) → StepDiag ℝ) (file : List (List (Walker ℝ))) (fit : Option (Attrs V)) (y : KeptFit V r c)
    (hy : saveFit ((runMcmcW v o cpuCount (plan.eval x (PrunedFit.atPos other)) initial burnMoves moves diag file
      (Workers.start x)).1.obj here) fit = .ok y) :
    y.kin.params.theta = t.theta ∧ y.profile.theta = t.theta := by
  have h := runMcmcW_spares (planEval_spares plan x (PrunedFit.atPos other) hplan) v o cpuCount initial burnMoves moves diag file
    (Workers.start x)
  rw [h] at hy
  have hno : ¬ ∃ f, LastEvaluated y.prior (t.vary.count true) [] f := by
    rintro ⟨f, before, after, e, _⟩
    cases before <;> cases e
  obtain ⟨_, h2, h3⟩ := C200_parameters w s s' hs t ht hl a ha x hx [] fit y hy
  exact ⟨h2 hno, h3.trans (h2 hno)⟩

/-- **C200** (no model yet): an object whose aperture model has not been built cannot be saved, with or without the fit. -/
theorem C200_no_model (x : PrunedFit V r c) (fit : Option (Attrs V)) (h : x.kin.aper = none) :
    saveFit x fit = .error .attributeError := by
  unfold saveFit
  rw [h]

/-! ## C201: evaluating the saved object -/

theorem keptKeys (x : PrunedFit V r c) (hk : x.kinKeys = prunedKinKeys) (fit : Option (Attrs V)) (y : KeptFit V r c)
    (hy : saveFit x fit = .ok y) :
    y.kinKeys.contains "aperModel" = false ∧ makeReads.all y.kinKeys.contains = false ∧ y.prior = x.prior ∧
      y.kin.params = x.kin.params := by
  unfold saveFit at hy
  cases ha : x.kin.aper with
  | none => rw [ha] at hy; cases hy
  | some gs =>
    rw [ha] at hy
    cases fit with
    | none => cases hy
    | some d =>
      simp only at hy
      cases hc : copyKeys d savedOptions with
      | error e => rw [hc] at hy; cases hy
      | ok o =>
        rw [hc] at hy
        cases hy
        rw [hk]
        exact ⟨show (prunedKinKeys.filter (· ≠ "aperModel")).contains "aperModel" = false by decide,
          show makeReads.all (prunedKinKeys.filter (· ≠ "aperModel")).contains = false by decide, rfl, rfl⟩

/-- **C201**, exact: the posterior at the saved object is -infinity, or the exception of the prior, where the prior is not finite, a ValueError
for a wrong number of parameters, and an AttributeError everywhere else, after the parameters have been stored. -/
theorem C201_exact (w : Meaning V r c) (s s' : Fit2D r c) (hs : s.setupModel = (s', .ok ())) (t : FitSettings)
    (ht : s.settings = some t) (hl : t.vary.length = t.theta.length) (a : FitAttrs V)
    (ha : a.read w = .ok s'.input) (x : PrunedFit V r c) (hx : s'.prune w a = .ok x) (done : List (List ℝ))
    (d : Option (Attrs V)) (y : KeptFit V r c) (hy : saveFit (x.evals done) d = .ok y) (fit : List ℝ) :
    (∀ e, y.prior.logp (fit.map Fl.fin) = .error e → (y.lnprob fit).2 = .error e) ∧
    (∀ q, y.prior.logp (fit.map Fl.fin) = .ok q → q.isFinite = false → (y.lnprob fit).2 = .ok .ninf) ∧
    (∀ q, y.prior.logp (fit.map Fl.fin) = .ok q → q.isFinite = true →
      (fit.length ≠ t.vary.count true → (y.lnprob fit).2 = .error .valueError) ∧
      (fit.length = t.vary.count true → (y.lnprob fit).2 = .error .attributeError ∧
        IsUnpack t.theta t.vary fit (y.lnprob fit).1.kin.params.theta)) := by
  obtain ⟨sh, hsh, hinv, hth, he, g, st, hap⟩ := evals_state w s s' hs t ht hl a ha x hx done
  obtain ⟨h1, _⟩ := prune_parts w s' a t (by obtain ⟨t1, _, _, ht1, ht1', _⟩ := setup_state s s' hs; rw [ht] at ht1; cases ht1; exact ht1') x hx
  have hI := (objEvals_inv hl hsh x.prior done x.kin hinv).1
  obtain ⟨k1, _, _, k4⟩ := keptKeys (x.evals done) (by rw [he]; exact h1) d y hy
  rw [he] at k4
  simp only at k4
  have hmap : (fit.map Fl.fin).map Fl.finVal = fit := by
    rw [List.map_map]
    exact List.map_id fit
  unfold KeptFit.lnprob Misfit.lnprob
  cases hq : y.prior.logp (fit.map Fl.fin) with
  | error e => exact ⟨fun e' h => (by cases h; rfl), fun q h => (by cases h), fun q h => (by cases h)⟩
  | ok q =>
    simp only
    refine ⟨fun e' h => (by cases h), fun q' h hf => ?_, fun q' h hf => ?_⟩
    · cases h
      rw [if_neg (by rw [hf]; decide)]
    · cases h
      rw [if_pos hf, hmap]
      unfold KeptFit.update
      rw [k4]
      refine ⟨fun hne => ?_, fun hfit => ?_⟩
      · rw [KinParams.update_bad _ _ (by rw [hI.params.nFree, hI.params.varyEq]) (by rw [hI.params.varyEq]; exact hne)]
      · rw [(hI.params.update hl fit hfit).1]
        simp only [k1, Bool.false_eq_true, if_false]
        exact ⟨trivial, updateParameters_length _ _ _, updateParameters_get _ _ _ hl hfit⟩

/-- **C201** (partial): where the prior is not finite, and for a wrong number of parameters, the saved object has the posterior of the fit.
Missing: every vector that could have been sampled, `C201_false`. -/
theorem C201_outside_partial (w : Meaning V r c) (s s' : Fit2D r c) (hs : s.setupModel = (s', .ok ())) (t : FitSettings)
    (ht : s.settings = some t) (hl : t.vary.length = t.theta.length) (a : FitAttrs V)
    (ha : a.read w = .ok s'.input) (x : PrunedFit V r c) (hx : s'.prune w a = .ok x) (done : List (List ℝ))
    (d : Option (Attrs V)) (y : KeptFit V r c) (hy : saveFit (x.evals done) d = .ok y) (fit : List ℝ)
    (hfit : fit.length ≠ t.vary.count true ∨ ∀ q, y.prior.logp (fit.map Fl.fin) = .ok q → q.isFinite = false) :
    (y.lnprob fit).2 = (s'.lnprob fit).2 := by
  obtain ⟨e1, e2, e3⟩ := C201_exact w s s' hs t ht hl a ha x hx done d y hy fit
  obtain ⟨t0, k, f0, p, n, ht0, hp, _, hxp, hmk, hkm, hxk, hkk, _⟩ := prune_state w s s' hs a ha x hx
  rw [ht] at ht0
  cases ht0
  obtain ⟨sh, hsh, hinv, _, he, _⟩ := evals_state w s s' hs t ht hl a ha x hx done
  have hyp : ∀ l, y.prior.logp l = p.logp l := by
    obtain ⟨h1, _⟩ := prune_parts w s' a t (by obtain ⟨t1, _, _, ht1, ht1', _⟩ := setup_state s s' hs; rw [ht] at ht1; cases ht1; exact ht1') x hx
    intro l
    rw [(keptKeys (x.evals done) (by rw [he]; exact h1) d y hy).2.2.1, he]
    simp only
    rw [hxp]
    rfl
  have hmap : (fit.map Fl.fin).map Fl.finVal = fit := by
    rw [List.map_map]
    exact List.map_id fit
  rw [fitLnprob_obj s' p _ hp hkm]
  simp only
  unfold objLnprob Misfit.lnprob
  rw [← hyp]
  cases hq : y.prior.logp (fit.map Fl.fin) with
  | error e => exact e1 e hq
  | ok q =>
    simp only
    cases hb : q.isFinite with
    | false =>
      rw [e2 q hq hb, if_neg (by decide)]
    | true =>
      rcases hfit with hne | hfit
      · rw [((e3 q hq hb).1 hne), if_pos rfl, hmap]
        unfold KinModelState.lnlike KinModelState.update
        rw [KinParams.update_bad _ _ (by rw [hinv.params.nFree, hinv.params.varyEq]) (by rw [hinv.params.varyEq]; exact hne)]
      · rw [hfit q hq] at hb
        cases hb

/-- **C201** (the claim is false) At a vector with a finite posterior the saved object raises AttributeError. -/
theorem C201_false (w : Meaning V r c) (s s' : Fit2D r c) (hs : s.setupModel = (s', .ok ())) (t : FitSettings)
    (ht : s.settings = some t) (hl : t.vary.length = t.theta.length) (a : FitAttrs V)
    (ha : a.read w = .ok s'.input) (x : PrunedFit V r c) (hx : s'.prune w a = .ok x) (done : List (List ℝ))
    (d : Option (Attrs V)) (y : KeptFit V r c) (hy : saveFit (x.evals done) d = .ok y) (fit : List ℝ) (v : ℝ)
    (hv : (s'.lnprob fit).2 = .ok (.fin v)) : (y.lnprob fit).2 = .error .attributeError := by
  by_cases hfit : fit.length ≠ t.vary.count true ∨ ∀ q, y.prior.logp (fit.map Fl.fin) = .ok q → q.isFinite = false
  · have h := C201_outside_partial w s s' hs t ht hl a ha x hx done d y hy fit hfit
    rw [hv] at h
    obtain ⟨e1, e2, e3⟩ := C201_exact w s s' hs t ht hl a ha x hx done d y hy fit
    cases hq : y.prior.logp (fit.map Fl.fin) with
    | error e => rw [e1 e hq] at h; cases h
    | ok q =>
      cases hb : q.isFinite with
      | false => rw [e2 q hq hb] at h; cases h
      | true =>
        by_cases hlen : fit.length = t.vary.count true
        · rw [((e3 q hq hb).2 hlen).1] at h; cases h
        · rw [(e3 q hq hb).1 hlen] at h; cases h
  · push Not at hfit
    obtain ⟨hlen, q, hq, hf⟩ := hfit
    obtain ⟨_, _, e3⟩ := C201_exact w s s' hs t ht hl a ha x hx done d y hy fit
    exact ((e3 q hq (by simpa using hf)).2 hlen).1

/-- **C201** Nor can the saved object be given a new model: `make_model` is an AttributeError for the right number of parameters, for any
galaxy and instrument. -/
theorem C201_make (w : Meaning V r c) (s s' : Fit2D r c) (hs : s.setupModel = (s', .ok ())) (t : FitSettings)
    (ht : s.settings = some t) (hl : t.vary.length = t.theta.length) (a : FitAttrs V)
    (ha : a.read w = .ok s'.input) (x : PrunedFit V r c) (hx : s'.prune w a = .ok x) (done : List (List ℝ))
    (d : Option (Attrs V)) (y : KeptFit V r c) (hy : saveFit (x.evals done) d = .ok y) (g : KinInput r c) (fit : List ℝ)
    (hfit : fit.length = t.vary.count true) : (y.makeModel g fit).2 = .error .attributeError := by
  obtain ⟨sh, hsh, hinv, hth, he, _⟩ := evals_state w s s' hs t ht hl a ha x hx done
  obtain ⟨h1, _⟩ := prune_parts w s' a t (by obtain ⟨t1, _, _, ht1, ht1', _⟩ := setup_state s s' hs; rw [ht] at ht1; cases ht1; exact ht1') x hx
  have hI := (objEvals_inv hl hsh x.prior done x.kin hinv).1
  obtain ⟨_, k2, _, k4⟩ := keptKeys (x.evals done) (by rw [he]; exact h1) d y hy
  rw [he] at k4
  simp only at k4
  unfold KeptFit.makeModel
  rw [k2, if_neg (by decide), k4, (hI.params.update hl fit hfit).1]

/-- the hypotheses are met -/
example : ∃ (s' : Fit2D 1 2) (x : PrunedFit Bool 1 2) (y : KeptFit Bool 1 2), oneFit.setupModel = (s', .ok ()) ∧
    s'.prune oneMeaning (oneAttrs false) = .ok x ∧ saveFit (x.evals [[100, 1, 50], [3]]) (some fun _ => some true) = .ok y ∧
    y.options "thetaSettings" = some true := by
  have hs : oneFit.setupModel = (oneFit.setupModel.1, .ok ()) := by
    rw [← one_setup_ok]
  obtain ⟨x, hx⟩ := (C194_exact_partial oneMeaning oneFit _ hs (oneAttrs false) (one_read false)).2
    ⟨⟨false, rfl, rfl⟩, fun k _ => ⟨_, rfl⟩, fun sp hsp k _ => by cases hsp; exact ⟨_, rfl⟩, fun k _ => ⟨_, rfl⟩⟩
  obtain ⟨y, hy⟩ := (C200_exact oneMeaning oneFit _ hs _ rfl rfl (oneAttrs false) (one_read false) x hx [[100, 1, 50], [3]]
    (some fun _ => some true)).1.2 ⟨_, rfl, ⟨_, rfl⟩, ⟨_, rfl⟩, ⟨_, rfl⟩⟩
  exact ⟨_, x, y, hs, hx, hy,
    (C200_values oneMeaning oneFit _ hs _ rfl rfl (oneAttrs false) (one_read false) x hx _ _ y hy).2.2.2.2.1.2.2⟩

/-- the posterior of the example is a number, so `C201_false` applies -/
theorem one_posterior : ∃ v, (oneFit.setupModel.1.lnprob [100, 1, 50]).2 = .ok (.fin v) := by
  obtain ⟨p, h1, h2⟩ := C118_new_partial oneFit _ rfl rfl one_setup_ok
  have hq : p.logp [.fin 100, .fin 1, .fin 50] = .ok 0 := by
    rw [h2]
    norm_num [FitSettings.flatValue, logPrior, priorStatements, between, Fl.leB]
  have hk' : oneFit.setupModel.1.kinModel = some ⟨((KinModelState.init [0, 1, 1, 0, 0] [true, true, true, false, false]
    ⟨[0, 1, 1, 0, 0], some ⟨[0, 1], 2⟩, some ⟨[1], 1⟩⟩ false : KinModelState 1 2).make oneInput [0, 1, 1]).1,
      ["V_a", "r_t", "sigma0", "m0_shift", "z"], none⟩ := rfl
  obtain ⟨v, hv⟩ := one_like 100 1 50 (by norm_num) (by norm_num) _ hk'
  rw [fitLnprob_obj _ p _ h1 hk']
  refine ⟨v, ?_⟩
  unfold objLnprob Misfit.lnprob
  simp only [List.map_cons, List.map_nil, hq, Fl.finVal]
  rw [if_pos (show Fl.isFinite (0 : Fl ℝ) = true from rfl)]
  revert hv
  generalize KinModelState.lnlike _ _ = R
  obtain ⟨m, e⟩ := R
  intro hv
  simp only at hv
  subst hv
  simp [Fl.isFinite]

example : ∃ (s' : Fit2D 1 2) (x : PrunedFit Bool 1 2) (y : KeptFit Bool 1 2), oneFit.setupModel = (s', .ok ()) ∧
    s'.prune oneMeaning (oneAttrs false) = .ok x ∧ saveFit (x.evals [[100, 1, 50]]) (some fun _ => some true) = .ok y ∧
    (∃ v, (s'.lnprob [100, 1, 50]).2 = .ok (.fin v)) ∧ (y.lnprob [100, 1, 50]).2 = .error .attributeError := by
  have hs : oneFit.setupModel = (oneFit.setupModel.1, .ok ()) := by
    rw [← one_setup_ok]
  obtain ⟨x, hx⟩ := (C194_exact_partial oneMeaning oneFit _ hs (oneAttrs false) (one_read false)).2
    ⟨⟨false, rfl, rfl⟩, fun k _ => ⟨_, rfl⟩, fun sp hsp k _ => by cases hsp; exact ⟨_, rfl⟩, fun k _ => ⟨_, rfl⟩⟩
  obtain ⟨y, hy⟩ := (C200_exact oneMeaning oneFit _ hs _ rfl rfl (oneAttrs false) (one_read false) x hx [[100, 1, 50]]
    (some fun _ => some true)).1.2 ⟨_, rfl, ⟨_, rfl⟩, ⟨_, rfl⟩, ⟨_, rfl⟩⟩
  obtain ⟨v, hv⟩ := one_posterior
  exact ⟨_, x, y, hs, hx, hy, ⟨v, hv⟩,
    C201_false oneMeaning oneFit _ hs _ rfl rfl (oneAttrs false) (one_read false) x hx _ _ y hy _ v hv⟩

end Misfit
