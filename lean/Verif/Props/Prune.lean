import Verif.Lemmas.Prune
import Verif.Props.Fit2D

/-!
# C193-C195: the copy of a fit that the sampler evaluates, and the number of processes
-/

namespace Misfit
variable {V : Type*} {r c : Nat}

/-! ## C193: the sampler evaluates the posterior of the fit -/

/-- Specification: evaluations one after another on the object `x`, each of which returns -/
def EachReturns {σ : Type*} (step : σ → List ℝ → σ × Except PyErr (Fl ℝ)) : σ → List (List ℝ) → Prop
  | _, [] => True
  | x, fit :: fits => (∃ v, (step x fit).2 = .ok v) ∧ EachReturns step (step x fit).1 fits

theorem prunedKinKeys_update : updateReads.all prunedKinKeys.contains = true := by decide

theorem prunedKinKeys_make : makeReads.all prunedKinKeys.contains = false := by decide

theorem prunedLnprob_obj (x : PrunedFit V r c) (hk : updateReads.all x.kinKeys.contains = true) (fit : List ℝ) :
    x.lnprob fit = ({ x with kin := (objLnprob x.prior x.kin fit).1 }, (objLnprob x.prior x.kin fit).2) := by
  unfold PrunedFit.lnprob objLnprob
  simp only [hk, if_true]

theorem prunedEvals_obj (fits : List (List ℝ)) : ∀ (x : PrunedFit V r c), updateReads.all x.kinKeys.contains = true →
    x.evals fits = { x with kin := objEvals x.prior x.kin fits } ∧
      (EachReturns PrunedFit.lnprob x fits → ObjReturns x.prior x.kin fits) := by
  induction fits with
  | nil => exact fun x _ => ⟨rfl, fun _ => trivial⟩
  | cons fit fits ih =>
    intro x hk
    have e := prunedLnprob_obj x hk fit
    obtain ⟨h1, h2⟩ := ih (x.lnprob fit).1 (by rw [e]; exact hk)
    rw [e] at h1 h2
    refine ⟨?_, fun h => ⟨?_, h2 ?_⟩⟩
    · show (x.lnprob fit).1.evals fits = _
      rw [e, h1]
      rfl
    · have := h.1
      rw [e] at this
      exact this
    · have := h.2
      rw [e] at this
      exact this

theorem fitLnprob_obj (s : Fit2D r c) (p : PriorObj) (k : KinObj r c) (hp : s.prior = some p) (hk : s.kinModel = some k)
    (fit : List ℝ) : s.lnprob fit = ({ s with
      kinProfile := (objLnprob p k.m fit).1.kin, kinModel := some { k with m := (objLnprob p k.m fit).1 } },
      (objLnprob p k.m fit).2) := by
  unfold Fit2D.lnprob
  simp only [hp, hk]

theorem fitEvals_obj (p : PriorObj) (fits : List (List ℝ)) : ∀ (s : Fit2D r c) (k : KinObj r c), s.prior = some p →
    s.kinModel = some k →
    (s.evals fits).prior = some p ∧ (s.evals fits).kinModel = some { k with m := objEvals p k.m fits } ∧
      (EachReturns Fit2D.lnprob s fits → ObjReturns p k.m fits) := by
  induction fits with
  | nil => exact fun s k hp hk => ⟨hp, hk, fun _ => trivial⟩
  | cons fit fits ih =>
    intro s k hp hk
    have e := fitLnprob_obj s p k hp hk fit
    obtain ⟨h1, h2, h3⟩ := ih (s.lnprob fit).1 { k with m := (objLnprob p k.m fit).1 } (by rw [e]; exact hp) (by rw [e])
    refine ⟨h1, ?_, fun h => ⟨?_, h3 h.2⟩⟩
    · exact h2
    · have := h.1
      rw [e] at this
      exact this

/-- what the copy of a fit that was set up consists of -/
theorem prune_state (w : Meaning V r c) (s s' : Fit2D r c) (hs : s.setupModel = (s', .ok ())) (a : FitAttrs V)
    (ha : a.read w = .ok s'.input) (x : PrunedFit V r c) (hx : s'.prune w a = .ok x) :
    ∃ t k f0 p n, s.settings = some t ∧ s'.prior = some p ∧ p.name = some n ∧ x.prior = { p with name := none } ∧
      ((KinModelState.init t.theta t.vary k false : KinModelState r c).make s.input f0).2 = .ok () ∧
      s'.kinModel = some ⟨x.kin, t.names, none⟩ ∧
      x.kin = ((KinModelState.init t.theta t.vary k false).make s.input f0).1 ∧
      updateReads.all x.kinKeys.contains = true ∧ a.prune = .ok x.attrs ∧ x.attrs.read w = .ok s'.input := by
  obtain ⟨t, k, f0, ht, ht', hin, hk, hf0, ⟨p, n, hp, hn⟩, hmk, hm⟩ := setup_state s s' hs
  unfold Fit2D.prune at hx
  cases hpa : a.prune with
  | error e => rw [hpa] at hx; cases hx
  | ok a' =>
    rw [hpa] at hx
    simp only [ht', hk, hf0] at hx
    obtain ⟨sp, gen, vg, vs, vi, hsp, hgen, _⟩ := read_ok w a _ ha
    have hc := read_copy w a a' _ ha hpa
    cases hgt : w.truth gen with
    | true =>
      rw [hc.2 gen hgen hgt] at hx
      cases hx
    | false =>
      have hrd := hc.1 gen hgen hgt
      rw [hrd] at hx
      simp only [hin] at hx
      generalize hR : (KinModelState.init t.theta t.vary k false : KinModelState r c).make s.input f0 = R at hx hmk hm
      obtain ⟨m, e⟩ := R
      simp only at hmk
      subst hmk
      simp only [hp, prunePrior, hn] at hx
      cases hx
      exact ⟨t, k, f0, p, n, ht, hp, hn, rfl, by rw [hR], hm, by rw [hR], prunedKinKeys_update, rfl, hrd⟩

/-- **C193** The posterior the sampler evaluates is the one of the fit that was set up.  The copy has the same galaxy, spectrum and
instrument (as far as they are read), the same prior and the same model, and at every vector its posterior is that of the
fit, with the same exceptions, whatever was evaluated before on the copy (`done`, in this process or in a
worker) and on the fit (`done'`).  With adaptive wavelength sampling the evaluations before must have returned. -/
theorem C193_posterior (w : Meaning V r c) (s s' : Fit2D r c) (hs : s.setupModel = (s', .ok ())) (t : FitSettings)
    (ht : s.settings = some t) (hl : t.vary.length = t.theta.length) (a : FitAttrs V)
    (ha : a.read w = .ok s'.input) (x : PrunedFit V r c) (hx : s'.prune w a = .ok x) (done done' : List (List ℝ))
    (hd : s.input.cfg.adaptive = true → EachReturns PrunedFit.lnprob x done)
    (hd' : s.input.cfg.adaptive = true → EachReturns Fit2D.lnprob s' done') (fit : List ℝ) :
    ((x.evals done).lnprob fit).2 = ((s'.evals done').lnprob fit).2 := by
  obtain ⟨t0, k, f0, p, n, ht0, hp, _, hxp, hmk, hkm, hxk, hkk, _⟩ := prune_state w s s' hs a ha x hx
  rw [ht] at ht0
  cases ht0
  obtain ⟨h1, h2⟩ := prunedEvals_obj done x hkk
  obtain ⟨h3, h4, h5⟩ := fitEvals_obj p done' s' _ hp hkm
  rw [h1, prunedLnprob_obj { x with kin := objEvals x.prior x.kin done } hkk, fitLnprob_obj _ p _ h3 h4]
  simp only
  obtain ⟨_, f, a0, hset, hb, hr, _⟩ := make_built s.input t.theta t.vary k false hl f0 hmk
  rw [← hxk] at hb
  have hreal := setupCalcs_real _ _ _ hset
  obtain ⟨calls, hc1, hc2⟩ := objEvals_run x.prior done x.kin
  obtain ⟨calls', hc1', hc2'⟩ := objEvals_run p done' x.kin
  obtain ⟨a1, hb1, hr1⟩ := run_built hl hreal calls x.kin a0 hb hr fun had => hc2 (h2 (hd had))
  obtain ⟨a2, hb2, hr2⟩ := run_built hl hreal calls' x.kin a0 hb hr fun had => hc2' (h5 (hd' had))
  rw [hc1, hc1']
  have e := objLnprob_same p fit (update_same_built hl hb1 hr1 hb2 hr2 fit)
  rw [← e, hxp]
  rfl

/-- **C193** Every attribute of the galaxy, the spectrum and the instrument of the copy has the value it has in the fit, and read as
a whole they are the same input. -/
theorem C193_values (w : Meaning V r c) (s s' : Fit2D r c) (hs : s.setupModel = (s', .ok ())) (a : FitAttrs V)
    (ha : a.read w = .ok s'.input) (x : PrunedFit V r c) (hx : s'.prune w a = .ok x) :
    (∀ k v, x.attrs.galaxy k = some v → a.galaxy k = some v) ∧
    (∃ sp sp', a.spec2D = some sp ∧ x.attrs.spec2D = some sp' ∧ ∀ k v, sp' k = some v → sp k = some v) ∧
    (∀ k v, x.attrs.instrument k = some v → a.instrument k = some v) ∧ x.attrs.read w = .ok s'.input := by
  obtain ⟨t, k, f0, p, n, _, _, _, _, _, _, _, _, hpa, hrd⟩ := prune_state w s s' hs a ha x hx
  obtain ⟨sp, gen, vg, vs, vi, hsp, _⟩ := read_ok w a _ ha
  rcases attrsPrune_cases a sp hsp with ⟨_, h4⟩ | ⟨_, _, ⟨_, h4⟩ | ⟨_, _, h4⟩⟩
  · rw [h4] at hpa; cases hpa
  · rw [h4] at hpa; cases hpa
  rw [h4] at hpa
  generalize x.attrs = xa at hpa hrd
  cases hpa
  refine ⟨fun k v h => ?_, ⟨sp, _, hsp, rfl, fun k v h => ?_⟩, fun k v h => ?_, hrd⟩
  · dsimp only at h
    split at h
    · exact h
    · cases h
  · split at h
    · exact h
    · cases h
  · dsimp only at h
    split at h
    · cases h
    · exact h

/-! ## C194: a fit that can be evaluated can be sampled -/

/-- The attributes the copy needs although no evaluation reads them. -/
def CopyNeeds (a : FitAttrs V) : Prop :=
  (∀ k, k = "z" ∨ k = "re_mass_arcsec" ∨ k = "q_mass" → ∃ v, a.galaxy k = some v) ∧
  (∀ sp, a.spec2D = some sp → ∀ k, k = "lam0" ∨ k = "spec_type" → ∃ v, sp k = some v) ∧
  (∀ k, k = "instrument_name" ∨ k = "band" → ∃ v, a.instrument k = some v)

theorem galaxyKeys_reads (k : String) (h : k ∈ galaxyKeys) :
    k ∈ galaxyReads ∨ k = "z" ∨ k = "re_mass_arcsec" ∨ k = "q_mass" := by
  revert k; decide

theorem specKeys_reads (k : String) (h : k ∈ specKeys) : k ∈ specReads false ∨ k = "lam0" ∨ k = "spec_type" := by
  revert k; decide

theorem specKeys_reads_gen (k : String) (h : k ∈ specKeys) : k ∈ specReads true ∨ k = "lam0" ∨ k = "spec_type" := by
  revert k; decide

/-- **C194 (partial: the sampler needs more of a fit than the evaluation)** The copy of a fit that was set up can be made
exactly if the fit is not marked as generating a model and has the attributes `CopyNeeds`. -/
theorem C194_exact_partial (w : Meaning V r c) (s s' : Fit2D r c) (hs : s.setupModel = (s', .ok ())) (a : FitAttrs V)
    (ha : a.read w = .ok s'.input) :
    (∃ x, s'.prune w a = .ok x) ↔
      (∃ gen, a.galaxy "generate_model" = some gen ∧ w.truth gen = false) ∧ CopyNeeds a := by
  obtain ⟨sp, gen, vg, vs, vi, hsp, hgen, h1, h2, h3, _⟩ := read_ok w a _ ha
  constructor
  · rintro ⟨x, hx⟩
    obtain ⟨t, k, f0, p, n, _, _, _, _, _, _, _, _, hpa, hrd⟩ := prune_state w s s' hs a ha x hx
    refine ⟨⟨gen, hgen, ?_⟩, ?_⟩
    · by_contra hc
      have := (read_copy w a x.attrs _ ha hpa).2 gen hgen (by simpa using hc)
      rw [hrd] at this
      cases this
    · rcases attrsPrune_cases a sp hsp with ⟨_, h4⟩ | ⟨hi, hb, ⟨_, h4⟩ | ⟨hg, hsk, h4⟩⟩
      · rw [h4] at hpa; cases hpa
      · rw [h4] at hpa; cases hpa
      refine ⟨fun k hk => Option.isSome_iff_exists.1 (hg k ?_), fun sp' hsp' k hk => ?_,
        fun k hk => ?_⟩
      · rcases hk with rfl | rfl | rfl <;> decide
      · rw [hsp] at hsp'
        cases hsp'
        exact Option.isSome_iff_exists.1 (hsk k (by rcases hk with rfl | rfl <;> decide))
      · rcases hk with rfl | rfl
        · exact Option.isSome_iff_exists.1 hi
        · exact Option.isSome_iff_exists.1 hb
  · rintro ⟨⟨gen', hgen', hgt⟩, hn1, hn2, hn3⟩
    rw [hgen] at hgen'
    cases hgen'
    rw [hgt] at h2
    obtain ⟨t, k, f0, ht, ht', hin, hk, hf0, ⟨p, n, hp, hn⟩, hmk, hm⟩ := setup_state s s' hs
    have hg : ∀ k ∈ galaxyKeys, (a.galaxy k).isSome := fun k hk => by
      rcases galaxyKeys_reads k hk with h | h
      · exact mapE_get_ok _ _ _ h1 k h
      · exact Option.isSome_iff_exists.2 (hn1 k h)
    have hsk : ∀ k ∈ specKeys, (sp k).isSome := fun k hk => by
      rcases specKeys_reads k hk with h | h
      · exact mapE_get_ok _ _ _ h2 k h
      · exact Option.isSome_iff_exists.2 (hn2 sp hsp k h)
    rcases attrsPrune_cases a sp hsp with ⟨h | h, _⟩ | ⟨_, _, ⟨⟨j, hj, h⟩ | ⟨j, hj, h⟩, _⟩ | ⟨_, _, h4⟩⟩
    · obtain ⟨v, hv⟩ := hn3 _ (.inl rfl)
      rw [h] at hv; cases hv
    · obtain ⟨v, hv⟩ := hn3 _ (.inr rfl)
      rw [h] at hv; cases hv
    · have := hg j hj
      rw [h] at this; cases this
    · have := hsk j hj
      rw [h] at this; cases this
    · have hrd := (read_copy w a _ _ ha h4).1 gen hgen hgt
      unfold Fit2D.prune
      rw [h4]
      simp only [ht', hk, hf0]
      rw [hrd]
      simp only [hin]
      generalize (KinModelState.init t.theta t.vary k false : KinModelState r c).make s.input f0 = R at hmk
      obtain ⟨m, e⟩ := R
      simp only at hmk
      subst hmk
      simp only [hp, prunePrior, hn]
      exact ⟨_, rfl⟩

/-- **C194** How the copy fails otherwise: AttributeError if the instrument has no name or band; else KeyError if
an attribute of `CopyNeeds` is missing; else, for a fit marked as generating a model, AttributeError. -/
theorem C194_failures (w : Meaning V r c) (s s' : Fit2D r c) (hs : s.setupModel = (s', .ok ())) (a : FitAttrs V)
    (ha : a.read w = .ok s'.input) :
    (a.instrument "instrument_name" = none ∨ a.instrument "band" = none → s'.prune w a = .error .attributeError) ∧
    (a.instrument "instrument_name" ≠ none → a.instrument "band" ≠ none → ¬ CopyNeeds a →
      s'.prune w a = .error .keyError) ∧
    (CopyNeeds a → (∀ gen, a.galaxy "generate_model" = some gen → w.truth gen = true) →
      s'.prune w a = .error .attributeError) := by
  obtain ⟨sp, gen, vg, vs, vi, hsp, hgen, h1, h2, h3, _⟩ := read_ok w a _ ha
  obtain ⟨t, k, f0, ht, ht', hin, hk, hf0, ⟨p, n, hp, hn⟩, hmk, hm⟩ := setup_state s s' hs
  have hg : ∀ j ∈ galaxyKeys, a.galaxy j = none → ¬ CopyNeeds a := fun j hj h hc => by
    rcases galaxyKeys_reads j hj with h' | h'
    · have := mapE_get_ok _ _ _ h1 j h'
      rw [h] at this; cases this
    · obtain ⟨v, hv⟩ := hc.1 j h'
      rw [h] at hv; cases hv
  have hsk : ∀ j ∈ specKeys, sp j = none → ¬ CopyNeeds a := fun j hj h hc => by
    have : j ∈ specReads (w.truth gen) ∨ j = "lam0" ∨ j = "spec_type" := by
      cases w.truth gen
      · exact specKeys_reads j hj
      · exact specKeys_reads_gen j hj
    rcases this with h' | h'
    · have := mapE_get_ok _ _ _ h2 j h'
      rw [h] at this; cases this
    · obtain ⟨v, hv⟩ := hc.2.1 sp hsp j h'
      rw [h] at hv; cases hv
  rcases attrsPrune_cases a sp hsp with ⟨hi, h4⟩ | ⟨hi, hb, ⟨hmiss, h4⟩ | ⟨hgs, hss, h4⟩⟩
  · have he : s'.prune w a = .error .attributeError := by unfold Fit2D.prune; rw [h4]
    exact ⟨fun _ => he, fun h5 h6 => absurd hi (by simp [h5, h6]), fun _ _ => he⟩
  · have he : s'.prune w a = .error .keyError := by unfold Fit2D.prune; rw [h4]
    refine ⟨fun h => ?_, fun _ _ _ => he, fun hc _ => ?_⟩
    · rcases h with h | h
      · rw [h] at hi; cases hi
      · rw [h] at hb; cases hb
    · rcases hmiss with ⟨j, hj, h⟩ | ⟨j, hj, h⟩
      · exact absurd hc (hg j hj h)
      · exact absurd hc (hsk j hj h)
  · refine ⟨fun h => ?_, fun _ _ hc => ?_, fun _ hgt => ?_⟩
    · rcases h with h | h
      · rw [h] at hi; cases hi
      · rw [h] at hb; cases hb
    · refine absurd ⟨fun k hk => Option.isSome_iff_exists.1 (hgs k ?_), fun sp' hsp' k hk => ?_, fun k hk => ?_⟩ hc
      · rcases hk with rfl | rfl | rfl <;> decide
      · rw [hsp] at hsp'
        cases hsp'
        exact Option.isSome_iff_exists.1 (hss k (by rcases hk with rfl | rfl <;> decide))
      · rcases hk with rfl | rfl
        · exact Option.isSome_iff_exists.1 hi
        · exact Option.isSome_iff_exists.1 hb
    · have hrd := (read_copy w a _ _ ha h4).2 gen hgen (hgt gen hgen)
      unfold Fit2D.prune
      rw [h4]
      simp only [ht', hk, hf0]
      rw [hrd]

/-- what a copy consists of -/
theorem prune_parts (w : Meaning V r c) (s : Fit2D r c) (a : FitAttrs V) (t : FitSettings) (ht : s.settings = some t)
    (x : PrunedFit V r c) (hx : s.prune w a = .ok x) :
    x.kinKeys = prunedKinKeys ∧ x.kin.params.vary = t.vary ∧ x.kin.params.theta.length = t.theta.length ∧
      x.kin.params.nFree = t.vary.count true := by
  unfold Fit2D.prune at hx
  cases hpa : a.prune with
  | error e => rw [hpa] at hx; cases hx
  | ok a' =>
    rw [hpa, ht] at hx
    simp only at hx
    cases hk : s.kinProfile.updateTheta t.theta with
    | error e => rw [hk] at hx; cases hx
    | ok k =>
      rw [hk] at hx
      simp only at hx
      cases hf0 : initializeFittingTheta t.theta t.vary with
      | error e => rw [hf0] at hx; cases hx
      | ok f0 =>
        rw [hf0] at hx
        simp only at hx
        cases hrd : a'.read w with
        | error e => rw [hrd] at hx; cases hx
        | ok g =>
          rw [hrd] at hx
          simp only at hx
          have hK := (init_keeps (r := r) (c := c) t.theta t.vary k false).step (.make g f0)
          have hstep : (KinModelState.init t.theta t.vary k false : KinModelState r c).step (.make g f0) =
            (KinModelState.init t.theta t.vary k false).make g f0 := rfl
          rw [hstep] at hK
          generalize (KinModelState.init t.theta t.vary k false : KinModelState r c).make g f0 = R at hx hK
          obtain ⟨m, e⟩ := R
          cases e with
          | error e => cases hx
          | ok u =>
            simp only at hx hK
            cases hpp : prunePrior s.prior with
            | error e => rw [hpp] at hx; cases hx
            | ok p =>
              rw [hpp] at hx
              cases hx
              exact ⟨rfl, hK.vary, hK.len, by rw [hK.nFree, hK.vary]⟩

/-- **C194** Settings replaced between `setup_model` and the sampling by settings with another number of varying parameters: the sampler
is given vectors of the old length (fit_core.py 234-240), and every evaluation at which the prior is finite is a ValueError. -/
theorem C194_false_settings (w : Meaning V r c) (s s' : Fit2D r c) (hs : s.setupModel = (s', .ok ())) (t t' : FitSettings)
    (ht : s.settings = some t) (a : FitAttrs V) (x : PrunedFit V r c)
    (hx : { s' with settings := some t' }.prune w a = .ok x) (k : KinObj r c) (hk : s'.kinModel = some k)
    (fit : List ℝ) (hfit : fit.length = k.m.params.nFree)
    (hv : t'.vary.count true ≠ t.vary.count true) (q : Fl ℝ) (hq : x.prior.logp (fit.map Fl.fin) = .ok q)
    (hfin : q.isFinite = true) : (x.lnprob fit).2 = .error .valueError := by
  obtain ⟨h1, h2, h3, h4⟩ := prune_parts w _ a t' rfl x hx
  obtain ⟨t0, kp, f0, ht0, _, _, _, _, _, _, hm⟩ := setup_state s s' hs
  rw [ht] at ht0
  cases ht0
  rw [hk] at hm
  cases hm
  have hK := (init_keeps (r := r) (c := c) t.theta t.vary kp false).step (.make s.input f0)
  have hlen : fit.length = t.vary.count true := by
    rw [hfit]
    exact hK.nFree.trans (by rw [hK.vary])
  rw [prunedLnprob_obj _ (by rw [h1]; exact prunedKinKeys_update)]
  simp only
  unfold objLnprob Misfit.lnprob
  rw [hq]
  simp only [hfin, if_true]
  have hmap : (fit.map Fl.fin).map Fl.finVal = fit := by
    rw [List.map_map]
    exact List.map_id fit
  have hbad : x.kin.params.update fit = (x.kin.params, some .valueError) :=
    KinParams.update_bad _ _ (by rw [h2, h4]) (by rw [h2, hlen]; exact fun h => hv h.symm)
  rw [hmap]
  unfold KinModelState.lnlike KinModelState.update
  rw [hbad]

/-- **C194** The copy can only be evaluated: `make_model` of the copy ends in AttributeError for every vector of the right length. -/
theorem C194_make (w : Meaning V r c) (s : Fit2D r c) (a : FitAttrs V) (t : FitSettings) (ht : s.settings = some t)
    (hl : t.vary.length = t.theta.length) (x : PrunedFit V r c) (hx : s.prune w a = .ok x)
    (g : KinInput r c) (fit : List ℝ) (hfit : fit.length = t.vary.count true) :
    (x.makeModel g fit).2 = .error .attributeError := by
  obtain ⟨h1, h2, h3, h4⟩ := prune_parts w _ a t ht x hx
  unfold PrunedFit.makeModel
  rw [h1, prunedKinKeys_make, if_neg (by decide),
    KinParams.update_ok _ _ (by rw [h2, h4]) (by rw [h2, h3, hl]) (by rw [h2, hfit])]

/-- attribute tables for examples: every attribute is there, `generate_model` is `b` -/
def oneAttrs (b : Bool) : FitAttrs Bool where
  galaxy := fun k => some (b && k == "generate_model")
  spec2D := some fun _ => some false
  instrument := fun _ => some false

/-- values for examples -/
noncomputable def oneMeaning : Meaning Bool 1 2 := ⟨id, fun _ => oneInput⟩

theorem one_read (b : Bool) : (oneAttrs b).read oneMeaning = .ok oneInput := by
  cases b <;> rfl

/-- **C194 (the claim is false)** A fit that is set up and can be evaluated, marked as generating a model (as a mock galaxy is),
cannot be sampled. -/
theorem C194_false : ∃ (s' : Fit2D 1 2), oneFit.setupModel = (s', .ok ()) ∧ (oneAttrs true).read oneMeaning = .ok s'.input ∧
    s'.prune oneMeaning (oneAttrs true) = .error .attributeError := by
  have hs : oneFit.setupModel = (oneFit.setupModel.1, .ok ()) := by
    rw [← one_setup_ok]
  refine ⟨_, hs, one_read true, ?_⟩
  refine (C194_failures oneMeaning oneFit _ hs (oneAttrs true) (one_read true)).2.2 ?_ ?_
  · exact ⟨fun k _ => ⟨_, rfl⟩, fun sp hsp k _ => by cases hsp; exact ⟨_, rfl⟩, fun k _ => ⟨_, rfl⟩⟩
  · rintro gen h
    have : gen = true := by simpa [oneAttrs] using h.symm
    rw [this]
    rfl

/-- the hypotheses of C193 and C194 are met -/
example : ∃ (s' : Fit2D 1 2) (x : PrunedFit Bool 1 2), oneFit.setupModel = (s', .ok ()) ∧
    s'.prune oneMeaning (oneAttrs false) = .ok x ∧
    ∀ fit, ((x.evals [[100, 1, 50], [3]]).lnprob fit).2 = ((s'.evals [[0, 1, 1]]).lnprob fit).2 := by
  have hs : oneFit.setupModel = (oneFit.setupModel.1, .ok ()) := by
    rw [← one_setup_ok]
  obtain ⟨x, hx⟩ := (C194_exact_partial oneMeaning oneFit _ hs (oneAttrs false) (one_read false)).2
    ⟨⟨false, rfl, rfl⟩, fun k _ => ⟨_, rfl⟩, fun sp hsp k _ => by cases hsp; exact ⟨_, rfl⟩, fun k _ => ⟨_, rfl⟩⟩
  exact ⟨_, x, hs, hx, fun fit => C193_posterior oneMeaning oneFit _ hs _ rfl rfl (oneAttrs false) (one_read false) x hx _ _
    (fun h => absurd h Bool.false_ne_true) (fun h => absurd h Bool.false_ne_true) fit⟩

/-! ## C195: the number of processes -/

section
variable {K : Type*} [Field K] [LinearOrder K] [FloorRing K]

/-- Specification: the number of processes the options ask for -/
def AsksFor (o : RunOpts K) (cpuCount : Nat) (n : Int) : Prop :=
  (o.noThread = true → n = 1) ∧ (o.noThread = false → ∀ k, o.nCPUs = some k → n = k) ∧
  (o.noThread = false → o.nCPUs = none → (n : K) ≤ cpuCount * o.cpuFrac ∧ (cpuCount : K) * o.cpuFrac < n + 1)

/-- **C195 (partial: the number of the first run is kept)** A run uses the number of processes its options ask for; `NoThread` asks for one,
`nCPUs` for that number, otherwise it is the whole part of the fraction `cpuFrac` of the CPUs. -/
theorem C195_first_partial (o : RunOpts K) (cpuCount : Nat) (n : Int) :
    o.cpus cpuCount = n ↔ AsksFor o cpuCount n := by
  unfold AsksFor RunOpts.cpus
  cases o.noThread with
  | true => simp [eq_comm]
  | false =>
    cases h : o.nCPUs with
    | none => simp [Int.floor_eq_iff]
    | some k => simp [eq_comm]

/-- **C195 (the claim is false)** After a run the options carry its number of processes: later runs use it although `cpuFrac` and
the computer are others, and a run with `NoThread` makes later runs without it use one process. -/
theorem C195_false (o : RunOpts K) (cpuCount : Nat) (f : K) (later : Nat) :
    { o.started cpuCount with cpuFrac := f, noThread := false }.cpus later = o.cpus cpuCount ∧
    (o.noThread = true → { o.started cpuCount with noThread := false }.cpus later = 1) := by
  constructor
  · rfl
  · intro h
    show o.cpus cpuCount = 1
    unfold RunOpts.cpus
    rw [if_pos h]

/-- **C195 (exact)** When `cpuFrac` and `NoThread` are changed after a run, the next run uses the number of processes the options ask for
exactly if it is without threads or the new options, without the number left by the first run, ask for that number. -/
theorem C195_exact (o : RunOpts K) (cpuCount : Nat) (f : K) (t : Bool) (later : Nat) :
    AsksFor { o with cpuFrac := f, noThread := t } later ({ o.started cpuCount with cpuFrac := f, noThread := t }.cpus later) ↔
      t = true ∨ AsksFor { o with cpuFrac := f, noThread := false } later (o.cpus cpuCount) := by
  cases t with
  | true => simp [AsksFor, RunOpts.cpus]
  | false =>
    simp only [Bool.false_eq_true, false_or]
    rfl

/-- the numbers of processes of runs one after the other with the same options object, of which `cpuFrac` and `NoThread` are set before each
run, on computers with the given numbers of CPUs -/
def runsOf (o : RunOpts K) : List (K × Bool × Nat) → List Int
  | [] => []
  | (f, t, c) :: l =>
    { o with cpuFrac := f, noThread := t }.cpus c :: runsOf ({ o with cpuFrac := f, noThread := t }.started c) l

theorem runsOf_some (l : List (K × Bool × Nat)) : ∀ (o : RunOpts K) (n : Int), o.nCPUs = some n → ∀ k (h : k < l.length),
    (runsOf o l)[k]? = some (if ((l.map fun x => x.2.1).take (k + 1)).any id then 1 else n) := by
  induction l with
  | nil => intro o n _ k h; simp at h
  | cons x l ih =>
    obtain ⟨f, t, c⟩ := x
    intro o n hn k h
    cases k with
    | zero =>
      cases t <;> simp [runsOf, RunOpts.cpus, hn]
    | succ k =>
      have e := ih ({ o with cpuFrac := f, noThread := t }.started c) (if t then 1 else n) (by
        cases t <;> simp [RunOpts.started, RunOpts.cpus, hn]) k (by simpa using h)
      refine e.trans ?_
      cases t <;> simp

/-- **C195 (exact)** Of all runs with an options object without a number of processes, the first decides: each run uses the whole part of the
first `cpuFrac` times the first number of CPUs, until a run is without threads; from then on every run uses one process. -/
theorem C195_runs (o : RunOpts K) (hn : o.nCPUs = none) (f : K) (t : Bool) (c : Nat) (l : List (K × Bool × Nat)) (k : Nat)
    (h : k < l.length + 1) :
    (runsOf o ((f, t, c) :: l))[k]? =
      some (if ((t :: l.map fun x => x.2.1).take (k + 1)).any id then 1 else ⌊(c : K) * f⌋) := by
  cases k with
  | zero => cases t <;> simp [runsOf, RunOpts.cpus, hn]
  | succ k =>
    have e := runsOf_some l ({ o with cpuFrac := f, noThread := t }.started c) (if t then 1 else ⌊(c : K) * f⌋) (by
      cases t <;> simp [RunOpts.started, RunOpts.cpus, hn]) k (by omega)
    refine e.trans ?_
    cases t <;> simp

/-- options of a run without threads on a computer with eight CPUs: afterwards one process, though four are asked for -/
example : ∃ o : RunOpts ℚ, o.nCPUs = none ∧ o.noThread = true ∧
    { o with noThread := false }.cpus 8 = 4 ∧ { o.started 8 with noThread := false }.cpus 8 = 1 := by
  refine ⟨⟨⟨none, none, none, false, 10⟩, 1, none, 1 / 2, true, true⟩, rfl, rfl, ?_, ?_⟩
  · decide +kernel
  · decide +kernel

/-- three runs: with half of eight CPUs, without threads, and with all CPUs asked for -/
example : ∃ o : RunOpts ℚ, o.nCPUs = none ∧ runsOf o [(1 / 2, false, 8), (1 / 2, true, 8), (1, false, 8)] = [4, 1, 1] :=
  ⟨⟨⟨none, none, none, false, 10⟩, 1, none, 1 / 2, true, true⟩, rfl, by decide +kernel⟩

end

end Misfit
