import Verif.Lemmas.WholeFit
import Verif.Props.Posterior
import Verif.Props.Continuous

/-!
# C199: a whole fit, from the settings to the credible intervals
-/

namespace Misfit
variable {V : Type*} {r c : Nat}

/-- with a new flat prior the samples of a fit are those of the run with its posterior -/
theorem sample_eq (w : Meaning V r c) (a : FitAttrs V) (env : SampleEnv) (s sm : Fit2D r c)
    (hs : s.setupModel = (sm, .ok ())) (t : FitSettings) (ht : s.settings = some t) (hl : t.vary.length = t.theta.length)
    (hn : t.names.length = t.theta.length) (hp : s.prior = none) (bounds : List (Option (Fl ℝ × Fl ℝ)))
    (hb : t.bounds = some bounds) (ha : a.read w = .ok s.input) (x : PrunedFit V r c) (hx : sm.prune w a = .ok x) :
    (∃ k, sm.kinModel = some k ∧ k.m = x.kin) ∧
    sm.sample w a env =
      match runFit env.version env.opts env.cpuCount (t.theta.map Fl.fin) t.vary bounds (likeAt x.kin env.other) env.draws
        env.burnMoves env.moves env.diag env.file with
      | .error e => .error e
      | .ok d => chainOfRows (t.vary.count true) d.flatchain := by
  have hin : sm.input = s.input := by
    obtain ⟨_, _, _, _, _, h3, _⟩ := setup_state s sm hs
    exact h3
  have hset : sm.settings = some t := by
    obtain ⟨t', _, _, h1, h2, _⟩ := setup_state s sm hs
    rw [ht] at h1
    cases h1
    exact h2
  have ha' : a.read w = .ok sm.input := by rw [hin]; exact ha
  unfold Fit2D.sample
  rw [hx]
  obtain ⟨t', k, f0, p, n, h1, h2, h3, h4, _, h6, _⟩ := prune_state w s sm hs a ha' x hx
  rw [ht] at h1
  cases h1
  obtain ⟨_, h8, _, h9⟩ := prune_parts w sm a t hset x hx
  refine ⟨⟨_, h6, rfl⟩, ?_⟩
  simp only [h6, h2]
  have hprior : p.bounds = some bounds ∧ p.logp = logPrior (t.theta.map Fl.fin) t.vary bounds := by
    have := setup_prior s t ht (by rw [hs])
    rw [hs, hp] at this
    simp only [h2, Option.some.injEq] at this
    unfold setupPrior at this
    simp only [Option.getD_none, PriorObj.flat] at this
    rw [if_pos ⟨trivial, by rw [hb]; rfl⟩] at this
    simp only at this
    rw [this, hb]
    exact ⟨rfl, rfl⟩
  rw [hprior.1, h8, h9]
  unfold runFit
  simp only [priorRanges, hn, List.length_map]
  cases rangeArrs t.theta.length t.vary bounds with
  | error e => rfl
  | ok ra =>
    simp only
    cases initWalkers ra env.draws with
    | error e => rfl
    | ok initial =>
      simp only
      rw [C198_run w s sm hs t ht hl a ha' x hx (priorThen x.prior env.other) env.plan,
        atPos_flat sm _ p x.prior h6 h2 (by rw [h4]; rfl) (t.theta.map Fl.fin) t.vary bounds hprior.2 env.other]
      cases runMcmc env.version env.opts env.cpuCount (flatPost (t.theta.map Fl.fin) t.vary bounds (likeAt x.kin env.other))
        initial env.burnMoves env.moves env.diag env.file <;> rfl

theorem sample_flat (w : Meaning V r c) (a : FitAttrs V) (env : SampleEnv) (s sm : Fit2D r c)
    (hs : s.setupModel = (sm, .ok ())) (t : FitSettings) (ht : s.settings = some t) (hl : t.vary.length = t.theta.length)
    (hn : t.names.length = t.theta.length) (hp : s.prior = none) (bounds : List (Option (Fl ℝ × Fl ℝ)))
    (hb : t.bounds = some bounds) (ha : a.read w = .ok s.input) (ch : Chain) (h : sm.sample w a env = .ok ch) :
    ∃ like d, runFit env.version env.opts env.cpuCount (t.theta.map Fl.fin) t.vary bounds like env.draws env.burnMoves
        env.moves env.diag env.file = .ok d ∧ chainOfRows (t.vary.count true) d.flatchain = .ok ch := by
  cases hx : sm.prune w a with
  | error e =>
    unfold Fit2D.sample at h
    rw [hx] at h
    cases h
  | ok x =>
    rw [(sample_eq w a env s sm hs t ht hl hn hp bounds hb ha x hx).2] at h
    cases hd : runFit env.version env.opts env.cpuCount (t.theta.map Fl.fin) t.vary bounds (likeAt x.kin env.other)
        env.draws env.burnMoves env.moves env.diag env.file with
    | error e => rw [hd] at h; cases h
    | ok d =>
      rw [hd] at h
      exact ⟨_, d, hd, h⟩

/-- **C199** From the settings of a fit to its results: if the call of `fit` returns, the one and two sigma intervals it
stores for a varying parameter are nested and lie inside the bounds of that parameter in the settings.  All data, instruments,
likelihoods (NaN included), proposals, options, numbers of processes, versions of emcee and peak searches; the parameter is not linked to
others.  With the option `absvalsigma`, which replaces samples by their absolute values, the bounds must be non-negative; a
file with samples is not continued. -/
theorem C199_limits (w : Meaning V r c) (a : FitAttrs V) (env : SampleEnv) (o : PeakFinder) (new : Option FitSettings)
    (s s2 : Fit2D r c) (d d2 : Disk r c) (h : s.fit o (Fit2D.sample w a env) new d = (s2, d2, .ok ()))
    (t : FitSettings) (ht : settingsUsed new s = some t) (hl : t.vary.length = t.theta.length)
    (hn : t.names.length = t.theta.length) (hp : s.prior = none) (bounds : List (Option (Fl ℝ × Fl ℝ)))
    (hb : t.bounds = some bounds) (hfin : FiniteOrderedBounds t.theta.length t.vary bounds) (ha : a.read w = .ok s.input)
    (hd : ∀ u ∈ env.draws, UnitDraws u ∧ u.length = t.vary.count true) (hnew : env.version = .v2 ∨ env.opts.overwrite = true)
    (i : Nat) (hi : i < t.theta.length) (hvi : t.vary[i]? = some true) (lo up : ℝ)
    (hbi : bounds[i]? = some (some (.fin lo, .fin up))) (hsig : s.absvalsigma = true → 0 ≤ lo)
    (hu : Unlinked t.linked (t.vary.count true + 4) ((t.vary.take i).count true)) :
    ∃ (res : FitResults) (b : ℝ) (l1 l2 : ℝ × ℝ), s2.results = some res ∧ res.best[(t.vary.take i).count true]? = some b ∧
      res.err1[(t.vary.take i).count true]? = some (b - l1.1, l1.2 - b) ∧
      res.err2[(t.vary.take i).count true]? = some (b - l2.1, l2.2 - b) ∧
      lo ≤ l2.1 ∧ l2.1 ≤ l1.1 ∧ l1.1 ≤ l1.2 ∧ l1.2 ≤ l2.2 ∧ l2.2 ≤ up := by
  obtain ⟨sm, ch, k, out, names, cols, res, e1, e2, e3, e4, e5, e6, e7⟩ := fit_stages o _ new s s2 d d2 h
  obtain ⟨like, dd, f1, f2⟩ := sample_flat w a env (s.given new) sm e1 t ht hl hn hp bounds hb ha ch e2
  have hlt : (t.theta.map (Fl.fin : ℝ → Fl ℝ)).length = t.theta.length := List.length_map ..
  have hin := C109_inside env.version env.opts env.cpuCount (t.theta.map Fl.fin) t.vary bounds like env.draws env.burnMoves
    env.moves env.diag env.file dd (by rw [hlt]; exact hl) (by rw [hlt]; exact hfin) hd (fun g1 g2 => by
      rcases hnew with hf | hf
      · rw [g1] at hf; exact absurd hf (by simp)
      · rw [g2] at hf; exact absurd hf (by simp)) f1
  rw [hlt] at hin
  obtain ⟨g1, g2⟩ := chainOfRows_ok _ _ _ f2
  have habs : sm.absvalsigma = s.absvalsigma ∧ sm.linked = t.linked := by
    obtain ⟨t', k0, f0, q1, _, q3, _⟩ := setupModel_inv _ _ e1
    have q1' : some t = some t' := ht.symm.trans q1
    cases q1'
    refine ⟨?_, q3⟩
    rcases setupModel_cases (s.given new) with ⟨_, q⟩ | ⟨t', _, ⟨x, _, q⟩ | ⟨k, _, ⟨x, _, q⟩ | ⟨_, ⟨x, _, q⟩ |
      ⟨f0, _, q⟩⟩⟩⟩ <;> rw [q] at e1 <;> first | (cases e1; done) | skip
    have := congrArg (fun y => y.1.absvalsigma) e1
    simp only [Fit2D.makeModel, Fit2D.ready] at this
    exact this.symm
  obtain ⟨fc, va, rt, sg, rest, a1, a2, a3, _⟩ := addVRe22_inv _ _ _ e4
  have hfc := absSigma_length _ _ a1
  have hcnt : ch.cols.length = t.vary.count true := by
    rw [g2]; simp
  simp only at hfc
  have hjlt : (t.vary.take i).count true < t.vary.count true := by
    have h0 : i < t.vary.length := by omega
    conv_rhs => rw [← List.take_append_drop i t.vary, List.count_append]
    rw [List.drop_eq_getElem_cons h0, show t.vary[i] = true by
      rw [List.getElem?_eq_getElem h0] at hvi
      exact Option.some.inj hvi]
    simp
  obtain ⟨hlen, hspec⟩ := mapE_spec _ _ _ e5
  have hclen : cols.length = t.vary.count true + 4 := by
    rw [hlen, a3, List.length_append, hfc, hcnt]
    rfl
  obtain ⟨cj, hcj⟩ : ∃ cj, fc[(t.vary.take i).count true]? = some cj :=
    ⟨_, List.getElem?_eq_getElem (by rw [hfc, hcnt]; exact hjlt)⟩
  obtain ⟨col, hcol, hval⟩ := hspec _ cj (by
    rw [a3, List.getElem?_append_left (by rw [hfc, hcnt]; exact hjlt)]
    exact hcj)
  rw [colValues_ok] at hval
  have hcolb : ∀ y ∈ col, lo ≤ y ∧ y ≤ up := by
    intro y hy
    obtain ⟨c0, hc0, hent⟩ := absSigma_entry _ _ a1 _ cj hcj
    have : (Fl.fin y : Fl ℝ) ∈ List.ofFn cj := by
      rw [hval]
      exact List.mem_map_of_mem hy
    obtain ⟨q, hq⟩ := List.mem_ofFn.1 this
    simp only at hc0
    subst g2
    simp only at hc0 q hent hq
    rw [List.getElem?_map, List.getElem?_range hjlt] at hc0
    simp only [Option.map_some, Option.some.injEq] at hc0
    obtain ⟨b, z, k1, k2, k3, k4⟩ := hin _ (List.getElem_mem q.2) i hi hvi
    rw [hbi] at k1
    simp only [Option.some.injEq] at k1
    subst k1
    have hz : c0 q = z := by
      rw [← hc0]
      simp only [List.getD_eq_getElem?_getD]
      rw [show (dd.flatchain[q]) = dd.flatchain[(q : ℕ)] from rfl, k2]
      rfl
    have hz' : ∃ z0, z = .fin z0 ∧ lo ≤ z0 ∧ z0 ≤ up := by
      cases z with
      | fin z0 => exact ⟨z0, rfl, by simpa [Fl.leB] using k3, by simpa [Fl.leB] using k4⟩
      | nan => simp [Fl.leB] at k3
      | pinf => simp [Fl.leB] at k4
      | ninf => simp [Fl.leB] at k3
    obtain ⟨z0, rfl, z1, z2⟩ := hz'
    rcases hent q with hy' | ⟨hab, hy'⟩
    · rw [hq, hz] at hy'
      cases hy'
      exact ⟨z1, z2⟩
    · rw [hq, hz] at hy'
      have h0 : 0 ≤ z0 := le_trans (hsig (habs.1 ▸ hab)) z1
      have : y = z0 := by
        have := Fl.fin.inj hy'
        rw [this]
        exact if_neg (not_lt.2 h0)
      rw [this]
      exact ⟨z1, z2⟩
  obtain ⟨b, l1, l2, v, r1, r2, r3, r4, r5, _, _, hne⟩ := paramPosterior_column o cols sm.linked names _ res e6 _ col hcol
    (by rw [habs.2, hclen]; exact hu)
  obtain ⟨l1', l2', e1', e2', n1, n2, n3⟩ := C42_nested col hne
  rw [r2] at e1'
  cases e1'
  rw [r3] at e2'
  cases e2'
  obtain ⟨w1, w2⟩ := C42_within col hne lo up hcolb l2 r3
  exact ⟨res, b, l1, l2, e7, r1, r4, r5, w1, n1, n2, n3, w2⟩

/-- **C199** A whole fit does not depend on where the posterior is evaluated: the object, the files and the outcome, exceptions included,
are the same for every distribution of the evaluations over processes. -/
theorem C199_processes (w : Meaning V r c) (a : FitAttrs V) (env : SampleEnv) (plan' : Plan) (o : PeakFinder)
    (new : Option FitSettings) (s : Fit2D r c) (d : Disk r c) (hl : ∀ t, settingsUsed new s = some t →
      t.vary.length = t.theta.length) (ha : a.read w = .ok s.input) :
    s.fit o (Fit2D.sample w a env) new d = s.fit o (Fit2D.sample w a { env with plan := plan' }) new d := by
  refine fit_congr o _ _ new s d fun sm hs => ?_
  obtain ⟨t, k0, f0, h1, h2, h3, _⟩ := setup_state _ sm hs
  have ha' : a.read w = .ok sm.input := by rw [h3]; exact ha
  unfold Fit2D.sample
  cases hx : sm.prune w a with
  | error e => rfl
  | ok x =>
    simp only
    rcases sm.kinModel with _ | k
    · rfl
    rcases sm.prior with _ | p
    · rfl
    simp only
    cases priorRanges k.names.length k.m.params.vary p.bounds with
    | error e => rfl
    | ok ra =>
      simp only
      cases initWalkers ra env.draws with
      | error e => rfl
      | ok initial =>
        simp only
        rw [C198_processes w _ sm hs t h1 (hl t h1) a ha' x hx (priorThen x.prior env.other) env.plan plan']

/-- without bounds the first varying parameter is a TypeError -/
theorem priorNoBounds_vary : ∀ (n : Nat) (vary : List Bool), true ∈ vary.take n → priorNoBounds n vary = .error .typeError
  | 0, vary, h => by simp at h
  | n + 1, [], h => by simp at h
  | n + 1, true :: vary, h => rfl
  | n + 1, false :: vary, h => by
      show priorNoBounds n vary = _
      exact priorNoBounds_vary n vary (by simpa using h)

/-- **C199** Settings without bounds: once set up, the fit of a parameter is refused with a TypeError at the starting positions
(unless the copy for the sampler failed before), so `fit` does not return. -/
theorem C199_no_bounds (w : Meaning V r c) (a : FitAttrs V) (env : SampleEnv) (o : PeakFinder) (new : Option FitSettings)
    (s : Fit2D r c) (d : Disk r c) (t : FitSettings) (ht : settingsUsed new s = some t) (hp : s.prior = none)
    (hb : t.bounds = none) (hv : true ∈ t.vary.take t.names.length) (ha : a.read w = .ok s.input) :
    (∀ s2 d2, s.fit o (Fit2D.sample w a env) new d ≠ (s2, d2, .ok ())) ∧
    ∀ sm x, (s.given new).setupModel = (sm, .ok ()) → sm.prune w a = .ok x → sm.sample w a env = .error .typeError := by
  have key : ∀ sm x, (s.given new).setupModel = (sm, .ok ()) → sm.prune w a = .ok x →
      sm.sample w a env = .error .typeError := by
    intro sm x hs hx
    have ht' : (s.given new).settings = some t := ht
    obtain ⟨t', _, _, h1, hset, h3, _⟩ := setup_state _ sm hs
    rw [ht'] at h1
    cases h1
    have ha' : a.read w = .ok sm.input := by rw [h3]; exact ha
    obtain ⟨t', k, f0, p, n, h1, h2, -, -, -, h6, -⟩ := prune_state w _ sm hs a ha' x hx
    rw [ht'] at h1
    cases h1
    obtain ⟨-, h8, -⟩ := prune_parts w sm a t hset x hx
    have hpb : p.bounds = none := by
      have := setup_prior _ t ht' (by rw [hs])
      rw [hs] at this
      have hp' : (s.given new).prior = none := hp
      rw [hp'] at this
      simp only [h2, Option.some.injEq] at this
      rw [this]
      simp [setupPrior, PriorObj.flat, hb]
    unfold Fit2D.sample
    rw [hx]
    simp only [h6, h2, hpb, h8, priorRanges, priorNoBounds_vary _ _ hv]
  refine ⟨fun s2 d2 h => ?_, key⟩
  obtain ⟨sm, ch, k, out, names, cols, res, e1, e2, -⟩ := fit_stages o _ new s s2 d d2 h
  cases hx : sm.prune w a with
  | error e => unfold Fit2D.sample at e2; rw [hx] at e2; cases e2
  | ok x => rw [key sm x e1 hx] at e2; cases e2

/-! ## Example -/

theorem cellSpec_pos (sig z lam : ℝ) (hs : 0 < sig) (hz : 0 < 1 + z) : 0 < cellSpec sig z lam := by
  unfold cellSpec gaussDensity
  have : (0 : ℝ) < cKms := by unfold cKms; norm_num
  positivity

/-- the likelihood of the example is a number at positions with positive radius and dispersion -/
theorem one_like (va rt sig : ℝ) (hrt : 0 < rt) (hs : 0 < sig) (k : KinObj 1 2) (hk : oneFit.setupModel.1.kinModel = some k) :
    ∃ v, (k.m.lnlike [va, rt, sig]).2 = .ok (.fin v) := by
  have hk' : oneFit.setupModel.1.kinModel = some ⟨((KinModelState.init [0, 1, 1, 0, 0] [true, true, true, false, false]
    ⟨[0, 1, 1, 0, 0], some ⟨[0, 1], 2⟩, some ⟨[1], 1⟩⟩ false : KinModelState 1 2).make oneInput [0, 1, 1]).1,
      ["V_a", "r_t", "sigma0", "m0_shift", "z"], none⟩ := rfl
  rw [hk'] at hk
  cases hk
  have h0 : ((KinModelState.init [0, 1, 1, 0, 0] [true, true, true, false, false]
      ⟨[0, 1, 1, 0, 0], some ⟨[0, 1], 2⟩, some ⟨[1], 1⟩⟩ false : KinModelState 1 2).make oneInput [0, 1, 1]).2 = .ok () :=
    one_setup_ok
  have hout : SameOutcome (((KinModelState.init [0, 1, 1, 0, 0] [true, true, true, false, false]
      ⟨[0, 1, 1, 0, 0], some ⟨[0, 1], 2⟩, some ⟨[1], 1⟩⟩ false : KinModelState 1 2).make oneInput [0, 1, 1]).1.update
        [va, rt, sig]) ((KinModelState.init [0, 1, 1, 0, 0] [true, true, true, false, false]
      ⟨[0, 1, 1, 0, 0], some ⟨[0, 1], 2⟩, some ⟨[1], 1⟩⟩ false : KinModelState 1 2).make oneInput [va, rt, sig]) :=
    (C85_history oneInput [0, 1, 1] [true, true, true] 0 0 ⟨[0, 1, 1, 0, 0], some ⟨[0, 1], 2⟩, some ⟨[1], 1⟩⟩ false
      rfl [0, 1, 1] [] _ _ rfl rfl h0 (fun h => absurd h Bool.false_ne_true) [va, rt, sig]).1
  obtain ⟨B, -, hB⟩ := scaleModel_contOn (X := Unit) (S := Set.univ) (r := 1) (c := 2) (fun _ _ => 1) (fun _ _ => 1)
    (fun _ (_ : Fin 1) (w : Fin 2) => cellSpec sig 0 (([1, 2] : List ℝ).get w)) [0, 1] (fun _ _ => one_ne_zero) (by simp)
    (fun _ _ => continuousOn_const) (fun _ _ _ _ => cellSpec_pos _ _ _ hs (by norm_num))
  obtain ⟨L, -, hL⟩ := llike_contOn (X := Unit) (S := Set.univ) (fun _ _ => 1) (fun _ _ => 1) (fun _ _ => 1) (fun _ _ => 1) (fun _ => B ())
    (fun _ _ => one_ne_zero) (fun _ _ => continuousOn_const)
  have hmk := one_init_make [va, rt, sig] va rt sig rfl hrt.ne' hs.ne' _ rfl
  rw [one_make_three 0 1 1 0 false va rt sig hrt.ne' hs.ne' (by norm_num)] at hmk
  refine ⟨L (), ?_⟩
  have h2 : ∀ m : KinModelState 1 2, m.noScale = false → (∃ s, m.aper = some (oneInput, s)) →
      (finishModel m oneInput (some ⟨1, 2, fun _ w => cellSpec sig 0 (([1, 2] : List ℝ).get w)⟩)).2 = .ok () ∧
      (finishModel m oneInput (some ⟨1, 2, fun _ w => cellSpec sig 0 (([1, 2] : List ℝ).get w)⟩)).1.llike =
        .ok (.fin (L ())) := by
    rintro m hm ⟨s, hma⟩
    refine ⟨finish_one_ok _ _, ?_⟩
    have himg : toImg 1 2 (some ⟨1, 2, fun _ w => cellSpec sig 0 (([1, 2] : List ℝ).get w)⟩) =
        finImg (fun (_ : Fin 1) (w : Fin 2) => cellSpec sig 0 (([1, 2] : List ℝ).get w)) := by
      funext i j
      unfold toImg finImg
      dsimp only
      rw [dif_pos ⟨rfl, rfl⟩]
      rfl
    unfold finishModel
    simp only [hm, Bool.false_eq_true, if_false, himg]
    simp only [show oneInput.nosky = some [0, 1] from rfl]
    unfold KinModelState.llike
    simp only [hma]
    rw [show oneInput.data = finData (fun _ _ => 1) (fun _ _ => 1) (fun _ _ => 1) (fun _ _ => 1) from rfl]
    rw [show (finData (fun _ _ => 1) (fun _ _ => 1) (fun _ _ => 1) (fun _ _ => 1) : FitData 1 2 ℝ).flux =
        finImg fun _ _ => 1 from rfl,
      show (finData (fun _ _ => 1) (fun _ _ => 1) (fun _ _ => 1) (fun _ _ => 1) : FitData 1 2 ℝ).err =
        finImg fun _ _ => 1 from rfl, hB () trivial, hL ()]
  unfold KinModelState.lnlike
  revert hout
  generalize KinModelState.update _ [va, rt, sig] = y
  obtain ⟨y1, y2⟩ := y
  rintro ⟨e1, e2⟩
  have hz := h2 ⟨⟨[va, rt, sig, 0, 0], [true, true, true, false, false], 3⟩,
        ⟨[va, rt, sig, 0, 0], some ⟨[va, rt], 2⟩, some ⟨[sig], 1⟩⟩, false,
        some (oneInput, oneState [1, 2] false 0 [va, rt, sig, 0, 0] [va, rt] [sig] [1, 2] (avgDiff [1, 2])), none⟩
        rfl ⟨_, rfl⟩
  simp only at e1 e2
  have e3 : y2 = .ok () := by
    rw [e1]
    exact (congrArg Prod.snd hmk).trans hz.1
  subst e3
  simp only
  rw [(e2 rfl).2.2]
  exact (congrArg (fun q => q.1.llike) hmk).trans hz.2

/-- three walkers that start inside the bounds and stay where they are; the evaluations are distributed over four processes -/
noncomputable def oneEnv : SampleEnv where
  version := .v3
  opts := { stop := { minAF := none, maxAF := none, nEff := none, runAllSteps := true, nSteps := 1 }
            nBurn := 0, nCPUs := none, cpuFrac := 3 / 4, noThread := true, overwrite := true }
  cpuCount := 8
  draws := [[.fin (1/4), .fin (1/5), .fin (1/2)], [.fin (1/2), .fin (1/5), .fin (3/5)], [.fin (1/4), .fin (2/5), .fin (1/2)]]
  burnMoves := fun _ => []
  moves := fun _ => []
  diag := fun _ => ⟨.nan, none⟩
  file := []
  plan := ⟨(· % 4), fun _ => false⟩
  other := fun _ => .ok .nan

/-- a run of three walkers of this kind, from the positions on -/
theorem oneEnv_run (post : List (Fl ℝ) → Except PyErr (Fl ℝ)) (x1 x2 x3 : List (Fl ℝ)) (v1 v2 v3 : ℝ)
    (h1 : post x1 = .ok (.fin v1)) (h2 : post x2 = .ok (.fin v2)) (h3 : post x3 = .ok (.fin v3)) :
    ∃ d, runMcmc oneEnv.version oneEnv.opts oneEnv.cpuCount post [x1, x2, x3] oneEnv.burnMoves oneEnv.moves oneEnv.diag
      oneEnv.file = .ok d ∧ d.flatchain = [x1, x2, x3] := by
  unfold runMcmc
  simp only [startEnsemble, evalPost, h1, h2, h3, reduceCtorEq, if_false]
  refine ⟨dictOf 3 [[⟨x1, .fin v1⟩, ⟨x2, .fin v2⟩, ⟨x3, .fin v3⟩]], ?_, rfl⟩
  simp only [oneEnv, burnIn, storedBefore, or_true, if_true, produce, stepEnsemble, ite_self, one_ne_zero, if_false, reduceCtorEq,
    false_and]
  rfl

theorem one_sample (sm : Fit2D 1 2) (hs : oneFit.setupModel = (sm, .ok ())) :
    sm.sample oneMeaning (oneAttrs false) oneEnv = oneRun sm := by
  have hin : sm.input = oneInput := by
    obtain ⟨_, _, _, _, _, h3, _⟩ := setup_state _ sm hs
    exact h3
  obtain ⟨x, hx⟩ := (C194_exact_partial oneMeaning oneFit sm hs (oneAttrs false) (by rw [hin]; exact one_read false)).2
    ⟨⟨false, rfl, rfl⟩, fun k _ => ⟨_, rfl⟩, fun sp hsp k _ => by cases hsp; exact ⟨_, rfl⟩, fun k _ => ⟨_, rfl⟩⟩
  obtain ⟨⟨k, hk, hkx⟩, he⟩ := sample_eq oneMeaning (oneAttrs false) oneEnv oneFit sm hs _ rfl rfl rfl rfl _ rfl
    (one_read false) x hx
  have hk' : oneFit.setupModel.1.kinModel = some k := by rw [hs]; exact hk
  rw [he]
  have hra : rangeArrs (([0, 1, 1, 0, 0] : List ℝ).map (Fl.fin : ℝ → Fl ℝ)).length [true, true, true, false, false]
      [some (.fin 0, .fin 400), some (.fin 0, .fin 5), some (.fin 0, .fin 100), none, none] =
      .ok [((.fin 400 : Fl ℝ), .fin 0), (.fin 5, .fin 0), (.fin 100, .fin 0)] := by
    norm_num [rangeArrs, pyMax, pyMin, Fl.ltB]
  have hin3 : initWalkers [((.fin 400 : Fl ℝ), .fin 0), (.fin 5, .fin 0), (.fin 100, .fin 0)] oneEnv.draws =
      .ok [[.fin 100, .fin 1, .fin 50], [.fin 200, .fin 1, .fin 60], [.fin 100, .fin 2, .fin 50]] := by
    norm_num [oneEnv, initWalkers, walkerPos]
  unfold runFit
  simp only [hra, hin3]
  have hpost : ∀ va rt sig : ℝ, 0 < va → va < 400 → 0 < rt → rt < 5 → 0 < sig → sig < 100 → ∃ v,
      flatPost (([0, 1, 1, 0, 0] : List ℝ).map (Fl.fin : ℝ → Fl ℝ)) [true, true, true, false, false]
        [some (.fin 0, .fin 400), some (.fin 0, .fin 5), some (.fin 0, .fin 100), none, none] (likeAt x.kin oneEnv.other)
        [.fin va, .fin rt, .fin sig] = .ok (.fin v) := by
    intro va rt sig h1 h2 h3 h4 h5 h6
    obtain ⟨v, hv⟩ := one_like va rt sig h3 h5 k hk'
    rw [hkx] at hv
    have hpr : logPrior (([0, 1, 1, 0, 0] : List ℝ).map (Fl.fin : ℝ → Fl ℝ)) [true, true, true, false, false]
        [some (.fin 0, .fin 400), some (.fin 0, .fin 5), some (.fin 0, .fin 100), none, none]
        [.fin va, .fin rt, .fin sig] = .ok 0 := by
      simp [logPrior, priorStatements, between, Fl.leB, h1.le, h2.le, h3.le, h4.le, h5.le, h6.le]
    refine ⟨0 + v, ?_⟩
    unfold flatPost lnprob
    rw [hpr]
    have hl : likeAt x.kin oneEnv.other [.fin va, .fin rt, .fin sig] = .ok (.fin v) := hv
    simp only [hl]
    rfl
  obtain ⟨v1, h1⟩ := hpost 100 1 50 (by norm_num) (by norm_num) (by norm_num) (by norm_num) (by norm_num) (by norm_num)
  obtain ⟨v2, h2⟩ := hpost 200 1 60 (by norm_num) (by norm_num) (by norm_num) (by norm_num) (by norm_num) (by norm_num)
  obtain ⟨v3, h3⟩ := hpost 100 2 50 (by norm_num) (by norm_num) (by norm_num) (by norm_num) (by norm_num) (by norm_num)
  obtain ⟨d, hd, hf⟩ := oneEnv_run _ _ _ _ v1 v2 v3 h1 h2 h3
  simp only [hd, hf]
  unfold chainOfRows oneRun
  rw [if_pos (by simp)]
  congr 1
  simp only [List.length_cons, List.length_nil, List.map_cons, List.map_nil]
  congr 1
  simp only [show List.count true [true, true, true, false, false] = 3 from rfl, List.range_succ, List.range_zero, List.nil_append,
    List.map_append, List.map_cons, List.map_nil, List.cons_append, List.cons.injEq, and_true]
  refine ⟨?_, ?_, ?_⟩ <;> (funext i; fin_cases i <;> rfl)

/-- A whole fit that returns, from the settings to the intervals: the 1 and 2 sigma interval of the dispersion lies between its bounds 0 and
100. -/
example (d : Disk 1 2) : ∃ (s2 : Fit2D 1 2) (d2 : Disk 1 2) (res : FitResults) (b : ℝ) (l1 l2 : ℝ × ℝ),
      oneFit.fit peakOne (Fit2D.sample oneMeaning (oneAttrs false) oneEnv) none d =
      (s2, d2, .ok ()) ∧ s2.results = some res ∧ res.best[2]? = some b ∧ res.err1[2]? = some (b - l1.1, l1.2 - b) ∧
      res.err2[2]? = some (b - l2.1, l2.2 - b) ∧
      (0 : ℝ) ≤ l2.1 ∧ l2.1 ≤ l1.1 ∧ l1.1 ≤ l1.2 ∧ l1.2 ≤ l2.2 ∧ l2.2 ≤ 100 := by
  obtain ⟨s1, d1, h⟩ := one_fit_ok d
  rw [← fit_congr peakOne _ oneRun none oneFit d fun sm hs => one_sample sm hs] at h
  have hb : FiniteOrderedBounds 5 [true, true, true, false, false]
      [some ((.fin 0 : Fl ℝ), .fin 400), some (.fin 0, .fin 5), some (.fin 0, .fin 100), none, none] := by
    intro i _ hv
    match i, hv with
    | 0, _ => exact ⟨0, 400, by norm_num, rfl⟩
    | 1, _ => exact ⟨0, 5, by norm_num, rfl⟩
    | 2, _ => exact ⟨0, 100, by norm_num, rfl⟩
    | 3, hv => cases hv
    | 4, hv => cases hv
    | _ + 5, hv => cases hv
  have hq : ∀ u ∈ oneEnv.draws, u.length = 3 ∧ ∀ x ∈ u, ∃ r : ℝ, 0 ≤ r ∧ r < 1 ∧ x = .fin r := by
    intro u hu
    simp only [oneEnv, List.mem_cons, List.not_mem_nil, or_false] at hu
    rcases hu with rfl | rfl | rfl <;> refine ⟨rfl, fun x hx => ?_⟩ <;>
      simp only [List.mem_cons, List.not_mem_nil, or_false] at hx <;> rcases hx with rfl | rfl | rfl <;>
      exact ⟨_, by norm_num, by norm_num, rfl⟩
  obtain ⟨res, b, l1, l2, g⟩ := C199_limits oneMeaning (oneAttrs false) oneEnv peakOne none oneFit s1 d d1 h _ rfl rfl rfl rfl _
    rfl hb (one_read false) (fun u hu => ⟨(hq u hu).2, (hq u hu).1⟩) (.inr rfl) 2 (by decide) rfl 0 100 rfl
    (fun h => by cases h) (fun s hs => by cases hs)
  exact ⟨s1, d1, res, b, l1, l2, h, g⟩

/-- the same fit with settings without bounds is refused -/
example (d : Disk 1 2) (t : FitSettings) (ht : oneFit.settings = some t) : ∀ s2 d2,
    oneFit.fit peakOne (Fit2D.sample oneMeaning (oneAttrs false) oneEnv) (some { t with bounds := none }) d ≠ (s2, d2, .ok ()) := by
  refine (C199_no_bounds oneMeaning (oneAttrs false) oneEnv peakOne _ oneFit d _ rfl rfl rfl ?_ (one_read false)).1
  cases ht
  simp

end Misfit
