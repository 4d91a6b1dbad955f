import Verif.Lemmas.Sampler
import Verif.Props.MCMC
import Verif.Props.Posterior
import Verif.Props.Params
import Mathlib.Data.Rat.Floor

/-!
# C109–C113: a whole sampling run
-/

namespace Misfit

/-! ## C109, C110 -/
section
variable {K : Type*} [Field K] [LinearOrder K] [IsStrictOrderedRing K] [FloorRing K]

theorem flatPost_finite {theta : List (Fl K)} {vary : List Bool} {bounds : List (Option (Fl K × Fl K))}
    {like : List (Fl K) → Except PyErr (Fl K)} {x : List (Fl K)} {p : Fl K}
    (h : flatPost theta vary bounds like x = .ok p) (hp : p ≠ .ninf) :
    InBounds theta.length vary bounds x := by
  unfold flatPost at h
  cases hpr : logPrior theta vary bounds x with
  | error e => simp [lnprob, hpr] at h
  | ok q =>
    unfold logPrior at hpr
    split at hpr
    · simp at hpr
    · rename_i st hst
      by_cases hall : st.all id = true
      · exact (priorStatements_spec _ _ _ _ _ hst).1 hall
      · exfalso
        have hq : logPrior theta vary bounds x = .ok .ninf := by
          simp only [logPrior, hst]
          rw [if_neg hall]
        simp only [lnprob, hq] at h
        exact hp (by simpa [Fl.isFinite] using h.symm)

/-- What a run that returned consists of: stored steps, of which those after `old` were made by it. -/
theorem runFit_ok {v : EmceeVersion} {o : RunOpts K} {cpuCount : Nat}
    {theta : List (Fl K)} {vary : List Bool} {bounds : List (Option (Fl K × Fl K))}
    {like : List (Fl K) → Except PyErr (Fl K)} {draws : List (List (Fl K))}
    {burnMoves moves : Nat → List (Move K)} {diag : List (List (Walker K)) → StepDiag K}
    {file : List (List (Walker K))} {d : SamplerDict (List (Fl K)) (Fl K)}
    (hv : vary.length = theta.length) (hb : FiniteOrderedBounds theta.length vary bounds)
    (hd : ∀ u ∈ draws, UnitDraws u ∧ u.length = vary.count true)
    (h : runFit v o cpuCount theta vary bounds like draws burnMoves moves diag file = .ok d) :
    ∃ old tail, storedBefore v o.overwrite draws.length file = .ok old ∧ o.stop.nSteps ≠ 0 ∧ tail ≠ [] ∧
      d = dictOf draws.length (old ++ tail) ∧
      (∀ e ∈ tail, e.length = draws.length ∧ ∀ w ∈ e, InBounds theta.length vary bounds w.pos ∧
        flatPost theta vary bounds like w.pos = .ok w.prob) ∧
      sampleLoop o.stop (fun j => diag ((old ++ tail).take (old.length + j + 1))) none 0 o.stop.nSteps =
        some (tail.length - 1) := by
  unfold runFit at h
  split at h
  · simp at h
  · rename_i ra hra
    split at h
    · simp at h
    · rename_i initial hinit
      obtain ⟨hlen, hmem⟩ := initWalkers_mem _ hinit
      obtain ⟨e0, e1, old, hist, h0, h1, ho, hh, hn, _, hdd⟩ := runMcmc_ok h
      rw [hlen] at ho hdd
      obtain ⟨hpos, hprob⟩ := startEnsemble_ok _ h0
      have hP : Accepts (flatPost theta vary bounds like) (fun w => InBounds theta.length vary bounds w.pos ∧
          flatPost theta vary bounds like w.pos = .ok w.prob) :=
        fun w h1 _ h3 => ⟨flatPost_finite h1 h3, h1⟩
      have hI0 : ∀ w ∈ e0, InBounds theta.length vary bounds w.pos ∧
          flatPost theta vary bounds like w.pos = .ok w.prob := by
        intro w hw
        refine ⟨?_, hprob w hw⟩
        have : w.pos ∈ initial := by rw [← hpos]; exact List.mem_map_of_mem hw
        obtain ⟨u, hu, hwp⟩ := hmem _ this
        obtain ⟨ra', p, hr', hp', _, _, hin⟩ := C05_walkers_inside theta vary bounds u hv hb (hd u hu).1 (hd u hu).2
        rw [hra] at hr'
        simp only [Except.ok.injEq] at hr'
        subst hr'
        rw [hwp] at hp'
        simp only [Except.ok.injEq] at hp'
        rw [hp']
        exact hin
      have hl0 : e0.length = draws.length := by
        rw [← hlen, ← hpos, List.length_map]
      obtain ⟨hl1, hI1⟩ := burnIn_inv hP burnMoves _ _ h1 hI0
      obtain ⟨tail, ht, hall, hs⟩ := produce_spec hP o.stop moves diag old.length o.stop.nSteps 0 none hh rfl hI1
      have hne : tail ≠ [] := by
        rintro rfl
        rw [if_pos rfl] at hs
        obtain ⟨n, hn'⟩ := Nat.exists_eq_succ_of_ne_zero hn
        obtain ⟨r, hr⟩ := sampleLoop_some o.stop (fun j => diag (hist.take (old.length + j + 1))) o.stop.nSteps 0 none
          (Or.inl (by omega))
        rw [hs] at hr
        exact absurd hr (by simp)
      rw [if_neg hne] at hs
      subst ht
      exact ⟨old, tail, ho, hn, hne, hdd, fun e he => ⟨((hall e he).1.trans hl1).trans hl0, (hall e he).2⟩,
        by simpa using hs⟩

theorem storedBefore_ok {v : EmceeVersion} {ow : Bool} {nW : Nat} {file old : List (List (Walker K))}
    (h : storedBefore v ow nW file = .ok old) :
    ((v = .v2 ∨ ow = true) → old = []) ∧
    (¬ (v = .v2 ∨ ow = true) → old = file ∧ ∀ e ∈ file, e.length = nW) := by
  unfold storedBefore at h
  split at h
  · rename_i hc
    simp only [Except.ok.injEq] at h
    exact ⟨fun _ => h.symm, fun hn => absurd hc hn⟩
  · rename_i hc
    split at h
    · rename_i ha
      simp only [Except.ok.injEq] at h
      refine ⟨fun hn => absurd hn hc, fun _ => ⟨h.symm, fun e he => ?_⟩⟩
      have := List.all_eq_true.1 ha e he
      simpa using this
    · simp at h

/-- **C109**: every sample of a run that returned lies inside the prior bounds of every varying parameter: for both
versions of emcee, all options, all likelihoods (NaN, infinities included), all proposals and all acceptance
thresholds.  Samples that an earlier run left in the file (emcee 3 without `overwrite`) are kept as they are, so
for those it is assumed. -/
theorem C109_inside (v : EmceeVersion) (o : RunOpts K) (cpuCount : Nat)
    (theta : List (Fl K)) (vary : List Bool) (bounds : List (Option (Fl K × Fl K)))
    (like : List (Fl K) → Except PyErr (Fl K)) (draws : List (List (Fl K)))
    (burnMoves moves : Nat → List (Move K)) (diag : List (List (Walker K)) → StepDiag K)
    (file : List (List (Walker K))) (d : SamplerDict (List (Fl K)) (Fl K))
    (hv : vary.length = theta.length) (hb : FiniteOrderedBounds theta.length vary bounds)
    (hd : ∀ u ∈ draws, UnitDraws u ∧ u.length = vary.count true)
    (hfile : v = .v3 → o.overwrite = false → ∀ e ∈ file, ∀ w ∈ e, InBounds theta.length vary bounds w.pos)
    (h : runFit v o cpuCount theta vary bounds like draws burnMoves moves diag file = .ok d) :
    ∀ x ∈ d.flatchain, InBounds theta.length vary bounds x := by
  obtain ⟨old, tail, ho, _, _, rfl, hall, _⟩ := runFit_ok hv hb hd h
  obtain ⟨s1, s2⟩ := storedBefore_ok ho
  rw [(dictOf_flat _ _).1]
  intro x hx
  obtain ⟨w, hw, rfl⟩ := List.mem_map.1 hx
  obtain ⟨e, he, hwe⟩ := chainOf_mem hw
  rcases List.mem_append.1 he with he | he
  · by_cases hc : v = .v2 ∨ o.overwrite = true
    · rw [s1 hc] at he
      exact absurd he (by simp)
    · rw [(s2 hc).1] at he
      refine hfile ?_ ?_ e he w hwe
      · cases v with
        | v2 => exact absurd (Or.inl rfl) hc
        | v3 => rfl
      · exact Bool.eq_false_iff.2 (fun hh => hc (Or.inr hh))
  · exact ((hall e he).2 w hwe).1

/-- **C110**: the stored log-probabilities belong to the stored samples: the two flattened arrays have the same length,
and the `k`-th log-probability is the posterior of the `k`-th sample. -/
theorem C110_prob (v : EmceeVersion) (o : RunOpts K) (cpuCount : Nat)
    (theta : List (Fl K)) (vary : List Bool) (bounds : List (Option (Fl K × Fl K)))
    (like : List (Fl K) → Except PyErr (Fl K)) (draws : List (List (Fl K)))
    (burnMoves moves : Nat → List (Move K)) (diag : List (List (Walker K)) → StepDiag K)
    (file : List (List (Walker K))) (d : SamplerDict (List (Fl K)) (Fl K))
    (hv : vary.length = theta.length) (hb : FiniteOrderedBounds theta.length vary bounds)
    (hd : ∀ u ∈ draws, UnitDraws u ∧ u.length = vary.count true)
    (hfile : v = .v3 → o.overwrite = false → ∀ e ∈ file, ∀ w ∈ e,
      (lnprob (logPrior theta vary bounds) (fun (_ : Unit) y => ((), like y)) () w.pos).2 = .ok w.prob)
    (h : runFit v o cpuCount theta vary bounds like draws burnMoves moves diag file = .ok d) :
    d.flatlnprobability.length = d.flatchain.length ∧
    ∀ (k : Nat) x, d.flatchain[k]? = some x → ∃ p, d.flatlnprobability[k]? = some p ∧
      (lnprob (logPrior theta vary bounds) (fun (_ : Unit) y => ((), like y)) () x).2 = .ok p := by
  obtain ⟨old, tail, ho, _, _, rfl, hall, _⟩ := runFit_ok hv hb hd h
  obtain ⟨s1, s2⟩ := storedBefore_ok ho
  rw [(dictOf_flat _ _).1, (dictOf_flat _ _).2]
  refine ⟨by rw [List.length_map, List.length_map], fun k x hk => ?_⟩
  rw [List.getElem?_map] at hk
  obtain ⟨w, hw, rfl⟩ := Option.map_eq_some_iff.1 hk
  refine ⟨w.prob, by rw [List.getElem?_map, hw]; rfl, ?_⟩
  obtain ⟨e, he, hwe⟩ := chainOf_mem (List.mem_of_getElem? hw)
  rcases List.mem_append.1 he with he | he
  · by_cases hc : v = .v2 ∨ o.overwrite = true
    · rw [s1 hc] at he
      exact absurd he (by simp)
    · rw [(s2 hc).1] at he
      refine hfile ?_ ?_ e he w hwe
      · cases v with
        | v2 => exact absurd (Or.inl rfl) hc
        | v3 => rfl
      · exact Bool.eq_false_iff.2 (fun hh => hc (Or.inr hh))
  · exact ((hall e he).2 w hwe).2

/-! ## C111 -/

theorem productionRun_of_loop {o : StopOpts K} {diag : Nat → StepDiag K} {n : Nat} (hn : 1 ≤ n)
    (h : sampleLoop o diag none 0 o.nSteps = some (n - 1)) :
    ∃ r, productionRun o diag = .ok r ∧ r.finishedSteps = n := by
  refine ⟨_, by rw [productionRun, h], ?_⟩
  simp only
  omega

theorem dictOf_rect {nW : Nat} {hist : List (List (Walker K))} (h : ∀ e ∈ hist, e.length = nW) :
    Rect nW hist.length (dictOf nW hist).chain := by
  have e : (dictOf nW hist).chain = (chainOf nW hist).map (List.map Walker.pos) := by
    simp only [dictOf, makeSamplerDict, List.map_map]
    rfl
  rw [e]
  refine ⟨by simp [chainOf], fun x hx => ?_⟩
  simp only [chainOf, List.map_map, List.mem_map, List.mem_range] at hx
  obtain ⟨k, hk, rfl⟩ := hx
  simp only [Function.comp_apply, List.length_map]
  exact filterMap_length hk h

/-- **C111** (partial): the samples of a run are one for each walker and each production step of this run, `n` steps in
all, where `n` is the number of steps reported by the run; burn-in steps and earlier runs contribute nothing.
Missing from the full claim (all runs): emcee 3 without `overwrite`, where it fails; see `C111_continued_partial`,
`C111_false`. -/
theorem C111_count_partial (v : EmceeVersion) (o : RunOpts K) (cpuCount : Nat)
    (theta : List (Fl K)) (vary : List Bool) (bounds : List (Option (Fl K × Fl K)))
    (like : List (Fl K) → Except PyErr (Fl K)) (draws : List (List (Fl K)))
    (burnMoves moves : Nat → List (Move K)) (diag : List (List (Walker K)) → StepDiag K)
    (file : List (List (Walker K))) (d : SamplerDict (List (Fl K)) (Fl K))
    (hv : vary.length = theta.length) (hb : FiniteOrderedBounds theta.length vary bounds)
    (hd : ∀ u ∈ draws, UnitDraws u ∧ u.length = vary.count true)
    (hfresh : v = .v2 ∨ o.overwrite = true)
    (h : runFit v o cpuCount theta vary bounds like draws burnMoves moves diag file = .ok d) :
    ∃ (steps : List (List (Walker K))) (r : RunReport),
      productionRun o.stop (fun j => diag (steps.take (j + 1))) = .ok r ∧ steps.length = r.finishedSteps ∧
      Rect draws.length r.finishedSteps d.chain ∧ d.flatchain.length = draws.length * r.finishedSteps ∧
      r.finishedSteps ≤ o.stop.nSteps := by
  obtain ⟨old, tail, ho, _, hne, rfl, hall, hs⟩ := runFit_ok hv hb hd h
  obtain rfl := (storedBefore_ok ho).1 hfresh
  simp only [List.nil_append, List.length_nil, Nat.zero_add] at hs ⊢
  obtain ⟨r, hr, hf⟩ := productionRun_of_loop (List.length_pos_iff.2 hne) hs
  refine ⟨tail, r, hr, hf.symm, ?_, ?_, (C39_stop _ _ _ hr).2.1⟩
  · rw [hf]; exact dictOf_rect (fun e he => (hall e he).1)
  · rw [(dictOf_flat _ _).1, List.length_map, hf]
    exact chainOf_length (fun e he => (hall e he).1)

/-- **C111** (partial): with emcee 3 and without `overwrite` the steps in the file are part of the samples, whatever run
they come from; the reported number of steps does not count them. -/
theorem C111_continued_partial (o : RunOpts K) (cpuCount : Nat)
    (theta : List (Fl K)) (vary : List Bool) (bounds : List (Option (Fl K × Fl K)))
    (like : List (Fl K) → Except PyErr (Fl K)) (draws : List (List (Fl K)))
    (burnMoves moves : Nat → List (Move K)) (diag : List (List (Walker K)) → StepDiag K)
    (file : List (List (Walker K))) (d : SamplerDict (List (Fl K)) (Fl K))
    (hv : vary.length = theta.length) (hb : FiniteOrderedBounds theta.length vary bounds)
    (hd : ∀ u ∈ draws, UnitDraws u ∧ u.length = vary.count true)
    (how : o.overwrite = false)
    (h : runFit .v3 o cpuCount theta vary bounds like draws burnMoves moves diag file = .ok d) :
    ∃ (steps : List (List (Walker K))) (r : RunReport),
      productionRun o.stop (fun j => diag (file ++ steps.take (j + 1))) = .ok r ∧ steps.length = r.finishedSteps ∧
      Rect draws.length (file.length + r.finishedSteps) d.chain ∧
      d.flatchain.length = draws.length * (file.length + r.finishedSteps) ∧
      ∀ e ∈ file, ∀ w ∈ e, w.pos ∈ d.flatchain := by
  obtain ⟨old, tail, ho, _, hne, rfl, hall, hs⟩ := runFit_ok hv hb hd h
  obtain ⟨rfl, hfl⟩ := (storedBefore_ok ho).2 (by simp [how])
  have hs' : sampleLoop o.stop (fun j => diag (old ++ tail.take (j + 1))) none 0 o.stop.nSteps =
      some (tail.length - 1) := by
    rw [← hs]
    congr 1
    funext j
    rw [Nat.add_assoc, List.take_length_add_append]
  obtain ⟨r, hr, hf⟩ := productionRun_of_loop (List.length_pos_iff.2 hne) hs'
  have hL : ∀ e ∈ old ++ tail, e.length = draws.length := fun e he => by
    rcases List.mem_append.1 he with he | he
    · exact hfl e he
    · exact (hall e he).1
  have hlen : (old ++ tail).length = old.length + r.finishedSteps := by rw [List.length_append, hf]
  refine ⟨tail, r, hr, hf.symm, ?_, ?_, fun e he w hw => ?_⟩
  · rw [← hlen]; exact dictOf_rect hL
  · rw [(dictOf_flat _ _).1, List.length_map, ← hlen]
    exact chainOf_length hL
  · rw [(dictOf_flat _ _).1]
    refine List.mem_map_of_mem ?_
    obtain ⟨k, hk, hkw⟩ := List.mem_iff_getElem.1 hw
    simp only [chainOf, List.mem_flatten, List.mem_map, List.mem_range]
    refine ⟨_, ⟨k, by rw [← hfl e he]; exact hk, rfl⟩, ?_⟩
    exact List.mem_filterMap.2 ⟨e, List.mem_append_left _ he, by rw [List.getElem?_eq_getElem hk, hkw]⟩

/-- **C111**, exact condition: a successful run returns one sample for each walker and each finished production step exactly if the
steps are not appended to a file with earlier ones (emcee 2, `overwrite`, or an empty file) or there is no walker. -/
theorem C111_exact (v : EmceeVersion) (o : RunOpts K) (cpuCount : Nat)
    (theta : List (Fl K)) (vary : List Bool) (bounds : List (Option (Fl K × Fl K)))
    (like : List (Fl K) → Except PyErr (Fl K)) (draws : List (List (Fl K)))
    (burnMoves moves : Nat → List (Move K)) (diag : List (List (Walker K)) → StepDiag K)
    (file : List (List (Walker K))) (d : SamplerDict (List (Fl K)) (Fl K))
    (hv : vary.length = theta.length) (hb : FiniteOrderedBounds theta.length vary bounds)
    (hd : ∀ u ∈ draws, UnitDraws u ∧ u.length = vary.count true)
    (h : runFit v o cpuCount theta vary bounds like draws burnMoves moves diag file = .ok d) :
    ∃ (old steps : List (List (Walker K))) (r : RunReport),
      (if v = .v2 ∨ o.overwrite = true then old = [] else old = file) ∧
      productionRun o.stop (fun j => diag (old ++ steps.take (j + 1))) = .ok r ∧ steps.length = r.finishedSteps ∧
      (d.flatchain.length = draws.length * r.finishedSteps ↔
        v = .v2 ∨ o.overwrite = true ∨ file = [] ∨ draws = []) := by
  by_cases hf : v = .v2 ∨ o.overwrite = true
  · obtain ⟨steps, r, h1, h2, -, h4, -⟩ := C111_count_partial v o cpuCount theta vary bounds like draws burnMoves moves diag file d
      hv hb hd hf h
    refine ⟨[], steps, r, by rw [if_pos hf], by simpa using h1, h2, fun _ => ?_, fun _ => h4⟩
    rcases hf with hf | hf
    · exact Or.inl hf
    · exact Or.inr (Or.inl hf)
  · push Not at hf
    obtain ⟨hv2, how⟩ := hf
    have how' : o.overwrite = false := by simpa using how
    cases v with
    | v2 => exact absurd rfl hv2
    | v3 =>
      obtain ⟨steps, r, h1, h2, -, h4, -⟩ := C111_continued_partial o cpuCount theta vary bounds like draws burnMoves moves diag file
        d hv hb hd how' h
      refine ⟨file, steps, r, by simp [how'], h1, h2, ?_⟩
      rw [h4]
      constructor
      · intro he
        have h0 : draws.length * file.length = 0 := by
          rw [Nat.mul_add] at he
          omega
        rcases Nat.mul_eq_zero.1 h0 with h0 | h0
        · exact Or.inr (Or.inr (Or.inr (List.length_eq_zero_iff.1 h0)))
        · exact Or.inr (Or.inr (Or.inl (List.length_eq_zero_iff.1 h0)))
      · rintro (h0 | h0 | rfl | rfl)
        · cases h0
        · rw [how'] at h0; cases h0
        · simp
        · simp

/-! ## C113 -/

theorem column_exists (j : Nat) (lo hi : K) : ∀ (l : List (List (Fl K))),
    (∀ x ∈ l, ∃ y, x[j]? = some (.fin y) ∧ lo ≤ y ∧ y ≤ hi) →
    ∃ col : List K, l.map (fun x => x[j]?) = col.map (fun y => some (.fin y)) ∧ ∀ y ∈ col, lo ≤ y ∧ y ≤ hi
  | [], _ => ⟨[], rfl, by simp⟩
  | x :: xs, h => by
      obtain ⟨y, hy, hb⟩ := h x (List.mem_cons_self ..)
      obtain ⟨col, h1, h2⟩ := column_exists j lo hi xs (fun z hz => h z (List.mem_cons_of_mem _ hz))
      refine ⟨y :: col, by simp [hy, h1], fun z hz => ?_⟩
      rcases List.mem_cons.1 hz with rfl | hz
      · exact hb
      · exact h2 z hz

/-- **C113**: for every varying parameter the samples of a new run are finite numbers, and the one and two sigma limits
computed from them exist, are nested and lie inside the prior bounds of that parameter. -/
theorem C113_limits (v : EmceeVersion) (o : RunOpts K) (cpuCount : Nat)
    (theta : List (Fl K)) (vary : List Bool) (bounds : List (Option (Fl K × Fl K)))
    (like : List (Fl K) → Except PyErr (Fl K)) (draws : List (List (Fl K)))
    (burnMoves moves : Nat → List (Move K)) (diag : List (List (Walker K)) → StepDiag K)
    (file : List (List (Walker K))) (d : SamplerDict (List (Fl K)) (Fl K))
    (hv : vary.length = theta.length) (hb : FiniteOrderedBounds theta.length vary bounds)
    (hd : ∀ u ∈ draws, UnitDraws u ∧ u.length = vary.count true) (hne : draws ≠ [])
    (hfresh : v = .v2 ∨ o.overwrite = true)
    (h : runFit v o cpuCount theta vary bounds like draws burnMoves moves diag file = .ok d)
    (i : Nat) (hi : i < theta.length) (hvi : vary[i]? = some true) (lo up : K)
    (hbi : bounds[i]? = some (some (.fin lo, .fin up))) :
    ∃ (col : List K) (l1 l2 : K × K),
      d.flatchain.map (fun x => x[(vary.take i).count true]?) = col.map (fun y => some (.fin y)) ∧
      limits1 col = .ok l1 ∧ limits2 col = .ok l2 ∧
      lo ≤ l2.1 ∧ l2.1 ≤ l1.1 ∧ l1.1 ≤ l1.2 ∧ l1.2 ≤ l2.2 ∧ l2.2 ≤ up := by
  have hin := C109_inside v o cpuCount theta vary bounds like draws burnMoves moves diag file d hv hb hd
    (fun h1 h2 => by
      rcases hfresh with hf | hf
      · rw [h1] at hf; exact absurd hf (by simp)
      · rw [h2] at hf; exact absurd hf (by simp)) h
  obtain ⟨_, r, hr, _, _, hlen, _⟩ := C111_count_partial v o cpuCount theta vary bounds like draws burnMoves moves diag
    file d hv hb hd hfresh h
  have hpos : 0 < d.flatchain.length := by
    rw [hlen]
    exact Nat.mul_pos (List.length_pos_iff.2 hne) (C39_stop _ _ _ hr).1
  obtain ⟨col, hc, hcb⟩ := column_exists ((vary.take i).count true) lo up d.flatchain (fun x hx => by
    obtain ⟨b, y, h1, h2, h3, h4⟩ := hin x hx i hi hvi
    rw [hbi] at h1
    simp only [Option.some.injEq] at h1
    subst h1
    cases y with
    | fin y => exact ⟨y, h2, by simpa [Fl.leB] using h3, by simpa [Fl.leB] using h4⟩
    | nan => simp [Fl.leB] at h3
    | pinf => simp [Fl.leB] at h4
    | ninf => simp [Fl.leB] at h3)
  have hcne : col ≠ [] := by
    rintro rfl
    have := congrArg List.length hc
    simp only [List.length_map, List.length_nil] at this
    omega
  obtain ⟨l1, l2, e1, e2, n1, n2, n3⟩ := C42_nested col hcne
  obtain ⟨w1, w2⟩ := C42_within col hcne lo up hcb l2 e2
  exact ⟨col, l1, l2, hc, e1, e2, w1, n1, n2, n3, w2⟩

/-! ## C112 -/

theorem flatPost_defined {theta : List (Fl K)} {vary : List Bool} {bounds : List (Option (Fl K × Fl K))}
    {like : List (Fl K) → Except PyErr (Fl K)} (hv : vary.length = theta.length)
    (hb : FiniteOrderedBounds theta.length vary bounds) (hlike : ∀ x, ∃ l, like x = .ok l) :
    Defined (flatPost theta vary bounds like) (fun x => x.length = vary.count true) := by
  intro x hx
  have htake : vary.take theta.length = vary := by rw [← hv]; simp
  have hb' : ∀ i < theta.length, vary[i]? = some true → ∃ b, bounds[i]? = some (some b) := fun i hi hvi => by
    obtain ⟨lo, hi', _, hg⟩ := hb i hi hvi
    exact ⟨_, hg⟩
  have hpr : ∃ q, logPrior theta vary bounds x = .ok q := by
    obtain ⟨h1, h2⟩ := C03_prior_indicator theta vary bounds x (by omega) (by rw [htake, hx]) hb'
    by_cases hin : InBounds theta.length vary bounds x
    · exact ⟨_, h1 hin⟩
    · exact ⟨_, h2 hin⟩
  obtain ⟨q, hq⟩ := hpr
  obtain ⟨l, hl⟩ := hlike x
  have hok : ∃ p, flatPost theta vary bounds like x = .ok p := by
    unfold flatPost lnprob
    simp only [hq, hl]
    split <;> exact ⟨_, rfl⟩
  obtain ⟨p, hp⟩ := hok
  refine ⟨p, hp, ?_⟩
  rcases C04_range _ _ _ _ _ hp with rfl | ⟨y, rfl⟩
  · simp
  · simp

theorem initWalkers_inside {theta : List (Fl K)} {vary : List Bool} {bounds : List (Option (Fl K × Fl K))}
    (hv : vary.length = theta.length) (hb : FiniteOrderedBounds theta.length vary bounds)
    {ra : List (Fl K × Fl K)} (hra : rangeArrs theta.length vary bounds = .ok ra) :
    ∀ (draws : List (List (Fl K))), (∀ u ∈ draws, UnitDraws u ∧ u.length = vary.count true) →
      ∃ ps, initWalkers ra draws = .ok ps ∧ ps.length = draws.length ∧ ∀ p ∈ ps, p.length = vary.count true
  | [], _ => ⟨[], rfl, rfl, by simp⟩
  | u :: us, h => by
      obtain ⟨h1, h2⟩ := h u (List.mem_cons_self ..)
      obtain ⟨ra', p, hr', hp, hpl, _⟩ := C05_walkers_inside theta vary bounds u hv hb h1 h2
      rw [hra] at hr'
      simp only [Except.ok.injEq] at hr'
      subst hr'
      obtain ⟨ps, hps, hl, hall⟩ := initWalkers_inside hv hb hra us (fun y hy => h y (List.mem_cons_of_mem _ hy))
      refine ⟨p :: ps, by simp only [initWalkers, hp, hps], by simp [hl], fun q hq => ?_⟩
      rcases List.mem_cons.1 hq with rfl | hq
      · exact hpl
      · exact hall q hq

/-- A fit that can be sampled: bounds, draws and proposals of the right shape, a likelihood that raises nothing, a
positive number of steps, and a new chain. -/
structure Samplable (v : EmceeVersion) (o : RunOpts K) (theta : List (Fl K)) (vary : List Bool)
    (bounds : List (Option (Fl K × Fl K))) (like : List (Fl K) → Except PyErr (Fl K)) (draws : List (List (Fl K)))
    (burnMoves moves : Nat → List (Move K)) : Prop where
  vary_len : vary.length = theta.length
  bounded : FiniteOrderedBounds theta.length vary bounds
  unit : ∀ u ∈ draws, UnitDraws u ∧ u.length = vary.count true
  like_ok : ∀ x, ∃ l, like x = .ok l
  burn_ok : ∀ k, ∀ mv ∈ burnMoves k, mv.walker < draws.length ∧ ∀ ens, (mv.proposal ens).length = vary.count true
  moves_ok : ∀ k, ∀ mv ∈ moves k, mv.walker < draws.length ∧ ∀ ens, (mv.proposal ens).length = vary.count true
  steps : 0 < o.stop.nSteps
  fresh : v = .v2 ∨ o.overwrite = true

/-- The outcome of a run of a fit that can be sampled. -/
theorem runFit_outcome {v : EmceeVersion} {o : RunOpts K} {theta : List (Fl K)} {vary : List Bool}
    {bounds : List (Option (Fl K × Fl K))} {like : List (Fl K) → Except PyErr (Fl K)} {draws : List (List (Fl K))}
    {burnMoves moves : Nat → List (Move K)} (s : Samplable v o theta vary bounds like draws burnMoves moves)
    (cpuCount : Nat) (diag : List (List (Walker K)) → StepDiag K) (file : List (List (Walker K))) :
    (v = .v2 ∧ o.cpus cpuCount ≤ 1 →
      runFit v o cpuCount theta vary bounds like draws burnMoves moves diag file = .error .attributeError) ∧
    (¬ (v = .v2 ∧ o.cpus cpuCount ≤ 1) →
      ∃ d, runFit v o cpuCount theta vary bounds like draws burnMoves moves diag file = .ok d) := by
  have hdef := flatPost_defined s.vary_len s.bounded s.like_ok
  have hra : ∃ ra, rangeArrs theta.length vary bounds = .ok ra := by
    have htake : vary.take theta.length = vary := by rw [← s.vary_len]; simp
    obtain ⟨ra, h1, _⟩ := walker_statements theta.length vary bounds (List.replicate (vary.count true) (.fin 0))
      (by rw [s.vary_len]) s.bounded
      (fun x hx => ⟨0, le_refl _, zero_lt_one, (List.mem_replicate.1 hx).2⟩) (by simp [htake])
    exact ⟨ra, h1⟩
  obtain ⟨ra, hra⟩ := hra
  obtain ⟨ps, hps, hpl, hall⟩ := initWalkers_inside s.vary_len s.bounded hra draws s.unit
  obtain ⟨e0, he0, hl0⟩ := startEnsemble_defined hdef ps hall
  obtain ⟨e1, he1, hl1⟩ := burnIn_defined hdef (nW := draws.length) (moves := burnMoves) s.burn_ok o.nBurn 0 e0
    (hl0.trans hpl)
  obtain ⟨hist, hh⟩ := produce_defined hdef (nW := draws.length) (moves := moves) s.moves_ok o.stop diag
    o.stop.nSteps 0 e1 [] hl1
  have hst : storedBefore v o.overwrite ps.length file = .ok [] := by
    rw [storedBefore, if_pos s.fresh]
  have hn : o.stop.nSteps ≠ 0 := by have := s.steps; omega
  have hrun : runFit v o cpuCount theta vary bounds like draws burnMoves moves diag file =
      if v = .v2 ∧ ¬ 1 < o.cpus cpuCount then .error .attributeError else .ok (dictOf ps.length hist) := by
    simp only [runFit, hra, hps, runMcmc, he0, he1, hst, hh, if_neg hn]
  rw [hrun]
  simp only [not_lt]
  exact ⟨fun hc => if_pos hc, fun hc => ⟨_, if_neg hc⟩⟩

/-- **C112** (partial): a fit that can be sampled returns its samples, with emcee 3, or with emcee 2 on more than one
process.  Missing from the full claim: emcee 2 on a single process, where it fails; see `C112_false`. -/
theorem C112_returns_partial (v : EmceeVersion) (o : RunOpts K) (theta : List (Fl K)) (vary : List Bool)
    (bounds : List (Option (Fl K × Fl K))) (like : List (Fl K) → Except PyErr (Fl K)) (draws : List (List (Fl K)))
    (burnMoves moves : Nat → List (Move K)) (s : Samplable v o theta vary bounds like draws burnMoves moves)
    (cpuCount : Nat) (diag : List (List (Walker K)) → StepDiag K) (file : List (List (Walker K)))
    (hc : v = .v3 ∨ 1 < o.cpus cpuCount) :
    ∃ d, runFit v o cpuCount theta vary bounds like draws burnMoves moves diag file = .ok d := by
  refine (runFit_outcome s cpuCount diag file).2 (fun h => ?_)
  rcases hc with hc | hc
  · rw [h.1] at hc; exact absurd hc (by simp)
  · exact absurd h.2 (not_le.2 hc)

/-- **C112** is false of the code: with emcee 2 and without multi-threading every fit that can be sampled ends in an
AttributeError after the last step, and its samples are lost. -/
theorem C112_false (o : RunOpts K) (theta : List (Fl K)) (vary : List Bool)
    (bounds : List (Option (Fl K × Fl K))) (like : List (Fl K) → Except PyErr (Fl K)) (draws : List (List (Fl K)))
    (burnMoves moves : Nat → List (Move K)) (s : Samplable .v2 o theta vary bounds like draws burnMoves moves)
    (cpuCount : Nat) (diag : List (List (Walker K)) → StepDiag K) (file : List (List (Walker K)))
    (hc : o.noThread = true ∨ o.nCPUs = some 1) :
    runFit .v2 o cpuCount theta vary bounds like draws burnMoves moves diag file = .error .attributeError := by
  refine (runFit_outcome s cpuCount diag file).1 ⟨rfl, ?_⟩
  unfold RunOpts.cpus
  split
  · exact le_refl _
  · rename_i hn
    rcases hc with hc | hc
    · exact absurd hc hn
    · rw [hc]

/-- **C112** is false of the code already with the default options (`nCPUs=None`, `cpuFrac=0.75`) on a machine with at
most two CPUs. -/
theorem C112_false_default (o : RunOpts K) (theta : List (Fl K)) (vary : List Bool)
    (bounds : List (Option (Fl K × Fl K))) (like : List (Fl K) → Except PyErr (Fl K)) (draws : List (List (Fl K)))
    (burnMoves moves : Nat → List (Move K)) (s : Samplable .v2 o theta vary bounds like draws burnMoves moves)
    (cpuCount : Nat) (diag : List (List (Walker K)) → StepDiag K) (file : List (List (Walker K)))
    (h1 : o.nCPUs = none) (h2 : o.cpuFrac = 3 / 4) (hc : cpuCount ≤ 2) :
    runFit .v2 o cpuCount theta vary bounds like draws burnMoves moves diag file = .error .attributeError := by
  refine (runFit_outcome s cpuCount diag file).1 ⟨rfl, ?_⟩
  unfold RunOpts.cpus
  split
  · exact le_refl _
  · rw [h1, h2]
    have hc' : (cpuCount : K) ≤ 2 := by exact_mod_cast hc
    have : (⌊(cpuCount : K) * (3 / 4)⌋ : ℤ) < 2 := by
      rw [Int.floor_lt]
      push_cast
      linarith
    show ⌊(cpuCount : K) * (3 / 4)⌋ ≤ 1
    omega

/-- **C112**, exactly: a fit that can be sampled returns its samples if and only if emcee 3 is installed or more than one
process is used; otherwise it ends in an AttributeError. -/
theorem C112_exact (v : EmceeVersion) (o : RunOpts K) (theta : List (Fl K)) (vary : List Bool)
    (bounds : List (Option (Fl K × Fl K))) (like : List (Fl K) → Except PyErr (Fl K)) (draws : List (List (Fl K)))
    (burnMoves moves : Nat → List (Move K)) (s : Samplable v o theta vary bounds like draws burnMoves moves)
    (cpuCount : Nat) (diag : List (List (Walker K)) → StepDiag K) (file : List (List (Walker K))) :
    ((∃ d, runFit v o cpuCount theta vary bounds like draws burnMoves moves diag file = .ok d) ↔
      v = .v3 ∨ 1 < o.cpus cpuCount) ∧
    (runFit v o cpuCount theta vary bounds like draws burnMoves moves diag file = .error .attributeError ↔
      v = .v2 ∧ o.cpus cpuCount ≤ 1) := by
  obtain ⟨h1, h2⟩ := runFit_outcome s cpuCount diag file
  by_cases hc : v = .v2 ∧ o.cpus cpuCount ≤ 1
  · rw [h1 hc]
    refine ⟨⟨fun h => ?_, fun h => ?_⟩, ⟨fun _ => hc, fun _ => rfl⟩⟩
    · obtain ⟨d, hd⟩ := h
      cases hd
    · rcases h with h | h
      · rw [hc.1] at h
        cases h
      · exact absurd hc.2 (not_le.2 h)
  · obtain ⟨d, hd⟩ := h2 hc
    rw [hd]
    refine ⟨⟨fun _ => ?_, fun _ => ⟨d, rfl⟩⟩, ⟨fun h => (by cases h), fun h => absurd h hc⟩⟩
    by_cases hv : v = .v3
    · exact .inl hv
    · refine .inr (not_le.1 fun hle => hc ⟨?_, hle⟩)
      cases v
      · rfl
      · exact absurd rfl hv

end

/-! ## A concrete run -/

/-- two walkers, one varying parameter with bounds `[0, 4]` -/
def runExampleOpts (ow : Bool) : RunOpts ℚ :=
  { stop := { minAF := none, maxAF := none, nEff := none, runAllSteps := false, nSteps := 2 }
    nBurn := 1, nCPUs := none, cpuFrac := 3 / 4, noThread := true, overwrite := ow }

/-- likelihood `-x²`, NaN at `3` -/
def runExampleLike (x : List (Fl ℚ)) : Except PyErr (Fl ℚ) :=
  match x with
  | [.fin y] => .ok (if y = 3 then .nan else .fin (-(y * y)))
  | _ => .ok .nan

/-- step 0 proposes `5` (outside) and `3` (likelihood NaN), step 1 proposes `1/2` and `1` -/
def runExampleMoves (k : Nat) : List (Move ℚ) :=
  if k = 0 then [⟨0, fun _ => [.fin 5], .ninf⟩, ⟨1, fun _ => [.fin 3], .fin (-10)⟩]
  else [⟨0, fun _ => [.fin (1 / 2)], .fin (-10)⟩, ⟨1, fun _ => [.fin 1], .fin 2⟩]

def runExample (v : EmceeVersion) (ow : Bool) (file : List (List (Walker ℚ))) :
    Except PyErr (SamplerDict (List (Fl ℚ)) (Fl ℚ)) :=
  runFit v (runExampleOpts ow) 4 [.fin 1, .fin 7] [true, false] [some (.fin 0, .fin 4), none] runExampleLike
    [[.fin (1 / 4)], [.fin (1 / 2)]] runExampleMoves runExampleMoves (fun _ => ⟨.nan, none⟩) file

theorem runExample_samplable (v : EmceeVersion) (ow : Bool) (h : v = .v2 ∨ ow = true) :
    Samplable v (runExampleOpts ow) [.fin 1, .fin 7] [true, false] [some (.fin 0, .fin 4), none] runExampleLike
      [[.fin (1 / 4)], [.fin (1 / 2)]] runExampleMoves runExampleMoves where
  vary_len := rfl
  bounded := by
    intro i hi hv
    have : i = 0 ∨ i = 1 := by simp at hi; omega
    rcases this with rfl | rfl
    · exact ⟨0, 4, by norm_num, rfl⟩
    · simp at hv
  unit := by
    intro u hu
    simp only [List.mem_cons, List.not_mem_nil, or_false] at hu
    rcases hu with rfl | rfl
    · refine ⟨fun x hx => ⟨1 / 4, by norm_num, by norm_num, by simpa using hx⟩, rfl⟩
    · refine ⟨fun x hx => ⟨1 / 2, by norm_num, by norm_num, by simpa using hx⟩, rfl⟩
  like_ok := by
    intro x
    unfold runExampleLike
    split <;> exact ⟨_, rfl⟩
  burn_ok := by
    intro k mv hmv
    unfold runExampleMoves at hmv
    split at hmv <;> simp only [List.mem_cons, List.not_mem_nil, or_false] at hmv <;>
      rcases hmv with rfl | rfl <;> exact ⟨by decide, fun _ => rfl⟩
  moves_ok := by
    intro k mv hmv
    unfold runExampleMoves at hmv
    split at hmv <;> simp only [List.mem_cons, List.not_mem_nil, or_false] at hmv <;>
      rcases hmv with rfl | rfl <;> exact ⟨by decide, fun _ => rfl⟩
  steps := Nat.zero_lt_two
  fresh := h

/-- With emcee 3 the run returns: the outside proposal and the one with likelihood NaN are refused although the
thresholds would let any finite value pass. -/
example : (runExample .v3 true []).toOption.map (fun d => (d.flatchain, d.flatlnprobability)) =
    some ([[.fin 1], [.fin (1 / 2)], [.fin 2], [.fin 1]],
      [.fin (-1), .fin (-1 / 4), .fin (-4), .fin (-1)]) := by decide +kernel

example : (runExample .v2 true []).toOption.isNone = true := by decide +kernel

/-- **C111** is false of the code: with emcee 3, without `overwrite`, the samples of a run of two steps contain those of
the file, here outside the bounds of the present fit, and are more than the walkers times the largest number of
steps. -/
theorem C111_false : ∃ d, runExample .v3 false [[⟨[.fin 9], .fin 0⟩, ⟨[.fin 8], .fin 0⟩]] = .ok d ∧
    d.flatchain.length = 6 ∧ 2 * (runExampleOpts false).stop.nSteps < d.flatchain.length ∧
    [Fl.fin 9] ∈ d.flatchain ∧
    ¬ InBounds 2 [true, false] [some (.fin 0, .fin 4), none] [Fl.fin (9 : ℚ)] := by
  have hs : (runExample .v3 false [[⟨[.fin 9], .fin 0⟩, ⟨[.fin 8], .fin 0⟩]]).toOption.map (fun d => d.flatchain) =
      some [[.fin 9], [.fin 1], [.fin (1 / 2)], [.fin 8], [.fin 2], [.fin 1]] := by decide +kernel
  cases hr : runExample .v3 false [[⟨[.fin 9], .fin 0⟩, ⟨[.fin 8], .fin 0⟩]] with
  | error e => rw [hr] at hs; simp [Except.toOption] at hs
  | ok d =>
    rw [hr] at hs
    have hfc : d.flatchain = [[.fin 9], [.fin 1], [.fin (1 / 2)], [.fin 8], [.fin 2], [.fin 1]] := by
      simpa [Except.toOption] using hs
    refine ⟨d, rfl, by rw [hfc]; rfl, by rw [hfc]; decide, by rw [hfc]; simp, fun hin => ?_⟩
    obtain ⟨b, x, h1, h2, _, h4⟩ := hin 0 (by decide) rfl
    simp only [List.getElem?_cons_zero, Option.some.injEq, List.take_zero, List.count_nil] at h1 h2
    subst h1 h2
    exact absurd h4 (by decide +kernel)

end Misfit
