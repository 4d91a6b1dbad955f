import Verif.Lemmas.RunFail
import Verif.Props.RunLog

/-!
# Why a sampling run fails

Model: `Verif.Model.RunLog`.  emcee proposes moves for walkers that exist (`Moving`).
-/

namespace Misfit
variable {K : Type*} [Field K] [LinearOrder K]

/-- every proposed move is for one of the `nW` walkers -/
def Moving (nW : Nat) (moves : Nat → List (Move K)) : Prop := ∀ k, ∀ mv ∈ moves k, mv.walker < nW

/-- the posterior was asked for at `x`: a starting position, or a proposal of one of the first `n` steps -/
def Asked (initial : List (List (Fl K))) (n : Nat) (moves : Nat → List (Move K)) (x : List (Fl K)) : Prop :=
  x ∈ initial ∨ ∃ k, k < n ∧ ∃ mv ∈ moves k, ∃ ens, ens.length = initial.length ∧ x = mv.proposal ens

section run
variable [FloorRing K] (v : EmceeVersion) (o : RunOpts K) (cpuCount : Nat)
    (post : List (Fl K) → Except PyErr (Fl K)) (initial : List (List (Fl K)))
    (burnMoves moves : Nat → List (Move K)) (obsBurn obs : RunObs K)
    (burnFile file : List (List (Walker K))) (files : RunFiles K)

/-- Why a run raised `e`. -/
inductive WhyFailed : PyErr → Prop
  /-- emcee 3, old file kept: it has steps with another number of walkers -/
  | file : v = .v3 → o.overwrite = false → (∃ t ∈ burnFile ++ file, t.length ≠ initial.length) → WhyFailed .valueError
  /-- the posterior raised an exception where it was evaluated ... -/
  | posterior (x : List (Fl K)) (e : PyErr) :
      (o.nBurn ≠ 0 ∧ Asked initial o.nBurn burnMoves x) ∨ Asked initial o.stop.nSteps moves x →
      post x = .error e → WhyFailed e
  /-- ... or was NaN -/
  | nan (x : List (Fl K)) :
      (o.nBurn ≠ 0 ∧ Asked initial o.nBurn burnMoves x) ∨ Asked initial o.stop.nSteps moves x →
      post x = .ok .nan → WhyFailed .valueError
  /-- emcee 3: the autocorrelation time of the burn-in could not be found -/
  | burnTime (hist : List (List (Walker K))) : v = .v3 → o.nBurn ≠ 0 → obsBurn.acor hist = .runtime → WhyFailed .runtimeError
  | burnTimeRaised (hist : List (List (Walker K))) (e : PyErr) :
      v = .v3 → o.nBurn ≠ 0 → obsBurn.acor hist = .raised e → WhyFailed e
  /-- another exception of the autocorrelation time during the run -/
  | time (hist : List (List (Walker K))) (e : PyErr) : o.stop.nSteps ≠ 0 → obs.acor hist = .raised e → WhyFailed e
  /-- a plot of the walkers was asked for and failed -/
  | burnPlot (d : SavedRun K) (e : PyErr) : o.nBurn ≠ 0 → files.traceBurnin = true → files.plotTrace d = .error e → WhyFailed e
  | plot (d : SavedRun K) (e : PyErr) : o.stop.nSteps ≠ 0 → files.trace = true → files.plotTrace d = .error e → WhyFailed e
  /-- no step was asked for -/
  | noSteps : o.stop.nSteps = 0 → WhyFailed .nameError
  /-- emcee 2 on one process -/
  | pool : v = .v2 → o.cpus cpuCount ≤ 1 → WhyFailed .attributeError

variable {v o cpuCount post initial burnMoves moves obsBurn obs burnFile file files}

omit [FloorRing K] in
theorem burnPhase_error {nBurn : Nat} {nCPU : Int} {burnOld : List (List (Walker K))} {l : List (Out K)} {e : PyErr}
    (hw : Moving initial.length burnMoves)
    (h : burnPhase v nBurn nCPU post initial burnMoves obsBurn burnOld files = (l, .error e)) :
    nBurn ≠ 0 ∧ ((∃ x, Asked initial nBurn burnMoves x ∧ PostRaises post x e) ∨
      (v = .v3 ∧ ∃ hist, (obsBurn.acor hist = .runtime ∧ e = .runtimeError) ∨ obsBurn.acor hist = .raised e) ∨
      (files.traceBurnin = true ∧ ∃ d, files.plotTrace d = .error e)) := by
  unfold burnPhase at h
  split at h
  · simp at h
  · rename_i hn
    refine ⟨hn, ?_⟩
    rw [write_andThen] at h
    split at h
    · rename_i e' he
      simp only [Prod.mk.injEq, Except.error.injEq] at h
      obtain ⟨-, rfl⟩ := h
      obtain ⟨x, hx, hp⟩ := startEnsemble_error he
      exact Or.inl ⟨x, Or.inl hx, hp⟩
    · rename_i e0 he0
      split at h
      · rename_i e' he
        simp only [Prod.mk.injEq, Except.error.injEq] at h
        obtain ⟨-, rfl⟩ := h
        obtain ⟨j, hj, mv, hm, ens, hl, hp⟩ := burnHist_error hw nBurn 0 (startEnsemble_length he0) he
        exact Or.inl ⟨_, Or.inr ⟨j, by omega, mv, hm, ens, hl, rfl⟩, hp⟩
      · rename_i ens hist hb
        split at h
        · rename_i e' he
          simp only [Prod.mk.injEq, Except.error.injEq] at h
          obtain ⟨-, rfl⟩ := h
          unfold burnAcorErr at he
          split at he
          · rename_i hr
            cases he
            exact Or.inr (Or.inl ⟨rfl, hist, Or.inl ⟨hr, rfl⟩⟩)
          · rename_i hr
            cases he
            exact Or.inr (Or.inl ⟨rfl, hist, Or.inr hr⟩)
          · cases he
        · simp only [write_andThen, Prod.mk.injEq] at h
          have h2 := h.2
          unfold Logged.andThen plotStep at h2
          by_cases ht : files.traceBurnin = true
          · rw [if_pos ht] at h2
            refine Or.inr (Or.inr ⟨ht, savedRun v initial.length files.nParam nCPU obsBurn hist, ?_⟩)
            cases hp : files.plotTrace (savedRun v initial.length files.nParam nCPU obsBurn hist) with
            | error e' => rw [hp] at h2; simp only [Except.error.injEq] at h2; rw [h2]
            | ok u => rw [hp] at h2; simp at h2
          · rw [if_neg ht] at h2
            simp at h2

omit [FloorRing K] in
theorem burnPhase_len {nBurn : Nat} {nCPU : Int} {burnOld : List (List (Walker K))} {l : List (Out K)}
    {burnt : Option (List (Walker K))} {ens : List (Walker K)}
    (h : burnPhase v nBurn nCPU post initial burnMoves obsBurn burnOld files = (l, .ok burnt))
    (hs : startFrom post initial burnt = .ok ens) : ens.length = initial.length := by
  cases burnt with
  | none => exact startEnsemble_length hs
  | some b =>
    cases hs
    unfold burnPhase at h
    split at h
    · simp at h
    · rw [write_andThen] at h
      split at h
      · simp at h
      · rename_i e0 he0
        split at h
        · simp at h
        · rename_i ens' hist hb
          split at h
          · simp at h
          · have h2 := congrArg Prod.snd h
            simp only [write_andThen] at h2
            unfold Logged.andThen at h2
            split at h2
            · cases h2
            · simp only [Except.ok.injEq, Option.some.injEq] at h2
              subst h2
              rw [burnHist_len _ _ hb, startEnsemble_length he0]

theorem why_raises {x : List (Fl K)} {e : PyErr}
    (hx : (o.nBurn ≠ 0 ∧ Asked initial o.nBurn burnMoves x) ∨ Asked initial o.stop.nSteps moves x)
    (hp : PostRaises post x e) :
    WhyFailed v o cpuCount post initial burnMoves moves obsBurn obs burnFile file files e := by
  rcases hp with hp | ⟨hp, rfl⟩
  · exact .posterior x e hx hp
  · exact .nan x hx hp

/-- **C196** (complete list): when a run raises, it is for one of the reasons of `WhyFailed`, and with the exception named there. -/
theorem C196_causes {log : List (Out K)} {e : PyErr} (hb : Moving initial.length burnMoves)
    (hm : Moving initial.length moves)
    (h : runOut v o cpuCount post initial burnMoves moves obsBurn obs burnFile file files = (log, .error e)) :
    WhyFailed v o cpuCount post initial burnMoves moves obsBurn obs burnFile file files e := by
  unfold runOut at h
  split at h
  · rename_i e' he
    simp only [Prod.mk.injEq, Except.error.injEq] at h
    obtain ⟨-, rfl⟩ := h
    obtain ⟨h1, h2, ⟨t, ht, hne⟩, rfl⟩ := storedBefore_error.1 he
    exact .file h1 h2 ⟨t, List.mem_append_left _ ht, hne⟩
  · rename_i burnOld hold
    rw [write_andThen] at h
    simp only [Prod.mk.injEq] at h
    rcases andThen_error (Prod.ext (rfl : _ = _) h.2) with h' | ⟨burnt, l', hB, h', -⟩
    · obtain ⟨hn, ⟨x, hx, hp⟩ | ⟨hv, hist, ⟨hr, rfl⟩ | hr⟩ | ⟨ht, d, hd⟩⟩ := burnPhase_error hb h'
      · exact why_raises (Or.inl ⟨hn, hx⟩) hp
      · exact .burnTime hist hv hn hr
      · exact .burnTimeRaised hist e hv hn hr
      · exact .burnPlot d e hn ht hd
    · split at h'
      · rename_i e' he
        simp only [Prod.mk.injEq, Except.error.injEq] at h'
        obtain ⟨-, rfl⟩ := h'
        obtain ⟨h1, h2, ⟨t, ht, hne⟩, rfl⟩ := storedBefore_error.1 he
        exact .file h1 h2 ⟨t, List.mem_append_right _ ht, hne⟩
      · rename_i old hold'
        rw [write_andThen] at h'
        split at h'
        · rename_i hn
          simp only [Prod.mk.injEq, Except.error.injEq] at h'
          obtain ⟨-, rfl⟩ := h'
          exact .noSteps hn
        · rename_i n hn
          have hn0 : o.stop.nSteps ≠ 0 := by omega
          split at h'
          · rename_i e' he
            simp only [Prod.mk.injEq, Except.error.injEq] at h'
            obtain ⟨-, rfl⟩ := h'
            cases burnt with
            | some b => cases he
            | none =>
              obtain ⟨x, hx, hp⟩ := startEnsemble_error he
              exact why_raises (Or.inr (Or.inl hx)) hp
          · rename_i ens hens
            have hl := burnPhase_len hB hens
            simp only [Prod.mk.injEq] at h'
            rcases andThen_error (Prod.ext (rfl : _ = _) h'.2) with h2 | ⟨r, l2, hP, hF, -⟩
            · rcases prodLoop_error hm (n + 1) 0 none hl h2 with ⟨j, hj, mv, hmv, ens', hl', hp⟩ | ⟨hist, hr⟩
              · exact why_raises (Or.inr (Or.inr ⟨j, by omega, mv, hmv, ens', hl', rfl⟩)) hp
              · exact .time hist e hn0 hr
            · obtain ⟨tail, -, -, t3, -, t5, -⟩ := prodLoop_ok o.stop post moves obs old.length (n + 1) 0 none (by simp) hP
              rw [if_neg (t3 (by simp))] at t5
              rw [t5] at hF
              obtain ⟨l3, -, hc⟩ := finishRun_cases hF
              rcases hc with ⟨c1, c2, -, c4⟩ | ⟨-, c2, e', c3, -, c4⟩ | ⟨-, -, -, c4⟩
              · cases c4
                exact .pool c1 (by omega)
              · cases c4
                exact .plot _ _ hn0 c2 c3
              · cases c4

/-- **C196** (starting positions): a posterior that raises or is NaN at one of the starting positions makes every run fail, and
nothing is saved. -/
theorem C196_start {x : List (Fl K)} {e : PyErr} (hx : x ∈ initial) (hp : post x = .error e ∨ post x = .ok .nan) :
    ∃ log e', runOut v o cpuCount post initial burnMoves moves obsBurn obs burnFile file files = (log, .error e') ∧
      ∀ d, .pickle d ∉ log := by
  have hR : ∃ e', PostRaises post x e' := by
    rcases hp with hp | hp
    · exact ⟨e, Or.inl hp⟩
    · exact ⟨.valueError, Or.inr ⟨hp, rfl⟩⟩
  obtain ⟨e', hR⟩ := hR
  obtain ⟨e1, he1⟩ := startEnsemble_raises hx hR
  rcases hr : runOut v o cpuCount post initial burnMoves moves obsBurn obs burnFile file files with ⟨log, r⟩
  rcases runOut_stages hr with ⟨l, e2, rfl, rfl, hl⟩ | ⟨burnOld, old, burnt, ens, l1, l2, l3, ii, hist, h1, h2, h3, h4, h5, h6, h7, h8⟩
  · refine ⟨_, e2, rfl, fun d hd => ?_⟩
    rcases hl _ hd with h | h | h | h | h <;> cases h
  · exfalso
    cases burnt with
    | none => rw [startFrom, he1] at h5; cases h5
    | some b =>
      unfold burnPhase at h2
      split at h2
      · simp at h2
      · rw [write_andThen, he1] at h2
        simp at h2

/-- **C196** (no cause, no failure): a posterior that returns numbers, no old file, diagnostics and plots that return, at least
one step, and emcee 3 or more than one process: the run returns. -/
theorem C196_returns (hb : Moving initial.length burnMoves) (hm : Moving initial.length moves)
    (hpost : ∀ x, ∃ p, post x = .ok p ∧ p ≠ .nan) (hfile : o.overwrite = true)
    (hburn : ∀ hist, ∃ a l, obsBurn.acor hist = .times a l) (hobs : ∀ hist e, obs.acor hist ≠ .raised e)
    (hplot : ∀ d, files.plotTrace d = .ok ()) (hn : o.stop.nSteps ≠ 0) (hv : v = .v3 ∨ 1 < o.cpus cpuCount) :
    ∃ log d, runOut v o cpuCount post initial burnMoves moves obsBurn obs burnFile file files = (log, .ok d) := by
  rcases hr : runOut v o cpuCount post initial burnMoves moves obsBurn obs burnFile file files with ⟨log, r⟩
  cases r with
  | ok d => exact ⟨log, d, rfl⟩
  | error e =>
    exfalso
    cases C196_causes hb hm hr with
    | file _ h => rw [hfile] at h; cases h
    | posterior x _ _ h => obtain ⟨p, hp, -⟩ := hpost x; rw [hp] at h; cases h
    | nan x _ h => obtain ⟨p, hp, hne⟩ := hpost x; rw [hp] at h; cases h; exact hne rfl
    | burnTime hist _ _ h => obtain ⟨a, l, hb⟩ := hburn hist; rw [hb] at h; cases h
    | burnTimeRaised hist _ _ _ h => obtain ⟨a, l, hb⟩ := hburn hist; rw [hb] at h; cases h
    | time hist _ _ h => exact hobs hist e h
    | burnPlot d _ _ _ h => rw [hplot d] at h; cases h
    | plot d _ _ _ h => rw [hplot d] at h; cases h
    | noSteps h => exact hn h
    | pool h1 h2 =>
      rcases hv with h | h
      · rw [h1] at h; cases h
      · omega

end run

/-! ## concrete runs -/

/-- A posterior that is NaN at the second starting position: no run returns, with any version. -/
example : ((runOut .v3 (logOpts 2 2) 4 (fun x => if x = [.fin 2] then .ok .nan else logPost x) [[.fin 1], [.fin 2]]
      runExampleMoves runExampleMoves (logObs 0 (.fin 3)) (logObs 2 (.fin 3)) [] [] (logFiles fun _ => .ok ())).2 matches
      .error .valueError) = true := by
  decide +kernel

theorem runExampleMoves_moving : Moving 2 runExampleMoves := by
  intro k mv hmv
  unfold runExampleMoves at hmv
  split at hmv <;> (simp only [List.mem_cons, List.not_mem_nil, or_false] at hmv; rcases hmv with rfl | rfl <;> simp)

/-- Runs that return (the hypotheses of `C196_returns`) -/
example : ∃ log d, logRun .v3 2 1 (logObs 0 (.fin 3)) (logObs 2 (.fin 3)) (fun _ => .ok ()) = (log, .ok d) := by
  refine C196_returns ?_ ?_ ?_ rfl ?_ ?_ ?_ ?_ (Or.inl rfl)
  · exact runExampleMoves_moving
  · exact runExampleMoves_moving
  · intro x
    unfold logPost
    split
    · exact ⟨_, rfl, by simp⟩
    · exact ⟨_, rfl, by simp⟩
  · intro hist
    exact ⟨_, _, by simp [logObs]; exact ⟨rfl, rfl⟩⟩
  · intro hist e
    simp only [logObs]
    split <;> simp
  · intro d; rfl
  · simp [logOpts]

end Misfit
