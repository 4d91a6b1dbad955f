import Verif.Lemmas.RunLog
import Verif.Props.MCMC
import Verif.Props.Sampler
import Verif.Props.Missing1D
import Mathlib.Algebra.Order.Field.Basic

/-!
# C190–C192: what the log of a run says, what a run leaves behind
-/

namespace Misfit
variable {K : Type*} [Field K] [LinearOrder K]

/-! ## the stages of the burn-in -/

theorem burnPhase_ok {v : EmceeVersion} {nBurn : Nat} {nCPU : Int} {post : List (Fl K) → Except PyErr (Fl K)}
    {initial : List (List (Fl K))} {burnMoves : Nat → List (Move K)} {obs : RunObs K} {burnOld : List (List (Walker K))}
    {files : RunFiles K} {l : List (Out K)} {burnt : Option (List (Walker K))} (hn : nBurn ≠ 0)
    (h : burnPhase v nBurn nCPU post initial burnMoves obs burnOld files = (l, .ok burnt)) :
    ∃ e0 ens hist l', startEnsemble post initial = .ok e0 ∧ burnHist post burnMoves 0 nBurn e0 burnOld = .ok (ens, hist) ∧
      burnAcorErr v (obs.acor hist) = .ok () ∧ burnt = some ens ∧
      l = .burnHead :: .burnSummary nCPU files.nParam initial.length nBurn files.keys (obs.af hist)
        (endAcor v (obs.acor hist)) :: (burnVerdict nBurn (endAcor v (obs.acor hist)) ++ l') ∧
      ∀ x ∈ l', x = .burnPlot (savedRun v initial.length files.nParam nCPU obs hist) := by
  unfold burnPhase at h
  rw [if_neg hn, write_andThen] at h
  cases h0 : startEnsemble post initial with
  | error e => rw [h0] at h; simp at h
  | ok e0 =>
    rw [h0] at h
    cases h1 : burnHist post burnMoves 0 nBurn e0 burnOld with
    | error e => simp [h1] at h
    | ok q =>
      obtain ⟨ens, hist⟩ := q
      cases h2 : burnAcorErr v (obs.acor hist) with
      | error e => simp [h1, h2] at h
      | ok u =>
        simp only [h1, h2, write_andThen, Prod.mk.injEq] at h
        obtain ⟨hl, hr⟩ := h
        have hmem := plotStep_mem (wanted := files.traceBurnin) (plot := files.plotTrace)
          (d := savedRun v initial.length files.nParam nCPU obs hist)
          (o := .burnPlot (savedRun v initial.length files.nParam nCPU obs hist))
        obtain ⟨⟨l', r'⟩, hp⟩ : ∃ q, plotStep files.traceBurnin files.plotTrace
          (savedRun v initial.length files.nParam nCPU obs hist)
          (.burnPlot (savedRun v initial.length files.nParam nCPU obs hist)) = q := ⟨_, rfl⟩
        rw [hp] at hl hr hmem
        cases r' with
        | error e => simp [Logged.andThen] at hr
        | ok u =>
          simp only [Logged.andThen, List.append_nil, Except.ok.injEq] at hl hr
          exact ⟨e0, ens, hist, l', rfl, h1, h2, hr.symm, by rw [← hl]; simp, hmem⟩

/-! ## the longest autocorrelation time -/

section longest
variable [IsStrictOrderedRing K]

theorem npMax2_above (c : K) {a b : Fl K} (ha : a ≠ .nan) (hb : b ≠ .nan) :
    Fl.ltB (.fin c) (npMax2 a b) = true ↔ Fl.ltB (.fin c) a = true ∨ Fl.ltB (.fin c) b = true := by
  cases a with
  | nan => exact absurd rfl ha
  | fin x =>
    cases b with
    | nan => exact absurd rfl hb
    | fin y =>
      simp only [npMax2, Fl.leB, decide_eq_true_eq]
      split_ifs with h
      · simp only [Fl.ltB, decide_eq_true_eq]
        exact ⟨Or.inr, fun h' => h'.elim (fun h1 => h1.trans_le h) id⟩
      · simp only [Fl.ltB, decide_eq_true_eq]
        exact ⟨Or.inl, fun h' => h'.elim id (fun h1 => h1.trans (not_le.1 h))⟩
    | pinf => simp [npMax2, Fl.leB, Fl.ltB]
    | ninf => simp [npMax2, Fl.leB, Fl.ltB]
  | pinf => cases b <;> simp_all [npMax2, Fl.leB, Fl.ltB]
  | ninf => cases b <;> simp_all [npMax2, Fl.leB, Fl.ltB]

theorem longest_above (c : K) : ∀ (l : List (Fl K)) (a : Fl K), Fl.ltB (.fin c) (longest a l) = true ↔
    (∀ x ∈ a :: l, x ≠ .nan) ∧ ∃ x ∈ a :: l, Fl.ltB (.fin c) x = true
  | [], a => by
      show Fl.ltB (.fin c) a = true ↔ _
      constructor
      · intro h
        exact ⟨(fun x hx => by rw [List.mem_singleton] at hx; subst hx; rintro rfl; exact Bool.noConfusion (show false = true from h)),
          a, List.mem_singleton_self a, h⟩
      · rintro ⟨-, x, hx, h⟩
        rw [List.mem_singleton] at hx
        rwa [← hx]
  | b :: l, a => by
      have ih := longest_above c l (npMax2 a b)
      change Fl.ltB (.fin c) (longest (npMax2 a b) l) = true ↔ _
      rw [ih]
      by_cases ha : a = .nan
      · subst ha
        have : npMax2 Fl.nan b = (Fl.nan : Fl K) := by cases b <;> rfl
        rw [this]
        exact ⟨fun h => absurd rfl (h.1 _ (List.mem_cons_self ..)), fun h => absurd rfl (h.1 _ (List.mem_cons_self ..))⟩
      · by_cases hb : b = .nan
        · subst hb
          rw [npMax2_nan_right]
          exact ⟨fun h => absurd rfl (h.1 _ (List.mem_cons_self ..)),
            fun h => absurd rfl (h.1 _ (List.mem_cons_of_mem _ (List.mem_cons_self ..)))⟩
        · simp only [List.forall_mem_cons, List.exists_mem_cons_iff]
          rw [npMax2_above c ha hb]
          have := npMax2_ne_nan ha hb
          tauto

theorem ltB_double (n : K) (t : Fl K) : Fl.ltB (.fin n) (t * .fin 2) = true ↔ Fl.ltB (.fin (n / 2)) t = true := by
  have h2 : (0 : K) < 2 := two_pos
  cases t with
  | fin x =>
    show Fl.ltB (.fin n) (.fin (x * 2)) = true ↔ _
    simp only [Fl.ltB, decide_eq_true_eq]
    rw [div_lt_iff₀ h2]
  | nan => exact Iff.rfl
  | pinf =>
    show Fl.ltB (.fin n) (Fl.infTimes 2) = true ↔ _
    simp [Fl.infTimes, Fl.ltB]
  | ninf =>
    have : (Fl.ninf : Fl K) * .fin 2 = Fl.infTimes (-2) := rfl
    have h3 : ¬ (2 : K) < 0 := not_lt.2 h2.le
    rw [this]
    simp [Fl.infTimes, Fl.ltB, h3]

end longest

section run
variable [FloorRing K] {v : EmceeVersion} {o : RunOpts K} {cpuCount : Nat}
    {post : List (Fl K) → Except PyErr (Fl K)} {initial : List (List (Fl K))}
    {burnMoves moves : Nat → List (Move K)} {obsBurn obs : RunObs K}
    {burnFile file : List (List (Walker K))} {files : RunFiles K} {log : List (Out K)}

/-- A run that returned, stage by stage. -/
theorem runOut_ok {d : SavedRun K}
    (h : runOut v o cpuCount post initial burnMoves moves obsBurn obs burnFile file files = (log, .ok d)) :
    ∃ burnOld old burnt ens l1 l2 l3 ii hist, storedBefore v o.overwrite initial.length burnFile = .ok burnOld ∧
      burnPhase v o.nBurn (o.cpus cpuCount) post initial burnMoves obsBurn burnOld files = (l1, .ok burnt) ∧
      storedBefore v o.overwrite initial.length file = .ok old ∧ o.stop.nSteps ≠ 0 ∧
      startFrom post initial burnt = .ok ens ∧
      prodLoop o.stop post moves obs none 0 o.stop.nSteps ens old = (l2, .ok (some ii, hist)) ∧
      ¬ (v = .v2 ∧ ¬ 1 < o.cpus cpuCount) ∧
      (files.trace = true → files.plotTrace d = .ok ()) ∧
      d = savedRun v initial.length files.nParam (o.cpus cpuCount) obs hist ∧
      l3 = cautionLine o.stop (ii + 1) ++ [.finished (ii + 1), .runSummary (o.cpus cpuCount) files.nParam initial.length
          o.stop.nSteps files.keys (obs.af hist) (endAcor v (obs.acor hist))] ++
        ((if files.sampler then [.pickle d] else []) ++ (if files.trace then [.runPlot d] else [])) ∧
      log = .noThread o.noThread :: .cpus (o.cpus cpuCount) :: (l1 ++ .runHead :: (l2 ++ l3)) := by
  rcases runOut_stages h with ⟨l, e, hr, -⟩ | ⟨burnOld, old, burnt, ens, l1, l2, l3, ii, hist, h1, h2, h3, h4, h5, h6, h7, h8⟩
  · cases hr
  · obtain ⟨l', hl, hc⟩ := finishRun_cases h7
    rcases hc with ⟨-, -, -, hr⟩ | ⟨-, -, e, -, -, hr⟩ | ⟨c1, c2, c3, c4⟩
    · cases hr
    · cases hr
    · cases c4
      exact ⟨burnOld, old, burnt, ens, l1, l2, l3, ii, hist, h1, h2, h3, h4, h5, h6, c1, c2, rfl, by rw [hl, c3], h8⟩

/-- **C191** (refinement): a run that returns, with everything it writes, returns the samples of the run of
`Verif.Model.Sampler`; so C109–C113 hold of it. -/
theorem C191_same {d : SavedRun K}
    (h : runOut v o cpuCount post initial burnMoves moves obsBurn obs burnFile file files = (log, .ok d)) :
    runMcmc v o cpuCount post initial burnMoves moves obs.diag file = .ok d.samples := by
  obtain ⟨burnOld, old, burnt, ens, l1, l2, l3, ii, hist, h1, h2, h3, h4, h5, h6, h7, -, rfl, -⟩ := runOut_ok h
  obtain ⟨tail, -, -, -, t4, -⟩ := prodLoop_ok o.stop post moves obs old.length o.stop.nSteps 0 none (by simp) h6
  unfold runMcmc
  by_cases hn : o.nBurn = 0
  · have hb : burnt = none := by
      unfold burnPhase at h2
      rw [if_pos hn] at h2
      simp only [Prod.mk.injEq, Except.ok.injEq] at h2
      exact h2.2.symm
    subst hb
    rw [show startEnsemble post initial = .ok ens from h5, hn]
    simp only [burnIn, h3, t4, if_neg h4, if_neg h7]
    rfl
  · obtain ⟨e0, ens', hb, l', b1, b2, -, b4, -⟩ := burnPhase_ok hn h2
    subst b4
    obtain rfl : ens' = ens := by simpa [startFrom] using h5
    have b5 : burnIn post burnMoves 0 o.nBurn e0 = .ok ens' := by
      rw [← burnHist_burnIn post burnMoves o.nBurn 0 e0 burnOld, b2]; rfl
    simp only [b1, b5, h3, t4, if_neg h4, if_neg h7]
    rfl

/-- A line that does not belong to the burn-in is in the log of a returned run if it is one of those of the production. -/
theorem mem_log {d : SavedRun K} {l1 l2 l3 : List (Out K)} {b : Bool} {n : Int} (hl1 : ∀ x ∈ l1, x.isBurn = true)
    (x : Out K) (hb : x.isBurn = false) (h1 : x ≠ .noThread b) (h2 : x ≠ .cpus n) (h3 : x ≠ .runHead) :
    x ∈ Out.noThread b :: .cpus n :: (l1 ++ .runHead :: (l2 ++ l3)) ↔ x ∈ l2 ∨ x ∈ l3 := by
  simp only [List.mem_cons, List.mem_append]
  constructor
  · rintro (h | h | h | h | h)
    · exact absurd h h1
    · exact absurd h h2
    · rw [hl1 x h] at hb; cases hb
    · exact absurd h h3
    · exact h
  · intro h
    exact Or.inr (Or.inr (Or.inr (Or.inr h)))

/-- **C191**: in the log of a run that returned, with `steps` the production steps of this run (stored after `old`):
the number of finished steps is theirs; the line on finishing early appears if and only if the criterion held at the last one,
with its number; the line on the minimum number of steps if and only if the run was stopped at step 50;
the caution if and only if the budget was used up (with all limits set, not forced to run all steps); and for each step there is one
line with the autocorrelation times after it or saying that there are none yet. -/
theorem C191_log_partial {d : SavedRun K}
    (h : runOut v o cpuCount post initial burnMoves moves obsBurn obs burnFile file files = (log, .ok d)) :
    ∃ old steps : List (List (Walker K)), storedBefore v o.overwrite initial.length file = .ok old ∧
      1 ≤ steps.length ∧ steps.length ≤ o.stop.nSteps ∧
      d.samples = dictOf initial.length (old ++ steps) ∧ d.nIter = old.length + steps.length ∧
      (∀ n, .finished n ∈ log ↔ n = steps.length) ∧
      (∀ n, .early n ∈ log ↔ n = steps.length ∧
        Converged o.stop (fun j => obs.diag (old ++ steps.take (j + 1))) (steps.length - 1)) ∧
      (∀ n, .minLimit n ∈ log ↔ n = 50 ∧ steps.length = 50 ∧
        Converged o.stop (fun j => obs.diag (old ++ steps.take (j + 1))) 49) ∧
      (.caution ∈ log ↔ steps.length = o.stop.nSteps ∧ o.stop.minAF ≠ none ∧ o.stop.maxAF ≠ none ∧ o.stop.nEff ≠ none ∧
        o.stop.runAllSteps = false) ∧
      (∀ j ts, .acorAt j ts ∈ log ↔ j < steps.length ∧
        ∃ a l, ts = a :: l ∧ obs.acor (old ++ steps.take (j + 1)) = .times a l) ∧
      (∀ j, .tooShort j ∈ log ↔ j < steps.length ∧ obs.acor (old ++ steps.take (j + 1)) = .runtime) := by
  obtain ⟨burnOld, old, burnt, ens, l1, l2, l3, ii, hist, h1, h2, h3, h4, h5, h6, h7, -, hd, hl3, hlog⟩ := runOut_ok h
  obtain ⟨steps, t1, t2, t3, -, t5, t6, -, -, t9⟩ :=
    prodLoop_ok o.stop post moves obs old.length o.stop.nSteps 0 none (by simp) h6
  have hl1 : ∀ x ∈ l1, x.isBurn = true := by
    have := burnPhase_isBurn v o.nBurn (o.cpus cpuCount) post initial burnMoves obsBurn burnOld files
    rw [h2] at this
    exact this
  simp only at t1 t5
  have hne := t3 h4
  have hpos : 1 ≤ steps.length := List.length_pos_iff.2 hne
  rw [if_neg hne] at t5
  obtain rfl : ii = steps.length - 1 := by simpa using t5
  subst t1
  have htake : ∀ j, (old ++ steps).take (old.length + j + 1) = old ++ steps.take (j + 1) := by
    intro j
    rw [Nat.add_assoc, List.take_length_add_append]
  have hlast : Converged o.stop (fun j => obs.diag (old ++ steps.take (j + 1))) (steps.length - 1) ↔
      stopTest o.stop (steps.length - 1) (obs.diag (old ++ steps)) = true := by
    rw [← stopTest_iff]
    rw [Nat.sub_add_cancel hpos, List.take_length]
  have hl2 : ∀ x, x ∈ l2 ↔ (∃ j < steps.length, x ∈ stepLine j (obs.acor (old ++ steps.take (j + 1)))) ∨
      (Converged o.stop (fun j => obs.diag (old ++ steps.take (j + 1))) (steps.length - 1) ∧ x ∈ (stopLines (steps.length - 1) : List (Out K))) := by
    intro x
    rw [t9, List.mem_append, stepLines_mem]
    simp only [htake, Nat.zero_le, true_and, Nat.zero_add, ne_eq, hne, not_false_eq_true]
    refine or_congr Iff.rfl ?_
    rw [hlast]
    by_cases hs : stopTest o.stop (steps.length - 1) (obs.diag (old ++ steps)) = true
    · simp [hs]
    · simp [hs]
  have hl3' : ∀ x, x ∈ l3 ↔ x ∈ cautionLine o.stop steps.length ∨ x = .finished steps.length ∨
      x = .runSummary (o.cpus cpuCount) files.nParam initial.length
          o.stop.nSteps files.keys (obs.af (old ++ steps)) (endAcor v (obs.acor (old ++ steps))) ∨
      (files.sampler = true ∧ x = .pickle d) ∨ (files.trace = true ∧ x = .runPlot d) := by
    intro x
    rw [hl3, Nat.sub_add_cancel hpos]
    by_cases hs : files.sampler = true <;> by_cases ht : files.trace = true <;> simp [hs, ht] <;> tauto
  have hca : ∀ x, x ∈ cautionLine o.stop steps.length → x = .caution := by
    intro x hx
    unfold cautionLine at hx
    split at hx
    · exact List.mem_singleton.1 hx
    · cases hx
  have hst : ∀ x, x ∈ (stopLines (steps.length - 1) : List (Out K)) ↔
      (steps.length = 50 ∧ x = .minLimit 50) ∨ x = .early steps.length := by
    intro x
    unfold stopLines acorForceMin
    rw [Nat.sub_add_cancel hpos]
    by_cases h50 : steps.length - 1 = 49
    · have : steps.length = 50 := by omega
      simp [this]
    · have : steps.length ≠ 50 := by omega
      simp [h50, this]
  have hsl : ∀ j x, x ∈ stepLine j (obs.acor (old ++ steps.take (j + 1))) →
      (∃ ts, x = .acorAt j ts) ∨ x = .tooShort j := by
    intro j x hx
    unfold stepLine at hx
    split at hx <;> rw [List.mem_singleton] at hx
    · exact Or.inl ⟨_, hx⟩
    · exact Or.inr hx
  refine ⟨old, steps, h3, hpos, t2, by rw [hd]; rfl, by rw [hd]; simp [savedRun], ?_, ?_, ?_, ?_, ?_, ?_⟩
  · intro n
    rw [hlog, mem_log (d := d) hl1 _ rfl (by simp) (by simp) (by simp), hl2, hl3']
    constructor
    · rintro ((⟨j, -, hj⟩ | ⟨-, hx⟩) | hx)
      · rcases hsl j _ hj with ⟨_, h⟩ | h <;> cases h
      · rcases (hst _).1 hx with ⟨-, h⟩ | h <;> cases h
      · rcases hx with hx | hx | hx | ⟨-, hx⟩ | ⟨-, hx⟩
        · cases hca _ hx
        · cases hx; rfl
        · cases hx
        · cases hx
        · cases hx
    · rintro rfl
      exact Or.inr (Or.inr (Or.inl rfl))
  · intro n
    rw [hlog, mem_log (d := d) hl1 _ rfl (by simp) (by simp) (by simp), hl2, hl3']
    constructor
    · rintro ((⟨j, -, hj⟩ | ⟨hc, hx⟩) | hx)
      · rcases hsl j _ hj with ⟨_, h⟩ | h <;> cases h
      · rcases (hst _).1 hx with ⟨-, h⟩ | h
        · cases h
        · cases h; exact ⟨rfl, hc⟩
      · rcases hx with hx | hx | hx | ⟨-, hx⟩ | ⟨-, hx⟩
        · cases hca _ hx
        all_goals cases hx
    · rintro ⟨rfl, hc⟩
      exact Or.inl (Or.inr ⟨hc, (hst _).2 (Or.inr rfl)⟩)
  · intro n
    rw [hlog, mem_log (d := d) hl1 _ rfl (by simp) (by simp) (by simp), hl2, hl3']
    constructor
    · rintro ((⟨j, -, hj⟩ | ⟨hc, hx⟩) | hx)
      · rcases hsl j _ hj with ⟨_, h⟩ | h <;> cases h
      · rcases (hst _).1 hx with ⟨h50, h⟩ | h
        · cases h
          rw [h50] at hc
          exact ⟨rfl, h50, hc⟩
        · cases h
      · rcases hx with hx | hx | hx | ⟨-, hx⟩ | ⟨-, hx⟩
        · cases hca _ hx
        all_goals cases hx
    · rintro ⟨rfl, h50, hc⟩
      exact Or.inl (Or.inr ⟨by rw [h50]; exact hc, (hst _).2 (Or.inl ⟨h50, rfl⟩)⟩)
  · rw [hlog, mem_log (d := d) hl1 _ rfl (by simp) (by simp) (by simp), hl2, hl3']
    have hcm : (Out.caution : Out K) ∈ cautionLine o.stop steps.length ↔
        steps.length = o.stop.nSteps ∧ o.stop.minAF ≠ none ∧ o.stop.maxAF ≠ none ∧ o.stop.nEff ≠ none ∧
        o.stop.runAllSteps = false := by
      unfold cautionLine
      simp only [← Option.isSome_iff_ne_none]
      split_ifs with hc
      · exact ⟨fun _ => hc, fun _ => List.mem_singleton_self _⟩
      · exact ⟨(fun h => by cases h), fun h => absurd h hc⟩
    rw [hcm]
    constructor
    · rintro ((⟨j, -, hj⟩ | ⟨hc, hx⟩) | hx)
      · rcases hsl j _ hj with ⟨_, h⟩ | h <;> cases h
      · rcases (hst _).1 hx with ⟨h50, h⟩ | h <;> cases h
      · rcases hx with hx | hx | hx | ⟨-, hx⟩ | ⟨-, hx⟩
        · exact hx
        all_goals cases hx
    · intro hx
      exact Or.inr (Or.inl hx)
  · intro j ts
    rw [hlog, mem_log (d := d) hl1 _ rfl (by simp) (by simp) (by simp), hl2, hl3']
    constructor
    · rintro ((⟨j', hlt, hj⟩ | ⟨hc, hx⟩) | hx)
      · unfold stepLine at hj
        split at hj
        · rename_i a l ha
          rw [List.mem_singleton] at hj
          cases hj
          exact ⟨hlt, a, l, rfl, ha⟩
        · rw [List.mem_singleton] at hj
          cases hj
      · rcases (hst _).1 hx with ⟨h50, h⟩ | h <;> cases h
      · rcases hx with hx | hx | hx | ⟨-, hx⟩ | ⟨-, hx⟩
        · cases hca _ hx
        all_goals cases hx
    · rintro ⟨hlt, a, l, rfl, ha⟩
      exact Or.inl (Or.inl ⟨j, hlt, by rw [ha]; exact List.mem_singleton_self _⟩)
  · intro j
    rw [hlog, mem_log (d := d) hl1 _ rfl (by simp) (by simp) (by simp), hl2, hl3']
    constructor
    · rintro ((⟨j', hlt, hj⟩ | ⟨hc, hx⟩) | hx)
      · unfold stepLine at hj
        split at hj
        · rw [List.mem_singleton] at hj
          cases hj
        · rename_i ha
          rw [List.mem_singleton] at hj
          cases hj
          refine ⟨hlt, ?_⟩
          have hr := t6 j (Nat.zero_le _) (by omega)
          rw [htake] at hr
          cases hq : obs.acor (old ++ steps.take (j + 1)) with
          | times a l => exact absurd hq (ha a l)
          | runtime => rfl
          | raised e => exact absurd hq (hr e)
      · rcases (hst _).1 hx with ⟨h50, h⟩ | h <;> cases h
      · rcases hx with hx | hx | hx | ⟨-, hx⟩ | ⟨-, hx⟩
        · cases hca _ hx
        all_goals cases hx
    · rintro ⟨hlt, ha⟩
      exact Or.inl (Or.inl ⟨j, hlt, by rw [ha]; exact List.mem_singleton_self _⟩)

/-- **C191**: a run that finishes early wrote autocorrelation times after its last step, and the index of that step exceeds `nEff` times
the longest of them. -/
theorem C191_early {d : SavedRun K} {n : Nat}
    (h : runOut v o cpuCount post initial burnMoves moves obsBurn obs burnFile file files = (log, .ok d))
    (hn : .early n ∈ log) :
    50 ≤ n ∧ ∃ a l ne, .acorAt (n - 1) (a :: l) ∈ log ∧ o.stop.nEff = some ne ∧
      Fl.ltB (longest a l * ne) (.fin ((n - 1 : Nat) : K)) = true := by
  obtain ⟨old, steps, -, h1, -, -, -, -, h2, -, -, h3, -⟩ := C191_log_partial h
  obtain ⟨rfl, lo, hi, ne, ac, -, -, c3, c4, -, -, c5, c6, -⟩ := (h2 n).1 hn
  cases hc : obs.acor (old ++ steps.take (steps.length - 1 + 1)) with
  | times a l =>
    simp only [RunObs.diag, hc, Option.some.injEq] at c4
    subst c4
    exact ⟨by omega, a, l, ne, (h3 _ _).2 ⟨by omega, a, l, rfl, hc⟩, c3, c5⟩
  | runtime => simp [RunObs.diag, hc] at c4
  | raised e => simp [RunObs.diag, hc] at c4

theorem prodLoop_returns (o : StopOpts K) (post : List (Fl K) → Except PyErr (Fl K)) (moves : Nat → List (Move K))
    (obs : RunObs K) (hobs : ∀ h e, obs.acor h ≠ .raised e) :
    ∀ (rem ii : Nat) (last : Option Nat) (ens : List (Walker K)) (h0 hist : List (List (Walker K))),
      produce o post moves obs.diag ii rem ens h0 = .ok hist →
      ∃ l last', prodLoop o post moves obs last ii rem ens h0 = (l, .ok (last', hist))
  | 0, ii, last, ens, h0, hist, h => by
      simp only [produce, Except.ok.injEq] at h
      subst h
      exact ⟨[], last, rfl⟩
  | rem + 1, ii, last, ens, h0, hist, h => by
      unfold produce at h
      unfold prodLoop
      cases hs : stepEnsemble post ens (moves ii) with
      | error e => rw [hs] at h; cases h
      | ok e1 =>
        rw [hs] at h
        simp only at h
        have key : ∃ l last', (Logged.write (stepLine ii (obs.acor (h0 ++ [e1])))).andThen (fun _ =>
              if stopTest o ii (obs.diag (h0 ++ [e1])) then (stopLines ii, .ok (some ii, h0 ++ [e1]))
              else prodLoop o post moves obs (some ii) (ii + 1) rem e1 (h0 ++ [e1])) = (l, .ok (last', hist)) := by
          rw [write_andThen]
          by_cases hst : stopTest o ii (obs.diag (h0 ++ [e1])) = true
          · rw [if_pos hst, Except.ok.injEq] at h
            subst h
            exact ⟨_, some ii, by rw [if_pos hst]⟩
          · rw [if_neg hst] at h
            obtain ⟨l, last', hl⟩ := prodLoop_returns o post moves obs hobs rem (ii + 1) (some ii) e1 _ hist h
            exact ⟨_, last', by rw [if_neg hst, hl]⟩
        obtain ⟨l, last', key⟩ := key
        refine ⟨l, last', ?_⟩
        simp only
        split
        · rename_i e he
          exact absurd he (hobs _ e)
        · exact key

/-- **C191** (converse): if the run of the sampler returns and neither the diagnostics nor the plots raise anything, the run with its log
returns. -/
theorem C191_returns {s : SamplerDict (List (Fl K)) (Fl K)} {burnOld : List (List (Walker K))}
    (hb : storedBefore v o.overwrite initial.length burnFile = .ok burnOld)
    (hobs : ∀ h e, obs.acor h ≠ .raised e) (hobsBurn : v = .v3 → ∀ h, ∃ a l, obsBurn.acor h = .times a l)
    (hplot : ∀ d, files.plotTrace d = .ok ())
    (h : runMcmc v o cpuCount post initial burnMoves moves obs.diag file = .ok s) :
    ∃ log d, runOut v o cpuCount post initial burnMoves moves obsBurn obs burnFile file files = (log, .ok d) ∧ d.samples = s := by
  obtain ⟨e0, e1, old, hist, h0, h1, h2, h3, h4, h5, rfl⟩ := runMcmc_ok h
  have hps : ∀ w d x, (plotStep w files.plotTrace d x).2 = .ok () := by
    intro w d x
    unfold plotStep
    split
    · rw [hplot]
    · rfl
  have hph : ∃ l burnt, burnPhase v o.nBurn (o.cpus cpuCount) post initial burnMoves obsBurn burnOld files = (l, .ok burnt) ∧
      startFrom post initial burnt = .ok e1 := by
    unfold burnPhase
    by_cases hn : o.nBurn = 0
    · rw [hn, burnIn, Except.ok.injEq] at h1
      subst h1
      exact ⟨[], none, by rw [if_pos hn], h0⟩
    · rw [if_neg hn, write_andThen, h0]
      simp only
      have hm := burnHist_burnIn post burnMoves o.nBurn 0 e0 burnOld
      rw [h1] at hm
      cases hq : burnHist post burnMoves 0 o.nBurn e0 burnOld with
      | error e => rw [hq] at hm; cases hm
      | ok q =>
        obtain ⟨ens, hist'⟩ := q
        rw [hq] at hm
        obtain rfl : ens = e1 := by simpa [Except.map] using hm
        have hae : burnAcorErr v (obsBurn.acor hist') = .ok () := by
          cases v with
          | v2 => cases obsBurn.acor hist' <;> rfl
          | v3 =>
            obtain ⟨a, l, hal⟩ := hobsBurn rfl hist'
            rw [hal]
            rfl
        simp only [hae, write_andThen, Logged.andThen, hps]
        exact ⟨_, _, rfl, rfl⟩
  obtain ⟨l1, burnt, hph, hst⟩ := hph
  obtain ⟨l2, last, hpl⟩ := prodLoop_returns o.stop post moves obs hobs o.stop.nSteps 0 none e1 old hist h3
  obtain ⟨tail, -, -, t3, -, t5, -⟩ := prodLoop_ok o.stop post moves obs old.length o.stop.nSteps 0 none (by simp) hpl
  simp only [if_neg (t3 h4)] at t5
  subst t5
  unfold runOut
  rw [hb]
  simp only [write_andThen, hph]
  cases hn : o.stop.nSteps with
  | zero => exact absurd hn h4
  | succ n =>
    rw [hn] at hpl
    refine ⟨_, savedRun v initial.length files.nParam (o.cpus cpuCount) obs hist, Prod.ext rfl ?_, rfl⟩
    simp only [Logged.andThen, h2, Logged.write, hst, hpl, finishRun]
    rw [if_neg h5]
    simp only [hps]

/-! ## C190: autocorrelation times -/

/-- **C190** for emcee 3: after a burn-in the log has the autocorrelation times of its sampler; it warns if and only if
none of them is NaN and one of them is longer than half the burn-in; at the end and with the samples the times
of the whole chain are reported. -/
theorem C190_times_partial [IsStrictOrderedRing K] {d : SavedRun K} (hn : o.nBurn ≠ 0)
    (h : runOut .v3 o cpuCount post initial burnMoves moves obsBurn obs burnFile file files = (log, .ok d)) :
    ∃ burnOld burn : List (List (Walker K)), storedBefore .v3 o.overwrite initial.length burnFile = .ok burnOld ∧
      burn.length = o.nBurn ∧ ∃ a l, obsBurn.acor (burnOld ++ burn) = .times a l ∧
      .burnSummary (o.cpus cpuCount) files.nParam initial.length o.nBurn files.keys (obsBurn.af (burnOld ++ burn))
        (some (a :: l)) ∈ log ∧
      .burnUnknown ∉ log ∧
      (.burnShort ∈ log ↔ (∀ t ∈ a :: l, t ≠ .nan) ∧ ∃ t ∈ a :: l, Fl.ltB (.fin ((o.nBurn : K) / 2)) t = true) ∧
      ∃ hist, d.samples = dictOf initial.length hist ∧
        (∀ a l, obs.acor hist = .times a l → d.acorTime = some (a :: l)) ∧
        .runSummary (o.cpus cpuCount) files.nParam initial.length o.stop.nSteps files.keys d.acceptance d.acorTime ∈ log := by
  obtain ⟨burnOld, old, burnt, ens, l1, l2, l3, ii, hist, h1, h2, h3, h4, h5, h6, h7, -, hd, hl3, hlog⟩ := runOut_ok h
  obtain ⟨e0, ens', hb, l', b1, b2, b3, b4, b5, b6⟩ := burnPhase_ok hn h2
  obtain ⟨burn, hburn, hlen⟩ := burnHist_length post burnMoves o.nBurn 0 e0 burnOld b2
  simp only at hburn
  subst hburn
  obtain ⟨a, l, hal⟩ : ∃ a l, obsBurn.acor (burnOld ++ burn) = .times a l := by
    cases hq : obsBurn.acor (burnOld ++ burn) with
    | times a l => exact ⟨a, l, rfl⟩
    | runtime => rw [hq] at b3; simp [burnAcorErr] at b3
    | raised e => rw [hq] at b3; simp [burnAcorErr] at b3
  have hend : endAcor .v3 (obsBurn.acor (burnOld ++ burn)) = some (a :: l) := by rw [hal]; rfl
  rw [hend] at b5
  have hstep : ∀ x ∈ l2, x.isStep = true := by
    have := prodLoop_isStep o.stop post moves obs o.stop.nSteps 0 none ens old
    rw [h6] at this
    exact this
  have hl3' : ∀ x ∈ l3, x.isBurn = false := by
    intro x hx
    rw [hl3] at hx
    unfold cautionLine at hx
    simp only [List.mem_append] at hx
    rcases hx with (hx | hx) | hx | hx
    · split at hx
      · rw [List.mem_singleton] at hx; subst hx; rfl
      · cases hx
    · simp only [List.mem_cons, List.not_mem_nil, or_false] at hx
      rcases hx with rfl | rfl <;> rfl
    · split at hx
      · rw [List.mem_singleton] at hx; subst hx; rfl
      · cases hx
    · split at hx
      · rw [List.mem_singleton] at hx; subst hx; rfl
      · cases hx
  have hmem : ∀ x : Out K, x.isBurn = true → (x ∈ log ↔ x ∈ l1) := by
    intro x hx
    rw [hlog]
    simp only [List.mem_cons, List.mem_append]
    constructor
    · rintro (h | h | h | h | h | h)
      · subst h; cases hx
      · subst h; cases hx
      · exact h
      · subst h; cases hx
      · have := hstep x h
        cases x <;> simp_all [Out.isBurn, Out.isStep]
      · rw [hl3' x h] at hx; cases hx
    · intro h
      exact Or.inr (Or.inr (Or.inl h))
  refine ⟨burnOld, burn, h1, hlen, a, l, hal, ?_, ?_, ?_, hist, by rw [hd]; rfl, ?_, ?_⟩
  · rw [hmem _ rfl, b5]
    exact List.mem_cons_of_mem _ (List.mem_cons_self ..)
  · rw [hmem _ rfl, b5]
    simp only [List.mem_cons, List.mem_append, reduceCtorEq, false_or]
    rintro (hx | hx)
    · unfold burnVerdict at hx
      simp only at hx
      split at hx
      · rw [List.mem_singleton] at hx; cases hx
      · cases hx
    · cases b6 _ hx
  · rw [hmem _ rfl, b5, ← longest_above, ← ltB_double]
    simp only [List.mem_cons, List.mem_append, reduceCtorEq, false_or, burnVerdict]
    constructor
    · rintro (hx | hx)
      · by_contra hc
        rw [if_neg hc] at hx
        cases hx
      · cases b6 _ hx
    · intro hx
      rw [if_pos hx]
      exact Or.inl (List.mem_singleton_self _)
  · intro a' l' hal'
    rw [hd]
    simp [savedRun, dictAcor, hal']
  · rw [hlog, hl3, hd]
    simp only [List.mem_cons, List.mem_append]
    refine Or.inr (Or.inr (Or.inr (Or.inr (Or.inr (Or.inl (Or.inr (Or.inr (Or.inl ?_))))))))
    simp only [savedRun]
    cases obs.acor hist <;> rfl

/-- **C190** is false of the code for emcee 2: whatever the samples are, a run with burn-in that returned says that the
convergence of the burn-in cannot be checked, never that the burn-in was too short, and reports no autocorrelation time, neither in the log
nor with the samples. -/
theorem C190_false {d : SavedRun K} (hn : o.nBurn ≠ 0)
    (h : runOut .v2 o cpuCount post initial burnMoves moves obsBurn obs burnFile file files = (log, .ok d)) :
    .burnUnknown ∈ log ∧ .burnShort ∉ log ∧ d.acorTime = none ∧
      (∀ a b c e k f t, .burnSummary a b c e k f t ∈ log → t = none) ∧
      (∀ a b c e k f t, .runSummary a b c e k f t ∈ log → t = none) := by
  obtain ⟨burnOld, old, burnt, ens, l1, l2, l3, ii, hist, h1, h2, h3, h4, h5, h6, h7, -, hd, hl3, hlog⟩ := runOut_ok h
  obtain ⟨e0, ens', hb, l', b1, b2, b3, b4, b5, b6⟩ := burnPhase_ok hn h2
  have hend : ∀ r : AcorRes K, endAcor .v2 r = none := by intro r; cases r <;> rfl
  rw [hend] at b5 hl3
  have hstep : ∀ x ∈ l2, x.isStep = true := by
    have := prodLoop_isStep o.stop post moves obs o.stop.nSteps 0 none ens old
    rw [h6] at this
    exact this
  have hl3' : ∀ x ∈ l3, x = .caution ∨ x = .finished (ii + 1) ∨ x = .runSummary (o.cpus cpuCount) files.nParam initial.length
          o.stop.nSteps files.keys (obs.af hist) none ∨ x = .pickle d ∨ x = .runPlot d := by
    intro x hx
    rw [hl3] at hx
    unfold cautionLine at hx
    simp only [List.mem_append] at hx
    rcases hx with (hx | hx) | hx | hx
    · split at hx
      · exact Or.inl (List.mem_singleton.1 hx)
      · cases hx
    · simp only [List.mem_cons, List.not_mem_nil, or_false] at hx
      tauto
    · split at hx
      · have := List.mem_singleton.1 hx
        tauto
      · cases hx
    · split at hx
      · have := List.mem_singleton.1 hx
        tauto
      · cases hx
  have hl1 : ∀ x ∈ l1, x = .burnHead ∨ x = .burnSummary (o.cpus cpuCount) files.nParam initial.length o.nBurn files.keys
      (obsBurn.af hb) none ∨ x = .burnUnknown ∨ x = .burnPlot (savedRun .v2 initial.length files.nParam (o.cpus cpuCount) obsBurn hb) := by
    intro x hx
    rw [b5] at hx
    simp only [List.mem_cons, List.mem_append, burnVerdict, List.not_mem_nil, or_false] at hx
    rcases hx with hx | hx | hx | hx
    · tauto
    · tauto
    · tauto
    · have := b6 x hx
      tauto
  refine ⟨?_, ?_, ?_, ?_, ?_⟩
  · rw [hlog, b5]
    simp [burnVerdict]
  · rw [hlog]
    simp only [List.mem_cons, List.mem_append, reduceCtorEq, false_or]
    rintro (hx | hx | hx)
    · rcases hl1 _ hx with h | h | h | h <;> cases h
    · cases hstep _ hx
    · rcases hl3' _ hx with h | h | h | h | h <;> cases h
  · rw [hd]
    simp only [savedRun]
    cases obs.acor hist <;> rfl
  · intro a b c e k f t hx
    rw [hlog] at hx
    simp only [List.mem_cons, List.mem_append, reduceCtorEq, false_or] at hx
    rcases hx with hx | hx | hx
    · rcases hl1 _ hx with h | h | h | h <;> cases h
      rfl
    · cases hstep _ hx
    · rcases hl3' _ hx with h | h | h | h | h <;> cases h
  · intro a b c e k f t hx
    rw [hlog] at hx
    simp only [List.mem_cons, List.mem_append, reduceCtorEq, false_or] at hx
    rcases hx with hx | hx | hx
    · rcases hl1 _ hx with h | h | h | h <;> cases h
    · cases hstep _ hx
    · rcases hl3' _ hx with h | h | h | h | h <;> cases h
      rfl

/-! ## C192: what a run leaves behind -/

/-- **C192** (a run that returned): the file with the samples, if one is named, has the samples that are attached to the fit, and
the plot shows them; counters and samples agree. -/
theorem C192_returned {d d' : SavedRun K} {d0 : Option (SavedRun K)}
    (h : runOut v o cpuCount post initial burnMoves moves obsBurn obs burnFile file files = (log, .ok d)) :
    attachedAfter d0 (log, .ok d) = some d ∧
      (.pickle d' ∈ log ↔ files.sampler = true ∧ d' = d) ∧ (.runPlot d' ∈ log ↔ files.trace = true ∧ d' = d) ∧
      d.nWalkers = initial.length ∧ d.nParam = files.nParam ∧ d.samples.chain.length = d.nWalkers ∧
      (v = .v2 ∨ 1 < o.cpus cpuCount → d.nCPU = o.cpus cpuCount) := by
  obtain ⟨burnOld, old, burnt, ens, l1, l2, l3, ii, hist, h1, h2, h3, h4, h5, h6, h7, -, hd, hl3, hlog⟩ := runOut_ok h
  have hl1 : ∀ x ∈ l1, x.isBurn = true := by
    have := burnPhase_isBurn v o.nBurn (o.cpus cpuCount) post initial burnMoves obsBurn burnOld files
    rw [h2] at this
    exact this
  have hstep : ∀ x ∈ l2, x.isStep = true := by
    have := prodLoop_isStep o.stop post moves obs o.stop.nSteps 0 none ens old
    rw [h6] at this
    exact this
  have hca : ∀ x, x ∈ cautionLine o.stop (ii + 1) → x = .caution := by
    intro x hx
    unfold cautionLine at hx
    split at hx
    · exact List.mem_singleton.1 hx
    · cases hx
  refine ⟨rfl, ?_, ?_, by rw [hd]; rfl, by rw [hd]; rfl, ?_, ?_⟩
  · rw [hlog, mem_log (d := d) hl1 _ rfl (by simp) (by simp) (by simp), hl3]
    simp only [List.mem_append, List.mem_cons, List.not_mem_nil, or_false]
    constructor
    · rintro (hx | (hx | hx) | hx | hx)
      · cases hstep _ hx
      · cases hca _ hx
      · rcases hx with hx | hx <;> cases hx
      · split at hx
        · rename_i hs
          cases List.mem_singleton.1 hx
          exact ⟨hs, rfl⟩
        · cases hx
      · split at hx
        · cases List.mem_singleton.1 hx
        · cases hx
    · rintro ⟨hs, rfl⟩
      exact Or.inr (Or.inr (Or.inl (by rw [if_pos hs]; exact List.mem_singleton_self _)))
  · rw [hlog, mem_log (d := d) hl1 _ rfl (by simp) (by simp) (by simp), hl3]
    simp only [List.mem_append, List.mem_cons, List.not_mem_nil, or_false]
    constructor
    · rintro (hx | (hx | hx) | hx | hx)
      · cases hstep _ hx
      · cases hca _ hx
      · rcases hx with hx | hx <;> cases hx
      · split at hx
        · cases List.mem_singleton.1 hx
        · cases hx
      · split at hx
        · rename_i hs
          cases List.mem_singleton.1 hx
          exact ⟨hs, rfl⟩
        · cases hx
    · rintro ⟨hs, rfl⟩
      exact Or.inr (Or.inr (Or.inr (by rw [if_pos hs]; exact List.mem_singleton_self _)))
  · rw [hd]
    simp [savedRun, dictOf, makeSamplerDict, chainOf]
  · intro hc
    rw [hd]
    simp only [savedRun, if_pos hc]

/-- **C192** (a run that failed): the fit keeps the samples it had.  If the log reports finished steps, then either emcee 2 ran without a
pool of processes, and the samples are lost; or only the plot failed, and the samples are in the file if one is named.
Otherwise no file with samples was written. -/
theorem C192_failed_partial {e : PyErr} {d0 : Option (SavedRun K)}
    (h : runOut v o cpuCount post initial burnMoves moves obsBurn obs burnFile file files = (log, .error e)) :
    attachedAfter d0 (log, .error e) = d0 ∧ (∀ d', .runPlot d' ∉ log) ∧
      ((∃ n, .finished n ∈ log) →
        (v = .v2 ∧ o.cpus cpuCount ≤ 1 ∧ e = .attributeError ∧ ∀ d', .pickle d' ∉ log) ∨
        (files.trace = true ∧ ∃ d, files.plotTrace d = .error e ∧
          runMcmc v o cpuCount post initial burnMoves moves obs.diag file = .ok d.samples ∧
          ∀ d', .pickle d' ∈ log ↔ files.sampler = true ∧ d' = d)) ∧
      ((∀ n, .finished n ∉ log) → ∀ d', .pickle d' ∉ log) := by
  refine ⟨rfl, ?_⟩
  rcases runOut_stages h with ⟨l, e', hr, rfl, hl⟩ | ⟨burnOld, old, burnt, ens, l1, l2, l3, ii, hist, h1, h2, h3, h4, h5, h6, h7, h8⟩
  · refine ⟨?_, ?_, ?_⟩
    · intro d' hx
      rcases hl _ hx with h | h | h | h | h <;> cases h
    · rintro ⟨n, hx⟩
      rcases hl _ hx with h | h | h | h | h <;> cases h
    · intro _ d' hx
      rcases hl _ hx with h | h | h | h | h <;> cases h
  · have hl1 : ∀ x ∈ l1, x.isBurn = true := by
      have := burnPhase_isBurn v o.nBurn (o.cpus cpuCount) post initial burnMoves obsBurn burnOld files
      rw [h2] at this
      exact this
    have hstep : ∀ x ∈ l2, x.isStep = true := by
      have := prodLoop_isStep o.stop post moves obs o.stop.nSteps 0 none ens old
      rw [h6] at this
      exact this
    have hca : ∀ x, x ∈ cautionLine o.stop (ii + 1) → x = .caution := by
      intro x hx
      unfold cautionLine at hx
      split at hx
      · exact List.mem_singleton.1 hx
      · cases hx
    obtain ⟨l', hl3, hc⟩ := finishRun_cases h7
    have hmem : ∀ x : Out K, x.isBurn = false → x.isStep = false → (∀ b, x ≠ .noThread b) → (∀ n, x ≠ .cpus n) → x ≠ .runHead →
        x ≠ .caution → (∀ n, x ≠ .finished n) → (∀ a b c e k f t, x ≠ .runSummary a b c e k f t) → (x ∈ log ↔ x ∈ l') := by
      intro x g1 g2 g3 g4 g5 g6 g7 g8
      rw [h8, mem_log (d := savedRun v 0 0 0 obs hist) hl1 _ g1 (g3 _) (g4 _) g5, hl3]
      simp only [List.mem_append, List.mem_cons, List.not_mem_nil, or_false]
      constructor
      · rintro (hx | (hx | hx | hx) | hx)
        · rw [hstep _ hx] at g2; cases g2
        · exact absurd (hca _ hx) g6
        · exact absurd hx (g7 _)
        · exact absurd hx (g8 _ _ _ _ _ _ _)
        · exact hx
      · intro hx
        exact Or.inr (Or.inr hx)
    have hfin : .finished (ii + 1) ∈ log := by
      rw [h8, hl3]
      simp
    have hpick : ∀ d', .pickle d' ∈ log ↔ .pickle d' ∈ l' :=
      fun d' => hmem _ rfl rfl (by simp) (by simp) (by simp) (by simp) (by simp) (by simp)
    have hplot : ∀ d', .runPlot d' ∈ log ↔ .runPlot d' ∈ l' :=
      fun d' => hmem _ rfl rfl (by simp) (by simp) (by simp) (by simp) (by simp) (by simp)
    rcases hc with ⟨c1, c2, rfl, c4⟩ | ⟨c1, c2, e', c3, c4, c5⟩ | ⟨-, -, -, c4⟩
    · cases c4
      refine ⟨fun d' hx => by simpa using (hplot d').1 hx, fun _ => Or.inl ⟨c1, not_lt.1 c2, rfl, fun d' hx => by
        simpa using (hpick d').1 hx⟩, fun hn => absurd hfin (hn _)⟩
    · cases c5
      refine ⟨fun d' hx => ?_, fun _ => Or.inr ⟨c2, _, c3, ?_, fun d' => ?_⟩, fun hn => absurd hfin (hn _)⟩
      · have := (hplot d').1 hx
        rw [c4] at this
        split at this
        · cases List.mem_singleton.1 this
        · cases this
      · have hrun : runOut v o cpuCount post initial burnMoves moves obsBurn obs burnFile file
            { files with trace := false } = (log, .ok (savedRun v initial.length files.nParam (o.cpus cpuCount) obs hist)) := by
          unfold runOut
          rw [h1]
          simp only
          have h2' : burnPhase v o.nBurn (o.cpus cpuCount) post initial burnMoves obsBurn burnOld { files with trace := false } =
              (l1, .ok burnt) := h2
          rw [h2']
          cases hn : o.stop.nSteps with
          | zero => exact absurd hn h4
          | succ n =>
            rw [hn] at h6
            simp only [Logged.andThen, Logged.write, h3, h5, h6, finishRun, plotStep]
            rw [if_neg c1]
            simp only [Bool.false_eq_true, if_false]
            rw [h8, hl3, c4]
            simp
        exact C191_same hrun
      · rw [hpick, c4]
        split
        · rename_i hs
          simp only [List.mem_singleton, Out.pickle.injEq, hs, true_and]
        · rename_i hs
          simp [hs]
    · cases c4

end run

/-! ## concrete runs -/

/-- two walkers, one varying parameter, one step of burn-in, `nSteps` steps, on two processes -/
def logOpts (nSteps : Nat) (cpus : Int) : RunOpts ℚ :=
  { stop := { minAF := some (.fin (1 / 5)), maxAF := some (.fin (1 / 2)), nEff := some (.fin 10), runAllSteps := false,
              nSteps := nSteps }
    nBurn := 1, nCPUs := some cpus, cpuFrac := 3 / 4, noThread := false, overwrite := true }

/-- posterior `-x²` -/
def logPost (x : List (Fl ℚ)) : Except PyErr (Fl ℚ) :=
  match x with
  | [.fin y] => .ok (.fin (-(y * y)))
  | _ => .ok .ninf

/-- acceptance fraction 0.3; no autocorrelation time before `k` steps, then the times `1` and `t` -/
def logObs (k : Nat) (t : Fl ℚ) : RunObs ℚ where
  af := fun _ => .fin (3 / 10)
  acor := fun h => if h.length < k then .runtime else .times (.fin 1) [t]

def logFiles (plot : SavedRun ℚ → Except PyErr Unit) : RunFiles ℚ where
  keys := ["V_a"]
  nParam := 1
  traceBurnin := false
  sampler := true
  trace := true
  plotTrace := plot

def logRun (v : EmceeVersion) (nSteps : Nat) (cpus : Int) (obsBurn obs : RunObs ℚ)
    (plot : SavedRun ℚ → Except PyErr Unit) : Logged ℚ (SavedRun ℚ) :=
  runOut v (logOpts nSteps cpus) 4 logPost [[.fin 1], [.fin 2]] runExampleMoves runExampleMoves obsBurn obs [] []
    (logFiles plot)

def Out.isMinLimit : Out ℚ → Bool | .minLimit _ => true | _ => false
def Out.isBurnShort : Out ℚ → Bool | .burnShort => true | _ => false
def Out.isFinished : Out ℚ → Bool | .finished _ => true | _ => false
def Out.isEarly (k : Nat) : Out ℚ → Bool | .early n => n == k | _ => false
def Out.isPickle : Out ℚ → Bool | .pickle _ => true | _ => false

/-- runs that return, with emcee 3 and with emcee 2 on two processes; the burn-in of one step is shorter than two
autocorrelation times: only emcee 3 warns -/
example : (logRun .v3 2 2 (logObs 0 (.fin 3)) (logObs 2 (.fin 3)) (fun _ => .ok ())).2.toOption.isSome = true ∧
    (logRun .v3 2 2 (logObs 0 (.fin 3)) (logObs 2 (.fin 3)) (fun _ => .ok ())).1.any Out.isBurnShort = true ∧
    (logRun .v2 2 2 (logObs 0 (.fin 3)) (logObs 2 (.fin 3)) (fun _ => .ok ())).2.toOption.isSome = true ∧
    (logRun .v2 2 2 (logObs 0 (.fin 3)) (logObs 2 (.fin 3)) (fun _ => .ok ())).1.any Out.isBurnShort = false := by
  decide +kernel

/-- a run that finishes early -/
example : (logRun .v3 60 2 (logObs 0 (.fin 3)) (logObs 50 (.fin 3)) (fun _ => .ok ())).2.toOption.isSome = true ∧
    (logRun .v3 60 2 (logObs 0 (.fin 3)) (logObs 50 (.fin 3)) (fun _ => .ok ())).1.any
      (fun x => match x with | .early _ => true | _ => false) = true := by
  decide +kernel

/-- **C191** is false of the code: the line `Enforced min step limit` does not say that the criterion was met before.
Here it could not be evaluated before step 50, and the line is there. -/
theorem C191_false : (logRun .v3 60 2 (logObs 0 (.fin 3)) (logObs 50 (.fin 3)) (fun _ => .ok ())).1.any Out.isMinLimit = true ∧
    (∀ h : List (List (Walker ℚ)), h.length < 50 → (logObs 50 (.fin 3)).acor h = .runtime) := by
  refine ⟨by decide +kernel, fun h hh => ?_⟩
  simp [logObs, hh]

/-- ... and here the autocorrelation times were short enough from the third step on, but at step 50 they were too long: the run ends at
step 51, because of the minimum, without that line. -/
theorem C191_false_missing :
    let obs : RunObs ℚ := { af := fun _ => .fin (3 / 10), acor := fun h => .times (.fin (if h.length = 50 then 5 else 1 / 10)) [] }
    (logRun .v3 60 2 obs obs (fun _ => .ok ())).1.any Out.isMinLimit = false ∧
    (logRun .v3 60 2 obs obs (fun _ => .ok ())).1.any (Out.isEarly 51) = true ∧
    ∀ ii < 49, 2 ≤ ii → ∀ h : List (List (Walker ℚ)), h.length = ii + 1 →
      Fl.ltB (obs.diag h).af (.fin (1 / 2)) = true ∧ Fl.ltB (.fin (1 / 5)) (obs.diag h).af = true ∧
      ∃ t, (obs.diag h).acor = some t ∧ Fl.ltB (t * .fin 10) (.fin (ii : ℚ)) = true := by
  refine ⟨by decide +kernel, by decide +kernel, fun ii h1 h2 h hh => ⟨?_, ?_, .fin (1 / 10), ?_, ?_⟩⟩
  · show Fl.ltB (.fin (3 / 10)) (.fin (1 / 2)) = true
    decide +kernel
  · show Fl.ltB (.fin (1 / 5)) (.fin (3 / 10)) = true
    decide +kernel
  · have : h.length ≠ 50 := by omega
    simp [RunObs.diag, this, longest]
  · show Fl.ltB (.fin (1 / 10 * 10)) (.fin (ii : ℚ)) = true
    have : (2 : ℚ) ≤ ii := by exact_mod_cast h2
    simp only [Fl.ltB, decide_eq_true_eq]
    linarith

/-- **C192** is false of the code: with emcee 2 on one process the log reports two finished steps, and the samples are neither in the
file nor attached to the fit. -/
theorem C192_false : (logRun .v2 2 1 (logObs 0 (.fin 3)) (logObs 2 (.fin 3)) (fun _ => .ok ())).1.any Out.isFinished = true ∧
    (logRun .v2 2 1 (logObs 0 (.fin 3)) (logObs 2 (.fin 3)) (fun _ => .ok ())).1.any Out.isPickle = false ∧
    attachedAfter none (logRun .v2 2 1 (logObs 0 (.fin 3)) (logObs 2 (.fin 3)) (fun _ => .ok ())) = none := by
  refine ⟨by decide +kernel, by decide +kernel, ?_⟩
  unfold attachedAfter
  have : (logRun .v2 2 1 (logObs 0 (.fin 3)) (logObs 2 (.fin 3)) (fun _ => .ok ())).2.toOption.isNone = true := by decide +kernel
  cases h : (logRun .v2 2 1 (logObs 0 (.fin 3)) (logObs 2 (.fin 3)) (fun _ => .ok ())).2 with
  | error e => rfl
  | ok d => rw [h] at this; cases this

/-- a failed plot: the samples are in the file -/
example : (logRun .v3 2 1 (logObs 0 (.fin 3)) (logObs 2 (.fin 3)) (fun _ => .error .valueError)).1.any Out.isPickle = true ∧
    (logRun .v3 2 1 (logObs 0 (.fin 3)) (logObs 2 (.fin 3)) (fun _ => .error .valueError)).2.toOption.isNone = true := by
  decide +kernel

end Misfit
