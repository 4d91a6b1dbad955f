import Verif.Model.RunLog
import Verif.Lemmas.Sampler

/-! Helper lemmas for `Verif.Props.RunLog`. -/

namespace Misfit
variable {K : Type*} [Field K] [LinearOrder K]

theorem andThen_ok {α β : Type*} {x : Logged K α} {f : α → Logged K β} {l : List (Out K)} {b : β}
    (h : x.andThen f = (l, .ok b)) : ∃ a l', x = (x.1, .ok a) ∧ f a = (l', .ok b) ∧ l = x.1 ++ l' := by
  obtain ⟨x1, x2⟩ := x
  cases x2 with
  | error e => simp [Logged.andThen] at h
  | ok a =>
    simp only [Logged.andThen, Prod.mk.injEq] at h
    exact ⟨a, (f a).1, rfl, Prod.ext rfl h.2, h.1.symm⟩

theorem andThen_error {α β : Type*} {x : Logged K α} {f : α → Logged K β} {l : List (Out K)} {e : PyErr}
    (h : x.andThen f = (l, .error e)) : x = (l, .error e) ∨
      ∃ a l', x = (x.1, .ok a) ∧ f a = (l', .error e) ∧ l = x.1 ++ l' := by
  obtain ⟨x1, x2⟩ := x
  cases x2 with
  | error e' =>
    simp only [Logged.andThen, Prod.mk.injEq, Except.error.injEq] at h
    exact Or.inl (by rw [h.1, h.2])
  | ok a =>
    simp only [Logged.andThen, Prod.mk.injEq] at h
    exact Or.inr ⟨a, (f a).1, rfl, Prod.ext rfl h.2, h.1.symm⟩

theorem write_andThen {β : Type*} (l : List (Out K)) (f : Unit → Logged K β) :
    (Logged.write l).andThen f = (l ++ (f ()).1, (f ()).2) := rfl

/-! ### the burn-in -/

/-- what belongs to the burn-in -/
def Out.isBurn : Out K → Bool
  | .burnHead => true
  | .burnSummary .. => true
  | .burnShort => true
  | .burnUnknown => true
  | .burnPlot _ => true
  | _ => false

theorem burnVerdict_isBurn (n : Nat) (r : Option (List (Fl K))) : ∀ x ∈ burnVerdict n r, x.isBurn = true := by
  intro x hx
  unfold burnVerdict at hx
  split at hx
  · split at hx
    · rw [List.mem_singleton] at hx; subst hx; rfl
    · cases hx
  · rw [List.mem_singleton] at hx; subst hx; rfl

theorem plotStep_mem {wanted : Bool} {plot : SavedRun K → Except PyErr Unit} {d : SavedRun K} {o : Out K} :
    ∀ x ∈ (plotStep wanted plot d o).1, x = o := by
  intro x hx
  unfold plotStep at hx
  split at hx
  · split at hx
    · cases hx
    · rwa [List.mem_singleton] at hx
  · cases hx

theorem burnPhase_isBurn (v : EmceeVersion) (nBurn : Nat) (nCPU : Int) (post : List (Fl K) → Except PyErr (Fl K))
    (initial : List (List (Fl K))) (burnMoves : Nat → List (Move K)) (obs : RunObs K) (burnFile : List (List (Walker K)))
    (files : RunFiles K) :
    ∀ x ∈ (burnPhase v nBurn nCPU post initial burnMoves obs burnFile files).1, x.isBurn = true := by
  intro x hx
  unfold burnPhase at hx
  split at hx
  · cases hx
  · rw [write_andThen] at hx
    simp only [List.mem_append, List.mem_singleton] at hx
    rcases hx with rfl | hx
    · rfl
    · split at hx
      · cases hx
      · split at hx
        · cases hx
        · split at hx
          · cases hx
          · rw [write_andThen] at hx
            rcases List.mem_append.1 hx with hx | hx
            · rcases List.mem_cons.1 hx with rfl | hx
              · rfl
              · exact burnVerdict_isBurn _ _ x hx
            · unfold Logged.andThen at hx
              split at hx
              · rw [plotStep_mem x hx]; rfl
              · simp only [List.append_nil] at hx
                rw [plotStep_mem x hx]; rfl

theorem burnHist_burnIn (post : List (Fl K) → Except PyErr (Fl K)) (moves : Nat → List (Move K)) :
    ∀ (rem k : Nat) (ens : List (Walker K)) (h0 : List (List (Walker K))),
      (burnHist post moves k rem ens h0).map Prod.fst = burnIn post moves k rem ens
  | 0, k, ens, h0 => rfl
  | rem + 1, k, ens, h0 => by
      unfold burnHist burnIn
      cases stepEnsemble post ens (moves k) with
      | error e => rfl
      | ok e1 => exact burnHist_burnIn post moves rem (k + 1) e1 _

theorem burnHist_length (post : List (Fl K) → Except PyErr (Fl K)) (moves : Nat → List (Move K)) :
    ∀ (rem k : Nat) (ens : List (Walker K)) (h0 : List (List (Walker K))) {r : List (Walker K) × List (List (Walker K))},
      burnHist post moves k rem ens h0 = .ok r → ∃ tail, r.2 = h0 ++ tail ∧ tail.length = rem
  | 0, k, ens, h0, r, h => by
      simp only [burnHist, Except.ok.injEq] at h
      exact ⟨[], by rw [← h]; simp, rfl⟩
  | rem + 1, k, ens, h0, r, h => by
      unfold burnHist at h
      split at h
      · simp at h
      · obtain ⟨t, h1, h2⟩ := burnHist_length post moves rem (k + 1) _ _ h
        exact ⟨_ :: t, by rw [h1]; simp; rfl, by simp [h2]⟩

/-! ### the production loop -/

/-- the lines of the steps `ii, ii + 1, …, ii + n - 1` -/
def stepLines (acor : Nat → AcorRes K) (ii : Nat) : Nat → List (Out K)
  | 0 => []
  | n + 1 => stepLine ii (acor ii) ++ stepLines acor (ii + 1) n

theorem stepLines_congr {f g : Nat → AcorRes K} : ∀ (n ii : Nat), (∀ j, ii ≤ j → j < ii + n → f j = g j) →
    stepLines f ii n = stepLines g ii n
  | 0, _, _ => rfl
  | n + 1, ii, h => by
      rw [stepLines, stepLines, h ii le_rfl (by omega),
        stepLines_congr n (ii + 1) (fun j h1 h2 => h j (by omega) (by omega))]

/-- the last lines of a loop that stopped with index `ii` -/
def stopLines (ii : Nat) : List (Out K) :=
  (if ii = acorForceMin then [.minLimit (ii + 1)] else []) ++ [.early (ii + 1)]

/-- A loop that ends: the same steps as without log; a line for each step and, if it was stopped, the lines on that. -/
theorem prodLoop_ok (o : StopOpts K) (post : List (Fl K) → Except PyErr (Fl K)) (moves : Nat → List (Move K))
    (obs : RunObs K) (b : Nat) :
    ∀ (rem ii : Nat) (last : Option Nat) {ens : List (Walker K)} {h0 : List (List (Walker K))} {l : List (Out K)}
      {r : Option Nat × List (List (Walker K))}, h0.length = b + ii →
      prodLoop o post moves obs last ii rem ens h0 = (l, .ok r) →
      ∃ tail, r.2 = h0 ++ tail ∧ tail.length ≤ rem ∧ (rem ≠ 0 → tail ≠ []) ∧
        produce o post moves obs.diag ii rem ens h0 = .ok r.2 ∧
        r.1 = (if tail = [] then last else some (ii + tail.length - 1)) ∧
        (∀ j, ii ≤ j → j < ii + tail.length → ∀ e, obs.acor (r.2.take (b + j + 1)) ≠ .raised e) ∧
        (∀ j, ii ≤ j → j + 1 < ii + tail.length → stopTest o j (obs.diag (r.2.take (b + j + 1))) = false) ∧
        (tail.length < rem → stopTest o (ii + tail.length - 1) (obs.diag r.2) = true) ∧
        l = stepLines (fun j => obs.acor (r.2.take (b + j + 1))) ii tail.length ++
          (if tail ≠ [] ∧ stopTest o (ii + tail.length - 1) (obs.diag r.2) = true
            then stopLines (ii + tail.length - 1) else [])
  | 0, ii, last, ens, h0, l, r, hl, h => by
      simp only [prodLoop, Prod.mk.injEq, Except.ok.injEq] at h
      obtain ⟨rfl, rfl⟩ := h
      exact ⟨[], by simp, by simp, by simp, rfl, by simp, by intro j h1 h2; simp at h2; omega,
        by intro j h1 h2; simp at h2; omega, by simp, by simp [stepLines]⟩
  | rem + 1, ii, last, ens, h0, l, r, hl, h => by
      unfold prodLoop at h
      cases hs : stepEnsemble post ens (moves ii) with
      | error e => rw [hs] at h; simp at h
      | ok e1 =>
        rw [hs] at h
        have htake : (h0 ++ [e1]).take (b + ii + 1) = h0 ++ [e1] := List.take_of_length_le (by simp [hl])
        have key : (∀ e, obs.acor (h0 ++ [e1]) ≠ .raised e) ∧
            (Logged.write (stepLine ii (obs.acor (h0 ++ [e1])))).andThen (fun _ =>
              if stopTest o ii (obs.diag (h0 ++ [e1])) then (stopLines ii, .ok (some ii, h0 ++ [e1]))
              else prodLoop o post moves obs (some ii) (ii + 1) rem e1 (h0 ++ [e1])) = (l, .ok r) := by
          simp only at h
          split at h
          · simp at h
          · rename_i hne
            exact ⟨hne, h⟩
        obtain ⟨hne, key⟩ := key
        rw [write_andThen] at key
        by_cases hst : stopTest o ii (obs.diag (h0 ++ [e1])) = true
        · simp only [hst, if_true, Prod.mk.injEq, Except.ok.injEq] at key
          obtain ⟨rfl, rfl⟩ := key
          refine ⟨[e1], rfl, by simp, by simp, by simp [produce, hs, hst], by simp, ?_, ?_, ?_, ?_⟩
          · intro j h1 h2 e
            have : j = ii := by simp at h2; omega
            subst this
            rw [htake]
            exact hne e
          · intro j h1 h2; simp at h2; omega
          · intro _; simpa using hst
          · simp [stepLines, htake, hst]
        · simp only [hst, Bool.false_eq_true, if_false, Prod.mk.injEq] at key
          obtain ⟨hl', hr'⟩ := key
          obtain ⟨tail, t1, t2, t3, t4, t5, t6, t7, t8, t9⟩ :=
            prodLoop_ok o post moves obs b rem (ii + 1) (some ii) (l := (prodLoop o post moves obs (some ii) (ii + 1) rem e1
              (h0 ++ [e1])).1) (r := r) (by simp [hl]; omega) (Prod.ext rfl hr')
          have htake' : r.2.take (b + ii + 1) = h0 ++ [e1] := by
            rw [t1]
            exact List.take_left' (by simp [hl])
          have e0 : ii + (e1 :: tail).length - 1 = ii + 1 + tail.length - 1 := by simp
          refine ⟨e1 :: tail, by rw [t1]; simp, by simpa using t2, by simp, ?_, ?_, ?_, ?_, ?_, ?_⟩
          · unfold produce
            rw [hs]
            simp only [hst, Bool.false_eq_true, if_false]
            exact t4
          · rw [t5, if_neg (List.cons_ne_nil _ _), e0]
            by_cases ht : tail = []
            · subst ht; simp
            · rw [if_neg ht]
          · intro j h1 h2 e
            by_cases hj : j = ii
            · subst hj; rw [htake']; exact hne e
            · exact t6 j (by omega) (by simp at h2; omega) e
          · intro j h1 h2
            by_cases hj : j = ii
            · subst hj; rw [htake']; simpa using hst
            · exact t7 j (by omega) (by simp at h2; omega)
          · intro h1
            rw [e0]
            exact t8 (by simpa using h1)
          · rw [← hl', t9, e0]
            have e3 : stepLines (fun j => obs.acor (r.2.take (b + j + 1))) ii (e1 :: tail).length =
                stepLine ii (obs.acor (h0 ++ [e1])) ++
                  stepLines (fun j => obs.acor (r.2.take (b + j + 1))) (ii + 1) tail.length := by
              rw [List.length_cons, stepLines, htake']
            rw [e3, List.append_assoc]
            congr 2
            by_cases ht : tail = []
            · subst ht
              have : r.2 = h0 ++ [e1] := by simpa using t1
              rw [if_neg (fun h => h.1 rfl), if_neg]
              rintro ⟨-, h2⟩
              rw [this] at h2
              exact hst (by simpa using h2)
            · by_cases h2 : stopTest o (ii + 1 + tail.length - 1) (obs.diag r.2) = true
              · rw [if_pos ⟨ht, h2⟩, if_pos ⟨List.cons_ne_nil _ _, h2⟩]
              · rw [if_neg (fun h => h2 h.2), if_neg (fun h => h2 h.2)]

theorem stepLines_mem {acor : Nat → AcorRes K} : ∀ (n ii : Nat) (x : Out K),
    x ∈ stepLines acor ii n ↔ ∃ j, ii ≤ j ∧ j < ii + n ∧ x ∈ stepLine j (acor j)
  | 0, ii, x => by simp [stepLines]; intro j h1 h2; omega
  | n + 1, ii, x => by
      rw [stepLines, List.mem_append, stepLines_mem n (ii + 1) x]
      constructor
      · rintro (h | ⟨j, h1, h2, h3⟩)
        · exact ⟨ii, le_rfl, by omega, h⟩
        · exact ⟨j, by omega, by omega, h3⟩
      · rintro ⟨j, h1, h2, h3⟩
        by_cases hj : j = ii
        · subst hj; exact Or.inl h3
        · exact Or.inr ⟨j, by omega, by omega, h3⟩

/-- what a loop writes before it ends or raises -/
def Out.isStep : Out K → Bool
  | .acorAt .. => true
  | .tooShort _ => true
  | .minLimit _ => true
  | .early _ => true
  | _ => false

theorem stepLine_isStep (ii : Nat) (r : AcorRes K) : ∀ x ∈ stepLine ii r, x.isStep = true := by
  intro x hx
  unfold stepLine at hx
  split at hx <;> (rw [List.mem_singleton] at hx; subst hx; rfl)

theorem stopLines_isStep (ii : Nat) : ∀ x ∈ (stopLines ii : List (Out K)), x.isStep = true := by
  intro x hx
  unfold stopLines at hx
  split at hx
  · simp only [List.cons_append, List.nil_append, List.mem_cons, List.not_mem_nil, or_false] at hx
    rcases hx with rfl | rfl <;> rfl
  · simp only [List.nil_append, List.mem_singleton] at hx; subst hx; rfl

theorem prodLoop_isStep (o : StopOpts K) (post : List (Fl K) → Except PyErr (Fl K)) (moves : Nat → List (Move K))
    (obs : RunObs K) : ∀ (rem ii : Nat) (last : Option Nat) (ens : List (Walker K)) (h0 : List (List (Walker K))),
      ∀ x ∈ (prodLoop o post moves obs last ii rem ens h0).1, x.isStep = true
  | 0, ii, last, ens, h0, x, hx => by simp [prodLoop] at hx
  | rem + 1, ii, last, ens, h0, x, hx => by
      unfold prodLoop at hx
      split at hx
      · simp at hx
      · split at hx
        · simp at hx
        · rw [write_andThen] at hx
          rcases List.mem_append.1 hx with hx | hx
          · exact stepLine_isStep _ _ x hx
          · split at hx
            · exact stopLines_isStep ii x hx
            · exact prodLoop_isStep o post moves obs rem (ii + 1) _ _ _ x hx


/-! ### the whole run -/

/-- the end of a run that has made steps -/
theorem finishRun_cases {v : EmceeVersion} {o : RunOpts K} {nCPU : Int} {nW : Nat} {obs : RunObs K} {files : RunFiles K}
    {ii : Nat} {hist : List (List (Walker K))} {l : List (Out K)} {r : Except PyErr (SavedRun K)}
    (h : finishRun v o nCPU nW obs files (some ii) hist = (l, r)) :
    ∃ l', l = cautionLine o.stop (ii + 1) ++ [.finished (ii + 1),
        .runSummary nCPU files.nParam nW o.stop.nSteps files.keys (obs.af hist) (endAcor v (obs.acor hist))] ++ l' ∧
      ((v = .v2 ∧ ¬ 1 < nCPU ∧ l' = [] ∧ r = .error .attributeError) ∨
       (¬ (v = .v2 ∧ ¬ 1 < nCPU) ∧ files.trace = true ∧ ∃ e,
          files.plotTrace (savedRun v nW files.nParam nCPU obs hist) = .error e ∧
          l' = (if files.sampler then [.pickle (savedRun v nW files.nParam nCPU obs hist)] else []) ∧ r = .error e) ∨
       (¬ (v = .v2 ∧ ¬ 1 < nCPU) ∧
          (files.trace = true → files.plotTrace (savedRun v nW files.nParam nCPU obs hist) = .ok ()) ∧
          l' = (if files.sampler then [.pickle (savedRun v nW files.nParam nCPU obs hist)] else []) ++
            (if files.trace then [.runPlot (savedRun v nW files.nParam nCPU obs hist)] else []) ∧
          r = .ok (savedRun v nW files.nParam nCPU obs hist))) := by
  unfold finishRun at h
  simp only [write_andThen] at h
  by_cases hv : v = .v2 ∧ ¬ 1 < nCPU
  · simp only [hv, if_true, Prod.mk.injEq, and_self, not_false_eq_true] at h
    refine ⟨[], by simpa [hv] using h.1.symm, Or.inl ⟨hv.1, hv.2, rfl, h.2.symm⟩⟩
  · simp only [if_neg hv, plotStep] at h
    by_cases ht : files.trace = true
    · simp only [ht, if_true] at h
      cases hp : files.plotTrace (savedRun v nW files.nParam nCPU obs hist) with
      | error e =>
        simp only [hp, Logged.andThen, Prod.mk.injEq] at h
        refine ⟨_, h.1.symm, Or.inr (Or.inl ⟨hv, ht, e, rfl, by simp, h.2.symm⟩)⟩
      | ok u =>
        simp only [hp, Logged.andThen, Prod.mk.injEq] at h
        refine ⟨_, h.1.symm, Or.inr (Or.inr ⟨hv, fun _ => rfl, by simp [ht], h.2.symm⟩)⟩
    · simp only [ht, Bool.false_eq_true, if_false, Logged.andThen, Prod.mk.injEq] at h
      refine ⟨_, h.1.symm, Or.inr (Or.inr ⟨hv, fun h => absurd h ht, by simp [ht], h.2.symm⟩)⟩

/-- A run that enters its last part has made steps. -/
theorem runOut_stages [FloorRing K] {v : EmceeVersion} {o : RunOpts K} {cpuCount : Nat}
    {post : List (Fl K) → Except PyErr (Fl K)} {initial : List (List (Fl K))}
    {burnMoves moves : Nat → List (Move K)} {obsBurn obs : RunObs K}
    {burnFile file : List (List (Walker K))} {files : RunFiles K} {log : List (Out K)}
    {r : Except PyErr (SavedRun K)}
    (h : runOut v o cpuCount post initial burnMoves moves obsBurn obs burnFile file files = (log, r)) :
    (∃ l e, r = .error e ∧ log = l ∧ ∀ x ∈ l, x.isBurn = true ∨ x.isStep = true ∨ x = .noThread o.noThread ∨
        x = .cpus (o.cpus cpuCount) ∨ x = .runHead) ∨
    ∃ burnOld old burnt ens l1 l2 l3 ii hist, storedBefore v o.overwrite initial.length burnFile = .ok burnOld ∧
      burnPhase v o.nBurn (o.cpus cpuCount) post initial burnMoves obsBurn burnOld files = (l1, .ok burnt) ∧
      storedBefore v o.overwrite initial.length file = .ok old ∧ o.stop.nSteps ≠ 0 ∧
      startFrom post initial burnt = .ok ens ∧
      prodLoop o.stop post moves obs none 0 o.stop.nSteps ens old = (l2, .ok (some ii, hist)) ∧
      finishRun v o (o.cpus cpuCount) initial.length obs files (some ii) hist = (l3, r) ∧
      log = .noThread o.noThread :: .cpus (o.cpus cpuCount) :: (l1 ++ .runHead :: (l2 ++ l3)) := by
  unfold runOut at h
  cases hb : storedBefore v o.overwrite initial.length burnFile with
  | error e =>
    rw [hb] at h
    simp only [Prod.mk.injEq] at h
    exact Or.inl ⟨[], e, h.2.symm, h.1.symm, by simp⟩
  | ok burnOld =>
    rw [hb] at h
    simp only [write_andThen, Prod.mk.injEq] at h
    obtain ⟨hlog, hr⟩ := h
    have hburn := burnPhase_isBurn v o.nBurn (o.cpus cpuCount) post initial burnMoves obsBurn burnOld files
    obtain ⟨⟨l1, r1⟩, hph⟩ : ∃ q, burnPhase v o.nBurn (o.cpus cpuCount) post initial burnMoves obsBurn burnOld files = q :=
      ⟨_, rfl⟩
    rw [hph] at hlog hr hburn
    cases r1 with
    | error e =>
      simp only [Logged.andThen] at hlog hr
      refine Or.inl ⟨_, e, hr.symm, hlog.symm, fun x hx => ?_⟩
      simp only [List.cons_append, List.nil_append, List.mem_cons] at hx
      rcases hx with rfl | rfl | hx
      · exact Or.inr (Or.inr (Or.inl rfl))
      · exact Or.inr (Or.inr (Or.inr (Or.inl rfl)))
      · exact Or.inl (hburn x hx)
    | ok burnt =>
      simp only [Logged.andThen] at hlog hr
      cases ho : storedBefore v o.overwrite initial.length file with
      | error e =>
        simp only [ho] at hlog hr
        refine Or.inl ⟨_, e, hr.symm, hlog.symm, fun x hx => ?_⟩
        simp only [List.cons_append, List.nil_append, List.append_nil, List.mem_cons] at hx
        rcases hx with rfl | rfl | hx
        · exact Or.inr (Or.inr (Or.inl rfl))
        · exact Or.inr (Or.inr (Or.inr (Or.inl rfl)))
        · exact Or.inl (hburn x hx)
      | ok old =>
        simp only [ho, Logged.write] at hlog hr
        have hpre : ∀ l : List (Out K), (∀ x ∈ l, x.isStep = true) → ∀ x ∈ [Out.noThread o.noThread, .cpus (o.cpus cpuCount)] ++
            (l1 ++ ([Out.runHead] ++ l)), x.isBurn = true ∨ x.isStep = true ∨ x = .noThread o.noThread ∨
              x = .cpus (o.cpus cpuCount) ∨ x = .runHead := by
          intro l hl x hx
          simp only [List.cons_append, List.nil_append, List.mem_cons, List.mem_append] at hx
          rcases hx with rfl | rfl | hx | rfl | hx
          · exact Or.inr (Or.inr (Or.inl rfl))
          · exact Or.inr (Or.inr (Or.inr (Or.inl rfl)))
          · exact Or.inl (hburn x hx)
          · exact Or.inr (Or.inr (Or.inr (Or.inr rfl)))
          · exact Or.inr (Or.inl (hl x hx))
        cases hn : o.stop.nSteps with
        | zero =>
          simp only [hn] at hlog hr
          exact Or.inl ⟨_, _, hr.symm, hlog.symm, hpre [] (by simp)⟩
        | succ n =>
          simp only [hn] at hlog hr
          cases hs : startFrom post initial burnt with
          | error e =>
            simp only [hs] at hlog hr
            exact Or.inl ⟨_, _, hr.symm, hlog.symm, hpre [] (by simp)⟩
          | ok ens =>
            simp only [hs] at hlog hr
            have hstep := prodLoop_isStep o.stop post moves obs (n + 1) 0 none ens old
            obtain ⟨⟨l2, r2⟩, hpl⟩ : ∃ q, prodLoop o.stop post moves obs none 0 (n + 1) ens old = q := ⟨_, rfl⟩
            rw [hpl] at hlog hr hstep
            cases r2 with
            | error e =>
              exact Or.inl ⟨_, _, hr.symm, hlog.symm, hpre l2 hstep⟩
            | ok q =>
              obtain ⟨last, hist⟩ := q
              obtain ⟨tail, -, -, t3, -, t5, -⟩ := prodLoop_ok o.stop post moves obs old.length (n + 1) 0 none (by simp) hpl
              rw [if_neg (t3 (by omega))] at t5
              simp only at t5
              subst t5
              refine Or.inr ⟨burnOld, old, burnt, ens, l1, l2, (finishRun v o (o.cpus cpuCount) initial.length obs files
                (some (0 + tail.length - 1)) hist).1, 0 + tail.length - 1, hist, rfl, hph, rfl,
                by omega, hs, hpl, Prod.ext rfl hr, ?_⟩
              rw [← hlog]
              simp

end Misfit
