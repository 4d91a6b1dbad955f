import Verif.Model.Workers
import Verif.Lemmas.Sampler

/-! Helper lemmas for `Verif.Props.Workers`: runs on objects whose evaluation does not depend on their history. -/

namespace Misfit
variable {K : Type*} [Field K] [LinearOrder K] {S : Type*}

/-- every process has an object with the invariant -/
def AllInv (I : S → Prop) (w : Workers S) : Prop := ∀ i, I (w.obj i)

/-- a computation has the result `r`, and leaves good objects if it returns -/
def Gives {α : Type*} (I : S → Prop) (f : Working S α) (r : Except PyErr α) : Prop :=
  ∀ w, AllInv I w → (f w).2 = r ∧ ((∃ a, r = .ok a) → AllInv I (f w).1)

variable {I : S → Prop} {E : List (Fl K) → Working S (Fl K)} {post : List (Fl K) → Except PyErr (Fl K)}

theorem eval_gives (plan : Plan) (x0 : S) (P : S → List (Fl K) → S × Except PyErr (Fl K)) (h0 : I x0)
    (hv : ∀ o x, I o → (P o x).2 = post x) (hk : ∀ o x v, I o → (P o x).2 = .ok v → I (P o x).1) (x : List (Fl K)) :
    Gives I (plan.eval x0 P x) (post x) := by
  intro w hw
  unfold Plan.eval
  simp only
  have ho : I (if plan.resend w.done then x0 else w.obj (plan.who w.done)) := by
    split
    · exact h0
    · exact hw _
  refine ⟨hv _ _ ho, ?_⟩
  rintro ⟨v, hr⟩ i
  simp only
  split
  · exact hk _ _ v ho ((hv _ _ ho).trans hr)
  · exact hw i

theorem evalPostW_gives (hE : ∀ x, Gives I (E x) (post x)) (x : List (Fl K)) : Gives I (evalPostW E x) (evalPost post x) := by
  intro w hw
  obtain ⟨h1, h2⟩ := hE x w hw
  unfold evalPostW evalPost
  revert h1 h2
  generalize E x w = R
  obtain ⟨w1, r1⟩ := R
  intro h1 h2
  simp only at h1 h2
  rw [← h1] at h2 ⊢
  cases r1 with
  | error e => exact ⟨rfl, fun ⟨a, ha⟩ => by cases ha⟩
  | ok p =>
    simp only
    split
    · exact ⟨rfl, fun ⟨a, ha⟩ => by cases ha⟩
    · exact ⟨rfl, fun _ => h2 ⟨p, rfl⟩⟩

theorem moveOneW_gives (hE : ∀ x, Gives I (E x) (post x)) (ens : List (Walker K)) (mv : Move K) :
    Gives I (moveOneW E ens mv) (moveOne post ens mv) := by
  intro w hw
  unfold moveOneW moveOne
  cases hm : ens[mv.walker]? with
  | none => exact ⟨rfl, fun ⟨a, ha⟩ => by cases ha⟩
  | some old =>
    obtain ⟨h1, h2⟩ := evalPostW_gives hE (mv.proposal ens) w hw
    simp only
    revert h1 h2
    generalize evalPostW E (mv.proposal ens) w = R
    obtain ⟨w1, r1⟩ := R
    intro h1 h2
    simp only at h1 h2
    rw [← h1] at h2 ⊢
    cases r1 with
    | error e => exact ⟨rfl, fun ⟨a, ha⟩ => by cases ha⟩
    | ok new =>
      simp only
      split
      · exact ⟨rfl, fun _ => h2 ⟨_, rfl⟩⟩
      · exact ⟨rfl, fun _ => h2 ⟨_, rfl⟩⟩

theorem stepEnsembleW_gives (hE : ∀ x, Gives I (E x) (post x)) : ∀ (ms : List (Move K)) (ens : List (Walker K)),
    Gives I (stepEnsembleW E ens ms) (stepEnsemble post ens ms)
  | [], ens => fun w hw => ⟨rfl, fun _ => hw⟩
  | mv :: rest, ens => by
      intro w hw
      obtain ⟨h1, h2⟩ := moveOneW_gives hE ens mv w hw
      unfold stepEnsembleW stepEnsemble
      revert h1 h2
      generalize moveOneW E ens mv w = R
      obtain ⟨w1, r1⟩ := R
      intro h1 h2
      simp only at h1 h2
      rw [← h1] at h2 ⊢
      cases r1 with
      | error e => exact ⟨rfl, fun ⟨a, ha⟩ => by cases ha⟩
      | ok e1 => exact stepEnsembleW_gives hE rest e1 w1 (h2 ⟨_, rfl⟩)

theorem startEnsembleW_gives (hE : ∀ x, Gives I (E x) (post x)) : ∀ (xs : List (List (Fl K))),
    Gives I (startEnsembleW E xs) (startEnsemble post xs)
  | [] => fun w hw => ⟨rfl, fun _ => hw⟩
  | x :: xs => by
      intro w hw
      obtain ⟨h1, h2⟩ := evalPostW_gives hE x w hw
      unfold startEnsembleW startEnsemble
      revert h1 h2
      generalize evalPostW E x w = R
      obtain ⟨w1, r1⟩ := R
      intro h1 h2
      simp only at h1 h2
      rw [← h1] at h2 ⊢
      cases r1 with
      | error e => exact ⟨rfl, fun ⟨a, ha⟩ => by cases ha⟩
      | ok a =>
        obtain ⟨h3, h4⟩ := startEnsembleW_gives hE xs w1 (h2 ⟨_, rfl⟩)
        simp only
        revert h3 h4
        generalize startEnsembleW E xs w1 = R
        obtain ⟨w2, r2⟩ := R
        intro h3 h4
        simp only at h3 h4
        rw [← h3] at h4 ⊢
        cases r2 with
        | error e => exact ⟨rfl, fun ⟨a, ha⟩ => by cases ha⟩
        | ok as => exact ⟨rfl, fun _ => h4 ⟨_, rfl⟩⟩

theorem burnInW_gives (hE : ∀ x, Gives I (E x) (post x)) (moves : Nat → List (Move K)) :
    ∀ (rem k : Nat) (ens : List (Walker K)), Gives I (burnInW E moves k rem ens) (burnIn post moves k rem ens)
  | 0, k, ens => fun w hw => ⟨rfl, fun _ => hw⟩
  | rem + 1, k, ens => by
      intro w hw
      obtain ⟨h1, h2⟩ := stepEnsembleW_gives hE (moves k) ens w hw
      unfold burnInW burnIn
      revert h1 h2
      generalize stepEnsembleW E ens (moves k) w = R
      obtain ⟨w1, r1⟩ := R
      intro h1 h2
      simp only at h1 h2
      rw [← h1] at h2 ⊢
      cases r1 with
      | error e => exact ⟨rfl, fun ⟨a, ha⟩ => by cases ha⟩
      | ok e1 => exact burnInW_gives hE moves rem (k + 1) e1 w1 (h2 ⟨_, rfl⟩)

theorem produceW_gives (hE : ∀ x, Gives I (E x) (post x)) (o : StopOpts K) (moves : Nat → List (Move K))
    (diag : List (List (Walker K)) → StepDiag K) :
    ∀ (rem ii : Nat) (ens : List (Walker K)) (hist : List (List (Walker K))),
      Gives I (produceW o E moves diag ii rem ens hist) (produce o post moves diag ii rem ens hist)
  | 0, ii, ens, hist => fun w hw => ⟨rfl, fun _ => hw⟩
  | rem + 1, ii, ens, hist => by
      intro w hw
      obtain ⟨h1, h2⟩ := stepEnsembleW_gives hE (moves ii) ens w hw
      unfold produceW produce
      revert h1 h2
      generalize stepEnsembleW E ens (moves ii) w = R
      obtain ⟨w1, r1⟩ := R
      intro h1 h2
      simp only at h1 h2
      rw [← h1] at h2 ⊢
      cases r1 with
      | error e => exact ⟨rfl, fun ⟨a, ha⟩ => by cases ha⟩
      | ok e1 =>
        simp only
        split
        · exact ⟨rfl, fun _ => h2 ⟨_, rfl⟩⟩
        · exact produceW_gives hE o moves diag rem (ii + 1) e1 (hist ++ [e1]) w1 (h2 ⟨_, rfl⟩)

theorem runMcmcW_gives [FloorRing K] (hE : ∀ x, Gives I (E x) (post x)) (v : EmceeVersion) (o : RunOpts K) (cpuCount : Nat)
    (initial : List (List (Fl K))) (burnMoves moves : Nat → List (Move K))
    (diag : List (List (Walker K)) → StepDiag K) (file : List (List (Walker K))) :
    Gives I (runMcmcW v o cpuCount E initial burnMoves moves diag file)
      (runMcmc v o cpuCount post initial burnMoves moves diag file) := by
  intro w hw
  obtain ⟨h1, h2⟩ := startEnsembleW_gives hE initial w hw
  unfold runMcmcW runMcmc
  revert h1 h2
  generalize startEnsembleW E initial w = R
  obtain ⟨w1, r1⟩ := R
  intro h1 h2
  simp only at h1 h2
  rw [← h1] at h2 ⊢
  cases r1 with
  | error e => exact ⟨rfl, fun ⟨a, ha⟩ => by cases ha⟩
  | ok e0 =>
    obtain ⟨h3, h4⟩ := burnInW_gives hE burnMoves o.nBurn 0 e0 w1 (h2 ⟨_, rfl⟩)
    simp only
    revert h3 h4
    generalize burnInW E burnMoves 0 o.nBurn e0 w1 = R
    obtain ⟨w2, r2⟩ := R
    intro h3 h4
    simp only at h3 h4
    rw [← h3] at h4 ⊢
    cases r2 with
    | error e => exact ⟨rfl, fun ⟨a, ha⟩ => by cases ha⟩
    | ok e1 =>
      simp only
      cases storedBefore v o.overwrite initial.length file with
      | error e => exact ⟨rfl, fun ⟨a, ha⟩ => by cases ha⟩
      | ok old =>
        obtain ⟨h5, h6⟩ := produceW_gives hE o.stop moves diag o.stop.nSteps 0 e1 old w2 (h4 ⟨_, rfl⟩)
        simp only
        revert h5 h6
        generalize produceW o.stop E moves diag 0 o.stop.nSteps e1 old w2 = R
        obtain ⟨w3, r3⟩ := R
        intro h5 h6
        simp only at h5 h6
        rw [← h5] at h6 ⊢
        cases r3 with
        | error e => exact ⟨rfl, fun ⟨a, ha⟩ => by cases ha⟩
        | ok hist => exact ⟨rfl, fun _ => h6 ⟨_, rfl⟩⟩

end Misfit
