import Verif.Model.Saved
import Verif.Lemmas.Workers
import Verif.Props.Prune

/-! Helper lemmas for `Verif.Props.Saved`. -/

namespace Misfit
variable {V : Type*} {r c : Nat}

/-- storing the varying parameters of a vector in the vector -/
theorem updateParameters_initialize {α : Type*} : ∀ (theta : List α) (vary : List Bool) (f0 : List α),
    initializeFittingTheta theta vary = .ok f0 → (updateParameters theta vary f0).1 = theta
  | [], _, _, _ => rfl
  | _ :: _, [], _, h => by cases h
  | t :: ts, v :: vs, f0, h => by
      unfold initializeFittingTheta at h
      cases hr : initializeFittingTheta ts vs with
      | error e => rw [hr] at h; cases h
      | ok rest =>
        rw [hr] at h
        cases h
        have ih := updateParameters_initialize ts vs rest hr
        cases v <;> simp [updateParameters, ih]

theorem applySigmaFloor_theta (cfg : AperCfg) (s : AperState) : (applySigmaFloor cfg s).1.kin.theta = s.kin.theta := by
  obtain ⟨f, ⟨t, v, d⟩, w, dw⟩ := s
  unfold applySigmaFloor
  rcases d with _ | ⟨dt, dn⟩
  · rfl
  · simp only
    split <;> rfl

theorem calcsAfter_theta (cfg : AperCfg) (s : AperState) : (calcsAfter cfg s).1.kin.theta = s.kin.theta := by
  unfold calcsAfter
  have hup : ((if cfg.adaptive then checkUpsample cfg s else (s, .ok ())) : AperState × Except PyErr Unit).1.kin = s.kin := by
    split
    · exact (checkUpsample_kin cfg s).1
    · rfl
  simp only
  generalize (if cfg.adaptive then checkUpsample cfg s else (s, .ok ()) : AperState × Except PyErr Unit) = up at hup ⊢
  have hfl : (applySigmaFloor cfg up.1).1.kin.theta = s.kin.theta := by rw [applySigmaFloor_theta, hup]
  split
  · rw [hup]
  · split
    · exact hfl
    · split
      · exact hfl
      · split
        · rw [(downsample_keeps cfg _ _).2.1]
          exact hfl
        · exact hfl

theorem updateTheta_theta (k k' : KinProfile) (theta : List ℝ) (h : k.updateTheta theta = .ok k') : k'.theta = theta := by
  obtain ⟨t, v, d⟩ := k
  rcases v with _ | v <;> rcases d with _ | d <;> simp [KinProfile.updateTheta] at h <;> subst h <;> rfl

/-- an evaluation stores the parameters in the profile -/
theorem doModelCalcs_theta (cfg : AperCfg) (s : AperState) (theta : List ℝ) (k : KinProfile)
    (h : s.kin.updateTheta theta = .ok k) : (doModelCalcs cfg s theta).1.kin.theta = theta := by
  rw [doModelCalcs_eq, h]
  simp only
  rw [calcsAfter_theta]
  exact updateTheta_theta _ _ _ h

/-- the profile of the aperture model has the parameters of the model -/
def ProfileAgrees (sh : Option Nat × Option Nat) (m : KinModelState r c) : Prop :=
  ∀ g s, m.aper = some (g, s) → s.kin.theta = m.params.theta ∧ s.kin.shape = sh

theorem update_agrees {sh : Option Nat × Option Nat} {m : KinModelState r c} (h : ProfileAgrees sh m)
    (hsh : ∃ (k : KinProfile) (t : List ℝ) (k' : KinProfile), k.shape = sh ∧ k.updateTheta t = .ok k')
    (fit : List ℝ) (hv : m.params.nFree = m.params.vary.count true) (hl : m.params.vary.length = m.params.theta.length) :
    ProfileAgrees sh (m.update fit).1 := by
  obtain ⟨k0, t0, k0', hk0, hu0⟩ := hsh
  by_cases hf : fit.length = m.params.vary.count true
  · unfold KinModelState.update
    rw [KinParams.update_ok _ _ hv hl hf]
    simp only
    cases ha : m.aper with
    | none =>
      intro g s hs
      simp only [ha] at hs
      cases hs
    | some gs =>
      obtain ⟨g, s⟩ := gs
      obtain ⟨_, h2⟩ := h g s ha
      simp only
      intro g1 s1 h1
      obtain ⟨e1, _, e3, _, _⟩ := evalExisting_keeps (r := r) (c := c)
        ⟨⟨(updateParameters m.params.theta m.params.vary fit).1, m.params.vary, m.params.nFree⟩, m.kin, m.noScale,
          some (g, s), m.model⟩ g s
      rw [e3] at h1
      cases h1
      rw [e1]
      obtain ⟨k2, hk2, _⟩ := updateTheta_ok_congr k0 s.kin (hk0.trans h2.symm) t0
        (updateParameters m.params.theta m.params.vary fit).1 k0' hu0
      exact ⟨doModelCalcs_theta _ _ _ _ hk2, (doModelCalcs_keeps _ _ _).2.1.trans h2⟩
  · unfold KinModelState.update
    rw [KinParams.update_bad _ _ hv hf]
    exact h

/-- the vector is evaluated: the prior is finite there, and the number of parameters is right -/
def StoresAt (p : PriorObj) (n : Nat) (fit : List ℝ) : Prop :=
  fit.length = n ∧ ∃ q, p.logp (fit.map Fl.fin) = .ok q ∧ q.isFinite = true

/-- what one evaluation does to the parameters -/
theorem objLnprob_params (p : PriorObj) (m : KinModelState r c) (fit : List ℝ) :
    (∀ q, p.logp (fit.map Fl.fin) = .ok q → q.isFinite = true → (objLnprob p m fit).1 = (m.update fit).1) ∧
    ((∀ q, p.logp (fit.map Fl.fin) = .ok q → q.isFinite = false) → (objLnprob p m fit).1 = m) := by
  unfold objLnprob Misfit.lnprob
  have hmap : (fit.map Fl.fin).map Fl.finVal = fit := by
    rw [List.map_map]
    exact List.map_id fit
  cases hq : p.logp (fit.map Fl.fin) with
  | error e => exact ⟨fun q h => (by cases h), fun _ => rfl⟩
  | ok q =>
    simp only
    refine ⟨fun q' h hf => ?_, fun h => ?_⟩
    · cases h
      rw [if_pos hf, hmap]
      unfold KinModelState.lnlike
      generalize m.update fit = x
      obtain ⟨a, ra⟩ := x
      cases ra with
      | error e => rfl
      | ok u =>
        simp only
        cases a.llike with
        | error e => rfl
        | ok l => rfl
    · rw [if_neg (by rw [h q rfl]; decide)]

/-- what holds of the object while it is evaluated -/
structure EvalInv (sh : Option Nat × Option Nat) (theta : List ℝ) (vary : List Bool) (m : KinModelState r c) : Prop where
  params : ParamsFrom theta vary m.params
  agrees : ProfileAgrees sh m

theorem EvalInv.next {sh : Option Nat × Option Nat} {theta : List ℝ} {vary : List Bool} {m : KinModelState r c}
    (h : EvalInv sh theta vary m) (hl : vary.length = theta.length)
    (hsh : ∃ (k : KinProfile) (t : List ℝ) (k' : KinProfile), k.shape = sh ∧ k.updateTheta t = .ok k') (p : PriorObj)
    (fit : List ℝ) :
    EvalInv sh theta vary (objLnprob p m fit).1 ∧
    (StoresAt p (vary.count true) fit → (objLnprob p m fit).1.params.theta = (updateParameters theta vary fit).1) ∧
    (¬ StoresAt p (vary.count true) fit → (objLnprob p m fit).1.params = m.params) := by
  have hup : (m.update fit).1.params = (m.params.update fit).1 := step_params m (.update fit)
  obtain ⟨h1, h2⟩ := objLnprob_params p m fit
  by_cases hq : ∃ q, p.logp (fit.map Fl.fin) = .ok q ∧ q.isFinite = true
  · obtain ⟨q, hq1, hq2⟩ := hq
    rw [h1 q hq1 hq2]
    refine ⟨⟨?_, ?_⟩, fun hs => ?_, fun hs => ?_⟩
    · rw [hup]; exact h.params.update_any hl fit
    · exact update_agrees h.agrees hsh fit (by rw [h.params.nFree, h.params.varyEq])
        (by rw [h.params.varyEq, h.params.len, hl])
    · rw [hup, (h.params.update hl fit hs.1).1]
    · have hne : fit.length ≠ vary.count true := fun e => hs ⟨e, q, hq1, hq2⟩
      rw [hup, KinParams.update_bad _ _ (by rw [h.params.nFree, h.params.varyEq]) (by rw [h.params.varyEq]; exact hne)]
  · have := h2 fun q hq1 => by
      cases hb : q.isFinite with
      | false => rfl
      | true => exact absurd ⟨q, hq1, hb⟩ hq
    rw [this]
    exact ⟨h, fun hs => absurd hs.2 hq, fun _ => rfl⟩

theorem objEvals_append (p : PriorObj) (m : KinModelState r c) (a b : List (List ℝ)) :
    objEvals p m (a ++ b) = objEvals p (objEvals p m a) b := List.foldl_append ..

theorem objEvals_inv {sh : Option Nat × Option Nat} {theta : List ℝ} {vary : List Bool} (hl : vary.length = theta.length)
    (hsh : ∃ (k : KinProfile) (t : List ℝ) (k' : KinProfile), k.shape = sh ∧ k.updateTheta t = .ok k') (p : PriorObj) :
    ∀ (fits : List (List ℝ)) (m : KinModelState r c), EvalInv sh theta vary m →
      EvalInv sh theta vary (objEvals p m fits) ∧
      ((∀ f ∈ fits, ¬ StoresAt p (vary.count true) f) → (objEvals p m fits).params = m.params)
  | [], _, h => ⟨h, fun _ => rfl⟩
  | f :: fits, m, h => by
      obtain ⟨h1, _, h3⟩ := h.next hl hsh p f
      obtain ⟨h4, h5⟩ := objEvals_inv hl hsh p fits _ h1
      refine ⟨h4, fun hn => ?_⟩
      exact (h5 fun g hg => hn g (List.mem_cons_of_mem _ hg)).trans (h3 (hn f List.mem_cons_self))

/-- the state after the first `make_model`, with the parameters given at the start -/
theorem make_inv (g : KinInput r c) (theta : List ℝ) (vary : List Bool) (kin : KinProfile) (hl : vary.length = theta.length)
    (f0 : List ℝ) (hf0 : initializeFittingTheta theta vary = .ok f0)
    (h : ((KinModelState.init theta vary kin false : KinModelState r c).make g f0).2 = .ok ()) :
    EvalInv kin.shape theta vary ((KinModelState.init theta vary kin false : KinModelState r c).make g f0).1 ∧
    ((KinModelState.init theta vary kin false : KinModelState r c).make g f0).1.params.theta = theta ∧
    (∃ s, ((KinModelState.init theta vary kin false : KinModelState r c).make g f0).1.aper = some (g, s)) ∧
    ∃ (k : KinProfile) (t : List ℝ) (k' : KinProfile), k.shape = kin.shape ∧ k.updateTheta t = .ok k' := by
  obtain ⟨hlen, f, s, hset, hb, _⟩ := make_built g theta vary kin false hl f0 h
  have hp : ((KinModelState.init theta vary kin false : KinModelState r c).make g f0).1.params.theta = theta := by
    have := step_params (KinModelState.init theta vary kin false : KinModelState r c) (.make g f0)
    rw [show (KinModelState.init theta vary kin false : KinModelState r c).step (.make g f0) =
      (KinModelState.init theta vary kin false).make g f0 from rfl] at this
    rw [this]
    show ((KinParams.init theta vary).update f0).1.theta = theta
    rw [((ParamsFrom.init theta vary).update hl f0 hlen).1]
    exact updateParameters_initialize _ _ _ hf0
  have hku : ∃ k', kin.updateTheta theta = .ok k' := by
    have hh := h
    unfold KinModelState.make at hh
    rw [show (KinModelState.init theta vary kin false : KinModelState r c).params = KinParams.init theta vary from rfl,
      ((ParamsFrom.init theta vary).update hl f0 hlen).1] at hh
    simp only [updateParameters_initialize _ _ _ hf0] at hh
    cases hk : kin.updateTheta theta with
    | ok k' => exact ⟨k', rfl⟩
    | error e =>
      rw [show (KinModelState.init theta vary kin false : KinModelState r c).kin = kin from rfl, hk] at hh
      cases hh
  obtain ⟨k', hk'⟩ := hku
  refine ⟨⟨hb.params, ?_⟩, hp, ⟨s, hb.aper⟩, kin, theta, k', rfl, hk'⟩
  intro g1 s1 h1
  rw [hb.aper] at h1
  cases h1
  refine ⟨?_, hb.skin⟩
  rw [hp]
  have ha := hb.aper
  have hh := h
  unfold KinModelState.make at ha hh
  rw [show (KinModelState.init theta vary kin false : KinModelState r c).params = KinParams.init theta vary from rfl,
    ((ParamsFrom.init theta vary).update hl f0 hlen).1] at ha hh
  simp only [updateParameters_initialize _ _ _ hf0,
    show (KinModelState.init theta vary kin false : KinModelState r c).kin = kin from rfl,
    show (KinModelState.init theta vary kin false : KinModelState r c).aper = none from rfl, hk'] at ha hh
  unfold buildModel at ha hh
  cases hset' : setupCalcs g.aperCfg theta with
  | error e => rw [hset'] at hh; cases hh
  | ok f' =>
    rw [hset'] at ha hh
    simp only at ha hh
    obtain ⟨k2, hk2, _⟩ := updateTheta_ok_congr kin k' (updateTheta_shape _ _ _ hk').symm theta theta k' hk'
    have ht := doModelCalcs_theta g.aperCfg ⟨f', k', g.aperCfg.wave, avgDiff g.aperCfg.wave⟩ theta k2 hk2
    generalize doModelCalcs g.aperCfg ⟨f', k', g.aperCfg.wave, avgDiff g.aperCfg.wave⟩ theta = R at ha hh ht
    obtain ⟨s2, r2⟩ := R
    cases r2 with
    | error e => cases hh
    | ok img =>
      simp only at ha
      rw [(finishModel_keeps _ _ _).2.2.2] at ha
      simp only [Option.some.injEq, Prod.mk.injEq, true_and] at ha
      rw [← ha]
      exact ht

/-! ## Processes -/

section
variable {K : Type*} [Field K] [LinearOrder K] {S : Type*}

/-- a computation does not touch the object of process `i` -/
def Spares {α : Type*} (i : Nat) (f : Working S α) : Prop := ∀ w, (f w).1.obj i = w.obj i

variable {i : Nat} {E : List (Fl K) → Working S (Fl K)}

theorem evalPostW_spares (hE : ∀ x, Spares i (E x)) (x : List (Fl K)) : Spares i (evalPostW E x) := by
  intro w
  have := hE x w
  unfold evalPostW
  generalize E x w = R at this
  obtain ⟨w1, r1⟩ := R
  cases r1 with
  | error e => exact this
  | ok p =>
    simp only
    split <;> exact this

theorem moveOneW_spares (hE : ∀ x, Spares i (E x)) (ens : List (Walker K)) (mv : Move K) : Spares i (moveOneW E ens mv) := by
  intro w
  unfold moveOneW
  cases ens[mv.walker]? with
  | none => rfl
  | some old =>
    have := evalPostW_spares hE (mv.proposal ens) w
    simp only
    generalize evalPostW E (mv.proposal ens) w = R at this
    obtain ⟨w1, r1⟩ := R
    cases r1 <;> exact this

theorem stepEnsembleW_spares (hE : ∀ x, Spares i (E x)) : ∀ (mvs : List (Move K)) (ens : List (Walker K)),
    Spares i (stepEnsembleW E ens mvs)
  | [], _ => fun _ => rfl
  | mv :: mvs, ens => by
      intro w
      have h := moveOneW_spares hE ens mv w
      unfold stepEnsembleW
      generalize moveOneW E ens mv w = R at h
      obtain ⟨w1, r1⟩ := R
      cases r1 with
      | error e => exact h
      | ok ens' => exact (stepEnsembleW_spares hE mvs ens' w1).trans h

theorem startEnsembleW_spares (hE : ∀ x, Spares i (E x)) : ∀ xs : List (List (Fl K)), Spares i (startEnsembleW E xs)
  | [] => fun _ => rfl
  | x :: xs => by
      intro w
      have h := evalPostW_spares hE x w
      unfold startEnsembleW
      generalize evalPostW E x w = R at h
      obtain ⟨w1, r1⟩ := R
      cases r1 with
      | error e => exact h
      | ok a =>
        have h2 := startEnsembleW_spares hE xs w1
        simp only
        generalize startEnsembleW E xs w1 = R2 at h2
        obtain ⟨w2, r2⟩ := R2
        cases r2 <;> exact h2.trans h

theorem burnInW_spares (hE : ∀ x, Spares i (E x)) (moves : Nat → List (Move K)) : ∀ (rem k : Nat) (ens : List (Walker K)),
    Spares i (burnInW E moves k rem ens)
  | 0, _, _ => fun _ => rfl
  | rem + 1, k, ens => by
      intro w
      have h := stepEnsembleW_spares hE (moves k) ens w
      unfold burnInW
      generalize stepEnsembleW E ens (moves k) w = R at h
      obtain ⟨w1, r1⟩ := R
      cases r1 with
      | error e => exact h
      | ok ens' => exact (burnInW_spares hE moves rem (k + 1) ens' w1).trans h

theorem produceW_spares (hE : ∀ x, Spares i (E x)) (o : StopOpts K) (moves : Nat → List (Move K))
    (diag : List (List (Walker K)) → StepDiag K) : ∀ (rem ii : Nat) (ens : List (Walker K)) (hist : List (List (Walker K))),
    Spares i (produceW o E moves diag ii rem ens hist)
  | 0, _, _, _ => fun _ => rfl
  | rem + 1, ii, ens, hist => by
      intro w
      have h := stepEnsembleW_spares hE (moves ii) ens w
      unfold produceW
      generalize stepEnsembleW E ens (moves ii) w = R at h
      obtain ⟨w1, r1⟩ := R
      cases r1 with
      | error e => exact h
      | ok ens' =>
        simp only
        split
        · exact h
        · exact (produceW_spares hE o moves diag rem (ii + 1) ens' _ w1).trans h

theorem runMcmcW_spares [FloorRing K] (hE : ∀ x, Spares i (E x)) (v : EmceeVersion) (o : RunOpts K) (cpuCount : Nat)
    (initial : List (List (Fl K))) (burnMoves moves : Nat → List (Move K)) (diag : List (List (Walker K)) → StepDiag K)
    (file : List (List (Walker K))) : Spares i (runMcmcW v o cpuCount E initial burnMoves moves diag file) := by
  intro w
  have h := startEnsembleW_spares hE initial w
  unfold runMcmcW
  generalize startEnsembleW E initial w = R at h
  obtain ⟨w1, r1⟩ := R
  cases r1 with
  | error e => exact h
  | ok ens =>
    have h2 := burnInW_spares hE burnMoves o.nBurn 0 ens w1
    simp only
    generalize burnInW E burnMoves 0 o.nBurn ens w1 = R2 at h2
    obtain ⟨w2, r2⟩ := R2
    cases r2 with
    | error e => exact h2.trans h
    | ok ens2 =>
      simp only
      cases storedBefore v o.overwrite initial.length file with
      | error e => exact h2.trans h
      | ok old =>
        have h3 := produceW_spares hE o.stop moves diag o.stop.nSteps 0 ens2 old w2
        simp only
        generalize produceW o.stop E moves diag 0 o.stop.nSteps ens2 old w2 = R3 at h3
        obtain ⟨w3, r3⟩ := R3
        cases r3 <;> exact h3.trans (h2.trans h)

theorem planEval_spares (plan : Plan) (x0 : S) (P : S → List (Fl K) → S × Except PyErr (Fl K)) (h : ∀ n, plan.who n ≠ i)
    (x : List (Fl K)) : Spares i (plan.eval x0 P x) := by
  intro w
  unfold Plan.eval
  simp only
  rw [if_neg fun e => h w.done e.symm]

end

end Misfit
