import Verif.Model.FitSession
import Verif.Lemmas.Fit2D
import Verif.Lemmas.Prune

/-!
# Lemmas about sessions of 2D fits
-/

namespace Misfit
variable {r c : Nat}

/-- two models that differ only in the numbers stored in the kinematic profile -/
structure KinTwin (sh : Option Nat × Option Nat) (m m' : KinModelState r c) : Prop where
  params : m'.params = m.params
  noScale : m'.noScale = m.noScale
  model : m'.model = m.model
  keeps : ∃ v n, Keeps sh v n m
  keeps' : ∃ v n, Keeps sh v n m'
  aper : (m.aper = none ∧ m'.aper = none) ∨
    ∃ g a a', m.aper = some (g, a) ∧ m'.aper = some (g, a') ∧ a' = { a with kin := a'.kin }

theorem doModelCalcs_twin (cfg : AperCfg) (a a' : AperState) (h : a' = { a with kin := a'.kin }) (hs : a'.kin.shape = a.kin.shape)
    (theta : List ℝ) :
    doModelCalcs cfg a' theta = doModelCalcs cfg a theta ∨
    ∃ e, doModelCalcs cfg a theta = (a, .error e) ∧ doModelCalcs cfg a' theta = (a', .error e) := by
  have hu := updateTheta_congr _ _ hs theta
  unfold doModelCalcs
  rw [hu]
  cases hk : a.kin.updateTheta theta with
  | error e => exact Or.inr ⟨e, rfl, rfl⟩
  | ok k =>
    left
    have : ({ a' with kin := k } : AperState) = { a with kin := k } := by rw [h]
    simp only [this]

theorem evalExisting_twin (m m' : KinModelState r c) (hm : { m with kin := m'.kin, aper := m'.aper } = m') (g : KinInput r c) (a a' : AperState)
    (h : a' = { a with kin := a'.kin }) (hs : a'.kin.shape = a.kin.shape) :
    evalExisting m' g a' = evalExisting m g a ∨
    ∃ e, evalExisting m g a = ({ m with kin := a.kin, aper := some (g, a) }, .error e) ∧
      evalExisting m' g a' = ({ m with kin := a'.kin, aper := some (g, a') }, .error e) := by
  unfold evalExisting updateModel
  rw [← hm]
  dsimp only
  rcases doModelCalcs_twin g.aperCfg a a' h hs m.params.theta with e | ⟨e, h1, h2⟩
  · left
    rw [e]
  · right
    rw [h1, h2]
    exact ⟨e, rfl, rfl⟩

theorem Keeps.step' {sh : Option Nat × Option Nat} {m : KinModelState r c} (h : ∃ v n, Keeps sh v n m) (call : KinCall r c) :
    ∃ v n, Keeps sh v n (m.step call).1 := by
  obtain ⟨v, n, h⟩ := h
  exact ⟨v, n, h.step call⟩

theorem KinTwin.refl {sh : Option Nat × Option Nat} {m : KinModelState r c} (h : ∃ v n, Keeps sh v n m) : KinTwin sh m m := by
  refine ⟨rfl, rfl, rfl, h, h, ?_⟩
  rcases h : m.aper with _ | ⟨g, a⟩
  · exact Or.inl ⟨rfl, rfl⟩
  · exact Or.inr ⟨g, a, a, rfl, rfl, rfl⟩

/-- the same call on twins: the same exception and twins again; the same model if there is no exception -/
theorem KinTwin.step {sh : Option Nat × Option Nat} {m m' : KinModelState r c} (h : KinTwin sh m m') (call : KinCall r c) :
    (m'.step call).2 = (m.step call).2 ∧ KinTwin sh (m.step call).1 (m'.step call).1 ∧
      ((m.step call).2 = .ok () → m'.step call = m.step call) := by
  have k1 := Keeps.step' h.keeps call
  have k2 := Keeps.step' h.keeps' call
  have same : m'.step call = m.step call → (m'.step call).2 = (m.step call).2 ∧ KinTwin sh (m.step call).1 (m'.step call).1 ∧
      ((m.step call).2 = .ok () → m'.step call = m.step call) := fun e => by
    rw [e]
    exact ⟨rfl, KinTwin.refl k1, fun _ => rfl⟩
  have bad : ∀ e, (m.step call).2 = .error e → (m'.step call).2 = .error e → KinTwin sh (m.step call).1 (m'.step call).1 →
      (m'.step call).2 = (m.step call).2 ∧ KinTwin sh (m.step call).1 (m'.step call).1 ∧
      ((m.step call).2 = .ok () → m'.step call = m.step call) := fun e h1 h2 h3 =>
    ⟨h2.trans h1.symm, h3, fun h => by rw [h1] at h; cases h⟩
  obtain ⟨v, n, hk⟩ := h.keeps
  obtain ⟨v', n', hk'⟩ := h.keeps'
  have hsh : m'.kin.shape = m.kin.shape := hk'.kin.trans hk.kin.symm
  obtain ⟨hp, hn, hm, -, -, hap⟩ := h
  have hash : ∀ g a a', m.aper = some (g, a) → m'.aper = some (g, a') → a'.kin.shape = a.kin.shape := fun g a a' h1 h2 =>
    (hk'.aper g a' h2).trans (hk.aper g a h1).symm
  clear hk hk'
  obtain ⟨P, kn, ns, ap, im⟩ := m
  obtain ⟨P', kn', ns', ap', im'⟩ := m'
  cases hp
  cases hn
  cases hm
  dsimp only at hsh hap hash
  cases call with
  | make g fit =>
    simp only [KinModelState.step] at k1 k2 same bad ⊢
    rcases hu : P.update fit with ⟨p, _ | e⟩
    · cases ht : kn.updateTheta p.theta with
      | error e =>
        have ht' : kn'.updateTheta p.theta = .error e := (updateTheta_congr _ _ hsh _).trans ht
        have e1 : KinModelState.make (⟨P, kn, ns, ap, im⟩ : KinModelState r c) g fit = (⟨p, kn, ns, ap, im⟩, .error e) := by
          unfold KinModelState.make
          simp only [hu, ht]
        have e2 : KinModelState.make (⟨P, kn', ns, ap', im⟩ : KinModelState r c) g fit = (⟨p, kn', ns, ap', im⟩, .error e) := by
          unfold KinModelState.make
          simp only [hu, ht']
        rw [e1] at k1
        rw [e2] at k2
        refine bad e (by rw [e1]) (by rw [e2]) ?_
        rw [e1, e2]
        exact ⟨rfl, rfl, rfl, k1, k2, hap⟩
      | ok k =>
        have ht' : kn'.updateTheta p.theta = .ok k := (updateTheta_congr _ _ hsh _).trans ht
        apply same
        unfold KinModelState.make
        rcases hap with ⟨rfl, rfl⟩ | ⟨g0, a, a', rfl, rfl, h3⟩
        · simp only [hu, ht, ht']
        · simp only [hu, ht, ht']
          have : ({ a' with kin := k } : AperState) = { a with kin := k } := by rw [h3]
          rw [this]
          unfold evalExisting
          rfl
    · have e1 : KinModelState.make (⟨P, kn, ns, ap, im⟩ : KinModelState r c) g fit = (⟨p, kn, ns, ap, im⟩, .error e) := by
        unfold KinModelState.make
        simp only [hu]
      have e2 : KinModelState.make (⟨P, kn', ns, ap', im⟩ : KinModelState r c) g fit = (⟨p, kn', ns, ap', im⟩, .error e) := by
        unfold KinModelState.make
        simp only [hu]
      rw [e1] at k1
      rw [e2] at k2
      refine bad e (by rw [e1]) (by rw [e2]) ?_
      rw [e1, e2]
      exact ⟨rfl, rfl, rfl, k1, k2, hap⟩
  | update fit =>
    simp only [KinModelState.step] at k1 k2 same bad ⊢
    rcases hu : P.update fit with ⟨p, _ | e⟩
    · rcases hap with ⟨rfl, rfl⟩ | ⟨g0, a, a', rfl, rfl, h3⟩
      · have e1 : KinModelState.update (⟨P, kn, ns, none, im⟩ : KinModelState r c) fit = (⟨p, kn, ns, none, im⟩, .error .attributeError) := by
          unfold KinModelState.update
          simp only [hu]
        have e2 : KinModelState.update (⟨P, kn', ns, none, im⟩ : KinModelState r c) fit = (⟨p, kn', ns, none, im⟩, .error .attributeError) := by
          unfold KinModelState.update
          simp only [hu]
        rw [e1] at k1
        rw [e2] at k2
        refine bad _ (by rw [e1]) (by rw [e2]) ?_
        rw [e1, e2]
        exact ⟨rfl, rfl, rfl, k1, k2, Or.inl ⟨rfl, rfl⟩⟩
      · have e1 : KinModelState.update (⟨P, kn, ns, some (g0, a), im⟩ : KinModelState r c) fit =
            evalExisting ⟨p, kn, ns, some (g0, a), im⟩ g0 a := by
          unfold KinModelState.update
          simp only [hu]
        have e2 : KinModelState.update (⟨P, kn', ns, some (g0, a'), im⟩ : KinModelState r c) fit =
            evalExisting ⟨p, kn', ns, some (g0, a'), im⟩ g0 a' := by
          unfold KinModelState.update
          simp only [hu]
        rcases evalExisting_twin (⟨p, kn, ns, some (g0, a), im⟩ : KinModelState r c) ⟨p, kn', ns, some (g0, a'), im⟩ rfl g0 a a' h3
          (hash g0 a a' rfl rfl) with e | ⟨e, h1, h2⟩
        · apply same
          rw [e1, e2, e]
        · rw [e1, h1] at k1
          rw [e2, h2] at k2
          refine bad e (by rw [e1, h1]) (by rw [e2, h2]) ?_
          rw [e1, e2, h1, h2]
          exact ⟨rfl, rfl, rfl, k1, k2, Or.inr ⟨g0, a, a', rfl, rfl, h3⟩⟩
    · have e1 : KinModelState.update (⟨P, kn, ns, ap, im⟩ : KinModelState r c) fit = (⟨p, kn, ns, ap, im⟩, .error e) := by
        unfold KinModelState.update
        simp only [hu]
      have e2 : KinModelState.update (⟨P, kn', ns, ap', im⟩ : KinModelState r c) fit = (⟨p, kn', ns, ap', im⟩, .error e) := by
        unfold KinModelState.update
        simp only [hu]
      rw [e1] at k1
      rw [e2] at k2
      refine bad e (by rw [e1]) (by rw [e2]) ?_
      rw [e1, e2]
      exact ⟨rfl, rfl, rfl, k1, k2, hap⟩

/-- two fits that differ only in the numbers stored in the kinematic profile -/
def FitTwin (sh : Option Nat × Option Nat) (s s' : Fit2D r c) : Prop :=
  ∃ kp km, s' = { s with kinProfile := kp, kinModel := km } ∧ s.kinProfile.shape = sh ∧ kp.shape = sh ∧
    ((s.kinModel = none ∧ km = none) ∨ ∃ k m', s.kinModel = some k ∧ km = some { k with m := m' } ∧ KinTwin sh k.m m')

theorem FitTwin.makeModel {sh : Option Nat × Option Nat} {s s' : Fit2D r c} (h : FitTwin sh s s') (f : List ℝ) :
    (s'.makeModel f).2 = (s.makeModel f).2 ∧ FitTwin sh (s.makeModel f).1 (s'.makeModel f).1 ∧
      ((s.makeModel f).2 = .ok () → s'.makeModel f = s.makeModel f) := by
  obtain ⟨kp, km, rfl, h1, h2, ⟨h3, rfl⟩ | ⟨k, m', h3, rfl, h4⟩⟩ := h
  · have e1 : s.makeModel f = (s, .error .attributeError) := by unfold Fit2D.makeModel; rw [h3]
    rw [e1]
    refine ⟨rfl, ⟨kp, none, rfl, h1, h2, Or.inl ⟨h3, rfl⟩⟩, fun h => by cases h⟩
  · have e1 : s.makeModel f = ({ s with kinProfile := (k.m.make s.input f).1.kin, kinModel := some { k with m := (k.m.make s.input f).1 } },
        (k.m.make s.input f).2) := by unfold Fit2D.makeModel; rw [h3]
    have e2 : Fit2D.makeModel { s with kinProfile := kp, kinModel := some { k with m := m' } } f =
        ({ s with kinProfile := (m'.make s.input f).1.kin, kinModel := some { k with m := (m'.make s.input f).1 } },
        (m'.make s.input f).2) := rfl
    obtain ⟨t1, t2, t3⟩ := h4.step (.make s.input f)
    simp only [KinModelState.step] at t1 t2 t3
    rw [e1, e2]
    refine ⟨t1, ⟨_, _, rfl, ?_, ?_, Or.inr ⟨_, _, rfl, rfl, t2⟩⟩, fun h => ?_⟩
    · obtain ⟨_, _, hk⟩ := t2.keeps; exact hk.kin
    · obtain ⟨_, _, hk⟩ := t2.keeps'; exact hk.kin
    · rw [t3 h]

theorem FitTwin.updateModel {sh : Option Nat × Option Nat} {s s' : Fit2D r c} (h : FitTwin sh s s') (f : List ℝ) :
    (s'.updateModel f).2 = (s.updateModel f).2 ∧ FitTwin sh (s.updateModel f).1 (s'.updateModel f).1 := by
  obtain ⟨kp, km, rfl, h1, h2, ⟨h3, rfl⟩ | ⟨k, m', h3, rfl, h4⟩⟩ := h
  · have e1 : s.updateModel f = (s, .error .attributeError) := by unfold Fit2D.updateModel; rw [h3]
    rw [e1]
    exact ⟨rfl, ⟨kp, none, rfl, h1, h2, Or.inl ⟨h3, rfl⟩⟩⟩
  · have e1 : s.updateModel f = ({ s with kinProfile := (k.m.update f).1.kin, kinModel := some { k with m := (k.m.update f).1 } },
        (k.m.update f).2) := by unfold Fit2D.updateModel; rw [h3]
    have e2 : Fit2D.updateModel { s with kinProfile := kp, kinModel := some { k with m := m' } } f =
        ({ s with kinProfile := (m'.update f).1.kin, kinModel := some { k with m := (m'.update f).1 } },
        (m'.update f).2) := rfl
    obtain ⟨t1, t2, -⟩ := h4.step (.update f)
    simp only [KinModelState.step] at t1 t2
    rw [e1, e2]
    refine ⟨t1, ⟨_, _, rfl, ?_, ?_, Or.inr ⟨_, _, rfl, rfl, t2⟩⟩⟩
    · obtain ⟨_, _, hk⟩ := t2.keeps; exact hk.kin
    · obtain ⟨_, _, hk⟩ := t2.keeps'; exact hk.kin

/-- the numbers agree with a fit that is its own twin -/
theorem FitTwin.left {sh : Option Nat × Option Nat} {s s' : Fit2D r c} (h : FitTwin sh s s') : FitTwin sh s s := by
  obtain ⟨kp, km, rfl, h1, h2, ⟨h3, rfl⟩ | ⟨k, m', h3, rfl, h4⟩⟩ := h
  · exact ⟨s.kinProfile, s.kinModel, rfl, h1, h1, Or.inl ⟨h3, h3⟩⟩
  · exact ⟨s.kinProfile, s.kinModel, rfl, h1, h1, Or.inr ⟨k, k.m, h3, h3, KinTwin.refl h4.keeps⟩⟩

theorem FitTwin.setBestfit {sh : Option Nat × Option Nat} {s s' : Fit2D r c} (h : FitTwin sh s s') (f : List ℝ) :
    (s'.setBestfit f).2 = (s.setBestfit f).2 ∧ FitTwin sh (s.setBestfit f).1 (s'.setBestfit f).1 ∧
      ((s.setBestfit f).2 = .ok () → s'.setBestfit f = s.setBestfit f) := by
  obtain ⟨t1, t2, t3⟩ := h.makeModel f
  have hs := h.makeModel f
  unfold Fit2D.setBestfit
  rcases e : s.makeModel f with ⟨a, _ | _⟩
  · rcases e' : s'.makeModel f with ⟨a', _ | _⟩
    · rw [e, e'] at t1 t2
      exact ⟨t1, t2, fun h => by cases h⟩
    · rw [e, e'] at t1; cases t1
  · rw [t3 (by rw [e]), e]
    rw [e] at t2
    refine ⟨rfl, ?_, fun _ => rfl⟩
    dsimp only at t2
    obtain ⟨kp, km, -, h1, h2, ⟨h3, -⟩ | ⟨k, m', h3, -, h4⟩⟩ := t2
    · refine ⟨_, _, rfl, h1, h1, Or.inl ⟨?_, ?_⟩⟩ <;> simp [h3]
    · refine ⟨_, _, rfl, h1, h1, Or.inr ⟨{ k with bestfit := some k.m }, k.m, ?_, ?_, KinTwin.refl h4.keeps⟩⟩ <;> simp [h3]

theorem FitTwin.chainResults {sh : Option Nat × Option Nat} {s s' : Fit2D r c} (h : FitTwin sh s s') (o : PeakFinder) :
    (s'.chainResults o).2 = (s.chainResults o).2 ∧ FitTwin sh (s.chainResults o).1 (s'.chainResults o).1 := by
  obtain ⟨kp, km, rfl, h1, h2, ⟨h3, rfl⟩ | ⟨k, m', h3, rfl, h4⟩⟩ := h
  · have e1 : s.chainResults o = (s, .error .attributeError) := by unfold Fit2D.chainResults; rw [h3]
    rw [e1]
    exact ⟨rfl, ⟨kp, none, rfl, h1, h2, Or.inl ⟨h3, rfl⟩⟩⟩
  · have hp := h4.params
    obtain ⟨_, _, _, _, _, _, _, _, _, sam, _, _, _, _⟩ := s
    dsimp only at h1 h3
    subst h3
    unfold Fit2D.chainResults
    dsimp only
    rw [hp]
    cases sam with
    | none => exact ⟨rfl, ⟨kp, _, rfl, h1, h2, Or.inr ⟨k, m', rfl, rfl, h4⟩⟩⟩
    | some ch =>
      dsimp only
      split
      · exact ⟨rfl, ⟨kp, _, rfl, h1, h2, Or.inr ⟨k, m', rfl, rfl, h4⟩⟩⟩
      · split
        · exact ⟨rfl, ⟨kp, _, rfl, h1, h2, Or.inr ⟨k, m', rfl, rfl, h4⟩⟩⟩
        · split
          · exact ⟨rfl, ⟨kp, _, rfl, h1, h2, Or.inr ⟨k, m', rfl, rfl, h4⟩⟩⟩
          · exact ⟨rfl, ⟨kp, _, rfl, h1, h2, Or.inr ⟨k, m', rfl, rfl, h4⟩⟩⟩

theorem FitTwin.withSampler {sh : Option Nat × Option Nat} {s s' : Fit2D r c} (h : FitTwin sh s s') (x : Option Chain) :
    FitTwin sh { s with sampler := x } { s' with sampler := x } := by
  obtain ⟨kp, km, rfl, h1, h2, h3⟩ := h
  exact ⟨kp, km, rfl, h1, h2, h3⟩

theorem FitTwin.fields {sh : Option Nat × Option Nat} {s s' : Fit2D r c} (h : FitTwin sh s s') :
    s'.input = s.input ∧ s'.resolution = s.resolution ∧ s'.settings = s.settings ∧ s'.prior = s.prior ∧
      s'.sampler = s.sampler ∧ s'.sampleFile = s.sampleFile ∧ s'.kinModel.isNone = s.kinModel.isNone := by
  obtain ⟨kp, km, rfl, h1, h2, ⟨h3, rfl⟩ | ⟨k, m', h3, rfl, h4⟩⟩ := h <;> refine ⟨rfl, rfl, rfl, rfl, rfl, rfl, ?_⟩ <;> rw [h3] <;> rfl

theorem FitTwin.reloadSampler {sh : Option Nat × Option Nat} {s s' : Fit2D r c} (h : FitTwin sh s s') {d d' : Disk r c}
    (hd : d'.samples = d.samples) :
    (s'.reloadSampler d').2 = (s.reloadSampler d).2 ∧ FitTwin sh (s.reloadSampler d).1 (s'.reloadSampler d').1 := by
  have h0 := h
  obtain ⟨kp, km, rfl, h1, h2, h3⟩ := h
  unfold Fit2D.reloadSampler
  dsimp only
  rw [hd]
  split
  · split
    · exact ⟨rfl, h0⟩
    · exact ⟨rfl, h0.withSampler _⟩
  · exact ⟨rfl, h0⟩

theorem FitTwin.analyze {sh : Option Nat × Option Nat} {s s' : Fit2D r c} (h : FitTwin sh s s') (o : PeakFinder) {d d' : Disk r c}
    (hd : d'.samples = d.samples) :
    (s'.analyze o d').2 = (s.analyze o d).2 ∧ FitTwin sh (s.analyze o d).1 (s'.analyze o d').1 ∧
      ((s.analyze o d).2 = .ok () → s'.analyze o d' = s.analyze o d) := by
  have h1 : ((if s'.sampler.isNone then s'.reloadSampler d' else (s', .ok ())).2 = (if s.sampler.isNone then s.reloadSampler d else (s, .ok ())).2) ∧
      FitTwin sh (if s.sampler.isNone then s.reloadSampler d else (s, .ok ())).1
        (if s'.sampler.isNone then s'.reloadSampler d' else (s', .ok ())).1 := by
    obtain ⟨-, -, -, -, hf, -⟩ := h.fields
    rw [hf]
    split
    · exact h.reloadSampler hd
    · exact ⟨rfl, h⟩
  unfold Fit2D.analyze
  revert h1
  generalize (if s.sampler.isNone then s.reloadSampler d else (s, .ok ())) = x
  generalize (if s'.sampler.isNone then s'.reloadSampler d' else (s', .ok ())) = x'
  obtain ⟨a, e⟩ := x
  obtain ⟨a', e'⟩ := x'
  rintro ⟨h1, h2⟩
  dsimp only at h1 h2
  subst h1
  cases e' with
  | error e => exact ⟨rfl, h2, fun h => by cases h⟩
  | ok u =>
    dsimp only
    have h3 := h2.chainResults o
    revert h3
    generalize a.chainResults o = y
    generalize a'.chainResults o = y'
    obtain ⟨b, e⟩ := y
    obtain ⟨b', e'⟩ := y'
    rintro ⟨h3, h4⟩
    dsimp only at h3 h4
    subst h3
    cases e' with
    | error e => exact ⟨rfl, h4, fun h => by cases h⟩
    | ok res => exact h4.setBestfit _

theorem FitTwin.setupModel {sh : Option Nat × Option Nat} {s s' : Fit2D r c} (h : FitTwin sh s s') :
    (s'.setupModel).2 = (s.setupModel).2 ∧ FitTwin sh s.setupModel.1 s'.setupModel.1 ∧
      (s.setupModel.2 = .ok () → s'.setupModel = s.setupModel) := by
  have h0 := h
  obtain ⟨kp, km, rfl, h1, h2, h3⟩ := h
  obtain ⟨inp, res, re, set, kin, av, pri, lin, kmod, sam, resu, sf, mf, ps⟩ := s
  dsimp only at h1 h3 h0
  have hu : ∀ t, kp.updateTheta t = kin.updateTheta t := fun t => updateTheta_congr _ _ (h2.trans h1.symm) t
  unfold Fit2D.setupModel
  dsimp only
  cases set with
  | none => exact ⟨rfl, h0, fun h => by cases h⟩
  | some t =>
    dsimp only
    rw [hu]
    cases hk : kin.updateTheta t.theta with
    | error e => exact ⟨rfl, h0, fun h => by cases h⟩
    | ok k =>
      dsimp only
      have hsh : k.shape = sh := (updateTheta_shape _ _ _ hk).trans h1
      have self : ∀ (p : Option PriorObj) (l : Option (List RawLink)), FitTwin sh
          (Fit2D.mk inp res re (some t) k av p l (some ⟨KinModelState.init t.theta t.vary k false, t.names, none⟩) sam resu sf mf ps)
          (Fit2D.mk inp res re (some t) k av p l (some ⟨KinModelState.init t.theta t.vary k false, t.names, none⟩) sam resu sf mf ps) :=
        fun p l => ⟨k, _, rfl, hsh, hsh, Or.inr ⟨_, _, rfl, rfl, KinTwin.refl ⟨_, _, hsh ▸ init_keeps t.theta t.vary k false⟩⟩⟩
      rcases setupPrior pri t with ⟨p, e | _⟩
      · exact ⟨rfl, self (some p) lin, fun h => by cases h⟩
      · dsimp only
        rcases initializeFittingTheta t.theta t.vary with e | f0
        · exact ⟨rfl, self (some p) lin, fun h => by cases h⟩
        · exact ⟨rfl, ((self (some p) t.linked).makeModel f0).2.1, fun _ => rfl⟩

theorem FitTwin.step {sh : Option Nat × Option Nat} {s s' : Fit2D r c} (h : FitTwin sh s s') (o : PeakFinder) {d d' : Disk r c}
    (hd : d'.samples = d.samples) (call : FitCall r c) :
    FitTwin sh (call.step o (s, d)).1 (call.step o (s', d')).1 ∧ (call.step o (s', d')).2.samples = (call.step o (s, d)).2.samples ∧
      call.outcome o (s', d') = call.outcome o (s, d) := by
  have hps : s'.pstamp = s.pstamp := by obtain ⟨_, _, rfl, -⟩ := h; rfl
  cases call with
  | setup => exact ⟨h.setupModel.2.1, hd, h.setupModel.1⟩
  | make f => exact ⟨(h.makeModel f).2.1, hd, (h.makeModel f).1⟩
  | update f => exact ⟨(h.updateModel f).2, hd, (h.updateModel f).1⟩
  | setBest f => exact ⟨(h.setBestfit f).2.1, hd, (h.setBestfit f).1⟩
  | analyze => exact ⟨(h.analyze o hd).2.1, hd, (h.analyze o hd).1⟩
  | save =>
    show FitTwin sh s s' ∧ (s'.save d').1.samples = (s.save d).1.samples ∧ (s'.save d').2 = (s.save d).2
    unfold Fit2D.save
    rw [hps]
    refine ⟨h, ?_, ?_⟩ <;> split_ifs <;> first | exact hd | rfl
  | reload =>
    show FitTwin sh (s.reloadResults o d).1 (s'.reloadResults o d').1 ∧ _ ∧ (s'.reloadResults o d').2 = (s.reloadResults o d).2
    unfold Fit2D.reloadResults
    obtain ⟨-, -, -, -, -, -, hf⟩ := h.fields
    rw [hf]
    split_ifs
    · obtain ⟨t1, t2, -⟩ := h.setupModel
      revert t1 t2
      generalize s.setupModel = x
      generalize s'.setupModel = x'
      obtain ⟨a, e⟩ := x
      obtain ⟨a', e'⟩ := x'
      intro t1 t2
      dsimp only at t1 t2
      subst t1
      cases e' with
      | error e => exact ⟨t2, hd, rfl⟩
      | ok u => exact ⟨(t2.analyze o hd).2.1, hd, (t2.analyze o hd).1⟩
    · exact ⟨(h.analyze o hd).2.1, hd, (h.analyze o hd).1⟩
  | fit run =>
    show FitTwin sh (s.fit o run none d).1 (s'.fit o run none d').1 ∧ (s'.fit o run none d').2.1.samples = (s.fit o run none d).2.1.samples ∧
      (s'.fit o run none d').2.2 = (s.fit o run none d).2.2
    unfold Fit2D.fit
    dsimp only
    obtain ⟨-, hr, -⟩ := h.fields
    rw [hr]
    split_ifs
    · exact ⟨h, hd, rfl⟩
    · obtain ⟨t1, t2, t3⟩ := h.setupModel
      revert t1 t2 t3
      generalize s.setupModel = x
      generalize s'.setupModel = x'
      obtain ⟨a, e⟩ := x
      obtain ⟨a', e'⟩ := x'
      intro t1 t2 t3
      dsimp only at t1 t2
      subst t1
      cases e' with
      | error e => exact ⟨t2, hd, rfl⟩
      | ok u =>
        have e := t3 rfl
        cases e
        dsimp only
        unfold Fit2D.runMcmc
        cases hrun : run a with
        | error e => exact ⟨t2, hd, rfl⟩
        | ok ch =>
          dsimp only
          have hd2 : (if a.sampleFile then { d' with samples := some ch } else d').samples =
              (if a.sampleFile then { d with samples := some ch } else d).samples := by
            split_ifs
            · rfl
            · exact hd
          revert hd2
          generalize (if a.sampleFile then { d' with samples := some ch } else d') = D'
          generalize (if a.sampleFile then { d with samples := some ch } else d) = D
          intro hd2
          obtain ⟨u1, u2, u3⟩ := (t2.withSampler (some ch)).analyze o hd2
          revert u1 u2 u3
          generalize Fit2D.analyze o { a with sampler := some ch } D = y
          generalize Fit2D.analyze o { a with sampler := some ch } D' = y'
          obtain ⟨b, e⟩ := y
          obtain ⟨b', e'⟩ := y'
          intro u1 u2 u3
          dsimp only at u1 u2
          subst u1
          cases e' with
          | error e => exact ⟨u2, hd2, rfl⟩
          | ok u =>
            have e := u3 rfl
            cases e
            refine ⟨u2, ?_, ?_⟩ <;> dsimp only <;> unfold Fit2D.save <;> split_ifs <;> first | exact hd2 | rfl

/-! ## Other light in the intensity profile -/

/-- the aperture model exists whenever the model does -/
def Fit2D.Ready (s : Fit2D r c) : Prop := ∀ k, s.kinModel = some k → k.m.aper.isSome = true

theorem make_input (m : KinModelState r c) (h : m.aper.isSome = true) (g g' : KinInput r c) (f : List ℝ) : m.make g f = m.make g' f := by
  obtain ⟨P, kn, ns, ap, im⟩ := m
  dsimp only at h
  cases ap with
  | none => cases h
  | some a => unfold KinModelState.make; rfl

theorem makeModel_light (s : Fit2D r c) (h : s.Ready) (l : ℝ → ℝ → ℝ) (f : List ℝ) :
    (s.withLight l).makeModel f = ((s.makeModel f).1.withLight l, (s.makeModel f).2) := by
  obtain ⟨inp, res, re, set, kin, av, pri, lin, kmod, sam, resu, sf, mf, ps⟩ := s
  cases kmod with
  | none => rfl
  | some k =>
    have hk := h k rfl
    unfold Fit2D.makeModel Fit2D.withLight
    dsimp only
    rw [make_input k.m hk _ inp]

theorem updateModel_light (s : Fit2D r c) (l : ℝ → ℝ → ℝ) (f : List ℝ) :
    (s.withLight l).updateModel f = ((s.updateModel f).1.withLight l, (s.updateModel f).2) := by
  obtain ⟨inp, res, re, set, kin, av, pri, lin, kmod, sam, resu, sf, mf, ps⟩ := s
  cases kmod <;> rfl

theorem setBestfit_light (s : Fit2D r c) (h : s.Ready) (l : ℝ → ℝ → ℝ) (f : List ℝ) :
    (s.withLight l).setBestfit f = ((s.setBestfit f).1.withLight l, (s.setBestfit f).2) := by
  unfold Fit2D.setBestfit
  rw [makeModel_light s h]
  rcases s.makeModel f with ⟨a, _ | _⟩ <;> rfl

theorem chainResults_input (s : Fit2D r c) (g : KinInput r c) (o : PeakFinder) :
    ({ s with input := g } : Fit2D r c).chainResults o = ({ (s.chainResults o).1 with input := g }, (s.chainResults o).2) := by
  obtain ⟨inp, res, re, set, kin, av, pri, lin, kmod, sam, resu, sf, mf, ps⟩ := s
  unfold Fit2D.chainResults
  dsimp only
  cases kmod with
  | none => rfl
  | some k =>
    cases sam with
    | none => rfl
    | some ch =>
      dsimp only
      cases hA : addVRe22 { theta := k.m.params.theta.map Fl.fin, vary := k.m.params.vary, names := k.names
                            flatchain := ch.cols, absvalsigma := av, re := re } with
      | error e => simp only
      | ok out =>
        obtain ⟨out, names⟩ := out
        dsimp only
        cases hB : mapE colValues out.flatchain with
        | error e => simp only
        | ok cols =>
          dsimp only
          cases hC : paramPosterior o cols lin names k.m.params.nFree with
          | error e => simp only
          | ok res => simp only

theorem chainResults_light (s : Fit2D r c) (l : ℝ → ℝ → ℝ) (o : PeakFinder) :
    (s.withLight l).chainResults o = ((s.chainResults o).1.withLight l, (s.chainResults o).2) := by
  have h : (s.chainResults o).1.input = s.input := by
    have := chainResults_input s s.input o
    exact (congrArg (fun x => x.1.input) this)
  unfold Fit2D.withLight
  rw [chainResults_input]
  simp only [h]

theorem chainResults_model (s : Fit2D r c) (o : PeakFinder) : (s.chainResults o).1.kinModel = s.kinModel := by
  obtain ⟨inp, res, re, set, kin, av, pri, lin, kmod, sam, resu, sf, mf, ps⟩ := s
  unfold Fit2D.chainResults
  dsimp only
  cases kmod with
  | none => rfl
  | some k =>
    cases sam with
    | none => rfl
    | some ch =>
      dsimp only
      split
      · rfl
      · split
        · rfl
        · split <;> rfl

theorem analyze_light (s : Fit2D r c) (h : s.Ready) (l : ℝ → ℝ → ℝ) (o : PeakFinder) {d d' : Disk r c} (hd : d'.samples = d.samples) :
    (s.withLight l).analyze o d' = ((s.analyze o d).1.withLight l, (s.analyze o d).2) := by
  have h1 : (if (s.withLight l).sampler.isNone then (s.withLight l).reloadSampler d' else (s.withLight l, .ok ())) =
      ((if s.sampler.isNone then s.reloadSampler d else (s, .ok ())).1.withLight l, (if s.sampler.isNone then s.reloadSampler d else (s, .ok ())).2) := by
    show (if s.sampler.isNone then (s.withLight l).reloadSampler d' else (s.withLight l, .ok ())) = _
    split_ifs
    · unfold Fit2D.reloadSampler
      rw [hd]
      show (if s.sampleFile = true then _ else _) = _
      split_ifs
      · split <;> rfl
      · rfl
    · rfl
  have h2 : (if s.sampler.isNone then s.reloadSampler d else (s, .ok ())).1.kinModel = s.kinModel := by
    split_ifs
    · unfold Fit2D.reloadSampler
      split_ifs
      · split <;> rfl
      · rfl
    · rfl
  unfold Fit2D.analyze
  rw [h1]
  revert h2
  generalize (if s.sampler.isNone then s.reloadSampler d else (s, .ok ())) = x
  obtain ⟨a, e⟩ := x
  intro h2
  dsimp only at h2 ⊢
  cases e with
  | error e => rfl
  | ok u =>
    dsimp only
    rw [chainResults_light]
    have h3 := chainResults_model a o
    revert h3
    generalize a.chainResults o = y
    obtain ⟨b, e⟩ := y
    intro h3
    dsimp only at h3 ⊢
    cases e with
    | error e => rfl
    | ok res => exact setBestfit_light b (fun k hk => h k (by rw [← h2, ← h3]; exact hk)) l _

theorem setupModel_none (s : Fit2D r c) (h : s.settings = none) : s.setupModel = (s, .error .attributeError) := by
  unfold Fit2D.setupModel
  rw [h]

theorem setupModel_refused (s : Fit2D r c) (t : FitSettings) (h : s.settings = some t) (e : PyErr)
    (hk : s.kinProfile.updateTheta t.theta = .error e) : s.setupModel = (s, .error e) := by
  unfold Fit2D.setupModel
  simp only [h, hk]

theorem setupModel_noLight (s : Fit2D r c) (h : s.setsLight = false) :
    ∃ e, s.setupModel = (s, .error e) ∧ ∀ l, (s.withLight l).setupModel = (s.withLight l, .error e) := by
  unfold Fit2D.setsLight at h
  cases hs : s.settings with
  | none => exact ⟨_, setupModel_none s hs, fun l => setupModel_none (s.withLight l) hs⟩
  | some t =>
    rw [hs] at h
    dsimp only at h
    cases hk : s.kinProfile.updateTheta t.theta with
    | error e => exact ⟨e, setupModel_refused s t hs e hk, fun l => setupModel_refused (s.withLight l) t hs e hk⟩
    | ok k => rw [hk] at h; cases h

theorem setupModel_noLight' (s : Fit2D r c) (h : s.setsLight = false) (l : ℝ → ℝ → ℝ) :
    (s.withLight l).setupModel = (s.setupModel.1.withLight l, s.setupModel.2) := by
  obtain ⟨e, h1, h2⟩ := setupModel_noLight s h
  rw [h1, h2]

theorem save_samples (s : Fit2D r c) (d : Disk r c) : (s.save d).1.samples = d.samples := by
  unfold Fit2D.save
  split_ifs <;> rfl

theorem save_outcome (s : Fit2D r c) (d : Disk r c) : (s.save d).2 = if s.pstamp then .ok () else .error .attributeError := by
  unfold Fit2D.save
  split_ifs <;> rfl

theorem reload_none {o : PeakFinder} {d : Disk r c} (s : Fit2D r c) (hk : s.kinModel.isNone = true) (e : PyErr) (he : s.setupModel = (s, .error e)) :
    s.reloadResults o d = (s, .error e) := by
  unfold Fit2D.reloadResults
  rw [if_pos hk, he]

theorem reload_some {o : PeakFinder} {d : Disk r c} (s : Fit2D r c) (hk : s.kinModel.isNone = false) :
    s.reloadResults o d = s.analyze o d := by
  unfold Fit2D.reloadResults
  rw [if_neg (by rw [hk]; exact Bool.false_ne_true)]

/-- A call that does not write the light does not depend on it if the aperture model exists. -/
theorem callStep_light (s : Fit2D r c) (h : s.Ready) (l : ℝ → ℝ → ℝ) (o : PeakFinder) (d : Disk r c) (call : FitCall r c)
    (hl : call.setsLight s = false) :
    (call.step o (s.withLight l, d)).1 = (call.step o (s, d)).1.withLight l ∧
      (call.step o (s.withLight l, d)).2.samples = (call.step o (s, d)).2.samples ∧
      call.outcome o (s.withLight l, d) = call.outcome o (s, d) := by
  cases call with
  | setup =>
    have := setupModel_noLight' s hl l
    simp only [FitCall.step, FitCall.outcome, this, and_self]
  | make f => simp only [FitCall.step, FitCall.outcome, makeModel_light s h, and_self]
  | update f => simp only [FitCall.step, FitCall.outcome, updateModel_light, and_self]
  | setBest f => simp only [FitCall.step, FitCall.outcome, setBestfit_light s h, and_self]
  | analyze => simp only [FitCall.step, FitCall.outcome, analyze_light s h l o (d := d) rfl, and_self]
  | save =>
    refine ⟨rfl, ?_, ?_⟩
    · show ((s.withLight l).save d).1.samples = (s.save d).1.samples
      rw [save_samples, save_samples]
    · show ((s.withLight l).save d).2 = (s.save d).2
      rw [save_outcome, save_outcome]
      rfl
  | reload =>
    have e : (s.withLight l).reloadResults o d = ((s.reloadResults o d).1.withLight l, (s.reloadResults o d).2) := by
      cases hk : s.kinModel.isNone with
      | true =>
        have hl' : s.setsLight = false := by
          simpa [FitCall.setsLight, hk] using hl
        obtain ⟨e, he, he'⟩ := setupModel_noLight s hl'
        rw [reload_none s hk e he, reload_none (s.withLight l) hk e (he' l)]
      | false =>
        rw [reload_some s hk, reload_some (s.withLight l) hk]
        exact analyze_light s h l o rfl
    simp only [FitCall.step, FitCall.outcome, e, and_self]
  | fit run =>
    have e : (s.withLight l).fit o run none d = ((s.fit o run none d).1.withLight l, (s.fit o run none d).2) := by
      unfold Fit2D.fit
      dsimp only
      show (if Fl.ltB s.resolution 0 = true then _ else _) = _
      by_cases hr : Fl.ltB s.resolution 0 = true
      · rw [if_pos hr, if_pos hr]
      · have hl' : s.setsLight = false := by
          simp only [FitCall.setsLight, Bool.and_eq_false_iff, Bool.not_eq_false'] at hl
          exact hl.resolve_left hr
        obtain ⟨e, he, -⟩ := setupModel_noLight s hl'
        rw [if_neg hr, if_neg hr, setupModel_noLight' s hl' l, he]
    simp only [FitCall.step, FitCall.outcome, e, and_self]

/-! ## A fit that can be set up has an aperture model -/

theorem finishModel_aper (m : KinModelState r c) (g : KinInput r c) (img : Option Arr2) : (finishModel m g img).1.aper = m.aper := by
  unfold finishModel
  dsimp only
  split_ifs
  · rfl
  · split <;> rfl

theorem evalExisting_aper (m : KinModelState r c) (g : KinInput r c) (a : AperState) : (evalExisting m g a).1.aper.isSome = true := by
  unfold evalExisting
  dsimp only
  split
  · rfl
  · rw [finishModel_aper]; rfl

theorem make_keepsAper (m : KinModelState r c) (h : m.aper.isSome = true) (g : KinInput r c) (f : List ℝ) :
    (m.make g f).1.aper.isSome = true := by
  obtain ⟨P, kn, ns, ap, im⟩ := m
  dsimp only at h
  cases ap with
  | none => cases h
  | some a =>
    unfold KinModelState.make
    dsimp only
    split
    · rfl
    · split
      · rfl
      · exact evalExisting_aper _ _ _

theorem update_keepsAper (m : KinModelState r c) (h : m.aper.isSome = true) (f : List ℝ) :
    (m.update f).1.aper.isSome = true := by
  obtain ⟨P, kn, ns, ap, im⟩ := m
  dsimp only at h
  cases ap with
  | none => cases h
  | some a =>
    unfold KinModelState.update
    dsimp only
    split
    · rfl
    · exact evalExisting_aper _ _ _

theorem make_okAper (m : KinModelState r c) (g : KinInput r c) (f : List ℝ) (h : (m.make g f).2 = .ok ()) :
    (m.make g f).1.aper.isSome = true := by
  revert h
  unfold KinModelState.make
  split
  · intro h; cases h
  · split
    · intro h; cases h
    · dsimp only
      split
      · split
        · intro h; cases h
        · intro h; cases h
        · intro _; rw [finishModel_aper]; rfl
      · intro _; exact evalExisting_aper _ _ _

theorem Fit2D.Ready.makeModel {s : Fit2D r c} (h : s.Ready) (f : List ℝ) : (s.makeModel f).1.Ready := by
  unfold Fit2D.makeModel
  cases hk : s.kinModel with
  | none => exact h
  | some k =>
    intro k' hk'
    cases hk'
    exact make_keepsAper _ (h k hk) _ _

theorem Fit2D.Ready.updateModel {s : Fit2D r c} (h : s.Ready) (f : List ℝ) : (s.updateModel f).1.Ready := by
  unfold Fit2D.updateModel
  cases hk : s.kinModel with
  | none => exact h
  | some k =>
    intro k' hk'
    cases hk'
    exact update_keepsAper _ (h k hk) _

theorem Fit2D.Ready.setBestfit {s : Fit2D r c} (h : s.Ready) (f : List ℝ) : (s.setBestfit f).1.Ready := by
  have h1 := h.makeModel f
  unfold Fit2D.setBestfit
  generalize s.makeModel f = x at h1
  obtain ⟨a, e⟩ := x
  cases e with
  | error e => exact h1
  | ok u =>
    intro k hk
    dsimp only at h1 hk
    cases hm : a.kinModel with
    | none => rw [hm] at hk; cases hk
    | some k0 =>
      rw [hm] at hk
      cases hk
      exact h1 k0 hm

theorem Fit2D.Ready.analyze {s : Fit2D r c} (h : s.Ready) (o : PeakFinder) (d : Disk r c) : (s.analyze o d).1.Ready := by
  have h2 : (if s.sampler.isNone then s.reloadSampler d else (s, .ok ())).1.kinModel = s.kinModel := by
    split_ifs
    · unfold Fit2D.reloadSampler
      split_ifs
      · split <;> rfl
      · rfl
    · rfl
  unfold Fit2D.analyze
  revert h2
  generalize (if s.sampler.isNone then s.reloadSampler d else (s, .ok ())) = x
  obtain ⟨a, e⟩ := x
  intro h2
  have ha : a.Ready := fun k hk => h k (h2 ▸ hk)
  cases e with
  | error e => exact ha
  | ok u =>
    dsimp only
    have h3 := chainResults_model a o
    revert h3
    generalize a.chainResults o = y
    obtain ⟨b, e⟩ := y
    intro h3
    have hb : b.Ready := fun k hk => ha k (h3 ▸ hk)
    cases e with
    | error e => exact hb
    | ok res => exact hb.setBestfit _

theorem setup_ready (s : Fit2D r c) (h : s.setupModel.2 = .ok ()) : s.setupModel.1.Ready := by
  obtain ⟨t, k, f0, -, -, -, -, -, -, hm, hk⟩ := setup_state s s.setupModel.1 (Prod.ext rfl h)
  intro k' hk'
  rw [hk] at hk'
  cases hk'
  exact make_okAper _ _ _ hm

/-- a fit that could be set up when it was new has an aperture model after every call -/
theorem Fit2D.Ready.step {s0 s : Fit2D r c} (h0 : s0.setupModel.2 = .ok ()) (hi : FitInv s0 s) (h : s.Ready) (o : PeakFinder) (d : Disk r c)
    (call : FitCall r c) : (call.step o (s, d)).1.Ready := by
  have hs : s.setupModel.1.Ready :=
    setup_ready s ((setupModel_congr s0 s hi.input hi.settings hi.shape fun t ht => hi.setupPrior_eq t ht).1.trans h0)
  cases call with
  | setup => exact hs
  | make f => exact h.makeModel f
  | update f => exact h.updateModel f
  | setBest f => exact h.setBestfit f
  | analyze => exact h.analyze o d
  | save => exact h
  | reload =>
    show (s.reloadResults o d).1.Ready
    unfold Fit2D.reloadResults
    split_ifs
    · revert hs
      generalize s.setupModel = x
      obtain ⟨a, e⟩ := x
      intro hs
      cases e with
      | error e => exact hs
      | ok u => exact hs.analyze o d
    · exact h.analyze o d
  | fit run =>
    show (s.fit o run none d).1.Ready
    unfold Fit2D.fit
    dsimp only
    split_ifs
    · exact h
    · revert hs
      generalize s.setupModel = x
      obtain ⟨a, e⟩ := x
      intro hs
      cases e with
      | error e => exact hs
      | ok u =>
        dsimp only at hs ⊢
        unfold Fit2D.runMcmc
        cases run a with
        | error e => exact hs
        | ok ch =>
          dsimp only
          have hs2 : Fit2D.Ready { a with sampler := some ch } := hs
          have h3 := hs2.analyze o (if a.sampleFile then { d with samples := some ch } else d)
          revert h3
          generalize Fit2D.analyze o { a with sampler := some ch } (if a.sampleFile then { d with samples := some ch } else d) = y
          obtain ⟨b, e⟩ := y
          intro h3
          cases e <;> exact h3

/-! ## Sessions -/

theorem FitTwin.withKin {sh : Option Nat × Option Nat} {s s' : Fit2D r c} (h : FitTwin sh s s') (κ : KinProfile) (hκ : κ.shape = sh) :
    FitTwin sh s (s'.withKin κ) := by
  obtain ⟨kp, km, rfl, h1, h2, ⟨h3, rfl⟩ | ⟨k, m', h3, rfl, h4⟩⟩ := h
  · exact ⟨κ, none, rfl, h1, hκ, Or.inl ⟨h3, rfl⟩⟩
  · refine ⟨κ, some { k with m := m'.withKin κ }, rfl, h1, hκ, Or.inr ⟨k, m'.withKin κ, h3, rfl, ?_⟩⟩
    obtain ⟨v, n, hk⟩ := h4.keeps'
    refine ⟨h4.params, h4.noScale, h4.model, h4.keeps, ⟨v, n, hk.vary, hk.len, hκ, ?_, hk.nFree⟩, ?_⟩
    · intro g a ha
      unfold KinModelState.withKin at ha
      dsimp only at ha
      cases hap : m'.aper with
      | none => rw [hap] at ha; cases ha
      | some p => rw [hap] at ha; cases ha; exact hκ
    · unfold KinModelState.withKin
      dsimp only
      rcases h4.aper with ⟨e1, e2⟩ | ⟨g, a, a', e1, e2, e3⟩
      · exact Or.inl ⟨e1, by rw [e2]; rfl⟩
      · refine Or.inr ⟨g, a, { a' with kin := κ }, e1, by rw [e2]; rfl, ?_⟩
        rw [e3]

theorem FitTwin.right {sh : Option Nat × Option Nat} {s s' : Fit2D r c} (h : FitTwin sh s s') : FitTwin sh s' s' := by
  obtain ⟨kp, km, rfl, h1, h2, ⟨h3, rfl⟩ | ⟨k, m', h3, rfl, h4⟩⟩ := h
  · exact ⟨kp, none, rfl, h2, h2, Or.inl ⟨rfl, rfl⟩⟩
  · exact ⟨kp, _, rfl, h2, h2, Or.inr ⟨_, m', rfl, rfl, KinTwin.refl h4.keeps'⟩⟩

theorem FitTwin.withLight {sh : Option Nat × Option Nat} {s s' : Fit2D r c} (h : FitTwin sh s s') (l : ℝ → ℝ → ℝ) :
    FitTwin sh (s.withLight l) (s'.withLight l) := by
  obtain ⟨kp, km, rfl, h1, h2, h3⟩ := h
  exact ⟨kp, km, rfl, h1, h2, h3⟩

theorem FitTwin.shape {sh : Option Nat × Option Nat} {s s' : Fit2D r c} (h : FitTwin sh s s') : s'.kinProfile.shape = sh := by
  obtain ⟨kp, km, rfl, h1, h2, h3⟩ := h
  exact h2

theorem FitTwin.ready {sh : Option Nat × Option Nat} {s s' : Fit2D r c} (h : FitTwin sh s s') (hr : s.Ready) : s'.Ready := by
  obtain ⟨kp, km, rfl, h1, h2, ⟨h3, rfl⟩ | ⟨k, m', h3, rfl, h4⟩⟩ := h
  · intro k hk; cases hk
  · intro k' hk'
    cases hk'
    have := hr k h3
    rcases h4.aper with ⟨e1, e2⟩ | ⟨g, a, a', e1, e2, e3⟩
    · rw [e1] at this; cases this
    · show m'.aper.isSome = true
      rw [e2]; rfl

theorem FitTwin.inv {sh : Option Nat × Option Nat} {s : Fit2D r c} (h : FitTwin sh s s) : FitInv s s := by
  refine ⟨rfl, rfl, rfl, rfl, rfl, rfl, rfl, rfl, rfl, ?_, Or.inl rfl⟩
  have hsh := h.shape
  obtain ⟨kp, km, -, h1, h2, ⟨h3, -⟩ | ⟨k, m', h3, -, h4⟩⟩ := h
  · intro k hk; rw [h3] at hk; cases hk
  · intro k' hk'
    rw [h3] at hk'
    cases hk'
    rw [hsh]
    exact h4.keeps

theorem callStep_input {sh : Option Nat × Option Nat} {s : Fit2D r c} (h : FitTwin sh s s) (o : PeakFinder) (d : Disk r c) (call : FitCall r c) :
    (call.step o (s, d)).1.input = s.input := (FitInv.step o (s, d) h.inv call).input

/-- what a call in a session does to a fit: the same as alone -/
theorem opened_step {sh : Option Nat × Option Nat} {t : Fit2D r c} (h : FitTwin sh t t) (hr : t.Ready) (o : PeakFinder) (d : Disk r c)
    (call : FitCall r c) (l : ℝ → ℝ → ℝ) (hl : call.setsLight t = true → l = t.input.cfg.int) :
    (call.step o (t.withLight l, d)).1.withLight t.input.cfg.int = (call.step o (t, d)).1 ∧
      (call.step o (t.withLight l, d)).2.samples = (call.step o (t, d)).2.samples ∧
      call.outcome o (t.withLight l, d) = call.outcome o (t, d) := by
  have own : ∀ s : Fit2D r c, s.input = t.input → s.withLight t.input.cfg.int = s := by
    intro s hs
    rw [← hs]
    rfl
  cases hc : call.setsLight t with
  | true =>
    rw [hl hc, own t rfl]
    exact ⟨own _ (callStep_input h o d call), rfl, rfl⟩
  | false =>
    obtain ⟨h1, h2, h3⟩ := callStep_light t hr l o d call hc
    refine ⟨?_, h2, h3⟩
    rw [h1]
    exact own _ (callStep_input h o d call)

/-- every stored fit fits to its kinematic profile object -/
def Session.Valid (w : Session) : Prop := ∀ y ∈ w.fits, FitTwin (w.kin y.kinRef).shape y.fit y.fit

/-- a new fit with a kinematic profile object of the right kind -/
def SessFit.New (κ : Nat → KinProfile) (y : SessFit) : Prop :=
  y.fit.kinModel = none ∧ y.fit.kinProfile.shape = (κ y.kinRef).shape

theorem SessFit.New.twin {κ : Nat → KinProfile} {y : SessFit} (h : y.New κ) : FitTwin (κ y.kinRef).shape y.fit y.fit :=
  ⟨y.fit.kinProfile, y.fit.kinModel, rfl, h.2, h.2, Or.inl ⟨h.1, h.1⟩⟩

theorem Session.Valid.step {w : Session} (h : w.Valid) (o : PeakFinder) (op : SessOp)
    (hop : ∀ y, op = .create y → FitTwin (w.kin y.kinRef).shape y.fit y.fit) :
    (w.step o op).Valid ∧ ∀ k, ((w.step o op).kin k).shape = (w.kin k).shape := by
  cases op with
  | create x =>
    refine ⟨?_, fun k => rfl⟩
    intro y hy
    rcases List.mem_append.mp hy with hy | hy
    · exact h y hy
    · rw [List.mem_singleton] at hy
      subst hy
      exact hop y rfl
  | call i f =>
    cases hx : w.fits[i]? with
    | none =>
      have : w.step o (.call i f) = w := by
        unfold Session.step
        simp only [hx]
      rw [this]
      exact ⟨h, fun _ => rfl⟩
    | some x =>
      have hmem : x ∈ w.fits := List.mem_of_getElem? hx
      have t0 := ((h x hmem).withKin (w.kin x.kinRef) rfl).right
      have hst : ∃ l own res, res = (f x.r x.c).step o ((x.fit.withKin (w.kin x.kinRef)).withLight l, x.disk) ∧
          (w.step o (.call i f)).fits = w.fits.set i { x with fit := res.1.withLight own, disk := res.2 } ∧
          (w.step o (.call i f)).kin = Function.update w.kin x.kinRef res.1.kinProfile := by
        unfold Session.step
        simp only [hx]
        exact ⟨_, _, _, rfl, rfl, rfl⟩
      obtain ⟨l, own, res, hres, h1, h2⟩ := hst
      have t1 := ((t0.withLight l).step o (d := x.disk) (d' := x.disk) rfl (f x.r x.c)).1
      rw [← hres] at t1
      have hk : ∀ k, ((w.step o (.call i f)).kin k).shape = (w.kin k).shape := by
        intro k
        rw [h2]
        by_cases hk : k = x.kinRef
        · subst hk
          rw [Function.update_self]
          exact t1.shape
        · rw [Function.update_of_ne hk]
      refine ⟨?_, hk⟩
      intro y hy
      rw [hk]
      rw [h1] at hy
      rcases List.mem_or_eq_of_mem_set hy with hy | hy
      · exact h y hy
      · subst hy
        exact t1.withLight own

end Misfit
