import Verif.Model.Prune
import Verif.Lemmas.Fit2D
import Verif.Lemmas.Analysis
import Verif.Props.KinModel

/-!
# Lemmas on the reduced copy
-/

namespace Misfit
variable {V : Type*} {r c : Nat}

/-- evaluating two existing models with the same grid and the same parameters -/
theorem eval_same_existing {g : KinInput r c} {f : AperFixed} {sh : Option Nat × Option Nat} {ns : Bool}
    {theta0 : List ℝ} {vary : List Bool} {m m' : KinModelState r c} {s s' : AperState}
    (hb : Built g f sh ns theta0 vary m s) (hr : Restored g.aperCfg s)
    (hb' : Built g f sh ns theta0 vary m' s') (hr' : Restored g.aperCfg s') (p : KinParams ℝ)
    (kin kin' : KinProfile) (ap ap' : Option (KinInput r c × AperState)) (mo mo' : Option (Img r c ℝ)) :
    SameOutcome (evalExisting ⟨p, kin, ns, ap, mo⟩ g s) (evalExisting ⟨p, kin', ns, ap', mo'⟩ g s') := by
  have hcon := doModelCalcs_congr g.aperCfg s s' p.theta (hb.fixed.trans hb'.fixed.symm)
    (hb.skin.trans hb'.skin.symm) (hr.1.trans hr'.1.symm) (hr.2.trans hr'.2.symm)
  unfold evalExisting updateModel
  simp only
  revert hcon
  generalize doModelCalcs g.aperCfg s p.theta = R
  generalize doModelCalcs g.aperCfg s' p.theta = R'
  obtain ⟨s1, r1⟩ := R
  obtain ⟨s2, r2⟩ := R'
  intro hcon
  simp only at hcon
  subst hcon
  cases r1 with
  | error e => exact ⟨rfl, fun h => by cases h⟩
  | ok img =>
    simp only
    have h1 := finishModel_keeps (r := r) (c := c) ⟨p, s1.kin, ns, some (g, s1), mo⟩ g img
    have h2 := finishModel_keeps (r := r) (c := c) ⟨p, s2.kin, ns, some (g, s2), mo'⟩ g img
    have h3 := finishModel_congr (r := r) (c := c) ⟨p, s1.kin, ns, some (g, s1), mo⟩
      ⟨p, s2.kin, ns, some (g, s2), mo'⟩ g img rfl
    refine ⟨h3.1, fun _ => ⟨?_, h3.2, ?_⟩⟩
    · rw [h1.1, h2.1]
    · unfold KinModelState.llike
      rw [h1.2.2.2, h2.2.2.2, h3.2]
      cases (finishModel (r := r) (c := c) ⟨p, s2.kin, ns, some (g, s2), mo'⟩ g img).1.model <;> rfl

/-- two models built alike evaluate alike, whatever was evaluated before -/
theorem update_same_built {g : KinInput r c} {f : AperFixed} {sh : Option Nat × Option Nat} {ns : Bool}
    {theta0 : List ℝ} {vary : List Bool} (hl : vary.length = theta0.length) {m m' : KinModelState r c} {s s' : AperState}
    (hb : Built g f sh ns theta0 vary m s) (hr : Restored g.aperCfg s)
    (hb' : Built g f sh ns theta0 vary m' s') (hr' : Restored g.aperCfg s') (fit : List ℝ) :
    SameOutcome (m.update fit) (m'.update fit) := by
  by_cases hfit : fit.length = vary.count true
  · have hp := (hb.params.update hl fit hfit).1
    have hp' := (hb'.params.update hl fit hfit).1
    have hE := fun kin kin' ap ap' mo mo' => eval_same_existing hb hr hb' hr'
      ⟨(updateParameters theta0 vary fit).1, vary, vary.count true⟩ kin kin' ap ap' mo mo'
    obtain ⟨mp, mk, mns, map, mmo⟩ := m
    obtain ⟨mp', mk', mns', map', mmo'⟩ := m'
    have hap : map = some (g, s) := hb.aper
    have hap' : map' = some (g, s') := hb'.aper
    have hns : mns = ns := hb.noScale
    have hns' : mns' = ns := hb'.noScale
    subst hap hap' hns hns'
    unfold KinModelState.update
    rw [hp, hp']
    exact hE _ _ _ _ _ _
  · have e1 : m.params.update fit = (m.params, some .valueError) :=
      KinParams.update_bad _ _ (by rw [hb.params.varyEq]; exact hb.params.nFree)
        (by rw [hb.params.varyEq]; exact hfit)
    have e2 : m'.params.update fit = (m'.params, some .valueError) :=
      KinParams.update_bad _ _ (by rw [hb'.params.varyEq]; exact hb'.params.nFree)
        (by rw [hb'.params.varyEq]; exact hfit)
    unfold KinModelState.update
    rw [e1, e2]
    exact ⟨rfl, fun h => by cases h⟩

/-- the value of `lnprob` depends on the outcome of the evaluation only -/
theorem objLnprob_same (p : PriorObj) {m m' : KinModelState r c} (fit : List ℝ)
    (h : SameOutcome (m.update fit) (m'.update fit)) : (objLnprob p m fit).2 = (objLnprob p m' fit).2 := by
  unfold objLnprob Misfit.lnprob
  have hmap : (fit.map Fl.fin).map Fl.finVal = fit := by
    rw [List.map_map]
    exact List.map_id fit
  cases p.logp (fit.map Fl.fin) with
  | error e => rfl
  | ok q =>
    simp only
    by_cases hp : q.isFinite = true
    · rw [if_pos hp, if_pos hp, hmap]
      have := lnlike_same fit h
      revert this
      generalize m.lnlike fit = x
      generalize m'.lnlike fit = y
      obtain ⟨a, ra⟩ := x
      obtain ⟨b, rb⟩ := y
      intro h1
      simp only at h1
      subst h1
      cases ra <;> rfl
    · rw [if_neg hp, if_neg hp]

/-- the state after an evaluation: unchanged, or that of `update_model` -/
theorem objLnprob_state (p : PriorObj) (m : KinModelState r c) (fit : List ℝ) :
    (objLnprob p m fit).1 = m ∨ ((objLnprob p m fit).1 = (m.update fit).1 ∧
      ((∃ v, (objLnprob p m fit).2 = .ok v) → (m.update fit).2 = .ok ())) := by
  unfold objLnprob Misfit.lnprob
  have hmap : (fit.map Fl.fin).map Fl.finVal = fit := by
    rw [List.map_map]
    exact List.map_id fit
  cases p.logp (fit.map Fl.fin) with
  | error e => exact .inl rfl
  | ok q =>
    simp only
    by_cases hp : q.isFinite = true
    · right
      rw [if_pos hp, hmap]
      unfold KinModelState.lnlike
      generalize m.update fit = x
      obtain ⟨a, ra⟩ := x
      cases ra with
      | error e => exact ⟨rfl, fun ⟨v, hv⟩ => by cases hv⟩
      | ok u =>
        simp only
        cases a.llike with
        | error e => exact ⟨rfl, fun _ => trivial⟩
        | ok l => exact ⟨rfl, fun _ => trivial⟩
    · rw [if_neg hp]
      exact .inl rfl

/-- evaluations of prior and model one after another -/
noncomputable def objEvals (p : PriorObj) (m : KinModelState r c) (fits : List (List ℝ)) : KinModelState r c :=
  fits.foldl (fun m fit => (objLnprob p m fit).1) m

/-- every evaluation returns -/
def ObjReturns (p : PriorObj) : KinModelState r c → List (List ℝ) → Prop
  | _, [] => True
  | m, fit :: fits => (∃ v, (objLnprob p m fit).2 = .ok v) ∧ ObjReturns p (objLnprob p m fit).1 fits

/-- evaluations are calls of `update_model` -/
theorem objEvals_run (p : PriorObj) : ∀ (fits : List (List ℝ)) (m : KinModelState r c),
    ∃ calls : List (KinCall r c), objEvals p m fits = m.run calls ∧ (ObjReturns p m fits → AllOk m calls) := by
  intro fits
  induction fits with
  | nil => exact fun m => ⟨[], rfl, fun _ => trivial⟩
  | cons fit fits ih =>
    intro m
    obtain ⟨calls, h1, h2⟩ := ih (objLnprob p m fit).1
    rcases objLnprob_state p m fit with h | ⟨h, h'⟩
    · refine ⟨calls, ?_, fun hr => ?_⟩
      · show objEvals p (objLnprob p m fit).1 fits = _
        rw [h1, h]
      · have := h2 hr.2
        rw [h] at this
        exact this
    · refine ⟨.update fit :: calls, ?_, fun hr => ⟨h' hr.1, ?_⟩⟩
      · show objEvals p (objLnprob p m fit).1 fits = _
        rw [h1, h]
        rfl
      · have := h2 hr.2
        rw [h] at this
        exact this

/-! ## Attributes -/

theorem copyKeys_cases (old : Attrs V) : ∀ ks : List String,
    ((∀ k ∈ ks, (old k).isSome) ∧ copyKeys old ks = .ok fun x => if x ∈ ks then old x else none) ∨
    ((∃ k ∈ ks, old k = none) ∧ copyKeys old ks = .error .keyError) := by
  intro ks
  induction ks with
  | nil => exact .inl ⟨fun k hk => by simp at hk, by simp [copyKeys]⟩
  | cons k ks ih =>
    cases hk : old k with
    | none => exact .inr ⟨⟨k, by simp, hk⟩, by simp only [copyKeys, hk]⟩
    | some v =>
      rcases ih with ⟨h1, h2⟩ | ⟨⟨k', h1, h1'⟩, h2⟩
      · refine .inl ⟨?_, ?_⟩
        · intro x hx
          rcases List.mem_cons.1 hx with rfl | hx
          · rw [hk]; rfl
          · exact h1 x hx
        · simp only [copyKeys, hk, h2]
          congr 1
          funext x
          by_cases hx : x = k
          · subst hx; simp [hk]
          · simp [hx]
      · exact .inr ⟨⟨k', by simp [h1], h1'⟩, by simp only [copyKeys, hk, h2]⟩

theorem pruneInstrument_cases (a : Attrs V) :
    ((a "instrument_name").isSome ∧ (a "band").isSome ∧
      pruneInstrument a = .ok fun x => if x = "instrument_name" ∨ x = "band" then none else a x) ∨
    ((a "instrument_name" = none ∨ a "band" = none) ∧ pruneInstrument a = .error .attributeError) := by
  unfold pruneInstrument Attrs.del
  cases h1 : a "instrument_name" with
  | none => exact .inr ⟨.inl rfl, rfl⟩
  | some v =>
    cases h2 : a "band" with
    | none => right; simp [h2]
    | some v =>
      left
      refine ⟨rfl, rfl, ?_⟩
      simp only [show ("band" : String) ≠ "instrument_name" by decide, if_false, h2]
      congr 1
      funext x
      by_cases hx : x = "band"
      · simp [hx]
      · simp [hx]

theorem mapE_get_congr (a b : Attrs V) : ∀ l : List String, (∀ k ∈ l, a k = b k) → mapE a.get l = mapE b.get l := by
  intro l
  induction l with
  | nil => exact fun _ => rfl
  | cons k ks ih =>
    intro h
    rw [mapE, mapE, ih fun x hx => h x (List.mem_cons_of_mem _ hx)]
    unfold Attrs.get
    rw [h k (by simp)]

theorem mapE_get_ok (a : Attrs V) : ∀ (l : List String) (vs : List V), mapE a.get l = .ok vs → ∀ k ∈ l, (a k).isSome := by
  intro l
  induction l with
  | nil => exact fun _ _ k hk => by simp at hk
  | cons x xs ih =>
    intro vs h k hk
    rw [mapE] at h
    cases hx : a x with
    | none => simp only [show a.get x = .error .attributeError by simp only [Attrs.get, hx]] at h; cases h
    | some v =>
      simp only [show a.get x = .ok v by simp only [Attrs.get, hx]] at h
      cases hxs : mapE a.get xs with
      | error e => rw [hxs] at h; cases h
      | ok vs' =>
        rcases List.mem_cons.1 hk with rfl | hk
        · rw [hx]; rfl
        · exact ih vs' hxs k hk

theorem mapE_get_missing (a : Attrs V) (l : List String) (k : String) (hk : k ∈ l) (h : a k = none) :
    ∃ e, mapE a.get l = .error e := by
  cases hm : mapE a.get l with
  | error e => exact ⟨e, rfl⟩
  | ok vs =>
    have := mapE_get_ok a l vs hm k hk
    rw [h] at this
    cases this

/-- what a successful reading says -/
theorem read_ok (w : Meaning V r c) (a : FitAttrs V) (g : KinInput r c) (h : a.read w = .ok g) :
    ∃ sp gen vg vs vi, a.spec2D = some sp ∧ a.galaxy "generate_model" = some gen ∧
      mapE a.galaxy.get galaxyReads = .ok vg ∧ mapE sp.get (specReads (w.truth gen)) = .ok vs ∧
      mapE a.instrument.get instrumentReads = .ok vi ∧ g = w.input (vg ++ vs ++ vi) := by
  unfold FitAttrs.read at h
  cases hsp : a.spec2D with
  | none => rw [hsp] at h; cases h
  | some sp =>
    rw [hsp] at h
    simp only at h
    cases hgen : a.galaxy "generate_model" with
    | none => simp only [Attrs.get, hgen] at h; cases h
    | some gen =>
      have hget : a.galaxy.get "generate_model" = .ok gen := by simp only [Attrs.get, hgen]
      rw [hget] at h
      simp only at h
      cases h1 : mapE a.galaxy.get galaxyReads with
      | error e => rw [h1] at h; cases h
      | ok vg =>
        cases h2 : mapE sp.get (specReads (w.truth gen)) with
        | error e => rw [h1, h2] at h; cases h
        | ok vs =>
          cases h3 : mapE a.instrument.get instrumentReads with
          | error e => rw [h1, h2, h3] at h; cases h
          | ok vi =>
            rw [h1, h2, h3] at h
            cases h
            exact ⟨sp, gen, vg, vs, vi, rfl, rfl, rfl, h2, rfl, rfl⟩

/-- the cases of copying galaxy, spectrum and instrument -/
theorem attrsPrune_cases (a : FitAttrs V) (sp : Attrs V) (hsp : a.spec2D = some sp) :
    ((a.instrument "instrument_name" = none ∨ a.instrument "band" = none) ∧ a.prune = .error .attributeError) ∨
    ((a.instrument "instrument_name").isSome ∧ (a.instrument "band").isSome ∧
      (((∃ k ∈ galaxyKeys, a.galaxy k = none) ∨ (∃ k ∈ specKeys, sp k = none)) ∧ a.prune = .error .keyError ∨
       (∀ k ∈ galaxyKeys, (a.galaxy k).isSome) ∧ (∀ k ∈ specKeys, (sp k).isSome) ∧
        a.prune = .ok ⟨fun x => if x ∈ galaxyKeys then a.galaxy x else none,
          some fun x => if x ∈ specKeys then sp x else none,
          fun x => if x = "instrument_name" ∨ x = "band" then none else a.instrument x⟩)) := by
  unfold FitAttrs.prune
  rcases pruneInstrument_cases a.instrument with ⟨h1, h2, h3⟩ | ⟨h1, h3⟩
  · refine .inr ⟨h1, h2, ?_⟩
    rw [h3]
    rcases copyKeys_cases a.galaxy galaxyKeys with ⟨h4, h5⟩ | ⟨h4, h5⟩
    · rcases copyKeys_cases sp specKeys with ⟨h6, h7⟩ | ⟨h6, h7⟩
      · exact .inr ⟨h4, h6, by simp only [h5, hsp, h7]⟩
      · exact .inl ⟨.inr h6, by simp only [h5, hsp, h7]⟩
    · exact .inl ⟨.inl h4, by simp only [h5]⟩
  · exact .inl ⟨h1, by rw [h3]⟩

/-- the copy of galaxy, spectrum and instrument is read like the original -/
theorem read_copy (w : Meaning V r c) (a a' : FitAttrs V) (g : KinInput r c) (h : a.read w = .ok g) (hp : a.prune = .ok a') :
    (∀ gen, a.galaxy "generate_model" = some gen → w.truth gen = false → a'.read w = .ok g) ∧
    (∀ gen, a.galaxy "generate_model" = some gen → w.truth gen = true → a'.read w = .error .attributeError) := by
  obtain ⟨sp, gen, vg, vs, vi, hsp, hgen, h1, h2, h3, rfl⟩ := read_ok w a g h
  rcases attrsPrune_cases a sp hsp with ⟨_, h4⟩ | ⟨_, _, ⟨_, h4⟩ | ⟨_, _, h4⟩⟩
  · rw [h4] at hp; cases hp
  · rw [h4] at hp; cases hp
  rw [h4] at hp
  cases hp
  have hg' : Attrs.get (fun x => if x ∈ galaxyKeys then a.galaxy x else none) "generate_model" = .ok gen := by
    simp only [Attrs.get]
    rw [if_pos (by decide), hgen]
  constructor
  · intro gen' hgen' ht
    rw [hgen] at hgen'
    cases hgen'
    rw [ht] at h2
    unfold FitAttrs.read
    simp only [hg', ht]
    rw [mapE_get_congr _ a.galaxy galaxyReads fun k hk => if_pos (by revert k; decide),
      mapE_get_congr _ sp (specReads false) fun k hk => if_pos (by revert k; decide),
      mapE_get_congr _ a.instrument instrumentReads fun k hk => if_neg (by revert k; decide), h1, h2, h3]
  · intro gen' hgen' ht
    rw [hgen] at hgen'
    cases hgen'
    obtain ⟨e, he⟩ := mapE_get_missing (fun x => if x ∈ specKeys then sp x else none) (specReads true) "shape" (by decide)
      (if_neg (by decide))
    unfold FitAttrs.read
    simp only [hg', ht, he]
    rw [mapE_get_congr _ a.galaxy galaxyReads fun k hk => if_pos (by revert k; decide), h1]

/-! ## The model of a fit that was set up -/

/-- After a successful `setup_model`: settings, prior and model, and the state of the profile. -/
theorem setup_state (s s' : Fit2D r c) (h : s.setupModel = (s', .ok ())) :
    ∃ t k f0, s.settings = some t ∧ s'.settings = some t ∧ s'.input = s.input ∧
      s'.kinProfile.updateTheta t.theta = .ok k ∧ initializeFittingTheta t.theta t.vary = .ok f0 ∧
      (∃ p n, s'.prior = some p ∧ p.name = some n) ∧
      ((KinModelState.init t.theta t.vary k false : KinModelState r c).make s.input f0).2 = .ok () ∧
      s'.kinModel = some ⟨((KinModelState.init t.theta t.vary k false).make s.input f0).1, t.names, none⟩ := by
  rcases setupModel_cases s with ⟨_, e⟩ | ⟨t, ht, hc⟩
  · rw [e] at h; cases h
  rcases hc with ⟨e, _, h1⟩ | ⟨k, hk, hc⟩
  · rw [h1] at h; cases h
  rcases hc with ⟨e, _, h1⟩ | ⟨hpr, hc⟩
  · rw [h1] at h; cases h
  rcases hc with ⟨e, _, h1⟩ | ⟨f0, hf0, h1⟩
  · rw [h1] at h; cases h
  rw [h] at h1
  simp only [Fit2D.makeModel, Fit2D.ready, Prod.mk.injEq] at h1
  obtain ⟨h1, h2⟩ := h1
  have hsh : ((KinModelState.init t.theta t.vary k false : KinModelState r c).make s.input f0).1.kin.shape = k.shape := by
    have := (init_keeps (r := r) (c := c) t.theta t.vary k false).step (.make s.input f0)
    exact this.kin
  refine ⟨t, k, f0, ht, by rw [h1]; exact ht, by rw [h1], ?_, hf0, ?_, h2.symm, by rw [h1]⟩
  · rw [h1]
    simp only
    rw [updateTheta_congr _ k hsh, updateTheta_congr k s.kinProfile (updateTheta_shape _ _ _ hk), hk]
  · rw [h1]
    simp only
    unfold setupPrior at hpr ⊢
    simp only at hpr ⊢
    cases hn : (s.prior.getD (PriorObj.flat t.theta t.vary t.bounds)).name with
    | none => rw [hn] at hpr; cases hpr
    | some n =>
      simp only
      split
      · exact ⟨_, n, rfl, rfl⟩
      · exact ⟨_, n, rfl, hn⟩

end Misfit
