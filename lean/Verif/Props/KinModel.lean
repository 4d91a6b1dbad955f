import Verif.Lemmas.KinModel
import Verif.Props.Image
import Verif.Props.Chisq

/-!
# C85-C88: the 2D kinematic model object
-/

namespace Misfit
variable {r c : Nat}

/-! ## C85 -/

/-- every call of the sequence returns without exception -/
def AllOk : KinModelState r c → List (KinCall r c) → Prop
  | _, [] => True
  | m, call :: calls => (m.step call).2 = .ok () ∧ AllOk (m.step call).1 calls

/-- two calls end the same way: with the same exception, or with the same parameters, the same stored
image and the same log-likelihood -/
def SameOutcome (x y : KinModelState r c × Except PyErr Unit) : Prop :=
  x.2 = y.2 ∧ (x.2 = .ok () →
    x.1.params.theta = y.1.params.theta ∧ x.1.model = y.1.model ∧ x.1.llike = y.1.llike)

theorem run_built {g : KinInput r c} {f : AperFixed} {sh : Option Nat × Option Nat} {ns : Bool}
    {theta0 : List ℝ} {vary : List Bool} (hl : vary.length = theta0.length)
    (hreal : f.waveReal = g.aperCfg.wave ∧ f.deltReal = avgDiff g.aperCfg.wave) :
    ∀ (calls : List (KinCall r c)) (m : KinModelState r c) (s : AperState),
      Built g f sh ns theta0 vary m s → Restored g.aperCfg s →
      (g.aperCfg.adaptive = true → AllOk m calls) →
      ∃ s', Built g f sh ns theta0 vary (m.run calls) s' ∧ Restored g.aperCfg s' := by
  intro calls
  induction calls with
  | nil => exact fun m s h hr _ => ⟨s, h, hr⟩
  | cons call calls ih =>
    intro m s h hr hok
    obtain ⟨s1, h1, hr1⟩ := h.step hl hreal call hr (fun ha => (hok ha).1)
    exact ih _ s1 h1 hr1 (fun ha => (hok ha).2)

/-- the state after the first successful `make_model` -/
theorem make_built (g : KinInput r c) (theta0 : List ℝ) (vary : List Bool) (kin : KinProfile) (ns : Bool)
    (hl : vary.length = theta0.length) (f0 : List ℝ)
    (h : ((KinModelState.init theta0 vary kin ns : KinModelState r c).make g f0).2 = .ok ()) :
    f0.length = vary.count true ∧ ∃ f s,
      setupCalcs g.aperCfg (updateParameters theta0 vary f0).1 = .ok f ∧
      Built g f kin.shape ns theta0 vary ((KinModelState.init theta0 vary kin ns).make g f0).1 s ∧
      Restored g.aperCfg s ∧ ∃ k, kin.updateTheta (updateParameters theta0 vary f0).1 = .ok k := by
  by_cases hf : f0.length = vary.count true
  swap
  · unfold KinModelState.make at h
    rw [KinParams.update_bad (KinModelState.init theta0 vary kin ns : KinModelState r c).params f0 rfl hf] at h
    cases h
  refine ⟨hf, ?_⟩
  have hp := (ParamsFrom.init theta0 vary).update hl f0 hf
  unfold KinModelState.make at h ⊢
  rw [show (KinModelState.init theta0 vary kin ns : KinModelState r c).params = KinParams.init theta0 vary
    from rfl, hp.1] at h ⊢
  simp only [KinModelState.init] at h ⊢
  cases hk : kin.updateTheta (updateParameters theta0 vary f0).1 with
  | error e => rw [hk] at h; cases h
  | ok k =>
    rw [hk] at h
    simp only at h ⊢
    unfold buildModel at h ⊢
    cases hs : setupCalcs g.aperCfg (updateParameters theta0 vary f0).1 with
    | error e => rw [hs] at h; cases h
    | ok f =>
      rw [hs] at h
      simp only at h ⊢
      have hkeep := doModelCalcs_keeps g.aperCfg ⟨f, k, g.aperCfg.wave, avgDiff g.aperCfg.wave⟩
        (updateParameters theta0 vary f0).1
      have hsh := updateTheta_shape _ _ _ hk
      have hreal := setupCalcs_real _ _ _ hs
      revert h hkeep
      generalize doModelCalcs g.aperCfg ⟨f, k, g.aperCfg.wave, avgDiff g.aperCfg.wave⟩
        (updateParameters theta0 vary f0).1 = R
      obtain ⟨s, r0⟩ := R
      intro h hkeep
      cases r0 with
      | error e => cases h
      | ok img =>
        simp only at h hkeep ⊢
        have hfin := finishModel_keeps (r := r) (c := c)
          ⟨⟨(updateParameters theta0 vary f0).1, vary, vary.count true⟩, s.kin, ns, some (g, s), none⟩ g img
        refine ⟨f, s, rfl, ⟨?_, ?_, ?_, ?_, ?_, ?_⟩, ?_, k, rfl⟩
        · rw [hfin.1]; exact hp.2
        · exact hfin.2.2.1
        · exact hfin.2.2.2
        · rw [hfin.2.1]; exact hkeep.2.1.trans hsh
        · exact hkeep.2.1.trans hsh
        · exact hkeep.1
        · by_cases ha : g.aperCfg.adaptive = true
          · have := hkeep.2.2.2 ha img rfl
            exact ⟨this.1.trans hreal.1, this.2.trans hreal.2⟩
          · exact hkeep.2.2.1 (by simpa using ha)

/-- evaluating an existing model ends like building a new one -/
theorem eval_same {g : KinInput r c} {f : AperFixed} {sh : Option Nat × Option Nat} {ns : Bool}
    {theta0 : List ℝ} {vary : List Bool} {m : KinModelState r c} {s : AperState}
    (hb : Built g f sh ns theta0 vary m s) (hr : Restored g.aperCfg s) (theta : List ℝ)
    (hs : setupCalcs g.aperCfg theta = .ok f) (p : KinParams ℝ) (hp : p.theta = theta) (kin k k' : KinProfile)
    (ap : Option (KinInput r c × AperState)) (mo mo' : Option (Img r c ℝ))
    (hk : k.shape = sh) (hk' : k'.shape = sh) :
    SameOutcome (evalExisting ⟨p, kin, ns, ap, mo⟩ g { s with kin := k })
      (match buildModel g.aperCfg k' theta with
        | .error e => (⟨p, k', ns, none, mo'⟩, .error e)
        | .ok (s, .error e) => (⟨p, s.kin, ns, none, mo'⟩, .error e)
        | .ok (s, .ok img) => finishModel ⟨p, s.kin, ns, some (g, s), mo'⟩ g img) := by
  have hcon := doModelCalcs_congr g.aperCfg { s with kin := k }
    ⟨f, k', g.aperCfg.wave, avgDiff g.aperCfg.wave⟩ theta hb.fixed (hk.trans hk'.symm) hr.1 hr.2
  unfold buildModel evalExisting updateModel
  rw [hs]
  simp only [hp]
  revert hcon
  generalize doModelCalcs g.aperCfg { s with kin := k } theta = R
  generalize doModelCalcs g.aperCfg ⟨f, k', g.aperCfg.wave, avgDiff g.aperCfg.wave⟩ theta = R'
  obtain ⟨s1, r1⟩ := R
  obtain ⟨s2, r2⟩ := R'
  intro hcon
  simp only at hcon
  subst hcon
  cases r1 with
  | error e => exact ⟨rfl, fun h => by cases h⟩
  | ok img =>
    simp only
    have h1 := finishModel_keeps (r := r) (c := c) ⟨p, s1.kin, ns, some (g, s1), mo⟩ g img
    have h2 := finishModel_keeps (r := r) (c := c) ⟨p, s2.kin, ns, some (g, s2), mo'⟩ g img
    have h3 := finishModel_congr (r := r) (c := c) ⟨p, s1.kin, ns, some (g, s1), mo⟩
      ⟨p, s2.kin, ns, some (g, s2), mo'⟩ g img rfl
    refine ⟨h3.1, fun _ => ⟨?_, h3.2, ?_⟩⟩
    · rw [h1.1, h2.1]
    · unfold KinModelState.llike
      rw [h1.2.2.2, h2.2.2.2, h3.2]
      cases (finishModel (r := r) (c := c) ⟨p, s2.kin, ns, some (g, s2), mo'⟩ g img).1.model <;> rfl

/-- **C85** With the last two parameters (centre shift and redshift) fixed: after a first successful
`make_model` for galaxy `g` and any further calls, a call of `update_model` or `make_model` ends exactly
as the first `make_model` call for `g` of an untouched object would end, whatever was evaluated before:
same exception, or same parameters, image and log-likelihood.  With adaptive wavelength sampling the calls in between must have
returned normally. -/
theorem C85_history (g : KinInput r c) (ts : List ℝ) (vs : List Bool) (shift z : ℝ) (kin : KinProfile)
    (ns : Bool) (hl : vs.length = ts.length) (f0 : List ℝ) (calls : List (KinCall r c))
    (m0 m1 : KinModelState r c)
    (hm0 : m0 = KinModelState.init (ts ++ [shift, z]) (vs ++ [false, false]) kin ns)
    (hm1 : m1 = (m0.make g f0).1)
    (h0 : (m0.make g f0).2 = .ok ()) (hall : g.cfg.adaptive = true → AllOk m1 calls) :
    ∀ fit, SameOutcome ((m1.run calls).update fit) (m0.make g fit) ∧
      ∀ g', SameOutcome ((m1.run calls).make g' fit) (m0.make g fit) := by
  subst hm0
  have hlen : (vs ++ [false, false]).length = (ts ++ [shift, z]).length := by simp [hl]
  have hcnt : (vs ++ [false, false]).count true = vs.count true := by simp
  obtain ⟨hf0, f, s0, hs, hb0, hr0, k0, hk0⟩ := make_built g _ _ kin ns hlen f0 h0
  have hreal := setupCalcs_real _ _ _ hs
  obtain ⟨s, hb, hr⟩ := run_built hlen hreal calls _ s0 hb0 hr0 (by rw [← hm1]; exact hall)
  rw [← hm1] at hb
  generalize m1.run calls = m at hb
  intro fit
  by_cases hfit : fit.length = (vs ++ [false, false]).count true
  swap
  · have e1 : m.params.update fit = (m.params, some .valueError) :=
      KinParams.update_bad _ _ (by rw [hb.params.varyEq]; exact hb.params.nFree)
        (by rw [hb.params.varyEq]; exact hfit)
    have e2 := KinParams.update_bad (KinModelState.init (ts ++ [shift, z]) (vs ++ [false, false]) kin ns :
      KinModelState r c).params fit rfl hfit
    refine ⟨?_, fun g' => ?_⟩
    · unfold KinModelState.update KinModelState.make
      rw [e1, e2]
      exact ⟨rfl, fun h => by cases h⟩
    · unfold KinModelState.make
      rw [e1, e2]
      exact ⟨rfl, fun h => by cases h⟩
  have hsf : setupCalcs g.aperCfg (updateParameters (ts ++ [shift, z]) (vs ++ [false, false]) fit).1 = .ok f := by
    rw [← hs]
    apply setupCalcs_congr
    rw [updateParameters_last ts vs fit shift z hl (hfit.trans hcnt),
      updateParameters_last ts vs f0 shift z hl (hf0.trans hcnt)]
  have hp := hb.params.update hlen fit hfit
  have hpi := (ParamsFrom.init (ts ++ [shift, z]) (vs ++ [false, false])).update hlen fit hfit
  obtain ⟨k', hk', hsh'⟩ := updateTheta_ok_congr kin kin rfl _
    (updateParameters (ts ++ [shift, z]) (vs ++ [false, false]) fit).1 _ hk0
  obtain ⟨k, hk, hsh⟩ := updateTheta_ok_congr kin m.kin hb.kin.symm _
    (updateParameters (ts ++ [shift, z]) (vs ++ [false, false]) fit).1 _ hk0
  have hfresh : (KinModelState.init (ts ++ [shift, z]) (vs ++ [false, false]) kin ns :
      KinModelState r c).make g fit = (match buildModel g.aperCfg k'
          (updateParameters (ts ++ [shift, z]) (vs ++ [false, false]) fit).1 with
        | .error e => (⟨⟨(updateParameters (ts ++ [shift, z]) (vs ++ [false, false]) fit).1,
            vs ++ [false, false], (vs ++ [false, false]).count true⟩, k', ns, none, none⟩, .error e)
        | .ok (s, .error e) => (⟨⟨(updateParameters (ts ++ [shift, z]) (vs ++ [false, false]) fit).1,
            vs ++ [false, false], (vs ++ [false, false]).count true⟩, s.kin, ns, none, none⟩, .error e)
        | .ok (s, .ok img) => finishModel ⟨⟨(updateParameters (ts ++ [shift, z]) (vs ++ [false, false]) fit).1,
            vs ++ [false, false], (vs ++ [false, false]).count true⟩, s.kin, ns, some (g, s), none⟩ g img) := by
    unfold KinModelState.make
    rw [show (KinModelState.init (ts ++ [shift, z]) (vs ++ [false, false]) kin ns : KinModelState r c).params =
      KinParams.init _ _ from rfl, hpi.1]
    simp only [KinModelState.init]
    rw [hk']
    rfl
  rw [hfresh]
  obtain ⟨mp, mk, mns, map, mmo⟩ := m
  have hap : map = some (g, s) := hb.aper
  have hns : mns = ns := hb.noScale
  subst hap hns
  refine ⟨?_, fun g' => ?_⟩
  · unfold KinModelState.update
    rw [hp.1]
    exact eval_same hb hr _ hsf _ rfl _ s.kin k' _ _ _ hb.skin hsh'
  · unfold KinModelState.make
    rw [hp.1]
    simp only
    rw [hk]
    exact eval_same hb hr _ hsf _ rfl _ k k' _ _ _ hsh hsh'

theorem SameOutcome.symm {x y : KinModelState r c × Except PyErr Unit} (h : SameOutcome x y) :
    SameOutcome y x :=
  ⟨h.1.symm, fun hy => by
    obtain ⟨a, b, d⟩ := h.2 (h.1.trans hy)
    exact ⟨a.symm, b.symm, d.symm⟩⟩

theorem SameOutcome.trans {x y z : KinModelState r c × Except PyErr Unit} (h : SameOutcome x y)
    (h' : SameOutcome y z) : SameOutcome x z :=
  ⟨h.1.trans h'.1, fun hx => by
    obtain ⟨a, b, d⟩ := h.2 hx
    obtain ⟨a', b', d'⟩ := h'.2 (h.1.symm.trans hx)
    exact ⟨a.trans a', b.trans b', d.trans d'⟩⟩

theorem lnlike_same {m m' : KinModelState r c} (fit : List ℝ) (h : SameOutcome (m.update fit) (m'.update fit)) :
    (m.lnlike fit).2 = (m'.lnlike fit).2 := by
  unfold KinModelState.lnlike
  revert h
  generalize m.update fit = x
  generalize m'.update fit = y
  obtain ⟨a, ra⟩ := x
  obtain ⟨b, rb⟩ := y
  rintro ⟨h1, h2⟩
  simp only at h1
  subst h1
  cases ra with
  | error e => rfl
  | ok u => exact (h2 rfl).2.2

theorem logPrior_length {K : Type*} [Field K] [LinearOrder K] (t t' : List (Fl K)) (vary : List Bool)
    (bounds : List (Option (Fl K × Fl K))) (fit : List (Fl K)) (h : t.length = t'.length) :
    logPrior t vary bounds fit = logPrior t' vary bounds fit := by
  unfold logPrior
  rw [h]

theorem lnprob_same {m m' : KinModelState r c} (bounds : List (Option (Fl ℝ × Fl ℝ))) (fit : List ℝ)
    (hv : m.params.vary = m'.params.vary) (hl : m.params.theta.length = m'.params.theta.length)
    (h : SameOutcome (m.update fit) (m'.update fit)) :
    (m.lnprob bounds fit).2 = (m'.lnprob bounds fit).2 := by
  unfold KinModelState.lnprob Misfit.lnprob
  have hmap : (fit.map Fl.fin).map Fl.finVal = fit := by
    rw [List.map_map]
    exact List.map_id fit
  simp only
  rw [hv, logPrior_length (m.params.theta.map Fl.fin) (m'.params.theta.map Fl.fin) _ _ _ (by simp [hl]), hmap]
  cases logPrior (m'.params.theta.map Fl.fin) m'.params.vary bounds (fit.map Fl.fin) with
  | error e => rfl
  | ok p =>
    simp only
    by_cases hp : p.isFinite = true
    · rw [if_pos hp, if_pos hp]
      have := lnlike_same fit h
      revert this
      generalize m.lnlike fit = x
      generalize m'.lnlike fit = y
      obtain ⟨a, ra⟩ := x
      obtain ⟨b, rb⟩ := y
      intro h1
      simp only at h1
      subst h1
      cases ra <;> rfl
    · rw [if_neg hp, if_neg hp]

/-- **C85** The posterior is a function of the fitting vector: two objects for the same galaxy and
settings, prepared with different starting vectors and used in different ways before (for example
the copy inside the sampler and the one that reports the best fit), give the same
log-posterior for the same vector. -/
theorem C85_posterior (g : KinInput r c) (ts : List ℝ) (vs : List Bool) (shift z : ℝ) (kin : KinProfile)
    (ns : Bool) (hl : vs.length = ts.length) (f0 f0' : List ℝ) (calls calls' : List (KinCall r c))
    (m0 m1 m1' : KinModelState r c)
    (hm0 : m0 = KinModelState.init (ts ++ [shift, z]) (vs ++ [false, false]) kin ns)
    (hm1 : m1 = (m0.make g f0).1) (hm1' : m1' = (m0.make g f0').1)
    (h0 : (m0.make g f0).2 = .ok ()) (h0' : (m0.make g f0').2 = .ok ())
    (hall : g.cfg.adaptive = true → AllOk m1 calls) (hall' : g.cfg.adaptive = true → AllOk m1' calls')
    (bounds : List (Option (Fl ℝ × Fl ℝ))) (fit : List ℝ) :
    ((m1.run calls).lnprob bounds fit).2 = ((m1'.run calls').lnprob bounds fit).2 := by
  have e := (C85_history g ts vs shift z kin ns hl f0 calls m0 m1 hm0 hm1 h0 hall fit).1
  have e' := (C85_history g ts vs shift z kin ns hl f0' calls' m0 m1' hm0 hm1' h0' hall' fit).1
  have hlen : (vs ++ [false, false]).length = (ts ++ [shift, z]).length := by simp [hl]
  subst hm0
  obtain ⟨_, f, s, hs, hb, hr, _⟩ := make_built g _ _ kin ns hlen f0 h0
  obtain ⟨_, f', s', hs', hb', hr', _⟩ := make_built g _ _ kin ns hlen f0' h0'
  obtain ⟨_, hB, _⟩ := run_built hlen (setupCalcs_real _ _ _ hs) calls _ s hb hr (by rw [← hm1]; exact hall)
  obtain ⟨_, hB', _⟩ := run_built hlen (setupCalcs_real _ _ _ hs') calls' _ s' hb' hr'
    (by rw [← hm1']; exact hall')
  rw [← hm1] at hB
  rw [← hm1'] at hB'
  exact lnprob_same bounds fit (hB.params.varyEq.trans hB'.params.varyEq.symm)
    (hB.params.len.trans hB'.params.len.symm) (e.trans e'.symm)

/-! ## C84 -/

/-- Specification: the same galaxy and instrument with a light profile `k` times as bright. -/
def KinInput.scaleLight (k : ℝ) (g : KinInput r c) : KinInput r c where
  cfg := { g.cfg with int := fun r z => k * g.cfg.int r z }
  rows := g.rows
  cols := g.cols
  data := g.data
  nosky := g.nosky

/-- the same call with the brighter light profile -/
def KinCall.scaleLight (k : ℝ) : KinCall r c → KinCall r c
  | .make g fit => .make (g.scaleLight k) fit
  | .update fit => .update fit

/-- finite data, with a list of sky-free columns on which the errors are not zero -/
def GoodData (g : KinInput r c) : Prop :=
  ∃ (f e : Fin r → Fin c → ℝ) (cols : List (Fin c)), g.data.flux = finImg f ∧ g.data.err = finImg e ∧
    g.nosky = some cols ∧ ∀ i, ∀ j ∈ cols, e i j ≠ 0

/-- the galaxies of a call have good data -/
def KinCall.Good : KinCall r c → Prop
  | .make g _ => GoodData g
  | .update _ => True

/-- two objects that differ only in the brightness of their light profile -/
structure SameUpToLight (k : ℝ) (m m' : KinModelState r c) : Prop where
  params : m.params = m'.params
  kin : m.kin = m'.kin
  ns : m.noScale = false
  ns' : m'.noScale = false
  model : m.model = m'.model
  aper : (m.aper = none ∧ m'.aper = none) ∨
    ∃ g s, m.aper = some (g, s) ∧ m'.aper = some (g.scaleLight k, s.smul k) ∧ GoodData g

theorem scaled_image (k : ℝ) (hk : 0 < k) (f e : Fin r → Fin c → ℝ) (cols : List (Fin c))
    (h0 : ∀ i, ∀ j ∈ cols, e i j ≠ 0) (img : Option Arr2) :
    scaleModel (finImg f) (finImg e) (toImg r c (img.map (Arr2.smul k))) cols =
      scaleModel (finImg f) (finImg e) (toImg r c img) cols := by
  cases img with
  | none => rfl
  | some a =>
    by_cases h : a.n = r ∧ a.m = c
    · have e1 : toImg r c (some a) =
          finImg fun i j => a.val (Fin.cast h.1.symm i) (Fin.cast h.2.symm j) := by
        funext i j
        simp only [toImg, dif_pos h, finImg]
      have e2 : toImg r c ((some a).map (Arr2.smul k)) =
          finImg fun i j => k * a.val (Fin.cast h.1.symm i) (Fin.cast h.2.symm j) := by
        funext i j
        have h' : (Arr2.smul k a).n = r ∧ (Arr2.smul k a).m = c := h
        simp only [toImg, Option.map_some, dif_pos h', finImg]
        rfl
      rw [e1, e2]
      exact C10_amplitude_independent f e _ cols h0 (fun _ => k) (fun _ => hk.ne')
    · have e1 : toImg r c ((some a).map (Arr2.smul k)) = toImg r c (some a) := by
        funext i j
        have h' : ¬ ((Arr2.smul k a).n = r ∧ (Arr2.smul k a).m = c) := h
        simp only [toImg, Option.map_some, dif_neg h, dif_neg h']
      rw [e1]

theorem finish_light (k : ℝ) (hk : 0 < k) (g : KinInput r c) (hg : GoodData g) (img : Option Arr2)
    (m m' : KinModelState r c) (h : SameUpToLight k m m') :
    (finishModel m g img).2 = (finishModel m' (g.scaleLight k) (img.map (Arr2.smul k))).2 ∧
    SameUpToLight k (finishModel m g img).1 (finishModel m' (g.scaleLight k) (img.map (Arr2.smul k))).1 := by
  obtain ⟨f, e, cols, hf, he, hc, h0⟩ := hg
  unfold finishModel
  rw [if_neg (by rw [h.ns]; exact Bool.false_ne_true), if_neg (by rw [h.ns']; exact Bool.false_ne_true)]
  have hn : (g.scaleLight k).nosky = g.nosky := rfl
  have hd : (g.scaleLight k).data = g.data := rfl
  rw [hn, hd, hc]
  refine ⟨rfl, h.params, h.kin, h.ns, h.ns', ?_, h.aper⟩
  simp only
  rw [hf, he, scaled_image k hk f e cols h0 img]

theorem eval_light (k : ℝ) (hk : 0 < k) (g : KinInput r c) (hg : GoodData g) (s : AperState)
    (m m' : KinModelState r c) (h : SameUpToLight k m m') :
    (evalExisting m g s).2 = (evalExisting m' (g.scaleLight k) (s.smul k)).2 ∧
    SameUpToLight k (evalExisting m g s).1 (evalExisting m' (g.scaleLight k) (s.smul k)).1 := by
  unfold evalExisting updateModel
  have hcfg : (g.scaleLight k).aperCfg = g.aperCfg.smul k := rfl
  rw [hcfg, ← h.params, doModelCalcs_scale k hk]
  generalize doModelCalcs g.aperCfg s m.params.theta = R
  obtain ⟨s1, r1⟩ := R
  simp only
  have hrel : SameUpToLight k { m with kin := s1.kin, aper := some (g, s1) }
      { m' with params := m.params, kin := (s1.smul k).kin, aper := some (g.scaleLight k, s1.smul k) } :=
    ⟨rfl, rfl, h.ns, h.ns', h.model, Or.inr ⟨g, s1, rfl, rfl, hg⟩⟩
  cases r1 with
  | error e => exact ⟨rfl, hrel⟩
  | ok img => exact finish_light k hk g hg img _ _ hrel

theorem step_light (k : ℝ) (hk : 0 < k) (m m' : KinModelState r c) (h : SameUpToLight k m m')
    (call : KinCall r c) (hc : call.Good) :
    (m.step call).2 = (m'.step (call.scaleLight k)).2 ∧
    SameUpToLight k (m.step call).1 (m'.step (call.scaleLight k)).1 := by
  cases call with
  | make g fit =>
    simp only [KinModelState.step, KinCall.scaleLight]
    unfold KinModelState.make
    rw [← h.params]
    generalize m.params.update fit = u
    obtain ⟨p, e⟩ := u
    cases e with
    | some e => exact ⟨rfl, rfl, h.kin, h.ns, h.ns', h.model, h.aper⟩
    | none =>
      simp only
      rw [← h.kin]
      cases hu : m.kin.updateTheta p.theta with
      | error e => exact ⟨rfl, rfl, rfl, h.ns, h.ns', h.model, h.aper⟩
      | ok kk =>
        simp only
        rcases h.aper with ⟨ha, ha'⟩ | ⟨g0, s, ha, ha', hg0⟩
        · rw [ha, ha']
          simp only
          unfold buildModel
          have hcfg : (g.scaleLight k).aperCfg = g.aperCfg.smul k := rfl
          rw [hcfg, setupCalcs_scale]
          cases setupCalcs g.aperCfg p.theta with
          | error e => exact ⟨rfl, rfl, rfl, h.ns, h.ns', h.model, Or.inl ⟨rfl, rfl⟩⟩
          | ok f =>
            simp only [Except.map]
            have hst : (⟨f.smul k, kk, (g.aperCfg.smul k).wave, avgDiff (g.aperCfg.smul k).wave⟩ : AperState) =
              AperState.smul k ⟨f, kk, g.aperCfg.wave, avgDiff g.aperCfg.wave⟩ := rfl
            rw [hst, doModelCalcs_scale k hk]
            generalize doModelCalcs g.aperCfg ⟨f, kk, g.aperCfg.wave, avgDiff g.aperCfg.wave⟩ p.theta = R
            obtain ⟨s1, r1⟩ := R
            cases r1 with
            | error e => exact ⟨rfl, rfl, rfl, h.ns, h.ns', h.model, Or.inl ⟨rfl, rfl⟩⟩
            | ok img =>
              exact finish_light k hk g hc img _ _
                ⟨rfl, rfl, h.ns, h.ns', h.model, Or.inr ⟨g, s1, rfl, rfl, hc⟩⟩
        · rw [ha, ha']
          simp only
          exact eval_light k hk g0 hg0 { s with kin := kk } _ _
            ⟨rfl, rfl, h.ns, h.ns', h.model, Or.inr ⟨g0, s, rfl, rfl, hg0⟩⟩
  | update fit =>
    simp only [KinModelState.step, KinCall.scaleLight]
    unfold KinModelState.update
    rw [← h.params]
    generalize m.params.update fit = u
    obtain ⟨p, e⟩ := u
    cases e with
    | some e => exact ⟨rfl, rfl, h.kin, h.ns, h.ns', h.model, h.aper⟩
    | none =>
      simp only
      rcases h.aper with ⟨ha, ha'⟩ | ⟨g0, s, ha, ha', hg0⟩
      · rw [ha, ha']
        exact ⟨rfl, rfl, h.kin, h.ns, h.ns', h.model, Or.inl ⟨rfl, rfl⟩⟩
      · rw [ha, ha']
        simp only
        exact eval_light k hk g0 hg0 s _ _ ⟨rfl, h.kin, h.ns, h.ns', h.model, Or.inr ⟨g0, s, rfl, rfl, hg0⟩⟩

/-- **C84** The brightness of the light profile has no effect on a fit: for an object that scales its
model to the data, two series of calls that differ only by a positive factor on the light profile
give, call by call, the same exceptions, and leave the same parameters, image and likelihood. -/
theorem C84_light_irrelevant (k : ℝ) (hk : 0 < k) (theta : List ℝ) (vary : List Bool) (kin : KinProfile)
    (calls : List (KinCall r c)) (hgood : ∀ call ∈ calls, call.Good) (m0 : KinModelState r c)
    (hm0 : m0 = KinModelState.init theta vary kin false) :
    (m0.run calls).params = (m0.run (calls.map (KinCall.scaleLight k))).params ∧
    (m0.run calls).model = (m0.run (calls.map (KinCall.scaleLight k))).model ∧
    (m0.run calls).llike = (m0.run (calls.map (KinCall.scaleLight k))).llike ∧
    ∀ call, call.Good → ((m0.run calls).step call).2 =
      ((m0.run (calls.map (KinCall.scaleLight k))).step (call.scaleLight k)).2 := by
  have key : ∀ (calls : List (KinCall r c)) (m m' : KinModelState r c), SameUpToLight k m m' →
      (∀ call ∈ calls, call.Good) →
      SameUpToLight k (m.run calls) (m'.run (calls.map (KinCall.scaleLight k))) := by
    intro calls
    induction calls with
    | nil => exact fun _ _ h _ => h
    | cons call calls ih =>
      intro m m' h hg
      exact ih _ _ (step_light k hk m m' h call (hg call (by simp))).2 (fun x hx => hg x (by simp [hx]))
  have h := key calls m0 m0 (by subst hm0; exact ⟨rfl, rfl, rfl, rfl, rfl, Or.inl ⟨rfl, rfl⟩⟩) hgood
  refine ⟨h.params, h.model, ?_, fun call hc => (step_light k hk _ _ h call hc).1⟩
  unfold KinModelState.llike
  rw [← h.model]
  rcases h.aper with ⟨ha, ha'⟩ | ⟨g0, s, ha, ha', _⟩
  · rw [ha, ha']
  · rw [ha, ha']
    cases (m0.run calls).model <;> rfl

/-! ## C86 -/

/-- what no call changes: which parameters vary, how many parameters there are, and the parameter
numbers of the profiles -/
structure Keeps (sh : Option Nat × Option Nat) (vary : List Bool) (n : Nat) (m : KinModelState r c) : Prop where
  vary : m.params.vary = vary
  len : m.params.theta.length = n
  kin : m.kin.shape = sh
  aper : ∀ g s, m.aper = some (g, s) → s.kin.shape = sh
  nFree : m.params.nFree = m.params.vary.count true

theorem KinParams.update_keeps (p : KinParams ℝ) (fit : List ℝ) : (p.update fit).1.vary = p.vary ∧
    (p.update fit).1.theta.length = p.theta.length ∧ (p.update fit).1.nFree = p.nFree := by
  unfold KinParams.update
  split
  · exact ⟨rfl, rfl, rfl⟩
  · exact ⟨rfl, updateParameters_length _ _ _, rfl⟩

theorem Keeps.step {sh : Option Nat × Option Nat} {vary : List Bool} {n : Nat} {m : KinModelState r c}
    (h : Keeps sh vary n m) (call : KinCall r c) : Keeps sh vary n (m.step call).1 := by
  have hev : ∀ (p : KinParams ℝ) (k : KinProfile) (g : KinInput r c) (s : AperState)
      (ap : Option (KinInput r c × AperState)), p.vary = vary → p.theta.length = n →
      p.nFree = p.vary.count true → s.kin.shape = sh →
      Keeps sh vary n (evalExisting ⟨p, k, m.noScale, ap, m.model⟩ g s).1 := by
    intro p k g s ap h1 h2 h3 h4
    obtain ⟨e1, e2, e3, e4, _⟩ := evalExisting_keeps (r := r) (c := c) ⟨p, k, m.noScale, ap, m.model⟩ g s
    have hk := (doModelCalcs_keeps g.aperCfg s p.theta).2.1
    refine ⟨by rw [e1]; exact h1, by rw [e1]; exact h2, by rw [e4]; exact hk.trans h4, ?_, by rw [e1]; exact h3⟩
    intro g1 s1 hs
    rw [e3] at hs
    cases hs
    exact hk.trans h4
  cases call with
  | make g fit =>
    simp only [KinModelState.step]
    unfold KinModelState.make
    have hp := KinParams.update_keeps m.params fit
    revert hp
    generalize m.params.update fit = u
    obtain ⟨p, e⟩ := u
    rintro ⟨h1, h2, h3⟩
    have h1' := h1.trans h.vary
    have h2' := h2.trans h.len
    have h3' : p.nFree = p.vary.count true := by rw [h1]; exact h3.trans h.nFree
    cases e with
    | some e => exact ⟨h1', h2', h.kin, h.aper, h3'⟩
    | none =>
      simp only
      cases hu : m.kin.updateTheta p.theta with
      | error e => exact ⟨h1', h2', h.kin, h.aper, h3'⟩
      | ok k =>
        have hk := (updateTheta_shape _ _ _ hu).trans h.kin
        simp only
        cases hap : m.aper with
        | some gs =>
          obtain ⟨g0, s⟩ := gs
          exact hev p k g0 { s with kin := k } _ h1' h2' h3' hk
        | none =>
          simp only
          unfold buildModel
          cases setupCalcs g.aperCfg p.theta with
          | error e => exact ⟨h1', h2', hk, fun _ _ h => by simp at h, h3'⟩
          | ok f =>
            have hks := (doModelCalcs_keeps g.aperCfg ⟨f, k, g.aperCfg.wave, avgDiff g.aperCfg.wave⟩
              p.theta).2.1
            revert hks
            simp only
            generalize doModelCalcs g.aperCfg ⟨f, k, g.aperCfg.wave, avgDiff g.aperCfg.wave⟩ p.theta = R
            obtain ⟨s1, r1⟩ := R
            intro hks
            cases r1 with
            | error e => exact ⟨h1', h2', hks.trans hk, fun _ _ h => by simp at h, h3'⟩
            | ok img =>
              simp only
              have hf := finishModel_keeps (r := r) (c := c) ⟨p, s1.kin, m.noScale, some (g, s1), m.model⟩ g img
              refine ⟨by rw [hf.1]; exact h1', by rw [hf.1]; exact h2', by rw [hf.2.1]; exact hks.trans hk, ?_,
                by rw [hf.1]; exact h3'⟩
              intro g1 s2 hs
              rw [hf.2.2.2] at hs
              cases hs
              exact hks.trans hk
  | update fit =>
    simp only [KinModelState.step]
    unfold KinModelState.update
    have hp := KinParams.update_keeps m.params fit
    revert hp
    generalize m.params.update fit = u
    obtain ⟨p, e⟩ := u
    rintro ⟨h1, h2, h3⟩
    have h1' := h1.trans h.vary
    have h2' := h2.trans h.len
    have h3' : p.nFree = p.vary.count true := by rw [h1]; exact h3.trans h.nFree
    cases e with
    | some e => exact ⟨h1', h2', h.kin, h.aper, h3'⟩
    | none =>
      simp only
      cases hap : m.aper with
      | none => exact ⟨h1', h2', h.kin, fun _ _ hh => h.aper _ _ (hap.trans hh), h3'⟩
      | some gs =>
        obtain ⟨g0, s⟩ := gs
        exact hev p m.kin g0 s _ h1' h2' h3' (h.aper _ _ hap)

theorem Keeps.run {sh : Option Nat × Option Nat} {vary : List Bool} {n : Nat} :
    ∀ (calls : List (KinCall r c)) (m : KinModelState r c), Keeps sh vary n m → Keeps sh vary n (m.run calls) := by
  intro calls
  induction calls with
  | nil => exact fun _ h => h
  | cons call calls ih => exact fun m h => ih _ (h.step call)

/-- the evaluation of the aperture model does not read centre shift and redshift -/
theorem eval_flat (g : KinInput r c) (s : AperState) (hk : s.kin.shape = (some 2, some 1))
    (kin : KinProfile) (ns : Bool) (ap : Option (KinInput r c × AperState)) (mo : Option (Img r c ℝ))
    (vary : List Bool) (n : Nat) (va rt sig sh z sh' z' : ℝ) :
    (evalExisting ⟨⟨[va, rt, sig, sh, z], vary, n⟩, kin, ns, ap, mo⟩ g s).2 =
      (evalExisting ⟨⟨[va, rt, sig, sh', z'], vary, n⟩, kin, ns, ap, mo⟩ g s).2 ∧
    (evalExisting ⟨⟨[va, rt, sig, sh, z], vary, n⟩, kin, ns, ap, mo⟩ g s).1.model =
      (evalExisting ⟨⟨[va, rt, sig, sh', z'], vary, n⟩, kin, ns, ap, mo⟩ g s).1.model ∧
    (evalExisting ⟨⟨[va, rt, sig, sh, z], vary, n⟩, kin, ns, ap, mo⟩ g s).1.llike =
      (evalExisting ⟨⟨[va, rt, sig, sh', z'], vary, n⟩, kin, ns, ap, mo⟩ g s).1.llike := by
  have hcongr : ∀ th, s.kin.updateTheta th = KinProfile.updateTheta ⟨[], some ⟨[], 2⟩, some ⟨[], 1⟩⟩ th :=
    fun th => updateTheta_congr _ _ (by rw [hk]; rfl) th
  have hval : (updateModel g.aperCfg s [va, rt, sig, sh, z]).2 =
      (updateModel g.aperCfg s [va, rt, sig, sh', z']).2 := by
    unfold updateModel
    rw [doModelCalcs_eq, doModelCalcs_eq, hcongr, hcongr, fiducial_update, fiducial_update]
    simp only
    exact (calcsAfter_setTheta g.aperCfg
      { s with kin := ⟨[va, rt, sig, sh', z'], some ⟨[va, rt], 2⟩, some ⟨[sig], 1⟩⟩ } [va, rt, sig, sh, z])
  unfold evalExisting
  simp only
  revert hval
  generalize updateModel g.aperCfg s [va, rt, sig, sh, z] = R
  generalize updateModel g.aperCfg s [va, rt, sig, sh', z'] = R'
  obtain ⟨s1, r1⟩ := R
  obtain ⟨s2, r2⟩ := R'
  intro hval
  simp only at hval
  subst hval
  cases r1 with
  | error e => cases mo <;> exact ⟨rfl, rfl, rfl⟩
  | ok img =>
    simp only
    unfold finishModel KinModelState.llike
    simp only
    cases ns with
    | true => exact ⟨rfl, rfl, rfl⟩
    | false => cases g.nosky <;> exact ⟨rfl, rfl, rfl⟩

/-- **C86**, negation: when all five fiducial parameters are declared free, then after the model has been
built, in every state reached by any calls, image, exceptions and log-likelihood of a call do not depend
on the centre shift and redshift given: the likelihood is flat in both. -/
theorem C86_false (theta t v d : List ℝ) (ht : theta.length = 5) (ns : Bool) (calls : List (KinCall r c))
    (m : KinModelState r c)
    (hm : m = (KinModelState.init theta [true, true, true, true, true] ⟨t, some ⟨v, 2⟩, some ⟨d, 1⟩⟩ ns).run calls)
    (hap : m.aper ≠ none) (va rt sig sh z sh' z' : ℝ) :
    (m.lnlike [va, rt, sig, sh, z]).2 = (m.lnlike [va, rt, sig, sh', z']).2 ∧
    (m.update [va, rt, sig, sh, z]).1.model = (m.update [va, rt, sig, sh', z']).1.model := by
  have hK : Keeps (some 2, some 1) [true, true, true, true, true] 5 m := by
    rw [hm]
    exact Keeps.run calls _ ⟨rfl, ht, rfl, fun _ _ h => by simp [KinModelState.init] at h, rfl⟩
  obtain ⟨p, kin, mns, ap, mo⟩ := m
  clear hm
  obtain ⟨t', vary, n⟩ := p
  have h1 : vary = [true, true, true, true, true] := hK.vary
  have h2 : t'.length = 5 := hK.len
  have h3 : n = vary.count true := hK.nFree
  subst h1
  have hupd : ∀ a b, KinParams.update ⟨t', [true, true, true, true, true], n⟩ [va, rt, sig, a, b] =
      (⟨[va, rt, sig, a, b], [true, true, true, true, true], n⟩, none) := by
    intro a b
    rw [KinParams.update_ok _ _ h3 (by simp [h2]) (by simp)]
    obtain ⟨x1, x2, x3, x4, x5, rfl⟩ : ∃ x1 x2 x3 x4 x5, t' = [x1, x2, x3, x4, x5] := by
      match t', h2 with
      | [x1, x2, x3, x4, x5], _ => exact ⟨x1, x2, x3, x4, x5, rfl⟩
    rfl
  cases ap with
  | none => exact absurd rfl hap
  | some gs =>
    obtain ⟨g, s⟩ := gs
    have e := eval_flat g s (hK.aper _ _ rfl) kin mns (some (g, s)) mo [true, true, true, true, true] n
      va rt sig sh z sh' z'
    unfold KinModelState.lnlike KinModelState.update
    simp only [hupd]
    refine ⟨?_, e.2.1⟩
    revert e
    generalize evalExisting ⟨⟨[va, rt, sig, sh, z], [true, true, true, true, true], n⟩, kin, mns, some (g, s), mo⟩ g s = X
    generalize evalExisting ⟨⟨[va, rt, sig, sh', z'], [true, true, true, true, true], n⟩, kin, mns, some (g, s), mo⟩ g s = Y
    obtain ⟨a, ra⟩ := X
    obtain ⟨b, rb⟩ := Y
    rintro ⟨e1, e2, e3⟩
    simp only at e1 e3
    subst e1
    cases ra with
    | error e => rfl
    | ok u => exact e3

/-! ## A concrete object -/

/-- the single cell model with finite data and two sky-free columns -/
noncomputable def oneInput : KinInput 1 2 where
  cfg := oneCell [1, 2] false true 3
  rows := rfl
  cols := rfl
  data := finData (fun _ _ => 1) (fun _ _ => 1) (fun _ _ => 1) (fun _ _ => 1)
  nosky := some [0, 1]

theorem one_good : GoodData oneInput :=
  ⟨fun _ _ => 1, fun _ _ => 1, [0, 1], rfl, rfl, rfl, fun _ _ _ => one_ne_zero⟩

/-- a new object for it with the given varying flags -/
noncomputable def oneObj (theta : List ℝ) (vary : List Bool) (ns : Bool) : KinModelState 1 2 :=
  KinModelState.init theta vary ⟨[], some ⟨[], 2⟩, some ⟨[], 1⟩⟩ ns

theorem one_make_all (theta : List ℝ) (ht : theta.length = 5) (ns : Bool) (va rt sig z : ℝ)
    (hrt : rt ≠ 0) (hs : sig ≠ 0) (hz : 1 + z ≠ 0) :
    (oneObj theta [true, true, true, true, true] ns).make oneInput [va, rt, sig, 0, z] =
      finishModel ⟨⟨[va, rt, sig, 0, z], [true, true, true, true, true], 5⟩,
        ⟨[va, rt, sig, 0, z], some ⟨[va, rt], 2⟩, some ⟨[sig], 1⟩⟩, ns,
        some (oneInput, oneState [1, 2] false z [va, rt, sig, 0, z] [va, rt] [sig] [1, 2] (avgDiff [1, 2])), none⟩
        oneInput (some ⟨1, 2, fun _ w => cellSpec sig z (([1, 2] : List ℝ).get w)⟩) := by
  obtain ⟨x1, x2, x3, x4, x5, rfl⟩ : ∃ x1 x2 x3 x4 x5, theta = [x1, x2, x3, x4, x5] := by
    match theta, ht with
    | [x1, x2, x3, x4, x5], _ => exact ⟨x1, x2, x3, x4, x5, rfl⟩
  unfold KinModelState.make
  have hu : (oneObj [x1, x2, x3, x4, x5] [true, true, true, true, true] ns).params.update [va, rt, sig, 0, z] =
      (⟨[va, rt, sig, 0, z], [true, true, true, true, true], 5⟩, none) := rfl
  rw [hu]
  simp only [oneObj, KinModelState.init]
  rw [fiducial_update]
  simp only
  have hb := one_build [1, 2] true 3 [va, rt, sig, 0, z] [va, rt] [sig] va rt sig z hrt hs hz (by simp)
  rw [show oneInput.aperCfg = oneCell [1, 2] false true 3 from rfl, hb]
  rfl

theorem one_make_three (a1 a2 a3 z : ℝ) (ns : Bool) (va rt sig : ℝ)
    (hrt : rt ≠ 0) (hs : sig ≠ 0) (hz : 1 + z ≠ 0) :
    (oneObj [a1, a2, a3, 0, z] [true, true, true, false, false] ns).make oneInput [va, rt, sig] =
      finishModel ⟨⟨[va, rt, sig, 0, z], [true, true, true, false, false], 3⟩,
        ⟨[va, rt, sig, 0, z], some ⟨[va, rt], 2⟩, some ⟨[sig], 1⟩⟩, ns,
        some (oneInput, oneState [1, 2] false z [va, rt, sig, 0, z] [va, rt] [sig] [1, 2] (avgDiff [1, 2])), none⟩
        oneInput (some ⟨1, 2, fun _ w => cellSpec sig z (([1, 2] : List ℝ).get w)⟩) := by
  unfold KinModelState.make
  have hu : (oneObj [a1, a2, a3, 0, z] [true, true, true, false, false] ns).params.update [va, rt, sig] =
      (⟨[va, rt, sig, 0, z], [true, true, true, false, false], 3⟩, none) := rfl
  rw [hu]
  simp only [oneObj, KinModelState.init]
  rw [fiducial_update]
  simp only
  have hb := one_build [1, 2] true 3 [va, rt, sig, 0, z] [va, rt] [sig] va rt sig z hrt hs hz (by simp)
  rw [show oneInput.aperCfg = oneCell [1, 2] false true 3 from rfl, hb]
  rfl

theorem finish_one_ok (m : KinModelState 1 2) (img : Option Arr2) : (finishModel m oneInput img).2 = .ok () := by
  unfold finishModel
  simp only
  split <;> rfl

/-- the hypotheses of C85 are met: a fresh object evaluated at one place, moved to two others, and
compared with a first evaluation -/
example : SameOutcome
    ((((oneObj [0, 1, 1, 0, 0] [true, true, true, false, false] false).make oneInput [100, 1, 50]).1.run
      [.update [50, 2, 30], .update [1], .make oneInput [70, 1, 20]]).update [120, 1, 60])
    ((oneObj [0, 1, 1, 0, 0] [true, true, true, false, false] false).make oneInput [120, 1, 60]) ∧
    ((oneObj [0, 1, 1, 0, 0] [true, true, true, false, false] false).make oneInput [120, 1, 60]).2 = .ok () := by
  have h0 : ((oneObj [0, 1, 1, 0, 0] [true, true, true, false, false] false).make oneInput [100, 1, 50]).2 =
      .ok () := by
    rw [one_make_three 0 1 1 0 false 100 1 50 (by norm_num) (by norm_num) (by norm_num)]
    exact finish_one_ok _ _
  refine ⟨(C85_history oneInput [0, 1, 1] [true, true, true] 0 0 ⟨[], some ⟨[], 2⟩, some ⟨[], 1⟩⟩ false rfl
    [100, 1, 50] _ _ _ rfl rfl h0 (fun h => absurd h Bool.false_ne_true) [120, 1, 60]).1, ?_⟩
  rw [one_make_three 0 1 1 0 false 120 1 60 (by norm_num) (by norm_num) (by norm_num)]
  exact finish_one_ok _ _

/-- the hypotheses of C84 are met by calls that succeed -/
example : (∀ call ∈ [KinCall.make oneInput [100, 1, 50], .update [120, 1, 60]], call.Good) ∧
    ((oneObj [0, 1, 1, 0, 0] [true, true, true, false, false] false).step (.make oneInput [100, 1, 50])).2 =
      .ok () := by
  refine ⟨fun call hc => ?_, ?_⟩
  · simp only [List.mem_cons, List.not_mem_nil, or_false] at hc
    rcases hc with rfl | rfl
    · exact one_good
    · trivial
  · simp only [KinModelState.step]
    rw [one_make_three 0 1 1 0 false 100 1 50 (by norm_num) (by norm_num) (by norm_num)]
    exact finish_one_ok _ _

/-- C86: the image of a first evaluation does depend on the redshift, while the updated model keeps the
image of the redshift it was built with: free redshift, built at 0, evaluated at 1. -/
theorem C86_false_witness :
    (((oneObj [0, 1, 1, 0, 0] [true, true, true, true, true] true).make oneInput [0, 1, 1, 0, 0]).1.update
        [0, 1, 1, 0, 1]).1.model =
      ((oneObj [0, 1, 1, 0, 0] [true, true, true, true, true] true).make oneInput [0, 1, 1, 0, 0]).1.model ∧
    ((oneObj [0, 1, 1, 0, 0] [true, true, true, true, true] true).make oneInput [0, 1, 1, 0, 1]).1.model ≠
      ((oneObj [0, 1, 1, 0, 0] [true, true, true, true, true] true).make oneInput [0, 1, 1, 0, 0]).1.model := by
  have e0 := one_make_all [0, 1, 1, 0, 0] rfl true 0 1 1 0 one_ne_zero one_ne_zero (by norm_num)
  have e1 := one_make_all [0, 1, 1, 0, 0] rfl true 0 1 1 1 one_ne_zero one_ne_zero (by norm_num)
  constructor
  · rw [e0]
    unfold KinModelState.update
    simp only [finishModel, if_true]
    have hu : KinParams.update (⟨[0, 1, 1, 0, 0], [true, true, true, true, true], 5⟩ : KinParams ℝ)
      [0, 1, 1, 0, 1] = (⟨[0, 1, 1, 0, 1], [true, true, true, true, true], 5⟩, none) := rfl
    rw [hu]
    simp only
    unfold evalExisting updateModel
    have hc := one_calcs [1, 2] true 3 0 [0, 1, 1, 0, 0] [0, 1] [1] (avgDiff [1, 2]) 0 1 1 0 1 one_ne_zero
      one_ne_zero (by norm_num) (by simp)
    rw [show oneInput.aperCfg = oneCell [1, 2] false true 3 from rfl]
    simp only
    rw [hc]
    rfl
  · rw [e0, e1]
    simp only [finishModel, if_true]
    intro h
    have h1 := congrFun (congrFun (Option.some.inj h) 0) 0
    have h2 : (1 : Nat) = 1 ∧ (2 : Nat) = 2 := ⟨rfl, rfl⟩
    simp only [toImg, dif_pos h2] at h1
    exact cellSpec_redshift.ne (Fl.fin.inj h1)

/-! ## C87 -/

/-- **C87** (partial): the first successful `make_model` builds the model for the galaxy it is given.
Missing: later calls, see `C87_false`. -/
theorem C87_first_partial (m : KinModelState r c) (hm : m.aper = none) (g : KinInput r c) (fit : List ℝ)
    (h : (m.make g fit).2 = .ok ()) : ∃ s, (m.make g fit).1.aper = some (g, s) := by
  revert h
  unfold KinModelState.make
  generalize m.params.update fit = u
  obtain ⟨p, e⟩ := u
  cases e with
  | some e => exact fun h => by cases h
  | none =>
    simp only
    cases m.kin.updateTheta p.theta with
    | error e => exact fun h => by cases h
    | ok k =>
      simp only [hm]
      cases buildModel g.aperCfg k p.theta with
      | error e => exact fun h => by cases h
      | ok sr =>
        obtain ⟨s, r1⟩ := sr
        cases r1 with
        | error e => exact fun h => by cases h
        | ok img => exact fun _ => ⟨s, (finishModel_keeps _ _ _).2.2.2⟩

/-- **C87** (partial): on an object without a model, `make_model` uses a slit centred on the galaxy and gives an
image on the detector pixels: the offset and the output sampling known to the aperture model class have no effect.
Missing: later calls, see `C87_false`. -/
theorem C87_centred_partial (m : KinModelState r c) (hm : m.aper = none) (g : KinInput r c) (x : ℝ) (b : Bool)
    (fit : List ℝ) (g' : KinInput r c) (hg : g' = { g with cfg := { g.cfg with xc := x, rebinOutput := b } }) :
    (m.make g' fit).2 = (m.make g fit).2 ∧ (m.make g' fit).1.model = (m.make g fit).1.model ∧
    (m.make g' fit).1.params = (m.make g fit).1.params := by
  have hc : g'.aperCfg = g.aperCfg := by rw [hg]; rfl
  have hd : g'.data = g.data := by rw [hg]
  have hn : g'.nosky = g.nosky := by rw [hg]
  unfold KinModelState.make
  generalize m.params.update fit = u
  obtain ⟨p, e⟩ := u
  cases e with
  | some e => exact ⟨rfl, rfl, rfl⟩
  | none =>
    simp only
    cases m.kin.updateTheta p.theta with
    | error e => exact ⟨rfl, rfl, rfl⟩
    | ok k =>
      simp only [hm, hc]
      cases buildModel g.aperCfg k p.theta with
      | error e => exact ⟨rfl, rfl, rfl⟩
      | ok sr =>
        obtain ⟨s, r1⟩ := sr
        cases r1 with
        | error e => exact ⟨rfl, rfl, rfl⟩
        | ok img =>
          simp only [finishModel, hn, hd]
          split
          · exact ⟨rfl, rfl, rfl⟩
          · split <;> exact ⟨rfl, rfl, rfl⟩

/-- **C87**, negation: once the model is built, `make_model` ignores the galaxy and instrument it is
given, and image and likelihood stay those of the first galaxy. -/
theorem C87_false (m : KinModelState r c) (g0 : KinInput r c) (s : AperState) (hm : m.aper = some (g0, s))
    (g g' : KinInput r c) (fit : List ℝ) :
    m.make g fit = m.make g' fit ∧ ((m.make g fit).1.aper.map Prod.fst) = some g0 := by
  unfold KinModelState.make
  generalize m.params.update fit = u
  obtain ⟨p, e⟩ := u
  cases e with
  | some e => exact ⟨rfl, by simp [hm]⟩
  | none =>
    simp only
    cases m.kin.updateTheta p.theta with
    | error e => exact ⟨rfl, by simp [hm]⟩
    | ok k =>
      simp only [hm]
      refine ⟨trivial, ?_⟩
      rw [(evalExisting_keeps _ _ _).2.2.1]
      rfl

/-- **C87**, exact condition: after a successful `make_model(galaxy, instrument)` the object holds the model of that galaxy and
instrument exactly if it had no model before, or already one of the same galaxy and instrument. -/
theorem C87_exact (m : KinModelState r c) (g : KinInput r c) (fit : List ℝ) (h : (m.make g fit).2 = .ok ()) :
    (∃ s, (m.make g fit).1.aper = some (g, s)) ↔ m.aper = none ∨ ∃ s, m.aper = some (g, s) := by
  cases hm : m.aper with
  | none => exact ⟨fun _ => Or.inl rfl, fun _ => C87_first_partial m hm g fit h⟩
  | some gs =>
    obtain ⟨g0, s0⟩ := gs
    have h2 := (C87_false m g0 s0 hm g g fit).2
    obtain ⟨⟨g1, s1⟩, h3, h4⟩ := Option.map_eq_some_iff.1 h2
    simp only at h4
    subst h4
    rw [h3]
    constructor
    · rintro ⟨s, hs⟩
      cases hs
      exact Or.inr ⟨s0, rfl⟩
    · rintro (hh | ⟨s, hs⟩)
      · cases hh
      · cases hs
        exact ⟨s1, rfl⟩

/-- a built object -/
example : ∃ s, ((oneObj [0, 1, 1, 0, 0] [true, true, true, false, false] false).make oneInput
    [100, 1, 50]).1.aper = some (oneInput, s) := by
  refine C87_first_partial _ rfl _ _ ?_
  rw [one_make_three 0 1 1 0 false 100 1 50 (by norm_num) (by norm_num) (by norm_num)]
  exact finish_one_ok _ _

/-! ## C88 -/

/-- **C88** (partial): a call with a wrong number of parameters changes nothing at all.  Missing: calls that
fail later, see `C88_false`. -/
theorem C88_wrong_number_partial (m : KinModelState r c) (g : KinInput r c) (fit : List ℝ)
    (h : fit.length ≠ m.params.nFree) :
    m.make g fit = (m, .error .valueError) ∧ m.update fit = (m, .error .valueError) := by
  have : m.params.update fit = (m.params, some .valueError) := by
    unfold KinParams.update
    rw [if_pos h]
  constructor
  · unfold KinModelState.make
    rw [this]
  · unfold KinModelState.update
    rw [this]

/-- **C88**, negation: `update_model` before `make_model` raises AttributeError, but the parameters have
been overwritten. -/
theorem C88_false (theta : List ℝ) (vary : List Bool) (hl : vary.length = theta.length) (kin : KinProfile)
    (ns : Bool) (fit : List ℝ) (hf : fit.length = vary.count true) :
    ((KinModelState.init theta vary kin ns : KinModelState r c).update fit).2 = .error .attributeError ∧
    IsUnpack theta vary fit
      ((KinModelState.init theta vary kin ns : KinModelState r c).update fit).1.params.theta := by
  have hu := (ParamsFrom.init theta vary).update hl fit hf
  unfold KinModelState.update
  rw [show (KinModelState.init theta vary kin ns : KinModelState r c).params = KinParams.init theta vary from rfl,
    hu.1]
  exact ⟨rfl, updateParameters_length _ _ _, updateParameters_get _ _ _ hl hf⟩

/-- the fitting vector a call is given -/
def KinCall.fit : KinCall r c → List ℝ
  | .make _ fit => fit
  | .update fit => fit

theorem evalExisting_params (m : KinModelState r c) (g : KinInput r c) (s : AperState) :
    (evalExisting m g s).1.params = m.params := by
  unfold evalExisting
  simp only
  split
  · rfl
  · unfold finishModel
    simp only
    split
    · rfl
    · split <;> rfl

theorem step_params (m : KinModelState r c) (call : KinCall r c) :
    (m.step call).1.params = (m.params.update call.fit).1 := by
  cases call with
  | make g fit =>
    simp only [KinModelState.step, KinCall.fit]
    unfold KinModelState.make
    rcases hu : m.params.update fit with ⟨p, e⟩
    cases e with
    | some e => rfl
    | none =>
      simp only
      split
      · rfl
      · split
        · split
          · rfl
          · rfl
          · unfold finishModel
            simp only
            split
            · rfl
            · split <;> rfl
        · rw [evalExisting_params]
  | update fit =>
    simp only [KinModelState.step, KinCall.fit]
    unfold KinModelState.update
    rcases hu : m.params.update fit with ⟨p, e⟩
    cases e with
    | some e => rfl
    | none =>
      simp only
      split
      · rfl
      · rw [evalExisting_params]

theorem run_params {theta : List ℝ} {vary : List Bool} (hl : vary.length = theta.length) :
    ∀ (calls : List (KinCall r c)) (m : KinModelState r c), ParamsFrom theta vary m.params →
      ParamsFrom theta vary (m.run calls).params
  | [], _, h => h
  | call :: calls, m, h => by
      have h1 : ParamsFrom theta vary (m.step call).1.params := by
        rw [step_params]; exact h.update_any hl _
      exact run_params hl calls _ h1

/-- **C88**, exact: after any history, a call with a wrong number of parameters changes nothing, and every
other call stores the new parameters whether or not it then raises.  So the parameters survive a failing call
exactly if the number was wrong or the vector is the one already stored. -/
theorem C88_exact (theta : List ℝ) (vary : List Bool) (hl : vary.length = theta.length) (kin : KinProfile)
    (ns : Bool) (calls : List (KinCall r c)) (call : KinCall r c) (m : KinModelState r c)
    (hm : m = (KinModelState.init theta vary kin ns : KinModelState r c).run calls) :
    (call.fit.length ≠ vary.count true → m.step call = (m, .error .valueError)) ∧
    (call.fit.length = vary.count true → IsUnpack theta vary call.fit (m.step call).1.params.theta) ∧
    ((m.step call).1.params.theta = m.params.theta ↔
      call.fit.length ≠ vary.count true ∨ IsUnpack theta vary call.fit m.params.theta) := by
  have hp : ParamsFrom theta vary m.params := by
    rw [hm]; exact run_params hl calls _ (ParamsFrom.init theta vary)
  have hwrong : call.fit.length ≠ vary.count true → m.step call = (m, .error .valueError) := by
    intro h
    have := fun g => C88_wrong_number_partial m g call.fit (by rw [hp.nFree]; exact h)
    cases call with
    | make g fit => exact (this g).1
    | update fit =>
      have h0 : m.params.update fit = (m.params, some .valueError) := by
        unfold KinParams.update
        rw [if_pos (by rw [hp.nFree]; exact h)]
      show m.update fit = _
      unfold KinModelState.update
      rw [h0]
  have hright : call.fit.length = vary.count true →
      IsUnpack theta vary call.fit (m.step call).1.params.theta := by
    intro h
    rw [step_params, (hp.update hl call.fit h).1]
    exact ⟨updateParameters_length _ _ _, updateParameters_get _ _ _ hl h⟩
  refine ⟨hwrong, hright, fun h => ?_, ?_⟩
  · by_cases hc : call.fit.length = vary.count true
    · right; rw [← h]; exact hright hc
    · exact .inl hc
  · rintro (h | h)
    · rw [hwrong h]
    · by_cases hc : call.fit.length = vary.count true
      · have h1 := hright hc
        apply List.ext_getElem?
        intro i
        by_cases hi : i < theta.length
        · rw [h1.2 i hi, h.2 i hi]
        · rw [List.getElem?_eq_none (by rw [h1.1]; omega), List.getElem?_eq_none (by rw [h.1]; omega)]
      · rw [hwrong hc]

example : ((KinModelState.init [1, 2] [true, false] ⟨[], none, none⟩ false : KinModelState 1 1).update [5]).1.params.theta
    = [5, 2] := rfl

end Misfit
