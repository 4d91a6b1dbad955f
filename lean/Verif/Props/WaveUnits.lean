import Verif.Lemmas.WaveUnits
import Verif.Props.AngleUnits
import Verif.Props.Mirror

/-!
# C169: the unit of wavelengths has no effect on a fit

Wavelength grid and rest wavelengths may be given in micron, nm or Å.  Where lines are broadened the image is a density per
wavelength and is divided by the unit; the scaled image and the posterior do not change.
-/

namespace Misfit

/-! ## Specification -/

/-- `cfg'` describes the same observation as `cfg` with wavelengths in a unit in which numbers are `u` times as large. -/
structure AperCfg.InWaves (u : ℝ) (cfg cfg' : AperCfg) : Prop where
  kind : cfg.specType = .wave
  wave : cfg'.wave = cfg.wave.map (u * ·)
  restwave : cfg'.restwave = cfg.restwave.map (u * ·)
  same : { cfg' with wave := cfg.wave, restwave := cfg.restwave } = cfg

theorem AperCfg.InWaves.eq {u : ℝ} {cfg cfg' : AperCfg} (h : cfg.InWaves u cfg') : cfg' = cfg.wl u := by
  obtain ⟨n', w', rw', ra', m', si', pa', px', sl', psf', re', ma', int', ns', pad', xc', reb', st', av',
    ad', fa', fl', np'⟩ := cfg'
  obtain ⟨n, w, rw, ra, m, si, pa, px, sl, psf, re, ma, int, ns, pad, xc, reb, st, av,
    ad, fa, fl, np⟩ := cfg
  obtain ⟨h1, h2, h3, h4⟩ := h
  simp only at h1 h2 h3 h4
  cases h4
  subst h2 h3
  rfl

/-! ## Image -/

theorem buildModel_wl {u : ℝ} (hu : 0 < u) (cfg : AperCfg) (hst : cfg.specType = .wave) (kin : KinProfile)
    (theta : List ℝ) : ∃ k : AperState → ℝ, (∀ s, 0 < k s) ∧ buildModel (cfg.wl u) kin theta =
      (buildModel cfg kin theta).map fun p => (p.1.wl u, p.2.map (Option.map (Arr2.smul (k p.1)))) := by
  unfold buildModel
  rw [setupCalcs_wl hu cfg hst theta]
  cases setupCalcs cfg theta with
  | error e => exact ⟨fun _ => 1, fun _ => one_pos, rfl⟩
  | ok f =>
    refine ⟨fun _ => wlFactor u (usedSigma cfg ⟨f, kin, cfg.wave, avgDiff cfg.wave⟩ theta),
      fun _ => wlFactor_pos hu _, ?_⟩
    simp only [Except.map]
    have h1 : (⟨f.wl u, kin, (cfg.wl u).wave, avgDiff (cfg.wl u).wave⟩ : AperState) =
        AperState.wl u ⟨f, kin, cfg.wave, avgDiff cfg.wave⟩ := by
      show AperState.mk _ _ _ _ = AperState.mk _ _ _ _
      congr 1
      exact avgDiff_wl u cfg.wave
    rw [h1, doModelCalcs_wl hu cfg hst]
    rfl

theorem runUpdates_wl {u : ℝ} (hu : 0 < u) (cfg : AperCfg) (hst : cfg.specType = .wave) :
    ∀ (hist : List (List ℝ)) (s : AperState), runUpdates (cfg.wl u) (s.wl u) hist = (runUpdates cfg s hist).wl u
  | [], _ => rfl
  | t :: l, s => by
    have e1 : runUpdates (cfg.wl u) (s.wl u) (t :: l) =
      runUpdates (cfg.wl u) (doModelCalcs (cfg.wl u) (s.wl u) t).1 l := rfl
    have e2 : runUpdates cfg s (t :: l) = runUpdates cfg (doModelCalcs cfg s t).1 l := rfl
    rw [e1, e2, doModelCalcs_wl hu cfg hst]
    exact runUpdates_wl hu cfg hst l _

theorem buildModel_shape (cfg : AperCfg) (kin : KinProfile) (theta : List ℝ) (s : AperState)
    (r : Except PyErr (Option Arr2)) (h : buildModel cfg kin theta = .ok (s, r)) : s.kin.shape = kin.shape := by
  unfold buildModel at h
  cases hf : setupCalcs cfg theta with
  | error e => rw [hf] at h; cases h
  | ok f =>
    rw [hf] at h
    simp only [Except.ok.injEq] at h
    have := (doModelCalcs_keeps cfg ⟨f, kin, cfg.wave, avgDiff cfg.wave⟩ theta).2.1
    rwa [h] at this

theorem runUpdates_shape (cfg : AperCfg) : ∀ (hist : List (List ℝ)) (s : AperState),
    (runUpdates cfg s hist).kin.shape = s.kin.shape
  | [], _ => rfl
  | t :: l, s => by
    have e2 : runUpdates cfg s (t :: l) = runUpdates cfg (doModelCalcs cfg s t).1 l := rfl
    rw [e2, runUpdates_shape cfg l, (doModelCalcs_keeps cfg s t).2.1]

/-- an evaluation with non-zero dispersion uses a non-zero dispersion, unless it fails -/
theorem usedSigma_ne (cfg : AperCfg) (s : AperState) (hk : s.kin.shape = (some 2, some 1)) (va rt sig : ℝ)
    (rest : List ℝ) (hs : sig ≠ 0) : usedSigma cfg s (va :: rt :: sig :: rest) ≠ 0 ∨
      ∃ e, (doModelCalcs cfg s (va :: rt :: sig :: rest)).2 = .error e := by
  obtain ⟨f, ⟨t0, v, d⟩, w, dw⟩ := s
  rcases v with _ | ⟨vt, vn⟩
  · simp [KinProfile.shape] at hk
  rcases d with _ | ⟨dt, dn⟩
  · simp [KinProfile.shape] at hk
  simp only [KinProfile.shape, Option.map_some, Prod.mk.injEq, Option.some.injEq] at hk
  obtain ⟨rfl, rfl⟩ := hk
  unfold usedSigma doModelCalcs
  have hup : (⟨t0, some ⟨vt, 2⟩, some ⟨dt, 1⟩⟩ : KinProfile).updateTheta (va :: rt :: sig :: rest) =
      .ok ⟨va :: rt :: sig :: rest, some ⟨[va, rt], 2⟩, some ⟨[sig], 1⟩⟩ := rfl
  rw [hup]
  simp only
  obtain ⟨s1, hs1⟩ : ∃ s1, s1 = (⟨f, ⟨va :: rt :: sig :: rest, some ⟨[va, rt], 2⟩, some ⟨[sig], 1⟩⟩, w, dw⟩ :
    AperState) := ⟨_, rfl⟩
  rw [← hs1]
  have hkin : (if cfg.adaptive = true then checkUpsample cfg s1 else (s1, .ok ())).1.kin.disp = some ⟨[sig], 1⟩ := by
    split
    · rw [(checkUpsample_kin cfg s1).1, hs1]
    · rw [hs1]
  generalize (if cfg.adaptive = true then checkUpsample cfg s1 else (s1, .ok ())) = U at hkin
  cases hF : (applySigmaFloor cfg U.1).2 with
  | error e =>
    right
    cases hU : U.2 with
    | error e => exact ⟨e, rfl⟩
    | ok _ => exact ⟨e, by simp only [hF]⟩
  | ok sig' => exact Or.inl (applySigmaFloor_ne cfg U.1 ⟨[sig], 1⟩ sig sig' hkin rfl hs hF)

theorem image_wl {u : ℝ} (hu : 0 < u) (cfg : AperCfg) (hst : cfg.specType = .wave) (s : AperState)
    (hk : s.kin.shape = (some 2, some 1)) (va rt sig : ℝ) (rest : List ℝ) (hs : sig ≠ 0) :
    (doModelCalcs (cfg.wl u) (s.wl u) (va :: rt :: sig :: rest)).2 =
      (doModelCalcs cfg s (va :: rt :: sig :: rest)).2.map (Option.map (Arr2.smul u⁻¹)) := by
  rw [doModelCalcs_wl hu cfg hst]
  rcases usedSigma_ne cfg s hk va rt sig rest hs with h | ⟨e, h⟩
  · have : wlFactor u (usedSigma cfg s (va :: rt :: sig :: rest)) = u⁻¹ := if_pos (abs_pos.2 h)
    rw [this]
  · simp only [h]
    rfl

/-- **C169**: if all wavelengths (grid and rest wavelengths of the lines) are expressed in another unit (numbers `u > 0`
times as large), then the model can be built exactly when it could before, with the same exception otherwise; and
after any series of evaluations, each evaluation with non-zero dispersion gives the former image divided by `u`, the
same exception, or is non-finite as before. -/
theorem C169_image (u : ℝ) (hu : 0 < u) (cfg cfg' : AperCfg) (hc : cfg.InWaves u cfg') (kin : KinProfile)
    (hk : kin.shape = (some 2, some 1)) (theta0 : List ℝ) :
    (∀ e, buildModel cfg kin theta0 = .error e ↔ buildModel cfg' kin theta0 = .error e) ∧
    ∀ s0 r0 s0' r0', buildModel cfg kin theta0 = .ok (s0, r0) → buildModel cfg' kin theta0 = .ok (s0', r0') →
      ∀ hist va rt sig rest, sig ≠ 0 →
        (updateModel cfg' (runUpdates cfg' s0' hist) (va :: rt :: sig :: rest)).2 =
          (updateModel cfg (runUpdates cfg s0 hist) (va :: rt :: sig :: rest)).2.map
            (Option.map fun a => ⟨a.n, a.m, fun i j => a.val i j / u⟩) := by
  obtain ⟨k, _, hb⟩ := buildModel_wl hu cfg hc.kind kin theta0
  rw [hc.eq, hb]
  cases hb : buildModel cfg kin theta0 with
  | error e => exact ⟨fun _ => Iff.rfl, fun _ _ _ _ h => by cases h⟩
  | ok p =>
    obtain ⟨s, r⟩ := p
    simp only [Except.map]
    refine ⟨fun _ => ⟨fun h => (by cases h), fun h => (by cases h)⟩, ?_⟩
    intro s0 r0 s0' r0' h h' hist va rt sig rest hs
    cases h
    cases h'
    rw [runUpdates_wl hu cfg hc.kind]
    have hsh := (runUpdates_shape cfg hist s).trans ((buildModel_shape cfg kin theta0 s r hb).trans hk)
    unfold updateModel
    rw [image_wl hu cfg hc.kind _ hsh va rt sig rest hs]
    have e : Arr2.smul u⁻¹ = fun a : Arr2 => ⟨a.n, a.m, fun i j => a.val i j / u⟩ := by
      funext a
      show Arr2.mk _ _ _ = Arr2.mk _ _ _
      simp only [div_eq_inv_mul]
    rw [e]
    rfl

/-- H-alpha and [NII] at a redshift of one, in micron and in Å -/
example : ∃ cfg cfg' : AperCfg, cfg.InWaves 10000 cfg' ∧ cfg.wave = [1.312, 1.313] ∧ cfg'.wave = [13120, 13130] ∧
    cfg.restwave = [0.65628, 0.65834] ∧ cfg'.restwave = [6562.8, 6583.4] ∧ cfg.adaptive = true := by
  refine ⟨{ oneCell [1.312, 1.313] true true 3 with restwave := [0.65628, 0.65834] },
    { oneCell [13120, 13130] true true 3 with restwave := [6562.8, 6583.4] }, ⟨rfl, ?_, ?_, rfl⟩, rfl, rfl, rfl, rfl, rfl⟩
  · norm_num [oneCell]
  · norm_num

/-! ## Scaled image and posterior -/

section
variable {r c : Nat}

/-- the same galaxy and instrument in another unit of wavelengths -/
def KinInput.InWaves (u : ℝ) (g g' : KinInput r c) : Prop :=
  g.cfg.InWaves u g'.cfg ∧ g'.data = g.data ∧ g'.nosky = g.nosky

/-- the same call in another unit of wavelengths -/
def KinCall.InWaves (u : ℝ) : KinCall r c → KinCall r c → Prop
  | .make g fit, .make g' fit' => g.InWaves u g' ∧ g.HasCols ∧ fit' = fit
  | .update fit, .update fit' => fit' = fit
  | _, _ => False

noncomputable def KinInput.wl (u : ℝ) (g : KinInput r c) : KinInput r c where
  cfg := g.cfg.wl u
  rows := g.rows
  cols := (List.length_map _).trans g.cols
  data := g.data
  nosky := g.nosky

theorem KinInput.InWaves.eq {u : ℝ} {g g' : KinInput r c} (h : g.InWaves u g') : g' = g.wl u := by
  obtain ⟨cfg', hr', hc', d', n'⟩ := g'
  obtain ⟨h1, h2, h3⟩ := h
  have h1' := h1.eq
  simp only at h1' h2 h3
  subst h1' h2 h3
  rfl

theorem aperCfg_wl (u : ℝ) (g : KinInput r c) : (g.wl u).aperCfg = g.aperCfg.wl u := rfl

/-- an input on which the unit has no effect -/
def KinInput.WaveCols (g : KinInput r c) : Prop := g.HasCols ∧ g.cfg.specType = .wave

/-- two objects that differ only in the unit of wavelengths -/
structure SameUpToWaves (u : ℝ) (m m' : KinModelState r c) : Prop where
  params : m'.params = m.params
  kin : m'.kin = m.kin
  ns : m.noScale = false
  ns' : m'.noScale = false
  model : m'.model = m.model
  aper : m'.aper = m.aper.map fun p => (p.1.wl u, p.2.wl u)
  on : ∀ g s, m.aper = some (g, s) → g.WaveCols

theorem finish_waves {u k : ℝ} (hk : 0 < k) (g : KinInput r c) (hg : g.HasCols) (img : Option Arr2)
    {m m' : KinModelState r c} (h : SameUpToWaves u m m') :
    (finishModel m' (g.wl u) (img.map (Arr2.smul k))).2 = (finishModel m g img).2 ∧
    SameUpToWaves u (finishModel m g img).1 (finishModel m' (g.wl u) (img.map (Arr2.smul k))).1 := by
  unfold finishModel
  rw [if_neg (by rw [h.ns']; exact Bool.false_ne_true), if_neg (by rw [h.ns]; exact Bool.false_ne_true)]
  have hn : (g.wl u).nosky = g.nosky := rfl
  rw [hn]
  cases hc : g.nosky with
  | none => exact absurd hc hg
  | some cols =>
    refine ⟨rfl, h.params, h.kin, h.ns, h.ns', ?_, h.aper, h.on⟩
    have e := scaleModel_light hk g.data.flux g.data.err (toImg r c img) cols
    rw [inUnits_eq hk, ← toImg_smul] at e
    exact congrArg some e

theorem eval_waves {u : ℝ} (hu : 0 < u) (g : KinInput r c) (hg : g.WaveCols) (s : AperState)
    {m m' : KinModelState r c} (h : SameUpToWaves u m m') :
    (evalExisting m' (g.wl u) (s.wl u)).2 = (evalExisting m g s).2 ∧
    SameUpToWaves u (evalExisting m g s).1 (evalExisting m' (g.wl u) (s.wl u)).1 := by
  have hth : m'.params.theta = m.params.theta := by rw [h.params]
  unfold evalExisting updateModel
  rw [aperCfg_wl, hth, doModelCalcs_wl hu g.aperCfg hg.2 s]
  have hk := wlFactor_pos hu (usedSigma g.aperCfg s m.params.theta)
  generalize wlFactor u (usedSigma g.aperCfg s m.params.theta) = k at hk
  generalize doModelCalcs g.aperCfg s m.params.theta = R
  obtain ⟨s1, r1⟩ := R
  have hrel : SameUpToWaves u { m with kin := s1.kin, aper := some (g, s1) }
      { m' with kin := (s1.wl u).kin, aper := some (g.wl u, s1.wl u) } :=
    ⟨h.params, rfl, h.ns, h.ns', h.model, rfl, fun g' s' he => by cases he; exact hg⟩
  simp only
  cases r1 with
  | error e => exact ⟨rfl, hrel⟩
  | ok img => exact finish_waves hk g hg.1 img hrel

theorem step_waves {u : ℝ} (hu : 0 < u) {m m' : KinModelState r c} (h : SameUpToWaves u m m')
    (call call' : KinCall r c) (hc : call.InWaves u call') :
    (m'.step call').2 = (m.step call).2 ∧ SameUpToWaves u (m.step call).1 (m'.step call').1 := by
  cases call with
  | make g fit =>
    cases call' with
    | update _ => exact hc.elim
    | make g' fit' =>
      obtain ⟨hg, hcols, rfl⟩ := hc
      have hw : g.WaveCols := ⟨hcols, hg.1.kind⟩
      obtain rfl := hg.eq
      simp only [KinModelState.step]
      unfold KinModelState.make
      rw [h.params]
      generalize m.params.update fit' = p
      obtain ⟨p, e⟩ := p
      cases e with
      | some e => exact ⟨rfl, rfl, h.kin, h.ns, h.ns', h.model, h.aper, h.on⟩
      | none =>
        simp only
        have hkk : m'.kin.updateTheta p.theta = m.kin.updateTheta p.theta := by rw [h.kin]
        rw [hkk]
        cases hk : m.kin.updateTheta p.theta with
        | error e => exact ⟨rfl, rfl, h.kin, h.ns, h.ns', h.model, h.aper, h.on⟩
        | ok k =>
          simp only
          rw [h.aper]
          cases ha : m.aper with
          | none =>
            simp only [Option.map_none]
            obtain ⟨f, hf, hb⟩ := buildModel_wl hu g.aperCfg hw.2 k p.theta
            rw [aperCfg_wl, hb]
            cases hbb : buildModel g.aperCfg k p.theta with
            | error e => exact ⟨rfl, rfl, rfl, h.ns, h.ns', h.model, rfl, fun _ _ he => by cases he⟩
            | ok sr =>
              obtain ⟨s1, r1⟩ := sr
              cases r1 with
              | error e => exact ⟨rfl, rfl, rfl, h.ns, h.ns', h.model, rfl, fun _ _ he => by cases he⟩
              | ok img =>
                exact finish_waves (hf s1) g hcols img ⟨rfl, rfl, h.ns, h.ns', h.model, rfl,
                  fun _ _ he => by cases he; exact hw⟩
          | some q =>
            obtain ⟨g0, s⟩ := q
            have ho := h.on g0 s ha
            exact eval_waves hu g0 ho { s with kin := k }
              (m := { m with params := p, kin := k, aper := some (g0, s) })
              (m' := { m' with params := p, kin := k, aper := some (g0.wl u, s.wl u) })
              ⟨rfl, rfl, h.ns, h.ns', h.model, rfl, fun _ _ he => by cases he; exact ho⟩
  | update fit =>
    cases call' with
    | make _ _ => exact hc.elim
    | update fit' =>
      obtain rfl : fit' = fit := hc
      simp only [KinModelState.step]
      unfold KinModelState.update
      rw [h.params]
      generalize m.params.update fit' = p
      obtain ⟨p, e⟩ := p
      cases e with
      | some e => exact ⟨rfl, rfl, h.kin, h.ns, h.ns', h.model, h.aper, h.on⟩
      | none =>
        simp only
        rw [h.aper]
        cases ha : m.aper with
        | none => exact ⟨rfl, rfl, h.kin, h.ns, h.ns', h.model, rfl, fun _ _ he => by cases he⟩
        | some q =>
          obtain ⟨g0, s⟩ := q
          have ho := h.on g0 s ha
          exact eval_waves hu g0 ho s
            (m := { m with params := p, aper := some (g0, s) })
            (m' := { m' with params := p, aper := some (g0.wl u, s.wl u) })
            ⟨rfl, h.kin, h.ns, h.ns', h.model, rfl, fun _ _ he => by cases he; exact ho⟩

theorem run_waves {u : ℝ} (hu : 0 < u) :
    ∀ (calls calls' : List (KinCall r c)) {m m' : KinModelState r c}, SameUpToWaves u m m' →
    List.Forall₂ (KinCall.InWaves u) calls calls' → SameUpToWaves u (m.run calls) (m'.run calls')
  | [], [], _, _, h, _ => h
  | [], _ :: _, _, _, _, hc => by cases hc
  | _ :: _, [], _, _, _, hc => by cases hc
  | call :: calls, call' :: calls', _, _, h, hc => by
      obtain ⟨h1, h2⟩ := List.forall₂_cons.1 hc
      exact run_waves hu calls calls' (step_waves hu h call call' h1).2 h2

theorem init_waves {u : ℝ} (theta : List ℝ) (vary : List Bool) (kin : KinProfile) : SameUpToWaves u
      (KinModelState.init theta vary kin false : KinModelState r c) (KinModelState.init theta vary kin false) :=
  ⟨rfl, rfl, rfl, rfl, rfl, rfl, fun _ _ he => by cases he⟩

theorem llike_waves {u : ℝ} {m m' : KinModelState r c} (h : SameUpToWaves u m m') : m'.llike = m.llike := by
  unfold KinModelState.llike
  rw [h.aper, h.model]
  cases m.aper with
  | none => rfl
  | some q => cases m.model <;> rfl

/-- **C169**: two fits of the same data whose settings differ only in the unit of wavelengths give, call by call, the same
exceptions, the same parameters, the same scaled image and the same likelihood. -/
theorem C169_object (u : ℝ) (hu : 0 < u) (theta : List ℝ) (vary : List Bool) (kin : KinProfile)
    (calls calls' : List (KinCall r c)) (hcalls : List.Forall₂ (KinCall.InWaves u) calls calls')
    (m0 : KinModelState r c) (hm0 : m0 = KinModelState.init theta vary kin false) :
    (m0.run calls').params = (m0.run calls).params ∧ (m0.run calls').model = (m0.run calls).model ∧
    (m0.run calls').llike = (m0.run calls).llike ∧
    ∀ call call', call.InWaves u call' → ((m0.run calls').step call').2 = ((m0.run calls).step call).2 := by
  subst hm0
  have h := run_waves hu calls calls' (init_waves (r := r) (c := c) theta vary kin) hcalls
  exact ⟨h.params, h.model, llike_waves h, fun call call' hc => (step_waves hu h call call' hc).1⟩

/-- **C169**: after any series of calls, the log-posterior is the same number in every unit of wavelengths. -/
theorem C169_posterior (u : ℝ) (hu : 0 < u) (theta : List ℝ) (vary : List Bool) (kin : KinProfile)
    (calls calls' : List (KinCall r c)) (hcalls : List.Forall₂ (KinCall.InWaves u) calls calls')
    (m0 : KinModelState r c) (hm0 : m0 = KinModelState.init theta vary kin false)
    (bounds : List (Option (Fl ℝ × Fl ℝ))) (fit : List ℝ) :
    ((m0.run calls').lnprob bounds fit).2 = ((m0.run calls).lnprob bounds fit).2 := by
  subst hm0
  have h := run_waves hu calls calls' (init_waves (r := r) (c := c) theta vary kin) hcalls
  generalize (KinModelState.init theta vary kin false : KinModelState r c).run calls' = m' at h
  generalize (KinModelState.init theta vary kin false : KinModelState r c).run calls = m at h
  have hlike : ∀ fit, (m'.lnlike fit).2 = (m.lnlike fit).2 := by
    intro fit
    have hs := step_waves hu h (.update fit) (.update fit) rfl
    simp only [KinModelState.step] at hs
    unfold KinModelState.lnlike
    generalize m'.update fit = R' at hs
    generalize m.update fit = R at hs
    obtain ⟨n', r'⟩ := R'
    obtain ⟨n, r1⟩ := R
    obtain ⟨hr, hn⟩ := hs
    simp only at hr hn
    subst hr
    cases r' with
    | error e => rfl
    | ok _ =>
      simp only
      rw [llike_waves hn]
  unfold KinModelState.lnprob Misfit.lnprob
  rw [h.params]
  cases logPrior (m.params.theta.map Fl.fin) m.params.vary bounds (fit.map Fl.fin) with
  | error e => rfl
  | ok pr =>
    simp only
    split
    · have hl := hlike ((fit.map Fl.fin).map Fl.finVal)
      generalize m'.lnlike ((fit.map Fl.fin).map Fl.finVal) = R' at hl
      generalize m.lnlike ((fit.map Fl.fin).map Fl.finVal) = R at hl
      obtain ⟨n', r'⟩ := R'
      obtain ⟨n, r1⟩ := R
      simp only at hl
      subst hl
      cases r' <;> rfl
    · rfl

/-- a series of calls in two units, the first of which succeeds -/
example : List.Forall₂ (KinCall.InWaves 2)
      [KinCall.make oneInput [100, 1, 50], .update [120, 1, 60]]
      [KinCall.make (oneInput.wl 2) [100, 1, 50], .update [120, 1, 60]] ∧ (oneInput.wl 2).cfg.wave ≠ oneInput.cfg.wave ∧
    ((oneObj [0, 1, 1, 0, 0] [true, true, true, false, false] false).step (.make oneInput [100, 1, 50])).2 =
      .ok () := by
  refine ⟨.cons ⟨⟨⟨rfl, rfl, rfl, rfl⟩, rfl, rfl⟩, ?_, rfl⟩ (.cons rfl .nil), ?_, ?_⟩
  · simp [KinInput.HasCols, oneInput]
  · simp [KinInput.wl, AperCfg.wl, oneInput, oneCell]
  · simp only [KinModelState.step]
    rw [one_make_three 0 1 1 0 false 100 1 50 (by norm_num) (by norm_num) (by norm_num)]
    exact finish_one_ok _ _

end

end Misfit
