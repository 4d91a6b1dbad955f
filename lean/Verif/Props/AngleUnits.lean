import Verif.Lemmas.AngleUnits
import Verif.Props.Units

/-!
# C168: the unit of angles has no effect on a fit

Pixel scale, slit width, FWHM and dither separation of the PSF, the effective radius inside the intensity profile and the
turnover radius of the rotation curve are angles.  Expressing all of them in another unit (arcsec, mas, pixels)
multiplies the image by the area of the unit, and changes neither the scaled image nor the posterior.
-/

namespace Misfit

/-! ## Specification -/

/-- `cfg'` describes the same observation as `cfg` with all angles in a unit in which numbers are `u` times as large. -/
structure AperCfg.InAngles (u : ℝ) (cfg cfg' : AperCfg) : Prop where
  pixscale : cfg'.pixscale = u * cfg.pixscale
  slit : cfg'.slit = u * cfg.slit
  xc : cfg'.xc = u * cfg.xc
  kind : cfg'.psf.kind = cfg.psf.kind
  fwhm : cfg'.psf.fwhm = u * cfg.psf.fwhm
  beta : cfg'.psf.beta = cfg.psf.beta
  dither : cfg'.psf.dither = cfg.psf.dither.map (u * ·)
  int : ∀ r z, cfg'.int (u * r) (u * z) = cfg.int r z
  same : { cfg' with pixscale := cfg.pixscale, slit := cfg.slit, xc := cfg.xc, psf := cfg.psf, int := cfg.int } = cfg

/-- the parameters `V_a`, `r_t`, …: `r_t` is an angle -/
def thetaInAngles (u : ℝ) (theta : List ℝ) : List ℝ := theta.modify 1 (u * ·)

theorem thetaInAngles_eq (u : ℝ) (theta : List ℝ) : thetaInAngles u theta = zoomTheta u theta := by
  rcases theta with _ | ⟨a, _ | ⟨b, t⟩⟩ <;> rfl

theorem AperCfg.InAngles.eq {u : ℝ} (hu : 0 < u) {cfg cfg' : AperCfg} (h : cfg.InAngles u cfg') : cfg' = cfg.zoom u := by
  obtain ⟨n', w', rw', ra', m', si', pa', px', sl', ⟨pk', pf', pb', pd'⟩, re', ma', int', ns', pad', xc', reb', st', av',
    ad', fa', fl', np'⟩ := cfg'
  obtain ⟨n, w, rw, ra, m, si, pa, px, sl, ⟨pk, pf, pb, pd⟩, re, ma, int, ns, pad, xc, reb, st, av,
    ad, fa, fl, np⟩ := cfg
  obtain ⟨h1, h2, h3, h4, h5, h6, h7, h8, h9⟩ := h
  simp only at h1 h2 h3 h4 h5 h6 h7 h8 h9
  cases h9
  subst h1 h2 h3 h4 h5 h6 h7
  unfold AperCfg.zoom PSF.zoom
  simp only [AperCfg.mk.injEq, true_and, and_true]
  funext r z
  have := h8 (r / u) (z / u)
  rwa [mul_div_cancel₀ _ hu.ne', mul_div_cancel₀ _ hu.ne'] at this

/-- the intensity profile of the code depends on angles through their ratio to the effective radius only -/
theorem intensity_angles {u : ℝ} (hu : 0 < u) (scale n re q0 r z : ℝ) :
    intensity scale n (u * re) q0 (u * r) (u * z) = intensity scale n re q0 r z := by
  unfold intensity intSersic intExpZ
  simp only
  rw [mul_div_mul_left _ _ hu.ne', abs_mul, abs_of_pos hu, mul_div_assoc u re, mul_left_comm q0 u, ← mul_neg,
    mul_div_mul_left _ _ hu.ne']

/-! ## Image -/

theorem shape_twoPar {k : KinProfile} (h : k.shape = (some 2, some 1)) : k.TwoPar := by
  obtain ⟨t, v, d⟩ := k
  rcases v with _ | ⟨vt, vn⟩
  · simp [KinProfile.shape] at h
  · simp only [KinProfile.shape, Option.map_some, Prod.mk.injEq, Option.some.injEq] at h
    exact ⟨vt, by rw [h.1]⟩

theorem doModelCalcs_twoPar (cfg : AperCfg) (s : AperState) (hs : s.kin.TwoPar) (theta : List ℝ) :
    (doModelCalcs cfg s theta).1.kin.TwoPar := by
  have h := (doModelCalcs_keeps cfg s theta).2.1
  generalize (doModelCalcs cfg s theta).1.kin = k at h
  obtain ⟨t, ht⟩ := hs
  obtain ⟨t', v, d⟩ := k
  simp only [KinProfile.shape, ht, Option.map_some, Prod.mk.injEq] at h
  rcases v with _ | ⟨vt, vn⟩
  · simp at h
  · simp only [Option.map_some, Option.some.injEq] at h
    exact ⟨vt, by rw [h.1]⟩

theorem updateTheta_forget (u : ℝ) (k : KinProfile) (hk : k.TwoPar) (theta : List ℝ) :
    (k.zoom u).updateTheta theta = k.updateTheta theta := by
  obtain ⟨t0, v, d⟩ := k
  obtain ⟨t, ht⟩ := hk
  simp only at ht
  subst ht
  rcases d with _ | ⟨dt, dn⟩ <;> rfl

theorem updateTheta_two_ok (k : KinProfile) (hk : k.TwoPar) (theta : List ℝ) : ∃ k', k.updateTheta theta = .ok k' := by
  obtain ⟨t0, v, d⟩ := k
  obtain ⟨t, ht⟩ := hk
  simp only at ht
  subst ht
  rcases d with _ | ⟨dt, dn⟩ <;> exact ⟨_, rfl⟩

theorem doModelCalcs_forget (u : ℝ) (cfg : AperCfg) (s : AperState) (hs : s.kin.TwoPar) (theta : List ℝ) :
    doModelCalcs cfg { s with kin := s.kin.zoom u } theta = doModelCalcs cfg s theta := by
  obtain ⟨k, hk⟩ := updateTheta_two_ok s.kin hs theta
  unfold doModelCalcs
  simp only [updateTheta_forget u s.kin hs theta, hk]

theorem buildModel_zoom {u : ℝ} (hu : 0 < u) (cfg : AperCfg) (kin : KinProfile) (hk : kin.TwoPar) (theta : List ℝ)
    (h4 : 4 ≤ theta.length) : buildModel (cfg.zoom u) kin (zoomTheta u theta) =
      (buildModel cfg kin theta).map fun p => (p.1.zoom u, p.2.map (Option.map (Arr2.smul (u * u)))) := by
  unfold buildModel
  rw [setupCalcs_zoom hu cfg theta h4]
  cases setupCalcs cfg theta with
  | error e => rfl
  | ok f =>
    simp only [Except.map]
    have h1 := doModelCalcs_forget u (cfg.zoom u) ⟨f.zoom u, kin, cfg.wave, avgDiff cfg.wave⟩ hk (zoomTheta u theta)
    have h2 := doModelCalcs_zoom hu cfg ⟨f, kin, cfg.wave, avgDiff cfg.wave⟩ hk theta
    exact congrArg Except.ok (h1.symm.trans h2)

/-- **C168**: if all angles of galaxy and instrument are expressed in another unit (numbers `u > 0` times as large), then
the model can be built exactly when it could before, with the same exception otherwise; and after any series of
evaluations each evaluation gives the former image times `u²`, the same exception, or is non-finite as before. -/
theorem C168_image (u : ℝ) (hu : 0 < u) (cfg cfg' : AperCfg) (hc : cfg.InAngles u cfg') (kin : KinProfile)
    (hk : kin.shape = (some 2, some 1)) (theta0 : List ℝ) (h4 : 4 ≤ theta0.length) :
    (∀ e, buildModel cfg kin theta0 = .error e ↔ buildModel cfg' kin (thetaInAngles u theta0) = .error e) ∧
    ∀ s0 r0 s0' r0', buildModel cfg kin theta0 = .ok (s0, r0) →
      buildModel cfg' kin (thetaInAngles u theta0) = .ok (s0', r0') →
      r0' = r0.map (Option.map fun a => ⟨a.n, a.m, fun i j => u * u * a.val i j⟩) ∧
      ∀ hist theta, (updateModel cfg' (runUpdates cfg' s0' (hist.map (thetaInAngles u))) (thetaInAngles u theta)).2 =
        (updateModel cfg (runUpdates cfg s0 hist) theta).2.map
          (Option.map fun a => ⟨a.n, a.m, fun i j => u * u * a.val i j⟩) := by
  rw [hc.eq hu, thetaInAngles_eq, buildModel_zoom hu cfg kin (shape_twoPar hk) theta0 h4]
  have htw : ∀ s0 r0, buildModel cfg kin theta0 = .ok (s0, r0) → s0.kin.TwoPar := by
    intro s0 r0 h
    unfold buildModel at h
    cases hf : setupCalcs cfg theta0 with
    | error e => rw [hf] at h; cases h
    | ok f =>
      rw [hf] at h
      simp only [Except.ok.injEq] at h
      have := doModelCalcs_twoPar cfg ⟨f, kin, cfg.wave, avgDiff cfg.wave⟩ (shape_twoPar hk) theta0
      rwa [h] at this
  cases hb : buildModel cfg kin theta0 with
  | error e => exact ⟨fun _ => Iff.rfl, fun _ _ _ _ h => by cases h⟩
  | ok p =>
    obtain ⟨s, r⟩ := p
    simp only [Except.map]
    refine ⟨fun _ => ⟨fun h => (by cases h), fun h => (by cases h)⟩, ?_⟩
    intro s0 r0 s0' r0' h h'
    have h2 := htw s r hb
    cases h
    cases h'
    refine ⟨rfl, fun hist theta => ?_⟩
    have hrun : ∀ (hist : List (List ℝ)) (s : AperState), s.kin.TwoPar →
        runUpdates (cfg.zoom u) (s.zoom u) (hist.map (thetaInAngles u)) = (runUpdates cfg s hist).zoom u ∧
        (runUpdates cfg s hist).kin.TwoPar := by
      intro hist
      induction hist with
      | nil => exact fun s hs => ⟨rfl, hs⟩
      | cons t l ih =>
        intro s hs
        have e1 : runUpdates (cfg.zoom u) (s.zoom u) ((t :: l).map (thetaInAngles u)) =
          runUpdates (cfg.zoom u) (doModelCalcs (cfg.zoom u) (s.zoom u) (thetaInAngles u t)).1
            (l.map (thetaInAngles u)) := rfl
        have e2 : runUpdates cfg s (t :: l) = runUpdates cfg (doModelCalcs cfg s t).1 l := rfl
        rw [e1, e2, thetaInAngles_eq, doModelCalcs_zoom hu cfg s hs t]
        exact ih _ (doModelCalcs_twoPar cfg s hs t)
    obtain ⟨e, ht⟩ := hrun hist s h2
    rw [e, thetaInAngles_eq]
    unfold updateModel
    rw [doModelCalcs_zoom hu cfg _ ht]
    rfl

/-- a galaxy with the light profile of the code and a Moffat PSF, in arcsec and in mas -/
example : ∃ cfg cfg' : AperCfg, cfg.InAngles 1000 cfg' ∧ cfg.pixscale = 0.18 ∧ cfg'.pixscale = 180 ∧
    cfg.psf.fwhm = 0.6 ∧ cfg'.psf.fwhm = 600 ∧ cfg.int = intensity 1 1 0.4 0.2 ∧ cfg'.int = intensity 1 1 400 0.2 := by
  refine ⟨{ oneCell [1, 2] true true 3 with
      pixscale := 0.18, slit := 0.7, psf := ⟨.moffat, 0.6, 2.5, some 2⟩, int := intensity 1 1 0.4 0.2 },
    { oneCell [1, 2] true true 3 with
      pixscale := 180, slit := 700, psf := ⟨.moffat, 600, 2.5, some 2000⟩, int := intensity 1 1 400 0.2 }, ⟨?_, ?_, ?_, rfl, ?_, rfl, ?_, ?_, rfl⟩, rfl, rfl, rfl, rfl, rfl, rfl⟩
  · norm_num
  · norm_num
  · simp [oneCell]
  · norm_num
  · norm_num
  · intro r z
    have := intensity_angles (u := 1000) (by norm_num) 1 1 0.4 0.2 r z
    norm_num at this ⊢
    exact this

/-! ## Scaled image and posterior -/

section
variable {r c : Nat}

theorem scaleModel_light {k : ℝ} (hk : 0 < k) (flux err model : Img r c ℝ) (nosky : List (Fin c)) :
    scaleModel flux err (model.inUnits k) nosky = scaleModel flux err model nosky := by
  rw [inUnits_eq hk]
  have hn : ∀ i, scaleNum (flux i) (err i) (fun j => Fl.scale k (model i j)) nosky =
      Fl.scale k (scaleNum (flux i) (err i) (model i) nosky) := by
    intro i
    unfold scaleNum
    rw [← Fl.scale_list_sum]
    congr 1
    refine List.map_congr_left (fun j _ => ?_)
    rw [Fl.mul_scale hk, Fl.scale_div hk]
  have hd : ∀ i, scaleDen (err i) (fun j => Fl.scale k (model i j)) nosky =
      Fl.scale (k * k) (scaleDen (err i) (model i) nosky) := by
    intro i
    unfold scaleDen
    rw [← Fl.scale_list_sum]
    congr 1
    refine List.map_congr_left (fun j _ => ?_)
    rw [Fl.sq_scale hk, Fl.scale_div (mul_pos hk hk)]
  funext i j
  show Fl.scale k (model i j) * scaleRatio _ _ = model i j * scaleRatio _ _
  rw [hn, hd, Fl.scale_mul hk]
  generalize scaleNum (flux i) (err i) (model i) nosky = num
  generalize scaleDen (err i) (model i) nosky = den
  generalize model i j = m
  have hkk := mul_pos hk hk
  have hz : ∀ x : Fl ℝ, x = .fin 0 ∨ x = .nan → Fl.scale k (m * x) = m * x := by
    intro x hx
    rcases hx with rfl | rfl
    · have e0 : Fl.scale k (.fin 0 : Fl ℝ) = .fin 0 := congrArg Fl.fin (mul_zero k)
      rw [← Fl.mul_scale hk, e0]
    · cases m <;> rfl
  unfold scaleRatio
  simp only [Fl.isFinite_scale, Fl.abs_zero_scale hkk]
  by_cases h0 : Fl.eqB (Fl.abs den) 0 = true
  · simp only [h0, if_true]
    apply hz
    left
    show (if (-99 : ℝ) = 0 then Fl.infTimes 0 else Fl.fin (0 / -99)) = Fl.fin 0
    rw [if_neg (by norm_num), zero_div]
  · simp only [h0, Bool.false_eq_true, if_false]
    by_cases hf : num.isFinite = true
    · simp only [hf, if_true]
      rw [Fl.scale_div hk, Fl.div_units hkk, Fl.scale_scale, Fl.mul_scale (mul_pos hk (inv_pos.2 hkk)), Fl.scale_scale]
      rw [show k * (k * (k * k)⁻¹) = 1 by field_simp, Fl.scale_one]
    · simp only [hf, Bool.false_eq_true, if_false]
      rw [Fl.div_units hkk]
      have h0d : (0 : Fl ℝ) / den = .fin 0 ∨ (0 : Fl ℝ) / den = .nan := by
        cases den with
        | fin y =>
          show (if y = 0 then Fl.infTimes 0 else Fl.fin (0 / y)) = _ ∨ (if y = 0 then Fl.infTimes 0 else Fl.fin (0 / y)) = _
          by_cases hy : y = 0
          · rw [if_pos hy]; right; exact if_pos rfl
          · rw [if_neg hy, zero_div]; left; rfl
        | nan => right; rfl
        | pinf => left; rfl
        | ninf => left; rfl
      have e : Fl.scale (k * k)⁻¹ ((0 : Fl ℝ) / den) = 0 / den := by
        rcases h0d with h | h <;> rw [h]
        · exact congrArg Fl.fin (mul_zero _)
        · rfl
      rw [e]
      exact hz _ h0d

theorem toImg_smul {k : ℝ} (img : Option Arr2) :
    toImg r c (img.map (Arr2.smul k)) = fun i j => Fl.scale k (toImg r c img i j) := by
  cases img with
  | none => rfl
  | some a =>
    funext i j
    by_cases h : a.n = r ∧ a.m = c
    · have h' : (Arr2.smul k a).n = r ∧ (Arr2.smul k a).m = c := h
      simp only [toImg, Option.map_some, dif_pos h, dif_pos h']
      rfl
    · have h' : ¬ ((Arr2.smul k a).n = r ∧ (Arr2.smul k a).m = c) := h
      simp only [toImg, Option.map_some, dif_neg h, dif_neg h']
      rfl

/-- the vector of the varying parameters; `r_t` is its second, its first or none of its entries -/
def fitInAngles (u : ℝ) (vary : List Bool) (fit : List ℝ) : List ℝ :=
  if vary[1]? = some true then fit.modify ((vary.take 1).count true) (u * ·) else fit

/-- the same galaxy and instrument in another unit of angles -/
def KinInput.InAngles (u : ℝ) (g g' : KinInput r c) : Prop :=
  g.cfg.InAngles u g'.cfg ∧ g'.data = g.data ∧ g'.nosky = g.nosky

/-- the same call in another unit of angles -/
def KinCall.InAngles (u : ℝ) (vary : List Bool) : KinCall r c → KinCall r c → Prop
  | .make g fit, .make g' fit' => g.InAngles u g' ∧ g.HasCols ∧ fit' = fitInAngles u vary fit
  | .update fit, .update fit' => fit' = fitInAngles u vary fit
  | _, _ => False

/-- bounds of the parameters: those of `r_t` are angles -/
noncomputable def boundsInAngles (u : ℝ) (bounds : List (Option (Fl ℝ × Fl ℝ))) : List (Option (Fl ℝ × Fl ℝ)) :=
  bounds.modify 1 (Option.map fun b => (.fin u * b.1, .fin u * b.2))

noncomputable def KinInput.zoom (u : ℝ) (g : KinInput r c) : KinInput r c where
  cfg := g.cfg.zoom u
  rows := g.rows
  cols := g.cols
  data := g.data
  nosky := g.nosky

theorem KinInput.InAngles.eq {u : ℝ} (hu : 0 < u) {g g' : KinInput r c} (h : g.InAngles u g') : g' = g.zoom u := by
  obtain ⟨cfg', hr', hc', d', n'⟩ := g'
  obtain ⟨h1, h2, h3⟩ := h
  have h1' := h1.eq hu
  simp only at h1' h2 h3
  subst h1' h2 h3
  rfl

theorem aperCfg_zoom (u : ℝ) (g : KinInput r c) : (g.zoom u).aperCfg = g.aperCfg.zoom u := by
  unfold KinInput.aperCfg KinInput.zoom AperCfg.zoom
  simp only [mul_zero]

def KinParams.zoom (u : ℝ) (p : KinParams ℝ) : KinParams ℝ := { p with theta := zoomTheta u p.theta }

theorem updateParameters_zoom (u : ℝ) (theta : List ℝ) (h : 2 ≤ theta.length) (vary : List Bool) (fit : List ℝ) :
    updateParameters (zoomTheta u theta) vary (fitInAngles u vary fit) =
      (zoomTheta u (updateParameters theta vary fit).1, (updateParameters theta vary fit).2) := by
  rcases theta with _ | ⟨a, _ | ⟨b, t⟩⟩
  · simp at h
  · simp at h
  rcases vary with _ | ⟨v, _ | ⟨w, vs⟩⟩
  · rfl
  · cases v
    · rfl
    · cases fit <;> rfl
  · cases v <;> cases w
    · rfl
    · cases fit <;> rfl
    · cases fit <;> rfl
    · rcases fit with _ | ⟨x, _ | ⟨y, fs⟩⟩ <;> rfl

theorem fitInAngles_length (u : ℝ) (vary : List Bool) (fit : List ℝ) :
    (fitInAngles u vary fit).length = fit.length := by
  unfold fitInAngles
  split
  · rw [List.length_modify]
  · rfl

theorem params_zoom (u : ℝ) (p : KinParams ℝ) (h : 2 ≤ p.theta.length) (fit : List ℝ) :
    (p.zoom u).update (fitInAngles u p.vary fit) = ((p.update fit).1.zoom u, (p.update fit).2) := by
  unfold KinParams.update
  rw [fitInAngles_length]
  have hn : (p.zoom u).nFree = p.nFree := rfl
  rw [hn]
  split
  · rfl
  · have := updateParameters_zoom u p.theta h p.vary fit
    have e : updateParameters (p.zoom u).theta (p.zoom u).vary (fitInAngles u p.vary fit) =
      (zoomTheta u (updateParameters p.theta p.vary fit).1, (updateParameters p.theta p.vary fit).2) := this
    rw [e]
    rfl

theorem params_keep (p : KinParams ℝ) (fit : List ℝ) :
    (p.update fit).1.theta.length = p.theta.length ∧ (p.update fit).1.vary = p.vary := by
  unfold KinParams.update
  split
  · exact ⟨rfl, rfl⟩
  · exact ⟨updateParameters_length _ _ _, rfl⟩

/-- two objects that differ only in the unit of angles -/
structure SameUpToAngles (u : ℝ) (vary : List Bool) (m m' : KinModelState r c) : Prop where
  params : m'.params = m.params.zoom u
  vary : m.params.vary = vary
  len : 4 ≤ m.params.theta.length
  kin : ∀ t, m'.kin.updateTheta t = (m.kin.zoom u).updateTheta t
  two : m.kin.TwoPar
  ns : m.noScale = false
  ns' : m'.noScale = false
  model : m'.model = m.model
  aper : m'.aper = m.aper.map fun p => (p.1.zoom u, p.2.zoom u)
  on : ∀ g s, m.aper = some (g, s) → g.HasCols ∧ s.kin.TwoPar

theorem finish_angles {u : ℝ} (hu : 0 < u) {vary : List Bool} (g : KinInput r c) (hg : g.HasCols) (img : Option Arr2)
    {m m' : KinModelState r c} (h : SameUpToAngles u vary m m') :
    (finishModel m' (g.zoom u) (img.map (Arr2.smul (u * u)))).2 = (finishModel m g img).2 ∧
    SameUpToAngles u vary (finishModel m g img).1 (finishModel m' (g.zoom u) (img.map (Arr2.smul (u * u)))).1 := by
  unfold finishModel
  rw [if_neg (by rw [h.ns']; exact Bool.false_ne_true), if_neg (by rw [h.ns]; exact Bool.false_ne_true)]
  have hn : (g.zoom u).nosky = g.nosky := rfl
  rw [hn]
  cases hc : g.nosky with
  | none => exact absurd hc hg
  | some cols =>
    refine ⟨rfl, h.params, h.vary, h.len, h.kin, h.two, h.ns, h.ns', ?_, h.aper, h.on⟩
    have e := scaleModel_light (mul_pos hu hu) g.data.flux g.data.err (toImg r c img) cols
    rw [inUnits_eq (mul_pos hu hu), ← toImg_smul] at e
    exact congrArg some e

theorem eval_angles {u : ℝ} (hu : 0 < u) {vary : List Bool} (g : KinInput r c) (hg : g.HasCols) (s : AperState)
    (hs : s.kin.TwoPar) {m m' : KinModelState r c} (h : SameUpToAngles u vary m m') :
    (evalExisting m' (g.zoom u) (s.zoom u)).2 = (evalExisting m g s).2 ∧
    SameUpToAngles u vary (evalExisting m g s).1 (evalExisting m' (g.zoom u) (s.zoom u)).1 := by
  unfold evalExisting updateModel
  have hth : m'.params.theta = zoomTheta u m.params.theta := by rw [h.params]; rfl
  rw [aperCfg_zoom, hth, doModelCalcs_zoom hu g.aperCfg s hs]
  have ht := doModelCalcs_twoPar g.aperCfg s hs m.params.theta
  generalize doModelCalcs g.aperCfg s m.params.theta = R at ht
  obtain ⟨s1, r1⟩ := R
  have hrel : SameUpToAngles u vary { m with kin := s1.kin, aper := some (g, s1) }
      { m' with kin := (s1.zoom u).kin, aper := some (g.zoom u, s1.zoom u) } :=
    ⟨h.params, h.vary, h.len, fun _ => rfl, ht, h.ns, h.ns', h.model, rfl, fun g' s' he => by cases he; exact ⟨hg, ht⟩⟩
  simp only
  cases r1 with
  | error e => exact ⟨rfl, hrel⟩
  | ok img => exact finish_angles hu g hg img hrel

theorem step_angles {u : ℝ} (hu : 0 < u) {vary : List Bool} {m m' : KinModelState r c} (h : SameUpToAngles u vary m m')
    (call call' : KinCall r c) (hc : call.InAngles u vary call') :
    (m'.step call').2 = (m.step call).2 ∧ SameUpToAngles u vary (m.step call).1 (m'.step call').1 := by
  cases call with
  | make g fit =>
    cases call' with
    | update _ => exact hc.elim
    | make g' fit' =>
      obtain ⟨hg, hcols, rfl⟩ := hc
      obtain rfl := hg.eq hu
      simp only [KinModelState.step]
      unfold KinModelState.make
      rw [h.params, ← h.vary, params_zoom u m.params (by have := h.len; omega) fit]
      have hkeep := params_keep m.params fit
      have hlen := h.len
      rw [← hkeep.1] at hlen
      have hv : (m.params.update fit).1.vary = vary := hkeep.2.trans h.vary
      generalize m.params.update fit = p at hlen hv
      rw [h.vary]
      obtain ⟨p, e⟩ := p
      cases e with
      | some e => exact ⟨rfl, rfl, hv, hlen, h.kin, h.two, h.ns, h.ns', h.model, h.aper, h.on⟩
      | none =>
        simp only
        have hu1 : m'.kin.updateTheta (p.zoom u).theta = (m.kin.updateTheta p.theta).map (KinProfile.zoom u) :=
          (h.kin _).trans (updateTheta_zoom u m.kin h.two p.theta)
        rw [hu1]
        cases hk : m.kin.updateTheta p.theta with
        | error e => exact ⟨rfl, rfl, hv, hlen, h.kin, h.two, h.ns, h.ns', h.model, h.aper, h.on⟩
        | ok k =>
          have h2 := updateTheta_twoPar m.kin k h.two p.theta hk
          simp only [Except.map]
          rw [h.aper]
          cases ha : m.aper with
          | none =>
            simp only [Option.map_none]
            have hb : buildModel (g.zoom u).aperCfg (k.zoom u) (p.zoom u).theta =
                (buildModel g.aperCfg k p.theta).map
                  fun p => (p.1.zoom u, p.2.map (Option.map (Arr2.smul (u * u)))) := by
              rw [aperCfg_zoom, ← buildModel_zoom hu g.aperCfg k h2 p.theta hlen]
              show buildModel _ _ (zoomTheta u p.theta) = _
              unfold buildModel
              cases setupCalcs (g.aperCfg.zoom u) (zoomTheta u p.theta) with
              | error e => rfl
              | ok f => exact congrArg Except.ok (doModelCalcs_forget u _ ⟨f, k, _, _⟩ h2 _)
            have htw : ∀ s r, buildModel g.aperCfg k p.theta = .ok (s, r) → s.kin.TwoPar := by
              intro s r hbb
              unfold buildModel at hbb
              cases hf : setupCalcs g.aperCfg p.theta with
              | error e => rw [hf] at hbb; cases hbb
              | ok f =>
                rw [hf] at hbb
                simp only [Except.ok.injEq] at hbb
                have := doModelCalcs_twoPar g.aperCfg ⟨f, k, g.aperCfg.wave, avgDiff g.aperCfg.wave⟩ h2 p.theta
                rwa [hbb] at this
            rw [hb]
            cases hbb : buildModel g.aperCfg k p.theta with
            | error e => exact ⟨rfl, rfl, hv, hlen, fun _ => rfl, h2, h.ns, h.ns', h.model, rfl, fun _ _ he => by cases he⟩
            | ok sr =>
              obtain ⟨s1, r1⟩ := sr
              have h3 := htw s1 r1 hbb
              cases r1 with
              | error e =>
                exact ⟨rfl, rfl, hv, hlen, fun _ => rfl, h3, h.ns, h.ns', h.model, rfl, fun _ _ he => by cases he⟩
              | ok img =>
                exact finish_angles hu g hcols img ⟨rfl, hv, hlen, fun _ => rfl, h3, h.ns, h.ns', h.model, rfl,
                  fun _ _ he => by cases he; exact ⟨hcols, h3⟩⟩
          | some q =>
            obtain ⟨g0, s⟩ := q
            have ho := h.on g0 s ha
            exact eval_angles hu g0 ho.1 { s with kin := k } h2
              (m := { m with params := p, kin := k, aper := some (g0, s) })
              (m' := { m' with params := p.zoom u, kin := k.zoom u, aper := some (g0.zoom u, s.zoom u) })
              ⟨rfl, hv, hlen, fun _ => rfl, h2, h.ns, h.ns', h.model, rfl, fun _ _ he => by cases he; exact ho⟩
  | update fit =>
    cases call' with
    | make _ _ => exact hc.elim
    | update fit' =>
      obtain rfl : fit' = fitInAngles u vary fit := hc
      simp only [KinModelState.step]
      unfold KinModelState.update
      rw [h.params, ← h.vary, params_zoom u m.params (by have := h.len; omega) fit]
      have hkeep := params_keep m.params fit
      have hlen := h.len
      rw [← hkeep.1] at hlen
      have hv : (m.params.update fit).1.vary = vary := hkeep.2.trans h.vary
      generalize m.params.update fit = p at hlen hv
      rw [h.vary]
      obtain ⟨p, e⟩ := p
      cases e with
      | some e => exact ⟨rfl, rfl, hv, hlen, h.kin, h.two, h.ns, h.ns', h.model, h.aper, h.on⟩
      | none =>
        simp only
        rw [h.aper]
        cases ha : m.aper with
        | none => exact ⟨rfl, rfl, hv, hlen, h.kin, h.two, h.ns, h.ns', h.model, rfl, fun _ _ he => by cases he⟩
        | some q =>
          obtain ⟨g0, s⟩ := q
          have ho := h.on g0 s ha
          exact eval_angles hu g0 ho.1 s ho.2
            (m := { m with params := p, aper := some (g0, s) })
            (m' := { m' with params := p.zoom u, aper := some (g0.zoom u, s.zoom u) })
            ⟨rfl, hv, hlen, h.kin, h.two, h.ns, h.ns', h.model, rfl, fun _ _ he => by cases he; exact ho⟩

theorem run_angles {u : ℝ} (hu : 0 < u) {vary : List Bool} :
    ∀ (calls calls' : List (KinCall r c)) {m m' : KinModelState r c}, SameUpToAngles u vary m m' →
    List.Forall₂ (KinCall.InAngles u vary) calls calls' → SameUpToAngles u vary (m.run calls) (m'.run calls')
  | [], [], _, _, h, _ => h
  | [], _ :: _, _, _, _, hc => by cases hc
  | _ :: _, [], _, _, _, hc => by cases hc
  | call :: calls, call' :: calls', _, _, h, hc => by
      obtain ⟨h1, h2⟩ := List.forall₂_cons.1 hc
      exact run_angles hu calls calls' (step_angles hu h call call' h1).2 h2

theorem init_angles {u : ℝ} (theta : List ℝ) (h4 : 4 ≤ theta.length) (vary : List Bool) (kin : KinProfile)
    (hk : kin.shape = (some 2, some 1)) : SameUpToAngles u vary
      (KinModelState.init theta vary kin false : KinModelState r c)
      (KinModelState.init (thetaInAngles u theta) vary kin false) := by
  rw [thetaInAngles_eq]
  exact ⟨rfl, rfl, h4, fun t => (updateTheta_forget u kin (shape_twoPar hk) t).symm, shape_twoPar hk, rfl, rfl, rfl, rfl,
    fun _ _ he => by cases he⟩

/-- **C168**: two fits of the same data whose settings, calls and parameters differ only in the unit of angles give, call
by call, the same exceptions, and leave parameters that differ only in the unit of `r_t`, and the same scaled
image. -/
theorem C168_object (u : ℝ) (hu : 0 < u) (theta : List ℝ) (h4 : 4 ≤ theta.length) (vary : List Bool) (kin : KinProfile)
    (hk : kin.shape = (some 2, some 1)) (calls calls' : List (KinCall r c))
    (hcalls : List.Forall₂ (KinCall.InAngles u vary) calls calls') (m0 m0' : KinModelState r c)
    (hm0 : m0 = KinModelState.init theta vary kin false)
    (hm0' : m0' = KinModelState.init (thetaInAngles u theta) vary kin false) :
    (m0'.run calls').params.theta = thetaInAngles u (m0.run calls).params.theta ∧
    (m0'.run calls').model = (m0.run calls).model ∧ (m0'.run calls').llike = (m0.run calls).llike ∧
    ∀ call call', call.InAngles u vary call' → ((m0'.run calls').step call').2 = ((m0.run calls).step call).2 := by
  subst hm0 hm0'
  have h := run_angles hu calls calls' (init_angles (r := r) (c := c) theta h4 vary kin hk) hcalls
  refine ⟨?_, h.model, ?_, fun call call' hc => (step_angles hu h call call' hc).1⟩
  · rw [h.params, thetaInAngles_eq]; rfl
  · unfold KinModelState.llike
    rw [h.aper, h.model]
    generalize (KinModelState.init theta vary kin false : KinModelState r c).run calls = m
    cases m.aper with
    | none => rfl
    | some q => cases m.model <;> rfl

theorem leB_scale {u : ℝ} (hu : 0 < u) (a b : Fl ℝ) : Fl.leB (Fl.scale u a) (Fl.scale u b) = Fl.leB a b := by
  cases a <;> cases b <;> try rfl
  exact decide_eq_decide.2 (mul_le_mul_iff_right₀ hu)

theorem between_scale {u : ℝ} (hu : 0 < u) (b : Fl ℝ × Fl ℝ) (x : ℝ) :
    between (.fin u * b.1, .fin u * b.2) (.fin (u * x)) = between b (.fin x) := by
  unfold between
  rw [← Fl.scale_eq_mul hu, ← Fl.scale_eq_mul hu]
  have hx : (Fl.fin (u * x) : Fl ℝ) = Fl.scale u (.fin x) := rfl
  rw [hx, leB_scale hu, leB_scale hu]

theorem prior_angles {u : ℝ} (hu : 0 < u) (n : Nat) (hn : 2 ≤ n) (vary : List Bool)
    (bounds : List (Option (Fl ℝ × Fl ℝ))) (fit : List ℝ) :
    priorStatements n vary (boundsInAngles u bounds) ((fitInAngles u vary fit).map Fl.fin) =
      priorStatements n vary bounds (fit.map Fl.fin) := by
  obtain ⟨n, rfl⟩ : ∃ k, n = k + 2 := ⟨n - 2, by omega⟩
  rcases vary with _ | ⟨v, _ | ⟨w, vs⟩⟩
  · rfl
  · cases v
    · rfl
    · rcases bounds with _ | ⟨_ | b0, bs⟩ <;> rcases fit with _ | ⟨x, xs⟩ <;> rfl
  · cases v <;> cases w
    · rcases bounds with _ | ⟨b0, _ | ⟨b1, bs⟩⟩ <;> rfl
    · rcases bounds with _ | ⟨b0, _ | ⟨_ | b1, bs⟩⟩ <;> rcases fit with _ | ⟨x, xs⟩ <;> try rfl
      show (match priorStatements n vs bs (xs.map Fl.fin) with
        | .error e => Except.error e
        | .ok r => Except.ok (between (Fl.fin u * b1.1, Fl.fin u * b1.2) (Fl.fin (u * x)) :: r)) = _
      rw [between_scale hu]
      rfl
    · rcases bounds with _ | ⟨_ | b0, _ | ⟨b1, bs⟩⟩ <;> rcases fit with _ | ⟨x, xs⟩ <;> rfl
    · rcases bounds with _ | ⟨_ | b0, _ | ⟨_ | b1, bs⟩⟩ <;> rcases fit with _ | ⟨x, _ | ⟨y, ys⟩⟩ <;> try rfl
      show (match (match priorStatements n vs bs (ys.map Fl.fin) with
        | .error e => Except.error e
        | .ok r => Except.ok (between (Fl.fin u * b1.1, Fl.fin u * b1.2) (Fl.fin (u * y)) :: r)) with
        | .error e => Except.error e
        | .ok r => Except.ok (between b0 (.fin x) :: r)) = _
      rw [between_scale hu]
      rfl

/-- **C168**: after any series of calls, the log-posterior of the varying parameters is the same number in every unit of
angles, with the bounds of `r_t` in that unit. -/
theorem C168_posterior (u : ℝ) (hu : 0 < u) (theta : List ℝ) (h4 : 4 ≤ theta.length) (vary : List Bool) (kin : KinProfile)
    (hk : kin.shape = (some 2, some 1)) (calls calls' : List (KinCall r c))
    (hcalls : List.Forall₂ (KinCall.InAngles u vary) calls calls') (m0 m0' : KinModelState r c)
    (hm0 : m0 = KinModelState.init theta vary kin false)
    (hm0' : m0' = KinModelState.init (thetaInAngles u theta) vary kin false)
    (bounds : List (Option (Fl ℝ × Fl ℝ))) (fit : List ℝ) :
    ((m0'.run calls').lnprob (boundsInAngles u bounds) (fitInAngles u vary fit)).2 =
      ((m0.run calls).lnprob bounds fit).2 := by
  subst hm0 hm0'
  have h := run_angles hu calls calls' (init_angles (r := r) (c := c) theta h4 vary kin hk) hcalls
  generalize (KinModelState.init (thetaInAngles u theta) vary kin false : KinModelState r c).run calls' = m' at h
  generalize (KinModelState.init theta vary kin false : KinModelState r c).run calls = m at h
  have hid : ∀ l : List ℝ, (l.map Fl.fin).map Fl.finVal = l := by
    intro l
    rw [List.map_map]
    exact List.map_id l
  have hlike : (m'.lnlike (fitInAngles u vary fit)).2 = (m.lnlike fit).2 := by
    have hs := step_angles hu h (.update fit) (.update (fitInAngles u vary fit)) rfl
    simp only [KinModelState.step] at hs
    unfold KinModelState.lnlike
    generalize m'.update (fitInAngles u vary fit) = R' at hs
    generalize m.update fit = R at hs
    obtain ⟨n', r'⟩ := R'
    obtain ⟨n, r1⟩ := R
    obtain ⟨hr, hn⟩ := hs
    simp only at hr hn
    subst hr
    cases r' with
    | error e => rfl
    | ok _ =>
      simp only
      unfold KinModelState.llike
      rw [hn.aper, hn.model]
      cases n.aper with
      | none => rfl
      | some q => cases n.model <;> rfl
  unfold KinModelState.lnprob Misfit.lnprob
  have hp : logPrior (m'.params.theta.map Fl.fin) m'.params.vary (boundsInAngles u bounds)
      ((fitInAngles u vary fit).map Fl.fin) = logPrior (m.params.theta.map Fl.fin) m.params.vary bounds
      (fit.map Fl.fin) := by
    have hv : m'.params.vary = vary := by rw [h.params]; exact h.vary
    have hl : m'.params.theta.length = m.params.theta.length := by
      rw [h.params]
      show (zoomTheta u m.params.theta).length = _
      rw [← thetaInAngles_eq]
      exact List.length_modify _ _ _
    unfold logPrior
    rw [List.length_map, List.length_map, hl, hv, h.vary,
      prior_angles hu m.params.theta.length (by have := h.len; omega) vary bounds fit]
  rw [hp]
  cases logPrior (m.params.theta.map Fl.fin) m.params.vary bounds (fit.map Fl.fin) with
  | error e => rfl
  | ok pr =>
    simp only
    split
    · rw [hid, hid]
      generalize m'.lnlike (fitInAngles u vary fit) = R' at hlike
      generalize m.lnlike fit = R at hlike
      obtain ⟨n', r'⟩ := R'
      obtain ⟨n, r1⟩ := R
      simp only at hlike
      subst hlike
      cases r' <;> rfl
    · rfl

/-- a series of calls in two units, the first of which succeeds -/
example : List.Forall₂ (KinCall.InAngles 2 [true, true, true, false, false])
      [KinCall.make oneInput [100, 1, 50], .update [120, 1, 60]]
      [KinCall.make { oneInput with cfg := { oneInput.cfg with pixscale := 2, slit := 2 } } [100, 2, 50],
        .update [120, 2, 60]] ∧
    ((oneObj [0, 1, 1, 0, 0] [true, true, true, false, false] false).step (.make oneInput [100, 1, 50])).2 =
      .ok () := by
  refine ⟨.cons ⟨⟨⟨?_, ?_, ?_, rfl, ?_, rfl, rfl, fun _ _ => rfl, rfl⟩, rfl, rfl⟩, ?_, ?_⟩ (.cons ?_ .nil), ?_⟩
  · simp [oneInput, oneCell]
  · simp [oneInput, oneCell]
  · simp [oneInput, oneCell]
  · simp [oneInput, oneCell]
  · simp [KinInput.HasCols, oneInput]
  · simp [fitInAngles]
  · simp [KinCall.InAngles, fitInAngles]
  · simp only [KinModelState.step]
    rw [one_make_three 0 1 1 0 false 100 1 50 (by norm_num) (by norm_num) (by norm_num)]
    exact finish_one_ok _ _

end

end Misfit
