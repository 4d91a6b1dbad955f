import Verif.Props.Mock
import Verif.Props.Chisq
import Verif.Props.Params
import Verif.Model.KinModel

/-!
# Fitting a mock observation

C158: the parameters a mock was made with reproduce it exactly, and no image has a higher likelihood.
-/

namespace Misfit
variable {r c : Nat}

/-- Specification: galaxy, instrument and options of a fit that is set up for the mock `a`, spectra in wavelength
units.  The options are the defaults of `KinModel2DOptions` apart from subpixels and padding, the position
`m0` is the middle row, the lines are those of the group. -/
structure SetUpFor (a : MockArgs) (len : ℝ) (cfg : AperCfg) : Prop where
  rows : cfg.nWhole = max a.nymin ⌈len / a.pixscale⌉₊
  wave : cfg.wave = a.wave
  lines : ∃ s w f, initializeLineset a.linegroup ⟨none, none, none⟩ = .ok s ∧ s.waves = some w ∧ s.ratios = some f ∧
    cfg.restwave = w.map (fun x : ℚ => (x : ℝ)) ∧ cfg.ratios = f.map (fun x : ℚ => (x : ℝ))
  m0 : cfg.m0 = (cfg.nWhole : ℝ) / 2 - 1 / 2
  incl : sinI a.q a.q0 = .ok (.fin cfg.sini)
  angle : cfg.deltPA = a.deltPA
  pix : cfg.pixscale = a.pixscale
  slit : cfg.slit = a.slitWidth
  psf : psfKind a.psfType = .ok cfg.psf.kind ∧ cfg.psf.fwhm = a.fwhm ∧ cfg.psf.beta = 2.5 ∧ cfg.psf.dither = none
  res : cfg.res = a.res
  mask : cfg.slitMask = false
  light : ∀ R z, cfg.int R z = intSersic a.n a.re R * intExpZ 1 a.q0 a.re z
  sub : cfg.nSubpixels = a.nSubpixels
  pad : cfg.padFactor = a.padFactor
  type : cfg.specType = .wave
  options : cfg.absvalsigma = false ∧ cfg.adaptive = true ∧ cfg.factor = 3 ∧ cfg.sigmaFloor = true
  np : cfg.npFloat = true

theorem SetUpFor.eq {a : MockArgs} {len : ℝ} {cfg : AperCfg} (h : SetUpFor a len cfg) (ht : a.specType = .wave)
    (b : PSFKind × Nat × ℝ × (List ℝ × List ℝ)) (hb : mockBasis a = .ok b) (hl : a.slitLength = some len)
    (hp : 0 < a.pixscale) (hlen : 0 < len) :
    { cfg with rebinOutput := true, xc := 0 } = mockCfg true a b.1 b.2.1 b.2.2.1 b.2.2.2 cfg.sini := by
  obtain ⟨L, m0, hrow, hm0⟩ := mockRows_value len a.pixscale a.nymin hp hlen
  obtain ⟨s, w, f, hs, hw, hf, e1, e2⟩ := h.lines
  have hlin : mockLines a.specType a.linegroup = .ok (cfg.restwave, cfg.ratios) := by
    rw [ht]
    unfold mockLines
    simp only [hs, hw, hf, Option.getD_some, e1, e2]
  have hkind : mockPsfKind a.psfType = .ok cfg.psf.kind := by
    have := h.psf.1
    revert this
    cases a.psfType with
    | none => intro h; simp [psfKind] at h
    | some s => exact id
  have hB : mockBasis a = .ok (cfg.psf.kind, max a.nymin ⌈len / a.pixscale⌉₊, m0, (cfg.restwave, cfg.ratios)) := by
    unfold mockBasis
    simp only [hl, hkind, hrow, hlin]
  obtain rfl := Except.ok.inj (hb.symm.trans hB)
  obtain ⟨h1, h2, -, h4, h5, h6, h7, h8, ⟨-, h9, h10, h11⟩, h12, h13, h14, h15, h16, h17, ⟨h18, h19, h20, h21⟩, h22⟩ := h
  have h14' : cfg.int = intensity 1 a.n a.re a.q0 := by
    funext R z
    exact h14 R z
  rcases cfg with ⟨nW, wv, rw', rt', m0', si, dp, px, sl, ⟨pk, pf, pb, pd⟩, rs, sm, it, ns, pd', xc, rb, st, av, ad, fa, sf, np'⟩
  simp only at h1 h2 h4 h6 h7 h8 h9 h10 h11 h12 h13 h14' h15 h16 h17 h18 h19 h20 h21 h22
  subst h1 h2 h6 h7 h8 h9 h10 h11 h12 h13 h14' h15 h16 h17 h18 h19 h20 h21 h22
  rw [← hm0] at h4
  subst h4
  unfold mockCfg
  simp only [ht]

/-- the fitting vector of the true parameters leads to the true parameters -/
theorem update_truth : ∀ (truth theta0 : List ℝ) (vary : List Bool) (fit : List ℝ),
    vary.length = truth.length → theta0.length = truth.length →
    (∀ i : ℕ, vary[i]? = some false → theta0[i]? = truth[i]?) → initializeFittingTheta truth vary = .ok fit →
    updateParameters theta0 vary fit = (truth, none) ∧ fit.length = vary.count true
  | [], [], vary, fit, hv, _, _, hf => by
      obtain rfl : vary = [] := List.length_eq_zero_iff.1 hv
      cases hf
      exact ⟨rfl, rfl⟩
  | [], _ :: _, _, _, _, h, _, _ => by simp at h
  | _ :: _, [], _, _, _, h, _, _ => by simp at h
  | t :: ts, u :: us, vary, fit, hv, hu, hfix, hf => by
      cases vary with
      | nil => simp at hv
      | cons v vs =>
        simp only [initializeFittingTheta] at hf
        cases hr : initializeFittingTheta ts vs with
        | error e => rw [hr] at hf; simp at hf
        | ok rest =>
          rw [hr] at hf
          have ih := update_truth ts us vs rest (by simpa using hv) (by simpa using hu)
            (fun i hi => by have := hfix (i + 1) (by simpa using hi); simpa using this) hr
          cases v with
          | false =>
            cases hf
            have h0 : u = t := by have := hfix 0 rfl; simpa using this
            subst h0
            simp only [updateParameters, Bool.false_eq_true, if_false, ih.1]
            exact ⟨trivial, by simpa using ih.2⟩
          | true =>
            cases hf
            simp only [updateParameters, if_true, ih.1]
            exact ⟨trivial, by simpa using ih.2⟩

/-- an image scaled to itself -/
theorem scaleModel_self (f e : Fin r → Fin c → ℝ) (cols : List (Fin c)) (he : ∀ i j, e i j ≠ 0)
    (hf : ∀ i j, 0 < f i j) (hc : cols ≠ []) : scaleModel (finImg f) (finImg e) (finImg f) cols = finImg f := by
  rw [scaleModel_fin f e f cols fun i j _ => he i j]
  funext i j
  have hpos : 0 < (cols.map fun j => f i j * f i j / (e i j * e i j)).sum := by
    apply List.sum_pos
    · intro x hx
      obtain ⟨k, -, rfl⟩ := List.mem_map.1 hx
      exact div_pos (mul_pos (hf i k) (hf i k)) (mul_self_pos.2 (he i k))
    · simpa using hc
  simp only [finImg, if_neg hpos.ne', div_self hpos.ne', mul_one]

/-- an image is stored only together with the galaxy it belongs to -/
theorem make_stored (theta0 : List ℝ) (vary : List Bool) (kin : KinProfile) (ns : Bool) (g : KinInput r c) (fit : List ℝ)
    (x : Img r c ℝ) (h : ((KinModelState.init theta0 vary kin ns : KinModelState r c).make g fit).1.model = some x) :
    ((KinModelState.init theta0 vary kin ns : KinModelState r c).make g fit).1.llike = .ok (modelLlike g.data x) := by
  have key : ∀ (m : KinModelState r c) (s : AperState) img, m.aper = some (g, s) →
      (finishModel m g img).1.model = some x → (finishModel m g img).1.llike = .ok (modelLlike g.data x) := by
    intro m s img hs
    have h2 : (finishModel m g img).1.aper = some (g, s) := by
      unfold finishModel
      split_ifs
      · exact hs
      · cases g.nosky <;> exact hs
    intro h1
    unfold KinModelState.llike
    rw [h1, h2]
  revert h
  unfold KinModelState.make
  rcases (KinModelState.init theta0 vary kin ns : KinModelState r c).params.update fit with ⟨p, _ | e⟩
  · simp only [KinModelState.init]
    cases kin.updateTheta p.theta with
    | error e => intro h; cases h
    | ok k =>
      simp only
      rcases buildModel g.aperCfg k p.theta with e | ⟨s, e | img⟩
      · intro h; cases h
      · intro h; cases h
      · exact key _ s img rfl
  · intro h; cases h

/-- **C158**: a model object set up for a mock, whatever the free parameters, starting values and the earlier mocks:
`make_model` with the true values of the free parameters gives the mock as its image, scaled or not; its chi-square
is zero; and no other fitting vector whose image is finite has a higher likelihood. -/
theorem C158_truth (a : MockArgs) (ha : MockUsable a) (ht : a.specType = .wave)
    (hq0 : -1 ≤ a.q) (hq : a.q ≤ 1) (hwide : a.pixscale / a.nSubpixels / 2 ≤ a.fwhm) (hist : List MockArgs)
    (len : ℝ) (hl : a.slitLength = some len) (img : Arr2) (himg : mockAfter true hist a = .ok (some img))
    (g : KinInput r c) (hg : SetUpFor a len g.cfg)
    (f e m w : Fin r → Fin c → ℝ) (hd : g.data = finData f e m w)
    (hf : ∀ i j (hi : i.val < img.n) (hj : j.val < img.m), f i j = img.val ⟨i, hi⟩ ⟨j, hj⟩)
    (he : ∀ i j, e i j ≠ 0) (hm : ∀ i j, m i j = 0 ∨ m i j = 1) (hw : ∀ i j, 0 ≤ w i j)
    (cols : List (Fin c)) (hcols : g.nosky = some cols) (hne : cols ≠ [])
    (theta0 : List ℝ) (vary : List Bool) (shift : ℝ) (hshift : a.yshift = some shift)
    (hv : vary.length = 5) (h0 : theta0.length = 5)
    (hfix : ∀ i : ℕ, vary[i]? = some false → theta0[i]? = [a.va, a.rt, a.sigma0, shift, a.z][i]?)
    (fit : List ℝ) (hfit : initializeFittingTheta [a.va, a.rt, a.sigma0, shift, a.z] vary = .ok fit)
    (kin : KinProfile) (hkin : kin.shape = (some 2, some 1)) (ns : Bool) :
    (((KinModelState.init theta0 vary kin ns : KinModelState r c).make g fit).2 = .ok () ∧
    ((KinModelState.init theta0 vary kin ns : KinModelState r c).make g fit).1.model = some (finImg f) ∧
    modelChisq g.data (finImg f) = 0) ∧
    ∃ l, ((KinModelState.init theta0 vary kin ns : KinModelState r c).make g fit).1.llike = .ok (.fin l) ∧
      ∀ fit' x, ((KinModelState.init theta0 vary kin ns : KinModelState r c).make g fit').1.model = some (finImg x) →
        ∃ l', ((KinModelState.init theta0 vary kin ns : KinModelState r c).make g fit').1.llike = .ok (.fin l') ∧ l' ≤ l := by
  obtain ⟨img', h1, hn, hmm, hpos⟩ := C150_image a ha hq0 hq hwide hist len hl
  obtain rfl : img' = img := Option.some.inj (Except.ok.inj (h1.symm.trans himg))
  obtain ⟨len', hl', hlen⟩ := ha.length
  obtain rfl : len' = len := by rw [hl] at hl'; exact (Option.some.inj hl').symm
  obtain ⟨kind, lines, hb, hR, -, -⟩ := mockBasis_usable a ha len' hl
  have hcfg : g.aperCfg = _ := hg.eq ht _ hb hl ha.pix hlen
  have hrow : img'.n = r := hn.trans (hg.rows.symm.trans g.rows)
  have hcol : img'.m = c := hmm.trans ((congrArg List.length hg.wave).symm.trans g.cols)
  have hto : toImg r c (some img') = finImg f := by
    funext i j
    simp only [toImg, finImg]
    rw [dif_pos ⟨hrow, hcol⟩, hf i j (i.isLt.trans_eq hrow.symm) (j.isLt.trans_eq hcol.symm)]
    rfl
  have hfpos : ∀ i j, 0 < f i j := fun i j => by
    rw [hf i j (i.isLt.trans_eq hrow.symm) (j.isLt.trans_eq hcol.symm)]
    exact hpos _ _
  rw [mockAfter_eq, hb] at himg
  unfold mockImage mockBuild at himg
  simp only [hg.incl, hshift, Option.getD_some] at himg
  rw [← hcfg] at himg
  obtain ⟨hup, hlenfit⟩ := update_truth _ theta0 vary fit (by simpa using hv) (by simpa using h0) hfix hfit
  have hmake : ((KinModelState.init theta0 vary kin ns : KinModelState r c).make g fit).2 = .ok () ∧
      ((KinModelState.init theta0 vary kin ns : KinModelState r c).make g fit).1.model = some (finImg f) := by
    have hp : (KinModelState.init theta0 vary kin ns : KinModelState r c).params.update fit =
        (⟨mockTheta a shift, vary, vary.count true⟩, none) := by
      unfold KinParams.update KinModelState.init KinParams.init
      simp only [hlenfit, ne_eq, not_true_eq_false, if_false, hup]
      rfl
    unfold KinModelState.make
    simp only [hp]
    have hk : (KinModelState.init theta0 vary kin ns : KinModelState r c).kin.updateTheta (mockTheta a shift) =
        .ok (mockKin (mockTheta a shift)) := mock_updateTheta kin hkin _
    simp only [hk]
    have hap : (KinModelState.init theta0 vary kin ns : KinModelState r c).aper = none := rfl
    simp only [hap]
    revert himg
    rcases buildModel g.aperCfg (mockKin (mockTheta a shift)) (mockTheta a shift) with e | ⟨s, e | im⟩
    · intro h; cases h
    · intro h; cases h
    · intro h
      obtain rfl : im = some img' := Except.ok.inj h
      simp only [finishModel, KinModelState.init, hcols, hto, hd]
      split_ifs
      · exact ⟨rfl, rfl⟩
      · exact ⟨rfl, congrArg some (scaleModel_self f e cols he hfpos hne)⟩
  have hzero : modelChisq g.data (finImg f) = 0 := by
    rw [hd, modelChisq_fin f e m w f he]
    simp only [sub_self, zero_mul, zero_div, Finset.sum_const_zero]
    rfl
  refine ⟨⟨hmake.1, hmake.2, hzero⟩, ?_⟩
  obtain ⟨C, hC⟩ := C07_llike_affine f e m w he hm
  obtain ⟨q, hq1, hq2⟩ := hC f
  have hq0 : q = 0 := by
    rw [hd, hq1] at hzero
    exact Fl.fin.inj hzero
  refine ⟨-(1 / 2) * (q + C), (make_stored theta0 vary kin ns g fit _ hmake.2).trans ?_, ?_⟩
  · rw [hd, hq2]
  · intro fit' x hx
    obtain ⟨q', hq1', hq2'⟩ := hC x
    obtain ⟨q'', h3, h4, -⟩ := C06_nonneg_zero_iff f e m w x he hw
    obtain rfl : q' = q'' := Fl.fin.inj (hq1'.symm.trans h3)
    refine ⟨_, (make_stored theta0 vary kin ns g fit' _ hx).trans (by rw [hd, hq2']), ?_⟩
    linarith

/-- the typical mock of `Props/Mock.lean` is fitted: rotation, dispersion and redshift free, the others fixed -/
noncomputable def typicalFit : AperCfg :=
  mockCfg true typicalMock .gaussian 13 ((13 : ℕ) / 2 - 1 / 2) ([((656460 / 100 : ℚ) : ℝ)], [((1 : ℚ) : ℝ)])
    (Real.sqrt ((1 - 0.5 ^ 2) / (1 - 0.19 ^ 2)))

theorem typicalFit_setUp : SetUpFor typicalMock 2 typicalFit where
  rows := typicalMock_rows.symm
  wave := rfl
  lines := ⟨_, _, _, rfl, rfl, rfl, by norm_num [typicalFit, mockCfg], by simp [typicalFit, mockCfg]⟩
  m0 := by simp [typicalFit, mockCfg]
  incl := by
    have h : ¬ ((1 - 0.5 ^ 2) / (1 - 0.19 ^ 2) : ℝ) < 0 := by norm_num
    simp only [sinI, typicalMock, Fl.sqrt, typicalFit, mockCfg, if_neg h]
    norm_num
  angle := rfl
  pix := rfl
  slit := rfl
  psf := ⟨rfl, rfl, rfl, rfl⟩
  res := rfl
  mask := rfl
  light := fun R z => rfl
  sub := rfl
  pad := rfl
  type := rfl
  options := ⟨rfl, rfl, rfl, rfl⟩
  np := rfl

example : ∃ (g : KinInput 13 21) (f e m w : Fin 13 → Fin 21 → ℝ) (img : Arr2),
    mockAfter true [] typicalMock = .ok (some img) ∧ SetUpFor typicalMock 2 g.cfg ∧ g.data = finData f e m w ∧
    (∀ i j (hi : i.val < img.n) (hj : j.val < img.m), f i j = img.val ⟨i, hi⟩ ⟨j, hj⟩) ∧
    (∀ i j, e i j ≠ 0) ∧ (∀ i j, m i j = 0 ∨ m i j = 1) ∧ (∀ i j, 0 ≤ w i j) ∧ g.nosky = some [0, 20] ∧
    (∀ i : ℕ, [true, false, true, false, true][i]? = some false → [0, 1, 7, 0, 3][i]? = [(200 : ℝ), 1, 50, 0, 1][i]?) ∧
    initializeFittingTheta [(200 : ℝ), 1, 50, 0, 1] [true, false, true, false, true] = .ok [200, 50, 1] := by
  obtain ⟨img, h1, -, -, -⟩ := C150_image typicalMock typicalMock_usable (by norm_num [typicalMock])
    (by norm_num [typicalMock]) (by norm_num [typicalMock]) [] 2 rfl
  refine ⟨⟨typicalFit, rfl, by simp [typicalFit, mockCfg, typicalMock, uniformGrid],
    finData (fun i j => if h : i.val < img.n ∧ j.val < img.m then img.val ⟨i, h.1⟩ ⟨j, h.2⟩ else 0)
      (fun _ _ => 1) (fun _ j => if j = 3 then 0 else 1) (fun _ _ => 1), some [0, 20]⟩, _, _, _, _, img, h1,
    typicalFit_setUp, rfl, fun i j hi hj => dif_pos ⟨hi, hj⟩, fun _ _ => one_ne_zero, fun i j => ?_,
    fun _ _ => zero_le_one, rfl, fun i hi => ?_, rfl⟩
  · beta_reduce
    split_ifs
    · exact Or.inl rfl
    · exact Or.inr rfl
  · rcases i with _ | _ | _ | _ | _ | i <;> simp_all

end Misfit
