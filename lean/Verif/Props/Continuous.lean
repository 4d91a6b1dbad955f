import Verif.Lemmas.Continuous
import Verif.Props.KinModel
import Verif.Props.MockFit
import Mathlib.Analysis.SpecialFunctions.Trigonometric.Arctan

/-!
# The posterior has no jumps

C172: model image and likelihood as functions of the rotation speed, the turnover radius and the dispersion.
-/

namespace Misfit

/-- rotation speed, turnover radius and velocity dispersion of a disc: the radius is not zero, the dispersion positive -/
def Regular : Set (ℝ × ℝ × ℝ) := {p | p.2.1 ≠ 0 ∧ 0 < p.2.2}

theorem discVelocity_contOn (sini x y : ℝ) :
    ContinuousOn (fun p : ℝ × ℝ × ℝ => discVelocity p.1 p.2.1 sini x y) Regular := by
  unfold discVelocity
  dsimp only
  split
  · exact continuousOn_const
  · refine (((continuousOn_const.mul continuousOn_fst).mul (Real.continuous_arctan.comp_continuousOn
      (continuousOn_const.div (continuous_fst.comp continuous_snd).continuousOn fun p hp => hp.1))).mul
      continuousOn_const).mul continuousOn_const

theorem applySigmaFloor_max (cfg : AperCfg) (s : AperState) (sig : ℝ) (hd : s.kin.disp = some ⟨[sig], 1⟩)
    (hs : 0 < sig) (hf : cfg.sigmaFloor = true → ∃ v, s.fixed.floorValue = some v) :
    (applySigmaFloor cfg s).2 = .ok (if cfg.sigmaFloor then max sig (s.fixed.floorValue.getD 0) else sig) := by
  unfold applySigmaFloor
  rw [hd]
  have hab : (if cfg.absvalsigma = true then ({ theta := List.map (fun a => |a|) [sig], nParams := 1 } : Profile) else
      ⟨[sig], 1⟩) = ⟨[sig], 1⟩ := by
    split
    · simp [abs_of_pos hs]
    · rfl
  simp only [hab, List.getElem?_cons_zero]
  by_cases hfl : cfg.sigmaFloor = true
  · obtain ⟨v, hv⟩ := hf hfl
    simp only [if_pos hfl, hv, Option.getD_some]
    by_cases hlt : |sig| < v
    · simp only [if_pos hlt, List.getElem?_cons_zero]
      rw [abs_of_pos hs] at hlt
      rw [max_eq_right hlt.le]
    · simp only [if_neg hlt, List.getElem?_cons_zero]
      rw [abs_of_pos hs, not_lt] at hlt
      rw [max_eq_left hlt]
  · simp only [if_neg hfl, List.getElem?_cons_zero]

/-- **C172**, the image: for a luminous galaxy and constant wavelength sampling, the image of the slit model exists for every regular
parameter vector and is a continuous function of rotation speed, turnover radius and dispersion, with and without a floor on the
dispersion. -/
theorem C172_image (cfg : AperCfg) (hc : Luminous cfg) (had : cfg.adaptive = false) (hF : 0 ≤ cfg.psf.fwhm)
    (hst : ¬ cfg.psf.StampFails) (hker : cfg.psf.fwhm = 0 ∨ KernelFits cfg) (kin : KinProfile)
    (hk : kin.shape = (some 2, some 1)) (m z : ℝ) (hz : 0 < 1 + z) :
    ∃ G : ℝ × ℝ × ℝ → Fin cfg.nWhole → Fin cfg.wave.length → ℝ,
      (∀ i j, ContinuousOn (fun p => G p i j) Regular) ∧
      ∀ va rt sig, (va, rt, sig) ∈ Regular → (∀ i j, 0 < G (va, rt, sig) i j) ∧
        ∃ s, buildModel cfg kin [va, rt, sig, m, z] = .ok (s, .ok (some ⟨cfg.nWhole, cfg.wave.length, G (va, rt, sig)⟩)) := by
  obtain ⟨f, hf, hfz, hnY, hY, hX, hZ, hpX, hdX, hdZ, hI, hfw, hfd, hff, hfu, hkf⟩ :=
    luminous_setup cfg hc hF hst 0 1 1 m z
  have hNS : 0 < cfg.nWhole * cfg.nSubpixels := Nat.mul_pos hc.rows hc.sub
  obtain ⟨w0, step, N, hstep, hN, hwave⟩ := hc.wave
  have hw : ∀ i : Fin cfg.wave.length, cfg.wave.get i = w0 + i.val * step := by
    rw [hwave]
    intro i
    rw [List.get_eq_getElem]
    simp only [uniformGrid, List.getElem_map, List.getElem_range]
  have hW0 : 0 < cfg.wave.length := by
    rw [hwave]
    simp only [uniformGrid, List.length_map, List.length_range]
    omega
  have hmiss : ¬ KernelMissing cfg f := by
    rintro ⟨h, h'⟩
    rcases hker with h0 | h0
    · exact h.ne' h0
    · exact hkf.1 h' h0
  obtain ⟨sg, hsg⟩ : ∃ sg : ℝ × ℝ × ℝ → ℝ, sg = fun p => if cfg.sigmaFloor then max p.2.2 (f.floorValue.getD 0) else p.2.2 :=
    ⟨_, rfl⟩
  have hsgc : ContinuousOn sg Regular := by
    rw [hsg]
    have h2 : Continuous fun p : ℝ × ℝ × ℝ => p.2.2 := continuous_snd.comp continuous_snd
    split
    · exact (h2.max continuous_const).continuousOn
    · exact h2.continuousOn
  have hsgp : ∀ p ∈ Regular, 0 < sg p := by
    intro p hp
    rw [hsg]
    dsimp only
    split
    · exact lt_max_of_lt_left hp.2
    · exact hp.2
  obtain ⟨C, hCc, hC⟩ := cube_family (S := Regular) f.I
    (fun (p : ℝ × ℝ × ℝ) c b a => discVelocity p.1 p.2.1 cfg.sini (f.xint c b a) (f.yint c b a)) sg
    cfg.wave.get f.z f.grid.deltZ cfg.restwave cfg.ratios cfg.specType hc.axis (by rw [hZ, hnY]; exact hNS)
    (by rw [hY, hnY]; omega) (by rw [hX]; omega) hI (by rw [hfz]; exact hz) hdZ
    (fun c b a => discVelocity_contOn _ _ _) hsgc hsgp
  obtain ⟨G, hGc, hG⟩ := tail_family cfg.nWhole cfg.nSubpixels hc.rows hc.sub cfg.psf f.xTrim f.yTrim f.grid
    (instDisp cfg f) cfg.wave w0 step hw hW0
      hnY hY hX hpX hdX (fun h => ⟨fun e => hmiss ⟨h, Or.inl e⟩, fun e => hmiss ⟨h, Or.inr e⟩, fun j i =>
        stamp_pos cfg.psf h hc.dither hc.beta _ _ j i⟩) C hCc fun p hp => (hC p hp).1
  refine ⟨fun p i j => G p j i, fun i j => hGc j i, fun va rt sig hp => ⟨fun i j => (hG _ hp).1 j i, ?_⟩⟩
  have hup : kin.updateTheta [va, rt, sig, m, z] = .ok (sharpKin va rt sig m z) := by
    rw [updateTheta_congr kin ⟨[], some ⟨[], 2⟩, some ⟨[], 1⟩⟩ (by rw [hk]; rfl)]
    rfl
  have hf' : setupCalcs cfg [va, rt, sig, m, z] = .ok f := hf
  obtain ⟨st, hsteq⟩ : ∃ st : AperState, st = ⟨f, sharpKin va rt sig m z, cfg.wave, avgDiff cfg.wave⟩ := ⟨_, rfl⟩
  have hsdisp : st.kin.disp = some ⟨[sig], 1⟩ := by rw [hsteq]; rfl
  have hfl := applySigmaFloor_max cfg st sig hsdisp hp.2 (by rw [hsteq]; exact hff)
  obtain ⟨-, -, -, hvel⟩ := applySigmaFloor_pos cfg st sig hsdisp hp.2 (by rw [hsteq]; exact hff)
  have hkeep := applySigmaFloor_keeps cfg st
  have hfl' : (applySigmaFloor cfg st).2 = .ok (sg (va, rt, sig)) := by
    rw [hfl, hsg, hsteq]
  have hev : evalImage cfg f (applySigmaFloor cfg st).1.kin cfg.wave (sg (va, rt, sig)) =
      .ok (some ⟨cfg.wave.length, cfg.nWhole, G (va, rt, sig)⟩) := by
    have hvc : velCube cfg f (applySigmaFloor cfg st).1.kin =
        some fun c b a => discVelocity va rt cfg.sini (f.xint c b a) (f.yint c b a) := by
      unfold velCube
      have hv2 : (applySigmaFloor cfg st).1.kin.vel = some ⟨[va, rt], 2⟩ := by rw [hvel, hsteq]; rfl
      simp only [hv2, discVelocity_eq _ _ _ _ _ hp.1]
      exact allFinite_fin fun (c : Fin f.grid.nZ) (b : Fin f.grid.nY) (a : Fin f.grid.nX) =>
        discVelocity va rt cfg.sini (f.xint c b a) (f.yint c b a)
    rw [evalImage_stages hmiss, evalStages_eq_tail, hvc]
    simp only
    rw [hc.mask, hc.reb]
    have := (hC _ hp).2
    dsimp only at this
    rw [this]
    exact (hG _ hp).2
  unfold buildModel
  rw [hf']
  simp only
  rw [doModelCalcs_eq]
  simp only [hup]
  rw [← hsteq]
  unfold calcsAfter
  have hfix : (applySigmaFloor cfg st).1.fixed = f := by rw [hkeep.1, hsteq]
  have hwv : (applySigmaFloor cfg st).1.wave = cfg.wave := by rw [hkeep.2.1, hsteq]
  have hev' : evalImage cfg (applySigmaFloor cfg st).1.fixed (applySigmaFloor cfg st).1.kin (applySigmaFloor cfg st).1.wave
      (sg (va, rt, sig)) = .ok (some ⟨cfg.wave.length, cfg.nWhole, G (va, rt, sig)⟩) := by
    rw [hfix, hwv]; exact hev
  simp only [had, Bool.false_eq_true, if_false, hfl', hev']
  exact ⟨_, rfl⟩

theorem scaleModel_contOn {X : Type*} [TopologicalSpace X] {S : Set X} {r c : Nat} (f e : Fin r → Fin c → ℝ) (A : X → Fin r → Fin c → ℝ)
    (cols : List (Fin c)) (he : ∀ i j, e i j ≠ 0) (hcols : cols ≠ [])
    (hc : ∀ i j, ContinuousOn (fun p => A p i j) S) (hpos : ∀ p ∈ S, ∀ i j, 0 < A p i j) :
    ∃ B : X → Fin r → Fin c → ℝ, (∀ i j, ContinuousOn (fun p => B p i j) S) ∧
      ∀ p ∈ S, scaleModel (finImg f) (finImg e) (finImg (A p)) cols = finImg (B p) := by
  have hden : ∀ p ∈ S, ∀ i, 0 < (cols.map fun j => A p i j * A p i j / (e i j * e i j)).sum := by
    intro p hp i
    apply List.sum_pos
    · intro x hx
      obtain ⟨k, -, rfl⟩ := List.mem_map.1 hx
      exact div_pos (mul_pos (hpos p hp i k) (hpos p hp i k)) (mul_self_pos.2 (he i k))
    · simpa using hcols
  refine ⟨fun p i j => A p i j * ((cols.map fun j => f i j * A p i j / (e i j * e i j)).sum /
    (cols.map fun j => A p i j * A p i j / (e i j * e i j)).sum), fun i j => ?_, fun p hp => ?_⟩
  · refine (hc i j).mul (ContinuousOn.div ?_ ?_ fun p hp => (hden p hp i).ne')
    · exact listSum_contOn cols (fun j p => f i j * A p i j / (e i j * e i j)) fun j _ =>
        (continuousOn_const.mul (hc i j)).div_const _
    · exact listSum_contOn cols (fun j p => A p i j * A p i j / (e i j * e i j)) fun j _ =>
        ((hc i j).mul (hc i j)).div_const _
  · rw [scaleModel_fin f e (A p) cols fun i j _ => he i j]
    funext i j
    simp only [finImg, if_neg (hden p hp i).ne']

theorem llike_contOn {X : Type*} [TopologicalSpace X] {S : Set X} {r c : Nat} (f e m w : Fin r → Fin c → ℝ)
    (A : X → Fin r → Fin c → ℝ) (he : ∀ i j, e i j ≠ 0) (hc : ∀ i j, ContinuousOn (fun p => A p i j) S) :
    ∃ L : X → ℝ, ContinuousOn L S ∧ ∀ p, modelLlike (finData f e m w) (finImg (A p)) = .fin (L p) := by
  have hpos : ∀ i j, 0 < 2 * Real.pi * (e i j * e i j) := fun i j =>
    mul_pos (mul_pos two_pos Real.pi_pos) (mul_self_pos.2 (he i j))
  refine ⟨fun p => -(1/2) * ∑ i, ∑ j, m i j * (w i j * ((f i j - A p i j) / e i j * ((f i j - A p i j) / e i j)) +
    Real.logb 10 (2 * Real.pi * (e i j * e i j))), ?_, fun p => ?_⟩
  · refine continuousOn_const.mul (continuousOn_finsetSum _ fun i _ => continuousOn_finsetSum _ fun j _ => ?_)
    have h := (continuousOn_const (c := f i j)).sub (hc i j) |>.div_const (e i j)
    exact continuousOn_const.mul ((continuousOn_const.mul (h.mul h)).add continuousOn_const)
  · simp only [modelLlike, finData, finImg, Fl.fin_sub, Fl.fin_div_ne _ _ (he _ _), Fl.sq_fin,
      Fl.fin_mul, log10, if_pos (hpos _ _), Fl.fin_add, Fl.fin_sum]

/-- **C172**: for a luminous galaxy, finite data with non-zero errors and constant wavelength sampling, the log-likelihood of a model
object is a continuous function of rotation speed, turnover radius and dispersion: one function, whatever was evaluated before, whichever
of the three parameters are free, and with or without scaling to the data. -/
theorem C172_likelihood {r c : Nat} (g : KinInput r c) (hc : Luminous g.aperCfg) (had : g.cfg.adaptive = false)
    (hF : 0 ≤ g.cfg.psf.fwhm) (hst : ¬ g.cfg.psf.StampFails) (hker : g.cfg.psf.fwhm = 0 ∨ KernelFits g.aperCfg)
    (kin : KinProfile) (hk : kin.shape = (some 2, some 1)) (f e m w : Fin r → Fin c → ℝ)
    (hd : g.data = finData f e m w) (he : ∀ i j, e i j ≠ 0) (ns : Bool)
    (hns : ns = true ∨ ∃ cols, cols ≠ [] ∧ g.nosky = some cols) (shift z : ℝ) (hz : 0 < 1 + z) :
    ∃ L : ℝ × ℝ × ℝ → ℝ, ContinuousOn L Regular ∧
      ∀ (ts : List ℝ) (vs : List Bool) (f0 : List ℝ) (calls : List (KinCall r c)) (m0 : KinModelState r c),
        ts.length = 3 → vs.length = 3 → m0 = KinModelState.init (ts ++ [shift, z]) (vs ++ [false, false]) kin ns →
        (m0.make g f0).2 = .ok () → ∀ fit va rt sig, fit.length = vs.count true →
          (updateParameters (ts ++ [shift, z]) (vs ++ [false, false]) fit).1 = [va, rt, sig, shift, z] →
          (va, rt, sig) ∈ Regular → (((m0.make g f0).1.run calls).lnlike fit).2 = .ok (.fin (L (va, rt, sig))) := by
  obtain ⟨G, hGc, hG⟩ := C172_image g.aperCfg hc had hF hst hker
    ⟨[], some ⟨[], 2⟩, some ⟨[], 1⟩⟩ rfl shift z hz
  have hrows : g.aperCfg.nWhole = r := g.rows
  have hcols : g.aperCfg.wave.length = c := g.cols
  obtain ⟨A, hA⟩ : ∃ A : ℝ × ℝ × ℝ → Fin r → Fin c → ℝ, A = fun p i j => G p (Fin.cast hrows.symm i) (Fin.cast hcols.symm j) :=
    ⟨_, rfl⟩
  have hAc : ∀ i j, ContinuousOn (fun p => A p i j) Regular := by
    intro i j; rw [hA]; exact hGc _ _
  have hApos : ∀ p ∈ Regular, ∀ i j, 0 < A p i j := by
    intro p hp i j; rw [hA]; exact (hG p.1 p.2.1 p.2.2 hp).1 _ _
  have hAimg : ∀ p, toImg r c (some ⟨g.aperCfg.nWhole, g.aperCfg.wave.length, G p⟩) = finImg (A p) := by
    intro p
    rw [hA]
    funext i j
    unfold toImg finImg
    dsimp only
    rw [dif_pos ⟨hrows, hcols⟩]
  have hB : ∃ B : ℝ × ℝ × ℝ → Fin r → Fin c → ℝ, (∀ i j, ContinuousOn (fun p => B p i j) Regular) ∧
      ∀ p ∈ Regular, ∀ M : KinModelState r c, M.noScale = ns →
        finishModel M g (some ⟨g.aperCfg.nWhole, g.aperCfg.wave.length, G p⟩) =
          ({ M with model := some (finImg (B p)) }, .ok ()) := by
    rcases hns with rfl | ⟨cols, hne, hno⟩
    · refine ⟨A, hAc, fun p _ M hM => ?_⟩
      unfold finishModel
      simp only [hM, if_true, hAimg]
    · cases ns with
      | true =>
        refine ⟨A, hAc, fun p _ M hM => ?_⟩
        unfold finishModel
        simp only [hM, if_true, hAimg]
      | false =>
        obtain ⟨B, hBc, hB⟩ := scaleModel_contOn f e A cols he hne hAc hApos
        refine ⟨B, hBc, fun p hp M hM => ?_⟩
        unfold finishModel
        simp only [hM, Bool.false_eq_true, if_false, hno, hAimg]
        have h1 : g.data.flux = finImg f := by rw [hd]; rfl
        have h2 : g.data.err = finImg e := by rw [hd]; rfl
        rw [h1, h2, hB p hp]
  obtain ⟨B, hBc, hB⟩ := hB
  obtain ⟨L, hLc, hL⟩ := llike_contOn f e m w B he hBc
  refine ⟨L, hLc, ?_⟩
  intro ts vs f0 calls m0 hts hvs hm0 h0 fit va rt sig hfit hfull hp
  have hout := (C85_history g ts vs shift z kin ns (by rw [hts, hvs]) f0 calls m0 (m0.make g f0).1 hm0 rfl h0
    (fun ha => by rw [had] at ha; cases ha) fit).1
  have hlen : (vs ++ [false, false]).length = (ts ++ [shift, z]).length := by simp [hts, hvs]
  have hmk : (m0.make g fit).2 = .ok () ∧ (m0.make g fit).1.llike = .ok (.fin (L (va, rt, sig))) := by
    subst hm0
    have hpu := ((ParamsFrom.init (ts ++ [shift, z]) (vs ++ [false, false])).update hlen fit (by simpa using hfit)).1
    rw [hfull] at hpu
    obtain ⟨-, s, hs⟩ := hG va rt sig hp
    have hup : kin.updateTheta [va, rt, sig, shift, z] = .ok (sharpKin va rt sig shift z) := by
      rw [updateTheta_congr kin ⟨[], some ⟨[], 2⟩, some ⟨[], 1⟩⟩ (by rw [hk]; rfl)]
      rfl
    unfold KinModelState.make
    rw [show (KinModelState.init (ts ++ [shift, z]) (vs ++ [false, false]) kin ns : KinModelState r c).params =
      KinParams.init (ts ++ [shift, z]) (vs ++ [false, false]) from rfl, hpu]
    simp only [KinModelState.init, hup]
    have hs' : buildModel g.aperCfg (sharpKin va rt sig shift z) [va, rt, sig, shift, z] =
        .ok (s, .ok (some ⟨g.aperCfg.nWhole, g.aperCfg.wave.length, G (va, rt, sig)⟩)) := hs
    simp only [hs']
    rw [hB _ hp _ rfl]
    refine ⟨rfl, ?_⟩
    unfold KinModelState.llike
    simp only
    rw [hd, hL]
  unfold KinModelState.lnlike
  revert hout
  generalize ((m0.make g f0).1.run calls).update fit = x
  obtain ⟨a, ra⟩ := x
  rintro ⟨h1, h2⟩
  simp only at h1
  rw [hmk.1] at h1
  subst h1
  exact (h2 rfl).2.2.trans hmk.2

/-! ## Examples -/

/-- two rows and two wavelengths, a Gaussian PSF, instrumental broadening and a floor on the dispersion -/
noncomputable def steadySlit : AperCfg := { smallSlit ⟨.gaussian, 1, 0, none⟩ with adaptive := false }

theorem steadySlit_luminous : Luminous steadySlit := by
  have h := smallSlit_luminous ⟨.gaussian, 1, 0, none⟩ (fun _ => rfl) fun h => by cases h
  exact ⟨h.rows, h.sub, h.pix, h.slit, h.pad, h.int, h.axis, h.mask, h.reb, h.wave, (fun h => by cases h), h.dither, h.beta⟩

theorem steadySlit_kernel : KernelFits steadySlit :=
  kernelFits_wide _ steadySlit_luminous (by norm_num [steadySlit, smallSlit])

/-- `C172_image` applies to this set-up, and close parameters give close images -/
example : ∃ G : ℝ × ℝ × ℝ → Fin 2 → Fin steadySlit.wave.length → ℝ, (∀ i j, ContinuousAt (fun p => G p i j) (1, 1, 1)) ∧
    ∃ s, buildModel steadySlit ⟨[], some ⟨[], 2⟩, some ⟨[], 1⟩⟩ [1, 1, 1, 0, 0] =
      .ok (s, .ok (some ⟨2, steadySlit.wave.length, G (1, 1, 1)⟩)) := by
  obtain ⟨G, h1, h2⟩ := C172_image steadySlit steadySlit_luminous rfl zero_le_one
    (by rintro ⟨h, -⟩; cases h) (Or.inr steadySlit_kernel) ⟨[], some ⟨[], 2⟩, some ⟨[], 1⟩⟩ rfl 0 0 (by norm_num)
  have ho : IsOpen Regular := (isOpen_ne_fun (continuous_fst.comp continuous_snd) continuous_const).inter
    (isOpen_lt continuous_const (continuous_snd.comp continuous_snd))
  have hp : ((1, 1, 1) : ℝ × ℝ × ℝ) ∈ Regular := ⟨one_ne_zero, one_pos⟩
  exact ⟨G, fun i j => (h1 i j).continuousAt (ho.mem_nhds hp), (h2 1 1 1 hp).2⟩

/-- the hypotheses of `C172_likelihood` are met by this set-up with a model object that fits rotation speed and dispersion -/
theorem steady_object : ∃ (g : KinInput 2 2) (m0 : KinModelState 2 2), (g.cfg = steadySlit ∧ g.nosky = some [0, 1]) ∧
    Luminous g.aperCfg ∧ g.cfg.adaptive = false ∧
    g.data = finData (fun _ _ => 1) (fun _ _ => 1) (fun _ _ => 1) (fun _ _ => 1) ∧
    m0 = KinModelState.init ([1, 1, 1] ++ [0, 0]) ([true, false, true] ++ [false, false]) ⟨[], some ⟨[], 2⟩, some ⟨[], 1⟩⟩ false ∧
    (m0.make g [1, 1]).2 = .ok () ∧
    (updateParameters ([1, 1, 1] ++ [0, 0]) ([true, false, true] ++ [false, false]) [2, 3]).1 = [2, 1, (3 : ℝ), 0, 0] ∧
    (2, 1, 3) ∈ Regular := by
  obtain ⟨g, hg1, hg2, hg3⟩ : ∃ g : KinInput 2 2, g.cfg = steadySlit ∧
      g.data = finData (fun _ _ => 1) (fun _ _ => 1) (fun _ _ => 1) (fun _ _ => 1) ∧ g.nosky = some [0, 1] :=
    ⟨⟨steadySlit, rfl, by simp [steadySlit, smallSlit, uniformGrid], _, _⟩, rfl, rfl, rfl⟩
  have hcfg : g.aperCfg = steadySlit := by
    unfold KinInput.aperCfg
    rw [hg1]
    rfl
  obtain ⟨G, -, h2⟩ := C172_image steadySlit steadySlit_luminous rfl zero_le_one
    (by rintro ⟨h, -⟩; cases h) (Or.inr steadySlit_kernel) (sharpKin 1 1 1 0 0) rfl 0 0 (by norm_num)
  obtain ⟨-, s, hs⟩ := h2 1 1 1 ⟨one_ne_zero, one_pos⟩
  refine ⟨g, _, ⟨hg1, hg3⟩, by rw [hcfg]; exact steadySlit_luminous, by rw [hg1]; rfl, hg2, rfl, ?_, rfl, one_ne_zero, by norm_num⟩
  unfold KinModelState.make
  have hp := ((ParamsFrom.init ([1, 1, 1] ++ [0, (0 : ℝ)]) ([true, false, true] ++ [false, false])).update rfl [1, 1] rfl).1
  rw [show (KinModelState.init ([1, 1, 1] ++ [0, 0]) ([true, false, true] ++ [false, false])
    ⟨[], some ⟨[], 2⟩, some ⟨[], 1⟩⟩ false : KinModelState 2 2).params =
    KinParams.init ([1, 1, 1] ++ [0, 0]) ([true, false, true] ++ [false, false]) from rfl, hp]
  have hup : (⟨[], some ⟨[], 2⟩, some ⟨[], 1⟩⟩ : KinProfile).updateTheta [1, 1, 1, 0, 0] = .ok (sharpKin 1 1 1 0 0) := rfl
  have hfull : (updateParameters ([1, 1, 1] ++ [0, (0 : ℝ)]) ([true, false, true] ++ [false, false]) [1, 1]).1 = [1, 1, 1, 0, 0] := rfl
  simp only [hfull, KinModelState.init, hup, hcfg, hs]
  unfold finishModel
  simp only [Bool.false_eq_true, if_false, hg3]

end Misfit
