import Verif.Lemmas.Aper
import Verif.Props.Collapse
import Verif.Props.Convolve
import Verif.Props.Upsample

/-! Helper lemmas for `Props/Image.lean`: the stages of one evaluation -/

namespace Misfit

theorem allFinite_some {n m p : Nat} (a : Fin n → Fin m → Fin p → Fl ℝ) (b : Fin n → Fin m → Fin p → ℝ)
    (h : allFinite a = some b) : ∀ i j k, a i j k = .fin (b i j k) := by
  unfold allFinite at h
  split at h
  · rename_i hf
    intro i j k
    obtain ⟨x, hx⟩ := Fl.exists_of_isFinite (hf i j k)
    simp only [Option.some.injEq] at h
    rw [← h]
    simp only [hx]
  · cases h

theorem allFinite2_some {n m : Nat} (a : Fin n → Fin m → Fl ℝ) (b : Fin n → Fin m → ℝ)
    (h : allFinite2 a = some b) : ∀ i j, a i j = .fin (b i j) := by
  unfold allFinite2 at h
  split at h
  · rename_i hf
    intro i j
    obtain ⟨x, hx⟩ := Fl.exists_of_isFinite (hf i j)
    simp only [Option.some.injEq] at h
    rw [← h]
    simp only [hx]
  · cases h

/-- the stages of a successful evaluation -/
theorem evalImage_inv (cfg : AperCfg) (f : AperFixed) (kin : KinProfile) (wave : List ℝ) (sig : ℝ)
    (a : Arr2) (h : evalImage cfg f kin wave sig = .ok (some a)) :
    ∃ V cube0 cube conv, ∃ (hY : f.grid.nY = f.grid.nPixY + 2 * f.grid.padY)
      (hX : f.grid.nX = f.grid.nPixX + 2 * f.grid.padX), ∃ img2 : Arr2, ∃ hn : img2.n = wave.length, ∃ v,
      velCube cfg f kin = some V ∧
      addSigmaCollapseZ f.I V (fun _ _ _ => sig) wave.get f.z cfg.restwave cfg.ratios
        f.grid.deltZ cfg.specType = .ok cube0 ∧
      allFinite cube0 = some cube ∧
      allFinite (psfConvolve cube cfg.psf.fwhm (cfg.psf.stamp f.xTrim f.yTrim)) = some conv ∧
      (if cfg.rebinOutput then rebinArr ⟨wave.length, f.grid.nPixY, trimSum conv f.grid hY hX⟩
        wave.length cfg.nWhole else .ok ⟨wave.length, f.grid.nPixY, trimSum conv f.grid hY hX⟩) = .ok img2 ∧
      instStage img2.val (fun i => wave.get (Fin.cast hn i)) (instDisp cfg f) = .ok (some v) ∧
      a = ⟨img2.n, img2.m, v⟩ ∧ cfg.slitMask = false := by
  replace h := (evalImage_ok h).1
  unfold evalStages at h
  simp only at h
  split at h
  · split at h <;> cases h
  · rename_i V hV
    split at h
    · cases h
    · rename_i cube0 hc0
      split at h
      · cases h
      · rename_i hsm
        split at h
        · cases h
        · rename_i cube hc
          split at h
          · cases h
          · rename_i conv hconv
            split at h
            · rename_i hh
              split at h
              · cases h
              · rename_i img2 himg
                split at h
                · rename_i hn
                  split at h
                  · cases h
                  · cases h
                  · rename_i v hv
                    cases h
                    exact ⟨V, cube0, cube, conv, hh.1, hh.2, img2, hn, v, hV, hc0, hc, hconv, himg, hv,
                      rfl, by simpa using hsm⟩
                · cases h
            · cases h

/-- the stages of a successful `do_model_calcs` -/
theorem doModelCalcs_inv (cfg : AperCfg) (s : AperState) (theta : List ℝ) (img : Arr2)
    (h : (doModelCalcs cfg s theta).2 = .ok (some img)) :
    ∃ k kin' wave sig a b, s.kin.updateTheta theta = .ok k ∧ kin'.vel = k.vel ∧
      evalImage cfg s.fixed kin' wave sig = .ok (some a) ∧
      (∃ s1 : AperState, s1.fixed = s.fixed ∧ s1.kin = k ∧ (applySigmaFloor cfg s1).2 = .ok sig) ∧
      (if cfg.adaptive then rebinArr a s.fixed.waveReal.length cfg.nWhole else .ok a) = .ok b ∧
      img = b.T := by
  unfold doModelCalcs at h
  split at h
  · cases h
  · rename_i k hk
    simp only at h
    have hU : (if cfg.adaptive = true then checkUpsample cfg { s with kin := k } else
        ({ s with kin := k }, .ok ())).1.kin = k ∧
        (if cfg.adaptive = true then checkUpsample cfg { s with kin := k } else
          ({ s with kin := k }, .ok ())).1.fixed = s.fixed := by
      split
      · exact checkUpsample_kin cfg { s with kin := k }
      · exact ⟨rfl, rfl⟩
    generalize (if cfg.adaptive = true then checkUpsample cfg { s with kin := k } else
        ({ s with kin := k }, .ok ())) = U at *
    split at h
    · cases h
    · have hkeep := applySigmaFloor_keeps cfg U.1
      have hvel : (applySigmaFloor cfg U.1).1.kin.vel = U.1.kin.vel := by
        unfold applySigmaFloor
        split
        · rfl
        · simp only
          split <;> rfl
      split at h
      · cases h
      · rename_i sig hsig
        split at h
        · cases h
        · rename_i img0 himg0
          obtain ⟨o, h1, h2⟩ := (Except.map_ok_iff _ _ _).1 h
          rcases o with _ | b
          · cases h2
          · cases h2
            by_cases ha : cfg.adaptive = true
            · rw [if_pos ha] at h1
              rcases img0 with _ | a
              · cases h1
              · unfold downsample at h1
                simp only at h1
                split at h1
                · cases h1
                · rename_i b' hb'
                  cases h1
                  refine ⟨k, (applySigmaFloor cfg U.1).1.kin, (applySigmaFloor cfg U.1).1.wave, sig, a, b, hk, ?_, ?_, ⟨U.1, hU.2, hU.1, hsig⟩, ?_, rfl⟩
                  rotate_left
                  · rw [hkeep.1, hU.2] at himg0; exact himg0
                  · rw [if_pos ha, ← hb', hkeep.1, hU.2]
                  · rw [hvel, hU.1]
            · rw [if_neg ha] at h1
              cases h1
              refine ⟨k, (applySigmaFloor cfg U.1).1.kin, (applySigmaFloor cfg U.1).1.wave, sig, b, b, hk, ?_, ?_, ⟨U.1, hU.2, hU.1, hsig⟩, if_neg ha, rfl⟩
              rotate_left
              · rw [hkeep.1, hU.2] at himg0; exact himg0
              · rw [hvel, hU.1]

/-- the dispersion used by an evaluation -/
theorem applySigmaFloor_value (cfg : AperCfg) (s : AperState) (d : Profile) (sig0 sig : ℝ) (rest : List ℝ)
    (hd : s.kin.disp = some d) (ht : d.theta = sig0 :: rest) (h : (applySigmaFloor cfg s).2 = .ok sig) :
    (sig = (if cfg.absvalsigma then |sig0| else sig0)) ∨
      (cfg.sigmaFloor = true ∧ s.fixed.floorValue = some sig ∧ |sig0| < sig) := by
  unfold applySigmaFloor at h
  rw [hd] at h
  simp only at h
  by_cases ha : cfg.absvalsigma = true
  · simp only [if_pos ha, ht, List.map_cons, List.getElem?_cons_zero] at h ⊢
    by_cases hf : cfg.sigmaFloor = true
    · simp only [if_pos hf] at h
      cases hv : s.fixed.floorValue with
      | none => rw [hv] at h; cases h
      | some v =>
        rw [hv] at h
        simp only [abs_abs] at h
        by_cases hlt : |sig0| < v
        · rw [if_pos hlt] at h
          simp only [List.getElem?_cons_zero] at h
          cases h
          exact Or.inr ⟨hf, rfl, hlt⟩
        · rw [if_neg hlt] at h
          simp only [List.getElem?_cons_zero] at h
          cases h
          exact Or.inl rfl
    · simp only [if_neg hf, List.getElem?_cons_zero] at h
      cases h
      exact Or.inl rfl
  · simp only [if_neg ha, ht, List.getElem?_cons_zero] at h ⊢
    by_cases hf : cfg.sigmaFloor = true
    · simp only [if_pos hf] at h
      cases hv : s.fixed.floorValue with
      | none => rw [hv] at h; cases h
      | some v =>
        rw [hv] at h
        simp only at h
        by_cases hlt : |sig0| < v
        · rw [if_pos hlt] at h
          simp only [List.getElem?_cons_zero] at h
          cases h
          exact Or.inr ⟨hf, rfl, hlt⟩
        · rw [if_neg hlt] at h
          simp only [ht, List.getElem?_cons_zero] at h
          cases h
          exact Or.inl rfl
    · simp only [if_neg hf, ht, List.getElem?_cons_zero] at h
      cases h
      exact Or.inl rfl

/-! ### non-negativity of the stages -/

theorem gaussDensity_nonneg (cen sig lam : ℝ) (h : 0 ≤ sig) : 0 ≤ gaussDensity cen sig lam := by
  unfold gaussDensity; positivity

theorem broadSum_nonneg {nZ nY nX : Nat} (I cen : Cube nZ nY nX ℝ) (sig dz lam : ℝ) (j : Fin nY)
    (k : Fin nX) (hs : 0 < sig) (hI : ∀ m j k, 0 ≤ I m j k) (hdz : 0 ≤ dz) :
    ∃ v, broadSum I cen (fun _ _ _ => sig) dz lam j k = .fin v ∧ 0 ≤ v :=
  ⟨_, broadSum_fin _ _ _ _ _ _ _ fun _ => hs.ne', mul_nonneg (Finset.sum_nonneg fun m _ =>
    mul_nonneg (hI m j k) (gaussDensity_nonneg _ _ _ hs.le)) hdz⟩

theorem oneLine_nonneg {nW nZ nY nX : Nat} (I V : Cube nZ nY nX ℝ) (wave : Fin nW → ℝ)
    (z dz rest sig : ℝ) (hs : 0 ≤ sig) (hI : ∀ m j k, 0 ≤ I m j k) (hdz : 0 ≤ dz) (hz : 0 < 1 + z)
    (hr : 0 < rest) (one : Fin nW → Fin nY → Fin nX → Fl ℝ)
    (h : oneLine I V (fun _ _ _ => sig) wave z dz rest = .ok one) :
    ∃ L : Fin nW → Fin nY → Fin nX → ℝ, (∀ w j k, 0 ≤ L w j k) ∧ one = fun w j k => .fin (L w j k) := by
  unfold oneLine at h
  simp only at h
  split at h
  · rename_i hex
    obtain ⟨_, _, _, hpos⟩ := hex
    have hs' : 0 < sig := lt_of_le_of_ne hs (fun e => by rw [← e] at hpos; simp at hpos)
    have hsl : 0 < sig / cKms * (rest * (1 + z)) := mul_pos (div_pos hs' cKms_pos) (mul_pos hr hz)
    cases h
    choose L hL hL0 using fun w j k => broadSum_nonneg I
      (fun m j k => rest * (1 + z) * (1 + V m j k / cKms)) _ dz (wave w) j k hsl hI hdz
    exact ⟨L, hL0, funext fun w => funext fun j => funext fun k => hL w j k⟩
  · by_cases hW : 0 < nW
    · obtain ⟨c, hc, -, -, hnn⟩ := C30_nearest I V wave dz (rest * (1 + z)) hW
      rw [hc] at h
      simp only [bind, Except.bind, Except.ok.injEq] at h
      exact ⟨c, hnn hI hdz, h.symm⟩
    · have : nW = 0 := by omega
      subst this
      exact ⟨fun w => w.elim0, fun w => w.elim0, funext fun w => w.elim0⟩

theorem collapseLines_nonneg {nW nZ nY nX : Nat} (I V : Cube nZ nY nX ℝ) (wave : Fin nW → ℝ)
    (z dz sig : ℝ) (hs : 0 ≤ sig) (hI : ∀ m j k, 0 ≤ I m j k) (hdz : 0 ≤ dz) (hz : 0 < 1 + z) :
    ∀ (rs fs : List ℝ), (∀ r ∈ rs, 0 < r) → (∀ f ∈ fs, 0 ≤ f) →
    ∀ (acc : Fin nW → Fin nY → Fin nX → ℝ), (∀ w j k, 0 ≤ acc w j k) →
    ∀ c, collapseLines I V (fun _ _ _ => sig) wave z dz rs fs (fun w j k => .fin (acc w j k)) = .ok c →
    ∃ C : Fin nW → Fin nY → Fin nX → ℝ, (∀ w j k, 0 ≤ C w j k) ∧ c = fun w j k => .fin (C w j k) := by
  intro rs
  induction rs with
  | nil =>
    intro fs _ _ acc hacc c h
    cases h
    exact ⟨acc, hacc, rfl⟩
  | cons r rs ih =>
    intro fs hr hf acc hacc c h
    unfold collapseLines at h
    split at h
    · cases h
    · rename_i one hone
      obtain ⟨L, hL0, rfl⟩ := oneLine_nonneg I V wave z dz r sig hs hI hdz hz (hr r (by simp)) one hone
      split at h
      · cases h
      · rename_i f fs'
        exact ih fs' (fun r' h' => hr r' (List.mem_cons_of_mem _ h'))
          (fun f' h' => hf f' (List.mem_cons_of_mem _ h')) (fun w j k => acc w j k + L w j k * f)
          (fun w j k => add_nonneg (hacc w j k) (mul_nonneg (hL0 w j k) (hf f (by simp)))) c h

theorem addSigma_nonneg {nW nZ nY nX : Nat} (I V : Cube nZ nY nX ℝ) (wave : Fin nW → ℝ)
    (z dz sig : ℝ) (rs fs : List ℝ) (st : SpecType) (hs : 0 ≤ sig) (hI : ∀ m j k, 0 ≤ I m j k)
    (hdz : 0 ≤ dz) (hz : 0 < 1 + z) (hr : ∀ r ∈ rs, 0 < r) (hf : ∀ f ∈ fs, 0 ≤ f)
    (c : Fin nW → Fin nY → Fin nX → Fl ℝ)
    (h : addSigmaCollapseZ I V (fun _ _ _ => sig) wave z rs fs dz st = .ok c) :
    ∃ C : Fin nW → Fin nY → Fin nX → ℝ, (∀ w j k, 0 ≤ C w j k) ∧ c = fun w j k => .fin (C w j k) := by
  unfold addSigmaCollapseZ at h
  cases st with
  | wave =>
    simp only at h
    split at h
    · cases h
    · exact collapseLines_nonneg I V wave z dz sig hs hI hdz hz rs fs hr hf (fun _ _ _ => 0)
        (fun _ _ _ => le_rfl) c h
  | velocity =>
    simp only at h
    split at h
    · cases h
    · split at h
      · rename_i hex
        obtain ⟨_, _, _, hpos⟩ := hex
        have hs' : 0 < sig := lt_of_le_of_ne hs (fun e => by rw [← e] at hpos; simp at hpos)
        cases h
        choose L hL hL0 using fun w j k => broadSum_nonneg I V sig dz (wave w) j k hs' hI hdz
        refine ⟨L, hL0, funext fun w => funext fun j => funext fun k => ?_⟩
        rw [hL w j k, Fl.zero_def, Fl.fin_add, zero_add]
      · cases h
  | other =>
    cases h
    exact ⟨fun _ _ _ => 0, fun _ _ _ => le_rfl, rfl⟩

/-- a non-negative number times a quotient of non-negative totals, if finite, is non-negative -/
theorem fl_factor_nonneg (c t t' v : ℝ) (hc : 0 ≤ c) (ht : 0 ≤ t) (ht' : 0 ≤ t')
    (h : Fl.fin c * (Fl.fin t / Fl.fin t') = .fin v) : 0 ≤ v := by
  rw [Fl.fin_div] at h
  split at h
  · unfold Fl.infTimes at h
    split at h
    · cases h
    · split at h
      · change Fl.infTimes c = _ at h
        unfold Fl.infTimes at h
        split at h
        · cases h
        · split at h <;> cases h
      · change Fl.infTimes (-c) = _ at h
        unfold Fl.infTimes at h
        split at h
        · cases h
        · split at h <;> cases h
  · rw [Fl.fin_mul] at h
    cases h
    exact mul_nonneg hc (div_nonneg ht ht')

theorem psfConvolve_nonneg {nW n m kn km : Nat} (cube : Fin nW → Fin n → Fin m → ℝ) (fwhm : ℝ)
    (stamp : Fin kn → Fin km → ℝ) (hc : ∀ w y x, 0 ≤ cube w y x) (hk : ∀ j i, 0 < fwhm → 0 ≤ stamp j i)
    (out : Fin nW → Fin n → Fin m → ℝ) (h : allFinite (psfConvolve cube fwhm stamp) = some out) :
    ∀ w y x, 0 ≤ out w y x := by
  intro w y x
  have hv := allFinite_some _ _ h w y x
  unfold psfConvolve at hv
  split at hv
  · rename_i hpos
    have hcc : ∀ w y x, 0 ≤ convSame2 (cube w) stamp y x := fun w y x =>
      convSame2_nonneg _ _ (hc w) (fun j i => hk j i hpos) y x
    exact fl_factor_nonneg _ _ _ _ (hcc w y x)
      (Finset.sum_nonneg fun w _ => Finset.sum_nonneg fun y _ => Finset.sum_nonneg fun x _ => hc w y x)
      (Finset.sum_nonneg fun w _ => Finset.sum_nonneg fun y _ => Finset.sum_nonneg fun x _ => hcc w y x) hv
  · rw [← Fl.fin.inj hv]; exact hc w y x

theorem finiteOr0_exp_nonneg (a : Fl ℝ) : 0 ≤ finiteOr0 (Fl.exp a) := by
  cases a with
  | fin x => exact (Real.exp_pos x).le
  | nan => exact le_rfl
  | pinf => exact le_rfl
  | ninf => exact le_rfl

theorem instStage_nonneg {nW m : Nat} (img : Fin nW → Fin m → ℝ) (wave : Fin nW → ℝ) (disp : ℝ)
    (hi : ∀ w y, 0 ≤ img w y) (out : Fin nW → Fin m → ℝ)
    (h : instStage img wave disp = .ok (some out)) : ∀ w y, 0 ≤ out w y := by
  unfold instStage at h
  split at h
  · split at h
    · cases h
    · rename_i a ha
      simp only [Except.ok.injEq] at h
      intro w y
      have hv := allFinite2_some _ _ h w y
      unfold instConvolComplete at ha
      simp only [Except.ok.injEq] at ha
      rw [← ha] at hv
      unfold convolInstConst at hv
      simp only at hv
      refine fl_factor_nonneg _ _ _ _ ?_ ?_ ?_ hv
      · exact convSame2_nonneg _ _ hi (fun j _ => finiteOr0_exp_nonneg _) _ _
      · exact Finset.sum_nonneg fun w _ => Finset.sum_nonneg fun y _ => hi w y
      · exact Finset.sum_nonneg fun w _ => Finset.sum_nonneg fun y _ =>
          convSame2_nonneg _ _ hi (fun j _ => finiteOr0_exp_nonneg _) _ _
  · cases h; exact hi

theorem rebin_nonneg {n m : Nat} (a : Fin n → Fin m → ℝ) (p q : Nat) (ha : ∀ i j, 0 ≤ a i j)
    (out : Fin p → Fin q → ℝ) (h : rebin a p q = .ok out) : ∀ i j, 0 ≤ out i j := by
  unfold rebin at h
  split at h
  · cases h
  · simp only at h
    split at h
    · cases h
      intro i j
      refine Finset.sum_nonneg fun s _ => Finset.sum_nonneg fun t _ => ?_
      unfold flatAt
      split
      · exact ha _ _
      · exact le_rfl
    · cases h

theorem rebinArr_nonneg (a b : Arr2) (p q : Nat) (ha : ∀ i j, 0 ≤ a.val i j)
    (h : rebinArr a p q = .ok b) : ∀ i j, 0 ≤ b.val i j := by
  unfold rebinArr at h
  split at h
  · cases h
  · rename_i v hv
    cases h
    exact rebin_nonneg _ _ _ ha _ hv

/-- PSF images without negative dither images are non-negative -/
theorem stamp_nonneg (p : PSF) (hd : p.kind = .gaussian → p.dither = none) (hb : p.kind = .moffat → 1 ≤ p.beta)
    (xs ys : List ℝ) (j : Fin ys.length) (i : Fin xs.length) : 0 ≤ p.stamp xs ys j i := by
  unfold PSF.stamp PSF.stampAt
  cases hk : p.kind with
  | gaussian =>
    simp only [hd hk, withDither, gaussStampAt]
    exact (Real.exp_pos _).le
  | moffat =>
    have := hb hk
    simp only [withDither, moffatStampAt]
    refine mul_nonneg (div_nonneg (by linarith) (by positivity)) (Real.rpow_nonneg ?_ _)
    positivity

theorem evalImage_nonneg (cfg : AperCfg) (f : AperFixed) (kin : KinProfile) (wave : List ℝ) (sig : ℝ)
    (a : Arr2) (h : evalImage cfg f kin wave sig = .ok (some a)) (hs : 0 ≤ sig)
    (hI : ∀ c b a, 0 ≤ f.I c b a) (hdz : 0 ≤ f.grid.deltZ) (hdx : 0 ≤ f.grid.deltX) (hz : 0 < 1 + f.z)
    (hr : ∀ r ∈ cfg.restwave, 0 < r) (hf : ∀ r ∈ cfg.ratios, 0 ≤ r)
    (hd : cfg.psf.kind = .gaussian → cfg.psf.dither = none)
    (hb : cfg.psf.kind = .moffat → 1 ≤ cfg.psf.beta) : ∀ i j, 0 ≤ a.val i j := by
  obtain ⟨V, cube0, cube, conv, hY, hX, img2, hn, v, -, hc0, hc, hconv, himg, hv, rfl, -⟩ :=
    evalImage_inv _ _ _ _ _ _ h
  obtain ⟨C, hC, rfl⟩ := addSigma_nonneg _ _ _ _ _ _ _ _ _ hs hI hdz hz hr hf _ hc0
  have hcube : ∀ w y x, 0 ≤ cube w y x := fun w y x => by
    have := allFinite_some _ _ hc w y x
    rw [← Fl.fin.inj this]
    exact hC w y x
  have hconv0 := psfConvolve_nonneg _ _ _ hcube (fun j i _ => stamp_nonneg _ hd hb _ _ j i) _ hconv
  have htrim : ∀ i j, 0 ≤ trimSum conv f.grid hY hX i j := fun i j =>
    mul_nonneg (Finset.sum_nonneg fun a _ => hconv0 _ _ _) hdx
  have himg2 : ∀ i j, 0 ≤ img2.val i j := by
    split at himg
    · exact rebinArr_nonneg _ _ _ _ htrim himg
    · cases himg; exact htrim
  exact instStage_nonneg _ _ _ himg2 _ hv

/-! ### fixed attributes -/

theorem setupGrid_delta (g : GridIn ℝ) (G : Grid ℝ) (h : setupGrid g = .ok G) (hp : 0 ≤ g.pixscale)
    (hs : 0 ≤ g.slit) : 0 ≤ G.deltZ ∧ 0 ≤ G.deltX := by
  unfold setupGrid at h
  split at h
  · cases h
  · split at h
    · cases h
    · simp only at h
      split at h
      · cases h
      · cases h
        exact ⟨div_nonneg hp (by positivity), div_nonneg hs (by positivity)⟩

theorem setupCalcs_inv (cfg : AperCfg) (theta : List ℝ) (f : AperFixed)
    (h : setupCalcs cfg theta = .ok f) :
    ∃ z m0shift, fromEnd theta 1 = .ok z ∧ fromEnd theta 2 = .ok m0shift ∧
      f.z = z ∧ setupGrid ⟨cfg.nWhole, cfg.nSubpixels, cfg.pixscale, cfg.slit, cfg.psf.fwhm,
        cfg.padFactor, cfg.xc, cfg.m0 + m0shift⟩ = .ok f.grid ∧
      (∀ c b a, f.xint c b a = (transformInt3d (f.grid.xArr.getD a 0) (f.grid.yArr.getD b 0)
        (f.grid.zArr.getD c 0) cfg.deltPA (Real.arcsin cfg.sini)).1) ∧
      (∀ c b a, f.yint c b a = (transformInt3d (f.grid.xArr.getD a 0) (f.grid.yArr.getD b 0)
        (f.grid.zArr.getD c 0) cfg.deltPA (Real.arcsin cfg.sini)).2.1) ∧
      (∀ c b a, f.I c b a = cfg.int (Real.sqrt (f.xint c b a ^ 2 + f.yint c b a ^ 2))
        (transformInt3d (f.grid.xArr.getD a 0) (f.grid.yArr.getD b 0)
        (f.grid.zArr.getD c 0) cfg.deltPA (Real.arcsin cfg.sini)).2.2) := by
  replace h := (setupCalcs_ok h).1
  unfold setupArrays at h
  simp only [bind, Except.bind] at h
  split at h
  · cases h
  · rename_i z hz
    split at h
    · cases h
    · rename_i m hm
      split at h
      · cases h
      · rename_i g hg
        split at h
        · cases h
        · cases h
          exact ⟨z, m, hz, hm, rfl, hg, fun _ _ _ => rfl, fun _ _ _ => rfl, fun _ _ _ => rfl⟩

theorem runUpdates_keeps (cfg : AperCfg) (hist : List (List ℝ)) (s : AperState) :
    (runUpdates cfg s hist).fixed = s.fixed ∧ (runUpdates cfg s hist).kin.shape = s.kin.shape := by
  induction hist generalizing s with
  | nil => exact ⟨rfl, rfl⟩
  | cons t hist ih =>
    have hk := doModelCalcs_keeps cfg s t
    have := ih (updateModel cfg s t).1
    exact ⟨this.1.trans hk.1, this.2.trans hk.2.1⟩

end Misfit
