import Verif.Lemmas.Mirror
import Verif.Props.Kernel

/-! Helper lemmas for `Props/Mirror.lean`: a whole evaluation commutes with reflections -/

namespace Misfit

/-- the wavelengths (or velocities) are equally spaced about `ctr` -/
def CentredOn (ctr : ℝ) (w : List ℝ) : Prop :=
  ∃ step, ∀ i : Fin w.length, w.get i = ctr + ((i : ℝ) - ((w.length : ℝ) - 1) / 2) * step

theorem CentredOn.rev {ctr : ℝ} {w : List ℝ} (h : CentredOn ctr w) (i : Fin w.length) :
    w.get i.rev = 2 * ctr - w.get i := by
  obtain ⟨step, hs⟩ := h
  rw [hs, hs]
  have : ((i.rev : Fin w.length) : ℝ) = (w.length : ℝ) - 1 - i := by
    rw [Fin.val_rev, Nat.cast_sub (by have := i.isLt; omega)]
    push_cast
    ring
  rw [this]
  ring

theorem CentredOn.uniform {ctr : ℝ} {w : List ℝ} (h : CentredOn ctr w) :
    ∃ w0 step, ∀ i : Fin w.length, w.get i = w0 + i.val * step := by
  obtain ⟨step, hs⟩ := h
  exact ⟨ctr - ((w.length : ℝ) - 1) / 2 * step, step, fun i => by rw [hs]; ring⟩

theorem broadSum_flip {nZ nY nX : Nat} (b : Bool) (I cen cen' sig : Cube nZ nY nX ℝ) (deltZ lam lam' : ℝ)
    (j : Fin nY) (k : Fin nX) (hI : ∀ m, I (flipIf b m) (flipIf b j) (flipIf b k) = I m j k)
    (hs : ∀ m, sig (flipIf b m) (flipIf b j) (flipIf b k) = sig m j k)
    (hc : ∀ m, (cen' m j k - lam) ^ 2 = (cen (flipIf b m) (flipIf b j) (flipIf b k) - lam') ^ 2) :
    broadSum I cen' sig deltZ lam j k = broadSum I cen sig deltZ lam' (flipIf b j) (flipIf b k) := by
  unfold broadSum
  rw [← sum_flipIf b fun m => Fl.fin (I m (flipIf b j) (flipIf b k)) *
    (Fl.fin 1 / Fl.fin (sig m (flipIf b j) (flipIf b k) * Real.sqrt (2 * Real.pi)) *
      Fl.exp (Fl.fin (-(cen m (flipIf b j) (flipIf b k) - lam') ^ 2) /
        Fl.fin (2 * sig m (flipIf b j) (flipIf b k) ^ 2)))]
  simp only [hI, hs, hc]

/-- where the line is: in wavelength mode at the redshifted wavelength of the only line, in velocity mode
at zero -/
def LineAt (st : SpecType) (restwave : List ℝ) (z ctr : ℝ) : Prop :=
  (st = .wave ∧ ∃ r, restwave = [r] ∧ ctr = r * (1 + z)) ∨ (st = .velocity ∧ ctr = 0)

theorem addSigma_flip {nZ nY nX : Nat} (b : Bool) (I V V' : Cube nZ nY nX ℝ) (sig : ℝ) (wave : List ℝ)
    (z ctr deltZ : ℝ) (restwave ratios : List ℝ) (st : SpecType) (hs : sig ≠ 0)
    (hI : ∀ c y x, I (flipIf b c) (flipIf b y) (flipIf b x) = I c y x)
    (hV : ∀ c y x, V' c y x = -V (flipIf b c) (flipIf b y) (flipIf b x))
    (hline : LineAt st restwave z ctr) (hw : CentredOn ctr wave) :
    addSigmaCollapseZ I V' (fun _ _ _ => sig) wave.get z restwave ratios deltZ st =
      (addSigmaCollapseZ I V (fun _ _ _ => sig) wave.get z restwave ratios deltZ st).map
        fun c w y x => c (Fin.rev w) (flipIf b y) (flipIf b x) := by
  rcases hline with ⟨rfl, r, rfl, hctr⟩ | ⟨rfl, hctr⟩
  · unfold addSigmaCollapseZ
    simp only
    by_cases he : [r] ≠ [] ∧ (nZ = 0 ∨ nY = 0 ∨ nX = 0)
    · rw [if_pos he, if_pos he]; rfl
    · rw [if_neg he, if_neg he]
      have hne : 0 < nZ ∧ 0 < nY ∧ 0 < nX := by
        refine ⟨?_, ?_, ?_⟩ <;> by_contra h <;> exact he ⟨by simp, by omega⟩
      have hex : ∃ (m : Fin nZ) (j : Fin nY) (k : Fin nX), 0 < |sig| :=
        ⟨⟨0, hne.1⟩, ⟨0, hne.2.1⟩, ⟨0, hne.2.2⟩, abs_pos.2 hs⟩
      unfold collapseLines oneLine
      simp only
      rw [if_pos hex, if_pos hex]
      simp only
      cases ratios with
      | nil => rfl
      | cons f fs =>
        unfold collapseLines
        show Except.ok _ = Except.ok _
        congr 1
        funext w y x
        rw [broadSum_flip b I _ _ _ deltZ (wave.get w) (wave.get w.rev) y x (fun m => hI m y x)
          (fun _ => rfl) (fun m => ?_)]
        rw [hw.rev, hV, hctr]
        ring
  · unfold addSigmaCollapseZ
    simp only
    by_cases he : nZ = 0 ∨ nY = 0 ∨ nX = 0
    · rw [if_pos he, if_pos he]; rfl
    · rw [if_neg he, if_neg he]
      have hex : ∃ (m : Fin nZ) (j : Fin nY) (k : Fin nX), 0 < |sig| :=
        ⟨⟨0, by omega⟩, ⟨0, by omega⟩, ⟨0, by omega⟩, abs_pos.2 hs⟩
      rw [if_pos hex, if_pos hex]
      show Except.ok _ = Except.ok _
      congr 1
      funext w y x
      rw [broadSum_flip b I _ _ _ deltZ (wave.get w) (wave.get w.rev) y x (fun m => hI m y x)
        (fun _ => rfl) (fun m => ?_)]
      rw [hw.rev, hV, hctr]
      ring

/-- One evaluation with the velocities reversed (and, if `b`, everything reflected in space) gives the
reflected image. -/
theorem evalStages_flip (b : Bool) (cfg : AperCfg) (f : AperFixed) (k k' : KinProfile) (wave : List ℝ)
    (sig ctr : ℝ) (hs : sig ≠ 0)
    (hI : ∀ c y x, f.I (flipIf b c) (flipIf b y) (flipIf b x) = f.I c y x)
    (hV : velCube cfg f k' = (velCube cfg f k).map fun V c y x => -V (flipIf b c) (flipIf b y) (flipIf b x))
    (hline : LineAt cfg.specType cfg.restwave f.z ctr) (hw : CentredOn ctr wave)
    (hk : b = true → 0 < cfg.psf.fwhm →
      (∀ j i, cfg.psf.stamp f.xTrim f.yTrim j.rev i.rev = cfg.psf.stamp f.xTrim f.yTrim j i) ∧
        f.yTrim.length % 2 = 1 ∧ f.xTrim.length % 2 = 1) :
    evalStages cfg f k' wave sig = (evalStages cfg f k wave sig).map (Option.map (Arr2.flipW b)) := by
  rw [evalStages_eq_tail, evalStages_eq_tail, hV]
  cases velCube cfg f k with
  | none =>
    show (if cfg.slitMask = true then (.error .valueError : Except PyErr (Option Arr2)) else .ok none) =
      (if cfg.slitMask = true then (.error .valueError : Except PyErr (Option Arr2)) else .ok none).map _
    split <;> rfl
  | some V =>
    show evalTail _ _ _ _ _ _ _ _ _ _ = (evalTail _ _ _ _ _ _ _ _ _ _).map _
    rw [addSigma_flip b f.I V _ sig wave f.z ctr f.grid.deltZ cfg.restwave cfg.ratios cfg.specType hs hI
      (fun _ _ _ => rfl) hline hw]
    exact evalTail_flip b _ _ _ _ _ _ _ _ _ _ hk (fun _ => hw.uniform)

theorem evalImage_flip (b : Bool) (cfg : AperCfg) (f : AperFixed) (k k' : KinProfile) (wave : List ℝ)
    (sig ctr : ℝ) (hs : sig ≠ 0)
    (hI : ∀ c y x, f.I (flipIf b c) (flipIf b y) (flipIf b x) = f.I c y x)
    (hV : velCube cfg f k' = (velCube cfg f k).map fun V c y x => -V (flipIf b c) (flipIf b y) (flipIf b x))
    (hline : LineAt cfg.specType cfg.restwave f.z ctr) (hw : CentredOn ctr wave)
    (hk : b = true → 0 < cfg.psf.fwhm →
      (∀ j i, cfg.psf.stamp f.xTrim f.yTrim j.rev i.rev = cfg.psf.stamp f.xTrim f.yTrim j i) ∧
        f.yTrim.length % 2 = 1 ∧ f.xTrim.length % 2 = 1) :
    evalImage cfg f k' wave sig = (evalImage cfg f k wave sig).map (Option.map (Arr2.flipW b)) := by
  have h := evalStages_flip b cfg f k k' wave sig ctr hs hI hV hline hw hk
  unfold evalImage
  rw [h]
  split
  · cases evalStages cfg f k wave sig <;> rfl
  · rfl

/-! ## The state around an evaluation -/

/-- the state with another velocity profile -/
def AperState.setVel (s : AperState) (v : Option Profile) : AperState :=
  { s with kin := { s.kin with vel := v } }

theorem checkUpsample_setVel (cfg : AperCfg) (s : AperState) (v : Option Profile) :
    checkUpsample cfg (s.setVel v) = ((checkUpsample cfg s).1.setVel v, (checkUpsample cfg s).2) := by
  obtain ⟨f, ⟨t0, v0, d⟩, w, dw⟩ := s
  rcases d with _ | ⟨dt, dn⟩
  · rfl
  · unfold checkUpsample AperState.setVel
    simp only
    split
    · rfl
    · split
      · rfl
      · split
        · split
          · rfl
          · split
            · rfl
            · split
              · split <;> rfl
              · rfl
        · rfl

theorem applySigmaFloor_setVel (cfg : AperCfg) (s : AperState) (v : Option Profile) :
    applySigmaFloor cfg (s.setVel v) = ((applySigmaFloor cfg s).1.setVel v, (applySigmaFloor cfg s).2) := by
  obtain ⟨f, ⟨t0, v0, d⟩, w, dw⟩ := s
  rcases d with _ | ⟨dt, dn⟩
  · rfl
  · unfold applySigmaFloor AperState.setVel
    simp only
    split <;> rfl

/-- the state after the choice of the wavelength sampling -/
noncomputable def sampled (cfg : AperCfg) (s : AperState) : AperState × Except PyErr Unit :=
  if cfg.adaptive then checkUpsample cfg s else (s, .ok ())

theorem sampled_setVel (cfg : AperCfg) (s : AperState) (v : Option Profile) :
    sampled cfg (s.setVel v) = ((sampled cfg s).1.setVel v, (sampled cfg s).2) := by
  unfold sampled
  split
  · exact checkUpsample_setVel cfg s v
  · rfl

/-- an image (rows first) with the spectra reversed and, if `b`, the rows too -/
def Arr2.mirror (b : Bool) (a : Arr2) : Arr2 := ⟨a.n, a.m, fun i j => a.val (flipIf b i) j.rev⟩

theorem Arr2.flipW_T (b : Bool) (a : Arr2) : (a.flipW b).T = a.T.mirror b := rfl

theorem downsample_flip (b : Bool) (cfg : AperCfg) (s : AperState) (v : Option Profile) (o : Option Arr2) :
    (downsample cfg (s.setVel v) (o.map (Arr2.flipW b))).2 =
      (downsample cfg s o).2.map (Option.map (Arr2.flipW b)) := by
  rcases o with _ | a
  · rfl
  · unfold downsample AperState.setVel
    simp only [Option.map_some]
    rw [rebinArr_flip]
    cases rebinArr a s.fixed.waveReal.length cfg.nWhole <;> rfl

theorem calcsAfter_flip (b : Bool) (cfg : AperCfg) (s : AperState) (v : Option Profile)
    (hev : (sampled cfg s).2 = .ok () → ∀ sig, (applySigmaFloor cfg (sampled cfg s).1).2 = .ok sig →
      evalImage cfg s.fixed { s.kin with vel := v } (sampled cfg s).1.wave sig =
        (evalImage cfg s.fixed s.kin (sampled cfg s).1.wave sig).map (Option.map (Arr2.flipW b))) :
    (calcsAfter cfg (s.setVel v)).2 = (calcsAfter cfg s).2.map (Option.map (Arr2.mirror b)) := by
  have hfix : (sampled cfg s).1.kin = s.kin ∧ (sampled cfg s).1.fixed = s.fixed := by
    unfold sampled
    split
    · exact checkUpsample_kin cfg s
    · exact ⟨rfl, rfl⟩
  have e : ∀ s, calcsAfter cfg s = (match (sampled cfg s).2 with
      | .error e => ((sampled cfg s).1, .error e)
      | .ok () =>
        let fl := applySigmaFloor cfg (sampled cfg s).1
        match fl.2 with
        | .error e => (fl.1, .error e)
        | .ok sig =>
          match evalImage cfg fl.1.fixed fl.1.kin fl.1.wave sig with
          | .error e => (fl.1, .error e)
          | .ok img =>
            let ds := if cfg.adaptive then downsample cfg fl.1 img else (fl.1, .ok img)
            (ds.1, ds.2.map fun o => o.map Arr2.T)) := fun s => rfl
  rw [e, e, sampled_setVel]
  simp only
  generalize sampled cfg s = U at hev hfix
  rcases hU : U.2 with er | ⟨⟩
  · rfl
  · simp only
    rw [applySigmaFloor_setVel]
    have hkeep := applySigmaFloor_keeps cfg U.1
    have hvel : (applySigmaFloor cfg U.1).1.kin.vel = U.1.kin.vel := by
      unfold applySigmaFloor
      split
      · rfl
      · simp only
        split <;> rfl
    have hev' := hev hU
    generalize applySigmaFloor cfg U.1 = F at hev' hkeep hvel
    simp only
    rcases hF : F.2 with er | sig
    · rfl
    · simp only
      have h1 : evalImage cfg (F.1.setVel v).fixed (F.1.setVel v).kin (F.1.setVel v).wave sig =
          evalImage cfg s.fixed { s.kin with vel := v } U.1.wave sig := by
        show evalImage cfg F.1.fixed { F.1.kin with vel := v } F.1.wave sig = _
        rw [hkeep.1, hkeep.2.1, hfix.2]
        rfl
      have h2 : evalImage cfg F.1.fixed F.1.kin F.1.wave sig = evalImage cfg s.fixed s.kin U.1.wave sig := by
        rw [hkeep.1, hkeep.2.1, hfix.2]
        have : ∀ k : KinProfile, evalImage cfg s.fixed k U.1.wave sig =
          evalImage cfg s.fixed ⟨[], k.vel, none⟩ U.1.wave sig := fun _ => rfl
        rw [this F.1.kin, hvel, hfix.1, ← this]
      rw [h1, h2, hev' sig hF]
      cases evalImage cfg s.fixed s.kin U.1.wave sig with
      | error er => rfl
      | ok img =>
        show (Except.map _ (if cfg.adaptive = true then downsample cfg (F.1.setVel v)
          (img.map (Arr2.flipW b)) else (F.1.setVel v, .ok (img.map (Arr2.flipW b)))).2) = Except.map _
          (Except.map _ (if cfg.adaptive = true then downsample cfg F.1 img else (F.1, .ok img)).2)
        by_cases ha : cfg.adaptive = true
        · rw [if_pos ha, if_pos ha, downsample_flip]
          rcases (downsample cfg F.1 img).2 with er | o
          · rfl
          · cases o <;> rfl
        · rw [if_neg ha, if_neg ha]
          cases img <;> rfl

end Misfit
