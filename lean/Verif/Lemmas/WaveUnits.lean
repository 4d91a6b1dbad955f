import Verif.Lemmas.AngleUnits

/-! Helper lemmas for C169: every stage of an evaluation when all wavelengths are expressed in another unit -/

namespace Misfit

def AperCfg.wl (u : ℝ) (cfg : AperCfg) : AperCfg :=
  { cfg with wave := cfg.wave.map (u * ·), restwave := cfg.restwave.map (u * ·) }

def AperFixed.wl (u : ℝ) (f : AperFixed) : AperFixed :=
  { f with lam0 := u * f.lam0, waveReal := f.waveReal.map (u * ·), deltReal := u * f.deltReal }

def AperState.wl (u : ℝ) (s : AperState) : AperState :=
  { s with fixed := s.fixed.wl u, wave := s.wave.map (u * ·), deltWave := u * s.deltWave }

theorem avgDiff_wl (u : ℝ) (w : List ℝ) : avgDiff (w.map (u * ·)) = u * avgDiff w := by
  unfold avgDiff
  rw [List.length_map, ← List.map_drop, ← List.map_dropLast, List.zipWith_map]
  have : (List.zipWith (fun b a => u * b - u * a) (w.drop 1) w.dropLast) =
      (List.zipWith (fun b a => b - a) (w.drop 1) w.dropLast).map (u * ·) := by
    rw [List.map_zipWith]
    simp only [mul_sub]
  rw [this, List.sum_map_mul_left, List.map_id', mul_div_assoc]

theorem pixelDispersion_wl {u : ℝ} (hu : 0 < u) (delt lam0 : ℝ) :
    pixelDispersion .wave (u * delt) (u * lam0) = pixelDispersion .wave delt lam0 := by
  unfold pixelDispersion
  simp only
  rw [mul_div_mul_left _ _ hu.ne']

theorem setupArrays_wl {u : ℝ} (hu : 0 < u) (cfg : AperCfg) (hst : cfg.specType = .wave) (theta : List ℝ) :
    setupArrays (cfg.wl u) theta = (setupArrays cfg theta).map (AperFixed.wl u) := by
  obtain ⟨n, w, rw', ra, m0, si, pa, px, sl, psf, re, ma, int, ns, pad, xc, reb, st, av, ad, fa, fl, np⟩ := cfg
  simp only at hst
  subst hst
  unfold setupArrays floorValueOf
  simp only [bind, Except.bind, AperCfg.wl, List.getElem?_map]
  cases fromEnd theta 1 with
  | error e => rfl
  | ok z =>
    simp only
    cases fromEnd theta 2 with
    | error e => rfl
    | ok m =>
      simp only
      cases setupGrid (⟨n, ns, px, sl, psf.fwhm, pad, xc, m0 + m⟩ : GridIn ℝ) with
      | error e => rfl
      | ok g =>
        simp only
        cases rw'[0]? with
        | none => rfl
        | some r =>
          simp only [Option.map_some, Except.map, AperFixed.wl, avgDiff_wl, mul_assoc, mul_div_assoc,
            pixelDispersion_wl hu]

theorem setupCalcs_wl {u : ℝ} (hu : 0 < u) (cfg : AperCfg) (hst : cfg.specType = .wave) (theta : List ℝ) :
    setupCalcs (cfg.wl u) theta = (setupCalcs cfg theta).map (AperFixed.wl u) := by
  have hm : (cfg.wl u).psf = cfg.psf := rfl
  unfold setupCalcs
  rw [setupArrays_wl hu cfg hst, hm]
  cases setupArrays cfg theta with
  | error e => rfl
  | ok f =>
    simp only [Except.map]
    split <;> rfl

/-! ### the spectral cube -/

theorem argmin_wl {n : Nat} {u : ℝ} (hu : 0 < u) (a : ℝ) (w : Fin n → ℝ) :
    argmin (fun i => absK (u * a - u * w i)) = argmin fun i => absK (a - w i) := by
  have habs : ∀ x : ℝ, absK (u * x) = u * absK x := by
    intro x
    unfold absK
    by_cases hx : x < 0
    · rw [if_pos hx, if_pos (mul_neg_of_pos_of_neg hu hx), mul_neg]
    · rw [if_neg hx, if_neg (not_lt.2 (mul_nonneg hu.le (not_lt.1 hx)))]
  unfold argmin
  simp only [← mul_sub, habs, mul_le_mul_iff_right₀ hu]

theorem simpleCollapse_wl {nW nZ nY nX : Nat} {u : ℝ} (hu : 0 < u) (I V : Cube nZ nY nX ℝ) (wave : Fin nW → ℝ)
    (dz lam0 : ℝ) : iSimpleCollapse I V (fun i => u * wave i) dz (u * lam0) = iSimpleCollapse I V wave dz lam0 := by
  have hstep : simpleCollapseStep I V (fun i => u * wave i) dz (u * lam0) = simpleCollapseStep I V wave dz lam0 := by
    funext acc c
    unfold simpleCollapseStep
    simp only [mul_assoc u, argmin_wl hu]
  unfold iSimpleCollapse
  rw [hstep]

theorem Fl.one_div_scale {u : ℝ} (hu : 0 < u) (a : ℝ) :
    (Fl.fin 1 / Fl.fin (u * a) : Fl ℝ) = (Fl.fin 1 / Fl.fin a).sc u⁻¹ := by
  rw [Fl.fin_div, Fl.fin_div]
  by_cases ha : a = 0
  · rw [if_pos ha, if_pos (by rw [ha, mul_zero]), Fl.sc_infTimes]
  · rw [if_neg ha, if_neg (mul_ne_zero hu.ne' ha)]
    show Fl.fin _ = Fl.fin _
    congr 1
    have := hu.ne'
    field_simp

theorem Fl.sc_mul {k : ℝ} (hk : 0 < k) (a b : Fl ℝ) : a.sc k * b = (a * b).sc k := by
  cases a with
  | fin x => exact Fl.sc_mul_left k hk x b
  | nan => rfl
  | pinf =>
    cases b with
    | fin y => show Fl.infTimes y = (Fl.infTimes y).sc k; rw [Fl.sc_infTimes]
    | nan => rfl
    | pinf => rfl
    | ninf => rfl
  | ninf =>
    cases b with
    | fin y => show Fl.infTimes (-y) = (Fl.infTimes (-y)).sc k; rw [Fl.sc_infTimes]
    | nan => rfl
    | pinf => rfl
    | ninf => rfl

theorem Fl.mul_sc {k : ℝ} (hk : 0 < k) (a b : Fl ℝ) : a * b.sc k = (a * b).sc k := by
  have hc : ∀ a b : Fl ℝ, a * b = b * a := by
    intro a b
    cases a <;> cases b <;> first | rfl | exact congrArg Fl.fin (mul_comm _ _)
  rw [hc, Fl.sc_mul hk, hc]

theorem broadSum_wl {nZ nY nX : Nat} {u : ℝ} (hu : 0 < u) (I cen sig : Cube nZ nY nX ℝ) (dz lam : ℝ) (j : Fin nY)
    (x : Fin nX) : broadSum I (fun m j x => u * cen m j x) (fun m j x => u * sig m j x) dz (u * lam) j x =
      (broadSum I cen sig dz lam j x).sc u⁻¹ := by
  have hi : 0 < u⁻¹ := inv_pos.2 hu
  unfold broadSum
  have he : ∀ m, (Fl.fin (-(u * cen m j x - u * lam) ^ 2) / Fl.fin (2 * (u * sig m j x) ^ 2) : Fl ℝ) =
      Fl.fin (-(cen m j x - lam) ^ 2) / Fl.fin (2 * sig m j x ^ 2) := by
    intro m
    rw [← Fl.div_scale (u ^ 2) (-(cen m j x - lam) ^ 2) _ (by positivity)]
    congr 2 <;> ring
  simp only [he, mul_assoc u, Fl.one_div_scale hu]
  have ht : ∀ m, Fl.fin (I m j x) * ((Fl.fin 1 / Fl.fin (sig m j x * Real.sqrt (2 * Real.pi))).sc u⁻¹ *
      Fl.exp (Fl.fin (-(cen m j x - lam) ^ 2) / Fl.fin (2 * sig m j x ^ 2))) =
      (Fl.fin (I m j x) * (Fl.fin 1 / Fl.fin (sig m j x * Real.sqrt (2 * Real.pi)) *
        Fl.exp (Fl.fin (-(cen m j x - lam) ^ 2) / Fl.fin (2 * sig m j x ^ 2)))).sc u⁻¹ := by
    intro m
    rw [Fl.sc_mul hi, Fl.mul_sc hi]
  simp only [ht]
  rw [Fl.sc_sum, Fl.sc_mul hi]

open Classical in
/-- the factor of the cube: densities are per unit of wavelength, counts are not -/
noncomputable def wlFactor (u sig : ℝ) : ℝ := if 0 < |sig| then u⁻¹ else 1

theorem wlFactor_pos {u : ℝ} (hu : 0 < u) (sig : ℝ) : 0 < wlFactor u sig := by
  unfold wlFactor
  split
  · exact inv_pos.2 hu
  · exact one_pos

theorem Fl.sc_one (a : Fl ℝ) : a.sc 1 = a := by
  cases a <;> first | rfl | exact congrArg Fl.fin (one_mul _)

theorem oneLine_wl {nW nZ nY nX : Nat} {u : ℝ} (hu : 0 < u) (hne : nZ ≠ 0 ∧ nY ≠ 0 ∧ nX ≠ 0) (I V : Cube nZ nY nX ℝ)
    (sig : ℝ) (wave : Fin nW → ℝ) (z dz rest : ℝ) :
    oneLine I V (fun _ _ _ => sig) (fun i => u * wave i) z dz (u * rest) =
      (oneLine I V (fun _ _ _ => sig) wave z dz rest).map fun c w j x => (c w j x).sc (wlFactor u sig) := by
  have hex : (∃ (_ : Fin nZ) (_ : Fin nY) (_ : Fin nX), 0 < |sig|) ↔ 0 < |sig| :=
    ⟨fun ⟨_, _, _, h⟩ => h, fun h => ⟨⟨0, by omega⟩, ⟨0, by omega⟩, ⟨0, by omega⟩, h⟩⟩
  unfold oneLine wlFactor
  simp only [mul_assoc u]
  by_cases h : 0 < |sig|
  · rw [if_pos (hex.2 h), if_pos (hex.2 h), if_pos h]
    simp only [Except.map, mul_left_comm _ u, broadSum_wl hu]
  · rw [if_neg (fun h' => h (hex.1 h')), if_neg (fun h' => h (hex.1 h')), if_neg h, simpleCollapse_wl hu]
    cases iSimpleCollapse I V wave dz (rest * (1 + z)) with
    | error e => rfl
    | ok c => simp only [bind, Except.bind, Except.map, Fl.sc_one]

theorem collapseLines_wl {nW nZ nY nX : Nat} {u : ℝ} (hu : 0 < u) (hne : nZ ≠ 0 ∧ nY ≠ 0 ∧ nX ≠ 0)
    (I V : Cube nZ nY nX ℝ) (sig : ℝ) (wave : Fin nW → ℝ) (z dz : ℝ) (rs fs : List ℝ)
    (acc : Fin nW → Fin nY → Fin nX → Fl ℝ) :
    collapseLines I V (fun _ _ _ => sig) (fun i => u * wave i) z dz (rs.map (u * ·)) fs
        (fun w j x => (acc w j x).sc (wlFactor u sig)) =
      (collapseLines I V (fun _ _ _ => sig) wave z dz rs fs acc).map fun c w j x => (c w j x).sc (wlFactor u sig) := by
  induction rs generalizing fs acc with
  | nil => rfl
  | cons r rs ih =>
    rw [List.map_cons]
    unfold collapseLines
    rw [oneLine_wl hu hne]
    cases oneLine I V (fun _ _ _ => sig) wave z dz r with
    | error e => rfl
    | ok one =>
      cases fs with
      | nil => rfl
      | cons f fs =>
        simp only [Except.map]
        have := ih fs (fun w j x => acc w j x + one w j x * Fl.fin f)
        simp only [Except.map] at this
        rw [← this]
        simp only [Fl.sc_mul_right, Fl.sc_add]

theorem addSigma_wl {nW nZ nY nX : Nat} {u : ℝ} (hu : 0 < u) (I V : Cube nZ nY nX ℝ) (sig : ℝ) (wave : Fin nW → ℝ)
    (z dz : ℝ) (rs fs : List ℝ) :
    addSigmaCollapseZ I V (fun _ _ _ => sig) (fun i => u * wave i) z (rs.map (u * ·)) fs dz .wave =
      (addSigmaCollapseZ I V (fun _ _ _ => sig) wave z rs fs dz .wave).map
        fun c w j x => (c w j x).sc (wlFactor u sig) := by
  have h0 : ∀ k, (Fl.fin 0 : Fl ℝ).sc k = .fin 0 := fun k => by simp [Fl.sc]
  unfold addSigmaCollapseZ
  simp only [ne_eq, List.map_eq_nil_iff]
  split
  · rfl
  · rename_i hh
    cases rs with
    | nil => simp only [List.map_nil, collapseLines, Except.map, Fl.zero_def, h0]
    | cons r rs =>
      have hne : nZ ≠ 0 ∧ nY ≠ 0 ∧ nX ≠ 0 := by
        simp only [reduceCtorEq, not_false_eq_true, true_and, not_or] at hh
        exact hh
      have := collapseLines_wl hu hne I V sig wave z dz (r :: rs) fs fun _ _ _ => 0
      simp only [Fl.zero_def, h0] at this
      exact this

/-! ### evaluation -/

theorem instStage_wl {nW m : Nat} {u : ℝ} (hu : 0 < u) (img : Fin nW → Fin m → ℝ) (wave : Fin nW → ℝ) (disp : ℝ) :
    instStage img (fun i => u * wave i) (u * disp) = instStage img wave disp := by
  have hg : ∀ x f x0 : ℝ, gausFromFwhm (u * x) (u * f) (u * x0) = gausFromFwhm x f x0 := by
    intro x f x0
    unfold gausFromFwhm
    simp only
    congr 1
    rw [← Fl.div_scale (u ^ 2) (-1 * (x - x0) ^ 2) _ (by positivity)]
    congr 2
    · ring
    · rw [mul_div_assoc]; ring
  unfold instStage instConvolComplete convolInstConst
  simp only [mul_pos_iff_of_pos_left hu, ← Finset.mul_sum, mul_div_assoc, mul_assoc u, hg]

/-- `evalTail` with the wavelengths as a function -/
noncomputable def evalTailF (mask reb : Bool) (nWhole : Nat) (psf : PSF) (xs ys : List ℝ) (g : Grid ℝ)
    (disp : ℝ) (n : Nat) (F : Fin n → ℝ) (c : Except PyErr (Fin n → Fin g.nY → Fin g.nX → Fl ℝ)) :
    Except PyErr (Option Arr2) :=
  match c with
  | .error e => .error e
  | .ok cube =>
    if mask then .error .valueError
    else
      match allFinite cube with
      | none => .ok none
      | some cube =>
        match allFinite (psfConvolve cube psf.fwhm (psf.stamp xs ys)) with
        | none => .ok none
        | some conv =>
          if h : g.nY = g.nPixY + 2 * g.padY ∧ g.nX = g.nPixX + 2 * g.padX then
            let img : Arr2 := ⟨n, g.nPixY, trimSum conv g h.1 h.2⟩
            match (if reb then rebinArr img n nWhole else .ok img) with
            | .error e => .error e
            | .ok img2 =>
              if hn : img2.n = n then
                match instStage img2.val (fun i => F (Fin.cast hn i)) disp with
                | .error e => .error e
                | .ok none => .ok none
                | .ok (some v) => .ok (some ⟨img2.n, img2.m, v⟩)
              else .ok none
          else .ok none

theorem evalTail_eqF (mask reb : Bool) (nWhole : Nat) (psf : PSF) (xs ys : List ℝ) (g : Grid ℝ) (disp : ℝ)
    (wave : List ℝ) (c : Except PyErr (Fin wave.length → Fin g.nY → Fin g.nX → Fl ℝ)) :
    evalTail mask reb nWhole psf xs ys g disp wave c =
      evalTailF mask reb nWhole psf xs ys g disp wave.length wave.get c := by
  unfold evalTail evalTailF
  cases c with
  | error e => rfl
  | ok cube =>
    simp only
    split
    · rfl
    · cases allFinite cube with
      | none => rfl
      | some cube =>
        simp only
        cases allFinite (psfConvolve cube psf.fwhm (psf.stamp xs ys)) with
        | none => rfl
        | some conv =>
          simp only
          split
          · generalize (if reb = true then _ else _ : Except PyErr Arr2) = R
            cases R with
            | error e => rfl
            | ok img2 =>
              simp only
              split
              · rename_i hn
                generalize instStage img2.val (fun i => wave.get (Fin.cast hn i)) disp = S
                rcases S with e | _ | v <;> rfl
              · rfl
          · rfl

theorem evalTailF_wl {u : ℝ} (hu : 0 < u) (mask reb : Bool) (nWhole : Nat) (psf : PSF) (xs ys : List ℝ) (g : Grid ℝ)
    (disp : ℝ) (n : Nat) (F : Fin n → ℝ) (c : Except PyErr (Fin n → Fin g.nY → Fin g.nX → Fl ℝ)) :
    evalTailF mask reb nWhole psf xs ys g (u * disp) n (fun i => u * F i) c =
      evalTailF mask reb nWhole psf xs ys g disp n F c := by
  unfold evalTailF
  simp only [instStage_wl hu]

/-- the cube and the later stages with the wavelengths as a function -/
noncomputable def evalF (cfg : AperCfg) (f : AperFixed) (V : Cube f.grid.nZ f.grid.nY f.grid.nX ℝ) (disp : ℝ)
    (rs : List ℝ) (sig : ℝ) (n : Nat) (F : Fin n → ℝ) : Except PyErr (Option Arr2) :=
  evalTailF cfg.slitMask cfg.rebinOutput cfg.nWhole cfg.psf f.xTrim f.yTrim f.grid disp n F
    (addSigmaCollapseZ f.I V (fun _ _ _ => sig) F f.z rs cfg.ratios f.grid.deltZ cfg.specType)

theorem evalF_cast (cfg : AperCfg) (f : AperFixed) (V : Cube f.grid.nZ f.grid.nY f.grid.nX ℝ) (disp : ℝ)
    (rs : List ℝ) (sig : ℝ) {n n' : Nat} (h : n' = n) (F : Fin n → ℝ) (F' : Fin n' → ℝ)
    (hF : ∀ i, F' i = F (Fin.cast h i)) : evalF cfg f V disp rs sig n' F' = evalF cfg f V disp rs sig n F := by
  subst h
  have : F' = F := funext hF
  rw [this]

theorem evalStages_eqF (cfg : AperCfg) (f : AperFixed) (kin : KinProfile) (wave : List ℝ) (sig : ℝ) :
    evalStages cfg f kin wave sig = match velCube cfg f kin with
      | none => if cfg.slitMask then .error .valueError else .ok none
      | some V => evalF cfg f V (instDisp cfg f) cfg.restwave sig wave.length wave.get := by
  rw [evalStages_eq_tail]
  cases velCube cfg f kin with
  | none => rfl
  | some V => exact evalTail_eqF _ _ _ _ _ _ _ _ _ _

theorem evalStages_wl {u : ℝ} (hu : 0 < u) (cfg : AperCfg) (hst : cfg.specType = .wave) (f : AperFixed)
    (kin : KinProfile) (wave : List ℝ) (sig : ℝ) :
    evalStages (cfg.wl u) (f.wl u) kin (wave.map (u * ·)) sig =
      (evalStages cfg f kin wave sig).map (Option.map (Arr2.smul (wlFactor u sig))) := by
  rw [evalStages_eqF, evalStages_eqF]
  have hv : velCube (cfg.wl u) (f.wl u) kin = velCube cfg f kin := rfl
  rw [hv]
  cases velCube cfg f kin with
  | none =>
    show (if cfg.slitMask = true then (.error .valueError : Except PyErr (Option Arr2)) else .ok none) =
      (if cfg.slitMask = true then (.error .valueError : Except PyErr (Option Arr2)) else .ok none).map _
    split <;> rfl
  | some V =>
    simp only
    have h1 : evalF (cfg.wl u) (f.wl u) V (instDisp (cfg.wl u) (f.wl u)) (cfg.wl u).restwave sig
        (wave.map (u * ·)).length (wave.map (u * ·)).get =
        evalF (cfg.wl u) (f.wl u) V (instDisp (cfg.wl u) (f.wl u)) (cfg.wl u).restwave sig wave.length
          (fun i => u * wave.get i) :=
      evalF_cast _ _ _ _ _ _ (List.length_map _) _ _ (fun i => by simp)
    rw [h1]
    have hd : instDisp (cfg.wl u) (f.wl u) = u * instDisp cfg f := by
      unfold instDisp
      have : (cfg.wl u).specType = .wave := hst
      rw [this, hst]
      show cfg.res / cKms * (u * f.lam0) = _
      ring
    rw [hd]
    show evalTailF cfg.slitMask cfg.rebinOutput cfg.nWhole cfg.psf f.xTrim f.yTrim f.grid (u * instDisp cfg f)
      wave.length (fun i => u * wave.get i) (addSigmaCollapseZ f.I V (fun _ _ _ => sig) (fun i => u * wave.get i) f.z
        (cfg.restwave.map (u * ·)) cfg.ratios f.grid.deltZ cfg.specType) = _
    rw [evalTailF_wl hu, hst, addSigma_wl hu]
    have h2 := evalTail_scale (wlFactor u sig) (wlFactor_pos hu sig) cfg.slitMask cfg.rebinOutput cfg.nWhole cfg.psf
      f.xTrim f.yTrim f.grid (instDisp cfg f) wave (addSigmaCollapseZ f.I V (fun _ _ _ => sig) wave.get f.z cfg.restwave
        cfg.ratios f.grid.deltZ .wave)
    rw [evalTail_eqF, evalTail_eqF] at h2
    rw [h2]
    unfold evalF
    rw [hst]

theorem evalImage_wl {u : ℝ} (hu : 0 < u) (cfg : AperCfg) (hst : cfg.specType = .wave) (f : AperFixed)
    (kin : KinProfile) (wave : List ℝ) (sig : ℝ) :
    evalImage (cfg.wl u) (f.wl u) kin (wave.map (u * ·)) sig =
      (evalImage cfg f kin wave sig).map (Option.map (Arr2.smul (wlFactor u sig))) := by
  have h := evalStages_wl hu cfg hst f kin wave sig
  have hm : KernelMissing (cfg.wl u) (f.wl u) ↔ KernelMissing cfg f := Iff.rfl
  unfold evalImage
  by_cases hc : KernelMissing cfg f
  · rw [if_pos (hm.2 hc), if_pos hc, h]
    cases evalStages cfg f kin wave sig <;> rfl
  · rw [if_neg (fun h => hc (hm.1 h)), if_neg hc, h]

theorem min_wl {u : ℝ} (hu : 0 < u) (l : List ℝ) : (l.map (u * ·)).min? = l.min?.map (u * ·) := by
  cases l with
  | nil => rfl
  | cons a l =>
    simp only [List.map_cons, List.min?_cons', Option.map_some, Option.some.injEq]
    induction l generalizing a with
    | nil => rfl
    | cons b l ih =>
      simp only [List.map_cons, List.foldl_cons]
      rw [← mul_min_of_nonneg _ _ hu.le, ih]

theorem max_wl {u : ℝ} (hu : 0 < u) (l : List ℝ) : (l.map (u * ·)).max? = l.max?.map (u * ·) := by
  cases l with
  | nil => rfl
  | cons a l =>
    simp only [List.map_cons, List.max?_cons', Option.map_some, Option.some.injEq]
    induction l generalizing a with
    | nil => rfl
    | cons b l ih =>
      simp only [List.map_cons, List.foldl_cons]
      rw [← mul_max_of_nonneg _ _ hu.le, ih]

theorem checkUpsample_wl {u : ℝ} (hu : 0 < u) (cfg : AperCfg) (s : AperState) :
    checkUpsample (cfg.wl u) (s.wl u) = ((checkUpsample cfg s).1.wl u, (checkUpsample cfg s).2) := by
  obtain ⟨⟨g, z, lam0, wr, dr, xi, yi, I, fv, up, xt, yt⟩, ⟨t0, v, d⟩, w, dw⟩ := s
  rcases d with _ | ⟨dt, dn⟩
  · rfl
  · generalize hR : checkUpsample cfg _ = R
    unfold checkUpsample AperState.wl AperFixed.wl AperCfg.wl
    unfold checkUpsample at hR
    simp only at hR ⊢
    cases up with
    | none => subst hR; rfl
    | some lim =>
      cases hd : dt[0]? with
      | none => rw [hd] at hR; subst hR; rfl
      | some sig =>
        rw [hd] at hR
        simp only at hR ⊢
        by_cases h1 : |sig| < lim
        · rw [if_pos h1] at hR ⊢
          by_cases h2 : cfg.npFloat = false
          · rw [if_pos h2] at hR ⊢
            subst hR; rfl
          · rw [if_neg h2] at hR ⊢
            by_cases h3 : cfg.factor = 0
            · rw [if_pos h3] at hR ⊢
              subst hR; rfl
            · rw [if_neg h3] at hR ⊢
              rw [min_wl hu, max_wl hu, mul_div_assoc]
              cases hlo : w.min? with
              | none => rw [hlo] at hR; subst hR; rfl
              | some lo =>
                cases hhi : w.max? with
                | none => rw [hlo, hhi] at hR; subst hR; rfl
                | some hi =>
                  rw [hlo, hhi] at hR
                  simp only [Option.map_some] at hR ⊢
                  have e1 : u * lo - 1 / 2 * (u * dr - u * (dr / cfg.factor)) =
                    u * (lo - 1 / 2 * (dr - dr / cfg.factor)) := by ring
                  have e2 : u * hi + 1 / 2 * (u * dr - u * (dr / cfg.factor)) =
                    u * (hi + 1 / 2 * (dr - dr / cfg.factor)) := by ring
                  rw [e1, e2, ← mul_sub, mul_div_mul_left _ _ hu.ne', linspace_zoom]
                  split
                  · rename_i h4
                    rw [if_pos h4] at hR
                    subst hR; rfl
                  · rename_i h4
                    rw [if_neg h4] at hR
                    subst hR; rfl
        · rw [if_neg h1] at hR ⊢
          subst hR; rfl

theorem applySigmaFloor_wl (u : ℝ) (cfg : AperCfg) (s : AperState) :
    applySigmaFloor (cfg.wl u) (s.wl u) = ((applySigmaFloor cfg s).1.wl u, (applySigmaFloor cfg s).2) := by
  obtain ⟨f, ⟨t0, v, d⟩, w, dw⟩ := s
  rcases d with _ | ⟨dt, dn⟩
  · rfl
  · unfold applySigmaFloor AperState.wl AperFixed.wl AperCfg.wl
    simp only
    split <;> rfl

theorem downsample_wl (u k : ℝ) (cfg : AperCfg) (s : AperState) (img : Option Arr2) :
    downsample (cfg.wl u) (s.wl u) (img.map (Arr2.smul k)) =
      ((downsample cfg s img).1.wl u, (downsample cfg s img).2.map (Option.map (Arr2.smul k))) := by
  rcases img with _ | a
  · rfl
  · unfold downsample
    simp only [Option.map_some]
    have h1 : (s.wl u).fixed.waveReal.length = s.fixed.waveReal.length := List.length_map _
    have h2 : (cfg.wl u).nWhole = cfg.nWhole := rfl
    rw [h1, h2, rebinArr_scale]
    cases rebinArr a s.fixed.waveReal.length cfg.nWhole <;> rfl

/-- the dispersion an evaluation uses -/
noncomputable def usedSigma (cfg : AperCfg) (s : AperState) (theta : List ℝ) : ℝ :=
  match s.kin.updateTheta theta with
  | .error _ => 0
  | .ok k =>
    match (applySigmaFloor cfg (if cfg.adaptive then checkUpsample cfg { s with kin := k } else
        ({ s with kin := k }, .ok ())).1).2 with
    | .error _ => 0
    | .ok sig => sig

theorem doModelCalcs_wl {u : ℝ} (hu : 0 < u) (cfg : AperCfg) (hst : cfg.specType = .wave) (s : AperState)
    (theta : List ℝ) :
    doModelCalcs (cfg.wl u) (s.wl u) theta =
      ((doModelCalcs cfg s theta).1.wl u,
        (doModelCalcs cfg s theta).2.map (Option.map (Arr2.smul (wlFactor u (usedSigma cfg s theta))))) := by
  unfold doModelCalcs usedSigma
  have h1 : (s.wl u).kin = s.kin := rfl
  rw [h1]
  cases s.kin.updateTheta theta with
  | error e => rfl
  | ok kin =>
    simp only
    have h2 : ({ s.wl u with kin := kin } : AperState) = AperState.wl u { s with kin := kin } := rfl
    have h3 : (cfg.wl u).adaptive = cfg.adaptive := rfl
    have hup : (if (cfg.wl u).adaptive = true then checkUpsample (cfg.wl u) { s.wl u with kin := kin }
        else ({ s.wl u with kin := kin }, .ok ())) =
        ((if cfg.adaptive = true then checkUpsample cfg { s with kin := kin } else
          ({ s with kin := kin }, .ok ())).1.wl u, (if cfg.adaptive = true then
          checkUpsample cfg { s with kin := kin } else ({ s with kin := kin }, .ok ())).2) := by
      rw [h2, h3]
      split
      · exact checkUpsample_wl hu _ _
      · rfl
    rw [hup]
    generalize (if cfg.adaptive = true then checkUpsample cfg { s with kin := kin } else
          ({ s with kin := kin }, .ok ())) = U
    cases hU : U.2 with
    | error e => rfl
    | ok _ =>
      simp only [applySigmaFloor_wl]
      generalize applySigmaFloor cfg U.1 = F
      cases hF : F.2 with
      | error e => rfl
      | ok sig =>
        simp only
        have h4 : evalImage (cfg.wl u) (F.1.wl u).fixed (F.1.wl u).kin (F.1.wl u).wave sig =
            (evalImage cfg F.1.fixed F.1.kin F.1.wave sig).map (Option.map (Arr2.smul (wlFactor u sig))) :=
          evalImage_wl hu cfg hst F.1.fixed F.1.kin F.1.wave sig
        rw [h4]
        cases evalImage cfg F.1.fixed F.1.kin F.1.wave sig with
        | error e => rfl
        | ok img =>
          simp only [Except.map]
          have hT : ∀ o : Option Arr2, Option.map Arr2.T (Option.map (Arr2.smul (wlFactor u sig)) o) =
              Option.map (Arr2.smul (wlFactor u sig)) (Option.map Arr2.T o) := by
            intro o; cases o <;> rfl
          by_cases ha : cfg.adaptive = true
          · rw [if_pos ha, if_pos (h3.trans ha), downsample_wl]
            cases downsample cfg F.1 img with
            | mk s' r => cases r with
              | error e => rfl
              | ok o => simp only [Except.map, hT]
          · rw [if_neg ha, if_neg (by rw [h3]; exact ha)]
            simp only [hT]

end Misfit
