import Verif.Lemmas.Image

/-! Helper lemmas for C79: every stage of an evaluation commutes with multiplying the intensity by
a positive number -/

namespace Misfit

/-- multiplication by a positive number -/
def Fl.sc (k : ℝ) : Fl ℝ → Fl ℝ
  | .fin x => .fin (k * x)
  | .nan => .nan
  | .pinf => .pinf
  | .ninf => .ninf

theorem Fl.sc_add (k : ℝ) (a b : Fl ℝ) : (a + b).sc k = a.sc k + b.sc k := by
  cases a <;> cases b <;> try rfl
  simp only [Fl.fin_add, Fl.sc, mul_add]

theorem Fl.infTimes_mul (k a : ℝ) (hk : 0 < k) : Fl.infTimes (k * a) = Fl.infTimes a := by
  unfold Fl.infTimes
  simp only [mul_eq_zero, hk.ne', false_or, mul_pos_iff_of_pos_left hk]

theorem Fl.sc_infTimes (k a : ℝ) : (Fl.infTimes a).sc k = Fl.infTimes a := by
  unfold Fl.infTimes
  split
  · rfl
  · split <;> rfl

theorem Fl.sc_mul_left (k : ℝ) (hk : 0 < k) (c : ℝ) (x : Fl ℝ) : Fl.fin (k * c) * x = (Fl.fin c * x).sc k := by
  cases x with
  | fin x => simp only [Fl.fin_mul, Fl.sc, mul_assoc]
  | nan => rfl
  | pinf =>
    show Fl.infTimes (k * c) = (Fl.infTimes c).sc k
    rw [Fl.infTimes_mul _ _ hk, Fl.sc_infTimes]
  | ninf =>
    show Fl.infTimes (-(k * c)) = (Fl.infTimes (-c)).sc k
    rw [← mul_neg, Fl.infTimes_mul _ _ hk, Fl.sc_infTimes]

theorem Fl.sc_mul_right (k : ℝ) (a : Fl ℝ) (b : ℝ) : a.sc k * Fl.fin b = (a * Fl.fin b).sc k := by
  cases a with
  | fin x => simp only [Fl.fin_mul, Fl.sc, mul_assoc]
  | nan => rfl
  | pinf =>
    show Fl.infTimes b = (Fl.infTimes b).sc k
    rw [Fl.sc_infTimes]
  | ninf =>
    show Fl.infTimes (-b) = (Fl.infTimes (-b)).sc k
    rw [Fl.sc_infTimes]

theorem Fl.sc_sum {ι : Type*} (k : ℝ) (s : Finset ι) (f : ι → Fl ℝ) :
    ∑ i ∈ s, (f i).sc k = (∑ i ∈ s, f i).sc k := by
  classical
  induction s using Finset.induction_on with
  | empty => simp [Fl.sc]
  | insert a s ha ih => rw [Finset.sum_insert ha, Finset.sum_insert ha, ih, Fl.sc_add]

theorem Fl.sc_finite (k : ℝ) (a : Fl ℝ) : (a.sc k).isFinite = a.isFinite := by cases a <;> rfl

theorem Fl.div_scale (k a b : ℝ) (hk : 0 < k) :
    (Fl.fin (k * a) / Fl.fin (k * b) : Fl ℝ) = Fl.fin a / Fl.fin b := by
  rw [Fl.fin_div, Fl.fin_div]
  by_cases hb : b = 0
  · rw [if_pos hb, if_pos (by rw [hb, mul_zero]), Fl.infTimes_mul _ _ hk]
  · rw [if_neg hb, if_neg (mul_ne_zero hk.ne' hb), mul_div_mul_left _ _ hk.ne']

/-! ### stages -/

theorem broadSum_scale {nZ nY nX : Nat} (k : ℝ) (hk : 0 < k) (I cen sig : Cube nZ nY nX ℝ) (dz lam : ℝ)
    (j : Fin nY) (x : Fin nX) :
    broadSum (fun m j x => k * I m j x) cen sig dz lam j x = (broadSum I cen sig dz lam j x).sc k := by
  unfold broadSum
  simp only [Fl.sc_mul_left k hk]
  rw [Fl.sc_sum, Fl.sc_mul_right]

theorem simpleCollapse_scale {nW nZ nY nX : Nat} (k : ℝ) (I V : Cube nZ nY nX ℝ) (wave : Fin nW → ℝ)
    (dz lam0 : ℝ) (l : List (Fin nX × Fin nY × Fin nZ)) (acc : Cube nW nY nX ℝ) :
    l.foldlM (simpleCollapseStep (fun m j x => k * I m j x) V wave dz lam0) (fun w j x => k * acc w j x) =
      (l.foldlM (simpleCollapseStep I V wave dz lam0) acc).map fun c w j x => k * c w j x := by
  induction l generalizing acc with
  | nil => rfl
  | cons c l ih =>
    rw [List.foldlM_cons, List.foldlM_cons]
    have hs : simpleCollapseStep (fun m j x => k * I m j x) V wave dz lam0 (fun w j x => k * acc w j x) c =
        (simpleCollapseStep I V wave dz lam0 acc c).map fun c w j x => k * c w j x := by
      unfold simpleCollapseStep
      simp only
      split
      · rfl
      · simp only [Except.map]
        congr 1
        funext w' j' k'
        split <;> ring
    rw [hs]
    cases simpleCollapseStep I V wave dz lam0 acc c with
    | error e => rfl
    | ok a => exact ih a

theorem oneLine_scale {nW nZ nY nX : Nat} (k : ℝ) (hk : 0 < k) (I V sig : Cube nZ nY nX ℝ)
    (wave : Fin nW → ℝ) (z dz rest : ℝ) :
    oneLine (fun m j x => k * I m j x) V sig wave z dz rest =
      (oneLine I V sig wave z dz rest).map fun c w j x => (c w j x).sc k := by
  unfold oneLine
  simp only
  split
  · simp only [Except.map, broadSum_scale k hk]
  · have := simpleCollapse_scale k I V wave dz (rest * (1 + z)) (simpleCollapseCells nZ nY nX) fun _ _ _ => 0
    simp only [mul_zero] at this
    unfold iSimpleCollapse
    rw [this]
    cases List.foldlM (simpleCollapseStep I V wave dz (rest * (1 + z))) (fun _ _ _ => 0)
      (simpleCollapseCells nZ nY nX) <;> rfl

theorem collapseLines_scale {nW nZ nY nX : Nat} (k : ℝ) (hk : 0 < k) (I V sig : Cube nZ nY nX ℝ)
    (wave : Fin nW → ℝ) (z dz : ℝ) (rs fs : List ℝ) (acc : Fin nW → Fin nY → Fin nX → Fl ℝ) :
    collapseLines (fun m j x => k * I m j x) V sig wave z dz rs fs (fun w j x => (acc w j x).sc k) =
      (collapseLines I V sig wave z dz rs fs acc).map fun c w j x => (c w j x).sc k := by
  induction rs generalizing fs acc with
  | nil => rfl
  | cons r rs ih =>
    unfold collapseLines
    rw [oneLine_scale k hk]
    cases oneLine I V sig wave z dz r with
    | error e => rfl
    | ok one =>
      cases fs with
      | nil => rfl
      | cons f fs =>
        simp only [Except.map]
        have := ih fs (fun w j x => acc w j x + one w j x * Fl.fin f)
        simp only [Except.map] at this
        rw [← this]
        simp only [Fl.sc_mul_right, Fl.sc_add]

theorem addSigma_scale {nW nZ nY nX : Nat} (k : ℝ) (hk : 0 < k) (I V sig : Cube nZ nY nX ℝ)
    (wave : Fin nW → ℝ) (z dz : ℝ) (rs fs : List ℝ) (st : SpecType) :
    addSigmaCollapseZ (fun m j x => k * I m j x) V sig wave z rs fs dz st =
      (addSigmaCollapseZ I V sig wave z rs fs dz st).map fun c w j x => (c w j x).sc k := by
  have h0 : (Fl.fin 0 : Fl ℝ).sc k = .fin 0 := by simp [Fl.sc]
  unfold addSigmaCollapseZ
  cases st with
  | wave =>
    simp only
    split
    · rfl
    · have := collapseLines_scale k hk I V sig wave z dz rs fs fun _ _ _ => 0
      simp only [Fl.zero_def, h0] at this
      exact this
  | velocity =>
    simp only
    split
    · rfl
    · split
      · simp only [Except.map, broadSum_scale k hk, zero_add]
      · rfl
  | other => simp only [Except.map, Fl.zero_def, h0]

theorem allFinite_scale {n m p : Nat} (k : ℝ) (a : Fin n → Fin m → Fin p → Fl ℝ) :
    allFinite (fun i j l => (a i j l).sc k) = (allFinite a).map fun b i j l => k * b i j l := by
  unfold allFinite
  by_cases h : ∀ i j l, (a i j l).isFinite = true
  · rw [if_pos h, if_pos (by simpa only [Fl.sc_finite] using h)]
    simp only [Option.map_some, Option.some.injEq]
    funext i j l
    obtain ⟨x, hx⟩ := Fl.exists_of_isFinite (h i j l)
    simp only [hx, Fl.sc]
  · rw [if_neg h, if_neg (by simpa only [Fl.sc_finite] using h)]
    rfl

theorem allFinite2_scale {n m : Nat} (k : ℝ) (a : Fin n → Fin m → Fl ℝ) :
    allFinite2 (fun i j => (a i j).sc k) = (allFinite2 a).map fun b i j => k * b i j := by
  unfold allFinite2
  by_cases h : ∀ i j, (a i j).isFinite = true
  · rw [if_pos h, if_pos (by simpa only [Fl.sc_finite] using h)]
    simp only [Option.map_some, Option.some.injEq]
    funext i j
    obtain ⟨x, hx⟩ := Fl.exists_of_isFinite (h i j)
    simp only [hx, Fl.sc]
  · rw [if_neg h, if_neg (by simpa only [Fl.sc_finite] using h)]
    rfl

theorem convSame2_scale {n m kn km : Nat} (k : ℝ) (a : Fin n → Fin m → ℝ) (s : Fin kn → Fin km → ℝ)
    (y : Fin n) (x : Fin m) : convSame2 (fun y x => k * a y x) s y x = k * convSame2 a s y x := by
  rw [convSame2_source, convSame2_source, Finset.mul_sum]
  refine Finset.sum_congr rfl fun y' _ => ?_
  rw [Finset.mul_sum]
  exact Finset.sum_congr rfl fun x' _ => mul_assoc _ _ _

theorem psfConvolve_scale {nW n m kn km : Nat} (k : ℝ) (hk : 0 < k) (cube : Fin nW → Fin n → Fin m → ℝ)
    (fwhm : ℝ) (stamp : Fin kn → Fin km → ℝ) :
    psfConvolve (fun w y x => k * cube w y x) fwhm stamp =
      fun w y x => (psfConvolve cube fwhm stamp w y x).sc k := by
  unfold psfConvolve
  split
  · funext w y x
    simp only [convSame2_scale, ← Finset.mul_sum]
    rw [Fl.div_scale k _ _ hk, Fl.sc_mul_left k hk]
  · rfl

theorem instStage_scale {nW m : Nat} (k : ℝ) (hk : 0 < k) (img : Fin nW → Fin m → ℝ) (wave : Fin nW → ℝ)
    (disp : ℝ) : instStage (fun w y => k * img w y) wave disp =
      (instStage img wave disp).map (Option.map fun b w y => k * b w y) := by
  unfold instStage
  split
  · unfold instConvolComplete convolInstConst
    simp only [convSame2_scale, ← Finset.mul_sum, Fl.div_scale k _ _ hk, Fl.sc_mul_left k hk, Except.map]
    rw [allFinite2_scale]
  · rfl

/-- an image multiplied by a number -/
def Arr2.smul (k : ℝ) (a : Arr2) : Arr2 := ⟨a.n, a.m, fun i j => k * a.val i j⟩

theorem rebinArr_scale (k : ℝ) (a : Arr2) (p q : Nat) :
    rebinArr (a.smul k) p q = (rebinArr a p q).map (Arr2.smul k) := by
  have hr : rebin (a.smul k).val p q = (rebin a.val p q).map fun b i j => k * b i j := by
    unfold rebin Arr2.smul
    simp only
    by_cases h0 : p = 0 ∨ q = 0
    · rw [if_pos h0, if_pos h0]; rfl
    · rw [if_neg h0, if_neg h0]
      by_cases h1 : p * (a.n / p) * (q * (a.m / q)) = a.n * a.m
      · rw [if_pos h1, if_pos h1]
        simp only [Except.map, Finset.mul_sum]
        congr 1
        funext i j
        refine Finset.sum_congr rfl fun s _ => Finset.sum_congr rfl fun t _ => ?_
        unfold flatAt
        split
        · rfl
        · rw [mul_zero]
      · rw [if_neg h1, if_neg h1]; rfl
  unfold rebinArr
  rw [hr]
  cases rebin a.val p q <;> rfl

/-- the attributes set by `setup_calcs` with the intensity cube multiplied by a number -/
def AperFixed.smul (k : ℝ) (f : AperFixed) : AperFixed :=
  { f with I := fun c b a => k * f.I c b a }

/-- the settings with the intensity profile multiplied by a number -/
def AperCfg.smul (k : ℝ) (cfg : AperCfg) : AperCfg :=
  { cfg with int := fun r z => k * cfg.int r z }

def AperState.smul (k : ℝ) (s : AperState) : AperState := { s with fixed := s.fixed.smul k }

theorem trimSum_scale {nW nY nX : Nat} (k : ℝ) (cube : Fin nW → Fin nY → Fin nX → ℝ) (g : Grid ℝ)
    (hY : nY = g.nPixY + 2 * g.padY) (hX : nX = g.nPixX + 2 * g.padX) :
    trimSum (fun w y x => k * cube w y x) g hY hX = fun w b => k * trimSum cube g hY hX w b := by
  funext w b
  unfold trimSum
  rw [← Finset.mul_sum, mul_assoc]

/-- the stages of `evalImage` after the collapsed cube -/
noncomputable def evalTail (mask reb : Bool) (nWhole : Nat) (psf : PSF) (xs ys : List ℝ) (g : Grid ℝ)
    (disp : ℝ) (wave : List ℝ) (c : Except PyErr (Fin wave.length → Fin g.nY → Fin g.nX → Fl ℝ)) :
    Except PyErr (Option Arr2) :=
  match c with
  | .error e => .error e
  | .ok cube =>
    if mask then .error .valueError
    else
      match allFinite cube with
      | none => .ok none
      | some cube =>
        match allFinite (psfConvolve cube psf.fwhm (psf.stamp xs ys)) with
        | none => .ok none
        | some conv =>
          if h : g.nY = g.nPixY + 2 * g.padY ∧ g.nX = g.nPixX + 2 * g.padX then
            let img : Arr2 := ⟨wave.length, g.nPixY, trimSum conv g h.1 h.2⟩
            match (if reb then rebinArr img wave.length nWhole else .ok img) with
            | .error e => .error e
            | .ok img2 =>
              if hn : img2.n = wave.length then
                match instStage img2.val (fun i => wave.get (Fin.cast hn i)) disp with
                | .error e => .error e
                | .ok none => .ok none
                | .ok (some v) => .ok (some ⟨img2.n, img2.m, v⟩)
              else .ok none
          else .ok none

theorem evalStages_eq_tail (cfg : AperCfg) (f : AperFixed) (kin : KinProfile) (wave : List ℝ) (sig : ℝ) :
    evalStages cfg f kin wave sig = match velCube cfg f kin with
      | none => if cfg.slitMask then .error .valueError else .ok none
      | some V => evalTail cfg.slitMask cfg.rebinOutput cfg.nWhole cfg.psf f.xTrim f.yTrim f.grid
          (instDisp cfg f) wave (addSigmaCollapseZ f.I V (fun _ _ _ => sig) wave.get f.z cfg.restwave
            cfg.ratios f.grid.deltZ cfg.specType) := by
  unfold evalStages
  cases velCube cfg f kin with
  | none => rfl
  | some V =>
    unfold evalTail
    simp only
    cases addSigmaCollapseZ f.I V (fun _ _ _ => sig) wave.get f.z cfg.restwave
            cfg.ratios f.grid.deltZ cfg.specType with
    | error e => rfl
    | ok c0 =>
      simp only
      split
      · rfl
      · cases allFinite c0 with
        | none => rfl
        | some cube =>
          simp only
          cases allFinite (psfConvolve cube cfg.psf.fwhm (cfg.psf.stamp f.xTrim f.yTrim)) with
          | none => rfl
          | some conv => rfl

theorem evalTail_scale (k : ℝ) (hk : 0 < k) (mask reb : Bool) (nWhole : Nat) (psf : PSF) (xs ys : List ℝ)
    (g : Grid ℝ) (disp : ℝ) (wave : List ℝ)
    (c : Except PyErr (Fin wave.length → Fin g.nY → Fin g.nX → Fl ℝ)) :
    evalTail mask reb nWhole psf xs ys g disp wave (c.map fun c w j x => (c w j x).sc k) =
      (evalTail mask reb nWhole psf xs ys g disp wave c).map (Option.map (Arr2.smul k)) := by
  cases c with
  | error e => rfl
  | ok c0 =>
    unfold evalTail
    simp only [Except.map]
    split
    · rfl
    · rw [allFinite_scale]
      cases allFinite c0 with
      | none => rfl
      | some cube =>
        simp only [Option.map_some]
        rw [psfConvolve_scale k hk, allFinite_scale]
        cases allFinite (psfConvolve cube psf.fwhm (psf.stamp xs ys)) with
        | none => rfl
        | some conv =>
          simp only [Option.map_some]
          split
          · rename_i hh
            rw [trimSum_scale]
            generalize hA : (⟨wave.length, g.nPixY, trimSum conv g hh.1 hh.2⟩ : Arr2) = A
            have hA' : (⟨wave.length, g.nPixY, fun w b => k * trimSum conv g hh.1 hh.2 w b⟩ : Arr2) =
                A.smul k := by rw [← hA]; rfl
            rw [hA']
            have hr : (if reb = true then rebinArr (A.smul k) wave.length nWhole else
                .ok (A.smul k)) = (if reb = true then rebinArr A wave.length nWhole else
                .ok A).map (Arr2.smul k) := by
              split
              · exact rebinArr_scale _ _ _ _
              · rfl
            rw [hr]
            cases (if reb = true then rebinArr A wave.length nWhole else .ok A) with
            | error e => rfl
            | ok img2 =>
              simp only [Except.map]
              by_cases hn : img2.n = wave.length
              · have hn' : (img2.smul k).n = wave.length := hn
                rw [dif_pos hn, dif_pos hn']
                have := instStage_scale k hk img2.val (fun i => wave.get (Fin.cast hn i)) disp
                unfold Arr2.smul
                simp only at this ⊢
                rw [this]
                cases instStage img2.val (fun i => wave.get (Fin.cast hn i)) disp with
                | error e => rfl
                | ok o => cases o <;> rfl
              · have hn' : ¬ (img2.smul k).n = wave.length := hn
                rw [dif_neg hn, dif_neg hn']
                rfl
          · rfl

theorem evalStages_scale (k : ℝ) (hk : 0 < k) (cfg : AperCfg) (f : AperFixed) (kin : KinProfile)
    (wave : List ℝ) (sig : ℝ) :
    evalStages (cfg.smul k) (f.smul k) kin wave sig =
      (evalStages cfg f kin wave sig).map (Option.map (Arr2.smul k)) := by
  rw [evalStages_eq_tail, evalStages_eq_tail]
  have hv : velCube (cfg.smul k) (f.smul k) kin = velCube cfg f kin := rfl
  rw [hv]
  cases velCube cfg f kin with
  | none =>
    show (if cfg.slitMask = true then (.error .valueError : Except PyErr (Option Arr2)) else .ok none) =
      (if cfg.slitMask = true then (.error .valueError : Except PyErr (Option Arr2)) else .ok none).map _
    split <;> rfl
  | some V =>
    have h1 := addSigma_scale k hk f.I V (fun _ _ _ => sig) wave.get f.z f.grid.deltZ cfg.restwave
      cfg.ratios cfg.specType
    have h2 := evalTail_scale k hk cfg.slitMask cfg.rebinOutput cfg.nWhole cfg.psf f.xTrim f.yTrim f.grid
      (instDisp cfg f) wave (addSigmaCollapseZ f.I V (fun _ _ _ => sig) wave.get f.z cfg.restwave
            cfg.ratios f.grid.deltZ cfg.specType)
    rw [← h1] at h2
    exact h2

theorem evalImage_scale (k : ℝ) (hk : 0 < k) (cfg : AperCfg) (f : AperFixed) (kin : KinProfile)
    (wave : List ℝ) (sig : ℝ) :
    evalImage (cfg.smul k) (f.smul k) kin wave sig =
      (evalImage cfg f kin wave sig).map (Option.map (Arr2.smul k)) := by
  have h := evalStages_scale k hk cfg f kin wave sig
  have hm : KernelMissing (cfg.smul k) (f.smul k) ↔ KernelMissing cfg f := Iff.rfl
  unfold evalImage
  by_cases hc : KernelMissing cfg f
  · rw [if_pos (hm.2 hc), if_pos hc, h]
    cases evalStages cfg f kin wave sig <;> rfl
  · rw [if_neg (fun h => hc (hm.1 h)), if_neg hc, h]

theorem checkUpsample_scale (k : ℝ) (cfg : AperCfg) (s : AperState) :
    checkUpsample (cfg.smul k) (s.smul k) = ((checkUpsample cfg s).1.smul k, (checkUpsample cfg s).2) := by
  obtain ⟨⟨g, z, lam0, wr, dr, xi, yi, I, fv, up, xt, yt⟩, ⟨t0, v, d⟩, w, dw⟩ := s
  rcases d with _ | ⟨dt, dn⟩
  · rfl
  · generalize hR : checkUpsample cfg _ = R
    unfold checkUpsample AperState.smul AperFixed.smul AperCfg.smul
    unfold checkUpsample at hR
    simp only at hR ⊢
    cases up with
    | none => subst hR; rfl
    | some lim =>
      cases hd : dt[0]? with
      | none => rw [hd] at hR; subst hR; rfl
      | some sig =>
        rw [hd] at hR
        simp only at hR ⊢
        by_cases h1 : |sig| < lim
        · rw [if_pos h1] at hR ⊢
          by_cases h2 : cfg.npFloat = false
          · rw [if_pos h2] at hR ⊢
            subst hR; rfl
          · rw [if_neg h2] at hR ⊢
            by_cases h3 : cfg.factor = 0
            · rw [if_pos h3] at hR ⊢
              subst hR; rfl
            · rw [if_neg h3] at hR ⊢
              cases hlo : w.min? with
              | none => rw [hlo] at hR; subst hR; rfl
              | some lo =>
                cases hhi : w.max? with
                | none => rw [hlo, hhi] at hR; subst hR; rfl
                | some hi =>
                  rw [hlo, hhi] at hR
                  simp only at hR ⊢
                  split
                  · rename_i h4
                    rw [if_pos h4] at hR
                    subst hR; rfl
                  · rename_i h4
                    rw [if_neg h4] at hR
                    subst hR; rfl
        · rw [if_neg h1] at hR ⊢
          subst hR; rfl

theorem applySigmaFloor_scale (k : ℝ) (cfg : AperCfg) (s : AperState) :
    applySigmaFloor (cfg.smul k) (s.smul k) = ((applySigmaFloor cfg s).1.smul k, (applySigmaFloor cfg s).2) := by
  obtain ⟨f, ⟨t0, v, d⟩, w, dw⟩ := s
  rcases d with _ | ⟨dt, dn⟩
  · rfl
  · unfold applySigmaFloor AperState.smul AperFixed.smul AperCfg.smul
    simp only
    split <;> rfl

theorem downsample_scale (k : ℝ) (cfg : AperCfg) (s : AperState) (img : Option Arr2) :
    downsample (cfg.smul k) (s.smul k) (img.map (Arr2.smul k)) =
      ((downsample cfg s img).1.smul k, (downsample cfg s img).2.map (Option.map (Arr2.smul k))) := by
  rcases img with _ | a
  · rfl
  · unfold downsample
    simp only [Option.map_some]
    have h1 : (s.smul k).fixed.waveReal.length = s.fixed.waveReal.length := rfl
    have h2 : (cfg.smul k).nWhole = cfg.nWhole := rfl
    rw [h1, h2, rebinArr_scale]
    cases rebinArr a s.fixed.waveReal.length cfg.nWhole <;> rfl

theorem doModelCalcs_scale (k : ℝ) (hk : 0 < k) (cfg : AperCfg) (s : AperState) (theta : List ℝ) :
    doModelCalcs (cfg.smul k) (s.smul k) theta =
      ((doModelCalcs cfg s theta).1.smul k,
        (doModelCalcs cfg s theta).2.map (Option.map (Arr2.smul k))) := by
  unfold doModelCalcs
  have h1 : (s.smul k).kin = s.kin := rfl
  rw [h1]
  cases s.kin.updateTheta theta with
  | error e => rfl
  | ok kin =>
    simp only
    have h2 : ({ s.smul k with kin := kin } : AperState) = AperState.smul k { s with kin := kin } := rfl
    have h3 : (cfg.smul k).adaptive = cfg.adaptive := rfl
    have hup : (if (cfg.smul k).adaptive = true then checkUpsample (cfg.smul k) { s.smul k with kin := kin }
        else ({ s.smul k with kin := kin }, .ok ())) =
        ((if cfg.adaptive = true then checkUpsample cfg { s with kin := kin } else
          ({ s with kin := kin }, .ok ())).1.smul k, (if cfg.adaptive = true then
          checkUpsample cfg { s with kin := kin } else ({ s with kin := kin }, .ok ())).2) := by
      rw [h2, h3]
      split
      · exact checkUpsample_scale _ _ _
      · rfl
    rw [hup]
    generalize (if cfg.adaptive = true then checkUpsample cfg { s with kin := kin } else
          ({ s with kin := kin }, .ok ())) = U
    cases hU : U.2 with
    | error e => rfl
    | ok u =>
      simp only [applySigmaFloor_scale]
      generalize applySigmaFloor cfg U.1 = F
      cases hF : F.2 with
      | error e => rfl
      | ok sig =>
        simp only
        have h4 : evalImage (cfg.smul k) (F.1.smul k).fixed (F.1.smul k).kin (F.1.smul k).wave sig =
            (evalImage cfg F.1.fixed F.1.kin F.1.wave sig).map (Option.map (Arr2.smul k)) :=
          evalImage_scale k hk cfg F.1.fixed F.1.kin F.1.wave sig
        rw [h4]
        cases evalImage cfg F.1.fixed F.1.kin F.1.wave sig with
        | error e => rfl
        | ok img =>
          simp only [Except.map]
          have hT : ∀ o : Option Arr2, Option.map Arr2.T (Option.map (Arr2.smul k) o) =
              Option.map (Arr2.smul k) (Option.map Arr2.T o) := by
            intro o; cases o <;> rfl
          by_cases ha : cfg.adaptive = true
          · rw [if_pos ha, if_pos (h3.trans ha), downsample_scale]
            cases downsample cfg F.1 img with
            | mk s' r => cases r with
              | error e => rfl
              | ok o => simp only [Except.map, hT]
          · rw [if_neg ha, if_neg (by rw [h3]; exact ha)]
            simp only [hT]

theorem setupArrays_scale (k : ℝ) (cfg : AperCfg) (theta : List ℝ) :
    setupArrays (cfg.smul k) theta = (setupArrays cfg theta).map (AperFixed.smul k) := by
  unfold setupArrays
  simp only [bind, Except.bind, AperCfg.smul]
  split
  · rfl
  · split
    · rfl
    · split
      · rfl
      · split <;> rfl

theorem setupCalcs_scale (k : ℝ) (cfg : AperCfg) (theta : List ℝ) :
    setupCalcs (cfg.smul k) theta = (setupCalcs cfg theta).map (AperFixed.smul k) := by
  have hm : (cfg.smul k).psf.StampFails ↔ cfg.psf.StampFails := Iff.rfl
  unfold setupCalcs
  rw [setupArrays_scale]
  cases setupArrays cfg theta with
  | error e => rfl
  | ok f =>
    by_cases hc : cfg.psf.StampFails
    · simp only [Except.map, if_pos hc, if_pos (hm.2 hc)]
    · simp only [Except.map, if_neg hc, if_neg fun h => hc (hm.1 h)]

end Misfit
