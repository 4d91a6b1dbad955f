import Verif.Lemmas.ImageScale

/-! Helper lemmas for C168: every stage of an evaluation when all angles are expressed in another unit -/

namespace Misfit

/-- the parameter vector with its second entry, an angle, in another unit -/
def zoomTheta (u : ℝ) : List ℝ → List ℝ
  | a :: b :: t => a :: u * b :: t
  | l => l

def PSF.zoom (u : ℝ) (p : PSF) : PSF := { p with fwhm := u * p.fwhm, dither := p.dither.map (u * ·) }

noncomputable def AperCfg.zoom (u : ℝ) (cfg : AperCfg) : AperCfg :=
  { cfg with pixscale := u * cfg.pixscale, slit := u * cfg.slit, psf := cfg.psf.zoom u, xc := u * cfg.xc
             int := fun r z => cfg.int (r / u) (z / u) }

def GridIn.zoom (u : ℝ) (g : GridIn ℝ) : GridIn ℝ :=
  { g with pixscale := u * g.pixscale, slit := u * g.slit, fwhm := u * g.fwhm, xc := u * g.xc }

def Grid.zoom (u : ℝ) (g : Grid ℝ) : Grid ℝ :=
  { g with deltX := u * g.deltX, deltY := u * g.deltY, deltZ := u * g.deltZ
           xArr := g.xArr.map (u * ·), yArr := g.yArr.map (u * ·), zArr := g.zArr.map (u * ·) }

def KinProfile.zoom (u : ℝ) (k : KinProfile) : KinProfile :=
  { k with theta := zoomTheta u k.theta, vel := k.vel.map fun p => { p with theta := zoomTheta u p.theta } }

def AperFixed.zoom (u : ℝ) (f : AperFixed) : AperFixed :=
  { grid := f.grid.zoom u, z := f.z, lam0 := f.lam0, waveReal := f.waveReal, deltReal := f.deltReal
    xint := fun c b a => u * f.xint c b a, yint := fun c b a => u * f.yint c b a, I := f.I
    floorValue := f.floorValue, upsampleValue := f.upsampleValue
    xTrim := f.xTrim.map (u * ·), yTrim := f.yTrim.map (u * ·) }

def AperState.zoom (u : ℝ) (s : AperState) : AperState :=
  { s with fixed := s.fixed.zoom u, kin := s.kin.zoom u }

/-! ### grid -/

theorem linspace_zoom (u a b : ℝ) (n : Nat) : linspace (u * a) (u * b) n = (linspace a b n).map (u * ·) := by
  unfold linspace
  rw [List.map_map]
  refine List.map_congr_left fun i _ => ?_
  simp only [Function.comp]
  split
  · rfl
  · rw [← mul_sub, mul_div_assoc]; ring

theorem setupGrid_zoom {u : ℝ} (hu : 0 < u) (g : GridIn ℝ) :
    setupGrid (g.zoom u) = (setupGrid g).map (Grid.zoom u) := by
  unfold setupGrid
  have hS : (g.zoom u).S = g.S := rfl
  have hp : (g.zoom u).pixscale = u * g.pixscale := rfl
  rw [hS, hp]
  by_cases h1 : g.S = 0
  · rw [if_pos h1, if_pos h1]; rfl
  rw [if_neg h1, if_neg h1]
  by_cases h2 : g.pixscale = 0
  · rw [if_pos h2, if_pos (by rw [h2, mul_zero])]; rfl
  rw [if_neg h2, if_neg (mul_ne_zero hu.ne' h2)]
  have hd : u * g.pixscale / (g.S : ℝ) = u * (g.pixscale / g.S) := mul_div_assoc _ _ _
  have hn : nPixXOf (g.zoom u) (u * (g.pixscale / g.S)) (((g.nWhole * g.S : ℕ) : ℝ) * (u * (g.pixscale / g.S)))
      (g.nWhole * g.S) = nPixXOf g (g.pixscale / g.S) (((g.nWhole * g.S : ℕ) : ℝ) * (g.pixscale / g.S))
      (g.nWhole * g.S) := by
    unfold nPixXOf
    have e1 : (((g.nWhole * g.S : ℕ) : ℝ) * (u * (g.pixscale / g.S)) = (g.zoom u).slit) ↔
        (((g.nWhole * g.S : ℕ) : ℝ) * (g.pixscale / g.S) = g.slit) := by
      show _ = u * g.slit ↔ _
      rw [mul_left_comm]
      exact mul_right_inj' hu.ne'
    have e2 : (g.zoom u).slit / (u * (g.pixscale / g.S)) = g.slit / (g.pixscale / g.S) :=
      mul_div_mul_left _ _ hu.ne'
    rw [e2]
    by_cases h : (((g.nWhole * g.S : ℕ) : ℝ) * (g.pixscale / g.S) = g.slit)
    · rw [if_pos h, if_pos (e1.2 h)]
    · rw [if_neg h, if_neg (fun h' => h (e1.1 h'))]
  have hw : (g.zoom u).nWhole = g.nWhole := rfl
  simp only [hw, hd, hn]
  generalize nPixXOf g (g.pixscale / g.S) (((g.nWhole * g.S : ℕ) : ℝ) * (g.pixscale / g.S)) (g.nWhole * g.S) = N
  by_cases h3 : N = 0
  · rw [if_pos h3, if_pos h3]; rfl
  rw [if_neg h3, if_neg h3]
  have hs : (g.zoom u).slit / (N : ℝ) = u * (g.slit / N) := mul_div_assoc _ _ _
  have hf : (g.zoom u).fwhm * (g.zoom u).pad = u * (g.fwhm * g.pad) := mul_assoc _ _ _
  simp only [hs, hf, mul_div_mul_left _ _ hu.ne']
  generalize (npRound (g.fwhm * g.pad / (g.slit / N))).toNat = px
  generalize (npRound (g.fwhm * g.pad / (g.pixscale / g.S))).toNat = py
  generalize g.slit / N = dx
  generalize g.pixscale / g.S = dy
  simp only [Except.map, Grid.zoom]
  have hx : (g.zoom u).xc = u * g.xc := rfl
  have hm : (g.zoom u).m0fit = g.m0fit := rfl
  rw [hx, hm]
  congr 1
  have hl : ∀ (a b d e : ℝ) (n : Nat), (linspace (a * (u * d)) (b * (u * d)) n).map (· - u * e) =
      ((linspace (a * d) (b * d) n).map (· - e)).map (u * ·) := by
    intro a b d e n
    rw [mul_left_comm a, mul_left_comm b, linspace_zoom, List.map_map, List.map_map]
    refine List.map_congr_left fun i _ => ?_
    simp only [Function.comp]
    ring
  have hl' : ∀ (a b d : ℝ) (n : Nat), linspace (a * (u * d)) (b * (u * d)) n =
      (linspace (a * d) (b * d) n).map (u * ·) := by
    intro a b d n
    rw [mul_left_comm a, mul_left_comm b, linspace_zoom]
  have e : g.m0fit * (g.S : ℝ) * (u * dy) = u * (g.m0fit * g.S * dy) := mul_left_comm _ _ _
  rw [e]
  simp only [Grid.mk.injEq, true_and]
  exact ⟨hl _ _ _ _ _, hl _ _ _ _ _, hl' _ _ _ _⟩

theorem avgList_zoom (u : ℝ) (l : List ℝ) : avgList (l.map (u * ·)) = u * avgList l := by
  unfold avgList
  rw [List.sum_map_mul_left, List.length_map, List.map_id', mul_div_assoc]

theorem trimToFwhm_zoom {u : ℝ} (hu : 0 < u) (l : List ℝ) (f : ℝ) :
    trimToFwhm (l.map (u * ·)) (u * f) = (trimToFwhm l f).map (u * ·) := by
  unfold trimToFwhm
  rw [avgList_zoom, List.filter_map]
  congr 1
  refine List.filter_congr fun a _ => ?_
  simp only [Function.comp, ← mul_sub, abs_mul, abs_of_pos hu, mul_le_mul_iff_right₀ hu]

theorem transform_zoom (u x y z p i : ℝ) : transformInt3d (u * x) (u * y) (u * z) p i =
    (u * (transformInt3d x y z p i).1, u * (transformInt3d x y z p i).2.1, u * (transformInt3d x y z p i).2.2) := by
  simp only [transformInt3d, Prod.mk.injEq]
  refine ⟨by ring, by ring, by ring⟩

theorem getD_zoom (u : ℝ) (l : List ℝ) (i : Nat) : (l.map (u * ·)).getD i 0 = u * l.getD i 0 := by
  simp only [List.getD_eq_getElem?_getD, List.getElem?_map]
  cases l[i]? <;> simp

theorem radius_zoom {u : ℝ} (hu : 0 < u) (x y : ℝ) :
    Real.sqrt ((u * x) ^ 2 + (u * y) ^ 2) = u * Real.sqrt (x ^ 2 + y ^ 2) := by
  rw [mul_pow, mul_pow, ← mul_add, Real.sqrt_mul (sq_nonneg u), Real.sqrt_sq hu.le]

theorem fromEnd_zoom (u : ℝ) (theta : List ℝ) (h : 4 ≤ theta.length) (k : Nat) (hk : k = 1 ∨ k = 2) :
    fromEnd (zoomTheta u theta) k = fromEnd theta k := by
  rcases theta with _ | ⟨a, _ | ⟨b, t⟩⟩
  · rfl
  · rfl
  · have ht : 2 ≤ t.length := by simpa using h
    unfold fromEnd zoomTheta
    have : ∀ c : ℝ, (a :: c :: t).reverse[k - 1]? = t.reverse[k - 1]? := by
      intro c
      rw [List.reverse_cons, List.reverse_cons, List.append_assoc, List.getElem?_append_left]
      rw [List.length_reverse]
      rcases hk with rfl | rfl <;> omega
    rw [this, this]

theorem setupArrays_zoom {u : ℝ} (hu : 0 < u) (cfg : AperCfg) (theta : List ℝ) (h : 4 ≤ theta.length) :
    setupArrays (cfg.zoom u) (zoomTheta u theta) = (setupArrays cfg theta).map (AperFixed.zoom u) := by
  unfold setupArrays
  rw [fromEnd_zoom u theta h 1 (.inl rfl), fromEnd_zoom u theta h 2 (.inr rfl)]
  cases fromEnd theta 1 with
  | error e => rfl
  | ok z =>
    cases fromEnd theta 2 with
    | error e => rfl
    | ok m =>
      simp only [bind, Except.bind]
      have hg := setupGrid_zoom hu ⟨cfg.nWhole, cfg.nSubpixels, cfg.pixscale, cfg.slit, cfg.psf.fwhm,
        cfg.padFactor, cfg.xc, cfg.m0 + m⟩
      have hg' : setupGrid (⟨(cfg.zoom u).nWhole, (cfg.zoom u).nSubpixels, (cfg.zoom u).pixscale,
        (cfg.zoom u).slit, (cfg.zoom u).psf.fwhm, (cfg.zoom u).padFactor, (cfg.zoom u).xc, (cfg.zoom u).m0 + m⟩) =
        (setupGrid (⟨cfg.nWhole, cfg.nSubpixels, cfg.pixscale, cfg.slit, cfg.psf.fwhm,
        cfg.padFactor, cfg.xc, cfg.m0 + m⟩)).map (Grid.zoom u) := hg
      rw [hg']
      cases setupGrid (⟨cfg.nWhole, cfg.nSubpixels, cfg.pixscale, cfg.slit, cfg.psf.fwhm,
        cfg.padFactor, cfg.xc, cfg.m0 + m⟩) with
      | error e => rfl
      | ok g =>
        simp only [Except.map]
        have hx : ∀ a, (g.zoom u).xArr.getD a 0 = u * g.xArr.getD a 0 := getD_zoom u g.xArr
        have hy : ∀ a, (g.zoom u).yArr.getD a 0 = u * g.yArr.getD a 0 := getD_zoom u g.yArr
        have hz : ∀ a, (g.zoom u).zArr.getD a 0 = u * g.zArr.getD a 0 := getD_zoom u g.zArr
        have t1 : trimToFwhm (g.zoom u).xArr (cfg.zoom u).psf.fwhm =
          (trimToFwhm g.xArr cfg.psf.fwhm).map (u * ·) := trimToFwhm_zoom hu _ _
        have t2 : trimToFwhm (g.zoom u).yArr (cfg.zoom u).psf.fwhm =
          (trimToFwhm g.yArr cfg.psf.fwhm).map (u * ·) := trimToFwhm_zoom hu _ _
        have hi : ∀ r z, (cfg.zoom u).int (u * r) (u * z) = cfg.int r z := by
          intro r z
          show cfg.int (u * r / u) (u * z / u) = _
          rw [mul_div_cancel_left₀ _ hu.ne', mul_div_cancel_left₀ _ hu.ne']
        have hst : (cfg.zoom u).specType = cfg.specType := rfl
        have hrw : (cfg.zoom u).restwave = cfg.restwave := rfl
        simp only [hx, hy, hz, t1, t2, transform_zoom, radius_zoom hu, hi, hst, hrw]
        cases cfg.specType with
        | wave =>
          simp only
          cases cfg.restwave[0]? with
          | none => rfl
          | some r => rfl
        | velocity => rfl
        | other => rfl

theorem stampFails_zoom {u : ℝ} (hu : 0 < u) (p : PSF) : (p.zoom u).StampFails ↔ p.StampFails := by
  show (p.kind = .moffat ∧ (u * p.fwhm = 0 ∨ p.beta = 0)) ↔ _
  rw [mul_eq_zero, or_iff_right hu.ne']
  rfl

theorem setupCalcs_zoom {u : ℝ} (hu : 0 < u) (cfg : AperCfg) (theta : List ℝ) (h : 4 ≤ theta.length) :
    setupCalcs (cfg.zoom u) (zoomTheta u theta) = (setupCalcs cfg theta).map (AperFixed.zoom u) := by
  unfold setupCalcs
  rw [setupArrays_zoom hu cfg theta h]
  cases setupArrays cfg theta with
  | error e => rfl
  | ok f =>
    simp only [Except.map]
    have hm : (cfg.zoom u).psf.StampFails ↔ cfg.psf.StampFails := stampFails_zoom hu cfg.psf
    by_cases hs : cfg.psf.StampFails
    · rw [if_pos hs, if_pos (hm.2 hs)]
    · rw [if_neg hs, if_neg (fun h => hs (hm.1 h))]

/-! ### velocities -/

theorem losVelocity_zoom {u : ℝ} (hu : 0 < u) (theta : List ℝ) (sini x y : ℝ) :
    losVelocity (zoomTheta u theta) sini (u * x) (u * y) = losVelocity theta sini x y := by
  unfold losVelocity
  simp only [radius_zoom hu]
  have h1 : velArctan (zoomTheta u theta) (u * Real.sqrt (x ^ 2 + y ^ 2)) =
      velArctan theta (Real.sqrt (x ^ 2 + y ^ 2)) := by
    rcases theta with _ | ⟨a, _ | ⟨b, t⟩⟩
    · rfl
    · rfl
    · show Fl.fin (2 / Real.pi * a) * Fl.arctan (Fl.fin (u * _) / Fl.fin (u * b)) = _
      rw [Fl.div_scale u _ _ hu]
      rfl
  rw [h1, Fl.div_scale u _ _ hu]
  by_cases h0 : Real.sqrt (x ^ 2 + y ^ 2) = 0
  · rw [if_pos h0, if_pos (by rw [h0, mul_zero])]
  · rw [if_neg h0, if_neg (mul_ne_zero hu.ne' h0)]

theorem velCube_zoom {u : ℝ} (hu : 0 < u) (cfg : AperCfg) (f : AperFixed) (kin : KinProfile) :
    velCube (cfg.zoom u) (f.zoom u) (kin.zoom u) = velCube cfg f kin := by
  have key : ∀ c b a, losVelocity (match (kin.zoom u).vel with | some v => v.theta | none => [])
      (cfg.zoom u).sini ((f.zoom u).xint c b a) ((f.zoom u).yint c b a) =
      losVelocity (match kin.vel with | some v => v.theta | none => []) cfg.sini (f.xint c b a) (f.yint c b a) := by
    intro c b a
    have : (match (kin.zoom u).vel with | some v => v.theta | none => []) =
        zoomTheta u (match kin.vel with | some v => v.theta | none => []) := by
      obtain ⟨t, v, d⟩ := kin
      cases v <;> rfl
    rw [this]
    exact losVelocity_zoom hu _ _ _ _
  exact congrArg allFinite (funext fun c => funext fun b => funext fun a => key c b a)

/-! ### convolution -/

theorem stampAt_zoom {u : ℝ} (hu : 0 < u) (p : PSF) : ∃ k : ℝ, 0 < k ∧
    ∀ x y, (p.zoom u).stampAt (u * x) (u * y) = k * p.stampAt x y := by
  obtain ⟨kind, fwhm, beta, dither⟩ := p
  have hu2 : u ^ 2 ≠ 0 := pow_ne_zero 2 hu.ne'
  cases kind with
  | gaussian =>
    refine ⟨1, one_pos, fun x y => ?_⟩
    have hg : ∀ x y, gaussStampAt (u * fwhm) (u * x) (u * y) = gaussStampAt fwhm x y := by
      intro x y
      unfold gaussStampAt
      simp only
      congr 1
      have e1 : -((u * x) ^ 2 + (u * y) ^ 2) = u ^ 2 * -(x ^ 2 + y ^ 2) := by ring
      have e2 : 2 * (u * fwhm / (2 * Real.sqrt (2 * Real.log 2))) ^ 2 =
          u ^ 2 * (2 * (fwhm / (2 * Real.sqrt (2 * Real.log 2))) ^ 2) := by
        rw [mul_div_assoc]; ring
      rw [e1, e2, mul_div_mul_left _ _ hu2]
    rw [one_mul]
    cases dither with
    | none => exact hg x y
    | some s =>
      show gaussStampAt (u * fwhm) (u * x) (u * y) - 1 / 2 * (gaussStampAt (u * fwhm) (u * x) (u * y + u * s) +
        gaussStampAt (u * fwhm) (u * x) (u * y - u * s)) = _
      rw [← mul_add, ← mul_sub, hg, hg, hg]
      rfl
  | moffat =>
    refine ⟨(u ^ 2)⁻¹, by positivity, fun x y => ?_⟩
    show moffatStampAt (u * fwhm / (2 * Real.sqrt ((2 : ℝ) ^ (1 / beta) - 1))) beta (u * x) (u * y) =
      (u ^ 2)⁻¹ * moffatStampAt (fwhm / (2 * Real.sqrt ((2 : ℝ) ^ (1 / beta) - 1))) beta x y
    rw [mul_div_assoc]
    generalize fwhm / (2 * Real.sqrt ((2 : ℝ) ^ (1 / beta) - 1)) = al
    unfold moffatStampAt
    have e1 : (u * x) ^ 2 + (u * y) ^ 2 = u ^ 2 * (x ^ 2 + y ^ 2) := by ring
    have e2 : Real.pi * (u * al) ^ 2 = u ^ 2 * (Real.pi * al ^ 2) := by ring
    have e3 : (beta - 1) / (u ^ 2 * (Real.pi * al ^ 2)) = (u ^ 2)⁻¹ * ((beta - 1) / (Real.pi * al ^ 2)) := by
      rw [inv_mul_eq_div, div_div, mul_comm (u ^ 2)]
    rw [e1, e2, e3, mul_pow, mul_div_mul_left _ _ hu2, mul_assoc]

theorem convSame2_kernel {n m kn km : Nat} (k : ℝ) (a : Fin n → Fin m → ℝ) (s : Fin kn → Fin km → ℝ)
    (y : Fin n) (x : Fin m) : convSame2 a (fun j i => k * s j i) y x = k * convSame2 a s y x := by
  unfold convSame2
  rw [Finset.mul_sum]
  refine Finset.sum_congr rfl fun y' _ => ?_
  rw [Finset.mul_sum]
  exact Finset.sum_congr rfl fun x' _ => mul_left_comm _ _ _

theorem Fl.renorm (k T c C : ℝ) (hk : 0 < k) :
    (Fl.fin (k * c) * (Fl.fin T / Fl.fin (k * C)) : Fl ℝ) = Fl.fin c * (Fl.fin T / Fl.fin C) := by
  rw [Fl.fin_div, Fl.fin_div]
  by_cases hC : C = 0
  · rw [if_pos hC, if_pos (by rw [hC, mul_zero]), Fl.sc_mul_left k hk]
    unfold Fl.infTimes
    split
    · rfl
    · split
      · show (Fl.infTimes c).sc k = Fl.infTimes c
        exact Fl.sc_infTimes _ _
      · show (Fl.infTimes (-c)).sc k = Fl.infTimes (-c)
        exact Fl.sc_infTimes _ _
  · rw [if_neg hC, if_neg (mul_ne_zero hk.ne' hC)]
    simp only [Fl.fin_mul]
    congr 1
    have := hk.ne'
    field_simp

theorem psfConvolve_kernel {nW n m kn km kn' km' : Nat} (k : ℝ) (hk : 0 < k) (cube : Fin nW → Fin n → Fin m → ℝ)
    (fwhm fwhm' : ℝ) (hf : 0 < fwhm' ↔ 0 < fwhm) (s : Fin kn → Fin km → ℝ) (s' : Fin kn' → Fin km' → ℝ)
    (hn : kn' = kn) (hm : km' = km) (h : ∀ j i, s' j i = k * s (Fin.cast hn j) (Fin.cast hm i)) :
    psfConvolve cube fwhm' s' = psfConvolve cube fwhm s := by
  subst hn hm
  have hs : s' = fun j i => k * s j i := funext fun j => funext fun i => h j i
  subst hs
  unfold psfConvolve
  by_cases h0 : 0 < fwhm
  · rw [if_pos h0, if_pos (hf.2 h0)]
    simp only [convSame2_kernel, ← Finset.mul_sum, Fl.renorm _ _ _ _ hk]
  · rw [if_neg h0, if_neg (fun h => h0 (hf.1 h))]

theorem psfConvolve_zoom {nW n m : Nat} {u : ℝ} (hu : 0 < u) (cube : Fin nW → Fin n → Fin m → ℝ) (p : PSF)
    (xs ys : List ℝ) : psfConvolve cube (p.zoom u).fwhm ((p.zoom u).stamp (xs.map (u * ·)) (ys.map (u * ·))) =
      psfConvolve cube p.fwhm (p.stamp xs ys) := by
  obtain ⟨k, hk, hs⟩ := stampAt_zoom hu p
  refine psfConvolve_kernel k hk cube _ _ (mul_pos_iff_of_pos_left hu) _ _ (List.length_map _) (List.length_map _) ?_
  intro j i
  unfold PSF.stamp
  rw [← hs]
  congr 1 <;> simp

/-! ### the spectral cube -/

theorem addSigma_delt {nW nZ nY nX : Nat} (k : ℝ) (hk : 0 < k) (I V sig : Cube nZ nY nX ℝ)
    (wave : Fin nW → ℝ) (z dz : ℝ) (rs fs : List ℝ) (st : SpecType) :
    addSigmaCollapseZ I V sig wave z rs fs (k * dz) st =
      (addSigmaCollapseZ I V sig wave z rs fs dz st).map fun c w j x => (c w j x).sc k := by
  rw [← addSigma_scale k hk]
  have hb : ∀ (cen s : Cube nZ nY nX ℝ) (lam : ℝ) (j : Fin nY) (x : Fin nX),
      broadSum I cen s (k * dz) lam j x = broadSum (fun m j x => k * I m j x) cen s dz lam j x := by
    intro cen s lam j x
    rw [broadSum_scale k hk]
    unfold broadSum
    generalize (∑ m, Fl.fin (I m j x) * (Fl.fin 1 / Fl.fin (s m j x * Real.sqrt (2 * Real.pi)) *
      Fl.exp (Fl.fin (-(cen m j x - lam) ^ 2) / Fl.fin (2 * s m j x ^ 2)))) = S
    cases S with
    | fin a => exact congrArg Fl.fin (mul_left_comm _ _ _)
    | nan => rfl
    | pinf =>
      show Fl.infTimes (k * dz) = (Fl.infTimes dz).sc k
      rw [Fl.infTimes_mul _ _ hk, Fl.sc_infTimes]
    | ninf =>
      show Fl.infTimes (-(k * dz)) = (Fl.infTimes (-dz)).sc k
      rw [← mul_neg, Fl.infTimes_mul _ _ hk, Fl.sc_infTimes]
  have hstep : ∀ lam0, simpleCollapseStep I V wave (k * dz) lam0 =
      simpleCollapseStep (fun m j x => k * I m j x) V wave dz lam0 := by
    intro lam0
    funext acc c
    unfold simpleCollapseStep
    have : ∀ m j x, I m j x * (k * dz) = k * I m j x * dz := fun m j x => by ring
    simp only [this]
  have hone : ∀ rest, oneLine I V sig wave z (k * dz) rest = oneLine (fun m j x => k * I m j x) V sig wave z dz rest := by
    intro rest
    unfold oneLine iSimpleCollapse
    simp only [hb, hstep]
  have hlines : ∀ (rs fs : List ℝ) acc, collapseLines I V sig wave z (k * dz) rs fs acc =
      collapseLines (fun m j x => k * I m j x) V sig wave z dz rs fs acc := by
    intro rs
    induction rs with
    | nil => intro fs acc; rfl
    | cons r rs ih =>
      intro fs acc
      unfold collapseLines
      rw [hone]
      cases oneLine (fun m j x => k * I m j x) V sig wave z dz r with
      | error e => rfl
      | ok one =>
        cases fs with
        | nil => rfl
        | cons f fs => exact ih _ _
  unfold addSigmaCollapseZ
  simp only [hlines, hb]

/-! ### evaluation -/

theorem evalTail_zoom {u : ℝ} (hu : 0 < u) (mask reb : Bool) (nWhole : Nat) (psf : PSF) (xs ys : List ℝ)
    (g : Grid ℝ) (disp : ℝ) (wave : List ℝ)
    (c : Except PyErr (Fin wave.length → Fin g.nY → Fin g.nX → Fl ℝ)) :
    evalTail mask reb nWhole (psf.zoom u) (xs.map (u * ·)) (ys.map (u * ·)) (g.zoom u) disp wave c =
      (evalTail mask reb nWhole psf xs ys g disp wave c).map (Option.map (Arr2.smul u)) := by
  obtain ⟨nPixY, nPixX, padX, padY, dx, dy, dz, nX, nY, nZ, xA, yA, zA⟩ := g
  cases c with
  | error e => rfl
  | ok c0 =>
    unfold evalTail
    simp only [Grid.zoom]
    split
    · rfl
    · cases allFinite c0 with
      | none => rfl
      | some cube =>
        simp only
        rw [psfConvolve_zoom hu cube psf xs ys]
        cases allFinite (psfConvolve cube psf.fwhm (psf.stamp xs ys)) with
        | none => rfl
        | some conv =>
          simp only
          by_cases hh : nY = nPixY + 2 * padY ∧ nX = nPixX + 2 * padX
          · rw [dif_pos hh]
            refine (dif_pos hh).trans ?_
            generalize hA : (⟨wave.length, nPixY, trimSum conv
              ⟨nPixY, nPixX, padX, padY, dx, dy, dz, nX, nY, nZ, xA, yA, zA⟩ hh.1 hh.2⟩ : Arr2) = A
            have hA' : (⟨wave.length, nPixY, trimSum conv
                ⟨nPixY, nPixX, padX, padY, u * dx, u * dy, u * dz, nX, nY, nZ, xA.map (u * ·), yA.map (u * ·),
                  zA.map (u * ·)⟩ hh.1 hh.2⟩ : Arr2) = A.smul u := by
              rw [← hA]
              unfold Arr2.smul
              congr 1
              funext w b
              exact mul_left_comm _ _ _
            rw [hA']
            have hr : (if reb = true then rebinArr (A.smul u) wave.length nWhole else
                .ok (A.smul u)) = (if reb = true then rebinArr A wave.length nWhole else
                .ok A).map (Arr2.smul u) := by
              split
              · exact rebinArr_scale _ _ _ _
              · rfl
            rw [hr]
            cases (if reb = true then rebinArr A wave.length nWhole else .ok A) with
            | error e => rfl
            | ok img2 =>
              simp only [Except.map]
              by_cases hn : img2.n = wave.length
              · have hn' : (img2.smul u).n = wave.length := hn
                rw [dif_pos hn, dif_pos hn']
                have := instStage_scale u hu img2.val (fun i => wave.get (Fin.cast hn i)) disp
                unfold Arr2.smul
                simp only at this ⊢
                rw [this]
                cases instStage img2.val (fun i => wave.get (Fin.cast hn i)) disp with
                | error e => rfl
                | ok o => cases o <;> rfl
              · have hn' : ¬ (img2.smul u).n = wave.length := hn
                rw [dif_neg hn, dif_neg hn']
                rfl
          · rw [dif_neg hh]
            exact dif_neg hh

theorem Arr2.smul_smul (k l : ℝ) (a : Arr2) : (a.smul l).smul k = a.smul (k * l) := by
  unfold Arr2.smul
  simp only [mul_assoc]

theorem evalStages_zoom {u : ℝ} (hu : 0 < u) (cfg : AperCfg) (f : AperFixed) (kin : KinProfile)
    (wave : List ℝ) (sig : ℝ) :
    evalStages (cfg.zoom u) (f.zoom u) (kin.zoom u) wave sig =
      (evalStages cfg f kin wave sig).map (Option.map (Arr2.smul (u * u))) := by
  rw [evalStages_eq_tail, evalStages_eq_tail, velCube_zoom hu]
  cases velCube cfg f kin with
  | none =>
    show (if cfg.slitMask = true then (.error .valueError : Except PyErr (Option Arr2)) else .ok none) =
      (if cfg.slitMask = true then (.error .valueError : Except PyErr (Option Arr2)) else .ok none).map _
    split <;> rfl
  | some V =>
    have h1 := addSigma_delt u hu f.I V (fun _ _ _ => sig) wave.get f.z f.grid.deltZ cfg.restwave
      cfg.ratios cfg.specType
    have h2 := evalTail_scale u hu cfg.slitMask cfg.rebinOutput cfg.nWhole cfg.psf f.xTrim f.yTrim f.grid
      (instDisp cfg f) wave (addSigmaCollapseZ f.I V (fun _ _ _ => sig) wave.get f.z cfg.restwave
            cfg.ratios f.grid.deltZ cfg.specType)
    rw [← h1] at h2
    have h3 := evalTail_zoom hu cfg.slitMask cfg.rebinOutput cfg.nWhole cfg.psf f.xTrim f.yTrim f.grid
      (instDisp cfg f) wave (addSigmaCollapseZ f.I V (fun _ _ _ => sig) wave.get f.z cfg.restwave
            cfg.ratios (u * f.grid.deltZ) cfg.specType)
    rw [h2] at h3
    refine h3.trans ?_
    simp only
    generalize evalTail cfg.slitMask cfg.rebinOutput cfg.nWhole cfg.psf f.xTrim f.yTrim f.grid
      (instDisp cfg f) wave (addSigmaCollapseZ f.I V (fun _ _ _ => sig) wave.get f.z cfg.restwave
            cfg.ratios f.grid.deltZ cfg.specType) = R
    rcases R with e | _ | a
    · rfl
    · rfl
    · simp only [Except.map, Option.map_some, Arr2.smul_smul]

theorem evalImage_zoom {u : ℝ} (hu : 0 < u) (cfg : AperCfg) (f : AperFixed) (kin : KinProfile)
    (wave : List ℝ) (sig : ℝ) :
    evalImage (cfg.zoom u) (f.zoom u) (kin.zoom u) wave sig =
      (evalImage cfg f kin wave sig).map (Option.map (Arr2.smul (u * u))) := by
  have h := evalStages_zoom hu cfg f kin wave sig
  have hm : KernelMissing (cfg.zoom u) (f.zoom u) ↔ KernelMissing cfg f := by
    show (0 < u * cfg.psf.fwhm ∧ (f.xTrim.map (u * ·) = [] ∨ f.yTrim.map (u * ·) = [])) ↔ _
    rw [mul_pos_iff_of_pos_left hu, List.map_eq_nil_iff, List.map_eq_nil_iff]
    rfl
  unfold evalImage
  by_cases hc : KernelMissing cfg f
  · rw [if_pos (hm.2 hc), if_pos hc, h]
    cases evalStages cfg f kin wave sig <;> rfl
  · rw [if_neg (fun h => hc (hm.1 h)), if_neg hc, h]

theorem checkUpsample_zoom (u : ℝ) (cfg : AperCfg) (s : AperState) :
    checkUpsample (cfg.zoom u) (s.zoom u) = ((checkUpsample cfg s).1.zoom u, (checkUpsample cfg s).2) := by
  obtain ⟨⟨g, z, lam0, wr, dr, xi, yi, I, fv, up, xt, yt⟩, ⟨t0, v, d⟩, w, dw⟩ := s
  rcases d with _ | ⟨dt, dn⟩
  · rfl
  · generalize hR : checkUpsample cfg _ = R
    unfold checkUpsample AperState.zoom AperFixed.zoom AperCfg.zoom KinProfile.zoom
    unfold checkUpsample at hR
    simp only at hR ⊢
    cases up with
    | none => subst hR; rfl
    | some lim =>
      cases hd : dt[0]? with
      | none => rw [hd] at hR; subst hR; rfl
      | some sig =>
        rw [hd] at hR
        simp only at hR ⊢
        by_cases h1 : |sig| < lim
        · rw [if_pos h1] at hR ⊢
          by_cases h2 : cfg.npFloat = false
          · rw [if_pos h2] at hR ⊢
            subst hR; rfl
          · rw [if_neg h2] at hR ⊢
            by_cases h3 : cfg.factor = 0
            · rw [if_pos h3] at hR ⊢
              subst hR; rfl
            · rw [if_neg h3] at hR ⊢
              cases hlo : w.min? with
              | none => rw [hlo] at hR; subst hR; rfl
              | some lo =>
                cases hhi : w.max? with
                | none => rw [hlo, hhi] at hR; subst hR; rfl
                | some hi =>
                  rw [hlo, hhi] at hR
                  simp only at hR ⊢
                  split
                  · rename_i h4
                    rw [if_pos h4] at hR
                    subst hR; rfl
                  · rename_i h4
                    rw [if_neg h4] at hR
                    subst hR; rfl
        · rw [if_neg h1] at hR ⊢
          subst hR; rfl

theorem applySigmaFloor_zoom (u : ℝ) (cfg : AperCfg) (s : AperState) :
    applySigmaFloor (cfg.zoom u) (s.zoom u) = ((applySigmaFloor cfg s).1.zoom u, (applySigmaFloor cfg s).2) := by
  obtain ⟨f, ⟨t0, v, d⟩, w, dw⟩ := s
  rcases d with _ | ⟨dt, dn⟩
  · rfl
  · unfold applySigmaFloor AperState.zoom AperFixed.zoom AperCfg.zoom KinProfile.zoom
    simp only
    split <;> rfl

theorem downsample_zoom (u k : ℝ) (cfg : AperCfg) (s : AperState) (img : Option Arr2) :
    downsample (cfg.zoom u) (s.zoom u) (img.map (Arr2.smul k)) =
      ((downsample cfg s img).1.zoom u, (downsample cfg s img).2.map (Option.map (Arr2.smul k))) := by
  rcases img with _ | a
  · rfl
  · unfold downsample
    simp only [Option.map_some]
    have h1 : (s.zoom u).fixed.waveReal.length = s.fixed.waveReal.length := rfl
    have h2 : (cfg.zoom u).nWhole = cfg.nWhole := rfl
    rw [h1, h2, rebinArr_scale]
    cases rebinArr a s.fixed.waveReal.length cfg.nWhole <;> rfl

/-- the velocity profile has both of its parameters -/
def KinProfile.TwoPar (k : KinProfile) : Prop := ∃ t, k.vel = some ⟨t, 2⟩

theorem updateTheta_zoom (u : ℝ) (k : KinProfile) (hk : k.TwoPar) (theta : List ℝ) :
    (k.zoom u).updateTheta (zoomTheta u theta) = (k.updateTheta theta).map (KinProfile.zoom u) := by
  obtain ⟨t0, v, d⟩ := k
  obtain ⟨t, ht⟩ := hk
  simp only at ht
  subst ht
  rcases d with _ | ⟨dt, dn⟩ <;> rcases theta with _ | ⟨a, _ | ⟨b, th⟩⟩ <;> rfl

theorem updateTheta_twoPar (k k' : KinProfile) (hk : k.TwoPar) (theta : List ℝ)
    (h : k.updateTheta theta = .ok k') : k'.TwoPar := by
  obtain ⟨t0, v, d⟩ := k
  obtain ⟨t, ht⟩ := hk
  simp only at ht
  subst ht
  rcases d with _ | ⟨dt, dn⟩ <;> (simp only [KinProfile.updateTheta] at h; cases h; exact ⟨_, rfl⟩)

theorem doModelCalcs_zoom {u : ℝ} (hu : 0 < u) (cfg : AperCfg) (s : AperState) (hs : s.kin.TwoPar)
    (theta : List ℝ) :
    doModelCalcs (cfg.zoom u) (s.zoom u) (zoomTheta u theta) =
      ((doModelCalcs cfg s theta).1.zoom u,
        (doModelCalcs cfg s theta).2.map (Option.map (Arr2.smul (u * u)))) := by
  unfold doModelCalcs
  have h1 : (s.zoom u).kin = s.kin.zoom u := rfl
  rw [h1, updateTheta_zoom u s.kin hs theta]
  cases s.kin.updateTheta theta with
  | error e => rfl
  | ok kin =>
    simp only [Except.map]
    have h2 : ({ s.zoom u with kin := kin.zoom u } : AperState) = AperState.zoom u { s with kin := kin } := rfl
    have h3 : (cfg.zoom u).adaptive = cfg.adaptive := rfl
    have hup : (if (cfg.zoom u).adaptive = true then checkUpsample (cfg.zoom u) { s.zoom u with kin := kin.zoom u }
        else ({ s.zoom u with kin := kin.zoom u }, .ok ())) =
        ((if cfg.adaptive = true then checkUpsample cfg { s with kin := kin } else
          ({ s with kin := kin }, .ok ())).1.zoom u, (if cfg.adaptive = true then
          checkUpsample cfg { s with kin := kin } else ({ s with kin := kin }, .ok ())).2) := by
      rw [h2, h3]
      split
      · exact checkUpsample_zoom _ _ _
      · rfl
    rw [hup]
    generalize (if cfg.adaptive = true then checkUpsample cfg { s with kin := kin } else
          ({ s with kin := kin }, .ok ())) = U
    cases hU : U.2 with
    | error e => rfl
    | ok _ =>
      simp only [applySigmaFloor_zoom]
      generalize applySigmaFloor cfg U.1 = F
      cases hF : F.2 with
      | error e => rfl
      | ok sig =>
        simp only
        have h4 : evalImage (cfg.zoom u) (F.1.zoom u).fixed (F.1.zoom u).kin (F.1.zoom u).wave sig =
            (evalImage cfg F.1.fixed F.1.kin F.1.wave sig).map (Option.map (Arr2.smul (u * u))) :=
          evalImage_zoom hu cfg F.1.fixed F.1.kin F.1.wave sig
        rw [h4]
        cases evalImage cfg F.1.fixed F.1.kin F.1.wave sig with
        | error e => rfl
        | ok img =>
          simp only [Except.map]
          have hT : ∀ o : Option Arr2, Option.map Arr2.T (Option.map (Arr2.smul (u * u)) o) =
              Option.map (Arr2.smul (u * u)) (Option.map Arr2.T o) := by
            intro o; cases o <;> rfl
          by_cases ha : cfg.adaptive = true
          · rw [if_pos ha, if_pos (h3.trans ha), downsample_zoom]
            cases downsample cfg F.1 img with
            | mk s' r => cases r with
              | error e => rfl
              | ok o => simp only [Except.map, hT]
          · rw [if_neg ha, if_neg (by rw [h3]; exact ha)]
            simp only [hT]

end Misfit
