import Verif.Props.VelForm
import Verif.Props.DispAper

/-!
# C215, C216: two ways of turning the galaxy that the image cannot tell apart

Seen from the other end of the major axis (position angle plus half a turn) a disc rotates the other way; mirrored along
the slit (position angle and offset across the slit change sign) it gives the same image, unless the point spread function
has an even number of columns.
-/

namespace Misfit

/-! ## Lemmas -/

theorem skyZ_reflect (n : ℕ) (d : ℝ) (c : ℕ) (hc : c < n) : skyZ n d (n - 1 - c) = -skyZ n d c := by
  unfold skyZ
  have : n - 1 - c + 1 + c = n := by omega
  have : ((n - 1 - c : ℕ) : ℝ) + 1 + c = n := by exact_mod_cast this
  have e : ((n - 1 - c : ℕ) : ℝ) = n - 1 - c := by linarith
  rw [e]
  ring

theorem discPoint_turn (i pa x y z : ℝ) : discPoint i (pa + 180) x y (-z) =
    (-(discPoint i pa x y z).1, -(discPoint i pa x y z).2.1, -(discPoint i pa x y z).2.2) := by
  have e : (pa + 180) * Real.pi / 180 = pa * Real.pi / 180 + Real.pi := by ring
  unfold discPoint
  simp only [e, Real.cos_add_pi, Real.sin_add_pi]
  refine Prod.ext ?_ (Prod.ext ?_ ?_) <;> simp only <;> ring

theorem discPoint_mirror (i pa x y z : ℝ) : discPoint i (-pa) (-x) y (-z) =
    (-(discPoint i pa x y z).1, (discPoint i pa x y z).2.1, -(discPoint i pa x y z).2.2) := by
  have e : -pa * Real.pi / 180 = -(pa * Real.pi / 180) := by ring
  unfold discPoint
  simp only [e, Real.cos_neg, Real.sin_neg]
  refine Prod.ext ?_ (Prod.ext ?_ ?_) <;> simp only <;> ring

theorem discVelocity_turn (va rt i x y : ℝ) : discVelocity va rt i (-x) (-y) = discVelocity (-va) rt i x y := by
  unfold discVelocity
  simp only [neg_sq]
  split_ifs
  · rfl
  · ring

theorem discVelocity_mirror (va rt i x y : ℝ) : discVelocity va rt i (-x) y = discVelocity va rt i x y := by
  unfold discVelocity
  simp only [neg_sq]

theorem gridX_mirror (cfg : AperCfg) (pa : ℝ) (a : ℕ) (ha : a < nCols cfg) :
    gridX { cfg with deltPA := pa, xc := -cfg.xc } (nCols cfg - 1 - a) = -gridX cfg a := by
  unfold gridX
  have : nCols cfg - 1 - a + 1 + a = slitCells cfg + 2 * padCols cfg := by unfold nCols at ha ⊢; omega
  have : ((nCols cfg - 1 - a : ℕ) : ℝ) + 1 + a = slitCells cfg + 2 * padCols cfg := by exact_mod_cast this
  have e : ((nCols cfg - 1 - a : ℕ) : ℝ) = slitCells cfg + 2 * padCols cfg - 1 - a := by linarith
  show (((nCols cfg - 1 - a : ℕ) : ℝ) - padCols cfg + 1 / 2 - slitCells cfg / 2) * (cfg.slit / slitCells cfg) - -cfg.xc = _
  rw [e]
  ring

theorem gridLight_turn (cfg : AperCfg) (he : ∀ r z, cfg.int r (-z) = cfg.int r z) (va rt sig m0 z lam : ℝ) (b a : ℕ) :
    gridLight { cfg with deltPA := cfg.deltPA + 180 } va rt sig m0 z lam b a = gridLight cfg (-va) rt sig m0 z lam b a := by
  unfold gridLight
  rw [← Finset.sum_range_reflect]
  refine Finset.sum_congr rfl fun c hc => ?_
  show cellLight { cfg with deltPA := cfg.deltPA + 180 } va rt sig z (gridX cfg a) (gridY cfg m0 b)
    (skyZ (cfg.nWhole * cfg.nSubpixels) (cfg.pixscale / cfg.nSubpixels) (cfg.nWhole * cfg.nSubpixels - 1 - c)) lam *
      (cfg.pixscale / cfg.nSubpixels) = _
  rw [skyZ_reflect _ _ _ (Finset.mem_range.1 hc)]
  unfold cellLight
  simp only [discPoint_turn, discVelocity_turn, neg_sq, he]

theorem velLight_turn (cfg : AperCfg) (he : ∀ r z, cfg.int r (-z) = cfg.int r z) (va rt sig m0 v : ℝ) (b a : ℕ) :
    velLight { cfg with deltPA := cfg.deltPA + 180 } va rt sig m0 v b a = velLight cfg (-va) rt sig m0 v b a := by
  unfold velLight
  rw [← Finset.sum_range_reflect]
  refine Finset.sum_congr rfl fun c hc => ?_
  show (let p := (discPoint cfg.sini (cfg.deltPA + 180) (gridX cfg a) (gridY cfg m0 b)
      (skyZ (cfg.nWhole * cfg.nSubpixels) (cfg.pixscale / cfg.nSubpixels) (cfg.nWhole * cfg.nSubpixels - 1 - c)));
    cfg.int (Real.sqrt (p.1 ^ 2 + p.2.1 ^ 2)) p.2.2 *
      ProbabilityTheory.gaussianPDFReal (discVelocity va rt cfg.sini p.1 p.2.1) (sig ^ 2).toNNReal v *
      (cfg.pixscale / cfg.nSubpixels)) = _
  rw [skyZ_reflect _ _ _ (Finset.mem_range.1 hc)]
  simp only [discPoint_turn, discVelocity_turn, neg_sq, he]

theorem gridLight_mirror (cfg : AperCfg) (he : ∀ r z, cfg.int r (-z) = cfg.int r z) (va rt sig m0 z lam : ℝ) (b a : ℕ)
    (ha : a < nCols cfg) :
    gridLight { cfg with deltPA := -cfg.deltPA, xc := -cfg.xc } va rt sig m0 z lam b (nCols cfg - 1 - a) =
      gridLight cfg va rt sig m0 z lam b a := by
  unfold gridLight
  rw [← Finset.sum_range_reflect]
  refine Finset.sum_congr rfl fun c hc => ?_
  show cellLight { cfg with deltPA := -cfg.deltPA, xc := -cfg.xc } va rt sig z
    (gridX { cfg with deltPA := -cfg.deltPA, xc := -cfg.xc } (nCols cfg - 1 - a)) (gridY cfg m0 b)
    (skyZ (cfg.nWhole * cfg.nSubpixels) (cfg.pixscale / cfg.nSubpixels) (cfg.nWhole * cfg.nSubpixels - 1 - c)) lam *
      (cfg.pixscale / cfg.nSubpixels) = _
  rw [skyZ_reflect _ _ _ (Finset.mem_range.1 hc), gridX_mirror cfg _ a ha]
  unfold cellLight
  simp only [discPoint_mirror, discVelocity_mirror, neg_sq, he]

theorem velLight_mirror (cfg : AperCfg) (he : ∀ r z, cfg.int r (-z) = cfg.int r z) (va rt sig m0 v : ℝ) (b a : ℕ)
    (ha : a < nCols cfg) :
    velLight { cfg with deltPA := -cfg.deltPA, xc := -cfg.xc } va rt sig m0 v b (nCols cfg - 1 - a) =
      velLight cfg va rt sig m0 v b a := by
  unfold velLight
  rw [← Finset.sum_range_reflect]
  refine Finset.sum_congr rfl fun c hc => ?_
  show (let p := (discPoint cfg.sini (-cfg.deltPA) (gridX { cfg with deltPA := -cfg.deltPA, xc := -cfg.xc } (nCols cfg - 1 - a))
      (gridY cfg m0 b)
      (skyZ (cfg.nWhole * cfg.nSubpixels) (cfg.pixscale / cfg.nSubpixels) (cfg.nWhole * cfg.nSubpixels - 1 - c)));
    cfg.int (Real.sqrt (p.1 ^ 2 + p.2.1 ^ 2)) p.2.2 *
      ProbabilityTheory.gaussianPDFReal (discVelocity va rt cfg.sini p.1 p.2.1) (sig ^ 2).toNNReal v *
      (cfg.pixscale / cfg.nSubpixels)) = _
  rw [skyZ_reflect _ _ _ (Finset.mem_range.1 hc), gridX_mirror cfg _ a ha]
  simp only [discPoint_mirror, discVelocity_mirror, neg_sq, he]

/-- an image and its mirror image are spread alike by a kernel of an odd number of columns and its mirror image -/
theorem scatter_flip (n m kn km : ℕ) (hkm : km % 2 = 1) (a a' k k' : ℕ → ℕ → ℝ)
    (ha : ∀ y' x', x' < m → a' y' (m - 1 - x') = a y' x') (hk : ∀ j i, i < km → k' j (km - 1 - i) = k j i)
    (y x : ℕ) (hx : x < m) : scatter n m kn km a' k' y (m - 1 - x) = scatter n m kn km a k y x := by
  unfold scatter
  refine Finset.sum_congr rfl fun y' _ => ?_
  rw [← Finset.sum_range_reflect]
  refine Finset.sum_congr rfl fun x' hx' => Finset.sum_congr rfl fun j _ => ?_
  rw [← Finset.sum_range_reflect]
  refine Finset.sum_congr rfl fun i hi => ?_
  have h1 := Finset.mem_range.1 hx'
  have h2 := Finset.mem_range.1 hi
  have e3 : (m - 1 - x' + (km - 1 - i) = m - 1 - x + (km - 1) / 2) = (x' + i = x + (km - 1) / 2) :=
    propext (by omega)
  rw [ha y' x' h1, hk j i h2]
  simp only [e3]

theorem total3_flip (W n m : ℕ) (a a' : ℕ → ℕ → ℕ → ℝ) (ha : ∀ w y x, x < m → a' w y (m - 1 - x) = a w y x) :
    total3 W n m a' = total3 W n m a := by
  unfold total3
  refine Finset.sum_congr rfl fun w _ => Finset.sum_congr rfl fun y _ => ?_
  rw [← Finset.sum_range_reflect]
  exact Finset.sum_congr rfl fun x hx => ha w y x (Finset.mem_range.1 hx)

theorem kernelX_mirror (cfg : AperCfg) (pa : ℝ) (hn : 0 < nCols cfg) :
    kernelX { cfg with deltPA := pa, xc := -cfg.xc } = ((kernelX cfg).map fun x => -x).reverse := by
  classical
  set c' : AperCfg := { cfg with deltPA := pa, xc := -cfg.xc } with hc'
  have hnc : nCols c' = nCols cfg := rfl
  have h0 : gridX c' 0 = -gridX cfg (nCols cfg - 1) := by
    have := gridX_mirror cfg pa (nCols cfg - 1) (by omega)
    rwa [Nat.sub_self] at this
  have h1 : gridX c' (nCols cfg - 1) = -gridX cfg 0 := by
    have := gridX_mirror cfg pa 0 hn
    rwa [Nat.sub_zero] at this
  have hl : (List.range (nCols cfg)).map (gridX c') = (((List.range (nCols cfg)).map (gridX cfg)).map fun x => -x).reverse := by
    refine List.ext_getElem (by simp) fun a ha _ => ?_
    have ha' : a < nCols cfg := by simpa using ha
    have := gridX_mirror cfg pa (nCols cfg - 1 - a) (by omega)
    rw [show nCols cfg - 1 - (nCols cfg - 1 - a) = a by omega, ← hc'] at this
    simp [List.getElem_reverse, this]
  unfold kernelX
  rw [hnc, hl, List.filter_reverse, List.filter_map]
  congr 2
  refine List.filter_congr fun x _ => ?_
  simp only [Function.comp_apply, h0, h1, decide_eq_decide]
  rw [show -x - (-gridX cfg (nCols cfg - 1) + -gridX cfg 0) / 2 = -(x - (gridX cfg 0 + gridX cfg (nCols cfg - 1)) / 2) by ring,
    abs_neg]

theorem kernelX_parity (cfg : AperCfg) (hF : 0 ≤ cfg.psf.fwhm) (hn : 0 < nCols cfg) :
    (kernelX cfg).length % 2 = nCols cfg % 2 := by
  classical
  set mid := (gridX cfg 0 + gridX cfg (nCols cfg - 1)) / 2 with hmid
  set L := (List.range (nCols cfg)).map fun a => gridX cfg a - mid with hL
  have hsym : L.reverse.map (fun a => -a) = L := by
    refine List.ext_getElem (by simp) fun a ha _ => ?_
    have ha' : a < nCols cfg := by simpa [hL] using ha
    simp only [hL, List.getElem_map, List.getElem_reverse, List.getElem_range, List.length_map, List.length_range, hmid]
    unfold gridX
    have e : ((nCols cfg - 1 - a : ℕ) : ℝ) = ((nCols cfg - 1 : ℕ) : ℝ) - a := Nat.cast_sub (by omega)
    rw [e]
    push_cast
    ring
  have hk : (kernelX cfg).length = (L.filter fun x => |x| ≤ cfg.psf.fwhm).length := by
    unfold kernelX
    rw [hL, List.filter_map, List.filter_map, List.length_map, List.length_map]
    congr 2
  have hp : L.length = (L.filter fun x => |x| ≤ cfg.psf.fwhm).length + (L.filter fun x => !decide (|x| ≤ cfg.psf.fwhm)).length := by
    induction L with
    | nil => rfl
    | cons x l ih => by_cases h : |x| ≤ cfg.psf.fwhm <;> simp [h] <;> omega
  have hlen : L.length = nCols cfg := by simp [hL]
  clear hL
  clear_value L
  have hev : (L.filter fun x => !decide (|x| ≤ cfg.psf.fwhm)).length % 2 = 0 := by
    refine symmetric_even _ ?_ fun a ha h0 => ?_
    · conv_rhs => rw [← hsym]
      rw [List.map_reverse, List.map_reverse, List.filter_reverse, List.filter_map]
      congr 2
      refine List.filter_congr fun x _ => ?_
      simp only [Function.comp_apply, abs_neg]
    · have := (List.mem_filter.1 ha).2
      rw [h0, abs_zero] at this
      simp [hF] at this
  rw [hk]
  omega

/-- light through the slit of a cube and of its mirror image after the point spread function -/
theorem slit_mirror (cfg : AperCfg) (pa m0 : ℝ) (hn : 0 < slitCells cfg)
    (hk : cfg.psf.fwhm ≤ 0 ∨ slitCells cfg % 2 = 1) (W : ℕ) (A A' : ℕ → ℕ → ℕ → ℝ)
    (hA : ∀ w y x, x < nCols cfg → A' w y (nCols cfg - 1 - x) = A w y x) (w i : ℕ) :
    throughSlit { cfg with deltPA := pa, xc := -cfg.xc } (blurred { cfg with deltPA := pa, xc := -cfg.xc } m0 W A' w) i =
      throughSlit cfg (blurred cfg m0 W A w) i := by
  have hnc : 0 < nCols cfg := by unfold nCols; omega
  have hb : ∀ w y x, x < nCols cfg → blurred { cfg with deltPA := pa, xc := -cfg.xc } m0 W A' w y (nCols cfg - 1 - x) =
      blurred cfg m0 W A w y x := by
    intro w y x hx
    unfold blurred
    split_ifs with hf
    · have hpar : (kernelX cfg).length % 2 = 1 := by
        rcases hk with h | h
        · exact absurd hf (not_lt.2 h)
        · rw [kernelX_parity cfg hf.le hnc]
          unfold nCols
          omega
      have hB : ∀ w y x, x < nCols cfg →
          scatter (nRows cfg) (nCols cfg) (kernelY cfg m0).length
            (kernelX { cfg with deltPA := pa, xc := -cfg.xc }).length (A' w)
            (fun j i => seeing cfg.psf ((kernelX { cfg with deltPA := pa, xc := -cfg.xc }).getD i 0) ((kernelY cfg m0).getD j 0))
            y (nCols cfg - 1 - x) =
          scatter (nRows cfg) (nCols cfg) (kernelY cfg m0).length (kernelX cfg).length (A w)
            (fun j i => seeing cfg.psf ((kernelX cfg).getD i 0) ((kernelY cfg m0).getD j 0)) y x := by
        intro w y x hx
        rw [kernelX_mirror cfg pa hnc, List.length_reverse, List.length_map]
        refine scatter_flip _ _ _ _ hpar _ _ _ _ (hA w) (fun j i hi => ?_) y x hx
        have e : ((kernelX cfg).map fun x => -x).reverse.getD ((kernelX cfg).length - 1 - i) 0 = -(kernelX cfg).getD i 0 := by
          rw [List.getD_eq_getElem?_getD, List.getElem?_reverse (by simp; omega), List.getElem?_map, List.length_map,
            show (kernelX cfg).length - 1 - ((kernelX cfg).length - 1 - i) = i by omega, List.getD_eq_getElem?_getD]
          rw [List.getElem?_eq_getElem hi]
          rfl
        rw [e]
        unfold seeing
        simp only [neg_sq]
      have h1 := total3_flip W (nRows cfg) (nCols cfg) _ _ hA
      have h2 := total3_flip W (nRows cfg) (nCols cfg) _ _ hB
      refine congrArg₂ _ (congrArg₂ _ h1 ?_) (hB w y x hx)
      exact h2
    · exact hA w y x hx
  unfold throughSlit
  refine Finset.sum_congr rfl fun t _ => ?_
  show ∑ a ∈ Finset.range (slitCells cfg), blurred { cfg with deltPA := pa, xc := -cfg.xc } m0 W A' w
    (padRows cfg + i * cfg.nSubpixels + t) (padCols cfg + a) * (cfg.slit / slitCells cfg) = _
  rw [← Finset.sum_range_reflect]
  refine Finset.sum_congr rfl fun a ha => ?_
  have ha' := Finset.mem_range.1 ha
  rw [← hb w _ (padCols cfg + a) (by unfold nCols; omega)]
  congr 2
  unfold nCols
  omega

theorem same_arr {img img' : Arr2} {n m : ℕ} {F : ℕ → ℕ → ℝ} (h1 : img.n = n) (h2 : img.m = m)
    (h3 : ∀ i j, img.val i j = F i j) (h1' : img'.n = n) (h2' : img'.m = m) (h3' : ∀ i j, img'.val i j = F i j) :
    img = img' := by
  obtain ⟨n1, m1, v1⟩ := img
  obtain ⟨n2, m2, v2⟩ := img'
  simp only at h1 h2 h1' h2'
  subst h1 h2 h1' h2'
  congr 1
  funext i j
  exact (h3 i j).trans (h3' i j).symm

theorem imageSpec_turn (cfg : AperCfg) (he : ∀ r z, cfg.int r (-z) = cfg.int r z) (w0 step : ℝ) (N : ℕ)
    (r0 va rt sig m0 z : ℝ) (i j : ℕ) :
    imageSpec { cfg with deltPA := cfg.deltPA + 180 } w0 step N r0 va rt sig m0 z i j =
      imageSpec cfg w0 step N r0 (-va) rt sig m0 z i j := by
  have h : ∀ sig, gridLight { cfg with deltPA := cfg.deltPA + 180 } va rt sig m0 z = gridLight cfg (-va) rt sig m0 z := by
    intro sig
    funext lam b a
    exact gridLight_turn cfg he _ _ _ _ _ _ _ _
  unfold imageSpec discImage
  simp only [h]
  rfl

theorem velSpec_turn (cfg : AperCfg) (he : ∀ r z, cfg.int r (-z) = cfg.int r z) (w0 step : ℝ) (N : ℕ)
    (va rt sig m0 : ℝ) (i j : ℕ) :
    velSpec { cfg with deltPA := cfg.deltPA + 180 } w0 step N va rt sig m0 i j =
      velSpec cfg w0 step N (-va) rt sig m0 i j := by
  have h : ∀ sig, velLight { cfg with deltPA := cfg.deltPA + 180 } va rt sig m0 = velLight cfg (-va) rt sig m0 := by
    intro sig
    funext v b a
    exact velLight_turn cfg he _ _ _ _ _ _ _
  unfold velSpec velImage
  simp only [h]
  rfl

theorem imageSpec_mirror (cfg : AperCfg) (he : ∀ r z, cfg.int r (-z) = cfg.int r z) (hn : 0 < slitCells cfg)
    (hk : cfg.psf.fwhm ≤ 0 ∨ slitCells cfg % 2 = 1) (w0 step : ℝ) (N : ℕ) (r0 va rt sig m0 z : ℝ) (i j : ℕ) :
    imageSpec { cfg with deltPA := -cfg.deltPA, xc := -cfg.xc } w0 step N r0 va rt sig m0 z i j =
      imageSpec cfg w0 step N r0 va rt sig m0 z i j := by
  have h : ∀ sig W (lam : ℕ → ℝ) w i, throughSlit { cfg with deltPA := -cfg.deltPA, xc := -cfg.xc }
      (blurred { cfg with deltPA := -cfg.deltPA, xc := -cfg.xc } m0 W
        (fun w => gridLight { cfg with deltPA := -cfg.deltPA, xc := -cfg.xc } va rt sig m0 z (lam w)) w) i =
      throughSlit cfg (blurred cfg m0 W (fun w => gridLight cfg va rt sig m0 z (lam w)) w) i := fun sig W lam w i =>
    slit_mirror cfg _ m0 hn hk W _ _ (fun w y x hx => gridLight_mirror cfg he _ _ _ _ _ _ _ _ hx) w i
  have h' : ∀ sig W (lam : ℕ → ℝ), (fun w => throughSlit { cfg with deltPA := -cfg.deltPA, xc := -cfg.xc }
      (blurred { cfg with deltPA := -cfg.deltPA, xc := -cfg.xc } m0 W
        (fun w => gridLight { cfg with deltPA := -cfg.deltPA, xc := -cfg.xc } va rt sig m0 z (lam w)) w)) =
      fun w => throughSlit cfg (blurred cfg m0 W (fun w => gridLight cfg va rt sig m0 z (lam w)) w) := by
    intro sig W lam
    funext w i
    exact h sig W lam w i
  unfold imageSpec discImage
  simp only [h']
  rfl

theorem velSpec_mirror (cfg : AperCfg) (he : ∀ r z, cfg.int r (-z) = cfg.int r z) (hn : 0 < slitCells cfg)
    (hk : cfg.psf.fwhm ≤ 0 ∨ slitCells cfg % 2 = 1) (w0 step : ℝ) (N : ℕ) (va rt sig m0 : ℝ) (i j : ℕ) :
    velSpec { cfg with deltPA := -cfg.deltPA, xc := -cfg.xc } w0 step N va rt sig m0 i j =
      velSpec cfg w0 step N va rt sig m0 i j := by
  have h' : ∀ sig W (lam : ℕ → ℝ), (fun w => throughSlit { cfg with deltPA := -cfg.deltPA, xc := -cfg.xc }
      (blurred { cfg with deltPA := -cfg.deltPA, xc := -cfg.xc } m0 W
        (fun w => velLight { cfg with deltPA := -cfg.deltPA, xc := -cfg.xc } va rt sig m0 (lam w)) w)) =
      fun w => throughSlit cfg (blurred cfg m0 W (fun w => velLight cfg va rt sig m0 (lam w)) w) := by
    intro sig W lam
    funext w i
    exact slit_mirror cfg _ m0 hn hk W _ _ (fun w y x hx => velLight_mirror cfg he _ _ _ _ _ _ _ hx) w i
  unfold velSpec velImage
  simp only [h']
  rfl

theorem luminous_cells (cfg : AperCfg) (hc : Luminous cfg) : 0 < slitCells cfg := by
  have h1 := hc.slit
  have h2 := hc.pix
  have h3 : (0 : ℝ) < cfg.nSubpixels := by exact_mod_cast hc.sub
  have : 0 < ⌈cfg.slit * cfg.nSubpixels / cfg.pixscale⌉ := Int.ceil_pos.2 (by positivity)
  unfold slitCells
  omega

/-! ## The theorems -/

/-- **C215**: a galaxy whose position angle is half a turn larger gives the image of the galaxy that rotates the other way,
at the construction and at every later evaluation, when the light is the same on both sides of the disc. -/
theorem C215_half_turn (cfg : AperCfg) (hc : Luminous cfg) (hF : 0 ≤ cfg.psf.fwhm) (hst : ¬ cfg.psf.StampFails)
    (hfit : cfg.psf.fwhm = 0 ∨ KernelFits cfg) (hi0 : 0 ≤ cfg.sini) (hi1 : cfg.sini ≤ 1)
    (he : ∀ r z, cfg.int r (-z) = cfg.int r z) (t v d : List ℝ) (va rt sig m z : ℝ) (hrt : rt ≠ 0) (hs : 0 < sig)
    (hz : 0 < 1 + z) :
    ∃ s s' img, buildModel { cfg with deltPA := cfg.deltPA + 180 } ⟨t, some ⟨v, 2⟩, some ⟨d, 1⟩⟩ [va, rt, sig, m, z] =
        .ok (s, .ok (some img)) ∧
      buildModel cfg ⟨t, some ⟨v, 2⟩, some ⟨d, 1⟩⟩ [-va, rt, sig, m, z] = .ok (s', .ok (some img)) ∧
      ∀ (hist hist' : List (List ℝ)) (va' rt' sig' m' z' : ℝ),
        (cfg.adaptive = true → AllReturn { cfg with deltPA := cfg.deltPA + 180 } s hist ∧ AllReturn cfg s' hist') →
        rt' ≠ 0 → 0 < sig' →
        (updateModel { cfg with deltPA := cfg.deltPA + 180 } (runUpdates { cfg with deltPA := cfg.deltPA + 180 } s hist)
          [va', rt', sig', m', z']).2 = (updateModel cfg (runUpdates cfg s' hist') [-va', rt', sig', m', z']).2 := by
  have hc' : Luminous { cfg with deltPA := cfg.deltPA + 180 } :=
    ⟨hc.rows, hc.sub, hc.pix, hc.slit, hc.pad, hc.int, hc.axis, hc.mask, hc.reb, hc.wave, hc.adapt, hc.dither, hc.beta⟩
  obtain ⟨w0, step, N, hstep, hN, hw⟩ := hc.wave
  rcases hc.axis with hv | ⟨hv, hr, -⟩
  · obtain ⟨s, img, h1, h2, h3, h4, h5⟩ := C204_image { cfg with deltPA := cfg.deltPA + 180 } hc' hF hst hfit hv hi0 hi1
      w0 step N hN hstep hw t v d va rt sig m z hrt hs
    obtain ⟨s', img', h1', h2', h3', h4', h5'⟩ := C204_image cfg hc hF hst hfit hv hi0 hi1
      w0 step N hN hstep hw t v d (-va) rt sig m z hrt hs
    have e : img = img' := same_arr h2 h3 (fun i j => (h4 i j).trans (velSpec_turn cfg he _ _ _ _ _ _ _ _ _)) h2' h3' h4'
    refine ⟨s, s', img, h1, e ▸ h1', fun hist hist' va' rt' sig' m' z' hret hrt' hs' => ?_⟩
    obtain ⟨i1, g1, g2, g3, g4⟩ := h5 hist va' rt' sig' m' z' (fun ha => (hret ha).1) hrt' hs'
    obtain ⟨i2, g1', g2', g3', g4'⟩ := h5' hist' (-va') rt' sig' m' z' (fun ha => (hret ha).2) hrt' hs'
    rw [g1, g1', same_arr g2 g3 (fun i j => (g4 i j).trans (velSpec_turn cfg he _ _ _ _ _ _ _ _ _)) g2' g3' g4']
  · obtain ⟨r0, hr0⟩ : ∃ r0, cfg.restwave.head? = some r0 := by
      cases h : cfg.restwave with
      | nil => exact absurd h hr
      | cons a l => exact ⟨a, rfl⟩
    obtain ⟨s, img, h1, h2, h3, h4, h5⟩ := C203_image { cfg with deltPA := cfg.deltPA + 180 } hc' hF hst hfit hv hi0 hi1
      w0 step N hN hstep hw r0 hr0 t v d va rt sig m z hrt hs hz
    obtain ⟨s', img', h1', h2', h3', h4', h5'⟩ := C203_image cfg hc hF hst hfit hv hi0 hi1
      w0 step N hN hstep hw r0 hr0 t v d (-va) rt sig m z hrt hs hz
    have e : img = img' := same_arr h2 h3 (fun i j => (h4 i j).trans (imageSpec_turn cfg he _ _ _ _ _ _ _ _ _ _ _)) h2' h3' h4'
    refine ⟨s, s', img, h1, e ▸ h1', fun hist hist' va' rt' sig' m' z' hret hrt' hs' => ?_⟩
    obtain ⟨i1, g1, g2, g3, g4⟩ := h5 hist va' rt' sig' m' z' (fun ha => (hret ha).1) hrt' hs'
    obtain ⟨i2, g1', g2', g3', g4'⟩ := h5' hist' (-va') rt' sig' m' z' (fun ha => (hret ha).2) hrt' hs'
    rw [g1, g1', same_arr g2 g3 (fun i j => (g4 i j).trans (imageSpec_turn cfg he _ _ _ _ _ _ _ _ _ _ _)) g2' g3' g4']

/-- **C216**: mirrored along the slit — position angle and offset across the slit change sign — a galaxy gives the same
image, without point spread function or with an odd number of subpixels across the slit, when the light is the same on
both sides of the disc. -/
theorem C216_mirror (cfg : AperCfg) (hc : Luminous cfg) (hF : 0 ≤ cfg.psf.fwhm) (hst : ¬ cfg.psf.StampFails)
    (hfit : cfg.psf.fwhm = 0 ∨ KernelFits cfg) (hk : cfg.psf.fwhm = 0 ∨ slitCells cfg % 2 = 1)
    (hi0 : 0 ≤ cfg.sini) (hi1 : cfg.sini ≤ 1)
    (he : ∀ r z, cfg.int r (-z) = cfg.int r z) (t v d : List ℝ) (va rt sig m z : ℝ) (hrt : rt ≠ 0) (hs : 0 < sig)
    (hz : 0 < 1 + z) :
    ∃ s s' img, buildModel { cfg with deltPA := -cfg.deltPA, xc := -cfg.xc } ⟨t, some ⟨v, 2⟩, some ⟨d, 1⟩⟩
        [va, rt, sig, m, z] = .ok (s, .ok (some img)) ∧
      buildModel cfg ⟨t, some ⟨v, 2⟩, some ⟨d, 1⟩⟩ [va, rt, sig, m, z] = .ok (s', .ok (some img)) ∧
      ∀ (hist hist' : List (List ℝ)) (va' rt' sig' m' z' : ℝ),
        (cfg.adaptive = true →
          AllReturn { cfg with deltPA := -cfg.deltPA, xc := -cfg.xc } s hist ∧ AllReturn cfg s' hist') →
        rt' ≠ 0 → 0 < sig' →
        (updateModel { cfg with deltPA := -cfg.deltPA, xc := -cfg.xc }
          (runUpdates { cfg with deltPA := -cfg.deltPA, xc := -cfg.xc } s hist) [va', rt', sig', m', z']).2 =
          (updateModel cfg (runUpdates cfg s' hist') [va', rt', sig', m', z']).2 := by
  have hc' : Luminous { cfg with deltPA := -cfg.deltPA, xc := -cfg.xc } :=
    ⟨hc.rows, hc.sub, hc.pix, hc.slit, hc.pad, hc.int, hc.axis, hc.mask, hc.reb, hc.wave, hc.adapt, hc.dither, hc.beta⟩
  have hn := luminous_cells cfg hc
  have hk' : cfg.psf.fwhm ≤ 0 ∨ slitCells cfg % 2 = 1 := hk.imp_left le_of_eq
  obtain ⟨w0, step, N, hstep, hN, hw⟩ := hc.wave
  rcases hc.axis with hv | ⟨hv, hr, -⟩
  · obtain ⟨s, img, h1, h2, h3, h4, h5⟩ := C204_image { cfg with deltPA := -cfg.deltPA, xc := -cfg.xc } hc' hF hst hfit hv
      hi0 hi1 w0 step N hN hstep hw t v d va rt sig m z hrt hs
    obtain ⟨s', img', h1', h2', h3', h4', h5'⟩ := C204_image cfg hc hF hst hfit hv hi0 hi1
      w0 step N hN hstep hw t v d va rt sig m z hrt hs
    have e : img = img' := same_arr h2 h3 (fun i j => (h4 i j).trans (velSpec_mirror cfg he hn hk' _ _ _ _ _ _ _ _ _)) h2' h3' h4'
    refine ⟨s, s', img, h1, e ▸ h1', fun hist hist' va' rt' sig' m' z' hret hrt' hs' => ?_⟩
    obtain ⟨i1, g1, g2, g3, g4⟩ := h5 hist va' rt' sig' m' z' (fun ha => (hret ha).1) hrt' hs'
    obtain ⟨i2, g1', g2', g3', g4'⟩ := h5' hist' va' rt' sig' m' z' (fun ha => (hret ha).2) hrt' hs'
    rw [g1, g1', same_arr g2 g3 (fun i j => (g4 i j).trans (velSpec_mirror cfg he hn hk' _ _ _ _ _ _ _ _ _)) g2' g3' g4']
  · obtain ⟨r0, hr0⟩ : ∃ r0, cfg.restwave.head? = some r0 := by
      cases h : cfg.restwave with
      | nil => exact absurd h hr
      | cons a l => exact ⟨a, rfl⟩
    obtain ⟨s, img, h1, h2, h3, h4, h5⟩ := C203_image { cfg with deltPA := -cfg.deltPA, xc := -cfg.xc } hc' hF hst hfit hv
      hi0 hi1 w0 step N hN hstep hw r0 hr0 t v d va rt sig m z hrt hs hz
    obtain ⟨s', img', h1', h2', h3', h4', h5'⟩ := C203_image cfg hc hF hst hfit hv hi0 hi1
      w0 step N hN hstep hw r0 hr0 t v d va rt sig m z hrt hs hz
    have e : img = img' := same_arr h2 h3 (fun i j => (h4 i j).trans (imageSpec_mirror cfg he hn hk' _ _ _ _ _ _ _ _ _ _ _)) h2' h3' h4'
    refine ⟨s, s', img, h1, e ▸ h1', fun hist hist' va' rt' sig' m' z' hret hrt' hs' => ?_⟩
    obtain ⟨i1, g1, g2, g3, g4⟩ := h5 hist va' rt' sig' m' z' (fun ha => (hret ha).1) hrt' hs'
    obtain ⟨i2, g1', g2', g3', g4'⟩ := h5' hist' va' rt' sig' m' z' (fun ha => (hret ha).2) hrt' hs'
    rw [g1, g1', same_arr g2 g3 (fun i j => (g4 i j).trans (imageSpec_mirror cfg he hn hk' _ _ _ _ _ _ _ _ _ _ _)) g2' g3' g4']

/-! ## An even number of columns -/

/-- one pixel seen by a slit two pixels wide, on two velocities, an edge-on disc with light `I` turned by `pa`,
`m0 - 1 / 2` rows above the middle of the pixel -/
noncomputable def twoCols (pa m0 : ℝ) (I : ℝ → ℝ → ℝ) : AperCfg where
  nWhole := 1
  wave := uniformGrid (-1) 2 2
  restwave := [1]
  ratios := [1]
  m0 := m0
  sini := 1
  deltPA := pa
  pixscale := 1
  slit := 2
  psf := ⟨.gaussian, 1, 0, none⟩
  res := 0
  slitMask := false
  int := I
  nSubpixels := 1
  padFactor := 0
  xc := 0
  rebinOutput := true
  specType := .velocity
  absvalsigma := false
  adaptive := false
  factor := 3
  sigmaFloor := false
  npFloat := true

theorem twoCols_luminous (pa m0 : ℝ) (I : ℝ → ℝ → ℝ) (hI : ∀ r z, 0 < I r z) : Luminous (twoCols pa m0 I) where
  rows := by norm_num [twoCols]
  sub := by norm_num [twoCols]
  pix := by norm_num [twoCols]
  slit := by norm_num [twoCols]
  pad := by norm_num [twoCols]
  int := hI
  axis := Or.inl rfl
  mask := rfl
  reb := rfl
  wave := ⟨-1, 2, 2, two_pos, le_rfl, rfl⟩
  adapt := fun h => by cases h
  dither := fun _ => rfl
  beta := fun h => by cases h

theorem twoCols_cells (pa m0 : ℝ) (I : ℝ → ℝ → ℝ) : slitCells (twoCols pa m0 I) = 2 := by
  unfold slitCells
  have : (2 : ℝ) * ((1 : ℕ) : ℝ) / 1 = ((2 : ℤ) : ℝ) := by norm_num
  show ⌈(2 : ℝ) * ((1 : ℕ) : ℝ) / 1⌉.toNat = 2
  rw [this, Int.ceil_intCast]
  rfl

theorem twoCols_padRows (pa m0 : ℝ) (I : ℝ → ℝ → ℝ) : padRows (twoCols pa m0 I) = 0 := by
  unfold padRows
  simp [twoCols, npRound_zero]

theorem twoCols_padCols (pa m0 : ℝ) (I : ℝ → ℝ → ℝ) : padCols (twoCols pa m0 I) = 0 := by
  unfold padCols
  simp [twoCols, npRound_zero]

theorem twoCols_x (pa m0 : ℝ) (I : ℝ → ℝ → ℝ) (a : ℕ) : gridX (twoCols pa m0 I) a = a - 1 / 2 := by
  unfold gridX
  rw [twoCols_cells, twoCols_padCols]
  simp only [twoCols]
  push_cast
  ring

theorem twoCols_y (pa m0 : ℝ) (I : ℝ → ℝ → ℝ) : gridY (twoCols pa m0 I) m0 0 = 1 / 2 - m0 := by
  unfold gridY
  rw [twoCols_padRows]
  simp only [twoCols]
  push_cast
  ring

theorem twoCols_kernelX (pa m0 : ℝ) (I : ℝ → ℝ → ℝ) : kernelX (twoCols pa m0 I) = [-1 / 2, 1 / 2] := by
  classical
  have hn : nCols (twoCols pa m0 I) = 2 := by unfold nCols; rw [twoCols_cells, twoCols_padCols]
  unfold kernelX
  rw [hn]
  have hl : (List.range 2).map (gridX (twoCols pa m0 I)) = [-1 / 2, 1 / 2] := by
    simp [List.range_succ, twoCols_x]
    norm_num
  rw [hl, twoCols_x, twoCols_x]
  refine List.filter_eq_self.2 fun x hx => ?_
  have : x = -1 / 2 ∨ x = 1 / 2 := by simpa using hx
  simp only [decide_eq_true_eq]
  rcases this with rfl | rfl <;> norm_num [twoCols, abs_le]

theorem twoCols_kernelY (pa m0 : ℝ) (I : ℝ → ℝ → ℝ) : (kernelY (twoCols pa m0 I) m0).length = 1 := by
  classical
  have hn : nRows (twoCols pa m0 I) = 1 := by unfold nRows; rw [twoCols_padRows]; rfl
  unfold kernelY
  rw [hn]
  have hl : (List.range 1).map (gridY (twoCols pa m0 I) m0) = [1 / 2 - m0] := by
    simp only [List.range_one, List.map_cons, List.map_nil]
    rw [twoCols_y]
  rw [hl, twoCols_y]
  simp [twoCols]

/-- the light of the two columns, the first spread over both -/
theorem twoCols_image (pa m0 : ℝ) (I : ℝ → ℝ → ℝ) (va rt sig : ℝ) (j : ℕ) (L : ℕ → ℕ → ℝ)
    (hL : ∀ w a, velLight (twoCols pa m0 I) va rt sig m0 (-1 + 2 * (w : ℕ)) 0 a = L w a) :
    velSpec (twoCols pa m0 I) (-1) 2 2 va rt sig m0 0 j =
      (L 0 0 + L 0 1 + (L 1 0 + L 1 1)) / ((2 * L 0 0 + L 0 1) + (2 * L 1 0 + L 1 1)) * (2 * L j 0 + L j 1) := by
  have hn : velSamples (twoCols pa m0 I) 2 sig = 1 := by unfold velSamples; simp [twoCols]
  have hsg : velSigma (twoCols pa m0 I) 2 sig = sig := by unfold velSigma; simp [twoCols]
  have hw : ∀ w, fineWave (-1) 2 1 w = -1 + 2 * w := by intro w; unfold fineWave; push_cast; ring
  set k := seeing (twoCols pa m0 I).psf (1 / 2) ((kernelY (twoCols pa m0 I) m0).getD 0 0) with hk
  have hkn : seeing (twoCols pa m0 I).psf (-1 / 2) ((kernelY (twoCols pa m0 I) m0).getD 0 0) = k := by
    rw [hk]
    unfold seeing
    norm_num
  have hk0 : 0 < k := by
    rw [hk]
    exact Real.exp_pos _
  have hR : nRows (twoCols pa m0 I) = 1 := by unfold nRows; rw [twoCols_padRows]; rfl
  have hC : nCols (twoCols pa m0 I) = 2 := by unfold nCols; rw [twoCols_cells, twoCols_padCols]
  set A : ℕ → ℕ → ℕ → ℝ := fun w => velLight (twoCols pa m0 I) va rt sig m0 (fineWave (-1) 2 1 w) with hA
  have hA' : ∀ w a, A w 0 a = L w a := by intro w a; rw [hA]; simp only [hw]; exact hL w a
  set K : ℕ → ℕ → ℝ := fun j i => seeing (twoCols pa m0 I).psf (([-1 / 2, 1 / 2] : List ℝ).getD i 0)
      ((kernelY (twoCols pa m0 I) m0).getD j 0) with hK
  have hK0 : K 0 0 = k := hkn
  have hK1 : K 0 1 = k := rfl
  have hs0 : ∀ w, scatter 1 2 1 2 (A w) K 0 0 = k * L w 0 := by
    intro w
    simp only [scatter, Finset.sum_range_succ, Finset.sum_range_zero, hA', zero_add, hK0, hK1]
    norm_num
    ring
  have hs1 : ∀ w, scatter 1 2 1 2 (A w) K 0 1 = k * (L w 0 + L w 1) := by
    intro w
    simp only [scatter, Finset.sum_range_succ, Finset.sum_range_zero, hA', zero_add, hK0, hK1]
    norm_num
    ring
  unfold velSpec
  simp only [hn, hsg, Finset.sum_range_one, add_zero, mul_one]
  unfold velImage dispersed
  have hres : ¬ 0 < (twoCols pa m0 I).res := by simp [twoCols]
  simp only [if_neg hres]
  unfold throughSlit
  rw [twoCols_cells, twoCols_padRows, twoCols_padCols]
  have hsub : (twoCols pa m0 I).nSubpixels = 1 := rfl
  have hsl : (twoCols pa m0 I).slit / ((2 : ℕ) : ℝ) = 1 := by norm_num [twoCols]
  simp only [hsub, hsl, Finset.sum_range_one, Finset.sum_range_succ, Finset.sum_range_zero, zero_add, add_zero, mul_one, zero_mul]
  unfold blurred
  have hF : 0 < (twoCols pa m0 I).psf.fwhm := one_pos
  simp only [if_pos hF, hR, hC, twoCols_kernelX, twoCols_kernelY]
  show total3 2 1 2 A / total3 2 1 2 (fun w => scatter 1 2 1 2 (A w) K) * scatter 1 2 1 2 (A j) K 0 0 +
    total3 2 1 2 A / total3 2 1 2 (fun w => scatter 1 2 1 2 (A w) K) * scatter 1 2 1 2 (A j) K 0 1 = _
  have ht : total3 2 1 2 (fun w => scatter 1 2 1 2 (A w) K) = k * ((2 * L 0 0 + L 0 1) + (2 * L 1 0 + L 1 1)) := by
    simp only [total3, Finset.sum_range_succ, Finset.sum_range_zero, zero_add, hs0, hs1]
    ring
  have ht' : total3 2 1 2 A = L 0 0 + L 0 1 + (L 1 0 + L 1 1) := by
    simp only [total3, Finset.sum_range_succ, Finset.sum_range_zero, zero_add, hA']
  rw [ht, ht', hs0, hs1]
  field_simp
  ring

theorem arctan_one_half : Real.arctan ((1 / 2 : ℝ) / (1 / 2)) = Real.pi / 4 := by
  rw [div_self (by norm_num), Real.arctan_one]

/-- the columns move by half a unit of velocity towards and away from the observer -/
theorem twoCols_light (e : ℝ) (he : e = 1 ∨ e = -1) (v : ℝ) (a : ℕ) (ha : a = 0 ∨ a = 1) :
    velLight (twoCols (e * 90) (1 / 2) fun _ _ => 1) 1 (1 / 2) 1 (1 / 2) v 0 a =
      ProbabilityTheory.gaussianPDFReal (e * (1 / 2 - a)) 1 v := by
  unfold velLight
  have h90 : e * 90 * Real.pi / 180 = e * (Real.pi / 2) := by ring
  have hc : Real.cos (e * (Real.pi / 2)) = 0 := by rcases he with rfl | rfl <;> simp [Real.cos_neg]
  have hs : Real.sin (e * (Real.pi / 2)) = e := by rcases he with rfl | rfl <;> simp
  have hp : discPoint 1 (e * 90) (a - 1 / 2) 0 0 = (0, e * (1 / 2 - a), -0) := by
    unfold discPoint
    simp only [h90, hc, hs]
    refine Prod.ext ?_ (Prod.ext ?_ ?_) <;> simp
    ring
  have hr : Real.sqrt ((0 : ℝ) ^ 2 + (e * (1 / 2 - a)) ^ 2) = 1 / 2 := by
    have : (0 : ℝ) ^ 2 + (e * (1 / 2 - a)) ^ 2 = (1 / 2) ^ 2 := by
      rcases he with rfl | rfl <;> rcases ha with rfl | rfl <;> norm_num
    rw [this, Real.sqrt_sq (by norm_num)]
  have hv : discVelocity 1 (1 / 2) 1 0 (e * (1 / 2 - a)) = e * (1 / 2 - a) := by
    unfold discVelocity
    simp only [hr]
    rw [if_neg (by norm_num), arctan_one_half]
    have := Real.pi_ne_zero
    field_simp
    ring
  have hz : skyZ 1 1 0 = 0 := by unfold skyZ; norm_num
  have hsub : (twoCols (e * 90) (1 / 2) fun _ _ => 1).nWhole * (twoCols (e * 90) (1 / 2) fun _ _ => 1).nSubpixels = 1 := rfl
  have hd : (twoCols (e * 90) (1 / 2) fun _ _ => 1).pixscale / ((twoCols (e * 90) (1 / 2) fun _ _ => 1).nSubpixels : ℝ) = 1 := by norm_num [twoCols]
  simp only [hsub, hd, Finset.sum_range_one, twoCols_x, twoCols_y, hz, sub_self]
  show 1 * ProbabilityTheory.gaussianPDFReal (discVelocity 1 (1 / 2) 1 (discPoint 1 (e * 90) (a - 1 / 2) 0 0).1
    (discPoint 1 (e * 90) (a - 1 / 2) 0 0).2.1) ((1 : ℝ) ^ 2).toNNReal v * 1 = _
  rw [hp, hv]
  simp

/-- **C216**, even sizes: it is false for a point spread function and an even number of subpixels across the slit: an edge-on disc turned by a
quarter turn one way or the other has different images. -/
theorem C216_even : ∃ cfg : AperCfg, Luminous cfg ∧ 0 < cfg.psf.fwhm ∧ ¬ cfg.psf.StampFails ∧ KernelFits cfg ∧ 0 ≤ cfg.sini ∧
    cfg.sini ≤ 1 ∧ (∀ r z, cfg.int r (-z) = cfg.int r z) ∧ cfg.xc = 0 ∧ slitCells cfg = 2 ∧
    ∀ t v d : List ℝ, ∃ s s' img img',
      buildModel { cfg with deltPA := -cfg.deltPA } ⟨t, some ⟨v, 2⟩, some ⟨d, 1⟩⟩ [1, 1 / 2, 1, 0, 0] = .ok (s, .ok (some img)) ∧
      buildModel cfg ⟨t, some ⟨v, 2⟩, some ⟨d, 1⟩⟩ [1, 1 / 2, 1, 0, 0] = .ok (s', .ok (some img')) ∧ img ≠ img' := by
  have hst : ∀ pa, ¬ (twoCols pa (1 / 2) fun _ _ => 1).psf.StampFails := by
    intro pa
    rintro ⟨h, -⟩
    cases h
  have hkf : ∀ pa, KernelFits (twoCols pa (1 / 2) fun _ _ => 1) := fun pa => kernelFits_wide _ (twoCols_luminous pa _ _ fun _ _ => one_pos) (by norm_num [twoCols])
  refine ⟨twoCols 90 (1 / 2) fun _ _ => 1, twoCols_luminous 90 _ _ fun _ _ => one_pos, one_pos, hst 90, hkf 90, zero_le_one, le_rfl, fun _ _ => rfl, rfl,
    twoCols_cells 90 _ _, fun t v d => ?_⟩
  have hb := fun pa => C204_image (twoCols pa (1 / 2) fun _ _ => 1) (twoCols_luminous pa _ _ fun _ _ => one_pos) zero_le_one (hst pa) (Or.inr (hkf pa)) rfl zero_le_one le_rfl
    (-1) 2 2 le_rfl two_pos rfl t v d 1 (1 / 2) 1 0 0 (by norm_num) one_pos
  obtain ⟨s, img, h1, h2, h3, h4, -⟩ := hb (-90)
  obtain ⟨s', img', h1', h2', h3', h4', -⟩ := hb 90
  refine ⟨s, s', img, img', h1, h1', fun heq => ?_⟩
  subst heq
  have hm : (twoCols 90 (1 / 2) fun _ _ => 1).m0 + 0 = 1 / 2 := by norm_num [twoCols]
  have hm' : (twoCols (-90) (1 / 2) fun _ _ => 1).m0 + 0 = 1 / 2 := by norm_num [twoCols]
  have e1 := h4 ⟨0, by rw [h2]; exact one_pos⟩ ⟨0, by rw [h3]; exact two_pos⟩
  have e2 := h4' ⟨0, by rw [h2]; exact one_pos⟩ ⟨0, by rw [h3]; exact two_pos⟩
  rw [e1, hm, hm'] at e2
  have hval : ∀ e : ℝ, e = 1 ∨ e = -1 → ∀ w a : ℕ, a = 0 ∨ a = 1 →
      velLight (twoCols (e * 90) (1 / 2) fun _ _ => 1) 1 (1 / 2) 1 (1 / 2) (-1 + 2 * w) 0 a =
        (Real.sqrt (2 * Real.pi))⁻¹ * Real.exp (-(-1 + 2 * w - e * (1 / 2 - a)) ^ 2 / 2) := by
    intro e he w a ha
    rw [twoCols_light e he _ a ha, ProbabilityTheory.gaussianPDFReal]
    simp
  have f1 := twoCols_image (1 * 90) (1 / 2) (fun _ _ => 1) 1 (1 / 2) 1 0 _ fun w a => rfl
  have f2 := twoCols_image (-1 * 90) (1 / 2) (fun _ _ => 1) 1 (1 / 2) 1 0 _ fun w a => rfl
  rw [one_mul] at f1
  rw [show (-1 : ℝ) * 90 = -90 by norm_num] at f2
  have g1 := fun w a ha => hval 1 (Or.inl rfl) w a ha
  have g2 := fun w a ha => hval (-1) (Or.inr rfl) w a ha
  rw [one_mul] at g1
  rw [show (-1 : ℝ) * 90 = -90 by norm_num] at g2
  simp only [g1 _ 0 (Or.inl rfl), g1 _ 1 (Or.inr rfl)] at f1
  simp only [g2 _ 0 (Or.inl rfl), g2 _ 1 (Or.inr rfl)] at f2
  have e3 : velSpec (twoCols (-90) (1 / 2) fun _ _ => 1) (-1) 2 2 1 (1 / 2) 1 (1 / 2) 0 0 = velSpec (twoCols 90 (1 / 2) fun _ _ => 1) (-1) 2 2 1 (1 / 2) 1 (1 / 2) 0 0 := e2
  rw [f1, f2] at e3
  set c := (Real.sqrt (2 * Real.pi))⁻¹ with hc
  have hc0 : 0 < c := by rw [hc]; have := Real.pi_pos; positivity
  norm_num at e3
  have hq : Real.exp (-(9 / 8)) < Real.exp (-(1 / 8)) := Real.exp_lt_exp.2 (by norm_num)
  have hq0 := Real.exp_pos (-(9 / 8))
  have hp0 := Real.exp_pos (-(1 / 8))
  generalize Real.exp (-(9 / 8)) = Q at *
  generalize Real.exp (-(1 / 8)) = P at *
  have r1 : (c * P + c * Q + (c * Q + c * P)) / (2 * (c * P) + c * Q + (2 * (c * Q) + c * P)) = 2 / 3 := by
    field_simp
    ring
  have r2 : (c * Q + c * P + (c * P + c * Q)) / (2 * (c * Q) + c * P + (2 * (c * P) + c * Q)) = 2 / 3 := by
    field_simp
    ring
  rw [r1, r2] at e3
  have := mul_pos hc0 (sub_pos.2 hq)
  linarith

/-! ## The hypotheses are met -/

/-- a disc turned by 30 degrees and off the middle of a slit with three subpixels across, fainter away from its centre and
its plane -/
noncomputable def turnSlit : AperCfg :=
  { smallSlit ⟨.gaussian, 1, 0, none⟩ with
    deltPA := 30
    xc := 1 / 4
    slit := 3 / 2
    int := fun r z => Real.exp (-r - z ^ 2) }

theorem turnSlit_luminous : Luminous turnSlit := by
  have h := smallSlit_luminous ⟨.gaussian, 1, 0, none⟩ (fun _ => rfl) fun h => by cases h
  exact ⟨h.rows, h.sub, h.pix, by norm_num [turnSlit], h.pad, fun _ _ => Real.exp_pos _, h.axis, h.mask, h.reb, h.wave, h.adapt,
    h.dither, h.beta⟩

theorem turnSlit_cells : slitCells turnSlit = 3 := by
  unfold slitCells
  have : (3 / 2 : ℝ) * ((2 : ℕ) : ℝ) / 1 = ((3 : ℤ) : ℝ) := by norm_num
  show ⌈(3 / 2 : ℝ) * ((2 : ℕ) : ℝ) / 1⌉.toNat = 3
  rw [this, Int.ceil_intCast]
  rfl

/-- the hypotheses of `C215_half_turn` and `C216_mirror` are met -/
example : Luminous turnSlit ∧ 0 ≤ turnSlit.psf.fwhm ∧ ¬ turnSlit.psf.StampFails ∧
    (turnSlit.psf.fwhm = 0 ∨ KernelFits turnSlit) ∧ (turnSlit.psf.fwhm = 0 ∨ slitCells turnSlit % 2 = 1) ∧
    0 ≤ turnSlit.sini ∧ turnSlit.sini ≤ 1 ∧ (∀ r z, turnSlit.int r (-z) = turnSlit.int r z) :=
  ⟨turnSlit_luminous, zero_le_one, (by rintro ⟨h, -⟩; cases h),
    Or.inr (kernelFits_wide _ turnSlit_luminous (by norm_num [turnSlit, smallSlit])),
    Or.inr (by rw [turnSlit_cells]), by norm_num [turnSlit, smallSlit], by norm_num [turnSlit, smallSlit], fun r z => by
      simp [turnSlit]⟩

/-- an image that the two galaxies share -/
example : ∃ s s' img, buildModel { turnSlit with deltPA := 30 + 180 } ⟨[], some ⟨[], 2⟩, some ⟨[], 1⟩⟩ [1, 1, 1, 0, 0] =
      .ok (s, .ok (some img)) ∧
    buildModel turnSlit ⟨[], some ⟨[], 2⟩, some ⟨[], 1⟩⟩ [-1, 1, 1, 0, 0] = .ok (s', .ok (some img)) := by
  obtain ⟨s, s', img, h1, h2, -⟩ := C215_half_turn turnSlit turnSlit_luminous zero_le_one (by rintro ⟨h, -⟩; cases h)
    (Or.inr (kernelFits_wide _ turnSlit_luminous (by norm_num [turnSlit, smallSlit]))) (by norm_num [turnSlit, smallSlit])
    (by norm_num [turnSlit, smallSlit]) (fun r z => by simp [turnSlit]) [] [] [] 1 1 1 0 0 one_ne_zero one_pos (by norm_num)
  exact ⟨s, s', img, h1, h2⟩

end Misfit
