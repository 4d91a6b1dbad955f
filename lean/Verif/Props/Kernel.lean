import Verif.Props.Aper

/-!
# C57: is the PSF kernel centred?
-/

namespace Misfit

/-- the kernel is largest at the pixel the convolution uses as origin -/
def PeakAtAnchor {kn km : Nat} (k : Fin kn → Fin km → ℝ) : Prop :=
  ∃ (h1 : (kn - 1) / 2 < kn) (h2 : (km - 1) / 2 < km),
    ∀ j i, k j i ≤ k ⟨(kn - 1) / 2, h1⟩ ⟨(km - 1) / 2, h2⟩

/-- the kernel is symmetric about that pixel -/
def SymmetricAtAnchor {kn km : Nat} (k : Fin kn → Fin km → ℝ) : Prop :=
  ∀ (j j' : Fin kn) (i i' : Fin km), (j : Nat) + j' = 2 * ((kn - 1) / 2) →
    (i : Nat) + i' = 2 * ((km - 1) / 2) → k j i = k j' i'

/-- where the trimmed coordinates come from -/
theorem setupCalcs_trim (cfg : AperCfg) (theta : List ℝ) (f : AperFixed) (h : setupCalcs cfg theta = .ok f) :
    ∃ m0shift, fromEnd theta 2 = .ok m0shift ∧
      setupGrid ⟨cfg.nWhole, cfg.nSubpixels, cfg.pixscale, cfg.slit, cfg.psf.fwhm, cfg.padFactor, cfg.xc,
        cfg.m0 + m0shift⟩ = .ok f.grid ∧
      f.xTrim = trimToFwhm f.grid.xArr cfg.psf.fwhm ∧ f.yTrim = trimToFwhm f.grid.yArr cfg.psf.fwhm := by
  replace h := (setupCalcs_ok h).1
  unfold setupArrays at h
  simp only [bind, Except.bind] at h
  split at h
  · cases h
  · split at h
    · cases h
    · rename_i m hm
      split at h
      · cases h
      · rename_i g hg
        split at h
        · cases h
        · cases h; exact ⟨m, hm, hg, rfl, rfl⟩

/-- A list that is odd under reversal keeps that property when trimmed around its mean. -/
theorem trim_symmetric (l : List ℝ) (fwhm : ℝ) (h : l.reverse.map (fun a => -a) = l) :
    (trimToFwhm l fwhm).reverse.map (fun a => -a) = trimToFwhm l fwhm := by
  have hsum : avgList l = 0 := by
    have h1 : (l.reverse.map fun a => -a).sum = l.sum := by rw [h]
    rw [List.map_reverse, List.sum_reverse] at h1
    have h2 : ∀ l : List ℝ, (l.map fun a => -a).sum = -l.sum := by
      intro l
      induction l with
      | nil => simp
      | cons a l ih => rw [List.map_cons, List.sum_cons, ih, List.sum_cons]; ring
    rw [h2] at h1
    have h3 : l.sum = 0 := by linarith
    unfold avgList
    rw [h3, zero_div]
  unfold trimToFwhm
  rw [hsum]
  have hf : ∀ l : List ℝ, (l.filter fun a => decide (|a - 0| ≤ fwhm)).reverse.map (fun a => -a) =
      (l.reverse.map fun a => -a).filter fun a => decide (|a - 0| ≤ fwhm) := by
    intro l
    rw [List.filter_map, ← List.filter_reverse]
    congr 1
    apply List.filter_congr
    intro a _
    simp [abs_neg]
  rw [hf l, h]

theorem symmetric_get (l : List ℝ) (h : l.reverse.map (fun a => -a) = l) (i j : Nat) (hi : i < l.length)
    (hj : j < l.length) (hij : i + j + 1 = l.length) : l[i] = -l[j] := by
  have h1 : l[i]? = (l.reverse.map fun a => -a)[i]? := by rw [h]
  rw [List.getElem?_map, List.getElem?_reverse hi, List.getElem?_eq_getElem hi] at h1
  have h2 : l.length - 1 - i = j := by omega
  rw [h2, List.getElem?_eq_getElem hj] at h1
  simpa using h1

theorem symmetric_of_get (l : List ℝ) (h : ∀ (i j : Nat) (a b : ℝ), i + j + 1 = l.length → l[i]? = some a →
    l[j]? = some b → a = -b) : l.reverse.map (fun a => -a) = l := by
  apply List.ext_getElem
  · simp
  · intro i h1 h2
    rw [List.getElem_map, List.getElem_reverse]
    have := h i (l.length - 1 - i) l[i] l[l.length - 1 - i] (by omega) (List.getElem?_eq_getElem _)
      (List.getElem?_eq_getElem _)
    rw [this]

/-- C57 holds when the object sits exactly in the middle of the grid in both directions, and the
kernel has odd sizes.  Missing: any other object centre, even sizes; see `C57_false`. -/
theorem C57_centred_partial (cfg : AperCfg) (theta : List ℝ) (f : AperFixed) (m0shift : ℝ)
    (h : setupCalcs cfg theta = .ok f) (hsh : fromEnd theta 2 = .ok m0shift)
    (hphys : (⟨cfg.nWhole, cfg.nSubpixels, cfg.pixscale, cfg.slit, cfg.psf.fwhm, cfg.padFactor, cfg.xc,
        cfg.m0 + m0shift⟩ : GridIn ℝ).Phys)
    (hm0 : cfg.m0 + m0shift = ((cfg.nWhole : ℝ) - 1) / 2) (hxc : cfg.xc = 0) (hnY : 1 < f.grid.nY)
    (hfw : 0 < cfg.psf.fwhm) (hdit : cfg.psf.dither = none) (hbeta : cfg.psf.kind = .moffat → 1 < cfg.psf.beta)
    (hox : f.xTrim.length % 2 = 1) (hoy : f.yTrim.length % 2 = 1) :
    PeakAtAnchor (cfg.psf.stamp f.xTrim f.yTrim) ∧ SymmetricAtAnchor (cfg.psf.stamp f.xTrim f.yTrim) := by
  obtain ⟨m', hm', hg, hx, hy⟩ := setupCalcs_trim cfg theta f h
  rw [hsh] at hm'
  cases hm'
  obtain ⟨G, hG, -, -, hsx, -⟩ := C35_grid _ hphys
  obtain ⟨G', hG', hlen, -, -, -, hsy⟩ := C36_spacing_partial _ hphys
  rw [hg] at hG hG'
  cases hG; cases hG'
  have hxs : f.xTrim.reverse.map (fun a => -a) = f.xTrim := by
    rw [hx]
    apply trim_symmetric
    apply symmetric_of_get
    intro i j a b hij ha hb
    have := hsx i j a b hij ha hb
    simp only [hxc] at this
    linarith
  have hys : f.yTrim.reverse.map (fun a => -a) = f.yTrim := by
    rw [hy]
    apply trim_symmetric
    apply symmetric_of_get
    intro i j a b hij ha hb
    have := hsy i j a b hnY (by rw [← hlen]; exact hij) ha hb
    simp only [hm0, sub_self, zero_mul] at this
    linarith
  have hgood := C49_shape_partial cfg.psf hfw hdit hbeta
  have hmid : ∀ l : List ℝ, l.reverse.map (fun a => -a) = l → (ho : l.length % 2 = 1) →
      l[(l.length - 1) / 2]'(by omega) = 0 := by
    intro l hl ho
    have := symmetric_get l hl ((l.length - 1) / 2) ((l.length - 1) / 2) (by omega) (by omega) (by omega)
    linarith
  constructor
  · refine ⟨by omega, by omega, fun j i => ?_⟩
    have e : cfg.psf.stamp f.xTrim f.yTrim ⟨(f.yTrim.length - 1) / 2, by omega⟩
        ⟨(f.xTrim.length - 1) / 2, by omega⟩ = cfg.psf.stampAt 0 0 := by
      show cfg.psf.stampAt (f.xTrim[(f.xTrim.length - 1) / 2]'(by omega))
        (f.yTrim[(f.yTrim.length - 1) / 2]'(by omega)) = _
      rw [hmid _ hxs hox, hmid _ hys hoy]
    rw [e]
    exact hgood.2.2.1 _ _
  · intro j j' i i' hj hi
    show cfg.psf.stampAt f.xTrim[i] f.yTrim[j] = cfg.psf.stampAt f.xTrim[i'] f.yTrim[j']
    have h1 := symmetric_get _ hxs i i' i.2 i'.2 (by omega)
    have h2 := symmetric_get _ hys j j' j.2 j'.2 (by omega)
    have h1' : f.xTrim[i] = -f.xTrim[i'] := h1
    have h2' : f.yTrim[j] = -f.yTrim[j'] := h2
    rw [h1', h2', (hgood.2.1 _ _).1, (hgood.2.1 _ _).2]

/-- three rows, the object in the lower half of the image -/
noncomputable def offCentre : AperCfg :=
  { oneCell [1, 2] true true 3 with nWhole := 3, m0 := 1 / 2, psf := ⟨.gaussian, 1, 0, none⟩, padFactor := 0 }

/-- its grid -/
noncomputable def offGrid : Grid ℝ := ⟨3, 1, 0, 0, 1, 1, 1, 1, 3, 3, [0], [0, 1 / 2, 1], [-1, 0, 1]⟩

theorem offGrid_eq : setupGrid (⟨3, 1, 1, 1, 1, 0, 0, 1 / 2 + 0⟩ : GridIn ℝ) = .ok offGrid := by
  have h1 : nPixXOf (⟨3, 1, 1, 1, 1, 0, 0, 2⁻¹⟩ : GridIn ℝ) 1 3 3 = 1 := by
    simp [nPixXOf]
  unfold setupGrid
  simp [h1, npRound_zero, linspace, offGrid, List.range_succ]
  norm_num

/-- C57 is false: with the object in the lower half of the image the kernel decreases from its first
row on, so its peak is not at its origin (row 1). -/
theorem C57_false : ∃ cfg theta f, setupCalcs cfg theta = .ok f ∧ 0 < cfg.psf.fwhm ∧ cfg.xc = 0 ∧
    cfg.psf.dither = none ∧ f.yTrim.length = 3 ∧ f.xTrim.length = 1 ∧
    ¬ PeakAtAnchor (cfg.psf.stamp f.xTrim f.yTrim) := by
  have hs : ∃ f, setupCalcs offCentre [0, 1, 1, 0, 0] = .ok f := by
    rw [setupCalcs_arrays (fun h => by cases h.1)]
    unfold setupArrays
    have e1 : fromEnd ([0, 1, 1, 0, 0] : List ℝ) 1 = .ok 0 := rfl
    have e2 : fromEnd ([0, 1, 1, 0, 0] : List ℝ) 2 = .ok 0 := rfl
    have e3 : setupGrid (⟨offCentre.nWhole, offCentre.nSubpixels, offCentre.pixscale, offCentre.slit,
      offCentre.psf.fwhm, offCentre.padFactor, offCentre.xc, offCentre.m0 + 0⟩) = .ok offGrid := offGrid_eq
    simp only [bind, Except.bind, e1, e2, e3]
    have e4 : offCentre.specType = .wave := rfl
    have e5 : offCentre.restwave = [1] := rfl
    rw [e4, e5]
    simp only [List.getElem?_cons_zero]
    exact ⟨_, rfl⟩
  obtain ⟨f, hf⟩ := hs
  obtain ⟨m', hm', hg, hx, hy⟩ := setupCalcs_trim _ _ f hf
  have : m' = 0 := by
    have e2 : fromEnd ([0, 1, 1, 0, 0] : List ℝ) 2 = .ok 0 := rfl
    rw [e2] at hm'; cases hm'; rfl
  subst this
  have hg' : f.grid = offGrid := by
    have := hg.symm.trans offGrid_eq
    exact Except.ok.inj this
  have hxt : f.xTrim = [0] := by
    rw [hx, hg']
    show trimToFwhm [0] 1 = _
    simp [trimToFwhm, avgList]
  have hyt : f.yTrim = [0, 1 / 2, 1] := by
    rw [hy, hg']
    show trimToFwhm [0, 1 / 2, 1] 1 = _
    have ha : avgList [0, 1 / 2, 1] = 1 / 2 := by norm_num [avgList]
    unfold trimToFwhm
    rw [ha]
    norm_num [List.filter, abs_of_pos, abs_of_neg]
  refine ⟨offCentre, _, f, hf, one_pos, rfl, rfl, by rw [hyt]; rfl, by rw [hxt]; rfl, ?_⟩
  rw [hxt, hyt]
  rintro ⟨h1, h2, h⟩
  have h3 := h ⟨0, by simp⟩ ⟨0, by simp⟩
  have hgood := C49_shape_partial offCentre.psf one_pos rfl (fun h => by cases h)
  have h4 : offCentre.psf.stampAt 0 0 ≤ offCentre.psf.stampAt 0 (1 / 2) := h3
  have h5 := hgood.2.2.2.1 0 0 0 (1 / 2) (by norm_num)
  linarith

/-- A point source convolved with the kernel: the image is the kernel itself, placed with its
origin on the source.  So the brightest pixel moves by the distance of the kernel's peak from its
origin. -/
theorem C57_point_source {n m kn km : Nat} (k : Fin kn → Fin km → ℝ) (y0 : Fin n) (x0 : Fin m) (flux : ℝ)
    (y : Fin n) (x : Fin m) (j : Fin kn) (i : Fin km)
    (hy : (y : ℤ) - y0 = (j : ℤ) - ((kn - 1) / 2 : ℕ)) (hx : (x : ℤ) - x0 = (i : ℤ) - ((km - 1) / 2 : ℕ)) :
    convSame2 (fun y' x' => if y' = y0 ∧ x' = x0 then flux else 0) k y x = flux * k j i := by
  rw [convSame2_source, Finset.sum_eq_single y0, Finset.sum_eq_single x0]
  · rw [if_pos ⟨rfl, rfl⟩]
    have e1 : (y : ℤ) - y0 + ((kn - 1) / 2 : ℕ) = j := by omega
    have e2 : (x : ℤ) - x0 + ((km - 1) / 2 : ℕ) = i := by omega
    rw [e1, e2, ext_val, ext_val]
  · intro b _ hb
    rw [if_neg (fun h => hb h.2), zero_mul]
  · intro h; exact absurd (Finset.mem_univ _) h
  · intro b _ hb
    refine Finset.sum_eq_zero fun x' _ => ?_
    rw [if_neg (fun h => hb h.1), zero_mul]
  · intro h; exact absurd (Finset.mem_univ _) h

end Misfit
