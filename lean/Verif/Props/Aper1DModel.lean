import Verif.Props.Aper1D
import Verif.Props.Grid
import Verif.Props.PSF

/-!
# C51, C71-C75: whole aperture models
-/

namespace Misfit

open Real

/-! ## C71: the aperture -/

/-- Coordinates of the 1D aperture grids. -/
theorem disp_coord (nP : Nat) (d c : ℝ) (i : Nat) (hi : i < 4 * nP + 3) :
    ((linspace ((-2 * (nP : ℝ) - 1) * d) ((2 * (nP : ℝ) + 1) * d) (4 * nP + 3)).map (· - c))[i]? =
      some (((i : ℝ) - (2 * nP + 1)) * d - c) := by
  rw [List.getElem?_map, linspace_get _ _ _ _ hi, if_neg (by omega), Option.map_some]
  congr 1
  have h1 : ((4 * nP + 3 : ℕ) : ℝ) - 1 = 2 * (2 * nP + 1) := by push_cast; ring
  have h2 : (2 * (2 * (nP : ℝ) + 1)) ≠ 0 := by positivity
  rw [h1]
  field_simp
  ring

theorem rot_coord (n pad : Nat) (d c : ℝ) (i : Nat) (hi : i < n + 2 * pad) :
    ((linspace (-((n : ℝ) / 2 + pad - 0.5) * d) (((n : ℝ) / 2 + pad - 0.5) * d) (n + 2 * pad)).map
      (· - c))[i]? = some (((i : ℝ) - pad - ((n : ℝ) - 1) / 2) * d - c) := by
  rw [List.getElem?_map, linspace_get _ _ _ _ hi, Option.map_some]
  congr 1
  by_cases h1 : n + 2 * pad = 1
  · rw [if_pos h1]
    obtain ⟨rfl, rfl⟩ : n = 1 ∧ pad = 0 := by omega
    obtain rfl : i = 0 := by omega
    norm_num
  · rw [if_neg h1]
    have h2 : ((n + 2 * pad : ℕ) : ℝ) - 1 ≠ 0 := by
      rw [sub_ne_zero]
      exact_mod_cast h1
    push_cast at h2 ⊢
    field_simp
    ring

/-- **C71** (dispersion models): the pixels the aperture sum keeps are exactly those whose centre
is in the slit and in the extraction window, their sizes add up to slit width and extraction
width, and the grid reaches at least as far again on both sides. -/
theorem C71_disp (g : Disp1DIn) (hs : 0 < g.slit) (hw : 0 < (setupDisp1D g).width) :
    let G := setupDisp1D g
    (2 * (G.nPixels : ℝ) + 1) * G.deltX = g.slit ∧ (2 * (G.nPixels : ℝ) + 1) * G.deltY = G.width ∧
    G.xs.length = 4 * G.nPixels + 3 ∧ G.ys.length = 4 * G.nPixels + 3 ∧
    (∀ (i : Nat) (x : ℝ), G.xs[i]? = some x →
      ((G.nPixels + 1 ≤ i ∧ i < 3 * G.nPixels + 2) ↔ |x + g.xc| < g.slit / 2)) ∧
    (∀ (j : Nat) (y : ℝ), G.ys[j]? = some y →
      ((G.nPixels + 1 ≤ j ∧ j < 3 * G.nPixels + 2) ↔ |y + g.yc| < G.width / 2)) ∧
    (∀ x ∈ G.xs, |x + g.xc| ≤ g.slit) ∧ ∀ y ∈ G.ys, |y + g.yc| ≤ G.width := by
  intro G
  have key : ∀ (n i : Nat) (d L : ℝ), 0 < d → (2 * (n : ℝ) + 1) * d = L →
      ((n + 1 ≤ i ∧ i < 3 * n + 2) ↔ |((i : ℝ) - (2 * n + 1)) * d| < L / 2) := by
    intro n i d L hd hL
    rw [abs_mul, abs_of_pos hd, ← hL, mul_div_right_comm, mul_lt_mul_iff_left₀ hd, abs_lt]
    constructor
    · rintro ⟨h1, h2⟩
      have h1' : ((n : ℝ) + 1) ≤ i := by exact_mod_cast h1
      have h2' : (i : ℝ) + 1 ≤ 3 * n + 2 := by exact_mod_cast h2
      constructor <;> linarith
    · rintro ⟨h1, h2⟩
      have h1' : (n : ℝ) < i := by linarith
      have h2' : (i : ℝ) < 3 * n + 2 := by linarith
      exact ⟨by exact_mod_cast h1', by exact_mod_cast h2'⟩
  have hn : (0 : ℝ) < (G.nPixels : ℝ) + 0.5 := by positivity
  have hdx : G.deltX = 0.5 * g.slit / ((G.nPixels : ℝ) + 0.5) := rfl
  have hdy : G.deltY = 0.5 * G.width / ((G.nPixels : ℝ) + 0.5) := rfl
  have e1 : (2 * (G.nPixels : ℝ) + 1) * G.deltX = g.slit := by
    rw [hdx]; field_simp; ring
  have e2 : (2 * (G.nPixels : ℝ) + 1) * G.deltY = G.width := by
    rw [hdy]; field_simp; ring
  have hx0 : 0 < G.deltX := by rw [hdx]; positivity
  have hy0 : 0 < G.deltY := by
    rw [hdy]
    exact div_pos (mul_pos (by norm_num) hw) hn
  have lx : G.xs.length = 4 * G.nPixels + 3 := by
    show (List.map _ (linspace _ _ _)).length = _
    rw [List.length_map, linspace_length]
    rfl
  have ly : G.ys.length = 4 * G.nPixels + 3 := by
    show (List.map _ (linspace _ _ _)).length = _
    rw [List.length_map, linspace_length]
    rfl
  have cx : ∀ (i : Nat) (x : ℝ), G.xs[i]? = some x →
      i < 4 * G.nPixels + 3 ∧ x + g.xc = ((i : ℝ) - (2 * G.nPixels + 1)) * G.deltX := by
    intro i x hx
    have hi : i < 4 * G.nPixels + 3 := by
      rw [← lx]; exact (List.getElem?_eq_some_iff.1 hx).1
    have := disp_coord G.nPixels G.deltX g.xc i hi
    refine ⟨hi, ?_⟩
    have h3 := Option.some.inj (hx.symm.trans this)
    linarith
  have cy : ∀ (i : Nat) (x : ℝ), G.ys[i]? = some x →
      i < 4 * G.nPixels + 3 ∧ x + g.yc = ((i : ℝ) - (2 * G.nPixels + 1)) * G.deltY := by
    intro i x hx
    have hi : i < 4 * G.nPixels + 3 := by
      rw [← ly]; exact (List.getElem?_eq_some_iff.1 hx).1
    have := disp_coord G.nPixels G.deltY g.yc i hi
    refine ⟨hi, ?_⟩
    have h3 := Option.some.inj (hx.symm.trans this)
    linarith
  refine ⟨e1, e2, lx, ly, ?_, ?_, ?_, ?_⟩
  · intro i x hx
    rw [(cx i x hx).2]
    exact key _ _ _ _ hx0 e1
  · intro j y hy
    rw [(cy j y hy).2]
    exact key _ _ _ _ hy0 e2
  · intro x hx
    obtain ⟨i, hi⟩ := List.getElem?_of_mem hx
    obtain ⟨h1, h2⟩ := cx i x hi
    rw [h2, abs_mul, abs_of_pos hx0, ← e1]
    apply mul_le_mul_of_nonneg_right _ hx0.le
    have : (i : ℝ) + 1 ≤ 4 * G.nPixels + 3 := by exact_mod_cast h1
    have h0 : (0 : ℝ) ≤ i := Nat.cast_nonneg i
    rw [abs_le]
    constructor <;> linarith
  · intro x hx
    obtain ⟨i, hi⟩ := List.getElem?_of_mem hx
    obtain ⟨h1, h2⟩ := cy i x hi
    rw [h2, abs_mul, abs_of_pos hy0, ← e2]
    apply mul_le_mul_of_nonneg_right _ hy0.le
    have : (i : ℝ) + 1 ≤ 4 * G.nPixels + 3 := by exact_mod_cast h1
    have h0 : (0 : ℝ) ≤ i := Nat.cast_nonneg i
    rw [abs_le]
    constructor <;> linarith

/-- **C71** (rotation model). -/
theorem C71_rot (nPixels : Nat) (width slit fwhm pad xc yc : ℝ) (hw : 0 < width) (hs : 0 < slit)
    (hn : 0 < nPixels) :
    ∃ G, setupRot nPixels width slit fwhm pad xc yc = .ok G ∧
      G.nPixY = nPixels ∧ G.nPixX * G.deltX = slit ∧ G.nPixY * G.deltY = width ∧
      G.xs.length = G.nPixX + 2 * G.padX ∧ G.ys.length = G.nPixY + 2 * G.padY ∧
      G.deltX ≤ G.deltY ∧
      (∀ (i : Nat) (x : ℝ), G.xs[i]? = some x →
        ((G.padX ≤ i ∧ i < G.nPixX + G.padX) ↔ |x + xc| < slit / 2)) ∧
      ∀ (j : Nat) (y : ℝ), G.ys[j]? = some y →
        ((G.padY ≤ j ∧ j < G.nPixY + G.padY) ↔ |y + yc| < width / 2) := by
  have hnr : (0 : ℝ) < nPixels := by exact_mod_cast hn
  have hdy : 0 < width / nPixels := div_pos hw hnr
  have hq : 0 < slit / (width / nPixels) := div_pos hs hdy
  have hc : 0 < ⌈slit / (width / nPixels)⌉ := Int.ceil_pos.2 hq
  have hnx : ((⌈slit / (width / nPixels)⌉).toNat : ℝ) = (⌈slit / (width / nPixels)⌉ : ℝ) := by
    have : ((⌈slit / (width / nPixels)⌉).toNat : ℤ) = ⌈slit / (width / nPixels)⌉ :=
      Int.toNat_of_nonneg hc.le
    exact_mod_cast this
  have hnx0 : (⌈slit / (width / nPixels)⌉).toNat ≠ 0 := by omega
  have hnxr : (0 : ℝ) < ((⌈slit / (width / nPixels)⌉).toNat : ℝ) := by
    exact_mod_cast Nat.pos_of_ne_zero hnx0
  have key : ∀ (n p i : Nat) (d L : ℝ), 0 < d → (n : ℝ) * d = L →
      ((p ≤ i ∧ i < n + p) ↔ |((i : ℝ) - p - ((n : ℝ) - 1) / 2) * d| < L / 2) := by
    intro n p i d L hd hL
    rw [abs_mul, abs_of_pos hd, ← hL, mul_div_right_comm, mul_lt_mul_iff_left₀ hd, abs_lt]
    constructor
    · rintro ⟨h1, h2⟩
      have h1' : (p : ℝ) ≤ i := by exact_mod_cast h1
      have h2' : (i : ℝ) + 1 ≤ n + p := by exact_mod_cast h2
      constructor <;> linarith
    · rintro ⟨h1, h2⟩
      have h1' : (p : ℝ) < (i : ℝ) + 1 := by linarith
      have h2' : (i : ℝ) < n + p := by linarith
      exact ⟨Nat.lt_succ_iff.1 (by exact_mod_cast h1'), by exact_mod_cast h2'⟩
  refine ⟨_, by
    rw [setupRot, if_neg (by omega)]
    simp only [if_neg (ne_of_gt hdy), if_neg hnx0]
    rfl, rfl, ?_, ?_, ?_, ?_, ?_, ?_, ?_⟩
  · exact mul_div_cancel₀ _ (ne_of_gt hnxr)
  · exact mul_div_cancel₀ _ (ne_of_gt hnr)
  · simp only [List.length_map, linspace_length]
  · simp only [List.length_map, linspace_length]
  · simp only
    rw [div_le_iff₀ hnxr, hnx, mul_comm, ← div_le_iff₀ hdy]
    exact Int.le_ceil _
  · intro i x hx
    have hi := (List.getElem?_eq_some_iff.1 hx).1
    simp only [List.length_map, linspace_length] at hi
    have h3 := Option.some.inj (hx.symm.trans (rot_coord _ _ _ _ i hi))
    rw [h3, sub_add_cancel]
    exact key _ _ _ _ _ (div_pos hs hnxr) (mul_div_cancel₀ _ (ne_of_gt hnxr))
  · intro i x hx
    have hi := (List.getElem?_eq_some_iff.1 hx).1
    simp only [List.length_map, linspace_length] at hi
    have h3 := Option.some.inj (hx.symm.trans (rot_coord _ _ _ _ i hi))
    rw [h3, sub_add_cancel]
    exact key _ _ _ _ _ hdy (mul_div_cancel₀ _ (ne_of_gt hnr))

/-- A sum over a slice is a sum over the pixels whose indices are in it. -/
theorem slice_sum {n m : Nat} (a : Fin n → Fin m → ℝ) (y0 y1 x0 x1 : Nat) :
    ∑ j, ∑ i, slice2 a y0 y1 x0 x1 j i =
      ∑ y : Fin n, ∑ x : Fin m, if (y0 ≤ y.val ∧ y.val < y1) ∧ (x0 ≤ x.val ∧ x.val < x1) then
        a y x else 0 := by
  have one : ∀ (k z0 z1 : Nat) (f : Fin k → ℝ),
      ∑ j : Fin (min z1 k - min z0 k), f ⟨min z0 k + j, by omega⟩ =
        ∑ z : Fin k, if z0 ≤ z.val ∧ z.val < z1 then f z else 0 := by
    intro k z0 z1 f
    rw [← Finset.sum_filter]
    refine Finset.sum_bij' (fun j _ => ⟨min z0 k + j, by omega⟩)
      (fun z hz => ⟨z.val - min z0 k, ?_⟩) ?_ ?_ ?_ ?_ ?_
    · have := (Finset.mem_filter.1 hz).2
      omega
    · intro j _
      rw [Finset.mem_filter]
      refine ⟨Finset.mem_univ _, ?_⟩
      have := j.2
      simp only
      omega
    · intro z _; exact Finset.mem_univ _
    · intro j _
      apply Fin.ext
      simp
    · intro z hz
      have := (Finset.mem_filter.1 hz).2
      apply Fin.ext
      simp only
      omega
    · intro j _; rfl
  unfold slice2
  rw [one n y0 y1 (fun y => ∑ i : Fin (min x1 m - min x0 m), a y ⟨min x0 m + i, by omega⟩)]
  refine Finset.sum_congr rfl fun y _ => ?_
  rw [one m x0 x1 (a y)]
  by_cases h : y0 ≤ y.val ∧ y.val < y1
  · simp only [h, true_and, and_self, if_true]
  · simp only [h, false_and, if_false, Finset.sum_const_zero]

/-- **C71** (whole calculation): with boxcar extraction the aperture dispersion is the light
weighted mean over the pixels in slit and extraction window, and over no others.  `num'` and
`den'` are the seeing convolved images. -/
theorem C71_boxcar (g : Disp1DIn) (hs : 0 < g.slit) (hw : 0 < (setupDisp1D g).width) (fwhm : ℝ)
    (s : ConvStamp) (sigSq I num' den' : Fin (4 * (setupDisp1D g).nPixels + 3) →
      Fin (4 * (setupDisp1D g).nPixels + 3) → ℝ)
    (hnum : psfFlatObj (fun y x => sigSq y x * I y x) fwhm s = .ok num')
    (hden : psfFlatObj I fwhm s = .ok den') (inside : Fin (4 * (setupDisp1D g).nPixels + 3) →
      Fin (4 * (setupDisp1D g).nPixels + 3) → Prop) [∀ y x, Decidable (inside y x)]
    (hin : ∀ y x, inside y x ↔ ∃ a b, (setupDisp1D g).xs[x.val]? = some a ∧
      (setupDisp1D g).ys[y.val]? = some b ∧ |a + g.xc| < g.slit / 2 ∧
      |b + g.yc| < (setupDisp1D g).width / 2)
    (hpos : 0 < ∑ y, ∑ x, if inside y x then den' y x else 0) :
    sigmaAperOf (setupDisp1D g).nPixels sigSq I fwhm s "boxcar" (setupDisp1D g).width
      (setupDisp1D g).deltX (setupDisp1D g).deltY =
    .ok (Fl.sqrt (.fin ((∑ y, ∑ x, if inside y x then num' y x else 0) /
      ∑ y, ∑ x, if inside y x then den' y x else 0))) := by
  obtain ⟨e1, e2, lx, ly, px, py, -⟩ := C71_disp g hs hw
  generalize setupDisp1D g = G at *
  have hin' : ∀ y x, inside y x ↔ (G.nPixels + 1 ≤ y.val ∧ y.val < 3 * G.nPixels + 2) ∧
      (G.nPixels + 1 ≤ x.val ∧ x.val < 3 * G.nPixels + 2) := by
    intro y x
    have hx : G.xs[x.val]? = some (G.xs[x.val]'(by rw [lx]; exact x.2)) :=
      List.getElem?_eq_getElem _
    have hy : G.ys[y.val]? = some (G.ys[y.val]'(by rw [ly]; exact y.2)) :=
      List.getElem?_eq_getElem _
    rw [hin, px _ _ hx, py _ _ hy]
    constructor
    · rintro ⟨a, b, ha, hb, h1, h2⟩
      rw [Option.some.inj (hx.symm.trans ha), Option.some.inj (hy.symm.trans hb)]
      exact ⟨h2, h1⟩
    · rintro ⟨h1, h2⟩
      exact ⟨_, _, hx, hy, h2, h1⟩
  have hsum : ∀ a : Fin (4 * G.nPixels + 3) → Fin (4 * G.nPixels + 3) → ℝ,
      (∑ y, ∑ x, if inside y x then a y x else 0) = ∑ j, ∑ i, slice2 a (G.nPixels + 1)
        (3 * G.nPixels + 2) (G.nPixels + 1) (3 * G.nPixels + 2) j i := by
    intro a
    rw [slice_sum]
    refine Finset.sum_congr rfl fun y _ => Finset.sum_congr rfl fun x _ => ?_
    by_cases h : inside y x
    · rw [if_pos h, if_pos ((hin' y x).1 h)]
    · rw [if_neg h, if_neg (fun hc => h ((hin' y x).2 hc))]
  have hdx : 0 < G.deltX := by
    by_contra hc
    have h1 : (0 : ℝ) ≤ 2 * (G.nPixels : ℝ) + 1 := by positivity
    nlinarith [mul_nonneg h1 (neg_nonneg.2 (not_lt.1 hc))]
  have hdy : 0 < G.deltY := by
    by_contra hc
    have h1 : (0 : ℝ) ≤ 2 * (G.nPixels : ℝ) + 1 := by positivity
    nlinarith [mul_nonneg h1 (neg_nonneg.2 (not_lt.1 hc))]
  rw [hsum] at hpos ⊢
  rw [hsum]
  unfold sigmaAperOf
  simp only [hnum, hden, bind, Except.bind, extractWeights, if_neg (show ¬ ("boxcar" = "optimal") by decide),
    if_true]
  congr 1
  unfold aperSigma
  simp only [Fl.fin_mul, Fl.fin_sum, mul_one]
  rw [Fl.fin_div, if_neg]
  · simp only [← Finset.sum_mul]
    rw [mul_div_mul_right _ _ hdy.ne', mul_div_mul_right _ _ hdx.ne']
  · simp only [← Finset.sum_mul]
    exact (mul_pos (mul_pos hpos hdx) hdy).ne'

example : 0 < (setupDisp1D ⟨100, 0.4, 1, 0, 0.6, 0.7, some 1.2, 0, 0⟩).width := by
  show (0 : ℝ) < 1.2
  norm_num

/-! ## C51, C72: the dispersion model as a whole -/

theorem sigmaProfile_pos (r re d rCore : ℝ) (hre : 0 < re) (hc : 0 < rCore) (hr : 0 ≤ r) :
    0 < sigmaProfile r re d rCore := (C28_monotone re d rCore r r hre hc hr le_rfl).1

theorem stampAt_pos (p : PSF) (hd : p.dither = none)
    (hk : p.kind = .moffat → 1 < p.beta) (hf : 0 < p.fwhm) (x y : ℝ) : 0 < p.stampAt x y :=
  (C49_shape_partial p hf hd hk).1 x y

/-- A physical galaxy, instrument and extraction: positive sizes, a PSF without negative images,
a known extraction method. -/
structure Disp1DModel.Phys (m : Disp1DModel) : Prop where
  re : 0 < m.re
  reMass : 0 < m.reMass
  q : 0 < m.q
  qMass : 0 < m.qMass
  rCore : 0 < m.rCore
  slit : 0 < m.slit
  width : ∀ w, m.width = some w → 0 < w
  method : m.method = "optimal" ∨ m.method = "boxcar"
  dither : m.psf.dither = none
  kind : m.psf.kind = .moffat → 1 < m.psf.beta

/-- The extraction window of the model, given or by default. -/
noncomputable def Disp1DModel.window (m : Disp1DModel) : ℝ :=
  m.width.getD (extractionWidth (m.re * √m.q) 1 0 m.psf.fwhm)

/-- A radius no pixel of the model is beyond. -/
noncomputable def Disp1DModel.reach (m : Disp1DModel) : ℝ :=
  √((m.slit + |m.xc|) ^ 2 + (m.window + |m.yc|) ^ 2)

/-- The dispersion model uses the slope it is given: if every local dispersion of the profile with
slope `m.d` lies in an interval, the aperture dispersion is finite and in the interval. -/
def UsesSlope (quad : (ℝ → ℝ) → ℝ) (m : Disp1DModel) : Prop :=
  ∀ smin smax : ℝ, 0 ≤ smin →
    (∀ r, 0 ≤ r → r ≤ m.reach → smin ≤ sigmaProfile r (m.reMass * √m.qMass) m.d m.rCore ∧
      sigmaProfile r (m.reMass * √m.qMass) m.d m.rCore ≤ smax) →
    ∃ σ e, (aperModel1DDisp quad m).2 = .ok (.fin σ, e) ∧ smin ≤ σ ∧ σ ≤ smax

theorem extractionWidth_pos (re q deltPA fwhm : ℝ) (hre : 0 < re) (hq : 0 < q) :
    0 < extractionWidth re q deltPA fwhm := by
  have h1 : 0 < 0.5 * √((2 * re) ^ 2 + fwhm ^ 2) := by positivity
  have h2 : 0 < 0.5 * √((2 * q * re) ^ 2 + fwhm ^ 2) := by positivity
  have h3 : 0 < 0.5 * √((2 * re) ^ 2 + fwhm ^ 2) * (0.5 * √((2 * q * re) ^ 2 + fwhm ^ 2) /
      (0.5 * √((2 * re) ^ 2 + fwhm ^ 2))) := mul_pos h1 (div_pos h2 h1)
  unfold extractionWidth
  simp only
  split_ifs with h
  · exact mul_pos (by norm_num) h3
  · exact mul_pos (by norm_num) (lt_of_lt_of_le h3 (not_lt.1 h))

/-- **C51** (whole dispersion model): the aperture dispersion is finite and between the smallest and
the largest dispersion the profile has within the reach of the grid. -/
theorem C51_model (quad : (ℝ → ℝ) → ℝ) (m : Disp1DModel) (h : m.Phys) (smin smax : ℝ) (h0 : 0 ≤ smin)
    (hσ : ∀ r, 0 ≤ r → r ≤ m.reach →
      smin ≤ sigmaProfile r (m.reMass * √m.qMass) (-0.089) m.rCore ∧
      sigmaProfile r (m.reMass * √m.qMass) (-0.089) m.rCore ≤ smax) :
    ∃ σ e, (aperModel1DDisp quad m).2 = .ok (.fin σ, e) ∧ smin ≤ σ ∧ σ ≤ smax := by
  have hre : 0 < m.re * √m.q := mul_pos h.re (Real.sqrt_pos.2 h.q)
  have hrm : 0 < m.reMass * √m.qMass := mul_pos h.reMass (Real.sqrt_pos.2 h.qMass)
  have hwin : (setupDisp1D ⟨m.nPixels, m.re * √m.q, 1, 0, m.psf.fwhm, m.slit, m.width, m.xc,
      m.yc⟩).width = m.window := by
    unfold Disp1DModel.window setupDisp1D
    cases m.width <;> rfl
  have hw : 0 < (setupDisp1D ⟨m.nPixels, m.re * √m.q, 1, 0, m.psf.fwhm, m.slit, m.width, m.xc,
      m.yc⟩).width := by
    rw [hwin, Disp1DModel.window]
    cases hmw : m.width with
    | some w => exact h.width _ hmw
    | none => exact extractionWidth_pos _ _ _ _ hre zero_lt_one
  obtain ⟨e1, e2, lx, ly, -, -, bx, byy⟩ := C71_disp _ h.slit hw
  unfold aperModel1DDisp
  simp only
  set g := setupDisp1D ⟨m.nPixels, m.re * √m.q, 1, 0, m.psf.fwhm, m.slit, m.width, m.xc, m.yc⟩ with hg
  simp only at e1
  have hnp : (0 : ℝ) < 2 * (g.nPixels : ℝ) + 1 := by positivity
  have hdx : 0 < g.deltX := by
    by_contra hc
    have := mul_nonneg hnp.le (neg_nonneg.2 (not_lt.1 hc))
    have := h.slit
    linarith
  have hdy : 0 < g.deltY := by
    by_contra hc
    have := mul_nonneg hnp.le (neg_nonneg.2 (not_lt.1 hc))
    linarith
  have hpsf : PosPSF m.psf.fwhm (disp1DStamp m.psf g) := by
    by_cases hf : 0 < m.psf.fwhm
    · refine Or.inr ⟨_, _, _, rfl, fun j i => (stampAt_pos _ h.dither h.kind hf _ _).le, ?_, ?_, ?_⟩
      · rw [List.length_map, ly]; omega
      · rw [List.length_map, lx]; omega
      · exact stampAt_pos _ h.dither h.kind hf _ _
    · exact Or.inl (not_lt.1 hf)
  have hIpos : ∀ x y : ℝ, 0 < iGal x y (m.re * √m.q) m.n 1 0 m.rCore := fun x y =>
    mul_pos one_pos (Real.exp_pos _)
  have hr0 : 0 ≤ m.reach := Real.sqrt_nonneg _
  have hsm : 0 ≤ smax := le_trans h0 (le_trans (hσ 0 le_rfl hr0).1 (hσ 0 le_rfl hr0).2)
  have hreach : ∀ (y x : Fin (4 * g.nPixels + 3)),
      rIntEllip (g.xs.getD x 0) (g.ys.getD y 0) 1 0 ≤ m.reach := by
    intro y x
    have hx : x.val < g.xs.length := by rw [lx]; exact x.2
    have hy : y.val < g.ys.length := by rw [ly]; exact y.2
    rw [List.getD_eq_getElem?_getD, List.getD_eq_getElem?_getD, List.getElem?_eq_getElem hx,
      List.getElem?_eq_getElem hy, Option.getD_some, Option.getD_some]
    have h1 := bx _ (List.getElem_mem hx)
    have h2 := byy _ (List.getElem_mem hy)
    rw [hwin] at h2
    have h3 : |g.xs[x.val]| ≤ m.slit + |m.xc| := by
      have := abs_sub_abs_le_abs_sub (g.xs[x.val] + m.xc) m.xc
      rw [add_sub_cancel_right] at this
      calc |g.xs[x.val]| = |g.xs[x.val] + m.xc - m.xc| := by rw [add_sub_cancel_right]
        _ ≤ |g.xs[x.val] + m.xc| + |m.xc| := abs_sub _ _
        _ ≤ _ := by gcongr
    have h4 : |g.ys[y.val]| ≤ m.window + |m.yc| := by
      calc |g.ys[y.val]| = |g.ys[y.val] + m.yc - m.yc| := by rw [add_sub_cancel_right]
        _ ≤ |g.ys[y.val] + m.yc| + |m.yc| := abs_sub _ _
        _ ≤ _ := by gcongr
    have h5 : g.xs[x.val] ^ 2 ≤ (m.slit + |m.xc|) ^ 2 := sq_le_sq' (by linarith [neg_abs_le g.xs[x.val]])
      (le_trans (le_abs_self _) h3)
    have h6 : g.ys[y.val] ^ 2 ≤ (m.window + |m.yc|) ^ 2 :=
      sq_le_sq' (by linarith [neg_abs_le g.ys[y.val]]) (le_trans (le_abs_self _) h4)
    unfold rIntEllip Disp1DModel.reach
    apply Real.sqrt_le_sqrt
    simp only [rad, zero_mul, mul_zero, zero_div, Real.sin_zero, Real.cos_zero, zero_add, one_mul, sub_zero, div_one]
    linarith
  obtain ⟨σ, hs, b1, b2⟩ := C51_disp g.nPixels
    (fun y x => dispSquare (g.xs.getD x 0) (g.ys.getD y 0) 1 0 (m.reMass * √m.qMass) m.rCore)
    (fun y x => iGal (g.xs.getD x 0) (g.ys.getD y 0) (m.re * √m.q) m.n 1 0 m.rCore) m.psf.fwhm
    (disp1DStamp m.psf g) hpsf (fun y x => (hIpos _ _).le) smin smax h0 hsm
    (fun y x => by
      obtain ⟨h1, h2⟩ := hσ (rIntEllip (g.xs.getD x 0) (g.ys.getD y 0) 1 0) (Real.sqrt_nonneg _) (hreach y x)
      exact ⟨pow_le_pow_left₀ h0 h1 2, pow_le_pow_left₀ (le_trans h0 h1) h2 2⟩)
    ⟨2 * g.nPixels + 1, by omega⟩ ⟨2 * g.nPixels + 1, by omega⟩ ⟨by simp only; omega, by simp only; omega⟩
    ⟨by simp only; omega, by simp only; omega⟩ (hIpos _ _) m.method h.method g.width g.deltX g.deltY
    (mul_pos hdx hdy) (div_pos hw hdy)
  refine ⟨σ, sigmaE quad (m.re * √m.q) m.n m.Ie m.d m.rCore (m.reMass * √m.qMass), ?_, b1, b2⟩
  unfold sigmaAperDispersion
  simp only [hs, Except.map]

/-- **C72** (partial): the default slope is used.  Missing: any other slope, see `C72_false`. -/
theorem C72_default_partial (quad : (ℝ → ℝ) → ℝ) (m : Disp1DModel) (h : m.Phys)
    (hd : m.d = -0.089) : UsesSlope quad m := by
  intro smin smax h0 hσ
  rw [hd] at hσ
  exact C51_model quad m h smin smax h0 hσ

/-- A model with a flat dispersion profile and no seeing. -/
noncomputable def flatDisp : Disp1DModel where
  nPixels := 0
  re := 1
  reMass := 1
  q := 1
  qMass := 1
  n := 1
  d := 0
  psf := ⟨.gaussian, 0, 2, none⟩
  slit := 1
  width := some 1
  method := "boxcar"

theorem flatDisp_phys : flatDisp.Phys where
  re := one_pos
  reMass := one_pos
  q := one_pos
  qMass := one_pos
  rCore := by show (0 : ℝ) < 1 / 300; norm_num
  slit := one_pos
  width := by
    intro w hw
    obtain rfl := Option.some.inj hw
    exact one_pos
  method := Or.inr rfl
  dither := rfl
  kind := fun h => by cases h

theorem single_pixel (g : Disp1DGrid) (hg : g = ⟨0, 1, 1, 1, [-1, 0, 1], [-1, 0, 1]⟩) (s : ConvStamp)
    (re rm : ℝ) :
    sigmaAperDispersion g re rm 1 (1 / 300) 0 s "boxcar" = .ok (Fl.sqrt (Fl.fin (dispSquare 0 0 1 0 rm
      (1 / 300) * iGal 0 0 re 1 1 0 (1 / 300)) / Fl.fin (iGal 0 0 re 1 1 0 (1 / 300)))) := by
  subst hg
  simp only [sigmaAperDispersion, sigmaAperOf, psfFlatObj, lt_irrefl, if_false, bind,
    Except.bind, extractWeights, if_neg (show ¬ ("boxcar" = "optimal") by decide), if_true]
  congr 1
  unfold aperSigma slice2
  simp only [Fl.fin_mul, mul_one]
  have hu : ∀ f : Fin (min (3 * 0 + 2) (4 * 0 + 3) - min (0 + 1) (4 * 0 + 3)) →
      Fin (min (3 * 0 + 2) (4 * 0 + 3) - min (0 + 1) (4 * 0 + 3)) → Fl ℝ,
      (∑ j, ∑ i, f j i) = f ⟨0, by norm_num⟩ ⟨0, by norm_num⟩ := by
    intro f
    show (∑ j : Fin 1, ∑ i : Fin 1, f j i) = _
    rw [Fin.sum_univ_one, Fin.sum_univ_one]
    rfl
  rw [hu, hu]
  rfl

/-- **C72**, negation: a custom slope is not used for the aperture dispersion (although it is for
`sigma_e`): with slope 0 every local dispersion is 1 but the aperture dispersion is not. -/
theorem C72_false (quad : (ℝ → ℝ) → ℝ) : ¬ ∀ m : Disp1DModel, m.Phys → UsesSlope quad m := by
  intro hall
  have hflat : ∀ r, 0 ≤ r → r ≤ flatDisp.reach → (1 : ℝ) ≤ sigmaProfile r (flatDisp.reMass * √flatDisp.qMass) flatDisp.d
      flatDisp.rCore ∧ sigmaProfile r (flatDisp.reMass * √flatDisp.qMass) flatDisp.d flatDisp.rCore ≤
      1 := by
    intro r _ _
    have : sigmaProfile r (flatDisp.reMass * √flatDisp.qMass) flatDisp.d flatDisp.rCore = 1 := by
      show sigmaProfile r _ 0 _ = 1
      unfold sigmaProfile
      simp
    rw [this]
    exact ⟨le_rfl, le_rfl⟩
  obtain ⟨σ, e, hs, h1, h2⟩ := hall flatDisp flatDisp_phys 1 1 zero_le_one hflat
  obtain rfl : σ = 1 := le_antisymm h2 h1
  have hc : (1 : ℝ) < sigmaProfile 0 1 (-0.089) (1 / 300) := by
    have h3 := (C28_monotone 1 (-0.089) (1 / 300) 0 1 one_pos (by norm_num) le_rfl zero_le_one).2.2.1
      (by norm_num) one_pos
    rw [C28_normalised 1 _ _ one_pos (by norm_num)] at h3
    exact h3
  -- the aperture is the central pixel alone
  have hg : setupDisp1D ⟨0, 1 * √1, 1, 0, 0, 1, some 1, 0, 0⟩ = ⟨0, 1, 1, 1,
      (linspace (-1 : ℝ) 1 3).map (· - 0), (linspace (-1 : ℝ) 1 3).map (· - 0)⟩ := by
    unfold setupDisp1D
    norm_num
  have hl : (linspace (-1 : ℝ) 1 3).map (· - 0) = [-1, 0, 1] := by
    unfold linspace
    simp only [List.range_succ, List.range_zero, List.nil_append, List.map_append, List.map_cons,
      List.map_nil, List.cons_append]
    norm_num
  have hval : (aperModel1DDisp quad flatDisp).2 = .ok (Fl.sqrt (Fl.fin (dispSquare 0 0 1 0 (1 * √1)
      (1 / 300) * iGal 0 0 (1 * √1) 1 1 0 (1 / 300)) / Fl.fin (iGal 0 0 (1 * √1) 1 1 0 (1 / 300))),
      sigmaE quad (1 * √1) 1 1 0 (1 / 300) (1 * √1)) := by
    show (sigmaAperDispersion (setupDisp1D ⟨0, 1 * √1, 1, 0, 0, 1, some 1, 0, 0⟩) (1 * √1) (1 * √1) 1
      (1 / 300) 0 _ "boxcar").map _ = _
    rw [single_pixel _ (hg.trans (by rw [hl]))]
    rfl
  rw [hval] at hs
  have hI : 0 < iGal 0 0 (1 * √1) 1 1 0 (1 / 300) := mul_pos one_pos (Real.exp_pos _)
  have h5 : Fl.sqrt (Fl.fin (dispSquare 0 0 1 0 (1 * √1) (1 / 300) * iGal 0 0 (1 * √1) 1 1 0 (1 / 300))
      / Fl.fin (iGal 0 0 (1 * √1) 1 1 0 (1 / 300))) = Fl.fin (sigmaProfile 0 1 (-0.089) (1 / 300)) := by
    rw [Fl.fin_div, if_neg hI.ne', mul_div_cancel_right₀ _ hI.ne']
    have hr : rIntEllip 0 0 1 0 = 0 := by unfold rIntEllip; simp
    have hd : dispSquare 0 0 1 0 (1 * √1) (1 / 300) = sigmaProfile 0 1 (-0.089) (1 / 300) ^ 2 := by
      unfold dispSquare
      rw [hr, Real.sqrt_one, mul_one]
    rw [hd]
    show (if (sigmaProfile 0 1 (-0.089) (1 / 300) ^ 2) < 0 then Fl.nan else _) = _
    rw [if_neg (not_lt.2 (sq_nonneg _)), Real.sqrt_sq (by linarith)]
  rw [h5] at hs
  have h6 := (Prod.mk.inj (Except.ok.inj hs)).1
  have h7 := Fl.fin.inj h6
  linarith

/-- **C72** (other part of the negation): `sigma_e` of the flat profile is 1 whenever the integral
of the light is not zero, so the correction of a flat profile is not 1. -/
theorem C72_false_sigma_e (quad : (ℝ → ℝ) → ℝ) (re n Ie rCore reMass : ℝ)
    (hq : quad (intIntegrand re n Ie rCore) ≠ 0) : sigmaE quad re n Ie 0 rCore reMass = .fin 1 := by
  have h1 : sigsqIntegrand re n Ie 0 rCore reMass = intIntegrand re n Ie rCore := by
    funext r
    unfold sigsqIntegrand intIntegrand sigmaProfile
    simp
  unfold sigmaE
  rw [h1, Fl.fin_div, if_neg hq, div_self hq]
  show (if (1 : ℝ) < 0 then Fl.nan else _) = _
  rw [if_neg (by norm_num), Real.sqrt_one]

/-! ## C73: positional shift in the rotation model -/

/-- **C73**, negation: with a seeing FWHM above zero the positional shift of the rotation model
always fails, because the stamp the model itself has stored is a 2D array. -/
theorem C73_false_first {nY nX kn km : Nat} (shift eff : Bool) (h : shift = true ∨ eff = true)
    (I : Fin nY → Fin nX → ℝ) (fwhm : ℝ) (hf : 0 < fwhm) (s0 : ConvStamp)
    (k : Fin kn → Fin km → ℝ) (rows : (Fin nY → Fin nX → Fl ℝ) → Except PyErr (List ℝ × List (Fl ℝ))) :
    rotShiftStep shift eff (effectiveShift I fwhm (InstOp.run s0 (.build1D kn km k)) rows)
      ⟨none, none⟩ = (⟨none, none⟩, some .valueError) := by
  have hb : (shift || eff) = true := by rcases h with rfl | rfl <;> simp
  have hs : effectiveShift I fwhm (InstOp.run s0 (.build1D kn km k)) rows = .error .valueError := by
    simp only [effectiveShift, InstOp.run, psfConvolveObj, if_pos hf]
  rw [hs, rotShiftStep, if_pos hb]

/-- **C73**, negation: even without seeing, a second calculation always raises AttributeError. -/
theorem C73_false_second (shift eff shift' eff' : Bool) (h : shift = true ∨ eff = true)
    (h' : shift' = true ∨ eff' = true) (c c' : Except PyErr (List ℝ × List (Fl ℝ))) (s : RotShift)
    (hok : (rotShiftStep shift eff c s).2 = none) :
    (rotShiftStep shift' eff' c' (rotShiftStep shift eff c s).1).2 = some .attributeError := by
  have hb : (shift || eff) = true := by rcases h with rfl | rfl <;> simp
  have hb' : (shift' || eff') = true := by rcases h' with rfl | rfl <;> simp
  unfold rotShiftStep at hok ⊢
  rw [if_pos hb] at hok ⊢
  cases hd : s.delta with
  | some d => simp [hd] at hok
  | none =>
    cases c with
    | error e => simp [hd] at hok
    | ok p =>
      obtain ⟨d, i⟩ := p
      simp [rotShiftStep, hb']

/-- **C73** (partial): the first calculation without seeing gives the shift computed from the rows,
and without both options nothing is computed and nothing can fail. -/
theorem C73_first_partial {nY nX : Nat} (I : Fin nY → Fin nX → ℝ) (fwhm : ℝ) (hf : fwhm ≤ 0)
    (st : ConvStamp) (rows : (Fin nY → Fin nX → Fl ℝ) → Except PyErr (List ℝ × List (Fl ℝ)))
    (d : List ℝ) (i : List (Fl ℝ)) (hr : rows (fun y x => .fin (I y x)) = .ok (d, i)) :
    rotShiftStep true false (effectiveShift I fwhm st rows) ⟨none, none⟩ = (⟨some d, some i⟩, none) ∧
    ∀ c s, rotShiftStep false false c s = (s, none) := by
  constructor
  · simp only [effectiveShift, psfConvolveObj, if_neg (not_lt.2 hf), hr, rotShiftStep, Bool.true_or,
      if_true]
  · intro c s
    simp [rotShiftStep]

/-- **C73**, exact condition: the first calculation, with the stamp of a 1D model and rows that can be computed, returns exactly if
both options are off or there is no seeing. -/
theorem C73_exact {nY nX kn km : Nat} (shift eff : Bool) (I : Fin nY → Fin nX → ℝ) (fwhm : ℝ) (s0 : ConvStamp)
    (k : Fin kn → Fin km → ℝ) (rows : (Fin nY → Fin nX → Fl ℝ) → Except PyErr (List ℝ × List (Fl ℝ)))
    (d : List ℝ) (i : List (Fl ℝ)) (hr : rows (fun y x => .fin (I y x)) = .ok (d, i)) :
    (rotShiftStep shift eff (effectiveShift I fwhm (InstOp.run s0 (.build1D kn km k)) rows) ⟨none, none⟩).2 = none ↔
      (shift = false ∧ eff = false) ∨ fwhm ≤ 0 := by
  rcases le_or_gt fwhm 0 with hf | hf
  · refine ⟨fun _ => Or.inr hf, fun _ => ?_⟩
    have hs : effectiveShift I fwhm (InstOp.run s0 (.build1D kn km k)) rows = .ok (d, i) := by
      simp only [effectiveShift, InstOp.run, psfConvolveObj, if_neg (not_lt.2 hf), hr]
    rw [hs, rotShiftStep]
    split <;> rfl
  · by_cases h : shift = true ∨ eff = true
    · rw [C73_false_first shift eff h I fwhm hf s0 k rows]
      refine ⟨fun hh => (by cases hh), ?_⟩
      rintro (⟨rfl, rfl⟩ | hh)
      · rcases h with h | h <;> cases h
      · exact absurd hf (not_lt.2 hh)
    · have h' : shift = false ∧ eff = false := by
        cases shift <;> cases eff <;> simp_all
      obtain ⟨rfl, rfl⟩ := h'
      exact ⟨fun _ => Or.inl ⟨rfl, rfl⟩, fun _ => by simp [rotShiftStep]⟩

example : (rotShiftStep true false (.ok ([1], [.fin 1])) ⟨none, none⟩).2 = none := rfl

/-! ## C74: models that share an instrument -/

/-- The stamp an instrument holds after models have been built with it. -/
def stampAfter (s : ConvStamp) (ops : List InstOp) : ConvStamp := ops.foldl InstOp.run s

/-- Independence: updating a 2D model gives the same whatever was built with the instrument after
it. -/
def Independent {nW n m kn km : Nat} (cube : Fin nW → Fin n → Fin m → ℝ) (fwhm : ℝ)
    (k : Fin kn → Fin km → ℝ) (later : List InstOp) : Prop :=
  ∀ s, psfConvolveObj cube fwhm (stampAfter s (.build2D kn km k :: later)) =
    psfConvolveObj cube fwhm (stampAfter s [.build2D kn km k])

/-- **C74**, negation: after a 1D model has been built last with the same instrument, every update of
the 2D model with seeing raises ValueError. -/
theorem C74_false {nW n m kn km kn' km' : Nat} (cube : Fin nW → Fin n → Fin m → ℝ) (fwhm : ℝ)
    (hf : 0 < fwhm) (k : Fin kn → Fin km → ℝ) (k' : Fin kn' → Fin km' → ℝ) (ops : List InstOp) :
    ¬ Independent cube fwhm k (ops ++ [.build1D kn' km' k']) ∧
    ∀ s, psfConvolveObj cube fwhm (stampAfter s (.build2D kn km k :: (ops ++ [.build1D kn' km' k']))) =
      .error .valueError := by
  have h : ∀ s, psfConvolveObj cube fwhm
      (stampAfter s (.build2D kn km k :: (ops ++ [.build1D kn' km' k']))) = .error .valueError := by
    intro s
    simp only [stampAfter, List.foldl_cons, List.foldl_append, List.foldl_nil, InstOp.run,
      psfConvolveObj, if_pos hf]
  refine ⟨fun hi => ?_, h⟩
  have h1 := hi .unset
  rw [h] at h1
  simp only [stampAfter, List.foldl_cons, List.foldl_nil, InstOp.run, psfConvolveObj, if_pos hf] at h1
  exact absurd h1 (by simp)

/-- **C74** (partial): without seeing, or when every later model is a 2D model with the same stamp,
the update is not affected. -/
theorem C74_partial {nW n m kn km : Nat} (cube : Fin nW → Fin n → Fin m → ℝ) (fwhm : ℝ)
    (k : Fin kn → Fin km → ℝ) (later : List InstOp)
    (h : fwhm ≤ 0 ∨ ∀ o ∈ later, o = .build2D kn km k) : Independent cube fwhm k later := by
  intro s
  rcases h with h | h
  · simp only [psfConvolveObj, if_neg (not_lt.2 h)]
  · congr 1
    have : ∀ t, t = .cube kn km k → stampAfter t later = .cube kn km k := by
      clear s
      induction later with
      | nil => intro t ht; exact ht
      | cons o l ih =>
        intro t _
        rw [h o List.mem_cons_self]
        exact ih (fun o ho => h o (List.mem_cons_of_mem _ ho)) _ rfl
    exact this _ rfl

/-- **C74**, exactly: the update is not affected if and only if there is no seeing, nothing was built later, or the model
built last is a 2D model whose stamp happens to give the same convolution. -/
theorem C74_exact {nW n m kn km : Nat} (cube : Fin nW → Fin n → Fin m → ℝ) (fwhm : ℝ)
    (k : Fin kn → Fin km → ℝ) (later : List InstOp) :
    Independent cube fwhm k later ↔ fwhm ≤ 0 ∨ later = [] ∨
      ∃ ops kn' km' k', later = ops ++ [.build2D kn' km' k'] ∧
        psfConvolve cube fwhm k' = psfConvolve cube fwhm k := by
  rcases le_or_gt fwhm 0 with hf | hf
  · exact ⟨fun _ => .inl hf, fun _ => C74_partial cube fwhm k later (.inl hf)⟩
  rcases List.eq_nil_or_concat later with rfl | ⟨ops, o, rfl⟩
  · exact ⟨fun _ => .inr (.inl rfl), fun _ => C74_partial cube fwhm k [] (.inr fun o ho => absurd ho (by simp))⟩
  rw [List.concat_eq_append]
  cases o with
  | build1D kn' km' k' =>
    refine ⟨fun h => absurd h (C74_false cube fwhm hf k k' ops).1, ?_⟩
    rintro (h | h | ⟨ops', kn'', km'', k'', h, -⟩)
    · exact absurd hf (not_lt.2 h)
    · exact absurd h (by simp)
    · obtain ⟨-, h⟩ := List.append_inj' h rfl
      cases h
  | build2D kn' km' k' =>
    have e : ∀ s, psfConvolveObj cube fwhm (stampAfter s (.build2D kn km k :: (ops ++ [.build2D kn' km' k']))) =
        .ok (psfConvolve cube fwhm k') := by
      intro s
      simp only [stampAfter, List.foldl_cons, List.foldl_append, List.foldl_nil, InstOp.run, psfConvolveObj, if_pos hf]
    have e1 : ∀ s, psfConvolveObj cube fwhm (stampAfter s [.build2D kn km k]) = .ok (psfConvolve cube fwhm k) := by
      intro s
      simp only [stampAfter, List.foldl_cons, List.foldl_nil, InstOp.run, psfConvolveObj, if_pos hf]
    constructor
    · intro h
      have h1 := h .unset
      rw [e, e1] at h1
      exact .inr (.inr ⟨ops, kn', km', k', rfl, Except.ok.inj h1⟩)
    · rintro (h | h | ⟨ops', kn'', km'', k'', h, hk⟩)
      · exact absurd hf (not_lt.2 h)
      · exact absurd h (by simp)
      · obtain ⟨-, h⟩ := List.append_inj' h rfl
        cases h
        intro s
        rw [e, e1, hk]

/-- two 2D models with the same stamp, after a 1D model -/
example : Independent (fun (_ : Fin 1) (_ : Fin 1) (_ : Fin 1) => (1 : ℝ)) 1 (fun (_ : Fin 1) (_ : Fin 1) => (1 : ℝ))
    ([.build1D 1 1 fun _ _ => 1] ++ [.build2D 1 1 fun _ _ => 1]) :=
  (C74_exact _ _ _ _).2 (.inr (.inr ⟨_, 1, 1, fun _ _ => 1, rfl, rfl⟩))

/-! ## C75: parameters of the rotation model -/

/-- **C75**: for a ratio that is not zero the profile has the requested velocity parameters and a
constant dispersion such that velocity over dispersion at the aperture radius is the requested
ratio. -/
theorem C75_ratio (t0 t1 t2 rA : ℝ) (h0 : t0 ≠ 0) (h2 : t2 ≠ 0) (h1 : t1 ≠ 0) (hr : rA ≠ 0) :
    ∃ v s, rotKinTheta (some t0) t1 t2 rA = [.fin t1, .fin t2, .fin s] ∧
      velArctan [t1, t2] rA = .fin v ∧ v = 2 / π * t1 * Real.arctan (rA / t2) ∧ s ≠ 0 ∧ v / s = t0 := by
  have hv := velArctan_eq t1 t2 rA [] h2
  have hva : Real.arctan (rA / t2) ≠ 0 := by
    rw [Ne, Real.arctan_eq_zero_iff]
    exact div_ne_zero hr h2
  have hvne : 2 / π * t1 * Real.arctan (rA / t2) ≠ 0 :=
    mul_ne_zero (mul_ne_zero (div_ne_zero two_ne_zero Real.pi_ne_zero) h1) hva
  refine ⟨_, _, ?_, hv, rfl, div_ne_zero hvne h0, ?_⟩
  · simp only [rotKinTheta, ne_eq, h0, not_false_eq_true, if_true, hv, Fl.fin_div, if_false]
  · rw [div_div_eq_mul_div, mul_div_cancel_left₀ _ hvne]

/-- **C75** (other cases): ratio 0 means no rotation with the given number as dispersion; no ratio
means no dispersion. -/
theorem C75_special (t1 t2 rA : ℝ) : rotKinTheta (some 0) t1 t2 rA = [.fin 0, .fin t2, .fin t1] ∧
    rotKinTheta none t1 t2 rA = [.fin t1, .fin t2, .fin 0] := by
  constructor <;> simp [rotKinTheta]

end Misfit
