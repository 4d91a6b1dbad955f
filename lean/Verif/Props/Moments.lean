import Verif.Lemmas.ImageForm

/-!
# C82: centroid and width of the model line at every sky position
-/

namespace Misfit

open MeasureTheory ProbabilityTheory

theorem gaussDensity_mul_sub_integrable (cen sig : ℝ) (h : sig ≠ 0) :
    Integrable fun lam => gaussDensity cen sig lam * (lam - cen) := by
  have hb : 0 < 1 / (2 * sig ^ 2) := by positivity
  have h1 := (integrable_mul_exp_neg_mul_sq hb).comp_sub_right cen
  have h2 := h1.const_mul (1 / (sig * Real.sqrt (2 * Real.pi)))
  refine h2.congr (Filter.Eventually.of_forall fun lam => ?_)
  simp only [gaussDensity]
  have : -(1 / (2 * sig ^ 2)) * (lam - cen) ^ 2 = -(cen - lam) ^ 2 / (2 * sig ^ 2) := by ring
  rw [this]
  ring

theorem gaussDensity_mul_sq_integrable (cen sig : ℝ) (h : sig ≠ 0) :
    Integrable fun lam => gaussDensity cen sig lam * (lam - cen) ^ 2 := by
  have hb : 0 < 1 / (2 * sig ^ 2) := by positivity
  have h0 := integrable_rpow_mul_exp_neg_mul_sq hb (s := 2) (by norm_num)
  have h1 := h0.comp_sub_right cen
  have h2 := h1.const_mul (1 / (sig * Real.sqrt (2 * Real.pi)))
  refine h2.congr (Filter.Eventually.of_forall fun lam => ?_)
  simp only [gaussDensity]
  have : -(1 / (2 * sig ^ 2)) * (lam - cen) ^ 2 = -(cen - lam) ^ 2 / (2 * sig ^ 2) := by ring
  rw [this]
  have h3 : (lam - cen) ^ (2 : ℝ) = (lam - cen) ^ 2 := by exact_mod_cast Real.rpow_natCast (lam - cen) 2
  rw [h3]
  ring

theorem gaussDensity_var_ne (sig : ℝ) (h : 0 < sig) : (sig ^ 2).toNNReal ≠ 0 := by
  rw [Ne, Real.toNNReal_eq_zero, not_le]
  positivity

theorem gaussDensity_first (cen sig : ℝ) (h : 0 < sig) :
    ∫ lam, gaussDensity cen sig lam * (lam - cen) = 0 := by
  have h1 := integral_gaussianReal_eq_integral_smul (μ := cen) (f := fun x : ℝ => x - cen)
    (gaussDensity_var_ne sig h)
  simp only [smul_eq_mul, ← gaussDensity_eq_pdf cen sig _ h] at h1
  rw [← h1, integral_sub, integral_id_gaussianReal]
  · simp
  · exact (memLp_id_gaussianReal 1).integrable le_rfl
  · exact integrable_const _

theorem gaussDensity_second (cen sig : ℝ) (h : 0 < sig) :
    ∫ lam, gaussDensity cen sig lam * (lam - cen) ^ 2 = sig ^ 2 := by
  have h1 := integral_gaussianReal_eq_integral_smul (μ := cen) (f := fun x : ℝ => (x - cen) ^ 2)
    (gaussDensity_var_ne sig h)
  simp only [smul_eq_mul, ← gaussDensity_eq_pdf cen sig _ h] at h1
  rw [← h1]
  have h2 := variance_fun_id_gaussianReal (μ := cen) (v := (sig ^ 2).toNNReal)
  rw [variance_eq_integral measurable_id'.aemeasurable] at h2
  simp only [integral_id_gaussianReal] at h2
  rw [h2, Real.coe_toNNReal _ (sq_nonneg sig)]

/-- moments of a Gaussian about any origin -/
theorem gaussDensity_moments (cen sig o : ℝ) (h : 0 < sig) :
    (Integrable fun lam => gaussDensity cen sig lam * (lam - o)) ∧
    (∫ lam, gaussDensity cen sig lam * (lam - o) = cen - o) ∧
    (Integrable fun lam => gaussDensity cen sig lam * (lam - o) ^ 2) ∧
    ∫ lam, gaussDensity cen sig lam * (lam - o) ^ 2 = sig ^ 2 + (cen - o) ^ 2 := by
  have i0 := gaussDensity_integrable cen sig h.ne'
  have i1 := gaussDensity_mul_sub_integrable cen sig h.ne'
  have i2 := gaussDensity_mul_sq_integrable cen sig h.ne'
  have e1 : (fun lam => gaussDensity cen sig lam * (lam - o)) = fun lam =>
      gaussDensity cen sig lam * (lam - cen) + gaussDensity cen sig lam * (cen - o) := by
    funext lam; ring
  have e2 : (fun lam => gaussDensity cen sig lam * (lam - o) ^ 2) = fun lam =>
      (gaussDensity cen sig lam * (lam - cen) ^ 2 + gaussDensity cen sig lam * (lam - cen) * (2 * (cen - o))) +
        gaussDensity cen sig lam * (cen - o) ^ 2 := by
    funext lam; ring
  have j1 := i0.mul_const (cen - o)
  have j2 := i0.mul_const ((cen - o) ^ 2)
  have j3 := i1.mul_const (2 * (cen - o))
  have i23 : Integrable fun lam => gaussDensity cen sig lam * (lam - cen) ^ 2 +
      gaussDensity cen sig lam * (lam - cen) * (2 * (cen - o)) := i2.add j3
  refine ⟨by rw [e1]; exact i1.add j1, ?_, by rw [e2]; exact (i2.add j3).add j2, ?_⟩
  · rw [e1, integral_add i1 j1, integral_mul_const, gaussDensity_first _ _ h, gaussDensity_integral _ _ h]
    ring
  · rw [e2, integral_add i23 j2, integral_add i2 j3, integral_mul_const, integral_mul_const,
      gaussDensity_first _ _ h, gaussDensity_second _ _ h, gaussDensity_integral _ _ h]
    ring

/-- intensity-weighted mean along the line of sight -/
noncomputable def losMean {nZ : Nat} (I q : Fin nZ → ℝ) : ℝ := (∑ m, I m * q m) / ∑ m, I m

/-- **C82** For one emission line and positive dispersions, the model cube samples, on any wavelength
grid, a density `f` at every sky position with light, whose first two moments are those of a disc
observed spectroscopically: the centroid is the redshifted line at the intensity-weighted mean
line-of-sight velocity, and the squared width is the redshifted line's width for the
intensity-weighted mean square of the dispersion plus the intensity-weighted variance of the
velocity. -/
theorem C82_moments {nZ nY nX : Nat} (I V sig : Cube nZ nY nX ℝ) (z dz lam0 ratio : ℝ)
    (hZ : 0 < nZ) (hY : 0 < nY) (hX : 0 < nX) (hsig : ∀ m j k, 0 < sig m j k) (hz : 0 < 1 + z)
    (hlam : 0 < lam0) (hdz : dz ≠ 0) (hratio : ratio ≠ 0) :
    ∃ f : Fin nY → Fin nX → ℝ → ℝ,
      (∀ (nW : Nat) (wave : Fin nW → ℝ), addSigmaCollapseZ I V sig wave z [lam0] [ratio] dz .wave =
        .ok fun w j k => .fin (f j k (wave w))) ∧
      ∀ j k, ∑ m, I m j k ≠ 0 →
        let F := ∫ lam, f j k lam
        let cen := (∫ lam, f j k lam * lam) / F
        let vbar := losMean (fun m => I m j k) fun m => V m j k
        Integrable (f j k) ∧ (Integrable fun lam => f j k lam * lam) ∧
        (Integrable fun lam => f j k lam * (lam - cen) ^ 2) ∧ F ≠ 0 ∧
        cen = lam0 * (1 + z) * (1 + vbar / (299792458 / 1000)) ∧
        (∫ lam, f j k lam * (lam - cen) ^ 2) / F = (lam0 * (1 + z) / (299792458 / 1000)) ^ 2 *
          (losMean (fun m => I m j k) (fun m => sig m j k ^ 2) +
            losMean (fun m => I m j k) fun m => (V m j k - vbar) ^ 2) := by
  have hc := cKms_pos
  have hck : (299792458 / 1000 : ℝ) = cKms := rfl
  rw [hck]
  refine ⟨fun j k lam => lineDensity I V sig z dz [lam0] [ratio] j k lam, fun nW wave =>
    addSigma_broad I V sig wave z dz [lam0] [ratio] le_rfl hZ hY hX (fun m j k => (hsig m j k).ne') hz.ne'
      (fun r h => by simp at h; rw [h]; exact hlam.ne'), fun j k hI => ?_⟩
  set L := lam0 * (1 + z) with hL
  have hLp : 0 < L := mul_pos hlam hz
  have hs : ∀ m, 0 < sig m j k / cKms * L := fun m => mul_pos (div_pos (hsig m j k) hc) hLp
  set A := ∑ m, I m j k with hA
  have hf : ∀ lam, lineDensity I V sig z dz [lam0] [ratio] j k lam = ∑ m, (I m j k * dz * ratio) *
      gaussDensity (L * (1 + V m j k / cKms)) (sig m j k / cKms * L) lam := by
    intro lam
    simp only [lineDensity, List.zip_cons_cons, List.zip_nil_right, List.map_cons, List.map_nil,
      List.sum_cons, List.sum_nil, add_zero, Finset.sum_mul]
    refine Finset.sum_congr rfl fun m _ => ?_
    ring
  -- integrals of the density against a function with known Gaussian integrals
  have hint : ∀ (g : ℝ → ℝ) (v : Fin nZ → ℝ),
      (∀ m, Integrable fun lam => gaussDensity (L * (1 + V m j k / cKms)) (sig m j k / cKms * L) lam * g lam) →
      (∀ m, ∫ lam, gaussDensity (L * (1 + V m j k / cKms)) (sig m j k / cKms * L) lam * g lam = v m) →
      (Integrable fun lam => lineDensity I V sig z dz [lam0] [ratio] j k lam * g lam) ∧
      ∫ lam, lineDensity I V sig z dz [lam0] [ratio] j k lam * g lam = dz * ratio * ∑ m, I m j k * v m := by
    intro g v hi hv
    have e : (fun lam => lineDensity I V sig z dz [lam0] [ratio] j k lam * g lam) = fun lam =>
        ∑ m, (I m j k * dz * ratio) *
          (gaussDensity (L * (1 + V m j k / cKms)) (sig m j k / cKms * L) lam * g lam) := by
      funext lam
      rw [hf, Finset.sum_mul]
      exact Finset.sum_congr rfl fun m _ => by ring
    rw [e]
    have hi2 : ∀ m, Integrable fun lam => (I m j k * dz * ratio) *
        (gaussDensity (L * (1 + V m j k / cKms)) (sig m j k / cKms * L) lam * g lam) :=
      fun m => (hi m).const_mul _
    refine ⟨integrable_finsetSum Finset.univ fun m _ => hi2 m, ?_⟩
    rw [integral_finsetSum _ fun m _ => hi2 m, Finset.mul_sum]
    refine Finset.sum_congr rfl fun m _ => ?_
    rw [integral_const_mul, hv]
    ring
  have h0 := hint (fun _ => 1) (fun _ => 1)
    (fun m => by simpa using gaussDensity_integrable _ _ (hs m).ne')
    (fun m => by simpa using gaussDensity_integral _ _ (hs m))
  have h1 := hint (fun lam => lam) (fun m => L * (1 + V m j k / cKms))
    (fun m => by simpa using (gaussDensity_moments (L * (1 + V m j k / cKms)) _ 0 (hs m)).1)
    (fun m => by simpa using (gaussDensity_moments (L * (1 + V m j k / cKms)) _ 0 (hs m)).2.1)
  simp only [mul_one] at h0
  set vbar := losMean (fun m => I m j k) fun m => V m j k with hvbar
  have hvb : ∑ m, I m j k * V m j k = A * vbar := by
    rw [hvbar]
    unfold losMean
    rw [← hA]
    field_simp
  have hF : ∫ lam, lineDensity I V sig z dz [lam0] [ratio] j k lam = dz * ratio * A := h0.2
  have hFne : dz * ratio * A ≠ 0 := mul_ne_zero (mul_ne_zero hdz hratio) hI
  have hcen : (∫ lam, lineDensity I V sig z dz [lam0] [ratio] j k lam * lam) / (dz * ratio * A) =
      L * (1 + vbar / cKms) := by
    rw [h1.2, div_eq_iff hFne]
    have : ∑ m, I m j k * (L * (1 + V m j k / cKms)) = L * A + L / cKms * (A * vbar) := by
      rw [← hvb, hA, Finset.mul_sum, Finset.mul_sum, ← Finset.sum_add_distrib]
      refine Finset.sum_congr rfl fun m _ => ?_
      field_simp
    rw [this]
    field_simp
  have h2 := hint (fun lam => (lam - L * (1 + vbar / cKms)) ^ 2)
    (fun m => (sig m j k / cKms * L) ^ 2 + (L * (1 + V m j k / cKms) - L * (1 + vbar / cKms)) ^ 2)
    (fun m => (gaussDensity_moments (L * (1 + V m j k / cKms)) _ _ (hs m)).2.2.1)
    (fun m => (gaussDensity_moments (L * (1 + V m j k / cKms)) _ _ (hs m)).2.2.2)
  simp only
  rw [hF, hcen]
  refine ⟨h0.1, h1.1, h2.1, hFne, rfl, ?_⟩
  rw [h2.2, div_eq_iff hFne]
  unfold losMean
  rw [← hA]
  have : ∑ m, I m j k * ((sig m j k / cKms * L) ^ 2 + (L * (1 + V m j k / cKms) - L * (1 + vbar / cKms)) ^ 2) =
      (L / cKms) ^ 2 * (∑ m, I m j k * sig m j k ^ 2 + ∑ m, I m j k * (V m j k - vbar) ^ 2) := by
    rw [← Finset.sum_add_distrib, Finset.mul_sum]
    refine Finset.sum_congr rfl fun m _ => ?_
    field_simp
    ring
  rw [this]
  field_simp

/-- two cells moving at ±100 km/s with dispersion 50 km/s: the hypotheses of C82 hold and the
predicted width is that of `√(50² + 100²)` km/s at the rest wavelength -/
example : ∃ f : ℝ → ℝ, (∀ (nW : Nat) (wave : Fin nW → ℝ),
      addSigmaCollapseZ (fun _ _ _ => 1 : Cube 2 1 1 ℝ) (fun m _ _ => if m = 0 then 100 else -100)
        (fun _ _ _ => 50) wave 1 [6564.6] [1] 1 .wave = .ok fun w _ _ => .fin (f (wave w))) ∧
    (∫ lam, f lam * lam) / ∫ lam, f lam = 13129.2 := by
  obtain ⟨f, h1, h2⟩ := C82_moments (fun _ _ _ => 1 : Cube 2 1 1 ℝ) (fun m _ _ => if m = 0 then 100 else -100)
    (fun _ _ _ => 50) 1 1 6564.6 1 two_pos one_pos one_pos (fun _ _ _ => by norm_num) (by norm_num) (by norm_num)
    one_ne_zero one_ne_zero
  refine ⟨f 0 0, fun nW wave => ?_, ?_⟩
  · rw [h1]
    congr 1
    funext w j k
    rw [Subsingleton.elim j 0, Subsingleton.elim k 0]
  · have := (h2 0 0 (by simp)).2.2.2.2.1
    rw [this]
    simp [losMean]
    norm_num

end Misfit
