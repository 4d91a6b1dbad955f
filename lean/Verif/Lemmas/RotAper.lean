import Verif.Lemmas.Aper1D

/-!
# The second moment of the rotation aperture model as a quotient of two sums
-/

namespace Misfit

open Finset

/-- the weighted ratio for finite weights -/
theorem aperSigma_fin {n m : ℕ} (N D : Fin n → Fin m → ℝ) (w : Fin n → ℝ) (dx dy : ℝ) (hd : dx * dy ≠ 0)
    (hD : 0 < ∑ j, ∑ i, w j * D j i) (hN : 0 ≤ ∑ j, ∑ i, w j * N j i) :
    aperSigma N D (fun j => .fin (w j)) dx dy =
      .fin (Real.sqrt ((∑ j, ∑ i, w j * N j i) / ∑ j, ∑ i, w j * D j i)) := by
  have hsum : ∀ f : Fin n → Fin m → ℝ,
      (∑ j, ∑ i, Fl.fin (f j i) * Fl.fin (w j) * Fl.fin dx * Fl.fin dy) =
        Fl.fin ((∑ j, ∑ i, w j * f j i) * (dx * dy)) := by
    intro f
    simp only [Fl.fin_mul, Fl.fin_sum]
    congr 1
    rw [Finset.sum_mul]
    refine Finset.sum_congr rfl fun j _ => ?_
    rw [Finset.sum_mul]
    refine Finset.sum_congr rfl fun i _ => ?_
    ring
  unfold aperSigma
  rw [hsum, hsum, Fl.fin_div, if_neg (mul_ne_zero hD.ne' hd), mul_div_mul_right _ _ hd]
  simp only [Fl.sqrt]
  rw [if_neg (not_lt.2 (div_nonneg hN hD.le))]

/-- sum over a slice of a function of the indices -/
theorem slice2_sum {n m : ℕ} (A : ℕ → ℕ → ℝ) (w : ℕ → ℝ) (y0 ny x0 nx : ℕ) (hy : y0 + ny ≤ n) (hx : x0 + nx ≤ m) :
    (∑ j : Fin (min (ny + y0) n - min y0 n), ∑ i : Fin (min (nx + x0) m - min x0 m),
      w j * slice2 (fun (y : Fin n) (x : Fin m) => A y x) y0 (ny + y0) x0 (nx + x0) j i) =
      ∑ j ∈ range ny, ∑ i ∈ range nx, w j * A (y0 + j) (x0 + i) := by
  have e1 : min (ny + y0) n - min y0 n = ny := by omega
  have e2 : min (nx + x0) m - min x0 m = nx := by omega
  have e3 : min y0 n = y0 := by omega
  have e4 : min x0 m = x0 := by omega
  have h : (∑ j : Fin (min (ny + y0) n - min y0 n), ∑ i : Fin (min (nx + x0) m - min x0 m),
      w j * slice2 (fun (y : Fin n) (x : Fin m) => A y x) y0 (ny + y0) x0 (nx + x0) j i) =
      ∑ j ∈ range (min (ny + y0) n - min y0 n), ∑ i ∈ range (min (nx + x0) m - min x0 m),
        w j * A (min y0 n + j) (min x0 m + i) := by
    simp only [Finset.sum_range]
    rfl
  rw [h, e1, e2, e3, e4]

/-- The second moment of a rotation field `va · V1` with constant dispersion `s`.  `sm` is the linear effect of the
point spread function up to the factor `k`. -/
theorem rotSigma_value (g : RotGrid) (V1 I : ℕ → ℕ → ℕ → ℝ) (va s dz fwhm : ℝ) (st : ConvStamp) (method : String)
    (width : ℝ) (sm : (ℕ → ℕ → ℝ) → ℕ → ℕ → ℝ) (k : ℝ) (hk : 0 < k)
    (hsm : ∀ A : ℕ → ℕ → ℝ, psfFlatObj (fun (y : Fin (g.nPixY + 2 * g.padY)) (x : Fin (g.nPixX + 2 * g.padX)) => A y x)
      fwhm st = .ok fun y x => k * sm A y x)
    (hlin : ∀ (a b : ℝ) (A B : ℕ → ℕ → ℝ) y x, sm (fun y x => a * A y x + b * B y x) y x = a * sm A y x + b * sm B y x)
    (wt : ℕ → ℝ) (κ : ℝ) (hκ : 0 < κ)
    (hw : extractWeights method width g.deltY g.nPixY = .ok fun j => .fin (κ * wt j))
    (hd : g.deltX * g.deltY ≠ 0)
    (hL : 0 < ∑ j ∈ range g.nPixY, ∑ i ∈ range g.nPixX,
      wt j * sm (fun y x => (∑ z ∈ range g.nPixY, I z y x) * dz) (g.padY + j) (g.padX + i))
    (hP : 0 ≤ ∑ j ∈ range g.nPixY, ∑ i ∈ range g.nPixX,
      wt j * sm (fun y x => (∑ z ∈ range g.nPixY, V1 z y x ^ 2 * I z y x) * dz) (g.padY + j) (g.padX + i)) :
    rotSigma (nZ := g.nPixY) g (fun z y x => va * V1 z y x) (fun _ _ _ => s) (fun z y x => I z y x) dz fwhm st method width =
      .ok (.fin (Real.sqrt (va ^ 2 *
        ((∑ j ∈ range g.nPixY, ∑ i ∈ range g.nPixX,
          wt j * sm (fun y x => (∑ z ∈ range g.nPixY, V1 z y x ^ 2 * I z y x) * dz) (g.padY + j) (g.padX + i)) /
        ∑ j ∈ range g.nPixY, ∑ i ∈ range g.nPixX,
          wt j * sm (fun y x => (∑ z ∈ range g.nPixY, I z y x) * dz) (g.padY + j) (g.padX + i)) + s ^ 2))) := by
  set P : ℕ → ℕ → ℝ := fun y x => (∑ z ∈ range g.nPixY, V1 z y x ^ 2 * I z y x) * dz with hPd
  set L : ℕ → ℕ → ℝ := fun y x => (∑ z ∈ range g.nPixY, I z y x) * dz with hLd
  have hnum : (fun (y : Fin (g.nPixY + 2 * g.padY)) (x : Fin (g.nPixX + 2 * g.padX)) =>
      (∑ z : Fin g.nPixY, ((va * V1 z y x) ^ 2 + s ^ 2) * I z y x) * dz) =
      fun (y : Fin (g.nPixY + 2 * g.padY)) (x : Fin (g.nPixX + 2 * g.padX)) =>
        va ^ 2 * P y x + s ^ 2 * L y x := by
    funext y x
    simp only [hPd, hLd, Finset.sum_range, ← mul_assoc, ← add_mul]
    congr 1
    rw [Finset.mul_sum, Finset.mul_sum, ← Finset.sum_add_distrib]
    refine Finset.sum_congr rfl fun z _ => ?_
    ring
  have hden : (fun (y : Fin (g.nPixY + 2 * g.padY)) (x : Fin (g.nPixX + 2 * g.padX)) =>
      (∑ z : Fin g.nPixY, I z y x) * dz) =
      fun (y : Fin (g.nPixY + 2 * g.padY)) (x : Fin (g.nPixX + 2 * g.padX)) => L y x := by
    funext y x
    simp only [hLd, Finset.sum_range]
  have e1 : min (g.nPixY + g.padY) (g.nPixY + 2 * g.padY) - min g.padY (g.nPixY + 2 * g.padY) = g.nPixY := by omega
  have hw' : extractWeights method width g.deltY
      (min (g.nPixY + g.padY) (g.nPixY + 2 * g.padY) - min g.padY (g.nPixY + 2 * g.padY)) =
      .ok fun j => .fin (κ * wt j) := by
    rw [e1]; exact hw
  have hsum : ∀ (c : ℝ) (A : ℕ → ℕ → ℝ), (∑ j ∈ range g.nPixY, ∑ i ∈ range g.nPixX,
      κ * wt j * (c * A (g.padY + j) (g.padX + i))) =
      κ * c * ∑ j ∈ range g.nPixY, ∑ i ∈ range g.nPixX, wt j * A (g.padY + j) (g.padX + i) := by
    intro c A
    rw [Finset.mul_sum]
    refine Finset.sum_congr rfl fun j _ => ?_
    rw [Finset.mul_sum]
    refine Finset.sum_congr rfl fun i _ => ?_
    ring
  set SP := ∑ j ∈ range g.nPixY, ∑ i ∈ range g.nPixX, wt j * sm P (g.padY + j) (g.padX + i) with hSP
  set SL := ∑ j ∈ range g.nPixY, ∑ i ∈ range g.nPixX, wt j * sm L (g.padY + j) (g.padX + i) with hSL
  have hN : (∑ j ∈ range g.nPixY, ∑ i ∈ range g.nPixX, wt j *
      sm (fun y x => va ^ 2 * P y x + s ^ 2 * L y x) (g.padY + j) (g.padX + i)) = va ^ 2 * SP + s ^ 2 * SL := by
    rw [hSP, hSL, Finset.mul_sum, Finset.mul_sum, ← Finset.sum_add_distrib]
    refine Finset.sum_congr rfl fun j _ => ?_
    rw [Finset.mul_sum, Finset.mul_sum, ← Finset.sum_add_distrib]
    refine Finset.sum_congr rfl fun i _ => ?_
    rw [hlin]
    ring
  have hy : g.padY + g.nPixY ≤ g.nPixY + 2 * g.padY := by omega
  have hx : g.padX + g.nPixX ≤ g.nPixX + 2 * g.padX := by omega
  have hSn := slice2_sum (n := g.nPixY + 2 * g.padY) (m := g.nPixX + 2 * g.padX)
    (fun y x => k * sm (fun y x => va ^ 2 * P y x + s ^ 2 * L y x) y x) (fun j => κ * wt j) g.padY g.nPixY g.padX g.nPixX hy hx
  have hSd := slice2_sum (n := g.nPixY + 2 * g.padY) (m := g.nPixX + 2 * g.padX)
    (fun y x => k * sm L y x) (fun j => κ * wt j) g.padY g.nPixY g.padX g.nPixX hy hx
  rw [hsum k (sm fun y x => va ^ 2 * P y x + s ^ 2 * L y x), hN] at hSn
  rw [hsum k (sm L), ← hSL] at hSd
  have hkk : 0 < κ * k := mul_pos hκ hk
  unfold rotSigma
  simp only [hnum, hden]
  rw [hsm (fun y x => va ^ 2 * P y x + s ^ 2 * L y x), hsm L]
  simp only [bind, Except.bind, hw']
  rw [aperSigma_fin _ _ (fun j => κ * wt j) _ _ hd (by rw [hSd]; exact mul_pos hkk hL)
    (by rw [hSn]; exact mul_nonneg hkk.le (add_nonneg (mul_nonneg (sq_nonneg _) hP) (mul_nonneg (sq_nonneg _) hL.le)))]
  rw [hSn, hSd, mul_div_mul_left _ _ hkk.ne']
  congr 3
  field_simp

/-- the row weights: a Gaussian around the middle row whose full width at half maximum is half the aperture, or equal
weights -/
theorem extractWeights_value (method : String) (width deltY : ℝ) (rows : ℕ)
    (hm : method = "optimal" ∨ method = "boxcar") (hw : 0 < width / deltY) (hr : 0 < rows) :
    ∃ κ : ℝ, 0 < κ ∧ extractWeights method width deltY rows = .ok fun j => .fin (κ *
      if method = "optimal" then
        Real.exp (-(4 * Real.log 2 * ((j : ℝ) - ((rows : ℝ) - 1) / 2) ^ 2 / (width / deltY / 2) ^ 2)) else 1) := by
  rcases hm with rfl | rfl
  · have hs : 0 < (0.5 * width / deltY) / (2 * Real.sqrt (2 * Real.log 2)) := by
      apply div_pos _ fwhmFactor_pos
      rw [mul_div_assoc]
      exact mul_pos (by norm_num) hw
    have hlog : (0 : ℝ) < 2 * Real.log 2 := mul_pos two_pos (Real.log_pos (by norm_num))
    have hss : ∀ t : ℝ, -((t - 0) / ((0.5 * width / deltY) / (2 * Real.sqrt (2 * Real.log 2)))) ^ 2 / 2 =
        -(4 * Real.log 2 * t ^ 2 / (width / deltY / 2) ^ 2) := by
      intro t
      have e : (0.5 * width / deltY) = width / deltY / 2 := by ring
      rw [e, sub_zero, div_div_eq_mul_div, div_pow, mul_pow, mul_pow, Real.sq_sqrt hlog.le]
      ring
    set s := (0.5 * width / deltY) / (2 * Real.sqrt (2 * Real.log 2)) with hsdef
    set p : Fin rows → ℝ := fun j =>
      Real.exp (-((((j : ℝ) - ((rows : ℝ) - 1) / 2) - 0) / s) ^ 2 / 2) / Real.sqrt (2 * Real.pi) / s
      with hp
    have hpp : ∀ j, 0 < p j := fun j =>
      div_pos (div_pos (Real.exp_pos _) sqrt2pi_pos) hs
    have hsum : 0 < ∑ i, p i := by
      haveI : Nonempty (Fin rows) := ⟨⟨0, hr⟩⟩
      exact Finset.sum_pos (fun i _ => hpp i) Finset.univ_nonempty
    refine ⟨1 / Real.sqrt (2 * Real.pi) / s / ∑ i, p i, div_pos (div_pos (div_pos one_pos sqrt2pi_pos) hs) hsum, ?_⟩
    have hn : ∀ j : Fin rows, normPdf ((j : ℝ) - ((rows : ℝ) - 1) / 2) 0 s = .fin (p j) := by
      intro j
      rw [normPdf, if_pos hs]
    rw [extractWeights, if_pos rfl]
    simp only [← hsdef, hn, Fl.fin_sum, Fl.fin_div, if_neg (ne_of_gt hsum), if_true]
    congr 1
    funext j
    congr 1
    simp only [hp]
    rw [hss]
    ring
  · refine ⟨1, one_pos, ?_⟩
    rw [extractWeights, if_neg (by decide), if_pos rfl]
    simp

end Misfit
