import Verif.Lemmas.ImageScale
import Verif.Props.Profiles
import Mathlib.Probability.Distributions.Gaussian.Real

/-! Helper lemmas for the closed form of the image (C80, C81) -/

namespace Misfit

theorem gaussDensity_eq_pdf (cen sig lam : ℝ) (h : 0 < sig) :
    gaussDensity cen sig lam = ProbabilityTheory.gaussianPDFReal cen (sig ^ 2).toNNReal lam := by
  unfold gaussDensity ProbabilityTheory.gaussianPDFReal
  have h1 : ((sig ^ 2).toNNReal : ℝ) = sig ^ 2 := Real.coe_toNNReal _ (sq_nonneg sig)
  rw [h1]
  have h2 : Real.sqrt (2 * Real.pi * sig ^ 2) = sig * Real.sqrt (2 * Real.pi) := by
    rw [Real.sqrt_mul (by positivity), Real.sqrt_sq h.le, mul_comm]
  rw [h2, one_div]
  congr 2
  ring

/-- rebinning rows only, for an array given by a function of the indices -/
theorem rebin_rows (n N S : Nat) (hn : 0 < n) (hN : 0 < N) (A : Fin n → ℕ → ℝ) :
    rebin (fun (w : Fin n) (b : Fin (N * S)) => A w b.val) n N =
      .ok fun w i => ∑ t : Fin S, A w (i.val * S + t.val) := by
  have h0 : n / n = 1 := Nat.div_self hn
  have h1 : N * S / N = S := Nat.mul_div_cancel_left _ hN
  unfold rebin
  rw [if_neg (by omega)]
  simp only
  rw [if_pos (by rw [h0, h1]; ring)]
  congr 1
  funext w i
  have key : ∀ g0 g1 : Nat, g0 = 1 → g1 = S → (∑ s : Fin g0, ∑ t : Fin g1,
      flatAt (fun (w : Fin n) (b : Fin (N * S)) => A w b.val)
        (((w.val * g0 + s.val) * N + i.val) * g1 + t.val)) = ∑ t : Fin S, A w (i.val * S + t.val) := by
    rintro g0 g1 rfl rfl
    rw [Fin.sum_univ_one]
    refine Finset.sum_congr rfl fun t _ => ?_
    unfold flatAt
    have ht := t.isLt
    have hi := i.isLt
    have hlt : i.val * g1 + t.val < N * g1 := by
      calc i.val * g1 + t.val < i.val * g1 + g1 := by omega
        _ = (i.val + 1) * g1 := by ring
        _ ≤ N * g1 := Nat.mul_le_mul_right _ hi
    have e : ((w.val * 1 + (0 : Fin 1).val) * N + i.val) * g1 + t.val =
        w.val * (N * g1) + (i.val * g1 + t.val) := by
      simp only [Fin.val_zero]
      ring
    have e1 : (w.val * (N * g1) + (i.val * g1 + t.val)) / (N * g1) = w.val := by
      rw [Nat.mul_comm, Nat.mul_add_div (by omega), Nat.div_eq_of_lt hlt, add_zero]
    have e2 : (w.val * (N * g1) + (i.val * g1 + t.val)) % (N * g1) = i.val * g1 + t.val := by
      rw [Nat.mul_comm, Nat.mul_add_mod, Nat.mod_eq_of_lt hlt]
    rw [e]
    have hd : (w.val * (N * g1) + (i.val * g1 + t.val)) / (N * g1) < n ∧
        (w.val * (N * g1) + (i.val * g1 + t.val)) % (N * g1) < N * g1 := by
      rw [e1, e2]; exact ⟨w.isLt, hlt⟩
    rw [dif_pos hd]
    simp only [e2]
    congr 1
    exact Fin.ext e1
  exact key _ _ h0 h1

/-- the stages after the collapse, without mask, PSF and instrumental broadening -/
theorem evalTail_sharp (N S : Nat) (hN : 0 < N) (psf : PSF) (hpsf : ¬ 0 < psf.fwhm) (xs ys : List ℝ)
    (g : Grid ℝ) (disp : ℝ) (hd : ¬ 0 < disp) (wave : List ℝ) (hw : 0 < wave.length)
    (hNS : g.nPixY = N * S) (hY : g.nY = g.nPixY + 2 * g.padY) (hX : g.nX = g.nPixX + 2 * g.padX)
    (C : ℝ → ℕ → ℕ → ℝ) :
    evalTail false true N psf xs ys g disp wave
        (.ok fun w j x => .fin (C (wave.get w) j.val x.val)) =
      .ok (some ⟨wave.length, N, fun w i => ∑ t : Fin S,
        (∑ a : Fin g.nPixX, C (wave.get w) (i.val * S + t.val + g.padY) (a.val + g.padX)) * g.deltX⟩) := by
  unfold evalTail
  simp only [Bool.false_eq_true, if_false, if_true]
  rw [allFinite_fin fun (w : Fin wave.length) (j : Fin g.nY) (x : Fin g.nX) => C (wave.get w) j.val x.val]
  simp only
  have hp : psfConvolve (fun (w : Fin wave.length) (j : Fin g.nY) (x : Fin g.nX) =>
      C (wave.get w) j.val x.val) psf.fwhm (psf.stamp xs ys) =
      fun w j x => Fl.fin (C (wave.get w) j.val x.val) := by
    unfold psfConvolve
    exact if_neg hpsf
  rw [hp, allFinite_fin fun (w : Fin wave.length) (j : Fin g.nY) (x : Fin g.nX) =>
    C (wave.get w) j.val x.val]
  simp only
  rw [dif_pos ⟨hY, hX⟩]
  have ht : (⟨wave.length, g.nPixY, trimSum (fun (w : Fin wave.length) (j : Fin g.nY) (x : Fin g.nX) =>
      C (wave.get w) j.val x.val) g hY hX⟩ : Arr2) = ⟨wave.length, N * S, fun w b =>
        (∑ a : Fin g.nPixX, C (wave.get w) (b.val + g.padY) (a.val + g.padX)) * g.deltX⟩ := by
    unfold trimSum
    simp only
    clear hY
    generalize g.nPixY = q at hNS
    subst hNS
    rfl
  rw [ht]
  have hr : rebinArr ⟨wave.length, N * S, fun w b =>
        (∑ a : Fin g.nPixX, C (wave.get w) (b.val + g.padY) (a.val + g.padX)) * g.deltX⟩ wave.length N =
      .ok ⟨wave.length, N, fun w i => ∑ t : Fin S,
        (∑ a : Fin g.nPixX, C (wave.get w) (i.val * S + t.val + g.padY) (a.val + g.padX)) * g.deltX⟩ := by
    unfold rebinArr
    simp only
    rw [rebin_rows wave.length N S hw hN fun w b =>
      (∑ a : Fin g.nPixX, C (wave.get w) (b + g.padY) (a.val + g.padX)) * g.deltX]
  rw [hr]
  simp only [dite_true, instStage, if_neg hd]

/-- number of subpixels across the slit -/
theorem setupGrid_nPixX (g : GridIn ℝ) (G : Grid ℝ) (hS : 0 < g.S) (hp : 0 < g.pixscale)
    (h : setupGrid g = .ok G) : G.nPixX = ⌈g.slit * g.S / g.pixscale⌉.toNat ∧ G.deltX = g.slit / G.nPixX := by
  have hS' : (0 : ℝ) < g.S := by exact_mod_cast hS
  unfold setupGrid at h
  rw [if_neg hS.ne', if_neg hp.ne'] at h
  simp only at h
  split at h
  · cases h
  · simp only [Except.ok.injEq] at h
    rw [← h]
    refine ⟨?_, rfl⟩
    simp only
    have e : g.slit / (g.pixscale / g.S) = g.slit * g.S / g.pixscale := by field_simp
    unfold nPixXOf
    split
    · rename_i hs
      have : g.slit * g.S / g.pixscale = ((g.nWhole * g.S : ℕ) : ℝ) := by
        rw [← hs]; field_simp
      rw [this, Int.ceil_natCast]
      rfl
    · rw [e]

/-- coordinate of subpixel `a` of `n` across a slit of width `slit`, relative to the object -/
noncomputable def skyX (n : ℕ) (slit xc : ℝ) (a : ℕ) : ℝ := ((a : ℝ) + 1 / 2 - n / 2) * (slit / n) - xc

/-- coordinate along the slit of subpixel `b`, relative to the object in row `m0`: the
`(N-1)·S - 1` subpixel widths between the first and the last subpixel are spread over all
`N·S - 1` intervals -/
noncomputable def skyY (N S : ℕ) (pix m0 : ℝ) (b : ℕ) : ℝ :=
  (1 / 2 + b * ((((N : ℝ) - 1) * S - 1) / ((N : ℝ) * S - 1))) * (pix / S) - m0 * pix

/-- depth coordinate of cell `c` of `n` -/
noncomputable def skyZ (n : ℕ) (d : ℝ) (c : ℕ) : ℝ := ((c : ℝ) + 1 / 2 - n / 2) * d

theorem yArr_getD (N S : ℕ) (hN : 0 < N) (hS : 0 < S) (pix m0 : ℝ) (b : ℕ) (hb : b < N * S) :
    ((linspace (-(((0 : ℕ) : ℝ) - 1 / 2) * (pix / S)) ((((N : ℝ) - 1) * S + (0 : ℕ) - 1 / 2) * (pix / S))
      (N * S + 2 * 0)).map (· - m0 * S * (pix / S))).getD b 0 = skyY N S pix m0 b := by
  have hS' : (S : ℝ) ≠ 0 := by exact_mod_cast hS.ne'
  rw [List.getD_eq_getElem?_getD]
  by_cases h1 : 1 < N * S
  · rw [yArr_get N S 0 b (by omega) _ _ (by omega)]
    have h2 : (N : ℝ) * S - 1 ≠ 0 := by
      rw [sub_ne_zero]
      have : N * S ≠ 1 := by omega
      exact_mod_cast this
    unfold skyY
    simp only [Option.getD_some]
    push_cast
    field_simp
    ring
  · have h3 : N * S = 1 := by
      have := Nat.mul_pos hN hS
      omega
    have h4 : N = 1 ∧ S = 1 := ⟨Nat.dvd_one.1 ⟨S, h3.symm⟩, Nat.dvd_one.1 ⟨N, by rw [Nat.mul_comm]; exact h3.symm⟩⟩
    obtain ⟨rfl, rfl⟩ := h4
    have h5 : b = 0 := by omega
    subst h5
    simp [linspace, skyY]

theorem linspace_getD (n : ℕ) (hn : 0 < n) (d : ℝ) (c : ℕ) (hc : c < n) :
    (linspace (-((n : ℝ) / 2 - 1 / 2) * d) (((n : ℝ) / 2 - 1 / 2) * d) n).getD c 0 = skyZ n d c := by
  have h := xArr_get n 0 c hn d 0 (by omega)
  simp only [Nat.mul_zero, Nat.add_zero, Nat.cast_zero, add_zero, sub_zero, List.map_id'] at h
  rw [List.getD_eq_getElem?_getD, h]
  rfl

/-- the line-of-sight velocity with both parameters -/
theorem losVelocity_fin (va rt sini x y : ℝ) (hrt : rt ≠ 0) :
    losVelocity [va, rt] sini x y = .fin (2 / Real.pi * va * Real.arctan (Real.sqrt (x ^ 2 + y ^ 2) / rt) *
      (if Real.sqrt (x ^ 2 + y ^ 2) = 0 then 0 else y / Real.sqrt (x ^ 2 + y ^ 2)) * sini) := by
  unfold losVelocity
  simp only
  rw [velArctan_eq _ _ _ _ hrt]
  split
  · simp
  · rename_i h
    rw [Fl.fin_div_ne _ _ h]
    rfl

end Misfit
