import Verif.Lemmas.Collapse
import Mathlib.Tactic.Linarith
import Mathlib.Tactic.Positivity

/-!
# C30, C31, C56: the spectral cube
-/

namespace Misfit
open MeasureTheory Real

/-! ## C30 -/

section
variable {K : Type*} [Field K] [LinearOrder K] [IsStrictOrderedRing K]

/-- C30: without dispersion every parcel lands, whole, in a wavelength pixel nearest to its
Doppler-shifted wavelength (the first such pixel), so the spectrum of each sky position sums to
the line-of-sight integral of the intensity and is non-negative. -/
theorem C30_nearest {nW nZ nY nX : Nat} (I V : Cube nZ nY nX K) (wave : Fin nW → K) (dz lam0 : K)
    (hW : 0 < nW) :
    ∃ c, iSimpleCollapse I V wave dz lam0 = .ok c ∧
      (∃ p : Fin nZ → Fin nY → Fin nX → Fin nW,
        (∀ m j k i, |lam0 * (1 + V m j k / cKms) - wave (p m j k)| ≤
            |lam0 * (1 + V m j k / cKms) - wave i| ∧
          (i < p m j k → |lam0 * (1 + V m j k / cKms) - wave (p m j k)| <
            |lam0 * (1 + V m j k / cKms) - wave i|)) ∧
        ∀ w j k, c w j k = ∑ m, if p m j k = w then I m j k * dz else 0) ∧
      (∀ j k, ∑ w, c w j k = ∑ m, I m j k * dz) ∧
      ((∀ m j k, 0 ≤ I m j k) → 0 ≤ dz → ∀ w j k, 0 ≤ c w j k) := by
  choose p hp using fun m j k =>
    argmin_exists (fun i => absK (lam0 * (1 + V m j k / cKms) - wave i)) hW
  have hc : iSimpleCollapse I V wave dz lam0 = .ok fun w j k =>
      ∑ m, if p m j k = w then I m j k * dz else 0 := by
    unfold iSimpleCollapse
    rw [simpleCollapse_fold I V wave dz lam0 p hp]
    congr 1
    funext w j k
    rw [zero_add, sum_cells (fun m j k => I m j k * dz) p]
  refine ⟨_, hc, ⟨p, fun m j k i => ?_, fun _ _ _ => rfl⟩, ?_, ?_⟩
  · obtain ⟨h1, h2⟩ := argmin_spec _ _ (hp m j k)
    simp only [absK_eq] at h1 h2
    exact ⟨h1 i, h2 i⟩
  · intro j k
    rw [Finset.sum_comm]
    apply Finset.sum_congr rfl
    intro m _
    rw [Finset.sum_ite_eq Finset.univ (p m j k)]
    simp
  · intro hI hdz w j k
    apply Finset.sum_nonneg
    intro m _
    split
    · exact mul_nonneg (hI m j k) hdz
    · exact le_rfl

/-- without wavelength pixels a non-empty cube is an error -/
theorem C30_no_wavelengths {nZ nY nX : Nat} (I V : Cube nZ nY nX K) (wave : Fin 0 → K) (dz lam0 : K)
    (hZ : 0 < nZ) (hY : 0 < nY) (hX : 0 < nX) :
    iSimpleCollapse I V wave dz lam0 = .error .valueError := by
  unfold iSimpleCollapse
  have : ∃ c l, simpleCollapseCells nZ nY nX = c :: l := by
    apply List.exists_cons_of_ne_nil
    intro h
    have hm : ((⟨0, hX⟩, ⟨0, hY⟩, ⟨0, hZ⟩) : Fin nX × Fin nY × Fin nZ) ∈
        simpleCollapseCells nZ nY nX := by
      simp [simpleCollapseCells]
    rw [h] at hm; simp at hm
  obtain ⟨c, l, hcl⟩ := this
  rw [hcl, List.foldlM_cons]
  rfl

end

/-- the example meets the hypotheses and two parcels of one sky position land in one pixel -/
example : (match iSimpleCollapse (K := ℚ) (nW := 3) (nZ := 2) (nY := 1) (nX := 1)
      (fun m _ _ => if m = 0 then 1 else 5) (fun m _ _ => if m = 0 then 0 else 100)
      (fun i => 99 + i) 2 100 with
    | .ok c => [c 0 0 0, c 1 0 0, c 2 0 0]
    | .error _ => []) = [0, 12, 0] := by decide +kernel

/-! ### lines -/

/-- loop over the lines when every line gives finite values -/
theorem collapseLines_fin {nW nZ nY nX : Nat} (I V sig : Cube nZ nY nX ℝ) (wave : Fin nW → ℝ)
    (z dz : ℝ) (L : ℝ → Fin nW → Fin nY → Fin nX → ℝ) (rs fs : List ℝ) (hl : rs.length ≤ fs.length)
    (hL : ∀ r ∈ rs, oneLine I V sig wave z dz r = .ok fun w j k => .fin (L r w j k))
    (acc : Fin nW → Fin nY → Fin nX → ℝ) :
    collapseLines I V sig wave z dz rs fs (fun w j k => .fin (acc w j k)) = .ok fun w j k =>
      .fin (acc w j k + ((rs.zip fs).map fun p => L p.1 w j k * p.2).sum) := by
  induction rs generalizing fs acc with
  | nil => simp [collapseLines]
  | cons r rs ih =>
    cases fs with
    | nil => simp at hl
    | cons f fs =>
      rw [collapseLines, hL r (by simp)]
      simp only [Fl.fin_mul, Fl.fin_add]
      rw [ih fs (by simpa using hl) (fun r hr => hL r (List.mem_cons_of_mem _ hr))
        (fun w j k => acc w j k + L r w j k * f)]
      congr 1
      funext w j k
      simp only [List.zip_cons_cons, List.map_cons, List.sum_cons]
      congr 1; ring

theorem addSigma_wave_fin {nW nZ nY nX : Nat} (I V sig : Cube nZ nY nX ℝ) (wave : Fin nW → ℝ)
    (z dz : ℝ) (L : ℝ → Fin nW → Fin nY → Fin nX → ℝ) (rs fs : List ℝ) (hl : rs.length ≤ fs.length)
    (hL : ∀ r ∈ rs, oneLine I V sig wave z dz r = .ok fun w j k => .fin (L r w j k))
    (hZ : 0 < nZ) (hY : 0 < nY) (hX : 0 < nX) :
    addSigmaCollapseZ I V sig wave z rs fs dz .wave = .ok fun w j k =>
      .fin (((rs.zip fs).map fun p => L p.1 w j k * p.2).sum) := by
  have hne : ¬ (rs ≠ [] ∧ (nZ = 0 ∨ nY = 0 ∨ nX = 0)) := by omega
  unfold addSigmaCollapseZ
  simp only [if_neg hne]
  have := collapseLines_fin I V sig wave z dz L rs fs hl hL (fun _ _ _ => 0)
  simp only [zero_add] at this
  exact this

theorem zip_mul_const_sum (rs fs : List ℝ) (c : ℝ) (hl : rs.length = fs.length) :
    ((rs.zip fs).map fun p => c * p.2).sum = fs.sum * c := by
  induction rs generalizing fs with
  | nil => cases fs with
    | nil => simp
    | cons f fs => simp at hl
  | cons r rs ih => cases fs with
    | nil => simp at hl
    | cons f fs =>
      simp only [List.zip_cons_cons, List.map_cons, List.sum_cons, ih fs (by simpa using hl)]
      ring

theorem finset_sum_list_sum {ι α : Type*} (s : Finset ι) (l : List α) (f : ι → α → ℝ) :
    ∑ i ∈ s, (l.map (f i)).sum = (l.map fun a => ∑ i ∈ s, f i a).sum := by
  induction l with
  | nil => simp
  | cons a l ih => simp only [List.map_cons, List.sum_cons, Finset.sum_add_distrib, ih]

/-- C30 for the whole cube: without dispersion the spectrum of every sky position sums to the
line-of-sight integral of the intensity times the sum of the flux ratios, for any list of lines
and any redshift. -/
theorem C30_flux {nW nZ nY nX : Nat} (I V sig : Cube nZ nY nX ℝ) (wave : Fin nW → ℝ)
    (z dz : ℝ) (rs fs : List ℝ) (hl : rs.length = fs.length) (hW : 0 < nW)
    (hZ : 0 < nZ) (hY : 0 < nY) (hX : 0 < nX) (hsig : ∀ m j k, sig m j k = 0) :
    ∃ c : Fin nW → Fin nY → Fin nX → ℝ,
      addSigmaCollapseZ I V sig wave z rs fs dz .wave = .ok (fun w j k => .fin (c w j k)) ∧
      (∀ j k, ∑ w, c w j k = fs.sum * ∑ m, I m j k * dz) ∧
      ((∀ m j k, 0 ≤ I m j k) → 0 ≤ dz → (∀ f ∈ fs, 0 ≤ f) → ∀ w j k, 0 ≤ c w j k) := by
  choose L hL _ hLs hL0 using fun r => C30_nearest I V wave dz (r * (1 + z)) hW
  have hno : ¬ ∃ m j k, 0 < |sig m j k| := by
    rintro ⟨m, j, k, h⟩; rw [hsig] at h; simp at h
  have hone : ∀ r ∈ rs, oneLine I V sig wave z dz r = .ok fun w j k => .fin (L r w j k) := by
    intro r _
    unfold oneLine
    simp only [if_neg hno, hL]
    rfl
  refine ⟨_, addSigma_wave_fin I V sig wave z dz L rs fs hl.le hone hZ hY hX, ?_, ?_⟩
  · intro j k
    rw [finset_sum_list_sum]
    simp only [← Finset.sum_mul, hLs]
    exact zip_mul_const_sum rs fs _ hl
  · intro hI hdz hf w j k
    apply List.sum_nonneg
    intro x hx
    obtain ⟨p, hp, rfl⟩ := List.mem_map.1 hx
    exact mul_nonneg (hL0 _ hI hdz _ _ _) (hf _ (List.of_mem_zip hp).2)

/-! ## C31 -/

/-- the spectral density of the lines at one sky position -/
noncomputable def lineDensity {nZ nY nX : Nat} (I V sig : Cube nZ nY nX ℝ) (z dz : ℝ)
    (rs fs : List ℝ) (j : Fin nY) (k : Fin nX) (lam : ℝ) : ℝ :=
  ((rs.zip fs).map fun p => (∑ m, I m j k * gaussDensity (p.1 * (1 + z) * (1 + V m j k / cKms))
    (sig m j k / cKms * (p.1 * (1 + z))) lam) * dz * p.2).sum

theorem cKms_pos : (0 : ℝ) < cKms := by unfold cKms; norm_num

theorem addSigma_broad {nW nZ nY nX : Nat} (I V sig : Cube nZ nY nX ℝ) (wave : Fin nW → ℝ)
    (z dz : ℝ) (rs fs : List ℝ) (hl : rs.length ≤ fs.length)
    (hZ : 0 < nZ) (hY : 0 < nY) (hX : 0 < nX) (hsig : ∀ m j k, sig m j k ≠ 0)
    (hz : 1 + z ≠ 0) (hr : ∀ r ∈ rs, r ≠ 0) :
    addSigmaCollapseZ I V sig wave z rs fs dz .wave =
      .ok fun w j k => .fin (lineDensity I V sig z dz rs fs j k (wave w)) := by
  have hyes : ∃ m j k, 0 < |sig m j k| := ⟨⟨0, hZ⟩, ⟨0, hY⟩, ⟨0, hX⟩, abs_pos.2 (hsig _ _ _)⟩
  apply addSigma_wave_fin I V sig wave z dz (fun r w j k => (∑ m, I m j k *
    gaussDensity (r * (1 + z) * (1 + V m j k / cKms)) (sig m j k / cKms * (r * (1 + z)))
      (wave w)) * dz) rs fs hl _ hZ hY hX
  intro r hrm
  unfold oneLine
  simp only [if_pos hyes]
  congr 1
  funext w j k
  rw [broadSum_fin]
  intro m
  exact mul_ne_zero (div_ne_zero (hsig m j k) cKms_pos.ne') (mul_ne_zero (hr r hrm) hz)

/-- C31: with positive dispersion the cube samples, on any wavelength grid, one density per sky
position, whose integral over wavelength is the sum of the flux ratios times the line-of-sight
integral of the intensity. -/
theorem C31_flux {nZ nY nX : Nat} (I V sig : Cube nZ nY nX ℝ) (z dz : ℝ) (rs fs : List ℝ)
    (hl : rs.length = fs.length) (hZ : 0 < nZ) (hY : 0 < nY) (hX : 0 < nX)
    (hsig : ∀ m j k, 0 < sig m j k) (hz : 0 < 1 + z) (hr : ∀ r ∈ rs, 0 < r) :
    ∃ f : Fin nY → Fin nX → ℝ → ℝ,
      (∀ (nW : Nat) (wave : Fin nW → ℝ), addSigmaCollapseZ I V sig wave z rs fs dz .wave =
        .ok fun w j k => .fin (f j k (wave w))) ∧
      ∀ j k, Integrable (f j k) ∧ ∫ lam, f j k lam = fs.sum * ∑ m, I m j k * dz := by
  refine ⟨fun j k lam => lineDensity I V sig z dz rs fs j k lam, fun nW wave =>
    addSigma_broad I V sig wave z dz rs fs hl.le hZ hY hX (fun m j k => (hsig m j k).ne') hz.ne'
      (fun r h => (hr r h).ne'), fun j k => ?_⟩
  have hs : ∀ r ∈ rs, ∀ m, 0 < sig m j k / cKms * (r * (1 + z)) := fun r h m =>
    mul_pos (div_pos (hsig m j k) cKms_pos) (mul_pos (hr r h) hz)
  -- one line
  have hone : ∀ r ∈ rs, ∀ f : ℝ,
      Integrable (fun lam => (∑ m, I m j k * gaussDensity (r * (1 + z) * (1 + V m j k / cKms))
        (sig m j k / cKms * (r * (1 + z))) lam) * dz * f) ∧
      ∫ lam, (∑ m, I m j k * gaussDensity (r * (1 + z) * (1 + V m j k / cKms))
        (sig m j k / cKms * (r * (1 + z))) lam) * dz * f = (∑ m, I m j k * dz) * f := by
    intro r h f
    have hi : ∀ m, Integrable (fun lam => I m j k * gaussDensity (r * (1 + z) * (1 + V m j k / cKms))
        (sig m j k / cKms * (r * (1 + z))) lam) := fun m =>
      (gaussDensity_integrable _ _ (hs r h m).ne').const_mul _
    have hi2 := integrable_finsetSum Finset.univ fun m _ => hi m
    refine ⟨(hi2.mul_const dz).mul_const f, ?_⟩
    rw [integral_mul_const, integral_mul_const, integral_finsetSum _ fun m _ => hi m]
    simp only [integral_const_mul, gaussDensity_integral _ _ (hs r h _), mul_one, Finset.sum_mul]
  -- all lines
  have hall : ∀ (rs' fs' : List ℝ), (∀ r ∈ rs', r ∈ rs) → rs'.length = fs'.length →
      Integrable (fun lam => lineDensity I V sig z dz rs' fs' j k lam) ∧
      ∫ lam, lineDensity I V sig z dz rs' fs' j k lam = fs'.sum * ∑ m, I m j k * dz := by
    intro rs'
    induction rs' with
    | nil =>
      intro fs' _ hlen
      cases fs' with
      | nil => simp [lineDensity]
      | cons f fs' => simp at hlen
    | cons r rs' ih =>
      intro fs' hsub hlen
      cases fs' with
      | nil => simp at hlen
      | cons f fs' =>
        obtain ⟨i1, i2⟩ := ih fs' (fun r h => hsub r (List.mem_cons_of_mem _ h)) (by simpa using hlen)
        obtain ⟨j1, j2⟩ := hone r (hsub r (by simp)) f
        have e : (fun lam => lineDensity I V sig z dz (r :: rs') (f :: fs') j k lam) = fun lam =>
            (∑ m, I m j k * gaussDensity (r * (1 + z) * (1 + V m j k / cKms))
              (sig m j k / cKms * (r * (1 + z))) lam) * dz * f +
            lineDensity I V sig z dz rs' fs' j k lam := by
          funext lam; simp only [lineDensity, List.zip_cons_cons, List.map_cons, List.sum_cons]
        rw [e]
        refine ⟨j1.add i1, ?_⟩
        rw [integral_add j1 i1, j2, i2, List.sum_cons]
        ring
  exact hall rs fs (fun _ h => h) hl

/-- C31: the cube is linear in the intensity. -/
theorem C31_linear {nW nZ nY nX : Nat} (I I' V sig : Cube nZ nY nX ℝ) (wave : Fin nW → ℝ)
    (z dz a b : ℝ) (rs fs : List ℝ) (hl : rs.length ≤ fs.length) (hZ : 0 < nZ) (hY : 0 < nY)
    (hX : 0 < nX) (hsig : ∀ m j k, sig m j k ≠ 0) (hz : 1 + z ≠ 0) (hr : ∀ r ∈ rs, r ≠ 0) :
    ∃ c c' : Fin nW → Fin nY → Fin nX → ℝ,
      addSigmaCollapseZ I V sig wave z rs fs dz .wave = .ok (fun w j k => .fin (c w j k)) ∧
      addSigmaCollapseZ I' V sig wave z rs fs dz .wave = .ok (fun w j k => .fin (c' w j k)) ∧
      addSigmaCollapseZ (fun m j k => a * I m j k + b * I' m j k) V sig wave z rs fs dz .wave =
        .ok (fun w j k => .fin (a * c w j k + b * c' w j k)) := by
  refine ⟨_, _, addSigma_broad I V sig wave z dz rs fs hl hZ hY hX hsig hz hr,
    addSigma_broad I' V sig wave z dz rs fs hl hZ hY hX hsig hz hr, ?_⟩
  rw [addSigma_broad _ V sig wave z dz rs fs hl hZ hY hX hsig hz hr]
  congr 1
  funext w j k
  congr 1
  simp only [lineDensity]
  generalize rs.zip fs = l
  induction l with
  | nil => simp
  | cons p l ih =>
    have hp : ∀ g : Fin nZ → ℝ, ∑ m, (a * I m j k + b * I' m j k) * g m =
        a * ∑ m, I m j k * g m + b * ∑ m, I' m j k * g m := by
      intro g
      rw [Finset.mul_sum, Finset.mul_sum, ← Finset.sum_add_distrib]
      exact Finset.sum_congr rfl fun m _ => by ring
    rw [List.map_cons, List.sum_cons, ih, List.map_cons, List.sum_cons, List.map_cons,
      List.sum_cons, hp]
    ring

/-- C31: lines add: the cube of two line lists together is the sum of the two cubes; repeating no
line changes nothing. -/
theorem C31_additive {nW nZ nY nX : Nat} (I V sig : Cube nZ nY nX ℝ) (wave : Fin nW → ℝ)
    (z dz : ℝ) (rs fs rs' fs' : List ℝ) (hl : rs.length = fs.length) (hl' : rs'.length = fs'.length)
    (hZ : 0 < nZ) (hY : 0 < nY) (hX : 0 < nX) (hsig : ∀ m j k, sig m j k ≠ 0) (hz : 1 + z ≠ 0)
    (hr : ∀ r ∈ rs ++ rs', r ≠ 0) :
    ∃ c c' : Fin nW → Fin nY → Fin nX → ℝ,
      addSigmaCollapseZ I V sig wave z rs fs dz .wave = .ok (fun w j k => .fin (c w j k)) ∧
      addSigmaCollapseZ I V sig wave z rs' fs' dz .wave = .ok (fun w j k => .fin (c' w j k)) ∧
      addSigmaCollapseZ I V sig wave z (rs ++ rs') (fs ++ fs') dz .wave =
        .ok (fun w j k => .fin (c w j k + c' w j k)) := by
  refine ⟨_, _, addSigma_broad I V sig wave z dz rs fs hl.le hZ hY hX hsig hz
      (fun r h => hr r (List.mem_append_left _ h)),
    addSigma_broad I V sig wave z dz rs' fs' hl'.le hZ hY hX hsig hz
      (fun r h => hr r (List.mem_append_right _ h)), ?_⟩
  rw [addSigma_broad I V sig wave z dz _ _ (by simp [hl, hl']) hZ hY hX hsig hz hr]
  congr 1
  funext w j k
  congr 1
  simp only [lineDensity]
  rw [List.zip_append hl, List.map_append, List.sum_append]

/-- C31: non-negative for non-negative intensity, flux ratios and positive dispersion, and
changing the sign of the dispersion changes the sign of the whole cube. -/
theorem C31_sign {nW nZ nY nX : Nat} (I V sig : Cube nZ nY nX ℝ) (wave : Fin nW → ℝ)
    (z dz : ℝ) (rs fs : List ℝ) (hl : rs.length ≤ fs.length) (hZ : 0 < nZ) (hY : 0 < nY)
    (hX : 0 < nX) (hsig : ∀ m j k, 0 < sig m j k) (hz : 0 < 1 + z) (hr : ∀ r ∈ rs, 0 < r) :
    ∃ c : Fin nW → Fin nY → Fin nX → ℝ,
      addSigmaCollapseZ I V sig wave z rs fs dz .wave = .ok (fun w j k => .fin (c w j k)) ∧
      addSigmaCollapseZ I V (fun m j k => -sig m j k) wave z rs fs dz .wave =
        .ok (fun w j k => .fin (-c w j k)) ∧
      ((∀ m j k, 0 ≤ I m j k) → 0 ≤ dz → (∀ f ∈ fs, 0 ≤ f) → ∀ w j k, 0 ≤ c w j k) := by
  refine ⟨_, addSigma_broad I V sig wave z dz rs fs hl hZ hY hX (fun m j k => (hsig m j k).ne') hz.ne'
    (fun r h => (hr r h).ne'), ?_, ?_⟩
  · rw [addSigma_broad I V _ wave z dz rs fs hl hZ hY hX (fun m j k => neg_ne_zero.2 (hsig m j k).ne')
      hz.ne' (fun r h => (hr r h).ne')]
    have hg : ∀ c s lam, gaussDensity c (-s) lam = -gaussDensity c s lam := by
      intro c s lam
      unfold gaussDensity
      rw [neg_sq, neg_mul, one_div, one_div, inv_neg, neg_mul]
    congr 1
    funext w j k
    congr 1
    simp only [lineDensity]
    generalize rs.zip fs = l
    induction l with
    | nil => simp
    | cons p l ih =>
      rw [List.map_cons, List.sum_cons, ih, List.map_cons, List.sum_cons, neg_add, ← neg_mul,
        ← neg_mul, ← Finset.sum_neg_distrib]
      simp only [neg_div, neg_mul, hg, mul_neg]
  · intro hI hdz hf w j k
    apply List.sum_nonneg
    intro x hx
    obtain ⟨p, hp, rfl⟩ := List.mem_map.1 hx
    refine mul_nonneg (mul_nonneg (Finset.sum_nonneg fun m _ => mul_nonneg (hI m j k) ?_) hdz)
      (hf _ (List.of_mem_zip hp).2)
    have : 0 < sig m j k / cKms * (p.1 * (1 + z)) :=
      mul_pos (div_pos (hsig m j k) cKms_pos) (mul_pos (hr _ (List.of_mem_zip hp).1) hz)
    unfold gaussDensity
    positivity

/-- the hypotheses of C31 are met by a one-cell cube with two lines -/
example : ∃ f : Fin 1 → Fin 1 → ℝ → ℝ,
    (∀ (nW : Nat) (wave : Fin nW → ℝ), addSigmaCollapseZ (nZ := 1) (fun _ _ _ => 2) (fun _ _ _ => 10)
      (fun _ _ _ => 50) wave 2 [5008.24, 4960.295] [1, 1 / 3] (1 / 10) .wave =
        .ok fun w j k => .fin (f j k (wave w))) ∧
    ∀ j k, Integrable (f j k) ∧ ∫ lam, f j k lam = ([1, 1 / 3] : List ℝ).sum * ∑ _m : Fin 1, 2 * (1 / 10) :=
  C31_flux _ _ _ _ _ _ _ rfl (by norm_num) (by norm_num) (by norm_num) (fun _ _ _ => by norm_num)
    (by norm_num) (by intro r hr; fin_cases hr <;> norm_num)

/-! ## C56 -/

/-- C56 as stated: velocity-space cubes exist for every dispersion. -/
def VelocityCubeExists {nW nZ nY nX : Nat} (I V sig : Cube nZ nY nX ℝ) (wave : Fin nW → ℝ)
    (z dz : ℝ) (rs fs : List ℝ) : Prop :=
  ∃ c, addSigmaCollapseZ I V sig wave z rs fs dz .velocity = .ok c

/-- C56 is false: without dispersion every non-empty velocity-space model fails with a NameError,
whatever the other inputs. -/
theorem C56_false {nW nZ nY nX : Nat} (I V sig : Cube nZ nY nX ℝ) (wave : Fin nW → ℝ)
    (z dz : ℝ) (rs fs : List ℝ) (hZ : 0 < nZ) (hY : 0 < nY) (hX : 0 < nX)
    (hsig : ∀ m j k, sig m j k = 0) :
    addSigmaCollapseZ I V sig wave z rs fs dz .velocity = .error .nameError ∧
    ¬ VelocityCubeExists I V sig wave z dz rs fs := by
  have hno : ¬ ∃ m j k, 0 < |sig m j k| := by
    rintro ⟨m, j, k, h⟩; rw [hsig] at h; simp at h
  have h : addSigmaCollapseZ I V sig wave z rs fs dz .velocity = .error .nameError := by
    unfold addSigmaCollapseZ
    simp only [if_neg hno]
    rw [if_neg (by omega)]
  refine ⟨h, ?_⟩
  rintro ⟨c, hc⟩
  rw [h] at hc
  exact absurd hc (by simp)

/-- C56, exact condition: the velocity-space cube exists exactly if some cell has a dispersion other than zero; an empty cube is a
ValueError, a cube without dispersion a NameError. -/
theorem C56_exact {nW nZ nY nX : Nat} (I V sig : Cube nZ nY nX ℝ) (wave : Fin nW → ℝ) (z dz : ℝ) (rs fs : List ℝ) :
    (VelocityCubeExists I V sig wave z dz rs fs ↔ ∃ m j k, sig m j k ≠ 0) ∧
    ((nZ = 0 ∨ nY = 0 ∨ nX = 0) → addSigmaCollapseZ I V sig wave z rs fs dz .velocity = .error .valueError) ∧
    (0 < nZ → 0 < nY → 0 < nX → (∀ m j k, sig m j k = 0) →
      addSigmaCollapseZ I V sig wave z rs fs dz .velocity = .error .nameError) := by
  refine ⟨⟨?_, ?_⟩, fun h => ?_, fun h1 h2 h3 h => (C56_false I V sig wave z dz rs fs h1 h2 h3 h).1⟩
  · rintro ⟨c, hc⟩
    by_contra hno
    push Not at hno
    have hno' : ¬ ∃ m j k, 0 < |sig m j k| := by
      rintro ⟨m, j, k, h⟩; rw [hno] at h; simp at h
    unfold addSigmaCollapseZ at hc
    simp only [if_neg hno'] at hc
    split at hc <;> cases hc
  · rintro ⟨m, j, k, h⟩
    have hm := m.isLt
    have hj := j.isLt
    have hk := k.isLt
    unfold VelocityCubeExists addSigmaCollapseZ
    simp only
    rw [if_neg (by omega), if_pos ⟨m, j, k, abs_pos.2 h⟩]
    exact ⟨_, rfl⟩
  · unfold addSigmaCollapseZ
    simp only
    rw [if_pos h]

/-- C56 for positive dispersion: the velocity-space cube samples one density per sky position with
integral equal to the line-of-sight integral of the intensity, and does not depend on the line
list or the redshift.  Missing: zero dispersion. -/
theorem C56_broadened_partial {nZ nY nX : Nat} (I V sig : Cube nZ nY nX ℝ) (dz : ℝ)
    (hZ : 0 < nZ) (hY : 0 < nY) (hX : 0 < nX) (hsig : ∀ m j k, 0 < sig m j k) :
    ∃ f : Fin nY → Fin nX → ℝ → ℝ,
      (∀ (nW : Nat) (wave : Fin nW → ℝ) (z : ℝ) (rs fs : List ℝ),
        addSigmaCollapseZ I V sig wave z rs fs dz .velocity = .ok fun w j k => .fin (f j k (wave w))) ∧
      ∀ j k, Integrable (f j k) ∧ ∫ v, f j k v = ∑ m, I m j k * dz := by
  have hyes : ∃ m j k, 0 < |sig m j k| := ⟨⟨0, hZ⟩, ⟨0, hY⟩, ⟨0, hX⟩, abs_pos.2 (hsig _ _ _).ne'⟩
  refine ⟨fun j k v => (∑ m, I m j k * gaussDensity (V m j k) (sig m j k) v) * dz, ?_, fun j k => ?_⟩
  · intro nW wave z rs fs
    unfold addSigmaCollapseZ
    simp only [if_pos hyes]
    rw [if_neg (by omega)]
    congr 1
    funext w j k
    rw [broadSum_fin _ _ _ _ _ _ _ fun m => (hsig m j k).ne']
    simp
  · have hi : ∀ m, Integrable (fun v => I m j k * gaussDensity (V m j k) (sig m j k) v) := fun m =>
      (gaussDensity_integrable _ _ (hsig m j k).ne').const_mul _
    refine ⟨(integrable_finsetSum Finset.univ fun m _ => hi m).mul_const dz, ?_⟩
    rw [integral_mul_const, integral_finsetSum _ fun m _ => hi m]
    simp only [integral_const_mul, gaussDensity_integral _ _ (hsig _ _ _), mul_one, Finset.sum_mul]

/-- C31, mixed dispersions: if some cell has dispersion but another on the same line of sight has
none, every wavelength of that sky position is NaN. -/
theorem C31_mixed {nW nZ nY nX : Nat} (I V sig : Cube nZ nY nX ℝ) (wave : Fin nW → ℝ)
    (z dz rest : ℝ) (hyes : ∃ m j k, 0 < |sig m j k|) (m0 : Fin nZ) (j : Fin nY) (k : Fin nX)
    (h0 : sig m0 j k = 0) :
    ∃ c, oneLine I V sig wave z dz rest = .ok c ∧ ∀ w, c w j k = .nan := by
  refine ⟨fun w j k => broadSum I (fun m j k => rest * (1 + z) * (1 + V m j k / cKms))
    (fun m j k => sig m j k / cKms * (rest * (1 + z))) dz (wave w) j k,
    by unfold oneLine; simp only [if_pos hyes], fun w => ?_⟩
  unfold broadSum
  have hnan : ∀ a : Fl ℝ, (Fl.nan : Fl ℝ) + a = .nan := by intro a; cases a <;> rfl
  have hnan' : ∀ a : Fl ℝ, a * (Fl.nan : Fl ℝ) = .nan := by intro a; cases a <;> rfl
  beta_reduce
  rw [← Finset.add_sum_erase _ _ (Finset.mem_univ m0)]
  simp only [h0, zero_div, zero_mul]
  have e1 : (Fl.fin 1 / Fl.fin 0 : Fl ℝ) = .pinf := by
    rw [Fl.fin_div, if_pos rfl]; unfold Fl.infTimes; rw [if_neg one_ne_zero, if_pos one_pos]
  have e2 : ∀ x : ℝ, Fl.fin 1 / Fl.fin 0 * Fl.exp (Fl.fin (-x ^ 2) / Fl.fin (2 * (0 : ℝ) ^ 2)) = .nan := by
    intro x
    rw [e1, Fl.fin_div, if_pos (by norm_num)]
    unfold Fl.infTimes
    by_cases hx : x = 0
    · rw [if_pos (by rw [hx]; norm_num)]; rfl
    · have : 0 < x ^ 2 := by positivity
      rw [if_neg (by linarith), if_neg (by linarith)]
      show Fl.infTimes (0 : ℝ) = .nan
      unfold Fl.infTimes; rw [if_pos rfl]
  rw [e2, hnan', hnan]
  rfl

end Misfit
