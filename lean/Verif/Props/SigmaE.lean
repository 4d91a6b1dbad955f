import Verif.Props.Aper1DModel
import Verif.Props.Grid
import Mathlib.MeasureTheory.Integral.IntervalIntegral.FundThmCalculus

/-!
# C159: the effective dispersion; C71: padding of the rotation model
-/

namespace Misfit
open Real

/-- **C71** (rotation model): in both directions the padding on each side is within half a step of the padding factor
times the seeing. -/
theorem C71_rot_pad (nPixels : Nat) (width slit fwhm pad xc yc : ℝ) (hw : 0 < width) (hs : 0 < slit)
    (hn : 0 < nPixels) (hf : 0 ≤ fwhm) (hp : 0 ≤ pad) :
    ∃ G, setupRot nPixels width slit fwhm pad xc yc = .ok G ∧
      |G.padX * G.deltX - fwhm * pad| ≤ G.deltX / 2 ∧ |G.padY * G.deltY - fwhm * pad| ≤ G.deltY / 2 := by
  have hnr : (0 : ℝ) < nPixels := by exact_mod_cast hn
  have hdy : 0 < width / nPixels := div_pos hw hnr
  have hc : 0 < ⌈slit / (width / nPixels)⌉ := Int.ceil_pos.2 (div_pos hs hdy)
  have hnx0 : (⌈slit / (width / nPixels)⌉).toNat ≠ 0 := by omega
  have hnxr : (0 : ℝ) < ((⌈slit / (width / nPixels)⌉).toNat : ℝ) := by
    exact_mod_cast Nat.pos_of_ne_zero hnx0
  have key : ∀ d : ℝ, 0 < d → |(((npRound (fwhm * pad / d)).toNat : ℕ) : ℝ) * d - fwhm * pad| ≤ d / 2 := by
    intro d hd
    have h1 : (((npRound (fwhm * pad / d)).toNat : ℕ) : ℝ) = ((npRound (fwhm * pad / d) : ℤ) : ℝ) := by
      have := Int.toNat_of_nonneg (npRound_nonneg (fwhm * pad / d) (by positivity))
      exact_mod_cast this
    have h2 := npRound_near (fwhm * pad / d)
    rw [h1, show ((npRound (fwhm * pad / d) : ℤ) : ℝ) * d - fwhm * pad =
      (((npRound (fwhm * pad / d) : ℤ) : ℝ) - fwhm * pad / d) * d by field_simp, abs_mul, abs_of_pos hd]
    nlinarith
  obtain ⟨G, hG, -⟩ := C71_rot nPixels width slit fwhm pad xc yc hw hs hn
  refine ⟨G, hG, ?_⟩
  have h1 : G.padX = (npRound (fwhm * pad / G.deltX)).toNat ∧ G.padY = (npRound (fwhm * pad / G.deltY)).toNat ∧
      0 < G.deltX ∧ 0 < G.deltY := by
    rw [setupRot, if_neg (by omega)] at hG
    simp only [if_neg (ne_of_gt hdy), if_neg hnx0] at hG
    cases hG
    exact ⟨rfl, rfl, div_pos hs hnxr, hdy⟩
  rw [h1.1, h1.2.1]
  exact ⟨key _ h1.2.2.1, key _ h1.2.2.2⟩

example : ∃ G, setupRot 10 2 0.7 0.6 0.5 0 0 = .ok G ∧ |G.padX * G.deltX - 0.6 * 0.5| ≤ G.deltX / 2 ∧
    |G.padY * G.deltY - 0.6 * 0.5| ≤ G.deltY / 2 :=
  C71_rot_pad 10 2 0.7 0.6 0.5 0 0 (by norm_num) (by norm_num) (by norm_num) (by norm_num) (by norm_num)

theorem core_cont (re rCore e : ℝ) (hre : 0 < re) (hc : 0 < rCore) :
    ContinuousOn (fun r => ((r + rCore * re) / re) ^ e) (Set.Ici 0) := by
  apply ContinuousOn.rpow_const
  · fun_prop
  · intro r hr
    have hr : 0 ≤ r := hr
    exact Or.inl (by positivity)

theorem intIntegrand_cont (re n Ie rCore : ℝ) (hre : 0 < re) (hc : 0 < rCore) :
    ContinuousOn (intIntegrand re n Ie rCore) (Set.Ici 0) := by
  have h := core_cont re rCore (1 / n) hre hc
  unfold intIntegrand iSersic
  fun_prop

theorem sigsqIntegrand_cont (re n Ie d rCore reMass : ℝ) (hre : 0 < re) (hc : 0 < rCore) (hm : 0 < reMass) :
    ContinuousOn (sigsqIntegrand re n Ie d rCore reMass) (Set.Ici 0) := by
  have h := core_cont re rCore (1 / n) hre hc
  have h' := core_cont reMass rCore d hm hc
  unfold sigsqIntegrand iSersic sigmaProfile
  fun_prop

/-- **C159**: with exact integrals, the effective dispersion inside an outer radius is finite, positive, and between
the smallest and the largest local dispersion inside this radius. -/
theorem C159_between (re n Ie d rCore reMass R : ℝ) (hre : 0 < re) (hm : 0 < reMass) (hc : 0 < rCore) (hI : 0 < Ie)
    (hR : 0 < R) (smin smax : ℝ) (h0 : 0 ≤ smin)
    (hσ : ∀ r, 0 ≤ r → r ≤ R → smin ≤ sigmaProfile r reMass d rCore ∧ sigmaProfile r reMass d rCore ≤ smax) :
    ∃ s, sigmaE (fun f => ∫ r in (0 : ℝ)..R, f r) re n Ie d rCore reMass = .fin s ∧ 0 < s ∧ smin ≤ s ∧ s ≤ smax := by
  have hsub : Set.uIcc 0 R ⊆ Set.Ici (0 : ℝ) := by
    rw [Set.uIcc_of_le hR.le]
    exact fun x hx => hx.1
  have i1 := ((intIntegrand_cont re n Ie rCore hre hc).mono hsub).intervalIntegrable (μ := MeasureTheory.volume)
  have i2 := ((sigsqIntegrand_cont re n Ie d rCore reMass hre hc hm).mono hsub).intervalIntegrable (μ := MeasureTheory.volume)
  have hlight : ∀ r, 0 < r → 0 < intIntegrand re n Ie rCore r := by
    intro r hr
    unfold intIntegrand iSersic
    positivity
  have heq : ∀ r, sigsqIntegrand re n Ie d rCore reMass r =
      sigmaProfile r reMass d rCore ^ 2 * intIntegrand re n Ie rCore r := by
    intro r
    unfold sigsqIntegrand intIntegrand
    ring
  have hL : 0 < ∫ r in (0 : ℝ)..R, intIntegrand re n Ie rCore r :=
    intervalIntegral.intervalIntegral_pos_of_pos_on i1 (fun r hr => hlight r hr.1) hR
  have hS : 0 < ∫ r in (0 : ℝ)..R, sigsqIntegrand re n Ie d rCore reMass r := by
    refine intervalIntegral.intervalIntegral_pos_of_pos_on i2 (fun r hr => ?_) hR
    rw [heq]
    have h1 := hlight r hr.1
    have h2 := sigmaProfile_pos r reMass d rCore hm hc hr.1.le
    positivity
  have hnn : ∀ r ∈ Set.Icc 0 R, 0 ≤ intIntegrand re n Ie rCore r := by
    intro r hr
    rcases hr.1.eq_or_lt with h | h
    · rw [← h]; simp [intIntegrand]
    · exact (hlight r h).le
  have hlo : smin ^ 2 * (∫ r in (0 : ℝ)..R, intIntegrand re n Ie rCore r) ≤
      ∫ r in (0 : ℝ)..R, sigsqIntegrand re n Ie d rCore reMass r := by
    rw [← intervalIntegral.integral_const_mul]
    refine intervalIntegral.integral_mono_on hR.le (i1.const_mul _) i2 fun r hr => ?_
    rw [heq]
    exact mul_le_mul_of_nonneg_right (pow_le_pow_left₀ h0 (hσ r hr.1 hr.2).1 2) (hnn r hr)
  have hup : (∫ r in (0 : ℝ)..R, sigsqIntegrand re n Ie d rCore reMass r) ≤
      smax ^ 2 * ∫ r in (0 : ℝ)..R, intIntegrand re n Ie rCore r := by
    rw [← intervalIntegral.integral_const_mul]
    refine intervalIntegral.integral_mono_on hR.le i2 (i1.const_mul _) fun r hr => ?_
    rw [heq]
    exact mul_le_mul_of_nonneg_right (pow_le_pow_left₀ (h0.trans (hσ r hr.1 hr.2).1) (hσ r hr.1 hr.2).2 2) (hnn r hr)
  have hmax : 0 ≤ smax := (h0.trans (hσ 0 le_rfl hR.le).1).trans (hσ 0 le_rfl hR.le).2
  refine ⟨√((∫ r in (0 : ℝ)..R, sigsqIntegrand re n Ie d rCore reMass r) /
    ∫ r in (0 : ℝ)..R, intIntegrand re n Ie rCore r), ?_, Real.sqrt_pos.2 (div_pos hS hL), ?_, ?_⟩
  · unfold sigmaE
    simp only [Fl.fin_div, if_neg hL.ne']
    show (if _ < (0 : ℝ) then Fl.nan else _) = _
    rw [if_neg (not_lt.2 (div_pos hS hL).le)]
  · exact Real.le_sqrt_of_sq_le ((le_div_iff₀ hL).2 hlo)
  · exact (Real.sqrt_le_left hmax).2 ((div_le_iff₀ hL).2 hup)

/-- **C159**, consequence: inside the radius at which the profile is normalised, a dispersion that falls outwards has
an effective value of at least 1, one that rises outwards a value of at most 1. -/
theorem C159_normalised (re n Ie d rCore reMass R : ℝ) (hre : 0 < re) (hc : 0 < rCore) (hI : 0 < Ie)
    (hR : 0 < R) (hRm : R ≤ reMass) :
    ∃ s, sigmaE (fun f => ∫ r in (0 : ℝ)..R, f r) re n Ie d rCore reMass = .fin s ∧
      (d ≤ 0 → 1 ≤ s) ∧ (0 ≤ d → s ≤ 1) := by
  have hm : 0 < reMass := hR.trans_le hRm
  have h1 := C28_normalised reMass d rCore hm hc.le
  have hpos := fun r (h : 0 ≤ r) => sigmaProfile_pos r reMass d rCore hm hc h
  rcases le_total d 0 with hd | hd
  · obtain ⟨s, hs, -, h2, h3⟩ := C159_between re n Ie d rCore reMass R hre hm hc hI hR 1
      (sigmaProfile 0 reMass d rCore) zero_le_one fun r hr hr' =>
        ⟨h1 ▸ (C28_monotone reMass d rCore r reMass hm hc hr (hr'.trans hRm)).2.1 hd,
          (C28_monotone reMass d rCore 0 r hm hc le_rfl hr).2.1 hd⟩
    refine ⟨s, hs, fun _ => h2, fun h => ?_⟩
    have h4 : sigmaProfile 0 reMass d rCore ≤ 1 :=
      h1 ▸ (C28_monotone reMass d rCore 0 reMass hm hc le_rfl hm.le).2.2.2 h
    exact h3.trans h4
  · obtain ⟨s, hs, -, h2, h3⟩ := C159_between re n Ie d rCore reMass R hre hm hc hI hR
      (sigmaProfile 0 reMass d rCore) 1 (hpos 0 le_rfl).le fun r hr hr' =>
        ⟨(C28_monotone reMass d rCore 0 r hm hc le_rfl hr).2.2.2 hd,
          h1 ▸ (C28_monotone reMass d rCore r reMass hm hc hr (hr'.trans hRm)).2.2.2 hd⟩
    refine ⟨s, hs, fun h => ?_, fun _ => h3⟩
    have h4 : 1 ≤ sigmaProfile 0 reMass d rCore :=
      h1 ▸ (C28_monotone reMass d rCore 0 reMass hm hc le_rfl hm.le).2.1 h
    exact h4.trans h2

/-- the default slope and core -/
example : ∃ s, sigmaE (fun f => ∫ r in (0 : ℝ)..0.4, f r) 0.4 1 1 (-0.089) (1 / 300) 0.5 = .fin s ∧ 1 ≤ s := by
  obtain ⟨s, h, h1, -⟩ := C159_normalised 0.4 1 1 (-0.089) (1 / 300) 0.5 0.4 (by norm_num) (by norm_num) (by norm_num)
    (by norm_num) (by norm_num)
  exact ⟨s, h, h1 (by norm_num)⟩

end Misfit
