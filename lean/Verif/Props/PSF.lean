import Verif.Model.PSF
import Verif.Lemmas.Convolve

/-!
# C49: PSF stamps
-/

namespace Misfit
open Real

/-- What a symmetric single-peaked PSF of the given FWHM satisfies. -/
def GoodPSF (f : ℝ → ℝ → ℝ) (fwhm : ℝ) : Prop :=
  (∀ x y, 0 < f x y) ∧
  (∀ x y, f (-x) y = f x y ∧ f x (-y) = f x y) ∧
  (∀ x y, f x y ≤ f 0 0) ∧
  (∀ x y x' y', x ^ 2 + y ^ 2 < x' ^ 2 + y' ^ 2 → f x' y' < f x y) ∧
  (∀ x y, x ^ 2 + y ^ 2 = (fwhm / 2) ^ 2 → f x y = f 0 0 / 2)

theorem goodPSF_of_radial (f : ℝ → ℝ → ℝ) (fwhm : ℝ) (g : ℝ → ℝ) (hf : ∀ x y, f x y = g (x ^ 2 + y ^ 2))
    (hpos : ∀ t, 0 ≤ t → 0 < g t) (hanti : ∀ t t', 0 ≤ t → t < t' → g t' < g t)
    (hhalf : g ((fwhm / 2) ^ 2) = g 0 / 2) : GoodPSF f fwhm := by
  refine ⟨fun x y => ?_, fun x y => ?_, fun x y => ?_, fun x y x' y' h => ?_, fun x y h => ?_⟩
  · rw [hf]; exact hpos _ (by positivity)
  · simp only [hf, neg_sq, and_self]
  · rw [hf, hf]
    have h0 : 0 ≤ x ^ 2 + y ^ 2 := by positivity
    rcases h0.eq_or_lt with h | h
    · rw [← h]; norm_num
    · norm_num; exact (hanti 0 _ le_rfl h).le
  · rw [hf, hf]; exact hanti _ _ (by positivity) h
  · rw [hf, hf, h, hhalf]; norm_num

theorem gauss_good (fwhm : ℝ) (h : 0 < fwhm) : GoodPSF (gaussStampAt fwhm) fwhm := by
  have hl : 0 < log 2 := Real.log_pos (by norm_num)
  have hs : 0 < fwhm / (2 * sqrt (2 * log 2)) := by positivity
  refine goodPSF_of_radial _ _ (fun t => exp (-t / (2 * (fwhm / (2 * sqrt (2 * log 2))) ^ 2)))
    (fun x y => rfl) (fun _ _ => exp_pos _) (fun t t' _ h => ?_) ?_
  · rw [exp_lt_exp, div_lt_div_iff_of_pos_right (by positivity)]; linarith
  · simp only [neg_zero, zero_div, exp_zero]
    have e : -(fwhm / 2) ^ 2 / (2 * (fwhm / (2 * sqrt (2 * log 2))) ^ 2) = -log 2 := by
      rw [div_pow fwhm (2 * sqrt (2 * log 2)), mul_pow, Real.sq_sqrt (by positivity)]
      field_simp
    rw [e, exp_neg, Real.exp_log (by norm_num)]; norm_num

theorem moffat_alpha_pos (fwhm beta : ℝ) (h : 0 < fwhm) (hb : 0 < beta) :
    0 < fwhm / (2 * sqrt ((2 : ℝ) ^ (1 / beta) - 1)) := by
  have : (1 : ℝ) < 2 ^ (1 / beta) := Real.one_lt_rpow (by norm_num) (by positivity)
  have : 0 < (2 : ℝ) ^ (1 / beta) - 1 := by linarith
  positivity

theorem moffat_good (fwhm beta : ℝ) (h : 0 < fwhm) (hb : 1 < beta) :
    GoodPSF (moffatStampAt (fwhm / (2 * sqrt ((2 : ℝ) ^ (1 / beta) - 1))) beta) fwhm := by
  have hb0 : 0 < beta := by linarith
  have ha := moffat_alpha_pos fwhm beta h hb0
  have h1 : (1 : ℝ) < 2 ^ (1 / beta) := Real.one_lt_rpow (by norm_num) (by positivity)
  have h2 : 0 < (2 : ℝ) ^ (1 / beta) - 1 := by linarith
  have hsq : (fwhm / 2) ^ 2 / (fwhm / (2 * sqrt ((2 : ℝ) ^ (1 / beta) - 1))) ^ 2 =
      2 ^ (1 / beta) - 1 := by
    rw [div_pow fwhm (2 * _), mul_pow, Real.sq_sqrt h2.le]
    field_simp
  generalize fwhm / (2 * sqrt ((2 : ℝ) ^ (1 / beta) - 1)) = α at *
  have hk : 0 < (beta - 1) / (π * α ^ 2) := by
    have := Real.pi_pos
    have : 0 < beta - 1 := by linarith
    positivity
  refine goodPSF_of_radial _ _ (fun t => (beta - 1) / (π * α ^ 2) * (1 + t / α ^ 2) ^ (-beta))
    (fun x y => rfl) (fun t ht => ?_) (fun t t' ht h => ?_) ?_
  · have : 0 < 1 + t / α ^ 2 := by positivity
    exact mul_pos hk (rpow_pos_of_pos this _)
  · refine mul_lt_mul_of_pos_left (rpow_lt_rpow_of_neg (by positivity) ?_ (by linarith)) hk
    have := (div_lt_div_iff_of_pos_right (by positivity : 0 < α ^ 2)).2 h
    linarith
  · simp only [hsq, zero_div, add_zero, one_rpow]
    have : 1 + ((2 : ℝ) ^ (1 / beta) - 1) = 2 ^ (1 / beta) := by ring
    rw [this, ← rpow_mul (by norm_num)]
    have : 1 / beta * -beta = -1 := by field_simp
    rw [this, rpow_neg_one]; ring

/-- C49: without dither images both PSFs are positive, symmetric, peak at the origin, decrease with
distance and fall to half of the maximum at FWHM/2.  For Moffat, `beta > 1` is needed. -/
theorem C49_shape_partial (p : PSF) (h : 0 < p.fwhm) (hd : p.dither = none)
    (hb : p.kind = .moffat → 1 < p.beta) : GoodPSF p.stampAt p.fwhm := by
  obtain ⟨kind, fwhm, beta, dither⟩ := p
  simp only at h hd hb
  subst hd
  cases kind with
  | gaussian => exact gauss_good fwhm h
  | moffat => exact moffat_good fwhm beta h (hb rfl)

/-- C49 is false for every `beta`: with `beta = 1` the Moffat stamp is identically zero, below 1 it
is negative. -/
theorem C49_false_beta (fwhm : ℝ) (h : 0 < fwhm) :
    (∀ x y, PSF.stampAt ⟨.moffat, fwhm, 1, none⟩ x y = 0) ∧
    (∀ beta x y, 0 < beta → beta < 1 → PSF.stampAt ⟨.moffat, fwhm, beta, none⟩ x y < 0) := by
  constructor
  · intro x y; simp [PSF.stampAt, withDither, moffatStampAt]
  · intro beta x y hb hb1
    have ha := moffat_alpha_pos fwhm beta h hb
    simp only [PSF.stampAt, withDither, moffatStampAt]
    generalize fwhm / (2 * sqrt ((2 : ℝ) ^ (1 / beta) - 1)) = α at *
    have hpi := Real.pi_pos
    have h1 : (beta - 1) / (π * α ^ 2) < 0 := div_neg_of_neg_of_pos (by linarith) (by positivity)
    have h2 : 0 < (1 + (x ^ 2 + y ^ 2) / α ^ 2) ^ (-beta) := rpow_pos_of_pos (by positivity) _
    exact mul_neg_of_neg_of_pos h1 h2

/-- C49, exactly, for stamps without dither images (a Moffat stamp never has any): the stamp has the shape described if
and only if it is a Gaussian or a Moffat with `beta > 1`. -/
theorem C49_exact (p : PSF) (h : 0 < p.fwhm) (hd : p.dither = none ∨ p.kind = .moffat) (hb : 0 < p.beta) :
    GoodPSF p.stampAt p.fwhm ↔ p.kind = .gaussian ∨ 1 < p.beta := by
  obtain ⟨kind, fwhm, beta, dither⟩ := p
  simp only at h hd hb
  cases kind with
  | gaussian =>
    obtain rfl := hd.resolve_right (by simp)
    exact ⟨fun _ => .inl rfl, fun _ => gauss_good fwhm h⟩
  | moffat =>
    have e : PSF.stampAt ⟨.moffat, fwhm, beta, dither⟩ = PSF.stampAt ⟨.moffat, fwhm, beta, none⟩ := rfl
    rw [e]
    refine ⟨fun hg => .inr ?_, fun h1 => moffat_good fwhm beta h (h1.resolve_left (by simp))⟩
    show 1 < beta
    by_contra hn
    have h0 := hg.1 0 0
    rcases lt_or_eq_of_le (not_lt.1 hn) with hlt | rfl
    · exact absurd ((C49_false_beta fwhm h).2 beta 0 0 hb hlt) (not_lt.2 h0.le)
    · exact h0.ne' ((C49_false_beta fwhm h).1 0 0)

/-- C49: a Gaussian with dither separation `s` is the undithered one minus half of its copies at
`±s`. -/
theorem C49_dither_gauss (fwhm beta s x y : ℝ) :
    PSF.stampAt ⟨.gaussian, fwhm, beta, some s⟩ x y =
      PSF.stampAt ⟨.gaussian, fwhm, beta, none⟩ x y -
        (PSF.stampAt ⟨.gaussian, fwhm, beta, none⟩ x (y - s) +
          PSF.stampAt ⟨.gaussian, fwhm, beta, none⟩ x (y - -s)) / 2 := by
  simp only [PSF.stampAt, withDither, sub_neg_eq_add]
  ring

/-- C49 as stated for the dither images of a PSF class -/
def HasNegativeImages (kind : PSFKind) : Prop :=
  ∀ fwhm beta s x y, 0 < fwhm → 1 < beta →
    PSF.stampAt ⟨kind, fwhm, beta, some s⟩ x y =
      PSF.stampAt ⟨kind, fwhm, beta, none⟩ x y -
        (PSF.stampAt ⟨kind, fwhm, beta, none⟩ x (y - s) +
          PSF.stampAt ⟨kind, fwhm, beta, none⟩ x (y - -s)) / 2

/-- C49 is false for the Moffat class: the separation is ignored, so the stamp has no negative
images. -/
theorem C49_false_dither : ¬ HasNegativeImages .moffat ∧
    ∀ fwhm beta s x y, PSF.stampAt ⟨.moffat, fwhm, beta, some s⟩ x y =
      PSF.stampAt ⟨.moffat, fwhm, beta, none⟩ x y := by
  refine ⟨fun h => ?_, fun _ _ _ _ _ => rfl⟩
  have h1 := h 1 2 1 0 0 one_pos (by norm_num)
  have hp := (C49_shape_partial ⟨.moffat, 1, 2, none⟩ one_pos rfl (fun _ => by norm_num)).1
  have e : PSF.stampAt ⟨.moffat, 1, 2, some 1⟩ 0 0 = PSF.stampAt ⟨.moffat, 1, 2, none⟩ 0 0 := rfl
  rw [e] at h1
  have a := hp 0 (0 - 1)
  have b := hp 0 (0 - -1)
  have c : ∀ u v w : ℝ, 0 < v → 0 < w → u = u - (v + w) / 2 → False := fun u v w hv hw h => by
    linarith
  exact c _ _ _ a b h1

/-- C49: the class is chosen by the trimmed, case-insensitive name; every unknown name means
Gaussian, a missing name is an error. -/
theorem C49_dispatch : psfKind none = .error .keyError ∧
    psfKind (some " Moffat ".toList) = .ok .moffat ∧
    psfKind (some "GAUSSIAN".toList) = .ok .gaussian ∧
    (∀ s k, psfKind (some s) = .ok k → k = .moffat →
      ((s.dropWhile (· == ' ')).reverse.dropWhile (· == ' ')).reverse.map Char.toLower =
        "moffat".toList) ∧
    ∀ s, ∃ k, psfKind (some s) = .ok k := by
  refine ⟨rfl, by decide +kernel, by decide +kernel, ?_, ?_⟩
  · intro s k h hk
    subst hk
    unfold psfKind at h
    simp only at h
    split at h
    · cases h
    · split at h
      · assumption
      · cases h
  · intro s
    unfold psfKind
    simp only
    split
    · exact ⟨_, rfl⟩
    · split <;> exact ⟨_, rfl⟩

/-- the stamp has one row per `y` and one column per `x` -/
theorem C49_orientation (p : PSF) (xs ys : List ℝ) (j : Fin ys.length) (i : Fin xs.length) :
    p.stamp xs ys j i = p.stampAt xs[i] ys[j] := rfl

example : GoodPSF (PSF.stampAt ⟨.moffat, 0.6, 2.5, none⟩) 0.6 :=
  C49_shape_partial _ (by norm_num) rfl (fun _ => by norm_num)

end Misfit
