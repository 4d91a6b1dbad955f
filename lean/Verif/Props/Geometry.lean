import Verif.Model.Geometry
import Verif.Lemmas.Chisq
import Mathlib.Tactic.Linarith
import Mathlib.Tactic.FieldSimp
import Mathlib.Tactic.LinearCombination

/-!
# C22–C25: geometry
-/

namespace Misfit
open Real

/-! ## C22 -/

/-- squared distance of two points -/
def dist2 (p q : ℝ × ℝ × ℝ) : ℝ :=
  (p.1 - q.1) ^ 2 + (p.2.1 - q.2.1) ^ 2 + (p.2.2 - q.2.2) ^ 2

/-- C22: distances are preserved. -/
theorem C22_isometry (x y z x' y' z' d i : ℝ) :
    dist2 (transformInt3d x y z d i) (transformInt3d x' y' z' d i) =
      dist2 (x, y, z) (x', y', z') := by
  have h1 := sin_sq_add_cos_sq (rad d)
  have h2 := sin_sq_add_cos_sq i
  simp only [dist2, transformInt3d]
  set s := sin (rad d); set c := cos (rad d); set si := sin i; set ci := cos i
  have e1 : (ci * (x * c + y * s) + si * z - (ci * (x' * c + y' * s) + si * z')) ^ 2 +
      (-x * s + y * c - (-x' * s + y' * c)) ^ 2 +
      (-si * (x * c + y * s) + ci * z - (-si * (x' * c + y' * s) + ci * z')) ^ 2 =
      (si ^ 2 + ci ^ 2) * ((x - x') * c + (y - y') * s) ^ 2 + (si ^ 2 + ci ^ 2) * (z - z') ^ 2 +
        (-(x - x') * s + (y - y') * c) ^ 2 := by ring
  rw [e1, h2]
  linear_combination ((x - x') ^ 2 + (y - y') ^ 2) * h1

/-- C22: the transform is a bijection of space. -/
theorem C22_bijective (d i : ℝ) :
    Function.Bijective fun p : ℝ × ℝ × ℝ => transformInt3d p.1 p.2.1 p.2.2 d i := by
  have h1 := sin_sq_add_cos_sq (rad d)
  have h2 := sin_sq_add_cos_sq i
  constructor
  · rintro ⟨x, y, z⟩ ⟨x', y', z'⟩ h
    have hd := C22_isometry x y z x' y' z' d i
    simp only at h
    rw [h] at hd
    simp only [dist2, sub_self] at hd
    have e1 : (x - x') ^ 2 = 0 := by nlinarith [sq_nonneg (x - x'), sq_nonneg (y - y'), sq_nonneg (z - z')]
    have e2 : (y - y') ^ 2 = 0 := by nlinarith [sq_nonneg (x - x'), sq_nonneg (y - y'), sq_nonneg (z - z')]
    have e3 : (z - z') ^ 2 = 0 := by nlinarith [sq_nonneg (x - x'), sq_nonneg (y - y'), sq_nonneg (z - z')]
    have f1 := sub_eq_zero.1 (pow_eq_zero_iff (two_ne_zero)|>.1 e1)
    have f2 := sub_eq_zero.1 (pow_eq_zero_iff (two_ne_zero)|>.1 e2)
    have f3 := sub_eq_zero.1 (pow_eq_zero_iff (two_ne_zero)|>.1 e3)
    rw [f1, f2, f3]
  · rintro ⟨u, v, w⟩
    -- rotate back about the major axis, then about the line of sight
    refine ⟨((cos i * u - sin i * w) * cos (rad d) - v * sin (rad d),
      (cos i * u - sin i * w) * sin (rad d) + v * cos (rad d), sin i * u + cos i * w), ?_⟩
    simp only [transformInt3d, Prod.mk.injEq]
    set s := sin (rad d); set c := cos (rad d); set si := sin i; set ci := cos i
    refine ⟨?_, ?_, ?_⟩
    · linear_combination ci * (ci * u - si * w) * h1 + u * h2
    · linear_combination v * h1
    · linear_combination -si * (ci * u - si * w) * h1 + w * h2

/-- C22: what the transform means.  It is linear; the sky direction at position angle `d`
(counter-clockwise from up) becomes the intrinsic major axis whatever the inclination; the line
of sight becomes the direction inclined by `i` to the disc normal; the sky direction
perpendicular to the major axis is foreshortened by `cos i`; with `d = 0`, `i = 0` nothing
changes. -/
theorem C22_axes (d i : ℝ) :
    transformInt3d (-sin (rad d)) (cos (rad d)) 0 d i = (0, 1, 0) ∧
    transformInt3d 0 0 1 d i = (sin i, 0, cos i) ∧
    transformInt3d (cos (rad d)) (sin (rad d)) 0 d i = (cos i, 0, -sin i) ∧
    (∀ x y z, transformInt3d x y z 0 0 = (x, y, z)) ∧
    (∀ a b x y z x' y' z', transformInt3d (a * x + b * x') (a * y + b * y') (a * z + b * z') d i =
      (a * (transformInt3d x y z d i).1 + b * (transformInt3d x' y' z' d i).1,
       a * (transformInt3d x y z d i).2.1 + b * (transformInt3d x' y' z' d i).2.1,
       a * (transformInt3d x y z d i).2.2 + b * (transformInt3d x' y' z' d i).2.2)) := by
  have h1 := sin_sq_add_cos_sq (rad d)
  simp only [transformInt3d, Prod.mk.injEq]
  refine ⟨⟨by ring, by linear_combination h1, by ring⟩, ⟨by ring, by ring, by ring⟩,
    ⟨by linear_combination cos i * h1, by ring, by linear_combination -sin i * h1⟩, ?_, ?_⟩
  · intro x y z; simp [rad]
  · intro a b x y z x' y' z'; refine ⟨by ring, by ring, by ring⟩

/-! ## C23 -/

/-- C23: the inclination of an axis ratio is well defined and in [0,1]. -/
theorem C23_range (q q0 : ℝ) (h0 : 0 ≤ q0) (h1 : q0 < 1) (hq : q ≤ 1) :
    ∃ s, sinI q q0 = .ok (.fin s) ∧ 0 ≤ s ∧ s ≤ 1 ∧ (q ≤ q0 → s = 1) ∧ (q = 1 → s = 0) ∧
      (q0 < q → q < 1 → 0 < s ∧ s < 1) := by
  have hpos : 0 < 1 - q0 ^ 2 := by nlinarith
  unfold sinI
  by_cases hlt : q < q0
  · rw [if_pos hlt]
    exact ⟨1, rfl, zero_le_one, le_rfl, fun _ => rfl, fun h => by linarith, fun h _ => by linarith⟩
  · have hle := not_lt.1 hlt
    have hnn : 0 ≤ 1 - q ^ 2 := by nlinarith
    have hd : 0 ≤ (1 - q ^ 2) / (1 - q0 ^ 2) := div_nonneg hnn hpos.le
    rw [if_neg hlt, if_neg hpos.ne']
    refine ⟨Real.sqrt ((1 - q ^ 2) / (1 - q0 ^ 2)), ?_, Real.sqrt_nonneg _, ?_, ?_, ?_, ?_⟩
    · simp only [Fl.sqrt, if_neg (not_lt.2 hd)]
    · rw [Real.sqrt_le_one, div_le_one hpos]; nlinarith
    · intro h
      have : q = q0 := le_antisymm h hle
      rw [this, div_self hpos.ne', Real.sqrt_one]
    · intro h; rw [h]; norm_num
    · intro hlt1 hlt2
      refine ⟨Real.sqrt_pos.2 (div_pos (by nlinarith) hpos), ?_⟩
      rw [Real.sqrt_lt' one_pos, one_pow, div_lt_one hpos]
      nlinarith

/-- C23: thicker projection, smaller inclination. -/
theorem C23_antitone (q q' q0 s s' : ℝ) (h0 : 0 ≤ q0) (h1 : q0 < 1) (hqq : q ≤ q') (hq : q' ≤ 1)
    (hs : sinI q q0 = .ok (.fin s)) (hs' : sinI q' q0 = .ok (.fin s')) : s' ≤ s := by
  have hpos : 0 < 1 - q0 ^ 2 := by nlinarith
  by_cases hlt : q < q0
  · obtain ⟨t, ht, _, ht1, _⟩ := C23_range q' q0 h0 h1 hq
    rw [hs'] at ht
    simp only [Except.ok.injEq, Fl.fin.injEq] at ht
    have hs1 : s = 1 := by
      unfold sinI at hs; rw [if_pos hlt] at hs
      simpa [eq_comm] using hs
    rw [hs1, ht]; exact ht1
  · have hle := not_lt.1 hlt
    have hnn : ∀ t, q0 ≤ t → t ≤ 1 → ¬ (1 - t ^ 2) / (1 - q0 ^ 2) < 0 := fun t a b =>
      not_lt.2 (div_nonneg (by nlinarith) hpos.le)
    unfold sinI at hs hs'
    rw [if_neg hlt, if_neg hpos.ne'] at hs
    rw [if_neg (not_lt.2 (hle.trans hqq)), if_neg hpos.ne'] at hs'
    simp only [Fl.sqrt, if_neg (hnn q hle (hqq.trans hq)), Except.ok.injEq, Fl.fin.injEq] at hs
    simp only [Fl.sqrt, if_neg (hnn q' (hle.trans hqq) hq), Except.ok.injEq, Fl.fin.injEq] at hs'
    rw [← hs, ← hs']
    apply Real.sqrt_le_sqrt
    apply div_le_div_of_nonneg_right _ hpos.le
    nlinarith

/-- C23: agreement with the inclination angle helper for `q0 ≤ q ≤ 1`; for thinner galaxies the
helper has no value (NaN) whereas the sine is 1. -/
theorem C23_agrees (q q0 : ℝ) (h0 : 0 ≤ q0) (h1 : q0 < 1) :
    (q0 ≤ q → q ≤ 1 → ∃ i, inclinationAngle q q0 = .fin i ∧ sinI q q0 = .ok (.fin (sin i)) ∧
      0 ≤ i ∧ i ≤ π / 2) ∧
    (0 ≤ q → q < q0 → inclinationAngle q q0 = .nan ∧ sinI q q0 = .ok 1) := by
  have hpos : 0 < 1 - q0 ^ 2 := by nlinarith
  constructor
  · intro hle hq
    have hnn : 0 ≤ (q ^ 2 - q0 ^ 2) / (1 - q0 ^ 2) := div_nonneg (by nlinarith) hpos.le
    have hle1 : (q ^ 2 - q0 ^ 2) / (1 - q0 ^ 2) ≤ 1 := by rw [div_le_one hpos]; nlinarith
    have hs1 : Real.sqrt ((q ^ 2 - q0 ^ 2) / (1 - q0 ^ 2)) ≤ 1 := Real.sqrt_le_one.2 hle1
    have hs0 := Real.sqrt_nonneg ((q ^ 2 - q0 ^ 2) / (1 - q0 ^ 2))
    refine ⟨arccos (Real.sqrt ((q ^ 2 - q0 ^ 2) / (1 - q0 ^ 2))), ?_, ?_, arccos_nonneg _, ?_⟩
    · unfold inclinationAngle
      rw [Fl.fin_div_ne _ _ hpos.ne']
      simp only [Fl.sqrt, if_neg (not_lt.2 hnn), Fl.arccos]
      rw [if_pos ⟨by linarith, hs1⟩]
    · unfold sinI
      rw [if_neg (not_lt.2 hle), if_neg hpos.ne', sin_arccos, Real.sq_sqrt hnn]
      have : 1 - (q ^ 2 - q0 ^ 2) / (1 - q0 ^ 2) = (1 - q ^ 2) / (1 - q0 ^ 2) := by
        field_simp; ring
      rw [this]
      simp only [Fl.sqrt]
      rw [if_neg (not_lt.2 (div_nonneg (by nlinarith) hpos.le))]
    · rw [arccos_le_pi_div_two]; exact hs0
  · intro hq hlt
    have hneg : (q ^ 2 - q0 ^ 2) / (1 - q0 ^ 2) < 0 := div_neg_of_neg_of_pos (by nlinarith) hpos
    refine ⟨?_, by unfold sinI; rw [if_pos hlt]⟩
    unfold inclinationAngle
    rw [Fl.fin_div_ne _ _ hpos.ne']
    simp only [Fl.sqrt, if_pos hneg, Fl.arccos]

/-- axis ratios above 1 give NaN, thickness 1 an exception -/
theorem C23_outside (q q0 : ℝ) :
    (0 ≤ q0 → q0 < 1 → 1 < q → sinI q q0 = .ok .nan) ∧
    (1 ≤ q → sinI q 1 = .error .zeroDivisionError) := by
  constructor
  · intro h0 h1 hq
    have hpos : 0 < 1 - q0 ^ 2 := by nlinarith
    unfold sinI
    rw [if_neg (by linarith), if_neg hpos.ne']
    simp only [Fl.sqrt]
    rw [if_pos (div_neg_of_neg_of_pos (by nlinarith) hpos)]
  · intro hq
    unfold sinI
    rw [if_neg (not_lt.2 hq), if_pos (by norm_num)]

example : sinI (3 / 5) 0 = .ok (.fin (4 / 5)) := by
  unfold sinI
  rw [if_neg (by norm_num), if_neg (by norm_num)]
  simp only [Fl.sqrt]
  rw [if_neg (by norm_num)]
  congr 2
  rw [Real.sqrt_eq_iff_mul_self_eq (by norm_num) (by norm_num)]
  norm_num

/-! ## C24 -/

/-- C24: the stored misalignment is the difference of the angles modulo 180 degrees, in the open
interval from -90 to 90. -/
theorem C24_normalised (g : SlitAngles) (hg : g.generateModel = false)
    (hcos : cos ((g.sersicPA - (g.slitPA - g.imgPA)) * π / 180) ≠ 0) :
    ∃ g' d, calcSlitOffsetAngles g = .ok g' ∧ g'.deltPA = some d ∧ g'.deltPAabs = some |d| ∧
      -90 < d ∧ d < 90 ∧ ∃ k : ℤ, d = g.sersicPA - (g.slitPA - g.imgPA) - k * 180 := by
  set D := g.sersicPA - (g.slitPA - g.imgPA) with hD
  have hpi := Real.pi_pos
  refine ⟨_, arctan (tan (D * π / 180)) * 180 / π, by simp only [calcSlitOffsetAngles, hg]; rfl,
    rfl, rfl, ?_, ?_, ?_⟩
  · rw [lt_div_iff₀ hpi]; have := neg_pi_div_two_lt_arctan (tan (D * π / 180)); linarith
  · rw [div_lt_iff₀ hpi]; have := arctan_lt_pi_div_two (tan (D * π / 180)); linarith
  · have hc' : cos (arctan (tan (D * π / 180))) ≠ 0 := (cos_arctan_pos _).ne'
    have ht : tan (arctan (tan (D * π / 180))) = tan (D * π / 180) := tan_arctan _
    -- equal tangents: the sine of the difference vanishes
    generalize arctan (tan (D * π / 180)) = A at hc' ht ⊢
    have hs : sin (D * π / 180 - A) = 0 := by
      rw [sin_sub]
      rw [tan_eq_sin_div_cos, tan_eq_sin_div_cos, div_eq_div_iff hc' hcos] at ht
      linarith
    obtain ⟨k, hk⟩ := sin_eq_zero_iff.1 hs
    refine ⟨k, ?_⟩
    have : A = D * π / 180 - k * π := by linarith
    rw [this]
    field_simp

/-- C24: when only generating a model the misalignment is kept and must be set. -/
theorem C24_generate (g : SlitAngles) (hg : g.generateModel = true) :
    (∀ d, g.deltPA = some d →
      calcSlitOffsetAngles g = .ok { g with deltPAabs := some |d| }) ∧
    (g.deltPA = none → calcSlitOffsetAngles g = .error .typeError) := by
  constructor
  · intro d hd; simp [calcSlitOffsetAngles, hg, hd]
  · intro hd; simp [calcSlitOffsetAngles, hg, hd]

example : cos (((100 : ℝ) - (0 - 0)) * π / 180) ≠ 0 := by
  have h : (100 - (0 - 0)) * π / 180 = π / 2 + π / 18 := by ring
  rw [h, cos_add, cos_pi_div_two, sin_pi_div_two]
  have : 0 < sin (π / 18) := sin_pos_of_pos_of_lt_pi (by positivity) (by linarith [Real.pi_pos])
  intro h0; linarith

/-! ## C25 -/

/-- C25: the in-slit projection is at most the unclipped one, which is at most the radius, and
the clipped point lies on the slit edge. -/
theorem C25_inslit (re d w : ℝ) (hw : 0 ≤ w) :
    ∃ y, yProjMajorInslit re d w = .fin y ∧ 0 ≤ y ∧ y ≤ yProjMajor re d ∧ yProjMajor re d ≤ |re| ∧
      (xProjMajor re d ≤ w / 2 → y = yProjMajor re d) ∧
      (w / 2 < xProjMajor re d → y * |sin (rad d)| = w / 2 * |cos (rad d)|) := by
  have hle : yProjMajor re d ≤ |re| := by
    unfold yProjMajor
    rw [abs_mul]
    have := abs_cos_le_one (rad d)
    nlinarith [abs_nonneg re]
  unfold yProjMajorInslit
  simp only
  by_cases h : |re * sin (rad d)| ≤ 1 / 2 * w
  · rw [if_pos h]
    refine ⟨_, rfl, abs_nonneg _, le_rfl, hle, fun _ => rfl, fun h' => ?_⟩
    unfold xProjMajor at h'; linarith
  · rw [if_neg h]
    have hs : sin (rad d) ≠ 0 := by
      intro h0; rw [h0] at h; simp at h; linarith
    have hs' := abs_pos.2 hs
    have habs : ∀ x : ℝ, Fl.abs (Fl.fin x) = Fl.fin |x| := by
      intro x; simp only [Fl.abs]; split
      · rw [abs_of_neg (by assumption)]
      · rw [abs_of_nonneg (by linarith)]
    rw [Fl.fin_div_ne _ _ hs, habs, Fl.fin_mul, habs]
    have e : |(|1 / 2 * w / sin (rad d)| * cos (rad d))| = w / 2 / |sin (rad d)| * |cos (rad d)| := by
      rw [abs_mul, abs_abs, abs_div, abs_of_nonneg (by linarith : 0 ≤ 1 / 2 * w)]
      ring
    rw [e]
    refine ⟨_, rfl, by positivity, ?_, hle, fun h' => ?_, fun _ => ?_⟩
    · unfold yProjMajor
      rw [abs_mul]
      apply mul_le_mul_of_nonneg_right _ (abs_nonneg _)
      rw [div_le_iff₀ hs', ← abs_mul]
      linarith
    · unfold xProjMajor at h'; exact absurd (by linarith) h
    · field_simp

/-- C25: deprojecting the projected radius gives the radius back. -/
theorem C25_unproject (re d : ℝ) (hc : cos (rad d) ≠ 0) :
    rUnprojMajor (yProjMajor re d) d = .fin |re| := by
  unfold rUnprojMajor yProjMajor
  rw [Fl.fin_div_ne _ _ hc]
  have habs : ∀ x : ℝ, Fl.abs (Fl.fin x) = Fl.fin |x| := by
    intro x; simp only [Fl.abs]; split
    · rw [abs_of_neg (by assumption)]
    · rw [abs_of_nonneg (by linarith)]
  rw [habs, abs_div, abs_abs, abs_mul, mul_div_assoc, div_self (abs_pos.2 hc).ne', mul_one]

/-- the physical projection is the distance at which the ray hits the ellipse -/
theorem phys_bounds (re q c s : ℝ) (hre : 0 ≤ re) (hq : 0 < q) (hq1 : q ≤ 1)
    (h : s ^ 2 + c ^ 2 = 1) :
    ∃ y, Fl.fin (q * re) / Fl.fin (Real.sqrt ((q * c) ^ 2 + s ^ 2)) = .fin y ∧ q * re ≤ y ∧ y ≤ re ∧
      (y * c / re) ^ 2 * q ^ 2 + (y * s / re) ^ 2 = (if re = 0 then 0 else q ^ 2) := by
  have hq2 : q ^ 2 ≤ 1 := by nlinarith
  have hrad : q ^ 2 ≤ (q * c) ^ 2 + s ^ 2 := by nlinarith [sq_nonneg s, sq_nonneg c]
  have hrad1 : (q * c) ^ 2 + s ^ 2 ≤ 1 := by nlinarith [sq_nonneg s, sq_nonneg c]
  have hR : q ≤ Real.sqrt ((q * c) ^ 2 + s ^ 2) := Real.le_sqrt_of_sq_le hrad
  have hR1 : Real.sqrt ((q * c) ^ 2 + s ^ 2) ≤ 1 := Real.sqrt_le_one.2 hrad1
  have hRpos := hq.trans_le hR
  have hRsq : Real.sqrt ((q * c) ^ 2 + s ^ 2) ^ 2 = (q * c) ^ 2 + s ^ 2 :=
    Real.sq_sqrt (by positivity)
  generalize Real.sqrt ((q * c) ^ 2 + s ^ 2) = R at *
  refine ⟨q * re / R, Fl.fin_div_ne _ _ hRpos.ne', ?_, ?_, ?_⟩
  · rw [le_div_iff₀ hRpos]; have := mul_nonneg hq.le hre; nlinarith
  · rw [div_le_iff₀ hRpos]; nlinarith
  · by_cases h0 : re = 0
    · rw [if_pos h0, h0]; simp
    · rw [if_neg h0]
      field_simp
      rw [hRsq]; ring

/-- C25: the physical projections lie between minor and major radius; the point at that distance
lies on the ellipse. -/
theorem C25_physical (re d q : ℝ) (hre : 0 ≤ re) (hq : 0 < q) (hq1 : q ≤ 1) :
    (∃ y, yProjPhys re d q = .fin y ∧ q * re ≤ y ∧ y ≤ re ∧
      (re ≠ 0 → (y * cos (rad d) / re) ^ 2 * q ^ 2 + (y * sin (rad d) / re) ^ 2 = q ^ 2)) ∧
    (∃ x, xProjPhys re d q = .fin x ∧ q * re ≤ x ∧ x ≤ re ∧
      (re ≠ 0 → (x * sin (rad d) / re) ^ 2 * q ^ 2 + (x * cos (rad d) / re) ^ 2 = q ^ 2)) := by
  have h1 := sin_sq_add_cos_sq (rad d)
  constructor
  · obtain ⟨y, a, b, e, f⟩ := phys_bounds re q _ _ hre hq hq1 h1
    exact ⟨y, a, b, e, fun h => by rw [f, if_neg h]⟩
  · have hx : rad (90 - d) = π / 2 - rad d := by unfold rad; ring
    obtain ⟨y, a, b, e, f⟩ := phys_bounds re q (sin (rad d)) (cos (rad d)) hre hq hq1 (by linarith)
    refine ⟨y, ?_, b, e, fun h => by rw [f, if_neg h]⟩
    unfold xProjPhys
    rw [hx, cos_pi_div_two_sub, sin_pi_div_two_sub]
    exact a

example : yProjMajorInslit 1 90 (1 / 2) = .fin 0 ∧ yProjMajorInslit 1 0 (1 / 2) = .fin 1 := by
  have h90 : rad 90 = π / 2 := by unfold rad; ring
  constructor
  · unfold yProjMajorInslit
    rw [h90, sin_pi_div_two, cos_pi_div_two]
    simp only
    rw [if_neg (by norm_num), Fl.fin_div_ne _ _ one_ne_zero]
    simp [Fl.abs]
  · simp [yProjMajorInslit, rad]

end Misfit
