import Verif.Model.Plot
import Mathlib.Data.Sign.Basic
import Mathlib.Tactic.Linarith
import Mathlib.Tactic.FieldSimp
import Mathlib.Tactic.Ring
import Mathlib.Tactic.NormNum
import Mathlib.Tactic.LinearCombination

/-!
# C90–C94: angles and rotations of the plotting package
-/

namespace Misfit
open Real

/-! ## C90 -/

/-- degrees to radians -/
noncomputable def degr (a : ℝ) : ℝ := a * π / 180

/-- the sign of a real as a real: 1, 0 or -1 -/
noncomputable def signR (x : ℝ) : ℝ := if 0 < x then 1 else if x < 0 then -1 else 0

theorem sign_cases (x : ℝ) (h1 : -90 < x) (h2 : x < 270) :
    (if x > 90 then (.ok (-1) : Except PyErr ℝ) else if x < 90 then .ok 1 else .ok 0) = .ok (signR (cos (degr x))) := by
  have hp := Real.pi_pos
  unfold signR degr
  rcases lt_trichotomy x 90 with h | h | h
  · rw [if_neg (not_lt.2 h.le), if_pos h]
    have : 0 < cos (x * π / 180) := by
      apply Real.cos_pos_of_mem_Ioo
      constructor <;> nlinarith
    rw [if_pos this]
  · subst h
    have : cos (90 * π / 180) = 0 := by
      rw [show (90 : ℝ) * π / 180 = π / 2 by ring, Real.cos_pi_div_two]
    simp [this]
  · rw [if_pos h]
    have : cos (x * π / 180) < 0 := by
      apply Real.cos_neg_of_pi_div_two_lt_of_lt <;> nlinarith
    rw [if_neg (not_lt.2 this.le), if_pos this]

theorem cos_degr_flip (a : ℝ) : cos (degr (360 - a)) = cos (degr a) := by
  unfold degr
  rw [show (360 - a) * π / 180 = 2 * π - a * π / 180 by ring, Real.cos_two_pi_sub]

theorem cos_degr_turn (a : ℝ) : cos (degr (a + 360)) = cos (degr a) := by
  unfold degr
  rw [show (a + 360) * π / 180 = a * π / 180 + 2 * π by ring, Real.cos_add_two_pi]

/-- **C90**: for numpy angles between -450 and 450 degrees the y sign is the sign of the cosine of the
position angle; the x sign is the sign of its sine for angles between -360 and 540 degrees. -/
theorem C90_sign (a : ℝ) :
    (-450 < a → a < 450 → ySignPosAngle true a = .ok (signR (cos (degr a)))) ∧
    (-360 < a → a < 540 → xSignPosAngle true a = .ok (signR (sin (degr a)))) := by
  have key : ∀ a : ℝ, -450 < a → a < 450 → signFromPosAngle true a = .ok (signR (cos (degr a))) := by
    intro a h1 h2
    unfold signFromPosAngle
    by_cases h0 : a < 0
    · simp only [if_pos h0, if_true]
      rw [← cos_degr_turn a]
      by_cases h3 : a + 360 > 180
      · rw [if_pos h3, sign_cases _ (by linarith) (by linarith), cos_degr_flip]
      · rw [if_neg h3, sign_cases _ (by linarith) (by linarith)]
    · simp only [if_neg h0, if_true]
      by_cases h3 : a > 180
      · rw [if_pos h3, sign_cases _ (by linarith) (by linarith), cos_degr_flip]
      · rw [if_neg h3, sign_cases _ (by linarith) (by linarith)]
  refine ⟨key a, fun h1 h2 => ?_⟩
  unfold xSignPosAngle
  rw [key (a - 90) (by linarith) (by linarith)]
  unfold degr
  rw [show (a - 90) * π / 180 = a * π / 180 - π / 2 by ring, Real.cos_sub_pi_div_two]

/-- **C90**: a plain Python float gives the same sign up to 180 degrees and raises AttributeError above, in
particular for every angle between -180 and 0 degrees. -/
theorem C90_plain (a : ℝ) :
    (0 ≤ a → a ≤ 180 → ySignPosAngle false a = .ok (signR (cos (degr a)))) ∧
    (-180 < a → a < 0 → ySignPosAngle false a = .error .attributeError) ∧
    (180 < a → ySignPosAngle false a = .error .attributeError) := by
  unfold ySignPosAngle signFromPosAngle
  refine ⟨fun h1 h2 => ?_, fun h1 h2 => ?_, fun h1 => ?_⟩
  · simp only [if_neg (not_lt.2 h1), gt_iff_lt, if_neg (not_lt.2 h2)]
    exact sign_cases a (by linarith) (by linarith)
  · simp only [if_pos h2]
    rw [if_pos (by linarith)]
    rfl
  · simp only [if_neg (show ¬ a < 0 by linarith)]
    rw [if_pos h1]
    rfl

/-- outside the range of C90 the sign is wrong: one and a half turns -/
theorem C90_range : ySignPosAngle true 540 = .ok 1 ∧ signR (cos (degr 540)) = -1 := by
  constructor
  · unfold ySignPosAngle signFromPosAngle
    norm_num
  · unfold degr signR
    rw [show (540 : ℝ) * π / 180 = π + 2 * π by ring, Real.cos_add_two_pi, Real.cos_pi]
    norm_num

example : ySignPosAngle true (-135) = .ok (-1) ∧ xSignPosAngle true 45 = .ok 1 := by
  constructor
  · rw [(C90_sign (-135)).1 (by norm_num) (by norm_num)]
    have : cos (degr (-135)) < 0 := by
      unfold degr
      rw [show (-135 : ℝ) * π / 180 = -(135 * π / 180) by ring, Real.cos_neg]
      have := Real.pi_pos
      apply Real.cos_neg_of_pi_div_two_lt_of_lt <;> nlinarith
    unfold signR
    rw [if_neg (not_lt.2 this.le), if_pos this]
  · rw [(C90_sign 45).2 (by norm_num) (by norm_num)]
    have : 0 < sin (degr 45) := by
      unfold degr
      have := Real.pi_pos
      apply Real.sin_pos_of_pos_of_lt_pi <;> nlinarith
    unfold signR
    rw [if_pos this]

/-! ## C91 -/

/-- the point of the unit sphere with the given right ascension and declination -/
noncomputable def skyVec (ra dec : ℝ) : ℝ × ℝ × ℝ := (cos dec * cos ra, cos dec * sin ra, sin dec)

/-- unit vector towards the north at that point -/
noncomputable def northVec (ra dec : ℝ) : ℝ × ℝ × ℝ := (-(sin dec * cos ra), -(sin dec * sin ra), cos dec)

/-- unit vector towards the east at that point -/
noncomputable def eastVec (ra : ℝ) : ℝ × ℝ × ℝ := (-sin ra, cos ra, 0)

/-- scalar product -/
def dot3 (a b : ℝ × ℝ × ℝ) : ℝ := a.1 * b.1 + a.2.1 * b.2.1 + a.2.2 * b.2.2

/-- **C91**: the position angle is the angle, from north through east, of the direction in which the second position
is seen from the first: the argument of (north component) + i (east component) of the second
position's vector. -/
theorem C91_bearing (ra1 dec1 ra2 dec2 : ℝ) (h : 0 < cos dec2) :
    posAngle ra1 dec1 ra2 dec2 "radians" =
      .ok (Complex.arg ⟨dot3 (skyVec ra2 dec2) (northVec ra1 dec1), dot3 (skyVec ra2 dec2) (eastVec ra1)⟩) ∧
    posAngle ra1 dec1 ra2 dec2 "degrees" =
      .ok (Complex.arg ⟨dot3 (skyVec ra2 dec2) (northVec ra1 dec1), dot3 (skyVec ra2 dec2) (eastVec ra1)⟩ * 180 / π) := by
  have key : arctan2 (-sin (ra1 - ra2)) (cos dec1 * tan dec2 - sin dec1 * cos (ra1 - ra2)) =
      Complex.arg ⟨dot3 (skyVec ra2 dec2) (northVec ra1 dec1), dot3 (skyVec ra2 dec2) (eastVec ra1)⟩ := by
    unfold arctan2
    rw [← Complex.arg_real_mul _ h]
    congr 1
    apply Complex.ext
    · simp only [Complex.mul_re, Complex.ofReal_re, Complex.ofReal_im, zero_mul, sub_zero, dot3, skyVec, northVec]
      rw [Real.tan_eq_sin_div_cos, Real.cos_sub]
      field_simp
      ring
    · simp only [Complex.mul_im, Complex.ofReal_re, Complex.ofReal_im, zero_mul, add_zero, dot3, skyVec, eastVec]
      rw [Real.sin_sub]
      ring
  unfold posAngle
  simp only [key]
  exact ⟨by simp, by simp⟩

/-- the three vectors of the specification are orthonormal -/
theorem frame_orthonormal (ra dec : ℝ) : dot3 (skyVec ra dec) (skyVec ra dec) = 1 ∧
    dot3 (northVec ra dec) (northVec ra dec) = 1 ∧ dot3 (eastVec ra) (eastVec ra) = 1 ∧
    dot3 (skyVec ra dec) (northVec ra dec) = 0 ∧ dot3 (skyVec ra dec) (eastVec ra) = 0 ∧
    dot3 (northVec ra dec) (eastVec ra) = 0 := by
  have h1 := Real.sin_sq_add_cos_sq ra
  have h2 := Real.sin_sq_add_cos_sq dec
  simp only [dot3, skyVec, northVec, eastVec]
  refine ⟨?_, ?_, ?_, ?_, ?_, ?_⟩
  · linear_combination (cos dec) ^ 2 * h1 + h2
  · linear_combination (sin dec) ^ 2 * h1 + h2
  · linear_combination h1
  · linear_combination -(sin dec * cos dec) * h1
  · ring
  · ring

/-- **C91**: a position due north has position angle 0, a position due east (on the equator) π/2. -/
theorem C91_axes (ra dec1 dec2 : ℝ) (h0 : -(π / 2) < dec1) (h1 : dec1 < dec2) (h2 : dec2 < π / 2) (d : ℝ)
    (hd : 0 < d) (hd' : d < π) :
    posAngle ra dec1 ra dec2 "radians" = .ok 0 ∧ posAngle ra 0 (ra + d) 0 "radians" = .ok (π / 2) := by
  have hc : 0 < cos dec2 := Real.cos_pos_of_mem_Ioo ⟨by linarith, h2⟩
  constructor
  · rw [(C91_bearing ra dec1 ra dec2 hc).1]
    have e1 : dot3 (skyVec ra dec2) (northVec ra dec1) = sin (dec2 - dec1) := by
      simp only [dot3, skyVec, northVec]
      rw [Real.sin_sub]
      have := Real.sin_sq_add_cos_sq ra
      linear_combination -(cos dec2 * sin dec1) * this
    have e2 : dot3 (skyVec ra dec2) (eastVec ra) = 0 := by
      simp only [dot3, skyVec, eastVec]
      ring
    rw [e1, e2]
    have : 0 ≤ sin (dec2 - dec1) := Real.sin_nonneg_of_nonneg_of_le_pi (by linarith) (by linarith)
    have h3 := Complex.arg_ofReal_of_nonneg this
    rw [show (⟨sin (dec2 - dec1), 0⟩ : ℂ) = ((sin (dec2 - dec1) : ℝ) : ℂ) from rfl, h3]
  · rw [(C91_bearing ra 0 (ra + d) 0 (by simp)).1]
    have e1 : dot3 (skyVec (ra + d) 0) (northVec ra 0) = 0 := by
      simp [dot3, skyVec, northVec]
    have e2 : dot3 (skyVec (ra + d) 0) (eastVec ra) = sin d := by
      simp only [dot3, skyVec, eastVec, Real.cos_add, Real.sin_add, Real.cos_zero]
      have := Real.sin_sq_add_cos_sq ra
      linear_combination (sin d) * this
    rw [e1, e2]
    have hs := Real.sin_pos_of_pos_of_lt_pi hd hd'
    generalize sin d = t at hs
    have : (⟨0, t⟩ : ℂ) = ((t : ℝ) : ℂ) * Complex.I := by
      apply Complex.ext <;> simp
    rw [this, Complex.arg_real_mul _ hs, Complex.arg_I]

/-- a case of C91 away from the axes -/
example : 0 < cos (π / 4) := by
  rw [Real.cos_pi_div_four]
  positivity

/-- **C91**: other unit names raise ValueError. -/
theorem C91_units (ra1 dec1 ra2 dec2 : ℝ) (u : String) (h1 : u ≠ "degrees") (h2 : u ≠ "radians") :
    posAngle ra1 dec1 ra2 dec2 u = .error .valueError := by
  unfold posAngle
  simp [h1, h2]

/-! ## C92 -/

/-- squared distance -/
def planeDist2 (p q : ℝ × ℝ) : ℝ := (p.1 - q.1) ^ 2 + (p.2 - q.2) ^ 2

/-- **C92**: rotation about a centre fixes it, keeps distances, adds angles, and turns the positive x axis towards the positive y
axis for positive angles. -/
theorem C92_rotation (p q : ℝ × ℝ) (th th' x0 y0 : ℝ) :
    rotCoord (x0, y0) th x0 y0 = (x0, y0) ∧
    planeDist2 (rotCoord p th x0 y0) (rotCoord q th x0 y0) = planeDist2 p q ∧
    rotCoord (rotCoord p th x0 y0) th' x0 y0 = rotCoord p (th + th') x0 y0 ∧
    rotCoord p 0 x0 y0 = p ∧
    rotCoord (x0 + 1, y0) (π / 2) x0 y0 = (x0, y0 + 1) := by
  refine ⟨?_, ?_, ?_, ?_, ?_⟩
  · simp [rotCoord]
  · simp only [rotCoord, planeDist2]
    linear_combination ((p.1 - q.1) ^ 2 + (p.2 - q.2) ^ 2) * Real.sin_sq_add_cos_sq th
  · simp only [rotCoord, Real.cos_add, Real.sin_add]
    apply Prod.ext <;> simp <;> ring
  · simp [rotCoord]
  · simp [rotCoord, add_comm]

/-- **C92**: two or more corners give the coordinates of the rotated corners in order, one corner gives two
scalars, none raises IndexError. -/
theorem C92_corners (p q : ℝ × ℝ) (ps : List (ℝ × ℝ)) (th x0 y0 : ℝ) :
    (∃ xs ys, rotCorners (p :: q :: ps) th x0 y0 = .ok (.arrays xs ys) ∧
      List.zip xs ys = (p :: q :: ps).map fun r => rotCoord r th x0 y0) ∧
    rotCorners [p] th x0 y0 = .ok (.scalars (rotCoord p th x0 y0).1 (rotCoord p th x0 y0).2) ∧
    rotCorners [] th x0 y0 = .error .indexError := by
  refine ⟨⟨_, _, rfl, ?_⟩, rfl, rfl⟩
  simp only [List.map_cons, List.zip_cons_cons, List.cons.injEq, true_and]
  induction ps with
  | nil => rfl
  | cons a l ih => rw [List.map_cons, List.map_cons, List.map_cons, List.zip_cons_cons, ih]

/-! ## C93 -/

/-- **C93** (partial): with a header that gives `CD2_2 ≠ 0`, or `CD2_1 > 0`, the angle is the argument of `CD2_2 + i CD2_1` in
degrees; without both entries it is 0.  Missing: `C93_false`. -/
theorem C93_angle_partial (c1 c2 : ℝ) (h : c2 ≠ 0 ∨ 0 < c1) :
    pstampPositionAngle (some c1) (some c2) = Complex.arg ⟨c2, c1⟩ * 180 / π ∧
    pstampPositionAngle none none = 0 := by
  unfold pstampPositionAngle
  constructor
  · simp only [Option.getD_some]
    by_cases h2 : c2 = 0
    · have h1 : 0 < c1 := h.resolve_left (fun h => h h2)
      subst h2
      rw [if_neg (fun h => h1.ne' h.2), if_pos rfl]
      have : (⟨0, c1⟩ : ℂ) = ((c1 : ℝ) : ℂ) * Complex.I := by
        apply Complex.ext <;> simp
      rw [this, Complex.arg_real_mul _ h1, Complex.arg_I]
      have := Real.pi_pos.ne'
      field_simp
      norm_num
    · rw [if_neg (fun h => h2 h.1), if_neg h2]
      rfl
  · simp

/-- **C93**, negation: for `CD2_2 = 0` and `CD2_1 < 0` the angle is 90 instead of -90 degrees. -/
theorem C93_false (c1 : ℝ) (h : c1 < 0) :
    pstampPositionAngle (some c1) (some 0) = 90 ∧ Complex.arg ⟨0, c1⟩ * 180 / π = -90 := by
  constructor
  · unfold pstampPositionAngle
    simp [h.ne]
  · have : (⟨0, c1⟩ : ℂ) = ((-c1 : ℝ) : ℂ) * (-Complex.I) := by
      apply Complex.ext <;> simp
    rw [this, Complex.arg_real_mul _ (by linarith), Complex.arg_neg_I]
    have := Real.pi_pos.ne'
    field_simp
    norm_num

/-- **C93**, exactly: for the entries of a header, a missing one read as 0, the angle is the argument of `CD2_2 + i CD2_1`
in degrees if and only if `CD2_2` is not zero or `CD2_1` is not negative; otherwise it is opposite, 90 for -90. -/
theorem C93_exact (cd21 cd22 : Option ℝ) (c1 c2 : ℝ)
    (h1 : cd21 = some c1 ∨ cd21 = none ∧ c1 = 0) (h2 : cd22 = some c2 ∨ cd22 = none ∧ c2 = 0) :
    (pstampPositionAngle cd21 cd22 = Complex.arg ⟨c2, c1⟩ * 180 / π ↔ c2 ≠ 0 ∨ 0 ≤ c1) ∧
    (¬ (c2 ≠ 0 ∨ 0 ≤ c1) →
      pstampPositionAngle cd21 cd22 = 90 ∧ Complex.arg ⟨c2, c1⟩ * 180 / π = -90) := by
  have e : pstampPositionAngle cd21 cd22 = pstampPositionAngle (some c1) (some c2) := by
    rcases h1 with rfl | ⟨rfl, rfl⟩ <;> rcases h2 with rfl | ⟨rfl, rfl⟩ <;> rfl
  rw [e]
  have hbad : ¬ (c2 ≠ 0 ∨ 0 ≤ c1) →
      pstampPositionAngle (some c1) (some c2) = 90 ∧ Complex.arg ⟨c2, c1⟩ * 180 / π = -90 := by
    intro hn
    push Not at hn
    obtain ⟨rfl, hlt⟩ := hn
    exact C93_false c1 hlt
  refine ⟨⟨fun h => ?_, fun h => ?_⟩, hbad⟩
  · by_contra hn
    obtain ⟨a, b⟩ := hbad hn
    rw [a, b] at h
    norm_num at h
  · by_cases hc : c2 ≠ 0 ∨ 0 < c1
    · exact (C93_angle_partial c1 c2 hc).1
    · push Not at hc
      obtain ⟨rfl, hle⟩ := hc
      obtain rfl : c1 = 0 := le_antisymm hle (h.resolve_left fun h => h rfl)
      rw [show (⟨0, 0⟩ : ℂ) = 0 from rfl, Complex.arg_zero]
      simp [pstampPositionAngle]

example : ((1 : ℝ) ≠ 0 ∨ (0 : ℝ) < -1) ∧ pstampPositionAngle (some 0) (some 1) = 0 := by
  refine ⟨Or.inl one_ne_zero, ?_⟩
  rw [(C93_angle_partial 0 1 (Or.inl one_ne_zero)).1]
  rw [show (⟨1, 0⟩ : ℂ) = 1 from rfl, Complex.arg_one]
  simp

/-! ## C94 -/

/-- **C94** (partial): if the image is oriented north up (image angle 0), the PSF is centred where the object is on
the rotated stamp.  Missing: `C94_false`. -/
theorem C94_centre_partial (slitPA : ℝ) (cent p : ℝ × ℝ) :
    rotatedObject slitPA cent p = .ok (.scalars (stampContentMove slitPA 0 cent p).1 (stampContentMove slitPA 0 cent p).2) := by
  unfold rotatedObject rotObjectCenter stampContentMove
  rw [(C92_corners p p [] _ _ _).2.1]
  rw [show -1 * slitPA * (π / 180) = -((slitPA - 0) * (π / 180)) by ring]

/-- **C94**, exactly: the PSF is centred where the object is on the rotated stamp if and only if the object is at the
centre of the stamp or the image is turned by a multiple of 360 degrees. -/
theorem C94_exact (slitPA imgPA : ℝ) (cent p : ℝ × ℝ) :
    rotatedObject slitPA cent p =
        .ok (.scalars (stampContentMove slitPA imgPA cent p).1 (stampContentMove slitPA imgPA cent p).2) ↔
      p = cent ∨ ∃ n : ℤ, imgPA = n * 360 := by
  rw [C94_centre_partial]
  have hrot : ∀ a b : ℝ, rotCoord p a cent.1 cent.2 = rotCoord p b cent.1 cent.2 ↔
      p = cent ∨ cos (a - b) = 1 := by
    intro a b
    have ha := sin_sq_add_cos_sq a
    have hb := sin_sq_add_cos_sq b
    rw [cos_sub]
    constructor
    · intro h
      have h1 := congrArg Prod.fst h
      have h2 := congrArg Prod.snd h
      simp only [rotCoord] at h1 h2
      have key : (1 - (cos a * cos b + sin a * sin b)) * ((p.1 - cent.1) ^ 2 + (p.2 - cent.2) ^ 2) = 0 := by
        linear_combination
          (((p.1 - cent.1) * (cos a - cos b) - (p.2 - cent.2) * (sin a - sin b)) / 2) * h1 +
          (((p.1 - cent.1) * (sin a - sin b) + (p.2 - cent.2) * (cos a - cos b)) / 2) * h2 -
          (((p.1 - cent.1) ^ 2 + (p.2 - cent.2) ^ 2) / 2) * ha -
          (((p.1 - cent.1) ^ 2 + (p.2 - cent.2) ^ 2) / 2) * hb
      rcases mul_eq_zero.1 key with h3 | h3
      · exact .inr (by linarith)
      · left
        have hx : p.1 - cent.1 = 0 := by nlinarith [sq_nonneg (p.1 - cent.1), sq_nonneg (p.2 - cent.2)]
        have hy : p.2 - cent.2 = 0 := by nlinarith [sq_nonneg (p.1 - cent.1), sq_nonneg (p.2 - cent.2)]
        exact Prod.ext (by linarith) (by linarith)
    · rintro (rfl | h)
      · simp [rotCoord]
      · have hz : (cos a - cos b) ^ 2 + (sin a - sin b) ^ 2 = 0 := by nlinarith
        have hc : cos a = cos b := by nlinarith [sq_nonneg (cos a - cos b), sq_nonneg (sin a - sin b)]
        have hs : sin a = sin b := by nlinarith [sq_nonneg (cos a - cos b), sq_nonneg (sin a - sin b)]
        simp only [rotCoord, hc, hs]
  have e : (Except.ok (Corners.scalars (stampContentMove slitPA 0 cent p).1 (stampContentMove slitPA 0 cent p).2) :
      Except PyErr Corners) =
        .ok (.scalars (stampContentMove slitPA imgPA cent p).1 (stampContentMove slitPA imgPA cent p).2) ↔
      stampContentMove slitPA 0 cent p = stampContentMove slitPA imgPA cent p := by
    simp only [Except.ok.injEq, Corners.scalars.injEq]
    exact Prod.ext_iff.symm
  rw [e]
  unfold stampContentMove
  rw [hrot, show -((slitPA - 0) * (π / 180)) - -((slitPA - imgPA) * (π / 180)) = -(imgPA * (π / 180)) by ring, cos_neg,
    Real.cos_eq_one_iff]
  have hpi := Real.pi_pos.ne'
  constructor
  · rintro (h | ⟨n, h⟩)
    · exact .inl h
    · refine .inr ⟨n, ?_⟩
      field_simp at h
      linarith
  · rintro (h | ⟨n, h⟩)
    · exact .inl h
    · refine .inr ⟨n, ?_⟩
      rw [h]
      field_simp
      ring

/-- **C94**, negation: the image angle is ignored.  With the image turned by 180 degrees the PSF is centred on the mirror image
of the object's position with respect to the centre of the stamp. -/
theorem C94_false (slitPA : ℝ) (cent p : ℝ × ℝ) (hp : p ≠ cent) :
    ∃ q : ℝ × ℝ, rotatedObject slitPA cent p = .ok (.scalars q.1 q.2) ∧
      q.1 = 2 * cent.1 - (stampContentMove slitPA 180 cent p).1 ∧
      q.2 = 2 * cent.2 - (stampContentMove slitPA 180 cent p).2 ∧ q ≠ stampContentMove slitPA 180 cent p := by
  have hq := C94_centre_partial slitPA cent p
  have hm : stampContentMove slitPA 0 cent p =
      (2 * cent.1 - (stampContentMove slitPA 180 cent p).1, 2 * cent.2 - (stampContentMove slitPA 180 cent p).2) := by
    unfold stampContentMove rotCoord
    rw [show -((slitPA - 180) * (π / 180)) = -((slitPA - 0) * (π / 180)) + π by ring, Real.cos_add_pi, Real.sin_add_pi]
    apply Prod.ext <;> simp <;> ring
  refine ⟨stampContentMove slitPA 0 cent p, hq, by rw [hm], by rw [hm], fun h => hp ?_⟩
  have h1 := hm
  rw [h] at h1
  have e1 : (stampContentMove slitPA 180 cent p) = cent := by
    have a1 := congrArg Prod.fst h1
    have a2 := congrArg Prod.snd h1
    simp only at a1 a2
    exact Prod.ext (by linarith) (by linarith)
  have hd : planeDist2 (stampContentMove slitPA 180 cent p) cent = planeDist2 p cent := by
    have := (C92_rotation p cent (-((slitPA - 180) * (π / 180))) 0 cent.1 cent.2)
    have h2 := this.2.1
    rw [show rotCoord cent (-((slitPA - 180) * (π / 180))) cent.1 cent.2 = cent from this.1] at h2
    exact h2
  rw [e1] at hd
  unfold planeDist2 at hd
  have h3 : (p.1 - cent.1) ^ 2 = 0 := by nlinarith [sq_nonneg (p.1 - cent.1), sq_nonneg (p.2 - cent.2)]
  have h4 : (p.2 - cent.2) ^ 2 = 0 := by nlinarith [sq_nonneg (p.1 - cent.1), sq_nonneg (p.2 - cent.2)]
  exact Prod.ext (by linarith [pow_eq_zero_iff (two_ne_zero) |>.1 h3]) (by linarith [pow_eq_zero_iff (two_ne_zero) |>.1 h4])

end Misfit
