import Verif.Model.Profiles
import Verif.Props.Geometry
import Mathlib.Tactic.NormNum

/-!
# C26–C29, C55: profiles
-/

namespace Misfit
open Real

/-! ## C26 -/

theorem velArctan_eq (va rt r : ℝ) (rest : List ℝ) (h : rt ≠ 0) :
    velArctan (va :: rt :: rest) r = .fin (2 / π * va * arctan (r / rt)) := by
  simp only [velArctan, List.getElem?_cons_zero, List.getElem?_cons_succ]
  rw [Fl.fin_div_ne _ _ h]
  simp [Fl.arctan]

/-- C26: with positive turnover radius the curve vanishes at the centre, is half of `V_a` at the
turnover radius and stays strictly below `|V_a|`. -/
theorem C26_values (va rt : ℝ) (rest : List ℝ) (hrt : 0 < rt) :
    velArctan (va :: rt :: rest) 0 = .fin 0 ∧
    velArctan (va :: rt :: rest) rt = .fin (va / 2) ∧
    ∀ r, ∃ v, velArctan (va :: rt :: rest) r = .fin v ∧ |v| ≤ |va| ∧ (va ≠ 0 → |v| < |va|) := by
  have hpi := Real.pi_pos
  refine ⟨?_, ?_, ?_⟩
  · rw [velArctan_eq _ _ _ _ hrt.ne']; simp
  · rw [velArctan_eq _ _ _ _ hrt.ne', div_self hrt.ne', arctan_one]
    congr 1; field_simp; ring
  · intro r
    refine ⟨_, velArctan_eq _ _ _ _ hrt.ne', ?_⟩
    have ha : |arctan (r / rt)| < π / 2 :=
      abs_lt.2 ⟨neg_pi_div_two_lt_arctan _, arctan_lt_pi_div_two _⟩
    have hk : |2 / π * va * arctan (r / rt)| = |va| * (2 / π * |arctan (r / rt)|) := by
      rw [abs_mul, abs_mul, abs_of_pos (by positivity : 0 < 2 / π)]; ring
    have hlt : 2 / π * |arctan (r / rt)| < 1 := by
      rw [div_mul_eq_mul_div, div_lt_one hpi]; linarith
    rw [hk]
    refine ⟨by nlinarith [abs_nonneg va], fun h => ?_⟩
    have := abs_pos.2 h
    nlinarith

/-- C26: monotone for `V_a ≥ 0`, strictly for `V_a > 0`, odd in `V_a` and in the radius, and
approaching `V_a` at large radius. -/
theorem C26_shape (va rt : ℝ) (rest : List ℝ) (hrt : 0 < rt) :
    (∀ r r' v v', velArctan (va :: rt :: rest) r = .fin v → velArctan (va :: rt :: rest) r' = .fin v' →
      r ≤ r' → 0 ≤ va → v ≤ v') ∧
    (∀ r r' v v', velArctan (va :: rt :: rest) r = .fin v → velArctan (va :: rt :: rest) r' = .fin v' →
      r < r' → 0 < va → v < v') ∧
    (∀ r v, velArctan (va :: rt :: rest) r = .fin v →
      velArctan (-va :: rt :: rest) r = .fin (-v) ∧ velArctan (va :: rt :: rest) (-r) = .fin (-v)) ∧
    (∀ a, a < |va| → ∃ R, ∀ r, R ≤ r → ∃ v, velArctan (va :: rt :: rest) r = .fin v ∧ a < |v|) := by
  have hpi := Real.pi_pos
  have h2 : 0 < 2 / π := by positivity
  refine ⟨?_, ?_, ?_, ?_⟩
  · intro r r' v v' hv hv' hr ha
    rw [velArctan_eq _ _ _ _ hrt.ne', Fl.fin.injEq] at hv hv'
    rw [← hv, ← hv']
    exact mul_le_mul_of_nonneg_left (arctan_mono ((div_le_div_iff_of_pos_right hrt).2 hr)) (by positivity)
  · intro r r' v v' hv hv' hr ha
    rw [velArctan_eq _ _ _ _ hrt.ne', Fl.fin.injEq] at hv hv'
    rw [← hv, ← hv']
    exact mul_lt_mul_of_pos_left (arctan_strictMono ((div_lt_div_iff_of_pos_right hrt).2 hr)) (by positivity)
  · intro r v hv
    rw [velArctan_eq _ _ _ _ hrt.ne', Fl.fin.injEq] at hv
    rw [velArctan_eq _ _ _ _ hrt.ne', velArctan_eq _ _ _ _ hrt.ne', ← hv, neg_div, arctan_neg]
    constructor <;> congr 1 <;> ring
  · intro a ha
    by_cases h0 : a < 0
    · exact ⟨0, fun r _ => ⟨_, velArctan_eq _ _ _ _ hrt.ne', h0.trans_le (abs_nonneg _)⟩⟩
    · have h0 := not_lt.1 h0
      have hva := h0.trans_lt ha
      have hx : a * π / (2 * |va|) < π / 2 := by
        rw [div_lt_div_iff₀ (by positivity) (by positivity)]; nlinarith
      have hx0 : 0 ≤ a * π / (2 * |va|) := by positivity
      refine ⟨rt * (tan (a * π / (2 * |va|)) + 1), fun r hr => ⟨_, velArctan_eq _ _ _ _ hrt.ne', ?_⟩⟩
      have h1 : tan (a * π / (2 * |va|)) < r / rt := by
        rw [lt_div_iff₀ hrt]; nlinarith
      have h3 : a * π / (2 * |va|) < arctan (r / rt) := by
        have := arctan_strictMono h1
        rwa [arctan_tan (by linarith) hx] at this
      rw [abs_mul, abs_mul, abs_of_pos h2, abs_of_pos (hx0.trans_lt h3)]
      have : a = 2 / π * |va| * (a * π / (2 * |va|)) := by field_simp
      calc a = 2 / π * |va| * (a * π / (2 * |va|)) := this
        _ < _ := mul_lt_mul_of_pos_left h3 (by positivity)

/-- C26: no line-of-sight velocity of the model exceeds `|V_a|`, at any sky position, position
angle, axis ratio and thickness. -/
theorem C26_line_of_sight (va rt x y z d i q q0 s : ℝ) (rest : List ℝ) (hrt : 0 < rt)
    (h0 : 0 ≤ q0) (h1 : q0 < 1) (hq : q ≤ 1) (hs : sinI q q0 = .ok (.fin s)) :
    ∃ v, losVelocity (va :: rt :: rest) s (transformInt3d x y z d i).1 (transformInt3d x y z d i).2.1
        = .fin v ∧ |v| ≤ |va| := by
  obtain ⟨s', hs', hs0, hs1, _⟩ := C23_range q q0 h0 h1 hq
  rw [hs] at hs'
  simp only [Except.ok.injEq, Fl.fin.injEq] at hs'
  subst hs'
  generalize (transformInt3d x y z d i).1 = X
  generalize (transformInt3d x y z d i).2.1 = Y
  obtain ⟨v, hv, hle, _⟩ := (C26_values va rt rest hrt).2.2 (Real.sqrt (X ^ 2 + Y ^ 2))
  unfold losVelocity
  simp only
  rw [hv]
  by_cases hr : Real.sqrt (X ^ 2 + Y ^ 2) = 0
  · rw [if_pos hr]; exact ⟨_, rfl, by simp⟩
  · rw [if_neg hr, Fl.fin_div_ne _ _ hr, Fl.fin_mul, Fl.fin_mul]
    refine ⟨_, rfl, ?_⟩
    have hpos := lt_of_le_of_ne (Real.sqrt_nonneg (X ^ 2 + Y ^ 2)) (Ne.symm hr)
    have hc : |Y / Real.sqrt (X ^ 2 + Y ^ 2)| ≤ 1 := by
      rw [abs_div, abs_of_pos hpos, div_le_one hpos]
      exact Real.abs_le_sqrt (by nlinarith [sq_nonneg X])
    rw [abs_mul, abs_mul, abs_of_nonneg hs0]
    have h3 : |v| * |Y / Real.sqrt (X ^ 2 + Y ^ 2)| ≤ |va| := by
      nlinarith [abs_nonneg v, abs_nonneg (Y / Real.sqrt (X ^ 2 + Y ^ 2))]
    have h4 : 0 ≤ |v| * |Y / Real.sqrt (X ^ 2 + Y ^ 2)| := by positivity
    nlinarith [abs_nonneg va]

/-- C26: at the kinematic centre and along the minor axis the line-of-sight velocity is 0; it is
antisymmetric under reflection through the centre. -/
theorem C26_symmetry (va rt s X Y v : ℝ) (rest : List ℝ) (hrt : 0 < rt) :
    losVelocity (va :: rt :: rest) s X 0 = .fin 0 ∧
    (losVelocity (va :: rt :: rest) s X Y = .fin v →
      losVelocity (va :: rt :: rest) s (-X) (-Y) = .fin (-v)) := by
  unfold losVelocity
  simp only [velArctan_eq _ _ _ _ hrt.ne']
  constructor
  · by_cases hr : Real.sqrt (X ^ 2 + 0 ^ 2) = 0
    · rw [if_pos hr]; simp
    · rw [if_neg hr, Fl.fin_div_ne _ _ hr]; simp
  · rw [neg_sq, neg_sq]
    by_cases hr : Real.sqrt (X ^ 2 + Y ^ 2) = 0
    · rw [if_pos hr, if_pos hr]; simp only [Fl.fin_mul, Fl.fin.injEq]
      intro h; rw [← h]; ring
    · rw [if_neg hr, if_neg hr, Fl.fin_div_ne _ _ hr, Fl.fin_div_ne _ _ hr]
      simp only [Fl.fin_mul, Fl.fin.injEq]
      intro h; rw [← h]; ring

/-- with zero turnover radius the centre has no value, every other radius moves at `V_a` -/
theorem C26_zero_turnover (va r : ℝ) (rest : List ℝ) :
    velArctan (va :: 0 :: rest) 0 = .nan ∧ (0 < r → velArctan (va :: 0 :: rest) r = .fin va) := by
  have hpi := Real.pi_pos.ne'
  constructor
  · simp [velArctan, Fl.fin_div, Fl.infTimes, Fl.arctan]; rfl
  · intro h
    have hinf : (Fl.fin r / Fl.fin 0 : Fl ℝ) = .pinf := by
      rw [Fl.fin_div, if_pos rfl, Fl.infTimes, if_neg h.ne', if_pos h]
    simp only [velArctan, List.getElem?_cons_zero, List.getElem?_cons_succ, hinf, Fl.arctan,
      Fl.fin_mul]
    congr 1; field_simp

example : velArctan [200, 1, 50] 1 = .fin 100 := by
  have := (C26_values 200 1 [50] one_pos).2.1
  rw [this]; norm_num

/-! ## C27 -/

/-- The intensity claim as stated, for every Sersic index above 0. -/
def IntensityDecreasing (scale n re q0 : ℝ) : Prop :=
  (∀ r z, 0 ≤ r → 0 < intensity scale n re q0 r z) ∧
  intensity scale n re q0 re 0 = 1 ∧
  (∀ r r' z, 0 ≤ r → r ≤ r' → intensity scale n re q0 r' z ≤ intensity scale n re q0 r z) ∧
  (∀ r z z', 0 ≤ r → |z| ≤ |z'| → intensity scale n re q0 r z' ≤ intensity scale n re q0 r z) ∧
  (∀ r z, intensity scale n re q0 r (-z) = intensity scale n re q0 r z)

/-- C27 holds for Sersic indices from 0.162 on.  Missing: smaller indices, where the
approximation `b_n = 2n - 0.324` is negative and the profile grows outwards (`C27_false`). -/
theorem C27_decreasing_partial (scale n re q0 : ℝ) (hn : 0.162 ≤ n) (hre : 0 < re) (hq : 0 < q0)
    (hsc : 0 < scale) : IntensityDecreasing scale n re q0 := by
  have hn0 : 0 < n := by norm_num at hn; linarith
  have hb : 0 ≤ 2 * n - 0.324 := by norm_num at hn ⊢; linarith
  have hz0 : 0 < q0 * (re / scale) := by positivity
  refine ⟨?_, ?_, ?_, ?_, ?_⟩
  · intro r z _; unfold intensity intSersic intExpZ; simp only; positivity
  · simp [intensity, intSersic, intExpZ, div_self hre.ne']
  · intro r r' z hr hrr
    unfold intensity
    apply mul_le_mul_of_nonneg_right _ (by unfold intExpZ; positivity)
    unfold intSersic
    simp only [one_mul, exp_le_exp]
    have : (r / re) ^ (1 / n) ≤ (r' / re) ^ (1 / n) :=
      rpow_le_rpow (by positivity) ((div_le_div_iff_of_pos_right hre).2 hrr) (by positivity)
    nlinarith
  · intro r z z' hr hz
    unfold intensity
    apply mul_le_mul_of_nonneg_left _ (by unfold intSersic; positivity)
    unfold intExpZ
    simp only [exp_le_exp]
    exact (div_le_div_iff_of_pos_right hz0).2 (by linarith)
  · intro r z; simp [intensity, intExpZ]

/-- C27 strictly: above that index the profile strictly decreases with radius and height. -/
theorem C27_strict_partial (scale n re q0 r r' z z' : ℝ) (hn : 0.162 < n) (hre : 0 < re) (hq : 0 < q0)
    (hsc : 0 < scale) (hr : 0 ≤ r) (hrr : r < r') (hz : |z| < |z'|) :
    intensity scale n re q0 r' z < intensity scale n re q0 r z ∧
    intensity scale n re q0 r z' < intensity scale n re q0 r z := by
  have hn0 : 0 < n := by norm_num at hn; linarith
  have hb : 0 < 2 * n - 0.324 := by norm_num at hn ⊢; linarith
  have hz0 : 0 < q0 * (re / scale) := by positivity
  constructor
  · unfold intensity
    apply mul_lt_mul_of_pos_right _ (by unfold intExpZ; positivity)
    unfold intSersic
    simp only [one_mul, exp_lt_exp]
    have : (r / re) ^ (1 / n) < (r' / re) ^ (1 / n) :=
      rpow_lt_rpow (by positivity) ((div_lt_div_iff_of_pos_right hre).2 hrr) (by positivity)
    nlinarith
  · unfold intensity
    apply mul_lt_mul_of_pos_left _ (by unfold intSersic; positivity)
    unfold intExpZ
    simp only [exp_lt_exp]
    exact (div_lt_div_iff_of_pos_right hz0).2 (by linarith)

/-- C27 is false for small Sersic indices: at index 0.1 the intensity grows outwards. -/
theorem C27_false : ¬ ∀ n re q0 : ℝ, 0 < n → 0 < re → 0 < q0 → IntensityDecreasing 1 n re q0 := by
  intro h
  have h2 := (h 0.1 1 1 (by norm_num) one_pos one_pos).2.2.1 0 1 0 le_rfl zero_le_one
  have e1 : intensity 1 0.1 1 1 1 0 = 1 := by simp [intensity, intSersic, intExpZ]
  have e0 : intensity 1 0.1 1 1 0 0 = exp (2 * 0.1 - 0.324) := by
    simp only [intensity, intSersic, intExpZ]
    rw [zero_div, zero_rpow (by norm_num)]
    simp
  rw [e1, e0] at h2
  have := Real.exp_lt_one_iff.2 (by norm_num : (2 * 0.1 - 0.324 : ℝ) < 0)
  linarith

example : IntensityDecreasing 1.676 1 (1 / 2) 0.19 :=
  C27_decreasing_partial _ _ _ _ (by norm_num) (by norm_num) (by norm_num) (by norm_num)

/-! ## C28 -/

/-- C28: normalised at the effective radius for every core radius and slope. -/
theorem C28_normalised (re d rCore : ℝ) (hre : 0 < re) (hc : 0 ≤ rCore) :
    sigmaProfile re re d rCore = 1 := by
  unfold sigmaProfile
  simp only
  have : 0 < (re + rCore * re) / re := by positivity
  rw [one_div, inv_mul_cancel₀ (rpow_pos_of_pos this d).ne']

/-- C28: positive, and non-increasing when the slope is not positive (strictly decreasing when
negative, non-decreasing when positive). -/
theorem C28_monotone (re d rCore r r' : ℝ) (hre : 0 < re) (hc : 0 < rCore) (hr : 0 ≤ r) (hrr : r ≤ r') :
    0 < sigmaProfile r re d rCore ∧
    (d ≤ 0 → sigmaProfile r' re d rCore ≤ sigmaProfile r re d rCore) ∧
    (d < 0 → r < r' → sigmaProfile r' re d rCore < sigmaProfile r re d rCore) ∧
    (0 ≤ d → sigmaProfile r re d rCore ≤ sigmaProfile r' re d rCore) := by
  have h0 : 0 < (re + rCore * re) / re := by positivity
  have hk : 0 < 1 / ((re + rCore * re) / re) ^ d := by
    have := rpow_pos_of_pos h0 d; positivity
  have hb : 0 < (r + rCore * re) / re := by positivity
  have hbb : (r + rCore * re) / re ≤ (r' + rCore * re) / re :=
    (div_le_div_iff_of_pos_right hre).2 (by linarith)
  unfold sigmaProfile
  simp only
  refine ⟨mul_pos hk (rpow_pos_of_pos hb d), fun hd => ?_, fun hd hlt => ?_, fun hd => ?_⟩
  · exact mul_le_mul_of_nonneg_left (rpow_le_rpow_of_nonpos hb hbb hd) hk.le
  · refine mul_lt_mul_of_pos_left (rpow_lt_rpow_of_neg hb ?_ hd) hk
    exact (div_lt_div_iff_of_pos_right hre).2 (by linarith)
  · exact mul_le_mul_of_nonneg_left (rpow_le_rpow hb.le hbb hd) hk.le

/-- C28: only the ratio of radius and effective radius matters. -/
theorem C28_scale_free (re re' r r' d rCore : ℝ) (hre : 0 < re) (hre' : 0 < re')
    (h : r / re = r' / re') : sigmaProfile r re d rCore = sigmaProfile r' re' d rCore := by
  have e1 : ∀ a b : ℝ, 0 < b → (a + rCore * b) / b = a / b + rCore := by
    intro a b hb; field_simp
  unfold sigmaProfile
  simp only [e1 _ _ hre, e1 _ _ hre', div_self hre.ne', div_self hre'.ne', h]

/-- the default slope and core -/
example : sigmaProfile 2 (1 / 2) (-0.089) (1 / 300) ≤ sigmaProfile 1 (1 / 2) (-0.089) (1 / 300) :=
  (C28_monotone _ _ _ _ _ (by norm_num) (by norm_num) (by norm_num) (by norm_num)).2.1 (by norm_num)

/-! ## C29 -/

theorem updateTheta_eq (k : KinProfile) (v d : Profile) (hv : k.vel = some v) (hd : k.disp = some d)
    (t : List ℝ) : k.updateTheta t = .ok
      { theta := t, vel := some { v with theta := t.take v.nParams },
        disp := some { d with
          theta := (t.drop v.nParams).take (v.nParams + d.nParams - v.nParams) } } := by
  simp only [KinProfile.updateTheta, hv, hd, Option.map_some]

/-- C29: after an update the velocity profile has exactly the first `n` values, the dispersion
profile exactly the following `m`. -/
theorem C29_routing (k : KinProfile) (v d : Profile) (hv : k.vel = some v) (hd : k.disp = some d)
    (a b rest : List ℝ) (ha : a.length = v.nParams) (hb : b.length = d.nParams) :
    k.updateTheta (a ++ b ++ rest) = .ok
      { theta := a ++ b ++ rest, vel := some { v with theta := a },
        disp := some { d with theta := b } } := by
  have h1 : (a ++ b ++ rest).take v.nParams = a := by
    rw [← ha, List.append_assoc, List.take_left]
  have h2 : ((a ++ b ++ rest).drop v.nParams).take (v.nParams + d.nParams - v.nParams) = b := by
    rw [← ha, List.append_assoc, List.drop_left, Nat.add_sub_cancel_left, ← hb, List.take_left]
  simp only [KinProfile.updateTheta, hv, hd, Option.map_some, h1, h2]

/-- C29: what comes after the first `n + m` entries influences neither velocity nor dispersion,
nor does anything the profile held before. -/
theorem C29_rest_irrelevant (k k' : KinProfile) (v d v' d' : Profile)
    (hv : k.vel = some v) (hd : k.disp = some d) (hv' : k'.vel = some v') (hd' : k'.disp = some d')
    (hn : v.nParams = v'.nParams) (hm : d.nParams = d'.nParams)
    (ab rest rest' : List ℝ) (hab : v.nParams + d.nParams ≤ ab.length) (r : ℝ) :
    ∃ s s', k.updateTheta (ab ++ rest) = .ok s ∧ k'.updateTheta (ab ++ rest') = .ok s' ∧
      s.velAt r = s'.velAt r ∧ s.sigmaAt r = s'.sigmaAt r := by
  refine ⟨_, _, updateTheta_eq k v d hv hd _, updateTheta_eq k' v' d' hv' hd' _, ?_, ?_⟩
  · simp only [KinProfile.velAt]
    rw [List.take_append_of_le_length (by omega), List.take_append_of_le_length (by omega), hn]
  · simp only [KinProfile.sigmaAt]
    have h : ∀ rest : List ℝ, ((ab ++ rest).drop v.nParams).take (v.nParams + d.nParams - v.nParams) =
        (ab.drop v.nParams).take d.nParams := by
      intro rest
      rw [List.drop_append_of_le_length (by omega), Nat.add_sub_cancel_left,
        List.take_append_of_le_length (by rw [List.length_drop]; omega)]
    rw [← hn, ← hm, h, h]

/-- C29, fiducial profile: velocity uses `V_a`, `r_t`, dispersion uses `sigma0`. -/
theorem C29_fiducial (va rt s0 m0shift z r : ℝ) :
    ∃ k, KinProfile.fiducial.updateTheta [va, rt, s0, m0shift, z] = .ok k ∧
      k.velAt r = .ok (velArctan [va, rt] r) ∧ k.sigmaAt r = .ok s0 := by
  refine ⟨_, C29_routing KinProfile.fiducial ⟨[0, 0], 2⟩ ⟨[0], 1⟩ rfl rfl [va, rt] [s0] [m0shift, z]
    rfl rfl, rfl, ?_⟩
  simp [KinProfile.sigmaAt, dispConst]

/-- updates without a velocity profile fail when there is a dispersion profile -/
theorem C29_no_velocity (k : KinProfile) (d : Profile) (hv : k.vel = none) (hd : k.disp = some d)
    (theta : List ℝ) : k.updateTheta theta = .error .attributeError := by
  simp only [KinProfile.updateTheta, hv, hd, Option.map_none]

/-! ## C55 -/

/-- squared radius on the circularised ellipse of axis ratio `q`, from the in-sky coordinates
along (`a`) and across (`b`) the major axis -/
noncomputable def ellipseRadius (q a b : ℝ) : ℝ := Real.sqrt (q * a ^ 2 + b ^ 2 / q)

/-- C55 as stated: the elliptical radius used for aperture corrections is measured along the
major axis of the 2D model, i.e. along the intrinsic coordinate of `transform_int_3d` at zero
inclination. -/
def SameMajorAxis (x y q d : ℝ) : Prop :=
  rIntEllip x y q d = ellipseRadius q (transformInt3d x y 0 d 0).2.1 (transformInt3d x y 0 d 0).1

/-- C55 is false: for a galaxy at 45 degrees the two use mirrored major axes. -/
theorem C55_false : ¬ ∀ x y q d : ℝ, 0 < q → q ≤ 1 → SameMajorAxis x y q d := by
  intro h
  have h1 := h 1 1 (1 / 2) 45 (by norm_num) (by norm_num)
  have h45 : rad 45 = π / 4 := by unfold rad; ring
  unfold SameMajorAxis rIntEllip ellipseRadius transformInt3d at h1
  simp only [h45, sin_pi_div_four, cos_pi_div_four, cos_zero, sin_zero] at h1
  rw [Real.sqrt_inj (by positivity) (by positivity)] at h1
  have h2 : (Real.sqrt 2) ^ 2 = 2 := Real.sq_sqrt (by norm_num)
  ring_nf at h1
  rw [h2] at h1
  norm_num at h1

/-- C55, what holds: the elliptical radius is the one of the mirrored position angle, equivalently
of the sky mirrored across the slit; both agree for an aligned slit.  Missing: the same sign of the
position angle as the 2D model. -/
theorem C55_mirrored_partial (x y q d : ℝ) :
    rIntEllip x y q d =
      ellipseRadius q (transformInt3d x y 0 (-d) 0).2.1 (transformInt3d x y 0 (-d) 0).1 ∧
    rIntEllip x y q d =
      ellipseRadius q (transformInt3d (-x) y 0 d 0).2.1 (transformInt3d (-x) y 0 d 0).1 ∧
    SameMajorAxis x y q 0 := by
  have hn : rad (-d) = -rad d := by unfold rad; ring
  have h0 : rad 0 = 0 := by unfold rad; ring
  unfold SameMajorAxis rIntEllip ellipseRadius transformInt3d
  simp only [hn, h0, sin_neg, cos_neg, cos_zero, sin_zero]
  refine ⟨?_, ?_, ?_⟩ <;> congr 1 <;> ring

/-- C55, exactly: at a position the two radii agree if and only if the position is on one of the axes of the slit, or
the galaxy is round, or it is aligned with the slit or across it (`sin 2d = 0`). -/
theorem C55_exact (x y q d : ℝ) (hq : 0 < q) :
    SameMajorAxis x y q d ↔ x = 0 ∨ y = 0 ∨ q = 1 ∨ sin (2 * rad d) = 0 := by
  have key : SameMajorAxis x y q d ↔ sin (2 * rad d) * x * y * (q - 1 / q) = 0 := by
    unfold SameMajorAxis rIntEllip ellipseRadius transformInt3d
    simp only [cos_zero, sin_zero, sin_two_mul]
    rw [Real.sqrt_inj (by positivity) (by positivity), ← sub_eq_zero]
    refine (Eq.congr ?_ rfl).trans (mul_eq_zero_iff_left (two_ne_zero : (2 : ℝ) ≠ 0))
    ring
  rw [key]
  have hq1 : q - 1 / q = 0 ↔ q = 1 := by
    constructor
    · intro h
      have h1 : q * q = 1 := by
        field_simp at h
        linarith
      nlinarith
    · rintro rfl; norm_num
  simp only [mul_eq_zero, hq1]
  tauto

/-- C55: the elliptical radius is 0 only at the centre, scales with the distance, and for a round
galaxy is the distance from the centre. -/
theorem C55_radius (x y q d k : ℝ) (hq : 0 < q) :
    (rIntEllip x y q d = 0 ↔ x = 0 ∧ y = 0) ∧
    rIntEllip (k * x) (k * y) q d = |k| * rIntEllip x y q d ∧
    rIntEllip x y 1 d = Real.sqrt (x ^ 2 + y ^ 2) := by
  have h1 := sin_sq_add_cos_sq (rad d)
  unfold rIntEllip
  simp only
  set s := sin (rad d)
  set c := cos (rad d)
  refine ⟨?_, ?_, ?_⟩
  · rw [Real.sqrt_eq_zero (by positivity)]
    constructor
    · intro h
      have hA : 0 ≤ q * (s * x + c * y) ^ 2 := by positivity
      have hB : 0 ≤ 1 / q * (c * x - s * y) ^ 2 := by positivity
      have hA0 : q * (s * x + c * y) ^ 2 = 0 := by linarith
      have hB0 : 1 / q * (c * x - s * y) ^ 2 = 0 := by linarith
      have ea : s * x + c * y = 0 := by
        rcases mul_eq_zero.1 hA0 with h | h
        · exact absurd h hq.ne'
        · exact pow_eq_zero_iff two_ne_zero |>.1 h
      have eb : c * x - s * y = 0 := by
        rcases mul_eq_zero.1 hB0 with h | h
        · exact absurd h (by positivity)
        · exact pow_eq_zero_iff two_ne_zero |>.1 h
      constructor
      · linear_combination s * ea + c * eb - x * h1
      · linear_combination c * ea - s * eb - y * h1
    · rintro ⟨rfl, rfl⟩; simp
  · rw [← Real.sqrt_sq_eq_abs, ← Real.sqrt_mul (sq_nonneg k)]
    congr 1; ring
  · congr 1
    linear_combination (x ^ 2 + y ^ 2) * h1

end Misfit
