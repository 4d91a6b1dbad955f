import Verif.Lemmas.Aper1D
import Verif.Props.Profiles
import Verif.Props.Convolve

/-!
# C50, C51, C71-C75: slit illumination and aperture dispersions
-/

namespace Misfit

/-! ## C50: slit illumination -/

theorem halfw (w : ℝ) : -0.5 * w = -(0.5 * w) := by ring

/-- **C50** (inside): a light distribution whose half-maximum interval is inside the slit is
unchanged. -/
theorem C50_inside (xs ms : List ℝ) (mu fwhm w : ℝ) (hf : 0 ≤ fwhm)
    (hl : -(w / 2) ≤ mu - fwhm / 2) (hu : mu + fwhm / 2 ≤ w / 2) :
    checkSlitIllum xs ms mu fwhm w = .ok (mu, fwhm) := by
  have h1 : ¬ (mu - 0.5 * fwhm < -0.5 * w) := by
    rw [not_lt]; linarith
  have h2 : ¬ (mu + 0.5 * fwhm > 0.5 * w) := by
    rw [gt_iff_lt, not_lt]; linarith
  have h3 : ¬ (mu - 0.5 * fwhm > mu + 0.5 * fwhm) := by
    rw [gt_iff_lt, not_lt]; linarith
  unfold checkSlitIllum
  simp only [if_neg h1, if_neg h2, decide_eq_false h1, decide_eq_false h2, decide_eq_false h3,
    Bool.or_false, Bool.false_and, Bool.false_eq_true, if_false]

/-- **C50** (centroid): the returned centre always lies in the slit. -/
theorem C50_centroid (xs ms : List ℝ) (mu fwhm w : ℝ) (hf : 0 ≤ fwhm) (hw : 0 ≤ w) (d f : ℝ)
    (h : checkSlitIllum xs ms mu fwhm w = .ok (d, f)) : -(w / 2) ≤ d ∧ d ≤ w / 2 := by
  by_cases hin : -(w / 2) ≤ mu - fwhm / 2 ∧ mu + fwhm / 2 ≤ w / 2
  · rw [C50_inside xs ms mu fwhm w hf hin.1 hin.2] at h
    obtain ⟨rfl, rfl⟩ := Prod.mk.inj (Except.ok.inj h)
    constructor <;> linarith [hin.1, hin.2]
  · have hclip : ∀ m : ℝ, -(w / 2) ≤ (if (if m > 0.5 * w then 0.5 * w else m) < -0.5 * w then -0.5 * w
        else if m > 0.5 * w then 0.5 * w else m) ∧
        (if (if m > 0.5 * w then 0.5 * w else m) < -0.5 * w then -0.5 * w
        else if m > 0.5 * w then 0.5 * w else m) ≤ w / 2 := by
      intro m
      split_ifs <;> constructor <;> linarith
    have hmod : (decide (mu - 0.5 * fwhm < -0.5 * w) || decide (mu + 0.5 * fwhm > 0.5 * w)) = true := by
      rw [Bool.or_eq_true, decide_eq_true_eq, decide_eq_true_eq]
      by_contra hc
      rw [not_or, not_lt, gt_iff_lt, not_lt] at hc
      exact hin ⟨by linarith [hc.1], by linarith [hc.2]⟩
    unfold checkSlitIllum at h
    simp only [hmod, Bool.true_or, if_true] at h
    split at h
    · exact absurd h (by simp)
    · obtain ⟨hd, _⟩ := Prod.mk.inj (Except.ok.inj h)
      rw [← hd]
      exact hclip mu

/-- **C50** (partial): for a light distribution whose half-maximum interval overlaps the slit,
the effective width is the length of the overlap, hence between 0 and the slit width.
Missing from the full claim: objects outside the slit, see `C50_false`. -/
theorem C50_overlap_partial (xs ms : List ℝ) (mu fwhm w : ℝ) (hf : 0 ≤ fwhm)
    (hw : 0 < w) (hl : mu - fwhm / 2 < w / 2) (hu : -(w / 2) < mu + fwhm / 2) :
    ∃ d f, checkSlitIllum xs ms mu fwhm w = .ok (d, f) ∧
      f = min (mu + fwhm / 2) (w / 2) - max (mu - fwhm / 2) (-(w / 2)) ∧ 0 ≤ f ∧
      f ≤ w := by
  by_cases hin : -(w / 2) ≤ mu - fwhm / 2 ∧ mu + fwhm / 2 ≤ w / 2
  · refine ⟨mu, fwhm, C50_inside xs ms mu fwhm w hf hin.1 hin.2, ?_, hf, ?_⟩
    · rw [min_eq_left hin.2, max_eq_left hin.1]; ring
    · linarith [hin.1, hin.2]
  · have hmod : (decide (mu - 0.5 * fwhm < -0.5 * w) || decide (mu + 0.5 * fwhm > 0.5 * w)) = true := by
      rw [Bool.or_eq_true, decide_eq_true_eq, decide_eq_true_eq]
      by_contra hc
      rw [not_or, not_lt, gt_iff_lt, not_lt] at hc
      exact hin ⟨by linarith [hc.1], by linarith [hc.2]⟩
    have hxl : (if mu - 0.5 * fwhm < -0.5 * w then -0.5 * w else mu - 0.5 * fwhm) =
        max (mu - fwhm / 2) (-(w / 2)) := by
      split_ifs with hc
      · rw [max_eq_right (by linarith)]; ring
      · rw [max_eq_left (by linarith)]; ring
    have hxu : (if mu + 0.5 * fwhm > 0.5 * w then 0.5 * w else mu + 0.5 * fwhm) =
        min (mu + fwhm / 2) (w / 2) := by
      split_ifs with hc
      · rw [min_eq_right (by linarith)]; ring
      · rw [min_eq_left (by linarith)]; ring
    have hfpos : 0 < fwhm := by
      rcases lt_or_eq_of_le hf with h | h
      · exact h
      · exfalso
        apply hin
        rw [← h] at hl hu ⊢
        constructor <;> linarith
    have hlt : max (mu - fwhm / 2) (-(w / 2)) < min (mu + fwhm / 2) (w / 2) := by
      rw [max_lt_iff, lt_min_iff, lt_min_iff]
      exact ⟨⟨by linarith, hl⟩, hu, by linarith⟩
    have hcross : decide (max (mu - fwhm / 2) (-(w / 2)) > min (mu + fwhm / 2) (w / 2)) = false :=
      decide_eq_false (not_lt.2 hlt.le)
    unfold checkSlitIllum
    simp only [hmod, Bool.true_or, if_true, hxl, hxu, hcross, Bool.false_and, Bool.false_eq_true,
      if_false]
    rw [if_neg (ne_of_gt (sub_pos.2 hlt))]
    refine ⟨_, _, rfl, rfl, (sub_pos.2 hlt).le, ?_⟩
    have h1 := min_le_right (mu + fwhm / 2) (w / 2)
    have h2 := le_max_right (mu - fwhm / 2) (-(w / 2))
    linarith

theorem slitGauss_pos (A mu fwhm x : ℝ) (hA : 0 < A) : 0 < slitGauss A mu fwhm x :=
  mul_pos hA (Real.exp_pos _)

theorem slitGauss_lt (A mu fwhm x y : ℝ) (hA : 0 < A) (hf : 0 < fwhm)
    (h : (x - mu) ^ 2 < (y - mu) ^ 2) : slitGauss A mu fwhm y < slitGauss A mu fwhm x := by
  unfold slitGauss
  apply mul_lt_mul_of_pos_left _ hA
  rw [Real.exp_lt_exp]
  have : 0 < 2 * (fwhm / (2 * Real.sqrt (2 * Real.log 2))) ^ 2 := by
    have := fwhmFactor_pos
    positivity
  apply div_lt_div_of_pos_right _ this
  linarith

/-- The fallback width when the light is outside the slit: position of the maximum minus position
of the half maximum. -/
theorem outside_width (xs : List ℝ) (A mu fwhm w : ℝ) (hf : 0 < fwhm) (hw : 0 ≤ w)
    (hout : mu + fwhm / 2 ≤ -(w / 2) ∨ w / 2 ≤ mu - fwhm / 2) (hx : xs ≠ []) :
    ∃ d f, checkSlitIllum xs (xs.map (slitGauss A mu fwhm)) mu fwhm w = .ok (d, f) ∧
      ∃ (h1 : argmaxL (xs.map (slitGauss A mu fwhm)) < xs.length) (h2 : argminL
          ((xs.map (slitGauss A mu fwhm)).map fun v =>
            |v - (xs.map (slitGauss A mu fwhm)).getD (argmaxL (xs.map (slitGauss A mu fwhm))) 0 * 0.5|) <
          xs.length), f = xs[argmaxL (xs.map (slitGauss A mu fwhm))] - xs[argminL
          ((xs.map (slitGauss A mu fwhm)).map fun v =>
            |v - (xs.map (slitGauss A mu fwhm)).getD (argmaxL (xs.map (slitGauss A mu fwhm))) 0 *
              0.5|)] := by
  obtain ⟨h1, -, -⟩ := argmaxL_spec (xs.map (slitGauss A mu fwhm)) (by simpa using hx)
  obtain ⟨h2, -, -⟩ := argminL_spec ((xs.map (slitGauss A mu fwhm)).map fun v =>
    |v - (xs.map (slitGauss A mu fwhm)).getD (argmaxL (xs.map (slitGauss A mu fwhm))) 0 * 0.5|)
    (by simpa using hx)
  rw [List.length_map] at h1
  rw [List.length_map, List.length_map] at h2
  unfold checkSlitIllum
  rcases hout with hout | hout
  · rcases eq_or_lt_of_le hout with heq | hout
    · have a1 : mu - 0.5 * fwhm < -0.5 * w := by linarith
      have a2 : ¬ (mu + 0.5 * fwhm > 0.5 * w) := by rw [gt_iff_lt, not_lt]; linarith
      have a3 : mu + 0.5 * fwhm = -0.5 * w := by linarith
      rw [a3] at a2
      have a4 : ¬ (-0.5 * w > -0.5 * w) := lt_irrefl _
      simp only [if_pos a1, decide_eq_true a1, if_neg a2, a3, decide_eq_false a4, Bool.true_or, Bool.false_and, if_true,
        Bool.false_eq_true, if_false, sub_self, List.getElem?_eq_getElem h1, List.getElem?_eq_getElem h2]
      exact ⟨_, _, rfl, h1, h2, rfl⟩
    have a1 : mu - 0.5 * fwhm < -0.5 * w := by linarith
    have a2 : ¬ (mu + 0.5 * fwhm > 0.5 * w) := by rw [gt_iff_lt, not_lt]; linarith
    have a3 : -0.5 * w > mu + 0.5 * fwhm := by linarith
    have a4 : mu + 0.5 * fwhm < -0.5 * w := by linarith
    have a5 : ¬ (-0.5 * w > 0.5 * w) := by rw [gt_iff_lt, not_lt]; linarith
    simp only [if_pos a1, decide_eq_true a1, if_neg a2, decide_eq_true a3, decide_eq_true a4,
      decide_eq_false a5, Bool.true_or, Bool.and_self, Bool.and_false, if_true,
      Bool.false_eq_true, if_false, sub_self, List.getElem?_eq_getElem h1,
      List.getElem?_eq_getElem h2]
    exact ⟨_, _, rfl, h1, h2, rfl⟩
  · rcases eq_or_lt_of_le hout with heq | hout
    · have a1 : ¬ (mu - 0.5 * fwhm < -0.5 * w) := by rw [not_lt]; linarith
      have a2 : mu + 0.5 * fwhm > 0.5 * w := by linarith
      have a3 : mu - 0.5 * fwhm = 0.5 * w := by linarith
      rw [a3] at a1
      have a4 : ¬ (0.5 * w > 0.5 * w) := lt_irrefl _
      simp only [if_neg a1, decide_eq_false a1, if_pos a2, decide_eq_true a2, a3, decide_eq_false a4, Bool.false_or,
        Bool.true_or, Bool.false_and, if_true, Bool.false_eq_true, if_false, sub_self, List.getElem?_eq_getElem h1,
        List.getElem?_eq_getElem h2]
      exact ⟨_, _, rfl, h1, h2, rfl⟩
    have a1 : ¬ (mu - 0.5 * fwhm < -0.5 * w) := by rw [not_lt]; linarith
    have a2 : mu + 0.5 * fwhm > 0.5 * w := by linarith
    have a3 : mu - 0.5 * fwhm > 0.5 * w := by linarith
    have a4 : ¬ (0.5 * w < -0.5 * w) := by rw [not_lt]; linarith
    simp only [if_neg a1, decide_eq_false a1, if_pos a2, decide_eq_true a2, decide_eq_true a3,
      decide_eq_false a4, Bool.false_or, Bool.true_or, Bool.and_self, Bool.and_false, if_true,
      Bool.false_eq_true, if_false, sub_self, List.getElem?_eq_getElem h1,
      List.getElem?_eq_getElem h2]
    exact ⟨_, _, rfl, h1, h2, rfl⟩

/-- For at least two pixels with different positive values the half maximum is not found at the
maximum. -/
theorem half_ne_max (ms : List ℝ) (i j : Nat) (hi : i < ms.length) (hj : j < ms.length)
    (hpos : 0 < ms[j]) (hlt : ms[j] < ms[i]) (hmax : argmaxL ms = i) :
    argminL (ms.map fun v => |v - ms.getD (argmaxL ms) 0 * 0.5|) ≠ i := by
  intro h
  obtain ⟨_, h1, _⟩ := argminL_spec (ms.map fun v => |v - ms.getD (argmaxL ms) 0 * 0.5|)
    (by intro he; simp at he; rw [he] at hi; simp at hi)
  have h2 := h1 j (by simpa using hj)
  have hd : ms.getD (argmaxL ms) 0 = ms[i] := by
    rw [hmax, List.getD_eq_getElem?_getD, List.getElem?_eq_getElem hi, Option.getD_some]
  simp only [hd] at h h2
  simp only [h, List.getElem_map] at h2
  have e1 : |ms[i] - ms[i] * 0.5| = ms[i] * 0.5 := by
    rw [abs_of_pos (by linarith)]; ring
  rw [e1] at h2
  have e2 : |ms[j] - ms[i] * 0.5| < ms[i] * 0.5 := by
    rw [abs_lt]; constructor <;> linarith
  linarith

/-- **C50**, negation: whenever the object lies to the left of the slit, at least two pixels
across, the effective width is negative. -/
theorem C50_false (xs : List ℝ) (A mu fwhm w : ℝ) (hA : 0 < A) (hf : 0 < fwhm) (hw : 0 ≤ w)
    (hout : mu + fwhm / 2 ≤ -(w / 2)) (hxs : xs.Pairwise (· < ·)) (h2 : 2 ≤ xs.length)
    (hin : ∀ x ∈ xs, -(w / 2) ≤ x) :
    ∃ d f, checkSlitIllum xs (xs.map (slitGauss A mu fwhm)) mu fwhm w = .ok (d, f) ∧ f < 0 := by
  have hx : xs ≠ [] := by intro h; rw [h] at h2; simp at h2
  obtain ⟨d, f, h, hl1, hl2, hfe⟩ := outside_width xs A mu fwhm w hf hw (Or.inl hout) hx
  refine ⟨d, f, h, ?_⟩
  obtain ⟨_, hm1, _⟩ := argmaxL_spec (xs.map (slitGauss A mu fwhm)) (by simpa using hx)
  have hdec : ∀ i j (hi : i < xs.length) (hj : j < xs.length), i < j →
      slitGauss A mu fwhm xs[j] < slitGauss A mu fwhm xs[i] := by
    intro i j hi hj hij
    have h1 := List.pairwise_iff_getElem.1 hxs i j hi hj hij
    have h2 := hin xs[i] (List.getElem_mem hi)
    apply slitGauss_lt _ _ _ _ _ hA hf
    have h3 : 0 < xs[i] - mu := by linarith
    have h4 : xs[i] - mu < xs[j] - mu := by linarith
    nlinarith
  have hmax : argmaxL (xs.map (slitGauss A mu fwhm)) = 0 := by
    by_contra hne
    have ha := hm1 0 (by simp; omega)
    rw [List.getElem_map, List.getElem_map] at ha
    have hb := hdec 0 _ (by omega) hl1 (Nat.pos_of_ne_zero hne)
    linarith
  have hmin := half_ne_max (xs.map (slitGauss A mu fwhm)) 0 1 (by simp; omega) (by simp; omega)
    (by rw [List.getElem_map]; exact slitGauss_pos _ _ _ _ hA)
    (by rw [List.getElem_map, List.getElem_map]; exact hdec 0 1 (by omega) (by omega) (by omega)) hmax
  rw [hfe, sub_neg]
  apply List.pairwise_iff_getElem.1 hxs
  omega

/-- **C50** (other side): to the right of the slit the effective width is positive, and at most
the distance of the outermost slit pixels. -/
theorem C50_right (xs : List ℝ) (A mu fwhm w : ℝ) (hA : 0 < A) (hf : 0 < fwhm) (hw : 0 ≤ w)
    (hout : w / 2 ≤ mu - fwhm / 2) (hxs : xs.Pairwise (· < ·)) (h2 : 2 ≤ xs.length)
    (hin : ∀ x ∈ xs, -(w / 2) ≤ x ∧ x ≤ w / 2) :
    ∃ d f, checkSlitIllum xs (xs.map (slitGauss A mu fwhm)) mu fwhm w = .ok (d, f) ∧
      0 < f ∧ f ≤ w := by
  have hx : xs ≠ [] := by intro h; rw [h] at h2; simp at h2
  obtain ⟨d, f, h, hl1, hl2, hfe⟩ := outside_width xs A mu fwhm w hf hw (Or.inr hout) hx
  refine ⟨d, f, h, ?_, ?_⟩
  · obtain ⟨_, hm1, _⟩ := argmaxL_spec (xs.map (slitGauss A mu fwhm)) (by simpa using hx)
    have hinc : ∀ i j (hi : i < xs.length) (hj : j < xs.length), i < j →
        slitGauss A mu fwhm xs[i] < slitGauss A mu fwhm xs[j] := by
      intro i j hi hj hij
      have h1 := List.pairwise_iff_getElem.1 hxs i j hi hj hij
      have h2 := (hin xs[j] (List.getElem_mem hj)).2
      apply slitGauss_lt _ _ _ _ _ hA hf
      have h3 : 0 < mu - xs[j] := by linarith
      have h4 : mu - xs[j] < mu - xs[i] := by linarith
      nlinarith
    have hmax : argmaxL (xs.map (slitGauss A mu fwhm)) = xs.length - 1 := by
      by_contra hne
      have ha := hm1 (xs.length - 1) (by simp; omega)
      rw [List.getElem_map, List.getElem_map] at ha
      have hb := hinc _ (xs.length - 1) hl1 (by omega) (by omega)
      linarith
    have hmin := half_ne_max (xs.map (slitGauss A mu fwhm)) (xs.length - 1) 0 (by simp; omega)
      (by simp; omega) (by rw [List.getElem_map]; exact slitGauss_pos _ _ _ _ hA)
      (by
        rw [List.getElem_map, List.getElem_map]
        exact hinc 0 _ (by omega) (by omega) (by omega)) hmax
    rw [hfe, sub_pos]
    apply List.pairwise_iff_getElem.1 hxs
    omega
  · rw [hfe]
    have h1 := (hin _ (List.getElem_mem hl1)).2
    have h2 := (hin _ (List.getElem_mem hl2)).1
    linarith

/-- **C50**, exact condition: for an object of positive width and a slit with at least two pixels, the effective width is between 0
and the slit width exactly if the object reaches into the slit or lies to the right of it. -/
theorem C50_exact (xs : List ℝ) (A mu fwhm w : ℝ) (hA : 0 < A) (hf : 0 < fwhm) (hw : 0 < w)
    (hxs : xs.Pairwise (· < ·)) (h2 : 2 ≤ xs.length) (hin : ∀ x ∈ xs, -(w / 2) ≤ x ∧ x ≤ w / 2) :
    ∃ d f, checkSlitIllum xs (xs.map (slitGauss A mu fwhm)) mu fwhm w = .ok (d, f) ∧
      (0 ≤ f ∧ f ≤ w ↔ -(w / 2) < mu + fwhm / 2) := by
  rcases le_or_gt (mu + fwhm / 2) (-(w / 2)) with hle | hgt
  · obtain ⟨d, f, h, hneg⟩ := C50_false xs A mu fwhm w hA hf hw.le hle hxs h2 fun x hx => (hin x hx).1
    exact ⟨d, f, h, fun hh => absurd hh.1 (not_le.2 hneg), fun hh => absurd hh (not_lt.2 hle)⟩
  · rcases le_or_gt (w / 2) (mu - fwhm / 2) with hr | hr
    · obtain ⟨d, f, h, h1, h3⟩ := C50_right xs A mu fwhm w hA hf hw.le hr hxs h2 hin
      exact ⟨d, f, h, fun _ => hgt, fun _ => ⟨h1.le, h3⟩⟩
    · obtain ⟨d, f, h, -, h1, h3⟩ := C50_overlap_partial xs (xs.map (slitGauss A mu fwhm)) mu fwhm w hf.le hw hr hgt
      exact ⟨d, f, h, fun _ => hgt, fun _ => ⟨h1, h3⟩⟩

example : ([-0.25, 0, 0.25] : List ℝ).Pairwise (· < ·) ∧
    (-2 : ℝ) + 1 / 2 < -(0.7 / 2) ∧ ∀ x ∈ ([-0.25, 0, 0.25] : List ℝ), -(0.7 / 2) ≤ x := by
  refine ⟨?_, by norm_num, ?_⟩
  · simp only [List.pairwise_cons, List.mem_cons, List.not_mem_nil, or_false]
    norm_num
  · simp only [List.mem_cons, List.not_mem_nil, or_false]
    rintro x (rfl | rfl | rfl) <;> norm_num

/-- **C50** (shift): the velocity shift is the centroid times c/(R × slit width of the resolution
measurement), whatever the slit width and wavelength; hence bounded by its value at the slit
edge. -/
theorem C50_shift (R wR w lam0 delx c : ℝ) (hR : 0 < R) (hwR : 0 < wR) (hw : 0 < w) (hl : 0 < lam0)
    (hc : 0 < c) (hd : -(w / 2) ≤ delx ∧ delx ≤ w / 2) :
    velShift R wR w lam0 delx c = delx * (c / (R * wR)) ∧
    |velShift R wR w lam0 delx c| ≤ w / 2 * (c / (R * wR)) := by
  have h1 : velShift R wR w lam0 delx c = delx * (c / (R * wR)) := by
    unfold velShift
    field_simp
  refine ⟨h1, ?_⟩
  rw [h1, abs_mul, abs_of_pos (div_pos hc (mul_pos hR hwR))]
  exact mul_le_mul_of_nonneg_right (abs_le.2 hd) (div_pos hc (mul_pos hR hwR)).le

/-- **C50** (consequence of the negation): a negative effective width becomes a negative
instrument dispersion. -/
theorem C50_false_dispersion (R wR lam0 fwhm : ℝ) (hR : 0 < R) (hwR : 0 < wR) (hl : 0 < lam0)
    (hf : fwhm < 0) : ∃ s, rowDisp R wR lam0 fwhm = .fin s ∧ s < 0 := by
  have h1 : R * wR / fwhm < 0 := div_neg_of_pos_of_neg (mul_pos hR hwR) hf
  refine ⟨lam0 / (R * wR / fwhm) / (2 * Real.sqrt (2 * Real.log 2)), ?_, ?_⟩
  · unfold rowDisp
    simp only [Fl.fin_div, if_neg (ne_of_lt hf), if_neg (ne_of_lt h1), if_neg (ne_of_gt fwhmFactor_pos)]
  · exact div_neg_of_neg_of_pos (div_neg_of_pos_of_neg hl h1) fwhmFactor_pos

/-! ## C51: aperture dispersion -/

/-- A PSF that spreads light without negative parts: no convolution at all, or a 2D stamp
with non-negative entries and a positive centre. -/
def PosPSF (fwhm : ℝ) (s : ConvStamp) : Prop :=
  fwhm ≤ 0 ∨ ∃ kn km k, s = .flat kn km k ∧ (∀ j i, 0 ≤ k j i) ∧
    ∃ (hn : 0 < kn) (hm : 0 < km), 0 < k ⟨(kn - 1) / 2, by omega⟩ ⟨(km - 1) / 2, by omega⟩

theorem psf_stage {n m : Nat} (num I : Fin n → Fin m → ℝ) (fwhm : ℝ) (s : ConvStamp)
    (hs : PosPSF fwhm s) (hI : ∀ y x, 0 ≤ I y x) (lo hi : ℝ) (h1 : ∀ y x, lo * I y x ≤ num y x)
    (h2 : ∀ y x, num y x ≤ hi * I y x) :
    ∃ num' den', psfFlatObj num fwhm s = .ok num' ∧ psfFlatObj I fwhm s = .ok den' ∧
      (∀ y x, lo * den' y x ≤ num' y x) ∧ (∀ y x, num' y x ≤ hi * den' y x) ∧
      (∀ y x, 0 ≤ den' y x) ∧ ∀ y x, 0 < I y x → 0 < den' y x := by
  by_cases hf : 0 < fwhm
  · rcases hs with hs | ⟨kn, km, k, rfl, hk, hn, hm, hc⟩
    · exact absurd hf (not_lt.2 hs)
    · refine ⟨convSame2 num k, convSame2 I k, by simp [psfFlatObj, hf, fftSame2],
        by simp [psfFlatObj, hf, fftSame2], fun y x => ?_, fun y x => ?_, ?_, fun y x h => ?_⟩
      · rw [← convSame2_smul]
        exact convSame2_mono _ _ k h1 hk y x
      · rw [← convSame2_smul]
        exact convSame2_mono _ _ k h2 hk y x
      · exact convSame2_nonneg I k hI hk
      · exact lt_of_lt_of_le (mul_pos h hc) (convSame2_ge I k hI hk hn hm y x)
  · refine ⟨num, I, by simp [psfFlatObj, hf], by simp [psfFlatObj, hf], h1, h2, hI,
      fun _ _ h => h⟩

/-- Sum over a slice that contains a pixel with light. -/
theorem slice_total_pos {n m : Nat} (den : Fin n → Fin m → ℝ) (y0 y1 x0 x1 : Nat)
    (g : Fin (min y1 n - min y0 n) → ℝ) (hg : ∀ j, 0 < g j) (hden : ∀ y x, 0 ≤ den y x)
    (y : Fin n) (x : Fin m) (hy : y0 ≤ y.val ∧ y.val < y1) (hx : x0 ≤ x.val ∧ x.val < x1)
    (hp : 0 < den y x) : 0 < ∑ j, ∑ i, slice2 den y0 y1 x0 x1 j i * g j := by
  have hyl : y.val - min y0 n < min y1 n - min y0 n := by omega
  have hxl : x.val - min x0 m < min x1 m - min x0 m := by omega
  have hnn : ∀ j i, 0 ≤ slice2 den y0 y1 x0 x1 j i * g j := fun j i =>
    mul_nonneg (hden _ _) (hg j).le
  refine lt_of_lt_of_le ?_ (Finset.single_le_sum
    (f := fun j => ∑ i, slice2 den y0 y1 x0 x1 j i * g j)
    (fun j _ => Finset.sum_nonneg fun i _ => hnn j i) (Finset.mem_univ ⟨y.val - min y0 n, hyl⟩))
  refine lt_of_lt_of_le ?_ (Finset.single_le_sum
    (f := fun i => slice2 den y0 y1 x0 x1 ⟨y.val - min y0 n, hyl⟩ i * g ⟨y.val - min y0 n, hyl⟩)
    (fun i _ => hnn _ i) (Finset.mem_univ ⟨x.val - min x0 m, hxl⟩))
  apply mul_pos _ (hg _)
  unfold slice2
  have ey : (⟨min y0 n + (y.val - min y0 n), by omega⟩ : Fin n) = y := Fin.ext (by simp; omega)
  have ex : (⟨min x0 m + (x.val - min x0 m), by omega⟩ : Fin m) = x := Fin.ext (by simp; omega)
  simp only [ey, ex]
  exact hp

/-- Convolution, trimming and weighted mean of a second moment image. -/
theorem weighted_mean {n m : Nat} (num I : Fin n → Fin m → ℝ) (fwhm : ℝ) (s : ConvStamp)
    (hs : PosPSF fwhm s) (hI : ∀ y x, 0 ≤ I y x) (smin smax : ℝ) (h0 : 0 ≤ smin) (h0' : 0 ≤ smax)
    (h1 : ∀ y x, smin ^ 2 * I y x ≤ num y x) (h2 : ∀ y x, num y x ≤ smax ^ 2 * I y x)
    (y0 y1 x0 x1 : Nat) (y : Fin n) (x : Fin m) (hy : y0 ≤ y.val ∧ y.val < y1)
    (hx : x0 ≤ x.val ∧ x.val < x1) (hp : 0 < I y x) (method : String)
    (hm : method = "optimal" ∨ method = "boxcar") (width dx dy : ℝ) (hd : 0 < dx * dy)
    (hw : 0 < width / dy) :
    ∃ num' den' g σ, psfFlatObj num fwhm s = .ok num' ∧ psfFlatObj I fwhm s = .ok den' ∧
      extractWeights method width dy (min y1 n - min y0 n) = .ok g ∧
      aperSigma (slice2 num' y0 y1 x0 x1) (slice2 den' y0 y1 x0 x1) g dx dy = .fin σ ∧
      smin ≤ σ ∧ σ ≤ smax := by
  obtain ⟨num', den', e1, e2, b1, b2, b3, b4⟩ := psf_stage num I fwhm s hs hI _ _ h1 h2
  obtain ⟨g, e3, hg⟩ := extractWeights_pos method width dy (min y1 n - min y0 n) hm hw (by omega)
  obtain ⟨σ, e4, c1, c2, -⟩ := aperSigma_bounds (slice2 num' y0 y1 x0 x1) (slice2 den' y0 y1 x0 x1) g
    dx dy (smin ^ 2) (smax ^ 2) hd (fun j => (hg j).le) (sq_nonneg _) (fun j i => b1 _ _)
    (fun j i => b2 _ _) (slice_total_pos den' y0 y1 x0 x1 g hg b3 y x hy hx (b4 y x hp))
  rw [Real.sqrt_sq h0] at c1
  rw [Real.sqrt_sq h0'] at c2
  exact ⟨num', den', _, σ, e1, e2, e3, e4, c1, c2⟩

/-- **C51** (dispersion model): the aperture dispersion lies between the smallest and the largest
local dispersion. -/
theorem C51_disp (nP : Nat) (sigSq I : Fin (4 * nP + 3) → Fin (4 * nP + 3) → ℝ) (fwhm : ℝ)
    (s : ConvStamp) (hs : PosPSF fwhm s) (hI : ∀ y x, 0 ≤ I y x) (smin smax : ℝ) (h0 : 0 ≤ smin)
    (h0' : 0 ≤ smax) (hσ : ∀ y x, smin ^ 2 ≤ sigSq y x ∧ sigSq y x ≤ smax ^ 2)
    (y x : Fin (4 * nP + 3)) (hy : nP + 1 ≤ y.val ∧ y.val < 3 * nP + 2)
    (hx : nP + 1 ≤ x.val ∧ x.val < 3 * nP + 2) (hp : 0 < I y x) (method : String)
    (hm : method = "optimal" ∨ method = "boxcar") (width dx dy : ℝ) (hd : 0 < dx * dy)
    (hw : 0 < width / dy) :
    ∃ σ, sigmaAperOf nP sigSq I fwhm s method width dx dy = .ok (.fin σ) ∧ smin ≤ σ ∧ σ ≤ smax := by
  obtain ⟨num', den', g, σ, e1, e2, e3, e4, c⟩ := weighted_mean (fun y x => sigSq y x * I y x) I fwhm
    s hs hI smin smax h0 h0' (fun y x => mul_le_mul_of_nonneg_right (hσ y x).1 (hI y x))
    (fun y x => mul_le_mul_of_nonneg_right (hσ y x).2 (hI y x)) (nP + 1) (3 * nP + 2) (nP + 1)
    (3 * nP + 2) y x hy hx hp method hm width dx dy hd hw
  refine ⟨σ, ?_, c⟩
  unfold sigmaAperOf
  simp only [e1, e2, e3, bind, Except.bind, e4]

/-- The number of pixels across the slit recomputed by the misaligned version. -/
theorem misalign_pixels (nP : Nat) (slit : ℝ) (hs : 0 < slit) :
    (npRound (0.5 * slit / (0.5 * slit / ((nP : ℝ) + 0.5)) - 0.5)).toNat = nP := by
  have h1 : 0.5 * slit / (0.5 * slit / ((nP : ℝ) + 0.5)) - 0.5 = nP := by
    have : (0 : ℝ) ≤ nP := Nat.cast_nonneg nP
    have h2 : ((nP : ℝ) + 0.5) ≠ 0 := by positivity
    have h3 : (0.5 : ℝ) * slit ≠ 0 := by positivity
    rw [div_div_eq_mul_div, mul_div_cancel_left₀ _ h3]
    ring
  rw [h1]
  unfold npRound
  have hfl : ⌊(nP : ℝ)⌋ = (nP : ℤ) := Int.floor_natCast nP
  simp only [hfl]
  rw [if_pos (by norm_num)]
  exact Int.toNat_natCast nP

/-- **C51** (misaligned model). -/
theorem C51_misalign (nP : Nat) (sigSq I : Fin (4 * nP + 3) → Fin (4 * nP + 3) → ℝ) (fwhm : ℝ)
    (s : ConvStamp) (hs : PosPSF fwhm s) (hI : ∀ y x, 0 ≤ I y x) (smin smax : ℝ) (h0 : 0 ≤ smin)
    (h0' : 0 ≤ smax) (hσ : ∀ y x, smin ^ 2 ≤ sigSq y x ∧ sigSq y x ≤ smax ^ 2)
    (y x : Fin (4 * nP + 3)) (hy : nP + 1 ≤ y.val ∧ y.val < 3 * nP + 2)
    (hx : nP + 1 ≤ x.val ∧ x.val < 3 * nP + 2) (hp : 0 < I y x) (method : String)
    (hm : method = "optimal" ∨ method = "boxcar") (slit width dy : ℝ) (hsl : 0 < slit) (hdy : 0 < dy)
    (hw : 0 < width) :
    ∃ σ, sigmaMisalignOf nP sigSq I fwhm s method slit width (0.5 * slit / ((nP : ℝ) + 0.5)) dy =
      .ok (.fin σ) ∧ smin ≤ σ ∧ σ ≤ smax := by
  have hnP : (0 : ℝ) ≤ nP := Nat.cast_nonneg nP
  have hdx : 0 < 0.5 * slit / ((nP : ℝ) + 0.5) := by positivity
  obtain ⟨num', den', g, σ, e1, e2, e3, e4, c⟩ := weighted_mean (fun y x => sigSq y x * I y x) I fwhm
    s hs hI smin smax h0 h0' (fun y x => mul_le_mul_of_nonneg_right (hσ y x).1 (hI y x))
    (fun y x => mul_le_mul_of_nonneg_right (hσ y x).2 (hI y x)) (nP + 1) (2 * nP + (nP + 1) + 1)
    (nP + 1) (2 * nP + (nP + 1) + 1) y x ⟨hy.1, by omega⟩ ⟨hx.1, by omega⟩ hp method hm width
    (0.5 * slit / ((nP : ℝ) + 0.5)) dy (mul_pos hdx hdy) (div_pos hw hdy)
  refine ⟨σ, ?_, c⟩
  unfold sigmaMisalignOf
  rw [misalign_pixels nP slit hsl]
  simp only [e1, e2, e3, bind, Except.bind, e4]

/-- **C51** (rotation model): the same for the root mean square velocity. -/
theorem C51_rot {nZ : Nat} (g : RotGrid)
    (V sig I : Cube nZ (g.nPixY + 2 * g.padY) (g.nPixX + 2 * g.padX) ℝ) (deltZ fwhm : ℝ)
    (s : ConvStamp) (hs : PosPSF fwhm s) (hI : ∀ z y x, 0 ≤ I z y x) (hz : 0 < deltZ)
    (smin smax : ℝ) (h0 : 0 ≤ smin) (h0' : 0 ≤ smax)
    (hσ : ∀ z y x, smin ≤ Real.sqrt (V z y x ^ 2 + sig z y x ^ 2) ∧
      Real.sqrt (V z y x ^ 2 + sig z y x ^ 2) ≤ smax)
    (z : Fin nZ) (y : Fin (g.nPixY + 2 * g.padY)) (x : Fin (g.nPixX + 2 * g.padX))
    (hy : g.padY ≤ y.val ∧ y.val < g.nPixY + g.padY)
    (hx : g.padX ≤ x.val ∧ x.val < g.nPixX + g.padX) (hp : 0 < I z y x) (method : String)
    (hm : method = "optimal" ∨ method = "boxcar") (yAper : ℝ) (hd : 0 < g.deltX * g.deltY)
    (hw : 0 < yAper / g.deltY) :
    ∃ σ, rotSigma g V sig I deltZ fwhm s method yAper = .ok (.fin σ) ∧ smin ≤ σ ∧ σ ≤ smax := by
  have hsq : ∀ z y x, smin ^ 2 ≤ V z y x ^ 2 + sig z y x ^ 2 ∧
      V z y x ^ 2 + sig z y x ^ 2 ≤ smax ^ 2 := by
    intro z y x
    have hn : 0 ≤ V z y x ^ 2 + sig z y x ^ 2 := by positivity
    constructor
    · calc smin ^ 2 ≤ Real.sqrt (V z y x ^ 2 + sig z y x ^ 2) ^ 2 :=
          pow_le_pow_left₀ h0 (hσ z y x).1 2
        _ = _ := Real.sq_sqrt hn
    · calc V z y x ^ 2 + sig z y x ^ 2 = Real.sqrt (V z y x ^ 2 + sig z y x ^ 2) ^ 2 :=
          (Real.sq_sqrt hn).symm
        _ ≤ _ := pow_le_pow_left₀ (Real.sqrt_nonneg _) (hσ z y x).2 2
  obtain ⟨num', den', w, σ, e1, e2, e3, e4, c⟩ := weighted_mean
    (fun y x => (∑ z, (V z y x ^ 2 + sig z y x ^ 2) * I z y x) * deltZ)
    (fun y x => (∑ z, I z y x) * deltZ) fwhm s hs
    (fun y x => mul_nonneg (Finset.sum_nonneg fun z _ => hI z y x) hz.le) smin smax h0 h0'
    (fun y x => by
      rw [← mul_assoc, Finset.mul_sum]
      exact mul_le_mul_of_nonneg_right (Finset.sum_le_sum fun z _ =>
        mul_le_mul_of_nonneg_right (hsq z y x).1 (hI z y x)) hz.le)
    (fun y x => by
      rw [← mul_assoc, Finset.mul_sum]
      exact mul_le_mul_of_nonneg_right (Finset.sum_le_sum fun z _ =>
        mul_le_mul_of_nonneg_right (hsq z y x).2 (hI z y x)) hz.le)
    g.padY (g.nPixY + g.padY) g.padX (g.nPixX + g.padX) y x hy hx
    (mul_pos (lt_of_lt_of_le hp (Finset.single_le_sum (f := fun z => I z y x)
      (fun z _ => hI z y x) (Finset.mem_univ z))) hz) method hm yAper g.deltX g.deltY hd hw
  refine ⟨σ, ?_, c⟩
  unfold rotSigma
  simp only [e1, e2, e3, bind, Except.bind, e4]

/-- **C51** (errors): any other extraction method is a ValueError in all three models. -/
theorem C51_unknown (method : String) (h1 : method ≠ "optimal") (h2 : method ≠ "boxcar")
    (nP : Nat) (sigSq I : Fin (4 * nP + 3) → Fin (4 * nP + 3) → ℝ) (fwhm : ℝ) (s : ConvStamp)
    (slit width dx dy : ℝ) :
    sigmaAperOf nP sigSq I fwhm s method width dx dy = .error .valueError ∧
    sigmaMisalignOf nP sigSq I fwhm s method slit width dx dy = .error .valueError ∧
    ∀ {nZ : Nat} (g : RotGrid)
      (V sig J : Cube nZ (g.nPixY + 2 * g.padY) (g.nPixX + 2 * g.padX) ℝ) (deltZ yAper : ℝ),
      rotSigma g V sig J deltZ fwhm s method yAper = .error .valueError := by
  have hw : ∀ w d n, extractWeights method w d n = .error .valueError := by
    intro w d n
    rw [extractWeights, if_neg h1, if_neg h2]
  have hp : ∀ {n m : Nat} (a : Fin n → Fin m → ℝ), psfFlatObj a fwhm s = .error .valueError ∨
      ∃ b, psfFlatObj a fwhm s = .ok b := by
    intro n m a
    unfold psfFlatObj
    split
    · cases s with
      | unset => exact Or.inl rfl
      | flat kn km k => exact Or.inr ⟨_, rfl⟩
      | cube kn km k => exact Or.inl rfl
    · exact Or.inr ⟨_, rfl⟩
  refine ⟨?_, ?_, ?_⟩
  · unfold sigmaAperOf
    rcases hp (fun y x => sigSq y x * I y x) with h | ⟨b, h⟩ <;>
      rcases hp I with h' | ⟨b', h'⟩ <;> simp only [h, h', hw, bind, Except.bind]
  · unfold sigmaMisalignOf
    rcases hp (fun y x => sigSq y x * I y x) with h | ⟨b, h⟩ <;>
      rcases hp I with h' | ⟨b', h'⟩ <;> simp only [h, h', hw, bind, Except.bind]
  · intro nZ g V sig J deltZ yAper
    unfold rotSigma
    rcases hp (fun y x => (∑ z, (V z y x ^ 2 + sig z y x ^ 2) * J z y x) * deltZ) with h | ⟨b, h⟩ <;>
      rcases hp (fun y x => (∑ z, J z y x) * deltZ) with h' | ⟨b', h'⟩ <;>
      simp only [h, h', hw, bind, Except.bind]

example : PosPSF 1 (.flat 3 3 fun _ _ => 1) := Or.inr
  ⟨3, 3, _, rfl, fun _ _ => zero_le_one, by norm_num, by norm_num, zero_lt_one⟩

end Misfit
