import Verif.Lemmas.Units
import Verif.Props.Fit1D
import Verif.Model.KinModel

/-!
# C235: the best 1D fit depends neither on the unit of flux, nor on a common factor of the errors, nor on masked pixels
-/

namespace Misfit

/-- every number of a result in another unit -/
noncomputable def scaleAll (u : ℝ) : Except PyErr (List (Fl ℝ)) → Except PyErr (List (Fl ℝ))
  | .error e => .error e
  | .ok l => .ok (l.map (Fl.scale u))

theorem gaussianLine_scale {u : ℝ} (hu : 0 < u) (xs : List ℝ) (mu v f : ℝ) :
    gaussianLine xs mu v (u * f) = scaleAll u (gaussianLine xs mu v f) := by
  have hs : ∀ s : Fl ℝ, Fl.fin (u * f) / s = Fl.scale u (Fl.fin f / s) := fun s => Fl.scale_div hu (.fin f) s
  unfold gaussianLine
  simp only [hs]
  cases npMax (xs.map fun x => normPdf x mu (v / c1D * mu)) with
  | none => rfl
  | some mx =>
    simp only [scaleAll, List.map_map]
    congr 1
    refine List.map_congr_left (fun x _ => ?_)
    simp only [Function.comp, Fl.mul_scale hu]

theorem addArr_scale (u : ℝ) (a b : List (Fl ℝ)) :
    addArr (a.map (Fl.scale u)) (b.map (Fl.scale u)) = (addArr a b).map (Fl.scale u) := by
  unfold addArr
  rw [List.zipWith_map, List.map_zipWith]
  simp only [Fl.scale_add]

theorem addLines_scale {u : ℝ} (hu : 0 < u) (xs : List ℝ) (z v f : ℝ) : ∀ (lines : List (ℝ × ℝ)) (prof : List (Fl ℝ)),
    addLines xs z v (u * f) lines (prof.map (Fl.scale u)) = scaleAll u (addLines xs z v f lines prof)
  | [], _ => rfl
  | (w, r) :: lines, prof => by
    unfold addLines
    rw [mul_assoc, gaussianLine_scale hu]
    cases gaussianLine xs (w * (1 + z)) v (f * r) with
    | error e => rfl
    | ok g =>
      simp only [scaleAll]
      rw [addArr_scale]
      exact addLines_scale hu xs z v f lines _

theorem zeros_scale (u : ℝ) (xs : List ℝ) : (xs.map fun _ => (.fin 0 : Fl ℝ)).map (Fl.scale u) = xs.map fun _ => .fin 0 := by
  rw [List.map_map]
  refine List.map_congr_left (fun x _ => ?_)
  exact congrArg Fl.fin (mul_zero u)

theorem addSets_scale {u : ℝ} (hu : 0 < u) (xs : List ℝ) (z v : ℝ) : ∀ (sets : List (ℝ × List (ℝ × ℝ))) (prof : List (Fl ℝ)),
    addSets xs z v (sets.map fun s => (u * s.1, s.2)) (prof.map (Fl.scale u)) = scaleAll u (addSets xs z v sets prof)
  | [], _ => rfl
  | (f, lines) :: sets, prof => by
    simp only [List.map_cons]
    unfold addSets
    have hl : lineProfile xs z v (u * f) lines = scaleAll u (lineProfile xs z v f lines) := by
      unfold lineProfile
      have := addLines_scale hu xs z v f lines (xs.map fun _ => .fin 0)
      rwa [zeros_scale] at this
    rw [hl]
    cases lineProfile xs z v f lines with
    | error e => rfl
    | ok g =>
      simp only [scaleAll]
      rw [addArr_scale]
      exact addSets_scale hu xs z v sets _

theorem addCont_scale (u : ℝ) (xs : List ℝ) : ∀ (cs : List ℝ) (i : Nat) (prof : List (Fl ℝ)),
    addCont xs i (cs.map (u * ·)) (prof.map (Fl.scale u)) = (addCont xs i cs prof).map (Fl.scale u)
  | [], _, _ => rfl
  | c :: cs, i, prof => by
    simp only [List.map_cons]
    unfold addCont
    have h : (xs.map fun x => (.fin (u * c * 1e-18 * x ^ i) : Fl ℝ)) = (xs.map fun x => .fin (c * 1e-18 * x ^ i)).map (Fl.scale u) := by
      rw [List.map_map]
      refine List.map_congr_left (fun x _ => congrArg Fl.fin ?_)
      ring
    rw [h, addArr_scale]
    exact addCont_scale u xs cs (i + 1) _

theorem spectrumProfile_scale {u : ℝ} (hu : 0 < u) (xs : List ℝ) (z v : ℝ) (sets : List (ℝ × List (ℝ × ℝ))) (cont : List ℝ) :
    spectrumProfile xs z v (sets.map fun s => (u * s.1, s.2)) (cont.map (u * ·)) = scaleAll u (spectrumProfile xs z v sets cont) := by
  unfold spectrumProfile
  have h := addSets_scale hu xs z v sets (xs.map fun _ => .fin 0)
  rw [zeros_scale] at h
  rw [h]
  cases addSets xs z v sets (xs.map fun _ => .fin 0) with
  | error e => rfl
  | ok prof => exact congrArg Except.ok (addCont_scale u xs cont 0 prof)

/-- Specification: the pixel with flux and error in another unit. -/
noncomputable def Pix.inUnits (u : ℝ) (p : Pix) : Pix := { p with data := .fin u * p.data, err := .fin u * p.err }

/-- Specification: the pixel with an error `u` times as large. -/
noncomputable def Pix.errTimes (u : ℝ) (p : Pix) : Pix := { p with err := .fin u * p.err }

/-- **C235**: flux, errors, line fluxes and continuum coefficients in another unit give the same residuals, for every redshift,
dispersion (zero and negative ones too) and spectrum (NaN, infinite values and zero errors included). -/
theorem C235_flux (u : ℝ) (hu : 0 < u) (z v : ℝ) (sets : List (ℝ × List (ℝ × ℝ))) (cont : List ℝ) (pix : List Pix) :
    residual1D z v (sets.map fun s => (u * s.1, s.2)) (cont.map (u * ·)) (pix.map (Pix.inUnits u)) = residual1D z v sets cont pix := by
  unfold residual1D
  have hf : (pix.map (Pix.inUnits u)).filter (fun p => decide (p.mask = 1)) =
      (pix.filter fun p => decide (p.mask = 1)).map (Pix.inUnits u) := by rw [List.filter_map]; rfl
  simp only [hf]
  generalize pix.filter (fun p => decide (p.mask = 1)) = good
  have hw : (good.map (Pix.inUnits u)).map Pix.wave = good.map Pix.wave := by rw [List.map_map]; rfl
  rw [hw, spectrumProfile_scale hu]
  cases spectrumProfile (good.map Pix.wave) z v sets cont with
  | error e => rfl
  | ok model =>
    simp only [scaleAll]
    rw [List.zipWith_map]
    congr 1
    congr 1
    funext m p
    show zeroBad ((Fl.scale u m - .fin u * p.data) / (.fin u * p.err)) = _
    rw [← Fl.scale_eq_mul hu, ← Fl.scale_eq_mul hu, ← Fl.scale_sub, Fl.scale_div_scale hu]

/-- **C235**: a factor on all errors divides the residuals by the factor. -/
theorem C235_err (u : ℝ) (hu : 0 < u) (z v : ℝ) (sets : List (ℝ × List (ℝ × ℝ))) (cont : List ℝ) (pix : List Pix) :
    residual1D z v sets cont (pix.map (Pix.errTimes u)) = scaleAll u⁻¹ (residual1D z v sets cont pix) := by
  unfold residual1D
  have hf : (pix.map (Pix.errTimes u)).filter (fun p => decide (p.mask = 1)) =
      (pix.filter fun p => decide (p.mask = 1)).map (Pix.errTimes u) := by rw [List.filter_map]; rfl
  simp only [hf]
  generalize pix.filter (fun p => decide (p.mask = 1)) = good
  have hw : (good.map (Pix.errTimes u)).map Pix.wave = good.map Pix.wave := by rw [List.map_map]; rfl
  rw [hw]
  cases spectrumProfile (good.map Pix.wave) z v sets cont with
  | error e => rfl
  | ok model =>
    simp only [scaleAll]
    rw [List.zipWith_map_right, List.map_zipWith]
    congr 1
    congr 1
    funext m p
    show zeroBad ((m - p.data) / (.fin u * p.err)) = Fl.scale u⁻¹ (zeroBad ((m - p.data) / p.err))
    rw [← Fl.scale_eq_mul hu, Fl.div_units hu]
    unfold zeroBad
    rw [Fl.isFinite_scale]
    split
    · rfl
    · exact congrArg Fl.fin (mul_zero _).symm

/-- **C235**: what masked pixels contain, and how many there are, does not matter. -/
theorem C235_mask (z v : ℝ) (sets : List (ℝ × List (ℝ × ℝ))) (cont : List ℝ) (pix pix' : List Pix)
    (h : (pix.filter fun p => decide (p.mask = 1)) = pix'.filter fun p => decide (p.mask = 1)) :
    residual1D z v sets cont pix = residual1D z v sets cont pix' := by
  unfold residual1D
  simp only [h]

/-- Specification: the sum of squares that is minimised. -/
noncomputable def sumSquares (l : List (Fl ℝ)) : ℝ := (l.map fun a => a.finVal ^ 2).sum

/-- every residual is a number: nothing is lost in `sumSquares` -/
theorem C235_finite (z v : ℝ) (sets : List (ℝ × List (ℝ × ℝ))) (cont : List ℝ) (pix : List Pix) (r : List (Fl ℝ))
    (h : residual1D z v sets cont pix = .ok r) : ∀ a ∈ r, a.isFinite = true := by
  unfold residual1D at h
  simp only at h
  split at h
  · cases h
  · cases h
    intro a ha
    obtain ⟨i, hi, rfl⟩ := List.getElem_of_mem ha
    rw [List.getElem_zipWith]
    unfold zeroBad
    split
    · assumption
    · rfl

/-- A point of the parameter space of the 1D fit. -/
structure Point1D where
  z : ℝ
  velDisp : ℝ
  flux : List ℝ
  cont : List ℝ

/-- Specification: inside the bounds of the fit (fit1D.py 208-229): a window for the redshift, and lower bounds zero for dispersion
and fluxes where they are set. -/
def Point1D.Inside (b : ℝ × ℝ) (velB fluxB : Bool) (p : Point1D) : Prop :=
  b.1 ≤ p.z ∧ p.z ≤ b.2 ∧ (velB = true → 0 ≤ p.velDisp) ∧ (fluxB = true → ∀ f ∈ p.flux, 0 ≤ f)

/-- the residuals at a point -/
noncomputable def Point1D.residual (lines : List (List (ℝ × ℝ))) (pix : List Pix) (p : Point1D) : Except PyErr (List (Fl ℝ)) :=
  residual1D p.z p.velDisp (p.flux.zip lines) p.cont pix

/-- Specification: a point inside the bounds where the sum of squares is smallest, among those with as many fluxes and
coefficients. -/
def Point1D.Best (lines : List (List (ℝ × ℝ))) (pix : List Pix) (b : ℝ × ℝ) (velB fluxB : Bool) (p : Point1D) : Prop :=
  p.Inside b velB fluxB ∧ ∃ r, p.residual lines pix = .ok r ∧
    ∀ p' : Point1D, p'.flux.length = p.flux.length → p'.cont.length = p.cont.length → p'.Inside b velB fluxB →
      ∀ r', p'.residual lines pix = .ok r' → sumSquares r ≤ sumSquares r'

/-- the point in another unit of flux -/
noncomputable def Point1D.inUnits (u : ℝ) (p : Point1D) : Point1D := { p with flux := p.flux.map (u * ·), cont := p.cont.map (u * ·) }

theorem residual_units {u : ℝ} (hu : 0 < u) (lines : List (List (ℝ × ℝ))) (pix : List Pix) (p : Point1D) :
    (p.inUnits u).residual lines (pix.map (Pix.inUnits u)) = p.residual lines pix := by
  unfold Point1D.residual Point1D.inUnits
  have h : (p.flux.map (u * ·)).zip lines = (p.flux.zip lines).map fun s => (u * s.1, s.2) := by
    rw [List.zip_map_left]
    rfl
  simp only [h]
  exact C235_flux u hu _ _ _ _ _

theorem inside_units {u : ℝ} (hu : 0 < u) (b : ℝ × ℝ) (velB fluxB : Bool) (p : Point1D) (h : p.Inside b velB fluxB) :
    (p.inUnits u).Inside b velB fluxB := by
  refine ⟨h.1, h.2.1, h.2.2.1, fun hb f hf => ?_⟩
  obtain ⟨g, hg, rfl⟩ := List.mem_map.1 hf
  exact mul_nonneg hu.le (h.2.2.2 hb g hg)

theorem units_units {u : ℝ} (hu : 0 < u) (p : Point1D) : (p.inUnits u⁻¹).inUnits u = p := by
  have h : ∀ l : List ℝ, (l.map (u⁻¹ * ·)).map (u * ·) = l := by
    intro l
    rw [List.map_map]
    conv_rhs => rw [← List.map_id l]
    refine List.map_congr_left (fun x _ => ?_)
    show u * (u⁻¹ * x) = x
    rw [← mul_assoc, mul_inv_cancel₀ hu.ne', one_mul]
  unfold Point1D.inUnits
  simp only [h]

/-- **C235**: a point is a best fit in one unit of flux exactly if the converted point is one in the other unit. -/
theorem C235_best_flux (u : ℝ) (hu : 0 < u) (lines : List (List (ℝ × ℝ))) (pix : List Pix) (b : ℝ × ℝ) (velB fluxB : Bool) (p : Point1D) :
    (p.inUnits u).Best lines (pix.map (Pix.inUnits u)) b velB fluxB ↔ p.Best lines pix b velB fluxB := by
  have hi : 0 < u⁻¹ := inv_pos.2 hu
  have hback : (p.inUnits u).inUnits u⁻¹ = p := by
    have := units_units hi p
    rwa [inv_inv] at this
  constructor
  · rintro ⟨hin, r, hr, hmin⟩
    refine ⟨hback ▸ inside_units hi b velB fluxB _ hin, r, (residual_units hu lines pix p) ▸ hr, fun p' h1 h2 h3 r' h' => ?_⟩
    refine hmin (p'.inUnits u) ?_ ?_ (inside_units hu b velB fluxB p' h3) r' ?_
    · simpa [Point1D.inUnits] using h1
    · simpa [Point1D.inUnits] using h2
    · rw [residual_units hu]; exact h'
  · rintro ⟨hin, r, hr, hmin⟩
    refine ⟨inside_units hu b velB fluxB p hin, r, by rw [residual_units hu]; exact hr, fun p' h1 h2 h3 r' h' => ?_⟩
    refine hmin (p'.inUnits u⁻¹) ?_ ?_ (inside_units hi b velB fluxB p' h3) r' ?_
    · simpa [Point1D.inUnits] using h1
    · simpa [Point1D.inUnits] using h2
    · rw [← residual_units hu, units_units hu]; exact h'

theorem sumSquares_scale (k : ℝ) (r : List (Fl ℝ)) : sumSquares (r.map (Fl.scale k)) = k ^ 2 * sumSquares r := by
  unfold sumSquares
  rw [List.map_map]
  induction r with
  | nil => simp
  | cons a r ih =>
    simp only [List.map_cons, List.sum_cons, Function.comp] at ih ⊢
    rw [ih, mul_add]
    congr 1
    cases a with
    | fin x => show (k * x) ^ 2 = k ^ 2 * x ^ 2; ring
    | nan => show (0 : ℝ) ^ 2 = k ^ 2 * 0 ^ 2; ring
    | pinf => show (0 : ℝ) ^ 2 = k ^ 2 * 0 ^ 2; ring
    | ninf => show (0 : ℝ) ^ 2 = k ^ 2 * 0 ^ 2; ring

/-- **C235**: a common factor on the errors does not change which points are best fits. -/
theorem C235_best_err (u : ℝ) (hu : 0 < u) (lines : List (List (ℝ × ℝ))) (pix : List Pix) (b : ℝ × ℝ) (velB fluxB : Bool) (p : Point1D) :
    p.Best lines (pix.map (Pix.errTimes u)) b velB fluxB ↔ p.Best lines pix b velB fluxB := by
  have hres : ∀ q : Point1D, q.residual lines (pix.map (Pix.errTimes u)) = scaleAll u⁻¹ (q.residual lines pix) :=
    fun q => C235_err u hu _ _ _ _ _
  have hk : 0 < u⁻¹ ^ 2 := pow_pos (inv_pos.2 hu) 2
  have hok : ∀ (q : Point1D) r, q.residual lines (pix.map (Pix.errTimes u)) = .ok r →
      ∃ r0, q.residual lines pix = .ok r0 ∧ r = r0.map (Fl.scale u⁻¹) := by
    intro q r h
    rw [hres] at h
    cases hq : q.residual lines pix with
    | error e => rw [hq] at h; cases h
    | ok r0 => rw [hq] at h; cases h; exact ⟨r0, rfl, rfl⟩
  have hok' : ∀ (q : Point1D) r, q.residual lines pix = .ok r →
      q.residual lines (pix.map (Pix.errTimes u)) = .ok (r.map (Fl.scale u⁻¹)) := by
    intro q r h
    rw [hres, h]
    rfl
  constructor
  · rintro ⟨hin, r, hr, hmin⟩
    obtain ⟨r0, h0, rfl⟩ := hok p r hr
    refine ⟨hin, r0, h0, fun p' h1 h2 h3 r' h' => ?_⟩
    have := hmin p' h1 h2 h3 _ (hok' p' r' h')
    rw [sumSquares_scale, sumSquares_scale] at this
    exact le_of_mul_le_mul_left this hk
  · rintro ⟨hin, r, hr, hmin⟩
    refine ⟨hin, _, hok' p r hr, fun p' h1 h2 h3 r' h' => ?_⟩
    obtain ⟨r0, h0, rfl⟩ := hok p' r' h'
    rw [sumSquares_scale, sumSquares_scale]
    exact mul_le_mul_of_nonneg_left (hmin p' h1 h2 h3 r0 h0) hk.le

/-- **C235**: with lower bounds that are not zero the unit would matter; here a point inside the bounds stays inside. -/
example : (⟨2, 100, [3], [1]⟩ : Point1D).Inside (1, 3) true true ∧ (0 : ℝ) < 1e18 :=
  ⟨⟨by norm_num, by norm_num, fun _ => by norm_num, fun _ f hf => by simp at hf; subst hf; norm_num⟩, by norm_num⟩

/-- there is a spectrum with a best fit: the continuum of order zero through one pixel -/
example : (⟨0, 1, [], [5e18]⟩ : Point1D).Best [] [⟨1, .fin 5, .fin 1, 1⟩] (0, 1) true true := by
  refine ⟨⟨le_refl _, zero_le_one, fun _ => zero_le_one, fun _ f hf => by simp at hf⟩, [.fin 0], ?_, fun p' _ _ _ r' _ => ?_⟩
  · simp only [Point1D.residual, residual1D, List.zip_nil_left, spectrumProfile, addSets, addCont, addArr, List.filter, decide_true,
      List.map_cons, List.map_nil, List.zipWith]
    have h : ((Fl.fin 0 + Fl.fin (5e18 * 1e-18 * 1 ^ 0) - Fl.fin 5) / Fl.fin 1 : Fl ℝ) = .fin 0 := by
      show (Fl.fin ((0 : ℝ) + 5e18 * 1e-18 * 1 ^ 0 + -5) : Fl ℝ) / Fl.fin 1 = .fin 0
      rw [show (0 : ℝ) + 5e18 * 1e-18 * 1 ^ 0 + -5 = 0 by norm_num]
      rw [Fl.fin_div]
      simp
    rw [h]
    rfl
  · have : sumSquares [.fin 0] = 0 := by simp [sumSquares, Fl.finVal]
    rw [this]
    exact List.sum_nonneg fun x hx => by
      obtain ⟨a, -, rfl⟩ := List.mem_map.1 hx
      exact sq_nonneg _

end Misfit
