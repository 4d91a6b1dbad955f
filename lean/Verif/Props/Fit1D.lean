import Verif.Lemmas.Fit1D
import Verif.Props.Objects
import Verif.Props.Posterior
import Mathlib.Data.Rat.Floor
import Mathlib.Algebra.Order.Archimedean.Real.Basic

/-!
# C44, C45, C63-C66: 1D line models and the 1D fit
-/

namespace Misfit

/-! ## C45: the 1D profile -/

/-- `x0` is a pixel of the array at least as near to `mu` as every other pixel. -/
def IsNearest (xs : List ℝ) (mu x0 : ℝ) : Prop := x0 ∈ xs ∧ ∀ x ∈ xs, |x0 - mu| ≤ |x - mu|

/-- The normal density. -/
noncomputable def normalDensity1D (mu sig x : ℝ) : ℝ :=
  Real.exp (-(x - mu) ^ 2 / (2 * sig ^ 2)) / (sig * Real.sqrt (2 * Real.pi))

/-- The width of a line in wavelength; the speed of light is in km/s. -/
noncomputable def lineSig (velDisp mu : ℝ) : ℝ := velDisp / 299792.458 * mu

/-- The shape of one line as sampled: the density rescaled such that the pixel nearest to
the centre has the peak value of the density. -/
noncomputable def lineShape (mu sig x0 x : ℝ) : ℝ :=
  normalDensity1D mu sig x / normalDensity1D mu sig x0 * (1 / (sig * Real.sqrt (2 * Real.pi)))

theorem normalDensity1D_pos (mu sig x : ℝ) (hs : 0 < sig) : 0 < normalDensity1D mu sig x :=
  div_pos (Real.exp_pos _) (mul_pos hs sqrt2pi_pos)

theorem pdf_eq_density (x mu sig : ℝ) (hs : 0 < sig) :
    Real.exp (-((x - mu) / sig) ^ 2 / 2) / Real.sqrt (2 * Real.pi) / sig = normalDensity1D mu sig x := by
  unfold normalDensity1D
  rw [div_div, mul_comm (Real.sqrt _) sig]
  congr 2
  field_simp

theorem gaussianLine_eq (xs : List ℝ) (hx : xs ≠ []) (mu velSig : ℝ) (hs : 0 < lineSig velSig mu) :
    ∃ x0, IsNearest xs mu x0 ∧ ∀ flux, gaussianLine xs mu velSig flux =
      .ok (xs.map fun x => .fin (flux * lineShape mu (lineSig velSig mu) x0 x)) := by
  have hs' : 0 < velSig / c1D * mu := hs
  have hmap : (xs.map fun x => normPdf x mu (velSig / c1D * mu)) =
      (xs.map (normalDensity1D mu (lineSig velSig mu))).map Fl.fin := by
    rw [List.map_map]
    apply List.map_congr_left
    intro x _
    show normPdf x mu (velSig / c1D * mu) = Fl.fin _
    rw [normPdf, if_pos hs', pdf_eq_density _ _ _ hs']
    rfl
  obtain ⟨m, hm, hmax, hle⟩ := npMax_fin (xs.map (normalDensity1D mu (lineSig velSig mu)))
    (by simpa using hx)
  obtain ⟨x0, hx0, rfl⟩ := List.mem_map.1 hm
  refine ⟨x0, ⟨hx0, fun x hxm => ?_⟩, fun flux => ?_⟩
  · have := hle _ (List.mem_map_of_mem hxm)
    rw [← pdf_eq_density _ _ _ hs, ← pdf_eq_density _ _ _ hs, div_div, div_div,
      div_le_div_iff_of_pos_right (mul_pos sqrt2pi_pos hs)] at this
    exact gauss_nearest hs this
  · unfold gaussianLine
    simp only [hmap, hmax]
    rw [List.map_map, List.map_map]
    congr 1
    apply List.map_congr_left
    intro x _
    have hne : velSig / c1D * mu * Real.sqrt (2 * Real.pi) ≠ 0 :=
      ne_of_gt (mul_pos hs' sqrt2pi_pos)
    have hg : normalDensity1D mu (lineSig velSig mu) x0 ≠ 0 := ne_of_gt (normalDensity1D_pos _ _ _ hs)
    simp only [Function.comp_apply, Fl.fin_div, if_neg hne, if_neg hg, Fl.fin_mul]
    congr 1
    unfold lineShape
    rw [show lineSig velSig mu = velSig / c1D * mu from rfl]
    ring

/-- **C45** (one line): for a positive width the sampled line is the flux times the
normal density, rescaled so that the pixel nearest to the line centre gets the peak value
flux/(sigma sqrt(2 pi)); the rescaling does not depend on the flux. -/
theorem C45_line (xs : List ℝ) (hx : xs ≠ []) (mu velSig : ℝ) (hs : 0 < lineSig velSig mu) :
    ∃ x0, IsNearest xs mu x0 ∧
      lineShape mu (lineSig velSig mu) x0 x0 = 1 / (lineSig velSig mu * Real.sqrt (2 * Real.pi)) ∧
      (∀ x ∈ xs, 0 < lineShape mu (lineSig velSig mu) x0 x ∧
        lineShape mu (lineSig velSig mu) x0 x ≤ lineShape mu (lineSig velSig mu) x0 x0) ∧
      ∀ flux, gaussianLine xs mu velSig flux =
        .ok (xs.map fun x => .fin (flux * lineShape mu (lineSig velSig mu) x0 x)) := by
  obtain ⟨x0, h1, h2⟩ := gaussianLine_eq xs hx mu velSig hs
  have hg := normalDensity1D_pos mu _ x0 hs
  have hpeak : lineShape mu (lineSig velSig mu) x0 x0 =
      1 / (lineSig velSig mu * Real.sqrt (2 * Real.pi)) := by
    unfold lineShape
    rw [div_self (ne_of_gt hg), one_mul]
  have hw : 0 < 1 / (lineSig velSig mu * Real.sqrt (2 * Real.pi)) :=
    div_pos one_pos (mul_pos hs sqrt2pi_pos)
  refine ⟨x0, h1, hpeak, fun x hxm => ⟨?_, ?_⟩, h2⟩
  · exact mul_pos (div_pos (normalDensity1D_pos _ _ _ hs) hg) hw
  · rw [hpeak]
    unfold lineShape
    have hle : normalDensity1D mu (lineSig velSig mu) x ≤ normalDensity1D mu (lineSig velSig mu) x0 := by
      unfold normalDensity1D
      apply div_le_div_of_nonneg_right _ (le_of_lt (mul_pos hs sqrt2pi_pos))
      rw [Real.exp_le_exp]
      apply div_le_div_of_nonneg_right _ (by positivity)
      have := sq_le_sq.2 (h1.2 x hxm)
      linarith
    calc _ ≤ 1 * (1 / (lineSig velSig mu * Real.sqrt (2 * Real.pi))) := by
          apply mul_le_mul_of_nonneg_right _ (le_of_lt hw)
          rw [div_le_one hg]
          exact hle
      _ = _ := one_mul _

/-- **C45** (partial): when the line centre is one of the pixels, the line equals flux times the
normal density at every pixel.
Missing from the full claim: line centres between pixels, see `C45_false`. -/
theorem C45_density_partial (xs : List ℝ) (mu velSig flux : ℝ) (hmu : mu ∈ xs)
    (hs : 0 < lineSig velSig mu) :
    gaussianLine xs mu velSig flux =
      .ok (xs.map fun x => .fin (flux * normalDensity1D mu (lineSig velSig mu) x)) := by
  obtain ⟨x0, ⟨_, hn⟩, h2⟩ := gaussianLine_eq xs (List.ne_nil_of_mem hmu) mu velSig hs
  rw [h2]
  have hx0 : x0 = mu := by
    have := hn mu hmu
    rw [sub_self, abs_zero] at this
    have h := abs_eq_zero.1 (le_antisymm this (abs_nonneg _))
    linarith
  subst hx0
  congr 1
  apply List.map_congr_left
  intro x _
  have hpeak : normalDensity1D x0 (lineSig velSig x0) x0 =
      1 / (lineSig velSig x0 * Real.sqrt (2 * Real.pi)) := by
    unfold normalDensity1D
    simp
  unfold lineShape
  rw [← hpeak, div_mul_cancel₀]
  exact ne_of_gt (normalDensity1D_pos _ _ _ hs)

/-- **C45**, negation: on an array that does not contain the line centre, every pixel of a line with
positive flux is larger than flux times the normal density; a single pixel gets the full peak
value however far it is from the line. -/
theorem C45_false (xs : List ℝ) (hx : xs ≠ []) (mu velSig flux : ℝ) (hmu : mu ∉ xs)
    (hs : 0 < lineSig velSig mu) (hf : 0 < flux) :
    (∃ ys : ℝ → ℝ, gaussianLine xs mu velSig flux = .ok (xs.map fun x => .fin (ys x)) ∧
      ∀ x ∈ xs, flux * normalDensity1D mu (lineSig velSig mu) x < ys x) ∧
    ∀ x, gaussianLine [x] mu velSig flux =
      .ok [.fin (flux * (1 / (lineSig velSig mu * Real.sqrt (2 * Real.pi))))] := by
  constructor
  · obtain ⟨x0, ⟨hx0, _⟩, h2⟩ := gaussianLine_eq xs hx mu velSig hs
    refine ⟨fun x => flux * lineShape mu (lineSig velSig mu) x0 x, h2 flux, fun x _ => ?_⟩
    apply mul_lt_mul_of_pos_left _ hf
    have hg := normalDensity1D_pos mu _ x hs
    have hg0 := normalDensity1D_pos mu _ x0 hs
    have hne : x0 ≠ mu := fun h => hmu (h ▸ hx0)
    have hlt : normalDensity1D mu (lineSig velSig mu) x0 <
        1 / (lineSig velSig mu * Real.sqrt (2 * Real.pi)) := by
      unfold normalDensity1D
      apply div_lt_div_of_pos_right _ (mul_pos hs sqrt2pi_pos)
      rw [Real.exp_lt_one_iff]
      have : 0 < (x0 - mu) ^ 2 := by
        have : x0 - mu ≠ 0 := sub_ne_zero.2 hne
        positivity
      apply div_neg_of_neg_of_pos (by linarith) (by positivity)
    unfold lineShape
    rw [div_mul_eq_mul_div, lt_div_iff₀ hg0]
    exact mul_lt_mul_of_pos_left hlt hg
  · intro x
    obtain ⟨x0, ⟨hx0, _⟩, h2⟩ := gaussianLine_eq [x] (by simp) mu velSig hs
    rw [List.mem_singleton] at hx0
    subst hx0
    rw [h2]
    have hg0 := normalDensity1D_pos mu _ x0 hs
    simp only [List.map_cons, List.map_nil]
    unfold lineShape
    rw [div_self (ne_of_gt hg0), one_mul]

/-- **C45**, exact: the line is flux times the normal density exactly if the line centre is one of
the pixels (or the flux is zero). -/
theorem C45_exact (xs : List ℝ) (hx : xs ≠ []) (mu velSig flux : ℝ) (hs : 0 < lineSig velSig mu) :
    gaussianLine xs mu velSig flux =
        .ok (xs.map fun x => .fin (flux * normalDensity1D mu (lineSig velSig mu) x)) ↔
      flux = 0 ∨ mu ∈ xs := by
  constructor
  · intro h
    by_contra hc
    rw [not_or] at hc
    obtain ⟨⟨ys, h1, h2⟩, -⟩ := C45_false xs hx mu velSig 1 hc.2 hs one_pos
    obtain ⟨x0, -, h3⟩ := gaussianLine_eq xs hx mu velSig hs
    rw [h3] at h h1
    obtain ⟨x, hxm⟩ := List.exists_mem_of_ne_nil xs hx
    have e1 := List.map_inj_left.1 (Except.ok.inj h) x hxm
    have e2 := List.map_inj_left.1 (Except.ok.inj h1) x hxm
    have e1' := mul_left_cancel₀ hc.1 (Fl.fin.inj e1)
    have e2' := Fl.fin.inj e2
    have := h2 x hxm
    rw [← e2', e1'] at this
    exact lt_irrefl _ this
  · rintro (rfl | h)
    · obtain ⟨x0, -, h3⟩ := gaussianLine_eq xs hx mu velSig hs
      rw [h3]
      simp only [zero_mul]
    · exact C45_density_partial xs mu velSig flux h hs

/-- **C45** (errors): a line on an empty array is a ValueError, a non-positive width gives NaN
everywhere. -/
theorem C45_degenerate (mu velSig flux : ℝ) :
    gaussianLine [] mu velSig flux = .error .valueError ∧
    ∀ xs, xs ≠ [] → lineSig velSig mu ≤ 0 →
      gaussianLine xs mu velSig flux = .ok (xs.map fun _ => .nan) := by
  refine ⟨rfl, fun xs hx hs => ?_⟩
  have hmap : (xs.map fun x => normPdf x mu (velSig / c1D * mu)) = xs.map fun _ => Fl.nan := by
    apply List.map_congr_left
    intro x _
    rw [normPdf, if_neg (show ¬ 0 < velSig / c1D * mu from not_lt.2 hs)]
  unfold gaussianLine
  simp only [hmap]
  cases xs with
  | nil => exact absurd rfl hx
  | cons a xs =>
    have : npMax ((a :: xs).map fun _ => (Fl.nan : Fl ℝ)) = some Fl.nan := by
      rw [List.map_cons, npMax, foldl_npMax2_nan]
    rw [this]
    simp only [List.map_map]
    congr 1

example : 0 < lineSig 50 6564.6 := by unfold lineSig; norm_num

/-! ### The whole spectrum -/

theorem addArr_fin (xs : List ℝ) (f g : ℝ → ℝ) :
    addArr (xs.map fun x => .fin (f x)) (xs.map fun x => .fin (g x)) =
      xs.map fun x => .fin (f x + g x) := by
  unfold addArr
  induction xs with
  | nil => rfl
  | cons x xs ih => simp only [List.map_cons, List.zipWith_cons_cons, ih]; rfl

/-- The sum of the shapes of the lines of one set, for reference pixels `x0s`. -/
noncomputable def setShape (z velDisp : ℝ) : List (ℝ × ℝ) → List ℝ → ℝ → ℝ
  | (w, r) :: lines, x0 :: x0s, x =>
      r * lineShape (w * (1 + z)) (lineSig velDisp (w * (1 + z))) x0 x +
        setShape z velDisp lines x0s x
  | _, _, _ => 0

/-- `x0s` are nearest pixels for the lines of a set. -/
def NearestAll (xs : List ℝ) (z : ℝ) (lines : List (ℝ × ℝ)) (x0s : List ℝ) : Prop :=
  List.Forall₂ (fun l x0 => IsNearest xs (l.1 * (1 + z)) x0) lines x0s

theorem addLines_eq (xs : List ℝ) (hx : xs ≠ []) (z velDisp : ℝ) :
    ∀ lines : List (ℝ × ℝ), (∀ l ∈ lines, 0 < lineSig velDisp (l.1 * (1 + z))) →
      ∃ x0s, NearestAll xs z lines x0s ∧ ∀ flux (f : ℝ → ℝ),
        addLines xs z velDisp flux lines (xs.map fun x => .fin (f x)) =
          .ok (xs.map fun x => .fin (f x + flux * setShape z velDisp lines x0s x)) := by
  intro lines
  induction lines with
  | nil =>
    intro _
    refine ⟨[], .nil, fun flux f => ?_⟩
    rw [addLines]
    simp only [setShape, mul_zero, add_zero]
  | cons l lines ih =>
    obtain ⟨w, r⟩ := l
    intro h
    obtain ⟨x0, hx0, hg⟩ := gaussianLine_eq xs hx (w * (1 + z)) velDisp (h (w, r) (by simp))
    obtain ⟨x0s, hx0s, hih⟩ := ih fun l hl => h l (by simp [hl])
    refine ⟨x0 :: x0s, .cons hx0 hx0s, fun flux f => ?_⟩
    rw [addLines, hg]
    simp only
    rw [addArr_fin, hih]
    congr 1
    apply List.map_congr_left
    intro x _
    rw [setShape]
    congr 1
    ring

/-- Sum over the line sets of flux times shape. -/
noncomputable def linesSum (z velDisp : ℝ) : List (ℝ × List (ℝ × ℝ)) → List (List ℝ) → ℝ → ℝ
  | (flux, lines) :: sets, x0s :: rest, x =>
      flux * setShape z velDisp lines x0s x + linesSum z velDisp sets rest x
  | _, _, _ => 0

theorem addSets_eq (xs : List ℝ) (hx : xs ≠ []) (z velDisp : ℝ) :
    ∀ sets : List (List (ℝ × ℝ)),
      (∀ ls ∈ sets, ∀ l ∈ ls, 0 < lineSig velDisp (l.1 * (1 + z))) →
      ∃ x0ss, List.Forall₂ (NearestAll xs z) sets x0ss ∧
        ∀ (fluxes : List ℝ) (f : ℝ → ℝ), fluxes.length = sets.length →
        addSets xs z velDisp (fluxes.zip sets) (xs.map fun x => .fin (f x)) =
          .ok (xs.map fun x => .fin (f x + linesSum z velDisp (fluxes.zip sets) x0ss x)) := by
  intro sets
  induction sets with
  | nil =>
    intro _
    refine ⟨[], .nil, fun fluxes f _ => ?_⟩
    rw [List.zip_nil_right, addSets]
    simp only [linesSum, add_zero]
  | cons ls sets ih =>
    intro h
    obtain ⟨x0s, hx0s, hl⟩ := addLines_eq xs hx z velDisp ls (h ls (by simp))
    obtain ⟨rest, hrest, hih⟩ := ih fun l' hl' => h l' (by simp [hl'])
    refine ⟨x0s :: rest, .cons hx0s hrest, fun fluxes f hlen => ?_⟩
    cases fluxes with
    | nil => simp at hlen
    | cons fl fluxes =>
      rw [List.zip_cons_cons, addSets]
      have : lineProfile xs z velDisp fl ls =
          .ok (xs.map fun x => .fin (fl * setShape z velDisp ls x0s x)) := by
        unfold lineProfile
        rw [hl fl (fun _ => 0)]
        simp only [zero_add]
      rw [this]
      simp only
      rw [addArr_fin, hih fluxes _ (by simpa using hlen)]
      congr 1
      apply List.map_congr_left
      intro x _
      rw [linesSum]
      congr 1
      ring

theorem addCont_eq (xs : List ℝ) : ∀ (cs : List ℝ) (i : Nat) (f : ℝ → ℝ),
    addCont xs i cs (xs.map fun x => .fin (f x)) =
      xs.map fun x => .fin (f x + ∑ j ∈ Finset.range cs.length,
        1e-18 * (cs[j]?.getD 0) * x ^ (i + j)) := by
  intro cs
  induction cs with
  | nil => intro i f; rw [addCont]; simp
  | cons c cs ih =>
    intro i f
    rw [addCont, addArr_fin, ih]
    apply List.map_congr_left
    intro x _
    congr 1
    rw [List.length_cons, Finset.sum_range_succ']
    simp only [List.getElem?_cons_succ, List.getElem?_cons_zero, Option.getD_some, add_zero]
    have : ∀ j, i + 1 + j = i + (j + 1) := fun j => by omega
    simp only [this]
    ring

/-- **C45**: for positive line widths and a non-empty wavelength array, the whole 1D model is, at
every pixel, the sum over the line sets of flux times a shape that does not depend on fluxes or
continuum, plus the continuum polynomial with coefficients in units of 1e-18; the shape of
a set is the sum of its line shapes weighted with the flux ratios. -/
theorem C45_linear (xs : List ℝ) (hx : xs ≠ []) (z velDisp : ℝ) (sets : List (List (ℝ × ℝ)))
    (hpos : ∀ ls ∈ sets, ∀ l ∈ ls, 0 < lineSig velDisp (l.1 * (1 + z))) :
    ∃ x0ss, List.Forall₂ (NearestAll xs z) sets x0ss ∧
      ∀ fluxes cont : List ℝ, fluxes.length = sets.length →
        spectrumProfile xs z velDisp (fluxes.zip sets) cont = .ok (xs.map fun x =>
          .fin (linesSum z velDisp (fluxes.zip sets) x0ss x +
            ∑ j ∈ Finset.range cont.length, 1e-18 * (cont[j]?.getD 0) * x ^ j)) := by
  obtain ⟨x0ss, h1, h2⟩ := addSets_eq xs hx z velDisp sets hpos
  refine ⟨x0ss, h1, fun fluxes cont hlen => ?_⟩
  unfold spectrumProfile
  rw [h2 fluxes (fun _ => 0) hlen]
  simp only
  rw [addCont_eq]
  simp only [zero_add]

/-- **C45** (superposition): scaling all fluxes and continuum coefficients scales the model. -/
theorem C45_scaling (xs : List ℝ) (hx : xs ≠ []) (z velDisp : ℝ) (sets : List (List (ℝ × ℝ)))
    (hpos : ∀ ls ∈ sets, ∀ l ∈ ls, 0 < lineSig velDisp (l.1 * (1 + z)))
    (fluxes cont : List ℝ) (hlen : fluxes.length = sets.length) (a : ℝ) :
    ∃ ys : ℝ → ℝ, spectrumProfile xs z velDisp (fluxes.zip sets) cont =
        .ok (xs.map fun x => .fin (ys x)) ∧
      spectrumProfile xs z velDisp ((fluxes.map (a * ·)).zip sets) (cont.map (a * ·)) =
        .ok (xs.map fun x => .fin (a * ys x)) := by
  obtain ⟨x0ss, hnear, h⟩ := C45_linear xs hx z velDisp sets hpos
  clear hnear
  refine ⟨_, h fluxes cont hlen, ?_⟩
  rw [h _ _ (by simpa using hlen)]
  congr 1
  apply List.map_congr_left
  intro x _
  congr 1
  rw [mul_add, Finset.mul_sum, List.length_map]
  congr 1
  · clear h
    induction sets generalizing fluxes x0ss with
    | nil => simp [linesSum]
    | cons ls sets ih =>
      cases fluxes with
      | nil => simp at hlen
      | cons fl fluxes =>
        cases x0ss with
        | nil => simp [linesSum]
        | cons x0s x0ss =>
          have hform : ((fl :: fluxes).map (a * ·)).zip (ls :: sets) =
              (a * fl, ls) :: ((fluxes.map (a * ·)).zip sets) := rfl
          rw [hform, List.zip_cons_cons, linesSum, linesSum,
            ih (fun l hl => hpos l (by simp [hl])) fluxes (by simpa using hlen)]
          ring
  · apply Finset.sum_congr rfl
    intro j hj
    rw [List.getElem?_map]
    have : j < cont.length := Finset.mem_range.1 hj
    rw [List.getElem?_eq_getElem this]
    simp only [Option.map_some, Option.getD_some]
    ring

example : ∀ ls ∈ [[((6564.6 : ℝ), (1 : ℝ))], [(5008.24, 1), (4960.295, 0.333333)]], ∀ l ∈ ls,
    0 < lineSig 70 (l.1 * (1 + 2)) := by
  simp only [List.mem_cons, List.not_mem_nil, or_false]
  rintro ls (rfl | rfl) l hl
  · simp only [List.mem_cons, List.not_mem_nil, or_false] at hl
    subst hl; unfold lineSig; norm_num
  · simp only [List.mem_cons, List.not_mem_nil, or_false] at hl
    rcases hl with rfl | rfl <;> unfold lineSig <;> norm_num

/-! ## C66: residuals -/

theorem zipWith_map_left {α β γ δ : Type} (f : γ → β → δ) (g : α → γ) : ∀ (l : List α) (m : List β),
    List.zipWith f (l.map g) m = List.zipWith (fun a b => f (g a) b) l m := by
  intro l
  induction l with
  | nil => intro m; rfl
  | cons a l ih =>
    intro m
    cases m with
    | nil => rfl
    | cons b m => simp only [List.map_cons, List.zipWith_cons_cons, ih]

theorem zipWith_self_map {α β γ : Type} (f : β → α → γ) (g : α → β) : ∀ l : List α,
    List.zipWith f (l.map g) l = l.map fun a => f (g a) a := by
  intro l
  induction l with
  | nil => rfl
  | cons a l ih => simp only [List.map_cons, List.zipWith_cons_cons, ih]

/-- **C66** (partial): for positive line widths and unmasked pixels with finite data and
finite non-zero error, the residual has one entry per unmasked pixel, equal to (model − data)/error,
hence zero only where the model equals the data.
Missing from the full claim: non-positive dispersion, see `C66_false`. -/
theorem C66_residual_partial (z velDisp : ℝ) (sets : List (List (ℝ × ℝ))) (fluxes cont : List ℝ)
    (hlen : fluxes.length = sets.length)
    (hpos : ∀ ls ∈ sets, ∀ l ∈ ls, 0 < lineSig velDisp (l.1 * (1 + z)))
    (pix : List Pix) (hne : (pix.filter fun p => decide (p.mask = 1)) ≠ [])
    (data err : Pix → ℝ)
    (hfin : ∀ p ∈ pix, p.mask = 1 → p.data = .fin (data p) ∧ p.err = .fin (err p) ∧ err p ≠ 0) :
    ∃ model : ℝ → ℝ,
      spectrumProfile ((pix.filter fun p => decide (p.mask = 1)).map Pix.wave) z velDisp
        (fluxes.zip sets) cont =
        .ok (((pix.filter fun p => decide (p.mask = 1)).map Pix.wave).map fun x => .fin (model x)) ∧
      residual1D z velDisp (fluxes.zip sets) cont pix =
        .ok ((pix.filter fun p => decide (p.mask = 1)).map fun p =>
          .fin ((model p.wave - data p) / err p)) ∧
      ∀ p ∈ pix, p.mask = 1 → ((model p.wave - data p) / err p = 0 ↔ model p.wave = data p) := by
  obtain ⟨x0ss, _, h⟩ := C45_linear ((pix.filter fun p : Pix => decide (p.mask = 1)).map Pix.wave)
    (by simpa using hne) z velDisp sets hpos
  refine ⟨_, h fluxes cont hlen, ?_, fun p hp hm => ?_⟩
  · unfold residual1D
    simp only [h fluxes cont hlen]
    rw [List.map_map, zipWith_self_map]
    congr 1
    apply List.map_congr_left
    intro p hp
    obtain ⟨hp1, hp2⟩ := List.mem_filter.1 hp
    obtain ⟨hd, he, hz⟩ := hfin p hp1 (of_decide_eq_true hp2)
    simp only [Function.comp_apply, hd, he, Fl.fin_sub, Fl.fin_div, if_neg hz, zeroBad,
      Fl.isFinite_fin, if_true]
  · obtain ⟨_, _, hz⟩ := hfin p hp hm
    rw [div_eq_zero_iff, sub_eq_zero]
    constructor
    · rintro (h | h)
      · exact h
      · exact absurd h hz
    · exact Or.inl

theorem addArr_nan_right (xs : List ℝ) (prof : List (Fl ℝ)) (h : prof.length = xs.length) :
    addArr prof (xs.map fun _ => Fl.nan) = xs.map fun _ => Fl.nan := by
  unfold addArr
  induction xs generalizing prof with
  | nil => simp
  | cons x xs ih =>
    cases prof with
    | nil => simp at h
    | cons a prof =>
      simp only [List.map_cons, List.zipWith_cons_cons, ih prof (by simpa using h)]
      congr 1
      cases a <;> rfl

theorem addArr_nan_left (xs : List ℝ) (prof : List (Fl ℝ)) (h : prof.length = xs.length) :
    addArr (xs.map fun _ => Fl.nan) prof = xs.map fun _ => Fl.nan := by
  unfold addArr
  induction xs generalizing prof with
  | nil => simp
  | cons x xs ih =>
    cases prof with
    | nil => simp at h
    | cons a prof =>
      simp only [List.map_cons, List.zipWith_cons_cons, ih prof (by simpa using h)]
      congr 1

/-- A spectrum with a single line is NaN for non-positive dispersion. -/
theorem spectrumProfile_nan (xs : List ℝ) (hx : xs ≠ []) (z velDisp flux w r : ℝ) (cont : List ℝ)
    (hs : lineSig velDisp (w * (1 + z)) ≤ 0) :
    spectrumProfile xs z velDisp [(flux, [(w, r)])] cont = .ok (xs.map fun _ => .nan) := by
  unfold spectrumProfile addSets lineProfile addLines
  rw [(C45_degenerate _ _ _).2 xs hx hs]
  simp only [addLines, addSets]
  rw [addArr_nan_right _ _ (by simp), addArr_nan_right _ _ (by simp)]
  congr 1
  suffices ∀ (cs : List ℝ) (i : Nat), addCont xs i cs (xs.map fun _ => Fl.nan) =
      xs.map fun _ => Fl.nan from this cont 0
  intro cs
  induction cs with
  | nil => intro i; rfl
  | cons c cs ih => intro i; rw [addCont, addArr_nan_left _ _ (by simp), ih]

/-- **C66**, negation: with a negative or zero dispersion (which the first fit does not
exclude) the residual is zero at every pixel, whatever the data: any such dispersion is a
perfect fit. -/
theorem C66_false (z velDisp flux w r : ℝ) (cont : List ℝ) (hz : 0 < 1 + z) (hw : 0 < w)
    (hv : velDisp ≤ 0) (pix : List Pix) (hne : (pix.filter fun p => decide (p.mask = 1)) ≠ []) :
    residual1D z velDisp [(flux, [(w, r)])] cont pix =
      .ok ((pix.filter fun p => decide (p.mask = 1)).map fun _ => .fin 0) := by
  have hs : lineSig velDisp (w * (1 + z)) ≤ 0 := by
    unfold lineSig
    exact mul_nonpos_of_nonpos_of_nonneg (div_nonpos_of_nonpos_of_nonneg hv c1D_pos.le)
      (mul_pos hw hz).le
  unfold residual1D
  simp only
  rw [spectrumProfile_nan _ (by simpa using hne) _ _ _ _ _ _ hs, List.map_map]
  simp only
  rw [zipWith_self_map (fun (m : Fl ℝ) (p : Pix) => zeroBad ((m - p.data) / p.err))]
  refine congrArg Except.ok (List.map_congr_left fun p _ => ?_)
  have : ((Fl.nan : Fl ℝ) - p.data) / p.err = .nan := by
    cases p.data <;> cases p.err <;> rfl
  show zeroBad (((Fl.nan : Fl ℝ) - p.data) / p.err) = Fl.fin 0
  rw [this]
  rfl

example : ((([⟨6500, .fin 3, .fin 1, 1⟩, ⟨6501, .fin 7, .fin 1, 0⟩] : List Pix)).filter
    fun p => decide (p.mask = 1)) ≠ [] := by simp

/-! ## C44: instrument correction -/

/-- **C44**: the corrected dispersion is non-negative, at most the measured one in absolute
value, satisfies the quadrature relation for a resolved line and is 0 for an unresolved one; the
value is stored whenever a resolution is known, and nothing happens otherwise. -/
theorem C44_corrected (velDisp res : ℝ) :
    0 ≤ instCorr velDisp res ∧ instCorr velDisp res ≤ |velDisp| ∧
    (|res| ≤ |velDisp| → instCorr velDisp res ^ 2 + res ^ 2 = velDisp ^ 2) ∧
    (|velDisp| ≤ |res| → instCorr velDisp res = 0) := by
  unfold instCorr
  refine ⟨?_, ?_, fun h => ?_, fun h => ?_⟩
  · split
    · exact Real.sqrt_nonneg _
    · exact le_refl 0
  · split
    · rw [← Real.sqrt_sq_eq_abs]
      apply Real.sqrt_le_sqrt
      have := sq_nonneg res
      linarith
    · exact abs_nonneg _
  · rcases lt_or_eq_of_le h with h | h
    · rw [if_pos h, Real.sq_sqrt]
      · ring
      · have := sq_le_sq.2 h.le
        linarith
    · rw [if_neg (by rw [h]; exact lt_irrefl _)]
      have := sq_eq_sq_iff_abs_eq_abs _ _ |>.2 h
      linarith
  · rw [if_neg (not_lt.2 h)]

theorem C44_stored (velDisp : ℝ) (res specRes : Option ℝ) (errFile : Bool) (mc : List ℝ)
    (s : InstCorr) :
    (∀ r, res = some r → calcInstCorr velDisp res specRes true errFile mc s =
      (⟨some (instCorr velDisp r), some (0, 0)⟩, none)) ∧
    (res = none → ∀ noErrors, calcInstCorr velDisp res specRes noErrors errFile mc s = (s, none)) := by
  constructor
  · rintro r rfl; rfl
  · rintro rfl noErrors; rfl

example : instCorr 50 30 = 40 := by
  unfold instCorr
  rw [if_pos (by norm_num), show (50 : ℝ) ^ 2 - 30 ^ 2 = 40 ^ 2 by norm_num,
    Real.sqrt_sq (by norm_num)]

/-! ## C64: errors of the corrected dispersion -/

theorem construct_keys_subset (steps : List (CtorStep V)) (kw : Dict V) (k : String)
    (h : ∀ s ∈ steps, (∀ w, s ≠ .assign k w) ∧ ∀ w, s ≠ .param k w) :
    k ∉ (construct steps kw).keys := by
  unfold construct
  suffices ∀ d : Dict V, k ∉ d.keys → k ∉ Dict.keys (steps.foldl (fun d s => s.run kw d) d) from
    this [] (by simp [Dict.keys])
  induction steps with
  | nil => intro d hd; exact hd
  | cons s steps ih =>
    intro d hd
    rw [List.foldl_cons]
    apply ih fun t ht => h t (by simp [ht])
    obtain ⟨h1, h2⟩ := h s (by simp)
    rw [← Dict.get_none_iff] at hd ⊢
    cases s with
    | assign j v =>
      rw [CtorStep.run, Dict.get_set, if_neg, hd]
      rintro rfl; exact h1 v rfl
    | param j v =>
      rw [CtorStep.run, Dict.get_set, if_neg, hd]
      rintro rfl; exact h2 v rfl
    | update named =>
      rw [CtorStep.run]
      exact (C48_setAttr _ d).2.2.2 k ((Dict.get_none_iff d k).1 hd)

/-- A 1D spectrum never has the attribute that the error calculation reads, whatever keywords it is
built with and whatever attribute updates follow. -/
theorem C64_absent (kw : Dict PyVal) (kws : List (Dict PyVal)) :
    "instrument_resolution" ∉
      Dict.keys (kws.foldl (fun d kw' => setAttr kw' d) (construct spectrum1DCtor kw)) := by
  have h0 : "instrument_resolution" ∉ (construct spectrum1DCtor kw).keys := by
    apply construct_keys_subset
    intro s hs
    simp only [spectrum1DCtor, List.mem_cons, List.not_mem_nil, or_false] at hs
    rcases hs with h | h | h | h | h | h | h | h | h | h | h | h | h | h | h | h | h | h <;>
      subst h <;> exact ⟨fun w => by simp, fun w => by simp⟩
  revert h0
  generalize construct spectrum1DCtor kw = d
  induction kws generalizing d with
  | nil => exact id
  | cons kw' kws ih =>
    intro h
    rw [List.foldl_cons]
    apply ih
    rw [(C48_setAttr kw' d).1]
    exact h

/-- **C64**, negation: with the resolution set on the instrument, asking for the errors of the
corrected dispersion always raises, and no errors are stored. -/
theorem C64_false (velDisp r : ℝ) (errFile : Bool) (mc : List ℝ) (s : InstCorr) :
    ∃ s' e, calcInstCorr velDisp (some r) none false errFile mc s = (s', some e) ∧
      s'.err = s.err := by
  cases errFile
  · exact ⟨_, _, rfl, rfl⟩
  · exact ⟨_, _, rfl, rfl⟩

/-- **C64** (partial): if the attribute has been added to the spectrum by hand, the errors are the
distances of the corrected dispersion to the two percentiles of the corrected Monte Carlo values.
Missing from the full claim: spectra as built by the code, see `C64_false` and `C64_absent`. -/
theorem C64_by_hand_partial (velDisp r r' : ℝ) (mc : List ℝ) (s : InstCorr) (lo hi : ℝ)
    (h : limits1 (mc.map (instCorrMC r')) = .ok (lo, hi)) :
    calcInstCorr velDisp (some r) (some r') false true mc s =
      (⟨some (instCorr velDisp r), some (instCorr velDisp r - lo, hi - instCorr velDisp r)⟩, none) ∧
    ∀ v, instCorrMC r' v = instCorr v r' := by
  constructor
  · unfold calcInstCorr
    simp [h]
  · intro v
    unfold instCorrMC instCorr
    by_cases h1 : |v| > |r'|
    · rw [if_pos h1, if_pos]
      have := sq_le_sq.2 h1.le
      linarith
    · rw [if_neg h1]
      have := sq_le_sq.2 (not_lt.1 h1)
      split
      · rw [show v ^ 2 - r' ^ 2 = 0 by linarith, Real.sqrt_zero]
      · rfl

/-! ## C63, C65: the fit -/

section Fit
variable {K : Type} [Field K] [LinearOrder K] [FloorRing K]

/-- **C63**, negation: with error estimation (the default) the 1D fit always raises. -/
theorem C63_false (res : Option K) (minimize : Bool → Bool → Fit1DResult K) (cols : Except PyErr (List (List K)))
    (a : Fit1DArgs) (ha : a.noErrors = false) (s : Fit1DState K) :
    ∃ s' e, fit1D res minimize cols a s = (s', some e) := by
  unfold fit1D
  cases res with
  | none => exact ⟨_, _, rfl⟩
  | some r =>
    simp only
    split
    · exact ⟨_, _, rfl⟩
    · split
      · exact ⟨_, _, rfl⟩
      · split
        · exact ⟨_, _, rfl⟩
        · split
          · exact ⟨_, _, rfl⟩
          · rw [ha]
            simp only [Bool.not_false, if_true]
            split
            · exact ⟨_, _, rfl⟩
            · split
              · exact ⟨_, _, rfl⟩
              · split
                · exact ⟨_, _, rfl⟩
                · exact ⟨_, _, rfl⟩

/-- **C63** (partial): without error estimation the fit returns, for every non-negative resolution,
at least one line set, a galaxy with an ID number and a plot file name unless plotting is off; all
errors are zero.
Missing from the full claim: error estimation, see `C63_false`. -/
theorem C63_no_errors_partial (r : K) (hr : ¬ r < 0) (minimize : Bool → Bool → Fit1DResult K)
    (cols : Except PyErr (List (List K))) (a : Fit1DArgs) (ha : a.noErrors = true)
    (hid : a.hasID = true) (hp : a.noPlot = true ∨ a.plotFile = true) (f0 : K)
    (hf : (minimize false false).flux[0]? = some f0) (s : Fit1DState K) :
    ∃ x es, fit1D (some r) minimize cols a s = (⟨some x, some es⟩, none) ∧
      es.length = 2 + x.flux.length + x.cont.length ∧ ∀ e ∈ es, e = (0, 0) := by
  unfold fit1D
  have hplot : (!a.noPlot && !a.plotFile) = false := by
    rcases hp with hp | hp <;> rw [hp] <;> simp
  simp only [if_neg hr, hf, hplot, ha, hid, Bool.not_true, Bool.false_eq_true, if_false]
  refine ⟨_, _, rfl, ?_, ?_⟩
  · simp; omega
  · intro e he
    obtain ⟨_, _, rfl⟩ := List.mem_map.1 he
    rfl

/-- A minimiser respects the bounds it is given. -/
def RespectsBounds (minimize : Bool → Bool → Fit1DResult K) : Prop :=
  (∀ b, 0 ≤ (minimize true b).velDisp) ∧ ∀ b, ∀ f ∈ (minimize b true).flux, 0 ≤ f

/-- The result of the fit, when it got that far. -/
theorem fit1D_result (res : Option K) (minimize : Bool → Bool → Fit1DResult K)
    (cols : Except PyErr (List (List K))) (a : Fit1DArgs) (s s' : Fit1DState K) (e : Option PyErr)
    (hs : s.result = none) (h : fit1D res minimize cols a s = (s', e)) (x : Fit1DResult K)
    (hx : s'.result = some x) :
    ∃ f0, (minimize false false).flux[0]? = some f0 ∧
      x = refit minimize f0 := by
  unfold fit1D at h
  cases res with
  | none =>
    rw [← (Prod.mk.inj h).1, hs] at hx
    exact absurd hx (by simp)
  | some r =>
    simp only at h
    split at h
    · rw [← (Prod.mk.inj h).1, hs] at hx
      exact absurd hx (by simp)
    · split at h
      · rw [← (Prod.mk.inj h).1, hs] at hx
        exact absurd hx (by simp)
      · rename_i f0 hf0
        refine ⟨f0, hf0, ?_⟩
        have key : s'.result = some (refit minimize f0) := by
          rw [show s' = _ from (congrArg Prod.fst h).symm]
          repeat' split
          all_goals rfl
        exact Option.some.inj (hx.symm.trans key)

/-- **C63**, exactly: a 1D fit returns normally if and only if the resolution is known and not
negative, the model has a line, the galaxy has a number, a file name is given if there is to be a
plot, and no errors are asked for. -/
theorem C63_exact (res : Option K) (minimize : Bool → Bool → Fit1DResult K)
    (cols : Except PyErr (List (List K))) (a : Fit1DArgs) (s : Fit1DState K) :
    (fit1D res minimize cols a s).2 = none ↔
      (∃ r, res = some r ∧ ¬ r < 0) ∧ (minimize false false).flux ≠ [] ∧ a.hasID = true ∧
        (a.noPlot = true ∨ a.plotFile = true) ∧ a.noErrors = true := by
  constructor
  · intro h
    cases hn : a.noErrors with
    | false =>
      obtain ⟨s', e, he⟩ := C63_false res minimize cols a hn s
      rw [he] at h
      cases h
    | true =>
      unfold fit1D at h
      split at h
      · cases h
      · rename_i r
        split at h
        · cases h
        · rename_i hr
          simp only at h
          split at h
          · cases h
          · rename_i f0 hf
            split at h
            · cases h
            · rename_i hid
              split at h
              · cases h
              · rename_i hp
                refine ⟨⟨r, rfl, hr⟩, ?_, ?_, ?_, rfl⟩
                · intro h0
                  rw [h0] at hf
                  cases hf
                · simpa using hid
                · simp only [Bool.and_eq_true, Bool.not_eq_true'] at hp
                  cases h1 : a.noPlot
                  · cases h2 : a.plotFile
                    · exact absurd ⟨h1, h2⟩ hp
                    · exact .inr rfl
                  · exact .inl rfl
  · rintro ⟨⟨r, rfl, hr⟩, hf, hid, hp, hn⟩
    obtain ⟨f0, hf0⟩ : ∃ f0, (minimize false false).flux[0]? = some f0 := by
      cases hl : (minimize false false).flux with
      | nil => exact absurd hl hf
      | cons f0 l => exact ⟨f0, rfl⟩
    obtain ⟨x, es, h, -⟩ := C63_no_errors_partial r hr minimize cols a hn hid hp f0 hf0 s
    rw [h]

/-- **C65** (partial): with a minimiser that respects its bounds, the dispersion of the result is
non-negative unless the unbounded fit had a non-negative dispersion and a negative first flux, and
the first flux is non-negative unless the unbounded fit had a negative dispersion and a
non-negative first flux. Missing from the full claim: the two exceptions, see `C65_false`. -/
theorem C65_nonneg_partial (res : Option K) (minimize : Bool → Bool → Fit1DResult K)
    (hm : RespectsBounds minimize) (cols : Except PyErr (List (List K))) (a : Fit1DArgs) (s s' : Fit1DState K)
    (e : Option PyErr) (hs : s.result = none) (h : fit1D res minimize cols a s = (s', e))
    (x : Fit1DResult K) (hx : s'.result = some x) (f0 : K)
    (hf : (minimize false false).flux[0]? = some f0) :
    (¬ (0 ≤ (minimize false false).velDisp ∧ f0 < 0) → 0 ≤ x.velDisp) ∧
    (¬ ((minimize false false).velDisp < 0 ∧ 0 ≤ f0) → ∀ f, x.flux[0]? = some f → 0 ≤ f) := by
  obtain ⟨f0', hf', hx'⟩ := fit1D_result res minimize cols a s s' e hs h x hx
  rw [hf] at hf'
  obtain rfl := Option.some.inj hf'
  unfold refit refitBounds at hx'
  by_cases h1 : (minimize false false).velDisp < 0
  · by_cases h2 : f0 < 0
    · rw [if_pos ⟨h1, h2⟩] at hx'
      subst hx'
      exact ⟨fun _ => hm.1 _, fun _ f hf => hm.2 _ _ (List.mem_of_getElem? hf)⟩
    · rw [if_neg (fun h => h2 h.2), if_pos h1] at hx'
      subst hx'
      exact ⟨fun _ => hm.1 _, fun hn => absurd ⟨h1, not_lt.1 h2⟩ hn⟩
  · by_cases h2 : f0 < 0
    · rw [if_neg (fun h => h1 h.1), if_neg h1, if_pos h2] at hx'
      subst hx'
      exact ⟨fun hn => absurd ⟨not_lt.1 h1, h2⟩ hn,
        fun _ f hf => hm.2 _ _ (List.mem_of_getElem? hf)⟩
    · rw [if_neg (fun h => h1 h.1), if_neg h1, if_neg h2] at hx'
      subst hx'
      refine ⟨fun _ => not_lt.1 h1, fun _ f hff => ?_⟩
      rw [hf] at hff
      rw [← Option.some.inj hff]
      exact not_lt.1 h2

/-- A minimiser that respects its bounds, finds `r0` without bounds, and negative values for what is unbounded when
the other is bounded. -/
def mixedMinimize (r0 : Fit1DResult K) : Bool → Bool → Fit1DResult K
  | false, false => r0
  | true, false => ⟨0, 0, [-1], []⟩
  | false, true => ⟨0, -1, [0], []⟩
  | true, true => ⟨0, 0, [0], []⟩

/-- **C65**, exactly: after the first minimisation has given a dispersion and a first flux `f0`, the dispersion of the
result is non-negative whatever the bounded minimisations find within their bounds if and only if it is not so that the
first dispersion was non-negative and the first flux negative; the first flux is non-negative whatever they find if and
only if it is not so that the first dispersion was negative and the first flux non-negative. -/
theorem C65_exact [IsStrictOrderedRing K] (res : K) (hres : 0 ≤ res) (cols : Except PyErr (List (List K))) (a : Fit1DArgs) (s : Fit1DState K)
    (hs : s.result = none) (r0 : Fit1DResult K) (f0 : K) (hf : r0.flux[0]? = some f0) :
    ((∀ minimize, RespectsBounds minimize → minimize false false = r0 →
      ∀ x, (fit1D (some res) minimize cols a s).1.result = some x → 0 ≤ x.velDisp) ↔
        ¬ (0 ≤ r0.velDisp ∧ f0 < 0)) ∧
    ((∀ minimize, RespectsBounds minimize → minimize false false = r0 →
      ∀ x, (fit1D (some res) minimize cols a s).1.result = some x → ∀ f, x.flux[0]? = some f → 0 ≤ f) ↔
        ¬ (r0.velDisp < 0 ∧ 0 ≤ f0)) := by
  have hres' : ¬ res < 0 := not_lt.2 hres
  have hstored : ∀ minimize : Bool → Bool → Fit1DResult K, minimize false false = r0 →
      (fit1D (some res) minimize cols a s).1.result = some (refit minimize f0) := by
    intro minimize hm
    have hf' : (minimize false false).flux[0]? = some f0 := by rw [hm]; exact hf
    unfold fit1D
    simp only [if_neg hres', hf']
    repeat' split
    all_goals rfl
  have hmixed : RespectsBounds (mixedMinimize r0) := by
    refine ⟨fun b => ?_, fun b f hf => ?_⟩
    · cases b <;> exact le_refl _
    · cases b <;> exact (List.mem_singleton.1 hf).ge
  refine ⟨⟨fun h hn => ?_, fun hn minimize hb hm x hx => ?_⟩, ⟨fun h hn => ?_, fun hn minimize hb hm x hx => ?_⟩⟩
  · have := h _ hmixed rfl _ (hstored _ rfl)
    rw [show refit (mixedMinimize r0) f0 = ⟨0, -1, [0], []⟩ by
        unfold refit refitBounds
        simp [mixedMinimize, not_lt.2 hn.1, hn.2]] at this
    linarith
  · rw [← hm] at hn hf
    exact (C65_nonneg_partial (some res) minimize hb cols a s _ _ hs (Prod.mk.eta).symm x hx f0 hf).1 hn
  · have := h _ hmixed rfl _ (hstored _ rfl)
    rw [show refit (mixedMinimize r0) f0 = ⟨0, 0, [-1], []⟩ by
        unfold refit refitBounds
        simp [mixedMinimize, not_lt.2 hn.2, hn.1]] at this
    have := this (-1) rfl
    linarith
  · rw [← hm] at hn hf
    exact (C65_nonneg_partial (some res) minimize hb cols a s _ _ hs (Prod.mk.eta).symm x hx f0 hf).2 hn

end Fit

/-- A minimiser for the negation below: the bounded fits trade one sign for the other. -/
def tradeMinimize : Bool → Bool → Fit1DResult ℚ
  | false, false => ⟨2, 50, [-1], [0]⟩
  | true, false => ⟨2, 0, [-1], [0]⟩
  | false, true => ⟨2, -30, [1], [0]⟩
  | true, true => ⟨2, 0, [0], [0]⟩

/-- **C65**, negation: a fit with a minimiser that respects its bounds can end with a negative
dispersion, because the second fit bounds only what was negative in the first. -/
theorem C65_false : RespectsBounds tradeMinimize ∧
    ((fit1D (some 40) tradeMinimize (.ok []) { noErrors := true, noPlot := true } ⟨none, none⟩).1.result.map
      Fit1DResult.velDisp) = some (-30) ∧
    (fit1D (some 40) tradeMinimize (.ok []) { noErrors := true, noPlot := true } ⟨none, none⟩).2 = none := by
  refine ⟨⟨?_, ?_⟩, by decide +kernel, by decide +kernel⟩
  · intro b; cases b <;> simp [tradeMinimize]
  · intro b f hf
    cases b <;> simp [tradeMinimize] at hf <;> subst hf <;> norm_num

end Misfit
