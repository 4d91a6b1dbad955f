import Verif.Props.MaskedPixels
import Verif.Props.PrepUnits
import Mathlib.Tactic.FieldSimp
import Mathlib.Tactic.Linarith
import Mathlib.Tactic.NormNum

/-!
# C167: the flux unit and the chi-square of a prepared spectrum

The preparation carries the flux unit (C165), except in bad pixels: these have the flux -99 and the error -99 in every
unit.  They are masked, but the amplitudes of the rows are computed from them too (C166).
-/

namespace Misfit

/-! ## What the fit computes from a prepared spectrum -/

/-- the columns in `wh_nosky` (galaxy_utils.py 574-583, kin_model.py 143) -/
def PrepAll.nosky (t : PrepAll) : List (Fin t.spec.c) := (List.finRange t.spec.c).filter fun j => decide (j.val ∈ t.spec.whNosky)

/-- The amplitude that `scale_model` gives to row `i` of a model image (kin_model.py 141-157).  The image is given by a function of
the row and the column. -/
noncomputable def PrepAll.amplitude (t : PrepAll) (x : Nat → Nat → ℝ) (i : Fin t.spec.r) : Fl ℝ :=
  scaleRatio (scaleNum (t.spec.flux i) (t.spec.err i) (fun j => .fin (x i.val j.val)) t.nosky)
    (scaleDen (t.spec.err i) (fun j => .fin (x i.val j.val)) t.nosky)

/-- The chi-square of the scaled image (kin_model.py 141-157, 354-395).  The weight matrix repeats the profile along the rows
(galaxy_utils.py 1302-1306).  `none` if there is no mask or no profile of the right length. -/
noncomputable def PrepAll.fitChisq (t : PrepAll) (x : Nat → Nat → ℝ) : Option (Fl ℝ) :=
  match t.spec.mask with
  | none => none
  | some m =>
    if h : t.spec.profile.length = t.spec.r then
      some (modelChisq ⟨t.spec.flux, t.spec.err, m, fun i _ => t.spec.profile[i.val]'(by rw [h]; exact i.2)⟩
        (scaleModel t.spec.flux t.spec.err (finImg fun i j => x i.val j.val) t.nosky))
    else none

/-- a prepared spectrum whose values are the numbers `f`, `e`, `m` -/
structure HasValues (t : PrepAll) (f e m : Fin t.spec.r → Fin t.spec.c → ℝ) : Prop where
  flux : t.spec.flux = finImg f
  err : t.spec.err = finImg e
  mask : t.spec.mask = some (finImg m)
  pos : ∀ i j, e i j ≠ 0

theorem HasValues.amplitude {t : PrepAll} {f e m : Fin t.spec.r → Fin t.spec.c → ℝ} (h : HasValues t f e m) (x : Nat → Nat → ℝ)
    (i : Fin t.spec.r) : t.amplitude x i = .fin (rowAmp f e (fun i j => x i.val j.val) t.nosky i) := by
  unfold PrepAll.amplitude
  rw [h.flux, h.err]
  rw [show (finImg f i) = fun j => Fl.fin (f i j) from rfl, show (finImg e i) = fun j => Fl.fin (e i j) from rfl,
    scaleNum_fin _ _ _ _ (fun j _ => h.pos i j), scaleDen_fin _ _ _ (fun j _ => h.pos i j), scaleRatio_fin]
  rfl

theorem HasValues.fitChisq {t : PrepAll} {f e m : Fin t.spec.r → Fin t.spec.c → ℝ} (h : HasValues t f e m) (x : Nat → Nat → ℝ)
    (hl : t.spec.profile.length = t.spec.r) :
    t.fitChisq x = some (∑ i, ∑ j, .fin (((f i j - x i.val j.val * rowAmp f e (fun i j => x i.val j.val) t.nosky i) * m i j / e i j) *
      ((f i j - x i.val j.val * rowAmp f e (fun i j => x i.val j.val) t.nosky i) * m i j / e i j)) *
      t.spec.profile[i.val]'(by rw [hl]; exact i.2)) := by
  unfold PrepAll.fitChisq
  simp only [h.mask]
  rw [dif_pos hl]
  simp only [h.flux, h.err]
  rw [scaleModel_fin f e _ _ (fun i j _ => h.pos i j)]
  unfold modelChisq
  congr 1
  refine Finset.sum_congr rfl fun i _ => Finset.sum_congr rfl fun j _ => ?_
  unfold chisqPixel finImg
  simp only [Fl.fin_sub, Fl.fin_mul, Fl.fin_div_ne _ _ (h.pos i j), Fl.sq_fin]
  rfl

/-- All numbers of a prepared spectrum are finite, and no error is zero if none was zero. -/
theorem prepared_values {s t : PrepAll} {first : Nat} {row : Fin t.spec.r → Fin s.spec.r} {col : Fin t.spec.c → Fin s.spec.c}
    (hP : PreparedFrom s t first row col) (he : ∀ i j, s.spec.err i j ≠ 0) : ∃ f e m, HasValues t f e m := by
  obtain ⟨m, I, C, hm, -, -, -, hfin, -, -, hfil⟩ := hP.values
  choose f hf using fun i j => Fl.exists_of_isFinite (hfin i j).1
  choose e hee using fun i j => Fl.exists_of_isFinite (hfin i j).2.1
  choose mm hmm using fun i j => Fl.exists_of_isFinite (hfin i j).2.2.2
  refine ⟨f, e, mm, funext fun i => funext fun j => hf i j, funext fun i => funext fun j => hee i j, ?_, fun i j h0 => ?_⟩
  · rw [hm]
    congr 1
    exact funext fun i => funext fun j => hmm i j
  · have h1 := hfil i j
    have h2 : t.spec.err i j = 0 := by rw [hee, h0]; rfl
    by_cases hfe : (s.spec.err (row i) (col j)).isFinite = true
    · rw [h1.2.2 hfe (he _ _)] at h2
      exact he _ _ h2
    · rw [h1.2.1 (by simpa using hfe)] at h2
      simp at h2

/-! ## C167 -/

/-- **C167** (partial): if the model has no light in the masked pixels of the columns without sky, the amplitudes carry the flux unit
and the chi-square does not depend on it.  Missing from the full claim: models with light there, see `C167_false`. -/
theorem C167_partial (O : PrepOracle) (u : ℝ) (hu : 0 < u) (hO : O.UnitFree u) (s t t' : PrepAll) (h0 : s.spec.prepared = false)
    (hq : s.spec.maskQual = none) (hm : ∀ m, s.spec.mask = some m → ∀ i j, ∃ y : ℝ, 0 ≤ y ∧ m i j = .fin y)
    (he : ∀ i j y, s.spec.err i j = .fin y → 0 < y) (ht : prepare O s = (t, none)) (ht' : prepare O (s.inUnit u) = (t', none))
    (x : Nat → Nat → ℝ)
    (hx : ∀ m, t.spec.mask = some m → ∀ i j, j.val ∈ t.spec.whNosky → m i j = 0 → x i.val j.val = 0) :
    t'.fitChisq x = t.fitChisq x ∧
    ∀ (i : Fin t.spec.r) (i' : Fin t'.spec.r), i'.val = i.val → t'.amplitude x i' = .fin u * t.amplitude x i := by
  have hU := (C165_units O u hu hO s h0 hq hm fun i j y h => (he i j y h).le).2 (by rw [ht])
  rw [ht, ht'] at hU
  have hfin : ∀ m, s.spec.mask = some m → ∀ i j, (m i j).isFinite = true := by
    intro m h i j
    obtain ⟨y, -, hy⟩ := hm m h i j
    rw [hy]; rfl
  have he0 : ∀ i j, s.spec.err i j ≠ 0 := fun i j h => absurd (he i j 0 h) (lt_irrefl _)
  obtain ⟨first, row, col, hP⟩ := C126_cutout O s t h0 hq hfin ht
  obtain ⟨first', row', col', hP'⟩ := C126_cutout O (s.inUnit u) t' h0 hq hfin ht'
  obtain ⟨f, e, m, hV⟩ := prepared_values hP he0
  obtain ⟨f', e', m', hV'⟩ := prepared_values hP' (fun i j h => by
    have h : Fl.fin u * s.spec.err i j = 0 := h
    rcases hs : s.spec.err i j with y | _ | _ | _
    · have := he i j y hs
      rw [hs, Fl.fin_mul] at h
      exact absurd (Fl.fin.inj h) (mul_pos hu this).ne'
    all_goals
      rw [hs] at h
      revert h
      simp [← Fl.scale_eq_mul hu, Fl.scale])
  have hl := hP.profile.1
  have hl' := hP'.profile.1
  clear hP hP' ht ht' hm he he0 hfin
  obtain ⟨F, E, I, C, I0, C0, mm, rfl, hmm, -, -, -, hval⟩ := hU
  have hmm' : finImg m' = finImg m := Option.some.inj (hV'.mask.symm.trans hV.mask)
  have hme : m' = m := funext fun i => funext fun j => Fl.fin.inj (congrFun (congrFun hmm' i) j)
  subst hme
  have hmx : mm = finImg m' := Option.some.inj (hmm.symm.trans hV.mask)
  subst hmx
  have hval' : ∀ i j, m' i j ≠ 0 → f' i j = u * f i j ∧ e' i j = u * e i j := by
    intro i j hne
    obtain ⟨h1, h2, -⟩ := hval i j (fun h => hne (Fl.fin.inj h))
    have a1 : F i j = finImg f' i j := congrFun (congrFun hV'.flux i) j
    have a2 : E i j = finImg e' i j := congrFun (congrFun hV'.err i) j
    rw [a1, hV.flux] at h1
    rw [a2, hV.err] at h2
    exact ⟨Fl.fin.inj h1, Fl.fin.inj h2⟩
  have hx' : ∀ i : Fin t.spec.r, ∀ j ∈ t.nosky, m' i j = 0 → x i.val j.val = 0 := by
    intro i j hj h
    refine hx _ hV.mask i j ?_ (by unfold finImg; rw [h]; rfl)
    unfold PrepAll.nosky at hj
    exact of_decide_eq_true (List.mem_filter.1 hj).2
  clear hval hx
  have hamp : ∀ i, rowAmp f' e' (fun i j => x i.val j.val) t.nosky i = u * rowAmp f e (fun i j => x i.val j.val) t.nosky i := by
    intro i
    have hD : (t.nosky.map fun j => x i.val j.val * x i.val j.val / (e' i j * e' i j)).sum =
        (1 / (u * u)) * (t.nosky.map fun j => x i.val j.val * x i.val j.val / (e i j * e i j)).sum := by
      rw [← List.sum_map_mul_left]
      congr 1
      refine List.map_congr_left fun j hj => ?_
      by_cases h : m' i j = 0
      · rw [hx' i j hj h]; simp
      · rw [(hval' i j h).2]
        have := hV.pos i j
        field_simp
    have hN : (t.nosky.map fun j => f' i j * x i.val j.val / (e' i j * e' i j)).sum =
        (1 / u) * (t.nosky.map fun j => f i j * x i.val j.val / (e i j * e i j)).sum := by
      rw [← List.sum_map_mul_left]
      congr 1
      refine List.map_congr_left fun j hj => ?_
      by_cases h : m' i j = 0
      · rw [hx' i j hj h]; simp
      · rw [(hval' i j h).2, (hval' i j h).1]
        have := hV.pos i j
        field_simp
    unfold rowAmp
    rw [hD, hN]
    have huu : (1 / (u * u)) ≠ 0 := by positivity
    generalize (t.nosky.map fun j => x i.val j.val * x i.val j.val / (e i j * e i j)).sum = D
    by_cases hD0 : D = 0
    · rw [if_pos hD0, if_pos (by rw [hD0, mul_zero]), mul_zero]
    · rw [if_neg hD0, if_neg (mul_ne_zero huu hD0)]
      field_simp
  constructor
  · rw [hV'.fitChisq x hl', hV.fitChisq x hl]
    congr 1
    refine Finset.sum_congr rfl fun i _ => Finset.sum_congr rfl fun j _ => ?_
    congr 2
    by_cases h : m' i j = 0
    · simp [h]
    · obtain ⟨h1, h2⟩ := hval' i j h
      have h3 := hamp i
      have h4 : (f' i j - x i.val j.val * rowAmp f' e' (fun i j => x i.val j.val) t.nosky i) * m' i j / e' i j =
          (f i j - x i.val j.val * rowAmp f e (fun i j => x i.val j.val) t.nosky i) * m' i j / e i j := by
        rw [h1, h2, h3]
        have := hV.pos i j
        field_simp
      exact congrArg₂ (· * ·) h4 h4
  · intro i i' hi
    have : i' = i := Fin.ext hi
    subst this
    rw [hV'.amplitude, hV.amplitude, Fl.fin_mul]
    congr 1
    exact hamp _

/-- The spectrum with a sky line has no bad pixel: its chi-square is the same in every unit, for every model. -/
example (u : ℝ) (hu : 0 < u) (x : Nat → Nat → ℝ) : ∃ t t', prepare firstOracle skyAll = (t, none) ∧
    prepare firstOracle (skyAll.inUnit u) = (t', none) ∧ t'.fitChisq x = t.fitChisq x := by
  obtain ⟨t, ht, -, -, m, hm, hne⟩ := C127_false firstOracle (fun a b => rfl)
  have he : ∀ i j y, skyAll.spec.err i j = .fin y → 0 < y := fun i j y hx => by
    change (if j.val = 4 then (Fl.fin 10 : Fl ℝ) else Fl.fin 1) = Fl.fin y at hx
    split at hx <;> cases hx <;> norm_num
  have h := C165_units firstOracle u hu (firstOracle_unitFree u) skyAll rfl rfl (fun m hm => by cases hm) fun i j y h => (he i j y h).le
  rw [ht] at h
  exact ⟨t, _, ht, Prod.ext rfl h.1, (C167_partial firstOracle u hu (firstOracle_unitFree u) skyAll t _ rfl rfl (fun m hm => by cases hm) he ht
    (Prod.ext rfl h.1) x (fun m' hm' i j _ h0 => absurd h0 (Option.some.inj (hm.symm.trans hm') ▸ hne i j))).1⟩

/-! ## C167 is false -/

/-- the errors of the example below in the unit `v` -/
noncomputable def badErr (v : ℝ) (j : Nat) : ℝ := if j = 4 then 10 * v else v

/-- The spectrum with a sky line (flux 10, error 1, in the last column 10) with one bad pixel in row 3 and column 2, written in the unit `v`
and fitted with equal weights -/
noncomputable def badUnit (v : ℝ) : PrepAll :=
  ⟨{ skyObs with
      flux := fun i j => if i.val = 3 ∧ j.val = 2 then .nan else .fin (10 * v)
      err := fun i j => if i.val = 3 ∧ j.val = 2 then .nan else .fin (badErr v j.val)
      weighting := "none" }, skyGal⟩

theorem badUnit_inUnit (u v : ℝ) (hu : 0 < u) : (badUnit v).inUnit u = badUnit (u * v) := by
  have h1 : (fun (i : Fin 15) (j : Fin 5) => Fl.fin u * (if i.val = 3 ∧ j.val = 2 then (Fl.nan : Fl ℝ) else .fin (10 * v))) =
      fun i j => if i.val = 3 ∧ j.val = 2 then .nan else .fin (10 * (u * v)) := by
    funext i j
    split
    · simp [← Fl.scale_eq_mul hu, Fl.scale]
    · rw [Fl.fin_mul]
      congr 1
      ring
  have h2 : (fun (i : Fin 15) (j : Fin 5) => Fl.fin u * (if i.val = 3 ∧ j.val = 2 then (Fl.nan : Fl ℝ) else .fin (badErr v j.val))) =
      fun i j => if i.val = 3 ∧ j.val = 2 then .nan else .fin (badErr (u * v) j.val) := by
    funext i j
    split
    · simp [← Fl.scale_eq_mul hu, Fl.scale]
    · rw [Fl.fin_mul]
      congr 1
      unfold badErr
      split <;> ring
  unfold PrepAll.inUnit badUnit
  congr 1
  exact congrArg₂ (fun a b => { skyObs with flux := a, err := b, weighting := "none" }) h1 h2

theorem badUnit_preparable (O : PrepOracle) (v : ℝ) : PreparableCore O (badUnit v) where
  fresh := ⟨rfl, rfl⟩
  finite := fun m hm => by cases hm
  rows := le_refl 15
  columns := ⟨"HA", [], 2, [], [1], (0, 10), (0, 10), (0, 10), 0, rfl, Or.inl rfl, Or.inl rfl, Or.inl rfl, rfl, rfl,
    ⟨(0 : Fin 5), skyAll_inRanges 0⟩, Or.inl rfl, Or.inl rfl⟩
  sky := Or.inl ⟨_, rfl, rfl⟩
  ypos := ⟨_, rfl⟩
  weighting := Or.inr (Or.inl rfl)

theorem badUnit_good (v : ℝ) (i : Fin 15) (j : Fin 5) :
    (GoodPixel (badUnit v) i j ∧ GoodColumn (badUnit v) j) ↔ ¬ (i.val = 3 ∧ j.val = 2) := by
  constructor
  · rintro ⟨⟨-, h, -, -⟩, -⟩ hb
    have h : (if i.val = 3 ∧ j.val = 2 then (Fl.nan : Fl ℝ) else .fin (10 * v)).isFinite = true := h
    rw [if_pos hb] at h
    cases h
  · intro hb
    refine ⟨⟨fun m hm => ?_, ?_, ?_, fun m hm => ?_⟩, Or.inl rfl⟩
    · cases hm
    · show (if i.val = 3 ∧ j.val = 2 then (Fl.nan : Fl ℝ) else .fin (10 * v)).isFinite = true
      rw [if_neg hb]; rfl
    · show (if i.val = 3 ∧ j.val = 2 then (Fl.nan : Fl ℝ) else .fin (badErr v j.val)).isFinite = true
      rw [if_neg hb]; rfl
    · cases hm

theorem badUnit_noise (v : ℝ) (j : Fin 5) :
    columnNoise (badUnit v) j = .fin (Real.sqrt ((if j.val = 2 then 14 else 15) * (badErr v j.val * badErr v j.val))) := by
  classical
  unfold columnNoise
  have h1 : ∀ i : Fin 15, (if GoodPixel (badUnit v) i j ∧ GoodColumn (badUnit v) j then
      Fl.sq ((badUnit v).spec.err i j * ((badUnit v).spec.mask.getD fun _ _ => 1) i j) else 0) =
      Fl.fin (if i.val = 3 ∧ j.val = 2 then 0 else badErr v j.val * badErr v j.val) := by
    intro i
    by_cases hb : i.val = 3 ∧ j.val = 2
    · rw [if_neg (fun h => (badUnit_good v i j).1 h hb), if_pos hb]; rfl
    · rw [if_pos ((badUnit_good v i j).2 hb), if_neg hb]
      show Fl.sq ((if i.val = 3 ∧ j.val = 2 then (Fl.nan : Fl ℝ) else .fin (badErr v j.val)) * 1) = _
      rw [if_neg hb, Fl.one_def, Fl.fin_mul, mul_one]
      rfl
  have h2 : (∑ i : Fin 15, if i.val = 3 ∧ j.val = 2 then (0 : ℝ) else badErr v j.val * badErr v j.val) =
      (if j.val = 2 then 14 else 15) * (badErr v j.val * badErr v j.val) := by
    by_cases hj : j.val = 2
    · simp only [hj, and_true, if_true]
      rw [Finset.sum_ite, Finset.sum_const_zero, zero_add, Finset.sum_const, nsmul_eq_mul]
      congr 1
    · simp only [hj, and_false, if_false]
      rw [Finset.sum_const, nsmul_eq_mul]
      congr 1
  show Fl.sqrt (∑ i : Fin 15, _) = _
  rw [Finset.sum_congr rfl (fun i _ => h1 i), Fl.fin_sum, h2, Fl.sqrt, if_neg]
  refine not_lt.2 (mul_nonneg ?_ (mul_self_nonneg _))
  split <;> norm_num

/-- The signal of a row whose good pixels outside the sky columns have the flux `f v` and the error `v` -/
theorem rowSignal_ge {s : PrepAll} {c : Nat} (col : Fin c → Fin s.spec.c) (sky : List Nat) (i : Fin s.spec.r) (f v : ℝ) (hf : 0 ≤ f) (hv : 0 < v)
    (hfl : ∀ j, GoodPixel s i (col j) ∧ GoodColumn s (col j) →
      s.spec.flux i (col j) * (s.spec.mask.getD fun _ _ => 1) i (col j) = .fin (f * v))
    (he : ∀ j, GoodPixel s i (col j) ∧ GoodColumn s (col j) → j.val ∉ sky →
      s.spec.err i (col j) * (s.spec.mask.getD fun _ _ => 1) i (col j) = .fin v)
    (k : Fin c) (hg : GoodPixel s i (col k) ∧ GoodColumn s (col k)) (hk : k.val ∉ sky) : ∃ y, f ≤ y ∧ rowSignal s col sky i = .fin y := by
  classical
  have h1 : rowSignal s col sky i =
      Fl.abs ((∑ j : Fin c, Fl.fin (if (GoodPixel s i (col j) ∧ GoodColumn s (col j)) ∧ j.val ∉ sky then f * v else 0)) /
      Fl.sqrt (∑ j : Fin c, Fl.fin (if (GoodPixel s i (col j) ∧ GoodColumn s (col j)) ∧ j.val ∉ sky then v * v else 0))) := by
    unfold rowSignal
    congr 2
    · refine Finset.sum_congr rfl fun j _ => ?_
      split
      · rename_i h; rw [hfl j h.1]
      · rfl
    · congr 1
      refine Finset.sum_congr rfl fun j _ => ?_
      split
      · rename_i h; rw [he j h.1 h.2]; rfl
      · rfl
  have hn : (1 : ℝ) ≤ ∑ j : Fin c, (if (GoodPixel s i (col j) ∧ GoodColumn s (col j)) ∧ j.val ∉ sky then (1 : ℝ) else 0) := by
    have := Finset.single_le_sum (f := fun j : Fin c => if (GoodPixel s i (col j) ∧ GoodColumn s (col j)) ∧ j.val ∉ sky then (1 : ℝ) else 0)
      (s := Finset.univ) (fun j _ => by positivity) (Finset.mem_univ k)
    simp only [if_pos (And.intro hg hk)] at this
    exact this
  have hsum : ∀ a : ℝ, ∑ j : Fin c, (if (GoodPixel s i (col j) ∧ GoodColumn s (col j)) ∧ j.val ∉ sky then a else 0) =
      a * ∑ j : Fin c, (if (GoodPixel s i (col j) ∧ GoodColumn s (col j)) ∧ j.val ∉ sky then (1 : ℝ) else 0) := by
    intro a
    rw [Finset.mul_sum]
    refine Finset.sum_congr rfl fun j _ => ?_
    split <;> simp
  rw [h1, Fl.fin_sum, Fl.fin_sum, hsum, hsum (v * v)]
  generalize ∑ j : Fin c, (if (GoodPixel s i (col j) ∧ GoodColumn s (col j)) ∧ j.val ∉ sky then (1 : ℝ) else 0) = n at hn
  have hs : 0 < Real.sqrt n := Real.sqrt_pos.2 (by linarith)
  have hsq : Real.sqrt (v * v * n) = v * Real.sqrt n := by
    rw [Real.sqrt_mul (mul_self_nonneg v), Real.sqrt_mul_self hv.le]
  have h3 : 1 ≤ Real.sqrt n := by
    rw [← Real.sqrt_one]
    exact Real.sqrt_le_sqrt hn
  refine ⟨f * Real.sqrt n, by nlinarith, ?_⟩
  rw [Fl.sqrt, if_neg (not_lt.2 (mul_nonneg (mul_self_nonneg v) (by linarith))), hsq, Fl.fin_div, if_neg (mul_pos hv hs).ne']
  have hval : f * v * n / (v * Real.sqrt n) = f * Real.sqrt n := by
    have : n = Real.sqrt n * Real.sqrt n := (Real.mul_self_sqrt (by linarith)).symm
    rw [div_eq_iff (mul_pos hv hs).ne']
    linear_combination (f * v) * this
  rw [hval, Fl.abs, if_neg (not_lt.2 (mul_nonneg hf hs.le))]

/-- The prepared example: all columns, rows from `first` on, values as in the input, and -99 in the bad pixel -/
theorem badUnit_prepared (v : ℝ) (hv : 0 < v) : ∃ t first, ∃ col : Fin t.spec.c → Fin 5, ∃ f e m : Fin t.spec.r → Fin t.spec.c → ℝ,
    prepare firstOracle (badUnit v) = (t, none) ∧ t.spec.r = 14 ∧ first ≤ 1 ∧ Function.Bijective col ∧ HasValues t f e m ∧
    t.spec.profile.length = 14 ∧ (∀ x ∈ t.spec.profile, x = .fin (1 / 14)) ∧
    (∀ j, j ∈ t.nosky ↔ (col j).val ≠ 4) ∧
    (∀ i j, f i j = if first + i.val = 3 ∧ (col j).val = 2 then -99 else 10 * v) ∧
    (∀ i j, e i j = if first + i.val = 3 ∧ (col j).val = 2 then -99 else badErr v (col j).val) ∧
    (∀ i j, m i j = if first + i.val = 3 ∧ (col j).val = 2 then 0 else 1) := by
  obtain ⟨t, ht, -, -, hr⟩ := C128_prepares firstOracle (badUnit v) (badUnit_preparable _ v) (Or.inl ⟨_, rfl⟩)
  have hr : t.spec.r = 14 := hr rfl
  obtain ⟨first, row, col, hP, hsky, -, hall⟩ := prepared_facts firstOracle (badUnit v) t rfl rfl (fun m hm => by cases hm) ht
  obtain ⟨full, line, z, obs, -, -, hz, hobs, -, hf, hl, hcols⟩ := hP.columns
  have hz : (0 : ℝ) = z := Option.some.inj hz
  subst hz
  have hobs := Option.some.inj hobs
  subst hobs
  have hf : (0, 10) = full := by
    rcases hf with h | ⟨h, -⟩
    · exact Option.some.inj h
    · cases h
  subst hf
  have hl : (0, 10) = line := by
    rcases hl with h | ⟨h, -⟩
    · exact Option.some.inj h
    · cases h
  subst hl
  have hsurj : ∀ j : Fin 5, ∃ k, col k = j := fun j => (hcols j).2 (skyAll_inRanges j)
  have h15 : 0 < Real.sqrt 15 := Real.sqrt_pos.2 (by norm_num)
  have hsq : ∀ a : ℝ, 0 < a → Real.sqrt (15 * (a * a)) = a * Real.sqrt 15 := by
    intro a ha
    rw [Real.sqrt_mul (by norm_num : (0 : ℝ) ≤ 15), Real.sqrt_mul_self ha.le, mul_comm]
  have hnoise : firstOracle.median (List.ofFn fun j => columnNoise (badUnit v) j) = .fin (v * Real.sqrt 15) := by
    have : columnNoise (badUnit v) (0 : Fin 5) = .fin (v * Real.sqrt 15) := by
      rw [badUnit_noise]
      congr 1
      show Real.sqrt (15 * (v * v)) = _
      exact hsq v hv
    rw [← this]
    rfl
  have hsk : ∀ j, j.val ∈ t.spec.whSky ↔ (col j).val = 4 := by
    intro j
    have hb := badUnit_noise v (col j)
    rw [hsky (.fin 2) rfl j, hnoise, hb, Fl.fin_mul, Fl.leB_fin, decide_eq_true_iff]
    constructor
    · intro h
      by_contra hne
      have hbe : badErr v (col j).val = v := if_neg hne
      rw [hbe] at h
      have hle : Real.sqrt ((if (col j).val = 2 then 14 else 15) * (v * v)) ≤ Real.sqrt (15 * (v * v)) := by
        refine Real.sqrt_le_sqrt (mul_le_mul_of_nonneg_right ?_ (mul_self_nonneg v))
        split <;> norm_num
      rw [hsq v hv] at hle
      nlinarith [mul_pos hv h15]
    · intro h
      have hbe : badErr v (col j).val = 10 * v := if_pos h
      rw [hbe, if_neg (by omega), hsq (10 * v) (by linarith)]
      nlinarith [mul_pos hv h15]
  obtain ⟨k1, hk1⟩ := hsurj (0 : Fin 5)
  obtain ⟨m, hm, hused⟩ := hall rfl (by
    intro i
    obtain ⟨y, hy, hs⟩ := rowSignal_ge (s := badUnit v) col t.spec.whSky i 10 v (by norm_num) hv
      (fun j hg => by
        have := (badUnit_good v i (col j)).1 hg
        show (if i.val = 3 ∧ (col j).val = 2 then (Fl.nan : Fl ℝ) else .fin (10 * v)) * 1 = _
        rw [if_neg this, Fl.one_def, Fl.fin_mul, mul_one])
      (fun j hg hj => by
        have := (badUnit_good v i (col j)).1 hg
        show (if i.val = 3 ∧ (col j).val = 2 then (Fl.nan : Fl ℝ) else .fin (badErr v (col j).val)) * 1 = _
        rw [if_neg this, Fl.one_def, Fl.fin_mul, mul_one]
        congr 1
        exact if_neg fun h => hj ((hsk j).2 h))
      k1 (by
        rw [hk1]
        exact (badUnit_good v i 0).2 (fun h => absurd h.2 (by decide)))
      (fun h => by
        have := (hsk k1).1 h
        rw [hk1] at this
        have this : (0 : Nat) = 4 := this
        omega)
    rw [hs]
    show Fl.leB (.fin 2) (.fin y) = true
    rw [Fl.leB_fin, decide_eq_true_iff]
    linarith)
  have he0 : ∀ i j, (badUnit v).spec.err i j ≠ 0 := by
    intro i j h
    have h : (if i.val = 3 ∧ j.val = 2 then (Fl.nan : Fl ℝ) else .fin (badErr v j.val)) = .fin 0 := h
    split at h
    · cases h
    · have := Fl.fin.inj h
      unfold badErr at this
      split at this <;> linarith
  obtain ⟨f, e, mm, hV⟩ := prepared_values hP he0
  obtain ⟨m', I, C, hm', -, -, hfl, -, -, hC, hfil⟩ := hP.values
  obtain ⟨m'', hm'', hone⟩ := hP.maskValue
  have hmm : m = finImg mm := Option.some.inj (hm.symm.trans hV.mask)
  subst hmm
  have hmm : m'' = finImg mm := Option.some.inj (hm''.symm.trans hV.mask)
  subst hmm
  have hrow : ∀ i, (row i).val = first + i.val := hP.rows
  have hfirst : first ≤ 1 := by
    have h1 := hrow ⟨13, by omega⟩
    have h2 : (row ⟨13, by omega⟩).val < 15 := (row ⟨13, by omega⟩).2
    have h3 : (row ⟨13, by omega⟩).val = first + 13 := h1
    omega
  have hbad : ∀ i j, ((row i).val = 3 ∧ (col j).val = 2) ↔ (first + i.val = 3 ∧ (col j).val = 2) := by
    intro i j
    rw [hrow]
  refine ⟨t, first, col, f, e, mm, ht, hr, hfirst, ⟨hP.cols.injective, hsurj⟩, hV, hP.profile.1.trans hr, ?_, ?_, ?_, ?_, ?_⟩
  · intro x hx
    have h1 := hP.profile.2 rfl x hx
    rw [hP.profile.1, hr] at h1
    rw [h1]
    norm_num
  · intro j
    unfold PrepAll.nosky
    rw [List.mem_filter, decide_eq_true_iff, hP.noSky j, hsk j]
    simp [List.mem_finRange]
  · intro i j
    have h1 : I i j = if (if (row i).val = 3 ∧ (col j).val = 2 then (Fl.nan : Fl ℝ) else .fin (10 * v)).isFinite then
      (if (row i).val = 3 ∧ (col j).val = 2 then (Fl.nan : Fl ℝ) else .fin (10 * v)) else .fin (-99) := (hfil i j).1
    have h2 : Fl.fin (f i j) = I i j - 0 := by
      rw [← hC rfl i j, ← hfl i j, hV.flux]
      rfl
    rw [h1] at h2
    simp only [hbad] at h2
    split at h2
    · rename_i hb
      rw [if_pos hb]
      have : Fl.fin (f i j) = Fl.fin (-99 - 0) := h2
      rw [Fl.fin.inj this, sub_zero]
    · rename_i hb
      rw [if_neg hb]
      have : Fl.fin (f i j) = Fl.fin (10 * v - 0) := h2
      rw [Fl.fin.inj this, sub_zero]
  · intro i j
    have h1 := (hfil i j).2
    have h2 : t.spec.err i j = Fl.fin (e i j) := by rw [hV.err]; rfl
    rw [h2] at h1
    by_cases hb : (row i).val = 3 ∧ (col j).val = 2
    · rw [if_pos ((hbad i j).1 hb)]
      have h3 : (badUnit v).spec.err (row i) (col j) = Fl.nan := if_pos hb
      rw [h3] at h1
      exact Fl.fin.inj (h1.1 rfl)
    · rw [if_neg (fun h => hb ((hbad i j).2 h))]
      have h3 : (badUnit v).spec.err (row i) (col j) = Fl.fin (badErr v (col j).val) := if_neg hb
      have h4 := he0 (row i) (col j)
      rw [h3] at h1 h4
      exact Fl.fin.inj (h1.2 rfl h4)
  · intro i j
    have h1 := (hused i j).trans (badUnit_good v (row i) (col j))
    rw [hbad] at h1
    by_cases hb : first + i.val = 3 ∧ (col j).val = 2
    · rw [if_pos hb]
      by_contra hne
      exact h1.1 (fun h => hne (Fl.fin.inj h)) hb
    · rw [if_neg hb]
      have h2 : Fl.fin (mm i j) = 1 * 1 := hone i j (h1.2 hb)
      have h3 : Fl.fin (mm i j) = Fl.fin (1 * 1) := h2
      rw [Fl.fin.inj h3, mul_one]

/-- A sum over the columns without sky of the example -/
theorem nosky_sum {t : PrepAll} {col : Fin t.spec.c → Fin 5} (hb : Function.Bijective col) (hs : ∀ j, j ∈ t.nosky ↔ (col j).val ≠ 4)
    (g : Fin 5 → ℝ) : (t.nosky.map fun j => g (col j)).sum = g 0 + g 1 + g 2 + g 3 := by
  have hnd : t.nosky.Nodup := (List.nodup_finRange _).filter _
  have h1 : (t.nosky.map fun j => g (col j)).sum = ∑ j, if (col j).val ≠ 4 then g (col j) else 0 := by
    rw [← Finset.sum_filter, show Finset.univ.filter (fun j => (col j).val ≠ 4) = t.nosky.toFinset by ext j; simp [hs j],
      List.sum_toFinset _ hnd]
  rw [h1, hb.sum_comp (fun k : Fin 5 => if k.val ≠ 4 then g k else 0), Fin.sum_univ_five]
  simp

/-- The chi-square of the image 1 against the example, in the unit `v` -/
noncomputable def badChisq (v : ℝ) : ℝ := 301 / 1400 * ((10 * v ^ 2 + 99 * v) / (29403 + v ^ 2)) ^ 2

/-- The chi-square of the example depends on the unit it is written in. -/
theorem badUnit_chisq (v : ℝ) (hv : 0 < v) :
    ∃ t, prepare firstOracle (badUnit v) = (t, none) ∧ t.fitChisq (fun _ _ => 1) = some (.fin (badChisq v)) := by
  obtain ⟨t, first, col, f, e, m, ht, hr, hfirst, hbij, hV, hl, hp, hs, hf, he, hm⟩ := badUnit_prepared v hv
  refine ⟨t, ht, ?_⟩
  have hamp : ∀ i, rowAmp f e (fun _ _ => (1 : ℝ)) t.nosky i =
      if first + i.val = 3 then (30 / v - 1 / 99) / (3 / v ^ 2 + 1 / 99 ^ 2) else 10 * v := by
    intro i
    have hN : (t.nosky.map fun j => f i j * 1 / (e i j * e i j)).sum = if first + i.val = 3 then 30 / v - 1 / 99 else 40 / v := by
      obtain ⟨G, hG⟩ : ∃ G : Fin 5 → ℝ, G = fun k : Fin 5 => (if first + i.val = 3 ∧ k.val = 2 then (-99 : ℝ) else 10 * v) * 1 /
          ((if first + i.val = 3 ∧ k.val = 2 then (-99 : ℝ) else badErr v k.val) *
          (if first + i.val = 3 ∧ k.val = 2 then (-99 : ℝ) else badErr v k.val)) := ⟨_, rfl⟩
      have h1 : (fun j => f i j * 1 / (e i j * e i j)) = fun j => G (col j) := by
        funext j
        rw [hf, he, hG]
      rw [h1, nosky_sum hbij hs, hG]
      by_cases hi : first + i.val = 3
      · simp only [hi, true_and, badErr]
        norm_num
        field_simp
        ring
      · simp only [hi, false_and, badErr]
        norm_num
        field_simp
        ring
    have hD : (t.nosky.map fun j => (1 : ℝ) * 1 / (e i j * e i j)).sum =
        if first + i.val = 3 then 3 / v ^ 2 + 1 / 99 ^ 2 else 4 / v ^ 2 := by
      obtain ⟨G, hG⟩ : ∃ G : Fin 5 → ℝ, G = fun k : Fin 5 => (1 : ℝ) * 1 /
          ((if first + i.val = 3 ∧ k.val = 2 then (-99 : ℝ) else badErr v k.val) *
          (if first + i.val = 3 ∧ k.val = 2 then (-99 : ℝ) else badErr v k.val)) := ⟨_, rfl⟩
      have h1 : (fun j => (1 : ℝ) * 1 / (e i j * e i j)) = fun j => G (col j) := by
        funext j
        rw [he, hG]
      rw [h1, nosky_sum hbij hs, hG]
      by_cases hi : first + i.val = 3
      · simp only [hi, true_and, badErr]
        norm_num
        field_simp
        ring
      · simp only [hi, false_and, badErr]
        norm_num
        field_simp
        ring
    unfold rowAmp
    rw [hN, hD]
    by_cases hi : first + i.val = 3
    · simp only [if_pos hi]
      rw [if_neg (by positivity)]
    · simp only [if_neg hi]
      rw [if_neg (by positivity)]
      field_simp
      norm_num
  rw [hV.fitChisq _ (hl.trans hr.symm)]
  have hrows : ∀ i : Fin t.spec.r, (∑ j, Fl.fin (((f i j - 1 * rowAmp f e (fun _ _ => (1 : ℝ)) t.nosky i) * m i j / e i j) *
      ((f i j - 1 * rowAmp f e (fun _ _ => (1 : ℝ)) t.nosky i) * m i j / e i j)) *
      t.spec.profile[i.val]'(by rw [hl, ← hr]; exact i.2)) = .fin (if first + i.val = 3 then badChisq v else 0) := by
    intro i
    have hpi : t.spec.profile[i.val]'(by rw [hl, ← hr]; exact i.2) = .fin (1 / 14) := hp _ (List.getElem_mem _)
    rw [hpi]
    simp only [Fl.fin_mul]
    rw [Fl.fin_sum]
    congr 1
    obtain ⟨G, hG⟩ : ∃ G : Fin 5 → ℝ, G = fun k : Fin 5 => if first + i.val = 3 ∧ k.val = 2 then (0 : ℝ) else
          ((10 * v - rowAmp f e (fun _ _ => (1 : ℝ)) t.nosky i) / badErr v k.val) ^ 2 / 14 := ⟨_, rfl⟩
    have h1 : (fun j => (f i j - 1 * rowAmp f e (fun _ _ => (1 : ℝ)) t.nosky i) * m i j / e i j *
        ((f i j - 1 * rowAmp f e (fun _ _ => (1 : ℝ)) t.nosky i) * m i j / e i j) * (1 / 14)) = fun j => G (col j) := by
      funext j
      rw [hf, he, hm, hG]
      by_cases hb : first + i.val = 3 ∧ (col j).val = 2
      · simp [hb]
      · simp only [if_neg hb]
        ring
    rw [show (∑ j, ((f i j - 1 * rowAmp f e (fun _ _ => (1 : ℝ)) t.nosky i) * m i j / e i j *
        ((f i j - 1 * rowAmp f e (fun _ _ => (1 : ℝ)) t.nosky i) * m i j / e i j) * (1 / 14))) = _ from
      Finset.sum_congr rfl fun j _ => congrFun h1 j, hbij.sum_comp G, Fin.sum_univ_five, hG, hamp]
    by_cases hi : first + i.val = 3
    · simp only [hi, true_and, badErr, badChisq]
      norm_num
      have hres : 10 * v - (30 / v - 1 / 99) / (3 / v ^ 2 + 1 / 9801) = v * ((10 * v ^ 2 + 99 * v) / (29403 + v ^ 2)) := by
        have h3 : 3 / v ^ 2 + 1 / 9801 ≠ 0 := by positivity
        have h4 : 29403 + v ^ 2 ≠ 0 := by positivity
        field_simp
        ring
      rw [hres]
      field_simp
      ring
    · simp only [hi, false_and]
      simp
  have hfin : (∑ i : Fin t.spec.r, ∑ j, Fl.fin (((f i j - 1 * rowAmp f e (fun _ _ => (1 : ℝ)) t.nosky i) * m i j / e i j) *
      ((f i j - 1 * rowAmp f e (fun _ _ => (1 : ℝ)) t.nosky i) * m i j / e i j)) *
      t.spec.profile[i.val]'(by rw [hl, ← hr]; exact i.2)) = .fin (badChisq v) := by
    rw [Finset.sum_congr rfl fun i _ => hrows i, Fl.fin_sum]
    congr 1
    have h0 : ∀ i : Fin t.spec.r, (if first + i.val = 3 then badChisq v else 0) =
        if i = ⟨3 - first, by omega⟩ then badChisq v else 0 := by
      intro i
      refine if_congr ?_ rfl rfl
      rw [Fin.ext_iff]
      show _ ↔ i.val = 3 - first
      omega
    rw [Finset.sum_congr rfl fun i _ => h0 i, Finset.sum_ite_eq' Finset.univ, if_pos (Finset.mem_univ _)]
  exact congrArg some hfin

/-- **C167 is false**: the same spectrum in two flux units, prepared with routines that carry the unit and compared with the same model, has
two values of chi-square.  The model vanishes nowhere; the spectrum has one bad pixel. -/
theorem C167_false (u : ℝ) (hu : 1 < u) (hu2 : u ≤ 100) : ∃ s t t' : PrepAll, ∃ q q' : ℝ,
    s.spec.prepared = false ∧ s.spec.maskQual = none ∧ s.spec.mask = none ∧ (∀ i j y, s.spec.err i j = .fin y → 0 < y) ∧
    firstOracle.UnitFree u ∧ prepare firstOracle s = (t, none) ∧ prepare firstOracle (s.inUnit u) = (t', none) ∧
    t.fitChisq (fun _ _ => 1) = some (.fin q) ∧ t'.fitChisq (fun _ _ => 1) = some (.fin q') ∧ q < q' := by
  obtain ⟨t, ht, hq⟩ := badUnit_chisq 1 one_pos
  obtain ⟨t', ht', hq'⟩ := badUnit_chisq u (by linarith)
  refine ⟨badUnit 1, t, t', _, _, rfl, rfl, rfl, ?_, firstOracle_unitFree u, ht, ?_, hq, hq', ?_⟩
  · intro i j y h
    have h : (if i.val = 3 ∧ j.val = 2 then (Fl.nan : Fl ℝ) else .fin (badErr 1 j.val)) = .fin y := h
    split at h
    · cases h
    · rw [← Fl.fin.inj h]
      unfold badErr
      split <;> norm_num
  · rw [badUnit_inUnit u 1 (by linarith), mul_one]
    exact ht'
  · unfold badChisq
    have h1 : (10 * (1 : ℝ) ^ 2 + 99 * 1) / (29403 + 1 ^ 2) < (10 * u ^ 2 + 99 * u) / (29403 + u ^ 2) := by
      rw [div_lt_div_iff₀ (by norm_num) (by positivity)]
      nlinarith
    have h2 : (0 : ℝ) ≤ (10 * (1 : ℝ) ^ 2 + 99 * 1) / (29403 + 1 ^ 2) := by norm_num
    have h3 := mul_self_lt_mul_self h2 h1
    nlinarith

end Misfit
