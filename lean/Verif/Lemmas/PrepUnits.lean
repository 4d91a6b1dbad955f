import Verif.Lemmas.Prepare
import Verif.Lemmas.PrepView
import Verif.Lemmas.Units

/-!
# Helper lemmas for `Verif.Props.PrepUnits`: the steps of the preparation in another flux unit
-/

namespace Misfit

variable {r c n : Nat}

/-! ## Floats -/

namespace Fl

theorem scale_zero (u : ℝ) : scale u (0 : Fl ℝ) = 0 := congrArg fin (mul_zero u)

theorem eqB_zero_scale {u : ℝ} (hu : 0 < u) (a : Fl ℝ) : eqB (scale u a) 0 = eqB a 0 := by
  cases a with
  | fin x => exact decide_eq_decide.2 (by simp [hu.ne'])
  | nan => rfl
  | pinf => rfl
  | ninf => rfl

theorem leB_scale {u : ℝ} (hu : 0 < u) (a b : Fl ℝ) : leB (scale u a) (scale u b) = leB a b := by
  cases a <;> cases b <;> first | rfl | exact decide_eq_decide.2 (mul_le_mul_iff_right₀ hu)

theorem ltB_zero_scale {u : ℝ} (hu : 0 < u) (a : Fl ℝ) : ltB 0 (scale u a) = ltB 0 a := by
  cases a with
  | fin x => exact decide_eq_decide.2 (by simp [hu])
  | nan => rfl
  | pinf => rfl
  | ninf => rfl

theorem ltB_scale {u : ℝ} (hu : 0 < u) (a b : Fl ℝ) : ltB (scale u a) (scale u b) = ltB a b := by
  cases a <;> cases b <;> first | rfl | exact decide_eq_decide.2 (mul_lt_mul_iff_right₀ hu)

theorem abs_scale {u : ℝ} (hu : 0 < u) (a : Fl ℝ) : abs (scale u a) = scale u (abs a) := by
  cases a with
  | fin x =>
    show fin (if u * x < 0 then -(u * x) else u * x) = fin (u * if x < 0 then -x else x)
    have h : u * x < 0 ↔ x < 0 := by
      constructor
      · intro h; by_contra hn; exact absurd h (not_lt.2 (mul_nonneg hu.le (not_lt.1 hn)))
      · intro h; exact mul_neg_of_pos_of_neg hu h
    by_cases hx : x < 0
    · rw [if_pos hx, if_pos (h.2 hx), mul_neg]
    · rw [if_neg hx, if_neg (fun h' => hx (h.1 h'))]
  | nan => rfl
  | pinf => rfl
  | ninf => rfl

theorem sqrt_scale {u : ℝ} (hu : 0 < u) (a : Fl ℝ) : sqrt (scale (u * u) a) = scale u (sqrt a) := by
  cases a with
  | fin x =>
    show (if u * u * x < 0 then Fl.nan else .fin (Real.sqrt (u * u * x))) =
      scale u (if x < 0 then Fl.nan else .fin (Real.sqrt x))
    have hp : 0 < u * u := mul_pos hu hu
    have h : u * u * x < 0 ↔ x < 0 := by
      constructor
      · intro h; by_contra hn; exact absurd h (not_lt.2 (mul_nonneg hp.le (not_lt.1 hn)))
      · intro h; exact mul_neg_of_pos_of_neg hp h
    by_cases hx : x < 0
    · rw [if_pos hx, if_pos (h.2 hx)]; rfl
    · rw [if_neg hx, if_neg (fun h' => hx (h.1 h'))]
      show Fl.fin _ = Fl.fin (u * Real.sqrt x)
      rw [Real.sqrt_mul hp.le, Real.sqrt_mul_self hu.le]
  | nan => rfl
  | pinf => rfl
  | ninf => rfl

theorem scale_sum {ι : Type*} (u : ℝ) (s : Finset ι) (f : ι → Fl ℝ) :
    ∑ i ∈ s, scale u (f i) = scale u (∑ i ∈ s, f i) := by
  classical
  induction s using Finset.induction_on with
  | empty => exact (scale_zero u).symm
  | insert a s ha ih => rw [Finset.sum_insert ha, Finset.sum_insert ha, ih, scale_add]

theorem quad_scale {ι : Type*} {u : ℝ} (hu : 0 < u) (s : Finset ι) (f : ι → Fl ℝ) :
    sqrt (∑ i ∈ s, sq (scale u (f i))) = scale u (sqrt (∑ i ∈ s, sq (f i))) := by
  rw [← sqrt_scale hu, ← scale_sum]
  simp only [sq_scale hu]

end Fl

theorem npMax2_scale {u : ℝ} (hu : 0 < u) (a b : Fl ℝ) : npMax2 (Fl.scale u a) (Fl.scale u b) = Fl.scale u (npMax2 a b) := by
  have h : ∀ a b : Fl ℝ, (if Fl.leB (Fl.scale u a) (Fl.scale u b) then Fl.scale u b else Fl.scale u a) =
      Fl.scale u (if Fl.leB a b then b else a) := by
    intro a b
    rw [Fl.leB_scale hu]
    split <;> rfl
  cases a <;> cases b <;> first | rfl | exact h _ _

theorem npMax_scale {u : ℝ} (hu : 0 < u) (l : List (Fl ℝ)) : npMax (l.map (Fl.scale u)) = (npMax l).map (Fl.scale u) := by
  cases l with
  | nil => rfl
  | cons a l =>
    show some ((l.map (Fl.scale u)).foldl npMax2 (Fl.scale u a)) = some (Fl.scale u (l.foldl npMax2 a))
    congr 1
    induction l generalizing a with
    | nil => rfl
    | cons b l ih => simp only [List.map_cons, List.foldl_cons, npMax2_scale hu, ih]

/-- all values times `u` -/
noncomputable def scaleImg (u : ℝ) (a : Img r c ℝ) : Img r c ℝ := fun i j => Fl.scale u (a i j)

theorem ofFn_scale (u : ℝ) (f : Fin n → Fl ℝ) : (List.ofFn fun i => Fl.scale u (f i)) = (List.ofFn f).map (Fl.scale u) := by
  rw [List.map_ofFn]; rfl

theorem flatten_scale (u : ℝ) (a : Img r c ℝ) :
    (List.ofFn fun i => List.ofFn fun j => Fl.scale u (a i j)).flatten = (List.ofFn fun i => List.ofFn (a i)).flatten.map (Fl.scale u) := by
  rw [List.map_flatten, List.map_ofFn]
  congr 1
  congr 1
  funext i
  exact ofFn_scale u (a i)

/-! ## Masks of missing data -/

theorem specMaskMissing2D_scale {u : ℝ} (hu : 0 < u) (flux err : Img r c ℝ) (w m : Option (Img r c ℝ)) :
    specMaskMissing2D (scaleImg u flux) (scaleImg u err) w m true = specMaskMissing2D flux err w m true := by
  unfold specMaskMissing2D scaleImg
  have h : (List.ofFn fun i => List.ofFn fun j => Fl.abs (Fl.scale u (err i j))).flatten =
      (List.ofFn fun i => List.ofFn fun j => Fl.abs (err i j)).flatten.map (Fl.scale u) := by
    simp only [Fl.abs_scale hu]
    exact flatten_scale u fun i j => Fl.abs (err i j)
  rw [h, npMax_scale hu]
  rcases npMax (List.ofFn fun i => List.ofFn fun j => Fl.abs (err i j)).flatten with _ | mx
  · rfl
  · simp only [Option.map_some, Fl.isFinite_scale, Bool.not_true, Bool.false_and, Bool.false_eq_true, if_false]

theorem specMaskMissing1D_scale {u : ℝ} (hu : 0 < u) (flux err : Fin n → Fl ℝ) (m : Option (Fin n → Fl ℝ)) :
    specMaskMissing1D (fun j => Fl.scale u (flux j)) (fun j => Fl.scale u (err j)) none m false =
      specMaskMissing1D flux err none m false := by
  unfold specMaskMissing1D
  have h : (List.ofFn fun j => Fl.abs (Fl.scale u (err j))) = (List.ofFn fun j => Fl.abs (err j)).map (Fl.scale u) := by
    simp only [Fl.abs_scale hu]
    exact ofFn_scale u fun j => Fl.abs (err j)
  rw [h, npMax_scale hu]
  rcases npMax (List.ofFn fun j => Fl.abs (err j)) with _ | mx
  · rfl
  · simp only [Option.map_some, Fl.isFinite_scale, Fl.ltB_zero_scale hu, Fl.eqB_zero_scale hu]

/-! ## Images that agree up to the unit on the good pixels -/

/-- `a'` is `u` times `a` on the good pixels; everything is finite -/
structure PixRel (u : ℝ) (G : Fin r → Fin c → Prop) (a a' : Img r c ℝ) : Prop where
  good : ∀ i j, G i j → a' i j = Fl.scale u (a i j)
  fin : ∀ i j, (a i j).isFinite = true
  fin' : ∀ i j, (a' i j).isFinite = true

/-- a finite, non-negative mask that is zero outside the good pixels -/
structure MaskOK (G : Fin r → Fin c → Prop) (m : Img r c ℝ) : Prop where
  bad : ∀ i j, ¬ G i j → m i j = 0
  nonneg : ∀ i j, ∃ x : ℝ, 0 ≤ x ∧ m i j = .fin x

theorem MaskOK.finite {G : Fin r → Fin c → Prop} {m : Img r c ℝ} (h : MaskOK G m) (i : Fin r) (j : Fin c) : (m i j).isFinite = true := by
  obtain ⟨x, -, hx⟩ := h.nonneg i j
  rw [hx]; rfl

theorem PixRel.mul_mask {u : ℝ} (hu : 0 < u) {G : Fin r → Fin c → Prop} {a a' m : Img r c ℝ} (h : PixRel u G a a') (hm : MaskOK G m)
    (i : Fin r) (j : Fin c) : a' i j * m i j = Fl.scale u (a i j * m i j) := by
  by_cases hg : G i j
  · rw [h.good i j hg, Fl.scale_mul hu]
  · rw [hm.bad i j hg, fl_mul_zero_right (h.fin i j), fl_mul_zero_right (h.fin' i j), Fl.scale_zero]

theorem colQuad_units {u : ℝ} (hu : 0 < u) {G : Fin r → Fin c → Prop} {e e' m : Img r c ℝ} (h : PixRel u G e e') (hm : MaskOK G m)
    (j : Fin c) : colQuad e' m j = Fl.scale u (colQuad e m j) := by
  unfold colQuad
  simp only [h.mul_mask hu hm]
  exact Fl.quad_scale hu _ _

theorem rowSnr_units {u : ℝ} (hu : 0 < u) {G : Fin r → Fin c → Prop} {f f' e e' m : Img r c ℝ} (hf : PixRel u G f f')
    (he : PixRel u G e e') (hm : MaskOK G m) : rowSnr f' e' m = rowSnr f e m := by
  funext i
  unfold rowSnr
  simp only [hf.mul_mask hu hm, he.mul_mask hu hm]
  rw [Fl.scale_sum, Fl.quad_scale hu, Fl.scale_div_scale hu]

theorem whSkylines1D_units {u : ℝ} (hu : 0 < u) (e : Fin n → Fl ℝ) (cut md : Option (Fl ℝ)) :
    whSkylines1D (fun j => Fl.scale u (e j)) cut (md.map (Fl.scale u)) = whSkylines1D e cut md := by
  rcases md with _ | md
  · rfl
  · rcases cut with _ | cut
    · rfl
    · show Except.ok _ = Except.ok _
      simp only [Fl.mul_scale hu, Fl.ltB_scale hu, Fl.leB_scale hu]

theorem maskSkylines2D_units {u : ℝ} (hu : 0 < u) {G : Fin r → Fin c → Prop} {e e' m : Img r c ℝ} (h : PixRel u G e e')
    (hm : MaskOK G m) (cut md : Option (Fl ℝ)) (units : String) :
    maskSkylines2D e' m cut units (md.map (Fl.scale u)) = maskSkylines2D e m cut units md := by
  unfold maskSkylines2D
  rw [show colQuad e' m = fun j => Fl.scale u (colQuad e m j) from funext (colQuad_units hu h hm), whSkylines1D_units hu]

theorem maskLowSnrRows2D_units {u : ℝ} (hu : 0 < u) {G : Fin r → Fin c → Prop} {f f' e e' m : Img r c ℝ} (hf : PixRel u G f f')
    (he : PixRel u G e e') (hm : MaskOK G m) (q : Img r c ℝ) (cut : Fl ℝ) :
    maskLowSnrRows2D f' e' q m cut = maskLowSnrRows2D f e q m cut := by
  unfold maskLowSnrRows2D
  rw [rowSnr_units hu hf he hm]

/-! ## Steps -/

/-- a 1D spectrum in another flux unit -/
noncomputable def scale1D (u : ℝ) (o : Obs1D) : Obs1D :=
  { o with flux := fun j => Fl.scale u (o.flux j), err := fun j => Fl.scale u (o.err j) }

/-- the galaxy with its 1D spectrum in another flux unit -/
noncomputable def scaleGal (u : ℝ) (g : PrepGal) : PrepGal := { g with spec1D := g.spec1D.map (scale1D u) }

/-- the same observation in another flux unit: flux and errors of the 2D and the 1D spectrum times `u` -/
noncomputable def scalePrep (u : ℝ) (s : PrepAll) : PrepAll :=
  ⟨{ s.spec with flux := scaleImg u s.spec.flux, err := scaleImg u s.spec.err }, scaleGal u s.gal⟩

/-- the same exception, or success in both cases and related states -/
def SameOut (R : PrepAll → PrepAll → Prop) (x y : PrepAll × Option PyErr) : Prop :=
  x.2 = y.2 ∧ (x.2 = none → R x.1 y.1)

theorem SameOut.cons {R Q : PrepAll → PrepAll → Prop} {f : PrepStep} {fs : List PrepStep} {s s' : PrepAll}
    (h : SameOut R (f s) (f s')) (hs : ∀ t t', R t t' → SameOut Q (runSteps fs t) (runSteps fs t')) :
    SameOut Q (runSteps (f :: fs) s) (runSteps (f :: fs) s') := by
  rw [runSteps, runSteps]
  rcases h1 : f s with ⟨t, e⟩
  rcases h2 : f s' with ⟨t', e'⟩
  rw [h1, h2] at h
  obtain ⟨he, hR⟩ := h
  change e = e' at he
  subst he
  rcases e with _ | e
  · exact hs t t' (hR rfl)
  · exact ⟨rfl, fun h => by cases h⟩

/-- input conditions: no mask of an earlier call; non-negative finite mask values; no negative errors -/
structure PrepInv (s : PrepAll) : Prop where
  qual : s.spec.maskQual = none
  mask : ∀ m, s.spec.mask = some m → ∀ i j, ∃ x : ℝ, 0 ≤ x ∧ m i j = .fin x
  err : ∀ i j x, s.spec.err i j = .fin x → 0 ≤ x

/-- before the filling of bad pixels: exact scaling -/
def Rel0 (u : ℝ) (s s' : PrepAll) : Prop := s' = scalePrep u s ∧ PrepInv s

theorem SameOut.err {R : PrepAll → PrepAll → Prop} {s s' : PrepAll} {e : PyErr} : SameOut R (s, some e) (s', some e) :=
  ⟨rfl, fun h => by cases h⟩

theorem SameOut.ok {R : PrepAll → PrepAll → Prop} {s s' : PrepAll} (h : R s s') : SameOut R (s, none) (s', none) :=
  ⟨rfl, fun _ => h⟩

theorem lineNamesStep_units {u : ℝ} {s s' : PrepAll} (h : Rel0 u s s') : SameOut (Rel0 u) (lineNamesStep s) (lineNamesStep s') := by
  obtain ⟨rfl, h⟩ := h
  dsimp only [lineNamesStep, scalePrep]
  split
  · exact .ok ⟨rfl, h⟩
  · split
    · exact .err
    · exact .ok ⟨rfl, h.1, h.2, h.3⟩

theorem lineWavesStep_units {u : ℝ} {s s' : PrepAll} (h : Rel0 u s s') : SameOut (Rel0 u) (lineWavesStep s) (lineWavesStep s') := by
  obtain ⟨rfl, h⟩ := h
  dsimp only [lineWavesStep, scalePrep]
  split
  · split
    · exact .err
    · exact .ok ⟨rfl, h.1, h.2, h.3⟩
  · exact .ok ⟨rfl, h⟩

theorem lineRatiosStep_units {u : ℝ} {s s' : PrepAll} (h : Rel0 u s s') : SameOut (Rel0 u) (lineRatiosStep s) (lineRatiosStep s') := by
  obtain ⟨rfl, h⟩ := h
  dsimp only [lineRatiosStep, scalePrep]
  split
  · split
    · exact .err
    · exact .ok ⟨rfl, h.1, h.2, h.3⟩
  · exact .ok ⟨rfl, h⟩

theorem skyLevelsStep_units {u : ℝ} {s s' : PrepAll} (h : Rel0 u s s') : SameOut (Rel0 u) (skyLevelsStep s) (skyLevelsStep s') := by
  obtain ⟨rfl, h⟩ := h
  dsimp only [skyLevelsStep, scalePrep]
  split
  · exact .ok ⟨rfl, h⟩
  · split
    · exact .err
    · exact .ok ⟨rfl, h.1, h.2, h.3⟩

theorem derivedStep_units {u : ℝ} {s s' : PrepAll} (h : Rel0 u s s') : SameOut (Rel0 u) (derivedStep s) (derivedStep s') := by
  obtain ⟨rfl, h⟩ := h
  dsimp only [derivedStep, scalePrep, scaleGal]
  split
  · exact .err
  · split
    · split
      · exact .err
      · exact .err
      · exact .err
      · exact .ok ⟨rfl, h.1, h.2, h.3⟩
    · exact .ok ⟨rfl, h⟩

/-- with a mask present -/
def Rel0M (u : ℝ) (s s' : PrepAll) : Prop := Rel0 u s s' ∧ ∃ m w, s.spec.mask = some m ∧ s.spec.weight = some w

theorem ensureStep_units {u : ℝ} {s s' : PrepAll} (h : Rel0 u s s') : SameOut (Rel0M u) (ensureStep s) (ensureStep s') := by
  obtain ⟨rfl, h⟩ := h
  refine ⟨rfl, fun _ => ⟨⟨rfl, h.1, ?_, h.3⟩, _, _, rfl, rfl⟩⟩
  intro m hm i j
  cases hm
  show ∃ x : ℝ, 0 ≤ x ∧ (s.spec.mask.getD fun _ _ => 1) i j = .fin x
  rcases hs : s.spec.mask with _ | m
  · exact ⟨1, zero_le_one, rfl⟩
  · exact h.2 m hs i j

/-- with a mask that excludes non-finite pixels -/
def Rel0F (u : ℝ) (s s' : PrepAll) : Prop := Rel0 u s s' ∧ ∃ m, s.spec.mask = some m ∧
  ∀ i j, m i j ≠ 0 → (s.spec.flux i j).isFinite = true ∧ (s.spec.err i j).isFinite = true

theorem missing2DStep_units {u : ℝ} (hu : 0 < u) {s s' : PrepAll} (h : Rel0M u s s') :
    SameOut (Rel0F u) (missing2DStep s) (missing2DStep s') := by
  obtain ⟨⟨rfl, h⟩, m, w, hm, hw⟩ := h
  have hok := @missing2DStep_ok s (missing2DStep s).1 w m hw hm
  unfold missing2DStep at hok ⊢
  rw [show specMaskMissing2D (scalePrep u s).spec.flux (scalePrep u s).spec.err (scalePrep u s).spec.weight (scalePrep u s).spec.mask true =
    _ from specMaskMissing2D_scale hu s.spec.flux s.spec.err s.spec.weight s.spec.mask]
  split
  · exact .err
  · rename_i m2 hm2
    rw [hm2] at hok
    obtain ⟨m2', he, hm2⟩ := hok rfl
    have : m2 = m2' := by
      have := congrArg (fun t : PrepAll => (⟨t.spec.r, t.spec.c, t.spec.mask⟩ : (r : ℕ) × (c : ℕ) × Option (Img r c ℝ))) he
      simpa using this
    subst this
    refine .ok ⟨⟨rfl, h.1, ?_, h.3⟩, m2, rfl, ?_⟩
    · intro m' hm' i j
      cases hm'
      by_cases hu : Usable (s.spec.flux i j) (s.spec.err i j) (w i j)
      · rw [(hm2 i j).1 hu]; exact h.2 m hm i j
      · rw [(hm2 i j).2 hu]; exact ⟨0, le_rfl, rfl⟩
    · intro i j hne
      have hu : Usable (s.spec.flux i j) (s.spec.err i j) (w i j) := by
        by_contra hn; exact hne ((hm2 i j).2 hn)
      exact ⟨hu.1, hu.2.1⟩

theorem missing1DStep_units {u : ℝ} (hu : 0 < u) {s s' : PrepAll} (h : Rel0F u s s') :
    SameOut (Rel0F u) (missing1DStep s) (missing1DStep s') := by
  obtain ⟨⟨rfl, h⟩, hF⟩ := h
  dsimp only [missing1DStep, scalePrep, scaleGal]
  split
  · exact .ok ⟨⟨rfl, h⟩, hF⟩
  · rcases s.gal.spec1D with _ | o
    · exact .err
    · dsimp only [Option.map_some]
      rw [show specMaskMissing1D (scale1D u o).flux (scale1D u o).err none (scale1D u o).mask false = _ from
        specMaskMissing1D_scale hu o.flux o.err o.mask]
      split
      · exact .err
      · exact .ok ⟨⟨rfl, h.1, h.2, h.3⟩, hF⟩

theorem from1DStep_units {u : ℝ} {s s' : PrepAll} (h : Rel0F u s s') :
    SameOut (Rel0F u) (from1DStep s) (from1DStep s') := by
  obtain ⟨⟨rfl, h⟩, m, hm, hF⟩ := h
  dsimp only [from1DStep, scalePrep, scaleGal]
  split
  · exact .ok ⟨⟨rfl, h⟩, m, hm, hF⟩
  · rcases ho : s.gal.spec1D with _ | o
    · exact .err
    · rw [hm]
      obtain ⟨n, wv, fl, er, mk, pr⟩ := o
      dsimp only [Option.map_some, scale1D]
      rcases mk with _ | m1
      · exact .err
      · dsimp only
        refine ⟨rfl, fun _ => ⟨⟨?_, h.1, ?_, h.3⟩, _, rfl, ?_⟩⟩
        · dsimp only [scalePrep, scaleGal]
          rw [ho]
          rfl
        · intro m' hm' i j
          cases hm'
          show ∃ x : ℝ, 0 ≤ x ∧ (if decide ((j : Fin s.spec.c).val ∈ ((List.finRange n).filter fun k => Fl.eqB (m1 k) 0).map Fin.val) = true
            then (0 : Fl ℝ) else m i j) = .fin x
          split
          · exact ⟨0, le_rfl, rfl⟩
          · exact h.2 m hm i j
        · intro i j hne
          change (if decide ((j : Fin s.spec.c).val ∈ ((List.finRange n).filter fun k => Fl.eqB (m1 k) 0).map Fin.val) = true
            then (0 : Fl ℝ) else m i j) ≠ 0 at hne
          split at hne
          · exact absurd rfl hne
          · exact hF i j hne

/-! ## After the filling of bad pixels -/

/-- the data of the second state: flux, errors, spectrum with continuum, continuum -/
noncomputable def unitState (u : ℝ) (s : PrepAll) (F E : Img s.spec.r s.spec.c ℝ) (I C : Option (Img s.spec.r s.spec.c ℝ)) : PrepAll :=
  ⟨{ s.spec with flux := F, err := E, inclCont := I, contModel := C, median := s.spec.median.map (Fl.scale u) }, scaleGal u s.gal⟩

/-- mask, flux and errors of the two states; errors of good pixels are not negative -/
structure RelPix (u : ℝ) (s : PrepAll) (F E m : Img s.spec.r s.spec.c ℝ) (G : Fin s.spec.r → Fin s.spec.c → Prop) : Prop where
  mask : s.spec.mask = some m
  ok : MaskOK G m
  flux : PixRel u G s.spec.flux F
  err : PixRel u G s.spec.err E
  nonneg : ∀ i j x, G i j → s.spec.err i j = .fin x → 0 ≤ x

/-- after the filling -/
def RelF (u : ℝ) (s s' : PrepAll) : Prop := ∃ F E m G, s' = unitState u s F E s.spec.inclCont s.spec.contModel ∧ RelPix u s F E m G ∧
  s.spec.maskQual = none

theorem fillStep_units {u : ℝ} (hu : 0 < u) {median : List (Fl ℝ) → Fl ℝ} (hmed : ∀ l, median (l.map (Fl.scale u)) = Fl.scale u (median l))
    {s s' : PrepAll} (h : Rel0F u s s') : SameOut (RelF u) (fillStep median s) (fillStep median s') := by
  obtain ⟨⟨rfl, h⟩, m, hm, hF⟩ := h
  have hff := fun (flux err : Img s.spec.r s.spec.c ℝ) (hF : ∀ i j, m i j ≠ 0 → (flux i j).isFinite = true ∧ (err i j).isFinite = true) =>
    fill_facts flux err (fun _ _ => 1) m m (fun _ => false) (fun _ _ _ => rfl) (by
      intro i j hn
      by_contra hne
      refine hn ⟨⟨(hF i j hne).1, (hF i j hne).2, ?_⟩, rfl⟩
      simp)
  have h1 := hff s.spec.flux s.spec.err hF
  have h2 := hff (scaleImg u s.spec.flux) (scaleImg u s.spec.err) (fun i j hne => by
    unfold scaleImg
    rw [Fl.isFinite_scale, Fl.isFinite_scale]
    exact hF i j hne)
  have hpe : PixRel u (fun i j => m i j ≠ 0) (fun i => specNanMasking (s.spec.err i) (m i) (.fin (-99)) true false)
      (fun i => specNanMasking (scaleImg u s.spec.err i) (m i) (.fin (-99)) true false) :=
    ⟨fun i j hg => by rw [((h2 i j).2.2.2.1 hg).2, ((h1 i j).2.2.2.1 hg).2]; rfl, fun i j => (h1 i j).2.1, fun i j => (h2 i j).2.1⟩
  have hpf : PixRel u (fun i j => m i j ≠ 0) (fun i => specNanMasking (s.spec.flux i) (m i) (.fin (-99)) false false)
      (fun i => specNanMasking (scaleImg u s.spec.flux i) (m i) (.fin (-99)) false false) :=
    ⟨fun i j hg => by rw [((h2 i j).2.2.2.1 hg).1, ((h1 i j).2.2.2.1 hg).1]; rfl, fun i j => (h1 i j).1, fun i j => (h2 i j).1⟩
  have hok : MaskOK (fun i j => m i j ≠ 0) m := ⟨fun i j hn => not_not.1 hn, h.2 m hm⟩
  dsimp only [fillStep, scalePrep]
  rw [hm]
  refine .ok ⟨_, _, m, _, ?_, ⟨rfl, hok, hpf, hpe, ?_⟩, h.1⟩
  · unfold unitState
    congr 2
    simp only [Option.map_some]
    rw [← hmed, ← ofFn_scale]
    simp only [colQuad_units hu hpe hok]
  · intro i j x hg he
    refine h.3 i j x ?_
    rw [← he]
    exact (((h1 i j).2.2.2.1 hg).2).symm

theorem rangesStep_units {u : ℝ} {s s' : PrepAll} (h : RelF u s s') : SameOut (RelF u) (rangesStep s) (rangesStep s') := by
  obtain ⟨F, E, m, G, rfl, h, hq⟩ := h
  dsimp only [rangesStep, unitState]
  split
  · exact .err
  · split
    · exact .err
    · split
      · exact .err
      · exact .ok ⟨F, E, m, G, rfl, ⟨h.1, h.2, h.3, h.4, h.5⟩, hq⟩

/-- from the copy of the spectrum on -/
structure RelCore (u : ℝ) (s s' : PrepAll) (I0 C0 F E I m : Img s.spec.r s.spec.c ℝ) (G : Fin s.spec.r → Fin s.spec.c → Prop) : Prop where
  eq : s' = unitState u s F E (some I) (some (scaleImg u C0))
  pix : RelPix u s F E m G
  incl : s.spec.inclCont = some I0
  cont : s.spec.contModel = some C0
  rel : PixRel u G I0 I

def RelA (u : ℝ) (s s' : PrepAll) : Prop := ∃ I0 C0 F E I m G, RelCore u s s' I0 C0 F E I m G ∧ s.spec.maskQual = none

theorem copyStep_units {u : ℝ} {s s' : PrepAll} (h : RelF u s s') : SameOut (RelA u) (copyStep s) (copyStep s') := by
  obtain ⟨F, E, m, G, rfl, h, hq⟩ := h
  refine .ok ⟨s.spec.flux, fun _ _ => 0, F, E, F, m, G, ⟨?_, ⟨h.1, h.2, h.3, h.4, h.5⟩, rfl, rfl, h.flux⟩, hq⟩
  unfold unitState scaleImg
  simp only [Fl.scale_zero]

/-- The data of a straight line fit in another flux unit; masked points are arbitrary. -/
structure SameData (u : ℝ) (d d' : LineData) : Prop where
  xx : d'.xx = d.xx
  mask : d'.mask = d.mask
  lenY : d'.yy.length = d.yy.length
  lenE : d'.err.length = d.err.length
  yy : ∀ k : ℕ, d.mask[k]? ≠ some 0 → d'.yy[k]? = (d.yy[k]?).map (Fl.scale u)
  err : ∀ k : ℕ, d.mask[k]? ≠ some 0 → d'.err[k]? = (d.err[k]?).map (Fl.scale u)

/-- The straight line fits do not depend on the flux unit. -/
structure ContFit.UnitFree (O : ContFit) (u : ℝ) : Prop where
  both : ∀ d d', SameData u d d' → O.both d' = (Fl.scale u (O.both d).1, Fl.scale u (O.both d).2)
  intercept : ∀ d d', SameData u d d' → O.intercept d' = Fl.scale u (O.intercept d)
  row : ∀ a b d d', SameData u d d' → O.row (Fl.scale u a) (Fl.scale u b) d' = Fl.scale u (O.row a b d)

theorem pickAt_map {α β : Type} (g : α → β) (a : Fin n → α) (wh : List (Fin c)) :
    pickAt (fun j => g (a j)) wh = (pickAt a wh).map (List.map g) := by
  unfold pickAt
  induction wh with
  | nil => rfl
  | cons j wh ih =>
    rw [List.mapM_cons, List.mapM_cons, ih]
    by_cases hj : j.val < n
    · rw [dif_pos hj, dif_pos hj]
      generalize List.mapM (m := Except PyErr) (fun j : Fin c => if h : j.val < n then Except.ok (a ⟨j.val, h⟩) else .error PyErr.indexError) wh = q
      rcases q with e | q <;> rfl
    · rw [dif_neg hj, dif_neg hj]
      rfl

theorem slope1D_units {u : ℝ} (hu : 0 < u) {O : ContFit} (hO : O.UnitFree u) (o : Obs1D) (m1 : Fin o.n → Fl ℝ) (cut md : Option (Fl ℝ))
    (obs : Fin c → ℝ) (l rr : List (Fin c)) :
    slope1D O (scale1D u o) m1 cut (md.map (Fl.scale u)) obs l rr =
      ((slope1D O o m1 cut md obs l rr).1, (slope1D O o m1 cut md obs l rr).2.map fun p => (Fl.scale u p.1, Fl.scale u p.2)) := by
  obtain ⟨n, wv, fl, er, mk, pr⟩ := o
  dsimp only [slope1D, scale1D]
  have he : (fun j => Fl.sqrt (Fl.sq (Fl.scale u (er j) * m1 j))) = fun j => Fl.scale u (Fl.sqrt (Fl.sq (er j * m1 j))) := by
    funext j
    rw [Fl.scale_mul hu, Fl.sq_scale hu, Fl.sqrt_scale hu]
  rw [he, whSkylines1D_units hu]
  rcases whSkylines1D (fun j => Fl.sqrt (Fl.sq (er j * m1 j))) cut md with e | ⟨ns, sky⟩
  · rfl
  · dsimp only
    congr 1
    rw [pickAt_map (Fl.scale u) fl, pickAt_map (Fl.scale u) fl, pickAt_map (Fl.scale u) er, pickAt_map (Fl.scale u) er]
    generalize pickAt (fun j => if j ∈ sky then (0 : Fl ℝ) else m1 j) l = a1
    generalize pickAt (fun j => if j ∈ sky then (0 : Fl ℝ) else m1 j) rr = a2
    generalize pickAt fl l = a3
    generalize pickAt fl rr = a4
    generalize pickAt er l = a5
    generalize pickAt er rr = a6
    rcases a1 with e | a1
    · rfl
    rcases a2 with e | a2
    · rfl
    rcases a3 with e | a3
    · rfl
    rcases a4 with e | a4
    · rfl
    rcases a5 with e | a5
    · rfl
    rcases a6 with e | a6
    · rfl
    have hd : SameData u ⟨twoSides obs l rr, a3 ++ a4, a5 ++ a6, a1 ++ a2⟩
        ⟨twoSides obs l rr, a3.map (Fl.scale u) ++ a4.map (Fl.scale u), a5.map (Fl.scale u) ++ a6.map (Fl.scale u), a1 ++ a2⟩ := by
      simp only [← List.map_append]
      exact ⟨rfl, rfl, by simp, by simp, fun k _ => List.getElem?_map, fun k _ => List.getElem?_map⟩
    show (if (l.isEmpty && rr.isEmpty) = true then _ else _) = Except.map _ (if (l.isEmpty && rr.isEmpty) = true then _ else _)
    by_cases hem : (l.isEmpty && rr.isEmpty) = true
    · rw [if_pos hem, if_pos hem]
      rfl
    rw [if_neg hem, if_neg hem]
    show Except.ok _ = Except.ok _
    congr 1
    rw [hO.both _ _ hd, hO.intercept _ _ hd]
    split
    · rfl
    · show _ = (Fl.scale u 0, _)
      rw [Fl.scale_zero]

theorem sameData_row {u : ℝ} {G : Fin r → Fin c → Prop} {a a' e e' m : Img r c ℝ} (ha : PixRel u G a a') (he : PixRel u G e e')
    (hm : MaskOK G m) (obs : Fin c → ℝ) (l rr : List (Fin c)) (i : Fin r) :
    SameData u ⟨twoSides obs l rr, twoSides (a i) l rr, twoSides (e i) l rr, twoSides (m i) l rr⟩
      ⟨twoSides obs l rr, twoSides (a' i) l rr, twoSides (e' i) l rr, twoSides (m i) l rr⟩ := by
  have key : ∀ b b' : Img r c ℝ, PixRel u G b b' → ∀ k : ℕ, (twoSides (m i) l rr)[k]? ≠ some 0 →
      (twoSides (b' i) l rr)[k]? = ((twoSides (b i) l rr)[k]?).map (Fl.scale u) := by
    intro b b' hb k hk
    unfold twoSides at *
    simp only [← List.map_append, List.getElem?_map] at *
    rcases hj : (l ++ rr)[k]? with _ | j
    · rfl
    · rw [hj] at hk
      simp only [Option.map_some]
      rw [hb.good i j]
      by_contra hn
      exact hk (congrArg some (hm.bad i j hn))
  exact ⟨rfl, rfl, by simp [twoSides], by simp [twoSides], key a a' ha, key e e' he⟩

theorem contFinite_scale {u : ℝ} (hu : 0 < u) (f : Fin c → Fl ℝ) : contFinite (fun j => Fl.scale u (f j)) = contFinite f := by
  unfold contFinite
  rw [ofFn_scale, npMax_scale hu]
  rcases npMax (List.ofFn f) with _ | v
  · rfl
  · exact Fl.isFinite_scale u v

theorem prepWindows_unit (u : ℝ) (s : PrepAll) (F E : Img s.spec.r s.spec.c ℝ) (I C : Option (Img s.spec.r s.spec.c ℝ)) :
    prepWindows (unitState u s F E I C) = prepWindows s := by
  unfold prepWindows
  dsimp only [unitState, scaleGal]
  rcases s.spec.fullRange with _ | f
  · rfl
  rcases s.spec.maskRange with _ | f
  · rfl
  rcases s.gal.z with _ | f
  · rfl
  rcases s.spec.obswave with _ | f
  · rfl
  · rfl

theorem contStep_units {u : ℝ} (hu : 0 < u) {O : ContFit} (hO : O.UnitFree u) {s s' : PrepAll} (h : RelA u s s') :
    SameOut (RelA u) (contStep O s) (contStep O s') := by
  obtain ⟨I0, C0, F, E, I, m, G, h, hq⟩ := h
  obtain ⟨rfl, hp, hi, hc, hI⟩ := h
  by_cases hn : s.spec.noCont = true
  · unfold contStep
    rw [if_pos hn, if_pos (by exact hn)]
    exact .ok ⟨I0, C0, F, E, I, m, G, ⟨rfl, hp, hi, hc, hI⟩, hq⟩
  · unfold contStep
    rw [if_neg hn, if_neg (by exact hn)]
    rcases hw : prepWindows s with e | w
    · have hw' : prepWindows (unitState u s F E (some I) (some (scaleImg u C0))) = .error e := (prepWindows_unit _ _ _ _ _ _).trans hw
      rw [hw']
      exact .err
    · have hw' : prepWindows (unitState u s F E (some I) (some (scaleImg u C0))) = .ok w := (prepWindows_unit _ _ _ _ _ _).trans hw
      rw [hw', hi, hc, hp.mask]
      have hm' : (unitState u s F E (some I) (some (scaleImg u C0))).spec.mask = some m := hp.mask
      have hi' : (unitState u s F E (some I) (some (scaleImg u C0))).spec.inclCont = some I := rfl
      have hc' : (unitState u s F E (some I) (some (scaleImg u C0))).spec.contModel = some (scaleImg u C0) := rfl
      rw [hm', hi', hc']
      rcases ho : s.gal.spec1D with _ | o
      · have ho' : (unitState u s F E (some I) (some (scaleImg u C0))).gal.spec1D = none := by
          show s.gal.spec1D.map _ = _
          rw [ho]; rfl
        rw [ho']
        exact .err
      · have ho' : (unitState u s F E (some I) (some (scaleImg u C0))).gal.spec1D = some (scale1D u o) := by
          show s.gal.spec1D.map _ = _
          rw [ho]; rfl
        rw [ho']
        rcases hobs : s.spec.obswave with _ | obs
        · have hobs' : (unitState u s F E (some I) (some (scaleImg u C0))).spec.obswave = none := hobs
          rw [hobs']
          exact .err
        · have hobs' : (unitState u s F E (some I) (some (scaleImg u C0))).spec.obswave = some obs := hobs
          rw [hobs']
          rcases hm1 : o.mask with _ | m1
          · have hm1' : (scale1D u o).mask = none := hm1
            simp only [hm1, hm1']
            exact .err
          · have hm1' : (scale1D u o).mask = some m1 := hm1
            simp only [hm1, hm1']
            have hsl := slope1D_units hu hO o m1 s.spec.cutoff s.spec.median obs w.1 w.2.1
            have hsl' : slope1D (c := (unitState u s F E (some I) (some (scaleImg u C0))).spec.c) O (scale1D u o) m1 (unitState u s F E (some I) (some (scaleImg u C0))).spec.cutoff
              (unitState u s F E (some I) (some (scaleImg u C0))).spec.median obs w.1 w.2.1 = _ := hsl
            rw [hsl']
            rcases slope1D O o m1 s.spec.cutoff s.spec.median obs w.1 w.2.1 with ⟨_ | tmp, e | ⟨a, b⟩⟩
            · exact .err
            · exact .ok ⟨I0, C0, F, E, I, m, G, ⟨rfl, hp, hi, hc, hI⟩, hq⟩
            · exact .err
            · have hcont : prepCont O (unitState u s F E (some I) (some (scaleImg u C0))).spec I m obs (Fl.scale u a) (Fl.scale u b) w.1 w.2.1 =
                  scaleImg u (prepCont O s.spec I0 m obs a b w.1 w.2.1) := by
                funext i j
                have hd := sameData_row hI hp.err hp.ok obs w.1 w.2.1 i
                show Fl.scale u a * .fin (s.spec.wave j) + O.row (Fl.scale u a) (Fl.scale u b) _ =
                  Fl.scale u (a * .fin (s.spec.wave j) + O.row a b _)
                rw [Fl.scale_add]
                exact congrArg₂ (· + ·) (Fl.scale_mul hu _ _) (hO.row a b _ _ hd)
              have hfind : ((List.finRange s.spec.r).find? fun i => !contFinite (scaleImg u (prepCont O s.spec I0 m obs a b w.1 w.2.1) i)) =
                  (List.finRange s.spec.r).find? fun i => !contFinite (prepCont O s.spec I0 m obs a b w.1 w.2.1 i) := by
                congr 1
                funext i
                rw [show scaleImg u (prepCont O s.spec I0 m obs a b w.1 w.2.1) i = fun j => Fl.scale u (prepCont O s.spec I0 m obs a b w.1 w.2.1 i j)
                  from rfl, contFinite_scale hu]
              simp only [Except.map]
              rw [hcont]
              rcases hf : (List.finRange s.spec.r).find? fun i => !contFinite (prepCont O s.spec I0 m obs a b w.1 w.2.1 i) with _ | bad
              · have hfin : ∀ i j, (prepCont O s.spec I0 m obs a b w.1 w.2.1 i j).isFinite = true := by
                  intro i j
                  have hfin : contFinite (prepCont O s.spec I0 m obs a b w.1 w.2.1 i) = true := by
                    have := List.find?_eq_none.1 hf i (List.mem_finRange i)
                    simpa using this
                  obtain ⟨a', b', -, -, hab⟩ := rowCont_finite _ _ _ _ _ hfin
                  rw [show prepCont O s.spec I0 m obs a b w.1 w.2.1 i j = _ from hab j]
                  rfl
                have hsub : ∀ x y : Fl ℝ, x.isFinite = true → y.isFinite = true → (x - y).isFinite = true := by
                  intro x y hx hy
                  obtain ⟨x, rfl⟩ := Fl.exists_of_isFinite hx
                  obtain ⟨y, rfl⟩ := Fl.exists_of_isFinite hy
                  rfl
                dsimp only
                split
                swap
                · rename_i hx
                  exact absurd (hx.symm.trans (hfind.trans hf)) (by simp)
                refine .ok ⟨I0, prepCont O s.spec I0 m obs a b w.1 w.2.1, _, E, I, m, G, ⟨rfl, ⟨hp.mask, hp.ok, ⟨?_, ?_, ?_⟩, hp.err, hp.nonneg⟩,
                  hi, rfl, hI⟩, hq⟩
                · intro i j hg
                  show I i j - Fl.scale u _ = Fl.scale u (I0 i j - _)
                  rw [hI.good i j hg, Fl.scale_sub]
                · intro i j
                  exact hsub _ _ (hI.fin i j) (hfin i j)
                · intro i j
                  exact hsub _ _ (hI.fin' i j) (by show (Fl.scale u _).isFinite = true; rw [Fl.isFinite_scale]; exact hfin i j)
              · dsimp only
                split
                · rename_i hx
                  exact absurd (hx.symm.trans (hfind.trans hf)) (by simp)
                · exact .err

/-! ## Choice of columns and rows -/

theorem PixRel.reindex {u : ℝ} {G : Fin r → Fin c → Prop} {a a' : Img r c ℝ} (h : PixRel u G a a') {r' c' : Nat} (ρ : Fin r' → Fin r)
    (κ : Fin c' → Fin c) : PixRel u (fun i j => G (ρ i) (κ j)) (fun i j => a (ρ i) (κ j)) (fun i j => a' (ρ i) (κ j)) :=
  ⟨fun i j => h.good _ _, fun i j => h.fin _ _, fun i j => h.fin' _ _⟩

theorem MaskOK.reindex {G : Fin r → Fin c → Prop} {m : Img r c ℝ} (h : MaskOK G m) {r' c' : Nat} (ρ : Fin r' → Fin r)
    (κ : Fin c' → Fin c) : MaskOK (fun i j => G (ρ i) (κ j)) (fun i j => m (ρ i) (κ j)) :=
  ⟨fun i j => h.bad _ _, fun i j => h.nonneg _ _⟩

theorem RelCore.cols {u : ℝ} {s s' : PrepAll} {I0 C0 F E I m : Img s.spec.r s.spec.c ℝ} {G : Fin s.spec.r → Fin s.spec.c → Prop}
    (h : RelCore u s s' I0 C0 F E I m G) (wh : List (Fin s.spec.c)) (g : PrepGal) :
    RelCore u ⟨s.spec.cols wh, g⟩ (unitState u ⟨s.spec.cols wh, g⟩ (colSel F wh) (colSel E wh) (some (colSel I wh)) (some (scaleImg u (colSel C0 wh))))
      (colSel I0 wh) (colSel C0 wh) (colSel F wh) (colSel E wh) (colSel I wh) (colSel m wh) (fun i j => G i (wh.get j)) := by
  refine ⟨rfl, ⟨?_, h.pix.ok.reindex id wh.get, h.pix.flux.reindex id wh.get, h.pix.err.reindex id wh.get, fun i j x => h.pix.nonneg _ _ x⟩,
    ?_, ?_, h.rel.reindex id wh.get⟩
  · show s.spec.mask.map _ = _
    rw [h.pix.mask]; rfl
  · show s.spec.inclCont.map _ = _
    rw [h.incl]; rfl
  · show s.spec.contModel.map _ = _
    rw [h.cont]; rfl

theorem fullRangeStep_units {u : ℝ} {s s' : PrepAll} (h : RelA u s s') : SameOut (RelA u) (fullRangeStep s) (fullRangeStep s') := by
  obtain ⟨I0, C0, F, E, I, m, G, h, hq⟩ := h
  have hA : ∀ wh g, RelA u ⟨s.spec.cols wh, g⟩ (unitState u ⟨s.spec.cols wh, g⟩ (colSel F wh) (colSel E wh) (some (colSel I wh))
      (some (scaleImg u (colSel C0 wh)))) := fun wh g => ⟨_, _, _, _, _, _, _, h.cols wh g, hq⟩
  obtain ⟨rfl, hp, hi, hc, hI⟩ := h
  unfold fullRangeStep
  rw [prepWindows_unit]
  rcases prepWindows s with e | w
  · exact .err
  · dsimp only
    by_cases hn : s.spec.noCont = true
    · rw [if_pos hn, if_pos (by exact hn)]
      exact .ok (hA w.2.2 s.gal)
    · rw [if_neg hn, if_neg (by exact hn)]
      rcases ho : s.gal.spec1D with _ | o
      · have ho' : (unitState u s F E (some I) (some (scaleImg u C0))).gal.spec1D = none := by
          show s.gal.spec1D.map _ = _
          rw [ho]; rfl
        rw [ho']
        exact .err
      · have ho' : (unitState u s F E (some I) (some (scaleImg u C0))).gal.spec1D = some (scale1D u o) := by
          show s.gal.spec1D.map _ = _
          rw [ho]; rfl
        rw [ho']
        dsimp only
        by_cases hl : ∀ j ∈ w.2.2, j.val < o.n
        · rw [dif_pos hl, dif_pos (by exact hl)]
          exact .ok (hA w.2.2 _)
        · rw [dif_neg hl, dif_neg (by exact hl)]
          exact .err

theorem trimStep_units {u : ℝ} {s s' : PrepAll} (h : RelA u s s') : SameOut (RelA u) (trimStep s) (trimStep s') := by
  obtain ⟨I0, C0, F, E, I, m, G, h, hq⟩ := h
  have hA : ∀ wh g, RelA u ⟨s.spec.cols wh, g⟩ (unitState u ⟨s.spec.cols wh, g⟩ (colSel F wh) (colSel E wh) (some (colSel I wh))
      (some (scaleImg u (colSel C0 wh)))) := fun wh g => ⟨_, _, _, _, _, _, _, h.cols wh g, hq⟩
  obtain ⟨rfl, hp, hi, hc, hI⟩ := h
  dsimp only [trimStep, unitState, scaleGal]
  split
  · exact .err
  · split
    · exact .err
    · split
      · exact .ok (hA _ _)
      · exact .ok ⟨I0, C0, F, E, I, m, G, ⟨rfl, ⟨hp.1, hp.2, hp.3, hp.4, hp.5⟩, hi, hc, hI⟩, hq⟩
  · exact .err

/-- after the sky mask -/
def RelB (u : ℝ) (s s' : PrepAll) : Prop := ∃ (I0 C0 F E I m q k : Img s.spec.r s.spec.c ℝ) (G : Fin s.spec.r → Fin s.spec.c → Prop),
  RelCore u s s' I0 C0 F E I m G ∧
  s.spec.maskQual = some ⟨_, _, q⟩ ∧ s.spec.maskSky = some ⟨_, _, k⟩ ∧ MaskOK G q ∧ MaskOK G k

theorem skyMaskStep_units {u : ℝ} (hu : 0 < u) {s s' : PrepAll} (h : RelA u s s') : SameOut (RelB u) (skyMaskStep s) (skyMaskStep s') := by
  obtain ⟨I0, C0, F, E, I, m, G, h, hq⟩ := h
  obtain ⟨rfl, hp, hi, hc, hI⟩ := h
  dsimp only [skyMaskStep, unitState]
  split
  · exact .err
  · rw [hq, hp.mask]
    dsimp only
    split
    · exact .err
    · rw [Pic.shaped_self]
      dsimp only
      rw [maskSkylines2D_units hu hp.err hp.ok]
      rcases hk : maskSkylines2D s.spec.err m s.spec.cutoff s.spec.units s.spec.median with e | ⟨k, sky, nosky⟩
      · exact .err
      · refine .ok ⟨I0, C0, F, E, I, m, m, k, G, ⟨rfl, ⟨rfl, hp.2, hp.3, hp.4, hp.5⟩, hi, hc, hI⟩, rfl, rfl, hp.ok, ?_⟩
        unfold maskSkylines2D at hk
        split at hk
        · cases hk
        · split at hk
          · cases hk
          · cases hk
            refine ⟨fun i j hn => ?_, fun i j => ?_⟩
            · rw [hp.ok.bad i j hn, ite_self]
            · split
              · exact ⟨0, le_rfl, rfl⟩
              · exact hp.ok.nonneg i j

theorem lowSnrStep_units {u : ℝ} (hu : 0 < u) {s s' : PrepAll} (h : RelB u s s') : SameOut (RelB u) (lowSnrStep s) (lowSnrStep s') := by
  obtain ⟨I0, C0, F, E, I, m, q, k, G, h, hq, hk, hqo, hko⟩ := h
  obtain ⟨rfl, hp, hi, hc, hI⟩ := h
  dsimp only [lowSnrStep, unitState]
  rw [hq, hk, hp.mask]
  dsimp only
  rw [Pic.shaped_self, Pic.shaped_self]
  dsimp only
  rw [maskLowSnrRows2D_units hu hp.flux hp.err hko]
  refine .ok ⟨I0, C0, F, E, I, _, q, k, G, ⟨?_, ⟨rfl, ⟨?_, ?_⟩, hp.3, hp.4, hp.5⟩, hi, hc, hI⟩, rfl, rfl, hqo, hko⟩
  · rfl
  · intro i j hn
    show m i j * _ = 0
    rw [hp.ok.bad i j hn, maskLowSnrRows2D, maskLowSnrRows]
    dsimp only
    rw [hqo.bad i j hn, ite_self]
    simp
  · intro i j
    show ∃ x : ℝ, 0 ≤ x ∧ m i j * _ = .fin x
    obtain ⟨x, hx, hmx⟩ := hp.ok.nonneg i j
    obtain ⟨y, hy, hqy⟩ := hqo.nonneg i j
    rw [hmx, maskLowSnrRows2D, maskLowSnrRows]
    dsimp only
    split
    · exact ⟨x * 0, by simp, rfl⟩
    · rw [hqy]
      exact ⟨x * y, mul_nonneg hx hy, rfl⟩

/-! ## Position, weights, centre -/

theorem vertErr_self (median : List (Fl ℝ) → Fl ℝ) (e : Img r c ℝ) (h : ∀ i j, ∃ x : ℝ, 0 ≤ x ∧ e i j = .fin x) : vertErr median e = e := by
  funext i j
  unfold vertErr
  obtain ⟨x, hx, he⟩ := h i j
  rw [he]
  simp only [Fl.eqB_fin, decide_eq_true_eq]
  rw [if_neg (by intro h; linarith)]

theorem edgeCut_scale (u : ℝ) (snr : List ℝ) (sp : List (Fl ℝ)) :
    edgeCut snr (sp.map (Fl.scale u)) = (edgeCut snr sp).map (Fl.scale u) := by
  unfold edgeCut
  rw [List.length_map]
  have h0 : Fl.scale u (.fin 0) = .fin 0 := Fl.scale_zero u
  split
  · rw [List.map_set, h0]
  · split
    · rw [List.map_set, h0]
    · rfl

/-- The fits of the position do not depend on the flux unit. -/
structure PrepOracle.UnitFree (O : PrepOracle) (u : ℝ) : Prop where
  median : ∀ l, O.median (l.map (Fl.scale u)) = Fl.scale u (O.median l)
  cont : O.cont.UnitFree u
  vert : ∀ x : VertIn, O.vert { x with sp := x.sp.map (Fl.scale u), err := x.err.map (Fl.scale u) } = O.vert x
  optimal : ∀ y e, O.optimal (y.map (Fl.scale u)) (e.map (Fl.scale u)) = (u * (O.optimal y e).1, (O.optimal y e).2)
  centre : ∀ x : CentreIn, O.centre { x with y := x.y.map (Fl.scale u), yErr := x.yErr.map (Fl.scale u), lam := x.lam.map (Fl.scale u)
                                             lamErr := x.lamErr.map (Fl.scale u) } = O.centre x

theorem prepVert_units {u : ℝ} (hu : 0 < u) {O : PrepOracle} (hO : O.UnitFree u) {G : Fin r → Fin c → Prop} {f f' e e' k : Img r c ℝ}
    (hf : PixRel u G f f') (he : PixRel u G e e') (hk : MaskOK G k) (hn : ∀ i j x, G i j → e i j = .fin x → 0 ≤ x) (dither : Bool) (pix : ℝ)
    (ypos : Option ℝ) : prepVert O.vert O.median dither pix ypos f' e' k = prepVert O.vert O.median dither pix ypos f e k := by
  have hpos : ∀ i j, ∃ x : ℝ, 0 ≤ x ∧ e i j * k i j = .fin x := by
    intro i j
    by_cases hg : G i j
    · obtain ⟨x, hx⟩ := Fl.exists_of_isFinite (he.fin i j)
      obtain ⟨y, hy, hky⟩ := hk.nonneg i j
      rw [hx, hky]
      exact ⟨x * y, mul_nonneg (hn i j x hg hx) hy, rfl⟩
    · rw [hk.bad i j hg, fl_mul_zero_right (he.fin i j)]
      exact ⟨0, le_rfl, rfl⟩
  have hpos' : ∀ i j, ∃ x : ℝ, 0 ≤ x ∧ Fl.scale u (e i j * k i j) = .fin x := by
    intro i j
    obtain ⟨x, hx, h⟩ := hpos i j
    rw [h]
    exact ⟨u * x, mul_nonneg hu.le hx, rfl⟩
  unfold prepVert
  simp only [hf.mul_mask hu hk, he.mul_mask hu hk, vertErr_self _ _ hpos, vertErr_self _ _ hpos']
  have hs : ∀ i, vertSnr (fun i j => Fl.scale u (f i j * k i j)) (fun i j => Fl.scale u (e i j * k i j)) i =
      vertSnr (fun i j => f i j * k i j) (fun i j => e i j * k i j) i := by
    intro i
    unfold vertSnr
    rw [Fl.scale_sum, Fl.quad_scale hu, Fl.scale_div_scale hu]
  simp only [hs, Fl.scale_sum, Fl.quad_scale hu, ofFn_scale, edgeCut_scale]
  rw [hO.vert ⟨dither, pix, ypos, edgeCut (List.ofFn fun i => vertSnr (fun i j => f i j * k i j) (fun i j => e i j * k i j) i)
      (List.ofFn fun i => ∑ j, f i j * k i j), List.ofFn fun i => Fl.sqrt (∑ j, Fl.sq (e i j * k i j))⟩]

theorem RelCore.rows {u : ℝ} {s s' : PrepAll} {I0 C0 F E I m : Img s.spec.r s.spec.c ℝ} {G : Fin s.spec.r → Fin s.spec.c → Prop}
    (h : RelCore u s s' I0 C0 F E I m G) (lo hi : Int) (g : PrepGal) :
    RelCore u ⟨s.spec.rows lo hi, g⟩ (unitState u ⟨s.spec.rows lo hi, g⟩ (rowSel F lo hi) (rowSel E lo hi) (some (rowSel I lo hi))
      (some (scaleImg u (rowSel C0 lo hi))))
      (rowSel I0 lo hi) (rowSel C0 lo hi) (rowSel F lo hi) (rowSel E lo hi) (rowSel I lo hi) (rowSel m lo hi)
      (fun i j => G (sliceRow s.spec.r lo hi i) j) := by
  refine ⟨rfl, ⟨?_, h.pix.ok.reindex (sliceRow s.spec.r lo hi) id, h.pix.flux.reindex (sliceRow s.spec.r lo hi) id,
    h.pix.err.reindex (sliceRow s.spec.r lo hi) id, fun i j x => h.pix.nonneg _ _ x⟩, ?_, ?_, h.rel.reindex (sliceRow s.spec.r lo hi) id⟩
  · show s.spec.mask.map _ = _
    rw [h.pix.mask]; rfl
  · show s.spec.inclCont.map _ = _
    rw [h.incl]; rfl
  · show s.spec.contModel.map _ = _
    rw [h.cont]; rfl

theorem trimProfile_scale (u : ℝ) (g : PrepGal) (lo hi : Int) : trimProfile (scaleGal u g) lo hi = scaleGal u (trimProfile g lo hi) := by
  unfold trimProfile scaleGal
  rcases g.spec1D with _ | o <;> rfl

theorem spatialStep_units {u : ℝ} (hu : 0 < u) {O : PrepOracle} (hO : O.UnitFree u) {s s' : PrepAll} (h : RelB u s s') :
    SameOut (RelB u) (spatialStep O.vert O.median s) (spatialStep O.vert O.median s') := by
  obtain ⟨I0, C0, F, E, I, m, q, k, G, h, hq, hk, hqo, hko⟩ := h
  have hrow := h.rows
  obtain ⟨rfl, hp, hi, hc, hI⟩ := h
  have hv := prepVert_units hu hO hp.flux hp.err hko hp.nonneg s.gal.dither s.gal.pix s.spec.ypos
  unfold spatialStep
  have e1 : (unitState u s F E (some I) (some (scaleImg u C0))).spec.lines.waves = s.spec.lines.waves := rfl
  have e2 : (unitState u s F E (some I) (some (scaleImg u C0))).gal.z = s.gal.z := rfl
  rw [e1, e2]
  rcases s.spec.lines.waves with _ | _ | ⟨w, ws⟩
  · exact .err
  · exact .err
  rcases s.gal.z with _ | z
  · exact .err
  have hk1 : (s.spec.maskSky.bind fun k => k.shaped s.spec.r s.spec.c) = some k := by
    rw [hk]; exact Pic.shaped_self _ _ _
  have hk2 : ((unitState u s F E (some I) (some (scaleImg u C0))).spec.maskSky.bind fun k =>
      k.shaped (unitState u s F E (some I) (some (scaleImg u C0))).spec.r (unitState u s F E (some I) (some (scaleImg u C0))).spec.c) = some k := hk1
  rw [hk1, hk2]
  have hv' : prepVert O.vert O.median (unitState u s F E (some I) (some (scaleImg u C0))).gal.dither
    (unitState u s F E (some I) (some (scaleImg u C0))).gal.pix (unitState u s F E (some I) (some (scaleImg u C0))).spec.ypos
    (unitState u s F E (some I) (some (scaleImg u C0))).spec.flux (unitState u s F E (some I) (some (scaleImg u C0))).spec.err k = _ := hv
  dsimp only
  rw [hv']
  rcases prepVert O.vert O.median s.gal.dither s.gal.pix s.spec.ypos s.spec.flux s.spec.err k with e | v
  · exact .err
  have h1 : ((s.spec.rows (trimRows s.gal.dither s.spec.r v.mMin v.mMax).1 (trimRows s.gal.dither s.spec.r v.mMin v.mMax).2).maskQual.bind
      fun k => k.shaped (s.spec.rows (trimRows s.gal.dither s.spec.r v.mMin v.mMax).1 (trimRows s.gal.dither s.spec.r v.mMin v.mMax).2).r
        (s.spec.rows (trimRows s.gal.dither s.spec.r v.mMin v.mMax).1 (trimRows s.gal.dither s.spec.r v.mMin v.mMax).2).c) =
      some (rowSel q (trimRows s.gal.dither s.spec.r v.mMin v.mMax).1 (trimRows s.gal.dither s.spec.r v.mMin v.mMax).2) := by
    show ((s.spec.maskQual.map _).bind _) = _
    rw [hq]
    exact Pic.shaped_self _ _ _
  have h2 : ((s.spec.rows (trimRows s.gal.dither s.spec.r v.mMin v.mMax).1 (trimRows s.gal.dither s.spec.r v.mMin v.mMax).2).maskSky.bind
      fun k => k.shaped (s.spec.rows (trimRows s.gal.dither s.spec.r v.mMin v.mMax).1 (trimRows s.gal.dither s.spec.r v.mMin v.mMax).2).r
        (s.spec.rows (trimRows s.gal.dither s.spec.r v.mMin v.mMax).1 (trimRows s.gal.dither s.spec.r v.mMin v.mMax).2).c) =
      some (rowSel k (trimRows s.gal.dither s.spec.r v.mMin v.mMax).1 (trimRows s.gal.dither s.spec.r v.mMin v.mMax).2) := by
    show ((s.spec.maskSky.map _).bind _) = _
    rw [hk]
    exact Pic.shaped_self _ _ _
  have h3 : s.spec.maskQual.map (fun p => p.rows (trimRows s.gal.dither s.spec.r v.mMin v.mMax).1 (trimRows s.gal.dither s.spec.r v.mMin v.mMax).2) =
      some ⟨_, _, rowSel q (trimRows s.gal.dither s.spec.r v.mMin v.mMax).1 (trimRows s.gal.dither s.spec.r v.mMin v.mMax).2⟩ := by rw [hq]; rfl
  have h4 : s.spec.maskSky.map (fun p => p.rows (trimRows s.gal.dither s.spec.r v.mMin v.mMax).1 (trimRows s.gal.dither s.spec.r v.mMin v.mMax).2) =
      some ⟨_, _, rowSel k (trimRows s.gal.dither s.spec.r v.mMin v.mMax).1 (trimRows s.gal.dither s.spec.r v.mMin v.mMax).2⟩ := by rw [hk]; rfl
  have hg := trimProfile_scale u s.gal
  have hc2 := hrow (trimRows s.gal.dither s.spec.r v.mMin v.mMax).1 (trimRows s.gal.dither s.spec.r v.mMin v.mMax).2
    (trimProfile s.gal (trimRows s.gal.dither s.spec.r v.mMin v.mMax).1 (trimRows s.gal.dither s.spec.r v.mMin v.mMax).2)
  have hlow := maskLowSnrRows2D_units hu hc2.pix.flux hc2.pix.err (hko.reindex (sliceRow s.spec.r
    (trimRows s.gal.dither s.spec.r v.mMin v.mMax).1 (trimRows s.gal.dither s.spec.r v.mMin v.mMax).2) id)
  have e3 : (unitState u s F E (some I) (some (scaleImg u C0))).gal.dither = s.gal.dither := rfl
  have e4 : (unitState u s F E (some I) (some (scaleImg u C0))).spec.r = s.spec.r := rfl
  have e5 : (unitState u s F E (some I) (some (scaleImg u C0))).spec.ypos = s.spec.ypos := rfl
  have e6 : (unitState u s F E (some I) (some (scaleImg u C0))).gal = scaleGal u s.gal := rfl
  dsimp only
  rw [e3, e4, e6]
  generalize (trimRows s.gal.dither s.spec.r v.mMin v.mMax) = lr at *
  have h1' : ((unitState u s F E (some I) (some (scaleImg u C0))).spec.rows lr.1 lr.2).maskQual.bind (fun k => k.shaped
      ((unitState u s F E (some I) (some (scaleImg u C0))).spec.rows lr.1 lr.2).r
      ((unitState u s F E (some I) (some (scaleImg u C0))).spec.rows lr.1 lr.2).c) = some (rowSel q lr.1 lr.2) := h1
  have h2' : ((unitState u s F E (some I) (some (scaleImg u C0))).spec.rows lr.1 lr.2).maskSky.bind (fun k => k.shaped
      ((unitState u s F E (some I) (some (scaleImg u C0))).spec.rows lr.1 lr.2).r
      ((unitState u s F E (some I) (some (scaleImg u C0))).spec.rows lr.1 lr.2).c) = some (rowSel k lr.1 lr.2) := h2
  rw [h1, h2, h1', h2', hg]
  dsimp only
  have hl : (maskLowSnrRows2D ((unitState u s F E (some I) (some (scaleImg u C0))).spec.rows lr.1 lr.2).flux
      ((unitState u s F E (some I) (some (scaleImg u C0))).spec.rows lr.1 lr.2).err (rowSel q lr.1 lr.2) (rowSel k lr.1 lr.2)
      ((unitState u s F E (some I) (some (scaleImg u C0))).spec.rows lr.1 lr.2).rowCut) =
      maskLowSnrRows2D (s.spec.rows lr.1 lr.2).flux (s.spec.rows lr.1 lr.2).err (rowSel q lr.1 lr.2) (rowSel k lr.1 lr.2)
      (s.spec.rows lr.1 lr.2).rowCut := hlow _ _
  rw [hl]
  have e7 : ((unitState u s F E (some I) (some (scaleImg u C0))).spec.rows lr.1 lr.2).ypos = s.spec.ypos := rfl
  have e8 : (s.spec.rows lr.1 lr.2).ypos = s.spec.ypos := rfl
  rw [e7, e8]
  rcases s.spec.ypos with _ | y
  · exact .err
  · refine .ok ⟨rowSel I0 lr.1 lr.2, rowSel C0 lr.1 lr.2, rowSel F lr.1 lr.2, rowSel E lr.1 lr.2, rowSel I lr.1 lr.2, rowSel m lr.1 lr.2,
      rowSel q lr.1 lr.2, rowSel k lr.1 lr.2, fun i j => G (sliceRow s.spec.r lr.1 lr.2 i) j,
      ⟨?_, ⟨hc2.2.1, hc2.2.2, hc2.2.3, hc2.2.4, hc2.2.5⟩, hc2.3, hc2.4, hc2.5⟩, h3, h4, hqo.reindex _ id, hko.reindex _ id⟩
    rfl

theorem normaliseWeights_scale {u : ℝ} (hu : 0 < u) (w : Fin r → Fl ℝ) : normaliseWeights (fun i => Fl.scale u (w i)) = normaliseWeights w := by
  funext i
  unfold normaliseWeights
  dsimp only
  rw [Fl.scale_sum, Fl.eqB_zero_scale hu, Fl.scale_div_scale hu]

theorem fitWeights_units {u : ℝ} (hu : 0 < u) {G : Fin r → Fin c → Prop} {f f' e e' k : Img r c ℝ}
    (hf : PixRel u G f f') (he : PixRel u G e e') (hk : MaskOK G k) (kind : String) (low : List Nat) (A : ℝ) (p : ℝ × ℝ) :
    fitWeights kind f' e' k low (u * A, p) = fitWeights kind f e k low (A, p) := by
  have hz : zeroAt (fun i : Fin r => (Fl.fin (gausSimple (i.val : ℝ) (u * A) p.1 p.2) : Fl ℝ)) low =
      fun i => Fl.scale u (zeroAt (fun i : Fin r => (Fl.fin (gausSimple (i.val : ℝ) A p.1 p.2) : Fl ℝ)) low i) := by
    funext i
    unfold zeroAt
    split
    · rw [Fl.scale_zero]
    · show Fl.fin _ = Fl.fin (u * _)
      unfold gausSimple
      congr 1; ring
  have hr : rowSnr f' e' k = rowSnr f e k := rowSnr_units hu hf he hk
  unfold fitWeights
  dsimp only
  rw [hz, normaliseWeights_scale hu, hr]

theorem weightsStep_units {u : ℝ} (hu : 0 < u) {O : PrepOracle} (hO : O.UnitFree u) {s s' : PrepAll} (h : RelB u s s') :
    SameOut (RelB u) (weightsStep O.optimal s) (weightsStep O.optimal s') := by
  obtain ⟨I0, C0, F, E, I, m, q, k, G, h, hq, hk, hqo, hko⟩ := h
  obtain ⟨rfl, hp, hi, hc, hI⟩ := h
  have hk1 : (s.spec.maskSky.bind fun k => k.shaped s.spec.r s.spec.c) = some k := by
    rw [hk]; exact Pic.shaped_self _ _ _
  dsimp only [weightsStep, unitState]
  rw [hk1, hi]
  dsimp only
  split_ifs
  · exact .err
  · exact .err
  · have h1 : ∀ i : Fin s.spec.r, Fl.abs (∑ j, I i j * k i j) = Fl.scale u (Fl.abs (∑ j, I0 i j * k i j)) := fun i => by
      simp only [hI.mul_mask hu hko, Fl.scale_sum, Fl.abs_scale hu]
    have h2 : ∀ i : Fin s.spec.r, Fl.abs (∑ j, E i j * k i j) = Fl.scale u (Fl.abs (∑ j, s.spec.err i j * k i j)) := fun i => by
      simp only [hp.err.mul_mask hu hko, Fl.scale_sum, Fl.abs_scale hu]
    have h3 : O.optimal (List.ofFn fun i => Fl.abs (∑ j, I i j * k i j)) (List.ofFn fun i => Fl.abs (∑ j, E i j * k i j)) =
        (u * (O.optimal (List.ofFn fun i => Fl.abs (∑ j, I0 i j * k i j)) (List.ofFn fun i => Fl.abs (∑ j, s.spec.err i j * k i j))).1,
          (O.optimal (List.ofFn fun i => Fl.abs (∑ j, I0 i j * k i j)) (List.ofFn fun i => Fl.abs (∑ j, s.spec.err i j * k i j))).2) := by
      rw [← hO.optimal]
      simp only [h1, h2, ofFn_scale]
    rw [h3, fitWeights_units hu hp.flux hp.err hko]
    rcases fitWeights s.spec.weighting s.spec.flux s.spec.err k s.spec.lowRows
      (O.optimal (List.ofFn fun i => Fl.abs (∑ j, I0 i j * k i j)) (List.ofFn fun i => Fl.abs (∑ j, s.spec.err i j * k i j))) with e | ⟨w, w2⟩
    · exact .err
    · refine .ok ⟨I0, C0, F, E, I, m, q, k, G, ⟨rfl, ⟨hp.1, hp.2, hp.3, hp.4, hp.5⟩, rfl, hc, hI⟩, hq, hk, hqo, hko⟩

theorem angleStep_units {u : ℝ} {s s' : PrepAll} (h : RelB u s s') : SameOut (RelB u) (angleStep s) (angleStep s') := by
  obtain ⟨I0, C0, F, E, I, m, q, k, G, h, hq, hk, hqo, hko⟩ := h
  obtain ⟨rfl, hp, hi, hc, hI⟩ := h
  have hB : ∀ g, RelB u ⟨s.spec, g⟩ (unitState u ⟨s.spec, g⟩ F E (some I) (some (scaleImg u C0))) := fun g =>
    ⟨I0, C0, F, E, I, m, q, k, G, ⟨rfl, ⟨hp.1, hp.2, hp.3, hp.4, hp.5⟩, hi, hc, hI⟩, hq, hk, hqo, hko⟩
  dsimp only [angleStep, unitState, scaleGal]
  split
  · exact .ok (hB s.gal)
  · split
    · exact .err
    · split
      · exact .err
      · exact .err
      · split
        · split
          · exact .err
          · exact .ok (hB _)
        · exact .err

theorem centreStep_units {u : ℝ} (hu : 0 < u) {O : PrepOracle} (hO : O.UnitFree u) {s s' : PrepAll} (h : RelB u s s') :
    SameOut (RelB u) (centreStep O.centre s) (centreStep O.centre s') := by
  obtain ⟨I0, C0, F, E, I, m, q, k, G, h, hq, hk, hqo, hko⟩ := h
  obtain ⟨rfl, hp, hi, hc, hI⟩ := h
  have hk1 : (s.spec.maskSky.bind fun k => k.shaped s.spec.r s.spec.c) = some k := by
    rw [hk]; exact Pic.shaped_self _ _ _
  dsimp only [centreStep, unitState]
  rw [hk1]
  rcases (s.spec.maskLow.bind fun k => k.shaped s.spec.r s.spec.c) with _ | lo
  · exact .err
  rcases hy : s.spec.ypos with _ | y
  · exact .err
  dsimp only
  have h1 : ∀ i j, F i j * k i j * lo i j = Fl.scale u (s.spec.flux i j * k i j * lo i j) := fun i j => by
    rw [hp.flux.mul_mask hu hko, Fl.scale_mul hu]
  have h2 : ∀ i j, E i j * k i j * lo i j = Fl.scale u (s.spec.err i j * k i j * lo i j) := fun i j => by
    rw [hp.err.mul_mask hu hko, Fl.scale_mul hu]
  simp only [h1, h2, Fl.scale_sum, Fl.quad_scale hu, ofFn_scale]
  have h3 := hO.centre ⟨List.ofFn fun i => ∑ j, s.spec.flux i j * k i j * lo i j,
    List.ofFn fun i => Fl.sqrt (∑ j, Fl.sq (s.spec.err i j * k i j * lo i j)), (List.range s.spec.r).filter fun i => decide (i ∉ s.spec.lowRows),
    List.ofFn fun j => ∑ i, s.spec.flux i j * k i j * lo i j, List.ofFn fun j => Fl.sqrt (∑ i, Fl.sq (s.spec.err i j * k i j * lo i j)),
    s.spec.whNosky, List.ofFn s.spec.wave, y, s.spec.lam0.getD 0⟩
  dsimp only at h3
  rw [h3]
  refine .ok ⟨I0, C0, F, E, I, m, q, k, G, ⟨?_, ⟨hp.1, hp.2, hp.3, hp.4, hp.5⟩, hi, hc, hI⟩, hq, hk, hqo, hko⟩
  rfl

theorem prepSteps_units {u : ℝ} (hu : 0 < u) {O : PrepOracle} (hO : O.UnitFree u) {s : PrepAll} (h : PrepInv s) :
    SameOut (RelB u) (runSteps (prepSteps O) s) (runSteps (prepSteps O) (scalePrep u s)) := by
  show SameOut (RelB u) (runSteps (lineNamesStep :: _) s) (runSteps (lineNamesStep :: _) (scalePrep u s))
  refine .cons (lineNamesStep_units ⟨rfl, h⟩) fun t t' ht => ?_
  refine .cons (lineWavesStep_units ht) fun t t' ht => ?_
  refine .cons (lineRatiosStep_units ht) fun t t' ht => ?_
  refine .cons (skyLevelsStep_units ht) fun t t' ht => ?_
  refine .cons (derivedStep_units ht) fun t t' ht => ?_
  refine .cons (ensureStep_units ht) fun t t' ht => ?_
  refine .cons (missing2DStep_units hu ht) fun t t' ht => ?_
  refine .cons (missing1DStep_units hu ht) fun t t' ht => ?_
  refine .cons (from1DStep_units ht) fun t t' ht => ?_
  refine .cons (fillStep_units hu hO.median ht) fun t t' ht => ?_
  refine .cons (rangesStep_units ht) fun t t' ht => ?_
  refine .cons (copyStep_units ht) fun t t' ht => ?_
  refine .cons (contStep_units hu hO.cont ht) fun t t' ht => ?_
  refine .cons (fullRangeStep_units ht) fun t t' ht => ?_
  refine .cons (trimStep_units ht) fun t t' ht => ?_
  refine .cons (skyMaskStep_units hu ht) fun t t' ht => ?_
  refine .cons (lowSnrStep_units hu ht) fun t t' ht => ?_
  refine .cons (spatialStep_units hu hO ht) fun t t' ht => ?_
  refine .cons (weightsStep_units hu hO ht) fun t t' ht => ?_
  refine .cons (angleStep_units ht) fun t t' ht => ?_
  refine .cons (centreStep_units hu hO ht) fun t t' ht => ?_
  exact .ok ht

end Misfit
