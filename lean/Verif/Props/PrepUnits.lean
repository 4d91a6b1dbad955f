import Verif.Lemmas.PrepUnits
import Verif.Props.Prepare1D

/-!
# C165: the preparation of a spectrum does not depend on its flux unit
-/

namespace Misfit

/-- The same observation in another flux unit: flux and errors of the 2D and the 1D spectrum times `u`, all else unchanged -/
noncomputable def PrepAll.inUnit (u : ℝ) (s : PrepAll) : PrepAll :=
  ⟨{ s.spec with flux := fun i j => .fin u * s.spec.flux i j, err := fun i j => .fin u * s.spec.err i j },
    { s.gal with spec1D := s.gal.spec1D.map fun o => { o with flux := fun j => .fin u * o.flux j, err := fun j => .fin u * o.err j } }⟩

/-- Two prepared spectra that differ in the flux unit only.  Wavelengths, masks, sky columns, rows, low S/N rows, weights, position, line centre
and the 1D profile are equal (everything except `F`, `E`, `I`, `C`, the median error and the 1D flux and errors).  Where the mask is not zero the
flux, the errors and the flux with continuum are in the other unit.  The continuum is in the other unit everywhere. -/
def PreparedInOtherUnit (u : ℝ) (t t' : PrepAll) : Prop :=
  ∃ F E I C I0 C0 m : Img t.spec.r t.spec.c ℝ,
    t' = ⟨{ t.spec with flux := F, err := E, inclCont := some I, contModel := some C, median := t.spec.median.map (.fin u * ·) },
      { t.gal with spec1D := t.gal.spec1D.map fun o => { o with flux := fun j => .fin u * o.flux j, err := fun j => .fin u * o.err j } }⟩ ∧
    t.spec.mask = some m ∧ t.spec.inclCont = some I0 ∧ t.spec.contModel = some C0 ∧
    (∀ i j, C i j = .fin u * C0 i j) ∧
    ∀ i j, m i j ≠ 0 → F i j = .fin u * t.spec.flux i j ∧ E i j = .fin u * t.spec.err i j ∧ I i j = .fin u * I0 i j

theorem inUnit_eq {u : ℝ} (hu : 0 < u) (s : PrepAll) : s.inUnit u = scalePrep u s := by
  unfold PrepAll.inUnit scalePrep scaleGal scaleImg scale1D
  simp only [Fl.scale_eq_mul hu]

/-- **C165**: a spectrum whose mask is not negative and whose errors are not negative, prepared in another flux unit, raises the same
exception or gives the same prepared spectrum in the other unit.  The numerical routines are assumed to be exact: the median is homogeneous, the
straight line fits and the Gaussian amplitude carry the unit, fitted positions and widths do not. -/
theorem C165_units (O : PrepOracle) (u : ℝ) (hu : 0 < u) (hO : O.UnitFree u) (s : PrepAll) (h0 : s.spec.prepared = false)
    (hq : s.spec.maskQual = none) (hm : ∀ m, s.spec.mask = some m → ∀ i j, ∃ x : ℝ, 0 ≤ x ∧ m i j = .fin x)
    (he : ∀ i j x, s.spec.err i j = .fin x → 0 ≤ x) :
    (prepare O (s.inUnit u)).2 = (prepare O s).2 ∧ ((prepare O s).2 = none → PreparedInOtherUnit u (prepare O s).1 (prepare O (s.inUnit u)).1) := by
  have hs := prepSteps_units hu hO (s := s) ⟨hq, hm, he⟩
  rw [inUnit_eq hu]
  have h0' : (scalePrep u s).spec.prepared = false := h0
  unfold prepare
  rw [if_neg (by rw [h0']; simp), if_neg (by rw [h0]; simp)]
  rcases h1 : runSteps (prepSteps O) s with ⟨t, e⟩
  rcases h2 : runSteps (prepSteps O) (scalePrep u s) with ⟨t', e'⟩
  rw [h1, h2] at hs
  obtain ⟨hee, hR⟩ := hs
  change e = e' at hee
  subst hee
  rcases e with _ | e
  · refine ⟨rfl, fun _ => ?_⟩
    obtain ⟨I0, C0, F, E, I, m, q, k, G, h, -⟩ := hR rfl
    obtain ⟨rfl, hp, hi, hc, hI⟩ := h
    refine ⟨F, E, I, scaleImg u C0, I0, C0, m, ?_, hp.mask, hi, hc, fun i j => Fl.scale_eq_mul hu _, fun i j hn => ?_⟩
    · dsimp only [unitState, scaleGal]
      unfold scale1D
      simp only [Fl.scale_eq_mul hu]
      have hf : (Fl.scale u : Fl ℝ → Fl ℝ) = fun a => Fl.fin u * a := funext fun a => Fl.scale_eq_mul hu a
      rw [hf]
    · have hg : G i j := by
        by_contra hg
        exact hn (hp.ok.bad i j hg)
      refine ⟨?_, ?_, ?_⟩
      · rw [hp.flux.good i j hg, Fl.scale_eq_mul hu]
      · rw [hp.err.good i j hg, Fl.scale_eq_mul hu]
      · rw [hI.good i j hg, Fl.scale_eq_mul hu]
  · exact ⟨rfl, fun h => by cases h⟩

/-! ## A concrete case -/

open Classical in
/-- the first value that is not masked -/
noncomputable def firstGood (d : LineData) : Fl ℝ :=
  match d.mask.findIdx? fun x => decide (x ≠ 0) with
  | some k => (d.yy[k]?).getD 0
  | none => 0

theorem firstGood_units {u : ℝ} {d d' : LineData} (h : SameData u d d') : firstGood d' = Fl.scale u (firstGood d) := by
  unfold firstGood
  rw [h.mask]
  split
  · rename_i k hk
    rw [h.yy k]
    · rcases d.yy[k]? with _ | y
      · exact (Fl.scale_zero u).symm
      · rfl
    · intro h0
      rw [List.findIdx?_eq_some_iff_getElem] at hk
      obtain ⟨hl, hp, -⟩ := hk
      rw [List.getElem?_eq_getElem hl] at h0
      simp only [Option.some.injEq] at h0
      simp [h0] at hp
  · exact (Fl.scale_zero u).symm

/-- Routines that carry the unit: the first value for the median and for the continuum, the first value for the amplitude -/
noncomputable def firstOracle : PrepOracle where
  median := fun l => l.head?.getD 0
  cont := ⟨fun d => (0, firstGood d), firstGood, fun a _ d => a + firstGood d⟩
  vert := fun x => (x.pix, 0, 1, 1)
  optimal := fun y _ => (match y.head? with | some (.fin x) => x | _ => 0, 1, 2)
  centre := fun x => (some x.ypos, none)

theorem firstOracle_unitFree (u : ℝ) : firstOracle.UnitFree u where
  median := fun l => by
    rcases l with _ | ⟨a, l⟩
    · exact (Fl.scale_zero u).symm
    · rfl
  cont :=
    { both := fun d d' h => by
        show ((0 : Fl ℝ), firstGood d') = (Fl.scale u 0, Fl.scale u (firstGood d))
        rw [Fl.scale_zero, firstGood_units h]
      intercept := fun d d' h => firstGood_units h
      row := fun a b d d' h => by
        show Fl.scale u a + firstGood d' = Fl.scale u (a + firstGood d)
        rw [Fl.scale_add, firstGood_units h] }
  vert := fun x => rfl
  optimal := fun y e => by
    rcases y with _ | ⟨a, y⟩
    · show ((0 : ℝ), (1 : ℝ), (2 : ℝ)) = (u * 0, 1, 2)
      rw [mul_zero]
    · rcases a with x | _ | _ | _
      · rfl
      all_goals
        show ((0 : ℝ), (1 : ℝ), (2 : ℝ)) = (u * 0, 1, 2)
        rw [mul_zero]
  centre := fun x => rfl

/-- The hypotheses of `C165_units` are met by a spectrum with a sky line, which can be prepared. -/
example (u : ℝ) (hu : 0 < u) : ∃ t t', prepare firstOracle skyAll = (t, none) ∧ prepare firstOracle (skyAll.inUnit u) = (t', none) ∧
    PreparedInOtherUnit u t t' := by
  obtain ⟨t, ht, -⟩ := C128_prepares firstOracle skyAll (skyAll_preparable _) (Or.inl ⟨_, rfl⟩)
  have h := C165_units firstOracle u hu (firstOracle_unitFree u) skyAll rfl rfl (fun m hm => by cases hm) (fun i j x hx => by
    change (if j.val = 4 then (Fl.fin 10 : Fl ℝ) else Fl.fin 1) = Fl.fin x at hx
    split at hx <;> cases hx <;> norm_num)
  rw [ht] at h
  exact ⟨t, _, ht, Prod.ext rfl h.1, h.2 rfl⟩

end Misfit
