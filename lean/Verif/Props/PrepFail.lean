import Verif.Props.Prepare1D
import Verif.Lemmas.PrepRun

/-!
# C173: a continuum subtraction that fails
-/

namespace Misfit

/-! ## Failing runs -/

theorem runSteps_cons_fail {f : PrepStep} {fs : List PrepStep} {s t : PrepAll} {e : PyErr}
    (h : runSteps (f :: fs) s = (t, some e)) :
    f s = (t, some e) ∨ ∃ u, f s = (u, none) ∧ runSteps fs u = (t, some e) := by
  unfold runSteps at h
  split at h
  · rename_i s' e' hf
    cases h
    exact Or.inl hf
  · rename_i s' hf
    exact Or.inr ⟨s', hf, h⟩

theorem runSteps_next {f : PrepStep} {fs : List PrepStep} {s u : PrepAll} (h : f s = (u, none)) :
    runSteps (f :: fs) s = runSteps fs u := by
  rw [runSteps, h]

theorem runSteps_stop {f : PrepStep} {fs : List PrepStep} {s u : PrepAll} {e : PyErr} (h : f s = (u, some e)) :
    runSteps (f :: fs) s = (u, some e) := by
  rw [runSteps, h]

theorem missing2D_cont {s t : PrepAll} {x : Option PyErr} (h : missing2DStep s = (t, x)) (h0 : s.spec.contModel = none) :
    t.spec.contModel = none := by
  unfold missing2DStep at h
  split at h <;> cases h <;> exact h0

theorem missing1D_cont {s t : PrepAll} {x : Option PyErr} (h : missing1DStep s = (t, x)) (h0 : s.spec.contModel = none) :
    t.spec.contModel = none := by
  unfold missing1DStep at h
  split at h
  · cases h; exact h0
  · split at h
    · cases h; exact h0
    · split at h <;> cases h <;> exact h0

theorem from1D_cont {s t : PrepAll} {x : Option PyErr} (h : from1DStep s = (t, x)) (h0 : s.spec.contModel = none) :
    t.spec.contModel = none := by
  unfold from1DStep at h
  split at h
  · cases h; exact h0
  · split at h
    · split at h
      · cases h; exact h0
      · simp only at h
        rw [← (Prod.mk.inj h).1]
        exact h0
    · cases h; exact h0

theorem fill_cont {median : List (Fl ℝ) → Fl ℝ} {s t : PrepAll} {x : Option PyErr} (h : fillStep median s = (t, x))
    (h0 : s.spec.contModel = none) : t.spec.contModel = none := by
  unfold fillStep at h
  split at h <;> cases h <;> exact h0

theorem ranges_cont {s t : PrepAll} {x : Option PyErr} (h : rangesStep s = (t, x)) (h0 : s.spec.contModel = none) :
    t.spec.contModel = none := by
  unfold rangesStep at h
  split at h
  · cases h; exact h0
  · simp only at h
    split at h
    · cases h; exact h0
    · split at h <;> cases h <;> exact h0

theorem prepWindows_not_value {s : PrepAll} : prepWindows s ≠ .error .valueError := by
  unfold prepWindows
  split
  · split
    · intro h; cases h
    · intro h; cases h
  · intro h; cases h

theorem fullRange_not_value {s t : PrepAll} : fullRangeStep s ≠ (t, some .valueError) := by
  intro h
  unfold fullRangeStep at h
  split at h
  · rename_i e he
    cases h
    exact prepWindows_not_value he
  · simp only at h
    split at h
    · cases h
    · split at h
      · cases h
      · split at h <;> cases h

theorem pickAt_not_value {α : Type} {n c : Nat} (a : Fin n → α) (wh : List (Fin c)) : pickAt a wh ≠ .error .valueError := by
  unfold pickAt
  induction wh with
  | nil => intro h; cases h
  | cons j wh ih =>
    intro h
    rw [List.mapM_cons] at h
    by_cases hj : j.val < n
    · rw [dif_pos hj] at h
      cases hm : wh.mapM fun j => if h : j.val < n then (Except.ok (a ⟨j.val, h⟩) : Except PyErr α) else .error .indexError with
      | error e =>
        rw [hm] at h
        cases h
        exact ih hm
      | ok l =>
        rw [hm] at h
        cases h
    · rw [dif_neg hj] at h
      cases h

theorem bind_not_value {α β : Type} {x : Except PyErr α} {f : α → Except PyErr β} (hx : x ≠ .error .valueError)
    (hf : ∀ a, f a ≠ .error .valueError) : x >>= f ≠ .error .valueError := by
  cases x with
  | error e => intro h; exact hx (by cases h; rfl)
  | ok a => exact hf a

theorem slope1D_not_value {c : Nat} (O : ContFit) (o : Obs1D) (m1 : Fin o.n → Fl ℝ) (cutoff : Option (Fl ℝ)) (md : Fl ℝ)
    (obs : Fin c → ℝ) (l rr : List (Fin c)) : (slope1D O o m1 cutoff (some md) obs l rr).2 ≠ .error .valueError := by
  unfold slope1D whSkylines1D
  cases cutoff with
  | none => intro h; cases h
  | some cu =>
    refine bind_not_value (pickAt_not_value _ _) fun _ => bind_not_value (pickAt_not_value _ _) fun _ =>
      bind_not_value (pickAt_not_value _ _) fun _ => bind_not_value (pickAt_not_value _ _) fun _ =>
      bind_not_value (pickAt_not_value _ _) fun _ => bind_not_value (pickAt_not_value _ _) fun _ h => ?_
    split at h <;> cases h

/-- The state after continuum fits that end in a ValueError -/
theorem contStep_fail {O : ContFit} {s t : PrepAll} {md : Fl ℝ} (hmd : s.spec.median = some md)
    (hi : s.spec.inclCont = some s.spec.flux) (hcm : s.spec.contModel = some fun _ _ => 0) (h : contStep O s = (t, some .valueError)) :
    ∃ (cont : Img s.spec.r s.spec.c ℝ) (b : Fin s.spec.r) (sp1 : Option Obs1D), contFinite (cont b) = false ∧
      (∀ i, i < b → contFinite (cont i) = true ∧ ∀ j, (cont i j).isFinite = true) ∧
      t = ⟨{ s.spec with contModel := some fun i j => if i ≤ b then cont i j else 0
                         flux := fun i j => if i < b then s.spec.flux i j - cont i j else s.spec.flux i j },
        { s.gal with spec1D := sp1 }⟩ := by
  unfold contStep at h
  split at h
  · cases h
  · split at h
    · rename_i e he
      cases h
      exact absurd he prepWindows_not_value
    · rename_i w o incl cm m obs hw ho hi' hcm' hm hobs
      rw [hi] at hi'
      cases hi'
      rw [hcm] at hcm'
      cases hcm'
      split at h
      · cases h
      · rename_i m1 hm1
        rw [hmd] at h
        split at h
        · rename_i e he
          cases h
          exact absurd (congrArg Prod.snd he) (slope1D_not_value O o m1 _ md obs w.1 w.2.1)
        · cases h
        · rename_i tmp res hres
          simp only at h
          split at h
          · cases h
            exact absurd (congrArg Prod.snd hres) (slope1D_not_value O o m1 _ md obs w.1 w.2.1)
          · rename_i slope b0
            split at h
            · cases h
            · rename_i b hb
              cases h
              refine ⟨prepCont O s.spec s.spec.flux m obs slope b0 w.1 w.2.1, b, some { o with mask := some tmp },
                by simpa using List.find?_some hb, ?_, ?_⟩
              · intro i hlt
                obtain ⟨as, bs, he, hbefore⟩ := (List.find?_eq_some_iff_append.1 hb).2
                have hmem : i ∈ as := by
                  have hmi : i ∈ List.finRange s.spec.r := List.mem_finRange i
                  have hp := List.pairwise_lt_finRange s.spec.r
                  rw [he] at hmi hp
                  rcases List.mem_append.1 hmi with h1 | h1
                  · exact h1
                  · rcases List.mem_cons.1 h1 with rfl | h1
                    · exact absurd hlt (lt_irrefl _)
                    · have := (List.pairwise_cons.1 (List.pairwise_append.1 hp).2.1).1 i h1
                      exact absurd hlt (lt_asymm this)
                have hfin : contFinite (prepCont O s.spec s.spec.flux m obs slope b0 w.1 w.2.1 i) = true := by
                  simpa using hbefore i hmem
                refine ⟨hfin, fun j => ?_⟩
                obtain ⟨a, b, -, -, hab⟩ := rowCont_finite _ _ _ _ _ hfin
                rw [show prepCont O s.spec s.spec.flux m obs slope b0 w.1 w.2.1 i j = _ from hab j]
                rfl
              · have he : (fun i => if i ≤ b then prepCont O s.spec s.spec.flux m obs slope b0 w.1 w.2.1 i else fun _ => (0 : Fl ℝ)) =
                    fun i j => if i ≤ b then prepCont O s.spec s.spec.flux m obs slope b0 w.1 w.2.1 i j else 0 := by
                  funext i j
                  split <;> rfl
                rw [he]
    · cases h

/-! ## C173 -/

/-- Specification: the rows of the spectrum after a failed continuum subtraction.  `b` is the row whose continuum is not finite: the
rows before have lost their continuum, the others have not, and no continuum has been stored for the rows after `b`. -/
structure HalfSubtracted (s : Obs2D) (incl cont : Img s.r s.c ℝ) (b : Fin s.r) : Prop where
  bad : ∃ j, (cont b j).isFinite = false
  finite : ∀ i j, i < b → (cont i j).isFinite = true
  subtracted : ∀ i j, i < b → s.flux i j = incl i j - cont i j
  untouched : ∀ i j, b ≤ i → s.flux i j = incl i j
  empty : ∀ i j, b < i → cont i j = 0

/-- **C173**: a continuum subtraction of a fresh spectrum that raises a ValueError after it has begun to store the continuum leaves a
spectrum of which only the first rows are subtracted. -/
theorem C173_failed (O : PrepOracle) (s t : PrepAll) (h0 : s.spec.contModel = none)
    (h : runSteps (continuumSteps O) s = (t, some .valueError)) (ht : t.spec.contModel ≠ none) :
    ∃ incl cont b, t.spec.inclCont = some incl ∧ t.spec.contModel = some cont ∧ HalfSubtracted t.spec incl cont b := by
  unfold continuumSteps at h
  rcases runSteps_cons_fail h with h1 | ⟨u1, h1, h⟩
  · exact absurd (missing2D_cont h1 h0) ht
  have c1 := missing2D_cont h1 h0
  rcases runSteps_cons_fail h with h2 | ⟨u2, h2, h⟩
  · exact absurd (missing1D_cont h2 c1) ht
  have c2 := missing1D_cont h2 c1
  rcases runSteps_cons_fail h with h3 | ⟨u3, h3, h⟩
  · exact absurd (from1D_cont h3 c2) ht
  have c3 := from1D_cont h3 c2
  rcases runSteps_cons_fail h with h4 | ⟨u4, h4, h⟩
  · exact absurd (fill_cont h4 c3) ht
  have c4 := fill_cont h4 c3
  rcases runSteps_cons_fail h with h5 | ⟨u5, h5, h⟩
  · exact absurd (ranges_cont h5 c4) ht
  rcases runSteps_cons_fail h with h6 | ⟨u6, h6, h⟩
  · cases h6
  cases h6
  have hc : 0 < u5.spec.r → 0 < u5.spec.c := by
    have e1 : u1.spec.c = 0 → u1.spec.r = 0 := by
      unfold missing2DStep at h1
      split at h1
      · cases h1
      · rename_i m hm
        cases h1
        intro (hc : s.spec.c = 0)
        exfalso
        unfold specMaskMissing2D at hm
        rw [show (List.ofFn fun i => List.ofFn fun j => Fl.abs (s.spec.err i j)).flatten = [] from ?_] at hm
        · cases hm
        · rw [List.flatten_eq_nil_iff]
          intro l hl
          obtain ⟨i, rfl⟩ := (List.mem_ofFn' _ _).1 hl
          rw [List.ofFn_eq_nil_iff]
          exact hc
    have m1 : ∃ m, u1.spec.mask = some m := by
      unfold missing2DStep at h1
      split at h1
      · cases h1
      · cases h1; exact ⟨_, rfl⟩
    obtain ⟨m, hm⟩ := m1
    have e5 : u5.spec.r = u1.spec.r ∧ u5.spec.c = u1.spec.c := by
      obtain ⟨f, l, m', -, -, rfl⟩ := rangesStep_ok h5
      have e4 : u4.spec.r = u3.spec.r ∧ u4.spec.c = u3.spec.c := by
        unfold fillStep at h4
        split at h4
        · cases h4
        · cases h4; exact ⟨rfl, rfl⟩
      have e2 : u2.spec = u1.spec := by
        rcases missing1DStep_ok h2 with ⟨-, rfl⟩ | ⟨-, o, m1, -, -, rfl⟩ <;> rfl
      have e3 : u3.spec.r = u2.spec.r ∧ u3.spec.c = u2.spec.c := by
        unfold from1DStep at h3
        split at h3
        · cases h3; exact ⟨rfl, rfl⟩
        · split at h3
          · split at h3
            · cases h3
            · simp only at h3
              rw [← (Prod.mk.inj h3).1]
              exact ⟨rfl, rfl⟩
          · cases h3
      exact ⟨e4.1.trans (e3.1.trans (by rw [e2])), e4.2.trans (e3.2.trans (by rw [e2]))⟩
    rw [e5.1, e5.2]
    omega
  have hmd : ∃ md, u5.spec.median = some md := by
    obtain ⟨f, l, m, -, -, rfl⟩ := rangesStep_ok h5
    unfold fillStep at h4
    split at h4
    · cases h4
    · cases h4
      exact ⟨_, rfl⟩
  obtain ⟨md, hmd⟩ := hmd
  rcases runSteps_cons_fail h with h7 | ⟨u7, h7, h⟩
  · obtain ⟨cont, b, sp1, hbad, hok, rfl⟩ := contStep_fail
      (s := { u5 with spec := { u5.spec with inclCont := some u5.spec.flux, contModel := some fun _ _ => 0 } }) (md := md) hmd rfl rfl h7
    refine ⟨_, _, b, rfl, rfl, ?_, ?_, ?_, ?_, ?_⟩
    · by_contra hno
      have : contFinite (cont b) = true := by
        refine contFinite_of (hc (lt_of_le_of_lt (Nat.zero_le _) b.isLt)) _ fun j => ?_
        by_contra hj
        refine hno ⟨j, ?_⟩
        show (if b ≤ b then cont b j else 0).isFinite = false
        rw [if_pos le_rfl]
        simpa using hj
      rw [this] at hbad
      cases hbad
    · intro i j hi
      show (if i ≤ b then cont i j else 0).isFinite = true
      rw [if_pos hi.le]
      exact (hok i hi).2 j
    · intro i j hi
      show (if i < b then _ - cont i j else _) = _ - (if i ≤ b then cont i j else 0)
      rw [if_pos hi, if_pos hi.le]
    · intro i j hi
      show (if i < b then _ - cont i j else _) = _
      rw [if_neg (not_lt.2 hi)]
    · intro i j hi
      show (if i ≤ b then cont i j else 0) = 0
      rw [if_neg (not_le.2 hi)]
  · rcases runSteps_cons_fail h with h8 | ⟨u8, h8, h⟩
    · exact absurd h8 fullRange_not_value
    · cases h

/-- **C173**: if such a spectrum is subtracted once more, the rows that have lost their continuum are taken for the data: the flux
"including the continuum" stored by the successful second attempt is, in the usable pixels of these rows, the flux without it. -/
theorem C173_retry (O : PrepOracle) (t u : PrepAll) (incl cont w m : Img t.spec.r t.spec.c ℝ) (b : Fin t.spec.r)
    (hs : HalfSubtracted t.spec incl cont b) (hw : t.spec.weight = some w) (hm : t.spec.mask = some m)
    (h : runSteps (continuumSteps O) t = (u, none)) :
    ∃ (row : Fin u.spec.r → Fin t.spec.r) (col : Fin u.spec.c → Fin t.spec.c) (I M : Img u.spec.r u.spec.c ℝ),
      (∀ i, (row i).val = i.val) ∧ StrictMono col ∧ u.spec.inclCont = some I ∧ u.spec.mask = some M ∧
      (∀ i j, M i j ≠ 0 → row i < b → I i j = incl (row i) (col j) - cont (row i) (col j)) ∧
      ∀ i j, M i j ≠ 0 → b ≤ row i → I i j = incl (row i) (col j) := by
  obtain ⟨hit, M, F, E, C, X, f, l, mr, sp1, z, obs, -, -, -, -, -, -, -, hF, -, -, rfl⟩ := continuumSteps_ok hw hm h
  refine ⟨id, fun k => ((List.finRange t.spec.c).filter fun j => decide (f.1 * (1 + z) ≤ obs j ∧ obs j ≤ f.2 * (1 + z))).get k,
    _, _, fun _ => rfl, get_filter_strictMono _, rfl, rfl, fun i j hM hi => ?_, fun i j hM hi => ?_⟩
  · exact ((hF _ _).2.2.2.1 hM).1.trans (hs.subtracted _ _ hi)
  · exact ((hF _ _).2.2.2.1 hM).1.trans (hs.untouched _ _ hi)

/-! ## A spectrum whose second row cannot be fitted -/

/-- **C173**: without a 1D spectrum the continuum cannot be subtracted: AttributeError, and only the mask of missing data
of the 2D spectrum has been set. -/
theorem C173_no_1D (O : PrepOracle) (s : PrepAll) (hr : 0 < s.spec.r) (hc : 0 < s.spec.c) (hn : s.spec.noCont = false)
    (h1 : s.gal.spec1D = none) :
    ∃ m, runSteps (continuumSteps O) s = ({ s with spec := { s.spec with mask := some m } }, some .attributeError) ∧
      specMaskMissing2D s.spec.flux s.spec.err s.spec.weight s.spec.mask true = .ok m := by
  obtain ⟨m, hm⟩ := specMaskMissing2D_run hr hc s.spec.flux s.spec.err s.spec.weight s.spec.mask true
  refine ⟨m, ?_, hm⟩
  unfold continuumSteps
  rw [runSteps_next (u := { s with spec := { s.spec with mask := some m } }) (by unfold missing2DStep; rw [hm])]
  refine runSteps_stop ?_
  unfold missing1DStep
  simp only [hn, h1]
  rfl

/-- A continuum subtraction fails when the fit to a row does. -/
theorem continuum_fails {O : PrepOracle} {s : PrepAll} {l : String} {ls : List String} {full line mask : ℝ × ℝ} {z : ℝ} {x : Fl ℝ}
    {o : Obs1D} (hO : ∀ d, d.xx ≠ [] → (O.cont.both d).1.isFinite = true ∧ (O.cont.both d).2.isFinite = true ∧
      (O.cont.intercept d).isFinite = true)
    (hn : s.spec.noCont = false) (ho : s.gal.spec1D = some o) (hon : o.n = s.spec.c)
    (j : Fin s.spec.c) (hj : full.1 * (1 + z) ≤ s.spec.wave j ∧ s.spec.wave j < mask.1 * (1 + z))
    (hx : s.spec.cutoff = some x) (hnm : s.spec.lines.names = some (l :: ls))
    (hf : RangeUsed s.spec.fullRange fullRange2D l full) (hl : RangeUsed s.spec.lineRange lineRange2D l line)
    (hm : RangeUsed s.spec.maskRange maskRange2D l mask) (hz : s.gal.z = some z) (hobs : s.spec.obswave = some s.spec.wave)
    (i : Fin s.spec.r) (y : ℝ) (hfl : ∀ j, s.spec.flux i j = .fin y)
    (hrow : ∀ a b (d : LineData), (∀ v ∈ d.yy, v = .fin y) → O.cont.row a b d = .nan) :
    ∃ t, runSteps (continuumSteps O) s = (t, some .valueError) ∧ t.spec.contModel ≠ none := by
  have hc : 0 < s.spec.c := lt_of_le_of_lt (Nat.zero_le _) j.isLt
  have hr : 0 < s.spec.r := lt_of_le_of_lt (Nat.zero_le _) i.isLt
  obtain ⟨m', hm'⟩ := specMaskMissing2D_run hr hc s.spec.flux s.spec.err s.spec.weight s.spec.mask true
  have e1 : missing2DStep s = ({ s with spec := { s.spec with mask := some m' } }, none) := by
    unfold missing2DStep
    rw [hm']
  obtain ⟨m1, e2⟩ := missing1DStep_run (s := { s with spec := { s.spec with mask := some m' } }) hn ho (by omega)
  obtain ⟨m3, e3⟩ := from1DStep_run (s := ⟨{ s.spec with mask := some m' },
    { s.gal with spec1D := some { o with mask := some m1 } }⟩) hn rfl rfl rfl (le_of_eq hon)
  obtain ⟨tmp, a, b, cont, ha, hb, hcont, e7⟩ := contStep_find hO (s := ⟨{ s.spec with
      mask := some m3, flux := fun i => specNanMasking (s.spec.flux i) (m3 i) (.fin (-99)) false false
      err := fun i => specNanMasking (s.spec.err i) (m3 i) (.fin (-99)) true false
      median := some (O.median (List.ofFn fun j =>
        colQuad (fun i => specNanMasking (s.spec.err i) (m3 i) (.fin (-99)) true false) m3 j))
      fullRange := some full, lineRange := some line, maskRange := some mask
      inclCont := some fun i => specNanMasking (s.spec.flux i) (m3 i) (.fin (-99)) false false, contModel := some fun _ _ => 0 },
      { s.gal with spec1D := some { o with mask := some m1 } }⟩) hn rfl rfl rfl rfl rfl rfl rfl hz hobs hx rfl (ge_of_eq hon) j hj
  have hbad : contFinite (cont i) = false := by
    by_contra hfin
    have hfin : contFinite (cont i) = true := by simpa using hfin
    rw [hcont] at hfin
    obtain ⟨_, _, _, hrow', _⟩ := rowCont_finite _ _ _ _ _ hfin
    rw [hrow] at hrow'
    · cases hrow'
    · intro v hv
      have key : ∀ k, specNanMasking (s.spec.flux i) (m3 i) (.fin (-99)) false false k = .fin y := by
        intro k
        rw [C13_finite_kept _ _ _ _ _ (by rw [hfl]; rfl) (fun h => by cases h)]
        exact hfl k
      unfold twoSides at hv
      rcases List.mem_append.1 hv with hv | hv
      · obtain ⟨k, -, rfl⟩ := List.mem_map.1 hv
        exact key k
      · obtain ⟨k, -, rfl⟩ := List.mem_map.1 hv
        exact key k
  have hfind : ∃ k, ((List.finRange s.spec.r).find? fun i => !contFinite (cont i)) = some k := by
    cases hf : (List.finRange s.spec.r).find? fun i => !contFinite (cont i) with
    | some k => exact ⟨k, rfl⟩
    | none =>
      have := List.find?_eq_none.1 hf i (List.mem_finRange _)
      rw [hbad] at this
      exact absurd rfl this
  obtain ⟨k, hk⟩ := hfind
  simp only at e7
  rw [hk] at e7
  have e5 := rangesStep_run (s := ⟨{ s.spec with
      mask := some m3, flux := fun i => specNanMasking (s.spec.flux i) (m3 i) (.fin (-99)) false false
      err := fun i => specNanMasking (s.spec.err i) (m3 i) (.fin (-99)) true false
      median := some (O.median (List.ofFn fun j =>
        colQuad (fun i => specNanMasking (s.spec.err i) (m3 i) (.fin (-99)) true false) m3 j)) },
      { s.gal with spec1D := some { o with mask := some m1 } }⟩) hnm hf hl hm
  exact ⟨_, (runSteps_next e1).trans ((runSteps_next e2).trans ((runSteps_next e3).trans ((runSteps_next rfl).trans
    ((runSteps_next e5).trans ((runSteps_next rfl).trans (runSteps_stop e7)))))), fun h => by cases h⟩

/-- The spectrum of `contAll` with a second row of flux 20 -/
noncomputable def halfAll : PrepAll :=
  ⟨{ contAll.spec with flux := fun i _ => if i.val = 1 then .fin 20 else .fin 10 }, contAll.gal⟩

open Classical in
/-- Fits that fail for rows of flux 20 -/
noncomputable def failFit : ContFit :=
  ⟨fun _ => (0, 0), fun _ => 0, fun _ _ d => if ∀ v ∈ d.yy, v = .fin 20 then .nan else .fin 3⟩

/-- The hypotheses of `C173_failed` are met by this spectrum. -/
example (O : PrepOracle) (hO : O.cont = failFit) : halfAll.spec.contModel = none ∧
    ∃ t, runSteps (continuumSteps O) halfAll = (t, some .valueError) ∧ t.spec.contModel ≠ none := by
  refine ⟨rfl, continuum_fails (full := (1, 10)) (line := (0, 10)) (mask := (2, 3)) (z := 0) (by rw [hO]; exact fun d _ => ⟨rfl, rfl, rfl⟩) rfl rfl rfl
    (1 : Fin 5) ?_ rfl rfl (Or.inl rfl) (Or.inl rfl) (Or.inl rfl) rfl rfl (1 : Fin 15) 20 (fun j => ?_) ?_⟩
  · show (1 : ℝ) * (1 + 0) ≤ ((1 : Fin 5).val : ℝ) ∧ ((1 : Fin 5).val : ℝ) < 2 * (1 + 0)
    norm_num
  · show (if (1 : Fin 15).val = 1 then Fl.fin (20 : ℝ) else .fin 10) = _
    exact if_pos rfl
  · intro a b d hd
    rw [hO]
    exact if_pos hd

/-- The same spectrum after the first row has been subtracted -/
noncomputable def halfDone : PrepAll :=
  ⟨{ contAll.spec with
      weight := some fun _ _ => 1, mask := some fun _ _ => 1
      flux := fun i _ => if i.val = 0 then .fin 7 else if i.val = 1 then .fin 20 else .fin 10
      inclCont := some fun i _ => if i.val = 1 then .fin 20 else .fin 10
      contModel := some fun i _ => if i.val = 0 then .fin 3 else if i.val = 1 then .nan else 0 }, contAll.gal⟩

theorem halfDone_half : HalfSubtracted halfDone.spec (fun i _ => if i.val = 1 then .fin 20 else .fin 10)
    (fun i _ => if i.val = 0 then .fin 3 else if i.val = 1 then .nan else 0) (1 : Fin 15) := by
  have h0 : ∀ i : Fin 15, i < 1 → i.val = 0 := by decide
  have h1 : ∀ i : Fin 15, 1 < i → i.val ≠ 0 ∧ i.val ≠ 1 := by decide
  refine ⟨⟨(0 : Fin 5), rfl⟩, fun i j hi => ?_, fun i j hi => ?_, fun i j hi => ?_, fun i j hi => ?_⟩
  · show (if i.val = 0 then Fl.fin (3 : ℝ) else if i.val = 1 then .nan else 0).isFinite = true
    rw [if_pos (h0 i hi)]
    rfl
  · show (if i.val = 0 then Fl.fin (7 : ℝ) else if i.val = 1 then .fin 20 else .fin 10) =
      (if i.val = 1 then Fl.fin (20 : ℝ) else .fin 10) - (if i.val = 0 then Fl.fin (3 : ℝ) else if i.val = 1 then .nan else 0)
    rw [if_pos (h0 i hi), if_pos (h0 i hi), if_neg (by rw [h0 i hi]; decide), Fl.fin_sub]
    norm_num
  · show (if i.val = 0 then Fl.fin (7 : ℝ) else if i.val = 1 then .fin 20 else .fin 10) =
      (if i.val = 1 then Fl.fin (20 : ℝ) else .fin 10)
    have : i.val ≠ 0 := by
      intro h
      have hi : 1 ≤ i.val := hi
      omega
    rw [if_neg this]
  · show (if i.val = 0 then Fl.fin (3 : ℝ) else if i.val = 1 then .nan else 0) = 0
    rw [if_neg (h1 i hi).1, if_neg (h1 i hi).2]

/-- The hypotheses of `C173_retry` are met: with fits that succeed the second attempt goes through. -/
example (O : PrepOracle) (hO : O.cont.Finite) : ∃ u, runSteps (continuumSteps O) halfDone = (u, none) := by
  obtain ⟨_, _, _, _, _, _, _, h, -⟩ := continuum_run (O := O) (s := halfDone) (full := (1, 10)) (line := (0, 10)) (mask := (2, 3)) (z := 0)
    (Or.inr ⟨rfl, hO, ⟨_, rfl, rfl⟩, (1 : Fin 5), by
      show (1 : ℝ) * (1 + 0) ≤ ((1 : Fin 5).val : ℝ) ∧ ((1 : Fin 5).val : ℝ) < 2 * (1 + 0)
      norm_num⟩) (by decide : 0 < 15) (by decide : 0 < 5) rfl rfl rfl (Or.inl rfl) (Or.inl rfl) (Or.inl rfl) rfl rfl
  exact ⟨_, h⟩

/-- C173_no_1D: the same spectrum without a 1D spectrum -/
example : ∃ s : PrepAll, 0 < s.spec.r ∧ 0 < s.spec.c ∧ s.spec.noCont = false ∧ s.gal.spec1D = none :=
  ⟨⟨halfAll.spec, { halfAll.gal with spec1D := none }⟩, by decide, by decide, rfl, rfl⟩

end Misfit
