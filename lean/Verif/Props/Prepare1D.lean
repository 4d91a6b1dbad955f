import Verif.Props.Prepare

/-!
# What the preparation of a 2D spectrum does to the 1D spectrum: C130
-/

namespace Misfit

/-- Specification: the pixels of the galaxy's 1D spectrum (wavelength, flux, error) -/
def data1D (s : PrepAll) : Option (List (ℝ × Fl ℝ × Fl ℝ)) :=
  s.gal.spec1D.map fun o => List.ofFn fun k => (o.wave k, o.flux k, o.err k)

/-- Specification: a column inside the full wavelength range -/
def InFull {c : Nat} (f : ℝ × ℝ) (z : ℝ) (obs : Fin c → ℝ) (j : Fin c) : Prop :=
  f.1 * (1 + z) ≤ obs j ∧ obs j ≤ f.2 * (1 + z)

theorem data1D_missing1D {s t : PrepAll} (h : missing1DStep s = (t, none)) : data1D t = data1D s := by
  rcases missing1DStep_ok h with ⟨-, rfl⟩ | ⟨-, o, m1, ho, -, rfl⟩
  · rfl
  · unfold data1D
    rw [ho]
    rfl

theorem data1D_from1D {s t : PrepAll} (h : from1DStep s = (t, none)) : t.gal = s.gal := by
  unfold from1DStep at h
  split at h
  · cases h; rfl
  · split at h
    · split at h
      · cases h
      · simp only at h
        rw [← (Prod.mk.inj h).1]
    · cases h

theorem data1D_cont {O : ContFit} {s t : PrepAll} (h : contStep O s = (t, none)) : data1D t = data1D s := by
  unfold contStep at h
  split at h
  · cases h; rfl
  · split at h
    · cases h
    · rename_i w o incl cm m obs hw ho hi hcm hm hobs
      split at h
      · cases h
      · split at h
        · cases h
        · cases h; rfl
        · simp only at h
          split at h
          · cases h
          · split at h
            · cases h
              unfold data1D
              rw [ho]
              rfl
            · cases h
    · cases h

theorem ofFn_get_eq {α : Type} {n c : Nat} (g : Fin n → α) (wh : List (Fin c)) (h : ∀ j ∈ wh, j.val < n) :
    wh.filterMap (fun j => (List.ofFn g)[j.val]?) = List.ofFn fun k => g ⟨(wh.get k).val, h _ (List.get_mem wh k)⟩ := by
  induction wh with
  | nil => rfl
  | cons j wh ih =>
    have hj : (List.ofFn g)[j.val]? = some (g ⟨j.val, h j List.mem_cons_self⟩) := by
      rw [List.getElem?_ofFn, dif_pos (h j List.mem_cons_self)]
    rw [List.filterMap_cons_some (f := fun j : Fin c => (List.ofFn g)[j.val]?) hj, ih fun k hk => h k (List.mem_cons_of_mem _ hk), List.ofFn_succ]
    rfl

open Classical in
theorem data1D_fullRange {s t : PrepAll} (hn : s.spec.noCont = false) (h : fullRangeStep s = (t, none)) :
    ∃ l f z obs, data1D s = some l ∧ s.spec.fullRange = some f ∧ s.gal.z = some z ∧ s.spec.obswave = some obs ∧
      (∀ j, InFull f z obs j → j.val < l.length) ∧
      data1D t = some (((List.finRange s.spec.c).filter fun j => decide (InFull f z obs j)).filterMap fun j => l[j.val]?) := by
  unfold fullRangeStep at h
  split at h
  · cases h
  · rename_i w hw
    simp only at h
    rw [if_neg (by simp [hn])] at h
    split at h
    · cases h
    · rename_i o ho
      split at h
      · rename_i hlt
        cases h
        refine ⟨List.ofFn fun k => (o.wave k, o.flux k, o.err k), ?_⟩
        unfold prepWindows at hw
        split at hw
        · rename_i f m z hf hm hz
          split at hw
          · cases hw
          · rename_i obs hobs
            cases hw
            have hj : ∀ j, InFull f z obs j → j.val < o.n := fun j hj =>
              hlt j (List.mem_filter.2 ⟨List.mem_finRange _, decide_eq_true hj⟩)
            refine ⟨f, z, obs, by unfold data1D; rw [ho]; rfl, hf, hz, hobs, by simpa using hj, ?_⟩
            unfold data1D
            have key := ofFn_get_eq (fun k => (o.wave k, o.flux k, o.err k)) _ hlt
            have hwh : (contWindows obs (redshifted f z) (redshifted m z)).2.2 =
                (List.finRange s.spec.c).filter fun j => decide (InFull f z obs j) := by
              show (List.finRange s.spec.c).filter _ = _
              congr 1
              funext j
              exact decide_eq_decide.2 Iff.rfl
            rw [← hwh]
            exact congrArg some key.symm
        · cases hw
      · cases h

theorem trim_gal {s t : PrepAll} (h : trimStep s = (t, none)) : t.gal = s.gal := by
  unfold trimStep at h
  split at h
  · cases h
  · split at h
    · cases h
    · simp only at h
      split at h
      · cases h; rfl
      · cases h; rfl
  · cases h

theorem skyMask_gal {s t : PrepAll} (h : skyMaskStep s = (t, none)) : t.gal = s.gal := by
  unfold skyMaskStep at h
  split at h
  · cases h
  · split at h
    · cases h
    · simp only at h
      have key : ∀ u : PrepAll, u.gal = s.gal → (match u.spec.maskQual with
          | none => (u, some PyErr.attributeError)
          | some q =>
            if u.spec.units ≠ "timesMedianErr" then (u, some .valueError)
            else
              match q.shaped u.spec.r u.spec.c with
              | none => (u, some .valueError)
              | some q =>
                match maskSkylines2D u.spec.err q u.spec.cutoff u.spec.units u.spec.median with
                | .error e => (u, some e)
                | .ok (m, sky, nosky) =>
                  ({ u with spec := { u.spec with
                      maskSky := some ⟨u.spec.r, u.spec.c, m⟩, whSky := sky.map Fin.val, whNosky := nosky.map Fin.val } }, none)) =
            (t, none) → t.gal = s.gal := by
        intro u hu h
        split at h
        · cases h
        · split at h
          · cases h
          · split at h
            · cases h
            · split at h
              · cases h
              · cases h; exact hu
      refine key _ ?_ h
      split <;> rfl

theorem lowSnr_gal {s t : PrepAll} (h : lowSnrStep s = (t, none)) : t.gal = s.gal := by
  unfold lowSnrStep at h
  split at h
  · split at h
    · cases h; rfl
    · cases h
  · cases h

theorem data1D_trimProfile (g : PrepGal) (l h : Int) (a b : Obs2D) : data1D ⟨a, trimProfile g l h⟩ = data1D ⟨b, g⟩ := by
  unfold data1D trimProfile
  cases g.spec1D <;> rfl

theorem data1D_congr {s t : PrepAll} (h : t.gal = s.gal) : data1D t = data1D s := by
  unfold data1D
  rw [h]

/-- The steps after the continuum subtraction keep the 1D data and the redshift. -/
theorem data1D_tail {O : PrepOracle} {s t : PrepAll} (h : runSteps [trimStep, skyMaskStep, lowSnrStep, spatialStep O.vert O.median,
    weightsStep O.optimal, angleStep, centreStep O.centre] s = (t, none)) : data1D t = data1D s ∧ t.gal.z = s.gal.z := by
  simp only [runSteps_cons_ok, runSteps_nil_ok] at h
  obtain ⟨v1, h1, v2, h2, v3, h3, v4, h4, v5, h5, v6, h6, v7, h7, rfl⟩ := h
  have e : v3.gal = s.gal := (lowSnr_gal h3).trans ((skyMask_gal h2).trans (trim_gal h1))
  obtain ⟨sky', v, y', -, -, -, low, m0, sf, ps, ml, -, rfl⟩ := spatialStep_ok h4
  obtain ⟨p, rfl, -⟩ := weightsStep_ok h5
  obtain ⟨a, b, rfl⟩ := angleStep_ok h6
  obtain ⟨a', b', rfl⟩ := centreStep_ok h7
  exact ⟨(data1D_trimProfile _ _ _ v3.spec v3.spec).trans (data1D_congr e), by rw [← e]; rfl⟩

open Classical in
/-- The 1D spectrum after a successful run of all steps -/
theorem data1D_steps {O : PrepOracle} {s t : PrepAll} (h : runSteps (prepSteps O) s = (t, none)) :
    t.gal.z = s.gal.z ∧ (s.spec.noCont = true → data1D t = data1D s) ∧
    (s.spec.noCont = false → ∃ l names f z obs, data1D s = some l ∧ NamesFor s.spec.group s.spec.lines.names names ∧
      RangeFor names s.spec.fullRange fullRange2D f ∧ s.gal.z = some z ∧ s.spec.obswave = some obs ∧
      (∀ j, InFull f z obs j → j.val < l.length) ∧
      data1D t = some (((List.finRange s.spec.c).filter fun j => decide (InFull f z obs j)).filterMap fun j => l[j.val]?)) := by
  unfold prepSteps at h
  rw [runSteps_append_ok] at h
  obtain ⟨u2, h, hC⟩ := h
  rw [runSteps_append_ok] at h
  obtain ⟨u, hA, h⟩ := h
  obtain ⟨e1, e2⟩ := data1D_tail hC
  obtain ⟨-, L, cu, un, la, -, hnm, rfl⟩ := headSteps_ok hA
  simp only [continuumSteps, runSteps_cons_ok, runSteps_nil_ok] at h
  obtain ⟨u1, h1, u2, h2, u3, h3, u4, h4, u5, h5, u6, h6, u7, h7, u8, h8, rfl⟩ := h
  obtain ⟨m2, rfl, -⟩ := missing2DStep_ok rfl rfl h1
  rcases missing1DStep_ok h2 with ⟨hn, rfl⟩ | ⟨hn, o, m1, ho, hm1, rfl⟩
  · rcases from1DStep_ok (h := h3) rfl with ⟨-, rfl⟩ | ⟨hn', -⟩
    swap
    · exact Bool.noConfusion (hn.symm.trans hn')
    have hu4 := fillStep_ok (h := h4) rfl
    subst hu4
    obtain ⟨f, l, mr, hrf, hrl, rfl⟩ := rangesStep_ok h5
    cases h6
    rcases contStep_ok (h := h7) rfl with ⟨-, rfl⟩ | ⟨hn', -⟩
    swap
    · exact Bool.noConfusion (hn.symm.trans hn')
    have hd : u8.gal = s.gal := by
      unfold fullRangeStep at h8
      split at h8
      · cases h8
      · simp only at h8
        rw [if_pos hn] at h8
        cases h8
        rfl
    exact ⟨e2.trans (congrArg PrepGal.z hd), fun _ => e1.trans (data1D_congr hd), fun hn' => Bool.noConfusion (hn.symm.trans hn')⟩
  · have d2 := data1D_missing1D h2
    rcases from1DStep_ok (h := h3) rfl with ⟨hn', -⟩ | ⟨-, o', m1', hit, ho', hm1', hhit, rfl⟩
    · exact Bool.noConfusion (hn.symm.trans hn')
    have hu4 := fillStep_ok (h := h4) rfl
    subst hu4
    obtain ⟨f, l, mr, hrf, hrl, rfl⟩ := rangesStep_ok h5
    cases h6
    have d7 := data1D_cont h7
    rcases contStep_ok (h := h7) rfl with ⟨hn', -⟩ | ⟨-, C, sp1', hC, rfl⟩
    · exact Bool.noConfusion (hn.symm.trans hn')
    obtain ⟨l, f', z, obs, hl, hf', hz, hobs, hlt, hd⟩ := data1D_fullRange (h := h8) (by exact hn)
    obtain ⟨_, _, _, _, _, -, -, -, -, hu8⟩ := fullRangeStep_ok h8
    have hz8 : u8.gal.z = s.gal.z := by rw [hu8]
    cases hf'
    exact ⟨e2.trans hz8, fun hn' => Bool.noConfusion (hn.symm.trans hn'),
      fun _ => ⟨l, L.names, f, z, obs, (d2.symm.trans (d7.symm.trans hl)), hnm, hrf, hz, hobs, hlt, e1.trans hd⟩⟩

/-- **C130** (partial): a preparation without continuum subtraction keeps the pixels of the 1D spectrum.  Missing: continuum
subtraction (`C130_false`). -/
theorem C130_no_continuum_partial (O : PrepOracle) (s t : PrepAll) (hn : s.spec.noCont = true) (h : prepare O s = (t, none)) :
    data1D t = data1D s := by
  cases h0 : s.spec.prepared with
  | true =>
    unfold prepare at h
    rw [if_pos h0] at h
    cases h
    rfl
  | false =>
    obtain ⟨u, hu, rfl⟩ := prepare_ok h0 h
    exact (data1D_steps hu).2.1 hn

open Classical in
/-- **C130**: a preparation with continuum subtraction leaves of the 1D spectrum the pixels whose index is that of a column of the 2D
spectrum inside the full wavelength range; all these pixels exist. -/
theorem C130_pixels_left (O : PrepOracle) (s t : PrepAll) (h0 : s.spec.prepared = false) (hn : s.spec.noCont = false)
    (h : prepare O s = (t, none)) :
    ∃ l names f z obs, data1D s = some l ∧ NamesFor s.spec.group s.spec.lines.names names ∧
      RangeFor names s.spec.fullRange fullRange2D f ∧ s.gal.z = some z ∧ s.spec.obswave = some obs ∧
      (∀ j, InFull f z obs j → j.val < l.length) ∧
      data1D t = some (((List.finRange s.spec.c).filter fun j => decide (InFull f z obs j)).filterMap fun j => l[j.val]?) := by
  obtain ⟨u, hu, rfl⟩ := prepare_ok h0 h
  exact (data1D_steps hu).2.2 hn

open Classical in
/-- If a column out of range precedes one in range, the columns in range are fewer than the pixels needed for them. -/
theorem inFull_count {c : Nat} {f : ℝ × ℝ} {z : ℝ} {obs : Fin c → ℝ} {n : Nat} (h : ∀ j, InFull f z obs j → j.val < n) (j0 j1 : Fin c)
    (hlt : j0 < j1) (h0 : ¬ InFull f z obs j0) (h1 : InFull f z obs j1) :
    ((List.finRange c).filter fun j => decide (InFull f z obs j)).length < n := by
  have hmap : (((List.finRange c).filter fun j => decide (InFull f z obs j)).map Fin.val) ⊆ (List.range n).erase j0.val := by
    intro k hk
    obtain ⟨j, hj, rfl⟩ := List.mem_map.1 hk
    have hj := of_decide_eq_true (List.mem_filter.1 hj).2
    rw [List.Nodup.mem_erase_iff List.nodup_range]
    refine ⟨fun he => ?_, List.mem_range.2 (h j hj)⟩
    rw [Fin.ext he] at hj
    exact h0 hj
  have hnd : (((List.finRange c).filter fun j => decide (InFull f z obs j)).map Fin.val).Nodup :=
    ((List.nodup_finRange c).filter _).map Fin.val_injective
  have hle := (hnd.subperm hmap).length_le
  rw [List.length_map, List.length_erase_of_mem (List.mem_range.2 (lt_trans hlt (h j1 h1))), List.length_range] at hle
  have := h j1 h1
  omega

theorem filterMap_get_length {α : Type} {c : Nat} (l : List α) (wh : List (Fin c)) (h : ∀ j ∈ wh, j.val < l.length) :
    (wh.filterMap fun j => l[j.val]?).length = wh.length := by
  induction wh with
  | nil => rfl
  | cons j wh ih =>
    rw [List.filterMap_cons_some (f := fun j : Fin c => l[j.val]?) (List.getElem?_eq_getElem (h j List.mem_cons_self)),
      List.length_cons, List.length_cons, ih fun k hk => h k (List.mem_cons_of_mem _ hk)]

/-- C130 is false: if a column outside the full wavelength range precedes one inside, the pixels of the 1D spectrum are changed, and
a second copy of the same 2D spectrum (of a second slit, say) cannot be prepared with this galaxy any more. -/
theorem C130_false (O : PrepOracle) (s t : PrepAll) (f : ℝ × ℝ) (z : ℝ) (obs : Fin s.spec.c → ℝ) (j0 j1 : Fin s.spec.c)
    (h0 : s.spec.prepared = false) (hn : s.spec.noCont = false) (hf : s.spec.fullRange = some f) (hz : s.gal.z = some z)
    (hobs : s.spec.obswave = some obs) (hlt : j0 < j1) (hj0 : ¬ InFull f z obs j0) (hj1 : InFull f z obs j1)
    (h : prepare O s = (t, none)) :
    data1D t ≠ data1D s ∧ ∀ O', (prepare O' ⟨s.spec, t.gal⟩).2 ≠ none := by
  classical
  have key : ∀ (O : PrepOracle) (g : PrepGal) (u : PrepAll), g.z = some z → prepare O ⟨s.spec, g⟩ = (u, none) →
      u.gal.z = some z ∧ ∃ l l', data1D ⟨s.spec, g⟩ = some l ∧ data1D u = some l' ∧
        l'.length = ((List.finRange s.spec.c).filter fun j => decide (InFull f z obs j)).length ∧ l'.length < l.length := by
    intro O g u hg hu
    obtain ⟨v, hv, rfl⟩ := prepare_ok (s := ⟨s.spec, g⟩) h0 hu
    obtain ⟨e, -, hc⟩ := data1D_steps hv
    obtain ⟨l, names, f', z', obs', hl, -, hr, hz', hobs', hin, hd⟩ := hc hn
    have hf' : f = f' := by
      rcases hr with h | ⟨h, -⟩
      · exact Option.some.inj (hf.symm.trans h)
      · rw [show s.spec.fullRange = _ from hf] at h
        cases h
    subst hf'
    have hzz : z = z' := Option.some.inj (hg.symm.trans hz')
    subst hzz
    have hoo : obs = obs' := Option.some.inj (hobs.symm.trans hobs')
    subst hoo
    have hlen := filterMap_get_length l ((List.finRange s.spec.c).filter fun j => decide (InFull f z obs j))
      (fun j hj => hin j (of_decide_eq_true (List.mem_filter.1 hj).2))
    exact ⟨e.trans hg, l, _, hl, hd, hlen, by rw [hlen]; exact inFull_count hin j0 j1 hlt hj0 hj1⟩
  obtain ⟨hzt, l, l', hl, hl', hlen, hless⟩ := key O s.gal t hz h
  constructor
  · intro he
    have hl : data1D s = some l := hl
    rw [he, hl] at hl'
    have := Option.some.inj hl'
    subst this
    exact lt_irrefl _ hless
  · intro O' hnone
    obtain ⟨-, k, k', hk, -, hlen', hless'⟩ := key O' t.gal (prepare O' ⟨s.spec, t.gal⟩).1 hzt (Prod.ext rfl hnone)
    have hk : data1D t = some k := hk
    rw [hl'] at hk
    have := Option.some.inj hk
    subst this
    rw [hlen, hlen'] at hless'
    exact lt_irrefl _ hless'

/-- The spectrum with a sky line before continuum subtraction; the first column is outside the full range. -/
noncomputable def contAll : PrepAll :=
  ⟨{ skyObs with noCont := false, fullRange := some (1, 10), maskRange := some (2, 3) },
    { skyGal with spec1D := some ⟨5, fun k => (k.val : ℝ), fun _ => .fin 1, fun _ => .fin 1, none, none⟩ }⟩

/-- The spectrum can be prepared if the straight-line fits return finite numbers. -/
theorem contAll_preparable (O : PrepOracle) (hO : O.cont.Finite) : PreparableCore O contAll where
  fresh := ⟨rfl, rfl⟩
  finite := fun m hm => by cases hm
  rows := le_refl 15
  columns := ⟨"HA", [], 2, [], [1], (1, 10), (0, 10), (2, 3), 0, rfl, Or.inl rfl, Or.inl rfl, Or.inl rfl, rfl, rfl,
    ⟨(1 : Fin 5), by
      show (_ ∧ _) ∧ _ ∧ _
      show ((1 : ℝ) * (1 + 0) ≤ ((1 : Fin 5).val : ℝ) ∧ ((1 : Fin 5).val : ℝ) ≤ 10 * (1 + 0)) ∧
        (0 : ℝ) * (1 + 0) ≤ ((1 : Fin 5).val : ℝ) ∧ ((1 : Fin 5).val : ℝ) ≤ 10 * (1 + 0)
      norm_num⟩,
    Or.inr ⟨rfl, hO, ⟨_, rfl, rfl⟩, (1 : Fin 5), by
      show (1 : ℝ) * (1 + 0) ≤ ((1 : Fin 5).val : ℝ) ∧ ((1 : Fin 5).val : ℝ) < 2 * (1 + 0)
      norm_num⟩, Or.inl rfl⟩
  sky := Or.inl ⟨_, rfl, rfl⟩
  ypos := ⟨_, rfl⟩
  weighting := Or.inl rfl

/-- The hypotheses of `C130_false` (and of `C128_prepares` with continuum subtraction) are met by this spectrum. -/
example (O : PrepOracle) (hO : O.cont.Finite) :
    ∃ t, prepare O contAll = (t, none) ∧ data1D t ≠ data1D contAll ∧ ∀ O', (prepare O' ⟨contAll.spec, t.gal⟩).2 ≠ none := by
  obtain ⟨t, ht, -⟩ := C128_prepares O contAll (contAll_preparable O hO) (Or.inl ⟨_, rfl⟩)
  refine ⟨t, ht, C130_false O contAll t (1, 10) 0 _ (0 : Fin 5) (1 : Fin 5) rfl rfl rfl rfl rfl (by decide) ?_ ?_ ht⟩
  · show ¬ ((1 : ℝ) * (1 + 0) ≤ ((0 : Fin 5).val : ℝ) ∧ ((0 : Fin 5).val : ℝ) ≤ 10 * (1 + 0))
    norm_num
  · show (1 : ℝ) * (1 + 0) ≤ ((1 : Fin 5).val : ℝ) ∧ ((1 : Fin 5).val : ℝ) ≤ 10 * (1 + 0)
    norm_num

/-- There are fits that return finite numbers. -/
example : ∃ O : ContFit, O.Finite :=
  ⟨⟨fun _ => (0, 0), fun _ => 0, fun _ _ _ => 0⟩, fun _ _ => ⟨rfl, rfl, rfl, fun _ _ _ _ => rfl⟩⟩

theorem range_filterMap_get {α : Type} (l : List α) (n : Nat) : (List.range n).filterMap (fun i => l[i]?) = l.take n := by
  induction n with
  | zero => simp
  | succ n ih =>
    rw [List.range_succ, List.filterMap_append, ih, List.take_add_one]
    cases h : l[n]? <;> simp [h]

theorem finRange_filterMap_get {α : Type} (l : List α) (c : Nat) :
    (List.finRange c).filterMap (fun j => l[j.val]?) = l.take c := by
  rw [← range_filterMap_get, ← List.map_coe_finRange_eq_range, List.filterMap_map]
  rfl

open Classical in
/-- **C130**, exact condition: preparing a 2D spectrum leaves the pixels of the 1D spectrum alone exactly if the continuum is not
subtracted or every pixel of the 1D spectrum belongs to a column in the full wavelength range. -/
theorem C130_exact (O : PrepOracle) (s t : PrepAll) (h0 : s.spec.prepared = false) (h : prepare O s = (t, none)) :
    data1D t = data1D s ↔ s.spec.noCont = true ∨ ∃ l names f z obs, data1D s = some l ∧
      NamesFor s.spec.group s.spec.lines.names names ∧ RangeFor names s.spec.fullRange fullRange2D f ∧ s.gal.z = some z ∧
      s.spec.obswave = some obs ∧ ∀ i < l.length, ∃ j : Fin s.spec.c, j.val = i ∧ InFull f z obs j := by
  by_cases hn : s.spec.noCont = true
  · exact ⟨fun _ => Or.inl hn, fun _ => C130_no_continuum_partial O s t hn h⟩
  · have hn' : s.spec.noCont = false := by simpa using hn
    obtain ⟨l, names, f, z, obs, hl, hna, hr, hz, ho, hin, hd⟩ := C130_pixels_left O s t h0 hn' h
    have hlen := filterMap_get_length l ((List.finRange s.spec.c).filter fun j => decide (InFull f z obs j))
      (fun j hj => hin j (of_decide_eq_true (List.mem_filter.1 hj).2))
    constructor
    · intro he
      refine Or.inr ⟨l, names, f, z, obs, hl, hna, hr, hz, ho, fun i hi => ?_⟩
      by_contra hno
      push Not at hno
      have hmap : (((List.finRange s.spec.c).filter fun j => decide (InFull f z obs j)).map Fin.val) ⊆
          (List.range l.length).erase i := by
        intro k hk
        obtain ⟨j, hj, rfl⟩ := List.mem_map.1 hk
        have hj := of_decide_eq_true (List.mem_filter.1 hj).2
        rw [List.Nodup.mem_erase_iff List.nodup_range]
        exact ⟨fun hji => hno j hji hj, List.mem_range.2 (hin j hj)⟩
      have hnd : (((List.finRange s.spec.c).filter fun j => decide (InFull f z obs j)).map Fin.val).Nodup :=
        ((List.nodup_finRange _).filter _).map Fin.val_injective
      have hle := (hnd.subperm hmap).length_le
      rw [List.length_map, List.length_erase_of_mem (List.mem_range.2 hi), List.length_range] at hle
      rw [hd, hl] at he
      have := congrArg List.length (Option.some.inj he)
      omega
    · rintro (hh | ⟨l', names', f', z', obs', hl', hna', hr', hz', ho', hall⟩)
      · exact absurd hh hn
      · have e1 : l' = l := Option.some.inj (hl'.symm.trans hl)
        have e2 : z' = z := Option.some.inj (hz'.symm.trans hz)
        have e3 : obs' = obs := Option.some.inj (ho'.symm.trans ho)
        have e4 : names' = names := by
          obtain ⟨ns, rfl, h1⟩ := hna
          obtain ⟨ns', rfl, h2⟩ := hna'
          rcases h1 with h1 | ⟨h1, h1'⟩ <;> rcases h2 with h2 | ⟨h2, h2'⟩
          · rw [← h1, ← h2]
          · rw [h1] at h2; cases h2
          · rw [h1] at h2; cases h2
          · rw [h1'] at h2'; cases h2'; rfl
        subst e1 e2 e3 e4
        have e5 : f' = f := by
          rcases hr with h1 | ⟨h1, a, as, q, h1a, h1b, h1c⟩ <;> rcases hr' with h2 | ⟨h2, b, bs, q', h2a, h2b, h2c⟩
          · exact Option.some.inj (h2.symm.trans h1)
          · rw [h1] at h2; cases h2
          · rw [h1] at h2; cases h2
          · rw [h1a] at h2a
            cases h2a
            rw [h1b] at h2b
            cases h2b
            rw [h1c, h2c]
        subst e5
        have hc : l'.length ≤ s.spec.c := by
          by_contra hlt
          obtain ⟨j, hj, -⟩ := hall s.spec.c (by omega)
          have := j.isLt
          omega
        rw [hd, hl, List.filterMap_filter]
        congr 1
        refine Eq.trans ?_ ((finRange_filterMap_get l' s.spec.c).trans (List.take_of_length_le hc))
        refine List.filterMap_congr fun j _ => ?_
        by_cases hj : InFull f' z' obs' j
        · rw [if_pos (decide_eq_true hj)]
        · rw [if_neg (by simpa using hj), eq_comm, List.getElem?_eq_none_iff]
          by_contra hlt
          obtain ⟨j', hj', hin'⟩ := hall j.val (by omega)
          exact hj (Fin.ext hj' ▸ hin')

end Misfit
