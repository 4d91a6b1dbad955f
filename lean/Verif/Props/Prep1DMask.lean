import Verif.Props.Prepare1D

/-!
# C174: the mask of the 1D spectrum after the preparation of a 2D spectrum
-/

namespace Misfit

/-- A mask without the pixels whose noise reaches the cutoff -/
noncomputable def skyCut {n : Nat} (cut md : Fl ℝ) (err m : Fin n → Fl ℝ) : Fin n → Fl ℝ :=
  fun k => if Fl.leB (cut * md) (Fl.sqrt (Fl.sq (err k * m k))) = true then 0 else m k

/-- The 1D spectrum after the continuum fits -/
theorem cont_spec1D {O : ContFit} {s t : PrepAll} (hn : s.spec.noCont = false) (h : contStep O s = (t, none)) :
    ∃ o m1 cut md, s.gal.spec1D = some o ∧ o.mask = some m1 ∧ s.spec.cutoff = some cut ∧ s.spec.median = some md ∧
      t.spec.cutoff = some cut ∧ t.spec.median = some md ∧
      t.gal.spec1D = some { o with mask := some (skyCut cut md o.err m1) } := by
  unfold contStep at h
  rw [if_neg (by simp [hn])] at h
  split at h
  · cases h
  · rename_i w o incl cm m obs hw ho hi hcm hm hobs
    split at h
    · cases h
    · rename_i m1 hm1
      split at h
      · cases h
      · rename_i hbad
        exfalso
        unfold slope1D at hbad
        split at hbad <;> simp at hbad
      · rename_i tmp res hres
        unfold slope1D at hres
        split at hres
        · cases hres
        · rename_i nosky sky hsky
          unfold whSkylines1D at hsky
          split at hsky
          · cases hsky
          · cases hsky
          · rename_i md cut hmd hcut
            have htmp := (Prod.mk.inj hres).1
            cases hsky
            have he : tmp = skyCut cut md o.err m1 := by
              rw [← Option.some.inj htmp]
              funext k
              refine if_congr ?_ rfl rfl
              rw [List.mem_filter]
              exact ⟨fun h => h.2, fun h => ⟨List.mem_finRange _, h⟩⟩
            rw [he] at h
            simp only at h
            split at h
            · cases h
            · split at h
              · cases h
                exact ⟨o, m1, cut, md, ho, hm1, hcut, hmd, hcut, hmd, rfl⟩
              · cases h
  · cases h

theorem fullRange_spec1D {s t : PrepAll} {o : Obs1D} (hn : s.spec.noCont = false) (ho : s.gal.spec1D = some o)
    (h : fullRangeStep s = (t, none)) :
    ∃ (wh : List (Fin s.spec.c)) (hlt : ∀ j ∈ wh, j.val < o.n), (∃ f m z obs, s.spec.fullRange = some f ∧ s.spec.maskRange = some m ∧ s.gal.z = some z ∧
      s.spec.obswave = some obs ∧ wh = (contWindows obs (redshifted f z) (redshifted m z)).2.2) ∧
      t.gal.spec1D = some (o.cols wh hlt) ∧ t.spec.cutoff = s.spec.cutoff ∧ t.spec.median = s.spec.median := by
  unfold fullRangeStep at h
  split at h
  · cases h
  · rename_i w hw
    simp only at h
    rw [if_neg (by simp [hn]), ho] at h
    simp only at h
    split at h
    · rename_i hlt
      cases h
      refine ⟨w.2.2, hlt, ?_, rfl, rfl, rfl⟩
      unfold prepWindows at hw
      split at hw
      · rename_i f m z hf hm hz
        split at hw
        · cases hw
        · rename_i obs hobs
          cases hw
          exact ⟨f, m, z, obs, hf, hm, hz, hobs, rfl⟩
      · cases hw
    · cases h

theorem maskEdges_value {n : Nat} (m : Fin n → Fl ℝ) (e : Nat) (j : Fin n) : maskEdges1D m e j = 0 ∨ maskEdges1D m e j = m j := by
  have hz : ∀ (m : Fin n → Fl ℝ) (a b : Int), zeroSlice m a b j = 0 ∨ zeroSlice m a b j = m j := by
    intro m a b
    unfold zeroSlice
    split_ifs
    · exact Or.inl rfl
    · exact Or.inr rfl
  unfold maskEdges1D
  simp only
  rcases (List.filter (fun j => Fl.eqB (m j) 1) (List.finRange n)).head? with _ | l
  · exact Or.inr rfl
  rcases (List.filter (fun j => Fl.eqB (m j) 1) (List.finRange n)).getLast? with _ | rr
  · exact Or.inr rfl
  simp only
  have h1 : (if 0 < l.val then zeroSlice m l.val (l.val + e) else m) j = 0 ∨
      (if 0 < l.val then zeroSlice m l.val (l.val + e) else m) j = m j := by
    split_ifs
    · exact hz _ _ _
    · exact Or.inr rfl
  split_ifs with hr hl
  · rcases hz (if 0 < l.val then zeroSlice m l.val (l.val + e) else m) ((rr.val : Int) - e - 1) (rr.val + 1) with h | h
    · rw [if_pos hl] at h
      exact Or.inl h
    · rw [if_pos hl] at h h1
      rw [h]
      exact h1
  · exact hz _ _ _
  · exact hz _ _ _
  · exact Or.inr rfl

theorem missing1D_value {n : Nat} {f e : Fin n → Fl ℝ} {m : Option (Fin n → Fl ℝ)} {m1 : Fin n → Fl ℝ} {b : Bool}
    (h : specMaskMissing1D f e none m b = .ok m1) (j : Fin n) : m1 j = 0 ∨ m1 j = (m.getD fun _ => 1) j := by
  unfold specMaskMissing1D at h
  split at h
  · cases h
  · rename_i mx hmx
    have h := (congrFun (Except.ok.inj h) j).symm
    rw [h]
    clear h
    by_cases h1 : (e j).isFinite = true
    swap
    · exact Or.inl (if_neg h1)
    by_cases h2 : (f j).isFinite = true
    swap
    · exact Or.inl ((if_pos h1).trans (if_neg h2))
    simp only
    rw [if_pos h1, if_pos h2]
    by_cases h3 : (!b && Fl.ltB 0 mx) = true
    · rw [if_pos h3]
      by_cases h4 : Fl.eqB (e j) 0 = true
      · exact Or.inl (if_pos h4)
      · right
        rw [if_neg h4]
        cases m <;> rfl
    · rw [if_neg h3]
      right
      cases m <;> rfl

/-! ## C174 -/

open Classical in
/-- Specification: the mask value of pixel `k` of the 1D spectrum: that of the user (1 without a mask), but zero for the columns the
1D spectrum excludes and for the pixels whose noise reaches the sky level. -/
noncomputable def pixelMask (s : PrepAll) (o : Obs1D) (cut md : Fl ℝ) (j : Fin s.spec.c) (k : Fin o.n) : Fl ℝ :=
  if GoodColumn s j ∧ ¬ Fl.leB (cut * md) (Fl.abs (o.err k * (o.mask.getD fun _ => 1) k)) = true then (o.mask.getD fun _ => 1) k else 0

theorem sqrt_sq_abs (x : Fl ℝ) : Fl.sqrt (Fl.sq x) = Fl.abs x := by
  cases x with
  | fin x =>
    show (if x * x < 0 then Fl.nan else .fin (Real.sqrt (x * x))) = .fin (if x < 0 then -x else x)
    rw [if_neg (not_lt.2 (mul_self_nonneg x)), Real.sqrt_mul_self_eq_abs]
    split_ifs with h
    · rw [abs_of_neg h]
    · rw [abs_of_nonneg (not_lt.1 h)]
  | nan => rfl
  | pinf => rfl
  | ninf => rfl

theorem trim_sky {s t : PrepAll} (h : trimStep s = (t, none)) : t.spec.cutoff = s.spec.cutoff ∧ t.spec.median = s.spec.median := by
  unfold trimStep at h
  split at h
  · cases h
  · split at h
    · cases h
    · simp only at h
      split at h
      · cases h; exact ⟨rfl, rfl⟩
      · cases h; exact ⟨rfl, rfl⟩
  · cases h

theorem skyMask_sky {s t : PrepAll} (h : skyMaskStep s = (t, none)) : t.spec.cutoff = s.spec.cutoff ∧ t.spec.median = s.spec.median := by
  unfold skyMaskStep at h
  split at h
  · cases h
  · split at h
    · cases h
    · simp only at h
      have key : ∀ u : PrepAll, u.spec.cutoff = s.spec.cutoff ∧ u.spec.median = s.spec.median → (match u.spec.maskQual with
          | none => (u, some PyErr.attributeError)
          | some q =>
            if u.spec.units ≠ "timesMedianErr" then (u, some .valueError)
            else
              match q.shaped u.spec.r u.spec.c with
              | none => (u, some .valueError)
              | some q =>
                match maskSkylines2D u.spec.err q u.spec.cutoff u.spec.units u.spec.median with
                | .error e => (u, some e)
                | .ok (m, sky, nosky) =>
                  ({ u with spec := { u.spec with
                      maskSky := some ⟨u.spec.r, u.spec.c, m⟩, whSky := sky.map Fin.val, whNosky := nosky.map Fin.val } }, none)) =
            (t, none) → t.spec.cutoff = s.spec.cutoff ∧ t.spec.median = s.spec.median := by
        intro u hu h
        split at h
        · cases h
        · split at h
          · cases h
          · split at h
            · cases h
            · split at h
              · cases h
              · cases h; exact hu
      refine key _ ?_ h
      split <;> exact ⟨rfl, rfl⟩

theorem lowSnr_sky {s t : PrepAll} (h : lowSnrStep s = (t, none)) : t.spec.cutoff = s.spec.cutoff ∧ t.spec.median = s.spec.median := by
  unfold lowSnrStep at h
  split at h
  · split at h
    · cases h; exact ⟨rfl, rfl⟩
    · cases h
  · cases h

/-- The steps after the continuum subtraction keep the sky level and all of the 1D spectrum but its extraction profile. -/
theorem tail_1D {O : PrepOracle} {s t : PrepAll} (h : runSteps [trimStep, skyMaskStep, lowSnrStep, spatialStep O.vert O.median,
    weightsStep O.optimal, angleStep, centreStep O.centre] s = (t, none)) :
    t.spec.cutoff = s.spec.cutoff ∧ t.spec.median = s.spec.median ∧
    ∃ p : Obs1D → Option (List ℝ), t.gal.spec1D = s.gal.spec1D.map fun o => { o with profile := p o } := by
  simp only [runSteps_cons_ok, runSteps_nil_ok] at h
  obtain ⟨v1, h1, v2, h2, v3, h3, v4, h4, v5, h5, v6, h6, v7, h7, rfl⟩ := h
  have e : v3.gal = s.gal := (lowSnr_gal h3).trans ((skyMask_gal h2).trans (trim_gal h1))
  have k := lowSnr_sky h3
  have k2 := skyMask_sky h2
  have k1 := trim_sky h1
  obtain ⟨sky', v, y', -, -, -, low, m0, sf, ps, ml, -, rfl⟩ := spatialStep_ok h4
  obtain ⟨p, rfl, -⟩ := weightsStep_ok h5
  obtain ⟨a, b, rfl⟩ := angleStep_ok h6
  obtain ⟨a', b', rfl⟩ := centreStep_ok h7
  refine ⟨k.1.trans (k2.1.trans k1.1), k.2.trans (k2.2.trans k1.2), fun o => o.profile.map fun p =>
    pySlice p (trimRows v3.gal.dither v3.spec.r v.mMin v.mMax).1 (trimRows v3.gal.dither v3.spec.r v.mMin v.mMax).2, ?_⟩
  rw [← e]
  rfl

theorem pixelMask_eq {s : PrepAll} {o : Obs1D} {m1 : Fin o.n → Fl ℝ} (hn : s.spec.noCont = false) (ho : s.gal.spec1D = some o)
    (hm1 : specMaskMissing1D o.flux o.err none o.mask false = .ok m1) (cut md : Fl ℝ) (j : Fin s.spec.c) (k : Fin o.n)
    (hk : k.val = j.val) : skyCut cut md o.err (maskEdges1D m1 10) k = pixelMask s o cut md j k := by
  have hgood : GoodColumn s j ↔ maskEdges1D m1 10 k ≠ 0 := by
    have hkj : ∀ h : j.val < o.n, (⟨j.val, h⟩ : Fin o.n) = k := fun h => Fin.ext hk.symm
    constructor
    · rintro (hn' | ⟨o2, m2', ho2, hm2', hg⟩)
      · exact Bool.noConfusion (hn.symm.trans hn')
      · have e1 : o2 = o := Option.some.inj (ho2.symm.trans ho)
        subst e1
        have e2 : m2' = m1 := Except.ok.inj (hm2'.symm.trans hm1)
        subst e2
        have := hg (hk ▸ k.isLt)
        rwa [hkj] at this
    · exact fun hg => Or.inr ⟨o, m1, ho, hm1, fun h => by rw [hkj]; exact hg⟩
  unfold skyCut pixelMask
  rw [sqrt_sq_abs]
  by_cases hz : maskEdges1D m1 10 k = 0
  · rw [if_neg (c := GoodColumn s j ∧ _) (fun h => hgood.1 h.1 hz), hz]
    split_ifs <;> rfl
  · have hv : maskEdges1D m1 10 k = (o.mask.getD fun _ => 1) k := by
      rcases maskEdges_value m1 10 k with h | h
      · exact absurd h hz
      · rcases missing1D_value hm1 k with h' | h'
        · exact absurd (h.trans h') hz
        · exact h.trans h'
    have hg := hgood.2 hz
    rw [hv]
    by_cases hs : Fl.leB (cut * md) (Fl.abs (o.err k * (o.mask.getD fun _ => 1) k)) = true
    · rw [if_pos hs, if_neg (fun h => h.2 hs)]
    · rw [if_neg hs, if_pos ⟨hg, hs⟩]

/-- **C174**: after a preparation with continuum subtraction the mask of the 1D spectrum belongs to the pixels that are left: pixel by
pixel it is the mask before, with zeros for missing and noisy pixels and for the edges. -/
theorem C174_mask (O : PrepOracle) (s t : PrepAll) (h0 : s.spec.prepared = false) (hn : s.spec.noCont = false)
    (h : prepare O s = (t, none)) :
    ∃ (o o' : Obs1D) (m' : Fin o'.n → Fl ℝ) (cut md : Fl ℝ) (pix : Fin o'.n → Fin o.n) (col : Fin o'.n → Fin s.spec.c),
      s.gal.spec1D = some o ∧ t.gal.spec1D = some o' ∧ o'.mask = some m' ∧ t.spec.cutoff = some cut ∧ t.spec.median = some md ∧
      (∀ k, (pix k).val = (col k).val) ∧ StrictMono col ∧
      (∀ k, o'.wave k = o.wave (pix k) ∧ o'.flux k = o.flux (pix k) ∧ o'.err k = o.err (pix k)) ∧
      ∀ k, m' k = pixelMask s o cut md (col k) (pix k) := by
  obtain ⟨u, hu, rfl⟩ := prepare_ok h0 h
  clear h
  unfold prepSteps at hu
  rw [runSteps_append_ok] at hu
  obtain ⟨u2, hu, hC⟩ := hu
  rw [runSteps_append_ok] at hu
  obtain ⟨u1, hA, h⟩ := hu
  obtain ⟨k1, k2, p, k3⟩ := tail_1D hC
  obtain ⟨-, L, cu, un, la, -, -, rfl⟩ := headSteps_ok hA
  simp only [continuumSteps, runSteps_cons_ok, runSteps_nil_ok] at h
  obtain ⟨u1, h1, u2, h2, u3, h3, u4, h4, u5, h5, u6, h6, u7, h7, u8, h8, rfl⟩ := h
  obtain ⟨m2, rfl, -⟩ := missing2DStep_ok rfl rfl h1
  rcases missing1DStep_ok h2 with ⟨hn', -⟩ | ⟨-, o, m1, ho, hm1, rfl⟩
  · exact Bool.noConfusion (hn.symm.trans hn')
  rcases from1DStep_ok (h := h3) rfl with ⟨hn', -⟩ | ⟨-, o', m1', hit, ho', hm1', hhit, rfl⟩
  · exact Bool.noConfusion (hn.symm.trans hn')
  cases ho'
  cases hm1'
  have hu4 := fillStep_ok (h := h4) rfl
  subst hu4
  obtain ⟨f, l, mr, -, -, rfl⟩ := rangesStep_ok h5
  cases h6
  obtain ⟨o', m1', cut, md, ho', hm1', -, -, hcut, hmd, hsp⟩ := cont_spec1D (h := h7) (by exact hn)
  cases ho'
  cases hm1'
  rcases contStep_ok (h := h7) rfl with ⟨hn', -⟩ | ⟨-, C, sp1', hC, rfl⟩
  · exact Bool.noConfusion (hn.symm.trans hn')
  have hsp : sp1' = _ := hsp
  subst hsp
  obtain ⟨wh, hlt, ⟨f', m', z, obs, -, -, -, -, hwh⟩, hsp8, hcut8, hmd8⟩ := fullRange_spec1D (h := h8)
    (o := { o with mask := some (skyCut cut md o.err (maskEdges1D m1 10)) }) (by exact hn) (by exact rfl)
  rw [hsp8] at k3
  have hstrict : StrictMono fun k => wh.get k := by
    rw [hwh]
    exact get_filter_strictMono _
  refine ⟨o, { Obs1D.cols { o with mask := some (skyCut cut md o.err (maskEdges1D m1 10)) } wh hlt with profile := p _ }, _, cut, md, fun k : Fin wh.length => ⟨(wh.get k).val, hlt _ (List.get_mem wh k)⟩, fun k : Fin wh.length => wh.get k, ho, k3, rfl,
    k1.trans (hcut8.trans hcut), k2.trans (hmd8.trans hmd), fun _ => rfl, hstrict, fun _ => ⟨rfl, rfl, rfl⟩, fun k => ?_⟩
  exact pixelMask_eq hn ho hm1 cut md (wh.get k) _ rfl

/-- The hypotheses of `C174_mask` are met by a spectrum of which one column is cut off. -/
example (O : PrepOracle) (hO : O.cont.Finite) : contAll.spec.prepared = false ∧ contAll.spec.noCont = false ∧
    ∃ t, prepare O contAll = (t, none) := by
  obtain ⟨t, ht, -⟩ := C128_prepares O contAll (contAll_preparable O hO) (Or.inl ⟨_, rfl⟩)
  exact ⟨rfl, rfl, t, ht⟩

end Misfit
