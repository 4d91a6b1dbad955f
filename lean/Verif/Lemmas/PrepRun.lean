import Verif.Lemmas.PrepView
import Verif.Props.Lines
import Verif.Props.VertPos
import Verif.Lemmas.Fit1D

/-!
# When the preparation of a spectrum succeeds
-/

namespace Misfit

/-- The wavelength range in use: the given one, or that of the table for the line `l` -/
def RangeUsed (given : Option (ℝ × ℝ)) (table : List (String × ℚ × ℚ)) (l : String) (x : ℝ × ℝ) : Prop :=
  given = some x ∨ (given = none ∧ ∃ q, readWaveRange table l = .ok q ∧ x = realRange q)

/-- Specification: fits of straight lines to some data return finite numbers. -/
def ContFit.Finite (O : ContFit) : Prop :=
  ∀ d, d.xx ≠ [] → (O.both d).1.isFinite = true ∧ (O.both d).2.isFinite = true ∧ (O.intercept d).isFinite = true ∧
    ∀ a b, a.isFinite = true → b.isFinite = true → (O.row a b d).isFinite = true

/-- The continuum has been subtracted, or it can be: there is a 1D spectrum with the columns of the 2D spectrum, a column to the left of
the lines, and the fits return finite numbers. -/
def ContReady (O : PrepOracle) (s : PrepAll) (full mask : ℝ × ℝ) (z : ℝ) : Prop :=
  s.spec.noCont = true ∨ (s.spec.noCont = false ∧ O.cont.Finite ∧ (∃ o, s.gal.spec1D = some o ∧ o.n = s.spec.c) ∧
    ∃ j, full.1 * (1 + z) ≤ s.spec.wave j ∧ s.spec.wave j < mask.1 * (1 + z))

/-- The lines and ranges in use, and a column inside the ranges.  `obswave` is the wavelength array (galaxy.py 454).  A quality mask from an earlier attempt has the shape of the spectrum,
and then all columns are inside the ranges. -/
def ColumnsKnown (O : PrepOracle) (s : PrepAll) : Prop :=
  ∃ l ls w ws rs full line mask z,
    initializeLineset s.spec.group s.spec.lines = .ok ⟨some (l :: ls), some (w :: ws), some rs⟩ ∧
    RangeUsed s.spec.fullRange fullRange2D l full ∧ RangeUsed s.spec.lineRange lineRange2D l line ∧
    RangeUsed s.spec.maskRange maskRange2D l mask ∧ s.gal.z = some z ∧ s.spec.obswave = some s.spec.wave ∧
    (∃ j, InRanges s full line z s.spec.wave j) ∧ ContReady O s full mask z ∧
    (s.spec.maskQual = none ∨ ∃ q : Img s.spec.r s.spec.c ℝ, s.spec.maskQual = some ⟨_, _, q⟩ ∧
      (∀ i j, (q i j).isFinite = true) ∧ ∀ j, InRanges s full line z s.spec.wave j)

/-- What is needed to prepare a spectrum, the misalignment apart: it has not been prepared, the continuum can be subtracted, there are at least 15 rows and a column inside the wavelength ranges, lines and redshift are known, so is the sky level, the position of the object
in the slit, and a known weighting is chosen.  The object must not be dithered for 'optimal' weights. -/
structure PreparableCore (O : PrepOracle) (s : PrepAll) : Prop where
  fresh : s.spec.prepared = false ∧ s.spec.gone = false
  finite : ∀ m, s.spec.mask = some m → ∀ i j, (m i j).isFinite = true
  rows : 15 ≤ s.spec.r
  columns : ColumnsKnown O s
  sky : (∃ x, s.spec.cutoff = some x ∧ s.spec.units = "timesMedianErr") ∨
    (s.spec.cutoff = none ∧ ∃ v, readRow bandCutoff s.spec.band = .ok (v, "timesMedianErr"))
  ypos : ∃ y, s.spec.ypos = some y
  weighting : s.spec.weighting = "up-edges" ∨ s.spec.weighting = "none" ∨ (s.spec.weighting = "optimal" ∧ s.gal.dither = false)

/-- The misalignment is known or can be computed. -/
def AngleKnown (s : PrepAll) : Prop :=
  (∃ a, s.gal.deltPA = some a) ∨
    (s.gal.generateModel = false ∧ ∃ a b c, s.gal.imgPA = some (some a) ∧ s.spec.slitPA = some b ∧ s.gal.sersicPA = some c)

theorem lineSteps_run {s : PrepAll} {ns : List String} {ws rs : List ℚ}
    (h : initializeLineset s.spec.group s.spec.lines = .ok ⟨some ns, some ws, some rs⟩) :
    runSteps [lineNamesStep, lineWavesStep, lineRatiosStep] s =
      ({ s with spec := { s.spec with lines := ⟨some ns, some ws, some rs⟩ } }, none) := by
  obtain ⟨ns', ws', rs', he, h1, h2, h3⟩ := initializeLineset_ok h
  cases he
  have e1 : lineNamesStep s = ({ s with spec := { s.spec with lines := { s.spec.lines with names := some ns } } }, none) := by
    unfold lineNamesStep
    split
    · rename_i x hx
      rw [hx] at h1
      cases h1
      rw [← hx]
    · rename_i hx
      rw [hx] at h1
      simp only at h1
      rw [h1]
  refine runSteps_cons_ok.2 ⟨_, e1, ?_⟩
  have e2 : lineWavesStep { s with spec := { s.spec with lines := { s.spec.lines with names := some ns } } } =
      ({ s with spec := { s.spec with lines := { s.spec.lines with names := some ns, waves := some ws } } }, none) := by
    unfold lineWavesStep
    split
    · rename_i x hx hw
      cases hx
      have hw : s.spec.lines.waves = none := hw
      rw [hw] at h2
      simp only at h2
      rw [h2]
    · rename_i hne
      cases hw : s.spec.lines.waves with
      | none => exact absurd hw (hne ns rfl)
      | some x =>
        rw [hw] at h2
        cases h2
        rw [← hw]
  refine runSteps_cons_ok.2 ⟨_, e2, ?_⟩
  have e3 : lineRatiosStep { s with spec := { s.spec with lines := { s.spec.lines with names := some ns, waves := some ws } } } =
      ({ s with spec := { s.spec with lines := ⟨some ns, some ws, some rs⟩ } }, none) := by
    unfold lineRatiosStep
    split
    · rename_i x hx hw
      cases hx
      have hw : s.spec.lines.ratios = none := hw
      rw [hw] at h3
      simp only at h3
      rw [h3]
    · rename_i hne
      cases hw : s.spec.lines.ratios with
      | none => exact absurd hw (hne ns rfl)
      | some x =>
        rw [hw] at h3
        cases h3
        rw [← hw]
  exact runSteps_cons_ok.2 ⟨_, e3, rfl⟩

/-- The steps before the continuum subtraction succeed. -/
theorem head_run {O : PrepOracle} {s : PrepAll} (h : PreparableCore O s) : ∃ L cu la,
    runSteps [lineNamesStep, lineWavesStep, lineRatiosStep, skyLevelsStep, derivedStep, ensureStep] s =
      ({ s with spec := { s.spec with
        lines := L, cutoff := some cu, units := "timesMedianErr", lam0 := la
        weight := some (s.spec.weight.getD fun _ _ => 1), mask := some (s.spec.mask.getD fun _ _ => 1) } }, none) ∧
    ∀ l ls w ws rs, initializeLineset s.spec.group s.spec.lines = .ok ⟨some (l :: ls), some (w :: ws), some rs⟩ →
      L = ⟨some (l :: ls), some (w :: ws), some rs⟩ := by
  obtain ⟨l, ls, w, ws, rs, full, line, mask, z, hL, -, -, -, hz, -⟩ := h.columns
  have hsky : ∃ cu, ∀ L, skyLevelsStep { s with spec := { s.spec with lines := L } } =
      ({ s with spec := { s.spec with lines := L, cutoff := some cu, units := "timesMedianErr" } }, none) := by
    rcases h.sky with ⟨x, hx, hu⟩ | ⟨hx, v, hv⟩
    · refine ⟨x, fun L => ?_⟩
      unfold skyLevelsStep
      simp only [hx]
      rw [← hx, ← hu]
    · refine ⟨.fin ((v : ℚ) : ℝ), fun L => ?_⟩
      unfold skyLevelsStep
      simp only [hx, hv]
  obtain ⟨cu, hcu⟩ := hsky
  have hder : ∃ la, derivedStep { s with spec := { s.spec with
        lines := ⟨some (l :: ls), some (w :: ws), some rs⟩, cutoff := some cu, units := "timesMedianErr" } } =
      ({ s with spec := { s.spec with
        lines := ⟨some (l :: ls), some (w :: ws), some rs⟩, cutoff := some cu, units := "timesMedianErr", lam0 := la } }, none) := by
    unfold derivedStep
    rw [if_neg (by simp [h.fresh.2])]
    split
    · simp only [hz]
      exact ⟨_, rfl⟩
    · exact ⟨_, rfl⟩
  obtain ⟨la, hla⟩ := hder
  refine ⟨⟨some (l :: ls), some (w :: ws), some rs⟩, cu, la, ?_, ?_⟩
  · have := runSteps_append_of_ok (b := [skyLevelsStep, derivedStep, ensureStep]) (lineSteps_run hL)
    refine this.trans ?_
    exact runSteps_cons_ok.2 ⟨_, hcu _, runSteps_cons_ok.2 ⟨_, hla, runSteps_cons_ok.2 ⟨_, rfl, rfl⟩⟩⟩
  · intro l' ls' w' ws' rs' h'
    rw [hL] at h'
    exact Except.ok.inj h'

theorem rangesStep_run {s : PrepAll} {l : String} {ls : List String} {full line mask : ℝ × ℝ}
    (hn : s.spec.lines.names = some (l :: ls)) (h1 : RangeUsed s.spec.fullRange fullRange2D l full)
    (h2 : RangeUsed s.spec.lineRange lineRange2D l line) (h3 : RangeUsed s.spec.maskRange maskRange2D l mask) :
    rangesStep s = ({ s with spec := { s.spec with fullRange := some full, lineRange := some line, maskRange := some mask } }, none) := by
  have key : ∀ (cur : Option (ℝ × ℝ)) (t : List (String × ℚ × ℚ)) (x : ℝ × ℝ), RangeUsed cur t l x →
      rangeOr s.spec.lines.names t cur = .ok x := by
    rintro cur t x (rfl | ⟨rfl, q, hq, rfl⟩)
    · rfl
    · rw [hn]
      unfold rangeOr
      simp only [hq]
  unfold rangesStep
  rw [key _ _ _ h1, key _ _ _ h2, key _ _ _ h3]

theorem specMaskMissing2D_run {r c : Nat} (hr : 0 < r) (hc : 0 < c) (flux err : Img r c ℝ) (w m : Option (Img r c ℝ)) (b : Bool) :
    ∃ m', specMaskMissing2D flux err w m b = .ok m' := by
  unfold specMaskMissing2D
  split
  · rename_i hnone
    exfalso
    have : (List.ofFn fun i => List.ofFn fun j => Fl.abs (err i j)).flatten ≠ [] := by
      intro h0
      have hmem : Fl.abs (err ⟨0, hr⟩ ⟨0, hc⟩) ∈ (List.ofFn fun i => List.ofFn fun j => Fl.abs (err i j)).flatten := by
        rw [List.mem_flatten]
        exact ⟨List.ofFn fun j => Fl.abs (err ⟨0, hr⟩ j), List.mem_ofFn.2 ⟨_, rfl⟩, List.mem_ofFn.2 ⟨⟨0, hc⟩, rfl⟩⟩
      rw [h0] at hmem
      cases hmem
    cases hl : (List.ofFn fun i => List.ofFn fun j => Fl.abs (err i j)).flatten with
    | nil => exact this hl
    | cons a l => rw [hl] at hnone; cases hnone
  · exact ⟨_, rfl⟩

theorem fullRangeStep_run {s : PrepAll} {f m : ℝ × ℝ} {z : ℝ} {obs : Fin s.spec.c → ℝ} (hn : s.spec.noCont = true)
    (hf : s.spec.fullRange = some f) (hm : s.spec.maskRange = some m) (hz : s.gal.z = some z) (hobs : s.spec.obswave = some obs) :
    fullRangeStep s = ({ s with spec := s.spec.cols ((List.finRange s.spec.c).filter fun j =>
      decide (f.1 * (1 + z) ≤ obs j ∧ obs j ≤ f.2 * (1 + z))) }, none) := by
  unfold fullRangeStep prepWindows
  rw [hf, hm, hz, hobs]
  exact if_pos hn

theorem trimStep_run {s : PrepAll} {l : ℝ × ℝ} {n : String} {ns : List String} {z : ℝ} {obs : Fin s.spec.c → ℝ}
    (hnm : s.spec.lines.names = some (n :: ns)) (hl : s.spec.lineRange = some l) (hz : s.gal.z = some z) (hobs : s.spec.obswave = some obs)
    (j : Fin s.spec.c) (hj : l.1 * (1 + z) ≤ obs j ∧ obs j ≤ l.2 * (1 + z)) :
    trimStep s = ({ s with spec := s.spec.cols ((List.finRange s.spec.c).filter fun j =>
      decide (l.1 * (1 + z) ≤ obs j ∧ obs j ≤ l.2 * (1 + z))) }, none) := by
  unfold trimStep
  rw [hnm, hl, hz]
  simp only
  rw [hobs]
  exact if_pos (List.length_pos_of_mem (List.mem_filter.2 ⟨List.mem_finRange j, decide_eq_true hj⟩))

theorem fl_mul_finite {a b : Fl ℝ} (ha : a.isFinite = true) (hb : b.isFinite = true) : (a * b).isFinite = true := by
  obtain ⟨x, rfl⟩ := Fl.exists_of_isFinite ha
  obtain ⟨y, rfl⟩ := Fl.exists_of_isFinite hb
  rfl

theorem fl_add_finite {a b : Fl ℝ} (ha : a.isFinite = true) (hb : b.isFinite = true) : (a + b).isFinite = true := by
  obtain ⟨x, rfl⟩ := Fl.exists_of_isFinite ha
  obtain ⟨y, rfl⟩ := Fl.exists_of_isFinite hb
  rfl

theorem missing1DStep_run {s : PrepAll} {o : Obs1D} (hn : s.spec.noCont = false) (ho : s.gal.spec1D = some o) (hpos : 0 < o.n) :
    ∃ m1, missing1DStep s = ({ s with gal := { s.gal with spec1D := some { o with mask := some m1 } } }, none) := by
  have hm : ∃ m, specMaskMissing1D o.flux o.err none o.mask false = .ok m := by
    unfold specMaskMissing1D
    have hne : (List.ofFn fun j => Fl.abs (o.err j)) ≠ [] := by
      intro h0
      have := congrArg List.length h0
      rw [List.length_ofFn] at this
      simp at this
      omega
    obtain ⟨mx, hmx⟩ := npMax_isSome hne
    rw [hmx]
    exact ⟨_, rfl⟩
  obtain ⟨m, hm⟩ := hm
  unfold missing1DStep
  rw [if_neg (by simp [hn]), ho]
  simp only
  rw [hm]
  exact ⟨_, rfl⟩

theorem from1DStep_run {s : PrepAll} {o : Obs1D} {m1 : Fin o.n → Fl ℝ} {m : Img s.spec.r s.spec.c ℝ} (hn : s.spec.noCont = false)
    (ho : s.gal.spec1D = some o) (hm1 : o.mask = some m1) (hm : s.spec.mask = some m) (hle : o.n ≤ s.spec.c) :
    ∃ m', from1DStep s = ({ s with spec := { s.spec with mask := some m' } }, none) := by
  unfold from1DStep
  rw [if_neg (by simp [hn]), ho, hm]
  simp only
  rw [hm1]
  simp only
  refine ⟨_, Prod.ext rfl ?_⟩
  rw [if_pos]
  rw [List.all_eq_true]
  intro k _
  have := k.isLt
  exact decide_eq_true (by omega)

theorem pickAt_run {α : Type} {n c : Nat} (a : Fin n → α) (wh : List (Fin c)) (hle : c ≤ n) : ∃ l, pickAt a wh = .ok l := by
  unfold pickAt
  induction wh with
  | nil => exact ⟨_, rfl⟩
  | cons j wh ih =>
    obtain ⟨l, hl⟩ := ih
    have := j.isLt
    rw [List.mapM_cons, dif_pos (by omega), hl]
    exact ⟨_, rfl⟩

theorem contFinite_of {c : Nat} (hc : 0 < c) (f : Fin c → Fl ℝ) (hf : ∀ j, (f j).isFinite = true) : contFinite f = true := by
  have hg : ∀ j, ∃ x, f j = .fin x := fun j => Fl.exists_of_isFinite (hf j)
  choose g hg using hg
  have he : List.ofFn f = (List.ofFn g).map Fl.fin := by
    rw [List.map_ofFn]
    congr 1
    funext j
    exact hg j
  have hne : List.ofFn g ≠ [] := by
    intro h0
    have := congrArg List.length h0
    rw [List.length_ofFn] at this
    simp at this
    omega
  obtain ⟨m, -, hm, -⟩ := npMax_fin (List.ofFn g) hne
  unfold contFinite
  rw [he, hm]
  rfl

/-- The result of the continuum fits when those to the 1D spectrum return finite numbers -/
theorem contStep_find {O : ContFit} (hO : ∀ d, d.xx ≠ [] → (O.both d).1.isFinite = true ∧ (O.both d).2.isFinite = true ∧
      (O.intercept d).isFinite = true) {s : PrepAll} {o : Obs1D} {m1 : Fin o.n → Fl ℝ}
    {incl cm m : Img s.spec.r s.spec.c ℝ} {f mr : ℝ × ℝ} {z : ℝ} {obs : Fin s.spec.c → ℝ} {x md : Fl ℝ}
    (hn : s.spec.noCont = false) (ho : s.gal.spec1D = some o) (hm1 : o.mask = some m1) (hi : s.spec.inclCont = some incl)
    (hcm : s.spec.contModel = some cm) (hm : s.spec.mask = some m) (hf : s.spec.fullRange = some f) (hmr : s.spec.maskRange = some mr)
    (hz : s.gal.z = some z) (hobs : s.spec.obswave = some obs) (hx : s.spec.cutoff = some x) (hmd : s.spec.median = some md)
    (hle : s.spec.c ≤ o.n) (j : Fin s.spec.c) (hj : f.1 * (1 + z) ≤ obs j ∧ obs j < mr.1 * (1 + z)) :
    ∃ tmp a b cont, a.isFinite = true ∧ b.isFinite = true ∧
      cont = prepCont O s.spec incl m obs a b (contWindows obs (redshifted f z) (redshifted mr z)).1
        (contWindows obs (redshifted f z) (redshifted mr z)).2.1 ∧
      contStep O s = match (List.finRange s.spec.r).find? fun i => !contFinite (cont i) with
        | none => (⟨{ s.spec with contModel := some cont, flux := fun i j => incl i j - cont i j },
            { s.gal with spec1D := some { o with mask := some tmp } }⟩, none)
        | some k => (⟨{ s.spec with
            contModel := some fun i => if i ≤ k then cont i else cm i
            flux := fun i j => if i < k then incl i j - cont i j else s.spec.flux i j },
            { s.gal with spec1D := some { o with mask := some tmp } }⟩, some .valueError) := by
  have hw : prepWindows s = .ok (contWindows obs (redshifted f z) (redshifted mr z)) := by
    unfold prepWindows
    rw [hf, hmr, hz, hobs]
  have hx2 : ∀ v : Fin s.spec.c → ℝ, twoSides v (contWindows obs (redshifted f z) (redshifted mr z)).1
      (contWindows obs (redshifted f z) (redshifted mr z)).2.1 ≠ [] := by
    intro v h0
    unfold twoSides at h0
    rw [List.append_eq_nil_iff, List.map_eq_nil_iff] at h0
    exact List.ne_nil_of_mem (a := j) (List.mem_filter.2 ⟨List.mem_finRange _, decide_eq_true hj⟩) h0.1
  have hsl : ∃ tmp p, slope1D O o m1 (some x) (some md) obs (contWindows obs (redshifted f z) (redshifted mr z)).1
      (contWindows obs (redshifted f z) (redshifted mr z)).2.1 = (some tmp, .ok p) ∧ p.1.isFinite = true ∧ p.2.isFinite = true := by
    unfold slope1D whSkylines1D
    simp only
    obtain ⟨l1, e1⟩ := pickAt_run (fun j => if j ∈ (List.finRange o.n).filter (fun j => Fl.leB (x * md)
      (Fl.sqrt (Fl.sq (o.err j * m1 j)))) then 0 else m1 j) (contWindows obs (redshifted f z) (redshifted mr z)).1 hle
    obtain ⟨l2, e2⟩ := pickAt_run (fun j => if j ∈ (List.finRange o.n).filter (fun j => Fl.leB (x * md)
      (Fl.sqrt (Fl.sq (o.err j * m1 j)))) then 0 else m1 j) (contWindows obs (redshifted f z) (redshifted mr z)).2.1 hle
    obtain ⟨l3, e3⟩ := pickAt_run o.flux (contWindows obs (redshifted f z) (redshifted mr z)).1 hle
    obtain ⟨l4, e4⟩ := pickAt_run o.flux (contWindows obs (redshifted f z) (redshifted mr z)).2.1 hle
    obtain ⟨l5, e5⟩ := pickAt_run o.err (contWindows obs (redshifted f z) (redshifted mr z)).1 hle
    obtain ⟨l6, e6⟩ := pickAt_run o.err (contWindows obs (redshifted f z) (redshifted mr z)).2.1 hle
    rw [e1, e2, e3, e4, e5, e6]
    have hne : ¬ ((contWindows obs (redshifted f z) (redshifted mr z)).1.isEmpty &&
        (contWindows obs (redshifted f z) (redshifted mr z)).2.1.isEmpty) = true := by
      have h1 : j ∈ (contWindows obs (redshifted f z) (redshifted mr z)).1 :=
        List.mem_filter.2 ⟨List.mem_finRange _, decide_eq_true hj⟩
      rw [List.isEmpty_eq_false_iff.2 (List.ne_nil_of_mem h1)]
      simp
    refine ⟨_, _, Prod.ext rfl (if_neg hne), ?_, ?_⟩
    · split
      · exact (hO _ (hx2 obs)).1
      · rfl
    · split
      · exact (hO _ (hx2 obs)).2.1
      · exact (hO _ (hx2 obs)).2.2
  obtain ⟨tmp, ⟨a, b⟩, hsl, ha, hb⟩ := hsl
  refine ⟨tmp, a, b, _, ha, hb, rfl, ?_⟩
  unfold contStep
  rw [if_neg (by simp [hn]), hw, ho, hi, hcm, hm, hobs]
  simp only
  rw [hm1]
  simp only
  rw [hx, hmd, hsl]
  rfl

theorem contStep_run {O : ContFit} (hO : O.Finite) {s : PrepAll} {o : Obs1D} {m1 : Fin o.n → Fl ℝ}
    {incl cm m : Img s.spec.r s.spec.c ℝ} {f mr : ℝ × ℝ} {z : ℝ} {obs : Fin s.spec.c → ℝ} {x md : Fl ℝ}
    (hn : s.spec.noCont = false) (ho : s.gal.spec1D = some o) (hm1 : o.mask = some m1) (hi : s.spec.inclCont = some incl)
    (hcm : s.spec.contModel = some cm) (hm : s.spec.mask = some m) (hf : s.spec.fullRange = some f) (hmr : s.spec.maskRange = some mr)
    (hz : s.gal.z = some z) (hobs : s.spec.obswave = some obs) (hx : s.spec.cutoff = some x) (hmd : s.spec.median = some md)
    (hle : s.spec.c ≤ o.n) (j : Fin s.spec.c) (hj : f.1 * (1 + z) ≤ obs j ∧ obs j < mr.1 * (1 + z)) :
    ∃ C X m1', contStep O s = (⟨{ s.spec with contModel := some C, flux := X },
      { s.gal with spec1D := some { o with mask := some m1' } }⟩, none) := by
  obtain ⟨tmp, a, b, cont, ha, hb, hcont, hstep⟩ := contStep_find
    (fun d hd => ⟨(hO d hd).1, (hO d hd).2.1, (hO d hd).2.2.1⟩) hn ho hm1 hi hcm hm hf hmr hz hobs hx hmd hle j hj
  have hx2 : twoSides obs (contWindows obs (redshifted f z) (redshifted mr z)).1
      (contWindows obs (redshifted f z) (redshifted mr z)).2.1 ≠ [] := by
    intro h0
    unfold twoSides at h0
    rw [List.append_eq_nil_iff, List.map_eq_nil_iff] at h0
    exact List.ne_nil_of_mem (a := j) (List.mem_filter.2 ⟨List.mem_finRange _, decide_eq_true hj⟩) h0.1
  have hfind : ((List.finRange s.spec.r).find? fun i => !contFinite (cont i)) = none := by
    rw [List.find?_eq_none]
    intro i _
    have : contFinite (cont i) = true := by
      rw [hcont]
      refine contFinite_of (lt_of_le_of_lt (Nat.zero_le _) j.isLt) _ fun k => ?_
      unfold prepCont rowCont
      exact fl_add_finite (fl_mul_finite ha rfl) ((hO _ hx2).2.2.2 _ _ ha hb)
    rw [this]
    simp
  rw [hstep, hfind]
  exact ⟨_, _, _, rfl⟩

theorem fullRangeStep_run1 {s : PrepAll} {o : Obs1D} {f m : ℝ × ℝ} {z : ℝ} {obs : Fin s.spec.c → ℝ} (hn : s.spec.noCont = false)
    (ho : s.gal.spec1D = some o) (hle : s.spec.c ≤ o.n)
    (hf : s.spec.fullRange = some f) (hm : s.spec.maskRange = some m) (hz : s.gal.z = some z) (hobs : s.spec.obswave = some obs) :
    ∃ sp1, fullRangeStep s = (⟨s.spec.cols ((List.finRange s.spec.c).filter fun j =>
      decide (f.1 * (1 + z) ≤ obs j ∧ obs j ≤ f.2 * (1 + z))), { s.gal with spec1D := sp1 }⟩, none) := by
  unfold fullRangeStep prepWindows
  rw [hf, hm, hz, hobs]
  simp only
  rw [if_neg (by simp [hn]), ho]
  simp only
  rw [dif_pos]
  · exact ⟨_, rfl⟩
  · intro j _
    have := j.isLt
    omega

/-- Continuum subtraction succeeds. -/
theorem continuum_run {O : PrepOracle} {s : PrepAll} {l : String} {ls : List String} {full line mask : ℝ × ℝ} {z : ℝ} {x : Fl ℝ}
    {m : Img s.spec.r s.spec.c ℝ} (hcont : ContReady O s full mask z) (hr : 0 < s.spec.r) (hc : 0 < s.spec.c)
    (hx : s.spec.cutoff = some x) (hmk : s.spec.mask = some m)
    (hnm : s.spec.lines.names = some (l :: ls))
    (hf : RangeUsed s.spec.fullRange fullRange2D l full) (hl : RangeUsed s.spec.lineRange lineRange2D l line)
    (hm : RangeUsed s.spec.maskRange maskRange2D l mask) (hz : s.gal.z = some z) (hobs : s.spec.obswave = some s.spec.wave) :
    ∃ (M F E X C : Img s.spec.r s.spec.c ℝ) (md : Option (Fl ℝ)) (sp1 : Option Obs1D), runSteps (continuumSteps O) s =
      (⟨({ s.spec with mask := some M, flux := X, err := E, inclCont := some F, contModel := some C
                       median := md, fullRange := some full, lineRange := some line, maskRange := some mask } : Obs2D).cols
            ((List.finRange s.spec.c).filter fun j => decide (full.1 * (1 + z) ≤ s.spec.wave j ∧ s.spec.wave j ≤ full.2 * (1 + z))),
        { s.gal with spec1D := sp1 }⟩, none) ∧ (s.spec.noCont = true → sp1 = s.gal.spec1D) := by
  obtain ⟨m', hm'⟩ := specMaskMissing2D_run hr hc s.spec.flux s.spec.err s.spec.weight s.spec.mask true
  have e1 : missing2DStep s = ({ s with spec := { s.spec with mask := some m' } }, none) := by
    unfold missing2DStep
    rw [hm']
  rcases hcont with hn | ⟨hn, hO, ⟨o, ho, hon⟩, j, hj⟩
  · exact ⟨m', _, _, _, _, _, s.gal.spec1D, runSteps_cons_ok.2 ⟨_, e1, runSteps_cons_ok.2 ⟨_, if_pos hn, runSteps_cons_ok.2 ⟨_, if_pos hn,
      runSteps_cons_ok.2 ⟨_, rfl, runSteps_cons_ok.2 ⟨_, rangesStep_run hnm hf hl hm, runSteps_cons_ok.2 ⟨_, rfl,
        runSteps_cons_ok.2 ⟨_, if_pos hn, runSteps_cons_ok.2 ⟨_, fullRangeStep_run hn rfl rfl hz hobs, rfl⟩⟩⟩⟩⟩⟩⟩⟩, fun _ => rfl⟩
  · obtain ⟨m1, e2⟩ := missing1DStep_run (s := { s with spec := { s.spec with mask := some m' } }) hn ho (by omega)
    obtain ⟨m3, e3⟩ := from1DStep_run (s := ⟨{ s.spec with mask := some m' },
      { s.gal with spec1D := some { o with mask := some m1 } }⟩) hn rfl rfl rfl (le_of_eq hon)
    obtain ⟨C, X, m1', e7⟩ := contStep_run hO (s := ⟨{ s.spec with
      mask := some m3, flux := fun i => specNanMasking (s.spec.flux i) (m3 i) (.fin (-99)) false false
      err := fun i => specNanMasking (s.spec.err i) (m3 i) (.fin (-99)) true false
      median := some (O.median (List.ofFn fun j =>
        colQuad (fun i => specNanMasking (s.spec.err i) (m3 i) (.fin (-99)) true false) m3 j))
      fullRange := some full, lineRange := some line, maskRange := some mask
      inclCont := some fun i => specNanMasking (s.spec.flux i) (m3 i) (.fin (-99)) false false, contModel := some fun _ _ => 0 },
      { s.gal with spec1D := some { o with mask := some m1 } }⟩) hn rfl rfl rfl rfl rfl rfl rfl hz hobs hx rfl (ge_of_eq hon) j hj
    obtain ⟨sp1, e8⟩ := fullRangeStep_run1 (s := ⟨{ s.spec with
      mask := some m3, flux := X
      err := fun i => specNanMasking (s.spec.err i) (m3 i) (.fin (-99)) true false
      median := some (O.median (List.ofFn fun j =>
        colQuad (fun i => specNanMasking (s.spec.err i) (m3 i) (.fin (-99)) true false) m3 j))
      fullRange := some full, lineRange := some line, maskRange := some mask
      inclCont := some fun i => specNanMasking (s.spec.flux i) (m3 i) (.fin (-99)) false false, contModel := some C },
      { s.gal with spec1D := some { o with mask := some m1' } }⟩) hn rfl (ge_of_eq hon) rfl rfl hz hobs
    exact ⟨m3, _, _, X, C, _, sp1, runSteps_cons_ok.2 ⟨_, e1, runSteps_cons_ok.2 ⟨_, e2, runSteps_cons_ok.2 ⟨_, e3,
      runSteps_cons_ok.2 ⟨_, rfl, runSteps_cons_ok.2 ⟨_, rangesStep_run hnm hf hl hm, runSteps_cons_ok.2 ⟨_, rfl,
        runSteps_cons_ok.2 ⟨_, e7, runSteps_cons_ok.2 ⟨_, e8, rfl⟩⟩⟩⟩⟩⟩⟩⟩, fun h => Bool.noConfusion (h.symm.trans hn)⟩

/-- Continuum subtraction and trimming in wavelength succeed. -/
theorem columns_run {O : PrepOracle} {s : PrepAll} (h : PreparableCore O s) :
    ∃ v1 l ls w ws rs full line mask,
    (∃ u2, (∃ u1, runSteps [lineNamesStep, lineWavesStep, lineRatiosStep, skyLevelsStep, derivedStep, ensureStep] s = (u1, none) ∧
      runSteps (continuumSteps O) u1 = (u2, none)) ∧ trimStep u2 = (v1, none)) ∧
    v1.spec.gone = false ∧ v1.spec.units = "timesMedianErr" ∧ (∃ x, v1.spec.cutoff = some x) ∧ v1.spec.weighting = s.spec.weighting ∧
    v1.spec.lines = ⟨some (l :: ls), some (w :: ws), some rs⟩ ∧ (∃ sp1, v1.gal = { s.gal with spec1D := sp1 }) ∧ v1.spec.slitPA = s.spec.slitPA ∧
    v1.spec.fullRange = some full ∧ v1.spec.lineRange = some line ∧ v1.spec.maskRange = some mask ∧
    v1.spec.prepared = false ∧ v1.spec.noCont = s.spec.noCont ∧ s.spec.obswave = some s.spec.wave ∧ (∀ z, s.gal.z = some z →
      (∃ j, InRanges s full line z s.spec.wave j) ∧
      (s.spec.maskQual = none ∨ ∃ q : Img s.spec.r s.spec.c ℝ, s.spec.maskQual = some ⟨_, _, q⟩ ∧
        (∀ i j, (q i j).isFinite = true) ∧ ∀ j, InRanges s full line z s.spec.wave j)) := by
  obtain ⟨L, cu, la, hhead, hLeq⟩ := head_run h
  obtain ⟨l, ls, w, ws, rs, full, line, mask, z, hL, hf, hl, hm, hz, hobs, ⟨j, hj⟩, hcr, hq⟩ := h.columns
  have hLeq := hLeq _ _ _ _ _ hL
  subst hLeq
  have hc : 0 < s.spec.c := lt_of_le_of_lt (Nat.zero_le _) j.isLt
  have hr : 0 < s.spec.r := lt_of_lt_of_le (by omega) h.rows
  obtain ⟨M, F, E, X, C, md, sp1, hcont, -⟩ := continuum_run (O := O) (s := ⟨{ s.spec with
        lines := ⟨some (l :: ls), some (w :: ws), some rs⟩, cutoff := some cu, units := "timesMedianErr", lam0 := la
        weight := some (s.spec.weight.getD fun _ _ => 1), mask := some (s.spec.mask.getD fun _ _ => 1) }, s.gal⟩)
    hcr hr hc rfl rfl rfl hf hl hm hz hobs
  obtain ⟨k, hk⟩ := (exists_get_filter (fun j => decide (full.1 * (1 + z) ≤ s.spec.wave j ∧ s.spec.wave j ≤ full.2 * (1 + z))) j).2
    (decide_eq_true hj.1)
  have htrim := trimStep_run (s := ⟨({ s.spec with
        lines := ⟨some (l :: ls), some (w :: ws), some rs⟩, cutoff := some cu, units := "timesMedianErr", lam0 := la
        weight := some (s.spec.weight.getD fun _ _ => 1), mask := some M, flux := X, err := E, inclCont := some F
        contModel := some C
        median := md, fullRange := some full, lineRange := some line, maskRange := some mask } : Obs2D).cols
            ((List.finRange s.spec.c).filter fun j => decide (full.1 * (1 + z) ≤ s.spec.wave j ∧ s.spec.wave j ≤ full.2 * (1 + z))), { s.gal with spec1D := sp1 }⟩)
    rfl rfl hz rfl k (by
      have : s.spec.wave (((List.finRange s.spec.c).filter fun j =>
        decide (full.1 * (1 + z) ≤ s.spec.wave j ∧ s.spec.wave j ≤ full.2 * (1 + z))).get k) = s.spec.wave j := congrArg _ hk
      exact ⟨hj.2.1.trans (le_of_eq this.symm), (le_of_eq this).trans hj.2.2⟩)
  refine ⟨_, l, ls, w, ws, rs, full, line, mask, ⟨_, ⟨_, hhead, hcont⟩, htrim⟩, h.fresh.2, rfl, ⟨_, rfl⟩, rfl, rfl, ⟨_, rfl⟩, rfl, rfl, rfl, rfl,
    h.fresh.1, rfl, hobs, ?_⟩
  intro z' hz'
  have h1 : z = z' := Option.some.inj (hz.symm.trans hz')
  subst h1
  exact ⟨⟨j, hj⟩, hq⟩

theorem skyMaskStep_run {s : PrepAll} {x md : Fl ℝ} (hg : s.spec.gone = false)
    (hm : ∃ m, s.spec.mask = some m ∧ ∀ i j, (m i j).isFinite = true)
    (hq : s.spec.maskQual = none ∨ ∃ q : Img s.spec.r s.spec.c ℝ, s.spec.maskQual = some ⟨_, _, q⟩ ∧ ∀ i j, (q i j).isFinite = true)
    (hu : s.spec.units = "timesMedianErr") (hx : s.spec.cutoff = some x)
    (hmd : s.spec.median = some md) :
    ∃ (q k : Img s.spec.r s.spec.c ℝ) (a b : List Nat) (t : PrepAll), skyMaskStep s = (t, none) ∧
      t = { s with spec := { s.spec with maskQual := some ⟨_, _, q⟩, maskSky := some ⟨_, _, k⟩, whSky := a, whNosky := b } } ∧
      ∀ i j, (q i j).isFinite = true := by
  obtain ⟨m, hm, hmf⟩ := hm
  rcases hq with hq | ⟨q, hq, hqf⟩
  · refine ⟨m, ?_⟩
    unfold skyMaskStep
    rw [if_neg (by simp [hg]), hq, hm]
    simp only [hu, hx, hmd, Pic.shaped_self]
    exact ⟨_, _, _, _, rfl, rfl, hmf⟩
  · refine ⟨q, ?_⟩
    unfold skyMaskStep
    rw [if_neg (by simp [hg]), hq, hm]
    simp only [hu, hx, hmd, hq, Pic.shaped_self]
    exact ⟨_, _, _, _, rfl, rfl, hqf⟩

theorem lowSnrStep_run {s : PrepAll} (hq : ∃ q : Img s.spec.r s.spec.c ℝ, s.spec.maskQual = some ⟨_, _, q⟩)
    (hk : ∃ k : Img s.spec.r s.spec.c ℝ, s.spec.maskSky = some ⟨_, _, k⟩) (hm : ∃ m, s.spec.mask = some m) :
    ∃ t, lowSnrStep s = (t, none) := by
  obtain ⟨q, hq⟩ := hq
  obtain ⟨k, hk⟩ := hk
  obtain ⟨m, hm⟩ := hm
  unfold lowSnrStep
  rw [hq, hk, hm]
  simp only [Pic.shaped_self]
  exact ⟨_, rfl⟩

theorem spatialStep_run {V : VertIn → ℝ × ℝ × ℝ × ℝ} {median : List (Fl ℝ) → Fl ℝ} {s : PrepAll}
    {w : ℚ} {ws : List ℚ} {z y : ℝ} (hw : s.spec.lines.waves = some (w :: ws)) (hz : s.gal.z = some z)
    (hq : ∃ q : Img s.spec.r s.spec.c ℝ, s.spec.maskQual = some ⟨_, _, q⟩)
    (hk : ∃ k : Img s.spec.r s.spec.c ℝ, s.spec.maskSky = some ⟨_, _, k⟩) (hy : s.spec.ypos = some y)
    (hr : 15 ≤ s.spec.r) : ∃ t, spatialStep V median s = (t, none) := by
  obtain ⟨q, hq⟩ := hq
  obtain ⟨k, hk⟩ := hk
  unfold spatialStep
  have hv : ∃ v, prepVert V median s.gal.dither s.gal.pix s.spec.ypos s.spec.flux s.spec.err k = .ok v := by
    unfold prepVert
    rw [hy]
    exact C95_returns _ _ _ (by rw [List.length_ofFn]; exact hr) _ _ _ _ _ _
  obtain ⟨v, hv⟩ := hv
  rw [hw, hz]
  simp only
  have hk' : (s.spec.maskSky.bind fun k => k.shaped s.spec.r s.spec.c) = some k := by
    rw [hk]
    exact Pic.shaped_self _ _ _
  rw [hk']
  simp only
  rw [hv]
  simp only
  have h1 : ((s.spec.rows (trimRows s.gal.dither s.spec.r v.mMin v.mMax).1 (trimRows s.gal.dither s.spec.r v.mMin v.mMax).2).maskQual.bind
      fun k => k.shaped (s.spec.rows (trimRows s.gal.dither s.spec.r v.mMin v.mMax).1 (trimRows s.gal.dither s.spec.r v.mMin v.mMax).2).r
        (s.spec.rows (trimRows s.gal.dither s.spec.r v.mMin v.mMax).1 (trimRows s.gal.dither s.spec.r v.mMin v.mMax).2).c) =
      some (rowSel q (trimRows s.gal.dither s.spec.r v.mMin v.mMax).1 (trimRows s.gal.dither s.spec.r v.mMin v.mMax).2) := by
    show ((s.spec.maskQual.map _).bind _) = _
    rw [hq]
    exact Pic.shaped_self _ _ _
  have h2 : ((s.spec.rows (trimRows s.gal.dither s.spec.r v.mMin v.mMax).1 (trimRows s.gal.dither s.spec.r v.mMin v.mMax).2).maskSky.bind
      fun k => k.shaped (s.spec.rows (trimRows s.gal.dither s.spec.r v.mMin v.mMax).1 (trimRows s.gal.dither s.spec.r v.mMin v.mMax).2).r
        (s.spec.rows (trimRows s.gal.dither s.spec.r v.mMin v.mMax).1 (trimRows s.gal.dither s.spec.r v.mMin v.mMax).2).c) =
      some (rowSel k (trimRows s.gal.dither s.spec.r v.mMin v.mMax).1 (trimRows s.gal.dither s.spec.r v.mMin v.mMax).2) := by
    show ((s.spec.maskSky.map _).bind _) = _
    rw [hk]
    exact Pic.shaped_self _ _ _
  rw [h1, h2]
  simp only
  show ∃ t, (match s.spec.ypos with | none => _ | some y => _) = (t, none)
  rw [hy]
  exact ⟨_, rfl⟩

theorem weightsStep_run {W : List (Fl ℝ) → List (Fl ℝ) → ℝ × ℝ × ℝ} {s : PrepAll}
    (hk : ∃ k : Img s.spec.r s.spec.c ℝ, s.spec.maskSky = some ⟨_, _, k⟩) (hi : ∃ incl, s.spec.inclCont = some incl)
    (hw : s.spec.weighting = "up-edges" ∨ s.spec.weighting = "none" ∨ (s.spec.weighting = "optimal" ∧ 3 ≤ s.spec.r)) :
    ∃ t, weightsStep W s = (t, none) := by
  obtain ⟨k, hk⟩ := hk
  obtain ⟨incl, hi⟩ := hi
  unfold weightsStep
  have hk' : (s.spec.maskSky.bind fun k => k.shaped s.spec.r s.spec.c) = some k := by
    rw [hk]
    exact Pic.shaped_self _ _ _
  rw [hk', hi]
  simp only
  rcases hw with hw | hw | ⟨hw, hr⟩
  · rw [if_neg (by rw [hw]; simp), if_neg (by rw [hw]; simp), hw]
    exact ⟨_, rfl⟩
  · rw [if_neg (by rw [hw]; simp), if_neg (by rw [hw]; simp), hw]
    exact ⟨_, rfl⟩
  · rw [if_neg (by rintro ⟨-, h⟩; omega), if_neg (by rintro ⟨-, h⟩; omega), hw]
    exact ⟨_, rfl⟩

theorem angleStep_run {s : PrepAll} (h : (∃ a, s.gal.deltPA = some a) ∨
    (s.gal.generateModel = false ∧ ∃ a b c, s.gal.imgPA = some (some a) ∧ s.spec.slitPA = some b ∧ s.gal.sersicPA = some c)) :
    ∃ t, angleStep s = (t, none) := by
  unfold angleStep
  rcases h with ⟨a, ha⟩ | ⟨hg, a, b, c, ha, hb, hc⟩
  · rw [ha]; exact ⟨_, rfl⟩
  · split
    · exact ⟨_, rfl⟩
    · rw [if_neg (by simp [hg]), ha, hb, hc]
      exact ⟨_, rfl⟩

theorem centreStep_run {C : CentreIn → Option ℝ × Option ℝ} {s : PrepAll}
    (hk : ∃ k : Img s.spec.r s.spec.c ℝ, s.spec.maskSky = some ⟨_, _, k⟩)
    (hl : ∃ k : Img s.spec.r s.spec.c ℝ, s.spec.maskLow = some ⟨_, _, k⟩) (hy : ∃ y, s.spec.ypos = some y) :
    ∃ t, centreStep C s = (t, none) := by
  obtain ⟨k, hk⟩ := hk
  obtain ⟨lo, hl⟩ := hl
  obtain ⟨y, hy⟩ := hy
  unfold centreStep
  have hk' : (s.spec.maskSky.bind fun k => k.shaped s.spec.r s.spec.c) = some k := by
    rw [hk]
    exact Pic.shaped_self _ _ _
  have hl' : (s.spec.maskLow.bind fun k => k.shaped s.spec.r s.spec.c) = some lo := by
    rw [hl]
    exact Pic.shaped_self _ _ _
  rw [hk', hl', hy]
  exact ⟨_, rfl⟩

/-- The number of columns if all are chosen -/
theorem col_card {c n : Nat} (col : Fin c → Fin n) (h : StrictMono col) (hs : ∀ j, ∃ k, col k = j) : c = n := by
  have := Fintype.card_congr (Equiv.ofBijective col ⟨h.injective, hs⟩)
  simpa using this

/-- The steps before the misalignment is looked at -/
noncomputable def prefixSteps (O : PrepOracle) : List PrepStep :=
  [lineNamesStep, lineWavesStep, lineRatiosStep, skyLevelsStep, derivedStep, ensureStep] ++ continuumSteps O ++
  [trimStep, skyMaskStep, lowSnrStep, spatialStep O.vert O.median, weightsStep O.optimal]

theorem prepSteps_prefix (O : PrepOracle) : prepSteps O = prefixSteps O ++ [angleStep, centreStep O.centre] := by
  unfold prepSteps prefixSteps
  rw [List.append_assoc _ _ [angleStep, centreStep O.centre]]
  rfl

/-- All steps before the misalignment is looked at succeed; what they leave can be prepared again. -/
theorem prefix_run {O : PrepOracle} {s : PrepAll} (h : PreparableCore O s) :
    ∃ t, runSteps (prefixSteps O) s = (t, none) ∧ t.gal.deltPA = s.gal.deltPA ∧ t.gal.generateModel = s.gal.generateModel ∧
      t.gal.imgPA = s.gal.imgPA ∧ t.gal.sersicPA = s.gal.sersicPA ∧ t.spec.slitPA = s.spec.slitPA ∧ t.gal.dither = s.gal.dither ∧
      (∃ k : Img t.spec.r t.spec.c ℝ, t.spec.maskSky = some ⟨_, _, k⟩) ∧
      (∃ k : Img t.spec.r t.spec.c ℝ, t.spec.maskLow = some ⟨_, _, k⟩) ∧ (∃ y, t.spec.ypos = some y) ∧
      (s.gal.dither = false → t.spec.r = s.spec.r - 1) ∧ (15 ≤ t.spec.r → s.spec.noCont = true → PreparableCore O t) := by
  obtain ⟨v1, l, ls, w, ws, rs, full, line, mask, ⟨u2, hu, h1⟩, hgone, hunits, ⟨x, hx⟩, hwt, hL, ⟨sp1, hgal⟩, hsl, hfu, hli, hma, hpr, hnc, hobsw,
    hcolsx⟩ := columns_run (O := O) h
  obtain ⟨b, g, c, col, M, F, E, C, full', line', z, obs, hv1, hmono, hfu', hli', hz, hobs, -, -, -, hcols, hM, -, -, hfin, -, hmed, -, hmq, -, hy, -, -⟩ :=
    columns_ok h.finite ⟨u2, hu, h1⟩ hgone
  have hobs' : obs = s.spec.wave := Option.some.inj (hobs.symm.trans hobsw)
  subst hobs'
  obtain ⟨⟨j0, hj0⟩, hq⟩ := hcolsx z hz
  obtain ⟨y, hys⟩ := h.ypos
  rw [hys] at hy
  have hff : full = full' := by subst hv1; exact Option.some.inj (hfu.symm.trans hfu')
  subst hff
  have hll : line = line' := by subst hv1; exact Option.some.inj (hli.symm.trans hli')
  subst hll
  have hqv : v1.spec.maskQual = none ∨ ∃ q : Img v1.spec.r v1.spec.c ℝ, v1.spec.maskQual = some ⟨_, _, q⟩ ∧
      ∀ i j, (q i j).isFinite = true := by
    subst hv1
    rcases hq with hq | ⟨q, hq, hqf, hall⟩
    · exact Or.inl (hmq.trans hq)
    · right
      have hc := col_card col hmono (fun j => (hcols j).2 (hall j))
      subst hc
      exact ⟨q, hmq.trans hq, hqf⟩
  obtain ⟨q, S, sky, nosky, v2, h2, hv2, hqfin⟩ := skyMaskStep_run (s := v1) hgone
    (by subst hv1; exact ⟨_, rfl, fun i j => (hfin i (col j)).1⟩) hqv hunits hx (by subst hv1; exact hmed)
  subst hv1
  obtain ⟨v3, h3⟩ := lowSnrStep_run (s := v2) (by subst hv2; exact ⟨_, rfl⟩) (by subst hv2; exact ⟨_, rfl⟩)
    (by subst hv2; exact ⟨_, rfl⟩)
  subst hv2
  have hv3 := lowSnrStep_ok (h := h3) (by exact rfl) (by exact rfl) (by exact rfl)
  obtain ⟨v4, h4⟩ := spatialStep_run (V := O.vert) (median := O.median) (s := v3) (w := w) (ws := ws) (z := z) (y := y)
    (by rw [hv3]; exact congrArg LineSet.waves hL) (by rw [hv3]; exact (congrArg PrepGal.z hgal).trans hz)
    (by subst hv3; exact ⟨_, rfl⟩) (by subst hv3; exact ⟨_, rfl⟩)
    (by rw [hv3]; exact hy) (by rw [hv3]; exact h.rows)
  subst hv3
  obtain ⟨sky', v, y', -, -, -, low, m0, sf, ps, ml, -, hv4⟩ := spatialStep_ok h4
  have hgal : g = { s.gal with spec1D := sp1 } := hgal
  subst hgal
  have hr : s.gal.dither = false → pySliceBound s.spec.r (trimRows s.gal.dither s.spec.r v.mMin v.mMax).2 -
      pySliceBound s.spec.r (trimRows s.gal.dither s.spec.r v.mMin v.mMax).1 = s.spec.r - 1 := by
    intro hg
    have := h.rows
    rw [hg]
    unfold trimRows pySliceBound
    simp only [Bool.false_eq_true, if_false]
    split_ifs <;> omega
  obtain ⟨v5, h5⟩ := weightsStep_run (W := O.optimal) (s := v4) (by subst hv4; exact ⟨_, rfl⟩) (by subst hv4; exact ⟨_, rfl⟩) (by
    subst hv4
    have hwt : b.weighting = s.spec.weighting := hwt
    rcases h.weighting with hw | hw | ⟨hw, hdi⟩
    · exact Or.inl (hwt.trans hw)
    · exact Or.inr (Or.inl (hwt.trans hw))
    · refine Or.inr (Or.inr ⟨hwt.trans hw, ?_⟩)
      have h1 := hr hdi
      have := h.rows
      exact (show 3 ≤ s.spec.r - 1 by omega).trans_eq h1.symm)
  obtain ⟨p, hv5, -⟩ := weightsStep_ok h5
  refine ⟨v5, ?_, ?_⟩
  · unfold prefixSteps
    rw [runSteps_append_ok]
    refine ⟨u2, ?_, ?_⟩
    · rw [runSteps_append_ok]
      exact hu
    · exact runSteps_cons_ok.2 ⟨_, h1, runSteps_cons_ok.2 ⟨_, h2, runSteps_cons_ok.2 ⟨_, h3, runSteps_cons_ok.2 ⟨_, h4,
        runSteps_cons_ok.2 ⟨_, h5, rfl⟩⟩⟩⟩⟩
  · subst hv5
    subst hv4
    refine ⟨rfl, rfl, rfl, rfl, hsl, rfl, ⟨_, rfl⟩, ⟨_, rfl⟩, ⟨_, rfl⟩, hr, fun hrows hn => ⟨⟨hpr, hgone⟩, ?_, hrows, ?_,
      Or.inl ⟨x, hx, hunits⟩, ⟨_, rfl⟩, ?_⟩⟩
    · intro m hm i j
      have hm := Option.some.inj hm
      subst hm
      show (M _ _ * (if _ ∈ _ then 0 else q _ _)).isFinite = true
      refine fl_mul_finite (hfin _ _).1 ?_
      split
      · rfl
      · exact hqfin _ _
    · have hin : ∀ j : Fin c, InRanges s full line z s.spec.wave (col j) := fun j => (hcols _).1 ⟨j, rfl⟩
      obtain ⟨k0, -⟩ := (hcols j0).2 hj0
      refine ⟨l, ls, w, ws, rs, full, line, mask, z, ?_, Or.inl hfu, Or.inl hli, Or.inl hma, hz, rfl,
        ⟨k0, ?_⟩, Or.inl (hnc.trans hn), Or.inr ⟨_, rfl, ?_⟩⟩
      · show initializeLineset b.group b.lines = _
        have hL : b.lines = _ := hL
        rw [hL]
        rfl
      · exact hin k0
      · exact ⟨fun i j => hqfin _ _, hin⟩
    · have hwt : b.weighting = s.spec.weighting := hwt
      rcases h.weighting with hw | hw | ⟨hw, hdi⟩
      · exact Or.inl (hwt.trans hw)
      · exact Or.inr (Or.inl (hwt.trans hw))
      · exact Or.inr (Or.inr ⟨hwt.trans hw, hdi⟩)

/-- The whole preparation succeeds. -/
theorem prepSteps_run {O : PrepOracle} {s : PrepAll} (h : PreparableCore O s) (ha : AngleKnown s) :
    ∃ t, runSteps (prepSteps O) s = (t, none) ∧ (s.gal.dither = false → t.spec.r = s.spec.r - 1) := by
  obtain ⟨v, hv, hd, hg, hi, hs, hsl, -, hk, hl, hy, hr, -⟩ := prefix_run (O := O) h
  obtain ⟨u, hu⟩ := angleStep_run (s := v) (by
    rcases ha with ⟨a, ha⟩ | ⟨h1, a, b, c, h2, h3, h4⟩
    · exact Or.inl ⟨a, hd.trans ha⟩
    · exact Or.inr ⟨hg.trans h1, a, b, c, hi.trans h2, hsl.trans h3, hs.trans h4⟩)
  obtain ⟨a, b, hu'⟩ := angleStep_ok hu
  obtain ⟨t, ht⟩ := centreStep_run (C := O.centre) (s := u) (by subst hu'; exact hk) (by subst hu'; exact hl) (by subst hu'; exact hy)
  obtain ⟨_, _, ht'⟩ := centreStep_ok ht
  refine ⟨t, ?_, ?_⟩
  · rw [prepSteps_prefix, runSteps_append_ok]
    exact ⟨v, hv, runSteps_cons_ok.2 ⟨_, hu, runSteps_cons_ok.2 ⟨_, ht, rfl⟩⟩⟩
  · subst ht'
    subst hu'
    exact hr

end Misfit
