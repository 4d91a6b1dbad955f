import Verif.Props.Fit1DMC
import Verif.Props.Fit1DUse
import Verif.Lemmas.YProfile

/-!
# Exact conditions for reloaded matrices (C143), for a second fit object on a galaxy (C135) and for the errors of the
corrected dispersion (C64)
-/

namespace Misfit

section Exact
variable {K : Type} [Field K] [LinearOrder K] [IsStrictOrderedRing K] [FloorRing K]

/-! ## Lemmas -/

omit [IsStrictOrderedRing K] in
/-- The stages of a fit that gets to the minimisation, put together. -/
theorem fit_reaches (O : Lm1 K) (r : K) (g : Gal1D K) (c : Fit1DCall) (o : F1 K) (files : Files1 K)
    (zg : PyNum K) (ns : List String) (p : Start1D K) (t : Spec1D K (Fl K)) (lines : List (List (ℚ × ℚ)))
    (hr : ¬r < 0) (hz : g.z = some zg) (hn : o.names = some ns) (hp : o.initCont.start zg.val = .ok p)
    (ht : g.trim = some t) (hg : minimizeGuard ns (2 + ns.length + (o.contOrder + 1)) t = .ok lines) :
    F1.fit O (some r) g c o files = F1.fitRun O r g files c o.initCont p t lines
        (2 + ns.length + (o.contOrder + 1)) := by
  unfold F1.fit
  simp only [if_neg hr, hz, hn, hp, ht, hg]

theorem mcLimits_ok : ∀ (cols : List (List K)), (∀ col ∈ cols, col ≠ []) → ∃ lims, mcLimits cols = .ok lims
  | [], _ => ⟨[], rfl⟩
  | col :: cols, h => by
      obtain ⟨ls, hls⟩ := mcLimits_ok cols fun a ha => h a (by simp [ha])
      have hc := h col (by simp)
      obtain ⟨a, ha⟩ := percentile_ok col 15.865 hc (by norm_num) (by norm_num)
      obtain ⟨b, hb⟩ := percentile_ok col 84.135 hc (by norm_num) (by norm_num)
      exact ⟨(a, b) :: ls, by simp only [mcLimits, limits1, percentilePair, ha, hb, hls]⟩

/-- The errors stored by a fit with errors: present exactly when the limits can be made. -/
theorem fit1D_stored (r : K) (mini : Bool → Bool → Fit1DResult K) (cols : List (List K)) (a : Fit1DArgs)
    (hr : ¬r < 0) (hn : a.noErrors = false) :
    (fit1D (some r) mini (.ok cols) a ⟨none, none⟩).1.errors.isSome = true ↔
      (mini false false).flux ≠ [] ∧ a.hasID = true ∧ (a.noPlot = true ∨ a.plotFile = true) ∧ a.errFile = true ∧
        ∃ es, mcErrors (bestFit mini).row cols = .ok es := by
  unfold fit1D
  simp only [if_neg hr]
  cases hf : (mini false false).flux with
  | nil => simp
  | cons f0 fs =>
    have hb : bestFit mini = refit mini f0 := bestFit_some (by rw [hf]; rfl)
    simp only [List.getElem?_cons_zero, hn, hb, Fit1DResult.row]
    cases a.hasID <;> cases a.noPlot <;> cases a.plotFile <;> cases a.errFile <;> simp <;>
      (cases mcErrors _ cols <;> simp)

/-! ## C143 -/

/-- **C143** (exact condition, partial): take a fit that loads its matrix and would store errors from some
matrix.  A matrix with at least one row, all rows of the same length, gives it errors exactly when it has one column or
as many columns as the fit has parameters: that number is all that is looked at.
The claim itself, that matrices of another fit are refused, is false: see `C143_false`. -/
theorem C143_exact_partial (O : Lm1 K) (hO : O.Shaped) (res : Option K) (g : Gal1D K)
    (c : Fit1DCall) (o : F1 K) (files : Files1 K) (hc : c.noErrors = false)
    (hl : c.reloadErrors = true) (f : String) (hf : c.errFile = some f) (ns : List String) (hn : o.names = some ns)
    (hnew : o.contErr = none) (hreach : ∃ files', (F1.fit O res g c o files').1.1.contErr ≠ none)
    (m : Mat1 K) (hm : files f = some m) (hrow : m.rows ≠ []) (hrect : ∀ row ∈ m.rows, row.length = m.ncols) :
    (F1.fit O res g c o files).1.1.contErr ≠ none ↔
      m.ncols = 1 ∨ m.ncols = 2 + ns.length + (o.contOrder + 1) := by
  constructor
  · intro h
    by_contra hc'
    push Not at hc'
    exact h ((C143_refused_partial O hO res g c o files hc hl f hf m hm ns hn hc'.1 hc'.2).2.2.2.2.trans hnew)
  · intro hcols
    obtain ⟨files', hreach⟩ := hreach
    have hic : o.initCont.contErr = none := by
      unfold F1.initCont; split <;> exact hnew
    rcases fit_cases O res g c o files' with ⟨o', e, h, h'⟩ | ⟨r, zg, ns', p, t, lines, rfl, hr, hz, hn', hp,
      ht, hg, h⟩
    · rw [h] at hreach
      rcases h' with rfl | rfl
      · exact absurd hnew hreach
      · exact absurd hic hreach
    · rw [hn] at hn'
      obtain rfl := Option.some.inj hn'
      rw [h] at hreach
      rw [fit_reaches O r g c o files zg ns p t lines hr hz hn hp ht hg]
      unfold F1.fitRun at hreach ⊢
      set mini : Bool → Bool → Fit1DResult K :=
        fun vb fb => O.minimize ⟨lines, p.params vb fb, t⟩ with hmini
      have hmat : o.initCont.matrix O files c lines p.b t (2 + ns.length + (o.contOrder + 1))
          (bestFit mini) = .ok m := by
        unfold F1.matrix
        rw [hl, hf]
        simp only [if_true, hm]
      have hstore : ∀ s : Fit1DState K, (o.initCont.store s).contErr ≠ none ↔ s.errors.isSome = true := by
        intro s
        unfold F1.store
        cases s.errors <;> cases s.result <;> simp [hic]
      simp only [hmat, Except.map]
      simp only at hreach
      rw [hstore] at hreach ⊢
      have ha : (c.args g.hasID).noErrors = false := hc
      -- what the matrix that is accepted says about the rest of the call
      have hrest : (mini false false).flux ≠ [] ∧ (c.args g.hasID).hasID = true ∧
          ((c.args g.hasID).noPlot = true ∨ (c.args g.hasID).plotFile = true) ∧
          (c.args g.hasID).errFile = true := by
        cases hm' : o.initCont.matrix O files' c lines p.b t (2 + ns.length + (o.contOrder + 1)) (bestFit mini) with
        | error e =>
          rw [hm'] at hreach
          exfalso
          revert hreach
          unfold fit1D
          simp only [if_neg hr, Except.map, ha]
          repeat' split
          all_goals simp_all
        | ok m' =>
          rw [hm'] at hreach
          obtain ⟨a1, a2, a3, a4, -⟩ := (fit1D_stored r mini m'.cols _ hr ha).1 hreach
          exact ⟨a1, a2, a3, a4⟩
      refine (fit1D_stored r mini m.cols _ hr ha).2 ⟨hrest.1, hrest.2.1, hrest.2.2.1, hrest.2.2.2, ?_⟩
      -- the limits
      have hne : ∀ col ∈ m.cols, col ≠ [] := by
        intro col hcol
        unfold Mat1.cols at hcol
        obtain ⟨j, hj, rfl⟩ := List.mem_map.1 hcol
        obtain ⟨row, hrow'⟩ := List.exists_mem_of_ne_nil _ hrow
        have hlt : j < row.length := by rw [hrect row hrow']; exact List.mem_range.1 hj
        exact List.ne_nil_of_mem (List.mem_filterMap.2 ⟨row, hrow', List.getElem?_eq_getElem hlt⟩)
      obtain ⟨lims, hlims⟩ := mcLimits_ok m.cols hne
      have hlen := mcLimits_length _ _ hlims
      have hcl : m.cols.length = m.ncols := by simp [Mat1.cols]
      obtain ⟨-, -, -, ns', fl, ct, hns', -, -, hfl, hpf, hct, hpc⟩ := start_ok hp
      rw [initCont_names, hn] at hns'
      obtain rfl := Option.some.inj hns'
      rw [initCont_contOrder] at hct hpc
      obtain ⟨b1, b2, hbf⟩ := bestFit_mem mini
      have hsh := hO ⟨lines, p.params b1 b2, t⟩
      have hrl : (bestFit mini).row.length = 2 + ns.length + (o.contOrder + 1) := by
        have hlf : (bestFit mini).flux.length = ns.length := by
          rw [hbf]; refine hsh.1.trans ?_
          simp [Start1D.params, hpf, hfl]
        have hlc : (bestFit mini).cont.length = o.contOrder + 1 := by
          rw [hbf]; refine hsh.2.trans ?_
          simp [Start1D.params, hpc, hct]
        simp only [Fit1DResult.row, List.length_append, List.length_cons, List.length_nil, hlf, hlc]
      unfold mcErrors
      rw [hlims]
      by_cases he : lims.length = (bestFit mini).row.length
      · simp only [if_pos he]
        exact ⟨_, rfl⟩
      · have h1 : lims.length = 1 := by
          rcases hcols with h1 | h1
          · rw [hlen, hcl, h1]
          · exact absurd (by rw [hlen, hcl, h1, hrl]) he
        obtain ⟨l, rfl⟩ := List.length_eq_one_iff.1 h1
        simp only [if_neg he]
        exact ⟨_, rfl⟩

/-- The hypotheses are met with the toy fit: a matrix with one column gives errors, one with two does not. -/
example : (reloadToy ⟨[[1], [2], [3]], 1⟩).1.1.contErr.isSome = true ∧
    (reloadToy ⟨[[1, 1], [2, 2]], 2⟩).1.1.contErr.isSome = false ∧
    (reloadToy ⟨[[1, 1, 1, 1, 1], [2, 2, 2, 2, 2]], 5⟩).1.1.contErr.isSome = true ∧
    (toyMake "Halpha").1.contErr.isSome = false := by
  decide +kernel

/-! ## C135 -/

/-- A minimiser that tells one spectrum from all others. -/
noncomputable def tellApart (t : Spec1D K (Fl K)) : Lm1 K :=
  open Classical in
  { minimize := fun q =>
      { z := if q.data = t then 0 else 1, velDisp := 0, flux := q.params.flux.map fun _ => 0,
        cont := q.params.cont.map fun _ => 0 }
    randn := fun _ _ => 0 }

omit [IsStrictOrderedRing K] [FloorRing K] in
theorem tellApart_shaped (t : Spec1D K (Fl K)) : (tellApart t).Shaped := by
  intro q
  simp [tellApart]

/-- **C135** (exact condition, partial): two fit objects are made on the same galaxy, and some fit of the first one
right after it was made ends without exception.  Then all fits of the first object, with every minimiser, do the same
after the second was made as before exactly when the second was made with the same trimmed spectrum.
The claim itself, for all second objects, is false: see `C135_false`. -/
theorem C135_exact_partial (strict : Bool) (g gA gB : Gal1D K) (kwA kwB : F1Kw K)
    (A B : F1 K) (hA : F1.make strict g kwA = (A, gA, none))
    (hB : F1.make strict gA kwB = (B, gB, none))
    (hfit : ∃ (O : Lm1 K), O.Shaped ∧ ∃ (res : Option K) (c : Fit1DCall) (files : Files1 K), (F1.fit O res gA c A files).2 = none) :
    (∀ (O : Lm1 K), O.Shaped → ∀ (res : Option K) (c : Fit1DCall) (files : Files1 K),
        F1.fit O res gB c A files = F1.fit O res gA c A files) ↔ gB.trim = gA.trim := by
  obtain ⟨-, hB2⟩ := make_ok hB
  obtain ⟨-, hgB⟩ := setupSpectrum_trim B gA none gB hB2
  constructor
  · intro hall
    obtain ⟨O, hO, res, c, files, hok⟩ := hfit
    rcases fit_cases O res gA c A files with ⟨o', e, h, -⟩ | ⟨r, zg, ns, p, tA, lines, rfl, hr, hz, hn, hp,
      ht, hg, h⟩
    · rw [h] at hok
      cases hok
    · have hID : gA.hasID = true := by
        rw [h] at hok
        unfold F1.fitRun fit1D at hok
        simp only [if_neg hr] at hok
        split at hok
        · cases hok
        · split at hok
          · cases hok
          · rename_i hid
            simpa [Fit1DCall.args] using hid
      have hpf : p.flux ≠ [] := by
        intro hnil
        have hz0 : (O.minimize ⟨lines, p.params false false, tA⟩).flux = [] := by
          rw [← List.length_eq_zero_iff, (hO _).1]
          simp [Start1D.params, hnil]
        rw [h] at hok
        unfold F1.fitRun fit1D at hok
        simp only [if_neg hr, hz0, List.getElem?_nil] at hok
        cases hok
      have key : ∀ (g' : Gal1D K) (t : Spec1D K (Fl K)) (lines : List (List (ℚ × ℚ))), g'.hasID = true →
          (F1.fitRun (tellApart tA) r g' files ⟨false, true, true, none, none⟩ A.initCont p t lines
            (2 + ns.length + (A.contOrder + 1))).2 = none ∧
          (F1.fitRun (tellApart tA) r g' files ⟨false, true, true, none, none⟩ A.initCont p t lines
            (2 + ns.length + (A.contOrder + 1))).1.1.z = some (open Classical in if t = tA then 0 else 1) := by
        intro g' t lines hid
        have hf : ((tellApart tA).minimize ⟨lines, p.params false false, t⟩).flux[0]? = some 0 := by
          cases hfx : p.flux with
          | nil => exact absurd hfx hpf
          | cons x xs => simp [tellApart, Start1D.params, hfx]
        have hrf : refitBounds ((tellApart tA).minimize ⟨lines, p.params false false, t⟩) 0 = none := by
          simp [refitBounds, tellApart]
        unfold F1.fitRun fit1D
        simp only [if_neg hr, hf, Fit1DCall.args, hid, refit, hrf, F1.store]
        refine ⟨by simp, ?_⟩
        simp [tellApart]
      have h1 := hall (tellApart tA) (tellApart_shaped tA) (some r) ⟨false, true, true, none, none⟩ files
      rw [fit_reaches (tellApart tA) r gA _ A files zg ns p tA lines hr hz hn hp ht hg] at h1
      obtain ⟨k1, k2⟩ := key gA tA lines hID
      rcases fit_cases (tellApart tA) (some r) gB ⟨false, true, true, none, none⟩ A files with
        ⟨o', e, h', -⟩ | ⟨r', zg', ns', p', tB, lines', hr', -, hz', hn', hp', ht', hg', h'⟩
      · rw [h'] at h1
        rw [← h1] at k1
        cases k1
      · cases hr'
        rw [hn] at hn'
        cases hn'
        have hzB : gB.z = gA.z := by rw [hgB]
        rw [hzB, hz] at hz'
        cases hz'
        rw [hp] at hp'
        cases hp'
        have hIDB : gB.hasID = true := by rw [hgB]; exact hID
        obtain ⟨-, k4⟩ := key gB tB lines' hIDB
        rw [← h', h1, k2] at k4
        rw [ht, ht']
        by_contra hne
        have hne' : ¬tB = tA := fun e => hne (by rw [e])
        rw [if_pos rfl, if_neg hne'] at k4
        exact zero_ne_one (Option.some.inj k4)
  · intro ht O _ res c files
    have e : gB = gA := by rw [hgB, ht]
    rw [e]

end Exact

/-- The hypotheses are met by objects for Hα and Hβ, and the condition fails for them. -/
example : (toyMake "Halpha").2.2 = none ∧
    (F1.make true (toyMake "Halpha").2.1
      { names := some ["Hbeta"], flux := some [7], velDisp := some 80 }).2.2 = none ∧
    (F1.fit (toyLm 2) (some 40) (toyMake "Halpha").2.1 { noPlot := true, noErrors := true }
      (toyMake "Halpha").1 fun _ => none).2 = none ∧
    (F1.make true (toyMake "Halpha").2.1
      { names := some ["Hbeta"], flux := some [7], velDisp := some 80 }).2.1.trim.map (fun s => s.wave) ≠
      (toyMake "Halpha").2.1.trim.map (fun s => s.wave) := by
  decide +kernel

/-! ## C64 -/

/-- **C64** (exact condition, partial): with a resolution set on the instrument, asking for the corrected dispersion
with errors stores errors exactly when there is a file name, the saved values are not empty and the spectrum has an
attribute `instrument_resolution`; only then it ends without exception.  No spectrum has that attribute
(`C64_absent`), so the claim itself is false: see `C64_false`. -/
theorem C64_exact_partial (velDisp r : ℝ) (specRes : Option ℝ) (errFile : Bool) (mc : List ℝ) (s : InstCorr)
    (hs : s.err = none) :
    ((calcInstCorr velDisp (some r) specRes false errFile mc s).1.err ≠ none ↔
      errFile = true ∧ specRes ≠ none ∧ mc ≠ []) ∧
    ((calcInstCorr velDisp (some r) specRes false errFile mc s).2 = none ↔
      errFile = true ∧ specRes ≠ none ∧ mc ≠ []) := by
  unfold calcInstCorr
  cases errFile with
  | false => simp [hs]
  | true =>
    cases specRes with
    | none => simp [hs]
    | some r' =>
      by_cases hmc : mc = []
      · subst hmc
        simp [limits1_nil, hs]
      · obtain ⟨lo, hi, h, -⟩ := limits1_ok (mc.map (instCorrMC r')) (by simpa using hmc)
        simp [h, hmc]

/-- The condition can be met, with the attribute added by hand. -/
example : (calcInstCorr 50 (some 30) (some 30) false true [40, 50, 60] ⟨none, none⟩).1.err ≠ none :=
  (C64_exact_partial 50 30 (some 30) true [40, 50, 60] ⟨none, none⟩ rfl).1.2 ⟨rfl, by simp, by simp⟩

end Misfit
