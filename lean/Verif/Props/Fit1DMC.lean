import Verif.Props.Fit1DModel
import Verif.Props.Masks

/-!
# C141-C144 and additions to C65, C140: Monte Carlo realisations, reloaded matrices, too few pixels
-/

namespace Misfit

section MC
variable {K : Type} [Field K] [LinearOrder K] [IsStrictOrderedRing K] [FloorRing K]

/-! ## C141: what the Monte Carlo realisations are -/

/-- Specification: `d` is the spectrum `t` with noise: each flux is changed by its own error times
the random number of its pixel. -/
structure Realisation (t d : Spec1D K (Fl K)) (rand : Nat → K) : Prop where
  waves : d.wave = t.wave ∧ d.obswave = t.obswave ∧ d.restwave = t.restwave
  rest : d.err = t.err ∧ d.mask = t.mask
  flux : ∀ f e, t.flux = some f → t.err = some e → f.length = e.length →
    ∃ f', d.flux = some f' ∧ f'.length = f.length ∧
      ∀ (j : Nat) x s, f[j]? = some x → e[j]? = some s → f'[j]? = some (x + s * Fl.fin (rand j))

omit [IsStrictOrderedRing K] [FloorRing K] in
theorem perturb_realisation (t : Spec1D K (Fl K)) (rand : Nat → K) :
    Realisation t (perturb rand t) rand := by
  refine ⟨⟨rfl, rfl, rfl⟩, ⟨rfl, rfl⟩, ?_⟩
  intro f e hf he hl
  unfold perturb
  rw [hf, he]
  refine ⟨_, rfl, by simp [hl], ?_⟩
  intro j x s hx hs
  rw [List.getElem?_zipWith, hx, List.getElem?_map, List.getElem?_zipIdx, hs]
  simp

omit [Field K] [LinearOrder K] [IsStrictOrderedRing K] [FloorRing K] in
theorem map_value (l : List K) :
    (l.map fun f => ({ value := f } : LmPar K)).map LmPar.value = l := by
  rw [List.map_map]
  exact List.map_id l

/-- **C141**: a file changed by a call of `fit` is the one given for the errors.  It holds one row
per realisation: the values that the minimiser finds, starting from the stored best fit, for the
fitted spectrum with each flux changed by its error times a random number of its own. -/
theorem C141_realisations (O : Lm1 K) (res : Option K) (g : Gal1D K) (c : Fit1DCall) (o : F1 K)
    (files : Files1 K) (k : String) :
    (F1.fit O res g c o files).1.2 k = files k ∨
    ∃ m t ns lines, c.errFile = some k ∧ (F1.fit O res g c o files).1.2 k = some m ∧
      g.trim = some t ∧ o.names = some ns ∧ modelLines ns = .ok lines ∧ m.rows.length = o.numMC ∧
      ∀ i < o.numMC, ∃ q : Problem1D K, Realisation t q.data (O.randn i) ∧ q.lines = lines ∧
        (F1.fit O res g c o files).1.1.z = some q.params.z.value ∧
        (F1.fit O res g c o files).1.1.velDisp = q.params.velDisp.value ∧
        (F1.fit O res g c o files).1.1.flux = some (q.params.flux.map LmPar.value) ∧
        (F1.fit O res g c o files).1.1.cont = some (q.params.cont.map LmPar.value) ∧
        m.rows[i]? = some ([(O.minimize q).z, (O.minimize q).velDisp] ++ (O.minimize q).flux ++
          (O.minimize q).cont) := by
  rcases fit_cases O res g c o files with ⟨o', e, h, -⟩ | ⟨r, zg, ns, p, t, lines, -, hr, -, hn, hp,
    ht, hg, h⟩
  · rw [h]
    exact .inl rfl
  · rw [h]
    unfold F1.fitRun
    simp only
    split
    · rename_i f m hs hf hm
      by_cases hk : k = f
      · right
        subst hk
        have hsv := (Bool.and_eq_true _ _).mp hs
        have hrl : c.reloadErrors = false := by
          have := hsv.1
          unfold Fit1DCall.saves at this
          cases hc : c.reloadErrors
          · rfl
          · rw [hc] at this; simp at this
        unfold F1.matrix at hm
        rw [hrl] at hm
        simp only [Bool.false_eq_true, if_false, Except.ok.injEq] at hm
        have hlines : modelLines ns = .ok lines := by
          unfold minimizeGuard at hg
          split at hg
          · cases hg
          · rename_i ls hls
            split at hg
            · cases hg
            · split at hg
              · cases hg
              · rw [hls]; exact hg
        obtain ⟨f0, hf0⟩ := Option.isSome_iff_exists.1 hsv.2
        have hres : (fit1D (some r) (fun vb fb => O.minimize ⟨lines, p.params vb fb, t⟩)
            ((o.initCont.matrix O files c lines p.b t (2 + ns.length + (o.contOrder + 1))
              (bestFit fun vb fb => O.minimize ⟨lines, p.params vb fb, t⟩)).map Mat1.cols)
            (c.args g.hasID) ⟨none, none⟩).1.result =
            some (bestFit fun vb fb => O.minimize ⟨lines, p.params vb fb, t⟩) := by
          unfold fit1D
          rw [bestFit_some hf0]
          simp only [if_neg hr, hf0]
          repeat' split
          all_goals rfl
        have hst : ∀ (a : F1 K) (s : Fit1DState K) (x : Fit1DResult K), s.result = some x →
            (a.store s).z = some x.z ∧ (a.store s).velDisp = x.velDisp ∧
            (a.store s).flux = some x.flux ∧ (a.store s).cont = some x.cont := by
          intro a s x hx
          unfold F1.store
          rw [hx]
          cases s.errors <;> exact ⟨rfl, rfl, rfl, rfl⟩
        obtain ⟨s1, s2, s3, s4⟩ := hst o.initCont _ _ hres
        refine ⟨m, t, ns, lines, hf, if_pos rfl, ht, hn, hlines, ?_, ?_⟩
        · rw [← hm]
          simp [mcMatrix]
        · intro i hi
          refine ⟨⟨lines, mcParams p.b (bestFit fun vb fb => O.minimize ⟨lines, p.params vb fb, t⟩),
            perturb (O.randn i) t⟩, perturb_realisation t _, rfl, s1, s2, ?_, ?_, ?_⟩
          · rw [s3]
            exact congrArg some (map_value _).symm
          · rw [s4]
            exact congrArg some (map_value _).symm
          · rw [← hm]
            simp only [mcMatrix, initCont_numMC, List.getElem?_map, List.getElem?_range hi]
            rfl
      · exact .inl (if_neg hk)
    · exact .inl rfl

/-! ## C143: reloaded matrices -/

omit [IsStrictOrderedRing K] [FloorRing K] in
/-- What a fit that got to the minimisation leaves in the object. -/
theorem store_noErr (o : F1 K) (s : Fit1DState K) (h : s.errors = none) :
    (o.store s).zErr = o.zErr ∧ (o.store s).velErr = o.velErr ∧ (o.store s).fluxErr = o.fluxErr ∧
      (o.store s).contErr = o.contErr := by
  unfold F1.store
  rw [h]
  cases s.result <;> exact ⟨rfl, rfl, rfl, rfl⟩

theorem mcLimits_length : ∀ (cols : List (List K)) lims, mcLimits cols = .ok lims →
    lims.length = cols.length
  | [], lims, h => by
      simp only [mcLimits, Except.ok.injEq] at h
      subst h; rfl
  | col :: cols, lims, h => by
      unfold mcLimits at h
      split at h
      · cases h
      · split at h
        · cases h
        · rename_i ls hls
          cases h
          simp [mcLimits_length cols ls hls]

/-- **C143** (partial): a reloaded matrix whose number of columns is neither 1 nor the number of
parameters never gives errors: the call raises and all errors of the object stay as they were.
Missing from the full claim: matrices with one column, and those of another fit with the same
number of columns, see `C143_one_column_false` and `C143_false`. -/
theorem C143_refused_partial (O : Lm1 K) (hO : O.Shaped) (res : Option K) (g : Gal1D K)
    (c : Fit1DCall) (o : F1 K) (files : Files1 K) (hc : c.noErrors = false)
    (hl : c.reloadErrors = true) (f : String) (hf : c.errFile = some f) (m : Mat1 K)
    (hm : files f = some m) (ns : List String) (hn : o.names = some ns)
    (h1 : m.ncols ≠ 1) (h2 : m.ncols ≠ 2 + ns.length + (o.contOrder + 1)) :
    (∃ e, (F1.fit O res g c o files).2 = some e) ∧
    (F1.fit O res g c o files).1.1.zErr = o.zErr ∧
    (F1.fit O res g c o files).1.1.velErr = o.velErr ∧
    (F1.fit O res g c o files).1.1.fluxErr = o.fluxErr ∧
    (F1.fit O res g c o files).1.1.contErr = o.contErr := by
  have hic : o.initCont.zErr = o.zErr ∧ o.initCont.velErr = o.velErr ∧
      o.initCont.fluxErr = o.fluxErr ∧ o.initCont.contErr = o.contErr := by
    unfold F1.initCont; split <;> exact ⟨rfl, rfl, rfl, rfl⟩
  rcases fit_cases O res g c o files with ⟨o', e, h, h'⟩ | ⟨r, zg, ns', p, t, lines, -, hr, -, hn', hp,
    ht, hg, h⟩
  · rw [h]
    rcases h' with rfl | rfl
    · exact ⟨⟨e, rfl⟩, rfl, rfl, rfl, rfl⟩
    · exact ⟨⟨e, rfl⟩, hic⟩
  · rw [hn] at hn'
    obtain rfl := Option.some.inj hn'
    rw [h]
    unfold F1.fitRun
    set mini : Bool → Bool → Fit1DResult K :=
      fun vb fb => O.minimize ⟨lines, p.params vb fb, t⟩ with hmini
    have hmat : o.initCont.matrix O files c lines p.b t (2 + ns.length + (o.contOrder + 1))
        (bestFit mini) = .ok m := by
      unfold F1.matrix
      rw [hl, hf]
      simp only [if_true, hm]
    simp only [hmat]
    obtain ⟨-, -, -, ns', fl, ct, hns', -, -, hfl, hpf, hct, hpc⟩ := start_ok hp
    rw [initCont_names, hn] at hns'
    obtain rfl := Option.some.inj hns'
    rw [initCont_contOrder] at hct hpc
    obtain ⟨b1, b2, hbf⟩ := bestFit_mem mini
    have hsh := hO ⟨lines, p.params b1 b2, t⟩
    have hrow : (bestFit mini).row.length = 2 + ns.length + (o.contOrder + 1) := by
      have hlf : (bestFit mini).flux.length = ns.length := by
        rw [hbf]; refine hsh.1.trans ?_
        simp [Start1D.params, hpf, hfl]
      have hlc : (bestFit mini).cont.length = o.contOrder + 1 := by
        rw [hbf]; refine hsh.2.trans ?_
        simp [Start1D.params, hpc, hct]
      simp only [Fit1DResult.row, List.length_append, List.length_cons, List.length_nil, hlf, hlc]
    have herr : ∃ e, mcErrors (bestFit mini).row m.cols = .error e := by
      unfold mcErrors
      split
      · exact ⟨_, rfl⟩
      · rename_i lims hlims
        have hlen := mcLimits_length _ _ hlims
        have hcl : m.cols.length = m.ncols := by simp [Mat1.cols]
        rw [if_neg (by rw [hlen, hcl, hrow]; exact h2)]
        rcases lims with _ | ⟨a, _ | ⟨b, lims⟩⟩
        · exact ⟨_, rfl⟩
        · exact absurd (hcl.symm.trans hlen.symm) h1
        · exact ⟨_, rfl⟩
    obtain ⟨e, he⟩ := herr
    have hfit : (fit1D (some r) mini (Except.map Mat1.cols (.ok m)) (c.args g.hasID) ⟨none, none⟩).1.errors =
        none ∧ ∃ e', (fit1D (some r) mini (Except.map Mat1.cols (.ok m)) (c.args g.hasID)
          ⟨none, none⟩).2 = some e' := by
      unfold fit1D
      simp only [if_neg hr]
      split
      · exact ⟨rfl, _, rfl⟩
      · rename_i f0 hf0
        rw [bestFit_some hf0] at he
        split
        · exact ⟨rfl, _, rfl⟩
        · split
          · exact ⟨rfl, _, rfl⟩
          · have ha : (c.args g.hasID).noErrors = false := hc
            rw [ha]
            simp only [Bool.not_false, if_true]
            split
            · exact ⟨rfl, _, rfl⟩
            · simp only [Except.map]
              unfold Fit1DResult.row at he
              rw [he]
              exact ⟨rfl, _, rfl⟩
    obtain ⟨q1, q2, q3, q4⟩ := store_noErr o.initCont _ hfit.1
    exact ⟨hfit.2, q1.trans hic.1, q2.trans hic.2.1, q3.trans hic.2.2.1, q4.trans hic.2.2.2⟩

/-! ## C144: too few pixels -/

/-- **C144**: a fit to a spectrum with fewer good pixels than parameters raises; redshift, dispersion,
fluxes, all errors and all files stay as they were. -/
theorem C144_too_few (O : Lm1 K) (res : Option K) (g : Gal1D K) (c : Fit1DCall) (o : F1 K)
    (files : Files1 K) (t : Spec1D K (Fl K)) (ht : g.trim = some t) (ns : List String)
    (hn : o.names = some ns)
    (hfew : ∀ m, t.mask = some m → (m.filter fun x => decide (x = 1)).length < 2 + ns.length + (o.contOrder + 1)) :
    ∃ e o', F1.fit O res g c o files = ((o', files), some e) ∧ o'.z = o.z ∧ o'.velDisp = o.velDisp ∧
      o'.flux = o.flux ∧ o'.zErr = o.zErr ∧ o'.velErr = o.velErr ∧ o'.fluxErr = o.fluxErr ∧
      o'.contErr = o.contErr := by
  have hcount : goodCount t < 2 + ns.length + (o.contOrder + 1) := by
    unfold goodCount
    split
    · omega
    · rename_i m hm
      have := hfew m hm
      have e : (fun x : Fl K => decide (x = 1)) = fun x => Fl.eqB x 1 := by
        funext x
        rw [Bool.eq_iff_iff, decide_eq_true_iff, Fl.eqB_one_iff]
      rw [e] at this
      exact this
  rcases fit_cases O res g c o files with ⟨o', e, h, h'⟩ | ⟨r, zg, ns', p, t', lines, -, hr, -, hn', hp,
    ht', hg, h⟩
  · refine ⟨e, o', h, ?_⟩
    rcases h' with rfl | rfl
    · exact ⟨rfl, rfl, rfl, rfl, rfl, rfl, rfl⟩
    · unfold F1.initCont
      split <;> exact ⟨rfl, rfl, rfl, rfl, rfl, rfl, rfl⟩
  · exfalso
    rw [hn] at hn'
    obtain rfl := Option.some.inj hn'
    rw [ht] at ht'
    obtain rfl := Option.some.inj ht'
    unfold minimizeGuard at hg
    split at hg
    · cases hg
    · split at hg
      · cases hg
      · cases hg

/-! ## C65 for the fit object -/

/-- **C65** (partial), for the fit object: with a minimiser that respects its bounds, a call of `fit`
either stores no result or, with `q` the problem without these bounds, the dispersion is
non-negative unless the result of `q` had a non-negative dispersion and a negative first flux, and
the first flux is non-negative unless the result of `q` had a negative dispersion and a
non-negative first flux.  Missing from the full claim: these exceptions, see `C65_false`. -/
theorem C65_object_partial (O : Lm1 K) (hO : O.Respects) (res : Option K) (g : Gal1D K)
    (c : Fit1DCall) (o : F1 K) (files : Files1 K) (w : K) (ws : List K) (rest : List (List K))
    (hr : o.restwave = some ((w :: ws) :: rest)) (hw : 0 < w) (hd : 0 ≤ o.delLam)
    (t : Spec1D K (Fl K)) (ht : g.trim = some t) :
    ((F1.fit O res g c o files).1.1.velDisp = o.velDisp ∧
      (F1.fit O res g c o files).1.1.flux = o.flux) ∨
    ∃ (q : Problem1D K) (f0 : K), q.data = t ∧ q.params.velDisp = { value := o.velDisp } ∧
      (∀ p ∈ q.params.flux, p.lo = none ∧ p.hi = none) ∧ (O.minimize q).flux[0]? = some f0 ∧
      (¬ (0 ≤ (O.minimize q).velDisp ∧ f0 < 0) → 0 ≤ (F1.fit O res g c o files).1.1.velDisp) ∧
      (¬ ((O.minimize q).velDisp < 0 ∧ 0 ≤ f0) → ∀ fs f,
        (F1.fit O res g c o files).1.1.flux = some fs → fs[0]? = some f → 0 ≤ f) := by
  have hic : o.initCont.velDisp = o.velDisp ∧ o.initCont.flux = o.flux := by
    unfold F1.initCont; split <;> exact ⟨rfl, rfl⟩
  rcases fit_cases O res g c o files with ⟨o', e, h, h'⟩ | ⟨r, zg, ns, p, t', lines, -, hr0, -, hn, hp,
    ht', hg, h⟩
  · left
    rw [h]
    rcases h' with rfl | rfl
    · exact ⟨rfl, rfl⟩
    · exact hic
  · rw [ht] at ht'
    obtain rfl := Option.some.inj ht'
    rw [h]
    unfold F1.fitRun
    set mini : Bool → Bool → Fit1DResult K :=
      fun vb fb => O.minimize ⟨lines, p.params vb fb, t⟩ with hmini
    set m := o.initCont.matrix O files c lines p.b t (2 + ns.length + (o.contOrder + 1))
      (bestFit mini) with hm
    simp only
    obtain ⟨hb, -, hpv, -⟩ := start_ok hp
    have hb' := zBounds_ok hb (by rw [initCont_restwave]; exact hr) hw
      (by rw [initCont_delLam]; exact hd)
    have room : ∀ p : LmPar K, p.hi = none → p.Room := by
      intro p hp l h _ hh; rw [hp] at hh; exact absurd hh (by simp)
    have hrespect : RespectsBounds mini := by
      have hall : ∀ vb fb, ((p.params vb fb).velDisp.Admits (mini vb fb).velDisp) ∧
          List.Forall₂ LmPar.Admits (p.params vb fb).flux (mini vb fb).flux := by
        intro vb fb
        obtain ⟨-, h2, h3, -⟩ := hO ⟨lines, p.params vb fb, t⟩ (by
          intro l h hl hh
          simp only [Start1D.params, Option.some.injEq] at hl hh
          rw [← hl, ← hh, hb']
          have : 0 ≤ o.delLam / w := div_nonneg hd hw.le
          simp only [initCont_delLam]
          linarith) (room _ rfl) (by simp [Start1D.params, LmPar.Room]) (by simp [Start1D.params, LmPar.Room])
        exact ⟨h2, h3⟩
      constructor
      · intro fb
        exact (hall true fb).1.1 0 rfl
      · intro vb f hf
        have h3 := (hall vb true).2
        obtain ⟨j, hj, rfl⟩ := List.getElem_of_mem hf
        have hj' : j < (p.params vb true).flux.length := by rw [h3.length_eq]; exact hj
        have := (List.forall₂_iff_get.1 h3).2 j hj' hj
        refine this.1 0 ?_
        simp [Start1D.params]
    cases hres : (fit1D (some r) mini (m.map Mat1.cols) (c.args g.hasID) ⟨none, none⟩).1.result with
    | none =>
      left
      unfold F1.store
      rw [hres]
      cases (fit1D (some r) mini (m.map Mat1.cols) (c.args g.hasID) ⟨none, none⟩).1.errors <;> exact hic
    | some x =>
      right
      have hst : (o.initCont.store (fit1D (some r) mini (m.map Mat1.cols) (c.args g.hasID)
          ⟨none, none⟩).1).velDisp = x.velDisp ∧ (o.initCont.store (fit1D (some r) mini
          (m.map Mat1.cols) (c.args g.hasID) ⟨none, none⟩).1).flux = some x.flux := by
        unfold F1.store
        rw [hres]
        cases (fit1D (some r) mini (m.map Mat1.cols) (c.args g.hasID) ⟨none, none⟩).1.errors <;>
          exact ⟨rfl, rfl⟩
      obtain ⟨f0, hf0, -⟩ := fit1D_result (some r) mini (m.map Mat1.cols) (c.args g.hasID)
        ⟨none, none⟩ _ _ rfl rfl x hres
      have key := C65_nonneg_partial (some r) mini hrespect (m.map Mat1.cols) (c.args g.hasID)
        ⟨none, none⟩ _ _ rfl rfl x hres f0 hf0
      refine ⟨⟨lines, p.params false false, t⟩, f0, rfl, ?_, ?_, hf0, ?_, ?_⟩
      · simp only [Start1D.params, hpv, hic.1]
        rfl
      · simp [Start1D.params]
      · rw [hst.1]
        exact key.1
      · rw [hst.2]
        intro hne fs f hfs hf
        obtain rfl := Option.some.inj hfs
        exact key.2 hne f hf

end MC

/-! ## C142: bounds of the realisations -/

/-- The toy galaxy with negative fluxes -/
def darkGal : Gal1D ℚ :=
  { toyGal with spec := some { toySpec with flux := some (List.replicate 16 (Fl.fin (-5))) } }

/-- A fit object for Hα on it -/
def darkMake : F1 ℚ × Gal1D ℚ × Option PyErr :=
  F1.make true darkGal
    { names := some ["Halpha"], flux := some [7], velDisp := some 80, numMC := some 3 }

/-- The call used for the examples -/
def mcCall : Fit1DCall := { noPlot := true, errFile := some "err" }

/-- **C142**, negation: the best fit is made with the dispersion bounded at zero, but the realisations
are fitted without this bound: with a minimiser that respects all bounds the saved matrix contains
negative dispersions although the stored one is zero. -/
theorem C142_false : (toyLm 2).Respects ∧ darkMake.2.2 = none ∧
    (F1.fit (toyLm 2) (some 40) darkMake.2.1 mcCall darkMake.1 fun _ => none).1.1.velDisp = 0 ∧
    ((F1.fit (toyLm 2) (some 40) darkMake.2.1 mcCall darkMake.1
      fun _ => none).1.2 "err").map (fun m => m.col 1) = some [-3, -1, 1] := by
  exact ⟨toyLm_respects 2, by decide +kernel, by decide +kernel, by decide +kernel⟩

/-- The hypotheses of `C65_object_partial` are met there, and a result is stored. -/
example : darkMake.1.restwave = some [[6564.60]] ∧ darkMake.1.delLam = 20 ∧
    darkMake.2.1.trim.isSome ∧ darkMake.1.velDisp = 80 := by
  decide +kernel

/-- `C141_realisations` with a written file: see `C142_false`; the redshifts of the rows. -/
example : ((F1.fit (toyLm 2) (some 40) darkMake.2.1 mcCall darkMake.1
      fun _ => none).1.2 "err").map (fun m => m.rows.length) = some 3 := by
  decide +kernel

/-- The toy fit with a reloaded matrix -/
def reloadToy (m : Mat1 ℚ) : (F1 ℚ × Files1 ℚ) × Option PyErr :=
  F1.fit (toyLm 2) (some 40) (toyMake "Halpha").2.1 { mcCall with reloadErrors := true }
    (toyMake "Halpha").1 fun f => if f = "err" then some m else none

/-- **C143**, negation for matrices with one column: such a matrix is accepted and its single
column gives the errors of all parameters. -/
theorem C143_one_column_false : (reloadToy ⟨[[1], [2], [3]], 1⟩).1.1.velErr.isSome = true ∧
    (reloadToy ⟨[[1], [2], [3]], 1⟩).1.1.fluxErr.isSome = true := by
  decide +kernel

/-- A fit object for two lines with a constant continuum -/
def twoMake : F1 ℚ × Gal1D ℚ × Option PyErr :=
  F1.make true toyGal { names := some ["Halpha", "Hbeta"], flux := some [7, 2], velDisp := some 80,
                        numMC := some 3, contOrder := some 0 }

/-- The matrix it saves -/
def twoSaved : Option (Mat1 ℚ) :=
  (F1.fit (toyLm 2) (some 40) twoMake.2.1 mcCall twoMake.1 fun _ => none).1.2 "err"

/-- **C143**, negation: the matrix written by a fit of two lines with a constant continuum is
accepted by a fit of one line with a linear continuum.  The error of the first continuum
coefficient is then taken from the fluxes of the second line. -/
theorem C143_false : twoMake.2.2 = none ∧ twoSaved.map (fun m => m.col 3) = some [2, 2, 2] ∧
    (twoSaved.map fun m => (reloadToy m).1.1.contErr) = some (some [(-2, 2), (0, 0)]) := by
  decide +kernel

/-- The hypotheses of `C143_refused_partial`: a matrix with three columns. -/
example : (reloadToy ⟨[[1, 1, 1], [2, 2, 2]], 3⟩).2 = some .valueError ∧
    (reloadToy ⟨[[1, 1, 1], [2, 2, 2]], 3⟩).1.1.zErr = none ∧
    (toyMake "Halpha").1.names.map List.length = some 1 ∧ (toyMake "Halpha").1.contOrder = 1 := by
  decide +kernel

/-- The toy galaxy with a trimmed spectrum with two good pixels -/
def fewGal : Gal1D ℚ :=
  { (toyMake "Halpha").2.1 with
    trim := some { toySpec with mask := some (Fl.fin 1 :: Fl.fin 1 :: List.replicate 14 (Fl.fin 0)) } }

/-- The hypotheses of `C144_too_few` are met. -/
example : (F1.fit (toyLm 2) (some 40) fewGal
    mcCall (toyMake "Halpha").1 fun _ => none).2 = some .typeError := by
  decide +kernel

end Misfit
