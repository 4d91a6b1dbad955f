import Verif.Props.Fit1DMC

/-!
# Why a 1D fit fails

Model: `Verif.Model.Fit1DObj`.  A call that asks for errors never returns (C63); the causes of failure of the
other calls are listed here, with the exception of each.
-/

namespace Misfit
variable {K : Type} [Field K] [LinearOrder K] [IsStrictOrderedRing K] [FloorRing K]

/-- Why a call of `fit` without error estimation raised `e`. -/
inductive Why1D (res : Option K) (g : Gal1D K) (c : Fit1DCall) (o : F1 K) : PyErr → Prop
  /-- no resolution, or a negative one -/
  | noResolution : res = none → Why1D res g c o .typeError
  | negative (r : K) : res = some r → r < 0 → Why1D res g c o .valueError
  /-- the galaxy has no redshift, no number, no trimmed spectrum -/
  | noRedshift : g.z = none → Why1D res g c o .typeError
  | noID : g.hasID = false → Why1D res g c o .typeError
  | noSpectrum : g.trim = none → Why1D res g c o .attributeError
  /-- no line sets, an empty list of line sets, an unknown one -/
  | noNames : o.names = none → Why1D res g c o .typeError
  | noLines : o.names = some [] → Why1D res g c o .keyError
  | unknown (ns : List String) (n : String) (e : PyErr) :
      o.names = some ns → n ∈ ns → groupLines n = .error e → Why1D res g c o e
  /-- the first rest wavelength is missing or zero; the window of the redshift is empty -/
  | noWaves : o.restwave = none → Why1D res g c o .typeError
  | emptyWaves : o.restwave = some [] ∨ (∃ rest, o.restwave = some ([] :: rest)) → Why1D res g c o .indexError
  | zeroWave (ws : List K) (rest : List (List K)) : o.restwave = some ((0 :: ws) :: rest) →
      Why1D res g c o .zeroDivisionError
  | window : o.delLam = 0 → Why1D res g c o .valueError
  /-- too few starting values -/
  | noFlux : o.flux = none → Why1D res g c o .typeError
  | fewFlux (ns : List String) (fl : List K) : o.names = some ns → o.flux = some fl → fl.length < ns.length →
      Why1D res g c o .indexError
  | fewCont (ct : List K) : o.cont = some ct → ct.length < o.contOrder + 1 → Why1D res g c o .indexError
  /-- too few pixels with mask 1 -/
  | noPixel (t : Spec1D K (Fl K)) : g.trim = some t → goodCount t = 0 → Why1D res g c o .valueError
  | fewPixels (t : Spec1D K (Fl K)) (ns : List String) : g.trim = some t → o.names = some ns →
      goodCount t < 2 + ns.length + (o.contOrder + 1) → Why1D res g c o .typeError
  /-- a plot without a file name -/
  | noPlotFile : c.noPlot = false → c.plotFile = none → Why1D res g c o .valueError

omit [IsStrictOrderedRing K] [FloorRing K] [Field K] [LinearOrder K] in
theorem modelLines_error {ns : List String} {e : PyErr} (h : modelLines ns = .error e) :
    ∃ n ∈ ns, groupLines n = .error e := by
  induction ns with
  | nil => cases h
  | cons n ns ih =>
    unfold modelLines at h
    split at h
    · rename_i e' he
      cases h
      exact ⟨n, List.mem_cons_self .., he⟩
    · split at h
      · rename_i e' he
        cases h
        obtain ⟨m, hm, h'⟩ := ih he
        exact ⟨m, List.mem_cons_of_mem _ hm, h'⟩
      · cases h

theorem modelLines_known {ns : List String} {ls : List (List (ℚ × ℚ))} (h : modelLines ns = .ok ls) :
    ∀ n ∈ ns, ∀ e, groupLines n ≠ .error e := by
  induction ns generalizing ls with
  | nil => intro n hn; cases hn
  | cons m ns ih =>
    unfold modelLines at h
    split at h
    · cases h
    · rename_i l hl
      split at h
      · cases h
      · rename_i ls' hls
        intro n hn e
        rcases List.mem_cons.1 hn with rfl | hn
        · rw [hl]; simp
        · exact ih hls n hn e

variable {res : Option K} {g : Gal1D K} {c : Fit1DCall} {o : F1 K}

omit [FloorRing K] in
theorem start_error {zg : K} {e : PyErr} {ns : List String} (hn : o.names = some ns)
    (h : o.initCont.start zg = .error e) : Why1D res g c o e := by
  unfold F1.start at h
  split at h
  · rename_i e' he
    cases h
    unfold F1.zBounds F1.firstWave at he
    rw [initCont_restwave, initCont_delLam] at he
    cases hw : o.restwave with
    | none => rw [hw] at he; cases he; exact .noWaves hw
    | some l =>
      rw [hw] at he
      cases l with
      | nil => cases he; exact .emptyWaves (Or.inl hw)
      | cons a rest =>
        cases a with
        | nil => cases he; exact .emptyWaves (Or.inr ⟨rest, hw⟩)
        | cons w ws =>
          simp only at he
          split at he
          · rename_i h0
            cases he
            subst h0
            exact .zeroWave ws rest hw
          · rename_i h0
            unfold lmBounds at he
            split at he
            · rename_i heq
              cases he
              refine .window ?_
              have h2 : o.delLam / w = 0 := by linarith
              rcases div_eq_zero_iff.1 h2 with h | h
              · exact h
              · exact absurd h h0
            · split at he <;> cases he
  · rw [initCont_names, hn] at h
    have hf : o.initCont.flux = o.flux := by unfold F1.initCont; split <;> rfl
    rw [hf, initCont_contOrder] at h
    obtain ⟨ct, hct⟩ : ∃ ct, o.initCont.cont = some ct := by
      unfold F1.initCont
      cases hc : o.cont with
      | none => exact ⟨_, rfl⟩
      | some ct => exact ⟨ct, hc⟩
    cases hfl : o.flux with
    | none => rw [hfl] at h; cases h; exact .noFlux hfl
    | some fl =>
      rw [hfl, hct] at h
      simp only [takeIdx] at h
      by_cases h1 : fl.length < ns.length
      · rw [if_pos h1] at h
        cases h
        exact .fewFlux ns fl hn hfl h1
      · rw [if_neg h1] at h
        simp only at h
        by_cases h2 : ct.length < o.contOrder + 1
        · rw [if_pos h2] at h
          cases h
          unfold F1.initCont at hct
          cases hc : o.cont with
          | none =>
            rw [hc] at hct
            simp only [Option.some.injEq] at hct
            rw [← hct, List.length_replicate] at h2
            omega
          | some ct' =>
            rw [hc] at hct
            simp only [hc, Option.some.injEq] at hct
            subst hct
            exact .fewCont ct' hc h2
        · rw [if_neg h2] at h
          cases h

/-- the outcome of the last part of a fit without errors -/
theorem fitRun_outcome (O : Lm1 K) (hO : O.Shaped) {r : K} (hr : ¬ r < 0) {files : Files1 K} {p : Start1D K}
    {t : Spec1D K (Fl K)} {lines : List (List (ℚ × ℚ))} {nPar : Nat} (hc : c.noErrors = true) :
    (F1.fitRun O r g files c o p t lines nPar).2 =
      if p.flux = [] then some .keyError
      else if g.hasID = false then some .typeError
      else if c.noPlot = false ∧ c.plotFile = none then some .valueError
      else none := by
  have hs := (hO ⟨lines, p.params false false, t⟩).1
  unfold F1.fitRun fit1D
  simp only [if_neg hr, Fit1DCall.args, hc]
  have hlen : (p.params false false).flux.length = p.flux.length := by simp [Start1D.params]
  rw [hlen] at hs
  by_cases hf : p.flux = []
  · rw [if_pos hf]
    rw [hf, List.length_nil] at hs
    rw [List.length_eq_zero_iff.1 hs]
    rfl
  · rw [if_neg hf]
    have hpos : 0 < (O.minimize ⟨lines, p.params false false, t⟩).flux.length := by
      rw [hs]; exact List.length_pos_iff.2 hf
    rw [List.getElem?_eq_getElem hpos]
    simp only
    cases hid : g.hasID <;> cases hp : c.noPlot <;> cases hq : c.plotFile <;> simp

/-- **C197** (causes): a call of `fit` without error estimation that fails does so for one of the listed reasons, with the exception
listed. -/
theorem C197_causes (O : Lm1 K) (hO : O.Shaped) {files : Files1 K} {e : PyErr} (hc : c.noErrors = true)
    (h : (F1.fit O res g c o files).2 = some e) : Why1D res g c o e := by
  unfold F1.fit at h
  cases hres : res with
  | none => rw [hres] at h; cases h; rw [← hres]; exact .noResolution hres
  | some r =>
    rw [← hres]
    rw [hres] at h
    simp only at h
    by_cases hr : r < 0
    · rw [if_pos hr] at h
      cases h
      exact .negative r hres hr
    · rw [if_neg hr] at h
      cases hz : g.z with
      | none => rw [hz] at h; cases h; exact .noRedshift hz
      | some zg =>
        cases hn : o.names with
        | none => rw [hz, hn] at h; cases h; exact .noNames hn
        | some ns =>
          rw [hz, hn] at h
          simp only at h
          cases hs : o.initCont.start zg.val with
          | error e' => rw [hs] at h; cases h; exact start_error hn hs
          | ok p =>
            rw [hs] at h
            simp only at h
            cases ht : g.trim with
            | none => rw [ht] at h; cases h; exact .noSpectrum ht
            | some t =>
              rw [ht] at h
              simp only at h
              unfold minimizeGuard at h
              cases hl : modelLines ns with
              | error e' =>
                rw [hl] at h
                cases h
                obtain ⟨n, hm, hg⟩ := modelLines_error hl
                exact .unknown ns n _ hn hm hg
              | ok ls =>
                rw [hl] at h
                simp only at h
                by_cases h1 : goodCount t = 0 ∧ ns ≠ []
                · rw [if_pos h1] at h
                  cases h
                  exact .noPixel t ht h1.1
                · rw [if_neg h1] at h
                  by_cases h2 : goodCount t < 2 + ns.length + (o.contOrder + 1)
                  · rw [if_pos h2] at h
                    cases h
                    exact .fewPixels t ns ht hn h2
                  · rw [if_neg h2] at h
                    simp only at h
                    rw [fitRun_outcome O hO hr hc] at h
                    obtain ⟨-, -, -, ns', fl, ct, hns, -, -, hle, hfl, -⟩ := start_ok hs
                    rw [initCont_names, hn] at hns
                    obtain rfl := Option.some.inj hns
                    split at h
                    · rename_i hp
                      cases h
                      rw [hfl, ← List.length_eq_zero_iff, List.length_take, Nat.min_eq_left hle] at hp
                      exact .noLines (by rw [hn, List.length_eq_zero_iff.1 hp])
                    · split at h
                      · rename_i hid
                        cases h
                        exact .noID hid
                      · split at h
                        · rename_i hp
                          cases h
                          exact .noPlotFile hp.1 hp.2
                        · cases h

/-- **C197** (exactly): a call of `fit` returns if and only if no errors are asked for and none of the listed causes is
there. -/
theorem C197_exact (O : Lm1 K) (hO : O.Shaped) {files : Files1 K} :
    (F1.fit O res g c o files).2 = none ↔ c.noErrors = true ∧ ∀ e, ¬ Why1D res g c o e := by
  constructor
  · intro h
    rcases fit_cases O res g c o files with ⟨o', e, h', -⟩ | ⟨r, zg, ns, p, t, lines, h1, hr, h2, h3, h4, h5, h6, h7⟩
    · rw [h'] at h; cases h
    · rw [h7] at h
      have hc : c.noErrors = true := by
        cases hc : c.noErrors with
        | true => rfl
        | false =>
          exfalso
          unfold F1.fitRun at h
          simp only at h
          obtain ⟨s', e, he⟩ := C63_false (some r) (fun vb fb => O.minimize ⟨lines, p.params vb fb, t⟩)
            ((o.initCont.matrix O files c lines p.b t (2 + ns.length + (o.contOrder + 1))
              (bestFit fun vb fb => O.minimize ⟨lines, p.params vb fb, t⟩)).map Mat1.cols) (c.args g.hasID) hc ⟨none, none⟩
          rw [he] at h
          cases h
      refine ⟨hc, fun e hw => ?_⟩
      rw [fitRun_outcome O hO hr hc] at h
      obtain ⟨hb, -, -, ns', fl, ct, hns, hfl, hct, hle, hpf, hlc, -⟩ := start_ok h4
      rw [initCont_names, h3] at hns
      obtain rfl := Option.some.inj hns
      have hf : o.initCont.flux = o.flux := by unfold F1.initCont; split <;> rfl
      rw [hf] at hfl
      have hg : modelLines ns = .ok lines ∧ ¬ (goodCount t = 0 ∧ ns ≠ []) ∧
          ¬ goodCount t < 2 + ns.length + (o.contOrder + 1) := by
        unfold minimizeGuard at h6
        split at h6
        · cases h6
        · rename_i ls hls
          split at h6
          · cases h6
          · rename_i hA
            split at h6
            · cases h6
            · rename_i hB
              cases h6
              exact ⟨hls, hA, hB⟩
      unfold F1.zBounds F1.firstWave at hb
      rw [initCont_restwave, initCont_delLam] at hb
      cases hw with
      | noResolution h => rw [h] at h1; cases h1
      | negative r' h h' => rw [h] at h1; cases h1; exact hr h'
      | noRedshift h => rw [h] at h2; cases h2
      | noID h' => rw [if_pos h'] at h; split at h <;> cases h
      | noSpectrum h => rw [h] at h5; cases h5
      | noNames h => rw [h] at h3; cases h3
      | noLines h' =>
        rw [h'] at h3
        cases h3
        rw [if_pos (by rw [hpf]; rfl)] at h
        cases h
      | unknown ns' n _ h hm he =>
        rw [h] at h3
        cases h3
        exact modelLines_known hg.1 n hm _ he
      | noWaves h => rw [h] at hb; cases hb
      | emptyWaves h => rcases h with h | ⟨rest, h⟩ <;> (rw [h] at hb; cases hb)
      | zeroWave ws rest h => rw [h] at hb; simp at hb
      | window h =>
        rw [h] at hb
        split at hb
        · cases hb
        · split at hb
          · cases hb
          · simp [lmBounds] at hb
      | noFlux h => rw [h] at hfl; cases hfl
      | fewFlux ns' fl' h h' hlt =>
        rw [h] at h3; cases h3
        rw [h'] at hfl; cases hfl
        omega
      | fewCont ct' h hlt =>
        have : o.initCont.cont = some ct' := by unfold F1.initCont; rw [h]; exact h
        rw [this] at hct
        cases hct
        rw [initCont_contOrder] at hlc
        omega
      | noPixel t' h' h0 =>
        rw [h'] at h5
        cases h5
        by_cases hne : ns = []
        · exact hg.2.2 (by rw [h0]; omega)
        · exact hg.2.1 ⟨h0, hne⟩
      | fewPixels t' ns' h' hn hlt =>
        rw [h'] at h5; cases h5
        rw [hn] at h3; cases h3
        exact hg.2.2 hlt
      | noPlotFile hp hq =>
        by_cases a1 : p.flux = []
        · rw [if_pos a1] at h; cases h
        · by_cases a2 : g.hasID = false
          · rw [if_neg a1, if_pos a2] at h; cases h
          · rw [if_neg a1, if_neg a2, if_pos ⟨hp, hq⟩] at h; cases h
  · rintro ⟨hc, hw⟩
    cases h : (F1.fit O res g c o files).2 with
    | none => rfl
    | some e => exact absurd (C197_causes O hO hc h) (hw e)

/-- A fit that returns -/
example : (F1.fit (toyLm 2) (some 40) (toyMake "Halpha").2.1 { noPlot := true, noErrors := true } (toyMake "Halpha").1
    fun _ => none).2 = none := by
  decide +kernel

/-- Fits that fail, with the exception of their cause: a plot without file name, a negative resolution, two good pixels, no good
pixel -/
example : (F1.fit (toyLm 2) (some 40) (toyMake "Halpha").2.1 { noErrors := true } (toyMake "Halpha").1
      fun _ => none).2 = some .valueError ∧
    (F1.fit (toyLm 2) (some (-1)) (toyMake "Halpha").2.1 { noPlot := true, noErrors := true } (toyMake "Halpha").1
      fun _ => none).2 = some .valueError ∧
    (F1.fit (toyLm 2) (some 40) fewGal { noPlot := true, noErrors := true } (toyMake "Halpha").1
      fun _ => none).2 = some .typeError ∧
    (F1.fit (toyLm 2) (some 40) { fewGal with trim := some { toySpec with mask := some (List.replicate 16 (Fl.fin 0)) } }
      { noPlot := true, noErrors := true } (toyMake "Halpha").1 fun _ => none).2 = some .valueError := by
  decide +kernel

end Misfit
