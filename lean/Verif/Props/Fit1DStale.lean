import Verif.Props.Fit1DUse
import Verif.Props.Fit1DMC

/-!
# C189: values and errors of a 1D fit object; additions to C137, C142
-/

namespace Misfit

variable {K : Type} [Field K] [LinearOrder K] [IsStrictOrderedRing K] [FloorRing K]

/-- The errors of `b` are those of `a`. -/
def SameErrors (a b : F1 K) : Prop :=
  b.zErr = a.zErr ∧ b.velErr = a.velErr ∧ b.fluxErr = a.fluxErr ∧ b.contErr = a.contErr

/-- The fitted values of `b` are those of `a`. -/
def SameValues (a b : F1 K) : Prop :=
  b.z = a.z ∧ b.velDisp = a.velDisp ∧ b.flux = a.flux ∧ b.cont = a.cont

omit [IsStrictOrderedRing K] in
/-- a call that returned passed all checks, and every other call gets as far -/
theorem fit_returned (O : Lm1 K) (res : Option K) (g : Gal1D K) (c : Fit1DCall) (o : F1 K) (files : Files1 K)
    (h : (F1.fit O res g c o files).2 = none) :
    ∃ r p t lines ns f0, res = some r ∧ ¬ r < 0 ∧ o.names = some ns ∧
      ((fun vb fb => O.minimize ⟨lines, p.params vb fb, t⟩) false false).flux[0]? = some f0 ∧
      (∃ zg : PyNum K, o.initCont.start zg.val = .ok p) ∧
      g.hasID = true ∧ c.noErrors = true ∧
      ∀ c', F1.fit O res g c' o files = F1.fitRun O r g files c' o.initCont p t lines
        (2 + ns.length + (o.contOrder + 1)) := by
  rcases fit_cases O res g c o files with ⟨o', e, h', -⟩ | ⟨r, zg, ns, p, t, lines, h1, h2, h3, hn, hp, ht, hl, h'⟩
  · rw [h'] at h; cases h
  · rw [h'] at h
    unfold F1.fitRun fit1D at h
    simp only [if_neg h2] at h
    cases hf : (O.minimize ⟨lines, p.params false false, t⟩).flux[0]? with
    | none => rw [hf] at h; cases h
    | some f0 =>
      rw [hf] at h
      refine ⟨r, p, t, lines, ns, f0, h1, h2, hn, hf, ⟨zg, hp⟩, ?_, ?_, fun c' => ?_⟩
      · by_contra hid
        have hid : g.hasID = false := by simpa using hid
        simp [Fit1DCall.args, hid] at h
      · by_contra hne
        have hne : c.noErrors = false := by simpa using hne
        simp only [Fit1DCall.args, hne, Bool.not_false, if_true] at h
        repeat' split at h
        all_goals cases h
      · unfold F1.fit
        rw [h1]
        simp only [if_neg h2]
        rw [h3, hn]
        simp only
        rw [hp]
        simp only
        rw [ht]
        simp only
        rw [hl]

/-- **C189** (partial): after a call of `fit` that returns, which only happens with `noErrors`, all errors on the object
are zero, one pair for each value, whatever errors were there before.
Missing from the full claim: calls that raise, see `C189_false`. -/
theorem C189_returned_partial (O : Lm1 K) (hO : O.Shaped) (res : Option K) (g : Gal1D K) (c : Fit1DCall) (o : F1 K)
    (files : Files1 K) (h : (F1.fit O res g c o files).2 = none) :
    ∃ fs cs, (F1.fit O res g c o files).1.1.flux = some fs ∧ (F1.fit O res g c o files).1.1.cont = some cs ∧
      (F1.fit O res g c o files).1.1.zErr = some (0, 0) ∧ (F1.fit O res g c o files).1.1.velErr = some (0, 0) ∧
      (F1.fit O res g c o files).1.1.fluxErr = some (List.replicate fs.length (0, 0)) ∧
      (F1.fit O res g c o files).1.1.contErr = some (List.replicate cs.length (0, 0)) := by
  obtain ⟨r, p, t, lines, ns, f0, hr, hr0, hn, hf, ⟨zg, hp⟩, hid, hne, hall⟩ := fit_returned O res g c o files h
  have hrun := hall c
  rw [hrun] at h ⊢
  unfold F1.fitRun fit1D at h ⊢
  simp only [if_neg hr0] at h ⊢
  simp only at hf
  rw [hf] at h ⊢
  simp only [Fit1DCall.args, hid, hne, Bool.not_true, Bool.false_eq_true, if_false] at h ⊢
  split at h
  · cases h
  · rename_i hpl
    rw [if_neg hpl]
    -- sizes
    obtain ⟨-, -, -, ns', fl, ct, hns', -, -, hfl, hpf, hct, hpc⟩ := start_ok hp
    rw [initCont_names, hn] at hns'
    obtain rfl := Option.some.inj hns'
    rw [initCont_contOrder] at hct hpc
    set mini : Bool → Bool → Fit1DResult K := fun vb fb => O.minimize ⟨lines, p.params vb fb, t⟩ with hmini
    obtain ⟨b1, b2, hbf⟩ := bestFit_mem mini
    rw [bestFit_some (mini := mini) hf] at hbf
    have hlf : (refit mini f0).flux.length = ns.length := by
      rw [hbf]; refine (hO ⟨lines, p.params b1 b2, t⟩).1.trans ?_
      simp [Start1D.params, hpf, hfl]
    have hlc : (refit mini f0).cont.length = o.contOrder + 1 := by
      rw [hbf]; refine (hO ⟨lines, p.params b1 b2, t⟩).2.trans ?_
      simp [Start1D.params, hpc, hct]
    refine ⟨(refit mini f0).flux, (refit mini f0).cont, rfl, rfl, rfl, rfl, ?_, ?_⟩
    · simp only [F1.store, initCont_names, hn, Option.getD_some, List.map_cons, List.map_append, List.drop_succ_cons,
        List.drop_zero]
      congr 1
      rw [List.take_append_of_le_length (by rw [List.length_map, hlf]), List.take_of_length_le (by rw [List.length_map, hlf]),
        List.map_const']
    · simp only [F1.store, initCont_names, initCont_contOrder, hn, Option.getD_some, List.map_cons, List.map_append]
      congr 1
      rw [show 2 + ns.length = ns.length + 1 + 1 by omega]
      simp only [List.drop_succ_cons]
      rw [← hlf, List.drop_append_of_le_length (by rw [List.length_map]),
        List.drop_of_length_le (by rw [List.length_map]), List.nil_append,
        List.take_of_length_le (by rw [List.length_map, hlc]), List.map_const']

/-- **C189** (false): if a call without errors returns, the same call with error estimation but without a file for the
Monte Carlo values raises a ValueError and leaves the values of the new fit next to the errors the object had before,
whatever these are. -/
theorem C189_false (O : Lm1 K) (res : Option K) (g : Gal1D K) (o : F1 K) (files : Files1 K) (c : Fit1DCall)
    (h : (F1.fit O res g { c with noErrors := true } o files).2 = none) (he : c.errFile = none)
    (hn : c.noErrors = false) :
    (F1.fit O res g c o files).2 = some .valueError ∧
    SameValues (F1.fit O res g { c with noErrors := true } o files).1.1 (F1.fit O res g c o files).1.1 ∧
    SameErrors o (F1.fit O res g c o files).1.1 := by
  obtain ⟨r, p, t, lines, ns, f0, hr, hr0, hns, hf, -, hid, -, hall⟩ := fit_returned O res g _ o files h
  have hrun := hall { c with noErrors := true }
  rw [hrun] at h
  rw [hall c, hrun]
  unfold F1.fitRun fit1D at h ⊢
  simp only [if_neg hr0] at h ⊢
  simp only at hf
  rw [hf] at h ⊢
  simp only [Fit1DCall.args, hid, Bool.not_true, Bool.false_eq_true, if_false] at h ⊢
  split at h
  · cases h
  · rename_i hpl
    rw [if_neg hpl]
    simp only [if_neg hpl, hn, he, Bool.not_false, if_true, Option.isSome_none]
    refine ⟨trivial, ⟨rfl, rfl, rfl, rfl⟩, ?_⟩
    simp only [SameErrors, F1.store]
    refine ⟨initCont_zErr o, ?_, ?_, ?_⟩ <;> (unfold F1.initCont; split <;> rfl)

/-! ## C137: the continuum order -/

/-- **C137** (partial): with a minimiser that returns one value for each parameter, the continuum order given to
`setAttr` is that of the next fit: it raises and stores nothing, or it stores one coefficient more than the order.
Missing from the full claim: a raised order after a fit is among the first case, see `C137_order_false`. -/
theorem C137_order_partial (strict : Bool) (g : Gal1D K) (o : F1 K) (n : Nat) (O : Lm1 K) (hO : O.Shaped)
    (res : Option K) (c : Fit1DCall) (files : Files1 K) :
    let a := (F1.setAttr strict g { contOrder := some n } o).1
    let out := F1.fit O res g c a files
    (out.2 ≠ none ∧ SameErrors a out.1.1 ∧ out.1.1.z = a.z ∧ out.1.1.velDisp = a.velDisp ∧ out.1.1.flux = a.flux) ∨
      ∃ cs, out.1.1.cont = some cs ∧ cs.length = n + 1 := by
  intro a out
  have ha : a.contOrder = n := by
    show (F1.setAttr strict g { contOrder := some n } o).1.contOrder = n
    unfold F1.setAttr F1.setWaves
    simp only
    repeat' split
    all_goals rfl
  have hout : out = F1.fit O res g c a files := rfl
  clear_value a out
  subst hout
  have hic : SameErrors a a.initCont ∧ a.initCont.z = a.z ∧ a.initCont.velDisp = a.velDisp ∧
      a.initCont.flux = a.flux := by
    unfold F1.initCont SameErrors; split <;> exact ⟨⟨rfl, rfl, rfl, rfl⟩, rfl, rfl, rfl⟩
  rcases fit_cases O res g c a files with ⟨o', e, h, h'⟩ | ⟨r, zg, ns, p, t, lines, -, hr0, -, hn, hp, -, -, h⟩
  · left
    rw [h]
    refine ⟨by simp, ?_⟩
    rcases h' with rfl | rfl
    · exact ⟨⟨rfl, rfl, rfl, rfl⟩, rfl, rfl, rfl⟩
    · exact hic
  · rw [h]
    unfold F1.fitRun fit1D
    simp only [if_neg hr0]
    cases hf : (O.minimize ⟨lines, p.params false false, t⟩).flux[0]? with
    | none =>
      left
      exact ⟨by simp, hic⟩
    | some f0 =>
      right
      obtain ⟨-, -, -, ns', fl, ct, -, -, -, -, -, hct, hpc⟩ := start_ok hp
      rw [initCont_contOrder, ha] at hct hpc
      set mini : Bool → Bool → Fit1DResult K := fun vb fb => O.minimize ⟨lines, p.params vb fb, t⟩ with hmini
      obtain ⟨b1, b2, hbf⟩ := bestFit_mem mini
      rw [bestFit_some (mini := mini) hf] at hbf
      have hlc : (refit mini f0).cont.length = n + 1 := by
        rw [hbf]; refine (hO ⟨lines, p.params b1 b2, t⟩).2.trans ?_
        simp [Start1D.params, hpc, hct]
      refine ⟨(refit mini f0).cont, ?_, hlc⟩
      have hf' : (mini false false).flux[0]? = some f0 := hf
      simp only [hf']
      repeat' split
      all_goals rfl

/-! ## C142: the bounds of the realisations -/

/-- The bounds of all parameters, in order. -/
def Params1D.bounds (p : Params1D K) : List (Option K × Option K) :=
  ([p.z, p.velDisp] ++ p.flux ++ p.cont).map fun x => (x.lo, x.hi)

/-- **C142** (partial): if the first minimisation, which has no lower bounds, finds a non-negative dispersion and a
non-negative first flux, the stored best fit is its result and every realisation in the file is a fit with the same
bounds for every parameter.
Missing from the full claim: best fits with a lower bound of zero, see `C142_false`. -/
theorem C142_bounds_partial (O : Lm1 K) (hO : O.Shaped) (res : Option K) (g : Gal1D K) (c : Fit1DCall) (o : F1 K)
    (files : Files1 K) (k : String) (t : Spec1D K (Fl K)) (ht : g.trim = some t) :
    (F1.fit O res g c o files).1.2 k = files k ∨
    ∃ (m : Mat1 K) (q₀ : Problem1D K) (f0 : K), (F1.fit O res g c o files).1.2 k = some m ∧ q₀.data = t ∧
      (∀ x ∈ [q₀.params.velDisp] ++ q₀.params.flux ++ q₀.params.cont, x.lo = none ∧ x.hi = none) ∧
      (O.minimize q₀).flux[0]? = some f0 ∧
      (0 ≤ (O.minimize q₀).velDisp → 0 ≤ f0 →
        (F1.fit O res g c o files).1.1.velDisp = (O.minimize q₀).velDisp ∧
        (F1.fit O res g c o files).1.1.flux = some (O.minimize q₀).flux ∧
        ∀ i < o.numMC, ∃ q : Problem1D K, Realisation t q.data (O.randn i) ∧ q.lines = q₀.lines ∧
          q.params.bounds = q₀.params.bounds ∧
          m.rows[i]? = some ([(O.minimize q).z, (O.minimize q).velDisp] ++ (O.minimize q).flux ++
            (O.minimize q).cont)) := by
  rcases fit_cases O res g c o files with ⟨o', e, h, -⟩ | ⟨r, zg, ns, p, t', lines, -, hr, -, hn, hp, ht', hg, h⟩
  · rw [h]
    exact .inl rfl
  · rw [ht] at ht'
    obtain rfl := Option.some.inj ht'
    rw [h]
    unfold F1.fitRun
    simp only
    split
    · rename_i f m hs hf hm
      by_cases hk : k = f
      · right
        subst hk
        have hsv := (Bool.and_eq_true _ _).mp hs
        have hrl : c.reloadErrors = false := by
          have := hsv.1
          unfold Fit1DCall.saves at this
          cases hc : c.reloadErrors
          · rfl
          · rw [hc] at this; simp at this
        unfold F1.matrix at hm
        rw [hrl] at hm
        simp only [Bool.false_eq_true, if_false, Except.ok.injEq] at hm
        obtain ⟨f0, hf0⟩ := Option.isSome_iff_exists.1 hsv.2
        have hbest := bestFit_some (mini := fun vb fb => O.minimize ⟨lines, p.params vb fb, t⟩) hf0
        refine ⟨m, ⟨lines, p.params false false, t⟩, f0, if_pos rfl, rfl, ?_, hf0, fun h1 h2 => ?_⟩
        · simp only [Start1D.params, List.mem_append, List.mem_singleton, List.mem_map]
          rintro x ((rfl | ⟨y, -, rfl⟩) | ⟨y, -, rfl⟩) <;> exact ⟨rfl, rfl⟩
        · have hre : refit (fun vb fb => O.minimize ⟨lines, p.params vb fb, t⟩) f0 =
              O.minimize ⟨lines, p.params false false, t⟩ := by
            unfold refit refitBounds
            simp only [not_lt.2 h1, not_lt.2 h2, false_and, if_false]
          have hres : (fit1D (some r) (fun vb fb => O.minimize ⟨lines, p.params vb fb, t⟩)
              ((o.initCont.matrix O files c lines p.b t (2 + ns.length + (o.contOrder + 1))
                (bestFit fun vb fb => O.minimize ⟨lines, p.params vb fb, t⟩)).map Mat1.cols)
              (c.args g.hasID) ⟨none, none⟩).1.result =
              some (O.minimize ⟨lines, p.params false false, t⟩) := by
            unfold fit1D
            simp only [if_neg hr, hf0, hre]
            repeat' split
            all_goals rfl
          have hst : ∀ (a : F1 K) (s : Fit1DState K) (x : Fit1DResult K), s.result = some x →
              (a.store s).velDisp = x.velDisp ∧ (a.store s).flux = some x.flux := by
            intro a s x hx
            unfold F1.store
            rw [hx]
            cases s.errors <;> exact ⟨rfl, rfl⟩
          obtain ⟨s1, s2⟩ := hst o.initCont _ _ hres
          refine ⟨s1, s2, fun i hi => ?_⟩
          refine ⟨⟨lines, mcParams p.b (O.minimize ⟨lines, p.params false false, t⟩), perturb (O.randn i) t⟩,
            perturb_realisation t _, rfl, ?_, ?_⟩
          · obtain ⟨l1, l2⟩ := hO ⟨lines, p.params false false, t⟩
            simp only [Start1D.params, List.length_map, Bool.false_eq_true, if_false] at l1 l2
            simp only [Params1D.bounds, mcParams, Start1D.params, List.map_append, List.map_map, List.map_cons,
              List.map_nil, Bool.false_eq_true, if_false, Function.comp_def, List.map_const']
            rw [l1, l2]
          · rw [← hm, hbest, hre]
            simp only [mcMatrix, initCont_numMC, List.getElem?_map, List.getElem?_range hi]
            rfl
      · exact .inl (if_neg hk)
    · exact .inl rfl

/-- The hypotheses are met: after a fit with errors the second object on the galaxy changes the spectrum (C135), and a
call without error file fits a dispersion of 3 next to the errors of the dispersion of 5. -/
example :
    let o := (F1.fit (toyLm 2) (some 40) (toyMake "Halpha").2.1 { noPlot := true, errFile := some "err" }
      (toyMake "Halpha").1 fun _ => none).1.1
    let g := (F1.make true (toyMake "Halpha").2.1 { names := some ["Hbeta"], flux := some [7], velDisp := some 80 }).2.1
    o.velDisp = 5 ∧ o.velErr.isSome = true ∧
    (F1.fit (toyLm 2) (some 40) g { noPlot := true, noErrors := true } o fun _ => none).2 = none ∧
    (F1.fit (toyLm 2) (some 40) g { noPlot := true } o fun _ => none).1.1.velDisp = 3 ∧
    (F1.fit (toyLm 2) (some 40) g { noPlot := true } o fun _ => none).1.1.velErr = o.velErr := by
  decide +kernel

/-- The cases of `C137_order_partial` and `C142_bounds_partial` in which something is stored. -/
example :
    ((F1.fit (toyLm 2) (some 40) (toyMake "Halpha").2.1 { noPlot := true, noErrors := true }
      (F1.setAttr true (toyMake "Halpha").2.1 { contOrder := some 0 } (toyMake "Halpha").1).1 fun _ => none).1.1.cont.map
        List.length = some 1) ∧
    ((F1.fit (toyLm 2) (some 40) (toyMake "Halpha").2.1 mcCall (toyMake "Halpha").1 fun _ => none).1.2 "err").isSome ∧
    (F1.fit (toyLm 2) (some 40) (toyMake "Halpha").2.1 mcCall (toyMake "Halpha").1 fun _ => none).1.1.velDisp = 5 := by
  decide +kernel

end Misfit
