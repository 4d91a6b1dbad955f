import Verif.Model.Fit1DObj
import Verif.Lemmas.Posterior
import Verif.Lemmas.Trim

/-!
# Lemmas about the 1D fit object
-/

namespace Misfit
variable {K : Type} [Field K] [LinearOrder K]

theorem bestFit_some {mini : Bool → Bool → Fit1DResult K} {f0 : K}
    (h : (mini false false).flux[0]? = some f0) : bestFit mini = refit mini f0 := by
  unfold bestFit
  simp only [h]

section Fit
variable [FloorRing K]

/-- What `fit1D` leaves behind when started with nothing. -/
theorem fit1D_state (r : K) (mini : Bool → Bool → Fit1DResult K)
    (cols : Except PyErr (List (List K))) (a : Fit1DArgs) :
    ((fit1D (some r) mini cols a ⟨none, none⟩).1.result = none ∨
      (fit1D (some r) mini cols a ⟨none, none⟩).1.result = some (bestFit mini)) := by
  unfold fit1D
  simp only
  split
  · exact .inl rfl
  · split
    · exact .inl rfl
    · rename_i f0 hf0
      right
      rw [bestFit_some hf0]
      repeat' split
      all_goals rfl

/-- The errors `fit1D` leaves behind when it estimates them. -/
theorem fit1D_errors (r : K) (mini : Bool → Bool → Fit1DResult K)
    (cols : Except PyErr (List (List K))) (a : Fit1DArgs) (ha : a.noErrors = false)
    (es : List (K × K))
    (h : (fit1D (some r) mini cols a ⟨none, none⟩).1.errors = some es) :
    a.errFile = true ∧ (fit1D (some r) mini cols a ⟨none, none⟩).1.result = some (bestFit mini) ∧
      a.hasID = true ∧ (a.noPlot = true ∨ a.plotFile = true) ∧
      (mini false false).flux[0]?.isSome ∧
      ∃ cs, cols = .ok cs ∧ mcErrors (bestFit mini).row cs = .ok es := by
  unfold fit1D at h ⊢
  simp only at h ⊢
  split at h
  · exact absurd h (by simp)
  · rename_i hr
    rw [if_neg hr]
    split at h
    · exact absurd h (by simp)
    · rename_i f0 hf0
      split at h
      · exact absurd h (by simp)
      · rename_i hid
        split at h
        · exact absurd h (by simp)
        · rename_i hp
          rw [ha] at h ⊢
          simp only [Bool.not_false, if_true] at h ⊢
          split at h
          · exact absurd h (by simp)
          · rename_i hef
            split at h
            · exact absurd h (by simp)
            · rename_i cs
              split at h
              · exact absurd h (by simp)
              · rename_i es' hes
                simp only [Bool.not_eq_true', Bool.not_eq_false] at hid hef
                rw [bestFit_some hf0]
                simp only [hf0, hid, hef, hp]
                have : a.noPlot = true ∨ a.plotFile = true := by
                  cases h1 : a.noPlot <;> cases h2 : a.plotFile <;> simp [h1, h2] at hp ⊢
                refine ⟨trivial, ?_, trivial, this, rfl, cs, rfl, ?_⟩
                · simp
                · rw [Fit1DResult.row, hes, Option.some.inj h]

/-- Every way a fit can end. -/
theorem fit_cases (O : Lm1 K) (res : Option K) (g : Gal1D K) (c : Fit1DCall) (o : F1 K)
    (files : Files1 K) :
    (∃ o' e, F1.fit O res g c o files = ((o', files), some e) ∧ (o' = o ∨ o' = o.initCont)) ∨
    ∃ r zg ns p t lines, res = some r ∧ ¬ r < 0 ∧ g.z = some zg ∧ o.names = some ns ∧
      o.initCont.start zg.val = .ok p ∧ g.trim = some t ∧
      minimizeGuard ns (2 + ns.length + (o.contOrder + 1)) t = .ok lines ∧
      F1.fit O res g c o files = F1.fitRun O r g files c o.initCont p t lines
        (2 + ns.length + (o.contOrder + 1)) := by
  unfold F1.fit
  cases res with
  | none => exact .inl ⟨o, _, rfl, .inl rfl⟩
  | some r =>
    simp only
    by_cases hr : r < 0
    · rw [if_pos hr]
      exact .inl ⟨o, _, rfl, .inl rfl⟩
    · rw [if_neg hr]
      cases hz : g.z with
      | none => exact .inl ⟨_, _, rfl, .inr rfl⟩
      | some zg =>
        cases hn : o.names with
        | none => exact .inl ⟨_, _, rfl, .inr rfl⟩
        | some ns =>
          simp only
          cases hp : o.initCont.start zg.val with
          | error e => exact .inl ⟨_, _, rfl, .inr rfl⟩
          | ok p =>
            cases ht : g.trim with
            | none => exact .inl ⟨_, _, rfl, .inr rfl⟩
            | some t =>
              simp only
              cases hl : minimizeGuard ns (2 + ns.length + (o.contOrder + 1)) t with
              | error e => exact .inl ⟨_, _, rfl, .inr rfl⟩
              | ok lines =>
                exact .inr ⟨r, zg, ns, p, t, lines, rfl, hr, rfl, rfl, hp, rfl, hl, rfl⟩

end Fit

@[simp] theorem initCont_z (o : F1 K) : o.initCont.z = o.z := by unfold F1.initCont; split <;> rfl
@[simp] theorem initCont_names (o : F1 K) : o.initCont.names = o.names := by
  unfold F1.initCont; split <;> rfl
@[simp] theorem initCont_restwave (o : F1 K) : o.initCont.restwave = o.restwave := by
  unfold F1.initCont; split <;> rfl
@[simp] theorem initCont_delLam (o : F1 K) : o.initCont.delLam = o.delLam := by
  unfold F1.initCont; split <;> rfl
@[simp] theorem initCont_contOrder (o : F1 K) : o.initCont.contOrder = o.contOrder := by
  unfold F1.initCont; split <;> rfl
@[simp] theorem initCont_zErr (o : F1 K) : o.initCont.zErr = o.zErr := by
  unfold F1.initCont; split <;> rfl
@[simp] theorem initCont_numMC (o : F1 K) : o.initCont.numMC = o.numMC := by
  unfold F1.initCont; split <;> rfl

@[simp] theorem store_restwave (o : F1 K) (s : Fit1DState K) : (o.store s).restwave = o.restwave := by
  unfold F1.store; cases s.result <;> cases s.errors <;> rfl
@[simp] theorem store_delLam (o : F1 K) (s : Fit1DState K) : (o.store s).delLam = o.delLam := by
  unfold F1.store; cases s.result <;> cases s.errors <;> rfl
@[simp] theorem store_names (o : F1 K) (s : Fit1DState K) : (o.store s).names = o.names := by
  unfold F1.store; cases s.result <;> cases s.errors <;> rfl
@[simp] theorem store_contOrder (o : F1 K) (s : Fit1DState K) :
    (o.store s).contOrder = o.contOrder := by
  unfold F1.store; cases s.result <;> cases s.errors <;> rfl

theorem store_z (o : F1 K) (s : Fit1DState K) :
    (o.store s).z = match s.result with | none => o.z | some r => some r.z := by
  unfold F1.store; cases s.result <;> cases s.errors <;> rfl

theorem store_zErr (o : F1 K) (s : Fit1DState K) :
    (o.store s).zErr = match s.errors with | none => o.zErr | some es => es[0]? := by
  unfold F1.store; cases s.result <;> cases s.errors <;> rfl

/-- The start values when they exist. -/
theorem start_ok {o : F1 K} {zg : K} {p : Start1D K} (h : o.start zg = .ok p) :
    o.zBounds zg = .ok p.b ∧ p.z = o.z.getD zg ∧ p.velDisp = o.velDisp ∧
    ∃ ns fl ct, o.names = some ns ∧ o.flux = some fl ∧ o.cont = some ct ∧
      ns.length ≤ fl.length ∧ p.flux = fl.take ns.length ∧
      o.contOrder + 1 ≤ ct.length ∧ p.cont = ct.take (o.contOrder + 1) := by
  unfold F1.start at h
  cases hb : o.zBounds zg with
  | error e => rw [hb] at h; simp at h
  | ok b =>
    rw [hb] at h
    simp only at h
    cases hn : o.names with
    | none => rw [hn] at h; simp at h
    | some ns =>
      cases hf : o.flux with
      | none => rw [hn, hf] at h; simp at h
      | some fl =>
        cases hc : o.cont with
        | none => rw [hn, hf, hc] at h; simp at h
        | some ct =>
          rw [hn, hf, hc] at h
          simp only [takeIdx] at h
          by_cases h1 : fl.length < ns.length
          · rw [if_pos h1] at h; simp at h
          · rw [if_neg h1] at h
            simp only at h
            by_cases h2 : ct.length < o.contOrder + 1
            · rw [if_pos h2] at h; simp at h
            · rw [if_neg h2] at h
              simp only [Except.ok.injEq] at h
              subst h
              exact ⟨rfl, rfl, rfl, ns, fl, ct, rfl, rfl, rfl, by omega, rfl, by omega, rfl⟩

theorem zBounds_ok [IsStrictOrderedRing K] {o : F1 K} {zg w : K} {ws : List K}
    {rest : List (List K)} {b : K × K}
    (h : o.zBounds zg = .ok b) (hr : o.restwave = some ((w :: ws) :: rest)) (hw : 0 < w)
    (hd : 0 ≤ o.delLam) : b = (zg - o.delLam / w, zg + o.delLam / w) := by
  unfold F1.zBounds F1.firstWave at h
  rw [hr] at h
  simp only [if_neg hw.ne'] at h
  unfold lmBounds at h
  have hp : 0 ≤ o.delLam / w := div_nonneg hd hw.le
  split at h
  · simp at h
  · split at h
    · linarith
    · exact (Except.ok.inj h).symm

end Misfit
