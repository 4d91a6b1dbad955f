import Verif.Model.WholeFit
import Verif.Lemmas.PlotFit
import Verif.Props.Workers

/-! Helper lemmas for `Verif.Props.WholeFit`. -/

namespace Misfit
variable {V : Type*} {r c : Nat}

/-- the object a fit sets up: the one it is called on with the settings it is given -/
def Fit2D.given (s : Fit2D r c) (new : Option FitSettings) : Fit2D r c := { s with settings := settingsUsed new s }

theorem fit_given (o : PeakFinder) (run : Fit2D r c → Except PyErr Chain) (new : Option FitSettings) (s : Fit2D r c)
    (d : Disk r c) : s.fit o run new d = (s.given new).fit o run none d := by
  cases new <;> rfl

/-- the stages of a fit that returned -/
theorem fit_stages (o : PeakFinder) (run : Fit2D r c → Except PyErr Chain) (new : Option FitSettings) (s s2 : Fit2D r c)
    (d d2 : Disk r c) (h : s.fit o run new d = (s2, d2, .ok ())) :
    ∃ sm ch k out names cols res, (s.given new).setupModel = (sm, .ok ()) ∧ run sm = .ok ch ∧ sm.kinModel = some k ∧
      addVRe22 { theta := k.m.params.theta.map Fl.fin, vary := k.m.params.vary, names := k.names
                 flatchain := ch.cols, absvalsigma := sm.absvalsigma, re := sm.re } = .ok (out, names) ∧
      mapE colValues out.flatchain = .ok cols ∧
      paramPosterior o cols sm.linked names k.m.params.nFree = .ok res ∧ s2.results = some res := by
  rw [fit_given] at h
  unfold Fit2D.fit at h
  simp only at h
  split at h
  · cases h
  generalize hsu : (s.given new).setupModel = x at h
  obtain ⟨a, e⟩ := x
  cases e with
  | error e => cases h
  | ok u =>
    simp only at h
    unfold Fit2D.runMcmc at h
    cases hr : run a with
    | error e => rw [hr] at h; cases h
    | ok ch =>
      rw [hr] at h
      simp only at h
      generalize (if a.sampleFile then { d with samples := some ch } else d) = db at h
      unfold Fit2D.analyze at h
      simp only [Option.isNone_some, Bool.false_eq_true, if_false] at h
      generalize hcr : Fit2D.chainResults o { a with sampler := some ch } = y at h
      obtain ⟨y1, y2⟩ := y
      cases y2 with
      | error e => cases h
      | ok res =>
        simp only at h
        obtain ⟨k, ch', out, names, cols, e1, e2, e3, e4, e5, e6⟩ :=
          chainResults_inv o { a with sampler := some ch } res (by rw [hcr])
        rw [hcr] at e6
        simp only at e1 e2 e5 e6
        cases e2
        generalize hsb : y1.setBestfit res.fitting = z at h
        obtain ⟨z1, z2⟩ := z
        cases z2 with
        | error e => cases h
        | ok u =>
          simp only [Prod.mk.injEq] at h
          obtain ⟨h1, -, -⟩ := h
          subst h1
          obtain ⟨-, g2, -⟩ := setBestfit_keeps y1 res.fitting
          rw [hsb, e6] at g2
          exact ⟨a, ch, k, out, names, cols, res, rfl, hr, e1, e3, e4, e5, g2⟩

/-- a fit asks for the samples of the object that was set up only -/
theorem fit_congr (o : PeakFinder) (run run' : Fit2D r c → Except PyErr Chain) (new : Option FitSettings) (s : Fit2D r c)
    (d : Disk r c) (h : ∀ sm, (s.given new).setupModel = (sm, .ok ()) → run sm = run' sm) :
    s.fit o run new d = s.fit o run' new d := by
  rw [fit_given, fit_given o run']
  unfold Fit2D.fit
  simp only
  split
  · rfl
  generalize (s.given new).setupModel = x at h
  obtain ⟨a, e⟩ := x
  cases e with
  | error e => rfl
  | ok u =>
    simp only
    unfold Fit2D.runMcmc
    rw [h a rfl]

theorem lnprob_value {S S' : Type*} (prior : List (Fl ℝ) → Except PyErr (Fl ℝ))
    (like : S → List (Fl ℝ) → S × Except PyErr (Fl ℝ)) (like' : S' → List (Fl ℝ) → S' × Except PyErr (Fl ℝ)) (a : S) (b : S')
    (x : List (Fl ℝ)) (h : (like a x).2 = (like' b x).2) : (lnprob prior like a x).2 = (lnprob prior like' b x).2 := by
  unfold lnprob
  cases prior x with
  | error e => rfl
  | ok q =>
    simp only
    split
    · revert h
      generalize like a x = u
      generalize like' b x = u'
      obtain ⟨u1, u2⟩ := u
      obtain ⟨u1', u2'⟩ := u'
      intro h
      simp only at h
      subst h
      cases u2 <;> rfl
    · rfl

theorem reals_some : ∀ (x : List (Fl ℝ)) (fit : List ℝ), reals x = some fit → x = fit.map Fl.fin
  | [], fit, h => by cases h; rfl
  | .fin y :: l, fit, h => by
      rw [reals] at h
      obtain ⟨g, hg, rfl⟩ := Option.map_eq_some_iff.1 h
      rw [reals_some l g hg]
      rfl
  | .nan :: _, _, h => by cases h
  | .pinf :: _, _, h => by cases h
  | .ninf :: _, _, h => by cases h

theorem reals_map (fit : List ℝ) : reals (fit.map Fl.fin) = some fit := by
  induction fit with
  | nil => rfl
  | cons u l ih => rw [List.map_cons, reals, ih]; rfl

/-- the log-likelihood of a set-up model at a position -/
noncomputable def likeAt (m : KinModelState r c) (other : List (Fl ℝ) → Except PyErr (Fl ℝ)) (x : List (Fl ℝ)) :
    Except PyErr (Fl ℝ) :=
  match reals x with
  | some fit => (m.lnlike fit).2
  | none => other x

/-- the posterior of a fit with a flat prior is of the form of `Verif.Model.Sampler` -/
theorem atPos_flat (s : Fit2D r c) (k : KinObj r c) (p q : PriorObj) (hk : s.kinModel = some k) (hp : s.prior = some p)
    (hq : q.logp = p.logp) (theta : List (Fl ℝ)) (vary : List Bool) (bounds : List (Option (Fl ℝ × Fl ℝ)))
    (hflat : p.logp = logPrior theta vary bounds) (other : List (Fl ℝ) → Except PyErr (Fl ℝ)) :
    s.atPos (priorThen q other) = flatPost theta vary bounds (likeAt k.m other) := by
  funext x
  unfold Fit2D.atPos flatPost
  cases hx : reals x with
  | none =>
    simp only
    unfold priorThen
    rw [hq, hflat]
    exact lnprob_value _ _ _ _ _ _ (by simp only [likeAt, hx])
  | some fit =>
    simp only
    rw [fitLnprob_obj s p k hp hk]
    simp only
    unfold objLnprob
    rw [hflat, ← reals_some x fit hx]
    refine lnprob_value _ _ _ _ _ _ ?_
    simp only [likeAt, hx]
    rw [reals_some x fit hx, List.map_map, show (Fl.finVal ∘ Fl.fin : ℝ → ℝ) = id from rfl, List.map_id]

/-- an entry of the columns after the treatment of the dispersion -/
theorem absSigma_entry {L : Nat} (s : ChainIn L) (fc : Cols L) (h : absSigma s = .ok fc) (j : Nat) (c' : Fin L → Fl ℝ)
    (hj : fc[j]? = some c') :
    ∃ c, s.flatchain[j]? = some c ∧ ∀ k, c' k = c k ∨ (s.absvalsigma = true ∧ c' k = Fl.abs (c k)) := by
  unfold absSigma at h
  split at h
  · rename_i ha
    split at h
    · cases h
    · rename_i ind _
      cases ind with
      | none =>
        cases h
        rw [List.getElem?_map] at hj
        obtain ⟨c, hc, rfl⟩ := Option.map_eq_some_iff.1 hj
        exact ⟨c, hc, fun k => .inr ⟨ha, rfl⟩⟩
      | some i =>
        rw [absColumn] at h
        split at h
        · cases h
        · rename_i c hc
          cases h
          by_cases hij : i = j
          · subst hij
            rw [List.getElem?_set_self (List.getElem?_eq_some_iff.1 hc).1] at hj
            cases hj
            exact ⟨c, hc, fun k => .inr ⟨ha, rfl⟩⟩
          · rw [List.getElem?_set_ne hij] at hj
            exact ⟨c', hj, fun k => .inl rfl⟩
  · cases h
    exact ⟨c', hj, fun k => .inl rfl⟩

theorem chainOfRows_ok (n : Nat) (rows : List (List (Fl ℝ))) (ch : Chain) (h : chainOfRows n rows = .ok ch) :
    (∀ x ∈ rows, x.length = n) ∧ ch = ⟨rows.length, (List.range n).map fun j k => (rows[k]).getD j .nan⟩ := by
  unfold chainOfRows at h
  split at h
  · rename_i ha
    cases h
    exact ⟨fun x hx => by simpa using List.all_eq_true.1 ha x hx, rfl⟩
  · cases h

end Misfit
