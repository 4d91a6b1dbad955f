import Verif.Props.Fit2D
import Verif.Props.Coverage
import Verif.Props.Peak
import Verif.Model.PlotFit

/-! # Lemmas for the plots of a fit -/

namespace Misfit

theorem linkedLoop_untouched2 {K : Type*} [Field K] {n : Nat} (joint : List (Fin n) → List K → List K) (lims2 : Fin n → K × K)
    (p : Fin n) : ∀ (sets : List (LinkSet n)) (cur : Fin n → K × K) (st : Posterior n K), (∀ s ∈ sets, ¬ touched s p) →
      (linkedLoop joint lims2 cur st sets).err2 p = st.err2 p := by
  intro sets
  induction sets with
  | nil => intro _ _ _; rfl
  | cons s rest ih =>
    intro cur st h
    rw [linkedLoop]
    rw [ih lims2 _ (fun t ht => h t (by simp [ht]))]
    exact (writeLinked_untouched joint lims2 _ st.err2 s p (h s (by simp))).2

/-- Column `j` of `n` belongs to no linked set; the word 'all' means all but the last four. -/
def Unlinked (linked : Option (List RawLink)) (n j : Nat) : Prop :=
  ∀ s ∈ linked.getD [], match s with
    | .all => n ≤ j + 4
    | .inds l => j ∉ l

theorem check_untouched {n : Nat} (raw : List RawLink) (sets : List (LinkSet n))
    (h : mapE (RawLink.check n) raw = .ok sets) (p : Fin n)
    (hu : ∀ s ∈ raw, match s with | .all => n ≤ (p : ℕ) + 4 | .inds l => (p : ℕ) ∉ l) : ∀ s ∈ sets, ¬ touched s p := by
  obtain ⟨hlen, hspec⟩ := mapE_spec _ _ _ h
  intro s hs ht
  obtain ⟨i, hi, rfl⟩ := List.mem_iff_getElem.1 hs
  have hi' : i < raw.length := hlen ▸ hi
  obtain ⟨b, hb, hc⟩ := hspec i raw[i] (List.getElem?_eq_getElem hi')
  rw [List.getElem?_eq_getElem hi] at hb
  have hb' := Option.some.inj hb
  have hr := hu raw[i] (List.getElem_mem hi')
  generalize raw[i] = x at hc hr
  cases x with
  | all =>
    cases hc
    rw [hb'] at ht
    simp only at hr
    unfold touched LinkSet.resolve at ht
    obtain ⟨m, hm, hp⟩ := List.mem_iff_getElem.1 ht
    rw [List.length_take, List.length_finRange] at hm
    rw [List.getElem_take] at hp
    have : (p : ℕ) = m := by rw [← hp]; simp
    omega
  | inds l =>
    simp only at hr
    simp only [RawLink.check] at hc
    cases hl : mapE (fun i => if h : i < n then .ok (⟨i, h⟩ : Fin n) else .error .indexError) l with
    | error e => rw [hl] at hc; cases hc
    | ok fl =>
      rw [hl] at hc
      have hc' := Except.ok.inj hc
      rw [hb', ← hc'] at ht
      obtain ⟨hlen', hspec'⟩ := mapE_spec _ _ _ hl
      obtain ⟨m, hm, hp⟩ := List.mem_iff_getElem.1 (show p ∈ fl from ht)
      have hm' : m < l.length := hlen' ▸ hm
      obtain ⟨q, hq, hq'⟩ := hspec' m l[m] (List.getElem?_eq_getElem hm')
      rw [List.getElem?_eq_getElem hm] at hq
      have hq2 := Option.some.inj hq
      split at hq'
      · rename_i hlt
        have hq3 := Except.ok.inj hq'
        apply hr
        have : (p : ℕ) = l[m] := by rw [← hp, hq2, ← hq3]
        rw [this]
        exact List.getElem_mem hm'
      · cases hq'

/-- What the analysis stores for a column that belongs to no linked set. -/
theorem paramPosterior_column (o : PeakFinder) (cols : List (List ℝ)) (linked : Option (List RawLink)) (names : List String)
    (nFree : Nat) (res : FitResults) (h : paramPosterior o cols linked names nFree = .ok res) (j : Nat) (col : List ℝ)
    (hj : cols[j]? = some col) (hu : Unlinked linked cols.length j) :
    ∃ b l1 l2 v, res.best[j]? = some b ∧ limits1 col = .ok l1 ∧ limits2 col = .ok l2 ∧
      res.err1[j]? = some (b - l1.1, l1.2 - b) ∧ res.err2[j]? = some (b - l2.1, l2.2 - b) ∧
      res.opp[j]? = some v ∧ percentOpp (.fin b) (col.map Fl.fin) = .ok v ∧ col ≠ [] := by
  unfold paramPosterior at h
  cases hst : mapE (columnStats o) cols with
  | error e => rw [hst] at h; cases h
  | ok st =>
    rw [hst] at h
    simp only at h
    obtain ⟨hlen, hspec⟩ := mapE_spec _ _ _ hst
    obtain ⟨x, hx, hcs⟩ := hspec j col hj
    have hjlt : j < st.length := (List.getElem?_eq_some_iff.1 hx).1
    have hxe : st[j] = x := (List.getElem?_eq_some_iff.1 hx).2
    have hlims : limits1 col = .ok x.1 ∧ limits2 col = .ok x.2.1 ∧ col ≠ [] := by
      refine ⟨?_, ?_, (columnStats_peak o _ x hcs).1⟩ <;>
      · unfold columnStats at hcs
        split at hcs
        · cases hcs
        · rename_i a1 ha1
          split at hcs
          · cases hcs
          · rename_i a2 ha2
            split at hcs
            · cases hcs
            · split at hcs
              · cases hcs
              · cases hcs
                assumption
    cases hck : mapE (RawLink.check st.length) (linked.getD []) with
    | error e => rw [hck] at h; cases h
    | ok sets =>
      rw [hck] at h
      simp only at h
      have hun : ∀ s ∈ sets, ¬ touched s ⟨j, hjlt⟩ := check_untouched _ _ hck ⟨j, hjlt⟩ (by
        intro s hs
        have := hu s hs
        rw [← hlen] at this
        exact this)
      obtain ⟨hl1, hl2, hne⟩ := hlims
      have fin : ∀ P : Posterior st.length ℝ,
          P.err1 ⟨j, hjlt⟩ = (P.best ⟨j, hjlt⟩ - st[j].1.1, st[j].1.2 - P.best ⟨j, hjlt⟩) ∧
            P.err2 ⟨j, hjlt⟩ = (P.best ⟨j, hjlt⟩ - st[j].2.1.1, st[j].2.1.2 - P.best ⟨j, hjlt⟩) →
          (match mapE (fun bc : ℝ × List ℝ => percentOpp (.fin bc.1) (bc.2.map Fl.fin))
              ((List.ofFn P.best).zip cols) with
            | .error e => .error e
            | .ok opp => .ok (FitResults.mk names (List.ofFn P.best) (List.ofFn P.err1) (List.ofFn P.err2) opp
                ((List.ofFn P.best).take nFree))) = Except.ok res →
          ∃ b l1 l2 v, res.best[j]? = some b ∧ limits1 col = .ok l1 ∧ limits2 col = .ok l2 ∧
            res.err1[j]? = some (b - l1.1, l1.2 - b) ∧ res.err2[j]? = some (b - l2.1, l2.2 - b) ∧
            res.opp[j]? = some v ∧ percentOpp (.fin b) (col.map Fl.fin) = .ok v ∧ col ≠ [] := by
        intro P h1 h
        split at h
        · cases h
        · rename_i opp hopp
          cases h
          have hz : ((List.ofFn P.best).zip cols)[j]? = some (P.best ⟨j, hjlt⟩, col) := by
            rw [List.getElem?_zip_eq_some]
            exact ⟨by simp [hjlt], hj⟩
          obtain ⟨v, hv, hv'⟩ := (mapE_spec _ _ _ hopp).2 j _ hz
          refine ⟨P.best ⟨j, hjlt⟩, x.1, x.2.1, v, ?_, hl1, hl2, ?_, ?_, hv, hv', hne⟩
          · simp [hjlt]
          · rw [← hxe, ← h1.1]; simp [hjlt]
          · rw [← hxe, ← h1.2]; simp [hjlt]
      cases linked with
      | none => exact fin _ ⟨rfl, rfl⟩ h
      | some ls =>
        refine fin _ ?_ h
        unfold posteriorOf
        simp only
        obtain ⟨g1, g2⟩ := linkedLoop_untouched (fun l start => o.joint (l.map fun i => cols.getD i.val []) start)
          (fun i : Fin st.length => st[i].2.1) ⟨j, hjlt⟩ sets (fun i => st[i].1) _ hun
        rw [g2, linkedLoop_untouched2 _ _ _ sets _ _ hun, g1]
        exact ⟨rfl, rfl⟩

/-- all lists of the results have one entry for each column -/
theorem paramPosterior_lengths (o : PeakFinder) (cols : List (List ℝ)) (linked : Option (List RawLink)) (names : List String)
    (nFree : Nat) (res : FitResults) (h : paramPosterior o cols linked names nFree = .ok res) :
    res.best.length = cols.length ∧ res.err1.length = cols.length ∧ res.err2.length = cols.length ∧
      res.opp.length = cols.length ∧ res.names = names := by
  unfold paramPosterior at h
  cases hst : mapE (columnStats o) cols with
  | error e => rw [hst] at h; cases h
  | ok st =>
    rw [hst] at h
    simp only at h
    have hl := (mapE_spec _ _ _ hst).1
    split at h
    · cases h
    · split at h
      · cases h
      · rename_i opp hopp
        cases h
        have ho := (mapE_spec _ _ _ hopp).1
        simp only [List.length_zip, List.length_ofFn] at ho
        simp only [List.length_ofFn]
        exact ⟨hl, hl, hl, by rw [ho, hl]; exact min_self _, trivial⟩

theorem itemE_ok {α : Type*} (l : List α) (i : Nat) (x : α) : itemE l i = .ok x ↔ l[i]? = some x := by
  unfold itemE
  cases l[i]? with
  | none => simp
  | some y => simp

theorem itemE_lt {α : Type*} (l : List α) (i : Nat) (h : i < l.length) : itemE l i = .ok l[i] := by
  rw [itemE_ok]; exact List.getElem?_eq_getElem h

theorem tripleAt_ok (best : List ℝ) (err : List (ℝ × ℝ)) (i : Nat) (b lo up : ℝ) :
    tripleAt best err i = .ok (b, lo, up) ↔ best[i]? = some b ∧ err[i]? = some (lo, up) := by
  unfold tripleAt itemE
  cases best[i]? with
  | none => simp
  | some y =>
    cases err[i]? with
    | none => simp
    | some e =>
      obtain ⟨e1, e2⟩ := e
      simp

theorem nameIndex_ok (names : List String) (s : String) (i : Nat) :
    nameIndex names s = .ok i ↔ names[i]? = some s ∧ ∀ j < i, names[j]? ≠ some s := by
  unfold nameIndex
  cases h : names.findIdx? (fun n => n == s) with
  | none =>
    rw [List.findIdx?_eq_none_iff] at h
    simp only [reduceCtorEq, false_iff, not_and]
    intro hi
    have := h s (List.mem_of_getElem? hi)
    simp at this
  | some k =>
    rw [List.findIdx?_eq_some_iff_getElem] at h
    obtain ⟨hk, h1, h2⟩ := h
    simp only [beq_iff_eq] at h1 h2
    simp only [Except.ok.injEq]
    constructor
    · rintro rfl
      refine ⟨by rw [List.getElem?_eq_getElem hk, h1], fun j hj he => ?_⟩
      have hjl : j < names.length := by omega
      rw [List.getElem?_eq_getElem hjl] at he
      exact (by simpa using h2 j hj : ¬ names[j] = s) (Option.some.inj he)
    · rintro ⟨hi, hmin⟩
      rcases lt_trichotomy k i with hlt | heq | hgt
      · exact absurd (by rw [List.getElem?_eq_getElem hk, h1]) (hmin k hlt)
      · exact heq
      · exfalso
        have hil : i < names.length := by omega
        rw [List.getElem?_eq_getElem hil] at hi
        exact (by simpa using h2 i hgt : ¬ names[i] = s) (Option.some.inj hi)

theorem nameIndex_error (names : List String) (s : String) (h : s ∉ names) : nameIndex names s = .error .indexError := by
  unfold nameIndex
  have : names.findIdx? (fun n => n == s) = none := by
    rw [List.findIdx?_eq_none_iff]
    intro x hx
    simp only [beq_eq_false_iff_ne, ne_eq]
    rintro rfl
    exact h hx
  rw [this]

theorem nameIndex_exists (names : List String) (s : String) (h : s ∈ names) :
    ∃ i, nameIndex names s = .ok i ∧ i < names.length := by
  unfold nameIndex
  cases hf : names.findIdx? (fun n => n == s) with
  | none =>
    rw [List.findIdx?_eq_none_iff] at hf
    have := hf s h
    simp at this
  | some k =>
    rw [List.findIdx?_eq_some_iff_getElem] at hf
    exact ⟨k, rfl, hf.1⟩

end Misfit

namespace Misfit

variable {r c : Nat}

/-- the settings a fit works with: those of the call, otherwise those of the object -/
def settingsUsed (new : Option FitSettings) (s : Fit2D r c) : Option FitSettings :=
  match new with
  | none => s.settings
  | some t => some t

theorem setupModel_inv (s a : Fit2D r c) (h : s.setupModel = (a, .ok ())) :
    ∃ t k0 fit0, s.settings = some t ∧
      a.kinModel = some ⟨((KinModelState.init t.theta t.vary k0 false : KinModelState r c).make s.input fit0).1, t.names, none⟩ ∧
      a.linked = t.linked ∧ a.pstamp = s.pstamp := by
  unfold Fit2D.setupModel at h
  cases hs : s.settings with
  | none => rw [hs] at h; cases h
  | some t =>
    rw [hs] at h
    simp only at h
    cases hk : s.kinProfile.updateTheta t.theta with
    | error e => rw [hk] at h; cases h
    | ok k0 =>
      rw [hk] at h
      simp only at h
      generalize setupPrior s.prior t = x at h
      obtain ⟨p, e⟩ := x
      cases e with
      | error e => cases h
      | ok u =>
        simp only at h
        cases hf : initializeFittingTheta t.theta t.vary with
        | error e => rw [hf] at h; cases h
        | ok fit0 =>
          rw [hf] at h
          simp only [Fit2D.makeModel, Prod.mk.injEq] at h
          obtain ⟨h1, -⟩ := h
          refine ⟨t, k0, fit0, rfl, ?_, ?_, ?_⟩ <;> rw [← h1]

theorem thetaChain_inv {L : Nat} (cols : Cols L) : ∀ (theta : List (Fl ℝ)) (vary : List Bool) (i0 : Nat) (tc : Cols L),
    thetaChain cols theta vary i0 = .ok tc → i0 ≤ cols.length → tc.length = theta.length ∧
      (vary.length = theta.length → i0 + vary.count true ≤ cols.length) := by
  intro theta
  induction theta with
  | nil =>
    intro vary i0 tc h hi
    cases h
    exact ⟨rfl, fun hv => by
      have hv' : vary = [] := List.length_eq_zero_iff.1 (by simpa using hv)
      rw [hv']; simpa using hi⟩
  | cons t ts ih =>
    intro vary i0 tc h hi
    cases vary with
    | nil => cases h
    | cons v vs =>
      cases v with
      | true =>
        rw [thetaChain] at h
        split at h
        · cases h
        · rename_i cc hc
          split at h
          · cases h
          · rename_i tr htr
            cases h
            have hlt := (List.getElem?_eq_some_iff.1 hc).1
            obtain ⟨e1, e2⟩ := ih vs (i0 + 1) tr htr hlt
            refine ⟨by simp [e1], fun hv => ?_⟩
            have := e2 (by simpa using hv)
            simp only [List.count_cons_self]
            omega
      | false =>
        rw [thetaChain] at h
        split at h
        · cases h
        · rename_i tr htr
          cases h
          obtain ⟨e1, e2⟩ := ih vs i0 tr htr hi
          refine ⟨by simp [e1], fun hv => ?_⟩
          have := e2 (by simpa using hv)
          simpa using this

theorem freeNames_le : ∀ (names : List String) (vary : List Bool), (freeNames names vary).length ≤ vary.count true := by
  intro names
  induction names with
  | nil => intro vary; simp [freeNames]
  | cons n ns ih =>
    intro vary
    cases vary with
    | nil => simp [freeNames]
    | cons v vs =>
      cases v with
      | true => simp only [freeNames, List.length_cons, List.count_cons_self]; have := ih vs; omega
      | false => simp only [freeNames]; have := ih vs; simpa using this

theorem freeNames_mem (x : String) : ∀ (names : List String) (vary : List Bool),
    x ∈ freeNames names vary ↔ ∃ i : Nat, names[i]? = some x ∧ vary[i]? = some true := by
  intro names
  induction names with
  | nil => intro vary; simp [freeNames]
  | cons n ns ih =>
    intro vary
    cases vary with
    | nil => simp [freeNames]
    | cons v vs =>
      cases v with
      | true =>
        simp only [freeNames, List.mem_cons, ih]
        constructor
        · rintro (rfl | ⟨i, h1, h2⟩)
          · exact ⟨0, rfl, rfl⟩
          · exact ⟨i + 1, by simpa using h1, by simpa using h2⟩
        · rintro ⟨i, h1, h2⟩
          cases i with
          | zero => exact Or.inl (by simpa using h1.symm)
          | succ i => exact Or.inr ⟨i, by simpa using h1, by simpa using h2⟩
      | false =>
        simp only [freeNames, ih]
        constructor
        · rintro ⟨i, h1, h2⟩
          exact ⟨i + 1, by simpa using h1, by simpa using h2⟩
        · rintro ⟨i, h1, h2⟩
          cases i with
          | zero => simp at h2
          | succ i => exact ⟨i, by simpa using h1, by simpa using h2⟩

theorem addVRe22_form {L : Nat} (s out : ChainIn L) (names : List String) (h : addVRe22 s = .ok (out, names)) :
    ∃ fc tc, absSigma s = .ok fc ∧ thetaChain fc s.theta s.vary 0 = .ok tc ∧ 3 ≤ tc.length ∧
      out.flatchain.length = fc.length + 4 ∧ names = freeNames s.names s.vary ++ ["V_RE", "V_22", "sigma_RE", "sigma_22"] := by
  unfold addVRe22 at h
  split at h
  · cases h
  · rename_i fc hfc
    split at h
    · cases h
    · rename_i tc htc
      split at h
      · cases h
        exact ⟨fc, _, hfc, htc, by simp only [List.length_cons]; omega, by simp, rfl⟩
      · cases h

/-- the object after a fit that returned, up to the plots -/
theorem fit_results (o : PeakFinder) (run : Fit2D r c → Except PyErr Chain) (new : Option FitSettings) (s s1 : Fit2D r c)
    (d d1 : Disk r c) (h : s.fit o run new d = (s1, d1, .ok ())) :
    ∃ t res k cols n, settingsUsed new s = some t ∧ s1.results = some res ∧ s1.linked = t.linked ∧ s1.sampler ≠ none ∧
      s1.kinModel = some k ∧ k.bestfit = some k.m ∧ 3 ≤ k.m.params.theta.length ∧
      paramPosterior o cols t.linked (freeNames t.names t.vary ++ ["V_RE", "V_22", "sigma_RE", "sigma_22"]) n = .ok res ∧
      (t.vary.length = t.theta.length → (freeNames t.names t.vary).length + 4 ≤ cols.length) := by
  unfold Fit2D.fit at h
  simp only at h
  obtain ⟨s0, hs0⟩ : ∃ s0, s0 = (match new with | none => s | some t => { s with settings := some t }) := ⟨_, rfl⟩
  have hset : s0.settings = settingsUsed new s := by
    rw [hs0]; unfold settingsUsed; cases new <;> rfl
  have h' : (if Fl.ltB s0.resolution 0 then ((s0, d, .error .valueError) : Fit2D r c × Disk r c × Except PyErr Unit)
    else
      match s0.setupModel with
      | (s, .error e) => (s, d, .error e)
      | (s, .ok ()) =>
        match s.runMcmc run d with
        | (s, d, .error e) => (s, d, .error e)
        | (s, d, .ok ()) =>
          match s.analyze o d with
          | (s, .error e) => (s, d, .error e)
          | (s, .ok ()) => (s, (s.save d).1, (s.save d).2)) = (s1, d1, .ok ()) := by
    rw [hs0]; exact h
  clear h
  split at h'
  · cases h'
  generalize hsu : s0.setupModel = x at h'
  obtain ⟨a, e⟩ := x
  cases e with
  | error e => cases h'
  | ok u =>
    obtain ⟨t, k0, fit0, ht, hk, hl, hp⟩ := setupModel_inv s0 a hsu
    simp only at h'
    unfold Fit2D.runMcmc at h'
    cases hr : run a with
    | error e => rw [hr] at h'; cases h'
    | ok ch =>
      rw [hr] at h'
      simp only at h'
      generalize (if a.sampleFile then { d with samples := some ch } else d) = db at h'
      unfold Fit2D.analyze at h'
      simp only [Option.isNone_some, Bool.false_eq_true, if_false] at h'
      generalize hcr : Fit2D.chainResults o { a with sampler := some ch } = y at h'
      obtain ⟨y1, y2⟩ := y
      cases y2 with
      | error e => cases h'
      | ok res =>
        simp only at h'
        obtain ⟨k, ch', out, names, cols, e1, e2, e3, e4, e5, e6⟩ :=
          chainResults_inv o { a with sampler := some ch } res (by rw [hcr])
        rw [hcr] at e6
        simp only at e1 e2 e5 e6
        rw [hk] at e1
        cases e1
        cases e2
        generalize hsb : y1.setBestfit res.fitting = z at h'
        obtain ⟨z1, z2⟩ := z
        cases z2 with
        | error e => cases h'
        | ok u =>
          simp only [Prod.mk.injEq] at h'
          obtain ⟨h1, -, -⟩ := h'
          subst h1
          obtain ⟨g1, g2, g3, -, -⟩ := setBestfit_keeps y1 res.fitting
          rw [hsb] at g1 g2 g3
          simp only at g1 g2 g3
          have hbest : ∃ k, z1.kinModel = some k ∧ k.bestfit = some k.m ∧
              k.m.params.theta.length = t.theta.length := by
            unfold Fit2D.setBestfit Fit2D.makeModel at hsb
            rw [e6] at hsb
            simp only [hk] at hsb
            split at hsb
            · cases hsb
            · rename_i q hq
              cases hsb
              simp only [Prod.mk.injEq] at hq
              rw [← hq.1]
              refine ⟨_, rfl, rfl, ?_⟩
              simp only
              rw [make_params, (KinParams.update_keeps _ _).2.1, make_params, (KinParams.update_keeps _ _).2.1]
              rfl
          obtain ⟨k, hk1, hb1, hlen⟩ := hbest
          -- the derived columns
          obtain ⟨fc, tc, hfc, htc, h3, hfl, hnm⟩ := addVRe22_form _ _ _ e3
          simp only [make_params, (KinParams.update_keeps _ _).1] at hnm
          replace hnm : names = freeNames t.names t.vary ++ ["V_RE", "V_22", "sigma_RE", "sigma_22"] := hnm
          obtain ⟨q1, q2⟩ := thetaChain_inv fc _ _ 0 tc htc (Nat.zero_le _)
          have hcl : cols.length = fc.length + 4 := by rw [← hfl]; exact (mapE_spec _ _ _ e4).1
          rw [hl] at e5
          rw [hnm] at e5
          refine ⟨t, res, k, cols, _, ?_, ?_, ?_, ?_, hk1, hb1, ?_, e5, ?_⟩
          · rw [← hset, ht]
          · rw [g2, e6]
          · rw [g3, e6, ← hl]
          · rw [g1, e6]; simp
          · rw [hlen]
            rw [q1] at h3
            simpa [make_params, (KinParams.update_keeps _ _).2.1, KinModelState.init, KinParams.init] using h3
          · intro hv
            have := q2 (by
              simp only [make_params, (KinParams.update_keeps _ _).1, List.length_map, (KinParams.update_keeps _ _).2.1]
              exact hv)
            simp only [make_params, (KinParams.update_keeps _ _).1] at this
            have hf := freeNames_le t.names t.vary
            have : t.vary.count true ≤ fc.length := by simpa [KinModelState.init, KinParams.init] using this
            omega

end Misfit
