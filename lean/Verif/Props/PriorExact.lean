import Verif.Props.Fit2D

/-!
# Exact condition for the prior after a second set-up (C118)
-/

namespace Misfit

variable {r c : Nat}

/-! ## Specification -/

/-- The bounds of the varying parameters, in order. -/
def varyBounds (vary : List Bool) (b : List (Option (Fl ℝ × Fl ℝ))) : List (Option (Fl ℝ × Fl ℝ)) :=
  ((vary.zip b).filter (·.1)).map (·.2)

/-- Two bounds that are both given and allow the same values. -/
def SameRange (p q : Option (Fl ℝ × Fl ℝ)) : Prop :=
  ∃ p' q', p = some p' ∧ q = some q' ∧
    ∀ x : Fl ℝ, (Fl.leB p'.1 x ∧ Fl.leB x p'.2) ↔ (Fl.leB q'.1 x ∧ Fl.leB x q'.2)

/-! ## Lemmas -/

/-- The statements of the prior from the bounds of the varying parameters. -/
noncomputable def boundTests : List (Option (Fl ℝ × Fl ℝ)) → List (Fl ℝ) → Except PyErr (List Bool)
  | [], _ => .ok []
  | _ :: _, [] => .error .indexError
  | none :: _, _ :: _ => .error .typeError
  | some b :: bs, x :: xs =>
      match boundTests bs xs with
      | .error e => .error e
      | .ok r => .ok (between b x :: r)

theorem priorStatements_bounds : ∀ (vary : List Bool) (b : List (Option (Fl ℝ × Fl ℝ))) (fit : List (Fl ℝ)),
    b.length = vary.length → priorStatements vary.length vary b fit = boundTests (varyBounds vary b) fit
  | [], _, _, _ => rfl
  | false :: vs, [], fit, h => by cases h
  | true :: vs, [], fit, h => by cases h
  | false :: vs, x :: bs, fit, h => by
      simpa [priorStatements, varyBounds] using priorStatements_bounds vs bs fit (by simpa using h)
  | true :: vs, x :: bs, [], h => by simp [priorStatements, varyBounds, boundTests]
  | true :: vs, none :: bs, x :: xs, h => by simp [priorStatements, varyBounds, boundTests]
  | true :: vs, some p :: bs, x :: xs, h => by
      have ih := priorStatements_bounds vs bs xs (by simpa using h)
      unfold varyBounds at ih
      simp only [List.length_cons, priorStatements, varyBounds, List.zip_cons_cons, List.filter_cons,
        if_true, List.map_cons, boundTests, ih]
      cases boundTests (List.map (fun x => x.2) (List.filter (fun x => x.1) (vs.zip bs))) xs <;> rfl

/-- The value of the prior from the bounds of the varying parameters. -/
noncomputable def boundValue (L : List (Option (Fl ℝ × Fl ℝ))) (fit : List (Fl ℝ)) : Except PyErr (Fl ℝ) :=
  match boundTests L fit with
  | .error e => .error e
  | .ok st => .ok (if st.all id then 0 else .ninf)

theorem logPrior_bounds (theta : List (Fl ℝ)) (vary : List Bool) (b : List (Option (Fl ℝ × Fl ℝ)))
    (fit : List (Fl ℝ)) (h1 : theta.length = vary.length) (h2 : b.length = vary.length) :
    logPrior theta vary b fit = boundValue (varyBounds vary b) fit := by
  unfold logPrior boundValue
  rw [h1, priorStatements_bounds vary b fit h2]
  cases boundTests (varyBounds vary b) fit <;> rfl

theorem zero_ne_ninf : (0 : Fl ℝ) ≠ .ninf := by
  intro h
  cases h

theorem boundValue_zero {L : List (Option (Fl ℝ × Fl ℝ))} {fit : List (Fl ℝ)}
    (h : boundValue L fit = .ok 0) : ∃ st, boundTests L fit = .ok st ∧ st.all id = true := by
  unfold boundValue at h
  split at h
  · cases h
  · rename_i st hst
    refine ⟨st, hst, ?_⟩
    by_contra hc
    rw [if_neg hc] at h
    exact zero_ne_ninf (Except.ok.inj h).symm

theorem boundValue_cons (p : Fl ℝ × Fl ℝ) (L : List (Option (Fl ℝ × Fl ℝ))) (x : Fl ℝ) (xs : List (Fl ℝ)) :
    boundValue (some p :: L) (x :: xs) =
      if between p x then boundValue L xs
      else match boundTests L xs with
        | .error e => .error e
        | .ok _ => .ok .ninf := by
  unfold boundValue
  simp only [boundTests]
  cases boundTests L xs with
  | error e => simp
  | ok st => by_cases hb : between p x <;> simp [hb]

/-- Bounds that each allow a value allow a vector. -/
theorem boundValue_good : ∀ (M : List (Option (Fl ℝ × Fl ℝ))),
    (∀ q ∈ M, ∃ q', q = some q' ∧ ∃ x, between q' x = true) → ∃ xs, boundValue M xs = .ok 0
  | [], _ => ⟨[], by simp [boundValue, boundTests]⟩
  | q :: M, h => by
      obtain ⟨q', rfl, x, hx⟩ := h q (by simp)
      obtain ⟨xs, hxs⟩ := boundValue_good M fun a ha => h a (by simp [ha])
      exact ⟨x :: xs, by rw [boundValue_cons, if_pos hx, hxs]⟩

theorem between_eq_iff (p q : Fl ℝ × Fl ℝ) (x : Fl ℝ) :
    between p x = between q x ↔ ((Fl.leB p.1 x ∧ Fl.leB x p.2) ↔ (Fl.leB q.1 x ∧ Fl.leB x q.2)) := by
  unfold between
  rw [Bool.eq_iff_iff, Bool.and_eq_true, Bool.and_eq_true]

theorem boundValue_same : ∀ (L M : List (Option (Fl ℝ × Fl ℝ))), List.Forall₂ SameRange L M →
    ∀ fit, boundValue L fit = boundValue M fit
  | _, _, .nil, _ => rfl
  | _, _, .cons (l₁ := L) (l₂ := M) ⟨p, q, rfl, rfl, h⟩ hs, fit => by
      cases fit with
      | nil => rfl
      | cons x xs =>
        have ih := boundValue_same L M hs
        have hb : between p x = between q x := (between_eq_iff p q x).2 (h x)
        have hst : ∀ (L M : List (Option (Fl ℝ × Fl ℝ))), List.Forall₂ SameRange L M → ∀ ys,
            boundTests L ys = boundTests M ys := by
          intro L M hLM
          induction hLM with
          | nil => intro ys; rfl
          | cons h0 _ ih0 =>
            intro ys
            obtain ⟨p, q, rfl, rfl, h⟩ := h0
            cases ys with
            | nil => rfl
            | cons y ys =>
              simp only [boundTests, ih0 ys, (between_eq_iff p q y).2 (h y)]
        rw [boundValue_cons, boundValue_cons, hb, ih xs, hst L M hs xs]

theorem same_of_boundValue : ∀ (L M : List (Option (Fl ℝ × Fl ℝ))),
    (∀ q ∈ M, ∃ q', q = some q' ∧ ∃ x, between q' x = true) →
    (∀ fit, boundValue L fit = boundValue M fit) → List.Forall₂ SameRange L M
  | [], [], _, _ => .nil
  | [], q :: M, hM, h => by
      obtain ⟨q', rfl, -⟩ := hM q (by simp)
      have := h []
      simp [boundValue, boundTests] at this
  | p :: L, [], _, h => by
      have := h []
      cases p <;> simp [boundValue, boundTests] at this
  | none :: L, q :: M, hM, h => by
      obtain ⟨q', rfl, x, hx⟩ := hM q (by simp)
      obtain ⟨xs, hxs⟩ := boundValue_good M fun a ha => hM a (by simp [ha])
      have := h (x :: xs)
      rw [boundValue_cons, if_pos hx, hxs] at this
      simp [boundValue, boundTests] at this
  | some p :: L, q :: M, hM, h => by
      have hM' : ∀ q ∈ M, ∃ q', q = some q' ∧ ∃ x, between q' x = true := fun a ha => hM a (by simp [ha])
      obtain ⟨q', rfl, x, hx⟩ := hM q (by simp)
      obtain ⟨xs, hxs⟩ := boundValue_good M hM'
      have hpx : between p x = true := by
        by_contra hc
        have h1 := h (x :: xs)
        rw [boundValue_cons q', if_pos hx, hxs] at h1
        obtain ⟨st, hst, hall⟩ := boundValue_zero h1
        simp only [boundTests] at hst
        split at hst
        · cases hst
        · cases hst
          simp only [List.all_cons, id_eq, Bool.and_eq_true] at hall
          exact hc hall.1
      have htail : ∀ ys, boundValue L ys = boundValue M ys := by
        intro ys
        have := h (x :: ys)
        rwa [boundValue_cons, boundValue_cons, if_pos hpx, if_pos hx] at this
      have ih := same_of_boundValue L M hM' htail
      refine .cons ⟨p, q', rfl, rfl, fun y => (between_eq_iff p q' y).1 ?_⟩ ih
      have h2 := h (y :: xs)
      obtain ⟨st1, e1, -⟩ := boundValue_zero ((htail xs).trans hxs)
      obtain ⟨st2, e2, -⟩ := boundValue_zero hxs
      rw [boundValue_cons, boundValue_cons, htail xs, hxs, e1, e2] at h2
      by_cases a1 : between p y = true <;> by_cases a2 : between q' y = true <;> simp [a1, a2] at h2 ⊢

/-! ## The property -/

/-- **C118** (exact condition, partial): let an object be set up, given new settings, and set up again.  The settings
are complete, and every parameter that varies under the new ones has bounds that allow some value.  Then its prior is
the flat prior of the new settings at every vector of values exactly when the parameters that varied first and those
that vary now pair up in order, each pair with the same admitted values.
The claim itself, for all pairs of settings, is false: see `C118_false`. -/
theorem C118_exact_partial (s : Fit2D r c) (t0 t : FitSettings) (b : List (Option (Fl ℝ × Fl ℝ)))
    (ht0 : s.settings = some t0) (hp : s.prior = none) (h0 : s.setupModel.2 = .ok ())
    (s' : Fit2D r c) (hs' : s' = { s.setupModel.1 with settings := some t }) (hb : t.bounds = some b)
    (h : s'.setupModel.2 = .ok ())
    (hl0 : t0.theta.length = t0.vary.length) (hl : t.theta.length = t.vary.length)
    (hb0 : b.length = t0.vary.length) (hb1 : b.length = t.vary.length)
    (hgood : ∀ q ∈ varyBounds t.vary b, ∃ q', q = some q' ∧ ∃ x, Fl.leB q'.1 x ∧ Fl.leB x q'.2) :
    ∃ p, s'.setupModel.1.prior = some p ∧
      ((∀ fit, p.logp fit = t.flatValue fit) ↔
        List.Forall₂ SameRange (varyBounds t0.vary b) (varyBounds t.vary b)) := by
  obtain ⟨p, hp1, hp2, -⟩ := C118_stale_partial s t0 t b ht0 hp h0 s' hs' hb h
  refine ⟨p, hp1, ?_⟩
  have e1 : ∀ fit, p.logp fit = boundValue (varyBounds t0.vary b) fit := fun fit => by
    rw [hp2, logPrior_bounds _ _ _ _ (by simpa using hl0) hb0]
  have e2 : ∀ fit, t.flatValue fit = boundValue (varyBounds t.vary b) fit := fun fit => by
    unfold FitSettings.flatValue
    rw [hb]
    exact logPrior_bounds _ _ _ _ (by simpa using hl) hb1
  have hg : ∀ q ∈ varyBounds t.vary b, ∃ q', q = some q' ∧ ∃ x, between q' x = true := by
    intro q hq
    obtain ⟨q', e, x, hx⟩ := hgood q hq
    exact ⟨q', e, x, by unfold between; rw [hx.1, hx.2]; rfl⟩
  simp only [e1, e2]
  exact ⟨same_of_boundValue _ _ hg, boundValue_same _ _⟩

/-- settings of the object with other varying parameters, the first two and the fourth -/
noncomputable def oneOther : FitSettings :=
  ⟨[0, 1, 1, 0, 0], [true, true, false, true, false], ["V_a", "r_t", "sigma0", "m0_shift", "z"],
    some [some (.fin 0, .fin 300), some (.fin 0, .fin 5), some (.fin 0, .fin 100), some (.fin (-1), .fin 1), none], none⟩

/-- settings of the object with the same varying parameters and other bounds -/
noncomputable def oneBounds : FitSettings :=
  ⟨[0, 1, 1, 0, 0], [true, true, true, false, false], ["V_a", "r_t", "sigma0", "m0_shift", "z"],
    some [some (.fin 0, .fin 300), some (.fin 0, .fin 5), some (.fin 0, .fin 90), none, none], none⟩

/-- the hypotheses are met, and the condition with them: other bounds for the same parameters are used -/
example : ∃ p, ({ oneFit.setupModel.1 with settings := some oneBounds } : Fit2D 1 2).setupModel.1.prior = some p ∧
    ∀ fit, p.logp fit = oneBounds.flatValue fit := by
  have hok : ({ oneFit.setupModel.1 with settings := some oneBounds } : Fit2D 1 2).setupModel.2 = .ok () := by
    have hp0 := setup_prior oneFit _ rfl one_setup_ok
    have hshape := (FitInv.refl oneFit rfl).setupModel.shape
    rw [(setupModel_congr { oneFit with settings := some oneBounds, prior := oneFit.setupModel.1.prior }
      ({ oneFit.setupModel.1 with settings := some oneBounds } : Fit2D 1 2) (FitInv.refl oneFit rfl).setupModel.input
      rfl hshape fun _ _ => rfl).1, hp0]
    exact one_setup_ok
  have hx : ∀ q ∈ varyBounds oneBounds.vary [some (Fl.fin (0 : ℝ), .fin 300), some (.fin 0, .fin 5),
      some (.fin 0, .fin 90), none, none], ∃ q', q = some q' ∧ ∃ x, Fl.leB q'.1 x ∧ Fl.leB x q'.2 := by
    intro q hq
    simp only [varyBounds, oneBounds, List.zip_cons_cons, List.filter_cons, if_true, List.map_cons,
      List.mem_cons] at hq
    have h0 : ∀ a : ℝ, 0 ≤ a → ∃ x, (Fl.leB (.fin 0) x : Prop) ∧ Fl.leB x (Fl.fin a) := fun a ha =>
      ⟨.fin 0, by simp [Fl.leB], by simpa [Fl.leB] using ha⟩
    rcases hq with rfl | rfl | rfl | hq
    · exact ⟨_, rfl, h0 300 (by norm_num)⟩
    · exact ⟨_, rfl, h0 5 (by norm_num)⟩
    · exact ⟨_, rfl, h0 90 (by norm_num)⟩
    · simp at hq
  obtain ⟨p, h1, h2⟩ := C118_exact_partial oneFit _ oneBounds _ rfl rfl one_setup_ok _ rfl rfl hok rfl rfl rfl rfl hx
  refine ⟨p, h1, h2.2 ?_⟩
  have hsame : ∀ q : Fl ℝ × Fl ℝ, SameRange (some q) (some q) := fun q => ⟨q, q, rfl, rfl, fun _ => Iff.rfl⟩
  exact .cons (hsame _) (.cons (hsame _) (.cons (hsame _) .nil))

/-- the condition fails for settings with other varying parameters -/
example : ¬List.Forall₂ SameRange
    (varyBounds [true, true, true, false, false] (oneOther.bounds.getD []))
    (varyBounds oneOther.vary (oneOther.bounds.getD [])) := by
  intro h
  cases h with
  | cons _ h => cases h with
    | cons _ h => cases h with
      | cons h _ =>
        obtain ⟨p, q, hp, hq, h⟩ := h
        cases hp
        cases hq
        have := h (.fin 50)
        norm_num [Fl.leB] at this

end Misfit
