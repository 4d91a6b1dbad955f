import Verif.Lemmas.Params
import Mathlib.Algebra.Order.Ring.Rat
import Mathlib.Tactic.Linarith
import Mathlib.Tactic.NormNum

/-!
# C01–C05: parameter vector, prior, posterior, initial walkers
-/

namespace Misfit
variable {α : Type*}

/-! ## C01 -/

/-- Specification: `new` is `old` with the varying entries replaced, in order, by `fit`:
the `i`-th entry, if varying, is the entry of `fit` whose index is the number of varying
entries before `i`. -/
def IsUnpack (old : List α) (vary : List Bool) (fit new : List α) : Prop :=
  new.length = old.length ∧
  ∀ i < old.length,
    new[i]? = if vary[i]? = some true then fit[(vary.take i).count true]? else old[i]?

/-- C01: accepted update. -/
theorem C01_update_exact (theta : List α) (vary : List Bool) (fit : List α)
    (hlen : vary.length = theta.length) (hfit : fit.length = vary.count true) :
    ((KinParams.init theta vary).update fit).2 = none ∧
    IsUnpack theta vary fit ((KinParams.init theta vary).update fit).1.theta ∧
    ((KinParams.init theta vary).update fit).1.vary = vary ∧
    initializeFittingTheta ((KinParams.init theta vary).update fit).1.theta vary = .ok fit := by
  have hn : ¬ (fit.length ≠ (KinParams.init theta vary).nFree) := by
    simp [KinParams.init, hfit]
  simp only [KinParams.update, if_neg hn]
  exact ⟨updateParameters_no_err _ _ _ hlen hfit,
    ⟨updateParameters_length _ _ _, updateParameters_get _ _ _ hlen hfit⟩, rfl,
    initializeFittingTheta_update _ _ _ hlen hfit⟩

/-- C01: a fitting vector of any other length is a ValueError and nothing changes. -/
theorem C01_update_wrong_length (theta : List α) (vary : List Bool) (fit : List α)
    (hfit : fit.length ≠ vary.count true) :
    (KinParams.init theta vary).update fit = (KinParams.init theta vary, some .valueError) := by
  simp [KinParams.update, KinParams.init, hfit]

example : ([true, false, true] : List Bool).length = [1, 2, 3].length ∧
    [10, 20].length = ([true, false, true] : List Bool).count true ∧
    ((KinParams.init [1, 2, 3] [true, false, true]).update [10, 20]).1.theta = [10, 2, 20] := by
  decide

/-! ## C02 -/

/-- The last vector of the history whose length is `n`. -/
def lastAccepted (n : Nat) (h : List (List α)) : Option (List α) :=
  (h.filter (fun f => f.length = n)).getLast?

/-- C02: after any history the parameter vector is the initial one, updated once with the
last accepted fitting vector (or untouched if none was accepted). -/
theorem C02_history (theta : List α) (vary : List Bool)
    (hlen : vary.length = theta.length) (h : List (List α)) :
    ((KinParams.init theta vary).run h).theta =
      (match lastAccepted (vary.count true) h with
       | none => theta
       | some f => ((KinParams.init theta vary).update f).1.theta) := by
  have key : ∀ (h : List (List α)) (m : KinParams α), m.vary = vary → m.nFree = vary.count true →
      m.theta.length = theta.length →
      (m.run h).theta = (match lastAccepted (vary.count true) h with
        | none => m.theta
        | some f => (updateParameters m.theta vary f).1) := by
    intro h
    induction h with
    | nil => intro m _ _ _; rfl
    | cons f rest ih =>
      intro m hv hn hl
      simp only [KinParams.run]
      by_cases hf : f.length = vary.count true
      · have hup : m.update f = ({ m with theta := (updateParameters m.theta vary f).1 },
            (updateParameters m.theta vary f).2) := by
          simp [KinParams.update, hn, hf, hv]
        rw [hup]
        simp only
        rw [ih { m with theta := (updateParameters m.theta vary f).1 } hv hn
          (by simp [updateParameters_length, hl])]
        simp only [lastAccepted, List.filter_cons, hf, decide_true, if_true]
        rw [List.getLast?_cons]
        cases hg : (List.filter (fun f => decide (f.length = vary.count true)) rest).getLast? with
        | none => simp
        | some g =>
          have hgm := List.mem_of_getLast? hg
          rw [List.mem_filter] at hgm
          simp only [Option.getD_some]
          rw [updateParameters_update _ _ _ _ (by rw [hlen, hl]) hf (by simpa using hgm.2)]
      · have hup : m.update f = (m, some .valueError) := by
          simp [KinParams.update, hn, hf]
        rw [hup, ih m hv hn hl]
        simp [lastAccepted, hf]
  rw [key h (KinParams.init theta vary) rfl rfl rfl]
  cases hg : lastAccepted (vary.count true) h with
  | none => rfl
  | some f =>
    have hgm := List.mem_of_getLast? hg
    rw [List.mem_filter] at hgm
    have hf : f.length = vary.count true := by simpa using hgm.2
    simp [KinParams.update, KinParams.init, hf]

example : ((KinParams.init [1, 2, 3] [true, false, true]).run
    [[5, 6], [7], [8, 9], [1, 2, 3]]).theta = [8, 2, 9] := by decide

/-! ## C03 -/
section
variable {K : Type*} [Field K] [LinearOrder K]

/-- Specification: every varying parameter lies in its own closed bounds (IEEE order). -/
def InBounds (n : Nat) (vary : List Bool) (bounds : List (Option (Fl K × Fl K)))
    (fit : List (Fl K)) : Prop :=
  ∀ i < n, vary[i]? = some true →
    ∃ b x, bounds[i]? = some (some b) ∧ fit[(vary.take i).count true]? = some x ∧
      Fl.leB b.1 x = true ∧ Fl.leB x b.2 = true

/-- C03: with bounds for every varying parameter and a long enough fitting vector the
prior is `0` exactly inside the bounds and `-inf` outside. -/
theorem C03_prior_indicator (theta : List (Fl K)) (vary : List Bool)
    (bounds : List (Option (Fl K × Fl K))) (fit : List (Fl K))
    (hv : theta.length ≤ vary.length)
    (hfit : (vary.take theta.length).count true ≤ fit.length)
    (hb : ∀ i < theta.length, vary[i]? = some true → ∃ b, bounds[i]? = some (some b)) :
    (InBounds theta.length vary bounds fit → logPrior theta vary bounds fit = .ok 0) ∧
    (¬ InBounds theta.length vary bounds fit → logPrior theta vary bounds fit = .ok .ninf) := by
  obtain ⟨st, hst⟩ := priorStatements_ok theta.length vary bounds fit hv hfit hb
  have := priorStatements_spec _ _ _ _ _ hst
  simp only [logPrior, hst]
  constructor
  · intro h
    rw [if_pos (this.2 h)]
  · intro h
    rw [if_neg (fun h' => h (this.1 h'))]

/-- C03: bounds of fixed parameters are not consulted. -/
theorem C03_fixed_bounds_irrelevant (theta : List (Fl K)) (vary : List Bool)
    (bs bs' : List (Option (Fl K × Fl K))) (fit : List (Fl K))
    (hl : bs.length = bs'.length)
    (H : ∀ i : Nat, vary[i]? = some true → bs[i]? = bs'[i]?) :
    logPrior theta vary bs fit = logPrior theta vary bs' fit := by
  simp only [logPrior, priorStatements_congr _ _ _ _ fit hl H]

/-- C03: a fitting vector that is too short is an IndexError. -/
theorem C03_short_vector (theta : List (Fl K)) (vary : List Bool)
    (bounds : List (Option (Fl K × Fl K))) (fit : List (Fl K))
    (hv : theta.length ≤ vary.length)
    (hfit : fit.length < (vary.take theta.length).count true)
    (hb : ∀ i < theta.length, vary[i]? = some true → ∃ b, bounds[i]? = some (some b)) :
    logPrior theta vary bounds fit = .error .indexError := by
  simp only [logPrior, priorStatements_short _ _ _ _ hv hfit hb]

/-- C03: a NaN among the used entries of the fitting vector gives `-inf`. -/
theorem C03_nan_rejected (theta : List (Fl K)) (vary : List Bool)
    (bounds : List (Option (Fl K × Fl K))) (fit : List (Fl K))
    (hv : theta.length ≤ vary.length)
    (hfit : (vary.take theta.length).count true ≤ fit.length)
    (hb : ∀ i < theta.length, vary[i]? = some true → ∃ b, bounds[i]? = some (some b))
    (i : Nat) (hi : i < theta.length) (hvi : vary[i]? = some true)
    (hnan : fit[(vary.take i).count true]? = some .nan) :
    logPrior theta vary bounds fit = .ok .ninf := by
  refine (C03_prior_indicator theta vary bounds fit hv hfit hb).2 ?_
  intro H
  obtain ⟨b, x, _, h2, h3, _⟩ := H i hi hvi
  rw [hnan] at h2
  cases h2
  cases hb1 : b.1 <;> simp [Fl.leB, hb1] at h3

example : logPrior (K := ℚ) [.fin 0, .fin 0, .fin 0] [true, false, true]
      [some (.fin 0, .fin 2), none, some (.ninf, .fin 5)] [.fin 2, .ninf] = .ok 0 ∧
    logPrior (K := ℚ) [.fin 0, .fin 0, .fin 0] [true, false, true]
      [some (.fin 0, .fin 2), none, some (.ninf, .fin 5)] [.fin 2, .fin 6] = .ok .ninf ∧
    logPrior (K := ℚ) [.fin 0, .fin 0, .fin 0] [true, false, true]
      [some (.fin 0, .fin 2), none, some (.ninf, .fin 5)] [.fin 2, .nan] = .ok .ninf ∧
    logPrior (K := ℚ) [.fin 0, .fin 0, .fin 0] [true, false, true]
      [some (.fin 0, .fin 2), none, some (.ninf, .fin 5)] [.fin 2] = .error .indexError := by
  decide +kernel

/-! ## C04 -/

/-- C04: if `lnprob` returns a value it is `-inf` or finite. -/
theorem C04_range {S : Type*} (prior : List (Fl K) → Except PyErr (Fl K))
    (like : S → List (Fl K) → S × Except PyErr (Fl K)) (s : S) (fit : List (Fl K)) (p : Fl K)
    (h : (lnprob prior like s fit).2 = .ok p) : p = .ninf ∨ ∃ x, p = .fin x := by
  unfold lnprob at h
  split at h
  · simp at h
  · split at h
    · split at h
      · simp at h
      · simp only [Except.ok.injEq] at h
        split at h
        · rename_i hfin
          subst h
          right
          exact Fl.exists_of_isFinite hfin
        · left; exact h.symm
    · simp only [Except.ok.injEq] at h
      left; exact h.symm

/-- C04: inside the prior, the value is the sum whenever the sum is finite, and `-inf`
when it is not; the model state is the one left by the likelihood evaluation. -/
theorem C04_inside {S : Type*} (prior : List (Fl K) → Except PyErr (Fl K))
    (like : S → List (Fl K) → S × Except PyErr (Fl K)) (s s' : S) (fit : List (Fl K))
    (pr : K) (l : Fl K) (hp : prior fit = .ok (.fin pr)) (hl : like s fit = (s', .ok l)) :
    (∀ x, l = .fin x → lnprob prior like s fit = (s', .ok (.fin (pr + x)))) ∧
    ((∀ x, l ≠ .fin x) → lnprob prior like s fit = (s', .ok .ninf)) := by
  constructor
  · rintro x rfl
    simp [lnprob, hp, hl]
  · intro H
    cases l with
    | fin x => exact absurd rfl (H x)
    | nan => simp [lnprob, hp, hl, HAdd.hAdd, Add.add, Fl.add]
    | pinf => simp [lnprob, hp, hl, HAdd.hAdd, Add.add, Fl.add]
    | ninf => simp [lnprob, hp, hl, HAdd.hAdd, Add.add, Fl.add]

/-- C04: outside the prior the model is neither evaluated nor changed: the result does not
depend on the likelihood function at all and the state is returned as it was. -/
theorem C04_outside {S : Type*} (prior : List (Fl K) → Except PyErr (Fl K))
    (like : S → List (Fl K) → S × Except PyErr (Fl K)) (s : S) (fit : List (Fl K))
    (p : Fl K) (hp : prior fit = .ok p) (hinf : p.isFinite = false) :
    lnprob prior like s fit = (s, .ok .ninf) := by
  simp [lnprob, hp, hinf]

/-- C04 for the flat prior: the outcome is decided by the bounds. -/
theorem C04_flat_prior_outside {S : Type*} (theta : List (Fl K)) (vary : List Bool)
    (bounds : List (Option (Fl K × Fl K)))
    (like : S → List (Fl K) → S × Except PyErr (Fl K)) (s : S) (fit : List (Fl K))
    (hv : theta.length ≤ vary.length)
    (hfit : (vary.take theta.length).count true ≤ fit.length)
    (hb : ∀ i < theta.length, vary[i]? = some true → ∃ b, bounds[i]? = some (some b))
    (hout : ¬ InBounds theta.length vary bounds fit) :
    lnprob (logPrior theta vary bounds) like s fit = (s, .ok .ninf) :=
  C04_outside _ _ _ _ _ ((C03_prior_indicator theta vary bounds fit hv hfit hb).2 hout) rfl

example : lnprob (K := ℚ) (S := Nat) (logPrior [.fin 0] [true] [some (.fin 0, .fin 1)])
      (fun n _ => (n + 1, .ok .nan)) 0 [.fin 1] = (1, .ok .ninf) ∧
    lnprob (K := ℚ) (S := Nat) (logPrior [.fin 0] [true] [some (.fin 0, .fin 1)])
      (fun n _ => (n + 1, .ok (.fin 7))) 0 [.fin 1] = (1, .ok (.fin 7)) ∧
    lnprob (K := ℚ) (S := Nat) (logPrior [.fin 0] [true] [some (.fin 0, .fin 1)])
      (fun n _ => (n + 1, .ok (.fin 7))) 0 [.fin 2] = (0, .ok .ninf) := by decide +kernel

end

/-! ## C05 -/
section
variable {K : Type*} [Field K] [LinearOrder K] [IsStrictOrderedRing K]

/-- Specification: every varying parameter has finite ordered bounds. -/
def FiniteOrderedBounds (n : Nat) (vary : List Bool) (bounds : List (Option (Fl K × Fl K))) : Prop :=
  ∀ i < n, vary[i]? = some true → ∃ lo hi : K, lo ≤ hi ∧ bounds[i]? = some (some (.fin lo, .fin hi))

/-- A vector of draws of `np.random.random_sample`: numbers in `[0, 1)`. -/
def UnitDraws (u : List (Fl K)) : Prop := ∀ x ∈ u, ∃ r : K, 0 ≤ r ∧ r < 1 ∧ x = .fin r

theorem walker_statements : ∀ (n : Nat) (vary : List Bool) (bounds : List (Option (Fl K × Fl K)))
    (u : List (Fl K)), n ≤ vary.length → FiniteOrderedBounds n vary bounds → UnitDraws u →
    u.length = (vary.take n).count true →
    ∃ ra, rangeArrs n vary bounds = .ok ra ∧ ra.length = u.length ∧
      ∃ st, priorStatements n vary bounds
        (List.zipWith (fun x r => x * r.1 + r.2) u ra) = .ok st ∧ st.all id = true
  | 0, _, _, u, _, _, _, hu => by
      have : u = [] := by simpa using hu
      subst this
      exact ⟨[], rfl, rfl, [], rfl, rfl⟩
  | n + 1, [], _, _, h, _, _, _ => by simp at h
  | n + 1, false :: vs, bs, u, h, hb, hd, hu => by
      have hb' : FiniteOrderedBounds n vs bs.tail := by
        intro i hi hv
        obtain ⟨lo, hi', h1, h2⟩ := hb (i + 1) (by omega) (by simpa using hv)
        exact ⟨lo, hi', h1, by simpa using h2⟩
      obtain ⟨ra, h1, h2, st, h3, h4⟩ :=
        walker_statements n vs bs.tail u (by simpa using h) hb' hd (by simpa using hu)
      exact ⟨ra, by simpa [rangeArrs] using h1, h2, st, by simpa [priorStatements] using h3, h4⟩
  | n + 1, true :: vs, bs, u, h, hb, hd, hu => by
      obtain ⟨lo, hi', hle, hget⟩ := hb 0 (by omega) (by simp)
      cases bs with
      | nil => simp at hget
      | cons b bs =>
        simp only [List.getElem?_cons_zero, Option.some.injEq] at hget
        subst hget
        cases u with
        | nil => simp at hu
        | cons x xs =>
          have hb' : FiniteOrderedBounds n vs bs := by
            intro i hi hv
            obtain ⟨lo, hi', h1, h2⟩ := hb (i + 1) (by omega) (by simpa using hv)
            exact ⟨lo, hi', h1, by simpa using h2⟩
          obtain ⟨ra, h1, h2, st, h3, h4⟩ := walker_statements n vs bs xs (by simpa using h) hb'
            (fun y hy => hd y (List.mem_cons_of_mem _ hy)) (by simpa using hu)
          obtain ⟨r, hr0, hr1, rfl⟩ := hd x (List.mem_cons_self ..)
          have hmax : pyMax (Fl.fin lo, Fl.fin hi') = Fl.fin hi' := by
            by_cases hlt : lo < hi'
            · simp [pyMax, hlt]
            · have : lo = hi' := le_antisymm hle (not_lt.1 hlt)
              simp [pyMax, this]
          have hmin : pyMin (Fl.fin lo, Fl.fin hi') = Fl.fin lo := by
            simp [pyMin, not_lt.2 hle]
          refine ⟨(pyMax (Fl.fin lo, Fl.fin hi') - pyMin (Fl.fin lo, Fl.fin hi'),
            pyMin (Fl.fin lo, Fl.fin hi')) :: ra, by simp [rangeArrs, h1], by simp [h2],
            true :: st, ?_, by simp [h4]⟩
          simp only [List.zipWith_cons_cons, priorStatements, h3, hmax, hmin]
          have hk : 0 ≤ hi' - lo := by linarith
          have e1 : lo ≤ r * (hi' - lo) + lo := by nlinarith
          have e2 : r * (hi' - lo) + lo ≤ hi' := by nlinarith
          simp [between, e1, e2]

/-- C05: with finite ordered bounds every walker position computed from draws in `[0,1)`
exists and has prior 0, i.e. lies inside the closed bounds of every varying parameter. -/
theorem C05_walkers_inside (theta : List (Fl K)) (vary : List Bool)
    (bounds : List (Option (Fl K × Fl K))) (u : List (Fl K))
    (hv : vary.length = theta.length) (hb : FiniteOrderedBounds theta.length vary bounds)
    (hd : UnitDraws u) (hu : u.length = vary.count true) :
    ∃ ra pos, rangeArrs theta.length vary bounds = .ok ra ∧ walkerPos u ra = .ok pos ∧
      pos.length = vary.count true ∧
      logPrior theta vary bounds pos = .ok 0 ∧ InBounds theta.length vary bounds pos := by
  have htake : vary.take theta.length = vary := by rw [← hv]; simp
  obtain ⟨ra, h1, h2, st, h3, h4⟩ := walker_statements theta.length vary bounds u (by omega) hb hd
    (by rw [htake]; exact hu)
  refine ⟨ra, _, h1, by simp [walkerPos, h2.symm]; rfl, by simp [h2, hu], ?_, ?_⟩
  · simp [logPrior, h3, h4]
  · exact (priorStatements_spec _ _ _ _ _ h3).1 h4

example : FiniteOrderedBounds (K := ℚ) 2 [true, false] [some (.fin 1, .fin 3), none] ∧
    UnitDraws (K := ℚ) [.fin (1/2)] := by
  constructor
  · intro i hi hv
    have : i = 0 ∨ i = 1 := by omega
    rcases this with rfl | rfl
    · exact ⟨1, 3, by norm_num, rfl⟩
    · simp at hv
  · intro x hx
    simp at hx
    exact ⟨2⁻¹, by norm_num, by norm_num, hx⟩

/-- Disagreement with the comment at fit_core.py 910-911 ("need theta_bounds to be set
even if it's infinite"): with lower bound `-inf` the starting position is NaN or `-inf`
for every draw. -/
theorem C05_infinite_lower_bound_degenerate (r hi : K) :
    ∃ ra pos, rangeArrs 1 [true] [some (Fl.ninf, Fl.fin hi)] = .ok ra ∧
      walkerPos [Fl.fin r] ra = .ok pos ∧ (pos = [.nan] ∨ pos = [.ninf]) := by
  refine ⟨_, _, rfl, rfl, ?_⟩
  have e1 : pyMax ((Fl.ninf : Fl K), Fl.fin hi) = .fin hi := rfl
  have e2 : pyMin ((Fl.ninf : Fl K), Fl.fin hi) = .ninf := rfl
  have e3 : (Fl.fin hi : Fl K) - .ninf = .pinf := rfl
  have e4 : (Fl.fin r : Fl K) * .pinf = Fl.infTimes r := rfl
  simp only [List.zipWith_cons_cons, List.zipWith_nil_left, e1, e2, e3, e4]
  unfold Fl.infTimes
  split_ifs
  · left; rfl
  · left; rfl
  · right; rfl

/-- With draws in `[0,1)` and lower bound `-inf` every walker starts at NaN and has prior
`-inf`: the sampler starts with no valid walker. -/
theorem C05_infinite_lower_bound_rejected (r hi : K) (hr : 0 ≤ r) :
    ∃ ra pos, rangeArrs 1 [true] [some (Fl.ninf, Fl.fin hi)] = .ok ra ∧
      walkerPos [Fl.fin r] ra = .ok pos ∧ pos = [.nan] ∧
      logPrior [Fl.fin 0] [true] [some (Fl.ninf, Fl.fin hi)] pos = .ok .ninf := by
  have e1 : pyMax ((Fl.ninf : Fl K), Fl.fin hi) = .fin hi := rfl
  have e2 : pyMin ((Fl.ninf : Fl K), Fl.fin hi) = .ninf := rfl
  have e3 : (Fl.fin hi : Fl K) - .ninf = .pinf := rfl
  have e4 : (Fl.fin r : Fl K) * .pinf = Fl.infTimes r := rfl
  have hpos : (Fl.fin r : Fl K) * (pyMax ((Fl.ninf : Fl K), Fl.fin hi) -
      pyMin ((Fl.ninf : Fl K), Fl.fin hi)) + pyMin ((Fl.ninf : Fl K), Fl.fin hi) = .nan := by
    rw [e1, e2, e3, e4]
    unfold Fl.infTimes
    split_ifs with h1 h2
    · rfl
    · rfl
    · exact absurd (lt_of_le_of_ne hr (Ne.symm h1)) h2
  refine ⟨_, _, rfl, rfl, ?_, ?_⟩
  · simp only [List.zipWith_cons_cons, List.zipWith_nil_left, hpos]
  · simp only [List.zipWith_cons_cons, List.zipWith_nil_left, hpos]
    rfl

/-- Bounds given in reversed order (lower above upper): the walkers are still drawn from
between the two numbers (`C05_between`), but the prior rejects every one of them. -/
theorem C05_reversed_bounds_rejected (lo hi : K) (h : hi < lo) (x : Fl K) :
    logPrior [Fl.fin 0] [true] [some (Fl.fin lo, Fl.fin hi)] [x] = .ok .ninf := by
  cases x with
  | fin y =>
    have : ¬ (lo ≤ y ∧ y ≤ hi) := fun ⟨h1, h2⟩ => absurd (h1.trans h2) (not_le.2 h)
    by_cases h1 : lo ≤ y
    · have h2 : ¬ y ≤ hi := fun h2 => this ⟨h1, h2⟩
      simp [logPrior, priorStatements, between, h2]
    · simp [logPrior, priorStatements, between, h1]
  | nan => rfl
  | pinf => rfl
  | ninf => rfl

example : (1 : ℚ) < 3 ∧ logPrior (K := ℚ) [.fin 0] [true] [some (.fin 3, .fin 1)] [.fin 2] =
    .ok .ninf := by decide +kernel

theorem pyMin_fin (a b : K) : pyMin (Fl.fin a, Fl.fin b) = .fin (min a b) := by
  by_cases h : b < a
  · simp [pyMin, Fl.ltB, h, min_eq_right h.le]
  · simp [pyMin, Fl.ltB, h, min_eq_left (not_lt.1 h)]

theorem pyMax_fin (a b : K) : pyMax (Fl.fin a, Fl.fin b) = .fin (max a b) := by
  by_cases h : a < b
  · simp [pyMax, Fl.ltB, h, max_eq_right h.le]
  · simp [pyMax, Fl.ltB, h, max_eq_left (not_lt.1 h)]

theorem walkers_between : ∀ (n : Nat) (vary : List Bool) (bounds : List (Option (Fl K × Fl K))),
    n ≤ vary.length →
    (∀ i < n, vary[i]? = some true → ∃ a b : K, bounds[i]? = some (some (.fin a, .fin b))) →
    ∃ ra, rangeArrs n vary bounds = .ok ra ∧ ra.length = (vary.take n).count true ∧
      ∀ i < n, vary[i]? = some true → ∃ a b : K, bounds[i]? = some (some (.fin a, .fin b)) ∧
        ra[(vary.take i).count true]? = some (.fin (max a b - min a b), .fin (min a b))
  | 0, _, _, _, _ => ⟨[], rfl, rfl, fun i hi => absurd hi (Nat.not_lt_zero i)⟩
  | n + 1, [], _, h, _ => by simp at h
  | n + 1, false :: vs, bs, h, hb => by
      obtain ⟨ra, h1, h2, h3⟩ := walkers_between n vs bs.tail (by simpa using h) (fun i hi hv => by
        obtain ⟨a, b, hab⟩ := hb (i + 1) (by omega) (by simpa using hv)
        exact ⟨a, b, by simpa using hab⟩)
      refine ⟨ra, h1, by simpa using h2, fun i hi hv => ?_⟩
      cases i with
      | zero => simp at hv
      | succ i =>
        obtain ⟨a, b, h4, h5⟩ := h3 i (by omega) (by simpa using hv)
        exact ⟨a, b, by simpa using h4, by simpa using h5⟩
  | n + 1, true :: vs, bs, h, hb => by
      obtain ⟨a, b, hab⟩ := hb 0 (by omega) rfl
      obtain ⟨bs, rfl⟩ : ∃ t, bs = some (.fin a, .fin b) :: t := by
        cases bs with
        | nil => simp at hab
        | cons x t => exact ⟨t, by simpa using hab⟩
      obtain ⟨ra, h1, h2, h3⟩ := walkers_between n vs bs (by simpa using h) (fun i hi hv => by
        obtain ⟨a, b, hab⟩ := hb (i + 1) (by omega) (by simpa using hv)
        exact ⟨a, b, by simpa using hab⟩)
      refine ⟨_, by rw [rangeArrs, h1], by simpa using h2, fun i hi hv => ?_⟩
      cases i with
      | zero =>
        refine ⟨a, b, rfl, ?_⟩
        rw [pyMin_fin, pyMax_fin, sub_eq_add_neg]
        rfl
      | succ i =>
        obtain ⟨a, b, h4, h5⟩ := h3 i (by omega) (by simpa using hv)
        exact ⟨a, b, by simpa using h4, by simpa using h5⟩

/-- C05: whichever of two finite bounds is given first, the walker of the draws `u` starts, in every varying
parameter, at the fraction `u` of the way from the smaller to the larger bound. -/
theorem C05_between (theta : List (Fl K)) (vary : List Bool)
    (bounds : List (Option (Fl K × Fl K))) (u : List (Fl K))
    (hv : vary.length = theta.length)
    (hb : ∀ i < theta.length, vary[i]? = some true → ∃ a b : K, bounds[i]? = some (some (.fin a, .fin b)))
    (hd : UnitDraws u) (hu : u.length = vary.count true) :
    ∃ ra pos, rangeArrs theta.length vary bounds = .ok ra ∧ walkerPos u ra = .ok pos ∧
      pos.length = vary.count true ∧
      ∀ i < theta.length, vary[i]? = some true → ∃ a b r : K, bounds[i]? = some (some (.fin a, .fin b)) ∧
        u[(vary.take i).count true]? = some (.fin r) ∧ 0 ≤ r ∧ r < 1 ∧
        pos[(vary.take i).count true]? = some (.fin (min a b + r * (max a b - min a b))) := by
  have htake : vary.take theta.length = vary := by rw [← hv]; simp
  obtain ⟨ra, h1, h2, h3⟩ := walkers_between theta.length vary bounds (by omega) hb
  rw [htake] at h2
  refine ⟨ra, List.zipWith (fun x r => x * r.1 + r.2) u ra, h1, by simp [walkerPos, hu, h2], by simp [hu, h2], fun i hi hvi => ?_⟩
  obtain ⟨a, b, h4, h5⟩ := h3 i hi hvi
  obtain ⟨hk, -⟩ := List.getElem?_eq_some_iff.1 h5
  rw [h2, ← hu] at hk
  obtain ⟨r, hr0, hr1, hr⟩ := hd _ (List.getElem_mem hk)
  have hu' : u[(vary.take i).count true]? = some (.fin r) := by rw [List.getElem?_eq_getElem hk, hr]
  refine ⟨a, b, r, h4, hu', hr0, hr1, ?_⟩
  rw [List.getElem?_zipWith, hu', h5]
  show some (Fl.fin (r * (max a b - min a b) + min a b)) = _
  rw [add_comm]

example : ∃ pos, walkerPos (K := ℚ) [.fin (1/4)] [((.fin 2, .fin 1))] = .ok pos ∧
    rangeArrs (K := ℚ) 1 [true] [some (.fin 3, .fin 1)] = .ok [(.fin 2, .fin 1)] ∧ pos = [.fin (3/2)] :=
  ⟨[.fin (3/2)], by decide +kernel, by decide +kernel, rfl⟩

end
end Misfit
