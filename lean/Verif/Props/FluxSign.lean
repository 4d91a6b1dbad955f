import Verif.Props.Units

/-!
# C240: the sign of the flux cannot be seen in a fit
-/

namespace Misfit

section
variable {K : Type*} [Field K] [LinearOrder K] [IsStrictOrderedRing K] {r c : Nat}

/-- Specification: the image with every pixel negated. -/
def Img.negated (x : Img r c K) : Img r c K := fun i j => -x i j

/-- Specification: the same observation with every flux negated. -/
def FitData.negated (d : FitData r c K) : FitData r c K := { d with flux := d.flux.negated }

namespace Fl

theorem neg_zero' : -(0 : Fl K) = 0 := congrArg fin neg_zero

theorem neg_neg' (a : Fl K) : - -a = a := by
  cases a <;> first | rfl | exact congrArg fin (neg_neg _)

theorem neg_add' (a b : Fl K) : -a + -b = -(a + b) := by
  cases a <;> cases b <;> first | rfl | skip
  exact congrArg fin (neg_add _ _).symm

theorem infTimes_neg (a : K) : infTimes (-a) = -infTimes a := by
  unfold infTimes
  rcases lt_trichotomy a 0 with h | h | h
  · rw [if_neg (neg_ne_zero.2 h.ne), if_pos (neg_pos.2 h), if_neg h.ne, if_neg (not_lt.2 h.le)]
    rfl
  · rw [if_pos (neg_eq_zero.2 h), if_pos h]
    rfl
  · rw [if_neg (neg_ne_zero.2 h.ne'), if_neg (by simpa using h.le), if_neg h.ne', if_pos h]
    rfl

theorem neg_mul' (a b : Fl K) : -a * b = -(a * b) := by
  cases a with
  | fin x =>
    cases b with
    | fin y => exact congrArg fin (neg_mul _ _)
    | nan => rfl
    | pinf => exact infTimes_neg x
    | ninf => exact infTimes_neg (-x)
  | nan => cases b <;> rfl
  | pinf =>
    cases b with
    | fin y => exact infTimes_neg y
    | nan => rfl
    | pinf => rfl
    | ninf => rfl
  | ninf =>
    cases b with
    | fin y =>
      show infTimes y = -infTimes (-y)
      rw [infTimes_neg, neg_neg']
    | nan => rfl
    | pinf => rfl
    | ninf => rfl

theorem mul_neg' (a b : Fl K) : a * -b = -(a * b) := by
  rw [Fl.mul_comm' a, neg_mul', Fl.mul_comm' b]

theorem neg_div' (a b : Fl K) : -a / b = -(a / b) := by
  cases a with
  | fin x =>
    cases b with
    | fin y =>
      show (if y = 0 then infTimes (-x) else fin (-x / y)) = -(if y = 0 then infTimes x else fin (x / y))
      split
      · exact infTimes_neg x
      · exact congrArg fin (neg_div _ _)
    | nan => rfl
    | pinf => exact congrArg fin neg_zero.symm
    | ninf => exact congrArg fin neg_zero.symm
  | nan => cases b <;> rfl
  | pinf =>
    cases b with
    | fin y =>
      show (if y < 0 then pinf else ninf) = -(if y < 0 then ninf else pinf)
      split <;> rfl
    | nan => rfl
    | pinf => rfl
    | ninf => rfl
  | ninf =>
    cases b with
    | fin y =>
      show (if y < 0 then ninf else pinf) = -(if y < 0 then pinf else ninf)
      split <;> rfl
    | nan => rfl
    | pinf => rfl
    | ninf => rfl

theorem neg_sub_neg' (a b : Fl K) : -a - -b = -(a - b) := neg_add' a (-b)

theorem sq_neg' (a : Fl K) : sq (-a) = sq a := by
  unfold sq
  rw [neg_mul', mul_neg', neg_neg']

theorem isFinite_neg (a : Fl K) : (-a).isFinite = a.isFinite := by cases a <;> rfl

theorem neg_list_sum (l : List (Fl K)) : (l.map fun x => -x).sum = -l.sum := by
  induction l with
  | nil => exact neg_zero'.symm
  | cons x l ih => rw [List.map_cons, List.sum_cons, List.sum_cons, ih, neg_add']

end Fl

theorem scaleRatio_neg (num den : Fl K) : scaleRatio (-num) den = -scaleRatio num den := by
  unfold scaleRatio
  rw [Fl.isFinite_neg]
  simp only [← Fl.neg_div']
  congr 1
  by_cases h0 : Fl.eqB (Fl.abs den) 0 = true
  · simp only [h0, if_true, Fl.neg_zero']
  · simp only [h0, Bool.false_eq_true, if_false]
    split
    · rfl
    · exact Fl.neg_zero'.symm

/-- **C240**: the model scaled to the negated flux is the negated scaled model: for every flux, error and model image, with NaN, infinities and
zero errors included. -/
theorem C240_scale (flux err model : Img r c K) (nosky : List (Fin c)) :
    scaleModel flux.negated err model nosky = (scaleModel flux err model nosky).negated := by
  have hn : ∀ i, scaleNum (flux.negated i) (err i) (model i) nosky = -scaleNum (flux i) (err i) (model i) nosky := by
    intro i
    unfold scaleNum Img.negated
    rw [← Fl.neg_list_sum, List.map_map]
    congr 1
    refine List.map_congr_left (fun j _ => ?_)
    rw [Fl.neg_mul', Fl.neg_div']
    rfl
  funext i j
  show model i j * scaleRatio _ _ = -(model i j * scaleRatio _ _)
  rw [hn, scaleRatio_neg, Fl.mul_neg']

/-- **C240**: chi-square, with and without weights, and the reduced chi-square do not change when data and model are negated. -/
theorem C240_chisq (d : FitData r c K) (nFree : Nat) (model : Img r c K) :
    modelChisq d.negated model.negated = modelChisq d model ∧
    modelChisqNoWeight d.negated model.negated = modelChisqNoWeight d model ∧
    modelRedchisq d.negated nFree model.negated = modelRedchisq d nFree model ∧
    modelRedchisqNoWeight d.negated nFree model.negated = modelRedchisqNoWeight d nFree model := by
  have e1 : modelChisq d.negated model.negated = modelChisq d model := by
    unfold modelChisq chisqPixel FitData.negated Img.negated
    simp only [Fl.neg_sub_neg', Fl.neg_mul', Fl.neg_div', Fl.sq_neg']
  have e2 : modelChisqNoWeight d.negated model.negated = modelChisqNoWeight d model := by
    unfold modelChisqNoWeight FitData.negated Img.negated
    simp only [Fl.neg_sub_neg', Fl.neg_mul', Fl.neg_div', Fl.sq_neg']
  refine ⟨e1, e2, ?_, ?_⟩
  · unfold modelRedchisq; rw [e1]; rfl
  · unfold modelRedchisqNoWeight; rw [e2]; rfl

end

section
variable {r c : Nat}

/-- **C240**: the log-likelihood does not change when data and model are negated. -/
theorem C240_llike (d : FitData r c ℝ) (model : Img r c ℝ) : modelLlike d.negated model.negated = modelLlike d model := by
  unfold modelLlike FitData.negated Img.negated
  simp only [Fl.neg_sub_neg', Fl.neg_div', Fl.sq_neg']

/-- Specification: the same galaxy and instrument with the flux negated. -/
noncomputable def KinInput.negated (g : KinInput r c) : KinInput r c := { g with data := g.data.negated }

/-- the same call with the flux negated -/
noncomputable def KinCall.negated : KinCall r c → KinCall r c
  | .make g fit => .make g.negated fit
  | .update fit => .update fit

/-- two objects that differ only in the sign of the flux -/
structure SameUpToSign (P : KinInput r c → Prop) (m m' : KinModelState r c) : Prop where
  params : m'.params = m.params
  kin : m'.kin = m.kin
  ns : m.noScale = false
  ns' : m'.noScale = false
  model : m'.model = m.model.map Img.negated
  aper : m'.aper = m.aper.map fun p => (p.1.negated, p.2)
  on : ∀ g s, m.aper = some (g, s) → P g

theorem finish_sign {P : KinInput r c → Prop} (g : KinInput r c) (hg : g.HasCols) (img : Option Arr2)
    {m m' : KinModelState r c} (h : SameUpToSign P m m') :
    (finishModel m' (g.negated) img).2 = (finishModel m g img).2 ∧
    SameUpToSign P (finishModel m g img).1 (finishModel m' (g.negated) img).1 := by
  unfold finishModel
  rw [if_neg (by rw [h.ns']; exact Bool.false_ne_true), if_neg (by rw [h.ns]; exact Bool.false_ne_true)]
  have hn : (g.negated).nosky = g.nosky := rfl
  rw [hn]
  cases hc : g.nosky with
  | none => exact absurd hc hg
  | some cols =>
    refine ⟨rfl, h.params, h.kin, h.ns, h.ns', ?_, h.aper, h.on⟩
    exact congrArg some (C240_scale g.data.flux g.data.err (toImg r c img) cols)

theorem eval_sign {P : KinInput r c → Prop} (hP : ∀ g, P g → g.HasCols)
    (g : KinInput r c) (hg : P g) (s : AperState)
    {m m' : KinModelState r c} (h : SameUpToSign P m m') :
    (evalExisting m' (g.negated) s).2 = (evalExisting m g s).2 ∧
    SameUpToSign P (evalExisting m g s).1 (evalExisting m' (g.negated) s).1 := by
  unfold evalExisting
  have hcfg : (g.negated).aperCfg = g.aperCfg := rfl
  rw [hcfg, h.params]
  generalize updateModel g.aperCfg s m.params.theta = R
  obtain ⟨s1, r1⟩ := R
  have hrel : SameUpToSign P { m with kin := s1.kin, aper := some (g, s1) }
      { m' with params := m.params, kin := s1.kin, aper := some (g.negated, s1) } :=
    ⟨rfl, rfl, h.ns, h.ns', h.model, rfl, fun g' s' he => by cases he; exact hg⟩
  simp only
  cases r1 with
  | error e => exact ⟨rfl, hrel⟩
  | ok img => exact finish_sign g (hP g hg) img hrel

theorem step_sign {P : KinInput r c → Prop} (hP : ∀ g, P g → g.HasCols)
    {m m' : KinModelState r c} (h : SameUpToSign P m m')
    (call : KinCall r c) (hc : call.On P) :
    (m'.step (call.negated)).2 = (m.step call).2 ∧
    SameUpToSign P (m.step call).1 (m'.step (call.negated)).1 := by
  cases call with
  | make g fit =>
    simp only [KinModelState.step, KinCall.negated]
    unfold KinModelState.make
    rw [h.params]
    generalize m.params.update fit = p
    obtain ⟨p, e⟩ := p
    cases e with
    | some e => exact ⟨rfl, rfl, h.kin, h.ns, h.ns', h.model, h.aper, h.on⟩
    | none =>
      simp only
      rw [h.kin]
      cases hk : m.kin.updateTheta p.theta with
      | error e => exact ⟨rfl, rfl, rfl, h.ns, h.ns', h.model, h.aper, h.on⟩
      | ok k =>
        simp only
        rw [h.aper]
        cases ha : m.aper with
        | none =>
          simp only [Option.map_none]
          have hcfg : (g.negated).aperCfg = g.aperCfg := rfl
          rw [hcfg]
          cases buildModel g.aperCfg k p.theta with
          | error e => exact ⟨rfl, rfl, rfl, h.ns, h.ns', h.model, rfl, fun _ _ he => by cases he⟩
          | ok sr =>
            obtain ⟨s1, r1⟩ := sr
            cases r1 with
            | error e => exact ⟨rfl, rfl, rfl, h.ns, h.ns', h.model, rfl, fun _ _ he => by cases he⟩
            | ok img =>
              exact finish_sign g (hP g hc) img ⟨rfl, rfl, h.ns, h.ns', h.model, rfl,
                fun _ _ he => by cases he; exact hc⟩
        | some q =>
          obtain ⟨g0, s⟩ := q
          exact eval_sign hP g0 (h.on g0 s ha) { s with kin := k }
            ⟨rfl, rfl, h.ns, h.ns', h.model, rfl, fun _ _ he => by cases he; exact h.on g0 s ha⟩
  | update fit =>
    simp only [KinModelState.step, KinCall.negated]
    unfold KinModelState.update
    rw [h.params]
    generalize m.params.update fit = p
    obtain ⟨p, e⟩ := p
    cases e with
    | some e => exact ⟨rfl, rfl, h.kin, h.ns, h.ns', h.model, h.aper, h.on⟩
    | none =>
      simp only
      rw [h.aper]
      cases ha : m.aper with
      | none => exact ⟨rfl, rfl, h.kin, h.ns, h.ns', h.model, rfl, fun _ _ he => by cases he⟩
      | some q =>
        obtain ⟨g0, s⟩ := q
        exact eval_sign hP g0 (h.on g0 s ha) s
          ⟨rfl, h.kin, h.ns, h.ns', h.model, rfl, fun _ _ he => by cases he; exact h.on g0 s ha⟩

theorem run_sign {P : KinInput r c → Prop} (hP : ∀ g, P g → g.HasCols) :
    ∀ (calls : List (KinCall r c)) {m m' : KinModelState r c},
    SameUpToSign P m m' → (∀ call ∈ calls, call.On P) →
    SameUpToSign P (m.run calls) (m'.run (calls.map KinCall.negated))
  | [], _, _, h, _ => h
  | call :: calls, _, _, h, hc =>
      run_sign hP calls (step_sign hP h call (hc call (by simp))).2 (fun x hx => hc x (by simp [hx]))

/-- **C240**: two series of calls of `make_model` and `update_model` on spectra with opposite flux give, call by call, the same exceptions, and
leave the same parameters and opposite images. -/
theorem C240_object (theta : List ℝ) (vary : List Bool) (kin : KinProfile)
    (calls : List (KinCall r c)) (hcols : ∀ call ∈ calls, call.On KinInput.HasCols) (m0 : KinModelState r c)
    (hm0 : m0 = KinModelState.init theta vary kin false) :
    (m0.run (calls.map KinCall.negated)).params = (m0.run calls).params ∧
    (m0.run (calls.map KinCall.negated)).model = (m0.run calls).model.map Img.negated ∧
    ∀ call, call.On KinInput.HasCols → ((m0.run (calls.map KinCall.negated)).step (call.negated)).2 =
      ((m0.run calls).step call).2 := by
  have h := run_sign (fun _ h => h) calls (m := m0) (m' := m0)
    (by subst hm0; exact ⟨rfl, rfl, rfl, rfl, rfl, rfl, fun _ _ he => by cases he⟩) hcols
  exact ⟨h.params, h.model, fun call hc => (step_sign (fun _ h => h) h call hc).1⟩

/-- **C240**: the posterior of a fit, after any series of calls, is the same for the negated flux. -/
theorem C240_posterior (theta : List ℝ) (vary : List Bool) (kin : KinProfile) (calls : List (KinCall r c))
    (hcols : ∀ call ∈ calls, call.On KinInput.HasCols) (m0 : KinModelState r c) (hm0 : m0 = KinModelState.init theta vary kin false)
    (bounds : List (Option (Fl ℝ × Fl ℝ))) (fit : List ℝ) :
    ((m0.run (calls.map KinCall.negated)).lnprob bounds fit).2 = ((m0.run calls).lnprob bounds fit).2 := by
  have h := run_sign (fun _ h => h) calls (m := m0) (m' := m0)
    (by subst hm0; exact ⟨rfl, rfl, rfl, rfl, rfl, rfl, fun _ _ he => by cases he⟩) hcols
  generalize m0.run (calls.map KinCall.negated) = m' at h
  generalize m0.run calls = m at h
  have hlike : ∀ f, (m'.lnlike f).2 = (m.lnlike f).2 := by
    intro f
    have hs := step_sign (fun _ h => h) h (.update f) trivial
    simp only [KinModelState.step, KinCall.negated] at hs
    unfold KinModelState.lnlike
    generalize m'.update f = R' at hs
    generalize m.update f = R at hs
    obtain ⟨n', r'⟩ := R'
    obtain ⟨n, r1⟩ := R
    obtain ⟨hr, hn⟩ := hs
    simp only at hr hn
    subst hr
    cases r' with
    | error e => rfl
    | ok _ =>
      simp only
      unfold KinModelState.llike
      rw [hn.aper, hn.model]
      cases ha : n.aper with
      | none => rfl
      | some q =>
        obtain ⟨g, s⟩ := q
        cases hmod : n.model with
        | none => rfl
        | some im =>
          simp only [Option.map_some]
          exact congrArg Except.ok (C240_llike g.data im)
  unfold KinModelState.lnprob Misfit.lnprob
  rw [h.params]
  cases logPrior (m.params.theta.map Fl.fin) m.params.vary bounds (fit.map Fl.fin) with
  | error e => rfl
  | ok pr =>
    have hl := hlike ((fit.map Fl.fin).map Fl.finVal)
    simp only
    split
    · generalize m'.lnlike ((fit.map Fl.fin).map Fl.finVal) = R' at hl
      generalize m.lnlike ((fit.map Fl.fin).map Fl.finVal) = R at hl
      obtain ⟨n', r'⟩ := R'
      obtain ⟨n, r1⟩ := R
      simp only at hl
      subst hl
      cases r' <;> rfl
    · rfl

/-- **C240**: a sampling run on the negated flux, with the same random numbers, returns the same samples with the same log-probabilities, or ends in
the same exception: emission and absorption have the same kinematics. -/
theorem C240_run (theta : List ℝ) (vary : List Bool) (kin : KinProfile) (calls : List (KinCall r c))
    (hcols : ∀ call ∈ calls, call.On KinInput.HasCols) (m0 : KinModelState r c) (hm0 : m0 = KinModelState.init theta vary kin false)
    (bounds : List (Option (Fl ℝ × Fl ℝ))) (v : EmceeVersion) (o : RunOpts ℝ) (cpuCount : Nat)
    (initial : List (List (Fl ℝ))) (burnMoves moves : Nat → List (Move ℝ))
    (diag : List (List (Walker ℝ)) → StepDiag ℝ) (file : List (List (Walker ℝ))) :
    runMcmc v o cpuCount (fun x => ((m0.run (calls.map KinCall.negated)).lnprob bounds (x.map Fl.finVal)).2) initial burnMoves moves diag
        file =
      runMcmc v o cpuCount (fun x => ((m0.run calls).lnprob bounds (x.map Fl.finVal)).2) initial burnMoves moves diag file := by
  simp only [C240_posterior theta vary kin calls hcols m0 hm0]

/-- the hypotheses of C240 are met by calls that succeed; a row of flux 4 and 6 with a NaN in a sky column, and its negative -/
example : (∀ call ∈ [KinCall.make oneInput [100, 1, 50], .update [120, 1, 60]], call.On KinInput.HasCols) ∧
    ((oneObj [0, 1, 1, 0, 0] [true, true, true, false, false] false).step (.make oneInput [100, 1, 50])).2 = .ok () ∧
    (List.ofFn fun j : Fin 3 => scaleModel (r := 1) (K := ℚ) (fun _ j => [.fin (-4), .fin (-6), .nan].get j)
      (fun _ j => [.fin 1, .fin 2, .fin 0].get j) (fun _ _ => .fin 2) [0, 1] 0 j) =
      [.fin (-22 / 5), .fin (-22 / 5), .fin (-22 / 5)] := by
  refine ⟨fun call hc => ?_, ?_, by decide +kernel⟩
  · simp only [List.mem_cons, List.not_mem_nil, or_false] at hc
    rcases hc with rfl | rfl
    · simp [KinCall.On, KinInput.HasCols, oneInput]
    · trivial
  · simp only [KinModelState.step]
    rw [one_make_three 0 1 1 0 false 100 1 50 (by norm_num) (by norm_num) (by norm_num)]
    exact finish_one_ok _ _

end

end Misfit
