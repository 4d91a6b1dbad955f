import Verif.Props.Units

/-!
# C232: a common factor on the errors does not move the best fit
-/

namespace Misfit

section
variable {K : Type*} [Field K] [LinearOrder K] [IsStrictOrderedRing K] {r c : Nat}

/-- Specification: the same observation with every error `u` times as large. -/
def FitData.errTimes (u : K) (d : FitData r c K) : FitData r c K := { d with err := d.err.inUnits u }

theorem scaleRatio_same {k : K} (hk : 0 < k) (num den : Fl K) :
    scaleRatio (Fl.scale k num) (Fl.scale k den) = scaleRatio num den := by
  unfold scaleRatio
  simp only [Fl.isFinite_scale, Fl.abs_zero_scale hk]
  by_cases h0 : Fl.eqB (Fl.abs den) 0 = true
  · simp only [h0, if_true]
  · simp only [h0, Bool.false_eq_true, if_false]
    by_cases hn : num.isFinite = true
    · simp only [hn, if_true]
      exact Fl.scale_div_scale hk _ _
    · simp only [hn, Bool.false_eq_true, if_false]
      have hz : (0 : Fl K) = Fl.scale k 0 := congrArg Fl.fin (mul_zero k).symm
      conv_lhs => rw [hz]
      exact Fl.scale_div_scale hk _ _

/-- **C232**: the scaled model does not depend on a common factor of the errors: for every flux, error and model image, with NaN,
infinities and zero errors included. -/
theorem C232_scale (u : K) (hu : 0 < u) (flux err model : Img r c K) (nosky : List (Fin c)) :
    scaleModel flux (err.inUnits u) model nosky = scaleModel flux err model nosky := by
  have hi : 0 < (u * u)⁻¹ := inv_pos.2 (mul_pos hu hu)
  have hn : ∀ i, scaleNum (flux i) (fun j => Fl.scale u (err i j)) (model i) nosky =
      Fl.scale (u * u)⁻¹ (scaleNum (flux i) (err i) (model i) nosky) := by
    intro i
    unfold scaleNum
    rw [← Fl.scale_list_sum]
    congr 1
    refine List.map_congr_left (fun j _ => ?_)
    rw [Fl.sq_scale hu, Fl.div_units (mul_pos hu hu)]
  have hd : ∀ i, scaleDen (fun j => Fl.scale u (err i j)) (model i) nosky =
      Fl.scale (u * u)⁻¹ (scaleDen (err i) (model i) nosky) := by
    intro i
    unfold scaleDen
    rw [← Fl.scale_list_sum]
    congr 1
    refine List.map_congr_left (fun j _ => ?_)
    rw [Fl.sq_scale hu, Fl.div_units (mul_pos hu hu)]
  rw [inUnits_eq hu]
  funext i j
  show model i j * scaleRatio _ _ = model i j * scaleRatio _ _
  rw [hn, hd, scaleRatio_same hi]

theorem Fl.scale_finset_sum {ι : Type*} (u : K) (f : ι → Fl K) (s : Finset ι) :
    ∑ i ∈ s, Fl.scale u (f i) = Fl.scale u (∑ i ∈ s, f i) := by
  classical
  induction s using Finset.induction_on with
  | empty =>
    simp only [Finset.sum_empty]
    exact congrArg Fl.fin (mul_zero u).symm
  | insert a s ha ih => rw [Finset.sum_insert ha, Finset.sum_insert ha, Fl.scale_add, ih]

/-- **C232**: chi-square, with and without weights, and the reduced chi-square are divided by the square of the factor. -/
theorem C232_chisq (u : K) (hu : 0 < u) (d : FitData r c K) (nFree : Nat) (model : Img r c K) :
    modelChisq (d.errTimes u) model = .fin (u * u)⁻¹ * modelChisq d model ∧
    modelChisqNoWeight (d.errTimes u) model = .fin (u * u)⁻¹ * modelChisqNoWeight d model ∧
    modelRedchisq (d.errTimes u) nFree model = .fin (u * u)⁻¹ * modelRedchisq d nFree model ∧
    modelRedchisqNoWeight (d.errTimes u) nFree model = .fin (u * u)⁻¹ * modelRedchisqNoWeight d nFree model := by
  have hi : 0 < (u * u)⁻¹ := inv_pos.2 (mul_pos hu hu)
  have hp : ∀ a e : Fl K, Fl.sq (a / Fl.scale u e) = Fl.scale (u * u)⁻¹ (Fl.sq (a / e)) := by
    intro a e
    rw [Fl.div_units hu, Fl.sq_scale (inv_pos.2 hu)]
    congr 1
    rw [mul_inv]
  simp only [← Fl.scale_eq_mul hi]
  have e1 : modelChisq (d.errTimes u) model = Fl.scale (u * u)⁻¹ (modelChisq d model) := by
    unfold modelChisq chisqPixel FitData.errTimes
    simp only [inUnits_eq hu, hp, Fl.scale_mul hi, Fl.mul_scale hi, Fl.scale_finset_sum]
  have e2 : modelChisqNoWeight (d.errTimes u) model = Fl.scale (u * u)⁻¹ (modelChisqNoWeight d model) := by
    unfold modelChisqNoWeight FitData.errTimes
    simp only [inUnits_eq hu, hp, Fl.mul_scale hi, Fl.scale_finset_sum]
  refine ⟨e1, e2, ?_, ?_⟩
  · unfold modelRedchisq; rw [e1, Fl.scale_div hi]; rfl
  · unfold modelRedchisqNoWeight; rw [e2, Fl.scale_div hi]; rfl

end

section
variable {r c : Nat}

/-- the constant by which the log-likelihood changes -/
noncomputable def errShift (u : ℝ) (mask e : Fin r → Fin c → ℝ) : ℝ :=
  -(1 / 2) * ∑ i, ∑ j, mask i j * (Real.logb 10 (u * u) + (1 - (u * u)⁻¹) * Real.logb 10 (2 * Real.pi * (e i j * e i j)))

theorem fin_mul_affine (m k L L' : ℝ) (hk : 0 < k) (a : Fl ℝ) :
    (Fl.fin m : Fl ℝ) * (Fl.scale k a + .fin L') = Fl.scale k (Fl.fin m * (a + .fin L)) + .fin (m * (L' - k * L)) := by
  rw [Fl.fin_mul_add_fin, Fl.fin_mul_add_fin, Fl.scale_add, Fl.mul_scale hk, add_assoc]
  congr 1
  show Fl.fin (m * L') = Fl.fin (k * (m * L) + m * (L' - k * L))
  congr 1
  ring

/-- **C232**: the log-likelihood, for a finite mask and finite errors that are not zero, is divided by the square of the factor and
shifted by a constant that does not depend on the model: the order of two models stays the same. -/
theorem C232_llike (u : ℝ) (hu : 0 < u) (d : FitData r c ℝ) (mask e : Fin r → Fin c → ℝ) (hm : d.mask = finImg mask)
    (he : d.err = finImg e) (he0 : ∀ i j, e i j ≠ 0) (model : Img r c ℝ) :
    modelLlike (d.errTimes u) model = .fin (u * u)⁻¹ * modelLlike d model + .fin (errShift u mask e) := by
  have huu := mul_pos hu hu
  have hi : 0 < (u * u)⁻¹ := inv_pos.2 huu
  have hpos : ∀ i j, 0 < 2 * Real.pi * (e i j * e i j) := fun i j =>
    mul_pos (mul_pos two_pos Real.pi_pos) (mul_self_pos.2 (he0 i j))
  rw [← Fl.scale_eq_mul hi]
  unfold modelLlike FitData.errTimes
  simp only [inUnits_eq hu, hm, he, finImg]
  have hpix : ∀ i j, (Fl.fin (mask i j) : Fl ℝ) * (d.weight i j *
        Fl.sq ((d.flux i j - model i j) / Fl.scale u (Fl.fin (e i j))) +
        log10 (.fin (2 * Real.pi) * Fl.sq (Fl.scale u (Fl.fin (e i j))))) =
      Fl.scale (u * u)⁻¹ (Fl.fin (mask i j) * (d.weight i j * Fl.sq ((d.flux i j - model i j) / Fl.fin (e i j)) +
        log10 (.fin (2 * Real.pi) * Fl.sq (Fl.fin (e i j))))) +
      .fin (mask i j * (Real.logb 10 (u * u) + (1 - (u * u)⁻¹) * Real.logb 10 (2 * Real.pi * (e i j * e i j)))) := by
    intro i j
    have hl : log10 (.fin (2 * Real.pi) * Fl.sq (Fl.fin (e i j))) = .fin (Real.logb 10 (2 * Real.pi * (e i j * e i j))) := by
      rw [Fl.sq_fin, Fl.fin_mul, log10, if_pos (hpos i j)]
    rw [Fl.div_units hu, Fl.sq_scale (inv_pos.2 hu), ← mul_inv, Fl.mul_scale hi, Fl.sq_scale hu, Fl.mul_scale huu,
      log10_scale huu, hl, Fl.fin_add, fin_mul_affine _ _ (Real.logb 10 (2 * Real.pi * (e i j * e i j))) _ hi]
    congr 2
    ring
  simp only [hpix, Finset.sum_add_distrib, Fl.fin_sum, Fl.scale_finset_sum, Fl.fin_mul_add_fin, Fl.mul_scale hi]
  rfl

/-- Specification: the same galaxy and instrument, every error `u` times as large. -/
noncomputable def KinInput.errTimes (u : ℝ) (g : KinInput r c) : KinInput r c := { g with data := g.data.errTimes u }

/-- the same call with every error `u` times as large -/
noncomputable def KinCall.errTimes (u : ℝ) : KinCall r c → KinCall r c
  | .make g fit => .make (g.errTimes u) fit
  | .update fit => .update fit

/-- the object with every error `u` times as large -/
noncomputable def KinModelState.errTimes (u : ℝ) (m : KinModelState r c) : KinModelState r c :=
  { m with aper := m.aper.map fun p => (p.1.errTimes u, p.2) }

theorem finish_err {u : ℝ} (hu : 0 < u) (g : KinInput r c) (img : Option Arr2) (m : KinModelState r c) :
    finishModel (m.errTimes u) (g.errTimes u) img = ((finishModel m g img).1.errTimes u, (finishModel m g img).2) := by
  unfold finishModel
  have h1 : (m.errTimes u).noScale = m.noScale := rfl
  have h2 : (g.errTimes u).nosky = g.nosky := rfl
  have h3 : ∀ cols, scaleModel (g.errTimes u).data.flux (g.errTimes u).data.err (toImg r c img) cols =
      scaleModel g.data.flux g.data.err (toImg r c img) cols := fun cols => C232_scale u hu _ _ _ _
  rw [h1, h2]
  cases m.noScale with
  | true => rfl
  | false =>
    simp only [Bool.false_eq_true, if_false]
    cases g.nosky with
    | none => rfl
    | some cols => simp only [h3]; rfl

theorem eval_err {u : ℝ} (hu : 0 < u) (g : KinInput r c) (s : AperState) (m : KinModelState r c) :
    evalExisting (m.errTimes u) (g.errTimes u) s = ((evalExisting m g s).1.errTimes u, (evalExisting m g s).2) := by
  unfold evalExisting
  have hcfg : (g.errTimes u).aperCfg = g.aperCfg := rfl
  have hp : (m.errTimes u).params = m.params := rfl
  rw [hcfg, hp]
  generalize updateModel g.aperCfg s m.params.theta = R
  obtain ⟨s1, r1⟩ := R
  cases r1 with
  | error e => rfl
  | ok img => exact finish_err hu g img { m with kin := s1.kin, aper := some (g, s1) }

theorem step_err {u : ℝ} (hu : 0 < u) (m : KinModelState r c) (call : KinCall r c) :
    (m.errTimes u).step (call.errTimes u) = ((m.step call).1.errTimes u, (m.step call).2) := by
  cases call with
  | make g fit =>
    simp only [KinModelState.step, KinCall.errTimes]
    unfold KinModelState.make
    rw [show (m.errTimes u).params = m.params from rfl]
    generalize m.params.update fit = p
    obtain ⟨p, e⟩ := p
    cases e with
    | some e => rfl
    | none =>
      simp only
      rw [show (m.errTimes u).kin = m.kin from rfl]
      cases m.kin.updateTheta p.theta with
      | error e => rfl
      | ok k =>
        simp only
        rw [show (m.errTimes u).aper = m.aper.map fun p => (p.1.errTimes u, p.2) from rfl]
        cases ha : m.aper with
        | none =>
          simp only [Option.map_none]
          rw [show (g.errTimes u).aperCfg = g.aperCfg from rfl]
          cases buildModel g.aperCfg k p.theta with
          | error e => simp only [KinModelState.errTimes, ha, Option.map_none]
          | ok sr =>
            obtain ⟨s1, r1⟩ := sr
            cases r1 with
            | error e => simp only [KinModelState.errTimes, ha, Option.map_none]
            | ok img => exact finish_err hu g img { m with params := p, kin := s1.kin, aper := some (g, s1) }
        | some q =>
          obtain ⟨g0, s⟩ := q
          simp only [Option.map_some]
          have := eval_err hu g0 { s with kin := k } { m with params := p, kin := k }
          simpa only [KinModelState.errTimes, ha, Option.map_some] using this
  | update fit =>
    simp only [KinModelState.step, KinCall.errTimes]
    unfold KinModelState.update
    rw [show (m.errTimes u).params = m.params from rfl]
    generalize m.params.update fit = p
    obtain ⟨p, e⟩ := p
    cases e with
    | some e => rfl
    | none =>
      simp only
      rw [show (m.errTimes u).aper = m.aper.map fun p => (p.1.errTimes u, p.2) from rfl]
      cases ha : m.aper with
      | none => simp only [KinModelState.errTimes, ha, Option.map_none]
      | some q =>
        obtain ⟨g0, s⟩ := q
        simp only [Option.map_some]
        have := eval_err hu g0 s { m with params := p }
        simpa only [KinModelState.errTimes, ha, Option.map_some] using this

theorem run_err {u : ℝ} (hu : 0 < u) : ∀ (calls : List (KinCall r c)) (m : KinModelState r c),
    (m.errTimes u).run (calls.map (KinCall.errTimes u)) = (m.run calls).errTimes u
  | [], _ => rfl
  | call :: calls, m => by
    have h : (m.errTimes u).run ((call :: calls).map (KinCall.errTimes u)) =
        ((m.errTimes u).step (call.errTimes u)).1.run (calls.map (KinCall.errTimes u)) := rfl
    rw [h, step_err hu]
    exact run_err hu calls _

/-- **C232**: two series of calls of `make_model` and `update_model` that differ only by a positive factor on the errors give, call by
call, the same exceptions, and leave the same parameters and the same image. -/
theorem C232_object (u : ℝ) (hu : 0 < u) (theta : List ℝ) (vary : List Bool) (kin : KinProfile) (ns : Bool)
    (calls : List (KinCall r c)) (m0 : KinModelState r c) (hm0 : m0 = KinModelState.init theta vary kin ns) :
    (m0.run (calls.map (KinCall.errTimes u))).params = (m0.run calls).params ∧
    (m0.run (calls.map (KinCall.errTimes u))).model = (m0.run calls).model ∧
    ∀ call, ((m0.run (calls.map (KinCall.errTimes u))).step (call.errTimes u)).2 = ((m0.run calls).step call).2 := by
  have h0 : m0 = m0.errTimes u := by subst hm0; rfl
  have h := run_err hu calls m0
  rw [← h0] at h
  rw [h]
  exact ⟨rfl, rfl, fun call => by rw [step_err hu]⟩

/-- the galaxy of the aperture model is one that was given to `make_model` -/
theorem step_on {P : KinInput r c → Prop} (m : KinModelState r c) (hm : ∀ g s, m.aper = some (g, s) → P g) (call : KinCall r c)
    (hc : call.On P) : ∀ g s, (m.step call).1.aper = some (g, s) → P g := by
  have hfin : ∀ (m : KinModelState r c) (g : KinInput r c) img, (finishModel m g img).1.aper = m.aper := by
    intro m g img
    unfold finishModel
    split
    · rfl
    · split <;> rfl
  have hev : ∀ (m : KinModelState r c) (g : KinInput r c) s, P g → ∀ g' s', (evalExisting m g s).1.aper = some (g', s') → P g' := by
    intro m g s hg g' s' h
    unfold evalExisting at h
    simp only at h
    split at h
    · simp only [Option.some.injEq, Prod.mk.injEq] at h
      exact h.1 ▸ hg
    · rw [hfin] at h
      simp only [Option.some.injEq, Prod.mk.injEq] at h
      exact h.1 ▸ hg
  intro g' s' h
  cases call with
  | make g fit =>
    simp only [KinModelState.step] at h
    unfold KinModelState.make at h
    generalize m.params.update fit = p at h
    obtain ⟨p, e⟩ := p
    cases e with
    | some e => exact hm _ _ h
    | none =>
      simp only at h
      cases hk : m.kin.updateTheta p.theta with
      | error e => rw [hk] at h; exact hm _ _ h
      | ok k =>
        rw [hk] at h
        simp only at h
        cases ha : m.aper with
        | none =>
          rw [ha] at h
          simp only at h
          cases hb : buildModel g.aperCfg k p.theta with
          | error e => rw [hb] at h; simp only at h; cases h
          | ok sr =>
            rw [hb] at h
            obtain ⟨s1, r1⟩ := sr
            cases r1 with
            | error e => simp only at h; cases h
            | ok img =>
              simp only at h
              rw [hfin] at h
              simp only [Option.some.injEq, Prod.mk.injEq] at h
              exact h.1 ▸ hc
        | some q =>
          obtain ⟨g0, s⟩ := q
          rw [ha] at h
          exact hev _ g0 _ (hm g0 s ha) _ _ h
  | update fit =>
    simp only [KinModelState.step] at h
    unfold KinModelState.update at h
    generalize m.params.update fit = p at h
    obtain ⟨p, e⟩ := p
    cases e with
    | some e => exact hm _ _ h
    | none =>
      simp only at h
      cases ha : m.aper with
      | none => rw [ha] at h; simp only at h; cases h
      | some q =>
        obtain ⟨g0, s⟩ := q
        rw [ha] at h
        exact hev _ g0 _ (hm g0 s ha) _ _ h

theorem run_on {P : KinInput r c → Prop} : ∀ (calls : List (KinCall r c)) (m : KinModelState r c),
    (∀ g s, m.aper = some (g, s) → P g) → (∀ call ∈ calls, call.On P) → ∀ g s, (m.run calls).aper = some (g, s) → P g
  | [], _, hm, _ => hm
  | call :: calls, m, hm, hc =>
    run_on calls (m.step call).1 (step_on m hm call (hc call (by simp))) fun x hx => hc x (by simp [hx])

/-- a posterior that is multiplied and shifted, unless it is `-inf` or an exception -/
noncomputable def affinePost (k t : ℝ) : Except PyErr (Fl ℝ) → Except PyErr (Fl ℝ)
  | .error e => .error e
  | .ok (.fin x) => .ok (.fin (k * x + t))
  | .ok p => .ok p

/-- **C232**: with a flat prior the posterior of a fit, after any series of calls, is divided by the square of the factor and shifted by
a constant that depends on mask, errors and factor only; outside the bounds it stays `-inf`, and exceptions stay the same. -/
theorem C232_posterior (u : ℝ) (hu : 0 < u) (theta : List ℝ) (vary : List Bool) (kin : KinProfile) (ns : Bool)
    (mask e : Fin r → Fin c → ℝ) (he0 : ∀ i j, e i j ≠ 0) (calls : List (KinCall r c))
    (hcalls : ∀ call ∈ calls, call.On fun g => g.data.mask = finImg mask ∧ g.data.err = finImg e)
    (m0 : KinModelState r c) (hm0 : m0 = KinModelState.init theta vary kin ns)
    (bounds : List (Option (Fl ℝ × Fl ℝ))) (fit : List ℝ) :
    ((m0.run (calls.map (KinCall.errTimes u))).lnprob bounds fit).2 =
      affinePost (u * u)⁻¹ (errShift u mask e) ((m0.run calls).lnprob bounds fit).2 := by
  have h0 : m0 = m0.errTimes u := by subst hm0; rfl
  have h := run_err hu calls m0
  rw [← h0] at h
  rw [h]
  have hon := run_on calls m0 (by subst hm0; intro g s h; cases h) hcalls
  generalize m0.run calls = m at hon
  have hi : 0 < (u * u)⁻¹ := inv_pos.2 (mul_pos hu hu)
  have hlike : ∀ f, ((m.errTimes u).lnlike f).2 = match (m.lnlike f).2 with
      | .error e => .error e
      | .ok l => .ok (Fl.scale (u * u)⁻¹ l + .fin (errShift u mask e)) := by
    intro f
    have hs := step_err hu m (.update f)
    have hm := step_on m hon (.update f) trivial
    simp only [KinModelState.step, KinCall.errTimes] at hs hm
    unfold KinModelState.lnlike
    rw [hs]
    generalize m.update f = R at hm ⊢
    obtain ⟨n, r1⟩ := R
    cases r1 with
    | error e => rfl
    | ok _ =>
      simp only at hm ⊢
      unfold KinModelState.llike
      rw [show (n.errTimes u).aper = n.aper.map fun p => (p.1.errTimes u, p.2) from rfl, show (n.errTimes u).model = n.model from rfl]
      cases ha : n.aper with
      | none => rfl
      | some q =>
        obtain ⟨g, s⟩ := q
        cases hmod : n.model with
        | none => rfl
        | some im =>
          simp only [Option.map_some]
          have := C232_llike u hu g.data mask e (hm g s ha).1 (hm g s ha).2 he0 im
          rw [← Fl.scale_eq_mul hi] at this
          exact congrArg Except.ok this
  unfold KinModelState.lnprob Misfit.lnprob
  rw [show (m.errTimes u).params = m.params from rfl]
  cases hpr : logPrior (m.params.theta.map Fl.fin) m.params.vary bounds (fit.map Fl.fin) with
  | error e => rfl
  | ok pr =>
    have hpr' : pr = 0 ∨ pr = .ninf := by
      unfold logPrior at hpr
      split at hpr
      · cases hpr
      · injection hpr with hpr
        rw [← hpr]
        split
        · exact Or.inl rfl
        · exact Or.inr rfl
    rcases hpr' with rfl | rfl
    · have hl := hlike ((fit.map Fl.fin).map Fl.finVal)
      have hz : Fl.isFinite (0 : Fl ℝ) = true := rfl
      simp only [hz, if_true]
      generalize (m.errTimes u).lnlike ((fit.map Fl.fin).map Fl.finVal) = R' at hl
      generalize m.lnlike ((fit.map Fl.fin).map Fl.finVal) = R at hl
      obtain ⟨n', r'⟩ := R'
      obtain ⟨n, r1⟩ := R
      simp only at hl
      subst hl
      cases r1 with
      | error e => rfl
      | ok l =>
        simp only [zero_add]
        cases l with
        | fin y => rfl
        | nan => rfl
        | pinf => rfl
        | ninf => rfl
    · rfl

/-- **C232**: of two posteriors the same one is the larger, so the best point stays the best. -/
theorem C232_order (k t : ℝ) (hk : 0 < k) (p q p' q' : Fl ℝ) (hp : affinePost k t (.ok p) = .ok p')
    (hq : affinePost k t (.ok q) = .ok q') : Fl.leB p' q' = Fl.leB p q := by
  cases p <;> cases q <;> simp only [affinePost, Except.ok.injEq] at hp hq <;> subst hp <;> subst hq <;> try rfl
  rename_i x y
  show decide (k * x + t ≤ k * y + t) = decide (x ≤ y)
  simp only [add_le_add_iff_right, mul_le_mul_iff_right₀ hk]

/-- the hypotheses of C232 are met by calls that succeed; errors twice as large give a quarter of chi-square -/
example : (∀ call ∈ [KinCall.make oneInput [100, 1, 50], .update [120, 1, 60]],
      call.On fun g => g.data.mask = finImg (fun _ _ => 1) ∧ g.data.err = finImg fun _ _ => 1) ∧
    ((oneObj [0, 1, 1, 0, 0] [true, true, true, false, false] false).step (.make oneInput [100, 1, 50])).2 = .ok () ∧
    modelChisq (finData (fun _ _ => (3 : ℚ)) (fun _ _ => 1) (fun _ _ => 1) (fun _ _ => 1) : FitData 1 1 ℚ) (fun _ _ => .fin 1) =
      .fin 4 ∧
    modelChisq ((finData (fun _ _ => (3 : ℚ)) (fun _ _ => 1) (fun _ _ => 1) (fun _ _ => 1) : FitData 1 1 ℚ).errTimes 2)
      (fun _ _ => .fin 1) = .fin 1 := by
  refine ⟨fun call hc => ?_, ?_, by decide +kernel, by decide +kernel⟩
  · simp only [List.mem_cons, List.not_mem_nil, or_false] at hc
    rcases hc with rfl | rfl
    · exact ⟨rfl, rfl⟩
    · trivial
  · simp only [KinModelState.step]
    rw [one_make_three 0 1 1 0 false 100 1 50 (by norm_num) (by norm_num) (by norm_num)]
    exact finish_one_ok _ _

end

end Misfit
