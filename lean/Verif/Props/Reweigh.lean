import Verif.Props.ErrScale

/-!
# C239: errors and weights act through the weights over the squared errors
-/

namespace Misfit

section
variable {K : Type*} [Field K] [LinearOrder K] [IsStrictOrderedRing K] {r c : Nat}

/-- Specification: the same observation with every error `u` times and every weight `k` times as large. -/
def FitData.reweigh (u k : K) (d : FitData r c K) : FitData r c K := { d with err := d.err.inUnits u, weight := d.weight.inUnits k }

/-- **C239**: chi-square and reduced chi-square are multiplied by `k / u ^ 2`, the values without weights are divided by `u ^ 2`. -/
theorem C239_chisq (u k : K) (hu : 0 < u) (hk : 0 < k) (d : FitData r c K) (nFree : Nat) (model : Img r c K) :
    modelChisq (d.reweigh u k) model = .fin (k * (u * u)⁻¹) * modelChisq d model ∧
    modelChisqNoWeight (d.reweigh u k) model = .fin (u * u)⁻¹ * modelChisqNoWeight d model ∧
    modelRedchisq (d.reweigh u k) nFree model = .fin (k * (u * u)⁻¹) * modelRedchisq d nFree model ∧
    modelRedchisqNoWeight (d.reweigh u k) nFree model = .fin (u * u)⁻¹ * modelRedchisqNoWeight d nFree model := by
  obtain ⟨-, h2, -, h4⟩ := C232_chisq u hu d nFree model
  have hi : 0 < (u * u)⁻¹ := inv_pos.2 (mul_pos hu hu)
  have hki : 0 < k * (u * u)⁻¹ := mul_pos hk hi
  have hss : ∀ a : Fl K, Fl.scale k (Fl.scale (u * u)⁻¹ a) = Fl.scale (k * (u * u)⁻¹) a := by
    intro a
    cases a <;> simp [Fl.scale, mul_assoc]
  have e1 : modelChisq (d.reweigh u k) model = Fl.scale (k * (u * u)⁻¹) (modelChisq d model) := by
    have h1 : modelChisq (d.reweigh u k) model = Fl.scale k (modelChisq (d.errTimes u) model) := by
      unfold modelChisq chisqPixel FitData.errTimes FitData.reweigh
      simp only [inUnits_eq hk, Fl.scale_mul hk, Fl.mul_scale hk, Fl.scale_finset_sum]
    rw [h1, (C232_chisq u hu d nFree model).1, ← Fl.scale_eq_mul hi, hss]
  refine ⟨?_, h2, ?_, h4⟩
  · rw [e1, Fl.scale_eq_mul hki]
  · unfold modelRedchisq
    rw [e1, Fl.scale_div hki, Fl.scale_eq_mul hki]
    rfl

end

section
variable {r c : Nat}

/-- the constant by which the log-likelihood changes -/
noncomputable def weighShift (u k : ℝ) (mask e : Fin r → Fin c → ℝ) : ℝ :=
  -(1 / 2) * ∑ i, ∑ j, mask i j * (Real.logb 10 (u * u) + (1 - k * (u * u)⁻¹) * Real.logb 10 (2 * Real.pi * (e i j * e i j)))

/-- **C239**: the log-likelihood, for a finite mask and finite errors that are not zero, is multiplied by `k / u ^ 2` and shifted by a constant
that does not depend on flux, weights and model. -/
theorem C239_llike (u k : ℝ) (hu : 0 < u) (hk : 0 < k) (d : FitData r c ℝ) (mask e : Fin r → Fin c → ℝ) (hm : d.mask = finImg mask)
    (he : d.err = finImg e) (he0 : ∀ i j, e i j ≠ 0) (model : Img r c ℝ) :
    modelLlike (d.reweigh u k) model = .fin (k * (u * u)⁻¹) * modelLlike d model + .fin (weighShift u k mask e) := by
  have huu := mul_pos hu hu
  have hi : 0 < (u * u)⁻¹ := inv_pos.2 huu
  have hki : 0 < k * (u * u)⁻¹ := mul_pos hk hi
  have hpos : ∀ i j, 0 < 2 * Real.pi * (e i j * e i j) := fun i j =>
    mul_pos (mul_pos two_pos Real.pi_pos) (mul_self_pos.2 (he0 i j))
  rw [← Fl.scale_eq_mul hki]
  unfold modelLlike FitData.reweigh
  simp only [inUnits_eq hu, inUnits_eq hk, hm, he, finImg]
  have hpix : ∀ i j, (Fl.fin (mask i j) : Fl ℝ) * (Fl.scale k (d.weight i j) *
        Fl.sq ((d.flux i j - model i j) / Fl.scale u (Fl.fin (e i j))) +
        log10 (.fin (2 * Real.pi) * Fl.sq (Fl.scale u (Fl.fin (e i j))))) =
      Fl.scale (k * (u * u)⁻¹) (Fl.fin (mask i j) * (d.weight i j * Fl.sq ((d.flux i j - model i j) / Fl.fin (e i j)) +
        log10 (.fin (2 * Real.pi) * Fl.sq (Fl.fin (e i j))))) +
      .fin (mask i j * (Real.logb 10 (u * u) + (1 - k * (u * u)⁻¹) * Real.logb 10 (2 * Real.pi * (e i j * e i j)))) := by
    intro i j
    have hl : log10 (.fin (2 * Real.pi) * Fl.sq (Fl.fin (e i j))) = .fin (Real.logb 10 (2 * Real.pi * (e i j * e i j))) := by
      rw [Fl.sq_fin, Fl.fin_mul, log10, if_pos (hpos i j)]
    rw [Fl.div_units hu, Fl.sq_scale (inv_pos.2 hu), ← mul_inv, Fl.mul_scale hi, Fl.scale_mul hk, Fl.sq_scale hu, Fl.mul_scale huu,
      log10_scale huu, hl, Fl.fin_add]
    have hsw : Fl.scale (u * u)⁻¹ (Fl.scale k (d.weight i j * Fl.sq ((d.flux i j - model i j) / Fl.fin (e i j)))) =
        Fl.scale (k * (u * u)⁻¹) (d.weight i j * Fl.sq ((d.flux i j - model i j) / Fl.fin (e i j))) := by
      generalize d.weight i j * Fl.sq ((d.flux i j - model i j) / Fl.fin (e i j)) = a
      cases a <;> simp [Fl.scale] <;> ring
    rw [hsw, fin_mul_affine _ _ (Real.logb 10 (2 * Real.pi * (e i j * e i j))) _ hki]
    congr 2
    ring
  simp only [hpix, Finset.sum_add_distrib, Fl.fin_sum, Fl.scale_finset_sum, Fl.fin_mul_add_fin, Fl.mul_scale hki]
  rfl

/-- Specification: the same galaxy and instrument, every error `u` times and every weight `k` times as large. -/
noncomputable def KinInput.reweigh (u k : ℝ) (g : KinInput r c) : KinInput r c := { g with data := g.data.reweigh u k }

/-- the same call with every error `u` times and every weight `k` times as large -/
noncomputable def KinCall.reweigh (u k : ℝ) : KinCall r c → KinCall r c
  | .make g fit => .make (g.reweigh u k) fit
  | .update fit => .update fit

/-- the object with every error `u` times and every weight `k` times as large -/
noncomputable def KinModelState.reweigh (u k : ℝ) (m : KinModelState r c) : KinModelState r c :=
  { m with aper := m.aper.map fun p => (p.1.reweigh u k, p.2) }

theorem finish_weigh {u k : ℝ} (hu : 0 < u) (g : KinInput r c) (img : Option Arr2) (m : KinModelState r c) :
    finishModel (m.reweigh u k) (g.reweigh u k) img = ((finishModel m g img).1.reweigh u k, (finishModel m g img).2) := by
  unfold finishModel
  have h1 : (m.reweigh u k).noScale = m.noScale := rfl
  have h2 : (g.reweigh u k).nosky = g.nosky := rfl
  have h3 : ∀ cols, scaleModel (g.reweigh u k).data.flux (g.reweigh u k).data.err (toImg r c img) cols =
      scaleModel g.data.flux g.data.err (toImg r c img) cols := fun cols => C232_scale u hu _ _ _ _
  rw [h1, h2]
  cases m.noScale with
  | true => rfl
  | false =>
    simp only [Bool.false_eq_true, if_false]
    cases g.nosky with
    | none => rfl
    | some cols => simp only [h3]; rfl

theorem eval_weigh {u k : ℝ} (hu : 0 < u) (g : KinInput r c) (s : AperState) (m : KinModelState r c) :
    evalExisting (m.reweigh u k) (g.reweigh u k) s = ((evalExisting m g s).1.reweigh u k, (evalExisting m g s).2) := by
  unfold evalExisting
  have hcfg : (g.reweigh u k).aperCfg = g.aperCfg := rfl
  have hp : (m.reweigh u k).params = m.params := rfl
  rw [hcfg, hp]
  generalize updateModel g.aperCfg s m.params.theta = R
  obtain ⟨s1, r1⟩ := R
  cases r1 with
  | error e => rfl
  | ok img => exact finish_weigh hu g img { m with kin := s1.kin, aper := some (g, s1) }

theorem step_weigh {u k : ℝ} (hu : 0 < u) (m : KinModelState r c) (call : KinCall r c) :
    (m.reweigh u k).step (call.reweigh u k) = ((m.step call).1.reweigh u k, (m.step call).2) := by
  cases call with
  | make g fit =>
    simp only [KinModelState.step, KinCall.reweigh]
    unfold KinModelState.make
    rw [show (m.reweigh u k).params = m.params from rfl]
    generalize m.params.update fit = p
    obtain ⟨p, e⟩ := p
    cases e with
    | some e => rfl
    | none =>
      simp only
      rw [show (m.reweigh u k).kin = m.kin from rfl]
      cases m.kin.updateTheta p.theta with
      | error e => rfl
      | ok kn =>
        simp only
        rw [show (m.reweigh u k).aper = m.aper.map fun p => (p.1.reweigh u k, p.2) from rfl]
        cases ha : m.aper with
        | none =>
          simp only [Option.map_none]
          rw [show (g.reweigh u k).aperCfg = g.aperCfg from rfl]
          cases buildModel g.aperCfg kn p.theta with
          | error e => simp only [KinModelState.reweigh, ha, Option.map_none]
          | ok sr =>
            obtain ⟨s1, r1⟩ := sr
            cases r1 with
            | error e => simp only [KinModelState.reweigh, ha, Option.map_none]
            | ok img => exact finish_weigh hu g img { m with params := p, kin := s1.kin, aper := some (g, s1) }
        | some q =>
          obtain ⟨g0, s⟩ := q
          simp only [Option.map_some]
          have := eval_weigh (k := k) hu g0 { s with kin := kn } { m with params := p, kin := kn }
          simpa only [KinModelState.reweigh, ha, Option.map_some] using this
  | update fit =>
    simp only [KinModelState.step, KinCall.reweigh]
    unfold KinModelState.update
    rw [show (m.reweigh u k).params = m.params from rfl]
    generalize m.params.update fit = p
    obtain ⟨p, e⟩ := p
    cases e with
    | some e => rfl
    | none =>
      simp only
      rw [show (m.reweigh u k).aper = m.aper.map fun p => (p.1.reweigh u k, p.2) from rfl]
      cases ha : m.aper with
      | none => simp only [KinModelState.reweigh, ha, Option.map_none]
      | some q =>
        obtain ⟨g0, s⟩ := q
        simp only [Option.map_some]
        have := eval_weigh (k := k) hu g0 s { m with params := p }
        simpa only [KinModelState.reweigh, ha, Option.map_some] using this

theorem run_weigh {u k : ℝ} (hu : 0 < u) : ∀ (calls : List (KinCall r c)) (m : KinModelState r c),
    (m.reweigh u k).run (calls.map (KinCall.reweigh u k)) = (m.run calls).reweigh u k
  | [], _ => rfl
  | call :: calls, m => by
    have h : (m.reweigh u k).run ((call :: calls).map (KinCall.reweigh u k)) =
        ((m.reweigh u k).step (call.reweigh u k)).1.run (calls.map (KinCall.reweigh u k)) := rfl
    rw [h, step_weigh hu]
    exact run_weigh hu calls _

/-- **C239**: two series of calls of `make_model` and `update_model` that differ only by a positive factor on the errors and a factor on the weights give, call by
call, the same exceptions, and leave the same parameters and the same image. -/
theorem C239_object (u k : ℝ) (hu : 0 < u) (theta : List ℝ) (vary : List Bool) (kin : KinProfile) (ns : Bool)
    (calls : List (KinCall r c)) (m0 : KinModelState r c) (hm0 : m0 = KinModelState.init theta vary kin ns) :
    (m0.run (calls.map (KinCall.reweigh u k))).params = (m0.run calls).params ∧
    (m0.run (calls.map (KinCall.reweigh u k))).model = (m0.run calls).model ∧
    ∀ call, ((m0.run (calls.map (KinCall.reweigh u k))).step (call.reweigh u k)).2 = ((m0.run calls).step call).2 := by
  have h0 : m0 = m0.reweigh u k := by subst hm0; rfl
  have h := run_weigh (k := k) hu calls m0
  rw [← h0] at h
  rw [h]
  exact ⟨rfl, rfl, fun call => by rw [step_weigh hu]⟩

/-- **C239**: with a flat prior the posterior of a fit, after any series of calls, is multiplied by `k / u ^ 2` and shifted by a constant that
depends on mask, errors and the factors only; outside the bounds it stays `-inf`, and exceptions stay the same. -/
theorem C239_posterior (u k : ℝ) (hu : 0 < u) (hk : 0 < k) (theta : List ℝ) (vary : List Bool) (kin : KinProfile) (ns : Bool)
    (mask e : Fin r → Fin c → ℝ) (he0 : ∀ i j, e i j ≠ 0) (calls : List (KinCall r c))
    (hcalls : ∀ call ∈ calls, call.On fun g => g.data.mask = finImg mask ∧ g.data.err = finImg e)
    (m0 : KinModelState r c) (hm0 : m0 = KinModelState.init theta vary kin ns)
    (bounds : List (Option (Fl ℝ × Fl ℝ))) (fit : List ℝ) :
    ((m0.run (calls.map (KinCall.reweigh u k))).lnprob bounds fit).2 =
      affinePost (k * (u * u)⁻¹) (weighShift u k mask e) ((m0.run calls).lnprob bounds fit).2 := by
  have h0 : m0 = m0.reweigh u k := by subst hm0; rfl
  have h := run_weigh (k := k) hu calls m0
  rw [← h0] at h
  rw [h]
  have hon := run_on calls m0 (by subst hm0; intro g s h; cases h) hcalls
  generalize m0.run calls = m at hon
  have hi : 0 < k * (u * u)⁻¹ := mul_pos hk (inv_pos.2 (mul_pos hu hu))
  have hlike : ∀ f, ((m.reweigh u k).lnlike f).2 = match (m.lnlike f).2 with
      | .error e => .error e
      | .ok l => .ok (Fl.scale (k * (u * u)⁻¹) l + .fin (weighShift u k mask e)) := by
    intro f
    have hs := step_weigh (k := k) hu m (.update f)
    have hm := step_on m hon (.update f) trivial
    simp only [KinModelState.step, KinCall.reweigh] at hs hm
    unfold KinModelState.lnlike
    rw [hs]
    generalize m.update f = R at hm ⊢
    obtain ⟨n, r1⟩ := R
    cases r1 with
    | error e => rfl
    | ok _ =>
      simp only at hm ⊢
      unfold KinModelState.llike
      rw [show (n.reweigh u k).aper = n.aper.map fun p => (p.1.reweigh u k, p.2) from rfl, show (n.reweigh u k).model = n.model from rfl]
      cases ha : n.aper with
      | none => rfl
      | some q =>
        obtain ⟨g, s⟩ := q
        cases hmod : n.model with
        | none => rfl
        | some im =>
          simp only [Option.map_some]
          have := C239_llike u k hu hk g.data mask e (hm g s ha).1 (hm g s ha).2 he0 im
          rw [← Fl.scale_eq_mul hi] at this
          exact congrArg Except.ok this
  unfold KinModelState.lnprob Misfit.lnprob
  rw [show (m.reweigh u k).params = m.params from rfl]
  cases hpr : logPrior (m.params.theta.map Fl.fin) m.params.vary bounds (fit.map Fl.fin) with
  | error e => rfl
  | ok pr =>
    have hpr' : pr = 0 ∨ pr = .ninf := by
      unfold logPrior at hpr
      split at hpr
      · cases hpr
      · injection hpr with hpr
        rw [← hpr]
        split
        · exact Or.inl rfl
        · exact Or.inr rfl
    rcases hpr' with rfl | rfl
    · have hl := hlike ((fit.map Fl.fin).map Fl.finVal)
      have hz : Fl.isFinite (0 : Fl ℝ) = true := rfl
      simp only [hz, if_true]
      generalize (m.reweigh u k).lnlike ((fit.map Fl.fin).map Fl.finVal) = R' at hl
      generalize m.lnlike ((fit.map Fl.fin).map Fl.finVal) = R at hl
      obtain ⟨n', r'⟩ := R'
      obtain ⟨n, r1⟩ := R
      simp only at hl
      subst hl
      cases r1 with
      | error e => rfl
      | ok l =>
        simp only [zero_add]
        cases l with
        | fin y => rfl
        | nan => rfl
        | pinf => rfl
        | ninf => rfl
    · rfl

/-- **C239**: errors `u` times and weights `u ^ 2` times as large: chi-square stays the same and the posterior is only shifted, by a constant that
depends on the mask and on `u` only. -/
theorem C239_ratio (u : ℝ) (hu : 0 < u) (theta : List ℝ) (vary : List Bool) (kin : KinProfile) (ns : Bool)
    (mask e : Fin r → Fin c → ℝ) (he0 : ∀ i j, e i j ≠ 0) (calls : List (KinCall r c))
    (hcalls : ∀ call ∈ calls, call.On fun g => g.data.mask = finImg mask ∧ g.data.err = finImg e)
    (m0 : KinModelState r c) (hm0 : m0 = KinModelState.init theta vary kin ns)
    (bounds : List (Option (Fl ℝ × Fl ℝ))) (fit : List ℝ) :
    (∀ (d : FitData r c ℝ) model, modelChisq (d.reweigh u (u * u)) model = modelChisq d model) ∧
    ((m0.run (calls.map (KinCall.reweigh u (u * u)))).lnprob bounds fit).2 =
      affinePost 1 (-(Real.logb 10 u * ∑ i, ∑ j, mask i j)) ((m0.run calls).lnprob bounds fit).2 := by
  have huu := mul_pos hu hu
  have h1 : u * u * (u * u)⁻¹ = 1 := mul_inv_cancel₀ huu.ne'
  constructor
  · intro d model
    rw [(C239_chisq u (u * u) hu huu d 0 model).1, h1, ← Fl.scale_eq_mul one_pos]
    generalize modelChisq d model = a
    cases a <;> simp [Fl.scale]
  · have h := C239_posterior u (u * u) hu huu theta vary kin ns mask e he0 calls hcalls m0 hm0 bounds fit
    rw [h1] at h
    rw [h]
    congr 1
    unfold weighShift
    rw [h1]
    simp only [sub_self, zero_mul, add_zero, ← Finset.sum_mul, Real.logb_mul hu.ne' hu.ne']
    ring

/-- **C239**: a sampling run with errors `u` times and weights `u ^ 2` times as large ends, with the same random numbers, in the same exception
or returns the same samples, all log-probabilities changed by one constant. -/
theorem C239_run (u : ℝ) (hu : 0 < u) (theta : List ℝ) (vary : List Bool) (kin : KinProfile) (ns : Bool)
    (mask e : Fin r → Fin c → ℝ) (he0 : ∀ i j, e i j ≠ 0) (calls : List (KinCall r c))
    (hcalls : ∀ call ∈ calls, call.On fun g => g.data.mask = finImg mask ∧ g.data.err = finImg e)
    (m0 : KinModelState r c) (hm0 : m0 = KinModelState.init theta vary kin ns)
    (bounds : List (Option (Fl ℝ × Fl ℝ))) (v : EmceeVersion) (o : RunOpts ℝ) (cpuCount : Nat)
    (initial : List (List (Fl ℝ))) (burnMoves moves : Nat → List (Move ℝ))
    (hb : ∀ n, ∀ mv ∈ burnMoves n, mv.ByPosition) (hm : ∀ n, ∀ mv ∈ moves n, mv.ByPosition)
    (diag : List (List (Walker ℝ)) → StepDiag ℝ) (hd : DiagByPosition diag) (file : List (List (Walker ℝ)))
    (hfresh : v = .v2 ∨ o.overwrite = true) :
    SameChain (-(Real.logb 10 u * ∑ i, ∑ j, mask i j))
      (runMcmc v o cpuCount (fun x => ((m0.run calls).lnprob bounds (x.map Fl.finVal)).2) initial burnMoves moves diag file)
      (runMcmc v o cpuCount (fun x => ((m0.run (calls.map (KinCall.reweigh u (u * u)))).lnprob bounds (x.map Fl.finVal)).2) initial
        burnMoves moves diag file) := by
  refine runMcmc_shift _ _ _ (fun x => ?_) v o cpuCount initial burnMoves moves hb hm diag hd file hfresh
  rw [(C239_ratio u hu theta vary kin ns mask e he0 calls hcalls m0 hm0 bounds (x.map Fl.finVal)).2]
  generalize ((m0.run calls).lnprob bounds (x.map Fl.finVal)).2 = a
  rcases a with e | (y | _ | _ | _)
  · rfl
  · simp only [affinePost, shiftPost, one_mul]
  · rfl
  · rfl
  · rfl

/-- the hypotheses of C239 are met by calls that succeed; weights three times as large give three times the chi-square, and with errors twice as
large and weights four times as large it stays the same -/
example : (∀ call ∈ [KinCall.make oneInput [100, 1, 50], .update [120, 1, 60]],
      call.On fun g => g.data.mask = finImg (fun _ _ => 1) ∧ g.data.err = finImg fun _ _ => 1) ∧
    modelChisq (finData (fun _ _ => (3 : ℚ)) (fun _ _ => 1) (fun _ _ => 1) (fun _ _ => 1) : FitData 1 1 ℚ) (fun _ _ => .fin 1) =
      .fin 4 ∧
    modelChisq ((finData (fun _ _ => (3 : ℚ)) (fun _ _ => 1) (fun _ _ => 1) (fun _ _ => 1) : FitData 1 1 ℚ).reweigh 1 3)
      (fun _ _ => .fin 1) = .fin 12 ∧
    modelChisq ((finData (fun _ _ => (3 : ℚ)) (fun _ _ => 1) (fun _ _ => 1) (fun _ _ => 1) : FitData 1 1 ℚ).reweigh 2 4)
      (fun _ _ => .fin 1) = .fin 4 := by
  refine ⟨fun call hc => ?_, by decide +kernel, by decide +kernel, by decide +kernel⟩
  simp only [List.mem_cons, List.not_mem_nil, or_false] at hc
  rcases hc with rfl | rfl
  · exact ⟨rfl, rfl⟩
  · trivial

end

end Misfit
