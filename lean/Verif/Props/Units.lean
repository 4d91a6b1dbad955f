import Verif.Lemmas.Units
import Verif.Props.KinModel
import Verif.Props.Sampler

/-!
# C114–C116: the unit of the flux has no effect on a fit
-/

namespace Misfit

/-! ## C114 -/
section
variable {K : Type*} [Field K] [LinearOrder K] [IsStrictOrderedRing K] {r c : Nat}

/-- Specification: an image in a unit in which every number is `u` times as large (IEEE multiplication). -/
def Img.inUnits (u : K) (x : Img r c K) : Img r c K := fun i j => .fin u * x i j

/-- Specification: the same observation in another flux unit; mask and weights have no unit. -/
def FitData.inUnits (u : K) (d : FitData r c K) : FitData r c K :=
  { d with flux := d.flux.inUnits u, err := d.err.inUnits u }

theorem inUnits_eq {u : K} (hu : 0 < u) (x : Img r c K) :
    x.inUnits u = fun i j => Fl.scale u (x i j) := by
  funext i j
  exact (Fl.scale_eq_mul hu _).symm

theorem scaleRatio_units {u : K} (hu : 0 < u) (num den : Fl K) :
    scaleRatio (Fl.scale u⁻¹ num) (Fl.scale (u * u)⁻¹ den) = Fl.scale u (scaleRatio num den) := by
  have hi : 0 < (u * u)⁻¹ := inv_pos.2 (mul_pos hu hu)
  unfold scaleRatio
  simp only [Fl.isFinite_scale, Fl.abs_zero_scale hi]
  by_cases h0 : Fl.eqB (Fl.abs den) 0 = true
  · simp only [h0, if_true]
    show (if (-99 : K) = 0 then Fl.infTimes 0 else Fl.fin (0 / -99)) =
      Fl.scale u (if (-99 : K) = 0 then Fl.infTimes 0 else Fl.fin (0 / -99))
    split
    · rw [Fl.scale_infTimes]
    · rw [zero_div]; exact congrArg Fl.fin (mul_zero u).symm
  · simp only [h0, Bool.false_eq_true, if_false]
    by_cases hn : num.isFinite = true
    · simp only [hn, if_true]
      rw [Fl.scale_div (inv_pos.2 hu), Fl.div_units hi, Fl.scale_scale, inv_inv]
      congr 1
      field_simp
    · simp only [hn, Bool.false_eq_true, if_false]
      have hz : (0 : Fl K) = Fl.scale u⁻¹ 0 := congrArg Fl.fin (mul_zero u⁻¹).symm
      rw [Fl.div_units hi, inv_inv]
      have hz' : (0 : Fl K) / den = Fl.scale u⁻¹ (0 / den) := by
        rw [← Fl.scale_div (inv_pos.2 hu), ← hz]
      conv_lhs => rw [hz', Fl.scale_scale]
      congr 1
      field_simp

/-- **C114**: changing the flux unit of the data by any positive factor changes the unit of the scaled model by the same
factor: for every flux, error and model image, with NaN, infinities and zero errors included. -/
theorem C114_scale (u : K) (hu : 0 < u) (flux err model : Img r c K) (nosky : List (Fin c)) :
    scaleModel (flux.inUnits u) (err.inUnits u) model nosky = (scaleModel flux err model nosky).inUnits u := by
  have hn : ∀ i, scaleNum (fun j => Fl.scale u (flux i j)) (fun j => Fl.scale u (err i j)) (model i) nosky =
      Fl.scale u⁻¹ (scaleNum (flux i) (err i) (model i) nosky) := by
    intro i
    unfold scaleNum
    rw [← Fl.scale_list_sum]
    congr 1
    refine List.map_congr_left (fun j _ => ?_)
    rw [Fl.scale_mul hu, Fl.sq_scale hu, Fl.div_units (mul_pos hu hu), Fl.scale_div hu, Fl.scale_scale]
    congr 1
    field_simp
  have hd : ∀ i, scaleDen (fun j => Fl.scale u (err i j)) (model i) nosky =
      Fl.scale (u * u)⁻¹ (scaleDen (err i) (model i) nosky) := by
    intro i
    unfold scaleDen
    rw [← Fl.scale_list_sum]
    congr 1
    refine List.map_congr_left (fun j _ => ?_)
    rw [Fl.sq_scale hu, Fl.div_units (mul_pos hu hu)]
  rw [inUnits_eq hu, inUnits_eq hu, inUnits_eq hu]
  funext i j
  show model i j * scaleRatio _ _ = Fl.scale u (model i j * scaleRatio _ _)
  rw [hn, hd, scaleRatio_units hu, Fl.mul_scale hu]

/-- a row with a zero error and a NaN flux outside the sky-free columns, in a unit 10 times as large -/
example : (0 : ℚ) < 10 ∧
    (List.ofFn fun j : Fin 3 => scaleModel (r := 1) (K := ℚ) (fun _ j => [.fin 4, .fin 6, .nan].get j)
      (fun _ j => [.fin 1, .fin 2, .fin 0].get j) (fun _ _ => .fin 2) [0, 1] 0 j) =
      [.fin (22 / 5), .fin (22 / 5), .fin (22 / 5)] ∧
    (List.ofFn fun j : Fin 3 => scaleModel (r := 1) (K := ℚ) (fun _ j => [.fin 40, .fin 60, .nan].get j)
      (fun _ j => [.fin 10, .fin 20, .fin 0].get j) (fun _ _ => .fin 2) [0, 1] 0 j) =
      [.fin 44, .fin 44, .fin 44] := by decide +kernel

/-- **C114**: chi-square, with and without weights, and the reduced chi-square of data and model do not depend on the
flux unit. -/
theorem C114_chisq (u : K) (hu : 0 < u) (d : FitData r c K) (nFree : Nat) (model : Img r c K) :
    modelChisq (d.inUnits u) (model.inUnits u) = modelChisq d model ∧
    modelChisqNoWeight (d.inUnits u) (model.inUnits u) = modelChisqNoWeight d model ∧
    modelRedchisq (d.inUnits u) nFree (model.inUnits u) = modelRedchisq d nFree model ∧
    modelRedchisqNoWeight (d.inUnits u) nFree (model.inUnits u) = modelRedchisqNoWeight d nFree model := by
  have hp : ∀ f e m x : Fl K, ((Fl.scale u f - Fl.scale u x) * m) / Fl.scale u e = ((f - x) * m) / e := by
    intro f e m x
    rw [← Fl.scale_sub, Fl.scale_mul hu, Fl.scale_div_scale hu]
  have e1 : modelChisq (d.inUnits u) (model.inUnits u) = modelChisq d model := by
    unfold modelChisq chisqPixel FitData.inUnits
    simp only [inUnits_eq hu, hp]
  have e2 : modelChisqNoWeight (d.inUnits u) (model.inUnits u) = modelChisqNoWeight d model := by
    unfold modelChisqNoWeight FitData.inUnits
    simp only [inUnits_eq hu, hp]
  refine ⟨e1, e2, ?_, ?_⟩
  · unfold modelRedchisq; rw [e1]; rfl
  · unfold modelRedchisqNoWeight; rw [e2]; rfl

end

section
variable {r c : Nat}

/-- the change of the log-likelihood -/
noncomputable def llikeShift (u : ℝ) (mask : Fin r → Fin c → ℝ) : ℝ :=
  -(Real.logb 10 u * ∑ i, ∑ j, mask i j)

/-- **C114**: with a finite mask the log-likelihood changes by a constant, which does not depend on the model: ranking
and differences of log-likelihoods stay the same. -/
theorem C114_llike (u : ℝ) (hu : 0 < u) (d : FitData r c ℝ) (mask : Fin r → Fin c → ℝ)
    (hm : d.mask = finImg mask) (model : Img r c ℝ) :
    modelLlike (d.inUnits u) (model.inUnits u) = modelLlike d model + .fin (llikeShift u mask) := by
  unfold modelLlike FitData.inUnits
  simp only [inUnits_eq hu, hm, finImg]
  have hpix : ∀ i j, (Fl.fin (mask i j) : Fl ℝ) * (d.weight i j *
        Fl.sq ((Fl.scale u (d.flux i j) - Fl.scale u (model i j)) / Fl.scale u (d.err i j)) +
        log10 (.fin (2 * Real.pi) * Fl.sq (Fl.scale u (d.err i j)))) =
      Fl.fin (mask i j) * (d.weight i j * Fl.sq ((d.flux i j - model i j) / d.err i j) +
        log10 (.fin (2 * Real.pi) * Fl.sq (d.err i j))) + .fin (mask i j * Real.logb 10 (u * u)) := by
    intro i j
    rw [← Fl.scale_sub, Fl.scale_div_scale hu, Fl.sq_scale hu, Fl.mul_scale (mul_pos hu hu),
      log10_scale (mul_pos hu hu), ← add_assoc, Fl.fin_mul_add_fin]
  simp only [hpix, Finset.sum_add_distrib, Fl.fin_sum, Fl.fin_mul_add_fin]
  congr 2
  rw [llikeShift, Real.logb_mul hu.ne' hu.ne', Finset.mul_sum, Finset.mul_sum, ← Finset.sum_neg_distrib]
  refine Finset.sum_congr rfl (fun i _ => ?_)
  rw [Finset.mul_sum, Finset.mul_sum, ← Finset.sum_neg_distrib]
  refine Finset.sum_congr rfl (fun j _ => ?_)
  ring

/-! ## C115 -/

/-- Specification: the same galaxy and instrument with the data in another flux unit. -/
noncomputable def KinInput.inUnits (u : ℝ) (g : KinInput r c) : KinInput r c := { g with data := g.data.inUnits u }

/-- the same call with the data in another flux unit -/
noncomputable def KinCall.inUnits (u : ℝ) : KinCall r c → KinCall r c
  | .make g fit => .make (g.inUnits u) fit
  | .update fit => .update fit

/-- the galaxy of a call satisfies `P` -/
def KinCall.On (P : KinInput r c → Prop) : KinCall r c → Prop
  | .make g _ => P g
  | .update _ => True

/-- galaxies with a list of sky-free columns (without it scaling the model raises) -/
def KinInput.HasCols (g : KinInput r c) : Prop := g.nosky ≠ none

/-- two objects that differ only in the flux unit -/
structure SameUpToUnits (u : ℝ) (P : KinInput r c → Prop) (m m' : KinModelState r c) : Prop where
  params : m'.params = m.params
  kin : m'.kin = m.kin
  ns : m.noScale = false
  ns' : m'.noScale = false
  model : m'.model = m.model.map (Img.inUnits u)
  aper : m'.aper = m.aper.map fun p => (p.1.inUnits u, p.2)
  on : ∀ g s, m.aper = some (g, s) → P g

theorem finish_units {u : ℝ} (hu : 0 < u) {P : KinInput r c → Prop} (g : KinInput r c) (hg : g.HasCols) (img : Option Arr2)
    {m m' : KinModelState r c} (h : SameUpToUnits u P m m') :
    (finishModel m' (g.inUnits u) img).2 = (finishModel m g img).2 ∧
    SameUpToUnits u P (finishModel m g img).1 (finishModel m' (g.inUnits u) img).1 := by
  unfold finishModel
  rw [if_neg (by rw [h.ns']; exact Bool.false_ne_true), if_neg (by rw [h.ns]; exact Bool.false_ne_true)]
  have hn : (g.inUnits u).nosky = g.nosky := rfl
  rw [hn]
  cases hc : g.nosky with
  | none => exact absurd hc hg
  | some cols =>
    refine ⟨rfl, h.params, h.kin, h.ns, h.ns', ?_, h.aper, h.on⟩
    exact congrArg some (C114_scale u hu g.data.flux g.data.err (toImg r c img) cols)

theorem eval_units {u : ℝ} (hu : 0 < u) {P : KinInput r c → Prop} (hP : ∀ g, P g → g.HasCols)
    (g : KinInput r c) (hg : P g) (s : AperState)
    {m m' : KinModelState r c} (h : SameUpToUnits u P m m') :
    (evalExisting m' (g.inUnits u) s).2 = (evalExisting m g s).2 ∧
    SameUpToUnits u P (evalExisting m g s).1 (evalExisting m' (g.inUnits u) s).1 := by
  unfold evalExisting
  have hcfg : (g.inUnits u).aperCfg = g.aperCfg := rfl
  rw [hcfg, h.params]
  generalize updateModel g.aperCfg s m.params.theta = R
  obtain ⟨s1, r1⟩ := R
  have hrel : SameUpToUnits u P { m with kin := s1.kin, aper := some (g, s1) }
      { m' with params := m.params, kin := s1.kin, aper := some (g.inUnits u, s1) } :=
    ⟨rfl, rfl, h.ns, h.ns', h.model, rfl, fun g' s' he => by cases he; exact hg⟩
  simp only
  cases r1 with
  | error e => exact ⟨rfl, hrel⟩
  | ok img => exact finish_units hu g (hP g hg) img hrel

theorem step_units {u : ℝ} (hu : 0 < u) {P : KinInput r c → Prop} (hP : ∀ g, P g → g.HasCols)
    {m m' : KinModelState r c} (h : SameUpToUnits u P m m')
    (call : KinCall r c) (hc : call.On P) :
    (m'.step (call.inUnits u)).2 = (m.step call).2 ∧
    SameUpToUnits u P (m.step call).1 (m'.step (call.inUnits u)).1 := by
  cases call with
  | make g fit =>
    simp only [KinModelState.step, KinCall.inUnits]
    unfold KinModelState.make
    rw [h.params]
    generalize m.params.update fit = p
    obtain ⟨p, e⟩ := p
    cases e with
    | some e => exact ⟨rfl, rfl, h.kin, h.ns, h.ns', h.model, h.aper, h.on⟩
    | none =>
      simp only
      rw [h.kin]
      cases hk : m.kin.updateTheta p.theta with
      | error e => exact ⟨rfl, rfl, rfl, h.ns, h.ns', h.model, h.aper, h.on⟩
      | ok k =>
        simp only
        rw [h.aper]
        cases ha : m.aper with
        | none =>
          simp only [Option.map_none]
          have hcfg : (g.inUnits u).aperCfg = g.aperCfg := rfl
          rw [hcfg]
          cases buildModel g.aperCfg k p.theta with
          | error e => exact ⟨rfl, rfl, rfl, h.ns, h.ns', h.model, rfl, fun _ _ he => by cases he⟩
          | ok sr =>
            obtain ⟨s1, r1⟩ := sr
            cases r1 with
            | error e => exact ⟨rfl, rfl, rfl, h.ns, h.ns', h.model, rfl, fun _ _ he => by cases he⟩
            | ok img =>
              exact finish_units hu g (hP g hc) img ⟨rfl, rfl, h.ns, h.ns', h.model, rfl,
                fun _ _ he => by cases he; exact hc⟩
        | some q =>
          obtain ⟨g0, s⟩ := q
          exact eval_units hu hP g0 (h.on g0 s ha) { s with kin := k }
            ⟨rfl, rfl, h.ns, h.ns', h.model, rfl, fun _ _ he => by cases he; exact h.on g0 s ha⟩
  | update fit =>
    simp only [KinModelState.step, KinCall.inUnits]
    unfold KinModelState.update
    rw [h.params]
    generalize m.params.update fit = p
    obtain ⟨p, e⟩ := p
    cases e with
    | some e => exact ⟨rfl, rfl, h.kin, h.ns, h.ns', h.model, h.aper, h.on⟩
    | none =>
      simp only
      rw [h.aper]
      cases ha : m.aper with
      | none => exact ⟨rfl, rfl, h.kin, h.ns, h.ns', h.model, rfl, fun _ _ he => by cases he⟩
      | some q =>
        obtain ⟨g0, s⟩ := q
        exact eval_units hu hP g0 (h.on g0 s ha) s
          ⟨rfl, h.kin, h.ns, h.ns', h.model, rfl, fun _ _ he => by cases he; exact h.on g0 s ha⟩

theorem run_units {u : ℝ} (hu : 0 < u) {P : KinInput r c → Prop} (hP : ∀ g, P g → g.HasCols) :
    ∀ (calls : List (KinCall r c)) {m m' : KinModelState r c},
    SameUpToUnits u P m m' → (∀ call ∈ calls, call.On P) →
    SameUpToUnits u P (m.run calls) (m'.run (calls.map (KinCall.inUnits u)))
  | [], _, _, h, _ => h
  | call :: calls, _, _, h, hc =>
      run_units hu hP calls (step_units hu hP h call (hc call (by simp))).2 (fun x hx => hc x (by simp [hx]))

/-- **C115**: the flux unit of the data has no effect on a fit.  Two series of calls of `make_model` and `update_model`
that differ only by a positive factor on flux and error give, call by call, the same exceptions, and leave
the same parameters and the same image in the two units. -/
theorem C115_object (u : ℝ) (hu : 0 < u) (theta : List ℝ) (vary : List Bool) (kin : KinProfile)
    (calls : List (KinCall r c)) (hcols : ∀ call ∈ calls, call.On KinInput.HasCols) (m0 : KinModelState r c)
    (hm0 : m0 = KinModelState.init theta vary kin false) :
    (m0.run (calls.map (KinCall.inUnits u))).params = (m0.run calls).params ∧
    (m0.run (calls.map (KinCall.inUnits u))).model = (m0.run calls).model.map (Img.inUnits u) ∧
    ∀ call, call.On KinInput.HasCols → ((m0.run (calls.map (KinCall.inUnits u))).step (call.inUnits u)).2 =
      ((m0.run calls).step call).2 := by
  have h := run_units hu (fun _ h => h) calls (m := m0) (m' := m0)
    (by subst hm0; exact ⟨rfl, rfl, rfl, rfl, rfl, rfl, fun _ _ he => by cases he⟩) hcols
  exact ⟨h.params, h.model, fun call hc => (step_units hu (fun _ h => h) h call hc).1⟩

/-- the value of a posterior in another unit: shifted, unless it is `-inf` or an exception -/
noncomputable def shiftPost (k : ℝ) : Except PyErr (Fl ℝ) → Except PyErr (Fl ℝ)
  | .error e => .error e
  | .ok (.fin x) => .ok (.fin (x + k))
  | .ok p => .ok p

/-- **C115**: the posterior of a fit, after any series of calls, changes by a constant when the flux unit is changed; the
constant depends on the mask and the unit only. -/
theorem C115_posterior (u : ℝ) (hu : 0 < u) (theta : List ℝ) (vary : List Bool) (kin : KinProfile)
    (mask : Fin r → Fin c → ℝ) (calls : List (KinCall r c))
    (hcols : ∀ call ∈ calls, call.On fun g => g.HasCols ∧ g.data.mask = finImg mask)
    (m0 : KinModelState r c) (hm0 : m0 = KinModelState.init theta vary kin false)
    (bounds : List (Option (Fl ℝ × Fl ℝ))) (fit : List ℝ) :
    ((m0.run (calls.map (KinCall.inUnits u))).lnprob bounds fit).2 =
      shiftPost (llikeShift u mask) ((m0.run calls).lnprob bounds fit).2 := by
  have hP : ∀ g : KinInput r c, g.HasCols ∧ g.data.mask = finImg mask → g.HasCols := fun g h => h.1
  have h := run_units hu hP calls (m := m0) (m' := m0)
    (by subst hm0; exact ⟨rfl, rfl, rfl, rfl, rfl, rfl, fun _ _ he => by cases he⟩) hcols
  generalize m0.run (calls.map (KinCall.inUnits u)) = m' at h
  generalize m0.run calls = m at h
  have hlike : (m'.lnlike ((fit.map Fl.fin).map Fl.finVal)).2 = match (m.lnlike ((fit.map Fl.fin).map Fl.finVal)).2 with
      | .error e => .error e
      | .ok l => .ok (l + .fin (llikeShift u mask)) := by
    generalize (fit.map Fl.fin).map Fl.finVal = f
    have hs := step_units hu hP h (.update f) trivial
    simp only [KinModelState.step, KinCall.inUnits] at hs
    unfold KinModelState.lnlike
    generalize m'.update f = R' at hs
    generalize m.update f = R at hs
    obtain ⟨n', r'⟩ := R'
    obtain ⟨n, r1⟩ := R
    obtain ⟨hr, hn⟩ := hs
    simp only at hr hn
    subst hr
    cases r' with
    | error e => rfl
    | ok _ =>
      simp only
      unfold KinModelState.llike
      rw [hn.aper, hn.model]
      cases ha : n.aper with
      | none => rfl
      | some q =>
        obtain ⟨g, s⟩ := q
        cases hmod : n.model with
        | none => rfl
        | some im =>
          simp only [Option.map_some]
          exact congrArg Except.ok (C114_llike u hu g.data mask (hn.on g s ha).2 im)
  unfold KinModelState.lnprob Misfit.lnprob
  rw [h.params]
  cases logPrior (m.params.theta.map Fl.fin) m.params.vary bounds (fit.map Fl.fin) with
  | error e => rfl
  | ok pr =>
    simp only
    split
    · rename_i hfin
      obtain ⟨x, rfl⟩ := Fl.exists_of_isFinite hfin
      generalize m'.lnlike ((fit.map Fl.fin).map Fl.finVal) = R' at hlike
      generalize m.lnlike ((fit.map Fl.fin).map Fl.finVal) = R at hlike
      obtain ⟨n', r'⟩ := R'
      obtain ⟨n, r1⟩ := R
      simp only at hlike
      subst hlike
      cases r1 with
      | error e => rfl
      | ok l =>
        cases l with
        | fin y =>
          simp only [Fl.fin_add, Fl.isFinite_fin, if_true, shiftPost]
          rw [add_assoc]
        | nan => rfl
        | pinf => rfl
        | ninf => rfl
    · rfl

/-- the hypotheses of C115 are met by calls that succeed -/
example : (∀ call ∈ [KinCall.make oneInput [100, 1, 50], .update [120, 1, 60]],
      call.On fun g => g.HasCols ∧ g.data.mask = finImg fun _ _ => 1) ∧
    ((oneObj [0, 1, 1, 0, 0] [true, true, true, false, false] false).step (.make oneInput [100, 1, 50])).2 =
      .ok () := by
  refine ⟨fun call hc => ?_, ?_⟩
  · simp only [List.mem_cons, List.not_mem_nil, or_false] at hc
    rcases hc with rfl | rfl
    · exact ⟨by simp [KinInput.HasCols, oneInput], rfl⟩
    · trivial
  · simp only [KinModelState.step]
    rw [one_make_three 0 1 1 0 false 100 1 50 (by norm_num) (by norm_num) (by norm_num)]
    exact finish_one_ok _ _

/-! ## C116 -/

/-- a log-probability in another unit -/
noncomputable def shiftProb (k : ℝ) : Fl ℝ → Fl ℝ
  | .fin x => .fin (x + k)
  | p => p

/-- a walker with its log-probability in another unit -/
noncomputable def Walker.shift (k : ℝ) (w : Walker ℝ) : Walker ℝ := ⟨w.pos, shiftProb k w.prob⟩

/-- a proposal that looks at the positions of the walkers only -/
def Move.ByPosition (mv : Move ℝ) : Prop :=
  ∀ e e' : List (Walker ℝ), e.map Walker.pos = e'.map Walker.pos → mv.proposal e = mv.proposal e'

/-- diagnostics of the positions of the walkers only -/
def DiagByPosition (diag : List (List (Walker ℝ)) → StepDiag ℝ) : Prop :=
  ∀ h h' : List (List (Walker ℝ)), h.map (List.map Walker.pos) = h'.map (List.map Walker.pos) → diag h = diag h'

theorem map_shift_pos (k : ℝ) (e : List (Walker ℝ)) : (e.map (Walker.shift k)).map Walker.pos = e.map Walker.pos := by
  rw [List.map_map]
  rfl

theorem shiftPost_ok (k : ℝ) (p : Fl ℝ) : shiftPost k (.ok p) = .ok (shiftProb k p) := by cases p <;> rfl

theorem shiftProb_sub (k : ℝ) (p q : Fl ℝ) (hp : p ≠ .nan) : shiftProb k p - shiftProb k q = p - q := by
  cases p <;> cases q <;> first | rfl | exact absurd rfl hp | skip
  rename_i x y
  show Fl.fin (x + k + -(y + k)) = Fl.fin (x + -y)
  congr 1
  ring

theorem evalPost_shift {post post' : List (Fl ℝ) → Except PyErr (Fl ℝ)} {k : ℝ}
    (hs : ∀ x, post' x = shiftPost k (post x)) (x : List (Fl ℝ)) :
    evalPost post' x = (evalPost post x).map (Walker.shift k) := by
  unfold evalPost
  rw [hs]
  cases post x with
  | error e => rfl
  | ok p => cases p <;> simp [shiftPost, Except.map, Walker.shift, shiftProb]

theorem moveOne_shift {post post' : List (Fl ℝ) → Except PyErr (Fl ℝ)} {k : ℝ}
    (hs : ∀ x, post' x = shiftPost k (post x)) (ens : List (Walker ℝ)) (mv : Move ℝ) (hm : mv.ByPosition) :
    moveOne post' (ens.map (Walker.shift k)) mv = (moveOne post ens mv).map (List.map (Walker.shift k)) := by
  unfold moveOne
  rw [List.getElem?_map, hm _ ens (map_shift_pos k ens), evalPost_shift hs]
  cases ens[mv.walker]? with
  | none => rfl
  | some w =>
    cases he : evalPost post (mv.proposal ens) with
    | error e => rfl
    | ok w' =>
      simp only [Option.map_some, Except.map]
      have hn := (evalPost_ok he).2.2
      have : (Walker.shift k w').prob - (Walker.shift k w).prob = w'.prob - w.prob := shiftProb_sub k _ _ hn
      rw [this]
      split
      · simp only [List.map_set]
      · rfl

theorem stepEnsemble_shift {post post' : List (Fl ℝ) → Except PyErr (Fl ℝ)} {k : ℝ}
    (hs : ∀ x, post' x = shiftPost k (post x)) : ∀ (ms : List (Move ℝ)) (ens : List (Walker ℝ)),
    (∀ mv ∈ ms, mv.ByPosition) →
    stepEnsemble post' (ens.map (Walker.shift k)) ms = (stepEnsemble post ens ms).map (List.map (Walker.shift k))
  | [], _, _ => rfl
  | mv :: rest, ens, hm => by
      unfold stepEnsemble
      rw [moveOne_shift hs ens mv (hm mv (by simp))]
      cases moveOne post ens mv with
      | error e => rfl
      | ok e1 =>
        simp only [Except.map]
        exact stepEnsemble_shift hs rest e1 (fun x hx => hm x (by simp [hx]))

theorem startEnsemble_shift {post post' : List (Fl ℝ) → Except PyErr (Fl ℝ)} {k : ℝ}
    (hs : ∀ x, post' x = shiftPost k (post x)) : ∀ (xs : List (List (Fl ℝ))),
    startEnsemble post' xs = (startEnsemble post xs).map (List.map (Walker.shift k))
  | [] => rfl
  | x :: xs => by
      unfold startEnsemble
      rw [evalPost_shift hs, startEnsemble_shift hs xs]
      cases evalPost post x with
      | error e => rfl
      | ok w =>
        cases startEnsemble post xs with
        | error e => rfl
        | ok ws => rfl

theorem burnIn_shift {post post' : List (Fl ℝ) → Except PyErr (Fl ℝ)} {k : ℝ}
    (hs : ∀ x, post' x = shiftPost k (post x)) {moves : Nat → List (Move ℝ)}
    (hm : ∀ n, ∀ mv ∈ moves n, mv.ByPosition) : ∀ (rem n : Nat) (ens : List (Walker ℝ)),
    burnIn post' moves n rem (ens.map (Walker.shift k)) =
      (burnIn post moves n rem ens).map (List.map (Walker.shift k))
  | 0, _, _ => rfl
  | rem + 1, n, ens => by
      unfold burnIn
      rw [stepEnsemble_shift hs _ _ (hm n)]
      cases stepEnsemble post ens (moves n) with
      | error e => rfl
      | ok e1 => exact burnIn_shift hs hm rem (n + 1) e1

theorem produce_shift {post post' : List (Fl ℝ) → Except PyErr (Fl ℝ)} {k : ℝ}
    (hs : ∀ x, post' x = shiftPost k (post x)) {moves : Nat → List (Move ℝ)}
    (hm : ∀ n, ∀ mv ∈ moves n, mv.ByPosition) {diag : List (List (Walker ℝ)) → StepDiag ℝ}
    (hd : DiagByPosition diag) (o : StopOpts ℝ) : ∀ (rem ii : Nat) (ens : List (Walker ℝ))
    (hist : List (List (Walker ℝ))),
    produce o post' moves diag ii rem (ens.map (Walker.shift k)) (hist.map (List.map (Walker.shift k))) =
      (produce o post moves diag ii rem ens hist).map (List.map (List.map (Walker.shift k)))
  | 0, _, _, _ => rfl
  | rem + 1, ii, ens, hist => by
      unfold produce
      rw [stepEnsemble_shift hs _ _ (hm ii)]
      cases stepEnsemble post ens (moves ii) with
      | error e => rfl
      | ok e1 =>
        simp only [Except.map]
        have e2 : hist.map (List.map (Walker.shift k)) ++ [e1.map (Walker.shift k)] =
            (hist ++ [e1]).map (List.map (Walker.shift k)) := by simp
        have e3 : diag ((hist ++ [e1]).map (List.map (Walker.shift k))) = diag (hist ++ [e1]) := by
          refine hd _ _ ?_
          rw [List.map_map]
          exact List.map_congr_left (fun e _ => map_shift_pos k e)
        rw [e2, e3]
        split
        · rfl
        · exact produce_shift hs hm hd o rem (ii + 1) e1 (hist ++ [e1])

theorem chainOf_shift (k : ℝ) (nW : Nat) (hist : List (List (Walker ℝ))) :
    chainOf nW (hist.map (List.map (Walker.shift k))) = (chainOf nW hist).map (List.map (Walker.shift k)) := by
  unfold chainOf
  rw [List.map_map]
  refine List.map_congr_left (fun w _ => ?_)
  simp only [Function.comp_apply, List.filterMap_map, List.map_filterMap]
  congr 1
  funext e
  simp

theorem dictOf_shift (k : ℝ) (nW : Nat) (hist : List (List (Walker ℝ))) :
    (dictOf nW (hist.map (List.map (Walker.shift k)))).chain = (dictOf nW hist).chain ∧
    (dictOf nW (hist.map (List.map (Walker.shift k)))).flatchain = (dictOf nW hist).flatchain ∧
    (dictOf nW (hist.map (List.map (Walker.shift k)))).flatlnprobability =
      (dictOf nW hist).flatlnprobability.map (shiftProb k) := by
  have hc : ∀ h : List (List (Walker ℝ)), (dictOf nW h).chain = (chainOf nW h).map (List.map Walker.pos) := by
    intro h
    simp only [dictOf, makeSamplerDict, List.map_map]
    rfl
  refine ⟨?_, ?_, ?_⟩
  · rw [hc, hc, chainOf_shift, List.map_map]
    exact List.map_congr_left (fun e _ => map_shift_pos k e)
  · rw [(dictOf_flat _ _).1, (dictOf_flat _ _).1, chainOf_shift, ← List.map_flatten, map_shift_pos]
  · rw [(dictOf_flat _ _).2, (dictOf_flat _ _).2, chainOf_shift, ← List.map_flatten, List.map_map, List.map_map]
    rfl

/-- the outcomes of two runs that differ only in the unit of the log-probability -/
def SameChain (k : ℝ) : Except PyErr (SamplerDict (List (Fl ℝ)) (Fl ℝ)) →
    Except PyErr (SamplerDict (List (Fl ℝ)) (Fl ℝ)) → Prop
  | .error e, .error e' => e = e'
  | .ok d, .ok d' => d'.chain = d.chain ∧ d'.flatchain = d.flatchain ∧
      d'.flatlnprobability = d.flatlnprobability.map (shiftProb k)
  | _, _ => False

/-- A constant added to the log-posterior does not change the chain. -/
theorem runMcmc_shift (k : ℝ) (post post' : List (Fl ℝ) → Except PyErr (Fl ℝ))
    (hs : ∀ x, post' x = shiftPost k (post x)) (v : EmceeVersion) (o : RunOpts ℝ) (cpuCount : Nat)
    (initial : List (List (Fl ℝ))) (burnMoves moves : Nat → List (Move ℝ))
    (hb : ∀ n, ∀ mv ∈ burnMoves n, mv.ByPosition) (hm : ∀ n, ∀ mv ∈ moves n, mv.ByPosition)
    (diag : List (List (Walker ℝ)) → StepDiag ℝ) (hd : DiagByPosition diag) (file : List (List (Walker ℝ)))
    (hfresh : v = .v2 ∨ o.overwrite = true) :
    SameChain k (runMcmc v o cpuCount post initial burnMoves moves diag file)
      (runMcmc v o cpuCount post' initial burnMoves moves diag file) := by
  unfold runMcmc
  rw [startEnsemble_shift hs]
  cases startEnsemble post initial with
  | error e => exact rfl
  | ok e0 =>
    simp only [Except.map]
    rw [burnIn_shift hs hb]
    cases burnIn post burnMoves 0 o.nBurn e0 with
    | error e => exact rfl
    | ok e1 =>
      have hst : storedBefore v o.overwrite initial.length file = .ok [] := by rw [storedBefore, if_pos hfresh]
      simp only [Except.map, hst]
      have hp := produce_shift hs hm hd o.stop o.stop.nSteps 0 e1 []
      rw [List.map_nil] at hp
      rw [hp]
      cases produce o.stop post moves diag 0 o.stop.nSteps e1 [] with
      | error e => exact rfl
      | ok hist =>
        simp only [Except.map]
        split
        · exact rfl
        · split
          · exact rfl
          · exact dictOf_shift k _ hist

/-- **C116**: a whole sampling run does not depend on the flux unit of the data: with the same random numbers (starting
positions, proposals and thresholds) it ends in the same exception, or returns the same samples with all
log-probabilities changed by one constant. -/
theorem C116_run (u : ℝ) (hu : 0 < u) (theta : List ℝ) (vary : List Bool) (kin : KinProfile)
    (mask : Fin r → Fin c → ℝ) (calls : List (KinCall r c))
    (hcols : ∀ call ∈ calls, call.On fun g => g.HasCols ∧ g.data.mask = finImg mask)
    (m0 : KinModelState r c) (hm0 : m0 = KinModelState.init theta vary kin false)
    (bounds : List (Option (Fl ℝ × Fl ℝ)))
    (v : EmceeVersion) (o : RunOpts ℝ) (cpuCount : Nat)
    (initial : List (List (Fl ℝ))) (burnMoves moves : Nat → List (Move ℝ))
    (hb : ∀ n, ∀ mv ∈ burnMoves n, mv.ByPosition) (hm : ∀ n, ∀ mv ∈ moves n, mv.ByPosition)
    (diag : List (List (Walker ℝ)) → StepDiag ℝ) (hd : DiagByPosition diag) (file : List (List (Walker ℝ)))
    (hfresh : v = .v2 ∨ o.overwrite = true) :
    SameChain (llikeShift u mask)
      (runMcmc v o cpuCount (fun x => ((m0.run calls).lnprob bounds (x.map Fl.finVal)).2) initial burnMoves moves
        diag file)
      (runMcmc v o cpuCount
        (fun x => ((m0.run (calls.map (KinCall.inUnits u))).lnprob bounds (x.map Fl.finVal)).2) initial burnMoves
        moves diag file) :=
  runMcmc_shift _ _ _
    (fun x => C115_posterior u hu theta vary kin mask calls hcols m0 hm0 bounds (x.map Fl.finVal))
    v o cpuCount initial burnMoves moves hb hm diag hd file hfresh

/-- the stretch move of emcee proposes by position: the walker is moved on the line through another walker -/
example (k j : Nat) (z t : ℝ) : (⟨k, fun e => match e[k]?, e[j]? with
    | some w, some w' => List.zipWith (fun a b => b - .fin z * (b - a)) w.pos w'.pos
    | _, _ => [], .fin t⟩ : Move ℝ).ByPosition := by
  intro e e' h
  have hk : (e[k]?).map Walker.pos = (e'[k]?).map Walker.pos := by
    rw [← List.getElem?_map, ← List.getElem?_map, h]
  have hj : (e[j]?).map Walker.pos = (e'[j]?).map Walker.pos := by
    rw [← List.getElem?_map, ← List.getElem?_map, h]
  simp only
  cases h1 : e[k]? <;> cases h2 : e'[k]? <;> cases h3 : e[j]? <;> cases h4 : e'[j]? <;>
    simp_all

end
end Misfit
