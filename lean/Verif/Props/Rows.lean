import Verif.Props.Light
import Verif.Props.ErrScale

/-!
# C236: a spectrum is fitted row by row
-/

namespace Misfit

section
variable {K : Type*} [Field K] [LinearOrder K] [IsStrictOrderedRing K] {r c : Nat}

/-- Specification: the image that consists of row `i` alone. -/
def Img.row (im : Img r c K) (i : Fin r) : Img 1 c K := fun _ j => im i j

/-- Specification: the spectrum that consists of row `i` alone. -/
def FitData.row (d : FitData r c K) (i : Fin r) : FitData 1 c K :=
  ⟨Img.row d.flux i, Img.row d.err i, Img.row d.mask i, Img.row d.weight i⟩

/-- **C236**: each row of a model is scaled to the data as if the spectrum consisted of this row alone (all data). -/
theorem C236_scale (flux err model : Img r c K) (nosky : List (Fin c)) (i : Fin r) :
    Img.row (scaleModel flux err model nosky) i = scaleModel (Img.row flux i) (Img.row err i) (Img.row model i) nosky := rfl

/-- **C236**: chi-square, with and without weights, is the sum of the chi-squares of the rows (all data). -/
theorem C236_chisq (d : FitData r c K) (model : Img r c K) :
    modelChisq d model = ∑ i, modelChisq (d.row i) (Img.row model i) ∧
    modelChisqNoWeight d model = ∑ i, modelChisqNoWeight (d.row i) (Img.row model i) := by
  constructor
  · unfold modelChisq
    refine Finset.sum_congr rfl fun i _ => ?_
    rw [Fin.sum_univ_one]
    rfl
  · unfold modelChisqNoWeight
    refine Finset.sum_congr rfl fun i _ => ?_
    rw [Fin.sum_univ_one]
    rfl

end

variable {r c : Nat}

theorem neg_half_add (a b : Fl ℝ) : .fin (-(1/2)) * (a + b) = .fin (-(1/2)) * a + .fin (-(1/2)) * b := by
  have h1 : Fl.infTimes (-(1/2) : ℝ) = .ninf := by norm_num [Fl.infTimes]
  have h2 : Fl.infTimes (-(-(1/2)) : ℝ) = .pinf := by norm_num [Fl.infTimes]
  cases a <;> cases b <;> simp only [HAdd.hAdd, Add.add, HMul.hMul, Mul.mul, Fl.add, Fl.mul, h1, h2]
  rename_i x y
  exact congrArg Fl.fin (mul_add (-(1/2) : ℝ) x y)

theorem neg_half_sum {ι : Type*} (f : ι → Fl ℝ) (s : Finset ι) :
    .fin (-(1/2)) * ∑ i ∈ s, f i = ∑ i ∈ s, .fin (-(1/2)) * f i := by
  classical
  induction s using Finset.induction_on with
  | empty => exact congrArg Fl.fin (mul_zero _)
  | insert a s ha ih => rw [Finset.sum_insert ha, Finset.sum_insert ha, neg_half_add, ih]

/-- **C236**: the log-likelihood is the sum of the log-likelihoods of the rows (all data). -/
theorem C236_llike (d : FitData r c ℝ) (model : Img r c ℝ) :
    modelLlike d model = ∑ i, modelLlike (d.row i) (Img.row model i) := by
  unfold modelLlike
  rw [neg_half_sum]
  refine Finset.sum_congr rfl fun i _ => ?_
  rw [Fin.sum_univ_one]
  rfl

/-- Specification: two observations with the same set-up and the same sky-free columns whose flux and errors agree in row `i`. -/
def KinInput.SameIn (i : Fin r) (g g' : KinInput r c) : Prop :=
  g'.cfg = g.cfg ∧ g'.nosky = g.nosky ∧ g'.data.flux i = g.data.flux i ∧ g'.data.err i = g.data.err i

/-- Specification: the same call, on observations that agree in row `i`. -/
def KinCall.SameIn (i : Fin r) : KinCall r c → KinCall r c → Prop
  | .make g fit, .make g' fit' => g.SameIn i g' ∧ fit' = fit
  | .update fit, .update fit' => fit' = fit
  | _, _ => False

structure SameRowState (i : Fin r) (m m' : KinModelState r c) : Prop where
  params : m'.params = m.params
  kin : m'.kin = m.kin
  ns : m'.noScale = m.noScale
  model : m'.model.map (fun im => Img.row im i) = m.model.map (fun im => Img.row im i)
  aper : (m.aper = none ∧ m'.aper = none) ∨
    ∃ g g' s, m.aper = some (g, s) ∧ m'.aper = some (g', s) ∧ g.SameIn i g'

theorem SameIn.aperCfg {i : Fin r} {g g' : KinInput r c} (h : g.SameIn i g') : g'.aperCfg = g.aperCfg := by
  unfold KinInput.aperCfg
  rw [h.1]

theorem finish_row (i : Fin r) (g g' : KinInput r c) (hg : g.SameIn i g') (img : Option Arr2)
    (m m' : KinModelState r c) (h : SameRowState i m m') :
    (finishModel m' g' img).2 = (finishModel m g img).2 ∧ SameRowState i (finishModel m g img).1 (finishModel m' g' img).1 := by
  unfold finishModel
  rw [h.ns, hg.2.1]
  cases hb : m.noScale with
  | true => exact ⟨rfl, h.params, h.kin, by simp [h.ns], rfl, h.aper⟩
  | false =>
    cases g.nosky with
    | none => exact ⟨rfl, h.params, h.kin, by simp [h.ns], rfl, h.aper⟩
    | some cols =>
      refine ⟨rfl, h.params, h.kin, by simp [h.ns], ?_, h.aper⟩
      simp only [Bool.false_eq_true, if_false, Option.map_some, C236_scale]
      unfold Img.row
      rw [hg.2.2.1, hg.2.2.2]

theorem eval_row (i : Fin r) (g g' : KinInput r c) (hg : g.SameIn i g') (s : AperState)
    (m m' : KinModelState r c) (h : SameRowState i m m') :
    (evalExisting m' g' s).2 = (evalExisting m g s).2 ∧ SameRowState i (evalExisting m g s).1 (evalExisting m' g' s).1 := by
  unfold evalExisting
  rw [SameIn.aperCfg hg, h.params]
  generalize updateModel g.aperCfg s m.params.theta = R
  obtain ⟨s1, r1⟩ := R
  simp only
  have hrel : SameRowState i { m with kin := s1.kin, aper := some (g, s1) } { m' with params := m.params, kin := s1.kin, aper := some (g', s1) } :=
    ⟨rfl, rfl, h.ns, h.model, Or.inr ⟨g, g', s1, rfl, rfl, hg⟩⟩
  cases r1 with
  | error e => exact ⟨rfl, hrel⟩
  | ok img => exact finish_row i g g' hg img _ _ hrel

theorem step_row (i : Fin r) (m m' : KinModelState r c) (h : SameRowState i m m') (call call' : KinCall r c)
    (hc : call.SameIn i call') :
    (m'.step call').2 = (m.step call).2 ∧ SameRowState i (m.step call).1 (m'.step call').1 := by
  cases call with
  | make g fit =>
    cases call' with
    | update _ => exact hc.elim
    | make g' fit' =>
      obtain ⟨hg, rfl⟩ := hc
      simp only [KinModelState.step]
      unfold KinModelState.make
      rw [h.params]
      generalize m.params.update fit' = u
      obtain ⟨p, e⟩ := u
      cases e with
      | some e => exact ⟨rfl, rfl, h.kin, h.ns, h.model, h.aper⟩
      | none =>
        simp only
        rw [h.kin]
        cases hu : m.kin.updateTheta p.theta with
        | error e => exact ⟨rfl, rfl, rfl, h.ns, h.model, h.aper⟩
        | ok kk =>
          simp only
          rcases h.aper with ⟨ha, ha'⟩ | ⟨g0, g0', s, ha, ha', hg0⟩
          · rw [ha, ha']
            simp only
            rw [SameIn.aperCfg hg]
            cases buildModel g.aperCfg kk p.theta with
            | error e => exact ⟨rfl, rfl, rfl, h.ns, h.model, Or.inl ⟨rfl, rfl⟩⟩
            | ok R =>
              obtain ⟨s1, r1⟩ := R
              cases r1 with
              | error e => exact ⟨rfl, rfl, rfl, h.ns, h.model, Or.inl ⟨rfl, rfl⟩⟩
              | ok img =>
                exact finish_row i g g' hg img _ _ ⟨rfl, rfl, h.ns, h.model, Or.inr ⟨g, g', s1, rfl, rfl, hg⟩⟩
          · rw [ha, ha']
            simp only
            exact eval_row i g0 g0' hg0 { s with kin := kk } _ _
              ⟨rfl, rfl, h.ns, h.model, Or.inr ⟨g0, g0', s, rfl, rfl, hg0⟩⟩
  | update fit =>
    cases call' with
    | make _ _ => exact hc.elim
    | update fit' =>
      cases hc
      simp only [KinModelState.step]
      unfold KinModelState.update
      rw [h.params]
      generalize m.params.update fit = u
      obtain ⟨p, e⟩ := u
      cases e with
      | some e => exact ⟨rfl, rfl, h.kin, h.ns, h.model, h.aper⟩
      | none =>
        simp only
        rcases h.aper with ⟨ha, ha'⟩ | ⟨g0, g0', s, ha, ha', hg0⟩
        · rw [ha, ha']
          exact ⟨rfl, rfl, h.kin, h.ns, h.model, Or.inl ⟨rfl, rfl⟩⟩
        · rw [ha, ha']
          simp only
          exact eval_row i g0 g0' hg0 s _ _ ⟨rfl, h.kin, h.ns, h.model, Or.inr ⟨g0, g0', s, rfl, rfl, hg0⟩⟩

theorem run_row (i : Fin r) (calls calls' : List (KinCall r c)) (hc : List.Forall₂ (KinCall.SameIn i) calls calls') :
    ∀ m m' : KinModelState r c, SameRowState i m m' → SameRowState i (m.run calls) (m'.run calls') := by
  induction hc with
  | nil => exact fun _ _ h => h
  | cons h _ ih => exact fun m m' hm => ih _ _ (step_row i m m' hm _ _ h).2

/-- **C236**: two series of calls on observations that agree in row `i` raise the same exceptions and leave the same parameters and the
same row `i` of the image, whatever the other rows of the data hold, scaled or not. -/
theorem C236_object (i : Fin r) (theta : List ℝ) (vary : List Bool) (kin : KinProfile) (noScale : Bool)
    (calls calls' : List (KinCall r c)) (hc : List.Forall₂ (KinCall.SameIn i) calls calls') (m0 : KinModelState r c)
    (hm0 : m0 = KinModelState.init theta vary kin noScale) :
    (m0.run calls').params = (m0.run calls).params ∧
    (m0.run calls').model.map (fun im => im i) = (m0.run calls).model.map (fun im => im i) ∧
    ∀ call call', call.SameIn i call' → ((m0.run calls').step call').2 = ((m0.run calls).step call).2 := by
  have h := run_row i calls calls' hc m0 m0 (by subst hm0; exact ⟨rfl, rfl, rfl, rfl, Or.inl ⟨rfl, rfl⟩⟩)
  refine ⟨h.params, ?_, fun call call' hcc => (step_row i _ _ h call call' hcc).1⟩
  have := congrArg (Option.map fun (x : Img 1 c ℝ) => x 0) h.model
  rw [Option.map_map, Option.map_map] at this
  exact this

/-- **C236**: rows without weight (or without unmasked pixel) do not influence the fit: if two finite spectra with non-zero errors agree
in every row that holds an unmasked pixel of non-zero weight, the log-likelihoods of every image, scaled to the respective spectrum,
differ by a constant. -/
theorem C236_rows_without_weight (f f' e e' m w : Fin r → Fin c → ℝ) (nosky : List (Fin c))
    (he : ∀ i j, e i j ≠ 0) (he' : ∀ i j, e' i j ≠ 0)
    (hrow : ∀ i, (∃ j, m i j * w i j ≠ 0) → f' i = f i ∧ e' i = e i) :
    ∃ k : ℝ, ∀ x : Fin r → Fin c → ℝ, ∃ a : ℝ,
      modelLlike (finData f e m w) (scaleModel (finImg f) (finImg e) (finImg x) nosky) = .fin a ∧
      modelLlike (finData f' e' m w) (scaleModel (finImg f') (finImg e') (finImg x) nosky) = .fin (a + k) := by
  set lg : (Fin r → Fin c → ℝ) → Fin r → Fin c → ℝ := fun e i j => Real.logb 10 (2 * Real.pi * (e i j * e i j)) with hlg
  have hll : ∀ (f e y : Fin r → Fin c → ℝ), (∀ i j, e i j ≠ 0) → modelLlike (finData f e m w) (finImg y) =
      .fin (-(1/2) * ∑ i, ∑ j, (m i j * (w i j * ((f i j - y i j) / e i j * ((f i j - y i j) / e i j))) + m i j * lg e i j)) := by
    intro f e y he
    have hpos : ∀ i j, 0 < 2 * Real.pi * (e i j * e i j) := fun i j =>
      mul_pos (by positivity) (mul_self_pos.2 (he i j))
    simp only [modelLlike, finData, finImg, Fl.fin_sub, Fl.fin_div_ne _ _ (he _ _), Fl.sq_fin, Fl.fin_mul, log10,
      if_pos (hpos _ _), Fl.fin_add, Fl.fin_sum, mul_add, hlg]
  refine ⟨-(1/2) * (∑ i, ∑ j, m i j * lg e' i j - ∑ i, ∑ j, m i j * lg e i j), fun x => ?_⟩
  rw [scaleModel_fin f e x nosky (fun i j _ => he i j), scaleModel_fin f' e' x nosky (fun i j _ => he' i j)]
  rw [hll f e _ he, hll f' e' _ he']
  refine ⟨_, rfl, congrArg Fl.fin ?_⟩
  simp only [Finset.sum_add_distrib]
  rw [← mul_add]
  congr 1
  rw [add_assoc, add_sub_cancel, add_left_inj]
  refine Finset.sum_congr rfl fun i _ => ?_
  by_cases hi : ∃ j, m i j * w i j ≠ 0
  · obtain ⟨h1, h2⟩ := hrow i hi
    rw [h1, h2]
  · refine Finset.sum_congr rfl fun j _ => ?_
    have : m i j * w i j = 0 := not_not.1 fun h => hi ⟨j, h⟩
    rw [← mul_assoc, this, zero_mul, ← mul_assoc, this, zero_mul]

/-- two different spectra with the second row without weight meet the hypotheses -/
example : ∃ f f' e w : Fin 2 → Fin 1 → ℝ, (∀ i j, e i j ≠ 0) ∧ f ≠ f' ∧
    (∀ i, (∃ j, (1 : ℝ) * w i j ≠ 0) → f' i = f i ∧ e i = e i) := by
  refine ⟨![![1], ![2]], ![![1], ![7]], fun _ _ => 1, ![![1], ![0]], by simp, fun h => ?_, fun i hi => ?_⟩
  · have := congrFun (congrFun h 1) 0
    norm_num at this
  · fin_cases i
    · simp
    · simp at hi

/-- observations that differ outside row 0 meet the hypotheses of `C236_object` -/
example (g : KinInput 2 1) : List.Forall₂ (KinCall.SameIn 0) [.make g [100, 1, 50], .update [120, 1, 60]]
    [.make { g with data := { g.data with flux := fun i j => if i = 0 then g.data.flux i j else .nan } } [100, 1, 50],
      .update [120, 1, 60]] := by
  refine .cons ⟨⟨rfl, rfl, ?_, rfl⟩, rfl⟩ (.cons rfl .nil)
  funext j
  simp

end Misfit
