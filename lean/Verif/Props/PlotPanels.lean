import Verif.Model.PlotPanels
import Verif.Lemmas.PlotFit
import Verif.Lemmas.Plot1D
import Verif.Props.PlotLines
import Verif.Props.Chisq

/-!
# C237: the panels with spectrum, model and residual
-/

namespace Misfit
variable {r c : Nat}

theorem finish_some (m : KinModelState r c) (g : KinInput r c) (img : Option Arr2) (h : (finishModel m g img).2 = .ok ()) :
    ∃ im, (finishModel m g img).1.model = some im := by
  unfold finishModel at h ⊢
  cases hb : m.noScale with
  | true => exact ⟨_, rfl⟩
  | false =>
    cases hn : g.nosky with
    | none => rw [hb, hn] at h; cases h
    | some cols => exact ⟨_, rfl⟩

theorem eval_some (m : KinModelState r c) (g : KinInput r c) (s : AperState) (h : (evalExisting m g s).2 = .ok ()) :
    ∃ im, (evalExisting m g s).1.model = some im := by
  unfold evalExisting at h ⊢
  generalize updateModel g.aperCfg s m.params.theta = R at h ⊢
  obtain ⟨s1, r1⟩ := R
  cases r1 with
  | error e => cases h
  | ok img => exact finish_some _ _ _ h

theorem make_some (m : KinModelState r c) (g : KinInput r c) (fit : List ℝ) (h : (m.make g fit).2 = .ok ()) :
    ∃ im, (m.make g fit).1.model = some im := by
  unfold KinModelState.make at h ⊢
  generalize m.params.update fit = u at h ⊢
  obtain ⟨p, e⟩ := u
  cases e with
  | some e => cases h
  | none =>
    simp only at h ⊢
    cases hu : m.kin.updateTheta p.theta with
    | error e => rw [hu] at h; cases h
    | ok kk =>
      rw [hu] at h
      simp only at h ⊢
      cases ha : m.aper with
      | none =>
        rw [ha] at h
        simp only at h ⊢
        cases hb : buildModel g.aperCfg kk p.theta with
        | error e => rw [hb] at h; cases h
        | ok R =>
          rw [hb] at h
          obtain ⟨s1, r1⟩ := R
          cases r1 with
          | error e => cases h
          | ok img => exact finish_some _ _ _ h
      | some gs =>
        obtain ⟨g0, s⟩ := gs
        rw [ha] at h
        exact eval_some _ _ _ h

theorem makeModel_some (s : Fit2D r c) (fit : List ℝ) (h : (s.makeModel fit).2 = .ok ()) :
    (s.makeModel fit).1.input = s.input ∧ ∃ k im, (s.makeModel fit).1.kinModel = some k ∧ k.m.model = some im := by
  unfold Fit2D.makeModel at h ⊢
  cases hk : s.kinModel with
  | none => rw [hk] at h; cases h
  | some k =>
    rw [hk] at h
    obtain ⟨im, hi⟩ := make_some _ _ _ h
    exact ⟨rfl, _, im, rfl, hi⟩

theorem setBestfit_some (s : Fit2D r c) (fit : List ℝ) (h : (s.setBestfit fit).2 = .ok ()) :
    (s.setBestfit fit).1.input = s.input ∧
    ∃ k im, (s.setBestfit fit).1.kinModel = some k ∧ k.bestfit = some k.m ∧ k.m.model = some im := by
  unfold Fit2D.setBestfit at h ⊢
  have hm := makeModel_some s fit
  generalize s.makeModel fit = R at h hm ⊢
  obtain ⟨a, e⟩ := R
  cases e with
  | error e => cases h
  | ok u =>
    obtain ⟨h1, k, im, h2, h3⟩ := hm rfl
    simp only at h1 h2 h3 ⊢
    rw [h2]
    exact ⟨h1, _, im, rfl, rfl, h3⟩

theorem setupModel_input (s : Fit2D r c) : s.setupModel.1.input = s.input := by
  rcases setupModel_cases s with ⟨h1, e⟩ | ⟨t', h1, ⟨x, h2, e⟩ | ⟨k, h2, ⟨x, h3, e⟩ | ⟨h3, ⟨x, h4, e⟩ | ⟨f0, h4, e⟩⟩⟩⟩ <;> rw [e]
  · rfl
  · rfl
  · unfold Fit2D.makeModel
    split <;> rfl

/-- after a successful fit the object has an image of the best-fit model, and its galaxy is the one it had -/
theorem fit_image (o : PeakFinder) (run : Fit2D r c → Except PyErr Chain) (new : Option FitSettings) (s s1 : Fit2D r c)
    (d d1 : Disk r c) (h : s.fit o run new d = (s1, d1, .ok ())) :
    s1.input = s.input ∧ ∃ k im, s1.kinModel = some k ∧ k.bestfit = some k.m ∧ k.m.model = some im := by
  unfold Fit2D.fit at h
  simp only at h
  obtain ⟨s0, hs0⟩ : ∃ s0, s0 = (match new with | none => s | some t => { s with settings := some t }) := ⟨_, rfl⟩
  have hin : s0.input = s.input := by rw [hs0]; cases new <;> rfl
  have h' : (if Fl.ltB s0.resolution 0 then ((s0, d, .error .valueError) : Fit2D r c × Disk r c × Except PyErr Unit)
    else
      match s0.setupModel with
      | (s, .error e) => (s, d, .error e)
      | (s, .ok ()) =>
        match s.runMcmc run d with
        | (s, d, .error e) => (s, d, .error e)
        | (s, d, .ok ()) =>
          match s.analyze o d with
          | (s, .error e) => (s, d, .error e)
          | (s, .ok ()) => (s, (s.save d).1, (s.save d).2)) = (s1, d1, .ok ()) := by
    rw [hs0]; exact h
  clear h
  rename' h' => h
  split at h
  · cases h
  have h2 := setupModel_input s0
  generalize hsu : s0.setupModel = x at h h2
  obtain ⟨a, e⟩ := x
  cases e with
  | error e => cases h
  | ok u =>
    simp only at h h2
    unfold Fit2D.runMcmc at h
    cases hr : run a with
    | error e => rw [hr] at h; cases h
    | ok ch =>
      rw [hr] at h
      simp only at h
      generalize (if a.sampleFile then { d with samples := some ch } else d) = db at h
      unfold Fit2D.analyze at h
      simp only [Option.isNone_some, Bool.false_eq_true, if_false] at h
      generalize hcr : Fit2D.chainResults o { a with sampler := some ch } = y at h
      obtain ⟨y1, y2⟩ := y
      cases y2 with
      | error e => cases h
      | ok res =>
        simp only at h
        obtain ⟨k, ch', out, names, cols, e1, e2, e3, e4, e5, e6⟩ :=
          chainResults_inv o { a with sampler := some ch } res (by rw [hcr])
        rw [hcr] at e6
        simp only at e6
        have hb := setBestfit_some y1 res.fitting
        generalize hsb : y1.setBestfit res.fitting = z at h hb
        obtain ⟨z1, z2⟩ := z
        cases z2 with
        | error e => cases h
        | ok u =>
          simp only [Prod.mk.injEq] at h
          obtain ⟨h1, -, -⟩ := h
          subst h1
          obtain ⟨g1, g2⟩ := hb rfl
          refine ⟨?_, g2⟩
          rw [g1, e6]
          exact h2.trans hin

/-- **C237**: the colour scale of the panels of a finite spectrum with rows and sky-free columns runs from the smallest to the largest flux
in the sky-free columns. -/
theorem C237_scale (f : Fin r → Fin c → ℝ) (cols : List (Fin c)) (hr : 0 < r) (hc : cols ≠ []) :
    ∃ lo hi : ℝ, panelScale (finImg f) (some cols) = .ok (.fin lo, .fin hi) ∧
      (∀ i, ∀ j ∈ cols, lo ≤ f i j ∧ f i j ≤ hi) ∧ (∃ i, ∃ j ∈ cols, f i j = lo) ∧ ∃ i, ∃ j ∈ cols, f i j = hi := by
  have hp : scalePixels (finImg f) cols = ((List.ofFn fun i => cols.map fun j => f i j).flatten).map Fl.fin := by
    unfold scalePixels
    rw [if_pos (List.length_pos_iff.2 hc), List.map_flatten, List.map_ofFn]
    congr 2
    funext i
    simp [finImg]
  have hmem : ∀ y, y ∈ (List.ofFn fun i => cols.map fun j => f i j).flatten ↔ ∃ i, ∃ j ∈ cols, f i j = y := by
    intro y
    simp only [List.mem_flatten, List.mem_ofFn]
    constructor
    · rintro ⟨l, ⟨i, rfl⟩, hy⟩
      obtain ⟨j, hj, rfl⟩ := List.mem_map.1 hy
      exact ⟨i, j, hj, rfl⟩
    · rintro ⟨i, j, hj, rfl⟩
      exact ⟨_, ⟨i, rfl⟩, List.mem_map.2 ⟨j, hj, rfl⟩⟩
  obtain ⟨j0, hj0⟩ := List.exists_mem_of_ne_nil _ hc
  have hne : (List.ofFn fun i => cols.map fun j => f i j).flatten ≠ [] :=
    List.ne_nil_of_mem ((hmem (f ⟨0, hr⟩ j0)).2 ⟨_, j0, hj0, rfl⟩)
  obtain ⟨lo, hlo, e1, h1⟩ := npMin_fin _ hne
  obtain ⟨hi, hhi, e2, h2⟩ := npMax_fin _ hne
  refine ⟨lo, hi, ?_, fun i j hj => ⟨h1 _ ((hmem _).2 ⟨i, j, hj, rfl⟩), h2 _ ((hmem _).2 ⟨i, j, hj, rfl⟩)⟩, (hmem _).1 hlo, (hmem _).1 hhi⟩
  unfold panelScale
  simp only [hp, e1, e2]

example : ∃ cols : List (Fin 3), cols ≠ [] ∧ ∃ j, j ∉ cols := ⟨[0, 1], by simp, 2, by decide⟩

/-- **C237**: after a successful fit the panels show, on one colour scale, the flux of the galaxy, the image of the best-fit model and their
difference, and the unweighted chi-square is the sum of the squares of the residual panel in units of the errors over the unmasked
pixels.  Missing from the full claim: model and residual panel can be clipped (`C237_false`). -/
theorem C237_panels_partial (o : PeakFinder) (run : Fit2D r c → Except PyErr Chain) (new : Option FitSettings) (s s1 : Fit2D r c)
    (d d1 : Disk r c) (h : s.fit o run new d = (s1, d1, .ok ())) (f e m w : Fin r → Fin c → ℝ) (hd : s.input.data = finData f e m w)
    (cols : List (Fin c)) (hn : s.input.nosky = some cols) (hr : 0 < r) (hc : cols ≠ []) :
    ∃ k b im p, s1.kinModel = some k ∧ k.bestfit = some b ∧ b.model = some im ∧ specPanels s1 = .ok p ∧
      p.data = finImg f ∧ p.model = im ∧ (∀ x, im = finImg x → p.residual = finImg fun i j => f i j - x i j) ∧
      (∀ i, ∀ j ∈ cols, Fl.leB p.vmin (p.data i j) = true ∧ Fl.leB (p.data i j) p.vmax = true) ∧
      ((∀ i j, e i j ≠ 0) → (∀ i j, m i j = 0 ∨ m i j = 1) → ∀ x, im = finImg x → ∃ R, p.residual = finImg R ∧
        modelChisqNoWeight s1.input.data im = .fin (∑ i, ∑ j, if m i j = 1 then (R i j / e i j) ^ 2 else 0)) := by
  obtain ⟨hin, k, im, h1, h2, h3⟩ := fit_image o run new s s1 d d1 h
  obtain ⟨lo, hi, hs, hb, -, -⟩ := C237_scale f cols hr hc
  have hflux : s1.input.data.flux = finImg f := by rw [hin, hd]; rfl
  refine ⟨k, k.m, im, ⟨.fin lo, .fin hi, finImg f, im, fun i j => finImg f i j - im i j⟩, h1, h2, h3, ?_, rfl, rfl, ?_, ?_, ?_⟩
  · unfold specPanels
    rw [h1]
    simp only [hflux, h3]
    rw [hin, hn, hs]
  · rintro x rfl
    funext i j
    exact Fl.fin_sub _ _
  · intro i j hj
    obtain ⟨a1, a2⟩ := hb i j hj
    exact ⟨by simp only [finImg, Fl.leB_fin, decide_eq_true_eq]; exact a1, by simp only [finImg, Fl.leB_fin, decide_eq_true_eq]; exact a2⟩
  · rintro he hm x rfl
    refine ⟨fun i j => f i j - x i j, ?_, ?_⟩
    · funext i j
      exact Fl.fin_sub _ _
    · rw [hin, hd]
      simp only [modelChisqNoWeight, finData, finImg, Fl.fin_sub, Fl.fin_mul, Fl.fin_div_ne _ _ (he _ _), Fl.sq_fin, Fl.fin_sum, Fl.fin.injEq]
      refine Finset.sum_congr rfl fun i _ => Finset.sum_congr rfl fun j _ => ?_
      rcases hm i j with h0 | h0
      · rw [h0]; simp
      · rw [h0, mul_one, if_pos rfl, pow_two]

/-- the hypotheses are met by a fit that succeeds -/
example (d : Disk 1 2) : ∃ s1 d1 p, oneFit.fit peakOne oneRun none d = (s1, d1, .ok ()) ∧ specPanels s1 = .ok p := by
  obtain ⟨s1, d1, h⟩ := one_fit_ok d
  obtain ⟨k, b, im, p, -, -, -, hp, -⟩ := C237_panels_partial _ _ _ _ _ _ _ h (fun _ _ => 1) (fun _ _ => 1) (fun _ _ => 1) (fun _ _ => 1) rfl
    [0, 1] rfl (by norm_num) (by simp)
  exact ⟨s1, d1, p, h, hp⟩

/-- **C237**: the residual panel can be clipped at every pixel. Whenever the flux of the sky-free columns is positive and the residuals are smaller
than the smallest flux there, each residual lies below the lower end of the colour scale. -/
theorem C237_false (f x : Fin r → Fin c → ℝ) (cols : List (Fin c)) (hr : 0 < r) (hc : cols ≠ [])
    (hx : ∀ i j, ∀ i', ∀ j' ∈ cols, |f i j - x i j| < f i' j') :
    ∃ lo hi : ℝ, panelScale (finImg f) (some cols) = .ok (.fin lo, .fin hi) ∧ ∀ i j, f i j - x i j < lo := by
  obtain ⟨lo, hi, hs, -, ⟨i', j', hj', rfl⟩, -⟩ := C237_scale f cols hr hc
  exact ⟨_, hi, hs, fun i j => lt_of_le_of_lt (le_abs_self _) (hx i j i' j' hj')⟩

/-- a perfect model of a spectrum of ones: the residual 0 is below the scale -/
example : ∃ lo hi : ℝ, panelScale (finImg fun (_ : Fin 1) (_ : Fin 2) => (1 : ℝ)) (some [0]) = .ok (.fin lo, .fin hi) ∧
    ∀ (_ : Fin 1) (_ : Fin 2), (1 : ℝ) - 1 < lo :=
  C237_false (fun _ _ => 1) (fun _ _ => 1) [0] (by norm_num) (by simp) (by intros; norm_num)

/-- **C237**: an object without image, without model or without sky-free columns being set is refused. -/
theorem C237_refused (s : Fit2D r c) :
    (s.kinModel = none → specPanels s = .error .attributeError) ∧
    (∀ k, s.kinModel = some k → s.input.nosky = none → specPanels s = .error .typeError) ∧
    (∀ k cols (f : Fin r → Fin c → ℝ), s.kinModel = some k → s.input.nosky = some cols → cols ≠ [] → 0 < r →
      s.input.data.flux = finImg f → k.m.model = none → specPanels s = .error .typeError) := by
  refine ⟨fun h => ?_, fun k h hn => ?_, fun k cols f h hn hc hr hf hm => ?_⟩
  · unfold specPanels; rw [h]
  · unfold specPanels; rw [h, hn]; rfl
  · obtain ⟨lo, hi, hs, -⟩ := C237_scale f cols hr hc
    unfold specPanels
    rw [h]
    simp only [hf, hn, hs, hm]

end Misfit
