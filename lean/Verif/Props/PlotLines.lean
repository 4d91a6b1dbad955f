import Verif.Props.PlotFit
import Verif.Lemmas.Masks

/-! # C179-C181: curves, lines and hatching of the plots of a fit -/

namespace Misfit

/-! ## C179: the curves over the corner plot -/

/-- Specification: rotation speed at radius `R` of an arctangent rotation curve with speed `va` and turnover radius `rt`; with no
turnover radius the curve is flat. -/
noncomputable def discSpeed (va rt R : ℝ) : ℝ := if rt = 0 then va else 2 / Real.pi * va * Real.arctan (R / rt)

theorem velArctan_speed (va rt R : ℝ) (hR : 0 < R) (l : List ℝ) : velArctan (va :: rt :: l) R = .fin (discSpeed va rt R) := by
  unfold velArctan discSpeed
  simp only [List.getElem?_cons_zero, List.getElem?_cons_succ]
  split
  · rename_i h
    have : (Fl.fin R / Fl.fin rt : Fl ℝ) = .pinf := by
      show Fl.div _ _ = _
      simp [Fl.div, h, Fl.infTimes, hR, hR.ne']
    rw [this]
    show Fl.fin _ * Fl.fin _ = _
    rw [Fl.fin_mul]
    congr 1
    field_simp
  · rename_i h
    have : (Fl.fin R / Fl.fin rt : Fl ℝ) = .fin (R / rt) := by
      show Fl.div _ _ = _
      simp [Fl.div, h]
    rw [this]
    show Fl.fin _ * Fl.fin _ = _
    rw [Fl.fin_mul]

theorem discSpeed_ne (rt R : ℝ) (hR : 0 < R) : discSpeed 1 rt R ≠ 0 := by
  unfold discSpeed
  split
  · exact one_ne_zero
  · rename_i h
    have h1 : Real.arctan (R / rt) ≠ 0 := by
      rw [Ne, Real.arctan_eq_zero_iff]
      exact div_ne_zero hR.ne' h
    have := Real.pi_pos
    positivity

theorem discSpeed_linear (va rt R : ℝ) : discSpeed va rt R = va * discSpeed 1 rt R := by
  unfold discSpeed
  split <;> ring

theorem tmpRows_grow (l : List Nat) (l0 : Nat) (best : List ℝ) : ∀ (n i : Nat) (rows : List (ℝ → ℝ)) (R : Option (List (ℝ → ℝ))),
    l0 < i → tmpRows l l0 best i n (some rows) = .ok R → ∃ tail, R = some (rows ++ tail) := by
  intro n
  induction n with
  | zero => intro i rows R _ h; rw [tmpRows] at h; cases h; exact ⟨[], by simp⟩
  | succ n ih =>
    intro i rows R hi h
    rw [tmpRows] at h
    split at h
    · rw [if_neg (by omega)] at h
      obtain ⟨t, ht⟩ := ih (i + 1) _ R (by omega) h
      exact ⟨[_] ++ t, by rw [ht, List.append_assoc]⟩
    · split at h
      · cases h
      · rw [if_pos (by omega)] at h
        obtain ⟨t, ht⟩ := ih (i + 1) _ R (by omega) h
        exact ⟨[_] ++ t, by rw [ht, List.append_assoc]⟩

/-- the rows of the linked pairs (0, 1) and (1, 2) start with a constant one and the values along the axis -/
theorem tmpRows_pair (l0 : Nat) (h01 : l0 = 0 ∨ l0 = 1) (best : List ℝ) (n : Nat) (hn : l0 + 2 ≤ n) (R : Option (List (ℝ → ℝ)))
    (st : Option (List (ℝ → ℝ))) (h : tmpRows [l0, l0 + 1] l0 best 0 n st = .ok R) : ∃ tail, R = some ((fun _ => 1) :: (fun y => y) :: tail) := by
  rcases h01 with rfl | rfl
  · obtain ⟨n, rfl⟩ : ∃ m, n = m + 2 := ⟨n - 2, by omega⟩
    simp only [tmpRows, List.mem_cons, true_or, if_true, Nat.zero_add, or_true, Nat.one_ne_zero, if_false, List.mem_singleton] at h
    obtain ⟨t, ht⟩ := tmpRows_grow _ _ _ n _ _ _ (by omega) h
    exact ⟨t, by rw [ht]; rfl⟩
  · obtain ⟨n, rfl⟩ : ∃ m, n = m + 3 := ⟨n - 3, by omega⟩
    rw [tmpRows.eq_def] at h
    simp only at h
    rw [if_neg (by decide)] at h
    split at h
    · cases h
    · rw [if_neg (by omega), tmpRows, if_pos (by decide), if_pos rfl, tmpRows, if_pos (by decide), if_neg (by decide)] at h
      obtain ⟨t, ht⟩ := tmpRows_grow _ _ _ n _ _ _ (by omega) h
      exact ⟨t, by rw [ht]; rfl⟩

theorem updateTheta_vel (k k' : KinProfile) (p : Profile) (hp : k.vel = some p) (theta : List ℝ) (h : k.updateTheta theta = .ok k') :
    k'.vel = some { p with theta := theta.take p.nParams } := by
  unfold KinProfile.updateTheta at h
  simp only [hp, Option.map_some] at h
  split at h
  · cases h; rfl
  · cases h; rfl

theorem curveAt_points (k : KinProfile) (p : Profile) (hp : k.vel = some p) (h2 : p.nParams = 2) (tail : List (ℝ → ℝ)) (R v : ℝ)
    (hR : 0 < R) (ys : List ℝ) (l : List (Fl ℝ × ℝ)) (h : curveAt k ((fun _ => 1) :: (fun y => y) :: tail) R v ys = .ok l) :
    l = ys.map fun y => (.fin (v / discSpeed 1 y R), y) := by
  unfold curveAt at h
  obtain ⟨hlen, hspec⟩ := mapE_spec _ _ _ h
  apply List.ext_getElem
  · simpa using hlen
  · intro i h1 h2'
    have hi : i < ys.length := by simpa using h2'
    obtain ⟨b, hb, hf⟩ := hspec i ys[i] (List.getElem?_eq_getElem hi)
    rw [List.getElem?_eq_getElem h1] at hb
    cases hb
    rw [List.getElem_map]
    unfold dummyVel at hf
    cases hu : k.updateTheta (((fun _ => (1 : ℝ)) :: (fun y => y) :: tail).map fun f => f ys[i]) with
    | error e => rw [hu] at hf; cases hf
    | ok k' =>
      rw [hu] at hf
      have hv := updateTheta_vel k k' p hp _ hu
      simp only [KinProfile.velAt, hv, h2, List.map_cons, List.take_succ_cons, List.take_zero] at hf
      rw [velArctan_speed 1 _ R hR] at hf
      simp only [Except.ok.injEq] at hf
      rw [← hf]
      congr 1
      show Fl.div _ _ = _
      simp [Fl.div, discSpeed_ne _ R hR]

theorem linkedCurves_pair (l0 : Nat) (h01 : l0 = 0 ∨ l0 = 1) (k k' : KinProfile) (p : Profile) (hp : k.vel = some p)
    (h2 : p.nParams = 2) (hn : l0 + 2 ≤ k.theta.length) (best : List ℝ) (truths : List ℝ) (nCol : Nat) (re : ℝ) (hre : 0 < re)
    (ylim : Nat → List ℝ) (later : Bool) (cs : LinkedCurves)
    (h : linkedCurves k (some best) truths nCol re ylim later (.inds [l0, l0 + 1]) = .ok (k', cs)) :
    ∃ vre v22, truths.reverse[1]? = some vre ∧ truths.reverse[0]? = some v22 ∧ cs.panel = l0 + (l0 + 1) * nCol ∧
      cs.re = (ylim cs.panel).map (fun y => (.fin (vre / discSpeed 1 y re), y)) ∧
      cs.r22 = (ylim cs.panel).map (fun y => (.fin (v22 / discSpeed 1 y (2.2 / 1.676 * re)), y)) := by
  rw [linkedCurves] at h
  simp only [itemE, List.getElem?_cons_zero, List.getElem?_cons_succ] at h
  split at h
  · cases h
  · cases hv : truths.reverse[1]? with
    | none => rw [hv] at h; cases h
    | some vre =>
      cases hw : truths.reverse[0]? with
      | none => rw [hv, hw] at h; cases h
      | some v22 =>
        rw [hv, hw] at h
        simp only at h
        cases hr : tmpRows [l0, l0 + 1] l0 best 0 k.theta.length (if later then some [] else none) with
        | error e => rw [hr] at h; cases h
        | ok R =>
          obtain ⟨tail, rfl⟩ := tmpRows_pair l0 h01 best _ hn R _ hr
          rw [hr] at h
          simp only at h
          split at h
          · cases h
          · cases h
          · cases h
          · rename_i a c k1 ha hc hk
            cases h
            exact ⟨vre, v22, rfl, rfl, rfl, curveAt_points k p hp h2 tail re vre hre _ _ ha,
              curveAt_points k p hp h2 tail _ v22 (by positivity) _ _ hc⟩

/-- **C179** (partial): for linked `V_a` and `r_t` the curves over their panel go through one point for each value of `r_t` on the axis,
and every point is a disc that rotates with the best value of V(R_E) at the effective radius of the light, and with the best value of
V(2.2) at 2.2/1.676 of it.
Missing from the full claim: the best values belong to the radius of the mass, see `C179_false_mass`; other linked parameters, see
`C179_false_order` and `C179_false_later`. -/
theorem C179_curve_partial (k k' : KinProfile) (p : Profile) (hp : k.vel = some p) (h2 : p.nParams = 2) (hn : 2 ≤ k.theta.length)
    (best : List ℝ) (truths : List ℝ) (nCol : Nat) (re : ℝ) (hre : 0 < re) (ylim : Nat → List ℝ) (later : Bool) (cs : LinkedCurves)
    (h : linkedCurves k (some best) truths nCol re ylim later (.inds [0, 1]) = .ok (k', cs)) :
    ∃ vre v22, truths.reverse[1]? = some vre ∧ truths.reverse[0]? = some v22 ∧ cs.panel = nCol ∧
      cs.re.map Prod.snd = ylim nCol ∧ cs.r22.map Prod.snd = ylim nCol ∧
      (∀ q ∈ cs.re, ∃ va, q.1 = .fin va ∧ discSpeed va q.2 re = vre) ∧
      (∀ q ∈ cs.r22, ∃ va, q.1 = .fin va ∧ discSpeed va q.2 (2.2 / 1.676 * re) = v22) := by
  obtain ⟨vre, v22, e1, e2, e3, e4, e5⟩ := linkedCurves_pair 0 (Or.inl rfl) k k' p hp h2 hn best truths nCol re hre ylim later cs h
  have e3' : cs.panel = nCol := by rw [e3]; omega
  rw [e3'] at e4 e5
  refine ⟨vre, v22, e1, e2, e3', ?_, ?_, ?_, ?_⟩
  · rw [e4, List.map_map]; exact List.map_id _
  · rw [e5, List.map_map]; exact List.map_id _
  · intro q hq
    rw [e4] at hq
    obtain ⟨y, -, rfl⟩ := List.mem_map.1 hq
    refine ⟨_, rfl, ?_⟩
    rw [discSpeed_linear, div_mul_cancel₀ _ (discSpeed_ne _ _ hre)]
  · intro q hq
    rw [e5] at hq
    obtain ⟨y, -, rfl⟩ := List.mem_map.1 hq
    refine ⟨_, rfl, ?_⟩
    rw [discSpeed_linear, div_mul_cancel₀ _ (discSpeed_ne _ _ (by positivity))]

theorem arctan_ratio_ne (rt R R' : ℝ) (hrt : 0 < rt) (hne : R ≠ R') : discSpeed 1 rt R ≠ discSpeed 1 rt R' := by
  unfold discSpeed
  rw [if_neg hrt.ne', if_neg hrt.ne']
  intro h
  have hpi := Real.pi_pos
  have h1 : Real.arctan (R / rt) = Real.arctan (R' / rt) := mul_left_cancel₀ (by positivity) h
  have h2 := Real.arctan_injective h1
  exact hne (by field_simp at h2; exact h2)

/-- **C179** (false): the best value of V(R_E) is the speed at the effective radius of the mass; if that is not the effective radius of
the light, no point of the curve with a positive turnover radius has this speed there. -/
theorem C179_false_mass (k k' : KinProfile) (p : Profile) (hp : k.vel = some p) (h2 : p.nParams = 2) (hn : 2 ≤ k.theta.length)
    (best : List ℝ) (truths : List ℝ) (nCol : Nat) (re reMass : ℝ) (hre : 0 < re) (hne : reMass ≠ re) (ylim : Nat → List ℝ)
    (later : Bool) (cs : LinkedCurves) (h : linkedCurves k (some best) truths nCol re ylim later (.inds [0, 1]) = .ok (k', cs)) (vre : ℝ)
    (hv : truths.reverse[1]? = some vre) (hv0 : vre ≠ 0) :
    ∀ q ∈ cs.re, 0 < q.2 → ∃ va, q.1 = .fin va ∧ discSpeed va q.2 reMass ≠ vre := by
  obtain ⟨vre', v22, e1, -, -, -, -, e6, -⟩ := C179_curve_partial k k' p hp h2 hn best truths nCol re hre ylim later cs h
  rw [hv] at e1
  cases e1
  intro q hq hq0
  obtain ⟨va, h1, h3⟩ := e6 q hq
  refine ⟨va, h1, fun he => ?_⟩
  rw [← he, discSpeed_linear, discSpeed_linear va _ reMass] at h3
  have hva : va ≠ 0 := by
    rintro rfl
    rw [discSpeed_linear, zero_mul] at he
    exact hv0 he.symm
  exact arctan_ratio_ne q.2 reMass re hq0 hne (mul_left_cancel₀ hva h3).symm

/-- **C179** (false): the same two parameters linked in the other order make the corner plot fail with a NameError
(UnboundLocalError). -/
theorem C179_false_order (k : KinProfile) (hn : k.theta ≠ []) (best : List ℝ) (truths : List ℝ) (nCol : Nat) (hc : 2 ≤ nCol)
    (ht : 2 ≤ truths.length) (re : ℝ) (ylim : Nat → List ℝ) :
    linkedCurves k (some best) truths nCol re ylim false (.inds [1, 0]) = .error .nameError := by
  rw [linkedCurves]
  simp only [itemE, List.getElem?_cons_zero, List.getElem?_cons_succ]
  rw [if_neg (by nlinarith), List.getElem?_eq_getElem (by rw [List.length_reverse]; omega),
    List.getElem?_eq_getElem (by rw [List.length_reverse]; omega)]
  simp only
  obtain ⟨n, hn'⟩ : ∃ n, k.theta.length = n + 1 := ⟨k.theta.length - 1, by have := List.length_pos_iff.2 hn; omega⟩
  rw [hn', if_neg (by decide), tmpRows, if_pos (by decide), if_neg (by decide)]

/-- **C179** (false): linked in the other order after another linked set, the corner plot does not fail, but the curve over the panel has
the same value for all turnover radii: that of a disc whose turnover radius is the best dispersion. -/
theorem C179_false_order_later (k k' : KinProfile) (p : Profile) (hp : k.vel = some p) (h2 : p.nParams = 2) (hn : k.theta.length = 3)
    (best : List ℝ) (truths : List ℝ) (nCol : Nat) (re : ℝ) (hre : 0 < re) (ylim : Nat → List ℝ) (cs : LinkedCurves)
    (h : linkedCurves k (some best) truths nCol re ylim true (.inds [1, 0]) = .ok (k', cs)) (vre sig : ℝ)
    (hv : truths.reverse[1]? = some vre) (hs : best[2]? = some sig) :
    cs.panel = 1 ∧ ∀ q ∈ cs.re, q.1 = .fin (vre / discSpeed 1 sig re) := by
  rw [linkedCurves] at h
  simp only [itemE, List.getElem?_cons_zero, List.getElem?_cons_succ, hv] at h
  split at h
  · cases h
  cases hw : truths.reverse[0]? with
  | none => rw [hw] at h; cases h
  | some v22 =>
    rw [hw, hn] at h
    simp only [tmpRows, itemE, hs, if_true, List.mem_cons, Nat.one_ne_zero, zero_ne_one, false_or, true_or, or_true, if_false,
      List.nil_append, List.cons_append, Nat.reduceAdd, List.not_mem_nil, or_false, OfNat.ofNat_ne_zero, OfNat.ofNat_ne_one,
      Nat.ofNat_pos] at h
    cases ha : curveAt k [fun _ => 1, fun _ => sig] re vre (ylim (1 + 0 * nCol)) with
    | error e => rw [ha] at h; cases h
    | ok a =>
      rw [ha] at h
      split at h <;> cases h
      rename_i hz _ _
      cases hz
      refine ⟨by simp, fun q hq => ?_⟩
      unfold curveAt at ha
      obtain ⟨hlen, hspec⟩ := mapE_spec _ _ _ ha
      obtain ⟨i, hi, rfl⟩ := List.mem_iff_getElem.1 hq
      obtain ⟨b, hb, hf⟩ := hspec i _ (List.getElem?_eq_getElem (by rw [← hlen]; exact hi))
      rw [List.getElem?_eq_getElem hi] at hb
      cases hb
      unfold dummyVel at hf
      split at hf
      · cases hf
      · rename_i d hd
        split at hd
        · cases hd
        · rename_i k1 hu
          have hv := updateTheta_vel k k1 p hp _ hu
          simp only [KinProfile.velAt, hv, h2, List.map_cons, List.take_succ_cons, List.take_zero] at hd
          rw [velArctan_speed 1 _ re hre] at hd
          cases hd
          simp only [Except.ok.injEq] at hf
          rw [← hf]
          show Fl.div (.fin vre) (.fin (discSpeed 1 sig re)) = _
          simp [Fl.div, discSpeed_ne _ re hre]

/-- **C179** (false): for linked `r_t` and `sigma0` the curve over their panel is the one of `V_a` and `r_t`: its points are plotted at
turnover radius `x` and dispersion `y`, but a disc with *speed* `x` and *turnover radius* `y` has the best value of V(R_E). -/
theorem C179_false_later (k k' : KinProfile) (p : Profile) (hp : k.vel = some p) (h2 : p.nParams = 2) (hn : 3 ≤ k.theta.length)
    (best : List ℝ) (truths : List ℝ) (nCol : Nat) (re : ℝ) (hre : 0 < re) (ylim : Nat → List ℝ) (later : Bool) (cs : LinkedCurves)
    (h : linkedCurves k (some best) truths nCol re ylim later (.inds [1, 2]) = .ok (k', cs)) (vre : ℝ)
    (hv : truths.reverse[1]? = some vre) :
    cs.panel = 1 + 2 * nCol ∧ ∀ q ∈ cs.re, ∃ x, q.1 = .fin x ∧ discSpeed x q.2 re = vre := by
  obtain ⟨vre', v22, e1, e2, e3, e4, e5⟩ := linkedCurves_pair 1 (Or.inr rfl) k k' p hp h2 hn best truths nCol re hre ylim later cs h
  rw [hv] at e1
  cases e1
  refine ⟨e3, fun q hq => ?_⟩
  rw [e4] at hq
  obtain ⟨y, -, rfl⟩ := List.mem_map.1 hq
  refine ⟨_, rfl, ?_⟩
  rw [discSpeed_linear, div_mul_cancel₀ _ (discSpeed_ne _ _ hre)]

theorem updateTheta_again (k0 k : KinProfile) (t : List ℝ) (h : k0.updateTheta t = .ok k) : k.updateTheta k.theta = .ok k := by
  obtain ⟨th, v, dsp⟩ := k0
  unfold KinProfile.updateTheta at h
  simp only at h
  cases dsp with
  | none =>
    cases h
    cases v <;> rfl
  | some d =>
    cases v with
    | none => cases h
    | some v => cases h; rfl

/-- **C179**: drawing the curves leaves the kinematic profile as it was. -/
theorem C179_restored (k0 k k' : KinProfile) (t : List ℝ) (h0 : k0.updateTheta t = .ok k) (best : Option (List ℝ)) (truths : List ℝ)
    (nCol : Nat) (re : ℝ) (ylim : Nat → List ℝ) (later : Bool) (sets : List RawLink) (cs : List LinkedCurves)
    (h : linkedLoopCurves k best truths nCol re ylim later sets = .ok (k', cs)) : k' = k := by
  have hk := updateTheta_again k0 k t h0
  clear h0
  induction sets generalizing cs later with
  | nil => rw [linkedLoopCurves] at h; cases h; rfl
  | cons s rest ih =>
    rw [linkedLoopCurves] at h
    split at h
    · cases h
    · rename_i k1 c1 hc
      have hk1 : k1 = k := by
        cases s with
        | all => cases hc
        | inds l =>
          rw [linkedCurves] at hc
          simp only at hc
          split at hc
          · cases hc
          · cases hc
          · split at hc
            · cases hc
            · split at hc
              · cases hc
              · cases hc
              · cases best with
                | none => cases hc
                | some b =>
                  simp only at hc
                  split at hc
                  · cases hc
                  · cases hc
                  · split at hc
                    · cases hc
                    · cases hc
                    · cases hc
                    · rename_i hk2
                      rw [hk] at hk2
                      cases hk2
                      cases hc
                      rfl
      subst hk1
      split at h
      · cases h
      · rename_i k2 cs2 hcs
        cases h
        exact ih true cs2 hcs

/-- **C179**: the curves belong to the linked sets in their order, each drawn with the profile as it was before. -/
theorem C179_order (k0 k k' : KinProfile) (t : List ℝ) (h0 : k0.updateTheta t = .ok k) (best : Option (List ℝ)) (truths : List ℝ)
    (nCol : Nat) (re : ℝ) (ylim : Nat → List ℝ) (later : Bool) (sets : List RawLink) (cs : List LinkedCurves)
    (h : linkedLoopCurves k best truths nCol re ylim later sets = .ok (k', cs)) :
    cs.length = sets.length ∧ ∀ (i : Nat) (s : RawLink), sets[i]? = some s →
      ∃ c, cs[i]? = some c ∧ linkedCurves k best truths nCol re ylim (later || decide (0 < i)) s = .ok (k, c) := by
  induction sets generalizing cs k' later with
  | nil => rw [linkedLoopCurves] at h; cases h; exact ⟨rfl, fun i s hs => by simp at hs⟩
  | cons s rest ih =>
    rw [linkedLoopCurves] at h
    split at h
    · cases h
    · rename_i k1 c1 hc
      have h1 : linkedLoopCurves k best truths nCol re ylim later [s] = .ok (k1, [c1]) := by
        rw [linkedLoopCurves, hc]
        simp only [linkedLoopCurves]
      have hk1 := C179_restored k0 k k1 t h0 best truths nCol re ylim later [s] [c1] h1
      subst hk1
      split at h
      · cases h
      · rename_i k2 cs2 hcs
        cases h
        obtain ⟨g1, g2⟩ := ih _ true _ hcs
        refine ⟨by simp [g1], fun i s' hs' => ?_⟩
        cases i with
        | zero =>
          simp only [List.getElem?_cons_zero, Option.some.injEq] at hs'
          subst hs'
          exact ⟨c1, rfl, by simpa using hc⟩
        | succ i =>
          obtain ⟨c, q1, q2⟩ := g2 i s' (by simpa using hs')
          exact ⟨c, q1, by simpa using q2⟩

/-- **C178**: the corner plot of a fit without results or without samples is an exception, and one that cannot be drawn ends
with the exception of the drawing. -/
theorem C178_missing {r c : Nat} (s : Fit2D r c) (drawn : Except PyErr Unit) (re : ℝ) (ylim : Nat → List ℝ) :
    (s.results = none → cornerPlot drawn re ylim s = .error .attributeError) ∧
    (s.results ≠ none → s.sampler = none → cornerPlot drawn re ylim s = .error .typeError) ∧
    ∀ e, s.results ≠ none → s.sampler ≠ none → drawn = .error e → cornerPlot drawn re ylim s = .error e := by
  refine ⟨fun h => ?_, fun h h' => ?_, fun e h h' h'' => ?_⟩ <;> unfold cornerPlot
  · rw [h]
  · obtain ⟨x, hx⟩ := Option.ne_none_iff_exists'.1 h
    rw [hx, h']
  · obtain ⟨x, hx⟩ := Option.ne_none_iff_exists'.1 h
    obtain ⟨y, hy⟩ := Option.ne_none_iff_exists'.1 h'
    rw [hx, hy, h'']

theorem updateTheta_disp (k : KinProfile) (p d : Profile) (hp : k.vel = some p) (hd : k.disp = some d) (theta : List ℝ) :
    ∃ k', k.updateTheta theta = .ok k' ∧ k'.vel = some { p with theta := theta.take p.nParams } := by
  obtain ⟨th, v, dsp⟩ := k
  cases hp
  cases hd
  exact ⟨_, rfl, rfl⟩

theorem curveAt_ok (k : KinProfile) (p d : Profile) (hp : k.vel = some p) (hd : k.disp = some d) (rows : List (ℝ → ℝ)) (R v : ℝ)
    (ys : List ℝ) : ∃ l, curveAt k rows R v ys = .ok l := by
  refine mapE_ok _ ys fun y _ => ?_
  obtain ⟨k', h1, h2⟩ := updateTheta_disp k p d hp hd (rows.map fun f => f y)
  exact ⟨(.fin v / velArctan ((rows.map fun f => f y).take p.nParams) R, y), by simp only [dummyVel, h1, KinProfile.velAt, h2]⟩

/-- a disc with three parameters -/
noncomputable def oneDisc : KinProfile := ⟨[100, 1, 50], some ⟨[100, 1], 2⟩, some ⟨[50], 1⟩⟩

theorem oneDisc_curves (l0 : Nat) (h01 : l0 = 0 ∨ l0 = 1) (ylim : Nat → List ℝ) :
    ∃ k' cs, linkedCurves oneDisc (some [100, 1, 50, 0, 2]) [100, 1, 50, 60, 70] 5 1 ylim false (.inds [l0, l0 + 1]) = .ok (k', cs) := by
  have hrows : ∃ rows, tmpRows [l0, l0 + 1] l0 [100, 1, 50, 0, 2] 0 3 none = .ok (some rows) := by
    rcases h01 with rfl | rfl
    · exact ⟨_, rfl⟩
    · exact ⟨_, rfl⟩
  obtain ⟨rows, hr⟩ := hrows
  obtain ⟨a, ha⟩ := curveAt_ok oneDisc _ _ rfl rfl rows 1 60 (ylim (l0 + (l0 + 1) * 5))
  obtain ⟨b, hb⟩ := curveAt_ok oneDisc _ _ rfl rfl rows (2.2 / 1.676 * 1) 70 (ylim (l0 + (l0 + 1) * 5))
  obtain ⟨k', hk, -⟩ := updateTheta_disp oneDisc _ _ rfl rfl oneDisc.theta
  refine ⟨k', ⟨l0 + (l0 + 1) * 5, a, b⟩, ?_⟩
  rw [linkedCurves]
  simp only [itemE, List.getElem?_cons_zero, List.getElem?_cons_succ]
  rw [if_neg (by omega)]
  simp only [List.reverse_cons, List.reverse_nil, List.nil_append, List.cons_append, List.getElem?_cons_zero,
    List.getElem?_cons_succ]
  rw [show oneDisc.theta.length = 3 from rfl, if_neg (by decide), hr]
  simp only [ha, hb, hk]

/-- the hypotheses of C179 are met: the curves of linked `V_a` and `r_t`, and of `r_t` and `sigma0`, of a disc with three parameters are
drawn -/
example (ylim : Nat → List ℝ) : oneDisc.vel = some ⟨[100, 1], 2⟩ ∧
    (∃ k' cs, linkedCurves oneDisc (some [100, 1, 50, 0, 2]) [100, 1, 50, 60, 70] 5 1 ylim false (.inds [0, 1]) = .ok (k', cs)) ∧
    (∃ k' cs, linkedCurves oneDisc (some [100, 1, 50, 0, 2]) [100, 1, 50, 60, 70] 5 1 ylim false (.inds [1, 2]) = .ok (k', cs)) :=
  ⟨rfl, oneDisc_curves 0 (Or.inl rfl) ylim, oneDisc_curves 1 (Or.inr rfl) ylim⟩

/-- ... and so are those of `r_t` and `V_a` after another set -/
example (ylim : Nat → List ℝ) :
    ∃ k' cs, linkedCurves oneDisc (some [100, 1, 50, 0, 2]) [100, 1, 50, 60, 70] 5 1 ylim true (.inds [1, 0]) = .ok (k', cs) := by
  have hr : tmpRows [1, 0] 1 [100, 1, 50, 0, 2] 0 3 (some []) = .ok (some [fun _ => 1, fun _ => 50]) := by
    simp [tmpRows, itemE]
  obtain ⟨a, ha⟩ := curveAt_ok oneDisc _ _ rfl rfl [fun _ => 1, fun _ => 50] 1 60 (ylim (1 + 0 * 5))
  obtain ⟨b, hb⟩ := curveAt_ok oneDisc _ _ rfl rfl [fun _ => 1, fun _ => 50] (2.2 / 1.676 * 1) 70 (ylim (1 + 0 * 5))
  obtain ⟨k', hk, -⟩ := updateTheta_disp oneDisc _ _ rfl rfl oneDisc.theta
  refine ⟨k', ⟨1 + 0 * 5, a, b⟩, ?_⟩
  rw [linkedCurves]
  simp only [itemE, List.getElem?_cons_zero, List.getElem?_cons_succ]
  rw [if_neg (by omega)]
  simp only [List.reverse_cons, List.reverse_nil, List.nil_append, List.cons_append, List.getElem?_cons_zero,
    List.getElem?_cons_succ]
  rw [show oneDisc.theta.length = 3 from rfl, if_pos trivial, hr]
  simp only [ha, hb, hk]

/-! ## C180: lines, edges and hatching over the spectra -/

theorem run_range (low : List Nat) (w : List Nat) (hw : w ∈ whContinuous low) :
    ∃ a b, w.headD 0 = a ∧ w.getLastD 0 = b ∧ minRow w = a ∧ maxRow w = b ∧ a ≤ b ∧ ∀ i, i ∈ w ↔ a ≤ i ∧ i ≤ b := by
  obtain ⟨a, ha, hc, -⟩ := runs_mem low w hw
  have hm := chain_mem_iff w hc a ha
  have hne : w ≠ [] := by rintro rfl; cases ha
  have hlen : 0 < w.length := List.length_pos_iff.2 hne
  have hm' : ∀ i, i ∈ w ↔ a ≤ i ∧ i ≤ a + w.length - 1 := fun i => by rw [hm i]; omega
  refine ⟨a, a + w.length - 1, ?_, ?_, ?_, ?_, by omega, hm'⟩
  · cases w with
    | nil => exact absurd rfl hne
    | cons x l => cases ha; rfl
  · have h1 := chain_get w hc a ha (w.length - 1) (by omega)
    rw [← List.getLast?_eq_getElem?] at h1
    rw [List.getLastD_eq_getLast?, h1]
    simp only [Option.getD_some]
    omega
  · have h1 := (hm' _).1 (minRow_mem w hne)
    have h2 := minRow_le w a ((hm' a).2 ⟨le_rfl, by omega⟩)
    omega
  · have h1 := (hm' _).1 (maxRow_mem w hne)
    have h2 := le_maxRow w (a + w.length - 1) ((hm' _).2 ⟨by omega, le_rfl⟩)
    omega

theorem mem_run (low : List Nat) (p : Nat) : p ∈ low ↔ ∃ w ∈ whContinuous low, p ∈ w := by
  have : (whContinuous low).flatten = low := by
    unfold whContinuous
    rw [whContinuousLoop_flatten low [] (by simp)]
    rfl
  rw [← List.mem_flatten, this]

/-- Specification: the height `y` is in the row of pixels `p`. -/
def InRow (y : ℚ) (p : Nat) : Prop := (p : ℚ) - 1 / 2 ≤ y ∧ y ≤ (p : ℚ) + 1 / 2

/-- **C180**: the hatching covers exactly the rows in the list of masked rows. -/
theorem C180_bands (low : List Nat) (y : ℚ) : (∃ b ∈ hatchBands low, b.1 ≤ y ∧ y ≤ b.2) ↔ ∃ p ∈ low, InRow y p := by
  unfold hatchBands InRow
  constructor
  · rintro ⟨b, hb, h1, h2⟩
    obtain ⟨w, hw, rfl⟩ := List.mem_map.1 hb
    obtain ⟨u, v, e1, e2, -, -, huv, hm⟩ := run_range low w hw
    simp only [e1, e2] at h1 h2
    obtain ⟨n, hn1, hn2⟩ : ∃ n : ℤ, (n : ℚ) - 1 / 2 ≤ y ∧ y ≤ (n : ℚ) + 1 / 2 ∧ (u : ℤ) ≤ n ∧ n ≤ v := by
      by_cases hlt : ⌊y + 1 / 2⌋ ≤ (v : ℤ)
      · refine ⟨⌊y + 1 / 2⌋, ?_, ?_, ?_, hlt⟩
        · have := Int.floor_le (y + 1 / 2); linarith
        · have := Int.lt_floor_add_one (y + 1 / 2); linarith
        · rw [Int.le_floor]; push_cast; linarith
      · have h3 : ((v + 1 : ℤ) : ℚ) ≤ y + 1 / 2 := Int.le_floor.1 (by omega)
        push_cast at h3
        exact ⟨v, by push_cast; linarith, by push_cast; linarith, by omega, le_rfl⟩
    obtain ⟨m, rfl⟩ : ∃ m : Nat, n = (m : ℤ) := ⟨n.toNat, by omega⟩
    refine ⟨m, (mem_run low m).2 ⟨w, hw, (hm m).2 ⟨by omega, by omega⟩⟩, ?_, ?_⟩
    · exact_mod_cast hn1
    · exact_mod_cast hn2.1
  · rintro ⟨p, hp, h1, h2⟩
    obtain ⟨w, hw, hpw⟩ := (mem_run low p).1 hp
    obtain ⟨u, v, e1, e2, -, -, huv, hm⟩ := run_range low w hw
    refine ⟨_, List.mem_map.2 ⟨w, hw, rfl⟩, ?_⟩
    simp only [e1, e2]
    obtain ⟨h3, h4⟩ := (hm p).1 hpw
    have h3' : (u : ℚ) ≤ p := by exact_mod_cast h3
    have h4' : (p : ℚ) ≤ v := by exact_mod_cast h4
    constructor <;> linarith

/-- **C180**: the dashed edges are drawn exactly between a masked and an unmasked row of the image. -/
theorem C180_edges (n : Nat) (low : List Nat) (hs : low.Pairwise (· < ·)) (hlt : ∀ p ∈ low, p < n) (e : ℚ) :
    e ∈ rowEdges n low ↔ ∃ p : Nat, p + 1 < n ∧ e = (p : ℚ) + 1 / 2 ∧ ((p ∈ low ∧ p + 1 ∉ low) ∨ (p ∉ low ∧ p + 1 ∈ low)) := by
  unfold rowEdges
  rw [List.mem_flatMap]
  constructor
  · rintro ⟨w, hw, he⟩
    obtain ⟨u, v, -, -, e1, e2, huv, hm⟩ := run_range low w hw
    have hu : u ∈ low := (mem_run low u).2 ⟨w, hw, (hm u).2 ⟨le_rfl, huv⟩⟩
    have hv : v ∈ low := (mem_run low v).2 ⟨w, hw, (hm v).2 ⟨huv, le_rfl⟩⟩
    rw [e1, e2] at he
    rcases List.mem_append.1 he with he | he
    · split at he
      · rename_i h0
        rw [List.mem_singleton] at he
        obtain ⟨p, rfl⟩ : ∃ p, u = p + 1 := ⟨u - 1, by omega⟩
        refine ⟨p, hlt _ hu, ?_, Or.inr ⟨fun hp => ?_, hu⟩⟩
        · rw [he]; push_cast; ring
        · have := (hm p).1 (runs_pred low hs w hw p ((hm _).2 ⟨le_rfl, huv⟩) hp)
          omega
      · cases he
    · split at he
      · rename_i h0
        rw [List.mem_singleton] at he
        have := hlt _ hv
        refine ⟨v, by omega, he, Or.inl ⟨hv, fun hp => ?_⟩⟩
        have := (hm (v + 1)).1 (runs_succ low hs w hw v ((hm _).2 ⟨huv, le_rfl⟩) hp)
        omega
      · cases he
  · rintro ⟨p, hp, rfl, h | h⟩
    · obtain ⟨w, hw, hpw⟩ := (mem_run low p).1 h.1
      obtain ⟨u, v, -, -, e1, e2, huv, hm⟩ := run_range low w hw
      have h1 := (hm p).1 hpw
      have hv : v = p := by
        by_contra hne
        exact h.2 ((mem_run low _).2 ⟨w, hw, (hm _).2 ⟨by omega, by omega⟩⟩)
      refine ⟨w, hw, List.mem_append_right _ ?_⟩
      rw [e2, hv, if_pos (by omega)]
      exact List.mem_singleton.2 rfl
    · obtain ⟨w, hw, hpw⟩ := (mem_run low (p + 1)).1 h.2
      obtain ⟨u, v, -, -, e1, e2, huv, hm⟩ := run_range low w hw
      have h1 := (hm (p + 1)).1 hpw
      have hu : u = p + 1 := by
        by_contra hne
        exact h.1 ((mem_run low _).2 ⟨w, hw, (hm _).2 ⟨by omega, by omega⟩⟩)
      refine ⟨w, hw, List.mem_append_left _ ?_⟩
      rw [e1, hu, if_pos (by omega)]
      refine List.mem_singleton.2 ?_
      push_cast
      ring

/-! ### the list of masked rows is increasing -/

theorem sorted_insertion (l : List Nat) (hn : l.Nodup) : (l.insertionSort (· ≤ ·)).Pairwise (· < ·) := by
  have h1 : (l.insertionSort (· ≤ ·)).Pairwise (· ≤ ·) := List.pairwise_insertionSort _ l
  have h2 : (l.insertionSort (· ≤ ·)).Nodup := (List.perm_insertionSort _ l).nodup_iff.2 hn
  exact (h1.and h2).imp fun ⟨a, b⟩ => lt_of_le_of_ne a b

theorem extendDown_sorted (n : Nat) (high low : List Nat) (h : low.Pairwise (· < ·)) : (extendDown n high low).Pairwise (· < ·) := by
  unfold extendDown
  split
  · refine sorted_insertion _ (List.nodup_append'.2 ⟨h.imp fun h => Nat.ne_of_lt h, List.nodup_range, ?_⟩)
    intro a ha hb
    have := minRow_le low a ha
    rw [List.mem_range] at hb
    omega
  · exact h

theorem extendUp_sorted (n : Nat) (high low : List Nat) (h : low.Pairwise (· < ·)) : (extendUp n high low).Pairwise (· < ·) := by
  unfold extendUp
  split
  · refine sorted_insertion _ (List.nodup_append'.2 ⟨h.imp fun h => Nat.ne_of_lt h,
      List.nodup_reverse.2 (List.nodup_range.filter _), ?_⟩)
    intro a ha hb
    have := le_maxRow low a ha
    rw [List.mem_reverse, List.mem_filter] at hb
    simp only [decide_eq_true_eq] at hb
    omega
  · exact h

theorem lowRows_sorted (n : Nat) (high : List Nat) : (lowRows n high).Pairwise (· < ·) := by
  unfold lowRows
  have h : ((List.range n).filter fun i => i ∉ high).Pairwise (· < ·) := List.Pairwise.filter _ List.pairwise_lt_range
  simp only
  split
  · exact extendUp_sorted _ _ _ (extendDown_sorted _ _ _ h)
  · exact h

open Classical in
/-- **C180**: for a spectrum masked by its signal-to-noise the step masks a row as a whole exactly if its middle is hatched and leaves
all other rows as they were; edges are drawn between exactly the rows of which one is hatched. -/
theorem C180_mask {r c : Nat} (snr : Fin r → Fl ℝ) (cut : Fl ℝ) (mask : Img r c ℝ) :
    (∀ (i : Fin r) (j : Fin c), (maskLowSnrRows snr cut mask).1 i j =
      if ∃ b ∈ hatchBands (maskLowSnrRows snr cut mask).2, b.1 < (i.val : ℚ) ∧ (i.val : ℚ) < b.2 then 0 else mask i j) ∧
    (∀ e, e ∈ rowEdges r (maskLowSnrRows snr cut mask).2 ↔ ∃ p : Nat, p + 1 < r ∧ e = (p : ℚ) + 1 / 2 ∧
      ¬ ((∃ b ∈ hatchBands (maskLowSnrRows snr cut mask).2, b.1 < (p : ℚ) ∧ (p : ℚ) < b.2) ↔
        ∃ b ∈ hatchBands (maskLowSnrRows snr cut mask).2, b.1 < ((p + 1 : Nat) : ℚ) ∧ ((p + 1 : Nat) : ℚ) < b.2)) := by
  have key : ∀ (low : List Nat) (p : Nat), (∃ b ∈ hatchBands low, b.1 < (p : ℚ) ∧ (p : ℚ) < b.2) ↔ p ∈ low := by
    intro low p
    unfold hatchBands
    rw [mem_run]
    constructor
    · rintro ⟨b, hb, h1, h2⟩
      obtain ⟨w, hw, rfl⟩ := List.mem_map.1 hb
      obtain ⟨u, v, e1, e2, -, -, huv, hm⟩ := run_range low w hw
      simp only [e1, e2] at h1 h2
      have h3 : (u : ℚ) < p + 1 := by linarith
      have h4 : (p : ℚ) < v + 1 := by linarith
      have h5 : u < p + 1 := by exact_mod_cast h3
      have h6 : p < v + 1 := by exact_mod_cast h4
      exact ⟨w, hw, (hm p).2 ⟨by omega, by omega⟩⟩
    · rintro ⟨w, hw, hp⟩
      obtain ⟨u, v, e1, e2, -, -, huv, hm⟩ := run_range low w hw
      refine ⟨_, List.mem_map.2 ⟨w, hw, rfl⟩, ?_⟩
      simp only [e1, e2]
      obtain ⟨h3, h4⟩ := (hm p).1 hp
      have h3' : (u : ℚ) ≤ p := by exact_mod_cast h3
      have h4' : (p : ℚ) ≤ v := by exact_mod_cast h4
      constructor <;> linarith
  constructor
  · intro i j
    by_cases hi : i.val ∈ (maskLowSnrRows snr cut mask).2
    · rw [if_pos ((key _ _).2 hi)]
      unfold maskLowSnrRows at hi ⊢
      exact if_pos hi
    · rw [if_neg fun h => hi ((key _ _).1 h)]
      unfold maskLowSnrRows at hi ⊢
      exact if_neg hi
  · intro e
    rw [C180_edges r (maskLowSnrRows snr cut mask).2 (lowRows_sorted _ _) (fun p hp => lowRows_lt _ _ p hp) e]
    refine exists_congr fun p => and_congr_right fun _ => and_congr_right fun _ => ?_
    rw [key, key]
    tauto

/-- rows 0, 1 and 3 of 6 are masked: the edges are above row 1 and around row 3 -/
example : rowEdges 6 [0, 1, 3] = [3 / 2, 5 / 2, 7 / 2] ∧ hatchBands [0, 1, 3] = [(-1 / 2, 3 / 2), (5 / 2, 7 / 2)] := by
  constructor <;> decide +kernel

/-! ### lines -/

theorem convolvedRadius_eq (re fwhm : ℝ) : convolvedRadius re fwhm = Real.sqrt (re ^ 2 + (fwhm / 2) ^ 2) := by
  unfold convolvedRadius
  simp only
  have hlog : 0 < Real.log 2 := Real.log_pos (by norm_num)
  have h2 : (0 : ℝ) < 2 * Real.log 2 := by positivity
  have hs : 0 < Real.sqrt (2 * Real.log 2) := Real.sqrt_pos.2 h2
  rw [← Real.sqrt_mul (by positivity)]
  congr 1
  have hsq : Real.sqrt (2 * Real.log 2) ^ 2 = 2 * Real.log 2 := Real.sq_sqrt h2.le
  rw [div_pow, div_pow, mul_pow, hsq]
  field_simp
  ring

/-- **C180**: the lines over the spectra: the middle one is at the row of the object plus the fitted shift, the other two are away from
it by the effective radius, widened in quadrature by half the width of the point spread function, projected on the slit, in rows. -/
theorem C180_lines (m0 shift re fwhm deltPA pix : ℝ) :
    let w := Real.sqrt (re ^ 2 + (fwhm / 2) ^ 2) * |Real.cos (deltPA * Real.pi / 180)| / pix
    spectrumLines m0 shift re fwhm deltPA pix = (m0 + shift - w, m0 + shift, m0 + shift + w) := by
  simp only [spectrumLines, yProjMajor, convolvedRadius_eq]
  rw [abs_mul, abs_of_nonneg (Real.sqrt_nonneg _)]
  congr 3 <;> (congr 4; unfold rad; ring)

/-- **C180**: the plot of the best model after a successful fit shows the image of the best-fit model, around the row of the object moved
by the shift of that model, and the hatching and edges of the masked rows; it is drawn unless the images fail, the masks were never made
or there are masked sky columns. -/
theorem C180_plot_partial (o : PeakFinder) {r c : Nat} (run : Fit2D r c → Except PyErr Chain) (new : Option FitSettings)
    (s s1 : Fit2D r c) (d d1 : Disk r c) (h : s.fit o run new d = (s1, d1, .ok ())) (g : BestfitPlotIn) (low : List Nat)
    (hn : g.noskySet = true) (hl : g.lowRows = some low) (hs : g.skyFit = some []) :
    ∃ k b shift, s1.kinModel = some k ∧ k.bestfit = some b ∧ b.params.theta[b.params.theta.length - 2]? = some shift ∧
      (g.images (g.m0 + shift) = .ok () → ∃ p, bestfitPlot g s1 = .ok p ∧ p.shift = shift ∧ p.model = b.model ∧
        p.lines = spectrumLines g.m0 shift g.re g.fwhm g.deltPA g.pixscale ∧ p.edges = rowEdges r low ∧ p.bands = hatchBands low) ∧
      (∀ e, g.images (g.m0 + shift) = .error e → bestfitPlot g s1 = .error e) := by
  obtain ⟨t, res, k, cols, n, -, -, -, -, e1, e2, e3, -, -⟩ := fit_results o run new s s1 d d1 h
  have hlen : k.m.params.theta.length - 2 < k.m.params.theta.length := by omega
  have hrev : itemE k.m.params.theta.reverse 1 = .ok k.m.params.theta[k.m.params.theta.length - 2] := by
    unfold itemE
    rw [List.getElem?_reverse (by omega), show k.m.params.theta.length - 1 - 1 = k.m.params.theta.length - 2 by omega,
      List.getElem?_eq_getElem hlen]
  refine ⟨k, k.m, _, e1, e2, List.getElem?_eq_getElem hlen, fun hi => ?_, fun e he => ?_⟩
  · refine ⟨⟨_, k.m.model, _, rowEdges r low, hatchBands low⟩, ?_, rfl, rfl, rfl, rfl, rfl⟩
    unfold bestfitPlot
    rw [e1]
    simp only [e2, hrev, hi, hn, if_true, hl, hs, skyHatch]
    rfl
  · unfold bestfitPlot
    rw [e1]
    simp only [e2, hrev, he]

/-- **C180** (false): as soon as one column is masked for the sky in the fit the plot fails, with a TypeError. -/
theorem C180_false_sky {r c : Nat} (s : Fit2D r c) (k : KinObj r c) (hk : s.kinModel = some k) (b : KinModelState r c)
    (hb : k.bestfit = some b) (h2 : 2 ≤ b.params.theta.length) (g : BestfitPlotIn) (hn : g.noskySet = true) (low : List Nat)
    (hl : g.lowRows = some low) (i : Nat) (l : List Nat) (hs : g.skyFit = some (i :: l)) (hi : ∀ x, g.images x = .ok ()) :
    bestfitPlot g s = .error .typeError := by
  have hlen : b.params.theta.length - 2 < b.params.theta.length := by omega
  have hrev : itemE b.params.theta.reverse 1 = .ok b.params.theta[b.params.theta.length - 2] := by
    unfold itemE
    rw [List.getElem?_reverse (by omega), show b.params.theta.length - 1 - 1 = b.params.theta.length - 2 by omega,
      List.getElem?_eq_getElem hlen]
  unfold bestfitPlot
  rw [hk]
  simp only [hb, hrev, hi, hn, if_true, hl, hs]
  have : skyHatch (some (i :: l)) = .error .typeError := by
    have hne : whContinuous (i :: l) ≠ [] := by
      intro h0
      have := (mem_run (i :: l) i).1 (by simp)
      rw [h0] at this
      obtain ⟨w, hw, -⟩ := this
      cases hw
    unfold skyHatch
    cases hw : whContinuous (i :: l) with
    | nil => exact absurd hw hne
    | cons a as => simp only [hw]
  rw [this]

/-- **C180** (false): without a model nothing is drawn, although the panels are laid out for it. -/
theorem C180_false_none {r c : Nat} (s : Fit2D r c) (hk : s.kinModel = none) (g : BestfitPlotIn) :
    bestfitPlot g s = .error .attributeError := by
  unfold bestfitPlot
  rw [hk]

/-- the hypotheses of C180 are met after a fit -/
example (d : Disk 1 2) : ∃ s1 d1 p, oneFit.fit peakOne oneRun none d = (s1, d1, .ok ()) ∧ bestfitPlot onePlot s1 = .ok p := by
  obtain ⟨s1, d1, h⟩ := one_fit_ok d
  obtain ⟨k, b, sh, -, -, -, h4, -⟩ := C180_plot_partial _ _ _ _ _ _ _ h onePlot [] rfl rfl rfl
  obtain ⟨p, hp, -⟩ := h4 rfl
  exact ⟨s1, d1, p, h, hp⟩

/-! ## C181: the ellipse over the convolved image -/

/-- **C181**: the half axes of the ellipse after convolution are the square roots of the sums of the squares of the half axis and of half
the width of the point spread function; the new axis ratio is between the intrinsic one and one, equal to one of them only without
convolution, for a round galaxy or for a galaxy of no size. -/
theorem C181_ellipse (re q fwhm : ℝ) (hre : 0 < re) (hq0 : 0 ≤ q) (hq1 : q ≤ 1) :
    convolvedRadius re fwhm = Real.sqrt (re ^ 2 + (fwhm / 2) ^ 2) ∧
    q ≤ convolvedRatio re q fwhm ∧ convolvedRatio re q fwhm ≤ 1 ∧
    (convolvedRatio re q fwhm = q ↔ fwhm = 0 ∨ q = 1) ∧ (convolvedRatio re q fwhm = 1 ↔ q = 1) := by
  have hr : convolvedRatio re q fwhm = Real.sqrt (((re * q) ^ 2 + (fwhm / 2) ^ 2) / (re ^ 2 + (fwhm / 2) ^ 2)) := by
    unfold convolvedRatio
    rw [convolvedRadius_eq, convolvedRadius_eq, Real.sqrt_div (by positivity)]
  have hD : 0 < re ^ 2 + (fwhm / 2) ^ 2 := by positivity
  have hq2 : q ^ 2 ≤ 1 := by nlinarith
  have e1 : Real.sqrt (q ^ 2) = q := Real.sqrt_sq hq0
  refine ⟨convolvedRadius_eq re fwhm, ?_, ?_, ?_, ?_⟩
  · rw [hr]
    refine Real.le_sqrt_of_sq_le ?_
    rw [le_div_iff₀ hD]
    nlinarith [mul_nonneg (sub_nonneg.2 hq2) (sq_nonneg (fwhm / 2))]
  · rw [hr]
    refine Real.sqrt_le_one.2 ?_
    rw [div_le_one hD]
    nlinarith [mul_nonneg (sub_nonneg.2 hq2) (sq_nonneg re)]
  · rw [hr]
    constructor
    · intro h
      have h2 : ((re * q) ^ 2 + (fwhm / 2) ^ 2) / (re ^ 2 + (fwhm / 2) ^ 2) = q ^ 2 := by
        rw [← Real.sq_sqrt (show 0 ≤ ((re * q) ^ 2 + (fwhm / 2) ^ 2) / (re ^ 2 + (fwhm / 2) ^ 2) by positivity), h]
      rw [div_eq_iff hD.ne'] at h2
      have h3 : (fwhm / 2) ^ 2 * (1 - q ^ 2) = 0 := by nlinarith
      rcases mul_eq_zero.1 h3 with h4 | h4
      · left
        have := pow_eq_zero_iff (two_ne_zero) |>.1 h4
        linarith
      · right
        nlinarith
    · rintro (rfl | rfl)
      · rw [show ((re * q) ^ 2 + (0 / 2 : ℝ) ^ 2) / (re ^ 2 + (0 / 2) ^ 2) = q ^ 2 by field_simp; ring, e1]
      · rw [mul_one, div_self hD.ne', Real.sqrt_one]
  · rw [hr, Real.sqrt_eq_one, div_eq_one_iff_eq hD.ne']
    constructor
    · intro h
      have h3 : re ^ 2 * (1 - q ^ 2) = 0 := by nlinarith
      rcases mul_eq_zero.1 h3 with h4 | h4
      · exact absurd h4 (by positivity)
      · nlinarith
    · rintro rfl
      rw [mul_one]

/-- a case in between -/
example : (1 / 2 : ℝ) < convolvedRatio 1 (1 / 2) 1 ∧ convolvedRatio 1 (1 / 2) 1 < 1 := by
  obtain ⟨-, h1, h2, h3, h4⟩ := C181_ellipse 1 (1 / 2) 1 (by norm_num) (by norm_num) (by norm_num)
  constructor
  · refine lt_of_le_of_ne h1 fun h => ?_
    rcases h3.1 h.symm with h | h <;> norm_num at h
  · refine lt_of_le_of_ne h2 fun h => ?_
    have := h4.1 h
    norm_num at this

end Misfit
