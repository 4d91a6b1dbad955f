import Verif.Props.MirrorRun
import Verif.Props.AngleUnits

/-!
# C168 for a whole sampling run

The samples of a run in another unit of angles are the samples with the turnover radius in that unit.
-/

namespace Misfit

/-- Specification: a position of the sampler in another unit of angles. -/
noncomputable def posInAngles (u : ℝ) (vary : List Bool) (x : List (Fl ℝ)) : List (Fl ℝ) :=
  if vary[1]? = some true then x.modify ((vary.take 1).count true) (Fl.fin u * ·) else x

theorem map_modify_swap {α β : Type*} (f : α → β) (g : α → α) (h : β → β) (H : ∀ a, f (g a) = h (f a)) :
    ∀ (n : ℕ) (l : List α), (l.modify n g).map f = (l.map f).modify n h
  | _, [] => by simp
  | 0, a :: l => by simp [H]
  | n + 1, a :: l => by
    simp only [List.modify_succ_cons, List.map_cons]
    rw [map_modify_swap f g h H n l]

theorem posInAngles_finVal {u : ℝ} (hu : 0 < u) (vary : List Bool) (x : List (Fl ℝ)) :
    (posInAngles u vary x).map Fl.finVal = fitInAngles u vary (x.map Fl.finVal) := by
  unfold posInAngles fitInAngles
  split
  · refine map_modify_swap _ _ _ (fun a => ?_) _ _
    rw [← Fl.scale_eq_mul hu]
    cases a <;> first | rfl | exact (mul_zero u).symm
  · rfl

variable {r c : ℕ}

/-- **C168** for a whole fit: a sampling run in another unit of angles, with starting points, proposals and bounds in that unit, returns the
samples with the turnover radius in that unit and the same log-probabilities, or ends in the same exception. -/
theorem C168_run (u : ℝ) (hu : 0 < u) (theta : List ℝ) (h4 : 4 ≤ theta.length) (vary : List Bool) (kin : KinProfile)
    (hk : kin.shape = (some 2, some 1)) (calls calls' : List (KinCall r c))
    (hcalls : List.Forall₂ (KinCall.InAngles u vary) calls calls') (m0 m0' : KinModelState r c)
    (hm0 : m0 = KinModelState.init theta vary kin false)
    (hm0' : m0' = KinModelState.init (thetaInAngles u theta) vary kin false)
    (bounds : List (Option (Fl ℝ × Fl ℝ))) (v : EmceeVersion) (o : RunOpts ℝ) (cpuCount : Nat)
    (initial : List (List (Fl ℝ))) (burnMoves burnMoves' moves moves' : Nat → List (Move ℝ))
    (hb : ∀ n, List.Forall₂ (Move.Follows (posInAngles u vary)) (burnMoves n) (burnMoves' n))
    (hm : ∀ n, List.Forall₂ (Move.Follows (posInAngles u vary)) (moves n) (moves' n))
    (diag diag' : List (List (Walker ℝ)) → StepDiag ℝ)
    (hd : ∀ hist, diag' (hist.map (List.map (Walker.through (posInAngles u vary)))) = diag hist) (file : List (List (Walker ℝ))) :
    runMcmc v o cpuCount (fun x => ((m0'.run calls').lnprob (boundsInAngles u bounds) (x.map Fl.finVal)).2)
        (initial.map (posInAngles u vary)) burnMoves' moves' diag' (file.map (List.map (Walker.through (posInAngles u vary)))) =
      (runMcmc v o cpuCount (fun x => ((m0.run calls).lnprob bounds (x.map Fl.finVal)).2) initial burnMoves moves diag file).map
        (SamplerDict.through (posInAngles u vary)) := by
  refine C242_equivariant (fun x => ?_) v o cpuCount initial burnMoves burnMoves' moves moves' hb hm diag diag' hd file
  simp only [posInAngles_finVal hu]
  exact C168_posterior u hu theta h4 vary kin hk calls calls' hcalls m0 m0' hm0 hm0' bounds _

/-! ## The hypotheses are met -/

theorem zipWith_modify {α : Type*} (f : α → α → α) (g : α → α) (H : ∀ a b, f (g a) (g b) = g (f a b)) :
    ∀ (n : ℕ) (l l' : List α), List.zipWith f (l.modify n g) (l'.modify n g) = (List.zipWith f l l').modify n g
  | _, [], _ => by simp
  | _, _ :: _, [] => by simp
  | 0, a :: l, b :: l' => by simp [H]
  | n + 1, a :: l, b :: l' => by
    simp only [List.modify_succ_cons, List.zipWith_cons_cons]
    rw [zipWith_modify f g H n l l']

theorem stretch_scale {u : ℝ} (hu : 0 < u) (k : ℝ) (x y : Fl ℝ) :
    (Fl.fin u * y) + .fin k * ((Fl.fin u * x) - (Fl.fin u * y)) = Fl.fin u * (y + .fin k * (x - y)) := by
  have hn : ∀ a : Fl ℝ, -Fl.scale u a = Fl.scale u (-a) := fun a => by
    cases a <;> first | rfl | exact congrArg Fl.fin (mul_neg _ _).symm
  simp only [← Fl.scale_eq_mul hu]
  rw [Fl.scale_add]
  congr 1
  rw [← Fl.mul_scale hu]
  congr 1
  show Fl.scale u x + -Fl.scale u y = Fl.scale u (x + -y)
  rw [Fl.scale_add, hn]

/-- **C168**: the stretch move does the same in every unit of angles -/
theorem C168_stretch (u : ℝ) (hu : 0 < u) (vary : List Bool) (i j : ℕ) (k : ℝ) (thr : Fl ℝ) :
    (stretchMove i j k thr).Follows (posInAngles u vary) (stretchMove i j k thr) := by
  refine ⟨rfl, rfl, fun ens => ?_⟩
  have hnil : posInAngles u vary [] = [] := by
    unfold posInAngles
    split <;> simp
  unfold stretchMove
  simp only [List.getElem?_map]
  cases ens[i]? with
  | none => exact hnil.symm
  | some w =>
    cases ens[j]? with
    | none => exact hnil.symm
    | some w' =>
      simp only [Option.map_some, Walker.through]
      unfold posInAngles
      split
      · exact zipWith_modify _ _ (fun x y => stretch_scale hu k x y) _ _ _
      · rfl

/-- all runs of stretch moves after the calls of the example of `C168_posterior` -/
example (bounds : List (Option (Fl ℝ × Fl ℝ))) (v : EmceeVersion) (o : RunOpts ℝ) (cpuCount : Nat) (initial : List (List (Fl ℝ)))
    (i j : ℕ → ℕ) (k : ℕ → ℝ) (thr : ℕ → Fl ℝ) (d : ℕ → StepDiag ℝ) (file : List (List (Walker ℝ))) :
    let vary := [true, true, true, false, false]
    let kin : KinProfile := ⟨[], some ⟨[], 2⟩, some ⟨[], 1⟩⟩
    runMcmc v o cpuCount (fun x => (((KinModelState.init (thetaInAngles 2 [0, 1, 1, 0, 0]) vary kin false).run
        [KinCall.make { oneInput with cfg := { oneInput.cfg with pixscale := 2, slit := 2 } } [100, 2, 50],
          .update [120, 2, 60]]).lnprob (boundsInAngles 2 bounds) (x.map Fl.finVal)).2) (initial.map (posInAngles 2 vary))
        (fun n => [stretchMove (i n) (j n) (k n) (thr n)]) (fun n => [stretchMove (i n) (j n) (k n) (thr n)]) (fun h => d h.length)
        (file.map (List.map (Walker.through (posInAngles 2 vary)))) =
      (runMcmc v o cpuCount (fun x => (((KinModelState.init [0, 1, 1, 0, 0] vary kin false).run
        [KinCall.make oneInput [100, 1, 50], .update [120, 1, 60]]).lnprob bounds (x.map Fl.finVal)).2) initial
        (fun n => [stretchMove (i n) (j n) (k n) (thr n)]) (fun n => [stretchMove (i n) (j n) (k n) (thr n)]) (fun h => d h.length)
        file).map (SamplerDict.through (posInAngles 2 vary)) := by
  refine C168_run 2 two_pos _ (by simp) _ _ rfl _ _ ?_ _ _ rfl rfl bounds v o cpuCount initial _ _ _ _
    (fun _ => .cons (C168_stretch 2 two_pos _ _ _ _ _) .nil) (fun _ => .cons (C168_stretch 2 two_pos _ _ _ _ _) .nil) _ _
    (fun hist => by simp only [List.length_map]) file
  refine .cons ⟨⟨⟨?_, ?_, ?_, rfl, ?_, rfl, rfl, fun _ _ => rfl, rfl⟩, rfl, rfl⟩, ?_, ?_⟩ (.cons ?_ .nil)
  · simp [oneInput, oneCell]
  · simp [oneInput, oneCell]
  · simp [oneInput, oneCell]
  · simp [oneInput, oneCell]
  · simp [KinInput.HasCols, oneInput]
  · simp [fitInAngles]
  · simp [KinCall.InAngles, fitInAngles]

end Misfit
