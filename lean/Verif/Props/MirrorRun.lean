import Verif.Props.SameRun
import Verif.Props.FluxSign

/-!
# C242: the samples for a reversed spectrum are the mirrored samples

A sampling run on the spectrum reversed in wavelength, started from the mirrored walkers with the mirrored bounds, returns the samples of the run
on the spectrum with the sign of the rotation speed changed.
-/

namespace Misfit

/-- Specification: the first entry, the rotation speed, with the opposite sign. -/
def negHead {α : Type*} [Neg α] : List α → List α
  | [] => []
  | a :: l => -a :: l

/-- Specification: the bounds for the opposite rotation speed. -/
noncomputable def mirrorBounds : List (Option (Fl ℝ × Fl ℝ)) → List (Option (Fl ℝ × Fl ℝ))
  | some (lo, hi) :: bs => some (-hi, -lo) :: bs
  | bs => bs

/-- Specification: a walker seen through a map of the positions. -/
def Walker.through (T : List (Fl ℝ) → List (Fl ℝ)) (w : Walker ℝ) : Walker ℝ := ⟨T w.pos, w.prob⟩

/-- Specification: `mv'` does to the mapped ensemble what `mv` does to the ensemble. -/
def Move.Follows (T : List (Fl ℝ) → List (Fl ℝ)) (mv mv' : Move ℝ) : Prop :=
  mv'.walker = mv.walker ∧ mv'.threshold = mv.threshold ∧
    ∀ ens : List (Walker ℝ), mv'.proposal (ens.map (Walker.through T)) = T (mv.proposal ens)

/-- Specification: the results of a run with the positions mapped. -/
def SamplerDict.through (T : List (Fl ℝ) → List (Fl ℝ)) (d : SamplerDict (List (Fl ℝ)) (Fl ℝ)) : SamplerDict (List (Fl ℝ)) (Fl ℝ) :=
  ⟨d.chain.map (List.map T), d.lnprobability, d.flatchain.map T, d.flatlnprobability⟩

section
variable {T : List (Fl ℝ) → List (Fl ℝ)} {post post' : List (Fl ℝ) → Except PyErr (Fl ℝ)}

theorem evalPost_through (hp : ∀ x, post' (T x) = post x) (x : List (Fl ℝ)) :
    evalPost post' (T x) = (evalPost post x).map (Walker.through T) := by
  unfold evalPost
  rw [hp]
  cases post x with
  | error e => rfl
  | ok p =>
    simp only
    split <;> rfl

theorem moveOne_through (hp : ∀ x, post' (T x) = post x) (ens : List (Walker ℝ)) (mv mv' : Move ℝ) (h : mv.Follows T mv') :
    moveOne post' (ens.map (Walker.through T)) mv' = (moveOne post ens mv).map (List.map (Walker.through T)) := by
  obtain ⟨h1, h2, h3⟩ := h
  unfold moveOne
  rw [h1, h2, h3, List.getElem?_map, evalPost_through hp]
  cases ens[mv.walker]? with
  | none => rfl
  | some w =>
    simp only [Option.map_some]
    cases evalPost post (mv.proposal ens) with
    | error e => rfl
    | ok w' =>
      simp only [Except.map]
      show (if Fl.ltB mv.threshold (w'.prob - w.prob) = true then _ else _) = _
      split
      · simp only [List.map_set]
      · rfl

theorem stepEnsemble_through (hp : ∀ x, post' (T x) = post x) {ms ms' : List (Move ℝ)} (h : List.Forall₂ (Move.Follows T) ms ms') :
    ∀ ens : List (Walker ℝ), stepEnsemble post' (ens.map (Walker.through T)) ms' =
      (stepEnsemble post ens ms).map (List.map (Walker.through T)) := by
  induction h with
  | nil => intro ens; rfl
  | @cons mv mv' ms ms' h _ ih =>
    intro ens
    unfold stepEnsemble
    rw [moveOne_through hp ens mv mv' h]
    cases moveOne post ens mv with
    | error e => rfl
    | ok ens' => exact ih ens'

theorem startEnsemble_through (hp : ∀ x, post' (T x) = post x) : ∀ xs : List (List (Fl ℝ)),
    startEnsemble post' (xs.map T) = (startEnsemble post xs).map (List.map (Walker.through T))
  | [] => rfl
  | x :: xs => by
    rw [List.map_cons]
    unfold startEnsemble
    rw [evalPost_through hp, startEnsemble_through hp xs]
    cases evalPost post x with
    | error e => rfl
    | ok w =>
      cases startEnsemble post xs with
      | error e => rfl
      | ok ws => rfl

theorem burnIn_through (hp : ∀ x, post' (T x) = post x) {ms ms' : ℕ → List (Move ℝ)} (h : ∀ n, List.Forall₂ (Move.Follows T) (ms n) (ms' n)) :
    ∀ (rem k : ℕ) (ens : List (Walker ℝ)), burnIn post' ms' k rem (ens.map (Walker.through T)) =
      (burnIn post ms k rem ens).map (List.map (Walker.through T))
  | 0, _, _ => rfl
  | rem + 1, k, ens => by
    unfold burnIn
    rw [stepEnsemble_through hp (h k)]
    cases stepEnsemble post ens (ms k) with
    | error e => rfl
    | ok ens' => exact burnIn_through hp h rem (k + 1) ens'

theorem produce_through (hp : ∀ x, post' (T x) = post x) {ms ms' : ℕ → List (Move ℝ)} (h : ∀ n, List.Forall₂ (Move.Follows T) (ms n) (ms' n))
    (o : StopOpts ℝ) {diag diag' : List (List (Walker ℝ)) → StepDiag ℝ}
    (hd : ∀ hist, diag' (hist.map (List.map (Walker.through T))) = diag hist) :
    ∀ (rem ii : ℕ) (ens : List (Walker ℝ)) (hist : List (List (Walker ℝ))),
      produce o post' ms' diag' ii rem (ens.map (Walker.through T)) (hist.map (List.map (Walker.through T))) =
        (produce o post ms diag ii rem ens hist).map (List.map (List.map (Walker.through T)))
  | 0, _, _, _ => rfl
  | rem + 1, ii, ens, hist => by
    unfold produce
    rw [stepEnsemble_through hp (h ii)]
    cases stepEnsemble post ens (ms ii) with
    | error e => rfl
    | ok ens' =>
      simp only [Except.map]
      have e1 : hist.map (List.map (Walker.through T)) ++ [ens'.map (Walker.through T)] =
          (hist ++ [ens']).map (List.map (Walker.through T)) := by
        rw [List.map_append]
        rfl
      rw [e1, hd]
      split
      · rfl
      · exact produce_through hp h o hd rem (ii + 1) ens' (hist ++ [ens'])

theorem chainOf_through (nW : ℕ) (hist : List (List (Walker ℝ))) :
    chainOf nW (hist.map (List.map (Walker.through T))) = (chainOf nW hist).map (List.map (Walker.through T)) := by
  unfold chainOf
  rw [List.map_map]
  refine List.map_congr_left (fun w _ => ?_)
  simp only [Function.comp_apply]
  rw [List.filterMap_map, List.map_filterMap]
  congr 1
  funext ens
  simp only [Function.comp_apply, List.getElem?_map]

theorem dictOf_through (nW : ℕ) (hist : List (List (Walker ℝ))) :
    dictOf nW (hist.map (List.map (Walker.through T))) = (dictOf nW hist).through T := by
  have e1 : ((chainOf nW hist).map (List.map (Walker.through T))).map (List.map Walker.pos) =
      ((chainOf nW hist).map (List.map Walker.pos)).map (List.map T) := by
    simp only [List.map_map]
    refine List.map_congr_left (fun l _ => ?_)
    simp only [Function.comp_apply, List.map_map]
    rfl
  have e2 : ((chainOf nW hist).map (List.map (Walker.through T))).map (List.map Walker.prob) =
      (chainOf nW hist).map (List.map Walker.prob) := by
    simp only [List.map_map]
    refine List.map_congr_left (fun l _ => ?_)
    simp only [Function.comp_apply, List.map_map]
    rfl
  unfold dictOf
  rw [chainOf_through, e1, e2]
  unfold makeSamplerDict SamplerDict.through
  have e3 : ∀ l : List (List (List (Fl ℝ))), l.map (List.drop 0) = l := fun l => List.map_id'' (fun _ => rfl) l
  simp only [e3, List.map_flatten]

/-- **C242**: a run seen through a map of the positions: posterior, starting points, proposals, diagnostics and stored steps mapped, the samples are
mapped, the log-probabilities and exceptions the same. -/
theorem C242_equivariant (hp : ∀ x, post' (T x) = post x) (v : EmceeVersion) (o : RunOpts ℝ) (cpuCount : ℕ) (initial : List (List (Fl ℝ)))
    (bm bm' ms ms' : ℕ → List (Move ℝ)) (hb : ∀ n, List.Forall₂ (Move.Follows T) (bm n) (bm' n))
    (hm : ∀ n, List.Forall₂ (Move.Follows T) (ms n) (ms' n)) (diag diag' : List (List (Walker ℝ)) → StepDiag ℝ)
    (hd : ∀ hist, diag' (hist.map (List.map (Walker.through T))) = diag hist) (file : List (List (Walker ℝ))) :
    runMcmc v o cpuCount post' (initial.map T) bm' ms' diag' (file.map (List.map (Walker.through T))) =
      (runMcmc v o cpuCount post initial bm ms diag file).map (SamplerDict.through T) := by
  unfold runMcmc
  rw [startEnsemble_through hp]
  cases startEnsemble post initial with
  | error e => rfl
  | ok ens =>
    simp only [Except.map]
    rw [burnIn_through hp hb]
    cases burnIn post bm 0 o.nBurn ens with
    | error e => rfl
    | ok ens =>
      simp only [Except.map]
      have hst : storedBefore v o.overwrite (initial.map T).length (file.map (List.map (Walker.through T))) =
          (storedBefore v o.overwrite initial.length file).map (List.map (List.map (Walker.through T))) := by
        unfold storedBefore
        rw [List.length_map, List.all_map]
        split
        · rfl
        · have : (file.all ((fun e => e.length == initial.length) ∘ List.map (Walker.through T))) =
              file.all fun e => e.length == initial.length := by
            congr 1
            funext e
            simp only [Function.comp_apply, List.length_map]
          rw [this]
          split <;> rfl
      rw [hst]
      cases storedBefore v o.overwrite initial.length file with
      | error e => rfl
      | ok old =>
        simp only [Except.map]
        rw [produce_through hp hm o.stop hd]
        cases produce o.stop post ms diag 0 o.stop.nSteps ens old with
        | error e => rfl
        | ok hist =>
          simp only [Except.map, List.length_map]
          split
          · rfl
          · split
            · rfl
            · rw [dictOf_through]

end

/-! ## The prior -/

theorem leB_neg (a b : Fl ℝ) : Fl.leB (-a) (-b) = Fl.leB b a := by
  cases a <;> cases b <;> first | rfl | skip
  exact decide_eq_decide.2 neg_le_neg_iff

theorem between_neg (lo hi x : Fl ℝ) : between (-hi, -lo) (-x) = between (lo, hi) x := by
  unfold between
  simp only [leB_neg]
  exact Bool.and_comm _ _

theorem prior_mirror (n : ℕ) (vs : List Bool) (bounds : List (Option (Fl ℝ × Fl ℝ))) (fit : List (Fl ℝ)) :
    priorStatements (n + 1) (true :: vs) (mirrorBounds bounds) (negHead fit) = priorStatements (n + 1) (true :: vs) bounds fit := by
  rcases bounds with _ | ⟨_ | ⟨lo, hi⟩, bs⟩ <;> rcases fit with _ | ⟨x, xs⟩ <;> first | rfl | skip
  simp only [mirrorBounds, negHead, priorStatements, between_neg]

theorem negHead_map_fin (fit : List ℝ) : (negHead fit).map (Fl.fin : ℝ → Fl ℝ) = negHead (fit.map Fl.fin) := by
  cases fit <;> rfl

theorem finVal_neg (a : Fl ℝ) : Fl.finVal (-a) = -Fl.finVal a := by
  cases a <;> first | rfl | exact neg_zero.symm

theorem negHead_map_finVal (x : List (Fl ℝ)) : (negHead x).map Fl.finVal = negHead (x.map Fl.finVal) := by
  cases x with
  | nil => rfl
  | cons a l =>
    simp only [negHead, List.map_cons, finVal_neg]

theorem negHead_length {α : Type*} [Neg α] (l : List α) : (negHead l).length = l.length := by cases l <;> rfl

variable {r c : ℕ}

/-- **C242**: the posterior of the reversed data at the opposite speed, with the mirrored bounds, is the posterior of the data: for all fitting
vectors. -/
theorem C242_posterior (g : KinInput r c) (kin : KinProfile) (hk : kin.shape = (some 2, some 1)) (ns : Bool) (ts : List ℝ) (vs : List Bool)
    (shift z : ℝ) (hl : (true :: vs).length = ts.length) (f0 f0' : List ℝ) (calls calls' : List (KinCall r c))
    (m0 m1 m1' : KinModelState r c)
    (hm0 : m0 = KinModelState.init (ts ++ [shift, z]) (true :: vs ++ [false, false]) kin ns) (hm1 : m1 = (m0.make g f0).1)
    (hm1' : m1' = (m0.make (g.flip false) f0').1)
    (h0 : (m0.make g f0).2 = .ok ()) (h0' : (m0.make (g.flip false) f0').2 = .ok ())
    (hall : g.cfg.adaptive = true → AllOk m1 calls ∧ AllOk m1' calls') (hline : LineInMiddle g.aperCfg z)
    (bounds : List (Option (Fl ℝ × Fl ℝ))) (hb : ∀ i : Nat, (true :: vs)[i]? = some true → ∃ b, bounds[i]? = some (some b))
    (hp : BoundsPhysical ts (true :: vs) shift bounds) (fit : List ℝ) :
    ((m1'.run calls').lnprob (mirrorBounds bounds) (negHead fit)).2 = ((m1.run calls).lnprob bounds fit).2 := by
  have hpr : ∀ n, priorStatements (n + 1) (true :: vs) (mirrorBounds bounds) ((negHead fit).map Fl.fin) =
      priorStatements (n + 1) (true :: vs) bounds (fit.map Fl.fin) := fun n => by
    rw [negHead_map_fin]
    exact prior_mirror n vs bounds _
  have hpr2 : priorStatements ((true :: vs).length + 2) (true :: vs ++ [false, false]) (mirrorBounds bounds) ((negHead fit).map Fl.fin) =
      priorStatements ((true :: vs).length + 2) (true :: vs ++ [false, false]) bounds (fit.map Fl.fin) := by
    rw [negHead_map_fin]
    exact prior_mirror (vs.length + 2) (vs ++ [false, false]) bounds _
  have hbm : ∀ i : Nat, (true :: vs)[i]? = some true → ∃ b, (mirrorBounds bounds)[i]? = some (some b) := by
    intro i hi
    obtain ⟨b, h⟩ := hb i hi
    rcases bounds with _ | ⟨_ | ⟨lo, hi⟩, bs⟩
    · exact ⟨b, h⟩
    · exact ⟨b, h⟩
    · cases i with
      | zero => exact ⟨_, rfl⟩
      | succ i => exact ⟨b, h⟩
  by_cases hf : fit.length = (true :: vs).count true
  · have hf' : (negHead fit).length = (true :: vs).count true := by rw [negHead_length]; exact hf
    have hin : InBounds (true :: vs).length (true :: vs) bounds (fit.map Fl.fin) ↔
        InBounds (true :: vs).length (true :: vs) (mirrorBounds bounds) ((negHead fit).map Fl.fin) := by
      obtain ⟨st, hst⟩ := priorStatements_ok (true :: vs).length (true :: vs) bounds (fit.map Fl.fin) le_rfl
        (by rw [List.take_length, List.length_map, hf]) (fun i _ hi => hb i hi)
      have h1 := priorStatements_spec _ _ _ _ _ hst
      have h2 := priorStatements_spec _ _ _ _ _ ((hpr vs.length).trans hst)
      exact h1.symm.trans h2
    by_cases hi : InBounds (true :: vs).length (true :: vs) bounds (fit.map Fl.fin)
    · obtain ⟨va, rt, sig, hfull, -, hs⟩ := hp fit hf hi
      have hneg : (updateParameters (ts ++ [shift, z]) (true :: vs ++ [false, false]) (negHead fit)).1 = [-va, rt, sig, shift, z] := by
        have h := hfull z
        cases fit with
        | nil => simp at hf
        | cons a l =>
          cases ts with
          | nil => simp at hl
          | cons t ts =>
            simp only [List.cons_append, updateParameters, negHead] at h ⊢
            injection h with h1 h2
            rw [h1, h2]
      exact (C241_posterior g kin hk ns ts ts (true :: vs) shift z hl hl f0 f0' calls calls' m0 m1 m0 m1' hm0 hm1 hm0 hm1' h0 h0' hall bounds
        (mirrorBounds bounds) hb hbm fit (negHead fit) hf hf' hin va rt sig (hfull z) hneg hline hs.ne').symm
    · rw [(post_of_like g ts (true :: vs) shift z kin ns hl f0 calls m0 m1 hm0 hm1 h0 (fun h => (hall h).1) bounds hb fit hf).1 hi,
        (post_of_like (g.flip false) ts (true :: vs) shift z kin ns hl f0' calls' m0 m1' hm0 hm1' h0' (fun h => (hall h).2)
          (mirrorBounds bounds) hbm (negHead fit) hf').1 (fun h => hi (hin.2 h))]
  · rw [post_wrong_length g ts (true :: vs) shift z kin ns hl f0 calls m0 m1 hm0 hm1 h0 (fun h => (hall h).1) bounds fit hf,
      post_wrong_length (g.flip false) ts (true :: vs) shift z kin ns hl f0' calls' m0 m1' hm0 hm1' h0' (fun h => (hall h).2)
        (mirrorBounds bounds) (negHead fit) (by rw [negHead_length]; exact hf), hpr2]

/-- **C242**: a sampling run on the reversed data with mirrored starting points, proposals and bounds returns the samples of the run on the
data with the sign of the speed changed and the same log-probabilities, or ends in the same exception. -/
theorem C242_run (g : KinInput r c) (kin : KinProfile) (hk : kin.shape = (some 2, some 1)) (ns : Bool) (ts : List ℝ) (vs : List Bool)
    (shift z : ℝ) (hl : (true :: vs).length = ts.length) (f0 f0' : List ℝ) (calls calls' : List (KinCall r c))
    (m0 m1 m1' : KinModelState r c)
    (hm0 : m0 = KinModelState.init (ts ++ [shift, z]) (true :: vs ++ [false, false]) kin ns) (hm1 : m1 = (m0.make g f0).1)
    (hm1' : m1' = (m0.make (g.flip false) f0').1)
    (h0 : (m0.make g f0).2 = .ok ()) (h0' : (m0.make (g.flip false) f0').2 = .ok ())
    (hall : g.cfg.adaptive = true → AllOk m1 calls ∧ AllOk m1' calls') (hline : LineInMiddle g.aperCfg z)
    (bounds : List (Option (Fl ℝ × Fl ℝ))) (hb : ∀ i : Nat, (true :: vs)[i]? = some true → ∃ b, bounds[i]? = some (some b))
    (hp : BoundsPhysical ts (true :: vs) shift bounds) (v : EmceeVersion) (o : RunOpts ℝ) (cpuCount : Nat)
    (initial : List (List (Fl ℝ))) (burnMoves burnMoves' moves moves' : Nat → List (Move ℝ))
    (hbm : ∀ n, List.Forall₂ (Move.Follows negHead) (burnMoves n) (burnMoves' n))
    (hm : ∀ n, List.Forall₂ (Move.Follows negHead) (moves n) (moves' n))
    (diag diag' : List (List (Walker ℝ)) → StepDiag ℝ) (hd : ∀ hist, diag' (hist.map (List.map (Walker.through negHead))) = diag hist)
    (file : List (List (Walker ℝ))) :
    runMcmc v o cpuCount (fun x => ((m1'.run calls').lnprob (mirrorBounds bounds) (x.map Fl.finVal)).2) (initial.map negHead) burnMoves'
        moves' diag' (file.map (List.map (Walker.through negHead))) =
      (runMcmc v o cpuCount (fun x => ((m1.run calls).lnprob bounds (x.map Fl.finVal)).2) initial burnMoves moves diag file).map
        (SamplerDict.through negHead) := by
  refine C242_equivariant (fun x => ?_) v o cpuCount initial burnMoves burnMoves' moves moves' hbm hm diag diag' hd file
  simp only [negHead_map_finVal]
  exact C242_posterior g kin hk ns ts vs shift z hl f0 f0' calls calls' m0 m1 m1' hm0 hm1 hm1' h0 h0' hall hline bounds hb hp _

/-! ## The hypotheses are met -/

/-- Specification: the stretch move of emcee: walker `i` along the line through walker `j`, `k` times as far. -/
noncomputable def stretchMove (i j : ℕ) (k : ℝ) (thr : Fl ℝ) : Move ℝ where
  walker := i
  proposal := fun ens => match ens[i]?, ens[j]? with
    | some w, some u => List.zipWith (fun x y => y + .fin k * (x - y)) w.pos u.pos
    | _, _ => []
  threshold := thr

/-- **C242**: the stretch move does the same to the mirrored walkers -/
theorem C242_stretch (i j : ℕ) (k : ℝ) (thr : Fl ℝ) : (stretchMove i j k thr).Follows negHead (stretchMove i j k thr) := by
  refine ⟨rfl, rfl, fun ens => ?_⟩
  unfold stretchMove
  simp only [List.getElem?_map]
  cases ens[i]? with
  | none => rfl
  | some w =>
    cases ens[j]? with
    | none => rfl
    | some u =>
      obtain ⟨p, q⟩ := w
      obtain ⟨p', q'⟩ := u
      simp only [Option.map_some, Walker.through]
      cases p with
      | nil => cases p' <;> rfl
      | cons a l =>
        cases p' with
        | nil => rfl
        | cons b l' =>
          simp only [negHead, List.zipWith_cons_cons, Fl.neg_sub_neg', Fl.mul_neg', Fl.neg_add']

/-- all runs of stretch moves on the reversed spectrum -/
example (calls calls' : List (KinCall 3 2)) (v : EmceeVersion) (o : RunOpts ℝ) (cpuCount : Nat) (initial : List (List (Fl ℝ)))
    (i j : ℕ → ℕ) (k : ℕ → ℝ) (thr : ℕ → Fl ℝ) (d : ℕ → StepDiag ℝ) (file : List (List (Walker ℝ))) :
    runMcmc v o cpuCount (fun x => (((flipObject.make (flipFit.flip false) [1, 1, 1]).1.run calls').lnprob (mirrorBounds threeBounds)
        (x.map Fl.finVal)).2) (initial.map negHead) (fun n => [stretchMove (i n) (j n) (k n) (thr n)])
        (fun n => [stretchMove (i n) (j n) (k n) (thr n)]) (fun h => d h.length) (file.map (List.map (Walker.through negHead))) =
      (runMcmc v o cpuCount (fun x => (((flipObject.make flipFit [1, 1, 1]).1.run calls).lnprob threeBounds (x.map Fl.finVal)).2) initial
        (fun n => [stretchMove (i n) (j n) (k n) (thr n)]) (fun n => [stretchMove (i n) (j n) (k n) (thr n)]) (fun h => d h.length)
        file).map (SamplerDict.through negHead) :=
  C242_run flipFit _ rfl false [1, 1, 1] [true, true] 0 (1 / 2) rfl [1, 1, 1] [1, 1, 1] calls calls' _ _ _ rfl rfl rfl (flip_ready false).1
    (flip_ready false).2 (fun h => by cases h) flip_line threeBounds threeBounds_given threeBounds_physical v o cpuCount initial _ _ _ _
    (fun _ => .cons (C242_stretch _ _ _ _) .nil) (fun _ => .cons (C242_stretch _ _ _ _) .nil) _ _
    (fun hist => by simp only [List.length_map]) file

end Misfit
