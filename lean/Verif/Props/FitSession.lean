import Verif.Lemmas.FitSession
import Verif.Props.Fit2D

/-!
# C226: several 2D fits with shared profile objects
-/

namespace Misfit
variable {r c : Nat}

/-- Specification: the number of fits created -/
def creations : List SessOp → Nat
  | [] => 0
  | .create _ :: ops => creations ops + 1
  | .call _ _ :: ops => creations ops

/-- Specification: the calls on fit `i`, in order -/
def callsOn (i : Nat) (r c : Nat) : List SessOp → List (FitCall r c)
  | [] => []
  | .create _ :: ops => callsOn i r c ops
  | .call j f :: ops => if j = i then f r c :: callsOn i r c ops else callsOn i r c ops

/-- Specification: galaxy, settings, prior, linked parameters, samples, results, and parameters, names, image, likelihood and best model of the
kinematic model are the same. -/
structure FitAgrees (s s' : Fit2D r c) : Prop where
  input : s'.input = s.input
  settings : s'.settings = s.settings
  prior : s'.prior = s.prior
  linked : s'.linked = s.linked
  sampler : s'.sampler = s.sampler
  results : s'.results = s.results
  model : s'.kinModel.map (fun k => (k.m.params, k.names, k.m.model, k.m.llike, k.bestfit)) =
    s.kinModel.map fun k => (k.m.params, k.names, k.m.model, k.m.llike, k.bestfit)

theorem FitTwin.same {sh : Option Nat × Option Nat} {s s' : Fit2D r c} (h : FitTwin sh s s') : FitAgrees s s' := by
  obtain ⟨kp, km, rfl, h1, h2, ⟨h3, rfl⟩ | ⟨k, m', h3, rfl, h4⟩⟩ := h
  · exact ⟨rfl, rfl, rfl, rfl, rfl, rfl, by rw [h3]⟩
  · refine ⟨rfl, rfl, rfl, rfl, rfl, rfl, ?_⟩
    rw [h3]
    have hl : m'.llike = k.m.llike := by
      unfold KinModelState.llike
      rw [h4.model]
      rcases h4.aper with ⟨e1, e2⟩ | ⟨g, a, a', e1, e2, e3⟩
      · rw [e1, e2]
      · rw [e1, e2]
        cases k.m.model <;> rfl
    simp only [Option.map_some, h4.params, h4.model, hl]

theorem creations_length (o : PeakFinder) : ∀ (ops : List SessOp) (w : Session), (w.run o ops).fits.length = w.fits.length + creations ops := by
  intro ops
  induction ops with
  | nil => intro w; rfl
  | cons op ops ih =>
    intro w
    show ((w.step o op).run o ops).fits.length = _
    rw [ih]
    cases op with
    | create x =>
      show (w.fits ++ [x]).length + creations ops = w.fits.length + (creations ops + 1)
      rw [List.length_append, List.length_singleton]
      omega
    | call i f =>
      show _ + creations ops = w.fits.length + creations ops
      congr 1
      unfold Session.step
      dsimp only
      split
      · rfl
      · exact List.length_set

theorem valid_run (o : PeakFinder) : ∀ (ops : List SessOp) (w : Session), w.Valid →
    (∀ y, SessOp.create y ∈ ops → FitTwin (w.kin y.kinRef).shape y.fit y.fit) →
    (w.run o ops).Valid ∧ ∀ k, ((w.run o ops).kin k).shape = (w.kin k).shape := by
  intro ops
  induction ops with
  | nil => exact fun w h _ => ⟨h, fun _ => rfl⟩
  | cons op ops ih =>
    intro w hv hc
    obtain ⟨h1, h2⟩ := hv.step o op fun y hy => hc y (by rw [hy]; exact List.mem_cons_self)
    obtain ⟨h3, h4⟩ := ih (w.step o op) h1 fun y hy => by rw [h2]; exact hc y (List.mem_cons_of_mem _ hy)
    exact ⟨h3, fun k => (h4 k).trans (h2 k)⟩

theorem session_follow (o : PeakFinder) (x : SessFit) (hok : x.fit.setupModel.2 = .ok ()) (i : Nat) : ∀ (ops : List SessOp) (w : Session)
    (s s' : Fit2D x.r x.c) (d d' : Disk x.r x.c), w.Valid →
    (∀ y, SessOp.create y ∈ ops → FitTwin (w.kin y.kinRef).shape y.fit y.fit) →
    w.fits[i]? = some { x with fit := s', disk := d' } → FitTwin (w.kin x.kinRef).shape s s' → d'.samples = d.samples →
    FitInv x.fit s → s.Ready →
    ∃ s'' d'', (w.run o ops).fits[i]? = some { x with fit := s'', disk := d'' } ∧
      FitTwin (w.kin x.kinRef).shape (Fit2D.runCalls o (s, d) (callsOn i x.r x.c ops)).1 s'' ∧
      d''.samples = (Fit2D.runCalls o (s, d) (callsOn i x.r x.c ops)).2.samples ∧
      (Fit2D.runCalls o (s, d) (callsOn i x.r x.c ops)).1.Ready := by
  intro ops
  induction ops with
  | nil => exact fun w s s' d d' _ _ h1 h2 h3 _ h4 => ⟨s', d', h1, h2, h3, h4⟩
  | cons op ops ih =>
    intro w s s' d d' hv hc h1 h2 h3 hi hr
    obtain ⟨v1, v2⟩ := hv.step o op fun y hy => hc y (by rw [hy]; exact List.mem_cons_self)
    have hc' : ∀ y, SessOp.create y ∈ ops → FitTwin ((w.step o op).kin y.kinRef).shape y.fit y.fit := fun y hy => by
      rw [v2]; exact hc y (List.mem_cons_of_mem _ hy)
    have hlt : i < w.fits.length := by
      by_contra hge
      rw [List.getElem?_eq_none (by omega)] at h1
      cases h1
    show ∃ s'' d'', ((w.step o op).run o ops).fits[i]? = _ ∧ _
    rw [← v2 x.kinRef] at h2
    cases op with
    | create y =>
      refine v2 x.kinRef ▸ ih (w.step o (.create y)) s s' d d' v1 hc' ?_ h2 h3 hi hr
      show (w.fits ++ [y])[i]? = _
      rw [List.getElem?_append_left hlt]
      exact h1
    | call j f =>
      by_cases hj : j = i
      · subst hj
        rw [v2 x.kinRef] at h2
        have e : callsOn j x.r x.c (.call j f :: ops) = f x.r x.c :: callsOn j x.r x.c ops := if_pos rfl
        rw [e]
        set t := s'.withKin (w.kin x.kinRef) with ht
        have tw : FitTwin (w.kin x.kinRef).shape s t := h2.withKin _ rfl
        set l := (if (f x.r x.c).setsLight t then Function.update w.light x.lightRef s'.input.cfg.int else w.light) x.lightRef with hl
        obtain ⟨o1, o2, -⟩ := opened_step tw.right (tw.ready hr) o d' (f x.r x.c) l fun hs => by
          rw [hl, if_pos hs, Function.update_self]
          rfl
        obtain ⟨p1, p2, -⟩ := tw.step o h3 (f x.r x.c)
        have hst : (w.step o (.call j f)).fits[j]? = some { x with fit := ((f x.r x.c).step o (t, d')).1, disk := ((f x.r x.c).step o (t.withLight l, d')).2 } := by
          unfold Session.step
          simp only [h1]
          rw [List.getElem?_set_self hlt]
          rw [← o1]
          rfl
        refine v2 x.kinRef ▸ ih (w.step o (.call j f)) _ _ _ _ v1 hc' hst ?_ ?_ ?_ ?_
        · rw [v2]; exact p1
        · rw [o2]; exact p2
        · exact FitInv.step o (s, d) hi _
        · exact Fit2D.Ready.step hok hi hr o d _
      · have e : callsOn i x.r x.c (.call j f :: ops) = callsOn i x.r x.c ops := if_neg hj
        rw [e]
        refine v2 x.kinRef ▸ ih (w.step o (.call j f)) s s' d d' v1 hc' ?_ h2 h3 hi hr
        unfold Session.step
        dsimp only
        split
        · exact h1
        · dsimp only
          rw [List.getElem?_set_ne hj]
          exact h1

/-- **C226**: fits that share their kinematic and intensity profile objects (as all fits created with the defaults do) can be created, set up, evaluated,
fitted, analysed and saved in any order.  A fit whose set-up works ends up with the same galaxy, settings, prior, samples, results, parameters,
image, likelihood and best model, and the same samples file, as if it had been used alone; and every next call on it ends in the same way, with the
same exception if there is one. -/
theorem C226_alternate (o : PeakFinder) (w : Session) (hw : w.fits = []) (pre post : List SessOp) (x : SessFit)
    (hnew : ∀ y, SessOp.create y ∈ pre ++ .create x :: post → y.fit.kinModel = none ∧ y.fit.kinProfile.shape = (w.kin y.kinRef).shape)
    (hok : x.fit.setupModel.2 = .ok ()) (w' : Session) (hw' : w' = w.run o (pre ++ .create x :: post))
    (solo : Fit2D x.r x.c × Disk x.r x.c) (hsolo : solo = Fit2D.runCalls o (x.fit, x.disk) (callsOn (creations pre) x.r x.c post)) :
    (∃ s d, w'.fits[creations pre]? = some ⟨x.r, x.c, s, d, x.lightRef, x.kinRef⟩ ∧ FitAgrees solo.1 s ∧ d.samples = solo.2.samples) ∧
    ∀ f : ∀ r c, FitCall r c, w'.outcome o (creations pre) f = (f x.r x.c).outcome o solo := by
  have hnew' : ∀ y, SessOp.create y ∈ pre ++ .create x :: post → FitTwin (w.kin y.kinRef).shape y.fit y.fit := fun y hy =>
    SessFit.New.twin (hnew y hy)
  have hv0 : w.Valid := fun y hy => by rw [hw] at hy; cases hy
  obtain ⟨v1, v2⟩ := valid_run o pre w hv0 fun y hy => hnew' y (List.mem_append_left _ hy)
  have hx := hnew' x (List.mem_append_right _ List.mem_cons_self)
  obtain ⟨v3, v4⟩ := v1.step o (.create x) fun y hy => by cases hy; rw [v2]; exact hx
  have hrun : w' = ((w.run o pre).step o (.create x)).run o post := by
    rw [hw']
    unfold Session.run
    rw [List.foldl_append]
    rfl
  have hfit : ((w.run o pre).step o (.create x)).fits[creations pre]? = some { x with fit := x.fit, disk := x.disk } := by
    show ((w.run o pre).fits ++ [x])[creations pre]? = some x
    have hlen := creations_length o pre w
    rw [hw, List.length_nil, Nat.zero_add] at hlen
    rw [← hlen, List.getElem?_append_right le_rfl, Nat.sub_self]
    rfl
  have hc : ∀ y, SessOp.create y ∈ post → FitTwin (((w.run o pre).step o (.create x)).kin y.kinRef).shape y.fit y.fit := fun y hy => by
    rw [v4, v2]
    exact hnew' y (List.mem_append_right _ (List.mem_cons_of_mem _ hy))
  have hx' : FitTwin (((w.run o pre).step o (.create x)).kin x.kinRef).shape x.fit x.fit := by rw [v4, v2]; exact hx
  have hn := (hnew x (List.mem_append_right _ List.mem_cons_self)).1
  have hready : x.fit.Ready := fun k hk => by rw [hn] at hk; cases hk
  obtain ⟨s, d, q1, q2, q3, q4⟩ := session_follow o x hok (creations pre) post _ x.fit x.fit x.disk x.disk v3 hc hfit hx' rfl
    (FitInv.refl x.fit hn) hready
  rw [← hrun] at q1
  rw [← hsolo] at q2 q3 q4
  refine ⟨⟨s, d, q1, q2.same, q3⟩, fun f => ?_⟩
  have hsh : (w'.kin x.kinRef).shape = (((w.run o pre).step o (.create x)).kin x.kinRef).shape := by
    rw [hrun]
    exact (valid_run o post _ v3 hc).2 _
  have tw := q2.withKin (w'.kin x.kinRef) hsh
  have h1 := opened_step tw.right (tw.ready q4) o d (f x.r x.c)
    ((if (f x.r x.c).setsLight (s.withKin (w'.kin x.kinRef)) then Function.update w'.light x.lightRef s.input.cfg.int else w'.light) x.lightRef)
    fun hs => by
      rw [if_pos hs, Function.update_self]
      rfl
  have h2 := tw.step o (d := solo.2) (d' := d) q3 (f x.r x.c)
  unfold Session.outcome
  rw [q1]
  exact h1.2.2.trans h2.2.2

/-- The hypotheses are met: two fits with the same profile objects and different galaxies, used alternately. -/
example (o : PeakFinder) (d : Disk 1 2) (light : Nat → ℝ → ℝ → ℝ) (other : Fit2D 1 2) (ho : other = oneFit.withLight fun a _ => a) :
    ∃ w' : Session, w' = (⟨[], light, fun _ => oneFit.kinProfile⟩ : Session).run o
        ([.create ⟨1, 2, oneFit, d, 0, 0⟩, .create ⟨1, 2, other, d, 0, 0⟩, .call 0 fun _ _ => .setup, .call 1 fun _ _ => .setup,
          .call 0 fun _ _ => .make [100, 1, 40]]) ∧
      ∃ s d', w'.fits[0]? = some ⟨1, 2, s, d', 0, 0⟩ ∧ FitAgrees (oneFit.setupModel.1.makeModel [100, 1, 40]).1 s := by
  refine ⟨_, rfl, ?_⟩
  obtain ⟨⟨s, d', h1, h2, -⟩, -⟩ := C226_alternate o ⟨[], light, fun _ => oneFit.kinProfile⟩ rfl [] [.create ⟨1, 2, other, d, 0, 0⟩, .call 0 fun _ _ => .setup,
    .call 1 fun _ _ => .setup, .call 0 fun _ _ => .make [100, 1, 40]] ⟨1, 2, oneFit, d, 0, 0⟩ (by
      intro y hy
      simp only [List.nil_append, List.mem_cons, SessOp.create.injEq, List.not_mem_nil, or_false, reduceCtorEq] at hy
      rcases hy with rfl | rfl
      · exact ⟨rfl, rfl⟩
      · subst ho
        exact ⟨rfl, rfl⟩) one_setup_ok _ rfl _ rfl
  exact ⟨s, d', h1, h2⟩

end Misfit
