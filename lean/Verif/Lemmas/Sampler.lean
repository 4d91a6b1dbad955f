import Verif.Model.Sampler
import Verif.Lemmas.Params

/-! Helper lemmas for `Verif.Props.Sampler`. -/

namespace Misfit
variable {K : Type*} [Field K] [LinearOrder K]

theorem ltB_ninf_sub (t b : Fl K) : Fl.ltB t (Fl.ninf - b) = false := by
  cases b with
  | fin y => change Fl.ltB t (Fl.add Fl.ninf (Fl.fin (-y))) = false; cases t <;> rfl
  | nan => change Fl.ltB t Fl.nan = false; cases t <;> rfl
  | pinf => change Fl.ltB t Fl.ninf = false; cases t <;> rfl
  | ninf => change Fl.ltB t Fl.nan = false; cases t <;> rfl

theorem evalPost_ok {post : List (Fl K) → Except PyErr (Fl K)} {x : List (Fl K)} {w : Walker K}
    (h : evalPost post x = .ok w) : w.pos = x ∧ post x = .ok w.prob ∧ w.prob ≠ .nan := by
  unfold evalPost at h
  split at h
  · simp at h
  · split at h
    · simp at h
    · rename_i hp hn
      simp only [Except.ok.injEq] at h
      subst h
      exact ⟨rfl, hp, hn⟩

/-- A predicate on walkers that holds of everything the sampler can accept. -/
def Accepts (post : List (Fl K) → Except PyErr (Fl K)) (P : Walker K → Prop) : Prop :=
  ∀ w : Walker K, post w.pos = .ok w.prob → w.prob ≠ .nan → w.prob ≠ .ninf → P w

theorem moveOne_inv {post : List (Fl K) → Except PyErr (Fl K)} {P : Walker K → Prop} (hP : Accepts post P)
    {ens ens' : List (Walker K)} {mv : Move K} (h : moveOne post ens mv = .ok ens')
    (hens : ∀ w ∈ ens, P w) : ens'.length = ens.length ∧ ∀ w ∈ ens', P w := by
  unfold moveOne at h
  split at h
  · simp at h
  · split at h
    · simp at h
    · rename_i w hw w' he
      split at h
      · rename_i hacc
        simp only [Except.ok.injEq] at h
        subst h
        refine ⟨List.length_set, fun x hx => ?_⟩
        rcases List.mem_or_eq_of_mem_set hx with hx | hx
        · exact hens x hx
        · subst hx
          obtain ⟨h1, h2, h3⟩ := evalPost_ok he
          refine hP _ (by rw [h1]; exact h2) h3 (fun hn => ?_)
          rw [hn, ltB_ninf_sub] at hacc
          simp at hacc
      · simp only [Except.ok.injEq] at h
        subst h
        exact ⟨rfl, hens⟩

theorem stepEnsemble_inv {post : List (Fl K) → Except PyErr (Fl K)} {P : Walker K → Prop} (hP : Accepts post P) :
    ∀ (ms : List (Move K)) {ens ens' : List (Walker K)}, stepEnsemble post ens ms = .ok ens' →
      (∀ w ∈ ens, P w) → ens'.length = ens.length ∧ ∀ w ∈ ens', P w
  | [], ens, ens', h, hens => by
      simp only [stepEnsemble, Except.ok.injEq] at h
      subst h
      exact ⟨rfl, hens⟩
  | mv :: rest, ens, ens', h, hens => by
      unfold stepEnsemble at h
      split at h
      · simp at h
      · rename_i e1 h1
        obtain ⟨hl, hm⟩ := moveOne_inv hP h1 hens
        obtain ⟨hl', hm'⟩ := stepEnsemble_inv hP rest h hm
        exact ⟨hl'.trans hl, hm'⟩

theorem burnIn_inv {post : List (Fl K) → Except PyErr (Fl K)} {P : Walker K → Prop} (hP : Accepts post P)
    (moves : Nat → List (Move K)) : ∀ (rem k : Nat) {ens ens' : List (Walker K)},
      burnIn post moves k rem ens = .ok ens' →
      (∀ w ∈ ens, P w) → ens'.length = ens.length ∧ ∀ w ∈ ens', P w
  | 0, _, ens, ens', h, hens => by
      simp only [burnIn, Except.ok.injEq] at h
      subst h
      exact ⟨rfl, hens⟩
  | rem + 1, k, ens, ens', h, hens => by
      unfold burnIn at h
      split at h
      · simp at h
      · rename_i e1 h1
        obtain ⟨hl, hm⟩ := stepEnsemble_inv hP _ h1 hens
        obtain ⟨hl', hm'⟩ := burnIn_inv hP moves rem (k + 1) h hm
        exact ⟨hl'.trans hl, hm'⟩

theorem startEnsemble_ok {post : List (Fl K) → Except PyErr (Fl K)} :
    ∀ (xs : List (List (Fl K))) {ens : List (Walker K)}, startEnsemble post xs = .ok ens →
      ens.map Walker.pos = xs ∧ ∀ w ∈ ens, post w.pos = .ok w.prob
  | [], ens, h => by
      simp only [startEnsemble, Except.ok.injEq] at h
      subst h
      exact ⟨rfl, fun w hw => absurd hw (by simp)⟩
  | x :: xs, ens, h => by
      unfold startEnsemble at h
      split at h
      · simp at h
      · rename_i w hw
        split at h
        · simp at h
        · rename_i ws hws
          simp only [Except.ok.injEq] at h
          subst h
          obtain ⟨h1, h2⟩ := startEnsemble_ok xs hws
          obtain ⟨h3, h4, _⟩ := evalPost_ok hw
          refine ⟨by simp [h1, h3], fun y hy => ?_⟩
          rcases List.mem_cons.1 hy with rfl | hy
          · rw [h3]; exact h4
          · exact h2 y hy

/-- What the production loop adds to the stored steps. -/
theorem produce_spec {post : List (Fl K) → Except PyErr (Fl K)} {P : Walker K → Prop} (hP : Accepts post P)
    (o : StopOpts K) (moves : Nat → List (Move K)) (diag : List (List (Walker K)) → StepDiag K) (b : Nat) :
    ∀ (rem ii : Nat) (last : Option Nat) {ens : List (Walker K)} {h0 hist : List (List (Walker K))},
      produce o post moves diag ii rem ens h0 = .ok hist → h0.length = b + ii → (∀ w ∈ ens, P w) →
      ∃ tail, hist = h0 ++ tail ∧ (∀ e ∈ tail, e.length = ens.length ∧ ∀ w ∈ e, P w) ∧
        sampleLoop o (fun j => diag (hist.take (b + j + 1))) last ii rem =
          if tail = [] then last else some (ii + tail.length - 1)
  | 0, ii, last, ens, h0, hist, h, hl, hens => by
      simp only [produce, Except.ok.injEq] at h
      subst h
      exact ⟨[], by simp, by simp, by simp [sampleLoop]⟩
  | rem + 1, ii, last, ens, h0, hist, h, hl, hens => by
      unfold produce at h
      split at h
      · simp at h
      · rename_i e1 h1
        obtain ⟨hl1, hm1⟩ := stepEnsemble_inv hP _ h1 hens
        split at h
        · rename_i hstop
          simp only [Except.ok.injEq] at h
          subst h
          refine ⟨[e1], rfl, ?_, ?_⟩
          · intro e he
            simp only [List.mem_singleton] at he
            subst he
            exact ⟨hl1, hm1⟩
          · have : (h0 ++ [e1]).take (b + ii + 1) = h0 ++ [e1] :=
              List.take_of_length_le (by simp [hl])
            simp [sampleLoop, this, hstop]
        · rename_i hstop
          obtain ⟨tail, ht, hall, hs⟩ := produce_spec hP o moves diag b rem (ii + 1) (some ii) h
            (by simp [hl]; omega) hm1
          refine ⟨e1 :: tail, by simp [ht], ?_, ?_⟩
          · intro e he
            rcases List.mem_cons.1 he with rfl | he
            · exact ⟨hl1, hm1⟩
            · exact ⟨(hall e he).1.trans hl1, (hall e he).2⟩
          · have e2 : hist.take (b + ii + 1) = h0 ++ [e1] := by
              rw [ht]
              exact List.take_left' (by simp [hl])
            simp only [sampleLoop, e2]
            rw [if_neg hstop, hs]
            cases tail with
            | nil => simp
            | cons t ts =>
              rw [if_neg (List.cons_ne_nil _ _), if_neg (List.cons_ne_nil _ _)]
              simp only [List.length_cons]
              congr 1
              omega

theorem chainOf_mem {nW : Nat} {hist : List (List (Walker K))} {w : Walker K}
    (h : w ∈ (chainOf nW hist).flatten) : ∃ e ∈ hist, w ∈ e := by
  simp only [chainOf, List.mem_flatten, List.mem_map, List.mem_range] at h
  obtain ⟨l, ⟨k, _, rfl⟩, hw⟩ := h
  obtain ⟨e, he, hk⟩ := List.mem_filterMap.1 hw
  exact ⟨e, he, List.mem_of_getElem? hk⟩

theorem filterMap_length {nW k : Nat} (hk : k < nW) : ∀ {hist : List (List (Walker K))},
    (∀ e ∈ hist, e.length = nW) → (hist.filterMap fun ens => ens[k]?).length = hist.length
  | [], _ => rfl
  | e :: es, h => by
      have : e[k]? = some (e[k]'(by rw [h e (List.mem_cons_self ..)]; exact hk)) :=
        List.getElem?_eq_getElem _
      rw [List.filterMap_cons, this]
      simp [filterMap_length hk (fun x hx => h x (List.mem_cons_of_mem _ hx))]

theorem chainOf_length {nW : Nat} {hist : List (List (Walker K))} (h : ∀ e ∈ hist, e.length = nW) :
    (chainOf nW hist).flatten.length = nW * hist.length := by
  rw [List.length_flatten, chainOf, List.map_map]
  have : ((List.range nW).map (List.length ∘ fun k => hist.filterMap fun ens => ens[k]?)) =
      (List.range nW).map fun _ => hist.length :=
    List.map_congr_left (fun k hk => filterMap_length (List.mem_range.1 hk) h)
  rw [this]
  simp

theorem dictOf_flat (nW : Nat) (hist : List (List (Walker K))) :
    (dictOf nW hist).flatchain = (chainOf nW hist).flatten.map Walker.pos ∧
    (dictOf nW hist).flatlnprobability = (chainOf nW hist).flatten.map Walker.prob := by
  simp only [dictOf, makeSamplerDict, List.map_flatten, List.map_map]
  exact ⟨rfl, rfl⟩

theorem initWalkers_mem {ra : List (Fl K × Fl K)} : ∀ (us : List (List (Fl K))) {ps : List (List (Fl K))},
    initWalkers ra us = .ok ps → ps.length = us.length ∧ ∀ p ∈ ps, ∃ u ∈ us, walkerPos u ra = .ok p
  | [], ps, h => by
      simp only [initWalkers, Except.ok.injEq] at h
      subst h
      exact ⟨rfl, by simp⟩
  | u :: us, ps, h => by
      unfold initWalkers at h
      split at h
      · simp at h
      · rename_i p hp
        split at h
        · simp at h
        · rename_i qs hq
          simp only [Except.ok.injEq] at h
          subst h
          obtain ⟨h1, h2⟩ := initWalkers_mem us hq
          refine ⟨by simp [h1], fun x hx => ?_⟩
          rcases List.mem_cons.1 hx with rfl | hx
          · exact ⟨u, List.mem_cons_self .., hp⟩
          · obtain ⟨u', hu', he⟩ := h2 x hx
            exact ⟨u', List.mem_cons_of_mem _ hu', he⟩

/-- The stages of a run that returned. -/
theorem runMcmc_ok [FloorRing K] {v : EmceeVersion} {o : RunOpts K} {cpuCount : Nat}
    {post : List (Fl K) → Except PyErr (Fl K)} {initial : List (List (Fl K))}
    {burnMoves moves : Nat → List (Move K)} {diag : List (List (Walker K)) → StepDiag K}
    {file : List (List (Walker K))} {d : SamplerDict (List (Fl K)) (Fl K)}
    (h : runMcmc v o cpuCount post initial burnMoves moves diag file = .ok d) :
    ∃ e0 e1 old hist, startEnsemble post initial = .ok e0 ∧ burnIn post burnMoves 0 o.nBurn e0 = .ok e1 ∧
      storedBefore v o.overwrite initial.length file = .ok old ∧
      produce o.stop post moves diag 0 o.stop.nSteps e1 old = .ok hist ∧ o.stop.nSteps ≠ 0 ∧
      ¬ (v = .v2 ∧ ¬ 1 < o.cpus cpuCount) ∧ d = dictOf initial.length hist := by
  unfold runMcmc at h
  split at h
  · simp at h
  · rename_i e0 h0
    split at h
    · simp at h
    · rename_i e1 h1
      split at h
      · simp at h
      · rename_i old ho
        split at h
        · simp at h
        · rename_i hist hh
          split at h
          · simp at h
          · rename_i hn
            split at h
            · simp at h
            · rename_i hv
              simp only [Except.ok.injEq] at h
              exact ⟨e0, e1, old, hist, h0, h1, ho, hh, hn, hv, h.symm⟩

/-- A posterior that returns a number for every vector satisfying `L`. -/
def Defined (post : List (Fl K) → Except PyErr (Fl K)) (L : List (Fl K) → Prop) : Prop :=
  ∀ x, L x → ∃ p, post x = .ok p ∧ p ≠ .nan

/-- Moves of existing walkers to vectors satisfying `L`. -/
def GoodMoves (nW : Nat) (L : List (Fl K) → Prop) (moves : Nat → List (Move K)) : Prop :=
  ∀ k, ∀ mv ∈ moves k, mv.walker < nW ∧ ∀ ens, L (mv.proposal ens)

theorem evalPost_defined {post : List (Fl K) → Except PyErr (Fl K)} {L : List (Fl K) → Prop}
    (hd : Defined post L) {x : List (Fl K)} (hx : L x) : ∃ w, evalPost post x = .ok w := by
  obtain ⟨p, hp, hn⟩ := hd x hx
  exact ⟨⟨x, p⟩, by simp [evalPost, hp, hn]⟩

theorem stepEnsemble_defined {post : List (Fl K) → Except PyErr (Fl K)} {L : List (Fl K) → Prop}
    (hd : Defined post L) {nW : Nat} : ∀ (ms : List (Move K)) (ens : List (Walker K)), ens.length = nW →
      (∀ mv ∈ ms, mv.walker < nW ∧ ∀ e, L (mv.proposal e)) →
      ∃ ens', stepEnsemble post ens ms = .ok ens' ∧ ens'.length = nW
  | [], ens, hl, _ => ⟨ens, rfl, hl⟩
  | mv :: rest, ens, hl, hm => by
      obtain ⟨hk, hL⟩ := hm mv (List.mem_cons_self ..)
      obtain ⟨w', hw'⟩ := evalPost_defined hd (hL ens)
      have hg : ens[mv.walker]? = some (ens[mv.walker]'(by rw [hl]; exact hk)) :=
        List.getElem?_eq_getElem _
      have : ∃ e, moveOne post ens mv = .ok e ∧ e.length = nW := by
        simp only [moveOne, hg, hw']
        split
        · exact ⟨_, rfl, by simp [hl]⟩
        · exact ⟨_, rfl, hl⟩
      obtain ⟨e, he, hel⟩ := this
      obtain ⟨ens', h1, h2⟩ := stepEnsemble_defined hd rest e hel
        (fun m hm' => hm m (List.mem_cons_of_mem _ hm'))
      exact ⟨ens', by simp only [stepEnsemble, he]; exact h1, h2⟩

theorem burnIn_defined {post : List (Fl K) → Except PyErr (Fl K)} {L : List (Fl K) → Prop}
    (hd : Defined post L) {nW : Nat} {moves : Nat → List (Move K)} (hm : GoodMoves nW L moves) :
    ∀ (rem k : Nat) (ens : List (Walker K)), ens.length = nW →
      ∃ ens', burnIn post moves k rem ens = .ok ens' ∧ ens'.length = nW
  | 0, _, ens, hl => ⟨ens, rfl, hl⟩
  | rem + 1, k, ens, hl => by
      obtain ⟨e, he, hel⟩ := stepEnsemble_defined hd (moves k) ens hl (hm k)
      obtain ⟨ens', h1, h2⟩ := burnIn_defined hd hm rem (k + 1) e hel
      exact ⟨ens', by simp only [burnIn, he]; exact h1, h2⟩

theorem produce_defined {post : List (Fl K) → Except PyErr (Fl K)} {L : List (Fl K) → Prop}
    (hd : Defined post L) {nW : Nat} {moves : Nat → List (Move K)} (hm : GoodMoves nW L moves)
    (o : StopOpts K) (diag : List (List (Walker K)) → StepDiag K) :
    ∀ (rem ii : Nat) (ens : List (Walker K)) (h0 : List (List (Walker K))), ens.length = nW →
      ∃ hist, produce o post moves diag ii rem ens h0 = .ok hist
  | 0, _, _, h0, _ => ⟨h0, rfl⟩
  | rem + 1, ii, ens, h0, hl => by
      obtain ⟨e, he, hel⟩ := stepEnsemble_defined hd (moves ii) ens hl (hm ii)
      simp only [produce, he]
      split
      · exact ⟨_, rfl⟩
      · exact produce_defined hd hm o diag rem (ii + 1) e _ hel

theorem startEnsemble_defined {post : List (Fl K) → Except PyErr (Fl K)} {L : List (Fl K) → Prop}
    (hd : Defined post L) : ∀ (xs : List (List (Fl K))), (∀ x ∈ xs, L x) →
      ∃ ens, startEnsemble post xs = .ok ens ∧ ens.length = xs.length
  | [], _ => ⟨[], rfl, rfl⟩
  | x :: xs, h => by
      obtain ⟨w, hw⟩ := evalPost_defined hd (h x (List.mem_cons_self ..))
      obtain ⟨ws, hws, hl⟩ := startEnsemble_defined hd xs (fun y hy => h y (List.mem_cons_of_mem _ hy))
      exact ⟨w :: ws, by simp only [startEnsemble, hw, hws], by simp [hl]⟩

end Misfit
