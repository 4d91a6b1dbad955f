import Verif.Model.PlotTrace
import Verif.Lemmas.Analysis
import Verif.Props.Sampler

/-!
# C188: the plot of the walkers
-/

namespace Misfit

section
variable {α : Type*}

/-- `path` is parameter number `k` of walker `w`, step after step. -/
def IsTrace (chain : List (List (List α))) (k w : Nat) (path : List α) : Prop :=
  ∃ steps : List (List α), chain[w]? = some steps ∧ path.length = steps.length ∧
    ∀ (s : Nat) (x : List α), steps[s]? = some x → ∃ y, x[k]? = some y ∧ path[s]? = some y

theorem itemE_some {β : Type*} {l : List β} {i : Nat} {x : β} (h : itemE l i = .ok x) : l[i]? = some x := by
  unfold itemE at h
  cases hl : l[i]? with
  | none => rw [hl] at h; cases h
  | some y => rw [hl] at h; cases h; rfl

theorem itemE_of_some {β : Type*} {l : List β} {i : Nat} {x : β} (h : l[i]? = some x) : itemE l i = .ok x := by
  unfold itemE
  rw [h]

theorem mapE_forall₂ {β γ : Type*} {f : β → Except PyErr γ} {R : β → γ → Prop}
    (hR : ∀ a b, f a = .ok b → R a b) : ∀ {l : List β} {bs : List γ}, mapE f l = .ok bs → List.Forall₂ R l bs
  | [], bs, h => by cases h; exact .nil
  | a :: as, bs, h => by
      unfold mapE at h
      split at h
      · cases h
      · rename_i b hb
        split at h
        · cases h
        · rename_i cs hcs
          cases h
          exact .cons (hR a b hb) (mapE_forall₂ hR hcs)

theorem tracePath_isTrace {chain : List (List (List α))} {k w : Nat} {p : List α}
    (h : tracePath chain k w = .ok p) : IsTrace chain k w p := by
  unfold tracePath at h
  split at h
  · cases h
  · rename_i steps hs
    obtain ⟨h1, h2⟩ := mapE_spec _ _ _ h
    refine ⟨steps, itemE_some hs, h1, fun s x hx => ?_⟩
    obtain ⟨y, hy, hxy⟩ := h2 s x hx
    exact ⟨y, itemE_some hxy, hy⟩

theorem tracePath_ok {chain : List (List (List α))} {k w : Nat} {steps : List (List α)}
    (hw : chain[w]? = some steps) (hk : ∀ x ∈ steps, k < x.length) : ∃ p, tracePath chain k w = .ok p := by
  unfold tracePath
  rw [itemE_of_some hw]
  exact mapE_ok _ _ fun x hx => ⟨_, itemE_of_some (List.getElem?_eq_getElem (hk x hx))⟩

/-- the labels -/
theorem traceNames_spec (vary : List Bool) (nice : List String) : ∀ (n i : Nat) (ns : List String),
    traceNames vary nice i n = .ok ns →
    i + n ≤ vary.length ⊔ i ∧ ns.length = ((vary.drop i).take n).count true ∧
    ∀ j < n, vary[i + j]? = some true →
      ∃ s, nice[i + j]? = some s ∧ ns[((vary.drop i).take j).count true]? = some s
  | 0, i, ns, h => by
      cases h
      exact ⟨by omega, by simp, fun j hj => absurd hj (by omega)⟩
  | n + 1, i, ns, h => by
      unfold traceNames at h
      cases hv : itemE vary i with
      | error e => rw [hv] at h; cases h
      | ok b =>
        have hvi := itemE_some hv
        have hil : i < vary.length := (List.getElem?_eq_some_iff.1 hvi).1
        have hdrop : vary.drop i = b :: vary.drop (i + 1) := by
          rw [List.drop_eq_getElem_cons hil]
          congr 1
          exact (List.getElem?_eq_some_iff.1 hvi).2
        rw [hv] at h
        cases b with
        | false =>
          obtain ⟨h1, h2, h3⟩ := traceNames_spec vary nice n (i + 1) ns h
          refine ⟨by omega, by rw [hdrop]; simpa using h2, fun j hj hvj => ?_⟩
          cases j with
          | zero => rw [Nat.add_zero, hvi] at hvj; cases hvj
          | succ j =>
            have e : i + (j + 1) = i + 1 + j := by omega
            rw [e] at hvj ⊢
            obtain ⟨s, hs1, hs2⟩ := h3 j (by omega) hvj
            exact ⟨s, hs1, by rw [hdrop]; simpa using hs2⟩
        | true =>
          simp only at h
          split at h
          · cases h
          · rename_i s hs
            split at h
            · cases h
            · rename_i ms hms
              cases h
              obtain ⟨h1, h2, h3⟩ := traceNames_spec vary nice n (i + 1) ms hms
              refine ⟨by omega, by rw [hdrop]; simp [h2], fun j hj hvj => ?_⟩
              cases j with
              | zero => exact ⟨s, itemE_some hs, by simp⟩
              | succ j =>
                have e : i + (j + 1) = i + 1 + j := by omega
                rw [e] at hvj ⊢
                obtain ⟨t, ht1, ht2⟩ := h3 j (by omega) hvj
                exact ⟨t, ht1, by rw [hdrop]; simpa using ht2⟩

theorem traceNames_ok (vary : List Bool) (nice : List String) : ∀ (n i : Nat), i + n ≤ vary.length →
    i + n ≤ nice.length → ∃ ns, traceNames vary nice i n = .ok ns
  | 0, i, _, _ => ⟨[], rfl⟩
  | n + 1, i, hv, hn => by
      obtain ⟨ns, hns⟩ := traceNames_ok vary nice n (i + 1) (by omega) (by omega)
      unfold traceNames
      rw [itemE_of_some (List.getElem?_eq_getElem (by omega : i < vary.length)),
        itemE_of_some (List.getElem?_eq_getElem (by omega : i < nice.length)), hns]
      cases vary[i] with
      | false => exact ⟨ns, rfl⟩
      | true => exact ⟨_, rfl⟩

theorem normInds_mem (nW : Nat) (traced : List Nat) (w : Nat) :
    w ∈ normInds nW traced ↔ w < nW ∧ w ∉ traced := by
  simp [normInds]

/-- **C188**, what the plot shows: one panel for every free parameter, in order and labelled with its name; in each, every
walker that was not drawn at random is shown once and in black, in the order of the chain, and the drawn ones are shown
in the order of the draws, each with all its steps. -/
theorem C188_panels (nTheta : Nat) (vary : List Bool) (nice : List String) (chain : List (List (List α)))
    (nWalkers : Nat) (traced : List Nat) (ps : List (TracePanel α))
    (h : plotTrace nTheta vary nice chain nWalkers traced = .ok ps) :
    ps.length = (vary.take nTheta).count true ∧ 0 < ps.length ∧ 0 < nWalkers ∧
    ∀ i < nTheta, vary[i]? = some true →
      ∃ p, ps[(vary.take i).count true]? = some p ∧ nice[i]? = some p.label ∧
        (∃ ws : List Nat, ws.Pairwise (· < ·) ∧ (∀ w, w ∈ ws ↔ w < nWalkers ∧ w ∉ traced) ∧
          List.Forall₂ (IsTrace chain ((vary.take i).count true)) ws p.black) ∧
        List.Forall₂ (IsTrace chain ((vary.take i).count true)) traced p.coloured := by
  unfold plotTrace at h
  split at h
  · cases h
  · rename_i names hn
    split at h
    · cases h
    · rename_i hpos
      split at h
      · cases h
      · rename_i hw
        obtain ⟨_, n2, n3⟩ := traceNames_spec vary nice nTheta 0 names hn
        simp only [List.drop_zero, Nat.zero_add] at n2 n3
        obtain ⟨m1, m2⟩ := mapE_spec _ _ _ h
        rw [List.length_range] at m1
        refine ⟨by rw [m1, n2], by omega, by omega, fun i hi hvi => ?_⟩
        obtain ⟨s, hs1, hs2⟩ := n3 i hi hvi
        have hlt : (vary.take i).count true < names.length := (List.getElem?_eq_some_iff.1 hs2).1
        obtain ⟨p, hp1, hp2⟩ := m2 _ _ (by rw [List.getElem?_range hlt])
        refine ⟨p, hp1, ?_⟩
        unfold tracePanel at hp2
        split at hp2
        · cases hp2
        · rename_i black hb
          split at hp2
          · cases hp2
          · rename_i col hc
            split at hp2
            · cases hp2
            · rename_i label hl
              cases hp2
              refine ⟨?_, ⟨normInds nWalkers traced, ?_, normInds_mem nWalkers traced, ?_⟩, ?_⟩
              · have := itemE_some hl
                rw [hs2] at this
                cases this
                exact hs1
              · exact List.Pairwise.filter _ List.pairwise_lt_range
              · exact mapE_forall₂ (fun _ _ => tracePath_isTrace) hb
              · exact mapE_forall₂ (fun _ _ => tracePath_isTrace) hc

/-- **C188**, the errors: without a free parameter the plot fails with a ValueError, without walkers with a
ZeroDivisionError. -/
theorem C188_refused (nTheta : Nat) (vary : List Bool) (nice : List String) (chain : List (List (List α)))
    (nWalkers : Nat) (traced : List Nat) (hv : vary.length = nTheta) (hn : nice.length = nTheta) :
    (true ∉ vary → plotTrace nTheta vary nice chain nWalkers traced = .error .valueError) ∧
    (true ∈ vary → nWalkers = 0 →
      plotTrace nTheta vary nice chain nWalkers traced = .error .zeroDivisionError) := by
  obtain ⟨names, hok⟩ := traceNames_ok vary nice nTheta 0 (by omega) (by omega)
  obtain ⟨_, n2, _⟩ := traceNames_spec vary nice nTheta 0 names hok
  rw [List.drop_zero, List.take_of_length_le (by omega)] at n2
  unfold plotTrace
  rw [hok]
  constructor
  · intro h
    have h0 : names.length = 0 := by rw [n2]; exact List.count_eq_zero.2 h
    simp only [h0, if_true]
  · intro h hw
    have h0 : names.length ≠ 0 := by rw [n2]; exact (List.count_pos_iff.2 h).ne'
    simp only [if_neg h0, if_pos hw]

/-- **C188**, the plot is made: with a free parameter, names for all parameters and a chain with a value of each free
parameter for all walkers and steps, whatever the draws. -/
theorem C188_made (nTheta : Nat) (vary : List Bool) (nice : List String) (chain : List (List (List α)))
    (nWalkers : Nat) (traced : List Nat) (hv : vary.length = nTheta) (hn : nice.length = nTheta)
    (hfree : true ∈ vary) (hw : 0 < nWalkers) (hc : nWalkers ≤ chain.length)
    (hx : ∀ steps ∈ chain, ∀ x ∈ steps, vary.count true ≤ x.length) (ht : ∀ w ∈ traced, w < nWalkers) :
    ∃ ps, plotTrace nTheta vary nice chain nWalkers traced = .ok ps := by
  obtain ⟨names, hok⟩ := traceNames_ok vary nice nTheta 0 (by omega) (by omega)
  obtain ⟨_, n2, _⟩ := traceNames_spec vary nice nTheta 0 names hok
  rw [List.drop_zero, List.take_of_length_le (by omega)] at n2
  unfold plotTrace
  rw [hok]
  have h0 : names.length ≠ 0 := by rw [n2]; exact (List.count_pos_iff.2 hfree).ne'
  simp only [if_neg h0, if_neg hw.ne']
  refine mapE_ok _ _ fun k hk => ?_
  have hk : k < names.length := List.mem_range.1 hk
  have hp : ∀ w < nWalkers, ∃ p, tracePath chain k w = .ok p := fun w hw =>
    tracePath_ok (List.getElem?_eq_getElem (by omega : w < chain.length))
      fun x hx' => by have := hx _ (List.getElem_mem _) x hx'; omega
  obtain ⟨b, hb⟩ := mapE_ok (tracePath chain k) (normInds nWalkers traced)
    fun w hw => hp w ((normInds_mem ..).1 hw).1
  obtain ⟨c, hc⟩ := mapE_ok (tracePath chain k) traced fun w hw => hp w (ht w hw)
  unfold tracePanel
  rw [hb, hc, itemE_of_some (List.getElem?_eq_getElem hk)]
  exact ⟨_, rfl⟩

/-- a curve is determined by walker and parameter -/
theorem isTrace_unique {chain : List (List (List α))} {k w : Nat} {p q : List α}
    (hp : IsTrace chain k w p) (hq : IsTrace chain k w q) : p = q := by
  obtain ⟨s, h1, h2, h3⟩ := hp
  obtain ⟨t, g1, g2, g3⟩ := hq
  rw [h1] at g1
  cases g1
  refine List.ext_getElem? fun i => ?_
  cases hs : s[i]? with
  | none =>
    have hl := List.getElem?_eq_none_iff.1 hs
    rw [List.getElem?_eq_none (by omega), List.getElem?_eq_none (by omega)]
  | some x =>
    obtain ⟨y, hy, hpy⟩ := h3 i x hs
    obtain ⟨z, hz, hqz⟩ := g3 i x hs
    rw [hy] at hz
    cases hz
    rw [hpy, hqz]

/-- **C188** is false in that five walkers are to be followed in colour: with fewer than five walkers, whatever the draws,
every panel shows one of them twice. -/
theorem C188_false_five (nTheta : Nat) (vary : List Bool) (nice : List String) (chain : List (List (List α)))
    (nWalkers : Nat) (traced : List Nat) (ps : List (TracePanel α))
    (h : plotTrace nTheta vary nice chain nWalkers traced = .ok ps) (h5 : traced.length = 5)
    (ht : ∀ w ∈ traced, w < nWalkers) (hw : nWalkers < 5) :
    ∀ i < nTheta, vary[i]? = some true → ∃ p, ps[(vary.take i).count true]? = some p ∧
      p.coloured.length = 5 ∧ ∃ a b, a < b ∧ b < 5 ∧ p.coloured[a]? = p.coloured[b]? := by
  intro i hi hvi
  obtain ⟨_, _, _, hall⟩ := C188_panels nTheta vary nice chain nWalkers traced ps h
  obtain ⟨p, hp, _, _, hc⟩ := hall i hi hvi
  have hlen : p.coloured.length = 5 := by rw [← hc.length_eq, h5]
  refine ⟨p, hp, hlen, ?_⟩
  have hnd : ¬ traced.Nodup := by
    intro h
    have h1 : traced.toFinset ⊆ Finset.range nWalkers := fun w hw => by
      simpa using ht w (List.mem_toFinset.1 hw)
    have h2 := Finset.card_le_card h1
    rw [List.toFinset_card_of_nodup h, Finset.card_range] at h2
    omega
  rw [List.nodup_iff_getElem?_ne_getElem?] at hnd
  push Not at hnd
  obtain ⟨a, b, hab, hb, he⟩ := hnd
  refine ⟨a, b, hab, by omega, ?_⟩
  rw [List.getElem?_eq_getElem (by omega : a < p.coloured.length),
    List.getElem?_eq_getElem (by omega : b < p.coloured.length)]
  rw [List.getElem?_eq_getElem (by omega : a < traced.length), List.getElem?_eq_getElem hb] at he
  have he : traced[a] = traced[b] := Option.some.inj he
  congr 1
  have ha' := List.Forall₂.get hc (i := a) (by omega) (by omega)
  have hb' := List.Forall₂.get hc (i := b) (by omega) (by omega)
  simp only [List.get_eq_getElem] at ha' hb'
  rw [he] at ha'
  exact isTrace_unique ha' hb'

end

variable {K : Type*} [Field K] [LinearOrder K] [IsStrictOrderedRing K] [FloorRing K]

/-- **C188**, after a run: the samples of every run that returned can be plotted. -/
theorem C188_run (v : EmceeVersion) (o : RunOpts K) (cpuCount : Nat)
    (theta : List (Fl K)) (vary : List Bool) (nice : List String) (bounds : List (Option (Fl K × Fl K)))
    (like : List (Fl K) → Except PyErr (Fl K)) (draws : List (List (Fl K)))
    (burnMoves moves : Nat → List (Move K)) (diag : List (List (Walker K)) → StepDiag K)
    (file : List (List (Walker K))) (d : SamplerDict (List (Fl K)) (Fl K)) (traced : List Nat)
    (hv : vary.length = theta.length) (hn : nice.length = theta.length) (hfree : true ∈ vary)
    (hb : FiniteOrderedBounds theta.length vary bounds)
    (hd : ∀ u ∈ draws, UnitDraws u ∧ u.length = vary.count true) (hw : 0 < draws.length)
    (ht : ∀ w ∈ traced, w < draws.length)
    (hfile : v = .v3 → o.overwrite = false → ∀ e ∈ file, ∀ w ∈ e, InBounds theta.length vary bounds w.pos)
    (h : runFit v o cpuCount theta vary bounds like draws burnMoves moves diag file = .ok d) :
    ∃ ps, plotTrace theta.length vary nice d.chain draws.length traced = .ok ps := by
  have hin := C109_inside v o cpuCount theta vary bounds like draws burnMoves moves diag file d hv hb hd hfile h
  obtain ⟨old, tail, ho, _, _, rfl, hall, _⟩ := runFit_ok hv hb hd h
  refine C188_made _ vary nice _ _ traced hv hn hfree hw ?_ (fun steps hs x hx => ?_) ht
  · simp [dictOf, makeSamplerDict, chainOf]
  · have hmem : x ∈ (dictOf draws.length (old ++ tail)).flatchain := by
      simp only [dictOf, makeSamplerDict] at hs ⊢
      exact List.mem_flatten.2 ⟨steps, hs, hx⟩
    by_contra hlt
    push Not at hlt
    -- the last varying parameter
    obtain ⟨i, hi, hcount⟩ : ∃ i, vary[i]? = some true ∧ (vary.take i).count true = vary.count true - 1 := by
      clear * - hfree
      induction vary using List.reverseRecOn with
      | nil => simp at hfree
      | append_singleton l b ih =>
        cases b with
        | true => exact ⟨l.length, by simp, by simp⟩
        | false =>
          obtain ⟨i, h1, h2⟩ := ih (by simpa using hfree)
          have hi := (List.getElem?_eq_some_iff.1 h1).1
          refine ⟨i, by rw [List.getElem?_append_left hi]; exact h1, ?_⟩
          rw [List.take_append_of_le_length hi.le, h2]
          simp
    obtain ⟨_, y, _, hy, _⟩ := hin x hmem i (by rw [← hv]; exact (List.getElem?_eq_some_iff.1 hi).1) hi
    have := (List.getElem?_eq_some_iff.1 hy).1
    have := List.count_pos_iff.2 hfree
    omega

/-- A case: three walkers with two steps of two free parameters out of three; walker 1 is drawn twice. -/
example : (plotTrace 3 [true, false, true] ["Va", "rt", "sigma0"]
    [[[(1 : ℚ), 2], [3, 4]], [[5, 6], [7, 8]], [[9, 10], [11, 12]]] 3 [1, 1]).toOption.map
      (List.map fun p => (p.label, p.black, p.coloured)) =
    some [("Va", [[1, 3], [9, 11]], [[5, 7], [5, 7]]),
      ("sigma0", [[2, 4], [10, 12]], [[6, 8], [6, 8]])] := by decide +kernel

/-- A case of `C188_run`. -/
example : ∃ d ps, runExample .v3 true [] = .ok d ∧
    plotTrace 2 [true, false] ["Va", "rt"] d.chain 2 [1, 1, 0, 1, 1] = .ok ps := by
  cases hr : runExample .v3 true [] with
  | error e =>
    have : (runExample .v3 true []).toOption.isNone = false := by decide +kernel
    rw [hr] at this
    simp [Except.toOption] at this
  | ok d =>
    have hg := runExample_samplable .v3 true (Or.inr rfl)
    obtain ⟨ps, hps⟩ := C188_run _ _ _ _ _ ["Va", "rt"] _ _ _ _ _ _ _ d [1, 1, 0, 1, 1] hg.vary_len rfl (by simp)
      hg.bounded hg.unit (by decide) (by decide) (fun _ h => by cases h) hr
    exact ⟨d, ps, rfl, hps⟩

end Misfit
