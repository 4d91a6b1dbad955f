import Verif.Lemmas.RunLog

/-! Helper lemmas for `Verif.Props.RunFail`: where the exceptions of a run come from. -/

namespace Misfit
variable {K : Type*} [Field K] [LinearOrder K]

/-- evaluating the posterior at `x` for the sampler raises `e`: the posterior does, or it is NaN -/
def PostRaises (post : List (Fl K) → Except PyErr (Fl K)) (x : List (Fl K)) (e : PyErr) : Prop :=
  post x = .error e ∨ (post x = .ok .nan ∧ e = .valueError)

theorem evalPost_error {post : List (Fl K) → Except PyErr (Fl K)} {x : List (Fl K)} {e : PyErr} :
    evalPost post x = .error e ↔ PostRaises post x e := by
  unfold evalPost PostRaises
  cases hp : post x with
  | error e' => simp
  | ok p =>
    simp only
    by_cases h : p = .nan
    · subst h; simp [eq_comm]
    · simp [h]

theorem startEnsemble_error {post : List (Fl K) → Except PyErr (Fl K)} {e : PyErr} : ∀ {xs : List (List (Fl K))},
    startEnsemble post xs = .error e → ∃ x ∈ xs, PostRaises post x e
  | [], h => by simp [startEnsemble] at h
  | x :: xs, h => by
      unfold startEnsemble at h
      split at h
      · rename_i e' he
        cases h
        exact ⟨x, List.mem_cons_self .., evalPost_error.1 he⟩
      · split at h
        · rename_i e' he
          cases h
          obtain ⟨y, hy, h'⟩ := startEnsemble_error he
          exact ⟨y, List.mem_cons_of_mem _ hy, h'⟩
        · cases h

theorem startEnsemble_raises {post : List (Fl K) → Except PyErr (Fl K)} {e : PyErr} {x : List (Fl K)}
    {xs : List (List (Fl K))} (hx : x ∈ xs) (hp : PostRaises post x e) : ∃ e', startEnsemble post xs = .error e' := by
  induction xs with
  | nil => cases hx
  | cons y ys ih =>
    unfold startEnsemble
    cases hy : evalPost post y with
    | error e' => exact ⟨e', rfl⟩
    | ok w =>
      rcases List.mem_cons.1 hx with rfl | hx
      · rw [evalPost_error.2 hp] at hy; cases hy
      · obtain ⟨e', he⟩ := ih hx
        exact ⟨e', by rw [he]⟩

theorem accepts_all (post : List (Fl K) → Except PyErr (Fl K)) : Accepts post (fun _ => True) := fun _ _ _ _ => trivial

theorem stepEnsemble_length {post : List (Fl K) → Except PyErr (Fl K)} {ens ens' : List (Walker K)} {ms : List (Move K)}
    (h : stepEnsemble post ens ms = .ok ens') : ens'.length = ens.length :=
  (stepEnsemble_inv (accepts_all post) ms h (fun _ _ => trivial)).1

theorem stepEnsemble_error {post : List (Fl K) → Except PyErr (Fl K)} {e : PyErr} {nW : Nat} :
    ∀ (ms : List (Move K)) {ens : List (Walker K)}, ens.length = nW → (∀ mv ∈ ms, mv.walker < nW) →
      stepEnsemble post ens ms = .error e →
      ∃ mv ∈ ms, ∃ ens', ens'.length = nW ∧ PostRaises post (mv.proposal ens') e
  | [], ens, _, _, h => by simp [stepEnsemble] at h
  | mv :: rest, ens, hl, hw, h => by
      unfold stepEnsemble at h
      split at h
      · rename_i e' he
        cases h
        refine ⟨mv, List.mem_cons_self .., ens, hl, ?_⟩
        unfold moveOne at he
        have hk := hw mv (List.mem_cons_self ..)
        rw [List.getElem?_eq_getElem (hl ▸ hk)] at he
        simp only at he
        split at he
        · rename_i e'' he'
          cases he
          exact evalPost_error.1 he'
        · split at he <;> cases he
      · rename_i e1 he
        have hl' : e1.length = nW := by
          rw [← hl]
          exact (moveOne_inv (accepts_all post) he (fun _ _ => trivial)).1
        obtain ⟨mv', h1, h2⟩ := stepEnsemble_error rest hl' (fun m hm => hw m (List.mem_cons_of_mem _ hm)) h
        exact ⟨mv', List.mem_cons_of_mem _ h1, h2⟩

theorem burnHist_error {post : List (Fl K) → Except PyErr (Fl K)} {moves : Nat → List (Move K)} {e : PyErr} {nW : Nat}
    (hw : ∀ k, ∀ mv ∈ moves k, mv.walker < nW) :
    ∀ (rem k : Nat) {ens : List (Walker K)} {h0 : List (List (Walker K))}, ens.length = nW →
      burnHist post moves k rem ens h0 = .error e →
      ∃ j, j < k + rem ∧ ∃ mv ∈ moves j, ∃ ens', ens'.length = nW ∧ PostRaises post (mv.proposal ens') e
  | 0, k, ens, h0, _, h => by simp [burnHist] at h
  | rem + 1, k, ens, h0, hl, h => by
      unfold burnHist at h
      split at h
      · rename_i e' he
        cases h
        obtain ⟨mv, h1, h2⟩ := stepEnsemble_error _ hl (hw k) he
        exact ⟨k, by omega, mv, h1, h2⟩
      · rename_i e1 he
        obtain ⟨j, hj, h'⟩ := burnHist_error hw rem (k + 1) ((stepEnsemble_length he).trans hl) h
        exact ⟨j, by omega, h'⟩

theorem prodLoop_error {o : StopOpts K} {post : List (Fl K) → Except PyErr (Fl K)} {moves : Nat → List (Move K)}
    {obs : RunObs K} {e : PyErr} {nW : Nat} (hw : ∀ k, ∀ mv ∈ moves k, mv.walker < nW) :
    ∀ (rem ii : Nat) (last : Option Nat) {ens : List (Walker K)} {h0 : List (List (Walker K))} {l : List (Out K)},
      ens.length = nW → prodLoop o post moves obs last ii rem ens h0 = (l, .error e) →
      (∃ j, j < ii + rem ∧ ∃ mv ∈ moves j, ∃ ens', ens'.length = nW ∧ PostRaises post (mv.proposal ens') e) ∨
      ∃ hist, obs.acor hist = .raised e
  | 0, ii, last, ens, h0, l, _, h => by simp [prodLoop] at h
  | rem + 1, ii, last, ens, h0, l, hl, h => by
      unfold prodLoop at h
      split at h
      · rename_i e' he
        simp only [Prod.mk.injEq, Except.error.injEq] at h
        obtain ⟨-, rfl⟩ := h
        obtain ⟨mv, h1, h2⟩ := stepEnsemble_error _ hl (hw ii) he
        exact Or.inl ⟨ii, by omega, mv, h1, h2⟩
      · rename_i e1 he
        split at h
        · rename_i e' hr
          simp only [Prod.mk.injEq, Except.error.injEq] at h
          obtain ⟨-, rfl⟩ := h
          exact Or.inr ⟨_, hr⟩
        · rw [write_andThen] at h
          split at h
          · simp at h
          · simp only [Prod.mk.injEq] at h
            rcases prodLoop_error hw rem (ii + 1) (some ii) ((stepEnsemble_length he).trans hl)
              (Prod.ext rfl h.2) with ⟨j, hj, h'⟩ | h'
            · exact Or.inl ⟨j, by omega, h'⟩
            · exact Or.inr h'

theorem storedBefore_error {v : EmceeVersion} {ow : Bool} {nW : Nat} {file : List (List (Walker K))} {e : PyErr} :
    storedBefore v ow nW file = .error e ↔
      v = .v3 ∧ ow = false ∧ (∃ t ∈ file, t.length ≠ nW) ∧ e = .valueError := by
  unfold storedBefore
  have hv : v = .v2 ∨ v = .v3 := by cases v <;> simp
  by_cases h : v = .v2 ∨ ow = true
  · rw [if_pos h]
    simp only [reduceCtorEq, false_iff]
    rintro ⟨rfl, rfl, -⟩
    simp at h
  · rw [if_neg h]
    have h3 : v = .v3 := by rcases hv with h' | h'; exact absurd (Or.inl h') h; exact h'
    have ho : ow = false := by
      cases ow
      · rfl
      · exact absurd (Or.inr rfl) h
    by_cases ha : file.all (fun e => e.length == nW) = true
    · rw [if_pos ha]
      simp only [reduceCtorEq, false_iff]
      rintro ⟨-, -, ⟨t, ht, hne⟩, -⟩
      exact hne (by simpa using List.all_eq_true.1 ha t ht)
    · rw [if_neg ha]
      simp only [Except.error.injEq]
      constructor
      · rintro rfl
        refine ⟨h3, ho, ?_, rfl⟩
        by_contra hc
        push Not at hc
        exact ha (List.all_eq_true.2 fun t ht => by simpa using hc t ht)
      · rintro ⟨-, -, -, rfl⟩; rfl

theorem startEnsemble_length {post : List (Fl K) → Except PyErr (Fl K)} {xs : List (List (Fl K))} {ens : List (Walker K)}
    (h : startEnsemble post xs = .ok ens) : ens.length = xs.length := by
  rw [← (startEnsemble_ok xs h).1, List.length_map]

theorem burnHist_len {post : List (Fl K) → Except PyErr (Fl K)} {moves : Nat → List (Move K)} :
    ∀ (rem k : Nat) {ens : List (Walker K)} {h0 : List (List (Walker K))} {r : List (Walker K) × List (List (Walker K))},
      burnHist post moves k rem ens h0 = .ok r → r.1.length = ens.length
  | 0, k, ens, h0, r, h => by
      simp only [burnHist, Except.ok.injEq] at h
      rw [← h]
  | rem + 1, k, ens, h0, r, h => by
      unfold burnHist at h
      split at h
      · cases h
      · rename_i e1 he
        rw [burnHist_len rem (k + 1) h, stepEnsemble_length he]

end Misfit
