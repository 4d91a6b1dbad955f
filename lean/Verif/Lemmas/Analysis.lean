import Verif.Model.Fit2D
import Verif.Props.Posterior
import Verif.Lemmas.Params

/-!
# Lemmas about the analysis of the samples of a fit
-/

namespace Misfit

section mapE
variable {α β : Type*} (f : α → Except PyErr β)

theorem mapE_ok : ∀ (l : List α), (∀ a ∈ l, ∃ b, f a = .ok b) → ∃ bs, mapE f l = .ok bs := by
  intro l
  induction l with
  | nil => exact fun _ => ⟨[], rfl⟩
  | cons a as ih =>
    intro h
    obtain ⟨b, hb⟩ := h a (by simp)
    obtain ⟨bs, hbs⟩ := ih fun x hx => h x (List.mem_cons_of_mem _ hx)
    exact ⟨b :: bs, by simp only [mapE, hb, hbs]⟩

theorem mapE_error (a : α) (e : PyErr) (ha : f a = .error e) : ∀ (l : List α), a ∈ l →
    ∃ e, mapE f l = .error e := by
  intro l
  induction l with
  | nil => intro h; cases h
  | cons b bs ih =>
    intro h
    rw [mapE]
    cases hb : f b with
    | error e => exact ⟨e, rfl⟩
    | ok y =>
      rcases List.mem_cons.mp h with h | h
      · rw [h, hb] at ha; cases ha
      · obtain ⟨e', h'⟩ := ih h
        exact ⟨e', by simp only [h']⟩

theorem mapE_spec : ∀ (l : List α) (bs : List β), mapE f l = .ok bs →
    bs.length = l.length ∧ ∀ (i : Nat) (a : α), l[i]? = some a → ∃ b, bs[i]? = some b ∧ f a = .ok b := by
  intro l
  induction l with
  | nil => intro bs h; cases h; exact ⟨rfl, fun i a h => by simp at h⟩
  | cons x xs ih =>
    intro bs h
    rw [mapE] at h
    cases hx : f x with
    | error e => rw [hx] at h; cases h
    | ok y =>
      rw [hx] at h
      simp only at h
      cases hm : mapE f xs with
      | error e => rw [hm] at h; cases h
      | ok ys =>
        rw [hm] at h
        cases h
        obtain ⟨h1, h2⟩ := ih ys hm
        refine ⟨by simp [h1], fun i a hi => ?_⟩
        cases i with
        | zero =>
          simp only [List.getElem?_cons_zero, Option.some.injEq] at hi
          subst hi
          exact ⟨y, rfl, hx⟩
        | succ j => exact h2 j a (by simpa using hi)

theorem mapE_append (l l' : List α) : mapE f (l ++ l') =
    match mapE f l with
    | .error e => .error e
    | .ok x => match mapE f l' with
      | .error e => .error e
      | .ok y => .ok (x ++ y) := by
  induction l with
  | nil =>
    simp only [List.nil_append, mapE]
    cases mapE f l' <;> rfl
  | cons a as ih =>
    simp only [List.cons_append, mapE]
    cases f a with
    | error e => rfl
    | ok b =>
      simp only
      rw [ih]
      cases mapE f as with
      | error e => rfl
      | ok x =>
        simp only
        cases mapE f l' <;> rfl

end mapE

theorem mapM_toReal : ∀ (l : List (Fl ℝ)) (l' : List ℝ), l.mapM Fl.toReal? = some l' ↔ l = l'.map Fl.fin := by
  intro l
  induction l with
  | nil =>
    intro l'
    cases l' with
    | nil => simp
    | cons a l' => simp
  | cons a as ih =>
    intro l'
    rw [List.mapM_cons]
    cases a with
    | fin x =>
      simp only [Fl.toReal?, Option.bind_eq_bind, Option.bind_some, Option.pure_def]
      constructor
      · intro h
        cases hm : List.mapM Fl.toReal? as with
        | none => rw [hm] at h; cases h
        | some t =>
          rw [hm] at h
          simp only [Option.bind_some, Option.some.injEq] at h
          subst h
          rw [(ih t).mp hm, List.map_cons]
      · intro h
        cases l' with
        | nil => cases h
        | cons y t =>
          simp only [List.map_cons, List.cons.injEq, Fl.fin.injEq] at h
          rw [(ih t).mpr h.2, h.1]
          rfl
    | nan => cases l' <;> simp [Fl.toReal?]
    | pinf => cases l' <;> simp [Fl.toReal?]
    | ninf => cases l' <;> simp [Fl.toReal?]

theorem colValues_ok {L : Nat} (c : Fin L → Fl ℝ) (l : List ℝ) :
    colValues c = .ok l ↔ List.ofFn c = l.map Fl.fin := by
  rw [← mapM_toReal]
  unfold colValues
  cases (List.ofFn c).mapM Fl.toReal? with
  | none => simp
  | some t => simp

theorem colValues_finite {L : Nat} (c : Fin L → Fl ℝ) (x : Fin L → ℝ) (h : ∀ k, c k = .fin (x k)) :
    colValues c = .ok (List.ofFn x) := by
  rw [colValues_ok, List.map_ofFn]
  congr 1
  funext k
  exact h k

/-- columns with two different samples can be analysed -/
theorem columnStats_ok (o : PeakFinder) (col : List ℝ) (x y : ℝ) (hx : x ∈ col) (hy : y ∈ col) (hxy : x ≠ y) :
    ∃ l1 l2 seed, columnStats o col = .ok (l1, l2, o.peak col seed) ∧ limits1 col = .ok l1 ∧
      limits2 col = .ok l2 ∧ seedOf col = .ok seed := by
  have hne : col ≠ [] := List.ne_nil_of_mem hx
  have hp : ∀ a b : ℝ, 0 ≤ a → a ≤ 100 → 0 ≤ b → b ≤ 100 → ∃ l, percentilePair col a b = .ok l := by
    intro a b ha ha' hb hb'
    obtain ⟨u, hu⟩ := percentile_ok col a hne ha ha'
    obtain ⟨v, hv⟩ := percentile_ok col b hne hb hb'
    exact ⟨(u, v), by rw [percentilePair, hu, hv]⟩
  obtain ⟨l1, h1⟩ : ∃ l, limits1 col = .ok l := hp _ _ (by norm_num) (by norm_num) (by norm_num) (by norm_num)
  obtain ⟨l2, h2⟩ : ∃ l, limits2 col = .ok l := hp _ _ (by norm_num) (by norm_num) (by norm_num) (by norm_num)
  obtain ⟨seed, h3⟩ := C61_exists col hne
  refine ⟨l1, l2, seed, ?_, h1, h2, h3⟩
  rw [columnStats, h1, h2, h3]
  simp only
  rw [kdePeak, if_neg]
  rintro (h | ⟨z, hz⟩)
  · obtain ⟨i, hi, rfl⟩ := List.mem_iff_getElem.mp hx
    obtain ⟨j, hj, rfl⟩ := List.mem_iff_getElem.mp hy
    have : i = j := by omega
    subst this
    exact hxy rfl
  · exact hxy ((hz x hx).trans (hz y hy).symm)

/-- columns with a single value cannot -/
theorem columnStats_const (o : PeakFinder) (col : List ℝ) (z : ℝ) (hz : ∀ y ∈ col, y = z) :
    ∃ e, columnStats o col = .error e := by
  rw [columnStats]
  cases limits1 col with
  | error e => exact ⟨e, rfl⟩
  | ok l1 =>
    simp only
    cases limits2 col with
    | error e => exact ⟨e, rfl⟩
    | ok l2 =>
      simp only
      cases seedOf col with
      | error e => exact ⟨e, rfl⟩
      | ok s =>
        simp only
        rw [kdePeak, if_pos (Or.inr ⟨z, hz⟩)]
        exact ⟨_, rfl⟩

theorem ofFn_getElem_map {α β : Type*} (l : List α) (f : α → β) :
    List.ofFn (fun i : Fin l.length => f l[i]) = l.map f := by
  apply List.ext_getElem
  · simp
  · intro i h1 h2
    simp

/-- the results when no parameters are linked -/
theorem paramPosterior_unlinked (o : PeakFinder) (cols : List (List ℝ)) (names : List String) (nFree : Nat)
    (st : List ((ℝ × ℝ) × (ℝ × ℝ) × ℝ)) (hst : mapE (columnStats o) cols = .ok st) :
    paramPosterior o cols none names nFree =
      match mapE (fun bc : ℝ × List ℝ => percentOpp (.fin bc.1) (bc.2.map Fl.fin))
          ((st.map fun x => x.2.2).zip cols) with
      | .error e => .error e
      | .ok opp => .ok { names := names, best := st.map fun x => x.2.2
                         err1 := st.map fun x => errFrom x.2.2 x.1
                         err2 := st.map fun x => errFrom x.2.2 x.2.1
                         opp := opp, fitting := (st.map fun x => x.2.2).take nFree } := by
  unfold paramPosterior
  rw [hst]
  simp only [Option.getD_none, mapE, posteriorOf]
  have e1 : List.ofFn (fun i : Fin st.length => st[i].2.2) = st.map fun x => x.2.2 :=
    ofFn_getElem_map st fun x => x.2.2
  have e2 : List.ofFn (fun i : Fin st.length => errFrom st[i].2.2 st[i].1) = st.map fun x => errFrom x.2.2 x.1 :=
    ofFn_getElem_map st fun x => errFrom x.2.2 x.1
  have e3 : List.ofFn (fun i : Fin st.length => errFrom st[i].2.2 st[i].2.1) =
      st.map fun x => errFrom x.2.2 x.2.1 := ofFn_getElem_map st fun x => errFrom x.2.2 x.2.1
  rw [e1, e2, e3]
  generalize mapE _ ((st.map fun x => x.2.2).zip cols) = x
  cases x <;> rfl

/-- one best-fit value for each column -/
theorem paramPosterior_length (o : PeakFinder) (cols : List (List ℝ)) (linked : Option (List RawLink))
    (names : List String) (nFree : Nat) (res : FitResults)
    (h : paramPosterior o cols linked names nFree = .ok res) :
    res.best.length = cols.length ∧ res.names = names ∧ res.fitting = res.best.take nFree := by
  unfold paramPosterior at h
  cases hst : mapE (columnStats o) cols with
  | error e => rw [hst] at h; cases h
  | ok st =>
    rw [hst] at h
    simp only at h
    split at h
    · cases h
    · split at h
      · cases h
      · cases h
        refine ⟨?_, rfl, rfl⟩
        simp only [List.length_ofFn]
        exact (mapE_spec _ _ _ hst).1

/-- the analysis succeeds for columns with two different samples and valid links -/
theorem paramPosterior_ok (o : PeakFinder) (cols : List (List ℝ)) (linked : Option (List RawLink))
    (names : List String) (nFree : Nat) (hcol : ∀ col ∈ cols, ∃ x ∈ col, ∃ y ∈ col, x ≠ y)
    (hl : ∀ ls, linked = some ls → ∀ l, .inds l ∈ ls → ∀ i ∈ l, i < cols.length) :
    ∃ res, paramPosterior o cols linked names nFree = .ok res := by
  obtain ⟨st, hst⟩ : ∃ st, mapE (columnStats o) cols = .ok st := mapE_ok _ _ fun col hc => by
    obtain ⟨x, hx, y, hy, hxy⟩ := hcol col hc
    obtain ⟨l1, l2, s, h, _⟩ := columnStats_ok o col x y hx hy hxy
    exact ⟨_, h⟩
  unfold paramPosterior
  rw [hst]
  simp only
  have hlen := (mapE_spec _ _ _ hst).1
  obtain ⟨sets, hsets⟩ : ∃ sets, mapE (RawLink.check st.length) (linked.getD []) = .ok sets :=
    mapE_ok _ _ fun x hx => by
      cases x with
      | all => exact ⟨_, rfl⟩
      | inds l =>
        have hi : ∀ i ∈ l, i < st.length := by
          cases linked with
          | none => cases hx
          | some ls => rw [hlen]; exact hl ls rfl l hx
        obtain ⟨fl, hfl⟩ := mapE_ok
          (fun i => if h : i < st.length then .ok (⟨i, h⟩ : Fin st.length) else .error .indexError) l
          (fun i hm => ⟨⟨i, hi i hm⟩, by simp only [dif_pos (hi i hm)]⟩)
        exact ⟨.inds fl, by rw [RawLink.check, hfl]⟩
  rw [hsets]
  simp only
  generalize (posteriorOf _ _ _ _ _ : Posterior st.length ℝ) = post
  obtain ⟨opp, hopp⟩ := mapE_ok (fun bc : ℝ × List ℝ => percentOpp (.fin bc.1) (bc.2.map Fl.fin))
    ((List.ofFn post.best).zip cols) (fun bc hbc => by
      obtain ⟨x, hx, _⟩ := hcol bc.2 (List.of_mem_zip hbc).2
      obtain ⟨v, hv, _⟩ := C43_percentage (.fin bc.1 : Fl ℝ) (bc.2.map Fl.fin)
        (by simpa using List.ne_nil_of_mem hx)
      exact ⟨v, hv⟩)
  rw [hopp]
  exact ⟨_, rfl⟩

/-- fixed parameters are repeated -/
theorem thetaChain_fixed {L : Nat} (cols : Cols L) : ∀ (theta : List (Fl ℝ)) (vary : List Bool) (i0 : Nat)
    (tc : Cols L), thetaChain cols theta vary i0 = .ok tc → ∀ (i : Nat) (c : Fin L → Fl ℝ),
      vary[i]? = some false → tc[i]? = some c → ∃ t, ∀ k, c k = t := by
  intro theta
  induction theta with
  | nil =>
    intro vary i0 tc h i c _ hc
    cases h
    simp at hc
  | cons t ts ih =>
    intro vary i0 tc h i c hv hc
    cases vary with
    | nil => simp at hv
    | cons v vs =>
      cases v with
      | true =>
        rw [thetaChain] at h
        split at h
        · cases h
        · split at h
          · cases h
          · rename_i rr hr
            cases h
            cases i with
            | zero => simp at hv
            | succ j => exact ih vs _ _ hr j c (by simpa using hv) (by simpa using hc)
      | false =>
        rw [thetaChain] at h
        split at h
        · cases h
        · rename_i rr hr
          cases h
          cases i with
          | zero =>
            simp only [List.getElem?_cons_zero, Option.some.injEq] at hc
            exact ⟨t, fun k => (congrFun hc k).symm⟩
          | succ j => exact ih vs _ _ hr j c (by simpa using hv) (by simpa using hc)

/-- the appended columns -/
noncomputable def derivedCols {L : Nat} (re : ℝ) (va rt sg : Fin L → Fl ℝ) : Cols L :=
  [fun k => velSample (va k) (rt k) re, fun k => velSample (va k) (rt k) (2.2 / 1.676 * re),
   fun k => sigmaSample (sg k) re, fun k => sigmaSample (sg k) (2.2 / 1.676 * re)]

theorem addVRe22_inv {L : Nat} (s : ChainIn L) (out : ChainIn L) (names : List String)
    (h : addVRe22 s = .ok (out, names)) :
    ∃ fc va rt sg rest, absSigma s = .ok fc ∧ thetaChain fc s.theta s.vary 0 = .ok (va :: rt :: sg :: rest) ∧
      out.flatchain = fc ++ derivedCols s.re va rt sg ∧
      names = freeNames s.names s.vary ++ ["V_RE", "V_22", "sigma_RE", "sigma_22"] := by
  unfold addVRe22 at h
  split at h
  · cases h
  · split at h
    · cases h
    · split at h
      · cases h
        exact ⟨_, _, _, _, _, ‹_›, ‹_›, rfl, rfl⟩
      · cases h

theorem absSigma_length {L : Nat} (s : ChainIn L) (fc : Cols L) (h : absSigma s = .ok fc) :
    fc.length = s.flatchain.length := by
  unfold absSigma at h
  split at h
  · split at h
    · cases h
    · rename_i ind _
      cases ind with
      | none => cases h; simp
      | some j =>
        rw [absColumn] at h
        split at h
        · cases h
        · cases h; simp
  · cases h; rfl

/-- the columns computed from the samples depend on the fixed parameters only -/
theorem thetaChain_update {L : Nat} (cols : Cols L) : ∀ (theta : List ℝ) (vary : List Bool) (fit : List ℝ) (i0 : Nat),
    thetaChain cols ((updateParameters theta vary fit).1.map Fl.fin) vary i0 =
      thetaChain cols (theta.map Fl.fin) vary i0 := by
  intro theta
  induction theta with
  | nil => intro vary fit i0; rfl
  | cons t ts ih =>
    intro vary fit i0
    cases vary with
    | nil => rfl
    | cons v vs =>
      cases v with
      | false =>
        simp only [updateParameters, List.map_cons, thetaChain]
        rw [ih]
      | true =>
        cases fit with
        | nil => rfl
        | cons f fs =>
          simp only [updateParameters, List.map_cons, thetaChain]
          rw [ih]

theorem thetaChain_append {L : Nat} (cols more : Cols L) : ∀ (theta : List (Fl ℝ)) (vary : List Bool) (i0 : Nat)
    (tc : Cols L), thetaChain cols theta vary i0 = .ok tc → thetaChain (cols ++ more) theta vary i0 = .ok tc := by
  intro theta
  induction theta with
  | nil => intro vary i0 tc h; exact h
  | cons t ts ih =>
    intro vary i0 tc h
    cases vary with
    | nil => cases h
    | cons v vs =>
      cases v with
      | true =>
        rw [thetaChain] at h ⊢
        split at h
        · cases h
        · rename_i cc hcc
          split at h
          · cases h
          · rename_i rr hr
            cases h
            have hlt : i0 < cols.length := (List.getElem?_eq_some_iff.mp hcc).1
            rw [List.getElem?_append_left hlt, hcc]
            simp only [ih vs _ _ hr]
      | false =>
        rw [thetaChain] at h ⊢
        split at h
        · cases h
        · rename_i rr hr
          cases h
          simp only [ih vs _ _ hr]

/-- analysing columns of which the last ones are repeated -/
theorem paramPosterior_again (o : PeakFinder) (A D : List (List ℝ)) (names : List String) (n : Nat) (r1 : FitResults)
    (h : paramPosterior o (A ++ D) none names n = .ok r1) :
    ∃ r2, paramPosterior o (A ++ D ++ D) none names n = .ok r2 ∧ r2.best = r1.best ++ r1.best.drop A.length := by
  cases hA : mapE (columnStats o) A with
  | error e =>
    unfold paramPosterior at h
    rw [mapE_append, hA] at h
    cases h
  | ok sA =>
    cases hD : mapE (columnStats o) D with
    | error e =>
      unfold paramPosterior at h
      rw [mapE_append, hA, hD] at h
      cases h
    | ok sD =>
      have lA := (mapE_spec _ _ _ hA).1
      have lD := (mapE_spec _ _ _ hD).1
      have e1 : mapE (columnStats o) (A ++ D) = .ok (sA ++ sD) := by rw [mapE_append, hA, hD]
      have e2 : mapE (columnStats o) (A ++ D ++ D) = .ok (sA ++ sD ++ sD) := by rw [mapE_append, e1, hD]
      rw [paramPosterior_unlinked o _ names n _ e1, List.map_append, List.zip_append (by simp [lA]), mapE_append] at h
      rw [paramPosterior_unlinked o _ names n _ e2, List.map_append, List.map_append,
        List.zip_append (by simp [lA, lD]), List.zip_append (by simp [lA]), mapE_append, mapE_append]
      cases hx : mapE (fun bc : ℝ × List ℝ => percentOpp (.fin bc.1) (bc.2.map Fl.fin))
          ((sA.map fun x => x.2.2).zip A) with
      | error e => rw [hx] at h; cases h
      | ok x =>
        rw [hx] at h
        simp only at h ⊢
        cases hy : mapE (fun bc : ℝ × List ℝ => percentOpp (.fin bc.1) (bc.2.map Fl.fin))
            ((sD.map fun x => x.2.2).zip D) with
        | error e => rw [hy] at h; cases h
        | ok y =>
          rw [hy] at h
          cases h
          refine ⟨_, rfl, ?_⟩
          simp only
          rw [List.drop_left' (by simp [lA])]

end Misfit
