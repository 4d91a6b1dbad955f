import Verif.Lemmas.Posterior
import Verif.Props.Params
import Mathlib.Data.Rat.Floor
import Mathlib.Tactic.FieldSimp

/-!
# C41–C43, C60, C61: analysis of a chain
-/

namespace Misfit

/-! ## C41: derived columns -/

section derived

/-- The four derived quantities of one sample with the full parameter vector `θ`:
rotation velocity and dispersion at the effective radius and at `2.2/1.676` effective
radii. -/
noncomputable def DerivedOf (re : ℝ) (θ : List (Fl ℝ)) (out : List (Fl ℝ)) : Prop :=
  ∃ va rt sg, θ[0]? = some va ∧ θ[1]? = some rt ∧ θ[2]? = some sg ∧
    out = [ .fin (2 / Real.pi) * va * Fl.arctan (.fin re / rt),
            .fin (2 / Real.pi) * va * Fl.arctan (.fin (2.2 / 1.676 * re) / rt), sg, sg ]

/-- Row `k` of a chain given by its columns. -/
def rowOf {L : Nat} (cols : Cols L) (k : Fin L) : List (Fl ℝ) := cols.map fun c => c k

theorem sigmaSample_eq (x : Fl ℝ) (r : ℝ) : sigmaSample x r = x := by
  unfold sigmaSample
  rw [zero_mul]
  exact zero_add x

theorem thetaChain_row {L : Nat} (cols : Cols L) (theta : List (Fl ℝ)) (vary : List Bool)
    (hv : vary.length = theta.length) (hc : vary.count true ≤ cols.length) :
    ∃ tc, thetaChain cols theta vary 0 = .ok tc ∧ tc.length = theta.length ∧
      ∀ k, IsUnpack theta vary (rowOf cols k) (rowOf tc k) := by
  obtain ⟨tc, h1, h2, h3⟩ := thetaChain_ok cols theta vary 0 hv (by omega)
  refine ⟨tc, h1, h2, fun k => ⟨by simp [rowOf, h2], fun i hi => ?_⟩⟩
  rw [rowOf, List.getElem?_map, h3 i hi]
  by_cases hb : vary[i]? = some true
  · rw [if_pos hb, if_pos hb, rowOf, List.getElem?_map, Nat.zero_add]
  · rw [if_neg hb, if_neg hb]
    cases theta[i]? <;> rfl

/-- The result of the analysis once the dispersion column has been treated (`fc`). -/
theorem addVRe22_of {L : Nat} (s : ChainIn L) (fc : Cols L) (hfc : absSigma s = .ok fc)
    (hv : s.vary.length = s.theta.length) (h3 : 3 ≤ s.theta.length)
    (hc : s.vary.count true ≤ fc.length) :
    ∃ out names, addVRe22 s = .ok (out, names) ∧
      out.theta = s.theta ∧ out.vary = s.vary ∧ out.re = s.re ∧
      out.absvalsigma = s.absvalsigma ∧ out.names = s.names ∧
      names = freeNames s.names s.vary ++ ["V_RE", "V_22", "sigma_RE", "sigma_22"] ∧
      out.flatchain.length = fc.length + 4 ∧
      ∀ k, ∃ θ d, IsUnpack s.theta s.vary (rowOf fc k) θ ∧ DerivedOf s.re θ d ∧
        rowOf out.flatchain k = rowOf fc k ++ d := by
  obtain ⟨tc, t1, t2, t3⟩ := thetaChain_row fc s.theta s.vary hv hc
  rw [addVRe22, hfc]
  simp only [t1]
  rcases tc with _ | ⟨va, tc⟩
  · simp at t2; omega
  rcases tc with _ | ⟨rt, tc⟩
  · simp at t2; omega
  rcases tc with _ | ⟨sg, tc⟩
  · simp at t2; omega
  refine ⟨_, _, rfl, rfl, rfl, rfl, rfl, rfl, rfl, by simp, fun k => ?_⟩
  refine ⟨_, _, t3 k, ⟨va k, rt k, sg k, rfl, rfl, rfl, rfl⟩, ?_⟩
  simp only [rowOf, List.map_append, List.map_cons, List.map_nil, sigmaSample_eq]
  rfl

/-- **C41** (partial): analysing a chain keeps all its columns and appends exactly four;
in every sample these are V and σ at the effective and the 2.2 scale radius, for the
parameter vector made of that sample's free values and the fixed parameters (`IsUnpack`,
the specification of C01).  Without the option that takes absolute values of the
dispersion.  Missing from the full claim: analysing again does change the result, see
`C41_false`. -/
theorem C41_columns_partial {L : Nat} (s : ChainIn L) (habs : s.absvalsigma = false)
    (hv : s.vary.length = s.theta.length) (h3 : 3 ≤ s.theta.length)
    (hc : s.vary.count true ≤ s.flatchain.length) :
    ∃ out names, addVRe22 s = .ok (out, names) ∧
      out.flatchain.length = s.flatchain.length + 4 ∧
      ∀ k, ∃ θ d, IsUnpack s.theta s.vary (rowOf s.flatchain k) θ ∧ DerivedOf s.re θ d ∧
        rowOf out.flatchain k = rowOf s.flatchain k ++ d := by
  have hfc : absSigma s = .ok s.flatchain := by rw [absSigma, habs]; rfl
  obtain ⟨out, names, h1, _, _, _, _, _, _, h8, h9⟩ := addVRe22_of s _ hfc hv h3 hc
  exact ⟨out, names, h1, h8, h9⟩

theorem freeNames_length : ∀ (ns : List String) (vs : List Bool), ns.length = vs.length →
    (freeNames ns vs).length = vs.count true := by
  intro ns
  induction ns with
  | nil =>
    intro vs h
    cases vs with
    | nil => rfl
    | cons v vs => simp at h
  | cons n ns ih =>
    intro vs h
    cases vs with
    | nil => simp at h
    | cons v vs =>
      have := ih vs (by simpa using h)
      cases v
      · rw [freeNames, this, List.count_cons_of_ne (by decide)]
      · rw [freeNames, List.length_cons, this, List.count_cons_self]

/-- **C41** (names): for a chain that has one column per free parameter, the reported
names are as many as the columns after the first analysis, in particular the derived
columns are the last four of both. -/
theorem C41_names {L : Nat} (s : ChainIn L) (habs : s.absvalsigma = false)
    (hv : s.vary.length = s.theta.length) (hn : s.names.length = s.vary.length)
    (h3 : 3 ≤ s.theta.length) (hc : s.flatchain.length = s.vary.count true) :
    ∃ out names, addVRe22 s = .ok (out, names) ∧ names.length = out.flatchain.length ∧
      names.drop (s.vary.count true) = ["V_RE", "V_22", "sigma_RE", "sigma_22"] := by
  have hfc : absSigma s = .ok s.flatchain := by rw [absSigma, habs]; rfl
  obtain ⟨out, names, h1, _, _, _, _, _, h7, h8, _⟩ := addVRe22_of s _ hfc hv h3 (by omega)
  have hl := freeNames_length s.names s.vary hn
  refine ⟨out, names, h1, ?_, ?_⟩
  · rw [h7, h8, List.length_append, hl, hc]; rfl
  · rw [h7, ← hl, List.drop_left]

/-- **C41**, negation of "analysing again does not change the result": for *every* chain
that can be analysed, analysing the result succeeds and gives four more columns (and
then the reported names are fewer than the columns). -/
theorem C41_false {L : Nat} (s : ChainIn L) (habs : s.absvalsigma = false)
    (hv : s.vary.length = s.theta.length) (h3 : 3 ≤ s.theta.length)
    (hc : s.vary.count true ≤ s.flatchain.length) :
    ∃ out names out2 names2, addVRe22 s = .ok (out, names) ∧
      addVRe22 out = .ok (out2, names2) ∧ names2 = names ∧
      out2.flatchain.length = out.flatchain.length + 4 := by
  have hfc : absSigma s = .ok s.flatchain := by rw [absSigma, habs]; rfl
  obtain ⟨out, names, h1, e1, e2, _, e4, e5, h7, h8, _⟩ := addVRe22_of s _ hfc hv h3 hc
  have hfc2 : absSigma out = .ok out.flatchain := by rw [absSigma, e4, habs]; rfl
  obtain ⟨out2, names2, g1, _, _, _, _, _, g7, g8, _⟩ :=
    addVRe22_of out _ hfc2 (by rw [e1, e2, hv]) (by rw [e1]; exact h3) (by rw [e2]; omega)
  exact ⟨out, names, out2, names2, h1, g1, by rw [g7, h7, e5, e2], g8⟩

/-- A chain with two samples; `V_a` and the dispersion vary, the turnover radius is
fixed. -/
noncomputable def exChain : ChainIn 2 :=
  { theta := [.fin 100, .fin 1, .fin 30], vary := [true, false, true]
    names := ["Va", "rt", "sigma0"]
    flatchain := [![.fin (-120), .fin 90], ![.fin (-20), .fin 40]]
    absvalsigma := false, re := 1 }

example : exChain.absvalsigma = false ∧ exChain.vary.length = exChain.theta.length ∧
    3 ≤ exChain.theta.length ∧ exChain.vary.count true = exChain.flatchain.length ∧
    exChain.names.length = exChain.vary.length := by
  refine ⟨rfl, rfl, ?_, rfl, rfl⟩
  exact le_refl 3

theorem thetaChain_short {L : Nat} (cols : Cols L) : ∀ (theta : List (Fl ℝ)) (vary : List Bool) (i : Nat),
    vary.length = theta.length → i ≤ cols.length → cols.length < i + vary.count true →
    thetaChain cols theta vary i = .error .indexError := by
  intro theta
  induction theta with
  | nil =>
    intro vary i hv hi hc
    rw [List.length_eq_zero_iff.1 hv] at hc
    simp at hc
    omega
  | cons t ts ih =>
    intro vary i hv hi hc
    cases vary with
    | nil => rfl
    | cons v vs =>
      cases v
      · rw [List.count_cons_of_ne (by decide)] at hc
        simp only [thetaChain, ih vs i (by simpa using hv) hi hc]
      · rw [List.count_cons_self] at hc
        rcases Nat.lt_or_ge i cols.length with h | h
        · simp only [thetaChain, List.getElem?_eq_getElem h, ih vs (i + 1) (by simpa using hv) h (by omega)]
        · simp only [thetaChain, List.getElem?_eq_none h]

/-- **C41** (error branch): with fewer columns than free parameters the analysis is an IndexError, with and without the
option that takes absolute values of the dispersion. -/
theorem C41_error {L : Nat} (s : ChainIn L) (hv : s.vary.length = s.theta.length)
    (hc : s.flatchain.length < s.vary.count true) : addVRe22 s = .error .indexError := by
  have key : ∀ fc : Cols L, fc.length = s.flatchain.length → thetaChain fc s.theta s.vary 0 = .error .indexError :=
    fun fc h => thetaChain_short fc s.theta s.vary 0 hv (Nat.zero_le _) (by omega)
  have habs : absSigma s = .error .indexError ∨ ∃ fc, absSigma s = .ok fc ∧ fc.length = s.flatchain.length := by
    unfold absSigma
    split
    · split
      · exact .inl rfl
      · rename_i ind _
        cases ind with
        | none => exact .inr ⟨_, rfl, by simp⟩
        | some j =>
          rw [absColumn]
          split
          · exact .inl rfl
          · exact .inr ⟨_, rfl, by simp⟩
    · exact .inr ⟨_, rfl, rfl⟩
  rcases habs with h | ⟨fc, h, hl⟩
  · rw [addVRe22, h]
  · rw [addVRe22, h]
    simp only [key fc hl]

example : addVRe22 { exChain with flatchain := [![.fin (-120), .fin 90]] } = .error .indexError :=
  C41_error _ rfl (by decide)

/-! ## C60: absolute values of the dispersion -/

/-- **C60** (partial): with the absolute value option and a free dispersion exactly the
dispersion column is replaced by its absolute values before the derived columns are
computed.  Missing from the full claim: a fixed dispersion, see `C60_false`. -/
theorem C60_abs_partial {L : Nat} (s : ChainIn L) (habs : s.absvalsigma = true)
    (hv : s.vary.length = s.theta.length) (h3 : 3 ≤ s.theta.length)
    (hfree : s.vary[2]? = some true) (hc : s.vary.count true ≤ s.flatchain.length) :
    ∃ out names, addVRe22 s = .ok (out, names) ∧
      out.flatchain.length = s.flatchain.length + 4 ∧
      (∀ k, ∃ row θ d, row.length = s.flatchain.length ∧ IsUnpack s.theta s.vary row θ ∧
        DerivedOf s.re θ d ∧ rowOf out.flatchain k = row ++ d) ∧
      ∀ (j : Nat) (k : Fin L), j < s.flatchain.length →
        (out.flatchain[j]?).map (fun c => c k) =
          if j = (s.vary.take 2).count true then
            (s.flatchain[j]?).map (fun c => Fl.abs (c k))
          else (s.flatchain[j]?).map (fun c => c k) := by
  have hlt : (s.vary.take 2).count true < s.flatchain.length := by
    have h2 : 2 < s.vary.length := by omega
    have hsplit : s.vary.count true =
        (s.vary.take 2).count true + (s.vary.drop 2).count true := by
      rw [← List.count_append, List.take_append_drop]
    have hd : s.vary.drop 2 = true :: s.vary.drop 3 := by
      rw [List.drop_eq_getElem_cons h2]
      rw [List.getElem?_eq_getElem h2] at hfree
      rw [Option.some.inj hfree]
    rw [hd, List.count_cons_self] at hsplit
    omega
  have hfi : (freeInds (s.vary.take s.theta.length) 0)[2]? =
      some (some ((s.vary.take 2).count true)) := by
    rw [← hv, List.take_length, freeInds_get _ _ _ (by omega), if_pos hfree, Nat.zero_add]
  have hfc : absSigma s = .ok (s.flatchain.set ((s.vary.take 2).count true)
      fun k => Fl.abs (s.flatchain[(s.vary.take 2).count true] k)) := by
    rw [absSigma, if_pos habs, hfi]
    show absColumn s.flatchain _ = _
    rw [absColumn, List.getElem?_eq_getElem hlt]
  obtain ⟨out, names, h1, _, _, _, _, _, _, h8, h9⟩ :=
    addVRe22_of s _ hfc hv h3 (by rw [List.length_set]; exact hc)
  refine ⟨out, names, h1, by rw [h8, List.length_set], fun k => ?_, fun j k hj => ?_⟩
  · obtain ⟨θ, d, a1, a2, a3⟩ := h9 k
    exact ⟨_, θ, d, by rw [rowOf, List.length_map, List.length_set], a1, a2, a3⟩
  obtain ⟨θ, d, _, _, hrow⟩ := h9 k
  have hj' : (rowOf out.flatchain k)[j]? = (rowOf (s.flatchain.set
      ((s.vary.take 2).count true) fun k =>
        Fl.abs (s.flatchain[(s.vary.take 2).count true] k)) k ++ d)[j]? := by rw [hrow]
  rw [List.getElem?_append_left (by simpa [rowOf] using hj), rowOf, rowOf, List.getElem?_map,
    List.getElem?_map] at hj'
  rw [hj', List.getElem?_set]
  by_cases hjn : j = (s.vary.take 2).count true
  · subst hjn
    rw [if_pos rfl, if_pos rfl, if_pos hlt, List.getElem?_eq_getElem hlt]
    rfl
  · rw [if_neg (fun h => hjn h.symm), if_neg hjn]

example : ({ exChain with absvalsigma := true } : ChainIn 2).vary[2]? = some true := rfl

/-- **C60**, negation: when the dispersion is fixed, *every* column of the chain is
replaced by its absolute values: a sample with a negative rotation velocity becomes a
positive one. -/
theorem C60_false :
    ∃ (s out : ChainIn 1) (names : List String), s.absvalsigma = true ∧
      s.vary[2]? = some false ∧ rowOf s.flatchain 0 = [.fin (-120)] ∧
      addVRe22 s = .ok (out, names) ∧ (rowOf out.flatchain 0)[0]? = some (.fin 120) := by
  have h := addVRe22_of
    ({ theta := [.fin 100, .fin 1, .fin 30], vary := [true, false, false]
       names := ["Va", "rt", "sigma0"], flatchain := [fun _ => .fin (-120)]
       absvalsigma := true, re := 1 } : ChainIn 1)
    [fun _ => Fl.abs (.fin (-120))] rfl rfl (le_refl 3) (le_refl 1)
  obtain ⟨out, names, h1, _, _, _, _, _, _, _, h9⟩ := h
  refine ⟨_, out, names, rfl, rfl, rfl, h1, ?_⟩
  obtain ⟨θ, d, _, _, hrow⟩ := h9 0
  rw [hrow]
  show some (Fl.fin (if (-120 : ℝ) < 0 then - -120 else -120)) = some (Fl.fin 120)
  rw [if_pos (by norm_num), neg_neg]

/-- **C60**, what happens with a fixed dispersion: the samples of every parameter are replaced by their
absolute values, and the derived columns are computed from these. -/
theorem C60_fixed {L : Nat} (s : ChainIn L) (habs : s.absvalsigma = true)
    (hv : s.vary.length = s.theta.length) (h3 : 3 ≤ s.theta.length)
    (hfixed : s.vary[2]? = some false) (hc : s.vary.count true ≤ s.flatchain.length) :
    ∃ out names, addVRe22 s = .ok (out, names) ∧
      ∀ k, ∃ θ d, IsUnpack s.theta s.vary ((rowOf s.flatchain k).map Fl.abs) θ ∧
        DerivedOf s.re θ d ∧ rowOf out.flatchain k = (rowOf s.flatchain k).map Fl.abs ++ d := by
  have hfi : (freeInds (s.vary.take s.theta.length) 0)[2]? = some none := by
    rw [← hv, List.take_length, freeInds_get _ _ _ (by omega), if_neg (by rw [hfixed]; simp)]
  have hfc : absSigma s = .ok (s.flatchain.map fun c k => Fl.abs (c k)) := by
    rw [absSigma, if_pos habs, hfi]
    rfl
  obtain ⟨out, names, h1, _, _, _, _, _, _, h8, h9⟩ :=
    addVRe22_of s _ hfc hv h3 (by rw [List.length_map]; exact hc)
  refine ⟨out, names, h1, fun k => ?_⟩
  obtain ⟨θ, d, a1, a2, a3⟩ := h9 k
  have e : rowOf (s.flatchain.map fun c k => Fl.abs (c k)) k = (rowOf s.flatchain k).map Fl.abs := by
    simp [rowOf, List.map_map, Function.comp_def]
  rw [e] at a1 a3
  exact ⟨θ, d, a1, a2, a3⟩

/-- **C60**, exactly: with the absolute value option the samples of every parameter other than the
dispersion are unchanged if and only if the dispersion is free, or taking the absolute value changes
no sample at all. -/
theorem C60_exact {L : Nat} (s : ChainIn L) (habs : s.absvalsigma = true)
    (hv : s.vary.length = s.theta.length) (h3 : 3 ≤ s.theta.length)
    (hc : s.vary.count true ≤ s.flatchain.length) :
    ∃ out names, addVRe22 s = .ok (out, names) ∧
      ((∀ (j : Nat) (k : Fin L), j < s.flatchain.length →
          ¬ (s.vary[2]? = some true ∧ j = (s.vary.take 2).count true) →
          (out.flatchain[j]?).map (fun c => c k) = (s.flatchain[j]?).map (fun c => c k)) ↔
        s.vary[2]? = some true ∨ ∀ c ∈ s.flatchain, ∀ k, Fl.abs (c k) = c k) := by
  have h2 : 2 < s.vary.length := by omega
  cases hx : s.vary[2]'h2 with
  | true =>
    have hfree : s.vary[2]? = some true := by rw [List.getElem?_eq_getElem h2, hx]
    obtain ⟨out, names, h, -, -, hcol⟩ := C60_abs_partial s habs hv h3 hfree hc
    refine ⟨out, names, h, ⟨fun _ => .inl hfree, fun _ j k hj hn => ?_⟩⟩
    rw [hcol j k hj, if_neg fun h => hn ⟨hfree, h⟩]
  | false =>
    have hfixed : s.vary[2]? = some false := by rw [List.getElem?_eq_getElem h2, hx]
    obtain ⟨out, names, h, hrow⟩ := C60_fixed s habs hv h3 hfixed hc
    have hcol : ∀ (j : Nat) (k : Fin L), j < s.flatchain.length →
        (out.flatchain[j]?).map (fun c => c k) = (s.flatchain[j]?).map (fun c => Fl.abs (c k)) := by
      intro j k hj
      obtain ⟨θ, d, -, -, e⟩ := hrow k
      have e' := congrArg (fun l => l[j]?) e
      simp only [rowOf] at e'
      rw [List.getElem?_append_left (by simpa using hj), List.getElem?_map, List.getElem?_map,
        List.getElem?_map] at e'
      rw [e', Option.map_map]
      rfl
    refine ⟨out, names, h, ⟨fun hall => .inr fun c hcm k => ?_, fun hor j k hj _ => ?_⟩⟩
    · obtain ⟨j, hj, rfl⟩ := List.getElem_of_mem hcm
      have := hall j k hj (fun h => by rw [hfixed] at h; exact absurd h.1 (by simp))
      rw [hcol j k hj, List.getElem?_eq_getElem hj] at this
      exact Option.some.inj this
    · rw [hcol j k hj, List.getElem?_eq_getElem hj]
      have hs := hor.resolve_left (by rw [hfixed]; simp)
      exact congrArg some (hs _ (List.getElem_mem hj) k)

end derived

/-! ## C42: credible intervals -/

section percentiles
variable {K : Type*} [Field K] [LinearOrder K] [IsStrictOrderedRing K] [FloorRing K]

/-- **C42**: for every non-empty column of samples all four percentiles exist and are
nested: 2σ lower ≤ 1σ lower ≤ 1σ upper ≤ 2σ upper. -/
theorem C42_nested (col : List K) (hne : col ≠ []) :
    ∃ l1 l2 : K × K, limits1 col = .ok l1 ∧ limits2 col = .ok l2 ∧
      l2.1 ≤ l1.1 ∧ l1.1 ≤ l1.2 ∧ l1.2 ≤ l2.2 := by
  obtain ⟨a, ha⟩ := percentile_ok col 15.865 hne (by norm_num) (by norm_num)
  obtain ⟨b, hb⟩ := percentile_ok col 84.135 hne (by norm_num) (by norm_num)
  obtain ⟨c, hc⟩ := percentile_ok col 2.275 hne (by norm_num) (by norm_num)
  obtain ⟨d, hd⟩ := percentile_ok col 97.725 hne (by norm_num) (by norm_num)
  refine ⟨(a, b), (c, d), by rw [limits1, percentilePair, ha, hb],
    by rw [limits2, percentilePair, hc, hd], ?_, ?_, ?_⟩
  · exact percentile_mono col _ _ _ _ hne (by norm_num) (by norm_num) (by norm_num) hc ha
  · exact percentile_mono col _ _ _ _ hne (by norm_num) (by norm_num) (by norm_num) ha hb
  · exact percentile_mono col _ _ _ _ hne (by norm_num) (by norm_num) (by norm_num) hb hd

/-- **C42**: the limits lie within any bounds of the samples (so inside the flat prior
when the samples are). -/
theorem C42_within (col : List K) (hne : col ≠ []) (lo hi : K)
    (hb : ∀ x ∈ col, lo ≤ x ∧ x ≤ hi) (l2 : K × K) (h : limits2 col = .ok l2) :
    lo ≤ l2.1 ∧ l2.2 ≤ hi := by
  obtain ⟨c, hc⟩ := percentile_ok col 2.275 hne (by norm_num) (by norm_num)
  obtain ⟨d, hd⟩ := percentile_ok col 97.725 hne (by norm_num) (by norm_num)
  rw [limits2, percentilePair, hc, hd] at h
  obtain rfl := Except.ok.inj h
  exact ⟨(percentile_range col _ _ lo hi hne (by norm_num) (by norm_num) hb hc).1,
    (percentile_range col _ _ lo hi hne (by norm_num) (by norm_num) hb hd).2⟩

/-- the quartiles and the median of five samples, given in any order -/
example : percentile [30, 10, 50, 20, (40 : ℚ)] 25 = .ok 20 ∧
    percentile [30, 10, 50, 20, (40 : ℚ)] 50 = .ok 30 ∧
    percentile [30, 10, 50, 20, (40 : ℚ)] 60 = .ok 34 ∧
    percentile ([] : List ℚ) 50 = .error .indexError := by
  decide +kernel

end percentiles

section linked
variable {K : Type*} [Field K]

/-- The claim about uncertainties: lower = best − lower limit, upper = upper limit −
best. -/
def ErrMatches {n : Nat} (best : Fin n → K) (lims err : Fin n → K × K) : Prop :=
  ∀ p, err p = (best p - (lims p).1, (lims p).2 - best p)

/-- A peak finder whose result does not depend on the starting point and has one value
per linked parameter. -/
def GoodJoint {n : Nat} (joint : List (Fin n) → List K → List K) : Prop :=
  ∀ inds s s', joint inds s = joint inds s'

theorem linkedLoop_two {n : Nat} (joint : List (Fin n) → List K → List K)
    (hj : GoodJoint joint) (lims2 : Fin n → K × K) :
    ∀ (sets : List (LinkSet n)) (cur : Fin n → K × K) (st : Posterior n K),
      ErrMatches st.best lims2 st.err2 →
      ErrMatches (linkedLoop joint lims2 cur st sets).best lims2
        (linkedLoop joint lims2 cur st sets).err2 := by
  intro sets
  induction sets with
  | nil => intro cur st h; exact h
  | cons s rest ih =>
    intro cur st h
    rw [linkedLoop]
    apply ih
    intro p
    simp only [bestfitLinked]
    rw [hj s.resolve (s.resolve.map (writeLinked cur st.best st.err1
      (s.resolve.zip (joint s.resolve (s.resolve.map st.best)))).1) (s.resolve.map st.best)]
    generalize s.resolve.zip (joint s.resolve (s.resolve.map st.best)) = ps
    have hw := writeLinked_spec lims2 ps (writeLinked cur st.best st.err1 ps).1 st.err2 p
    have hb := (writeLinked_spec cur ps st.best st.err1 p).1
    by_cases hp : p ∈ ps.map Prod.fst
    · rw [hw.2 hp, writeLinked_best_indep lims2 cur ps _ st.best st.err2 st.err1 p (Or.inl hp)]
      rfl
    · rw [(hw.1 hp).2, (hb hp).1]
      exact h p

/-- The parameters written when a linked set is processed. -/
def touched {n : Nat} (s : LinkSet n) (p : Fin n) : Prop := p ∈ s.resolve

theorem writeLinked_untouched {n : Nat} (joint : List (Fin n) → List K → List K)
    (lims : Fin n → K × K) (best : Fin n → K) (err : Fin n → K × K) (s : LinkSet n)
    (p : Fin n) (hp : ¬ touched s p) :
    (bestfitLinked joint lims best err s).1 p = best p ∧
      (bestfitLinked joint lims best err s).2 p = err p := by
  apply (writeLinked_spec lims _ best err p).1
  intro hmem
  obtain ⟨⟨a, b⟩, hab, rfl⟩ := List.mem_map.mp hmem
  exact hp (List.of_mem_zip hab).1

theorem linkedLoop_untouched {n : Nat} (joint : List (Fin n) → List K → List K)
    (lims2 : Fin n → K × K) (p : Fin n) :
    ∀ (sets : List (LinkSet n)) (cur : Fin n → K × K) (st : Posterior n K),
      (∀ s ∈ sets, ¬ touched s p) →
      (linkedLoop joint lims2 cur st sets).best p = st.best p ∧
        (linkedLoop joint lims2 cur st sets).err1 p = st.err1 p := by
  intro sets
  induction sets with
  | nil => intro _ _ _; exact ⟨rfl, rfl⟩
  | cons s rest ih =>
    intro cur st h
    rw [linkedLoop]
    obtain ⟨h1, h2⟩ := writeLinked_untouched joint cur st.best st.err1 s p (h s (by simp))
    obtain ⟨g1, g2⟩ := ih lims2 _ (fun t ht => h t (by simp [ht]))
    exact ⟨by rw [g1]; exact h1, by rw [g2]; exact h2⟩

/-- **C42** (no linked sets): both uncertainties of every parameter are best minus lower
and upper minus best. -/
theorem C42_unlinked {n : Nat} (joint : List (Fin n) → List K → List K)
    (lims1 lims2 : Fin n → K × K) (peak : Fin n → K) :
    (posteriorOf joint lims1 lims2 peak none).best = peak ∧
    ErrMatches peak lims1 (posteriorOf joint lims1 lims2 peak none).err1 ∧
    ErrMatches peak lims2 (posteriorOf joint lims1 lims2 peak none).err2 :=
  ⟨rfl, fun _ => rfl, fun _ => rfl⟩

/-- **C42** (linked sets, partial): for every list of linked sets and every parameter
that belongs to none but possibly the first of them, the 1σ uncertainties are best minus
lower and upper minus best, whatever the joint peak finder returns.
Missing from the full claim: parameters of later sets, see `C42_false_second`. -/
theorem C42_linked1_partial {n : Nat} (joint : List (Fin n) → List K → List K)
    (lims1 lims2 : Fin n → K × K) (peak : Fin n → K) (sets : List (LinkSet n)) (p : Fin n)
    (hp : ∀ s ∈ sets.tail, ¬ touched s p) :
    (posteriorOf joint lims1 lims2 peak (some sets)).err1 p =
      ((posteriorOf joint lims1 lims2 peak (some sets)).best p - (lims1 p).1,
       (lims1 p).2 - (posteriorOf joint lims1 lims2 peak (some sets)).best p) := by
  cases sets with
  | nil => rfl
  | cons s rest =>
    show (linkedLoop joint lims2 lims1 _ (s :: rest)).err1 p = _
    have hb : (posteriorOf joint lims1 lims2 peak (some (s :: rest))).best p =
      (linkedLoop joint lims2 lims1 ⟨peak, fun p => errFrom (peak p) (lims1 p),
        fun p => errFrom (peak p) (lims2 p)⟩ (s :: rest)).best p := rfl
    rw [hb, linkedLoop]
    obtain ⟨g1, g2⟩ := linkedLoop_untouched joint lims2 p rest lims2 _ hp
    rw [g1, g2]
    simp only [bestfitLinked]
    generalize s.resolve.zip (joint s.resolve (s.resolve.map peak)) = ps
    have hw := writeLinked_spec lims1 ps peak (fun p => errFrom (peak p) (lims1 p)) p
    by_cases hin : p ∈ ps.map Prod.fst
    · exact hw.2 hin
    · rw [(hw.1 hin).1, (hw.1 hin).2]; rfl

/-- **C42** (linked sets, partial): for every list of linked sets the 2σ uncertainties of
every parameter are best minus lower and upper minus best, provided the joint peak
finder returns the same peak whatever its starting point.
Missing from the full claim: peak finders that depend on the starting point (the code
runs the search a second time from the updated best fit), see `C42_false_restart`. -/
theorem C42_linked2_partial {n : Nat} (joint : List (Fin n) → List K → List K)
    (hj : GoodJoint joint) (lims1 lims2 : Fin n → K × K) (peak : Fin n → K)
    (sets : List (LinkSet n)) :
    ErrMatches (posteriorOf joint lims1 lims2 peak (some sets)).best lims2
      (posteriorOf joint lims1 lims2 peak (some sets)).err2 :=
  linkedLoop_two joint hj lims2 sets lims1 _ (fun _ => rfl)

theorem writeLinked_get {n : Nat} (lims : Fin n → K × K) :
    ∀ (ps : List (Fin n × K)) (best : Fin n → K) (err : Fin n → K × K) (p : Fin n) (v : K),
      (ps.map Prod.fst).Nodup → (p, v) ∈ ps → (writeLinked lims best err ps).1 p = v
  | (q, w) :: ps, best, err, p, v, hn, hp => by
      rw [List.map_cons, List.nodup_cons] at hn
      rw [writeLinked]
      rcases List.mem_cons.1 hp with h | h
      · cases h
        rw [((writeLinked_spec lims ps _ _ q).1 hn.1).1, Function.update_self]
      · exact writeLinked_get lims ps _ _ p v hn.2 h

/-- **C42** (linked set `'all'`): every column but the last four gets its component of the joint peak, searched from the
marginal best fits of exactly these columns; the last four (derived quantities) keep their marginal best fit. -/
theorem C42_all {n : Nat} (joint : List (Fin n) → List K → List K) (lims1 lims2 : Fin n → K × K) (peak : Fin n → K)
    (cols : List (Fin n)) (hcols : cols.Pairwise (· < ·)) (hmem : ∀ p : Fin n, p ∈ cols ↔ (p : ℕ) + 4 < n)
    (hlen : (joint cols (cols.map peak)).length = cols.length) :
    (∀ (i : ℕ) (p : Fin n), cols[i]? = some p →
      some ((posteriorOf joint lims1 lims2 peak (some [.all])).best p) = (joint cols (cols.map peak))[i]?) ∧
    (∀ p : Fin n, n ≤ (p : ℕ) + 4 → (posteriorOf joint lims1 lims2 peak (some [.all])).best p = peak p) := by
  have hres : (LinkSet.all : LinkSet n).resolve = cols := by
    show (List.finRange n).take (n - 4) = cols
    have hs : ((List.finRange n).take (n - 4)).Pairwise (· < ·) := (List.pairwise_lt_finRange n).sublist (List.take_sublist _ _)
    refine List.Perm.eq_of_pairwise (fun a b _ _ h1 h2 => absurd h1 (lt_asymm h2)) hs hcols ?_
    rw [List.perm_ext_iff_of_nodup (hs.imp fun h => h.ne) (hcols.imp fun h => h.ne)]
    intro p
    rw [hmem, List.mem_take_iff_getElem]
    constructor
    · rintro ⟨i, hi, rfl⟩
      simp at hi ⊢
      omega
    · intro hp
      exact ⟨p, by simp; omega, by simp⟩
  have hb : (posteriorOf joint lims1 lims2 peak (some [.all])).best =
      (writeLinked lims1 peak (fun p => errFrom (peak p) (lims1 p)) (cols.zip (joint cols (cols.map peak)))).1 := by
    show (bestfitLinked joint lims1 peak (fun p => errFrom (peak p) (lims1 p)) LinkSet.all).1 = _
    unfold bestfitLinked
    rw [hres]
  rw [hb]
  have hfst : (cols.zip (joint cols (cols.map peak))).map Prod.fst = cols := by
    rw [List.map_fst_zip hlen.ge]
  constructor
  · intro i p hip
    obtain ⟨hi, hip⟩ := List.getElem?_eq_some_iff.1 hip
    rw [List.getElem?_eq_getElem (hlen ▸ hi)]
    congr 1
    apply writeLinked_get
    · rw [hfst]; exact hcols.imp fun h => h.ne
    · rw [← hip, List.mem_iff_getElem]
      exact ⟨i, by rw [List.length_zip, hlen]; omega, by rw [List.getElem_zip]⟩
  · intro p hp
    refine ((writeLinked_spec lims1 _ peak _ p).1 ?_).1
    rw [hfst, hmem]
    omega

end linked

/-- joint peak finder of the examples: always finds 5 -/
def exJoint (inds : List (Fin 6)) (_ : List ℚ) : List ℚ := inds.map fun _ => 5

example : GoodJoint exJoint := fun _ _ _ => rfl

/-- `C42_all` with six columns: the first two are linked -/
example : ([0, 1] : List (Fin 6)).Pairwise (· < ·) ∧ (∀ p : Fin 6, p ∈ ([0, 1] : List (Fin 6)) ↔ (p : ℕ) + 4 < 6) ∧
    (exJoint [0, 1] ([0, 1].map fun _ => 3)).length = 2 := by decide +kernel

/-- **C42**, negation (second linked set): with two linked sets the 1σ uncertainty of a
parameter of the second set is taken from the 2σ limits: it equals the 2σ uncertainty,
although the limits differ. -/
theorem C42_false_second :
    ∃ (lims1 lims2 : Fin 6 → ℚ × ℚ) (peak : Fin 6 → ℚ) (sets : List (LinkSet 6)),
      GoodJoint exJoint ∧ (∀ p, (lims2 p).1 < (lims1 p).1 ∧ (lims1 p).2 < (lims2 p).2) ∧
      ¬ ErrMatches (posteriorOf exJoint lims1 lims2 peak (some sets)).best lims1
        (posteriorOf exJoint lims1 lims2 peak (some sets)).err1 ∧
      (posteriorOf exJoint lims1 lims2 peak (some sets)).err1 1 =
        (posteriorOf exJoint lims1 lims2 peak (some sets)).err2 1 := by
  refine ⟨fun _ => (4, 6), fun _ => (3, 7), fun _ => 5, [.inds [0], .inds [1]],
    fun _ _ _ => rfl, fun p => by norm_num, fun h => ?_, by decide +kernel⟩
  exact absurd (h 1) (by decide +kernel)

/-- **C42**, negation (second search): with a peak finder that moves on when restarted,
the 2σ uncertainty does not belong to the reported best fit. -/
theorem C42_false_restart :
    ∃ (joint : List (Fin 6) → List ℚ → List ℚ) (lims1 lims2 : Fin 6 → ℚ × ℚ)
      (peak : Fin 6 → ℚ),
      ¬ ErrMatches (posteriorOf joint lims1 lims2 peak (some [.inds [0]])).best lims2
        (posteriorOf joint lims1 lims2 peak (some [.inds [0]])).err2 := by
  refine ⟨fun _ s => s.map (· + 1), fun _ => (4, 6), fun _ => (3, 7), fun _ => 5, fun h => ?_⟩
  exact absurd (h 0) (by decide +kernel)

/-! ## C61: the starting value of the peak search -/

section seed
variable {K : Type*} [Field K] [LinearOrder K] [IsStrictOrderedRing K] [FloorRing K]

/-- **C61**: the starting value of the peak search of every parameter lies between the
smallest and the largest sample, for every non-empty column (a constant one included). -/
theorem C61_seed (col : List K) (lo hi v : K)
    (hlo : col.min? = some lo) (hhi : col.max? = some hi) (hv : seedOf col = .ok v) :
    lo ≤ v ∧ v ≤ hi := by
  have hne : col ≠ [] := by rintro rfl; simp at hlo
  have hb : ∀ x ∈ col, lo ≤ x ∧ x ≤ hi := by
    intro x hx
    exact ⟨(List.min?_eq_some_iff.mp hlo).2 x hx, (List.max?_eq_some_iff.mp hhi).2 x hx⟩
  have hlh : lo ≤ hi := (hb lo (List.min?_eq_some_iff.mp hlo).1).2
  rw [seedOf, hlo, hhi] at hv
  simp only at hv
  cases hw : histPeakIdx col lo hi with
  | none => rw [hw] at hv; exact absurd hv (by simp)
  | some w =>
    cases hq : percentile col 50 with
    | error e => rw [hw, hq] at hv; exact absurd hv (by simp)
    | ok q50 =>
      have hqr := percentile_range col 50 q50 lo hi hne (by norm_num) (by norm_num) hb hq
      rw [hw, hq] at hv
      simp only at hv
      have hw50 : w < 50 := by
        have := List.mem_of_find?_eq_some hw
        simpa using this
      by_cases hc : Fl.ltB (.fin (15 / 100))
          (Fl.abs (.fin ((histEdge lo hi w + histEdge lo hi (w + 1)) / 2 - q50)) /
            .fin (hi - lo)) = true
      · rw [if_pos hc] at hv
        rw [← Except.ok.inj hv]
        exact hqr
      · rw [if_neg hc] at hv
        rw [← Except.ok.inj hv]
        rcases eq_or_lt_of_le hlh with heq | hlt
        · -- all samples equal: the centre must coincide with the median
          subst heq
          have hq' : q50 = lo := le_antisymm hqr.2 hqr.1
          set pk := (histEdge lo lo w + histEdge lo lo (w + 1)) / 2 with hpk
          have : pk - q50 = 0 := by
            by_contra hne0
            apply hc
            rw [sub_self, Fl.abs, Fl.fin_div, if_pos rfl]
            have hpos : 0 < (if pk - q50 < 0 then -(pk - q50) else pk - q50) := by
              split
              · linarith
              · rename_i h; exact lt_of_le_of_ne (not_lt.mp h) (Ne.symm hne0)
            rw [Fl.infTimes, if_neg (ne_of_gt hpos), if_pos hpos]
            rfl
          rw [hq'] at this
          have : pk = lo := by linarith
          rw [this]
          exact ⟨le_refl _, le_refl _⟩
        · simp only [histEdge, if_neg (ne_of_lt hlt)]
          have hwK : (w : K) + 1 ≤ 50 := by exact_mod_cast hw50
          have hw0 : (0 : K) ≤ (w : K) := Nat.cast_nonneg _
          have hd : 0 < (hi - lo) / 50 := by
            apply div_pos _ (by norm_num); linarith
          have h1 : 0 ≤ (w : K) * ((hi - lo) / 50) := mul_nonneg hw0 hd.le
          have h2 : ((w : K) + 1) * ((hi - lo) / 50) ≤ 50 * ((hi - lo) / 50) :=
            mul_le_mul_of_nonneg_right hwK hd.le
          have h3 : 50 * ((hi - lo) / 50) = hi - lo := by
            rw [mul_div_cancel₀ _ (by norm_num : (50 : K) ≠ 0)]
          push_cast
          constructor
          · linarith
          · linarith

/-- **C61** (existence): a starting value exists for every non-empty column. -/
theorem C61_exists (col : List K) (hne : col ≠ []) : ∃ v, seedOf col = .ok v := by
  obtain ⟨lo, hlo⟩ : ∃ lo, col.min? = some lo := by
    cases h : col.min? with
    | none => exact absurd (List.min?_eq_none_iff.mp h) hne
    | some x => exact ⟨x, rfl⟩
  obtain ⟨hi, hhi⟩ : ∃ hi, col.max? = some hi := by
    cases h : col.max? with
    | none => exact absurd (List.max?_eq_none_iff.mp h) hne
    | some x => exact ⟨x, rfl⟩
  obtain ⟨q, hq⟩ := percentile_ok col 50 hne (by norm_num) (by norm_num)
  obtain ⟨w, hw⟩ : ∃ w, histPeakIdx col lo hi = some w := by
    obtain ⟨m, hm, hmax⟩ := Finset.exists_max_image (Finset.range 50)
      (fun i => histCount col lo hi i) ⟨0, by simp⟩
    have : (histPeakIdx col lo hi).isSome := by
      rw [histPeakIdx, List.find?_isSome]
      refine ⟨m, by simpa using hm, ?_⟩
      rw [List.all_eq_true]
      intro j hj
      rw [decide_eq_true_eq]
      exact hmax j (by simpa using hj)
    exact Option.isSome_iff_exists.mp this
  rw [seedOf, hlo, hhi]
  simp only [hw, hq]
  split <;> exact ⟨_, rfl⟩

/-- a constant column: the starting value is the constant -/
example : seedOf [(7 : ℚ), 7, 7] = .ok 7 := by decide +kernel
/-- a skewed column: the fullest bin is at the edge, the median is used -/
example : seedOf [(0 : ℚ), 0, 0, 50, 60, 70, 100] = .ok 50 := by decide +kernel
example : seedOf [(0 : ℚ), 50, 50, 50, 100] = .ok 51 := by decide +kernel

end seed

section seed2
variable {K : Type*} [Field K] [LinearOrder K] [IsStrictOrderedRing K] [FloorRing K]

/-- Specification: sample `x` lies in bin `w` of 50 equal bins between `lo` and `hi`. -/
def InBin (lo hi : K) (w : Nat) (x : K) : Prop :=
  (w : K) * (hi - lo) ≤ 50 * (x - lo) ∧ (w < 49 → 50 * (x - lo) < (w + 1) * (hi - lo)) ∧ x ≤ hi

instance (lo hi : K) (w : Nat) (x : K) : Decidable (InBin lo hi w x) := by
  unfold InBin
  infer_instance

theorem histCount_bin (col : List K) (lo hi : K) (hlt : lo < hi) (hb : ∀ x ∈ col, lo ≤ x ∧ x ≤ hi) (w : Nat) (hw : w < 50) :
    histCount col lo hi w = col.countP fun x => decide (InBin lo hi w x) := by
  unfold histCount
  refine List.countP_congr fun x hx => ?_
  obtain ⟨h1, h2⟩ := hb x hx
  simp only [Bool.and_eq_true, Bool.or_eq_true, decide_eq_true_eq]
  unfold InBin histEdge
  rw [if_neg (ne_of_lt hlt), if_neg (ne_of_lt hlt)]
  push_cast
  constructor
  · rintro ⟨ha, hc⟩
    refine ⟨by linarith, fun h49 => ?_, h2⟩
    rcases hc with hc | ⟨h, -⟩
    · linarith
    · omega
  · rintro ⟨ha, hc, -⟩
    refine ⟨by linarith, ?_⟩
    by_cases h49 : w < 49
    · left
      have := hc h49
      linarith
    · right
      have : w = 49 := by omega
      subst this
      refine ⟨rfl, ?_⟩
      push_cast
      linarith

/-- **C61**: every sample lies in exactly one of the 50 bins. -/
theorem C61_bins (lo hi x : K) (hlt : lo < hi) (h1 : lo ≤ x) (h2 : x ≤ hi) : ∃! w : Nat, w < 50 ∧ InBin lo hi w x := by
  have hd : 0 < hi - lo := by linarith
  obtain ⟨t, ht⟩ : ∃ t, t = 50 * (x - lo) / (hi - lo) := ⟨_, rfl⟩
  have ht' : 50 * (x - lo) = t * (hi - lo) := by rw [ht]; field_simp
  have ht0 : 0 ≤ t := by
    rw [ht]
    exact div_nonneg (by linarith) hd.le
  have key : ∀ w : Nat, InBin lo hi w x ↔ (w : K) ≤ t ∧ (w < 49 → t < w + 1) := by
    intro w
    unfold InBin
    rw [ht', mul_le_mul_iff_left₀ hd, mul_lt_mul_iff_left₀ hd, and_iff_left h2]
  refine ⟨min ⌊t⌋₊ 49, ⟨by omega, (key _).2 ⟨?_, fun h => ?_⟩⟩, ?_⟩
  · exact le_trans (by exact_mod_cast min_le_left _ _) (Nat.floor_le ht0)
  · have : min ⌊t⌋₊ 49 = ⌊t⌋₊ := by omega
    rw [this]
    exact Nat.lt_floor_add_one t
  · rintro w ⟨hw, hbin⟩
    obtain ⟨ha, hc⟩ := (key w).1 hbin
    have hwf : w ≤ ⌊t⌋₊ := Nat.le_floor ha
    by_cases h49 : w < 49
    · have : ⌊t⌋₊ < w + 1 := (Nat.floor_lt ht0).2 (by exact_mod_cast hc h49)
      omega
    · omega

/-- **C61**: the starting value is the median, or the middle of a bin that no other bin surpasses in samples and that is not further
from the median than 15 % of the range of the samples; it is the latter whenever the first such bin is. -/
theorem C61_value (col : List K) (lo hi v q : K) (hlt : lo < hi)
    (hlo : col.min? = some lo) (hhi : col.max? = some hi) (hq : percentile col 50 = .ok q) (hv : seedOf col = .ok v) :
    ∃ w < 50, (∀ j < 50, col.countP (fun x => decide (InBin lo hi j x)) ≤ col.countP fun x => decide (InBin lo hi w x)) ∧
      (∀ j < w, col.countP (fun x => decide (InBin lo hi j x)) < col.countP fun x => decide (InBin lo hi w x)) ∧
      v = if |lo + (w + 1 / 2) * ((hi - lo) / 50) - q| ≤ 15 / 100 * (hi - lo) then lo + (w + 1 / 2) * ((hi - lo) / 50) else q := by
  have hb : ∀ x ∈ col, lo ≤ x ∧ x ≤ hi := fun x hx =>
    ⟨(List.min?_eq_some_iff.mp hlo).2 x hx, (List.max?_eq_some_iff.mp hhi).2 x hx⟩
  rw [seedOf, hlo, hhi] at hv
  simp only at hv
  cases hw : histPeakIdx col lo hi with
  | none => rw [hw] at hv; exact absurd hv (by simp)
  | some w =>
    rw [hw, hq] at hv
    simp only at hv
    have hw50 : w < 50 := by
      have := List.mem_of_find?_eq_some hw
      simpa using this
    have hmax : ∀ j < 50, histCount col lo hi j ≤ histCount col lo hi w := by
      have := List.find?_some hw
      simpa using this
    have hfirst : ∀ j < w, histCount col lo hi j < histCount col lo hi w := by
      intro j hj
      by_contra hno
      unfold histPeakIdx at hw
      rw [List.find?_range_eq_some] at hw
      have := hw.2.2 j hj
      rw [Bool.not_eq_true', ← Bool.not_eq_true] at this
      refine this ?_
      rw [List.all_eq_true]
      intro k hk
      rw [decide_eq_true_eq]
      have := hmax k (by simpa using hk)
      omega
    have hpk : (histEdge lo hi w + histEdge lo hi (w + 1)) / 2 = lo + (w + 1 / 2) * ((hi - lo) / 50) := by
      unfold histEdge
      rw [if_neg (ne_of_lt hlt), if_neg (ne_of_lt hlt)]
      push_cast
      ring
    refine ⟨w, hw50, fun j hj => ?_, fun j hj => ?_, ?_⟩
    · rw [← histCount_bin col lo hi hlt hb j hj, ← histCount_bin col lo hi hlt hb w hw50]
      exact hmax j hj
    · rw [← histCount_bin col lo hi hlt hb j (by omega), ← histCount_bin col lo hi hlt hb w hw50]
      exact hfirst j hj
    · rw [hpk] at hv
      have hd : 0 < hi - lo := by linarith
      obtain ⟨p, hp⟩ : ∃ p, p = lo + ((w : K) + 1 / 2) * ((hi - lo) / 50) := ⟨_, rfl⟩
      rw [← hp] at hv ⊢
      have hcond : Fl.ltB (.fin (15 / 100)) (Fl.abs (.fin (p - q)) / .fin (hi - lo)) = true ↔ ¬ |p - q| ≤ 15 / 100 * (hi - lo) := by
        have habs : Fl.abs (.fin (p - q)) = .fin |p - q| := by
          rw [Fl.abs]
          congr 1
          split
          · rename_i h; rw [abs_of_neg h]
          · rename_i h; rw [abs_of_nonneg (not_lt.mp h)]
        rw [habs, Fl.fin_div, if_neg (ne_of_gt hd)]
        unfold Fl.ltB
        simp only [decide_eq_true_eq]
        rw [lt_div_iff₀ hd, not_le]
      by_cases hc : |p - q| ≤ 15 / 100 * (hi - lo)
      · rw [if_pos hc]
        rw [if_neg (fun h => hcond.1 h hc)] at hv
        exact (Except.ok.inj hv).symm
      · rw [if_neg hc]
        rw [if_pos (hcond.2 hc)] at hv
        exact (Except.ok.inj hv).symm

/-- the hypotheses of `C61_value` are met by a skewed column -/
example : ([(0 : ℚ), 0, 0, 50, 60, 70, 100]).min? = some 0 ∧ ([(0 : ℚ), 0, 0, 50, 60, 70, 100]).max? = some 100 ∧
    percentile [(0 : ℚ), 0, 0, 50, 60, 70, 100] 50 = .ok 50 ∧ seedOf [(0 : ℚ), 0, 0, 50, 60, 70, 100] = .ok 50 := by decide +kernel

end seed2
/-! ## C43: opposite signs -/

section opp
variable {K : Type*} [Field K] [LinearOrder K] [IsStrictOrderedRing K]

/-- Two numbers of strictly opposite sign (infinities count, NaN does not). -/
def OppositeSign (a b : Fl K) : Prop :=
  (Fl.ltB a (.fin 0) = true ∧ Fl.ltB (.fin 0) b = true) ∨
    (Fl.ltB (.fin 0) a = true ∧ Fl.ltB b (.fin 0) = true)

theorem sign_mul_neg (a b : Fl K) :
    Fl.ltB (Fl.sign a * b) (.fin 0) = true ↔ OppositeSign a b := by
  unfold OppositeSign
  have key : ∀ x : Fl K, (x = .fin (-1) → Fl.ltB (x * b) (.fin 0) = Fl.ltB (.fin 0) b) ∧
      (x = .fin 1 → Fl.ltB (x * b) (.fin 0) = Fl.ltB b (.fin 0)) ∧
      (x = .fin 0 → Fl.ltB (x * b) (.fin 0) = false) ∧
      (x = .nan → Fl.ltB (x * b) (.fin 0) = false) := by
    intro x
    have hm : ∀ y z : Fl K, y * z = Fl.mul y z := fun _ _ => rfl
    refine ⟨?_, ?_, ?_, ?_⟩ <;> rintro rfl <;> rw [hm] <;> cases b <;>
      simp [Fl.mul, Fl.infTimes, Fl.ltB, not_lt.mpr (zero_le_one (α := K))]
  cases a with
  | nan =>
    have : Fl.sign (.nan : Fl K) = .nan := rfl
    rw [(key _).2.2.2 this]; simp [Fl.ltB]
  | pinf =>
    have : Fl.sign (.pinf : Fl K) = .fin 1 := rfl
    rw [(key _).2.1 this]; simp [Fl.ltB]
  | ninf =>
    have : Fl.sign (.ninf : Fl K) = .fin (-1) := rfl
    rw [(key _).1 this]; simp [Fl.ltB]
  | fin x =>
    rcases lt_trichotomy x 0 with h | h | h
    · have : Fl.sign (.fin x) = .fin (-1) := if_pos h
      rw [(key _).1 this]
      simp [Fl.ltB_fin, h, not_lt.mpr h.le]
    · have : Fl.sign (.fin x) = .fin 0 := by
        show (if x < 0 then _ else _) = _
        rw [if_neg (by rw [h]; exact lt_irrefl _), if_pos h]
      rw [(key _).2.2.1 this]
      simp [Fl.ltB_fin, h]
    · have : Fl.sign (.fin x) = .fin 1 := by
        show (if x < 0 then _ else _) = _
        rw [if_neg (not_lt.mpr h.le), if_neg (ne_of_gt h)]
      rw [(key _).2.1 this]
      simp [Fl.ltB_fin, h, not_lt.mpr h.le]

open Classical in
/-- **C43**: for every non-empty column of samples and every best fit the reported number
is 100 times the fraction of samples of strictly opposite sign, and lies in [0, 100]. -/
theorem C43_percentage (best : Fl K) (col : List (Fl K)) (hne : col ≠ []) :
    ∃ v, percentOpp best col = .ok v ∧
      v = 100 * ((col.filter fun x => decide (OppositeSign best x)).length : K) / (col.length : K) ∧
      0 ≤ v ∧ v ≤ 100 := by
  have hlen : 0 < col.length := List.length_pos_iff.mpr hne
  have hK : (0 : K) < (col.length : K) := by exact_mod_cast hlen
  have hcnt : (col.countP fun x => Fl.ltB (Fl.sign best * x) (.fin 0)) =
      (col.filter fun x => decide (OppositeSign best x)).length := by
    rw [← List.countP_eq_length_filter]
    apply List.countP_congr
    intro x _
    rw [sign_mul_neg, decide_eq_true_eq]
  have hle : (col.filter fun x => decide (OppositeSign best x)).length ≤ col.length :=
    List.length_filter_le _ _
  refine ⟨_, by rw [percentOpp, if_neg (by omega)], ?_, ?_, ?_⟩
  · rw [hcnt]; ring
  · positivity
  · rw [hcnt]
    have hle' : ((col.filter fun x => decide (OppositeSign best x)).length : K) ≤
        (col.length : K) := by exact_mod_cast hle
    have := (div_le_one hK).mpr hle'
    linarith

/-- **C43**: the percentage is 0 for a zero best fit; an empty chain is a
ZeroDivisionError. -/
theorem C43_zero (col : List (Fl K)) (hne : col ≠ []) :
    percentOpp (.fin 0) col = .ok 0 ∧
      percentOpp (.fin 0) ([] : List (Fl K)) = .error .zeroDivisionError := by
  have hlen : 0 < col.length := List.length_pos_iff.mpr hne
  refine ⟨?_, rfl⟩
  rw [percentOpp, if_neg (by omega)]
  have : (col.countP fun x => Fl.ltB (Fl.sign (.fin (0 : K)) * x) (.fin 0)) = 0 := by
    rw [List.countP_eq_zero]
    intro x _ h
    rw [sign_mul_neg] at h
    rcases h with h | h <;> simp [Fl.ltB_fin] at h
  rw [this]
  simp

example : percentOpp (.fin (-100 : ℚ)) [.fin (-90), .fin 20, .fin 0, .fin (-110)] = .ok 25 := by
  decide +kernel

end opp

section
variable {K : Type*} [Field K]
/-- From the second linked set on, a parameter of a set gets the 2σ limits. -/
theorem linkedLoop_touched {n : Nat} (joint : List (Fin n) → List K → List K)
    (hlen : ∀ inds s, (joint inds s).length = inds.length) (lims2 : Fin n → K × K) (p : Fin n) :
    ∀ (sets : List (LinkSet n)) (st : Posterior n K), (∃ s ∈ sets, touched s p) →
      (linkedLoop joint lims2 lims2 st sets).err1 p =
        errFrom ((linkedLoop joint lims2 lims2 st sets).best p) (lims2 p) := by
  intro sets
  induction sets with
  | nil => rintro _ ⟨_, h, _⟩; cases h
  | cons s rest ih =>
    rintro st ⟨t, ht, htp⟩
    rw [linkedLoop]
    by_cases hr : ∃ t ∈ rest, touched t p
    · exact ih _ hr
    · have hs : touched s p := by
        rcases List.mem_cons.1 ht with rfl | h
        · exact htp
        · exact absurd ⟨t, h, htp⟩ hr
      obtain ⟨g1, g2⟩ := linkedLoop_untouched joint lims2 p rest lims2
        ⟨_, _, (bestfitLinked joint lims2 (bestfitLinked joint lims2 st.best st.err1 s).1 st.err2 s).2⟩
        fun t ht hp => hr ⟨t, ht, hp⟩
      rw [g1, g2]
      simp only [bestfitLinked]
      refine (writeLinked_spec lims2 _ st.best st.err1 p).2 ?_
      rw [List.map_fst_zip (by rw [hlen])]
      exact hs

/-- **C42**, exact condition (1σ): with a peak finder that returns one value per linked parameter, the 1σ uncertainties of a
parameter are best minus lower and upper minus best exactly if the parameter is in no linked set but possibly the first, or its
1σ and 2σ limits agree. -/
theorem C42_exact {n : Nat} (joint : List (Fin n) → List K → List K)
    (hlen : ∀ inds s, (joint inds s).length = inds.length)
    (lims1 lims2 : Fin n → K × K) (peak : Fin n → K) (sets : List (LinkSet n)) (p : Fin n) :
    (posteriorOf joint lims1 lims2 peak (some sets)).err1 p =
      ((posteriorOf joint lims1 lims2 peak (some sets)).best p - (lims1 p).1,
       (lims1 p).2 - (posteriorOf joint lims1 lims2 peak (some sets)).best p) ↔
    (∀ s ∈ sets.tail, ¬ touched s p) ∨ lims1 p = lims2 p := by
  by_cases ht : ∀ s ∈ sets.tail, ¬ touched s p
  · exact ⟨fun _ => Or.inl ht, fun _ => C42_linked1_partial joint lims1 lims2 peak sets p ht⟩
  · have he : ∃ s ∈ sets.tail, touched s p := by push Not at ht; exact ht
    have h2 : (posteriorOf joint lims1 lims2 peak (some sets)).err1 p =
        errFrom ((posteriorOf joint lims1 lims2 peak (some sets)).best p) (lims2 p) := by
      cases sets with
      | nil => obtain ⟨_, h, _⟩ := he; cases h
      | cons s rest =>
        show (linkedLoop joint lims2 lims1 _ (s :: rest)).err1 p =
          errFrom ((linkedLoop joint lims2 lims1 _ (s :: rest)).best p) _
        rw [linkedLoop]
        exact linkedLoop_touched joint hlen lims2 p rest _ he
    rw [h2]
    constructor
    · intro h
      refine Or.inr (Prod.ext ?_ ?_)
      · have := congrArg Prod.fst h
        simp only [errFrom] at this
        exact (sub_right_inj.1 this).symm
      · have := congrArg Prod.snd h
        simp only [errFrom] at this
        exact (sub_left_inj.1 this).symm
    · rintro (h | h)
      · exact absurd h ht
      · rw [h]; rfl

/-- a parameter of the second of two linked sets, with a peak finder that returns one value per parameter -/
example : (∀ inds s, ((fun (l : List (Fin 6)) (_ : List ℚ) => l.map fun _ => (0 : ℚ)) inds s).length = inds.length) ∧
    touched (.inds [1, 2] : LinkSet 6) 1 ∧ ¬ touched (.inds [1, 2] : LinkSet 6) 0 :=
  ⟨fun inds _ => by simp, by unfold touched; decide +kernel, by unfold touched; decide +kernel⟩

end

end Misfit
