import Verif.Lemmas.Masks
import Verif.Lemmas.PlotFit

/-! # C177, C178: what the corner plot says, and whether a fit with its plots returns -/

namespace Misfit

/-! ## C177: "rot" or "disp" -/

/-- Specification: an interval lies on one side of zero, or is the single point zero. -/
def OneSided (l : ℝ × ℝ) : Prop := (0 < l.1 ∧ 0 < l.2) ∨ (l.1 < 0 ∧ l.2 < 0) ∨ (l.1 = 0 ∧ l.2 = 0)

theorem sign_eq_iff (x y : ℝ) : Fl.sign (.fin x) = Fl.sign (.fin y) ↔ OneSided (x, y) := by
  have hs : ∀ z : ℝ, Fl.sign (.fin z) = .fin (if z < 0 then -1 else if z = 0 then 0 else 1) := by
    intro z
    show (if z < 0 then Fl.fin (-1) else if z = 0 then Fl.fin 0 else Fl.fin 1) = _
    split
    · rfl
    · split <;> rfl
  rw [hs, hs]
  unfold OneSided
  simp only [Fl.fin.injEq]
  rcases lt_trichotomy x 0 with hx | hx | hx <;> rcases lt_trichotomy y 0 with hy | hy | hy
  · simp [hx, hy]
  · simp [hx, hy, hx.ne]
  · rw [if_pos hx, if_neg (not_lt.2 hy.le), if_neg hy.ne']
    exact ⟨fun h => by norm_num at h, fun h => by rcases h with h | h | h <;> linarith [h.1, h.2]⟩
  · simp [hx, hy, hy.ne]
  · simp [hx, hy]
  · rw [if_neg (by rw [hx]; exact lt_irrefl _), if_pos hx, if_neg (not_lt.2 hy.le), if_neg hy.ne']
    exact ⟨fun h => by norm_num at h, fun h => by rcases h with h | h | h <;> linarith [h.1, h.2]⟩
  · rw [if_neg (not_lt.2 hx.le), if_neg hx.ne', if_pos hy]
    exact ⟨fun h => by norm_num at h, fun h => by rcases h with h | h | h <;> linarith [h.1, h.2]⟩
  · rw [if_neg (not_lt.2 hx.le), if_neg hx.ne', if_neg (by rw [hy]; exact lt_irrefl _), if_pos hy]
    exact ⟨fun h => by norm_num at h, fun h => by rcases h with h | h | h <;> linarith [h.1, h.2]⟩
  · rw [if_neg (not_lt.2 hx.le), if_neg hx.ne', if_neg (not_lt.2 hy.le), if_neg hy.ne']
    exact ⟨fun _ => Or.inl ⟨hx, hy⟩, fun _ => rfl⟩

theorem verdictOf_rot (b : ℝ) (l : ℝ × ℝ) : verdictOf b (b - l.1, l.2 - b) = .rot ↔ OneSided l := by
  have h1 : b - (b - l.1) = l.1 := by ring
  have h2 : b + (l.2 - b) = l.2 := by ring
  unfold verdictOf
  simp only [h1, h2]
  rw [show OneSided l ↔ Fl.sign (.fin l.1) = Fl.sign (.fin l.2) from (sign_eq_iff _ _).symm]
  by_cases h : Fl.sign (.fin l.1) = Fl.sign (.fin l.2) <;> simp [h]

/-- the fields of the texts -/
theorem cornerText_inv (res : FitResults) (t : CornerText) (h : cornerText res = .ok t) :
    ∃ ks kv b1 e1 b2 e2, nameIndex res.names "sigma0" = .ok ks ∧ tripleAt res.best res.err1 ks = .ok t.sigma ∧
      nameIndex res.names "V_RE" = .ok kv ∧ tripleAt res.best res.err1 kv = .ok (b1, e1) ∧
      tripleAt res.best res.err2 kv = .ok (b2, e2) ∧ t.vre1 = ((b1, e1), verdictOf b1 e1) ∧
      t.vre2.1 = (b2, e2) ∧ t.vre2.2.1 = verdictOf b2 e2 ∧ res.opp[kv]? = some t.vre2.2.2 ∧
      mapE (tripleAt (truthsOf res.best) res.err1) (List.range (truthsOf res.best).length) = .ok t.titles := by
  unfold cornerText at h
  split at h
  · cases h
  rename_i titles hti
  split at h
  · cases h
  rename_i ks hks
  split at h
  · cases h
  rename_i sg hsg
  split at h
  · cases h
  rename_i kv hkv
  split at h
  · cases h
  rename_i v1 hv1
  split at h
  · cases h
  rename_i opp hopp
  split at h
  · cases h
  rename_i v2 hv2
  cases h
  exact ⟨ks, kv, v1.1, v1.2, v2.1, v2.2, hks, hsg, hkv, hv1, hv2, rfl, rfl, rfl, (itemE_ok _ _ _).1 hopp, hti⟩

/-- `k` is the position of the first parameter with this name. -/
def FirstNamed (names : List String) (s : String) (k : Nat) : Prop := names[k]? = some s ∧ ∀ j < k, names[j]? ≠ some s

/-- **C177**: the corner plot states the best value of V(R_E) with its 1σ and 2σ uncertainties; it says "rot" at 1σ (2σ) exactly if
the 1σ (2σ) interval of the samples lies on one side of zero, and "rot" at 2σ implies "rot" at 1σ. -/
theorem C177_verdict (o : PeakFinder) (cols : List (List ℝ)) (linked : Option (List RawLink)) (names : List String) (nFree : Nat)
    (res : FitResults) (h : paramPosterior o cols linked names nFree = .ok res) (k : Nat) (hk : FirstNamed names "V_RE" k)
    (col : List ℝ) (hcol : cols[k]? = some col) (hu : Unlinked linked cols.length k) (t : CornerText)
    (ht : cornerText res = .ok t) :
    ∃ b l1 l2, res.best[k]? = some b ∧ limits1 col = .ok l1 ∧ limits2 col = .ok l2 ∧
      t.vre1.1 = (b, b - l1.1, l1.2 - b) ∧ t.vre2.1 = (b, b - l2.1, l2.2 - b) ∧
      (t.vre1.2 = .rot ↔ OneSided l1) ∧ (t.vre2.2.1 = .rot ↔ OneSided l2) ∧ (t.vre2.2.1 = .rot → t.vre1.2 = .rot) ∧
      percentOpp (.fin b) (col.map Fl.fin) = .ok t.vre2.2.2 := by
  obtain ⟨b, l1, l2, v, hb, hl1, hl2, he1, he2, hv, hpv, hne⟩ := paramPosterior_column o cols linked names nFree res h k col hcol hu
  obtain ⟨ks, kv, b1, e1, b2, e2, -, -, hkv, h1, h2, t1, t2, t3, hopp, -⟩ := cornerText_inv res t ht
  rw [(paramPosterior_lengths o cols linked names nFree res h).2.2.2.2] at hkv
  have : kv = k := by
    have hk' := (nameIndex_ok names "V_RE" k).2 hk
    rw [hk'] at hkv
    exact (Except.ok.inj hkv).symm
  subst this
  obtain ⟨e1l, e1u⟩ := e1
  obtain ⟨e2l, e2u⟩ := e2
  rw [tripleAt_ok, hb, he1] at h1
  rw [tripleAt_ok, hb, he2] at h2
  simp only [Option.some.injEq, Prod.mk.injEq] at h1 h2
  obtain ⟨rfl, rfl, rfl⟩ := h1
  obtain ⟨rfl, rfl, rfl⟩ := h2
  have r1 : t.vre1.2 = .rot ↔ OneSided l1 := by rw [t1]; exact verdictOf_rot _ _
  have r2 : t.vre2.2.1 = .rot ↔ OneSided l2 := by rw [t3]; exact verdictOf_rot _ _
  refine ⟨b, l1, l2, hb, hl1, hl2, by rw [t1], t2, r1, r2, ?_, ?_⟩
  · rw [r1, r2]
    obtain ⟨m1, m2, hm1, hm2, i1, i2, i3⟩ := C42_nested col hne
    rw [hl1] at hm1
    rw [hl2] at hm2
    cases hm1
    cases hm2
    rintro (⟨a1, a2⟩ | ⟨a1, a2⟩ | ⟨a1, a2⟩)
    · exact Or.inl ⟨by linarith, by linarith⟩
    · exact Or.inr (Or.inl ⟨by linarith, by linarith⟩)
    · exact Or.inr (Or.inr ⟨by linarith, by linarith⟩)
  · rw [hv] at hopp
    rw [← Option.some.inj hopp]
    exact hpv

/-- **C177**, the titles: one for every column of the samples but the last two (the dispersions at R_E and 2.2), each with
the best value and its distances to the ends of the 1σ interval. -/
theorem C177_titles (o : PeakFinder) (cols : List (List ℝ)) (linked : Option (List RawLink)) (names : List String) (nFree : Nat)
    (res : FitResults) (h : paramPosterior o cols linked names nFree = .ok res) (t : CornerText)
    (ht : cornerText res = .ok t) :
    t.titles.length = cols.length - 2 ∧
    ∀ k < cols.length - 2, ∀ col, cols[k]? = some col → Unlinked linked cols.length k →
      ∃ b l1, res.best[k]? = some b ∧ limits1 col = .ok l1 ∧ t.titles[k]? = some (b, b - l1.1, l1.2 - b) := by
  obtain ⟨_, _, _, _, _, _, _, _, _, _, _, _, _, _, _, hti⟩ := cornerText_inv res t ht
  have hb := (paramPosterior_lengths o cols linked names nFree res h).1
  obtain ⟨m1, m2⟩ := mapE_spec _ _ _ hti
  have hl : (truthsOf res.best).length = cols.length - 2 := by
    rw [truthsOf, List.length_take, hb]
    exact Nat.min_eq_left (Nat.sub_le _ _)
  refine ⟨by rw [m1, List.length_range, hl], fun k hk col hcol hu => ?_⟩
  obtain ⟨b, l1, l2, v, hbk, hl1, hl2, he1, -⟩ := paramPosterior_column o cols linked names nFree res h k col hcol hu
  obtain ⟨x, hx, hxt⟩ := m2 k k (by rw [List.getElem?_range (by omega)])
  obtain ⟨b', lo, hi⟩ := x
  rw [tripleAt_ok, he1] at hxt
  obtain ⟨q1, q2⟩ := hxt
  rw [truthsOf, List.getElem?_take_of_lt (by omega), hbk] at q1
  cases q1
  cases q2
  exact ⟨b, l1, hbk, hl1, hx⟩

theorem howMany_mono (col : List ℝ) (P Q : ℝ → Prop) [DecidablePred P] [DecidablePred Q] (h : ∀ x, P x → Q x) :
    howMany col P ≤ howMany col Q := by
  unfold howMany
  apply List.Sublist.length_le
  apply List.monotone_filter_right
  intro x hx
  exact decide_eq_true (h x (of_decide_eq_true hx))

open Classical in
/-- **C177**: what the verdict at 2σ says about the samples.  "rot" with a best value inside the interval: the stated percentage of
samples of the other sign is at most that of a share 2.275 % of the samples less one, and one sample more.  "disp" with no limit
equal to zero: on both sides of zero there are at least 2.275 % of the samples less one. -/
theorem C177_samples (o : PeakFinder) (cols : List (List ℝ)) (linked : Option (List RawLink)) (names : List String) (nFree : Nat)
    (res : FitResults) (h : paramPosterior o cols linked names nFree = .ok res) (k : Nat) (hk : FirstNamed names "V_RE" k)
    (col : List ℝ) (hcol : cols[k]? = some col) (hu : Unlinked linked cols.length k) (t : CornerText)
    (ht : cornerText res = .ok t) (b : ℝ) (hb : res.best[k]? = some b) (l : ℝ × ℝ) (hl : limits2 col = .ok l) :
    (t.vre2.2.1 = .rot → l.1 ≤ b → b ≤ l.2 →
      t.vre2.2.2 ≤ 100 * (0.02275 * ((col.length : ℝ) - 1) + 1) / col.length) ∧
    (t.vre2.2.1 = .disp → l.1 ≠ 0 → l.2 ≠ 0 →
      0.02275 * ((col.length : ℝ) - 1) < howMany col (fun x => x < 0) ∧
      0.02275 * ((col.length : ℝ) - 1) ≤ howMany col (fun x => 0 < x)) := by
  obtain ⟨b', l1, l2, hb', hl1, hl2, -, -, -, hrot, -, hpct⟩ :=
    C177_verdict o cols linked names nFree res h k hk col hcol hu t ht
  rw [hb] at hb'
  cases hb'
  rw [hl] at hl2
  cases hl2
  have hne : col ≠ [] := by
    obtain ⟨_, _, _, _, _, _, _, _, _, _, _, hne⟩ := paramPosterior_column o cols linked names nFree res h k col hcol hu
    exact hne
  have hn : (0 : ℝ) < col.length := by exact_mod_cast List.length_pos_iff.mpr hne
  obtain ⟨m1, m2, hm1, hm2, -, -, hcov⟩ := C176_coverage col hne
  obtain ⟨n1, n2, hn1, hn2, i1, i2, i3⟩ := C42_nested col hne
  rw [hl] at hm2 hn2
  cases hm2
  cases hn2
  obtain ⟨c1, c2, c3, c4⟩ := hcov 0.02275 l (Or.inr ⟨rfl, rfl⟩)
  constructor
  · intro hr hlo hhi
    rw [hrot] at hr
    obtain ⟨v, hv, hve, -, -⟩ := C43_percentage (.fin b : Fl ℝ) (col.map Fl.fin) (by simpa using hne)
    rw [hpct] at hv
    cases hv
    rw [hve, List.length_map]
    have hcount : (((col.map Fl.fin).filter fun x => decide (OppositeSign (.fin b : Fl ℝ) x)).length : ℝ) ≤
        0.02275 * ((col.length : ℝ) - 1) + 1 := by
      rw [List.filter_map, List.length_map]
      have hcn : ∀ (P : ℝ → Prop) [DecidablePred P], (∀ x, OppositeSign (.fin b : Fl ℝ) (.fin x) → P x) →
          (col.filter ((fun x => decide (OppositeSign (.fin b : Fl ℝ) x)) ∘ Fl.fin)).length ≤ howMany col P := by
        intro P _ hP
        unfold howMany
        apply List.Sublist.length_le
        apply List.monotone_filter_right
        intro x hx
        exact decide_eq_true (hP x (of_decide_eq_true hx))
      rcases hr with ⟨a1, a2⟩ | ⟨a1, a2⟩ | ⟨a1, a2⟩
      · refine le_trans ?_ c1
        exact_mod_cast hcn _ (by
          intro x hx
          rcases hx with ⟨h1, -⟩ | ⟨-, h2⟩
          · rw [Fl.ltB_fin, decide_eq_true_eq] at h1; linarith
          · rw [Fl.ltB_fin, decide_eq_true_eq] at h2; linarith)
      · refine le_trans ?_ c2.le
        exact_mod_cast hcn _ (by
          intro x hx
          rcases hx with ⟨-, h2⟩ | ⟨h1, -⟩
          · rw [Fl.ltB_fin, decide_eq_true_eq] at h2; linarith
          · rw [Fl.ltB_fin, decide_eq_true_eq] at h1; linarith)
      · have h0 := hcn (fun _ => False) (by
          intro x hx
          rcases hx with ⟨h1, -⟩ | ⟨h1, -⟩ <;> rw [Fl.ltB_fin, decide_eq_true_eq] at h1 <;> linarith)
        have hz : howMany col (fun _ => False) = 0 := by simp [howMany]
        rw [hz] at h0
        have h0' : (col.filter ((fun x => decide (OppositeSign (.fin b : Fl ℝ) x)) ∘ Fl.fin)).length = 0 := by omega
        rw [h0']
        have : (1 : ℝ) ≤ col.length := by exact_mod_cast List.length_pos_iff.mpr hne
        push_cast
        nlinarith
    exact div_le_div_of_nonneg_right (by linarith) hn.le
  · intro hd h1 h2
    have hnr : ¬ OneSided l := by
      intro hs
      rw [hrot.2 hs] at hd
      cases hd
    have hlt : l.1 < 0 ∧ 0 < l.2 := by
      rcases lt_or_gt_of_ne h1 with a | a
      · rcases lt_or_gt_of_ne h2 with a' | a'
        · exact absurd (Or.inr (Or.inl ⟨a, a'⟩)) hnr
        · exact ⟨a, a'⟩
      · exact absurd (Or.inl ⟨a, by linarith⟩) hnr
    refine ⟨lt_of_lt_of_le c3 ?_, le_trans c4 ?_⟩
    · exact_mod_cast howMany_mono col _ _ (fun x hx => by linarith)
    · exact_mod_cast howMany_mono col _ _ (fun x hx => by linarith)

/-! ## C178: a fit with its plots -/

variable {r c : Nat}

/-- what the numbers in the titles need -/
theorem titles_ok (best : List ℝ) (err : List (ℝ × ℝ)) (h : best.length = err.length) :
    ∃ l, mapE (tripleAt (truthsOf best) err) (List.range (truthsOf best).length) = .ok l := by
  apply mapE_ok
  intro i hi
  rw [List.mem_range] at hi
  have hi' : i < err.length := by
    have : (truthsOf best).length ≤ best.length := by unfold truthsOf; rw [List.length_take]; exact Nat.min_le_right _ _
    omega
  exact ⟨((truthsOf best)[i], err[i].1, err[i].2), (tripleAt_ok _ _ _ _ _ _).2 ⟨List.getElem?_eq_getElem hi, List.getElem?_eq_getElem hi'⟩⟩

theorem tripleAt_lt (best : List ℝ) (err : List (ℝ × ℝ)) (i : Nat) (h1 : i < best.length) (h2 : i < err.length) :
    ∃ x, tripleAt best err i = .ok x :=
  ⟨(best[i], err[i].1, err[i].2), (tripleAt_ok _ _ _ _ _ _).2 ⟨List.getElem?_eq_getElem h1, List.getElem?_eq_getElem h2⟩⟩

/-- the texts of the corner plot exist exactly if a parameter of the results is called `sigma0` -/
theorem cornerText_of (res : FitResults) (hl : res.err1.length = res.best.length ∧ res.err2.length = res.best.length ∧
    res.opp.length = res.best.length) (hn : res.names.length ≤ res.best.length) (hv : "V_RE" ∈ res.names) :
    ("sigma0" ∈ res.names → ∃ t, cornerText res = .ok t) ∧ ("sigma0" ∉ res.names → cornerText res = .error .indexError) := by
  obtain ⟨h1, h2, h3⟩ := hl
  obtain ⟨ti, hti⟩ := titles_ok res.best res.err1 h1.symm
  unfold cornerText
  rw [hti]
  simp only
  constructor
  · intro hs
    obtain ⟨ks, e1, i1⟩ := nameIndex_exists _ _ hs
    obtain ⟨kv, e2, i2⟩ := nameIndex_exists _ _ hv
    obtain ⟨x1, t1⟩ := tripleAt_lt res.best res.err1 ks (by omega) (by omega)
    obtain ⟨x2, t2⟩ := tripleAt_lt res.best res.err1 kv (by omega) (by omega)
    obtain ⟨x3, t3⟩ := tripleAt_lt res.best res.err2 kv (by omega) (by omega)
    have t4 := itemE_lt res.opp kv (by omega)
    rw [e1]
    simp only
    rw [t1]
    simp only
    rw [e2]
    simp only
    rw [t2]
    simp only
    rw [t4]
    simp only
    rw [t3]
    exact ⟨_, rfl⟩
  · intro hs
    rw [nameIndex_error _ _ hs]

/-- Specification: some varying parameter of the settings has this name. -/
def FreeParameter (t : FitSettings) (name : String) : Prop := ∃ i : Nat, t.names[i]? = some name ∧ t.vary[i]? = some true

/-- What the plots need of the galaxy: masks, rows and images. -/
def PlotReady (g : BestfitPlotIn) : Prop :=
  g.noskySet = true ∧ g.lowRows ≠ none ∧ g.skyFit = some [] ∧ ∀ m, g.images m = .ok ()

theorem fit_corner (o : PeakFinder) (run : Fit2D r c → Except PyErr Chain) (new : Option FitSettings) (s s1 : Fit2D r c)
    (d d1 : Disk r c) (h : s.fit o run new d = (s1, d1, .ok ())) (t : FitSettings) (ht : settingsUsed new s = some t)
    (hv : t.vary.length = t.theta.length) : ∃ res, s1.results = some res ∧ s1.linked = t.linked ∧ s1.sampler ≠ none ∧
      (FreeParameter t "sigma0" → ∃ x, cornerText res = .ok x) ∧
      (¬ FreeParameter t "sigma0" → cornerText res = .error .indexError) ∧
      ∃ k, s1.kinModel = some k ∧ k.bestfit = some k.m ∧ 3 ≤ k.m.params.theta.length := by
  obtain ⟨t', res, k, cols, n, e1, e2, e3, e4, e5, e6, e7, e8, e9⟩ := fit_results o run new s s1 d d1 h
  rw [ht] at e1
  cases e1
  obtain ⟨l1, l2, l3, l4, l5⟩ := paramPosterior_lengths _ _ _ _ _ _ e8
  have hmem : "sigma0" ∈ res.names ↔ FreeParameter t "sigma0" := by
    rw [l5, List.mem_append, freeNames_mem]
    exact ⟨fun h => h.resolve_right (by decide), Or.inl⟩
  obtain ⟨c1, c2⟩ := cornerText_of res ⟨by rw [l2, l1], by rw [l3, l1], by rw [l4, l1]⟩
    (by rw [l5, l1, List.length_append]; simpa using e9 hv) (by rw [l5]; simp)
  refine ⟨res, e2, e3, e4, fun hf => c1 (hmem.2 hf), fun hf => c2 (fun hm => hf (hmem.1 hm)), k, e5, e6, e7⟩

/-- **C178** (partial): if the part of a fit before the plots returns, a varying parameter is called `sigma0`, no parameters are linked
and the images can be drawn, the call returns, leaving object and files as they were before the plots.
Missing from the full claim: other names, see `C178_false_name`, and linked parameters, see `C178_false_all`. -/
theorem C178_returns_partial (o : PeakFinder) (run : Fit2D r c → Except PyErr Chain) (new : Option FitSettings) (s s1 : Fit2D r c)
    (d d1 : Disk r c) (h : s.fit o run new d = (s1, d1, .ok ())) (t : FitSettings) (ht : settingsUsed new s = some t)
    (hv : t.vary.length = t.theta.length) (hs : FreeParameter t "sigma0") (hl : t.linked = none)
    (drawn : Fit2D r c → Except PyErr Unit) (hd : drawn s1 = .ok ()) (ylim : Nat → List ℝ) (g : BestfitPlotIn) (hg : PlotReady g) :
    fitAndPlot o run drawn ylim g new s d = (s1, d1, .ok ()) := by
  obtain ⟨res, e1, e2, e3, e4, -, k, e5, e6, e7⟩ := fit_corner o run new s s1 d d1 h t ht hv
  obtain ⟨x, hx⟩ := e4 hs
  obtain ⟨ch, hch⟩ := Option.ne_none_iff_exists'.1 e3
  obtain ⟨g1, g2, g3, g4⟩ := hg
  obtain ⟨low, hlow⟩ := Option.ne_none_iff_exists'.1 g2
  have hc : cornerPlot (drawn s1) g.re ylim s1 = .ok (s1.kinProfile, [], x) := by
    unfold cornerPlot
    rw [e1]
    simp only
    rw [hch]
    simp only
    rw [hd]
    simp only
    rw [e2, hl]
    simp only [Option.getD_none, linkedLoopCurves]
    rw [hx]
  have hb : ∃ y, bestfitPlot g s1 = .ok y := by
    unfold bestfitPlot
    rw [e5]
    simp only
    rw [e6]
    simp only
    rw [itemE_lt k.m.params.theta.reverse 1 (by rw [List.length_reverse]; omega)]
    simp only
    rw [g4]
    simp only
    rw [if_pos g1, hlow]
    simp only
    rw [g3]
    exact ⟨_, rfl⟩
  obtain ⟨y, hy⟩ := hb
  unfold fitAndPlot
  rw [h]
  simp only
  unfold plotResults
  rw [hc]
  simp only
  rw [show ({ s1 with kinProfile := s1.kinProfile } : Fit2D r c) = s1 from rfl, hy]

/-- **C178** (false): if no varying parameter is called `sigma0`, the fit always ends with an IndexError in the corner plot, after
samples, results and model have been stored. -/
theorem C178_false_name (o : PeakFinder) (run : Fit2D r c → Except PyErr Chain) (new : Option FitSettings) (s s1 : Fit2D r c)
    (d d1 : Disk r c) (h : s.fit o run new d = (s1, d1, .ok ())) (t : FitSettings) (ht : settingsUsed new s = some t)
    (hv : t.vary.length = t.theta.length) (hs : ¬ FreeParameter t "sigma0") (hl : t.linked = none)
    (drawn : Fit2D r c → Except PyErr Unit) (hd : drawn s1 = .ok ()) (ylim : Nat → List ℝ) (g : BestfitPlotIn) :
    fitAndPlot o run drawn ylim g new s d = (s1, d1, .error .indexError) := by
  obtain ⟨res, e1, e2, e3, -, e4, -⟩ := fit_corner o run new s s1 d d1 h t ht hv
  obtain ⟨ch, hch⟩ := Option.ne_none_iff_exists'.1 e3
  unfold fitAndPlot
  rw [h]
  simp only
  unfold plotResults cornerPlot
  rw [e1]
  simp only
  rw [hch]
  simp only
  rw [hd]
  simp only
  rw [e2, hl]
  simp only [Option.getD_none, linkedLoopCurves]
  rw [e4 hs]

/-- **C178** (false): with linked parameters given as the word 'all' the fit always ends with a TypeError in the corner plot, after
samples, results and model have been stored. -/
theorem C178_false_all (o : PeakFinder) (run : Fit2D r c → Except PyErr Chain) (new : Option FitSettings) (s s1 : Fit2D r c)
    (d d1 : Disk r c) (h : s.fit o run new d = (s1, d1, .ok ())) (t : FitSettings) (ht : settingsUsed new s = some t)
    (ls : List RawLink) (hl : t.linked = some (.all :: ls))
    (drawn : Fit2D r c → Except PyErr Unit) (hd : drawn s1 = .ok ()) (ylim : Nat → List ℝ) (g : BestfitPlotIn) :
    fitAndPlot o run drawn ylim g new s d = (s1, d1, .error .typeError) := by
  obtain ⟨t', res, k, cols, n, e1, e2, e3, e4, -, -, -, -, -⟩ := fit_results o run new s s1 d d1 h
  rw [ht] at e1
  cases e1
  obtain ⟨ch, hch⟩ := Option.ne_none_iff_exists'.1 e4
  unfold fitAndPlot
  rw [h]
  simp only
  unfold plotResults cornerPlot
  rw [e2]
  simp only
  rw [hch]
  simp only
  rw [hd]
  simp only
  rw [e3, hl]
  simp only [Option.getD_some, linkedLoopCurves, linkedCurves]

/-- a galaxy whose images can be drawn -/
noncomputable def onePlot : BestfitPlotIn := ⟨true, some [], some [], 0, 1, 0, 1, 1, fun _ => .ok ()⟩

/-- the hypotheses of C178 are met: a fit with the usual names, without links -/
example (d : Disk 1 2) (ylim : Nat → List ℝ) : ∃ s1 d1, fitAndPlot peakOne oneRun (fun _ => .ok ()) ylim onePlot none oneFit d =
    (s1, d1, .ok ()) := by
  obtain ⟨s1, d1, h⟩ := one_fit_ok d
  exact ⟨s1, d1, C178_returns_partial peakOne oneRun none oneFit s1 d d1 h _ rfl rfl ⟨2, rfl, rfl⟩ rfl _ rfl ylim onePlot
    ⟨rfl, (fun h => by cases h), rfl, fun _ => rfl⟩⟩

/-- a fit whose dispersion is called `sigma` -/
example (d : Disk 1 2) (ylim : Nat → List ℝ) : ∃ s1 d1, fitAndPlot peakOne oneRun (fun _ => .ok ()) ylim onePlot none
    (oneFitWith ["V_a", "r_t", "sigma", "m0_shift", "z"] none) d = (s1, d1, .error .indexError) := by
  obtain ⟨s1, d1, h⟩ := one_fit_with ["V_a", "r_t", "sigma", "m0_shift", "z"] none (fun _ h => by cases h) d
  refine ⟨s1, d1, C178_false_name peakOne oneRun none _ s1 d d1 h _ rfl rfl ?_ rfl _ rfl ylim onePlot⟩
  rintro ⟨i, h1, -⟩
  have : "sigma0" ∈ ["V_a", "r_t", "sigma", "m0_shift", "z"] := List.mem_of_getElem? h1
  revert this
  decide

/-- a fit with linked parameters 'all' -/
example (d : Disk 1 2) (ylim : Nat → List ℝ) : ∃ s1 d1, fitAndPlot peakOne oneRun (fun _ => .ok ()) ylim onePlot none
    (oneFitWith ["V_a", "r_t", "sigma0", "m0_shift", "z"] (some [.all])) d = (s1, d1, .error .typeError) := by
  obtain ⟨s1, d1, h⟩ := one_fit_with ["V_a", "r_t", "sigma0", "m0_shift", "z"] (some [.all])
    (fun ls h l hl => by cases h; simp at hl) d
  exact ⟨s1, d1, C178_false_all peakOne oneRun none _ s1 d d1 h _ rfl [] rfl _ rfl ylim onePlot⟩

/-- the hypotheses of C177 are met by the results of this fit -/
example (d : Disk 1 2) : ∃ s1 d1 res t cols n col, oneFit.fit peakOne oneRun none d = (s1, d1, .ok ()) ∧ s1.results = some res ∧
    cornerText res = .ok t ∧ paramPosterior peakOne cols none ["V_a", "r_t", "sigma0", "V_RE", "V_22", "sigma_RE", "sigma_22"] n =
      .ok res ∧ FirstNamed ["V_a", "r_t", "sigma0", "V_RE", "V_22", "sigma_RE", "sigma_22"] "V_RE" 3 ∧ cols[3]? = some col ∧
    Unlinked none cols.length 3 := by
  obtain ⟨s1, d1, h⟩ := one_fit_ok d
  obtain ⟨t', res, k, cols, n, e1, e2, -, -, -, -, -, e8, e9⟩ := fit_results _ _ _ _ _ _ _ h
  obtain ⟨res', f1, -, -, f4, -⟩ := fit_corner _ _ _ _ _ _ _ h t' e1 (by cases e1; rfl)
  rw [e2] at f1
  cases f1
  cases e1
  obtain ⟨t, ht⟩ := f4 ⟨2, rfl, rfl⟩
  have hl := e9 rfl
  have h3 : 3 < cols.length := by
    have : (freeNames ["V_a", "r_t", "sigma0", "m0_shift", "z"] [true, true, true, false, false]).length = 3 := rfl
    rw [this] at hl
    omega
  refine ⟨s1, d1, res, t, cols, n, cols[3], h, e2, ht, e8, ⟨rfl, ?_⟩, List.getElem?_eq_getElem h3, fun s hs => by cases hs⟩
  intro j hj
  have : j = 0 ∨ j = 1 ∨ j = 2 := by omega
  rcases this with rfl | rfl | rfl <;> simp

/-- **C178**, exact condition: without linked sets and with images that can be drawn, a fit that has stored its results also returns
exactly if a varying parameter is called `sigma0`, the masks needed by the plot exist and no sky column is masked. -/
theorem C178_exact {r c : Nat} (o : PeakFinder) (run : Fit2D r c → Except PyErr Chain) (new : Option FitSettings) (s s1 : Fit2D r c)
    (d d1 : Disk r c) (h : s.fit o run new d = (s1, d1, .ok ())) (t : FitSettings) (ht : settingsUsed new s = some t)
    (hv : t.vary.length = t.theta.length) (hl : t.linked = none)
    (drawn : Fit2D r c → Except PyErr Unit) (hd : drawn s1 = .ok ()) (ylim : Nat → List ℝ) (g : BestfitPlotIn)
    (hg : ∀ m, g.images m = .ok ()) :
    (fitAndPlot o run drawn ylim g new s d).2.2 = .ok () ↔
      FreeParameter t "sigma0" ∧ g.noskySet = true ∧ g.lowRows ≠ none ∧ g.skyFit = some [] := by
  by_cases hs : FreeParameter t "sigma0"
  · constructor
    · intro hok
      refine ⟨hs, ?_⟩
      unfold fitAndPlot at hok
      rw [h] at hok
      simp only at hok
      split at hok
      · cases hok
      · rename_i y hy
        unfold plotResults at hy
        split at hy
        · cases hy
        · split at hy
          · cases hy
          · rename_i b hb
            unfold bestfitPlot at hb
            split at hb
            · cases hb
            · split at hb
              · cases hb
              · simp only [hg] at hb
                split at hb
                · rename_i hno
                  split at hb
                  · cases hb
                  · rename_i low hlow
                    refine ⟨hno, by rw [hlow]; exact Option.some_ne_none _, ?_⟩
                    split at hb
                    · cases hb
                    · rename_i hsky
                      unfold skyHatch at hsky
                      cases hf : g.skyFit with
                      | none => rw [hf] at hsky; cases hsky
                      | some l =>
                        rw [hf] at hsky
                        simp only at hsky
                        cases l with
                        | nil => rfl
                        | cons x l =>
                          have hne : whContinuous (x :: l) ≠ [] := by
                            intro h0
                            have := whContinuousLoop_flatten (x :: l) [] (fun h => by cases h)
                            unfold whContinuous at h0
                            rw [h0] at this
                            cases this
                          split at hsky
                          · rename_i h0; exact absurd h0 hne
                          · cases hsky
                · cases hb
    · rintro ⟨-, h1, h2, h3⟩
      rw [C178_returns_partial o run new s s1 d d1 h t ht hv hs hl drawn hd ylim g ⟨h1, h2, h3, hg⟩]
  · constructor
    · intro hok
      rw [C178_false_name o run new s s1 d d1 h t ht hv hs hl drawn hd ylim g] at hok
      cases hok
    · exact fun hh => absurd hh.1 hs

end Misfit
