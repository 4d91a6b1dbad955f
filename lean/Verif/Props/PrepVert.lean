import Verif.Props.Prepare

/-!
# C175: what the fit of the position along the slit is given
-/

namespace Misfit

/-- The steps of the preparation before the rows are trimmed -/
noncomputable def beforeRows (O : PrepOracle) : List PrepStep :=
  [lineNamesStep, lineWavesStep, lineRatiosStep, skyLevelsStep, derivedStep, ensureStep] ++ continuumSteps O ++
    [trimStep, skyMaskStep, lowSnrStep]

theorem prepSteps_rows (O : PrepOracle) : prepSteps O =
    beforeRows O ++ [spatialStep O.vert O.median, weightsStep O.optimal, angleStep, centreStep O.centre] := by
  unfold prepSteps beforeRows
  simp only [List.append_assoc, List.cons_append, List.nil_append]

/-- Specification: the noise of a row, from the pixels outside the mask -/
noncomputable def rowNoise {r c : Nat} (err sky : Img r c ℝ) (i : Fin r) : Fl ℝ :=
  Fl.sqrt (∑ j, Fl.sq (err i j * sky i j))

theorem vertErr_none {r c : Nat} (median : List (Fl ℝ) → Fl ℝ) (e : Img r c ℝ) (h : ∀ i j, e i j ≠ .fin (-99)) : vertErr median e = e := by
  unfold vertErr
  funext i j
  show (if Fl.eqB (e i j) (.fin (-99)) = true then _ else _) = _
  rw [if_neg]
  intro hh
  refine h i j ?_
  cases he : e i j with
  | fin x =>
    rw [he] at hh
    rw [show x = -99 from of_decide_eq_true hh]
  | nan => rw [he] at hh; cases hh
  | pinf => rw [he] at hh; cases hh
  | ninf => rw [he] at hh; cases hh

theorem maskSky_value {r c : Nat} {err m k : Img r c ℝ} {cut md : Option (Fl ℝ)} {un : String} {sky nosky : List (Fin c)}
    (h : maskSkylines2D err m cut un md = .ok (k, sky, nosky)) (i : Fin r) (j : Fin c) : k i j = 0 ∨ k i j = m i j := by
  unfold maskSkylines2D at h
  split at h
  · cases h
  · split at h
    · cases h
    · rename_i sk hsk
      cases h
      by_cases hj : j ∈ sky
      · exact Or.inl (if_pos hj)
      · exact Or.inr (if_neg hj)

/-- the state before the rows are trimmed -/
theorem beforeRows_ok {O : PrepOracle} {s u : PrepAll} (hq : s.spec.maskQual = none) (h : runSteps (beforeRows O) s = (u, none)) :
    ∃ k : Img u.spec.r u.spec.c ℝ, u.spec.maskSky = some ⟨_, _, k⟩ ∧ u.spec.r = s.spec.r ∧ u.gal.dither = s.gal.dither ∧
      ∃ (row : Fin u.spec.r → Fin s.spec.r) (col : Fin u.spec.c → Fin s.spec.c), ∀ i j, (u.spec.err i j).isFinite = true ∧
        (k i j ≠ 0 → k i j = (s.spec.mask.getD fun _ _ => 1) (row i) (col j) ∧ u.spec.err i j = s.spec.err (row i) (col j)) := by
  unfold beforeRows at h
  rw [runSteps_append_ok] at h
  obtain ⟨u2, h, hC⟩ := h
  rw [runSteps_append_ok] at h
  obtain ⟨u1, hA, h⟩ := h
  obtain ⟨-, L, cu, un, la, -, -, rfl⟩ := headSteps_ok hA
  obtain ⟨hit, M, F, E, C, X, f, l, mr, sp1, z, obs, -, -, -, -, -, hM, hM0, hF, -, -, rfl⟩ := continuumSteps_ok rfl rfl h
  simp only [runSteps_cons_ok, runSteps_nil_ok] at hC
  obtain ⟨v1, h1, v2, h2, v3, h3, rfl⟩ := hC
  obtain ⟨l', z', obs', -, -, -, rfl | rfl⟩ := trimStep_ok h1
  · obtain ⟨-, k, sky, nosky, hk, rfl⟩ := skyMaskStep_ok (h := h2) (by exact hq) rfl
    have h3 := lowSnrStep_ok (h := h3) rfl rfl rfl
    subst h3
    refine ⟨k, rfl, rfl, rfl, id, fun j => ((List.finRange s.spec.c).filter _).get (((List.finRange _).filter _).get j), fun i j => ?_⟩
    refine ⟨(hF _ _).2.1, fun hne => ?_⟩
    have hkM := maskSky_value hk
    rcases hkM i j with h0 | hv
    · exact absurd h0 hne
    · have hne' := hne
      rw [hv] at hne'
      refine ⟨hv.trans ?_, ((hF _ _).2.2.2.1 hne').2⟩
      by_contra hno
      exact hne' (hM0 _ _ fun hu => hno (hM _ _ hu))
  · obtain ⟨hg, -⟩ := skyMaskStep_ok (h := h2) (by exact hq) rfl
    exact Bool.noConfusion hg

/-- Specification: the flux of a row, from the pixels outside the mask -/
noncomputable def rowFlux {r c : Nat} (flux sky : Img r c ℝ) (i : Fin r) : Fl ℝ := ∑ j, flux i j * sky i j

/-- Specification: the signal to noise ratio of a row, zero if it is not a number -/
noncomputable def rowRatio {r c : Nat} (flux err sky : Img r c ℝ) (i : Fin r) : ℝ :=
  match Fl.abs (rowFlux flux sky i / rowNoise err sky i) with
  | .fin x => x
  | _ => 0

/-- Specification: the first of the rows with the largest value -/
def FirstLargest {r : Nat} (s : Fin r → ℝ) (i : Fin r) : Prop := (∀ j, s j ≤ s i) ∧ ∀ j < i, s j < s i

open Classical in
/-- Specification: the fluxes of the rows, zero for the first or last row if it is the one with the largest signal to noise ratio -/
noncomputable def edgeFreeFlux {r c : Nat} (flux err sky : Img r c ℝ) (i : Fin r) : Fl ℝ :=
  if (i.val = 0 ∨ i.val + 1 = r) ∧ FirstLargest (rowRatio flux err sky) i then .fin 0 else rowFlux flux sky i

theorem argmaxIdx_spec : ∀ (l : List ℝ), l ≠ [] → ∃ x, l[argmaxIdx l]? = some x ∧ (∀ y ∈ l, y ≤ x) ∧
    ∀ j < argmaxIdx l, ∀ y, l[j]? = some y → y < x
  | [], h => absurd rfl h
  | a :: l, _ => by
      unfold argmaxIdx
      split_ifs with h
      · refine ⟨a, rfl, fun y hy => ?_, fun j hj => absurd hj (Nat.not_lt_zero j)⟩
        rcases List.mem_cons.1 hy with rfl | hy
        · exact le_rfl
        · exact h y hy
      · push Not at h
        obtain ⟨b, hb, hab⟩ := h
        obtain ⟨x, h1, h2, h3⟩ := argmaxIdx_spec l (List.ne_nil_of_mem hb)
        have hax : a < x := hab.trans_le (h2 b hb)
        refine ⟨x, by simpa using h1, fun y hy => ?_, fun j hj y hy => ?_⟩
        · rcases List.mem_cons.1 hy with rfl | hy
          · exact hax.le
          · exact h2 y hy
        · cases j with
          | zero =>
            simp only [List.getElem?_cons_zero, Option.some.injEq] at hy
            rwa [← hy]
          | succ j => exact h3 j (by omega) y (by simpa using hy)

theorem argmaxIdx_ofFn {r : Nat} (s : Fin r → ℝ) (i : Fin r) : argmaxIdx (List.ofFn s) = i.val ↔ FirstLargest s i := by
  have hne : List.ofFn s ≠ [] := by
    intro h
    have := congrArg List.length h
    simp only [List.length_ofFn, List.length_nil] at this
    have := i.isLt
    omega
  obtain ⟨x, h1, h2, h3⟩ := argmaxIdx_spec _ hne
  obtain ⟨hk, hx⟩ := List.getElem?_eq_some_iff.1 h1
  rw [List.length_ofFn] at hk
  rw [List.getElem_ofFn] at hx
  have h2' : ∀ j, s j ≤ x := fun j => h2 _ ((List.mem_ofFn' s _).2 ⟨j, rfl⟩)
  have h3' : ∀ j : Fin r, j.val < argmaxIdx (List.ofFn s) → s j < x := fun j hj => h3 j.val hj (s j) (by simp)
  constructor
  · intro h
    have hi : (⟨argmaxIdx (List.ofFn s), hk⟩ : Fin r) = i := Fin.ext h
    rw [hi] at hx
    exact ⟨fun j => by rw [hx]; exact h2' j, fun j hj => by rw [hx]; exact h3' j (by rw [h]; exact hj)⟩
  · rintro ⟨g1, g2⟩
    rcases lt_trichotomy (argmaxIdx (List.ofFn s)) i.val with hlt | heq | hgt
    · have := g2 ⟨argmaxIdx (List.ofFn s), hk⟩ hlt
      rw [hx] at this
      exact absurd (h2' i) (not_le.2 this)
    · exact heq
    · have := h3' i hgt
      have h' := g1 ⟨argmaxIdx (List.ofFn s), hk⟩
      rw [hx] at h'
      exact absurd h' (not_le.2 this)

theorem edgeCut_ofFn {r : Nat} (hr : 2 ≤ r) (s : Fin r → ℝ) (f : Fin r → Fl ℝ) [∀ i, Decidable (FirstLargest s i)] :
    edgeCut (List.ofFn s) (List.ofFn f) =
      List.ofFn fun i => if (i.val = 0 ∨ i.val + 1 = r) ∧ FirstLargest s i then .fin 0 else f i := by
  have hkey : ∀ i (h : i < r), FirstLargest s ⟨i, h⟩ ↔ argmaxIdx (List.ofFn s) = i := fun i h => (argmaxIdx_ofFn s ⟨i, h⟩).symm
  by_cases ha : argmaxIdx (List.ofFn s) = 0
  · have e : edgeCut (List.ofFn s) (List.ofFn f) = (List.ofFn f).set 0 (.fin 0) := by unfold edgeCut; rw [if_pos ha]
    rw [e]
    refine List.ext_getElem (by simp) (fun i h1 h2 => ?_)
    rw [List.length_ofFn] at h2
    simp only [List.getElem_set, List.getElem_ofFn]
    by_cases hi : 0 = i
    · rw [if_pos hi, if_pos ⟨Or.inl hi.symm, (hkey i h2).2 (ha.trans hi)⟩]
    · rw [if_neg hi, if_neg (fun h => hi (ha.symm.trans ((hkey i h2).1 h.2)))]
  · by_cases hb : argmaxIdx (List.ofFn s) + 1 = r
    · have e : edgeCut (List.ofFn s) (List.ofFn f) = (List.ofFn f).set (r - 1) (.fin 0) := by
        unfold edgeCut; rw [if_neg ha, List.length_ofFn, if_pos hb]
      rw [e]
      refine List.ext_getElem (by simp) (fun i h1 h2 => ?_)
      rw [List.length_ofFn] at h2
      simp only [List.getElem_set, List.getElem_ofFn]
      by_cases hi : r - 1 = i
      · rw [if_pos hi, if_pos ⟨Or.inr (by omega), (hkey i h2).2 (by omega)⟩]
      · rw [if_neg hi, if_neg (fun h => hi (by have := (hkey i h2).1 h.2; omega))]
    · have e : edgeCut (List.ofFn s) (List.ofFn f) = List.ofFn f := by
        unfold edgeCut; rw [if_neg ha, List.length_ofFn, if_neg hb]
      rw [e]
      refine List.ext_getElem (by simp) (fun i h1 h2 => ?_)
      rw [List.length_ofFn] at h1
      simp only [List.getElem_ofFn]
      rw [if_neg (fun h => by have := (hkey i h1).1 h.2; rcases h.1 with h' | h' <;> omega)]

/-- The position fit is only given the fluxes and the noise of the pixels outside the mask. -/
theorem spatialStep_congr {V V' : VertIn → ℝ × ℝ × ℝ × ℝ} {median median' : List (Fl ℝ) → Fl ℝ} {u : PrepAll}
    {k : Img u.spec.r u.spec.c ℝ} (hk : u.spec.maskSky = some ⟨_, _, k⟩) (h99 : ∀ i j, u.spec.err i j * k i j ≠ .fin (-99))
    (hV : ∀ x : VertIn, x.dither = u.gal.dither → x.pix = u.gal.pix → x.ypos = u.spec.ypos →
      x.err = List.ofFn (rowNoise u.spec.err k) → x.sp = List.ofFn (edgeFreeFlux u.spec.flux u.spec.err k) → V x = V' x) :
    spatialStep V median u = spatialStep V' median' u := by
  classical
  have e : prepVert V median u.gal.dither u.gal.pix u.spec.ypos u.spec.flux u.spec.err k =
      prepVert V' median' u.gal.dither u.gal.pix u.spec.ypos u.spec.flux u.spec.err k := by
    unfold prepVert
    rw [vertErr_none median _ h99, vertErr_none median' _ h99]
    by_cases hr : u.spec.r ≤ 1
    · have hre : vertRefused u.gal.dither u.spec.r = some .valueError := by
        unfold vertRefused
        rw [if_pos (Or.inl hr)]
      unfold vertPosition
      simp only [List.length_ofFn, hre]
    · have h2 : 2 ≤ u.spec.r := by omega
      simp only
      rw [hV _ rfl rfl rfl rfl ?_]
      rw [edgeCut_ofFn h2]
      congr 1
  unfold spatialStep
  rw [hk]
  simp only [Option.bind_some, Pic.shaped_self]
  rw [e]

/-- **C175**: with a mask of zeros and ones and errors that are not negative, the errors that replace missing values by three times the
median error never do so: the position along the slit is fitted with the noise of the unmasked pixels, whatever the median is, and with the
fluxes of the rows, where the first or last row counts zero if it is the one with the largest signal to noise ratio. -/
theorem C175_noise (O : PrepOracle) (s u : PrepAll) (hq : s.spec.maskQual = none)
    (hmask : ∀ m, s.spec.mask = some m → ∀ i j, m i j = 0 ∨ m i j = 1) (herr : ∀ i j x, s.spec.err i j = .fin x → 0 ≤ x)
    (hu : runSteps (beforeRows O) s = (u, none)) :
    ∃ k : Img u.spec.r u.spec.c ℝ, u.spec.maskSky = some ⟨_, _, k⟩ ∧
      ∀ V V' median median', (∀ x : VertIn, x.dither = u.gal.dither → x.pix = u.gal.pix → x.ypos = u.spec.ypos →
        x.err = List.ofFn (rowNoise u.spec.err k) → x.sp = List.ofFn (edgeFreeFlux u.spec.flux u.spec.err k) → V x = V' x) →
        spatialStep V median u = spatialStep V' median' u := by
  obtain ⟨k, hk, -, -, row, col, hval⟩ := beforeRows_ok hq hu
  refine ⟨k, hk, fun V V' median median' hV => spatialStep_congr hk (fun i j => ?_) hV⟩
  obtain ⟨hfin, hne⟩ := hval i j
  by_cases h0 : k i j = 0
  · rw [h0, fl_mul_zero_right hfin]
    intro h
    have : (0 : ℝ) = -99 := Fl.fin.inj h
    norm_num at this
  · obtain ⟨hkv, hev⟩ := hne h0
    have h1 : k i j = 1 := by
      cases hm : s.spec.mask with
      | none =>
        rw [hkv, hm]
        rfl
      | some m =>
        rcases hmask m hm (row i) (col j) with h | h
        · exact absurd (hkv.trans (by rw [hm]; exact h)) h0
        · exact hkv.trans (by rw [hm]; exact h)
    obtain ⟨x, hx⟩ := Fl.exists_of_isFinite hfin
    rw [h1, hx, show (1 : Fl ℝ) = .fin 1 from rfl, Fl.fin_mul, mul_one]
    intro h
    have := herr _ _ x (hev.symm.trans hx)
    rw [Fl.fin.inj h] at this
    norm_num at this

/-- **C175**: a spectrum that can be prepared has at least four rows, at least five if it is dithered: fewer do not fix the fit of the position. -/
theorem C175_rows (O : PrepOracle) (s t : PrepAll) (h0 : s.spec.prepared = false) (hq : s.spec.maskQual = none)
    (h : prepare O s = (t, none)) : 4 ≤ s.spec.r ∧ (s.gal.dither = true → 5 ≤ s.spec.r) := by
  obtain ⟨v, hv, -⟩ := prepare_ok h0 h
  rw [prepSteps_rows, runSteps_append_ok] at hv
  obtain ⟨u, hu, hv⟩ := hv
  obtain ⟨k, hk, hr, hd, -⟩ := beforeRows_ok hq hu
  rw [runSteps_cons_ok] at hv
  obtain ⟨w, hw, -⟩ := hv
  obtain ⟨sky, x, y, -, -, hp, -⟩ := spatialStep_ok hw
  unfold prepVert vertPosition at hp
  simp only [List.length_ofFn, hr, hd] at hp
  split at hp
  · cases hp
  · rename_i hno
    exact vertRefused_none hno

/-- The hypotheses are met by a spectrum with a sky line. -/
example (O : PrepOracle) : skyAll.spec.maskQual = none ∧ (∀ m, skyAll.spec.mask = some m → ∀ i j, m i j = 0 ∨ m i j = 1) ∧
    (∀ i j x, skyAll.spec.err i j = .fin x → 0 ≤ x) ∧ (∃ u, runSteps (beforeRows O) skyAll = (u, none)) ∧
    ∃ t, prepare O skyAll = (t, none) := by
  obtain ⟨t, ht, -⟩ := C128_prepares O skyAll (skyAll_preparable O) (Or.inl ⟨_, rfl⟩)
  refine ⟨rfl, fun m hm => by (cases hm), fun i j x hx => ?_, ?_, t, ht⟩
  · have hx : (if j.val = 4 then Fl.fin (10 : ℝ) else .fin 1) = .fin x := hx
    split_ifs at hx <;> rw [← Fl.fin.inj hx] <;> norm_num
  · obtain ⟨v, hv, -⟩ := prepare_ok rfl ht
    rw [prepSteps_rows, runSteps_append_ok] at hv
    obtain ⟨u, hu, -⟩ := hv
    exact ⟨u, hu⟩

end Misfit
