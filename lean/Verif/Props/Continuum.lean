import Verif.Model.Continuum
import Verif.Props.Masks
import Verif.Props.Missing1D
import Verif.Props.Grid
import Verif.Props.Lines
import Verif.Lemmas.Fit1D
import Mathlib.Algebra.Order.Archimedean.Real.Basic

/-!
# C52, C53, C76, C77: continuum subtraction and mock sizes
-/

namespace Misfit

variable {r c : Nat}

theorem isFinite_iff (a : Fl ℝ) : a.isFinite = true ↔ ∃ x, a = .fin x := by
  cases a <;> simp [Fl.isFinite]

/-! ## Lines that are finite at their maximum are finite everywhere -/

theorem npMax_mem (l : List (Fl ℝ)) (v : Fl ℝ) (h : npMax l = some v) (hf : v.isFinite = true) : v ∈ l := by
  cases l with
  | nil => simp [npMax] at h
  | cons a l =>
    simp only [npMax, Option.some.injEq] at h
    have key : ∀ (l : List (Fl ℝ)) (a : Fl ℝ), (l.foldl npMax2 a).isFinite = true →
        l.foldl npMax2 a ∈ a :: l := by
      intro l
      induction l with
      | nil => intro a _; simp
      | cons b l ih =>
        intro a hf
        rw [List.foldl_cons] at hf ⊢
        have h1 := ih _ hf
        rcases List.mem_cons.1 h1 with h2 | h2
        · have h3 : npMax2 a b = a ∨ npMax2 a b = b := by
            cases a <;> cases b <;> simp only [npMax2] <;> (try split_ifs) <;> simp
          rcases h3 with h3 | h3 <;> rw [h3] at h2 ⊢ <;> rw [h2] <;> simp
        · exact List.mem_cons_of_mem _ (List.mem_cons_of_mem _ h2)
    have := key l a (by rw [h]; exact hf)
    rwa [h] at this

/-- A straight line with one finite value has finite slope and intercept. -/
theorem line_finite (a b : Fl ℝ) (x : ℝ) (h : (a * .fin x + b).isFinite = true) :
    ∃ a' b', a = .fin a' ∧ b = .fin b' := by
  have hinf : ∀ y : ℝ, (Fl.infTimes y : Fl ℝ) = .nan ∨ (Fl.infTimes y : Fl ℝ) = .pinf ∨
      (Fl.infTimes y : Fl ℝ) = .ninf := by
    intro y; unfold Fl.infTimes; split_ifs <;> simp
  cases a with
  | fin a' =>
    cases b with
    | fin b' => exact ⟨a', b', rfl, rfl⟩
    | _ => exact absurd h (by simp [HAdd.hAdd, Add.add, Fl.add, HMul.hMul, Mul.mul, Fl.mul, Fl.isFinite])
  | nan =>
    exfalso
    cases b <;> simp [HAdd.hAdd, Add.add, Fl.add, HMul.hMul, Mul.mul, Fl.mul, Fl.isFinite] at h
  | pinf =>
    exfalso
    have e : (Fl.pinf * Fl.fin x : Fl ℝ) = Fl.infTimes x := rfl
    rw [e] at h
    rcases hinf x with h1 | h1 | h1 <;> rw [h1] at h <;>
      cases b <;> simp [HAdd.hAdd, Add.add, Fl.add, Fl.isFinite] at h
  | ninf =>
    exfalso
    have e : (Fl.ninf * Fl.fin x : Fl ℝ) = Fl.infTimes (-x) := rfl
    rw [e] at h
    rcases hinf (-x) with h1 | h1 | h1 <;> rw [h1] at h <;>
      cases b <;> simp [HAdd.hAdd, Add.add, Fl.add, Fl.isFinite] at h

theorem rowCont_finite (O : ContFit) (slope b0 : Fl ℝ) (d : LineData) (wave : Fin c → ℝ)
    (h : contFinite (rowCont O slope b0 d wave) = true) :
    ∃ a b, slope = .fin a ∧ O.row slope b0 d = .fin b ∧
      ∀ j, rowCont O slope b0 d wave j = .fin (a * wave j + b) := by
  unfold contFinite at h
  cases hm : npMax (List.ofFn (rowCont O slope b0 d wave)) with
  | none => simp [hm] at h
  | some v =>
    simp only [hm] at h
    have hv := npMax_mem _ v hm h
    rw [List.mem_ofFn] at hv
    obtain ⟨j, hj⟩ := hv
    rw [← hj] at h
    obtain ⟨a, b, ha, hb⟩ := line_finite _ _ _ h
    refine ⟨a, b, ha, hb, fun k => ?_⟩
    unfold rowCont
    rw [hb, ha, Fl.fin_mul, Fl.fin_add]

/-! ## C52 -/

/-- What a successful continuum subtraction consists of. -/
theorem subtract_ok (O : ContFit) (median : List (Fl ℝ) → Fl ℝ) (s : ContSpec r c) (s1 : Cont1D c)
    (cutoff : Option (Fl ℝ)) (f m : ℝ × ℝ) (fill : Fl ℝ) (out : ContOut r)
    (h : subtractContinuum O median s s1 cutoff f m fill = .ok out) :
    ∃ mask1 mask flux err tmp slope b0, prepMask1D s1 = .ok mask1 ∧
      prepareBadPixels s.flux s.err s.weight s.mask (some mask1) fill = .ok (mask, flux, err) ∧
      fitCont1D O s1 mask1 (median (List.ofFn fun j => colQuad err mask j)) cutoff s.obswave
        (contWindows s.obswave f m).1 (contWindows s.obswave f m).2.1 = .ok (tmp, slope, b0) ∧
      (∀ i, contFinite (rowCont O slope b0 ⟨twoSides s.obswave (contWindows s.obswave f m).1
          (contWindows s.obswave f m).2.1, twoSides (flux i) (contWindows s.obswave f m).1
          (contWindows s.obswave f m).2.1, twoSides (err i) (contWindows s.obswave f m).1
          (contWindows s.obswave f m).2.1, twoSides (mask i) (contWindows s.obswave f m).1
          (contWindows s.obswave f m).2.1⟩ s.wave) = true) ∧
      out = ⟨(contWindows s.obswave f m).2.2.map s.wave, pick flux (contWindows s.obswave f m).2.2,
        pick (fun i => rowCont O slope b0 ⟨twoSides s.obswave (contWindows s.obswave f m).1
          (contWindows s.obswave f m).2.1, twoSides (flux i) (contWindows s.obswave f m).1
          (contWindows s.obswave f m).2.1, twoSides (err i) (contWindows s.obswave f m).1
          (contWindows s.obswave f m).2.1, twoSides (mask i) (contWindows s.obswave f m).1
          (contWindows s.obswave f m).2.1⟩ s.wave) (contWindows s.obswave f m).2.2,
        pick (fun i j => flux i j - rowCont O slope b0 ⟨twoSides s.obswave (contWindows s.obswave f m).1
          (contWindows s.obswave f m).2.1, twoSides (flux i) (contWindows s.obswave f m).1
          (contWindows s.obswave f m).2.1, twoSides (err i) (contWindows s.obswave f m).1
          (contWindows s.obswave f m).2.1, twoSides (mask i) (contWindows s.obswave f m).1
          (contWindows s.obswave f m).2.1⟩ s.wave j) (contWindows s.obswave f m).2.2,
        pick err (contWindows s.obswave f m).2.2, pick mask (contWindows s.obswave f m).2.2,
        pick s.weight (contWindows s.obswave f m).2.2, (contWindows s.obswave f m).2.2.map tmp⟩ := by
  unfold subtractContinuum at h
  cases h2 : specMaskMissing2D s.flux s.err (some s.weight) (some s.mask) true with
  | error e => simp [h2] at h
  | ok mm =>
    cases h1 : prepMask1D s1 with
    | error e => simp [h2, h1] at h
    | ok mask1 =>
      simp only [h2, h1] at h
      cases h3 : prepareBadPixels s.flux s.err s.weight s.mask (some mask1) fill with
      | error e => simp [h3] at h
      | ok p =>
        obtain ⟨mask, flux, err⟩ := p
        simp only [h3] at h
        cases h4 : fitCont1D O s1 mask1 (median (List.ofFn fun j => colQuad err mask j)) cutoff s.obswave
            (contWindows s.obswave f m).1 (contWindows s.obswave f m).2.1 with
        | error e => simp [h4] at h
        | ok q =>
          obtain ⟨tmp, slope, b0⟩ := q
          simp only [h4] at h
          split at h
          · rename_i hall
            refine ⟨mask1, mask, flux, err, tmp, slope, b0, rfl, h3, h4, ?_, (Except.ok.inj h).symm⟩
            intro i
            exact List.all_eq_true.1 hall i (List.mem_finRange i)
          · simp at h

/-- **C52** (reversible): at every kept pixel flux and continuum model add up to the stored flux
including the continuum, and all three are finite.  The fill value is finite and not zero (the
default is -99). -/
theorem C52_reversible (O : ContFit) (median : List (Fl ℝ) → Fl ℝ) (s : ContSpec r c) (s1 : Cont1D c)
    (cutoff : Option (Fl ℝ)) (f m : ℝ × ℝ) (v : ℝ) (hv : v ≠ 0) (out : ContOut r)
    (h : subtractContinuum O median s s1 cutoff f m (.fin v) = .ok out) (i : Fin r) :
    (out.flux i).length = (out.inclCont i).length ∧ (out.contModel i).length = (out.inclCont i).length ∧
    out.wave.length = (out.inclCont i).length ∧
    ∀ (k : Nat) (F C I : Fl ℝ), (out.flux i)[k]? = some F → (out.contModel i)[k]? = some C →
      (out.inclCont i)[k]? = some I →
      ∃ F' C' I', F = .fin F' ∧ C = .fin C' ∧ I = .fin I' ∧ F' + C' = I' := by
  obtain ⟨mask1, mask, flux, err, tmp, slope, b0, _, hp, _, hfin, rfl⟩ := subtract_ok _ _ _ _ _ _ _ _ _ h
  obtain ⟨a, b, _, _, hrow⟩ := rowCont_finite _ _ _ _ _ (hfin i)
  simp only [pick, List.length_map, List.getElem?_map, true_and]
  intro k F C I hF hC hI
  cases hk : (contWindows s.obswave f m).2.2[k]? with
  | none => simp [hk] at hF
  | some j =>
    simp only [hk, Option.map_some, Option.some.injEq] at hF hC hI
    have hfl := (C13_all_finite _ _ _ _ _ v hv _ _ _ hp i j).1
    obtain ⟨x, hx⟩ := (isFinite_iff _).1 hfl
    rw [hrow j] at hF hC
    rw [hx, Fl.fin_sub] at hF
    rw [hx] at hI
    exact ⟨_, _, _, hF.symm, hC.symm, hI.symm, by ring⟩

/-- **C52** (disabled): without continuum subtraction the flux is the flux at the kept columns
(bad masked pixels filled) and the continuum model is zero. -/
theorem C52_disabled (s : ContSpec r c) (f m : ℝ × ℝ) (v : ℝ) (out : ContOut r)
    (h : skipContinuum s f m (.fin v) = .ok out) (i : Fin r) :
    out.flux i = out.inclCont i ∧ (∀ C ∈ out.contModel i, C = 0) ∧
    ∃ cols : List (Fin c), out.wave = cols.map s.wave ∧
      (∀ j, j ∈ cols ↔ f.1 ≤ s.obswave j ∧ s.obswave j ≤ f.2) ∧
      (out.flux i).length = cols.length ∧
      ∀ (k : Nat) (j : Fin c), cols[k]? = some j → (s.flux i j).isFinite = true →
        (out.flux i)[k]? = some (s.flux i j) := by
  unfold skipContinuum at h
  cases h3 : prepareBadPixels s.flux s.err s.weight s.mask none (.fin v) with
  | error e => simp [h3] at h
  | ok p =>
    obtain ⟨mask, flux, err⟩ := p
    simp only [h3] at h
    obtain rfl := (Except.ok.inj h).symm
    refine ⟨rfl, ?_, (contWindows s.obswave f m).2.2, rfl, ?_, ?_, ?_⟩
    · intro C hC
      simp only [pick, List.mem_map] at hC
      obtain ⟨_, _, rfl⟩ := hC
      rfl
    · intro j
      simp [contWindows, List.mem_filter]
    · simp [pick]
    · intro k j hk hfin
      simp only [pick, List.getElem?_map, hk, Option.map_some, Option.some.injEq]
      unfold prepareBadPixels at h3
      split at h3
      · simp at h3
      · obtain ⟨-, hf, -⟩ := by
          have := Except.ok.inj h3
          exact (by simpa using this : _ ∧ _ ∧ _)
        rw [← hf]
        exact C13_finite_kept _ _ _ false _ hfin (by simp)

/-- The continuum windows of a pixel set. -/
theorem C52_windows (obs : Fin c → ℝ) (f m : ℝ × ℝ) (h1 : f.1 ≤ m.1) (h2 : m.1 ≤ m.2) (h3 : m.2 ≤ f.2)
    (j : Fin c) :
    let w := contWindows obs f m
    (j ∈ w.1 → j ∉ w.2.1) ∧ (j ∈ w.1 ∨ j ∈ w.2.1 → f.1 ≤ obs j ∧ obs j ≤ f.2 ∧
      ¬ (m.1 ≤ obs j ∧ obs j ≤ m.2)) ∧
    (f.1 ≤ obs j → obs j ≤ f.2 → ¬ (m.1 ≤ obs j ∧ obs j ≤ m.2) → j ∈ w.1 ∨ j ∈ w.2.1) := by
  simp only [contWindows, List.mem_filter, List.mem_finRange, true_and, decide_eq_true_eq]
  refine ⟨fun h h' => ?_, fun h => ?_, fun ha hb hc => ?_⟩
  · linarith [h.2, h'.2]
  · rcases h with h | h
    · exact ⟨h.1, by linarith [h.2], fun hc => by linarith [h.2, hc.1]⟩
    · exact ⟨by linarith [h.2], h.1, fun hc => by linarith [h.2, hc.2]⟩
  · by_cases h : obs j < m.1
    · exact Or.inl ⟨ha, h⟩
    · exact Or.inr ⟨hb, by by_contra hd; exact hc ⟨not_lt.1 h, not_lt.1 hd⟩⟩

/-- Every line that has default ranges has nested ones, at any redshift. -/
theorem C52_default_ranges (line : String) (f m : ℚ × ℚ) (hf : readWaveRange fullRange2D line = .ok f)
    (hm : readWaveRange maskRange2D line = .ok m) (z : ℝ) (hz : -1 < z) :
    (f.1 : ℝ) * (1 + z) ≤ m.1 * (1 + z) ∧ (m.1 : ℝ) * (1 + z) ≤ m.2 * (1 + z) ∧
    (m.2 : ℝ) * (1 + z) ≤ f.2 * (1 + z) := by
  have hz' : (0 : ℝ) ≤ 1 + z := by linarith
  have key : f.1 ≤ m.1 ∧ m.1 ≤ m.2 ∧ m.2 ≤ f.2 := by
    simp only [readWaveRange, fullRange2D, maskRange2D, readRow] at hf hm
    split_ifs at hf hm with h1 h2 h3
    · cases hf; cases hm; norm_num
    · cases hf; cases hm; norm_num
    · cases hf; cases hm; norm_num
  obtain ⟨k1, k2, k3⟩ := key
  refine ⟨?_, ?_, ?_⟩ <;> apply mul_le_mul_of_nonneg_right _ hz' <;> exact_mod_cast ‹_›

/-- The columns inside the masked line range. -/
def InLines (obs : Fin c → ℝ) (m : ℝ × ℝ) (j : Fin c) : Prop := m.1 ≤ obs j ∧ obs j ≤ m.2

theorem twoSides_congr {α : Type} (obs : Fin c → ℝ) (f m : ℝ × ℝ) (h1 : f.1 ≤ m.1) (h2 : m.1 ≤ m.2)
    (h3 : m.2 ≤ f.2) (a b : Fin c → α) (h : ∀ j, ¬ InLines obs m j → a j = b j) :
    twoSides a (contWindows obs f m).1 (contWindows obs f m).2.1 =
      twoSides b (contWindows obs f m).1 (contWindows obs f m).2.1 := by
  unfold twoSides
  congr 1 <;> refine List.map_congr_left fun j hj => h j ?_
  · exact ((C52_windows obs f m h1 h2 h3 j).2.1 (Or.inl hj)).2.2
  · exact ((C52_windows obs f m h1 h2 h3 j).2.1 (Or.inr hj)).2.2

theorem prepare_finite (flux err weight mask : Img r c ℝ) (mask1 : Option (Fin c → Fl ℝ)) (v : ℝ)
    (hf : ∀ i j, (flux i j).isFinite = true) :
    (∃ e, prepareBadPixels flux err weight mask mask1 (.fin v) = .error e) ∨
    ∃ m e, prepareBadPixels flux err weight mask mask1 (.fin v) = .ok (m, flux, e) := by
  unfold prepareBadPixels
  split
  · exact Or.inl ⟨_, rfl⟩
  · refine Or.inr ⟨_, _, congrArg Except.ok (congrArg (Prod.mk _) (congrArg₂ Prod.mk ?_ rfl))⟩
    funext i j
    exact C13_finite_kept _ _ _ false _ (hf i j) (by simp)

/-- **C52** (line flux is irrelevant): the continuum model does not depend on the flux inside the
masked line range, in the 2D or the 1D spectrum. -/
theorem C52_line_flux_irrelevant (O : ContFit) (median : List (Fl ℝ) → Fl ℝ) (s : ContSpec r c)
    (s1 : Cont1D c) (flux' : Img r c ℝ) (flux1' : Fin c → Fl ℝ) (cutoff : Option (Fl ℝ)) (f m : ℝ × ℝ)
    (v : ℝ) (h1 : f.1 ≤ m.1) (h2 : m.1 ≤ m.2) (h3 : m.2 ≤ f.2)
    (hf : ∀ i j, (s.flux i j).isFinite = true) (hf' : ∀ i j, (flux' i j).isFinite = true)
    (hg : ∀ j, (s1.flux j).isFinite = true) (hg' : ∀ j, (flux1' j).isFinite = true)
    (he : ∀ i j, ¬ InLines s.obswave m j → flux' i j = s.flux i j)
    (he1 : ∀ j, ¬ InLines s.obswave m j → flux1' j = s1.flux j) (out : ContOut r)
    (h : subtractContinuum O median s s1 cutoff f m (.fin v) = .ok out) :
    ∃ out', subtractContinuum O median { s with flux := flux' } { s1 with flux := flux1' } cutoff f m
      (.fin v) = .ok out' ∧ out'.contModel = out.contModel := by
  have hm1 : prepMask1D { s1 with flux := flux1' } = prepMask1D s1 := by
    unfold prepMask1D specMaskMissing1D
    simp only [hg, hg', if_true]
  have hm2 : specMaskMissing2D flux' s.err (some s.weight) (some s.mask) true =
      specMaskMissing2D s.flux s.err (some s.weight) (some s.mask) true := by
    unfold specMaskMissing2D
    simp only [hf, hf', if_true]
  obtain ⟨mask1, mask, flux, err, tmp, slope, b0, hp1, hp, hfit, hfin, rfl⟩ :=
    subtract_ok _ _ _ _ _ _ _ _ _ h
  have hflux : flux = s.flux := by
    rcases prepare_finite s.flux s.err s.weight s.mask (some mask1) v hf with ⟨e, h4⟩ | ⟨a, b, h4⟩
    · rw [h4] at hp; simp at hp
    · rw [h4] at hp
      have := Except.ok.inj hp
      simp only [Prod.mk.injEq] at this
      exact this.2.1.symm
  have hp' : prepareBadPixels flux' s.err s.weight s.mask (some mask1) (.fin v) =
      .ok (mask, flux', err) := by
    rcases prepare_finite flux' s.err s.weight s.mask (some mask1) v hf' with ⟨e, h4⟩ | ⟨a, b, h4⟩
    · exfalso
      unfold prepareBadPixels at h4 hp
      rw [hm2] at h4
      cases h5 : specMaskMissing2D s.flux s.err (some s.weight) (some s.mask) true with
      | error e => simp [h5] at hp
      | ok mm => simp [h5] at h4
    · rw [h4]
      unfold prepareBadPixels at h4 hp
      rw [hm2] at h4
      cases h5 : specMaskMissing2D s.flux s.err (some s.weight) (some s.mask) true with
      | error e => simp [h5] at hp
      | ok mm =>
        simp only [h5, Except.ok.injEq, Prod.mk.injEq] at h4 hp
        rw [← h4.1, hp.1, ← h4.2.2, hp.2.2]
  have hmm : ∃ mm, specMaskMissing2D flux' s.err (some s.weight) (some s.mask) true = .ok mm := by
    rw [hm2]
    cases h5 : specMaskMissing2D s.flux s.err (some s.weight) (some s.mask) true with
    | error e => unfold prepareBadPixels at hp; simp [h5] at hp
    | ok mm => exact ⟨mm, rfl⟩
  obtain ⟨mm, hmm⟩ := hmm
  have hfit' : fitCont1D O { s1 with flux := flux1' } mask1
      (median (List.ofFn fun j => colQuad err mask j)) cutoff s.obswave
      (contWindows s.obswave f m).1 (contWindows s.obswave f m).2.1 = .ok (tmp, slope, b0) := by
    rw [← hfit]
    unfold fitCont1D
    simp only [twoSides_congr s.obswave f m h1 h2 h3 flux1' s1.flux he1]
  have hrows : ∀ i, twoSides (flux' i) (contWindows s.obswave f m).1 (contWindows s.obswave f m).2.1 =
      twoSides (flux i) (contWindows s.obswave f m).1 (contWindows s.obswave f m).2.1 := by
    intro i
    rw [hflux]
    exact twoSides_congr s.obswave f m h1 h2 h3 _ _ (he i)
  refine ⟨⟨(contWindows s.obswave f m).2.2.map s.wave, pick flux' (contWindows s.obswave f m).2.2,
    pick (fun i => rowCont O slope b0 ⟨twoSides s.obswave (contWindows s.obswave f m).1
      (contWindows s.obswave f m).2.1, twoSides (flux i) (contWindows s.obswave f m).1
      (contWindows s.obswave f m).2.1, twoSides (err i) (contWindows s.obswave f m).1
      (contWindows s.obswave f m).2.1, twoSides (mask i) (contWindows s.obswave f m).1
      (contWindows s.obswave f m).2.1⟩ s.wave) (contWindows s.obswave f m).2.2,
    pick (fun i j => flux' i j - rowCont O slope b0 ⟨twoSides s.obswave (contWindows s.obswave f m).1
      (contWindows s.obswave f m).2.1, twoSides (flux i) (contWindows s.obswave f m).1
      (contWindows s.obswave f m).2.1, twoSides (err i) (contWindows s.obswave f m).1
      (contWindows s.obswave f m).2.1, twoSides (mask i) (contWindows s.obswave f m).1
      (contWindows s.obswave f m).2.1⟩ s.wave j) (contWindows s.obswave f m).2.2,
    pick err (contWindows s.obswave f m).2.2, pick mask (contWindows s.obswave f m).2.2,
    pick s.weight (contWindows s.obswave f m).2.2, (contWindows s.obswave f m).2.2.map tmp⟩, ?_, rfl⟩
  unfold subtractContinuum
  simp only [hmm, hm1, hp1, hp', hfit', hrows]
  rw [if_pos (List.all_eq_true.2 fun i _ => hfin i)]

/-! ## C76: a linear continuum is removed exactly -/

/-- Sum of squared residuals minimised by the fits (general_utils.py 28-45). -/
noncomputable def lineCost (a b : ℝ) (d : LineData) : ℝ :=
  ((d.xx.zip (d.yy.zip (d.err.zip d.mask))).map fun p =>
    match linResidual (.fin a) (.fin b) p.1 p.2.1 p.2.2.1 p.2.2.2 with
    | .fin v => v ^ 2
    | _ => 0).sum

/-- A minimiser that finds an exact solution when there is one (every minimiser that finds the
minimum does). -/
structure ContFit.Exact (O : ContFit) : Prop where
  both : ∀ d a' b', lineCost a' b' d = 0 → ∃ a b, O.both d = (.fin a, .fin b) ∧ lineCost a b d = 0
  row : ∀ a b0 d b', lineCost a b' d = 0 → ∃ b, O.row (.fin a) b0 d = .fin b ∧ lineCost a b d = 0

open Classical in
/-- There are such minimisers. -/
theorem exists_exact_fit : ∃ O : ContFit, O.Exact := by
  refine ⟨⟨fun d => if h : ∃ p : ℝ × ℝ, lineCost p.1 p.2 d = 0 then (.fin h.choose.1, .fin h.choose.2) else (0, 0),
    fun _ => 0, fun sl _ d => match sl with
      | .fin a => if h : ∃ b, lineCost a b d = 0 then .fin h.choose else 0
      | _ => 0⟩, ?_, ?_⟩
  · intro d a' b' h
    have h' : ∃ p : ℝ × ℝ, lineCost p.1 p.2 d = 0 := ⟨(a', b'), h⟩
    exact ⟨h'.choose.1, h'.choose.2, by simp only [dif_pos h'], h'.choose_spec⟩
  · intro a b0 d b' h
    have h' : ∃ b, lineCost a b d = 0 := ⟨b', h⟩
    exact ⟨h'.choose, by simp only [dif_pos h'], h'.choose_spec⟩

theorem lineCost_terms (a b : ℝ) (d : LineData) :
    ∀ t ∈ (d.xx.zip (d.yy.zip (d.err.zip d.mask))).map (fun p =>
      match linResidual (.fin a) (.fin b) p.1 p.2.1 p.2.2.1 p.2.2.2 with
      | .fin v => v ^ 2
      | _ => 0), (0 : ℝ) ≤ t := by
  intro t ht
  obtain ⟨p, _, rfl⟩ := List.mem_map.1 ht
  split
  · exact sq_nonneg _
  · exact le_rfl

/-- One pixel of a fit: unmasked with finite value and error. -/
theorem linResidual_eq (a b x y e : ℝ) (m : Fl ℝ) (he : e ≠ 0) (hm : m ≠ 0) :
    linResidual (.fin a) (.fin b) x (.fin y) (.fin e) m = .fin ((a * x + b - y) / e) := by
  have : Fl.eqB m 0 = false := by
    cases h : Fl.eqB m 0
    · rfl
    · exact absurd ((Fl.eqB_zero_iff m).1 h) hm
  simp only [linResidual, this, Fl.fin_mul, Fl.fin_add, Fl.fin_sub, Fl.fin_div, if_neg he,
    Bool.false_eq_true, if_false, Fl.isFinite, if_true]

theorem linResidual_masked (a b x : ℝ) (y e : Fl ℝ) :
    linResidual (.fin a) (.fin b) x y e 0 = .fin 0 := by
  have : Fl.eqB (0 : Fl ℝ) 0 = true := (Fl.eqB_zero_iff _).2 rfl
  simp only [linResidual, this, if_true]
  rfl

/-- A pixel consistent with a line: masked, or finite error not zero and value on the line. -/
def OnLine (a b x : ℝ) (y e m : Fl ℝ) : Prop :=
  m = 0 ∨ ∃ e', e = .fin e' ∧ e' ≠ 0 ∧ y = .fin (a * x + b)

theorem cost_zero (a b : ℝ) (v : Fin c → ℝ) (y e m : Fin c → Fl ℝ) (l rr : List (Fin c))
    (h : ∀ j, j ∈ l ∨ j ∈ rr → OnLine a b (v j) (y j) (e j) (m j)) :
    lineCost a b ⟨twoSides v l rr, twoSides y l rr, twoSides e l rr, twoSides m l rr⟩ = 0 := by
  unfold lineCost twoSides
  apply List.sum_eq_zero
  intro t ht
  obtain ⟨p, hp, rfl⟩ := List.mem_map.1 ht
  rw [← List.map_append, ← List.map_append, ← List.map_append, ← List.map_append,
    List.zip_map', List.zip_map', List.zip_map', List.mem_map] at hp
  obtain ⟨j, hj, rfl⟩ := hp
  rcases h j (List.mem_append.1 hj) with hm | ⟨e', he, he', hy⟩
  · simp only [hm, linResidual_masked]; norm_num
  · by_cases hm : m j = 0
    · simp only [hm, linResidual_masked]; norm_num
    · simp only [he, hy, linResidual_eq _ _ _ _ _ _ he' hm]; norm_num

theorem cost_zero_imp (a b : ℝ) (v : Fin c → ℝ) (y e m : Fin c → Fl ℝ) (l rr : List (Fin c))
    (h : lineCost a b ⟨twoSides v l rr, twoSides y l rr, twoSides e l rr, twoSides m l rr⟩ ≤ 0)
    (j : Fin c) (hj : j ∈ l ∨ j ∈ rr) (hm : m j ≠ 0) (e' y' : ℝ) (he : e j = .fin e') (he' : e' ≠ 0)
    (hy : y j = .fin y') : a * v j + b = y' := by
  have hnn := lineCost_terms a b ⟨twoSides v l rr, twoSides y l rr, twoSides e l rr, twoSides m l rr⟩
  have h0 := le_antisymm h (List.sum_nonneg hnn)
  have hmem : (v j, y j, e j, m j) ∈ (twoSides v l rr).zip ((twoSides y l rr).zip
      ((twoSides e l rr).zip (twoSides m l rr))) := by
    unfold twoSides
    rw [← List.map_append, ← List.map_append, ← List.map_append, ← List.map_append,
      List.zip_map', List.zip_map', List.zip_map', List.mem_map]
    exact ⟨j, List.mem_append.2 hj, rfl⟩
  have h1 := List.all_zero_of_le_zero_le_of_sum_eq_zero hnn h0 (List.mem_map.2 ⟨_, hmem, rfl⟩)
  simp only [he, hy, linResidual_eq _ _ _ _ _ _ he' hm] at h1
  have h2 := pow_eq_zero_iff (two_ne_zero) |>.1 h1
  have h3 := (div_eq_zero_iff.1 h2).resolve_right he'
  linarith

/-- **C76**: if the minimiser finds an exact solution when there is one, a continuum that is linear in the two windows is
removed exactly.  Data: a line of slope `a` in the unmasked window pixels of the 1D spectrum, the
same slope with its own intercept in each row, unmasked window pixels on both sides of the 1D
spectrum and at least one in each row.  `tmp` is the 1D mask with the sky columns removed. -/
theorem C76_linear_removed (O : ContFit) (hO : O.Exact) (median : List (Fl ℝ) → Fl ℝ)
    (s : ContSpec r c) (s1 : Cont1D c) (cutoff : Option (Fl ℝ)) (f m : ℝ × ℝ) (h1 : f.1 ≤ m.1)
    (h2 : m.1 ≤ m.2) (h3 : m.2 ≤ f.2) (v : ℝ) (a b : ℝ) (bi : Fin r → ℝ)
    (mask1 tmp : Fin c → Fl ℝ) (mask flux err : Img r c ℝ) (sl b0 : Fl ℝ)
    (hp1 : prepMask1D s1 = .ok mask1)
    (hp : prepareBadPixels s.flux s.err s.weight s.mask (some mask1) (.fin v) = .ok (mask, flux, err))
    (hfit : fitCont1D O s1 mask1 (median (List.ofFn fun j => colQuad err mask j)) cutoff s.obswave
      (contWindows s.obswave f m).1 (contWindows s.obswave f m).2.1 = .ok (tmp, sl, b0))
    (hw : s.wave = s.obswave) (hc : 0 < c)
    (h1d : ∀ j, ¬ InLines s.obswave m j → OnLine a b (s.wave j) (s1.flux j) (s1.err j) (tmp j))
    (h2d : ∀ i j, ¬ InLines s.obswave m j → OnLine a (bi i) (s.wave j) (flux i j) (err i j) (mask i j))
    (hnn : ∀ j, ∃ t, tmp j = .fin t ∧ 0 ≤ t)
    (jl jr : Fin c) (hjl : f.1 ≤ s.obswave jl ∧ s.obswave jl < m.1 ∧ tmp jl ≠ 0)
    (hjr : m.2 < s.obswave jr ∧ s.obswave jr ≤ f.2 ∧ tmp jr ≠ 0)
    (hrow : ∀ i, ∃ j, f.1 ≤ s.obswave j ∧ s.obswave j ≤ f.2 ∧ ¬ InLines s.obswave m j ∧ mask i j ≠ 0) :
    ∃ out, subtractContinuum O median s s1 cutoff f m (.fin v) = .ok out ∧
      (∀ i, out.contModel i = out.wave.map fun x => .fin (a * x + bi i)) ∧
      ∀ i, ∀ (k : Nat) (j : Fin c), (contWindows s.obswave f m).2.2[k]? = some j →
        ¬ InLines s.obswave m j → mask i j ≠ 0 → (out.flux i)[k]? = some (.fin 0) := by
  have hwin := C52_windows s.obswave f m h1 h2 h3
  have hjl' : jl ∈ (contWindows s.obswave f m).1 := by
    simp [contWindows, List.mem_filter, hjl.1, hjl.2.1]
  have hjr' : jr ∈ (contWindows s.obswave f m).2.1 := by
    simp [contWindows, List.mem_filter, hjr.1, hjr.2.1]
  -- the maximum of the mask on each side is positive
  have hmax : ∀ (l : List (Fin c)) (j : Fin c), j ∈ l → tmp j ≠ 0 → maxPos (l.map tmp) = true := by
    intro l j hj hne
    have hex : ∀ k, tmp k = .fin ((match tmp k with | .fin t => t | _ => 0)) := by
      intro k
      obtain ⟨t, ht, _⟩ := hnn k
      rw [ht]
    have hl : l.map tmp ≠ [] := by
      intro hc
      rw [List.map_eq_nil_iff] at hc
      rw [hc] at hj
      simp at hj
    have hle : l.map tmp = (l.map fun k => match tmp k with | .fin t => t | _ => 0).map Fl.fin := by
      rw [List.map_map]
      exact List.map_congr_left fun k _ => hex k
    have hl2 : (l.map fun k => match tmp k with | .fin t => t | _ => (0 : ℝ)) ≠ [] := by
      intro hc
      rw [List.map_eq_nil_iff] at hc
      rw [hc] at hj
      simp at hj
    obtain ⟨M, _, hM, hMle⟩ := npMax_fin (l.map fun k => match tmp k with | .fin t => t | _ => (0 : ℝ)) hl2
    unfold maxPos
    rw [hle, hM]
    obtain ⟨t, ht, htn⟩ := hnn j
    have h4 : t ≤ M := by
      have := hMle t (by
        rw [List.mem_map]
        exact ⟨j, hj, by rw [ht]⟩)
      exact this
    have h5 : t ≠ 0 := by
      intro h0
      rw [h0] at ht
      exact hne ht
    have h6 : 0 < M := lt_of_lt_of_le (lt_of_le_of_ne htn (Ne.symm h5)) h4
    show decide ((0 : ℝ) < M) = true
    exact decide_eq_true h6
  have hvar : slopeVaries (contWindows s.obswave f m).1 (contWindows s.obswave f m).2.1 tmp = true := by
    unfold slopeVaries
    rw [hmax _ jl hjl' hjl.2.2, hmax _ jr hjr' hjr.2.2]
    have e1 : (contWindows s.obswave f m).1.isEmpty = false := by
      rw [List.isEmpty_eq_false_iff]; exact List.ne_nil_of_mem hjl'
    have e2 : (contWindows s.obswave f m).2.1.isEmpty = false := by
      rw [List.isEmpty_eq_false_iff]; exact List.ne_nil_of_mem hjr'
    rw [e1, e2]
    rfl
  -- the slope is the slope of the data
  have hsl : sl = .fin a := by
    unfold fitCont1D at hfit
    split at hfit
    · simp at hfit
    · simp only at hfit
      split at hfit
      · cases hfit
      simp only [Except.ok.injEq, Prod.mk.injEq] at hfit
      obtain ⟨ht, hb⟩ := hfit
      subst ht
      rw [if_pos hvar] at hb
      obtain ⟨a', b', he, hcost'⟩ := hO.both _ a b (cost_zero a b s.obswave _ _ _ _ _ (fun j hj => by
        have := h1d j ((hwin j).2.1 hj).2.2
        rwa [hw] at this))
      rw [he] at hb
      have hcost := hcost'.le
      have pt : ∀ j, j ∈ (contWindows s.obswave f m).1 ∨ j ∈ (contWindows s.obswave f m).2.1 → _ →
          a' * s.obswave j + b' = a * s.obswave j + b := fun j hj hne => by
        rcases h1d j ((hwin j).2.1 hj).2.2 with h0 | ⟨e', h4, h5, h6⟩
        · exact absurd h0 hne
        · rw [hw] at h6
          exact cost_zero_imp a' b' s.obswave _ _ _ _ _ hcost j hj hne e' _ h4 h5 h6
      have p1 := pt jl (Or.inl hjl') hjl.2.2
      have p2 := pt jr (Or.inr hjr') hjr.2.2
      have hlt : s.obswave jl < s.obswave jr := by linarith [hjl.2.1, hjr.1]
      have ha : a' = a := by
        have : (a' - a) * (s.obswave jr - s.obswave jl) = 0 := by linarith
        rcases mul_eq_zero.1 this with h | h
        · linarith
        · linarith
      have hb1 : sl = .fin a' := (congrArg Prod.fst hb).symm
      rw [hb1, ha]
  -- every row
  have hrows : ∀ i, rowCont O sl b0 ⟨twoSides s.obswave (contWindows s.obswave f m).1
      (contWindows s.obswave f m).2.1, twoSides (flux i) (contWindows s.obswave f m).1
      (contWindows s.obswave f m).2.1, twoSides (err i) (contWindows s.obswave f m).1
      (contWindows s.obswave f m).2.1, twoSides (mask i) (contWindows s.obswave f m).1
      (contWindows s.obswave f m).2.1⟩ s.wave = fun j => .fin (a * s.wave j + bi i) := by
    intro i
    funext j
    unfold rowCont
    rw [hsl]
    obtain ⟨b', he, hcost'⟩ := hO.row a b0 _ (bi i) (cost_zero a (bi i) s.obswave (flux i) (err i) (mask i)
      (contWindows s.obswave f m).1 (contWindows s.obswave f m).2.1 (fun j hj => by
      have := h2d i j ((hwin j).2.1 hj).2.2
      rwa [hw] at this))
    rw [he, Fl.fin_mul, Fl.fin_add]
    have hcost := hcost'.le
    obtain ⟨j0, k1, k2, k3, k4⟩ := hrow i
    have hj0 := (hwin j0).2.2 k1 k2 k3
    rcases h2d i j0 k3 with h0 | ⟨e', h4, h5, h6⟩
    · exact absurd h0 k4
    · rw [hw] at h6
      have := cost_zero_imp a b' s.obswave _ _ _ _ _ hcost j0 hj0 k4 e' _ h4 h5 h6
      have hb : b' = bi i := by linarith
      rw [hb]
  have hmm : ∃ mm, specMaskMissing2D s.flux s.err (some s.weight) (some s.mask) true = .ok mm := by
    cases h5 : specMaskMissing2D s.flux s.err (some s.weight) (some s.mask) true with
    | error e => unfold prepareBadPixels at hp; simp [h5] at hp
    | ok mm => exact ⟨mm, rfl⟩
  obtain ⟨mm, hmm⟩ := hmm
  have hfin : ∀ i, contFinite (fun j => (Fl.fin (a * s.wave j + bi i) : Fl ℝ)) = true := by
    intro i
    unfold contFinite
    have e1 : List.ofFn (fun j => (Fl.fin (a * s.wave j + bi i) : Fl ℝ)) =
        (List.ofFn fun j => a * s.wave j + bi i).map Fl.fin := by
      rw [List.map_ofFn]; rfl
    obtain ⟨M, _, hM, _⟩ := npMax_fin (List.ofFn fun j => a * s.wave j + bi i) (by
      intro h0
      have := congrArg List.length h0
      rw [List.length_ofFn, List.length_nil] at this
      omega)
    rw [e1, hM]
    rfl
  refine ⟨?_, ?_, ?_⟩
  · exact ⟨(contWindows s.obswave f m).2.2.map s.wave, pick flux (contWindows s.obswave f m).2.2,
      pick (fun i j => .fin (a * s.wave j + bi i)) (contWindows s.obswave f m).2.2,
      pick (fun i j => flux i j - .fin (a * s.wave j + bi i)) (contWindows s.obswave f m).2.2,
      pick err (contWindows s.obswave f m).2.2, pick mask (contWindows s.obswave f m).2.2,
      pick s.weight (contWindows s.obswave f m).2.2, (contWindows s.obswave f m).2.2.map tmp⟩
  · unfold subtractContinuum
    simp only [hmm, hp1, hp, hfit, hrows, hfin]
    rw [if_pos (List.all_eq_true.2 fun _ _ => rfl)]
  · refine ⟨fun i => ?_, fun i k j hk hj hmne => ?_⟩
    · simp only [pick, List.map_map]
      rfl
    · simp only [pick, List.getElem?_map, hk, Option.map_some, Option.some.injEq]
      rcases h2d i j hj with h0 | ⟨e', _, _, h6⟩
      · exact absurd h0 hmne
      · rw [h6, Fl.fin_sub, sub_self]

/-- **C76** for clean data: all values finite, errors and weights not zero, nothing masked, no sky
line above the cutoff. -/
theorem C76_clean (O : ContFit) (hO : O.Exact) (median : List (Fl ℝ) → Fl ℝ)
    (cut : Fl ℝ) (f m : ℝ × ℝ) (h1 : f.1 ≤ m.1) (h2 : m.1 ≤ m.2) (h3 : m.2 ≤ f.2) (v : ℝ)
    (flux err weight : Fin r → Fin c → ℝ) (flux1 err1 : Fin c → ℝ) (wave : Fin c → ℝ)
    (he : ∀ i j, err i j ≠ 0) (hwt : ∀ i j, weight i j ≠ 0) (he1 : ∀ j, err1 j ≠ 0)
    (hr : 0 < r) (a b : ℝ) (bi : Fin r → ℝ)
    (h1d : ∀ j, ¬ InLines wave m j → flux1 j = a * wave j + b)
    (h2d : ∀ i j, ¬ InLines wave m j → flux i j = a * wave j + bi i)
    (hsky : ∀ j, Fl.leB (cut * median (List.ofFn fun j => colQuad (fun i j => Fl.fin (err i j)) (fun _ _ => 1) j))
      (.fin |err1 j|) = false)
    (jl jr : Fin c) (hjl : f.1 ≤ wave jl ∧ wave jl < m.1) (hjr : m.2 < wave jr ∧ wave jr ≤ f.2) :
    ∃ out, subtractContinuum O median (⟨fun i j => .fin (flux i j), fun i j => .fin (err i j),
        fun i j => .fin (weight i j), fun _ _ => 1, wave, wave⟩ : ContSpec r c)
        ⟨fun j => .fin (flux1 j), fun j => .fin (err1 j), none⟩ (some cut) f m (.fin v) = .ok out ∧
      (∀ i, out.contModel i = out.wave.map fun x => .fin (a * x + bi i)) ∧
      ∀ i, ∀ (k : Nat) (j : Fin c), (contWindows wave f m).2.2[k]? = some j →
        ¬ InLines wave m j → (out.flux i)[k]? = some (.fin 0) := by
  have hc : 0 < c := lt_of_le_of_lt (Nat.zero_le _) jl.isLt
  have eq0 : ∀ x : ℝ, x ≠ 0 → Fl.eqB (Fl.fin x) 0 = false := fun x hx => decide_eq_false hx
  have h10 : (1 : Fl ℝ) ≠ 0 := by
    intro h
    exact one_ne_zero (Fl.fin.inj h)
  have hp1 : prepMask1D (⟨fun j => .fin (flux1 j), fun j => .fin (err1 j), none⟩ : Cont1D c) =
      .ok fun _ => 1 := by
    have hmx : ∃ mx, npMax (List.ofFn fun j => Fl.abs (Fl.fin (err1 j))) = some mx := by
      rw [← Option.isSome_iff_exists]
      have : ∀ l : List (Fl ℝ), l ≠ [] → (npMax l).isSome = true := by
        intro l hl
        cases l with
        | nil => exact absurd rfl hl
        | cons _ _ => rfl
      apply this
      intro h0
      have := congrArg List.length h0
      rw [List.length_ofFn, List.length_nil] at this
      omega
    obtain ⟨mx, hmx⟩ := hmx
    have hfl : FirstLast (fun _ : Fin c => (1 : Fl ℝ)) ⟨0, hc⟩ ⟨c - 1, by omega⟩ :=
      ⟨rfl, rfl, fun j _ => ⟨Nat.zero_le _, Nat.le_sub_one_of_lt j.isLt⟩⟩
    unfold prepMask1D specMaskMissing1D
    simp only [hmx, Fl.isFinite, if_true, Except.map, eq0 _ (he1 _), Bool.false_eq_true, if_false, ite_self]
    rw [maskEdges1D_eq _ _ _ _ hfl]
    have : ¬ (((c - 1 : ℕ) : ℤ) < (c : ℤ) - 1) := by omega
    simp only [lt_irrefl, if_false, this]
  have hp : prepareBadPixels (fun i j => Fl.fin (flux i j) : Img r c ℝ) (fun i j => .fin (err i j))
      (fun i j => .fin (weight i j)) (fun _ _ => 1) (some fun _ => 1) (.fin v) =
      .ok (fun _ _ => 1, fun i j => .fin (flux i j), fun i j => .fin (err i j)) := by
    have hmx : ∃ mx, npMax ((List.ofFn fun i : Fin r => List.ofFn fun j : Fin c =>
        Fl.abs (Fl.fin (err i j))).flatten) = some mx := by
      rw [← Option.isSome_iff_exists]
      have : ∀ l : List (Fl ℝ), l ≠ [] → (npMax l).isSome = true := by
        intro l hl
        cases l with
        | nil => exact absurd rfl hl
        | cons _ _ => rfl
      apply this
      apply List.ne_nil_of_mem (a := Fl.abs (Fl.fin (err ⟨0, hr⟩ jl)))
      rw [List.mem_flatten]
      exact ⟨_, List.mem_ofFn.2 ⟨⟨0, hr⟩, rfl⟩, List.mem_ofFn.2 ⟨jl, rfl⟩⟩
    obtain ⟨mx, hmx⟩ := hmx
    have e1 : Fl.eqB (1 : Fl ℝ) 0 = false := eq0 1 one_ne_zero
    have hm : (maskSpec2DFrom1D (fun _ _ => 1) fun _ => 1 : Img r c ℝ) = fun _ _ => 1 := by
      funext i j
      simp only [maskSpec2DFrom1D, e1, Bool.false_eq_true, if_false]
    simp only [prepareBadPixels, specMaskMissing2D, hmx, Bool.not_true, Bool.false_and, Bool.false_eq_true,
      if_false, Fl.isFinite, if_true, eq0 _ (hwt _ _), hm, specNanMasking, e1, eq0 _ (he _ _), Bool.and_false]
  have hsq : ∀ j, Fl.sqrt (Fl.sq (Fl.fin (err1 j) * 1)) = .fin |err1 j| := by
    intro j
    show Fl.sqrt (Fl.fin (err1 j * 1 * (err1 j * 1))) = _
    rw [mul_one, Fl.sqrt, if_neg (not_lt.2 (mul_self_nonneg _)), Real.sqrt_mul_self_eq_abs]
  obtain ⟨sl, b0, hfit⟩ : ∃ sl b0, fitCont1D O (⟨fun j => .fin (flux1 j), fun j => .fin (err1 j), none⟩ : Cont1D c)
      (fun _ => 1) (median (List.ofFn fun j => colQuad (fun i j => Fl.fin (err i j)) (fun _ _ => 1) j))
      (some cut) wave (contWindows wave f m).1 (contWindows wave f m).2.1 = .ok (fun _ => 1, sl, b0) := by
    have hex : ∀ p : Fl ℝ × Fl ℝ, ∃ sl b0, (Except.ok ((fun _ => 1 : Fin c → Fl ℝ), p) : Except PyErr _) =
      .ok (fun _ => 1, sl, b0) := fun p => ⟨p.1, p.2, rfl⟩
    unfold fitCont1D whSkylines1D
    have e1 : (contWindows wave f m).1.isEmpty = false := by
      rw [List.isEmpty_eq_false_iff]
      exact List.ne_nil_of_mem (a := jl) (List.mem_filter.2 ⟨List.mem_finRange _, decide_eq_true hjl⟩)
    simp only [hsq, hsky, List.filter_false, List.not_mem_nil, if_false, e1, Bool.false_and, Bool.false_eq_true]
    exact hex _
  obtain ⟨out, h, hcont, hflux⟩ := C76_linear_removed O hO median (⟨fun i j => .fin (flux i j),
    fun i j => .fin (err i j), fun i j => .fin (weight i j), fun _ _ => 1, wave, wave⟩ : ContSpec r c)
    ⟨fun j => .fin (flux1 j), fun j => .fin (err1 j), none⟩ (some cut) f m h1 h2 h3 v a b bi
    (fun _ => 1) (fun _ => 1) _ _ _ sl b0 hp1 hp hfit rfl hc
    (fun j hj => Or.inr ⟨_, rfl, he1 j, congrArg _ (h1d j hj)⟩)
    (fun i j hj => Or.inr ⟨_, rfl, he i j, congrArg _ (h2d i j hj)⟩)
    (fun _ => ⟨1, rfl, zero_le_one⟩) jl jr ⟨hjl.1, hjl.2, h10⟩ ⟨hjr.1, hjr.2, h10⟩
    (fun i => ⟨jl, hjl.1, by linarith [hjl.2], fun hh => by linarith [hh.1, hjl.2], h10⟩)
  exact ⟨out, h, hcont, fun i k j hk hj => hflux i k j hk hj h10⟩

/-- Three columns, the middle one a line; the continuum `2 x + 1` in both rows. -/
example (O : ContFit) (hO : O.Exact) :
    ∃ out, subtractContinuum O (fun _ => .fin 1) (⟨fun _ j => .fin (if j = 1 then 50 else 2 * j.val + 1),
        fun _ _ => .fin 1, fun _ _ => .fin 1, fun _ _ => 1, fun j => j.val, fun j => j.val⟩ : ContSpec 2 3)
        ⟨fun j => .fin (if j = 1 then 100 else 2 * j.val + 5), fun _ => .fin 1, none⟩ (some (.fin 3)) (0, 2)
        (1, 1) (.fin (-99)) = .ok out ∧
      (∀ i, out.contModel i = out.wave.map fun x => .fin (2 * x + 1)) := by
  obtain ⟨out, h, hc, -⟩ := C76_clean (r := 2) (c := 3) O hO (fun _ => .fin 1) (.fin 3) (0, 2) (1, 1)
    (by norm_num) le_rfl (by norm_num) (-99) (fun _ j => if j = 1 then 50 else 2 * j.val + 1) (fun _ _ => 1)
    (fun _ _ => 1) (fun j => if j = 1 then 100 else 2 * j.val + 5) (fun _ => 1) (fun j => j.val)
    (fun _ _ => one_ne_zero) (fun _ _ => one_ne_zero) (fun _ => one_ne_zero) (by norm_num) 2 5 (fun _ => 1)
    (fun j hj => if_neg fun h => hj (by subst h; simp [InLines]))
    (fun i j hj => if_neg fun h => hj (by subst h; simp [InLines]))
    (fun j => by
      rw [Fl.fin_mul]
      exact decide_eq_false (by norm_num)) 0 2 (by norm_num) (by norm_num)
  exact ⟨out, h, hc⟩

/-! ## C77: the 1D mask -/

/-- **C77**, negation: the mask of the 1D spectrum is not the mask of missing data and edges after
continuum subtraction: sky pixels are masked too, although the 2D mask does not have them.  For
any median function that returns the common value of a constant array. -/
theorem C77_false (median : List (Fl ℝ) → Fl ℝ)
    (hmed : ∀ (l : List (Fl ℝ)) (v : ℝ), l ≠ [] → (∀ x ∈ l, x = .fin v) → median l = .fin v) :
    ∃ (O : ContFit) (s : ContSpec 1 1) (s1 : Cont1D 1) (out : ContOut 1) (mask1 : Fin 1 → Fl ℝ),
      prepMask1D s1 = .ok mask1 ∧ mask1 0 = 1 ∧
      subtractContinuum O median s s1 (some (.fin 3)) (0, 10) (4, 5) (.fin (-99)) = .ok out ∧
      out.mask 0 = [1] ∧ out.mask1D = [0] := by
  have hprep : prepMask1D (⟨fun _ => .fin 1, fun _ => .fin 10, none⟩ : Cont1D 1) = .ok fun _ => 1 := by
    unfold prepMask1D specMaskMissing1D
    simp only [List.ofFn_succ, List.ofFn_zero, npMax, List.foldl_nil, Fl.isFinite, if_true, Except.map]
    refine congrArg Except.ok ?_
    have e0 : Fl.eqB (Fl.fin (10 : ℝ)) 0 = false := by
      show decide ((10 : ℝ) = 0) = false
      exact decide_eq_false (by norm_num)
    simp only [e0, Bool.false_eq_true, if_false, ite_self]
    have hfl : FirstLast (fun _ : Fin 1 => (1 : Fl ℝ)) 0 0 :=
      ⟨rfl, rfl, fun j _ => ⟨Fin.zero_le j, by omega⟩⟩
    rw [maskEdges1D_eq _ _ 0 0 hfl]
    simp
  have hp2 : prepareBadPixels (fun _ _ => .fin 1 : Img 1 1 ℝ) (fun _ _ => .fin 1) (fun _ _ => .fin 1)
      (fun _ _ => 1) (some fun _ => 1) (.fin (-99)) =
      .ok (fun _ _ => 1, fun _ _ => .fin 1, fun _ _ => .fin 1) := by
    have e1 : Fl.eqB (1 : Fl ℝ) 0 = false := by
      show decide ((1 : ℝ) = 0) = false
      exact decide_eq_false one_ne_zero
    have e1' : Fl.eqB (Fl.fin (1 : ℝ)) 0 = false := e1
    simp only [prepareBadPixels, specMaskMissing2D, List.ofFn_succ, List.ofFn_zero, List.flatten_cons,
      List.flatten_nil, List.append_nil, npMax, List.foldl_nil, Bool.not_true, Bool.false_and,
      Bool.false_eq_true, if_false, Fl.isFinite, if_true, maskSpec2DFrom1D, e1, e1', specNanMasking,
      Bool.and_false]
    refine congrArg (fun q => Except.ok (q, _)) ?_
    funext i j
    simp only [maskSpec2DFrom1D, e1, Bool.false_eq_true, if_false]
  have hmm : ∃ mm, specMaskMissing2D (fun _ _ => .fin 1 : Img 1 1 ℝ) (fun _ _ => .fin 1)
      (some fun _ _ => .fin 1) (some fun _ _ => 1) true = .ok mm := by
    clear hmed hprep
    cases h5 : specMaskMissing2D (fun _ _ => .fin 1 : Img 1 1 ℝ) (fun _ _ => .fin 1)
      (some fun _ _ => .fin 1) (some fun _ _ => 1) true with
    | error e => unfold prepareBadPixels at hp2; rw [h5] at hp2; cases hp2
    | ok mm => exact ⟨mm, rfl⟩
  obtain ⟨mm, hmm⟩ := hmm
  have hquad : ∀ j : Fin 1, colQuad (fun _ _ => .fin 1 : Img 1 1 ℝ) (fun _ _ => 1) j = .fin 1 := by
    intro j
    unfold colQuad
    rw [Fin.sum_univ_one]
    show Fl.sqrt (Fl.fin (1 * 1 * (1 * 1))) = _
    norm_num [Fl.sqrt]
  have hm := hmed (List.ofFn fun j : Fin 1 => colQuad (fun _ _ => .fin 1 : Img 1 1 ℝ) (fun _ _ => 1) j) 1
    (by simp) (by
      intro x hx
      rw [List.mem_ofFn] at hx
      obtain ⟨j, rfl⟩ := hx
      exact hquad j)
  have hw : contWindows (fun _ : Fin 1 => (1 : ℝ)) (0, 10) (4, 5) = ([0], [], [0]) := by
    unfold contWindows
    norm_num
    rfl
  have hsky : whSkylines1D (fun j : Fin 1 => Fl.sqrt (Fl.sq ((fun _ => Fl.fin (10 : ℝ)) j * 1)))
      (some (.fin 3)) (some (.fin 1)) = .ok ([], [0]) := by
    have e2 : Fl.sqrt (Fl.sq ((Fl.fin (10 : ℝ)) * 1)) = .fin 10 := by
      show Fl.sqrt (Fl.fin (10 * 1 * (10 * 1))) = _
      have : Real.sqrt (10 * 1 * (10 * 1)) = 10 := by
        rw [mul_one]; exact Real.sqrt_mul_self (by norm_num)
      simp only [Fl.sqrt, this]
      norm_num
    have e3 : Fl.ltB (Fl.fin (10 : ℝ)) (Fl.fin 3 * Fl.fin 1) = false := by
      rw [Fl.fin_mul]
      show decide ((10 : ℝ) < 3 * 1) = false
      exact decide_eq_false (by norm_num)
    have e4 : Fl.leB (Fl.fin 3 * Fl.fin 1) (Fl.fin (10 : ℝ)) = true := by
      rw [Fl.fin_mul]
      show decide ((3 : ℝ) * 1 ≤ 10) = true
      exact decide_eq_true (by norm_num)
    simp only [whSkylines1D, e2, e3, e4]
    rfl
  refine ⟨⟨fun _ => (0, 0), fun _ => 0, fun _ _ _ => 0⟩, ⟨fun _ _ => .fin 1, fun _ _ => .fin 1,
    fun _ _ => .fin 1, fun _ _ => 1, fun _ => 1, fun _ => 1⟩, ⟨fun _ => .fin 1, fun _ => .fin 10, none⟩, ?_,
    fun _ => 1, hprep, rfl, ?_, ?_⟩
  · exact ⟨[1], fun _ => [.fin 1], fun _ => [.fin (0 * 1 + 0)], fun _ => [.fin (1 - (0 * 1 + 0))],
      fun _ => [.fin 1], fun _ => [1], fun _ => [.fin 1], [0]⟩
  · unfold subtractContinuum
    simp only [hmm, hprep, hp2, hm, hw, fitCont1D, hsky, List.isEmpty_cons, Bool.false_and]
    have hv : slopeVaries [0] [] (fun j : Fin 1 => if j ∈ [(0 : Fin 1)] then (0 : Fl ℝ) else 1) = false := by
      simp [slopeVaries]
    simp only [hv, Bool.false_eq_true, if_false]
    have hr : ∀ d : LineData, rowCont ⟨fun _ => (0, 0), fun _ => 0, fun _ _ _ => 0⟩ 0 0 d
        (fun _ : Fin 1 => (1 : ℝ)) = fun _ => .fin (0 * 1 + 0) := fun d => rfl
    simp only [hr]
    have hcf : contFinite (fun _ : Fin 1 => (Fl.fin (0 * 1 + 0) : Fl ℝ)) = true := by
      simp [contFinite, npMax, Fl.isFinite]
    simp only [hcf]
    rw [if_pos (List.all_eq_true.2 fun _ _ => rfl)]
    refine congrArg Except.ok ?_
    simp only [pick, List.map_cons, List.map_nil, ContOut.mk.injEq, true_and]
    refine ⟨rfl, rfl, rfl, rfl, rfl, rfl, ?_⟩
    simp
  · exact ⟨rfl, rfl⟩

/-- **C77** (partial): what is left in the 1D mask: the mask of missing data and edges, with the sky
pixels removed; `base` is the given mask with zeros exactly at missing pixels, errors of zero among them.
Missing: sky pixels should not be masked. -/
theorem C77_exact_partial (O : ContFit) (median : List (Fl ℝ) → Fl ℝ) (s : ContSpec r c) (s1 : Cont1D c)
    (cut : Fl ℝ) (f m : ℝ × ℝ) (v : ℝ) (out : ContOut r)
    (h : subtractContinuum O median s s1 (some cut) f m (.fin v) = .ok out) :
    ∃ base mask1 med, (∀ j, (Missing1D s1.flux s1.err none false j → base j = .fin 0) ∧
        (¬ Missing1D s1.flux s1.err none false j → base j = (s1.mask.getD fun _ => 1) j)) ∧
      mask1 = maskEdges1D base 10 ∧
      out.mask1D = (contWindows s.obswave f m).2.2.map fun j =>
        if Fl.leB (cut * med) (Fl.sqrt (Fl.sq (s1.err j * mask1 j))) then 0 else mask1 j := by
  obtain ⟨mask1, mask, flux, err, tmp, slope, b0, hp1, hp, hfit, hfin, rfl⟩ :=
    subtract_ok _ _ _ _ _ _ _ _ _ h
  obtain ⟨base, hb1, hb2⟩ : ∃ base, (∀ j, (Missing1D s1.flux s1.err none false j → base j = .fin 0) ∧
      (¬ Missing1D s1.flux s1.err none false j → base j = (s1.mask.getD fun _ => 1) j)) ∧ mask1 = maskEdges1D base 10 := by
    have h12 := C12_missing1D s1.flux s1.err none s1.mask false
    unfold prepMask1D at hp1
    rcases Nat.eq_zero_or_pos c with hc | hc
    · rw [h12.2 hc] at hp1
      cases hp1
    · obtain ⟨m, hm, hj⟩ := h12.1 hc
      rw [hm] at hp1
      cases hp1
      exact ⟨m, hj, rfl⟩
  refine ⟨base, mask1, median (List.ofFn fun j => colQuad err mask j), hb1, hb2, ?_⟩
  simp only
  refine List.map_congr_left fun j _ => ?_
  simp only [fitCont1D, whSkylines1D] at hfit
  split at hfit
  · cases hfit
  simp only [Except.ok.injEq, Prod.mk.injEq] at hfit
  rw [← hfit.1]
  simp [List.mem_filter]

/-! ## C53: mock observations -/

/-- **C53**: a mock has at least `nymin` rows, the rows cover the slit length and the last one is
needed for it, and the object centre is the middle of the rows. -/
theorem C53_mock (slit p : ℝ) (nymin : Nat) (hp : 0 < p) (hs : 0 < slit) :
    ∃ L n m0, mockRows slit p nymin = .ok (L, n, m0) ∧ nymin ≤ n ∧ 0 < n ∧ slit ≤ L ∧
      (nymin * p ≤ slit → L = slit) ∧ L ≤ n * p ∧ ((n : ℝ) - 1) * p < L ∧ m0 = ((n : ℝ) - 1) / 2 := by
  unfold mockRows
  simp only [if_neg (ne_of_gt hp)]
  set L := if slit < nymin * p then (nymin : ℝ) * p else slit with hL
  have hsL : slit ≤ L := by rw [hL]; split_ifs with h <;> linarith
  have hnL : (nymin : ℝ) * p ≤ L := by rw [hL]; split_ifs with h <;> linarith
  have hLp : 0 < L / p := div_pos (lt_of_lt_of_le hs hsL) hp
  have hc : 0 < ⌈L / p⌉ := Int.ceil_pos.2 hLp
  have hn : ((⌈L / p⌉.toNat : ℕ) : ℝ) = (⌈L / p⌉ : ℝ) := by
    have : ((⌈L / p⌉.toNat : ℕ) : ℤ) = ⌈L / p⌉ := Int.toNat_of_nonneg hc.le
    exact_mod_cast this
  refine ⟨_, _, _, rfl, ?_, by omega, hsL, ?_, ?_, ?_, ?_⟩
  · have h1 : (nymin : ℝ) ≤ L / p := by rw [le_div_iff₀ hp]; exact hnL
    have h2 : (nymin : ℝ) ≤ (⌈L / p⌉.toNat : ℕ) := by rw [hn]; exact le_trans h1 (Int.le_ceil _)
    exact_mod_cast h2
  · intro h
    rw [hL, if_neg (not_lt.2 h)]
  · rw [hn, ← div_le_iff₀ hp]
    exact Int.le_ceil _
  · rw [hn, ← lt_div_iff₀ hp]
    have := Int.ceil_lt_add_one (L / p)
    linarith
  · rw [hn]; ring

/-- **C53** (grid): the middle of the model grid of a mock without shift is at the object centre:
the grid coordinates in slit direction are symmetric about 0. -/
theorem C53_grid (slit p : ℝ) (nymin : Nat) (hp : 0 < p) (hs : 0 < slit) (S : Nat) (hS : 0 < S)
    (w fwhm pad xc : ℝ) (hw : 0 < w) (hpad : 0 ≤ fwhm * pad) :
    ∃ L n m0 G, mockRows slit p nymin = .ok (L, n, m0) ∧
      setupGrid (⟨n, S, p, w, fwhm, pad, xc, m0⟩ : GridIn ℝ) = .ok G ∧
      ∀ (i j : Nat) (a b : ℝ), 1 < G.nY → i + j + 1 = G.nY → G.yArr[i]? = some a →
        G.yArr[j]? = some b → a + b = 0 := by
  obtain ⟨L, n, m0, h, -, h0, -, -, -, -, hm⟩ := C53_mock slit p nymin hp hs
  obtain ⟨G, hG, -, -, -, -, hsym⟩ := C36_spacing_partial (⟨n, S, p, w, fwhm, pad, xc, m0⟩ : GridIn ℝ)
    ⟨h0, hS, hp, hw, hpad⟩
  refine ⟨L, n, m0, G, h, hG, fun i j a b h2 hij ha hb => ?_⟩
  have := hsym i j a b h2 hij ha hb
  simp only [hm, sub_self, zero_mul] at this
  linarith

example : mockRows 2 0.2 13 = .ok (13 * 0.2, 13, 6) := by
  unfold mockRows
  have h1 : (2 : ℝ) < ((13 : ℕ) : ℝ) * 0.2 := by norm_num
  have h2 : ((13 : ℕ) : ℝ) * 0.2 / 0.2 = ((13 : ℤ) : ℝ) := by norm_num
  simp only [if_pos h1, h2, Int.ceil_intCast]
  norm_num
  rfl

end Misfit
