import Verif.Lemmas.Masks
import Verif.Props.Chisq

/-!
# C08, C12–C18: masking and filling
-/

namespace Misfit
variable {K : Type*} [Field K] [LinearOrder K] {r c n : Nat}

/-! ## C12 -/

/-- Specification of a usable pixel: finite flux and error, non-zero weight. -/
def Usable (flux err weight : Fl K) : Prop :=
  flux.isFinite = true ∧ err.isFinite = true ∧ weight ≠ 0

theorem npMax_isSome {l : List (Fl K)} (h : l ≠ []) : ∃ m, npMax l = some m := by
  cases l with
  | nil => exact absurd rfl h
  | cons a l => exact ⟨_, rfl⟩

theorem flat_ne_nil (g : Fin r → Fin c → Fl K) (hr : 0 < r) (hc : 0 < c) :
    (List.ofFn fun i => List.ofFn fun j => g i j).flatten ≠ [] := by
  intro h
  have hl := congrArg List.length h
  have h2 : (List.ofFn fun _ : Fin r => c).sum = r * c := by
    rw [List.ofFn_const]; simp
  rw [List.length_flatten, List.map_ofFn] at hl
  simp only [Function.comp_def, List.length_ofFn, List.length_nil] at hl
  have : 0 < r * c := Nat.mul_pos hr hc
  omega

/-- C12: exact effect of the missing-data step used for 2D fits (`nonfinite_only`). -/
theorem C12_missing_exact (flux err weight mask : Img r c K) (hr : 0 < r) (hc : 0 < c) :
    ∃ m, specMaskMissing2D flux err (some weight) (some mask) true = .ok m ∧
      ∀ i j, (Usable (flux i j) (err i j) (weight i j) → m i j = mask i j) ∧
        (¬ Usable (flux i j) (err i j) (weight i j) → m i j = 0) := by
  obtain ⟨mx, hmx⟩ := npMax_isSome (flat_ne_nil (fun i j => Fl.abs (err i j)) hr hc)
  refine ⟨_, by simp only [specMaskMissing2D, hmx]; rfl, ?_⟩
  intro i j
  have hw : Fl.eqB (weight i j) 0 = true ↔ weight i j = 0 := Fl.eqB_zero_iff _
  simp only [Usable]
  constructor
  · rintro ⟨h1, h2, h3⟩
    rw [if_neg (fun h => h3 (hw.1 h)), if_pos h2, if_pos h1]
    simp
  · intro h
    by_cases h3 : weight i j = 0
    · rw [if_pos (hw.2 h3)]
    · rw [if_neg (fun h => h3 (hw.1 h))]
      by_cases h2 : (err i j).isFinite = true
      · rw [if_pos h2, if_neg]
        intro h1; exact h ⟨h1, h2, h3⟩
      · rw [if_neg h2]

/-- an image without pixels is rejected -/
theorem C12_missing_empty (flux err weight mask : Img r c K) (h : r = 0 ∨ c = 0) (b : Bool) :
    specMaskMissing2D flux err (some weight) (some mask) b = .error .valueError := by
  rcases h with rfl | rfl
  · rfl
  · have : (List.ofFn fun i : Fin r => List.ofFn fun j : Fin 0 => Fl.abs (err i j)).flatten = [] := by
      simp
    simp [specMaskMissing2D, this, npMax]

/-- C12: no masking step unmasks a pixel (missing data, any options). -/
theorem C12_missing_monotone (flux err : Img r c K) (weight : Option (Img r c K)) (mask m : Img r c K)
    (b : Bool) (h : specMaskMissing2D flux err weight (some mask) b = .ok m) (i : Fin r) (j : Fin c)
    (h0 : mask i j = 0) : m i j = 0 := by
  unfold specMaskMissing2D at h
  split at h
  · simp at h
  · simp only [Except.ok.injEq] at h
    subst h
    have key : ∀ (P : Prop) [Decidable P] (y : Fl K), y = 0 → (if P then y else (0 : Fl K)) = 0 := by
      intro P _ y hy; split <;> simp [hy]
    have key' : ∀ (P : Prop) [Decidable P] (y : Fl K), y = 0 → (if P then (0 : Fl K) else y) = 0 := by
      intro P _ y hy; split <;> simp [hy]
    have base : (if (!b && Fl.ltB 0 (by assumption)) = true then
        fun i j => if ((List.ofFn (err i)).any fun e => e.eqB 0) = true then 0 else mask i j
        else mask) i j = (0 : Fl K) := by
      split
      · exact key' _ _ h0
      · exact h0
    cases weight with
    | none => exact key _ _ (key _ _ base)
    | some w => exact key' _ _ (key _ _ (key _ _ base))

/-- C12: columns from the 1D mask. -/
theorem C12_from1D_exact (mask2D : Img r c K) (mask1D : Fin c → Fl K) (i : Fin r) (j : Fin c) :
    (mask1D j = 0 → maskSpec2DFrom1D mask2D mask1D i j = 0) ∧
    (mask1D j ≠ 0 → maskSpec2DFrom1D mask2D mask1D i j = mask2D i j) := by
  constructor
  · intro h; exact if_pos ((Fl.eqB_zero_iff _).2 h)
  · intro h; exact if_neg fun h' => h ((Fl.eqB_zero_iff _).1 h')

/-- C12: sky columns. -/
theorem C12_sky_monotone (err mask m : Img r c ℝ) (cut md : Option (Fl ℝ)) (u : String)
    (s ns : List (Fin c)) (h : maskSkylines2D err mask cut u md = .ok (m, s, ns)) (i : Fin r)
    (j : Fin c) (h0 : mask i j = 0) : m i j = 0 := by
  unfold maskSkylines2D at h
  split at h
  · simp at h
  · split at h
    · simp at h
    · simp only [Except.ok.injEq, Prod.mk.injEq] at h
      obtain ⟨rfl, _, _⟩ := h
      simp only
      split
      · rfl
      · exact h0

/-- C12: low S/N rows. -/
theorem C12_lowsnr_monotone (snr : Fin r → Fl K) (cut : Fl K) (mask : Img r c K) (i : Fin r)
    (j : Fin c) (h0 : mask i j = 0) : (maskLowSnrRows snr cut mask).1 i j = 0 := by
  simp only [maskLowSnrRows]
  split
  · rfl
  · exact h0

theorem zeroSlice_zero (mask : Fin n → Fl K) (a b : Int) (j : Fin n) (h : mask j = 0) :
    zeroSlice mask a b j = 0 := by
  unfold zeroSlice; split <;> simp [h]

/-- C12: spectrum edges. -/
theorem C12_edges_monotone (mask : Fin n → Fl K) (num : Nat) (j : Fin n) (h0 : mask j = 0) :
    maskEdges1D mask num j = 0 := by
  unfold maskEdges1D
  simp only
  generalize (List.filter (fun j => (mask j).eqB 1) (List.finRange n)).head? = A
  generalize (List.filter (fun j => (mask j).eqB 1) (List.finRange n)).getLast? = B
  rcases A with _ | l <;> rcases B with _ | rr <;> simp only
  · exact h0
  · exact h0
  · exact h0
  · have h1 : (if 0 < l.val then zeroSlice mask l.val (l.val + num) else mask) j = 0 := by
      split
      · exact zeroSlice_zero _ _ _ _ h0
      · exact h0
    split
    · exact zeroSlice_zero _ _ _ _ h1
    · exact h1

example : specMaskMissing2D (K := ℚ) (r := 1) (c := 3) (fun _ j => ![.fin 1, .nan, .fin 1] j)
    (fun _ _ => .fin 1) (some fun _ j => ![.fin 1, .fin 1, .fin 0] j) (some fun _ _ => 1) true
    = .ok (fun _ j => ![1, 0, 0] j) := by
  refine congrArg Except.ok (funext fun i => funext fun j => ?_)
  fin_cases i; fin_cases j <;> decide +kernel

/-! ## C13 -/

/-- C13: unmasked pixels are never altered. -/
theorem C13_unmasked_kept {ι : Type*} (flux mask : ι → Fl K) (fill : Fl K) (z a : Bool) (p : ι)
    (h : mask p ≠ 0) : specNanMasking flux mask fill z a p = flux p := by
  have : Fl.eqB (mask p) 0 = false := by
    cases hb : Fl.eqB (mask p) 0
    · rfl
    · exact absurd ((Fl.eqB_zero_iff _).1 hb) h
  cases z <;> simp only [specNanMasking, this, Bool.and_false, Bool.false_eq_true, if_false, if_true]

/-- C13: a finite pixel is only altered if it is zero, masked and zero filling was asked for
(default mode, not `mask_all_masked`). -/
theorem C13_finite_kept {ι : Type*} (flux mask : ι → Fl K) (fill : Fl K) (z : Bool) (p : ι)
    (h : (flux p).isFinite = true) (hz : z = true → flux p ≠ 0) :
    specNanMasking flux mask fill z false p = flux p := by
  cases z with
  | false => simp [specNanMasking, h]
  | true =>
    have : Fl.eqB (flux p) 0 = false := by
      cases hb : Fl.eqB (flux p) 0
      · rfl
      · exact absurd ((Fl.eqB_zero_iff _).1 hb) (hz rfl)
    simp only [specNanMasking, h, Bool.not_true, Bool.or_self, Bool.false_and, Bool.false_eq_true,
      if_false, this, if_true]

/-- C13: every other pixel gets the fill value. -/
theorem C13_filled {ι : Type*} (flux mask : ι → Fl K) (fill : Fl K) (z : Bool) (p : ι)
    (hm : mask p = 0) (h : (flux p).isFinite = false ∨ (z = true ∧ flux p = 0)) :
    specNanMasking flux mask fill z false p = fill := by
  have hm' : Fl.eqB (mask p) 0 = true := (Fl.eqB_zero_iff _).2 hm
  rcases h with h | ⟨hz, h⟩
  · cases z
    · simp only [specNanMasking, hm', h, Bool.not_false, Bool.or_true, Bool.and_true, if_true,
        Bool.false_eq_true, if_false]
    · simp only [specNanMasking, hm', h, Bool.not_false, Bool.or_true, Bool.and_true, if_true]
      split <;> rfl
  · subst hz
    have h0 : Fl.eqB (0 : Fl K) 0 = true := (Fl.eqB_zero_iff _).2 rfl
    have hf : (0 : Fl K).isFinite = true := rfl
    simp only [specNanMasking, hm', h, h0, hf, Bool.not_true, Bool.or_self, Bool.false_and,
      Bool.false_eq_true, if_false, if_true, Bool.and_self]

/-- C13: after masking missing data and filling no non-finite value is left, in flux or
error, and no masked error is zero (for a finite non-zero fill value). -/
theorem C13_all_finite (flux err weight mask : Img r c K) (m1 : Option (Fin c → Fl K)) (v : K)
    (hv : v ≠ 0) (m flux' err' : Img r c K)
    (h : prepareBadPixels flux err weight mask m1 (.fin v) = .ok (m, flux', err')) (i : Fin r)
    (j : Fin c) :
    (flux' i j).isFinite = true ∧ (err' i j).isFinite = true ∧ (m i j = 0 → err' i j ≠ 0) ∧
    (m i j ≠ 0 → flux' i j = flux i j ∧ err' i j = err i j ∧ m i j = mask i j ∧
      Usable (flux i j) (err i j) (weight i j)) := by
  have hr : 0 < r := i.pos
  have hc : 0 < c := j.pos
  obtain ⟨m0, hm0, hsp⟩ := C12_missing_exact flux err weight mask hr hc
  simp only [prepareBadPixels, hm0, Except.ok.injEq, Prod.mk.injEq] at h
  obtain ⟨hm, hf, he⟩ := h
  -- the mask is 0 on unusable pixels
  have hmask : ¬ Usable (flux i j) (err i j) (weight i j) → m i j = 0 := by
    intro hu
    rw [← hm]
    cases m1 with
    | none => exact (hsp i j).2 hu
    | some m1 =>
      by_cases h1 : m1 j = 0
      · exact (C12_from1D_exact m0 m1 i j).1 h1
      · simp only
        rw [(C12_from1D_exact m0 m1 i j).2 h1]
        exact (hsp i j).2 hu
  have hmask2 : m i j ≠ 0 → m i j = mask i j := by
    intro hne
    have hu : Usable (flux i j) (err i j) (weight i j) := by
      by_contra hu; exact hne (hmask hu)
    rw [← hm] at hne ⊢
    cases m1 with
    | none => exact (hsp i j).1 hu
    | some m1 =>
      by_cases h1 : m1 j = 0
      · exact absurd ((C12_from1D_exact m0 m1 i j).1 h1) hne
      · simp only
        rw [(C12_from1D_exact m0 m1 i j).2 h1]
        exact (hsp i j).1 hu
  subst hf he
  rw [hm]
  have hfillne : (Fl.fin v : Fl K) ≠ 0 := by simpa using hv
  simp only
  refine ⟨?_, ?_, ?_, ?_⟩
  · by_cases hfin : (flux i j).isFinite = true
    · rw [C13_finite_kept (flux i) (m i) (.fin v) false j hfin (by simp)]; exact hfin
    · rw [C13_filled (flux i) (m i) (.fin v) false j (hmask fun hu => hfin hu.1)
        (Or.inl (by simpa using hfin))]; rfl
  · by_cases hfin : (err i j).isFinite = true
    · by_cases hz : err i j = 0
      · by_cases hm0' : m i j = 0
        · rw [C13_filled (err i) (m i) (.fin v) true j hm0' (Or.inr ⟨rfl, hz⟩)]; rfl
        · rw [C13_unmasked_kept _ _ _ _ _ _ hm0']; exact hfin
      · rw [C13_finite_kept (err i) (m i) (.fin v) true j hfin (fun _ => hz)]; exact hfin
    · rw [C13_filled (err i) (m i) (.fin v) true j (hmask fun hu => hfin hu.2.1)
        (Or.inl (by simpa using hfin))]; rfl
  · intro h0
    by_cases hfin : (err i j).isFinite = true
    · by_cases hz : err i j = 0
      · rw [C13_filled (err i) (m i) (.fin v) true j h0 (Or.inr ⟨rfl, hz⟩)]; exact hfillne
      · rw [C13_finite_kept (err i) (m i) (.fin v) true j hfin (fun _ => hz)]; exact hz
    · rw [C13_filled (err i) (m i) (.fin v) true j h0 (Or.inl (by simpa using hfin))]
      exact hfillne
  · intro hne
    refine ⟨C13_unmasked_kept _ _ _ _ _ _ hne, C13_unmasked_kept _ _ _ _ _ _ hne, hmask2 hne, ?_⟩
    by_contra hu; exact hne (hmask hu)

example : specNanMasking (K := ℚ) (ι := Fin 4) ![.nan, .pinf, .fin 0, .fin 0] ![0, 1, 0, 1]
    (.fin (-99)) true false = ![.fin (-99), .pinf, .fin (-99), .fin 0] := by
  funext j; fin_cases j <;> decide +kernel

/-! ## C08 -/

section C08
variable [IsStrictOrderedRing K]

/-- C08 is false: an unmasked pixel with error 0 (finite flux, non-zero weight) survives the
preparation and makes the chi-square of a finite model infinite. -/
theorem C08_false :
    ∃ flux err weight mask : Img 1 1 ℚ, ∃ m flux' err' : Img 1 1 ℚ,
      prepareBadPixels flux err weight mask none (.fin (-99)) = .ok (m, flux', err') ∧
      modelChisq ⟨flux', err', m, fun _ _ => 1⟩ (fun _ _ => .fin 0) = .pinf :=
  ⟨fun _ _ => .fin 1, fun _ _ => .fin 0, fun _ _ => .fin 1, fun _ _ => .fin 1, _, _, _, rfl,
    by decide +kernel⟩

/-- A sum is only finite if every term is. -/
theorem fl_sum_finite {ι : Type*} (s : Finset ι) (f : ι → Fl K) (h : (∑ i ∈ s, f i).isFinite = true) :
    ∀ i ∈ s, (f i).isFinite = true := by
  classical
  induction s using Finset.induction_on with
  | empty => exact fun i hi => absurd hi (Finset.notMem_empty i)
  | insert a s ha ih =>
    rw [Finset.sum_insert ha] at h
    have key : ∀ x y : Fl K, (x + y).isFinite = true → x.isFinite = true ∧ y.isFinite = true := by
      intro x y hxy
      cases x <;> cases y <;> first | exact ⟨rfl, rfl⟩ | exact absurd (show false = true from hxy) Bool.false_ne_true
    obtain ⟨h1, h2⟩ := key _ _ h
    intro i hi
    rcases Finset.mem_insert.1 hi with rfl | hi
    · exact h1
    · exact ih h2 i hi

/-- A pixel with error 0 has no finite contribution. -/
theorem chisqPixel_zero_err (f m w x : K) (hw : w ≠ 0) :
    (chisqPixel (.fin f) (.fin 0) (.fin m) (.fin w) (.fin x)).isFinite = false := by
  unfold chisqPixel
  rw [Fl.fin_sub, Fl.fin_mul, Fl.fin_div, if_pos rfl]
  generalize (f - x) * m = a
  have h1 : Fl.infTimes a = .nan ∨ Fl.infTimes a = .pinf ∨ Fl.infTimes a = .ninf := by
    unfold Fl.infTimes
    split
    · exact Or.inl rfl
    · split
      · exact Or.inr (Or.inl rfl)
      · exact Or.inr (Or.inr rfl)
  have h2 : ∀ y : Fl K, (y = .nan ∨ y = .pinf) → (y * .fin w).isFinite = false := by
    rintro y (rfl | rfl)
    · rfl
    · show (Fl.infTimes w).isFinite = false
      unfold Fl.infTimes
      rw [if_neg hw]
      split <;> rfl
  apply h2
  rcases h1 with h | h | h <;> rw [h]
  · exact Or.inl rfl
  · exact Or.inr rfl
  · exact Or.inr rfl

/-- **C08**, exact: after the preparation the chi-square is finite for every finite model and weight exactly if no usable pixel has
error 0; otherwise it is infinite or NaN for every finite model, whatever the (non-zero) weights. -/
theorem C08_exact (flux err weight mask : Img r c K) (m1 : Option (Fin c → Fl K))
    (v : K) (hv : v ≠ 0) (m flux' err' : Img r c K)
    (h : prepareBadPixels flux err weight mask m1 (.fin v) = .ok (m, flux', err'))
    (hmask : ∀ i j, (mask i j).isFinite = true) :
    ((∀ i j, m i j ≠ 0 → err i j ≠ 0) → ∀ w x : Fin r → Fin c → K,
      ∃ q : K, modelChisq ⟨flux', err', m, finImg w⟩ (finImg x) = .fin q) ∧
    ((∃ i j, m i j ≠ 0 ∧ err i j = 0) → ∀ w x : Fin r → Fin c → K, (∀ i j, w i j ≠ 0) →
      (modelChisq ⟨flux', err', m, finImg w⟩ (finImg x)).isFinite = false) := by
  have hall := fun i j => C13_all_finite flux err weight mask m1 v hv m flux' err' h i j
  have hf : ∃ f : Fin r → Fin c → K, flux' = finImg f := by
    choose f hf using fun i j => Fl.exists_of_isFinite (hall i j).1
    exact ⟨f, funext fun i => funext fun j => hf i j⟩
  have hm : ∃ mm : Fin r → Fin c → K, m = finImg mm := by
    have : ∀ i j, (m i j).isFinite = true := by
      intro i j
      by_cases h0 : m i j = 0
      · rw [h0]; rfl
      · rw [((hall i j).2.2.2 h0).2.2.1]; exact hmask i j
    choose mm hmm using fun i j => Fl.exists_of_isFinite (this i j)
    exact ⟨mm, funext fun i => funext fun j => hmm i j⟩
  refine ⟨fun hzero w x => ?_, fun ⟨i, j, hmij, hz⟩ w x hw => ?_⟩
  · have he : ∃ e : Fin r → Fin c → K, err' = finImg e ∧ ∀ i j, e i j ≠ 0 := by
      choose e he using fun i j => Fl.exists_of_isFinite (hall i j).2.1
      refine ⟨e, funext fun i => funext fun j => he i j, fun i j h0 => ?_⟩
      have hz : err' i j = 0 := by rw [he i j, h0]; rfl
      by_cases hm : m i j = 0
      · exact (hall i j).2.2.1 hm hz
      · obtain ⟨_, h2, h3, _⟩ := (hall i j).2.2.2 hm
        rw [h2] at hz
        exact hzero i j hm hz
    obtain ⟨f, rfl⟩ := hf
    obtain ⟨e, rfl, hne⟩ := he
    obtain ⟨mm, rfl⟩ := hm
    exact ⟨_, modelChisq_fin f e mm w x hne⟩
  · have hz' : err' i j = .fin 0 := by
      rw [((hall i j).2.2.2 hmij).2.1, hz]
      rfl
    obtain ⟨f, rfl⟩ := hf
    obtain ⟨mm, rfl⟩ := hm
    by_contra hfin
    have hfin : (modelChisq ⟨finImg f, err', finImg mm, finImg w⟩ (finImg x)).isFinite = true := by simpa using hfin
    have h1 := fl_sum_finite _ _ (fl_sum_finite _ _ hfin i (Finset.mem_univ _)) j (Finset.mem_univ _)
    simp only [hz'] at h1
    have := chisqPixel_zero_err (f i j) (mm i j) (w i j) (x i j) (hw i j)
    exact Bool.false_ne_true (this.symm.trans h1)

/-- C08, the part that holds.  Missing: pixels that are unmasked and usable but have error 0
must be excluded. -/
theorem C08_finite_chisq_partial (flux err weight mask : Img r c K) (m1 : Option (Fin c → Fl K))
    (v : K) (hv : v ≠ 0) (m flux' err' : Img r c K)
    (h : prepareBadPixels flux err weight mask m1 (.fin v) = .ok (m, flux', err'))
    (hmask : ∀ i j, (mask i j).isFinite = true)
    (hzero : ∀ i j, mask i j ≠ 0 → err i j ≠ 0)
    (w x : Fin r → Fin c → K) :
    ∃ q : K, modelChisq ⟨flux', err', m, finImg w⟩ (finImg x) = .fin q := by
  refine (C08_exact flux err weight mask m1 v hv m flux' err' h hmask).1 (fun i j hm => ?_) w x
  obtain ⟨_, _, h3, _⟩ := (C13_all_finite flux err weight mask m1 v hv m flux' err' h i j).2.2.2 hm
  exact hzero i j (h3 ▸ hm)

example : ∃ m flux' err' : Img 1 2 ℚ, prepareBadPixels (K := ℚ) (r := 1) (c := 2)
    (fun _ j => ![.nan, .fin 2] j) (fun _ j => ![.fin 0, .fin 1] j) (fun _ _ => 1) (fun _ _ => 1)
    none (.fin (-99)) = .ok (m, flux', err') ∧ m 0 0 = 0 ∧ flux' 0 0 = .fin (-99) ∧
    err' 0 0 = .fin (-99) ∧ m 0 1 = 1 :=
  ⟨_, _, _, rfl, by decide +kernel, by decide +kernel, by decide +kernel, by decide +kernel⟩

end C08

/-! ## C14 -/

/-- C14: the sky columns are exactly those whose quadrature sum reaches the cut, the sky-free
list is exactly the rest (so NaN columns count as sky-free), and exactly the sky columns are
masked. -/
theorem C14_partition (err mask : Img r c ℝ) (cut md : Fl ℝ) :
    ∃ m sky nosky, maskSkylines2D err mask (some cut) "timesMedianErr" (some md) =
        .ok (m, sky, nosky) ∧
      (∀ j, j ∈ sky ↔ Fl.leB (cut * md) (colQuad err mask j) = true) ∧
      (∀ j, j ∈ nosky ↔ j ∉ sky) ∧
      (∀ i j, m i j = if j ∈ sky then 0 else mask i j) := by
  refine ⟨_, _, _, by
    simp only [maskSkylines2D, whSkylines1D, ne_eq, not_true_eq_false, if_false]; rfl,
    ?_, ?_, ?_⟩
  · intro j; simp
  · intro j; simp
  · intro i j; rfl

/-- C14: for finite errors and a 0/1 mask the quantity compared with the cut is the root of the sum of the
squared errors of the unmasked pixels of the column. -/
theorem C14_quadrature (e : Fin r → Fin c → ℝ) (keep : Fin r → Fin c → Bool) (j : Fin c) :
    colQuad (fun i j => .fin (e i j)) (fun i j => if keep i j then 1 else 0) j =
      .fin (√(∑ i with keep i j = true, e i j ^ 2)) := by
  have h : ∀ i, Fl.sq (Fl.fin (e i j) * (if keep i j then 1 else 0 : Fl ℝ)) =
      Fl.fin (if keep i j = true then e i j ^ 2 else 0) := by
    intro i
    cases keep i j
    · simp only [Bool.false_eq_true, if_false]
      change Fl.sq (Fl.fin _ * Fl.fin 0) = _
      simp only [Fl.fin_mul, Fl.sq_fin]; congr 1; ring
    · simp only [if_true]
      change Fl.sq (Fl.fin _ * Fl.fin 1) = _
      simp only [Fl.fin_mul, Fl.sq_fin]; congr 1; ring
  simp only [colQuad]
  rw [Finset.sum_congr rfl fun i _ => h i, Fl.fin_sum, Fl.sqrt,
    if_neg (not_lt.mpr (Finset.sum_nonneg fun i _ => by split <;> positivity)), Finset.sum_filter]

/-- C14: error branches. -/
theorem C14_errors (err mask : Img r c ℝ) (cut md : Option (Fl ℝ)) (u : String) :
    (u ≠ "timesMedianErr" → maskSkylines2D err mask cut u md = .error .valueError) ∧
    (maskSkylines2D err mask cut "timesMedianErr" none = .error .valueError) := by
  constructor
  · intro h; simp [maskSkylines2D, h]
  · simp [maskSkylines2D, whSkylines1D]

/-- The 1D helper itself loses NaN columns: they are in neither list. -/
theorem C14_helper_drops_nan (errSpec : Fin c → Fl K) (cut md : Fl K) (j : Fin c)
    (h : errSpec j = .nan) (a b : List (Fin c))
    (hab : whSkylines1D errSpec (some cut) (some md) = .ok (a, b)) : j ∉ a ∧ j ∉ b := by
  simp only [whSkylines1D, Except.ok.injEq, Prod.mk.injEq] at hab
  obtain ⟨rfl, rfl⟩ := hab
  rw [List.mem_filter, List.mem_filter, h]
  cases hq : cut * md <;> simp [Fl.ltB, Fl.leB]

/-- Without NaN the helper's two lists partition the columns. -/
theorem C14_helper_partition (errSpec : Fin c → Fl K) (cut md : Fl K) (a b : List (Fin c))
    (hab : whSkylines1D errSpec (some cut) (some md) = .ok (a, b)) (j : Fin c)
    (h : errSpec j ≠ .nan) (hq : cut * md ≠ .nan) : (j ∈ a ∧ j ∉ b) ∨ (j ∉ a ∧ j ∈ b) := by
  simp only [whSkylines1D, Except.ok.injEq, Prod.mk.injEq] at hab
  obtain ⟨rfl, rfl⟩ := hab
  simp only [List.mem_filter, List.mem_finRange, true_and]
  revert h hq
  generalize cut * md = q
  generalize errSpec j = e
  intro h hq
  cases e <;> cases q <;> simp_all [Fl.ltB, Fl.leB]
  exact lt_or_ge _ _

example : colQuad (r := 1) (c := 1) (fun _ _ => .fin 3) (fun _ _ => .fin 1) 0 = .fin 3 := by
  simp only [colQuad, Finset.univ_unique, Finset.sum_singleton, Fl.fin_mul, Fl.sq_fin, Fl.sqrt]
  rw [if_neg (by norm_num)]
  congr 1
  rw [mul_one, Real.sqrt_mul_self (by norm_num)]

/-! ## C15 -/

/-- Specification: `w` is a run of consecutive integers. -/
def IsRun (w : List ℤ) : Prop := w ≠ [] ∧ w.IsChain (fun x y => y = x + 1)

/-- C15: `wh_continuous` cuts the list into maximal runs. -/
theorem C15_runs (l : List ℤ) :
    (whContinuous l).flatten = l ∧
    (∀ w ∈ whContinuous l, IsRun w) ∧
    (whContinuous l).IsChain (fun u v => ∀ a ∈ u.getLast?, ∀ b ∈ v.head?, b ≠ a + 1) := by
  have hsub : ∀ x y : ℤ, y - x = 1 ↔ y = x + 1 := fun x y => by omega
  refine ⟨whContinuousLoop_flatten l [] (by simp), fun w hw =>
    ⟨whContinuousLoop_nonempty l [] w hw, whContinuousLoop_chain hsub l [] (by
      cases l <;> simp) w hw⟩, whContinuousLoop_maximal hsub l []⟩

example : whContinuous ([3, 4, 5, 9, 11, 12] : List ℤ) = [[3, 4, 5], [9], [11, 12]] := by
  decide

/-! ## C16, C17 -/

section lowsnr

/-- The high S/N rows as the code collects them. -/
def highRows (snr : Fin r → Fl K) (cut : Fl K) : List Nat :=
  ((List.finRange r).filter fun i => Fl.leB cut (snr i)).map Fin.val

theorem mem_highRows (snr : Fin r → Fl K) (cut : Fl K) (i : Nat) :
    i ∈ highRows snr cut ↔ ∃ h : i < r, Fl.leB cut (snr ⟨i, h⟩) = true := by
  simp only [highRows, List.mem_map, List.mem_filter, List.mem_finRange, true_and]
  constructor
  · rintro ⟨k, hk, rfl⟩; exact ⟨k.2, hk⟩
  · rintro ⟨h, hk⟩; exact ⟨⟨i, h⟩, hk, rfl⟩

theorem highRows_sorted (snr : Fin r → Fl K) (cut : Fl K) :
    (highRows snr cut).Pairwise (· < ·) := by
  unfold highRows
  rw [List.pairwise_map]
  exact ((List.pairwise_lt_finRange r).filter _).imp (fun h => h)

/-- Specification: row `i` reaches the S/N cut (NaN does not). -/
def HighRow (snr : Fin r → Fl K) (cut : Fl K) (i : Nat) : Prop :=
  ∃ h : i < r, Fl.leB cut (snr ⟨i, h⟩) = true

/-- Specification: there is a gap between high S/N rows. -/
def SeveralRuns (snr : Fin r → Fl K) (cut : Fl K) : Prop :=
  ∃ a l b, a < l ∧ l < b ∧ HighRow snr cut a ∧ ¬ HighRow snr cut l ∧ HighRow snr cut b

/-- C16: rows not listed reach the S/N cut, and if there are several runs they belong to a
run of at least three; listed rows are fully masked, everything else keeps its mask. -/
theorem C16_kept_rows (snr : Fin r → Fl K) (cut : Fl K) (mask : Img r c K) :
    (∀ i : Fin r, i.val ∉ (maskLowSnrRows snr cut mask).2 → HighRow snr cut i ∧
      (SeveralRuns snr cut → ∃ a b, a ≤ i.val ∧ i.val ≤ b ∧ a + 2 ≤ b ∧
        ∀ k, a ≤ k → k ≤ b → HighRow snr cut k)) ∧
    (∀ i ∈ (maskLowSnrRows snr cut mask).2, i < r) ∧
    (∀ (i : Fin r) (j : Fin c), (maskLowSnrRows snr cut mask).1 i j =
      if i.val ∈ (maskLowSnrRows snr cut mask).2 then 0 else mask i j) := by
  refine ⟨?_, ?_, fun _ _ => rfl⟩
  · intro i hi
    have hlow : (maskLowSnrRows snr cut mask).2 = lowRows r (keepRuns (highRows snr cut)) := rfl
    rw [hlow] at hi
    have hkeep : i.val ∈ keepRuns (highRows snr cut) := by
      by_contra hne
      exact hi (mem_lowRows_of_not_high r _ i.val i.2 hne)
    have hhigh := keepRuns_subset _ _ hkeep
    refine ⟨(mem_highRows _ _ _).1 hhigh, ?_⟩
    rintro ⟨a, l, b, hal, hlb, ha, hl, hb⟩
    unfold keepRuns at hkeep
    simp only at hkeep
    split at hkeep
    · obtain ⟨w, hw, hiw⟩ := List.mem_flatten.1 hkeep
      rw [List.mem_filter] at hw
      obtain ⟨s, hs, hch, hsub⟩ := runs_mem _ w hw.1
      have hlen : 2 < w.length := by simpa using hw.2
      have hmem := chain_mem_iff w hch s hs
      refine ⟨s, s + w.length - 1, ((hmem i).1 hiw).1, ?_, by omega, ?_⟩
      · have := ((hmem i).1 hiw).2; omega
      · intro k h1 h2
        exact (mem_highRows _ _ _).1 (hsub k ((hmem k).2 ⟨h1, by omega⟩))
    · rename_i hlen
      exfalso
      -- a single run would contain the gap
      have hfl : (whContinuous (highRows snr cut)).flatten = highRows snr cut := by
        unfold whContinuous
        rw [whContinuousLoop_flatten _ [] (by simp)]; simp
      have ha' := (mem_highRows _ _ _).2 ha
      have hb' := (mem_highRows _ _ _).2 hb
      rw [← hfl] at ha' hb'
      obtain ⟨w, hw, haw⟩ := List.mem_flatten.1 ha'
      obtain ⟨w', hw', hbw⟩ := List.mem_flatten.1 hb'
      have hww : w = w' := by
        have : ∀ (L : List (List Nat)), ¬ L.length > 1 → w ∈ L → w' ∈ L → w = w' := by
          intro L h1 h2 h3
          match L, h1, h2, h3 with
          | [], _, h2, _ => simp at h2
          | [x], _, h2, h3 => simp at h2 h3; rw [h2, h3]
          | _ :: _ :: _, h1, _, _ => simp at h1
        exact this _ hlen hw hw'
      subst hww
      obtain ⟨s, hs, hch, hsub⟩ := runs_mem _ w hw
      have hmem := chain_mem_iff w hch s hs
      have := (hmem l).2 ⟨by have := (hmem a).1 haw; omega, by have := (hmem b).1 hbw; omega⟩
      exact hl ((mem_highRows _ _ _).1 (hsub l this))
  · intro i hi
    exact lowRows_lt r _ i hi

example : (maskLowSnrRows (K := ℚ) (r := 7) (c := 1)
    (fun i => ![.fin 5, .fin 0, .fin 5, .fin 5, .fin 5, .nan, .fin 5] i) (.fin 2)
    (fun _ _ => 1)).2 = [0, 1, 5, 6] := by decide +kernel

/-- C17 is false: rows 1–3 have high S/N, row 4 (below the middle of 12 rows) has low S/N and
yet rows 1–3 stay unmasked, because row 0 already is a low S/N row. -/
theorem C17_false :
    ∃ snr : Fin 12 → Fl ℚ, ∃ mask : Img 12 1 ℚ,
      ¬ HighRow snr (.fin 2) 4 ∧ 2 * 4 < 12 ∧
      2 ∉ (maskLowSnrRows snr (.fin 2) mask).2 ∧
      (maskLowSnrRows snr (.fin 2) mask).1 2 0 = 1 := by
  refine ⟨fun i => if i.val = 0 ∨ i.val = 4 then .fin 0 else .fin 5, fun _ _ => 1, ?_, by norm_num,
    by decide +kernel, by decide +kernel⟩
  rintro ⟨_, h⟩
  exact absurd h (by simp)

/-- C17, the part that holds: masking outwards happens from the outermost low row of each half.
If row `l` below (above) the middle is low S/N and all rows below (above) it reach the cut then
`l` and all rows below (above) it are masked.  Missing: low rows further inside. -/
theorem C17_outward_partial (snr : Fin r → Fl K) (cut : Fl K) (mask : Img r c K) (l : Nat)
    (hl : l < r) (hlow : ¬ HighRow snr cut l) :
    (2 * l < r → (∀ i, i < l → HighRow snr cut i) →
      ∀ (k : Fin r) (j : Fin c), k.val ≤ l → (maskLowSnrRows snr cut mask).1 k j = 0) ∧
    (2 * l > r → (∀ i, l < i → i < r → HighRow snr cut i) →
      ∀ (k : Fin r) (j : Fin c), l ≤ k.val → (maskLowSnrRows snr cut mask).1 k j = 0) := by
  have hlh : l ∉ keepRuns (highRows snr cut) := fun h =>
    hlow ((mem_highRows _ _ _).1 (keepRuns_subset _ _ h))
  have hmem : ∀ (k : Fin r) (j : Fin c), k.val ∈ lowRows r (keepRuns (highRows snr cut)) →
      (maskLowSnrRows snr cut mask).1 k j = 0 := by
    intro k j h
    have : (maskLowSnrRows snr cut mask).1 k j =
      if k.val ∈ lowRows r (keepRuns (highRows snr cut)) then 0 else mask k j := rfl
    rw [this, if_pos h]
  constructor
  · intro h2 hall k j hk
    apply hmem
    rcases Nat.lt_or_ge k.val l with hkl | hkl
    · by_cases hkeep : k.val ∈ keepRuns (highRows snr cut)
      · refine lowRows_down r _ l h2 hlh (fun i hi => ?_) k hkl
        exact keepRuns_stretch _ (highRows_sorted snr cut) 0 (l - 1) k.val
          (fun i _ h => (mem_highRows _ _ _).2 (hall i (by omega))) hkeep (by omega) (by omega) i
          (by omega) (by omega)
      · exact mem_lowRows_of_not_high r _ _ k.2 hkeep
    · have : k.val = l := by omega
      rw [this]; exact mem_lowRows_of_not_high r _ _ hl hlh
  · intro h2 hall k j hk
    apply hmem
    rcases Nat.lt_or_ge l k.val with hkl | hkl
    · by_cases hkeep : k.val ∈ keepRuns (highRows snr cut)
      · refine lowRows_up r _ l h2 hl hlh (fun i hi hir => ?_) k hkl k.2
        exact keepRuns_stretch _ (highRows_sorted snr cut) (l + 1) (r - 1) k.val
          (fun i _ h => (mem_highRows _ _ _).2 (hall i (by omega) (by omega))) hkeep (by omega)
          (by have := k.2; omega) i (by omega) (by omega)
      · exact mem_lowRows_of_not_high r _ _ k.2 hkeep
    · have : k.val = l := by omega
      rw [this]; exact mem_lowRows_of_not_high r _ _ hl hlh

example : (maskLowSnrRows (K := ℚ) (r := 12) (c := 1)
    (fun i => if i.val = 3 then .fin 0 else .fin 5) (.fin 2) (fun _ _ => 1)).2 = [0, 1, 2, 3] := by
  decide +kernel

/-- The rows listed by the code, by membership. -/
theorem mem_lowRows (n : Nat) (high : List Nat) (k : Nat) :
    k ∈ lowRows n high ↔ k < n ∧ (k ∉ high ∨ (∃ l, k < l ∧ 2 * l < n ∧ l ∉ high ∧ ∀ i, i < l → i ∈ high) ∨
      ∃ l, l < k ∧ n < 2 * l ∧ l ∉ high ∧ ∀ i, l < i → i < n → i ∈ high) := by
  have hb : ∀ i, i ∈ (List.range n).filter (fun i => i ∉ high) ↔ i < n ∧ i ∉ high := by
    intro i
    rw [List.mem_filter, List.mem_range, decide_eq_true_eq]
  constructor
  · intro h
    refine ⟨lowRows_lt n high k h, ?_⟩
    by_cases hk : k ∈ high
    · right
      unfold lowRows at h
      simp only at h
      split at h
      · rename_i hne
        have hmin := (hb _).1 (minRow_mem _ hne.1)
        have hfirst : ∀ i, i < minRow ((List.range n).filter fun i => i ∉ high) → i ∈ high := by
          intro i hi
          by_contra hno
          have := minRow_le _ _ ((hb i).2 ⟨by omega, hno⟩)
          omega
        rw [mem_extendUp, mem_extendDown] at h
        rcases h with (h | h) | h
        · exact absurd hk ((hb k).1 h).2
        · exact Or.inl ⟨_, h.2.2, h.1, hmin.2, hfirst⟩
        · right
          obtain ⟨h1, -, h3, h4⟩ := h
          generalize hE : extendDown n high ((List.range n).filter fun i => i ∉ high) = E at h1 h3
          have hEne : E ≠ [] := by
            rw [← hE]
            exact List.ne_nil_of_mem ((mem_extendDown _ _ _ _).2 (Or.inl (minRow_mem _ hne.1)))
          have hmem := maxRow_mem _ hEne
          have hmax : ∀ i, i ∈ (List.range n).filter (fun i => i ∉ high) → i ≤ maxRow E := by
            intro i hi
            apply le_maxRow
            rw [← hE]
            exact (mem_extendDown _ _ _ _).2 (Or.inl hi)
          refine ⟨maxRow E, h3, h1, ?_, fun i hi hin => ?_⟩
          · rw [← hE] at hmem
            rw [mem_extendDown] at hmem
            rw [hE] at hmem
            rcases hmem with hmem | ⟨-, -, hlt⟩
            · exact ((hb _).1 hmem).2
            · have := hmax _ (minRow_mem _ hne.1)
              omega
          · by_contra hno
            have := hmax i ((hb i).2 ⟨hin, hno⟩)
            omega
      · exact absurd hk ((hb k).1 h).2
    · exact Or.inl hk
  · rintro ⟨hkn, h | ⟨l, h1, h2, h3, h4⟩ | ⟨l, h1, h2, h3, h4⟩⟩
    · exact mem_lowRows_of_not_high n high k hkn h
    · exact lowRows_down n high l h2 h3 h4 k h1
    · exact lowRows_up n high l h2 (by omega) h3 h4 k h1 hkn

/-- Specification: a row that reaches the cut and, if there are gaps between such rows, has at least two neighbours that do. -/
def SteadyRow (snr : Fin r → Fl K) (cut : Fl K) (i : Nat) : Prop :=
  HighRow snr cut i ∧ (SeveralRuns snr cut → ∃ a, a ≤ i ∧ i ≤ a + 2 ∧ ∀ k, a ≤ k → k ≤ a + 2 → HighRow snr cut k)

theorem mem_keepRuns (snr : Fin r → Fl K) (cut : Fl K) (i : Nat) :
    i ∈ keepRuns (highRows snr cut) ↔ SteadyRow snr cut i := by
  have hs := highRows_sorted snr cut
  have hfl : (whContinuous (highRows snr cut)).flatten = highRows snr cut := by
    unfold whContinuous
    rw [whContinuousLoop_flatten _ [] (by simp)]; simp
  constructor
  · intro hkeep
    refine ⟨(mem_highRows _ _ _).1 (keepRuns_subset _ _ hkeep), fun hsev => ?_⟩
    unfold keepRuns at hkeep
    simp only at hkeep
    split at hkeep
    · obtain ⟨w, hw, hiw⟩ := List.mem_flatten.1 hkeep
      rw [List.mem_filter] at hw
      obtain ⟨s, hs, hch, hsub⟩ := runs_mem _ w hw.1
      have hlen : 2 < w.length := by simpa using hw.2
      have hmem := chain_mem_iff w hch s hs
      have hi := (hmem i).1 hiw
      refine ⟨if i + 2 < s + w.length then i else s + w.length - 3, ?_, ?_, fun k h1 h2 => ?_⟩
      · split <;> omega
      · split <;> omega
      · refine (mem_highRows _ _ _).1 (hsub k ((hmem k).2 ?_))
        split at h1 <;> split at h2 <;> omega
    · rename_i hlen
      obtain ⟨a, l, b, hal, hlb, ha, hl, hb⟩ := hsev
      exfalso
      have ha' := (mem_highRows _ _ _).2 ha
      have hb' := (mem_highRows _ _ _).2 hb
      rw [← hfl] at ha' hb'
      obtain ⟨w, hw, haw⟩ := List.mem_flatten.1 ha'
      obtain ⟨w', hw', hbw⟩ := List.mem_flatten.1 hb'
      have hww : w = w' := by
        have : ∀ (L : List (List Nat)), ¬ L.length > 1 → w ∈ L → w' ∈ L → w = w' := by
          intro L h1 h2 h3
          match L, h1, h2, h3 with
          | [], _, h2, _ => simp at h2
          | [x], _, h2, h3 => simp at h2 h3; rw [h2, h3]
          | _ :: _ :: _, h1, _, _ => simp at h1
        exact this _ hlen hw hw'
      subst hww
      obtain ⟨s, hs, hch, hsub⟩ := runs_mem _ w hw
      have hmem := chain_mem_iff w hch s hs
      have := (hmem l).2 ⟨by have := (hmem a).1 haw; omega, by have := (hmem b).1 hbw; omega⟩
      exact hl ((mem_highRows _ _ _).1 (hsub l this))
  · rintro ⟨hi, hrun⟩
    have hi' := (mem_highRows _ _ _).2 hi
    unfold keepRuns
    simp only
    split
    · rename_i hlen
      -- two runs leave a gap
      have hsev : SeveralRuns snr cut := by
        have hmax := whContinuousLoop_maximal natSub (highRows snr cut) []
        have hne := whContinuousLoop_nonempty (highRows snr cut) []
        have hrm := runs_mem (highRows snr cut)
        have hun := runs_unique _ hs
        have hsort := hs
        rw [← hfl] at hsort
        change (whContinuous (highRows snr cut)).IsChain _ at hmax
        change ∀ w ∈ whContinuous (highRows snr cut), w ≠ [] at hne
        generalize hW : whContinuous (highRows snr cut) = W at hlen hmax hne hrm hsort hfl
        match W, hlen, hmax, hne, hrm, hsort with
        | [], hlen, _, _, _, _ => simp at hlen
        | [_], hlen, _, _, _, _ => simp at hlen
        | u :: v :: rest, _, hmax, hne, hrm, hsort =>
          obtain ⟨s, hus, huc, husub⟩ := hrm u (by simp)
          obtain ⟨t, hvt, hvc, hvsub⟩ := hrm v (by simp)
          have hmu := chain_mem_iff u huc s hus
          have hmv := chain_mem_iff v hvc t hvt
          have hlu : 0 < u.length := List.length_pos_of_ne_nil (hne u (by simp))
          have hlv : 0 < v.length := List.length_pos_of_ne_nil (hne v (by simp))
          have hul : s + u.length - 1 ∈ u := (hmu _).2 ⟨by omega, by omega⟩
          have hvh : t ∈ v := (hmv _).2 ⟨le_refl _, by omega⟩
          have hlt : s + u.length - 1 < t := by
            rw [List.flatten_cons, List.pairwise_append] at hsort
            exact hsort.2.2 _ hul t (List.mem_flatten.2 ⟨v, by simp, hvh⟩)
          refine ⟨s + u.length - 1, s + u.length, t, by omega, ?_, (mem_highRows _ _ _).1 (husub _ hul), fun hmid => ?_,
            (mem_highRows _ _ _).1 (hvsub _ hvh)⟩
          · have hlast : u.getLast? = some (s + u.length - 1) := by
              rw [List.getLast?_eq_getElem?, chain_get u huc s hus (u.length - 1) (by omega)]
              congr 1
              omega
            have h1 := (List.isChain_cons_cons.1 hmax).1 _ hlast t hvt
            omega
          · have hup : u ∈ whContinuous (highRows snr cut) := by rw [hW]; simp
            have := runs_succ _ hs u hup _ hul
              (by rw [show s + u.length - 1 + 1 = s + u.length by omega]; exact (mem_highRows _ _ _).2 hmid)
            have := (hmu _).1 this
            omega
      obtain ⟨a, h1, h2, h3⟩ := hrun hsev
      have hi2 := hi'
      rw [← hfl] at hi2
      obtain ⟨w, hw, hiw⟩ := List.mem_flatten.1 hi2
      refine List.mem_flatten.2 ⟨w, List.mem_filter.2 ⟨hw, ?_⟩, hiw⟩
      have hin : ∀ k, a ≤ k → k ≤ a + 2 → k ∈ highRows snr cut := fun k p q => (mem_highRows _ _ _).2 (h3 k p q)
      have up : ∀ x, x ∈ w → a ≤ x → x < a + 2 → x + 1 ∈ w := fun x hx p q =>
        runs_succ _ hs w hw x hx (hin _ (by omega) (by omega))
      have down : ∀ x, x + 1 ∈ w → a ≤ x → x < a + 2 → x ∈ w := fun x hx p q =>
        runs_pred _ hs w hw x hx (hin _ (by omega) (by omega))
      have hall : a ∈ w ∧ a + 1 ∈ w ∧ a + 2 ∈ w := by
        have : i = a ∨ i = a + 1 ∨ i = a + 2 := by omega
        rcases this with rfl | rfl | rfl
        · have p := up i hiw (by omega) (by omega)
          exact ⟨hiw, p, up _ p (by omega) (by omega)⟩
        · exact ⟨down _ hiw (by omega) (by omega), hiw, up _ hiw (by omega) (by omega)⟩
        · have p := down (a + 1) hiw (by omega) (by omega)
          exact ⟨down _ p (by omega) (by omega), p, hiw⟩
      obtain ⟨s, hsh, hch, -⟩ := runs_mem _ w hw
      have hmem := chain_mem_iff w hch s hsh
      have p1 := (hmem _).1 hall.1
      have p2 := (hmem _).1 hall.2.2
      simp only [decide_eq_true_eq]
      omega
    · exact hi'

/-- **C17**, exact: a row is masked if it is not steady, if it lies below the first row that is not and that row is in the lower half,
or if it lies above the last row that is not and that row is in the upper half; no other row is. -/
theorem C17_exact (snr : Fin r → Fl K) (cut : Fl K) (mask : Img r c K) (k : Nat) :
    k ∈ (maskLowSnrRows snr cut mask).2 ↔ k < r ∧ (¬ SteadyRow snr cut k ∨
      (∃ l, k < l ∧ 2 * l < r ∧ ¬ SteadyRow snr cut l ∧ ∀ i, i < l → SteadyRow snr cut i) ∨
      ∃ l, l < k ∧ r < 2 * l ∧ ¬ SteadyRow snr cut l ∧ ∀ i, l < i → i < r → SteadyRow snr cut i) := by
  have hlow : (maskLowSnrRows snr cut mask).2 = lowRows r (keepRuns (highRows snr cut)) := rfl
  rw [hlow, mem_lowRows]
  simp only [mem_keepRuns]

/-- `C17_exact` with twelve rows of which row 0 and row 4 are low: no row is masked besides them -/
example : (maskLowSnrRows (K := ℚ) (r := 12) (c := 1)
    (fun i => if i.val = 0 ∨ i.val = 4 then .fin 0 else .fin 5) (.fin 2) (fun _ _ => 1)).2 = [0, 4] := by decide +kernel

end lowsnr

/-! ## C18 -/

/-- Specification: `l` is the first and `e` the last unmasked pixel. -/
def FirstLast (mask : Fin n → Fl K) (l e : Fin n) : Prop :=
  mask l = 1 ∧ mask e = 1 ∧ ∀ j, mask j = 1 → l ≤ j ∧ j ≤ e

theorem maskEdges1D_eq (mask : Fin n → Fl K) (num : Nat) (l e : Fin n) (h : FirstLast mask l e) :
    maskEdges1D mask num =
      (let m1 := if 0 < l.val then zeroSlice mask l.val (l.val + num) else mask
       if (e.val : Int) < (n : Int) - 1 then
         zeroSlice m1 ((e.val : Int) - num - 1) (e.val + 1) else m1) := by
  obtain ⟨hl, he, hall⟩ := h
  have hsort : ((List.finRange n).filter fun j => Fl.eqB (mask j) 1).Pairwise (· < ·) :=
    (List.pairwise_lt_finRange n).filter _
  have hmem : ∀ j, j ∈ ((List.finRange n).filter fun j => Fl.eqB (mask j) 1) ↔ mask j = 1 := by
    intro j; rw [List.mem_filter, Fl.eqB_one_iff]; simp
  have h1 : ((List.finRange n).filter fun j => Fl.eqB (mask j) 1).head? = some l := by
    revert hsort hmem
    generalize ((List.finRange n).filter fun j => Fl.eqB (mask j) 1) = L
    intro hsort hmem
    cases L with
    | nil => exact absurd ((hmem l).2 hl) (by simp)
    | cons a L =>
      have ha := (hmem a).1 (by simp)
      have : a = l := by
        apply le_antisymm _ (hall a ha).1
        rcases List.mem_cons.1 ((hmem l).2 hl) with h | h
        · exact h.ge
        · exact ((List.pairwise_cons.1 hsort).1 l h).le
      simp [this]
  have h2 : ((List.finRange n).filter fun j => Fl.eqB (mask j) 1).getLast? = some e := by
    revert hsort hmem
    generalize ((List.finRange n).filter fun j => Fl.eqB (mask j) 1) = L
    intro hsort hmem
    rcases List.eq_nil_or_concat L with rfl | ⟨L', a, rfl⟩
    · exact absurd ((hmem e).2 he) (by simp)
    · have ha := (hmem a).1 (by simp)
      have : a = e := by
        apply le_antisymm (hall a ha).2
        have := (hmem e).2 he
        rw [List.concat_eq_append, List.mem_append] at this
        rcases this with h | h
        · rw [List.concat_eq_append, List.pairwise_append] at hsort
          exact (hsort.2.2 e h a (by simp)).le
        · simp at h; exact h.le
      simp [this]
  simp only [maskEdges1D, h1, h2]

/-- The set of pixels masked on the right: Python start index of the slice
`[e-num-1 : e+1]`. -/
def rightStart (n e num : Nat) : Nat := if num + 1 ≤ e then e - num - 1 else n + e - num - 1

/-- Exact effect of the edge masking. -/
theorem C18_exact (mask : Fin n → Fl K) (num : Nat) (l e : Fin n) (h : FirstLast mask l e) (j : Fin n) :
    maskEdges1D mask num j =
      if (0 < l.val ∧ l.val ≤ j.val ∧ j.val < l.val + num) ∨
         (e.val + 1 < n ∧ rightStart n e.val num ≤ j.val ∧ j.val ≤ e.val) then 0 else mask j := by
  rw [maskEdges1D_eq mask num l e h]
  have hs : pySliceBound n ((e.val : Int) - num - 1) = rightStart n e.val num := by
    unfold pySliceBound rightStart
    have := e.2
    split_ifs <;> omega
  have hs2 : pySliceBound n ((e.val : Int) + 1) = e.val + 1 := by
    unfold pySliceBound
    have := e.2
    split_ifs <;> omega
  have hl1 : pySliceBound n (l.val : Int) = l.val := by
    unfold pySliceBound
    have := l.2
    split_ifs <;> omega
  have hl2 : pySliceBound n ((l.val : Int) + num) = min (l.val + num) n := by
    unfold pySliceBound
    split_ifs <;> omega
  have hj := j.2
  have hA : ((if 0 < l.val then zeroSlice mask l.val (l.val + num) else mask) j) =
      if 0 < l.val ∧ l.val ≤ j.val ∧ j.val < l.val + num then 0 else mask j := by
    by_cases h0 : 0 < l.val
    · rw [if_pos h0]
      unfold zeroSlice
      rw [hl1, hl2]
      congr 1
      apply propext
      constructor
      · rintro ⟨a, b⟩; exact ⟨h0, a, by omega⟩
      · rintro ⟨_, a, b⟩; exact ⟨a, by omega⟩
    · rw [if_neg h0, if_neg (fun h => h0 h.1)]
  simp only
  by_cases he : (e.val : Int) < (n : Int) - 1
  · rw [if_pos he]
    unfold zeroSlice at hA ⊢
    rw [hs, hs2]
    by_cases hc1 : rightStart n e.val num ≤ j.val ∧ j.val < e.val + 1
    · rw [if_pos hc1, if_pos (Or.inr ⟨by omega, hc1.1, by omega⟩)]
    · rw [if_neg hc1, hA]
      congr 1
      apply propext
      constructor
      · intro h; exact Or.inl h
      · rintro (h | h)
        · exact h
        · exact absurd ⟨h.2.1, by omega⟩ hc1
  · rw [if_neg he, hA]
    congr 1
    apply propext
    constructor
    · intro h; exact Or.inl h
    · rintro (h | h)
      · exact h
      · exact absurd h.1 (by omega)

/-- C18, the part that holds.  Left edge: when it is interior and the right edge touches the
array end, exactly the `num` pixels starting at it are masked; when both edges touch the ends
nothing is masked.  Missing: the right edge, see `C18_false`. -/
theorem C18_left_edge_partial (mask : Fin n → Fl K) (num : Nat) (l e : Fin n)
    (h : FirstLast mask l e) (he : e.val + 1 = n) (j : Fin n) :
    maskEdges1D mask num j =
      if 0 < l.val ∧ l.val ≤ j.val ∧ j.val < l.val + num then 0 else mask j := by
  rw [C18_exact mask num l e h j]
  congr 1
  apply propext
  constructor
  · rintro (h | h)
    · exact h
    · exact absurd h.1 (by omega)
  · exact Or.inl

/-- C18 is false on the right for every mask with an interior right edge far enough from the
start: two more pixels than `num` are masked. -/
theorem C18_false (mask : Fin n → Fl K) (num : Nat) (l e : Fin n) (h : FirstLast mask l e)
    (hl : l.val = 0) (he : e.val + 1 < n) (hnum : num + 1 ≤ e.val) (j : Fin n) :
    maskEdges1D mask num j =
      if e.val - (num + 1) ≤ j.val ∧ j.val ≤ e.val then 0 else mask j := by
  rw [C18_exact mask num l e h j]
  congr 1
  apply propext
  unfold rightStart
  rw [if_pos hnum]
  constructor
  · rintro (h | h)
    · omega
    · omega
  · intro h; right; omega

/-- C18 is false on the right when the edge is close to the start: the start of the slice wraps
around and nothing at all is masked. -/
theorem C18_false_wrap (mask : Fin n → Fl K) (num : Nat) (l e : Fin n) (h : FirstLast mask l e)
    (hl : l.val = 0) (hnum : e.val < num + 1) (hn : num + 2 ≤ n) :
    maskEdges1D mask num = mask := by
  funext j
  rw [C18_exact mask num l e h j, if_neg]
  unfold rightStart
  rw [if_neg (by omega)]
  rintro (h | h) <;> omega

/-- concrete cases: `num = 1` masks three pixels; `num = 3` masks none -/
example : maskEdges1D (K := ℚ) (n := 8) ![1, 1, 1, 1, 1, 1, 0, 0] 1 =
    ![1, 1, 1, 0, 0, 0, 0, 0] ∧
    maskEdges1D (K := ℚ) (n := 8) ![1, 1, 1, 0, 0, 0, 0, 0] 3 = ![1, 1, 1, 0, 0, 0, 0, 0] ∧
    maskEdges1D (K := ℚ) (n := 6) ![0, 0, 1, 1, 1, 1] 2 = ![0, 0, 0, 0, 1, 1] := by
  refine ⟨?_, ?_, ?_⟩ <;> (funext j; fin_cases j <;> decide +kernel)

example : FirstLast (K := ℚ) (n := 4) ![0, 1, 1, 0] 1 2 := by
  refine ⟨rfl, rfl, ?_⟩
  intro j hj
  fin_cases j <;> simp_all

end Misfit
