import Verif.Props.Kernel
import Verif.Props.Chisq
import Verif.Props.Fit1D
import Verif.Props.Profiles
import Verif.Props.Grid
import Verif.Lemmas.Bright

/-!
# Exact conditions for C11, C27, C57 and C66
-/

namespace Misfit
open Real

/-! ## C27 -/

/-- **C27**, the exact condition: the profile is positive, normalised, symmetric and does not increase with radius and
height exactly for Sersic indices of at least 0.162. -/
theorem C27_exact (scale n re q0 : ℝ) (hn : 0 < n) (hre : 0 < re) (hq : 0 < q0) (hsc : 0 < scale) :
    IntensityDecreasing scale n re q0 ↔ 0.162 ≤ n := by
  refine ⟨fun h => ?_, fun h => C27_decreasing_partial scale n re q0 h hre hq hsc⟩
  have h2 := h.2.2.1 0 re 0 le_rfl hre.le
  simp only [intensity, intSersic, intExpZ, abs_zero, zero_div, neg_zero, exp_zero, mul_one, div_self hre.ne', one_rpow,
    sub_self, mul_zero, zero_rpow (one_div_pos.2 hn).ne', zero_sub, one_mul] at h2
  have h3 := Real.one_le_exp_iff.1 h2
  norm_num at h3 ⊢
  linarith

/-! ## C66 -/

theorem addLines_nan (xs : List ℝ) (hx : xs ≠ []) (z velDisp flux : ℝ) : ∀ (lines : List (ℝ × ℝ)),
    (∀ l ∈ lines, lineSig velDisp (l.1 * (1 + z)) ≤ 0) → ∀ prof : List (Fl ℝ), prof.length = xs.length →
    addLines xs z velDisp flux lines prof = .ok (if lines = [] then prof else xs.map fun _ => .nan)
  | [], _, _, _ => rfl
  | (w, r) :: lines, h, prof, hp => by
      rw [addLines, (C45_degenerate _ _ _).2 xs hx (h (w, r) List.mem_cons_self)]
      simp only
      rw [addArr_nan_right xs prof hp, addLines_nan xs hx z velDisp flux lines (fun l hl => h l (List.mem_cons_of_mem _ hl))
        _ (by simp)]
      simp

theorem addSets_nan (xs : List ℝ) (hx : xs ≠ []) (z velDisp : ℝ) : ∀ (sets : List (ℝ × List (ℝ × ℝ))),
    (∀ s ∈ sets, ∀ l ∈ s.2, lineSig velDisp (l.1 * (1 + z)) ≤ 0) → ∀ prof : List (Fl ℝ), prof.length = xs.length →
    ((∃ s ∈ sets, s.2 ≠ []) ∨ prof = xs.map fun _ => .nan) →
    addSets xs z velDisp sets prof = .ok (xs.map fun _ => .nan)
  | [], _, prof, _, h => by
      rcases h with ⟨s, hs, -⟩ | h
      · cases hs
      · rw [addSets, h]
  | (flux, lines) :: sets, h, prof, hp, hne => by
      rw [addSets, lineProfile, addLines_nan xs hx z velDisp flux lines (h (flux, lines) List.mem_cons_self) _ (by simp)]
      simp only
      apply addSets_nan xs hx z velDisp sets fun s hs => h s (List.mem_cons_of_mem _ hs)
      · split_ifs <;> simp [addArr, hp]
      · rcases hne with ⟨s, hs, hs'⟩ | hne
        · rcases List.mem_cons.1 hs with rfl | hs
          · right
            rw [if_neg hs']
            exact addArr_nan_right xs prof hp
          · exact Or.inl ⟨s, hs, hs'⟩
        · right
          rw [hne]
          apply addArr_nan_left
          split_ifs <;> simp

theorem addCont_nan (xs : List ℝ) : ∀ (cs : List ℝ) (i : Nat), addCont xs i cs (xs.map fun _ => Fl.nan) =
    xs.map fun _ => Fl.nan
  | [], _ => rfl
  | c :: cs, i => by
      rw [addCont, addArr_nan_left _ _ (by simp)]
      exact addCont_nan xs cs (i + 1)

/-- **C66** is false for every collection of lines: with a dispersion of zero or less the residual is zero at every
pixel, whatever the data, however many lines there are. -/
theorem C66_false_sets (z velDisp : ℝ) (sets : List (ℝ × List (ℝ × ℝ))) (cont : List ℝ) (hz : 0 < 1 + z)
    (hw : ∀ s ∈ sets, ∀ l ∈ s.2, 0 < l.1) (hone : ∃ s ∈ sets, s.2 ≠ []) (hv : velDisp ≤ 0) (pix : List Pix)
    (hne : (pix.filter fun p => decide (p.mask = 1)) ≠ []) :
    residual1D z velDisp sets cont pix = .ok ((pix.filter fun p => decide (p.mask = 1)).map fun _ => .fin 0) := by
  have hs : ∀ s ∈ sets, ∀ l ∈ s.2, lineSig velDisp (l.1 * (1 + z)) ≤ 0 := by
    intro s hs l hl
    unfold lineSig
    exact mul_nonpos_of_nonpos_of_nonneg (div_nonpos_of_nonpos_of_nonneg hv c1D_pos.le) (mul_pos (hw s hs l hl) hz).le
  unfold residual1D spectrumProfile
  simp only
  rw [addSets_nan _ (by simpa using hne) z velDisp sets hs _ (by simp) (Or.inl hone)]
  simp only
  rw [addCont_nan, List.map_map, zipWith_self_map (fun (m : Fl ℝ) (p : Pix) => zeroBad ((m - p.data) / p.err))]
  refine congrArg Except.ok (List.map_congr_left fun p _ => ?_)
  have : ((Fl.nan : Fl ℝ) - p.data) / p.err = .nan := by
    cases p.data <;> cases p.err <;> rfl
  show zeroBad (((Fl.nan : Fl ℝ) - p.data) / p.err) = Fl.fin 0
  rw [this]
  rfl

example : residual1D 1 (-3) [(2, [(6564.6, 1)]), (5, [(6549.8, 1 / 3), (6585.2, 1)])] [4]
    [⟨13129, .fin 7, .fin 1, 1⟩, ⟨13130, .fin 3, .fin 1, 0⟩] = .ok [.fin 0] := by
  have h := C66_false_sets 1 (-3) [(2, [(6564.6, 1)]), (5, [(6549.8, 1 / 3), (6585.2, 1)])] [4] (by norm_num)
    (by intro s hs l hl; simp at hs; rcases hs with rfl | rfl <;> simp at hl
        · subst hl; norm_num
        · rcases hl with rfl | rfl <;> norm_num)
    ⟨_, List.mem_cons_self, by simp⟩ (by norm_num) [⟨13129, .fin 7, .fin 1, 1⟩, ⟨13130, .fin 3, .fin 1, 0⟩] (by simp)
  simpa using h

/-- **C66**, exactly: for at least one line and one unmasked pixel, there is a model of which the residual is the
difference to the data over the error, for all data, if and only if the dispersion is positive. -/
theorem C66_exact (z velDisp : ℝ) (sets : List (ℝ × List (ℝ × ℝ))) (cont : List ℝ) (hz : 0 < 1 + z)
    (hw : ∀ s ∈ sets, ∀ l ∈ s.2, 0 < l.1) (hone : ∃ s ∈ sets, s.2 ≠ []) (grid : List (ℝ × ℝ))
    (hne : (grid.filter fun q => decide (q.2 = 1)) ≠ []) :
    (∃ model : ℝ → ℝ, ∀ data err : ℝ → ℝ, (∀ x, err x ≠ 0) →
      residual1D z velDisp sets cont (grid.map fun q => ⟨q.1, .fin (data q.1), .fin (err q.1), q.2⟩) =
        .ok ((grid.filter fun q => decide (q.2 = 1)).map fun q => .fin ((model q.1 - data q.1) / err q.1))) ↔
    0 < velDisp := by
  have hfil : ∀ data err : ℝ → ℝ, ((grid.map fun q => (⟨q.1, .fin (data q.1), .fin (err q.1), q.2⟩ : Pix)).filter
      fun p => decide (p.mask = 1)) =
      (grid.filter fun q => decide (q.2 = 1)).map fun q => ⟨q.1, .fin (data q.1), .fin (err q.1), q.2⟩ := by
    intro data err
    rw [List.filter_map]
    rfl
  constructor
  · rintro ⟨model, h⟩
    by_contra hv
    have h1 := h (fun x => model x + 1) (fun _ => 1) fun _ => one_ne_zero
    have hf := hfil (fun x => model x + 1) fun _ => 1
    rw [C66_false_sets z velDisp sets cont hz hw hone (not_lt.1 hv) _
      (by rw [hf]; simpa using hne), hf, List.map_map] at h1
    obtain ⟨q, l, hq⟩ := List.exists_cons_of_ne_nil hne
    rw [hq] at h1
    have h2 := (List.cons.inj (Except.ok.inj h1)).1
    have h3 := Fl.fin.inj h2
    norm_num at h3
  · intro hv
    have hpos : ∀ ls ∈ sets.map Prod.snd, ∀ l ∈ ls, 0 < lineSig velDisp (l.1 * (1 + z)) := by
      intro ls hls l hl
      obtain ⟨s, hs, rfl⟩ := List.mem_map.1 hls
      unfold lineSig
      exact mul_pos (div_pos hv c1D_pos) (mul_pos (hw s hs l hl) hz)
    have hzip : (sets.map Prod.fst).zip (sets.map Prod.snd) = sets := by
      rw [List.zip_map']
      simp
    have key : ∀ data err : ℝ → ℝ, (∀ x, err x ≠ 0) → ∃ model : ℝ → ℝ,
        spectrumProfile ((grid.filter fun q => decide (q.2 = 1)).map Prod.fst) z velDisp sets cont =
          .ok ((grid.filter fun q => decide (q.2 = 1)).map fun q => .fin (model q.1)) ∧
        residual1D z velDisp sets cont (grid.map fun q => ⟨q.1, .fin (data q.1), .fin (err q.1), q.2⟩) =
          .ok ((grid.filter fun q => decide (q.2 = 1)).map fun q => .fin ((model q.1 - data q.1) / err q.1)) := by
      intro data err herr
      obtain ⟨model, h1, h2, -⟩ := C66_residual_partial z velDisp (sets.map Prod.snd) (sets.map Prod.fst) cont (by simp)
        hpos (grid.map fun q => ⟨q.1, .fin (data q.1), .fin (err q.1), q.2⟩) (by rw [hfil]; simpa using hne)
        (fun p => data p.wave) (fun p => err p.wave) (by
          intro p hp _
          obtain ⟨q, -, rfl⟩ := List.mem_map.1 hp
          exact ⟨rfl, rfl, herr _⟩)
      rw [hfil, hzip, List.map_map, List.map_map] at h1
      rw [hzip, hfil, List.map_map] at h2
      exact ⟨model, h1, h2⟩
    obtain ⟨model, h1, -⟩ := key (fun _ => 0) (fun _ => 1) fun _ => one_ne_zero
    refine ⟨model, fun data err herr => ?_⟩
    obtain ⟨model', h2, h3⟩ := key data err herr
    rw [h1] at h2
    rw [h3]
    refine congrArg Except.ok (List.map_congr_left fun q hq => ?_)
    have := Fl.fin.inj (List.map_inj_left.1 (Except.ok.inj h2) q hq)
    rw [this]

/-! ## C11 -/

section Chi
variable {r c : Nat} {K : Type*} [Field K] [LinearOrder K] [IsStrictOrderedRing K]

/-- **C11**, the exact condition.  The scaled model has the smallest reported chi-square among all rescalings of the
rows exactly if in every row with light the best factor of the sky-free columns also is the best factor of the
unmasked, weighted pixels. -/
theorem C11_exact (f e m w x : Fin r → Fin c → K) (nosky : List (Fin c)) (he : ∀ i j, e i j ≠ 0)
    (hw : ∀ i j, 0 ≤ w i j) (hx : ∀ i, ∃ j ∈ nosky, x i j ≠ 0) :
    (∀ b : Fin r → K, ∃ q q' : K,
      modelChisq (finData f e m w) (scaleModel (finImg f) (finImg e) (finImg x) nosky) = .fin q ∧
      modelChisq (finData f e m w) (finImg fun i j => b i * x i j) = .fin q' ∧ q ≤ q') ↔
    ∀ i, (∑ j, m i j ^ 2 * w i j * (f i j * x i j / e i j ^ 2)) * (nosky.map fun j => x i j ^ 2 / e i j ^ 2).sum =
      (∑ j, m i j ^ 2 * w i j * (x i j ^ 2 / e i j ^ 2)) * (nosky.map fun j => f i j * x i j / e i j ^ 2).sum := by
  have hd : ∀ i, 0 < (nosky.map fun j => x i j * x i j / (e i j * e i j)).sum := by
    intro i
    obtain ⟨j, hj, hxj⟩ := hx i
    refine lt_of_le_of_ne (den_nonneg nosky (e i) (x i)) fun h => ?_
    exact hxj (den_eq_zero nosky (e i) (x i) (fun j _ => he i j) h.symm j hj)
  have hsc := scaleModel_fin f e x nosky fun i j _ => he i j
  rw [hsc]
  let s : Fin r → K := fun i => (nosky.map fun j => f i j * x i j / (e i j * e i j)).sum /
    (nosky.map fun j => x i j * x i j / (e i j * e i j)).sum
  have hs : (fun i j => x i j * (if (nosky.map fun j => x i j * x i j / (e i j * e i j)).sum = 0 then 0 else
      (nosky.map fun j => f i j * x i j / (e i j * e i j)).sum /
      (nosky.map fun j => x i j * x i j / (e i j * e i j)).sum)) = fun i j => s i * x i j := by
    funext i j
    rw [if_neg (hd i).ne', mul_comm]
  rw [hs]
  have hrow : ∀ (b : Fin r → K) i, ∑ j, ((f i j - b i * x i j) * m i j / e i j) * ((f i j - b i * x i j) * m i j / e i j) *
      w i j = (∑ j, m i j ^ 2 * w i j * (f i j * f i j / e i j ^ 2)) -
        2 * b i * (∑ j, m i j ^ 2 * w i j * (f i j * x i j / e i j ^ 2)) +
        b i * b i * (∑ j, m i j ^ 2 * w i j * (x i j ^ 2 / e i j ^ 2)) := by
    intro b i
    rw [Finset.mul_sum, Finset.mul_sum, ← Finset.sum_sub_distrib, ← Finset.sum_add_distrib]
    refine Finset.sum_congr rfl fun j _ => ?_
    have := he i j
    field_simp
    ring
  have hD : ∀ i, 0 ≤ ∑ j, m i j ^ 2 * w i j * (x i j ^ 2 / e i j ^ 2) := fun i =>
    Finset.sum_nonneg fun j _ => mul_nonneg (mul_nonneg (sq_nonneg _) (hw i j)) (div_nonneg (sq_nonneg _) (sq_nonneg _))
  have key : ∀ A N D s : K, 0 ≤ D → ((∀ b, A - 2 * s * N + s * s * D ≤ A - 2 * b * N + b * b * D) ↔ N = s * D) := by
    intro A N D s hD
    constructor
    · intro h
      by_contra hne
      have hk : s * D - N ≠ 0 := fun h' => hne (by linarith)
      have h1 := h (s - (s * D - N) / (D + 1))
      have hD1 : 0 < D + 1 := by linarith
      have h2 : 0 < (s * D - N) ^ 2 / (D + 1) ^ 2 := by positivity
      have h3 : A - 2 * (s - (s * D - N) / (D + 1)) * N + (s - (s * D - N) / (D + 1)) * (s - (s * D - N) / (D + 1)) * D -
          (A - 2 * s * N + s * s * D) = -((s * D - N) ^ 2 / (D + 1) ^ 2) * (D + 2) := by
        field_simp
        ring
      nlinarith
    · intro h b
      subst h
      nlinarith [mul_nonneg hD (mul_self_nonneg (b - s))]
  have hform : ∀ i, ((∑ j, m i j ^ 2 * w i j * (f i j * x i j / e i j ^ 2)) *
      (nosky.map fun j => x i j ^ 2 / e i j ^ 2).sum =
      (∑ j, m i j ^ 2 * w i j * (x i j ^ 2 / e i j ^ 2)) * (nosky.map fun j => f i j * x i j / e i j ^ 2).sum) ↔
      (∑ j, m i j ^ 2 * w i j * (f i j * x i j / e i j ^ 2)) = s i * ∑ j, m i j ^ 2 * w i j * (x i j ^ 2 / e i j ^ 2) := by
    intro i
    simp only [s]
    rw [div_mul_eq_mul_div, eq_div_iff (hd i).ne']
    simp only [pow_two]
    rw [mul_comm (List.sum _) (Finset.sum _ _)]
  simp only [hform]
  constructor
  · intro h i
    refine (key (∑ j, m i j ^ 2 * w i j * (f i j * f i j / e i j ^ 2)) _ _ (s i) (hD i)).1 fun t => ?_
    obtain ⟨q, q', h1, h2, h3⟩ := h (Function.update s i t)
    rw [modelChisq_fin _ _ _ _ _ he] at h1 h2
    rw [← Fl.fin.inj h1, ← Fl.fin.inj h2, ← Finset.add_sum_erase _ _ (Finset.mem_univ i),
      ← Finset.add_sum_erase (a := i) Finset.univ _ (Finset.mem_univ i)] at h3
    have h4 : ∑ k ∈ Finset.univ.erase i, ∑ j, ((f k j - Function.update s i t k * x k j) * m k j / e k j) *
        ((f k j - Function.update s i t k * x k j) * m k j / e k j) * w k j =
        ∑ k ∈ Finset.univ.erase i, ∑ j, ((f k j - s k * x k j) * m k j / e k j) *
        ((f k j - s k * x k j) * m k j / e k j) * w k j := by
      refine Finset.sum_congr rfl fun k hk => ?_
      rw [Function.update_of_ne (Finset.ne_of_mem_erase hk)]
    rw [h4, hrow, hrow, Function.update_self] at h3
    linarith
  · intro h b
    refine ⟨_, _, modelChisq_fin _ _ _ _ _ he, modelChisq_fin _ _ _ _ _ he, Finset.sum_le_sum fun i _ => ?_⟩
    rw [hrow, hrow]
    exact (key _ _ _ (s i) (hD i)).2 (h i) (b i)

example : ∀ i : Fin 1, ∃ j ∈ [(0 : Fin 2)], (![![1, 1]] : Fin 1 → Fin 2 → ℚ) i j ≠ 0 := by
  intro i; fin_cases i; exact ⟨0, by simp, by simp⟩

end Chi

/-! ## C57 -/

/-- A radially decreasing kernel is largest at the origin of the convolution exactly if in both directions no
coordinate is closer to zero than the one there. -/
theorem C57_exact (p : PSF) (hf : 0 < p.fwhm) (hd : p.dither = none) (hb : p.kind = .moffat → 1 < p.beta)
    (xs ys : List ℝ) (hx : xs ≠ []) (hy : ys ≠ []) :
    PeakAtAnchor (p.stamp xs ys) ↔
      (∀ a ∈ xs, ∃ x0, xs[(xs.length - 1) / 2]? = some x0 ∧ |x0| ≤ |a|) ∧
      (∀ a ∈ ys, ∃ y0, ys[(ys.length - 1) / 2]? = some y0 ∧ |y0| ≤ |a|) := by
  have hgood := C49_shape_partial p hf hd hb
  have hxl := List.length_pos_iff.2 hx
  have hyl := List.length_pos_iff.2 hy
  have h1 : (ys.length - 1) / 2 < ys.length := by omega
  have h2 : (xs.length - 1) / 2 < xs.length := by omega
  constructor
  · rintro ⟨h1', h2', hpk⟩
    constructor
    · intro a ha
      refine ⟨_, List.getElem?_eq_getElem h2, ?_⟩
      obtain ⟨i, hi, rfl⟩ := List.getElem_of_mem ha
      by_contra hlt
      have hlt := sq_lt_sq.2 (not_le.1 hlt)
      have := hgood.2.2.2.1 xs[i] (ys[(ys.length - 1) / 2]) (xs[(xs.length - 1) / 2]) (ys[(ys.length - 1) / 2])
        (by linarith)
      exact absurd (hpk ⟨(ys.length - 1) / 2, h1⟩ ⟨i, hi⟩) (not_le.2 this)
    · intro a ha
      refine ⟨_, List.getElem?_eq_getElem h1, ?_⟩
      obtain ⟨i, hi, rfl⟩ := List.getElem_of_mem ha
      by_contra hlt
      have hlt := sq_lt_sq.2 (not_le.1 hlt)
      have := hgood.2.2.2.1 (xs[(xs.length - 1) / 2]) ys[i] (xs[(xs.length - 1) / 2]) (ys[(ys.length - 1) / 2])
        (by linarith)
      exact absurd (hpk ⟨i, hi⟩ ⟨(xs.length - 1) / 2, h2⟩) (not_le.2 this)
  · rintro ⟨hX, hY⟩
    refine ⟨h1, h2, fun j i => ?_⟩
    obtain ⟨x0, hx0, hxi⟩ := hX xs[i] (List.getElem_mem _)
    obtain ⟨y0, hy0, hyj⟩ := hY ys[j] (List.getElem_mem _)
    rw [List.getElem?_eq_getElem h2] at hx0
    rw [List.getElem?_eq_getElem h1] at hy0
    show p.stampAt xs[i] ys[j] ≤ p.stampAt (xs[(xs.length - 1) / 2]) (ys[(ys.length - 1) / 2])
    rw [Option.some.inj hx0, Option.some.inj hy0]
    by_contra hlt
    have hlt := not_le.1 hlt
    have e1 := sq_le_sq.2 hxi
    have e2 := sq_le_sq.2 hyj
    rcases (add_le_add e1 e2).lt_or_eq with h | h
    · exact absurd (hgood.2.2.2.1 _ _ _ _ h) (not_lt.2 hlt.le)
    · have e3 : x0 ^ 2 = xs[i] ^ 2 := by linarith
      have e4 : y0 ^ 2 = ys[j] ^ 2 := by linarith
      have e5 : p.stampAt x0 y0 = p.stampAt xs[i] ys[j] := by
        rcases sq_eq_sq_iff_eq_or_eq_neg.1 e3 with h | h <;> rcases sq_eq_sq_iff_eq_or_eq_neg.1 e4 with h' | h' <;>
          rw [h, h'] <;> simp only [(hgood.2.1 _ _).1, (hgood.2.1 _ _).2]
      exact absurd e5 hlt.ne

/-- the middle of a trimmed, equally spaced grid: the mean, with a neighbour on either side -/
theorem trim_middle (l : List ℝ) (c d fwhm : ℝ) (hd : 0 < d)
    (hl : ∀ i (h : i < l.length), l[i] = c + ((i : ℝ) - ((l.length : ℝ) - 1) / 2) * d)
    (ho : (trimToFwhm l fwhm).length % 2 = 1) (h3 : 3 ≤ (trimToFwhm l fwhm).length) :
    (trimToFwhm l fwhm)[((trimToFwhm l fwhm).length - 1) / 2]? = some c ∧
      c - d ∈ trimToFwhm l fwhm ∧ c + d ∈ trimToFwhm l fwhm ∧
      ∀ a ∈ trimToFwhm l fwhm, a = c ∨ d ≤ |a - c| := by
  have hlen : 0 < l.length := by
    have : (trimToFwhm l fwhm).length ≤ l.length := List.length_filter_le _ _
    omega
  have havg : avgList l = c := by
    have := avgList_steps l l.length (c - ((l.length : ℝ) - 1) / 2 * d) d hlen (by
      apply List.ext_getElem
      · simp
      · intro i h1 h2
        rw [hl i h1]
        simp
        ring)
    rw [this]
    ring
  have hmem : ∀ a, a ∈ trimToFwhm l fwhm ↔ a ∈ l ∧ |a - c| ≤ fwhm := by
    intro a
    unfold trimToFwhm
    rw [List.mem_filter, havg, decide_eq_true_iff]
  have hodd : ((trimToFwhm l fwhm).map (· - c)).reverse.map (fun a => -a) = (trimToFwhm l fwhm).map (· - c) := by
    have hsym : (l.map (· - c)).reverse.map (fun a => -a) = l.map (· - c) := by
      apply symmetric_of_get
      intro i j a b hij ha hb
      rw [List.length_map] at hij
      rw [List.getElem?_map, List.getElem?_eq_getElem (by omega), Option.map_some, hl i (by omega)] at ha
      rw [List.getElem?_map, List.getElem?_eq_getElem (by omega), Option.map_some, hl j (by omega)] at hb
      cases ha
      cases hb
      have : ((i : ℝ)) + j + 1 = l.length := by exact_mod_cast hij
      linear_combination d * this
    have h0 : avgList (l.map (· - c)) = 0 := by
      have := avgList_steps (l.map (· - c)) l.length (-(((l.length : ℝ) - 1) / 2 * d)) d hlen (by
        apply List.ext_getElem
        · simp
        · intro i h1 h2
          rw [List.getElem_map, hl i (by simpa using h1)]
          simp
          ring)
      rw [this]
      ring
    have := trim_symmetric (l.map (· - c)) fwhm hsym
    have e : trimToFwhm (l.map (· - c)) fwhm = (trimToFwhm l fwhm).map (· - c) := by
      unfold trimToFwhm
      rw [List.filter_map, h0, havg]
      congr 1
      apply List.filter_congr
      intro a _
      simp
    rw [e] at this
    exact this
  generalize hT : trimToFwhm l fwhm = t at *
  have hmid : t[(t.length - 1) / 2]'(by omega) = c := by
    have := symmetric_get _ hodd ((t.length - 1) / 2) ((t.length - 1) / 2) (by rw [List.length_map]; omega)
      (by rw [List.length_map]; omega) (by rw [List.length_map]; omega)
    rw [List.getElem_map] at this
    linarith
  have hstep : ∀ a ∈ l, a = c ∨ d ≤ |a - c| := by
    have hc : c ∈ l := ((hmem c).1 (hmid ▸ List.getElem_mem _)).1
    obtain ⟨k, hk, hkc⟩ := List.getElem_of_mem hc
    rw [hl k hk] at hkc
    have hk2 : (k : ℝ) = ((l.length : ℝ) - 1) / 2 := by
      have : ((k : ℝ) - ((l.length : ℝ) - 1) / 2) * d = 0 := by linarith
      rcases mul_eq_zero.1 this with h | h <;> linarith
    intro a ha
    obtain ⟨i, hi, rfl⟩ := List.getElem_of_mem ha
    rw [hl i hi, ← hk2]
    by_cases hik : i = k
    · left; rw [hik]; ring
    · right
      rw [add_sub_cancel_left, abs_mul, abs_of_pos hd]
      have : (1 : ℝ) ≤ |(i : ℝ) - k| := by
        have h1 : (1 : ℤ) ≤ |(i : ℤ) - k| := Int.one_le_abs (by omega)
        exact_mod_cast h1
      nlinarith
  have hc : c ∈ l := ((hmem c).1 (hmid ▸ List.getElem_mem _)).1
  obtain ⟨k, hk, hkc⟩ := List.getElem_of_mem hc
  rw [hl k hk] at hkc
  have hk2 : (k : ℝ) = ((l.length : ℝ) - 1) / 2 := by
    have : ((k : ℝ) - ((l.length : ℝ) - 1) / 2) * d = 0 := by linarith
    rcases mul_eq_zero.1 this with h | h <;> linarith
  have hk3 : 2 * k + 1 = l.length := by
    have : (2 * k + 1 : ℝ) = l.length := by rw [hk2]; ring
    exact_mod_cast this
  have hge : 3 ≤ l.length := by
    have : t.length ≤ l.length := by rw [← hT]; exact List.length_filter_le _ _
    omega
  have hfw : d ≤ fwhm := by
    have hnd : t.Nodup := by
      rw [← hT]
      refine List.Nodup.filter _ (List.nodup_iff_injective_getElem.2 ?_)
      intro i j hij
      simp only at hij
      rw [hl i i.2, hl j j.2] at hij
      have h2 : ((i : ℕ) : ℝ) * d = ((j : ℕ) : ℝ) * d := by linarith
      exact Fin.ext (by exact_mod_cast mul_right_cancel₀ hd.ne' h2)
    have h0 : t[0]'(by omega) ≠ c := by
      rw [← hmid]
      intro h
      have := (List.Nodup.getElem_inj_iff hnd).1 h
      omega
    have hm0 := (hmem _).1 (List.getElem_mem (l := t) (n := 0) (by omega))
    rcases hstep _ hm0.1 with h | h
    · exact absurd h h0
    · exact h.trans hm0.2
  refine ⟨by rw [List.getElem?_eq_getElem (by omega), hmid], ?_, ?_, fun a ha => hstep a ((hmem a).1 ha).1⟩
  · refine (hmem _).2 ⟨?_, by rw [sub_sub_cancel_left, abs_neg, abs_of_pos hd]; exact hfw⟩
    have : l[k - 1]'(by omega) = c - d := by
      rw [hl _ (by omega), ← hk2, Nat.cast_sub (by omega)]
      push_cast; ring
    rw [← this]
    exact List.getElem_mem _
  · refine (hmem _).2 ⟨?_, by rw [add_sub_cancel_left, abs_of_pos hd]; exact hfw⟩
    have : l[k + 1]'(by omega) = c + d := by
      rw [hl _ (by omega), ← hk2]
      push_cast; ring
    rw [← this]
    exact List.getElem_mem _

theorem closest_iff (t : List ℝ) (c d : ℝ) (hmid : t[(t.length - 1) / 2]? = some c)
    (h1 : c - d ∈ t) (h2 : c + d ∈ t) (h3 : ∀ a ∈ t, a = c ∨ d ≤ |a - c|) (hd : 0 < d) :
    (∀ a ∈ t, ∃ y0, t[(t.length - 1) / 2]? = some y0 ∧ |y0| ≤ |a|) ↔ |c| ≤ d / 2 := by
  constructor
  · intro h
    obtain ⟨y0, e0, l0⟩ := h _ h1
    obtain ⟨y1, e1, l1⟩ := h _ h2
    obtain rfl := Option.some.inj (hmid.symm.trans e0)
    obtain rfl := Option.some.inj (hmid.symm.trans e1)
    have q1 := sq_le_sq.2 l0
    have q2 := sq_le_sq.2 l1
    rw [abs_le]
    constructor <;> nlinarith
  · intro h a ha
    refine ⟨c, hmid, ?_⟩
    rcases h3 a ha with rfl | h'
    · exact le_rfl
    · have : |a - c| ≤ |a| + |c| := abs_sub a c
      linarith

/-- **C57**, the exact condition for odd kernels of at least three pixels in each direction: the kernel peaks at the
origin of the convolution exactly if the object is less than half a step of the model grid away from the middle row,
and from the middle of the slit. -/
theorem C57_exact_grid (cfg : AperCfg) (theta : List ℝ) (f : AperFixed) (m0shift : ℝ)
    (h : setupCalcs cfg theta = .ok f) (hsh : fromEnd theta 2 = .ok m0shift)
    (hphys : (⟨cfg.nWhole, cfg.nSubpixels, cfg.pixscale, cfg.slit, cfg.psf.fwhm, cfg.padFactor, cfg.xc,
        cfg.m0 + m0shift⟩ : GridIn ℝ).Phys)
    (hrow : cfg.nSubpixels + 1 < f.grid.nY)
    (hfw : 0 < cfg.psf.fwhm) (hdit : cfg.psf.dither = none) (hbeta : cfg.psf.kind = .moffat → 1 < cfg.psf.beta)
    (hox : f.xTrim.length % 2 = 1) (hoy : f.yTrim.length % 2 = 1) (hx3 : 3 ≤ f.xTrim.length) (hy3 : 3 ≤ f.yTrim.length) :
    PeakAtAnchor (cfg.psf.stamp f.xTrim f.yTrim) ↔
      |cfg.xc| ≤ f.grid.deltX / 2 ∧
      |(((cfg.nWhole : ℝ) - 1) / 2 - (cfg.m0 + m0shift)) * cfg.pixscale| ≤
        f.grid.deltY * (f.grid.nY - 1 - cfg.nSubpixels) / (f.grid.nY - 1) / 2 := by
  obtain ⟨m', hm', hg, hx, hy⟩ := setupCalcs_trim cfg theta f h
  obtain rfl : m0shift = m' := Except.ok.inj (hsh.symm.trans hm')
  obtain ⟨G, hG, hPY, hdy, -, hdp, hp, hwid, hdx, -, hnX, hnY, -, -, -, hxA, -, hyA⟩ := setupGrid_ok _ hphys
  obtain rfl : G = f.grid := Except.ok.inj (hG.symm.trans hg)
  rw [C57_exact cfg.psf hfw hdit hbeta _ _ (by rw [← List.length_pos_iff]; omega) (by rw [← List.length_pos_iff]; omega)]
  simp only at hPY hdy hwid hxA hyA
  rw [hPY] at hnY
  have hpos : (0 : ℝ) < f.grid.nY - 1 - cfg.nSubpixels := by
    have : ((cfg.nSubpixels + 1 : ℕ) : ℝ) < f.grid.nY := by exact_mod_cast hrow
    push_cast at this
    linarith
  have hS : (0 : ℝ) < cfg.nSubpixels := by exact_mod_cast hphys.sub
  have hlenY : f.grid.yArr.length = f.grid.nY := by rw [hyA, List.length_map, linspace_length]
  have hlenX : f.grid.xArr.length = f.grid.nX := by rw [hxA, List.length_map, linspace_length]
  have hstepY : 0 < f.grid.deltY * (f.grid.nY - 1 - cfg.nSubpixels) / (f.grid.nY - 1) :=
    div_pos (mul_pos hdp hpos) (by linarith)
  have hY : ∀ i (hi : i < f.grid.yArr.length), f.grid.yArr[i] =
      (((cfg.nWhole : ℝ) - 1) / 2 - (cfg.m0 + m0shift)) * cfg.pixscale +
        ((i : ℝ) - ((f.grid.yArr.length : ℝ) - 1) / 2) *
          (f.grid.deltY * (f.grid.nY - 1 - cfg.nSubpixels) / (f.grid.nY - 1)) := by
    intro i hi
    have h1 := yArr_get cfg.nWhole cfg.nSubpixels f.grid.padY i (by omega) f.grid.deltY
      ((cfg.m0 + m0shift) * cfg.nSubpixels * f.grid.deltY) (by omega)
    rw [← hnY, ← hyA, List.getElem?_eq_getElem hi] at h1
    rw [Option.some.inj h1, hlenY]
    have e1 : cfg.pixscale = f.grid.deltY * cfg.nSubpixels := by rw [hdy]; field_simp
    have e2 : (f.grid.nY : ℝ) = cfg.nWhole * cfg.nSubpixels + 2 * f.grid.padY := by rw [hnY]; push_cast; ring
    have e3 : (f.grid.nY : ℝ) - 1 ≠ 0 := by linarith
    rw [e1]
    generalize (f.grid.nY : ℝ) = N at *
    have e4 : (f.grid.padY : ℝ) = (N - cfg.nWhole * cfg.nSubpixels) / 2 := by linarith
    rw [e4]
    field_simp
    ring
  have hX : ∀ i (hi : i < f.grid.xArr.length), f.grid.xArr[i] =
      -cfg.xc + ((i : ℝ) - ((f.grid.xArr.length : ℝ) - 1) / 2) * f.grid.deltX := by
    intro i hi
    have h1 := xArr_get f.grid.nPixX f.grid.padX i hp f.grid.deltX cfg.xc (by omega)
    rw [← hnX, ← hxA, List.getElem?_eq_getElem hi] at h1
    rw [Option.some.inj h1, hlenX, hnX]
    push_cast
    ring
  rw [hx] at hox hx3 ⊢
  rw [hy] at hoy hy3 ⊢
  obtain ⟨x1, x2, x3, x4⟩ := trim_middle _ _ _ _ hdx hX hox hx3
  obtain ⟨y1, y2, y3, y4⟩ := trim_middle _ _ _ _ hstepY hY hoy hy3
  rw [closest_iff _ _ _ x1 x2 x3 x4 hdx, closest_iff _ _ _ y1 y2 y3 y4 hstepY, abs_neg]

/-- three rows and columns, the object a fifth of a pixel below the middle row -/
noncomputable def nearCentre : AperCfg :=
  { oneCell [1, 2] true true 3 with nWhole := 3, m0 := 4 / 5, slit := 3, psf := ⟨.gaussian, 1, 0, none⟩, padFactor := 0 }

noncomputable def nearGrid : Grid ℝ := ⟨3, 3, 0, 0, 1, 1, 1, 3, 3, 3, [-1, 0, 1], [-3 / 10, 1 / 5, 7 / 10], [-1, 0, 1]⟩

theorem nearGrid_eq : setupGrid (⟨3, 1, 1, 3, 1, 0, 0, 4 / 5 + 0⟩ : GridIn ℝ) = .ok nearGrid := by
  have h1 : nPixXOf (⟨3, 1, 1, 3, 1, 0, 0, 4 / 5⟩ : GridIn ℝ) 1 3 3 = 3 := by
    simp [nPixXOf]
  unfold setupGrid
  simp [h1, npRound_zero, linspace, nearGrid, List.range_succ]
  norm_num

/-- its kernel is centred although the object is not -/
example : ∃ f, setupCalcs nearCentre [0, 1, 1, 0, 0] = .ok f ∧ PeakAtAnchor (nearCentre.psf.stamp f.xTrim f.yTrim) := by
  have hs : ∃ f, setupCalcs nearCentre [0, 1, 1, 0, 0] = .ok f := by
    rw [setupCalcs_arrays (fun h => by cases h.1)]
    unfold setupArrays
    have e1 : fromEnd ([0, 1, 1, 0, 0] : List ℝ) 1 = .ok 0 := rfl
    have e2 : fromEnd ([0, 1, 1, 0, 0] : List ℝ) 2 = .ok 0 := rfl
    have e3 : setupGrid (⟨nearCentre.nWhole, nearCentre.nSubpixels, nearCentre.pixscale, nearCentre.slit,
      nearCentre.psf.fwhm, nearCentre.padFactor, nearCentre.xc, nearCentre.m0 + 0⟩) = .ok nearGrid := nearGrid_eq
    simp only [bind, Except.bind, e1, e2, e3]
    have e4 : nearCentre.specType = .wave := rfl
    have e5 : nearCentre.restwave = [1] := rfl
    rw [e4, e5]
    simp only [List.getElem?_cons_zero]
    exact ⟨_, rfl⟩
  obtain ⟨f, hf⟩ := hs
  obtain ⟨m', hm', hg, hx, hy⟩ := setupCalcs_trim _ _ f hf
  obtain rfl : (0 : ℝ) = m' := Except.ok.inj hm'
  have hg' : f.grid = nearGrid := Except.ok.inj (hg.symm.trans nearGrid_eq)
  have hxt : f.xTrim = [-1, 0, 1] := by
    rw [hx, hg']
    show trimToFwhm [-1, 0, 1] 1 = _
    have ha : avgList [-1, 0, 1] = 0 := by norm_num [avgList]
    unfold trimToFwhm
    rw [ha]
    norm_num [List.filter]
  have hyt : f.yTrim = [-3 / 10, 1 / 5, 7 / 10] := by
    rw [hy, hg']
    show trimToFwhm [-3 / 10, 1 / 5, 7 / 10] 1 = _
    have ha : avgList [-3 / 10, 1 / 5, 7 / 10] = 1 / 5 := by norm_num [avgList]
    unfold trimToFwhm
    rw [ha]
    norm_num [List.filter, abs_of_pos, abs_of_neg]
  refine ⟨f, hf, (C57_exact_grid nearCentre _ f 0 hf rfl ⟨by norm_num [nearCentre], by norm_num [nearCentre, oneCell],
    by norm_num [nearCentre, oneCell], by norm_num [nearCentre], by norm_num [nearCentre]⟩ (by rw [hg']; decide) one_pos rfl
    (fun h => by cases h) (by rw [hxt]; rfl) (by rw [hyt]; rfl) (by rw [hxt]; decide) (by rw [hyt]; decide)).2 ?_⟩
  rw [hg']
  norm_num [nearCentre, nearGrid, oneCell, abs_of_pos]

end Misfit
