import Verif.Props.Chisq
import Mathlib.Tactic.FieldSimp
import Mathlib.Tactic.Linarith

/-!
# C166: masked pixels and the fit

`C06` says that the chi-square of a *given* image ignores masked pixels.  The images a fit compares with the data have
been scaled before (`scale_model`, kin_model.py 141-157), and the scaling uses every pixel of the sky-free columns.
-/

namespace Misfit
variable {K : Type*} [Field K] [LinearOrder K] [IsStrictOrderedRing K] {r c : Nat}

/-- The chi-square which the fit assigns to the image `x`: scale the rows, then compare (kin_model.py 141-157, 354-395). -/
def scaledChisq (f e m w x : Fin r → Fin c → K) (nosky : List (Fin c)) : Fl K :=
  modelChisq (finData f e m w) (scaleModel (finImg f) (finImg e) (finImg x) nosky)

/-- Specification: `f'` equals `f` on the unmasked pixels. -/
def SameUnmasked (m f f' : Fin r → Fin c → K) : Prop := ∀ i j, m i j ≠ 0 → f' i j = f i j

/-- Specification: a row in which a masked pixel of a sky-free column sees light of the model has no light in any pixel
that counts. -/
def NoLeak (m w x : Fin r → Fin c → K) (nosky : List (Fin c)) : Prop :=
  ∀ i j k, j ∈ nosky → m i j = 0 → x i j ≠ 0 → m i k ≠ 0 → 0 < w i k → x i k = 0

/-- the amplitude of row `i` -/
def rowAmp (f e x : Fin r → Fin c → K) (nosky : List (Fin c)) (i : Fin r) : K :=
  if (nosky.map fun j => x i j * x i j / (e i j * e i j)).sum = 0 then 0 else
    (nosky.map fun j => f i j * x i j / (e i j * e i j)).sum / (nosky.map fun j => x i j * x i j / (e i j * e i j)).sum

theorem scaledChisq_fin (f e m w x : Fin r → Fin c → K) (nosky : List (Fin c)) (he : ∀ i j, e i j ≠ 0) :
    scaledChisq f e m w x nosky = .fin (∑ i, ∑ j, ((f i j - x i j * rowAmp f e x nosky i) * m i j / e i j) *
      ((f i j - x i j * rowAmp f e x nosky i) * m i j / e i j) * w i j) := by
  unfold scaledChisq
  rw [scaleModel_fin f e x nosky fun i j _ => he i j, modelChisq_fin _ _ _ _ _ he]
  rfl

/-- **C166** (partial): if the model has no light in the masked pixels of the sky-free columns, the data and errors in
masked pixels play no role.  Missing from the full claim: models with light there, see `C166_false`. -/
theorem C166_unmasked_only_partial (f f' e e' m w x : Fin r → Fin c → K) (nosky : List (Fin c))
    (he : ∀ i j, e i j ≠ 0) (he' : ∀ i j, e' i j ≠ 0) (hf : SameUnmasked m f f') (hee : SameUnmasked m e e')
    (hx : ∀ i, ∀ j ∈ nosky, m i j = 0 → x i j = 0) :
    scaledChisq f' e' m w x nosky = scaledChisq f e m w x nosky := by
  have hamp : ∀ i, rowAmp f' e' x nosky i = rowAmp f e x nosky i := by
    intro i
    have h1 : (nosky.map fun j => x i j * x i j / (e' i j * e' i j)) = nosky.map fun j => x i j * x i j / (e i j * e i j) := by
      refine List.map_congr_left fun j hj => ?_
      by_cases hm : m i j = 0
      · simp [hx i j hj hm]
      · rw [hee i j hm]
    have h2 : (nosky.map fun j => f' i j * x i j / (e' i j * e' i j)) = nosky.map fun j => f i j * x i j / (e i j * e i j) := by
      refine List.map_congr_left fun j hj => ?_
      by_cases hm : m i j = 0
      · simp [hx i j hj hm]
      · rw [hee i j hm, hf i j hm]
    simp only [rowAmp, h1, h2]
  rw [scaledChisq_fin _ _ _ _ _ _ he, scaledChisq_fin _ _ _ _ _ _ he']
  congr 1
  refine Finset.sum_congr rfl fun i _ => Finset.sum_congr rfl fun j _ => ?_
  rw [hamp]
  by_cases hm : m i j = 0
  · simp [hm]
  · rw [hf i j hm, hee i j hm]

private theorem sum_update_one {f : Fin c → K} (g : Fin c → K) (j : Fin c) (t : K) :
    ∀ l : List (Fin c), l.Nodup → j ∈ l →
      (l.map fun k => (if k = j then f k + t else f k) * g k).sum = (l.map fun k => f k * g k).sum + t * g j
  | [], _, h => by simp at h
  | a :: l, hn, h => by
    rw [List.nodup_cons] at hn
    simp only [List.map_cons, List.sum_cons]
    by_cases ha : a = j
    · subst ha
      have : (l.map fun k => (if k = a then f k + t else f k) * g k) = l.map fun k => f k * g k := by
        refine List.map_congr_left fun k hk => ?_
        have hka : k ≠ a := by
          rintro rfl
          exact hn.1 hk
        rw [if_neg hka]
      rw [this, if_pos rfl]
      ring
    · have hj : j ∈ l := by
        rcases List.mem_cons.1 h with h | h
        · exact absurd h.symm ha
        · exact h
      rw [sum_update_one g j t l hn.2 hj, if_neg ha]
      ring

/-- **C166 is false**, without bound: as soon as a masked pixel of a sky-free column sees light of the model and the same
row has light in a pixel that counts, the value of the one masked pixel can be chosen such that the chi-square exceeds
every bound. -/
theorem C166_false (f e m w x : Fin r → Fin c → K) (nosky : List (Fin c)) (hnd : nosky.Nodup) (he : ∀ i j, e i j ≠ 0)
    (hw : ∀ i j, 0 ≤ w i j) (i : Fin r) (j k : Fin c) (hj : j ∈ nosky) (hm : m i j = 0) (hx : x i j ≠ 0)
    (hmk : m i k ≠ 0) (hwk : 0 < w i k) (hxk : x i k ≠ 0) (B : K) :
    ∃ (f' : Fin r → Fin c → K) (q : K), (∀ i' j', (i', j') ≠ (i, j) → f' i' j' = f i' j') ∧ SameUnmasked m f f' ∧
      scaledChisq f' e m w x nosky = .fin q ∧ B < q := by
  set D := (nosky.map fun j => x i j * x i j / (e i j * e i j)).sum with hD
  have hD0 : D ≠ 0 := fun h => hx (den_eq_zero nosky (e i) (x i) (fun j _ => he i j) h j hj)
  set N := (nosky.map fun j => f i j * x i j / (e i j * e i j)).sum with hN
  set s := |B| / w i k + 1 with hs
  set a := (f i k - s * e i k / m i k) / x i k with ha
  set t := (a * D - N) * (e i j * e i j) / x i j with ht
  refine ⟨fun i' j' => if i' = i ∧ j' = j then f i' j' + t else f i' j', _, ?_, ?_, scaledChisq_fin _ _ _ _ _ _ he, ?_⟩
  · intro i' j' h
    dsimp only
    rw [if_neg]
    rintro ⟨rfl, rfl⟩
    exact h rfl
  · intro i' j' h
    dsimp only
    rw [if_neg]
    rintro ⟨rfl, rfl⟩
    exact h hm
  · set f' : Fin r → Fin c → K := fun i' j' => if i' = i ∧ j' = j then f i' j' + t else f i' j' with hf'
    have hamp : rowAmp f' e x nosky i = a := by
      unfold rowAmp
      rw [← hD, if_neg hD0]
      have hsum : (nosky.map fun j => f' i j * x i j / (e i j * e i j)).sum = N + t * (x i j / (e i j * e i j)) := by
        have := sum_update_one (f := f i) (fun k => x i k / (e i k * e i k)) j t nosky hnd hj
        have e1 : (nosky.map fun k => (if k = j then f i k + t else f i k) * (x i k / (e i k * e i k))) =
            nosky.map fun k => f' i k * x i k / (e i k * e i k) := by
          refine List.map_congr_left fun k _ => ?_
          rw [hf']
          by_cases hk : k = j
          · simp [hk, mul_div_assoc]
          · simp [hk, mul_div_assoc]
        have e2 : (nosky.map fun k => f i k * (x i k / (e i k * e i k))) = nosky.map fun k => f i k * x i k / (e i k * e i k) :=
          List.map_congr_left fun k _ => by rw [mul_div_assoc]
        rw [e1, e2] at this
        exact this
      rw [hsum, ht]
      have h1 := he i j
      field_simp
      ring
    have hjk : ¬ (i = i ∧ k = j) := by
      rintro ⟨-, rfl⟩
      exact hmk hm
    have hfk : f' i k = f i k := if_neg hjk
    have hres : (f' i k - x i k * rowAmp f' e x nosky i) * m i k / e i k = s := by
      rw [hamp, hfk, ha]
      have h1 := he i k
      field_simp
      ring
    have hterm : ∀ i' j', 0 ≤ ((f' i' j' - x i' j' * rowAmp f' e x nosky i') * m i' j' / e i' j') *
        ((f' i' j' - x i' j' * rowAmp f' e x nosky i') * m i' j' / e i' j') * w i' j' :=
      fun i' j' => mul_nonneg (mul_self_nonneg _) (hw i' j')
    have h1 : s * s * w i k ≤ ∑ j', ((f' i j' - x i j' * rowAmp f' e x nosky i) * m i j' / e i j') *
        ((f' i j' - x i j' * rowAmp f' e x nosky i) * m i j' / e i j') * w i j' := by
      refine le_trans (le_of_eq ?_) (Finset.single_le_sum (fun j' _ => hterm i j') (Finset.mem_univ k))
      rw [hres]
    refine lt_of_lt_of_le ?_ (le_trans h1 (Finset.single_le_sum (f := fun i' => ∑ j', ((f' i' j' - x i' j' *
      rowAmp f' e x nosky i') * m i' j' / e i' j') * ((f' i' j' - x i' j' * rowAmp f' e x nosky i') * m i' j' / e i' j') *
      w i' j') (fun i' _ => Finset.sum_nonneg fun j' _ => hterm i' j') (Finset.mem_univ i)))
    have hs1 : 1 ≤ s := by
      have : 0 ≤ |B| / w i k := div_nonneg (abs_nonneg _) hwk.le
      linarith
    have h3 : s * w i k ≤ s * s * w i k := by
      refine mul_le_mul_of_nonneg_right ?_ hwk.le
      nlinarith
    have h4 : s * w i k = |B| + w i k := by
      rw [hs]
      field_simp
    have := le_abs_self B
    linarith

/-- **C166**, the exact condition: the fit ignores the data in masked pixels exactly when no row mixes light in a masked
pixel of a sky-free column with light in a pixel that counts. -/
theorem C166_exact (f e m w x : Fin r → Fin c → K) (nosky : List (Fin c)) (hnd : nosky.Nodup) (he : ∀ i j, e i j ≠ 0)
    (hw : ∀ i j, 0 ≤ w i j) :
    (∀ f', SameUnmasked m f f' → scaledChisq f' e m w x nosky = scaledChisq f e m w x nosky) ↔ NoLeak m w x nosky := by
  constructor
  · intro h i j k hj hm hx hmk hwk
    by_contra hxk
    obtain ⟨f', q, -, hs, hq, hlt⟩ := C166_false f e m w x nosky hnd he hw i j k hj hm hx hmk hwk hxk
      (∑ i, ∑ j, ((f i j - x i j * rowAmp f e x nosky i) * m i j / e i j) *
      ((f i j - x i j * rowAmp f e x nosky i) * m i j / e i j) * w i j)
    have h1 := h f' hs
    rw [hq, scaledChisq_fin f e m w x nosky he] at h1
    exact absurd (Fl.fin.inj h1) hlt.ne'
  · intro h f' hs
    rw [scaledChisq_fin _ _ _ _ _ _ he, scaledChisq_fin _ _ _ _ _ _ he]
    congr 1
    refine Finset.sum_congr rfl fun i _ => ?_
    by_cases hl : ∃ j ∈ nosky, m i j = 0 ∧ x i j ≠ 0
    · obtain ⟨j, hj, hm, hx⟩ := hl
      refine Finset.sum_congr rfl fun k _ => ?_
      by_cases hmk : m i k = 0
      · simp [hmk]
      · rcases (hw i k).eq_or_lt with h0 | h0
        · simp [← h0]
        · rw [h i j k hj hm hx hmk h0, hs i k hmk]
          simp
    · have hamp : rowAmp f' e x nosky i = rowAmp f e x nosky i := by
        have : (nosky.map fun j => f' i j * x i j / (e i j * e i j)) = nosky.map fun j => f i j * x i j / (e i j * e i j) := by
          refine List.map_congr_left fun j hj => ?_
          by_cases hm : m i j = 0
          · have : x i j = 0 := by
              by_contra hx
              exact hl ⟨j, hj, hm, hx⟩
            simp [this]
          · rw [hs i j hm]
        simp only [rowAmp, this]
      refine Finset.sum_congr rfl fun k _ => ?_
      rw [hamp]
      by_cases hmk : m i k = 0
      · simp [hmk]
      · rw [hs i k hmk]

/-- A row of three pixels on an emission line; the middle one is hit by a cosmic ray and masked by the user.  Without the
cosmic ray the model fits exactly; with it the chi-square is large, although the pixel is masked. -/
example : SameUnmasked (K := ℚ) (r := 1) (c := 3) ![![1, 0, 1]] ![![1, 2, 1]] ![![1, 302, 1]] ∧
    scaledChisq (K := ℚ) (r := 1) (c := 3) ![![1, 2, 1]] (fun _ _ => 1) ![![1, 0, 1]] (fun _ _ => 1) ![![1, 2, 1]] [0, 1, 2] =
      .fin 0 ∧
    scaledChisq (K := ℚ) (r := 1) (c := 3) ![![1, 302, 1]] (fun _ _ => 1) ![![1, 0, 1]] (fun _ _ => 1) ![![1, 2, 1]] [0, 1, 2] =
      .fin 20000 := by
  refine ⟨?_, by decide +kernel, by decide +kernel⟩
  intro i j h
  fin_cases i
  fin_cases j
  · rfl
  · exact absurd rfl h
  · rfl

example : NoLeak (K := ℚ) (r := 2) (c := 2) ![![1, 0], ![0, 1]] (fun _ _ => 1) ![![0, 5], ![3, 0]] [0, 1] := by
  intro i j k _ hm hx hmk _
  fin_cases i <;> fin_cases j <;> fin_cases k <;> simp_all

end Misfit
