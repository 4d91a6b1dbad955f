import Verif.Lemmas.Convolve

/-!
# C32–C34: convolution and rebinning
-/

namespace Misfit

section
variable {K : Type*} [Field K] [LinearOrder K] [IsStrictOrderedRing K]

/-! ## C32 -/

/-- total of a cube -/
def cubeTotal {nW n m : Nat} (a : Fin nW → Fin n → Fin m → K) : K := ∑ w, ∑ y, ∑ x, a w y x

/-- Every source pixel spread over the image by the stamp, the stamp being anchored at its pixel
`((kn-1)/2, (km-1)/2)`; light falling outside the image is lost. -/
def spread {n m kn km : Nat} (a : Fin n → Fin m → K) (stamp : Fin kn → Fin km → K)
    (y : Fin n) (x : Fin m) : K :=
  ∑ y' : Fin n, ∑ x' : Fin m, ∑ j : Fin kn, ∑ i : Fin km,
    if (y' : ℤ) + j - ((kn - 1) / 2 : ℕ) = y ∧ (x' : ℤ) + i - ((km - 1) / 2 : ℕ) = x
    then a y' x' * stamp j i else 0

omit [LinearOrder K] [IsStrictOrderedRing K] in
theorem convSame2_eq_spread {n m kn km : Nat} (a : Fin n → Fin m → K) (stamp : Fin kn → Fin km → K)
    (y : Fin n) (x : Fin m) : convSame2 a stamp y x = spread a stamp y x := by
  rw [convSame2_source]
  unfold spread
  refine Finset.sum_congr rfl fun y' _ => Finset.sum_congr rfl fun x' _ => ?_
  rw [ext_eq_sum, Finset.mul_sum]
  refine Finset.sum_congr rfl fun j _ => ?_
  by_cases h : (j : ℤ) = (y : ℤ) - y' + ((kn - 1) / 2 : ℕ)
  · rw [if_pos h, ext_eq_sum, Finset.mul_sum]
    refine Finset.sum_congr rfl fun i _ => ?_
    by_cases h' : (i : ℤ) = (x : ℤ) - x' + ((km - 1) / 2 : ℕ)
    · rw [if_pos h', if_pos (by omega)]
    · rw [if_neg h', if_neg (by omega), mul_zero]
  · rw [if_neg h, mul_zero]
    symm
    exact Finset.sum_eq_zero fun i _ => if_neg (by omega)

/-- C32: without PSF (non-positive FWHM) nothing changes. -/
theorem C32_no_psf {nW n m kn km : Nat} (cube : Fin nW → Fin n → Fin m → K) (fwhm : K)
    (stamp : Fin kn → Fin km → K) (h : fwhm ≤ 0) (w : Fin nW) (y : Fin n) (x : Fin m) :
    psfConvolve cube fwhm stamp w y x = .fin (cube w y x) := by
  unfold psfConvolve; rw [if_neg (not_lt.2 h)]

/-- C32: otherwise every wavelength slice is spread by the stamp, separately, and multiplied by
one factor common to all pixels and wavelengths, such that the total is conserved. -/
theorem C32_conserves {nW n m kn km : Nat} (cube : Fin nW → Fin n → Fin m → K) (fwhm : K)
    (stamp : Fin kn → Fin km → K) (h : 0 < fwhm)
    (hne : cubeTotal (fun w => spread (cube w) stamp) ≠ 0) :
    ∃ (out : Fin nW → Fin n → Fin m → K) (factor : K),
      (∀ w y x, psfConvolve cube fwhm stamp w y x = .fin (out w y x)) ∧
      (∀ w y x, out w y x = factor * spread (cube w) stamp y x) ∧
      cubeTotal out = cubeTotal cube := by
  have hc : (fun w => convSame2 (cube w) stamp) = fun w => spread (cube w) stamp := by
    funext w y x; exact convSame2_eq_spread _ _ _ _
  refine ⟨fun w y x => cubeTotal cube / cubeTotal (fun w => spread (cube w) stamp) *
      spread (cube w) stamp y x, _, ?_, fun _ _ _ => rfl, ?_⟩
  · intro w y x
    unfold psfConvolve
    rw [if_pos h]
    simp only [convSame2_eq_spread]
    have h1 : (∑ w, ∑ y, ∑ x, spread (cube w) stamp y x) ≠ 0 := hne
    rw [Fl.fin_div_ne _ _ h1, Fl.fin_mul, mul_comm]
    rfl
  · have e : cubeTotal (fun w y x => cubeTotal cube / cubeTotal (fun w => spread (cube w) stamp) *
        spread (cube w) stamp y x) = cubeTotal cube / cubeTotal (fun w => spread (cube w) stamp) *
        cubeTotal (fun w => spread (cube w) stamp) := by
      generalize cubeTotal cube / cubeTotal (fun w => spread (cube w) stamp) = f
      simp only [cubeTotal, ← Finset.mul_sum]
    rw [e, div_mul_cancel₀ _ hne]

/-- C32: the amplitude of the stamp does not matter. -/
theorem C32_amplitude {nW n m kn km : Nat} (cube : Fin nW → Fin n → Fin m → K) (fwhm c : K)
    (stamp : Fin kn → Fin km → K) (hc : c ≠ 0)
    (hne : cubeTotal (fun w => spread (cube w) stamp) ≠ 0) :
    psfConvolve cube fwhm (fun j i => c * stamp j i) = psfConvolve cube fwhm stamp := by
  unfold psfConvolve
  split
  · funext w y x
    simp only [convSame2_stamp_mul, ← Finset.mul_sum]
    simp only [convSame2_eq_spread]
    have h1 : (∑ w, ∑ y, ∑ x, spread (cube w) stamp y x) ≠ 0 := hne
    rw [Fl.fin_div_ne _ _ h1, Fl.fin_div_ne _ _ (mul_ne_zero hc h1), Fl.fin_mul, Fl.fin_mul]
    congr 1
    field_simp
  · rfl

/-- C32: a non-negative cube with some flux and a non-negative stamp with positive central value
satisfy the condition of `C32_conserves`, and the result is non-negative. -/
theorem C32_nonneg {nW n m kn km : Nat} (cube : Fin nW → Fin n → Fin m → K) (fwhm : K)
    (stamp : Fin kn → Fin km → K) (h : 0 < fwhm) (ha : ∀ w y x, 0 ≤ cube w y x)
    (hk : ∀ j i, 0 ≤ stamp j i) (hkn : 0 < kn) (hkm : 0 < km)
    (hcen : 0 < stamp ⟨(kn - 1) / 2, by omega⟩ ⟨(km - 1) / 2, by omega⟩)
    (hpos : 0 < cubeTotal cube) :
    cubeTotal (fun w => spread (cube w) stamp) ≠ 0 ∧
    ∀ w y x, ∃ v, psfConvolve cube fwhm stamp w y x = .fin v ∧ 0 ≤ v := by
  have hge : ∀ w y x, cube w y x * stamp ⟨(kn - 1) / 2, by omega⟩ ⟨(km - 1) / 2, by omega⟩ ≤
      spread (cube w) stamp y x := fun w y x => by
    rw [← convSame2_eq_spread]; exact convSame2_ge _ _ (ha w) hk hkn hkm y x
  have htot : 0 < cubeTotal (fun w => spread (cube w) stamp) := by
    have h1 : cubeTotal cube * stamp ⟨(kn - 1) / 2, by omega⟩ ⟨(km - 1) / 2, by omega⟩ ≤
        cubeTotal (fun w => spread (cube w) stamp) := by
      simp only [cubeTotal, Finset.sum_mul]
      exact Finset.sum_le_sum fun w _ => Finset.sum_le_sum fun y _ => Finset.sum_le_sum fun x _ =>
        hge w y x
    exact (mul_pos hpos hcen).trans_le h1
  refine ⟨htot.ne', fun w y x => ?_⟩
  unfold psfConvolve
  rw [if_pos h]
  simp only [convSame2_eq_spread]
  have h1 : (∑ w, ∑ y, ∑ x, spread (cube w) stamp y x) ≠ 0 := htot.ne'
  rw [Fl.fin_div_ne _ _ h1, Fl.fin_mul]
  refine ⟨_, rfl, mul_nonneg ?_ (div_nonneg hpos.le htot.le)⟩
  exact (mul_nonneg (ha w y x) hcen.le).trans (hge w y x)

/-- a 3×3 stamp on a 1×2×3 cube -/
example : (List.finRange 2).map (fun y => (List.finRange 3).map fun x =>
    psfConvolve (K := ℚ) (nW := 1) (n := 2) (m := 3) (kn := 3) (km := 3)
      (fun _ y x => if y = 0 ∧ x = 1 then 6 else 0) 1 (fun j i => if j = 1 then (if i = 1 then 2 else 1)
        else if i = 1 then 1 else 0) 0 y x) =
    [[.fin (6 / 5), .fin (12 / 5), .fin (6 / 5)], [.fin 0, .fin (6 / 5), .fin 0]] := by
  decide +kernel

/-! ## C33 -/

/-- C33: when the target shape divides the shape, every output pixel is the sum of the input
pixels whose indices divided by the factors give the output indices, so every input pixel is
counted in exactly one output pixel and the total is conserved. -/
theorem C33_blocks (p q f0 f1 : Nat) (hp : 0 < p) (hq : 0 < q) (hf0 : 0 < f0) (hf1 : 0 < f1)
    (a : Fin (p * f0) → Fin (q * f1) → K) :
    ∃ out, rebin a p q = .ok out ∧
      (∀ i j, out i j = ∑ u : Fin (p * f0), ∑ v : Fin (q * f1),
        if u.val / f0 = i.val ∧ v.val / f1 = j.val then a u v else 0) ∧
      (∀ (u : Fin (p * f0)) (v : Fin (q * f1)),
        ∃! ij : Fin p × Fin q, u.val / f0 = ij.1.val ∧ v.val / f1 = ij.2.val) ∧
      ∑ i, ∑ j, out i j = ∑ u, ∑ v, a u v := by
  have h0 : p * f0 / p = f0 := Nat.mul_div_cancel_left _ hp
  have h1 : q * f1 / q = f1 := Nat.mul_div_cancel_left _ hq
  have hblock : ∀ i j, (∑ u : Fin (p * f0), ∑ v : Fin (q * f1),
      if u.val / f0 = i.val ∧ v.val / f1 = j.val then a u v else 0) =
      ∑ s : Fin f0, ∑ t : Fin f1, a (finProdFinEquiv (i, s)) (finProdFinEquiv (j, t)) := by
    intro i j
    have e : ∀ u : Fin (p * f0), (∑ v : Fin (q * f1),
        if u.val / f0 = i.val ∧ v.val / f1 = j.val then a u v else 0) =
        if u.val / f0 = i.val then ∑ v : Fin (q * f1), if v.val / f1 = j.val then a u v else 0 else 0 := by
      intro u
      by_cases h : u.val / f0 = i.val
      · simp only [h, true_and, if_true]
      · simp only [h, false_and, if_false, Finset.sum_const_zero]
    simp only [e]
    rw [sum_block]
    refine Finset.sum_congr rfl fun s _ => ?_
    exact sum_block q f1 (fun v => a (finProdFinEquiv (i, s)) v) j
  have hout : rebin a p q = .ok fun i j => ∑ u : Fin (p * f0), ∑ v : Fin (q * f1),
      if u.val / f0 = i.val ∧ v.val / f1 = j.val then a u v else 0 := by
    unfold rebin
    rw [if_neg (by omega)]
    simp only
    rw [if_pos (by rw [h0, h1])]
    congr 1
    funext i j
    rw [hblock]
    have key : ∀ (g0 g1 : Nat), g0 = f0 → g1 = f1 →
        (∑ s : Fin g0, ∑ t : Fin g1,
          flatAt a (((i.val * g0 + s.val) * q + j.val) * g1 + t.val)) =
        ∑ s : Fin f0, ∑ t : Fin f1, a (finProdFinEquiv (i, s)) (finProdFinEquiv (j, t)) := by
      intro g0 g1 e0 e1
      subst e0; subst e1
      refine Finset.sum_congr rfl fun s _ => Finset.sum_congr rfl fun t _ => ?_
      apply flatAt_eq
      simp only [finProdFinEquiv_apply_val]
      ring
    exact key _ _ h0 h1
  refine ⟨_, hout, fun _ _ => rfl, ?_, ?_⟩
  · intro u v
    have hu : u.val / f0 < p := Nat.div_lt_of_lt_mul (u.isLt.trans_eq (Nat.mul_comm _ _))
    have hv : v.val / f1 < q := Nat.div_lt_of_lt_mul (v.isLt.trans_eq (Nat.mul_comm _ _))
    refine ⟨(⟨_, hu⟩, ⟨_, hv⟩), ⟨rfl, rfl⟩, ?_⟩
    rintro ⟨i, j⟩ ⟨h1, h2⟩
    exact Prod.ext (Fin.ext h1.symm) (Fin.ext h2.symm)
  · simp only [hblock]
    rw [← finProdFinEquiv.sum_comp, Fintype.sum_prod_type]
    refine Finset.sum_congr rfl fun i _ => ?_
    rw [Finset.sum_comm]
    refine Finset.sum_congr rfl fun s _ => ?_
    rw [← finProdFinEquiv.sum_comp, Fintype.sum_prod_type]

/-- C33: rebinning to the same shape is the identity. -/
theorem C33_identity {n m : Nat} (hn : 0 < n) (hm : 0 < m) (a : Fin n → Fin m → K) :
    rebin a n m = .ok a := by
  have h0 : n / n = 1 := Nat.div_self hn
  have h1 : m / m = 1 := Nat.div_self hm
  unfold rebin
  rw [if_neg (by omega)]
  simp only
  rw [if_pos (by rw [h0, h1]; simp)]
  congr 1
  funext i j
  have key : ∀ (g0 g1 : Nat), g0 = 1 → g1 = 1 →
      (∑ s : Fin g0, ∑ t : Fin g1,
        flatAt a (((i.val * g0 + s.val) * m + j.val) * g1 + t.val)) = a i j := by
    intro g0 g1 e0 e1
    subst e0; subst e1
    simp only [Fin.sum_univ_one, Fin.val_zero, Nat.mul_one, Nat.add_zero]
    apply flatAt_eq
    ring
  exact key _ _ h0 h1

omit [LinearOrder K] [IsStrictOrderedRing K] in
/-- C33: for a non-empty array the rebinning succeeds exactly when both target sizes divide. -/
theorem C33_error {n m : Nat} (hn : 0 < n) (hm : 0 < m) (a : Fin n → Fin m → K) (p q : Nat) :
    (rebin a p q = .error .valueError ↔ ¬ (p ∣ n ∧ q ∣ m)) ∧
    ((∃ out, rebin a p q = .ok out) ↔ (p ∣ n ∧ q ∣ m)) := by
  unfold rebin
  by_cases h0 : p = 0 ∨ q = 0
  · rw [if_pos h0]
    have : ¬ (p ∣ n ∧ q ∣ m) := by
      rintro ⟨h1, h2⟩
      rcases h0 with rfl | rfl
      · have := Nat.eq_zero_of_zero_dvd h1; omega
      · have := Nat.eq_zero_of_zero_dvd h2; omega
    simp [this]
  · rw [if_neg h0]
    simp only
    have hiff : p * (n / p) * (q * (m / q)) = n * m ↔ p ∣ n ∧ q ∣ m := by
      have l1 := Nat.mul_div_le n p
      have l2 := Nat.mul_div_le m q
      constructor
      · intro h
        have e1 : p * (n / p) = n := by
          by_contra hne
          have hlt : p * (n / p) < n := by omega
          have : p * (n / p) * (q * (m / q)) < n * m :=
            calc p * (n / p) * (q * (m / q)) ≤ p * (n / p) * m := Nat.mul_le_mul_left _ l2
              _ < n * m := Nat.mul_lt_mul_of_pos_right hlt hm
          omega
        have e2 : q * (m / q) = m := by
          rw [e1] at h
          exact Nat.eq_of_mul_eq_mul_left hn h
        exact ⟨⟨_, e1.symm⟩, ⟨_, e2.symm⟩⟩
      · rintro ⟨h1, h2⟩
        rw [Nat.mul_div_cancel' h1, Nat.mul_div_cancel' h2]
    by_cases hd : p * (n / p) * (q * (m / q)) = n * m
    · rw [if_pos hd]
      simp [hiff.1 hd]
    · rw [if_neg hd]
      have hnd : ¬ (p ∣ n ∧ q ∣ m) := fun h => hd (hiff.2 h)
      exact ⟨⟨fun _ => hnd, fun _ => rfl⟩, ⟨fun ⟨_, h⟩ => (by cases h), fun h => absurd h hnd⟩⟩

example : (match rebin (K := ℚ) (n := 4) (m := 6) (fun i j => 10 * i + j) 2 3 with
    | .ok o => (List.finRange 2).map fun i => (List.finRange 3).map (o i)
    | .error _ => []) = [[22, 30, 38], [102, 110, 118]] ∧
  (rebin (K := ℚ) (n := 4) (m := 6) (fun _ _ => 1) 3 3).isOk = false := by decide +kernel

end

/-! ## C34 -/

open Real

/-- the kernel used by the instrumental broadening -/
noncomputable def instKernel {nW : Nat} (wave : Fin nW → ℝ) (d : ℝ) (i : Fin (oddLen nW)) : ℝ :=
  finiteOr0 (gausFromFwhm (wave (Fin.castLE (oddLen_le nW) i)) (d * (2 * sqrt (2 * log 2)))
    ((∑ i, wave (Fin.castLE (oddLen_le nW) i)) / (oddLen nW : ℝ)))

/-- one spatial row convolved in wavelength -/
noncomputable def rowConv {nW nY : Nat} (model : Fin nW → Fin nY → ℝ) (wave : Fin nW → ℝ) (d : ℝ)
    (w : Fin nW) (y : Fin nY) : ℝ := convSame (fun w' => model w' y) (instKernel wave d) w

theorem convSame2_col {n m kn : Nat} (a : Fin n → Fin m → ℝ) (k : Fin kn → ℝ) (y : Fin n) (x : Fin m) :
    convSame2 a (fun j (_ : Fin 1) => k j) y x = convSame (fun y' => a y' x) k y := by
  unfold convSame2 convSame
  refine Finset.sum_congr rfl fun j _ => ?_
  rw [Fin.sum_univ_one]
  congr 2
  funext y'
  have : (x : ℤ) + ((1 - 1) / 2 : ℕ) - (0 : Fin 1) = (x : ℤ) := by simp
  rw [this, ext_val]

/-- C34: broadening conserves the total of the image; each spatial row is convolved by itself and
all rows are multiplied by one common factor. -/
theorem C34_conserves {nW nY : Nat} (model : Fin nW → Fin nY → ℝ) (wave : Fin nW → ℝ) (d : ℝ)
    (hne : ∑ w, ∑ y, rowConv model wave d w y ≠ 0) :
    ∃ (out : Fin nW → Fin nY → ℝ) (factor : ℝ),
      instConvolComplete model wave (.const d) = .ok (fun w y => .fin (out w y)) ∧
      (∀ w y, out w y = factor * rowConv model wave d w y) ∧
      ∑ w, ∑ y, out w y = ∑ w, ∑ y, model w y := by
  have hc : ∀ w y, convSame2 model (fun i (_ : Fin 1) => instKernel wave d i) w y =
      rowConv model wave d w y := fun w y => convSame2_col _ _ _ _
  refine ⟨fun w y => (∑ w, ∑ y, model w y) / (∑ w, ∑ y, rowConv model wave d w y) *
    rowConv model wave d w y, _, ?_, fun _ _ => rfl, ?_⟩
  · unfold instConvolComplete convolInstConst
    simp only
    congr 1
    funext w y
    have := hc
    unfold instKernel at this
    simp only [this]
    rw [Fl.fin_div_ne _ _ hne, Fl.fin_mul, mul_comm]
  · simp only [← Finset.mul_sum]
    rw [div_mul_cancel₀ _ hne]

/-- C34: on a uniform grid the kernel is the Gaussian of the given dispersion, centred on the pixel
(no wavelength shift) and cut off at half the (odd) kernel length. -/
theorem C34_uniform {nW nY : Nat} (model : Fin nW → Fin nY → ℝ) (w0 step d : ℝ)
    (wave : Fin nW → ℝ) (hwave : ∀ i, wave i = w0 + i.val * step) (hd : 0 < d) (hW : 0 < nW)
    (w : Fin nW) (y : Fin nY) :
    rowConv model wave d w y = ∑ w' : Fin nW,
      if 2 * |(w : ℤ) - w'| < oddLen nW then
        model w' y * exp (-(((w : ℝ) - w') * step) ^ 2 / (2 * d ^ 2)) else 0 := by
  have hN : oddLen nW % 2 = 1 := by unfold oddLen; split <;> omega
  have hN0 : 0 < oddLen nW := by omega
  have hNr : (0 : ℝ) < oddLen nW := by exact_mod_cast hN0
  -- the mean wavelength of the kernel grid
  have hmean : (∑ i : Fin (oddLen nW), wave (Fin.castLE (oddLen_le nW) i)) / (oddLen nW : ℝ) =
      w0 + ((oddLen nW - 1) / 2 : ℕ) * step := by
    simp only [hwave, Fin.val_castLE]
    have hs : ∑ i : Fin (oddLen nW), (w0 + (i.val : ℝ) * step) =
        oddLen nW * w0 + (∑ i : Fin (oddLen nW), (i.val : ℝ)) * step := by
      rw [Finset.sum_add_distrib, ← Finset.sum_mul]; simp
    have hg : (∑ i : Fin (oddLen nW), (i.val : ℝ)) = oddLen nW * ((oddLen nW - 1) / 2 : ℕ) := by
      rw [Fin.sum_univ_eq_sum_range (fun i => (i : ℝ)), ← Nat.cast_sum, Finset.sum_range_id]
      have : oddLen nW * (oddLen nW - 1) / 2 = oddLen nW * ((oddLen nW - 1) / 2) := by
        rw [Nat.mul_div_assoc]; omega
      rw [this]; push_cast; ring
    rw [hs, hg]; field_simp
  have hk : ∀ i : Fin (oddLen nW), instKernel wave d i =
      exp (-(((i : ℝ) - ((oddLen nW - 1) / 2 : ℕ)) * step) ^ 2 / (2 * d ^ 2)) := by
    intro i
    unfold instKernel gausFromFwhm
    simp only
    have hl : 0 < log 2 := Real.log_pos (by norm_num)
    have hsig : d * (2 * sqrt (2 * log 2)) / (2 * sqrt (2 * log 2)) = d := by
      have : 0 < sqrt (2 * log 2) := by positivity
      field_simp
    rw [hmean, hsig, Fl.fin_div_ne _ _ (by positivity)]
    simp only [Fl.exp, finiteOr0, hwave, Fin.val_castLE]
    congr 1
    ring
  unfold rowConv convSame
  rw [conv_swap]
  refine Finset.sum_congr rfl fun w' _ => ?_
  have habs : 2 * |(w : ℤ) - w'| < oddLen nW ↔
      0 ≤ (w : ℤ) + ((oddLen nW - 1) / 2 : ℕ) - w' ∧
        (w : ℤ) + ((oddLen nW - 1) / 2 : ℕ) - w' < oddLen nW := by
    rcases abs_cases ((w : ℤ) - w') with ⟨h, _⟩ | ⟨h, _⟩ <;> rw [h] <;> omega
  unfold ext
  by_cases h : 2 * |(w : ℤ) - w'| < oddLen nW
  · have h' := habs.1 h
    rw [if_pos h, dif_pos h', hk]
    congr 3
    simp only
    have : (((((w : ℤ) + ((oddLen nW - 1) / 2 : ℕ) - w').toNat : ℕ) : ℤ) : ℝ) =
        (w : ℝ) + ((oddLen nW - 1) / 2 : ℕ) - w' := by
      rw [Int.toNat_of_nonneg h'.1, Int.cast_sub, Int.cast_add, Int.cast_natCast, Int.cast_natCast,
        Int.cast_natCast]
    rw [Int.cast_natCast] at this
    rw [this]
    ring
  · rw [if_neg h, dif_neg (fun h' => h (habs.2 h')), mul_zero]

/-- C34: a non-negative image with some flux on a uniform grid always satisfies the condition, and
stays non-negative. -/
theorem C34_nonneg {nW nY : Nat} (model : Fin nW → Fin nY → ℝ) (w0 step d : ℝ)
    (wave : Fin nW → ℝ) (hwave : ∀ i, wave i = w0 + i.val * step) (hd : 0 < d)
    (hm : ∀ w y, 0 ≤ model w y) (hpos : 0 < ∑ w, ∑ y, model w y) :
    (∑ w, ∑ y, rowConv model wave d w y ≠ 0) ∧ ∀ w y, model w y ≤ rowConv model wave d w y := by
  have hge : ∀ w y, model w y ≤ rowConv model wave d w y := by
    intro w y
    have hW : 0 < nW := by have := w.isLt; omega
    rw [C34_uniform model w0 step d wave hwave hd hW]
    have hodd : 0 < oddLen nW := by unfold oddLen; split <;> omega
    calc model w y = if 2 * |(w : ℤ) - w| < oddLen nW then
          model w y * exp (-(((w : ℝ) - w) * step) ^ 2 / (2 * d ^ 2)) else 0 := by
          rw [if_pos (by simp; exact_mod_cast hodd)]; simp
      _ ≤ _ := Finset.single_le_sum (f := fun w' : Fin nW => if 2 * |(w : ℤ) - w'| < oddLen nW then
          model w' y * exp (-(((w : ℝ) - w') * step) ^ 2 / (2 * d ^ 2)) else 0)
          (fun w' _ => by
            split
            · exact mul_nonneg (hm _ _) (exp_pos _).le
            · exact le_rfl) (Finset.mem_univ w)
  refine ⟨?_, hge⟩
  have : ∑ w, ∑ y, model w y ≤ ∑ w, ∑ y, rowConv model wave d w y :=
    Finset.sum_le_sum fun w _ => Finset.sum_le_sum fun y _ => hge w y
  linarith

/-- C34: a resolution that varies along the slit is refused. -/
theorem C34_array {nW nY : Nat} (model : Fin nW → Fin nY → ℝ) (wave : Fin nW → ℝ) (ds : List ℝ) :
    instConvolComplete model wave (.array ds) = .error .valueError := rfl

example : ∃ (out : Fin 4 → Fin 2 → ℝ) (factor : ℝ),
    instConvolComplete (fun _ y => if y = 0 then 1 else 0) (fun i => 5 + i.val * 2) (.const 3) =
      .ok (fun w y => .fin (out w y)) ∧
    (∀ w y, out w y = factor * rowConv (fun _ y => if y = 0 then 1 else 0) (fun i => 5 + i.val * 2) 3 w y) ∧
    ∑ w, ∑ y, out w y = ∑ _w : Fin 4, ∑ y : Fin 2, if y = 0 then (1 : ℝ) else 0 := by
  apply C34_conserves
  refine (C34_nonneg _ 5 2 3 _ (fun _ => rfl) (by norm_num) ?_ ?_).1
  · intro w y; split <;> norm_num
  · simp

end Misfit
