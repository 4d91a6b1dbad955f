import Verif.Lemmas.ImageForm

/-! Helper lemmas for `Props/Mirror.lean`: the stages of one evaluation commute with reflections -/

namespace Misfit

/-- the index counted from the other end, if `b` -/
def flipIf (b : Bool) {n : Nat} (i : Fin n) : Fin n := if b then i.rev else i

theorem flipIf_true {n : Nat} (i : Fin n) : flipIf true i = i.rev := rfl
theorem flipIf_false {n : Nat} (i : Fin n) : flipIf false i = i := rfl

theorem flipIf_flipIf (b : Bool) {n : Nat} (i : Fin n) : flipIf b (flipIf b i) = i := by
  cases b <;> simp [flipIf]

theorem sum_flipIf {M : Type*} [AddCommMonoid M] (b : Bool) {n : Nat} (f : Fin n → M) :
    ∑ i, f (flipIf b i) = ∑ i, f i := by
  cases b
  · rfl
  · exact Equiv.sum_comp Fin.revPerm f

theorem sum_rev {M : Type*} [AddCommMonoid M] {n : Nat} (f : Fin n → M) : ∑ i : Fin n, f i.rev = ∑ i, f i :=
  Equiv.sum_comp Fin.revPerm f

theorem ext_rev {K : Type*} [Field K] {n : Nat} (a : Fin n → K) (p : ℤ) :
    ext (fun i => a i.rev) p = ext a ((n : ℤ) - 1 - p) := by
  unfold ext
  by_cases h : 0 ≤ p ∧ p < n
  · rw [dif_pos h, dif_pos (by omega)]
    show a _ = a _
    congr 1
    apply Fin.ext
    simp only [Fin.val_rev]
    omega
  · rw [dif_neg h, dif_neg (by omega)]

/-- reflecting an image in both directions commutes with an odd, symmetric kernel -/
theorem convSame2_rev {K : Type*} [Field K] {n m kn km : Nat} (a : Fin n → Fin m → K)
    (k : Fin kn → Fin km → K) (hk : ∀ j i, k j.rev i.rev = k j i) (hn : kn % 2 = 1) (hm : km % 2 = 1)
    (y : Fin n) (x : Fin m) :
    convSame2 (fun y x => a y.rev x.rev) k y x = convSame2 a k y.rev x.rev := by
  unfold convSame2
  rw [← sum_rev]
  refine Finset.sum_congr rfl fun j _ => ?_
  rw [← sum_rev]
  refine Finset.sum_congr rfl fun i _ => ?_
  rw [hk]
  congr 1
  have e : ∀ p q : ℤ, ext (fun y' : Fin n => ext (fun x' : Fin m => a y'.rev x'.rev) q) p =
      ext (fun y' => ext (a y') ((m : ℤ) - 1 - q)) ((n : ℤ) - 1 - p) := by
    intro p q
    rw [← ext_rev (fun y' => ext (a y') ((m : ℤ) - 1 - q)) p]
    congr 1
    funext y'
    exact ext_rev (a y'.rev) q
  rw [e]
  have hj := j.isLt
  have hi := i.isLt
  have hy := y.isLt
  have hx := x.isLt
  have e1 : (n : ℤ) - 1 - ((y : ℤ) + ((kn - 1) / 2 : ℕ) - (j.rev : Fin kn)) =
      (y.rev : Fin n) + ((kn - 1) / 2 : ℕ) - (j : ℤ) := by
    simp only [Fin.val_rev]; omega
  have e2 : (m : ℤ) - 1 - ((x : ℤ) + ((km - 1) / 2 : ℕ) - (i.rev : Fin km)) =
      (x.rev : Fin m) + ((km - 1) / 2 : ℕ) - (i : ℤ) := by
    simp only [Fin.val_rev]; omega
  rw [e1, e2]

theorem convSame2_flip {K : Type*} [Field K] {n m kn km : Nat} (b : Bool) (a : Fin n → Fin m → K)
    (k : Fin kn → Fin km → K)
    (hk : b = true → (∀ j i, k j.rev i.rev = k j i) ∧ kn % 2 = 1 ∧ km % 2 = 1) (y : Fin n) (x : Fin m) :
    convSame2 (fun y x => a (flipIf b y) (flipIf b x)) k y x = convSame2 a k (flipIf b y) (flipIf b x) := by
  cases b with
  | false => rfl
  | true =>
    obtain ⟨h1, h2, h3⟩ := hk rfl
    exact convSame2_rev a k h1 h2 h3 y x

theorem psfConvolve_flip {nW n m kn km : Nat} (b : Bool) (cube : Fin nW → Fin n → Fin m → ℝ) (fwhm : ℝ)
    (stamp : Fin kn → Fin km → ℝ)
    (hk : b = true → 0 < fwhm → (∀ j i, stamp j.rev i.rev = stamp j i) ∧ kn % 2 = 1 ∧ km % 2 = 1) :
    psfConvolve (fun w y x => cube w.rev (flipIf b y) (flipIf b x)) fwhm stamp =
      fun w y x => psfConvolve cube fwhm stamp w.rev (flipIf b y) (flipIf b x) := by
  funext w y x
  unfold psfConvolve
  by_cases h : 0 < fwhm
  · simp only [if_pos h]
    have hc : ∀ (w : Fin nW) y x, convSame2 (fun y x => cube w (flipIf b y) (flipIf b x)) stamp y x =
        convSame2 (cube w) stamp (flipIf b y) (flipIf b x) := fun w y x =>
      convSame2_flip b (cube w) stamp (fun hb => hk hb h) y x
    simp only [hc]
    rw [sum_rev fun w => ∑ y, ∑ x, cube w (flipIf b y) (flipIf b x),
      sum_rev fun w => ∑ y, ∑ x, convSame2 (cube w) stamp (flipIf b y) (flipIf b x)]
    have e : ∀ F : Fin nW → Fin n → Fin m → ℝ, (∑ w, ∑ y, ∑ x, F w (flipIf b y) (flipIf b x)) =
        ∑ w, ∑ y, ∑ x, F w y x := by
      intro F
      refine Finset.sum_congr rfl fun w _ => ?_
      rw [← sum_flipIf b fun y => ∑ x, F w y x]
      refine Finset.sum_congr rfl fun y _ => ?_
      exact sum_flipIf b fun x => F w (flipIf b y) x
    rw [e cube, e fun w => convSame2 (cube w) stamp]
  · simp only [if_neg h]

theorem allFinite_flip {n m p : Nat} (b : Bool) (a : Fin n → Fin m → Fin p → Fl ℝ) :
    allFinite (fun i j k => a i.rev (flipIf b j) (flipIf b k)) =
      (allFinite a).map fun v i j k => v i.rev (flipIf b j) (flipIf b k) := by
  unfold allFinite
  have hiff : (∀ i j k, (a (Fin.rev i) (flipIf b j) (flipIf b k)).isFinite = true) ↔
      ∀ i j k, (a i j k).isFinite = true := by
    constructor
    · intro h i j k
      have := h i.rev (flipIf b j) (flipIf b k)
      rwa [Fin.rev_rev, flipIf_flipIf, flipIf_flipIf] at this
    · intro h i j k
      exact h _ _ _
  by_cases h : ∀ i j k, (a i j k).isFinite = true
  · rw [if_pos h, if_pos (hiff.2 h)]; rfl
  · rw [if_neg h, if_neg (fun h' => h (hiff.1 h'))]; rfl

theorem allFinite2_flip {n m : Nat} (b : Bool) (a : Fin n → Fin m → Fl ℝ) :
    allFinite2 (fun i j => a i.rev (flipIf b j)) = (allFinite2 a).map fun v i j => v i.rev (flipIf b j) := by
  unfold allFinite2
  have hiff : (∀ i j, (a (Fin.rev i) (flipIf b j)).isFinite = true) ↔ ∀ i j, (a i j).isFinite = true := by
    constructor
    · intro h i j
      have := h i.rev (flipIf b j)
      rwa [Fin.rev_rev, flipIf_flipIf] at this
    · intro h i j
      exact h _ _
  by_cases h : ∀ i j, (a i j).isFinite = true
  · rw [if_pos h, if_pos (hiff.2 h)]; rfl
  · rw [if_neg h, if_neg (fun h' => h (hiff.1 h'))]; rfl

theorem trimSum_flip {nW nY nX : Nat} (b : Bool) (cube : Fin nW → Fin nY → Fin nX → ℝ) (g : Grid ℝ)
    (hY : nY = g.nPixY + 2 * g.padY) (hX : nX = g.nPixX + 2 * g.padX) :
    trimSum (fun w y x => cube w.rev (flipIf b y) (flipIf b x)) g hY hX =
      fun w y => trimSum cube g hY hX w.rev (flipIf b y) := by
  funext w y
  unfold trimSum
  congr 1
  cases b with
  | false => rfl
  | true =>
    simp only [flipIf_true]
    rw [← sum_rev]
    refine Finset.sum_congr rfl fun a _ => ?_
    have hy := y.isLt
    have ha := a.isLt
    congr 1
    · apply Fin.ext
      simp only [Fin.val_rev]
      omega
    · apply Fin.ext
      simp only [Fin.val_rev]
      omega

theorem flatAt_empty {K : Type*} [Field K] {n m : Nat} (a : Fin n → Fin m → K) (h : n * m = 0) (pos : Nat) :
    flatAt a pos = 0 := by
  unfold flatAt
  rw [dif_neg]
  rintro ⟨h1, h2⟩
  rcases Nat.mul_eq_zero.1 h with h | h
  · rw [h] at h1; exact absurd h1 (Nat.not_lt_zero _)
  · rw [h] at h2; exact absurd h2 (Nat.not_lt_zero _)

/-- the value of a rebinned array as a sum over the block -/
theorem flatAt_block {n m p q f0 f1 : Nat} (a : Fin n → Fin m → ℝ) (hn : n = p * f0) (hm : m = q * f1)
    (i : Fin p) (j : Fin q) (s : Fin f0) (t : Fin f1) (h1 : i.val * f0 + s.val < n)
    (h2 : j.val * f1 + t.val < m) :
    flatAt a (((i.val * f0 + s.val) * q + j.val) * f1 + t.val) =
      a ⟨i.val * f0 + s.val, h1⟩ ⟨j.val * f1 + t.val, h2⟩ := by
  apply flatAt_eq
  simp only
  rw [hm]
  ring

theorem block_lt {p f : Nat} (i : Fin p) (s : Fin f) : i.val * f + s.val < p * f := by
  have := i.isLt
  have := s.isLt
  calc i.val * f + s.val < i.val * f + f := by omega
    _ = (i.val + 1) * f := by ring
    _ ≤ p * f := Nat.mul_le_mul_right _ (by omega)

theorem block_rev {p f : Nat} (i : Fin p) (s : Fin f) :
    i.rev.val * f + s.rev.val + (i.val * f + s.val) + 1 = p * f := by
  have hi := i.isLt
  have hs := s.isLt
  simp only [Fin.val_rev]
  have h1 : (p - (i.val + 1)) * f + (i.val + 1) * f = p * f := by
    rw [← Nat.add_mul]; congr 1; omega
  have h2 : (i.val + 1) * f = i.val * f + f := by ring
  omega

theorem rebin_flip {n m : Nat} (b : Bool) (a : Fin n → Fin m → ℝ) (p q : Nat) :
    rebin (fun i j => a i.rev (flipIf b j)) p q =
      (rebin a p q).map fun v i j => v i.rev (flipIf b j) := by
  unfold rebin
  by_cases h0 : p = 0 ∨ q = 0
  · rw [if_pos h0, if_pos h0]; rfl
  · rw [if_neg h0, if_neg h0]
    simp only
    by_cases h1 : p * (n / p) * (q * (m / q)) = n * m
    · rw [if_pos h1, if_pos h1]
      show Except.ok _ = Except.ok _
      congr 1
      funext i j
      by_cases he : n * m = 0
      · have e1 : ∀ pos, flatAt (fun i j => a (Fin.rev i) (flipIf b j)) pos = 0 := flatAt_empty _ he
        have e2 : ∀ pos, flatAt a pos = 0 := flatAt_empty _ he
        simp only [e1, e2]
      · have hn : n = p * (n / p) := by
          have h2 : p * (n / p) ≤ n := Nat.mul_div_le n p
          have h3 : q * (m / q) ≤ m := Nat.mul_div_le m q
          by_contra hne
          have h4 : p * (n / p) < n := by omega
          have : p * (n / p) * (q * (m / q)) < n * m := by
            have hm : 0 < m := by
              rcases Nat.eq_zero_or_pos m with h | h
              · rw [h] at he; simp at he
              · exact h
            calc p * (n / p) * (q * (m / q)) ≤ p * (n / p) * m := Nat.mul_le_mul_left _ h3
              _ < n * m := Nat.mul_lt_mul_of_pos_right h4 hm
          omega
        have hm : m = q * (m / q) := by
          have hn0 : 0 < n := by
            rcases Nat.eq_zero_or_pos n with h | h
            · rw [h] at he; simp at he
            · exact h
          rw [← hn] at h1
          exact (Nat.eq_of_mul_eq_mul_left hn0 h1).symm
        clear h1
        generalize n / p = f0 at hn
        generalize m / q = f1 at hm
        rw [← sum_rev]
        refine Finset.sum_congr rfl fun s _ => ?_
        have hr := block_rev i s
        have hl := block_lt i s
        have hl' := block_lt i s.rev
        have hl'' := block_lt i.rev s
        have hb := block_rev i s.rev
        rw [Fin.rev_rev] at hb
        cases b with
        | false =>
          simp only [flipIf_false]
          refine Finset.sum_congr rfl fun t _ => ?_
          have ht := block_lt j t
          rw [flatAt_block _ hn hm _ _ _ _ (by omega) (by omega),
            flatAt_block _ hn hm _ _ _ _ (by omega) (by omega)]
          congr 1
          apply Fin.ext
          simp only [Fin.val_rev] at hb ⊢
          omega
        | true =>
          simp only [flipIf_true]
          rw [← sum_rev]
          refine Finset.sum_congr rfl fun t _ => ?_
          have ht := block_lt j t
          have ht' := block_lt j t.rev
          have ht'' := block_lt j.rev t
          have hc := block_rev j t.rev
          rw [Fin.rev_rev] at hc
          rw [flatAt_block _ hn hm _ _ _ _ (by omega) (by omega),
            flatAt_block _ hn hm _ _ _ _ (by omega) (by omega)]
          congr 1
          · apply Fin.ext
            simp only [Fin.val_rev] at hb ⊢
            omega
          · apply Fin.ext
            simp only [Fin.val_rev] at hc ⊢
            omega
    · rw [if_neg h1, if_neg h1]; rfl

/-- an image seen in a mirror: the first index reversed, the second too if `b` -/
def Arr2.flipW (b : Bool) (a : Arr2) : Arr2 := ⟨a.n, a.m, fun i j => a.val i.rev (flipIf b j)⟩

theorem rebinArr_flip (b : Bool) (a : Arr2) (p q : Nat) :
    rebinArr (a.flipW b) p q = (rebinArr a p q).map (Arr2.flipW b) := by
  unfold rebinArr Arr2.flipW
  simp only
  rw [rebin_flip]
  cases rebin a.val p q <;> rfl

theorem rowConv_flip {nW nY : Nat} (b : Bool) (model : Fin nW → Fin nY → ℝ) (wave : Fin nW → ℝ)
    (w0 step d : ℝ) (hwave : ∀ i, wave i = w0 + i.val * step) (hd : 0 < d) (w : Fin nW) (y : Fin nY) :
    rowConv (fun i j => model i.rev (flipIf b j)) wave d w y = rowConv model wave d w.rev (flipIf b y) := by
  have hW : 0 < nW := by have := w.isLt; omega
  rw [C34_uniform _ w0 step d wave hwave hd hW, C34_uniform _ w0 step d wave hwave hd hW, ← sum_rev]
  refine Finset.sum_congr rfl fun w' _ => ?_
  have h1 := w.isLt
  have h2 := w'.isLt
  rw [Fin.rev_rev]
  have e1 : (w : ℤ) - (w'.rev : Fin nW) = -(((w.rev : Fin nW) : ℤ) - (w' : Fin nW)) := by
    simp only [Fin.val_rev]; omega
  have e2 : (w : ℝ) - (w'.rev : Fin nW) = -(((w.rev : Fin nW) : ℝ) - (w' : Fin nW)) := by
    have := congrArg (Int.cast : ℤ → ℝ) e1
    push_cast at this
    exact this
  rw [e1, e2, abs_neg, neg_mul, neg_sq]

theorem instStage_flip {nW m : Nat} (b : Bool) (img : Fin nW → Fin m → ℝ) (wave : Fin nW → ℝ) (disp : ℝ)
    (hwave : 0 < disp → ∃ w0 step, ∀ i, wave i = w0 + i.val * step) :
    instStage (fun i j => img i.rev (flipIf b j)) wave disp =
      (instStage img wave disp).map (Option.map fun v i j => v i.rev (flipIf b j)) := by
  unfold instStage
  by_cases hd : 0 < disp
  · obtain ⟨w0, step, hw⟩ := hwave hd
    rw [if_pos hd, if_pos hd]
    unfold instConvolComplete
    simp only
    have hc : ∀ (mo : Fin nW → Fin m → ℝ) w y, convSame2 mo
        (fun i (_ : Fin 1) => finiteOr0 (gausFromFwhm (wave (Fin.castLE (oddLen_le nW) i))
          (disp * (2 * Real.sqrt (2 * Real.log 2)))
          ((∑ i : Fin (oddLen nW), wave (Fin.castLE (oddLen_le nW) i)) / (oddLen nW : ℝ)))) w y =
        rowConv mo wave disp w y := fun mo w y => convSame2_col _ _ _ _
    have key : convolInstConst (fun i j => img i.rev (flipIf b j))
        (fun i => wave (Fin.castLE (oddLen_le nW) i))
        ((∑ i : Fin (oddLen nW), wave (Fin.castLE (oddLen_le nW) i)) / (oddLen nW : ℝ))
        (disp * (2 * Real.sqrt (2 * Real.log 2))) = fun i j => convolInstConst img
        (fun i => wave (Fin.castLE (oddLen_le nW) i))
        ((∑ i : Fin (oddLen nW), wave (Fin.castLE (oddLen_le nW) i)) / (oddLen nW : ℝ))
        (disp * (2 * Real.sqrt (2 * Real.log 2))) i.rev (flipIf b j) := by
      funext w y
      unfold convolInstConst
      simp only [hc]
      rw [rowConv_flip b img wave w0 step disp hw hd]
      have e : ∀ F : Fin nW → Fin m → ℝ, (∑ w, ∑ y, F (Fin.rev w) (flipIf b y)) = ∑ w, ∑ y, F w y := by
        intro F
        rw [← sum_rev fun w => ∑ y, F w y]
        exact Finset.sum_congr rfl fun w _ => sum_flipIf b fun y => F w.rev y
      rw [e img, ← e fun w y => rowConv img wave disp w y]
      simp only [rowConv_flip b img wave w0 step disp hw hd]
    rw [key, allFinite2_flip]
    rfl
  · rw [if_neg hd, if_neg hd]; rfl

/-- everything after the collapsed cube commutes with the reflection -/
theorem evalTail_flip (b mask reb : Bool) (nWhole : Nat) (psf : PSF) (xs ys : List ℝ) (g : Grid ℝ)
    (disp : ℝ) (wave : List ℝ) (c : Except PyErr (Fin wave.length → Fin g.nY → Fin g.nX → Fl ℝ))
    (hk : b = true → 0 < psf.fwhm → (∀ j i, psf.stamp xs ys j.rev i.rev = psf.stamp xs ys j i) ∧
      ys.length % 2 = 1 ∧ xs.length % 2 = 1)
    (hwave : 0 < disp → ∃ w0 step, ∀ i : Fin wave.length, wave.get i = w0 + i.val * step) :
    evalTail mask reb nWhole psf xs ys g disp wave
        (c.map fun c w y x => c (Fin.rev w) (flipIf b y) (flipIf b x)) =
      (evalTail mask reb nWhole psf xs ys g disp wave c).map (Option.map (Arr2.flipW b)) := by
  cases c with
  | error e => rfl
  | ok cube =>
    show evalTail mask reb nWhole psf xs ys g disp wave
      (.ok fun w y x => cube (Fin.rev w) (flipIf b y) (flipIf b x)) = _
    unfold evalTail
    simp only
    by_cases hm : mask = true
    · rw [if_pos hm, if_pos hm]; rfl
    · rw [if_neg hm, if_neg hm, allFinite_flip]
      cases allFinite cube with
      | none => rfl
      | some cube =>
        simp only [Option.map_some]
        rw [psfConvolve_flip b cube psf.fwhm (psf.stamp xs ys) hk, allFinite_flip]
        cases allFinite (psfConvolve cube psf.fwhm (psf.stamp xs ys)) with
        | none => rfl
        | some conv =>
          simp only [Option.map_some]
          by_cases h : g.nY = g.nPixY + 2 * g.padY ∧ g.nX = g.nPixX + 2 * g.padX
          · rw [dif_pos h, dif_pos h, trimSum_flip]
            have hreb : (if reb = true then rebinArr (⟨wave.length, g.nPixY, fun w y =>
                trimSum conv g h.1 h.2 w.rev (flipIf b y)⟩ : Arr2) wave.length nWhole else
                  .ok ⟨wave.length, g.nPixY, fun w y => trimSum conv g h.1 h.2 w.rev (flipIf b y)⟩) =
                (if reb = true then rebinArr ⟨wave.length, g.nPixY, trimSum conv g h.1 h.2⟩ wave.length nWhole
                  else .ok ⟨wave.length, g.nPixY, trimSum conv g h.1 h.2⟩).map (Arr2.flipW b) := by
              by_cases hr : reb = true
              · rw [if_pos hr, if_pos hr, ← rebinArr_flip]; rfl
              · rw [if_neg hr, if_neg hr]; rfl
            rw [hreb]
            cases (if reb = true then rebinArr ⟨wave.length, g.nPixY, trimSum conv g h.1 h.2⟩ wave.length nWhole
                  else .ok ⟨wave.length, g.nPixY, trimSum conv g h.1 h.2⟩) with
            | error e => rfl
            | ok img2 =>
              simp only [Except.map]
              by_cases hn : img2.n = wave.length
              · have hn' : (img2.flipW b).n = wave.length := hn
                rw [dif_pos hn, dif_pos hn']
                have hi := instStage_flip b img2.val (fun i => wave.get (Fin.cast hn i)) disp
                  (fun hd => by
                    obtain ⟨w0, step, hw⟩ := hwave hd
                    exact ⟨w0, step, fun i => hw (Fin.cast hn i)⟩)
                have hi' : instStage (img2.flipW b).val (fun i => wave.get (Fin.cast hn' i)) disp =
                    (instStage img2.val (fun i => wave.get (Fin.cast hn i)) disp).map
                      (Option.map fun v i j => v i.rev (flipIf b j)) := hi
                rw [hi']
                cases instStage img2.val (fun i => wave.get (Fin.cast hn i)) disp with
                | error e => rfl
                | ok o => cases o <;> rfl
              · have hn' : ¬ (img2.flipW b).n = wave.length := hn
                rw [dif_neg hn, dif_neg hn']
                rfl
          · rw [dif_neg h, dif_neg h]; rfl

end Misfit
