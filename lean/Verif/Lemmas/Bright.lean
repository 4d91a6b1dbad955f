import Verif.Props.ImageForm
import Verif.Props.Mirror
import Verif.Props.Kernel

/-! Helper lemmas for `Props/Seeing.lean`: positivity of the stages of an evaluation, and when the PSF kernel is empty -/

namespace Misfit

/-! ### the coordinates of the kernel -/

theorem sum_range_real (n : ℕ) : ∑ i ∈ Finset.range n, (i : ℝ) = n * ((n : ℝ) - 1) / 2 := by
  induction n with
  | zero => simp
  | succ n ih => rw [Finset.sum_range_succ, ih]; push_cast; ring

/-- the mean of equally spaced numbers is the middle -/
theorem avgList_steps (l : List ℝ) (n : ℕ) (s d : ℝ) (hn : 0 < n)
    (hl : l = (List.range n).map fun i : ℕ => s + (i : ℝ) * d) : avgList l = s + ((n : ℝ) - 1) / 2 * d := by
  have hn' : (n : ℝ) ≠ 0 := by exact_mod_cast hn.ne'
  unfold avgList
  have hsum : l.sum = ∑ i ∈ Finset.range n, (s + (i : ℝ) * d) := by
    rw [hl]; rfl
  have hlen : l.length = n := by rw [hl]; simp
  rw [hsum, hlen, Finset.sum_add_distrib, ← Finset.sum_mul, sum_range_real]
  simp only [Finset.sum_const, Finset.card_range, nsmul_eq_mul]
  field_simp

/-- of equally spaced numbers none lies within `F` of the mean exactly when their number is even and `F` is less
than half the spacing -/
theorem trim_steps_nil (l : List ℝ) (n : ℕ) (s d F : ℝ) (hn : 0 < n) (hF : 0 ≤ F)
    (hl : l = (List.range n).map fun i : ℕ => s + (i : ℝ) * d) :
    trimToFwhm l F = [] ↔ n % 2 = 0 ∧ F < |d| / 2 := by
  have hdist : ∀ i : ℕ, s + (i : ℝ) * d - avgList l = ((i : ℝ) - ((n : ℝ) - 1) / 2) * d := by
    intro i; rw [avgList_steps l n s d hn hl]; ring
  unfold trimToFwhm
  rw [List.filter_eq_nil_iff]
  constructor
  · intro h
    have hev : n % 2 = 0 := by
      by_contra hodd
      obtain ⟨k, hk⟩ : ∃ k, n = 2 * k + 1 := ⟨n / 2, by omega⟩
      have hm : s + (k : ℝ) * d ∈ l := by
        rw [hl]; exact List.mem_map.2 ⟨k, List.mem_range.2 (by omega), rfl⟩
      apply h _ hm
      rw [decide_eq_true_eq, hdist, hk]
      push_cast
      rw [show ((k : ℝ) - (2 * (k : ℝ) + 1 - 1) / 2) * d = 0 by ring, abs_zero]
      exact hF
    refine ⟨hev, ?_⟩
    obtain ⟨k, hk⟩ : ∃ k, n = 2 * k := ⟨n / 2, by omega⟩
    have hm : s + (k : ℝ) * d ∈ l := by
      rw [hl]; exact List.mem_map.2 ⟨k, List.mem_range.2 (by omega), rfl⟩
    have h1 := h _ hm
    rw [decide_eq_true_eq, hdist, hk] at h1
    push_cast at h1
    rw [show ((k : ℝ) - (2 * (k : ℝ) - 1) / 2) * d = d / 2 by ring, abs_div, abs_two] at h1
    exact not_le.1 h1
  · rintro ⟨hev, hlt⟩ a ha
    rw [hl] at ha
    obtain ⟨i, hi, rfl⟩ := List.mem_map.1 ha
    rw [decide_eq_true_eq, hdist, not_le]
    obtain ⟨k, hk⟩ : ∃ k, n = 2 * k := ⟨n / 2, by omega⟩
    refine hlt.trans_le ?_
    rw [abs_mul, hk]
    have hd := abs_nonneg d
    have : (1 : ℝ) / 2 ≤ |(i : ℝ) - (((2 * k : ℕ) : ℝ) - 1) / 2| := by
      push_cast
      rcases Nat.lt_or_ge i k with h | h
      · have : (i : ℝ) + 1 ≤ k := by exact_mod_cast h
        rw [abs_of_nonpos (by linarith)]; linarith
      · have : (k : ℝ) ≤ i := by exact_mod_cast h
        rw [abs_of_nonneg (by linarith)]; linarith
    nlinarith

theorem linspace_steps (a b c : ℝ) (n : ℕ) : (linspace a b n).map (· - c) =
    (List.range n).map fun i : ℕ => (a - c) + (i : ℝ) * (if n = 1 then 0 else (b - a) / ((n : ℝ) - 1)) := by
  unfold linspace
  rw [List.map_map]
  refine List.map_congr_left fun i hi => ?_
  simp only [Function.comp]
  by_cases h : n = 1
  · simp [h]
  · simp only [if_neg h]; ring

/-! ### positive stages -/

theorem stamp_pos (p : PSF) (hf : 0 < p.fwhm) (hd : p.kind = .gaussian → p.dither = none)
    (hb : p.kind = .moffat → 1 < p.beta) (xs ys : List ℝ) (j : Fin ys.length) (i : Fin xs.length) :
    0 < p.stamp xs ys j i := by
  unfold PSF.stamp PSF.stampAt
  cases hk : p.kind with
  | gaussian =>
    simp only [hd hk, withDither, gaussStampAt]
    exact Real.exp_pos _
  | moffat =>
    have hb := hb hk
    have h1 : (1 : ℝ) < (2 : ℝ) ^ (1 / p.beta) := Real.one_lt_rpow (by norm_num) (by positivity)
    have h2 : 0 < Real.sqrt ((2 : ℝ) ^ (1 / p.beta) - 1) := Real.sqrt_pos.2 (by linarith)
    have h3 : 0 < p.fwhm / (2 * Real.sqrt ((2 : ℝ) ^ (1 / p.beta) - 1)) := by positivity
    have h4 := Real.pi_pos
    simp only [withDither, moffatStampAt]
    refine mul_pos (div_pos (by linarith) (by positivity)) (Real.rpow_pos_of_pos ?_ _)
    positivity

theorem psfConvolve_pos {nW n m kn km : Nat} (cube : Fin nW → Fin n → Fin m → ℝ) (fwhm : ℝ)
    (stamp : Fin kn → Fin km → ℝ) (ha : ∀ w y x, 0 < cube w y x)
    (hst : 0 < fwhm → 0 < kn ∧ 0 < km ∧ ∀ j i, 0 < stamp j i) :
    ∃ C : Fin nW → Fin n → Fin m → ℝ, (∀ w y x, 0 < C w y x) ∧
      psfConvolve cube fwhm stamp = fun w y x => .fin (C w y x) := by
  by_cases h : 0 < fwhm
  · obtain ⟨hkn, hkm, hk⟩ := hst h
    have hc : ∀ w y x, 0 < convSame2 (cube w) stamp y x := by
      intro w y x
      have h1 := convSame2_ge (cube w) stamp (fun y x => (ha w y x).le) (fun j i => (hk j i).le) hkn hkm y x
      have h2 := mul_pos (ha w y x) (hk ⟨(kn - 1) / 2, by omega⟩ ⟨(km - 1) / 2, by omega⟩)
      exact h2.trans_le h1
    clear hst
    by_cases hne : 0 < nW ∧ 0 < n ∧ 0 < m
    · haveI : Nonempty (Fin nW) := ⟨⟨0, hne.1⟩⟩
      haveI : Nonempty (Fin n) := ⟨⟨0, hne.2.1⟩⟩
      haveI : Nonempty (Fin m) := ⟨⟨0, hne.2.2⟩⟩
      have hpos : ∀ F : Fin nW → Fin n → Fin m → ℝ, (∀ w y x, 0 < F w y x) → 0 < ∑ w, ∑ y, ∑ x, F w y x := by
        intro F hF
        exact Finset.sum_pos (fun w _ => Finset.sum_pos (fun y _ => Finset.sum_pos (fun x _ => hF w y x)
          Finset.univ_nonempty) Finset.univ_nonempty) Finset.univ_nonempty
      have h1 := hpos _ ha
      have h2 := hpos (fun w => convSame2 (cube w) stamp) hc
      refine ⟨fun w y x => convSame2 (cube w) stamp y x *
        ((∑ w, ∑ y, ∑ x, cube w y x) / (∑ w, ∑ y, ∑ x, convSame2 (cube w) stamp y x)), fun w y x =>
        mul_pos (hc w y x) (div_pos h1 h2), ?_⟩
      unfold psfConvolve
      rw [if_pos h]
      simp only
      rw [Fl.fin_div_ne _ _ h2.ne']
      simp only [Fl.fin_mul]
    · refine ⟨fun _ _ _ => 1, fun _ _ _ => one_pos, ?_⟩
      funext w y x
      exact absurd ⟨w.pos, y.pos, x.pos⟩ hne
  · refine ⟨cube, ha, ?_⟩
    unfold psfConvolve
    rw [if_neg h]

theorem allFinite2_fin {n m : Nat} (a : Fin n → Fin m → ℝ) :
    allFinite2 (fun i j => Fl.fin (a i j)) = some a := by
  unfold allFinite2
  exact if_pos (fun _ _ => rfl)

theorem instStage_pos {nW m : Nat} (img : Fin nW → Fin m → ℝ) (w0 step disp : ℝ) (wave : Fin nW → ℝ)
    (hwave : ∀ i, wave i = w0 + i.val * step) (hW : 0 < nW) (hm : 0 < m) (hpos : ∀ w y, 0 < img w y) :
    ∃ v, instStage img wave disp = .ok (some v) ∧ ∀ w y, 0 < v w y := by
  unfold instStage
  by_cases hd : 0 < disp
  · rw [if_pos hd]
    haveI : Nonempty (Fin nW) := ⟨⟨0, hW⟩⟩
    haveI : Nonempty (Fin m) := ⟨⟨0, hm⟩⟩
    have hs : ∀ F : Fin nW → Fin m → ℝ, (∀ w y, 0 < F w y) → 0 < ∑ w, ∑ y, F w y := fun F hF =>
      Finset.sum_pos (fun w _ => Finset.sum_pos (fun y _ => hF w y) Finset.univ_nonempty) Finset.univ_nonempty
    obtain ⟨h1, h2⟩ := C34_nonneg img w0 step disp wave hwave hd (fun _ _ => (hpos _ _).le) (hs _ hpos)
    obtain ⟨out, factor, h3, h4, h5⟩ := C34_conserves img wave disp h1
    have hrow : ∀ w y, 0 < rowConv img wave disp w y := fun w y => (hpos w y).trans_le (h2 w y)
    have hfac : 0 < factor := by
      have h6 : factor * ∑ w, ∑ y, rowConv img wave disp w y = ∑ w, ∑ y, img w y := by
        rw [← h5]
        simp only [h4, Finset.mul_sum]
      have h7 := hs _ hpos
      rw [← h6] at h7
      exact (mul_pos_iff_of_pos_right (hs _ hrow)).1 h7
    rw [h3]
    exact ⟨out, by simp only [allFinite2_fin], fun w y => by rw [h4]; exact mul_pos hfac (hrow w y)⟩
  · rw [if_neg hd]
    exact ⟨img, rfl, hpos⟩

theorem rebinArr_pos (a : Arr2) (p q f0 f1 : Nat) (hp : 0 < p) (hq : 0 < q) (hf0 : 0 < f0) (hf1 : 0 < f1)
    (hn : a.n = p * f0) (hm : a.m = q * f1) (hpos : ∀ i j, 0 < a.val i j) :
    ∃ b : Arr2, rebinArr a p q = .ok b ∧ b.n = p ∧ b.m = q ∧ ∀ i j, 0 < b.val i j := by
  obtain ⟨n, m, val⟩ := a
  simp only at hn hm hpos
  subst hn hm
  obtain ⟨out, h1, h2, -⟩ := C33_blocks p q f0 f1 hp hq hf0 hf1 val
  refine ⟨⟨p, q, out⟩, by unfold rebinArr; simp only [h1], rfl, rfl, fun i j => ?_⟩
  simp only at i j ⊢
  rw [h2]
  have hi : i.val * f0 < p * f0 := Nat.mul_lt_mul_of_pos_right i.isLt hf0
  have hj : j.val * f1 < q * f1 := Nat.mul_lt_mul_of_pos_right j.isLt hf1
  refine Finset.sum_pos' (fun u _ => Finset.sum_nonneg fun v _ => ?_) ⟨⟨_, hi⟩, Finset.mem_univ _, ?_⟩
  · split
    · exact (hpos _ _).le
    · exact le_rfl
  · refine Finset.sum_pos' (fun v _ => ?_) ⟨⟨_, hj⟩, Finset.mem_univ _, ?_⟩
    · split
      · exact (hpos _ _).le
      · exact le_rfl
    · rw [if_pos ⟨Nat.mul_div_cancel _ hf0, Nat.mul_div_cancel _ hf1⟩]
      exact hpos _ _

theorem trimSum_pos {nW nY nX : Nat} (cube : Fin nW → Fin nY → Fin nX → ℝ) (g : Grid ℝ)
    (hY : nY = g.nPixY + 2 * g.padY) (hX : nX = g.nPixX + 2 * g.padX) (h : 0 < g.nPixX) (hd : 0 < g.deltX)
    (hc : ∀ w y x, 0 < cube w y x) (w : Fin nW) (b : Fin g.nPixY) : 0 < trimSum cube g hY hX w b := by
  haveI : Nonempty (Fin g.nPixX) := ⟨⟨0, h⟩⟩
  exact mul_pos (Finset.sum_pos (fun a _ => hc _ _ _) Finset.univ_nonempty) hd

/-- the stages after the collapsed cube -/
theorem evalTail_pos (nWhole S : ℕ) (hN : 0 < nWhole) (hS : 0 < S) (psf : PSF) (xs ys : List ℝ) (g : Grid ℝ)
    (disp : ℝ) (wave : List ℝ) (w0 step : ℝ) (hw : ∀ i : Fin wave.length, wave.get i = w0 + i.val * step)
    (hW : 0 < wave.length) (hnY : g.nPixY = nWhole * S) (hY : g.nY = g.nPixY + 2 * g.padY)
    (hX : g.nX = g.nPixX + 2 * g.padX) (hpX : 0 < g.nPixX) (hdX : 0 < g.deltX)
    (hst : 0 < psf.fwhm → xs ≠ [] ∧ ys ≠ [] ∧ ∀ j i, 0 < psf.stamp xs ys j i)
    (C : Fin wave.length → Fin g.nY → Fin g.nX → ℝ) (hC : ∀ w b a, 0 < C w b a) :
    ∃ a : Arr2, evalTail false true nWhole psf xs ys g disp wave (.ok fun w b a => .fin (C w b a)) =
      .ok (some a) ∧ a.n = wave.length ∧ a.m = nWhole ∧ ∀ i j, 0 < a.val i j := by
  obtain ⟨D, hD, hconv⟩ := psfConvolve_pos C psf.fwhm (psf.stamp xs ys) hC
    fun h => ⟨List.length_pos_iff.2 (hst h).2.1, List.length_pos_iff.2 (hst h).1, (hst h).2.2⟩
  obtain ⟨b, hb, hbn, hbm, hbpos⟩ := rebinArr_pos ⟨wave.length, g.nPixY, trimSum D g hY hX⟩ wave.length nWhole 1 S
    hW hN one_pos hS (by simp) hnY (fun i j => trimSum_pos D g hY hX hpX hdX hD i j)
  obtain ⟨v, hv, hvpos⟩ := instStage_pos b.val w0 step disp (fun i => wave.get (Fin.cast hbn i))
    (fun i => by rw [hw]; rfl) (by rw [hbn]; exact hW) (by rw [hbm]; exact hN) hbpos
  refine ⟨⟨b.n, b.m, v⟩, ?_, hbn, hbm, hvpos⟩
  unfold evalTail
  simp only [Bool.false_eq_true, if_false, if_true, allFinite_fin, hconv]
  rw [dif_pos ⟨hY, hX⟩]
  simp only [hb]
  rw [dif_pos hbn]
  simp only [hv]

theorem gaussDensity_pos (cen sig lam : ℝ) (h : 0 < sig) : 0 < gaussDensity cen sig lam := by
  unfold gaussDensity; positivity

theorem list_sum_pos {α : Type*} (l : List α) (F : α → ℝ) (hl : l ≠ []) (h : ∀ p ∈ l, 0 < F p) :
    0 < (l.map F).sum := by
  induction l with
  | nil => exact absurd rfl hl
  | cons p l ih =>
    rw [List.map_cons, List.sum_cons]
    rcases l with _ | ⟨q, l⟩
    · simpa using h p (by simp)
    · exact add_pos (h p (by simp)) (ih (by simp) fun q hq => h q (by simp [hq]))

theorem cube_pos {nW nZ nY nX : Nat} (I V : Cube nZ nY nX ℝ) (wave : Fin nW → ℝ) (z dz sig : ℝ) (rs fs : List ℝ)
    (st : SpecType) (hst : st = .velocity ∨ st = .wave ∧ rs ≠ [] ∧ rs.length ≤ fs.length ∧ (∀ r ∈ rs, 0 < r) ∧
      ∀ f ∈ fs, 0 < f) (hZ : 0 < nZ) (hY : 0 < nY) (hX : 0 < nX) (hI : ∀ m j k, 0 < I m j k) (hs : 0 < sig)
    (hz : 0 < 1 + z) (hdz : 0 < dz) :
    ∃ C : Fin nW → Fin nY → Fin nX → ℝ, (∀ w j k, 0 < C w j k) ∧
      addSigmaCollapseZ I V (fun _ _ _ => sig) wave z rs fs dz st = .ok fun w j k => .fin (C w j k) := by
  have hc := cKms_pos
  haveI : Nonempty (Fin nZ) := ⟨⟨0, hZ⟩⟩
  rcases hst with rfl | ⟨rfl, h1, h2, h3, h4⟩
  · refine ⟨fun w j k => (∑ m, I m j k * gaussDensity (V m j k) sig (wave w)) * dz, fun w j k =>
      mul_pos (Finset.sum_pos (fun m _ => mul_pos (hI _ _ _) (gaussDensity_pos _ _ _ hs)) Finset.univ_nonempty) hdz, ?_⟩
    unfold addSigmaCollapseZ
    simp only
    rw [if_neg (by omega), if_pos ⟨⟨0, hZ⟩, ⟨0, hY⟩, ⟨0, hX⟩, abs_pos.2 hs.ne'⟩]
    congr 1
    funext w j k
    rw [broadSum_fin _ _ _ _ _ _ _ fun _ => hs.ne']
    exact congrArg Fl.fin (zero_add _)
  · refine ⟨fun w j k => lineDensity I V (fun _ _ _ => sig) z dz rs fs j k (wave w), fun w j k => ?_,
      addSigma_broad I V _ wave z dz rs fs h2 hZ hY hX (fun _ _ _ => hs.ne') hz.ne' fun r hr => (h3 r hr).ne'⟩
    unfold lineDensity
    refine list_sum_pos _ _ ?_ fun p hp => ?_
    · obtain ⟨r, rs, rfl⟩ : ∃ r rs', rs = r :: rs' := by
        cases rs with
        | nil => exact absurd rfl h1
        | cons r rs => exact ⟨r, rs, rfl⟩
      rcases fs with _ | ⟨f, fs⟩
      · simp at h2
      · simp
    · have hp1 := h3 _ (List.of_mem_zip hp).1
      have hp2 := h4 _ (List.of_mem_zip hp).2
      exact mul_pos (mul_pos (Finset.sum_pos (fun m _ => mul_pos (hI _ _ _)
        (gaussDensity_pos _ _ _ (by positivity))) Finset.univ_nonempty) hdz) hp2

theorem applySigmaFloor_pos (cfg : AperCfg) (s : AperState) (sig : ℝ) (hd : s.kin.disp = some ⟨[sig], 1⟩)
    (hs : 0 < sig) (hf : cfg.sigmaFloor = true → ∃ v, s.fixed.floorValue = some v) :
    ∃ sg, (applySigmaFloor cfg s).2 = .ok sg ∧ 0 < sg ∧ (applySigmaFloor cfg s).1.kin.vel = s.kin.vel := by
  unfold applySigmaFloor
  rw [hd]
  have hab : (if cfg.absvalsigma = true then ({ theta := List.map (fun a => |a|) [sig], nParams := 1 } : Profile) else
      ⟨[sig], 1⟩) = ⟨[sig], 1⟩ := by
    split
    · simp [abs_of_pos hs]
    · rfl
  simp only [hab, List.getElem?_cons_zero]
  by_cases hfl : cfg.sigmaFloor = true
  · obtain ⟨v, hv⟩ := hf hfl
    simp only [if_pos hfl, hv]
    by_cases hlt : |sig| < v
    · simp only [if_pos hlt, List.getElem?_cons_zero]
      exact ⟨v, rfl, (abs_nonneg _).trans_lt hlt, trivial⟩
    · simp only [if_neg hlt, List.getElem?_cons_zero]
      exact ⟨sig, rfl, hs, trivial⟩
  · simp only [if_neg hfl, List.getElem?_cons_zero]
    exact ⟨sig, rfl, hs, trivial⟩

end Misfit
