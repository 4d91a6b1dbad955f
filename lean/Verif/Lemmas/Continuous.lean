import Verif.Props.Seeing
import Mathlib.Topology.Algebra.Field
import Mathlib.Topology.Instances.Real.Lemmas
import Mathlib.Analysis.SpecialFunctions.Exp

/-! Helper lemmas for C172: every stage of an evaluation of a luminous galaxy is continuous. -/

namespace Misfit

open Finset

variable {X : Type*} [TopologicalSpace X] {S : Set X}

/-- a renormalised value that is finite -/
theorem renorm_fin {c t t' : ℝ} (h : (Fl.fin c * (Fl.fin t / Fl.fin t') : Fl ℝ).isFinite = true) :
    t' ≠ 0 ∧ (Fl.fin c * (Fl.fin t / Fl.fin t') : Fl ℝ) = .fin (c * (t / t')) := by
  by_cases h0 : t' = 0
  · exfalso
    have hinf : ∀ a : ℝ, (Fl.infTimes a).isFinite = false := by
      intro a
      unfold Fl.infTimes
      split
      · rfl
      · split <;> rfl
    rw [Fl.fin_div, if_pos h0] at h
    have : ∀ o : Fl ℝ, o.isFinite = false → (Fl.fin c * o : Fl ℝ).isFinite = false := by
      intro o ho
      cases o with
      | fin x => cases ho
      | nan => rfl
      | pinf => exact hinf c
      | ninf => exact hinf (-c)
    rw [this _ (hinf t)] at h
    cases h
  · refine ⟨h0, ?_⟩
    rw [Fl.fin_div_ne _ _ h0, Fl.fin_mul]

theorem convSame2_contOn {n m kn km : Nat} (A : X → Fin n → Fin m → ℝ) (k : Fin kn → Fin km → ℝ)
    (hA : ∀ y x, ContinuousOn (fun p => A p y x) S) (y : Fin n) (x : Fin m) :
    ContinuousOn (fun p => convSame2 (A p) k y x) S := by
  unfold convSame2
  refine continuousOn_finsetSum _ fun j _ => continuousOn_finsetSum _ fun i _ => ?_
  refine ContinuousOn.mul ?_ continuousOn_const
  unfold ext
  by_cases h1 : 0 ≤ (y : ℤ) + ((kn - 1) / 2 : ℕ) - j ∧ (y : ℤ) + ((kn - 1) / 2 : ℕ) - j < n
  · simp only [dif_pos h1]
    by_cases h2 : 0 ≤ (x : ℤ) + ((km - 1) / 2 : ℕ) - i ∧ (x : ℤ) + ((km - 1) / 2 : ℕ) - i < m
    · simp only [dif_pos h2]
      exact hA _ _
    · simp only [dif_neg h2]
      exact continuousOn_const
  · simp only [dif_neg h1]
    exact continuousOn_const

theorem psf_family {nW n m kn km : Nat} (C : X → Fin nW → Fin n → Fin m → ℝ) (fwhm : ℝ) (st : Fin kn → Fin km → ℝ)
    (hc : ∀ w y x, ContinuousOn (fun p => C p w y x) S) (hpos : ∀ p ∈ S, ∀ w y x, 0 < C p w y x)
    (hst : 0 < fwhm → 0 < kn ∧ 0 < km ∧ ∀ j i, 0 < st j i) :
    ∃ D : X → Fin nW → Fin n → Fin m → ℝ, (∀ w y x, ContinuousOn (fun p => D p w y x) S) ∧
      ∀ p ∈ S, psfConvolve (C p) fwhm st = fun w y x => .fin (D p w y x) := by
  by_cases hf : 0 < fwhm
  · refine ⟨fun p w y x => convSame2 (C p w) st y x *
      ((∑ w, ∑ y, ∑ x, C p w y x) / (∑ w, ∑ y, ∑ x, convSame2 (C p w) st y x)), fun w y x => ?_, fun p hp => ?_⟩
    · refine (convSame2_contOn _ st (fun y x => hc w y x) y x).mul (ContinuousOn.div ?_ ?_ fun p hp => ?_)
      · exact continuousOn_finsetSum _ fun w _ => continuousOn_finsetSum _ fun y _ =>
          continuousOn_finsetSum _ fun x _ => hc w y x
      · exact continuousOn_finsetSum _ fun w _ => continuousOn_finsetSum _ fun y _ =>
          continuousOn_finsetSum _ fun x _ => convSame2_contOn _ st (fun y x => hc w y x) y x
      · obtain ⟨D, -, h⟩ := psfConvolve_pos (C p) fwhm st (hpos p hp) hst
        have h' := congrFun (congrFun (congrFun h w) y) x
        unfold psfConvolve at h'
        rw [if_pos hf] at h'
        dsimp only at h'
        refine (renorm_fin (c := convSame2 (C p w) st y x) (t := ∑ w, ∑ y, ∑ x, C p w y x) ?_).1
        rw [h']; rfl
    · obtain ⟨D, -, h⟩ := psfConvolve_pos (C p) fwhm st (hpos p hp) hst
      funext w y x
      have h' := congrFun (congrFun (congrFun h w) y) x
      unfold psfConvolve at h' ⊢
      rw [if_pos hf] at h' ⊢
      dsimp only at h' ⊢
      refine (renorm_fin ?_).2
      rw [h']; rfl
  · refine ⟨C, hc, fun p _ => ?_⟩
    unfold psfConvolve
    rw [if_neg hf]

theorem inst_family {nW m : Nat} (A : X → Fin nW → Fin m → ℝ) (w0 step disp : ℝ) (wave : Fin nW → ℝ)
    (hwave : ∀ i, wave i = w0 + i.val * step) (hW : 0 < nW) (hm : 0 < m)
    (hc : ∀ w y, ContinuousOn (fun p => A p w y) S) (hpos : ∀ p ∈ S, ∀ w y, 0 < A p w y) :
    ∃ D : X → Fin nW → Fin m → ℝ, (∀ w y, ContinuousOn (fun p => D p w y) S) ∧
      ∀ p ∈ S, instStage (A p) wave disp = .ok (some (D p)) := by
  by_cases hd : 0 < disp
  · obtain ⟨xx, hxx⟩ : ∃ xx : Fin (oddLen nW) → ℝ, xx = fun i => wave (Fin.castLE (oddLen_le nW) i) := ⟨_, rfl⟩
    obtain ⟨lc, hlc⟩ : ∃ lc : ℝ, lc = (∑ i, xx i) / (oddLen nW : ℝ) := ⟨_, rfl⟩
    obtain ⟨k, hk⟩ : ∃ k : Fin (oddLen nW) → Fin 1 → ℝ,
      k = fun i _ => finiteOr0 (gausFromFwhm (xx i) (disp * (2 * Real.sqrt (2 * Real.log 2))) lc) := ⟨_, rfl⟩
    have hform : ∀ p, instStage (A p) wave disp = .ok (allFinite2 fun w y => Fl.fin (convSame2 (A p) k w y) *
        (Fl.fin (∑ w, ∑ y, A p w y) / Fl.fin (∑ w, ∑ y, convSame2 (A p) k w y))) := by
      intro p
      unfold instStage instConvolComplete convolInstConst
      rw [if_pos hd, hk, hlc, hxx]
    have hfin : ∀ p ∈ S, ∀ w y, (Fl.fin (convSame2 (A p) k w y) *
        (Fl.fin (∑ w, ∑ y, A p w y) / Fl.fin (∑ w, ∑ y, convSame2 (A p) k w y)) : Fl ℝ).isFinite = true := by
      intro p hp w y
      obtain ⟨v, hv, -⟩ := instStage_pos (A p) w0 step disp wave hwave hW hm (hpos p hp)
      rw [hform] at hv
      have := allFinite2_some _ _ (Except.ok.inj hv) w y
      rw [this]
      rfl
    refine ⟨fun p w y => convSame2 (A p) k w y * ((∑ w, ∑ y, A p w y) / (∑ w, ∑ y, convSame2 (A p) k w y)),
      fun w y => ?_, fun p hp => ?_⟩
    · refine (convSame2_contOn A k hc w y).mul (ContinuousOn.div ?_ ?_ fun p hp => (renorm_fin (hfin p hp w y)).1)
      · exact continuousOn_finsetSum _ fun w _ => continuousOn_finsetSum _ fun y _ => hc w y
      · exact continuousOn_finsetSum _ fun w _ => continuousOn_finsetSum _ fun y _ => convSame2_contOn A k hc w y
    · rw [hform]
      have : (fun w y => Fl.fin (convSame2 (A p) k w y) *
          (Fl.fin (∑ w, ∑ y, A p w y) / Fl.fin (∑ w, ∑ y, convSame2 (A p) k w y)) : Fin nW → Fin m → Fl ℝ) =
          fun w y => Fl.fin (convSame2 (A p) k w y * ((∑ w, ∑ y, A p w y) / (∑ w, ∑ y, convSame2 (A p) k w y))) := by
        funext w y
        exact (renorm_fin (hfin p hp w y)).2
      rw [this, allFinite2_fin]
  · refine ⟨A, hc, fun p _ => ?_⟩
    unfold instStage
    rw [if_neg hd]

theorem rebinArr_blocks (n m p q f0 f1 : Nat) (hp : 0 < p) (hq : 0 < q) (hf0 : 0 < f0) (hf1 : 0 < f1)
    (hn : n = p * f0) (hm : m = q * f1) (A : Fin n → Fin m → ℝ) :
    rebinArr ⟨n, m, A⟩ p q = .ok ⟨p, q, fun i j => ∑ u : Fin n, ∑ v : Fin m,
      if u.val / f0 = i.val ∧ v.val / f1 = j.val then A u v else 0⟩ := by
  subst hn hm
  obtain ⟨out, h1, h2, -⟩ := C33_blocks p q f0 f1 hp hq hf0 hf1 A
  unfold rebinArr
  simp only [h1]
  congr 2
  funext i j
  exact h2 i j

theorem tail_family (nWhole s : ℕ) (hN : 0 < nWhole) (hS : 0 < s) (psf : PSF) (xs ys : List ℝ) (g : Grid ℝ)
    (disp : ℝ) (wave : List ℝ) (w0 step : ℝ) (hw : ∀ i : Fin wave.length, wave.get i = w0 + i.val * step)
    (hW : 0 < wave.length) (hnY : g.nPixY = nWhole * s) (hY : g.nY = g.nPixY + 2 * g.padY)
    (hX : g.nX = g.nPixX + 2 * g.padX) (hpX : 0 < g.nPixX) (hdX : 0 < g.deltX)
    (hst : 0 < psf.fwhm → xs ≠ [] ∧ ys ≠ [] ∧ ∀ j i, 0 < psf.stamp xs ys j i)
    (C : X → Fin wave.length → Fin g.nY → Fin g.nX → ℝ) (hc : ∀ w b a, ContinuousOn (fun p => C p w b a) S)
    (hC : ∀ p ∈ S, ∀ w b a, 0 < C p w b a) :
    ∃ G : X → Fin wave.length → Fin nWhole → ℝ, (∀ w i, ContinuousOn (fun p => G p w i) S) ∧
      ∀ p ∈ S, (∀ w i, 0 < G p w i) ∧ evalTail false true nWhole psf xs ys g disp wave
        (.ok fun w b a => .fin (C p w b a)) = .ok (some ⟨wave.length, nWhole, G p⟩) := by
  have hst' : 0 < psf.fwhm → 0 < ys.length ∧ 0 < xs.length ∧ ∀ j i, 0 < psf.stamp xs ys j i := fun h =>
    ⟨List.length_pos_iff.2 (hst h).2.1, List.length_pos_iff.2 (hst h).1, (hst h).2.2⟩
  obtain ⟨D, hDc, hD⟩ := psf_family C psf.fwhm (psf.stamp xs ys) hc hC hst'
  have hDpos : ∀ p ∈ S, ∀ w b a, 0 < D p w b a := by
    intro p hp w b a
    obtain ⟨D', hpos, h⟩ := psfConvolve_pos (C p) psf.fwhm (psf.stamp xs ys) (hC p hp) hst'
    rw [hD p hp] at h
    have h' := congrFun (congrFun (congrFun h w) b) a
    rw [Fl.fin.inj h']
    exact hpos w b a
  obtain ⟨B, hB⟩ : ∃ B : X → Fin wave.length → Fin nWhole → ℝ, B = fun p i j => ∑ u : Fin wave.length,
    ∑ v : Fin g.nPixY, if u.val / 1 = i.val ∧ v.val / s = j.val then trimSum (D p) g hY hX u v else 0 := ⟨_, rfl⟩
  have hreb : ∀ p, rebinArr ⟨wave.length, g.nPixY, trimSum (D p) g hY hX⟩ wave.length nWhole =
      .ok ⟨wave.length, nWhole, B p⟩ := by
    intro p
    rw [hB]
    exact rebinArr_blocks wave.length g.nPixY wave.length nWhole 1 s hW hN one_pos hS (by simp) hnY _
  have hBc : ∀ w i, ContinuousOn (fun p => B p w i) S := by
    intro w i
    rw [hB]
    refine continuousOn_finsetSum _ fun u _ => continuousOn_finsetSum _ fun v _ => ?_
    split
    · unfold trimSum
      exact (continuousOn_finsetSum _ fun a _ => hDc _ _ _).mul continuousOn_const
    · exact continuousOn_const
  have hBpos : ∀ p ∈ S, ∀ w i, 0 < B p w i := by
    intro p hp
    obtain ⟨b, hb, hbn, hbm, hbpos⟩ := rebinArr_pos ⟨wave.length, g.nPixY, trimSum (D p) g hY hX⟩ wave.length nWhole 1 s
      hW hN one_pos hS (by simp) hnY (fun i j => trimSum_pos (D p) g hY hX hpX hdX (hDpos p hp) i j)
    rw [hreb] at hb
    cases hb
    exact hbpos
  obtain ⟨G, hGc, hG⟩ := inst_family B w0 step disp wave.get hw hW hN hBc hBpos
  refine ⟨G, hGc, fun p hp => ?_⟩
  have heq : evalTail false true nWhole psf xs ys g disp wave (.ok fun w b a => .fin (C p w b a)) =
      .ok (some ⟨wave.length, nWhole, G p⟩) := by
    unfold evalTail
    simp only [Bool.false_eq_true, if_false, if_true, allFinite_fin, hD p hp]
    rw [dif_pos ⟨hY, hX⟩]
    simp only [hreb]
    rw [dif_pos trivial]
    have : (fun i => wave.get (Fin.cast (rfl : wave.length = wave.length) i)) = wave.get := rfl
    simp only [this, hG p hp]
  refine ⟨?_, heq⟩
  obtain ⟨a, ha, -, -, hpos⟩ := evalTail_pos nWhole s hN hS psf xs ys g disp wave w0 step hw hW hnY hY hX hpX hdX hst
    (C p) (hC p hp)
  rw [heq] at ha
  cases ha
  exact hpos

theorem gaussDensity_contOn (c s : X → ℝ) (lam : ℝ) (hc : ContinuousOn c S) (hs : ContinuousOn s S)
    (h : ∀ p ∈ S, 0 < s p) : ContinuousOn (fun p => gaussDensity (c p) (s p) lam) S := by
  unfold gaussDensity
  refine ContinuousOn.mul (continuousOn_const.div (hs.mul continuousOn_const) fun p hp => ?_)
    (Real.continuous_exp.comp_continuousOn (ContinuousOn.div ((hc.sub continuousOn_const).pow 2).neg
      (continuousOn_const.mul (hs.pow 2)) fun p hp => ?_))
  · have := h p hp
    positivity
  · have := h p hp
    positivity

theorem listSum_contOn {α : Type*} (l : List α) (F : α → X → ℝ) (h : ∀ a ∈ l, ContinuousOn (F a) S) :
    ContinuousOn (fun p => (l.map fun a => F a p).sum) S := by
  induction l with
  | nil => exact continuousOn_const
  | cons a l ih =>
    simp only [List.map_cons, List.sum_cons]
    exact (h a (by simp)).add (ih fun b hb => h b (by simp [hb]))

theorem cube_family {nW nZ nY nX : Nat} (I : Cube nZ nY nX ℝ) (V : X → Cube nZ nY nX ℝ) (sig : X → ℝ) (wave : Fin nW → ℝ)
    (z dz : ℝ) (rs fs : List ℝ)
    (st : SpecType) (hst : st = .velocity ∨ st = .wave ∧ rs ≠ [] ∧ rs.length ≤ fs.length ∧ (∀ r ∈ rs, 0 < r) ∧
      ∀ f ∈ fs, 0 < f) (hZ : 0 < nZ) (hY : 0 < nY) (hX : 0 < nX) (hI : ∀ m j k, 0 < I m j k)
    (hz : 0 < 1 + z) (hdz : 0 < dz) (hV : ∀ m j k, ContinuousOn (fun p => V p m j k) S) (hsc : ContinuousOn sig S)
    (hs : ∀ p ∈ S, 0 < sig p) :
    ∃ C : X → Fin nW → Fin nY → Fin nX → ℝ, (∀ w j k, ContinuousOn (fun p => C p w j k) S) ∧
      ∀ p ∈ S, (∀ w j k, 0 < C p w j k) ∧
      addSigmaCollapseZ I (V p) (fun _ _ _ => sig p) wave z rs fs dz st = .ok fun w j k => .fin (C p w j k) := by
  have hcK := cKms_pos
  have hp0 : ∀ p ∈ S, ∀ C : Fin nW → Fin nY → Fin nX → ℝ,
      addSigmaCollapseZ I (V p) (fun _ _ _ => sig p) wave z rs fs dz st = .ok (fun w j k => .fin (C w j k)) →
      ∀ w j k, 0 < C w j k := by
    intro p hp C hC w j k
    obtain ⟨C', h1, h2⟩ := cube_pos I (V p) wave z dz (sig p) rs fs st hst hZ hY hX hI (hs p hp) hz hdz
    rw [hC] at h2
    have := congrFun (congrFun (congrFun (Except.ok.inj h2) w) j) k
    rw [Fl.fin.inj this]
    exact h1 w j k
  rcases hst with rfl | ⟨rfl, h1, h2, h3, h4⟩
  · refine ⟨fun p w j k => (∑ m, I m j k * gaussDensity (V p m j k) (sig p) (wave w)) * dz, fun w j k => ?_, fun p hp => ?_⟩
    · exact (continuousOn_finsetSum _ fun m _ => continuousOn_const.mul
        (gaussDensity_contOn _ _ _ (hV m j k) hsc hs)).mul continuousOn_const
    · have heq : addSigmaCollapseZ I (V p) (fun _ _ _ => sig p) wave z rs fs dz .velocity =
          .ok fun w j k => .fin ((∑ m, I m j k * gaussDensity (V p m j k) (sig p) (wave w)) * dz) := by
        unfold addSigmaCollapseZ
        simp only
        rw [if_neg (by omega), if_pos ⟨⟨0, hZ⟩, ⟨0, hY⟩, ⟨0, hX⟩, abs_pos.2 (hs p hp).ne'⟩]
        congr 1
        funext w j k
        rw [broadSum_fin _ _ _ _ _ _ _ fun _ => (hs p hp).ne']
        exact congrArg Fl.fin (zero_add _)
      exact ⟨hp0 p hp _ heq, heq⟩
  · refine ⟨fun p w j k => lineDensity I (V p) (fun _ _ _ => sig p) z dz rs fs j k (wave w), fun w j k => ?_, fun p hp => ?_⟩
    · unfold lineDensity
      refine listSum_contOn _ (fun (a : ℝ × ℝ) (p : X) => (∑ m, I m j k * gaussDensity (a.1 * (1 + z) * (1 + V p m j k / cKms))
        (sig p / cKms * (a.1 * (1 + z))) (wave w)) * dz * a.2) fun a ha => ?_
      refine ((continuousOn_finsetSum _ fun m _ => continuousOn_const.mul (gaussDensity_contOn _ _ _ ?_ ?_ ?_)).mul
        continuousOn_const).mul continuousOn_const
      · exact continuousOn_const.mul (continuousOn_const.add ((hV m j k).div_const _))
      · exact (hsc.div_const _).mul continuousOn_const
      · intro p hp
        have := h3 _ (List.of_mem_zip ha).1
        have := hs p hp
        positivity
    · have heq := addSigma_broad I (V p) (fun _ _ _ => sig p) wave z dz rs fs h2 hZ hY hX (fun _ _ _ => (hs p hp).ne') hz.ne'
        fun r hr => (h3 r hr).ne'
      exact ⟨hp0 p hp _ heq, heq⟩

end Misfit
