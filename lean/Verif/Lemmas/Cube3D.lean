import Verif.Model.Cube3D
import Verif.Lemmas.Aper

/-!
# Helper lemmas for the data cubes
-/

namespace Misfit

theorem Cube3.rebin_iff (a : Cube3) (h0 : 0 < a.nW) (h1 : 0 < a.nY) (h2 : 0 < a.nX) (p q w : Nat) :
    (∃ b, a.rebin p q w = .ok b) ↔ p ∣ a.nW ∧ q ∣ a.nY ∧ w ∣ a.nX := by
  unfold Cube3.rebin
  by_cases hz : p = 0 ∨ q = 0 ∨ w = 0
  · rw [if_pos hz]
    constructor
    · rintro ⟨b, hb⟩; cases hb
    · rintro ⟨⟨x, hx⟩, ⟨y, hy⟩, ⟨z, hz'⟩⟩
      rcases hz with rfl | rfl | rfl <;> simp at hx hy hz' <;> omega
  · rw [if_neg hz]
    simp only
    have l0 := Nat.mul_div_le a.nW p
    have l1 := Nat.mul_div_le a.nY q
    have l2 := Nat.mul_div_le a.nX w
    have hiff : p * (a.nW / p) * (q * (a.nY / q)) * (w * (a.nX / w)) = a.nW * a.nY * a.nX ↔
        p ∣ a.nW ∧ q ∣ a.nY ∧ w ∣ a.nX := by
      constructor
      · intro h
        have l01 : p * (a.nW / p) * (q * (a.nY / q)) ≤ a.nW * a.nY := Nat.mul_le_mul l0 l1
        have e2 : w * (a.nX / w) = a.nX := by
          by_contra hne
          have hlt : w * (a.nX / w) < a.nX := by omega
          have : p * (a.nW / p) * (q * (a.nY / q)) * (w * (a.nX / w)) < a.nW * a.nY * a.nX :=
            lt_of_le_of_lt (Nat.mul_le_mul_right _ l01)
              (Nat.mul_lt_mul_of_pos_left hlt (Nat.mul_pos h0 h1))
          omega
        rw [e2] at h
        have h' := Nat.eq_of_mul_eq_mul_right h2 h
        have e1 : q * (a.nY / q) = a.nY := by
          by_contra hne
          have hlt : q * (a.nY / q) < a.nY := by omega
          have : p * (a.nW / p) * (q * (a.nY / q)) < a.nW * a.nY :=
            lt_of_le_of_lt (Nat.mul_le_mul_right _ l0) (Nat.mul_lt_mul_of_pos_left hlt h0)
          omega
        rw [e1] at h'
        have e0 := Nat.eq_of_mul_eq_mul_right h1 h'
        exact ⟨⟨_, e0.symm⟩, ⟨_, e1.symm⟩, ⟨_, e2.symm⟩⟩
      · rintro ⟨d0, d1, d2⟩
        rw [Nat.mul_div_cancel' d0, Nat.mul_div_cancel' d1, Nat.mul_div_cancel' d2]
    constructor
    · rintro ⟨b, hb⟩
      split at hb
      · exact hiff.mp ‹_›
      · cases hb
    · intro h
      rw [if_pos (hiff.mpr h)]
      exact ⟨_, rfl⟩

theorem Cube3.flat_at (a : Cube3) (i : Fin a.nW) (j : Fin a.nY) (k : Fin a.nX) (pos : Nat)
    (h : pos = (i * a.nY + j) * a.nX + k) : a.flat pos = a.val i j k := by
  have hx : 0 < a.nX := by have := k.isLt; omega
  have hy : 0 < a.nY := by have := j.isLt; omega
  have e2 : pos % a.nX = k := by
    rw [h, Nat.mul_comm, Nat.mul_add_mod, Nat.mod_eq_of_lt k.isLt]
  have e1' : pos / a.nX = i * a.nY + j := by
    rw [h, Nat.mul_comm, Nat.mul_add_div hx, Nat.div_eq_of_lt k.isLt, Nat.add_zero]
  have e1 : pos / a.nX % a.nY = j := by
    rw [e1', Nat.mul_comm, Nat.mul_add_mod, Nat.mod_eq_of_lt j.isLt]
  have e0 : pos / (a.nY * a.nX) = i := by
    rw [Nat.mul_comm, ← Nat.div_div_eq_div_mul, e1', Nat.mul_comm, Nat.mul_add_div hy,
      Nat.div_eq_of_lt j.isLt, Nat.add_zero]
  unfold Cube3.flat
  rw [dif_pos ⟨by rw [e0]; exact i.isLt, by rw [e1]; exact j.isLt, by rw [e2]; exact k.isLt⟩]
  have q0 : ∀ h', (⟨pos / (a.nY * a.nX), h'⟩ : Fin a.nW) = i := fun _ => Fin.ext e0
  have q1 : ∀ h', (⟨pos / a.nX % a.nY, h'⟩ : Fin a.nY) = j := fun _ => Fin.ext e1
  have q2 : ∀ h', (⟨pos % a.nX, h'⟩ : Fin a.nX) = k := fun _ => Fin.ext e2
  rw [q0, q1, q2]

/-- Rebinning by exact factors: the size of the result and its values as block sums. -/
theorem Cube3.rebin_blocks (p q w f0 f1 f2 : Nat) (hp : 0 < p) (hq : 0 < q) (hw : 0 < w)
    (v : Fin (p * f0) → Fin (q * f1) → Fin (w * f2) → Fl ℝ) :
    Cube3.rebin ⟨p * f0, q * f1, w * f2, v⟩ p q w = .ok ⟨p, q, w, fun i j k =>
      ∑ s : Fin f0, ∑ t : Fin f1, ∑ u : Fin f2,
        v (finProdFinEquiv (i, s)) (finProdFinEquiv (j, t)) (finProdFinEquiv (k, u))⟩ := by
  have d0 : p * f0 / p = f0 := Nat.mul_div_cancel_left _ hp
  have d1 : q * f1 / q = f1 := Nat.mul_div_cancel_left _ hq
  have d2 : w * f2 / w = f2 := Nat.mul_div_cancel_left _ hw
  unfold Cube3.rebin
  rw [if_neg (by omega)]
  simp only
  rw [if_pos (by rw [d0, d1, d2])]
  congr 2
  funext i j k
  have key : ∀ g0 g1 g2 : Nat, g0 = f0 → g1 = f1 → g2 = f2 →
      (∑ s : Fin g0, ∑ t : Fin g1, ∑ u : Fin g2, Cube3.flat ⟨p * f0, q * f1, w * f2, v⟩
        (((((i * g0 + s) * q + j) * g1 + t) * w + k) * g2 + u)) =
      ∑ s : Fin f0, ∑ t : Fin f1, ∑ u : Fin f2,
        v (finProdFinEquiv (i, s)) (finProdFinEquiv (j, t)) (finProdFinEquiv (k, u)) := by
    rintro g0 g1 g2 rfl rfl rfl
    refine Finset.sum_congr rfl fun s _ => Finset.sum_congr rfl fun t _ => Finset.sum_congr rfl fun u _ => ?_
    apply Cube3.flat_at ⟨p * g0, q * g1, w * g2, v⟩ (finProdFinEquiv (i, s)) (finProdFinEquiv (j, t))
      (finProdFinEquiv (k, u))
    simp only [finProdFinEquiv_apply_val]
    ring
  exact key _ _ _ d0 d1 d2

theorem evalPoint_fixed {cfg : AperCfg} {s : AperState} {theta : List ℝ} {s1 : AperState} {sig : ℝ}
    (h : evalPoint cfg s theta = some (s1, sig)) :
    s1.fixed = s.fixed ∧ (cfg.adaptive = false → s1.wave = s.wave) := by
  unfold evalPoint at h
  split at h
  · cases h
  · rename_i k hk
    simp only at h
    by_cases ha : cfg.adaptive = true
    · simp only [if_pos ha] at h
      have h1 := applySigmaFloor_keeps cfg (checkUpsample cfg { s with kin := k }).1
      have h2 := checkUpsample_kin cfg { s with kin := k }
      split at h
      · cases h
      · split at h
        · cases h
        · cases h
          exact ⟨h1.1.trans h2.2, fun hf => by rw [hf] at ha; cases ha⟩
    · simp only [if_neg ha] at h
      have h1 := applySigmaFloor_keeps cfg { s with kin := k }
      split at h
      · cases h
      · cases h
        exact ⟨h1.1, fun _ => h1.2.1⟩

theorem rawCube_of_eval {cfg : AperCfg} {f : AperFixed} {kin : KinProfile} {wave : List ℝ} {sig : ℝ}
    {im : Option Arr2} (hi : evalImage cfg f kin wave sig = .ok im) :
    ∃ raw, rawCube cfg f kin wave sig = .ok raw := by
  replace hi := (evalImage_ok hi).1
  unfold evalStages at hi
  simp only at hi
  unfold rawCube
  split at hi
  · rename_i hv
    exact ⟨_, by rw [hv]⟩
  · rename_i V hv
    split at hi
    · cases hi
    · rename_i cube hcu
      exact ⟨_, by rw [hv]; simp only; rw [hcu]⟩

/-- If the image is computed, so are the cubes. -/
theorem keptCubes_of_ok {cfg : AperCfg} {s s' : AperState} {theta : List ℝ} {img : Option Arr2}
    (h : doModelCalcs cfg s theta = (s', .ok img)) :
    ∃ s1 sig raw, evalPoint cfg s theta = some (s1, sig) ∧ rawCube cfg s1.fixed s1.kin s1.wave sig = .ok raw ∧
      keptCubes cfg s theta = some (raw, trimmedCube s1.fixed (convCube cfg s1.fixed raw)) := by
  have key : ∃ s1 sig raw, evalPoint cfg s theta = some (s1, sig) ∧
      rawCube cfg s1.fixed s1.kin s1.wave sig = .ok raw := by
    unfold doModelCalcs at h
    unfold evalPoint
    split at h
    · cases h
    · rename_i k hk
      simp only [hk] at h ⊢
      split at h
      · cases h
      · rename_i hu
        simp only [hu] at h ⊢
        split at h
        · cases h
        · rename_i sig hf
          simp only [hf] at h ⊢
          split at h
          · cases h
          · rename_i im hi
            obtain ⟨raw, hr⟩ := rawCube_of_eval hi
            exact ⟨_, _, raw, rfl, hr⟩
  obtain ⟨s1, sig, raw, he, hr⟩ := key
  refine ⟨s1, sig, raw, he, hr, ?_⟩
  unfold keptCubes
  rw [he]
  simp only
  rw [hr]

theorem rawCube_size {cfg : AperCfg} {f : AperFixed} {kin : KinProfile} {wave : List ℝ} {sig : ℝ} {raw : Cube3}
    (h : rawCube cfg f kin wave sig = .ok raw) :
    raw.nW = wave.length ∧ raw.nY = f.grid.nY ∧ raw.nX = f.grid.nX := by
  unfold rawCube at h
  split at h
  · cases h; exact ⟨rfl, rfl, rfl⟩
  · split at h
    · cases h
    · cases h; exact ⟨rfl, rfl, rfl⟩

theorem convCube_size (cfg : AperCfg) (f : AperFixed) (raw : Cube3) :
    (convCube cfg f raw).nW = raw.nW := by
  unfold convCube
  split
  · split <;> rfl
  · rfl

end Misfit
