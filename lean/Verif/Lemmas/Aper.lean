import Verif.Model.Aper

/-!
# Invariants of the aperture model's state
-/

namespace Misfit

/-- numbers of parameters of the two profiles -/
def KinProfile.shape (k : KinProfile) : Option Nat × Option Nat :=
  (k.vel.map Profile.nParams, k.disp.map Profile.nParams)

theorem setupCalcs_ok {cfg : AperCfg} {theta : List ℝ} {f : AperFixed} (h : setupCalcs cfg theta = .ok f) :
    setupArrays cfg theta = .ok f ∧ ¬ cfg.psf.StampFails := by
  unfold setupCalcs at h
  split at h
  · cases h
  · rename_i g hg
    split at h
    · cases h
    · rename_i hs
      cases h
      exact ⟨hg, hs⟩

theorem setupCalcs_arrays {cfg : AperCfg} (h : ¬ cfg.psf.StampFails) (theta : List ℝ) :
    setupCalcs cfg theta = setupArrays cfg theta := by
  unfold setupCalcs
  split
  · rename_i e he; rw [he]
  · rename_i f hf; rw [if_neg h, hf]

theorem evalImage_ok {cfg : AperCfg} {f : AperFixed} {kin : KinProfile} {wave : List ℝ} {sig : ℝ} {o : Option Arr2}
    (h : evalImage cfg f kin wave sig = .ok o) : evalStages cfg f kin wave sig = .ok o ∧ ¬ KernelMissing cfg f := by
  unfold evalImage at h
  split at h
  · split at h <;> cases h
  · rename_i hk
    exact ⟨h, hk⟩

theorem evalImage_stages {cfg : AperCfg} {f : AperFixed} (h : ¬ KernelMissing cfg f) (kin : KinProfile)
    (wave : List ℝ) (sig : ℝ) : evalImage cfg f kin wave sig = evalStages cfg f kin wave sig := by
  unfold evalImage
  rw [if_neg h]

theorem updateTheta_congr (k k' : KinProfile) (h : k.shape = k'.shape) (theta : List ℝ) :
    k.updateTheta theta = k'.updateTheta theta := by
  obtain ⟨t, v, d⟩ := k
  obtain ⟨t', v', d'⟩ := k'
  simp only [KinProfile.shape, Prod.mk.injEq] at h
  obtain ⟨hv, hd⟩ := h
  rcases v with _ | v <;> rcases v' with _ | v' <;> rcases d with _ | d <;> rcases d' with _ | d' <;>
    simp_all [KinProfile.updateTheta]

theorem updateTheta_shape (k k' : KinProfile) (theta : List ℝ) (h : k.updateTheta theta = .ok k') :
    k'.shape = k.shape := by
  obtain ⟨t, v, d⟩ := k
  rcases v with _ | v <;> rcases d with _ | d <;> simp [KinProfile.updateTheta] at h <;> subst h <;>
    simp [KinProfile.shape]

theorem checkUpsample_kin (cfg : AperCfg) (s : AperState) :
    (checkUpsample cfg s).1.kin = s.kin ∧ (checkUpsample cfg s).1.fixed = s.fixed := by
  unfold checkUpsample
  split
  · exact ⟨rfl, rfl⟩
  · split
    · exact ⟨rfl, rfl⟩
    · split
      · exact ⟨rfl, rfl⟩
      · split
        · split
          · exact ⟨rfl, rfl⟩
          · split
            · exact ⟨rfl, rfl⟩
            · simp only
              split
              · split <;> exact ⟨rfl, rfl⟩
              · exact ⟨rfl, rfl⟩
        · exact ⟨rfl, rfl⟩

theorem applySigmaFloor_keeps (cfg : AperCfg) (s : AperState) :
    (applySigmaFloor cfg s).1.fixed = s.fixed ∧ (applySigmaFloor cfg s).1.wave = s.wave ∧
    (applySigmaFloor cfg s).1.deltWave = s.deltWave ∧
    (applySigmaFloor cfg s).1.kin.shape = s.kin.shape := by
  obtain ⟨f, ⟨t, v, d⟩, w, dw⟩ := s
  unfold applySigmaFloor
  rcases d with _ | ⟨dt, dn⟩
  · exact ⟨rfl, rfl, rfl, rfl⟩
  · simp only
    by_cases ha : cfg.absvalsigma = true
    · rw [if_pos ha]
      by_cases hf : cfg.sigmaFloor = true
      · rw [if_pos hf]
        split
        · exact ⟨rfl, rfl, rfl, rfl⟩
        · rename_i d' h
          refine ⟨rfl, rfl, rfl, ?_⟩
          split at h
          · cases h; rfl
          · cases h
          · split at h <;> cases h <;> rfl
      · rw [if_neg hf]; exact ⟨rfl, rfl, rfl, rfl⟩
    · rw [if_neg ha]
      by_cases hf : cfg.sigmaFloor = true
      · rw [if_pos hf]
        split
        · exact ⟨rfl, rfl, rfl, rfl⟩
        · rename_i d' h
          refine ⟨rfl, rfl, rfl, ?_⟩
          split at h
          · cases h; rfl
          · cases h
          · split at h <;> cases h <;> rfl
      · rw [if_neg hf]; exact ⟨rfl, rfl, rfl, rfl⟩

theorem downsample_keeps (cfg : AperCfg) (s : AperState) (img : Option Arr2) :
    (downsample cfg s img).1.fixed = s.fixed ∧ (downsample cfg s img).1.kin = s.kin ∧
    (∀ r, (downsample cfg s img).2 = .ok r →
      (downsample cfg s img).1.wave = s.fixed.waveReal ∧
      (downsample cfg s img).1.deltWave = s.fixed.deltReal) := by
  unfold downsample
  rcases img with _ | a
  · exact ⟨rfl, rfl, fun _ _ => ⟨rfl, rfl⟩⟩
  · simp only
    split
    · exact ⟨rfl, rfl, fun _ h => by cases h⟩
    · exact ⟨rfl, rfl, fun _ _ => ⟨rfl, rfl⟩⟩

theorem Except.map_ok_iff {α β : Type} (f : α → β) (x : Except PyErr α) (b : β) :
    Except.map f x = .ok b ↔ ∃ a, x = .ok a ∧ f a = b := by
  cases x <;> simp [Except.map]

theorem doModelCalcs_keeps (cfg : AperCfg) (s : AperState) (theta : List ℝ) :
    (doModelCalcs cfg s theta).1.fixed = s.fixed ∧
    (doModelCalcs cfg s theta).1.kin.shape = s.kin.shape ∧
    (cfg.adaptive = false → (doModelCalcs cfg s theta).1.wave = s.wave ∧
      (doModelCalcs cfg s theta).1.deltWave = s.deltWave) ∧
    (cfg.adaptive = true → ∀ r, (doModelCalcs cfg s theta).2 = .ok r →
      (doModelCalcs cfg s theta).1.wave = s.fixed.waveReal ∧
      (doModelCalcs cfg s theta).1.deltWave = s.fixed.deltReal) := by
  unfold doModelCalcs
  split
  · exact ⟨rfl, rfl, fun _ => ⟨rfl, rfl⟩, fun _ _ h => by cases h⟩
  · rename_i k hk
    have hsh := updateTheta_shape _ _ _ hk
    have hu1 := checkUpsample_kin cfg { s with kin := k }
    simp only
    by_cases hadap : cfg.adaptive = true
    · rw [if_pos hadap]
      simp only [hadap, Bool.true_eq_false, false_imp_iff, true_and, if_true, forall_true_left]
      generalize hU : checkUpsample cfg { s with kin := k } = U at *
      split
      · exact ⟨hu1.2, by rw [hu1.1]; exact hsh, fun _ h => by cases h⟩
      · have hf := applySigmaFloor_keeps cfg U.1
        generalize applySigmaFloor cfg U.1 = F at *
        split
        · exact ⟨hf.1.trans hu1.2, by rw [hf.2.2.2, hu1.1]; exact hsh, fun _ h => by cases h⟩
        · split
          · exact ⟨hf.1.trans hu1.2, by rw [hf.2.2.2, hu1.1]; exact hsh, fun _ h => by cases h⟩
          · rename_i img _
            have hd := downsample_keeps cfg F.1 img
            generalize downsample cfg F.1 img = D at *
            refine ⟨hd.1.trans (hf.1.trans hu1.2), by rw [hd.2.1, hf.2.2.2, hu1.1]; exact hsh, ?_⟩
            intro r hr
            obtain ⟨a, ha, -⟩ := (Except.map_ok_iff _ _ _).1 hr
            have := hd.2.2 a ha
            rw [hf.1.trans hu1.2] at this
            exact this
    · have hadap' : cfg.adaptive = false := by simpa using hadap
      rw [if_neg hadap]
      simp only [hadap', Bool.false_eq_true, false_imp_iff, and_true, forall_true_left, if_false]
      have hf := applySigmaFloor_keeps cfg { s with kin := k }
      generalize applySigmaFloor cfg { s with kin := k } = F at *
      split
      · exact ⟨hf.1, by rw [hf.2.2.2]; exact hsh, hf.2.1, hf.2.2.1⟩
      · split <;> exact ⟨hf.1, by rw [hf.2.2.2]; exact hsh, hf.2.1, hf.2.2.1⟩

/-- Only the number of parameters of the previous profiles matters for an evaluation. -/
theorem doModelCalcs_congr (cfg : AperCfg) (s s' : AperState) (theta : List ℝ)
    (hf : s.fixed = s'.fixed) (hk : s.kin.shape = s'.kin.shape) (hw : s.wave = s'.wave)
    (hd : s.deltWave = s'.deltWave) :
    (doModelCalcs cfg s theta).2 = (doModelCalcs cfg s' theta).2 := by
  obtain ⟨f, k, w, d⟩ := s
  obtain ⟨f', k', w', d'⟩ := s'
  simp only at hf hk hw hd
  subst hf hw hd
  unfold doModelCalcs
  rw [updateTheta_congr k k' hk theta]
  simp only
  split <;> rfl

/-! ## The stored parameter vector of the profile object is not used -/

/-- the state with another `kinProfile.theta` -/
def AperState.setTheta (s : AperState) (t : List ℝ) : AperState :=
  { s with kin := { s.kin with theta := t } }

theorem checkUpsample_setTheta (cfg : AperCfg) (s : AperState) (t : List ℝ) :
    checkUpsample cfg (s.setTheta t) =
      ((checkUpsample cfg s).1.setTheta t, (checkUpsample cfg s).2) := by
  obtain ⟨f, ⟨t0, v, d⟩, w, dw⟩ := s
  rcases d with _ | ⟨dt, dn⟩
  · rfl
  · unfold checkUpsample AperState.setTheta
    simp only
    split
    · rfl
    · split
      · rfl
      · split
        · split
          · rfl
          · split
            · rfl
            · split
              · split <;> rfl
              · rfl
        · rfl

theorem applySigmaFloor_setTheta (cfg : AperCfg) (s : AperState) (t : List ℝ) :
    applySigmaFloor cfg (s.setTheta t) =
      ((applySigmaFloor cfg s).1.setTheta t, (applySigmaFloor cfg s).2) := by
  obtain ⟨f, ⟨t0, v, d⟩, w, dw⟩ := s
  rcases d with _ | ⟨dt, dn⟩
  · rfl
  · unfold applySigmaFloor AperState.setTheta
    simp only
    split <;> rfl

theorem evalImage_setTheta (cfg : AperCfg) (f : AperFixed) (k : KinProfile) (t : List ℝ)
    (wave : List ℝ) (sig : ℝ) :
    evalImage cfg f { k with theta := t } wave sig = evalImage cfg f k wave sig := rfl

/-- the part of an evaluation after `kinProfile.update_theta` -/
noncomputable def calcsAfter (cfg : AperCfg) (s : AperState) : AperState × Except PyErr (Option Arr2) :=
  let up := if cfg.adaptive then checkUpsample cfg s else (s, .ok ())
  match up.2 with
  | .error e => (up.1, .error e)
  | .ok () =>
    let fl := applySigmaFloor cfg up.1
    match fl.2 with
    | .error e => (fl.1, .error e)
    | .ok sig =>
      match evalImage cfg fl.1.fixed fl.1.kin fl.1.wave sig with
      | .error e => (fl.1, .error e)
      | .ok img =>
        let ds := if cfg.adaptive then downsample cfg fl.1 img else (fl.1, .ok img)
        (ds.1, ds.2.map fun o => o.map Arr2.T)

theorem doModelCalcs_eq (cfg : AperCfg) (s : AperState) (theta : List ℝ) :
    doModelCalcs cfg s theta = match s.kin.updateTheta theta with
      | .error e => (s, .error e)
      | .ok k => calcsAfter cfg { s with kin := k } := rfl

theorem downsample_setTheta (cfg : AperCfg) (s : AperState) (t : List ℝ) (img : Option Arr2) :
    (downsample cfg (s.setTheta t) img).2 = (downsample cfg s img).2 := by
  rcases img with _ | a
  · rfl
  · unfold downsample AperState.setTheta
    simp only
    split <;> rfl

theorem calcsAfter_setTheta (cfg : AperCfg) (s : AperState) (t : List ℝ) :
    (calcsAfter cfg (s.setTheta t)).2 = (calcsAfter cfg s).2 := by
  unfold calcsAfter
  have hup : (if cfg.adaptive = true then checkUpsample cfg (s.setTheta t) else (s.setTheta t, .ok ())) =
      ((if cfg.adaptive = true then checkUpsample cfg s else (s, .ok ())).1.setTheta t,
        (if cfg.adaptive = true then checkUpsample cfg s else (s, .ok ())).2) := by
    split
    · exact checkUpsample_setTheta cfg s t
    · rfl
  rw [hup]
  generalize (if cfg.adaptive = true then checkUpsample cfg s else (s, .ok ())) = U
  simp only
  rcases hU : U.2 with e | ⟨⟩
  · rfl
  · simp only
    rw [applySigmaFloor_setTheta]
    generalize applySigmaFloor cfg U.1 = F
    simp only
    rcases F.2 with e | sig
    · rfl
    · simp only
      have he : evalImage cfg (F.1.setTheta t).fixed (F.1.setTheta t).kin (F.1.setTheta t).wave sig =
          evalImage cfg F.1.fixed F.1.kin F.1.wave sig := rfl
      rw [he]
      rcases evalImage cfg F.1.fixed F.1.kin F.1.wave sig with e | img
      · rfl
      · simp only
        by_cases ha : cfg.adaptive = true
        · rw [if_pos ha, if_pos ha, downsample_setTheta]
        · rw [if_neg ha, if_neg ha]

end Misfit
