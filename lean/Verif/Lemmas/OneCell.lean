import Verif.Lemmas.Aper
import Verif.Props.Convolve
import Verif.Props.Grid

/-!
# A model with a single spatial cell, used as witness
-/

namespace Misfit

/-- One row, one subpixel, slit of one pixel, no PSF, no instrumental dispersion; the object is in
the middle of the cell. -/
noncomputable def oneCell (wave : List ℝ) (adaptive npFloat : Bool) (factor : ℝ) : AperCfg where
  nWhole := 1
  wave := wave
  restwave := [1]
  ratios := [1]
  m0 := 1 / 2
  sini := 0
  deltPA := 0
  pixscale := 1
  slit := 1
  psf := ⟨.gaussian, 0, 0, none⟩
  res := 0
  slitMask := false
  int := fun _ _ => 1
  nSubpixels := 1
  padFactor := 1 / 2
  xc := 0
  rebinOutput := true
  specType := .wave
  absvalsigma := false
  adaptive := adaptive
  factor := factor
  sigmaFloor := false
  npFloat := npFloat

/-- its grid -/
noncomputable def oneGrid : Grid ℝ := ⟨1, 1, 0, 0, 1, 1, 1, 1, 1, 1, [0], [0], [0]⟩

theorem npRound_zero : npRound (0 : ℝ) = 0 := by simp [npRound]

theorem npRound_nat (n : ℕ) : npRound (n : ℝ) = n := by simp [npRound]

theorem oneGrid_eq : setupGrid (⟨1, 1, 1, 1, 0, 1 / 2, 0, 1 / 2 + 0⟩ : GridIn ℝ) = .ok oneGrid := by
  have h1 : nPixXOf (⟨1, 1, 1, 1, 0, 2⁻¹, 0, 2⁻¹⟩ : GridIn ℝ) 1 1 1 = 1 := by simp [nPixXOf]
  unfold setupGrid
  simp [h1, npRound_zero, linspace, oneGrid]

/-- its attributes after setup -/
noncomputable def oneFixed (wave : List ℝ) (adaptive : Bool) (z : ℝ) : AperFixed where
  grid := oneGrid
  z := z
  lam0 := 1 * (1 + z)
  waveReal := wave
  deltReal := avgDiff wave
  xint := fun _ _ _ => 0
  yint := fun _ _ _ => 0
  I := fun _ _ _ => 1
  floorValue := none
  upsampleValue := if adaptive then some (avgDiff wave / (1 * (1 + z)) * cKms / 2.35) else none
  xTrim := trimToFwhm [0] 0
  yTrim := trimToFwhm [0] 0

theorem oneFixed_eq (wave : List ℝ) (adaptive npFloat : Bool) (factor a b c z : ℝ) :
    setupCalcs (oneCell wave adaptive npFloat factor) [a, b, c, 0, z] = .ok (oneFixed wave adaptive z) := by
  have hx : ∀ u v w : Fin 1, transformInt3d (([0] : List ℝ).getD u 0) (([0] : List ℝ).getD v 0)
      (([0] : List ℝ).getD w 0) 0 (Real.arcsin 0) = (0, 0, 0) := by
    intro u v w
    have hu : (([0] : List ℝ).getD u 0) = 0 := by have := u.2; simp
    have hv : (([0] : List ℝ).getD v 0) = 0 := by simp
    have hw : (([0] : List ℝ).getD w 0) = 0 := by simp
    rw [hu, hv, hw]
    simp [transformInt3d]
  have e1 : fromEnd [a, b, c, 0, z] 1 = .ok z := rfl
  have e2 : fromEnd [a, b, c, 0, z] 2 = .ok 0 := rfl
  have e3 : setupGrid (⟨(oneCell wave adaptive npFloat factor).nWhole,
    (oneCell wave adaptive npFloat factor).nSubpixels, (oneCell wave adaptive npFloat factor).pixscale,
    (oneCell wave adaptive npFloat factor).slit, (oneCell wave adaptive npFloat factor).psf.fwhm,
    (oneCell wave adaptive npFloat factor).padFactor, (oneCell wave adaptive npFloat factor).xc,
    (oneCell wave adaptive npFloat factor).m0 + 0⟩) = .ok oneGrid := oneGrid_eq
  rw [setupCalcs_arrays (fun h => by cases h.1)]
  unfold setupArrays
  rw [e1]
  simp only [bind, Except.bind]
  rw [e2]
  simp only
  rw [e3]
  simp only [oneCell, List.getElem?_cons_zero]
  simp only [oneFixed]
  congr 1
  have hg : oneGrid.xArr = [0] ∧ oneGrid.yArr = [0] ∧ oneGrid.zArr = [0] := ⟨rfl, rfl, rfl⟩
  rw [AperFixed.mk.injEq]
  refine ⟨rfl, rfl, rfl, rfl, rfl, ?_, ?_, ?_, ?_, ?_, rfl, rfl⟩
  · apply heq_of_eq; funext w v u; exact congrArg (fun p => p.1) (hx u v w)
  · apply heq_of_eq; funext w v u; exact congrArg (fun p => p.2.1) (hx u v w)
  · exact HEq.rfl
  · rfl
  · rfl

theorem allFinite_fin {n m p : Nat} (a : Fin n → Fin m → Fin p → ℝ) :
    allFinite (fun i j k => Fl.fin (a i j k)) = some a := by
  unfold allFinite
  exact if_pos (fun _ _ _ => rfl)

theorem one_velCube (wave : List ℝ) (adaptive npFloat : Bool) (factor z va rt : ℝ) (hrt : rt ≠ 0)
    (t : List ℝ) (n : Nat) (d : Option Profile) :
    velCube (oneCell wave adaptive npFloat factor) (oneFixed wave adaptive z)
      ⟨t, some ⟨[va, rt], n⟩, d⟩ = some fun _ _ _ => 0 := by
  have h : losVelocity [va, rt] 0 0 0 = .fin 0 := by
    simp [losVelocity, velArctan, Fl.fin_div_ne _ _ hrt, Fl.arctan]
  have e : velCube (oneCell wave adaptive npFloat factor) (oneFixed wave adaptive z)
      ⟨t, some ⟨[va, rt], n⟩, d⟩ = allFinite fun _ _ _ => losVelocity [va, rt] 0 0 0 := rfl
  rw [e, h]
  exact allFinite_fin fun _ _ _ => 0

theorem one_rebin {n : Nat} (hn : 0 < n) (v : Fin n → Fin 1 → ℝ) : rebinArr ⟨n, 1, v⟩ n 1 = .ok ⟨n, 1, v⟩ := by
  unfold rebinArr
  have := C33_identity hn one_pos v
  simp only [this]

/-- evaluation of the single cell model: the spectrum of the cell -/
theorem one_eval (wave0 wave : List ℝ) (adaptive npFloat : Bool) (factor z va rt sig : ℝ) (hrt : rt ≠ 0)
    (t : List ℝ) (n : Nat) (d : Option Profile) (c : Fin wave.length → ℝ) (hw : 0 < wave.length)
    (hc : addSigmaCollapseZ (fun _ _ _ => 1 : Cube 1 1 1 ℝ) (fun _ _ _ => 0) (fun _ _ _ => sig) wave.get z [1] [1]
      1 .wave = .ok fun w _ _ => .fin (c w)) :
    evalImage (oneCell wave0 adaptive npFloat factor) (oneFixed wave0 adaptive z)
      ⟨t, some ⟨[va, rt], n⟩, d⟩ wave sig = .ok (some ⟨wave.length, 1, fun w _ => c w⟩) := by
  rw [evalImage_stages fun h => lt_irrefl _ h.1]
  unfold evalStages
  rw [one_velCube _ _ _ _ _ _ _ hrt]
  simp only
  have hc' : addSigmaCollapseZ (oneFixed wave0 adaptive z).I (fun _ _ _ => 0) (fun _ _ _ => sig) wave.get
      (oneFixed wave0 adaptive z).z (oneCell wave0 adaptive npFloat factor).restwave
      (oneCell wave0 adaptive npFloat factor).ratios (oneFixed wave0 adaptive z).grid.deltZ
      (oneCell wave0 adaptive npFloat factor).specType = .ok fun w _ _ => .fin (c w) := hc
  rw [hc']
  simp only
  have hm : (oneCell wave0 adaptive npFloat factor).slitMask = false := rfl
  rw [hm, if_neg Bool.false_ne_true]
  rw [allFinite_fin fun w _ _ => c w]
  simp only
  have hp : psfConvolve (fun (w : Fin wave.length) (_ : Fin (oneFixed wave0 adaptive z).grid.nY)
        (_ : Fin (oneFixed wave0 adaptive z).grid.nX) => c w)
      (oneCell wave0 adaptive npFloat factor).psf.fwhm
      ((oneCell wave0 adaptive npFloat factor).psf.stamp (oneFixed wave0 adaptive z).xTrim
        (oneFixed wave0 adaptive z).yTrim) = fun w _ _ => Fl.fin (c w) := by
    unfold psfConvolve
    exact if_neg (lt_irrefl _)
  rw [hp, allFinite_fin fun w _ _ => c w]
  simp only
  have hro : (oneCell wave0 adaptive npFloat factor).rebinOutput = true := rfl
  rw [dif_pos ⟨rfl, rfl⟩, if_pos hro]
  have ht : trimSum (fun (w : Fin wave.length) (_ : Fin (oneFixed wave0 adaptive z).grid.nY)
        (_ : Fin (oneFixed wave0 adaptive z).grid.nX) => c w) (oneFixed wave0 adaptive z).grid rfl rfl =
      fun w _ => c w := by
    funext w b
    have : (∑ _a : Fin 1, c w) * 1 = c w := by simp
    exact this
  rw [ht]
  have hr : rebinArr ⟨wave.length, (oneFixed wave0 adaptive z).grid.nPixY, fun w _ => c w⟩ wave.length
      (oneCell wave0 adaptive npFloat factor).nWhole = .ok ⟨wave.length, 1, fun w _ => c w⟩ :=
    one_rebin hw _
  rw [hr]
  simp only
  have hi : ¬ 0 < instDisp (oneCell wave0 adaptive npFloat factor) (oneFixed wave0 adaptive z) := by
    have : instDisp (oneCell wave0 adaptive npFloat factor) (oneFixed wave0 adaptive z) =
      0 / cKms * (1 * (1 + z)) := rfl
    rw [this, zero_div, zero_mul]; exact lt_irrefl _
  simp only [dite_true, instStage, if_neg hi]

/-- the kinematic profile with five parameters after an update -/
theorem fiducial_update (t : List ℝ) (va rt sig a b : ℝ) (v d : List ℝ) :
    KinProfile.updateTheta ⟨t, some ⟨v, 2⟩, some ⟨d, 1⟩⟩ [va, rt, sig, a, b] =
      .ok ⟨[va, rt, sig, a, b], some ⟨[va, rt], 2⟩, some ⟨[sig], 1⟩⟩ := rfl

end Misfit
