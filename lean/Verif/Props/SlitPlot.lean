import Verif.Model.SlitPlot
import Verif.Props.Plot
import Verif.Props.PlotAngle
import Verif.Props.PlotLines
import Verif.Lemmas.Convolve

/-! # C182-C187: the plot of the image with the slit -/

namespace Misfit
open Real

variable {ny nx : Nat}

/-! ## C182: the field of view -/

/-- Specification: size of the field of view in arcsec: that of the spectrum along the slit, or 2 arcsec -/
def fieldSize (n : Option Nat) (pixSpec : ℝ) : ℝ :=
  match n with
  | none => 2
  | some n => n * pixSpec

theorem slitPanel_view (o : SlitOpts) (g : SlitIn ny nx) (scale : ℝ) (hs : 0 < scale) (rows : Nat) (obj gal : ℝ × ℝ)
    (noise : ℝ × ℝ → ℝ × ℝ → Fl ℝ) (s : SlitPlot) (h : slitPanel o g scale rows obj gal noise = .ok s) :
    s.scale = scale ∧ s.obj = obj ∧ s.centre = gal ∧ (s.xlim.2 - s.xlim.1) * scale = fieldSize o.nSpatial g.pixSpec ∧
      (s.ylim.2 - s.ylim.1) * scale = fieldSize o.nSpatial g.pixSpec ∧ s.centre.1 = (s.xlim.1 + s.xlim.2) / 2 ∧
      (o.m0 = none → s.centre.2 = (s.ylim.1 + s.ylim.2) / 2) ∧
      (∀ m, o.m0 = some m → (s.centre.2 - s.ylim.1) * scale = (m + 1 / 2) * g.pixSpec) ∧ s.noise = noise s.xlim s.ylim := by
  have htrim : trimSize o.nSpatial g.pixSpec scale * scale = fieldSize o.nSpatial g.pixSpec := by
    unfold fieldSize trimSize
    cases o.nSpatial with
    | none => simp only; field_simp
    | some n =>
      simp only
      split
      · field_simp
      · rename_i hc
        rw [not_not] at hc
        exact hc
  unfold slitPanel at h
  simp only at h
  split at h
  · cases h
  · split at h
    · cases h
    · cases h
    · split at h
      · cases h
      · split at h
        · cases h
        · cases h
          refine ⟨rfl, rfl, rfl, ?_, ?_, ?_, ?_, ?_, rfl⟩
          · simp only; rw [← htrim]; ring
          · unfold panelYlim
            cases o.m0 with
            | none => simp only; rw [← htrim]; ring
            | some m => simp only; rw [← htrim]; ring
          · simp only; ring
          · intro hm
            rw [hm]
            simp only [panelYlim]
            ring
          · intro m hm
            rw [hm]
            simp only [panelYlim]
            field_simp
            ring

/-- **C182**: the panel shows a square field as large as the spectrum along the slit, or of 2 arcsec; the galaxy is in the middle from
left to right, and as far from the lower edge as the row `m0` is from the lower edge of the spectrum; distances on the sky are kept. -/
theorem C182_view (o : SlitOpts) (g : SlitIn ny nx) (hp : 0 < g.pixImg) (hP : 0 < g.pixSpec) (s : SlitPlot)
    (h : plotImageSlit o g = .ok s) :
    s.scale = (if o.downsample then g.pixSpec else g.pixImg) ∧
    (s.xlim.2 - s.xlim.1) * s.scale = fieldSize o.nSpatial g.pixSpec ∧
    (s.ylim.2 - s.ylim.1) * s.scale = fieldSize o.nSpatial g.pixSpec ∧
    s.centre.1 = (s.xlim.1 + s.xlim.2) / 2 ∧
    (o.m0 = none → s.centre.2 = (s.ylim.1 + s.ylim.2) / 2) ∧
    (∀ m, o.m0 = some m → (s.centre.2 - s.ylim.1) * s.scale = (m + 1 / 2) * g.pixSpec) ∧
    planeDist2 s.obj s.centre * s.scale ^ 2 = planeDist2 g.obj g.gal * g.pixImg ^ 2 := by
  unfold plotImageSlit at h
  split at h
  · cases h
  · cases h
  · rename_i img turn _ _
    split at h
    · simp only at h
      obtain ⟨gal, hgal⟩ : ∃ gal, gal = (if o.rotate then rotCoord g.gal (-1 * turn * (π / 180)) (((nx : ℝ) - 1) / 2)
        (((ny : ℝ) - 1) / 2) else g.gal) := ⟨_, rfl⟩
      obtain ⟨obj, hobj⟩ : ∃ obj, obj = (if o.rotate then rotCoord g.obj (-1 * turn * (π / 180)) (((nx : ℝ) - 1) / 2)
        (((ny : ℝ) - 1) / 2) else g.obj) := ⟨_, rfl⟩
      have hd : planeDist2 obj gal = planeDist2 g.obj g.gal := by
        rw [hobj, hgal]
        cases o.rotate with
        | true => exact (C92_rotation g.obj g.gal _ 0 _ _).2.1
        | false => rfl
      rw [← hgal, ← hobj] at h
      split at h
      · rename_i hdown
        split at h
        · cases h
        · split at h
          · cases h
          · split at h
            · cases h
            · obtain ⟨e1, e2, e3, e4, e5, e6, e7, e8, -⟩ := slitPanel_view _ _ _ hP _ _ _ _ _ h
              refine ⟨by rw [if_pos hdown]; exact e1, by rw [e1]; exact e4, by rw [e1]; exact e5, e6, e7,
                by rw [e1]; exact e8, ?_⟩
              rw [e1, e2, e3, ← hd]
              unfold planeDist2
              simp only
              field_simp
              ring
      · rename_i hdown
        obtain ⟨e1, e2, e3, e4, e5, e6, e7, e8, -⟩ := slitPanel_view _ _ _ hp _ _ _ _ _ h
        refine ⟨by rw [if_neg hdown]; exact e1, by rw [e1]; exact e4, by rw [e1]; exact e5, e6, e7, by rw [e1]; exact e8, ?_⟩
        rw [e1, e2, e3, hd]
    · cases h

/-- **C182**: on the downsampled image the pixels are those of the spectrum: the panel has the rows from the first to the last of the
spectrum, and the galaxy is at row `m0`. -/
theorem C182_rows (o : SlitOpts) (g : SlitIn ny nx) (hp : 0 < g.pixImg) (hP : 0 < g.pixSpec) (s : SlitPlot)
    (h : plotImageSlit o g = .ok s) (hd : o.downsample = true) (n : Nat) (hn : o.nSpatial = some n) (m : ℝ) (hm : o.m0 = some m) :
    s.ylim = ((-1 / 2 : ℝ), (n : ℝ) - 1 / 2) ∧ s.centre.2 = m := by
  obtain ⟨e1, e2, e3, e4, e5, e6, e7⟩ := C182_view o g hp hP s h
  have hc : s.centre.2 = m := by
    unfold plotImageSlit at h
    split at h
    · cases h
    · cases h
    · split at h
      · simp only [hd, if_true, hm] at h
        split at h
        · cases h
        · split at h
          · cases h
          · obtain ⟨-, -, f3, -⟩ := slitPanel_view _ _ _ hP _ _ _ _ _ h
            rw [f3]
            simp
      · cases h
  rw [if_pos hd] at e1
  rw [e1, hn, fieldSize] at e3
  have e6' := e6 m hm
  rw [e1, hc] at e6'
  have h1 := mul_right_cancel₀ hP.ne' e3
  have h2 := mul_right_cancel₀ hP.ne' e6'
  refine ⟨Prod.ext ?_ ?_, hc⟩
  · simp only; linarith
  · simp only; linarith

/-- **C182**: the image in the panel.  Offsets on the sky from the galaxy, whose place on the stamp is `pos`, are the same for
the pixels of the stamp and of the panel; a downsampled image is square, with as many whole rows of the spectrum as fit on the
stamp. -/
theorem C182_image (o : SlitOpts) (g : SlitIn ny nx) (hp : 0 < g.pixImg) (hP : 0 < g.pixSpec) (s : SlitPlot)
    (h : plotImageSlit o g = .ok s) :
    ∃ (img : Fin ny → Fin nx → ℝ) (pos : ℝ × ℝ), g.stamp o = .ok img ∧ (o.rotate = false → pos = g.gal) ∧
      (o.rotate = true → ∃ turn, g.slitAngle = .ok turn ∧
        pos = rotCoord g.gal (-(turn * (π / 180))) (((nx : ℝ) - 1) / 2) (((ny : ℝ) - 1) / 2)) ∧
      (o.downsample = false → s.centre = pos ∧ s.noise = fieldNoise (fun j i => .fin (img j i)) s.xlim s.ylim) ∧
      (o.downsample = true → ∃ n : Nat, (n : ℝ) * g.pixSpec ≤ ny * g.pixImg ∧ ny * g.pixImg < (n + 1) * g.pixSpec ∧
        s.centre.1 = ((n : ℝ) - 1) / 2 ∧
        s.noise = fieldNoise (boxIntegratePstamp img (fun i : Fin nx => ((i.val : ℝ) - pos.1) * g.pixImg)
          (fun j : Fin ny => ((j.val : ℝ) - pos.2) * g.pixImg) (fun i : Fin n => ((i.val : ℝ) - s.centre.1) * s.scale)
          (fun j : Fin n => ((j.val : ℝ) - s.centre.2) * s.scale)) s.xlim s.ylim) := by
  unfold plotImageSlit at h
  split at h
  · cases h
  · cases h
  · rename_i img turn himg hturn
    split at h
    · simp only at h
      obtain ⟨gal, hgal⟩ : ∃ gal, gal = (if o.rotate then rotCoord g.gal (-1 * turn * (π / 180)) (((nx : ℝ) - 1) / 2)
        (((ny : ℝ) - 1) / 2) else g.gal) := ⟨_, rfl⟩
      rw [← hgal] at h
      refine ⟨img, gal, himg, fun hr => by rw [hgal, hr]; rfl, fun hr => ?_, fun hd => ?_, fun hd => ?_⟩
      · rw [hr, if_pos rfl] at hturn
        refine ⟨turn, hturn, ?_⟩
        rw [hgal, if_pos hr]
        congr 1
        ring
      · rw [hd] at h
        simp only [Bool.false_eq_true, if_false] at h
        obtain ⟨-, -, e3, -, -, -, -, -, e9⟩ := slitPanel_view _ _ _ hp _ _ _ _ _ h
        exact ⟨e3, e9⟩
      · rw [hd] at h
        simp only [if_true] at h
        split at h
        · cases h
        · rename_i hn
          split at h
          · cases h
          · split at h
            · cases h
            · obtain ⟨e1, -, e3, -, -, -, -, -, e9⟩ := slitPanel_view _ _ _ hP _ _ _ _ _ h
              have hcast : (((nRound ny g.pixImg g.pixSpec).toNat : ℕ) : ℝ) = ((⌊(ny : ℝ) * g.pixImg / g.pixSpec⌋ : ℤ) : ℝ) := by
                have := Int.toNat_of_nonneg (not_lt.1 hn)
                rw [← Int.cast_natCast, this]
                rfl
              refine ⟨(nRound ny g.pixImg g.pixSpec).toNat, ?_, ?_, ?_, ?_⟩
              · rw [hcast, ← le_div_iff₀ hP]
                exact Int.floor_le _
              · rw [hcast, ← div_lt_iff₀ hP]
                exact Int.lt_floor_add_one _
              · rw [e3]; simp
              · rw [e9, e3, e1]
                simp only [sub_self, zero_mul, zero_div, zero_add]
    · cases h

/-! ## C183: the outline of the slit -/

/-- unit vector along the slit, turned counter-clockwise from upwards -/
noncomputable def slitDir (deg : ℝ) : ℝ × ℝ := (-sin (deg * (π / 180)), cos (deg * (π / 180)))

/-- **C183** (partial): the outline is a closed parallelogram; its long sides are along the slit, upright on a rotated image, and its
centre is moved from the object along the slit, by the offset in pixels of the spectrum; the other two sides are tilted by 3.78 degrees.
Missing: the length of the slit and the offset on the sky are wrong, see `C183_false_length` and `C183_false_offset`. -/
theorem C183_slit_partial (o : SlitOpts) (g : SlitIn ny nx) (s : SlitPlot) (h : plotImageSlit o g = .ok s) (len : ℝ)
    (hl : g.slitLength = some (some len)) :
    ∃ a b c d yoff ang, s.slit = [a, b, c, d, a] ∧ g.spec2D.map Prod.snd = some (some yoff) ∧
      (o.rotate = true → ang = 0) ∧ (o.rotate = false → g.slitAngle = .ok ang) ∧
      b - a = c - d ∧
      d - a = ((len - g.slitWidth * tan (3.78 * (π / 180))) / s.scale) • slitDir ang ∧
      b - a = (g.slitWidth / s.scale) • (slitDir (ang - 90) - tan (3.78 * (π / 180)) • slitDir ang) ∧
      (1 / 2 : ℝ) • (a + c) - s.obj = (-(yoff / g.pixSpec)) • slitDir ang := by
  have key : ∀ (scale : ℝ) (rows : Nat) (obj gal : ℝ × ℝ) (noise : ℝ × ℝ → ℝ × ℝ → Fl ℝ),
      slitPanel o g scale rows obj gal noise = .ok s →
      ∃ a b c d yoff ang, s.slit = [a, b, c, d, a] ∧ g.spec2D.map Prod.snd = some (some yoff) ∧
      (o.rotate = true → ang = 0) ∧ (o.rotate = false → g.slitAngle = .ok ang) ∧
      b - a = c - d ∧
      d - a = ((len - g.slitWidth * tan (3.78 * (π / 180))) / s.scale) • slitDir ang ∧
      b - a = (g.slitWidth / s.scale) • (slitDir (ang - 90) - tan (3.78 * (π / 180)) • slitDir ang) ∧
      (1 / 2 : ℝ) • (a + c) - s.obj = (-(yoff / g.pixSpec)) • slitDir ang := by
    intro scale rows obj gal noise h
    unfold slitPanel at h
    simp only [hl] at h
    split at h
    · cases h
    · rename_i ang hang
      split at h
      · cases h
      · cases h
      · rename_i pa yoff hy
        split at h
        · cases h
        · have h90 : (ang - 90) * (π / 180) = ang * (π / 180) - π / 2 := by ring
          have ht : (4 - 0.22 : ℝ) = 3.78 := by norm_num
          cases h
          refine ⟨_, _, _, _, yoff, ang, rfl, by rw [hy]; rfl, ?_, ?_, ?_, ?_, ?_, ?_⟩
          · intro hr; rw [hr] at hang; simp only [if_true] at hang; cases hang; rfl
          · intro hr; rw [hr] at hang; simpa using hang
          · ext <;> simp only [rotCoord, Prod.fst_sub, Prod.snd_sub] <;> ring
          · ext <;> simp only [rotCoord, slitDir, Prod.fst_sub, Prod.snd_sub, Prod.smul_fst, Prod.smul_snd, smul_eq_mul, ht] <;> ring
          · ext <;> simp only [rotCoord, slitDir, Prod.fst_sub, Prod.snd_sub, Prod.smul_fst, Prod.smul_snd, smul_eq_mul, ht, h90,
              sin_sub_pi_div_two, cos_sub_pi_div_two] <;> ring
          · ext <;> simp only [rotCoord, slitDir, Prod.fst_sub, Prod.snd_sub, Prod.fst_add, Prod.snd_add, Prod.smul_fst,
              Prod.smul_snd, smul_eq_mul] <;> ring
  unfold plotImageSlit at h
  split at h
  · cases h
  · cases h
  · split at h
    · simp only at h
      split at h
      · split at h
        · cases h
        · split at h
          · cases h
          · split at h
            · cases h
            · exact key _ _ _ _ _ h
      · exact key _ _ _ _ _ h
    · cases h

theorem slitDir_norm (t ang : ℝ) (p q : ℝ × ℝ) (h : p - q = t • slitDir ang) : planeDist2 p q = t ^ 2 := by
  have h1 : p.1 - q.1 = t * -sin (ang * (π / 180)) := congrArg Prod.fst h
  have h2 : p.2 - q.2 = t * cos (ang * (π / 180)) := congrArg Prod.snd h
  unfold planeDist2
  rw [h1, h2]
  have := sin_sq_add_cos_sq (ang * (π / 180))
  linear_combination t ^ 2 * this

/-- **C183** (false): on the image at its own resolution the centre of the outline is moved by the offset times the ratio of the pixel
scales; so it is wrong whenever the pixel scales differ and there is an offset. -/
theorem C183_false_offset (o : SlitOpts) (g : SlitIn ny nx) (hp : 0 < g.pixImg) (hP : 0 < g.pixSpec) (s : SlitPlot)
    (h : plotImageSlit o g = .ok s) (len : ℝ) (hl : g.slitLength = some (some len)) (hd : o.downsample = false)
    (hne : g.pixImg ≠ g.pixSpec) (yoff : ℝ) (hy : g.spec2D.map Prod.snd = some (some yoff)) (h0 : yoff ≠ 0) :
    ∃ a b c d, s.slit = [a, b, c, d, a] ∧ planeDist2 ((1 / 2 : ℝ) • (a + c)) s.obj * s.scale ^ 2 ≠ yoff ^ 2 := by
  obtain ⟨a, b, c, d, yoff', ang, e1, e2, -, -, -, -, -, e8⟩ := C183_slit_partial o g s h len hl
  rw [hy] at e2
  cases e2
  refine ⟨a, b, c, d, e1, ?_⟩
  rw [slitDir_norm _ _ _ _ e8, (C182_view o g hp hP s h).1, hd]
  simp only [Bool.false_eq_true, if_false]
  intro he
  have h2 : g.pixImg ^ 2 = g.pixSpec ^ 2 := by
    field_simp at he
    exact he
  exact hne ((sq_eq_sq₀ hp.le hP.le).1 h2)

/-- **C183** (false): the long sides are shorter than the slit, and the outline has less than its area. -/
theorem C183_false_length (o : SlitOpts) (g : SlitIn ny nx) (hp : 0 < g.pixImg) (hP : 0 < g.pixSpec) (s : SlitPlot)
    (h : plotImageSlit o g = .ok s) (len : ℝ) (hl : g.slitLength = some (some len)) (hw : 0 < g.slitWidth)
    (hlw : g.slitWidth ≤ len) :
    ∃ a b c d, s.slit = [a, b, c, d, a] ∧ planeDist2 d a * s.scale ^ 2 < len ^ 2 := by
  obtain ⟨a, b, c, d, yoff', ang, e1, e2, -, -, -, e6, -, -⟩ := C183_slit_partial o g s h len hl
  refine ⟨a, b, c, d, e1, ?_⟩
  have hsc : 0 < s.scale := by
    rw [(C182_view o g hp hP s h).1]
    split <;> assumption
  rw [slitDir_norm _ _ _ _ e6, div_pow, div_mul_cancel₀ _ (pow_ne_zero 2 hsc.ne')]
  have hpi := pi_pos
  have hx0 : (0 : ℝ) < 3.78 * (π / 180) := by positivity
  have hx1 : 3.78 * (π / 180) < π / 4 := by nlinarith
  have ht0 : 0 < tan (3.78 * (π / 180)) := tan_pos_of_pos_of_lt_pi_div_two hx0 (by linarith)
  have ht1 : tan (3.78 * (π / 180)) < 1 := by
    rw [← tan_pi_div_four]
    exact tan_lt_tan_of_lt_of_lt_pi_div_two (by linarith) (by linarith) hx1
  have h1 : 0 < g.slitWidth * tan (3.78 * (π / 180)) := mul_pos hw ht0
  have h2 : g.slitWidth * tan (3.78 * (π / 180)) < len := by nlinarith
  nlinarith

/-! ## C184: when the plot is made -/

/-- **C184**: the plot is made exactly if the stamp could be rotated and convolved, the galaxy has a size that is to be shown, the angle of
the slit is known (from either spectrum), the 2D spectrum has an offset, the slit has a length or no such attribute, and for
downsampling the row of the object is given, `verbose` is off and the pixel scales have the same sign. -/
theorem C184_exact (o : SlitOpts) (g : SlitIn ny nx) :
    (∃ s, plotImageSlit o g = .ok s) ↔
      (∃ img, g.stamp o = .ok img) ∧ g.hasRe = true ∧ o.showGalfit = true ∧ (∃ a, g.slitAngle = .ok a) ∧
      (∃ pa y, g.spec2D = some (pa, some y)) ∧ g.slitLength ≠ some none ∧
      (o.downsample = true → 0 ≤ nRound ny g.pixImg g.pixSpec ∧ o.m0 ≠ none ∧ o.verbose = false) := by
  have key : ∀ (scale : ℝ) (rows : Nat) (obj gal : ℝ × ℝ) (noise : ℝ × ℝ → ℝ × ℝ → Fl ℝ),
      (∃ s, slitPanel o g scale rows obj gal noise = .ok s) ↔
        (∃ a, g.slitAngle = .ok a) ∧ (∃ pa y, g.spec2D = some (pa, some y)) ∧ g.slitLength ≠ some none := by
    intro scale rows obj gal noise
    unfold slitPanel
    cases ha : g.slitAngle with
    | error e => cases o.rotate <;> rcases g.spec2D with _ | ⟨pa, _ | y⟩ <;> rcases g.slitLength with _ | _ | l <;> simp
    | ok a => cases o.rotate <;> rcases g.spec2D with _ | ⟨pa, _ | y⟩ <;> rcases g.slitLength with _ | _ | l <;> simp
  unfold plotImageSlit
  cases hs : g.stamp o with
  | error e => simp
  | ok img =>
    cases ha : g.slitAngle with
    | error e =>
      cases hr : o.rotate with
      | true => simp
      | false =>
        simp only [Bool.false_eq_true, if_false]
        constructor
        · intro h
          exfalso
          split at h
          · split at h
            · split at h
              · obtain ⟨s, h⟩ := h; cases h
              · split at h
                · obtain ⟨s, h⟩ := h; cases h
                · split at h
                  · obtain ⟨s, h⟩ := h; cases h
                  · obtain ⟨a, ha'⟩ := ((key _ _ _ _ _).1 h).1
                    rw [ha] at ha'; cases ha'
            · obtain ⟨a, ha'⟩ := ((key _ _ _ _ _).1 h).1
              rw [ha] at ha'; cases ha'
          · obtain ⟨s, h⟩ := h; cases h
        · rintro ⟨-, -, -, ⟨a, h⟩, -⟩
          cases h
    | ok a =>
      have hturn : ∃ t, (if o.rotate then (.ok a : Except PyErr ℝ) else .ok 0) = .ok t := by
        cases o.rotate
        · exact ⟨0, rfl⟩
        · exact ⟨a, rfl⟩
      obtain ⟨t, ht⟩ := hturn
      rw [ht]
      simp only [Except.ok.injEq, exists_eq', true_and]
      by_cases hg : g.hasRe = true ∧ o.showGalfit = true
      · rw [if_pos (by rw [hg.1, hg.2]; rfl)]
        cases hd : o.downsample with
        | false =>
          simp only [Bool.false_eq_true, if_false]
          rw [key]
          simp [ha, hg.1, hg.2]
        | true =>
          simp only [if_true]
          by_cases hn : nRound ny g.pixImg g.pixSpec < 0
          · rw [if_pos hn]
            simp [not_le.2 hn]
          · rw [if_neg hn]
            cases hm : o.m0 with
            | none => simp
            | some m =>
              simp only
              cases hv : o.verbose with
              | true => simp
              | false =>
                simp only [Bool.false_eq_true, if_false]
                rw [key]
                simp [ha, hg.1, hg.2, not_lt.1 hn]
      · rw [if_neg (by rw [Bool.and_eq_true]; exact hg)]
        constructor
        · rintro ⟨s, h⟩; cases h
        · rintro ⟨h1, h2, -⟩; exact absurd ⟨h1, h2⟩ hg

/-- **C184** (false): the position of the galaxy without its ellipse cannot be shown: NameError (UnboundLocalError). -/
theorem C184_false_galfit (o : SlitOpts) (g : SlitIn ny nx) (hs : ∃ img, g.stamp o = .ok img) (ha : ∃ a, g.slitAngle = .ok a)
    (h : o.showGalfit = false) : plotImageSlit o g = .error .nameError := by
  obtain ⟨img, hs⟩ := hs
  obtain ⟨a, ha⟩ := ha
  unfold plotImageSlit
  rw [hs, ha, h, Bool.and_false]
  cases o.rotate <;> simp

/-- **C184** (false): with the default of the slit length, `None`, no plot is made. -/
theorem C184_false_length (o : SlitOpts) (g : SlitIn ny nx) (h : g.slitLength = some none) : ∀ s, plotImageSlit o g ≠ .ok s :=
  fun s hs => ((C184_exact o g).1 ⟨s, hs⟩).2.2.2.2.2.1 h

/-- **C184** (false): with only a 1D spectrum no plot is made, although its angle is looked up for that case. -/
theorem C184_false_1D (o : SlitOpts) (g : SlitIn ny nx) (h : g.spec2D = none) : ∀ s, plotImageSlit o g ≠ .ok s := by
  intro s hs
  obtain ⟨pa, y, hy⟩ := ((C184_exact o g).1 ⟨s, hs⟩).2.2.2.2.1
  rw [h] at hy
  cases hy

theorem slice_empty (n : Nat) (a b : ℤ) (ha : a < 0) (hb : 0 ≤ b) (hab : b - a ≤ n) : pySliceBound n b ≤ pySliceBound n a := by
  unfold pySliceBound
  rw [if_pos ha, if_neg (not_lt.2 hb)]
  omega

/-- **C184** (false): when a field of view no larger than the stamp begins below or left of the stamp, the noise is NaN and with it every
pixel of the image that is shown. -/
theorem C184_false_blank (img : Fin ny → Fin nx → Fl ℝ) (xlim ylim : ℝ × ℝ)
    (h : (npRound ylim.1 < 0 ∧ 0 ≤ npRound ylim.2 ∧ npRound ylim.2 - npRound ylim.1 ≤ ny) ∨
      (npRound xlim.1 < 0 ∧ 0 ≤ npRound xlim.2 ∧ npRound xlim.2 - npRound xlim.1 ≤ nx)) :
    fieldNoise img xlim ylim = .nan := by
  unfold fieldNoise
  simp only
  have hnil : (((List.finRange ny).filter fun j =>
      decide (pySliceBound ny (npRound ylim.1) ≤ j.val) && decide (j.val < pySliceBound ny (npRound ylim.2))).flatMap fun j =>
      ((List.finRange nx).filter fun i => decide (pySliceBound nx (npRound xlim.1) ≤ i.val) &&
        decide (i.val < pySliceBound nx (npRound xlim.2))).map fun i => img j i) = [] := by
    rcases h with ⟨h1, h2, h3⟩ | ⟨h1, h2, h3⟩
    · have he := slice_empty ny _ _ h1 h2 h3
      have hf : ((List.finRange ny).filter fun j => decide (pySliceBound ny (npRound ylim.1) ≤ j.val) &&
          decide (j.val < pySliceBound ny (npRound ylim.2))) = [] := List.filter_eq_nil_iff.2 (fun j _ => by
        simp only [Bool.and_eq_true, decide_eq_true_eq, not_and, not_lt]
        intro h; omega)
      rw [hf]
      rfl
    · have he := slice_empty nx _ _ h1 h2 h3
      rw [List.flatMap_eq_nil_iff]
      intro j _
      rw [List.filter_eq_nil_iff.2 (fun i _ => by
        simp only [Bool.and_eq_true, decide_eq_true_eq, not_and, not_lt]
        intro h; omega)]
      rfl
  rw [hnil]
  rfl

/-! ## C185: downsampling -/

theorem boxIntegrate_getD {K : Type} [Field K] [LinearOrder K] {n m : Nat} (x y : Fin n → K) (l : List K) (p : Fin m) (v : Fl K)
    (h : (boxIntegrate x y l)[(p : Nat)]? = some v) : (boxIntegrate x y l).getD p .nan = v := by
  rw [List.getD_eq_getElem?_getD, h]
  rfl

/-- **C185** (partial): a new pixel whose edges are strictly inside old pixels, in both directions those of different ones, receives the
average over its area.  Missing: `C185_false_same`. -/
theorem C185_average_partial {K : Type} [Field K] [LinearOrder K] [IsStrictOrderedRing K] {ny nx my mx : Nat} (hny : 2 ≤ ny) (hnx : 2 ≤ nx)
    (hmy : 2 ≤ my) (hmx : 2 ≤ mx) (x0 y0 d x0' y0' d' : K) (hd : 0 < d) (hd' : 0 < d') (img : Fin ny → Fin nx → K)
    (q : Fin my) (p : Fin mx) (j1 j2 : Fin ny) (i1 i2 : Fin nx) (hj : j1 < j2) (hi : i1 < i2)
    (hx1 : uniform nx x0 d i1 - d / 2 < uniform mx x0' d' p - d' / 2)
    (hx2 : uniform mx x0' d' p - d' / 2 < uniform nx x0 d i1 + d / 2)
    (hx3 : uniform nx x0 d i2 - d / 2 < uniform mx x0' d' p + d' / 2)
    (hx4 : uniform mx x0' d' p + d' / 2 < uniform nx x0 d i2 + d / 2)
    (hy1 : uniform ny y0 d j1 - d / 2 < uniform my y0' d' q - d' / 2)
    (hy2 : uniform my y0' d' q - d' / 2 < uniform ny y0 d j1 + d / 2)
    (hy3 : uniform ny y0 d j2 - d / 2 < uniform my y0' d' q + d' / 2)
    (hy4 : uniform my y0' d' q + d' / 2 < uniform ny y0 d j2 + d / 2) :
    boxIntegratePstamp img (uniform nx x0 d) (uniform ny y0 d) (uniform mx x0' d') (uniform my y0' d') q p =
      .fin ((∑ j, ∑ i, img j i *
        (overlapLen (uniform ny y0 d j - d / 2) (uniform ny y0 d j + d / 2) (uniform my y0' d' q - d' / 2) (uniform my y0' d' q + d' / 2) *
         overlapLen (uniform nx x0 d i - d / 2) (uniform nx x0 d i + d / 2) (uniform mx x0' d' p - d' / 2) (uniform mx x0' d' p + d' / 2)))
        / (d' * d')) := by
  have h1 : ∀ i : Fin nx, (boxIntegrate (uniform ny y0 d) (fun k => img k i) (List.ofFn (uniform my y0' d'))).getD q .nan =
      .fin ((∑ k, img k i * overlapLen (uniform ny y0 d k - d / 2) (uniform ny y0 d k + d / 2)
        (uniform my y0' d' q - d' / 2) (uniform my y0' d' q + d' / 2)) / d') := fun i =>
    boxIntegrate_getD _ _ _ q _ (C89_average_partial hny hmy y0 d y0' d' hd hd' (fun k => img k i) q j1 j2 hj hy1 hy2 hy3 hy4)
  unfold boxIntegratePstamp
  simp only [h1, Fl.isFinite, implies_true, if_true, Fl.num]
  rw [boxIntegrate_getD _ _ _ p _ (C89_average_partial hnx hmx x0 d x0' d' hd hd' _ p i1 i2 hi hx1 hx2 hx3 hx4)]
  congr 1
  rw [Finset.sum_comm, ← div_div]
  congr 1
  rw [Finset.sum_div]
  refine Finset.sum_congr rfl fun i _ => ?_
  rw [div_mul_eq_mul_div, Finset.sum_mul]
  congr 1
  exact Finset.sum_congr rfl fun j _ => mul_assoc _ _ _

/-- **C185** (false): downsampling onto the pixels that are already there multiplies the image by nine. -/
theorem C185_false_same {K : Type} [Field K] [LinearOrder K] [IsStrictOrderedRing K] {ny nx : Nat} (hny : 2 ≤ ny) (hnx : 2 ≤ nx)
    (x0 y0 d : K) (hd : 0 < d) (img : Fin ny → Fin nx → K) (j : Fin ny) (i : Fin nx) :
    boxIntegratePstamp img (uniform nx x0 d) (uniform ny y0 d) (uniform nx x0 d) (uniform ny y0 d) j i = .fin (9 * img j i) := by
  unfold boxIntegratePstamp
  have h1 : ∀ i : Fin nx, (boxIntegrate (uniform ny y0 d) (fun k => img k i) (List.ofFn (uniform ny y0 d))).getD j .nan =
      .fin (3 * img j i) := by
    intro i
    rw [C89_false_same hny y0 d hd, List.getD_eq_getElem?_getD, List.getElem?_ofFn, dif_pos j.2]
    rfl
  simp only [h1, Fl.isFinite, implies_true, if_true]
  rw [C89_false_same hnx x0 d hd, List.getD_eq_getElem?_getD, List.getElem?_ofFn, dif_pos i.2]
  simp only [Fl.num, Option.getD_some]
  congr 1
  ring

/-- the weight of an old pixel in a new one along one axis: common length plus extra length -/
def boxWeight {K : Type} [Field K] [LinearOrder K] (n m : Nat) (x0 d x0' d' : K) (k : Fin n) (p : Fin m) : K :=
  overlapLen (uniform n x0 d k - d / 2) (uniform n x0 d k + d / 2) (uniform m x0' d' p - d' / 2) (uniform m x0' d' p + d' / 2) +
    boxExtra ((k : Nat) = 0) ((k : Nat) + 1 = n) (uniform n x0 d k - d / 2) d (uniform m x0' d' p - d' / 2)
      (uniform m x0' d' p + d' / 2)

/-- **C185**, exact: every pixel of the new image is the sum of the old values weighted with the product of the weights along the
axes (common length plus the extra length of `C89_exact`), over the area of the new pixel. -/
theorem C185_exact {K : Type} [Field K] [LinearOrder K] [IsStrictOrderedRing K] {ny nx my mx : Nat} (hny : 2 ≤ ny) (hnx : 2 ≤ nx)
    (hmy : 2 ≤ my) (hmx : 2 ≤ mx) (x0 y0 d x0' y0' d' : K) (hd : 0 < d) (hd' : 0 < d') (img : Fin ny → Fin nx → K)
    (q : Fin my) (p : Fin mx) :
    boxIntegratePstamp img (uniform nx x0 d) (uniform ny y0 d) (uniform mx x0' d') (uniform my y0' d') q p =
      .fin ((∑ j, ∑ i, img j i * (boxWeight ny my y0 d y0' d' j q * boxWeight nx mx x0 d x0' d' i p)) / (d' * d')) := by
  have h1 : ∀ i : Fin nx, (boxIntegrate (uniform ny y0 d) (fun k => img k i) (List.ofFn (uniform my y0' d'))).getD q .nan =
      .fin ((∑ k, img k i * boxWeight ny my y0 d y0' d' k q) / d') := fun i =>
    boxIntegrate_getD _ _ _ q _ ((C89_exact hny hmy y0 d y0' d' hd hd' q _ _ rfl rfl).1 fun k => img k i)
  unfold boxIntegratePstamp
  simp only [h1, Fl.isFinite, implies_true, if_true, Fl.num]
  rw [boxIntegrate_getD _ _ _ p _ ((C89_exact hnx hmx x0 d x0' d' hd hd' p _ _ rfl rfl).1 _)]
  congr 1
  rw [Finset.sum_comm, ← div_div]
  congr 1
  rw [Finset.sum_div]
  refine Finset.sum_congr rfl fun i _ => ?_
  rw [div_mul_eq_mul_div, Finset.sum_mul]
  congr 1
  exact Finset.sum_congr rfl fun j _ => mul_assoc _ _ _

/-- pixels of width 1 averaged to pixels of width 3/2 -/
example : boxIntegratePstamp (K := ℚ) (ny := 4) (nx := 4) (my := 2) (mx := 2) (fun j i => (j.val : ℚ) * 10 + i.val) (uniform 4 0 1)
    (uniform 4 0 1) (uniform 2 1 (3 / 2)) (uniform 2 1 (3 / 2)) 0 1 = .fin (25 / 2) := by
  decide +kernel

/-! ## C186: resolution -/

/-- **C186**: the width of the kernel and that of the image add in quadrature to that of the spectrum. -/
theorem C186_width (fwhmSpec fwhmImg : ℝ) (h0 : 0 ≤ fwhmImg) (h : fwhmImg ≤ fwhmSpec) :
    ∃ F, convFwhm fwhmSpec fwhmImg = .fin F ∧ 0 ≤ F ∧ F ^ 2 + fwhmImg ^ 2 = fwhmSpec ^ 2 := by
  have h1 : 0 ≤ fwhmSpec ^ 2 - fwhmImg ^ 2 := by nlinarith
  refine ⟨Real.sqrt (fwhmSpec ^ 2 - fwhmImg ^ 2), ?_, Real.sqrt_nonneg _, ?_⟩
  · simp only [convFwhm, Fl.sqrt]
    rw [if_neg (not_lt.2 h1)]
  · rw [Real.sq_sqrt h1]
    ring

/-- **C186** (false): an image that is not sharper than the spectrum becomes NaN everywhere (Gaussian PSF). -/
theorem C186_false_sharp (psf : PSF) (hk : psf.kind = .gaussian) (pix fwhmImg x0 y0 : ℝ) (h0 : 0 ≤ psf.fwhm) (h : psf.fwhm ≤ fwhmImg)
    (rot : Fin ny → Fin nx → ℝ) :
    convolveRot psf pix (convFwhm psf.fwhm fwhmImg) rot x0 y0 = .ok fun _ _ => .nan := by
  rcases h.lt_or_eq with h | h
  · have : psf.fwhm ^ 2 - fwhmImg ^ 2 < 0 := by nlinarith
    simp only [convFwhm, Fl.sqrt]
    rw [if_pos this]
    unfold convolveRot
    rw [hk]
  · simp only [convFwhm, Fl.sqrt]
    rw [h, sub_self, if_neg (lt_irrefl _), Real.sqrt_zero]
    unfold convolveRot
    rw [hk]
    simp

theorem fin_mul_div (a b c : ℝ) (hc : c ≠ 0) : (.fin a * (.fin b / .fin c) : Fl ℝ) = .fin (a * (b / c)) := by
  rw [Fl.fin_div, if_neg hc, Fl.fin_mul]

theorem rotKernel_pos (psf : PSF) (hp : (psf.kind = .gaussian ∧ psf.dither = none) ∨ (psf.kind = .moffat ∧ 1 < psf.beta))
    (pix F x0 y0 : ℝ) (hF : F ≠ 0) (j : Fin ny) (i : Fin nx) : 0 < rotKernel psf pix F x0 y0 ny nx j i := by
  unfold rotKernel PSF.stampAt
  rcases hp with ⟨h1, h2⟩ | ⟨h1, h2⟩
  · simp only [h1, h2, withDither, gaussStampAt]
    exact Real.exp_pos _
  · simp only [h1, withDither, moffatStampAt]
    have hb : (1 : ℝ) < 2 ^ (1 / psf.beta) := Real.one_lt_rpow (by norm_num) (by positivity)
    have hs : 0 < Real.sqrt ((2 : ℝ) ^ (1 / psf.beta) - 1) := Real.sqrt_pos.2 (by linarith)
    have ha : F / (2 * Real.sqrt ((2 : ℝ) ^ (1 / psf.beta) - 1)) ≠ 0 := div_ne_zero hF (by positivity)
    have ha2 := sq_pos_of_ne_zero ha
    have hpi := Real.pi_pos
    refine mul_pos (div_pos (by linarith) (by positivity)) (Real.rpow_pos_of_pos ?_ _)
    positivity

/-- **C186**: convolving an image without negative values keeps the total flux. -/
theorem C186_flux (psf : PSF) (hp : (psf.kind = .gaussian ∧ psf.dither = none) ∨ (psf.kind = .moffat ∧ 1 < psf.beta))
    (pix F x0 y0 : ℝ) (hF : F ≠ 0) (rot : Fin ny → Fin nx → ℝ) (hr : ∀ y x, 0 ≤ rot y x) (h0 : ∃ y x, rot y x ≠ 0) :
    ∃ v : Fin ny → Fin nx → ℝ, convolveRot psf pix (.fin F) rot x0 y0 = .ok (fun y x => .fin (v y x)) ∧
      (∀ y x, 0 ≤ v y x) ∧ ∑ y, ∑ x, v y x = ∑ y, ∑ x, rot y x := by
  obtain ⟨conv, hconv⟩ : ∃ conv, conv = convSame2 rot (rotKernel psf pix F x0 y0 ny nx) := ⟨_, rfl⟩
  have hnn : ∀ y x, 0 ≤ conv y x := by
    intro y x
    rw [hconv]
    exact convSame2_nonneg _ _ hr (fun j i => (rotKernel_pos psf hp pix F x0 y0 hF j i).le) y x
  have hpos : 0 < ∑ y, ∑ x, conv y x := by
    obtain ⟨y, x, hyx⟩ := h0
    have hyx : 0 < rot y x := lt_of_le_of_ne (hr y x) (Ne.symm hyx)
    have hy := y.2
    have hx := x.2
    have h1 : 0 < conv y x := by
      rw [hconv, convSame2_source]
      have hterm : ∀ y' x', 0 ≤ rot y' x' * ext (fun j => ext (rotKernel psf pix F x0 y0 ny nx j) ((x : ℤ) - x' + ((nx - 1) / 2 : ℕ)))
          ((y : ℤ) - y' + ((ny - 1) / 2 : ℕ)) := fun y' x' => mul_nonneg (hr _ _)
        (ext_nonneg _ (fun j => ext_nonneg _ (fun i => (rotKernel_pos psf hp pix F x0 y0 hF j i).le) _) _)
      have hself : ext (fun j => ext (rotKernel psf pix F x0 y0 ny nx j) ((x : ℤ) - x + ((nx - 1) / 2 : ℕ)))
          ((y : ℤ) - y + ((ny - 1) / 2 : ℕ)) =
          rotKernel psf pix F x0 y0 ny nx ⟨(ny - 1) / 2, by omega⟩ ⟨(nx - 1) / 2, by omega⟩ := by
        rw [sub_self, zero_add, sub_self, zero_add]
        have e1 := ext_val (fun j => ext (rotKernel psf pix F x0 y0 ny nx j) (((nx - 1) / 2 : ℕ) : ℤ)) ⟨(ny - 1) / 2, by omega⟩
        have e2 := ext_val (rotKernel psf pix F x0 y0 ny nx ⟨(ny - 1) / 2, by omega⟩) ⟨(nx - 1) / 2, by omega⟩
        simp only at e1 e2
        rw [e1, e2]
      refine lt_of_lt_of_le ?_ (Finset.single_le_sum (f := fun y' => ∑ x', rot y' x' *
        ext (fun j => ext (rotKernel psf pix F x0 y0 ny nx j) ((x : ℤ) - x' + ((nx - 1) / 2 : ℕ)))
          ((y : ℤ) - y' + ((ny - 1) / 2 : ℕ))) (fun y' _ => Finset.sum_nonneg fun x' _ => hterm y' x') (Finset.mem_univ y))
      refine lt_of_lt_of_le ?_ (Finset.single_le_sum (f := fun x' => rot y x' *
        ext (fun j => ext (rotKernel psf pix F x0 y0 ny nx j) ((x : ℤ) - x' + ((nx - 1) / 2 : ℕ)))
          ((y : ℤ) - y + ((ny - 1) / 2 : ℕ))) (fun x' _ => hterm y x') (Finset.mem_univ x))
      simp only [hself]
      exact mul_pos hyx (rotKernel_pos psf hp pix F x0 y0 hF _ _)
    refine lt_of_lt_of_le h1 (le_trans ?_ (Finset.single_le_sum (f := fun y => ∑ x, conv y x)
      (fun y _ => Finset.sum_nonneg fun x _ => hnn y x) (Finset.mem_univ y)))
    exact Finset.single_le_sum (f := fun x => conv y x) (fun x _ => hnn y x) (Finset.mem_univ x)
  refine ⟨fun y x => conv y x * ((∑ y, ∑ x, rot y x) / ∑ y, ∑ x, conv y x), ?_, ?_, ?_⟩
  · unfold convolveRot
    rcases hp with ⟨h1, h2⟩ | ⟨h1, h2⟩
    · simp only [h1, if_neg hF, ← hconv, fin_mul_div _ _ _ hpos.ne']
    · simp only [h1]
      rw [if_neg (by rintro (h | h); · linarith
                     · exact hF h)]
      simp only [← hconv, fin_mul_div _ _ _ hpos.ne']
  · intro y x
    exact mul_nonneg (hnn y x) (div_nonneg (Finset.sum_nonneg fun _ _ => Finset.sum_nonneg fun _ _ => hr _ _) hpos.le)
  · simp only [← Finset.sum_mul]
    field_simp

/-- **C186** (false): convolving moves the image.  A point source appears brightest, and only there, at its position plus the distance of
the object from the middle pixel of the stamp. -/
theorem C186_false_shift (psf : PSF) (hk : psf.kind = .gaussian) (hdi : psf.dither = none) (pix F : ℝ) (hpix : pix ≠ 0) (hF : F ≠ 0)
    (j0 : Fin ny) (i0 : Fin nx) (ys yt : Fin ny) (xs xt : Fin nx) (hy : (yt : ℤ) = ys + (j0 - ((ny - 1) / 2 : ℕ)))
    (hx : (xt : ℤ) = xs + (i0 - ((nx - 1) / 2 : ℕ))) (v : Fin ny → Fin nx → ℝ)
    (hv : convolveRot psf pix (.fin F) (fun y x => if y = ys ∧ x = xs then 1 else 0) i0 j0 = .ok (fun y x => .fin (v y x)))
    (y : Fin ny) (x : Fin nx) (hne : ¬(y = yt ∧ x = xt)) : v y x < v yt xt := by
  obtain ⟨rot, hrot⟩ : ∃ rot : Fin ny → Fin nx → ℝ, rot = fun y x => if y = ys ∧ x = xs then 1 else 0 := ⟨_, rfl⟩
  rw [← hrot] at hv
  have hp : (psf.kind = .gaussian ∧ psf.dither = none) ∨ (psf.kind = .moffat ∧ 1 < psf.beta) := Or.inl ⟨hk, hdi⟩
  have hval : ∀ y x, convSame2 rot (rotKernel psf pix F i0 j0 ny nx) y x =
      ext (fun j => ext (rotKernel psf pix F i0 j0 ny nx j) ((x : ℤ) - xs + ((nx - 1) / 2 : ℕ))) ((y : ℤ) - ys + ((ny - 1) / 2 : ℕ)) := by
    intro y x
    rw [convSame2_source, Finset.sum_eq_single ys, Finset.sum_eq_single xs]
    · simp [hrot]
    · intro b _ hb; simp [hrot, hb]
    · simp
    · intro b _ hb; simp [hrot, hb]
    · simp
  have hpk : convSame2 rot (rotKernel psf pix F i0 j0 ny nx) yt xt = 1 := by
    rw [hval, show (xt : ℤ) - xs + ((nx - 1) / 2 : ℕ) = i0 by omega, show (yt : ℤ) - ys + ((ny - 1) / 2 : ℕ) = j0 by omega, ext_val, ext_val]
    simp [rotKernel, PSF.stampAt, hk, hdi, withDither, gaussStampAt]
  have hoff : convSame2 rot (rotKernel psf pix F i0 j0 ny nx) y x < 1 := by
    rw [hval]
    unfold ext
    split
    · split
      · rename_i h1 h2
        simp only [rotKernel, PSF.stampAt, hk, hdi, withDither, gaussStampAt]
        rw [Real.exp_lt_one_iff]
        have hlog : 0 < Real.log 2 := Real.log_pos (by norm_num)
        have hs : 0 < 2 * (F / (2 * Real.sqrt (2 * Real.log 2))) ^ 2 := by
          have : F / (2 * Real.sqrt (2 * Real.log 2)) ≠ 0 := div_ne_zero hF (by positivity)
          positivity
        refine div_neg_of_neg_of_pos ?_ hs
        have hcase : ((((x : ℤ) - xs + ((nx - 1) / 2 : ℕ)).toNat : ℕ) : ℤ) ≠ i0 ∨
            ((((y : ℤ) - ys + ((ny - 1) / 2 : ℕ)).toNat : ℕ) : ℤ) ≠ j0 := by
          by_contra hc
          push Not at hc
          refine hne ⟨Fin.ext ?_, Fin.ext ?_⟩ <;> omega
        rw [neg_lt_zero]
        rcases hcase with hc | hc
        · have : (((((x : ℤ) - xs + ((nx - 1) / 2 : ℕ)).toNat : ℕ) : ℝ) - i0) ≠ 0 := by
            rw [sub_ne_zero]
            exact_mod_cast hc
          positivity
        · have : (((((y : ℤ) - ys + ((ny - 1) / 2 : ℕ)).toNat : ℕ) : ℝ) - j0) ≠ 0 := by
            rw [sub_ne_zero]
            exact_mod_cast hc
          positivity
      · exact one_pos
    · exact one_pos
  obtain ⟨w, hw, -, hsum⟩ := C186_flux psf hp pix F i0 j0 hF rot (by intro y x; rw [hrot]; dsimp only; split <;> norm_num)
    ⟨ys, xs, by rw [hrot]; simp⟩
  have hconvp : 0 < ∑ y, ∑ x, convSame2 rot (rotKernel psf pix F i0 j0 ny nx) y x := by
    have hnn : ∀ y x, 0 ≤ convSame2 rot (rotKernel psf pix F i0 j0 ny nx) y x := fun y x =>
      convSame2_nonneg _ _ (by intro y x; rw [hrot]; dsimp only; split <;> norm_num)
        (fun j i => (rotKernel_pos psf hp pix F i0 j0 hF j i).le) y x
    refine lt_of_lt_of_le (hpk ▸ one_pos) (le_trans ?_ (Finset.single_le_sum
      (f := fun y => ∑ x, convSame2 rot (rotKernel psf pix F i0 j0 ny nx) y x)
      (fun y _ => Finset.sum_nonneg fun x _ => hnn y x) (Finset.mem_univ yt)))
    exact Finset.single_le_sum (f := fun x => convSame2 rot (rotKernel psf pix F i0 j0 ny nx) yt x) (fun x _ => hnn yt x) (Finset.mem_univ xt)
  have hone : ∑ y, ∑ x, rot y x = 1 := by
    rw [Finset.sum_eq_single ys, Finset.sum_eq_single xs]
    · simp [hrot]
    · intro b _ hb; simp [hrot, hb]
    · simp
    · intro b _ hb; simp [hrot, hb]
    · simp
  have hform : ∀ y x, v y x = convSame2 rot (rotKernel psf pix F i0 j0 ny nx) y x *
      (1 / ∑ y, ∑ x, convSame2 rot (rotKernel psf pix F i0 j0 ny nx) y x) := by
    intro y x
    unfold convolveRot at hv
    simp only [hk, if_neg hF, hone, fin_mul_div _ _ _ hconvp.ne', Except.ok.injEq] at hv
    have h1 := congrFun (congrFun hv y) x
    exact ((Fl.fin.injEq _ _).mp h1).symm
  rw [hform, hform, hpk]
  exact mul_lt_mul_of_pos_right hoff (one_div_pos.2 hconvp)

/-! ## C187: the ellipse and the slit -/

theorem arctan_tan_mod (d : ℝ) (hd : cos (d * π / 180) ≠ 0) : ∃ k : ℤ, arctan (tan (d * π / 180)) * 180 / π = d + 180 * k := by
  have hpi := pi_pos
  have hc : cos (arctan (tan (d * π / 180))) ≠ 0 := (cos_arctan_pos _).ne'
  have ht : tan (arctan (tan (d * π / 180))) = tan (d * π / 180) := tan_arctan _
  obtain ⟨A, hA⟩ : ∃ A, A = arctan (tan (d * π / 180)) := ⟨_, rfl⟩
  rw [← hA] at hc ht
  rw [tan_eq_sin_div_cos A, tan_eq_sin_div_cos, div_eq_div_iff hc hd] at ht
  have hs : sin (A - d * π / 180) = 0 := by
    rw [sin_sub]
    linarith
  rw [hA] at hs
  obtain ⟨k, hk⟩ := sin_eq_zero_iff.1 hs
  refine ⟨k, ?_⟩
  have : arctan (tan (d * π / 180)) = k * π + d * π / 180 := by linarith
  rw [this]
  field_simp
  ring

/-- **C187**: the angle from the slit to the major axis in the panel is the angle stored with the galaxy, up to half turns, with and without
rotation of the image (away from odd multiples of 90 degrees). -/
theorem C187_angle (o : SlitOpts) (g : SlitIn ny nx) (s : SlitPlot) (h : plotImageSlit o g = .ok s) (len : ℝ)
    (hl : g.slitLength = some (some len)) (slitPA yoff : ℝ) (hspec : g.spec2D = some (some slitPA, some yoff))
    (hc1 : cos (g.sersicPA * π / 180) ≠ 0) (hc2 : cos ((g.sersicPA - (slitPA - g.imgPA)) * π / 180) ≠ 0)
    (a : SlitAngles) (ha : a.generateModel = false) (h1 : a.slitPA = slitPA) (h2 : a.imgPA = g.imgPA) (h3 : a.sersicPA = g.sersicPA) :
    ∃ p q r t ang delt, s.slit = [p, q, r, t, p] ∧ (∃ c : ℝ, t - p = c • slitDir ang) ∧
      (calcSlitOffsetAngles a).map SlitAngles.deltPA = .ok (some delt) ∧ (o.rotate = true → s.angle = delt ∧ ang = 0) ∧
      ∃ k : ℤ, s.angle - ang = delt + 180 * k := by
  have hang : g.slitAngle = .ok (slitPA - g.imgPA) := by
    unfold SlitIn.slitAngle
    rw [hspec]
  have key : ∀ (scale : ℝ) (rows : Nat) (obj gal : ℝ × ℝ) (noise : ℝ × ℝ → ℝ × ℝ → Fl ℝ),
      slitPanel o g scale rows obj gal noise = .ok s →
      s.angle = arctan (tan ((g.sersicPA - (if o.rotate then slitPA - g.imgPA else 0)) * π / 180)) * 180 / π := by
    intro scale rows obj gal noise h
    unfold slitPanel at h
    simp only [hl, hspec, hang] at h
    cases hr : o.rotate with
    | true => simp only [hr, if_true] at h; cases h; simp
    | false => simp only [hr, Bool.false_eq_true, if_false] at h; cases h; simp
  have hA : s.angle = arctan (tan ((g.sersicPA - (if o.rotate then slitPA - g.imgPA else 0)) * π / 180)) * 180 / π := by
    have h := h
    unfold plotImageSlit at h
    split at h
    · cases h
    · cases h
    · split at h
      · simp only at h
        split at h
        · split at h
          · cases h
          · split at h
            · cases h
            · split at h
              · cases h
              · exact key _ _ _ _ _ h
        · exact key _ _ _ _ _ h
      · cases h
  obtain ⟨p, q, r, t, y', ang, e1, -, e3, e4, -, e6, -, -⟩ := C183_slit_partial o g s h len hl
  refine ⟨p, q, r, t, ang, arctan (tan ((g.sersicPA - (slitPA - g.imgPA)) * π / 180)) * 180 / π, e1, ⟨_, e6⟩, ?_, ?_, ?_⟩
  · unfold calcSlitOffsetAngles
    rw [ha, h1, h2, h3]
    rfl
  · intro hr
    refine ⟨?_, e3 hr⟩
    rw [hA, if_pos hr]
  · cases hr : o.rotate with
    | true =>
      refine ⟨0, ?_⟩
      rw [hA, e3 hr, if_pos hr]
      push_cast
      ring
    | false =>
      have hang' := e4 hr
      rw [hang] at hang'
      have hangv : slitPA - g.imgPA = ang := by simpa using hang'
      obtain ⟨k1, hk1⟩ := arctan_tan_mod _ hc1
      obtain ⟨k2, hk2⟩ := arctan_tan_mod _ hc2
      refine ⟨k1 - k2, ?_⟩
      rw [hA, hr, hk2]
      simp only [Bool.false_eq_true, if_false, sub_zero]
      rw [hk1, ← hangv]
      push_cast
      ring

/-- **C187**: the half axes are the effective radius and `q` times it, in pixels of the panel; both are widened as the seeing is
added when `convolve` is set. -/
theorem C187_axes (o : SlitOpts) (g : SlitIn ny nx) (s : SlitPlot) (h : plotImageSlit o g = .ok s) :
    s.semi = (if o.convolve then (Real.sqrt ((g.re * g.q) ^ 2 + (g.fwhm / 2) ^ 2) / s.scale, Real.sqrt (g.re ^ 2 + (g.fwhm / 2) ^ 2) / s.scale)
      else (g.re * g.q / s.scale, g.re / s.scale)) := by
  have key : ∀ (scale : ℝ) (rows : Nat) (obj gal : ℝ × ℝ) (noise : ℝ × ℝ → ℝ × ℝ → Fl ℝ),
      slitPanel o g scale rows obj gal noise = .ok s →
      s.semi = (if o.convolve then (Real.sqrt ((g.re * g.q) ^ 2 + (g.fwhm / 2) ^ 2) / s.scale,
        Real.sqrt (g.re ^ 2 + (g.fwhm / 2) ^ 2) / s.scale) else (g.re * g.q / s.scale, g.re / s.scale)) := by
    intro scale rows obj gal noise h
    unfold slitPanel at h
    simp only at h
    split at h
    · cases h
    · split at h
      · cases h
      · cases h
      · split at h
        · cases h
        · split at h
          · cases h
          · cases h
            cases o.convolve <;> simp [convolvedRadius_eq]
  unfold plotImageSlit at h
  split at h
  · cases h
  · cases h
  · split at h
    · simp only at h
      split at h
      · split at h
        · cases h
        · split at h
          · cases h
          · split at h
            · cases h
            · exact key _ _ _ _ _ h
      · exact key _ _ _ _ _ h
    · cases h

/-- **C187**: the bar is 1 kpc long if the effective radius in kpc is known, otherwise 0.25 arcsec. -/
theorem C187_bar (o : SlitOpts) (g : SlitIn ny nx) (s : SlitPlot) (h : plotImageSlit o g = .ok s) :
    (∀ k, g.reKpc = some k → s.bar = g.re / k / s.scale) ∧ (g.reKpc = none → s.bar = 0.25 / s.scale) := by
  have key : ∀ scale rows obj gal noise, slitPanel o g scale rows obj gal noise = .ok s →
      (∀ k, g.reKpc = some k → s.bar = g.re / k / s.scale) ∧ (g.reKpc = none → s.bar = 0.25 / s.scale) := by
    intro scale rows obj gal noise h
    unfold slitPanel at h
    simp only at h
    split at h
    · cases h
    · split at h
      · cases h
      · cases h
      · split at h
        · cases h
        · split at h
          · cases h
          · cases h
            exact ⟨fun k hk => by simp only [hk], fun hk => by simp only [hk]⟩
  unfold plotImageSlit at h
  split at h
  · cases h
  · cases h
  · split at h
    · simp only at h
      split at h
      · split at h
        · cases h
        · split at h
          · cases h
          · split at h
            · cases h
            · exact key _ _ _ _ _ h
      · exact key _ _ _ _ _ h
    · cases h

/-- **C187** (false): without rotation `convolve` widens the ellipse but leaves the image, and all else, as it is. -/
theorem C187_false_blur (o : SlitOpts) (g : SlitIn ny nx) (hr : o.rotate = false) (hp : 0 < g.pixImg) (hP : 0 < g.pixSpec) (hre : 0 ≤ g.re)
    (hf : g.fwhm ≠ 0) (s s' : SlitPlot)
    (h : plotImageSlit { o with convolve := false } g = .ok s) (h' : plotImageSlit { o with convolve := true } g = .ok s') :
    g.stamp { o with convolve := true } = g.stamp { o with convolve := false } ∧ s' = { s with semi := s'.semi } ∧ s.semi.2 < s'.semi.2 := by
  have hst : ∀ b, g.stamp { o with convolve := b } = .ok g.raw := by
    intro b
    unfold SlitIn.stamp
    simp [hr]
  have key : ∀ (scale : ℝ) (rows : Nat) (obj gal : ℝ × ℝ) (noise : ℝ × ℝ → ℝ × ℝ → Fl ℝ),
      slitPanel { o with convolve := false } g scale rows obj gal noise = .ok s →
      slitPanel { o with convolve := true } g scale rows obj gal noise = .ok s' → s' = { s with semi := s'.semi } := by
    intro scale rows obj gal noise h h'
    unfold slitPanel at h h'
    simp only [hr, Bool.false_eq_true, if_false, if_true] at h h'
    split at h
    · cases h
    · split at h
      · cases h
      · cases h
      · split at h
        · cases h
        · rename_i ha _ _ _ hs _ _ hl
          rw [ha, hs] at h'
          simp only at h'
          rw [hl] at h'
          simp only at h'
          cases h
          cases h'
          rfl
  have hsame : s' = { s with semi := s'.semi } := by
    simp only [hr] at key
    have h := h
    have h' := h'
    unfold plotImageSlit at h h'
    rw [hst] at h h'
    simp only [hr, Bool.false_eq_true, if_false] at h h'
    split at h
    · rename_i hg
      rw [if_pos hg] at h'
      split at h
      · rename_i hd
        rw [if_pos hd] at h'
        split at h
        · cases h
        · rename_i hn
          rw [if_neg hn] at h'
          split at h
          · cases h
          · rename_i m hm
            rw [hm] at h'
            simp only at h'
            split at h
            · cases h
            · rename_i hv
              rw [if_neg hv] at h'
              exact key _ _ _ _ _ h (by rw [hm]; exact h')
      · rename_i hd
        rw [if_neg hd] at h'
        exact key _ _ _ _ _ h h'
    · cases h
  refine ⟨by rw [hst, hst], hsame, ?_⟩
  have hsc : s'.scale = s.scale := by rw [hsame]
  have hpos : 0 < s.scale := by
    rw [(C182_view _ g hp hP s h).1]
    split <;> assumption
  rw [C187_axes _ g s h, C187_axes _ g s' h', hsc]
  simp only [Bool.false_eq_true, if_false, if_true]
  refine div_lt_div_of_pos_right ?_ hpos
  apply Real.lt_sqrt_of_sq_lt
  have : 0 < (g.fwhm / 2) ^ 2 := by positivity
  linarith

/-! ## A galaxy that meets the hypotheses -/

/-- pixels of 0.06 and 0.18 arcsec, a slit of 0.7 by 6 arcsec at 30 degrees on an image at 10 degrees, object in row 4 of 10 -/
noncomputable def exSlitIn : SlitIn 20 20 :=
  { hasRe := true, re := 0.5, q := 0.6, reKpc := some 4, sersicPA := 50, imgPA := 10, spec2D := some (some 30, some 0.3), spec1D := none,
    obj := (9, 10), gal := (9.5, 10.5), raw := fun j i => j.val + i.val, turned := .ok fun j i => j.val + i.val,
    blurred := .ok fun j i => j.val + i.val, pixImg := 0.06, pixSpec := 0.18, fwhm := 0.6, slitWidth := 0.7, slitLength := some (some 6) }

noncomputable def exSlitOpts (rotate convolve downsample : Bool) : SlitOpts :=
  { m0 := some 4, rotate := rotate, convolve := convolve, downsample := downsample, nSpatial := some 10, showGalfit := true, verbose := false }

theorem exSlit_ok (r c d : Bool) : ∃ s, plotImageSlit (exSlitOpts r c d) exSlitIn = .ok s := by
  refine (C184_exact _ _).2 ⟨?_, rfl, rfl, ⟨_, rfl⟩, ⟨_, _, rfl⟩, by simp [exSlitIn], fun _ => ⟨?_, by simp [exSlitOpts], rfl⟩⟩
  · cases r <;> cases c <;> exact ⟨_, rfl⟩
  · unfold nRound exSlitIn
    positivity

/-- C182: 10 rows of 0.18 arcsec are shown in pixels of 0.06 arcsec -/
example : ∃ s, plotImageSlit (exSlitOpts true true false) exSlitIn = .ok s ∧ s.ylim.2 - s.ylim.1 = 30 := by
  obtain ⟨s, h⟩ := exSlit_ok true true false
  obtain ⟨e1, -, e3, -⟩ := C182_view _ exSlitIn (by norm_num [exSlitIn]) (by norm_num [exSlitIn]) s h
  refine ⟨s, h, ?_⟩
  rw [e1] at e3
  norm_num [exSlitOpts, exSlitIn, fieldSize] at e3
  linarith

example : ∃ s, plotImageSlit (exSlitOpts true true true) exSlitIn = .ok s ∧ s.ylim = ((-1 / 2 : ℝ), 10 - 1 / 2) ∧ s.centre.2 = 4 := by
  obtain ⟨s, h⟩ := exSlit_ok true true true
  exact ⟨s, h, by simpa using C182_rows _ exSlitIn (by norm_num [exSlitIn]) (by norm_num [exSlitIn]) s h rfl 10 rfl 4 rfl⟩

/-- C183: an offset of 0.3 arcsec is not drawn as 0.3 arcsec -/
example : ∃ s, plotImageSlit (exSlitOpts false false false) exSlitIn = .ok s ∧
    ∃ a b c d, s.slit = [a, b, c, d, a] ∧ planeDist2 ((1 / 2 : ℝ) • (a + c)) s.obj * s.scale ^ 2 ≠ 0.3 ^ 2 := by
  obtain ⟨s, h⟩ := exSlit_ok false false false
  exact ⟨s, h, C183_false_offset _ exSlitIn (by norm_num [exSlitIn]) (by norm_num [exSlitIn]) s h 6 rfl rfl (by norm_num [exSlitIn]) 0.3 rfl
    (by norm_num)⟩

example : ∃ s, plotImageSlit (exSlitOpts true true true) exSlitIn = .ok s ∧
    ∃ a b c d, s.slit = [a, b, c, d, a] ∧ planeDist2 d a * s.scale ^ 2 < 6 ^ 2 := by
  obtain ⟨s, h⟩ := exSlit_ok true true true
  exact ⟨s, h, C183_false_length _ exSlitIn (by norm_num [exSlitIn]) (by norm_num [exSlitIn]) s h 6 rfl (by norm_num [exSlitIn])
    (by norm_num [exSlitIn])⟩

/-- C184: a field from -1 to 3 on a stamp of 4 by 4 pixels has no pixels to measure the noise with -/
example : fieldNoise (ny := 4) (nx := 4) (fun _ _ => (.fin 1 : Fl ℝ)) ((0 : ℝ), 3) ((-1 : ℝ), 3) = .nan := by
  refine C184_false_blank _ _ _ (Or.inl ?_)
  have h0 : ∀ n : ℤ, npRound (n : ℝ) = n := fun n => by simp [npRound]
  have h1 : npRound (-1 : ℝ) = -1 := by exact_mod_cast h0 (-1)
  have h2 : npRound (3 : ℝ) = 3 := by exact_mod_cast h0 3
  simp only [h1, h2]
  norm_num

/-- C184: the same field one pixel higher -/
example : fieldNoise (K := ℚ) (ny := 4) (nx := 4) (fun j i => .fin (j.val + i.val)) (0, 3) (0, 3) = .fin 1 := by
  decide +kernel

example : fieldNoise (K := ℚ) (ny := 4) (nx := 4) (fun j i => .fin (j.val + i.val)) (0, 3) (-1, 3) = .nan := by
  decide +kernel

/-- C186: widths 0.6 and 0.36 leave 0.48; the object two columns to the right of the middle moves the image by two columns -/
example : ∃ F, convFwhm 0.6 0.36 = .fin F ∧ 0 ≤ F ∧ F ^ 2 + 0.36 ^ 2 = 0.6 ^ 2 := C186_width _ _ (by norm_num) (by norm_num)

example : ∃ v : Fin 5 → Fin 9 → ℝ, convolveRot ⟨.gaussian, 0.6, 0, none⟩ 0.06 (.fin 0.48) (fun y x => if y = 2 ∧ x = 3 then 1 else 0)
    ((6 : Fin 9).val : ℝ) ((2 : Fin 5).val : ℝ) = .ok (fun y x => .fin (v y x)) ∧ v 2 3 < v 2 5 := by
  obtain ⟨v, hv, -⟩ := C186_flux (ny := 5) (nx := 9) ⟨.gaussian, 0.6, 0, none⟩ (Or.inl ⟨rfl, rfl⟩) 0.06 0.48 ((6 : Fin 9).val : ℝ)
    ((2 : Fin 5).val : ℝ) (by norm_num) (fun y x => if y = 2 ∧ x = 3 then 1 else 0) (by intro y x; split <;> norm_num)
    ⟨2, 3, by norm_num⟩
  exact ⟨v, hv, C186_false_shift ⟨.gaussian, 0.6, 0, none⟩ rfl rfl 0.06 0.48 (by norm_num) (by norm_num) 2 6 2 2 3 5 (by decide)
    (by decide) v hv 2 3 (by decide)⟩

/-- C187: 50 - (30 - 10) = 30 degrees from the slit -/
example : ∃ s, plotImageSlit (exSlitOpts true true true) exSlitIn = .ok s ∧ ∃ k : ℤ, s.angle = 30 + 180 * k := by
  obtain ⟨s, h⟩ := exSlit_ok true true true
  have hc : ∀ d : ℝ, -90 < d → d < 90 → cos (d * π / 180) ≠ 0 := fun d h1 h2 =>
    (cos_pos_of_mem_Ioo ⟨by nlinarith [pi_pos], by nlinarith [pi_pos]⟩).ne'
  have hc2 : cos ((50 - (30 - 10) : ℝ) * π / 180) ≠ 0 := hc _ (by norm_num) (by norm_num)
  obtain ⟨p, q, r, t, ang, delt, -, -, hd, hrot, -⟩ := C187_angle _ exSlitIn s h 6 rfl 30 0.3 rfl (hc 50 (by norm_num) (by norm_num))
    hc2 ⟨false, 50, 30, 10, none, none⟩ rfl rfl rfl rfl
  obtain ⟨k, hk⟩ := arctan_tan_mod _ hc2
  refine ⟨s, h, k, ?_⟩
  rw [(hrot rfl).1]
  have : delt = arctan (tan ((50 - (30 - 10)) * π / 180)) * 180 / π := by
    simp [calcSlitOffsetAngles, Except.map] at hd
    exact hd.symm
  rw [this, hk]
  norm_num

example : ∃ s s', plotImageSlit (exSlitOpts false false true) exSlitIn = .ok s ∧ plotImageSlit (exSlitOpts false true true) exSlitIn = .ok s' ∧
    s.semi.2 < s'.semi.2 := by
  obtain ⟨s, h⟩ := exSlit_ok false false true
  obtain ⟨s', h'⟩ := exSlit_ok false true true
  exact ⟨s, s', h, h', (C187_false_blur (exSlitOpts false false true) exSlitIn rfl (by norm_num [exSlitIn]) (by norm_num [exSlitIn])
    (by norm_num [exSlitIn]) (by norm_num [exSlitIn]) s s' h h').2.2⟩

end Misfit
