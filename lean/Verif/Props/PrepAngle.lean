import Verif.Props.Prepare

/-!
# C128: what a galaxy without misalignment leads to

The exact outcome of the preparation of an otherwise complete spectrum, by what is known of the angles.
-/

namespace Misfit

/-- What the angles lead to: a known misalignment is taken; a mock has no image to measure it on; otherwise image, slit and
galaxy angles must all be there. -/
noncomputable def angleOutcome (s : PrepAll) : Option PyErr :=
  if s.gal.deltPA.isSome then none
  else if s.gal.generateModel then some .typeError
  else if s.gal.imgPA = none then some .attributeError
  else if s.gal.imgPA = some none ∨ s.spec.slitPA = none ∨ s.gal.sersicPA = none then some .typeError
  else none

/-- **C128**: an otherwise complete spectrum is prepared exactly if the angles allow it, and raises what they lead to; after
an exception the misalignment is still unknown. -/
theorem C128_angle (O : PrepOracle) (s : PrepAll) (h : PreparableCore O s) : (prepare O s).2 = angleOutcome s ∧
    (angleOutcome s ≠ none → ∃ t, prepare O s = (t, angleOutcome s) ∧ t.gal.deltPA = none) := by
  by_cases hk : AngleKnown s
  · obtain ⟨t, ht, -⟩ := C128_prepares O s h hk
    have : angleOutcome s = none := by
      unfold angleOutcome
      rcases hk with ⟨a, ha⟩ | ⟨h1, a, b, c, h2, h3, h4⟩
      · rw [ha]
        rfl
      · rw [h1, h2, h3, h4]
        simp
    rw [this, ht]
    exact ⟨rfl, fun hn => absurd rfl hn⟩
  · obtain ⟨t, ht, hd, hgm, himg, hser, hsl, -⟩ := prefix_run (O := O) h
    have hno : s.gal.deltPA = none := by
      cases e : s.gal.deltPA with
      | none => rfl
      | some a => exact absurd (Or.inl ⟨a, e⟩) hk
    have hang : angleStep t = (t, angleOutcome s) ∧ angleOutcome s ≠ none := by
      unfold angleStep angleOutcome
      rw [hd, hgm, himg, hser, hsl, hno]
      cases hg : s.gal.generateModel with
      | true => exact ⟨rfl, by simp⟩
      | false =>
        cases hi : s.gal.imgPA with
        | none => exact ⟨rfl, by simp⟩
        | some o =>
          cases o with
          | none => exact ⟨rfl, by simp⟩
          | some a =>
            cases hs : s.spec.slitPA with
            | none => exact ⟨by simp, by simp⟩
            | some b =>
              cases hse : s.gal.sersicPA with
              | none => exact ⟨by simp, by simp⟩
              | some c => exact absurd (Or.inr ⟨hg, a, b, c, hi, hs, hse⟩) hk
    have hrun : runSteps (prepSteps O) s = (t, angleOutcome s) := by
      rw [prepSteps_prefix, runSteps_append_of_ok ht, runSteps, hang.1]
      cases e : angleOutcome s with
      | none => exact absurd e hang.2
      | some x => rfl
    have : prepare O s = (t, angleOutcome s) := by
      unfold prepare
      rw [if_neg (by simp [h.fresh.1]), hrun]
      cases e : angleOutcome s with
      | none => exact absurd e hang.2
      | some x => rfl
    rw [this]
    exact ⟨rfl, fun _ => ⟨t, rfl, hd.trans hno⟩⟩

/-- an image without position angle -/
example (O : PrepOracle) :
    (prepare O { skyAll with gal := { skyAll.gal with deltPA := none, imgPA := some none } }).2 = some .typeError := by
  have h := skyAll_preparable O
  have hp : PreparableCore O { skyAll with gal := { skyAll.gal with deltPA := none, imgPA := some none } } :=
    ⟨h.fresh, h.finite, h.rows, h.columns, h.sky, h.ypos, h.weighting⟩
  rw [(C128_angle O _ hp).1]
  unfold angleOutcome
  cases e : skyAll.gal.generateModel <;> simp

end Misfit
