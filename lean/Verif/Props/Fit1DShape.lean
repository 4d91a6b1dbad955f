import Verif.Props.Fit1DObj

/-!
# C214: asking the 1D fit for a line shape it does not have
-/

namespace Misfit

section Shape
variable {K : Type} [Field K] [LinearOrder K]

/-- **C214**: a line shape other than the Gaussian, given now or before, is refused with `ValueError`. -/
theorem C214_refused (strict : Bool) (g : Gal1D K) (kw : F1Kw K) (o : F1 K) (s : String) (hs : s ≠ "gaussian")
    (h : kw.shape = some s ∨ (kw.shape = none ∧ o.shape = s)) : (F1.setAttr strict g kw o).2 = some .valueError := by
  have : (o.update kw).shape = s := by
    unfold F1.update
    rcases h with h | ⟨h, h'⟩
    · simp [h]
    · simp [h, h']
  unfold F1.setAttr
  simp only [this]
  rw [if_pos hs]

/-- **C214**: an object cannot be made with such a shape; the galaxy is left alone. -/
theorem C214_constructor (strict : Bool) (g : Gal1D K) (kw : F1Kw K) (s : String) (hs : s ≠ "gaussian") (h : kw.shape = some s) :
    (F1.make strict g kw).2 = (g, some .valueError) := by
  have := C214_refused strict g kw { velDisp := 0, delLam := 20 } s hs (Or.inl h)
  unfold F1.make
  cases e : F1.setAttr strict g kw { velDisp := 0, delLam := 20 } with
  | mk o x =>
    rw [e] at this
    cases this
    rfl

/-- **C214** is false: the refused call has taken effect.  Whatever is set afterwards, without the shape, is refused too,
although the same call on the object as it was may be accepted. -/
theorem C214_false (strict : Bool) (g g' : Gal1D K) (kw kw' : F1Kw K) (o : F1 K) (s : String) (hs : s ≠ "gaussian")
    (h : kw.shape = some s) (h' : kw'.shape = none) :
    (F1.setAttr strict g' kw' (F1.setAttr strict g kw o).1).2 = some .valueError := by
  refine C214_refused strict g' kw' _ s hs (Or.inr ⟨h', ?_⟩)
  have : (o.update kw).shape = s := by simp [F1.update, h]
  unfold F1.setAttr
  simp only [this]
  rw [if_pos hs]

/-- the hypotheses are met and the later call, `setAttr(num_MC=10)`, would have been accepted -/
theorem C214_false_witness : (F1.setAttr true toyGal { numMC := some 10 } (toyMake "Halpha").1).2 = none ∧
    (F1.setAttr true toyGal { numMC := some 10 } (F1.setAttr true toyGal { shape := some "voigt" } (toyMake "Halpha").1).1).2 =
      some .valueError :=
  ⟨by decide +kernel, C214_false true toyGal toyGal _ _ _ "voigt" (by decide) rfl rfl⟩

/-- **C214** (partial): after a call refused for its shape, in which nothing else was asked for, naming the Gaussian shape in the
next call gives what that call would have given on the object as it was.  Missing: without naming the shape it is refused. -/
theorem C214_recovers_partial (strict : Bool) (g g' : Gal1D K) (kw : F1Kw K) (o : F1 K) (s : String) (hs : s ≠ "gaussian") :
    F1.setAttr strict g' { kw with shape := some "gaussian" } (F1.setAttr strict g { shape := some s } o).1 =
      F1.setAttr strict g' { kw with shape := some "gaussian" } o := by
  have e : (F1.setAttr strict g { shape := some s } o).1 = { o.update { shape := some s } with z := g.z.map PyNum.val } := by
    unfold F1.setAttr
    simp only
    rw [if_pos (show (o.update { shape := some s }).shape ≠ "gaussian" from hs)]
  rw [e]
  rfl

example : (F1.setAttr true toyGal { shape := some "gaussian", numMC := some 10 }
    (F1.setAttr true toyGal { shape := some "voigt" } (toyMake "Halpha").1).1).2 = none := by
  rw [C214_recovers_partial true toyGal toyGal { numMC := some 10 } _ "voigt" (by decide)]
  decide +kernel

end Shape

end Misfit
