import Mathlib.Algebra.Order.Field.Basic
import Mathlib.Algebra.BigOperators.Group.Finset.Basic
import Mathlib.Tactic.Ring

/-!
# Numbers, exceptions

Python floats are modelled by exact elements of an ordered field `K`, extended by
the IEEE special values.  Rounding, overflow to infinity and signed zeros are not
modelled (a zero divisor counts as `+0.0`).
-/

namespace Misfit

/-- The Python exceptions raised by the modelled functions.  Messages are dropped. -/
inductive PyErr
  | valueError | indexError | typeError | nameError | attributeError | keyError
  | zeroDivisionError | osError | runtimeError
  deriving DecidableEq, Repr

/-- A numpy `float64`: a finite value or one of the IEEE special values. -/
inductive Fl (K : Type*)
  | fin (x : K) | nan | pinf | ninf
  deriving DecidableEq

set_option linter.unusedSectionVars false

namespace Fl
variable {K : Type*} [Field K] [LinearOrder K]

/-- `np.isfinite` -/
def isFinite : Fl K → Bool
  | fin _ => true
  | _ => false

/-- IEEE addition -/
def add : Fl K → Fl K → Fl K
  | fin a, fin b => fin (a + b)
  | nan, _ => nan
  | _, nan => nan
  | pinf, ninf => nan
  | ninf, pinf => nan
  | pinf, _ => pinf
  | _, pinf => pinf
  | ninf, _ => ninf
  | _, ninf => ninf

/-- IEEE negation -/
def neg : Fl K → Fl K
  | fin a => fin (-a)
  | nan => nan
  | pinf => ninf
  | ninf => pinf

/-- IEEE subtraction -/
def sub (a b : Fl K) : Fl K := add a (neg b)

/-- Infinity with the sign of the non-zero finite number `a`; `0 * inf` is NaN. -/
def infTimes (a : K) : Fl K :=
  if a = 0 then nan else if 0 < a then pinf else ninf

/-- IEEE multiplication -/
def mul : Fl K → Fl K → Fl K
  | fin a, fin b => fin (a * b)
  | nan, _ => nan
  | _, nan => nan
  | pinf, pinf => pinf
  | pinf, ninf => ninf
  | ninf, pinf => ninf
  | ninf, ninf => pinf
  | fin a, pinf => infTimes a
  | pinf, fin a => infTimes a
  | fin a, ninf => infTimes (-a)
  | ninf, fin a => infTimes (-a)

/-- IEEE division (numpy: no exception, `x/0 = ±inf`, `0/0 = nan`). -/
def div : Fl K → Fl K → Fl K
  | fin a, fin b => if b = 0 then infTimes a else fin (a / b)
  | nan, _ => nan
  | _, nan => nan
  | fin _, pinf => fin 0
  | fin _, ninf => fin 0
  | pinf, fin b => if b < 0 then ninf else pinf
  | ninf, fin b => if b < 0 then pinf else ninf
  | _, _ => nan

instance : Add (Fl K) := ⟨add⟩
instance : Neg (Fl K) := ⟨neg⟩
instance : Sub (Fl K) := ⟨sub⟩
instance : Mul (Fl K) := ⟨mul⟩
instance : Div (Fl K) := ⟨div⟩
instance : Zero (Fl K) := ⟨fin 0⟩
instance : One (Fl K) := ⟨fin 1⟩

/-- `x**2` -/
def sq (a : Fl K) : Fl K := a * a

/-- `np.abs` -/
def abs : Fl K → Fl K
  | fin a => fin (if a < 0 then -a else a)
  | nan => nan
  | _ => pinf

/-- IEEE `<=` (false as soon as one side is NaN) -/
def leB : Fl K → Fl K → Bool
  | fin a, fin b => decide (a ≤ b)
  | nan, _ => false
  | _, nan => false
  | ninf, _ => true
  | _, pinf => true
  | _, ninf => false
  | pinf, _ => false

/-- IEEE `<` (false as soon as one side is NaN) -/
def ltB : Fl K → Fl K → Bool
  | fin a, fin b => decide (a < b)
  | nan, _ => false
  | _, nan => false
  | ninf, ninf => false
  | pinf, pinf => false
  | ninf, _ => true
  | _, pinf => true
  | _, ninf => false
  | pinf, _ => false

/-- IEEE `==` (NaN differs from everything) -/
def eqB : Fl K → Fl K → Bool
  | fin a, fin b => decide (a = b)
  | pinf, pinf => true
  | ninf, ninf => true
  | _, _ => false

/-- Addition is commutative and associative (there is no rounding), so `np.sum` over an
array is the `Finset`/`List` sum of this monoid, whatever the order of summation. -/
instance : AddCommMonoid (Fl K) where
  add_assoc a b c := by
    cases a <;> cases b <;> cases c <;>
      simp only [HAdd.hAdd, Add.add, Fl.add, fin.injEq, reduceCtorEq]
    exact add_assoc _ _ _
  zero_add a := by
    cases a <;> simp only [HAdd.hAdd, Add.add, Zero.zero, OfNat.ofNat, Fl.add, fin.injEq]
    exact zero_add _
  add_zero a := by
    cases a <;> simp only [HAdd.hAdd, Add.add, Zero.zero, OfNat.ofNat, Fl.add, fin.injEq]
    exact add_zero _
  add_comm a b := by
    cases a <;> cases b <;>
      simp only [HAdd.hAdd, Add.add, Fl.add, fin.injEq]
    exact add_comm _ _
  nsmul := nsmulRec

@[simp] theorem fin_add (a b : K) : (fin a + fin b : Fl K) = fin (a + b) := rfl
@[simp] theorem fin_sub (a b : K) : (fin a - fin b : Fl K) = fin (a - b) := by
  show fin (a + -b) = fin (a - b)
  rw [sub_eq_add_neg]
@[simp] theorem fin_mul (a b : K) : (fin a * fin b : Fl K) = fin (a * b) := rfl
@[simp] theorem fin_neg (a : K) : (-fin a : Fl K) = fin (-a) := rfl
theorem fin_div (a b : K) :
    (fin a / fin b : Fl K) = if b = 0 then infTimes a else fin (a / b) := rfl
@[simp] theorem zero_def : (0 : Fl K) = fin 0 := rfl
@[simp] theorem one_def : (1 : Fl K) = fin 1 := rfl

/-- sums of finite values -/
theorem fin_sum {ι : Type*} (s : Finset ι) (f : ι → K) :
    ∑ i ∈ s, (fin (f i) : Fl K) = fin (∑ i ∈ s, f i) := by
  classical
  induction s using Finset.induction_on with
  | empty => rfl
  | insert a s ha ih => rw [Finset.sum_insert ha, Finset.sum_insert ha, ih]; rfl

theorem fin_list_sum {ι : Type*} (l : List ι) (f : ι → K) :
    (l.map (fun i => (fin (f i) : Fl K))).sum = fin (l.map f).sum := by
  induction l with
  | nil => rfl
  | cons a l ih => simp only [List.map_cons, List.sum_cons, ih]; rfl

@[simp] theorem isFinite_fin (a : K) : (fin a : Fl K).isFinite = true := rfl
@[simp] theorem isFinite_nan : (nan : Fl K).isFinite = false := rfl
@[simp] theorem isFinite_pinf : (pinf : Fl K).isFinite = false := rfl
@[simp] theorem isFinite_ninf : (ninf : Fl K).isFinite = false := rfl
@[simp] theorem leB_fin (a b : K) : leB (fin a) (fin b) = decide (a ≤ b) := rfl
@[simp] theorem ltB_fin (a b : K) : ltB (fin a) (fin b) = decide (a < b) := rfl
@[simp] theorem eqB_fin (a b : K) : eqB (fin a) (fin b) = decide (a = b) := rfl

theorem exists_of_isFinite {a : Fl K} (h : a.isFinite = true) : ∃ x, a = fin x := by
  cases a with
  | fin x => exact ⟨x, rfl⟩
  | nan => simp at h
  | pinf => simp at h
  | ninf => simp at h

end Fl
end Misfit
