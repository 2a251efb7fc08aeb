import Mathlib.Analysis.SpecialFunctions.Trigonometric.Inverse
import Mathlib.Analysis.SpecialFunctions.Log.Basic
import Mathlib.Analysis.SpecialFunctions.Pow.Real
import Mathlib.Algebra.BigOperators.Group.Finset.Basic

/-!
# `Fl`: scalars with IEEE special values

`Fl` models a numpy float: a finite real (exact arithmetic), the two infinities and NaN.
Rounding, overflow and signed zeros are not modelled (see DESIGN.md).  Used wherever the Python code
can leave the finite reals (division, `log`, `sqrt`, `arccos`, deliberate `inf`/`nan`).
-/

noncomputable section

namespace Vsm

/-- A numpy float64 scalar with exact finite arithmetic. -/
inductive Fl where
  | nan
  | ninf
  | fin (x : ℝ)
  | pinf

namespace Fl

instance : Inhabited Fl := ⟨fin 0⟩
instance : DecidableEq Fl := Classical.decEq _
instance : Zero Fl := ⟨fin 0⟩
instance : One Fl := ⟨fin 1⟩

/-- IEEE negation. -/
protected def neg : Fl → Fl
  | nan => nan
  | ninf => pinf
  | fin x => fin (-x)
  | pinf => ninf

/-- IEEE addition (`inf - inf = nan`). -/
protected def add : Fl → Fl → Fl
  | nan, _ => nan
  | _, nan => nan
  | fin x, fin y => fin (x + y)
  | fin _, pinf => pinf
  | fin _, ninf => ninf
  | pinf, fin _ => pinf
  | ninf, fin _ => ninf
  | pinf, pinf => pinf
  | ninf, ninf => ninf
  | pinf, ninf => nan
  | ninf, pinf => nan

/-- Infinity with the sign of a real; `0` gives `nan` (this is `x * inf`). -/
def infTimes (x : ℝ) : Fl := if 0 < x then pinf else if x < 0 then ninf else nan

/-- IEEE multiplication (`0 * inf = nan`). -/
protected def mul : Fl → Fl → Fl
  | nan, _ => nan
  | _, nan => nan
  | fin x, fin y => fin (x * y)
  | fin x, pinf => infTimes x
  | fin x, ninf => infTimes (-x)
  | pinf, fin x => infTimes x
  | ninf, fin x => infTimes (-x)
  | pinf, pinf => pinf
  | ninf, ninf => pinf
  | pinf, ninf => ninf
  | ninf, pinf => ninf

/-- IEEE division, every zero being `+0` (`x/0 = ±inf`, `0/0 = nan`, `x/inf = 0`, `inf/inf = nan`). -/
protected def div : Fl → Fl → Fl
  | nan, _ => nan
  | _, nan => nan
  | fin x, fin y => if y = 0 then infTimes x else fin (x / y)
  | fin _, pinf => fin 0
  | fin _, ninf => fin 0
  | pinf, fin y => if y < 0 then ninf else pinf
  | ninf, fin y => if y < 0 then pinf else ninf
  | pinf, pinf => nan
  | pinf, ninf => nan
  | ninf, pinf => nan
  | ninf, ninf => nan

instance : Neg Fl := ⟨Fl.neg⟩
instance : Add Fl := ⟨Fl.add⟩
instance : Mul Fl := ⟨Fl.mul⟩
instance : Div Fl := ⟨Fl.div⟩
instance : Sub Fl := ⟨fun a b => a + (-b)⟩

/-- `np.sqrt`: NaN on negatives. -/
def sqrt : Fl → Fl
  | nan => nan
  | ninf => nan
  | fin x => if x < 0 then nan else fin (Real.sqrt x)
  | pinf => pinf

/-- `np.exp`. -/
def exp : Fl → Fl
  | nan => nan
  | ninf => fin 0
  | fin x => fin (Real.exp x)
  | pinf => pinf

/-- `np.log`: `-inf` at zero, NaN on negatives. -/
def log : Fl → Fl
  | nan => nan
  | ninf => nan
  | fin x => if x < 0 then nan else if x = 0 then ninf else fin (Real.log x)
  | pinf => pinf

/-- `np.arccos`: NaN outside `[-1,1]`. -/
def arccos : Fl → Fl
  | fin x => if -1 ≤ x ∧ x ≤ 1 then fin (Real.arccos x) else nan
  | _ => nan

/-- `np.sin` (NaN at the infinities). -/
def sin : Fl → Fl
  | fin x => fin (Real.sin x)
  | _ => nan

/-- `np.cos` (NaN at the infinities). -/
def cos : Fl → Fl
  | fin x => fin (Real.cos x)
  | _ => nan

/-- `np.tan` as `sin/cos`.  At odd multiples of `π/2` (not representable as floats, where numpy returns
a huge number) this is an infinity. -/
def tan (x : Fl) : Fl := sin x / cos x

/-- `x ** y` for a real exponent.  Simplification: a negative base gives NaN for every exponent
(numpy returns a number for integer exponents; the code never raises a negative base). -/
def rpow : Fl → ℝ → Fl
  | nan, y => if y = 0 then fin 1 else nan
  | ninf, y => if y = 0 then fin 1 else nan
  | fin x, y =>
      if x < 0 then (if y = 0 then fin 1 else nan)
      else if x = 0 then (if y = 0 then fin 1 else if y < 0 then pinf else fin 0)
      else fin (x ^ y)
  | pinf, y => if y = 0 then fin 1 else if y < 0 then fin 0 else pinf

/-- IEEE `<`: false as soon as an operand is NaN. -/
protected def lt : Fl → Fl → Prop
  | fin x, fin y => x < y
  | fin _, pinf => True
  | ninf, fin _ => True
  | ninf, pinf => True
  | _, _ => False

/-- IEEE `<=`: false as soon as an operand is NaN. -/
protected def le : Fl → Fl → Prop
  | fin x, fin y => x ≤ y
  | fin _, pinf => True
  | ninf, fin _ => True
  | ninf, pinf => True
  | ninf, ninf => True
  | pinf, pinf => True
  | _, _ => False

instance : LT Fl := ⟨Fl.lt⟩
instance : LE Fl := ⟨Fl.le⟩
instance (a b : Fl) : Decidable (a < b) := Classical.dec _
instance (a b : Fl) : Decidable (a ≤ b) := Classical.dec _

/-- `np.isnan`. -/
def isNan : Fl → Prop
  | nan => True
  | _ => False

instance (a : Fl) : Decidable a.isNan := Classical.dec _

/-- IEEE `==`: NaN is not equal to itself. -/
def feq (a b : Fl) : Prop := a = b ∧ ¬ a.isNan

instance (a b : Fl) : Decidable (feq a b) := Classical.dec _

/-! ### Simp lemmas: finite arithmetic is real arithmetic -/

theorem zero_def : (0 : Fl) = fin 0 := rfl
theorem one_def : (1 : Fl) = fin 1 := rfl

@[simp] theorem fin_inj {x y : ℝ} : fin x = fin y ↔ x = y := ⟨fun h => by cases h; rfl, fun h => h ▸ rfl⟩
@[simp] theorem fin_add (x y : ℝ) : fin x + fin y = fin (x + y) := rfl
@[simp] theorem fin_mul (x y : ℝ) : fin x * fin y = fin (x * y) := rfl
@[simp] theorem neg_fin (x : ℝ) : -fin x = fin (-x) := rfl
@[simp] theorem fin_sub (x y : ℝ) : fin x - fin y = fin (x - y) := by
  change fin (x + -y) = _; rw [sub_eq_add_neg]
theorem fin_div {x y : ℝ} (h : y ≠ 0) : fin x / fin y = fin (x / y) := by
  change (if y = 0 then infTimes x else fin (x / y)) = _; rw [if_neg h]
theorem fin_div_zero (x : ℝ) : fin x / fin 0 = infTimes x := by
  change (if (0:ℝ) = 0 then infTimes x else fin (x / 0)) = _; rw [if_pos rfl]
@[simp] theorem fin_div_pinf (x : ℝ) : fin x / pinf = fin 0 := rfl
@[simp] theorem fin_lt (x y : ℝ) : fin x < fin y ↔ x < y := Iff.rfl
@[simp] theorem fin_le (x y : ℝ) : fin x ≤ fin y ↔ x ≤ y := Iff.rfl
@[simp] theorem fin_lt_pinf (x : ℝ) : fin x < pinf ↔ True := Iff.rfl
@[simp] theorem fin_le_pinf (x : ℝ) : fin x ≤ pinf ↔ True := Iff.rfl
@[simp] theorem pinf_lt (x : Fl) : pinf < x ↔ False := by cases x <;> exact Iff.rfl
@[simp] theorem lt_nan (x : Fl) : x < nan ↔ False := by cases x <;> exact Iff.rfl
@[simp] theorem nan_lt (x : Fl) : nan < x ↔ False := by cases x <;> exact Iff.rfl
@[simp] theorem le_nan (x : Fl) : x ≤ nan ↔ False := by cases x <;> exact Iff.rfl
@[simp] theorem nan_le (x : Fl) : nan ≤ x ↔ False := by cases x <;> exact Iff.rfl
@[simp] theorem pinf_le_fin (x : ℝ) : pinf ≤ fin x ↔ False := Iff.rfl
@[simp] theorem fin_lt_ninf (x : ℝ) : fin x < ninf ↔ False := Iff.rfl
@[simp] theorem fin_le_ninf (x : ℝ) : fin x ≤ ninf ↔ False := Iff.rfl
@[simp] theorem ninf_lt_fin (x : ℝ) : ninf < fin x ↔ True := Iff.rfl
@[simp] theorem ninf_le_fin (x : ℝ) : ninf ≤ fin x ↔ True := Iff.rfl
@[simp] theorem isNan_fin (x : ℝ) : (fin x).isNan ↔ False := Iff.rfl
@[simp] theorem isNan_nan : nan.isNan ↔ True := Iff.rfl
@[simp] theorem isNan_pinf : pinf.isNan ↔ False := Iff.rfl
@[simp] theorem isNan_ninf : ninf.isNan ↔ False := Iff.rfl
theorem isNan_iff {x : Fl} : x.isNan ↔ x = nan := by cases x <;> simp
@[simp] theorem nan_add (x : Fl) : nan + x = nan := by cases x <;> rfl
@[simp] theorem add_nan (x : Fl) : x + nan = nan := by cases x <;> rfl
@[simp] theorem nan_mul (x : Fl) : nan * x = nan := by cases x <;> rfl
@[simp] theorem mul_nan (x : Fl) : x * nan = nan := by cases x <;> rfl
@[simp] theorem nan_div (x : Fl) : nan / x = nan := by cases x <;> rfl
@[simp] theorem div_nan (x : Fl) : x / nan = nan := by cases x <;> rfl
@[simp] theorem neg_nan : -nan = nan := rfl
@[simp] theorem neg_pinf : -pinf = ninf := rfl
@[simp] theorem neg_ninf : -ninf = pinf := rfl
theorem sub_def (x y : Fl) : x - y = x + -y := rfl
@[simp] theorem fin_mul_pinf (x : ℝ) : fin x * pinf = infTimes x := rfl
@[simp] theorem pinf_mul_fin (x : ℝ) : pinf * fin x = infTimes x := rfl
@[simp] theorem fin_sub_pinf (x : ℝ) : fin x - pinf = ninf := rfl
theorem infTimes_pos {x : ℝ} (h : 0 < x) : infTimes x = pinf := by simp [infTimes, h]
theorem infTimes_neg {x : ℝ} (h : x < 0) : infTimes x = ninf := by
  simp [infTimes, h, not_lt.mpr h.le]
@[simp] theorem infTimes_zero : infTimes 0 = nan := by simp [infTimes]
@[simp] theorem exp_fin (x : ℝ) : exp (fin x) = fin (Real.exp x) := rfl
@[simp] theorem sin_fin (x : ℝ) : sin (fin x) = fin (Real.sin x) := rfl
@[simp] theorem cos_fin (x : ℝ) : cos (fin x) = fin (Real.cos x) := rfl
@[simp] theorem sin_nan : sin nan = nan := rfl
@[simp] theorem cos_nan : cos nan = nan := rfl
@[simp] theorem log_pinf : log pinf = pinf := rfl
theorem log_fin {x : ℝ} (h : 0 < x) : log (fin x) = fin (Real.log x) := by
  simp [log, not_lt.mpr h.le, h.ne']
@[simp] theorem log_fin_zero : log (fin 0) = ninf := by simp [log]
theorem sqrt_fin {x : ℝ} (h : 0 ≤ x) : sqrt (fin x) = fin (Real.sqrt x) := by
  simp [sqrt, not_lt.mpr h]
theorem arccos_fin {x : ℝ} (h1 : -1 ≤ x) (h2 : x ≤ 1) : arccos (fin x) = fin (Real.arccos x) := by
  simp [arccos, h1, h2]
theorem arccos_fin_nan {x : ℝ} (h : ¬ (-1 ≤ x ∧ x ≤ 1)) : arccos (fin x) = nan := by
  simp only [arccos]; rw [if_neg h]
theorem rpow_fin {x : ℝ} (h : 0 < x) (y : ℝ) : rpow (fin x) y = fin (x ^ y) := by
  simp [rpow, not_lt.mpr h.le, h.ne']
theorem feq_fin (x y : ℝ) : feq (fin x) (fin y) ↔ x = y := by simp [feq]

/-- Exact `Fl` addition is a commutative monoid, so `np.sum` may be written as a `Finset` sum. -/
instance : AddCommMonoid Fl where
  add_assoc a b c := by
    cases a <;> cases b <;> cases c <;> first | rfl | exact congrArg fin (add_assoc _ _ _)
  zero_add a := by cases a <;> first | rfl | exact congrArg fin (zero_add _)
  add_zero a := by cases a <;> first | rfl | exact congrArg fin (add_zero _)
  add_comm a b := by cases a <;> cases b <;> first | rfl | exact congrArg fin (add_comm _ _)
  nsmul := nsmulRec

theorem sum_fin {ι : Type*} (s : Finset ι) (f : ι → ℝ) :
    ∑ i ∈ s, fin (f i) = fin (∑ i ∈ s, f i) := by
  classical
  induction s using Finset.induction_on with
  | empty => rfl
  | insert a s ha ih => rw [Finset.sum_insert ha, Finset.sum_insert ha, ih, fin_add]

theorem list_sum_fin (l : List ℝ) : (l.map fin).sum = fin l.sum := by
  induction l with
  | nil => rfl
  | cons a l ih => simp [ih]

end Fl
end Vsm
