import Verif.Fl
import Mathlib.Algebra.Order.Floor.Ring
import Mathlib.Algebra.Order.Archimedean.Basic
import Mathlib.Algebra.Order.Archimedean.Real.Basic
import Mathlib.Data.List.Sort
import Mathlib.Data.Multiset.Sort

/-!
# Python / numpy primitives used by the code
-/

noncomputable section

namespace Vsm

/-- The Python exceptions the modelled code can raise. -/
inductive PyErr where
  | typeError
  | valueError
  | keyError
  | indexError
  | notImplemented
  | zeroDivision
  | unitConversion
  | overflow
  /-- not an exception: stands for a loop that never ends -/
  | diverges
  deriving DecidableEq

/-- Results of Python calls that may raise. -/
abbrev Py (α : Type*) := Except PyErr α

namespace Np

/-- Python's built-in `round(x)` (one argument): nearest integer, ties to even.
Used at `helpers.py:47`; also the decimal rounding of `np.round(·, 4)` (`helpers.py:200`) and of the
`:.2f` format (`star.py:558-571`) after scaling. -/
def roundHalfEven (x : ℝ) : ℤ :=
  if Int.fract x < 1 / 2 then ⌊x⌋
  else if 1 / 2 < Int.fract x then ⌊x⌋ + 1
  else if Even ⌊x⌋ then ⌊x⌋ else ⌊x⌋ + 1

/-- Entry `i` of `np.linspace(a, b, n)` (end point included; `n = 1` gives just `a`). -/
def linspaceAt (a b : ℝ) (n : ℕ) (i : ℕ) : ℝ :=
  if n = 1 then a else a + i * ((b - a) / (n - 1))

/-- `np.linspace(a, b, n)` as a list. -/
def linspace (a b : ℝ) (n : ℕ) : List ℝ := (List.range n).map (linspaceAt a b n)

/-- Entry `i` of `np.linspace(a, b, n, endpoint=False)`. -/
def linspaceOpenAt (a b : ℝ) (n : ℕ) (i : ℕ) : ℝ := a + i * ((b - a) / n)

/-- Entry `i` of `np.linspace(a, b, n)` for `n ≥ 2` and end points that may be NaN or infinite. -/
def linspaceFlAt (a b : Fl) (n : ℕ) (i : ℕ) : Fl := a + .fin i * ((b - a) / .fin (n - 1))

/-- `np.trapz(y, x)`: the trapezoid rule; `0` for fewer than two samples. -/
def trapz : List Fl → List Fl → Fl
  | y₀ :: y₁ :: ys, x₀ :: x₁ :: xs =>
      (x₁ - x₀) * (y₀ + y₁) / Fl.fin 2 + trapz (y₁ :: ys) (x₁ :: xs)
  | _, _ => Fl.fin 0

/-- `np.cumsum`, starting from an accumulator. -/
def cumsumFrom {α : Type*} [Add α] : α → List α → List α
  | _, [] => []
  | acc, x :: xs => (acc + x) :: cumsumFrom (acc + x) xs

/-- `np.cumsum`. -/
def cumsum {α : Type*} [Add α] [Zero α] (l : List α) : List α := cumsumFrom 0 l

/-- Boolean-mask indexing `a[mask]` of a one dimensional array. -/
def maskSelect {α : Type*} : List α → List Bool → List α
  | a :: as, b :: bs => if b then a :: maskSelect as bs else maskSelect as bs
  | _, _ => []

/-- `np.percentile(l, 100*q)` on a sorted list with the default linear interpolation, `0 ≤ q ≤ 1`:
virtual index `(n-1)*q`, linear interpolation between the neighbours. -/
def percentileSorted (l : List ℝ) (q : ℝ) : ℝ :=
  let v : ℝ := (l.length - 1 : ℝ) * q
  let j : ℕ := ⌊v⌋₊
  let lo := l.getD j 0
  let hi := l.getD (j + 1) lo
  lo + (hi - lo) * (v - j)

/-- `np.percentile(a, 100*q)`: `ValueError` unless `0 ≤ q ≤ 1` (in particular for NaN). -/
def percentile (a : Multiset ℝ) (q : Fl) : Py ℝ :=
  match q with
  | .fin x => if 0 ≤ x ∧ x ≤ 1 then .ok (percentileSorted (a.sort (· ≤ ·)) x) else .error .valueError
  | _ => .error .valueError

/-- `rng.poisson(lam)`: `ValueError` if `lam` is negative, NaN or infinite, `0` for `lam = 0`, otherwise an
arbitrary natural number (the draw `k`).  numpy also refuses `lam` above about 9.2e18; that is not represented. -/
def poisson (lam : Fl) (k : ℕ) : Py ℕ :=
  match lam with
  | .fin x => if x < 0 then .error .valueError else if x = 0 then .ok 0 else .ok k
  | _ => .error .valueError

/-- Python dict with insertion order, as an association list. -/
abbrev Dict (κ ν : Type*) := List (κ × ν)

namespace Dict

/-- `d[k]` (as an option). -/
def get? {κ ν : Type*} [DecidableEq κ] : Dict κ ν → κ → Option ν
  | [], _ => none
  | (k', v) :: d, k => if k' = k then some v else get? d k

/-- `d[k]`, raising `KeyError`. -/
def get {κ ν : Type*} [DecidableEq κ] (d : Dict κ ν) (k : κ) : Py ν :=
  match get? d k with
  | some v => .ok v
  | none => .error .keyError

/-- `d[k] = v`: overwrite in place if the key exists, else append. -/
def set {κ ν : Type*} [DecidableEq κ] : Dict κ ν → κ → ν → Dict κ ν
  | [], k, v => [(k, v)]
  | (k', v') :: d, k, v => if k' = k then (k', v) :: d else (k', v') :: set d k v

/-- `d.keys()`. -/
def keys {κ ν : Type*} (d : Dict κ ν) : List κ := d.map Prod.fst

/-- `d.values()`. -/
def values {κ ν : Type*} (d : Dict κ ν) : List ν := d.map Prod.snd

end Dict
end Np
end Vsm
