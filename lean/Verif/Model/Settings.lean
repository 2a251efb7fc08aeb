import Verif.Model.Star

/-!
# Settings the constructors look at

What `FaculaGenerator.__init__` does with `coverage` and `dist`.  (`SpotGenerator.__init__`, spots.py:583-597, stores
its arguments without looking at them.)
-/

namespace Vsm

noncomputable section

/-- `FaculaGenerator.__init__` with an explicit grid (faculae.py:548-573).  `coverage = none` is an object that is
neither a `float` nor an `int` (faculae.py:559); all other arguments are stored as they are and come as the fields of
`s`. -/
def FaculaGenerator.create (s : FaculaGenerator) (coverage : Option ℝ) (dist : SpotDist) : Py FaculaGenerator :=
  match coverage with
  | none => .error .typeError
  | some c => (FaculaGenerator.checkDist dist).map fun _ => { s with coverage := c }

end

end Vsm
