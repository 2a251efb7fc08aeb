import Verif.Model.Faculae

/-!
# Heap model for collections that hold the same object more than once

In Python a collection holds references.  The other modules use lists of values, which is the same thing
as long as no object occurs twice.  Here a heap maps addresses to objects and the collection is a list of
addresses, so that `for spot in self.spots: spot.age(time)` can be run literally.
-/

namespace Vsm

/-- Objects by address. -/
abbrev Heap (α : Type) := ℕ → α

namespace Heap

/-- Update one object in place. -/
def update {α : Type} (h : Heap α) (a : ℕ) (v : α) : Heap α := fun b => if b = a then v else h b

/-- `for x in refs: x.age(time)` (spots.py:464-465, faculae.py:411-412). -/
def ageAll {α : Type} (step : α → α) (refs : List ℕ) (h : Heap α) : Heap α :=
  refs.foldl (fun h a => h.update a (step (h a))) h

/-- `clean_spotlist` / `clean_faclist` on references (spots.py:409-415, faculae.py:391-398). -/
def cleanRefs {α : Type} (keep : α → Bool) (refs : List ℕ) (h : Heap α) : List ℕ :=
  refs.filter fun a => keep (h a)

end Heap
end Vsm
