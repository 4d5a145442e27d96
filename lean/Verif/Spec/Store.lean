import Verif.Dbl

/-!
# Specification of "last write wins" for numbered slots of numbered objects

Independent of the C++ model: a history is a list of abstract events on a memory that maps
(object, slot) to a number.
-/

noncomputable section

namespace Verif.Spec

/-- the 33 numbers stored in a track parameter object -/
inductive Slot where
  | helix (k : Fin 5)
  | cov (r c : Fin 5)
  | ref (axis : Fin 3)
  deriving DecidableEq

/-- the effect of one call: which slots of which object receive a new value, and where the values
come from -/
inductive Effect where
  /-- slots selected by `which` of object `obj` receive the given values -/
  | write (obj : ℕ) (which : Slot → Bool) (val : Slot → Dbl)
  /-- all slots of object `dst` receive the current values of object `src` -/
  | copy (dst src : ℕ)

/-- The value a reader must see in a slot after a history (most recent effect first): the most
recently written value, zero if there is none. -/
def lastWritten : List Effect → ℕ → Slot → Dbl
  | [], _, _ => 0
  | .write obj which val :: h, o, s =>
      if o = obj ∧ which s = true then val s else lastWritten h o s
  | .copy dst src :: h, o, s =>
      if o = dst then lastWritten h src s else lastWritten h o s

end Verif.Spec
