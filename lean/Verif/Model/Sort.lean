import Verif.Out
import Verif.Dbl
import Mathlib.Data.List.Perm.Basic

/-!
# `std::sort`

`std::sort(begin, end, comp)` requires `comp` to be a strict weak ordering on the elements (otherwise the behaviour is
undefined) and leaves *some* sorted permutation of the elements; which one (for equivalent elements) is not specified.
The model takes the algorithm as a parameter `f` and the theorems hold for every `f` with this specification.
-/

open Classical

noncomputable section

namespace Verif

/-- the requirement of the standard on the comparison ([alg.sorting]) for the elements of `l` -/
structure StrictWeakOn {α : Type} (lt : α → α → Prop) (l : List α) : Prop where
  irrefl : ∀ a ∈ l, ¬ lt a a
  trans : ∀ a ∈ l, ∀ b ∈ l, ∀ c ∈ l, lt a b → lt b c → lt a c
  incomp : ∀ a ∈ l, ∀ b ∈ l, ∀ c ∈ l, ¬ lt a b → ¬ lt b a → ¬ lt b c → ¬ lt c b → ¬ lt a c ∧ ¬ lt c a

/-- the guarantee of the standard for the result -/
structure IsStdSort {α : Type} (lt : α → α → Prop) (f : List α → List α) : Prop where
  perm : ∀ l, StrictWeakOn lt l → (f l).Perm l
  sorted : ∀ l, StrictWeakOn lt l → (f l).Pairwise (fun a b => ¬ lt b a)

/-- a call of `std::sort` with the algorithm `f` -/
def stdSort {α : Type} (f : List α → List α) (lt : α → α → Prop) (l : List α) : Out (List α) :=
  if StrictWeakOn lt l then .ok (f l) else .ub "std::sort: comparison is not a strict weak ordering"

end Verif
