import Mathlib.Data.Fintype.Card
import Mathlib.Data.Fintype.Basic

/-! Specification for C115: samples with individuals of several kinds. -/

namespace Respy

/-- The number of individuals of kind `c` in a sample of `N` individuals. -/
def countKind {C N : Nat} (kind : Fin N → Fin C) (c : Fin C) : Nat := (Finset.univ.filter fun i => kind i = c).card

end Respy
