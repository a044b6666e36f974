import Verif.Model.ProcessModel

/-!
# Formulas

The formulas of the shipped models: conjunctions of comparisons of sums and differences of columns and numbers. Their
texts are what `df.eval` is called with (`respy/state_space.py:606, 708`).
-/

namespace Respy

/-- A sum or difference of columns and numbers. -/
inductive Term
  | column (name : Str)
  | number (n : Nat)
  | plus (a b : Term)
  | minus (a b : Term)

/-- The relations of comparisons. -/
inductive Relation
  | eq | ne | lt | le | gt | ge

/-- A comparison of two terms. -/
structure Comparison where
  left : Term
  rel : Relation
  right : Term

/-- All comparisons hold. -/
abbrev Formula := List Comparison

/-- The text of a term. -/
def Term.text : Term → Str
  | .column name => name
  | .number n => Nat.toDigits 10 n
  | .plus a b => a.text ++ " + ".toList ++ b.text
  | .minus a b => a.text ++ " - ".toList ++ b.text

/-- The text of a relation. -/
def Relation.text : Relation → Str
  | .eq => " == ".toList
  | .ne => " != ".toList
  | .lt => " < ".toList
  | .le => " <= ".toList
  | .gt => " > ".toList
  | .ge => " >= ".toList

/-- The text of a comparison. -/
def Comparison.text (c : Comparison) : Str := c.left.text ++ c.rel.text ++ c.right.text

/-- The text of a formula. -/
def formulaOf : Formula → Str
  | [] => []
  | [c] => c.text
  | c :: cs => c.text ++ " and ".toList ++ formulaOf cs

/-- The value of a term in a row. -/
def Term.value (row : Str → Option ℝ) : Term → Option ℝ
  | .column name => row name
  | .number n => some n
  | .plus a b => do return (← a.value row) + (← b.value row)
  | .minus a b => do return (← a.value row) - (← b.value row)

/-- What the relations mean. -/
def Relation.Holds : Relation → ℝ → ℝ → Prop
  | .eq, x, y => x = y
  | .ne, x, y => x ≠ y
  | .lt, x, y => x < y
  | .le, x, y => x ≤ y
  | .gt, x, y => x > y
  | .ge, x, y => x ≥ y

/-- The comparison holds in a row. -/
def Comparison.Holds (row : Str → Option ℝ) (c : Comparison) : Prop :=
  ∃ x y, c.left.value row = some x ∧ c.right.value row = some y ∧ c.rel.Holds x y

/-- The columns of a term. -/
def Term.columns : Term → List Str
  | .column name => [name]
  | .number _ => []
  | .plus a b => a.columns ++ b.columns
  | .minus a b => a.columns ++ b.columns

/-- `df.eval` evaluates the formula: if the row has the columns of the formula, the value is one if all comparisons hold
and zero otherwise. -/
def FormulaEval.Reads (ev : FormulaEval) (f : Formula) : Prop :=
  ∀ row : Str → Option ℝ, (∀ c ∈ f, ∀ x ∈ c.left.columns ++ c.right.columns, (row x).isSome) →
    ((∀ c ∈ f, c.Holds row) → ev.value row (formulaOf f) = some 1) ∧
    ((¬ ∀ c ∈ f, c.Holds row) → ev.value row (formulaOf f) = some 0)

end Respy
