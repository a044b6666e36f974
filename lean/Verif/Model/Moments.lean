import Verif.Model.Dict
import Verif.Model.Text
import Mathlib.Algebra.Field.Basic
import Mathlib.Algebra.BigOperators.Group.List.Basic
import Mathlib.Data.List.Lex
import Mathlib.Data.List.Sort
import Mathlib.Order.Defs.LinearOrder

/-!
# Method of simulated moments

Model of `respy/method_of_simulated_moments.py`. `none` is an exception, a missing value (NaN) inside of
moments is `none`, too. Simulated data have an arbitrary type.
-/

namespace Respy

variable {K : Type _} [Field K]

/-- A set of moments: a `pandas.DataFrame` or, if `columns = none`, a `pandas.Series`. `values` has a list for
each column. Simplification: labels are texts (`index.map(str)` and the formatted string in
`respy/method_of_simulated_moments.py:380-384` are the identity). -/
structure Moments (K : Type _) where
  index : List Str
  columns : Option (List Str)
  values : List (List (Option K))
deriving DecidableEq

/-- The names of columns; a series has a single column (`respy/method_of_simulated_moments.py:363-396`). -/
def Moments.names (m : Moments K) : List Str := m.columns.getD [[]]

/-- The value in a column and row given by positions; missing if a position is missing
(`respy/method_of_simulated_moments.py:219-222`). -/
def Moments.at (m : Moments K) (c r : Option Nat) : Option K :=
  (c.bind fun c => r.bind fun r => (m.values[c]?).bind fun col => col[r]?).join

/-- Positions of the labels `target` on an axis with labels `own` (`Index.reindex` in pandas): nothing
happens if both are the same, otherwise duplicates are an error
(`respy/method_of_simulated_moments.py:219-222, 284-296`). -/
def reindexAxis (own target : List Str) : Option (List (Option Nat)) :=
  if own = target then some ((List.range own.length).map some)
  else if own.Nodup then some (target.map fun t => own.idxOf? t)
  else none

/-- `m.reindex_like(other)` (`respy/method_of_simulated_moments.py:219-222`). A series and a frame do not
fit together. -/
def reindexLike (m other : Moments K) : Option (Moments K) :=
  if m.columns.isSome = other.columns.isSome then do
    let rows ← reindexAxis m.index other.index
    let cols ← reindexAxis m.names other.names
    pure ⟨other.index, other.columns, cols.map fun c => rows.map fun r => m.at c r⟩
  else none

/-- The label of a moment in the flat index (`respy/method_of_simulated_moments.py:382-393`). -/
def flatLabel (name : Str) (isFrame : Bool) (column row : Str) : Str :=
  if isFrame then name ++ '_' :: column ++ '_' :: row else name ++ '_' :: row

/-- A series with text labels (`respy/method_of_simulated_moments.py:363-396`). -/
abbrev Series (K : Type _) := List (Str × Option K)

/-- The loop body of `_flatten_index` (`respy/method_of_simulated_moments.py:377-394`): column after
column. -/
def flattenOne (name : Str) (m : Moments K) : Series K :=
  (m.names.zip m.values).flatMap fun cv =>
    (m.index.zip cv.2).map fun iv => (flatLabel name m.columns.isSome cv.1 iv.1, iv.2)

/-- `_flatten_index` (`respy/method_of_simulated_moments.py:363-396`); there is nothing to concatenate in an
empty dictionary. -/
def flattenIndex (d : Dict Str (Moments K)) : Option (Series K) :=
  if d = [] then none else some (d.flatMap fun nm => flattenOne nm.1 nm.2)

/-- Difference of numbers which may be missing (`respy/method_of_simulated_moments.py:231`). -/
def subNan (x y : Option K) : Option K := x.bind fun x => y.map fun y => x - y

/-- `a - b` for series (`respy/method_of_simulated_moments.py:231`). If the indices are different, pandas
aligns the series: the index of the result is the sorted union. Not modelled: alignment of indices with
duplicates (`none`). -/
def subSeries (a b : Series K) : Option (Series K) :=
  if a.map Prod.fst = b.map Prod.fst then
    some (List.zipWith (fun x y => (x.1, subNan x.2 y.2)) a b)
  else if (a.map Prod.fst).Nodup ∧ (b.map Prod.fst).Nodup then
    some (((a.map Prod.fst ++ (b.map Prod.fst).filter fun l => decide (l ∉ a.map Prod.fst)).insertionSort
      (· ≤ ·)).map fun l => (l, subNan (Dict.get? a l).join (Dict.get? b l).join))
  else none

/-- The entry of a matrix (`respy/method_of_simulated_moments.py:236`). -/
def weightAt (w : List (List K)) (i j : Nat) : K := ((w[i]?).bind fun row => row[j]?).getD 0

/-- The vector `e @ w` (`respy/method_of_simulated_moments.py:236, 242`). -/
def vecMat (e : List K) (w : List (List K)) : List K :=
  (List.range e.length).map fun j => ((List.range e.length).map fun i => (e[i]?).getD 0 * weightAt w i j).sum

/-- The number `x @ y` (`respy/method_of_simulated_moments.py:236`). -/
def vecDot (x y : List K) : K := (List.zipWith (· * ·) x y).sum

/-- `e @ w` for a quadratic matrix of the right size; otherwise there is a `ValueError`
(`respy/method_of_simulated_moments.py:236, 242`). -/
def fitsShape (n : Nat) (w : List (List K)) : Prop := w.length = n ∧ ∀ row ∈ w, row.length = n

instance (n : Nat) (w : List (List K)) : Decidable (fitsShape n w) := inferInstanceAs (Decidable (_ ∧ _))

/-- `moment_errors.T @ weighting_matrix @ moment_errors` (`respy/method_of_simulated_moments.py:236`). The
outer `none` is an exception, the inner one NaN: NaN times zero is NaN. -/
def criterionValue (e : List (Option K)) (w : List (List K)) : Option (Option K) :=
  if fitsShape e.length w then some ((e.mapM id).map fun x => vecDot (vecMat x w) x) else none

/-- `moment_errors @ np.sqrt(weighting_matrix)` (`respy/method_of_simulated_moments.py:242`). -/
def rootContributions (sqrt : K → K) (e : List (Option K)) (w : List (List K)) :
    Option (Option (List K)) :=
  if fitsShape e.length w then
    some ((e.mapM id).map fun x => vecMat x (w.map fun row => row.map sqrt))
  else none

/-- `np.diag(weights)` (`respy/method_of_simulated_moments.py:254-299`). -/
def diagMatrix (weights : List K) : List (List K) :=
  weights.mapIdx fun i x => (List.range weights.length).map fun j => if i = j then x else 0

/-- The simulated moments (`respy/method_of_simulated_moments.py:217-226`). The three dictionaries are built
one after the other in the code, which makes a difference only for the kind of an exception. -/
def simulatedMoments {D : Type _} (funcs : Dict Str (D → Option (Moments K)))
    (replaceNans : Dict Str (Moments K → Option (Moments K))) (empirical : Dict Str (Moments K)) (df : D) :
    Option (Dict Str (Moments K)) :=
  funcs.mapM fun nf => do
    let m ← nf.2 df
    let other ← Dict.get? empirical nf.1
    let m ← reindexLike m other
    let f ← Dict.get? replaceNans nf.1
    let m ← f m
    pure (nf.1, m)

/-- The vector of moment errors (`respy/method_of_simulated_moments.py:213-231`). -/
def momentErrors {D : Type _} (funcs : Dict Str (D → Option (Moments K)))
    (replaceNans : Dict Str (Moments K → Option (Moments K))) (empirical : Dict Str (Moments K)) (df : D) :
    Option (Series K) := do
  let simulated ← simulatedMoments funcs replaceNans empirical df
  let flatEmpirical ← flattenIndex empirical
  let flatSimulated ← flattenIndex simulated
  subSeries flatEmpirical flatSimulated

/-- `moment_errors` with `return_scalar=True` (`respy/method_of_simulated_moments.py:165-251`). -/
def criterion {D : Type _} (funcs : Dict Str (D → Option (Moments K)))
    (replaceNans : Dict Str (Moments K → Option (Moments K))) (empirical : Dict Str (Moments K))
    (weights : List (List K)) (df : D) : Option (Option K) := do
  let e ← momentErrors funcs replaceNans empirical df
  criterionValue (e.map Prod.snd) weights

/-- An argument which is a single object, a list or a dictionary
(`respy/method_of_simulated_moments.py:326-360`). -/
inductive Input (α : Type _)
  | single (x : α)
  | list (xs : List α)
  | dict (d : Dict Str α)

/-- `str(i)` (`respy/method_of_simulated_moments.py:348-350`). -/
def numberText (i : Nat) : Str := Nat.toDigits 10 i

/-- `_harmonize_input` (`respy/method_of_simulated_moments.py:326-360`). -/
def harmonizeInput {α : Type _} : Input α → Dict Str α
  | .single x => [(numberText 0, x)]
  | .list xs => Dict.ofItems (xs.mapIdx fun i x => (numberText i, x))
  | .dict d => d

/-- The functions which replace missing values (`respy/method_of_simulated_moments.py:121-131`): a single
function is used for all moments, `none` is the identity. -/
def harmonizeReplaceNans {β : Type _} (identity : β) (empirical : Dict Str (Moments K)) :
    Option (Input β) → Dict Str β
  | none => (Dict.keys empirical).map fun k => (k, identity)
  | some (.single f) => (Dict.keys empirical).map fun k => (k, f)
  | some x => harmonizeInput x

/-- The checks of lengths in `get_moment_errors_func` (`respy/method_of_simulated_moments.py:133-151`). -/
def lengthsFit (nEmpirical nCalc nReplace : Nat) : Bool :=
  !(decide (1 < nReplace ∧ nReplace < nEmpirical) || decide (nEmpirical < nReplace)) &&
    decide (nCalc = nEmpirical)

/-- `get_diag_weighting_matrix` (`respy/method_of_simulated_moments.py:254-299`): the diagonal; `none` inside
is NaN. The second `reindex_like` needs an index without duplicates unless it is the same. -/
def diagWeights (empirical : Input (Moments K)) (weights : Option (Input (Moments K))) :
    Option (List (Option K)) := do
  let emp := harmonizeInput empirical
  let flatEmp ← flattenIndex emp
  match weights with
  | none => pure (flatEmp.map fun _ => some 1)
  | some ws => do
    let reindexed ← (harmonizeInput ws).mapM fun nw => do
      let other ← Dict.get? emp nw.1
      let m ← reindexLike nw.2 other
      pure (nw.1, m)
    let flat ← flattenIndex reindexed
    let positions ← reindexAxis (flat.map Prod.fst) (flatEmp.map Prod.fst)
    pure (positions.map fun p => (p.bind fun p => (flat[p]?).map Prod.snd).join)

/-- The weighting matrix (`respy/method_of_simulated_moments.py:110-111`); the diagonal of
`get_diag_weighting_matrix(empirical_moments)` is one. -/
def chosenWeights (empirical : Dict Str (Moments K)) : Option (List (List K)) → Option (List (List K))
  | some w => some w
  | none => (flattenIndex empirical).map fun s => diagMatrix (s.map fun _ => 1)

/-- `get_moment_errors_func` followed by a call of the returned function
(`respy/method_of_simulated_moments.py:27-251`) with `return_scalar=True`; `df` are the simulated data. -/
def msm {D : Type _} (funcs : Input (D → Option (Moments K)))
    (replaceNans : Option (Input (Moments K → Option (Moments K)))) (empirical : Input (Moments K))
    (weights : Option (List (List K))) (df : D) : Option (Option K) := do
  let w ← chosenWeights (harmonizeInput empirical) weights
  let emp := harmonizeInput empirical
  let calcs := harmonizeInput funcs
  let replace := harmonizeReplaceNans some emp replaceNans
  if lengthsFit emp.length calcs.length replace.length then criterion calcs replace emp w df else none

/-- `_reconstruct_input_from_dict` (`respy/method_of_simulated_moments.py:461-478`). -/
def reconstructInput {α : Type _} (d : Dict Str α) : Input α :=
  match Dict.values d with
  | [x] => .single x
  | xs => .list xs

/-- The form in which simulated moments are returned (`respy/method_of_simulated_moments.py:247-250`). -/
def returnedMoments {α : Type _} (empiricalAreDict : Bool) (simulated : Dict Str α) : Input α :=
  if empiricalAreDict then .dict simulated else reconstructInput simulated

end Respy
