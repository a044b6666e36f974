import Verif.Model.Choices
import Verif.Model.Processing
import Mathlib.Data.Nat.Sqrt

/-!
# Measurement errors, shock matrices and lagged choices in the parameters

Model of `_parse_measurement_errors`, `_parse_shocks`, `_parse_lagged_choices`
(`respy/pre_processing/model_processing.py:304-355, 479-567`) and `_validate_shocks`
(`respy/pre_processing/model_checking.py:39-72`). Parameters are a dictionary from category and name to the value, i.e.
the index of the series has no duplicates.
-/

namespace Respy

/-- `category in params.index` (`respy/pre_processing/model_processing.py:306-317, 337`). -/
def hasCategory {K : Type _} (params : Dict (Str × Str) K) (category : String) : Bool :=
  params.any fun p => p.1.1 = category.toList

/-- `params.loc[category]` (`respy/pre_processing/model_processing.py:309-316`): names and values. -/
def ofCategory {K : Type _} (params : Dict (Str × Str) K) (category : String) : List (Str × K) :=
  (params.filter fun p => p.1.1 = category.toList).map fun p => (p.1.2, p.2)

/-! ### Measurement errors -/

/-- `_parse_measurement_errors` (`respy/pre_processing/model_processing.py:324-355`): `has_meas_error` and the vector of standard
deviations; `none` is the `KeyError` or the error of numpy if there are more wages than choices. -/
def parseMeasurementErrors {K : Type _} [Zero K] (choices wWage : List Str) (params : Dict (Str × Str) K) :
    Option (Bool × List K) :=
  if hasCategory params "meas_error" then do
    let labels := wWage.map fun c => "sd_".toList ++ c
    let values ← labels.mapM fun l => params.get? ("meas_error".toList, l)
    if labels.length ≤ choices.length then
      pure (true, values ++ List.replicate (choices.length - labels.length) 0)
    else none
  else pure (false, List.replicate choices.length 0)

/-! ### Shock matrices -/

/-- The parametrisations of the shock matrix (`respy/pre_processing/model_processing.py:304-321`). -/
inductive ShockKind where
  | sdcorr
  | cov
  | chol
  deriving DecidableEq

/-- A square matrix with its dimension (`respy/pre_processing/model_processing.py:309-316`). -/
structure ShockMatrix (K : Type _) where
  kind : ShockKind
  dim : Nat
  entry : Nat → Nat → K

/-- Exceptions of `_parse_shocks` (`respy/pre_processing/model_processing.py:306-307, 318-319`) and of numpy if the number of
elements is not the one of a lower triangle. -/
inductive ShockError where
  | severalMatrices
  | noMatrix
  | wrongLength
  deriving DecidableEq

/-- `number_of_triangular_elements_to_dimension` of estimagic, `int(np.sqrt(8 * num + 1) / 2 - 0.5)`, used by
the functions imported in `respy/pre_processing/model_processing.py:12-15`. -/
def triangularDim (num : Nat) : Nat := (Nat.sqrt (8 * num + 1) - 1) / 2

/-- `np.tril_indices(n)` and, without the diagonal, `np.tril_indices(n, k=-1)`, row by row, used by the functions
of estimagic imported in `respy/pre_processing/model_processing.py:12-15`. -/
def trilIndices (n : Nat) (diagonal : Bool) : List (Nat × Nat) :=
  (List.range n).flatMap fun i => (List.range (if diagonal then i + 1 else i)).map fun j => (i, j)

/-- `mat[indices] = values` for a matrix `mat` (estimagic, imported in `respy/pre_processing/model_processing.py:12-15`);
the entry of the last position with these indices, the old value elsewhere. -/
def assignEntries {K : Type _} (mat : Nat → Nat → K) (indices : List (Nat × Nat)) (values : List K) :
    Nat → Nat → K :=
  fun i j => (((indices.zip values).reverse.find? fun p => p.1 = (i, j)).map Prod.snd).getD (mat i j)

/-- `chol_params_to_lower_triangular_matrix` of estimagic (imported in `respy/pre_processing/model_processing.py:12`). -/
def cholParamsToMatrix {K : Type _} [Zero K] (values : List K) : Option (Nat × (Nat → Nat → K)) :=
  let dim := triangularDim values.length
  if (trilIndices dim true).length = values.length then
    some (dim, assignEntries (fun _ _ => 0) (trilIndices dim true) values)
  else none

/-- `cov_params_to_matrix` of estimagic (imported in `respy/pre_processing/model_processing.py:13`):
`lower + np.tril(lower, k=-1).T`. -/
def covParamsToMatrix {K : Type _} [Zero K] [Add K] (values : List K) : Option (Nat × (Nat → Nat → K)) := do
  let (dim, lower) ← cholParamsToMatrix values
  pure (dim, fun i j => lower i j + (if i < j then lower j i else 0))

/-- `sdcorr_params_to_matrix` of estimagic (imported in `respy/pre_processing/model_processing.py:15`): the
first elements are standard deviations, the others the correlations of the strict lower triangle. -/
def sdcorrParamsToMatrix {K : Type _} [Zero K] [One K] [Add K] [Mul K] (values : List K) :
    Option (Nat × (Nat → Nat → K)) :=
  let dim := triangularDim values.length
  if dim ≤ values.length ∧ (trilIndices dim false).length = (values.drop dim).length then
    let sds := values.take dim
    let corr := assignEntries (fun i j => if i = j then 1 else 0) (trilIndices dim false) (values.drop dim)
    let corr' := fun i j => corr i j + (if i < j then corr j i else 0)
    some (dim, fun i j => sds.getD i 0 * corr' i j * sds.getD j 0)
  else none

/-- `_parse_shocks` (`respy/pre_processing/model_processing.py:304-321`): the matrix whose Cholesky factor is computed
(`sdcorr`, `cov`), or the Cholesky factor itself (`chol`). -/
def parseShocks {K : Type _} [Zero K] [One K] [Add K] [Mul K] (params : Dict (Str × Str) K) :
    Except ShockError (ShockMatrix K) :=
  let wrap (kind : ShockKind) : Option (Nat × (Nat → Nat → K)) → Except ShockError (ShockMatrix K)
    | none => .error .wrongLength
    | some (n, m) => .ok ⟨kind, n, m⟩
  let values (category : String) := (ofCategory params category).map Prod.snd
  if 2 ≤ (["shocks_sdcorr", "shocks_cov", "shocks_chol"].countP fun c => hasCategory params c) then
    .error .severalMatrices
  else if hasCategory params "shocks_sdcorr" then
    wrap .sdcorr (sdcorrParamsToMatrix (values "shocks_sdcorr"))
  else if hasCategory params "shocks_cov" then wrap .cov (covParamsToMatrix (values "shocks_cov"))
  else if hasCategory params "shocks_chol" then wrap .chol (cholParamsToMatrix (values "shocks_chol"))
  else .error .noMatrix

/-- The rows selected by `params.filter(regex=r"shocks_(sdcorr|cov|chol)", axis=0)`
(`respy/pre_processing/model_checking.py:67-69`): the pattern is searched in the text of the pair of category and name. -/
def mentionsShocks (key : Str × Str) : Bool :=
  ["shocks_sdcorr", "shocks_cov", "shocks_chol"].any fun c =>
    c.toList <:+: key.1 ∨ c.toList <:+: key.2

/-- The expected names in `_validate_shocks` (`respy/pre_processing/model_checking.py:41-64`). -/
def shockNames {K : Type _} (params : Dict (Str × Str) K) (choices : List Str) : List Str :=
  let lower (diagonal : Str → List Str) (label : Str) : List Str :=
    choices.zipIdx.flatMap fun ci => (choices.take (ci.2 + 1)).flatMap fun c₂ =>
      if ci.1 = c₂ then diagonal ci.1 else [label ++ ci.1 ++ ['_'] ++ c₂]
  if hasCategory params "shocks_sdcorr" then
    (choices.map fun c => "sd_".toList ++ c) ++ lower (fun _ => []) "corr_".toList
  else if hasCategory params "shocks_cov" then lower (fun c => ["var_".toList ++ c]) "cov_".toList
  else lower (fun c => ["chol_".toList ++ c]) "chol_".toList

/-- `_validate_shocks` (`respy/pre_processing/model_checking.py:39-72`); `false` is the failed assertion or the error
of pandas if the lengths differ. -/
def validateShocks {K : Type _} (params : Dict (Str × Str) K) (choices : List Str) : Bool :=
  (params.filter fun p => mentionsShocks p.1).map (fun p => p.1.2) = shockNames params choices

/-! ### Lagged choices -/

/-- `re.findall(r"prefix([class]+)", s)`, without word boundaries (`respy/pre_processing/model_processing.py:500-506, 511-516, 545-547`).
The fuel is the number of characters left. -/
def findAllPlainFuel (pre : Str) (cls : Char → Bool) : Nat → Str → List Str
  | 0, _ => []
  | fuel + 1, s =>
    if pre.isPrefixOf s ∧ (s.drop pre.length).takeWhile cls ≠ [] then
      (s.drop pre.length).takeWhile cls :: findAllPlainFuel pre cls fuel ((s.drop pre.length).dropWhile cls)
    else
      match s with
      | [] => []
      | _ :: s' => findAllPlainFuel pre cls fuel s'

/-- `re.findall` (`respy/pre_processing/model_processing.py:505-506`). -/
def findAllPlain (pre : Str) (cls : Char → Bool) (s : Str) : List Str :=
  findAllPlainFuel pre cls (s.length + 1) s

/-- `n_lc_covariates` (`respy/pre_processing/model_processing.py:503-508`): the largest lag in the formulas. -/
def numberOfLags (covariates : Dict Str Str) : Nat :=
  ((covariates.flatMap fun cf => findAllPlain "lagged_choice_".toList Char.isDigit cf.2).map
    digitsValue).foldl max 0

/-- The parameters of one lag with their levels (`respy/pre_processing/model_processing.py:545-547, 605-623`). `str(lag)` is the
text of its digits. Simplification: levels are never converted to numbers, as they consist of letters and underscores
(`nan` and `inf` are not considered). -/
noncomputable def lagParams (lag : Nat) (params : List ((Str × Str) × ℝ)) : List (GroupParam Str) :=
  params.filterMap fun p =>
    (findAllPlain ("lagged_choice_".toList ++ Nat.toDigits 10 lag ++ ['_']) isNameChar p.1.1).head?.map
      fun l => ⟨l, p.1.2, p.2⟩

/-- The distribution of one lag (`respy/pre_processing/model_processing.py:545-564`); `minFloat` is `MIN_FLOAT`. -/
noncomputable def lagDistribution (maxFloat minFloat : ℝ) (choices : List Str) (lag : Nat)
    (params : List ((Str × Str) × ℝ)) : Except ParseError (Dict Str (List (Str × ℝ))) := do
  match ← parseGroup maxFloat (lagParams lag params) with
  | none => pure (Dict.ofItems (choices.map fun c => (c, [("constant".toList, 0)])))
  | some parsed =>
    pure ((Dict.ofItems (choices.map fun c => (c, [("constant".toList, minFloat)]))).update parsed)

/-- `_parse_lagged_choices` (`respy/pre_processing/model_processing.py:479-567`): the distributions of the lags `1, 2, …`. The
warnings are not modelled. -/
noncomputable def parseLaggedChoices (maxFloat minFloat : ℝ) (choices : List Str) (covariates : Dict Str Str)
    (params : List ((Str × Str) × ℝ)) : Except ParseError (List (Dict Str (List (Str × ℝ)))) :=
  (List.range (numberOfLags covariates)).mapM fun i =>
    lagDistribution maxFloat minFloat choices (i + 1) params

end Respy
