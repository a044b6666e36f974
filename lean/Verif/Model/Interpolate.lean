import Verif.Model.Solve
import Verif.Model.Shocks

/-!
# Interpolation of expected value functions

Model of `respy/interpolate.py`. The dictionaries which are returned by parallelized functions list
their entries in the order of the dense keys of the period; see `Verif/Props/Parallel.lean` for the
independence of results from this order. The random number generator, the square root, the exponential
function and the pseudo-inverse are parameters.
-/

namespace Respy

/-- The two uses of the random number generator in `respy/interpolate.py` (`respy/interpolate.py:181, 224`). -/
structure InterpolationRandom where
  /-- the position of the dense key drawn by the `i`-th call of `np.random.choice` with probabilities
  proportional to `pool` after seeding (`respy/interpolate.py:177-181`) -/
  choice : (seed i : Nat) → (pool : List Nat) → Nat
  /-- `np.random.choice(n_states, size=interpolation_points, replace=False)` after seeding
  (`respy/interpolate.py:222-224`) -/
  sample : (seed n size : Nat) → List Nat

/-- The loop `for _ in range(interpolation_points)` (`respy/interpolate.py:178-186`): `points` and
`pool` are listed in the order of the dense keys. `none` is the `ValueError` of `np.random.choice`
for probabilities which are not a number because the pool is empty. A key with an empty pool has
probability zero, drawing it is `none`, too. -/
def distributePoints (rng : InterpolationRandom) (seed : Nat) :
    (remaining i : Nat) → (points pool : List Nat) → Option (List Nat)
  | 0, _, points, _ => some points
  | r + 1, i, points, pool =>
    if pool.sum = 0 then none
    else
      let pos := rng.choice seed i pool
      match pool[pos]? with
      | some (p + 1) =>
        distributePoints rng seed r (i + 1) (points.modify pos (· + 1)) (pool.set pos p)
      | _ => none

/-- `_split_interpolation_points_evenly` (`respy/interpolate.py:137-200`): the number of states of
each dense key, `options["interpolation_points"]` and the next seed give the number of points of each
dense key and the next seed. `none` is an exception: if no points are left to distribute, the variable
`dense_key` in the key of the dictionary comprehension at lines 188-192 has never been assigned
(`NameError`). The warning in lines 193-198 is left out. -/
def splitPoints (rng : InterpolationRandom) (nStates : List Nat) (points seed : Nat) :
    Option (List Nat × Nat) :=
  let base := nStates.map fun n => if n > 2 then 2 else n
  let remaining := points - 2 * nStates.length
  let pool := nStates.map (· - 2)
  if 0 < remaining then do
    let out ← distributePoints rng seed remaining 0 base pool
    pure (out, seed + 1)
  else if nStates.isEmpty then some ([], seed) else none

/-- `_get_not_interpolated_indicator` (`respy/interpolate.py:203-228`); `none` is the `ValueError` for a
sample larger than the population. -/
def notInterpolated (rng : InterpolationRandom) (points nStates seed : Nat) : Option (List Bool) :=
  if points ≤ nStates then
    let indices := rng.sample seed nStates points
    some ((List.range nStates).map fun i => indices.contains i)
  else none

variable {K : Type _} [Field K] [LinearOrder K]

/-- `exp_shocks` in `_compute_expected_shocks` (`respy/interpolate.py:231-237`): the diagonal of `L Lᵀ`
for the rows of the Cholesky factor, clipped to `[0, maxLog]`. -/
def expShocks (exp : K → K) (maxLog : K) (nWages : Nat) (cholesky : List (List K)) : List K :=
  cholesky.mapIdx fun i row =>
    if i < nWages then exp (min (max (dotList row row) 0) maxLog / 2) else 0

/-- One row of `_compute_rhs_variables` (`respy/interpolate.py:247-289`): the regressors and the
maximum; `none` for arrays of different lengths or without alternatives. -/
def rhsRow (sqrt : K → K) (delta : K) (shocks w m c : List K) : Option (List K × K) :=
  if m.length = w.length ∧ c.length = w.length ∧ shocks.length = w.length then do
    let values := valueFunctions delta w m c shocks
    let mx ← values.max?
    let diff := values.map (mx - ·)
    pure (diff ++ diff.map sqrt ++ [1], mx)
  else none

/-- `a[mask] = values`; `none` is the `ValueError` for a wrong number of values
(`respy/interpolate.py:373-376`). -/
def assignMask {α : Type _} : List Bool → List α → List α → Option (List α)
  | true :: mask, _ :: xs, v :: vs => do
    let rest ← assignMask mask xs vs
    pure (v :: rest)
  | false :: mask, x :: xs, vs => do
    let rest ← assignMask mask xs vs
    pure (x :: rest)
  | [], [], [] => some []
  | _, _, _ => none

/-- One dense key in `_compute_rhs_variables`, `_compute_lhs_variable` and
`_predict_with_linear_model` (`respy/interpolate.py:247-378`). `ols` is the function `ols` in lines
381-401. -/
def interpolateKey (sqrt : K → K) (ols : List K → List (List K) → List K) (delta : K)
    (mask : List Bool) (shocks : List K) (wages nonpecs cv draws : List (List K)) :
    Option (List K) := do
  let rhs ← (List.range mask.length).mapM fun i => do
    let w ← wages[i]?
    let m ← nonpecs[i]?
    let c ← cv[i]?
    rhsRow sqrt delta shocks w m c
  let simulated := validChoices mask
  let endogenous ← simulated.mapM fun i => do
    let w ← wages[i]?
    let m ← nonpecs[i]?
    let c ← cv[i]?
    let e ← emax? w m c draws delta
    let r ← rhs[i]?
    pure (e - r.2)
  let x ← simulated.mapM fun i => (rhs[i]?).map Prod.fst
  let beta := ols endogenous x
  let predicted := rhs.map fun r => max (dotList r.1 beta) 0 + r.2
  let own ← (simulated.zip endogenous).mapM fun ie => (rhs[ie.1]?).map fun r => ie.2 + r.2
  assignMask mask predicted own

/-- `kw_94_interpolation` (`respy/interpolate.py:13-125`). `shocks` are the expected shocks of all
alternatives, see `expShocks`. The seeds of the dense keys are drawn first (lines 128-134). -/
def kw94 (ss : SolveSpace) (rng : InterpolationRandom) (sqrt : K → K)
    (ols : List K → List (List K) → List K) (shocks : List K) : Interpolation K :=
  fun par cvs period seed => do
    let keys := ss.keysOfPeriod period
    let ns ← keys.mapM fun k => ss.nStates[k]?
    let (points, seed') ← splitPoints rng ns ss.interpolationPoints (seed + keys.length)
    let values ← (List.range keys.length).mapM fun p => do
      let k ← keys[p]?
      let n ← ns[p]?
      let q ← points[p]?
      let mask ← notInterpolated rng q n (seed + p)
      let complex ← ss.complexes[k]?
      let sh ← boolIndex complex.choiceSet shocks
      let wages ← par.wages.get? k
      let nonpecs ← par.nonpecs.get? k
      let cv ← cvs.get? k
      let draws ← par.draws.get? k
      let v ← interpolateKey sqrt ols par.delta mask sh wages nonpecs cv draws
      pure (k, v)
    pure (values, seed')

end Respy
