import Verif.Model.Shocks
import Verif.Model.Transition
import Mathlib.Data.List.Sort

/-!
# Simulation

Model of `respy/simulate.py`. Random numbers come from NumPy's global generator, whose state is passed
explicitly; `np.random.seed` and the functions which draw are parameters. A data frame is a list of
rows. `_simulate_single_period` is applied row by row; `Verif/Props/Parallel.lean` (C18) shows that
splitting a frame by dense key and combining it again amounts to this.
-/

namespace Respy

variable {K : Type _} [Field K] [LinearOrder K]

/-! ## One individual in one period -/

/-- Position of the first maximum of the remaining list; `best` at position `pos` is the maximum so far
and `i` the position of the head (`respy/simulate.py:425`). -/
def argmaxFrom (best : K) (pos i : Nat) : List K → Nat
  | [] => pos
  | x :: xs => if best < x then argmaxFrom x i (i + 1) xs else argmaxFrom best pos (i + 1) xs

/-- `np.nanargmax` of one row (`respy/simulate.py:425`): the first position of the maximum; `none` is the
`ValueError` for an empty row. Simplification: values are never NaN. -/
def argmax : List K → Option Nat
  | [] => none
  | x :: xs => some (argmaxFrom x 0 1 xs)

/-- The loop which maps positions to choice codes (`respy/simulate.py:433-435`):
`for pos, val in enumerate(positions): choice = np.where(choice == pos, val, choice)`. -/
def remapChoice (positions : List Nat) (choice : Nat) : Nat :=
  positions.zipIdx.foldl (fun c vp => if c = vp.2 then vp.1 else c) choice

/-- The parameters used by `_simulate_single_period`. `measError` are the standard deviations
`optim_paras["meas_error"]`, `nWagesRaw` is `len(optim_paras["choices_w_wage"])` (`respy/simulate.py:375-457`). -/
structure RewardParams (K : Type _) where
  exp : K → K
  lo : K
  hi : K
  cholesky : List (List K)
  nWagesRaw : Nat
  measError : List K
  betaDelta : K

/-- What is recorded for an individual: choice, wage (`none` is NaN) and the columns
`shock_reward_*`, `value_function_*` for the alternatives of the choice set (`respy/simulate.py:437-457`). -/
structure Outcome (K : Type _) where
  choice : Nat
  wage : Option K
  shocks : List K
  values : List K
deriving DecidableEq

/-- The measurement errors of one row (`respy/simulate.py:188`). -/
def measurementErrors (p : RewardParams K) (base : List K) : List K :=
  List.zipWith (fun b sd => p.exp (b * sd)) base p.measError

/-- The wages of one row (`respy/simulate.py:428-429`): wage times shock times measurement error, NaN
from column `n_wages` on. -/
def recordedWages (nWages : Nat) (w shocks meas : List K) : List (Option K) :=
  (List.zipWith (· * ·) (List.zipWith (· * ·) w shocks) meas).mapIdx fun i x =>
    if i < nWages then some x else none

/-- `_simulate_single_period` for one individual (`respy/simulate.py:387-450`). `cs` is the choice set
of the dense key, `w`, `m`, `c` are the rows of wages, non-pecuniary rewards and continuation values,
`base` and `baseWage` the rows of the base draws with one column for each choice of the model. The
choice codes `positions` are the positions of the valid choices since the names of choices are
distinct. `none` is an exception. -/
def simulateIndividual (p : RewardParams K) (cs : List Bool) (w m c base baseWage : List K) :
    Option (Outcome K) := do
  let draws ← boolIndex cs base
  let shocks ← transformDraw p.exp p.lo p.hi p.cholesky p.nWagesRaw cs draws
  let meas ← boolIndex cs (measurementErrors p baseWage)
  if w.length = shocks.length ∧ m.length = shocks.length ∧ c.length = shocks.length then do
    let values := valueFunctions p.betaDelta w m c shocks
    let pos ← argmax values
    let wage ← (recordedWages (nWagesIn p.nWagesRaw cs) w shocks meas)[pos]?
    pure ⟨remapChoice (validChoices cs) pos, wage, shocks, values⟩
  else none

/-! ## All individuals in one period -/

/-- NumPy's global generator: `np.random.seed`, `np.random.rand(n, 1)` and
`np.random.choice(columns, size=count, p=probs)` (`respy/simulate.py:479, 537, 650`). -/
structure RandomSource (K G : Type _) where
  seed : Nat → G
  uniform : G → Nat → List K × G
  choice : G → List Nat → List K → Nat → List Nat × G

/-- The state of an individual: core columns and dense columns (`create_state_space_columns`)
(`respy/simulate.py:114-244`). -/
structure SimState where
  core : CoreState
  dense : List Nat
deriving DecidableEq, Repr

/-- The solved state space as used by `simulate` (`respy/simulate.py:207-216`) and the number of
exogenous processes. `cvs` is `get_continuation_values`, `transition` the dumped transition matrices
(columns, rows), `valueCounts` the order of the distinct values in `value_counts`, `keyOrder` the order in
which the dense keys are processed. -/
structure SimSpace (K : Type _) where
  indexer : Dict CoreState (Nat × Nat)
  denseIndex : Option (Dict (List Nat) Nat)
  lookup : Dict (Nat × Nat) Nat
  complexes : List Complex
  wages : Dict Nat (List (List K))
  nonpecs : Dict Nat (List (List K))
  cvs : Nat → Option (Dict Nat (List (List K)))
  covariates : Nat → Option (List Nat)
  nExog : Nat
  transition : Dict Nat (List Nat × List (List K))
  valueCounts : List Nat → List Nat
  keyOrder : List Nat → List Nat

/-- `map_observations_to_states` for one row (`respy/shared.py:599-672`): dense key and core index;
`none` is a `KeyError`. -/
def SimSpace.locate (sp : SimSpace K) (s : SimState) : Option (Nat × Nat) := do
  let (coreKey, coreIndex) ← sp.indexer.get? s.core
  match sp.denseIndex with
  | none => pure (coreKey, coreIndex)
  | some d => do
    let i ← d.get? s.dense
    let k ← sp.lookup.get? (coreKey, i)
    pure (k, coreIndex)

/-- A row of the simulated sample (`respy/simulate.py:566-595`). -/
structure SimRow (K : Type _) where
  id : Nat
  state : SimState
  denseKey : Nat
  coreIndex : Nat
  base : List K
  baseWage : List K
  outcome : Outcome K
deriving DecidableEq

/-- One row of the frame returned by `_simulate_single_period` in period `period`
(`respy/simulate.py:203-226`). -/
def simulateRow (p : RewardParams K) (sp : SimSpace K) (period : Nat)
    (cvs : Dict Nat (List (List K))) (id : Nat) (s : SimState) (base baseWage : List K) :
    Option (SimRow K) := do
  let (k, i) ← sp.locate s
  let complex ← sp.complexes[k]?
  if complex.period = period then do
    let wages ← sp.wages.get? k
    let nonpecs ← sp.nonpecs.get? k
    let cv ← cvs.get? k
    let w ← wages[i]?
    let m ← nonpecs[i]?
    let c ← cv[i]?
    let o ← simulateIndividual p complex.choiceSet w m c base baseWage
    pure ⟨id, s, k, i, base, baseWage, o⟩
  else none

/-- `draw_dense_key_next_period` for one dense key (`respy/simulate.py:460-485`): for each distinct core
index the draws for its individuals. The result maps positions of rows to dense keys. -/
def drawNextForKey {G : Type _} (rs : RandomSource K G) (sp : SimSpace K) (rows : List (SimRow K))
    (k : Nat) (g : G) : Option (Dict Nat Nat × G) := do
  let (columns, probs) ← sp.transition.get? k
  let positions := (List.range rows.length).filter fun i => rows[i]?.map (·.denseKey) = some k
  let indices := positions.filterMap fun i => rows[i]?.map (·.coreIndex)
  (sp.valueCounts indices).foldlM (init := (([] : Dict Nat Nat), g)) fun acc index => do
    let own := positions.filter fun i => rows[i]?.map (·.coreIndex) = some index
    let row ← probs[index]?
    let (draws, g') := rs.choice acc.2 columns row own.length
    pure (Dict.update acc.1 (own.zip draws), g')

/-- `draw_dense_key_next_period` for all dense keys, one after the other (`n_jobs=1`,
`respy/parallelization.py:8`). -/
def drawNext {G : Type _} (rs : RandomSource K G) (sp : SimSpace K) (rows : List (SimRow K)) (g : G) :
    Option (Dict Nat Nat × G) :=
  (sp.keyOrder (rows.map (·.denseKey)).eraseDups).foldlM (init := (([] : Dict Nat Nat), g))
    fun acc k => do
      let (d, g') ← drawNextForKey rs sp rows k acc.2
      pure (Dict.update acc.1 d, g')

/-- The column `dense_key_next_period`, which exists only with exogenous processes
(`respy/simulate.py:452-456`). -/
def nextDenseKeys {G : Type _} (rs : RandomSource K G) (sp : SimSpace K) (rows : List (SimRow K))
    (g : G) : Option (Dict Nat Nat × G) :=
  if sp.nExog = 0 then some ([], g) else drawNext rs sp rows g

/-- The state of an individual in the next period: `apply_law_of_motion_for_core`
(`respy/shared.py:733-782`) and `apply_law_of_motion_for_dense` (`respy/simulate.py:247-298`), which
overwrites the columns of the exogenous processes, the last ones, if there are any. `next` is
`dense_key_next_period`. -/
def nextState (sp : SimSpace K) (row : SimRow K) (next : Option Nat) : Option SimState :=
  let core := lawOfMotion row.state.core row.outcome.choice
  if sp.nExog = 0 then some ⟨core, row.state.dense⟩
  else do
    let k ← next
    let cov ← sp.covariates k
    pure ⟨core, staticPart sp.nExog row.state.dense ++ exogenousPart sp.nExog cov⟩

/-- The loop over periods of `simulate` for the `n_step_ahead` methods (`respy/simulate.py:188-240`).
`agents` is the frame `df` with identifiers, `draws` and `drawsWage` are all rows of the base draws.
`remaining` is the number of periods left, `period` the current one. The result is the list `data` of
frames. Without individuals the decorated function `_simulate_single_period` is called with an empty dictionary in the
place of each frame (`respy/parallelization.py:105-111, 119-140`), which raises an exception. -/
def simulateLoop {G : Type _} (rs : RandomSource K G) (p : RewardParams K) (sp : SimSpace K)
    (draws drawsWage : List (List K)) :
    (remaining period : Nat) → List (Nat × SimState) → G → Option (List (List (SimRow K)) × G)
  | 0, _, _, g => some ([], g)
  | r + 1, period, agents, g => do
    let n := agents.length
    let current := agents.filter fun a => a.2.core.period = period
    let base := (draws.drop (n * period)).take n
    let baseWage := (drawsWage.drop (n * period)).take n
    if base.length = current.length ∧ baseWage.length = current.length ∧ current ≠ [] then do
      let cvs ← sp.cvs period
      let rows ← (current.zip (base.zip baseWage)).mapM fun x =>
        simulateRow p sp period cvs x.1.1 x.1.2 x.2.1 x.2.2
      let (next, g1) ← nextDenseKeys rs sp rows g
      if r = 0 then pure ([rows], g1)
      else do
        let agents' ← rows.zipIdx.mapM fun x => do
          let s ← nextState sp x.1 (Dict.get? next x.2)
          pure (x.1.id, s)
        let (rest, g2) ← simulateLoop rs p sp draws drawsWage r (period + 1) agents' g1
        pure (rows :: rest, g2)
    else none

/-- The order of the index of the sample (`respy/simulate.py:586`). -/
def SimRow.le (a b : SimRow K) : Prop :=
  a.id < b.id ∨ a.id = b.id ∧ a.state.core.period ≤ b.state.core.period

instance : DecidableRel (SimRow.le (K := K)) := fun _ _ => inferInstanceAs (Decidable (_ ∨ _))

/-- `pd.concat(data).sort_index()` in `_process_simulation_output` (`respy/simulate.py:583-588`). -/
def processOutput (data : List (List (SimRow K))) : List (SimRow K) :=
  data.flatten.insertionSort SimRow.le

/-! ## One-step-ahead simulation -/

/-- The loop over periods for `one_step_ahead` (`respy/simulate.py:188-240`): `df` is the whole panel,
the rows of the current period use the draws at their own positions. A period without observations raises an
exception, see `simulateLoop`. Not modelled: dense keys of the next period are drawn with exogenous processes, but not
used. -/
def simulateOneStep (p : RewardParams K) (sp : SimSpace K) (draws drawsWage : List (List K))
    (df : List (Nat × SimState)) (periods : Nat) : Option (List (List (SimRow K))) :=
  (List.range periods).mapM fun period => do
    let cvs ← sp.cvs period
    let positions := (List.range df.length).filter fun i =>
      (df[i]?.map fun a => a.2.core.period) = some period
    if positions = [] then none else
    positions.mapM fun i => do
      let a ← df[i]?
      let base ← draws[i]?
      let baseWage ← drawsWage[i]?
      simulateRow p sp period cvs a.1 a.2 base baseWage

/-! ## Initial characteristics -/

/-- Cumulative sums `probabilities.cumsum(axis=1)` of one row (`respy/simulate.py:643`). -/
def cumsum (acc : K) : List K → List K
  | [] => []
  | p :: ps => (acc + p) :: cumsum (acc + p) ps

/-- The cumulative distribution in `_random_choice` (`respy/simulate.py:640-645`). The last value is
rounded to five decimals and must be one: `np.round(x, 5)` is one exactly if `x` is within `5e-6` of one
(halves are rounded to the even number `100000`). `none` is the `ValueError`. -/
def cumulativeDistribution (probs : List K) : Option (List K) :=
  match (cumsum 0 probs).getLast? with
  | none => none
  | some last =>
    if last - 1 ≤ 1 / 200000 ∧ 1 - last ≤ 1 / 200000 then
      some ((cumsum 0 probs).dropLast ++ [1])
    else none

/-- `(u < cumulative_distribution).argmax(axis=1)` (`respy/simulate.py:650`): the first position whose
value exceeds `u`, or zero if there is none. -/
def firstAbove (u : K) (cdf : List K) : Nat :=
  let i := cdf.findIdx fun c => decide (u < c)
  if i < cdf.length then i else 0

/-- `_random_choice` for one row (`respy/simulate.py:598-659`); `none` is an exception. -/
def randomChoice (levels : List Nat) (probs : List K) (u : K) : Option Nat := do
  let cdf ← cumulativeDistribution probs
  levels[firstAbove u cdf]?

/-- A row of the frame of characteristics; columns are the state space columns, `none` is NaN
(`respy/simulate.py:301-370`). -/
abbrev CharRow := List (Option Nat)

/-- A characteristic which is sampled: its column, its levels (the keys or codes `0, 1, ...`) and the
probabilities computed from the frame by `compute_covariates`, `pandas_dot` and `softmax`
(`respy/simulate.py:519-533`). -/
structure Characteristic (K : Type _) where
  column : Nat
  levels : List Nat
  probs : List CharRow → List (List K)

/-- `fp[column].fillna(sampled)` for one row (`respy/simulate.py:334-359`). -/
def fillColumn (column : Nat) (row : CharRow) (value : Nat) : CharRow :=
  row.modify column fun x => match x with
    | some v => some v
    | none => some value

/-- `_sample_characteristic` and `fillna` (`respy/simulate.py:330-360, 488-542`): seed the generator with
the next number of `options["simulation_seed_iteration"]` and sample. -/
def sampleCharacteristic {G : Type _} (rs : RandomSource K G) (ch : Characteristic K) (seed : Nat)
    (fp : List CharRow) : Option (List CharRow × G) := do
  let probs := ch.probs fp
  let (us, g) := rs.uniform (rs.seed seed) probs.length
  let values ← (probs.zip us).mapM fun x => randomChoice ch.levels x.1 x.2
  if values.length = fp.length then pure (List.zipWith (fillColumn ch.column) fp values, g) else none

/-- The loop over the characteristics in `_extend_data_with_sampled_characteristics`
(`respy/simulate.py:301-370`): observables, experiences, lagged choices from the oldest to the newest,
type, in this order in `chars`. -/
def sampleAll {G : Type _} (rs : RandomSource K G) : List (Characteristic K) → (seed : Nat) →
    List CharRow → G → Option (List CharRow × G)
  | [], _, fp, g => some (fp, g)
  | ch :: chars, seed, fp, _ => do
    let (fp', g') ← sampleCharacteristic rs ch seed fp
    sampleAll rs chars (seed + 1) fp' g'

/-- `df[state_space_columns].astype(DTYPE_STATES)` (`respy/simulate.py:367-368`) for one row of the
first period: experiences, lagged choices and dense columns; `none` is the `ValueError` for a NaN.
Simplification: values are less than 256. -/
def rowToState (nExp nLags : Nat) (row : CharRow) : Option SimState := do
  let values ← row.mapM id
  pure ⟨⟨0, values.take nExp, ((values.drop nExp).take nLags).map some⟩, values.drop (nExp + nLags)⟩

/-! ## The simulation functions -/

/-- `method` in `get_simulate_func` (`respy/simulate.py:662-688`). -/
inductive SimMethod
  | sampling
  | withData
  | oneStepAhead
deriving DecidableEq

/-- `_harmonize_simulation_arguments` (`respy/simulate.py:662-688`): the number of simulated periods and
`options["n_periods"]`. `requested` is the argument `n_simulation_periods`, `maxPeriod` the largest
period in the data. -/
def harmonizePeriods (method : SimMethod) (requested : Option Nat) (maxPeriod nPeriods : Nat) :
    Nat × Nat :=
  let n := if requested = none ∧ method = .oneStepAhead then maxPeriod + 1 else nPeriods
  (n, if nPeriods < n then n else nPeriods)

/-- `options["simulation_agents"]` after `_harmonize_simulation_arguments`: the number of distinct
identifiers in the data (`respy/simulate.py:662-688`). -/
def nAgents (data : List ((Nat × Nat) × CharRow)) : Nat := (data.map fun r => r.1.1).eraseDups.length

/-- `_process_input_df_for_simulation` for `n_step_ahead_with_data` (`respy/simulate.py:698-710`): the
frame with index `(identifier, period)` is reindexed to the identifiers `0, ..., n - 1` in period `0`;
`nCols` columns are missing for unknown labels. -/
def inputWithData (nCols : Nat) (data : List ((Nat × Nat) × CharRow)) : List CharRow :=
  (List.range (nAgents data)).map fun i =>
    (Dict.get? data (i, 0)).getD (List.replicate nCols none)

/-- `_process_input_df_for_simulation` for `n_step_ahead_with_sampling` (`respy/simulate.py:693-696`). -/
def inputSampling (nCols agents : Nat) : List CharRow :=
  (List.range agents).map fun _ => List.replicate nCols none

/-- What is fixed by `get_simulate_func` (`respy/simulate.py:32-111`) for the `n_step_ahead` methods.
`solve` is the function which is called with the parameters (`respy/simulate.py:181`). Each call
processes the options again, so that `options["simulation_seed_iteration"]` starts at `seed` each time
(`respy/simulate.py:180`). -/
structure Simulation (K G P : Type _) where
  rs : RandomSource K G
  nPeriods : Nat
  nExp : Nat
  nLags : Nat
  seed : Nat
  input : List CharRow
  draws : List (List K)
  drawsWage : List (List K)
  chars : P → List (Characteristic K)
  rewards : P → RewardParams K
  solve : P → Option (SimSpace K)

/-- `simulate(params)` (`respy/simulate.py:114-244`) with the state of the global generator. Solving and
creating base draws seed the generator, too; this is not needed here since the state `g` is arbitrary. -/
def Simulation.run {G P : Type _} (sim : Simulation K G P) (params : P) (g : G) :
    Option (List (SimRow K)) × G :=
  match sim.solve params with
  | none => (none, g)
  | some sp =>
    match sampleAll sim.rs (sim.chars params) sim.seed sim.input g with
    | none => (none, g)
    | some (fp, g1) =>
      match fp.mapM (rowToState sim.nExp sim.nLags) with
      | none => (none, g1)
      | some states =>
        match simulateLoop sim.rs (sim.rewards params) sp sim.draws sim.drawsWage sim.nPeriods 0
            (states.zipIdx.map fun x => (x.2, x.1)) g1 with
        | none => (none, g1)
        | some (data, g2) => (some (processOutput data), g2)

end Respy
