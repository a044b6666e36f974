import Verif.Model.ProcessModel
import Verif.Model.SimulateSpace

/-!
# From parameters and options to simulated samples

Model of the way in which `simulate` uses the parameters (`respy/simulate.py:114-244, 301-370, 488-542`): which
characteristics are sampled, in which order, and with which probabilities.
-/

namespace Respy

/-- `create_state_space_columns` (`respy/shared.py:398-418, 432-436`). -/
def Processed.stateColumns (p : Processed) : List Str :=
  (p.choices.wExp.map fun c => "exp_".toList ++ c) ++
    ((List.range p.lags.length).map fun i => "lagged_choice_".toList ++ codeText (i + 1)) ++
    (denseColumns p.denseSpec).map String.toList

/-- A characteristic which is sampled: the name of its column, its levels (the keys, or the codes `0, 1, ...`) and
the coefficients of its levels (`respy/simulate.py:330-360, 535-540`). -/
structure SampledVariable where
  name : Str
  levels : List Nat
  betas : List (List (Str × ℝ))

/-- The characteristics in the order in which they are sampled (`respy/simulate.py:330-360`): observables,
experiences, lagged choices from the oldest to the newest, type. -/
def Processed.sampledVariables (p : Processed) : List SampledVariable :=
  (p.observables.map fun o => ⟨o.1, List.range o.2.length, o.2.map Prod.snd⟩) ++
  ((p.choices.wExp.zip p.experience).map fun ce =>
    ⟨"exp_".toList ++ ce.1, Dict.keys ce.2.1, ce.2.1.map Prod.snd⟩) ++
  (p.lags.zipIdx.reverse.map fun di =>
    ⟨"lagged_choice_".toList ++ codeText (di.2 + 1), List.range di.1.length, di.1.map Prod.snd⟩) ++
  if 2 ≤ p.nTypes then [⟨"type".toList, List.range p.typeProb.length, p.typeProb.map Prod.snd⟩] else []

/-- `df.eval` for a frame with `n` rows, row by row (`respy/shared.py:308`). -/
def FormulaEval.column (ev : FormulaEval) (n : Nat) (lookup : Str → Option (List (Option ℝ))) (formula : Str) :
    Option (List (Option ℝ)) :=
  (List.range n).mapM fun i => (ev.value (fun x => (lookup x).bind fun c => (c[i]?).join) formula).map some

/-- The frame of first periods with covariates in `_sample_characteristic` (`respy/simulate.py:519-522`): a column
has one value per individual, `none` is NaN. Covariates are computed if the variables on which they depend have no
missing values, the others are left out. Simplification: the code adds the covariates to the frame itself, so that
the ones which can be computed for an earlier characteristic are not computed again; their values are the same. -/
def Processed.sampleFrame (p : Processed) (ev : FormulaEval) (fp : List CharRow) :
    Option (Frame (List (Option ℝ))) :=
  let column (j : Nat) := fp.map fun row => ((row[j]?).join).map fun (v : Nat) => (v : ℝ)
  let index : Dict Str (List (Option ℝ)) :=
    [("identifier".toList, (List.range fp.length).map fun (i : Nat) => some (i : ℝ)),
     ("period".toList, List.replicate fp.length (some 0))]
  (computeCovariates (ev.column fp.length) (fun c => c.all Option.isSome) true false
    ⟨p.stateColumns.zipIdx.map fun x => (x.1, column x.2), index⟩ p.groups.all).toOption

/-- The value of a column for individual `i` (`respy/shared.py:593`). -/
def frameValue (df : Frame (List (Option ℝ))) (i : Nat) : StateRow ℝ :=
  fun x => (Dict.get? df.columns x).bind fun c => (c[i]?).join

/-- The probabilities of the levels for all individuals (`respy/simulate.py:524-533`). `none` is an exception: a
`KeyError` if a covariate does not exist; with missing values `_random_choice` raises a `ValueError`
(`respy/simulate.py:646-648`). -/
noncomputable def Processed.levelProbabilities (p : Processed) (ev : FormulaEval) (betas : List (List (Str × ℝ)))
    (fp : List CharRow) : Option (List (List ℝ)) := do
  let df ← p.sampleFrame ev fp
  (List.range fp.length).mapM fun i => (betas.mapM (pandasDot (frameValue df i))).map softmax

/-- A sampled variable as a characteristic of the simulation (`respy/simulate.py:488-542`). Without
probabilities there are too few sampled values, so that `sampleCharacteristic` raises. -/
noncomputable def Processed.characteristic (p : Processed) (ev : FormulaEval) (v : SampledVariable) :
    Characteristic ℝ where
  column := p.stateColumns.idxOf v.name
  levels := v.levels
  probs := fun fp => (p.levelProbabilities ev v.betas fp).getD []

/-- The parameters used in `_simulate_single_period` (`respy/simulate.py:183-190, 375-457`). -/
noncomputable def Processed.rewardParams (p : Processed) (senv : SolveEnv) : RewardParams ℝ where
  exp := Real.exp
  lo := senv.lo
  hi := senv.hi
  cholesky := p.cholesky
  nWagesRaw := p.choices.wWage.length
  measError := p.measurement.2
  betaDelta := p.discount.betaDelta

/-- What does not depend on the parameters: random numbers and the data of the first period
(`respy/simulate.py:77-111`). -/
structure SimulateEnv (G : Type) where
  rs : RandomSource ℝ G
  seed : Nat
  input : List CharRow
  draws : List (List ℝ)
  drawsWage : List (List ℝ)

/-- `simulate` for processed parameters (`respy/simulate.py:114-244`) and the solution `sp`
(`none` is an exception of `solve`). -/
noncomputable def Processed.simulation {G : Type} (p : Processed) (ev : FormulaEval) (senv : SolveEnv)
    (e : SimulateEnv G) (sp : Option (SimSpace ℝ)) : Simulation ℝ G Unit where
  rs := e.rs
  nPeriods := p.nPeriods
  nExp := p.choices.wExp.length
  nLags := p.lags.length
  seed := e.seed
  input := e.input
  draws := e.draws
  drawsWage := e.drawsWage
  chars := fun _ => p.sampledVariables.map (p.characteristic ev)
  rewards := fun _ => p.rewardParams senv
  solve := fun _ => sp

end Respy
