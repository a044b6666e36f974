import Verif.Model.Solve

/-!
# Repeated calls of `solve`

Model of `respy/solve.py:19-78` as a state machine on the objects created by `get_solve_func`.
-/

namespace Respy

/-- The attributes of the `StateSpace` object which are written by `solve` (`respy/solve.py:54-78`). -/
structure Solution (K : Type _) where
  wages : Dict Nat (List (List K))
  nonpecs : Dict Nat (List (List K))
  ev : Dict Nat (List K)

/-- What is fixed by `get_solve_func(params, options)` (`respy/solve.py:19-51`).

* `objects`: `process_params_and_options` and `_create_param_specific_objects`
  (`respy/solve.py:54-73`); `none` if an exception is raised.
* `seed`: the start of `options["solution_seed_iteration"]`, which is recreated from the user's seed
  in each call since `solve` processes the options again (`respy/solve.py:56`). -/
structure SolveModel (K P : Type _) where
  ss : SolveSpace
  interp : Interpolation K
  seed : Nat
  objects : P → Option (ParamObjects K)

variable {K P : Type _} [Field K] [LinearOrder K]

/-- A new `StateSpace` object (`respy/state_space.py:112-130`): zeros, no wages. -/
def SolveModel.fresh (m : SolveModel K P) : Solution K := ⟨[], [], initialValues m.ss⟩

/-- `solve(params)` (`respy/solve.py:54-78`): the new contents of the object and whether the call
returns. -/
def SolveModel.solve (m : SolveModel K P) (st : Solution K) (p : P) : Solution K × Bool :=
  match m.objects p with
  | none => (st, false)
  | some par =>
    let r := solveBackward m.ss m.interp par m.seed st.ev
    (⟨par.wages, par.nonpecs, r.1⟩, r.2)

/-- The contents of the object after a list of calls, some of which may raise (`respy/solve.py:54-78`). -/
def SolveModel.after (m : SolveModel K P) (st : Solution K) (history : List P) : Solution K :=
  history.foldl (fun st p => (m.solve st p).1) st

/-- The memory: objects by address (`respy/solve.py:19-78`). -/
abbrev Heap (K : Type _) := List (Solution K)

/-- `get_solve_func`: allocate a state space; the function keeps its address (`respy/solve.py:19-51`). -/
def SolveModel.alloc (m : SolveModel K P) (h : Heap K) : Heap K × Nat :=
  (h ++ [m.fresh], h.length)

/-- Call the function whose state space is at address `a`. `solve` returns the object itself
(`respy/solve.py:74-78`), that is its address. -/
def SolveModel.call (m : SolveModel K P) (h : Heap K) (a : Nat) (p : P) : Heap K × Option Nat :=
  match h[a]? with
  | none => (h, none)
  | some st =>
    let r := m.solve st p
    (h.set a r.1, if r.2 then some a else none)

end Respy
