import Verif.Model.Dense

/-!
# The cache directory

Model of `respy/pre_processing/model_processing.py:891-903`, `respy/shared.py:675-716` and of the use
of the cache in `respy/state_space.py:28-62, 759-817` and `respy/solve.py:54-108`.

Paths are lists of components, without `..` and symbolic links. The file system maps existing
directories to their files.
-/

namespace Respy

/-- A component of a path (`respy/pre_processing/model_processing.py:891-903`). -/
abbrev Name := List Char

/-- An absolute path (`respy/pre_processing/model_processing.py:891-903`). -/
abbrev Path := List Name

/-- A path as given by the user (`respy/pre_processing/model_processing.py:891-903`). -/
structure UserPath where
  absolute : Bool
  parts : List Name

/-- The default of `options["cache_path"]` and the name of all cache directories
(`respy/pre_processing/model_processing.py:891-903`). -/
def respyName : Name := ".respy".toList

/-- `_parse_cache_directory` (`respy/pre_processing/model_processing.py:891-903`). `cwd` is
`Path.cwd()`; `none` is an option which is not set. `path.name` is the last component, empty for the
root. -/
def parseCacheDirectory (cwd : Path) (p : Option UserPath) : UserPath :=
  let p := p.getD ⟨false, [respyName]⟩
  let q := if p.absolute then p else ⟨true, cwd ++ p.parts⟩
  if q.parts.getLast? = some respyName then q else ⟨true, q.parts ++ [respyName]⟩

/-- Existing directories with their files; `A` are the contents of files (`respy/shared.py:675-716`). -/
abbrev FileSystem (A : Type _) := Path → Option (Name → Option A)

variable {A P R : Type _}

/-- `shutil.rmtree` (`respy/shared.py:712`). -/
def rmtree (fs : FileSystem A) (d : Path) : FileSystem A :=
  fun p => if d.isPrefixOf p then none else fs p

/-- `directory.mkdir(parents=True, exist_ok=True)` (`respy/shared.py:714`). -/
def mkdirParents (fs : FileSystem A) (d : Path) : FileSystem A :=
  fun p => match fs p with
    | some v => some v
    | none => if p.isPrefixOf d then some fun _ => none else none

/-- `prepare_cache_directory` (`respy/shared.py:704-716`). -/
def prepareCacheDirectory (fs : FileSystem A) (d : Path) : FileSystem A :=
  mkdirParents (if (fs d).isSome then rmtree fs d else fs) d

/-- `to_parquet` (`respy/shared.py:675-681`); `none` if the directory does not exist. -/
def dump (fs : FileSystem A) (d : Path) (n : Name) (a : A) : Option (FileSystem A) :=
  (fs d).map fun files =>
    fun p => if p = d then some fun m => if m = n then some a else files m else fs p

/-- `read_parquet` (`respy/shared.py:684-688`). -/
def load (fs : FileSystem A) (d : Path) (n : Name) : Option A := (fs d).bind fun files => files n

/-- A model from the point of view of the cache.

* `states`: the frames dumped by `_create_dense_period_choice`, in the order of the loop
  (`respy/state_space.py:776-816`)
* `complexes`: the values of `dense_key_to_complex`
* `transition`: `compute_transition_probabilities` with exogenous processes (`none` without)
* `result`: the remaining computation, from the loaded states and transition probabilities -/
structure CacheModel (A P R : Type _) where
  dir : Path
  states : List (Complex × A)
  complexes : List Complex
  transition : Option (P → Complex → A → Option A)
  result : P → List A → List A → Option R

/-- The topic in file names (`respy/state_space.py:759-817`). -/
def statesTopic : List Char := "states".toList
/-- The topic in file names (`respy/solve.py:82-108`). -/
def transitionTopic : List Char := "transition".toList

/-- `create_state_space_class`: prepare the directory and dump the states
(`respy/state_space.py:28-62`). -/
def CacheModel.create (m : CacheModel A P R) (fs : FileSystem A) : Option (FileSystem A) :=
  m.states.foldlM (init := prepareCacheDirectory fs m.dir) fun fs ca =>
    dump fs m.dir (fileName statesTopic ca.1) ca.2

/-- `_create_param_specific_objects` for the list of complexes (`respy/solve.py:81-108`): load the
states, dump the transition probabilities. The file system is changed also if an exception is
raised. -/
def CacheModel.paramObjects (m : CacheModel A P R) (p : P) :
    List Complex → FileSystem A → FileSystem A × Option (List A)
  | [], fs => (fs, some [])
  | c :: cs, fs =>
    match load fs m.dir (fileName statesTopic c) with
    | none => (fs, none)
    | some s =>
      let fs' := match m.transition with
        | none => some fs
        | some tr => (tr p c s).bind fun t => dump fs m.dir (fileName transitionTopic c) t
      match fs' with
      | none => (fs, none)
      | some fs' =>
        let r := m.paramObjects p cs fs'
        (r.1, r.2.map (s :: ·))

/-- `solve(params)`: the parameter-specific objects, then the computations which load the transition
probabilities (`respy/solve.py:54-78`, `respy/exogenous_processes.py:90`). -/
def CacheModel.evaluate (m : CacheModel A P R) (p : P) (fs : FileSystem A) :
    FileSystem A × Option R :=
  let r := m.paramObjects p m.complexes fs
  (r.1, r.2.bind fun states =>
    match m.transition with
    | none => m.result p states []
    | some _ => (m.complexes.mapM fun c => load r.1 m.dir (fileName transitionTopic c)).bind
        fun transitions => m.result p states transitions)

/-- What a user can do with models `i : ι` (`respy/solve.py:19-78`). -/
inductive CacheEvent (ι P : Type _)
  | create (i : ι)
  | evaluate (i : ι) (p : P)

/-- The file system after an event (`respy/solve.py:19-78`). -/
def cacheStep {ι : Type _} (m : ι → CacheModel A P R) (fs : FileSystem A) :
    CacheEvent ι P → FileSystem A
  | .create i => ((m i).create fs).getD (prepareCacheDirectory fs (m i).dir)
  | .evaluate i p => ((m i).evaluate p fs).1

/-- The file system after a sequence of events (`respy/solve.py:19-78`). -/
def cacheRun {ι : Type _} (m : ι → CacheModel A P R) (es : List (CacheEvent ι P))
    (fs : FileSystem A) : FileSystem A := es.foldl (cacheStep m) fs

end Respy
