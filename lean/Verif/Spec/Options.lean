import Verif.Model.Options

/-!
# Specification of valid options

What values an option can have, by its name.
-/

namespace Respy

/-- Names of the options which hold the sequences of seeds. -/
def internalSeedNames : List Str :=
  ["solution_seed_startup".toList, "solution_seed_iteration".toList, "simulation_seed_startup".toList,
    "simulation_seed_iteration".toList, "estimation_seed_startup".toList, "estimation_seed_iteration".toList]

/-- A list of texts. -/
def PyValue.Texts (v : PyValue) : Prop := ∃ l : List Str, v = .list (l.map .str)

/-- The value `v` is in the range of the option `k`. Names without a rule can have any value. -/
structure OptionInRange (k : Str) (v : PyValue) : Prop where
  periods : k = "n_periods".toList → ∃ n : Int, v = .int n ∧ 0 < n
  agents : k = "simulation_agents".toList → ∃ n : Int, v = .int n ∧ 0 < n
  draws : "draws".toList <:+: k → ∃ n : Int, v = .int n ∧ 0 < n
  seeds : "_seed".toList <:+ k → ¬ "draws".toList <:+: k → ∃ n : Int, v = .int n ∧ 0 ≤ n
  /-- The seeds of the package have 32 bits. -/
  packageSeeds : k = "solution_seed".toList ∨ k = "simulation_seed".toList ∨ k = "estimation_seed".toList →
    ∃ n : Nat, v = .int n ∧ n < 2 ^ 32
  tau : k = "estimation_tau".toList → (∃ n : Int, v = .int n ∧ 0 < n) ∨ ∃ x : Rat, v = .float x ∧ 0 < x
  points : k = "interpolation_points".toList → (∃ n : Int, v = .int n ∧ (0 < n ∨ n = -1)) ∨ v = .float (-1)
  filters : k = "core_state_space_filters".toList → v.Texts
  restrictions : k = "negative_choice_set".toList →
    ∃ items : List (Str × PyValue), v = .dict (items.map fun kv => (.str kv.1, kv.2)) ∧ ∀ kv ∈ items, kv.2.Texts
  sequence : k = "monte_carlo_sequence".toList →
    v = .str "random".toList ∨ v = .str "halton".toList ∨ v = .str "sobol".toList
  cache : k = "cache_path".toList → (∃ s, v = .str s) ∨ v = .other

end Respy
