import Verif.Model.LogLike

/-!
# Specification: solutions with the same differences between alternatives
-/

namespace Respy

variable {K : Type _} [Field K] [LinearOrder K]

/-- The non-pecuniary rewards `m'` and continuation values `c'`, discounted with `beta`, exceed `m` and `c` by
the same number `k` for all alternatives. -/
structure ShiftedBy (beta k : K) (m c m' c' : List K) : Prop where
  nonpecs : m'.length = m.length
  continuations : c'.length = c.length
  values : ∀ (j : Nat) a b a' b', m[j]? = some a → c[j]? = some b → m'[j]? = some a' → c'[j]? = some b' →
    a' + beta * b' = a + beta * b + k

/-- The non-pecuniary rewards and continuation values of the state with dense key `k` and core index `i`. -/
def rewardsAt (nonpecs cvs : Dict Nat (List (List K))) (k i : Nat) : Option (List K × List K) := do
  let ns ← nonpecs.get? k
  let cs ← cvs.get? k
  let m ← ns[i]?
  let c ← cs[i]?
  pure (m, c)

/-- The continuation values of each of `n` periods belong to the dense keys of the period. -/
def SimSpace.KeysByPeriod (n : Nat) (sp : SimSpace K) : Prop :=
  ∀ t < n, ∀ cvs, sp.cvs t = some cvs → (Dict.keys cvs).Nodup ∧
    ∀ k ∈ Dict.keys cvs, ∃ c, sp.complexes[k]? = some c ∧ c.period = t

/-- Two solved state spaces which differ only in non-pecuniary rewards and continuation values, and these by the
same number for all alternatives of a state, in the first `n` periods. The numbers of different states may
differ. -/
structure SimSpace.SameDifferences (n : Nat) (beta : K) (sp sp' : SimSpace K) : Prop where
  indexer : sp'.indexer = sp.indexer
  denseIndex : sp'.denseIndex = sp.denseIndex
  lookup : sp'.lookup = sp.lookup
  complexes : sp'.complexes = sp.complexes
  wages : ∀ (k : Nat) c, sp.complexes[k]? = some c → sp'.wages.get? k = sp.wages.get? k
  covariates : sp'.covariates = sp.covariates
  nExog : sp'.nExog = sp.nExog
  transition : sp'.transition = sp.transition
  valueCounts : sp'.valueCounts = sp.valueCounts
  keyOrder : sp'.keyOrder = sp.keyOrder
  cvs : ∀ t < n, ((sp.cvs t).isSome ↔ (sp'.cvs t).isSome)
  rows : ∀ t < n, ∀ cvs cvs', sp.cvs t = some cvs → sp'.cvs t = some cvs' →
    ∀ (k : Nat) c, sp.complexes[k]? = some c → c.period = t → ∀ i,
      Option.Rel (fun x x' => ∃ s, ShiftedBy beta s x.1 x.2 x'.1 x'.2) (rewardsAt sp.nonpecs cvs k i)
        (rewardsAt sp'.nonpecs cvs' k i)

/-- Two rows of samples which are the same except for the values of the alternatives, and these differ by the same
number for all alternatives. -/
def SameBehaviour (row row' : SimRow K) : Prop :=
  ∃ k, row' = { row with outcome := { row.outcome with values := row.outcome.values.map (· + k) } }

end Respy
