import Verif.Spec.Differences

/-!
# Specification: solutions in which the values of alternatives are nearly the same
-/

namespace Respy

variable {K : Type _} [Field K] [LinearOrder K]

/-- The non-pecuniary rewards `m'` and the continuation values `c'`, discounted with `beta'`, differ from `m` and `c`,
discounted with `beta`, by at most `eta` for every alternative. -/
structure CloseRewards (beta beta' eta : K) (m c m' c' : List K) : Prop where
  nonpecs : m'.length = m.length
  continuations : c'.length = c.length
  values : ∀ (j : Nat) a b a' b', m[j]? = some a → c[j]? = some b → m'[j]? = some a' → c'[j]? = some b' →
    |(a' + beta' * b') - (a + beta * b)| ≤ eta

/-- Two solved state spaces which differ only in non-pecuniary rewards and continuation values, and these such that the
values of alternatives differ by at most `eta`, in the first `n` periods. -/
structure SimSpace.Nearby (n : Nat) (beta beta' eta : K) (sp sp' : SimSpace K) : Prop where
  indexer : sp'.indexer = sp.indexer
  denseIndex : sp'.denseIndex = sp.denseIndex
  lookup : sp'.lookup = sp.lookup
  complexes : sp'.complexes = sp.complexes
  wages : ∀ (k : Nat) c, sp.complexes[k]? = some c → sp'.wages.get? k = sp.wages.get? k
  covariates : sp'.covariates = sp.covariates
  nExog : sp'.nExog = sp.nExog
  transition : sp'.transition = sp.transition
  valueCounts : sp'.valueCounts = sp.valueCounts
  keyOrder : sp'.keyOrder = sp.keyOrder
  cvs : ∀ t < n, ((sp.cvs t).isSome ↔ (sp'.cvs t).isSome)
  rows : ∀ t < n, ∀ cvs cvs', sp.cvs t = some cvs → sp'.cvs t = some cvs' →
    ∀ (k : Nat) c, sp.complexes[k]? = some c → c.period = t → ∀ i,
      Option.Rel (fun x x' => CloseRewards beta beta' eta x.1 x.2 x'.1 x'.2) (rewardsAt sp.nonpecs cvs k i)
        (rewardsAt sp'.nonpecs cvs' k i)

/-- One of the values exceeds all others by more than `margin`. -/
def ClearChoice (margin : K) (values : List K) : Prop :=
  ∃ (pos : Nat) (v : K), values[pos]? = some v ∧ ∀ (j : Nat) u, j ≠ pos → values[j]? = some u → u + margin < v

/-- Two rows of samples which are the same except for the values of the alternatives, and these differ by at most
`eta`. -/
def NearlySameRow (eta : K) (row row' : SimRow K) : Prop :=
  ∃ values, row' = { row with outcome := { row.outcome with values := values } } ∧
    List.Forall₂ (fun v v' => |v' - v| ≤ eta) row.outcome.values values

end Respy
