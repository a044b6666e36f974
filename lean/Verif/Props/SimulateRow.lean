import Verif.Lemmas.SimulateRow
import Mathlib.Algebra.Order.Ring.Rat
import Mathlib.Tactic.IntervalCases

/-!
# Choices and wages of simulated individuals (C24, C25)

The specification: alternatives are numbered by their codes `a`, the arrays of a dense key have one
column for each available alternative. `IsValueOf ... a v`: alternative `a` is available and `v` is its
value. `IsBestOf ... a`: `a` is the first available alternative with the highest value.
-/

set_option linter.unusedSectionVars false

namespace Respy

variable {K : Type _} [Field K] [LinearOrder K]

/-- The base draw of alternative `j`. -/
def drawOf (base : List K) (j : Nat) : K := (base[j]?).getD 0

/-- Alternative `a` is available, its wage is `wa` and its value is `v`. -/
def IsValueOf (p : RewardParams K) (cs : List Bool) (w m c base : List K) (a : Nat) (wa v : K) : Prop :=
  cs[a]? = some true ∧ ∃ ma ca : K, w[positionIn cs a]? = some wa ∧ m[positionIn cs a]? = some ma ∧
    c[positionIn cs a]? = some ca ∧
    v = wa * shockOf p.exp p.lo p.hi p.cholesky p.nWagesRaw cs (drawOf base) a + ma + p.betaDelta * ca

/-- `a` is the first available alternative with the highest value and `wa` its wage. -/
def IsBestOf (p : RewardParams K) (cs : List Bool) (w m c base : List K) (a : Nat) (wa : K) : Prop :=
  ∃ v, IsValueOf p cs w m c base a wa v ∧
    ∀ b wb vb, IsValueOf p cs w m c base b wb vb → vb ≤ v ∧ (b < a → vb < v)

/-- The wage which should be recorded for alternative `a`. -/
def wageOf (p : RewardParams K) (cs : List Bool) (base baseWage : List K) (a : Nat) (wa : K) :
    Option K :=
  if a < p.nWagesRaw then
    some (wa * shockOf p.exp p.lo p.hi p.cholesky p.nWagesRaw cs (drawOf base) a *
      p.exp (drawOf baseWage a * drawOf p.measError a))
  else none

/-- What one row of `_simulate_single_period` computes. -/
theorem simulateIndividual_spec (p : RewardParams K) (cs : List Bool) (w m c base baseWage : List K)
    (o : Outcome K) (h : simulateIndividual p cs w m c base baseWage = some o) :
    ∃ a wa, IsBestOf p cs w m c base a wa ∧ o.wage = wageOf p cs base baseWage a wa ∧
      o.choice = remapChoice (validChoices cs) (positionIn cs a) ∧
      (∀ b : Nat, cs[b]? = some true → o.shocks[positionIn cs b]? =
        some (shockOf p.exp p.lo p.hi p.cholesky p.nWagesRaw cs (drawOf base) b)) ∧
      (∀ b : Nat, cs[b]? = some true → ∃ wb vb, IsValueOf p cs w m c base b wb vb ∧
        o.values[positionIn cs b]? = some vb) := by
  unfold simulateIndividual at h
  obtain ⟨draws, hdraws, h⟩ := Option.bind_eq_some_iff.1 h
  obtain ⟨shocks, hshocks, h⟩ := Option.bind_eq_some_iff.1 h
  obtain ⟨meas, hmeas, h⟩ := Option.bind_eq_some_iff.1 h
  split at h
  · rename_i hl
    obtain ⟨hlw, hlm, hlc⟩ := hl
    obtain ⟨q, hq, h⟩ := Option.bind_eq_some_iff.1 h
    obtain ⟨wage, hwage, h⟩ := Option.bind_eq_some_iff.1 h
    cases h
    obtain ⟨hbl, _⟩ := boolIndex_length _ _ _ hdraws
    obtain ⟨hml, _⟩ := boolIndex_length _ _ _ hmeas
    have hz : ∀ j : Nat, cs[j]? = some true → draws[positionIn cs j]? = some (drawOf base j) := by
      intro j hj
      rw [boolIndex_at _ _ _ hdraws j hj]
      have : j < base.length := by
        rw [← hbl]; exact (List.getElem?_eq_some_iff.1 hj).1
      simp [drawOf, this]
    obtain ⟨hsl, _, hs⟩ := transformDraw_spec _ _ _ _ _ _ _ _ hshocks (drawOf base) hz
    have hvlen := valueFunctions_length p.betaDelta w m c shocks (by omega) (by omega) (by omega)
    obtain ⟨v, hv, hmax, hfirst⟩ := argmax_spec _ _ hq
    have hqlt : q < cs.count true := by
      have := (List.getElem?_eq_some_iff.1 hv).1; omega
    obtain ⟨a, ha, rfl⟩ := exists_of_lt_count cs q hqlt
    have hvalue : ∀ b wb vb, IsValueOf p cs w m c base b wb vb →
        (valueFunctions p.betaDelta w m c shocks)[positionIn cs b]? = some vb := by
      rintro b wb vb ⟨hb, mb, cb, h1, h2, h3, rfl⟩
      exact (valueFunctions_getElem? _ _ _ _ _ _ _).2 ⟨wb, mb, cb, _, h1, h2, h3, hs b hb, rfl⟩
    obtain ⟨wa, ma, ca, ea, h1, h2, h3, h4, rfl⟩ := (valueFunctions_getElem? _ _ _ _ _ _ _).1 hv
    rw [hs a ha, Option.some.injEq] at h4
    refine ⟨a, wa, ⟨_, ⟨ha, ma, ca, h1, h2, h3, by rw [h4]⟩, fun b wb vb hb => ?_⟩, ?_, rfl, hs, ?_⟩
    · have hb2 := hvalue b wb vb hb
      exact ⟨hmax _ (List.mem_of_getElem? hb2), fun hba =>
        hfirst _ _ ((positionIn_lt_iff cs b a hb.1).2 hba) hb2⟩
    · have hma : meas[positionIn cs a]? = some (p.exp (drawOf baseWage a * drawOf p.measError a)) := by
        rw [boolIndex_at _ _ _ hmeas a ha]
        have hlt : a < (measurementErrors p baseWage).length := by
          rw [← hml]; exact (List.getElem?_eq_some_iff.1 ha).1
        have hlt2 : a < baseWage.length ∧ a < p.measError.length := by
          simpa [measurementErrors] using hlt
        simp [measurementErrors, drawOf, hlt2.1, hlt2.2]
      have hw : recordedWages (nWagesIn p.nWagesRaw cs) w shocks meas =
          (List.zipWith (· * ·) (List.zipWith (· * ·) w shocks) meas).mapIdx fun i x =>
            if i < nWagesIn p.nWagesRaw cs then some x else none := rfl
      rw [hw, List.getElem?_mapIdx] at hwage
      simp only [List.getElem?_zipWith, h1, hs a ha, hma, Option.map_some, Option.some.injEq,
        positionIn_lt_nWagesIn p.nWagesRaw cs a ha] at hwage
      rw [← hwage, wageOf]
    · intro b hb
      have hlt := positionIn_lt cs b hb
      have hvb := List.getElem?_eq_getElem (l := valueFunctions p.betaDelta w m c shocks)
        (i := positionIn cs b) (by omega)
      obtain ⟨wb, mb, cb, eb, g1, g2, g3, g4, g5⟩ := (valueFunctions_getElem? _ _ _ _ _ _ _).1 hvb
      rw [hs b hb, Option.some.injEq] at g4
      exact ⟨wb, _, ⟨hb, mb, cb, g1, g2, g3, by rw [g5, g4]⟩, hvb⟩
  · simp at h

/-- The recorded code of available alternative `a`: correct exactly if all alternatives before `a` are
available or if the code of `a` is not less than the number of available alternatives. -/
theorem remap_validChoices_iff (cs : List Bool) (a : Nat) (ha : cs[a]? = some true) :
    remapChoice (validChoices cs) (positionIn cs a) = a ↔
      (∀ b < a, cs[b]? = some true) ∨ cs.count true ≤ a := by
  rw [remapChoice_iff _ (validChoices_sorted cs) _ _ (validChoices_positionIn cs a ha),
    length_validChoices]
  have : a = positionIn cs a ↔ ∀ b < a, cs[b]? = some true := by
    obtain ⟨hlt, _⟩ := List.getElem?_eq_some_iff.1 ha
    have hl : (cs.take a).length = a := by rw [List.length_take]; omega
    unfold positionIn
    constructor
    · intro h b hb
      have h2 : (cs.take a).count true = (cs.take a).length := by omega
      have h3 := (List.count_eq_length.1 h2) ((cs.take a)[b]'(by omega)) (List.getElem_mem _)
      rw [List.getElem_take] at h3
      rw [List.getElem?_eq_getElem (by omega), ← h3]
    · intro h
      have : (cs.take a).count true = (cs.take a).length := by
        refine List.count_eq_length.2 fun x hx => ?_
        obtain ⟨i, hi, rfl⟩ := List.mem_iff_getElem.1 hx
        rw [List.getElem_take]
        have := h i (by omega)
        rw [List.getElem?_eq_getElem (by omega)] at this
        exact (Option.some.inj this).symm
      omega
  rw [this]

/-- **C24** (partial). If no alternative with a code below the number of available alternatives is
missing in front of an available one, the recorded choice is the first available alternative with the
highest value at the shocks of the individual. Missing: other choice sets, for which the claim is
false, see `C24_choice_is_best_false` and the exact condition `C24_choice_is_best_iff`. -/
theorem C24_choice_is_best_partial (p : RewardParams K) (cs : List Bool)
    (w m c base baseWage : List K) (o : Outcome K)
    (h : simulateIndividual p cs w m c base baseWage = some o)
    (hcs : ∀ a : Nat, cs[a]? = some true → (∀ b < a, cs[b]? = some true) ∨ cs.count true ≤ a) :
    ∃ wa, IsBestOf p cs w m c base o.choice wa := by
  obtain ⟨a, wa, hbest, _, hc, _⟩ := simulateIndividual_spec p cs w m c base baseWage o h
  have ha : cs[a]? = some true := by obtain ⟨_, ⟨h1, _⟩, _⟩ := hbest; exact h1
  rw [hc, (remap_validChoices_iff cs a ha).2 (hcs a ha)]
  exact ⟨wa, hbest⟩

theorem isBestOf_unique (p : RewardParams K) (cs : List Bool) (w m c base : List K) (a b : Nat)
    (wa wb : K) (ha : IsBestOf p cs w m c base a wa) (hb : IsBestOf p cs w m c base b wb) : a = b := by
  obtain ⟨va, hva, hamax⟩ := ha
  obtain ⟨vb, hvb, hbmax⟩ := hb
  rcases lt_trichotomy a b with h | h | h
  · exact absurd ((hbmax a wa va hva).2 h) (not_lt.2 (hamax b wb vb hvb).1)
  · exact h
  · exact absurd ((hamax b wb vb hvb).2 h) (not_lt.2 (hbmax a wa va hva).1)

/-- **C24**, exact condition: the recorded choice is the best alternative `a` if and only if all
alternatives before `a` are available or the code `a` is not less than the number of available
alternatives. -/
theorem C24_choice_is_best_iff (p : RewardParams K) (cs : List Bool)
    (w m c base baseWage : List K) (o : Outcome K)
    (h : simulateIndividual p cs w m c base baseWage = some o) :
    ∃ a wa, IsBestOf p cs w m c base a wa ∧
      (o.choice = a ↔ (∀ b < a, cs[b]? = some true) ∨ cs.count true ≤ a) := by
  obtain ⟨a, wa, hbest, _, hc, _⟩ := simulateIndividual_spec p cs w m c base baseWage o h
  have ha : cs[a]? = some true := by obtain ⟨_, ⟨h1, _⟩, _⟩ := hbest; exact h1
  exact ⟨a, wa, hbest, by rw [hc]; exact remap_validChoices_iff cs a ha⟩

/-- The alternatives which are available in the example: the first one is missing. -/
def exampleRewards : RewardParams ℚ where
  exp := fun x => 1 + x
  lo := -10
  hi := 10
  cholesky := [[1, 0, 0], [0, 1, 0], [0, 0, 1]]
  nWagesRaw := 2
  measError := [0, 0, 0]
  betaDelta := 1 / 2

/-- **C24**, **C25** fail: alternatives `1` and `2` are available, `1` has the higher value, but `2` is
recorded since the loop maps position `0` to code `1`, which is position `1`, and then to code `2`. The
recorded wage is the wage of alternative `1` although alternative `2` has no wage. -/
theorem C24_choice_is_best_false :
    ∃ o, simulateIndividual exampleRewards [false, true, true] [5, 1] [0, 0] [0, 0] [0, 0, 0] [0, 0, 0] =
        some o ∧ o.choice = 2 ∧
      IsBestOf exampleRewards [false, true, true] [5, 1] [0, 0] [0, 0] [0, 0, 0] 1 5 ∧
      ¬ ∃ wa, IsBestOf exampleRewards [false, true, true] [5, 1] [0, 0] [0, 0] [0, 0, 0] 2 wa := by
  have key : ∃ o, simulateIndividual exampleRewards [false, true, true] [5, 1] [0, 0] [0, 0] [0, 0, 0]
      [0, 0, 0] = some o ∧ o.choice = 2 := by
    refine ⟨⟨2, some 5, [1, 0], [5, 0]⟩, by decide +kernel, rfl⟩
  obtain ⟨o, ho, hc⟩ := key
  obtain ⟨a, wa, hbest, hiff⟩ := C24_choice_is_best_iff _ _ _ _ _ _ _ _ ho
  have h1 : IsBestOf exampleRewards [false, true, true] [5, 1] [0, 0] [0, 0] [0, 0, 0] 1 5 := by
    refine ⟨5, ⟨by decide, 0, 0, by decide +kernel, by decide +kernel, by decide +kernel,
      by decide +kernel⟩, ?_⟩
    rintro b wb vb ⟨hb, mb, cb, hw, hm, hcb, rfl⟩
    have hlt : b < 3 := (List.getElem?_eq_some_iff.1 hb).1
    interval_cases b
    · simp at hb
    · have : wb = 5 := by simpa [positionIn] using hw.symm
      have : mb = 0 := by simpa [positionIn] using hm.symm
      have : cb = 0 := by simpa [positionIn] using hcb.symm
      subst_vars
      exact ⟨by decide +kernel, by simp⟩
    · have : wb = 1 := by simpa [positionIn] using hw.symm
      have : mb = 0 := by simpa [positionIn] using hm.symm
      have : cb = 0 := by simpa [positionIn] using hcb.symm
      subst_vars
      exact ⟨by decide +kernel, by simp⟩
  refine ⟨o, ho, hc, h1, ?_⟩
  rintro ⟨w2, h2⟩
  have := isBestOf_unique _ _ _ _ _ _ _ _ _ _ h1 h2
  omega

/-- **C25**, first part: the recorded choice is always in the choice set. -/
theorem C25_recorded_choice_admissible (p : RewardParams K) (cs : List Bool)
    (w m c base baseWage : List K) (o : Outcome K)
    (h : simulateIndividual p cs w m c base baseWage = some o) : cs[o.choice]? = some true := by
  obtain ⟨a, wa, hbest, _, hc, _⟩ := simulateIndividual_spec p cs w m c base baseWage o h
  have ha : cs[a]? = some true := by obtain ⟨_, ⟨h1, _⟩, _⟩ := hbest; exact h1
  rw [hc, ← mem_validChoices, remapChoice_eq]
  refine (remapFrom_mem 0 _ _).2 (Nat.zero_le _) ?_
  rw [length_validChoices, Nat.zero_add]
  exact positionIn_lt cs a ha

/-- **C25** (partial), second part: under the condition of `C24_choice_is_best_partial` the recorded
wage is the wage of the recorded choice, shocks and measurement error included, and is missing exactly
if the recorded choice has no wage. Missing: other choice sets, see `C25_wage_of_choice_false`. -/
theorem C25_wage_of_choice_partial (p : RewardParams K) (cs : List Bool)
    (w m c base baseWage : List K) (o : Outcome K)
    (h : simulateIndividual p cs w m c base baseWage = some o)
    (hcs : ∀ a : Nat, cs[a]? = some true → (∀ b < a, cs[b]? = some true) ∨ cs.count true ≤ a) :
    (∃ wa, w[positionIn cs o.choice]? = some wa ∧
      o.wage = wageOf p cs base baseWage o.choice wa) ∧
    (o.wage = none ↔ p.nWagesRaw ≤ o.choice) := by
  obtain ⟨a, wa, hbest, hw, hc, _⟩ := simulateIndividual_spec p cs w m c base baseWage o h
  obtain ⟨v, ⟨ha, ma, ca, h1, _⟩, _⟩ := hbest
  rw [(remap_validChoices_iff cs a ha).2 (hcs a ha)] at hc
  rw [hc, hw]
  refine ⟨⟨wa, h1, rfl⟩, ?_⟩
  unfold wageOf
  split <;> simp <;> omega

/-- **C25** fails: a wage is recorded for alternative `2`, which has no wage. -/
theorem C25_wage_of_choice_false :
    ∃ o, simulateIndividual exampleRewards [false, true, true] [5, 1] [0, 0] [0, 0] [0, 0, 0] [0, 0, 0] =
        some o ∧ exampleRewards.nWagesRaw ≤ o.choice ∧ o.wage ≠ none :=
  ⟨⟨2, some 5, [1, 0], [5, 0]⟩, by decide +kernel, by decide, by simp⟩

/-- The hypotheses can be met: alternative `1` of three is missing, individuals choose `2`. -/
example : (∃ o, simulateIndividual exampleRewards [true, false, true] [1, 1] [0, 3] [2, 4]
      [1 / 2, 7, -1] [1, 1, 1] = some o ∧ o.choice = 2 ∧ o.wage = none) ∧
    (∀ a : Nat, [true, false, true][a]? = some true →
      (∀ b < a, [true, false, true][b]? = some true) ∨ [true, false, true].count true ≤ a) := by
  refine ⟨⟨⟨2, none, [3 / 2, -1], [5 / 2, 4]⟩, by decide +kernel, rfl, rfl⟩, ?_⟩
  intro a ha
  have hlt : a < 3 := (List.getElem?_eq_some_iff.1 ha).1
  interval_cases a
  · left; simp
  · simp at ha
  · right; decide

/-- Alternative `0` with a wage is chosen and its wage, with measurement error, is recorded. -/
example : (simulateIndividual { exampleRewards with measError := [1 / 2, 1 / 2, 0] } [true, true, false]
      [9, 1] [0, 3] [2, 4] [1 / 2, 7, -1] [1, 1, 1]).map (fun o => (o.choice, o.wage)) =
    some (0, some (9 * (3 / 2) * (3 / 2))) := by decide +kernel

end Respy
