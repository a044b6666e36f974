import Verif.Lemmas.Likelihood2
import Verif.Model.LikelihoodSetup
import Verif.Props.Core
import Mathlib.Tactic.NormNum
import Mathlib.Algebra.BigOperators.Field
import Mathlib.Data.Fin.VecNotation
import Mathlib.Tactic.FinCases

/-!
# Properties of the likelihood: C34, C35, C36, C41, C42, C43
-/

namespace Respy

/-! ### C34 -/

/-- **C34.** For every non-empty vector, `_logsumexp` returns the logarithm of the sum of the
exponentials; every number whose exponential is formed is at most zero and at least one of them is
zero, so that neither the exponential overflows nor the logarithm of zero is taken; and the result is
between the maximum and the maximum plus the logarithm of the number of entries. -/
theorem C34_logsumexp (xs : List ℝ) (h : xs ≠ []) :
    ∃ m r, runningMax none xs = some m ∧ logSumExp xs = some r ∧
      r = Real.log (xs.map Real.exp).sum ∧
      m ∈ xs ∧ (∀ x ∈ xs, x ≤ m) ∧
      (∀ d ∈ expDiffs m xs, d ≤ 0) ∧ 0 ∈ expDiffs m xs ∧ 1 ≤ sumExp (expDiffs m xs) ∧
      m ≤ r ∧ r ≤ m + Real.log xs.length := by
  obtain ⟨m, hm, hmem, hall⟩ := runningMax_none xs h
  have hd : ∀ d ∈ expDiffs m xs, d ≤ 0 := by
    intro d hd
    obtain ⟨x, hx, rfl⟩ := List.mem_map.1 hd
    linarith [hall x hx]
  have h0 : (0 : ℝ) ∈ expDiffs m xs := List.mem_map.2 ⟨m, hmem, by ring⟩
  have h1 : 1 ≤ sumExp (expDiffs m xs) := by
    rw [sumExp_eq]
    have hle : Real.exp 0 ≤ ((expDiffs m xs).map Real.exp).sum := by
      apply List.single_le_sum
      · intro y hy
        obtain ⟨x, _, rfl⟩ := List.mem_map.1 hy
        exact (Real.exp_pos x).le
      · exact List.mem_map.2 ⟨0, h0, rfl⟩
    simpa using hle
  have h2 : sumExp (expDiffs m xs) ≤ xs.length := by
    rw [sumExp_eq]
    have : ((expDiffs m xs).map Real.exp).sum ≤ ((expDiffs m xs).map Real.exp).length • (1 : ℝ) := by
      apply List.sum_le_card_nsmul
      intro y hy
      obtain ⟨d, hd', rfl⟩ := List.mem_map.1 hy
      exact Real.exp_le_one_iff.2 (hd d hd')
    simpa [expDiffs] using this
  have hr : logSumExp xs = some (m + Real.log (sumExp (expDiffs m xs))) := by
    rw [logSumExp, hm]; rfl
  refine ⟨m, _, hm, hr, ?_, hmem, hall, hd, h0, h1, ?_, ?_⟩
  · rw [logSumExp_eq xs h] at hr
    exact (Option.some.inj hr).symm
  · linarith [Real.log_nonneg h1]
  · linarith [Real.log_le_log (by linarith) h2]

/-- The hypothesis of C34 is met, also by numbers whose exponentials overflow a float. -/
example : ([1000, 999, -3] : List ℝ) ≠ [] := by simp

/-- **C34.** An empty vector is rejected. -/
theorem C34_empty_rejected (xs : List ℝ) : logSumExp xs = none ↔ xs = [] := by
  constructor
  · intro hn
    by_contra h
    rw [logSumExp_eq xs h] at hn
    exact absurd hn (by simp)
  · rintro rfl; rfl

/-! ### C35 -/

/-- Specification: the logit probability of alternative `k` for the values `v` and the temperature
`tau`. -/
noncomputable def logitProb {n : Nat} (tau : ℝ) (v : Fin n → ℝ) (k : Fin n) : ℝ :=
  Real.exp (v k / tau) / ∑ j, Real.exp (v j / tau)

/-- Specification: the value of alternative `j` given its shock. -/
def valueOf {n : Nat} (delta : ℝ) (w m c e : Fin n → ℝ) (j : Fin n) : ℝ :=
  w j * e j + m j + delta * c j

/-- The model on arrays: rewards `w`, `m`, continuation values `c`, draws `e` (draw, alternative). -/
noncomputable def simulatedLogProbOf (delta tau : ℝ) {n D : Nat} (w m c : Fin n → ℝ)
    (e : Fin D → Fin n → ℝ) (k : Nat) : Option ℝ :=
  simulatedLogProb delta tau (List.ofFn w) (List.ofFn m) (List.ofFn c)
    (List.ofFn fun d => List.ofFn (e d)) k

theorem logitProb_pos {n : Nat} (tau : ℝ) (v : Fin n → ℝ) (k : Fin n) : 0 < logitProb tau v k :=
  div_pos (Real.exp_pos _) (Finset.sum_pos (fun _ _ => Real.exp_pos _) ⟨k, Finset.mem_univ _⟩)

theorem sum_logitProb {n : Nat} (hn : 0 < n) (tau : ℝ) (v : Fin n → ℝ) :
    ∑ k, logitProb tau v k = 1 := by
  unfold logitProb
  rw [← Finset.sum_div]
  exact div_self (Finset.sum_pos (fun _ _ => Real.exp_pos _) ⟨⟨0, hn⟩, Finset.mem_univ _⟩).ne'

/-- **C35.** The exponential of the result is the average over the draws of the logit probabilities of
the chosen alternative; it is positive and at most one, i.e. the log probability is at most zero; and
over all alternatives these probabilities sum to one. For all numbers of alternatives and draws, all
rewards, continuation values, draws, discount factors and positive temperatures. -/
theorem C35_choice_probabilities (delta tau : ℝ) (_htau : 0 < tau) {n D : Nat} (hn : 0 < n)
    (hD : 0 < D) (w m c : Fin n → ℝ) (e : Fin D → Fin n → ℝ) :
    ∃ logProb : Fin n → ℝ,
      (∀ k : Fin n, simulatedLogProbOf delta tau w m c e k = some (logProb k)) ∧
      (∀ k, Real.exp (logProb k) = (∑ d, logitProb tau (valueOf delta w m c (e d)) k) / D) ∧
      (∀ k, logProb k ≤ 0) ∧
      ∑ k, Real.exp (logProb k) = 1 := by
  have hDr : (0 : ℝ) < D := by exact_mod_cast hD
  have hpos : ∀ k, 0 < (∑ d, logitProb tau (valueOf delta w m c (e d)) k) / D := fun k =>
    div_pos (Finset.sum_pos (fun d _ => logitProb_pos _ _ _) ⟨⟨0, hD⟩, Finset.mem_univ _⟩) hDr
  have hsum : ∑ k, (∑ d, logitProb tau (valueOf delta w m c (e d)) k) / D = 1 := by
    rw [← Finset.sum_div, Finset.sum_comm]
    simp only [sum_logitProb hn]
    simp [hDr.ne']
  refine ⟨fun k => Real.log ((∑ d, logitProb tau (valueOf delta w m c (e d)) k) / D), ?_, ?_, ?_, ?_⟩
  · intro k
    exact simulatedLogProb_ofFn delta tau hD w m c e k
  · intro k
    exact Real.exp_log (hpos k)
  · intro k
    apply Real.log_nonpos (hpos k).le
    rw [← hsum]
    exact Finset.single_le_sum (f := fun k => (∑ d, logitProb tau (valueOf delta w m c (e d)) k) / D)
      (fun j _ => (hpos j).le) (Finset.mem_univ k)
  · simp only [Real.exp_log (hpos _)]
    exact hsum

/-- **C35.** A code beyond the number of alternatives has no probability: it is an error. -/
theorem C35_no_probability_outside (delta tau : ℝ) {n D : Nat} (hD : 0 < D) (w m c : Fin n → ℝ)
    (e : Fin D → Fin n → ℝ) (k : Nat) (hk : n ≤ k) : simulatedLogProbOf delta tau w m c e k = none := by
  obtain ⟨D, rfl⟩ : ∃ D', D = D' + 1 := ⟨D - 1, by omega⟩
  unfold simulatedLogProbOf simulatedLogProb
  rw [List.ofFn_succ, List.mapM_cons]
  have : drawLogProb delta tau (List.ofFn w) (List.ofFn m) (List.ofFn c) (List.ofFn (e 0)) k = none := by
    unfold drawLogProb
    rw [valueFunctions_ofFn, List.map_ofFn]
    simp [hk]
  rw [this]
  rfl

/-- A case meeting the hypotheses of C35: two alternatives, one draw. -/
example : (0 : ℝ) < 500 ∧ 0 < 2 ∧ 0 < 1 := by norm_num

/-! ### C36 -/

/-- **C36.** The code of an available alternative is mapped to the position of the alternative in the
choice set, so that in every array with one column per available alternative it selects the entry of
this alternative. `all` is a list over all alternatives, `available` its restriction to the choice
set. -/
theorem C36_matched {α : Type _} (cs : List Bool) (a : Nat) (h : cs[a]? = some true)
    (all available : List α) (hall : boolIndex cs all = some available) :
    ∃ i, mapChoiceCode cs a = some i ∧ i < cs.count true ∧ available[i]? = all[a]? ∧
      all[a]?.isSome := by
  refine ⟨positionIn cs a, mapChoiceCode_valid cs a h, ?_, boolIndex_at cs all available hall a h, ?_⟩
  · have := validChoices_positionIn cs a h
    rw [← length_validChoices]
    exact (List.getElem?_eq_some_iff.1 this).1
  · have h1 := (boolIndex_length cs all available hall).1
    have h2 := (List.getElem?_eq_some_iff.1 h).1
    simp [h1 ▸ h2]

/-- The hypotheses of `C36_matched` are met by the choice set of the docstring. -/
example : boolIndex [true, false, true] ["a", "b", "c"] = some ["a", "c"] ∧
    mapChoiceCode [true, false, true] 2 = some 1 := by decide

/-- **C36, what happens to codes outside the choice set.** Such a code is rejected exactly if there is
no later available alternative. -/
theorem C36_rejected_iff (cs : List Bool) (a : Nat) :
    mapChoiceCode cs a = none ↔ ∀ b, cs[b]? = some true → b < a :=
  mapChoiceCode_eq_none_iff cs a

/-- **C36, what happens to codes outside the choice set.** Otherwise the observation is evaluated at the
next available alternative. -/
theorem C36_next_alternative (cs : List Bool) (a i : Nat) (h : mapChoiceCode cs a = some i) :
    ∃ b, cs[b]? = some true ∧ i = positionIn cs b ∧ a ≤ b ∧
      ∀ b', cs[b']? = some true → a ≤ b' → b ≤ b' :=
  mapChoiceCode_some cs a i h

/-- **C36 fails for choices outside the choice set**: they are not always rejected. With the choice
set (True, False, True), the unavailable choice 1 is taken for choice 2. -/
theorem C36_outside_rejected_false :
    ¬ ∀ (cs : List Bool) (a : Nat), cs[a]? = some false → mapChoiceCode cs a = none := by
  intro h
  exact absurd (h [true, false, true] 1 rfl) (by decide)

/-- **C36, the part of the rejection which holds**: a code is rejected if no available alternative has
a larger code. Missing: codes below an available alternative. -/
theorem C36_outside_rejected_partial (cs : List Bool) (a : Nat) (h : cs[a]? ≠ some true)
    (hlast : ∀ b, cs[b]? = some true → b ≤ a) : mapChoiceCode cs a = none := by
  rw [mapChoiceCode_eq_none_iff]
  intro b hb
  rcases Nat.lt_or_eq_of_le (hlast b hb) with h' | rfl
  · exact h'
  · exact absurd hb h

example : ([true, false] : List Bool)[1]? ≠ some true ∧
    ∀ b, ([true, false] : List Bool)[b]? = some true → b ≤ 1 := by
  refine ⟨by decide, fun b hb => ?_⟩
  have := (List.getElem?_eq_some_iff.1 hb).1
  simp at this; omega

/-! ### C41 -/

/-- Specification: the probability of type `t` in a multinomial logit model. -/
noncomputable def typeProb {T : Nat} (x : Fin T → ℝ) (t : Fin T) : ℝ :=
  Real.exp (x t) / ∑ s, Real.exp (x s)

theorem typeProb_pos {T : Nat} (x : Fin T → ℝ) (t : Fin T) : 0 < typeProb x t :=
  div_pos (Real.exp_pos _) (Finset.sum_pos (fun _ _ => Real.exp_pos _) ⟨t, Finset.mem_univ _⟩)

/-- **C41.** Type probabilities are positive and sum to one, and their logarithms are what the code
computes (unless they are below the smallest float allowed by the code). -/
theorem C41_type_probabilities {T : Nat} (hT : 0 < T) (lo hi : ℝ) (hhi : 0 ≤ hi) (x : Fin T → ℝ)
    (hlo : ∀ t, lo ≤ Real.log (typeProb x t)) :
    logTypeProbabilities lo hi (List.ofFn x) = some (List.ofFn fun t => Real.log (typeProb x t)) ∧
      (∀ t, 0 < typeProb x t) ∧ ∑ t, typeProb x t = 1 := by
  have hsum : ∑ t, typeProb x t = 1 := by
    unfold typeProb
    rw [← Finset.sum_div]
    exact div_self (Finset.sum_pos (fun _ _ => Real.exp_pos _) ⟨⟨0, hT⟩, Finset.mem_univ _⟩).ne'
  refine ⟨?_, typeProb_pos x, hsum⟩
  rw [logTypeProbabilities_ofFn hT]
  congr 2
  funext t
  apply clip_eq_self _ _ _ (hlo t)
  apply le_trans (Real.log_nonpos (typeProb_pos x t).le _) hhi
  rw [← hsum]
  exact Finset.single_le_sum (fun s _ => (typeProb_pos x s).le) (Finset.mem_univ t)

/-- Specification: the likelihood of an individual. `prob i p t` and `density i p t` are the choice
probability and the wage density of individual `i` in period `p` if the individual is of type `t`,
and `obs` are the observed pairs of individual and period. -/
noncomputable def mixtureLikelihood {T : Nat} (obs : List (Nat × Nat)) (x : Fin T → ℝ)
    (prob density : Nat → Nat → Nat → ℝ) (i : Nat) : ℝ :=
  ∑ t : Fin T, typeProb x t * ((obs.filter fun o => o.1 = i).map fun o =>
    prob o.1 o.2 t * density o.1 o.2 t).prod

/-- **C41.** The contribution of an individual is the logarithm of the mixture over types of the
product over periods of choice probabilities and wage densities (bounded by the floats allowed by the
code), for all data sets, whatever the order of the rows. -/
theorem C41_mixture {T : Nat} (hT : 0 < T) (lo hi : ℝ) (hhi : 0 ≤ hi) (x : Fin T → ℝ)
    (hlo : ∀ t, lo ≤ Real.log (typeProb x t)) (obs : List (Nat × Nat)) (hobs : obs.Nodup)
    (prob density : Nat → Nat → Nat → ℝ) (hprob : ∀ i p t, 0 < prob i p t)
    (hdensity : ∀ i p t, 0 < density i p t) (rows : List LoglikeRow)
    (hrows : rows.Perm (completeRows T obs (fun i p t => Real.log (prob i p t))
      (fun i p t => Real.log (density i p t)))) (i : Nat)
    (hlo' : lo ≤ Real.log (mixtureLikelihood obs x prob density i))
    (hhi' : Real.log (mixtureLikelihood obs x prob density i) ≤ hi) :
    mixtureContribution lo hi rows (List.ofFn x) i =
      some (Real.log (mixtureLikelihood obs x prob density i)) := by
  rw [mixtureContribution_ofFn hT lo hi x hobs hrows]
  have hle : ∀ t, Real.log (typeProb x t) ≤ hi := by
    intro t
    apply le_trans (Real.log_nonpos (typeProb_pos x t).le _) hhi
    rw [← (C41_type_probabilities hT lo hi hhi x hlo).2.2]
    exact Finset.single_le_sum (fun s _ => (typeProb_pos x s).le) (Finset.mem_univ t)
  have heq : (∑ t : Fin T, Real.exp (clip lo hi (Real.log (Real.exp (x t) / ∑ s, Real.exp (x s)))) *
        ((obs.filter fun o => o.1 = i).map fun o =>
          Real.exp (Real.log (prob o.1 o.2 t)) * Real.exp (Real.log (density o.1 o.2 t))).prod) =
      mixtureLikelihood obs x prob density i := by
    apply Finset.sum_congr rfl
    intro t _
    have h1 : clip lo hi (Real.log (Real.exp (x t) / ∑ s, Real.exp (x s))) =
        Real.log (typeProb x t) := clip_eq_self _ _ _ (hlo t) (hle t)
    rw [h1, Real.exp_log (typeProb_pos x t)]
    simp only [Real.exp_log (hprob _ _ _), Real.exp_log (hdensity _ _ _)]
  rw [heq, clip_eq_self _ _ _ hlo' hhi']

/-- A case meeting the hypotheses of C41: two types, individual 0 observed twice, individual 3 once;
the rows are given in reversed order. -/
example : ∃ (lo hi : ℝ) (x : Fin 2 → ℝ) (obs : List (Nat × Nat)) (prob density : Nat → Nat → Nat → ℝ)
    (rows : List LoglikeRow), 0 ≤ hi ∧ (∀ t, lo ≤ Real.log (typeProb x t)) ∧ obs.Nodup ∧
    (∀ i p t, 0 < prob i p t) ∧ (∀ i p t, 0 < density i p t) ∧
    rows.Perm (completeRows 2 obs (fun i p t => Real.log (prob i p t))
      (fun i p t => Real.log (density i p t))) ∧
    lo ≤ Real.log (mixtureLikelihood obs x prob density 0) ∧
    Real.log (mixtureLikelihood obs x prob density 0) ≤ hi := by
  let x : Fin 2 → ℝ := ![0, 1]
  let obs : List (Nat × Nat) := [(0, 0), (0, 1), (3, 0)]
  let prob : Nat → Nat → Nat → ℝ := fun i p t => 1 / (i + p + t + 1)
  let density : Nat → Nat → Nat → ℝ := fun _ p _ => p + 1
  let m := Real.log (mixtureLikelihood obs x prob density 0)
  refine ⟨min m (min (Real.log (typeProb x 0)) (Real.log (typeProb x 1))), max m 0, x, obs, prob,
    density, _, le_max_right _ _, ?_, by decide, ?_, ?_, List.reverse_perm _, min_le_left _ _,
    le_max_left _ _⟩
  · intro t
    fin_cases t
    · exact le_trans (min_le_right _ _) (min_le_left _ _)
    · exact le_trans (min_le_right _ _) (min_le_right _ _)
  · intro i p t; positivity
  · intro i p t; positivity

/-! ### C42 -/

/-- **C42, number of contributions.** With at least two types there is one contribution per individual
*and type*. -/
theorem C42_number_of_contributions (lo hi : ℝ) (nTypes : Nat) (h : 2 ≤ nTypes)
    (rows : List LoglikeRow) (identifiers : List Nat) (xBetas : Nat → List ℝ) (out : List ℝ)
    (ho : contributions lo hi nTypes rows identifiers xBetas = some out) :
    out.length = nTypes * identifiers.length := by
  unfold contributions at ho
  rw [if_pos h] at ho
  rw [mapM_eq_some_length _ _ _ ho, length_typeCovariateRows]

/-- **C42 fails with two types.** -/
theorem C42_one_per_individual_false :
    ¬ ∀ (lo hi : ℝ) (nTypes : Nat) (rows : List LoglikeRow) (identifiers : List Nat)
      (xBetas : Nat → List ℝ) (out : List ℝ), (∀ i, (xBetas i).length = nTypes) →
      contributions lo hi nTypes rows identifiers xBetas = some out →
      out.length = identifiers.length := by
  intro h
  have hsome : ∃ out, contributions (-1) 1 2 (completeRows 2 [(0, 0)] (fun _ _ _ => 0) (fun _ _ _ => 0))
      [0] (fun _ => [0, 0]) = some out := by
    have hone : mixtureContribution (-1) 1 (completeRows 2 [(0, 0)] (fun _ _ _ => 0) (fun _ _ _ => 0))
        (List.ofFn ![(0 : ℝ), 0]) 0 = some _ :=
      mixtureContribution_ofFn (by norm_num) (-1) 1 ![(0 : ℝ), 0] (by decide) (List.Perm.refl _) 0
    have hl : List.ofFn ![(0 : ℝ), 0] = [0, 0] := by simp [List.ofFn_succ]
    rw [hl] at hone
    unfold contributions
    rw [if_pos (le_refl 2)]
    simp [typeCovariateRows, List.replicate, hone]
  obtain ⟨out, hout⟩ := hsome
  have h1 := h _ _ _ _ _ _ _ (by simp) hout
  have h2 := C42_number_of_contributions _ _ _ (le_refl 2) _ _ _ _ hout
  rw [h1] at h2
  simp at h2

/-- **C42, one type.** There is one contribution per individual. Missing: more types. -/
theorem C42_one_per_individual_partial (lo hi : ℝ) (nTypes : Nat) (h : nTypes < 2)
    (rows : List LoglikeRow) (identifiers : List Nat) (xBetas : Nat → List ℝ) :
    ∃ out, contributions lo hi nTypes rows identifiers xBetas = some out ∧
      out.length = identifiers.length ∧
      ∀ (k i : Nat), identifiers[k]? = some i → out[k]? = some (clip lo hi (perIndividual rows 0 i)) := by
  refine ⟨_, by unfold contributions; rw [if_neg (by omega)], by simp, ?_⟩
  intro k i hk
  simp [hk]

/-- **C42, the scalar value.** With any number of types the scalar value is the mean over the
individuals of their contributions, the repetitions notwithstanding. -/
theorem C42_value_is_mean (lo hi : ℝ) (nTypes : Nat) (h : 2 ≤ nTypes)
    (rows : List LoglikeRow) (identifiers : List Nat) (xBetas : Nat → List ℝ) (f : Nat → ℝ)
    (hf : ∀ i ∈ identifiers, mixtureContribution lo hi rows (xBetas i) i = some (f i)) :
    ∃ out, contributions lo hi nTypes rows identifiers xBetas = some out ∧
      meanOf out = (identifiers.map f).sum / identifiers.length := by
  have hmem : ∀ i ∈ typeCovariateRows nTypes identifiers, i ∈ identifiers := by
    intro i hi
    obtain ⟨j, hj, hi⟩ := List.mem_flatMap.1 hi
    rw [(List.mem_replicate.1 hi).2]
    exact hj
  refine ⟨(typeCovariateRows nTypes identifiers).map f, ?_, ?_⟩
  · unfold contributions
    rw [if_pos h]
    have : ∀ l : List Nat, (∀ i ∈ l, mixtureContribution lo hi rows (xBetas i) i = some (f i)) →
        l.mapM (fun i => mixtureContribution lo hi rows (xBetas i) i) = some (l.map f) := by
      intro l hl
      induction l with
      | nil => rfl
      | cons x l ih =>
        rw [List.mapM_cons, hl x (by simp), ih fun i hi => hl i (by simp [hi])]
        rfl
    exact this _ fun i hi => hf i (hmem i hi)
  · unfold meanOf
    rw [sum_typeCovariateRows, List.length_map, length_typeCovariateRows]
    push_cast
    have hn : (nTypes : ℝ) ≠ 0 := by
      have : nTypes ≠ 0 := by omega
      exact_mod_cast this
    exact mul_div_mul_left _ _ hn

/-- The hypotheses of `C42_value_is_mean` are met by the data of `C42_one_per_individual_false`. -/
example : ∃ f : Nat → ℝ, ∀ i ∈ [0], mixtureContribution (-1) 1
    (completeRows 2 [(0, 0)] (fun _ _ _ => 0) (fun _ _ _ => 0)) (List.ofFn ![(0 : ℝ), 0]) i =
      some (f i) := by
  obtain ⟨v, hv⟩ : ∃ v, mixtureContribution (-1) 1
      (completeRows 2 [(0, 0)] (fun _ _ _ => 0) (fun _ _ _ => 0)) (List.ofFn ![(0 : ℝ), 0]) 0 = some v :=
    ⟨_, mixtureContribution_ofFn (by norm_num) (-1) 1 ![(0 : ℝ), 0] (by decide) (List.Perm.refl _) 0⟩
  refine ⟨fun _ => v, fun i hi => ?_⟩
  have : i = 0 := by simpa using hi
  subst this
  exact hv

/-! ### C43 -/

/-- Specification: the first observations of the data are states of the core state space. -/
def FirstObservationsInCore (core : Option (List CoreState)) (data : List FirstObservation) : Prop :=
  ∃ states, core = some states ∧ ∀ o ∈ data, ∃ s ∈ states, s.period = 0 ∧ s.exp = o

/-- **C43 fails.** The levels found in the data reach the check of the data but not the state space:
with starting level 0 in the parameters and 1 in the data, the parameters used for the check have
level 1, and the first observation is not a state of the model, although it is a state of the model
with the levels of the data. -/
theorem C43_data_levels_used_false :
    ∃ (spec : CoreSpec) (data : List FirstObservation), spec.WF ∧
      (getLogLikeFunc spec data).checked.starts = [[1]] ∧
      ¬ FirstObservationsInCore (getLogLikeFunc spec data).core data ∧
      FirstObservationsInCore (createCore (getLogLikeFunc spec data).checked) data := by
  refine ⟨⟨1, 2, [[0]], [2], 0, []⟩, [[1]], ⟨by simp, rfl, by simp, by simp, by simp, by simp⟩, by decide, ?_, ?_⟩
  · rintro ⟨states, hs, h⟩
    have : (getLogLikeFunc ⟨1, 2, [[0]], [2], 0, []⟩ [[1]]).core = some [⟨0, [0], []⟩] := by
      decide
    rw [this] at hs
    obtain ⟨s, hmem, _, he⟩ := h [1] (by simp)
    cases hs
    simp only [List.mem_singleton] at hmem
    subst hmem
    exact absurd he (by decide)
  · refine ⟨[⟨0, [1], []⟩], by decide, ?_⟩
    intro o ho
    simp only [List.mem_singleton] at ho
    subst ho
    exact ⟨⟨0, [1], []⟩, by simp, rfl, rfl⟩

/-- **C43, the part which holds**: if the levels in the data are those of the parameters, the state
space is the one built from the levels in the data. Missing: data with other levels. -/
theorem C43_data_levels_used_partial (spec : CoreSpec) (data : List FirstObservation)
    (h : ∀ (j : Nat) (l : List Nat), spec.starts[j]? = some l → levelsInData data j = l) :
    (getLogLikeFunc spec data).core =
      createCore { spec with starts := (List.range spec.starts.length).map (levelsInData data) } := by
  have : (List.range spec.starts.length).map (levelsInData data) = spec.starts := by
    apply List.ext_getElem
    · simp
    · intro i h1 h2
      rw [List.getElem_map, List.getElem_range]
      exact h i _ (List.getElem?_eq_getElem h2)
  rw [this]
  rfl

/-- The hypothesis of `C43_data_levels_used_partial` is met by data with the levels of the example
model, given in any order and repeatedly. -/
example : ∀ (j : Nat) (l : List Nat), exampleSpec.starts[j]? = some l →
    levelsInData [[2, 0], [0, 0], [2, 0]] j = l := by
  intro j l h
  match j with
  | 0 => cases h; decide
  | 1 => cases h; decide
  | j + 2 => simp [exampleSpec] at h

/-- The levels with which the data are compared and which replace those of the parameters are the values
in the data, in increasing order and without repetition. -/
theorem C43_levels_of_the_data (data : List FirstObservation) (j : Nat) :
    (levelsInData data j).Pairwise (· < ·) ∧
      ∀ x, x ∈ levelsInData data j ↔ ∃ o ∈ data, o[j]? = some x := by
  have hp := List.perm_insertionSort (· ≤ ·) (data.filterMap fun o => o[j]?).eraseDups
  constructor
  · have hs := List.pairwise_insertionSort (· ≤ ·) (data.filterMap fun o => o[j]?).eraseDups
    have hnd : (levelsInData data j).Nodup := hp.nodup_iff.2 (nodup_eraseDups _)
    exact hs.imp₂ (fun a b h1 h2 => lt_of_le_of_ne h1 h2) hnd
  · intro x
    unfold levelsInData
    rw [hp.mem_iff, List.mem_eraseDups, List.mem_filterMap]

/-- Hence the parameters the data are checked with have exactly the levels of the data. -/
theorem C43_checked_levels (spec : CoreSpec) (data : List FirstObservation) (j : Nat) (l : List Nat)
    (h : (getLogLikeFunc spec data).checked.starts[j]? = some l) :
    l.Pairwise (· < ·) ∧ ∀ x, x ∈ l ↔ ∃ o ∈ data, o[j]? = some x := by
  have : l = levelsInData data j := by
    simp only [getLogLikeFunc, updateInitialExperience, List.getElem?_mapIdx,
      Option.map_eq_some_iff] at h
    obtain ⟨l', _, rfl⟩ := h
    split
    · rename_i h; exact h.symm
    · rfl
  subst this
  exact C43_levels_of_the_data data j

example : (getLogLikeFunc exampleSpec [[5, 0], [1, 0], [5, 2]]).checked.starts = [[1, 5], [0, 2]] := by
  decide

end Respy
