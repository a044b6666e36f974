import Verif.Lemmas.HistoryLikelihood
import Verif.Props.Histories

/-!
# The likelihood of histories

C113: the likelihoods of all histories are a probability distribution, and it is unlikely that other parameters have a
higher likelihood than those which generated the data.
-/

open MeasureTheory ProbabilityTheory

namespace Respy

noncomputable section

variable {b : BuildSpec} {core : List CoreState}

/-- Whether a history is possible does not depend on parameters, and it leads through states of the core. -/
theorem possible_mem (wf : b.WF core) {s : CoreState} (hs : s ∈ core) (hs0 : s.period = 0) {d : Option Nat}
    (hd : d ∈ b.denseIndices) {nWages n T : Nat} (hT : T ≤ b.core.nPeriods) {h : Fin T → Fin n × ℝ}
    (hp : PossibleHistory nWages b d s h) (t : Fin T) : coreAlong s (choicesOf h) t ∈ core := by
  refine coreAlong_mem wf hs hs0 hd (choicesOf h) hT (fun t ht => ?_) t t.2
  have h1 := (hp ⟨t, ht⟩).1
  have h2 : choicesOf h t = (h ⟨t, ht⟩).1 := by
    unfold choicesOf
    rw [dif_pos ht]
  show (b.choiceSetAt d _)[choicesOf h t]? = some true
  rw [h2]
  exact h1

/-- The likelihood of histories as a density: all that is shown about it. -/
theorem likelihood_density (wf : b.WF core) (p : RewardParams ℝ) (hwf : p.WF b core)
    (hunc : b.UncertainWages core p) (tau : ℝ) (w m : Option Nat → CoreState → Nat → ℝ)
    (V : Option Nat → CoreState → ℝ) {s : CoreState} (hs : s ∈ core) (hs0 : s.period = 0) {d : Option Nat}
    (hd : d ∈ b.denseIndices) (T : Nat) (hT : T ≤ b.core.nPeriods) :
    ∃ f : (Fin T → Fin p.measError.length × ℝ) → ℝ,
      (∀ h l, IsHistoryLikelihood p tau b w m V d s h l ↔ l = f h) ∧ Measurable f ∧
      (∀ h, 0 ≤ f h) ∧ (∀ h, 0 < f h ↔ PossibleHistory p.nWagesRaw b d s h) ∧
      ∫⁻ h, ENNReal.ofReal (f h) ∂historyMeasure p.measError.length T = 1 ∧
      ∀ (a : Nat → Nat) (O : Nat → Option (Set ℝ)) (l : Nat → ℝ),
        (∀ t < T, b.Admissible d (coreAlong s a t) (a t) ∧
          (∀ B, O t = some B → a t < p.nWagesRaw ∧ MeasurableSet B ∧ B ⊆ Set.Ioi 0) ∧
          IsObservedProbability p tau (b.choiceSetAt d (coreAlong s a t)) (w d (coreAlong s a t))
            (m d (coreAlong s a t)) (expectedNext b V d (coreAlong s a t)) (a t) (O t) (l t)) →
        ∫ h in {h | ∀ t : Fin T, ((h t).1 : Nat) = a t ∧ ∀ B, O t = some B → (h t).2 ∈ B}, f h
          ∂historyMeasure p.measError.length T = ∏ t ∈ Finset.range T, l t := by
  classical
  set n := p.measError.length with hn
  have hex : ∀ s', ∃ f : Fin n × ℝ → ℝ, Measurable f ∧ (∀ y, 0 ≤ f y) ∧ (s' ∈ core →
      (∀ y, 0 < f y ↔ PossibleObservation p.nWagesRaw (b.choiceSetAt d s') y.1 y.2) ∧
      (∀ y, PossibleObservation p.nWagesRaw (b.choiceSetAt d s') y.1 y.2 → ∃ prob,
        (∀ q, IsExpectedChoiceProbability p.hi tau p.betaDelta p.nWagesRaw p.cholesky (b.choiceSetAt d s')
          (fun a => p.measError.getD a 0) (w d s') (m d s') (expectedNext b V d s') y.1
          (if (y.1 : Nat) < p.nWagesRaw then some y.2 else none) q ↔ q = prob) ∧
        f y = prob * densityOf p.cholesky (b.choiceSetAt d s') (fun a => p.measError.getD a 0) (w d s') y.1
          (if (y.1 : Nat) < p.nWagesRaw then some y.2 else none)) ∧
      ∫⁻ y, ENNReal.ofReal (f y) ∂observedMeasure n = 1) := by
    intro s'
    by_cases hs' : s' ∈ core
    · obtain ⟨a, ha⟩ := hwf.nonempty d hd s' hs'
      obtain ⟨f, h1, h2, h3, h4, h5⟩ := observation_density p.hi tau p.betaDelta p.nWagesRaw p.cholesky
        (b.choiceSetAt d s') (fun a => p.measError.getD a 0) (w d s') (m d s') (expectedNext b V d s')
        (List.mem_of_getElem? ha) (fun a h ha => hunc d hd s' hs' a h ha) (hwf.choices d hd s' hs')
      exact ⟨f, h1, h2, fun _ => ⟨h3, h4, h5⟩⟩
    · exact ⟨fun _ => 0, measurable_const, fun _ => le_rfl, fun h => absurd h hs'⟩
  choose obs hm h0 hobs using hex
  have hstate := fun {h : Fin T → Fin n × ℝ} => possible_mem (nWages := p.nWagesRaw) (h := h) wf hs hs0 hd hT
  have hpos : ∀ h, 0 < historyDensity obs T s h ↔ PossibleHistory p.nWagesRaw b d s h := by
    intro h
    constructor
    · intro hh t
      have hall : ∀ t : Fin T, 0 < obs (coreAlong s (choicesOf h) t) (h t) := by
        intro t
        refine lt_of_le_of_ne (h0 _ _) fun he => hh.ne' ?_
        rw [historyDensity_prod]
        exact Finset.prod_eq_zero (Finset.mem_univ t) he.symm
      have hmem : ∀ k, k < T → coreAlong s (choicesOf h) k ∈ core := by
        intro k
        induction k with
        | zero => exact fun _ => hs
        | succ k ih =>
          intro hk
          have hc := ih (by omega)
          refine wf.closed _ hc (by rw [coreAlong_period]; omega) d hd (choicesOf h k) ?_
          have h2 : choicesOf h k = (h ⟨k, by omega⟩).1 := by
            unfold choicesOf
            rw [dif_pos]
          rw [h2]
          exact (((hobs _ hc).1 _).1 (hall ⟨k, by omega⟩)).1
      exact ((hobs _ (hmem t t.2)).1 _).1 (hall t)
    · intro hp
      rw [historyDensity_prod]
      exact Finset.prod_pos fun t _ => ((hobs _ (hstate hp t)).1 _).2 (hp t)
  refine ⟨historyDensity obs T s, fun h l => ?_, historyDensity_measurable obs hm T s,
    historyDensity_nonneg obs h0 T s, hpos, ?_, fun a O l hl => ?_⟩
  · by_cases hp : PossibleHistory p.nWagesRaw b d s h
    · have hq := fun t : Fin T => (hobs _ (hstate hp t)).2.1 _ (hp t)
      choose q hq1 hq2 using hq
      have hval : historyDensity obs T s h = ∏ t, q t * densityOf p.cholesky
          (b.choiceSetAt d (coreAlong s (choicesOf h) t)) (fun a => p.measError.getD a 0)
          (w d (coreAlong s (choicesOf h) t)) (h t).1 (if ((h t).1 : Nat) < p.nWagesRaw then some (h t).2 else none) := by
        rw [historyDensity_prod]
        exact Finset.prod_congr rfl fun t _ => hq2 t
      constructor
      · rintro (⟨_, prob, h1, rfl⟩ | ⟨h1, _⟩)
        · rw [hval]
          refine Finset.prod_congr rfl fun t _ => ?_
          rw [(hq1 t _).1 (h1 t)]
        · exact absurd hp h1
      · rintro rfl
        exact Or.inl ⟨hp, q, fun t => (hq1 t _).2 rfl, hval⟩
    · have hz : historyDensity obs T s h = 0 :=
        le_antisymm (not_lt.1 fun h1 => hp ((hpos h).1 h1)) (historyDensity_nonneg obs h0 T s h)
      rw [hz]
      constructor
      · rintro (⟨h1, _⟩ | ⟨_, h1⟩)
        · exact absurd h1 hp
        · exact h1
      · exact fun h1 => Or.inr ⟨hp, h1⟩
  · refine historyDensity_total obs hm h0 (fun T s => T ≠ 0 → s ∈ core ∧ s.period + T ≤ b.core.nPeriods)
      (fun T s hg => (hobs s (hg (Nat.succ_ne_zero T)).1).2.2) (fun T s hg y hy hT0 => ?_) T s fun _ => ⟨hs, by omega⟩
    obtain ⟨h1, h2⟩ := hg (Nat.succ_ne_zero T)
    refine ⟨wf.closed s h1 (by omega) d hd _ (((hobs s h1).1 y).1 hy).1, ?_⟩
    show s.period + 1 + T ≤ _
    omega
  · have hmem := coreAlong_mem wf hs hs0 hd a hT fun t ht => (hl t ht).1
    have hlt : ∀ t : Fin T, a t < n := fun t => by
      have h1 := (List.getElem?_eq_some_iff.1 (hl t t.2).1).1
      rwa [hwf.choices d hd _ (hmem t t.2)] at h1
    have hset : {h : Fin T → Fin n × ℝ | ∀ t : Fin T, ((h t).1 : Nat) = a t ∧ ∀ B, O t = some B → (h t).2 ∈ B} =
        Set.univ.pi fun t : Fin T => {(⟨a t, hlt t⟩ : Fin n)} ×ˢ ((O t).getD Set.univ) := by
      ext h
      simp only [Set.mem_ofPred_eq, Set.mem_pi, Set.mem_univ, true_imp_iff, Set.mem_prod, Set.mem_singleton_iff]
      refine forall_congr' fun t => and_congr ⟨fun he => Fin.ext he, fun he => congrArg Fin.val he⟩ ?_
      cases O t with
      | none => simp
      | some B => simp
    rw [hset, historyDensity_event obs T s a]
    · rw [← Fin.prod_univ_eq_prod_range]
      refine Finset.prod_congr rfl fun t _ => ?_
      obtain ⟨h1, h2, h3⟩ := hl t t.2
      obtain ⟨o1, o2, _⟩ := hobs _ (hmem t t.2)
      exact observation_event p tau _ _ _ _ (List.mem_of_getElem? h1) (fun c hc hav => hunc d hd _ (hmem t t.2) c hc hav)
        _ (hm _) (h0 _) o1 o2 ⟨a t, hlt t⟩ h1 (O t) h2 (l t) h3
    · intro t
      refine (measurableSet_singleton _).prod ?_
      cases hO : O t with
      | none => exact MeasurableSet.univ
      | some B => exact ((hl t t.2).2.1 B hO).2.1
    · rintro t y ⟨hy, _⟩
      rw [Set.mem_singleton_iff.1 hy]

/-- C113: there is exactly one likelihood for each history of an individual with given characteristics and type. It is
positive if and only if the history is possible, and the likelihoods are a probability distribution: their integral
over all histories is one. -/
theorem C113_distribution_of_histories (wf : b.WF core) (p : RewardParams ℝ) (hwf : p.WF b core)
    (hunc : b.UncertainWages core p) (tau : ℝ) (w m : Option Nat → CoreState → Nat → ℝ)
    (V : Option Nat → CoreState → ℝ) {s : CoreState} (hs : s ∈ core) (hs0 : s.period = 0) {d : Option Nat}
    (hd : d ∈ b.denseIndices) (T : Nat) (hT : T ≤ b.core.nPeriods) :
    ∃ f : (Fin T → Fin p.measError.length × ℝ) → ℝ,
      (∀ h l, IsHistoryLikelihood p tau b w m V d s h l ↔ l = f h) ∧ Measurable f ∧
      (∀ h, 0 ≤ f h) ∧ (∀ h, 0 < f h ↔ PossibleHistory p.nWagesRaw b d s h) ∧
      ∫⁻ h, ENNReal.ofReal (f h) ∂historyMeasure p.measError.length T = 1 := by
  obtain ⟨f, h1, h2, h3, h4, h5, _⟩ := likelihood_density wf p hwf hunc tau w m V hs hs0 hd T hT
  exact ⟨f, h1, h2, h3, h4, h5⟩

/-- C113: the probability of choices and of sets of wages in this distribution is the product over periods of the
probabilities of the likelihood, which is what the shares of these histories in simulated samples approach (C110). -/
theorem C113_probabilities_of_events (wf : b.WF core) (p : RewardParams ℝ) (hwf : p.WF b core)
    (hunc : b.UncertainWages core p) (tau : ℝ) (w m : Option Nat → CoreState → Nat → ℝ)
    (V : Option Nat → CoreState → ℝ) {s : CoreState} (hs : s ∈ core) (hs0 : s.period = 0) {d : Option Nat}
    (hd : d ∈ b.denseIndices) (T : Nat) (hT : T ≤ b.core.nPeriods)
    (f : (Fin T → Fin p.measError.length × ℝ) → ℝ) (hf : ∀ h, IsHistoryLikelihood p tau b w m V d s h (f h))
    (a : Nat → Nat) (O : Nat → Option (Set ℝ)) (l : Nat → ℝ)
    (hl : ∀ t < T, b.Admissible d (coreAlong s a t) (a t) ∧
      (∀ B, O t = some B → a t < p.nWagesRaw ∧ MeasurableSet B ∧ B ⊆ Set.Ioi 0) ∧
      IsObservedProbability p tau (b.choiceSetAt d (coreAlong s a t)) (w d (coreAlong s a t))
        (m d (coreAlong s a t)) (expectedNext b V d (coreAlong s a t)) (a t) (O t) (l t)) :
    ∫ h in {h | ∀ t : Fin T, ((h t).1 : Nat) = a t ∧ ∀ B, O t = some B → (h t).2 ∈ B}, f h
      ∂historyMeasure p.measError.length T = ∏ t ∈ Finset.range T, l t := by
  obtain ⟨f', h1, _, _, _, _, h6⟩ := likelihood_density wf p hwf hunc tau w m V hs hs0 hd T hT
  have : f = f' := funext fun h => (h1 h _).1 (hf h)
  rw [this]
  exact h6 a O l hl

/-- C113: with types of positive probability, the likelihoods of all histories are a probability distribution, too. It
is positive if and only if the history is possible for some type. -/
theorem C113_distribution_with_types (wf : b.WF core) (p : RewardParams ℝ) (hwf : p.WF b core)
    (hunc : b.UncertainWages core p) (tau : ℝ) (w m : Option Nat → CoreState → Nat → ℝ)
    (V : Option Nat → CoreState → ℝ) {s : CoreState} (hs : s ∈ core) (hs0 : s.period = 0) {K : Nat}
    {d : Fin K → Option Nat} (hd : ∀ k, d k ∈ b.denseIndices) {weight : Fin K → ℝ} (hw : ∀ k, 0 < weight k)
    (hw1 : ∑ k, weight k = 1) (T : Nat) (hT : T ≤ b.core.nPeriods) :
    ∃ f : (Fin T → Fin p.measError.length × ℝ) → ℝ,
      (∀ h l, IsMixtureLikelihood p tau b w m V d weight s h l ↔ l = f h) ∧ Measurable f ∧
      (∀ h, 0 ≤ f h) ∧ (∀ h, 0 < f h ↔ ∃ k, PossibleHistory p.nWagesRaw b (d k) s h) ∧
      ∫⁻ h, ENNReal.ofReal (f h) ∂historyMeasure p.measError.length T = 1 := by
  choose q hq hm h0 hpos htot using
    fun k => C113_distribution_of_histories wf p hwf hunc tau w m V hs hs0 (hd k) T hT
  refine ⟨fun h => ∑ k, weight k * q k h, fun h l => ⟨?_, ?_⟩, ?_, ?_, ?_, ?_⟩
  · rintro ⟨r, h1, rfl⟩
    exact Finset.sum_congr rfl fun k _ => by rw [(hq k h _).1 (h1 k)]
  · rintro rfl
    exact ⟨fun k => q k h, fun k => (hq k h _).2 rfl, rfl⟩
  · exact Finset.measurable_fun_sum _ fun k _ => (hm k).const_mul _
  · exact fun h => Finset.sum_nonneg fun k _ => mul_nonneg (hw k).le (h0 k h)
  · intro h
    constructor
    · intro hlt
      by_contra hn
      refine hlt.ne' (Finset.sum_eq_zero fun k _ => ?_)
      have : q k h = 0 := le_antisymm (not_lt.1 fun h1 => hn ⟨k, (hpos k h).1 h1⟩) (h0 k h)
      rw [this, mul_zero]
    · rintro ⟨k, hk⟩
      exact Finset.sum_pos' (fun k _ => mul_nonneg (hw k).le (h0 k h))
        ⟨k, Finset.mem_univ k, mul_pos (hw k) ((hpos k h).2 hk)⟩
  · have h1 : ∀ h, ENNReal.ofReal (∑ k, weight k * q k h) = ∑ k, ENNReal.ofReal (weight k) * ENNReal.ofReal (q k h) := by
      intro h
      rw [ENNReal.ofReal_sum_of_nonneg fun k _ => mul_nonneg (hw k).le (h0 k h)]
      exact Finset.sum_congr rfl fun k _ => ENNReal.ofReal_mul (hw k).le
    simp only [h1]
    rw [lintegral_finsetSum _ fun k _ => (hm k).ennreal_ofReal.const_mul _]
    simp only [lintegral_const_mul _ (hm _).ennreal_ofReal, htot, mul_one]
    rw [← ENNReal.ofReal_sum_of_nonneg fun k _ => (hw k).le, hw1, ENNReal.ofReal_one]

/-- C113: let independent individuals have histories with the distribution of the likelihood at some parameters. Then
it is unlikely that other parameters for the same model have a higher likelihood. The probability that their log
likelihood is higher by `k` is at most `exp (-k)`, and at most `exp (-k / 2)` times a product over individuals of
numbers between zero and one, which are below one for all individuals whose histories have different distributions for
the two sets of parameters. -/
theorem C113_true_parameters_are_likely (wf : b.WF core) {N K : Nat} (ind : Fin N → Individual K)
    (hind : ∀ i, (ind i).Valid b core) (θ₀ θ₁ : Hypothesis N K) (h₀ : θ₀.Valid b core) (h₁ : θ₁.Valid b core)
    {n : Nat} (hn₀ : θ₀.rewards.measError.length = n) (hn₁ : θ₁.rewards.measError.length = n)
    (hnw : θ₀.rewards.nWagesRaw = θ₁.rewards.nWagesRaw)
    (f g : ∀ i, (Fin (ind i).periods → Fin n × ℝ) → ℝ) (hf : ∀ i, θ₀.Likelihood b ind i (f i))
    (hg : ∀ i, θ₁.Likelihood b ind i (g i))
    {Ω : Type} [MeasurableSpace Ω] (Q : Measure Ω) (X : ∀ i, Ω → Fin (ind i).periods → Fin n × ℝ)
    (hX : ∀ i, Measurable (X i)) (hindep : iIndepFun X Q)
    (hlaw : ∀ i, Q.map (X i) = (historyMeasure n (ind i).periods).withDensity fun h => ENNReal.ofReal (f i h)) :
    ∃ ρ : Fin N → ℝ, (∀ i, 0 ≤ ρ i ∧ ρ i ≤ 1 ∧ (ρ i = 1 ↔ f i =ᵐ[historyMeasure n (ind i).periods] g i)) ∧
      ∀ k : ℝ, Q.real {ω | ∑ i, Real.log (f i (X i ω)) + k ≤ ∑ i, Real.log (g i (X i ω))} ≤
        min (Real.exp (-k)) (Real.exp (-k / 2) * ∏ i, ρ i) := by
  subst hn₀
  have hf' := fun i => C113_distribution_with_types wf θ₀.rewards h₀.rewards h₀.uncertain θ₀.tau θ₀.wage θ₀.nonpec
    θ₀.value (hind i).start (hind i).first (hind i).dense (h₀.positive i) (h₀.total i) _ (hind i).periods
  have hg' := fun i => C113_distribution_with_types wf θ₁.rewards h₁.rewards h₁.uncertain θ₁.tau θ₁.wage θ₁.nonpec
    θ₁.value (hind i).start (hind i).first (hind i).dense (h₁.positive i) (h₁.total i) _ (hind i).periods
  rw [hn₁] at hg'
  choose f' f1 f2 f3 f4 f5 using hf'
  choose g' g1 g2 g3 g4 g5 using hg'
  have ef : f = f' := funext fun i => funext fun h => (f1 i h _).1 (hf i h)
  have eg : g = g' := funext fun i => funext fun h => (g1 i h _).1 (hg i h)
  subst ef eg
  have haff := fun i => affinity_le_one (ν := historyMeasure _ (ind i).periods) (f2 i) (g2 i) (f3 i) (g3 i) (f5 i) (g5 i)
  refine ⟨fun i => ∫ h, √(f i h * g i h) ∂historyMeasure _ (ind i).periods, fun i =>
    ⟨integral_nonneg fun _ => Real.sqrt_nonneg _, (haff i).2.1, (haff i).2.2⟩, fun k => ?_⟩
  obtain ⟨b1, b2⟩ := likelihood_ratio_bounds hX hindep f2 g2 f3 g3 f5 g5 (fun i h hh => by
    rw [f4] at hh
    rw [g4, ← hnw]
    exact hh) hlaw k
  exact le_min b2 b1

end

end Respy
