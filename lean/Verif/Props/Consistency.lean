import Verif.Lemmas.ChoiceMonotone
import Verif.Lemmas.Consistency
import Verif.Props.HistoryLikelihoodAccepted

/-!
# Maximum likelihood among finitely many candidates

C115: the probability that the parameters which generated the data do not have the highest likelihood among finitely
many candidates vanishes exponentially in the number of individuals.
-/

open MeasureTheory ProbabilityTheory Filter

namespace Respy

noncomputable section

variable {b : BuildSpec} {core : List CoreState}

/-- The likelihood of the histories of an individual is a density. -/
theorem Hypothesis.density (wf : b.WF core) {N K : Nat} {ind : Fin N → Individual K} (hind : ∀ i, (ind i).Valid b core)
    {θ : Hypothesis N K} (h : θ.Valid b core) {n : Nat} (hn : θ.rewards.measError.length = n) (i : Fin N)
    (f : (Fin (ind i).periods → Fin n × ℝ) → ℝ) (hf : θ.Likelihood b ind i f) :
    Measurable f ∧ (∀ y, 0 ≤ f y) ∧
      (∀ y, 0 < f y ↔ ∃ k, PossibleHistory θ.rewards.nWagesRaw b ((ind i).dense k) (ind i).start y) ∧
      ∫⁻ y, ENNReal.ofReal (f y) ∂historyMeasure n (ind i).periods = 1 := by
  subst hn
  obtain ⟨f', f1, f2, f3, f4, f5⟩ := C113_distribution_with_types wf θ.rewards h.rewards h.uncertain θ.tau θ.wage
    θ.nonpec θ.value (hind i).start (hind i).first (hind i).dense (h.positive i) (h.total i) _ (hind i).periods
  have ef : f = f' := funext fun y => (f1 y _).1 (hf y)
  subst ef
  exact ⟨f2, f3, f4, f5⟩

theorem Hypothesis.exists_likelihood (wf : b.WF core) {N K : Nat} (ind : Fin N → Individual K)
    (hind : ∀ i, (ind i).Valid b core) {θ : Hypothesis N K} (h : θ.Valid b core) {n : Nat}
    (hn : θ.rewards.measError.length = n) : ∃ f : ∀ i, (Fin (ind i).periods → Fin n × ℝ) → ℝ,
      ∀ i, θ.Likelihood b ind i (f i) := by
  subst hn
  have hf := fun i => C113_distribution_with_types wf θ.rewards h.rewards h.uncertain θ.tau θ.wage
    θ.nonpec θ.value (hind i).start (hind i).first (hind i).dense (h.positive i) (h.total i) _ (hind i).periods
  choose f f1 _ using hf
  exact ⟨f, fun i y => (f1 i y _).2 rfl⟩

/-- If all types have the same index, the mixture is the likelihood of a history. -/
theorem Hypothesis.likelihood_single (wf : b.WF core) {N K : Nat} {ind : Fin N → Individual K}
    (hind : ∀ i, (ind i).Valid b core) {θ : Hypothesis N K} (h : θ.Valid b core) {n : Nat}
    (hn : θ.rewards.measError.length = n) (i : Fin N) {d : Option Nat} (hd : d ∈ b.denseIndices)
    (hconst : ∀ k, (ind i).dense k = d) (f : (Fin (ind i).periods → Fin n × ℝ) → ℝ) (hf : θ.Likelihood b ind i f)
    (y : Fin (ind i).periods → Fin n × ℝ) :
    IsHistoryLikelihood θ.rewards θ.tau b θ.wage θ.nonpec θ.value d (ind i).start y (f y) := by
  subst hn
  obtain ⟨F, F1, _⟩ := C113_distribution_of_histories wf θ.rewards h.rewards h.uncertain θ.tau θ.wage θ.nonpec θ.value
    (hind i).start (hind i).first hd _ (hind i).periods
  obtain ⟨q, hq, hs⟩ := hf y
  rw [F1, hs, Finset.sum_congr rfl fun k _ => by rw [(F1 y (q k)).1 (hconst k ▸ hq k)], ← Finset.sum_mul, h.total i,
    one_mul]

/-- C115: individuals are of finitely many kinds `c`, which differ in initial characteristics and the number of observed
periods. There are finitely many candidates for the parameters, and each gives the histories of some kind `diff j` of
individuals another distribution than the true parameters. Then the probability that a candidate has a likelihood which
is as high as that of the true parameters is at most the sum over candidates of `ρ ^ n`, where `n` is the number of
individuals of kind `diff j`; the same `ρ < 1` for all samples. If these numbers grow, the probability that maximum
likelihood finds the true parameters converges to one. -/
theorem C115_maximum_likelihood_is_consistent (wf : b.WF core) {C K J : Nat} (ind : Fin C → Individual K)
    (hind : ∀ c, (ind c).Valid b core) (θ₀ : Hypothesis C K) (θ : Fin J → Hypothesis C K) (h₀ : θ₀.Valid b core)
    (h : ∀ j, (θ j).Valid b core) {n : Nat} (hn₀ : θ₀.rewards.measError.length = n)
    (hn : ∀ j, (θ j).rewards.measError.length = n) (hnw : ∀ j, (θ j).rewards.nWagesRaw = θ₀.rewards.nWagesRaw)
    (f : ∀ c, (Fin (ind c).periods → Fin n × ℝ) → ℝ) (hf : ∀ c, θ₀.Likelihood b ind c (f c))
    (g : Fin J → ∀ c, (Fin (ind c).periods → Fin n × ℝ) → ℝ) (hg : ∀ j c, (θ j).Likelihood b ind c (g j c))
    (diff : Fin J → Fin C) (hdiff : ∀ j, ¬ f (diff j) =ᵐ[historyMeasure n (ind (diff j)).periods] g j (diff j)) :
    ∃ ρ : ℝ, 0 ≤ ρ ∧ ρ < 1 ∧
      (∀ {N : Nat} (kind : Fin N → Fin C) {Ω : Type} [MeasurableSpace Ω] (Q : Measure Ω)
        (X : ∀ i, Ω → Fin (ind (kind i)).periods → Fin n × ℝ), (∀ i, Measurable (X i)) → iIndepFun X Q →
        (∀ i, Q.map (X i) = (historyMeasure n (ind (kind i)).periods).withDensity fun y =>
          ENNReal.ofReal (f (kind i) y)) →
        Q.real {ω | ∃ j, ∑ i, Real.log (f (kind i) (X i ω)) ≤ ∑ i, Real.log (g j (kind i) (X i ω))} ≤
          ∑ j, ρ ^ countKind kind (diff j)) ∧
      ∀ (kind : Nat → Fin C), (∀ j, Tendsto (fun N => countKind (fun i : Fin N => kind i) (diff j)) atTop atTop) →
        ∀ {Ω : Type} [MeasurableSpace Ω] (Q : Measure Ω) (X : ∀ i, Ω → Fin (ind (kind i)).periods → Fin n × ℝ),
        (∀ i, Measurable (X i)) → iIndepFun X Q →
        (∀ i, Q.map (X i) = (historyMeasure n (ind (kind i)).periods).withDensity fun y =>
          ENNReal.ofReal (f (kind i) y)) →
        Tendsto (fun N => Q.real {ω | ∀ j, ∑ i : Fin N, Real.log (g j (kind i) (X i ω)) <
          ∑ i : Fin N, Real.log (f (kind i) (X i ω))}) atTop (nhds 1) := by
  have hf' := fun c => Hypothesis.density wf hind h₀ hn₀ c (f c) (hf c)
  have hg' := fun j c => Hypothesis.density wf hind (h j) (hn j) c (g j c) (hg j c)
  choose f2 f3 f4 f5 using hf'
  choose g2 g3 g4 g5 using hg'
  obtain ⟨ρ, h0, h1, h2⟩ := candidates_bound f2 g2 f3 g3 f5 g5 (fun j c y hy => by
    rw [f4] at hy
    rw [g4, hnw]
    exact hy) diff hdiff
  refine ⟨ρ, h0, h1, h2, ?_⟩
  intro kind hmany Ω _ Q X hX hindep hlaw
  have : IsProbabilityMeasure Q := hindep.isProbabilityMeasure
  exact candidates_converge f2 g2 h0 h1 kind diff hmany Q X hX fun N => h2 (fun i : Fin N => kind i) Q (fun i => X i)
    (fun i => hX i) (hindep.precomp Fin.val_injective) fun i => hlaw i

/-- C115: parameters which give one available alternative a higher expected value of the following periods, and no other
alternative, can be distinguished by data: the histories of individuals who are observed for one period have different
distributions. -/
theorem C115_expected_values_are_distinguished (wf : b.WF core) (p : RewardParams ℝ) (hwf : p.WF b core)
    (hunc : b.UncertainWages core p) {tau : ℝ} (ht : 0 < tau) (hdelta : 0 < p.betaDelta)
    (w m : Option Nat → CoreState → Nat → ℝ) (V V' : Option Nat → CoreState → ℝ) {s : CoreState} (hs : s ∈ core)
    (hs0 : s.period = 0) {d : Option Nat} (hd : d ∈ b.denseIndices) {a a' : Nat} (ha : b.Admissible d s a)
    (ha' : b.Admissible d s a') (hne : a' ≠ a) (hV : expectedNext b V d s a < expectedNext b V' d s a)
    (hV' : ∀ c, c ≠ a → b.Admissible d s c → expectedNext b V' d s c ≤ expectedNext b V d s c)
    {n : Nat} (hn : p.measError.length = n) (f f' : (Fin 1 → Fin n × ℝ) → ℝ)
    (hf : ∀ h, IsHistoryLikelihood p tau b w m V d s h (f h))
    (hf' : ∀ h, IsHistoryLikelihood p tau b w m V' d s h (f' h)) : ¬ f =ᵐ[historyMeasure n 1] f' := by
  subst hn
  have hone : 1 ≤ b.core.nPeriods := wf.periods
  have hobs := fun U : Option Nat → CoreState → ℝ => C107_distribution_of_choices_and_wages p.hi tau p.betaDelta
    p.nWagesRaw p.cholesky (b.choiceSetAt d s) (fun b => p.measError.getD b 0) (w d s) (m d s) (expectedNext b U d s)
    (List.mem_of_getElem? ha) (fun a h hav => hunc d hd s hs a h hav)
  obtain ⟨prob, h1, _⟩ := hobs V
  obtain ⟨prob', h1', _⟩ := hobs V'
  obtain ⟨h2, _⟩ := h1 a ha none (fun h => by cases h)
  obtain ⟨h2', _⟩ := h1' a ha none (fun h => by cases h)
  have hl := (h2 _).2 rfl
  have hlt : prob a none < prob' a none :=
    expected_strict _ ht hdelta _ _ _ _ _ a a' ha ha' hne hV hV' none _ _ hl ((h2' _).2 rfl)
  have e := C113_probabilities_of_events wf p hwf hunc tau w m V hs hs0 hd 1 hone f hf (fun _ => a) (fun _ => none)
    (fun _ => prob a none) (fun t ht => by
      obtain rfl : t = 0 := by omega
      exact ⟨ha, (fun _ hB => nomatch hB), hl⟩)
  have e' := C113_probabilities_of_events wf p hwf hunc tau w m V' hs hs0 hd 1 hone f' hf' (fun _ => a) (fun _ => none)
    (fun _ => prob' a none) (fun t ht => by
      obtain rfl : t = 0 := by omega
      exact ⟨ha, (fun _ hB => nomatch hB), (h2' _).2 rfl⟩)
  intro hae
  rw [integral_congr_ae (ae_restrict_of_ae hae), e'] at e
  simp only [Finset.prod_const, Finset.card_range, pow_one] at e
  exact hlt.ne' e

variable {env : ProcessEnv} {m : UserModel} {p : Processed} {ev : FormulaEval}

/-- **C115 (partial).** Every supported model which is accepted, and finitely many candidates for the parameters with the
same index and the same maximum experiences: all of them are accepted and have likelihoods. If each candidate gives the
histories of some kind of individuals another distribution than the true parameters, the probability that the true
parameters have the highest likelihood converges to one as the numbers of individuals of these kinds grow, and for every
sample it is at least one minus the sum of `ρ ^ n`. The expected values of states may be any numbers, and those of the
solutions in particular. Missing: exogenous processes (see `C115_accepted_models_with_processes_partial`),
models whose creation fails (C86), more than one lag, shocks without variance. -/
theorem C115_accepted_models_partial (hp : processModel env m = some p) {J : Nat} {Θ : Fin J → Dict (Str × Str) ℝ}
    (hΘ : ∀ j, m.SameIndex (Θ j)) (hev : ev.Contract) (hs : p.Supported m ev core)
    (hcore : createCore (p.buildSpec ev).core = some core) (hkeep : env.KeepsShape) (hnd : (Dict.keys m.params).Nodup)
    (hother : ∀ q ∈ m.params, mentionsShocks q.1 = true → ∃ c ∈ shockCategories, q.1.1 = c.toList)
    (hallowed : ∀ d ∈ (p.buildSpec ev).denseIndices, ∀ s ∈ core, ∃ c ∈ p.choices.choices, p.Allowed m ev d s c)
    (senv : SolveEnv) (tau₀ : ℝ) (tau : Fin J → ℝ) (V₀ : Option Nat → CoreState → ℝ)
    (V : Fin J → Option Nat → CoreState → ℝ) {C : Nat} (x₀ : Fin C → Nat → ℝ) (x : Fin J → Fin C → Nat → ℝ)
    (ind : Fin C → Individual p.typeCount) (hind : ∀ c, (ind c).Valid (p.buildSpec ev) core) :
    ∃ q : Fin J → Processed, (∀ j, processModel env { m with params := Θ j } = some (q j)) ∧
      ((∀ a < p.choices.choices.length, entry p.cholesky a a ≠ 0 ∧ ∀ j, entry (q j).cholesky a a ≠ 0) →
      ∃ (f : ∀ c, (Fin (ind c).periods → Fin p.choices.choices.length × ℝ) → ℝ)
        (g : Fin J → ∀ c, (Fin (ind c).periods → Fin p.choices.choices.length × ℝ) → ℝ),
        (∀ c, (p.hypothesis ev senv tau₀ V₀ p.typeCount x₀).Likelihood (p.buildSpec ev) ind c (f c)) ∧
        (∀ j c, ((q j).hypothesis ev senv (tau j) (V j) p.typeCount (x j)).Likelihood (p.buildSpec ev) ind c (g j c)) ∧
        ∀ diff : Fin J → Fin C, (∀ j, ¬ f (diff j) =ᵐ[historyMeasure _ (ind (diff j)).periods] g j (diff j)) →
        ∃ ρ : ℝ, 0 ≤ ρ ∧ ρ < 1 ∧
          (∀ {N : Nat} (kind : Fin N → Fin C) {Ω : Type} [MeasurableSpace Ω] (Q : Measure Ω)
            (X : ∀ i, Ω → Fin (ind (kind i)).periods → Fin p.choices.choices.length × ℝ), (∀ i, Measurable (X i)) →
            iIndepFun X Q → (∀ i, Q.map (X i) = (historyMeasure _ (ind (kind i)).periods).withDensity fun y =>
              ENNReal.ofReal (f (kind i) y)) →
            Q.real {ω | ∃ j, ∑ i, Real.log (f (kind i) (X i ω)) ≤ ∑ i, Real.log (g j (kind i) (X i ω))} ≤
              ∑ j, ρ ^ countKind kind (diff j)) ∧
          ∀ (kind : Nat → Fin C), (∀ j, Tendsto (fun N => countKind (fun i : Fin N => kind i) (diff j)) atTop atTop) →
            ∀ {Ω : Type} [MeasurableSpace Ω] (Q : Measure Ω)
            (X : ∀ i, Ω → Fin (ind (kind i)).periods → Fin p.choices.choices.length × ℝ), (∀ i, Measurable (X i)) →
            iIndepFun X Q → (∀ i, Q.map (X i) = (historyMeasure _ (ind (kind i)).periods).withDensity fun y =>
              ENNReal.ofReal (f (kind i) y)) →
            Tendsto (fun N => Q.real {ω | ∀ j, ∑ i : Fin N, Real.log (g j (kind i) (X i ω)) <
              ∑ i : Fin N, Real.log (f (kind i) (X i ω))}) atTop (nhds 1)) := by
  have wf := C82_processed_models_well_formed hp hev hs hcore
  have hcs : ∀ d ∈ (p.buildSpec ev).denseIndices, ∀ s ∈ core,
      ∃ a : Nat, ((p.buildSpec ev).choiceSetAt d s)[a]? = some true := by
    intro d hd s hmem
    obtain ⟨c, hc, hall⟩ := hallowed d hd s hmem
    obtain ⟨a, ha⟩ := List.mem_iff_getElem?.1 hc
    exact ⟨a, (C82_choice_sets_by_name hp hev hs.toDescribed hcore d hd s hmem a c ha).2 hall⟩
  have hK : 0 < p.typeCount := by
    unfold Processed.typeCount
    split <;> omega
  have hall : ∀ j, ∃ q, processModel env { m with params := Θ j } = some q ∧
      ((∀ a < p.choices.choices.length, entry q.cholesky a a ≠ 0) →
        (q.hypothesis ev senv (tau j) (V j) p.typeCount (x j)).Valid (p.buildSpec ev) core) ∧
      (q.hypothesis ev senv (tau j) (V j) p.typeCount (x j)).rewards.measError.length = p.choices.choices.length ∧
      (q.rewardParams senv).nWagesRaw = (p.rewardParams senv).nWagesRaw := by
    intro j
    have h := processModel_sameIndex env m (Θ j) (hΘ j).index (hΘ j).max
    rw [hp] at h
    generalize hq : processModel env { m with params := Θ j } = oq at h
    cases h with
    | @some _ q hst =>
    have hb := hst.buildSpec ev
    obtain ⟨c₁, hc₁⟩ := processModel_from env _ q hq
    refine ⟨q, rfl, fun hdiag => ?_, ?_, ?_⟩
    · rw [hb]
      refine processed_hypothesis_valid hq hkeep (by unfold Dict.keys at hnd ⊢; exact (hΘ j).index ▸ hnd) ?_
        (by rw [← hb]; exact hcs) (fun a ha => hdiag a (by rw [hst.choices]; exact ha)) senv (tau j) (V j) hK (x j)
      intro y hy
      have hm : y.1 ∈ m.params.map Prod.fst := (hΘ j).index ▸ List.mem_map_of_mem (f := Prod.fst) hy
      obtain ⟨z, hz, he⟩ := List.mem_map.1 hm
      exact he ▸ hother z hz
    · rw [hst.choices]
      exact hc₁.measurement_length
    · show q.choices.wWage.length = p.choices.wWage.length
      rw [hst.choices]
  choose q hq h₁ hn hnw using hall
  refine ⟨q, hq, fun hdiag => ?_⟩
  obtain ⟨c₀, hc₀⟩ := processModel_from env m p hp
  have h₀ := processed_hypothesis_valid (N := C) hp hkeep hnd hother hcs (fun a ha => (hdiag a ha).1) senv tau₀ V₀ hK x₀
  have h₁ := fun j => h₁ j fun a ha => (hdiag a ha).2 j
  have hn₀ : (p.hypothesis ev senv tau₀ V₀ p.typeCount x₀).rewards.measError.length = p.choices.choices.length :=
    hc₀.measurement_length
  obtain ⟨f, hf⟩ := Hypothesis.exists_likelihood wf ind hind h₀ hn₀
  have hg := fun j => Hypothesis.exists_likelihood wf ind hind (h₁ j) (hn j)
  choose g hg using hg
  exact ⟨f, g, hf, hg, C115_maximum_likelihood_is_consistent wf ind hind _ _ h₀ h₁ hn₀ hn hnw f hf g hg⟩

end

end Respy
