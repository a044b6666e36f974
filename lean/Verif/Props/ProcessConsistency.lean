import Verif.Lemmas.Consistency
import Verif.Props.Consistency
import Verif.Props.ProcessLikelihood

/-!
# Maximum likelihood with exogenous processes

C115 for the likelihood of C114, which does not contain the probabilities of the exogenous processes.
-/

open MeasureTheory ProbabilityTheory Filter

namespace Respy

noncomputable section

variable {b : BuildSpec} {core : List CoreState}

/-- The likelihood of a candidate times the true probabilities of the processes is a density. -/
theorem ProcessHypothesis.density (wf : b.WF core) {E : Nat} {θ₀ θ : ProcessHypothesis} (h₀ : θ₀.Valid b core E)
    (h : θ.Valid b core E) (hsame : ∀ d s, (θ.future d s).map Prod.fst = (θ₀.future d s).map Prod.fst) {n : Nat}
    (hn : θ.rewards.measError.length = n) (hnw : θ.rewards.nWagesRaw = θ₀.rewards.nWagesRaw) {x : Option Nat × CoreState}
    (hd : x.1 ∈ b.denseIndices) (hs : x.2 ∈ core) (hs0 : x.2.period = 0) {T : Nat} (hT : T ≤ b.core.nPeriods)
    (g : ProcessHistory n E T → ℝ) (hg : θ.Likelihood b x g) :
    Measurable g ∧ (Measurable fun y => g y * processesAlong θ₀.future x y) ∧ (∀ y, 0 ≤ g y) ∧
      (∀ y, 0 ≤ g y * processesAlong θ₀.future x y) ∧
      (∀ y, 0 < g y ↔ PossibleAlong θ₀.rewards.nWagesRaw b θ₀.future x y) ∧
      ∫⁻ y, ENNReal.ofReal (g y * processesAlong θ₀.future x y) ∂processMeasure n E T = 1 := by
  subst hn
  obtain ⟨g', g1, g2, g3, g4, g5⟩ := process_density wf θ.rewards h.rewards h.uncertain θ.tau θ.wage θ.nonpec θ.value
    θ.future h.transition h.levels hd hs hs0 T hT
  have eg : g = g' := funext fun y => (g1 y _).1 (hg y)
  subst eg
  have hcongr : ∀ y : ProcessHistory θ.rewards.measError.length E T,
      PossibleAlong θ.rewards.nWagesRaw b θ.future x y ↔ PossibleAlong θ₀.rewards.nWagesRaw b θ₀.future x y := by
    intro y
    unfold PossibleAlong
    rw [hnw]
    simp only [stateAlong_congr hsame]
  have w1 := g5 (fun _ y e => levelsProbability θ₀.future y.1 y.2 e) fun _ y hy1 hy2 =>
    levelsProbability_total h₀.transition h₀.levels hy1 hy2
  simp only [stateAlong_congr hsame] at w1
  refine ⟨g2, g2.mul w1.1, g3, fun y => ?_, fun y => (g4 y).trans (hcongr y), w1.2.2⟩
  rcases (g3 y).eq_or_lt with he | hlt
  · rw [← he, zero_mul]
  · exact mul_nonneg hlt.le (w1.2.1 y ((g4 y).1 hlt))

/-- C115: the same with exogenous processes. Individuals of kind `c` start in `x c` and are observed for `T c` periods.
Candidates may have wrong probabilities of the processes, which are not part of the likelihood. -/
theorem C115_consistent_with_processes (wf : b.WF core) {C E J : Nat} (x : Fin C → Option Nat × CoreState)
    (T : Fin C → Nat) (hd : ∀ c, (x c).1 ∈ b.denseIndices) (hs : ∀ c, (x c).2 ∈ core)
    (hs0 : ∀ c, (x c).2.period = 0) (hT : ∀ c, T c ≤ b.core.nPeriods) (θ₀ : ProcessHypothesis)
    (θ : Fin J → ProcessHypothesis) (h₀ : θ₀.Valid b core E) (h : ∀ j, (θ j).Valid b core E)
    (hsame : ∀ j d s, ((θ j).future d s).map Prod.fst = (θ₀.future d s).map Prod.fst) {n : Nat}
    (hn₀ : θ₀.rewards.measError.length = n) (hn : ∀ j, (θ j).rewards.measError.length = n)
    (hnw : ∀ j, (θ j).rewards.nWagesRaw = θ₀.rewards.nWagesRaw)
    (f : ∀ c, ProcessHistory n E (T c) → ℝ) (hf : ∀ c, θ₀.Likelihood b (x c) (f c))
    (g : Fin J → ∀ c, ProcessHistory n E (T c) → ℝ) (hg : ∀ j c, (θ j).Likelihood b (x c) (g j c))
    (diff : Fin J → Fin C) (hdiff : ∀ j, ¬ (fun y => f (diff j) y * processesAlong θ₀.future (x (diff j)) y)
      =ᵐ[processMeasure n E (T (diff j))] fun y => g j (diff j) y * processesAlong θ₀.future (x (diff j)) y) :
    ∃ ρ : ℝ, 0 ≤ ρ ∧ ρ < 1 ∧
      (∀ {N : Nat} (kind : Fin N → Fin C) {Ω : Type} [MeasurableSpace Ω] (Q : Measure Ω)
        (X : ∀ i, Ω → ProcessHistory n E (T (kind i))), (∀ i, Measurable (X i)) → iIndepFun X Q →
        (∀ i, Q.map (X i) = (processMeasure n E (T (kind i))).withDensity fun y =>
          ENNReal.ofReal (f (kind i) y * processesAlong θ₀.future (x (kind i)) y)) →
        Q.real {ω | ∃ j, ∑ i, Real.log (f (kind i) (X i ω)) ≤ ∑ i, Real.log (g j (kind i) (X i ω))} ≤
          ∑ j, ρ ^ countKind kind (diff j)) ∧
      ∀ (kind : Nat → Fin C), (∀ j, Tendsto (fun N => countKind (fun i : Fin N => kind i) (diff j)) atTop atTop) →
        ∀ {Ω : Type} [MeasurableSpace Ω] (Q : Measure Ω) (X : ∀ i, Ω → ProcessHistory n E (T (kind i))),
        (∀ i, Measurable (X i)) → iIndepFun X Q →
        (∀ i, Q.map (X i) = (processMeasure n E (T (kind i))).withDensity fun y =>
          ENNReal.ofReal (f (kind i) y * processesAlong θ₀.future (x (kind i)) y)) →
        Tendsto (fun N => Q.real {ω | ∀ j, ∑ i : Fin N, Real.log (g j (kind i) (X i ω)) <
          ∑ i : Fin N, Real.log (f (kind i) (X i ω))}) atTop (nhds 1) := by
  have hf' := fun c => ProcessHypothesis.density wf h₀ h₀ (fun _ _ => rfl) hn₀ rfl (hd c) (hs c) (hs0 c) (hT c) (f c) (hf c)
  have hg' := fun j c => ProcessHypothesis.density wf h₀ (h j) (hsame j) (hn j) (hnw j) (hd c) (hs c) (hs0 c) (hT c)
    (g j c) (hg j c)
  choose f1 f2 f3 f4 f5 f6 using hf'
  choose g1 g2 g3 g4 g5 g6 using hg'
  obtain ⟨ρ, r0, r1, r2⟩ := candidates_weighted (π := fun c y => processesAlong θ₀.future (x c) y) f2 g2 f4 g4 f6 g6
    (fun j c y hy => by
      have h1 : 0 < f c y := lt_of_le_of_ne (f3 c y) fun he => hy.ne' (by rw [← he, zero_mul])
      exact ⟨h1, pos_of_mul_pos_right hy h1.le, (g5 j c y).2 ((f5 c y).1 h1)⟩) diff hdiff
  refine ⟨ρ, r0, r1, r2, ?_⟩
  intro kind hmany Ω _ Q X hX hindep hlaw
  have : IsProbabilityMeasure Q := hindep.isProbabilityMeasure
  exact candidates_converge f1 g1 r0 r1 kind diff hmany Q X hX fun N => r2 (fun i : Fin N => kind i) Q (fun i => X i)
    (fun i => hX i) (hindep.precomp Fin.val_injective) fun i => hlaw i

/-- A history of one period with given levels of the processes. -/
def withLevels {n E : Nat} (e : Fin E) (k : Fin 1 → Fin n × ℝ) : ProcessHistory n E 1 := fun t => (((k t).1, e), (k t).2)

theorem withLevels_continuous {n E : Nat} (e : Fin E) :
    (historyMeasure n 1).map (withLevels e) ≪ processMeasure n E 1 := by
  let ψ : Fin n × ℝ → (Fin n × Fin E) × ℝ := Prod.map (fun a => (a, e)) id
  have hψ : Measurable ψ := (measurable_of_finite _).prodMap measurable_id
  have h1 : (observedMeasure n).map ψ ≪ Measure.count.prod (volume.restrict (Set.Ioi 0) + Measure.dirac 0) := by
    unfold observedMeasure
    rw [← Measure.map_prod_map _ _ (measurable_of_finite _) measurable_id, Measure.map_id]
    refine Measure.AbsolutelyContinuous.prod (Measure.AbsolutelyContinuous.mk fun s _ hs => ?_)
      Measure.AbsolutelyContinuous.rfl
    rw [Measure.count_eq_zero_iff.1 hs, measure_empty]
  have e1 : historyMeasure n 1 = (observedMeasure n).map (MeasurableEquiv.funUnique (Fin 1) (Fin n × ℝ)).symm :=
    ((measurePreserving_funUnique (observedMeasure n) (Fin 1)).symm _).map_eq.symm
  have e2 : processMeasure n E 1 = (Measure.count.prod (volume.restrict (Set.Ioi 0) + Measure.dirac 0)).map
      (MeasurableEquiv.funUnique (Fin 1) ((Fin n × Fin E) × ℝ)).symm :=
    ((measurePreserving_funUnique _ (Fin 1)).symm _).map_eq.symm
  have hm : Measurable (withLevels (n := n) e) := measurable_pi_lambda _ fun t => hψ.comp (measurable_pi_apply t)
  have e3 : (historyMeasure n 1).map (withLevels e) = ((observedMeasure n).map ψ).map
      (MeasurableEquiv.funUnique (Fin 1) ((Fin n × Fin E) × ℝ)).symm := by
    rw [e1, Measure.map_map hm (MeasurableEquiv.measurable _), Measure.map_map (MeasurableEquiv.measurable _) hψ]
    rfl
  rw [e2, e3]
  exact h1.map (MeasurableEquiv.measurable _)

/-- C115: parameters which give one available alternative a higher expected value of the following periods, given the
probabilities of the processes, and no other alternative, can be distinguished by individuals observed for one period. -/
theorem C115_distinguished_with_processes (wf : b.WF core) {E : Nat} (p : RewardParams ℝ) (hwf : p.WF b core)
    (hunc : b.UncertainWages core p) {tau : ℝ} (ht : 0 < tau) (hdelta : 0 < p.betaDelta)
    (w m : Option Nat → CoreState → Nat → ℝ) (V V' : Option Nat → CoreState → ℝ)
    (future future' : Option Nat → CoreState → List (Option Nat × ℝ)) (hfut : IsTransition b core future)
    (hE : ∀ d ∈ b.denseIndices, ∀ s ∈ core, (future d s).length = E) {x : Option Nat × CoreState}
    (hd : x.1 ∈ b.denseIndices) (hs : x.2 ∈ core) (hs0 : x.2.period = 0) {a a' : Nat} (ha : b.Admissible x.1 x.2 a)
    (ha' : b.Admissible x.1 x.2 a') (hne : a' ≠ a)
    (hV : continuationOf b future V x.1 x.2 a < continuationOf b future' V' x.1 x.2 a)
    (hV' : ∀ c, c ≠ a → b.Admissible x.1 x.2 c →
      continuationOf b future' V' x.1 x.2 c ≤ continuationOf b future V x.1 x.2 c)
    {n : Nat} (hn : p.measError.length = n) (f f' : ProcessHistory n E 1 → ℝ)
    (hf : ∀ h, IsLikelihoodAlong p tau b w m future V x h (f h))
    (hf' : ∀ h, IsLikelihoodAlong p tau b w m future' V' x h (f' h)) :
    ¬ (fun h => f h * processesAlong future x h) =ᵐ[processMeasure n E 1] fun h => f' h * processesAlong future x h := by
  intro hae
  obtain ⟨q0, q1⟩ := levelsProbability_total hfut hE hd hs
  obtain ⟨e, he⟩ : ∃ e : Fin E, 0 < levelsProbability future x.1 x.2 e := by
    by_contra hcon
    push Not at hcon
    have : ∑ e : Fin E, levelsProbability future x.1 x.2 e ≤ 0 := Finset.sum_nonpos fun e _ => hcon e
    linarith
  have hlike : ∀ (U : Option Nat → CoreState → ℝ) (fut : Option Nat → CoreState → List (Option Nat × ℝ))
      (g : ProcessHistory n E 1 → ℝ), (∀ h, IsLikelihoodAlong p tau b w m fut U x h (g h)) → ∀ k,
      IsHistoryLikelihood p tau b w m (fun _ s => ((fut x.1 x.2).map fun fp => fp.2 * U fp.1 s).sum) x.1 x.2 k
        (g (withLevels e k)) := by
    intro U fut g hg k
    have hiff : PossibleAlong p.nWagesRaw b fut x (withLevels e k) ↔ PossibleHistory p.nWagesRaw b x.1 x.2 k := by
      unfold PossibleAlong PossibleHistory
      rw [Fin.forall_fin_one, Fin.forall_fin_one]
      rfl
    rcases hg (withLevels e k) with ⟨hp, prob, h1, h2⟩ | ⟨hp, h0⟩
    · refine Or.inl ⟨hiff.1 hp, prob, ?_, ?_⟩
      · rw [Fin.forall_fin_one]
        exact h1 0
      · rw [Fin.prod_univ_one] at h2 ⊢
        exact h2
    · exact Or.inr ⟨fun h => hp (hiff.2 h), h0⟩
  have key : ∀ (U : Option Nat → CoreState → ℝ) (fut : Option Nat → CoreState → List (Option Nat × ℝ)) (c : Nat),
      expectedNext b (fun _ s => ((fut x.1 x.2).map fun fp => fp.2 * U fp.1 s).sum) x.1 x.2 c =
        continuationOf b fut U x.1 x.2 c := fun U fut c => rfl
  refine C115_expected_values_are_distinguished wf p hwf hunc ht hdelta w m
    (fun _ s => ((future x.1 x.2).map fun fp : Option Nat × ℝ => fp.2 * V fp.1 s).sum)
    (fun _ s => ((future' x.1 x.2).map fun fp : Option Nat × ℝ => fp.2 * V' fp.1 s).sum) hs hs0 hd ha ha' hne
    (by rw [key, key]; exact hV) (fun c hc hadm => by rw [key, key]; exact hV' c hc hadm) hn _ _
    (hlike V future f hf) (hlike V' future' f' hf') ?_
  have h1 := ae_of_ae_map ?_ (withLevels_continuous (n := n) e |>.ae_le hae)
  · filter_upwards [h1] with k hk
    have hpr : processesAlong future x (withLevels e k) = levelsProbability future x.1 x.2 e := by
      unfold processesAlong
      rw [Fin.prod_univ_one]
      rfl
    have hk' : f (withLevels e k) * processesAlong future x (withLevels e k) =
        f' (withLevels e k) * processesAlong future x (withLevels e k) := hk
    rw [hpr] at hk'
    exact mul_right_cancel₀ he.ne' hk'
  · exact (measurable_pi_lambda _ fun t => (((measurable_of_finite fun a : Fin n => (a, e)).prodMap
      measurable_id).comp (measurable_pi_apply t))).aemeasurable

end

end Respy
