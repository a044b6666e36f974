import Verif.Props.HistoriesExample
import Verif.Props.InitialAccepted

/-!
# C111 and C112 Examples

Characteristics and histories of a model with two types, an observable, a lagged choice and a restriction.
-/

open MeasureTheory ProbabilityTheory

namespace Respy

noncomputable section

/-! ### Random numbers -/

/-- Independent variables are independent on a larger space. -/
theorem iIndepFun_of_measurePreserving {Ω Ω' ι β : Type} [MeasurableSpace Ω] [MeasurableSpace Ω'] [MeasurableSpace β]
    [Fintype ι] {Q : Measure Ω} {μ : Measure Ω'} [IsProbabilityMeasure Q] [IsProbabilityMeasure μ] {f : Ω → Ω'}
    (hf : MeasurePreserving f Q μ) {X : ι → Ω' → β} (hX : ∀ i, Measurable (X i)) (h : iIndepFun X μ) :
    iIndepFun (fun i ω => X i (f ω)) Q := by
  rw [iIndepFun_iff_map_fun_eq_pi_map (f := fun i ω => X i (f ω)) fun i => ((hX i).comp hf.measurable).aemeasurable]
  have h1 := h.map_fun_eq_pi_map fun i => (hX i).aemeasurable
  have h2 : ∀ i, Q.map (fun ω => X i (f ω)) = μ.map (X i) := fun i => by
    rw [← hf.map_eq, Measure.map_map (hX i) hf.measurable]; rfl
  simp only [h2]
  rw [← h1, ← hf.map_eq, Measure.map_map (measurable_pi_lambda _ hX) hf.measurable]
  rfl

/-- Numbers in `[0, 1)`. -/
def clamp (x : ℝ) : ℝ := if 0 ≤ x ∧ x < 1 then x else 0

theorem clamp_mem (x : ℝ) : 0 ≤ clamp x ∧ clamp x < 1 := by
  unfold clamp
  split
  · assumption
  · norm_num

theorem clamp_measurable : Measurable clamp :=
  Measurable.ite measurableSet_Ico measurable_id measurable_const

theorem clamp_map : (volume.restrict (Set.Ico (0 : ℝ) 1)).map clamp = volume.restrict (Set.Ico 0 1) := by
  have : clamp =ᵐ[volume.restrict (Set.Ico (0 : ℝ) 1)] id := by
    rw [Filter.EventuallyEq, ae_restrict_iff' measurableSet_Ico]
    exact Filter.Eventually.of_forall fun x hx => if_pos hx
  rw [Measure.map_congr this, Measure.map_id]

instance : IsProbabilityMeasure (volume.restrict (Set.Ico (0 : ℝ) 1)) :=
  ⟨by rw [Measure.restrict_apply_univ, Real.volume_Ico]; norm_num⟩

/-- A source which returns the given numbers for the seeds `seed`, `seed + 1`, ... -/
def numberSource (seed : Nat) {n k : Nat} (u : Fin n → Fin k → ℝ) : RandomSource ℝ Nat where
  seed := fun s => s
  uniform := fun g r => (List.ofFn fun j : Fin r =>
    if h : (j : Nat) < n ∧ g - seed < k then clamp (u ⟨j, h.1⟩ ⟨g - seed, h.2⟩) else 0, g)
  choice := (halfSource ℝ).choice

theorem numberSource_contract (seed : Nat) {n k : Nat} (u : Fin n → Fin k → ℝ) : (numberSource seed u).Contract where
  uniform_length := fun g r => by simp [numberSource]
  uniform_mem := by
    intro g r x hx
    obtain ⟨j, rfl⟩ := List.mem_ofFn.1 hx
    split
    · exact clamp_mem _
    · norm_num
  choice_length := halfSource_contract.choice_length
  choice_mem := halfSource_contract.choice_mem

/-- The random numbers of a sample exist. -/
theorem allNumbers_exist (seed n k R N : Nat) : ∃ (Ω : Type) (_ : MeasurableSpace Ω) (Q : Measure Ω)
    (_ : IsProbabilityMeasure Q) (rs : Ω → RandomSource ℝ Nat) (U : Fin n → Ω → Fin k → ℝ)
    (Z Y : Fin R → Ω → Fin N → ℝ), (∀ ω, (rs ω).Contract) ∧ AllNumbers Q rs seed U Z Y := by
  let μ : Measure (Fin n → Fin k → ℝ) := Measure.pi fun _ => Measure.pi fun _ => volume.restrict (Set.Ico 0 1)
  let ν : Measure (Fin R → (Fin N → ℝ) × (Fin N → ℝ)) := Measure.pi fun _ => (normals N).prod (normals N)
  have hfst : MeasurePreserving Prod.fst (μ.prod ν) μ := measurePreserving_fst
  have hsnd : MeasurePreserving Prod.snd (μ.prod ν) ν := measurePreserving_snd
  have hcl : Measurable fun u : Fin k → ℝ => fun i => clamp (u i) :=
    measurable_pi_lambda _ fun i => clamp_measurable.comp (measurable_pi_apply i)
  have hmU : ∀ j, Measurable fun u : Fin n → Fin k → ℝ => fun i => clamp (u j i) := fun j =>
    hcl.comp (measurable_pi_apply j)
  refine ⟨_, inferInstance, μ.prod ν, inferInstance, fun ω => numberSource seed ω.1, fun j ω i => clamp (ω.1 j i),
    fun r ω => (ω.2 r).1, fun r ω => (ω.2 r).2, fun ω => numberSource_contract _ _, ⟨?_, ?_, ?_, ?_⟩, ⟨?_, ?_⟩, ?_⟩
  · intro ω i
    simp only [numberSource]
    congr 1
    funext j
    rw [dif_pos ⟨j.2, by omega⟩]
    have : (⟨seed + i - seed, by omega⟩ : Fin k) = i := Fin.ext (by simp)
    rw [this]
  · exact fun j => (hmU j).comp measurable_fst
  · intro j
    have h1 : (μ.prod ν).map (fun ω i => clamp (ω.1 j i)) = μ.map fun u i => clamp (u j i) := by
      conv_rhs => rw [← hfst.map_eq, Measure.map_map (hmU j) measurable_fst]
      rfl
    have h2 : (μ.map fun u i => clamp (u j i)) = ((μ.map fun u => u j).map fun u i => clamp (u i)) := by
      rw [Measure.map_map hcl (measurable_pi_apply j)]; rfl
    rw [h1, h2, (measurePreserving_eval (fun _ : Fin n => Measure.pi fun _ : Fin k => volume.restrict (Set.Ico (0:ℝ) 1)) j).map_eq,
      Measure.pi_map_pi fun _ => clamp_measurable.aemeasurable]
    simp only [clamp_map]
  · exact iIndepFun_of_measurePreserving hfst hmU
      (iIndepFun_pi (X := fun (_ : Fin n) (u : Fin k → ℝ) i => clamp (u i)) fun _ => hcl.aemeasurable)
  · intro r
    refine ⟨(measurable_pi_apply r).comp measurable_snd, ?_⟩
    have h1 := ((sampleNumbers_exist R N).each r).law
    have h2 : (μ.prod ν).map (fun ω => ((ω.2 r).1, (ω.2 r).2)) = ν.map fun ω => ((ω r).1, (ω r).2) := by
      conv_rhs => rw [← hsnd.map_eq, Measure.map_map (measurable_pi_apply r) measurable_snd]
      rfl
    rw [h2]
    exact h1
  · exact iIndepFun_of_measurePreserving hsnd (fun r => measurable_pi_apply r) (sampleNumbers_exist R N).independent
  · exact indepFun_prod (measurable_pi_lambda _ hmU) measurable_id

/-! ### Characteristics and histories -/

/-- The characteristics of the model and a state of the first period. -/
def initialCheck (p : Processed) : Bool :=
  decide (p.sampledVariables.map (fun v => (v.name, v.levels)) = [("iq".toList, [0, 1]), ("exp_b".toList, [0]),
    ("lagged_choice_1".toList, [0, 1]), ("type".toList, [0, 1])]) &&
  decide (p.stateColumns = ["exp_b".toList, "lagged_choice_1".toList, "iq".toList, "type".toList]) &&
  decide (p.observables.length = 1) &&
  (createCore (p.buildSpec textEval).core).any fun core => decide (⟨0, [0], [some 1]⟩ ∈ core)

theorem initialUser_check : (processModel unitEnv exampleUser).any initialCheck = true := by decide +kernel

/-- The first individual, about which nothing is known, has no experience, the second choice as lagged choice and a high
ability with a positive probability `P`. If the smoothing parameter is small, the probability that it starts like this and
never works is close to the one of the likelihood, in which types have the probabilities `ps`. All hypotheses of the
theorems hold. -/
example : ∃ (p : Processed) (sp : SimSpace ℝ), processModel unitEnv exampleUser = some p ∧ p.nTypes = 2 ∧
    ∃ (Ω : Type) (_ : MeasurableSpace Ω) (Q : Measure Ω) (_ : IsProbabilityMeasure Q) (rs : Ω → RandomSource ℝ Nat)
      (Z Y : Fin (p.nPeriods * (exampleSimulate 4 2).input.length) → Ω → Fin p.choices.choices.length → ℝ),
    ∃ tau₀ > (0 : ℝ), ∀ tau, 0 < tau → tau < tau₀ → ∃ (P : ℝ) (ps : List ℝ) (l : Nat → Nat → ℝ), 0 < P ∧
      IsDistribution [0, 1] ps ∧ (∀ v < 2, ∀ t < 3, 0 < l v t) ∧
      Q.real {ω | ∃ out g', ((p.simulation textEval exampleSolveEnv (exampleSimulate 4 2) (some sp)).withRandom (rs ω)
        (fun r => Z r ω) (fun r => Y r ω)).run () 0 = (some out, g') ∧
          ∃ v < 2, StartsIn out 0 ⟨0, [0], [some 1]⟩ [1, v]} = P ∧
      |Q.real {ω | ∃ out g', ((p.simulation textEval exampleSolveEnv (exampleSimulate 4 2) (some sp)).withRandom (rs ω)
          (fun r => Z r ω) (fun r => Y r ω)).run () 0 = (some out, g') ∧
            (∃ v < 2, StartsIn out 0 ⟨0, [0], [some 1]⟩ [1, v]) ∧ HasHistory out 0 p.nPeriods (fun _ => 1) fun _ => none} -
          P * (([0, 1].zip ps).map fun y => y.2 * ∏ t ∈ Finset.range p.nPeriods, l y.1 t).sum| ≤
        P * ((([0, 1].zip ps).map fun y => y.2 * ∑ t ∈ Finset.range p.nPeriods, overAvailable
          ((p.buildSpec textEval).choiceSetAt (some (2 + y.1)) (coreAlong ⟨0, [0], [some 1]⟩ (fun _ => 1) t)) (fun c =>
            if c < p.choices.wWage.length then shockCov p.cholesky ((p.buildSpec textEval).choiceSetAt (some (2 + y.1))
              (coreAlong ⟨0, [0], [some 1]⟩ (fun _ => 1) t)) c c / 10 ^ 2 else 0)).sum + 1 / 100) := by
  obtain ⟨p, hp, hcheck⟩ := (Option.any_eq_true _ _).1 ownUser_check
  obtain ⟨p', hp', hinit⟩ := (Option.any_eq_true _ _).1 initialUser_check
  obtain rfl : p = p' := Option.some.inj (hp.symm.trans hp')
  unfold ownCheck at hcheck
  simp only [Bool.and_eq_true] at hcheck
  obtain ⟨⟨⟨⟨⟨⟨⟨⟨⟨⟨⟨⟨⟨⟨⟨⟨g1, g2⟩, g3⟩, g4⟩, g5⟩, g6⟩, g7⟩, g8⟩, g9⟩, g10⟩, g11⟩, g12⟩, g13⟩, g14⟩, g15⟩, g17⟩,
    g16⟩ := hcheck
  unfold initialCheck at hinit
  simp only [Bool.and_eq_true] at hinit
  obtain ⟨⟨⟨i1, i2⟩, i3⟩, i4⟩ := hinit
  have i1 := of_decide_eq_true i1
  have i2 := of_decide_eq_true i2
  have i3 := of_decide_eq_true i3
  obtain ⟨core, a1, a2, a3, a4, a5⟩ := example_hypotheses _ p g1
  rw [a1] at i4
  have hmem0 : (⟨0, [0], [some 1]⟩ : CoreState) ∈ core := of_decide_eq_true i4
  unfold exampleCheck at g1
  simp only [Bool.and_eq_true, decide_eq_true_eq] at g1
  obtain ⟨⟨⟨⟨⟨⟨_, b2⟩, b3⟩, b4⟩, b5⟩, b6⟩, _⟩ := g1
  have hexo : p.exogenous = [] := List.length_eq_zero_iff.1 (of_decide_eq_true g2)
  have hn2 : p.nTypes = 2 := of_decide_eq_true g17
  have hdiag : ∀ a < p.choices.choices.length, entry p.cholesky a a ≠ 0 := fun a ha =>
    own_cholesky hp (by decide +kernel) (exampleShocks _ (by decide +kernel)) (by decide +kernel) b2 a (by rwa [b2] at ha)
  have hlen : ∀ d s, ((p.buildSpec textEval).choiceSetAt d s).length = 2 := fun d s => by
    rw [choiceSetAt_length, b2]; rfl
  have hf : p.FormulasSound textEval :=
    ⟨fun c d hcd => textEval_accurate d (List.all_eq_true.1 g6 _ hcd), of_decide_eq_true g7, of_decide_eq_true g8⟩
  have hsam := samplable_of_check _ p hp g3 (exampleSimulate 4 2).input
  obtain ⟨covs, hproc⟩ := processModel_from unitEnv exampleUser p hp
  obtain ⟨bt, sp, V, _, _, _, h4⟩ := C112_accepted_models_partial (G := Nat) hp textEval_contract a2 a1 hexo
    unitEnv_contracts.1 unitEnv_contracts.2 (by decide +kernel) (exampleShocks _ (by decide +kernel)) (by decide +kernel) hf
    (of_decide_eq_true g9) hn2.ge exampleSolveEnv a3 a4 a5 hdiag (recordsBest_of_two fun d _ s _ => hlen d s)
    _ firstRandom_contract (fun x => x) (fun _ _ => []) 10 0 (fun bt => initialValues bt.space)
    (fun _ => SameShape.refl _) id id (fun _ _ => Iff.rfl) (fun _ _ => Iff.rfl) (x := 10) (by norm_num)
    (by unfold exampleSolveEnv; norm_num) (by unfold exampleSolveEnv; norm_num) (ε := 1 / 100) (by norm_num)
  obtain ⟨Ω, mΩ, Q, hQ, rs, U, Z, Y, hrs, hnum⟩ := allNumbers_exist (exampleSimulate 4 2).seed
    (exampleSimulate 4 2).input.length (p.otherLaws textEval ++ [p.typeLaw textEval]).length
    (p.nPeriods * (exampleSimulate 4 2).input.length) p.choices.choices.length
  obtain ⟨tau₀, h0, h5⟩ := h4 (exampleSimulate 4 2) hsam (exampleSimulate_fits p 4 2 b6 (by rw [b2]; rfl) g4) 0 Q hrs hnum
  refine ⟨p, sp, hp, hn2, Ω, mΩ, Q, hQ, rs, Z, Y, tau₀, h0, fun tau ht hlt => ?_⟩
  have hgrid : (p.buildSpec textEval).grid = some [[0, 0], [0, 1], [1, 0], [1, 1]] := of_decide_eq_true g12
  have hd : ∀ v < p.nTypes, (p.buildSpec textEval).HasIndex ([1] ++ [v]) (some (2 + v)) ∧
      some (2 + v) ∈ (p.buildSpec textEval).denseIndices := by
    intro v hv
    rw [hn2] at hv
    unfold BuildSpec.HasIndex BuildSpec.denseIndices
    rw [hgrid]
    interval_cases v <;> simp
  have wf := C82_processed_models_well_formed hp textEval_contract a2 a1
  have hadm : ∀ d ∈ (p.buildSpec textEval).denseIndices, ∀ s ∈ core, (p.buildSpec textEval).Admissible d s 1 :=
    fun d hd s hmem => (C82_choice_sets_by_name hp textEval_contract a2.toDescribed a1 d hd s hmem 1 "a".toList
      (by rw [b2]; rfl)).2 (allowed_of_unrestricted exampleUser p _ d s _ b4 (by rw [b3]; decide))
  have hmem : ∀ t < p.nPeriods, coreAlong ⟨0, [0], [some 1]⟩ (fun _ => 1) t ∈ core := by
    intro t
    induction t with
    | zero => exact fun _ => hmem0
    | succ t ih =>
      intro ht
      have h1 := ih (by omega)
      refine wf.closed _ h1 ?_ _ (hd 0 (by omega)).2 1 (hadm _ (hd 0 (by omega)).2 _ h1)
      rw [coreAlong_period]
      show 0 + t + 1 < p.nPeriods
      omega
  have hl : ∀ v t, ∃ l : ℝ, v < p.nTypes → t < p.nPeriods → 0 < l ∧
      IsObservedProbability (p.rewardParams exampleSolveEnv) tau
      ((p.buildSpec textEval).choiceSetAt (some (2 + v)) (coreAlong ⟨0, [0], [some 1]⟩ (fun _ => 1) t))
      ((p.solveInput textEval exampleSolveEnv).wageOf (some (2 + v)) (coreAlong ⟨0, [0], [some 1]⟩ (fun _ => 1) t))
      ((p.solveInput textEval exampleSolveEnv).nonpecOf (some (2 + v)) (coreAlong ⟨0, [0], [some 1]⟩ (fun _ => 1) t))
      (expectedNext (p.buildSpec textEval) V (some (2 + v)) (coreAlong ⟨0, [0], [some 1]⟩ (fun _ => 1) t)) 1 none l := by
    intro v t
    by_cases htt : v < p.nTypes ∧ t < p.nPeriods
    · obtain ⟨hv, htt⟩ := htt
      have hd1 := hadm _ (hd v hv).2 _ (hmem t htt)
      obtain ⟨prob, h7, _⟩ := C107_distribution_of_choices_and_wages (p.rewardParams exampleSolveEnv).hi tau
        (p.rewardParams exampleSolveEnv).betaDelta (p.rewardParams exampleSolveEnv).nWagesRaw
        (p.rewardParams exampleSolveEnv).cholesky
        ((p.buildSpec textEval).choiceSetAt (some (2 + v)) (coreAlong ⟨0, [0], [some 1]⟩ (fun _ => 1) t))
        (fun b => (p.rewardParams exampleSolveEnv).measError.getD b 0)
        ((p.solveInput textEval exampleSolveEnv).wageOf (some (2 + v)) (coreAlong ⟨0, [0], [some 1]⟩ (fun _ => 1) t))
        ((p.solveInput textEval exampleSolveEnv).nonpecOf (some (2 + v)) (coreAlong ⟨0, [0], [some 1]⟩ (fun _ => 1) t))
        (expectedNext (p.buildSpec textEval) V (some (2 + v)) (coreAlong ⟨0, [0], [some 1]⟩ (fun _ => 1) t))
        (List.mem_of_getElem? hd1)
        (fun a _ hav => uncertainWages_of_diagonal (b := p.buildSpec textEval) (core := core)
          (p := p.rewardParams exampleSolveEnv) (fun d _ s _ a ha => hdiag a (by
            have := (List.getElem?_eq_some_iff.1 ha).1
            rwa [choiceSetAt_length] at this)) _ (hd v hv).2 _ (hmem t htt) a ‹_› hav)
      obtain ⟨h8, h9, _⟩ := h7 1 hd1 none (fun h => by cases h)
      exact ⟨prob 1 none, fun _ _ => ⟨h9, (h8 _).2 rfl⟩⟩
    · exact ⟨0, fun h h' => absurd ⟨h, h'⟩ htt⟩
  choose l hl using hl
  have hcol := (typeLaw_column (ev := textEval) hn2.ge hexo hsam.names).1
  have hcol3 : (p.typeLaw textEval).column = 3 := by
    show p.stateColumns.idxOf "type".toList = 3
    rw [i2]; decide +kernel
  have hP : 0 < initialProbability 0 (rowOfState ⟨0, [0], [some 1]⟩ [1] ++ [none]) (p.otherLaws textEval)
      (List.replicate 4 none) := by
    have hcols : ∀ k ∈ p.otherLaws textEval, (k.column = 2 ∧ k.levels = [0, 1]) ∨ (k.column = 0 ∧ k.levels = [0]) ∨
        (k.column = 1 ∧ k.levels = [0, 1]) := by
      intro k hk
      obtain ⟨v, hv, rfl⟩ := List.mem_map.1 hk
      have h1 : (v.name, v.levels) ∈ p.sampledVariables.dropLast.map fun v => (v.name, v.levels) :=
        List.mem_map.2 ⟨v, hv, rfl⟩
      rw [List.map_dropLast, i1] at h1
      show (p.stateColumns.idxOf v.name = 2 ∧ v.levels = [0, 1]) ∨ (p.stateColumns.idxOf v.name = 0 ∧ v.levels = [0]) ∨
        (p.stateColumns.idxOf v.name = 1 ∧ v.levels = [0, 1])
      rw [i2]
      generalize v.name = name at h1 ⊢
      generalize v.levels = levels at h1 ⊢
      simp only [List.dropLast, List.mem_cons, Prod.mk.injEq, List.not_mem_nil, or_false] at h1
      rcases h1 with ⟨rfl, rfl⟩ | ⟨rfl, rfl⟩ | ⟨rfl, rfl⟩
      · exact Or.inl ⟨by decide +kernel, rfl⟩
      · exact Or.inr (Or.inl ⟨by decide +kernel, rfl⟩)
      · exact Or.inr (Or.inr ⟨by decide +kernel, rfl⟩)
    have hex : ∀ name ∈ ["iq".toList, "exp_b".toList, "lagged_choice_1".toList], ∃ k ∈ p.otherLaws textEval,
        k.column = p.stateColumns.idxOf name := by
      intro name hname
      have h1 : name ∈ p.sampledVariables.dropLast.map fun v => v.name := by
        have : (p.sampledVariables.dropLast.map fun v => v.name) =
            ((p.sampledVariables.map fun v => (v.name, v.levels)).dropLast).map Prod.fst := by
          rw [← List.map_dropLast, List.map_map]; rfl
        rw [this, i1]
        exact hname
      obtain ⟨v, hv, rfl⟩ := List.mem_map.1 h1
      exact ⟨_, List.mem_map.2 ⟨v, hv, rfl⟩, rfl⟩
    rw [i2] at hex
    refine C111_possible_characteristics (fun k hk => ?_) fun i => ?_
    · obtain ⟨v, hv, rfl⟩ := List.mem_map.1 hk
      exact initialLaw_pos hproc a2.choice hsam v (List.mem_of_mem_dropLast hv) 0
    · rcases i with _ | _ | _ | _ | i
      · refine Or.inr ⟨rfl, ?_, fun k hk hki => ⟨0, ?_, rfl⟩⟩
        · obtain ⟨k, hk, hk'⟩ := hex "exp_b".toList (by decide +kernel)
          exact ⟨k, hk, hk'.trans (by decide +kernel)⟩
        · rcases hcols k hk with ⟨h1, h2⟩ | ⟨h1, h2⟩ | ⟨h1, h2⟩ <;> simp [h2]
      · refine Or.inr ⟨rfl, ?_, fun k hk hki => ⟨1, ?_, rfl⟩⟩
        · obtain ⟨k, hk, hk'⟩ := hex "lagged_choice_1".toList (by decide +kernel)
          exact ⟨k, hk, hk'.trans (by decide +kernel)⟩
        · rcases hcols k hk with ⟨h1, h2⟩ | ⟨h1, h2⟩ | ⟨h1, h2⟩
          · simp [h2]
          · omega
          · simp [h2]
      · refine Or.inr ⟨rfl, ?_, fun k hk hki => ⟨1, ?_, rfl⟩⟩
        · obtain ⟨k, hk, hk'⟩ := hex "iq".toList (by decide +kernel)
          exact ⟨k, hk, hk'.trans (by decide +kernel)⟩
        · rcases hcols k hk with ⟨h1, h2⟩ | ⟨h1, h2⟩ | ⟨h1, h2⟩
          · simp [h2]
          · omega
          · simp [h2]
      · refine Or.inl ⟨rfl, fun _ k hk h => ?_⟩
        rcases hcols k hk with ⟨h1, _⟩ | ⟨h1, _⟩ | ⟨h1, _⟩ <;> omega
      · exact Or.inl ⟨rfl, fun h => by simp at h⟩
  obtain ⟨ps, h6, h7, h8, h9⟩ := h5 ⟨0, by decide⟩ (by rw [hcol3]; rfl) _ hmem0 rfl [1] (by rw [i3]; rfl)
    (fun v => some (2 + v)) hd tau ht hlt (fun _ => 1) (fun _ => none) l
    fun v hv t ht => ⟨hadm _ (hd v hv).2 _ (hmem t ht), (fun _ hB => nomatch hB), (hl v t hv ht).2⟩
  rw [hn2] at h7 h8 h9
  exact ⟨_, ps, l, hP, h7 hP.ne', fun v hv t ht => (hl v t (by omega) (by omega)).1, h8, h9⟩

end

end Respy
