import Verif.Props.HistoriesAccepted
import Verif.Props.OwnSamplesExample

/-!
# C110 Examples

Histories of a model with two types, an observable, a lagged choice and a restriction.
-/

open MeasureTheory ProbabilityTheory

namespace Respy

noncomputable section

/-- Random numbers of a sample exist. -/
theorem sampleNumbers_exist (R N : Nat) :
    SampleNumbers (Measure.pi fun _ : Fin R => (normals N).prod (normals N)) (fun r ω => (ω r).1) (fun r ω => (ω r).2) where
  each := fun r =>
    { measurable := measurable_pi_apply r
      law := (measurePreserving_eval (fun _ : Fin R => (normals N).prod (normals N)) r).map_eq }
  independent := iIndepFun_pi (X := fun _ => id) (fun _ => aemeasurable_id)

/-- With two alternatives, the best ones are recorded. -/
theorem recordsBest_of_two {b : BuildSpec} {core : List CoreState}
    (hlen : ∀ d ∈ b.denseIndices, ∀ s ∈ core, (b.choiceSetAt d s).length = 2) : b.RecordsBest core := by
  intro d hd s hs a ha
  have hl := hlen d hd s hs
  unfold BuildSpec.Admissible at ha ⊢
  obtain ⟨x, y, hxy⟩ := List.length_eq_two.1 hl
  rw [hxy] at ha ⊢
  rcases a with _ | _ | a
  · exact Or.inl fun a' h => absurd h (Nat.not_lt_zero _)
  · rcases x with _ | _
    · right; cases y <;> decide
    · left
      intro a' h
      have : a' = 0 := by omega
      subst this
      rfl
  · simp at ha

/-- If the smoothing parameter is small, the probability that the first individual never works and the probability
according to the likelihood, which is positive, are close to each other. All hypotheses of the theorems hold. -/
example : ∃ (p : Processed) (sp : SimSpace ℝ) (core : List CoreState), processModel unitEnv exampleUser = some p ∧
    2 ≤ p.nTypes ∧ p.nPeriods = 3 ∧ ∃ tau₀ > (0 : ℝ), ∀ tau, 0 < tau → tau < tau₀ → ∃ s ∈ core, ∃ d ∈
      (p.buildSpec textEval).denseIndices, ∃ l : Nat → ℝ, (∀ t < 3, 0 < l t) ∧
    |(Measure.pi fun _ : Fin (p.nPeriods * (exampleSimulate 4 2).input.length) => (normals p.choices.choices.length).prod
        (normals p.choices.choices.length)).real {ω | ∃ out g',
          ((p.simulation textEval exampleSolveEnv (exampleSimulate 4 2) (some sp)).withNumbers (fun r => (ω r).1)
            (fun r => (ω r).2)).run () 0 = (some out, g') ∧ HasHistory out 0 p.nPeriods (fun _ => 1) (fun _ => none)} -
        ∏ t ∈ Finset.range p.nPeriods, l t| ≤
      ∑ t ∈ Finset.range p.nPeriods, overAvailable ((p.buildSpec textEval).choiceSetAt d (coreAlong s (fun _ => 1) t))
        (fun c => if c < p.choices.wWage.length then shockCov p.cholesky ((p.buildSpec textEval).choiceSetAt d
          (coreAlong s (fun _ => 1) t)) c c / 10 ^ 2 else 0) + 1 / 100 := by
  obtain ⟨p, hp, hcheck⟩ := (Option.any_eq_true _ _).1 ownUser_check
  unfold ownCheck at hcheck
  simp only [Bool.and_eq_true] at hcheck
  obtain ⟨⟨⟨⟨⟨⟨⟨⟨⟨⟨⟨⟨⟨⟨⟨⟨g1, g2⟩, g3⟩, g4⟩, g5⟩, g6⟩, g7⟩, g8⟩, g9⟩, g10⟩, g11⟩, g12⟩, g13⟩, g14⟩, g15⟩, g17⟩,
    g16⟩ := hcheck
  obtain ⟨core, a1, a2, a3, a4, a5⟩ := example_hypotheses _ p g1
  unfold exampleCheck at g1
  simp only [Bool.and_eq_true, decide_eq_true_eq] at g1
  obtain ⟨⟨⟨⟨⟨⟨_, b2⟩, b3⟩, b4⟩, b5⟩, b6⟩, _⟩ := g1
  have hdiag : ∀ a < p.choices.choices.length, entry p.cholesky a a ≠ 0 := fun a ha =>
    own_cholesky hp (by decide +kernel) (exampleShocks _ (by decide +kernel)) (by decide +kernel) b2 a (by rwa [b2] at ha)
  have hlen : ∀ d s, ((p.buildSpec textEval).choiceSetAt d s).length = 2 := fun d s => by
    rw [choiceSetAt_length, b2]; rfl
  obtain ⟨bt, sp, V, _, _, _, h4⟩ := C110_histories_of_accepted_models_partial (G := Nat) hp textEval_contract a2 a1
    (List.length_eq_zero_iff.1 (of_decide_eq_true g2)) unitEnv_contracts.1 unitEnv_contracts.2 (by decide +kernel)
    (exampleShocks _ (by decide +kernel)) exampleSolveEnv a3 a4 a5 hdiag (recordsBest_of_two fun d _ s _ => hlen d s)
    _ firstRandom_contract (fun x => x) (fun _ _ => []) 10 0 (fun bt => initialValues bt.space)
    (fun _ => SameShape.refl _) id id (fun _ _ => Iff.rfl) (fun _ _ => Iff.rfl) (x := 10) (by norm_num)
    (by unfold exampleSolveEnv; norm_num) (by unfold exampleSolveEnv; norm_num) (ε := 1 / 100) (by norm_num)
  obtain ⟨tau₀, h0, h5⟩ := h4 (exampleSimulate 4 2) (samplable_of_check _ p hp g3 _)
    (exampleSimulate_fits p 4 2 b6 (by rw [b2]; rfl) g4) 0 _ (sampleNumbers_exist _ _)
  refine ⟨p, sp, core, hp, (of_decide_eq_true g17).ge, b6, tau₀, h0, fun tau ht hlt => ?_⟩
  obtain ⟨s, hs, hs0, d, hd, _, h6⟩ := h5 0 (by decide)
  have wf := C82_processed_models_well_formed hp textEval_contract a2 a1
  have hadm : ∀ s ∈ core, (p.buildSpec textEval).Admissible d s 1 := fun s hmem =>
    (C82_choice_sets_by_name hp textEval_contract a2.toDescribed a1 d hd s hmem 1 "a".toList (by rw [b2]; rfl)).2
      (allowed_of_unrestricted exampleUser p _ d s _ b4 (by rw [b3]; decide))
  have hmem : ∀ t < p.nPeriods, coreAlong s (fun _ => 1) t ∈ core := by
    intro t
    induction t with
    | zero => exact fun _ => hs
    | succ t ih =>
      intro ht
      have h1 := ih (by omega)
      refine wf.closed _ h1 ?_ d hd 1 (hadm _ h1)
      rw [coreAlong_period, hs0]
      show 0 + t + 1 < p.nPeriods
      omega
  have hl : ∀ t, ∃ l : ℝ, t < p.nPeriods → 0 < l ∧ IsObservedProbability (p.rewardParams exampleSolveEnv) tau
      ((p.buildSpec textEval).choiceSetAt d (coreAlong s (fun _ => 1) t))
      ((p.solveInput textEval exampleSolveEnv).wageOf d (coreAlong s (fun _ => 1) t))
      ((p.solveInput textEval exampleSolveEnv).nonpecOf d (coreAlong s (fun _ => 1) t))
      (expectedNext (p.buildSpec textEval) V d (coreAlong s (fun _ => 1) t)) 1 none l := by
    intro t
    by_cases htt : t < p.nPeriods
    · have hd1 := hadm _ (hmem t htt)
      obtain ⟨prob, h7, _⟩ := C107_distribution_of_choices_and_wages (p.rewardParams exampleSolveEnv).hi tau
        (p.rewardParams exampleSolveEnv).betaDelta (p.rewardParams exampleSolveEnv).nWagesRaw
        (p.rewardParams exampleSolveEnv).cholesky ((p.buildSpec textEval).choiceSetAt d (coreAlong s (fun _ => 1) t))
        (fun b => (p.rewardParams exampleSolveEnv).measError.getD b 0)
        ((p.solveInput textEval exampleSolveEnv).wageOf d (coreAlong s (fun _ => 1) t))
        ((p.solveInput textEval exampleSolveEnv).nonpecOf d (coreAlong s (fun _ => 1) t))
        (expectedNext (p.buildSpec textEval) V d (coreAlong s (fun _ => 1) t)) (List.mem_of_getElem? hd1)
        (fun a _ hav => uncertainWages_of_diagonal (b := p.buildSpec textEval) (core := core)
          (p := p.rewardParams exampleSolveEnv) (fun d _ s _ a ha => hdiag a (by
            have := (List.getElem?_eq_some_iff.1 ha).1
            rwa [choiceSetAt_length] at this)) d hd _ (hmem t htt) a ‹_› hav)
      obtain ⟨h8, h9, _⟩ := h7 1 hd1 none (fun h => by cases h)
      exact ⟨prob 1 none, fun _ => ⟨h9, (h8 _).2 rfl⟩⟩
    · exact ⟨0, fun h => absurd h htt⟩
  choose l hl using hl
  refine ⟨s, hs, d, hd, l, fun t ht => (hl t (by omega)).1, ?_⟩
  exact h6 tau ht hlt (fun _ => 1) (fun _ => none) l fun t ht =>
    ⟨hadm _ (hmem t ht), (fun _ hB => nomatch hB), (hl t ht).2⟩

end

end Respy
