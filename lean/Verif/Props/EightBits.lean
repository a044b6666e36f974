import Verif.Model.EightBits
import Verif.Props.Core

/-!
# C01: periods with eight bits

The code counts periods with eight bits. Up to 256 periods this is the state space of `createCore`. Later periods are
missing.
-/

namespace Respy

theorem mem_arange8 (n t : Nat) : t ∈ arange8 n ↔ t < min n 256 := by
  simp only [arange8, List.mem_map, List.mem_range]
  constructor
  · rintro ⟨a, h, rfl⟩
    have := Nat.mod_lt a (show 0 < 256 by decide)
    have := Nat.mod_le a 256
    omega
  · intro h
    exact ⟨t, by omega, Nat.mod_eq_of_lt (by omega)⟩

theorem arange8_eq (n : Nat) (h : n ≤ 256) : arange8 n = List.range n := by
  unfold arange8
  conv_rhs => rw [← List.map_id (List.range n)]
  exact List.map_congr_left fun a ha => Nat.mod_eq_of_lt (by have := List.mem_range.1 ha; omega)

theorem mem_coreFromExperiences8 (n : Nat) (add : List Nat) (s : CoreState) :
    s ∈ coreFromExperiences8 n add ↔ s ∈ coreFromExperiences (min n 256) add := by
  unfold coreFromExperiences8 coreFromExperiences
  split
  · rfl
  · simp only [List.mem_flatMap, mem_arange8, List.mem_range]

theorem addLaggedChoices_congr (nLags nChoices : Nat) (df df' : List CoreState) (h : ∀ s, s ∈ df ↔ s ∈ df')
    (s : CoreState) : s ∈ addLaggedChoices nLags nChoices df ↔ s ∈ addLaggedChoices nLags nChoices df' := by
  unfold addLaggedChoices
  split
  · exact h s
  · simp only [List.mem_flatMap, List.mem_map, h]

/-- **C01.** With up to 256 periods, counting periods with eight bits changes nothing. -/
theorem C01_eight_bits (spec : CoreSpec) (h : spec.nPeriods ≤ 256) : createCore8 spec = createCore spec := by
  have : ∀ add, coreFromExperiences8 spec.nPeriods add = coreFromExperiences spec.nPeriods add := by
    intro add
    rw [coreFromExperiences8, coreFromExperiences, arange8_eq _ h]
  simp only [createCore8, createCore, this]

/-- **C01.** For any number of periods the core state space with periods of eight bits can be created, has no state twice,
and without filters and with at most one lag it consists exactly of the feasible states of the first 256 periods. -/
theorem C01_eight_bit_core (spec : CoreSpec) (wf : spec.WF) (hl : spec.nLags ≤ 1) (hf : spec.filters = []) :
    ∃ core, createCore8 spec = some core ∧ core.Nodup ∧ ∀ s, s ∈ core ↔ Feasible spec s ∧ s.period < 256 := by
  have wf' : ({ spec with nPeriods := min spec.nPeriods 256 } : CoreSpec).WF :=
    ⟨wf.experience, wf.len, wf.nonempty, wf.starts_lt, wf.max_lt, wf.choice⟩
  obtain ⟨core', hc', _⟩ := C01_core_nodup_sorted _ wf'
  obtain ⟨mins, _, hadd⟩ := additionalExp_spec spec wf
  have hc : ∃ core, createCore8 spec = some core := ⟨_, by rw [createCore8, hadd, Option.map_some]⟩
  obtain ⟨core, hc⟩ := hc
  refine ⟨core, hc, ?_, fun s => ?_⟩
  · simp only [createCore8, hadd, Option.map_some, Option.some.injEq] at hc
    subst hc
    exact (List.perm_insertionSort _ _).nodup_iff.2 (nodup_eraseDups _)
  · have hmem : s ∈ core ↔ s ∈ core' := by
      rw [mem_createCore { spec with nPeriods := min spec.nPeriods 256 } core' _ hadd hc']
      simp only [createCore8, hadd, Option.map_some, Option.some.injEq] at hc
      subst hc
      rw [(List.perm_insertionSort _ _).mem_iff, mem_addInitialExperiences]
      simp only [mem_filterCore, addLaggedChoices_congr _ _ _ _ (mem_coreFromExperiences8 _ _)]
    rw [hmem, C01_core_eq_feasible _ wf' hl hf core' hc' s]
    unfold Feasible
    constructor
    · rintro ⟨h1, h2⟩
      exact ⟨⟨by simp only at h1; omega, h2⟩, by simp only at h1; omega⟩
    · rintro ⟨⟨h1, h2⟩, h3⟩
      exact ⟨by simp only; omega, h2⟩

/-- A model with 257 periods and one choice with experience, which is limited to two years. -/
def longSpec : CoreSpec where
  nPeriods := 257
  nChoices := 2
  starts := [[0]]
  maxExp := [2]
  nLags := 1
  filters := []

theorem longSpec_wf : longSpec.WF := by
  refine ⟨by simp [longSpec], rfl, ?_, ?_, ?_, ?_⟩ <;> simp [longSpec]

/-- **C01 (negated for more than 256 periods).** The last period of a model with 257 periods has feasible states, but no
state is created for it. -/
theorem C01_many_periods_false :
    ∃ spec : CoreSpec, spec.WF ∧ spec.nLags ≤ 1 ∧ spec.filters = [] ∧
      ∃ core, createCore8 spec = some core ∧ (∃ s, Feasible spec s ∧ s.period = 256 ∧ s ∉ core) ∧
        ∀ s ∈ core, s.period ≠ 256 := by
  obtain ⟨core, hc, _, hmem⟩ := C01_eight_bit_core longSpec longSpec_wf (by decide) rfl
  have hno : ∀ s ∈ core, s.period ≠ 256 := fun s hs h => by
    have := ((hmem s).1 hs).2
    omega
  refine ⟨longSpec, longSpec_wf, by decide, rfl, core, hc, ⟨⟨256, [1], [some 0]⟩, ?_, rfl, fun hs => hno _ hs rfl⟩, hno⟩
  exact ⟨by decide, ⟨[0], [1], .cons (by simp) .nil, rfl, rfl, by simp⟩, .cons (by decide) .nil, rfl,
    by simp [longSpec]⟩

/-- A model with two periods whose choice with experience is limited to 256 years. -/
def largeMaximum : CoreSpec where
  nPeriods := 2
  nChoices := 2
  starts := [[0]]
  maxExp := [256]
  nLags := 0
  filters := []

/-- **C01 (negated for a maximum of experience above 255).** The maximum wraps around, so that feasible states are
missing. -/
theorem C01_large_maximum_false :
    ∃ (spec : CoreSpec) (core : List CoreState) (s : CoreState), spec.nLags ≤ 1 ∧ spec.filters = [] ∧
      createCore8 spec = some core ∧ Feasible spec s ∧ s ∉ core := by
  refine ⟨largeMaximum, [⟨0, [0], []⟩, ⟨1, [0], []⟩], ⟨1, [1], []⟩, by decide, rfl, by decide +kernel, ?_, by decide⟩
  exact ⟨by decide, ⟨[0], [1], .cons (by simp) .nil, rfl, rfl, by simp⟩, .cons (by decide) .nil, rfl, by simp⟩

/-- The hypotheses of `C01_eight_bits` and of `C01_eight_bit_core` hold for the example model of C01. -/
example : exampleSpec.nPeriods ≤ 256 ∧ exampleSpec.WF ∧ exampleSpec.nLags ≤ 1 ∧ exampleSpec.filters = [] :=
  ⟨by decide, exampleSpec_wf, by decide, rfl⟩

end Respy
