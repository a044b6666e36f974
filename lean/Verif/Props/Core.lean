import Verif.Lemmas.CoreStateSpace2
import Verif.Lemmas.LawOfMotion
import Verif.Model.DefaultRestriction
import Verif.Spec.Core

/-!
# Properties of the core state space: C01, C02, C04, C05, C10, C58
-/

namespace Respy

/-- Example model used below: three periods, two choices with experience (the first one can start at
0 or 2 years and is limited to 3), one choice without experience, one lag. -/
def exampleSpec : CoreSpec where
  nPeriods := 3
  nChoices := 3
  starts := [[0, 2], [0]]
  maxExp := [3, 2]
  nLags := 1
  filters := []

theorem exampleSpec_wf : exampleSpec.WF := by
  refine ⟨by simp [exampleSpec], rfl, ?_, ?_, ?_, ?_⟩ <;> simp [exampleSpec]

/-- **C05 (what the code does).** With at most one lag, the core state space consists exactly of the
states which are feasible and for which the *state without its starting values* passes all
filters. -/
theorem C05_core_mem_iff (spec : CoreSpec) (wf : spec.WF) (hl : spec.nLags ≤ 1)
    (core : List CoreState) (hc : createCore spec = some core) (s : CoreState) :
    s ∈ core ↔
      s.period < spec.nPeriods ∧
      (∃ init extra : List Nat, List.Forall₂ (· ∈ ·) init spec.starts ∧
        extra.length = spec.starts.length ∧ s.exp = List.zipWith (· + ·) init extra ∧
        extra.sum ≤ s.period ∧ ∀ f ∈ spec.filters, f { s with exp := extra } = false) ∧
      List.Forall₂ (· ≤ ·) s.exp spec.maxExp ∧
      s.lags.length = spec.nLags ∧ ∀ l ∈ s.lags, ∃ c, c < spec.nChoices ∧ l = some c := by
  obtain ⟨mins, hmins, hadd⟩ := additionalExp_spec spec wf
  have hne' := additionalExp_ne_nil spec wf _ hadd
  rw [mem_createCore spec core _ hadd hc]
  have hlen : spec.maxExp.length = mins.length := by rw [← wf.len]; exact hmins.length_eq.symm
  have hlags : ∀ b : CoreState, ∀ add, add ≠ [] → (
      b ∈ addLaggedChoices spec.nLags spec.nChoices (coreFromExperiences spec.nPeriods add) ↔
        b.period < spec.nPeriods ∧ List.Forall₂ (· ≤ ·) b.exp add ∧ b.exp.sum ≤ b.period ∧
          b.lags.length = spec.nLags ∧ ∀ l ∈ b.lags, ∃ c, c < spec.nChoices ∧ l = some c) := by
    intro b add hne
    have h01 : spec.nLags = 0 ∨ spec.nLags = 1 := by omega
    rcases h01 with h0 | h1
    · rw [h0, mem_addLaggedChoices_zero, mem_coreFromExperiences _ _ hne]
      simp only [List.length_eq_zero_iff]
      constructor
      · rintro ⟨a, b, c, d⟩; exact ⟨a, b, c, d, by simp [d]⟩
      · rintro ⟨a, b, c, d, _⟩; exact ⟨a, b, c, d⟩
    · rw [h1, mem_addLaggedChoices 1 _ (by omega) wf.choice]
      constructor
      · rintro ⟨lag, hlag, code, hcode, b', hb', rfl⟩
        rw [mem_coreFromExperiences _ _ hne] at hb'
        obtain ⟨h1, h2, h3, _⟩ := hb'
        have : lag = 0 := by omega
        subst this
        exact ⟨h1, h2, h3, rfl, by simp [hcode]⟩
      · rintro ⟨h1, h2, h3, h4, h5⟩
        match hb : b.lags, h4 with
        | [l], _ =>
          obtain ⟨c, hc, rfl⟩ := h5 l (by simp [hb])
          refine ⟨0, by omega, c, hc, { b with lags := [] }, ?_, ?_⟩
          · rw [mem_coreFromExperiences _ _ hne]; exact ⟨h1, h2, h3, rfl⟩
          · cases b; simp_all
  constructor
  · rintro ⟨init, hinit, b, ⟨hb, hf⟩, rfl, hw⟩
    obtain ⟨h1, h2, h3, h4, h5⟩ := (hlags b _ hne').1 hb
    have hbl : b.exp.length = spec.starts.length := by
      rw [h2.length_eq]; simp [hlen, hmins.length_eq]
    have hel : (addInitial init b).exp.length = spec.maxExp.length := by
      simp [addInitial, hinit.length_eq, hbl, wf.len]
    refine ⟨h1, ⟨init, b.exp, hinit, hbl, ?_, h3, ?_⟩, ?_, h4, h5⟩
    · exact zipWith_add_comm _ _
    · intro f hf'; exact hf f hf'
    · exact (withinMax_iff _ _ hel).1 hw
  · rintro ⟨h1, ⟨init, extra, hinit, hel, hexp, hsum, hf⟩, hle, h4, h5⟩
    refine ⟨init, hinit, { s with exp := extra }, ⟨(hlags _ _ hne').2 ⟨h1, ?_, hsum, h4, h5⟩, hf⟩, ?_, ?_⟩
    · rw [hexp] at hle
      exact extra_le_additional _ _ _ _ _ hmins wf.max_lt hinit hel hle
    · cases s
      simp only [addInitial, CoreState.mk.injEq, true_and, and_true]
      simp only at hexp
      rw [hexp, zipWith_add_comm]
    · exact (withinMax_iff _ _ hle.length_eq).2 hle

/-- **C01.** Without filters and with at most one lag, the core state space is exactly the set of
feasible states. -/
theorem C01_core_eq_feasible (spec : CoreSpec) (wf : spec.WF) (hl : spec.nLags ≤ 1)
    (hf : spec.filters = []) (core : List CoreState) (hc : createCore spec = some core)
    (s : CoreState) : s ∈ core ↔ Feasible spec s := by
  rw [C05_core_mem_iff spec wf hl core hc]
  simp [hf, Feasible]

/-- **C01.** Building the core state space succeeds, no state is listed twice, and the states are
ordered by period. -/
theorem C01_core_nodup_sorted (spec : CoreSpec) (wf : spec.WF) :
    ∃ core, createCore spec = some core ∧ core.Nodup ∧
      core.Pairwise (fun a b => a.period ≤ b.period) := by
  obtain ⟨mins, _, h⟩ := additionalExp_spec spec wf
  refine ⟨(addInitialExperiences spec.starts spec.maxExp
      (filterCore spec.filters
        (addLaggedChoices spec.nLags spec.nChoices
          (coreFromExperiences spec.nPeriods (List.zipWith uint8Sub spec.maxExp mins))))).insertionSort
      fun a b => a.period ≤ b.period,
    by simp only [createCore, h, Option.map_some], ?_, ?_⟩
  · exact (List.perm_insertionSort _ _).nodup_iff.2 (nodup_eraseDups _)
  · have : Std.Total (fun a b : CoreState => a.period ≤ b.period) := ⟨fun a b => by omega⟩
    have : IsTrans CoreState (fun a b : CoreState => a.period ≤ b.period) :=
      ⟨fun a b c h1 h2 => by omega⟩
    exact List.pairwise_insertionSort _ _

/-- **C01.** Without filters every period has a state, for any number of lags, if some starting level of each choice does
not exceed its maximum. -/
theorem C01_periods_covered (spec : CoreSpec) (wf : spec.WF) (hf : spec.filters = [])
    (hstart : List.Forall₂ (fun l m => ∃ x ∈ l, x ≤ m) spec.starts spec.maxExp) (core : List CoreState)
    (hc : createCore spec = some core) (t : Nat) (ht : t < spec.nPeriods) : ∃ s ∈ core, s.period = t := by
  obtain ⟨init, hinit, hle⟩ : ∃ init : List Nat, List.Forall₂ (· ∈ ·) init spec.starts ∧
      List.Forall₂ (· ≤ ·) init spec.maxExp := by
    clear hf wf hc
    generalize spec.starts = ss at hstart ⊢
    generalize spec.maxExp = ms at hstart ⊢
    induction hstart with
    | nil => exact ⟨[], .nil, .nil⟩
    | cons h _ ih =>
      obtain ⟨x, h1, h2⟩ := h
      obtain ⟨init, h3, h4⟩ := ih
      exact ⟨x :: init, .cons h1 h3, .cons h2 h4⟩
  obtain ⟨mins, hmins, hadd⟩ := additionalExp_spec spec wf
  have hbase : (⟨t, List.replicate spec.starts.length 0, []⟩ : CoreState) ∈
      coreFromExperiences spec.nPeriods (List.zipWith uint8Sub spec.maxExp mins) := by
    rw [mem_coreFromExperiences _ _ (additionalExp_ne_nil spec wf _ hadd)]
    refine ⟨ht, ?_, by simp, rfl⟩
    rw [List.forall₂_iff_get]
    exact ⟨by simp [hmins.length_eq, wf.len], fun i h1 h2 => by simp⟩
  obtain ⟨b, hb, hbt, hbe⟩ : ∃ b ∈ addLaggedChoices spec.nLags spec.nChoices
      (coreFromExperiences spec.nPeriods (List.zipWith uint8Sub spec.maxExp mins)),
      b.period = t ∧ b.exp = List.replicate spec.starts.length 0 := by
    rcases Nat.eq_zero_or_pos spec.nLags with h0 | hpos
    · rw [h0]
      exact ⟨_, (mem_addLaggedChoices_zero _ _ _).2 hbase, rfl, rfl⟩
    · exact ⟨_, (mem_addLaggedChoices _ _ hpos wf.choice _ _).2 ⟨0, hpos, 0, wf.choice, _, hbase, rfl⟩, rfl, rfl⟩
  have hzero : List.zipWith (· + ·) (List.replicate spec.starts.length 0) init = init := by
    rw [← hinit.length_eq]
    clear hinit hle
    induction init with
    | nil => rfl
    | cons x xs ih => simp [List.replicate_succ, ih]
  have hexp : (addInitial init b).exp = init := by
    simp only [addInitial, hbe, hzero]
  refine ⟨addInitial init b, (mem_createCore spec core _ hadd hc _).2 ⟨init, hinit, b, ⟨hb, by rw [hf]; simp⟩, rfl,
    (withinMax_iff _ _ (by rw [hexp]; exact hle.length_eq)).2 (by rw [hexp]; exact hle)⟩, hbt⟩

theorem exampleSpec_lowest : List.Forall₂ (fun l m => ∃ x ∈ l, x ≤ m) exampleSpec.starts exampleSpec.maxExp := by
  simp [exampleSpec]

/-- The hypotheses of C01 are met by the example model; a state with experience from the second
starting level is in the state space, a state with too much experience is not. -/
example : exampleSpec.WF ∧ exampleSpec.nLags ≤ 1 ∧ exampleSpec.filters = [] ∧
    Feasible exampleSpec ⟨2, [3, 1], [some 1]⟩ ∧ ¬ Feasible exampleSpec ⟨1, [2, 2], [some 1]⟩ := by
  refine ⟨exampleSpec_wf, by decide, rfl, ?_, ?_⟩
  · refine ⟨by decide, ⟨[2, 0], [1, 1], ?_, rfl, rfl, by decide⟩, ?_, rfl, ?_⟩
    · simp [exampleSpec]
    · simp [exampleSpec]
    · simp [exampleSpec]
  · rintro ⟨_, ⟨init, extra, hi, he, hx, hs⟩, _⟩
    simp only [exampleSpec] at hi
    match init, hi, extra, he with
    | [a, b], .cons ha (.cons hb .nil), [c, d], _ => simp at *; omega

/-- **C04 (negated).** With two or more lags the property fails for every model with at least one
state: no state of the core state space has values in two lags, so in particular the combinations
of lags are not states (they have missing values). -/
theorem C04_lag_combinations_false (spec : CoreSpec) (wf : spec.WF) (hl : 2 ≤ spec.nLags)
    (core : List CoreState) (hc : createCore spec = some core) :
    ∀ s ∈ core, ∀ i j : Nat, i ≠ j → ∀ c, s.lags[i]? = some (some c) → ∀ d, s.lags[j]? ≠ some (some d) := by
  intro s hs i j hij c hi d hj
  obtain ⟨mins, hmins, hadd⟩ := additionalExp_spec spec wf
  rw [mem_createCore spec core _ hadd hc] at hs
  obtain ⟨init, _, b, ⟨hb, _⟩, rfl, _⟩ := hs
  rw [mem_addLaggedChoices _ _ (by omega) wf.choice] at hb
  obtain ⟨lag, _, code, _, b', _, rfl⟩ := hb
  simp only [addInitial, List.getElem?_set, List.length_replicate] at hi hj
  by_cases h1 : lag = i
  · have h2 : lag ≠ j := by omega
    simp [h2, List.getElem?_replicate] at hj
  · simp [h1, List.getElem?_replicate] at hi

/-- A model with two lags: its feasible states include states with two lags. -/
def exampleTwoLags : CoreSpec := { exampleSpec with nLags := 2 }

/-- **C04 (negated), witness.** In the example model with two lags, the state reached by choosing
1 and then 0 is feasible, but it is not in the state space. -/
theorem C04_witness_false :
    Feasible exampleTwoLags ⟨2, [1, 1], [some 0, some 1]⟩ ∧
      ∀ core, createCore exampleTwoLags = some core → ⟨2, [1, 1], [some 0, some 1]⟩ ∉ core := by
  refine ⟨⟨by decide, ⟨[0, 0], [1, 1], ?_, rfl, rfl, by decide⟩, ?_, rfl, ?_⟩, ?_⟩
  · simp [exampleTwoLags, exampleSpec]
  · simp [exampleTwoLags, exampleSpec]
  · simp [exampleTwoLags, exampleSpec]
  · intro core hc hmem
    exact C04_lag_combinations_false exampleTwoLags
      ⟨exampleSpec_wf.experience, rfl, exampleSpec_wf.nonempty, exampleSpec_wf.starts_lt, exampleSpec_wf.max_lt,
        exampleSpec_wf.choice⟩ (by decide) core hc _ hmem 0 1 (by decide) 0 rfl 1 rfl

/-- **C04 (partial).** With at most one lag and no filters, every feasible experience combination
appears with every list of lagged choices of the right length. Missing: two or more lags. -/
theorem C04_lag_combinations_partial (spec : CoreSpec) (wf : spec.WF) (hl : spec.nLags ≤ 1)
    (hf : spec.filters = []) (core : List CoreState) (hc : createCore spec = some core)
    (s : CoreState) (hs : s ∈ core) (lags : List (Option Nat)) (hlen : lags.length = spec.nLags)
    (hlags : ∀ l ∈ lags, ∃ c, c < spec.nChoices ∧ l = some c) :
    { s with lags := lags } ∈ core := by
  rw [C01_core_eq_feasible spec wf hl hf core hc] at hs ⊢
  exact ⟨hs.1, hs.2.1, hs.2.2.1, hlen, hlags⟩

example : ∃ core, createCore exampleSpec = some core ∧ ⟨1, [0, 1], [some 2]⟩ ∈ core := by
  obtain ⟨core, hc⟩ := createCore_isSome exampleSpec exampleSpec_wf
  refine ⟨core, hc, ?_⟩
  rw [C01_core_eq_feasible exampleSpec exampleSpec_wf (by decide) rfl core hc]
  refine ⟨by decide, ⟨[0, 0], [0, 1], ?_, rfl, rfl, by decide⟩, ?_, rfl, ?_⟩ <;> simp [exampleSpec]

/-- **C05 (partial).** If all experiences start at zero, no state of the state space satisfies a
filter. Missing: other starting values, where the property fails (`C05_filters_false`). -/
theorem C05_filters_partial (spec : CoreSpec) (wf : spec.WF) (hl : spec.nLags ≤ 1)
    (h0 : ∀ l ∈ spec.starts, ∀ x ∈ l, x = 0)
    (core : List CoreState) (hc : createCore spec = some core) :
    ∀ s ∈ core, ∀ f ∈ spec.filters, f s = false := by
  intro s hs f hf
  rw [C05_core_mem_iff spec wf hl core hc] at hs
  obtain ⟨_, ⟨init, extra, hinit, hel, hexp, hsm, hfil⟩, _⟩ := hs
  have : s.exp = extra := by
    rw [hexp]
    clear hexp hfil hsm
    generalize spec.starts = starts at *
    induction hinit generalizing extra with
    | nil => simp_all
    | cons h1 h2 ih =>
      cases extra with
      | nil => simp at hel
      | cons e es =>
        have h00 := h0 _ List.mem_cons_self _ h1
        subst h00
        simp only [List.zipWith_cons_cons, Nat.zero_add, List.cons.injEq, true_and]
        exact ih _ (fun l hl => h0 l (List.mem_cons_of_mem _ hl)) (by simpa using hel)
  have h := hfil f hf
  rw [← this] at h
  exact h

/-- A filter which excludes states with exactly one year of experience, all experience starting at
zero. -/
def exampleFilter : CoreSpec where
  nPeriods := 2
  nChoices := 2
  starts := [[0]]
  maxExp := [1]
  nLags := 0
  filters := [fun s => decide (s.exp = [1])]

example : exampleFilter.WF ∧ (∀ l ∈ exampleFilter.starts, ∀ x ∈ l, x = 0) ∧
    exampleFilter.filters.length = 1 := by
  refine ⟨⟨?_, rfl, ?_, ?_, ?_, ?_⟩, ?_, rfl⟩ <;> simp [exampleFilter]

/-- The same filter with experience starting at one year. -/
def exampleFilterStart1 : CoreSpec := { exampleFilter with starts := [[1]], maxExp := [2] }

/-- **C05 (negated).** The filters are applied before the starting values are added: a state which
satisfies a filter is in the state space. -/
theorem C05_filters_false :
    ∃ core, createCore exampleFilterStart1 = some core ∧
      ∃ s ∈ core, ∃ f ∈ exampleFilterStart1.filters, f s = true := by
  have wf : exampleFilterStart1.WF := by
    refine ⟨by simp [exampleFilterStart1], rfl, ?_, ?_, ?_, ?_⟩ <;> simp [exampleFilterStart1, exampleFilter]
  obtain ⟨core, hc⟩ := createCore_isSome _ wf
  refine ⟨core, hc, ⟨0, [1], []⟩, ?_, _, List.mem_cons_self, by decide⟩
  rw [C05_core_mem_iff _ wf (by decide) core hc]
  refine ⟨by decide, ⟨[1], [0], ?_, rfl, rfl, by decide, ?_⟩, ?_, rfl, by simp⟩ <;>
    simp [exampleFilterStart1, exampleFilter]

/-- **C05 (negated), second direction.** A state which satisfies no filter can be missing. -/
theorem C05_filters_drop_unfiltered_false :
    ∃ core, createCore exampleFilterStart1 = some core ∧
      ∃ s, Feasible exampleFilterStart1 s ∧ (∀ f ∈ exampleFilterStart1.filters, f s = false) ∧
        s ∉ core := by
  have wf : exampleFilterStart1.WF := by
    refine ⟨by simp [exampleFilterStart1], rfl, ?_, ?_, ?_, ?_⟩ <;> simp [exampleFilterStart1, exampleFilter]
  obtain ⟨core, hc⟩ := createCore_isSome _ wf
  refine ⟨core, hc, ⟨1, [2], []⟩, ?_, ?_, ?_⟩
  · refine ⟨by decide, ⟨[1], [1], ?_, rfl, rfl, by decide⟩, ?_, rfl, by simp⟩ <;>
      simp [exampleFilterStart1, exampleFilter]
  · simp [exampleFilterStart1, exampleFilter]
  · rw [C05_core_mem_iff _ wf (by decide) core hc]
    rintro ⟨_, ⟨init, extra, hi, he, hx, _, hf⟩, _⟩
    simp only [exampleFilterStart1, exampleFilter] at hi hf he
    match init, hi, extra, he with
    | [a], .cons ha .nil, [b], _ =>
      simp at *
      omega

/-! ## C10 -/

/-- **C10.** After any sequence of choices from any state the period has advanced by the number of
choices, each experience has grown by the number of times its choice was taken, and the lags are
the most recent choices in reverse order followed by the older lags. -/
theorem C10_law_of_motion_history (s : CoreState) (cs : List Nat) :
    (cs.foldl lawOfMotion s).period = s.period + cs.length ∧
    (cs.foldl lawOfMotion s).exp.length = s.exp.length ∧
    (∀ i (h : i < s.exp.length),
      (cs.foldl lawOfMotion s).exp[i]? = some (s.exp[i] + cs.count i)) ∧
    (cs.foldl lawOfMotion s).lags = (cs.reverse.map some ++ s.lags).take s.lags.length := by
  induction cs generalizing s with
  | nil => simp
  | cons c cs ih =>
    have hl : (lawOfMotion s c).exp.length = s.exp.length := by simp [lawOfMotion, updateExp]
    have hlag : (lawOfMotion s c).lags.length = s.lags.length := by
      simp only [lawOfMotion, updateLags]
      split
      · rfl
      · simp; omega
    obtain ⟨h1, h2, h3, h4⟩ := ih (lawOfMotion s c)
    simp only [List.foldl_cons]
    refine ⟨?_, by rw [h2, hl], ?_, ?_⟩
    · rw [h1]; simp [lawOfMotion]; omega
    · intro i hi
      rw [h3 i (by omega)]
      have := updateExp_getElem? s.exp c i
      rw [List.getElem?_eq_getElem hi] at this
      have h' : (lawOfMotion s c).exp[i]? = some (s.exp[i] + if c = i then 1 else 0) := by
        simpa [lawOfMotion] using this
      rw [List.getElem?_eq_getElem (by omega)] at h'
      rw [Option.some.inj h', List.count_cons]
      by_cases hci : c = i <;> simp [hci]
      omega
    · rw [h4, hlag]
      simp only [lawOfMotion, updateLags, List.reverse_cons, List.map_append, List.map_cons,
        List.map_nil, List.append_assoc]
      split
      · rename_i h; simp [h]
      · rename_i h
        rw [List.take_append, List.take_append]
        congr 1
        rw [List.dropLast_eq_take]
        simp only [List.length_map, List.length_reverse]
        rcases Nat.eq_zero_or_pos (s.lags.length - cs.length) with h0 | h0
        · simp [h0]
        · obtain ⟨k, hk⟩ : ∃ k, s.lags.length - cs.length = k + 1 := ⟨_, (Nat.succ_pred_eq_of_pos h0).symm⟩
          simp only [hk, List.cons_append, List.nil_append, List.take_succ_cons, List.take_take]
          congr 2
          omega

/-- Concrete case: three choices from a state with two experiences and two lags. -/
example : [1, 0, 1].foldl lawOfMotion ⟨2, [4, 5], [some 0, some 1]⟩ =
    ⟨5, [5, 7], [some 1, some 0]⟩ := by decide

/-! ## C02 and C58 -/

/-- **C02.** In every state of a non-terminal period, every choice which is not excluded by the
default restriction leads to a state of the state space. -/
theorem C02_closed_under_admissible_choices (spec : CoreSpec) (wf : spec.WF) (hl : spec.nLags ≤ 1)
    (hf : spec.filters = []) (core : List CoreState) (hc : createCore spec = some core)
    (s : CoreState) (hs : s ∈ core) (ht : s.period + 1 < spec.nPeriods) (code : Nat)
    (hcode : code < spec.nChoices) (hadm : defaultInadmissible spec s code = false) :
    lawOfMotion s code ∈ core := by
  rw [C01_core_eq_feasible spec wf hl hf core hc] at hs ⊢
  obtain ⟨h1, ⟨init, extra, hinit, hel, hexp, hsum⟩, hle, hlag, hlags⟩ := hs
  have hil : init.length = spec.starts.length := hinit.length_eq
  have hlen : s.exp.length = spec.starts.length := by rw [hle.length_eq, wf.len]
  have hzip : updateExp s.exp code = List.zipWith (· + ·) init (updateExp extra code) := by
    apply List.ext_getElem?
    intro i
    rw [updateExp_getElem?, hexp, List.getElem?_zipWith, List.getElem?_zipWith, updateExp_getElem?]
    cases init[i]? <;> cases extra[i]? <;> simp
    omega
  refine ⟨ht, ⟨init, updateExp extra code, hinit, by simp [updateExp, hel], hzip, ?_⟩, ?_, ?_, ?_⟩
  · have := sum_updateExp_le extra code
    simp [lawOfMotion]; omega
  · -- the maximum is kept
    simp only [lawOfMotion]
    rw [List.forall₂_iff_get] at hle ⊢
    refine ⟨by simp [updateExp, hle.1], ?_⟩
    intro i hi1 hi2
    have hi : i < s.exp.length := by simpa [updateExp] using hi1
    have hbase := hle.2 i hi hi2
    simp only [List.get_eq_getElem] at hbase ⊢
    have hget : (updateExp s.exp code)[i] = s.exp[i] + if code = i then 1 else 0 := by
      simp [updateExp]
    rw [hget]
    by_cases hci : code = i
    · subst hci
      simp only [if_true]
      have hst : code < spec.starts.length := by omega
      have hne := wf.nonempty _ (List.getElem_mem hst)
      obtain ⟨m, hm, hmem, hmax⟩ := pyMax_spec _ hne
      simp only [defaultInadmissible, List.getElem?_eq_getElem hst, List.getElem?_eq_getElem hi2,
        List.getElem?_eq_getElem hi, defaultFormula, hm, Option.map_some] at hadm
      by_cases hb : spec.maxExp[code] < spec.nPeriods - 1 + m
      · simp [hb, DefaultFormula.eval] at hadm
        omega
      · -- the maximum cannot be reached in a non-terminal period
        have hxe : code < extra.length := by omega
        have hxi : code < init.length := by omega
        have e1 : s.exp[code] = init[code] + extra[code] := by
          have : s.exp[code]? = (List.zipWith (· + ·) init extra)[code]? := by rw [hexp]
          rw [List.getElem?_eq_getElem hi, List.getElem?_zipWith, List.getElem?_eq_getElem hxi,
            List.getElem?_eq_getElem hxe] at this
          simpa using this
        have e2 : init[code] ≤ m := by
          have := List.forall₂_iff_get.1 hinit
          exact hmax _ (by simpa using this.2 code hxi hst)
        have e3 : extra[code] ≤ extra.sum := le_sum_of_mem _ _ (List.getElem_mem hxe)
        omega
    · simp [hci]; exact hbase
  · simp only [lawOfMotion, updateLags]
    split
    · exact hlag
    · simp; omega
  · intro l hl'
    simp only [lawOfMotion, updateLags] at hl'
    split at hl'
    · exact hlags l hl'
    · rcases List.mem_cons.1 hl' with rfl | hl'
      · exact ⟨code, hcode, rfl⟩
      · exact hlags l (List.dropLast_subset _ hl')

/-- The hypotheses of C02 are met by a state with binding maximum: choice 0 is excluded, choice 1 is
not. -/
example : (⟨1, [3, 0], [some 0]⟩ : CoreState).period + 1 < exampleSpec.nPeriods ∧
    defaultInadmissible exampleSpec ⟨1, [3, 0], [some 0]⟩ 0 = true ∧
    defaultInadmissible exampleSpec ⟨1, [3, 0], [some 0]⟩ 1 = false ∧
    Feasible exampleSpec ⟨1, [3, 0], [some 0]⟩ := by
  refine ⟨by decide, by decide, by decide, by decide, ⟨[2, 0], [1, 0], ?_, rfl, rfl, by decide⟩, ?_,
    rfl, ?_⟩ <;> simp [exampleSpec]

/-- **C58.** If no maximum is given for the choice at position `code`, then in every feasible state
(no matter which choices led to it) the default restriction does not exclude the choice, the
experience is at most the default maximum and below it in every non-terminal period. -/
theorem C58_default_maximum_never_binds (spec : CoreSpec) (code : Nat)
    (hc : code < spec.starts.length) (hm : code < spec.maxExp.length)
    (hmax : parseMax spec.nPeriods spec.starts[code] none = some spec.maxExp[code])
    (s : CoreState) (hs : Feasible spec s) :
    defaultInadmissible spec s code = false ∧
    ∃ e, s.exp[code]? = some e ∧ e ≤ spec.maxExp[code] ∧
      (s.period + 1 < spec.nPeriods → e < spec.maxExp[code]) := by
  obtain ⟨h1, ⟨init, extra, hinit, hel, hexp, hsum⟩, hle, -⟩ := hs
  simp only [parseMax, defaultMax] at hmax
  cases hp : pyMax spec.starts[code] with
  | none => simp [hp] at hmax
  | some m =>
    simp only [hp, Option.map_some, Option.some.injEq] at hmax
    have hi : code < s.exp.length := by rw [hle.length_eq]; exact hm
    have hxi : code < init.length := by rw [hinit.length_eq]; exact hc
    have hxe : code < extra.length := by omega
    have hge : ∀ x ∈ spec.starts[code], x ≤ m := by
      have hne : spec.starts[code] ≠ [] := by intro h; simp [h, pyMax] at hp
      obtain ⟨m', h', _, h''⟩ := pyMax_spec _ hne
      rw [hp] at h'
      cases h'
      exact h''
    have e1 : s.exp[code] = init[code] + extra[code] := by
      have : s.exp[code]? = (List.zipWith (· + ·) init extra)[code]? := by rw [hexp]
      rw [List.getElem?_eq_getElem hi, List.getElem?_zipWith, List.getElem?_eq_getElem hxi,
        List.getElem?_eq_getElem hxe] at this
      simpa using this
    have e2 : init[code] ≤ m := by
      have := List.forall₂_iff_get.1 hinit
      exact hge _ (by simpa using this.2 code hxi hc)
    have e3 : extra[code] ≤ extra.sum := le_sum_of_mem _ _ (List.getElem_mem hxe)
    have e4 : s.exp[code] ≤ spec.maxExp[code] := by
      have := List.forall₂_iff_get.1 hle
      simpa using this.2 code hi hm
    refine ⟨?_, s.exp[code], List.getElem?_eq_getElem hi, e4, by omega⟩
    simp only [defaultInadmissible, List.getElem?_eq_getElem hc, List.getElem?_eq_getElem hm,
      List.getElem?_eq_getElem hi, defaultFormula, hp, Option.map_some]
    have : ¬ spec.maxExp[code] < spec.nPeriods - 1 + m := by omega
    simp [this, DefaultFormula.eval]

/-- The second choice of the example model has the default maximum `0 + 3 - 1 = 2`. -/
example : parseMax exampleSpec.nPeriods [0] none = some 2 ∧
    Feasible exampleSpec ⟨2, [0, 2], [some 1]⟩ := by
  refine ⟨rfl, by decide, ⟨[0, 0], [0, 2], ?_, rfl, rfl, by decide⟩, ?_, rfl, ?_⟩ <;>
    simp [exampleSpec]

end Respy
