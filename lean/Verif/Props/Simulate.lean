import Verif.Lemmas.Simulate2
import Verif.Props.SimulateRow
import Verif.Props.Core

/-!
# Simulated samples (C26-C28, C30-C33)

`out` is the sample returned by a run of the simulation with `n = sim.input.length` individuals.
-/

set_option linter.unusedSectionVars false

namespace Respy

variable {K : Type _} [Field K] [LinearOrder K] {G P : Type _}

/-- All pairs of identifier and period in order. -/
def panelIndex (n periods : Nat) : List (Nat × Nat) :=
  (List.range n).flatMap fun i => (List.range periods).map fun t => (i, t)

theorem mem_panelIndex (n periods i t : Nat) :
    (i, t) ∈ panelIndex n periods ↔ i < n ∧ t < periods := by
  simp [panelIndex, List.mem_flatMap]

theorem panelIndex_pairwise (n periods : Nat) :
    (panelIndex n periods).Pairwise fun a b => a.1 < b.1 ∨ a.1 = b.1 ∧ a.2 < b.2 := by
  unfold panelIndex
  rw [List.pairwise_flatMap]
  refine ⟨fun i _ => ?_, ?_⟩
  · rw [List.pairwise_map]
    exact List.pairwise_lt_range.imp fun h => Or.inr ⟨rfl, h⟩
  · refine List.pairwise_lt_range.imp fun h => ?_
    intro x hx y hy
    obtain ⟨_, _, rfl⟩ := List.mem_map.1 hx
    obtain ⟨_, _, rfl⟩ := List.mem_map.1 hy
    exact Or.inl h

theorem output_key_perm (n periods : Nat) (data : List (List (SimRow K)))
    (hlen : data.length = periods)
    (hdata : ∀ (t : Nat) (rows : List (SimRow K)), data[t]? = some rows → rows.length = n ∧
      ∀ (i : Nat) (row : SimRow K), rows[i]? = some row → row.id = i ∧ row.state.core.period = t) :
    ((processOutput data).map SimRow.key).Perm (panelIndex n periods) := by
  refine ((processOutput_perm data).map _).trans ?_
  have h1 : data.flatten.map SimRow.key =
      (List.range periods).flatMap fun t => (List.range n).map fun i => (i, t) := by
    rw [List.map_flatten, List.flatMap]
    congr 1
    refine List.ext_getElem? fun t => ?_
    rw [List.getElem?_map, List.getElem?_map]
    cases ht : data[t]? with
    | none =>
      rw [List.getElem?_eq_none_iff] at ht
      have : (List.range periods)[t]? = none := by rw [List.getElem?_eq_none_iff]; simp; omega
      rw [this]; rfl
    | some rows =>
      have hlt : t < periods := by
        have := (List.getElem?_eq_some_iff.1 ht).1; omega
      rw [List.getElem?_range hlt]
      obtain ⟨hl, hr⟩ := hdata t rows ht
      simp only [Option.map_some, Option.some.injEq]
      refine List.ext_getElem? fun i => ?_
      rw [List.getElem?_map, List.getElem?_map]
      cases hi : rows[i]? with
      | none =>
        rw [List.getElem?_eq_none_iff] at hi
        have : (List.range n)[i]? = none := by rw [List.getElem?_eq_none_iff]; simp; omega
        rw [this]; rfl
      | some row =>
        have hilt : i < n := by
          have := (List.getElem?_eq_some_iff.1 hi).1; omega
        rw [List.getElem?_range hilt]
        obtain ⟨h1, h2⟩ := hr i row hi
        simp [SimRow.key, h1, h2]
  rw [h1]
  refine (List.perm_ext_iff_of_nodup ?_ ?_).2 ?_
  · rw [List.nodup_flatMap]
    refine ⟨fun t _ => ?_, ?_⟩
    · exact List.nodup_range.map fun a b h => by simpa using h
    · refine List.pairwise_lt_range.imp fun h => ?_
      intro x hx hy
      obtain ⟨_, _, rfl⟩ := List.mem_map.1 hx
      obtain ⟨_, _, h2⟩ := List.mem_map.1 hy
      simp only [Prod.mk.injEq] at h2
      omega
  · refine (panelIndex_pairwise n periods).imp ?_
    intro a b h hab
    rw [hab] at h
    omega
  · rintro ⟨i, t⟩
    rw [mem_panelIndex]
    simp [List.mem_flatMap]
    tauto

/-- **C26**, first part. A simulation returns for each of the individuals exactly one row per period,
ordered by identifier and period, and each state visited is in the state space in this period. -/
theorem C26_balanced_panel (sim : Simulation K G P) (hrs : sim.rs.Contract) (params : P) (g g' : G)
    (out : List (SimRow K)) (h : sim.run params g = (some out, g')) :
    (out.map fun r => (r.id, r.state.core.period)) = panelIndex sim.input.length sim.nPeriods ∧
    ∃ sp, sim.solve params = some sp ∧ ∀ r ∈ out, ∃ k i cx, sp.locate r.state = some (k, i) ∧
      sp.complexes[k]? = some cx ∧ cx.period = r.state.core.period := by
  obtain ⟨sp, fp, g1, states, data, hsp, hfp, hst, hlen, rfl, hdl, hdata, hstep⟩ :=
    run_spec sim hrs params g g' out h
  refine ⟨?_, sp, hsp, fun r hr => ?_⟩
  · have hperm := output_key_perm sim.input.length sim.nPeriods data hdl fun t rows ht =>
      ⟨(hdata t rows ht).1, fun i row hi => ⟨((hdata t rows ht).2 i row hi).1,
        ((hdata t rows ht).2 i row hi).2.1⟩⟩
    have hs : ((processOutput data).map SimRow.key).Pairwise
        (fun a b => a.1 < b.1 ∨ a.1 = b.1 ∧ a.2 ≤ b.2) := by
      rw [List.pairwise_map]
      exact processOutput_sorted data
    have hs2 : (panelIndex sim.input.length sim.nPeriods).Pairwise
        (fun a b => a.1 < b.1 ∨ a.1 = b.1 ∧ a.2 ≤ b.2) :=
      (panelIndex_pairwise _ _).imp fun h => by omega
    refine List.Perm.eq_of_pairwise ?_ hs hs2 hperm
    rintro ⟨a1, a2⟩ ⟨b1, b2⟩ _ _ h1 h2
    simp only at h1 h2
    simp only [Prod.mk.injEq]
    omega
  · obtain ⟨t, i, rows, ht, hi⟩ := (mem_processOutput data r).1 hr
    obtain ⟨_, h2, _, _, _, cvs, _, hrow⟩ := (hdata t rows ht).2 i r hi
    obtain ⟨_, _, _, _, hloc, cx, _, _, _, _, _, _, hcx, hper, _⟩ :=
      simulateRow_fields _ _ _ _ _ _ _ _ _ hrow
    exact ⟨_, _, cx, hloc, hcx, by omega⟩

/-- **C27** Experiences and lagged choices are the history of recorded choices: for a row of the
sample there are the choices recorded for the individual in the periods before, the experience in a
choice is the initial experience plus the number of its occurrences, and the lagged choices are the
recorded choices, the latest first, followed by the initial ones. -/
theorem C27_history (sim : Simulation K G P) (hrs : sim.rs.Contract) (params : P) (g g' : G)
    (out : List (SimRow K)) (h : sim.run params g = (some out, g')) (r : SimRow K) (hr : r ∈ out) :
    ∃ r0 ∈ out, r0.id = r.id ∧ r0.state.core.period = 0 ∧
    ∃ choices : List Nat, choices.length = r.state.core.period ∧
      (∀ t < r.state.core.period, ∃ rt ∈ out, rt.id = r.id ∧ rt.state.core.period = t ∧
        choices[t]? = some rt.outcome.choice) ∧
      r.state.core.exp.length = r0.state.core.exp.length ∧
      (∀ (a e : Nat), r0.state.core.exp[a]? = some e →
        r.state.core.exp[a]? = some (e + choices.count a)) ∧
      r.state.core.lags =
        (choices.reverse.map some ++ r0.state.core.lags).take r0.state.core.lags.length := by
  obtain ⟨sp, fp, g1, states, data, hsp, hfp, hst, hlen, rfl, hdl, hdata, hstep⟩ :=
    run_spec sim hrs params g g' out h
  obtain ⟨t, i, rows, ht, hi⟩ := (mem_processOutput data r).1 hr
  have key : ∀ (t : Nat) (rows : List (SimRow K)) (r : SimRow K), data[t]? = some rows →
      rows[i]? = some r → ∃ (rows0 : List (SimRow K)) (r0 : SimRow K), data[0]? = some rows0 ∧
        rows0[i]? = some r0 ∧
        ∃ choices : List Nat, choices.length = t ∧ (∀ t' < t, ∃ (rows' : List (SimRow K))
          (rt : SimRow K), data[t']? = some rows' ∧ rows'[i]? = some rt ∧
            choices[t']? = some rt.outcome.choice) ∧
          r.state.core = choices.foldl lawOfMotion r0.state.core := by
    intro t
    induction t with
    | zero =>
      intro rows r ht hi
      exact ⟨rows, r, ht, hi, [], rfl, by simp, rfl⟩
    | succ t ih =>
      intro rows r ht hi
      have htl : t < data.length := by
        have := (List.getElem?_eq_some_iff.1 ht).1; omega
      have hprev : data[t]? = some data[t] := List.getElem?_eq_getElem htl
      have hil : i < data[t].length := by
        rw [(hdata t _ hprev).1, ← (hdata (t + 1) rows ht).1]
        exact (List.getElem?_eq_some_iff.1 hi).1
      have hrp : data[t][i]? = some data[t][i] := List.getElem?_eq_getElem hil
      obtain ⟨rows0, r0, h0, hi0, choices, hcl, hc, hcore⟩ := ih _ _ hprev hrp
      refine ⟨rows0, r0, h0, hi0, choices ++ [(data[t][i]).outcome.choice], by simp [hcl], ?_, ?_⟩
      · intro t' ht'
        rcases Nat.lt_succ_iff_lt_or_eq.1 ht' with h1 | h1
        · obtain ⟨rows', rt, j1, j2, j3⟩ := hc t' h1
          exact ⟨rows', rt, j1, j2, by rw [List.getElem?_append_left (by omega), j3]⟩
        · subst h1
          exact ⟨_, _, hprev, hrp, by
            rw [List.getElem?_append_right (by omega), hcl]; simp⟩
      · rw [List.foldl_append, ← hcore]
        exact (hstep t _ _ hprev ht i _ _ hrp hi).1
  obtain ⟨rows0, r0, h0, hi0, choices, hcl, hc, hcore⟩ := key t rows r ht hi
  obtain ⟨m1, m2, _⟩ := (hdata t rows ht).2 i r hi
  obtain ⟨n1, n2, _⟩ := (hdata 0 rows0 h0).2 i r0 hi0
  obtain ⟨_, c2, c3, c4⟩ := C10_law_of_motion_history r0.state.core choices
  refine ⟨r0, (mem_processOutput data r0).2 ⟨0, i, rows0, h0, hi0⟩, by omega, n2, choices,
    by omega, ?_, ?_, ?_, ?_⟩
  · intro t' ht'
    obtain ⟨rows', rt, j1, j2, j3⟩ := hc t' (by omega)
    obtain ⟨k1, k2, _⟩ := (hdata t' rows' j1).2 i rt j2
    exact ⟨rt, (mem_processOutput data rt).2 ⟨t', i, rows', j1, j2⟩, by omega, k2, j3⟩
  · rw [hcore, c2]
  · intro a e ha
    obtain ⟨hlt, hv⟩ := List.getElem?_eq_some_iff.1 ha
    rw [hcore, c3 a hlt, hv]
  · rw [hcore, c4]

/-- **C28**, n-step-ahead: the individual with identifier `i` uses row `n * t + i` of the base draws in
period `t`; different pairs use different rows and all rows are used. -/
theorem C28_draws_used_once (sim : Simulation K G P) (hrs : sim.rs.Contract) (params : P) (g g' : G)
    (out : List (SimRow K)) (h : sim.run params g = (some out, g')) :
    (∀ r ∈ out, sim.draws[sim.input.length * r.state.core.period + r.id]? = some r.base ∧
      sim.drawsWage[sim.input.length * r.state.core.period + r.id]? = some r.baseWage) ∧
    (∀ r ∈ out, ∀ r' ∈ out, sim.input.length * r.state.core.period + r.id =
        sim.input.length * r'.state.core.period + r'.id →
      r.id = r'.id ∧ r.state.core.period = r'.state.core.period) ∧
    (∀ j < sim.input.length * sim.nPeriods, ∃ r ∈ out,
      sim.input.length * r.state.core.period + r.id = j) := by
  have hbal := (C26_balanced_panel sim hrs params g g' out h).1
  have hbound : ∀ r ∈ out, r.id < sim.input.length := by
    intro r hr
    have : (r.id, r.state.core.period) ∈ panelIndex sim.input.length sim.nPeriods := by
      rw [← hbal]; exact List.mem_map_of_mem (f := fun r => (r.id, r.state.core.period)) hr
    exact ((mem_panelIndex _ _ _ _).1 this).1
  refine ⟨?_, ?_, ?_⟩
  · obtain ⟨sp, fp, g1, states, data, hsp, hfp, hst, hlen, rfl, hdl, hdata, hstep⟩ :=
      run_spec sim hrs params g g' out h
    intro r hr
    obtain ⟨t, i, rows, ht, hi⟩ := (mem_processOutput data r).1 hr
    obtain ⟨h1, h2, _, h3, h4, _⟩ := (hdata t rows ht).2 i r hi
    rw [h1, h2]
    exact ⟨h3, h4⟩
  · intro r hr r' hr' heq
    have b1 := hbound r hr
    have b2 := hbound r' hr'
    have hpos : 0 < sim.input.length := by omega
    have e1 : (sim.input.length * r.state.core.period + r.id) / sim.input.length =
        r.state.core.period := by
      rw [Nat.mul_add_div hpos, Nat.div_eq_of_lt b1, Nat.add_zero]
    have e2 : (sim.input.length * r'.state.core.period + r'.id) / sim.input.length =
        r'.state.core.period := by
      rw [Nat.mul_add_div hpos, Nat.div_eq_of_lt b2, Nat.add_zero]
    have hp : r.state.core.period = r'.state.core.period := by rw [← e1, ← e2, heq]
    rw [hp] at heq
    exact ⟨by omega, hp⟩
  · intro j hj
    have hpos : 0 < sim.input.length := by
      rcases Nat.eq_zero_or_pos sim.input.length with h0 | h0
      · rw [h0] at hj; omega
      · exact h0
    have hmem : (j % sim.input.length, j / sim.input.length) ∈
        panelIndex sim.input.length sim.nPeriods :=
      (mem_panelIndex _ _ _ _).2 ⟨Nat.mod_lt _ hpos, Nat.div_lt_of_lt_mul hj⟩
    rw [← hbal] at hmem
    obtain ⟨r, hr, hrk⟩ := List.mem_map.1 hmem
    simp only [Prod.mk.injEq] at hrk
    exact ⟨r, hr, by rw [hrk.1, hrk.2]; exact Nat.div_add_mod _ _⟩

/-- **C28**, one-step-ahead: the rows of period `t` are the observations of period `t` in their order
(`positions` are their positions in the data), and each uses the row of the draws at its own
position. -/
theorem C28_one_step_own_draws (p : RewardParams K) (sp : SimSpace K) (draws drawsWage : List (List K))
    (df : List (Nat × SimState)) (periods : Nat) (data : List (List (SimRow K)))
    (h : simulateOneStep p sp draws drawsWage df periods = some data) :
    data.length = periods ∧ ∀ (t : Nat) (rows : List (SimRow K)), data[t]? = some rows →
      ∃ positions : List Nat, positions.Pairwise (· < ·) ∧ rows.length = positions.length ∧
        (∀ i, i ∈ positions ↔ ∃ a, df[i]? = some a ∧ a.2.core.period = t) ∧
        ∀ (q i : Nat) (row : SimRow K), positions[q]? = some i → rows[q]? = some row →
          df[i]? = some (row.id, row.state) ∧ draws[i]? = some row.base ∧
          drawsWage[i]? = some row.baseWage := by
  unfold simulateOneStep at h
  refine ⟨by rw [mapM_eq_some_length _ _ _ h]; simp, fun t rows ht => ?_⟩
  have htl : t < periods := by
    have := (List.getElem?_eq_some_iff.1 ht).1
    rwa [mapM_eq_some_length _ _ _ h, List.length_range] at this
  have h1 := mapM_range_getElem? _ _ _ h t htl
  rw [ht] at h1
  obtain ⟨cvs, _, h2⟩ := Option.bind_eq_some_iff.1 h1.symm
  dsimp only at h2
  split at h2
  · exact absurd h2 (by simp)
  refine ⟨_, List.pairwise_lt_range.filter _, mapM_eq_some_length _ _ _ h2, ?_, ?_⟩
  · intro i
    simp only [List.mem_filter, List.mem_range, decide_eq_true_eq]
    constructor
    · rintro ⟨hi, hp⟩
      rw [List.getElem?_eq_getElem hi] at hp
      exact ⟨_, List.getElem?_eq_getElem hi, by simpa using hp⟩
    · rintro ⟨a, ha, hp⟩
      exact ⟨(List.getElem?_eq_some_iff.1 ha).1, by rw [ha]; simp [hp]⟩
  · intro q i row hq hrow
    have h3 := mapM_getElem? _ _ _ h2 q i hq
    rw [hrow] at h3
    obtain ⟨a, ha, h4⟩ := Option.bind_eq_some_iff.1 h3.symm
    obtain ⟨base, hb, h4⟩ := Option.bind_eq_some_iff.1 h4
    obtain ⟨baseWage, hbw, h4⟩ := Option.bind_eq_some_iff.1 h4
    obtain ⟨f1, f2, f3, f4, _⟩ := simulateRow_fields _ _ _ _ _ _ _ _ _ h4
    rw [f1, f2, f3, f4]
    exact ⟨ha, hb, hbw⟩

/-- **C30** The sample does not depend on the state of the global generator before the call. The
hypothesis holds for every model: exogenous processes are observables, which are sampled first. -/
theorem C30_reproducible (sim : Simulation K G P) (params : P)
    (hchars : sim.chars params = [] → ∀ sp, sim.solve params = some sp → sp.nExog = 0) (g g' : G) :
    (sim.run params g).1 = (sim.run params g').1 := by
  unfold Simulation.run
  cases hsp : sim.solve params with
  | none => rfl
  | some sp =>
    by_cases hc : sim.chars params = []
    · have hx := hchars hc sp hsp
      simp only [hc, sampleAll]
      cases hst : sim.input.mapM (rowToState sim.nExp sim.nLags) with
      | none => rfl
      | some states =>
        simp only
        have := simulateLoop_without_exogenous sim.rs (sim.rewards params) sp hx sim.draws
          sim.drawsWage sim.nPeriods 0 (states.zipIdx.map fun x => (x.2, x.1)) g g'
        cases h1 : simulateLoop sim.rs (sim.rewards params) sp sim.draws sim.drawsWage sim.nPeriods 0
            (states.zipIdx.map fun x => (x.2, x.1)) g with
        | none =>
          cases h2 : simulateLoop sim.rs (sim.rewards params) sp sim.draws sim.drawsWage sim.nPeriods
              0 (states.zipIdx.map fun x => (x.2, x.1)) g' with
          | none => rfl
          | some b => rw [h1, h2] at this; simp at this
        | some a =>
          cases h2 : simulateLoop sim.rs (sim.rewards params) sp sim.draws sim.drawsWage sim.nPeriods
              0 (states.zipIdx.map fun x => (x.2, x.1)) g' with
          | none => rw [h1, h2] at this; simp at this
          | some b =>
            rw [h1, h2] at this
            simp only [Option.map_some, Option.some.injEq] at this
            simp [this]
    · simp only [sampleAll_seeded sim.rs (sim.chars params) sim.seed sim.input g g' hc]
      cases sampleAll sim.rs (sim.chars params) sim.seed sim.input g' with
      | none => rfl
      | some fg => simp only

/-- An event between two calls: a simulation with other parameters or anything else which changes the
global generator. -/
inductive Event (G P : Type _)
  | call (params : P)
  | other (f : G → G)

/-- The state of the generator after an event. -/
def Event.apply (sim : Simulation K G P) (g : G) : Event G P → G
  | .call params => (sim.run params g).2
  | .other f => f g

/-- **C30** Repeated calls with the same parameters return the same sample, whatever was simulated or
drawn in between. -/
theorem C30_repeated_calls (sim : Simulation K G P) (params : P)
    (hchars : sim.chars params = [] → ∀ sp, sim.solve params = some sp → sp.nExog = 0) (g : G)
    (events : List (Event G P)) :
    (sim.run params (events.foldl (Event.apply sim) (sim.run params g).2)).1 =
      (sim.run params g).1 :=
  C30_reproducible sim params hchars _ _

/-- **C31** (partial). The number of periods of the model is simulated, for one-step-ahead simulations
without an argument the number of periods in the data; the model never has fewer periods than are
simulated. Missing: the argument `n_simulation_periods` is honoured only if it equals the number of
periods of the model, see `C31_requested_periods_false`. -/
theorem C31_requested_periods_partial (method : SimMethod) (requested : Option Nat)
    (maxPeriod nPeriods : Nat) :
    (requested = some nPeriods → (harmonizePeriods method requested maxPeriod nPeriods).1 = nPeriods) ∧
    (method ≠ .oneStepAhead → requested = none →
      (harmonizePeriods method requested maxPeriod nPeriods).1 = nPeriods) ∧
    (method = .oneStepAhead → requested = none →
      (harmonizePeriods method requested maxPeriod nPeriods).1 = maxPeriod + 1) ∧
    (harmonizePeriods method requested maxPeriod nPeriods).1 ≤
      (harmonizePeriods method requested maxPeriod nPeriods).2 := by
  refine ⟨?_, ?_, ?_, ?_⟩
  · rintro rfl; simp [harmonizePeriods]
  · intro h1 h2; simp [harmonizePeriods, h1]
  · intro h1 h2; simp [harmonizePeriods, h1, h2]
  · simp only [harmonizePeriods]; split <;> split <;> omega

/-- **C31** fails for every request different from the number of periods of the model. -/
theorem C31_requested_periods_false (method : SimMethod) (n maxPeriod nPeriods : Nat)
    (hn : n ≠ nPeriods) : (harmonizePeriods method (some n) maxPeriod nPeriods).1 ≠ n := by
  simp only [harmonizePeriods, reduceCtorEq, false_and, if_false]
  exact fun h => hn h.symm

example : (harmonizePeriods .sampling (some 5) 0 10).1 = 10 := rfl

theorem staticPart_append (n : Nat) (xs ys : List Nat) (h : ys.length = n) :
    staticPart n (xs ++ ys) = xs := by
  unfold staticPart
  rw [List.length_append, h, Nat.add_sub_cancel, List.take_left']
  rfl

theorem length_exogenousPart (n : Nat) (cov : List Nat) (h : n ≤ cov.length) :
    (exogenousPart n cov).length = n := by
  unfold exogenousPart
  rw [List.length_drop]; omega

/-- **C32**, first part. The permanent part of the dense state (observables which are not exogenous
processes and type) is the same in all periods; without exogenous processes the whole dense state. -/
theorem C32_permanent_characteristics (sim : Simulation K G P) (hrs : sim.rs.Contract) (params : P)
    (g g' : G) (out : List (SimRow K)) (h : sim.run params g = (some out, g')) (sp : SimSpace K)
    (hsp : sim.solve params = some sp)
    (hcov : ∀ k cov, sp.covariates k = some cov → sp.nExog ≤ cov.length)
    (r r' : SimRow K) (hr : r ∈ out) (hr' : r' ∈ out) (hid : r.id = r'.id) :
    (sp.nExog = 0 → r.state.dense = r'.state.dense) ∧
    (sp.nExog ≠ 0 → staticPart sp.nExog r.state.dense = staticPart sp.nExog r'.state.dense) := by
  obtain ⟨sp', fp, g1, states, data, hsp', hfp, hst, hlen, rfl, hdl, hdata, hstep⟩ :=
    run_spec sim hrs params g g' out h
  rw [hsp] at hsp'
  cases hsp'
  obtain ⟨t, i, rows, ht, hi⟩ := (mem_processOutput data r).1 hr
  obtain ⟨t', i', rows', ht', hi'⟩ := (mem_processOutput data r').1 hr'
  have e1 := ((hdata t rows ht).2 i r hi).1
  have e2 := ((hdata t' rows' ht').2 i' r' hi').1
  obtain rfl : i = i' := by omega
  have key : ∀ (t : Nat) (rows : List (SimRow K)) (r : SimRow K), data[t]? = some rows →
      rows[i]? = some r → ∃ (rows0 : List (SimRow K)) (r0 : SimRow K), data[0]? = some rows0 ∧
        rows0[i]? = some r0 ∧ (sp.nExog = 0 → r.state.dense = r0.state.dense) ∧
        (sp.nExog ≠ 0 → staticPart sp.nExog r.state.dense = staticPart sp.nExog r0.state.dense) := by
    intro t
    induction t with
    | zero =>
      intro rows r ht hi
      exact ⟨rows, r, ht, hi, fun _ => rfl, fun _ => rfl⟩
    | succ t ih =>
      intro rows r ht hi
      have htl : t < data.length := by
        have := (List.getElem?_eq_some_iff.1 ht).1; omega
      have hprev : data[t]? = some data[t] := List.getElem?_eq_getElem htl
      have hil : i < data[t].length := by
        rw [(hdata t _ hprev).1, ← (hdata (t + 1) rows ht).1]
        exact (List.getElem?_eq_some_iff.1 hi).1
      have hrp : data[t][i]? = some data[t][i] := List.getElem?_eq_getElem hil
      obtain ⟨rows0, r0, h0, hi0, hz, hnz⟩ := ih _ _ hprev hrp
      obtain ⟨_, s1, s2⟩ := hstep t _ _ hprev ht i _ _ hrp hi
      refine ⟨rows0, r0, h0, hi0, fun hx => by rw [s1 hx, hz hx], fun hx => ?_⟩
      obtain ⟨k, cov, _, hk, hd⟩ := s2 hx
      rw [hd, staticPart_append _ _ _ (length_exogenousPart _ _ (hcov k cov hk)), hnz hx]
  obtain ⟨rows0, r0, h0, hi0, hz, hnz⟩ := key t rows r ht hi
  obtain ⟨rows0', r0', h0', hi0', hz', hnz'⟩ := key t' rows' r' ht' hi'
  rw [h0] at h0'
  cases h0'
  rw [hi0] at hi0'
  cases hi0'
  exact ⟨fun hx => (hz hx).trans (hz' hx).symm, fun hx => (hnz hx).trans (hnz' hx).symm⟩

/-- The dense state space: the location of a state knows its dense covariates, and the columns of the
transition matrix of a dense key are the dense keys with the same permanent part
(`respy/exogenous_processes.py:147-168`). -/
structure SimSpace.DenseWF (sp : SimSpace K) : Prop where
  locate : ∀ s k i, sp.locate s = some (k, i) → sp.covariates k = some s.dense
  columns : ∀ k cols probs cov k' cov', sp.transition.get? k = some (cols, probs) → k' ∈ cols →
    sp.covariates k = some cov → sp.covariates k' = some cov' →
    staticPart sp.nExog cov' = staticPart sp.nExog cov

/-- **C32**, second part. With exogenous processes, the dense state in the next period is exactly the
dense state of a dense key which has non-zero probability in the row of the transition matrix of the
individual's own state, hence a point of the grid. -/
theorem C32_next_dense_state (sim : Simulation K G P) (hrs : sim.rs.Contract) (params : P)
    (g g' : G) (out : List (SimRow K)) (h : sim.run params g = (some out, g')) (sp : SimSpace K)
    (hsp : sim.solve params = some sp) (hwf : sp.DenseWF) (hx : sp.nExog ≠ 0)
    (r r' : SimRow K) (hr : r ∈ out) (hr' : r' ∈ out) (hid : r.id = r'.id)
    (hper : r'.state.core.period = r.state.core.period + 1) :
    ∃ (cols : List Nat) (probs : List (List K)) (prow : List K) (j k : Nat) (q : K),
      sp.transition.get? r.denseKey = some (cols, probs) ∧ probs[r.coreIndex]? = some prow ∧
      cols[j]? = some k ∧ prow[j]? = some q ∧ q ≠ 0 ∧ sp.covariates k = some r'.state.dense := by
  obtain ⟨sp', fp, g1, states, data, hsp', hfp, hst, hlen, rfl, hdl, hdata, hstep⟩ :=
    run_spec sim hrs params g g' out h
  rw [hsp] at hsp'
  cases hsp'
  obtain ⟨t, i, rows, ht, hi⟩ := (mem_processOutput data r).1 hr
  obtain ⟨t', i', rows', ht', hi'⟩ := (mem_processOutput data r').1 hr'
  obtain ⟨e1, e2, _, _, _, cvs, _, hrow⟩ := (hdata t rows ht).2 i r hi
  obtain ⟨e3, e4, _⟩ := (hdata t' rows' ht').2 i' r' hi'
  obtain rfl : i = i' := by omega
  obtain rfl : t' = t + 1 := by omega
  obtain ⟨_, _, s2⟩ := hstep t rows rows' ht ht' i r r' hi hi'
  obtain ⟨k, cov, ⟨cols, probs, prow, j, q, h1, h2, h3, h4, h5⟩, hk, hd⟩ := s2 hx
  refine ⟨cols, probs, prow, j, k, q, h1, h2, h3, h4, h5, ?_⟩
  have hloc := (simulateRow_fields _ _ _ _ _ _ _ _ _ hrow).2.2.2.2.1
  have hcov := hwf.locate _ _ _ hloc
  have hst := hwf.columns _ _ _ _ _ _ h1 (List.mem_of_getElem? h3) hcov hk
  rw [hk, hd, ← hst]
  congr 1
  unfold staticPart exogenousPart
  exact (List.take_append_drop _ _).symm

/-- The value of a characteristic in a state: experiences, lagged choices, dense columns. -/
def characteristicOf (nExp nLags : Nat) (s : SimState) (c : Nat) : Option Nat :=
  if c < nExp then s.core.exp[c]?
  else if c < nExp + nLags then (s.core.lags[c - nExp]?).join
  else s.dense[c - (nExp + nLags)]?

theorem rowToState_characteristic (nExp nLags : Nat) (row : CharRow) (s : SimState)
    (h : rowToState nExp nLags row = some s) (c v : Nat) (hc : row[c]? = some (some v)) :
    characteristicOf nExp nLags s c = some v := by
  unfold rowToState at h
  obtain ⟨values, hv, h⟩ := Option.bind_eq_some_iff.1 h
  have hval : values[c]? = some v := by
    rw [mapM_getElem? _ _ _ hv c _ hc]; rfl
  cases h
  unfold characteristicOf
  by_cases h1 : c < nExp
  · simp [h1, hval]
  · by_cases h2 : c < nExp + nLags
    · simp only [h1, if_false, h2, if_true, List.getElem?_map, List.getElem?_take,
        List.getElem?_drop, show nExp + (c - nExp) = c by omega, show c - nExp < nLags by omega, hval]
      rfl
    · simp only [h1, if_false, h2, List.getElem?_drop, show nExp + nLags + (c - (nExp + nLags)) = c by omega, hval]

theorem mem_eraseDups {α : Type _} [BEq α] [LawfulBEq α] (l : List α) (a : α) :
    a ∈ l.eraseDups ↔ a ∈ l := List.mem_eraseDups

theorem nAgents_eq (data : List ((Nat × Nat) × CharRow)) (n : Nat)
    (hids : ∀ i, (∃ r ∈ data, r.1.1 = i) ↔ i < n) : nAgents data = n := by
  have hperm : ((data.map fun r => r.1.1).eraseDups).Perm (List.range n) := by
    refine (List.perm_ext_iff_of_nodup (nodup_eraseDups _) List.nodup_range).2 fun i => ?_
    rw [mem_eraseDups, List.mem_map, List.mem_range]
    exact hids i
  unfold nAgents
  rw [hperm.length_eq, List.length_range]

/-- **C33** (partial). If the identifiers in the data are exactly the numbers below their number, the
simulation has exactly these individuals and starts each of them from the characteristics of this individual's
observation in period zero (only missing values are sampled). Missing: other identifiers, see
`C33_starts_from_data_false`. -/
theorem C33_starts_from_data_partial (sim : Simulation K G P) (hrs : sim.rs.Contract) (params : P)
    (g g' : G) (out : List (SimRow K)) (h : sim.run params g = (some out, g'))
    (nCols : Nat) (data : List ((Nat × Nat) × CharRow)) (hinput : sim.input = inputWithData nCols data)
    (hnodup : (data.map Prod.fst).Nodup) (n : Nat)
    (hids : ∀ i, (∃ r ∈ data, r.1.1 = i) ↔ i < n) (hT : 0 < sim.nPeriods) :
    (∀ i, (∃ r ∈ out, r.id = i) ↔ i < n) ∧
    ∀ (i : Nat) (obs : CharRow), ((i, 0), obs) ∈ data →
      ∃ r ∈ out, r.id = i ∧ r.state.core.period = 0 ∧ ∀ c v : Nat, obs[c]? = some (some v) →
        characteristicOf sim.nExp sim.nLags r.state c = some v := by
  obtain ⟨sp, fp, g1, states, frames, hsp, hfp, hst, hlen, rfl, hdl, hdata, hstep⟩ :=
    run_spec sim hrs params g g' out h
  have hagents := nAgents_eq data n hids
  have hlength : sim.input.length = n := by
    rw [hinput, inputWithData, List.length_map, List.length_range, hagents]
  have h0 : frames[0]? = some frames[0] := List.getElem?_eq_getElem (by omega)
  have hl0 := (hdata 0 _ h0).1
  refine ⟨fun i => ⟨?_, fun hi => ?_⟩, fun i obs hobs => ?_⟩
  · rintro ⟨r, hr, rfl⟩
    obtain ⟨t, j, rows, ht, hj⟩ := (mem_processOutput frames r).1 hr
    have h1 := (hdata t rows ht).1
    rw [((hdata t rows ht).2 j r hj).1, ← hlength, ← h1]
    exact (List.getElem?_eq_some_iff.1 hj).1
  · have hri : frames[0][i]? = some frames[0][i] := List.getElem?_eq_getElem (by omega)
    exact ⟨_, (mem_processOutput frames _).2 ⟨0, i, _, h0, hri⟩, ((hdata 0 _ h0).2 i _ hri).1⟩
  have hi : i < nAgents data := by rw [hagents]; exact (hids i).1 ⟨_, hobs, rfl⟩
  have hin : sim.input[i]? = some obs := by
    rw [hinput, inputWithData, List.getElem?_map, List.getElem?_range hi, Option.map_some]
    rw [Dict.get?_of_mem data hnodup _ _ hobs]; rfl
  have hilen : i < sim.input.length := (List.getElem?_eq_some_iff.1 hin).1
  obtain ⟨hfl, hfs⟩ := sampleAll_spec _ _ _ _ _ _ _ hfp
  have hri : frames[0][i]? = some frames[0][i] := List.getElem?_eq_getElem (by omega)
  obtain ⟨e1, e2, e3, _⟩ := (hdata 0 _ h0).2 i _ hri
  refine ⟨_, (mem_processOutput frames _).2 ⟨0, i, _, h0, hri⟩, e1, e2, fun c v hc => ?_⟩
  have hfi : fp[i]? = some fp[i] := List.getElem?_eq_getElem (by omega)
  have hs := mapM_getElem? _ _ _ hst i _ hfi
  rw [e3 rfl] at hs
  exact rowToState_characteristic _ _ _ _ hs.symm c v ((hfs i obs _ hin hfi).2 c v hc)

theorem randomChoice_level (levels : List Nat) (probs : List K) (u : K) (x : Nat)
    (h : randomChoice levels probs u = some x) : x ∈ levels := by
  obtain ⟨cdf, _, h⟩ := Option.bind_eq_some_iff.1 h
  exact List.mem_of_getElem? h

theorem sampleAll_levels (rs : RandomSource K G) (chars : List (Characteristic K)) (seed : Nat)
    (fp fp' : List CharRow) (g g' : G) (h : sampleAll rs chars seed fp g = some (fp', g')) (i c v : Nat)
    (row row' : CharRow) (hi : fp[i]? = some row) (hi' : fp'[i]? = some row') (hc : row'[c]? = some (some v)) :
    row[c]? = some (some v) ∨ ∃ ch ∈ chars, ch.column = c ∧ v ∈ ch.levels := by
  induction chars generalizing seed fp g row with
  | nil =>
    simp only [sampleAll, Option.some.injEq, Prod.mk.injEq] at h
    obtain ⟨rfl, _⟩ := h
    rw [hi] at hi'
    cases hi'
    exact Or.inl hc
  | cons ch chars ih =>
    unfold sampleAll at h
    obtain ⟨⟨fp1, g1⟩, h1, h2⟩ := Option.bind_eq_some_iff.1 h
    have hlen := (sampleCharacteristic_spec _ _ _ _ _ _ h1).1
    have hlt : i < fp1.length := by rw [hlen]; exact (List.getElem?_eq_some_iff.1 hi).1
    rcases ih _ _ _ h2 _ (List.getElem?_eq_getElem hlt) with h3 | ⟨ch', h3, h4⟩
    · unfold sampleCharacteristic at h1
      obtain ⟨values, hv, h1⟩ := Option.bind_eq_some_iff.1 h1
      split at h1
      · rename_i hl
        cases h1
        have hltv : i < values.length := by
          rw [hl]; exact (List.getElem?_eq_some_iff.1 hi).1
        simp only [List.getElem_zipWith] at h3
        have hrow : fp[i]'(List.getElem?_eq_some_iff.1 hi).1 = row := (List.getElem?_eq_some_iff.1 hi).2
        rw [hrow, fillColumn, List.getElem?_modify] at h3
        cases hrc : row[c]? with
        | none => rw [hrc] at h3; cases h3
        | some x =>
          rw [hrc] at h3
          simp only [Option.map_eq_map, Option.map_some, Option.some.injEq] at h3
          by_cases hcc : ch.column = c
          · rw [if_pos hcc] at h3
            cases x with
            | some w => exact Or.inl (congrArg some h3)
            | none =>
              have h4 : values[i] = v := by simpa using h3
              have hzip : i < (List.zip (ch.probs fp)
                  (rs.uniform (rs.seed seed) (ch.probs fp).length).1).length := by
                rw [← mapM_eq_some_length _ _ _ hv]; exact hltv
              have h5 := mapM_getElem? _ _ _ hv i _ (List.getElem?_eq_getElem hzip)
              rw [List.getElem?_eq_getElem hltv, h4] at h5
              exact Or.inr ⟨ch, by simp, hcc, randomChoice_level _ _ _ _ h5.symm⟩
          · rw [if_neg hcc] at h3
            exact Or.inl (congrArg some h3)
      · cases h1
    · exact Or.inr ⟨ch', List.mem_cons_of_mem _ h3, h4⟩

/-- **C33**, samples without data. The requested number of individuals is simulated, and all characteristics of the
first period are levels of the distributions of these characteristics. -/
theorem C33_sampling (sim : Simulation K G P) (hrs : sim.rs.Contract) (params : P)
    (g g' : G) (out : List (SimRow K)) (h : sim.run params g = (some out, g'))
    (nCols agents : Nat) (hinput : sim.input = inputSampling nCols agents) (hT : 0 < sim.nPeriods) :
    (∀ i, (∃ r ∈ out, r.id = i) ↔ i < agents) ∧
    ∀ r ∈ out, r.state.core.period = 0 → ∀ c < nCols, ∃ ch ∈ sim.chars params, ∃ v ∈ ch.levels,
      ch.column = c ∧ characteristicOf sim.nExp sim.nLags r.state c = some v := by
  obtain ⟨sp, fp, g1, states, frames, hsp, hfp, hst, hlen, rfl, hdl, hdata, hstep⟩ :=
    run_spec sim hrs params g g' out h
  have hlength : sim.input.length = agents := by
    rw [hinput, inputSampling, List.length_map, List.length_range]
  have h0 : frames[0]? = some frames[0] := List.getElem?_eq_getElem (by omega)
  have hl0 := (hdata 0 _ h0).1
  refine ⟨fun i => ⟨?_, fun hi => ?_⟩, fun r hr hper c hc => ?_⟩
  · rintro ⟨r, hr, rfl⟩
    obtain ⟨t, j, rows, ht, hj⟩ := (mem_processOutput frames r).1 hr
    have h1 := (hdata t rows ht).1
    rw [((hdata t rows ht).2 j r hj).1, ← hlength, ← h1]
    exact (List.getElem?_eq_some_iff.1 hj).1
  · have hri : frames[0][i]? = some frames[0][i] := List.getElem?_eq_getElem (by omega)
    exact ⟨_, (mem_processOutput frames _).2 ⟨0, i, _, h0, hri⟩, ((hdata 0 _ h0).2 i _ hri).1⟩
  · obtain ⟨t, i, rows, ht, hi⟩ := (mem_processOutput frames r).1 hr
    obtain ⟨e1, e2, e3, _⟩ := (hdata t rows ht).2 i r hi
    obtain rfl : t = 0 := by omega
    have hlt : i < agents := by
      rw [← hlength, ← (hdata 0 rows ht).1]
      exact (List.getElem?_eq_some_iff.1 hi).1
    have hin : sim.input[i]? = some (List.replicate nCols none) := by
      rw [hinput, inputSampling, List.getElem?_map, List.getElem?_range hlt]
      rfl
    obtain ⟨hfl, hfs⟩ := sampleAll_spec _ _ _ _ _ _ _ hfp
    have hfi : fp[i]? = some fp[i] := List.getElem?_eq_getElem (by omega)
    have hs := mapM_getElem? _ _ _ hst i _ hfi
    rw [e3 rfl] at hs
    have hwidth : fp[i].length = nCols := by
      rw [(hfs i _ _ hin hfi).1, List.length_replicate]
    obtain ⟨v, hv⟩ : ∃ v, fp[i][c]? = some (some v) := by
      have hs' := hs.symm
      unfold rowToState at hs'
      obtain ⟨values, hv, _⟩ := Option.bind_eq_some_iff.1 hs'
      have hcl : fp[i][c]? = some fp[i][c] := List.getElem?_eq_getElem (by omega)
      have hval := mapM_getElem? _ _ _ hv c _ hcl
      have hl2 := mapM_eq_some_length _ _ _ hv
      rw [List.getElem?_eq_getElem (by omega)] at hval
      exact ⟨values[c]'(by omega), by rw [hcl]; exact congrArg some hval.symm⟩
    rcases sampleAll_levels _ _ _ _ _ _ _ hfp i c v _ _ hin hfi hv with h1 | ⟨ch, h1, h2, h3⟩
    · rw [List.getElem?_replicate] at h1
      split at h1 <;> cases h1
    · exact ⟨ch, h1, v, h3, h2, rowToState_characteristic _ _ _ _ hs.symm c v hv⟩

/-- **C33** fails: with identifiers `1` and `2` the individuals `0` and `1` are simulated. The first one
has no characteristics from the data at all and the observation of individual `2` is lost. -/
theorem C33_starts_from_data_false :
    ∃ data : List ((Nat × Nat) × CharRow), (data.map Prod.fst).Nodup ∧
      inputWithData 1 data = [[none], [some 10]] ∧ ((2, 0), [some 20]) ∈ data ∧
      (inputWithData 1 data)[2]? ≠ some [some 20] := by
  refine ⟨[((1, 0), [some 10]), ((2, 0), [some 20])], by decide, by decide +kernel, by simp, ?_⟩
  decide +kernel

/-! ### The hypotheses can be met -/

/-- A generator which always returns one half and the first column with non-zero probability. -/
def exampleSource : RandomSource ℚ Nat where
  seed := fun s => s
  uniform := fun g n => (List.replicate n (1 / 2), g + n)
  choice := fun g cols probs n =>
    match (cols.zip probs).find? fun x => decide (x.2 ≠ 0) with
    | some x => (List.replicate n x.1, g + n)
    | none => ([], g)

theorem exampleSource_contract : exampleSource.Contract where
  uniform_length := by intro g n; simp [exampleSource]
  uniform_mem := by
    intro g n u hu
    simp only [exampleSource, List.mem_replicate] at hu
    rw [hu.2]
    exact ⟨by decide +kernel, by decide +kernel⟩
  choice_length := by
    rintro g cols probs n ⟨j, k, q, hj, hq, hne⟩
    simp only [exampleSource]
    cases hf : (cols.zip probs).find? fun x => decide (x.2 ≠ 0) with
    | some x => simp
    | none =>
      have hm : (k, q) ∈ cols.zip probs :=
        List.mem_of_getElem? (i := j) (List.getElem?_zip_eq_some.2 ⟨hj, hq⟩)
      have := List.find?_eq_none.1 hf (k, q) hm
      simp [hne] at this
  choice_mem := by
    intro g cols probs n k hk
    simp only [exampleSource] at hk
    cases hf : (cols.zip probs).find? fun x => decide (x.2 ≠ 0) with
    | none => rw [hf] at hk; simp at hk
    | some x =>
      rw [hf] at hk
      simp only [List.mem_replicate] at hk
      have h1 := List.find?_some hf
      obtain ⟨j, hj⟩ := List.mem_iff_getElem?.1 (List.mem_of_find?_eq_some hf)
      obtain ⟨h2, h3⟩ := List.getElem?_zip_eq_some.1 hj
      exact ⟨j, x.2, by rw [hk.2]; exact h2, h3, by simpa using h1⟩

/-- A model with one experience, no lag, a binary exogenous process and two periods. -/
def simulationSpace : SimSpace ℚ where
  indexer := [(⟨0, [0], []⟩, (0, 0)), (⟨1, [0], []⟩, (1, 0)), (⟨1, [1], []⟩, (1, 1))]
  denseIndex := some [([0], 0), ([1], 1)]
  lookup := [((0, 0), 0), ((1, 0), 1), ((0, 1), 2), ((1, 1), 3)]
  complexes := [⟨0, [true, true], some 0⟩, ⟨1, [true, true], some 0⟩, ⟨0, [true, true], some 1⟩,
    ⟨1, [true, true], some 1⟩]
  wages := [(0, [[3, 1]]), (1, [[2, 1], [4, 1]]), (2, [[3, 1]]), (3, [[2, 1], [4, 1]])]
  nonpecs := [(0, [[0, 1]]), (1, [[0, 1], [0, 1]]), (2, [[0, 1]]), (3, [[0, 1], [0, 1]])]
  cvs := fun t => if t = 0 then some [(0, [[0, 0]]), (2, [[0, 0]])] else
    if t = 1 then some [(1, [[0, 0], [0, 0]]), (3, [[0, 0], [0, 0]])] else none
  covariates := fun k => if k < 2 then some [0] else some [1]
  nExog := 1
  transition := [(0, ([0, 2], [[0, 1]])), (2, ([0, 2], [[1, 0]])),
    (1, ([1, 3], [[1 / 2, 1 / 2], [0, 1]])), (3, ([1, 3], [[1 / 2, 1 / 2], [0, 1]]))]
  valueCounts := List.eraseDups
  keyOrder := id

theorem simulationSpace_denseWF : simulationSpace.DenseWF where
  locate := by
    intro s k i h
    unfold SimSpace.locate at h
    obtain ⟨⟨ck, ci⟩, h1, h⟩ := Option.bind_eq_some_iff.1 h
    simp only [simulationSpace] at h
    obtain ⟨d, h2, h⟩ := Option.bind_eq_some_iff.1 h
    obtain ⟨k', h3, h⟩ := Option.bind_eq_some_iff.1 h
    cases h
    have m2 := Dict.mem_of_get? _ _ _ h2
    have m3 := Dict.mem_of_get? _ _ _ h3
    simp only [List.mem_cons, Prod.mk.injEq, List.not_mem_nil, or_false] at m2 m3
    rcases m2 with ⟨hs, rfl⟩ | ⟨hs, rfl⟩ <;>
      rcases m3 with ⟨⟨_, hd⟩, rfl⟩ | ⟨⟨_, hd⟩, rfl⟩ | ⟨⟨_, hd⟩, rfl⟩ | ⟨⟨_, hd⟩, rfl⟩ <;>
      first
        | (exfalso; omega)
        | simp [simulationSpace, hs]
  columns := by
    intro k cols probs cov k' cov' _ _ h1 h2
    have hl : ∀ k c, simulationSpace.covariates k = some c → staticPart simulationSpace.nExog c = [] := by
      intro k c h
      simp only [simulationSpace] at h ⊢
      split at h <;> cases h <;> rfl
    rw [hl _ _ h1, hl _ _ h2]

/-- Two individuals, one observed with value `1` of the process. -/
def exampleSimulation : Simulation ℚ Nat Unit where
  rs := exampleSource
  nPeriods := 2
  nExp := 1
  nLags := 0
  seed := 100
  input := inputWithData 2 [((0, 0), [none, none]), ((1, 0), [some 0, some 1])]
  draws := [[0, 0], [1, 0], [0, 5], [0, 0]]
  drawsWage := [[0, 0], [0, 0], [0, 0], [0, 0]]
  chars := fun _ => [⟨1, [0, 1], fun fp => fp.map fun _ => [3 / 4, 1 / 4]⟩,
    ⟨0, [0], fun fp => fp.map fun _ => [1]⟩]
  rewards := fun _ => ⟨fun x => 1 + x, -10, 10, [[1, 0], [0, 1]], 1, [0, 0], 1 / 2⟩
  solve := fun _ => some simulationSpace

/-- Individual `1` starts from the data, both individuals' process changes, and their experience in
alternative `0` is one in period one. -/
example : (exampleSimulation.run () 7).1.map
    (fun out => out.map fun r => (r.id, r.state.core, r.state.dense, r.outcome.choice)) =
    some [(0, ⟨0, [0], []⟩, [0], 0), (0, ⟨1, [1], []⟩, [1], 1),
      (1, ⟨0, [0], []⟩, [1], 0), (1, ⟨1, [1], []⟩, [0], 0)] := by decide +kernel

example : ∀ i, (∃ r ∈ [((0, 0), [none, none]), ((1, 0), [some 0, some 1])],
    (r : (Nat × Nat) × CharRow).1.1 = i) ↔ i < 2 := by
  intro i
  simp
  omega

/-- A run of `C33_sampling` with three individuals. -/
example : (({ exampleSimulation with
    input := inputSampling 2 3
    draws := [[0, 0], [1, 0], [0, 5], [0, 0], [0, 0], [0, 0]]
    drawsWage := [[0, 0], [0, 0], [0, 0], [0, 0], [0, 0], [0, 0]] } : Simulation ℚ Nat Unit).run () 7).1.map
    (fun out => out.map fun r => (r.id, r.state.core, r.state.dense)) =
    some [(0, ⟨0, [0], []⟩, [0]), (0, ⟨1, [1], []⟩, [1]), (1, ⟨0, [0], []⟩, [0]), (1, ⟨1, [1], []⟩, [1]),
      (2, ⟨0, [0], []⟩, [0]), (2, ⟨1, [0], []⟩, [1])] := by decide +kernel

/-! ### C47 Every sampled characteristic has a seed of its own -/

/-- `after` is `before` with the missing values of the column of `ch` filled with levels sampled by the
uniform draws of a generator seeded with `seed`. -/
def SampledWithSeed (rs : RandomSource K G) (ch : Characteristic K) (seed : Nat)
    (before after : List CharRow) : Prop :=
  after.length = before.length ∧
  ∀ (i : Nat) (row row' : CharRow), before[i]? = some row → after[i]? = some row' →
    ∃ (p : List K) (u : K) (level : Nat), (ch.probs before)[i]? = some p ∧
      (rs.uniform (rs.seed seed) (ch.probs before).length).1[i]? = some u ∧
      randomChoice ch.levels p u = some level ∧
      row'.length = row.length ∧
      (∀ c, c ≠ ch.column → row'[c]? = row[c]?) ∧
      (∀ v, row[ch.column]? = some (some v) → row'[ch.column]? = some (some v)) ∧
      (row[ch.column]? = some none → row'[ch.column]? = some (some level))

/-- The characteristic with number `i` is sampled with the `i`-th seed following the first one of the
iteration, from the probabilities given all characteristics sampled before it. -/
theorem C47_characteristics_have_own_seeds (rs : RandomSource K G) (chars : List (Characteristic K))
    (seed : Nat) (fp fp' : List CharRow) (g g' : G)
    (h : sampleAll rs chars seed fp g = some (fp', g')) :
    ∃ frames : List (List CharRow), frames.length = chars.length + 1 ∧ frames[0]? = some fp ∧
      frames[chars.length]? = some fp' ∧
      ∀ (i : Nat) (ch : Characteristic K) (before after : List CharRow), chars[i]? = some ch →
        frames[i]? = some before → frames[i + 1]? = some after →
        SampledWithSeed rs ch (seed + i) before after := by
  induction chars generalizing seed fp g with
  | nil =>
    simp only [sampleAll, Option.some.injEq, Prod.mk.injEq] at h
    exact ⟨[fp], rfl, rfl, by simp [h.1], by simp⟩
  | cons ch chars ih =>
    unfold sampleAll at h
    obtain ⟨⟨fp1, g1⟩, h1, h⟩ := Option.bind_eq_some_iff.1 h
    obtain ⟨frames, hl, h0, hlast, hstep⟩ := ih _ _ _ h
    refine ⟨fp :: frames, by simp [hl], rfl, by simpa using hlast, ?_⟩
    intro i ch' before after hch hb ha
    cases i with
    | succ i =>
      have := hstep i ch' before after (by simpa using hch) (by simpa using hb) (by simpa using ha)
      rwa [show seed + (i + 1) = seed + 1 + i by omega]
    | zero =>
      simp only [List.getElem?_cons_zero, Option.some.injEq, zero_add,
        List.getElem?_cons_succ] at hch hb ha
      subst hch hb
      rw [h0] at ha
      cases ha
      unfold sampleCharacteristic at h1
      obtain ⟨values, hv, h1⟩ := Option.bind_eq_some_iff.1 h1
      split at h1
      · rename_i hvl
        cases h1
        refine ⟨by simp [hvl], fun i row row' hi hi' => ?_⟩
        have hlt : i < values.length := by
          rw [hvl]; exact (List.getElem?_eq_some_iff.1 hi).1
        obtain ⟨x, hx, hxv⟩ : ∃ x, ((ch.probs fp).zip
            (rs.uniform (rs.seed seed) (ch.probs fp).length).1)[i]? = some x ∧
            randomChoice ch.levels x.1 x.2 = some values[i] := by
          have hl' := mapM_eq_some_length _ _ _ hv
          have hlt' := hlt
          rw [hl'] at hlt'
          refine ⟨_, List.getElem?_eq_getElem hlt', ?_⟩
          have := mapM_getElem? _ _ _ hv i _ (List.getElem?_eq_getElem hlt')
          rw [List.getElem?_eq_getElem hlt] at this
          exact this.symm
        rw [List.getElem?_zip_eq_some] at hx
        refine ⟨x.1, x.2, values[i], hx.1, hx.2, hxv, ?_⟩
        rw [List.getElem?_zipWith, hi, List.getElem?_eq_getElem hlt] at hi'
        simp only [Option.some.injEq] at hi'
        subst hi'
        refine ⟨by simp [fillColumn], fun c hc => ?_, fun v hv => ?_, fun hv => ?_⟩
        · rw [fillColumn, List.getElem?_modify]
          simp [hc.symm]
        · rw [fillColumn, List.getElem?_modify, hv]; simp
        · rw [fillColumn, List.getElem?_modify, hv]; simp
      · simp at h1

/-- The hypothesis can be met: two characteristics of two individuals, one value is given. The first
characteristic is sampled with seed 3, the second one, whose probabilities depend on the first, with
seed 4. -/
example : sampleAll (K := ℚ) ⟨id, fun g n => ((List.range n).map fun i => (g + i : ℚ) / 10, g + n),
      fun g _ _ _ => ([], g)⟩
    [⟨0, [0, 1], fun fp => fp.map fun _ => [3 / 10, 7 / 10]⟩,
     ⟨1, [5, 6], fun fp => fp.map fun row => if row[0]? = some (some 1) then [1 / 2, 1 / 2] else [0, 1]⟩]
    3 [[none, none], [some 0, none]] 0 = some ([[some 1, some 5], [some 0, some 6]], 6) := by
  decide +kernel

end Respy
