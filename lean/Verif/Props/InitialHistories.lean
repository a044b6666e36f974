import Verif.Props.Histories
import Verif.Props.InitialDistribution
import Verif.Spec.InitialHistories

/-!
# Initial characteristics and histories

C112: the probability that an individual of a simulated sample has certain characteristics and a certain history is the
probability of the likelihood, also if the type is not observed.
-/

open MeasureTheory ProbabilityTheory

namespace Respy

noncomputable section

theorem mapM_id_eq_some {row : CharRow} {values : List Nat} : row.mapM id = some values ↔ row = values.map some := by
  induction row generalizing values with
  | nil => cases values <;> simp
  | cons x row ih =>
    rw [List.mapM_cons]
    cases x with
    | none => cases values <;> simp
    | some x =>
      cases hr : row.mapM id with
      | none =>
        constructor
        · intro h; cases h
        · intro h
          cases values with
          | nil => cases h
          | cons v values =>
            rw [List.map_cons, List.cons.injEq] at h
            rw [ih.2 h.2] at hr
            cases hr
      | some vs =>
        rw [ih] at hr
        subst hr
        show some (x :: vs) = some values ↔ _
        cases values with
        | nil => simp
        | cons v values =>
          simp only [Option.some.injEq, List.cons.injEq, List.map_cons]
          rw [List.map_inj_right fun _ _ h => Option.some.inj h]

/-- The characteristics of a state are the only ones which lead to this state. -/
theorem rowToState_eq_some {nExp nLags : Nat} {row : CharRow} {s : CoreState} {dense : List Nat} (hs0 : s.period = 0)
    (hexp : s.exp.length = nExp) (hlag : s.lags.length = nLags) (hlags : ∀ x ∈ s.lags, x ≠ none) :
    rowToState nExp nLags row = some ⟨s, dense⟩ ↔ row = rowOfState s dense := by
  obtain ⟨per, exps, lags⟩ := s
  dsimp only at hs0 hexp hlag hlags
  subst hs0
  obtain ⟨ls, rfl⟩ : ∃ ls : List Nat, lags = ls.map some := by
    refine ⟨lags.map fun x => x.getD 0, ?_⟩
    rw [List.map_map]
    symm
    refine (List.map_congr_left fun x hx => ?_).trans (List.map_id _)
    cases x with
    | none => exact absurd rfl (hlags _ hx)
    | some v => rfl
  rw [List.length_map] at hlag
  have hrow : rowOfState ⟨0, exps, ls.map some⟩ dense = (exps ++ ls ++ dense).map some := by
    simp [rowOfState]
  rw [hrow, ← mapM_id_eq_some]
  unfold rowToState
  cases hm : row.mapM id with
  | none => simp
  | some values =>
    show some _ = some _ ↔ _
    simp only [Option.some.injEq, SimState.mk.injEq, CoreState.mk.injEq, true_and]
    constructor
    · rintro ⟨⟨h1, h2⟩, h3⟩
      rw [List.map_inj_right fun _ _ h => Option.some.inj h] at h2
      rw [← h1, ← h2, ← h3, ← List.drop_drop, List.append_assoc, List.take_append_drop, List.take_append_drop]
    · rintro rfl
      refine ⟨⟨?_, ?_⟩, ?_⟩
      · rw [List.append_assoc, ← hexp, List.take_left]
      · rw [List.append_assoc, ← hexp, List.drop_left, ← hlag, List.take_left]
      · rw [← hexp, ← hlag, ← List.length_append, List.drop_left]

variable {G P : Type} {b : BuildSpec} {core : List CoreState} {w m : Option Nat → CoreState → Nat → ℝ}
  {V : Option Nat → CoreState → ℝ} {Ω : Type} [MeasurableSpace Ω] (Q : Measure Ω) [IsProbabilityMeasure Q]

omit [MeasurableSpace Ω] in
/-- The state in which an individual starts. -/
theorem startsIn_iff (sim : Simulation ℝ G P) (hrs : sim.rs.Contract) {params : P} {g g' : G} {out : List (SimRow ℝ)}
    (hrun : sim.run params g = (some out, g')) (hT : 0 < sim.nPeriods) {j : Nat} (hj : j < sim.input.length) {s : CoreState}
    {dense : List Nat} (hs0 : s.period = 0)
    (hexp : s.exp.length = sim.nExp) (hlag : s.lags.length = sim.nLags) (hlags : ∀ x ∈ s.lags, x ≠ none) :
    (StartsIn out j s dense ↔ ∃ fp g1, sampleAll sim.rs (sim.chars params) sim.seed sim.input g = some (fp, g1) ∧
      fp[j]? = some (rowOfState s dense)) ∧
    (StartsIn out j s dense → ∀ row ∈ out, row.id = j → row.state.core.period = 0 →
      row.state.core = s ∧ row.state.dense = dense) := by
  obtain ⟨sp, fp, g1, states, data, hsp, hfp, hst, hlen, rfl, hdl, hdata, _⟩ := run_spec sim hrs params g g' out hrun
  have hlenfp : fp.length = sim.input.length := by rw [← mapM_eq_some_length _ _ _ hst, hlen]
  have hstate : ∀ row ∈ processOutput data, row.id = j → row.state.core.period = 0 → states[j]? = some row.state := by
    intro row hrow hid hper
    obtain ⟨t', i', rows', k1, k2⟩ := (mem_processOutput data row).1 hrow
    obtain ⟨f1, f2, f3, _⟩ := (hdata t' rows' k1).2 i' row k2
    have hi : i' = j := f1.symm.trans hid
    rw [← hi]
    exact f3 (f2.symm.trans hper)
  have hfpj : fp[j]? = some fp[j] := List.getElem?_eq_getElem (by omega)
  have hmap := mapM_getElem? _ _ _ hst j _ hfpj
  have key : StartsIn (processOutput data) j s dense ↔ states[j]? = some ⟨s, dense⟩ := by
    constructor
    · rintro ⟨row, hrow, hid, hper, h1, h2⟩
      rw [hstate row hrow hid hper, ← h1, ← h2]
    · intro h
      have h1 : data[0]? = some data[0] := List.getElem?_eq_getElem (by omega)
      obtain ⟨h2, h3⟩ := hdata 0 _ h1
      have h4 : data[0][j]? = some data[0][j] := List.getElem?_eq_getElem (by omega)
      obtain ⟨e1, e2, e3, _⟩ := h3 j _ h4
      have e4 := (e3 rfl).symm.trans h
      refine ⟨_, (mem_processOutput data _).2 ⟨0, j, _, h1, h4⟩, e1, e2, ?_, ?_⟩
      · rw [Option.some.inj e4]
      · rw [Option.some.inj e4]
  refine ⟨?_, fun hst row hrow hid hper => ?_⟩
  · rw [key, hmap, rowToState_eq_some hs0 hexp hlag hlags]
    constructor
    · intro h
      exact ⟨fp, g1, hfp, by rw [hfpj, h]⟩
    · rintro ⟨fp', g1', h1, h2⟩
      rw [hfp] at h1
      cases h1
      rw [hfpj] at h2
      exact Option.some.inj h2
  · have h1 := (hstate row hrow hid hper).symm.trans (key.1 hst)
    rw [Option.some.inj h1]
    exact ⟨rfl, rfl⟩

/-- The events that an individual starts in a state and has a history, and their probabilities. -/
theorem starts_and_history (wf : b.WF core) (hgrid : b.GridNodup) (sim : Simulation ℝ G P) (params : P)
    (g : G) (hexp : (sim.rewards params).exp = Real.exp) (hwf : (sim.rewards params).WF b core)
    (hcodes : b.RecordsBest core) (hvar : b.UncertainWages core (sim.rewards params))
    (hperiods : sim.nPeriods ≤ b.core.nPeriods) (hT : 0 < sim.nPeriods) {R N : Nat}
    (hR : sim.input.length * sim.nPeriods ≤ R) (hN : (sim.rewards params).measError.length = N)
    {laws : List CharacteristicLaw}
    (hlaws : FollowLaws sim.input.length (sim.chars params) laws fun j row => sim.input[j]? = some row)
    {rs : Ω → RandomSource ℝ G} (hrs : ∀ ω, (rs ω).Contract) {U : Fin sim.input.length → Ω → Fin laws.length → ℝ}
    {Z Y : Fin R → Ω → Fin N → ℝ} (hnum : AllNumbers Q rs sim.seed U Z Y)
    (hsample : ∀ ω, SampleFollows b core w m (fun d _ => [(d, 1)]) V
      (sim.withRandom (rs ω) (fun r => Z r ω) (fun r => Y r ω)) params g)
    (j : Fin sim.input.length) {s : CoreState} (hs : s ∈ core) (hs0 : s.period = 0) (hse : s.exp.length = sim.nExp)
    (hsl : s.lags.length = sim.nLags) (hlags : ∀ x ∈ s.lags, x ≠ none) {dense : List Nat} {d : Option Nat}
    (hd : b.HasIndex dense d) (hdi : d ∈ b.denseIndices)
    {tau : ℝ} (ht : 0 < tau) {κ : Nat → ℝ} (hκ : ∀ t, 0 < κ t) {a : Nat → Nat} {O : Nat → Option (Set ℝ)} {l : Nat → ℝ}
    (hl : ∀ t < sim.nPeriods, b.Admissible d (coreAlong s a t) (a t) ∧
      ObservableWage (sim.rewards params) (b.choiceSetAt d (coreAlong s a t)) (w d (coreAlong s a t)) (a t) (O t) ∧
      IsObservedProbability (sim.rewards params) tau (b.choiceSetAt d (coreAlong s a t)) (w d (coreAlong s a t))
        (m d (coreAlong s a t)) (expectedNext b V d (coreAlong s a t)) (a t) (O t) (l t)) :
    Q.real {ω | ∃ out g', (sim.withRandom (rs ω) (fun r => Z r ω) (fun r => Y r ω)).run params g = (some out, g') ∧
      StartsIn out j s dense} = initialProbability j (rowOfState s dense) laws sim.input[j] ∧
    MeasurableSet {ω | ∃ out g', (sim.withRandom (rs ω) (fun r => Z r ω) (fun r => Y r ω)).run params g =
      (some out, g') ∧ StartsIn out j s dense} ∧
    MeasurableSet {ω | ∃ out g', (sim.withRandom (rs ω) (fun r => Z r ω) (fun r => Y r ω)).run params g =
      (some out, g') ∧ StartsIn out j s dense ∧ HasHistory out j sim.nPeriods a O} ∧
    |Q.real {ω | ∃ out g', (sim.withRandom (rs ω) (fun r => Z r ω) (fun r => Y r ω)).run params g = (some out, g') ∧
        StartsIn out j s dense ∧ HasHistory out j sim.nPeriods a O} -
        initialProbability j (rowOfState s dense) laws sim.input[j] * ∏ t ∈ Finset.range sim.nPeriods, l t| ≤
      initialProbability j (rowOfState s dense) laws sim.input[j] * ∑ t ∈ Finset.range sim.nPeriods,
        exceptional (sim.rewards params) (κ t) tau (b.choiceSetAt d (coreAlong s a t))
          (w d (coreAlong s a t)) (m d (coreAlong s a t)) (expectedNext b V d (coreAlong s a t)) := by
  have hmem := coreAlong_mem wf hs hs0 hdi a hperiods fun t ht => (hl t ht).1
  let E : Set (Fin laws.length → ℝ) := {u | sampledRow j laws sim.input[j] (List.ofFn u) = rowOfState s dense}
  have hE : MeasurableSet E := sampledRow_measurable j _ laws sim.input[j]
  let H := historyEvent b w m V (sim.rewards params) s d a O sim.input.length j sim.nPeriods R N
  have hH : MeasurableSet H := historyEvent_measurable hwf hexp hcodes wf hs hs0 hdi hperiods j.2 hR hN
    fun t ht => ⟨(hl t ht).1, fun B hB => ((hl t ht).2.1 B hB).2.2.2.1⟩
  have hstart : ∀ ω out g', (sim.withRandom (rs ω) (fun r => Z r ω) (fun r => Y r ω)).run params g = (some out, g') →
      (StartsIn out j s dense ↔ U j ω ∈ E) ∧ (StartsIn out j s dense → ∀ row ∈ out, row.id = (j : Nat) →
        row.state.core.period = 0 → row.state.core = s ∧ row.state.dense = dense) := by
    intro ω out g' hrun
    obtain ⟨h1, h2⟩ := startsIn_iff (sim.withRandom (rs ω) (fun r => Z r ω) (fun r => Y r ω)) (hrs ω) hrun hT j.2
      (dense := dense) hs0 hse hsl hlags
    refine ⟨h1.trans ?_, h2⟩
    obtain ⟨fp, g1, k1, _, k3⟩ := sampledRow_of_numbers Q hlaws hnum.initial ω g
    constructor
    · rintro ⟨fp', g1', h3, h4⟩
      have h3' : sampleAll (rs ω) (sim.chars params) sim.seed sim.input g = some (fp', g1') := h3
      rw [k1] at h3'
      cases h3'
      rw [k3 j] at h4
      exact Option.some.inj h4
    · intro h
      exact ⟨fp, g1, k1, by rw [k3 j]; exact congrArg some h⟩
  have hset : {ω | ∃ out g', (sim.withRandom (rs ω) (fun r => Z r ω) (fun r => Y r ω)).run params g = (some out, g') ∧
      StartsIn out j s dense ∧ HasHistory out j sim.nPeriods a O} =
      (fun ω j => U j ω) ⁻¹' ((fun u => u j) ⁻¹' E) ∩ (fun ω r => (Z r ω, Y r ω)) ⁻¹' H := by
    ext ω
    obtain ⟨out, g', hrun, _, hrows, hsteps⟩ := hsample ω
    obtain ⟨k1, k2⟩ := hstart ω out g' hrun
    have hiff : StartsIn out j s dense → (HasHistory out j sim.nPeriods a O ↔ (fun r => (Z r ω, Y r ω)) ∈ H) :=
      fun hst => hasHistory_iff hgrid (sim.withRandom (rs ω) (fun r => Z r ω) (fun r => Y r ω)) (hrs ω) params g g' hrun
        hrows hsteps hN (fun r => Z r ω) (fun r => Y r ω) rfl rfl j j.2 (fun row h1 h2 h3 => by
          obtain ⟨h4, h5⟩ := k2 hst row h1 h2 h3
          exact ⟨h4, by rw [h5]; exact hd⟩) a
        (fun t ht => simulatesState_of_wf hwf hexp hcodes hdi (hmem t ht)) O
    constructor
    · rintro ⟨out', g'', hrun', h1, h2⟩
      rw [hrun] at hrun'
      cases hrun'
      exact ⟨k1.1 h1, (hiff h1).1 h2⟩
    · rintro ⟨h1, h2⟩
      have h3 := k1.2 h1
      exact ⟨out, g', hrun, h3, (hiff h3).2 h2⟩
  have hset1 : {ω | ∃ out g', (sim.withRandom (rs ω) (fun r => Z r ω) (fun r => Y r ω)).run params g = (some out, g') ∧
      StartsIn out j s dense} = U j ⁻¹' E := by
    ext ω
    obtain ⟨out, g', hrun, _⟩ := hsample ω
    constructor
    · rintro ⟨out', g'', hrun', h1⟩
      exact (hstart ω out' g'' hrun').1.1 h1
    · intro h1
      exact ⟨out, g', hrun, (hstart ω out g' hrun).1.2 h1⟩
  have hrow : sim.input[(j : Nat)]? = some sim.input[j] := List.getElem?_eq_getElem j.2
  have hgood := followLaws_good j.2 hlaws
  have hprob : Q.real (U j ⁻¹' E) = initialProbability j (rowOfState s dense) laws sim.input[j] := by
    rw [Measure.real, ← Measure.map_apply (hnum.initial.measurable j) hE, hnum.initial.law j]
    have h1 := sampledRow_distribution j (rowOfState s dense) laws _ hgood _ hrow
    have h2 := initialProbability_nonneg (rowOfState s dense) laws _ hgood _ hrow
    show ((Measure.pi fun _ => unitUniform) E).toReal = _
    rw [show (Measure.pi fun _ => unitUniform) E = _ from h1, ENNReal.toReal_ofReal h2]
  have hmU : Measurable fun ω j => U j ω := measurable_pi_iff.2 hnum.initial.measurable
  have hmZ : Measurable fun ω r => (Z r ω, Y r ω) := measurable_pi_iff.2 fun r => (hnum.shocks.each r).measurable
  refine ⟨by rw [hset1, hprob], ?_, ?_, ?_⟩
  · rw [hset1]
    exact hnum.initial.measurable j hE
  · rw [hset]
    exact (hmU ((measurable_pi_apply j) hE)).inter (hmZ hH)
  · rw [hset, Measure.real, hnum.independent.measure_inter_preimage_eq_mul _ _ ((measurable_pi_apply j) hE) hH,
      ENNReal.toReal_mul]
    show |Q.real (U j ⁻¹' E) * Q.real ((fun ω r => (Z r ω, Y r ω)) ⁻¹' H) - _| ≤ _
    rw [hprob, ← mul_sub, abs_mul, abs_of_nonneg (initialProbability_nonneg _ laws _ hgood _ hrow)]
    exact mul_le_mul_of_nonneg_left
      (historyEvent_close Q hwf hexp hcodes hvar wf hs hs0 hdi hperiods j.2 hR hN hnum.shocks ht hκ hl)
      (initialProbability_nonneg _ laws _ hgood _ hrow)

/-- **C112.** The probability that an individual of a simulated sample starts in a state and has a history differs from
the product of the probability of the characteristics and the probability of the likelihood at most by the probability of
the characteristics times the sum of the probabilities of shocks out of bounds or near ties and the effects of
smoothing. -/
theorem C112_characteristics_and_histories (wf : b.WF core) (hgrid : b.GridNodup) (sim : Simulation ℝ G P) (params : P)
    (g : G) (hexp : (sim.rewards params).exp = Real.exp) (hwf : (sim.rewards params).WF b core)
    (hcodes : b.RecordsBest core) (hvar : b.UncertainWages core (sim.rewards params))
    (hperiods : sim.nPeriods ≤ b.core.nPeriods) (hT : 0 < sim.nPeriods) {R N : Nat}
    (hR : sim.input.length * sim.nPeriods ≤ R) (hN : (sim.rewards params).measError.length = N)
    {laws : List CharacteristicLaw}
    (hlaws : FollowLaws sim.input.length (sim.chars params) laws fun j row => sim.input[j]? = some row)
    {rs : Ω → RandomSource ℝ G} (hrs : ∀ ω, (rs ω).Contract) {U : Fin sim.input.length → Ω → Fin laws.length → ℝ}
    {Z Y : Fin R → Ω → Fin N → ℝ} (hnum : AllNumbers Q rs sim.seed U Z Y)
    (hsample : ∀ ω, SampleFollows b core w m (fun d _ => [(d, 1)]) V
      (sim.withRandom (rs ω) (fun r => Z r ω) (fun r => Y r ω)) params g)
    (j : Fin sim.input.length) {s : CoreState} (hs : s ∈ core) (hs0 : s.period = 0) (hse : s.exp.length = sim.nExp)
    (hsl : s.lags.length = sim.nLags) (hlags : ∀ x ∈ s.lags, x ≠ none) {dense : List Nat} {d : Option Nat}
    (hd : b.HasIndex dense d) (hdi : d ∈ b.denseIndices)
    {tau : ℝ} (ht : 0 < tau) {κ : Nat → ℝ} (hκ : ∀ t, 0 < κ t) {a : Nat → Nat} {O : Nat → Option (Set ℝ)} {l : Nat → ℝ}
    (hl : ∀ t < sim.nPeriods, b.Admissible d (coreAlong s a t) (a t) ∧
      ObservableWage (sim.rewards params) (b.choiceSetAt d (coreAlong s a t)) (w d (coreAlong s a t)) (a t) (O t) ∧
      IsObservedProbability (sim.rewards params) tau (b.choiceSetAt d (coreAlong s a t)) (w d (coreAlong s a t))
        (m d (coreAlong s a t)) (expectedNext b V d (coreAlong s a t)) (a t) (O t) (l t)) :
    Q.real {ω | ∃ out g', (sim.withRandom (rs ω) (fun r => Z r ω) (fun r => Y r ω)).run params g = (some out, g') ∧
      StartsIn out j s dense} = initialProbability j (rowOfState s dense) laws sim.input[j] ∧
    |Q.real {ω | ∃ out g', (sim.withRandom (rs ω) (fun r => Z r ω) (fun r => Y r ω)).run params g = (some out, g') ∧
        StartsIn out j s dense ∧ HasHistory out j sim.nPeriods a O} -
        initialProbability j (rowOfState s dense) laws sim.input[j] * ∏ t ∈ Finset.range sim.nPeriods, l t| ≤
      initialProbability j (rowOfState s dense) laws sim.input[j] * ∑ t ∈ Finset.range sim.nPeriods,
        exceptional (sim.rewards params) (κ t) tau (b.choiceSetAt d (coreAlong s a t))
          (w d (coreAlong s a t)) (m d (coreAlong s a t)) (expectedNext b V d (coreAlong s a t)) := by
  obtain ⟨h1, _, _, h2⟩ := starts_and_history Q wf hgrid sim params g hexp hwf hcodes hvar hperiods hT hR hN hlaws hrs hnum
    hsample j hs hs0 hse hsl hlags hd hdi ht hκ hl
  exact ⟨h1, h2⟩

/-! ### Types -/

theorem rowOfState_type (s : CoreState) (obs : List Nat) (v : Nat) :
    rowOfState s (obs ++ [v]) = rowOfState s obs ++ [some v] := by
  simp [rowOfState]

theorem rowOfState_length (s : CoreState) (obs : List Nat) :
    (rowOfState s obs).length = s.exp.length + s.lags.length + obs.length := by
  simp [rowOfState, Nat.add_assoc]

theorem goodLaws_last {j : Nat} {t : CharRow} {l : CharacteristicLaw} : ∀ {laws : List CharacteristicLaw}
    {R : CharRow → Prop}, GoodLaws j (laws ++ [l]) R → l.levels.Nodup ∧
      ∀ row, R row → initialProbability j t laws row ≠ 0 → IsDistribution l.levels (l.weights j t) := by
  intro laws
  induction laws with
  | nil =>
    intro R h
    refine ⟨h.1, fun row hr hne => ?_⟩
    rw [initialProbability] at hne
    have : row = t := by
      by_contra hn
      exact hne (if_neg hn)
    rw [← this]
    exact h.2.1 row hr
  | cons k laws ih =>
    intro R h
    obtain ⟨_, _, hg⟩ := h
    obtain ⟨h1, h2⟩ := ih hg
    refine ⟨h1, fun row hr hne => ?_⟩
    by_contra hn
    refine hne ?_
    rw [initialProbability]
    refine List.sum_eq_zero fun y hy => ?_
    obtain ⟨x, hx, rfl⟩ := List.mem_map.1 hy
    by_contra hne'
    exact hn (h2 _ ⟨row, hr, x.1, (List.of_mem_zip hx).1, rfl⟩ (right_ne_zero_of_mul hne'))

/-- **C112.** Types are sampled last and not observed. The probability that an individual starts with the other
characteristics `s` and `obs` is the one of these characteristics, and given them, the probability of a history differs
from the mixture over types of the probabilities of the likelihood, weighted with the probabilities of types given the
characteristics, at most by the mixture of the probabilities of shocks out of bounds or near ties and the effects of
smoothing. -/
theorem C112_unobserved_types (wf : b.WF core) (hgrid : b.GridNodup) (sim : Simulation ℝ G P) (params : P)
    (g : G) (hexp : (sim.rewards params).exp = Real.exp) (hwf : (sim.rewards params).WF b core)
    (hcodes : b.RecordsBest core) (hvar : b.UncertainWages core (sim.rewards params))
    (hperiods : sim.nPeriods ≤ b.core.nPeriods) (hT : 0 < sim.nPeriods) {R N : Nat}
    (hR : sim.input.length * sim.nPeriods ≤ R) (hN : (sim.rewards params).measError.length = N)
    {laws : List CharacteristicLaw} {types : CharacteristicLaw}
    (hlaws : FollowLaws sim.input.length (sim.chars params) (laws ++ [types]) fun j row => sim.input[j]? = some row)
    {rs : Ω → RandomSource ℝ G} (hrs : ∀ ω, (rs ω).Contract)
    {U : Fin sim.input.length → Ω → Fin (laws ++ [types]).length → ℝ}
    {Z Y : Fin R → Ω → Fin N → ℝ} (hnum : AllNumbers Q rs sim.seed U Z Y)
    (hsample : ∀ ω, SampleFollows b core w m (fun d _ => [(d, 1)]) V
      (sim.withRandom (rs ω) (fun r => Z r ω) (fun r => Y r ω)) params g)
    (j : Fin sim.input.length) (hmissing : sim.input[j][types.column]? = some none)
    (hcol : types.column ∉ laws.map (·.column)) {s : CoreState} (hs : s ∈ core) (hs0 : s.period = 0)
    (hse : s.exp.length = sim.nExp) (hsl : s.lags.length = sim.nLags) (hlags : ∀ x ∈ s.lags, x ≠ none) {obs : List Nat}
    (hobs : types.column = sim.nExp + sim.nLags + obs.length) {d : Nat → Option Nat}
    (hd : ∀ v ∈ types.levels, b.HasIndex (obs ++ [v]) (d v) ∧ d v ∈ b.denseIndices)
    {tau : ℝ} (ht : 0 < tau) {κ : Nat → Nat → ℝ} (hκ : ∀ v t, 0 < κ v t) {a : Nat → Nat} {O : Nat → Option (Set ℝ)}
    {l : Nat → Nat → ℝ}
    (hl : ∀ v ∈ types.levels, ∀ t < sim.nPeriods, b.Admissible (d v) (coreAlong s a t) (a t) ∧
      ObservableWage (sim.rewards params) (b.choiceSetAt (d v) (coreAlong s a t)) (w (d v) (coreAlong s a t)) (a t)
        (O t) ∧
      IsObservedProbability (sim.rewards params) tau (b.choiceSetAt (d v) (coreAlong s a t)) (w (d v) (coreAlong s a t))
        (m (d v) (coreAlong s a t)) (expectedNext b V (d v) (coreAlong s a t)) (a t) (O t) (l v t)) :
    ∃ ps, ps = types.weights j (rowOfState s obs ++ [none]) ∧
      (initialProbability j (rowOfState s obs ++ [none]) laws sim.input[j] ≠ 0 → IsDistribution types.levels ps) ∧
    Q.real {ω | ∃ out g', (sim.withRandom (rs ω) (fun r => Z r ω) (fun r => Y r ω)).run params g = (some out, g') ∧
      ∃ v ∈ types.levels, StartsIn out j s (obs ++ [v])} =
        initialProbability j (rowOfState s obs ++ [none]) laws sim.input[j] ∧
    |Q.real {ω | ∃ out g', (sim.withRandom (rs ω) (fun r => Z r ω) (fun r => Y r ω)).run params g = (some out, g') ∧
        (∃ v ∈ types.levels, StartsIn out j s (obs ++ [v])) ∧ HasHistory out j sim.nPeriods a O} -
        initialProbability j (rowOfState s obs ++ [none]) laws sim.input[j] *
          ((types.levels.zip ps).map fun x => x.2 * ∏ t ∈ Finset.range sim.nPeriods, l x.1 t).sum| ≤
      initialProbability j (rowOfState s obs ++ [none]) laws sim.input[j] *
        ((types.levels.zip ps).map fun x => x.2 * ∑ t ∈ Finset.range sim.nPeriods,
          exceptional (sim.rewards params) (κ x.1 t) tau (b.choiceSetAt (d x.1) (coreAlong s a t))
            (w (d x.1) (coreAlong s a t)) (m (d x.1) (coreAlong s a t))
            (expectedNext b V (d x.1) (coreAlong s a t))).sum := by
  have hrow : sim.input[(j : Nat)]? = some sim.input[j] := List.getElem?_eq_getElem j.2
  have hgood := followLaws_good j.2 hlaws
  obtain ⟨hnd, hdist⟩ := goodLaws_last (t := rowOfState s obs ++ [none]) hgood
  have hdist := hdist _ hrow
  refine ⟨_, rfl, hdist, ?_⟩
  generalize hps : types.weights j (rowOfState s obs ++ [none]) = ps at hdist ⊢
  generalize hP : initialProbability j (rowOfState s obs ++ [none]) laws sim.input[j] = P at hdist ⊢
  let v : Nat → Nat := fun i => types.levels.getD i 0
  have hv : ∀ i < types.levels.length, types.levels[i]? = some (v i) := fun i hi => by
    simp only [v, getD_of_lt hi, List.getElem?_eq_getElem hi]
  have hvmem : ∀ i < types.levels.length, v i ∈ types.levels := fun i hi => List.mem_of_getElem? (hv i hi)
  have hprob : ∀ i < types.levels.length,
      initialProbability j (rowOfState s (obs ++ [v i])) (laws ++ [types]) sim.input[j] = P * ps.getD i 0 := by
    intro i hi
    have hk : types.column = (rowOfState s obs).length := by rw [rowOfState_length, hse, hsl, hobs]
    have hset : (rowOfState s (obs ++ [v i])).set types.column none = rowOfState s obs ++ [none] := by
      rw [rowOfState_type, hk, List.set_append_right _ _ (le_refl _), Nat.sub_self]
      rfl
    have h1 := C111_last_characteristic (target := rowOfState s (obs ++ [v i])) hnd (hv i hi) (by
      rw [rowOfState_type, hk, List.getElem?_append_right (le_refl _), Nat.sub_self]
      rfl) hgood hcol hrow hmissing
    rw [h1, hset, hP, hps]
  let B : Nat → Set Ω := fun i => {ω | ∃ out g', (sim.withRandom (rs ω) (fun r => Z r ω) (fun r => Y r ω)).run params g =
    (some out, g') ∧ StartsIn out j s (obs ++ [v i])}
  let A : Nat → Set Ω := fun i => {ω | ∃ out g', (sim.withRandom (rs ω) (fun r => Z r ω) (fun r => Y r ω)).run params g =
    (some out, g') ∧ StartsIn out j s (obs ++ [v i]) ∧ HasHistory out j sim.nPeriods a O}
  have hAB : ∀ i, A i ⊆ B i := by
    rintro i ω ⟨out, g', h1, h2, _⟩
    exact ⟨out, g', h1, h2⟩
  have hmain := fun i (hi : i < types.levels.length) => starts_and_history (κ := κ (v i)) Q wf hgrid sim params g hexp hwf
    hcodes hvar hperiods hT hR hN hlaws hrs hnum hsample j hs hs0 hse hsl hlags (hd (v i) (hvmem i hi)).1
    (hd (v i) (hvmem i hi)).2 ht (hκ (v i)) (hl (v i) (hvmem i hi))
  have hdisjB : (Finset.range types.levels.length : Set Nat).PairwiseDisjoint B := by
    intro i hi i' hi' hne
    rw [Function.onFun, Set.disjoint_left]
    rintro ω ⟨out, g', hrun, h1⟩ ⟨out', g'', hrun', h2⟩
    rw [hrun] at hrun'
    cases hrun'
    obtain ⟨row, k1, k2, k3, _, k4⟩ := h2
    have h3 := ((startsIn_iff (sim.withRandom (rs ω) (fun r => Z r ω) (fun r => Y r ω)) (hrs ω) hrun hT j.2
      (dense := obs ++ [v i]) hs0 hse hsl hlags).2 h1 row k1 k2 k3).2
    rw [k4] at h3
    have h4 : v i' = v i := by simpa using h3
    have hi := Finset.mem_range.1 (Finset.mem_coe.1 hi)
    have hi' := Finset.mem_range.1 (Finset.mem_coe.1 hi')
    simp only [v, getD_of_lt hi, getD_of_lt hi'] at h4
    exact hne ((List.Nodup.getElem_inj_iff hnd).1 h4).symm
  have hdisjA : (Finset.range types.levels.length : Set Nat).PairwiseDisjoint A :=
    hdisjB.mono_on fun i _ => hAB i
  have hlevel : ∀ x ∈ types.levels, ∃ i < types.levels.length, x = v i := by
    intro x hx
    obtain ⟨i, hi, rfl⟩ := List.mem_iff_getElem.1 hx
    exact ⟨i, hi, by simp only [v, getD_of_lt hi]⟩
  have hsetB : {ω | ∃ out g', (sim.withRandom (rs ω) (fun r => Z r ω) (fun r => Y r ω)).run params g = (some out, g') ∧
      ∃ v ∈ types.levels, StartsIn out j s (obs ++ [v])} = ⋃ i ∈ Finset.range types.levels.length, B i := by
    ext ω
    simp only [Set.mem_ofPred_eq, Set.mem_iUnion, Finset.mem_range, B]
    constructor
    · rintro ⟨out, g', h1, x, hx, h2⟩
      obtain ⟨i, hi, rfl⟩ := hlevel x hx
      exact ⟨i, hi, out, g', h1, h2⟩
    · rintro ⟨i, hi, out, g', h1, h2⟩
      exact ⟨out, g', h1, v i, hvmem i hi, h2⟩
  have hsetA : {ω | ∃ out g', (sim.withRandom (rs ω) (fun r => Z r ω) (fun r => Y r ω)).run params g = (some out, g') ∧
      (∃ v ∈ types.levels, StartsIn out j s (obs ++ [v])) ∧ HasHistory out j sim.nPeriods a O} =
        ⋃ i ∈ Finset.range types.levels.length, A i := by
    ext ω
    simp only [Set.mem_ofPred_eq, Set.mem_iUnion, Finset.mem_range, A]
    constructor
    · rintro ⟨out, g', h1, ⟨x, hx, h2⟩, h3⟩
      obtain ⟨i, hi, rfl⟩ := hlevel x hx
      exact ⟨i, hi, out, g', h1, h2, h3⟩
    · rintro ⟨i, hi, out, g', h1, h2, h3⟩
      exact ⟨out, g', h1, ⟨v i, hvmem i hi, h2⟩, h3⟩
  have hsum : ∀ F : Nat → ℝ, P * ((types.levels.zip ps).map fun x => x.2 * F x.1).sum =
      ∑ i ∈ Finset.range types.levels.length, P * ps.getD i 0 * F (v i) := by
    intro F
    by_cases h0 : P = 0
    · simp [h0]
    · rw [sum_zip_eq (hdist h0).1 fun x q => q * F x, Finset.mul_sum]
      exact Finset.sum_congr rfl fun i _ => (mul_assoc _ _ _).symm
  refine ⟨?_, ?_⟩
  · rw [hsetB, measureReal_biUnion_finset hdisjB fun i hi => (hmain i (Finset.mem_range.1 hi)).2.1]
    have h1 := hsum fun _ => 1
    simp only [mul_one] at h1
    rw [show (∑ i ∈ Finset.range types.levels.length, Q.real (B i)) =
      ∑ i ∈ Finset.range types.levels.length, P * ps.getD i 0 from Finset.sum_congr rfl fun i hi =>
        (hmain i (Finset.mem_range.1 hi)).1.trans (hprob i (Finset.mem_range.1 hi)), ← h1]
    by_cases h0 : P = 0
    · simp [h0]
    · have h2 : ((types.levels.zip ps).map fun x => x.2) = ps := List.map_snd_zip (by rw [(hdist h0).1])
      rw [h2, (hdist h0).2.2, mul_one]
  · rw [hsetA, measureReal_biUnion_finset hdisjA fun i hi => (hmain i (Finset.mem_range.1 hi)).2.2.1,
      hsum fun x => ∏ t ∈ Finset.range sim.nPeriods, l x t,
      hsum fun x => ∑ t ∈ Finset.range sim.nPeriods, exceptional (sim.rewards params) (κ x t) tau
        (b.choiceSetAt (d x) (coreAlong s a t)) (w (d x) (coreAlong s a t)) (m (d x) (coreAlong s a t))
        (expectedNext b V (d x) (coreAlong s a t)), ← Finset.sum_sub_distrib]
    refine (Finset.abs_sum_le_sum_abs _ _).trans (Finset.sum_le_sum fun i hi => ?_)
    have h1 := (hmain i (Finset.mem_range.1 hi)).2.2.2
    rw [hprob i (Finset.mem_range.1 hi)] at h1
    exact h1

end

end Respy
