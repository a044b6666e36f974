import Verif.Lemmas.Individuals
import Verif.Props.SimulateModel

/-!
# Individuals of a simulation (C97)
-/

namespace Respy

variable {K : Type _} [Field K] [LinearOrder K] {G P : Type _}

theorem pick_getElem? {α : Type _} (js : List Nat) (l : List α) (hjs : ∀ j ∈ js, j < l.length) (i : Nat) :
    (pick js l)[i]? = js[i]?.bind fun j => l[j]? := by
  unfold pick
  induction js generalizing i with
  | nil => simp
  | cons j js ih =>
    have hj : l[j]? = some (l[j]'(hjs j (by simp))) := List.getElem?_eq_getElem _
    rw [List.filterMap_cons_some hj]
    cases i with
    | zero => simp [hj]
    | succ i => simpa using ih (fun j h => hjs j (List.mem_cons_of_mem _ h)) i

theorem pick_length {α : Type _} (js : List Nat) (l : List α) (hjs : ∀ j ∈ js, j < l.length) :
    (pick js l).length = js.length := by
  unfold pick
  induction js with
  | nil => rfl
  | cons j js ih =>
    have hj : l[j]? = some (l[j]'(hjs j (by simp))) := List.getElem?_eq_getElem _
    rw [List.filterMap_cons_some hj]
    simpa using ih fun j h => hjs j (List.mem_cons_of_mem _ h)

omit [Field K] [LinearOrder K] in
theorem pick_map {α β : Type _} (js : List Nat) (l : List α) (f : α → β) :
    (pick js l).map f = pick js (l.map f) := by
  unfold pick
  rw [List.map_filterMap]
  simp

/-- **C97** Without exogenous processes individuals do not affect each other: any selection of some of the
individuals of a sample, in any order and with repetitions, can be simulated with the draws they had, and
each has the rows it had before. -/
theorem C97_selection_partial (rs : RandomSource K G) (hrs : rs.Contract) (p : RewardParams K) (sp : SimSpace K)
    (hx : sp.nExog = 0) (draws drawsWage : List (List K)) (periods : Nat) (agents : List (Nat × SimState))
    (g g' : G) (data : List (List (SimRow K))) (hper : ∀ a ∈ agents, a.2.core.period = 0)
    (h : simulateLoop rs p sp draws drawsWage periods 0 agents g = some (data, g'))
    (js : List Nat) (hne : js ≠ []) (hjs : ∀ j ∈ js, j < agents.length) (own ownWage : List (List K))
    (hown : OwnDraws js agents.length periods draws own)
    (hownWage : OwnDraws js agents.length periods drawsWage ownWage) :
    simulateLoop rs p sp own ownWage periods 0 (pick js agents) g = some (data.map (pick js), g) := by
  have hl := simulateLoop_loopRows rs hrs p sp draws drawsWage periods 0 agents g g' data hper h
  have hrl : ∀ (t : Nat) rows, data[t]? = some rows → rows.length = agents.length := by
    intro t rows ht
    have := congrArg List.length (hl.ids t rows ht)
    simpa using this
  have hjr : ∀ (t : Nat) rows, data[t]? = some rows → ∀ j ∈ js, j < rows.length := by
    intro t rows ht j hj
    rw [hrl t rows ht]; exact hjs j hj
  have hget : ∀ (t : Nat) rows', (data.map (pick js))[t]? = some rows' →
      ∃ rows, data[t]? = some rows ∧ rows' = pick js rows := by
    intro t rows' ht
    rw [List.getElem?_map] at ht
    obtain ⟨rows, h1, h2⟩ := Option.map_eq_some_iff.1 ht
    exact ⟨rows, h1, h2.symm⟩
  have hat : ∀ (t : Nat) rows, data[t]? = some rows → ∀ (i : Nat) row, (pick js rows)[i]? = some row →
      ∃ j, js[i]? = some j ∧ rows[j]? = some row := by
    intro t rows ht i row hi
    rw [pick_getElem? js rows (hjr t rows ht)] at hi
    exact Option.bind_eq_some_iff.1 hi
  refine LoopRows.loop hx rs g ?_ ⟨by simp [hl.length], ?_, ?_, ?_, hl.cvs, ?_, ?_⟩
  · intro a ha
    obtain ⟨j, _, hj⟩ := List.mem_filterMap.1 ha
    exact hper a (List.mem_of_getElem? hj)
  · intro _ hnil
    obtain ⟨j, hj⟩ := List.exists_mem_of_ne_nil _ hne
    have hmem : agents[j]'(hjs j hj) ∈ pick js agents :=
      List.mem_filterMap.2 ⟨j, hj, List.getElem?_eq_getElem (hjs j hj)⟩
    rw [hnil] at hmem
    simp at hmem
  · intro rows' h0
    obtain ⟨rows, h1, rfl⟩ := hget 0 rows' h0
    rw [pick_map, hl.start rows h1]
  · intro t rows' h0
    obtain ⟨rows, h1, rfl⟩ := hget t rows' h0
    rw [pick_map, hl.ids t rows h1, pick_map]
  · intro t rows' h0 i row hi
    obtain ⟨rows, h1, rfl⟩ := hget t rows' h0
    obtain ⟨j, hj, hrow⟩ := hat t rows h1 i row hi
    have ht : t < periods := by
      have := (List.getElem?_eq_some_iff.1 h1).1; rw [hl.length] at this; exact this
    obtain ⟨e1, e2, e3, e4⟩ := hl.row t rows h1 j row hrow
    rw [pick_length js agents hjs]
    simp only [Nat.zero_add] at e1 e2 e3 e4 ⊢
    exact ⟨e1, by rw [hown t ht i j hj, e2], by rw [hownWage t ht i j hj, e3], e4⟩
  · intro t a' b' ha hb i row row' hi hi'
    obtain ⟨a, h1, rfl⟩ := hget t a' ha
    obtain ⟨b, h2, rfl⟩ := hget (t + 1) b' hb
    obtain ⟨j, hj, hrow⟩ := hat t a h1 i row hi
    obtain ⟨j', hj', hrow'⟩ := hat (t + 1) b h2 i row' hi'
    rw [hj] at hj'
    cases hj'
    exact hl.step t a b h1 h2 j row row' hrow hrow'

/-- The identifier is only recorded. -/
theorem simulateRow_same (p : RewardParams K) (sp : SimSpace K) (period : Nat)
    (cvs : Dict Nat (List (List K))) (id id' : Nat) (s : SimState) (base baseWage : List K)
    (row row' : SimRow K) (h : simulateRow p sp period cvs id s base baseWage = some row)
    (h' : simulateRow p sp period cvs id' s base baseWage = some row') : SameExperience row row' := by
  obtain ⟨_, a1, a2, a3, a4, cx, wages, nonpecs, cv, w, m, c, b1, b2, b3, b4, b5, b6, b7, b8, b9⟩ :=
    simulateRow_fields _ _ _ _ _ _ _ _ _ h
  obtain ⟨_, a1', a2', a3', a4', cx', wages', nonpecs', cv', w', m', c', b1', b2', b3', b4', b5', b6', b7',
    b8', b9'⟩ := simulateRow_fields _ _ _ _ _ _ _ _ _ h'
  rw [a4] at a4'
  simp only [Option.some.injEq, Prod.mk.injEq] at a4'
  obtain ⟨k1, k2⟩ := a4'
  rw [← k1] at b1' b3' b4' b5'
  rw [← k2] at b6' b7' b8'
  rw [b1] at b1'; cases b1'
  rw [b3] at b3'; cases b3'
  rw [b4] at b4'; cases b4'
  rw [b5] at b5'; cases b5'
  rw [b6] at b6'; cases b6'
  rw [b7] at b7'; cases b7'
  rw [b8] at b8'; cases b8'
  rw [b9] at b9'
  exact ⟨a1.trans a1'.symm, k1, k2, a2.trans a2'.symm, a3.trans a3'.symm, Option.some.inj b9'⟩

/-- **C97** Individuals of two simulations with the same solution who start in the same state and have the
same draws have the same states, choices, wages and values in each period, whoever else is in the
samples. -/
theorem C97_same_start_same_path_partial (rs rs' : RandomSource K G) (hrs : rs.Contract) (hrs' : rs'.Contract)
    (p : RewardParams K) (sp : SimSpace K) (hx : sp.nExog = 0)
    (draws drawsWage draws' drawsWage' : List (List K)) (periods : Nat)
    (agents agents' : List (Nat × SimState)) (g1 g2 g1' g2' : G) (data data' : List (List (SimRow K)))
    (hper : ∀ a ∈ agents, a.2.core.period = 0) (hper' : ∀ a ∈ agents', a.2.core.period = 0)
    (h : simulateLoop rs p sp draws drawsWage periods 0 agents g1 = some (data, g2))
    (h' : simulateLoop rs' p sp draws' drawsWage' periods 0 agents' g1' = some (data', g2'))
    (i j : Nat) (id id' : Nat) (s : SimState) (hi : agents[i]? = some (id, s))
    (hj : agents'[j]? = some (id', s))
    (hd : ∀ t < periods, draws[agents.length * t + i]? = draws'[agents'.length * t + j]?)
    (hw : ∀ t < periods, drawsWage[agents.length * t + i]? = drawsWage'[agents'.length * t + j]?)
    (t : Nat) (rows rows' : List (SimRow K)) (row row' : SimRow K) (ht : data[t]? = some rows)
    (ht' : data'[t]? = some rows') (hr : rows[i]? = some row) (hr' : rows'[j]? = some row') :
    SameExperience row row' := by
  have hl := simulateLoop_loopRows rs hrs p sp draws drawsWage periods 0 agents g1 g2 data hper h
  have hl' := simulateLoop_loopRows rs' hrs' p sp draws' drawsWage' periods 0 agents' g1' g2' data' hper' h'
  have key : ∀ (t : Nat) rows rows' row row', data[t]? = some rows → data'[t]? = some rows' →
      rows[i]? = some row → rows'[j]? = some row' → row.state = row'.state → SameExperience row row' := by
    intro t rows rows' row row' ht ht' hr hr' hs
    have htl : t < periods := by
      have := (List.getElem?_eq_some_iff.1 ht).1; rw [hl.length] at this; exact this
    obtain ⟨_, e2, e3, cvs, e4, e5⟩ := hl.row t rows ht i row hr
    obtain ⟨_, f2, f3, cvs', f4, f5⟩ := hl'.row t rows' ht' j row' hr'
    simp only [Nat.zero_add] at e2 e3 e4 e5 f2 f3 f4 f5
    rw [e4] at f4; cases f4
    rw [hd t htl, f2] at e2
    rw [hw t htl, f3] at e3
    rw [hs, ← Option.some.inj e2, ← Option.some.inj e3] at e5
    exact simulateRow_same _ _ _ _ _ _ _ _ _ _ _ e5 f5
  induction t generalizing rows rows' row row' with
  | zero =>
    refine key 0 rows rows' row row' ht ht' hr hr' ?_
    have e := hl.start rows ht
    have e' := hl'.start rows' ht'
    rw [← e, List.getElem?_map, hr] at hi
    rw [← e', List.getElem?_map, hr'] at hj
    simp only [Option.map_some, Option.some.injEq, Prod.mk.injEq] at hi hj
    rw [hi.2, hj.2]
  | succ t ih =>
    have htl := (List.getElem?_eq_some_iff.1 ht).1
    have htl' := (List.getElem?_eq_some_iff.1 ht').1
    have hp : data[t]? = some data[t] := List.getElem?_eq_getElem (by omega)
    have hp' : data'[t]? = some data'[t] := List.getElem?_eq_getElem (by omega)
    have hlen : ∀ (t : Nat) rows, data[t]? = some rows → rows.length = agents.length := fun t rows ht => by
      simpa using congrArg List.length (hl.ids t rows ht)
    have hlen' : ∀ (t : Nat) rows, data'[t]? = some rows → rows.length = agents'.length :=
      fun t rows ht => by simpa using congrArg List.length (hl'.ids t rows ht)
    have hil : i < data[t].length := by
      rw [hlen t _ hp]; exact (List.getElem?_eq_some_iff.1 hi).1
    have hjl : j < data'[t].length := by
      rw [hlen' t _ hp']; exact (List.getElem?_eq_some_iff.1 hj).1
    have same := ih _ _ _ _ hp hp' (List.getElem?_eq_getElem hil) (List.getElem?_eq_getElem hjl)
    obtain ⟨c1, d1, _⟩ := hl.step t _ _ hp ht i _ _ (List.getElem?_eq_getElem hil) hr
    obtain ⟨c2, d2, _⟩ := hl'.step t _ _ hp' ht' j _ _ (List.getElem?_eq_getElem hjl) hr'
    refine key (t + 1) rows rows' row row' ht ht' hr hr' ?_
    have hc : row.state.core = row'.state.core := by rw [c1, c2, same.state, same.outcome]
    have hdn : row.state.dense = row'.state.dense := by rw [d1 hx, d2 hx, same.state]
    rcases hrs1 : row.state with ⟨c, d⟩
    rcases hrs2 : row'.state with ⟨c', d'⟩
    rw [hrs1, hrs2] at hc hdn
    exact congrArg₂ SimState.mk hc hdn

omit [Field K] [LinearOrder K] in
theorem chunk_eq_of_take_eq {α : Type _} (l l' : List α) (m a n : Nat) (h : l.take m = l'.take m)
    (hm : a + n ≤ m) : (l.drop a).take n = (l'.drop a).take n := by
  rw [List.take_drop, List.take_drop]
  have e : ∀ x : List α, x.take (a + n) = (x.take m).take (a + n) := by
    intro x; rw [List.take_take, Nat.min_eq_left hm]
  rw [e l, e l', h]

/-- **C97** A simulation of fewer periods is the beginning of a longer one, with or without exogenous
processes, if the first draws are the same. -/
theorem C97_fewer_periods (rs : RandomSource K G) (p : RewardParams K) (sp : SimSpace K)
    (draws drawsWage draws' drawsWage' : List (List K)) (r k period : Nat)
    (agents : List (Nat × SimState)) (g g' : G) (data : List (List (SimRow K)))
    (hper : ∀ a ∈ agents, a.2.core.period = period)
    (hd : draws.take (agents.length * (period + r)) = draws'.take (agents.length * (period + r)))
    (hw : drawsWage.take (agents.length * (period + r)) = drawsWage'.take (agents.length * (period + r)))
    (h : simulateLoop rs p sp draws drawsWage (r + k) period agents g = some (data, g')) :
    ∃ g'', simulateLoop rs p sp draws' drawsWage' r period agents g = some (data.take r, g'') := by
  induction r generalizing period agents g g' data with
  | zero => exact ⟨g, rfl⟩
  | succ r ih =>
    have hcur : (agents.filter fun a => decide (a.2.core.period = period)) = agents :=
      List.filter_eq_self.2 fun a ha => by simpa using hper a ha
    have hle : agents.length * period + agents.length ≤ agents.length * (period + (r + 1)) := by
      rw [← Nat.mul_succ]; exact Nat.mul_le_mul_left _ (by omega)
    have hb := chunk_eq_of_take_eq _ _ _ _ _ hd hle
    have hbw := chunk_eq_of_take_eq _ _ _ _ _ hw hle
    rw [show r + 1 + k = (r + k) + 1 by omega] at h
    unfold simulateLoop at h ⊢
    simp only [hcur] at h ⊢
    rw [← hb, ← hbw]
    split at h
    · rename_i hl
      rw [if_pos hl]
      obtain ⟨cvs, hcvs, h⟩ := Option.bind_eq_some_iff.1 h
      obtain ⟨rows, hrows, h⟩ := Option.bind_eq_some_iff.1 h
      obtain ⟨⟨next, g1⟩, hnext, h⟩ := Option.bind_eq_some_iff.1 h
      rw [hcvs, Option.bind_eq_bind, Option.bind_some, hrows, Option.bind_eq_bind, Option.bind_some, hnext,
        Option.bind_eq_bind, Option.bind_some]
      dsimp only at h ⊢
      split at h
      · rename_i h0
        cases h
        have : r = 0 := by omega
        subst this
        exact ⟨_, rfl⟩
      · obtain ⟨agents', hag, h⟩ := Option.bind_eq_some_iff.1 h
        obtain ⟨⟨rest, g2⟩, h2, h⟩ := Option.bind_eq_some_iff.1 h
        cases h
        split
        · rename_i h0
          subst h0
          exact ⟨g1, rfl⟩
        · have hlen : agents'.length = agents.length := by
            rw [mapM_eq_some_length _ _ _ hag, List.length_zipIdx, mapM_eq_some_length _ _ _ hrows]
            simp [hl.1, hl.2]
          have hper' : ∀ a ∈ agents', a.2.core.period = period + 1 := by
            intro a ha
            obtain ⟨i, hi⟩ := List.mem_iff_getElem?.1 ha
            have hlt : i < rows.length := by
              have := (List.getElem?_eq_some_iff.1 hi).1
              rwa [mapM_eq_some_length _ _ _ hag, List.length_zipIdx] at this
            have hz : rows.zipIdx[i]? = some (rows[i], i) := by
              rw [List.getElem?_zipIdx, List.getElem?_eq_getElem hlt]; simp
            have e := mapM_getElem? _ _ _ hag i _ hz
            rw [hi] at e
            obtain ⟨s, hs, e⟩ := Option.bind_eq_some_iff.1 e.symm
            cases e
            have hlz : i < (agents.zip (((draws.drop (agents.length * period)).take agents.length).zip
                ((drawsWage.drop (agents.length * period)).take agents.length))).length := by
              rwa [← mapM_eq_some_length _ _ _ hrows]
            have e2 := mapM_getElem? _ _ _ hrows i _ (List.getElem?_eq_getElem hlz)
            rw [List.getElem?_eq_getElem hlt] at e2
            obtain ⟨_, f2, _⟩ := simulateRow_fields _ _ _ _ _ _ _ _ _ e2.symm
            have hst : rows[i].state.core.period = period := by
              rw [f2, List.getElem_zip]
              exact hper _ (List.getElem_mem _)
            have hsc : s.core = lawOfMotion rows[i].state.core rows[i].outcome.choice := by
              unfold nextState at hs
              split at hs
              · cases hs; rfl
              · obtain ⟨_, _, hs⟩ := Option.bind_eq_some_iff.1 hs
                obtain ⟨_, _, hs⟩ := Option.bind_eq_some_iff.1 hs
                cases hs; rfl
            rw [hsc]
            show rows[i].state.core.period + 1 = period + 1
            rw [hst]
          obtain ⟨g3, h3⟩ := ih (period + 1) agents' g1 _ rest hper'
            (by rw [hlen, show period + 1 + r = period + (r + 1) by omega]; exact hd)
            (by rw [hlen, show period + 1 + r = period + (r + 1) by omega]; exact hw) h2
          refine ⟨g3, ?_⟩
          rw [hag, Option.bind_eq_bind, Option.bind_some, h3]
          rfl
    · simp at h

/-- **C97** Simulating one step ahead from a simulated sample with the shocks of the sample returns the
rows of the sample, period by period, in the order in which they are given. `out` can be any part of
samples simulated with the same solution which has rows in each period. -/
theorem C97_one_step_ahead_again (p : RewardParams K) (sp : SimSpace K) (periods : Nat)
    (out : List (SimRow K)) (hper : ∀ t < periods, ∃ r ∈ out, r.state.core.period = t)
    (hcvs : ∀ t < periods, ∃ cvs, sp.cvs t = some cvs)
    (hout : ∀ r ∈ out, ∃ cvs, sp.cvs r.state.core.period = some cvs ∧
      simulateRow p sp r.state.core.period cvs r.id r.state r.base r.baseWage = some r) :
    simulateOneStep p sp (out.map (·.base)) (out.map (·.baseWage)) (out.map fun r => (r.id, r.state))
      periods =
      some ((List.range periods).map fun t => out.filter fun r => decide (r.state.core.period = t)) := by
  unfold simulateOneStep
  rw [mapM_eq_some_iff, List.forall₂_map_right_iff]
  refine List.forall₂_same.2 fun t ht => ?_
  obtain ⟨cvs, hc⟩ := hcvs t (List.mem_range.1 ht)
  rw [hc]
  simp only [Option.bind_eq_bind, Option.bind_some, List.length_map]
  have hpos : ((List.range out.length).filter fun i =>
      decide (((out.map fun r => (r.id, r.state))[i]?.map fun a => a.2.core.period) = some t)) =
      (out.zipIdx.filter fun x => decide (x.1.state.core.period = t)).map Prod.snd := by
    rw [List.range_eq_range', ← List.zipIdx_map_snd 0 out, List.filter_map]
    congr 1
    refine List.filter_congr fun x hx => ?_
    obtain ⟨_, _, e⟩ := List.mem_zipIdx hx
    have hi : out[x.2]? = some x.1 := by
      rw [e]; simp
    simp [hi]
  rw [hpos]
  have hval : (out.filter fun r => decide (r.state.core.period = t)) =
      (out.zipIdx.filter fun x => decide (x.1.state.core.period = t)).map Prod.fst := by
    conv_lhs => rw [← List.zipIdx_map_fst 0 out, List.filter_map]
    rfl
  have hne : ¬ (out.zipIdx.filter fun x => decide (x.1.state.core.period = t)).map Prod.snd = [] := by
    obtain ⟨r, hr, hrt⟩ := hper t (List.mem_range.1 ht)
    have hmem : r ∈ (out.zipIdx.filter fun x => decide (x.1.state.core.period = t)).map Prod.fst := by
      rw [← hval]
      exact List.mem_filter.2 ⟨hr, by simpa using hrt⟩
    intro hnil
    rw [List.map_eq_nil_iff.1 hnil] at hmem
    simp at hmem
  rw [if_neg hne]
  rw [hval, mapM_eq_some_iff, List.forall₂_map_left_iff, List.forall₂_map_right_iff]
  refine List.forall₂_same.2 fun x hx => ?_
  obtain ⟨hmem, hp⟩ := List.mem_filter.1 hx
  have hi : out[x.2]? = some x.1 := by
    obtain ⟨_, _, e⟩ := List.mem_zipIdx hmem
    rw [e]; simp
  simp only [decide_eq_true_eq] at hp
  obtain ⟨cvs', hc', hs⟩ := hout x.1 (List.mem_of_getElem? hi)
  rw [hp, hc] at hc'
  cases hc'
  rw [hp] at hs
  simp only [List.getElem?_map, hi, Option.map_some, Option.bind_some]
  exact hs

omit [Field K] [LinearOrder K] in
theorem initial_period {sim : Simulation K G P} {fp : List CharRow} {states : List SimState}
    (hst : fp.mapM (rowToState sim.nExp sim.nLags) = some states) :
    ∀ a ∈ states.zipIdx.map (fun x => (x.2, x.1)), a.2.core.period = 0 := by
  intro a ha
  obtain ⟨⟨s, i⟩, hx, rfl⟩ := List.mem_map.1 ha
  obtain ⟨j, hj⟩ := List.mem_iff_getElem?.1 (List.fst_mem_of_mem_zipIdx hx)
  have hjlt : j < fp.length := by
    rw [← mapM_eq_some_length _ _ _ hst]; exact (List.getElem?_eq_some_iff.1 hj).1
  have := mapM_getElem? _ _ _ hst j _ (List.getElem?_eq_getElem hjlt)
  rw [hj] at this
  exact rowToState_period _ _ _ _ this.symm

/-- **C97** One-step-ahead simulation of a simulated sample. -/
theorem C97_sample_again (sim : Simulation K G P) (hrs : sim.rs.Contract) (params : P) (g g' : G)
    (out : List (SimRow K)) (h : sim.run params g = (some out, g')) :
    ∃ sp, sim.solve params = some sp ∧
      simulateOneStep (sim.rewards params) sp (out.map (·.base)) (out.map (·.baseWage))
        (out.map fun r => (r.id, r.state)) sim.nPeriods =
        some ((List.range sim.nPeriods).map fun t => out.filter fun r => decide (r.state.core.period = t)) := by
  obtain ⟨sp, fp, g1, states, data, hsp, hfp, hst, hdata, rfl⟩ := run_parts sim params g g' out h
  refine ⟨sp, hsp, C97_one_step_ahead_again _ _ _ _ ?_ ?_ ?_⟩
  · intro t ht
    have hlen : (states.zipIdx.map fun x => (x.2, x.1)) ≠ [] :=
      simulateLoop_individuals _ _ _ _ _ _ _ _ _ _ _ hdata (by omega)
    have hl := simulateLoop_loopRows _ hrs _ _ _ _ _ _ _ _ _ _ (initial_period hst) hdata
    have htd : t < data.length := by rw [hl.length]; exact ht
    have hrows := List.getElem?_eq_getElem htd
    have hrl := congrArg List.length (hl.ids t _ hrows)
    simp only [List.length_map] at hrl
    have hpos : 0 < (data[t]).length := by
      rw [hrl]
      simpa [List.length_pos_iff] using hlen
    have hr := List.getElem?_eq_getElem hpos
    refine ⟨(data[t])[0], (mem_processOutput data _).2 ⟨t, 0, _, hrows, hr⟩, ?_⟩
    have := (hl.row t _ hrows 0 _ hr).1
    rwa [Nat.zero_add] at this
  · intro t ht
    obtain ⟨c, hc⟩ := simulateLoop_cvs _ _ _ _ _ _ _ _ _ _ _ hdata t ht
    exact ⟨c, by rwa [Nat.zero_add] at hc⟩
  · intro r hr
    obtain ⟨sp', fp', g1', states', data', hsp', _, _, _, hout, _, hd, _⟩ := run_spec sim hrs params g g' _ h
    rw [hsp] at hsp'
    cases hsp'
    rw [hout] at hr
    obtain ⟨t, i, rows, ht, hi⟩ := (mem_processOutput data' r).1 hr
    obtain ⟨_, e2, _, _, _, cvs, e6, e7⟩ := (hd t rows ht).2 i r hi
    rw [e2]
    exact ⟨cvs, e6, e7⟩

/-- **C97** Individuals of two samples of the same model, without exogenous processes. If their rows in the
first period show the same state and their draws are the same in all periods, then their rows are the same
in all periods. The samples can have different individuals, sizes, and initial distributions. -/
theorem C97_individuals_of_samples_partial (sim sim' : Simulation K G P) (hrs : sim.rs.Contract)
    (hrs' : sim'.rs.Contract) (params params' : P) (g1 g2 g1' g2' : G) (out out' : List (SimRow K))
    (h : sim.run params g1 = (some out, g2)) (h' : sim'.run params' g1' = (some out', g2'))
    (hsolve : sim.solve params = sim'.solve params') (hrew : sim.rewards params = sim'.rewards params')
    (hT : sim.nPeriods = sim'.nPeriods) (hx : ∀ sp, sim.solve params = some sp → sp.nExog = 0)
    (i j : Nat)
    (hstart : ∀ r ∈ out, ∀ r' ∈ out', r.id = i → r'.id = j → r.state.core.period = 0 →
      r'.state.core.period = 0 → r.state = r'.state)
    (hd : ∀ t < sim.nPeriods,
      sim.draws[sim.input.length * t + i]? = sim'.draws[sim'.input.length * t + j]?)
    (hw : ∀ t < sim.nPeriods,
      sim.drawsWage[sim.input.length * t + i]? = sim'.drawsWage[sim'.input.length * t + j]?)
    (r r' : SimRow K) (hr : r ∈ out) (hr' : r' ∈ out') (hi : r.id = i) (hj : r'.id = j)
    (ht : r.state.core.period = r'.state.core.period) : SameExperience r r' := by
  obtain ⟨sp, fp, ga, states, data, hsp, hfp, hst, hdata, rfl⟩ := run_parts sim params g1 g2 out h
  obtain ⟨sp', fp', ga', states', data', hsp', hfp', hst', hdata', rfl⟩ :=
    run_parts sim' params' g1' g2' out' h'
  rw [hsolve, hsp'] at hsp
  cases hsp
  have hp := initial_period hst
  have hp' := initial_period hst'
  have hlen : (states.zipIdx.map fun x => (x.2, x.1)).length = sim.input.length := by
    rw [List.length_map, List.length_zipIdx, mapM_eq_some_length _ _ _ hst,
      (sampleAll_spec _ _ _ _ _ _ _ hfp).1]
  have hlen' : (states'.zipIdx.map fun x => (x.2, x.1)).length = sim'.input.length := by
    rw [List.length_map, List.length_zipIdx, mapM_eq_some_length _ _ _ hst',
      (sampleAll_spec _ _ _ _ _ _ _ hfp').1]
  have hl := simulateLoop_loopRows _ hrs _ _ _ _ _ _ _ _ _ _ hp hdata
  have hl' := simulateLoop_loopRows _ hrs' _ _ _ _ _ _ _ _ _ _ hp' hdata'
  obtain ⟨t, a, rows, e1, e2⟩ := (mem_processOutput data r).1 hr
  obtain ⟨t', a', rows', e1', e2'⟩ := (mem_processOutput data' r').1 hr'
  have hid : ∀ (st : List SimState) (d : List (List (SimRow K))),
      (∀ (t : Nat) rows, d[t]? = some rows → rows.map (·.id) =
        (st.zipIdx.map fun x => (x.2, x.1)).map Prod.fst) →
      ∀ (t a : Nat) rows row, d[t]? = some rows → rows[a]? = some row → row.id = a := by
    intro st d hd t a rows row e1 e2
    have e := congrArg (·[a]?) (hd t rows e1)
    simp only [List.getElem?_map, e2, Option.map_some, List.getElem?_zipIdx] at e
    cases hs : st[a]? with
    | none => rw [hs] at e; simp at e
    | some s => rw [hs] at e; simpa using e
  have ha := hid states data hl.ids t a rows r e1 e2
  have ha' := hid states' data' hl'.ids t' a' rows' r' e1' e2'
  obtain rfl : a = i := by omega
  obtain rfl : a' = j := by omega
  have q := (hl.row t rows e1 a r e2).1
  have q' := (hl'.row t' rows' e1' a' r' e2').1
  obtain rfl : t = t' := by omega
  -- the rows of the first period
  have htl := (List.getElem?_eq_some_iff.1 e1).1
  have htl' := (List.getElem?_eq_some_iff.1 e1').1
  have z : data[0]? = some data[0] := List.getElem?_eq_getElem (by omega)
  have z' : data'[0]? = some data'[0] := List.getElem?_eq_getElem (by omega)
  have hal : a < data[0].length := by
    have b1 := congrArg List.length (hl.ids 0 _ z)
    have b2 := congrArg List.length (hl.ids t _ e1)
    have b3 := (List.getElem?_eq_some_iff.1 e2).1
    simp only [List.length_map] at b1 b2
    omega
  have hal' : a' < data'[0].length := by
    have b1 := congrArg List.length (hl'.ids 0 _ z')
    have b2 := congrArg List.length (hl'.ids t _ e1')
    have b3 := (List.getElem?_eq_some_iff.1 e2').1
    simp only [List.length_map] at b1 b2
    omega
  have y : data[0][a]? = some data[0][a] := List.getElem?_eq_getElem hal
  have y' : data'[0][a']? = some data'[0][a'] := List.getElem?_eq_getElem hal'
  have hs0 : data[0][a].state = data'[0][a'].state :=
    hstart _ ((mem_processOutput data _).2 ⟨0, a, _, z, y⟩) _
      ((mem_processOutput data' _).2 ⟨0, a', _, z', y'⟩) (hid states data hl.ids 0 a _ _ z y)
      (hid states' data' hl'.ids 0 a' _ _ z' y') (by simpa using (hl.row 0 _ z a _ y).1)
      (by simpa using (hl'.row 0 _ z' a' _ y').1)
  have s1 : (states.zipIdx.map fun x => (x.2, x.1))[a]? = some (data[0][a].id, data[0][a].state) := by
    rw [← hl.start _ z, List.getElem?_map, y]; rfl
  have s2 : (states'.zipIdx.map fun x => (x.2, x.1))[a']? =
      some (data'[0][a'].id, data[0][a].state) := by
    rw [hs0, ← hl'.start _ z', List.getElem?_map, y']; rfl
  rw [hrew, hT] at hdata
  refine C97_same_start_same_path_partial sim.rs sim'.rs hrs hrs' _ sp (hx sp (hsolve.trans hsp')) sim.draws
    sim.drawsWage sim'.draws sim'.drawsWage _ _ _ _ _ _ _ data data' hp hp' hdata hdata' a a' _ _ _ s1 s2
    ?_ ?_ t rows rows' r r' e1 e1' e2 e2'
  · intro t ht; rw [hlen, hlen']; exact hd t (by omega)
  · intro t ht; rw [hlen, hlen']; exact hw t (by omega)

/-- **C97** Simulating fewer periods with the same solution returns the rows of these periods, with or
without exogenous processes. -/
theorem C97_sample_of_fewer_periods (sim : Simulation K G P) (hrs : sim.rs.Contract) (params : P) (g g' : G)
    (out : List (SimRow K)) (h : sim.run params g = (some out, g')) (m : Nat) (hm : m ≤ sim.nPeriods) :
    ∃ g'', ({ sim with nPeriods := m } : Simulation K G P).run params g =
      (some (out.filter fun r => decide (r.state.core.period < m)), g'') := by
  have hpanel := (C26_balanced_panel sim hrs params g g' out h).1
  have hnd : (out.map SimRow.key).Nodup := by
    have e : out.map SimRow.key = panelIndex sim.input.length sim.nPeriods := hpanel
    rw [e]
    refine (panelIndex_pairwise _ _).imp ?_
    intro a b hab e
    rw [e] at hab
    omega
  obtain ⟨sp, fp, g1, states, data, hsp, hfp, hst, hdata, rfl⟩ := run_parts sim params g g' out h
  have hp := initial_period hst
  have hl := simulateLoop_loopRows _ hrs _ _ _ _ _ _ _ _ _ _ hp hdata
  obtain ⟨k, hk⟩ := Nat.exists_eq_add_of_le hm
  rw [hk] at hdata
  obtain ⟨g2, h2⟩ := C97_fewer_periods sim.rs _ sp sim.draws sim.drawsWage sim.draws sim.drawsWage m k 0 _ g1 _
    data hp rfl rfl hdata
  refine ⟨g2, ?_⟩
  have hfl : data.flatten.filter (fun r => decide (r.state.core.period < m)) = (data.take m).flatten := by
    conv_lhs => rw [← List.take_append_drop m data]
    rw [List.flatten_append, List.filter_append]
    have e1 : (data.take m).flatten.filter (fun r => decide (r.state.core.period < m)) =
        (data.take m).flatten := by
      refine List.filter_eq_self.2 fun r hr => ?_
      obtain ⟨rows, h1, h2⟩ := List.mem_flatten.1 hr
      obtain ⟨t, ht⟩ := List.mem_iff_getElem?.1 h1
      obtain ⟨i, hi⟩ := List.mem_iff_getElem?.1 h2
      rw [List.getElem?_take] at ht
      split at ht
      · rename_i htm
        have := (hl.row t rows ht i r hi).1
        simp only [decide_eq_true_eq]
        omega
      · simp at ht
    have e2 : (data.drop m).flatten.filter (fun r => decide (r.state.core.period < m)) = [] := by
      refine List.filter_eq_nil_iff.2 fun r hr => ?_
      obtain ⟨rows, h1, h2⟩ := List.mem_flatten.1 hr
      obtain ⟨t, ht⟩ := List.mem_iff_getElem?.1 h1
      obtain ⟨i, hi⟩ := List.mem_iff_getElem?.1 h2
      rw [List.getElem?_drop] at ht
      have := (hl.row (m + t) rows ht i r hi).1
      simp only [decide_eq_true_eq]
      omega
    rw [e1, e2, List.append_nil]
  have hout : processOutput (data.take m) =
      (processOutput data).filter fun r => decide (r.state.core.period < m) := by
    refine List.Perm.eq_of_pairwise ?_ (processOutput_sorted _) ((processOutput_sorted data).filter _) ?_
    · intro a b ha hb hab hba
      have ha' : a ∈ processOutput data := by
        obtain ⟨t, i, rows, ht, hi⟩ := (mem_processOutput _ _).1 ha
        rw [List.getElem?_take] at ht
        split at ht
        · exact (mem_processOutput _ _).2 ⟨t, i, rows, ht, hi⟩
        · simp at ht
      have hb' : b ∈ processOutput data := (List.mem_filter.1 hb).1
      refine List.inj_on_of_nodup_map hnd ha' hb' ?_
      unfold SimRow.key
      unfold SimRow.le at hab hba
      simp only [Prod.mk.injEq]
      omega
    · refine (processOutput_perm _).trans ?_
      rw [← hfl]
      exact ((processOutput_perm data).filter _).symm
  unfold Simulation.run
  simp only [hsp, hfp, hst, h2, hout]

/-! ### Exogenous processes -/

/-- A generator whose draws of dense keys take turns. -/
def turnsSource : RandomSource ℚ Nat where
  seed := fun s => s
  uniform := fun g n => (List.replicate n (1 / 2), g + n)
  choice := fun g cols probs n =>
    let possible := (cols.zip probs).filter fun x => decide (x.2 ≠ 0)
    ((List.range n).filterMap fun i => possible[(g + i) % possible.length]?.map Prod.fst, g + n)

theorem turnsSource_contract : turnsSource.Contract where
  uniform_length := by intro g n; simp [turnsSource]
  uniform_mem := by
    intro g n u hu
    simp only [turnsSource, List.mem_replicate] at hu
    rw [hu.2]
    exact ⟨by decide +kernel, by decide +kernel⟩
  choice_length := by
    rintro g cols probs n ⟨j, k, q, hj, hq, hne⟩
    have hm : (k, q) ∈ (cols.zip probs).filter fun x => decide (x.2 ≠ 0) :=
      List.mem_filter.2 ⟨List.mem_of_getElem? (i := j) (List.getElem?_zip_eq_some.2 ⟨hj, hq⟩), by simpa using hne⟩
    simp only [turnsSource]
    generalize (cols.zip probs).filter (fun x => decide (x.2 ≠ 0)) = l at hm
    have hpos : 0 < l.length := List.length_pos_of_mem hm
    have : ∀ i, (l[(g + i) % l.length]?.map Prod.fst) = some (l[(g + i) % l.length]'(Nat.mod_lt _ hpos)).1 := by
      intro i
      rw [List.getElem?_eq_getElem (Nat.mod_lt _ hpos)]; rfl
    simp only [this]
    simp
  choice_mem := by
    intro g cols probs n k hk
    simp only [turnsSource, List.mem_filterMap] at hk
    obtain ⟨i, _, hk⟩ := hk
    obtain ⟨x, hx, rfl⟩ := Option.map_eq_some_iff.1 hk
    obtain ⟨h1, h2⟩ := List.mem_filter.1 (List.mem_of_getElem? hx)
    obtain ⟨j, hj⟩ := List.mem_iff_getElem?.1 h1
    obtain ⟨h3, h4⟩ := List.getElem?_zip_eq_some.1 hj
    exact ⟨j, x.2, h3, h4, by simpa using h2⟩

/-- A model with a binary exogenous process which changes with probability one half. -/
def coinSpace : SimSpace ℚ :=
  { simulationSpace with transition := [(0, ([0, 2], [[1 / 2, 1 / 2]])), (2, ([0, 2], [[1 / 2, 1 / 2]])),
      (1, ([1, 3], [[1 / 2, 1 / 2], [0, 1]])), (3, ([1, 3], [[1 / 2, 1 / 2], [0, 1]]))] }

/-- The state in the second period of the individual at position `i`. -/
def secondState (x : Option (List (List (SimRow ℚ)) × Nat)) (i : Nat) : Option SimState :=
  x.bind fun x => (x.1[1]?.bind fun rows => rows[i]?).map (·.state)

/-- **C97** does not extend to exogenous processes: next period's values are drawn from one stream of random
numbers for all individuals. With the same start and the same shocks, an individual's process in the next
period is different if another individual is simulated before. -/
theorem C97_individuals_of_samples_false :
    ∃ (rs : RandomSource ℚ Nat) (p : RewardParams ℚ) (sp : SimSpace ℚ) (s s1 s2 : SimState), rs.Contract ∧
      secondState (simulateLoop rs p sp [[0, 0], [0, 0], [0, 0], [0, 0]] [[0, 0], [0, 0], [0, 0], [0, 0]] 2 0
        [(0, s), (1, s)] 0) 1 = some s1 ∧
      secondState (simulateLoop rs p sp [[0, 0], [0, 0]] [[0, 0], [0, 0]] 2 0 [(1, s)] 0) 0 = some s2 ∧
      s1 ≠ s2 :=
  ⟨turnsSource, ⟨fun x => 1 + x, -10, 10, [[1, 0], [0, 1]], 1, [0, 0], 1 / 2⟩, coinSpace, ⟨⟨0, [0], []⟩, [0]⟩,
    ⟨⟨1, [1], []⟩, [1]⟩, ⟨⟨1, [1], []⟩, [0]⟩, turnsSource_contract, by decide +kernel, by decide +kernel,
    by decide⟩

/-! ### The hypotheses can be met -/

/-- A model without exogenous processes: one experience, one permanent characteristic, two periods. -/
def staticSpace : SimSpace ℚ := { simulationSpace with nExog := 0 }

/-- Two individuals with different characteristics. -/
def staticSimulation : Simulation ℚ Nat Unit := { exampleSimulation with solve := fun _ => some staticSpace }

/-- Only one individual, who is the second one of `staticSimulation`. -/
def singleSimulation : Simulation ℚ Nat Unit :=
  { staticSimulation with
    input := [[some 0, some 1]]
    draws := [[1, 0], [0, 0]]
    drawsWage := [[0, 0], [0, 0]] }

def summary (out : List (SimRow ℚ)) : List (Nat × CoreState × List Nat × Nat) :=
  out.map fun r => (r.id, r.state.core, r.state.dense, r.outcome.choice)

example : exampleSource.Contract ∧ (staticSimulation.run () 7).1.map summary =
      some [(0, ⟨0, [0], []⟩, [0], 0), (0, ⟨1, [1], []⟩, [0], 1),
        (1, ⟨0, [0], []⟩, [1], 0), (1, ⟨1, [1], []⟩, [1], 0)] ∧
    (singleSimulation.run () 7).1.map summary =
      some [(0, ⟨0, [0], []⟩, [1], 0), (0, ⟨1, [1], []⟩, [1], 0)] ∧
    (∀ t < 2, staticSimulation.draws[2 * t + 1]? = singleSimulation.draws[1 * t + 0]?) ∧
    (({ staticSimulation with nPeriods := 1 } : Simulation ℚ Nat Unit).run () 7).1.map summary =
      some [(0, ⟨0, [0], []⟩, [0], 0), (1, ⟨0, [0], []⟩, [1], 0)] :=
  ⟨exampleSource_contract, by decide +kernel, by decide +kernel, by decide +kernel, by decide +kernel⟩

/-- A selection with a repetition: the draws of individuals `1, 1, 0` of two. -/
example : OwnDraws [1, 1, 0] 2 2 ([[0, 0], [1, 0], [0, 5], [2, 0]] : List (List ℚ))
    [[1, 0], [1, 0], [0, 0], [2, 0], [2, 0], [0, 5]] := by
  intro t ht i j hij
  have hi : i < 3 := (List.getElem?_eq_some_iff.1 hij).1
  interval_cases t <;> interval_cases i <;> (simp at hij; subst hij; rfl)

end Respy
