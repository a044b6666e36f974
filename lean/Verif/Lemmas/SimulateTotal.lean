import Verif.Lemmas.Simulate2
import Verif.Props.Simulate

/-! Helper lemmas: the simulation succeeds. -/

set_option linter.unusedSectionVars false

namespace Respy

variable {K : Type _} [Field K] [LinearOrder K] {G : Type _}

theorem boolIndex_total {α : Type _} (mask : List Bool) (xs : List α) (h : mask.length = xs.length) :
    ∃ ys, boolIndex mask xs = some ys := by
  unfold boolIndex
  rw [if_pos h]
  exact ⟨_, rfl⟩

theorem subsetCholesky_total (L : List (List K)) (cs : List Bool) (hL : cs.length ≤ L.length)
    (hrow : ∀ row ∈ L, cs.length ≤ row.length) : ∃ f, subsetCholesky L cs = some f := by
  have hlt : ∀ i ∈ validChoices cs, i < cs.length := fun i hi =>
    (List.getElem?_eq_some_iff.1 ((mem_validChoices cs i).1 hi)).1
  obtain ⟨f, hf, _⟩ := mapM_option_exists (validChoices cs) (fun i => (do
    let row ← L[i]?
    (validChoices cs).mapM fun j => row[j]?)) (by
      intro i hi
      have h1 : i < L.length := Nat.lt_of_lt_of_le (hlt i hi) hL
      have h2 : L[i]? = some L[i] := List.getElem?_eq_getElem h1
      obtain ⟨r, hr, _⟩ := mapM_option_exists (validChoices cs) (fun j => (L[i])[j]?) (by
        intro j hj
        have := hrow L[i] (List.getElem_mem h1)
        exact ⟨_, List.getElem?_eq_getElem (Nat.lt_of_lt_of_le (hlt j hj) this)⟩)
      exact ⟨r, by rw [h2]; exact hr⟩)
  exact ⟨f, hf⟩

theorem transformDraw_total (exp : K → K) (lo hi : K) (L : List (List K)) (n : Nat) (cs : List Bool)
    (draw : List K) (hL : cs.length ≤ L.length) (hrow : ∀ row ∈ L, cs.length ≤ row.length)
    (hd : draw.length = cs.count true) : ∃ r, transformDraw exp lo hi L n cs draw = some r := by
  obtain ⟨f, hf⟩ := subsetCholesky_total L cs hL hrow
  obtain ⟨h1, _⟩ := subsetCholesky_spec L cs f hf
  unfold transformDraw
  rw [hf]
  simp only [Option.bind_eq_bind, Option.bind_some, hd, h1, if_true, Option.pure_def]
  exact ⟨_, rfl⟩

/-- `_simulate_single_period` succeeds for arrays of the right shape and a choice set which is not
empty. -/
theorem simulateIndividual_total (p : RewardParams K) (cs : List Bool) (w m c base baseWage : List K)
    (hL : cs.length ≤ p.cholesky.length) (hrow : ∀ row ∈ p.cholesky, cs.length ≤ row.length)
    (hme : cs.length = p.measError.length) (hb : base.length = cs.length)
    (hbw : baseWage.length = cs.length) (hw : w.length = cs.count true) (hm : m.length = cs.count true)
    (hc : c.length = cs.count true) (hne : 0 < cs.count true) :
    ∃ o, simulateIndividual p cs w m c base baseWage = some o := by
  obtain ⟨draws, hdraws⟩ := boolIndex_total cs base hb.symm
  obtain ⟨_, hdl⟩ := boolIndex_length _ _ _ hdraws
  obtain ⟨shocks, hshocks⟩ := transformDraw_total p.exp p.lo p.hi p.cholesky p.nWagesRaw cs draws hL
    hrow hdl
  obtain ⟨meas, hmeas⟩ := boolIndex_total cs (measurementErrors p baseWage)
    (by simp [measurementErrors, hbw, hme])
  obtain ⟨_, hml⟩ := boolIndex_length _ _ _ hmeas
  have hz : ∀ j : Nat, cs[j]? = some true → draws[positionIn cs j]? = some (drawOf base j) := by
    intro j hj
    rw [boolIndex_at _ _ _ hdraws j hj]
    have : j < base.length := by
      rw [hb]; exact (List.getElem?_eq_some_iff.1 hj).1
    simp [drawOf, this]
  obtain ⟨hsl, _, hs⟩ := transformDraw_spec _ _ _ _ _ _ _ _ hshocks (drawOf base) hz
  have hvlen := valueFunctions_length p.betaDelta w m c shocks (by omega) (by omega) (by omega)
  obtain ⟨q, hq⟩ := argmax_isSome (valueFunctions p.betaDelta w m c shocks) (by
    intro h0
    rw [h0] at hvlen
    simp only [List.length_nil] at hvlen
    omega)
  obtain ⟨v, hv, _⟩ := argmax_spec _ _ hq
  have hqlt : q < cs.count true := by
    have := (List.getElem?_eq_some_iff.1 hv).1
    omega
  have hlen : q < (recordedWages (nWagesIn p.nWagesRaw cs) w shocks meas).length := by
    simp only [recordedWages, List.length_mapIdx, List.length_zipWith]
    omega
  refine ⟨⟨remapChoice (validChoices cs) q, (recordedWages (nWagesIn p.nWagesRaw cs) w shocks meas)[q],
    shocks, valueFunctions p.betaDelta w m c shocks⟩, ?_⟩
  unfold simulateIndividual
  rw [hdraws, Option.bind_eq_bind, Option.bind_some, hshocks, Option.bind_eq_bind, Option.bind_some,
    hmeas, Option.bind_eq_bind, Option.bind_some, if_pos (by omega)]
  dsimp only
  rw [hq, Option.bind_some, List.getElem?_eq_getElem hlen]
  rfl

/-- The recorded choice is always an available alternative. -/
theorem simulateIndividual_choice_mem (p : RewardParams K) (cs : List Bool)
    (w m c base baseWage : List K) (o : Outcome K)
    (h : simulateIndividual p cs w m c base baseWage = some o) : cs[o.choice]? = some true := by
  obtain ⟨a, wa, hbest, _, hch, _⟩ := simulateIndividual_spec p cs w m c base baseWage o h
  obtain ⟨v, ⟨ha, _⟩, _⟩ := hbest
  rw [hch, remapChoice_eq]
  have := (remapFrom_mem 0 (validChoices cs) (positionIn cs a)).2 (Nat.zero_le _) (by
    rw [Nat.zero_add, length_validChoices]; exact positionIn_lt cs a ha)
  exact (mem_validChoices cs _).1 this

/-- A loop which collects results. -/
theorem foldlM_option_total {α β : Type _} (Q : α → β → Prop) (f : β → α → Option β) (l : List α)
    (init : β) (h : ∀ acc, ∀ a ∈ l, ∃ acc', f acc a = some acc' ∧ Q a acc' ∧ ∀ b, Q b acc → Q b acc') :
    ∃ r, l.foldlM f init = some r ∧ (∀ a ∈ l, Q a r) ∧ ∀ b, Q b init → Q b r := by
  induction l generalizing init with
  | nil => exact ⟨init, rfl, by simp, fun _ hb => hb⟩
  | cons a l ih =>
    obtain ⟨acc, h1, h2, h3⟩ := h init a (by simp)
    obtain ⟨r, h4, h5, h6⟩ := ih acc fun acc b hb => h acc b (by simp [hb])
    refine ⟨r, by rw [List.foldlM_cons, h1]; exact h4, ?_, fun b hb => h6 b (h3 b hb)⟩
    intro b hb
    rcases List.mem_cons.1 hb with rfl | hb
    · exact h6 _ h2
    · exact h5 b hb

/-- Contract of `value_counts` and of the order in which dense keys are processed: all values occur. -/
structure SimSpace.Orders (sp : SimSpace K) : Prop where
  valueCounts : ∀ l x, x ∈ sp.valueCounts l ↔ x ∈ l
  keyOrder : ∀ l x, x ∈ sp.keyOrder l ↔ x ∈ l

theorem drawNextForKey_total (rs : RandomSource K G) (hrs : rs.Contract) (sp : SimSpace K)
    (hsp : sp.Orders) (rows : List (SimRow K)) (h : ∀ row ∈ rows, ∃ k, PossibleNext sp row k) (k : Nat)
    (hk : ∃ row ∈ rows, row.denseKey = k) (g : G) :
    ∃ r, drawNextForKey rs sp rows k g = some r ∧ ∀ (i : Nat) row, rows[i]? = some row →
      row.denseKey = k → i ∈ Dict.keys r.1 := by
  obtain ⟨row0, hr0, rfl⟩ := hk
  obtain ⟨_, cols, probs, _, _, _, htr, _⟩ := h row0 hr0
  unfold drawNextForKey
  rw [htr, Option.bind_eq_bind, Option.bind_some]
  dsimp only
  set positions := (List.range rows.length).filter fun i =>
    rows[i]?.map (·.denseKey) = some row0.denseKey with hpos
  have hmem : ∀ (i : Nat) row, rows[i]? = some row → row.denseKey = row0.denseKey → i ∈ positions := by
    intro i row hi hrow
    rw [hpos, List.mem_filter]
    refine ⟨List.mem_range.2 (List.getElem?_eq_some_iff.1 hi).1, ?_⟩
    rw [hi]; simp [hrow]
  obtain ⟨r, h1, h2, _⟩ := foldlM_option_total
    (Q := fun index (acc : Dict Nat Nat × G) => ∀ i ∈ positions,
      rows[i]?.map (·.coreIndex) = some index → i ∈ Dict.keys acc.1)
    (fun (acc : Dict Nat Nat × G) index => (do
      let own := positions.filter fun i => rows[i]?.map (·.coreIndex) = some index
      let row ← probs[index]?
      let (draws, g') := rs.choice acc.2 cols row own.length
      pure (Dict.update acc.1 (own.zip draws), g')))
    (sp.valueCounts (positions.filterMap fun i => rows[i]?.map (·.coreIndex)))
    (([] : Dict Nat Nat), g) (by
      intro acc index hindex
      rw [hsp.valueCounts, List.mem_filterMap] at hindex
      obtain ⟨i, hi, hidx⟩ := hindex
      have hi' := hi
      rw [hpos, List.mem_filter] at hi'
      obtain ⟨row, hrow, hci⟩ := Option.map_eq_some_iff.1 hidx
      have hkey : row.denseKey = row0.denseKey := by
        have := hi'.2
        rw [hrow] at this
        simpa using this
      obtain ⟨k, cols', probs', prow, j, q, g1, g2, g3, g4, g5⟩ := h row (List.mem_of_getElem? hrow)
      rw [hkey, htr] at g1
      simp only [Option.some.injEq, Prod.mk.injEq] at g1
      obtain ⟨rfl, rfl⟩ := g1
      rw [hci] at g2
      have hlen := hrs.choice_length acc.2 cols prow
        (positions.filter fun i => rows[i]?.map (·.coreIndex) = some index).length ⟨j, k, q, g3, g4, g5⟩
      refine ⟨_, by rw [g2]; rfl, ?_, ?_⟩
      · intro i hi hidx
        rw [Dict.mem_keys_update]
        right
        rw [List.map_fst_zip (by rw [hlen])]
        exact List.mem_filter.2 ⟨hi, by simpa using hidx⟩
      · intro b hb i hi hidx
        rw [Dict.mem_keys_update]
        exact Or.inl (hb i hi hidx))
  refine ⟨r, h1, ?_⟩
  intro i row hi hrow
  refine h2 row.coreIndex ?_ i (hmem i row hi hrow) (by rw [hi]; rfl)
  rw [hsp.valueCounts, List.mem_filterMap]
  exact ⟨i, hmem i row hi hrow, by rw [hi]; rfl⟩

theorem drawNext_total (rs : RandomSource K G) (hrs : rs.Contract) (sp : SimSpace K)
    (hsp : sp.Orders) (rows : List (SimRow K)) (h : ∀ row ∈ rows, ∃ k, PossibleNext sp row k) (g : G) :
    ∃ r, drawNext rs sp rows g = some r ∧ ∀ i < rows.length, ∃ k, Dict.get? r.1 i = some k := by
  unfold drawNext
  obtain ⟨r, h1, h2, _⟩ := foldlM_option_total
    (Q := fun k (acc : Dict Nat Nat × G) => ∀ (i : Nat) row, rows[i]? = some row →
      row.denseKey = k → i ∈ Dict.keys acc.1)
    (fun (acc : Dict Nat Nat × G) k => (do
      let (d, g') ← drawNextForKey rs sp rows k acc.2
      pure (Dict.update acc.1 d, g')))
    (sp.keyOrder (rows.map (·.denseKey)).eraseDups) (([] : Dict Nat Nat), g) (by
      intro acc k hk
      rw [hsp.keyOrder, mem_eraseDups, List.mem_map] at hk
      obtain ⟨r, hr1, hr2⟩ := drawNextForKey_total rs hrs sp hsp rows h k hk acc.2
      refine ⟨_, by rw [hr1]; rfl, ?_, ?_⟩
      · intro i row hi hrow
        rw [Dict.mem_keys_update]
        exact Or.inr (hr2 i row hi hrow)
      · intro b hb i row hi hrow
        rw [Dict.mem_keys_update]
        exact Or.inl (hb i row hi hrow))
  refine ⟨r, h1, fun i hi => ?_⟩
  have hrow := List.getElem?_eq_getElem hi
  have hm := h2 (rows[i]).denseKey (by
    rw [hsp.keyOrder, mem_eraseDups]
    exact List.mem_map_of_mem (List.getElem_mem hi)) i _ hrow rfl
  cases hg : Dict.get? r.1 i with
  | none => exact absurd hm ((Dict.get?_eq_none_iff _ _).1 hg)
  | some k => exact ⟨k, rfl⟩

/-- The loop over periods succeeds if `Good t s` is a property of the states of period `t` which allows
to simulate a row and which is preserved. -/
theorem simulateLoop_total (rs : RandomSource K G) (hrs : rs.Contract) (p : RewardParams K)
    (sp : SimSpace K) (hsp : sp.Orders) (draws drawsWage : List (List K)) (T n : Nat)
    (Good : Nat → SimState → Prop) (hperiod : ∀ t s, Good t s → s.core.period = t)
    (hcvs : ∀ t < T, ∃ cvs, sp.cvs t = some cvs)
    (hrow : ∀ t < T, ∀ cvs, sp.cvs t = some cvs → ∀ id s, Good t s → ∀ base ∈ draws,
      ∀ baseWage ∈ drawsWage, ∃ row, simulateRow p sp t cvs id s base baseWage = some row)
    (hnext : sp.nExog ≠ 0 → ∀ t < T, ∀ cvs, sp.cvs t = some cvs → ∀ row : SimRow K, Good t row.state →
      simulateRow p sp t cvs row.id row.state row.base row.baseWage = some row →
      ∃ k, PossibleNext sp row k)
    (hcov : sp.nExog ≠ 0 → ∀ t < T, ∀ cvs, sp.cvs t = some cvs → ∀ row : SimRow K, Good t row.state →
      simulateRow p sp t cvs row.id row.state row.base row.baseWage = some row →
      ∀ k, PossibleNext sp row k → ∃ cov, sp.covariates k = some cov)
    (hstep : ∀ t, t + 1 < T → ∀ cvs, sp.cvs t = some cvs → ∀ row : SimRow K, Good t row.state →
      simulateRow p sp t cvs row.id row.state row.base row.baseWage = some row →
      ∀ s, IsStep sp row s → Good (t + 1) s)
    (hdraws : n * T ≤ draws.length) (hdrawsWage : n * T ≤ drawsWage.length) (r period : Nat)
    (hr : period + r ≤ T) (agents : List (Nat × SimState)) (hn : agents.length = n)
    (hne : agents ≠ [])
    (hgood : ∀ a ∈ agents, Good period a.2) (g : G) :
    ∃ data g', simulateLoop rs p sp draws drawsWage r period agents g = some (data, g') ∧
      ∀ (t : Nat) rows, data[t]? = some rows → ∀ row ∈ rows, Good (period + t) row.state := by
  induction r generalizing period agents g with
  | zero => exact ⟨[], g, rfl, by simp⟩
  | succ r ih =>
    have hcur : (agents.filter fun a => decide (a.2.core.period = period)) = agents :=
      List.filter_eq_self.2 fun a ha => by simpa using hperiod _ _ (hgood a ha)
    have hbound : n * period + n ≤ n * T := by
      calc n * period + n = n * (period + 1) := by ring
        _ ≤ n * T := Nat.mul_le_mul_left n (by omega)
    set base := (draws.drop (agents.length * period)).take agents.length with hbase
    set baseWage := (drawsWage.drop (agents.length * period)).take agents.length with hbaseW
    have hl1 : base.length = agents.length := by
      rw [hbase, List.length_take, List.length_drop, hn]
      omega
    have hl2 : baseWage.length = agents.length := by
      rw [hbaseW, List.length_take, List.length_drop, hn]
      omega
    obtain ⟨cvs, hc⟩ := hcvs period (by omega)
    obtain ⟨rows, hrows, hrl, hrg⟩ := mapM_option_exists (agents.zip (base.zip baseWage))
      (fun x => simulateRow p sp period cvs x.1.1 x.1.2 x.2.1 x.2.2) (by
        rintro ⟨a, bs, bw⟩ hx
        obtain ⟨h1, h2⟩ := List.of_mem_zip hx
        obtain ⟨h3, h4⟩ := List.of_mem_zip h2
        exact hrow period (by omega) cvs hc a.1 a.2 (hgood a h1) bs
          (List.mem_of_mem_drop (List.mem_of_mem_take h3)) bw
          (List.mem_of_mem_drop (List.mem_of_mem_take h4)))
    have hrl' : rows.length = agents.length := by simp [hrl, hl1, hl2]
    have hfacts : ∀ row ∈ rows, Good period row.state ∧
        simulateRow p sp period cvs row.id row.state row.base row.baseWage = some row := by
      intro row hrow'
      obtain ⟨i, hi⟩ := List.mem_iff_getElem?.1 hrow'
      have hilt : i < (agents.zip (base.zip baseWage)).length := by
        rw [← hrl]; exact (List.getElem?_eq_some_iff.1 hi).1
      have hz := List.getElem?_eq_getElem hilt
      obtain ⟨row', h1, h2⟩ := hrg i _ hz
      rw [hi] at h1; cases h1
      obtain ⟨f1, f2, f3, f4, _⟩ := simulateRow_fields _ _ _ _ _ _ _ _ _ h2
      rw [f1, f2, f3, f4]
      exact ⟨hgood _ (List.of_mem_zip (List.mem_of_getElem? hz)).1, h2⟩
    have hnx : ∃ next g1, nextDenseKeys rs sp rows g = some (next, g1) ∧
        (sp.nExog ≠ 0 → GoodNext sp rows next) ∧
        (sp.nExog ≠ 0 → ∀ i < rows.length, ∃ k, Dict.get? next i = some k) := by
      unfold nextDenseKeys
      by_cases h0 : sp.nExog = 0
      · exact ⟨[], g, by rw [if_pos h0], fun h => absurd h0 h, fun h => absurd h0 h⟩
      · obtain ⟨⟨d, g1⟩, h1, h2⟩ := drawNext_total rs hrs sp hsp rows (fun row hm =>
          hnext h0 period (by omega) cvs hc row (hfacts row hm).1 (hfacts row hm).2) g
        exact ⟨d, g1, by rw [if_neg h0, h1], fun _ => drawNext_good rs hrs sp rows g _ h1, fun _ => h2⟩
    obtain ⟨next, g1, hnext1, hnext2, hnext3⟩ := hnx
    have hunf : simulateLoop rs p sp draws drawsWage (r + 1) period agents g =
        (if r = 0 then pure ([rows], g1)
          else do
            let agents' ← rows.zipIdx.mapM fun x => do
              let s ← nextState sp x.1 (Dict.get? next x.2)
              pure (x.1.id, s)
            let (rest, g2) ← simulateLoop rs p sp draws drawsWage r (period + 1) agents' g1
            pure (rows :: rest, g2)) := by
      conv_lhs => unfold simulateLoop
      simp only [hcur]
      rw [if_pos ⟨hl1, hl2, hne⟩, hc, Option.bind_eq_bind, Option.bind_some, hrows, Option.bind_eq_bind,
        Option.bind_some, hnext1]
      rfl
    rw [hunf]
    by_cases hr0 : r = 0
    · refine ⟨[rows], g1, by rw [if_pos hr0]; rfl, ?_⟩
      intro t rows' ht row hm
      cases t with
      | zero =>
        simp only [List.getElem?_cons_zero, Option.some.injEq] at ht
        subst ht
        exact (hfacts row hm).1
      | succ t => simp at ht
    · rw [if_neg hr0]
      obtain ⟨agents', ha, hal, hag⟩ := mapM_option_exists rows.zipIdx (fun x => (do
          let s ← nextState sp x.1 (Dict.get? next x.2)
          pure (x.1.id, s))) (by
        rintro ⟨row, i⟩ hx
        have hi : rows[i]? = some row := by
          have := List.mem_zipIdx_iff_getElem?.1 hx
          simpa using this
        have hrm := List.mem_of_getElem? hi
        by_cases h0 : sp.nExog = 0
        · exact ⟨_, by simp only [nextState, h0, if_true]; rfl⟩
        · obtain ⟨k, hk⟩ := hnext3 h0 i (List.getElem?_eq_some_iff.1 hi).1
          obtain ⟨row', hr', hp⟩ := hnext2 h0 i k hk
          rw [hi] at hr'; cases hr'
          obtain ⟨cov, hcv⟩ := hcov h0 period (by omega) cvs hc row (hfacts row hrm).1 (hfacts row hrm).2
            k hp
          exact ⟨_, by
            simp only [nextState, h0, if_false, hk, Option.bind_eq_bind, Option.bind_some, hcv]; rfl⟩)
      have hgood' : ∀ a ∈ agents', Good (period + 1) a.2 := by
        intro a ham
        obtain ⟨i, hi⟩ := List.mem_iff_getElem?.1 ham
        have hlt : i < rows.length := by
          have := (List.getElem?_eq_some_iff.1 hi).1
          rw [hal, List.length_zipIdx] at this
          exact this
        have hri := List.getElem?_eq_getElem hlt
        obtain ⟨a', h1, h2⟩ := hag i (rows[i], i) (by simp [List.getElem?_zipIdx, hri])
        rw [hi] at h1; cases h1
        obtain ⟨s, hs, h3⟩ := Option.bind_eq_some_iff.1 h2
        simp only [Option.pure_def, Option.some.injEq] at h3
        subst h3
        have hm := List.getElem_mem hlt
        exact hstep period (by omega) cvs hc _ (hfacts _ hm).1 (hfacts _ hm).2 s
          (nextState_isStep sp rows next hnext2 i _ hri s hs)
      obtain ⟨rest, g2, h1, h2⟩ := ih (period + 1) (by omega) agents'
        (by rw [hal, List.length_zipIdx, hrl', hn])
        (by rw [← List.length_pos_iff, hal, List.length_zipIdx, hrl']; exact List.length_pos_iff.2 hne) hgood' g1
      refine ⟨rows :: rest, g2, by rw [ha]; simp only [Option.bind_eq_bind, Option.bind_some, h1]; rfl, ?_⟩
      intro t rows' ht row hm
      cases t with
      | zero =>
        simp only [List.getElem?_cons_zero, Option.some.injEq] at ht
        subst ht
        exact (hfacts row hm).1
      | succ t =>
        have := h2 t rows' (by simpa using ht) row hm
        rwa [show period + 1 + t = period + (t + 1) by omega] at this

end Respy
