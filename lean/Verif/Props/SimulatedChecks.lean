import Verif.Model.SimulatedSample
import Verif.Props.Simulate
import Verif.Props.DataAccepted

/-!
# Simulated samples pass the checks of data (C26)
-/

set_option linter.unusedSectionVars false

namespace Respy

variable {K : Type _} [Field K] [LinearOrder K] [IsStrictOrderedRing K] {G P : Type _}

theorem panelIndex_succ (n T : Nat) :
    panelIndex (n + 1) T = panelIndex n T ++ (List.range T).map fun t => (n, t) := by
  simp [panelIndex, List.range_succ]

theorem length_panelIndex (n T : Nat) : (panelIndex n T).length = n * T := by
  induction n with
  | zero => simp [panelIndex]
  | succ n ih => rw [panelIndex_succ, List.length_append, ih]; simp [Nat.succ_mul]

theorem panelIndex_at (n T p : Nat) (k : Nat × Nat) (h : (panelIndex n T)[p]? = some k) :
    k.2 < T ∧ p = T * k.1 + k.2 := by
  induction n with
  | zero => simp [panelIndex] at h
  | succ n ih =>
    rw [panelIndex_succ] at h
    rcases Nat.lt_or_ge p (n * T) with hp | hp
    · rw [List.getElem?_append_left (by rw [length_panelIndex]; exact hp)] at h
      exact ih h
    · rw [List.getElem?_append_right (by rw [length_panelIndex]; exact hp), length_panelIndex,
        List.getElem?_map, Option.map_eq_some_iff] at h
      obtain ⟨t, ht, rfl⟩ := h
      rw [List.getElem?_eq_some_iff] at ht
      obtain ⟨h1, h2⟩ := ht
      simp only [List.getElem_range, List.length_range] at h1 h2
      refine ⟨by simp only; omega, ?_⟩
      have : T * n = n * T := Nat.mul_comm _ _
      simp only
      omega

/-- Successive pairs of identifier and period. -/
theorem panelIndex_next (n T p : Nat) (a b : Nat × Nat) (ha : (panelIndex n T)[p]? = some a)
    (hb : (panelIndex n T)[p + 1]? = some b) :
    (b.1 = a.1 ∧ b.2 = a.2 + 1) ∨ (b.1 = a.1 + 1 ∧ b.2 = 0) := by
  obtain ⟨h1, h2⟩ := panelIndex_at n T p a ha
  obtain ⟨h3, h4⟩ := panelIndex_at n T (p + 1) b hb
  have heq : T * a.1 + a.2 + 1 = T * b.1 + b.2 := by omega
  rcases Nat.lt_trichotomy a.1 b.1 with h | h | h
  · right
    have h5 : T * (a.1 + 1) ≤ T * b.1 := Nat.mul_le_mul_left _ h
    rw [Nat.mul_add, Nat.mul_one] at h5
    have h6 : T * b.1 = T * (a.1 + 1) := by rw [Nat.mul_add, Nat.mul_one]; omega
    have h7 : b.1 = a.1 + 1 := Nat.eq_of_mul_eq_mul_left (by omega) h6
    exact ⟨h7, by rw [Nat.mul_add, Nat.mul_one] at h6; omega⟩
  · left
    rw [h] at heq
    exact ⟨h.symm, by omega⟩
  · have h5 : T * (b.1 + 1) ≤ T * a.1 := Nat.mul_le_mul_left _ h
    rw [Nat.mul_add, Nat.mul_one] at h5
    omega

/-- The solved state space belongs to the model: the states have the experiences and lagged choices of the
model, which are codes of choices, choice sets are about these choices, dense states have codes of the
observables and types, and wages are positive. -/
structure SimSpace.Labelled (sp : SimSpace K) (l : LabelParas) : Prop where
  core : ∀ s k, sp.indexer.get? s = some k → s.exp.length = l.nExp ∧ s.lags.length = l.nLags ∧
    ∀ x ∈ s.lags, ∃ c < l.choices.length, x = some c
  choiceSet : ∀ cx ∈ sp.complexes, cx.choiceSet.length = l.choices.length
  dense : ∀ s k i, sp.locate s = some (k, i) → ∀ o ∈ l.observables, ∃ c < o.2.length, s.dense[o.1]? = some c
  wages : ∀ k rows, sp.wages.get? k = some rows → ∀ w ∈ rows, ∀ x ∈ w, 0 < x

theorem wageOf_pos (p : RewardParams K) (cs : List Bool) (base baseWage : List K) (a : Nat) (wa w : K)
    (hexp : ∀ x, 0 < p.exp x) (hwa : 0 < wa)
    (h : wageOf p cs base baseWage a wa = some w) : 0 < w := by
  unfold wageOf at h
  split at h
  · rename_i hlt
    simp only [Option.some.injEq] at h
    rw [← h]
    refine mul_pos (mul_pos hwa ?_) (hexp _)
    unfold shockOf
    rw [if_pos hlt]
    exact hexp _
  · simp at h

/-- What the checks need to know about the rows of a simulated sample. -/
theorem simulated_consistent (sim : Simulation K G P) (hrs : sim.rs.Contract) (params : P) (g g' : G)
    (out : List (SimRow K)) (h : sim.run params g = (some out, g')) (l : LabelParas)
    (hlabels : l.choices.Nodup) (hnp : l.nPeriods = sim.nPeriods) (hne : l.nExp ≤ l.choices.length)
    (hexp : ∀ x, 0 < (sim.rewards params).exp x)
    (hsp : ∀ sp, sim.solve params = some sp → sp.Labelled l) :
    ConsistentSample l.checks (l.sample out) := by
  have hbal := (C26_balanced_panel sim hrs params g g' out h).1
  obtain ⟨sp, fp, g1, states, data, hsolve, hfp, hst, hlen, hout, hdl, hdata, hstep⟩ :=
    run_spec sim hrs params g g' out h
  have hlab := hsp sp hsolve
  have hkey : ∀ (p : Nat) (r : SimRow K), out[p]? = some r →
      (panelIndex sim.input.length sim.nPeriods)[p]? = some (r.id, r.state.core.period) := by
    intro p r hr
    rw [← hbal, List.getElem?_map, hr]
    rfl
  have hrows : ∀ (p : Nat) (d : DataRow K), (l.sample out).rows[p]? = some d →
      ∃ r, out[p]? = some r ∧ d = l.row r := by
    intro p d hd
    simp only [LabelParas.sample, List.getElem?_map, Option.map_eq_some_iff] at hd
    obtain ⟨r, hr, rfl⟩ := hd
    exact ⟨r, hr, rfl⟩
  have hmem : ∀ d ∈ (l.sample out).rows, ∃ r ∈ out, d = l.row r := by
    intro d hd
    obtain ⟨r, hr, rfl⟩ := List.mem_map.1 hd
    exact ⟨r, hr, rfl⟩
  have hone : ∀ r ∈ out, ∃ cx wages w m c, cx ∈ sp.complexes ∧ sp.wages.get? r.denseKey = some wages ∧
      w ∈ wages ∧ sp.locate r.state = some (r.denseKey, r.coreIndex) ∧
      simulateIndividual (sim.rewards params) cx.choiceSet w m c r.base r.baseWage = some r.outcome := by
    intro r hr
    rw [hout] at hr
    obtain ⟨t, i, rows, ht, hi⟩ := (mem_processOutput data r).1 hr
    obtain ⟨_, _, _, _, _, cvs, _, hrow⟩ := (hdata t rows ht).2 i r hi
    obtain ⟨_, _, _, _, hloc, cx, wages, _, _, w, m, c, hcx, _, hw, _, _, hwi, _, _, hsim⟩ :=
      simulateRow_fields _ _ _ _ _ _ _ _ _ hrow
    exact ⟨cx, wages, w, m, c, List.mem_of_getElem? hcx, hw, List.mem_of_getElem? hwi, hloc, hsim⟩
  have hchoice : ∀ r ∈ out, r.outcome.choice < l.choices.length := by
    intro r hr
    obtain ⟨cx, wages, w, m, c, h1, _, _, _, h5⟩ := hone r hr
    have := C25_recorded_choice_admissible _ _ _ _ _ _ _ _ h5
    rw [← hlab.choiceSet cx h1]
    exact (List.getElem?_eq_some_iff.1 this).1
  have hcore : ∀ r ∈ out, r.state.core.exp.length = l.nExp ∧ r.state.core.lags.length = l.nLags ∧
      ∀ x ∈ r.state.core.lags, ∃ c < l.choices.length, x = some c := by
    intro r hr
    obtain ⟨_, _, _, _, _, _, _, _, hloc, _⟩ := hone r hr
    unfold SimSpace.locate at hloc
    obtain ⟨k, hk, _⟩ := Option.bind_eq_some_iff.1 hloc
    exact hlab.core _ _ hk
  have hsteps : ∀ (p : Nat) (a b : SimRow K), out[p]? = some a → out[p + 1]? = some b → a.id = b.id →
      b.state.core = lawOfMotion a.state.core a.outcome.choice := by
    intro p a b ha hb hid
    have ha' := List.mem_of_getElem? ha
    have hb' := List.mem_of_getElem? hb
    have hnext := panelIndex_next _ _ p _ _ (hkey p a ha) (hkey (p + 1) b hb)
    simp only at hnext
    rw [hout] at ha' hb'
    obtain ⟨t, i, rows, ht, hi⟩ := (mem_processOutput data a).1 ha'
    obtain ⟨t', i', rows', ht', hi'⟩ := (mem_processOutput data b).1 hb'
    obtain ⟨e1, e2, _⟩ := (hdata t rows ht).2 i a hi
    obtain ⟨e3, e4, _⟩ := (hdata t' rows' ht').2 i' b hi'
    obtain rfl : i = i' := by omega
    obtain rfl : t' = t + 1 := by omega
    exact (hstep t rows rows' ht ht' i a b hi hi').1
  refine ⟨?_, ?_, ?_, ?_, ?_, ?_, ?_, ?_, ?_, ?_, ?_, fun _ _ => rfl⟩
  · -- first row
    intro d hd
    obtain ⟨r, hr, rfl⟩ := hrows 0 d hd
    obtain ⟨h1, h2⟩ := panelIndex_at _ _ 0 _ (hkey 0 r hr)
    simp only at h1 h2
    have h3 : r.state.core.period = 0 := by omega
    have h4 : sim.nPeriods * r.id = 0 := by omega
    have h5 : r.id = 0 := by
      rcases Nat.mul_eq_zero.1 h4 with h6 | h6
      · omega
      · exact h6
    simp [LabelParas.row, h3, h5]
  · -- next row
    intro p da db ha hb
    obtain ⟨a, ha2, rfl⟩ := hrows p da ha
    obtain ⟨b, hb2, rfl⟩ := hrows (p + 1) db hb
    clear ha hb
    rename' ha2 => ha, hb2 => hb
    have hnext := panelIndex_next _ _ p _ _ (hkey p a ha) (hkey (p + 1) b hb)
    simp only at hnext
    simp only [Follows, LabelParas.row]
    omega
  · -- period
    intro d hd
    obtain ⟨r, hr, rfl⟩ := hmem d hd
    obtain ⟨p, hp⟩ := List.getElem?_of_mem hr
    have := (panelIndex_at _ _ p _ (hkey p r hp)).1
    simp only [LabelParas.row, LabelParas.checks, hnp]
    simp only at this
    omega
  · -- choice
    intro d hd
    obtain ⟨r, hr, rfl⟩ := hmem d hd
    have := hchoice r hr
    exact ⟨l.choices[r.outcome.choice], List.getElem_mem this, List.getElem?_eq_getElem this⟩
  · -- lagged choices
    intro d hd
    obtain ⟨r, hr, rfl⟩ := hmem d hd
    obtain ⟨_, h2, h3⟩ := hcore r hr
    refine ⟨by simp [LabelParas.row, LabelParas.checks, h2], fun x hx => ?_⟩
    obtain ⟨y, hy, rfl⟩ := List.mem_map.1 hx
    obtain ⟨c, hc, rfl⟩ := h3 y hy
    exact ⟨l.choices[c], List.getElem_mem hc, List.getElem?_eq_getElem hc⟩
  · -- wage
    intro d hd w hw
    obtain ⟨r, hr, rfl⟩ := hmem d hd
    obtain ⟨cx, wages, w', m, c, h1, h2, h3, h4, h5⟩ := hone r hr
    obtain ⟨a, wa, ⟨v, ⟨hav, ma, ca, hwa, _⟩, _⟩, hwage, _⟩ := simulateIndividual_spec _ _ _ _ _ _ _ _ h5
    have hw : r.outcome.wage = some w := hw
    rw [hwage] at hw
    exact wageOf_pos _ _ _ _ _ _ _ hexp (hlab.wages _ _ h2 _ h3 _ (List.mem_of_getElem? hwa)) hw
  · -- experience columns
    intro d hd
    obtain ⟨r, hr, rfl⟩ := hmem d hd
    have := (hcore r hr).1
    simp only [LabelParas.row, LabelParas.checks, List.length_map, List.length_take, this]
    omega
  · -- observables
    intro d hd
    obtain ⟨r, hr, rfl⟩ := hmem d hd
    obtain ⟨_, _, _, _, _, _, _, _, hloc, _⟩ := hone r hr
    refine ⟨by simp [LabelParas.row, LabelParas.checks], fun o ho => ?_⟩
    obtain ⟨x, hx, rfl⟩ := List.mem_map.1 ho
    obtain ⟨c, hc, hd⟩ := hlab.dense _ _ _ hloc x hx
    rw [hd, Option.bind_some, List.getElem?_eq_getElem hc]
    simp
  · -- levels
    intro i n hi
    simp only [LabelParas.checks, List.getElem?_map, Option.map_eq_some_iff] at hi
    obtain ⟨o, ho, rfl⟩ := hi
    refine ⟨o.2, le_refl _, fun d hd v hv => ?_⟩
    obtain ⟨r, hr, rfl⟩ := hmem d hd
    simp only [LabelParas.row, List.getElem?_map, ho, Option.map_some, Option.some.injEq] at hv
    obtain ⟨c, _, hc⟩ := Option.bind_eq_some_iff.1 hv
    exact List.mem_of_getElem? hc
  · -- experience
    intro p da db ha hb hid e c x hc hx
    obtain ⟨a, ha2, rfl⟩ := hrows p da ha
    obtain ⟨b, hb2, rfl⟩ := hrows (p + 1) db hb
    clear ha hb
    rename' ha2 => ha, hb2 => hb
    have hid : a.id = b.id := by simpa [LabelParas.row] using hid
    have hlaw := hsteps p a b ha hb hid
    have hcodes : l.choices[e]? = some c := by
      have hc : (l.choices.take l.nExp)[e]? = some c := hc
      rw [List.getElem?_take] at hc
      split at hc
      · exact hc
      · simp at hc
    simp only [LabelParas.row, List.getElem?_map, Option.map_eq_some_iff] at hx
    obtain ⟨y, hy, rfl⟩ := hx
    have hiff : l.choices[a.outcome.choice]? = some c ↔ a.outcome.choice = e := by
      constructor
      · intro h1
        obtain ⟨h2, h3⟩ := List.getElem?_eq_some_iff.1 h1
        obtain ⟨h4, h5⟩ := List.getElem?_eq_some_iff.1 hcodes
        exact (List.Nodup.getElem_inj_iff hlabels).1 (h3.trans h5.symm)
      · intro h1; rw [h1]; exact hcodes
    simp only [LabelParas.row, LabelParas.choiceLabel, hlaw, lawOfMotion, updateExp, List.getElem?_map,
      List.getElem?_mapIdx, hy, Option.map_some, hiff, Option.some.injEq]
    by_cases he : a.outcome.choice = e <;> simp [he]
  · -- lagged choices follow the choices
    intro p da db ha hb hid
    obtain ⟨a, ha2, rfl⟩ := hrows p da ha
    obtain ⟨b, hb2, rfl⟩ := hrows (p + 1) db hb
    clear ha hb
    rename' ha2 => ha, hb2 => hb
    have hid : a.id = b.id := by simpa [LabelParas.row] using hid
    have hlaw := hsteps p a b ha hb hid
    have hla := (hcore a (List.mem_of_getElem? ha)).2.1
    simp only [LabelParas.row, LabelParas.checks, hlaw, lawOfMotion, updateLags]
    rw [← hla]
    cases hlags : a.state.core.lags with
    | nil => simp
    | cons x xs =>
      rw [if_neg (by simp)]
      simp only [List.map_cons, Option.bind_some, List.length_cons, List.take_succ_cons]
      rw [List.dropLast_eq_take, List.map_take, List.map_cons]
      simp

/-- **C26**, labels. All labels of choices and lagged choices in a simulated sample are categories of their columns. -/
theorem C26_labels_are_categories (l : LabelParas) (out : List (SimRow K)) (d : DataRow K)
    (hd : d ∈ (l.sample out).rows) (j : Nat) (c : Str) (hc : d.choiceVar j = some c) :
    c ∈ (l.sample out).categories j := by
  obtain ⟨r, _, rfl⟩ := List.mem_map.1 hd
  unfold DataRow.choiceVar at hc
  split at hc
  · exact List.mem_of_getElem? hc
  · simp only [LabelParas.row, List.getElem?_map] at hc
    cases hl : r.state.core.lags[j - 1]? with
    | none => rw [hl] at hc; cases hc
    | some x =>
      rw [hl] at hc
      cases x with
      | none => cases hc
      | some code => exact List.mem_of_getElem? (l := l.choices) (i := code) hc

/-- **C26**, third part. A simulated sample passes the checks for estimation data if there are at most two
lagged choices. Missing: more lagged choices, see `C26_checks_false`. -/
theorem C26_checks_partial (sim : Simulation K G P) (hrs : sim.rs.Contract) (params : P) (g g' : G)
    (out : List (SimRow K)) (h : sim.run params g = (some out, g')) (l : LabelParas)
    (hlabels : l.choices.Nodup) (hnp : l.nPeriods = sim.nPeriods) (hne : l.nExp ≤ l.choices.length)
    (hexp : ∀ x, 0 < (sim.rewards params).exp x)
    (hsp : ∀ sp, sim.solve params = some sp → sp.Labelled l) (hlags : l.nLags ≤ 2) :
    checkEstimationData l.checks (l.sample out) = true :=
  C69_partial _ _ (simulated_consistent sim hrs params g g' out h l hlabels hnp hne hexp hsp) hlags

/-- With three or more lagged choices a simulated sample of two or more periods never passes the checks. -/
theorem C26_checks_false (sim : Simulation K G P) (hrs : sim.rs.Contract) (params : P) (g g' : G)
    (out : List (SimRow K)) (h : sim.run params g = (some out, g')) (l : LabelParas)
    (hlabels : l.choices.Nodup) (hnp : l.nPeriods = sim.nPeriods) (hne : l.nExp ≤ l.choices.length)
    (hexp : ∀ x, 0 < (sim.rewards params).exp x)
    (hsp : ∀ sp, sim.solve params = some sp → sp.Labelled l) (hlags : 3 ≤ l.nLags)
    (hn : 1 ≤ sim.input.length) (ht : 2 ≤ sim.nPeriods) :
    checkEstimationData l.checks (l.sample out) = false := by
  have hbal := (C26_balanced_panel sim hrs params g g' out h).1
  have hmem : (0, 1) ∈ panelIndex sim.input.length sim.nPeriods :=
    (mem_panelIndex _ _ _ _).2 ⟨by omega, by omega⟩
  rw [← hbal] at hmem
  obtain ⟨r, hr, hk⟩ := List.mem_map.1 hmem
  simp only [Prod.mk.injEq] at hk
  exact C69_three_lags_false _ _ (simulated_consistent sim hrs params g g' out h l hlabels hnp hne hexp hsp)
    hlags (l.row r) (List.mem_map_of_mem hr) (by simp [LabelParas.row, hk.2])

/-- **C26**, checks for simulated data: types are constant and wages are observed exactly for working
individuals, if codes of alternatives are not mixed up (see C24). -/
theorem C26_simulated_checks_partial (sim : Simulation K G P) (hrs : sim.rs.Contract) (params : P) (g g' : G)
    (out : List (SimRow K)) (h : sim.run params g = (some out, g')) (l : LabelParas)
    (hlabels : l.choices.Nodup) (hnp : l.nPeriods = sim.nPeriods) (hne : l.nExp ≤ l.choices.length)
    (hexp : ∀ x, 0 < (sim.rewards params).exp x) (sp : SimSpace K) (hsolve : sim.solve params = some sp)
    (hsp : sp.Labelled l) (hlags : l.nLags ≤ 2) (hwage : (sim.rewards params).nWagesRaw = l.nWages)
    (hcs : ∀ cx ∈ sp.complexes, ∀ a : Nat, cx.choiceSet[a]? = some true →
      (∀ b < a, cx.choiceSet[b]? = some true) ∨ cx.choiceSet.count true ≤ a)
    (hcov : ∀ k cov, sp.covariates k = some cov → sp.nExog ≤ cov.length)
    (htypes : 2 ≤ l.nTypes → ∃ q, l.typePosition = some q ∧ ∀ s k i, sp.locate s = some (k, i) →
      q < s.dense.length - sp.nExog ∧ ∃ t ≤ l.nTypes - 1, s.dense[q]? = some t) :
    checkSimulatedData l.checks l.nTypes (l.types out) (l.sample out) = true := by
  have hest := C26_checks_partial sim hrs params g g' out h l hlabels hnp hne hexp
    (fun sp' hs => by rw [hsolve] at hs; cases hs; exact hsp) hlags
  obtain ⟨sp', fp, g1, states, data, hsolve', hfp, hst, hlen, hout, hdl, hdata, hstep⟩ :=
    run_spec sim hrs params g g' out h
  rw [hsolve] at hsolve'
  cases hsolve'
  have hone : ∀ r ∈ out, ∃ cx w m c, cx ∈ sp.complexes ∧
      sp.locate r.state = some (r.denseKey, r.coreIndex) ∧
      simulateIndividual (sim.rewards params) cx.choiceSet w m c r.base r.baseWage = some r.outcome := by
    intro r hr
    rw [hout] at hr
    obtain ⟨t, i, rows, ht, hi⟩ := (mem_processOutput data r).1 hr
    obtain ⟨_, _, _, _, _, cvs, _, hrow⟩ := (hdata t rows ht).2 i r hi
    obtain ⟨_, _, _, _, hloc, cx, wages, _, _, w, m, c, hcx, _, hw, _, _, hwi, _, _, hsim⟩ :=
      simulateRow_fields _ _ _ _ _ _ _ _ _ hrow
    exact ⟨cx, w, m, c, List.mem_of_getElem? hcx, hloc, hsim⟩
  have hwages : (l.sample out).rows.all (fun r =>
      if r.choice.any (fun c => decide (c ∈ l.checks.choicesWage)) then r.wage.isSome
      else r.wage.isNone) = true := by
    refine List.all_eq_true.2 fun d hd => ?_
    obtain ⟨r, hr, rfl⟩ := List.mem_map.1 hd
    obtain ⟨cx, w, m, c, hcx, hloc, hsim⟩ := hone r hr
    have hw := (C25_wage_of_choice_partial _ _ _ _ _ _ _ _ hsim (hcs cx hcx)).2
    have hlt : r.outcome.choice < l.choices.length := by
      have := C25_recorded_choice_admissible _ _ _ _ _ _ _ _ hsim
      rw [← hsp.choiceSet cx hcx]
      exact (List.getElem?_eq_some_iff.1 this).1
    have hany : (l.row r).choice.any (fun c => decide (c ∈ l.checks.choicesWage)) =
        decide (r.outcome.choice < l.nWages) := by
      have h1 : (l.row r).choice = some l.choices[r.outcome.choice] := List.getElem?_eq_getElem hlt
      have h2 : l.checks.choicesWage = l.choices.take l.nWages := rfl
      rw [h1, Option.any_some, Bool.eq_iff_iff, decide_eq_true_eq, decide_eq_true_eq, h2]
      clear h1 h2
      constructor
      · intro h1
        obtain ⟨j, hj⟩ := List.getElem?_of_mem h1
        rw [List.getElem?_take] at hj
        split at hj
        · obtain ⟨h2, h3⟩ := List.getElem?_eq_some_iff.1 hj
          have := (List.Nodup.getElem_inj_iff hlabels).1 h3
          omega
        · simp at hj
      · intro h1
        refine List.mem_of_getElem? (i := r.outcome.choice) ?_
        rw [List.getElem?_take, if_pos h1, List.getElem?_eq_getElem hlt]
    rw [hwage] at hw
    simp only [hany]
    have hwr : (l.row r).wage = r.outcome.wage := rfl
    rw [hwr]
    by_cases hc : r.outcome.choice < l.nWages
    · have : r.outcome.wage ≠ none := fun hn => absurd (hw.1 hn) (by omega)
      simp only [hc, decide_true, if_true]
      exact Option.isSome_iff_ne_none.2 this
    · have : r.outcome.wage = none := hw.2 (by omega)
      simp [hc, this]
  have htype : (if 2 ≤ l.nTypes then
      (l.types out).all (fun t => t.any fun t => decide (t ≤ l.nTypes - 1)) &&
        ((l.sample out).rows.zip (l.types out)).all fun a => ((l.sample out).rows.zip (l.types out)).all fun b =>
          decide (a.1.id = b.1.id → a.2 = b.2)
    else true) = true := by
    split
    · rename_i h2
      obtain ⟨q, hq, hgood⟩ := htypes h2
      have hzip : ∀ a ∈ (l.sample out).rows.zip (l.types out), ∃ r ∈ out, a.1 = l.row r ∧
          a.2 = r.state.dense[q]? := by
        intro a ha
        simp only [LabelParas.sample, LabelParas.types, hq, List.zip_map', List.mem_map] at ha
        obtain ⟨r, hr, rfl⟩ := ha
        exact ⟨r, hr, rfl, rfl⟩
      rw [Bool.and_eq_true]
      refine ⟨List.all_eq_true.2 fun t ht => ?_, List.all_eq_true.2 fun a ha => List.all_eq_true.2 fun b hb => ?_⟩
      · simp only [LabelParas.types, hq, List.mem_map] at ht
        obtain ⟨r, hr, rfl⟩ := ht
        obtain ⟨_, _, _, _, _, hloc, _⟩ := hone r hr
        obtain ⟨_, t, ht, hd⟩ := hgood _ _ _ hloc
        simp [hd, ht]
      · obtain ⟨r, hr, hra, hta⟩ := hzip a ha
        obtain ⟨r', hr', hrb, htb⟩ := hzip b hb
        rw [decide_eq_true_eq, hra, hrb, hta, htb]
        intro hid
        have hid : r.id = r'.id := by simpa [LabelParas.row] using hid
        obtain ⟨h0, hne⟩ := C32_permanent_characteristics sim hrs params g g' out h sp hsolve hcov r r' hr hr' hid
        by_cases hx : sp.nExog = 0
        · rw [h0 hx]
        · have hs := hne hx
          obtain ⟨_, _, _, _, _, hloc, _⟩ := hone r hr
          obtain ⟨_, _, _, _, _, hloc', _⟩ := hone r' hr'
          have hq1 := (hgood _ _ _ hloc).1
          have hq2 := (hgood _ _ _ hloc').1
          have := congrArg (fun x => x[q]?) hs
          simp only [staticPart, List.getElem?_take, hq1, hq2, if_true] at this
          exact this
    · rfl
  unfold checkSimulatedData
  rw [hest, htype, hwages]
  rfl

/-- Labels of the example in `Verif/Props/Simulate.lean`. -/
def exampleLabels : LabelParas where
  choices := ["a".toList, "h".toList]
  nWages := 1
  nExp := 1
  nPeriods := 2
  nLags := 0
  observables := [(0, ["x".toList, "y".toList])]
  typePosition := none
  nTypes := 1

/-- The example with a positive function instead of the exponential function. -/
def checkedSimulation : Simulation ℚ Nat Unit :=
  { exampleSimulation with rewards := fun _ => ⟨fun x => 1 + x * x, -10, 10, [[1, 0], [0, 1]], 1, [0, 0], 1 / 2⟩ }

/-- Labels in the sample for `C26_labels_are_categories`. -/
example : (checkedSimulation.run () 7).1.map (fun out => (exampleLabels.sample out).rows.map fun d => d.choiceVar 0) =
    some [some "a".toList, some "h".toList, some "a".toList, some "a".toList] := by decide +kernel

/-- The hypotheses are met. -/
example : simulationSpace.Labelled exampleLabels ∧ exampleLabels.choices.Nodup ∧
    (∀ x, 0 < (checkedSimulation.rewards ()).exp x) ∧ (∃ out, (checkedSimulation.run () 7).1 = some out) ∧
    (∀ cx ∈ simulationSpace.complexes, ∀ a : Nat, cx.choiceSet[a]? = some true →
      (∀ b < a, cx.choiceSet[b]? = some true) ∨ cx.choiceSet.count true ≤ a) := by
  refine ⟨⟨?_, by decide, ?_, ?_⟩, by decide +kernel, fun x => ?_, ?_, ?_⟩
  · intro s k h
    have hm := Dict.mem_of_get? _ _ _ h
    simp only [simulationSpace, List.mem_cons, List.not_mem_nil, or_false, Prod.mk.injEq] at hm
    rcases hm with ⟨rfl, _⟩ | ⟨rfl, _⟩ | ⟨rfl, _⟩ <;> simp [exampleLabels]
  · intro s k i h o ho
    have hc := simulationSpace_denseWF.locate s k i h
    have ho : o = (0, ["x".toList, "y".toList]) := by simpa [exampleLabels] using ho
    subst ho
    simp only [simulationSpace] at hc
    split at hc
    · simp only [Option.some.injEq] at hc
      rw [← hc]
      exact ⟨0, by decide, rfl⟩
    · simp only [Option.some.injEq] at hc
      rw [← hc]
      exact ⟨1, by decide, rfl⟩
  · intro k rows h
    have hm := Dict.mem_of_get? _ _ _ h
    simp only [simulationSpace, List.mem_cons, List.not_mem_nil, or_false, Prod.mk.injEq] at hm
    rcases hm with ⟨_, rfl⟩ | ⟨_, rfl⟩ | ⟨_, rfl⟩ | ⟨_, rfl⟩ <;> decide +kernel
  · show (0 : ℚ) < 1 + x * x
    have := mul_self_nonneg x
    linarith
  · have : ((checkedSimulation.run () 7).1).isSome = true := by decide +kernel
    exact Option.isSome_iff_exists.1 this
  · intro cx hcx a ha
    simp only [simulationSpace, List.mem_cons, List.not_mem_nil, or_false] at hcx
    have hcs : cx.choiceSet = [true, true] := by rcases hcx with rfl | rfl | rfl | rfl <;> rfl
    rw [hcs] at ha ⊢
    have hlt : a < 2 := (List.getElem?_eq_some_iff.1 ha).1
    left
    intro b hb
    have : b = 0 := by omega
    subst this
    rfl

end Respy
