import Verif.Lemmas.InputFrame
import Verif.Lemmas.SimulateSolved
import Verif.Props.Individuals

/-!
# C104: One-step-ahead simulations
-/

namespace Respy

/-- The processed data: rows in the order of the index. -/
theorem processInputFrame_panel {choices : List Label} {kinds : List (Str × ColumnKind)} {f : InputFrame}
    {df : List ((Nat × Nat) × CharRow)} (h : processInputFrame true choices kinds f = some df) :
    (f.rows.map InputRow.key).Nodup ∧ hasNans kinds df = false ∧
      convertFrame choices kinds f.columns (f.rows.insertionSort InputRow.le) = some df := by
  unfold processInputFrame at h
  split at h
  · rename_i hn
    simp only [if_true] at h
    obtain ⟨df', h1, h2⟩ := Option.bind_eq_some_iff.1 h
    split at h2
    · simp at h2
    · rename_i hnan
      cases h2
      exact ⟨hn, by simpa using hnan, h1⟩
  · simp at h

instance : IsTrans InputRow InputRow.le where
  trans a b c h h' := by
    simp only [InputRow.le] at *
    omega

instance : Std.Total InputRow.le where
  total a b := by
    simp only [InputRow.le]
    omega

/-- The index of the sorted data increases. -/
theorem sortedRows_strict {rows : List InputRow} (hn : (rows.map InputRow.key).Nodup) :
    (rows.insertionSort InputRow.le).Pairwise fun a b => a.id < b.id ∨ a.id = b.id ∧ a.period < b.period := by
  have h1 : (rows.insertionSort InputRow.le).Pairwise InputRow.le := List.pairwise_insertionSort _ _
  have h2 : ((rows.insertionSort InputRow.le).map InputRow.key).Nodup :=
    ((List.perm_insertionSort InputRow.le rows).map _).nodup_iff.2 hn
  rw [List.Nodup, List.pairwise_map] at h2
  refine (h1.and h2).imp ?_
  rintro a b ⟨h, h'⟩
  have : ¬ (a.id = b.id ∧ a.period = b.period) := fun e => h' (Prod.ext e.1 e.2)
  simp only [InputRow.le] at h
  omega

section
variable {K : Type} [Field K] [LinearOrder K] {G P : Type}

/-- What is done in a one-step-ahead simulation. -/
theorem oneStepAhead_parts {sim : Simulation K G P} {typeColumn : Option Nat} {df : List ((Nat × Nat) × CharRow)}
    {params : P} {g : G} {out : List (SimRow K)} (h : sim.oneStepAhead typeColumn df params g = some out) :
    ∃ sp df' states data, sim.solve params = some sp ∧
      extendPanel sim.rs (sim.chars params) sim.seed typeColumn df g = some df' ∧
      frameStates sim.nExp sim.nLags df' = some states ∧
      simulateOneStep (sim.rewards params) sp sim.draws sim.drawsWage states sim.nPeriods = some data ∧
      out = processOutput data := by
  unfold Simulation.oneStepAhead at h
  obtain ⟨sp, h1, h⟩ := Option.bind_eq_some_iff.1 h
  obtain ⟨df', h2, h⟩ := Option.bind_eq_some_iff.1 h
  obtain ⟨states, h3, h⟩ := Option.bind_eq_some_iff.1 h
  obtain ⟨data, h4, h⟩ := Option.bind_eq_some_iff.1 h
  cases h
  exact ⟨sp, df', states, data, h1, h2, h3, h4, rfl⟩

/-- The states of the observations. -/
theorem oneStepAhead_states {choices : List Label} {kinds : List (Str × ColumnKind)} {f : InputFrame}
    {df df' : List ((Nat × Nat) × CharRow)} (hd : ∀ k ∈ kinds, k.2.Distinct)
    (hp : processInputFrame true choices kinds f = some df) {rs : RandomSource K G} {chars : List (Characteristic K)}
    {seed : Nat} {typeColumn : Option Nat} {g : G} (hx : extendPanel rs chars seed typeColumn df g = some df')
    {nExp nLags : Nat} {states : List (Nat × SimState)} (hs : frameStates nExp nLags df' = some states) :
    List.Forall₂ (fun (r : InputRow) (a : Nat × SimState) => a.1 = r.id ∧ a.2.core.period = r.period ∧
      r.KeptIn f.columns kinds a.2.values) (f.rows.insertionSort InputRow.le) states := by
  obtain ⟨_, _, hc⟩ := processInputFrame_panel hp
  have h1 := convertFrame_rows hc
  have h2 := extendPanel_extends hx
  have h3 := frameStates_rows hs
  rw [List.forall₂_iff_get] at h1 h2 h3 ⊢
  refine ⟨h1.1.trans (h2.1.trans h3.1), fun i hi hi' => ?_⟩
  obtain ⟨k1, v1⟩ := h1.2 i hi (by rw [← h1.1]; exact hi)
  obtain ⟨k2, l2, v2⟩ := h2.2 i (by rw [← h1.1]; exact hi) (by rw [h3.1]; exact hi')
  obtain ⟨k3, p3, v3⟩ := h3.2 i (by rw [h3.1]; exact hi') hi'
  rw [k2, k1] at k3 p3
  refine ⟨k3, p3, ?_, fun j c kind x hj hx => ?_⟩
  · have := congrArg List.length v3
    rw [List.length_map, l2, ← v1.length_eq] at this
    exact this.symm
  · obtain ⟨v, hv, hm⟩ := converted_value hd v1 j c kind x hj hx
    have := v2 j v hv
    rw [v3, List.getElem?_map] at this
    obtain ⟨w, hw, e⟩ := Option.map_eq_some_iff.1 this
    cases e
    exact ⟨v, hw, hm⟩

/-- Rows with an increasing index are determined by their arrangement. -/
theorem oneStepAhead_order {p : RewardParams K} {sp : SimSpace K} {draws drawsWage : List (List K)}
    {states : List (Nat × SimState)} {periods : Nat} {data : List (List (SimRow K))}
    (hs : states.Pairwise fun a b => a.1 < b.1 ∨ a.1 = b.1 ∧ a.2.core.period < b.2.core.period)
    (h : simulateOneStep p sp draws drawsWage states periods = some data) :
    (processOutput data).map (fun r => (r.id, r.state)) =
      states.filter fun a => decide (a.2.core.period < periods) := by
  have hperm := simulateOneStep_perm h
  have hsf := hs.sublist (List.filter_sublist (p := fun a => decide (a.2.core.period < periods)))
  have hnd : (((processOutput data).map fun r => (r.id, r.state)).map
      fun a => (a.1, a.2.core.period)).Nodup := by
    rw [(hperm.map _).nodup_iff, List.Nodup, List.pairwise_map]
    refine hsf.imp fun {a b} hab e => ?_
    rw [Prod.mk.injEq] at e
    omega
  refine hperm.eq_of_pairwise (le := fun a b => a.1 < b.1 ∨ a.1 = b.1 ∧ a.2.core.period < b.2.core.period) ?_ ?_ hsf
  · intro a b _ _ h1 h2
    omega
  · rw [List.pairwise_map]
    rw [List.Nodup, List.pairwise_map, List.pairwise_map] at hnd
    refine ((processOutput_sorted data).and hnd).imp ?_
    rintro a b ⟨h1, h2⟩
    have : ¬ (a.id = b.id ∧ a.state.core.period = b.state.core.period) := fun e => h2 (Prod.ext e.1 e.2)
    simp only [SimRow.le] at h1
    dsimp only
    omega

theorem states_strict {f : InputFrame} {kinds : List (Str × ColumnKind)} {states : List (Nat × SimState)}
    (hn : (f.rows.map InputRow.key).Nodup)
    (hst : List.Forall₂ (fun (r : InputRow) (a : Nat × SimState) => a.1 = r.id ∧ a.2.core.period = r.period ∧
      r.KeptIn f.columns kinds a.2.values) (f.rows.insertionSort InputRow.le) states) :
    states.Pairwise fun a b => a.1 < b.1 ∨ a.1 = b.1 ∧ a.2.core.period < b.2.core.period := by
  have hstrict := sortedRows_strict hn
  rw [List.pairwise_iff_getElem] at hstrict ⊢
  rw [List.forall₂_iff_get] at hst
  intro i j hi hj hij
  obtain ⟨a1, a2, _⟩ := hst.2 i (by rw [hst.1]; exact hi) hi
  obtain ⟨b1, b2, _⟩ := hst.2 j (by rw [hst.1]; exact hj) hj
  have := hstrict i j (by rw [hst.1]; exact hi) (by rw [hst.1]; exact hj) hij
  simp only [List.get_eq_getElem] at a1 a2 b1 b2
  rw [a1, a2, b1, b2]
  exact this

/-- **C104** The result of a one-step-ahead simulation has one row for each observation of the data in the simulated
periods, in the order of the index. `sorted` are the observations in this order. The row of an observation has the
characteristics of the observation and uses the draws at the position of the observation in the data. Its outcomes are
those of `simulateRow`, which C73 relates to the model. -/
theorem C104_observations (choices : List Label) (kinds : List (Str × ColumnKind)) (hd : ∀ k ∈ kinds, k.2.Distinct)
    (f : InputFrame) (df : List ((Nat × Nat) × CharRow)) (hp : processInputFrame true choices kinds f = some df)
    (sim : Simulation K G P) (typeColumn : Option Nat) (params : P) (g : G) (out : List (SimRow K))
    (h : sim.oneStepAhead typeColumn df params g = some out) :
    ∃ sorted : List InputRow, sorted.Perm f.rows ∧
      (sorted.Pairwise fun a b => a.id < b.id ∨ a.id = b.id ∧ a.period < b.period) ∧
      (out.map fun row => (row.id, row.state.core.period)) =
        (sorted.filter fun r => decide (r.period < sim.nPeriods)).map InputRow.key ∧
      ∀ row ∈ out, ∃ (i : Nat) (r : InputRow), sorted[i]? = some r ∧ r.key = (row.id, row.state.core.period) ∧
        r.KeptIn f.columns kinds row.state.values ∧ sim.draws[i]? = some row.base ∧
        sim.drawsWage[i]? = some row.baseWage ∧
        ∃ sp cvs, sim.solve params = some sp ∧ sp.cvs r.period = some cvs ∧
          simulateRow (sim.rewards params) sp r.period cvs row.id row.state row.base row.baseWage = some row := by
  obtain ⟨sp, df', states, data, hsp, hx, hs, hdata, rfl⟩ := oneStepAhead_parts h
  have hst := oneStepAhead_states hd hp hx hs
  have hstrict := sortedRows_strict (processInputFrame_panel hp).1
  refine ⟨f.rows.insertionSort InputRow.le, List.perm_insertionSort _ _, hstrict, ?_, ?_⟩
  · have hss := states_strict (processInputFrame_panel hp).1 hst
    have ho := congrArg (List.map fun a : Nat × SimState => (a.1, a.2.core.period)) (oneStepAhead_order hss hdata)
    rw [List.map_map] at ho
    refine ho.trans ?_
    clear ho hss hdata hstrict hs
    revert hst
    generalize f.rows.insertionSort InputRow.le = l
    intro hst
    induction hst with
    | nil => rfl
    | cons hx _ ih =>
      rename_i r a _ _ _
      obtain ⟨e1, e2, _⟩ := hx
      by_cases hlt : r.period < sim.nPeriods
      · rw [List.filter_cons_of_pos (by rw [e2]; simpa using hlt), List.filter_cons_of_pos (by simpa using hlt),
          List.map_cons, List.map_cons, ih, e1, e2]
        rfl
      · rw [List.filter_cons_of_neg (by rw [e2]; simpa using hlt), List.filter_cons_of_neg (by simpa using hlt), ih]
  · intro row hrow
    obtain ⟨t, q, rows, ht, hq⟩ := (mem_processOutput data row).1 hrow
    obtain ⟨_, hmap, hr⟩ := (simulateOneStep_rows hdata).2 t rows ht
    have hmem := List.mem_of_getElem? hq
    have hper : row.state.core.period = t := by
      have : (row.id, row.state) ∈ rows.map fun r => (r.id, r.state) := List.mem_map.2 ⟨row, hmem, rfl⟩
      rw [hmap, List.mem_filter] at this
      simpa using this.2
    obtain ⟨i, cvs, h1, h2, h3, h4, h5⟩ := hr row hmem
    have hlen := hst.length_eq
    have hi : i < (f.rows.insertionSort InputRow.le).length := by
      rw [hlen]; exact (List.getElem?_eq_some_iff.1 h1).1
    obtain ⟨a, ha, e1, e2, hk⟩ := forall₂_getElem? hst i _ (List.getElem?_eq_getElem hi)
    rw [h1] at ha
    cases ha
    refine ⟨i, _, List.getElem?_eq_getElem hi, Prod.ext e1.symm e2.symm, hk, h2, h3, sp, cvs, hsp, ?_, ?_⟩
    · rw [← e2, hper]; exact h4
    · rw [← e2, hper]; exact h5

omit [Field K] [LinearOrder K] in
/-- An index of the result belongs to one row. -/
theorem out_unique {out : List (SimRow K)} {sorted : List InputRow} {n : Nat}
    (hkeys : (out.map fun row => (row.id, row.state.core.period)) =
      (sorted.filter fun r => decide (r.period < n)).map InputRow.key)
    (hs : sorted.Pairwise fun a b => a.id < b.id ∨ a.id = b.id ∧ a.period < b.period) {w w' : SimRow K}
    (hw : w ∈ out) (hw' : w' ∈ out) (e : (w.id, w.state.core.period) = (w'.id, w'.state.core.period)) : w = w' := by
  have hnd : (out.map fun row => (row.id, row.state.core.period)).Nodup := by
    rw [hkeys, List.Nodup, List.pairwise_map]
    refine (hs.sublist List.filter_sublist).imp fun {a b} hab e => ?_
    have h1 : a.id = b.id := congrArg Prod.fst e
    have h2 : a.period = b.period := congrArg Prod.snd e
    omega
  exact List.inj_on_of_nodup_map hnd hw hw' e

/-! ## Types -/

omit [Field K] [LinearOrder K] in
theorem forwardFill_zero (c : Nat) (last : Option Nat) (df : List ((Nat × Nat) × CharRow))
    (r : (Nat × Nat) × CharRow) (h : df[0]? = some r) (hn : r.2[c]? = some none) :
    ∃ r', (forwardFill c last df)[0]? = some r' ∧ r'.2[c]? = some last := by
  cases df with
  | nil => simp at h
  | cons x df =>
    simp only [List.getElem?_cons_zero, Option.some.injEq] at h
    subst h
    refine ⟨_, rfl, ?_⟩
    dsimp only
    rw [List.getElem?_set_self (List.getElem?_eq_some_iff.1 hn).1, hn]
    rfl

omit [Field K] [LinearOrder K] in
theorem forwardFill_succ (c : Nat) (last : Option Nat) (df : List ((Nat × Nat) × CharRow))
    (hl : ∀ x ∈ df, c < x.2.length) (i : Nat) (r : (Nat × Nat) × CharRow) (h : df[i + 1]? = some r)
    (hn : r.2[c]? = some none) :
    ∃ a b, (forwardFill c last df)[i]? = some a ∧ (forwardFill c last df)[i + 1]? = some b ∧ b.2[c]? = a.2[c]? := by
  induction df generalizing last i with
  | nil => simp at h
  | cons x df ih =>
    rw [List.getElem?_cons_succ] at h
    rw [forwardFill]
    cases i with
    | zero =>
      obtain ⟨r', h1, h2⟩ := forwardFill_zero c ((x.2[c]?).join.or last) df r h hn
      refine ⟨_, r', rfl, h1, ?_⟩
      rw [h2]
      exact (List.getElem?_set_self (hl x (by simp))).symm
    | succ i => exact ih _ (fun y hy => hl y (by simp [hy])) i h

omit [Field K] [LinearOrder K] in
theorem combineFirst_later (df : List ((Nat × Nat) × CharRow)) (fp : List CharRow) (i : Nat)
    (r : (Nat × Nat) × CharRow) (h : df[i]? = some r) (hr : r.1.2 ≠ 0) : (combineFirst df fp)[i]? = some r := by
  induction df generalizing fp i with
  | nil => simp at h
  | cons x df ih =>
    cases fp with
    | nil => rw [combineFirst]; exact h
    | cons y fp =>
      rw [combineFirst]
      cases i with
      | zero =>
        simp only [List.getElem?_cons_zero, Option.some.injEq] at h
        subst h
        rw [if_neg hr]
        rfl
      | succ i =>
        rw [List.getElem?_cons_succ] at h
        split
        · exact ih _ i h
        · exact ih _ i h

/-- The type of a row without type is the one of the row before. -/
theorem extendPanel_type {rs : RandomSource K G} {chars : List (Characteristic K)} {seed c : Nat}
    {df df' : List ((Nat × Nat) × CharRow)} {g : G} (h : extendPanel rs chars seed (some c) df g = some df')
    (hl : ∀ x ∈ df, c < x.2.length) (i : Nat) (r : (Nat × Nat) × CharRow) (hi : df[i + 1]? = some r)
    (hr : r.1.2 ≠ 0) (hn : r.2[c]? = some none) :
    ∃ a b, df'[i]? = some a ∧ df'[i + 1]? = some b ∧ b.2[c]? = a.2[c]? := by
  unfold extendPanel at h
  obtain ⟨⟨fp, g'⟩, h1, h2⟩ := Option.bind_eq_some_iff.1 h
  obtain ⟨hfl, hk⟩ := sampleAll_spec _ _ _ _ _ _ _ h1
  have hc := combineFirst_extends df fp (by
    rw [List.forall₂_iff_get]
    refine ⟨hfl.symm, fun i hi hi' => ?_⟩
    exact hk i _ _ (List.getElem?_eq_getElem hi) (List.getElem?_eq_getElem hi'))
  cases h2
  refine forwardFill_succ c none _ ?_ i r (combineFirst_later df fp _ r hi hr) hn
  intro x hx
  obtain ⟨q, hq, e⟩ := List.mem_iff_getElem.1 hx
  have hq' : q < df.length := by rw [hc.length_eq]; exact hq
  obtain ⟨y, hy, _, hyl, _⟩ := forall₂_getElem? hc q _ (List.getElem?_eq_getElem hq')
  rw [List.getElem?_eq_getElem hq, e] at hy
  cases hy
  rw [hyl]
  exact hl _ (List.getElem_mem hq')

/-- **C104** The type of an observation after the first period which has no type in the data is the type of the
previous observation in the data, whichever individual this is. `c` is the column of the type. -/
theorem C104_type_of_previous_observation (choices : List Label) (kinds : List (Str × ColumnKind))
    (hd : ∀ k ∈ kinds, k.2.Distinct) (f : InputFrame) (df : List ((Nat × Nat) × CharRow))
    (hp : processInputFrame true choices kinds f = some df) (sim : Simulation K G P) (c : Nat)
    (hc : kinds[c]? = some ("type".toList, .number)) (params : P) (g : G) (out : List (SimRow K))
    (h : sim.oneStepAhead (some c) df params g = some out) (sorted : List InputRow) (hperm : sorted.Perm f.rows)
    (hsorted : sorted.Pairwise fun a b => a.id < b.id ∨ a.id = b.id ∧ a.period < b.period) (i : Nat)
    (r r' : InputRow) (hr : sorted[i]? = some r) (hr' : sorted[i + 1]? = some r') (hlater : r'.period ≠ 0)
    (hno : r'.value f.columns "type".toList = none) (row row' : SimRow K) (hrow : row ∈ out) (hrow' : row' ∈ out)
    (hk : (row.id, row.state.core.period) = r.key) (hk' : (row'.id, row'.state.core.period) = r'.key) :
    row'.state.values[c]? = row.state.values[c]? := by
  obtain ⟨sp, df', states, data, hsp, hx, hs, hdata, rfl⟩ := oneStepAhead_parts h
  obtain ⟨hnd, _, hconv⟩ := processInputFrame_panel hp
  have hst := oneStepAhead_states hd hp hx hs
  have hss := states_strict hnd hst
  have hsort : sorted = f.rows.insertionSort InputRow.le := by
    refine (hperm.trans (List.perm_insertionSort _ _).symm).eq_of_pairwise
      (le := fun a b => a.id < b.id ∨ a.id = b.id ∧ a.period < b.period) ?_ hsorted (sortedRows_strict hnd)
    intro a b _ _ h1 h2
    omega
  subst hsort
  have hconvr := convertFrame_rows hconv
  -- the row of an observation is the one at its position
  have hat : ∀ (j : Nat) (q : InputRow) (w : SimRow K), (f.rows.insertionSort InputRow.le)[j]? = some q →
      w ∈ processOutput data → (w.id, w.state.core.period) = q.key → states[j]? = some (w.id, w.state) := by
    intro j q w hj hw hkey
    have hmem : (w.id, w.state) ∈ states := by
      have : (w.id, w.state) ∈ (processOutput data).map fun r => (r.id, r.state) := List.mem_map.2 ⟨w, hw, rfl⟩
      rw [oneStepAhead_order hss hdata] at this
      exact (List.mem_filter.1 this).1
    obtain ⟨a, ha, e1, e2, _⟩ := forall₂_getElem? hst j _ hj
    obtain ⟨j', hj'⟩ := List.getElem?_of_mem hmem
    rw [ha]
    have hjl := (List.getElem?_eq_some_iff.1 ha)
    have hjl' := (List.getElem?_eq_some_iff.1 hj')
    obtain ⟨l1, q1⟩ := hjl
    obtain ⟨l2, q2⟩ := hjl'
    rw [List.pairwise_iff_getElem] at hss
    have hk1 : w.id = q.id := congrArg Prod.fst hkey
    have hk2 : w.state.core.period = q.period := congrArg Prod.snd hkey
    rcases Nat.lt_trichotomy j j' with hlt | heq | hgt
    · have := hss j j' l1 l2 hlt
      rw [q1, q2] at this
      dsimp only at this
      omega
    · subst heq
      rw [← q1, q2]
    · have := hss j' j l2 l1 hgt
      rw [q1, q2] at this
      dsimp only at this
      omega
  have h1 := hat i r row hr hrow hk
  have h2 := hat (i + 1) r' row' hr' hrow' hk'
  obtain ⟨x, hx1, hxk, hxv⟩ := forall₂_getElem? hconvr (i + 1) _ hr'
  obtain ⟨v, hv, hvc⟩ := forall₂_getElem? hxv c _ hc
  have hvn : v = none := by
    dsimp only at hvc
    rw [hno] at hvc
    simpa [ColumnKind.convert, eq_comm] using hvc
  subst hvn
  obtain ⟨a, b, ha, hb, hab⟩ := extendPanel_type hx (by
    intro y hy
    obtain ⟨q, hq⟩ := List.getElem?_of_mem hy
    have hql : q < (f.rows.insertionSort InputRow.le).length := by
      rw [hconvr.length_eq]; exact (List.getElem?_eq_some_iff.1 hq).1
    obtain ⟨z, hz, _, hzv⟩ := forall₂_getElem? hconvr q _ (List.getElem?_eq_getElem hql)
    rw [hq] at hz
    cases hz
    rw [← hzv.length_eq]
    exact (List.getElem?_eq_some_iff.1 hc).1) i x hx1 (by rw [hxk]; exact hlater) hv
  have hfs := frameStates_rows hs
  obtain ⟨a', ha', _, _, hav⟩ := forall₂_getElem? hfs i _ ha
  obtain ⟨b', hb', _, _, hbv⟩ := forall₂_getElem? hfs (i + 1) _ hb
  rw [h1] at ha'
  rw [h2] at hb'
  cases ha'
  cases hb'
  rw [hav, hbv, List.getElem?_map, List.getElem?_map] at hab
  exact Option.map_injective (Option.some_injective _) hab

/-- **C104** Types are not in the data and each individual is observed in the first period. Then all rows of an
individual have the same type. Missing: individuals who are not observed in the first period, see
`C104_type_of_previous_observation` and `C104_types_false`. -/
theorem C104_types_partial (choices : List Label) (kinds : List (Str × ColumnKind))
    (hd : ∀ k ∈ kinds, k.2.Distinct) (f : InputFrame) (df : List ((Nat × Nat) × CharRow))
    (hp : processInputFrame true choices kinds f = some df) (sim : Simulation K G P) (c : Nat)
    (hc : kinds[c]? = some ("type".toList, .number)) (hno : "type".toList ∉ f.columns)
    (hfirst : ∀ r ∈ f.rows, ∃ r0 ∈ f.rows, r0.id = r.id ∧ r0.period = 0) (params : P) (g : G) (out : List (SimRow K))
    (h : sim.oneStepAhead (some c) df params g = some out) (row row' : SimRow K) (hrow : row ∈ out)
    (hrow' : row' ∈ out) (hid : row.id = row'.id) : row.state.values[c]? = row'.state.values[c]? := by
  obtain ⟨sorted, hperm, hsorted, hkeys, hrows⟩ := C104_observations choices kinds hd f df hp sim (some c) params g out h
  have hout : ∀ r ∈ sorted, r.period < sim.nPeriods → ∃ w ∈ out, (w.id, w.state.core.period) = r.key := by
    intro r hr hlt
    have : r.key ∈ out.map fun row => (row.id, row.state.core.period) := by
      rw [hkeys]
      exact List.mem_map.2 ⟨r, List.mem_filter.2 ⟨hr, by simpa using hlt⟩, rfl⟩
    obtain ⟨w, hw, e⟩ := List.mem_map.1 this
    exact ⟨w, hw, e⟩
  have hpair := List.pairwise_iff_getElem.1 hsorted
  -- all observations of an individual have the type of its first observation
  have key : ∀ (i j : Nat) (r r0 : InputRow), sorted[i]? = some r → sorted[j]? = some r0 → r0.id = r.id →
      r0.period = 0 → ∀ w ∈ out, ∀ w0 ∈ out, (w.id, w.state.core.period) = r.key →
      (w0.id, w0.state.core.period) = r0.key → w.state.values[c]? = w0.state.values[c]? := by
    intro i
    induction i with
    | zero =>
      intro j r r0 hr hr0 e1 e2 w hw w0 hw0 hk hk0
      obtain ⟨l0, q0⟩ := List.getElem?_eq_some_iff.1 hr
      obtain ⟨lj, qj⟩ := List.getElem?_eq_some_iff.1 hr0
      rcases Nat.eq_zero_or_pos j with rfl | hpos
      · rw [hr] at hr0
        cases hr0
        exact out_unique hkeys hsorted hw hw0 (hk.trans hk0.symm) ▸ rfl
      · have := hpair 0 j l0 lj hpos
        rw [q0, qj] at this
        omega
    | succ i ih =>
      intro j r r0 hr hr0 e1 e2 w hw w0 hw0 hk hk0
      obtain ⟨li, qi⟩ := List.getElem?_eq_some_iff.1 hr
      obtain ⟨lj, qj⟩ := List.getElem?_eq_some_iff.1 hr0
      by_cases hz : r.period = 0
      · have hkk : r.key = r0.key := Prod.ext e1.symm (hz.trans e2.symm)
        exact out_unique hkeys hsorted hw hw0 (hk.trans (hkk.trans hk0.symm)) ▸ rfl
      · have hji : j < i + 1 := by
          rcases Nat.lt_trichotomy j (i + 1) with hlt | heq | hgt
          · exact hlt
          · subst heq
            rw [hr] at hr0
            cases hr0
            exact absurd e2 hz
          · have := hpair (i + 1) j li lj hgt
            rw [qi, qj] at this
            omega
        have hp1 := hpair i (i + 1) (by omega) li (by omega)
        have hprev : (sorted[i]).id = r.id := by
          rcases Nat.lt_or_ge j i with hlt | hge
          · have := hpair j i lj (by omega) hlt
            rw [qj] at this
            rw [qi] at hp1
            omega
          · have : j = i := by omega
            subst this
            rw [qj, e1]
        have hpp : (sorted[i]).period < sim.nPeriods := by
          have hwp : r.period < sim.nPeriods := by
            have : (w.id, w.state.core.period) ∈ out.map fun row => (row.id, row.state.core.period) :=
              List.mem_map.2 ⟨w, hw, rfl⟩
            rw [hkeys] at this
            obtain ⟨q, hq, e⟩ := List.mem_map.1 this
            have hlt := (List.mem_filter.1 hq).2
            have : q.period = r.period := congrArg Prod.snd (e.trans hk)
            simp only [decide_eq_true_eq] at hlt
            omega
          rw [qi] at hp1
          omega
        obtain ⟨v, hv, hvk⟩ := hout _ (List.getElem_mem (by omega : i < sorted.length)) hpp
        have hstep := C104_type_of_previous_observation choices kinds hd f df hp sim c hc params g out h sorted hperm
          hsorted i _ r (List.getElem?_eq_getElem (by omega)) hr hz (if_neg hno) v w hv hw hvk hk
        rw [hstep]
        exact ih j _ r0 (List.getElem?_eq_getElem (by omega)) hr0 (e1.trans hprev.symm) e2 v hv w0 hw0 hvk hk0
  obtain ⟨i1, r1, s1, t1, _⟩ := hrows row hrow
  obtain ⟨i2, r2, s2, t2, _⟩ := hrows row' hrow'
  obtain ⟨r0, hr0, e1, e2⟩ := hfirst r1 (hperm.mem_iff.1 (List.mem_of_getElem? s1))
  obtain ⟨j, hj⟩ := List.getElem?_of_mem (hperm.mem_iff.2 hr0)
  have hp0 : r0.period < sim.nPeriods := by
    have : (row.id, row.state.core.period) ∈ out.map fun row => (row.id, row.state.core.period) :=
      List.mem_map.2 ⟨row, hrow, rfl⟩
    rw [hkeys] at this
    obtain ⟨q, hq, e⟩ := List.mem_map.1 this
    have hlt := (List.mem_filter.1 hq).2
    simp only [decide_eq_true_eq] at hlt
    omega
  obtain ⟨w0, hw0, hk0⟩ := hout r0 (List.mem_of_getElem? hj) hp0
  have hid12 : r2.id = r1.id := by
    have a1 : r1.id = row.id := congrArg Prod.fst t1
    have a2 : r2.id = row'.id := congrArg Prod.fst t2
    omega
  rw [key i1 j r1 r0 s1 hj e1 e2 row hrow w0 hw0 t1.symm hk0,
    key i2 j r2 r0 s2 hj (e1.trans hid12.symm) e2 row' hrow' w0 hw0 t2.symm hk0]

end

end Respy
