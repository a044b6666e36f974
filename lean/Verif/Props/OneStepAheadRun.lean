import Verif.Props.OneStepAhead
import Verif.Props.SimulateModel

/-!
# C104: Outcomes and failures of one-step-ahead simulations
-/

namespace Respy

section
variable {K : Type} [Field K] [LinearOrder K] {G P : Type}

/-! ## Exceptions -/

/-- **C104** There has to be an observation in each simulated period. -/
theorem C104_every_period_observed (choices : List Label) (kinds : List (Str × ColumnKind))
    (hd : ∀ k ∈ kinds, k.2.Distinct) (f : InputFrame) (df : List ((Nat × Nat) × CharRow))
    (hp : processInputFrame true choices kinds f = some df) (sim : Simulation K G P) (typeColumn : Option Nat)
    (params : P) (g : G) (t : Nat) (ht : t < sim.nPeriods) (hno : ∀ r ∈ f.rows, r.period ≠ t) :
    sim.oneStepAhead typeColumn df params g = none := by
  cases h : sim.oneStepAhead typeColumn df params g with
  | none => rfl
  | some out =>
    obtain ⟨sp, df', states, data, hsp, hx, hs, hdata, rfl⟩ := oneStepAhead_parts h
    obtain ⟨hl, hrows⟩ := simulateOneStep_rows hdata
    have htd : t < data.length := by rw [hl]; exact ht
    obtain ⟨hne, hmap, _⟩ := hrows t _ (List.getElem?_eq_getElem htd)
    obtain ⟨row, hrow⟩ := List.exists_mem_of_ne_nil _ hne
    have hmem : (row.id, row.state) ∈ (data[t]).map fun r => (r.id, r.state) := List.mem_map.2 ⟨row, hrow, rfl⟩
    rw [hmap, List.mem_filter] at hmem
    obtain ⟨i, hi⟩ := List.getElem?_of_mem hmem.1
    have hst := oneStepAhead_states hd hp hx hs
    have hil : i < (f.rows.insertionSort InputRow.le).length := by
      rw [hst.length_eq]; exact (List.getElem?_eq_some_iff.1 hi).1
    obtain ⟨a, ha, _, e2, _⟩ := forall₂_getElem? hst i _ (List.getElem?_eq_getElem hil)
    rw [hi] at ha
    cases ha
    refine absurd ?_ (hno _ ((List.perm_insertionSort InputRow.le f.rows).mem_iff.1 (List.getElem_mem hil)))
    rw [← e2]
    simpa using hmem.2

/-- **C104** An individual which comes first in the data, is not observed in the first period and has no type raises an
exception. -/
theorem C104_first_observation_without_type (choices : List Label) (kinds : List (Str × ColumnKind)) (f : InputFrame)
    (df : List ((Nat × Nat) × CharRow)) (hp : processInputFrame true choices kinds f = some df)
    (sim : Simulation K G P) (c : Nat) (hc : kinds[c]? = some ("type".toList, .number)) (params : P) (g : G)
    (r : InputRow) (hr : r ∈ f.rows) (hfirst : ∀ r' ∈ f.rows, r.id ≤ r'.id ∧ (r'.id = r.id → r.period ≤ r'.period))
    (hlater : r.period ≠ 0) (hno : r.value f.columns "type".toList = none) :
    sim.oneStepAhead (some c) df params g = none := by
  cases h : sim.oneStepAhead (some c) df params g with
  | none => rfl
  | some out =>
    obtain ⟨sp, df', states, data, hsp, hx, hs, hdata, rfl⟩ := oneStepAhead_parts h
    obtain ⟨hnd, _, hconv⟩ := processInputFrame_panel hp
    have hconvr := convertFrame_rows hconv
    have hperm := List.perm_insertionSort InputRow.le f.rows
    have hzero : (f.rows.insertionSort InputRow.le)[0]? = some r := by
      obtain ⟨j, hj⟩ := List.getElem?_of_mem (hperm.mem_iff.2 hr)
      obtain ⟨lj, qj⟩ := List.getElem?_eq_some_iff.1 hj
      rcases Nat.eq_zero_or_pos j with rfl | hpos
      · exact hj
      · have := List.pairwise_iff_getElem.1 (sortedRows_strict hnd) 0 j (by omega) lj hpos
        have h0 := hfirst _ (hperm.mem_iff.1 (List.getElem_mem (by omega : 0 < _)))
        rw [qj] at this
        omega
    obtain ⟨x, hx1, hxk, hxv⟩ := forall₂_getElem? hconvr 0 _ hzero
    obtain ⟨v, hv, hvc⟩ := forall₂_getElem? hxv c _ hc
    have hvn : v = none := by
      dsimp only at hvc
      rw [hno] at hvc
      simpa [ColumnKind.convert, eq_comm] using hvc
    subst hvn
    unfold extendPanel at hx
    obtain ⟨⟨fp, g'⟩, h1, h2⟩ := Option.bind_eq_some_iff.1 hx
    cases h2
    obtain ⟨r', hr', hn'⟩ := forwardFill_zero c none _ x
      (combineFirst_later df fp 0 x hx1 (by rw [hxk]; exact hlater)) hv
    obtain ⟨a, _, _, _, hav⟩ := forall₂_getElem? (frameStates_rows hs) 0 _ hr'
    rw [hav, List.getElem?_map] at hn'
    obtain ⟨_, _, e⟩ := Option.map_eq_some_iff.1 hn'
    exact absurd e (by simp)

end

/-! ## Complete data -/

section
variable {K : Type} [Field K] [LinearOrder K] [IsStrictOrderedRing K] {G P : Type}

omit [Field K] [LinearOrder K] [IsStrictOrderedRing K] in
theorem RowExtends.eq_of_complete {r r' : (Nat × Nat) × CharRow} (h : RowExtends r r') (hc : ∀ v ∈ r.2, v ≠ none) :
    r' = r := by
  obtain ⟨h1, h2, h3⟩ := h
  refine Prod.ext h1 (List.ext_getElem? fun i => ?_)
  cases hi : r.2[i]? with
  | none =>
    rw [List.getElem?_eq_none_iff] at hi ⊢
    omega
  | some v =>
    cases v with
    | none => exact absurd rfl (hc _ (List.mem_of_getElem? hi))
    | some v => exact h3 i v hi

/-- Nothing is sampled for complete data. -/
theorem extendPanel_complete (rs : RandomSource K G) (hrs : rs.Contract) (chars : List (Characteristic K))
    (hch : ∀ ch ∈ chars, ch.WF) (seed : Nat) (typeColumn : Option Nat) (df : List ((Nat × Nat) × CharRow)) (n : Nat)
    (hn : ∀ x ∈ df, x.2.length = n) (hc : ∀ x ∈ df, ∀ v ∈ x.2, v ≠ none) (g : G) :
    extendPanel rs chars seed typeColumn df g = some df := by
  have hex : ∃ df', extendPanel rs chars seed typeColumn df g = some df' := by
    set all := chars.flatMap (·.levels) ++ df.flatMap (fun x => x.2.filterMap id) with hall
    obtain ⟨fp', g', h1, _⟩ := sampleAll_total rs hrs chars hch seed
      ((df.filter fun (r : (Nat × Nat) × CharRow) => decide (r.1.2 = 0)).map Prod.snd) (List.replicate n all) (by
        intro row hrow
        obtain ⟨x, hx, rfl⟩ := List.mem_map.1 hrow
        have hxd := (List.mem_filter.1 hx).1
        unfold RowAllowed
        rw [List.forall₂_iff_get]
        refine ⟨by simp [hn x hxd], fun i hi hi' v hv => ?_⟩
        rw [List.get_eq_getElem, List.getElem_replicate]
        refine List.mem_append_right _ (List.mem_flatMap.2 ⟨x, hxd, List.mem_filterMap.2 ⟨some v, ?_, rfl⟩⟩)
        rw [← hv]
        exact List.getElem_mem _) (by
        intro ch hch l hl v hv
        rw [List.getElem?_replicate] at hl
        split at hl
        · cases hl
          exact List.mem_append_left _ (List.mem_flatMap.2 ⟨ch, hch, hv⟩)
        · simp at hl) g
    unfold extendPanel
    rw [h1]
    cases typeColumn <;> exact ⟨_, rfl⟩
  obtain ⟨df', h⟩ := hex
  rw [h]
  have hx := extendPanel_extends h
  congr 1
  rw [List.forall₂_iff_get] at hx
  refine (List.ext_get hx.1 fun i hi hi' => ?_).symm
  exact ((hx.2 i hi hi').eq_of_complete (hc _ (List.getElem_mem hi))).symm

omit [Field K] [LinearOrder K] [IsStrictOrderedRing K] in
/-- All types are filled if the first one is known. -/
theorem forwardFill_complete (levels : List Nat) (c : Nat) (last : Option Nat) (df : List ((Nat × Nat) × CharRow))
    (hl : ∀ x ∈ df, c < x.2.length) (hcells : ∀ x ∈ df, ∀ v, x.2[c]? = some (some v) → v ∈ levels)
    (hlast : (∃ v ∈ levels, last = some v) ∨ ∀ x ∈ df.head?, ∃ v, x.2[c]? = some (some v)) :
    List.Forall₂ (fun x y => y.1 = x.1 ∧ ∃ v ∈ levels, y.2 = x.2.set c (some v)) df (forwardFill c last df) := by
  induction df generalizing last with
  | nil => exact .nil
  | cons x df ih =>
    rw [forwardFill]
    have hlen := hl x (by simp)
    have hval : ∃ v ∈ levels, (x.2[c]?).join.or last = some v := by
      cases hx : x.2[c]? with
      | none => rw [List.getElem?_eq_none_iff] at hx; omega
      | some y =>
        cases y with
        | some v => exact ⟨v, hcells x (by simp) v hx, rfl⟩
        | none =>
          rcases hlast with ⟨v, hv, rfl⟩ | hhead
          · exact ⟨v, hv, rfl⟩
          · obtain ⟨v, hv⟩ := hhead x rfl
            rw [hx] at hv
            cases hv
    obtain ⟨v, hv, e⟩ := hval
    rw [e]
    exact .cons ⟨rfl, v, hv, rfl⟩ (ih _ (fun y hy => hl y (by simp [hy])) (fun y hy => hcells y (by simp [hy]))
      (Or.inl ⟨v, hv, rfl⟩))

omit [Field K] [LinearOrder K] [IsStrictOrderedRing K] in
theorem combineFirst_types (levels : List Nat) (c : Nat) (df : List ((Nat × Nat) × CharRow)) (fp : List CharRow)
    (h : List.Forall₂ (fun x y => ∃ v ∈ levels, y = x.set c (some v))
      ((df.filter fun r => decide (r.1.2 = 0)).map Prod.snd) fp) :
    List.Forall₂ (fun x y => y.1 = x.1 ∧ (x.1.2 = 0 → ∃ v ∈ levels, y.2 = x.2.set c (some v)) ∧
      (x.1.2 ≠ 0 → y.2 = x.2)) df (combineFirst df fp) := by
  induction df generalizing fp with
  | nil => exact .nil
  | cons r df ih =>
    by_cases h0 : r.1.2 = 0
    · rw [List.filter_cons_of_pos (by simpa using h0), List.map_cons] at h
      cases h with
      | cons hx hrest =>
        rw [combineFirst, if_pos h0]
        exact .cons ⟨rfl, fun _ => hx, fun hn => absurd h0 hn⟩ (ih _ hrest)
    · rw [List.filter_cons_of_neg (by simpa using h0)] at h
      cases fp with
      | nil =>
        rw [combineFirst]
        refine .cons ⟨rfl, fun hz => absurd hz h0, fun _ => rfl⟩ ?_
        have := ih [] h
        cases df with
        | nil => exact .nil
        | cons _ _ => rw [combineFirst] at this; exact this
      | cons x fp =>
        rw [combineFirst, if_neg h0]
        exact .cons ⟨rfl, fun hz => absurd hz h0, fun _ => rfl⟩ (ih _ h)

/-- Types which are not in the data are filled with possible types. -/
theorem extendPanel_sampled (rs : RandomSource K G) (hrs : rs.Contract) (chars : List (Characteristic K))
    (hch : ∀ ch ∈ chars, ch.WF) (seed c : Nat) (levels : List Nat) (df : List ((Nat × Nat) × CharRow)) (n : Nat)
    (hn : ∀ x ∈ df, x.2.length = n) (hcn : c < n) (hno : ∀ x ∈ df, x.2[c]? = some none)
    (hc : ∀ x ∈ df, ∀ j, j ≠ c → x.2[j]? ≠ some none) (hhead : ∀ x ∈ df.head?, x.1.2 = 0)
    (hex : ∃ ch ∈ chars, ch.column = c) (hlev : ∀ ch ∈ chars, ch.column = c → ∀ v ∈ ch.levels, v ∈ levels) (g : G) :
    ∃ df', extendPanel rs chars seed (some c) df g = some df' ∧
      List.Forall₂ (fun x y => y.1 = x.1 ∧ ∃ v ∈ levels, y.2 = x.2.set c (some v)) df df' := by
  set all := chars.flatMap (·.levels) ++ df.flatMap (fun x => x.2.filterMap id) with hall
  set fp := (df.filter fun (r : (Nat × Nat) × CharRow) => decide (r.1.2 = 0)).map Prod.snd with hfp
  have hmemfp : ∀ row ∈ fp, ∃ x ∈ df, x.2 = row := by
    intro row hrow
    obtain ⟨x, hx, e⟩ := List.mem_map.1 hrow
    exact ⟨x, (List.mem_filter.1 hx).1, e⟩
  obtain ⟨fp', g', h1, h2⟩ := sampleAll_total rs hrs chars hch seed fp ((List.replicate n all).set c levels) (by
      intro row hrow
      obtain ⟨x, hxd, rfl⟩ := hmemfp row hrow
      unfold RowAllowed
      rw [List.forall₂_iff_get]
      refine ⟨by simp [hn x hxd], fun i hi hi' v hv => ?_⟩
      rw [List.get_eq_getElem] at hv
      rw [List.get_eq_getElem]
      by_cases hic : c = i
      · subst hic
        have := hno x hxd
        rw [List.getElem?_eq_getElem hi, hv] at this
        cases this
      · rw [List.getElem_set_ne hic, List.getElem_replicate]
        refine List.mem_append_right _ (List.mem_flatMap.2 ⟨x, hxd, List.mem_filterMap.2 ⟨some v, ?_, rfl⟩⟩)
        rw [← hv]
        exact List.getElem_mem _) (by
      intro ch hchm l hl v hv
      by_cases hic : c = ch.column
      · rw [← hic, List.getElem?_set_self (by simpa using hcn)] at hl
        cases hl
        exact hlev ch hchm hic.symm v hv
      · rw [List.getElem?_set_ne hic, List.getElem?_replicate] at hl
        split at hl
        · cases hl
          exact List.mem_append_left _ (List.mem_flatMap.2 ⟨ch, hchm, hv⟩)
        · simp at hl) g
  obtain ⟨hfl, hk⟩ := sampleAll_spec _ _ _ _ _ _ _ h1
  have hrows : List.Forall₂ (fun x y => ∃ v ∈ levels, y = x.set c (some v)) fp fp' := by
    rw [List.forall₂_iff_get]
    refine ⟨hfl.symm, fun i hi hi' => ?_⟩
    obtain ⟨k1, k2⟩ := hk i _ _ (List.getElem?_eq_getElem hi) (List.getElem?_eq_getElem hi')
    simp only [List.get_eq_getElem]
    obtain ⟨x, hxd, hxe⟩ := hmemfp _ (List.getElem_mem hi)
    obtain ⟨hall', hnn⟩ := h2 _ (List.getElem_mem hi')
    obtain ⟨ch, hchm, hchc⟩ := hex
    have hlen : (fp[i]).length = n := by rw [← hxe]; exact hn x hxd
    have hci : c < (fp'[i]).length := by rw [k1, hlen]; exact hcn
    have hne := hnn ch hchm
    rw [hchc, List.getElem?_eq_getElem hci] at hne
    cases hv : (fp'[i])[c] with
    | none => rw [hv] at hne; exact absurd rfl hne
    | some v =>
      have hmem : v ∈ levels := by
        obtain ⟨l, hl, hvl⟩ := forall₂_getElem? hall' c _ (List.getElem?_eq_getElem hci)
        rw [List.getElem?_set_self (by simpa using hcn)] at hl
        cases hl
        exact hvl v hv
      refine ⟨v, hmem, List.ext_getElem? fun j => ?_⟩
      by_cases hjc : c = j
      · subst hjc
        rw [List.getElem?_set_self (by omega), List.getElem?_eq_getElem hci, hv]
      · rw [List.getElem?_set_ne hjc]
        cases hj : (fp[i])[j]? with
        | none =>
          rw [List.getElem?_eq_none_iff] at hj ⊢
          omega
        | some y =>
          cases y with
          | none =>
            have := hc x hxd j (Ne.symm hjc)
            rw [hxe] at this
            exact absurd hj this
          | some y => exact k2 j y hj
  have hcomb := combineFirst_types levels c df fp' hrows
  have hcl : ∀ y ∈ combineFirst df fp', ∃ x ∈ df, y.1 = x.1 ∧ (x.1.2 = 0 → ∃ v ∈ levels, y.2 = x.2.set c (some v)) ∧
      (x.1.2 ≠ 0 → y.2 = x.2) := by
    intro y hy
    obtain ⟨i, hi⟩ := List.getElem?_of_mem hy
    have hil : i < df.length := by
      rw [hcomb.length_eq]; exact (List.getElem?_eq_some_iff.1 hi).1
    obtain ⟨y', hy', e⟩ := forall₂_getElem? hcomb i _ (List.getElem?_eq_getElem hil)
    rw [hi] at hy'
    cases hy'
    exact ⟨_, List.getElem_mem hil, e⟩
  refine ⟨forwardFill c none (combineFirst df fp'), ?_, ?_⟩
  · unfold extendPanel
    rw [← hfp, h1]
    rfl
  · have hff := forwardFill_complete levels c none (combineFirst df fp') (by
        intro y hy
        obtain ⟨x, hx, _, h3, h4⟩ := hcl y hy
        by_cases hz : x.1.2 = 0
        · obtain ⟨v, _, e⟩ := h3 hz
          rw [e, List.length_set, hn x hx]; exact hcn
        · rw [h4 hz, hn x hx]; exact hcn) (by
        intro y hy v hv
        obtain ⟨x, hx, _, h3, h4⟩ := hcl y hy
        by_cases hz : x.1.2 = 0
        · obtain ⟨u, hu, e⟩ := h3 hz
          rw [e, List.getElem?_set_self (by rw [hn x hx]; exact hcn)] at hv
          cases hv
          exact hu
        · rw [h4 hz, hno x hx] at hv
          cases hv) (by
        refine Or.inr fun y hy => ?_
        cases df with
        | nil => simp [combineFirst] at hy
        | cons x df =>
          obtain ⟨y', rest, hxy, _, heq⟩ := List.forall₂_cons_left_iff.1 hcomb
          rw [heq] at hy
          simp only [List.head?_cons, Option.mem_def, Option.some.injEq] at hy
          subst hy
          obtain ⟨u, _, e⟩ := hxy.2.1 (hhead x rfl)
          exact ⟨u, by rw [e, List.getElem?_set_self (by rw [hn x (by simp)]; exact hcn)]⟩)
    rw [List.forall₂_iff_get] at hff hcomb ⊢
    refine ⟨hcomb.1.trans hff.1, fun i hi hi' => ?_⟩
    have hm : i < (combineFirst df fp').length := by rw [← hcomb.1]; exact hi
    obtain ⟨a1, a2, a3⟩ := hcomb.2 i hi hm
    obtain ⟨b1, v, hv, b2⟩ := hff.2 i hm hi'
    refine ⟨b1.trans a1, v, hv, ?_⟩
    rw [b2]
    by_cases hz : (df.get ⟨i, hi⟩).1.2 = 0
    · obtain ⟨u, _, e⟩ := a2 hz
      rw [e, List.set_set]
    · rw [a3 hz]

omit [Field K] [LinearOrder K] [IsStrictOrderedRing K] in
theorem mapM_exists {α β : Type _} (l : List α) (f : α → Option β) (h : ∀ a ∈ l, ∃ b, f a = some b) :
    ∃ m, l.mapM f = some m := by
  obtain ⟨m, hm, _⟩ := mapM_option_exists l f h
  exact ⟨m, hm⟩

omit [IsStrictOrderedRing K] in
/-- All rows of a one-step-ahead simulation exist. -/
theorem simulateOneStep_total (p : RewardParams K) (sp : SimSpace K) (draws drawsWage : List (List K))
    (states : List (Nat × SimState)) (periods : Nat) (hdr : states.length ≤ draws.length)
    (hdw : states.length ≤ drawsWage.length) (hobs : ∀ t < periods, ∃ a ∈ states, a.2.core.period = t)
    (hcvs : ∀ t < periods, ∃ cvs, sp.cvs t = some cvs)
    (hrow : ∀ a ∈ states, ∀ cvs, sp.cvs a.2.core.period = some cvs → ∀ base ∈ draws, ∀ baseWage ∈ drawsWage,
      ∃ row, simulateRow p sp a.2.core.period cvs a.1 a.2 base baseWage = some row) :
    ∃ data, simulateOneStep p sp draws drawsWage states periods = some data := by
  unfold simulateOneStep
  refine mapM_exists _ _ fun t ht => ?_
  have htl := List.mem_range.1 ht
  obtain ⟨cvs, hc⟩ := hcvs t htl
  rw [hc]
  simp only [Option.bind_eq_bind, Option.bind_some]
  split
  · rename_i hnil
    obtain ⟨a, ha, hat⟩ := hobs t htl
    obtain ⟨i, hi⟩ := List.getElem?_of_mem ha
    have : i ∈ (List.range states.length).filter fun i =>
        decide ((states[i]?.map fun a => a.2.core.period) = some t) := by
      refine List.mem_filter.2 ⟨List.mem_range.2 (List.getElem?_eq_some_iff.1 hi).1, ?_⟩
      simp [hi, hat]
    rw [hnil] at this
    simp at this
  · refine mapM_exists _ _ fun i hi => ?_
    obtain ⟨hil, hip⟩ := List.mem_filter.1 hi
    have hil := List.mem_range.1 hil
    rw [List.getElem?_eq_getElem hil, List.getElem?_eq_getElem (by omega : i < draws.length),
      List.getElem?_eq_getElem (by omega : i < drawsWage.length)]
    simp only [Option.bind_some]
    rw [List.getElem?_eq_getElem hil] at hip
    simp only [Option.map_some, decide_eq_true_eq, Option.some.injEq] at hip
    have := hrow _ (List.getElem_mem hil) cvs (by rw [hip]; exact hc) _ (List.getElem_mem (by omega : i < draws.length))
      _ (List.getElem_mem (by omega : i < drawsWage.length))
    rw [hip] at this
    exact this

/-- The observations are states of the model. -/
def InModel (b : BuildSpec) (core : List CoreState) (nExp nLags : Nat) (x : (Nat × Nat) × CharRow) : Prop :=
  ∃ s d, rowToState nExp nLags x.2 = some s ∧ { s.core with period := x.1.2 } ∈ core ∧ b.HasIndex s.dense d

/-- The data fits the model: all observations are states of the model, or the types are not in the data, the
observations are states of the model for each possible type, and the first observation is in the first period. -/
def PanelFits (b : BuildSpec) (core : List CoreState) (nExp nLags : Nat) (chars : List (Characteristic K))
    (typeColumn : Option Nat) (df : List ((Nat × Nat) × CharRow)) : Prop :=
  (∀ x ∈ df, InModel b core nExp nLags x) ∨
  ∃ c levels, typeColumn = some c ∧ levels ≠ [] ∧
    (∀ x ∈ df, x.2[c]? = some none ∧ ∀ v ∈ levels, InModel b core nExp nLags (x.1, x.2.set c (some v))) ∧
    (∀ x ∈ df.head?, x.1.2 = 0) ∧ (∃ ch ∈ chars, ch.column = c) ∧
    ∀ ch ∈ chars, ch.column = c → ∀ v ∈ ch.levels, v ∈ levels

omit [Field K] [LinearOrder K] [IsStrictOrderedRing K] in
theorem InModel.complete {b : BuildSpec} {core : List CoreState} {nExp nLags : Nat} {x : (Nat × Nat) × CharRow}
    (h : InModel b core nExp nLags x) : ∀ v ∈ x.2, v ≠ none := by
  intro v hv
  obtain ⟨s, d, hs, _⟩ := h
  rw [rowToState_values hs] at hv
  obtain ⟨_, _, rfl⟩ := List.mem_map.1 hv
  simp

/-- If the data fits the model, all rows with sampled types are states of the model. -/
theorem PanelFits.extend {b : BuildSpec} {core : List CoreState} {nExp nLags : Nat} {chars : List (Characteristic K)}
    {typeColumn : Option Nat} {df : List ((Nat × Nat) × CharRow)}
    (h : PanelFits b core nExp nLags chars typeColumn df) (rs : RandomSource K G) (hrs : rs.Contract)
    (hch : ∀ ch ∈ chars, ch.WF) (seed n : Nat) (hn : ∀ x ∈ df, x.2.length = n) (g : G) :
    ∃ df', extendPanel rs chars seed typeColumn df g = some df' ∧ df'.map Prod.fst = df.map Prod.fst ∧
      ∀ x ∈ df', InModel b core nExp nLags x := by
  rcases h with h | ⟨c, levels, rfl, hne, h1, h2, h3, h4⟩
  · exact ⟨df, extendPanel_complete rs hrs chars hch seed typeColumn df n hn (fun x hx => (h x hx).complete) g, rfl, h⟩
  · by_cases hdf : df = []
    · subst hdf
      exact ⟨[], extendPanel_complete rs hrs chars hch seed _ [] n hn (by simp) g, rfl, by simp⟩
    obtain ⟨v0, hv0⟩ := List.exists_mem_of_ne_nil _ hne
    have hcn : c < n := by
      obtain ⟨x, hx⟩ := List.exists_mem_of_ne_nil _ hdf
      rw [← hn x hx]
      exact (List.getElem?_eq_some_iff.1 (h1 x hx).1).1
    obtain ⟨df', e, hfa⟩ := extendPanel_sampled rs hrs chars hch seed c levels df n hn hcn (fun x hx => (h1 x hx).1) (by
      intro x hx j hj hjn
      have := ((h1 x hx).2 v0 hv0).complete none
      refine this (List.mem_of_getElem? (i := j) ?_) rfl
      rw [List.getElem?_set_ne (Ne.symm hj)]
      exact hjn) h2 h3 h4 g
    refine ⟨df', e, ?_, ?_⟩
    · clear e h1 h2 hn hdf
      induction hfa with
      | nil => rfl
      | cons hxy _ ih => rw [List.map_cons, List.map_cons, ih, hxy.1]
    · intro y hy
      obtain ⟨i, hi⟩ := List.getElem?_of_mem hy
      have hil : i < df.length := by
        rw [hfa.length_eq]; exact (List.getElem?_eq_some_iff.1 hi).1
      obtain ⟨y', hy', e1, v, hv, e2⟩ := forall₂_getElem? hfa i _ (List.getElem?_eq_getElem hil)
      rw [hi] at hy'
      cases hy'
      have := (h1 _ (List.getElem_mem hil)).2 v hv
      rw [← e1, ← e2] at this
      exact this

/-- **C104** If the data fits the model and there are observations in each period, then the simulation has a result,
and the outcomes of each observation follow the model: the choice maximizes the value given the shocks, as in C73. -/
theorem C104_outcomes (b : BuildSpec) (core : List CoreState) (bt : Built) (par : ParamObjects K)
    (w m : Option Nat → CoreState → Nat → K) (future : Option Nat → CoreState → List (Option Nat × K))
    (hsol : bt.Solved b core par w m future) (ev : Dict Nat (List K)) (hev : SameShape (initialValues bt.space) ev)
    (V : Option Nat → CoreState → K) (hV : ∀ d ∈ b.denseIndices, ∀ s ∈ core, bt.ValueAt ev d s (V d s))
    (vc ko : List Nat → List Nat) (choices : List Label) (kinds : List (Str × ColumnKind))
    (f : InputFrame) (df : List ((Nat × Nat) × CharRow))
    (hp : processInputFrame true choices kinds f = some df) (sim : Simulation K G P) (typeColumn : Option Nat)
    (params : P) (g : G) (hsolve : sim.solve params = some (bt.simSpace b par ev vc ko))
    (hrw : (sim.rewards params).WF b core) (hrs : sim.rs.Contract) (hch : ∀ ch ∈ sim.chars params, ch.WF)
    (hfits : PanelFits b core sim.nExp sim.nLags (sim.chars params) typeColumn df) (hT : sim.nPeriods ≤ b.core.nPeriods)
    (hobs : ∀ t < sim.nPeriods, ∃ r ∈ f.rows, r.period = t)
    (hdr : f.rows.length ≤ sim.draws.length) (hdw : f.rows.length ≤ sim.drawsWage.length)
    (hbase : ∀ row ∈ sim.draws, row.length = (sim.rewards params).measError.length)
    (hwage : ∀ row ∈ sim.drawsWage, row.length = (sim.rewards params).measError.length) :
    ∃ out, sim.oneStepAhead typeColumn df params g = some out ∧
      ∀ row ∈ out, RowFollows b core (sim.rewards params) w m future V row := by
  obtain ⟨hnd, _, hconv⟩ := processInputFrame_panel hp
  have hconvr := convertFrame_rows hconv
  have hlen : df.length = f.rows.length := by
    rw [← hconvr.length_eq]; exact (List.perm_insertionSort InputRow.le f.rows).length_eq
  obtain ⟨tr, hsnd⟩ := hsol.sound
  obtain ⟨draws, hfit⟩ := hsol.fit
  obtain ⟨df', hx, hkeys, hin⟩ := hfits.extend sim.rs hrs hch sim.seed kinds.length (by
    intro x hx
    obtain ⟨i, hi⟩ := List.getElem?_of_mem hx
    have hil : i < (f.rows.insertionSort InputRow.le).length := by
      rw [hconvr.length_eq]; exact (List.getElem?_eq_some_iff.1 hi).1
    obtain ⟨y, hy, _, hyv⟩ := forall₂_getElem? hconvr i _ (List.getElem?_eq_getElem hil)
    rw [hi] at hy
    cases hy
    exact hyv.length_eq.symm) g
  have hlen' : df'.length = df.length := by simpa using congrArg List.length hkeys
  have hfs : ∃ states, frameStates sim.nExp sim.nLags df' = some states := by
    refine mapM_exists _ _ fun x hx => ?_
    obtain ⟨s, d, hs, _⟩ := hin x hx
    rw [hs]
    exact ⟨_, rfl⟩
  obtain ⟨states, hst⟩ := hfs
  have hsin : ∀ a ∈ states, a.2.core ∈ core ∧ ∃ d, b.HasIndex a.2.dense d := by
    intro a ha
    unfold frameStates at hst
    rw [mapM_eq_some_iff] at hst
    obtain ⟨i, hi⟩ := List.getElem?_of_mem ha
    have hil : i < df'.length := by
      rw [hst.length_eq]; exact (List.getElem?_eq_some_iff.1 hi).1
    obtain ⟨a', ha', e⟩ := forall₂_getElem? hst i _ (List.getElem?_eq_getElem hil)
    rw [hi] at ha'
    cases ha'
    obtain ⟨s, d, hs, hcore, hidx⟩ := hin _ (List.getElem_mem hil)
    dsimp only at e
    rw [hs] at e
    cases e
    exact ⟨hcore, d, hidx⟩
  have hfr := frameStates_rows hst
  have hsl : states.length = f.rows.length := by rw [← hfr.length_eq, hlen', hlen]
  have hrowex : ∀ a ∈ states, ∀ cvs, (bt.simSpace b par ev vc ko).cvs a.2.core.period = some cvs →
      ∀ base ∈ sim.draws, ∀ baseWage ∈ sim.drawsWage, ∃ row, simulateRow (sim.rewards params)
        (bt.simSpace b par ev vc ko) a.2.core.period cvs a.1 a.2 base baseWage = some row ∧
        RowFollows b core (sim.rewards params) w m future V row := by
    intro a ha cvs hcvs base hb baseWage hbw
    obtain ⟨hcore, d, hidx⟩ := hsin a ha
    obtain ⟨row, h1, h2, _⟩ := hsnd.simSpace_row hsol.wf hsol.dpc hsol.nodup hfit hsol.future_mem hsol.cont hev hV hrw
      vc ko cvs a.2 hcvs hcore d hidx a.1 base baseWage (hbase _ hb) (hwage _ hbw)
    exact ⟨row, h1, h2⟩
  obtain ⟨data, hdata⟩ := simulateOneStep_total (sim.rewards params) (bt.simSpace b par ev vc ko) sim.draws
    sim.drawsWage states sim.nPeriods (by omega) (by omega) (by
      intro t ht
      obtain ⟨r, hr, hrt⟩ := hobs t ht
      obtain ⟨i, hi⟩ := List.getElem?_of_mem ((List.perm_insertionSort InputRow.le f.rows).mem_iff.2 hr)
      obtain ⟨x, hx1, hxk, _⟩ := forall₂_getElem? hconvr i _ hi
      have hk := congrArg (·[i]?) hkeys
      simp only [List.getElem?_map, hx1, Option.map_some] at hk
      obtain ⟨x', hx', hxe⟩ := Option.map_eq_some_iff.1 hk
      obtain ⟨a, ha, _, hap, _⟩ := forall₂_getElem? hfr i _ hx'
      refine ⟨a, List.mem_of_getElem? ha, ?_⟩
      rw [hap, hxe, hxk]
      exact hrt) (by
      intro t ht
      obtain ⟨cvs, h1, _⟩ := hsol.cont ev hev t (by rw [hsnd.nPeriods]; omega)
      exact ⟨cvs, h1⟩) (by
      intro a ha cvs hcvs base hb baseWage hbw
      obtain ⟨row, h1, _⟩ := hrowex a ha cvs hcvs base hb baseWage hbw
      exact ⟨row, h1⟩)
  refine ⟨processOutput data, ?_, ?_⟩
  · unfold Simulation.oneStepAhead
    simp only [hsolve, hx, hst, hdata, Option.bind_eq_bind, Option.bind_some, Option.pure_def]
  · intro row hrow
    obtain ⟨t, q, rows, ht, hq⟩ := (mem_processOutput data row).1 hrow
    obtain ⟨_, hmap, hr⟩ := (simulateOneStep_rows hdata).2 t rows ht
    have hmem := List.mem_of_getElem? hq
    have hper : row.state.core.period = t := by
      have : (row.id, row.state) ∈ rows.map fun r => (r.id, r.state) := List.mem_map.2 ⟨row, hmem, rfl⟩
      rw [hmap, List.mem_filter] at this
      simpa using this.2
    obtain ⟨i, cvs, h1, h2, h3, h4, h5⟩ := hr row hmem
    obtain ⟨row', hr', hf⟩ := hrowex _ (List.mem_of_getElem? h1) cvs (by rw [hper]; exact h4) _
      (List.mem_of_getElem? h2) _ (List.mem_of_getElem? h3)
    dsimp only at hr'
    rw [hper, h5] at hr'
    cases hr'
    exact hf

/-- **C104** All choices of a one-step-ahead simulation are optimal in the solved model. Missing: exogenous processes,
interpolation, a discount factor of zero, data in which only some of the types are missing or the first observation is
not in the first period, see `C104_types_partial`. -/
theorem C104_panel_follows_model_partial (b : BuildSpec) (core : List CoreState) (wf : b.WF core)
    (hexo : b.exogLevels = []) (levels : List (List Nat)) (hlev : b.DenseLevels levels) (hnd : ∀ l ∈ levels, l.Nodup)
    (hpts : ∀ t, (core.filter fun s => decide (s.period = t)).length * b.denseIndices.length ≤
      b.points) (inp : SolveInput K) (hinp : inp.WF b core) (hdelta : inp.delta ≠ 0)
    (interp : Interpolation K) (seed : Nat) (ev0 : Built → Dict Nat (List K))
    (hev0 : ∀ bt, SameShape (initialValues bt.space) (ev0 bt)) (vc ko : List Nat → List Nat) :
    ∃ sp V, inp.solveModel b (fun _ => some []) interp seed ev0 vc ko = some sp ∧
      IsValueFunction b core inp.delta inp.wageOf inp.nonpecOf inp.shocks (fun d _ => [(d, 1)]) V ∧
      ∀ (choices : List Label) (kinds : List (Str × ColumnKind)) (f : InputFrame) (df : List ((Nat × Nat) × CharRow))
        (sim : Simulation K G P) (typeColumn : Option Nat) (params : P) (g : G),
        processInputFrame true choices kinds f = some df → sim.solve params = some sp →
        (sim.rewards params).WF b core → sim.rs.Contract → (∀ ch ∈ sim.chars params, ch.WF) →
        PanelFits b core sim.nExp sim.nLags (sim.chars params) typeColumn df → sim.nPeriods ≤ b.core.nPeriods →
        (∀ t < sim.nPeriods, ∃ r ∈ f.rows, r.period = t) →
        f.rows.length ≤ sim.draws.length → f.rows.length ≤ sim.drawsWage.length →
        (∀ row ∈ sim.draws, row.length = (sim.rewards params).measError.length) →
        (∀ row ∈ sim.drawsWage, row.length = (sim.rewards params).measError.length) →
        ∃ out, sim.oneStepAhead typeColumn df params g = some out ∧
          ∀ row ∈ out, RowFollows b core (sim.rewards params) inp.wageOf inp.nonpecOf (fun d _ => [(d, 1)]) V row := by
  obtain ⟨bt, par, hbuild, h1, hsol⟩ := C70_solution_from_parameters_partial b core wf hexo hpts inp hinp hdelta
  obtain ⟨hok, V, hVF, hV⟩ := hsol interp seed (ev0 bt) (hev0 bt)
  obtain ⟨bt', hbuild', hsnd⟩ := buildSpace_noExogenous b core wf hexo
  rw [hbuild] at hbuild'; cases hbuild'
  obtain ⟨par', h1', _, _, hfit⟩ := hinp.paramsFit wf hsnd []
  rw [h1] at h1'; cases h1'
  refine ⟨bt.simSpace b par (solveBackward bt.space interp par seed (ev0 bt)).1 vc ko, V, ?_, hVF, ?_⟩
  · unfold SolveInput.solveModel
    simp only [hbuild, h1, Option.bind_eq_bind, Option.bind_some, hok, if_true]
  · intro choices kinds f df sim typeColumn params g hp hsolve hrw hrs hch hin hT hobs hdr hdw hb hw
    exact C104_outcomes b core bt par _ _ _ (hsnd.solved_noExogenous wf hexo hbuild (hlev.nodup hnd) hfit) _
      ((hev0 bt).trans (backwardLoop_shape _ _ _ _ _ _)) V hV vc ko choices kinds f df hp sim typeColumn params g
      hsolve hrw hrs hch hin hT hobs hdr hdw hb hw

/-! ## Simulated data -/

omit [Field K] [LinearOrder K] [IsStrictOrderedRing K] in
theorem rowToState_of_values (s : SimState) (nExp nLags : Nat) (he : s.core.exp.length = nExp)
    (hl : s.core.lags.length = nLags) (hn : ∀ l ∈ s.core.lags, l ≠ none) :
    rowToState nExp nLags (s.values.map some) = some ⟨{ s.core with period := 0 }, s.dense⟩ := by
  have hlags : (s.core.lags.filterMap id).map some = s.core.lags := by
    generalize s.core.lags = lags at hn
    induction lags with
    | nil => rfl
    | cons l ls ih =>
      cases l with
      | none => exact absurd rfl (hn none (by simp))
      | some v =>
        rw [List.filterMap_cons_some (by rfl), List.map_cons, ih fun x hx => hn x (by simp [hx])]
  have hll : (s.core.lags.filterMap id).length = nLags := by
    rw [← hl, ← hlags, List.length_map]
    simp
  unfold rowToState
  have h1 : (s.values.map some).mapM id = some s.values := by
    rw [mapM_eq_some_iff, List.forall₂_map_left_iff]
    exact List.forall₂_same.2 fun x _ => rfl
  rw [h1]
  simp only [Option.bind_eq_bind, Option.bind_some, Option.pure_def, Option.some.injEq]
  have e1 : s.values.take nExp = s.core.exp := by
    rw [SimState.values, List.append_assoc, List.take_append_of_le_length (by omega), List.take_of_length_le (by omega)]
  have e2 : s.values.drop nExp = s.core.lags.filterMap id ++ s.dense := by
    rw [SimState.values, List.append_assoc, ← he, List.drop_left]
  rw [e1, ← List.drop_drop, e2, ← hll, List.take_left, List.drop_left, hlags]

/-- **C104** If a simulated sample is the data and the draws of the sample are used again, then a one-step-ahead
simulation returns the sample. -/
theorem C104_simulated_sample (sim sim' : Simulation K G P) (hrs : sim.rs.Contract) (hrs' : sim'.rs.Contract)
    (params : P) (g g' : G) (out : List (SimRow K)) (h : sim.run params g = (some out, g'))
    (hsolve : sim'.solve params = sim.solve params) (hrew : sim'.rewards params = sim.rewards params)
    (hT : sim'.nPeriods = sim.nPeriods) (hdraws : sim'.draws = out.map (·.base))
    (hwages : sim'.drawsWage = out.map (·.baseWage)) (hch : ∀ ch ∈ sim'.chars params, ch.WF)
    (n : Nat) (hcols : ∀ r ∈ out, r.state.core.exp.length = sim'.nExp ∧ r.state.core.lags.length = sim'.nLags ∧
      (∀ l ∈ r.state.core.lags, l ≠ none) ∧ r.state.dense.length = n)
    (typeColumn : Option Nat) (g1 : G) :
    sim'.oneStepAhead typeColumn
      (out.map fun r => ((r.id, r.state.core.period), r.state.values.map some)) params g1 = some out := by
  obtain ⟨sp, hsp, hstep⟩ := C97_sample_again sim hrs params g g' out h
  have hbal := (C26_balanced_panel sim hrs params g g' out h).1
  have hx := extendPanel_complete sim'.rs hrs' (sim'.chars params) hch sim'.seed typeColumn
    (out.map fun r => ((r.id, r.state.core.period), r.state.values.map some)) (sim'.nExp + sim'.nLags + n) (by
      intro x hx
      obtain ⟨r, hr, rfl⟩ := List.mem_map.1 hx
      obtain ⟨h1, h2, h3, h4⟩ := hcols r hr
      have hll : (r.state.core.lags.filterMap id).length = sim'.nLags := by
        rw [← h2]
        generalize r.state.core.lags = lags at h3
        clear h2
        induction lags with
        | nil => rfl
        | cons l ls ih =>
          cases l with
          | none => exact absurd rfl (h3 none (by simp))
          | some v =>
            rw [List.filterMap_cons_some (by rfl), List.length_cons, List.length_cons,
              ih fun x hx => h3 x (by simp [hx])]
      simp only [SimState.values, List.length_map, List.length_append, hll, h1, h4]) (by
      intro x hx v hv
      obtain ⟨r, hr, rfl⟩ := List.mem_map.1 hx
      obtain ⟨_, _, rfl⟩ := List.mem_map.1 hv
      simp) g1
  have hfs : frameStates sim'.nExp sim'.nLags
      (out.map fun r => ((r.id, r.state.core.period), r.state.values.map some)) =
      some (out.map fun r => (r.id, r.state)) := by
    unfold frameStates
    rw [mapM_eq_some_iff, List.forall₂_map_left_iff, List.forall₂_map_right_iff]
    refine List.forall₂_same.2 fun r hr => ?_
    obtain ⟨h1, h2, h3, _⟩ := hcols r hr
    rw [rowToState_of_values _ _ _ h1 h2 h3]
    rfl
  unfold Simulation.oneStepAhead
  simp only [hsolve, hsp, hx, hfs, hrew, hdraws, hwages, hT, hstep, Option.bind_eq_bind, Option.bind_some,
    Option.pure_def, Option.some.injEq]
  have hstrict : out.Pairwise fun a b => a.id < b.id ∨
      a.id = b.id ∧ a.state.core.period < b.state.core.period := by
    have := panelIndex_pairwise sim.input.length sim.nPeriods
    rw [← hbal, List.pairwise_map] at this
    exact this
  have hflat : ((List.range sim.nPeriods).map fun t =>
      out.filter fun r => decide (r.state.core.period = t)).flatten.Perm out := by
    rw [← List.flatMap_def]
    refine (flatMap_filter_perm (fun r : SimRow K => r.state.core.period) sim.nPeriods out).trans ?_
    rw [List.filter_eq_self.2]
    intro r hr
    have : (r.id, r.state.core.period) ∈ panelIndex sim.input.length sim.nPeriods := by
      rw [← hbal]; exact List.mem_map_of_mem (f := fun r => (r.id, r.state.core.period)) hr
    simpa using ((mem_panelIndex _ _ _ _).1 this).2
  refine ((processOutput_perm _).trans hflat).eq_of_pairwise (le := SimRow.le) ?_ (processOutput_sorted _)
    (hstrict.imp ?_)
  · intro a b ha hb h1 h2
    have ha' : a ∈ out := hflat.mem_iff.1 ((processOutput_perm _).mem_iff.1 ha)
    have hnd : (out.map fun row => (row.id, row.state.core.period)).Nodup := by
      rw [List.Nodup, List.pairwise_map]
      refine hstrict.imp fun {a b} hab e => ?_
      rw [Prod.mk.injEq] at e
      omega
    refine List.inj_on_of_nodup_map hnd ha' hb ?_
    simp only [SimRow.le] at h1 h2
    exact Prod.ext (by dsimp only; omega) (by dsimp only; omega)
  · intro a b hab
    simp only [SimRow.le]
    omega

end

end Respy
