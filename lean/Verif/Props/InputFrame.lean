import Verif.Props.OneStepAheadRun

/-!
# C33 and C104: Data with labels

What happens to the data frame which is given to a simulation, and concrete cases for C104.
-/

namespace Respy

/-! ## Accepted data -/

theorem ColumnKind.convert_total {kind : ColumnKind} (hd : kind.Distinct) {columns : List Str} {c : Str}
    {x : Option Label} (h : kind.Expects columns c x) (hx : c ∉ columns → x = none) :
    ∃ v, kind.convert (decide (c ∈ columns)) x = some v ∧ (v = none ↔ x = none) := by
  cases kind with
  | number =>
    cases x with
    | none => exact ⟨none, rfl, by simp⟩
    | some y =>
      obtain ⟨n, hn, rfl⟩ := h y rfl
      refine ⟨some n, ?_, by simp⟩
      simp only [ColumnKind.convert]
      rw [if_pos ⟨by omega, by omega⟩]
      simp
  | labels levels =>
    by_cases hc : c ∈ columns
    · obtain ⟨y, hy, rfl⟩ := h hc
      obtain ⟨i, hi⟩ := List.getElem?_of_mem hy
      refine ⟨some i, ?_, by simp⟩
      simp only [ColumnKind.convert, hc, decide_true, if_true, Option.bind_some]
      rw [toCodes_label levels hd.1 hd.2 i y hi]
      rfl
    · refine ⟨none, ?_, by simp [hx hc]⟩
      simp [ColumnKind.convert, hc]

theorem convertFrame_total {choices : List Label} (hch : (ColumnKind.labels choices).Distinct)
    {kinds : List (Str × ColumnKind)} (hd : ∀ k ∈ kinds, k.2.Distinct) {columns : List Str} {rows : List InputRow}
    (hc : ∀ r ∈ rows, (ColumnKind.labels choices).Expects columns "choice".toList (r.value columns "choice".toList))
    (hv : ∀ r ∈ rows, ∀ k ∈ kinds, k.2.Expects columns k.1 (r.value columns k.1)) :
    ∃ df, convertFrame choices kinds columns rows = some df := by
  have hno : ∀ (r : InputRow) c, c ∉ columns → r.value columns c = none := fun r c h => if_neg h
  unfold convertFrame
  rw [if_pos]
  · refine mapM_exists _ _ fun r hr => ?_
    obtain ⟨m, hm⟩ := mapM_exists kinds (fun k => k.2.convert (decide (k.1 ∈ columns)) (r.value columns k.1)) (by
      intro k hk
      obtain ⟨v, h, _⟩ := ColumnKind.convert_total (hd k hk) (hv r hr k hk) (hno r k.1)
      exact ⟨v, h⟩)
    rw [hm]
    exact ⟨_, rfl⟩
  · rw [List.all_eq_true]
    intro r hr
    obtain ⟨v, h, _⟩ := ColumnKind.convert_total hch (hc r hr) (hno r _)
    rw [h]
    rfl

/-- **C104** Data are accepted for one-step-ahead simulations if there is one row for each individual and period,
labels are known, numbers are below 256, and nothing but the type is missing. -/
theorem C104_accepted_data (choices : List Label) (hch : (ColumnKind.labels choices).Distinct)
    (kinds : List (Str × ColumnKind)) (hd : ∀ k ∈ kinds, k.2.Distinct) (f : InputFrame)
    (hn : (f.rows.map InputRow.key).Nodup)
    (hc : ∀ r ∈ f.rows,
      (ColumnKind.labels choices).Expects f.columns "choice".toList (r.value f.columns "choice".toList))
    (hv : ∀ r ∈ f.rows, ∀ k ∈ kinds, k.2.Expects f.columns k.1 (r.value f.columns k.1) ∧
      (k.1 ≠ "type".toList → r.value f.columns k.1 ≠ none)) :
    ∃ df, processInputFrame true choices kinds f = some df := by
  have hperm := List.perm_insertionSort InputRow.le f.rows
  obtain ⟨df, hdf⟩ := convertFrame_total hch hd (rows := f.rows.insertionSort InputRow.le)
    (fun r hr => hc r (hperm.mem_iff.1 hr)) (fun r hr k hk => (hv r (hperm.mem_iff.1 hr) k hk).1)
  refine ⟨df, ?_⟩
  unfold processInputFrame
  rw [if_pos hn]
  simp only [if_true, hdf, Option.bind_eq_bind, Option.bind_some]
  rw [if_neg]
  intro hnan
  obtain ⟨x, hx, hany⟩ := List.any_eq_true.1 hnan
  obtain ⟨kx, hkx, hb⟩ := List.any_eq_true.1 hany
  obtain ⟨j, hj⟩ := List.getElem?_of_mem hkx
  obtain ⟨hj1, hj2⟩ := List.getElem?_zip_eq_some.1 hj
  have hrows := convertFrame_rows hdf
  obtain ⟨i, hi⟩ := List.getElem?_of_mem hx
  have hil : i < (f.rows.insertionSort InputRow.le).length := by
    rw [hrows.length_eq]; exact (List.getElem?_eq_some_iff.1 hi).1
  have hget := List.getElem?_eq_getElem hil
  obtain ⟨y, hy, _, hyv⟩ := forall₂_getElem? hrows i _ hget
  rw [hi] at hy
  cases hy
  obtain ⟨v, hv', hconv⟩ := forall₂_getElem? hyv j _ hj1
  rw [hj2] at hv'
  cases hv'
  rw [Bool.and_eq_true, decide_eq_true_eq, Option.isNone_iff_eq_none] at hb
  have hmem := hperm.mem_iff.1 (List.mem_of_getElem? hget)
  obtain ⟨he, hne⟩ := hv _ hmem kx.1 (List.mem_of_getElem? hj1)
  obtain ⟨v', h1, h2⟩ := ColumnKind.convert_total (hd _ (List.mem_of_getElem? hj1)) he (fun h => if_neg h)
  rw [hconv] at h1
  cases h1
  exact hne hb.1 (h2.1 hb.2)

/-- **C104** Data in which anything but the type is missing are rejected. -/
theorem C104_missing_values (choices : List Label) (kinds : List (Str × ColumnKind)) (f : InputFrame) (r : InputRow)
    (hr : r ∈ f.rows) (c : Str) (kind : ColumnKind) (hk : (c, kind) ∈ kinds) (hc : c ≠ "type".toList)
    (hno : r.value f.columns c = none) : processInputFrame true choices kinds f = none := by
  cases hp : processInputFrame true choices kinds f with
  | none => rfl
  | some df =>
    obtain ⟨_, hnan, hconv⟩ := processInputFrame_panel hp
    have hrows := convertFrame_rows hconv
    obtain ⟨i, hi⟩ := List.getElem?_of_mem ((List.perm_insertionSort InputRow.le f.rows).mem_iff.2 hr)
    obtain ⟨x, hx, _, hxv⟩ := forall₂_getElem? hrows i _ hi
    obtain ⟨j, hj⟩ := List.getElem?_of_mem hk
    obtain ⟨v, hv, e⟩ := forall₂_getElem? hxv j _ hj
    dsimp only at e
    rw [hno] at e
    have hvn : v = none := by
      cases kind with
      | number => simpa [ColumnKind.convert, eq_comm] using e
      | labels levels =>
        simp only [ColumnKind.convert] at e
        split at e
        · simp at e
        · simpa [eq_comm] using e
    subst hvn
    have : hasNans kinds df = true := by
      refine List.any_eq_true.2 ⟨x, List.mem_of_getElem? hx, List.any_eq_true.2 ⟨((c, kind), none), ?_, ?_⟩⟩
      · exact List.mem_of_getElem? (i := j) (List.getElem?_zip_eq_some.2 ⟨hj, hv⟩)
      · exact Bool.and_eq_true_iff.2 ⟨decide_eq_true hc, rfl⟩
    rw [hnan] at this
    exact absurd this (by simp)

theorem InputFrame.agents_eq (f : InputFrame) : f.agents = f.individuals := by
  unfold InputFrame.agents InputFrame.individuals
  rw [← List.toFinset_card_of_nodup (nodup_eraseDups _)]
  congr 1
  ext a
  simp only [List.mem_toFinset, mem_eraseDups]

/-- **C33** Data are accepted for simulations from the first period if there is one row for each individual and period,
and labels are known for each of the numbers below the number of individuals. -/
theorem C33_accepted_data (choices : List Label) (hch : (ColumnKind.labels choices).Distinct)
    (kinds : List (Str × ColumnKind)) (hd : ∀ k ∈ kinds, k.2.Distinct) (f : InputFrame)
    (hn : (f.rows.map InputRow.key).Nodup) (hids : ∀ i < f.individuals, ∃ r ∈ f.rows, r.key = (i, 0))
    (hc : ∀ r ∈ f.rows, r.period = 0 →
      (ColumnKind.labels choices).Expects f.columns "choice".toList (r.value f.columns "choice".toList))
    (hv : ∀ r ∈ f.rows, r.period = 0 → ∀ k ∈ kinds, k.2.Expects f.columns k.1 (r.value f.columns k.1)) :
    ∃ df, processInputFrame false choices kinds f = some df := by
  have hfirst : ∀ r ∈ f.firstPeriods, r ∈ f.rows ∧ r.period = 0 := by
    intro r hr
    obtain ⟨i, hi, rfl⟩ := List.mem_map.1 hr
    obtain ⟨r', hr', hk⟩ := hids i (f.agents_eq ▸ List.mem_range.1 hi)
    cases h : f.rows.find? fun r => r.key == (i, 0) with
    | none =>
      have := List.find?_eq_none.1 h r' hr'
      simp [hk] at this
    | some q =>
      have h1 := List.find?_some h
      exact ⟨List.mem_of_find?_eq_some h, congrArg Prod.snd (beq_iff_eq.1 h1)⟩
  obtain ⟨df, hdf⟩ := convertFrame_total hch hd (rows := f.firstPeriods)
    (fun r hr => hc r (hfirst r hr).1 (hfirst r hr).2) (fun r hr => hv r (hfirst r hr).1 (hfirst r hr).2)
  refine ⟨df, ?_⟩
  unfold processInputFrame
  rw [if_pos hn]
  simpa using hdf

section
variable {K : Type} [Field K] [LinearOrder K] {G P : Type}

/-- The processed data: one row for each of the numbers below the number of individuals. -/
theorem processInputFrame_first {choices : List Label} {kinds : List (Str × ColumnKind)} {f : InputFrame}
    {df : List ((Nat × Nat) × CharRow)} (h : processInputFrame false choices kinds f = some df) :
    (f.rows.map InputRow.key).Nodup ∧ convertFrame choices kinds f.columns f.firstPeriods = some df := by
  unfold processInputFrame at h
  split at h
  · rename_i hn
    exact ⟨hn, by simpa using h⟩
  · simp at h

theorem InputFrame.firstPeriods_getElem? (f : InputFrame) (i : Nat) (hi : i < f.individuals) :
    f.firstPeriods[i]? = some ((f.rows.find? fun r => r.key == (i, 0)).getD ⟨i, 0, []⟩) := by
  unfold InputFrame.firstPeriods
  rw [List.getElem?_map, List.getElem?_range (f.agents_eq ▸ hi)]
  rfl

theorem InputFrame.find_first (f : InputFrame) (hn : (f.rows.map InputRow.key).Nodup) (r : InputRow)
    (hr : r ∈ f.rows) (i : Nat) (hk : r.key = (i, 0)) :
    (f.rows.find? fun r => r.key == (i, 0)) = some r := by
  cases h : f.rows.find? fun r => r.key == (i, 0) with
  | none =>
    have := List.find?_eq_none.1 h r hr
    simp [hk] at this
  | some r' =>
    have h1 := List.find?_some h
    have h2 := List.mem_of_find?_eq_some h
    rw [List.inj_on_of_nodup_map hn h2 hr ((beq_iff_eq.1 h1).trans hk.symm)]

/-- **C33** The rows for which individuals are simulated, given data with labels: row `i` has the values of the
observation of individual `i` in period zero, as numbers. What the data do not contain is missing. -/
theorem C33_labelled_rows (choices : List Label) (kinds : List (Str × ColumnKind)) (hd : ∀ k ∈ kinds, k.2.Distinct)
    (f : InputFrame) (df : List ((Nat × Nat) × CharRow)) (hp : processInputFrame false choices kinds f = some df) :
    df.length = f.individuals ∧ ∀ i < f.individuals, ∃ row, df[i]? = some ((i, 0), row) ∧ row.length = kinds.length ∧
      ∀ (j : Nat) (c : Str) (kind : ColumnKind), kinds[j]? = some (c, kind) →
        (∀ r ∈ f.rows, r.key = (i, 0) → ∀ x, r.value f.columns c = some x →
          ∃ v, row[j]? = some (some v) ∧ kind.Means x v) ∧
        ((∀ r ∈ f.rows, r.key = (i, 0) → r.value f.columns c = none) → row[j]? = some none) := by
  obtain ⟨hn, hc⟩ := processInputFrame_first hp
  have hrows := convertFrame_rows hc
  refine ⟨by rw [← hrows.length_eq]; simp [InputFrame.firstPeriods, f.agents_eq], fun i hi => ?_⟩
  obtain ⟨x, hx, hk, hv⟩ := forall₂_getElem? hrows i _ (f.firstPeriods_getElem? i hi)
  have hkey : ((f.rows.find? fun r => r.key == (i, 0)).getD ⟨i, 0, []⟩).key = (i, 0) := by
    cases h : f.rows.find? fun r => r.key == (i, 0) with
    | none => rfl
    | some r' =>
      have h1 := List.find?_some h
      exact beq_iff_eq.1 h1
  rw [hkey] at hk
  refine ⟨x.2, by rw [← hk]; exact hx, hv.length_eq.symm, fun j c kind hj => ⟨fun r hr hrk y hy => ?_, fun hno => ?_⟩⟩
  · rw [f.find_first hn r hr i hrk] at hv
    exact converted_value hd hv j c kind y hj hy
  · obtain ⟨v, hjv, hconv⟩ := forall₂_getElem? hv j _ hj
    have hval : InputRow.value f.columns ((f.rows.find? fun r => r.key == (i, 0)).getD ⟨i, 0, []⟩) c = none := by
      cases h : f.rows.find? fun r => r.key == (i, 0) with
      | none => simp [InputRow.value, Dict.get?]
      | some r' =>
        have h1 := List.find?_some h
        exact hno r' (List.mem_of_find?_eq_some h) (beq_iff_eq.1 h1)
    dsimp only at hconv
    rw [hval] at hconv
    rw [hjv]
    cases kind with
    | number => simp only [ColumnKind.convert, Option.some.injEq] at hconv; rw [hconv]
    | labels levels =>
      simp only [ColumnKind.convert] at hconv
      split at hconv
      · simp at hconv
      · simp only [Option.some.injEq] at hconv; rw [hconv]

/-- **C33** Labels which are missing raise an exception. In particular, an observable, a lagged choice or a choice in
the data raises an exception unless each of the numbers below the number of individuals is an identifier which is
observed in period zero. -/
theorem C33_missing_label (choices : List Label) (kinds : List (Str × ColumnKind)) (f : InputFrame) (i : Nat)
    (hi : i < f.individuals) (c : Str) (hc : c ∈ f.columns)
    (hk : c = "choice".toList ∨ ∃ levels, (c, ColumnKind.labels levels) ∈ kinds)
    (hno : ∀ r ∈ f.rows, r.key = (i, 0) → r.value f.columns c = none) :
    processInputFrame false choices kinds f = none := by
  cases hp : processInputFrame false choices kinds f with
  | none => rfl
  | some df =>
    obtain ⟨hn, hconv⟩ := processInputFrame_first hp
    have hget := f.firstPeriods_getElem? i hi
    have hval : InputRow.value f.columns ((f.rows.find? fun r => r.key == (i, 0)).getD ⟨i, 0, []⟩) c = none := by
      cases h : f.rows.find? fun r => r.key == (i, 0) with
      | none => simp [InputRow.value, Dict.get?]
      | some r' =>
        have h1 := List.find?_some h
        exact hno r' (List.mem_of_find?_eq_some h) (beq_iff_eq.1 h1)
    rcases hk with rfl | ⟨levels, hl⟩
    · unfold convertFrame at hconv
      split at hconv
      · rename_i hall
        have := List.all_eq_true.1 hall _ (List.mem_of_getElem? hget)
        rw [hval] at this
        simp only [ColumnKind.convert, if_pos (decide_eq_true hc)] at this
        simp at this
      · simp at hconv
    · obtain ⟨x, _, _, hv⟩ := forall₂_getElem? (convertFrame_rows hconv) i _ hget
      obtain ⟨j, hj⟩ := List.getElem?_of_mem hl
      obtain ⟨v, _, e⟩ := forall₂_getElem? hv j _ hj
      dsimp only at e
      rw [hval] at e
      simp [ColumnKind.convert, hc] at e

/-- **C33** Simulating individuals whose observations contain labels. An individual with an identifier below the number
of individuals starts with the values of its observation in period zero. Missing: other identifiers, see
`C33_starts_from_data_false` and `C33_missing_label`. -/
theorem C33_labelled_data_partial (choices : List Label) (kinds : List (Str × ColumnKind))
    (hd : ∀ k ∈ kinds, k.2.Distinct) (f : InputFrame) (df : List ((Nat × Nat) × CharRow))
    (hp : processInputFrame false choices kinds f = some df) (sim : Simulation K G P) (hrs : sim.rs.Contract)
    (hin : sim.input = df.map Prod.snd) (hT : 0 < sim.nPeriods) (params : P) (g g' : G) (out : List (SimRow K))
    (h : sim.run params g = (some out, g')) (r : InputRow) (hr : r ∈ f.rows) (h0 : r.period = 0)
    (hid : r.id < f.individuals) :
    ∃ row ∈ out, row.id = r.id ∧ row.state.core.period = 0 ∧ r.KeptIn f.columns kinds row.state.values := by
  obtain ⟨sp, fp, g1, states, data, hsp, hfp, hst, hlen, rfl, hdl, hdata, _⟩ := run_spec sim hrs params g g' out h
  obtain ⟨hdfl, hrows⟩ := C33_labelled_rows choices kinds hd f df hp
  obtain ⟨row, hrow, hrl, hcells⟩ := hrows r.id hid
  have hz : data[0]? = some data[0] := List.getElem?_eq_getElem (by omega)
  obtain ⟨hl0, hr0⟩ := hdata 0 _ hz
  have hil : r.id < (data[0]).length := by rw [hl0, hin, List.length_map, hdfl]; exact hid
  obtain ⟨e1, e2, e3, _⟩ := hr0 r.id _ (List.getElem?_eq_getElem hil)
  refine ⟨_, (mem_processOutput data _).2 ⟨0, r.id, _, hz, List.getElem?_eq_getElem hil⟩, e1, e2, ?_⟩
  have hs := e3 rfl
  obtain ⟨hfl, hk⟩ := sampleAll_spec _ _ _ _ _ _ _ hfp
  have hin' : sim.input[r.id]? = some row := by
    rw [hin, List.getElem?_map, hrow]; rfl
  have hflt : r.id < fp.length := by
    rw [hfl]; exact (List.getElem?_eq_some_iff.1 hin').1
  obtain ⟨k1, k2⟩ := hk r.id row _ hin' (List.getElem?_eq_getElem hflt)
  have hto := mapM_getElem? _ _ _ hst r.id _ (List.getElem?_eq_getElem hflt)
  rw [hs] at hto
  have hval := rowToState_values hto.symm
  refine ⟨?_, fun j c kind x hj hx => ?_⟩
  · have := congrArg List.length hval
    rw [List.length_map, k1, hrl] at this
    exact this.symm
  · obtain ⟨v, hv, hm⟩ := (hcells j c kind hj).1 r hr (Prod.ext rfl h0) x hx
    have := k2 j v hv
    rw [hval, List.getElem?_map] at this
    obtain ⟨u, hu, e⟩ := Option.map_eq_some_iff.1 this
    cases e
    exact ⟨v, hu, hm⟩

end

/-! ## Concrete cases -/

/-- Experience and type. -/
def panelKinds : List (Str × ColumnKind) := [("exp_a".toList, .number), ("type".toList, .number)]

/-- Two individuals, the second one is observed in the second period only. The type of the first one is known. -/
def panelFrame (type : Nat) : InputFrame where
  columns := ["exp_a".toList, "type".toList]
  rows := [⟨1, 1, [("exp_a".toList, .int 1)]⟩,
    ⟨0, 0, [("exp_a".toList, .int 0), ("type".toList, .int type)]⟩]

/-- Two observations. -/
def panelSimulation : Simulation ℚ Nat Unit :=
  { staticSimulation with draws := [[0, 0], [1, 0]], drawsWage := [[0, 0], [0, 0]] }

/-- The result of a one-step-ahead simulation of a data frame. -/
def simulatePanel (sim : Simulation ℚ Nat Unit) (kinds : List (Str × ColumnKind)) (c : Option Nat) (f : InputFrame) :
    Option (List (Nat × CoreState × List Nat × Nat)) :=
  (processInputFrame true [] kinds f).bind fun df => (sim.oneStepAhead c df () 7).map summary

/-- **C104** fails for individuals who are not observed in the first period: in two data sets with the same observation
of individual `1` and the same number of observations, individual `1` has different types, since individual `0` has
different types. -/
theorem C104_types_false :
    (∀ r, r.id = 1 → (r ∈ (panelFrame 0).rows ↔ r ∈ (panelFrame 1).rows)) ∧
      simulatePanel panelSimulation panelKinds (some 1) (panelFrame 0) =
        some [(0, ⟨0, [0], []⟩, [0], 0), (1, ⟨1, [1], []⟩, [0], 0)] ∧
      simulatePanel panelSimulation panelKinds (some 1) (panelFrame 1) =
        some [(0, ⟨0, [0], []⟩, [1], 0), (1, ⟨1, [1], []⟩, [1], 0)] := by
  refine ⟨?_, by decide +kernel, by decide +kernel⟩
  intro r hr
  simp only [panelFrame, List.mem_cons, List.not_mem_nil, or_false]
  constructor
  · rintro (rfl | rfl)
    · exact Or.inl rfl
    · simp at hr
  · rintro (rfl | rfl)
    · exact Or.inl rfl
    · simp at hr

/-- Data without types in which both individuals are observed in the first period. -/
def balancedFrame : InputFrame where
  columns := ["exp_a".toList]
  rows := [⟨5, 1, [("exp_a".toList, .int 0)]⟩, ⟨3, 0, [("exp_a".toList, .int 0)]⟩,
    ⟨3, 1, [("exp_a".toList, .int 1)]⟩, ⟨5, 0, [("exp_a".toList, .int 0)]⟩]

/-- The hypotheses of `C104_observations` and `C104_types_partial` are met. -/
example : (∀ k ∈ panelKinds, k.2.Distinct) ∧ panelKinds[1]? = some ("type".toList, .number) ∧
    "type".toList ∉ balancedFrame.columns ∧
    (∀ r ∈ balancedFrame.rows, ∃ r0 ∈ balancedFrame.rows, r0.id = r.id ∧ r0.period = 0) ∧
    simulatePanel staticSimulation panelKinds (some 1) balancedFrame =
      some [(3, ⟨0, [0], []⟩, [0], 0), (3, ⟨1, [1], []⟩, [0], 0), (5, ⟨0, [0], []⟩, [0], 1),
        (5, ⟨1, [0], []⟩, [0], 0)] := by
  refine ⟨?_, rfl, by decide +kernel, ?_, by decide +kernel⟩
  · intro k hk
    simp only [panelKinds, List.mem_cons, List.not_mem_nil, or_false] at hk
    rcases hk with rfl | rfl <;> exact True.intro
  · simp [balancedFrame]

/-- Data for `C104_every_period_observed` without observations in the second period. -/
example : 1 < staticSimulation.nPeriods ∧
    (processInputFrame true [] panelKinds { balancedFrame with rows := balancedFrame.rows.drop 1 |>.take 1 }).isSome ∧
    ∀ r ∈ (balancedFrame.rows.drop 1).take 1, r.period ≠ 1 := by
  refine ⟨by decide +kernel, by decide +kernel, ?_⟩
  simp [balancedFrame]

/-- Data for `C104_first_observation_without_type`: the first individual is only observed in the second period. -/
example : (processInputFrame true [] panelKinds { panelFrame 0 with rows := (panelFrame 0).rows.map fun r =>
      { r with id := 1 - r.id } }).isSome ∧
    (⟨0, 1, [("exp_a".toList, .int 1)]⟩ : InputRow) ∈
      (panelFrame 0).rows.map fun r => { r with id := 1 - r.id } := by
  exact ⟨by decide +kernel, by simp [panelFrame]⟩

/-- A lagged choice and an observable with labels. -/
def labelledKinds : List (Str × ColumnKind) :=
  [("exp_a".toList, .number), ("lagged_choice_1".toList, .labels [.text "a".toList, .text "home".toList]),
    ("skill".toList, .labels [.text "low".toList, .text "high".toList]), ("type".toList, .number)]

/-- The first individual is observed in period zero and in period one, the second one in period zero. -/
def labelledFrame : InputFrame where
  columns := ["choice".toList, "lagged_choice_1".toList, "skill".toList]
  rows := [⟨1, 0, [("choice".toList, .text "a".toList), ("lagged_choice_1".toList, .text "a".toList),
      ("skill".toList, .text "high".toList)]⟩,
    ⟨0, 0, [("choice".toList, .text "home".toList), ("lagged_choice_1".toList, .text "home".toList),
      ("skill".toList, .text "low".toList)]⟩,
    ⟨0, 1, [("choice".toList, .text "home".toList), ("lagged_choice_1".toList, .text "home".toList),
      ("skill".toList, .text "low".toList)]⟩]

/-- Processing data with labels. -/
example : (∀ k ∈ labelledKinds, k.2.Distinct) ∧
    processInputFrame false [.text "a".toList, .text "home".toList] labelledKinds labelledFrame =
      some [((0, 0), [none, some 1, some 0, none]), ((1, 0), [none, some 0, some 1, none])] := by
  refine ⟨?_, by decide +kernel⟩
  intro k hk
  simp only [labelledKinds, List.mem_cons, List.not_mem_nil, or_false] at hk
  rcases hk with rfl | rfl | rfl | rfl
  · exact True.intro
  · exact ⟨by decide +kernel, by decide +kernel⟩
  · exact ⟨by decide +kernel, by decide +kernel⟩
  · exact True.intro

/-- The hypotheses of `C33_missing_label` are met if identifiers start with one. -/
example : 0 < ({ labelledFrame with rows := labelledFrame.rows.map fun r => { r with id := r.id + 1 } } :
      InputFrame).individuals ∧ "skill".toList ∈ labelledFrame.columns ∧
    (∃ levels, ("skill".toList, ColumnKind.labels levels) ∈ labelledKinds) ∧
    ∀ r ∈ labelledFrame.rows.map fun r => { r with id := r.id + 1 }, r.key ≠ (0, 0) := by
  refine ⟨by decide +kernel, by decide +kernel, ⟨[.text "low".toList, .text "high".toList], by simp [labelledKinds]⟩, ?_⟩
  simp [labelledFrame, InputRow.key]

/-- The simulated sample of `C104_simulated_sample`. -/
example : (staticSimulation.run () 7).1.map summary =
      some [(0, ⟨0, [0], []⟩, [0], 0), (0, ⟨1, [1], []⟩, [0], 1),
        (1, ⟨0, [0], []⟩, [1], 0), (1, ⟨1, [1], []⟩, [1], 0)] ∧
    (∀ ch ∈ staticSimulation.chars (), ch.WF) ∧ ∀ out g', staticSimulation.run () 7 = (some out, g') →
      ∀ r ∈ out, r.state.core.exp.length = staticSimulation.nExp ∧
        r.state.core.lags.length = staticSimulation.nLags ∧ (∀ l ∈ r.state.core.lags, l ≠ none) ∧
        r.state.dense.length = 1 := by
  have hsum : (staticSimulation.run () 7).1.map summary =
      some [(0, ⟨0, [0], []⟩, [0], 0), (0, ⟨1, [1], []⟩, [0], 1),
        (1, ⟨0, [0], []⟩, [1], 0), (1, ⟨1, [1], []⟩, [1], 0)] := by decide +kernel
  refine ⟨hsum, ?_, ?_⟩
  · intro ch hch
    simp only [staticSimulation, exampleSimulation, List.mem_cons, List.not_mem_nil, or_false] at hch
    rcases hch with rfl | rfl
    · refine ⟨by intro fp; simp, ?_⟩
      intro fp ps hps
      obtain ⟨_, _, rfl⟩ := List.mem_map.1 hps
      exact ⟨rfl, by simp, by norm_num, by norm_num⟩
    · refine ⟨by intro fp; simp, ?_⟩
      intro fp ps hps
      obtain ⟨_, _, rfl⟩ := List.mem_map.1 hps
      exact ⟨rfl, by simp, by norm_num, by norm_num⟩
  · intro out g' h r hr
    rw [h] at hsum
    simp only [Option.map_some, Option.some.injEq] at hsum
    have : (r.id, r.state.core, r.state.dense, r.outcome.choice) ∈ summary out :=
      List.mem_map.2 ⟨r, hr, rfl⟩
    rw [hsum] at this
    simp only [List.mem_cons, Prod.mk.injEq, List.not_mem_nil, or_false] at this
    rcases this with ⟨_, h1, h2, _⟩ | ⟨_, h1, h2, _⟩ | ⟨_, h1, h2, _⟩ | ⟨_, h1, h2, _⟩ <;> rw [h1, h2] <;>
      exact ⟨rfl, rfl, by simp, rfl⟩

/-- Columns of the example with two types. -/
def exampleKinds : List (Str × ColumnKind) :=
  [("exp_a".toList, .number), ("exp_b".toList, .number),
    ("lagged_choice_1".toList, .labels [.text "a".toList, .text "b".toList, .text "home".toList]),
    ("type".toList, .number)]

/-- Two individuals in three periods with gaps. -/
def exampleFrame : InputFrame where
  columns := ["exp_a".toList, "exp_b".toList, "lagged_choice_1".toList, "type".toList]
  rows := [⟨9, 2, [("exp_a".toList, .int 2), ("exp_b".toList, .int 1), ("lagged_choice_1".toList, .text "b".toList),
      ("type".toList, .int 1)]⟩,
    ⟨4, 0, [("exp_a".toList, .int 2), ("exp_b".toList, .int 0), ("lagged_choice_1".toList, .text "home".toList),
      ("type".toList, .int 0)]⟩,
    ⟨4, 1, [("exp_a".toList, .int 3), ("exp_b".toList, .int 0), ("lagged_choice_1".toList, .text "a".toList),
      ("type".toList, .int 0)]⟩]

/-- The hypotheses of `C104_panel_follows_model_partial` about the data are met; those about the model are met by the
example of `C73_simulated_sample_partial`. -/
example : ∃ core df, exampleBuild.WF core ∧
    processInputFrame true [.text "a".toList, .text "b".toList, .text "home".toList] exampleKinds exampleFrame =
      some df ∧ (∀ x ∈ df, InModel exampleBuild core 2 1 x) ∧ ∀ t < 3, ∃ r ∈ exampleFrame.rows, r.period = t := by
  obtain ⟨core, wf, _⟩ := exampleBuild_wf
  refine ⟨core, [((4, 0), [some 2, some 0, some 2, some 0]), ((4, 1), [some 3, some 0, some 0, some 0]),
    ((9, 2), [some 2, some 1, some 1, some 1])], wf, by decide +kernel, ?_, ?_⟩
  · have hcore : ∀ s, ((createCore exampleSpec).map fun c => decide (s ∈ c)) = some true → s ∈ core := by
      intro s hs
      have : createCore exampleSpec = some core := wf.created
      rw [this] at hs
      simpa using hs
    intro x hx
    simp only [List.mem_cons, List.not_mem_nil, or_false] at hx
    rcases hx with rfl | rfl | rfl
    · exact ⟨⟨⟨0, [2, 0], [some 2]⟩, [0]⟩, some 0, rfl, hcore _ (by decide +kernel), 0, rfl, rfl⟩
    · exact ⟨⟨⟨0, [3, 0], [some 0]⟩, [0]⟩, some 0, rfl, hcore _ (by decide +kernel), 0, rfl, rfl⟩
    · exact ⟨⟨⟨0, [2, 1], [some 1]⟩, [1]⟩, some 1, rfl, hcore _ (by decide +kernel), 1, rfl, rfl⟩
  · intro t ht
    interval_cases t <;> simp [exampleFrame]

/-- The same data without types. -/
example : ∃ core df, exampleBuild.WF core ∧
    processInputFrame true [.text "a".toList, .text "b".toList, .text "home".toList] exampleKinds
      { exampleFrame with columns := exampleFrame.columns.take 3 } = some df ∧ df ≠ [] ∧
    PanelFits exampleBuild core 2 1 [(⟨3, [0, 1], fun fp => fp.map fun _ => [3 / 4, 1 / 4]⟩ : Characteristic ℚ)] (some 3)
      df := by
  obtain ⟨core, wf, _⟩ := exampleBuild_wf
  refine ⟨core, [((4, 0), [some 2, some 0, some 2, none]), ((4, 1), [some 3, some 0, some 0, none]),
    ((9, 2), [some 2, some 1, some 1, none])], wf, by decide +kernel, by simp,
    Or.inr ⟨3, [0, 1], rfl, by simp, ?_, by simp, ?_, ?_⟩⟩
  · have hcore : ∀ s, ((createCore exampleSpec).map fun c => decide (s ∈ c)) = some true → s ∈ core := by
      intro s hs
      have : createCore exampleSpec = some core := wf.created
      rw [this] at hs
      simpa using hs
    intro x hx
    simp only [List.mem_cons, List.not_mem_nil, or_false] at hx
    rcases hx with rfl | rfl | rfl <;> refine ⟨rfl, fun v hv => ?_⟩ <;>
      simp only [List.mem_cons, List.not_mem_nil, or_false] at hv <;> rcases hv with rfl | rfl
    · exact ⟨⟨⟨0, [2, 0], [some 2]⟩, [0]⟩, some 0, rfl, hcore _ (by decide +kernel), 0, rfl, rfl⟩
    · exact ⟨⟨⟨0, [2, 0], [some 2]⟩, [1]⟩, some 1, rfl, hcore _ (by decide +kernel), 1, rfl, rfl⟩
    · exact ⟨⟨⟨0, [3, 0], [some 0]⟩, [0]⟩, some 0, rfl, hcore _ (by decide +kernel), 0, rfl, rfl⟩
    · exact ⟨⟨⟨0, [3, 0], [some 0]⟩, [1]⟩, some 1, rfl, hcore _ (by decide +kernel), 1, rfl, rfl⟩
    · exact ⟨⟨⟨0, [2, 1], [some 1]⟩, [0]⟩, some 0, rfl, hcore _ (by decide +kernel), 0, rfl, rfl⟩
    · exact ⟨⟨⟨0, [2, 1], [some 1]⟩, [1]⟩, some 1, rfl, hcore _ (by decide +kernel), 1, rfl, rfl⟩
  · simp
  · simp

/-- The hypotheses of `C104_accepted_data` are met. -/
example : (ColumnKind.labels [.text "a".toList, .text "b".toList, .text "home".toList]).Distinct ∧
    (exampleFrame.rows.map InputRow.key).Nodup ∧
    ∀ r ∈ exampleFrame.rows, ∀ k ∈ exampleKinds, k.2.Expects exampleFrame.columns k.1 (r.value exampleFrame.columns k.1) ∧
      (k.1 ≠ "type".toList → r.value exampleFrame.columns k.1 ≠ none) := by
  refine ⟨⟨by decide +kernel, by decide +kernel⟩, by decide +kernel, ?_⟩
  have hnum : ∀ r ∈ exampleFrame.rows, ∀ c ∈ ["exp_a".toList, "exp_b".toList, "type".toList],
      ∃ n < 256, r.value exampleFrame.columns c = some (.int (n : Nat)) := by
    intro r hr c hc
    simp only [exampleFrame, List.mem_cons, List.not_mem_nil, or_false] at hr hc
    rcases hr with rfl | rfl | rfl <;> rcases hc with rfl | rfl | rfl
    · exact ⟨2, by omega, rfl⟩
    · exact ⟨1, by omega, rfl⟩
    · exact ⟨1, by omega, rfl⟩
    · exact ⟨2, by omega, rfl⟩
    · exact ⟨0, by omega, rfl⟩
    · exact ⟨0, by omega, rfl⟩
    · exact ⟨3, by omega, rfl⟩
    · exact ⟨0, by omega, rfl⟩
    · exact ⟨0, by omega, rfl⟩
  intro r hr k hk
  have hk' : k = ("lagged_choice_1".toList, .labels [.text "a".toList, .text "b".toList, .text "home".toList]) ∨
      k.1 ∈ ["exp_a".toList, "exp_b".toList, "type".toList] ∧ k.2 = .number := by
    simp only [exampleKinds, List.mem_cons, List.not_mem_nil, or_false] at hk
    rcases hk with rfl | rfl | rfl | rfl
    · exact Or.inr ⟨by simp, rfl⟩
    · exact Or.inr ⟨by simp, rfl⟩
    · exact Or.inl rfl
    · exact Or.inr ⟨by simp, rfl⟩
  rcases hk' with rfl | ⟨h1, h2⟩
  · simp only [exampleFrame, List.mem_cons, List.not_mem_nil, or_false] at hr
    rcases hr with rfl | rfl | rfl
    · exact ⟨fun _ => ⟨.text "b".toList, by simp, rfl⟩, fun _ h => by cases h⟩
    · exact ⟨fun _ => ⟨.text "home".toList, by simp, rfl⟩, fun _ h => by cases h⟩
    · exact ⟨fun _ => ⟨.text "a".toList, by simp, rfl⟩, fun _ h => by cases h⟩
  · obtain ⟨n, hn, e⟩ := hnum r hr k.1 h1
    rw [h2, e]
    exact ⟨fun y hy => ⟨n, hn, by cases hy; rfl⟩, fun _ h => by cases h⟩

end Respy
