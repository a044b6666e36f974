import Verif.Model.ProcessSimulate
import Verif.Lemmas.SamplingTotal
import Verif.Props.ProcessModel
import Verif.Spec.ProcessSimulate

/-! Helper lemmas: sampling of characteristics whose weights are defined only for frames in which
earlier characteristics are known. -/

set_option linter.unusedSectionVars false

namespace Respy

section
variable {K : Type} [Field K] [LinearOrder K] [IsStrictOrderedRing K] {G P : Type}

/-- The weights for one frame are well formed. -/
def Characteristic.GoodFor (ch : Characteristic K) (fp : List CharRow) : Prop :=
  (ch.probs fp).length = fp.length ∧ ∀ ps ∈ ch.probs fp, ps.length = ch.levels.length ∧ SumsToOne ps

open Classical in
/-- The same characteristic with well-formed weights for all other frames. -/
noncomputable def Characteristic.completed (ch : Characteristic K) : Characteristic K where
  column := ch.column
  levels := ch.levels
  probs := fun fp => if ch.GoodFor fp then ch.probs fp else
    fp.map fun _ => 1 :: List.replicate (ch.levels.length - 1) 0

theorem Characteristic.completed_wf (ch : Characteristic K) (hne : ch.levels ≠ []) : ch.completed.WF where
  rows := by
    intro fp
    unfold Characteristic.completed
    dsimp only
    split
    · next h => exact h.1
    · simp
  weights := by
    intro fp ps hps
    unfold Characteristic.completed at hps
    dsimp only at hps
    split at hps
    · next h => exact h.2 ps hps
    · obtain ⟨_, _, rfl⟩ := List.mem_map.1 hps
      have hl := List.length_pos_of_ne_nil hne
      refine ⟨?_, by simp, ?_, ?_⟩
      · simp only [List.length_cons, List.length_replicate, Characteristic.completed]; omega
      · simp
      · simp

theorem sampleCharacteristic_known (rs : RandomSource K G) (ch : Characteristic K) (seed : Nat)
    (fp fp' : List CharRow) (g : G) (cols : List Nat)
    (h : sampleCharacteristic rs ch seed fp = some (fp', g)) (hk : KnownColumns cols fp) :
    KnownColumns (cols ++ [ch.column]) fp' := by
  obtain ⟨hl, hs⟩ := sampleCharacteristic_spec rs ch seed fp fp' g h
  intro c hc row hrow hnone
  obtain ⟨i, hi⟩ := List.mem_iff_getElem?.1 hrow
  have hlt : i < fp.length := by rw [← hl]; exact (List.getElem?_eq_some_iff.1 hi).1
  obtain ⟨h1, h2⟩ := hs i _ row (List.getElem?_eq_getElem hlt) hi
  rcases List.mem_append.1 hc with hc | hc
  · cases hv : fp[i][c]? with
    | none =>
      have := (List.getElem?_eq_some_iff.1 hnone).1
      rw [h1] at this
      exact absurd (List.getElem?_eq_none_iff.1 hv) (by omega)
    | some x =>
      cases x with
      | none => exact hk c hc _ (List.getElem_mem hlt) hv
      | some v => rw [h2 _ _ hv] at hnone; simp at hnone
  · rw [List.mem_singleton] at hc
    subst hc
    unfold sampleCharacteristic at h
    obtain ⟨values, hv, h⟩ := Option.bind_eq_some_iff.1 h
    split at h
    · cases h
      rw [List.getElem?_zipWith] at hi
      split at hi
      · simp only [Option.some.injEq] at hi
        subst hi
        exact fillColumn_known _ _ _ hnone
      · cases hi
    · simp at h

/-- Weights of frames which do not occur do not matter. -/
theorem sampleAll_completed (rs : RandomSource K G) (chars : List (Characteristic K)) (seed : Nat)
    (fp : List CharRow) (g : G) (cols : List Nat) (hk : KnownColumns cols fp) (n : Nat) (hn : fp.length = n)
    (width : Nat) (hw : ∀ row ∈ fp, row.length = width)
    (hgood : ∀ pre ch post, chars = pre ++ ch :: post → ∀ fp' : List CharRow, fp'.length = n →
      (∀ row ∈ fp', row.length = width) → KnownColumns (cols ++ pre.map Characteristic.column) fp' → ch.GoodFor fp') :
    sampleAll rs (chars.map Characteristic.completed) seed fp g = sampleAll rs chars seed fp g := by
  induction chars generalizing seed fp g cols with
  | nil => rfl
  | cons ch chars ih =>
    have h1 : sampleCharacteristic rs ch.completed seed fp = sampleCharacteristic rs ch seed fp := by
      unfold sampleCharacteristic
      have : ch.completed.probs fp = ch.probs fp := by
        unfold Characteristic.completed
        dsimp only
        rw [if_pos (hgood [] ch chars rfl fp hn hw (by simpa using hk))]
      rw [this]
      rfl
    rw [List.map_cons]
    unfold sampleAll
    rw [h1]
    cases hs : sampleCharacteristic rs ch seed fp with
    | none => rfl
    | some x =>
      obtain ⟨fp1, g1⟩ := x
      simp only [Option.bind_eq_bind, Option.bind_some]
      refine ih (seed + 1) fp1 g1 (cols ++ [ch.column]) (sampleCharacteristic_known rs ch seed fp fp1 g1 cols hs hk)
        ((sampleCharacteristic_spec _ _ _ _ _ _ hs).1.trans hn) ?_ ?_
      · intro row hrow
        obtain ⟨hl, hsp⟩ := sampleCharacteristic_spec _ _ _ _ _ _ hs
        obtain ⟨i, hi⟩ := List.mem_iff_getElem?.1 hrow
        have hlt : i < fp.length := by rw [← hl]; exact (List.getElem?_eq_some_iff.1 hi).1
        exact (hsp i _ row (List.getElem?_eq_getElem hlt) hi).1.trans (hw _ (List.getElem_mem hlt))
      · intro pre ch' post he fp' hl hwd hkn
        exact hgood (ch :: pre) ch' post (by rw [he]; rfl) fp' hl hwd (by simpa using hkn)

/-- The simulation with completed weights. -/
noncomputable def Simulation.completed (sim : Simulation K G P) : Simulation K G P :=
  { sim with chars := fun params => (sim.chars params).map Characteristic.completed }

theorem Simulation.completed_run (sim : Simulation K G P) (params : P) (cols : List Nat)
    (hk : KnownColumns cols sim.input) (width : Nat) (hw : ∀ row ∈ sim.input, row.length = width)
    (hgood : ∀ pre ch post, sim.chars params = pre ++ ch :: post → ∀ fp' : List CharRow,
      fp'.length = sim.input.length → (∀ row ∈ fp', row.length = width) →
      KnownColumns (cols ++ pre.map Characteristic.column) fp' → ch.GoodFor fp') (g : G) :
    sim.completed.run params g = sim.run params g := by
  unfold Simulation.run
  have := fun g => sampleAll_completed sim.rs (sim.chars params) sim.seed sim.input g cols hk _ rfl width hw hgood
  unfold Simulation.completed
  dsimp only
  simp only [this]

end

section
variable {env : ProcessEnv} {m : UserModel} {p : Processed} {ev : FormulaEval} {core : List CoreState}
  {covariates : Dict Str Str}

theorem initialLevels_length (h : ProcessedFrom env m p covariates)
    (hcols : (denseColumns p.denseSpec).map String.toList =
      Dict.keys p.observables ++ if 2 ≤ p.nTypes then ["type".toList] else []) :
    ((p.buildSpec ev).initialLevels p.denseLevels).length = p.stateColumns.length := by
  unfold BuildSpec.initialLevels Processed.stateColumns Processed.denseLevels
  rw [hcols]
  simp only [Processed.buildSpec, List.length_append, List.length_map, List.length_replicate, List.length_range,
    h.experience_length, Dict.keys]
  split <;> simp

/-- Every sampled variable has a column, and its levels are possible values of the column. -/
theorem sampledVariable_column (h : ProcessedFrom env m p covariates)
    (hcols : (denseColumns p.denseSpec).map String.toList =
      Dict.keys p.observables ++ if 2 ≤ p.nTypes then ["type".toList] else [])
    (hlags : ∀ d ∈ p.lags, Dict.keys d = p.choices.choices)
    (htypes : 2 ≤ p.nTypes → Dict.keys p.typeProb = List.range p.nTypes)
    (v : SampledVariable) (hv : v ∈ p.sampledVariables) :
    ∃ (j : Nat) (l : List Nat), p.stateColumns[j]? = some v.name ∧
      ((p.buildSpec ev).initialLevels p.denseLevels)[j]? = some l ∧ ∀ x ∈ v.levels, x ∈ l := by
  have hst : (p.buildSpec ev).initialLevels p.denseLevels =
      (p.experience.map fun e => Dict.keys e.1) ++
        List.replicate p.lags.length (List.range p.choices.choices.length) ++ p.denseLevels := rfl
  rw [hst]
  have hsc : p.stateColumns = (p.choices.wExp.map fun c => "exp_".toList ++ c) ++
      ((List.range p.lags.length).map fun i => "lagged_choice_".toList ++ codeText (i + 1)) ++
      (Dict.keys p.observables ++ if 2 ≤ p.nTypes then ["type".toList] else []) := by
    rw [← hcols]; rfl
  rw [hsc]
  unfold Processed.denseLevels
  have hel := h.experience_length
  unfold Processed.sampledVariables at hv
  rw [List.mem_append, List.mem_append, List.mem_append] at hv
  rcases hv with ((hv | hv) | hv) | hv
  · obtain ⟨o, ho, rfl⟩ := List.mem_map.1 hv
    obtain ⟨i, hi⟩ := List.mem_iff_getElem?.1 ho
    have hlt := (List.getElem?_eq_some_iff.1 hi).1
    refine ⟨p.choices.wExp.length + p.lags.length + i, List.range o.2.length, ?_, ?_, fun x hx => hx⟩
    · rw [List.getElem?_append_right (by simp)]
      simp only [List.length_append, List.length_map, List.length_range, Nat.add_sub_cancel_left]
      rw [List.getElem?_append_left (by simpa [Dict.keys] using hlt)]
      simp [Dict.keys, hi]
    · rw [List.getElem?_append_right (by simp [hel])]
      simp only [List.length_append, List.length_map, List.length_replicate, hel, Nat.add_sub_cancel_left]
      rw [List.getElem?_append_left (by simpa using hlt)]
      simp [hi]
  · obtain ⟨⟨c, e⟩, hce, rfl⟩ := List.mem_map.1 hv
    obtain ⟨i, hi⟩ := List.mem_iff_getElem?.1 hce
    rw [List.getElem?_zip_eq_some] at hi
    have hlt := (List.getElem?_eq_some_iff.1 hi.1).1
    refine ⟨i, Dict.keys e.1, ?_, ?_, fun x hx => hx⟩
    · rw [List.append_assoc, List.getElem?_append_left (by simpa using hlt)]
      simp [hi.1]
    · rw [List.append_assoc, List.getElem?_append_left (by simpa [hel] using hlt)]
      simp [hi.2]
  · obtain ⟨⟨d, i⟩, hdi, rfl⟩ := List.mem_map.1 hv
    rw [List.mem_reverse, List.mem_zipIdx_iff_getElem?] at hdi
    have hlt := (List.getElem?_eq_some_iff.1 hdi).1
    dsimp only at hlt hdi
    refine ⟨p.choices.wExp.length + i, List.range p.choices.choices.length, ?_, ?_, ?_⟩
    · rw [List.getElem?_append_left (by simp; omega), List.getElem?_append_right (by simp)]
      simp [hlt]
    · rw [List.getElem?_append_left (by simp [hel]; omega), List.getElem?_append_right (by simp [hel])]
      simp [hlt, hel]
    · intro x hx
      have hk := congrArg List.length (hlags d (List.mem_of_getElem? hdi))
      rw [← hk]
      simpa [Dict.keys] using hx
  · split at hv
    · next ht =>
      rw [List.mem_singleton] at hv
      subst hv
      refine ⟨p.choices.wExp.length + p.lags.length + p.observables.length, List.range p.nTypes, ?_, ?_, ?_⟩
      · rw [List.getElem?_append_right (by simp)]
        simp [ht, Dict.keys]
      · rw [List.getElem?_append_right (by simp [hel])]
        simp [ht, hel]
      · intro x hx
        have hk := congrArg List.length (htypes ht)
        simp only [Dict.keys, List.length_map, List.length_range] at hk
        rw [← hk]; exact hx
    · cases hv

/-- Every column is sampled. -/
theorem column_sampled (h : ProcessedFrom env m p covariates)
    (hcols : (denseColumns p.denseSpec).map String.toList =
      Dict.keys p.observables ++ if 2 ≤ p.nTypes then ["type".toList] else [])
    (x : Str) (hx : x ∈ p.stateColumns) : ∃ v ∈ p.sampledVariables, v.name = x := by
  have hsc : p.stateColumns = (p.choices.wExp.map fun c => "exp_".toList ++ c) ++
      ((List.range p.lags.length).map fun i => "lagged_choice_".toList ++ codeText (i + 1)) ++
      (Dict.keys p.observables ++ if 2 ≤ p.nTypes then ["type".toList] else []) := by
    rw [← hcols]; rfl
  rw [hsc] at hx
  unfold Processed.sampledVariables
  rw [List.mem_append, List.mem_append] at hx
  rcases hx with (hx | hx) | hx
  · obtain ⟨c, hc, rfl⟩ := List.mem_map.1 hx
    obtain ⟨i, hi⟩ := List.mem_iff_getElem?.1 hc
    have hlt : i < p.experience.length := by
      rw [h.experience_length]; exact (List.getElem?_eq_some_iff.1 hi).1
    refine ⟨⟨"exp_".toList ++ c, Dict.keys p.experience[i].1, p.experience[i].1.map Prod.snd⟩, ?_, rfl⟩
    refine List.mem_append_left _ (List.mem_append_left _ (List.mem_append_right _ (List.mem_map.2
      ⟨(c, p.experience[i]), List.mem_iff_getElem?.2 ⟨i, ?_⟩, rfl⟩)))
    rw [List.getElem?_zip_eq_some]
    exact ⟨hi, List.getElem?_eq_getElem hlt⟩
  · obtain ⟨i, hi, rfl⟩ := List.mem_map.1 hx
    rw [List.mem_range] at hi
    refine ⟨⟨_, List.range p.lags[i].length, p.lags[i].map Prod.snd⟩, ?_, rfl⟩
    refine List.mem_append_left _ (List.mem_append_right _ (List.mem_map.2 ⟨(p.lags[i], i), ?_, rfl⟩))
    rw [List.mem_reverse, List.mem_zipIdx_iff_getElem?]
    exact List.getElem?_eq_getElem hi
  · rw [List.mem_append] at hx
    rcases hx with hx | hx
    · obtain ⟨o, ho, rfl⟩ := List.mem_map.1 hx
      exact ⟨⟨o.1, List.range o.2.length, o.2.map Prod.snd⟩, List.mem_append_left _ (List.mem_append_left _
        (List.mem_append_left _ (List.mem_map.2 ⟨o, ho, rfl⟩))), rfl⟩
    · split at hx
      · next ht =>
        rw [List.mem_singleton] at hx
        subst hx
        exact ⟨⟨"type".toList, List.range p.typeProb.length, p.typeProb.map Prod.snd⟩,
          List.mem_append_right _ (by rw [if_pos ht]; simp), rfl⟩
      · cases hx

theorem idxOf_of_getElem? {l : List Str} (hnd : l.Nodup) {j : Nat} {x : Str} (h : l[j]? = some x) :
    l.idxOf x = j := by
  obtain ⟨hj, rfl⟩ := List.getElem?_eq_some_iff.1 h
  exact hnd.idxOf_getElem j hj

/-- Levels and coefficients of a sampled variable. -/
theorem sampledVariable_levels (h : ProcessedFrom env m p covariates) (hchoice : p.choices.choices ≠ [])
    (hobs : ∀ o ∈ p.observables, o.2 ≠ [])
    (hlags : ∀ d ∈ p.lags, Dict.keys d = p.choices.choices)
    (htypes : 2 ≤ p.nTypes → Dict.keys p.typeProb = List.range p.nTypes)
    (v : SampledVariable) (hv : v ∈ p.sampledVariables) :
    v.levels ≠ [] ∧ v.levels.length = v.betas.length := by
  unfold Processed.sampledVariables at hv
  rw [List.mem_append, List.mem_append, List.mem_append] at hv
  rcases hv with ((hv | hv) | hv) | hv
  · obtain ⟨o, ho, rfl⟩ := List.mem_map.1 hv
    exact ⟨fun h0 => hobs o ho (List.length_eq_zero_iff.1 (List.range_eq_nil.1 h0)), by simp⟩
  · obtain ⟨⟨c, e⟩, hce, rfl⟩ := List.mem_map.1 hv
    exact ⟨h.start_ne e (List.of_mem_zip hce).2, by simp [Dict.keys]⟩
  · obtain ⟨⟨d, i⟩, hdi, rfl⟩ := List.mem_map.1 hv
    rw [List.mem_reverse, List.mem_zipIdx_iff_getElem?] at hdi
    have hk := congrArg List.length (hlags d (List.mem_of_getElem? hdi))
    refine ⟨fun h0 => hchoice (List.length_eq_zero_iff.1 ?_), by simp⟩
    rw [← hk]
    simpa [Dict.keys] using List.range_eq_nil.1 h0
  · split at hv
    · next ht =>
      rw [List.mem_singleton] at hv
      subst hv
      have hk := congrArg List.length (htypes ht)
      simp only [Dict.keys, List.length_map, List.length_range] at hk
      refine ⟨fun h0 => ?_, by simp⟩
      have := List.range_eq_nil.1 h0
      omega
    · cases hv

theorem pandasDot_isSome (row : StateRow ℝ) (beta : List (Str × ℝ)) (h : ∀ item ∈ beta, (row item.1).isSome) :
    (pandasDot row beta).isSome := by
  unfold pandasDot
  generalize (0 : ℝ) = acc
  induction beta generalizing acc with
  | nil => rfl
  | cons x xs ih =>
    obtain ⟨v, hv⟩ := Option.isSome_iff_exists.1 (h x (by simp))
    rw [List.foldlM_cons, hv]
    simp only [Option.map_some, Option.bind_eq_bind, Option.bind_some]
    exact ih (fun item hi => h item (by simp [hi])) _

/-- The weights are defined and sum to one. -/
theorem characteristic_good (v : SampledVariable) (hlen : v.levels.length = v.betas.length) (hne : v.levels ≠ [])
    (fp : List CharRow) (df : Frame (List (Option ℝ))) (hdf : p.sampleFrame ev fp = some df)
    (hcov : ∀ i < fp.length, ∀ beta ∈ v.betas, ∀ item ∈ beta, (frameValue df i item.1).isSome) :
    (p.characteristic ev v).GoodFor fp := by
  have hz : ∀ i ∈ List.range fp.length, ∃ y, (v.betas.mapM (pandasDot (frameValue df i))).map softmax = some y := by
    intro i hi
    obtain ⟨z, hz, _⟩ := mapM_option_exists v.betas (pandasDot (frameValue df i)) (by
      intro beta hb
      exact Option.isSome_iff_exists.1
        (pandasDot_isSome _ _ fun item hit => hcov i (List.mem_range.1 hi) beta hb item hit))
    exact ⟨softmax z, by rw [hz]; rfl⟩
  obtain ⟨ps, hps, hpl, hpv⟩ := mapM_option_exists (List.range fp.length) _ hz
  have hprobs : (p.characteristic ev v).probs fp = ps := by
    unfold Processed.characteristic Processed.levelProbabilities
    dsimp only
    rw [hdf, Option.bind_eq_bind, Option.bind_some, hps, Option.getD_some]
  unfold Characteristic.GoodFor
  rw [hprobs]
  refine ⟨by rw [hpl]; simp, fun q hq => ?_⟩
  obtain ⟨i, hi⟩ := List.mem_iff_getElem?.1 hq
  have hil : i < (List.range fp.length).length := by rw [← hpl]; exact (List.getElem?_eq_some_iff.1 hi).1
  obtain ⟨y, hy1, hy2⟩ := hpv i _ (List.getElem?_eq_getElem hil)
  rw [hi] at hy1
  cases hy1
  obtain ⟨z, hz1, hz2⟩ := Option.map_eq_some_iff.1 hy2
  have hzl := mapM_eq_some_length _ _ _ hz1
  have hzne : z ≠ [] := by
    rintro rfl
    simp only [List.length_nil] at hzl
    exact hne (List.length_eq_zero_iff.1 (by omega))
  subst hz2
  refine ⟨?_, ?_, ?_, ?_⟩
  · show (softmax z).length = v.levels.length
    rw [hlen, ← hzl]; simp [softmax]
  · simpa [softmax] using hzne
  · rw [softmax_sum z hzne]; norm_num
  · rw [softmax_sum z hzne]; norm_num

theorem ProcessedFrom.measurement_length (h : ProcessedFrom env m p covariates) :
    p.measurement.2.length = p.choices.choices.length := by
  have hm := h.measurement
  unfold parseMeasurementErrors at hm
  split at hm
  · simp only [Option.bind_eq_bind, Option.bind_eq_some_iff] at hm
    obtain ⟨values, hv, hm⟩ := hm
    split at hm
    · next hle =>
      simp only [Option.pure_def, Option.some.injEq] at hm
      rw [← hm]
      have := mapM_eq_some_length _ _ _ hv
      simp only [List.length_append, List.length_replicate]
      omega
    · cases hm
  · simp only [Option.pure_def, Option.some.injEq] at hm
    rw [← hm]; simp

end

end Respy
