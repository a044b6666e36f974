import Verif.Lemmas.InitialTypes
import Verif.Props.InitialAccepted
import Verif.Props.ProcessEstimate

/-!
# Types in simulated samples and in the likelihood

C112: types are sampled with the probabilities by which the likelihood weights them.
-/

namespace Respy

noncomputable section
variable {env : ProcessEnv} {m : UserModel} {p : Processed} {ev : FormulaEval} {core : List CoreState}

/-- The columns of a state without exogenous processes: the type is the last one. -/
theorem stateColumns_types (h2 : 2 ≤ p.nTypes) (hexo : p.exogenous = []) {s : CoreState} (hsh : p.Shaped s)
    {obs : List Nat} (hobs : obs.length = p.observables.length) :
    p.stateColumns[(rowOfState s obs).length]? = some "type".toList ∧
      p.stateColumns.length = (rowOfState s obs).length + 1 := by
  have hsc : p.stateColumns = ((p.choices.wExp.map fun c => "exp_".toList ++ c) ++
      ((List.range p.lags.length).map fun i => "lagged_choice_".toList ++ codeText (i + 1)) ++
      Dict.keys p.observables) ++ ["type".toList] := by
    rw [List.append_assoc]
    have := denseColumns_types p hexo
    rw [if_pos h2] at this
    rw [← this]; rfl
  have hl : (rowOfState s obs).length = ((p.choices.wExp.map fun c => "exp_".toList ++ c) ++
      ((List.range p.lags.length).map fun i => "lagged_choice_".toList ++ codeText (i + 1)) ++
      Dict.keys p.observables).length := by
    simp [rowOfState, Dict.keys, hsh.exp, hsh.lags, hobs]
  rw [hsc, hl]
  exact ⟨by rw [List.getElem?_append_right (le_refl _)]; simp, List.length_append⟩

/-- No characteristic has the name of the period. -/
theorem period_notin_stateColumns (hnames : ∀ x ∈ denseColumns p.denseSpec, x.toList ∉ p.columns false) :
    "period".toList ∉ p.stateColumns := by
  intro hmem
  unfold Processed.stateColumns at hmem
  rw [List.mem_append, List.mem_append] at hmem
  rcases hmem with (h | h) | h
  · obtain ⟨c, _, he⟩ := List.mem_map.1 h
    have := congrArg List.head? he
    simp at this
  · obtain ⟨c, _, he⟩ := List.mem_map.1 h
    have := congrArg List.head? he
    simp at this
  · obtain ⟨x, hx, he⟩ := List.mem_map.1 h
    refine hnames x hx ?_
    rw [he]
    unfold Processed.columns coreColumns
    simp

/-- **C112.** An individual in a simulated sample whose type is not observed is given a type with the probabilities by which
the likelihood weights the types of an individual who starts in the same state with the same observables. All passes of
`identify_necessary_covariates` are finished after `fuel` many. -/
theorem C112_type_probabilities_of_likelihood (hp : processModel env m = some p)
    (hc : (Dict.keys m.covariates).Nodup) (hf : p.FormulasSound ev) (hs : p.Supported m ev core)
    (hcore : createCore (p.buildSpec ev).core = some core) (hexo : p.exogenous = []) (hts : p.TypesSound)
    (hnt : 2 ≤ p.nTypes)
    (hprob : ∀ q ∈ m.params, (typeIndex q.1.1).isSome → q.1.2 ≠ "probability".toList ∧
      ∀ i, typeIndex q.1.1 = some i → i < p.nTypes)
    {input : List CharRow} (hsam : p.Samplable ev input)
    (e : EstimateEnv) (ho : ∀ n l, (e.order n l).Perm l) (sp : Option (SimSpace ℝ))
    (hdata : ∀ r ∈ e.data, r.state.core ∈ core) :
    ∃ fuel, ∀ fuel', fuel ≤ fuel' → ∀ r ∈ e.data, r.state.core.period = 0 →
      r.state.dense.length = p.observables.length →
      (∀ t < p.nTypes, ∃ d, (p.buildSpec ev).HasIndex (r.state.dense ++ [t]) d) →
      ∀ (j : Nat) (row : CharRow), input[j]? = some row → row[(p.typeLaw ev).column]? = some none →
        (p.typeLaw ev).weights j (rowOfState r.state.core r.state.dense ++ [none]) = (List.range p.nTypes).map
          (typeWeight p.nTypes (typeScore (p.estimation ev { e with fuel := fuel' } sp) p.likelihoodParams r)) := by
  obtain ⟨covs, h⟩ := processModel_from env m p hp
  have hlen := denseColumns_static p hexo
  have hstatic : p.nStatic = p.observables.length := by
    unfold Processed.nStatic Processed.denseSpec
    rw [hexo]
    simp
  obtain ⟨fuel, hfuel⟩ := C84_type_scores hp hc hf hs hcore hlen hts hnt hprob e ho sp hdata
  refine ⟨fuel, fun fuel' hle r hr hr0 hobs hind j row' hjrow hmissing => ?_⟩
  have hj := (List.getElem?_eq_some_iff.1 hjrow).1
  have hsh := hs.shaped h hcore _ (hdata r hr)
  obtain ⟨htype, hlast⟩ := stateColumns_types hnt hexo hsh hobs
  have hper := period_notin_stateColumns hs.names
  have hlenp : p.typeProb.length = p.nTypes := by
    have := congrArg List.length hts.keys
    simpa [Dict.keys] using this
  -- the index of each type
  have hscore : ∀ t < p.nTypes, ((p.typeProb.map Prod.snd).map fun beta => (beta.map fun item =>
      item.2 * (p.initialValue ev j (rowOfState r.state.core r.state.dense ++ [none]) item.1).getD 0).sum)[t]? =
        some (typeScore (p.estimation ev { e with fuel := fuel' } sp) p.likelihoodParams r t) := by
    intro t ht
    obtain ⟨d, hd⟩ := hind t ht
    have hdense : p.denseOf r t = r.state.dense ++ [t] := by
      unfold Processed.denseOf
      rw [if_pos hnt, hstatic, ← hobs, List.take_length, List.drop_length]
    obtain ⟨g1, g2⟩ := hfuel fuel' hle r hr t ht d (by rw [hdense]; exact hd)
    obtain ⟨beta, hb1, hb2⟩ := typeProb_position _ _ hts.keys t ht
    have hb3 : (p.typeProb.map Prod.snd)[t]? = some beta := by
      have hlt : t < (p.typeProb.map Prod.snd).length := by rw [List.length_map, hlenp]; exact ht
      rw [List.getD_eq_getElem?_getD, List.getElem?_eq_getElem hlt] at hb2
      rw [List.getElem?_eq_getElem hlt]
      exact congrArg some hb2
    rw [List.getElem?_map, hb3, Option.map_some, g2, Option.some.injEq]
    by_cases hown : ∃ q ∈ m.params, typeIndex q.1.1 = some t
    · have hb4 := C55_own_coefficients env.maxFloat m.params _ _ h.types hnt (fun q hq hs => (hprob q hq hs).1) t hown
      rw [hb1] at hb4
      cases hb4
      rw [List.map_map]
      refine congrArg List.sum (List.map_congr_left fun q hq => ?_)
      obtain ⟨hq1, hq2⟩ := List.mem_filter.1 hq
      obtain ⟨w, hw⟩ := Option.isSome_iff_exists.1 (g1 q hq1 (of_decide_eq_true hq2))
      -- the covariate is known before the type is sampled
      obtain ⟨v, hv⟩ : ∃ v, ColumnValue ev.value (fun _ => true) false
          (p.initialFrame j (rowOfState r.state.core r.state.dense ++ [none])) p.groups.all q.1.2 v := by
        obtain ⟨pre, hpre⟩ : ∃ pre, p.sampledVariables =
            pre ++ [⟨"type".toList, List.range p.typeProb.length, p.typeProb.map Prod.snd⟩] := by
          unfold Processed.sampledVariables
          rw [if_pos hnt]
          exact ⟨_, rfl⟩
        have hidx : ∀ x ∈ p.stateColumns, p.stateColumns.idxOf x = (rowOfState r.state.core r.state.dense).length →
            x = "type".toList := by
          intro x hx he
          have h1 := List.getElem?_idxOf hx
          rw [he, htype] at h1
          exact (Option.some.inj h1).symm
        obtain ⟨df, hdf, hcov⟩ := hsam.covariates pre _ [] hpre
          (List.replicate input.length (rowOfState r.state.core r.state.dense ++ [none])) (by simp)
          (fun row hrow => by rw [List.eq_of_mem_replicate hrow, hlast]; simp)
          (fun x hx hor c hcm row hrow => by
            rw [List.mem_singleton] at hcm
            subst hcm
            rw [List.eq_of_mem_replicate hrow]
            intro hnone
            by_cases hlt : p.stateColumns.idxOf x < (rowOfState r.state.core r.state.dense).length
            · rw [List.getElem?_append_left hlt] at hnone
              obtain ⟨n, hn⟩ := rowOfState_some hsh _ hnone
              cases hn
            · have hxl := List.idxOf_lt_length_iff.2 hx
              have hxt : x = "type".toList := hidx x hx (by omega)
              subst hxt
              rcases hor with hk | hk
              · exact hk _ (List.mem_singleton_self _) row' (List.mem_of_getElem? hjrow) hmissing
              · have h1 := (typeLaw_column (ev := ev) hnt hexo hsam.names).2
                obtain ⟨u, hu, hue⟩ := List.mem_map.1 hk
                apply h1
                refine List.mem_map.2 ⟨p.initialLaw ev u, List.mem_map.2 ⟨u, ?_, rfl⟩, ?_⟩
                · rw [hpre, List.dropLast_concat]; exact hu
                · show p.stateColumns.idxOf u.name = p.stateColumns.idxOf "type".toList
                  rw [hue])
        have hjr : j < (List.replicate input.length (rowOfState r.state.core r.state.dense ++ [none])).length := by
          simpa using hj
        obtain ⟨y, hy⟩ := Option.isSome_iff_exists.1 (hcov j hjr _ (List.mem_of_getElem? hb3) (q.1.2, q.2)
          (List.mem_map.2 ⟨q, hq, rfl⟩))
        exact ⟨y, sampleFrame_values hf hsam.names hdf (by rw [List.getElem?_replicate, if_pos hj]) hy⟩
      rw [Function.comp_apply, initialValue_eq hf (h.groupFacts hc) hts.identifier hv, hw]
      cases hgr : denseGrid p.denseSpec with
      | none => exact absurd hnt (denseGrid_none _ hgr).2
      | some grid =>
        unfold BuildSpec.HasIndex at hd
        have hgr' : (p.buildSpec ev).grid = some grid := hgr
        rw [hgr'] at hd
        obtain ⟨i, rfl, hi⟩ := hd
        have hdi : some i ∈ (p.buildSpec ev).denseIndices := by
          unfold BuildSpec.denseIndices
          rw [hgr']
          exact List.mem_map.2 ⟨i, List.mem_range.2 (List.getElem?_eq_some_iff.1 hi).1, rfl⟩
        have hw' := (covariates_value h hc hf hs.names (some i) hdi _ hsh (hs.computable _ hdi _ (hdata r hr)) _ w).1 hw
        rw [initialFrame_agree hf (h.groupFacts hc) hts.identifier hsam.names hper hsh hr0 hgr hi htype hlast hv hw']
    · push Not at hown
      have hb4 := (C55_entries_partial env.maxFloat m.params _ _ h.types hnt
        (fun q hq i hi => (hprob q hq (by rw [hi]; rfl)).2 i hi)).2 t ht hown
      rw [hb1] at hb4
      cases hb4
      rw [List.filter_eq_nil_iff.2 (fun q hq => by simpa using hown q hq)]
      simp
  have hall : ((p.typeProb.map Prod.snd).map fun beta => (beta.map fun item =>
      item.2 * (p.initialValue ev j (rowOfState r.state.core r.state.dense ++ [none]) item.1).getD 0).sum) =
        (List.range p.nTypes).map
          (typeScore (p.estimation ev { e with fuel := fuel' } sp) p.likelihoodParams r) := by
    refine List.ext_getElem? fun t => ?_
    by_cases ht : t < p.nTypes
    · rw [hscore t ht, List.getElem?_map, List.getElem?_range ht, Option.map_some]
    · rw [List.getElem?_eq_none (by simp [hlenp]; omega), List.getElem?_eq_none (by simp; omega)]
  show logit _ = _
  rw [hall, logit, List.map_map, List.map_map]
  refine List.map_congr_left fun t _ => ?_
  rw [Function.comp_apply, typeWeight]
  congr 1

end

end Respy
