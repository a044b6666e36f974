import Verif.Props.InputFrame
import Verif.Props.ProcessSimulateExample
import Verif.Props.Types

/-!
# C104: The columns of data for a model
-/

namespace Respy

theorem Level.label_injective : Function.Injective Level.label := by
  intro a b h
  unfold Level.label at h
  cases ha : ofLex a <;> cases hb : ofLex b <;> rw [ha, hb] at h <;> simp at h
  · exact ofLex_inj.1 (by rw [ha, hb, h])
  · exact ofLex_inj.1 (by rw [ha, hb, h])

section
variable {env : ProcessEnv} {m : UserModel} {p : Processed} {covariates : Dict Str Str}

theorem parseLevels_nodup {maxFloat : ℝ} {keyword : Str} {params : List ((Str × Str) × ℝ)} {names : List Str}
    {parsed : Dict Str (Option (Dict Level (List (Str × ℝ))))}
    (h : parseLevels maxFloat keyword params names = .ok parsed) (kv : Str × Option (Dict Level (List (Str × ℝ))))
    (hkv : kv ∈ parsed) (l : LevelDict) (hl : kv.2 = some l) : (Dict.keys l).Nodup := by
  unfold parseLevels at h
  obtain ⟨nm, _, h10⟩ := mapM_except_mem _ _ _ h kv hkv
  cases hg : parseGroup maxFloat (levelParams keyword nm params) with
  | error e => rw [hg] at h10; cases h10
  | ok g =>
    rw [hg] at h10
    have h11 : (Except.ok (nm, g) : Except ParseError _) = .ok kv := h10
    simp only [Except.ok.injEq] at h11
    subst h11
    dsimp only at hl
    subst hl
    rw [parseGroup_keys _ _ _ hg, (List.perm_insertionSort _ _).nodup_iff]
    exact @List.nodup_dedup _ (_) _

theorem ProcessedFrom.exogenous_levels (h : ProcessedFrom env m p covariates) :
    ∀ o ∈ p.exogenous, (Dict.keys o.2).Nodup := by
  intro e he
  have hx := h.exogenous
  unfold parseExogenous at hx
  simp only [Option.bind_eq_bind, Option.bind_eq_some_iff] at hx
  obtain ⟨names, _, parsed, h2, h3⟩ := hx
  obtain ⟨kv, hkv, h4⟩ := mem_of_mapM_eq_some _ _ _ h3 e he
  obtain ⟨l, hl, rfl⟩ := Option.map_eq_some_iff.1 h4
  exact parseLevels_nodup (toOption_eq_some h2) kv hkv l hl

theorem ProcessedFrom.observables_levels (h : ProcessedFrom env m p covariates) :
    ∀ o ∈ p.observables, (Dict.keys o.2).Nodup := by
  intro o ho
  have hx := h.observables
  unfold parseObservables at hx
  simp only [Option.bind_eq_bind, Option.bind_eq_some_iff] at hx
  obtain ⟨names, _, parsed, h2, obs, h3, all, h4, h5⟩ := hx
  obtain ⟨name, _, h6⟩ := mem_of_mapM_eq_some _ _ _ h5 o ho
  obtain ⟨l, hl, rfl⟩ := Option.map_eq_some_iff.1 h6
  have hinv : ∀ k l, Dict.get? all k = some l → (Dict.keys l).Nodup := by
    refine foldlM_option_inv (fun d : Dict Str LevelDict => ∀ k l, Dict.get? d k = some l → (Dict.keys l).Nodup)
      _ _ _ _ h4 ?_ ?_
    · intro k l hk
      have hmem : (k, l) ∈ obs := Dict.mem_of_get? _ _ _ hk
      obtain ⟨kv, hkv, h7⟩ := mem_of_mapM_eq_some _ _ _ h3 _ hmem
      obtain ⟨l', hl', h8⟩ := Option.map_eq_some_iff.1 h7
      simp only [Prod.mk.injEq] at h8
      obtain ⟨rfl, rfl⟩ := h8
      exact parseLevels_nodup (toOption_eq_some h2) kv hkv _ hl'
    · intro d kv d' hkv hd hstep k l hk
      obtain ⟨x, hx1, hx2⟩ := Option.map_eq_some_iff.1 hstep
      subst hx2
      rw [Dict.get?_insert] at hk
      split at hk
      · cases hk
        unfold initialLevels at hx1
        split at hx1
        · simp only [Option.some.injEq] at hx1
          rw [← hx1]
          have := h.exogenous_levels kv hkv
          simpa [Dict.keys, List.map_map, Function.comp_def] using this
        · next o' ho' =>
          split at hx1
          · cases hx1
            exact hd _ _ ho'
          · cases hx1
      · exact hd _ _ hk
  exact hinv _ _ hl

/-- The observables are state variables. -/
theorem observable_dense (p : Processed) (c : Str) (hc : c ∈ Dict.keys p.observables) :
    c ∈ (denseColumns p.denseSpec).map String.toList := by
  refine List.mem_map.2 ⟨String.ofList c, ?_, by simp⟩
  unfold denseColumns
  obtain ⟨o, ho, rfl⟩ := List.mem_map.1 hc
  by_cases hx : String.ofList o.1 ∈ p.denseSpec.exogenous.map Prod.fst
  · exact List.mem_append_right _ hx
  · refine List.mem_append_left _ (List.mem_append_left _ (List.mem_filter.2 ⟨?_, by simpa using hx⟩))
    exact List.mem_map.2 ⟨(String.ofList o.1, o.2.length), List.mem_map.2 ⟨o, ho, rfl⟩, rfl⟩

/-- **C104** What is expected in the columns of data for a model: numbers for experiences and types, the labels of the
choices for lagged choices, and the labels of its levels for each observable. Labels are distinct, so that C33 and C104
apply if there are at most 256 choices and levels. -/
theorem C104_columns_of_model (env : ProcessEnv) (m : UserModel) (p : Processed) (h : processModel env m = some p)
    (hnames : p.stateColumns.Nodup) (hch : p.choices.choices.length ≤ 256)
    (hlev : ∀ o ∈ p.observables, o.2.length ≤ 256) :
    (∀ k ∈ p.columnKinds, k.2.Distinct) ∧
      (∀ (i : Nat) (c : Str), p.choices.wExp[i]? = some c →
        p.columnKinds[i]? = some ("exp_".toList ++ c, .number)) ∧
      (∀ i < p.lags.length, p.columnKinds[p.choices.wExp.length + i]? =
        some ("lagged_choice_".toList ++ codeText (i + 1), .labels (p.choices.choices.map Label.text))) ∧
      (∀ (i : Nat) (c : String), (denseColumns p.denseSpec)[i]? = some c → ∃ kind,
        p.columnKinds[p.choices.wExp.length + p.lags.length + i]? = some (c.toList, kind) ∧
        (∀ o ∈ p.observables, o.1 = c.toList → kind = .labels ((Dict.keys o.2).map Level.label)) ∧
        (c.toList ∉ Dict.keys p.observables → kind = .number)) := by
  obtain ⟨covs, hfrom⟩ := processModel_from env m p h
  set lagNames := (List.range p.lags.length).map fun i => "lagged_choice_".toList ++ codeText (i + 1) with hlag
  have hsc : p.stateColumns = (p.choices.wExp.map fun c => "exp_".toList ++ c) ++ lagNames ++
      (denseColumns p.denseSpec).map String.toList := rfl
  have hkind : ∀ (j : Nat) (c : Str), p.stateColumns[j]? = some c → p.columnKinds[j]? = some
      (c, if c ∈ lagNames then .labels (p.choices.choices.map Label.text)
        else match Dict.get? p.observables c with
        | some levels => .labels ((Dict.keys levels).map Level.label)
        | none => .number) := by
    intro j c hj
    unfold Processed.columnKinds
    rw [List.getElem?_map, hj, hlag]
    rfl
  rw [hsc, List.nodup_append, List.nodup_append] at hnames
  obtain ⟨⟨_, _, hdisj1⟩, _, hdisj2⟩ := hnames
  refine ⟨?_, ?_, ?_, ?_⟩
  · intro k hk
    obtain ⟨c, _, rfl⟩ := List.mem_map.1 hk
    dsimp only
    split
    · exact ⟨hfrom.nodup.map fun a b e => by simpa using e, by simpa using hch⟩
    · split
      · rename_i levels hget
        have hmem := Dict.mem_of_get? _ _ _ hget
        exact ⟨(hfrom.observables_levels _ hmem).map Level.label_injective, by
          simpa [Dict.keys] using hlev _ hmem⟩
      · exact True.intro
  · intro i c hi
    have hget : p.stateColumns[i]? = some ("exp_".toList ++ c) := by
      rw [hsc, List.append_assoc, List.getElem?_append_left (by simpa using (List.getElem?_eq_some_iff.1 hi).1),
        List.getElem?_map, hi]
      rfl
    have hmem : "exp_".toList ++ c ∈ p.choices.wExp.map fun c => "exp_".toList ++ c :=
      List.mem_map.2 ⟨c, List.mem_of_getElem? hi, rfl⟩
    rw [hkind i _ hget, if_neg fun hin => hdisj1 _ hmem _ hin rfl]
    cases hobs : Dict.get? p.observables ("exp_".toList ++ c) with
    | none => rfl
    | some levels =>
      exact absurd rfl (hdisj2 _ (List.mem_append_left _ hmem) _ (observable_dense p _
        (List.mem_map.2 ⟨_, Dict.mem_of_get? _ _ _ hobs, rfl⟩)))
  · intro i hi
    have hget : lagNames[i]? = some ("lagged_choice_".toList ++ codeText (i + 1)) := by
      rw [hlag, List.getElem?_map, List.getElem?_range hi]
      rfl
    have hget' : p.stateColumns[p.choices.wExp.length + i]? =
        some ("lagged_choice_".toList ++ codeText (i + 1)) := by
      rw [hsc, List.append_assoc, List.getElem?_append_right (by simp), List.length_map, Nat.add_sub_cancel_left,
        List.getElem?_append_left (by simpa [hlag] using hi), hget]
    rw [hkind _ _ hget', if_pos (List.mem_of_getElem? hget)]
  · intro i c hi
    have hget : p.stateColumns[p.choices.wExp.length + p.lags.length + i]? = some c.toList := by
      have hl : ((p.choices.wExp.map fun c => "exp_".toList ++ c) ++ lagNames).length =
          p.choices.wExp.length + p.lags.length := by simp [hlag]
      rw [hsc, List.getElem?_append_right (by omega), hl, Nat.add_sub_cancel_left, List.getElem?_map, hi]
      rfl
    have hno : c.toList ∉ lagNames := fun hin =>
      hdisj2 _ (List.mem_append_right _ hin) _ (List.mem_map.2 ⟨c, List.mem_of_getElem? hi, rfl⟩) rfl
    refine ⟨_, hkind _ _ hget, ?_, ?_⟩
    · intro o ho e
      rw [if_neg hno, ← e, Dict.get?_of_mem _ hfrom.observables_nodup _ _ ho]
    · intro hn
      rw [if_neg hno]
      cases hobs : Dict.get? p.observables c.toList with
      | none => rfl
      | some levels => exact absurd (List.mem_map.2 ⟨_, Dict.mem_of_get? _ _ _ hobs, rfl⟩) hn

end

/-- The hypotheses of `C104_columns_of_model` are met by the model of C82 with an observable, an experience, a lagged
choice and two types. -/
theorem exampleUser_columns : (processModel exampleEnv exampleUser).any (fun p => decide p.stateColumns.Nodup &&
    decide (p.choices.choices.length ≤ 256) && (p.observables.all fun o => decide (o.2.length ≤ 256)) &&
    decide (p.stateColumns = ["exp_b".toList, "lagged_choice_1".toList, "iq".toList, "type".toList]) &&
    decide (p.observables.map (fun o => (o.1, (Dict.keys o.2).map Level.label)) =
      [("iq".toList, [.int 0, .int 1])])) = true := by decide +kernel

end Respy
