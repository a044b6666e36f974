import Verif.Lemmas.StateCovariates
import Verif.Props.NecessaryCovariates
import Verif.Props.ProcessModel

/-! Helper lemmas: the covariates of type probabilities. -/

namespace Respy

theorem necessaryLoop_fuel (definitions : Dict Str CovariateDef) (order : Nat → List Str → List Str) :
    ∀ (fuel pass : Nat) (st : List Str × List Str) (r : List Str),
      necessaryLoop definitions order fuel pass st = .ok r → ∀ fuel', fuel ≤ fuel' →
        necessaryLoop definitions order fuel' pass st = .ok r := by
  intro fuel
  induction fuel with
  | zero => intro pass st r h; cases h
  | succ fuel ih =>
    intro pass st r h fuel' hle
    obtain ⟨fuel'', rfl⟩ : ∃ k, fuel' = k + 1 := ⟨fuel' - 1, by omega⟩
    obtain ⟨a, b⟩ := st
    rw [necessaryLoop] at h ⊢
    by_cases hb : b = []
    · rw [if_pos hb] at h ⊢; exact h
    · rw [if_neg hb] at h ⊢
      cases hf : (order pass b).foldlM (necessaryStep definitions) (a, []) with
      | error e => rw [hf] at h; cases h
      | ok st' =>
        rw [hf] at h
        dsimp only at h ⊢
        exact ih _ _ _ h _ (by omega)

theorem identifyNecessary_fuel (definitions : Dict Str CovariateDef) (order : Nat → List Str → List Str)
    (fuel : Nat) (dependents : List Str) (r : List (Str × Option CovariateDef))
    (h : identifyNecessary definitions order fuel dependents = .ok r) (fuel' : Nat) (hle : fuel ≤ fuel') :
    identifyNecessary definitions order fuel' dependents = .ok r := by
  unfold identifyNecessary at h ⊢
  cases hl : necessaryLoop definitions order fuel 0 (dependents.dedup, dependents.dedup) with
  | error e => rw [hl] at h; cases h
  | ok x =>
    rw [hl] at h
    rw [necessaryLoop_fuel _ _ _ _ _ _ hl _ hle]
    exact h

/-- Necessary covariates as definitions. -/
theorem mapM_definitions : ∀ (r : List (Str × Option CovariateDef)), (∀ k d, (k, d) ∈ r → d.isSome = true) →
    ∃ defs : List (Str × CovariateDef), r.mapM (fun kd => kd.2.map fun d => (kd.1, d)) = some defs ∧
      defs.map Prod.fst = r.map Prod.fst ∧ ∀ k d, (k, d) ∈ defs → (k, some d) ∈ r := by
  intro r
  induction r with
  | nil => intro _; exact ⟨[], rfl, rfl, fun _ _ h => by cases h⟩
  | cons x r ih =>
    intro h
    obtain ⟨k, d⟩ := x
    obtain ⟨defs, h1, h2, h3⟩ := ih fun k d hkd => h k d (List.mem_cons_of_mem _ hkd)
    obtain ⟨d', rfl⟩ := Option.isSome_iff_exists.1 (h k d (by simp))
    refine ⟨(k, d') :: defs, ?_, by simp [h2], ?_⟩
    · rw [List.mapM_cons, h1]; rfl
    · intro k' d'' hm
      rcases List.mem_cons.1 hm with h | h
      · cases h; simp
      · exact List.mem_cons_of_mem _ (h3 _ _ h)

theorem get?_zip_replace (static rest : List Str) (ty : Str) (hty : ty ∉ static) (pre post : List ℝ) (hl : pre.length = static.length)
    (a b : ℝ) :
    Dict.get? ((static ++ ty :: rest).zip (pre ++ b :: post)) ty = some b ∧
    ∀ k, k ≠ ty → Dict.get? ((static ++ ty :: rest).zip (pre ++ a :: post)) k =
      Dict.get? ((static ++ ty :: rest).zip (pre ++ b :: post)) k := by
  rw [List.zip_append hl.symm, List.zip_append hl.symm]
  have hn : ty ∉ Dict.keys (static.zip pre) := fun h => hty ((zip_keys_sublist _ _).subset h)
  constructor
  · rw [get?_append_of_not_mem _ _ _ hn]
    simp [Dict.get?]
  · intro k hk
    by_cases hmem : k ∈ Dict.keys (static.zip pre)
    · obtain ⟨v, hv⟩ := (get?_isSome_iff _ k).2 hmem
      rw [get?_append_of_mem _ _ _ _ hv, get?_append_of_mem _ _ _ _ hv]
    · rw [get?_append_of_not_mem _ _ _ hmem, get?_append_of_not_mem _ _ _ hmem]
      simp [Dict.get?, Ne.symm hk]

theorem get?_index_period (a b : ℝ) :
    Dict.get? [("identifier".toList, a), ("period".toList, b)] "period".toList = some b := by
  have h1 : ("identifier".toList : Str) ≠ "period".toList := by decide
  rw [Dict.get?, if_neg h1, Dict.get?, if_pos rfl]

theorem get?_index_other (a b : ℝ) (k : Str) (hk : k ≠ "period".toList) :
    Dict.get? [("identifier".toList, a), ("period".toList, b)] k = Dict.get? [("identifier".toList, a)] k := by
  rw [Dict.get?, Dict.get?, Dict.get?, if_neg (Ne.symm hk)]
  rfl

section
variable {env : ProcessEnv} {m : UserModel} {p : Processed} {ev : FormulaEval} {core : List CoreState}
  {covariates : Dict Str Str}

theorem denseColumns_split (p : Processed) (hnt : 2 ≤ p.nTypes) :
    ∃ static rest : List Str, (denseColumns p.denseSpec).map String.toList = static ++ "type".toList :: rest ∧
      static.length = p.nStatic := by
  have hnt' : 2 ≤ p.denseSpec.nTypes := hnt
  unfold denseColumns
  rw [if_pos hnt', List.map_append, List.map_append]
  exact ⟨_, _, by rw [List.append_assoc]; rfl, by rw [List.length_map]; rfl⟩

theorem period_notin_tail (s : CoreState) : "period".toList ∉ Dict.keys (p.coreRow s).tail := by
  unfold Processed.coreRow
  intro hmem
  obtain ⟨kv, hkv, he⟩ := List.mem_map.1 hmem
  rw [List.cons_append, List.tail_cons, List.mem_append] at hkv
  rcases hkv with h | h
  · obtain ⟨ce, _, rfl⟩ := List.mem_map.1 h
    have := congrArg List.head? he
    simp at this
  · obtain ⟨li, _, h2⟩ := List.mem_filterMap.1 h
    obtain ⟨l, _, rfl⟩ := Option.map_eq_some_iff.1 h2
    have := congrArg List.head? he
    simp at this

/-- The covariates in the index of a type are the ones of the state with this type. -/
theorem typeFrame_value (h : ProcessedFrom env m p covariates) (hc : (Dict.keys m.covariates).Nodup)
    (hf : p.FormulasSound ev) (hs : p.Supported m ev core) (hcore : createCore (p.buildSpec ev).core = some core)
    (hlen : ∀ grid, denseGrid p.denseSpec = some grid → ∀ point ∈ grid,
      (denseColumns p.denseSpec).length ≤ point.length)
    (hid : "identifier".toList ∉ Dict.keys p.groups.all)
    (hconst : ∀ c d, (c, d) ∈ p.groups.all → d.dependsOn = [] →
      c ∉ denseBaseColumns (Dict.keys p.observables) p.nTypes) (hnt : 2 ≤ p.nTypes)
    (r : EstimationRow) (hmem : r.state.core ∈ core) (t : Nat) (grid : List (List Nat)) (i : Nat)
    (hgrid : denseGrid p.denseSpec = some grid)
    (hpoint : grid[i]? = some (r.state.dense.take p.nStatic ++ t :: r.state.dense.drop p.nStatic))
    (names : List Str) (bound : Nat) (hg : Graded p.groups.all names bound)
    (hnames : ∀ x ∈ names, x ∈ p.columns true)
    (order : Nat → List Str → List Str) (ho : ∀ n l, (order n l).Perm l) :
    ∃ df1, p.typeCovariates ev r = some df1 ∧ ∃ fuel found, (∀ fuel', fuel ≤ fuel' →
        identifyNecessary p.groups.all order fuel' names = .ok found) ∧
      ∃ defs, found.mapM (fun kd => kd.2.map fun d => (kd.1, d)) = some defs ∧
        ∃ df, computeCovariates ev.value (fun _ => true) false true
            ⟨df1.columns.insert "type".toList (t : ℝ), df1.index⟩ defs = .ok df ∧
          ∀ x ∈ names, x ≠ "period".toList → x ≠ "identifier".toList →
            Dict.get? df.columns x = p.covariates ev (some i) r.state.core x ∧
              (p.covariates ev (some i) r.state.core x).isSome := by
  have G := h.groupFacts hc
  have hsh := hs.shaped h hcore _ hmem
  have hd : some i ∈ (p.buildSpec ev).denseIndices := by
    unfold BuildSpec.denseIndices
    have hg' : (p.buildSpec ev).grid = some grid := hgrid
    rw [hg']
    exact List.mem_map.2 ⟨i, List.mem_range.2 (List.getElem?_eq_some_iff.1 hpoint).1, rfl⟩
  have hcomp := hs.computable _ hd _ hmem
  have hvalue := covariates_value h hc hf hs.names (some i) hd r.state.core hsh hcomp
  have hsome : ∀ x ∈ p.columns true, (p.covariates ev (some i) r.state.core x).isSome := by
    intro x hx
    refine hs.column h hcore hlen _ hd _ hmem x ?_
    rw [hgrid]; exact hx
  obtain ⟨static, rest, hcols, hstatic⟩ := denseColumns_split p hnt
  have htynotin : "type".toList ∉ static := by
    have := hf.dense
    rw [hcols, List.nodup_append] at this
    intro hx
    exact this.2.2 _ hx _ (by simp) rfl
  have htydense : "type".toList ∈ (denseColumns p.denseSpec).map String.toList := by rw [hcols]; simp
  have htycols : "type".toList ∉ p.columns false := by
    obtain ⟨y, hy, he⟩ := List.mem_map.1 htydense
    rw [← he]; exact hs.names y hy
  have htyall : "type".toList ∉ Dict.keys p.groups.all := hf.names _ (List.mem_append_right _ htydense)
  have hperall : "period".toList ∉ Dict.keys p.groups.all := by
    refine hf.names _ (List.mem_append_left _ ?_)
    unfold coreColumns
    simp
  have htytail : "type".toList ∉ Dict.keys (p.coreRow r.state.core).tail := by
    intro hx
    apply htycols
    unfold Processed.columns
    simp only [Bool.false_eq_true, if_false, List.append_nil, List.mem_append]
    refine Or.inl ((coreRow_keys p r.state.core hsh.exp hsh.lags hsh.lagged _).1 ?_)
    obtain ⟨kv, hkv, he⟩ := List.mem_map.1 hx
    exact List.mem_map.2 ⟨kv, List.mem_of_mem_tail hkv, he⟩
  have hprelen : (r.state.dense.take p.nStatic).length = p.nStatic := by
    have h1 := hlen grid hgrid _ (List.mem_of_getElem? hpoint)
    have h2 : (denseColumns p.denseSpec).length = static.length + (rest.length + 1) := by
      have := congrArg List.length hcols
      simpa using this
    rw [List.length_append, List.length_cons, List.length_drop, List.length_take] at h1
    rw [List.length_take]
    omega
  -- the frames
  have hB : ∀ k, Dict.get? (p.stateVariables (some i) r.state.core) k =
      if k = "period".toList then some (r.state.core.period : ℝ) else
        Dict.get? ((p.coreRow r.state.core).tail ++ ((denseColumns p.denseSpec).map String.toList).zip
          ((r.state.dense.take p.nStatic ++ t :: r.state.dense.drop p.nStatic).map fun (n : Nat) => (n : ℝ))) k := by
    intro k
    unfold Processed.stateVariables
    rw [hgrid]
    simp only [Option.bind_some, hpoint, Option.getD_some]
    have hrow : p.coreRow r.state.core = ("period".toList, (r.state.core.period : ℝ)) :: (p.coreRow r.state.core).tail := by
      unfold Processed.coreRow
      rfl
    conv_lhs => rw [hrow]
    rw [List.cons_append, Dict.get?]
    by_cases hk : "period".toList = k
    · rw [if_pos hk, if_pos hk.symm]
    · rw [if_neg hk, if_neg (Ne.symm hk)]
  obtain ⟨hty1, hty2⟩ := get?_zip_replace static rest "type".toList htynotin
    ((r.state.dense.take p.nStatic).map fun (n : Nat) => (n : ℝ))
    ((r.state.dense.drop p.nStatic).map fun (n : Nat) => (n : ℝ)) (by rw [List.length_map, hprelen, hstatic]) (0 : ℝ) (t : ℝ)
  have hperty : ("type".toList : Str) ≠ "period".toList := by decide
  have hBtype : Dict.get? (p.stateVariables (some i) r.state.core) "type".toList = some (t : ℝ) := by
    rw [hB, if_neg hperty, get?_append_of_not_mem _ _ _ htytail, hcols, List.map_append, List.map_cons]
    exact hty1
  let B' : Frame ℝ := ⟨p.stateVariables (some i) r.state.core, [("identifier".toList, (r.id : ℝ))]⟩
  let df0 := p.observationFrame (r.withType p.nStatic 0)
  have hperdense : "period".toList ∉ (denseColumns p.denseSpec).map String.toList := by
    intro hx
    obtain ⟨y, hy, he⟩ := List.mem_map.1 hx
    refine hs.names y hy ?_
    rw [he]
    unfold Processed.columns coreColumns
    simp
  have hagree : ∀ k, k ≠ "type".toList → df0.lookup k = B'.lookup k := by
    intro k hk
    have hcol : Dict.get? df0.columns k = Dict.get? ((p.coreRow r.state.core).tail ++ ((denseColumns p.denseSpec).map String.toList).zip
          ((r.state.dense.take p.nStatic ++ t :: r.state.dense.drop p.nStatic).map fun (n : Nat) => (n : ℝ))) k := by
      show Dict.get? ((p.coreRow r.state.core).tail ++ ((denseColumns p.denseSpec).map String.toList).zip
          ((r.state.dense.take p.nStatic ++ 0 :: r.state.dense.drop p.nStatic).map fun (n : Nat) => (n : ℝ))) k = _
      by_cases hkt : k ∈ Dict.keys (p.coreRow r.state.core).tail
      · obtain ⟨v, hv⟩ := (get?_isSome_iff _ k).2 hkt
        rw [get?_append_of_mem _ _ _ _ hv, get?_append_of_mem _ _ _ _ hv]
      · rw [get?_append_of_not_mem _ _ _ hkt, get?_append_of_not_mem _ _ _ hkt, hcols, List.map_append, List.map_cons,
          List.map_append, List.map_cons]
        have := hty2 k hk
        simpa using this
    unfold Frame.lookup
    rw [hcol]
    show Option.or _ (Dict.get? [("identifier".toList, (r.id : ℝ)), ("period".toList, (r.state.core.period : ℝ))] k) =
      Option.or (Dict.get? (p.stateVariables (some i) r.state.core) k) (Dict.get? [("identifier".toList, (r.id : ℝ))] k)
    rw [hB]
    by_cases hkp : k = "period".toList
    · subst hkp
      rw [if_pos rfl]
      have : Dict.get? ((p.coreRow r.state.core).tail ++ ((denseColumns p.denseSpec).map String.toList).zip
          ((r.state.dense.take p.nStatic ++ t :: r.state.dense.drop p.nStatic).map fun (n : Nat) => (n : ℝ)))
          "period".toList = none := by
        rw [get?_append_of_not_mem _ _ _ (period_notin_tail r.state.core), Dict.get?_eq_none_iff]
        intro hx
        exact hperdense ((zip_keys_sublist _ _).subset hx)
      rw [this, get?_index_period]
      rfl
    · rw [if_neg hkp, get?_index_other _ _ _ hkp]
  have hBlookup : ∀ k v, Dict.get? (p.stateVariables (some i) r.state.core) k = some v → B'.lookup k = some v := by
    intro k v hk
    show Option.or _ _ = _
    rw [hk]; rfl
  have hBnone : ∀ cd ∈ p.groups.all, B'.columns.get? cd.1 = none := fun cd hcd =>
    stateVariables_covariate hf (some i) _ hsh _ (List.mem_map.2 ⟨_, hcd, rfl⟩)
  have hBidx : ∀ c ∈ Dict.keys p.groups.all, B'.index.get? c = none := by
    intro c hcd
    show Dict.get? [("identifier".toList, (r.id : ℝ))] c = none
    rw [Dict.get?_eq_none_iff]
    intro hx
    simp only [Dict.keys, List.map_cons, List.map_nil, List.mem_singleton] at hx
    subst hx
    exact hid hcd
  have hidx0 : ∀ c ∈ Dict.keys p.groups.all, df0.index.get? c = none := by
    intro c hcd
    show Dict.get? [("identifier".toList, (r.id : ℝ)), ("period".toList, (r.state.core.period : ℝ))] c = none
    rw [Dict.get?_eq_none_iff]
    intro hx
    simp only [Dict.keys, List.map_cons, List.map_nil, List.mem_cons, List.not_mem_nil, or_false] at hx
    rcases hx with rfl | rfl
    · exact hid hcd
    · exact hperall hcd
  have hcorekeys : ∀ c ∈ Dict.keys p.groups.core, c ∈ Dict.keys p.groups.all := by
    intro c hmc
    obtain ⟨cd, hcd, rfl⟩ := List.mem_map.1 hmc
    exact List.mem_map.2 ⟨_, G.core_sub _ hcd, rfl⟩
  have hca : ∀ c d, (c, d) ∈ p.groups.core → Accurate ev.value d := fun c d hcd => hf.accurate c d (G.core_sub _ hcd)
  obtain ⟨df1, e1, e2, _, _, e5, _⟩ := C53_values_partial ev.value (fun _ => true) false df0 p.groups.core G.core_nodup
    (fun c hcd => hidx0 c (hcorekeys c hcd)) hca
  have hself := (C68_self_contained _ (h.formula_keys hc) _ _ (separateCovariates_base _ _ _ _ h.groups) _ h.groups).1
  have hcoreval : ∀ k v, ColumnValue ev.value (fun _ => true) false df0 p.groups.core k v → k ≠ "type".toList →
      ColumnValue ev.value (fun _ => true) false B' p.groups.all k v := by
    intro k v hk
    induction hk with
    | given k v hk => intro hne; exact .given k v (by rw [← hagree k hne]; exact hk)
    | computed c d env' v _ hm hex _ hv ih =>
      intro _
      refine .computed c d env' v (hBnone _ (G.core_sub _ hm)) (G.core_sub _ hm) hex (fun x hx w hw => ih x hx w hw ?_) hv
      rintro rfl
      rcases hself c d hm _ hx with h1 | h1
      · exact htycols (by
          unfold Processed.columns
          simp only [Bool.false_eq_true, if_false, List.append_nil, List.mem_append]
          exact Or.inl h1)
      · exact htyall (hcorekeys _ h1)
  let df2 : Frame ℝ := ⟨df1.columns.insert "type".toList (t : ℝ), df1.index⟩
  have hlook2 : ∀ k, k ≠ "type".toList → df2.lookup k = df1.lookup k := by
    intro k hk
    show Option.or (Dict.get? (Dict.insert df1.columns "type".toList (t : ℝ)) k) (Dict.get? df1.index k) = _
    rw [Dict.get?_insert, if_neg (Ne.symm hk)]
    rfl
  have hlooktype : df2.lookup "type".toList = some (t : ℝ) := by
    show Option.or (Dict.get? (Dict.insert df1.columns "type".toList (t : ℝ)) "type".toList) _ = _
    rw [Dict.get?_insert, if_pos rfl]; rfl
  have hval2 : ∀ k v, df2.lookup k = some v → ColumnValue ev.value (fun _ => true) false B' p.groups.all k v := by
    intro k v hk
    by_cases hkt : k = "type".toList
    · subst hkt
      rw [hlooktype] at hk
      cases hk
      exact .given _ _ (hBlookup _ _ hBtype)
    · rw [hlook2 k hkt] at hk
      exact hcoreval k v ((e5 k v).1 hk) hkt
  have hgiven2 : ∀ k v, B'.lookup k = some v → df2.lookup k = some v := by
    intro k v hk
    by_cases hkt : k = "type".toList
    · subst hkt
      rw [hBlookup _ _ hBtype] at hk
      rw [hlooktype, hk]
    · rw [hlook2 k hkt]
      exact (e5 k v).2 (.given k v (by rw [hagree k hkt]; exact hk))
  obtain ⟨fuel, found, f1, f2, f3, f4⟩ := C54_partial p.groups.all order ho names bound hg
  obtain ⟨defs, d1, d2, d3⟩ := mapM_definitions found fun k d hkd => (f4 k d hkd).2
  refine ⟨df1, ?_, fuel, found, fun fuel' hle => identifyNecessary_fuel _ _ _ _ _ f1 _ hle, defs, d1, ?_⟩
  · unfold Processed.typeCovariates
    rw [e1]; rfl
  have hdefs : ∀ c d, (c, d) ∈ defs → (c, d) ∈ p.groups.all := by
    intro c d hcd
    have := (f4 c (some d) (d3 c d hcd)).1
    exact Dict.mem_of_get? _ _ _ this.symm
  have hkeysnd : (Dict.keys defs).Nodup := by
    show (defs.map Prod.fst).Nodup
    rw [d2]; exact f2
  have hidx2 : ∀ c ∈ Dict.keys defs, df2.index.get? c = none := by
    intro c hmc
    obtain ⟨cd, hcd, rfl⟩ := List.mem_map.1 hmc
    show Dict.get? df1.index _ = none
    rw [e2]
    exact hidx0 _ (List.mem_map.2 ⟨_, hdefs _ _ hcd, rfl⟩)
  obtain ⟨df3, g1, g2, _, _, g5, g6, _⟩ := C53_values_partial ev.value (fun _ => true) false df2 defs hkeysnd hidx2
    (fun c d hcd => hf.accurate c d (hdefs c d hcd))
  have hexists : ∀ x v, ColumnValue ev.value (fun _ => true) false B' p.groups.all x v →
      (∃ n, ReachedIn p.groups.all names n x) → ColumnValue ev.value (fun _ => true) false df2 defs x v := by
    intro x v hx
    induction hx with
    | given k v hk => intro _; exact .given k v (hgiven2 k v hk)
    | computed c d env' v hc' hm hex hdep hv ih =>
      rintro ⟨n, hn⟩
      have hgetc : Dict.get? p.groups.all c = some d := Dict.get?_of_mem _ G.nodup _ _ hm
      cases h2 : df2.columns.get? c with
      | some w =>
        have hl : df2.lookup c = some w := by simp [Frame.lookup, h2]
        have := ColumnValue.unique G.nodup hBidx hf.accurate (hval2 c w hl) (.computed c d env' v hc' hm hex hdep hv)
        subst this
        exact .given c w hl
      | none =>
        by_cases hdep0 : d.dependsOn = []
        · exfalso
          have hckey : c ∈ Dict.keys p.groups.all := List.mem_map.2 ⟨_, hm, rfl⟩
          have hcne : c ≠ "type".toList := by rintro rfl; exact htyall hckey
          have hcv : ColumnValue ev.value (fun _ => true) false df0 p.groups.core c v := by
            refine .computed c d env' v ?_ (G.core_of_constant c d hm hdep0 (hconst c d hm hdep0)) hex
              (fun x hx => by rw [hdep0] at hx; cases hx) hv
            have h0 : df0.lookup c = none := by
              rw [hagree c hcne]
              show Option.or (Dict.get? B'.columns c) (Dict.get? B'.index c) = none
              rw [hBnone (c, d) hm, hBidx c hckey]
              rfl
            unfold Frame.lookup at h0
            exact (Option.or_eq_none_iff.1 h0).1
          have h3 := (e5 c v).2 hcv
          rw [← hlook2 c hcne] at h3
          have h4 : df2.lookup c = none := by
            show Option.or (Dict.get? df2.columns c) (Dict.get? df1.index c) = none
            rw [h2, e2, hidx0 c hckey]
            rfl
          rw [h4] at h3
          cases h3
        · refine .computed c d env' v h2 ?_ hex (fun x hx w hw => ih x hx w hw ⟨n + 1, .step n c d x hn hgetc hx⟩) hv
          have hin : c ∈ found.map Prod.fst := (f3 c).2 ⟨⟨n, hn⟩, ⟨d, hgetc, hdep0⟩⟩
          rw [← d2] at hin
          obtain ⟨cd, hcd, rfl⟩ := List.mem_map.1 hin
          have h3 := Dict.get?_of_mem _ G.nodup _ _ (hdefs _ _ hcd)
          rw [hgetc] at h3
          cases h3
          exact hcd
  have hcv : ∀ x v, p.covariates ev (some i) r.state.core x = some v →
      ColumnValue ev.value (fun _ => true) false B' p.groups.all x v := by
    intro x v hx
    refine ColumnValue.mono (fun k v hk => .given k v ?_) (fun cd hcd => ⟨hcd, hBnone cd hcd⟩) ((hvalue x v).1 hx)
    rw [lookup_noIndex] at hk
    exact hBlookup k v hk
  refine ⟨df3, g6 ?_, fun x hx hxp hxi => ?_⟩
  · intro c hcd
    rw [Dict.keys, d2] at hcd
    obtain ⟨⟨n, hn⟩, hdep⟩ := (f3 c).1 hcd
    obtain ⟨d, hd', _⟩ := hdep
    obtain ⟨v, hv⟩ := Option.isSome_iff_exists.1 (hsome c (by
      unfold Processed.columns
      simp only [if_true, List.mem_append]
      exact Or.inr (Or.inr (List.mem_map.2 ⟨_, Dict.mem_of_get? _ _ _ hd', rfl⟩))))
    exact ⟨v, hexists c v (hcv c v hv) ⟨n, hn⟩⟩
  · obtain ⟨v, hv⟩ := Option.isSome_iff_exists.1 (hsome x (hnames x hx))
    have h1 := (g5 x v).2 (hexists x v (hcv x v hv) ⟨0, .start x hx⟩)
    refine ⟨?_, by rw [hv]; rfl⟩
    rw [hv]
    unfold Frame.lookup at h1
    have h2 : Dict.get? df3.index x = none := by
      rw [g2]
      show Dict.get? df1.index x = none
      rw [e2]
      show Dict.get? [("identifier".toList, (r.id : ℝ)), ("period".toList, (r.state.core.period : ℝ))] x = none
      rw [get?_index_other _ _ _ hxp]
      rw [Dict.get?_eq_none_iff]
      intro hx'
      exact hxi (List.mem_singleton.1 hx')
    rw [h2, Option.or_none] at h1
    exact h1

end

end Respy
