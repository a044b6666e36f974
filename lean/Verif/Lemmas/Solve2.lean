import Verif.Lemmas.Solve

/-! Helper lemmas: the Bellman equation satisfied by the stored arrays. -/

set_option linter.unusedSectionVars false

namespace Respy

variable {K : Type _} [Field K] [LinearOrder K]

/-- State spaces as constructed by `StateSpace.__init__`: one number of states per dense key and all
periods within the horizon. -/
structure SolveSpace.WF (ss : SolveSpace) : Prop where
  shape : ss.nStates.length = ss.complexes.length
  periods : ∀ c ∈ ss.complexes, c.period < ss.nPeriods

theorem keys_mapIdx_aux (l : List Nat) (f : Nat → Nat → List K) (i : Nat) :
    (l.mapIdx fun k n => (k + i, f (k + i) n)).map Prod.fst = List.range' i l.length := by
  induction l generalizing i with
  | nil => rfl
  | cons x l ih =>
    simp only [List.mapIdx_cons, List.map_cons, List.length_cons, List.range'_succ]
    congr 1
    · omega
    · have := ih (i + 1)
      rw [← this]
      congr 2
      funext a b
      rw [show a + 1 + i = a + (i + 1) by omega]

theorem initialValues_keys (ss : SolveSpace) :
    Dict.keys (initialValues ss : Dict Nat (List K)) = List.range ss.nStates.length := by
  have := keys_mapIdx_aux (K := K) ss.nStates (fun _ n => List.replicate n 0) 0
  simp only [Nat.add_zero] at this
  rw [List.range_eq_range']
  exact this

theorem initialValues_nodup (ss : SolveSpace) :
    (Dict.keys (initialValues ss : Dict Nat (List K))).Nodup := by
  rw [initialValues_keys]; exact List.nodup_range

theorem initialValues_get? (ss : SolveSpace) (k : Nat) :
    Dict.get? (initialValues ss : Dict Nat (List K)) k =
      ss.nStates[k]?.map fun n => List.replicate n 0 := by
  cases h : ss.nStates[k]? with
  | none =>
    rw [Option.map_none, Dict.get?_eq_none_iff, initialValues_keys, List.mem_range]
    rw [List.getElem?_eq_none_iff] at h
    omega
  | some n =>
    rw [Option.map_some]
    apply Dict.get?_of_mem _ (initialValues_nodup ss)
    rw [initialValues, List.mem_mapIdx]
    obtain ⟨hk, hn⟩ := List.getElem?_eq_some_iff.1 h
    exact ⟨k, hk, by rw [hn]⟩

theorem sameShape_initial_length (ss : SolveSpace) (ev : Dict Nat (List K))
    (h : SameShape (initialValues ss) ev) (k n : Nat) (hn : ss.nStates[k]? = some n) :
    ∃ old, Dict.get? ev k = some old ∧ old.length = n := by
  have := h.2 k
  rw [initialValues_get?, hn] at this
  cases he : Dict.get? ev k with
  | none => rw [he] at this; simp at this
  | some old => rw [he] at this; simp at this; exact ⟨old, rfl, this.symm⟩

theorem periodValues_no_interp (ss : SolveSpace) (interp interp' : Interpolation K)
    (par : ParamObjects K) (ev : Dict Nat (List K)) (t seed : Nat)
    (h : ss.anyInterpolated t = false) :
    periodValues ss interp par ev t seed = periodValues ss interp' par ev t seed := by
  unfold periodValues
  simp [h]

theorem backwardLoop_no_interp (ss : SolveSpace) (interp interp' : Interpolation K)
    (par : ParamObjects K) (ts : List Nat) (ev : Dict Nat (List K)) (seed : Nat)
    (h : ∀ t, ss.anyInterpolated t = false) :
    backwardLoop ss interp par ts ev seed = backwardLoop ss interp' par ts ev seed := by
  induction ts generalizing ev seed with
  | nil => rfl
  | cons t ts ih =>
    unfold backwardLoop
    rw [periodValues_no_interp ss interp interp' par ev t seed (h t)]
    simp only [ih]

/-- Full solution in the period of a dense key: the stored values are `fullSolution` of the continuation
values computed from the stored arrays. -/
theorem solve_fixpoint_period (ss : SolveSpace) (hwf : ss.WF) (interp : Interpolation K)
    (hint : InterpolationKeys ss interp) (par : ParamObjects K) (hdelta : par.delta ≠ 0)
    (seed : Nat) (ev0 : Dict Nat (List K)) (hs : SameShape (initialValues ss) ev0)
    (hok : (solveBackward ss interp par seed ev0).2 = true)
    (k : Nat) (c : Complex) (hc : ss.complexes[k]? = some c) (hno : ss.anyInterpolated c.period = false) :
    let ev := (solveBackward ss interp par seed ev0).1
    ∃ cvs vs n, ss.nStates[k]? = some n ∧ continuationValues ss par.transition ev c.period = some cvs ∧
      fullSolution ss par cvs k = some vs ∧ vs.length = n ∧ Dict.get? ev k = some vs := by
  intro ev
  obtain ⟨_, h2⟩ := backwardLoop_spec ss interp hint par ss.nPeriods ev0 seed hok
  obtain ⟨s1, vals, s2, hp, hall⟩ := h2 c.period (hwf.periods c (List.mem_of_getElem? hc))
  have hk : k ∈ ss.keysOfPeriod c.period := (mem_keysOfPeriod _ _ _).2 ⟨c, hc, rfl⟩
  unfold periodValues at hp
  rw [if_neg hdelta, hno] at hp
  simp only [Bool.false_eq_true, if_false, if_neg (List.ne_nil_of_mem hk)] at hp
  obtain ⟨cvs, hcvs, hp⟩ := Option.bind_eq_some_iff.1 hp
  obtain ⟨values, hv, hp⟩ := Option.bind_eq_some_iff.1 hp
  simp only [Option.pure_def, Option.some.injEq, Prod.mk.injEq] at hp
  have hv' : ((ss.keysOfPeriod c.period).mapM fun k => do
      let a ← (fullSolution ss par cvs k).map PeriodValue.array; pure (k, a)) = some values := by
    rw [← hv]
    apply mapM_congr
    intro k _
    cases fullSolution ss par cvs k <;> rfl
  obtain ⟨hkeys, hget⟩ := mapM_keyed _ (fun k => (fullSolution ss par cvs k).map PeriodValue.array) _ hv'
  have hkv := hget k hk
  have hsome : (Dict.get? values k).isSome = true := by
    rw [Dict.isSome_get?_iff, hkeys]; exact hk
  rw [hkv, Option.isSome_map] at hsome
  obtain ⟨vs, hvs⟩ := Option.isSome_iff_exists.1 hsome
  rw [hvs, Option.map_some] at hkv
  have hmem := Dict.mem_of_get? _ _ _ hkv
  rw [hp.1] at hmem
  obtain ⟨old, new, ho, ha, hg⟩ := hall k _ hmem
  have hkl : k < ss.nStates.length := by
    rw [hwf.shape]; exact (List.getElem?_eq_some_iff.1 hc).1
  have hn : ss.nStates[k]? = some ss.nStates[k] := List.getElem?_eq_getElem hkl
  obtain ⟨old', ho', hl'⟩ := sameShape_initial_length ss ev0 hs k _ hn
  rw [ho] at ho'; cases ho'
  have hlen : vs.length = ss.nStates[k] := by
    have := hvs
    unfold fullSolution at this
    simp only [hn, Option.bind_eq_bind, Option.bind_some] at this
    obtain ⟨_, _, this⟩ := Option.bind_eq_some_iff.1 this
    obtain ⟨_, _, this⟩ := Option.bind_eq_some_iff.1 this
    obtain ⟨_, _, this⟩ := Option.bind_eq_some_iff.1 this
    obtain ⟨_, _, this⟩ := Option.bind_eq_some_iff.1 this
    have := mapM_eq_some_length _ _ _ this
    simpa using this
  have hnew : new = vs := by
    simp only [assignInPlace, hlen, hl', if_true] at ha
    exact (Option.some.inj ha).symm
  subst hnew
  exact ⟨cvs, new, _, hn, hcvs, hvs, hlen, hg⟩

/-- Full solution in each period: the stored values of each dense key are `fullSolution` of the
continuation values computed from the stored arrays. -/
theorem solve_fixpoint (ss : SolveSpace) (hwf : ss.WF) (interp : Interpolation K)
    (hno : ∀ t, ss.anyInterpolated t = false) (par : ParamObjects K) (hdelta : par.delta ≠ 0)
    (seed : Nat) (ev0 : Dict Nat (List K)) (hs : SameShape (initialValues ss) ev0)
    (hok : (solveBackward ss interp par seed ev0).2 = true)
    (k : Nat) (c : Complex) (hc : ss.complexes[k]? = some c) :
    let ev := (solveBackward ss interp par seed ev0).1
    ∃ cvs vs n, ss.nStates[k]? = some n ∧ continuationValues ss par.transition ev c.period = some cvs ∧
      fullSolution ss par cvs k = some vs ∧ vs.length = n ∧ Dict.get? ev k = some vs := by
  intro ev
  have heq : solveBackward ss interp par seed ev0 = solveBackward ss (fun _ _ _ _ => none) par seed ev0 :=
    backwardLoop_no_interp ss interp (fun _ _ _ _ => none) par _ _ _ hno
  simp only [ev, heq] at hok ⊢
  exact solve_fixpoint_period ss hwf _ (fun _ _ _ _ _ _ h => by cases h) par hdelta seed ev0 hs hok k c hc
    (hno _)

/-- Rows of `fullSolution`. -/
theorem fullSolution_row (ss : SolveSpace) (par : ParamObjects K) (cvs : Dict Nat (List (List K)))
    (k n : Nat) (vs : List K) (hn : ss.nStates[k]? = some n)
    (h : fullSolution ss par cvs k = some vs) (i : Nat) (hi : i < n) :
    ∃ wages nonpecs cv draws w m c, Dict.get? par.wages k = some wages ∧
      Dict.get? par.nonpecs k = some nonpecs ∧ Dict.get? cvs k = some cv ∧
      Dict.get? par.draws k = some draws ∧ wages[i]? = some w ∧ nonpecs[i]? = some m ∧
      cv[i]? = some c ∧ m.length = w.length ∧ c.length = w.length ∧
      (∀ d ∈ draws, d.length = w.length) ∧ vs[i]? = some (emax w m c draws par.delta) := by
  unfold fullSolution at h
  simp only [hn, Option.bind_eq_bind, Option.bind_some] at h
  obtain ⟨wages, hw, h⟩ := Option.bind_eq_some_iff.1 h
  obtain ⟨nonpecs, hm, h⟩ := Option.bind_eq_some_iff.1 h
  obtain ⟨cv, hcv, h⟩ := Option.bind_eq_some_iff.1 h
  obtain ⟨draws, hd, h⟩ := Option.bind_eq_some_iff.1 h
  have hlt : i < vs.length := by
    rw [mapM_eq_some_length _ _ _ h]; simpa using hi
  have hrow := mapM_range_getElem? _ _ _ h i hi
  rw [List.getElem?_eq_getElem hlt] at hrow
  obtain ⟨w, hwi, hrow⟩ := Option.bind_eq_some_iff.1 hrow.symm
  obtain ⟨m, hmi, hrow⟩ := Option.bind_eq_some_iff.1 hrow
  obtain ⟨c, hci, hrow⟩ := Option.bind_eq_some_iff.1 hrow
  unfold emax? at hrow
  split at hrow
  · rename_i hsh
    refine ⟨wages, nonpecs, cv, draws, w, m, c, hw, hm, hcv, hd, hwi, hmi, hci, hsh.1, hsh.2.1,
      hsh.2.2, ?_⟩
    rw [List.getElem?_eq_getElem hlt, hrow]
  · cases hrow

/-- Columns of the continuation values in the last period. -/
theorem continuationValues_last (ss : SolveSpace) (tr : Dict Nat (List (Nat × List K)))
    (ev : Dict Nat (List K)) (t : Nat) (ht : t + 1 = ss.nPeriods)
    (cvs : Dict Nat (List (List K))) (h : continuationValues ss tr ev t = some cvs)
    (k : Nat) (c : Complex) (hc : ss.complexes[k]? = some c) (hct : c.period = t) :
    ∃ n, ss.nStates[k]? = some n ∧
      Dict.get? cvs k = some (List.replicate n (List.replicate (c.choiceSet.count true) 0)) := by
  unfold continuationValues at h
  rw [if_pos ht] at h
  have hk : k ∈ ss.keysOfPeriod t := (mem_keysOfPeriod _ _ _).2 ⟨c, hc, hct⟩
  have h' : ((ss.keysOfPeriod t).mapM fun k => do
      let a ← (ss.complexes[k]?.bind fun c => ss.nStates[k]?.map fun n =>
        List.replicate n (List.replicate (c.choiceSet.count true) (0 : K)))
      pure (k, a)) = some cvs := by
    rw [← h]
    apply mapM_congr
    intro k _
    cases ss.complexes[k]? <;> cases ss.nStates[k]? <;> rfl
  obtain ⟨hkeys, hget⟩ := mapM_keyed _ (fun k => (ss.complexes[k]?.bind fun c => ss.nStates[k]?.map
    fun n => List.replicate n (List.replicate (c.choiceSet.count true) (0 : K)))) _ h'
  have := hget k hk
  rw [hc] at this
  simp only [Option.bind_some] at this
  cases hn : ss.nStates[k]? with
  | none =>
    rw [hn, Option.map_none] at this
    rw [Dict.get?_eq_none_iff, hkeys] at this
    exact absurd hk this
  | some n =>
    rw [hn, Option.map_some] at this
    exact ⟨n, rfl, this⟩

/-- Without exogenous processes: the array of continuation values. -/
theorem continuationValues_inner (ss : SolveSpace) (tr : Dict Nat (List (Nat × List K)))
    (ev : Dict Nat (List K)) (t : Nat) (ht : t + 1 ≠ ss.nPeriods) (hexo : ss.transit = none)
    (cvs : Dict Nat (List (List K))) (h : continuationValues ss tr ev t = some cvs)
    (k : Nat) (hk : k ∈ ss.keysOfPeriod t) :
    ∃ a, continuationArray ss (ss.attributeOfPeriod ev (t + 1)) k = some a ∧
      Dict.get? cvs k = some a := by
  unfold continuationValues at h
  rw [if_neg ht] at h
  obtain ⟨cvs', h1, h2⟩ := Option.bind_eq_some_iff.1 h
  simp only [hexo, Option.pure_def, Option.some.injEq] at h2
  subst h2
  obtain ⟨hkeys, hget⟩ := mapM_keyed _ (fun k =>
    continuationArray ss (ss.attributeOfPeriod ev (t + 1)) k) _ h1
  have := hget k hk
  cases ha : continuationArray ss (ss.attributeOfPeriod ev (t + 1)) k with
  | none =>
    rw [ha, Dict.get?_eq_none_iff, hkeys] at this
    exact absurd hk this
  | some a => exact ⟨a, rfl, by rw [this, ha]⟩

/-- Entries of the array of continuation values. -/
theorem continuationArray_entry (ss : SolveSpace) (evNext : Dict Nat (List K)) (k n : Nat)
    (c : Complex) (cs : List Bool) (hc : ss.complexes[k]? = some c)
    (hcs : ss.columnChoiceSet k = some cs) (hn : ss.nStates[k]? = some n)
    (a : List (List K)) (h : continuationArray ss evNext k = some a) (i : Nat) (hi : i < n) :
    ∃ row, a[i]? = some row ∧ row.length = cs.count true ∧ ∀ j < cs.count true,
      ∃ children childRow child dk values v, Dict.get? ss.childIndices k = some children ∧
        children[i]? = some childRow ∧ childRow[j]? = some child ∧
        Dict.get? ss.lookup (child.1, c.dense.getD 0) = some dk ∧
        Dict.get? evNext dk = some values ∧ values[child.2]? = some v ∧ row[j]? = some v := by
  unfold continuationArray at h
  simp only [hc, hcs, hn, Option.bind_eq_bind, Option.bind_some] at h
  obtain ⟨children, hch, h⟩ := Option.bind_eq_some_iff.1 h
  have hlt : i < a.length := by rw [mapM_eq_some_length _ _ _ h]; simpa using hi
  have hrow := mapM_range_getElem? _ _ _ h i hi
  rw [List.getElem?_eq_getElem hlt] at hrow
  refine ⟨a[i], List.getElem?_eq_getElem hlt, ?_, ?_⟩
  · rw [mapM_eq_some_length _ _ _ hrow.symm]; simp
  · intro j hj
    have hjl : j < (a[i]).length := by rw [mapM_eq_some_length _ _ _ hrow.symm]; simpa using hj
    have he := mapM_range_getElem? _ _ _ hrow.symm j hj
    rw [List.getElem?_eq_getElem hjl] at he
    obtain ⟨childRow, h1, he⟩ := Option.bind_eq_some_iff.1 he.symm
    obtain ⟨child, h2, he⟩ := Option.bind_eq_some_iff.1 he
    obtain ⟨dk, h3, he⟩ := Option.bind_eq_some_iff.1 he
    obtain ⟨values, h4, he⟩ := Option.bind_eq_some_iff.1 he
    exact ⟨children, childRow, child, dk, values, (a[i])[j], hch, h1, h2, h3, h4, he,
      List.getElem?_eq_getElem hjl⟩

end Respy
