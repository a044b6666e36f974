import Verif.Lemmas.Build2
import Verif.Lemmas.Solve4

/-! Helper lemmas: the solution of a created state space does not raise an exception. -/

set_option linter.unusedSectionVars false

namespace Respy

variable {K : Type _} [Field K] [LinearOrder K]

theorem Built.ValueAt.unique {bt : Built} {ev : Dict Nat (List K)} {d : Option Nat} {s : CoreState}
    {v v' : K} (h : bt.ValueAt ev d s v) (h' : bt.ValueAt ev d s v') : v = v' := by
  obtain ⟨ck, pos, dk, st, h1, h2, h3, h4⟩ := h
  obtain ⟨ck', pos', dk', st', h1', h2', h3', h4'⟩ := h'
  rw [h1] at h1'; cases h1'
  rw [h2] at h2'; cases h2'
  rw [h3] at h3'; cases h3'
  rw [h4] at h4'; cases h4'
  rfl

theorem Built.Sound.wf {b : BuildSpec} {core : List CoreState} {tr : Option (Dict Nat (List Bool))}
    {bt : Built} (h : bt.Sound b core tr) (hwf : b.WF core) : bt.space.WF where
  shape := by
    rw [h.nStates, h.complexes, List.length_map, List.length_map, h.len]
  periods := by
    intro c hc
    obtain ⟨k, hk⟩ := List.mem_iff_getElem?.1 hc
    obtain ⟨ck, sts, h1, h2, h3, h4, hne, h5, h6⟩ := h.item k c hk
    obtain ⟨s, hs⟩ := List.exists_mem_of_ne_nil _ hne
    obtain ⟨h7, h8, _⟩ := h5 s hs
    rw [h.nPeriods, ← h8]
    exact createCore_period _ _ hwf.created s h7

theorem Built.Sound.nStates_get {b : BuildSpec} {core : List CoreState}
    {tr : Option (Dict Nat (List Bool))} {bt : Built} (h : bt.Sound b core tr) (k : Nat)
    (sts : List CoreState) (hk : bt.states[k]? = some sts) :
    bt.space.nStates[k]? = some sts.length := by
  rw [h.nStates, List.getElem?_map, hk]; rfl

/-- Every state with every dense index has a stored value. -/
theorem Built.Sound.valueAt_exists {b : BuildSpec} {core : List CoreState}
    {tr : Option (Dict Nat (List Bool))} {bt : Built} (h : bt.Sound b core tr)
    (ev : Dict Nat (List K)) (hs : SameShape (initialValues bt.space) ev) (s : CoreState)
    (hsc : s ∈ core) (d : Option Nat) (hd : d ∈ b.denseIndices) : ∃ v, bt.ValueAt ev d s v := by
  obtain ⟨ck, pos, dk, sts, h1, h2, h3, h4, h5, h6⟩ := h.loc s hsc d hd
  obtain ⟨old, ho, hl⟩ := sameShape_initial_length bt.space ev hs dk _ (h.nStates_get dk sts h5)
  have hlt : pos < old.length := by rw [hl]; exact (List.getElem?_eq_some_iff.1 h6).1
  exact ⟨old[pos], ck, pos, dk, old, h1, h2, ho, List.getElem?_eq_getElem hlt⟩

/-- The array of continuation values of a dense key. -/
theorem Built.Sound.arrayOfKey {b : BuildSpec} {core : List CoreState}
    {tr : Option (Dict Nat (List Bool))} {bt : Built} (h : bt.Sound b core tr)
    (ev : Dict Nat (List K)) (hs : SameShape (initialValues bt.space) ev) (k : Nat) (c : Complex)
    (hk : bt.space.complexes[k]? = some c) (sts : List CoreState) (hsts : bt.states[k]? = some sts)
    (hp : c.period + 1 < b.core.nPeriods) :
    ∃ cs a, bt.space.columnChoiceSet k = some cs ∧
      continuationArray bt.space (bt.space.attributeOfPeriod ev (c.period + 1)) k = some a ∧
      a.length = sts.length ∧
      ∀ (i : Nat) s, sts[i]? = some s → ∃ row, a[i]? = some row ∧ row.length = cs.count true ∧
        ∀ (j : Nat) x, (validChoices cs)[j]? = some x → ∃ v, row[j]? = some v ∧
          bt.ValueAt ev c.dense (lawOfMotion s x) v := by
  obtain ⟨ck, sts', _, hsts', hd, _, _, hall, _⟩ := h.item k c hk
  rw [hsts] at hsts'; cases hsts'
  obtain ⟨cs, m, hcs, hm, hch⟩ := h.child k c sts hk hsts hp
  have hn := h.nStates_get k sts hsts
  -- one entry
  have hentry : ∀ (i : Nat) s, sts[i]? = some s → ∀ (j : Nat) x, (validChoices cs)[j]? = some x →
      ∃ v, (do
        let childRow ← m[i]?
        let child ← childRow[j]?
        let denseChoice ← bt.space.lookup.get? (child.1, c.dense.getD 0)
        let values ← Dict.get? (bt.space.attributeOfPeriod ev (c.period + 1)) denseChoice
        values[child.2]?) = some v ∧ bt.ValueAt ev c.dense (lawOfMotion s x) v := by
    intro i s hi j x hj
    obtain ⟨row, hrow, hrest⟩ := hch i s hi
    obtain ⟨l, hl, hix, hmem⟩ := hrest j x hj
    obtain ⟨ck', pos, dk, sts', g1, g2, g3, g4, g5, g6⟩ := h.loc _ hmem c.dense hd
    obtain ⟨v, hv⟩ := h.valueAt_exists ev hs _ hmem c.dense hd
    refine ⟨v, ?_, hv⟩
    obtain ⟨ck2, pos2, dk2, stored, q1, q2, q3, q4⟩ := hv
    rw [hix] at q1 g1
    cases q1; cases g1
    rw [q2] at g2; cases g2
    have hper : (lawOfMotion s x).period = c.period + 1 := by
      have := (hall s (List.mem_of_getElem? hi)).2.1
      simp [lawOfMotion, this]
    have hkp : dk ∈ bt.space.keysOfPeriod (c.period + 1) :=
      (mem_keysOfPeriod _ _ _).2 ⟨_, g3, hper⟩
    simp only [hrow, hl, q2, Option.bind_eq_bind, Option.bind_some, get?_attributeOfPeriod, hkp,
      if_true, q3, q4]
  have hrowex : ∀ i ∈ List.range sts.length, ∃ row, ((List.range (cs.count true)).mapM fun j => (do
        let childRow ← m[i]?
        let child ← childRow[j]?
        let denseChoice ← bt.space.lookup.get? (child.1, c.dense.getD 0)
        let values ← Dict.get? (bt.space.attributeOfPeriod ev (c.period + 1)) denseChoice
        values[child.2]?)) = some row := by
    intro i hi
    have hi := List.mem_range.1 hi
    have hi' := List.getElem?_eq_getElem hi
    obtain ⟨row, hrow, _⟩ := mapM_option_exists (List.range (cs.count true)) _ (fun j hj => by
      have hj := List.mem_range.1 hj
      rw [← length_validChoices] at hj
      obtain ⟨v, hv, _⟩ := hentry i _ hi' j _ (List.getElem?_eq_getElem hj)
      exact ⟨v, hv⟩)
    exact ⟨row, hrow⟩
  obtain ⟨a, ha, hal, hag⟩ := mapM_option_exists (List.range sts.length) _ hrowex
  refine ⟨cs, a, hcs, ?_, by simpa using hal, ?_⟩
  · unfold continuationArray
    simp only [hk, hcs, hn, hm, Option.bind_eq_bind, Option.bind_some]
    exact ha
  · intro i s hi
    have hil := (List.getElem?_eq_some_iff.1 hi).1
    obtain ⟨row, hrow, hmapM⟩ := hag i i (by simp [hil])
    refine ⟨row, hrow, ?_, ?_⟩
    · rw [mapM_eq_some_length _ _ _ hmapM, List.length_range]
    · intro j x hj
      have hjl := (List.getElem?_eq_some_iff.1 hj).1
      rw [length_validChoices] at hjl
      have hr := mapM_range_getElem? _ _ _ hmapM j hjl
      obtain ⟨v, hv, hva⟩ := hentry i s hi j x hj
      exact ⟨v, by rw [hr]; exact hv, hva⟩

/-- A value which can be assigned to the array of a dense key with `n` states. -/
def PeriodValue.Assignable (n : Nat) : PeriodValue K → Prop
  | .scalar _ => True
  | .array xs => xs.length = n

theorem setAttribute_total (ss : SolveSpace) (vals : List (Nat × PeriodValue K))
    (ev : Dict Nat (List K)) (hs : SameShape (initialValues ss) ev)
    (h : ∀ kv ∈ vals, ∃ n, ss.nStates[kv.1]? = some n ∧ kv.2.Assignable n) :
    (setAttribute ev vals).2 = true := by
  induction vals generalizing ev with
  | nil => rfl
  | cons kv vals ih =>
    obtain ⟨k, v⟩ := kv
    obtain ⟨n, hn, hv⟩ := h (k, v) (by simp)
    obtain ⟨old, ho, hol⟩ := sameShape_initial_length ss ev hs k n hn
    obtain ⟨new, ha, hl⟩ : ∃ new, assignInPlace old v = some new ∧ new.length = old.length := by
      cases v with
      | scalar x => exact ⟨_, rfl, by simp⟩
      | array xs =>
        have hv : xs.length = n := hv
        exact ⟨xs, by simp [assignInPlace, hv, hol], by rw [hv, hol]⟩
    unfold setAttribute
    simp only [ho, Option.bind_some, ha]
    exact ih _ (hs.trans (sameShape_insert ev k old new ho hl))
      fun kv hkv => h kv (List.mem_cons_of_mem _ hkv)

/-- The rewards and draws of a dense key have the shapes which the gufunc requires. -/
structure ParamsShape (ss : SolveSpace) (par : ParamObjects K) : Prop where
  wages : ∀ (k : Nat) c n, ss.complexes[k]? = some c → ss.nStates[k]? = some n →
    ∃ rows, Dict.get? par.wages k = some rows ∧ ∀ i < n, ∃ row, rows[i]? = some row ∧
      row.length = c.choiceSet.count true
  nonpecs : ∀ (k : Nat) c n, ss.complexes[k]? = some c → ss.nStates[k]? = some n →
    ∃ rows, Dict.get? par.nonpecs k = some rows ∧ ∀ i < n, ∃ row, rows[i]? = some row ∧
      row.length = c.choiceSet.count true
  draws : ∀ (k : Nat) c, ss.complexes[k]? = some c → ∃ ds, Dict.get? par.draws k = some ds ∧
    ∀ e ∈ ds, e.length = c.choiceSet.count true

/-- Every period has a dense key, and the continuation values can be computed and have the right shape. -/
def ContinuationTotal (ss : SolveSpace) (par : ParamObjects K) : Prop :=
  ∀ ev : Dict Nat (List K), SameShape (initialValues ss) ev → ∀ t < ss.nPeriods,
    ss.keysOfPeriod t ≠ [] ∧ ∃ cvs, continuationValues ss par.transition ev t = some cvs ∧
      ∀ (k : Nat) c n, ss.complexes[k]? = some c → c.period = t → ss.nStates[k]? = some n →
        ∃ a, Dict.get? cvs k = some a ∧ ∀ i < n, ∃ row, a[i]? = some row ∧
          row.length = c.choiceSet.count true

theorem periodValues_full_total (ss : SolveSpace) (hwf : ss.WF) (interp : Interpolation K)
    (par : ParamObjects K) (hsh : ParamsShape ss par) (hcv : ContinuationTotal ss par)
    (hdelta : par.delta ≠ 0) (ev : Dict Nat (List K)) (hev : SameShape (initialValues ss) ev) (t : Nat)
    (ht : t < ss.nPeriods) (hno : ss.anyInterpolated t = false) (seed : Nat) :
    ∃ vals seed', periodValues ss interp par ev t seed = some (vals, seed') ∧
      ∀ kv ∈ vals, ∃ n, ss.nStates[kv.1]? = some n ∧ kv.2.Assignable n := by
  obtain ⟨hne, cvs, hcvs, hrows⟩ := hcv ev hev t ht
  have hk : ∀ k ∈ ss.keysOfPeriod t, ∃ n vs, ss.nStates[k]? = some n ∧
      fullSolution ss par cvs k = some vs ∧ vs.length = n := by
    intro k hk
    obtain ⟨c, hc, hct⟩ := (mem_keysOfPeriod _ _ _).1 hk
    have hkl : k < ss.nStates.length := by
      rw [hwf.shape]; exact (List.getElem?_eq_some_iff.1 hc).1
    have hn : ss.nStates[k]? = some ss.nStates[k] := List.getElem?_eq_getElem hkl
    obtain ⟨ws, hws, hwr⟩ := hsh.wages k c _ hc hn
    obtain ⟨ms, hms, hmr⟩ := hsh.nonpecs k c _ hc hn
    obtain ⟨ds, hds, hdr⟩ := hsh.draws k c hc
    obtain ⟨a, ha, har⟩ := hrows k c _ hc hct hn
    obtain ⟨vs, hvs, hvl, _⟩ := mapM_option_exists (List.range ss.nStates[k])
      (fun i => do
        let w ← ws[i]?
        let m ← ms[i]?
        let c ← a[i]?
        emax? w m c ds par.delta) (fun i hi => by
          have hi := List.mem_range.1 hi
          obtain ⟨w, hw, hwl⟩ := hwr i hi
          obtain ⟨m, hm, hml⟩ := hmr i hi
          obtain ⟨cv, hcv, hcl⟩ := har i hi
          refine ⟨emax w m cv ds par.delta, ?_⟩
          simp only [hw, hm, hcv, Option.bind_eq_bind, Option.bind_some]
          unfold emax?
          rw [if_pos ⟨by rw [hml, hwl], by rw [hcl, hwl], fun e he => by rw [hdr e he, hwl]⟩])
    refine ⟨_, vs, hn, ?_, by simpa using hvl⟩
    unfold fullSolution
    simp only [hn, hws, hms, hds, ha, Option.bind_eq_bind, Option.bind_some]
    exact hvs
  obtain ⟨vals, hvals, hvl, hvg⟩ := mapM_option_exists (ss.keysOfPeriod t)
    (fun k => do
      let v ← fullSolution ss par cvs k
      pure (k, PeriodValue.array v)) (fun k hk' => by
        obtain ⟨n, vs, _, h2, _⟩ := hk k hk'
        exact ⟨(k, .array vs), by rw [h2]; rfl⟩)
  refine ⟨vals, seed, ?_, ?_⟩
  · unfold periodValues
    rw [if_neg hdelta, hno]
    simp only [Bool.false_eq_true, if_false, if_neg hne, hcvs, Option.bind_eq_bind, Option.bind_some]
    have : ((ss.keysOfPeriod t).mapM fun k => (fullSolution ss par cvs k).bind fun v =>
      pure (k, PeriodValue.array v)) = some vals := hvals
    rw [this]
    rfl
  · intro kv hkv
    obtain ⟨i, hi⟩ := List.mem_iff_getElem?.1 hkv
    have hil : i < (ss.keysOfPeriod t).length := by
      rw [← hvl]; exact (List.getElem?_eq_some_iff.1 hi).1
    obtain ⟨kv', h1, h2⟩ := hvg i _ (List.getElem?_eq_getElem hil)
    rw [hi] at h1; cases h1
    obtain ⟨n, vs, g1, g2, g3⟩ := hk _ (List.getElem_mem hil)
    rw [g2] at h2
    have h2 : ((ss.keysOfPeriod t)[i], PeriodValue.array vs) = kv := Option.some.inj h2
    subst h2
    exact ⟨n, g1, g3⟩
/-- The interpolation succeeds for continuation values of the right shape and returns arrays of the right
length. -/
def InterpolationTotal (ss : SolveSpace) (par : ParamObjects K) (interp : Interpolation K) : Prop :=
  ∀ t < ss.nPeriods, ss.anyInterpolated t = true → ∀ cvs : Dict Nat (List (List K)),
    (∀ (k : Nat) c n, ss.complexes[k]? = some c → c.period = t → ss.nStates[k]? = some n →
      ∃ a, Dict.get? cvs k = some a ∧ ∀ i < n, ∃ row, a[i]? = some row ∧
        row.length = c.choiceSet.count true) →
    ∀ seed, ∃ values seed', interp par cvs t seed = some (values, seed') ∧
      ∀ kv ∈ values, ∃ n, ss.nStates[kv.1]? = some n ∧ kv.2.length = n

theorem periodValues_interpolated_total (ss : SolveSpace) (interp : Interpolation K)
    (par : ParamObjects K) (hint : InterpolationTotal ss par interp) (hcv : ContinuationTotal ss par)
    (hdelta : par.delta ≠ 0) (ev : Dict Nat (List K)) (hev : SameShape (initialValues ss) ev) (t : Nat)
    (ht : t < ss.nPeriods) (hany : ss.anyInterpolated t = true) (seed : Nat) :
    ∃ vals seed', periodValues ss interp par ev t seed = some (vals, seed') ∧
      ∀ kv ∈ vals, ∃ n, ss.nStates[kv.1]? = some n ∧ kv.2.Assignable n := by
  obtain ⟨hne, cvs, hcvs, hrows⟩ := hcv ev hev t ht
  obtain ⟨values, seed', h1, h2⟩ := hint t ht hany cvs hrows seed
  refine ⟨values.map fun kv => (kv.1, .array kv.2), seed', ?_, ?_⟩
  · unfold periodValues
    rw [if_neg hdelta, if_pos hany]
    simp only [hcvs, h1, Option.bind_eq_bind, Option.bind_some, Option.pure_def]
  · intro kv hkv
    obtain ⟨kv', hkv', rfl⟩ := List.mem_map.1 hkv
    exact h2 kv' hkv'

theorem backwardLoop_total (ss : SolveSpace) (interp : Interpolation K) (par : ParamObjects K)
    (hfull : ∀ (ev : Dict Nat (List K)), SameShape (initialValues ss) ev → ∀ t < ss.nPeriods, ∀ seed,
      ∃ vals seed', periodValues ss interp par ev t seed = some (vals, seed') ∧
        ∀ kv ∈ vals, ∃ n, ss.nStates[kv.1]? = some n ∧ kv.2.Assignable n) (seed : Nat)
    (ev0 : Dict Nat (List K)) (hs : SameShape (initialValues ss) ev0) :
    (solveBackward ss interp par seed ev0).2 = true := by
  have hloop : ∀ m ≤ ss.nPeriods, ∀ (ev : Dict Nat (List K)) (seed : Nat),
      SameShape (initialValues ss) ev →
      (backwardLoop ss interp par (List.range m).reverse ev seed).2 = true := by
    intro m
    induction m with
    | zero => intro _ ev seed _; rfl
    | succ m ih =>
      intro hm ev seed hev
      rw [range_succ_reverse]
      obtain ⟨vals, seed', hp, hv⟩ := hfull ev hev m (by omega) seed
      have hok := setAttribute_total ss vals ev hev hv
      unfold backwardLoop
      rw [hp]
      have hsh' := setAttribute_shape vals ev
      generalize hg : setAttribute ev vals = r at hok hsh'
      obtain ⟨ev', ok⟩ := r
      have hok : ok = true := hok
      subst hok
      simp only [hg]
      exact ih (by omega) ev' seed' (hev.trans hsh')
  exact hloop ss.nPeriods le_rfl ev0 seed hs

theorem solveBackward_total (ss : SolveSpace) (hwf : ss.WF) (interp : Interpolation K)
    (hno : ∀ t, ss.anyInterpolated t = false) (par : ParamObjects K) (hsh : ParamsShape ss par)
    (hcv : ContinuationTotal ss par) (hdelta : par.delta ≠ 0) (seed : Nat)
    (ev0 : Dict Nat (List K)) (hs : SameShape (initialValues ss) ev0) :
    (solveBackward ss interp par seed ev0).2 = true :=
  backwardLoop_total ss interp par (fun ev hev t ht seed =>
    periodValues_full_total ss hwf interp par hsh hcv hdelta ev hev t ht (hno t) seed) seed ev0 hs

/-- The solution with interpolation succeeds if the interpolation does. -/
theorem solveBackward_total_interpolated (ss : SolveSpace) (hwf : ss.WF) (interp : Interpolation K)
    (par : ParamObjects K) (hint : InterpolationTotal ss par interp) (hsh : ParamsShape ss par)
    (hcv : ContinuationTotal ss par) (hdelta : par.delta ≠ 0) (seed : Nat)
    (ev0 : Dict Nat (List K)) (hs : SameShape (initialValues ss) ev0) :
    (solveBackward ss interp par seed ev0).2 = true := by
  refine backwardLoop_total ss interp par (fun ev hev t ht seed => ?_) seed ev0 hs
  cases h : ss.anyInterpolated t with
  | false => exact periodValues_full_total ss hwf interp par hsh hcv hdelta ev hev t ht h seed
  | true => exact periodValues_interpolated_total ss interp par hint hcv hdelta ev hev t ht h seed

/-- With a discount factor of zero the solution always succeeds. -/
theorem solveBackward_total_zero (ss : SolveSpace) (hwf : ss.WF) (interp : Interpolation K)
    (par : ParamObjects K) (hdelta : par.delta = 0) (seed : Nat)
    (ev0 : Dict Nat (List K)) (hs : SameShape (initialValues ss) ev0) :
    (solveBackward ss interp par seed ev0).2 = true := by
  refine backwardLoop_total ss interp par (fun ev _ t _ seed => ?_) seed ev0 hs
  refine ⟨_, seed, by unfold periodValues; rw [if_pos hdelta], ?_⟩
  intro kv hkv
  obtain ⟨k, hk, rfl⟩ := List.mem_map.1 hkv
  obtain ⟨c, hc, _⟩ := (mem_keysOfPeriod _ _ _).1 hk
  have hkl : k < ss.nStates.length := by
    rw [hwf.shape]; exact (List.getElem?_eq_some_iff.1 hc).1
  exact ⟨_, List.getElem?_eq_getElem hkl, trivial⟩

end Respy
