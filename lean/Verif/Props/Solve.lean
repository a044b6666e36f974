import Verif.Lemmas.Solve5
import Verif.Model.SolveHistory
import Mathlib.Algebra.Order.Ring.Rat

/-!
# Properties of the solution: C11, C13 (backward induction), C14, C15, C23
-/

set_option linter.unusedSectionVars false

namespace Respy

variable {K : Type _} [Field K] [LinearOrder K]

/-! ## C11 -/

/-- Specification: `x` is the stored value of the child state reached from the `i`-th state of dense
key `k` with the choice in column `j`; it belongs to the next period and the same dense state. -/
def IsChildValue (ss : SolveSpace) (ev : Dict Nat (List K)) (k i j : Nat) (x : K) : Prop :=
  ∃ c children childRow child dk c' values, ss.complexes[k]? = some c ∧
    Dict.get? ss.childIndices k = some children ∧ children[i]? = some childRow ∧
    childRow[j]? = some child ∧ Dict.get? ss.lookup (child.1, c.dense.getD 0) = some dk ∧
    ss.complexes[dk]? = some c' ∧ c'.period = c.period + 1 ∧ Dict.get? ev dk = some values ∧
    values[child.2]? = some x

theorem isChildValue_of_entry (ss : SolveSpace) (ev : Dict Nat (List K)) (k n : Nat) (c : Complex)
    (cs : List Bool) (hc : ss.complexes[k]? = some c) (hcs : ss.columnChoiceSet k = some cs)
    (hn : ss.nStates[k]? = some n) (a : List (List K))
    (h : continuationArray ss (ss.attributeOfPeriod ev (c.period + 1)) k = some a) (i : Nat)
    (hi : i < n) :
    ∃ row, a[i]? = some row ∧ row.length = cs.count true ∧
      ∀ j < cs.count true, ∃ x, row[j]? = some x ∧ IsChildValue ss ev k i j x := by
  obtain ⟨row, h1, h2, h3⟩ := continuationArray_entry ss _ k n c cs hc hcs hn a h i hi
  refine ⟨row, h1, h2, fun j hj => ?_⟩
  obtain ⟨children, childRow, child, dk, values, v, g1, g2, g3, g4, g5, g6, g7⟩ := h3 j hj
  rw [get?_attributeOfPeriod] at g5
  split at g5
  · rename_i hmem
    obtain ⟨c', hc', hp⟩ := (mem_keysOfPeriod _ _ _).1 hmem
    exact ⟨v, g7, c, children, childRow, child, dk, c', values, hc, g1, g2, g3, g4, hc', hp, g5, g6⟩
  · cases g5

/-- Specification: the rewards and draws of the `i`-th state of dense key `k`. -/
def IsRow (d : Dict Nat (List (List K))) (k i : Nat) (row : List K) : Prop :=
  ∃ rows, Dict.get? d k = some rows ∧ rows[i]? = some row

theorem solve_row_period (ss : SolveSpace) (hwf : ss.WF) (interp : Interpolation K)
    (hint : InterpolationKeys ss interp) (par : ParamObjects K) (hdelta : par.delta ≠ 0)
    (seed : Nat) (ev0 : Dict Nat (List K)) (hs : SameShape (initialValues ss) ev0)
    (hok : (solveBackward ss interp par seed ev0).2 = true)
    (k : Nat) (c : Complex) (hc : ss.complexes[k]? = some c)
    (hno : ss.anyInterpolated c.period = false) (i n : Nat)
    (hn : ss.nStates[k]? = some n) (hi : i < n) :
    let ev := (solveBackward ss interp par seed ev0).1
    ∃ cvs arr stored w m cv draws v,
      continuationValues ss par.transition ev c.period = some cvs ∧
      Dict.get? cvs k = some arr ∧ arr[i]? = some cv ∧
      Dict.get? ev k = some stored ∧ stored.length = n ∧ stored[i]? = some v ∧
      IsRow par.wages k i w ∧ IsRow par.nonpecs k i m ∧ Dict.get? par.draws k = some draws ∧
      m.length = w.length ∧ cv.length = w.length ∧ (∀ d ∈ draws, d.length = w.length) ∧
      v = emax w m cv draws par.delta := by
  intro ev
  obtain ⟨cvs, vs, n', hn', hcvs, hfs, hlen, hg⟩ :=
    solve_fixpoint_period ss hwf interp hint par hdelta seed ev0 hs hok k c hc hno
  rw [hn] at hn'; cases hn'
  obtain ⟨wages, nonpecs, arr, draws, w, m, cv, h1, h2, h3, h4, h5, h6, h7, h8, h9, h10, h11⟩ :=
    fullSolution_row ss par cvs k n vs hn hfs i hi
  exact ⟨cvs, arr, vs, w, m, cv, draws, _, hcvs, h3, h7, hg, hlen, h11, ⟨wages, h1, h5⟩,
    ⟨nonpecs, h2, h6⟩, h4, h8, h9, h10, rfl⟩

theorem solve_row (ss : SolveSpace) (hwf : ss.WF) (interp : Interpolation K)
    (hno : ∀ t, ss.anyInterpolated t = false) (par : ParamObjects K) (hdelta : par.delta ≠ 0)
    (seed : Nat) (ev0 : Dict Nat (List K)) (hs : SameShape (initialValues ss) ev0)
    (hok : (solveBackward ss interp par seed ev0).2 = true)
    (k : Nat) (c : Complex) (hc : ss.complexes[k]? = some c) (i n : Nat)
    (hn : ss.nStates[k]? = some n) (hi : i < n) :
    let ev := (solveBackward ss interp par seed ev0).1
    ∃ cvs arr stored w m cv draws v,
      continuationValues ss par.transition ev c.period = some cvs ∧
      Dict.get? cvs k = some arr ∧ arr[i]? = some cv ∧
      Dict.get? ev k = some stored ∧ stored.length = n ∧ stored[i]? = some v ∧
      IsRow par.wages k i w ∧ IsRow par.nonpecs k i m ∧ Dict.get? par.draws k = some draws ∧
      m.length = w.length ∧ cv.length = w.length ∧ (∀ d ∈ draws, d.length = w.length) ∧
      v = emax w m cv draws par.delta := by
  intro ev
  obtain ⟨cvs, vs, n', hn', hcvs, hfs, hlen, hg⟩ :=
    solve_fixpoint ss hwf interp hno par hdelta seed ev0 hs hok k c hc
  rw [hn] at hn'; cases hn'
  obtain ⟨wages, nonpecs, arr, draws, w, m, cv, h1, h2, h3, h4, h5, h6, h7, h8, h9, h10, h11⟩ :=
    fullSolution_row ss par cvs k n vs hn hfs i hi
  exact ⟨cvs, arr, vs, w, m, cv, draws, _, hcvs, h3, h7, hg, hlen, h11, ⟨wages, h1, h5⟩,
    ⟨nonpecs, h2, h6⟩, h4, h8, h9, h10, rfl⟩

/-- **C11 (partial).** Models without exogenous processes, without interpolation and with a discount
factor other than zero. After `solve` the value stored for every state of every dense key is the
Monte Carlo Bellman operator applied to the continuation values `cv`, where `cv` is zero in the last
period and consists of the stored values of the child states otherwise. The state of the arrays
before the call is arbitrary. Missing: a discount factor of zero, where zeros are stored and the
statement is false (`C11_bellman_false`); exogenous processes are the subject of
`C11_bellman_exogenous_partial`. -/
theorem C11_bellman_partial (ss : SolveSpace) (hwf : ss.WF) (hexo : ss.transit = none)
    (interp : Interpolation K)
    (hno : ∀ t, ss.anyInterpolated t = false) (par : ParamObjects K) (hdelta : par.delta ≠ 0)
    (seed : Nat) (ev0 : Dict Nat (List K)) (hs : SameShape (initialValues ss) ev0)
    (hok : (solveBackward ss interp par seed ev0).2 = true)
    (k : Nat) (c : Complex) (hc : ss.complexes[k]? = some c) (i n : Nat)
    (hn : ss.nStates[k]? = some n) (hi : i < n) :
    ∃ stored w m cv draws v,
      Dict.get? (solveBackward ss interp par seed ev0).1 k = some stored ∧ stored.length = n ∧
      stored[i]? = some v ∧
      IsRow par.wages k i w ∧ IsRow par.nonpecs k i m ∧ Dict.get? par.draws k = some draws ∧
      m.length = w.length ∧ cv.length = w.length ∧ (∀ d ∈ draws, d.length = w.length) ∧
      cv.length = c.choiceSet.count true ∧
      IsMeanMax par.delta w m cv draws v ∧
      (c.period + 1 = ss.nPeriods → ∀ x ∈ cv, x = 0) ∧
      (c.period + 1 ≠ ss.nPeriods → ∀ j < c.choiceSet.count true, ∃ x, cv[j]? = some x ∧
        IsChildValue ss (solveBackward ss interp par seed ev0).1 k i j x) := by
  obtain ⟨cvs, arr, stored, w, m, cv, draws, v, hcvs, harr, hcv, g1, g2, g3, g4, g5, g6, g7, g8, g9,
    rfl⟩ := solve_row ss hwf interp hno par hdelta seed ev0 hs hok k c hc i n hn hi
  by_cases hlast : c.period + 1 = ss.nPeriods
  · obtain ⟨n', hn', ha⟩ := continuationValues_last ss _ _ _ hlast cvs hcvs k c hc rfl
    rw [hn] at hn'; cases hn'
    rw [harr, Option.some.injEq] at ha
    subst ha
    have : cv = List.replicate (c.choiceSet.count true) 0 := by
      simp [hi] at hcv; exact hcv.symm
    subst this
    refine ⟨stored, w, m, _, draws, _, g1, g2, g3, g4, g5, g6, g7, g8, g9, by simp,
      emax_isMeanMax .., fun _ x hx => (List.mem_replicate.1 hx).2, fun h => absurd hlast h⟩
  · have hk : k ∈ ss.keysOfPeriod c.period := (mem_keysOfPeriod _ _ _).2 ⟨c, hc, rfl⟩
    obtain ⟨a, ha, hg⟩ := continuationValues_inner ss _ _ _ hlast hexo cvs hcvs k hk
    rw [harr, Option.some.injEq] at hg
    subst hg
    obtain ⟨row, hr1, hr2, hr3⟩ := isChildValue_of_entry ss _ k n c c.choiceSet hc
      (by simp [SolveSpace.columnChoiceSet, hexo, hc]) hn arr ha i hi
    rw [hcv] at hr1; cases hr1
    exact ⟨stored, w, m, cv, draws, _, g1, g2, g3, g4, g5, g6, g7, g8, g9, hr2,
      emax_isMeanMax .., fun h => absurd h hlast, fun _ => hr3⟩

/-- **C11 (partial), exogenous processes.** As `C11_bellman_partial`; the continuation value of
choice `a` is the sum over the reachable dense keys `f` of the probability of `f` times the stored
value of the child state of `f` for the same choice `a`. The transit choice set of a reachable dense
key is assumed to contain the choices of `k`, which is what `C20_transit_choice_sets` provides. -/
theorem C11_bellman_exogenous_partial (ss : SolveSpace) (hwf : ss.WF) (reps : Dict Nat (List Bool))
    (hexo : ss.transit = some reps) (interp : Interpolation K)
    (hno : ∀ t, ss.anyInterpolated t = false) (par : ParamObjects K) (hdelta : par.delta ≠ 0)
    (seed : Nat) (ev0 : Dict Nat (List K)) (hs : SameShape (initialValues ss) ev0)
    (hok : (solveBackward ss interp par seed ev0).2 = true)
    (k : Nat) (c : Complex) (hc : ss.complexes[k]? = some c) (i n : Nat)
    (hn : ss.nStates[k]? = some n) (hi : i < n)
    (cols : List (Nat × List K)) (hcols : Dict.get? par.transition k = some cols)
    (hreps : ∀ col ∈ cols, ∃ rep, Dict.get? reps col.1 = some rep ∧
      rep.length = c.choiceSet.length ∧
      ∀ a : Nat, c.choiceSet[a]? = some true → rep[a]? = some true) :
    ∃ stored w m cv draws v,
      Dict.get? (solveBackward ss interp par seed ev0).1 k = some stored ∧ stored.length = n ∧
      stored[i]? = some v ∧
      IsRow par.wages k i w ∧ IsRow par.nonpecs k i m ∧ Dict.get? par.draws k = some draws ∧
      m.length = w.length ∧ cv.length = w.length ∧ (∀ d ∈ draws, d.length = w.length) ∧
      cv.length = c.choiceSet.count true ∧
      IsMeanMax par.delta w m cv draws v ∧
      (c.period + 1 = ss.nPeriods → ∀ x ∈ cv, x = 0) ∧
      (c.period + 1 ≠ ss.nPeriods → ∃ (p : Nat × List K → K) (x : Nat → Nat → K),
        (∀ col ∈ cols, col.2[i]? = some (p col)) ∧
        (∀ col ∈ cols, ∀ rep, Dict.get? reps col.1 = some rep → ∀ a : Nat,
          c.choiceSet[a]? = some true →
          IsChildValue ss (solveBackward ss interp par seed ev0).1 col.1 i (positionIn rep a)
            (x col.1 a)) ∧
        ∀ a : Nat, c.choiceSet[a]? = some true →
          cv[positionIn c.choiceSet a]? = some (cols.map fun col => p col * x col.1 a).sum) := by
  obtain ⟨cvs, arr, stored, w, m, cv, draws, v, hcvs, harr, hcv, g1, g2, g3, g4, g5, g6, g7, g8, g9,
    rfl⟩ := solve_row ss hwf interp hno par hdelta seed ev0 hs hok k c hc i n hn hi
  by_cases hlast : c.period + 1 = ss.nPeriods
  · obtain ⟨n', hn', ha⟩ := continuationValues_last ss _ _ _ hlast cvs hcvs k c hc rfl
    rw [hn] at hn'; cases hn'
    rw [harr, Option.some.injEq] at ha
    subst ha
    have : cv = List.replicate (c.choiceSet.count true) 0 := by
      simp [hi] at hcv; exact hcv.symm
    subst this
    refine ⟨stored, w, m, _, draws, _, g1, g2, g3, g4, g5, g6, g7, g8, g9, by simp,
      emax_isMeanMax .., fun _ x hx => (List.mem_replicate.1 hx).2, fun h => absurd hlast h⟩
  · have hk : k ∈ ss.keysOfPeriod c.period := (mem_keysOfPeriod _ _ _).2 ⟨c, hc, rfl⟩
    obtain ⟨raw, c', n', cols', a, hraw, hrk, e1, e2, e3, hw, hg⟩ :=
      continuationValues_exogenous ss _ _ _ hlast reps hexo cvs hcvs k hk
    rw [hc] at e1; cases e1
    rw [hn] at e2; cases e2
    rw [hcols] at e3; cases e3
    rw [harr, Option.some.injEq] at hg
    subst hg
    have hrow := mapM_range_getElem? _ _ _ hw i hi
    rw [hcv] at hrow
    -- the row of each reachable key, from the success of `weightRow`
    have hparts : cols ≠ [] ∧ ∀ col ∈ cols, ∃ f n' c' rep arr row p, col.1 = f ∧
        ss.complexes[f]? = some c' ∧ c'.period = c.period ∧ ss.nStates[f]? = some n' ∧ i < n' ∧
        Dict.get? reps f = some rep ∧ Dict.get? raw f = some arr ∧ arr[i]? = some row ∧
        row.length = rep.count true ∧ col.2[i]? = some p ∧
        ∀ j < rep.count true, ∃ y, row[j]? = some y ∧
          IsChildValue ss (solveBackward ss interp par seed ev0).1 f i j y := by
      have hrow' := hrow.symm
      unfold weightRow at hrow'
      obtain ⟨cs', hm, hr⟩ := Option.bind_eq_some_iff.1 hrow'
      constructor
      · rintro rfl
        simp only [List.mapM_nil, Option.pure_def, Option.some.injEq] at hm
        subst hm
        simp [reduceAdd] at hr
      · intro col hcol
        rw [mapM_eq_some_iff] at hm
        obtain ⟨q, hq⟩ := List.mem_iff_getElem?.1 hcol
        obtain ⟨b, _, hb⟩ := forall₂_getElem? hm q _ hq
        obtain ⟨rep, b1, hb⟩ := Option.bind_eq_some_iff.1 hb
        obtain ⟨mask, b2, hb⟩ := Option.bind_eq_some_iff.1 hb
        obtain ⟨arr', b3, hb⟩ := Option.bind_eq_some_iff.1 hb
        obtain ⟨row, b4, hb⟩ := Option.bind_eq_some_iff.1 hb
        obtain ⟨adj, b5, hb⟩ := Option.bind_eq_some_iff.1 hb
        obtain ⟨p, b6, _⟩ := Option.bind_eq_some_iff.1 hb
        have hfk : col.1 ∈ ss.keysOfPeriod c.period := by
          rw [← hrk, ← Dict.isSome_get?_iff, b3]; rfl
        obtain ⟨cf, hcf, hpf⟩ := (mem_keysOfPeriod _ _ _).1 hfk
        have hfl : col.1 < ss.nStates.length := by
          rw [hwf.shape]; exact (List.getElem?_eq_some_iff.1 hcf).1
        have hnf : ss.nStates[col.1]? = some ss.nStates[col.1] := List.getElem?_eq_getElem hfl
        have hca := hraw _ hfk
        rw [b3] at hca
        have hcsf : ss.columnChoiceSet col.1 = some rep := by
          simp [SolveSpace.columnChoiceSet, hexo, b1]
        have hin : i < ss.nStates[col.1] := by
          have h1 := (List.getElem?_eq_some_iff.1 b4).1
          have := hca.symm
          unfold continuationArray at this
          simp only [hcf, hcsf, hnf, Option.bind_eq_bind, Option.bind_some] at this
          obtain ⟨_, _, this⟩ := Option.bind_eq_some_iff.1 this
          have := mapM_eq_some_length _ _ _ this
          rw [List.length_range] at this
          omega
        rw [← hpf] at hca
        obtain ⟨row', r1, r2, r3⟩ := isChildValue_of_entry ss _ col.1 _ cf rep hcf hcsf hnf arr'
          hca.symm i hin
        rw [b4] at r1; cases r1
        exact ⟨col.1, _, cf, rep, arr', row, p, rfl, hcf, hpf, hnf, hin, b1, b3, b4, r2, b6, r3⟩
    obtain ⟨hne, hparts⟩ := hparts
    let p : Nat × List K → K := fun col => (col.2[i]?).getD 0
    let x : Nat → Nat → K := fun f a =>
      (((Dict.get? raw f).bind fun arr => arr[i]?).bind fun row =>
        (Dict.get? reps f).bind fun rep => row[positionIn rep a]?).getD 0
    have hkey := C20_weighted_continuation_values c.choiceSet reps raw cols i x p hne (by
      intro col hcol
      obtain ⟨f, nf, cf, rep, arr', row, pf, rfl, _, _, _, _, q1, q2, q3, q4, q5, _⟩ :=
        hparts col hcol
      obtain ⟨rep', q6, q7, q8⟩ := hreps col hcol
      rw [q1] at q6; cases q6
      refine ⟨rep, arr', q1, q7, q8, q2, ?_, by simp [p, q5]⟩
      rw [q3]
      congr 1
      have hvc : ((List.range rep.length).filter fun a => decide (rep[a]? = some true)) =
        validChoices rep := rfl
      rw [hvc]
      apply List.ext_getElem?
      intro j
      rw [List.getElem?_map]
      by_cases hj : j < (validChoices rep).length
      · rw [List.getElem?_eq_getElem hj, Option.map_some]
        have hmem : (validChoices rep)[j] ∈ validChoices rep := List.getElem_mem hj
        rw [mem_validChoices] at hmem
        have hpos : positionIn rep (validChoices rep)[j] = j := by
          have h1 := validChoices_positionIn rep _ hmem
          have h2 := List.getElem?_eq_getElem hj
          exact (List.getElem?_inj (by
            exact (List.getElem?_eq_some_iff.1 h1).1) (validChoices_nodup rep)).1 (h1.trans h2.symm)
        have hjr : j < row.length := by rw [q4, ← length_validChoices]; exact hj
        simp [x, q1, q2, q3, hpos, hjr]
      · rw [List.getElem?_eq_none (l := validChoices rep) (by omega), Option.map_none]
        exact List.getElem?_eq_none (by rw [q4, ← length_validChoices]; omega))
    rw [hkey, Option.some.injEq] at hrow
    have hvcs : ((List.range c.choiceSet.length).filter
      fun a => decide (c.choiceSet[a]? = some true)) = validChoices c.choiceSet := rfl
    rw [hvcs] at hrow
    refine ⟨stored, w, m, cv, draws, _, g1, g2, g3, g4, g5, g6, g7, g8, g9, ?_,
      emax_isMeanMax .., fun h => absurd h hlast, fun _ => ⟨p, x, ?_, ?_, ?_⟩⟩
    · rw [hrow, List.length_map, length_validChoices]
    · intro col hcol
      obtain ⟨f, nf, cf, rep, arr', row, pf, _, _, _, _, _, _, _, _, _, q5, _⟩ := hparts col hcol
      simp [p, q5]
    · intro col hcol rep hrep a ha
      obtain ⟨f, nf, cf, rep', arr', row, pf, rfl, _, _, _, _, q1, q2, q3, q4, q5, q9⟩ :=
        hparts col hcol
      rw [hrep] at q1; cases q1
      obtain ⟨rep', q6, q7, q8⟩ := hreps col hcol
      rw [hrep] at q6; cases q6
      obtain ⟨y, y1, y2⟩ := q9 _ (positionIn_lt rep a (q8 a ha))
      have : x col.1 a = y := by simp [x, hrep, q2, q3, y1]
      rw [this]; exact y2
    · intro a ha
      rw [hrow, List.getElem?_map, validChoices_positionIn _ _ ha, Option.map_some]

/-- Two periods, two choices, one state in period 0 and two states in period 1. -/
def exampleSpace : SolveSpace where
  nPeriods := 2
  complexes := [⟨0, [true, true], none⟩, ⟨1, [true, true], none⟩]
  nStates := [1, 2]
  childIndices := [(0, [[(1, 0), (1, 1)]])]
  lookup := [((0, 0), 0), ((1, 0), 1)]
  transit := none
  interpolationPoints := 100

/-- Parameters for `exampleSpace`: wages `w`, two draws. -/
def exampleObjects (w delta : ℚ) : ParamObjects ℚ where
  wages := [(0, [[w, 1]]), (1, [[w, 1], [2 * w, 1]])]
  nonpecs := [(0, [[0, 1]]), (1, [[0, 1], [0, 3]])]
  draws := [(0, [[1, 1], [2, 1]]), (1, [[1, 1], [2, 1]])]
  delta := delta
  transition := []

theorem exampleSpace_wf : exampleSpace.WF :=
  ⟨rfl, by decide⟩

theorem exampleSpace_no_interpolation (t : Nat) : exampleSpace.anyInterpolated t = false := by
  have h : ((exampleSpace.keysOfPeriod t).map fun k => (exampleSpace.nStates[k]?).getD 0).sum ≤ 3 := by
    refine le_trans (List.Sublist.sum_le_sum ((List.filter_sublist).map _) (by simp)) ?_
    decide
  simp only [SolveSpace.anyInterpolated, Bool.and_eq_false_iff, decide_eq_false_iff_not]
  left
  show ¬ (100 < _)
  omega

/-- The hypotheses of `C11_bellman_partial` are met; the value of period 0 is
`(max (2 + 3/2) (2 + 6/2) + max (4 + 3/2) (2 + 6/2)) / 2`. -/
example : exampleSpace.WF ∧ exampleSpace.transit = none ∧
    (∀ t, exampleSpace.anyInterpolated t = false) ∧ (exampleObjects 2 (1/2)).delta ≠ 0 ∧
    SameShape (initialValues exampleSpace) (initialValues exampleSpace : Dict Nat (List ℚ)) ∧
    solveBackward exampleSpace (fun _ _ _ _ => none) (exampleObjects 2 (1/2)) 0
      (initialValues exampleSpace) = ([(0, [21/4]), (1, [3, 6])], true) :=
  ⟨exampleSpace_wf, rfl, exampleSpace_no_interpolation, by decide +kernel, SameShape.refl _,
    by decide +kernel⟩

/-- **C11 (negated).** With a discount factor of zero the stored values are zero, although no
continuation values whatsoever give zero under the Bellman operator. -/
theorem C11_bellman_false :
    solveBackward exampleSpace (fun _ _ _ _ => none) (exampleObjects 2 0) 0
      (initialValues exampleSpace) = ([(0, [0]), (1, [0, 0])], true) ∧
    IsRow (exampleObjects 2 0).wages 0 0 [2, 1] ∧ IsRow (exampleObjects 2 0).nonpecs 0 0 [0, 1] ∧
    ∀ cv : List ℚ, cv.length = 2 → ¬ IsMeanMax 0 [2, 1] [0, 1] cv [[1, 1], [2, 1]] 0 := by
  refine ⟨by decide +kernel, ⟨_, rfl, rfl⟩, ⟨_, rfl, rfl⟩, ?_⟩
  intro cv hcv h
  obtain ⟨a, b, rfl⟩ : ∃ a b, cv = [a, b] := by
    match cv, hcv with
    | [a, b], _ => exact ⟨a, b, rfl⟩
  obtain ⟨best, hb, hv⟩ := h
  have h1 := (hb [1, 1] (by simp)).2 (Or.inr ⟨0, 2, 0, a, 1, rfl, rfl, rfl, rfl, rfl⟩)
  have h2 := (hb [2, 1] (by simp)).2 (Or.inr ⟨0, 2, 0, a, 2, rfl, rfl, rfl, rfl, rfl⟩)
  simp only [List.map_cons, List.map_nil, List.sum_cons, List.sum_nil, List.length_cons,
    List.length_nil] at hv
  norm_num at h1 h2 hv
  linarith

/-! ## C13: backward induction -/

section mono
variable [IsStrictOrderedRing K]

/-- **C13.** The solution of the whole model is monotone in the non-pecuniary rewards: if two
parameter vectors differ only in non-pecuniary rewards, and the second has weakly larger ones
everywhere, then its expected value functions are weakly larger in every state of every period.
Exogenous processes are allowed. -/
theorem C13_solution_monotone (ss : SolveSpace) (hwf : ss.WF) (interp : Interpolation K)
    (hno : ∀ t, ss.anyInterpolated t = false) (par par' : ParamObjects K)
    (hw : par'.wages = par.wages) (hdr : par'.draws = par.draws) (hde : par'.delta = par.delta)
    (htr : par'.transition = par.transition) (hdelta : 0 ≤ par.delta)
    (hnp : ∀ k a b, Dict.get? par.nonpecs k = some a → Dict.get? par'.nonpecs k = some b →
      List.Forall₂ (List.Forall₂ (· ≤ ·)) a b)
    (hprob : ∀ k cols, Dict.get? par.transition k = some cols → ∀ col ∈ cols, ∀ p ∈ col.2, 0 ≤ p)
    (seed seed' : Nat) (ev0 ev0' : Dict Nat (List K)) (hs : SameShape (initialValues ss) ev0)
    (hs' : SameShape (initialValues ss) ev0')
    (hok : (solveBackward ss interp par seed ev0).2 = true)
    (hok' : (solveBackward ss interp par' seed' ev0').2 = true)
    (k : Nat) (c : Complex) (hc : ss.complexes[k]? = some c) :
    ∃ vs vs', Dict.get? (solveBackward ss interp par seed ev0).1 k = some vs ∧
      Dict.get? (solveBackward ss interp par' seed' ev0').1 k = some vs' ∧
      List.Forall₂ (· ≤ ·) vs vs' := by
  have hkl : ∀ (k : Nat) (c : Complex), ss.complexes[k]? = some c → ∃ n, ss.nStates[k]? = some n := by
    intro k c hc
    have : k < ss.nStates.length := by
      rw [hwf.shape]; exact (List.getElem?_eq_some_iff.1 hc).1
    exact ⟨_, List.getElem?_eq_getElem this⟩
  by_cases h0 : par.delta = 0
  · obtain ⟨n, hn⟩ := hkl k c hc
    refine ⟨_, _, solve_delta_zero ss hwf interp par h0 seed ev0 hs hok k n hn,
      solve_delta_zero ss hwf interp par' (hde.trans h0) seed' ev0' hs' hok' k n hn, ?_⟩
    exact List.forall₂_same.2 fun _ _ => le_rfl
  · have h0' : par'.delta ≠ 0 := by rw [hde]; exact h0
    have main : ∀ (d k : Nat) (c : Complex), ss.complexes[k]? = some c → c.period + d + 1 = ss.nPeriods →
        ∃ vs vs', Dict.get? (solveBackward ss interp par seed ev0).1 k = some vs ∧
          Dict.get? (solveBackward ss interp par' seed' ev0').1 k = some vs' ∧
          List.Forall₂ (· ≤ ·) vs vs' := by
      intro d
      induction d with
      | zero =>
        intro k c hc hd
        obtain ⟨cvs, vs, n, hn, g1, g2, g3, g4⟩ :=
          solve_fixpoint ss hwf interp hno par h0 seed ev0 hs hok k c hc
        obtain ⟨cvs', vs', n', hn', g1', g2', g3', g4'⟩ :=
          solve_fixpoint ss hwf interp hno par' h0' seed' ev0' hs' hok' k c hc
        rw [hn] at hn'; cases hn'
        refine ⟨vs, vs', g4, g4', ?_⟩
        rw [htr] at g1'
        refine fullSolution_mono ss par par' hw hdr hde hdelta cvs cvs' k n hn vs vs' ?_
          (hnp k) g2 g2'
        intro a a' ha ha'
        exact continuationValues_mono ss par.transition hprob _ _ c.period cvs cvs' (by
          intro f hf x y _ _
          obtain ⟨cf, hcf, hpf⟩ := (mem_keysOfPeriod _ _ _).1 hf
          have := hwf.periods cf (List.mem_of_getElem? hcf)
          omega) g1 g1' k ((mem_keysOfPeriod _ _ _).2 ⟨c, hc, rfl⟩) a a' ha ha'
      | succ d ih =>
        intro k c hc hd
        obtain ⟨cvs, vs, n, hn, g1, g2, g3, g4⟩ :=
          solve_fixpoint ss hwf interp hno par h0 seed ev0 hs hok k c hc
        obtain ⟨cvs', vs', n', hn', g1', g2', g3', g4'⟩ :=
          solve_fixpoint ss hwf interp hno par' h0' seed' ev0' hs' hok' k c hc
        rw [hn] at hn'; cases hn'
        refine ⟨vs, vs', g4, g4', ?_⟩
        rw [htr] at g1'
        refine fullSolution_mono ss par par' hw hdr hde hdelta cvs cvs' k n hn vs vs' ?_
          (hnp k) g2 g2'
        intro a a' ha ha'
        exact continuationValues_mono ss par.transition hprob _ _ c.period cvs cvs' (by
          intro f hf x y hx hy
          obtain ⟨cf, hcf, hpf⟩ := (mem_keysOfPeriod _ _ _).1 hf
          obtain ⟨x', y', h1, h2, h3⟩ := ih f cf hcf (by omega)
          rw [hx] at h1; cases h1
          rw [hy] at h2; cases h2
          exact h3) g1 g1' k ((mem_keysOfPeriod _ _ _).2 ⟨c, hc, rfl⟩) a a' ha ha'
    have hp := hwf.periods c (List.mem_of_getElem? hc)
    exact main (ss.nPeriods - c.period - 1) k c hc (by omega)

end mono

/-- Larger non-pecuniary rewards in the example. -/
example : (∀ k a b, Dict.get? (exampleObjects 2 (1/2)).nonpecs k = some a →
      Dict.get? { exampleObjects 2 (1/2) with
        nonpecs := [(0, [[0, 2]]), (1, [[1, 1], [0, 3]])] }.nonpecs k = some b →
      List.Forall₂ (List.Forall₂ (· ≤ ·)) a b) ∧
    solveBackward exampleSpace (fun _ _ _ _ => none) { exampleObjects 2 (1/2) with
        nonpecs := [(0, [[0, 2]]), (1, [[1, 1], [0, 3]])] } 0
      (initialValues exampleSpace) = ([(0, [6]), (1, [4, 6])], true) := by
  refine ⟨?_, by decide +kernel⟩
  intro k a b ha hb
  have ha' := Dict.mem_of_get? _ _ _ ha
  have hb' := Dict.mem_of_get? _ _ _ hb
  simp only [exampleObjects, List.mem_cons, Prod.mk.injEq, List.not_mem_nil, or_false] at ha' hb'
  rcases ha' with ⟨rfl, rfl⟩ | ⟨rfl, rfl⟩ <;> rcases hb' with ⟨h, rfl⟩ | ⟨h, rfl⟩ <;>
    first | (exfalso; revert h; decide) | norm_num

/-! ## C14 -/

variable {P : Type _}

theorem after_shape (m : SolveModel K P) (history : List P) (st : Solution K) :
    SameShape st.ev (m.after st history).ev := by
  unfold SolveModel.after
  induction history generalizing st with
  | nil => exact SameShape.refl _
  | cons p history ih =>
    rw [List.foldl_cons]
    refine SameShape.trans ?_ (ih _)
    unfold SolveModel.solve
    split
    · exact SameShape.refl _
    · exact backwardLoop_shape _ _ _ _ _ _

/-- **C14.** Whatever parameters have been solved for before, successfully or not, `solve(params)`
succeeds if and only if it succeeds on a new object, and it leaves the same wages, non-pecuniary
rewards and expected value functions. -/
theorem C14_solve_history_independent (m : SolveModel K P) (hwf : m.ss.WF)
    (hint : InterpolationKeys m.ss m.interp) (history : List P) (p : P) :
    (m.solve (m.after m.fresh history) p).2 = (m.solve m.fresh p).2 ∧
    ((m.solve m.fresh p).2 = true →
      (m.solve (m.after m.fresh history) p).1 = (m.solve m.fresh p).1) := by
  have hshape : SameShape (initialValues m.ss) (m.after m.fresh history).ev :=
    after_shape m history m.fresh
  unfold SolveModel.solve
  cases hobj : m.objects p with
  | none => simp
  | some par =>
    simp only
    obtain ⟨h1, h2⟩ := backwardLoop_agree m.ss m.interp hint par m.ss.nPeriods
      (m.after m.fresh history).ev (initialValues m.ss) m.seed hshape.symm
      (fun k c hc hle => absurd (hwf.periods c (List.mem_of_getElem? hc)) (by omega))
    refine ⟨h1, fun hok => ?_⟩
    have hok' : (backwardLoop m.ss m.interp par (List.range m.ss.nPeriods).reverse
      (m.after m.fresh history).ev m.seed).2 = true := h1.trans hok
    have hev : (solveBackward m.ss m.interp par m.seed (m.after m.fresh history).ev).1 =
        (solveBackward m.ss m.interp par m.seed m.fresh.ev).1 := by
      have s1 : SameShape (initialValues m.ss)
          (solveBackward m.ss m.interp par m.seed (m.after m.fresh history).ev).1 :=
        hshape.trans (backwardLoop_shape _ _ _ _ _ _)
      have s2 : SameShape (initialValues m.ss)
          (solveBackward m.ss m.interp par m.seed m.fresh.ev).1 := backwardLoop_shape _ _ _ _ _ _
      refine Dict.ext_get? _ _ (s1.1.symm.trans s2.1) (s1.1 ▸ initialValues_nodup m.ss) ?_
      intro k hk
      rw [← s1.1, initialValues_keys, List.mem_range, hwf.shape] at hk
      exact h2 hok' k _ (List.getElem?_eq_getElem hk)
    rw [hev]

/-- The model of the examples: a parameter vector is a pair of wage and discount factor, of which
negative discount factors are rejected by the checks. -/
def exampleModel : SolveModel ℚ (ℚ × ℚ) where
  ss := exampleSpace
  interp := fun _ _ _ _ => none
  seed := 0
  objects := fun p => if p.2 < 0 then none else some (exampleObjects p.1 p.2)

/-- A history with a failing call. -/
example : exampleModel.ss.WF ∧ InterpolationKeys exampleModel.ss exampleModel.interp ∧
    (exampleModel.solve (exampleModel.after exampleModel.fresh [(7, 1), (3, -1)]) (2, 1/2)).1.ev =
      [(0, [21/4]), (1, [3, 6])] ∧
    (exampleModel.solve exampleModel.fresh (2, 1/2)).2 = true :=
  ⟨exampleSpace_wf, (fun _ _ _ _ _ _ h => nomatch h), by decide +kernel, by decide +kernel⟩

/-! ## C15 -/

/-- **C15 (negated).** The object returned for the first parameter vector describes the solution for
the second parameter vector after the second call: both calls return the same address. -/
theorem C15_returned_solution_false :
    ∃ (m : SolveModel ℚ (ℚ × ℚ)) (p q : ℚ × ℚ),
      let (h0, a) := m.alloc []
      let (h1, r1) := m.call h0 a p
      let (h2, r2) := m.call h1 a q
      r1 = some a ∧ r2 = some a ∧
      (h1[a]?.map fun s => s.ev) = some [(0, [21/4]), (1, [3, 6])] ∧
      (h2[a]?.map fun s => s.ev) = some [(0, [59/8]), (1, [9/2, 9])] :=
  ⟨exampleModel, (2, 1/2), (3, 1/2), by decide +kernel, by decide +kernel, by decide +kernel,
    by decide +kernel⟩

/-- **C15 (partial).** What holds instead: after any sequence of calls the object contains exactly the
solution of the last call, if this was successful, and solutions obtained from other functions (other
objects) are never changed. Missing: the object returned by an earlier call of the same function. -/
theorem C15_last_solution_partial (m : SolveModel K P) (hwf : m.ss.WF)
    (hint : InterpolationKeys m.ss m.interp) (h : Heap K) (history : List P) (p : P)
    (hok : (m.solve m.fresh p).2 = true) :
    let h0 := (m.alloc h).1
    let a := (m.alloc h).2
    let h1 := history.foldl (fun h q => (m.call h a q).1) h0
    (m.call h1 a p).2 = some a ∧ (m.call h1 a p).1[a]? = some (m.solve m.fresh p).1 ∧
      ∀ b < h.length, (m.call h1 a p).1[b]? = h[b]? := by
  intro h0 a h1
  have hinv : ∀ (history : List P) (g : Heap K) (st : Solution K), g[a]? = some st →
      (history.foldl (fun h q => (m.call h a q).1) g)[a]? = some (m.after st history) ∧
      ∀ b, b ≠ a → (history.foldl (fun h q => (m.call h a q).1) g)[b]? = g[b]? := by
    intro history
    induction history with
    | nil => intro g st hst; exact ⟨hst, fun _ _ => rfl⟩
    | cons q history ih =>
      intro g st hst
      have hcall : (m.call g a q).1 = g.set a (m.solve st q).1 := by
        simp [SolveModel.call, hst]
      have hlt := (List.getElem?_eq_some_iff.1 hst).1
      obtain ⟨i1, i2⟩ := ih (m.call g a q).1 (m.solve st q).1 (by rw [hcall]; simp [hlt])
      refine ⟨i1, fun b hb => ?_⟩
      rw [List.foldl_cons, i2 b hb, hcall, List.getElem?_set_ne (Ne.symm hb)]
  have ha : a = h.length := rfl
  have hst : h0[a]? = some m.fresh := by simp [h0, a, SolveModel.alloc]
  obtain ⟨g1, g2⟩ := hinv history h0 m.fresh hst
  obtain ⟨c1, c2⟩ := C14_solve_history_independent m hwf hint history p
  have hh1 : h1[a]? = some (m.after m.fresh history) := g1
  have hlt := (List.getElem?_eq_some_iff.1 hh1).1
  have hcall : m.call h1 a p = (h1.set a (m.solve (m.after m.fresh history) p).1, some a) := by
    simp only [SolveModel.call, hh1]
    rw [c1, hok]; rfl
  rw [hcall]
  refine ⟨rfl, ?_, ?_⟩
  · rw [List.getElem?_set_self hlt, c2 hok]
  · intro b hb
    simp only
    rw [List.getElem?_set_ne (by omega), g2 b (by omega)]
    simp [h0, SolveModel.alloc, List.getElem?_append_left hb]

/-- The hypothesis is met by the example. -/
example : (exampleModel.solve exampleModel.fresh (3, 1/2)).2 = true := by decide +kernel

/-! ## C23 -/

/-- **C23.** With a discount factor of zero the shortcut stores zeros. Let `ev'` be any arrays of the
same shape, in particular those which the backward induction would have stored. Then the continuation
values computed from either exist for the same periods and dense keys, and all choice-specific values
agree in every state and for every draw. They are the flow utilities. -/
theorem C23_zero_discount_shortcut (ss : SolveSpace) (hwf : ss.WF) (interp : Interpolation K)
    (par : ParamObjects K) (hd : par.delta = 0) (seed : Nat) (ev0 ev' : Dict Nat (List K))
    (hs : SameShape (initialValues ss) ev0) (hs' : SameShape (initialValues ss) ev')
    (hok : (solveBackward ss interp par seed ev0).2 = true) (t : Nat) :
    let ev := (solveBackward ss interp par seed ev0).1
    (∀ k n, ss.nStates[k]? = some n → Dict.get? ev k = some (List.replicate n 0)) ∧
    (continuationValues ss par.transition ev t).isSome =
      (continuationValues ss par.transition ev' t).isSome ∧
    ∀ cvs cvs', continuationValues ss par.transition ev t = some cvs →
      continuationValues ss par.transition ev' t = some cvs' →
      Dict.keys cvs = Dict.keys cvs' ∧
      ∀ (k : Nat) (arr arr' : List (List K)) (i : Nat) (cv cv' w m d : List K),
        Dict.get? cvs k = some arr → Dict.get? cvs' k = some arr' →
        arr[i]? = some cv → arr'[i]? = some cv' →
        valueFunctions par.delta w m cv d = valueFunctions par.delta w m cv' d := by
  intro ev
  have hev : SameShape ev ev' :=
    (hs.trans (backwardLoop_shape ss interp par _ ev0 seed)).symm.trans hs'
  have hrel := optRel_continuationValues ss par.transition ev ev' hev t
  refine ⟨fun k n hn => solve_delta_zero ss hwf interp par hd seed ev0 hs hok k n hn,
    optRel_isSome hrel, ?_⟩
  intro cvs cvs' h1 h2
  rw [h1, h2] at hrel
  cases hrel with
  | some hrel =>
    refine ⟨?_, ?_⟩
    · clear h1 h2
      unfold Dict.keys
      induction hrel with
      | nil => rfl
      | cons h _ ih => simp only [List.map_cons, h.1, ih]
    · intro k arr arr' i cv cv' w m d g1 g2 g3 g4
      have r1 := optRel_get? hrel k
      rw [g1, g2] at r1
      cases r1 with
      | some r1 =>
        have r2 := optRel_getElem? r1 i
        rw [g3, g4] at r2
        cases r2 with
        | some r2 =>
          rw [hd]
          exact valueFunctions_zero w m cv cv' d r2

/-- The shortcut and the values of the backward induction with another discount factor as `ev'`. -/
example : SameShape (initialValues exampleSpace) ([(0, [21/4]), (1, [3, 6])] : Dict Nat (List ℚ)) ∧
    continuationValues exampleSpace [] ([(0, [0]), (1, [0, 0])] : Dict Nat (List ℚ)) 0 =
      some [(0, [[0, 0]])] ∧
    continuationValues exampleSpace [] ([(0, [21/4]), (1, [3, 6])] : Dict Nat (List ℚ)) 0 =
      some [(0, [[3, 6]])] := by
  refine ⟨⟨by decide +kernel, fun k => ?_⟩, by decide +kernel, by decide +kernel⟩
  match k with
  | 0 => rfl
  | 1 => rfl
  | k + 2 => rfl

end Respy
