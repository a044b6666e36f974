import Verif.Lemmas.SimulateSpace
import Verif.Lemmas.TransitionFrame
import Verif.Props.EndToEndExogenous

/-! Helper lemmas: the changes of dense columns in the simulation of a solved model. -/

set_option linter.unusedSectionVars false

namespace Respy

variable {K : Type} [Field K] [LinearOrder K] {G : Type}

/-- What the simulation needs to know about a solved model. -/
structure Built.Solved (b : BuildSpec) (core : List CoreState) (bt : Built) (par : ParamObjects K)
    (w m : Option Nat → CoreState → Nat → K)
    (future : Option Nat → CoreState → List (Option Nat × K)) : Prop where
  wf : b.WF core
  sound : ∃ tr, bt.Sound b core tr
  dpc : b.densePeriodCores core (corePeriodChoice b.restrCore core) = some bt.dpc
  nodup : b.GridNodup
  fit : ∃ draws, ParamsFit bt par w m draws
  future_mem : ∀ d ∈ b.denseIndices, ∀ s ∈ core, ∀ fp ∈ future d s, fp.1 ∈ b.denseIndices
  cont : ContinuationIs bt par future
  poss : b.exogLevels.length ≠ 0 → ∀ ev vc ko, ∀ row : SimRow K, row.state.core ∈ core →
    ∀ d, b.HasIndex row.state.dense d →
    (bt.simSpace b par ev vc ko).locate row.state = some (row.denseKey, row.coreIndex) →
    ∃ k, PossibleNext (bt.simSpace b par ev vc ko) row k
  covs : b.exogLevels.length ≠ 0 → ∀ ev vc ko, ∀ row : SimRow K, row.state.core ∈ core →
    ∀ d, b.HasIndex row.state.dense d →
    (bt.simSpace b par ev vc ko).locate row.state = some (row.denseKey, row.coreIndex) →
    ∀ k, PossibleNext (bt.simSpace b par ev vc ko) row k →
      ∃ cov, (bt.simSpace b par ev vc ko).covariates k = some cov
  next : ∀ ev vc ko, ∀ row : SimRow K, row.state.core ∈ core → ∀ d, b.HasIndex row.state.dense d →
    (bt.simSpace b par ev vc ko).locate row.state = some (row.denseKey, row.coreIndex) →
    ∀ s, IsStep (bt.simSpace b par ev vc ko) row s →
    ∃ d' q, b.HasIndex s.dense d' ∧ (d', q) ∈ future d row.state.core ∧ q ≠ 0

theorem Built.Sound.solved_noExogenous {b : BuildSpec} {core : List CoreState} (wf : b.WF core)
    {bt : Built} (hsnd : bt.Sound b core none) (hexo : b.exogLevels = [])
    (hbuild : buildSpace b = some bt) (hgrid : b.GridNodup) {par : ParamObjects K}
    {w m : Option Nat → CoreState → Nat → K} {draws : Nat → List Bool → List (List K)}
    (hfit : ParamsFit bt par w m draws) :
    bt.Solved b core par w m fun d _ => [(d, 1)] where
  wf := wf
  sound := ⟨none, hsnd⟩
  dpc := buildSpace_dpc wf.created hbuild
  nodup := hgrid
  fit := ⟨draws, hfit⟩
  future_mem := by
    intro d hd s _ fp hfp
    simp only [List.mem_singleton] at hfp
    subst hfp; exact hd
  cont := hsnd.continuationIs par
  poss := by intro h; simp [hexo] at h
  covs := by intro h; simp [hexo] at h
  next := by
    intro ev vc ko row hcore d hd hloc s hs
    refine ⟨d, 1, ?_, by simp, one_ne_zero⟩
    rw [hs.2.1 (by simp [Built.simSpace, hexo])]
    exact hd

variable [IsStrictOrderedRing K]

theorem get?_map_values {α β : Type _} (d : Dict Nat α) (f : α → β) (k : Nat) :
    Dict.get? (d.map fun kv => (kv.1, f kv.2)) k = (Dict.get? d k).map f := by
  induction d with
  | nil => rfl
  | cons kv d ih =>
    obtain ⟨k', v⟩ := kv
    simp only [List.map_cons, Dict.get?]
    split
    · rfl
    · exact ih

/-- The rows of a transition frame. -/
theorem frameRows_row {α : Type _} (cols : List (Nat × List K)) (sts : List CoreState) (es : List α)
    (key : α → Nat → Prop) (q : CoreState → α → K)
    (h : List.Forall₂ (fun e col => key e col.1 ∧ col.2 = sts.map fun s => q s e) es cols)
    (hne : es ≠ []) (i : Nat) (s : CoreState) (hi : sts[i]? = some s) :
    (frameRows cols).2[i]? = some (es.map (q s)) ∧ List.Forall₂ key es (frameRows cols).1 := by
  have hcols : ∀ col ∈ cols, ∃ e ∈ es, col.2 = sts.map fun s => q s e := by
    intro col hcol
    obtain ⟨j, hj⟩ := List.mem_iff_getElem?.1 hcol
    obtain ⟨e, he, hR⟩ := forall₂_getElem? h.flip j col hj
    exact ⟨e, List.mem_of_getElem? he, hR.2⟩
  have hlen : (cols.head?.map fun c => c.2.length).getD 0 = sts.length := by
    cases cols with
    | nil => exact absurd (List.forall₂_nil_right_iff.1 h) hne
    | cons col cols =>
      obtain ⟨e, _, he⟩ := hcols col (by simp)
      simp [he]
  have hlt := (List.getElem?_eq_some_iff.1 hi).1
  constructor
  · unfold frameRows
    rw [hlen, List.getElem?_map, List.getElem?_range hlt, Option.map_some, Option.some.injEq]
    apply map_eq_of_forall₂
    refine h.imp ?_
    rintro e col ⟨_, h2⟩
    rw [h2, List.getElem?_map, hi]
    rfl
  · unfold frameRows
    rw [List.forall₂_map_right_iff]
    exact h.imp fun _ _ hR => hR.1

theorem Built.Sound.solved_exogenous {b : BuildSpec} {core : List CoreState} (wf : b.WF core)
    {static : List (List Nat)} (hx : b.ExogWF static) {bt : Built} {reps : Dict Nat (List Bool)}
    (hsnd : bt.Sound b core (some reps)) (htr : bt.Transits b reps)
    (hdpc : b.densePeriodCores core (corePeriodChoice b.restrCore core) = some bt.dpc)
    {par : ParamObjects K} {w m : Option Nat → CoreState → Nat → K}
    {draws : Nat → List Bool → List (List K)} (hfit : ParamsFit bt par w m draws)
    (q : Option Nat → CoreState → List Nat → K) (hq : TransitionFit b bt par.transition q)
    (hgridne : exogenousGrid b.exogLevels ≠ [])
    (hpos : ∀ d ∈ b.denseIndices, ∀ s ∈ core, ∃ e ∈ exogenousGrid b.exogLevels, q d s e ≠ 0) :
    bt.Solved b core par w m fun d s =>
      (exogenousGrid b.exogLevels).map fun e => (b.successor d e, q d s e) := by
  obtain ⟨grid, hg⟩ : ∃ grid, b.grid = some grid := ⟨_, hx.grid⟩
  have hnodup : b.GridNodup := by
    intro grid' hg'
    exact hx.gridNodup hg'
  -- possible next keys of a row
  have hrow : ∀ ev vc ko, ∀ row : SimRow K, row.state.core ∈ core → ∀ d, b.HasIndex row.state.dense d →
      (bt.simSpace b par ev vc ko).locate row.state = some (row.denseKey, row.coreIndex) →
      ∀ k, PossibleNext (bt.simSpace b par ev vc ko) row k ↔ ∃ e ∈ exogenousGrid b.exogLevels,
        q d row.state.core e ≠ 0 ∧ ∃ ck sts c, bt.dpc[row.denseKey]? = some (c, ck) ∧ c.dense = d ∧
          bt.states[row.denseKey]? = some sts ∧
          bt.space.lookup.get? (ck, (b.successor d e).getD 0) = some k := by
    intro ev vc ko row hcore d hd hloc k
    obtain ⟨ck, pos, dk, sts, l1, l2, l3, l4, l5⟩ := hsnd.simSpace_locate hdpc hnodup par ev vc ko
      row.state hcore d hd
    rw [hloc] at l1
    simp only [Option.some.injEq, Prod.mk.injEq] at l1
    obtain ⟨rfl, rfl⟩ := l1
    obtain ⟨cols, c1, c2⟩ := hq row.denseKey _ ck sts l3 l4
    obtain ⟨r1, r2⟩ := frameRows_row cols sts (exogenousGrid b.exogLevels)
      (fun e f => bt.space.lookup.get? (ck, (b.successor d e).getD 0) = some f)
      (fun s e => q d s e) c2 hgridne row.coreIndex row.state.core l5
    have htrans : (bt.simSpace b par ev vc ko).transition.get? row.denseKey = some (frameRows cols) := by
      simp only [Built.simSpace]
      rw [get?_map_values, c1]; rfl
    constructor
    · rintro ⟨cols', probs, prow, j, x, t1, t2, t3, t4, t5⟩
      rw [htrans, Option.some.injEq] at t1
      have e1 : (frameRows cols).1 = cols' := by rw [t1]
      have e2 : (frameRows cols).2 = probs := by rw [t1]
      subst e1; subst e2
      rw [r1, Option.some.injEq] at t2
      subst t2
      rw [List.getElem?_map] at t4
      obtain ⟨e, he, rfl⟩ := Option.map_eq_some_iff.1 t4
      obtain ⟨f, hf1, hf2⟩ := forall₂_getElem? r2 j e he
      rw [t3] at hf1; cases hf1
      exact ⟨e, List.mem_of_getElem? he, t5, ck, sts, _, l3, rfl, l4, hf2⟩
    · rintro ⟨e, he, hne, ck', sts', c, s1, s2, s3, s4⟩
      rw [l3] at s1
      simp only [Option.some.injEq, Prod.mk.injEq] at s1
      obtain ⟨rfl, rfl⟩ := s1
      obtain ⟨j, hj⟩ := List.mem_iff_getElem?.1 he
      obtain ⟨f, hf1, hf2⟩ := forall₂_getElem? r2 j e hj
      rw [s4] at hf2; cases hf2
      exact ⟨_, _, _, j, _, htrans, r1, hf1, by rw [List.getElem?_map, hj]; rfl, hne⟩
  -- the covariates of a next key
  have hcov : ∀ ev vc ko, ∀ row : SimRow K, row.state.core ∈ core → ∀ d, b.HasIndex row.state.dense d →
      (bt.simSpace b par ev vc ko).locate row.state = some (row.denseKey, row.coreIndex) →
      ∀ k, PossibleNext (bt.simSpace b par ev vc ko) row k → ∃ e ∈ exogenousGrid b.exogLevels,
        q d row.state.core e ≠ 0 ∧ ∃ d', b.successor d e = some d' ∧
        (bt.simSpace b par ev vc ko).covariates k =
          some (staticPart b.exogLevels.length row.state.dense ++ e) ∧
        grid[d']? = some (staticPart b.exogLevels.length row.state.dense ++ e) := by
    intro ev vc ko row hcore d hd hloc k hk
    obtain ⟨e, he, hne, ck, sts, c, s1, s2, s3, s4⟩ := (hrow ev vc ko row hcore d hd hloc k).1 hk
    obtain ⟨d', f, c', rep, g1, g2, g3, g4, _⟩ := htr.rep row.denseKey c ck s1 e he
    rw [s2] at g1
    rw [g1, Option.getD_some, g2, Option.some.injEq] at s4
    subst s4
    have hd' := hd
    unfold BuildSpec.HasIndex at hd'
    rw [hg] at hd'
    obtain ⟨i, rfl, hi⟩ := hd'
    obtain ⟨d'', p1, p2, p3, p4⟩ := hx.successor_spec hg i _ hi e he
    rw [g1] at p1; cases p1
    refine ⟨e, he, hne, d', g1, ?_, p4⟩
    simp only [Built.simSpace, hg, Option.bind_some, Built.covariatesOf, g3, Option.bind_eq_bind, g4]
    exact p4
  have hlene : ∀ e ∈ exogenousGrid b.exogLevels, e.length = b.exogLevels.length := by
    intro e he
    have := ((mem_exogenousGrid b.exogLevels e).1 he).length_eq
    simpa using this
  exact {
    wf := wf
    sound := ⟨_, hsnd⟩
    dpc := hdpc
    nodup := hnodup
    fit := ⟨draws, hfit⟩
    future_mem := by
      intro d hd s _ fp hfp
      obtain ⟨e, he, rfl⟩ := List.mem_map.1 hfp
      obtain ⟨i, rfl, hlt⟩ := (mem_denseIndices hg _).1 hd
      obtain ⟨d', q1, q2, _⟩ := hx.successor_spec hg i _ (List.getElem?_eq_getElem hlt) e he
      simp only [q1]
      exact (mem_denseIndices hg _).2 ⟨d', rfl, q2⟩
    cont := hsnd.continuationIs_exogenous htr hgridne par q hq
    poss := by
      intro _ ev vc ko row hcore d hd hloc
      obtain ⟨e, he, hne⟩ := hpos d hd.mem _ hcore
      obtain ⟨ck, pos, dk, sts, l1, l2, l3, l4, l5⟩ := hsnd.simSpace_locate hdpc hnodup par ev vc ko
        row.state hcore d hd
      rw [hloc] at l1
      simp only [Option.some.injEq, Prod.mk.injEq] at l1
      obtain ⟨rfl, rfl⟩ := l1
      obtain ⟨d', f, c', rep, g1, g2, _⟩ := htr.rep row.denseKey _ ck l3 e he
      refine ⟨f, (hrow ev vc ko row hcore d hd hloc f).2 ⟨e, he, hne, ck, sts, _, l3, rfl, l4, ?_⟩⟩
      have g1' : b.successor d e = some d' := g1
      rw [g1', Option.getD_some]
      exact g2
    covs := by
      intro _ ev vc ko row hcore d hd hloc k hk
      obtain ⟨e, _, _, d', _, h1, _⟩ := hcov ev vc ko row hcore d hd hloc k hk
      exact ⟨_, h1⟩
    next := by
      intro ev vc ko row hcore d hd hloc s hs
      obtain ⟨k, cov, hk, hc, hdense⟩ := hs.2.2 (by
        simp only [Built.simSpace]
        exact fun h => hx.processes (List.length_eq_zero_iff.1 h))
      obtain ⟨e, he, hne, d', h1, h2, h3⟩ := hcov ev vc ko row hcore d hd hloc k hk
      rw [h2] at hc; cases hc
      refine ⟨some d', q d row.state.core e, ?_, ?_, hne⟩
      · unfold BuildSpec.HasIndex
        rw [hg]
        refine ⟨d', rfl, ?_⟩
        rw [h3, hdense]
        have hn : (bt.simSpace b par ev vc ko).nExog = b.exogLevels.length := rfl
        rw [hn]
        have hl := hlene e he
        rw [exogenousPart, List.length_append, hl, Nat.add_sub_cancel, List.drop_left']
        rfl
      · exact List.mem_map.2 ⟨e, he, by rw [h1]⟩ }

end Respy
