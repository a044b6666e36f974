import Verif.Model.SimulateSpace
import Verif.Spec.Simulation
import Verif.Lemmas.SimulateTotal
import Verif.Lemmas.EndToEndExogenous

/-! Helper lemmas: the simulation of a solved model. -/

set_option linter.unusedSectionVars false

namespace Respy

theorem BuildSpec.HasIndex.mem {b : BuildSpec} {dense : List Nat} {d : Option Nat}
    (h : b.HasIndex dense d) : d ∈ b.denseIndices := by
  unfold BuildSpec.HasIndex at h
  unfold BuildSpec.denseIndices
  cases hg : b.grid with
  | none => rw [hg] at h; simp [h]
  | some grid =>
    rw [hg] at h
    obtain ⟨i, rfl, hi⟩ := h
    exact List.mem_map.2 ⟨i, List.mem_range.2 (List.getElem?_eq_some_iff.1 hi).1, rfl⟩

theorem buildSpace_dpc {b : BuildSpec} {core : List CoreState} (hc : createCore b.core = some core)
    {bt : Built} (h : buildSpace b = some bt) :
    b.densePeriodCores core (corePeriodChoice b.restrCore core) = some bt.dpc := by
  unfold buildSpace at h
  rw [hc, Option.bind_eq_bind, Option.bind_some] at h
  obtain ⟨dpc, h1, h⟩ := Option.bind_eq_some_iff.1 h
  obtain ⟨indices, h2, h⟩ := Option.bind_eq_some_iff.1 h
  obtain ⟨transit, h3, h⟩ := Option.bind_eq_some_iff.1 h
  obtain ⟨children, h4, h⟩ := Option.bind_eq_some_iff.1 h
  cases h
  exact h1

/-- `itertools.product` of distinct levels, so that the keys of `dense` are distinct. -/
def BuildSpec.GridNodup (b : BuildSpec) : Prop := ∀ grid, b.grid = some grid → grid.Nodup

variable {K : Type} [Field K] [LinearOrder K] {G : Type}

theorem Built.Sound.simSpace_locate {b : BuildSpec} {core : List CoreState}
    {tr : Option (Dict Nat (List Bool))} {bt : Built} (hsnd : bt.Sound b core tr)
    (hdpc : b.densePeriodCores core (corePeriodChoice b.restrCore core) = some bt.dpc)
    (hgrid : b.GridNodup) (par : ParamObjects K) (ev : Dict Nat (List K))
    (vc ko : List Nat → List Nat) (s : SimState) (hs : s.core ∈ core) (d : Option Nat)
    (hd : b.HasIndex s.dense d) :
    ∃ ck pos dk sts, (bt.simSpace b par ev vc ko).locate s = some (dk, pos) ∧
      bt.space.complexes[dk]? = some ⟨s.core.period, b.choiceSetAt d s.core, d⟩ ∧
      bt.dpc[dk]? = some (⟨s.core.period, b.choiceSetAt d s.core, d⟩, ck) ∧
      bt.states[dk]? = some sts ∧ sts[pos]? = some s.core := by
  obtain ⟨ck, pos, dk, sts, h1, h2, h3, h4, h5, h6⟩ := hsnd.loc s.core hs d hd.mem
  refine ⟨ck, pos, dk, sts, ?_, h3, h4, h5, h6⟩
  unfold SimSpace.locate
  simp only [Built.simSpace, h1, Option.bind_eq_bind, Option.bind_some]
  unfold BuildSpec.HasIndex at hd
  cases hg : b.grid with
  | none =>
    simp only [Option.map_none, Option.pure_def, Option.some.injEq, Prod.mk.injEq, and_true]
    have hdd : densePeriodChoiceNoDense (corePeriodChoice b.restrCore core) = bt.dpc := by
      simpa [BuildSpec.densePeriodCores, hg] using hdpc
    rw [← hdd] at h4
    exact ((noDense_getElem? _ _ _ _ _).1 h4).1
  | some grid =>
    rw [hg] at hd
    obtain ⟨i, rfl, hi⟩ := hd
    have hnd := hgrid grid hg
    have hget := denseIndexOf_get? grid hnd s.dense (List.mem_of_getElem? hi)
    have hidx : grid.idxOf s.dense = i := by
      have hlt := List.idxOf_lt_length_of_mem (List.mem_of_getElem? hi)
      refine (List.getElem?_inj hlt hnd).1 ?_
      rw [hi, List.getElem?_eq_getElem hlt, List.getElem_idxOf]
    rw [hidx] at hget
    simp only [Option.map_some, hget, Option.bind_some]
    rw [Option.getD_some] at h2
    rw [h2]
    rfl

/-- A row of the simulation of a solved model exists and follows the model. -/
theorem Built.Sound.simSpace_row {b : BuildSpec} {core : List CoreState} (wf : b.WF core)
    {tr : Option (Dict Nat (List Bool))} {bt : Built} (hsnd : bt.Sound b core tr)
    (hdpc : b.densePeriodCores core (corePeriodChoice b.restrCore core) = some bt.dpc)
    (hgrid : b.GridNodup) {par : ParamObjects K} {w m : Option Nat → CoreState → Nat → K}
    {draws : Nat → List Bool → List (List K)} (hfit : ParamsFit bt par w m draws)
    {future : Option Nat → CoreState → List (Option Nat × K)}
    (hfut : ∀ d ∈ b.denseIndices, ∀ s ∈ core, ∀ fp ∈ future d s, fp.1 ∈ b.denseIndices)
    (hcont : ContinuationIs bt par future) {ev : Dict Nat (List K)}
    (hev : SameShape (initialValues bt.space) ev) {V : Option Nat → CoreState → K}
    (hV : ∀ d ∈ b.denseIndices, ∀ s ∈ core, bt.ValueAt ev d s (V d s)) {p : RewardParams K}
    (hp : p.WF b core) (vc ko : List Nat → List Nat) (cvs : Dict Nat (List (List K))) (s : SimState)
    (hcvs : (bt.simSpace b par ev vc ko).cvs s.core.period = some cvs)
    (hs : s.core ∈ core) (d : Option Nat) (hd : b.HasIndex s.dense d) (id : Nat) (base baseWage : List K)
    (hb : base.length = p.measError.length) (hbw : baseWage.length = p.measError.length) :
    ∃ row, simulateRow p (bt.simSpace b par ev vc ko) s.core.period cvs id s base baseWage = some row ∧
      RowFollows b core p w m future V row ∧ b.Admissible d s.core row.outcome.choice := by
  obtain ⟨ck, pos, dk, sts, hloc, h3, h4, h5, h6⟩ := hsnd.simSpace_locate hdpc hgrid par ev vc ko s hs d hd
  have hlt := createCore_period _ _ wf.created s.core hs
  obtain ⟨cvs', q1, q2⟩ := hcont ev hev s.core.period (by rw [hsnd.nPeriods]; exact hlt)
  have hcc : cvs' = cvs := Option.some.inj (q1.symm.trans hcvs)
  subst hcc
  obtain ⟨arr, q3, q4⟩ := q2 dk _ sts h3 rfl h5
  obtain ⟨c, q5, q6, q7⟩ := q4 pos s.core h6
  set cs := b.choiceSetAt d s.core with hcsdef
  have hlen : cs.length = p.measError.length := hp.choices d hd.mem s.core hs
  have hne : 0 < cs.count true := by
    obtain ⟨a, ha⟩ := hp.nonempty d hd.mem s.core hs
    have := positionIn_lt cs a ha
    omega
  have hvc : (validChoices cs).length = cs.count true := length_validChoices cs
  obtain ⟨o, ho⟩ := simulateIndividual_total p cs ((validChoices cs).map (w d s.core))
    ((validChoices cs).map (m d s.core)) c base baseWage (by rw [hlen]; exact hp.rows)
    (fun row hrow => by rw [hlen]; exact hp.cols row hrow) hlen (by omega) (by omega)
    (by rw [List.length_map, hvc]) (by rw [List.length_map, hvc]) q6 hne
  have hrow : simulateRow p (bt.simSpace b par ev vc ko) s.core.period cvs' id s base baseWage =
      some ⟨id, s, dk, pos, base, baseWage, o⟩ := by
    unfold simulateRow
    rw [hloc, Option.bind_eq_bind, Option.bind_some]
    have e1 : (bt.simSpace b par ev vc ko).complexes[dk]? = some ⟨s.core.period, cs, d⟩ := h3
    have e2 : Dict.get? (bt.simSpace b par ev vc ko).wages dk = some (sts.map fun s =>
      (validChoices cs).map (w d s)) := hfit.wages dk _ sts h3 h5
    have e3 : Dict.get? (bt.simSpace b par ev vc ko).nonpecs dk = some (sts.map fun s =>
      (validChoices cs).map (m d s)) := hfit.nonpecs dk _ sts h3 h5
    have e4 : (sts.map fun s => (validChoices cs).map (w d s))[pos]? =
      some ((validChoices cs).map (w d s.core)) := by rw [List.getElem?_map, h6]; rfl
    have e5 : (sts.map fun s => (validChoices cs).map (m d s))[pos]? =
      some ((validChoices cs).map (m d s.core)) := by rw [List.getElem?_map, h6]; rfl
    simp only [e1, e2, e3, e4, e5, q3, q5, Option.bind_eq_bind, Option.bind_some, if_true, ho]
    rfl
  -- continuation values
  have hcval : ∀ a, cs[a]? = some true → c[positionIn cs a]? = some
      (if s.core.period + 1 = b.core.nPeriods then 0 else
        ((future d s.core).map fun fp => fp.2 * V fp.1 (lawOfMotion s.core a)).sum) := by
    intro a ha
    obtain ⟨x, x1, x2, x3⟩ := q7 _ a (validChoices_positionIn cs a ha)
    rw [hsnd.nPeriods] at x2 x3
    rw [x1]
    by_cases hl : s.core.period + 1 = b.core.nPeriods
    · rw [if_pos hl, x2 hl]
    · rw [if_neg hl]
      congr 1
      apply x3 hl (fun d' => V d' (lawOfMotion s.core a))
      intro fp hfp
      exact hV _ (hfut d hd.mem s.core hs fp hfp) _
        (wf.closed s.core hs (by omega) d hd.mem a ha)
  have hval : ∀ a wa v, IsValueOf p cs ((validChoices cs).map (w d s.core))
      ((validChoices cs).map (m d s.core)) c base a wa v ↔ cs[a]? = some true ∧ wa = w d s.core a ∧
        v = simulatedValue b p w m future V d s.core base a := by
    intro a wa v
    unfold IsValueOf
    constructor
    · rintro ⟨ha, ma, ca, g1, g2, g3, rfl⟩
      rw [List.getElem?_map, validChoices_positionIn cs a ha, Option.map_some, Option.some.injEq] at g1 g2
      rw [hcval a ha, Option.some.injEq] at g3
      subst g1; subst g2; subst g3
      exact ⟨ha, rfl, rfl⟩
    · rintro ⟨ha, rfl, rfl⟩
      exact ⟨ha, m d s.core a, _, by rw [List.getElem?_map, validChoices_positionIn cs a ha]; rfl,
        by rw [List.getElem?_map, validChoices_positionIn cs a ha]; rfl, hcval a ha, rfl⟩
  have hmem := simulateIndividual_choice_mem p cs _ _ _ _ _ o ho
  obtain ⟨a, wa, hbest, hwage, hch, hshocks, hvalues⟩ := simulateIndividual_spec p cs _ _ _ _ _ o ho
  obtain ⟨v, hv, hmax⟩ := hbest
  obtain ⟨ha, rfl, rfl⟩ := (hval _ _ _).1 hv
  refine ⟨_, hrow, ⟨hs, d, hd.mem, hd, ?_, hmem, a, ha, ?_, ?_, ?_⟩, hmem⟩
  · intro a' ha'
    refine ⟨hshocks a' ha', ?_⟩
    obtain ⟨wb, vb, hb1, hb2⟩ := hvalues a' ha'
    obtain ⟨_, _, rfl⟩ := (hval _ _ _).1 hb1
    exact hb2
  · intro a' ha'
    exact hmax a' _ _ ((hval _ _ _).2 ⟨ha', rfl, rfl⟩)
  · show o.choice = a ↔ _
    rw [hch]
    exact remap_validChoices_iff cs a ha
  · exact hwage

/-- The simulation of a solved model succeeds and follows the model. `hposs`, `hcovs` and `hnext` describe
the changes of dense columns. -/
theorem Built.Sound.simulation {b : BuildSpec} {core : List CoreState} (wf : b.WF core)
    {tr : Option (Dict Nat (List Bool))} {bt : Built} (hsnd : bt.Sound b core tr)
    (hdpc : b.densePeriodCores core (corePeriodChoice b.restrCore core) = some bt.dpc)
    (hgrid : b.GridNodup) {par : ParamObjects K} {w m : Option Nat → CoreState → Nat → K}
    {draws : Nat → List Bool → List (List K)} (hfit : ParamsFit bt par w m draws)
    {future : Option Nat → CoreState → List (Option Nat × K)}
    (hfut : ∀ d ∈ b.denseIndices, ∀ s ∈ core, ∀ fp ∈ future d s, fp.1 ∈ b.denseIndices)
    (hcont : ContinuationIs bt par future) {ev : Dict Nat (List K)}
    (hev : SameShape (initialValues bt.space) ev) {V : Option Nat → CoreState → K}
    (hV : ∀ d ∈ b.denseIndices, ∀ s ∈ core, bt.ValueAt ev d s (V d s)) {p : RewardParams K}
    (hp : p.WF b core) (vc ko : List Nat → List Nat) (hord : (bt.simSpace b par ev vc ko).Orders)
    (hposs : b.exogLevels.length ≠ 0 → ∀ row : SimRow K, row.state.core ∈ core →
      ∀ d, b.HasIndex row.state.dense d →
      (bt.simSpace b par ev vc ko).locate row.state = some (row.denseKey, row.coreIndex) →
      ∃ k, PossibleNext (bt.simSpace b par ev vc ko) row k)
    (hcovs : b.exogLevels.length ≠ 0 → ∀ row : SimRow K, row.state.core ∈ core →
      ∀ d, b.HasIndex row.state.dense d →
      (bt.simSpace b par ev vc ko).locate row.state = some (row.denseKey, row.coreIndex) →
      ∀ k, PossibleNext (bt.simSpace b par ev vc ko) row k →
        ∃ cov, (bt.simSpace b par ev vc ko).covariates k = some cov)
    (hnext : ∀ row : SimRow K, row.state.core ∈ core → ∀ d, b.HasIndex row.state.dense d →
      (bt.simSpace b par ev vc ko).locate row.state = some (row.denseKey, row.coreIndex) →
      ∀ s, IsStep (bt.simSpace b par ev vc ko) row s →
      ∃ d' q, b.HasIndex s.dense d' ∧ (d', q) ∈ future d row.state.core ∧ q ≠ 0)
    (rs : RandomSource K G) (hrs : rs.Contract) (base baseWage : List (List K))
    (hb : ∀ row ∈ base, row.length = p.measError.length)
    (hbw : ∀ row ∈ baseWage, row.length = p.measError.length) (r : Nat) (hr : r ≤ b.core.nPeriods)
    (agents : List (Nat × SimState)) (hne : agents ≠ []) (hbl : agents.length * r ≤ base.length)
    (hbwl : agents.length * r ≤ baseWage.length)
    (hagents : ∀ a ∈ agents, a.2.core ∈ core ∧ a.2.core.period = 0 ∧ ∃ d, b.HasIndex a.2.dense d)
    (g : G) :
    ∃ data g', simulateLoop rs p (bt.simSpace b par ev vc ko) base baseWage r 0 agents g =
        some (data, g') ∧
      (∀ (t : Nat) rows, data[t]? = some rows → ∀ row ∈ rows, RowFollows b core p w m future V row) ∧
      ∀ (t : Nat) rows rows', data[t]? = some rows → data[t + 1]? = some rows' →
        ∀ (i : Nat) row row', rows[i]? = some row → rows'[i]? = some row' →
          StepFollows b future row row' := by
  set sp := bt.simSpace b par ev vc ko with hsp
  let Good : Nat → SimState → Prop := fun t s =>
    s.core ∈ core ∧ s.core.period = t ∧ ∃ d, b.HasIndex s.dense d
  have hrowOf : ∀ t < b.core.nPeriods, ∀ cvs, sp.cvs t = some cvs → ∀ row : SimRow K,
      Good t row.state → simulateRow p sp t cvs row.id row.state row.base row.baseWage = some row →
      row.base ∈ base → row.baseWage ∈ baseWage →
      RowFollows b core p w m future V row ∧
        ∀ d, b.HasIndex row.state.dense d → b.Admissible d row.state.core row.outcome.choice := by
    intro t ht cvs hcvs row hg hrow hmb hmw
    obtain ⟨h1, h2, d, hd⟩ := hg
    subst h2
    obtain ⟨row', hr', hf, _⟩ := hsnd.simSpace_row wf hdpc hgrid hfit hfut hcont hev hV hp vc ko cvs
      row.state hcvs h1 d hd row.id row.base row.baseWage (hb _ hmb) (hbw _ hmw)
    rw [hrow] at hr'; cases hr'
    refine ⟨hf, fun d' hd' => ?_⟩
    obtain ⟨row', hr', _, hadm⟩ := hsnd.simSpace_row wf hdpc hgrid hfit hfut hcont hev hV hp vc ko cvs
      row.state hcvs h1 d' hd' row.id row.base row.baseWage (hb _ hmb) (hbw _ hmw)
    rw [hrow] at hr'; cases hr'
    exact hadm
  -- the recorded choice of any row is admissible, whatever the draws
  have hadm : ∀ t < b.core.nPeriods, ∀ cvs, sp.cvs t = some cvs → ∀ row : SimRow K, Good t row.state →
      simulateRow p sp t cvs row.id row.state row.base row.baseWage = some row →
      sp.locate row.state = some (row.denseKey, row.coreIndex) ∧
        ∀ d, b.HasIndex row.state.dense d → b.Admissible d row.state.core row.outcome.choice := by
    intro t ht cvs hcvs row hg hrow
    obtain ⟨_, _, _, _, hloc, cx, _, _, _, w', m', c', hcx, _, _, _, _, _, _, _, ho⟩ :=
      simulateRow_fields _ _ _ _ _ _ _ _ _ hrow
    refine ⟨hloc, fun d hd => ?_⟩
    obtain ⟨ck, pos, dk, sts, l1, l2, _⟩ := hsnd.simSpace_locate hdpc hgrid par ev vc ko row.state hg.1 d hd
    rw [← hsp, hloc] at l1
    simp only [Option.some.injEq, Prod.mk.injEq] at l1
    have hcx' : bt.space.complexes[row.denseKey]? = some cx := hcx
    rw [l1.1, l2] at hcx'
    cases hcx'
    exact simulateIndividual_choice_mem _ _ _ _ _ _ _ _ ho
  obtain ⟨data, g', hdata, hgood⟩ := simulateLoop_total rs hrs p sp hord base baseWage r
    agents.length Good (fun t s h => h.2.1)
    (by
      intro t ht
      obtain ⟨cvs, h1, _⟩ := hcont ev hev t (by rw [hsnd.nPeriods]; omega)
      exact ⟨cvs, h1⟩)
    (by
      intro t ht cvs hcvs id s hg bs hbs bw hbw'
      obtain ⟨h1, h2, d, hd⟩ := hg
      subst h2
      obtain ⟨row, hr', _⟩ := hsnd.simSpace_row wf hdpc hgrid hfit hfut hcont hev hV hp vc ko cvs
        s hcvs h1 d hd id bs bw (hb _ hbs) (hbw _ hbw')
      exact ⟨row, hr'⟩)
    (by
      intro h0 t ht cvs hcvs row hg hrow
      obtain ⟨hloc, _⟩ := hadm t (by omega) cvs hcvs row hg hrow
      obtain ⟨h1, _, d, hd⟩ := hg
      exact hposs h0 row h1 d hd hloc)
    (by
      intro h0 t ht cvs hcvs row hg hrow k hk
      obtain ⟨hloc, _⟩ := hadm t (by omega) cvs hcvs row hg hrow
      obtain ⟨h1, _, d, hd⟩ := hg
      exact hcovs h0 row h1 d hd hloc k hk)
    (by
      intro t ht cvs hcvs row hg hrow s hs
      obtain ⟨hloc, hch⟩ := hadm t (by omega) cvs hcvs row hg hrow
      obtain ⟨h1, h2, d, hd⟩ := hg
      obtain ⟨d', q, hd', _⟩ := hnext row h1 d hd hloc s hs
      refine ⟨?_, ?_, d', hd'⟩
      · rw [hs.1]
        exact wf.closed _ h1 (by omega) d hd.mem _ (hch d hd)
      · rw [hs.1]
        simp only [lawOfMotion]
        omega)
    hbl hbwl r 0 (by omega) agents rfl hne (fun a ha => by
      obtain ⟨h1, h2, h3⟩ := hagents a ha
      exact ⟨h1, h2, h3⟩) g
  refine ⟨data, g', hdata, ?_, ?_⟩
  all_goals
    obtain ⟨k1, k2, k3, k4⟩ := simulateLoop_spec rs hrs p sp base baseWage r 0 agents g g' data
      (fun a ha => (hagents a ha).2.1) hdata
  · intro t rows ht row hm
    obtain ⟨i, hi⟩ := List.mem_iff_getElem?.1 hm
    obtain ⟨_, j2⟩ := k3 t rows ht
    obtain ⟨_, j4, j5, cvs, j6, j7⟩ := j2 i row hi
    have htl : t < r := by rw [← k1]; exact (List.getElem?_eq_some_iff.1 ht).1
    exact (hrowOf (0 + t) (by omega) cvs j6 row (hgood t rows ht row hm) j7
      (List.mem_of_getElem? j4) (List.mem_of_getElem? j5)).1
  · intro t rows rows' ht ht' i row row' hi hi'
    have hst := k4 t rows rows' ht ht' i row row' hi hi'
    obtain ⟨i1, j2⟩ := k3 t rows ht
    obtain ⟨i2, _⟩ := k3 (t + 1) rows' ht'
    obtain ⟨_, _, _, cvs, j6, j7⟩ := j2 i row hi
    have htl : t < r := by rw [← k1]; exact (List.getElem?_eq_some_iff.1 ht).1
    have hg := hgood t rows ht row (List.mem_of_getElem? hi)
    obtain ⟨hloc, _⟩ := hadm (0 + t) (by omega) cvs j6 row hg j7
    obtain ⟨h1, _, d, hd⟩ := hg
    obtain ⟨d', q, hd', hf, hq⟩ := hnext row h1 d hd hloc _ hst
    refine ⟨?_, hst.1, d, d', q, hd, hd', hf, hq⟩
    have e1 : (rows.map (·.id))[i]? = some row.id := by rw [List.getElem?_map, hi]; rfl
    have e2 : (rows'.map (·.id))[i]? = some row'.id := by rw [List.getElem?_map, hi']; rfl
    rw [i1] at e1; rw [i2, e1] at e2
    exact (Option.some.inj e2).symm

end Respy
