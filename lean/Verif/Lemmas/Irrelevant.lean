import Verif.Spec.Irrelevant
import Verif.Lemmas.SimulateSolved
import Verif.Lemmas.Individuals
import Verif.Lemmas.EndToEnd

/-!
# Lemmas: dense indices which cannot be told apart
-/

namespace Respy

variable {K : Type} [Field K] [LinearOrder K] {G : Type}

theorem IsBellman.congr_all {delta : K} {adm : Nat → Prop} {w m c w' m' c' : Nat → K} {draws : List (Nat → K)}
    {v : K} (hw : ∀ a, adm a → w a = w' a) (hm : ∀ a, adm a → m a = m' a) (hc : ∀ a, adm a → c a = c' a)
    (h : IsBellman delta adm w m c draws v) : IsBellman delta adm w' m' c' draws v := by
  obtain ⟨f, hf, rfl⟩ := h
  refine ⟨f, fun e he => ?_, rfl⟩
  have hset : {x | x = 0 ∨ ∃ a, adm a ∧ x = w' a * e a + m' a + delta * c' a} =
      {x | x = 0 ∨ ∃ a, adm a ∧ x = w a * e a + m a + delta * c a} := by
    ext x
    constructor <;> rintro (h | ⟨a, ha, hx⟩)
    · exact Or.inl h
    · exact Or.inr ⟨a, ha, by rw [hx, hw a ha, hm a ha, hc a ha]⟩
    · exact Or.inl h
    · exact Or.inr ⟨a, ha, by rw [hx, hw a ha, hm a ha, hc a ha]⟩
  rw [hset]; exact hf e he

omit [LinearOrder K] in
theorem sum_coupled {R : Option Nat → Option Nat → Prop} {x y : List (Option Nat × K)}
    (h : List.Forall₂ (fun a b => R a.1 b.1 ∧ a.2 = b.2) x y) (f g : Option Nat → K)
    (hfg : ∀ d d', R d d' → f d = g d') :
    (x.map fun fp => fp.2 * f fp.1).sum = (y.map fun fp => fp.2 * g fp.1).sum := by
  induction h with
  | nil => rfl
  | cons hab _ ih =>
    simp only [List.map_cons, List.sum_cons]
    rw [ih, hfg _ _ hab.1, hab.2]

section
variable {b : BuildSpec} {core : List CoreState} {w m : Option Nat → CoreState → Nat → K}
  {future : Option Nat → CoreState → List (Option Nat × K)} {R : Option Nat → Option Nat → Prop}

omit [LinearOrder K] in
theorem Indistinguishable.continuation (wf : b.WF core) (hR : Indistinguishable b core w m future R)
    {V : Option Nat → CoreState → K} (hV : ∀ d d', R d d' → ∀ s ∈ core, V d s = V d' s) (d d' : Option Nat)
    (h : R d d') (s : CoreState) (hs : s ∈ core) (a : Nat) (ha : b.Admissible d s a) :
    continuationOf b future V d s a = continuationOf b future V d' s a := by
  unfold continuationOf
  split
  · rfl
  · next hne =>
    have hlt := createCore_period _ _ wf.created s hs
    have hl : s.period + 1 < b.core.nPeriods := by omega
    exact sum_coupled (hR.future d d' h s hs hl) (fun e => V e (lawOfMotion s a)) (fun e => V e (lawOfMotion s a))
      fun e e' he => hV e e' he _ (wf.closed s hs hl d (hR.mem d d' h).1 a ha)

theorem Indistinguishable.values (wf : b.WF core) (hR : Indistinguishable b core w m future R) {delta : K}
    {shocks : Nat → List Bool → List (Nat → K)} {V : Option Nat → CoreState → K}
    (hV : IsValueFunction b core delta w m shocks future V) (d d' : Option Nat) (h : R d d') (s : CoreState)
    (hs : s ∈ core) : V d s = V d' s := by
  have main : ∀ r : Nat, ∀ d d', R d d' → ∀ s ∈ core, s.period + r + 1 = b.core.nPeriods → V d s = V d' s := by
    intro r
    induction r with
    | zero =>
      intro d d' h s hs hr
      obtain ⟨hd, hd'⟩ := hR.mem d d' h
      have h1 := hV d hd s hs
      have h2 := hV d' hd' s hs
      rw [← hR.choiceSets d d' h s hs] at h2
      refine (h1.congr_all (hR.wages d d' h s hs) (hR.nonpecs d d' h s hs) fun a _ => ?_).unique h2
      simp only [Nat.add_zero] at hr
      simp [hr]
    | succ r ih =>
      intro d d' h s hs hr
      obtain ⟨hd, hd'⟩ := hR.mem d d' h
      have h1 := hV d hd s hs
      have h2 := hV d' hd' s hs
      rw [← hR.choiceSets d d' h s hs] at h2
      refine (h1.congr_all (hR.wages d d' h s hs) (hR.nonpecs d d' h s hs) fun a ha => ?_).unique h2
      have hne : s.period + 1 ≠ b.core.nPeriods := by omega
      simp only [hne, if_false]
      refine sum_coupled (hR.future d d' h s hs (by omega)) (fun e => V e (lawOfMotion s a))
        (fun e => V e (lawOfMotion s a)) fun e e' he => ?_
      exact ih e e' he _ (wf.closed s hs (by omega) d hd a ha) (by simp only [lawOfMotion]; omega)
  have hlt := createCore_period _ _ wf.created s hs
  exact main (b.core.nPeriods - 1 - s.period) d d' h s hs (by omega)

/-- The outcome of a row of the simulation of a solved model. -/
theorem Built.Solved.outcome {bt : Built} {par : ParamObjects K} (hso : bt.Solved b core par w m future)
    {ev : Dict Nat (List K)} (hev : SameShape (initialValues bt.space) ev) {V : Option Nat → CoreState → K}
    (hV : ∀ d ∈ b.denseIndices, ∀ s ∈ core, bt.ValueAt ev d s (V d s)) {p : RewardParams K}
    (vc ko : List Nat → List Nat) (period : Nat) (cvs : Dict Nat (List (List K)))
    (hcvs : (bt.simSpace b par ev vc ko).cvs period = some cvs) (s : SimState) (hs : s.core ∈ core)
    (d : Option Nat) (hd : b.HasIndex s.dense d) (id : Nat) (base baseWage : List K) (row : SimRow K)
    (hrow : simulateRow p (bt.simSpace b par ev vc ko) period cvs id s base baseWage = some row) :
    simulateIndividual p (b.choiceSetAt d s.core) ((validChoices (b.choiceSetAt d s.core)).map (w d s.core))
      ((validChoices (b.choiceSetAt d s.core)).map (m d s.core))
      ((validChoices (b.choiceSetAt d s.core)).map (continuationOf b future V d s.core)) base baseWage =
        some row.outcome := by
  obtain ⟨tr, hsnd⟩ := hso.sound
  obtain ⟨draws, hfit⟩ := hso.fit
  obtain ⟨_, _, _, _, a4, cx, wages, nonpecs, cv, w', m', c', b1, b2, b3, b4, b5, b6, b7, b8, b9⟩ :=
    simulateRow_fields _ _ _ _ _ _ _ _ _ hrow
  obtain ⟨ck, pos, dk, sts, l1, l2, l3, l4, l5⟩ := hsnd.simSpace_locate hso.dpc hso.nodup par ev vc ko s hs d hd
  rw [l1] at a4
  simp only [Option.some.injEq, Prod.mk.injEq] at a4
  obtain ⟨k1, k2⟩ := a4
  rw [← k1] at b1 b3 b4 b5
  rw [← k2] at b6 b7 b8
  have b1' : bt.space.complexes[dk]? = some cx := b1
  rw [l2] at b1'
  cases b1'
  have e2 : Dict.get? (bt.simSpace b par ev vc ko).wages dk = some (sts.map fun s =>
    (validChoices _).map (w d s)) := hfit.wages dk _ sts l2 l4
  have e3 : Dict.get? (bt.simSpace b par ev vc ko).nonpecs dk = some (sts.map fun s =>
    (validChoices _).map (m d s)) := hfit.nonpecs dk _ sts l2 l4
  rw [b3, Option.some.injEq] at e2
  rw [b4, Option.some.injEq] at e3
  subst e2
  subst e3
  rw [List.getElem?_map, l5, Option.map_some, Option.some.injEq] at b6 b7
  subst b6
  subst b7
  dsimp only at b2 b9
  have hlt := createCore_period _ _ hso.wf.created s.core hs
  obtain ⟨cvs', q1, q2⟩ := hso.cont ev hev s.core.period (by rw [hsnd.nPeriods]; exact hlt)
  have hcc : cvs' = cvs := by
    rw [← b2] at hcvs
    exact Option.some.inj (q1.symm.trans hcvs)
  subst hcc
  obtain ⟨arr, q3, q4⟩ := q2 dk _ sts l2 rfl l4
  obtain ⟨c, q5, q6, q7⟩ := q4 pos s.core l5
  rw [b5, Option.some.injEq] at q3
  subst q3
  rw [b8, Option.some.injEq] at q5
  subst q5
  have hc : c' = (validChoices (b.choiceSetAt d s.core)).map (continuationOf b future V d s.core) := by
    refine List.ext_getElem? fun j => ?_
    rw [List.getElem?_map]
    cases hj : (validChoices (b.choiceSetAt d s.core))[j]? with
    | none =>
      rw [List.getElem?_eq_none_iff, length_validChoices] at hj
      rw [Option.map_none, List.getElem?_eq_none_iff, q6]
      exact hj
    | some a =>
      obtain ⟨x, x1, x2, x3⟩ := q7 j a hj
      have ha := (mem_validChoices _ a).1 (List.mem_of_getElem? hj)
      rw [hsnd.nPeriods] at x2 x3
      rw [x1, Option.map_some]
      congr 1
      unfold continuationOf
      split
      · next hl => exact x2 hl
      · next hl =>
        refine x3 hl (fun e => V e (lawOfMotion s.core a)) fun fp hfp => ?_
        exact hV _ (hso.future_mem d hd.mem s.core hs fp hfp) _
          (hso.wf.closed s.core hs (by omega) d hd.mem a ha)
  rw [← hc]
  exact b9

/-- Rows of individuals with the same core state and draws whose dense indices cannot be told apart. -/
theorem Built.Solved.same_outcome {bt : Built} {par : ParamObjects K} (hso : bt.Solved b core par w m future)
    {ev : Dict Nat (List K)} (hev : SameShape (initialValues bt.space) ev) {V : Option Nat → CoreState → K}
    (hV : ∀ d ∈ b.denseIndices, ∀ s ∈ core, bt.ValueAt ev d s (V d s)) {p : RewardParams K}
    (vc ko : List Nat → List Nat) (hR : Indistinguishable b core w m future R)
    (hVR : ∀ d d', R d d' → ∀ s ∈ core, V d s = V d' s) (period : Nat) (cvs : Dict Nat (List (List K)))
    (hcvs : (bt.simSpace b par ev vc ko).cvs period = some cvs) (s s' : SimState) (hs : s.core ∈ core)
    (hss : s.core = s'.core) (d d' : Option Nat) (hd : b.HasIndex s.dense d) (hd' : b.HasIndex s'.dense d')
    (h : R d d') (id id' : Nat) (base baseWage : List K) (row row' : SimRow K)
    (hrow : simulateRow p (bt.simSpace b par ev vc ko) period cvs id s base baseWage = some row)
    (hrow' : simulateRow p (bt.simSpace b par ev vc ko) period cvs id' s' base baseWage = some row') :
    SameHistory row row' := by
  have o := hso.outcome hev hV vc ko period cvs hcvs s hs d hd id base baseWage row hrow
  have o' := hso.outcome hev hV vc ko period cvs hcvs s' (hss ▸ hs) d' hd' id' base baseWage row' hrow'
  rw [← hss, ← hR.choiceSets d d' h s.core hs] at o'
  have e1 : (validChoices (b.choiceSetAt d s.core)).map (w d s.core) =
      (validChoices (b.choiceSetAt d s.core)).map (w d' s.core) :=
    List.map_congr_left fun a ha => hR.wages d d' h s.core hs a ((mem_validChoices _ a).1 ha)
  have e2 : (validChoices (b.choiceSetAt d s.core)).map (m d s.core) =
      (validChoices (b.choiceSetAt d s.core)).map (m d' s.core) :=
    List.map_congr_left fun a ha => hR.nonpecs d d' h s.core hs a ((mem_validChoices _ a).1 ha)
  have e3 : (validChoices (b.choiceSetAt d s.core)).map (continuationOf b future V d s.core) =
      (validChoices (b.choiceSetAt d s.core)).map (continuationOf b future V d' s.core) :=
    List.map_congr_left fun a ha => hR.continuation hso.wf hVR d d' h s.core hs a ((mem_validChoices _ a).1 ha)
  rw [e1, e2, e3, o'] at o
  obtain ⟨_, a1, a2, a3, _⟩ := simulateRow_fields _ _ _ _ _ _ _ _ _ hrow
  obtain ⟨_, a1', a2', a3', _⟩ := simulateRow_fields _ _ _ _ _ _ _ _ _ hrow'
  exact ⟨by rw [a1, a1', hss], a2.trans a2'.symm, a3.trans a3'.symm, (Option.some.inj o).symm⟩

/-- Paths of individuals who differ in characteristics which cannot be told apart. -/
theorem Built.Solved.same_path {bt : Built} {par : ParamObjects K} (hso : bt.Solved b core par w m future)
    (hexo : b.exogLevels = []) {ev : Dict Nat (List K)} (hev : SameShape (initialValues bt.space) ev)
    {V : Option Nat → CoreState → K} (hV : ∀ d ∈ b.denseIndices, ∀ s ∈ core, bt.ValueAt ev d s (V d s))
    (vc ko : List Nat → List Nat) (hR : Indistinguishable b core w m future R)
    (hVR : ∀ d d', R d d' → ∀ s ∈ core, V d s = V d' s)
    (rs rs' : RandomSource K G) (hrs : rs.Contract) (hrs' : rs'.Contract) (p : RewardParams K)
    (draws drawsWage draws' drawsWage' : List (List K)) (periods : Nat) (hperiods : periods ≤ b.core.nPeriods)
    (agents agents' : List (Nat × SimState)) (g1 g2 g1' g2' : G) (data data' : List (List (SimRow K)))
    (hper : ∀ a ∈ agents, a.2.core.period = 0) (hper' : ∀ a ∈ agents', a.2.core.period = 0)
    (h : simulateLoop rs p (bt.simSpace b par ev vc ko) draws drawsWage periods 0 agents g1 = some (data, g2))
    (h' : simulateLoop rs' p (bt.simSpace b par ev vc ko) draws' drawsWage' periods 0 agents' g1' = some (data', g2'))
    (i j : Nat) (id id' : Nat) (s s' : SimState) (hi : agents[i]? = some (id, s))
    (hj : agents'[j]? = some (id', s')) (hs : s.core ∈ core) (hss : s.core = s'.core) (e e' : Option Nat)
    (he : b.HasIndex s.dense e) (he' : b.HasIndex s'.dense e') (hee : R e e')
    (hd : ∀ t < periods, draws[agents.length * t + i]? = draws'[agents'.length * t + j]?)
    (hw : ∀ t < periods, drawsWage[agents.length * t + i]? = drawsWage'[agents'.length * t + j]?)
    (t : Nat) (rows rows' : List (SimRow K)) (row row' : SimRow K) (ht : data[t]? = some rows)
    (ht' : data'[t]? = some rows') (hr : rows[i]? = some row) (hr' : rows'[j]? = some row') :
    SameHistory row row' ∧ row.state.dense = s.dense ∧ row'.state.dense = s'.dense ∧ row.state.core ∈ core ∧
      row.state.core.period = t ∧ b.Admissible e row.state.core row.outcome.choice := by
  have hx : (bt.simSpace b par ev vc ko).nExog = 0 := by simp [Built.simSpace, hexo]
  have hl := simulateLoop_loopRows rs hrs p _ draws drawsWage periods 0 agents g1 g2 data hper h
  have hl' := simulateLoop_loopRows rs' hrs' p _ draws' drawsWage' periods 0 agents' g1' g2' data' hper' h'
  have key : ∀ (t : Nat) rows rows' row row', data[t]? = some rows → data'[t]? = some rows' →
      rows[i]? = some row → rows'[j]? = some row' → row.state.core = row'.state.core → row.state.core ∈ core →
      row.state.dense = s.dense → row'.state.dense = s'.dense →
      SameHistory row row' ∧ row.state.dense = s.dense ∧ row'.state.dense = s'.dense ∧ row.state.core ∈ core ∧
        row.state.core.period = t ∧ b.Admissible e row.state.core row.outcome.choice := by
    intro t rows rows' row row' ht ht' hr hr' hc hmem hdn hdn'
    have htl : t < periods := by
      have := (List.getElem?_eq_some_iff.1 ht).1; rw [hl.length] at this; exact this
    obtain ⟨e1, e2, e3, cvs, e4, e5⟩ := hl.row t rows ht i row hr
    obtain ⟨_, f2, f3, cvs', f4, f5⟩ := hl'.row t rows' ht' j row' hr'
    simp only [Nat.zero_add] at e1 e2 e3 e4 e5 f2 f3 f4 f5
    rw [e4] at f4; cases f4
    rw [hd t htl, f2] at e2
    rw [hw t htl, f3] at e3
    rw [← Option.some.inj e2, ← Option.some.inj e3] at e5
    refine ⟨hso.same_outcome hev hV vc ko hR hVR t cvs e4 _ _ hmem hc e e' (by rw [hdn]; exact he)
      (by rw [hdn']; exact he') hee _ _ _ _ row row' e5 f5, hdn, hdn', hmem, e1, ?_⟩
    exact simulateIndividual_choice_mem _ _ _ _ _ _ _ _
      (hso.outcome hev hV vc ko t cvs e4 _ hmem e (by rw [hdn]; exact he) _ _ _ row e5)
  induction t generalizing rows rows' row row' with
  | zero =>
    have e := hl.start rows ht
    have e' := hl'.start rows' ht'
    rw [← e, List.getElem?_map, hr] at hi
    rw [← e', List.getElem?_map, hr'] at hj
    simp only [Option.map_some, Option.some.injEq, Prod.mk.injEq] at hi hj
    exact key 0 rows rows' row row' ht ht' hr hr' (by rw [hi.2, hj.2, hss]) (by rw [hi.2]; exact hs)
      (by rw [hi.2]) (by rw [hj.2])
  | succ t ih =>
    have htl := (List.getElem?_eq_some_iff.1 ht).1
    have htl' := (List.getElem?_eq_some_iff.1 ht').1
    have hp : data[t]? = some data[t] := List.getElem?_eq_getElem (by omega)
    have hp' : data'[t]? = some data'[t] := List.getElem?_eq_getElem (by omega)
    have hlen : ∀ (t : Nat) rows, data[t]? = some rows → rows.length = agents.length := fun t rows ht => by
      simpa using congrArg List.length (hl.ids t rows ht)
    have hlen' : ∀ (t : Nat) rows, data'[t]? = some rows → rows.length = agents'.length :=
      fun t rows ht => by simpa using congrArg List.length (hl'.ids t rows ht)
    have hil : i < data[t].length := by
      rw [hlen t _ hp]; exact (List.getElem?_eq_some_iff.1 hi).1
    have hjl : j < data'[t].length := by
      rw [hlen' t _ hp']; exact (List.getElem?_eq_some_iff.1 hj).1
    obtain ⟨same, s1, s2, s3, s4, s5⟩ :=
      ih _ _ _ _ hp hp' (List.getElem?_eq_getElem hil) (List.getElem?_eq_getElem hjl)
    obtain ⟨c1, d1, _⟩ := hl.step t _ _ hp ht i _ _ (List.getElem?_eq_getElem hil) hr
    obtain ⟨c2, d2, _⟩ := hl'.step t _ _ hp' ht' j _ _ (List.getElem?_eq_getElem hjl) hr'
    have hlt : t + 1 < b.core.nPeriods := by rw [hl.length] at htl; omega
    refine key (t + 1) rows rows' row row' ht ht' hr hr' (by rw [c1, c2, same.core, same.outcome]) ?_
      ((d1 hx).trans s1) ((d2 hx).trans s2)
    rw [c1]
    exact hso.wf.closed _ s3 (by omega) e he.mem _ s5

end

end Respy
