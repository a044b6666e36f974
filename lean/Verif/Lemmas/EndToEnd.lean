import Verif.Lemmas.SolveTotal
import Verif.Spec.ValueFunction
import Verif.Props.Solve
import Mathlib.Data.List.ProdSigma
import Mathlib.Data.List.Perm.Subperm

/-! Helper lemmas: the value function of a created state space. -/

set_option linter.unusedSectionVars false

namespace Respy

variable {K : Type _} [Field K] [LinearOrder K]

theorem IsBellman.unique {delta : K} {adm : Nat → Prop} {w m c : Nat → K} {draws : List (Nat → K)}
    {v v' : K} (h : IsBellman delta adm w m c draws v) (h' : IsBellman delta adm w m c draws v') :
    v = v' := by
  obtain ⟨f, hf, rfl⟩ := h
  obtain ⟨g, hg, rfl⟩ := h'
  have : draws.map f = draws.map g := List.map_congr_left fun e he => (hf e he).unique (hg e he)
  rw [this]

theorem IsBellman.congr {delta : K} {adm : Nat → Prop} {w m c c' : Nat → K} {draws : List (Nat → K)}
    {v : K} (hc : ∀ a, adm a → c a = c' a) (h : IsBellman delta adm w m c draws v) :
    IsBellman delta adm w m c' draws v := by
  obtain ⟨f, hf, rfl⟩ := h
  refine ⟨f, fun e he => ?_, rfl⟩
  have hset : {x | x = 0 ∨ ∃ a, adm a ∧ x = w a * e a + m a + delta * c' a} =
      {x | x = 0 ∨ ∃ a, adm a ∧ x = w a * e a + m a + delta * c a} := by
    ext x
    constructor <;> rintro (h | ⟨a, ha, hx⟩)
    · exact Or.inl h
    · exact Or.inr ⟨a, ha, by rw [hx, hc a ha]⟩
    · exact Or.inl h
    · exact Or.inr ⟨a, ha, by rw [hx, hc a ha]⟩
  rw [hset]; exact hf e he

/-- From arrays with one column per admissible alternative to functions of the alternative. -/
theorem isBellman_of_isMeanMax (delta : K) (cs : List Bool) (w m c : Nat → K) (cv : List K)
    (rows : List (List K)) (v : K) (hrows : ∀ e ∈ rows, e.length = cs.count true)
    (hcv : ∀ (j : Nat) a, (validChoices cs)[j]? = some a → cv[j]? = some (c a))
    (h : IsMeanMax delta ((validChoices cs).map w) ((validChoices cs).map m) cv rows v) :
    IsBellman delta (fun a => cs[a]? = some true) w m c (rows.map (shocksOf cs)) v := by
  classical
  obtain ⟨f, hf, rfl⟩ := h
  have hset : ∀ e ∈ rows, valuesAndZero delta ((validChoices cs).map w) ((validChoices cs).map m) cv e =
      {x | x = 0 ∨ ∃ a, cs[a]? = some true ∧ x = w a * shocksOf cs e a + m a + delta * c a} := by
    intro e he
    ext x
    constructor
    · rintro (h | ⟨j, wj, mj, cj, ej, h1, h2, h3, h4, rfl⟩)
      · exact Or.inl h
      · rw [List.getElem?_map, Option.map_eq_some_iff] at h1 h2
        obtain ⟨a, ha, rfl⟩ := h1
        obtain ⟨a', ha', rfl⟩ := h2
        rw [ha] at ha'; cases ha'
        rw [hcv j a ha] at h3; cases h3
        have hadm := (mem_validChoices cs a).1 (List.mem_of_getElem? ha)
        have hpos : positionIn cs a = j := by
          have h1 := validChoices_positionIn cs a hadm
          exact (List.getElem?_inj (List.getElem?_eq_some_iff.1 h1).1 (validChoices_nodup cs)).1
            (h1.trans ha.symm)
        refine Or.inr ⟨a, hadm, ?_⟩
        have : shocksOf cs e a = ej := by
          rw [shocksOf, hpos, List.getD_eq_getElem?_getD, h4]; rfl
        rw [this]
    · rintro (h | ⟨a, hadm, rfl⟩)
      · exact Or.inl h
      · have h1 := validChoices_positionIn cs a hadm
        have hlt : positionIn cs a < e.length := by rw [hrows e he]; exact positionIn_lt cs a hadm
        refine Or.inr ⟨positionIn cs a, w a, m a, c a, e[positionIn cs a], ?_, ?_, hcv _ a h1,
          List.getElem?_eq_getElem hlt, ?_⟩
        · rw [List.getElem?_map, h1]; rfl
        · rw [List.getElem?_map, h1]; rfl
        · rw [shocksOf, List.getD_eq_getElem?_getD, List.getElem?_eq_getElem hlt]; rfl
  have hinv : ∀ g ∈ rows.map (shocksOf cs), ∃ e ∈ rows, shocksOf cs e = g := by
    intro g hg
    obtain ⟨e, he, rfl⟩ := List.mem_map.1 hg
    exact ⟨e, he, rfl⟩
  let best : (Nat → K) → K := fun g =>
    if h : ∃ e ∈ rows, shocksOf cs e = g then f h.choose else 0
  have hbest : ∀ e ∈ rows, IsGreatest {x | x = 0 ∨ ∃ a, cs[a]? = some true ∧
      x = w a * shocksOf cs e a + m a + delta * c a} (best (shocksOf cs e)) := by
    intro e he
    have hex : ∃ e' ∈ rows, shocksOf cs e' = shocksOf cs e := ⟨e, he, rfl⟩
    have hb : best (shocksOf cs e) = f hex.choose := by simp only [best, hex, dif_pos]
    rw [hb]
    obtain ⟨h1, h2⟩ := hex.choose_spec
    have := hf _ h1
    rw [hset _ h1, h2] at this
    exact this
  refine ⟨best, ?_, ?_⟩
  · intro g hg
    obtain ⟨e, he, rfl⟩ := hinv g hg
    exact hbest e he
  · rw [List.map_map, List.length_map]
    congr 2
    apply List.map_congr_left
    intro e he
    have := hf e he
    rw [hset e he] at this
    exact this.unique (hbest e he)

/-- The value function is unique. -/
theorem IsValueFunction.unique {b : BuildSpec} {core : List CoreState} (wf : b.WF core) {delta : K}
    {w m : Option Nat → CoreState → Nat → K} {shocks : Nat → List Bool → List (Nat → K)}
    {future : Option Nat → CoreState → List (Option Nat × K)}
    (hfut : ∀ d ∈ b.denseIndices, ∀ s ∈ core, ∀ fp ∈ future d s, fp.1 ∈ b.denseIndices)
    {V V' : Option Nat → CoreState → K} (h : IsValueFunction b core delta w m shocks future V)
    (h' : IsValueFunction b core delta w m shocks future V') (d : Option Nat) (hd : d ∈ b.denseIndices)
    (s : CoreState) (hs : s ∈ core) : V d s = V' d s := by
  have main : ∀ r : Nat, ∀ d ∈ b.denseIndices, ∀ s ∈ core, s.period + r + 1 = b.core.nPeriods →
      V d s = V' d s := by
    intro r
    induction r with
    | zero =>
      intro d hd s hs hr
      refine (h d hd s hs).unique ((h' d hd s hs).congr ?_)
      intro a _
      simp only [Nat.add_zero] at hr
      simp [hr]
    | succ r ih =>
      intro d hd s hs hr
      refine (h d hd s hs).unique ((h' d hd s hs).congr ?_)
      intro a ha
      have hne : s.period + 1 ≠ b.core.nPeriods := by omega
      simp only [hne, if_false]
      congr 1
      apply List.map_congr_left
      intro fp hfp
      rw [ih fp.1 (hfut d hd s hs fp hfp) _ (wf.closed s hs (by omega) d hd a ha) ?_]
      simp only [lawOfMotion]; omega
  have hlt := createCore_period _ _ wf.created s hs
  exact main (b.core.nPeriods - 1 - s.period) d hd s hs (by omega)

/-- The parameter objects of a state space: rewards are functions of the dense index, the state and the
alternative, arranged in the order of the states and the admissible alternatives of a dense key; shocks
are functions of the period and the choice set. -/
structure ParamsFit (bt : Built) (par : ParamObjects K) (w m : Option Nat → CoreState → Nat → K)
    (draws : Nat → List Bool → List (List K)) : Prop where
  wages : ∀ (k : Nat) c sts, bt.space.complexes[k]? = some c → bt.states[k]? = some sts →
    Dict.get? par.wages k = some (sts.map fun s => (validChoices c.choiceSet).map (w c.dense s))
  nonpecs : ∀ (k : Nat) c sts, bt.space.complexes[k]? = some c → bt.states[k]? = some sts →
    Dict.get? par.nonpecs k = some (sts.map fun s => (validChoices c.choiceSet).map (m c.dense s))
  draws : ∀ (k : Nat) c, bt.space.complexes[k]? = some c →
    Dict.get? par.draws k = some (draws c.period c.choiceSet) ∧
    ∀ e ∈ draws c.period c.choiceSet, e.length = c.choiceSet.count true

theorem ParamsFit.shape {b : BuildSpec} {core : List CoreState} {tr : Option (Dict Nat (List Bool))}
    {bt : Built} (hsnd : bt.Sound b core tr) {par : ParamObjects K}
    {w m : Option Nat → CoreState → Nat → K} {draws : Nat → List Bool → List (List K)}
    (h : ParamsFit bt par w m draws) : ParamsShape bt.space par := by
  refine ⟨?_, ?_, ?_⟩
  · intro k c n hk hn
    obtain ⟨ck, sts, _, h2, _⟩ := hsnd.item k c hk
    rw [hsnd.nStates_get k sts h2] at hn; cases hn
    refine ⟨_, h.wages k c sts hk h2, fun i hi => ?_⟩
    exact ⟨_, by rw [List.getElem?_map, List.getElem?_eq_getElem hi]; rfl,
      by rw [List.length_map, length_validChoices]⟩
  · intro k c n hk hn
    obtain ⟨ck, sts, _, h2, _⟩ := hsnd.item k c hk
    rw [hsnd.nStates_get k sts h2] at hn; cases hn
    refine ⟨_, h.nonpecs k c sts hk h2, fun i hi => ?_⟩
    exact ⟨_, by rw [List.getElem?_map, List.getElem?_eq_getElem hi]; rfl,
      by rw [List.length_map, length_validChoices]⟩
  · intro k c hk
    exact ⟨_, h.draws k c hk⟩

/-- The continuation values of the code: they can always be computed, they are zero in the last period
and the weighted values of the child states otherwise. -/
def ContinuationIs (bt : Built) (par : ParamObjects K)
    (future : Option Nat → CoreState → List (Option Nat × K)) : Prop :=
  ∀ ev : Dict Nat (List K), SameShape (initialValues bt.space) ev → ∀ t < bt.space.nPeriods,
    ∃ cvs, continuationValues bt.space par.transition ev t = some cvs ∧
      ∀ (k : Nat) c sts, bt.space.complexes[k]? = some c → c.period = t → bt.states[k]? = some sts →
        ∃ arr, Dict.get? cvs k = some arr ∧ ∀ (i : Nat) s, sts[i]? = some s →
          ∃ row, arr[i]? = some row ∧ row.length = c.choiceSet.count true ∧
            ∀ (j : Nat) a, (validChoices c.choiceSet)[j]? = some a → ∃ x, row[j]? = some x ∧
              (t + 1 = bt.space.nPeriods → x = 0) ∧
              (t + 1 ≠ bt.space.nPeriods → ∀ V : Option Nat → K,
                (∀ fp ∈ future c.dense s, bt.ValueAt ev fp.1 (lawOfMotion s a) (V fp.1)) →
                x = ((future c.dense s).map fun fp => fp.2 * V fp.1).sum)

theorem Built.Sound.keysOfPeriod_ne_nil {b : BuildSpec} {core : List CoreState}
    {tr : Option (Dict Nat (List Bool))} {bt : Built} (h : bt.Sound b core tr) (wf : b.Grouped core) {t : Nat}
    (ht : t < bt.space.nPeriods) : bt.space.keysOfPeriod t ≠ [] := by
  obtain ⟨s, hs, hst⟩ := wf.covered t (by rw [← h.nPeriods]; exact ht)
  obtain ⟨d, hd⟩ := List.exists_mem_of_ne_nil _ wf.denseIndices_ne_nil
  obtain ⟨_, _, dk, _, _, _, hc, _⟩ := h.loc s hs d hd
  exact List.ne_nil_of_mem ((mem_keysOfPeriod _ _ dk).2 ⟨_, hc, hst⟩)

theorem Built.Sound.complexes_ne_nil {b : BuildSpec} {core : List CoreState}
    {tr : Option (Dict Nat (List Bool))} {bt : Built} (h : bt.Sound b core tr) (wf : b.Grouped core) :
    bt.space.complexes ≠ [] := by
  obtain ⟨k, hk⟩ := List.exists_mem_of_ne_nil _
    (h.keysOfPeriod_ne_nil wf (t := 0) (by rw [h.nPeriods]; exact wf.periods))
  obtain ⟨c, hc, _⟩ := (mem_keysOfPeriod _ _ k).1 hk
  exact List.ne_nil_of_mem (List.mem_of_getElem? hc)

theorem ContinuationIs.total {b : BuildSpec} {core : List CoreState}
    {tr : Option (Dict Nat (List Bool))} {bt : Built} (h : bt.Sound b core tr) (wf : b.Grouped core) {par : ParamObjects K}
    {future : Option Nat → CoreState → List (Option Nat × K)} (hc : ContinuationIs bt par future) :
    ContinuationTotal bt.space par := by
  intro ev hev t ht
  obtain ⟨cvs, h1, h2⟩ := hc ev hev t ht
  refine ⟨h.keysOfPeriod_ne_nil wf ht, cvs, h1, ?_⟩
  intro k c n hk hct hn
  obtain ⟨ck, sts, _, g2, _⟩ := h.item k c hk
  rw [h.nStates_get k sts g2] at hn; cases hn
  obtain ⟨arr, h3, h4⟩ := h2 k c sts hk hct g2
  refine ⟨arr, h3, fun i hi => ?_⟩
  obtain ⟨row, h5, h6, _⟩ := h4 i _ (List.getElem?_eq_getElem hi)
  exact ⟨row, h5, h6⟩

/-- The last period. -/
theorem Built.Sound.continuation_last {b : BuildSpec} {core : List CoreState}
    {tr : Option (Dict Nat (List Bool))} {bt : Built}
    (h : bt.Sound b core tr) (transition : Dict Nat (List (Nat × List K))) (ev : Dict Nat (List K))
    (t : Nat) (hlast : t + 1 = bt.space.nPeriods) :
    ∃ cvs, continuationValues bt.space transition ev t = some cvs ∧
      ∀ (k : Nat) c sts, bt.space.complexes[k]? = some c → c.period = t → bt.states[k]? = some sts →
        ∃ arr, Dict.get? cvs k = some arr ∧ ∀ (i : Nat) s, sts[i]? = some s →
          arr[i]? = some (List.replicate (c.choiceSet.count true) 0) := by
  obtain ⟨cvs, hcvs, hl, hg⟩ := mapM_option_exists (bt.space.keysOfPeriod t)
    (fun k => (do
      let c ← bt.space.complexes[k]?
      let n ← bt.space.nStates[k]?
      pure (k, List.replicate n (List.replicate (c.choiceSet.count true) (0 : K))))) (fun k hk => by
        obtain ⟨c, hc, _⟩ := (mem_keysOfPeriod _ _ _).1 hk
        obtain ⟨ck, sts, _, h2, _⟩ := h.item k c hc
        exact ⟨_, by rw [hc, h.nStates_get k sts h2]; rfl⟩)
  have hcv : continuationValues bt.space transition ev t = some cvs := by
    unfold continuationValues
    rw [if_pos hlast]; exact hcvs
  refine ⟨cvs, hcv, ?_⟩
  intro k c sts hc hct hsts
  obtain ⟨n', hn', hget⟩ := continuationValues_last bt.space _ _ _ hlast cvs hcv k c hc hct
  rw [h.nStates_get k sts hsts] at hn'; cases hn'
  refine ⟨_, hget, fun i s hi => ?_⟩
  have := (List.getElem?_eq_some_iff.1 hi).1
  simp [this]

/-- Without exogenous processes the continuation values are the values of the child states. -/
theorem Built.Sound.continuationIs {b : BuildSpec} {core : List CoreState} {bt : Built}
    (h : bt.Sound b core none) (par : ParamObjects K) :
    ContinuationIs bt par fun d _ => [(d, 1)] := by
  intro ev hev t ht
  by_cases hlast : t + 1 = bt.space.nPeriods
  · obtain ⟨cvs, hcv, hrest⟩ := h.continuation_last par.transition ev t hlast
    refine ⟨cvs, hcv, ?_⟩
    intro k c sts hc hct hsts
    obtain ⟨arr, h1, h2⟩ := hrest k c sts hc hct hsts
    refine ⟨arr, h1, fun i s hi => ⟨_, h2 i s hi, by simp, ?_⟩⟩
    intro j a hj
    have hjl := (List.getElem?_eq_some_iff.1 hj).1
    rw [length_validChoices] at hjl
    exact ⟨0, by simp [hjl], fun _ => rfl, fun hne => absurd hlast hne⟩
  · have hk : ∀ (k : Nat) c sts, bt.space.complexes[k]? = some c → c.period = t →
        bt.states[k]? = some sts → ∃ arr,
        continuationArray bt.space (bt.space.attributeOfPeriod ev (t + 1)) k = some arr ∧
        ∀ (i : Nat) s, sts[i]? = some s →
          ∃ row, arr[i]? = some row ∧ row.length = c.choiceSet.count true ∧
            ∀ (j : Nat) a, (validChoices c.choiceSet)[j]? = some a → ∃ x, row[j]? = some x ∧
              bt.ValueAt ev c.dense (lawOfMotion s a) x := by
      intro k c sts hc hct hsts
      obtain ⟨cs, a, g1, g2, g3, g4⟩ := h.arrayOfKey ev hev k c hc sts hsts
        (by rw [hct]; rw [h.nPeriods] at hlast ht; omega)
      rw [hct] at g2
      have : cs = c.choiceSet := by
        rw [SolveSpace.columnChoiceSet, h.transit_eq] at g1
        simp only [hc, Option.map_some, Option.some.injEq] at g1
        exact g1.symm
      subst this
      exact ⟨a, g2, g4⟩
    obtain ⟨cvs, hcvs, hl, hg⟩ := mapM_option_exists (bt.space.keysOfPeriod t)
      (fun k => (do
        let a ← continuationArray bt.space (bt.space.attributeOfPeriod ev (t + 1)) k
        pure (k, a))) (fun k hk' => by
          obtain ⟨c, hc, hct⟩ := (mem_keysOfPeriod _ _ _).1 hk'
          obtain ⟨ck, sts, _, h2, _⟩ := h.item k c hc
          obtain ⟨a, ha, _⟩ := hk k c sts hc hct h2
          exact ⟨_, by rw [ha]; rfl⟩)
    have hcv : continuationValues bt.space par.transition ev t = some cvs := by
      unfold continuationValues
      rw [if_neg hlast]
      simp only [h.transit_eq, Option.bind_eq_bind, Option.pure_def, Option.bind_fun_some]
      exact hcvs
    refine ⟨cvs, hcv, ?_⟩
    intro k c sts hc hct hsts
    have hkk : k ∈ bt.space.keysOfPeriod t := (mem_keysOfPeriod _ _ _).2 ⟨c, hc, hct⟩
    obtain ⟨a, ha, hget⟩ := continuationValues_inner bt.space _ _ _ hlast h.transit_eq cvs hcv k hkk
    obtain ⟨a', ha', hrows⟩ := hk k c sts hc hct hsts
    rw [ha] at ha'; cases ha'
    refine ⟨a, hget, fun i s hi => ?_⟩
    obtain ⟨row, r1, r2, r3⟩ := hrows i s hi
    refine ⟨row, r1, r2, fun j x hj => ?_⟩
    obtain ⟨v, hv, hva⟩ := r3 j x hj
    refine ⟨v, hv, fun hl => absurd hl hlast, fun _ V hV => ?_⟩
    have := hva.unique (hV (c.dense, 1) (by simp))
    simp [this]

/-- The number of states of a period over all dense keys is the number of core states of the period
times the number of dense indices; hence interpolation is off if there are enough points. -/
theorem Built.Sound.no_interpolation {b : BuildSpec} {core : List CoreState}
    {tr : Option (Dict Nat (List Bool))} {bt : Built} (h : bt.Sound b core tr) (t : Nat)
    (hpts : (core.filter fun s => decide (s.period = t)).length * b.denseIndices.length ≤ b.points) :
    bt.space.anyInterpolated t = false := by
  classical
  let pairs : Nat → List (CoreState × Option Nat) := fun k =>
    ((bt.states[k]?).getD []).map fun s => (s, (bt.space.complexes[k]?.bind (·.dense)))
  have hlen : ((bt.space.keysOfPeriod t).map fun k => (bt.space.nStates[k]?).getD 0).sum =
      ((bt.space.keysOfPeriod t).flatMap pairs).length := by
    rw [List.length_flatMap]
    congr 1
    apply List.map_congr_left
    intro k hk
    obtain ⟨c, hc, _⟩ := (mem_keysOfPeriod _ _ _).1 hk
    obtain ⟨ck, sts, _, h2, _⟩ := h.item k c hc
    rw [h.nStates_get k sts h2]
    simp [pairs, h2]
  have hmem : ∀ k ∈ bt.space.keysOfPeriod t, ∀ s d, (s, d) ∈ pairs k → s ∈ core ∧ s.period = t ∧
      d ∈ b.denseIndices ∧ ∃ ck pos, bt.indexer.get? s = some (ck, pos) ∧
        bt.space.lookup.get? (ck, d.getD 0) = some k := by
    intro k hk s d hsd
    obtain ⟨c, hc, hct⟩ := (mem_keysOfPeriod _ _ _).1 hk
    obtain ⟨ck, sts, _, h2, h3, h4, _, h5, h6⟩ := h.item k c hc
    simp only [pairs, h2, Option.getD_some, hc, Option.bind_some, List.mem_map, Prod.mk.injEq] at hsd
    obtain ⟨s', hs', rfl, rfl⟩ := hsd
    obtain ⟨g1, g2, g3⟩ := h5 s' hs'
    obtain ⟨i, hi⟩ := List.mem_iff_getElem?.1 hs'
    exact ⟨g1, g2.trans hct, h3, ck, i, (h6 i s').1 hi, h4⟩
  have hnodup : ((bt.space.keysOfPeriod t).flatMap pairs).Nodup := by
    rw [List.nodup_flatMap]
    constructor
    · intro k hk
      obtain ⟨c, hc, hct⟩ := (mem_keysOfPeriod _ _ _).1 hk
      obtain ⟨ck, sts, _, h2, h3, h4, _, h5, h6⟩ := h.item k c hc
      simp only [pairs, h2, Option.getD_some]
      refine List.Nodup.map (fun a b hab => (Prod.mk.inj hab).1) ?_
      apply nodup_of_getElem?
      intro i j s hi hj
      have e1 := (h6 i s).1 hi
      have e2 := (h6 j s).1 hj
      rw [e1] at e2
      simpa using e2
    · refine List.Nodup.pairwise_of_forall_ne (nodup_keysOfPeriod _ _) ?_
      intro k hk k' hk' hne
      rw [Function.onFun, List.disjoint_left]
      rintro ⟨s, d⟩ h1 h2
      obtain ⟨_, _, _, ck, pos, g1, g2⟩ := hmem k hk s d h1
      obtain ⟨_, _, _, ck', pos', g1', g2'⟩ := hmem k' hk' s d h2
      rw [g1] at g1'; cases g1'
      rw [g2] at g2'; cases g2'
      exact hne rfl
  have hsub : (bt.space.keysOfPeriod t).flatMap pairs ⊆
      (core.filter fun s => decide (s.period = t)) ×ˢ b.denseIndices := by
    rintro ⟨s, d⟩ hsd
    obtain ⟨k, hk, hsd⟩ := List.mem_flatMap.1 hsd
    obtain ⟨g1, g2, g3, _⟩ := hmem k hk s d hsd
    exact List.pair_mem_product.2 ⟨List.mem_filter.2 ⟨g1, by simp [g2]⟩, g3⟩
  have hle := (hnodup.subperm hsub).length_le
  rw [List.length_product] at hle
  simp only [SolveSpace.anyInterpolated, Bool.and_eq_false_iff, decide_eq_false_iff_not]
  left
  rw [hlen, h.points]
  omega

/-- The solution of a sound state space is the value function. -/
theorem Built.Sound.solution {b : BuildSpec} {core : List CoreState} (wf : b.WF core)
    {tr : Option (Dict Nat (List Bool))} {bt : Built} (hsnd : bt.Sound b core tr)
    (hpts : ∀ t, (core.filter fun s => decide (s.period = t)).length * b.denseIndices.length ≤
      b.points) (interp : Interpolation K) (par : ParamObjects K)
    (w m : Option Nat → CoreState → Nat → K) (draws : Nat → List Bool → List (List K))
    (future : Option Nat → CoreState → List (Option Nat × K))
    (hfut : ∀ d ∈ b.denseIndices, ∀ s ∈ core, ∀ fp ∈ future d s, fp.1 ∈ b.denseIndices)
    (hfit : ParamsFit bt par w m draws) (hcont : ContinuationIs bt par future) (hdelta : par.delta ≠ 0)
    (seed : Nat) (ev0 : Dict Nat (List K)) (hs : SameShape (initialValues bt.space) ev0) :
    (solveBackward bt.space interp par seed ev0).2 = true ∧
      ∃ V, IsValueFunction b core par.delta w m (fun t cs => (draws t cs).map (shocksOf cs)) future V ∧
        ∀ d ∈ b.denseIndices, ∀ s ∈ core,
          bt.ValueAt (solveBackward bt.space interp par seed ev0).1 d s (V d s) := by
  classical
  have hno : ∀ t, bt.space.anyInterpolated t = false := fun t => hsnd.no_interpolation t (hpts t)
  have hwf := hsnd.wf wf
  have hok := solveBackward_total bt.space hwf interp hno par (hfit.shape hsnd)
    (hcont.total hsnd wf.grouped) hdelta seed ev0 hs
  refine ⟨hok, ?_⟩
  have hsh : SameShape (initialValues bt.space) (solveBackward bt.space interp par seed ev0).1 :=
    hs.trans (backwardLoop_shape ..)
  set ev := (solveBackward bt.space interp par seed ev0).1 with hev
  let V : Option Nat → CoreState → K := fun d s =>
    if h : ∃ v, bt.ValueAt ev d s v then h.choose else 0
  have hV : ∀ d ∈ b.denseIndices, ∀ s ∈ core, bt.ValueAt ev d s (V d s) := by
    intro d hd s hsc
    have hex := hsnd.valueAt_exists ev hsh s hsc d hd
    simp only [V, hex, dif_pos]
    exact hex.choose_spec
  refine ⟨V, ?_, hV⟩
  intro d hd s hsc
  obtain ⟨ck, pos, dk, sts, h1, h2, h3, h4, h5, h6⟩ := hsnd.loc s hsc d hd
  have hn := hsnd.nStates_get dk sts h5
  have hpos := (List.getElem?_eq_some_iff.1 h6).1
  obtain ⟨cvs, arr, stored, w', m', cv, ds, v, e1, e2, e3, e4, e5, e6, e7, e8, e9, e10, e11, e12, e13⟩ :=
    solve_row bt.space hwf interp hno par hdelta seed ev0 hs hok dk _ h3 pos sts.length hn hpos
  -- the stored value
  have hv : V d s = v := by
    refine (hV d hd s hsc).unique ?_
    exact ⟨ck, pos, dk, stored, h1, h2, e4, e6⟩
  rw [hv, e13]
  obtain ⟨wrows, hw1, hw2⟩ := e7
  obtain ⟨mrows, hm1, hm2⟩ := e8
  rw [hfit.wages dk _ sts h3 h5, Option.some.injEq] at hw1
  rw [hfit.nonpecs dk _ sts h3 h5, Option.some.injEq] at hm1
  rw [(hfit.draws dk _ h3).1, Option.some.injEq] at e9
  subst hw1; subst hm1; subst e9
  rw [List.getElem?_map, h6, Option.map_some, Option.some.injEq] at hw2 hm2
  subst hw2; subst hm2
  refine isBellman_of_isMeanMax _ _ _ _ _ cv _ _ (hfit.draws dk _ h3).2 ?_ (emax_isMeanMax ..)
  intro j a hj
  have hlt := createCore_period _ _ wf.created s hsc
  obtain ⟨cvs', q1, q2⟩ := hcont ev hsh s.period (by rw [hsnd.nPeriods]; exact hlt)
  rw [e1] at q1; cases q1
  obtain ⟨arr', q3, q4⟩ := q2 dk _ sts h3 rfl h5
  rw [e2] at q3; cases q3
  obtain ⟨row, q5, _, q6⟩ := q4 pos s h6
  rw [e3] at q5; cases q5
  obtain ⟨x, q7, q8, q9⟩ := q6 j a hj
  rw [hsnd.nPeriods] at q8 q9
  rw [q7]
  by_cases hlast : s.period + 1 = b.core.nPeriods
  · rw [if_pos hlast, q8 hlast]
  · rw [if_neg hlast]
    congr 1
    apply q9 hlast (fun d' => V d' (lawOfMotion s a))
    intro fp hfp
    exact hV _ (hfut d hd s hsc fp hfp) _ (wf.closed s hsc (by omega) d hd a
      ((mem_validChoices _ _).1 (List.mem_of_getElem? hj)))

end Respy
