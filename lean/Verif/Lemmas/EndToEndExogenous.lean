import Verif.Lemmas.BuildExogenous
import Verif.Lemmas.EndToEnd

/-!
# Continuation values of a created state space with exogenous processes
-/

set_option linter.unusedSectionVars false

namespace Respy

variable {K : Type _} [Field K] [LinearOrder K] [IsStrictOrderedRing K]

/-- The transition frames belong to the state space: the frame of a dense key has one column for every
combination of values of the processes, labelled by the dense key of the same core states with these
values, and the rows are the probabilities `p` of the states of the key. -/
def TransitionFit (b : BuildSpec) (bt : Built) (transition : Dict Nat (List (Nat × List K)))
    (p : Option Nat → CoreState → List Nat → K) : Prop :=
  ∀ (k : Nat) c ck sts, bt.dpc[k]? = some (c, ck) → bt.states[k]? = some sts →
    ∃ cols, Dict.get? transition k = some cols ∧
      List.Forall₂ (fun e col =>
        bt.space.lookup.get? (ck, (b.successor c.dense e).getD 0) = some col.1 ∧
        col.2 = sts.map fun s => p c.dense s e) (exogenousGrid b.exogLevels) cols

/-- Dense keys of the same core key have the same states. -/
theorem Built.Sound.states_eq {b : BuildSpec} {core : List CoreState}
    {tr : Option (Dict Nat (List Bool))} {bt : Built} (h : bt.Sound b core tr) {k f : Nat}
    {c c' : Complex} {ck : Nat} (hk : bt.dpc[k]? = some (c, ck)) (hf : bt.dpc[f]? = some (c', ck)) :
    bt.states[f]? = bt.states[k]? := by
  obtain ⟨ck1, sts1, a1, a2, _, _, _, _, a3⟩ := h.item k c (by rw [h.complexes, List.getElem?_map, hk]; rfl)
  obtain ⟨ck2, sts2, b1, b2, _, _, _, _, b3⟩ := h.item f c' (by rw [h.complexes, List.getElem?_map, hf]; rfl)
  rw [hk] at a1; rw [hf] at b1
  simp only [Option.some.injEq, Prod.mk.injEq, true_and] at a1 b1
  subst a1; subst b1
  rw [a2, b2]
  congr 1
  apply List.ext_getElem?
  intro i
  apply Option.ext
  intro s
  rw [a3 i s, b3 i s]

/-- With exogenous processes the continuation values are the values of the child states averaged over
the values of the processes in the next period. -/
theorem Built.Sound.continuationIs_exogenous {b : BuildSpec} {core : List CoreState} {bt : Built}
    {reps : Dict Nat (List Bool)} (h : bt.Sound b core (some reps)) (htr : bt.Transits b reps)
    (hgrid : exogenousGrid b.exogLevels ≠ [])
    (par : ParamObjects K) (p : Option Nat → CoreState → List Nat → K)
    (hp : TransitionFit b bt par.transition p) :
    ContinuationIs bt par fun d s =>
      (exogenousGrid b.exogLevels).map fun e => (b.successor d e, p d s e) := by
  intro ev hev t ht
  by_cases hlast : t + 1 = bt.space.nPeriods
  · obtain ⟨cvs, hcv, hrest⟩ := h.continuation_last par.transition ev t hlast
    refine ⟨cvs, hcv, ?_⟩
    intro k c sts hc hct hsts
    obtain ⟨arr, h1, h2⟩ := hrest k c sts hc hct hsts
    refine ⟨arr, h1, fun i s hi => ⟨_, h2 i s hi, by simp, ?_⟩⟩
    intro j a hj
    have hjl := (List.getElem?_eq_some_iff.1 hj).1
    rw [length_validChoices] at hjl
    exact ⟨0, by simp [hjl], fun _ => rfl, fun hne => absurd hlast hne⟩
  · have hper : ∀ c : Complex, c.period = t → c.period + 1 < b.core.nPeriods := by
      intro c hct; rw [hct]; rw [h.nPeriods] at hlast ht; omega
    -- the continuation values of all keys
    obtain ⟨raw, hraw, hl, hg⟩ := mapM_option_exists (bt.space.keysOfPeriod t)
      (fun k => (do
        let a ← continuationArray bt.space (bt.space.attributeOfPeriod ev (t + 1)) k
        pure (k, a))) (fun k hk' => by
          obtain ⟨c, hc, hct⟩ := (mem_keysOfPeriod _ _ _).1 hk'
          obtain ⟨ck, sts, _, h2, _⟩ := h.item k c hc
          obtain ⟨_, a, _, ha, _⟩ := h.arrayOfKey ev hev k c hc sts h2 (hper c hct)
          rw [hct] at ha
          exact ⟨_, by rw [ha]; rfl⟩)
    obtain ⟨_, hrawget⟩ := mapM_keyed _ (fun k =>
      continuationArray bt.space (bt.space.attributeOfPeriod ev (t + 1)) k) _ hraw
    -- one row
    have hrow : ∀ (k : Nat) c ck sts, bt.dpc[k]? = some (c, ck) → bt.states[k]? = some sts →
        c.period = t → ∀ cols, Dict.get? par.transition k = some cols →
        List.Forall₂ (fun e col =>
          bt.space.lookup.get? (ck, (b.successor c.dense e).getD 0) = some col.1 ∧
          col.2 = sts.map fun s => p c.dense s e) (exogenousGrid b.exogLevels) cols →
        ∀ (i : Nat) s, sts[i]? = some s → ∃ row, weightRow c.choiceSet reps raw cols i = some row ∧
          row.length = c.choiceSet.count true ∧
          ∀ (j : Nat) a, (validChoices c.choiceSet)[j]? = some a → ∃ x, row[j]? = some x ∧
            ∀ V : Option Nat → K,
              (∀ fp ∈ (exogenousGrid b.exogLevels).map fun e => (b.successor c.dense e, p c.dense s e),
                bt.ValueAt ev fp.1 (lawOfMotion s a) (V fp.1)) →
              x = (((exogenousGrid b.exogLevels).map fun e =>
                (b.successor c.dense e, p c.dense s e)).map fun fp => fp.2 * V fp.1).sum := by
      intro k c ck sts hk hsts hct cols hcols hfit i s hi
      let x : Nat → Nat → K := fun f a =>
        ((do
          let rep ← Dict.get? reps f
          let arr ← Dict.get? raw f
          let row ← arr[i]?
          row[positionIn rep a]?) : Option K).getD 0
      -- facts about the key of a column
      have hkey : ∀ e ∈ exogenousGrid b.exogLevels, ∀ f,
          bt.space.lookup.get? (ck, (b.successor c.dense e).getD 0) = some f →
          ∃ rep arr, Dict.get? reps f = some rep ∧ rep.length = c.choiceSet.length ∧
            (∀ j : Nat, c.choiceSet[j]? = some true → rep[j]? = some true) ∧
            Dict.get? raw f = some arr ∧ arr[i]? = some ((validChoices rep).map (x f)) ∧
            ∀ a, rep[a]? = some true →
              bt.ValueAt ev (b.successor c.dense e) (lawOfMotion s a) (x f a) := by
        intro e he f hf
        obtain ⟨d', f', c', rep, g1, g2, g3, g4, g5, g6, g7, g8⟩ := htr.rep k c ck hk e he
        rw [g1, Option.getD_some, g2, Option.some.injEq] at hf
        subst hf
        have hcf : bt.space.complexes[f']? = some c' := by
          rw [h.complexes, List.getElem?_map, g3]; rfl
        have hsf : bt.states[f']? = some sts := by rw [h.states_eq hk g3, hsts]
        obtain ⟨cs, arr, q1, q2, q3, q4⟩ := h.arrayOfKey ev hev f' c' hcf sts hsf
          (hper c' (g5.trans hct))
        rw [g5, hct] at q2
        have hcs : cs = rep := by
          rw [SolveSpace.columnChoiceSet, h.transit_eq] at q1
          simp only [g6, Option.some.injEq] at q1
          exact q1.symm
        subst hcs
        have hrawf : Dict.get? raw f' = some arr := by
          rw [hrawget f' ((mem_keysOfPeriod _ _ _).2 ⟨c', hcf, g5.trans hct⟩)]
          exact q2
        obtain ⟨row, r1, r2, r3⟩ := q4 i s hi
        have hx : ∀ a, x f' a = (row[positionIn cs a]?).getD 0 := by
          intro a
          simp only [x, g6, hrawf, r1, Option.bind_eq_bind, Option.bind_some]
        have hval : ∀ a, cs[a]? = some true →
            row[positionIn cs a]? = some (x f' a) ∧
              bt.ValueAt ev (some d') (lawOfMotion s a) (x f' a) := by
          intro a ha
          obtain ⟨v, v1, v2⟩ := r3 _ a (validChoices_positionIn cs a ha)
          rw [hx, v1]
          rw [g4] at v2
          exact ⟨rfl, v2⟩
        refine ⟨cs, arr, g6, g7, g8, hrawf, ?_, ?_⟩
        · rw [r1]
          congr 1
          apply List.ext_getElem?
          intro j
          rw [List.getElem?_map]
          cases hj : (validChoices cs)[j]? with
          | none =>
            rw [List.getElem?_eq_none_iff] at hj
            rw [Option.map_none, List.getElem?_eq_none_iff, r2, ← length_validChoices]
            exact hj
          | some a =>
            have hadm : cs[a]? = some true := (mem_validChoices _ _).1 (List.mem_of_getElem? hj)
            have hpos : positionIn cs a = j := by
              have h1 := validChoices_positionIn cs a hadm
              exact (List.getElem?_inj (List.getElem?_eq_some_iff.1 h1).1 (validChoices_nodup cs)).1
                (h1.trans hj.symm)
            rw [Option.map_some, ← (hval a hadm).1, hpos]
        · intro a ha
          rw [g1]
          exact (hval a ha).2
      have hcolmem : ∀ col ∈ cols, ∃ e ∈ exogenousGrid b.exogLevels,
          bt.space.lookup.get? (ck, (b.successor c.dense e).getD 0) = some col.1 ∧
          col.2 = sts.map fun s => p c.dense s e := by
        intro col hcol
        obtain ⟨j, hj⟩ := List.mem_iff_getElem?.1 hcol
        obtain ⟨e, he, hR⟩ := forall₂_getElem? hfit.flip j col hj
        exact ⟨e, List.mem_of_getElem? he, hR⟩
      have hcne : cols ≠ [] := by
        intro he
        rw [he] at hfit
        exact hgrid (List.forall₂_nil_right_iff.1 hfit)
      have hw := C20_weighted_continuation_values c.choiceSet reps raw cols i x
        (fun col => (col.2[i]?).getD 0) hcne (by
          intro col hcol
          obtain ⟨e, he, h1, h2⟩ := hcolmem col hcol
          obtain ⟨rep, arr, k1, k2, k3, k4, k5, _⟩ := hkey e he col.1 h1
          refine ⟨rep, arr, k1, k2, k3, k4, k5, ?_⟩
          rw [h2, List.getElem?_map, hi]; rfl)
      refine ⟨_, hw, by rw [List.length_map]; exact length_validChoices _, ?_⟩
      intro j a hj
      have hadm : c.choiceSet[a]? = some true := (mem_validChoices _ _).1 (List.mem_of_getElem? hj)
      refine ⟨_, by
        rw [List.getElem?_map]
        have : (List.filter (fun a => decide (c.choiceSet[a]? = some true))
          (List.range c.choiceSet.length))[j]? = some a := hj
        rw [this]; rfl, ?_⟩
      intro V hV
      rw [List.map_map]
      show (cols.map fun col => (col.2[i]?).getD 0 * x col.1 a).sum = _
      congr 1
      apply map_eq_of_forall₂
      have := forall₂_and_left hfit (P := fun e => e ∈ exogenousGrid b.exogLevels) fun e he => he
      refine this.imp ?_
      intro e col hR
      obtain ⟨⟨h1, h2⟩, he⟩ := hR
      obtain ⟨rep, arr, k1, k2, k3, k4, k5, k6⟩ := hkey e he col.1 h1
      have hv := hV _ (List.mem_map.2 ⟨e, he, rfl⟩)
      simp only [Function.comp]
      rw [(k6 a (k3 a hadm)).unique hv, h2, List.getElem?_map, hi]
      rfl
    -- the arrays
    obtain ⟨cvs, hcvs, hl2, hg2⟩ := mapM_option_exists (bt.space.keysOfPeriod t)
      (fun k => (do
        let c ← bt.space.complexes[k]?
        let n ← bt.space.nStates[k]?
        let tr ← par.transition.get? k
        let a ← weightContinuationValues c.choiceSet reps raw tr n
        pure (k, a))) (fun k hk' => by
          obtain ⟨c, hc, hct⟩ := (mem_keysOfPeriod _ _ _).1 hk'
          obtain ⟨ck, sts, h1, h2, _⟩ := h.item k c hc
          obtain ⟨cols, h3, h4⟩ := hp k c ck sts h1 h2
          have : ∃ a, weightContinuationValues c.choiceSet reps raw cols sts.length = some a := by
            obtain ⟨a, ha, _⟩ := mapM_option_exists (List.range sts.length)
              (weightRow c.choiceSet reps raw cols) (fun i hi => by
                have hlt := List.mem_range.1 hi
                obtain ⟨row, hr, _⟩ := hrow k c ck sts h1 h2 hct cols h3 h4 i _
                  (List.getElem?_eq_getElem hlt)
                exact ⟨row, hr⟩)
            exact ⟨a, ha⟩
          obtain ⟨a, ha⟩ := this
          refine ⟨(k, a), ?_⟩
          rw [hc, h.nStates_get k sts h2]
          show (Dict.get? par.transition k).bind _ = _
          rw [h3]
          simp only [Option.bind_eq_bind, Option.bind_some, ha, Option.pure_def])
    have hcv : continuationValues bt.space par.transition ev t = some cvs := by
      unfold continuationValues
      rw [if_neg hlast]
      simp only [h.transit_eq]
      rw [hraw]
      exact hcvs
    refine ⟨cvs, hcv, ?_⟩
    intro k c sts hc hct hsts
    have hkk : k ∈ bt.space.keysOfPeriod t := (mem_keysOfPeriod _ _ _).2 ⟨c, hc, hct⟩
    obtain ⟨ck, sts', h1, h2, _⟩ := h.item k c hc
    rw [hsts] at h2; cases h2
    obtain ⟨cols, h3, h4⟩ := hp k c ck sts h1 hsts
    have hcvs' : ((bt.space.keysOfPeriod t).mapM fun k => do
        let a ← (do
          let c ← bt.space.complexes[k]?
          let n ← bt.space.nStates[k]?
          let tr ← par.transition.get? k
          weightContinuationValues c.choiceSet reps raw tr n)
        pure (k, a)) = some cvs := by
      rw [← hcvs]
      apply mapM_congr
      intro k _
      cases bt.space.complexes[k]? <;> cases bt.space.nStates[k]? <;>
        cases Dict.get? par.transition k <;> rfl
    obtain ⟨_, hget⟩ := mapM_keyed _ (fun k => (do
        let c ← bt.space.complexes[k]?
        let n ← bt.space.nStates[k]?
        let tr ← par.transition.get? k
        weightContinuationValues c.choiceSet reps raw tr n)) _ hcvs'
    obtain ⟨arr, harr, hal, hag⟩ := mapM_option_exists (List.range sts.length)
      (weightRow c.choiceSet reps raw cols) (fun i hi => by
        have hlt := List.mem_range.1 hi
        obtain ⟨row, hr, _⟩ := hrow k c ck sts h1 hsts hct cols h3 h4 i _
          (List.getElem?_eq_getElem hlt)
        exact ⟨row, hr⟩)
    refine ⟨arr, ?_, ?_⟩
    · rw [hget k hkk, hc, h.nStates_get k sts hsts]
      show (Dict.get? par.transition k).bind _ = _
      rw [h3]
      exact harr
    · intro i s hi
      obtain ⟨row, r1, r2, r3⟩ := hrow k c ck sts h1 hsts hct cols h3 h4 i s hi
      have hlt := (List.getElem?_eq_some_iff.1 hi).1
      obtain ⟨row', q1, q2⟩ := hag i i (List.getElem?_range hlt)
      rw [r1] at q2; cases q2
      refine ⟨row, q1, r2, fun j a hj => ?_⟩
      obtain ⟨v, v1, v2⟩ := r3 j a hj
      exact ⟨v, v1, fun hl => absurd hl hlast, fun _ => v2⟩

end Respy
