import Mathlib.Algebra.Order.Field.Basic
import Mathlib.Tactic.Linarith
import Mathlib.Tactic.Ring
import Verif.Spec.Differences
import Verif.Lemmas.SameIndex
import Verif.Lemmas.Likelihood
import Verif.Lemmas.LogLike

/-!
# Lemmas: solutions with the same differences between alternatives
-/

namespace Respy

variable {K : Type _} [Field K] [LinearOrder K] [IsStrictOrderedRing K] {G : Type _}

omit [LinearOrder K] [IsStrictOrderedRing K] in
theorem valueFunctions_shifted {beta k : K} {m c m' c' : List K} (h : ShiftedBy beta k m c m' c') (w e : List K) :
    valueFunctions beta w m' c' e = (valueFunctions beta w m c e).map (· + k) := by
  induction e generalizing w m c m' c' with
  | nil => simp [valueFunctions]
  | cons x e ih =>
    cases w with
    | nil => simp [valueFunctions]
    | cons y w =>
    cases m with
    | nil =>
      have := List.length_eq_zero_iff.1 h.nonpecs
      subst this
      simp [valueFunctions]
    | cons a m =>
    cases c with
    | nil =>
      have := List.length_eq_zero_iff.1 h.continuations
      subst this
      simp [valueFunctions]
    | cons b c =>
    cases m' with
    | nil => have := h.nonpecs; simp at this
    | cons a' m' =>
    cases c' with
    | nil => have := h.continuations; simp at this
    | cons b' c' =>
      have h0 := h.values 0 a b a' b' rfl rfl rfl rfl
      have ht : ShiftedBy beta k m c m' c' := ⟨by simpa using h.nonpecs, by simpa using h.continuations,
        fun j p q p' q' h1 h2 h3 h4 => h.values (j + 1) p q p' q' h1 h2 h3 h4⟩
      simp only [valueFunctions, List.map_cons]
      rw [ih ht w]
      congr 1
      simp only [kwUtility]
      linear_combination h0

theorem argmaxFrom_add (k best : K) (pos i : Nat) (l : List K) :
    argmaxFrom (best + k) pos i (l.map (· + k)) = argmaxFrom best pos i l := by
  induction l generalizing best pos i with
  | nil => rfl
  | cons x l ih =>
    simp only [List.map_cons, argmaxFrom, add_lt_add_iff_right]
    split <;> exact ih _ _ _

theorem argmax_add (k : K) (l : List K) : argmax (l.map (· + k)) = argmax l := by
  cases l with
  | nil => rfl
  | cons x l =>
    simp only [List.map_cons, argmax]
    rw [argmaxFrom_add]

/-- The choice, the wage and the shocks do not depend on the level of the values. -/
theorem simulateIndividual_shifted {p : RewardParams K} {k : K} {m c m' c' : List K}
    (h : ShiftedBy p.betaDelta k m c m' c') (cs : List Bool) (w base baseWage : List K) :
    simulateIndividual p cs w m' c' base baseWage =
      (simulateIndividual p cs w m c base baseWage).map fun o => { o with values := o.values.map (· + k) } := by
  unfold simulateIndividual
  cases boolIndex cs base with
  | none => rfl
  | some draws =>
    simp only [Option.bind_eq_bind, Option.bind_some]
    cases transformDraw p.exp p.lo p.hi p.cholesky p.nWagesRaw cs draws with
    | none => rfl
    | some shocks =>
      simp only [Option.bind_some]
      cases boolIndex cs (measurementErrors p baseWage) with
      | none => rfl
      | some meas =>
        simp only [Option.bind_some, h.nonpecs, h.continuations]
        split
        · rw [valueFunctions_shifted h w shocks, argmax_add]
          cases argmax (valueFunctions p.betaDelta w m c shocks) with
          | none => rfl
          | some pos =>
            simp only [Option.bind_some]
            cases (recordedWages (nWagesIn p.nWagesRaw cs) w shocks meas)[pos]? with
            | none => rfl
            | some x => rfl
        · rfl

omit [IsStrictOrderedRing K] in
theorem simulateRow_eq (p : RewardParams K) (sp : SimSpace K) (period : Nat) (cvs : Dict Nat (List (List K)))
    (id : Nat) (s : SimState) (base baseWage : List K) :
    simulateRow p sp period cvs id s base baseWage = (sp.locate s).bind fun ki =>
      (sp.complexes[ki.1]?).bind fun complex => if complex.period = period then
        ((sp.wages.get? ki.1).bind fun ws => ws[ki.2]?).bind fun w =>
        (rewardsAt sp.nonpecs cvs ki.1 ki.2).bind fun mc =>
        (simulateIndividual p complex.choiceSet w mc.1 mc.2 base baseWage).map fun o =>
          ⟨id, s, ki.1, ki.2, base, baseWage, o⟩
      else none := by
  unfold simulateRow rewardsAt
  cases sp.locate s with
  | none => rfl
  | some ki =>
    obtain ⟨k, i⟩ := ki
    simp only [Option.bind_eq_bind, Option.bind_some]
    cases sp.complexes[k]? with
    | none => rfl
    | some complex =>
      simp only [Option.bind_some]
      split
      · cases sp.wages.get? k <;> simp only [Option.bind_some, Option.bind_none]
        rename_i ws
        cases sp.nonpecs.get? k <;> simp only [Option.bind_some, Option.bind_none]
        · cases ws[i]? <;> rfl
        rename_i ns
        cases cvs.get? k <;> simp only [Option.bind_some, Option.bind_none]
        · cases ws[i]? <;> rfl
        rename_i cs
        cases ws[i]? <;> simp only [Option.bind_some, Option.bind_none]
        cases ns[i]? <;> simp only [Option.bind_some, Option.bind_none]
        cases cs[i]? <;> simp only [Option.bind_some, Option.bind_none]
        rename_i w m c
        simp only [Option.pure_def, Option.bind_some]
        cases simulateIndividual p complex.choiceSet w m c base baseWage <;> rfl
      · rfl

section

variable {n : Nat} {p : RewardParams K} {sp sp' : SimSpace K}

omit [LinearOrder K] [IsStrictOrderedRing K] in
theorem SimSpace.SameDifferences.locate {beta : K} (h : SimSpace.SameDifferences n beta sp sp') :
    sp'.locate = sp.locate := by
  funext s
  unfold SimSpace.locate
  rw [h.indexer, h.denseIndex, h.lookup]

theorem SimSpace.SameDifferences.simulateRow (h : SimSpace.SameDifferences n p.betaDelta sp sp') (t : Nat)
    (ht : t < n) (cvs cvs' : Dict Nat (List (List K))) (hc : sp.cvs t = some cvs) (hc' : sp'.cvs t = some cvs')
    (id : Nat) (s : SimState) (base baseWage : List K) :
    Option.Rel SameBehaviour (simulateRow p sp t cvs id s base baseWage)
      (simulateRow p sp' t cvs' id s base baseWage) := by
  rw [simulateRow_eq, simulateRow_eq, h.locate]
  cases sp.locate s with
  | none => exact .none
  | some ki =>
    simp only [Option.bind_some, h.complexes]
    cases hk : sp.complexes[ki.1]? with
    | none => exact .none
    | some complex =>
      simp only [Option.bind_some]
      split
      · next hper =>
        rw [h.wages _ _ hk]
        cases (sp.wages.get? ki.1).bind fun ws => ws[ki.2]? with
        | none => exact .none
        | some w =>
          simp only [Option.bind_some]
          refine optionRel_bind (h.rows t ht cvs cvs' hc hc' ki.1 complex hk hper ki.2) ?_
          rintro ⟨m, c⟩ ⟨m', c'⟩ ⟨k, hk⟩
          rw [simulateIndividual_shifted hk]
          cases simulateIndividual p complex.choiceSet w m c base baseWage with
          | none => exact .none
          | some o => exact .some ⟨k, rfl⟩
      · exact .none

/-- A row without the values of the alternatives. -/
def SimRow.withoutValues (row : SimRow K) : SimRow K := { row with outcome := { row.outcome with values := [] } }

omit [LinearOrder K] [IsStrictOrderedRing K] in
theorem SameBehaviour.withoutValues {row row' : SimRow K} (h : SameBehaviour row row') :
    row'.withoutValues = row.withoutValues := by
  obtain ⟨k, rfl⟩ := h
  rfl

omit [LinearOrder K] [IsStrictOrderedRing K] in
theorem sameBehaviour_map {α : Type _} (f : SimRow K → α) (hf : ∀ row, f row.withoutValues = f row)
    {rows rows' : List (SimRow K)} (h : List.Forall₂ SameBehaviour rows rows') : rows'.map f = rows.map f := by
  induction h with
  | nil => rfl
  | cons hx _ ih =>
    rw [List.map_cons, List.map_cons, ih, ← hf, hx.withoutValues, hf]

omit [LinearOrder K] [IsStrictOrderedRing K] in
theorem SimSpace.SameDifferences.drawNextForKey {beta : K} (h : SimSpace.SameDifferences n beta sp sp')
    (rs : RandomSource K G) {rows rows' : List (SimRow K)} (hr : List.Forall₂ SameBehaviour rows rows') (k : Nat)
    (g : G) : drawNextForKey rs sp' rows' k g = drawNextForKey rs sp rows k g := by
  unfold Respy.drawNextForKey
  simp only [← List.getElem?_map, sameBehaviour_map (·.denseKey) (fun _ => rfl) hr,
    sameBehaviour_map (·.coreIndex) (fun _ => rfl) hr, hr.length_eq, h.transition, h.valueCounts]

omit [LinearOrder K] [IsStrictOrderedRing K] in
theorem SimSpace.SameDifferences.nextDenseKeys {beta : K} (h : SimSpace.SameDifferences n beta sp sp')
    (rs : RandomSource K G) {rows rows' : List (SimRow K)} (hr : List.Forall₂ SameBehaviour rows rows') (g : G) :
    nextDenseKeys rs sp' rows' g = nextDenseKeys rs sp rows g := by
  unfold Respy.nextDenseKeys drawNext
  simp only [h.nExog, h.keyOrder, h.drawNextForKey rs hr, sameBehaviour_map (·.denseKey) (fun _ => rfl) hr]

omit [LinearOrder K] [IsStrictOrderedRing K] in
theorem SimSpace.SameDifferences.nextState {beta : K} (h : SimSpace.SameDifferences n beta sp sp') {row row' : SimRow K}
    (hr : SameBehaviour row row') (next : Option Nat) : nextState sp' row' next = nextState sp row next := by
  obtain ⟨k, rfl⟩ := hr
  unfold Respy.nextState
  simp only [h.nExog, h.covariates]

theorem optionRel_mapM_forall₂ {α α' β β' : Type _} {R : α → α' → Prop} {S : β → β' → Prop} {f : α → Option β}
    {f' : α' → Option β'} {l : List α} {l' : List α'} (hl : List.Forall₂ R l l')
    (h : ∀ a a', R a a' → Option.Rel S (f a) (f' a')) : Option.Rel (List.Forall₂ S) (l.mapM f) (l'.mapM f') := by
  induction hl with
  | nil => exact .some .nil
  | cons hx _ ih =>
    simp only [List.mapM_cons]
    exact optionRel_bind (h _ _ hx) fun b b' hb => optionRel_bind ih fun bs bs' hbs => .some (.cons hb hbs)

theorem optionRel_eq_iff {α : Type _} {x y : Option (List α)} (h : Option.Rel (List.Forall₂ (· = ·)) x y) :
    x = y := by
  cases h with
  | none => rfl
  | some h => rw [List.forall₂_eq_eq_eq] at h; rw [h]

theorem forall₂_zipIdx {α α' : Type _} {R : α → α' → Prop} {l : List α} {l' : List α'} (hl : List.Forall₂ R l l')
    (i : Nat) : List.Forall₂ (fun x y => R x.1 y.1 ∧ x.2 = y.2) (l.zipIdx i) (l'.zipIdx i) := by
  induction hl generalizing i with
  | nil => exact .nil
  | cons hx _ ih =>
    rw [List.zipIdx_cons, List.zipIdx_cons]
    exact .cons ⟨hx, rfl⟩ (ih _)

/-- The loop over periods returns the same behaviour. -/
theorem SimSpace.SameDifferences.simulateLoop (h : SimSpace.SameDifferences n p.betaDelta sp sp')
    (rs : RandomSource K G) (draws drawsWage : List (List K)) (r period : Nat) (hn : period + r ≤ n)
    (agents : List (Nat × SimState)) (g : G) :
    Option.Rel (fun x x' => List.Forall₂ (List.Forall₂ SameBehaviour) x.1 x'.1 ∧ x.2 = x'.2)
      (simulateLoop rs p sp draws drawsWage r period agents g)
      (simulateLoop rs p sp' draws drawsWage r period agents g) := by
  induction r generalizing period agents g with
  | zero => exact .some ⟨.nil, rfl⟩
  | succ r ih =>
    unfold Respy.simulateLoop
    dsimp only
    split
    · have hcv := h.cvs period (by omega)
      cases hc : sp.cvs period with
      | none =>
        rw [hc] at hcv
        have : sp'.cvs period = none := by
          cases hc' : sp'.cvs period with
          | none => rfl
          | some x => rw [hc'] at hcv; simp at hcv
        rw [this]
        exact .none
      | some cvs =>
        obtain ⟨cvs', hc'⟩ := Option.isSome_iff_exists.1 (hcv.1 (by rw [hc]; rfl))
        rw [hc']
        simp only [Option.bind_eq_bind, Option.bind_some]
        refine optionRel_bind (optionRel_mapM_forall₂ (R := (· = ·)) (S := SameBehaviour)
          (List.forall₂_same.2 fun _ _ => rfl) ?_) ?_
        · rintro a _ rfl
          exact h.simulateRow period (by omega) cvs cvs' hc hc' _ _ _ _
        · intro rows rows' hrows
          rw [h.nextDenseKeys rs hrows]
          cases Respy.nextDenseKeys rs sp rows g with
          | none => exact .none
          | some x =>
            obtain ⟨next, g1⟩ := x
            simp only [Option.bind_some]
            split
            · exact .some ⟨.cons hrows .nil, rfl⟩
            · have hag : rows'.zipIdx.mapM (fun x => (Respy.nextState sp' x.1 (Dict.get? next x.2)).bind fun s =>
                  pure (x.1.id, s)) = rows.zipIdx.mapM (fun x =>
                    (Respy.nextState sp x.1 (Dict.get? next x.2)).bind fun s => pure (x.1.id, s)) := by
                have := optionRel_mapM_forall₂ (S := (· = ·)) (f := fun x : SimRow K × Nat =>
                  (Respy.nextState sp x.1 (Dict.get? next x.2)).bind fun s => pure (x.1.id, s))
                  (f' := fun x : SimRow K × Nat => (Respy.nextState sp' x.1 (Dict.get? next x.2)).bind fun s =>
                    pure (x.1.id, s)) (forall₂_zipIdx hrows 0) (by
                  rintro ⟨a, i⟩ ⟨a', i'⟩ ⟨h1, rfl⟩
                  dsimp only
                  rw [h.nextState h1]
                  obtain ⟨k, rfl⟩ := h1
                  exact optionRel_refl _)
                exact (optionRel_eq_iff this).symm
              rw [hag]
              cases rows.zipIdx.mapM (fun x => (Respy.nextState sp x.1 (Dict.get? next x.2)).bind fun s =>
                  (pure (x.1.id, s) : Option (Nat × SimState))) with
              | none => exact .none
              | some agents' =>
                simp only [Option.bind_some]
                refine optionRel_bind (ih (period + 1) (by omega) agents' g1) ?_
                rintro ⟨rest, g2⟩ ⟨rest', g2'⟩ ⟨hrest, rfl⟩
                exact .some ⟨.cons hrows hrest, rfl⟩
    · exact .none

omit [LinearOrder K] [IsStrictOrderedRing K] in
theorem sameBehaviour_le {a a' b b' : SimRow K} (ha : SameBehaviour a a') (hb : SameBehaviour b b') :
    SimRow.le a' b' ↔ SimRow.le a b := by
  obtain ⟨_, rfl⟩ := ha
  obtain ⟨_, rfl⟩ := hb
  rfl

omit [LinearOrder K] [IsStrictOrderedRing K] in
theorem sameBehaviour_orderedInsert {a a' : SimRow K} (ha : SameBehaviour a a') {l l' : List (SimRow K)}
    (h : List.Forall₂ SameBehaviour l l') :
    List.Forall₂ SameBehaviour (l.orderedInsert SimRow.le a) (l'.orderedInsert SimRow.le a') := by
  induction h with
  | nil => exact .cons ha .nil
  | @cons b b' l l' hb hl ih =>
    simp only [List.orderedInsert_cons, sameBehaviour_le ha hb]
    split
    · exact .cons ha (.cons hb hl)
    · exact .cons hb ih

omit [LinearOrder K] [IsStrictOrderedRing K] in
theorem sameBehaviour_processOutput {data data' : List (List (SimRow K))}
    (h : List.Forall₂ (List.Forall₂ SameBehaviour) data data') :
    List.Forall₂ SameBehaviour (processOutput data) (processOutput data') := by
  unfold processOutput
  have hflat : List.Forall₂ SameBehaviour data.flatten data'.flatten := by
    induction h with
    | nil => exact .nil
    | cons hx _ ih =>
      rw [List.flatten_cons, List.flatten_cons]
      exact List.rel_append hx ih
  generalize data.flatten = l at hflat
  generalize data'.flatten = l' at hflat
  induction hflat with
  | nil => exact .nil
  | cons hx _ ih => exact sameBehaviour_orderedInsert hx ih

theorem SimSpace.SameDifferences.run {P : Type _} (sim : Simulation K G P) (θ θ' : P) (hn : sim.nPeriods = n)
    (hs : sim.solve θ = some sp) (hs' : sim.solve θ' = some sp') (hchars : sim.chars θ' = sim.chars θ)
    (hrew : sim.rewards θ' = sim.rewards θ)
    (h : SimSpace.SameDifferences n (sim.rewards θ).betaDelta sp sp') (g : G) :
    Option.Rel (List.Forall₂ SameBehaviour) (sim.run θ g).1 (sim.run θ' g).1 ∧ (sim.run θ' g).2 = (sim.run θ g).2 := by
  unfold Simulation.run
  simp only [hs, hs', hchars, hrew]
  cases sampleAll sim.rs (sim.chars θ) sim.seed sim.input g with
  | none => exact ⟨.none, rfl⟩
  | some x =>
    obtain ⟨fp, g1⟩ := x
    dsimp only
    cases fp.mapM (rowToState sim.nExp sim.nLags) with
    | none => exact ⟨.none, rfl⟩
    | some states =>
      dsimp only
      have hloop := h.simulateLoop sim.rs sim.draws sim.drawsWage sim.nPeriods 0 (by omega)
        (states.zipIdx.map fun x => (x.2, x.1)) g1
      generalize Respy.simulateLoop sim.rs (sim.rewards θ) sp sim.draws sim.drawsWage sim.nPeriods 0
        (states.zipIdx.map fun x => (x.2, x.1)) g1 = x at hloop ⊢
      generalize Respy.simulateLoop sim.rs (sim.rewards θ) sp' sim.draws sim.drawsWage sim.nPeriods 0
        (states.zipIdx.map fun x => (x.2, x.1)) g1 = y at hloop ⊢
      cases hloop with
      | none => exact ⟨.none, rfl⟩
      | @some a b hab =>
        obtain ⟨data, g2⟩ := a
        obtain ⟨data', g2'⟩ := b
        obtain ⟨h1, rfl⟩ := hab
        exact ⟨.some (sameBehaviour_processOutput h1), rfl⟩

end

/-! ### The likelihood -/

theorem logSumExp_add (k : ℝ) (l : List ℝ) : logSumExp (l.map (· + k)) = (logSumExp l).map (· + k) := by
  cases l with
  | nil => rfl
  | cons x l =>
    rw [logSumExp_eq _ (by simp), logSumExp_eq _ (by simp), Option.map_some]
    congr 1
    have hpos : 0 < ((x :: l).map Real.exp).sum := by
      refine List.sum_pos _ ?_ (by simp)
      intro y hy
      obtain ⟨z, _, rfl⟩ := List.mem_map.1 hy
      exact Real.exp_pos z
    have : ((x :: l).map (· + k)).map Real.exp = ((x :: l).map Real.exp).map (· * Real.exp k) := by
      rw [List.map_map, List.map_map]
      refine List.map_congr_left fun y _ => ?_
      simp [Real.exp_add]
    rw [this, List.sum_map_mul_right, List.map_id', Real.log_mul hpos.ne' (Real.exp_pos k).ne', Real.log_exp]

theorem drawLogProb_shifted {beta k : ℝ} {m c m' c' : List ℝ} (h : ShiftedBy beta k m c m' c') (tau : ℝ)
    (w draw : List ℝ) (choice : Nat) :
    drawLogProb beta tau w m' c' draw choice = drawLogProb beta tau w m c draw choice := by
  unfold drawLogProb
  rw [valueFunctions_shifted h]
  have : ((valueFunctions beta w m c draw).map (· + k)).map (fun v => v / tau) =
      ((valueFunctions beta w m c draw).map fun v => v / tau).map (· + k / tau) := by
    rw [List.map_map, List.map_map]
    refine List.map_congr_left fun y _ => ?_
    simp [add_div]
  rw [this]
  dsimp only
  rw [logSumExp_add, List.getElem?_map]
  cases ((valueFunctions beta w m c draw).map fun v => v / tau)[choice]? with
  | none => rfl
  | some v =>
    cases logSumExp ((valueFunctions beta w m c draw).map fun v => v / tau) with
    | none => rfl
    | some s =>
      simp only [Option.map_some, Option.bind_eq_bind, Option.bind_some, Option.pure_def]
      congr 1
      ring

section

variable {P : Type} {n : Nat} {sp sp' : SimSpace ℝ} {e : Estimation P} {p : LikelihoodParams}

theorem observationLoglike_shifted {k : ℝ} {m c m' c' : List ℝ} (h : ShiftedBy p.betaDelta k m c m' c') (i : Nat)
    (cs : List Bool) (w : List ℝ) (choice : Nat) (wage : Option ℝ) (draws : List (List ℝ)) :
    e.observationLoglike p i cs w m' c' choice wage draws = e.observationLoglike p i cs w m c choice wage draws := by
  unfold Estimation.observationLoglike simulatedLogProb
  simp only [drawLogProb_shifted h]

theorem rowLoglike_eq (e : Estimation P) (p : LikelihoodParams) (sp : SimSpace ℝ) (cvs : Dict Nat (List (List ℝ)))
    (x : LocatedRow) (draws : List (List ℝ)) :
    e.rowLoglike p sp cvs x draws = (sp.complexes[x.key]?).bind fun complex =>
      ((sp.wages.get? x.key).bind fun ws => ws[x.index]?).bind fun w =>
      (rewardsAt sp.nonpecs cvs x.key x.index).bind fun mc =>
      (e.observationLoglike p (complex.choiceSet.count true - 1) complex.choiceSet w mc.1 mc.2 x.row.choice
        x.row.wage draws).map fun cw => ⟨x.row.id, x.row.state.core.period, x.type, cw.1, cw.2⟩ := by
  unfold Estimation.rowLoglike rewardsAt
  simp only [Option.bind_eq_bind]
  cases sp.complexes[x.key]? with
  | none => rfl
  | some complex =>
    simp only [Option.bind_some]
    cases sp.wages.get? x.key <;> simp only [Option.bind_some, Option.bind_none]
    rename_i ws
    cases sp.nonpecs.get? x.key <;> simp only [Option.bind_some, Option.bind_none]
    · cases ws[x.index]? <;> rfl
    rename_i ns
    cases cvs.get? x.key <;> simp only [Option.bind_some, Option.bind_none]
    · cases ws[x.index]? <;> rfl
    rename_i cs
    cases ws[x.index]? <;> simp only [Option.bind_some, Option.bind_none]
    cases ns[x.index]? <;> simp only [Option.bind_some, Option.bind_none]
    cases cs[x.index]? <;> simp only [Option.bind_some, Option.bind_none]
    rename_i w m c
    simp only [Option.pure_def, Option.bind_some]
    cases e.observationLoglike p (complex.choiceSet.count true - 1) complex.choiceSet w m c x.row.choice x.row.wage
      draws <;> rfl

/-- The union over periods of the continuation values. -/
theorem Estimation.continuations_get (e : Estimation P) (sp : SimSpace ℝ) (hk : sp.KeysByPeriod e.nPeriods)
    (d : Dict Nat (List (List ℝ))) (hd : e.continuations sp = some d) (k : Nat) :
    Dict.get? d k = (sp.complexes[k]?).bind fun c => if c.period < e.nPeriods then
      (sp.cvs c.period).bind fun cvs => Dict.get? cvs k else none := by
  unfold Estimation.continuations at hd
  generalize e.nPeriods = n at hd hk ⊢
  induction n generalizing d with
  | zero =>
    cases hd
    cases sp.complexes[k]? <;> simp [Dict.get?]
  | succ n ih =>
    rw [List.range_succ, List.foldlM_append] at hd
    simp only [List.foldlM_cons, List.foldlM_nil, Option.bind_eq_bind, Option.bind_eq_some_iff, Option.pure_def,
      Option.some.injEq] at hd
    obtain ⟨d0, h0, y, ⟨cvs, hc, rfl⟩, rfl⟩ := hd
    obtain ⟨hnd, hkeys⟩ := hk n (by omega) cvs hc
    have hih := ih d0 h0 fun t ht => hk t (by omega)
    by_cases hm : k ∈ Dict.keys cvs
    · obtain ⟨c, hcx, hper⟩ := hkeys k hm
      obtain ⟨⟨k', v⟩, hkv, hk'⟩ := List.mem_map.1 hm
      simp only at hk'; subst hk'
      rw [get?_update_of_mem d0 cvs hnd _ v hkv, hcx, Option.bind_some, if_pos (by omega), hper, hc, Option.bind_some,
        Dict.get?_of_mem cvs hnd _ v hkv]
    · rw [get?_update_of_not_mem _ _ _ hm, hih]
      cases sp.complexes[k]? with
      | none => rfl
      | some c =>
        simp only [Option.bind_some]
        by_cases hper : c.period = n
        · rw [if_neg (by omega), if_pos (by omega), hper, hc, Option.bind_some]
          exact ((Dict.get?_eq_none_iff _ _).2 hm).symm
        · by_cases hlt : c.period < n
          · rw [if_pos hlt, if_pos (by omega)]
          · rw [if_neg hlt, if_neg (by omega)]

theorem SimSpace.SameDifferences.rowLoglike (h : SimSpace.SameDifferences e.nPeriods p.betaDelta sp sp')
    (hk : sp.KeysByPeriod e.nPeriods) (hk' : sp'.KeysByPeriod e.nPeriods) (d d' : Dict Nat (List (List ℝ)))
    (hd : e.continuations sp = some d) (hd' : e.continuations sp' = some d') (x : LocatedRow)
    (draws : List (List ℝ)) : e.rowLoglike p sp' d' x draws = e.rowLoglike p sp d x draws := by
  rw [rowLoglike_eq, rowLoglike_eq, h.complexes]
  cases hc : sp.complexes[x.key]? with
  | none => rfl
  | some complex =>
    simp only [Option.bind_some, h.wages _ _ hc]
    cases (sp.wages.get? x.key).bind fun ws => ws[x.index]? with
    | none => rfl
    | some w =>
      simp only [Option.bind_some]
      have hg := e.continuations_get sp hk d hd x.key
      have hg' := e.continuations_get sp' hk' d' hd' x.key
      rw [h.complexes] at hg'
      rw [hc, Option.bind_some] at hg hg'
      have hrel : Option.Rel (fun x x' => ∃ s, ShiftedBy p.betaDelta s x.1 x.2 x'.1 x'.2)
          (rewardsAt sp.nonpecs d x.key x.index) (rewardsAt sp'.nonpecs d' x.key x.index) := by
        by_cases hlt : complex.period < e.nPeriods
        · rw [if_pos hlt] at hg hg'
          have hcv := h.cvs _ hlt
          cases h1 : sp.cvs complex.period with
          | none =>
            rw [h1] at hcv hg
            have h2 : sp'.cvs complex.period = none := by
              cases h2 : sp'.cvs complex.period with
              | none => rfl
              | some y => rw [h2] at hcv; simp at hcv
            rw [h2] at hg'
            unfold rewardsAt
            rw [hg, hg']
            simp only [Option.bind_none, Option.bind_eq_bind, Option.bind_fun_none]
            exact .none
          | some cvs =>
            obtain ⟨cvs', h2⟩ := Option.isSome_iff_exists.1 (hcv.1 (by rw [h1]; rfl))
            rw [h1, Option.bind_some] at hg
            rw [h2, Option.bind_some] at hg'
            have := h.rows _ hlt cvs cvs' h1 h2 x.key complex hc rfl x.index
            unfold rewardsAt at this ⊢
            rw [hg, hg']
            exact this
        · rw [if_neg hlt] at hg hg'
          unfold rewardsAt
          rw [hg, hg']
          simp only [Option.bind_none, Option.bind_eq_bind, Option.bind_fun_none]
          exact .none
      generalize rewardsAt sp.nonpecs d x.key x.index = y at hrel
      generalize rewardsAt sp'.nonpecs d' x.key x.index = y' at hrel
      cases hrel with
      | none => rfl
      | some hs =>
        obtain ⟨k, hs⟩ := hs
        simp only [Option.bind_some, observationLoglike_shifted hs]

theorem SimSpace.SameDifferences.continuations {beta : ℝ} (h : SimSpace.SameDifferences e.nPeriods beta sp sp') :
    (e.continuations sp).isSome = (e.continuations sp').isSome := by
  have key : ∀ sp : SimSpace ℝ, (e.continuations sp).isSome =
      (List.range e.nPeriods).all fun t => (sp.cvs t).isSome := by
    intro sp
    unfold Estimation.continuations
    generalize List.range e.nPeriods = l
    generalize ([] : Dict Nat (List (List ℝ))) = acc
    induction l generalizing acc with
    | nil => rfl
    | cons t l ih =>
      rw [List.foldlM_cons, List.all_cons]
      cases sp.cvs t with
      | none => rfl
      | some c =>
        simp only [Option.bind_eq_bind, Option.bind_some, Option.pure_def, Option.isSome_some, Bool.true_and]
        exact ih _
  rw [key, key, Bool.eq_iff_iff, List.all_eq_true, List.all_eq_true]
  refine forall₂_congr fun t ht => h.cvs t (List.mem_range.1 ht)

theorem SimSpace.SameDifferences.loglikeRows (h : SimSpace.SameDifferences e.nPeriods p.betaDelta sp sp')
    (hk : sp.KeysByPeriod e.nPeriods) (hk' : sp'.KeysByPeriod e.nPeriods) :
    e.loglikeRows p sp' = e.loglikeRows p sp := by
  unfold Estimation.loglikeRows
  have hloc : e.located sp' = e.located sp := by
    unfold Estimation.located
    rw [h.locate]
  rw [hloc]
  cases e.located sp with
  | none => rfl
  | some rows =>
    simp only [Option.bind_eq_bind, Option.bind_some]
    have hbase : e.baseDraws sp' rows = e.baseDraws sp rows := by
      unfold Estimation.baseDraws
      rw [h.complexes]
    rw [hbase]
    cases e.baseDraws sp rows with
    | none => rfl
    | some base =>
      simp only [Option.bind_some]
      have hcont := h.continuations
      cases hd : e.continuations sp with
      | none =>
        cases hd' : e.continuations sp' with
        | none => rfl
        | some d' => rw [hd, hd'] at hcont; cases hcont
      | some d =>
        cases hd' : e.continuations sp' with
        | none => rw [hd, hd'] at hcont; cases hcont
        | some d' =>
          simp only [Option.bind_some, h.rowLoglike hk hk' d d' hd hd']

end

end Respy
