import Verif.Lemmas.Nearby
import Verif.Lemmas.LevelShift
import Verif.Props.Comparative

/-!
# Lemmas: solutions with a small discount factor
-/

namespace Respy

variable {K : Type} [Field K] [LinearOrder K] [IsStrictOrderedRing K]

omit [IsStrictOrderedRing K] in
theorem exists_uniform {α : Type _} (l : List α) (Q : α → K → Prop) (hmono : ∀ x a b, a ≤ b → Q x a → Q x b)
    (h : ∀ x ∈ l, ∃ a, Q x a) : ∃ a, 0 ≤ a ∧ ∀ x ∈ l, Q x a := by
  induction l with
  | nil => exact ⟨0, le_rfl, by simp⟩
  | cons x l ih =>
    obtain ⟨a, ha⟩ := h x (by simp)
    obtain ⟨b, hb0, hb⟩ := ih fun y hy => h y (List.mem_cons_of_mem _ hy)
    refine ⟨max a b, hb0.trans (le_max_right _ _), fun y hy => ?_⟩
    rcases List.mem_cons.1 hy with rfl | hy
    · exact hmono _ _ _ (le_max_left _ _) ha
    · exact hmono _ _ _ (le_max_right _ _) (hb y hy)

omit [IsStrictOrderedRing K] in
/-- There is a bound for the utilities of all states, draws and admissible alternatives. -/
theorem exists_flow_bound (b : BuildSpec) (core : List CoreState) (w m : Option Nat → CoreState → Nat → K)
    (shocks : Nat → List Bool → List (Nat → K)) :
    ∃ M, 0 ≤ M ∧ ∀ d ∈ b.denseIndices, ∀ s ∈ core, ∀ e ∈ shocks s.period (b.choiceSetAt d s), ∀ a : Nat,
      (b.choiceSetAt d s)[a]? = some true → flowUtility (w d s) (m d s) e a ≤ M := by
  refine exists_uniform _ (fun d M => ∀ s ∈ core, ∀ e ∈ shocks s.period (b.choiceSetAt d s), ∀ a : Nat,
      (b.choiceSetAt d s)[a]? = some true → flowUtility (w d s) (m d s) e a ≤ M)
    (fun d x y hxy h s hs e he a ha => (h s hs e he a ha).trans hxy) fun d _ => ?_
  refine (exists_uniform core (fun s M => ∀ e ∈ shocks s.period (b.choiceSetAt d s), ∀ a : Nat,
      (b.choiceSetAt d s)[a]? = some true → flowUtility (w d s) (m d s) e a ≤ M)
    (fun s x y hxy h e he a ha => (h e he a ha).trans hxy) fun s _ => ?_).imp fun _ h => h.2
  refine (exists_uniform (shocks s.period (b.choiceSetAt d s)) (fun e M => ∀ a : Nat,
      (b.choiceSetAt d s)[a]? = some true → flowUtility (w d s) (m d s) e a ≤ M)
    (fun e x y hxy h a ha => (h a ha).trans hxy) fun e _ => ?_).imp fun _ h => h.2
  refine (exists_uniform (List.range (b.choiceSetAt d s).length) (fun a M =>
      (b.choiceSetAt d s)[a]? = some true → flowUtility (w d s) (m d s) e a ≤ M)
    (fun a x y hxy h ha => (h ha).trans hxy) fun a _ => ⟨_, fun _ => le_rfl⟩).imp fun _ h a ha =>
      h.2 a (List.mem_range.2 (List.getElem?_eq_some_iff.1 ha).1) ha

/-- Values are bounded by the number of periods times the largest utility, for every discount factor up to one. -/
theorem IsValueFunction.bounded {b : BuildSpec} {core : List CoreState} (wf : b.WF core) {delta M : K}
    (h0 : 0 ≤ delta) (h1 : delta ≤ 1) (hM : 0 ≤ M) {w m : Option Nat → CoreState → Nat → K}
    {shocks : Nat → List Bool → List (Nat → K)} {future : Option Nat → CoreState → List (Option Nat × K)}
    (hfut : IsTransition b core future)
    (hflow : ∀ d ∈ b.denseIndices, ∀ s ∈ core, ∀ e ∈ shocks s.period (b.choiceSetAt d s), ∀ a : Nat,
      (b.choiceSetAt d s)[a]? = some true → flowUtility (w d s) (m d s) e a ≤ M)
    {V : Option Nat → CoreState → K} (h : IsValueFunction b core delta w m shocks future V) :
    ∀ d ∈ b.denseIndices, ∀ s ∈ core, |V d s| ≤ M * b.core.nPeriods := by
  intro d hd s hs
  have hz : IsValueFunction b core delta (fun _ _ _ => 0) (fun _ _ _ => 0) shocks future fun _ _ => 0 := by
    intro d _ s _
    refine ⟨fun _ => 0, fun e _ => ⟨Or.inl rfl, ?_⟩, by simp⟩
    rintro x (rfl | ⟨a, _, rfl⟩)
    · exact le_rfl
    · split <;> simp
  have hle := h.le_add wf h0 le_rfl hM hfut (fun d hd s hs => List.forall₂_same.2 fun e he a ha => by
    have := hflow d hd s hs e he a ha
    simpa [flowUtility] using this) hz d hd s hs
  rw [abs_of_nonneg (h d hd s hs).nonneg]
  rw [zero_add] at hle
  refine hle.trans (mul_le_mul_of_nonneg_left ?_ hM)
  calc ∑ k ∈ Finset.range (b.core.nPeriods - s.period), delta ^ k
      ≤ ∑ k ∈ Finset.range (b.core.nPeriods - s.period), (1 : K) :=
        Finset.sum_le_sum fun k _ => pow_le_one₀ h0 h1
    _ ≤ b.core.nPeriods := by
        simp only [Finset.sum_const, Finset.card_range, nsmul_eq_mul, mul_one]
        exact_mod_cast Nat.sub_le _ _

theorem continuationOf_bounded {b : BuildSpec} {core : List CoreState} (wf : b.WF core)
    {future : Option Nat → CoreState → List (Option Nat × K)} (hfut : IsTransition b core future)
    {V : Option Nat → CoreState → K} {B : K} (hB : 0 ≤ B) (hV : ∀ d ∈ b.denseIndices, ∀ s ∈ core, |V d s| ≤ B)
    (d : Option Nat) (hd : d ∈ b.denseIndices) (s : CoreState) (hs : s ∈ core) (a : Nat)
    (ha : (b.choiceSetAt d s)[a]? = some true) : |continuationOf b future V d s a| ≤ B := by
  unfold continuationOf
  split
  · rwa [abs_zero]
  · obtain ⟨hf, hsum⟩ := hfut d hd s hs
    have hlt := createCore_period _ _ wf.created s hs
    have hmem : ∀ d ∈ b.denseIndices, |V d (lawOfMotion s a)| ≤ B :=
      fun d' hd' => hV d' hd' _ (wf.closed s hs (by omega) d hd a ha)
    have gen : ∀ l : List (Option Nat × K), (∀ fp ∈ l, fp.1 ∈ b.denseIndices ∧ 0 ≤ fp.2) →
        |(l.map fun fp => fp.2 * V fp.1 (lawOfMotion s a)).sum| ≤ (l.map Prod.snd).sum * B := by
      intro l
      induction l with
      | nil => simp
      | cons x l ih =>
        intro hl
        rw [List.map_cons, List.map_cons, List.sum_cons, List.sum_cons, add_mul]
        refine (abs_add_le _ _).trans (add_le_add ?_ (ih fun y hy => hl y (List.mem_cons_of_mem _ hy)))
        obtain ⟨h1, h2⟩ := hl x (by simp)
        rw [abs_mul, abs_of_nonneg h2]
        exact mul_le_mul_of_nonneg_left (hmem _ h1) h2
    have := gen _ hf
    rwa [hsum, one_mul] at this

/-- Two solutions of a state space with the same rewards, the values of the first are zero and those of the second
bounded. -/
theorem nearby_of_bounded {b : BuildSpec} {core : List CoreState} (wf : b.WF core) {bt : Built}
    {tr : Option (Dict Nat (List Bool))} (hsnd : bt.Sound b core tr) {par par' : ParamObjects K}
    {w m : Option Nat → CoreState → Nat → K} {draws draws' : Nat → List Bool → List (List K)}
    (hfit : ParamsFit bt par w m draws) (hfit' : ParamsFit bt par' w m draws')
    {future : Option Nat → CoreState → List (Option Nat × K)} (hfut : IsTransition b core future)
    (hcont : ContinuationIs bt par future) (hcont' : ContinuationIs bt par' future)
    (htr : par'.transition = par.transition) {ev ev' : Dict Nat (List K)}
    (hev : SameShape (initialValues bt.space) ev) (hev' : SameShape (initialValues bt.space) ev')
    {V V' : Option Nat → CoreState → K} (hV : ∀ d ∈ b.denseIndices, ∀ s ∈ core, bt.ValueAt ev d s (V d s))
    (hV' : ∀ d ∈ b.denseIndices, ∀ s ∈ core, bt.ValueAt ev' d s (V' d s)) {B : K} (hB : 0 ≤ B)
    (hVV : ∀ d ∈ b.denseIndices, ∀ s ∈ core, |V' d s| ≤ B) (vc ko : List Nat → List Nat) (beta : K) :
    SimSpace.Nearby b.core.nPeriods 0 beta (|beta| * B) (bt.simSpace b par ev vc ko) (bt.simSpace b par' ev' vc ko) := by
  have hmem : ∀ d ∈ b.denseIndices, ∀ s ∈ core, ∀ fp ∈ future d s, fp.1 ∈ b.denseIndices :=
    fun d hd s hs fp hfp => ((hfut d hd s hs).1 fp hfp).1
  refine ⟨rfl, rfl, rfl, rfl, ?_, rfl, rfl, ?_, rfl, rfl, ?_, ?_⟩
  · intro k c hk
    obtain ⟨ck, sts, _, g2, _⟩ := hsnd.item k c hk
    show Dict.get? par'.wages k = Dict.get? par.wages k
    rw [hfit.wages k c sts hk g2, hfit'.wages k c sts hk g2]
  · show par'.transition.map _ = par.transition.map _
    rw [htr]
  · intro t ht
    obtain ⟨c1, e1, _⟩ := hcont ev hev t (by rw [hsnd.nPeriods]; exact ht)
    obtain ⟨c2, e2, _⟩ := hcont' ev' hev' t (by rw [hsnd.nPeriods]; exact ht)
    show (continuationValues bt.space par.transition ev t).isSome ↔
      (continuationValues bt.space par'.transition ev' t).isSome
    rw [e1, e2]
    simp
  · intro t ht cvs cvs' hc hc' k c hk hper i
    subst hper
    have hk' : bt.space.complexes[k]? = some c := hk
    obtain ⟨ck, sts, _, g2, g3, _, _, g6, _⟩ := hsnd.item k c hk'
    obtain ⟨arr, a1, a2⟩ := continuations_of_key wf hsnd hcont hmem hev hV cvs k c hk' ht hc sts g2
    obtain ⟨arr', b1, b2⟩ := continuations_of_key wf hsnd hcont' hmem hev' hV' cvs' k c hk' ht hc' sts g2
    have n1 := hfit.nonpecs k c sts hk' g2
    have n2 := hfit'.nonpecs k c sts hk' g2
    unfold rewardsAt
    rw [show (bt.simSpace b par ev vc ko).nonpecs = par.nonpecs from rfl,
      show (bt.simSpace b par' ev' vc ko).nonpecs = par'.nonpecs from rfl, n1, n2, a1, b1]
    simp only [Option.bind_eq_bind, Option.bind_some, List.getElem?_map]
    cases hi : sts[i]? with
    | none => exact .none
    | some s =>
      simp only [Option.map_some, Option.bind_some, a2 i s hi, b2 i s hi]
      obtain ⟨hsc, hper, hset⟩ := g6 s (List.mem_of_getElem? hi)
      refine .some ⟨by simp, by simp, ?_⟩
      intro j x y x' y' h1 h2 h3 h4
      simp only [List.getElem?_map] at h1 h2 h3 h4
      cases hj : (validChoices c.choiceSet)[j]? with
      | none => rw [hj] at h1; cases h1
      | some a =>
        rw [hj, Option.map_some, Option.some.injEq] at h1 h2 h3 h4
        have ha : (b.choiceSetAt c.dense s)[a]? = some true := by
          rw [hset]; exact (mem_validChoices _ _).1 (List.mem_of_getElem? hj)
        have hbd := continuationOf_bounded wf hfut hB hVV c.dense g3 s hsc a ha
        rw [h4] at hbd
        rw [← h1, ← h3, show m c.dense s a + beta * y' - (m c.dense s a + 0 * y) = beta * y' by ring, abs_mul]
        exact mul_le_mul_of_nonneg_left hbd (abs_nonneg _)

/-- A model is solved with a discount factor of zero and with a positive discount factor. -/
theorem solved_nearby {b : BuildSpec} {core : List CoreState} (wf : b.WF core) {bt : Built}
    {tr : Option (Dict Nat (List Bool))} (hsnd : bt.Sound b core tr) (inp : SolveInput K)
    (hinp : inp.WF b core) {future : Option Nat → CoreState → List (Option Nat × K)} (hfut : IsTransition b core future)
    (transition : Dict Nat (List (Nat × List K)))
    (hcont : ∀ par : ParamObjects K, par.transition = transition → ContinuationIs bt par future)
    (rng : InterpolationRandom) (hrng : rng.Contract) (sqrt : K → K)
    (ols : List K → List (List K) → List K) (maxLog : K)
    (hcs : ∀ d ∈ b.denseIndices, ∀ s ∈ core, ∃ a : Nat, (b.choiceSetAt d s)[a]? = some true)
    (hno : ∀ t, ¬ b.Interpolates core t) (seed : Nat) (ev0 : Dict Nat (List K))
    (hev0 : SameShape (initialValues bt.space) ev0) (vc ko : List Nat → List Nat) {M : K} (hM : 0 ≤ M)
    (hflow : ∀ d ∈ b.denseIndices, ∀ s ∈ core, ∀ e ∈ inp.shocks s.period (b.choiceSetAt d s), ∀ a : Nat,
      (b.choiceSetAt d s)[a]? = some true → flowUtility (inp.wageOf d s) (inp.nonpecOf d s) e a ≤ M)
    (delta : K) (h0 : 0 < delta) (h1 : delta ≤ 1) (beta : K) :
    ∃ par par' ev ev', ({ inp with delta := 0 } : SolveInput K).paramObjects bt transition = some par ∧
      ({ inp with delta := delta } : SolveInput K).paramObjects bt transition = some par' ∧
      solveBackward bt.space (kw94 bt.space rng sqrt ols (expShocks inp.exp maxLog inp.nWages inp.cholesky)) par seed
        ev0 = (ev, true) ∧
      solveBackward bt.space (kw94 bt.space rng sqrt ols (expShocks inp.exp maxLog inp.nWages inp.cholesky)) par' seed
        ev0 = (ev', true) ∧
      SimSpace.Nearby b.core.nPeriods 0 beta (|beta| * (M * b.core.nPeriods)) (bt.simSpace b par ev vc ko)
        (bt.simSpace b par' ev' vc ko) := by
  have hinp0 : ({ inp with delta := 0 } : SolveInput K).WF b core :=
    ⟨hinp.wages, hinp.nonpecs, hinp.sizes, hinp.base, hinp.cholesky, hinp.choices⟩
  have hinp1 : ({ inp with delta := delta } : SolveInput K).WF b core :=
    ⟨hinp.wages, hinp.nonpecs, hinp.sizes, hinp.base, hinp.cholesky, hinp.choices⟩
  obtain ⟨par, p1, p2, p3, hfit⟩ := hinp0.paramsFit wf hsnd transition
  obtain ⟨par', p1', p2', p3', hfit'⟩ := hinp1.paramsFit wf hsnd transition
  have hmem : ∀ d ∈ b.denseIndices, ∀ s ∈ core, ∀ fp ∈ future d s, fp.1 ∈ b.denseIndices :=
    fun d hd s hs fp hfp => ((hfut d hd s hs).1 fp hfp).1
  have hsh : ∀ par : ParamObjects K, SameShape (initialValues bt.space)
      (solveBackward bt.space (kw94 bt.space rng sqrt ols (expShocks inp.exp maxLog inp.nWages inp.cholesky)) par
        seed ev0).1 := fun par => hev0.trans (backwardLoop_shape ..)
  have hd' : par'.delta = delta := p2'
  have hpts : b.PointsSuffice core delta := fun _ t _ ht => absurd ht (hno t)
  obtain ⟨ok, hval⟩ := hsnd.zero_discount wf (kw94 bt.space rng sqrt ols
    (expShocks inp.exp maxLog inp.nWages inp.cholesky)) par p2 seed ev0 hev0
  have ok' := (hsnd.interpolated_ok_iff wf rng hrng sqrt ols (expShocks inp.exp maxLog inp.nWages inp.cholesky) par'
    _ _ _ _ hfit' (hcont par' p3') (by rw [hd']; exact h0.ne') (by simpa [expShocks] using hinp.choices) hcs seed ev0
    hev0).2 (hpts h0.ne')
  obtain ⟨V', hV', hval'⟩ := hsnd.interpolatedSolutionAt wf rng hrng inp.exp sqrt ols maxLog inp.nWages
    inp.cholesky par' _ _ _ future hmem hfit' (hcont par' p3') (by rw [hd']; exact h0.ne') hinp.choices seed ev0 hev0 ok'
  rw [hd'] at hV'
  have hV' := (C80_no_interpolation_is_value_function _ _ hno _ _ _ _ _ _ _ _ _).1 hV'.of_rows.isInterpolatedSolution
  refine ⟨par, par', _, _, p1, p1', Prod.ext rfl ok, Prod.ext rfl ok', ?_⟩
  exact nearby_of_bounded wf hsnd hfit hfit' hfut (hcont par p3) (hcont par' p3') (p3'.trans p3.symm) (hsh par)
    (hsh par') (V := fun _ _ => 0) hval hval' (by positivity)
    (hV'.bounded wf h0.le h1 hM hfut hflow) vc ko beta

end Respy
