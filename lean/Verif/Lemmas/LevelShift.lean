import Verif.Lemmas.Comparative
import Verif.Lemmas.Differences
import Verif.Spec.LevelShift

/-!
# Lemmas: rewards with another level
-/

namespace Respy

variable {K : Type} [Field K] [LinearOrder K] [IsStrictOrderedRing K]

/-- If some alternative has a nonnegative value, a higher level of all alternatives raises the expected maximum by the
same amount. -/
theorem IsBellman.shift {delta : K} {adm : Nat → Prop} {w m c m' c' : Nat → K} {draws : List (Nat → K)}
    {v v' x : K} (h : IsBellman delta adm w m c draws v) (h' : IsBellman delta adm w m' c' draws v')
    (hx : ∀ a, adm a → m' a + delta * c' a = m a + delta * c a + x) (h0 : 0 ≤ x) (hne : draws ≠ [])
    (hv : ∀ e ∈ draws, ∃ a, adm a ∧ 0 ≤ w a * e a + m a + delta * c a) : v' = v + x := by
  obtain ⟨f, hf, rfl⟩ := h
  obtain ⟨g, hg, rfl⟩ := h'
  have key : ∀ e ∈ draws, g e = f e + x := by
    intro e he
    apply le_antisymm
    · rcases (hg e he).1 with hz | ⟨a, ha, hval⟩
      · have := (hf e he).2 (Or.inl rfl)
        rw [hz]; linarith
      · have := (hf e he).2 (Or.inr ⟨a, ha, rfl⟩)
        have := hx a ha
        rw [hval]; linarith
    · rcases (hf e he).1 with hz | ⟨a, ha, hval⟩
      · obtain ⟨a, ha, hpos⟩ := hv e he
        have := (hg e he).2 (Or.inr ⟨a, ha, rfl⟩)
        have := hx a ha
        rw [hz]; linarith
      · have := (hg e he).2 (Or.inr ⟨a, ha, rfl⟩)
        have := hx a ha
        rw [hval]; linarith
  rw [List.map_congr_left key, List.sum_map_add]
  have hlen : (draws.length : K) ≠ 0 := by
    rw [Nat.cast_ne_zero]; exact fun h => hne (List.length_eq_zero_iff.1 h)
  rw [add_div]
  congr 1
  rw [List.map_const', List.sum_replicate, nsmul_eq_mul]
  field_simp

omit [LinearOrder K] [IsStrictOrderedRing K] in
theorem discountedSum_step (delta : K) (amount : Nat → K) (n t : Nat) (h : t < n) :
    discountedSum delta amount n t = amount t + delta * discountedSum delta amount n (t + 1) := by
  unfold discountedSum
  rw [show n - t = n - (t + 1) + 1 by omega, Finset.sum_range_succ', Finset.mul_sum, add_comm]
  congr 1
  · simp
  · refine Finset.sum_congr rfl fun j _ => ?_
    rw [show t + 1 + j = t + (j + 1) by omega]
    ring

theorem discountedSum_nonneg {delta : K} {amount : Nat → K} (h0 : 0 ≤ delta) (ha : ∀ t, 0 ≤ amount t) (n t : Nat) :
    0 ≤ discountedSum delta amount n t :=
  Finset.sum_nonneg fun j _ => mul_nonneg (pow_nonneg h0 j) (ha _)

omit [LinearOrder K] [IsStrictOrderedRing K] in
theorem expectation_add {α : Type _} (l : List (α × K)) (f g : α → K) (x : K) (hsum : (l.map Prod.snd).sum = 1)
    (h : ∀ fp ∈ l, g fp.1 = f fp.1 + x) :
    (l.map fun fp => fp.2 * g fp.1).sum = (l.map fun fp => fp.2 * f fp.1).sum + x := by
  have : (l.map fun fp => fp.2 * g fp.1).sum =
      (l.map fun fp => fp.2 * f fp.1).sum + (l.map Prod.snd).sum * x := by
    clear hsum
    induction l with
    | nil => simp
    | cons y l ih =>
      simp only [List.map_cons, List.sum_cons]
      rw [ih fun fp hfp => h fp (by simp [hfp]), h y (by simp)]
      ring
  rw [this, hsum, one_mul]

omit [IsStrictOrderedRing K] in
/-- If the values of all states of the next period are higher by the same number, then so are the continuation
values. -/
theorem continuationOf_shift {b : BuildSpec} {core : List CoreState} (wf : b.WF core)
    {future : Option Nat → CoreState → List (Option Nat × K)} (hfut : IsTransition b core future)
    {V V' : Option Nat → CoreState → K} {x : K} (d : Option Nat) (hd : d ∈ b.denseIndices) (s : CoreState)
    (hs : s ∈ core) (hlt : s.period + 1 < b.core.nPeriods)
    (hV : ∀ d ∈ b.denseIndices, ∀ s' ∈ core, s'.period = s.period + 1 → V' d s' = V d s' + x) (a : Nat)
    (ha : (b.choiceSetAt d s)[a]? = some true) :
    continuationOf b future V' d s a = continuationOf b future V d s a + x := by
  unfold continuationOf
  rw [if_neg (by omega), if_neg (by omega)]
  obtain ⟨hf, hsum⟩ := hfut d hd s hs
  refine expectation_add (future d s) (fun d => V d (lawOfMotion s a)) (fun d => V' d (lawOfMotion s a)) x hsum ?_
  intro fp hfp
  exact hV fp.1 (hf fp hfp).1 _ (wf.closed s hs hlt d hd a ha) rfl

/-- The values of a model with higher levels. -/
theorem IsValueFunction.shift {b : BuildSpec} {core : List CoreState} (wf : b.WF core) {delta : K} (h0 : 0 ≤ delta)
    {w m m' : Option Nat → CoreState → Nat → K} {shocks : Nat → List Bool → List (Nat → K)}
    {future : Option Nat → CoreState → List (Option Nat × K)} (hfut : IsTransition b core future)
    {amount : Nat → K} (ha : ∀ t, 0 ≤ amount t) (hm : LevelsShifted b core amount m m')
    (hne : ∀ d ∈ b.denseIndices, ∀ s ∈ core, shocks s.period (b.choiceSetAt d s) ≠ [])
    {V V' : Option Nat → CoreState → K} (h : IsValueFunction b core delta w m shocks future V)
    (h' : IsValueFunction b core delta w m' shocks future V') (hv : Viable b core delta w m shocks future V)
    (d : Option Nat) (hd : d ∈ b.denseIndices) (s : CoreState) (hs : s ∈ core) :
    V' d s = V d s + discountedSum delta amount b.core.nPeriods s.period := by
  have main : ∀ r : Nat, ∀ d ∈ b.denseIndices, ∀ s ∈ core, s.period + r + 1 = b.core.nPeriods →
      V' d s = V d s + discountedSum delta amount b.core.nPeriods s.period := by
    intro r
    induction r with
    | zero =>
      intro d hd s hs hr
      simp only [Nat.add_zero] at hr
      refine (h d hd s hs).shift (h' d hd s hs) ?_ (discountedSum_nonneg h0 ha _ _) (hne d hd s hs) (hv d hd s hs)
      intro a haa
      rw [hm d hd s hs a haa, discountedSum_step _ _ _ _ (by omega)]
      have : discountedSum delta amount b.core.nPeriods (s.period + 1) = 0 := by
        unfold discountedSum
        rw [hr, Nat.sub_self, Finset.range_zero, Finset.sum_empty]
      rw [this]
      simp only [hr, if_true]
      ring
    | succ r ih =>
      intro d hd s hs hr
      refine (h d hd s hs).shift (h' d hd s hs) ?_ (discountedSum_nonneg h0 ha _ _) (hne d hd s hs) (hv d hd s hs)
      intro a haa
      have hc := continuationOf_shift wf hfut (V := V) (V' := V')
        (x := discountedSum delta amount b.core.nPeriods (s.period + 1)) d hd s hs (by omega)
        (fun d hd s' hs' hp => by rw [ih d hd s' hs' (by omega), hp]) a haa
      unfold continuationOf at hc
      rw [hc, hm d hd s hs a haa, discountedSum_step delta amount b.core.nPeriods s.period (by omega)]
      ring
  have hlt := createCore_period _ _ wf.created s hs
  exact main (b.core.nPeriods - 1 - s.period) d hd s hs (by omega)

omit [IsStrictOrderedRing K] in
theorem simSpace_keysByPeriod (b : BuildSpec) (bt : Built) (par : ParamObjects K) (ev : Dict Nat (List K))
    (vc ko : List Nat → List Nat) (n : Nat) : (bt.simSpace b par ev vc ko).KeysByPeriod n := by
  intro t _ cvs hc
  have hkeys := continuationValues_keys _ _ _ _ _ hc
  refine ⟨by rw [hkeys]; exact keysOfPeriod_nodup' _ _, fun k hk => ?_⟩
  rw [hkeys] at hk
  exact (mem_keysOfPeriod _ _ _).1 hk

omit [LinearOrder K] [IsStrictOrderedRing K] in
/-- The continuation values of the states of a dense key. -/
theorem continuations_of_key {b : BuildSpec} {core : List CoreState} (wf : b.WF core) {bt : Built}
    {tr : Option (Dict Nat (List Bool))} (hsnd : bt.Sound b core tr) {par : ParamObjects K}
    {future : Option Nat → CoreState → List (Option Nat × K)} (hcont : ContinuationIs bt par future)
    (hfut : ∀ d ∈ b.denseIndices, ∀ s ∈ core, ∀ fp ∈ future d s, fp.1 ∈ b.denseIndices) {ev : Dict Nat (List K)}
    (hev : SameShape (initialValues bt.space) ev) {V : Option Nat → CoreState → K}
    (hV : ∀ d ∈ b.denseIndices, ∀ s ∈ core, bt.ValueAt ev d s (V d s)) (cvs : Dict Nat (List (List K)))
    (k : Nat) (c : Complex) (hk : bt.space.complexes[k]? = some c) (hlt : c.period < b.core.nPeriods)
    (hcvs : continuationValues bt.space par.transition ev c.period = some cvs) (sts : List CoreState)
    (hsts : bt.states[k]? = some sts) :
    ∃ arr, Dict.get? cvs k = some arr ∧ ∀ (i : Nat) s, sts[i]? = some s →
      arr[i]? = some ((validChoices c.choiceSet).map (continuationOf b future V c.dense s)) := by
  obtain ⟨cvs', q1, q2⟩ := hcont ev hev c.period (by rw [hsnd.nPeriods]; exact hlt)
  rw [hcvs] at q1
  cases q1
  obtain ⟨arr, q3, q4⟩ := q2 k c sts hk rfl hsts
  refine ⟨arr, q3, fun i s hi => ?_⟩
  obtain ⟨row, q5, q6, q7⟩ := q4 i s hi
  obtain ⟨ck, sts', _, g2, g3, _, _, g6, _⟩ := hsnd.item k c hk
  rw [hsts] at g2
  cases g2
  obtain ⟨hsc, hper, hset⟩ := g6 s (List.mem_of_getElem? hi)
  rw [q5]
  congr 1
  apply List.ext_getElem?
  intro j
  rw [List.getElem?_map]
  cases hj : (validChoices c.choiceSet)[j]? with
  | none =>
    rw [Option.map_none, List.getElem?_eq_none_iff, q6]
    rw [List.getElem?_eq_none_iff, length_validChoices] at hj
    exact hj
  | some a =>
    obtain ⟨x, x1, x2, x3⟩ := q7 j a hj
    have ha : c.choiceSet[a]? = some true := (mem_validChoices _ _).1 (List.mem_of_getElem? hj)
    rw [hsnd.nPeriods] at x2 x3
    rw [x1, Option.map_some]
    congr 1
    unfold continuationOf
    rw [hper]
    by_cases hl : c.period + 1 = b.core.nPeriods
    · rw [if_pos hl, x2 hl]
    · rw [if_neg hl]
      apply x3 hl (fun d' => V d' (lawOfMotion s a))
      intro fp hfp
      exact hV _ (hfut c.dense g3 s hsc fp hfp) _ (wf.closed s hsc (by omega) c.dense g3 a (by rw [hset]; exact ha))

omit [IsStrictOrderedRing K] in
/-- Two solutions of a state space whose rewards and values differ by numbers which depend only on the period have the
same differences between alternatives. -/
theorem sameDifferences_of_shift {b : BuildSpec} {core : List CoreState} (wf : b.WF core) {bt : Built}
    {tr : Option (Dict Nat (List Bool))} (hsnd : bt.Sound b core tr) {par par' : ParamObjects K}
    {w m m' : Option Nat → CoreState → Nat → K} {draws draws' : Nat → List Bool → List (List K)}
    (hfit : ParamsFit bt par w m draws) (hfit' : ParamsFit bt par' w m' draws')
    {future : Option Nat → CoreState → List (Option Nat × K)} (hfut : IsTransition b core future)
    (hcont : ContinuationIs bt par future) (hcont' : ContinuationIs bt par' future)
    (htr : par'.transition = par.transition) {ev ev' : Dict Nat (List K)}
    (hev : SameShape (initialValues bt.space) ev) (hev' : SameShape (initialValues bt.space) ev')
    {V V' : Option Nat → CoreState → K} (hV : ∀ d ∈ b.denseIndices, ∀ s ∈ core, bt.ValueAt ev d s (V d s))
    (hV' : ∀ d ∈ b.denseIndices, ∀ s ∈ core, bt.ValueAt ev' d s (V' d s)) {amount shift : Nat → K}
    (hm : LevelsShifted b core amount m m')
    (hVV : ∀ d ∈ b.denseIndices, ∀ s ∈ core, V' d s = V d s + shift s.period) (vc ko : List Nat → List Nat)
    (beta : K) :
    SimSpace.SameDifferences b.core.nPeriods beta (bt.simSpace b par ev vc ko) (bt.simSpace b par' ev' vc ko) := by
  have hmem : ∀ d ∈ b.denseIndices, ∀ s ∈ core, ∀ fp ∈ future d s, fp.1 ∈ b.denseIndices :=
    fun d hd s hs fp hfp => ((hfut d hd s hs).1 fp hfp).1
  refine ⟨rfl, rfl, rfl, rfl, ?_, rfl, rfl, ?_, rfl, rfl, ?_, ?_⟩
  · intro k c hk
    obtain ⟨ck, sts, _, g2, _⟩ := hsnd.item k c hk
    show Dict.get? par'.wages k = Dict.get? par.wages k
    rw [hfit.wages k c sts hk g2, hfit'.wages k c sts hk g2]
  · show par'.transition.map _ = par.transition.map _
    rw [htr]
  · intro t ht
    obtain ⟨c1, e1, _⟩ := hcont ev hev t (by rw [hsnd.nPeriods]; exact ht)
    obtain ⟨c2, e2, _⟩ := hcont' ev' hev' t (by rw [hsnd.nPeriods]; exact ht)
    show (continuationValues bt.space par.transition ev t).isSome ↔
      (continuationValues bt.space par'.transition ev' t).isSome
    rw [e1, e2]
    simp
  · intro t ht cvs cvs' hc hc' k c hk hper i
    subst hper
    have hk' : bt.space.complexes[k]? = some c := hk
    obtain ⟨ck, sts, _, g2, g3, _, _, g6, _⟩ := hsnd.item k c hk'
    obtain ⟨arr, a1, a2⟩ := continuations_of_key wf hsnd hcont hmem hev hV cvs k c hk' ht hc sts g2
    obtain ⟨arr', b1, b2⟩ := continuations_of_key wf hsnd hcont' hmem hev' hV' cvs' k c hk' ht hc' sts g2
    have n1 := hfit.nonpecs k c sts hk' g2
    have n2 := hfit'.nonpecs k c sts hk' g2
    unfold rewardsAt
    rw [show (bt.simSpace b par ev vc ko).nonpecs = par.nonpecs from rfl,
      show (bt.simSpace b par' ev' vc ko).nonpecs = par'.nonpecs from rfl, n1, n2, a1, b1]
    simp only [Option.bind_eq_bind, Option.bind_some, List.getElem?_map]
    cases hi : sts[i]? with
    | none => exact .none
    | some s =>
      simp only [Option.map_some, Option.bind_some, a2 i s hi, b2 i s hi]
      obtain ⟨hsc, hper, hset⟩ := g6 s (List.mem_of_getElem? hi)
      refine .some ⟨amount s.period + beta * (if s.period + 1 = b.core.nPeriods then 0 else shift (s.period + 1)),
        by simp, by simp, ?_⟩
      intro j x y x' y' h1 h2 h3 h4
      simp only [List.getElem?_map] at h1 h2 h3 h4
      cases hj : (validChoices c.choiceSet)[j]? with
      | none => rw [hj] at h1; cases h1
      | some a =>
        rw [hj, Option.map_some, Option.some.injEq] at h1 h2 h3 h4
        have ha : (b.choiceSetAt c.dense s)[a]? = some true := by
          rw [hset]; exact (mem_validChoices _ _).1 (List.mem_of_getElem? hj)
        have hmm := hm c.dense g3 s hsc a ha
        by_cases hl : s.period + 1 = b.core.nPeriods
        · have z1 : continuationOf b future V c.dense s a = 0 := by unfold continuationOf; rw [if_pos hl]
          have z2 : continuationOf b future V' c.dense s a = 0 := by unfold continuationOf; rw [if_pos hl]
          rw [← h1, ← h2, ← h3, ← h4, hmm, z1, z2, if_pos hl]
          ring
        · have hcs := continuationOf_shift wf hfut (V := V) (V' := V') (x := shift (s.period + 1)) c.dense g3 s hsc
            (by omega) (fun d hd s' hs' hp => by rw [hVV d hd s' hs', hp]) a ha
          rw [← h1, ← h2, ← h3, ← h4, hmm, hcs, if_neg hl]
          ring

end Respy
