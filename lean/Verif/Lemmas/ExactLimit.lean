import Verif.Lemmas.DrawLimit
import Verif.Lemmas.Myopic

/-!
# Lemmas: the criterion function of a solution close to the exact one
-/

namespace Respy

section
variable {K : Type} [Field K] [LinearOrder K] [IsStrictOrderedRing K]

omit [IsStrictOrderedRing K] in
/-- There are arrays which hold given values of all states. -/
theorem Built.Sound.exists_values {b : BuildSpec} {core : List CoreState} {bt : Built}
    {tr : Option (Dict Nat (List Bool))} (hsnd : bt.Sound b core tr) (V : Option Nat → CoreState → K) :
    ∃ ev : Dict Nat (List K), SameShape (initialValues bt.space) ev ∧
      ∀ d ∈ b.denseIndices, ∀ s ∈ core, bt.ValueAt ev d s (V d s) := by
  let f : Nat → List CoreState → List K := fun k sts =>
    sts.map (V ((bt.space.complexes[k]?.map Complex.dense).getD none))
  have hget : ∀ k, Dict.get? (bt.states.mapIdx fun k sts => (k, f k sts)) k = (bt.states[k]?).map (f k) := by
    intro k
    cases h : bt.states[k]? with
    | none =>
      rw [Option.map_none, Dict.get?_eq_none_iff]
      intro hk
      obtain ⟨kv, hkv, rfl⟩ := List.mem_map.1 hk
      obtain ⟨i, hi, rfl⟩ := List.mem_mapIdx.1 hkv
      rw [List.getElem?_eq_getElem hi] at h
      cases h
    | some sts =>
      rw [get?_of_positions _ (fun i kv hi => ?_) k (k, f k sts) (by rw [List.getElem?_mapIdx, h]; rfl)]
      · rfl
      · rw [List.getElem?_mapIdx, Option.map_eq_some_iff] at hi
        obtain ⟨_, _, rfl⟩ := hi
        rfl
  refine ⟨bt.states.mapIdx fun k sts => (k, f k sts), ⟨?_, ?_⟩, ?_⟩
  · rw [initialValues_keys, hsnd.nStates]
    refine List.ext_getElem (by simp [Dict.keys]) fun i h1 h2 => ?_
    simp [Dict.keys]
  · intro k
    rw [hget, initialValues_get?, hsnd.nStates]
    rw [List.getElem?_map]
    cases bt.states[k]? <;> simp [f]
  · intro d hd s hs
    obtain ⟨ck, pos, dk, sts, h1, h2, h3, h4, h5, h6⟩ := hsnd.loc s hs d hd
    refine ⟨ck, pos, dk, f dk sts, h1, h2, ?_, ?_⟩
    · rw [hget, h5]; rfl
    · simp only [f, h3, List.getElem?_map, h6]
      rfl

/-- The values of the next period differ by at most `B`, so do continuation values. -/
theorem continuationOf_close {b : BuildSpec} {core : List CoreState} (wf : b.WF core)
    {future : Option Nat → CoreState → List (Option Nat × K)} (hfut : IsTransition b core future)
    {V V' : Option Nat → CoreState → K} {B : K} (hB : 0 ≤ B)
    (hV : ∀ d ∈ b.denseIndices, ∀ s ∈ core, |V' d s - V d s| ≤ B)
    (d : Option Nat) (hd : d ∈ b.denseIndices) (s : CoreState) (hs : s ∈ core) (a : Nat)
    (ha : (b.choiceSetAt d s)[a]? = some true) :
    |continuationOf b future V' d s a - continuationOf b future V d s a| ≤ B := by
  have h := continuationOf_bounded wf hfut hB hV d hd s hs a ha
  have heq : continuationOf b future (fun d s => V' d s - V d s) d s a =
      continuationOf b future V' d s a - continuationOf b future V d s a := by
    unfold continuationOf
    split
    · simp
    · induction future d s with
      | nil => simp
      | cons x l ih =>
        simp only [List.map_cons, List.sum_cons] at ih ⊢
        rw [ih]
        ring
  rwa [heq] at h

/-- Two solutions of a state space with the same rewards, the values of which differ by at most `B`. -/
theorem nearby_of_close {b : BuildSpec} {core : List CoreState} (wf : b.WF core) {bt : Built}
    {tr : Option (Dict Nat (List Bool))} (hsnd : bt.Sound b core tr) {par par' : ParamObjects K}
    {w m : Option Nat → CoreState → Nat → K} {draws draws' : Nat → List Bool → List (List K)}
    (hfit : ParamsFit bt par w m draws) (hfit' : ParamsFit bt par' w m draws')
    {future : Option Nat → CoreState → List (Option Nat × K)} (hfut : IsTransition b core future)
    (hcont : ContinuationIs bt par future) (hcont' : ContinuationIs bt par' future)
    (htr : par'.transition = par.transition) {ev ev' : Dict Nat (List K)}
    (hev : SameShape (initialValues bt.space) ev) (hev' : SameShape (initialValues bt.space) ev')
    {V V' : Option Nat → CoreState → K} (hV : ∀ d ∈ b.denseIndices, ∀ s ∈ core, bt.ValueAt ev d s (V d s))
    (hV' : ∀ d ∈ b.denseIndices, ∀ s ∈ core, bt.ValueAt ev' d s (V' d s)) {B : K} (hB : 0 ≤ B)
    (hVV : ∀ d ∈ b.denseIndices, ∀ s ∈ core, |V' d s - V d s| ≤ B) (vc ko : List Nat → List Nat) (beta : K) :
    SimSpace.Nearby b.core.nPeriods beta beta (|beta| * B) (bt.simSpace b par ev vc ko)
      (bt.simSpace b par' ev' vc ko) := by
  have hmem : ∀ d ∈ b.denseIndices, ∀ s ∈ core, ∀ fp ∈ future d s, fp.1 ∈ b.denseIndices :=
    fun d hd s hs fp hfp => ((hfut d hd s hs).1 fp hfp).1
  refine ⟨rfl, rfl, rfl, rfl, ?_, rfl, rfl, ?_, rfl, rfl, ?_, ?_⟩
  · intro k c hk
    obtain ⟨ck, sts, _, g2, _⟩ := hsnd.item k c hk
    show Dict.get? par'.wages k = Dict.get? par.wages k
    rw [hfit.wages k c sts hk g2, hfit'.wages k c sts hk g2]
  · show par'.transition.map _ = par.transition.map _
    rw [htr]
  · intro t ht
    obtain ⟨c1, e1, _⟩ := hcont ev hev t (by rw [hsnd.nPeriods]; exact ht)
    obtain ⟨c2, e2, _⟩ := hcont' ev' hev' t (by rw [hsnd.nPeriods]; exact ht)
    show (continuationValues bt.space par.transition ev t).isSome ↔
      (continuationValues bt.space par'.transition ev' t).isSome
    rw [e1, e2]
    simp
  · intro t ht cvs cvs' hc hc' k c hk hper i
    subst hper
    have hk' : bt.space.complexes[k]? = some c := hk
    obtain ⟨ck, sts, _, g2, g3, _, _, g6, _⟩ := hsnd.item k c hk'
    obtain ⟨arr, a1, a2⟩ := continuations_of_key wf hsnd hcont hmem hev hV cvs k c hk' ht hc sts g2
    obtain ⟨arr', b1, b2⟩ := continuations_of_key wf hsnd hcont' hmem hev' hV' cvs' k c hk' ht hc' sts g2
    have n1 := hfit.nonpecs k c sts hk' g2
    have n2 := hfit'.nonpecs k c sts hk' g2
    unfold rewardsAt
    rw [show (bt.simSpace b par ev vc ko).nonpecs = par.nonpecs from rfl,
      show (bt.simSpace b par' ev' vc ko).nonpecs = par'.nonpecs from rfl, n1, n2, a1, b1]
    simp only [Option.bind_eq_bind, Option.bind_some, List.getElem?_map]
    cases hi : sts[i]? with
    | none => exact .none
    | some s =>
      simp only [Option.map_some, Option.bind_some, a2 i s hi, b2 i s hi]
      obtain ⟨hsc, hper, hset⟩ := g6 s (List.mem_of_getElem? hi)
      refine .some ⟨by simp, by simp, ?_⟩
      intro j x y x' y' h1 h2 h3 h4
      simp only [List.getElem?_map] at h1 h2 h3 h4
      cases hj : (validChoices c.choiceSet)[j]? with
      | none => rw [hj] at h1; cases h1
      | some a =>
        rw [hj, Option.map_some, Option.some.injEq] at h1 h2 h3 h4
        have ha : (b.choiceSetAt c.dense s)[a]? = some true := by
          rw [hset]; exact (mem_validChoices _ _).1 (List.mem_of_getElem? hj)
        have hbd := continuationOf_close wf hfut hB hVV c.dense g3 s hsc a ha
        rw [h4, h2] at hbd
        rw [← h1, ← h3, show m c.dense s a + beta * y' - (m c.dense s a + beta * y) = beta * (y' - y) by ring, abs_mul]
        exact mul_le_mul_of_nonneg_left hbd (abs_nonneg _)

end

open MeasureTheory in
/-- The criterion function with solutions of a model, the values `V'` of which need not be those of `V`. -/
theorem Built.Solved.criterion_near {b : BuildSpec} {core : List CoreState} {bt : Built}
    {par : ParamObjects ℝ} {w m : Option Nat → CoreState → Nat → ℝ}
    {future : Option Nat → CoreState → List (Option Nat × ℝ)}
    (hs : bt.Solved b core par w m future) (hfut : IsTransition b core future) (V : Option Nat → CoreState → ℝ)
    (vc ko : List Nat → List Nat) (e : Estimation (SimSpace ℝ)) (hsolve : ∀ sp, e.solve sp = some sp)
    (hparams : ∀ sp sp', e.params sp = e.params sp') (hfits : ∀ sp, e.Fits b core w sp) :
    ∃ exact, (∀ sp, IsExactCriterion b w m future V e sp exact) ∧
      ∀ ε : ℝ, 0 < ε → ∃ K η : ℝ, 0 < η ∧
        ∀ (Ω : Type) [MeasurableSpace Ω] (Q : Measure Ω) [IsProbabilityMeasure Q] (n : Nat)
          (_ : 0 < n) (Z : (rows size seed row : Nat) → Fin n → Ω → Fin size → ℝ) (_ : EstimationNormals Q n Z)
          (sp : Ω → SimSpace ℝ) (V' : Ω → Option Nat → CoreState → ℝ),
          (∀ ω, ∃ par' draws ev', ParamsFit bt par' w m draws ∧ ContinuationIs bt par' future ∧
            par'.transition = par.transition ∧ SameShape (initialValues bt.space) ev' ∧
            (∀ d ∈ b.denseIndices, ∀ s ∈ core, bt.ValueAt ev' d s (V' ω d s)) ∧
            sp ω = bt.simSpace b par' ev' vc ko) →
          ∃ value : Ω → ℝ,
            (∀ ω, (e.withNumbers n fun rows size seed row i => Z rows size seed row i ω).logLike (sp ω) =
              some (value ω)) ∧
            Q {ω | ε ≤ |value ω - exact|} ≤
              Q {ω | ∃ d ∈ b.denseIndices, ∃ s ∈ core, η ≤ |V' ω d s - V d s|} + ENNReal.ofReal (K / n) := by
  obtain ⟨tr, hsnd⟩ := hs.sound
  obtain ⟨draws, hfit⟩ := hs.fit
  obtain ⟨ev, hev, hV⟩ := hsnd.exists_values V
  set sp0 := bt.simSpace b par ev vc ko with hsp0
  obtain ⟨exact, hexact, hlim⟩ := hs.criterion_approaches hev hV vc ko e sp0 (hsolve sp0) (hfits sp0)
  refine ⟨exact, fun sp => ?_, ?_⟩
  · unfold IsExactCriterion at hexact ⊢
    rwa [hparams sp sp0]
  intro ε hε
  obtain ⟨K, hK⟩ := hlim (ε / 2) (by linarith)
  set beta := (e.params sp0).betaDelta with hbeta
  set D : ℝ := e.data.length * (2 * |beta| / |e.tau|) with hD
  have hD0 : 0 ≤ D := by positivity
  refine ⟨K, ε / (2 * (D + 1)), by positivity, ?_⟩
  intro Ω _ Q _ n hn Z hZ sp V' hsp
  obtain ⟨value0, hvalue0, hprob⟩ := hK Ω Q n hn Z hZ
  have hclose : ∀ ω, ∀ B, 0 ≤ B → (∀ d ∈ b.denseIndices, ∀ s ∈ core, |V' ω d s - V d s| ≤ B) →
      ∃ v, (e.withNumbers n fun rows size seed row i => Z rows size seed row i ω).logLike (sp ω) = some v ∧
        |v - value0 ω| ≤ D * B := by
    intro ω B hB hVV
    obtain ⟨par', draws', ev', h1, h2, h3, h4, h5, h6⟩ := hsp ω
    have hnear := nearby_of_close hs.wf hsnd hfit h1 hfut hs.cont h2 h3 hev h4 hV h5 hB hVV vc ko beta
    rw [← h6, ← hsp0, ← (hfits sp0).periods] at hnear
    have hrel := SimSpace.Nearby.logLike (e := e.withNumbers n fun rows size seed row i => Z rows size seed row i ω)
      (beta' := beta) sp0 (sp ω) (hsolve _) (hsolve _) (hparams _ _) (by positivity) hnear
      (simSpace_keysByPeriod _ _ _ _ _ _ _) (by rw [h6]; exact simSpace_keysByPeriod _ _ _ _ _ _ _)
    rw [hvalue0 ω] at hrel
    generalize hlog : (e.withNumbers n fun rows size seed row i => Z rows size seed row i ω).logLike (sp ω) = o at hrel
    cases hrel with
    | some h =>
      refine ⟨_, rfl, h.trans (le_of_eq ?_)⟩
      show (e.data.length : ℝ) * (2 * (|beta| * B) / |e.tau|) = _
      rw [hD]
      ring
  have hsome : ∀ ω, ∃ v,
      (e.withNumbers n fun rows size seed row i => Z rows size seed row i ω).logLike (sp ω) = some v := by
    intro ω
    obtain ⟨B, hB, hVV⟩ := exists_uniform b.denseIndices (fun d B => ∀ s ∈ core, |V' ω d s - V d s| ≤ B)
      (fun d x y hxy h s hs => (h s hs).trans hxy) fun d _ =>
        (exists_uniform core (fun s B => |V' ω d s - V d s| ≤ B) (fun s x y hxy h => h.trans hxy)
          fun s _ => ⟨_, le_rfl⟩).imp fun _ h => h.2
    exact (hclose ω B hB hVV).imp fun _ h => h.1
  choose value hvalue using hsome
  refine ⟨value, hvalue, (measure_mono ?_).trans ((measure_union_le _ _).trans (add_le_add le_rfl hprob))⟩
  intro ω hω
  by_contra hcon
  rw [Set.mem_union, not_or] at hcon
  simp only [Set.mem_ofPred_eq, not_exists, not_and, not_le] at hcon hω
  obtain ⟨v, hv, hle⟩ := hclose ω (ε / (2 * (D + 1))) (by positivity) fun d hd s hs => (hcon.1 d hd s hs).le
  rw [hvalue ω, Option.some.injEq] at hv
  subst hv
  have h1 : D * (ε / (2 * (D + 1))) ≤ ε / 2 := by
    rw [mul_div_assoc', div_le_div_iff₀ (by positivity) (by norm_num)]
    nlinarith
  have h2 := abs_sub_le (value ω) (value0 ω) exact
  linarith [hcon.2]

end Respy
