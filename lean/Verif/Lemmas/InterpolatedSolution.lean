import Verif.Lemmas.InterpolatedStates
import Verif.Lemmas.InterpolateTotal
import Verif.Props.Regression

/-! Helper lemmas: the solution with interpolation of a created state space. -/

set_option linter.unusedSectionVars false

namespace Respy

variable {K : Type _} [Field K] [LinearOrder K]

/-- The next seed after a period. -/
def seedAfter (ss : SolveSpace) (rng : InterpolationRandom) (t seed : Nat) : Nat :=
  if ss.anyInterpolated t then
    ((((ss.keysOfPeriod t).mapM fun k => ss.nStates[k]?).bind fun ns =>
      splitPoints rng ns ss.interpolationPoints (seed + (ss.keysOfPeriod t).length)).map Prod.snd).getD seed
  else seed

/-- The next seed after `r` periods of the backward induction, which starts with the last period. -/
def seedAfterPeriods (ss : SolveSpace) (rng : InterpolationRandom) (seed : Nat) : Nat → Nat
  | 0 => seed
  | r + 1 => seedAfter ss rng (ss.nPeriods - 1 - r) (seedAfterPeriods ss rng seed r)

/-- The states of a dense key in period `t` which are simulated. Parameters have no influence. -/
def simulatedOfKey (ss : SolveSpace) (rng : InterpolationRandom) (seed t k : Nat) : List Bool :=
  (pointsOfKey ss rng t (seedAfterPeriods ss rng seed (ss.nPeriods - (t + 1))) k).getD []

theorem kw94_seed (ss : SolveSpace) (rng : InterpolationRandom) (sqrt : K → K) (ols : List K → List (List K) → List K)
    (shocks : List K) (par : ParamObjects K) (cvs : Dict Nat (List (List K))) (t seed : Nat)
    (r : Dict Nat (List K) × Nat) (h : kw94 ss rng sqrt ols shocks par cvs t seed = some r)
    (hany : ss.anyInterpolated t = true) : r.2 = seedAfter ss rng t seed := by
  unfold kw94 at h
  obtain ⟨ns, hns, h⟩ := Option.bind_eq_some_iff.1 h
  obtain ⟨⟨points, s'⟩, hsp, h⟩ := Option.bind_eq_some_iff.1 h
  obtain ⟨vals, hvals, h⟩ := Option.bind_eq_some_iff.1 h
  simp only [Option.pure_def, Option.some.injEq] at h
  unfold seedAfter
  rw [if_pos hany, hns, Option.bind_some, hsp, ← h]
  rfl

theorem periodValues_seed (ss : SolveSpace) (rng : InterpolationRandom) (sqrt : K → K)
    (ols : List K → List (List K) → List K) (shocks : List K) (par : ParamObjects K) (hdelta : par.delta ≠ 0)
    (ev : Dict Nat (List K)) (t seed : Nat) (vals : List (Nat × PeriodValue K)) (seed' : Nat)
    (h : periodValues ss (kw94 ss rng sqrt ols shocks) par ev t seed = some (vals, seed')) :
    seed' = seedAfter ss rng t seed := by
  unfold periodValues at h
  rw [if_neg hdelta] at h
  split at h
  · next hany =>
    obtain ⟨cvs, hcvs, h⟩ := Option.bind_eq_some_iff.1 h
    obtain ⟨r, hkw, h⟩ := Option.bind_eq_some_iff.1 h
    simp only [Option.pure_def, Option.some.injEq, Prod.mk.injEq] at h
    rw [← h.2, kw94_seed _ _ _ _ _ _ _ _ _ _ hkw hany]
  · next hany =>
    split at h
    · cases h
    obtain ⟨cvs, hcvs, h⟩ := Option.bind_eq_some_iff.1 h
    obtain ⟨r, hr, h⟩ := Option.bind_eq_some_iff.1 h
    simp only [Option.pure_def, Option.some.injEq, Prod.mk.injEq] at h
    unfold seedAfter
    rw [if_neg hany, h.2]

/-- The computation of one dense key of an interpolated period, with the continuation values of the final
solution. -/
theorem solve_interpolated_key [IsStrictOrderedRing K] (ss : SolveSpace) (hwf : ss.WF)
    (rng : InterpolationRandom) (hrng : rng.Contract) (sqrt : K → K)
    (ols : List K → List (List K) → List K) (shocks : List K) (par : ParamObjects K)
    (hdelta : par.delta ≠ 0) (seed : Nat) (ev0 : Dict Nat (List K))
    (hs : SameShape (initialValues ss) ev0)
    (hok : (solveBackward ss (kw94 ss rng sqrt ols shocks) par seed ev0).2 = true) (k : Nat) (c : Complex)
    (hc : ss.complexes[k]? = some c) (hany : ss.anyInterpolated c.period = true) :
    let ev := (solveBackward ss (kw94 ss rng sqrt ols shocks) par seed ev0).1
    ∃ cvs n mask sh wages nonpecs cv draws vs, mask = simulatedOfKey ss rng seed c.period k ∧
      continuationValues ss par.transition ev c.period = some cvs ∧ ss.nStates[k]? = some n ∧
      mask.length = n ∧ min 2 n ≤ mask.count true ∧ boolIndex c.choiceSet shocks = some sh ∧
      Dict.get? par.wages k = some wages ∧ Dict.get? par.nonpecs k = some nonpecs ∧
      Dict.get? cvs k = some cv ∧ Dict.get? par.draws k = some draws ∧
      interpolateKey sqrt ols par.delta mask sh wages nonpecs cv draws = some vs ∧
      Dict.get? ev k = some vs := by
  intro ev
  obtain ⟨_, h2⟩ := backwardLoop_seeds ss _ (kw94_interpolationKeys ss rng sqrt ols shocks) par
    ss.nPeriods ev0 seed (fun t s => t ≤ ss.nPeriods ∧ s = seedAfterPeriods ss rng seed (ss.nPeriods - t))
    ⟨le_rfl, by simp [seedAfterPeriods]⟩
    (fun ev t s vals s' hr hp => by
      have hlt := hr.1
      refine ⟨by omega, ?_⟩
      rw [periodValues_seed ss rng sqrt ols shocks par hdelta ev t s vals s' hp]
      rw [hr.2, show ss.nPeriods - t = ss.nPeriods - (t + 1) + 1 by omega, seedAfterPeriods,
        show ss.nPeriods - 1 - (ss.nPeriods - (t + 1)) = t by omega]) hok
  have hper := hwf.periods c (List.mem_of_getElem? hc)
  obtain ⟨s1, vals, s2, hs1, hp, hall⟩ := h2 c.period hper
  have hs1 := hs1.2
  unfold periodValues at hp
  rw [if_neg hdelta, if_pos hany] at hp
  obtain ⟨cvs, hcvs, hp⟩ := Option.bind_eq_some_iff.1 hp
  obtain ⟨⟨values, s3⟩, hkw, hp⟩ := Option.bind_eq_some_iff.1 hp
  simp only [Option.pure_def, Option.some.injEq, Prod.mk.injEq] at hp
  have hk : k ∈ ss.keysOfPeriod c.period := (mem_keysOfPeriod _ _ _).2 ⟨c, hc, rfl⟩
  obtain ⟨n, q, s, mask, c', sh, wages, nonpecs, cv, draws, vs, hn, hmask, ⟨ns, points, j, hns, hsp,
    hj, hq⟩, hpk, hc', hsh, hw, hm, hcv, hd, hi, hv⟩ := (kw94_key ss rng sqrt ols _ par cvs c.period s1 values
      s3 hkw).2 k hk
  rw [hc] at hc'; cases hc'
  have hne : ss.interpolationPoints ≠ 2 * (ss.keysOfPeriod c.period).length := by
    intro heq
    rw [C21_two_points_per_key_raises ss c.period hany heq] at hkw
    cases hkw
  simp only [SolveSpace.anyInterpolated, Bool.and_eq_true, decide_eq_true_eq] at hany
  obtain ⟨ns', hns', hnseq⟩ := nStates_of_keys ss hwf c.period
  rw [hns] at hns'; cases hns'
  have hnl := mapM_eq_some_length _ _ _ hns
  obtain ⟨out, o1, _, _, o4⟩ := splitPoints_spec rng hrng ns ss.interpolationPoints
    (s1 + (ss.keysOfPeriod c.period).length) (by omega) (by rw [hnseq]; omega)
  rw [hsp] at o1; cases o1
  obtain ⟨q', e1, e2, e3⟩ := o4 j n hj
  rw [hq] at e1; cases e1
  obtain ⟨mask', m1, m2, m3⟩ := notInterpolated_spec rng hrng q n s e3
  rw [hmask] at m1; cases m1
  obtain ⟨l1, _⟩ := interpolateKey_spec sqrt ols par.delta mask sh wages nonpecs cv draws vs hi
  have hmem := Dict.mem_of_get? _ _ _ hv
  obtain ⟨old, new, ho, ha, hg⟩ := hall k (.array vs) (by
    rw [← hp.1]; exact List.mem_map.2 ⟨_, hmem, rfl⟩)
  obtain ⟨old', ho', hl'⟩ := sameShape_initial_length ss ev0 hs k _ hn
  rw [ho] at ho'; cases ho'
  have hnew : new = vs := by
    simp only [assignInPlace, l1, m2, hl', if_true] at ha
    exact (Option.some.inj ha).symm
  subst hnew
  exact ⟨cvs, n, mask, sh, wages, nonpecs, cv, draws, new, by
    unfold simulatedOfKey
    rw [← hs1, hpk]
    rfl, hcvs, hn, m2, by omega, hsh, hw, hm, hcv, hd,
    hi, hg⟩

theorem alternatives_eq (cs : List Bool) : alternatives cs = validChoices cs := by
  unfold alternatives validChoices
  apply List.filter_congr
  intro a ha
  rw [List.getD_eq_getElem?_getD]
  cases h : cs[a]? with
  | none => simp
  | some x => cases x <;> simp

/-- From arrays with one column per admissible alternative to functions of the alternative. -/
theorem isKw94Regressors_of_isRegressors (sqrt : K → K) (delta : K) (cs : List Bool)
    (w m c e : Nat → K) (sh cv x : List K) (mx : K)
    (hcv : ∀ (j : Nat) a, (validChoices cs)[j]? = some a → cv[j]? = some (c a))
    (hsh : ∀ (j : Nat) a, (validChoices cs)[j]? = some a → sh[j]? = some (e a))
    (h : IsRegressors sqrt delta sh ((validChoices cs).map w) ((validChoices cs).map m) cv x mx) :
    IsKw94Regressors sqrt cs (fun a => w a * e a + m a + delta * c a) mx x := by
  obtain ⟨hg, hl, hd, hc⟩ := h
  have hval : ∀ (j : Nat) a, (validChoices cs)[j]? = some a →
      IsAlternativeValue delta ((validChoices cs).map w) ((validChoices cs).map m) cv sh j
        (w a * e a + m a + delta * c a) := by
    intro j a hj
    exact ⟨w a, m a, c a, e a, by rw [List.getElem?_map, hj]; rfl, by rw [List.getElem?_map, hj]; rfl,
      hcv j a hj, hsh j a hj, rfl⟩
  have hinv : ∀ (j : Nat) v, IsAlternativeValue delta ((validChoices cs).map w)
      ((validChoices cs).map m) cv sh j v → ∃ a, (validChoices cs)[j]? = some a ∧
        v = w a * e a + m a + delta * c a := by
    rintro j v ⟨wa, ma, ca, ea, h1, h2, h3, h4, rfl⟩
    rw [List.getElem?_map, Option.map_eq_some_iff] at h1 h2
    obtain ⟨a, ha, rfl⟩ := h1
    obtain ⟨a', ha', rfl⟩ := h2
    rw [ha] at ha'; cases ha'
    rw [hcv j a ha] at h3; cases h3
    rw [hsh j a ha] at h4; cases h4
    exact ⟨a, ha, rfl⟩
  refine ⟨⟨?_, ?_⟩, ?_⟩
  · obtain ⟨j, hj⟩ := hg.1
    obtain ⟨a, ha, hv⟩ := hinv j mx hj
    exact ⟨a, (mem_validChoices cs a).1 (List.mem_of_getElem? ha), hv⟩
  · rintro y ⟨a, ha, rfl⟩
    obtain ⟨j, hj⟩ := List.mem_iff_getElem?.1 ((mem_validChoices cs a).2 ha)
    exact hg.2 ⟨j, hval j a hj⟩
  · rw [alternatives_eq]
    rw [List.length_map] at hl hc
    simp only [List.length_map] at hd
    apply List.ext_getElem?
    intro p
    rcases Nat.lt_or_ge p (validChoices cs).length with hp | hp
    · have hj := List.getElem?_eq_getElem hp
      rw [(hd p _ (hval p _ hj)).1, List.append_assoc, List.getElem?_append_left (by simpa using hp),
        List.getElem?_map, hj]
      rfl
    · rcases Nat.lt_or_ge p (2 * (validChoices cs).length) with hp2 | hp2
      · obtain ⟨q, rfl⟩ := Nat.exists_eq_add_of_le hp
        have hq : q < (validChoices cs).length := by omega
        have hj := List.getElem?_eq_getElem hq
        rw [(hd q _ (hval q _ hj)).2, List.append_assoc, List.getElem?_append_right (by simp),
          List.length_map, Nat.add_sub_cancel_left, List.getElem?_append_left (by simpa using hq),
          List.getElem?_map, hj]
        rfl
      · rcases Nat.eq_or_lt_of_le hp2 with rfl | hp3
        · rw [hc, List.getElem?_append_right (by simp; omega)]
          simp [Nat.two_mul]
        · rw [List.getElem?_eq_none (by omega), List.getElem?_eq_none (by simp; omega)]

/-- Filtering positions and filtering elements. -/
theorem filter_map_positions {α β : Type _} (l : List α) (dflt : α) (mask : Nat → Bool)
    (p : α → Bool) (g : α → β) (g' : Nat → β)
    (hp : ∀ (i : Nat) a, l[i]? = some a → p a = mask i)
    (hg : ∀ (i : Nat) a, l[i]? = some a → g a = g' i) :
    (l.filter p).map g = ((List.range l.length).filter mask).map g' := by
  have hl : l = (List.range l.length).map fun i => l.getD i dflt := by
    apply List.ext_getElem?
    intro i
    rcases Nat.lt_or_ge i l.length with hi | hi
    · simp [hi]
    · simp [hi]
  have hget : ∀ i ∈ List.range l.length, l[i]? = some (l.getD i dflt) := by
    intro i hi
    have := List.mem_range.1 hi
    simp [this]
  conv_lhs => rw [hl]
  rw [List.filter_map, List.map_map]
  have h1 : (List.range l.length).filter (p ∘ fun i => l.getD i dflt) = (List.range l.length).filter mask :=
    List.filter_congr fun i hi => hp i _ (hget i hi)
  rw [h1]
  exact List.map_congr_left fun i hi => hg i _ (hget i (List.mem_filter.1 hi).1)

theorem expShocks_get [IsStrictOrderedRing K] (exp : K → K) (maxLog : K) (nWages : Nat)
    (cholesky : List (List K)) (a : Nat) (ha : a < cholesky.length) :
    (expShocks exp maxLog nWages cholesky)[a]? = some (expectedShock exp maxLog nWages cholesky a) := by
  have hl : a < (expShocks exp maxLog nWages cholesky).length := by
    simpa [expShocks] using ha
  have h := List.getElem?_eq_getElem hl
  obtain ⟨row, h1, h2, h3⟩ := expShocks_spec exp maxLog nWages cholesky a _ h
  rw [h]
  congr 1
  unfold expectedShock
  rw [List.getD_eq_getElem?_getD, h1, Option.getD_some]
  split
  · rename_i hw; exact h2 hw
  · rename_i hw; exact h3 (by omega)

open Classical in
/-- The dense key of a group of a period. -/
noncomputable def Built.keyOfGroup (bt : Built) (t : Nat) (g : Option Nat × List Bool) : Nat :=
  if h : ∃ k, bt.space.complexes[k]? = some ⟨t, g.2, g.1⟩ then h.choose else 0

/-- The states of a group of a period. -/
noncomputable def Built.statesOfGroup (bt : Built) (t : Nat) (g : Option Nat × List Bool) : List CoreState :=
  (bt.states[bt.keyOfGroup t g]?).getD []

/-- The states of a group of a period which are simulated. -/
noncomputable def Built.simulatedOfGroup (bt : Built) (rng : InterpolationRandom) (seed t : Nat)
    (g : Option Nat × List Bool) (s : CoreState) : Bool :=
  (simulatedOfKey bt.space rng seed t (bt.keyOfGroup t g)).getD ((bt.statesOfGroup t g).idxOf s) false

/-- The solution with interpolation of a sound state space. -/
theorem Built.Sound.interpolatedSolutionAt [IsStrictOrderedRing K] {b : BuildSpec} {core : List CoreState}
    (wf : b.WF core) {tr : Option (Dict Nat (List Bool))} {bt : Built} (hsnd : bt.Sound b core tr)
    (rng : InterpolationRandom) (hrng : rng.Contract) (exp sqrt : K → K)
    (ols : List K → List (List K) → List K) (maxLog : K) (nWages : Nat) (cholesky : List (List K))
    (par : ParamObjects K)
    (w m : Option Nat → CoreState → Nat → K) (draws : Nat → List Bool → List (List K))
    (future : Option Nat → CoreState → List (Option Nat × K))
    (hfut : ∀ d ∈ b.denseIndices, ∀ s ∈ core, ∀ fp ∈ future d s, fp.1 ∈ b.denseIndices)
    (hfit : ParamsFit bt par w m draws) (hcont : ContinuationIs bt par future) (hdelta : par.delta ≠ 0)
    (hch : ∀ d ∈ b.denseIndices, ∀ s ∈ core, (b.choiceSetAt d s).length = cholesky.length)
    (seed : Nat) (ev0 : Dict Nat (List K)) (hs : SameShape (initialValues bt.space) ev0)
    (hok : (solveBackward bt.space (kw94 bt.space rng sqrt ols (expShocks exp maxLog nWages cholesky)) par
      seed ev0).2 = true) :
    ∃ V, IsInterpolatedSolutionAt b core par.delta w m (fun t cs => (draws t cs).map (shocksOf cs)) future
        (expectedShock exp maxLog nWages cholesky) sqrt ols bt.statesOfGroup (bt.simulatedOfGroup rng seed) V ∧
      ∀ d ∈ b.denseIndices, ∀ s ∈ core,
        bt.ValueAt (solveBackward bt.space (kw94 bt.space rng sqrt ols
          (expShocks exp maxLog nWages cholesky)) par seed ev0).1 d s (V d s) := by
  classical
  obtain ⟨core', hc', hnd, _⟩ := C01_core_nodup_sorted b.core wf.spec
  rw [wf.created] at hc'; cases hc'
  have hwf := hsnd.wf wf
  set interp := kw94 bt.space rng sqrt ols (expShocks exp maxLog nWages cholesky) with hinterp
  have hkeys : InterpolationKeys bt.space interp :=
    kw94_interpolationKeys bt.space rng sqrt ols (expShocks exp maxLog nWages cholesky)
  have hsh : SameShape (initialValues bt.space) (solveBackward bt.space interp par seed ev0).1 :=
    hs.trans (backwardLoop_shape ..)
  set ev := (solveBackward bt.space interp par seed ev0).1 with hev
  let V : Option Nat → CoreState → K := fun d s =>
    if h : ∃ v, bt.ValueAt ev d s v then h.choose else 0
  have hV : ∀ d ∈ b.denseIndices, ∀ s ∈ core, bt.ValueAt ev d s (V d s) := by
    intro d hd s hsc
    have hex := hsnd.valueAt_exists ev hsh s hsc d hd
    simp only [V, hex, dif_pos]
    exact hex.choose_spec
  -- the continuation values of a state
  have hrow : ∀ (k : Nat) c sts cvs arr, bt.space.complexes[k]? = some c → bt.states[k]? = some sts →
      continuationValues bt.space par.transition ev c.period = some cvs → Dict.get? cvs k = some arr →
      ∀ (i : Nat) s cv, sts[i]? = some s → arr[i]? = some cv → ∀ (j : Nat) a,
        (validChoices c.choiceSet)[j]? = some a → cv[j]? = some (continuationOf b future V c.dense s a) := by
    intro k c sts cvs arr hc hst hcvs harr i s cv hi hcv j a hj
    obtain ⟨ck, sts', _, g2, g3, g4, _, g5, g6⟩ := hsnd.item k c hc
    rw [hst] at g2; cases g2
    obtain ⟨f1, f2, f3⟩ := g5 s (List.mem_of_getElem? hi)
    have hlt := createCore_period _ _ wf.created s f1
    obtain ⟨cvs', q1, q2⟩ := hcont ev hsh c.period (by rw [hsnd.nPeriods, ← f2]; exact hlt)
    rw [hcvs] at q1; cases q1
    obtain ⟨arr', q3, q4⟩ := q2 k c sts hc rfl hst
    rw [harr] at q3; cases q3
    obtain ⟨row, q5, _, q6⟩ := q4 i s hi
    rw [hcv] at q5; cases q5
    obtain ⟨x, q7, q8, q9⟩ := q6 j a hj
    rw [hsnd.nPeriods, ← f2] at q8 q9
    rw [q7]
    congr 1
    unfold continuationOf
    by_cases hlast : s.period + 1 = b.core.nPeriods
    · rw [if_pos hlast, q8 hlast]
    · rw [if_neg hlast]
      apply q9 hlast (fun d' => V d' (lawOfMotion s a))
      intro fp hfp
      refine hV _ (hfut c.dense g3 s f1 fp hfp) _ (wf.closed s f1 (by omega) c.dense g3 a ?_)
      rw [f3]
      exact (mem_validChoices _ _).1 (List.mem_of_getElem? hj)
  refine ⟨V, ⟨?_, ?_⟩, hV⟩
  · -- periods which are not interpolated
    intro d hd s hsc hni
    have hno : bt.space.anyInterpolated s.period = false := by
      rw [← Bool.not_eq_true, hsnd.anyInterpolated_iff hnd]; exact hni
    obtain ⟨ck, pos, dk, sts, h1, h2, h3, h4, h5, h6⟩ := hsnd.loc s hsc d hd
    have hn := hsnd.nStates_get dk sts h5
    have hpos := (List.getElem?_eq_some_iff.1 h6).1
    obtain ⟨cvs, arr, stored, w', m', cv, ds, v, e1, e2, e3, e4, e5, e6, e7, e8, e9, e10, e11, e12, e13⟩ :=
      solve_row_period bt.space hwf interp hkeys par hdelta seed ev0 hs hok dk _ h3 hno pos sts.length hn
        hpos
    have hv : V d s = v := (hV d hd s hsc).unique ⟨ck, pos, dk, stored, h1, h2, e4, e6⟩
    rw [hv, e13]
    obtain ⟨wrows, hw1, hw2⟩ := e7
    obtain ⟨mrows, hm1, hm2⟩ := e8
    rw [hfit.wages dk _ sts h3 h5, Option.some.injEq] at hw1
    rw [hfit.nonpecs dk _ sts h3 h5, Option.some.injEq] at hm1
    rw [(hfit.draws dk _ h3).1, Option.some.injEq] at e9
    subst hw1; subst hm1; subst e9
    rw [List.getElem?_map, h6, Option.map_some, Option.some.injEq] at hw2 hm2
    subst hw2; subst hm2
    exact isBellman_of_isMeanMax _ _ _ _ _ cv _ _ (hfit.draws dk _ h3).2
      (hrow dk _ sts cvs arr h3 h5 e1 e2 pos s cv h6 e3) (emax_isMeanMax ..)
  · -- interpolated periods
    intro t hint g hg
    obtain ⟨hd, s0, hs0, ht0, hcs0⟩ := (mem_groupsOfPeriod ..).1 hg
    have h3 : bt.space.complexes[bt.keyOfGroup t g]? = some ⟨t, g.2, g.1⟩ := by
      obtain ⟨ck, pos0, dk, sts, h1, h2, h3, h4, h5, h6⟩ := hsnd.loc s0 hs0 g.1 hd
      rw [hcs0, ht0] at h3
      have hex : ∃ k, bt.space.complexes[k]? = some (⟨t, g.2, g.1⟩ : Complex) := ⟨dk, h3⟩
      unfold Built.keyOfGroup
      rw [dif_pos hex]
      exact hex.choose_spec
    have hstates : bt.statesOfGroup t g = (bt.states[bt.keyOfGroup t g]?).getD [] := rfl
    have hselected : ∀ s, bt.simulatedOfGroup rng seed t g s =
      (simulatedOfKey bt.space rng seed t (bt.keyOfGroup t g)).getD ((bt.statesOfGroup t g).idxOf s) false :=
      fun _ => rfl
    generalize bt.keyOfGroup t g = dk at h3 hstates hselected
    obtain ⟨_, sts, _, h5, _⟩ := hsnd.item dk _ h3
    rw [h5, Option.getD_some] at hstates
    have hany : bt.space.anyInterpolated t = true := (hsnd.anyInterpolated_iff hnd t).2 hint
    have hn := hsnd.nStates_get dk sts h5
    obtain ⟨cvs, n, mask, sh, wages, nonpecs, cv, ds, vs, e0, e1, e2, e3, e4, e5, e6, e7, e8, e9, e10, e11⟩ :=
      solve_interpolated_key bt.space hwf rng hrng sqrt ols _ par hdelta seed ev0 hs hok dk _ h3 hany
    rw [hn] at e2; cases e2
    rw [hfit.wages dk _ sts h3 h5, Option.some.injEq] at e6
    rw [hfit.nonpecs dk _ sts h3 h5, Option.some.injEq] at e7
    rw [(hfit.draws dk _ h3).1, Option.some.injEq] at e9
    subst e6; subst e7; subst e9
    obtain ⟨ck', sts', i1, i2, i3, i4, _, i5, i6⟩ := hsnd.item dk _ h3
    rw [h5] at i2; cases i2
    have hstnd := hsnd.nodup_states dk _ h3 sts h5
    obtain ⟨x, mx, r1, r2⟩ := C22_regression sqrt ols par.delta mask sh _ _ cv _ vs e10
    obtain ⟨l1, l2⟩ := interpolateKey_spec sqrt ols par.delta mask sh _ _ cv _ vs e10
    have hidx : ∀ (i : Nat) s, sts[i]? = some s → sts.idxOf s = i := by
      intro i s hi
      obtain ⟨hi', rfl⟩ := List.getElem?_eq_some_iff.1 hi
      exact hstnd.idxOf_getElem i hi'
    -- the stored value of a state
    have hVs : ∀ (i : Nat) s v, sts[i]? = some s → vs[i]? = some v → V g.1 s = v := by
      intro i s v hi hv
      obtain ⟨f1, _, _⟩ := i5 s (List.mem_of_getElem? hi)
      exact (hV g.1 hd s f1).unique ⟨ck', i, dk, vs, (i6 i s).1 hi, i4, e11, hv⟩
    have hshocks : ∀ (j : Nat) a, (validChoices g.2)[j]? = some a →
        sh[j]? = some (expectedShock exp maxLog nWages cholesky a) := by
      intro j a hj
      have hadm := (mem_validChoices g.2 a).1 (List.mem_of_getElem? hj)
      have hpos : positionIn g.2 a = j := by
        have h1 := validChoices_positionIn g.2 a hadm
        exact (List.getElem?_inj (List.getElem?_eq_some_iff.1 h1).1 (validChoices_nodup g.2)).1
          (h1.trans hj.symm)
      have := boolIndex_positionIn _ _ _ e5 a hadm
      rw [hpos] at this
      rw [this]
      apply expShocks_get
      rw [← hch g.1 hd s0 hs0, hcs0]
      exact (List.getElem?_eq_some_iff.1 hadm).1
    have hmask : ∀ (i : Nat) s, sts[i]? = some s →
        mask.getD (sts.idxOf s) false = decide (mask[i]? = some true) := by
      intro i s hi
      rw [hidx i s hi, List.getD_eq_getElem?_getD]
      cases mask[i]? with
      | none => rfl
      | some y => cases y <;> rfl
    rw [hstates, show bt.simulatedOfGroup rng seed t g = fun s => mask.getD (sts.idxOf s) false from funext fun s => by
      rw [hselected, e0, hstates]]
    refine ⟨fun s => mx (sts.idxOf s),
      fun s => x (sts.idxOf s), hsnd.states_perm hnd dk _ h3 sts h5, ?_, ?_, ?_, ?_⟩
    · have hcount : (sts.filter fun s => mask.getD (sts.idxOf s) false).length = mask.count true := by
        have := congrArg List.length (filter_map_positions sts s0 (fun i => decide (mask[i]? = some true))
          (fun s => mask.getD (sts.idxOf s) false) (fun _ => ()) (fun _ => ()) hmask (fun _ _ _ => rfl))
        rw [List.length_map, List.length_map] at this
        rw [this, ← e3, ← length_validChoices]
        rfl
      rw [hcount]; exact e4
    · intro s hsm
      obtain ⟨i, hi⟩ := List.mem_iff_getElem?.1 hsm
      have hil := (List.getElem?_eq_some_iff.1 hi).1
      obtain ⟨w', m', c', g1, g2, g3, g4⟩ := r1 i (by omega)
      rw [List.getElem?_map, hi, Option.map_some, Option.some.injEq] at g1 g2
      subst g1; subst g2
      simp only [hidx i s hi]
      exact isKw94Regressors_of_isRegressors sqrt par.delta g.2 (w g.1 s) (m g.1 s) _ _ sh c' _ _
        (hrow dk _ sts cvs cv h3 h5 e1 e8 i s c' hi g3) hshocks g4
    · intro s hsm hsim
      obtain ⟨i, hi⟩ := List.mem_iff_getElem?.1 hsm
      have hil := (List.getElem?_eq_some_iff.1 hi).1
      obtain ⟨w', m', c', v, g1, g2, g3, g4, g5, g6, g7, g8, _⟩ := l2 i (by omega)
      rw [List.getElem?_map, hi, Option.map_some, Option.some.injEq] at g1 g2
      subst g1; subst g2
      have hsim := (hmask i s hi).symm.trans hsim
      rw [decide_eq_true_eq] at hsim
      rw [hVs i s v hi g4, (g8 hsim).2]
      exact isBellman_of_isMeanMax _ _ _ _ _ c' _ _ (hfit.draws dk _ h3).2
        (hrow dk _ sts cvs cv h3 h5 e1 e8 i s c' hi g3) (emax_isMeanMax ..)
    · intro s hsm hsim
      obtain ⟨i, hi⟩ := List.mem_iff_getElem?.1 hsm
      have hil := (List.getElem?_eq_some_iff.1 hi).1
      have hsim := (hmask i s hi).symm.trans hsim
      rw [decide_eq_false_iff_not] at hsim
      have hmi : mask[i]? = some false := by
        rw [List.getElem?_eq_getElem (by omega)] at hsim ⊢
        cases hb : mask[i] with
        | true => rw [hb] at hsim; exact absurd rfl hsim
        | false => rfl
      rw [hVs i s _ hi (r2 i hmi)]
      simp only [hidx i s hi]
      have hy := filter_map_positions sts s0 (fun i => decide (mask[i]? = some true))
          (fun s => mask.getD (sts.idxOf s) false) (fun s' => V g.1 s' - mx (sts.idxOf s'))
          (fun j => (vs[j]?).getD 0 - mx j) hmask (by
            intro j s' hj
            have hjl := (List.getElem?_eq_some_iff.1 hj).1
            have hvj : vs[j]? = some vs[j] := List.getElem?_eq_getElem (by omega)
            rw [hVs j s' _ hj hvj, hidx j s' hj, hvj, Option.getD_some])
      have hx := filter_map_positions sts s0 (fun i => decide (mask[i]? = some true))
          (fun s => mask.getD (sts.idxOf s) false) (fun s' => x (sts.idxOf s')) x hmask (by
            intro j s' hj
            rw [hidx j s' hj])
      rw [hy, hx, e3]

/-- The solution with interpolation of a sound state space, without the states which are simulated. -/
theorem Built.Sound.interpolatedSolution [IsStrictOrderedRing K] {b : BuildSpec} {core : List CoreState}
    (wf : b.WF core) {tr : Option (Dict Nat (List Bool))} {bt : Built} (hsnd : bt.Sound b core tr)
    (rng : InterpolationRandom) (hrng : rng.Contract) (exp sqrt : K → K)
    (ols : List K → List (List K) → List K) (maxLog : K) (nWages : Nat) (cholesky : List (List K))
    (par : ParamObjects K)
    (w m : Option Nat → CoreState → Nat → K) (draws : Nat → List Bool → List (List K))
    (future : Option Nat → CoreState → List (Option Nat × K))
    (hfut : ∀ d ∈ b.denseIndices, ∀ s ∈ core, ∀ fp ∈ future d s, fp.1 ∈ b.denseIndices)
    (hfit : ParamsFit bt par w m draws) (hcont : ContinuationIs bt par future) (hdelta : par.delta ≠ 0)
    (hch : ∀ d ∈ b.denseIndices, ∀ s ∈ core, (b.choiceSetAt d s).length = cholesky.length)
    (seed : Nat) (ev0 : Dict Nat (List K)) (hs : SameShape (initialValues bt.space) ev0)
    (hok : (solveBackward bt.space (kw94 bt.space rng sqrt ols (expShocks exp maxLog nWages cholesky)) par
      seed ev0).2 = true) :
    ∃ V, IsInterpolatedSolution b core par.delta w m (fun t cs => (draws t cs).map (shocksOf cs)) future
        (expectedShock exp maxLog nWages cholesky) sqrt ols V ∧
      ∀ d ∈ b.denseIndices, ∀ s ∈ core,
        bt.ValueAt (solveBackward bt.space (kw94 bt.space rng sqrt ols
          (expShocks exp maxLog nWages cholesky)) par seed ev0).1 d s (V d s) := by
  obtain ⟨V, hV, hval⟩ := hsnd.interpolatedSolutionAt wf rng hrng exp sqrt ols maxLog nWages cholesky par w m draws future
    hfut hfit hcont hdelta hch seed ev0 hs hok
  exact ⟨V, ⟨hV.1, fun t ht g hg => ⟨_, _, hV.2 t ht g hg⟩⟩, hval⟩

/-- The solution with interpolation succeeds exactly if there are not exactly two points per group in an
interpolated period. -/
theorem Built.Sound.interpolated_ok_iff [IsStrictOrderedRing K] {b : BuildSpec} {core : List CoreState}
    (wf : b.WF core) {tr : Option (Dict Nat (List Bool))} {bt : Built} (hsnd : bt.Sound b core tr)
    (rng : InterpolationRandom) (hrng : rng.Contract) (sqrt : K → K)
    (ols : List K → List (List K) → List K) (shocks : List K) (par : ParamObjects K)
    (w m : Option Nat → CoreState → Nat → K) (draws : Nat → List Bool → List (List K))
    (future : Option Nat → CoreState → List (Option Nat × K))
    (hfit : ParamsFit bt par w m draws) (hcont : ContinuationIs bt par future) (hdelta : par.delta ≠ 0)
    (hch : ∀ d ∈ b.denseIndices, ∀ s ∈ core, (b.choiceSetAt d s).length = shocks.length)
    (hcs : ∀ d ∈ b.denseIndices, ∀ s ∈ core, ∃ a : Nat, (b.choiceSetAt d s)[a]? = some true)
    (seed : Nat) (ev0 : Dict Nat (List K)) (hs : SameShape (initialValues bt.space) ev0) :
    (solveBackward bt.space (kw94 bt.space rng sqrt ols shocks) par seed ev0).2 = true ↔
      ∀ t < b.core.nPeriods, b.Interpolates core t →
        b.points ≠ 2 * (b.groupsOfPeriod core t).length := by
  obtain ⟨core', hc', hnd, _⟩ := C01_core_nodup_sorted b.core wf.spec
  rw [wf.created] at hc'; cases hc'
  have hwf := hsnd.wf wf
  constructor
  · intro hok t ht hint heq
    have hany := (hsnd.anyInterpolated_iff hnd t).2 hint
    obtain ⟨_, h2⟩ := backwardLoop_spec bt.space _ (kw94_interpolationKeys bt.space rng sqrt ols shocks)
      par bt.space.nPeriods ev0 seed hok
    obtain ⟨s1, vals, s2, hp, _⟩ := h2 t (by rw [hsnd.nPeriods]; exact ht)
    unfold periodValues at hp
    rw [if_neg hdelta, if_pos hany] at hp
    obtain ⟨cvs, _, hp⟩ := Option.bind_eq_some_iff.1 hp
    obtain ⟨r, hkw, _⟩ := Option.bind_eq_some_iff.1 hp
    rw [C21_two_points_per_key_raises bt.space t hany
      (by rw [hsnd.points, hsnd.length_keysOfPeriod]; exact heq)] at hkw
    cases hkw
  · intro hne
    refine solveBackward_total_interpolated bt.space hwf _ par ?_ (hfit.shape hsnd) (hcont.total hsnd wf.grouped)
      hdelta seed ev0 hs
    refine kw94_total bt.space hwf rng hrng sqrt ols shocks par (hfit.shape hsnd) ?_ ?_
    · intro k c hc
      obtain ⟨ck, sts, _, _, h3, _, hst, h5, _⟩ := hsnd.item k c hc
      obtain ⟨s, hsm⟩ := List.exists_mem_of_ne_nil _ hst
      obtain ⟨g1, _, g3⟩ := h5 s hsm
      refine ⟨by rw [← g3]; exact hch _ h3 s g1, ?_⟩
      obtain ⟨a, ha⟩ := hcs _ h3 s g1
      rw [g3] at ha
      have := List.count_pos_iff.2 (List.mem_of_getElem? ha)
      omega
    · intro t ht hany
      rw [hsnd.points, hsnd.length_keysOfPeriod]
      exact hne t (by rw [← hsnd.nPeriods]; exact ht) ((hsnd.anyInterpolated_iff hnd t).1 hany)

/-- With a discount factor of zero all stored values are zero. -/
theorem Built.Sound.zero_discount {b : BuildSpec} {core : List CoreState}
    (wf : b.WF core) {tr : Option (Dict Nat (List Bool))} {bt : Built} (hsnd : bt.Sound b core tr)
    (interp : Interpolation K) (par : ParamObjects K) (hdelta : par.delta = 0) (seed : Nat)
    (ev0 : Dict Nat (List K)) (hs : SameShape (initialValues bt.space) ev0) :
    (solveBackward bt.space interp par seed ev0).2 = true ∧
      ∀ d ∈ b.denseIndices, ∀ s ∈ core, bt.ValueAt (solveBackward bt.space interp par seed ev0).1 d s 0 := by
  have hwf := hsnd.wf wf
  have hok := solveBackward_total_zero bt.space hwf interp par hdelta seed ev0 hs
  refine ⟨hok, fun d hd s hsc => ?_⟩
  obtain ⟨ck, pos, dk, sts, h1, h2, h3, h4, h5, h6⟩ := hsnd.loc s hsc d hd
  have hpos := (List.getElem?_eq_some_iff.1 h6).1
  exact ⟨ck, pos, dk, _, h1, h2, solve_delta_zero bt.space hwf interp par hdelta seed ev0 hs hok dk _
    (hsnd.nStates_get dk sts h5), by simp [hpos]⟩

end Respy
