import Verif.Lemmas.LevelShift
import Verif.Lemmas.InterpolatedSolution

/-!
# Lemmas: rewards with another level and interpolation
-/

namespace Respy

variable {K : Type} [Field K] [LinearOrder K] [IsStrictOrderedRing K]

/-- A higher level of all alternatives changes the largest value, but not the regressors. -/
theorem IsKw94Regressors.shift {sqrt : K → K} {cs : List Bool} {v v' : Nat → K} {mx mx' : K} {x x' : List K} {k : K}
    (h : IsKw94Regressors sqrt cs v mx x) (h' : IsKw94Regressors sqrt cs v' mx' x')
    (hv : ∀ a : Nat, cs[a]? = some true → v' a = v a + k) : mx' = mx + k ∧ x' = x := by
  obtain ⟨⟨⟨a, ha, hmx⟩, hle⟩, hx⟩ := h
  obtain ⟨⟨⟨a', ha', hmx'⟩, hle'⟩, hx'⟩ := h'
  have hm : mx' = mx + k := by
    apply le_antisymm
    · have := hle ⟨a', ha', rfl⟩
      rw [hmx', hv a' ha']
      linarith
    · have := hle' ⟨a, ha, rfl⟩
      rw [hv a ha, ← hmx] at this
      exact this
  refine ⟨hm, ?_⟩
  have hd : ∀ a ∈ alternatives cs, mx' - v' a = mx - v a := by
    intro a ha
    have hadm : cs[a]? = some true := by
      obtain ⟨h1, h2⟩ := List.mem_filter.1 ha
      rw [List.getElem?_eq_getElem (List.mem_range.1 h1)]
      simpa [List.getD_eq_getElem?_getD, List.getElem?_eq_getElem (List.mem_range.1 h1)] using h2
    rw [hm, hv a hadm]
    ring
  rw [hx, hx', List.map_congr_left hd, List.map_congr_left fun a ha => congrArg sqrt (hd a ha)]

/-- The values of a model with higher levels, if the same states are simulated. -/
theorem IsInterpolatedSolutionAt.shift {b : BuildSpec} {core : List CoreState} (wf : b.WF core) {delta : K}
    (h0 : 0 ≤ delta)
    {w m m' : Option Nat → CoreState → Nat → K} {shocks : Nat → List Bool → List (Nat → K)}
    {future : Option Nat → CoreState → List (Option Nat × K)} (hfut : IsTransition b core future)
    {mean : Nat → K} {sqrt : K → K} {ols : List K → List (List K) → List K}
    {states : Nat → Option Nat × List Bool → List CoreState}
    {simulated : Nat → Option Nat × List Bool → CoreState → Bool}
    {amount : Nat → K} (ha : ∀ t, 0 ≤ amount t) (hm : LevelsShifted b core amount m m')
    (hne : ∀ d ∈ b.denseIndices, ∀ s ∈ core, shocks s.period (b.choiceSetAt d s) ≠ [])
    {V V' : Option Nat → CoreState → K}
    (h : IsInterpolatedSolutionAt b core delta w m shocks future mean sqrt ols states simulated V)
    (h' : IsInterpolatedSolutionAt b core delta w m' shocks future mean sqrt ols states simulated V')
    (hv : Viable b core delta w m shocks future V)
    (d : Option Nat) (hd : d ∈ b.denseIndices) (s : CoreState) (hs : s ∈ core) :
    V' d s = V d s + discountedSum delta amount b.core.nPeriods s.period := by
  have hlast : discountedSum delta amount b.core.nPeriods b.core.nPeriods = 0 := by
    unfold discountedSum
    rw [Nat.sub_self, Finset.range_zero, Finset.sum_empty]
  -- a period
  have period : ∀ t, t < b.core.nPeriods →
      (∀ d ∈ b.denseIndices, ∀ s ∈ core, s.period = t + 1 → V' d s = V d s +
        discountedSum delta amount b.core.nPeriods (t + 1)) →
      ∀ d ∈ b.denseIndices, ∀ s ∈ core, s.period = t →
        V' d s = V d s + discountedSum delta amount b.core.nPeriods t := by
    intro t ht hnext
    -- the values of alternatives
    have hval : ∀ d ∈ b.denseIndices, ∀ s ∈ core, s.period = t → ∀ a : Nat, (b.choiceSetAt d s)[a]? = some true →
        m' d s a + delta * continuationOf b future V' d s a =
          m d s a + delta * continuationOf b future V d s a + discountedSum delta amount b.core.nPeriods t := by
      intro d hd s hs hst a haa
      rw [hm d hd s hs a haa, discountedSum_step _ _ _ _ ht, hst]
      by_cases hl : t + 1 = b.core.nPeriods
      · unfold continuationOf
        rw [if_pos (by omega), if_pos (by omega), hl, hlast]
        ring
      · rw [continuationOf_shift wf hfut (V := V) (V' := V')
          (x := discountedSum delta amount b.core.nPeriods (t + 1)) d hd s hs (by omega)
          (fun d hd s' hs' hp => hnext d hd s' hs' (by omega)) a haa]
        ring
    have hpos := discountedSum_nonneg h0 ha b.core.nPeriods t
    by_cases hint : b.Interpolates core t
    · intro d hd s hs hst
      have hg : (d, b.choiceSetAt d s) ∈ b.groupsOfPeriod core t := (mem_groupsOfPeriod ..).2 ⟨hd, s, hs, hst, rfl⟩
      obtain ⟨mx, x, k1, _, k3, k4, k5⟩ := h.2 t hint _ hg
      obtain ⟨mx', x', _, _, l3, l4, l5⟩ := h'.2 t hint _ hg
      have hmem : ∀ s' ∈ states t (d, b.choiceSetAt d s),
          s' ∈ core ∧ s'.period = t ∧ b.choiceSetAt d s' = b.choiceSetAt d s := by
        intro s' hs'
        have := k1.mem_iff.1 hs'
        unfold BuildSpec.group at this
        simpa using this
      have hsmem : s ∈ states t (d, b.choiceSetAt d s) := by
        refine k1.mem_iff.2 ?_
        unfold BuildSpec.group
        simp [hs, hst]
      have hreg : ∀ s' ∈ states t (d, b.choiceSetAt d s),
          mx' s' = mx s' + discountedSum delta amount b.core.nPeriods t ∧ x' s' = x s' := by
        intro s' hs'
        obtain ⟨g1, g2, g3⟩ := hmem s' hs'
        refine (k3 s' hs').shift (l3 s' hs') fun a haa => ?_
        have := hval d hd s' g1 g2 a (by rw [g3]; exact haa)
        dsimp only
        linarith
      have hsim : ∀ s' ∈ states t (d, b.choiceSetAt d s), simulated t (d, b.choiceSetAt d s) s' = true →
          V' d s' = V d s' + discountedSum delta amount b.core.nPeriods t := by
        intro s' hs' hsel
        obtain ⟨g1, g2, g3⟩ := hmem s' hs'
        refine (k4 s' hs' hsel).shift (l4 s' hs' hsel) (fun a haa => hval d hd s' g1 g2 a (by rw [g3]; exact haa)) hpos ?_
          ?_
        · rw [← hst]
          exact hne d hd s hs
        · intro e he
          have := hv d hd s' g1 e (by rw [g2, g3]; exact he)
          rw [g3] at this
          exact this
      cases hsel : simulated t (d, b.choiceSetAt d s) s with
      | true => exact hsim s hsmem hsel
      | false =>
        have e1 : ((states t (d, b.choiceSetAt d s)).filter (simulated t (d, b.choiceSetAt d s))).map x' =
            ((states t (d, b.choiceSetAt d s)).filter (simulated t (d, b.choiceSetAt d s))).map x :=
          List.map_congr_left fun s' hs' => (hreg s' (List.mem_filter.1 hs').1).2
        have e2 : ((states t (d, b.choiceSetAt d s)).filter (simulated t (d, b.choiceSetAt d s))).map
              (fun s' => V' d s' - mx' s') =
            ((states t (d, b.choiceSetAt d s)).filter (simulated t (d, b.choiceSetAt d s))).map
              (fun s' => V d s' - mx s') :=
          List.map_congr_left fun s' hs' => by
            obtain ⟨q1, q2⟩ := List.mem_filter.1 hs'
            rw [(hreg s' q1).1, hsim s' q1 q2]
            ring
        have r1 := k5 s hsmem hsel
        have r2 := l5 s hsmem hsel
        rw [e1, e2, (hreg s hsmem).1, (hreg s hsmem).2] at r2
        rw [r1, r2]
        ring
    · intro d hd s hs hst
      refine (h.1 d hd s hs (by rw [hst]; exact hint)).shift (h'.1 d hd s hs (by rw [hst]; exact hint))
        (fun a haa => hval d hd s hs hst a haa) hpos (hne d hd s hs) (hv d hd s hs)
  have main : ∀ r : Nat, ∀ t, t + r + 1 = b.core.nPeriods → ∀ d ∈ b.denseIndices, ∀ s ∈ core, s.period = t →
      V' d s = V d s + discountedSum delta amount b.core.nPeriods t := by
    intro r
    induction r with
    | zero =>
      intro t ht
      refine period t (by omega) fun d hd s hs hst => ?_
      have := createCore_period _ _ wf.created s hs
      omega
    | succ r ih =>
      intro t ht
      exact period t (by omega) (ih (t + 1) (by omega))
  have hlt := createCore_period _ _ wf.created s hs
  exact main (b.core.nPeriods - 1 - s.period) s.period (by omega) d hd s hs rfl

end Respy
