import Verif.Lemmas.MonteCarlo
import Verif.Props.Core
import Verif.Props.Comparative
import Mathlib.Probability.Independence.InfinitePi

/-!
# C106 More draws
-/

namespace Respy

open MeasureTheory ProbabilityTheory

theorem IsExpectedBellman.eq_integral {law : Measure (Nat → ℝ)} {delta : ℝ} {cs : List Bool} {w m c : Nat → ℝ} {v : ℝ}
    (h : IsExpectedBellman law delta (fun a => cs[a]? = some true) w m c v) :
    v = ∫ e, bestOf cs (utilityOf delta w m c e) ∂law := by
  obtain ⟨best, h1, _, rfl⟩ := h
  refine integral_congr_ae (Filter.Eventually.of_forall fun e => ?_)
  exact (h1 e).unique (bestOf_isGreatest cs (utilityOf delta w m c e))

theorem average_isBellman (delta : ℝ) (cs : List Bool) (w m c : Nat → ℝ) (draws : List (Nat → ℝ)) :
    IsBellman delta (fun a => cs[a]? = some true) w m c draws
      ((draws.map fun e => bestOf cs (utilityOf delta w m c e)).sum / (draws.length : ℝ)) :=
  ⟨fun e => bestOf cs (utilityOf delta w m c e), fun e _ => bestOf_isGreatest cs (utilityOf delta w m c e), rfl⟩

theorem forall₂_refl_mem {α : Type _} (R : α → α → Prop) (l : List α) (h : ∀ x, R x x) : List.Forall₂ R l l := by
  induction l with
  | nil => exact .nil
  | cons x l ih => exact .cons (h x) ih

theorem IsBellman.abs_sub_le {delta : ℝ} (h0 : 0 ≤ delta) {adm : Nat → Prop} {w m c c' : Nat → ℝ}
    {draws : List (Nat → ℝ)} {v v' x : ℝ} (hx : 0 ≤ x) (h : IsBellman delta adm w m c draws v)
    (h' : IsBellman delta adm w m c' draws v') (hc : ∀ a, adm a → |c a - c' a| ≤ x) : |v - v'| ≤ delta * x := by
  have h1 := h.le_add (mul_nonneg h0 hx) h' (forall₂_refl_mem _ _ fun e a ha => by
    have := mul_le_mul_of_nonneg_left (abs_le.1 (hc a ha)).2 h0
    linarith)
  have h2 := h'.le_add (mul_nonneg h0 hx) h (forall₂_refl_mem _ _ fun e a ha => by
    have := mul_le_mul_of_nonneg_left (abs_le.1 (hc a ha)).1 h0
    linarith)
  rw [abs_le]
  constructor <;> linarith

/-- The average over the draws with the continuation values of `V`. -/
noncomputable def averageWith (b : BuildSpec) (delta : ℝ) (w m : Option Nat → CoreState → Nat → ℝ)
    (shocks : Nat → List Bool → List (Nat → ℝ)) (future : Option Nat → CoreState → List (Option Nat × ℝ))
    (V : Option Nat → CoreState → ℝ) (d : Option Nat) (s : CoreState) : ℝ :=
  ((shocks s.period (b.choiceSetAt d s)).map fun e => bestOf (b.choiceSetAt d s)
    (utilityOf delta (w d s) (m d s) (continuationOf b future V d s) e)).sum /
    ((shocks s.period (b.choiceSetAt d s)).length : ℝ)

/-- If averages with given continuation values differ by at most `eta` from `V`, then the solution differs from `V` by at
most `eta (1 + delta + …)`. -/
theorem IsValueFunction.close {b : BuildSpec} {core : List CoreState} (wf : b.WF core) {delta eta : ℝ}
    (h0 : 0 ≤ delta) (heta : 0 ≤ eta)
    {w m : Option Nat → CoreState → Nat → ℝ} {shocks : Nat → List Bool → List (Nat → ℝ)}
    {future : Option Nat → CoreState → List (Option Nat × ℝ)} (hfut : IsTransition b core future)
    {V V' : Option Nat → CoreState → ℝ} (h : IsValueFunction b core delta w m shocks future V')
    (hclose : ∀ d ∈ b.denseIndices, ∀ s ∈ core, |averageWith b delta w m shocks future V d s - V d s| ≤ eta)
    (d : Option Nat) (hd : d ∈ b.denseIndices) (s : CoreState) (hs : s ∈ core) :
    |V' d s - V d s| ≤ eta * ∑ k ∈ Finset.range (b.core.nPeriods - s.period), delta ^ k := by
  have hgeo : ∀ n, 0 ≤ ∑ k ∈ Finset.range n, delta ^ k :=
    fun n => Finset.sum_nonneg fun k _ => pow_nonneg h0 k
  have main : ∀ r : Nat, ∀ d ∈ b.denseIndices, ∀ s ∈ core, s.period + r + 1 = b.core.nPeriods →
      |V' d s - V d s| ≤ eta * ∑ k ∈ Finset.range (r + 1), delta ^ k := by
    intro r
    induction r with
    | zero =>
      intro d hd s hs hr
      have h1 := hclose d hd s hs
      have h2 := (h d hd s hs).abs_sub_le h0 le_rfl (average_isBellman delta (b.choiceSetAt d s) (w d s) (m d s)
        (continuationOf b future V d s) (shocks s.period (b.choiceSetAt d s))) (fun a _ => by
          unfold continuationOf
          rw [if_pos (by omega), if_pos (by omega)]; simp)
      have h3 := abs_sub_le (V' d s) (averageWith b delta w m shocks future V d s) (V d s)
      unfold averageWith at h1 h3
      simp only [Nat.zero_add, Finset.range_one, Finset.sum_singleton, pow_zero, mul_one]
      linarith
    | succ r ih =>
      intro d hd s hs hr
      have hne : s.period + 1 ≠ b.core.nPeriods := by omega
      have h1 := hclose d hd s hs
      have h2 := (h d hd s hs).abs_sub_le h0 (mul_nonneg heta (hgeo (r + 1))) (average_isBellman delta
        (b.choiceSetAt d s) (w d s) (m d s) (continuationOf b future V d s) (shocks s.period (b.choiceSetAt d s)))
        (fun a ha => by
          unfold continuationOf
          rw [if_neg hne, if_neg hne]
          obtain ⟨hf, hsum⟩ := hfut d hd s hs
          have hcl := wf.closed s hs (by omega) d hd a ha
          have g1 := expectation_le_add (future d s) (fun d => V d (lawOfMotion s a)) (fun d => V' d (lawOfMotion s a))
            (eta * ∑ k ∈ Finset.range (r + 1), delta ^ k) (fun fp hfp => (hf fp hfp).2) hsum
            fun fp hfp => by
              have := (abs_le.1 (ih fp.1 (hf fp hfp).1 _ hcl (by simp only [lawOfMotion]; omega))).1
              linarith
          have g2 := expectation_le_add (future d s) (fun d => V' d (lawOfMotion s a)) (fun d => V d (lawOfMotion s a))
            (eta * ∑ k ∈ Finset.range (r + 1), delta ^ k) (fun fp hfp => (hf fp hfp).2) hsum
            fun fp hfp => by
              have := (abs_le.1 (ih fp.1 (hf fp hfp).1 _ hcl (by simp only [lawOfMotion]; omega))).2
              linarith
          rw [abs_le]
          constructor <;> linarith)
      have h3 := abs_sub_le (V' d s) (averageWith b delta w m shocks future V d s) (V d s)
      have h6 : ∑ k ∈ Finset.range (r + 1 + 1), delta ^ k = 1 + delta * ∑ k ∈ Finset.range (r + 1), delta ^ k := by
        rw [Finset.sum_range_succ', Finset.mul_sum, add_comm]
        simp [pow_succ']
      have h7 : eta * (1 + delta * ∑ k ∈ Finset.range (r + 1), delta ^ k) =
          eta + delta * (eta * ∑ k ∈ Finset.range (r + 1), delta ^ k) := by ring
      rw [h6, h7]
      unfold averageWith at h1 h3
      linarith
  have hlt := createCore_period _ _ wf.created s hs
  have := main (b.core.nPeriods - 1 - s.period) d hd s hs (by omega)
  rwa [show b.core.nPeriods - 1 - s.period + 1 = b.core.nPeriods - s.period by omega] at this

/-- **C106.** For every model there is a number `C` such that with `n` draws the probability that any value differs by `ε`
or more from the value with the distribution of the shocks is at most `C / (n ε²)`, whatever the random numbers. -/
theorem C106_more_draws (b : BuildSpec) (core : List CoreState) (wf : b.WF core) (delta : ℝ) (h0 : 0 ≤ delta)
    (w m : Option Nat → CoreState → Nat → ℝ) (law : Nat → List Bool → Measure (Nat → ℝ))
    (hprob : ∀ t cs, IsProbabilityMeasure (law t cs))
    (hlaw : ∀ t cs, ∀ a : Nat, cs[a]? = some true → MemLp (fun e : Nat → ℝ => e a) 2 (law t cs))
    (future : Option Nat → CoreState → List (Option Nat × ℝ)) (hfut : IsTransition b core future)
    (V : Option Nat → CoreState → ℝ) (hV : IsExpectedValueFunction b core delta w m law future V) :
    ∃ C : ℝ, 0 ≤ C ∧ ∀ (Ω : Type) [MeasurableSpace Ω] (P : Measure Ω) [IsProbabilityMeasure P] (n : Nat), 0 < n →
      ∀ X : Nat → List Bool → Fin n → Ω → Nat → ℝ, IndependentDraws P law n X →
      ∀ V' : Ω → Option Nat → CoreState → ℝ,
        (∀ ω, IsValueFunction b core delta w m (fun t cs => List.ofFn fun i => X t cs i ω) future (V' ω)) →
        ∀ ε > 0, P {ω | ∃ d ∈ b.denseIndices, ∃ s ∈ core, ε ≤ |V' ω d s - V d s|} ≤ ENNReal.ofReal (C / (n * ε ^ 2)) := by
  classical
  set f : Option Nat → CoreState → (Nat → ℝ) → ℝ := fun d s e => bestOf (b.choiceSetAt d s)
    (utilityOf delta (w d s) (m d s) (continuationOf b future V d s) e) with hf
  set v : Option Nat → CoreState → ℝ := fun d s => Var[f d s; law s.period (b.choiceSetAt d s)] with hv
  set g : ℝ := 1 + ∑ k ∈ Finset.range b.core.nPeriods, delta ^ k with hg
  have hg1 : 1 ≤ g := by
    have : 0 ≤ ∑ k ∈ Finset.range b.core.nPeriods, delta ^ k := Finset.sum_nonneg fun k _ => pow_nonneg h0 k
    linarith
  have hv0 : ∀ d s, 0 ≤ v d s := fun d s => variance_nonneg _ _
  refine ⟨∑ x ∈ b.denseIndices.toFinset ×ˢ core.toFinset, 4 * g ^ 2 * v x.1 x.2,
    Finset.sum_nonneg fun x _ => mul_nonneg (by positivity) (hv0 _ _), ?_⟩
  intro Ω _ P _ n hn X hX V' hV' ε hε
  have hn' : (0 : ℝ) < n := by exact_mod_cast hn
  set η : ℝ := ε / (2 * g) with hη
  have hη0 : 0 < η := by positivity
  have hsub : {ω | ∃ d ∈ b.denseIndices, ∃ s ∈ core, ε ≤ |V' ω d s - V d s|} ⊆
      ⋃ x ∈ b.denseIndices.toFinset ×ˢ core.toFinset, {ω | η ≤ |((List.ofFn fun i =>
        X x.2.period (b.choiceSetAt x.1 x.2) i ω).map (f x.1 x.2)).sum / (n : ℝ) -
          ∫ e, f x.1 x.2 e ∂law x.2.period (b.choiceSetAt x.1 x.2)|} := by
    intro ω hω
    by_contra hnot
    simp only [Set.mem_iUnion, Set.mem_ofPred_eq, not_exists, not_le, Finset.mem_product, List.mem_toFinset,
      Prod.forall] at hnot
    obtain ⟨d, hd, s, hs, hlarge⟩ := hω
    have hclose := (hV' ω).close wf h0 hη0.le hfut (V := V) (fun d hd s hs => by
      have h1 := hnot d s ⟨hd, hs⟩
      have h2 := (hV d hd s hs).eq_integral
      unfold averageWith
      simp only [List.length_ofFn]
      rw [h2]
      exact h1.le) d hd s hs
    have hle : ∑ k ∈ Finset.range (b.core.nPeriods - s.period), delta ^ k ≤ g := by
      have : ∑ k ∈ Finset.range (b.core.nPeriods - s.period), delta ^ k ≤
          ∑ k ∈ Finset.range b.core.nPeriods, delta ^ k :=
        Finset.sum_le_sum_of_subset_of_nonneg (Finset.range_mono (by omega)) fun k _ _ => pow_nonneg h0 k
      linarith
    have h3 : η * ∑ k ∈ Finset.range (b.core.nPeriods - s.period), delta ^ k ≤ η * g :=
      mul_le_mul_of_nonneg_left hle hη0.le
    have h4 : η * g = ε / 2 := by rw [hη]; field_simp
    linarith
  refine (measure_mono hsub).trans ((measure_biUnion_finset_le _ _).trans ?_)
  have hterm : ∀ x : Option Nat × CoreState, P {ω | η ≤ |((List.ofFn fun i =>
        X x.2.period (b.choiceSetAt x.1 x.2) i ω).map (f x.1 x.2)).sum / (n : ℝ) -
          ∫ e, f x.1 x.2 e ∂law x.2.period (b.choiceSetAt x.1 x.2)|} ≤
      ENNReal.ofReal (4 * g ^ 2 * v x.1 x.2 / (n * ε ^ 2)) := by
    intro x
    have := hprob x.2.period (b.choiceSetAt x.1 x.2)
    refine (average_close P hn (X x.2.period (b.choiceSetAt x.1 x.2)) (hX.measurable _ _)
      (law x.2.period (b.choiceSetAt x.1 x.2)) (hX.law _ _) (hX.independent _ _) (f x.1 x.2) (best_measurable _ _ _ _ _)
      (best_memLp _ _ _ _ _ _ (hlaw _ _)) η hη0).trans (le_of_eq ?_)
    congr 1
    rw [hη]
    field_simp
    ring
  refine (Finset.sum_le_sum fun x _ => hterm x).trans (le_of_eq ?_)
  rw [← ENNReal.ofReal_sum_of_nonneg (fun x _ => div_nonneg (mul_nonneg (by positivity) (hv0 _ _)) (by positivity)),
    Finset.sum_div]

/-- The value with `r` periods after the period of the state. -/
noncomputable def expectedValue (b : BuildSpec) (delta : ℝ) (w m : Option Nat → CoreState → Nat → ℝ)
    (law : Nat → List Bool → Measure (Nat → ℝ)) (future : Option Nat → CoreState → List (Option Nat × ℝ)) :
    Nat → Option Nat → CoreState → ℝ
  | 0, d, s => ∫ e, bestOf (b.choiceSetAt d s) (fun a => w d s a * e a + m d s a) ∂law s.period (b.choiceSetAt d s)
  | r + 1, d, s => ∫ e, bestOf (b.choiceSetAt d s) (fun a => w d s a * e a + m d s a + delta *
      ((future d s).map fun fp => fp.2 * expectedValue b delta w m law future r fp.1 (lawOfMotion s a)).sum)
      ∂law s.period (b.choiceSetAt d s)

/-- **C106.** There is a value function with the distribution of the shocks, and it is unique. -/
theorem C106_limit_exists (b : BuildSpec) (core : List CoreState) (wf : b.WF core) (delta : ℝ)
    (w m : Option Nat → CoreState → Nat → ℝ) (law : Nat → List Bool → Measure (Nat → ℝ))
    (hprob : ∀ t cs, IsProbabilityMeasure (law t cs))
    (hlaw : ∀ t cs, ∀ a : Nat, cs[a]? = some true → MemLp (fun e : Nat → ℝ => e a) 2 (law t cs))
    (future : Option Nat → CoreState → List (Option Nat × ℝ)) (hfut : IsTransition b core future) :
    (∃ V, IsExpectedValueFunction b core delta w m law future V) ∧
    ∀ V V', IsExpectedValueFunction b core delta w m law future V → IsExpectedValueFunction b core delta w m law future V' →
      ∀ d ∈ b.denseIndices, ∀ s ∈ core, V d s = V' d s := by
  constructor
  · set V : Option Nat → CoreState → ℝ := fun d s => expectedValue b delta w m law future (b.core.nPeriods - 1 - s.period) d s
      with hVdef
    refine ⟨V, fun d hd s hs => ?_⟩
    have := hprob s.period (b.choiceSetAt d s)
    have hlt := createCore_period _ _ wf.created s hs
    refine ⟨fun e => bestOf (b.choiceSetAt d s) (utilityOf delta (w d s) (m d s) (continuationOf b future V d s) e),
      fun e => bestOf_isGreatest _ _, (best_memLp _ _ _ _ _ _ (hlaw _ _)).integrable (by norm_num), ?_⟩
    by_cases hlast : s.period + 1 = b.core.nPeriods
    · have h0 : b.core.nPeriods - 1 - s.period = 0 := by omega
      simp only [hVdef, h0, expectedValue]
      congr 1
      funext e
      congr 1
      funext a
      simp [utilityOf, continuationOf, hlast]
    · obtain ⟨r, hr⟩ : ∃ r, b.core.nPeriods - 1 - s.period = r + 1 := ⟨b.core.nPeriods - 2 - s.period, by omega⟩
      simp only [hVdef, hr, expectedValue]
      congr 1
      funext e
      congr 1
      funext a
      have h2 : b.core.nPeriods - 1 - (lawOfMotion s a).period = r := by simp only [lawOfMotion]; omega
      simp only [utilityOf, continuationOf, if_neg hlast, h2]
  · intro V V' h h' d hd s hs
    have hbest : ∀ (cs : List Bool) (x y : Nat → ℝ), (∀ a : Nat, cs[a]? = some true → x a = y a) →
        bestOf cs x = bestOf cs y := by
      intro cs x y hxy
      refine (bestOf_isGreatest cs x).unique ?_
      obtain ⟨h1, h2⟩ := bestOf_isGreatest cs y
      refine ⟨h1.imp_right fun ⟨a, ha, hz⟩ => ⟨a, ha, by rw [hz, hxy a ha]⟩, fun z hz => h2 ?_⟩
      exact hz.imp_right fun ⟨a, ha, hz⟩ => ⟨a, ha, by rw [hz, hxy a ha]⟩
    have main : ∀ r : Nat, ∀ d ∈ b.denseIndices, ∀ s ∈ core, s.period + r + 1 = b.core.nPeriods → V d s = V' d s := by
      intro r
      induction r with
      | zero =>
        intro d hd s hs hr
        rw [(h d hd s hs).eq_integral, (h' d hd s hs).eq_integral]
        simp only [Nat.add_zero] at hr
        simp only [hr, if_true]
      | succ r ih =>
        intro d hd s hs hr
        rw [(h d hd s hs).eq_integral, (h' d hd s hs).eq_integral]
        have hne : s.period + 1 ≠ b.core.nPeriods := by omega
        congr 1
        funext e
        refine hbest _ _ _ fun a ha => ?_
        unfold utilityOf
        simp only [hne, if_false]
        congr 3
        refine List.map_congr_left fun fp hfp => ?_
        rw [ih fp.1 ((hfut d hd s hs).1 fp hfp).1 _ (wf.closed s hs (by omega) d hd a ha) (by simp only [lawOfMotion]; omega)]
    have hlt := createCore_period _ _ wf.created s hs
    exact main (b.core.nPeriods - 1 - s.period) d hd s hs (by omega)

/-! ### Accepted models -/

theorem shockOf_measurable {E : Type _} [MeasurableSpace E] (lo hi : ℝ) (L : List (List ℝ)) (nWages : Nat)
    (cs : List Bool) (z : E → Nat → ℝ) (hz : ∀ j, Measurable fun e => z e j) (a : Nat) :
    Measurable fun e => shockOf Real.exp lo hi L nWages cs (z e) a := by
  have hl : Measurable fun e => latentShock L cs (z e) a := by
    unfold latentShock
    induction List.range cs.length with
    | nil => simp
    | cons j l ih =>
      simp only [List.map_cons, List.sum_cons]
      refine Measurable.add ?_ ih
      by_cases h : cs[j]? = some true
      · simpa only [h, if_true] using (hz j).const_mul _
      · simpa only [h, if_false] using measurable_const
  unfold shockOf
  by_cases h : a < nWages
  · simp only [h, if_true]
    exact Real.measurable_exp.comp ((hl.max measurable_const).min measurable_const)
  · simpa only [h, if_false] using hl

theorem shockOf_memLp {E : Type _} [MeasurableSpace E] (μ : Measure E) [IsFiniteMeasure μ] (lo hi : ℝ)
    (L : List (List ℝ)) (nWages : Nat) (cs : List Bool) (z : E → Nat → ℝ) (hm : ∀ j, Measurable fun e => z e j)
    (hz : ∀ j, MemLp (fun e => z e j) 2 μ) (a : Nat) :
    MemLp (fun e => shockOf Real.exp lo hi L nWages cs (z e) a) 2 μ := by
  by_cases h : a < nWages
  · refine MemLp.of_bound (shockOf_measurable lo hi L nWages cs z hm a).aestronglyMeasurable (Real.exp hi)
      (Filter.Eventually.of_forall fun e => ?_)
    unfold shockOf
    rw [if_pos h, Real.norm_eq_abs, abs_of_pos (Real.exp_pos _)]
    exact Real.exp_le_exp.2 (min_le_right _ _)
  · unfold shockOf
    simp only [h, if_false]
    unfold latentShock
    induction List.range cs.length with
    | nil => simp
    | cons j l ih =>
      simp only [List.map_cons, List.sum_cons]
      refine MemLp.add ?_ ih
      by_cases h : cs[j]? = some true
      · simpa only [h, if_true] using (hz j).const_mul _
      · simpa only [h, if_false] using memLp_const (0 : ℝ)

theorem shocksOf_ofFn_measurable (cs : List Bool) (n j : Nat) :
    Measurable fun z : Fin n → ℝ => shocksOf cs (List.ofFn z) j := by
  unfold shocksOf
  by_cases h : positionIn cs j < n
  · have : (fun z : Fin n → ℝ => (List.ofFn z).getD (positionIn cs j) 0) = fun z => z ⟨positionIn cs j, h⟩ := by
      funext z; simp [List.getD_eq_getElem?_getD, h]
    rw [this]
    exact measurable_pi_apply _
  · have : (fun z : Fin n → ℝ => (List.ofFn z).getD (positionIn cs j) 0) = fun z => 0 := by
      funext z; simp [List.getD_eq_getElem?_getD, h]
    rw [this]
    exact measurable_const

theorem shocksOf_ofFn_memLp (cs : List Bool) (n j : Nat) :
    MemLp (fun z : Fin n → ℝ => shocksOf cs (List.ofFn z) j) 2 (Measure.pi fun _ => gaussianReal 0 1) := by
  unfold shocksOf
  by_cases h : positionIn cs j < n
  · have : (fun z : Fin n → ℝ => (List.ofFn z).getD (positionIn cs j) 0) = id ∘ fun z => z ⟨positionIn cs j, h⟩ := by
      funext z; simp [List.getD_eq_getElem?_getD, h]
    rw [this]
    have hmp := measurePreserving_eval (fun _ : Fin n => gaussianReal 0 1) ⟨positionIn cs j, h⟩
    exact MemLp.comp_measurePreserving (memLp_id_gaussianReal' 2 (by norm_num)) hmp
  · have : (fun z : Fin n → ℝ => (List.ofFn z).getD (positionIn cs j) 0) = fun z => 0 := by
      funext z; simp [List.getD_eq_getElem?_getD, h]
    rw [this]
    exact memLp_const 0

theorem shockVector_measurable (inp : SolveInput ℝ) (hexp : inp.exp = Real.exp) (cs : List Bool) :
    Measurable (inp.shockVector cs) := by
  refine measurable_pi_lambda _ fun a => ?_
  unfold SolveInput.shockVector
  rw [hexp]
  exact shockOf_measurable _ _ _ _ _ _ (shocksOf_ofFn_measurable cs _) a

theorem shockLaw_prob (inp : SolveInput ℝ) (hexp : inp.exp = Real.exp) (cs : List Bool) :
    IsProbabilityMeasure (inp.shockLaw cs) :=
  Measure.isProbabilityMeasure_map (shockVector_measurable inp hexp cs).aemeasurable

theorem shockLaw_memLp (inp : SolveInput ℝ) (hexp : inp.exp = Real.exp) (cs : List Bool) (a : Nat) :
    MemLp (fun e : Nat → ℝ => e a) 2 (inp.shockLaw cs) := by
  unfold SolveInput.shockLaw
  rw [memLp_map_measure_iff (measurable_pi_apply a).aestronglyMeasurable (shockVector_measurable inp hexp cs).aemeasurable]
  show MemLp (fun z => inp.shockVector cs z a) 2 _
  unfold SolveInput.shockVector
  rw [hexp]
  exact shockOf_memLp _ _ _ _ _ _ _ (shocksOf_ofFn_measurable cs _) (shocksOf_ofFn_memLp cs _) a

/-- With random numbers in place of given draws. -/
theorem more_draws (b : BuildSpec) (core : List CoreState) (wf : b.WF core) (p : Processed) (ev : FormulaEval)
    (senv : SolveEnv) (delta : ℝ) (h0 : 0 ≤ delta)
    (future : Option Nat → CoreState → List (Option Nat × ℝ)) (hfut : IsTransition b core future) :
    ∃ V C, IsExpectedValueFunction b core delta (p.solveInput ev senv).wageOf (p.solveInput ev senv).nonpecOf
        (fun _ => (p.solveInput ev senv).shockLaw) future V ∧ 0 ≤ C ∧
      ∀ (Ω : Type) [MeasurableSpace Ω] (P : Measure Ω) [IsProbabilityMeasure P] (n : Nat), 0 < n →
      ∀ Z, StandardNormals P n Z → ∀ V' : Ω → Option Nat → CoreState → ℝ,
        (∀ ω, IsValueFunction b core delta (p.solveInput ev senv).wageOf (p.solveInput ev senv).nonpecOf
          (p.solveInput ev (senv.withNumbers b.core.nPeriods n fun size seed t i => Z size seed t i ω)).shocks future
          (V' ω)) →
        ∀ ε > 0, P {ω | ∃ d ∈ b.denseIndices, ∃ s ∈ core, ε ≤ |V' ω d s - V d s|} ≤
          ENNReal.ofReal (C / (n * ε ^ 2)) := by
  set inp := p.solveInput ev senv with hinp
  have hexp : inp.exp = Real.exp := rfl
  obtain ⟨V, hV⟩ := (C106_limit_exists b core wf delta inp.wageOf inp.nonpecOf (fun _ => inp.shockLaw)
    (fun _ cs => shockLaw_prob inp hexp cs) (fun _ cs a _ => shockLaw_memLp inp hexp cs a) future hfut).1
  obtain ⟨C, hC, hmain⟩ := C106_more_draws b core wf delta h0 inp.wageOf inp.nonpecOf (fun _ => inp.shockLaw)
    (fun _ cs => shockLaw_prob inp hexp cs) (fun _ cs a _ => shockLaw_memLp inp hexp cs a) future hfut V hV
  refine ⟨V, C, hV, hC, ?_⟩
  intro Ω _ P _ n hn Z hZ V' hV' ε hε
  refine hmain Ω P n hn (fun t cs i ω => inp.shockVector cs (Z (cs.count true)
    (inp.seed + inp.sizes.idxOf (cs.count true)) t i ω)) ⟨?_, ?_, ?_⟩ V' ?_ ε hε
  · intro t cs i
    exact (shockVector_measurable inp hexp cs).comp ((hZ _ _ _).measurable _)
  · intro t cs i
    unfold SolveInput.shockLaw
    rw [← (hZ _ (inp.seed + inp.sizes.idxOf (cs.count true)) t).law i,
      Measure.map_map (shockVector_measurable inp hexp cs) ((hZ _ _ _).measurable _)]
    rfl
  · intro t cs i j hij
    exact ((hZ _ _ t).independent hij).comp (shockVector_measurable inp hexp cs) (shockVector_measurable inp hexp cs)
  · intro ω d hd s hs
    have hlt := createCore_period _ _ wf.created s hs
    have h1 := hV' ω d hd s hs
    have h2 : (p.solveInput ev (senv.withNumbers b.core.nPeriods n fun size seed t i => Z size seed t i ω)).shocks
        s.period (b.choiceSetAt d s) = List.ofFn fun i => inp.shockVector (b.choiceSetAt d s)
          (Z ((b.choiceSetAt d s).count true) (inp.seed + inp.sizes.idxOf ((b.choiceSetAt d s).count true)) s.period i ω)
        := by
      unfold SolveInput.shocks SolveInput.baseOf
      have h3 : ∀ size seed, (p.solveInput ev (senv.withNumbers b.core.nPeriods n
          fun size seed t i => Z size seed t i ω)).base size seed = (List.range b.core.nPeriods).map
            fun t => List.ofFn fun i => List.ofFn (Z size seed t i ω) := fun _ _ => rfl
      rw [h3, List.getElem?_map, List.getElem?_range hlt]
      simp only [Option.map_some, Option.getD_some, List.map_ofFn]
      rfl
    rw [h2] at h1
    exact h1

section

variable {env : ProcessEnv} {ev : FormulaEval} {m : UserModel} {p : Processed} {core : List CoreState}

theorem withNumbers_fits {b : BuildSpec} {core : List CoreState} {senv : SolveEnv}
    (hsizes : ∀ d ∈ b.denseIndices, ∀ s ∈ core, (b.choiceSetAt d s).count true ∈ senv.sizes) (n : Nat)
    (z : (size seed t : Nat) → Fin n → Fin size → ℝ) : (senv.withNumbers b.core.nPeriods n z).Fits b core := by
  refine ⟨fun size seed => ⟨by simp [SolveEnv.withNumbers], ?_⟩, hsizes⟩
  intro arr harr row hrow
  obtain ⟨t, _, rfl⟩ := List.mem_map.1 harr
  rw [List.mem_ofFn] at hrow
  obtain ⟨i, rfl⟩ := hrow
  simp

/-- **C106.** With independent standard normal random numbers, the values which the backward induction of an accepted
model finds are close to the values with the normal distribution of the shocks: with `n` draws, the probability that any
of them is missing or differs by `ε` or more is at most `C / (n ε²)`, where `C` depends on the model only. For models
without exogenous processes and interpolation, and with a positive discount factor. -/
theorem C106_accepted_models_partial (hp : processModel env m = some p) (hev : ev.Contract)
    (hs : p.Supported m ev core) (hcore : createCore (p.buildSpec ev).core = some core)
    (hexo : p.exogenous = []) (hkeep : env.KeepsShape) (hnd : (Dict.keys m.params).Nodup)
    (hother : ∀ q ∈ m.params, mentionsShocks q.1 = true → ∃ c ∈ shockCategories, q.1.1 = c.toList)
    (senv : SolveEnv)
    (hsizes : ∀ d ∈ (p.buildSpec ev).denseIndices, ∀ s ∈ core, ((p.buildSpec ev).choiceSetAt d s).count true ∈ senv.sizes)
    (hallowed : ∀ d ∈ (p.buildSpec ev).denseIndices, ∀ s ∈ core, ∃ c ∈ p.choices.choices, p.Allowed m ev d s c)
    (hdelta : 0 < p.discount.delta) (hno : ∀ t, ¬ (p.buildSpec ev).Interpolates core t)
    (rng : InterpolationRandom) (hrng : rng.Contract) (sqrt : ℝ → ℝ) (ols : List ℝ → List (List ℝ) → List ℝ)
    (maxLog : ℝ) :
    ∃ V C, IsExpectedValueFunction (p.buildSpec ev) core p.discount.delta (p.solveInput ev senv).wageOf
        (p.solveInput ev senv).nonpecOf (fun _ => (p.solveInput ev senv).shockLaw) (fun d _ => [(d, 1)]) V ∧ 0 ≤ C ∧
      ∀ (Ω : Type) [MeasurableSpace Ω] (P : Measure Ω) [IsProbabilityMeasure P] (n : Nat), 0 < n →
      ∀ Z, StandardNormals P n Z →
        ∃ (bt : Built) (par : Ω → ParamObjects ℝ), buildSpace (p.buildSpec ev) = some bt ∧
          (∀ ω, (p.solveInput ev (senv.withNumbers p.nPeriods n fun size seed t i => Z size seed t i ω)).paramObjects bt [] =
            some (par ω)) ∧
          ∀ (seed : Nat) (ev0 : Dict Nat (List ℝ)), SameShape (initialValues bt.space) ev0 → ∀ ε > 0,
            P {ω | ∃ d ∈ (p.buildSpec ev).denseIndices, ∃ s ∈ core, ¬ ∃ v, bt.ValueAt (solveBackward bt.space
              (kw94 bt.space rng sqrt ols (expShocks Real.exp maxLog p.choices.wWage.length p.cholesky)) (par ω) seed
              ev0).1 d s v ∧ |v - V d s| < ε} ≤ ENNReal.ofReal (C / (n * ε ^ 2)) := by
  have wf := C82_processed_models_well_formed hp hev hs hcore
  obtain ⟨V, C, hV, hC, hmain⟩ := more_draws (p.buildSpec ev) core wf p ev senv p.discount.delta hdelta.le
    (fun d _ => [(d, 1)]) (isTransition_static _ _)
  refine ⟨V, C, hV, hC, ?_⟩
  intro Ω _ P _ n hn Z hZ
  have hsolved := fun ω => C82_accepted_models_are_solved_partial hp hev hs hcore hexo hkeep hnd hother
    (senv.withNumbers p.nPeriods n fun size seed t i => Z size seed t i ω)
    (withNumbers_fits hsizes n _) hallowed (fun _ t _ ht => absurd ht (hno t)) rng hrng sqrt ols maxLog
  obtain ⟨bt, _, hbt, _⟩ := C82_accepted_models_are_solved_partial hp hev hs hcore hexo hkeep hnd hother
    (senv.withNumbers p.nPeriods n fun _ _ _ _ _ => 0)
    (withNumbers_fits hsizes n _) hallowed (fun _ t _ ht => absurd ht (hno t)) rng hrng sqrt ols maxLog
  have hpar : ∀ ω, ∃ par, (p.solveInput ev (senv.withNumbers p.nPeriods n
      fun size seed t i => Z size seed t i ω)).paramObjects bt [] = some par ∧
      ∀ (seed : Nat) (ev0 : Dict Nat (List ℝ)), SameShape (initialValues bt.space) ev0 → ∃ V',
        IsValueFunction (p.buildSpec ev) core p.discount.delta (p.solveInput ev senv).wageOf
          (p.solveInput ev senv).nonpecOf (p.solveInput ev (senv.withNumbers p.nPeriods n
            fun size seed t i => Z size seed t i ω)).shocks (fun d _ => [(d, 1)]) V' ∧
        ∀ d ∈ (p.buildSpec ev).denseIndices, ∀ s ∈ core, bt.ValueAt (solveBackward bt.space
              (kw94 bt.space rng sqrt ols (expShocks Real.exp maxLog p.choices.wWage.length p.cholesky)) par seed
              ev0).1 d s (V' d s) := by
    intro ω
    obtain ⟨bt', par, h1, h2, h3⟩ := hsolved ω
    rw [hbt] at h1
    cases h1
    refine ⟨par, h2, fun seed ev0 hshape => ?_⟩
    obtain ⟨_, V', h4, h5⟩ := h3 seed ev0 hshape
    exact ⟨V', (C80_no_interpolation_is_value_function _ _ hno _ _ _ _ _ _ _ _ _).1 (h4.1 hdelta.ne'), h5⟩
  choose par hpar1 hpar2 using hpar
  refine ⟨bt, par, hbt, hpar1, ?_⟩
  intro seed ev0 hshape ε hε
  choose V' hV1 hV2 using fun ω => hpar2 ω seed ev0 hshape
  refine (measure_mono ?_).trans (hmain Ω P n hn Z hZ V' hV1 ε hε)
  rintro ω ⟨d, hd, s, hsc, hnot⟩
  refine ⟨d, hd, s, hsc, not_lt.1 fun hlt => hnot ⟨V' ω d s, hV2 ω d hd s hsc, hlt⟩⟩

/-- **C106 (partial)** for models with exogenous processes. -/
theorem C106_models_with_processes_partial (hp : processModel env m = some p) (hev : ev.Contract)
    (hs : p.Supported m ev core) (hcore : createCore (p.buildSpec ev).core = some core)
    (hexo : p.exogenous ≠ []) (static : List (Str × Nat)) (htypes : p.nTypes < 2)
    (hobs : p.observables.map (fun o => (o.1, o.2.length)) = static ++ p.exogenous.map fun o => (o.1, o.2.length))
    (hnames : ∀ e ∈ p.exogenous, ∀ level ∈ e.2, ∀ item ∈ level.2, item.1 ∈ p.columns true)
    (hkeep : env.KeepsShape) (hnd : (Dict.keys m.params).Nodup)
    (hother : ∀ q ∈ m.params, mentionsShocks q.1 = true → ∃ c ∈ shockCategories, q.1.1 = c.toList)
    (senv : SolveEnv)
    (hsizes : ∀ d ∈ (p.buildSpec ev).denseIndices, ∀ s ∈ core, ((p.buildSpec ev).choiceSetAt d s).count true ∈ senv.sizes)
    (hallowed : ∀ d ∈ (p.buildSpec ev).denseIndices, ∀ s ∈ core, ∃ c ∈ p.choices.choices, p.Allowed m ev d s c)
    (hdelta : 0 < p.discount.delta) (hno : ∀ t, ¬ (p.buildSpec ev).Interpolates core t)
    (rng : InterpolationRandom) (hrng : rng.Contract) (sqrt : ℝ → ℝ) (ols : List ℝ → List (List ℝ) → List ℝ)
    (maxLog : ℝ) :
    ∃ V C, IsExpectedValueFunction (p.buildSpec ev) core p.discount.delta (p.solveInput ev senv).wageOf
        (p.solveInput ev senv).nonpecOf (fun _ => (p.solveInput ev senv).shockLaw) (processFuture ev p p) V ∧ 0 ≤ C ∧
      ∀ (Ω : Type) [MeasurableSpace Ω] (P : Measure Ω) [IsProbabilityMeasure P] (n : Nat), 0 < n →
      ∀ Z, StandardNormals P n Z →
        ∃ (bt : Built) (transition : Ω → Dict Nat (List (Nat × List ℝ))) (par : Ω → ParamObjects ℝ),
          buildSpace (p.buildSpec ev) = some bt ∧
          (∀ ω, (p.solveInput ev (senv.withNumbers p.nPeriods n fun size seed t i => Z size seed t i ω)).transitions
            p.exogenousParams (p.buildSpec ev) bt = some (transition ω)) ∧
          (∀ ω, (p.solveInput ev (senv.withNumbers p.nPeriods n fun size seed t i => Z size seed t i ω)).paramObjects bt
            (transition ω) = some (par ω)) ∧
          ∀ (seed : Nat) (ev0 : Dict Nat (List ℝ)), SameShape (initialValues bt.space) ev0 → ∀ ε > 0,
            P {ω | ∃ d ∈ (p.buildSpec ev).denseIndices, ∃ s ∈ core, ¬ ∃ v, bt.ValueAt (solveBackward bt.space
              (kw94 bt.space rng sqrt ols (expShocks Real.exp maxLog p.choices.wWage.length p.cholesky)) (par ω) seed
              ev0).1 d s v ∧ |v - V d s| < ε} ≤ ENNReal.ofReal (C / (n * ε ^ 2)) := by
  have wf := C82_processed_models_well_formed hp hev hs hcore
  have htrans : IsTransition (p.buildSpec ev) core (processFuture ev p p) := by
    obtain ⟨covs, h⟩ := processModel_from _ _ _ hp
    exact isTransition_exogenous _ _ _ (exogenous_wf p ev hexo static htypes hobs) p.exogenousParams
      (by
        show p.exogenousParams.map List.length = p.exogenous.map fun e => e.2.length
        simp [Processed.exogenousParams, Function.comp_def])
      (by
        intro levels hl
        obtain ⟨e, he, rfl⟩ := List.mem_map.1 hl
        intro hne
        exact h.exogenous_ne e he (List.map_eq_nil_iff.1 hne)) (p.covariates ev)
  obtain ⟨V, C, hV, hC, hmain⟩ := more_draws (p.buildSpec ev) core wf p ev senv p.discount.delta hdelta.le
    (processFuture ev p p) htrans
  refine ⟨V, C, hV, hC, ?_⟩
  intro Ω _ P _ n hn Z hZ
  have hsolved := fun ω => C82_exogenous_models_are_solved_partial hp hev hs hcore hexo static htypes hobs hnames hkeep
    hnd hother (senv.withNumbers p.nPeriods n fun size seed t i => Z size seed t i ω)
    (withNumbers_fits hsizes n _) hallowed (fun _ t _ ht => absurd ht (hno t)) rng hrng sqrt ols maxLog
  obtain ⟨bt, _, _, hbt, _⟩ := C82_exogenous_models_are_solved_partial hp hev hs hcore hexo static htypes hobs hnames hkeep
    hnd hother (senv.withNumbers p.nPeriods n fun _ _ _ _ _ => 0)
    (withNumbers_fits hsizes n _) hallowed (fun _ t _ ht => absurd ht (hno t)) rng hrng sqrt ols maxLog
  have hpar : ∀ ω, ∃ transition par, (p.solveInput ev (senv.withNumbers p.nPeriods n
      fun size seed t i => Z size seed t i ω)).transitions p.exogenousParams (p.buildSpec ev) bt = some transition ∧
      (p.solveInput ev (senv.withNumbers p.nPeriods n
        fun size seed t i => Z size seed t i ω)).paramObjects bt transition = some par ∧
      ∀ (seed : Nat) (ev0 : Dict Nat (List ℝ)), SameShape (initialValues bt.space) ev0 → ∃ V',
        IsValueFunction (p.buildSpec ev) core p.discount.delta (p.solveInput ev senv).wageOf
          (p.solveInput ev senv).nonpecOf (p.solveInput ev (senv.withNumbers p.nPeriods n
            fun size seed t i => Z size seed t i ω)).shocks (processFuture ev p p) V' ∧
        ∀ d ∈ (p.buildSpec ev).denseIndices, ∀ s ∈ core, bt.ValueAt (solveBackward bt.space
              (kw94 bt.space rng sqrt ols (expShocks Real.exp maxLog p.choices.wWage.length p.cholesky)) par seed
              ev0).1 d s (V' d s) := by
    intro ω
    obtain ⟨bt', transition, par, h1, h2, h2', h3⟩ := hsolved ω
    rw [hbt] at h1
    cases h1
    refine ⟨transition, par, h2, h2', fun seed ev0 hshape => ?_⟩
    obtain ⟨_, V', h4, h5⟩ := h3 seed ev0 hshape
    exact ⟨V', (C80_no_interpolation_is_value_function _ _ hno _ _ _ _ _ _ _ _ _).1 (h4.1 hdelta.ne'), h5⟩
  choose transition par hpar1 hpar1' hpar2 using hpar
  refine ⟨bt, transition, par, hbt, hpar1, hpar1', ?_⟩
  intro seed ev0 hshape ε hε
  choose V' hV1 hV2 using fun ω => hpar2 ω seed ev0 hshape
  refine (measure_mono ?_).trans (hmain Ω P n hn Z hZ V' hV1 ε hε)
  rintro ω ⟨d, hd, s, hsc, hnot⟩
  refine ⟨d, hd, s, hsc, not_lt.1 fun hlt => hnot ⟨V' ω d s, hV2 ω d hd s hsc, hlt⟩⟩

end

/-! ### Examples -/

/-- There are independent standard normal random numbers. -/
noncomputable def independentNormals : Measure ((k : Nat × Nat × Nat × Nat) → Fin k.1 → ℝ) :=
  Measure.infinitePi fun _ => Measure.pi fun _ => gaussianReal 0 1

instance : IsProbabilityMeasure independentNormals := by
  unfold independentNormals
  infer_instance

theorem independentNormals_standard (n : Nat) :
    StandardNormals independentNormals n fun size seed t i ω => ω (size, seed, t, i) := fun size seed t => {
  measurable := fun i => measurable_pi_apply (size, seed, t, i.val)
  law := fun i => Measure.infinitePi_map_eval
    (fun k : Nat × Nat × Nat × Nat => Measure.pi fun _ : Fin k.1 => gaussianReal 0 1) (size, seed, t, i.val)
  independent := fun i j hij =>
    (iIndepFun_infinitePi (P := fun k : Nat × Nat × Nat × Nat => Measure.pi fun _ : Fin k.1 => gaussianReal 0 1)
      (X := fun _ z => z) fun _ => measurable_id).indepFun
      (i := (size, seed, t, i.val)) (j := (size, seed, t, j.val)) (fun h => hij (by
        simp only [Prod.mk.injEq, true_and] at h
        exact Fin.ext h)) }

/-- Bounds of this kind become arbitrarily small. -/
theorem exists_draws {C ε η : ℝ} (hε : 0 < ε) (hη : 0 < η) : ∃ N : Nat, ∀ n, N ≤ n → 0 < n ∧ C / (n * ε ^ 2) ≤ η := by
  obtain ⟨N, hN⟩ := exists_nat_gt (C / (η * ε ^ 2))
  refine ⟨N + 1, fun n hn => ⟨by omega, ?_⟩⟩
  have h1 : (0 : ℝ) < n := by exact_mod_cast (by omega : 0 < n)
  have h2 : (N : ℝ) ≤ n := by exact_mod_cast (by omega : N ≤ n)
  have h3 : 0 < η * ε ^ 2 := by positivity
  rw [div_lt_iff₀ h3] at hN
  rw [div_le_iff₀ (by positivity)]
  nlinarith

theorem no_interpolation {b : BuildSpec} {core : List CoreState}
    (hgrid : b.grid = some [[0, 0], [0, 1], [1, 0], [1, 1]]) (h : core.length * 4 ≤ b.points) (t : Nat) :
    ¬ b.Interpolates core t := by
  intro ht
  have hlen : (b.statesOfPeriod core t).length ≤ core.length * 4 := by
    have hden : b.denseIndices = [some 0, some 1, some 2, some 3] := by
      unfold BuildSpec.denseIndices
      rw [hgrid]; rfl
    have hfil := List.length_filter_le (fun s : CoreState => decide (s.period = t)) core
    unfold BuildSpec.statesOfPeriod
    rw [hden]
    simp only [List.flatMap_cons, List.flatMap_nil, List.length_append, List.length_map, List.length_nil]
    omega
  have := ht.1
  omega

/-- The hypotheses hold for a model with types and an observable and independent random numbers: there is a number of
draws from which on values differ by less than 1/10 with a probability of 99 %. -/
example : ∃ p core V, processModel unitEnv estimateUser = some p ∧
    IsExpectedValueFunction (p.buildSpec textEval) core p.discount.delta (p.solveInput textEval exampleSolveEnv).wageOf
      (p.solveInput textEval exampleSolveEnv).nonpecOf (fun _ => (p.solveInput textEval exampleSolveEnv).shockLaw)
      (fun d _ => [(d, 1)]) V ∧
    ∃ N : Nat, ∀ n, N ≤ n → ∃ (bt : Built) (par : _ → ParamObjects ℝ), buildSpace (p.buildSpec textEval) = some bt ∧
      (∀ ω, (p.solveInput textEval (exampleSolveEnv.withNumbers p.nPeriods n
        fun size seed t i => ω (size, seed, t, i))).paramObjects bt [] = some (par ω)) ∧
      independentNormals {ω | ∃ d ∈ (p.buildSpec textEval).denseIndices, ∃ s ∈ core, ¬ ∃ v,
        bt.ValueAt (solveBackward bt.space (kw94 bt.space firstRandom Real.sqrt (fun _ _ => [])
          (expShocks Real.exp 1 p.choices.wWage.length p.cholesky)) (par ω) 0 (initialValues bt.space)).1 d s v ∧
          |v - V d s| < 1 / 10} ≤ ENNReal.ofReal (1 / 100) := by
  obtain ⟨p, core, hp, h1, h2, h3, h4, _, h6, h7, h8, h9, _⟩ := estimateUser_hypotheses
  have hsmall := estimateUser_small
  rw [hp] at hsmall
  simp only [Option.any_some, Bool.and_eq_true, decide_eq_true_eq] at hsmall
  obtain ⟨⟨⟨_, g2⟩, g3⟩, _⟩ := hsmall
  rw [h1] at g2
  simp only [Option.any_some, decide_eq_true_eq] at g2
  have hdelta : p.discount.delta = 1 / 2 := by
    obtain ⟨⟨delta, e1, e2, -⟩, -⟩ := C84_parameters_by_name (ev := textEval) hp h6 h7 exampleSolveEnv
    have h : Dict.get? estimateUser.params ("delta".toList, "delta".toList) = some (1 / 2) := by
      unfold estimateUser exampleUser
      dsimp only [List.cons_append]
      rw [Dict.get?, if_pos rfl]
    rw [h] at e1
    cases e1
    exact e2
  obtain ⟨V, C, hV, _, hmain⟩ := C106_accepted_models_partial hp textEval_contract h2 h1 h3 h4 h6 h7 exampleSolveEnv
    h8.sizes h9 (by rw [hdelta]; norm_num) (no_interpolation g3 g2) firstRandom firstRandom_contract Real.sqrt
    (fun _ _ => []) 1
  refine ⟨p, core, V, hp, hV, ?_⟩
  obtain ⟨N, hN⟩ := exists_draws (C := C) (ε := 1 / 10) (η := 1 / 100) (by norm_num) (by norm_num)
  refine ⟨N, fun n hn => ?_⟩
  obtain ⟨bt, par, hbt, hpar, h⟩ := hmain _ independentNormals n (hN n hn).1 _ (independentNormals_standard n)
  exact ⟨bt, par, hbt, hpar,
    (h 0 _ (SameShape.refl _) (1 / 10) (by norm_num)).trans (ENNReal.ofReal_le_ofReal (hN n hn).2)⟩

/-- The hypotheses hold for a model with an exogenous process. -/
example : ∃ p core V, processModel unitEnv exogenousUser = some p ∧
    IsExpectedValueFunction (p.buildSpec textEval) core p.discount.delta (p.solveInput textEval exampleSolveEnv).wageOf
      (p.solveInput textEval exampleSolveEnv).nonpecOf (fun _ => (p.solveInput textEval exampleSolveEnv).shockLaw)
      (processFuture textEval p p) V ∧
    ∃ N : Nat, ∀ n, N ≤ n → ∃ (bt : Built) (transition : _ → Dict Nat (List (Nat × List ℝ))) (par : _ → ParamObjects ℝ),
      buildSpace (p.buildSpec textEval) = some bt ∧
      (∀ ω, (p.solveInput textEval (exampleSolveEnv.withNumbers p.nPeriods n
        fun size seed t i => ω (size, seed, t, i))).paramObjects bt (transition ω) = some (par ω)) ∧
      independentNormals {ω | ∃ d ∈ (p.buildSpec textEval).denseIndices, ∃ s ∈ core, ¬ ∃ v,
        bt.ValueAt (solveBackward bt.space (kw94 bt.space firstRandom Real.sqrt (fun _ _ => [])
          (expShocks Real.exp 1 p.choices.wWage.length p.cholesky)) (par ω) 0 (initialValues bt.space)).1 d s v ∧
          |v - V d s| < 1 / 10} ≤ ENNReal.ofReal (1 / 100) := by
  obtain ⟨p, core, hp, h1, h2, h3, h4, h5, h6, h7, _, h9, h10, h11, h12, _⟩ := exogenousUser_hypotheses
  have hsmall := exogenousUser_small
  rw [hp] at hsmall
  simp only [Option.any_some, Bool.and_eq_true] at hsmall
  obtain ⟨⟨g2, g3⟩, _⟩ := hsmall
  rw [h1] at g2
  have g2 : core.length * 4 ≤ p.points := of_decide_eq_true g2
  have g3 := of_decide_eq_true g3
  have hdelta : p.discount.delta = 1 / 2 := by
    obtain ⟨⟨delta, e1, e2, -⟩, -⟩ := C84_parameters_by_name (ev := textEval) hp h9 h10 exampleSolveEnv
    have h : Dict.get? exogenousUser.params ("delta".toList, "delta".toList) = some (1 / 2) := by
      unfold exogenousUser
      dsimp only
      rw [Dict.get?, if_pos rfl]
    rw [h] at e1
    cases e1
    exact e2
  obtain ⟨V, C, hV, _, hmain⟩ := C106_models_with_processes_partial hp textEval_contract h2 h1 h3 [("able".toList, 2)] h4
    h5 h6 h7 h9 h10 exampleSolveEnv h11.sizes h12 (by rw [hdelta]; norm_num) (no_interpolation g3 g2) firstRandom
    firstRandom_contract Real.sqrt (fun _ _ => []) 1
  refine ⟨p, core, V, hp, hV, ?_⟩
  obtain ⟨N, hN⟩ := exists_draws (C := C) (ε := 1 / 10) (η := 1 / 100) (by norm_num) (by norm_num)
  refine ⟨N, fun n hn => ?_⟩
  obtain ⟨bt, transition, par, hbt, _, hpar, h⟩ := hmain _ independentNormals n (hN n hn).1 _ (independentNormals_standard n)
  exact ⟨bt, transition, par, hbt, hpar,
    (h 0 _ (SameShape.refl _) (1 / 10) (by norm_num)).trans (ENNReal.ofReal_le_ofReal (hN n hn).2)⟩

end Respy
