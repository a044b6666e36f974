import Mathlib.Probability.Moments.Variance
import Verif.Lemmas.ChoiceProbability
import Verif.Lemmas.LogLikeCriterion
import Verif.Lemmas.MonteCarlo
import Verif.Spec.DrawLimit

/-!
# Lemmas about the criterion function with many draws
-/

open MeasureTheory ProbabilityTheory Filter Topology

namespace Respy

noncomputable section

variable {P : Type}

/-! ### One term -/

/-- The exact choice probability for a factor. -/
def Estimation.expectedProb (e : Estimation P) (p : LikelihoodParams) (cs : List Bool) (a : Nat) (wage : Option ℝ)
    (w m c : Nat → ℝ) (C : Nat → Nat → ℝ) : ℝ :=
  ∫ z : Fin (cs.count true) → ℝ, logitOf e.tau cs (fun b => w b * rewardShockGiven e.maxLog p.nWagesRaw cs
    (shockMean (shockCov p.cholesky cs) (observation p.cholesky cs (fun a => p.measError.getD a 0) w a wage))
      C (shocksOf cs (List.ofFn z)) b + m b + p.betaDelta * c b) a ∂Measure.pi fun _ => gaussianReal 0 1

theorem Estimation.simulatedProb_close (e : Estimation P) (p : LikelihoodParams) (cs : List Bool) (a : Nat)
    (wage : Option ℝ) (w m c : Nat → ℝ) (C : Nat → Nat → ℝ) (ha : cs[a]? = some true) {Ω : Type} [MeasurableSpace Ω]
    (Q : Measure Ω) [IsProbabilityMeasure Q] {n k : Nat} (hk : k = cs.count true) (hn : 0 < n)
    (Z : Fin n → Ω → Fin k → ℝ) (hZ : NormalDraws Q Z) (ε : ℝ) (hε : 0 < ε) :
    Q {ω | ε ≤ |e.simulatedProb p cs a wage w m c C ((List.ofFn fun i => List.ofFn (Z i ω)).map (shocksOf cs)) -
      e.expectedProb p cs a wage w m c C|} ≤ ENNReal.ofReal (1 / (4 * n * ε ^ 2)) := by
  subst hk
  set mean := shockMean (shockCov p.cholesky cs) (observation p.cholesky cs (fun a => p.measError.getD a 0) w a wage)
    with hmean
  let f : (Fin (cs.count true) → ℝ) → ℝ := fun z => logitOf e.tau cs (fun b => w b * rewardShockGiven e.maxLog
    p.nWagesRaw cs mean C (shocksOf cs (List.ofFn z)) b + m b + p.betaDelta * c b) a
  have hb : ∀ z, 0 < f z ∧ f z ≤ 1 := fun z => logitOf_bounds e.tau _ a ha
  have hm : Measurable f := by
    have hf : f = fun z => logitAt e.maxLog e.tau p.betaDelta p.nWagesRaw cs w m c a fun i : Fin (cs.count true) =>
        mean (alternativeAt cs i) + ∑ j, atPositions cs _ C i j * z j :=
      funext fun z => logit_given e.maxLog e.tau p.betaDelta p.nWagesRaw rfl w m c mean C a ha z
    rw [hf]
    exact (logitAt_measurable e.maxLog e.tau p.betaDelta p.nWagesRaw cs w m c a).comp (by fun_prop)
  have hbound : ∀ᵐ z ∂normals (cs.count true), f z ∈ Set.Icc (0 : ℝ) 1 :=
    Filter.Eventually.of_forall fun z => ⟨(hb z).1.le, (hb z).2⟩
  have h2 : MemLp f 2 (normals (cs.count true)) := memLp_of_bounded hbound hm.aestronglyMeasurable 2
  have hvar : Var[f; normals (cs.count true)] ≤ 1 / 4 := by
    refine (variance_le_sq_of_bounded hbound hm.aemeasurable).trans ?_
    norm_num
  have hsim : ∀ ω, e.simulatedProb p cs a wage w m c C ((List.ofFn fun i => List.ofFn (Z i ω)).map (shocksOf cs)) =
      ((List.ofFn fun i => Z i ω).map f).sum / (n : ℝ) := by
    intro ω
    unfold Estimation.simulatedProb
    rw [List.map_ofFn, List.map_ofFn, List.map_ofFn, List.length_ofFn]
    rfl
  simp only [hsim]
  refine (average_close Q hn Z hZ.measurable _ hZ.law hZ.independent f hm h2 ε hε).trans
    (ENNReal.ofReal_le_ofReal ?_)
  have hn' : (0 : ℝ) < n := by exact_mod_cast hn
  rw [div_le_div_iff₀ (by positivity) (by positivity)]
  have : 0 < (n : ℝ) * ε ^ 2 := by positivity
  nlinarith

/-! ### The criterion as a function of the choice probabilities -/

/-- The mean of the individual log likelihoods with other choice probabilities. -/
def criterionWith (lo hi : ℝ) (T : Nat) (data : List EstimationRow) (term : Nat → Nat → Nat → LikelihoodTerm)
    (x : Nat → Nat → ℝ) (p : Nat × Nat × Nat → ℝ) : ℝ :=
  ((individuals data).map fun i => min (max (Real.log (individualLikelihood (bounded lo hi) T data
    (fun i q t => { term i q t with prob := p (i, q, t) }) x i)) lo) hi).sum / (individuals data).length

theorem bounded_tendsto (lo hi : ℝ) {x : ℝ} (hx : x ≠ 0) : Tendsto (bounded lo hi) (𝓝 x) (𝓝 (bounded lo hi x)) := by
  have : ContinuousAt (bounded lo hi) x := by
    unfold bounded
    exact (((Real.continuousAt_log hx).max continuousAt_const).min continuousAt_const).rexp
  exact this

theorem individualLikelihood_pos (lo hi : ℝ) {T : Nat} (hT : 0 < T) (data : List EstimationRow)
    (term : Nat → Nat → Nat → LikelihoodTerm) (x : Nat → Nat → ℝ) (i : Nat) :
    0 < individualLikelihood (bounded lo hi) T data term x i := by
  unfold individualLikelihood
  refine Finset.sum_pos (fun t _ => mul_pos (Real.exp_pos _) (List.prod_pos ?_)) ⟨0, Finset.mem_range.2 hT⟩
  intro y hy
  obtain ⟨r, _, rfl⟩ := List.mem_map.1 hy
  exact mul_pos (Real.exp_pos _) (Real.exp_pos _)

theorem criterionWith_tendsto (lo hi : ℝ) {T : Nat} (hT : 0 < T) (data : List EstimationRow)
    (term : Nat → Nat → Nat → LikelihoodTerm) (x : Nat → Nat → ℝ) (p : Nat × Nat × Nat → ℝ)
    (hp : ∀ r ∈ data, ∀ t < T, p (r.id, r.state.core.period, t) ≠ 0) :
    Tendsto (criterionWith lo hi T data term x) (𝓝 p) (𝓝 (criterionWith lo hi T data term x p)) := by
  unfold criterionWith
  refine Tendsto.div_const (tendsto_list_sum _ fun i _ => ?_) _
  have hind : Tendsto (fun p' : Nat × Nat × Nat → ℝ => individualLikelihood (bounded lo hi) T data
      (fun i q t => { term i q t with prob := p' (i, q, t) }) x i) (𝓝 p) (𝓝 (individualLikelihood (bounded lo hi) T data
        (fun i q t => { term i q t with prob := p (i, q, t) }) x i)) := by
    unfold individualLikelihood
    refine tendsto_finsetSum _ fun t ht => Tendsto.const_mul _ (tendsto_list_prod _ fun r hr => ?_)
    refine Tendsto.mul_const _ ((bounded_tendsto lo hi (hp r (List.mem_filter.1 hr).1 t (Finset.mem_range.1 ht))).comp ?_)
    exact (continuous_apply _).tendsto p
  have hpos := individualLikelihood_pos lo hi hT data (fun i q t => { term i q t with prob := p (i, q, t) }) x i
  exact (((Real.continuousAt_log hpos.ne').tendsto.comp hind).max tendsto_const_nhds).min tendsto_const_nhds

/-- Close choice probabilities give close criteria: finitely many probabilities matter. -/
theorem criterionWith_close (lo hi : ℝ) {T : Nat} (hT : 0 < T) (data : List EstimationRow)
    (term : Nat → Nat → Nat → LikelihoodTerm) (x : Nat → Nat → ℝ) (p : Nat × Nat × Nat → ℝ)
    (hp : ∀ r ∈ data, ∀ t < T, p (r.id, r.state.core.period, t) ≠ 0) (ε : ℝ) (hε : 0 < ε) :
    ∃ (I : Finset (Nat × Nat × Nat)) (δ : ℝ), 0 < δ ∧ ∀ p', (∀ i ∈ I, |p' i - p i| < δ) →
      |criterionWith lo hi T data term x p' - criterionWith lo hi T data term x p| < ε := by
  have h := criterionWith_tendsto lo hi hT data term x p hp (Metric.ball_mem_nhds _ hε)
  rw [nhds_pi] at h
  obtain ⟨I, hI, t, ht, hsub⟩ := Filter.mem_pi.1 h
  have hball : ∀ i, ∃ δ > 0, Metric.ball (p i) δ ⊆ t i := fun i => Metric.mem_nhds_iff.1 (ht i)
  choose δ hδ hδt using hball
  obtain ⟨m, hm, hmI⟩ : ∃ m > 0, ∀ i ∈ hI.toFinset, m ≤ δ i := by
    generalize hI.toFinset = J
    induction J using Finset.induction_on with
    | empty => exact ⟨1, one_pos, by simp⟩
    | insert a s _ ih =>
      obtain ⟨m, hm, hs⟩ := ih
      refine ⟨min m (δ a), lt_min hm (hδ a), fun i hi => ?_⟩
      rcases Finset.mem_insert.1 hi with rfl | hi
      · exact min_le_right _ _
      · exact (min_le_left _ _).trans (hs i hi)
  refine ⟨hI.toFinset, m, hm, fun p' hp' => ?_⟩
  have : p' ∈ I.pi t := fun i hi => hδt i (by
    have hi' := hI.mem_toFinset.2 hi
    rw [Metric.mem_ball, Real.dist_eq]
    exact (hp' i hi').trans_le (hmI i hi'))
  have := hsub this
  rw [Set.mem_preimage, Metric.mem_ball, Real.dist_eq] at this
  exact this

/-- Only the probabilities of the observations matter. -/
theorem criterionWith_congr (lo hi : ℝ) (T : Nat) (data : List EstimationRow)
    (term term' : Nat → Nat → Nat → LikelihoodTerm) (x : Nat → Nat → ℝ)
    (h : ∀ r ∈ data, ∀ t < T, (term r.id r.state.core.period t).prob = (term' r.id r.state.core.period t).prob ∧
      (term r.id r.state.core.period t).density = (term' r.id r.state.core.period t).density) (i : Nat) :
    individualLikelihood (bounded lo hi) T data term x i = individualLikelihood (bounded lo hi) T data term' x i := by
  unfold individualLikelihood
  refine Finset.sum_congr rfl fun t ht => ?_
  congr 2
  refine List.map_congr_left fun r hr => ?_
  obtain ⟨h1, h2⟩ := h r (List.mem_filter.1 hr).1 t (Finset.mem_range.1 ht)
  rw [h1, h2]

/-! ### The criterion of a model -/

theorem Estimation.Fits.withNumbers {e : Estimation P} {b : BuildSpec} {core : List CoreState}
    {w : Option Nat → CoreState → Nat → ℝ} {params : P} (h : e.Fits b core w params) {n : Nat} (hn : 0 < n)
    (z : (rows size seed row : Nat) → Fin n → Fin size → ℝ) : (e.withNumbers n z).Fits b core w params where
  qr := h.qr
  cholesky := h.cholesky
  lo := h.lo
  hi := h.hi
  base := by
    intro rows k s
    refine ⟨by simp [Estimation.withNumbers], fun row hrow => ?_⟩
    simp only [Estimation.withNumbers, List.mem_map] at hrow
    obtain ⟨i, _, rfl⟩ := hrow
    refine ⟨?_, fun x hx => ?_⟩
    · rw [← List.length_pos_iff, List.length_ofFn]
      exact hn
    · rw [List.mem_ofFn] at hx
      obtain ⟨j, rfl⟩ := hx
      simp
  periods := h.periods
  rows := h.rows
  cols := h.cols
  lower := h.lower
  choices := h.choices
  wages := h.wages
  index := h.index
  first := h.first
  states := h.states

theorem Estimation.typeCount_pos (e : Estimation P) : 0 < e.typeCount := by
  unfold Estimation.typeCount
  split <;> omega

/-- What is known about the exact choice probability of an observation and a type. -/
def ProbUses (b : BuildSpec) (w m : Option Nat → CoreState → Nat → ℝ)
    (future : Option Nat → CoreState → List (Option Nat × ℝ)) (V : Option Nat → CoreState → ℝ)
    (e : Estimation P) (p : LikelihoodParams) (r : EstimationRow) (t : Nat) (y : ℝ) : Prop :=
  ∃ d, b.HasIndex (e.stateOf r t).dense d ∧ b.Admissible d r.state.core r.choice ∧
    e.FactorUsed p (b.choiceSetAt d r.state.core) r.choice r.wage (w d r.state.core) (m d r.state.core)
      (continuationOf b future V d r.state.core) (e.factorUsed p (b.choiceSetAt d r.state.core) r.choice r.wage
        (w d r.state.core) (m d r.state.core) (continuationOf b future V d r.state.core)) ∧
    y = e.expectedProb p (b.choiceSetAt d r.state.core) r.choice r.wage (w d r.state.core) (m d r.state.core)
      (continuationOf b future V d r.state.core) (e.factorUsed p (b.choiceSetAt d r.state.core) r.choice r.wage
        (w d r.state.core) (m d r.state.core) (continuationOf b future V d r.state.core))

theorem Built.Solved.criterion_approaches {b : BuildSpec} {core : List CoreState} {bt : Built}
    {par : ParamObjects ℝ} {w m : Option Nat → CoreState → Nat → ℝ}
    {future : Option Nat → CoreState → List (Option Nat × ℝ)}
    (hs : bt.Solved b core par w m future) {ev : Dict Nat (List ℝ)}
    (hev : SameShape (initialValues bt.space) ev) {V : Option Nat → CoreState → ℝ}
    (hV : ∀ d ∈ b.denseIndices, ∀ s ∈ core, bt.ValueAt ev d s (V d s)) (vc ko : List Nat → List Nat)
    (e : Estimation P) (params : P) (hsolve : e.solve params = some (bt.simSpace b par ev vc ko))
    (hfits : e.Fits b core w params) : CriterionApproaches b w m future V e params := by
  classical
  set p := e.params params with hp
  obtain ⟨term0, h1, _, _⟩ := hs.criterion_terms hev hV vc ko e params hsolve hfits _ rfl
  have hinj : ∀ r ∈ e.data, ∀ r' ∈ e.data, r.id = r'.id → r.state.core.period = r'.state.core.period → r = r' := by
    intro r hr r' hr' h1 h2
    exact List.inj_on_of_nodup_map hfits.index hr hr' (by rw [h1, h2])
  have huniq : ∀ {dense : List Nat} {d d' : Option Nat}, b.HasIndex dense d → b.HasIndex dense d' → d = d' := by
    intro dense d d' h h'
    unfold BuildSpec.HasIndex at h h'
    cases hg : b.grid with
    | none =>
      rw [hg] at h h'
      rw [show d = none from h, show d' = none from h']
    | some grid =>
      rw [hg] at h h'
      obtain ⟨i, rfl, hi⟩ := h
      obtain ⟨i', rfl, hi'⟩ := h'
      rw [(List.getElem?_inj (List.getElem?_eq_some_iff.1 hi).1 (hs.nodup grid hg)).1 (hi.trans hi'.symm)]
  let pr : Nat × Nat × Nat → ℝ := fun l => Classical.epsilon fun y => ∃ r ∈ e.data,
    (r.id, r.state.core.period, l.2.2) = l ∧ ProbUses b w m future V e p r l.2.2 y
  have hpr : ∀ r ∈ e.data, ∀ t < e.typeCount, ProbUses b w m future V e p r t (pr (r.id, r.state.core.period, t)) := by
    intro r hr t ht
    obtain ⟨d, hd, hadm, hF, _⟩ := (h1 r hr t ht).2
    have := Classical.epsilon_spec (p := fun y => ∃ r' ∈ e.data, (r'.id, r'.state.core.period, t) =
      (r.id, r.state.core.period, t) ∧ ProbUses b w m future V e p r' t y) ⟨_, r, hr, rfl, d, hd, hadm, hF, rfl⟩
    obtain ⟨r', hr', hl, h⟩ := this
    rw [Prod.mk.injEq, Prod.mk.injEq] at hl
    rw [hinj r' hr' r hr hl.1 hl.2.1] at h
    exact h
  let term : Nat → Nat → Nat → LikelihoodTerm := fun i q t => { term0 i q t with prob := pr (i, q, t) }
  have hexact : ∀ r ∈ e.data, ∀ t < e.typeCount, ExactTerm b w m future V e p r t (term r.id r.state.core.period t) := by
    intro r hr t ht
    obtain ⟨d, hd, hadm, hF, hy⟩ := hpr r hr t ht
    obtain ⟨d', hd', _, _, hden, hdpos, _⟩ := (h1 r hr t ht).1
    have hdd : d = d' := huniq hd hd'
    subst hdd
    have hprob : IsExpectedChoiceProbability e.maxLog e.tau p.betaDelta p.nWagesRaw p.cholesky
        (b.choiceSetAt d r.state.core) (fun a => p.measError.getD a 0) (w d r.state.core) (m d r.state.core)
        (continuationOf b future V d r.state.core) r.choice r.wage (pr (r.id, r.state.core.period, t)) :=
      ⟨_, hF.1, hy⟩
    exact ⟨d, hd, hprob, (expected_bounds _ _ _ _ _ _ _ _ _ _ hadm _ _ hprob).1, hden, hdpos⟩
  refine ⟨_, ⟨term, e.scoreOf p, hexact, ?_, rfl, ?_⟩, ?_⟩
  · intro hT r hr h0 t _
    unfold Estimation.scoreOf
    rw [e.find_first hfits.index r hr h0]
  · rintro ⟨hb1, hb2⟩
    congr 2
    refine List.map_congr_left fun i hi => ?_
    have heq : individualLikelihood (bounded e.lo e.hi) e.typeCount e.data term
        (e.scoreOf p) i = individualLikelihood id e.typeCount e.data term (e.scoreOf p) i := by
      unfold individualLikelihood
      refine Finset.sum_congr rfl fun t ht => ?_
      have ht := Finset.mem_range.1 ht
      congr 1
      · refine bounded_eq_self _ _ _ (div_pos (Real.exp_pos _) ?_) ((hb2 i hi).2 t ht)
        exact Finset.sum_pos (fun _ _ => Real.exp_pos _) ⟨t, Finset.mem_range.2 ht⟩
      · congr 1
        refine List.map_congr_left fun r hr => ?_
        have hr := (List.mem_filter.1 hr).1
        obtain ⟨d, _, _, hp, _, hd⟩ := hexact r hr t ht
        rw [bounded_eq_self _ _ _ hp (hb1 r hr t ht).1, bounded_eq_self _ _ _ hd (hb1 r hr t ht).2]
        rfl
    rw [heq, max_eq_left (hb2 i hi).1.1, min_eq_left (hb2 i hi).1.2]
  intro ε hε
  have hne : ∀ r ∈ e.data, ∀ t < e.typeCount, pr (r.id, r.state.core.period, t) ≠ 0 := by
    intro r hr t ht
    obtain ⟨d, _, _, h, _⟩ := hexact r hr t ht
    exact h.ne'
  obtain ⟨I, δ, hδ, hclose⟩ := criterionWith_close e.lo e.hi e.typeCount_pos e.data term (e.scoreOf p) pr hne ε hε
  refine ⟨I.card * (1 / (4 * δ ^ 2)), fun Ω _ Q _ n hn Z hZ => ?_⟩
  have hω : ∀ ω, _ := fun ω => hs.criterion_terms hev hV vc ko
    (e.withNumbers n fun rows size seed row i => Z rows size seed row i ω) params hsolve
    (hfits.withNumbers hn _) ((e.located (bt.simSpace b par ev vc ko)).getD []) rfl
  choose termω g1 _ g3 using hω
  refine ⟨_, g3, ?_⟩
  let pω : Ω → Nat × Nat × Nat → ℝ := fun ω l =>
    if ∃ r ∈ e.data, ∃ t < e.typeCount, (r.id, r.state.core.period, t) = l then (termω ω l.1 l.2.1 l.2.2).prob else pr l
  have hsub : {ω | ε ≤ |((individuals e.data).map fun i => min (max (Real.log
      (individualLikelihood (bounded e.lo e.hi) e.typeCount e.data (termω ω) (e.scoreOf p) i)) e.lo) e.hi).sum /
        (individuals e.data).length - criterionWith e.lo e.hi e.typeCount e.data term (e.scoreOf p) pr|} ⊆
      ⋃ i ∈ I, {ω | δ ≤ |pω ω i - pr i|} := by
    intro ω hω
    by_contra hcon
    simp only [Set.mem_iUnion, Set.mem_ofPred_eq, not_exists, not_le] at hcon
    have h := hclose (pω ω) hcon
    have heq : criterionWith e.lo e.hi e.typeCount e.data term (e.scoreOf p) (pω ω) =
        ((individuals e.data).map fun i => min (max (Real.log
      (individualLikelihood (bounded e.lo e.hi) e.typeCount e.data (termω ω) (e.scoreOf p) i)) e.lo) e.hi).sum /
        (individuals e.data).length := by
      unfold criterionWith
      congr 2
      refine List.map_congr_left fun i _ => ?_
      rw [criterionWith_congr e.lo e.hi e.typeCount e.data _ (termω ω)]
      intro r hr t ht
      refine ⟨if_pos ⟨r, hr, t, ht, rfl⟩, ?_⟩
      obtain ⟨d, hd, _, _, hden, _⟩ := (g1 ω r hr t ht).1
      obtain ⟨d', hd', _, _, hden', _⟩ := (h1 r hr t ht).1
      have hdd : d = d' := huniq hd hd'
      subst hdd
      exact hden'.trans hden.symm
    rw [heq] at h
    exact absurd hω (not_le.2 h)
  refine (measure_mono hsub).trans ((measure_biUnion_finset_le _ _).trans ?_)
  have hterm : ∀ i ∈ I, Q {ω | δ ≤ |pω ω i - pr i|} ≤ ENNReal.ofReal (1 / (4 * n * δ ^ 2)) := by
    intro l _
    by_cases hl : ∃ r ∈ e.data, ∃ t < e.typeCount, (r.id, r.state.core.period, t) = l
    · obtain ⟨r, hr, t, ht, rfl⟩ := hl
      obtain ⟨d, hd, hadm, hF, hy⟩ := hpr r hr t ht
      rw [hy]
      set size := e.sizeOf bt.space.complexes ((e.located (bt.simSpace b par ev vc ko)).getD [])
      set source := e.sourceOf ((e.located (bt.simSpace b par ev vc ko)).getD []) r.id r.state.core.period t
      have hk : (size source.1).2 = (b.choiceSetAt d r.state.core).count true := by
        obtain ⟨d', hd', _, _, _, _, hsize, _⟩ := (h1 r hr t ht).1
        have hdd : d = d' := huniq hd hd'
        subst hdd
        exact hsize
      refine le_trans (le_of_eq ?_) (e.simulatedProb_close p (b.choiceSetAt d r.state.core) r.choice r.wage
        (w d r.state.core) (m d r.state.core) (continuationOf b future V d r.state.core)
        (e.factorUsed p (b.choiceSetAt d r.state.core) r.choice r.wage (w d r.state.core) (m d r.state.core)
          (continuationOf b future V d r.state.core)) hadm Q hk hn
        (Z (size source.1).1 (size source.1).2 source.1 source.2) (hZ _ _ _ _) δ hδ)
      congr 1
      ext ω
      have hpω : pω ω (r.id, r.state.core.period, t) = (termω ω r.id r.state.core.period t).prob :=
        if_pos ⟨r, hr, t, ht, rfl⟩
      obtain ⟨⟨_, _, _, _, _, _, _, hdraws⟩, d', hd', _, _, hprob⟩ := g1 ω r hr t ht
      have hdd : d = d' := huniq hd hd'
      subst hdd
      have hown : (termω ω r.id r.state.core.period t).draws = List.ofFn fun i => List.ofFn
          (Z (size source.1).1 (size source.1).2 source.1 source.2 i ω) := by
        change ((List.range (size source.1).1).map fun row => List.ofFn fun i => List.ofFn
          (Z (size source.1).1 (size source.1).2 source.1 row i ω))[source.2]? = _ at hdraws
        rw [List.getElem?_map] at hdraws
        obtain ⟨k, hk1, hk2⟩ := Option.map_eq_some_iff.1 hdraws
        obtain ⟨_, hk3⟩ := List.getElem?_eq_some_iff.1 hk1
        rw [List.getElem_range] at hk3
        rw [← hk2, ← hk3]
      rw [Set.mem_ofPred_eq, Set.mem_ofPred_eq, hpω, hprob, hown]
      rfl
    · have : {ω | δ ≤ |pω ω l - pr l|} = ∅ := by
        ext ω
        have : pω ω l = pr l := if_neg hl
        simp [this, hδ]
      rw [this, measure_empty]
      exact zero_le
  refine (Finset.sum_le_sum hterm).trans ?_
  rw [Finset.sum_const, nsmul_eq_mul]
  rw [← ENNReal.ofReal_natCast, ← ENNReal.ofReal_mul (Nat.cast_nonneg _)]
  refine ENNReal.ofReal_le_ofReal (le_of_eq ?_)
  have hn' : (n : ℝ) ≠ 0 := by exact_mod_cast hn.ne'
  field_simp

end

end Respy
