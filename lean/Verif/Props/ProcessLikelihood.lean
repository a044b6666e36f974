import Verif.Lemmas.LikelihoodRatio
import Verif.Lemmas.ProcessLikelihood
import Verif.Props.HistoryLikelihood

/-!
# The likelihood with exogenous processes

C114: the likelihood is that of choices and wages given the exogenous processes, whose probabilities it does not
contain. It is still unlikely that other parameters have a higher likelihood than those which generated the data.
-/

open MeasureTheory ProbabilityTheory

namespace Respy

noncomputable section

variable {b : BuildSpec} {core : List CoreState}

/-- The state which follows. -/
def followingState (future : Option Nat → CoreState → List (Option Nat × ℝ)) {n E : Nat} (x : Option Nat × CoreState)
    (k : Fin n × Fin E) : Option Nat × CoreState :=
  (nextIndex future x.1 x.2 k.2, lawOfMotion x.2 k.1)

theorem stateAlong_eq (future : Option Nat → CoreState → List (Option Nat × ℝ)) (x : Option Nat × CoreState)
    {n E T : Nat} (h : ProcessHistory n E T) (t : Nat) :
    stateAlong future x h t = pathState (followingState future) x h t := by
  induction t with
  | zero => rfl
  | succ t ih =>
    rw [stateAlong, pathState, ih]
    rfl

theorem stateAlong_period (future : Option Nat → CoreState → List (Option Nat × ℝ)) (x : Option Nat × CoreState)
    {n E T : Nat} (h : ProcessHistory n E T) (t : Nat) (ht : t ≤ T) :
    (stateAlong future x h t).2.period = x.2.period + t := by
  induction t with
  | zero => rfl
  | succ t ih =>
    rw [stateAlong, dif_pos (by omega)]
    show (stateAlong future x h t).2.period + 1 = _
    rw [ih (by omega)]
    omega

theorem nextIndex_mem {future : Option Nat → CoreState → List (Option Nat × ℝ)} (hfut : IsTransition b core future)
    {E : Nat} (hE : ∀ d ∈ b.denseIndices, ∀ s ∈ core, (future d s).length = E) {d : Option Nat}
    (hd : d ∈ b.denseIndices) {s : CoreState} (hs : s ∈ core) (e : Fin E) : nextIndex future d s e ∈ b.denseIndices := by
  have h1 : (e : Nat) < (future d s).length := by
    rw [hE d hd s hs]
    exact e.2
  unfold nextIndex
  rw [List.getElem?_eq_getElem h1]
  exact ((hfut d hd s hs).1 _ (List.getElem_mem h1)).1

theorem levelsProbability_total {future : Option Nat → CoreState → List (Option Nat × ℝ)}
    (hfut : IsTransition b core future) {E : Nat} (hE : ∀ d ∈ b.denseIndices, ∀ s ∈ core, (future d s).length = E)
    {d : Option Nat} (hd : d ∈ b.denseIndices) {s : CoreState} (hs : s ∈ core) :
    (∀ e : Fin E, 0 ≤ levelsProbability future d s e) ∧ ∑ e : Fin E, levelsProbability future d s e = 1 := by
  have hlen := hE d hd s hs
  subst hlen
  have h1 : ∀ e : Fin (future d s).length, levelsProbability future d s e = (future d s)[e].2 := by
    intro e
    unfold levelsProbability
    rw [List.getElem?_eq_getElem e.2]
    rfl
  refine ⟨fun e => ?_, ?_⟩
  · rw [h1]
    exact ((hfut d hd s hs).1 _ (List.getElem_mem e.2)).2
  · simp only [h1]
    rw [← (hfut d hd s hs).2, ← Fin.sum_univ_fun_getElem]
    rfl

/-- Possible histories lead through states of the model. -/
theorem possibleAlong_mem (wf : b.WF core) {future : Option Nat → CoreState → List (Option Nat × ℝ)}
    (hfut : IsTransition b core future) {n E T : Nat}
    (hE : ∀ d ∈ b.denseIndices, ∀ s ∈ core, (future d s).length = E) {x : Option Nat × CoreState}
    (hd : x.1 ∈ b.denseIndices) (hs : x.2 ∈ core) (hs0 : x.2.period = 0) (hT : T ≤ b.core.nPeriods) (nWages : Nat)
    (h : ProcessHistory n E T) (t : Nat) (ht : t < T)
    (hp : ∀ k : Fin T, (k : Nat) < t → (stateAlong future x h k).1 ∈ b.denseIndices →
      (stateAlong future x h k).2 ∈ core → PossibleObservation nWages
        (b.choiceSetAt (stateAlong future x h k).1 (stateAlong future x h k).2) (h k).1.1 (h k).2) :
    (stateAlong future x h t).1 ∈ b.denseIndices ∧ (stateAlong future x h t).2 ∈ core := by
  induction t with
  | zero => exact ⟨hd, hs⟩
  | succ t ih =>
    obtain ⟨h1, h2⟩ := ih (by omega) fun k hk => hp k (by omega)
    rw [stateAlong, dif_pos (by omega)]
    refine ⟨nextIndex_mem hfut hE h1 h2 _, wf.closed _ h2 ?_ _ h1 _ (hp ⟨t, by omega⟩ (by simp) h1 h2).1⟩
    rw [stateAlong_period future x h t (by omega), hs0]
    omega

/-- The likelihood with exogenous processes: all that is shown about it. -/
theorem process_density (wf : b.WF core) (p : RewardParams ℝ) (hwf : p.WF b core)
    (hunc : b.UncertainWages core p) (tau : ℝ) (w m : Option Nat → CoreState → Nat → ℝ)
    (V : Option Nat → CoreState → ℝ) (future : Option Nat → CoreState → List (Option Nat × ℝ))
    (hfut : IsTransition b core future) {E : Nat} (hE : ∀ d ∈ b.denseIndices, ∀ s ∈ core, (future d s).length = E)
    {x : Option Nat × CoreState} (hd : x.1 ∈ b.denseIndices) (hs : x.2 ∈ core) (hs0 : x.2.period = 0) (T : Nat)
    (hT : T ≤ b.core.nPeriods) :
    ∃ f : ProcessHistory p.measError.length E T → ℝ,
      (∀ h l, IsLikelihoodAlong p tau b w m future V x h l ↔ l = f h) ∧ Measurable f ∧
      (∀ h, 0 ≤ f h) ∧ (∀ h, 0 < f h ↔ PossibleAlong p.nWagesRaw b future x h) ∧
      ∀ q : Nat → Option Nat × CoreState → Fin E → ℝ,
        (∀ t y, y.1 ∈ b.denseIndices → y.2 ∈ core → (∀ e, 0 ≤ q t y e) ∧ ∑ e, q t y e = 1) →
        Measurable (fun h : ProcessHistory p.measError.length E T =>
          ∏ t : Fin T, q t (stateAlong future x h t) (h t).1.2) ∧
        (∀ h : ProcessHistory p.measError.length E T, PossibleAlong p.nWagesRaw b future x h →
          0 ≤ ∏ t : Fin T, q t (stateAlong future x h t) (h t).1.2) ∧
        ∫⁻ h, ENNReal.ofReal (f h * ∏ t : Fin T, q t (stateAlong future x h t) (h t).1.2)
          ∂processMeasure p.measError.length E T = 1 := by
  classical
  set n := p.measError.length with hn
  let Good : Option Nat × CoreState → Prop := fun y => y.1 ∈ b.denseIndices ∧ y.2 ∈ core
  have hex : ∀ y : Option Nat × CoreState, ∃ f : Fin n × ℝ → ℝ, Measurable f ∧ (∀ y, 0 ≤ f y) ∧ (Good y →
      (∀ z, 0 < f z ↔ PossibleObservation p.nWagesRaw (b.choiceSetAt y.1 y.2) z.1 z.2) ∧
      (∀ z, PossibleObservation p.nWagesRaw (b.choiceSetAt y.1 y.2) z.1 z.2 → ∃ prob,
        (∀ q, IsExpectedChoiceProbability p.hi tau p.betaDelta p.nWagesRaw p.cholesky (b.choiceSetAt y.1 y.2)
          (fun a => p.measError.getD a 0) (w y.1 y.2) (m y.1 y.2) (continuationOf b future V y.1 y.2) z.1
          (if (z.1 : Nat) < p.nWagesRaw then some z.2 else none) q ↔ q = prob) ∧
        f z = prob * densityOf p.cholesky (b.choiceSetAt y.1 y.2) (fun a => p.measError.getD a 0) (w y.1 y.2) z.1
          (if (z.1 : Nat) < p.nWagesRaw then some z.2 else none)) ∧
      ∫⁻ z, ENNReal.ofReal (f z) ∂observedMeasure n = 1) := by
    intro y
    by_cases hy : Good y
    · obtain ⟨a, ha⟩ := hwf.nonempty y.1 hy.1 y.2 hy.2
      obtain ⟨f, h1, h2, h3, h4, h5⟩ := observation_density p.hi tau p.betaDelta p.nWagesRaw p.cholesky
        (b.choiceSetAt y.1 y.2) (fun a => p.measError.getD a 0) (w y.1 y.2) (m y.1 y.2)
        (continuationOf b future V y.1 y.2)
        (List.mem_of_getElem? ha) (fun a h ha => hunc y.1 hy.1 y.2 hy.2 a h ha) (hwf.choices y.1 hy.1 y.2 hy.2)
      exact ⟨f, h1, h2, fun _ => ⟨h3, h4, h5⟩⟩
    · exact ⟨fun _ => 0, measurable_const, fun _ => le_rfl, fun h => absurd h hy⟩
  choose obs hm h0 hobs using hex
  let F : ProcessHistory n E T → ℝ := fun h => ∏ t : Fin T, obs (stateAlong future x h t) ((h t).1.1, (h t).2)
  have hkey : Measurable fun y : (Fin n × Fin E) × ℝ => (y.1.1, y.2) :=
    (measurable_fst.comp measurable_fst).prodMk measurable_snd
  have hF : F = pathDensity (fun y z => obs y (z.1.1, z.2)) (followingState future) T x := by
    funext h
    rw [pathDensity_prod]
    exact Finset.prod_congr rfl fun t _ => by rw [stateAlong_eq]
  have hF0 : ∀ h, 0 ≤ F h := fun h => Finset.prod_nonneg fun t _ => h0 _ _
  have hgood : ∀ h : ProcessHistory n E T, PossibleAlong p.nWagesRaw b future x h → ∀ t : Fin T,
      Good (stateAlong future x h t) := fun h hp t =>
    possibleAlong_mem wf hfut hE hd hs hs0 hT p.nWagesRaw h t t.2 fun k _ _ _ => hp k
  have hpos : ∀ h, 0 < F h ↔ PossibleAlong p.nWagesRaw b future x h := by
    intro h
    constructor
    · intro hh
      have hall : ∀ t : Fin T, 0 < obs (stateAlong future x h t) ((h t).1.1, (h t).2) := by
        intro t
        exact lt_of_le_of_ne (h0 _ _) fun he => hh.ne' (Finset.prod_eq_zero (Finset.mem_univ t) he.symm)
      intro t
      have hg : Good (stateAlong future x h t) := possibleAlong_mem wf hfut hE hd hs hs0 hT p.nWagesRaw h t t.2
        fun k _ h1 h2 => ((hobs _ ⟨h1, h2⟩).1 _).1 (hall k)
      exact ((hobs _ hg).1 _).1 (hall t)
    · exact fun hp => Finset.prod_pos fun t _ => ((hobs _ (hgood h hp t)).1 _).2 (hp t)
  refine ⟨F, fun h l => ?_, ?_, hF0, hpos, fun q hq => ?_⟩
  · by_cases hp : PossibleAlong p.nWagesRaw b future x h
    · have hq := fun t : Fin T => (hobs _ (hgood h hp t)).2.1 ((h t).1.1, (h t).2) (hp t)
      choose r hr1 hr2 using hq
      have hval : F h = ∏ t, r t * densityOf p.cholesky
          (b.choiceSetAt (stateAlong future x h t).1 (stateAlong future x h t).2) (fun a => p.measError.getD a 0)
          (w (stateAlong future x h t).1 (stateAlong future x h t).2) (h t).1.1
          (if ((h t).1.1 : Nat) < p.nWagesRaw then some (h t).2 else none) :=
        Finset.prod_congr rfl fun t _ => hr2 t
      constructor
      · rintro (⟨_, prob, h1, rfl⟩ | ⟨h1, _⟩)
        · rw [hval]
          refine Finset.prod_congr rfl fun t _ => ?_
          rw [(hr1 t _).1 (h1 t)]
        · exact absurd hp h1
      · rintro rfl
        exact Or.inl ⟨hp, r, fun t => (hr1 t _).2 rfl, hval⟩
    · have hz : F h = 0 := le_antisymm (not_lt.1 fun h1 => hp ((hpos h).1 h1)) (hF0 h)
      rw [hz]
      constructor
      · rintro (⟨h1, _⟩ | ⟨_, h1⟩)
        · exact absurd h1 hp
        · exact h1
      · exact fun h1 => Or.inr ⟨hp, h1⟩
  · rw [hF]
    exact pathDensity_measurable _ _ (fun y => (hm y).comp hkey) T x
  · let next' : Nat × (Option Nat × CoreState) → Fin n × Fin E → Nat × (Option Nat × CoreState) := fun ty k =>
      (ty.1 + 1, followingState future ty.2 k)
    let q' : Nat × (Option Nat × CoreState) → Fin E → ℝ := fun ty e => if Good ty.2 then q ty.1 ty.2 e else 0
    have hstate : ∀ (h : ProcessHistory n E T) t, t ≤ T → pathState next' (0, x) h t = (t, stateAlong future x h t) := by
      intro h t
      induction t with
      | zero => exact fun _ => rfl
      | succ t ih =>
        intro ht
        rw [pathState, dif_pos (by omega), ih (by omega), stateAlong, dif_pos (by omega)]
        rfl
    have hq0 : ∀ ty e, 0 ≤ q' ty e := by
      intro ty e
      by_cases hg : Good ty.2
      · simp only [q', if_pos hg]
        exact (hq _ _ hg.1 hg.2).1 e
      · simp only [q', if_neg hg]
        exact le_rfl
    refine ⟨?_, fun h hp => ?_, ?_⟩
    · have h1 : (fun h : ProcessHistory n E T => ∏ t : Fin T, q t (stateAlong future x h t) (h t).1.2) =
          pathDensity (fun ty (z : (Fin n × Fin E) × ℝ) => q ty.1 ty.2 z.1.2) next' T (0, x) := by
        funext h
        rw [pathDensity_prod]
        exact Finset.prod_congr rfl fun t _ => by rw [hstate h t t.2.le]
      rw [h1]
      exact pathDensity_measurable _ _ (fun ty : Nat × (Option Nat × CoreState) => (measurable_of_finite (q ty.1 ty.2)).comp
        (measurable_snd.comp measurable_fst)) T _
    · exact Finset.prod_nonneg fun t _ => (hq _ _ (hgood h hp t).1 (hgood h hp t).2).1 _
    · have h1 : ∀ h, F h * ∏ t : Fin T, q t (stateAlong future x h t) (h t).1.2 =
          pathDensity (fun ty z => obs ty.2 (z.1.1, z.2) * q' ty z.1.2) next' T (0, x) h := by
        intro h
        rw [pathDensity_prod, Finset.prod_mul_distrib]
        have h2 : ∏ t : Fin T, obs (pathState next' (0, x) h t).2 ((h t).1.1, (h t).2) = F h :=
          Finset.prod_congr rfl fun t _ => by rw [hstate h t t.2.le]
        rw [h2]
        by_cases hp : PossibleAlong p.nWagesRaw b future x h
        · congr 1
          refine Finset.prod_congr rfl fun t _ => ?_
          rw [hstate h t t.2.le]
          exact (if_pos (hgood h hp t)).symm
        · have hz : F h = 0 := le_antisymm (not_lt.1 fun h1 => hp ((hpos h).1 h1)) (hF0 h)
          rw [hz, zero_mul, zero_mul]
      simp only [h1]
      have h3 := pathDensity_total (fun ty (z : (Fin n × Fin E) × ℝ) => obs ty.2 (z.1.1, z.2) * q' ty z.1.2) next'
        (fun ty => ((hm ty.2).comp hkey).mul ((measurable_of_finite (q' ty)).comp (measurable_snd.comp measurable_fst)))
        (fun ty z => mul_nonneg (h0 _ _) (hq0 _ _))
        (fun T ty => T ≠ 0 → Good ty.2 ∧ ty.2.2.period + T ≤ b.core.nPeriods) 1 (fun T ty hg => ?_)
        (fun T ty hg z hz hT0 => ?_) T (0, x) (fun _ => ⟨⟨hd, hs⟩, by rw [hs0]; omega⟩)
      · rw [one_pow] at h3
        exact h3
      · obtain ⟨hg1, _⟩ := hg (Nat.succ_ne_zero T)
        rw [lintegral_levels _ (hm ty.2) _ (hq0 ty), (hobs _ hg1).2.2]
        have : ∑ e, q' ty e = 1 := by
          rw [← (hq ty.1 ty.2 hg1.1 hg1.2).2]
          exact Finset.sum_congr rfl fun e _ => if_pos hg1
        rw [this, ENNReal.ofReal_one, one_mul]
      · obtain ⟨hg1, hg2⟩ := hg (Nat.succ_ne_zero T)
        have ho : 0 < obs ty.2 (z.1.1, z.2) := by
          refine lt_of_le_of_ne (h0 _ _) fun he => hz.ne' ?_
          rw [← he, zero_mul]
        refine ⟨⟨nextIndex_mem hfut hE hg1.1 hg1.2 _, wf.closed _ hg1.2 (by omega) _ hg1.1 _
          (((hobs _ hg1).1 _).1 ho).1⟩, ?_⟩
        show ty.2.2.period + 1 + T ≤ _
        omega

/-- C114: there is exactly one likelihood for each history of choices, wages and exogenous processes. It is positive if
and only if the choices and wages are possible. For given processes, the likelihoods of all choices and wages are a
probability distribution. Together with the probabilities of the processes, they are a distribution of all histories. -/
theorem C114_distribution_with_processes (wf : b.WF core) (p : RewardParams ℝ) (hwf : p.WF b core)
    (hunc : b.UncertainWages core p) (tau : ℝ) (w m : Option Nat → CoreState → Nat → ℝ)
    (V : Option Nat → CoreState → ℝ) (future : Option Nat → CoreState → List (Option Nat × ℝ))
    (hfut : IsTransition b core future) {E : Nat} (hE : ∀ d ∈ b.denseIndices, ∀ s ∈ core, (future d s).length = E)
    {x : Option Nat × CoreState} (hd : x.1 ∈ b.denseIndices) (hs : x.2 ∈ core) (hs0 : x.2.period = 0) (T : Nat)
    (hT : T ≤ b.core.nPeriods) :
    ∃ f : ProcessHistory p.measError.length E T → ℝ,
      (∀ h l, IsLikelihoodAlong p tau b w m future V x h l ↔ l = f h) ∧ Measurable f ∧
      (∀ h, 0 ≤ f h) ∧ (∀ h, 0 < f h ↔ PossibleAlong p.nWagesRaw b future x h) ∧
      (∀ levels : Fin T → Fin E, ∫⁻ h in {h | ∀ t, (h t).1.2 = levels t}, ENNReal.ofReal (f h)
        ∂processMeasure p.measError.length E T = 1) ∧
      ∫⁻ h, ENNReal.ofReal (f h * processesAlong future x h) ∂processMeasure p.measError.length E T = 1 := by
  classical
  obtain ⟨f, h1, h2, h3, h4, h5⟩ := process_density wf p hwf hunc tau w m V future hfut hE hd hs hs0 T hT
  refine ⟨f, h1, h2, h3, h4, fun levels => ?_, ?_⟩
  · have hset : MeasurableSet {h : ProcessHistory p.measError.length E T | ∀ t, (h t).1.2 = levels t} := by
      rw [Set.ofPred_forall]
      refine MeasurableSet.iInter fun t => ?_
      exact (measurable_snd.comp (measurable_fst.comp (measurable_pi_apply t))) (measurableSet_singleton (levels t))
    obtain ⟨_, _, h6⟩ := h5 (fun t _ e => if ht : t < T then (if e = levels ⟨t, ht⟩ then 1 else 0) else
      levelsProbability future x.1 x.2 e) (fun t y _ _ => by
        by_cases ht : t < T
        · simp only [dif_pos ht]
          exact ⟨fun e => by split <;> norm_num, by simp⟩
        · simp only [dif_neg ht]
          exact levelsProbability_total hfut hE hd hs)
    rw [← h6, ← lintegral_indicator hset]
    refine lintegral_congr fun h => ?_
    by_cases hh : ∀ t, (h t).1.2 = levels t
    · rw [Set.indicator_of_mem (show h ∈ {h | ∀ t, (h t).1.2 = levels t} from hh)]
      simp [hh]
    · rw [Set.indicator_of_notMem (show h ∉ {h | ∀ t, (h t).1.2 = levels t} from hh)]
      push Not at hh
      obtain ⟨t, ht⟩ := hh
      rw [Finset.prod_eq_zero (Finset.mem_univ t) (by simp [ht]), mul_zero, ENNReal.ofReal_zero]
  · exact (h5 (fun _ y e => levelsProbability future y.1 y.2 e) fun _ y hy1 hy2 =>
      levelsProbability_total hfut hE hy1 hy2).2.2

/-- The states along a history depend on what can follow, but not on its probabilities. -/
theorem stateAlong_congr {future future' : Option Nat → CoreState → List (Option Nat × ℝ)}
    (hsame : ∀ d s, (future' d s).map Prod.fst = (future d s).map Prod.fst) (x : Option Nat × CoreState) {n E T : Nat}
    (h : ProcessHistory n E T) (t : Nat) : stateAlong future' x h t = stateAlong future x h t := by
  have h1 : ∀ d s e, nextIndex future' d s e = nextIndex future d s e := by
    intro d s e
    unfold nextIndex
    rw [← List.getElem?_map, ← List.getElem?_map, hsame]
  induction t with
  | zero => rfl
  | succ t ih =>
    rw [stateAlong, stateAlong, ih]
    simp only [h1]

/-- C114: let independent individuals have histories of choices, wages and exogenous processes with the distribution of
some parameters. Then it is unlikely that other parameters have a higher likelihood, although the likelihood does not
contain the probabilities of the processes, and even if the other parameters contain wrong probabilities. The
probability that their log likelihood is higher by `k` is at most `exp (-k)`, and at most `exp (-k / 2)` times a product
over individuals of numbers between zero and one, which are below one for all individuals whose choices and wages have
different distributions. -/
theorem C114_true_parameters_are_likely (wf : b.WF core) {N E : Nat} (x : Fin N → Option Nat × CoreState)
    (T : Fin N → Nat) (hd : ∀ i, (x i).1 ∈ b.denseIndices) (hs : ∀ i, (x i).2 ∈ core)
    (hs0 : ∀ i, (x i).2.period = 0) (hT : ∀ i, T i ≤ b.core.nPeriods) (θ₀ θ₁ : ProcessHypothesis)
    (h₀ : θ₀.Valid b core E) (h₁ : θ₁.Valid b core E)
    (hsame : ∀ d s, (θ₁.future d s).map Prod.fst = (θ₀.future d s).map Prod.fst) {n : Nat}
    (hn₀ : θ₀.rewards.measError.length = n) (hn₁ : θ₁.rewards.measError.length = n)
    (hnw : θ₀.rewards.nWagesRaw = θ₁.rewards.nWagesRaw)
    (f g : ∀ i, ProcessHistory n E (T i) → ℝ) (hf : ∀ i, θ₀.Likelihood b (x i) (f i))
    (hg : ∀ i, θ₁.Likelihood b (x i) (g i))
    {Ω : Type} [MeasurableSpace Ω] (Q : Measure Ω) (X : ∀ i, Ω → ProcessHistory n E (T i))
    (hX : ∀ i, Measurable (X i)) (hindep : iIndepFun X Q)
    (hlaw : ∀ i, Q.map (X i) = (processMeasure n E (T i)).withDensity fun h =>
      ENNReal.ofReal (f i h * processesAlong θ₀.future (x i) h)) :
    ∃ ρ : Fin N → ℝ, (∀ i, 0 ≤ ρ i ∧ ρ i ≤ 1 ∧ (ρ i = 1 ↔
        (fun h => f i h * processesAlong θ₀.future (x i) h) =ᵐ[processMeasure n E (T i)]
          fun h => g i h * processesAlong θ₀.future (x i) h)) ∧
      ∀ k : ℝ, Q.real {ω | ∑ i, Real.log (f i (X i ω)) + k ≤ ∑ i, Real.log (g i (X i ω))} ≤
        min (Real.exp (-k)) (Real.exp (-k / 2) * ∏ i, ρ i) := by
  subst hn₀
  have hf' := fun i => process_density wf θ₀.rewards h₀.rewards h₀.uncertain θ₀.tau θ₀.wage θ₀.nonpec θ₀.value θ₀.future
    h₀.transition h₀.levels (hd i) (hs i) (hs0 i) (T i) (hT i)
  have hg' := fun i => process_density wf θ₁.rewards h₁.rewards h₁.uncertain θ₁.tau θ₁.wage θ₁.nonpec θ₁.value θ₁.future
    h₁.transition h₁.levels (hd i) (hs i) (hs0 i) (T i) (hT i)
  rw [hn₁] at hg'
  choose f' f1 f2 f3 f4 f5 using hf'
  choose g' g1 g2 g3 g4 g5 using hg'
  have ef : f = f' := funext fun i => funext fun h => (f1 i h _).1 (hf i h)
  have eg : g = g' := funext fun i => funext fun h => (g1 i h _).1 (hg i h)
  subst ef eg
  have hweights : ∀ (_ : Nat) (y : Option Nat × CoreState), y.1 ∈ b.denseIndices → y.2 ∈ core →
      (∀ e : Fin E, 0 ≤ levelsProbability θ₀.future y.1 y.2 e) ∧
      ∑ e : Fin E, levelsProbability θ₀.future y.1 y.2 e = 1 := fun _ y hy1 hy2 =>
    levelsProbability_total h₀.transition h₀.levels hy1 hy2
  have hcongr : ∀ i (h : ProcessHistory θ₀.rewards.measError.length E (T i)),
      PossibleAlong θ₁.rewards.nWagesRaw b θ₁.future (x i) h ↔
        PossibleAlong θ₀.rewards.nWagesRaw b θ₀.future (x i) h := by
    intro i h
    unfold PossibleAlong
    rw [hnw]
    simp only [stateAlong_congr hsame]
  have w0 := fun i => f5 i (fun _ y e => levelsProbability θ₀.future y.1 y.2 e) hweights
  have w1 := fun i => g5 i (fun _ y e => levelsProbability θ₀.future y.1 y.2 e) hweights
  simp only [stateAlong_congr hsame] at w1
  have hfm : ∀ i, Measurable fun h => f i h * processesAlong θ₀.future (x i) h := fun i => (f2 i).mul (w0 i).1
  have hgm : ∀ i, Measurable fun h => g i h * processesAlong θ₀.future (x i) h := fun i => (g2 i).mul (w0 i).1
  have hf0 : ∀ i h, 0 ≤ f i h * processesAlong θ₀.future (x i) h := by
    intro i h
    rcases (f3 i h).eq_or_lt with he | hlt
    · rw [← he, zero_mul]
    · exact mul_nonneg hlt.le ((w0 i).2.1 h ((f4 i h).1 hlt))
  have hg0 : ∀ i h, 0 ≤ g i h * processesAlong θ₀.future (x i) h := by
    intro i h
    rcases (g3 i h).eq_or_lt with he | hlt
    · rw [← he, zero_mul]
    · exact mul_nonneg hlt.le ((w0 i).2.1 h ((hcongr i h).1 ((g4 i h).1 hlt)))
  have hft : ∀ i, ∫⁻ h, ENNReal.ofReal (f i h * processesAlong θ₀.future (x i) h)
      ∂processMeasure θ₀.rewards.measError.length E (T i) = 1 := fun i => (w0 i).2.2
  have hgt : ∀ i, ∫⁻ h, ENNReal.ofReal (g i h * processesAlong θ₀.future (x i) h)
      ∂processMeasure θ₀.rewards.measError.length E (T i) = 1 := fun i => (w1 i).2.2
  have hfactors : ∀ i h, 0 < f i h * processesAlong θ₀.future (x i) h →
      0 < f i h ∧ 0 < processesAlong θ₀.future (x i) h ∧ 0 < g i h := by
    intro i h hlt
    have h1 : 0 < f i h := lt_of_le_of_ne (f3 i h) fun he => hlt.ne' (by rw [← he, zero_mul])
    exact ⟨h1, pos_of_mul_pos_right hlt h1.le, (g4 i h).2 ((hcongr i h).2 ((f4 i h).1 h1))⟩
  have haff := fun i => affinity_le_one (hfm i) (hgm i) (hf0 i) (hg0 i) (hft i) (hgt i)
  have : IsProbabilityMeasure Q := hindep.isProbabilityMeasure
  refine ⟨fun i => ∫ h, √((f i h * processesAlong θ₀.future (x i) h) * (g i h * processesAlong θ₀.future (x i) h))
    ∂processMeasure _ E (T i), fun i =>
    ⟨integral_nonneg fun _ => Real.sqrt_nonneg _, (haff i).2.1, (haff i).2.2⟩, fun k => ?_⟩
  obtain ⟨b1, b2⟩ := likelihood_ratio_bounds hX hindep hfm hgm hf0 hg0 hft hgt (fun i h hh => by
    obtain ⟨_, h2, h3⟩ := hfactors i h hh
    exact mul_pos h3 h2) hlaw k
  refine le_trans ?_ (le_min b2 b1)
  have hae : ∀ᵐ ω ∂Q, ∀ i, 0 < f i (X i ω) * processesAlong θ₀.future (x i) (X i ω) :=
    ae_all_iff.2 fun i => density_pos_ae (hX i) (hfm i) (hlaw i)
  refine ENNReal.toReal_mono (measure_ne_top _ _) (measure_mono_ae ?_)
  filter_upwards [hae] with ω hω hle
  have h1 : ∀ i, Real.log (f i (X i ω) * processesAlong θ₀.future (x i) (X i ω)) =
      Real.log (f i (X i ω)) + Real.log (processesAlong θ₀.future (x i) (X i ω)) := fun i =>
    Real.log_mul (hfactors i _ (hω i)).1.ne' (hfactors i _ (hω i)).2.1.ne'
  have h2 : ∀ i, Real.log (g i (X i ω) * processesAlong θ₀.future (x i) (X i ω)) =
      Real.log (g i (X i ω)) + Real.log (processesAlong θ₀.future (x i) (X i ω)) := fun i =>
    Real.log_mul (hfactors i _ (hω i)).2.2.ne' (hfactors i _ (hω i)).2.1.ne'
  show ∑ i, Real.log (f i (X i ω) * processesAlong θ₀.future (x i) (X i ω)) + k ≤
    ∑ i, Real.log (g i (X i ω) * processesAlong θ₀.future (x i) (X i ω))
  have hle' : ∑ i, Real.log (f i (X i ω)) + k ≤ ∑ i, Real.log (g i (X i ω)) := hle
  simp only [h1, h2, Finset.sum_add_distrib]
  linarith

end

end Respy
