import Mathlib.MeasureTheory.Integral.Pi
import Verif.Lemmas.LikelihoodRatio
import Verif.Lemmas.SimulatedShares
import Verif.Props.ChoiceProbability
import Verif.Spec.HistoryLikelihood

/-! Helper lemmas for C113: the likelihoods of histories are densities. -/

open MeasureTheory ProbabilityTheory

namespace Respy

noncomputable section

/-- Choice probabilities are measurable functions of the observed wage. -/
theorem expected_measurable {cs : List Bool} (bound tau delta : ℝ) (nWages : Nat) (L : List (List ℝ))
    (sd w m c : Nat → ℝ) (a : Nat) (ha : cs[a]? = some true) (hv : 0 < shockCov L cs a a + sd a ^ 2) (prob : ℝ → ℝ)
    (hp : ∀ x, IsExpectedChoiceProbability bound tau delta nWages L cs sd w m c a (some x) (prob x)) :
    Measurable prob := by
  obtain ⟨C, hC⟩ := exists_factorGiven L cs a 0 (sd a) hv
  set v := shockCov L cs a a + sd a ^ 2 with hvdef
  let s : Fin (cs.count true) → ℝ := fun i => shockCov L cs a (alternativeAt cs i)
  let g : ℝ → ℝ := fun r => ∫ z, logitAt bound tau delta nWages cs w m c a (fun i => s i * r / v +
      ∑ j, atPositions cs (cs.count true) C i j * z j) ∂normals (cs.count true)
  have h1 : ∀ x, prob x = g (Real.log x - Real.log (w a)) := by
    intro x
    refine expected_unique bound tau delta nWages L sd w m c a ha (some x) _ _ (hp _) ⟨C, hC, ?_⟩
    simp only [logit_given bound tau delta nWages rfl w m c _ _ a ha]
    rfl
  have hmeas : Measurable fun rz : ℝ × (Fin (cs.count true) → ℝ) => logitAt bound tau delta nWages cs w m c a
      (fun i => s i * rz.1 / v + ∑ j, atPositions cs (cs.count true) C i j * rz.2 j) := by
    refine (logitAt_measurable bound tau delta nWages cs w m c a).comp ?_
    fun_prop
  have hg : Measurable g := (hmeas.stronglyMeasurable.integral_prod_right').measurable
  have : prob = fun x => g (Real.log x - Real.log (w a)) := funext h1
  rw [this]
  exact hg.comp (by fun_prop)

instance observedMeasure_sigmaFinite (n : Nat) : SigmaFinite (observedMeasure n) := by
  unfold observedMeasure
  infer_instance

/-- The wages with density in `r` on the positive numbers. -/
theorem lintegral_wages (u : ℝ → ENNReal) (hu : Measurable u) :
    ∫⁻ x, u x ∂(volume.restrict (Set.Ioi (0 : ℝ)) + Measure.dirac 0) = (∫⁻ x in Set.Ioi 0, u x) + u 0 := by
  rw [lintegral_add_measure, lintegral_dirac' _ hu]

/-- The likelihood of an observation in a state is a density. -/
theorem observation_density (bound tau delta : ℝ) (nWages : Nat) (L : List (List ℝ)) (cs : List Bool)
    (sd w m c : Nat → ℝ) (hcs : true ∈ cs)
    (hv : ∀ a < nWages, cs[a]? = some true → 0 < shockCov L cs a a + sd a ^ 2) {n : Nat} (hn : cs.length = n) :
    ∃ f : Fin n × ℝ → ℝ, Measurable f ∧ (∀ y, 0 ≤ f y) ∧
      (∀ y, 0 < f y ↔ PossibleObservation nWages cs y.1 y.2) ∧
      (∀ y, PossibleObservation nWages cs y.1 y.2 → ∃ prob, (∀ q, IsExpectedChoiceProbability bound tau delta nWages L
        cs sd w m c y.1 (if (y.1 : Nat) < nWages then some y.2 else none) q ↔ q = prob) ∧
        f y = prob * densityOf L cs sd w y.1 (if (y.1 : Nat) < nWages then some y.2 else none)) ∧
      ∫⁻ y, ENNReal.ofReal (f y) ∂observedMeasure n = 1 := by
  classical
  subst hn
  obtain ⟨prob, hp, hint, hsum⟩ :=
    C107_distribution_of_choices_and_wages bound tau delta nWages L cs sd w m c hcs hv
  let u : Nat → ℝ → ℝ := fun a x => if cs[a]? = some true then
    (if a < nWages then (if 0 < x then prob a (some x) * densityOf L cs sd w a (some x) else 0)
      else (if x = 0 then prob a none else 0)) else 0
  have hdens : ∀ a < nWages, cs[a]? = some true → ∀ x, 0 < x → 0 < densityOf L cs sd w a (some x) :=
    fun a h ha x hx => wageDensity_pos _ _ _ (hv a h ha) hx
  have hpos : ∀ a x, 0 < u a x ↔ PossibleObservation nWages cs a x := by
    intro a x
    simp only [u, PossibleObservation]
    by_cases ha : cs[a]? = some true
    · rw [if_pos ha]
      by_cases h : a < nWages
      · rw [if_pos h]
        by_cases hx : 0 < x
        · rw [if_pos hx]
          have := mul_pos (hp a ha (some x) fun _ => h).2.1 (hdens a h ha x hx)
          simp only [this, ha, hx, true_and, true_iff]
          exact ⟨fun _ => trivial, fun h' => by omega⟩
        · rw [if_neg hx]
          simp only [lt_irrefl, false_iff]
          exact fun h' => hx (h'.2.1 h)
      · rw [if_neg h]
        by_cases hx : x = 0
        · rw [if_pos hx]
          have := (hp a ha none fun h' => by simp at h').2.1
          simp only [this, ha, hx, true_and, true_iff]
          exact ⟨fun h' => absurd h' h, fun _ => trivial⟩
        · rw [if_neg hx]
          simp only [lt_irrefl, false_iff]
          exact fun h' => hx (h'.2.2 (not_lt.1 h))
    · rw [if_neg ha]
      simp [ha]
  have hnn : ∀ a x, 0 ≤ u a x := by
    intro a x
    by_cases h : PossibleObservation nWages cs a x
    · exact ((hpos a x).2 h).le
    · simp only [u]
      split_ifs with h1 h2 h3 h4
      · exact (mul_pos (hp a h1 (some x) fun _ => h2).2.1 (hdens a h2 h1 x h3)).le
      · exact le_rfl
      · exact (hp a h1 none fun h' => by simp at h').2.1.le
      · exact le_rfl
      · exact le_rfl
  have hmu : ∀ a, Measurable (u a) := by
    intro a
    simp only [u]
    by_cases ha : cs[a]? = some true
    · simp only [if_pos ha]
      by_cases h : a < nWages
      · simp only [if_pos h]
        refine Measurable.ite (measurableSet_lt measurable_const measurable_id) ?_ measurable_const
        refine Measurable.mul (expected_measurable bound tau delta nWages L sd w m c a ha (hv a h ha) _
          fun x => ((hp a ha (some x) fun _ => h).1 _).2 rfl) ?_
        show Measurable fun x => wageDensity _ _ x
        unfold wageDensity
        fun_prop
      · simp only [if_neg h]
        exact Measurable.ite (measurableSet_singleton 0) measurable_const measurable_const
    · simp only [if_neg ha]
      exact measurable_const
  refine ⟨fun y => u y.1 y.2, ?_, fun y => hnn _ _, fun y => hpos _ _, ?_, ?_⟩
  · exact measurable_from_prod_countable_right fun a => hmu a
  · intro y hy
    obtain ⟨ha, hx, hx'⟩ := hy
    by_cases h : (y.1 : Nat) < nWages
    · refine ⟨prob y.1 (some y.2), ?_, ?_⟩
      · rw [if_pos h]
        exact (hp _ ha (some y.2) fun _ => h).1
      · simp only [u, if_pos ha, if_pos h, if_pos (hx h)]
    · refine ⟨prob y.1 none, ?_, ?_⟩
      · rw [if_neg h]
        exact (hp _ ha none fun h' => by simp at h').1
      · simp only [u, if_pos ha, if_neg h, if_pos (hx' (not_lt.1 h)), densityOf, mul_one]
  · have hm : Measurable fun y : Fin cs.length × ℝ => ENNReal.ofReal (u y.1 y.2) :=
      (measurable_from_prod_countable_right (f := fun y : Fin cs.length × ℝ => u y.1 y.2) fun a => hmu a).ennreal_ofReal
    unfold observedMeasure
    rw [lintegral_prod _ hm.aemeasurable, lintegral_count, tsum_fintype]
    have hinner : ∀ a : Fin cs.length, ∫⁻ x, ENNReal.ofReal (u a x) ∂(volume.restrict (Set.Ioi (0 : ℝ)) +
        Measure.dirac 0) = ENNReal.ofReal (if cs[(a : Nat)]? = some true then prob a none else 0) := by
      intro a
      rw [lintegral_wages _ (hmu a).ennreal_ofReal]
      by_cases ha : cs[(a : Nat)]? = some true
      · rw [if_pos ha]
        by_cases h : (a : Nat) < nWages
        · have h0 : u a 0 = 0 := by simp only [u, if_pos ha, if_pos h, lt_irrefl, if_false]
          have hi := hint a h ha
          have hcong : ∫⁻ x in Set.Ioi (0 : ℝ), ENNReal.ofReal (u a x) = ∫⁻ x in Set.Ioi (0 : ℝ),
              ENNReal.ofReal (prob a (some x) * densityOf L cs sd w a (some x)) := by
            refine setLIntegral_congr_fun measurableSet_Ioi fun x hx => ?_
            have hx' : (0 : ℝ) < x := hx
            simp only [u, if_pos ha, if_pos h, if_pos hx']
          have hpn := (hp a ha none fun h' => by simp at h').2.1
          have hintg : IntegrableOn (fun x => prob a (some x) * densityOf L cs sd w a (some x)) (Set.Ioi 0) := by
            by_contra hn
            rw [integral_undef hn] at hi
            exact hpn.ne hi
          rw [h0, ENNReal.ofReal_zero, add_zero, hcong, ← hi, ofReal_integral_eq_lintegral_ofReal hintg]
          rw [Filter.EventuallyLE, ae_restrict_iff' measurableSet_Ioi]
          exact Filter.Eventually.of_forall fun x hx =>
            (mul_pos (hp a ha (some x) fun _ => h).2.1 (hdens a h ha x hx)).le
        · have h0 : u a 0 = prob a none := by simp only [u, if_pos ha, if_neg h, if_true]
          have hz : ∫⁻ x in Set.Ioi (0 : ℝ), ENNReal.ofReal (u a x) = 0 := by
            rw [setLIntegral_congr_fun (g := fun _ => 0) measurableSet_Ioi fun x hx => ?_]
            · simp
            · have hx' : x ≠ 0 := (show (0 : ℝ) < x from hx).ne'
              simp only [u, if_pos ha, if_neg h, if_neg hx', ENNReal.ofReal_zero]
          rw [hz, h0, zero_add]
      · simp only [u, if_neg ha]
        simp
    simp only [hinner]
    rw [← ENNReal.ofReal_sum_of_nonneg, ← overAvailable_fin cs fun a => prob a none,
      expected_sum bound tau delta nWages L sd w m c hcs (fun a => prob a none)
        fun a ha => ((hp a ha none fun h => by simp at h).1 _).2 rfl, ENNReal.ofReal_one]
    intro a _
    split_ifs with ha
    · exact (hp a ha none fun h' => by simp at h').2.1.le
    · exact le_rfl

/-! ### Histories -/

/-- The density of a history if `obs s` is the density of an observation in state `s`. -/
def historyDensity {n : Nat} (obs : CoreState → Fin n × ℝ → ℝ) : (T : Nat) → CoreState → (Fin T → Fin n × ℝ) → ℝ
  | 0, _, _ => 1
  | T + 1, s, h => obs s (h 0) * historyDensity obs T (lawOfMotion s (h 0).1) (Fin.tail h)

theorem coreAlong_succ (s : CoreState) (a : Nat → Nat) (t : Nat) :
    coreAlong s a (t + 1) = coreAlong (lawOfMotion s (a 0)) (fun t => a (t + 1)) t := by
  induction t with
  | zero => rfl
  | succ t ih =>
    rw [coreAlong, ih]
    rfl

theorem choicesOf_zero {n T : Nat} (h : Fin (T + 1) → Fin n × ℝ) : choicesOf h 0 = (h 0).1 := by
  unfold choicesOf
  rw [dif_pos (Nat.succ_pos T)]
  rfl

theorem choicesOf_succ {n T : Nat} (h : Fin (T + 1) → Fin n × ℝ) :
    (fun t => choicesOf h (t + 1)) = choicesOf (Fin.tail h) := by
  funext t
  unfold choicesOf
  by_cases ht : t < T
  · rw [dif_pos ht, dif_pos (Nat.succ_lt_succ ht)]
    rfl
  · rw [dif_neg ht, dif_neg (by omega)]

theorem coreAlong_history {n T : Nat} (s : CoreState) (h : Fin (T + 1) → Fin n × ℝ) (t : Nat) :
    coreAlong s (choicesOf h) (t + 1) = coreAlong (lawOfMotion s (h 0).1) (choicesOf (Fin.tail h)) t := by
  rw [coreAlong_succ, choicesOf_zero, choicesOf_succ]

variable {n : Nat} (obs : CoreState → Fin n × ℝ → ℝ)

theorem historyDensity_prod (T : Nat) (s : CoreState) (h : Fin T → Fin n × ℝ) :
    historyDensity obs T s h = ∏ t : Fin T, obs (coreAlong s (choicesOf h) t) (h t) := by
  induction T generalizing s with
  | zero => simp [historyDensity]
  | succ T ih =>
    rw [Fin.prod_univ_succ, historyDensity, ih]
    congr 1
    refine Finset.prod_congr rfl fun t _ => ?_
    rw [Fin.val_succ, coreAlong_history]
    rfl

theorem historyDensity_measurable (hm : ∀ s, Measurable (obs s)) (T : Nat) (s : CoreState) :
    Measurable (historyDensity obs T s) := by
  induction T generalizing s with
  | zero => exact measurable_const
  | succ T ih =>
    have h1 : Measurable fun y : Fin n × (Fin T → Fin n × ℝ) => historyDensity obs T (lawOfMotion s y.1) y.2 :=
      measurable_from_prod_countable_right fun a => ih (lawOfMotion s a)
    have h2 : Measurable fun h : Fin (T + 1) → Fin n × ℝ => ((h 0).1, Fin.tail h) := by
      refine Measurable.prodMk (measurable_fst.comp (measurable_pi_apply 0)) ?_
      exact measurable_pi_lambda _ fun t => measurable_pi_apply _
    exact ((hm s).comp (measurable_pi_apply 0)).mul (h1.comp h2)

theorem historyDensity_nonneg (h0 : ∀ s y, 0 ≤ obs s y) (T : Nat) (s : CoreState) (h : Fin T → Fin n × ℝ) :
    0 ≤ historyDensity obs T s h := by
  rw [historyDensity_prod]
  exact Finset.prod_nonneg fun t _ => h0 _ _

instance historyMeasure_sigmaFinite (T : Nat) : SigmaFinite (historyMeasure n T) := by
  unfold historyMeasure
  infer_instance

/-- If observations have densities in all states which can be reached, so have histories. -/
theorem historyDensity_total (hm : ∀ s, Measurable (obs s)) (h0 : ∀ s y, 0 ≤ obs s y) (Good : Nat → CoreState → Prop)
    (htotal : ∀ T s, Good (T + 1) s → ∫⁻ y, ENNReal.ofReal (obs s y) ∂observedMeasure n = 1)
    (hnext : ∀ T s, Good (T + 1) s → ∀ y, 0 < obs s y → Good T (lawOfMotion s y.1)) (T : Nat) (s : CoreState)
    (hs : Good T s) : ∫⁻ h, ENNReal.ofReal (historyDensity obs T s h) ∂historyMeasure n T = 1 := by
  induction T generalizing s with
  | zero =>
    simp only [historyDensity, ENNReal.ofReal_one, lintegral_one, historyMeasure, Measure.pi_univ]
    simp
  | succ T ih =>
    have hpres := measurePreserving_piFinSuccAbove (fun _ : Fin (T + 1) => observedMeasure n) 0
    let G : (Fin n × ℝ) × (Fin T → Fin n × ℝ) → ENNReal := fun yh =>
      ENNReal.ofReal (obs s yh.1) * ENNReal.ofReal (historyDensity obs T (lawOfMotion s yh.1.1) yh.2)
    have hG : Measurable G := by
      refine Measurable.mul ((hm s).comp measurable_fst).ennreal_ofReal (Measurable.ennreal_ofReal ?_)
      have h1 : Measurable fun y : Fin n × (Fin T → Fin n × ℝ) => historyDensity obs T (lawOfMotion s y.1) y.2 :=
        measurable_from_prod_countable_right fun a => historyDensity_measurable obs hm T (lawOfMotion s a)
      exact h1.comp ((measurable_fst.comp measurable_fst).prodMk measurable_snd)
    have h1 : ∫⁻ h, ENNReal.ofReal (historyDensity obs (T + 1) s h) ∂historyMeasure n (T + 1) =
        ∫⁻ yh, G yh ∂(observedMeasure n).prod (historyMeasure n T) := by
      have h2 := hpres.lintegral_comp hG
      unfold historyMeasure
      rw [← h2]
      refine lintegral_congr fun h => ?_
      rw [historyDensity, ENNReal.ofReal_mul (h0 _ _)]
      rfl
    rw [h1, lintegral_prod _ hG.aemeasurable, ← htotal T s hs]
    refine lintegral_congr fun y => ?_
    have h3 : ∫⁻ h, G (y, h) ∂historyMeasure n T = ENNReal.ofReal (obs s y) *
        ∫⁻ h, ENNReal.ofReal (historyDensity obs T (lawOfMotion s y.1) h) ∂historyMeasure n T := by
      simp only [G]
      exact lintegral_const_mul _ (historyDensity_measurable obs hm T (lawOfMotion s y.1)).ennreal_ofReal
    rw [h3]
    rcases (h0 s y).eq_or_lt with hy | hy
    · rw [← hy]
      simp
    · rw [ih _ (hnext T s hs y hy), mul_one]

/-! ### Events -/

/-- Integrals over one choice. -/
theorem lintegral_choice (a : Fin n) (B : Set ℝ) (φ : Fin n × ℝ → ENNReal) (hφ : Measurable φ) :
    ∫⁻ y in {a} ×ˢ B, φ y ∂observedMeasure n = ∫⁻ x in B, φ (a, x) ∂(volume.restrict (Set.Ioi 0) + Measure.dirac 0) := by
  unfold observedMeasure
  rw [← Measure.prod_restrict, lintegral_prod _ hφ.aemeasurable, Measure.restrict_singleton, Measure.count_singleton,
    one_smul, lintegral_dirac]

/-- Integrals over one choice with positive wages. -/
theorem lintegral_choice_wages (a : Fin n) (B : Set ℝ) (hB : MeasurableSet B) (hpos : B ⊆ Set.Ioi 0)
    (φ : Fin n × ℝ → ENNReal) (hφ : Measurable φ) :
    ∫⁻ y in {a} ×ˢ B, φ y ∂observedMeasure n = ∫⁻ x in B, φ (a, x) := by
  have h0 : (0 : ℝ) ∉ B := fun h => lt_irrefl (0 : ℝ) (hpos h)
  classical
  rw [lintegral_choice a B φ hφ, Measure.restrict_add, lintegral_add_measure, Measure.restrict_restrict hB,
    Set.inter_eq_left.2 hpos, setLIntegral_dirac' (f := fun x => φ (a, x))
      (hφ.comp measurable_prodMk_left) hB, if_neg h0, add_zero]

/-- Integrals over one choice with all wages. -/
theorem lintegral_choice_all (a : Fin n) (φ : Fin n × ℝ → ENNReal) (hφ : Measurable φ) :
    ∫⁻ y in {a} ×ˢ Set.univ, φ y ∂observedMeasure n = (∫⁻ x in Set.Ioi 0, φ (a, x)) + φ (a, 0) := by
  rw [lintegral_choice a _ φ hφ, Measure.restrict_univ,
    lintegral_wages (fun x => φ (a, x)) (hφ.comp measurable_prodMk_left)]

theorem coreAlong_congr (s : CoreState) (a a' : Nat → Nat) (t : Nat) (h : ∀ k < t, a k = a' k) :
    coreAlong s a t = coreAlong s a' t := by
  induction t with
  | zero => rfl
  | succ t ih =>
    rw [coreAlong, coreAlong, ih fun k hk => h k (by omega), h t (by omega)]

/-- The probability of a history is the product of the probabilities of its observations. -/
theorem historyDensity_event (T : Nat) (s : CoreState) (a : Nat → Nat) (S : Fin T → Set (Fin n × ℝ))
    (hS : ∀ t, MeasurableSet (S t)) (ha : ∀ t, ∀ y ∈ S t, (y.1 : Nat) = a t) :
    ∫ h in Set.univ.pi S, historyDensity obs T s h ∂historyMeasure n T =
      ∏ t : Fin T, ∫ y in S t, obs (coreAlong s a t) y ∂observedMeasure n := by
  have h1 : ∫ h in Set.univ.pi S, historyDensity obs T s h ∂historyMeasure n T =
      ∫ h in Set.univ.pi S, ∏ t : Fin T, obs (coreAlong s a t) (h t) ∂historyMeasure n T := by
    refine setIntegral_congr_fun (MeasurableSet.univ_pi hS) fun h hh => ?_
    show historyDensity obs T s h = _
    rw [historyDensity_prod]
    refine Finset.prod_congr rfl fun t _ => ?_
    rw [coreAlong_congr s (choicesOf h) a t fun k hk => ?_]
    unfold choicesOf
    rw [dif_pos (hk.trans t.2)]
    exact ha ⟨k, hk.trans t.2⟩ _ (hh ⟨k, hk.trans t.2⟩ (Set.mem_univ _))
  rw [h1]
  unfold historyMeasure
  rw [Measure.restrict_pi_pi, integral_fintype_prod_eq_prod]

/-- The integral of the likelihood of an observation over a choice and a set of wages is its probability. -/
theorem observation_event (p : RewardParams ℝ) (tau : ℝ) (cs : List Bool) (w m c : Nat → ℝ) (hcs : true ∈ cs)
    (hv : ∀ a < p.nWagesRaw, cs[a]? = some true → 0 < shockCov p.cholesky cs a a + p.measError.getD a 0 ^ 2)
    (f : Fin n × ℝ → ℝ) (hm : Measurable f) (h0 : ∀ y, 0 ≤ f y)
    (hpos : ∀ y, 0 < f y ↔ PossibleObservation p.nWagesRaw cs y.1 y.2)
    (hval : ∀ y, PossibleObservation p.nWagesRaw cs y.1 y.2 → ∃ prob, (∀ q, IsExpectedChoiceProbability p.hi tau
      p.betaDelta p.nWagesRaw p.cholesky cs (fun b => p.measError.getD b 0) w m c y.1
        (if (y.1 : Nat) < p.nWagesRaw then some y.2 else none) q ↔ q = prob) ∧
      f y = prob * densityOf p.cholesky cs (fun b => p.measError.getD b 0) w y.1
        (if (y.1 : Nat) < p.nWagesRaw then some y.2 else none))
    (a : Fin n) (ha : cs[(a : Nat)]? = some true) (O : Option (Set ℝ))
    (hO : ∀ B, O = some B → (a : Nat) < p.nWagesRaw ∧ MeasurableSet B ∧ B ⊆ Set.Ioi 0) (l : ℝ)
    (hl : IsObservedProbability p tau cs w m c a O l) :
    ∫ y in {a} ×ˢ (O.getD Set.univ), f y ∂observedMeasure n = l := by
  have hreal : ∀ S, ∫ y in S, f y ∂observedMeasure n = (∫⁻ y in S, ENNReal.ofReal (f y) ∂observedMeasure n).toReal :=
    fun S => integral_eq_lintegral_of_nonneg_ae (Filter.Eventually.of_forall h0) hm.aestronglyMeasurable
  have hzero : ∀ y, ¬ PossibleObservation p.nWagesRaw cs y.1 y.2 → f y = 0 := fun y hy =>
    le_antisymm (not_lt.1 fun h => hy ((hpos y).1 h)) (h0 y)
  have hma : Measurable fun x => f (a, x) := hm.comp measurable_prodMk_left
  -- densities for positive wages
  have hwage : ∀ (h : (a : Nat) < p.nWagesRaw) (prob : ℝ → ℝ), (∀ x, 0 < x → IsExpectedChoiceProbability p.hi tau
      p.betaDelta p.nWagesRaw p.cholesky cs (fun b => p.measError.getD b 0) w m c a (some x) (prob x)) →
      ∀ B, MeasurableSet B → B ⊆ Set.Ioi 0 → (∫⁻ x in B, ENNReal.ofReal (f (a, x))).toReal =
        ∫ x in B, prob x * densityOf p.cholesky cs (fun b => p.measError.getD b 0) w a (some x) := by
    intro h prob hprob B hB hBpos
    rw [← integral_eq_lintegral_of_nonneg_ae (Filter.Eventually.of_forall fun x => h0 _) hma.aestronglyMeasurable]
    refine setIntegral_congr_fun hB fun x hx => ?_
    have hx' : (0 : ℝ) < x := hBpos hx
    obtain ⟨q, h1, h2⟩ := hval (a, x) ⟨ha, fun _ => hx', fun h' => absurd h (not_lt.2 h')⟩
    simp only [if_pos h] at h1 h2
    show f (a, x) = _
    rw [h2, (h1 _).1 (hprob x hx')]
  rw [hreal]
  cases O with
  | some B =>
    obtain ⟨h1, h2, h3⟩ := hO B rfl
    obtain ⟨prob, h4, rfl⟩ := hl
    show (∫⁻ y in {a} ×ˢ B, _ ∂_).toReal = _
    rw [lintegral_choice_wages a B h2 h3 _ hm.ennreal_ofReal, hwage h1 prob (fun x _ => h4 x) B h2 h3]
  | none =>
    show (∫⁻ y in {a} ×ˢ Set.univ, _ ∂_).toReal = _
    rw [lintegral_choice_all a _ hm.ennreal_ofReal]
    obtain ⟨prob, hp, hint, _⟩ := C107_distribution_of_choices_and_wages p.hi tau p.betaDelta p.nWagesRaw p.cholesky cs
      (fun b => p.measError.getD b 0) w m c hcs hv
    have hln : l = prob a none := ((hp a ha none fun h => by simp at h).1 l).1 hl
    by_cases h : (a : Nat) < p.nWagesRaw
    · rw [hzero (a, 0) fun h' => lt_irrefl (0 : ℝ) (h'.2.1 h), ENNReal.ofReal_zero, add_zero,
        hwage h (fun x => prob a (some x)) (fun x _ => ((hp a ha (some x) fun _ => h).1 _).2 rfl) _ measurableSet_Ioi
          subset_rfl, hint a h ha, hln]
    · have hz : ∫⁻ x in Set.Ioi (0 : ℝ), ENNReal.ofReal (f (a, x)) = 0 := by
        rw [setLIntegral_congr_fun (g := fun _ => 0) measurableSet_Ioi fun x hx => ?_]
        · simp
        · have hx' : (0 : ℝ) < x := hx
          rw [hzero (a, x) fun h' => hx'.ne' (h'.2.2 (not_lt.1 h)), ENNReal.ofReal_zero]
      obtain ⟨q, h1, h2⟩ := hval (a, 0) ⟨ha, fun h' => absurd h' h, fun _ => rfl⟩
      simp only [if_neg h, densityOf, mul_one] at h1 h2
      rw [hz, zero_add, ENNReal.toReal_ofReal (h0 _), h2]
      exact ((h1 l).1 hl).symm

end

end Respy
