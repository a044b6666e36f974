import Verif.Lemmas.SimulatedShares
import Verif.Lemmas.SimulateTotal

/-!
# Simulated choices and wages and the likelihood

C108: the distribution of simulated choices and wages of individuals in a state is the one of the likelihood, up to
smoothing, ties and bounds of the exponential function.
-/

open MeasureTheory ProbabilityTheory

namespace Respy

noncomputable section

variable {p : RewardParams ℝ} {cs : List Bool} {w m c : Nat → ℝ}

theorem map_validChoices_get (f : Nat → ℝ) (b : Nat) (hb : cs[b]? = some true) :
    ((validChoices cs).map f)[positionIn cs b]? = some (f b) := by
  rw [List.getElem?_map, validChoices_positionIn cs b hb]; rfl

/-- What is simulated with given random numbers. -/
theorem simulated_best (h : SimulatesState p cs) (z y : Fin cs.length → ℝ) :
    ∃ o, simulateIndividual p cs ((validChoices cs).map w) ((validChoices cs).map m) ((validChoices cs).map c)
        (List.ofFn z) (List.ofFn y) = some o ∧ cs[o.choice]? = some true ∧
      (∀ b, cs[b]? = some true → utilityWith p cs w m c (numbersOf z) b ≤ utilityWith p cs w m c (numbersOf z) o.choice) ∧
      o.wage = if o.choice < p.nWagesRaw then some (w o.choice *
        shockOf Real.exp p.lo p.hi p.cholesky p.nWagesRaw cs (numbersOf z) o.choice *
          Real.exp (numbersOf y o.choice * p.measError.getD o.choice 0)) else none := by
  have hlen : ∀ f : Nat → ℝ, ((validChoices cs).map f).length = cs.count true := fun f => by
    rw [List.length_map, length_validChoices]
  obtain ⟨o, ho⟩ := simulateIndividual_total p cs ((validChoices cs).map w) ((validChoices cs).map m)
    ((validChoices cs).map c) (List.ofFn z) (List.ofFn y) h.rows h.columns h.errors (by simp) (by simp) (hlen _) (hlen _)
    (hlen _) (List.count_pos_iff.2 h.available)
  obtain ⟨a, wa, ⟨v, ⟨ha, ma, ca, h1, h2, h3, h4⟩, h5⟩, h6, h7, _⟩ := simulateIndividual_spec p cs _ _ _ _ _ o ho
  have hch : o.choice = a := by rw [h7]; exact (remap_validChoices_iff cs a ha).2 (h.codes a ha)
  rw [map_validChoices_get w a ha] at h1
  rw [map_validChoices_get m a ha] at h2
  rw [map_validChoices_get c a ha] at h3
  cases h1
  cases h2
  cases h3
  refine ⟨o, ho, by rw [hch]; exact ha, fun b hb => ?_, ?_⟩
  · rw [hch]
    have := (h5 b (w b) _ ⟨hb, m b, c b, map_validChoices_get w b hb, map_validChoices_get m b hb,
      map_validChoices_get c b hb, rfl⟩).1
    rw [h4] at this
    exact this
  · rw [h6, hch, wageOf, h.exp]
    simp only [List.getD_eq_getElem?_getD]
    rfl

/-- The values with the shocks of the likelihood are those of the simulation unless a shock is out of bounds. -/
theorem likelihoodValue_eq (h : p.exp = Real.exp) (z : Nat → ℝ)
    (hz : ¬ OutOfBounds p.lo p.hi p.cholesky p.nWagesRaw cs z) (b : Nat) (hb : cs[b]? = some true) :
    likelihoodValue p.hi p.betaDelta p.nWagesRaw p.cholesky cs w m c z b = utilityWith p cs w m c z b := by
  unfold likelihoodValue utilityWith shockOf
  rw [h]
  by_cases hw : b < p.nWagesRaw
  · have h1 : p.lo ≤ latentShock p.cholesky cs z b ∧ latentShock p.cholesky cs z b ≤ p.hi := by
      by_contra hcon
      exact hz ⟨b, hw, hb, hcon⟩
    rw [if_pos hw, if_pos hw, max_eq_left h1.1]
  · rw [if_neg hw, if_neg hw]

variable {Ω : Type} [MeasurableSpace Ω] (Q : Measure Ω) [IsProbabilityMeasure Q] {Z Y : Ω → Fin cs.length → ℝ}

/-- The smoothed indicator of a choice. -/
theorem leads_or (u u' : Nat → ℝ) (hu : ∀ b, cs[b]? = some true → u' b = u b) {tau κ : ℝ} (ht : 0 < tau) (hκ : 0 < κ)
    (hdec : ¬ Undecided κ cs u) {best : Nat} (hbest : cs[best]? = some true)
    (hmax : ∀ b, cs[b]? = some true → u b ≤ u best) (a : Nat) (ha : cs[a]? = some true) :
    (best = a → 1 - cs.count true * Real.exp (-κ / tau) ≤ logitOf tau cs u' a) ∧
      (best ≠ a → logitOf tau cs u' a ≤ cs.count true * Real.exp (-κ / tau)) := by
  rw [logitOf_congr tau u' u hu a ha]
  unfold Undecided at hdec
  push Not at hdec
  obtain ⟨l, hl, hlead⟩ := hdec
  have hlb : l = best := by
    by_contra hne
    have h1 := hlead best (Ne.symm hne) hbest
    have h2 := hmax l hl
    linarith
  subst hlb
  refine ⟨fun he => ?_, fun hne => ?_⟩
  · subst he
    exact logitOf_leading tau κ ht u l hl fun b hb hb' => hlead b hb hb'
  · have h1 := logitOf_behind tau κ ht u l a hl (hlead a (Ne.symm hne) ha)
    have h2 : (1 : ℝ) ≤ cs.count true := by
      exact_mod_cast List.count_pos_iff.2 (List.mem_of_getElem? ha)
    have := Real.exp_pos (-κ / tau)
    nlinarith

omit [IsProbabilityMeasure Q] in
theorem marginal_numbers (hZ : SimulationNumbers Q Z Y) : Q.map Z = normals cs.length := by
  have h1 : Z = Prod.fst ∘ fun ω => (Z ω, Y ω) := rfl
  rw [h1, ← Measure.map_map measurable_fst hZ.measurable, hZ.law, Measure.map_fst_prod]
  simp

/-- C108: the share of individuals in a state with choice `a` in simulations differs from the choice probability of the
likelihood at most by the probability that shocks are out of bounds or the two best alternatives are closer than `κ`,
and by the smoothing. -/
theorem C108_shares_of_choices (h : SimulatesState p cs) (hZ : SimulationNumbers Q Z Y) {tau κ : ℝ} (ht : 0 < tau)
    (hκ : 0 < κ) (a : Nat) (ha : cs[a]? = some true) (prob : ℝ) (sd : Nat → ℝ)
    (hp : IsExpectedChoiceProbability p.hi tau p.betaDelta p.nWagesRaw p.cholesky cs sd w m c a none prob) :
    |Q.real {ω | ∃ o, simulateIndividual p cs ((validChoices cs).map w) ((validChoices cs).map m)
        ((validChoices cs).map c) (List.ofFn (Z ω)) (List.ofFn (Y ω)) = some o ∧ o.choice = a} - prob| ≤
      Q.real {ω | OutOfBounds p.lo p.hi p.cholesky p.nWagesRaw cs (numbersOf (Z ω)) ∨
        Undecided κ cs (utilityWith p cs w m c (numbersOf (Z ω)))} + cs.count true * Real.exp (-κ / tau) := by
  have hZm : Measurable Z := measurable_fst.comp hZ.measurable
  have hm := likelihoodLogit_measurable p.hi tau p.betaDelta p.nWagesRaw p.cholesky w m c a ha
  have hint : prob = ∫ ω, logitOf tau cs (likelihoodValue p.hi p.betaDelta p.nWagesRaw p.cholesky cs w m c
      (numbersOf (Z ω))) a ∂Q := by
    rw [expected_choice p.hi tau p.betaDelta p.nWagesRaw p.cholesky sd w m c a ha prob hp, ← marginal_numbers Q hZ,
      integral_map hZm.aemeasurable hm.aestronglyMeasurable]
  rw [hint]
  refine measure_close Q _ (hm.comp hZm) (fun ω => ?_) _ _ _ (by positivity) (fun ω hT hS => ?_) (fun ω hT hS => ?_)
  · have := logitOf_bounds tau (likelihoodValue p.hi p.betaDelta p.nWagesRaw p.cholesky cs w m c (numbersOf (Z ω))) a ha
    exact ⟨this.1.le, this.2⟩
  · simp only [Set.mem_ofPred_eq, not_or] at hT
    obtain ⟨o, ho, h1, h2, _⟩ := simulated_best (w := w) (m := m) (c := c) h (Z ω) (Y ω)
    obtain ⟨o', ho', hc⟩ := hS
    rw [ho] at ho'
    cases ho'
    exact (leads_or _ _ (fun b hb => likelihoodValue_eq h.exp _ hT.1 b hb) ht hκ hT.2 h1 h2 a ha).1 hc
  · simp only [Set.mem_ofPred_eq, not_or] at hT
    obtain ⟨o, ho, h1, h2, _⟩ := simulated_best (w := w) (m := m) (c := c) h (Z ω) (Y ω)
    exact (leads_or _ _ (fun b hb => likelihoodValue_eq h.exp _ hT.1 b hb) ht hκ hT.2 h1 h2 a ha).2
      fun hc => hS ⟨o, ho, hc⟩

/-- C108: the share of individuals in a state with choice `a` and a wage in `B` in simulations differs from the integral
of the likelihood over `B`, the choice probability times the density of the wage, at most by the same terms. -/
theorem C108_shares_of_choices_and_wages (h : SimulatesState p cs) (hZ : SimulationNumbers Q Z Y) {tau κ : ℝ}
    (ht : 0 < tau) (hκ : 0 < κ) (a : Nat) (ha : cs[a]? = some true) (hwage : a < p.nWagesRaw) (hw : 0 < w a)
    (hv : 0 < shockCov p.cholesky cs a a + p.measError.getD a 0 ^ 2) (prob : ℝ → ℝ)
    (hp : ∀ x, IsExpectedChoiceProbability p.hi tau p.betaDelta p.nWagesRaw p.cholesky cs (fun b => p.measError.getD b 0)
      w m c a (some x) (prob x)) (B : Set ℝ) (hB : MeasurableSet B) (hB0 : B ⊆ Set.Ioi 0) :
    |Q.real {ω | ∃ o, simulateIndividual p cs ((validChoices cs).map w) ((validChoices cs).map m)
        ((validChoices cs).map c) (List.ofFn (Z ω)) (List.ofFn (Y ω)) = some o ∧ o.choice = a ∧
          ∃ x ∈ B, o.wage = some x} -
        ∫ x in B, prob x * densityOf p.cholesky cs (fun b => p.measError.getD b 0) w a (some x)| ≤
      Q.real {ω | OutOfBounds p.lo p.hi p.cholesky p.nWagesRaw cs (numbersOf (Z ω)) ∨
        Undecided κ cs (utilityWith p cs w m c (numbersOf (Z ω)))} + cs.count true * Real.exp (-κ / tau) := by
  obtain ⟨hlt, _⟩ := List.getElem?_eq_some_iff.1 ha
  have hm := likelihoodLogit_measurable p.hi tau p.betaDelta p.nWagesRaw p.cholesky w m c a ha
  set sd := p.measError.getD a 0 with hsd
  let F : (Fin cs.length → ℝ) × ℝ → ℝ := fun zy => B.indicator (fun _ => (1 : ℝ))
    (w a * Real.exp (latentShock p.cholesky cs (numbersOf zy.1) a + sd * zy.2)) *
      logitOf tau cs (likelihoodValue p.hi p.betaDelta p.nWagesRaw p.cholesky cs w m c (numbersOf zy.1)) a
  have hFm : Measurable F := by
    refine ((measurable_const.indicator hB).comp ?_).mul (hm.comp measurable_fst)
    have := (latentShock_measurable (cs := cs) p.cholesky a).comp
      (measurable_fst : Measurable (Prod.fst : (Fin cs.length → ℝ) × ℝ → _))
    have h2 : Measurable fun zy : (Fin cs.length → ℝ) × ℝ => latentShock p.cholesky cs (numbersOf zy.1) a := this
    fun_prop
  have hYm : Measurable fun ω => (Z ω, Y ω ⟨a, hlt⟩) :=
    (measurable_id.prodMap (measurable_pi_apply _)).comp hZ.measurable
  have hlaw : Q.map (fun ω => (Z ω, Y ω ⟨a, hlt⟩)) = (normals cs.length).prod (gaussianReal 0 1) := by
    have h1 : (fun ω => (Z ω, Y ω ⟨a, hlt⟩)) = (Prod.map id (Function.eval ⟨a, hlt⟩)) ∘ fun ω => (Z ω, Y ω) := rfl
    rw [h1, ← Measure.map_map (measurable_id.prodMap (measurable_pi_apply _)) hZ.measurable, hZ.law]
    exact ((MeasurePreserving.id _).prod (measurePreserving_eval (fun _ : Fin cs.length => gaussianReal 0 1)
      ⟨a, hlt⟩)).map_eq
  have hint : ∫ x in B, prob x * densityOf p.cholesky cs (fun b => p.measError.getD b 0) w a (some x) =
      ∫ ω, F (Z ω, Y ω ⟨a, hlt⟩) ∂Q := by
    rw [← integral_map (f := F) hYm.aemeasurable hFm.aestronglyMeasurable, hlaw]
    exact expected_joint p.hi tau p.betaDelta p.nWagesRaw p.cholesky (fun b => p.measError.getD b 0) w m c a ha hw hv prob
      hp B hB hB0
  rw [hint]
  have hlb := fun ω => logitOf_bounds tau
    (likelihoodValue p.hi p.betaDelta p.nWagesRaw p.cholesky cs w m c (numbersOf (Z ω))) a ha
  have hrec : ∀ ω (o : Outcome ℝ), ¬ OutOfBounds p.lo p.hi p.cholesky p.nWagesRaw cs (numbersOf (Z ω)) → o.choice = a →
      (o.wage = if o.choice < p.nWagesRaw then some (w o.choice *
        shockOf Real.exp p.lo p.hi p.cholesky p.nWagesRaw cs (numbersOf (Z ω)) o.choice *
          Real.exp (numbersOf (Y ω) o.choice * p.measError.getD o.choice 0)) else none) →
      o.wage = some (w a * Real.exp (latentShock p.cholesky cs (numbersOf (Z ω)) a + sd * Y ω ⟨a, hlt⟩)) := by
    intro ω o hb hc ho
    rw [ho, hc, if_pos hwage]
    have h1 : p.lo ≤ latentShock p.cholesky cs (numbersOf (Z ω)) a ∧ latentShock p.cholesky cs (numbersOf (Z ω)) a ≤ p.hi := by
      by_contra hcon
      exact hb ⟨a, hwage, ha, hcon⟩
    have h2 : numbersOf (Y ω) a = Y ω ⟨a, hlt⟩ := by simp [numbersOf, hlt]
    rw [shockOf, if_pos hwage, max_eq_left h1.1, min_eq_left h1.2, h2, mul_assoc, ← Real.exp_add, mul_comm sd]
  refine measure_close Q (fun ω => F (Z ω, Y ω ⟨a, hlt⟩)) (hFm.comp hYm) (fun ω => ?_) _ _ _ (by positivity)
    (fun ω hT hS => ?_) (fun ω hT hS => ?_)
  · simp only [F, Set.indicator]
    have := hlb ω
    split
    · rw [one_mul]; exact ⟨this.1.le, this.2⟩
    · rw [zero_mul]; exact ⟨le_rfl, zero_le_one⟩
  · simp only [Set.mem_ofPred_eq, not_or] at hT
    obtain ⟨o, ho, h1, h2, h3⟩ := simulated_best (w := w) (m := m) (c := c) h (Z ω) (Y ω)
    obtain ⟨o', ho', hc, x, hx, hox⟩ := hS
    rw [ho] at ho'
    cases ho'
    have h4 := hrec ω o hT.1 hc h3
    rw [hox] at h4
    cases h4
    simp only [F]
    rw [Set.indicator_of_mem hx, one_mul]
    exact (leads_or _ _ (fun b hb => likelihoodValue_eq h.exp _ hT.1 b hb) ht hκ hT.2 h1 h2 a ha).1 hc
  · simp only [Set.mem_ofPred_eq, not_or] at hT
    obtain ⟨o, ho, h1, h2, h3⟩ := simulated_best (w := w) (m := m) (c := c) h (Z ω) (Y ω)
    have hδ : 0 ≤ (cs.count true : ℝ) * Real.exp (-κ / tau) := by positivity
    simp only [F, Set.indicator]
    split
    · rename_i hx
      rw [one_mul]
      exact (leads_or _ _ (fun b hb => likelihoodValue_eq h.exp _ hT.1 b hb) ht hκ hT.2 h1 h2 a ha).2
        fun hc => hS ⟨o, ho, hc, _, hx, hrec ω o hT.1 hc h3⟩
    · rw [zero_mul]
      exact hδ

/-! ### Small smoothing parameters -/

omit [IsProbabilityMeasure Q] in
theorem utilityWith_measurable (hexp : p.exp = Real.exp) (hZ : SimulationNumbers Q Z Y) (b : Nat) :
    Measurable fun ω => utilityWith p cs w m c (numbersOf (Z ω)) b := by
  have hZm : Measurable Z := measurable_fst.comp hZ.measurable
  have h1 : Measurable fun ω => latentShock p.cholesky cs (numbersOf (Z ω)) b :=
    (latentShock_measurable (cs := cs) p.cholesky b).comp hZm
  unfold utilityWith shockOf
  rw [hexp]
  split
  · have h2 := (h1.max (measurable_const (a := p.lo))).min (measurable_const (a := p.hi))
    fun_prop
  · fun_prop

omit [IsProbabilityMeasure Q] in
theorem outOfBounds_measurable (hZ : SimulationNumbers Q Z Y) :
    MeasurableSet {ω | OutOfBounds p.lo p.hi p.cholesky p.nWagesRaw cs (numbersOf (Z ω))} := by
  have hZm : Measurable Z := measurable_fst.comp hZ.measurable
  have h1 : ∀ b, Measurable fun ω => latentShock p.cholesky cs (numbersOf (Z ω)) b := fun b =>
    (latentShock_measurable (cs := cs) p.cholesky b).comp hZm
  have h2 : {ω | OutOfBounds p.lo p.hi p.cholesky p.nWagesRaw cs (numbersOf (Z ω))} =
      ⋃ b : Nat, ⋃ _ : b < p.nWagesRaw ∧ cs[b]? = some true,
        ({ω | p.lo ≤ latentShock p.cholesky cs (numbersOf (Z ω)) b} ∩
          {ω | latentShock p.cholesky cs (numbersOf (Z ω)) b ≤ p.hi})ᶜ := by
    ext ω
    simp only [OutOfBounds, Set.mem_ofPred_eq, Set.mem_iUnion, exists_prop, and_assoc, Set.mem_compl_iff, Set.mem_inter_iff]
  rw [h2]
  exact MeasurableSet.iUnion fun b => MeasurableSet.iUnion fun _ =>
    ((measurableSet_le measurable_const (h1 b)).inter (measurableSet_le (h1 b) measurable_const)).compl

omit [IsProbabilityMeasure Q] in
theorem undecided_measurable (hexp : p.exp = Real.exp) (hZ : SimulationNumbers Q Z Y) (κ : ℝ) :
    MeasurableSet {ω | Undecided κ cs (utilityWith p cs w m c (numbersOf (Z ω)))} := by
  have h1 := fun b => utilityWith_measurable (w := w) (m := m) (c := c) Q hexp hZ b
  have : {ω | Undecided κ cs (utilityWith p cs w m c (numbersOf (Z ω)))} =
      ⋂ a : Nat, ⋂ _ : cs[a]? = some true, ⋃ b : Nat, ⋃ _ : b ≠ a ∧ cs[b]? = some true,
        {ω | utilityWith p cs w m c (numbersOf (Z ω)) a < utilityWith p cs w m c (numbersOf (Z ω)) b + κ} := by
    ext ω
    simp only [Undecided, Set.mem_ofPred_eq, Set.mem_iInter, Set.mem_iUnion, exists_prop, and_assoc]
  rw [this]
  exact MeasurableSet.iInter fun a => MeasurableSet.iInter fun _ => MeasurableSet.iUnion fun b =>
    MeasurableSet.iUnion fun _ => measurableSet_lt (h1 a) ((h1 b).add_const κ)

/-- With ever smaller margins, only ties remain undecided. -/
theorem tied_of_undecided (u : Nat → ℝ) (h : ∀ n : Nat, Undecided (1 / (n + 1)) cs u) : Tied cs u := by
  intro a ha
  by_contra hcon
  push Not at hcon
  have hex : ∃ n : Nat, ∀ b, b ≠ a → cs[b]? = some true → u b + 1 / ((n : ℝ) + 1) ≤ u a := by
    have h1 : ∀ l : List Nat, ∃ n : Nat, ∀ b ∈ l, b ≠ a → cs[b]? = some true → u b + 1 / ((n : ℝ) + 1) ≤ u a := by
      intro l
      induction l with
      | nil => exact ⟨0, by simp⟩
      | cons b l ih =>
        obtain ⟨n, hn⟩ := ih
        by_cases hb : b ≠ a ∧ cs[b]? = some true
        · obtain ⟨k, hk⟩ := exists_nat_one_div_lt (sub_pos.2 (hcon b hb.1 hb.2))
          refine ⟨max n k, fun b' hb' h1 h2 => ?_⟩
          have hn' : 1 / (((max n k : Nat) : ℝ) + 1) ≤ 1 / ((n : ℝ) + 1) :=
            one_div_le_one_div_of_le (by positivity) (by push_cast; linarith [le_max_left (n : ℝ) k])
          have hk' : 1 / (((max n k : Nat) : ℝ) + 1) ≤ 1 / ((k : ℝ) + 1) :=
            one_div_le_one_div_of_le (by positivity) (by push_cast; linarith [le_max_right (n : ℝ) k])
          rcases List.mem_cons.1 hb' with rfl | hb'
          · linarith
          · linarith [hn b' hb' h1 h2]
        · refine ⟨n, fun b' hb' h1 h2 => ?_⟩
          rcases List.mem_cons.1 hb' with rfl | hb'
          · exact absurd ⟨h1, h2⟩ hb
          · exact hn b' hb' h1 h2
    obtain ⟨n, hn⟩ := h1 (List.range cs.length)
    exact ⟨n, fun b h1 h2 => hn b (List.mem_range.2 (List.getElem?_eq_some_iff.1 h2).1) h1 h2⟩
  obtain ⟨n, hn⟩ := hex
  obtain ⟨b, hb, hb', hlt⟩ := h n a ha
  linarith [hn b hb hb']

theorem undecided_mono (u : Nat → ℝ) {κ κ' : ℝ} (h : κ ≤ κ') (hu : Undecided κ cs u) : Undecided κ' cs u := by
  intro a ha
  obtain ⟨b, h1, h2, h3⟩ := hu a ha
  exact ⟨b, h1, h2, by linarith⟩

/-- Margins and smoothing parameters for which the bound is close to its limit. -/
theorem exists_small_tau (h : SimulatesState p cs) (hZ : SimulationNumbers Q Z Y) {ε : ℝ} (hε : 0 < ε) :
    ∃ tau₀ > 0, ∀ tau, 0 < tau → tau < tau₀ → ∃ κ > 0,
      Q.real {ω | OutOfBounds p.lo p.hi p.cholesky p.nWagesRaw cs (numbersOf (Z ω)) ∨
          Undecided κ cs (utilityWith p cs w m c (numbersOf (Z ω)))} + cs.count true * Real.exp (-κ / tau) ≤
        Q.real {ω | OutOfBounds p.lo p.hi p.cholesky p.nWagesRaw cs (numbersOf (Z ω)) ∨
          Tied cs (utilityWith p cs w m c (numbersOf (Z ω)))} + ε := by
  set S : Nat → Set Ω := fun n => {ω | OutOfBounds p.lo p.hi p.cholesky p.nWagesRaw cs (numbersOf (Z ω)) ∨
    Undecided (1 / ((n : ℝ) + 1)) cs (utilityWith p cs w m c (numbersOf (Z ω)))} with hS
  have hmeas : ∀ n, MeasurableSet (S n) := fun n =>
    (outOfBounds_measurable Q hZ).union (undecided_measurable Q h.exp hZ _)
  have hanti : Antitone S := by
    intro n k hnk ω hω
    rcases hω with hω | hω
    · exact Or.inl hω
    · refine Or.inr (undecided_mono _ (one_div_le_one_div_of_le (by positivity) ?_) hω)
      have : (n : ℝ) ≤ k := by exact_mod_cast hnk
      linarith
  have hlim := tendsto_measure_iInter_atTop (μ := Q) (fun n => (hmeas n).nullMeasurableSet) hanti ⟨0, measure_ne_top Q _⟩
  have hsub : (⋂ n, S n) ⊆ {ω | OutOfBounds p.lo p.hi p.cholesky p.nWagesRaw cs (numbersOf (Z ω)) ∨
      Tied cs (utilityWith p cs w m c (numbersOf (Z ω)))} := by
    intro ω hω
    rw [Set.mem_iInter] at hω
    by_cases hb : OutOfBounds p.lo p.hi p.cholesky p.nWagesRaw cs (numbersOf (Z ω))
    · exact Or.inl hb
    · exact Or.inr (tied_of_undecided _ fun n => (hω n).resolve_left hb)
  have hreal : Filter.Tendsto (fun n => Q.real (S n)) Filter.atTop (nhds (Q.real (⋂ n, S n))) :=
    (ENNReal.tendsto_toReal (measure_ne_top Q _)).comp hlim
  obtain ⟨n, hn⟩ := (hreal.eventually (eventually_lt_nhds (b := Q.real (⋂ n, S n) + ε / 2) (by linarith))).exists
  set κ : ℝ := 1 / ((n : ℝ) + 1) with hκ
  have hκ0 : 0 < κ := by positivity
  have hk : (0 : ℝ) < cs.count true := by exact_mod_cast List.count_pos_iff.2 h.available
  refine ⟨κ * ε / (2 * cs.count true), by positivity, fun tau ht htau => ⟨κ, hκ0, ?_⟩⟩
  have h1 : Real.exp (-κ / tau) ≤ tau / κ := by
    rw [neg_div, Real.exp_neg]
    have := Real.add_one_le_exp (κ / tau)
    rw [inv_le_comm₀ (Real.exp_pos _) (by positivity), inv_div]
    linarith
  have h2 : (cs.count true : ℝ) * Real.exp (-κ / tau) ≤ ε / 2 := by
    rw [lt_div_iff₀ (by positivity)] at htau
    calc (cs.count true : ℝ) * Real.exp (-κ / tau) ≤ cs.count true * (tau / κ) := mul_le_mul_of_nonneg_left h1 hk.le
      _ = (tau * (2 * cs.count true)) / (2 * κ) := by field_simp
      _ ≤ (κ * ε) / (2 * κ) := div_le_div_of_nonneg_right htau.le (by positivity)
      _ = ε / 2 := by field_simp
  have h3 : Q.real (⋂ n, S n) ≤ _ := measureReal_mono hsub
  have h4 : Q.real (S n) ≤ Q.real (⋂ n, S n) + ε / 2 := hn.le
  linarith

/-- C108: if the smoothing parameter is small, the distribution of choices and wages in simulations differs from the one
of the likelihood by little more than the probability of shocks out of bounds and ties. How small it has to be does not
depend on the alternative and the set of wages. -/
theorem C108_small_smoothing_parameters (h : SimulatesState p cs) (hZ : SimulationNumbers Q Z Y) {ε : ℝ} (hε : 0 < ε) :
    ∃ tau₀ > 0, ∀ tau, 0 < tau → tau < tau₀ → ∀ a, cs[a]? = some true →
      (∀ prob sd, IsExpectedChoiceProbability p.hi tau p.betaDelta p.nWagesRaw p.cholesky cs sd w m c a none prob →
        |Q.real {ω | ∃ o, simulateIndividual p cs ((validChoices cs).map w) ((validChoices cs).map m)
            ((validChoices cs).map c) (List.ofFn (Z ω)) (List.ofFn (Y ω)) = some o ∧ o.choice = a} - prob| ≤
          Q.real {ω | OutOfBounds p.lo p.hi p.cholesky p.nWagesRaw cs (numbersOf (Z ω)) ∨
            Tied cs (utilityWith p cs w m c (numbersOf (Z ω)))} + ε) ∧
      (a < p.nWagesRaw → 0 < w a → 0 < shockCov p.cholesky cs a a + p.measError.getD a 0 ^ 2 → ∀ prob : ℝ → ℝ,
        (∀ x, IsExpectedChoiceProbability p.hi tau p.betaDelta p.nWagesRaw p.cholesky cs (fun b => p.measError.getD b 0)
          w m c a (some x) (prob x)) → ∀ B : Set ℝ, MeasurableSet B → B ⊆ Set.Ioi 0 →
        |Q.real {ω | ∃ o, simulateIndividual p cs ((validChoices cs).map w) ((validChoices cs).map m)
            ((validChoices cs).map c) (List.ofFn (Z ω)) (List.ofFn (Y ω)) = some o ∧ o.choice = a ∧
              ∃ x ∈ B, o.wage = some x} -
            ∫ x in B, prob x * densityOf p.cholesky cs (fun b => p.measError.getD b 0) w a (some x)| ≤
          Q.real {ω | OutOfBounds p.lo p.hi p.cholesky p.nWagesRaw cs (numbersOf (Z ω)) ∨
            Tied cs (utilityWith p cs w m c (numbersOf (Z ω)))} + ε) := by
  obtain ⟨tau₀, h0, hmain⟩ := exists_small_tau (w := w) (m := m) (c := c) Q h hZ hε
  refine ⟨tau₀, h0, fun tau ht htau a ha => ?_⟩
  obtain ⟨κ, hκ, hle⟩ := hmain tau ht htau
  exact ⟨fun prob sd hp => (C108_shares_of_choices Q h hZ ht hκ a ha prob sd hp).trans hle,
    fun hwage hw hv prob hp B hB hB0 =>
      (C108_shares_of_choices_and_wages Q h hZ ht hκ a ha hwage hw hv prob hp B hB hB0).trans hle⟩

/-- C108: the probability of shocks out of bounds is at most the sum of the variances of the shocks of wages, divided by
the square of the smaller bound. -/
theorem C108_shocks_out_of_bounds (hZ : SimulationNumbers Q Z Y) {t : ℝ} (ht : 0 < t) (hlo : p.lo ≤ -t) (hhi : t ≤ p.hi) :
    Q.real {ω | OutOfBounds p.lo p.hi p.cholesky p.nWagesRaw cs (numbersOf (Z ω))} ≤
      overAvailable cs fun b => if b < p.nWagesRaw then shockCov p.cholesky cs b b / t ^ 2 else 0 := by
  have hZm : Measurable Z := measurable_fst.comp hZ.measurable
  let X : Fin (cs.count true) → Ω → ℝ := fun i ω => ∑ j, fullFactor p.cholesky cs (cs.count true) i j * Z ω j
  have hX : ∀ (i : Fin (cs.count true)) ω, latentShock p.cholesky cs (numbersOf (Z ω)) (alternativeAt cs i) = X i ω := fun i ω =>
    latentShock_full p.cholesky (Z ω) i
  have hvar : ∀ i, Q.real {ω | t ≤ |X i ω|} ≤
      shockCov p.cholesky cs (alternativeAt cs i) (alternativeAt cs i) / t ^ 2 := by
    intro i
    let f : (Fin cs.length → ℝ) → ℝ := fun z => ∑ j, fullFactor p.cholesky cs (cs.count true) i j * z j
    have hfm : Measurable f := by fun_prop
    have hf2 : MemLp f 2 (normals cs.length) := memLp_finsetSum _ fun j _ =>
      (((exists_standardNormal cs.length).gaussian.eval j).memLp_two).const_mul _
    have hmean : ∫ z, f z ∂normals cs.length = 0 := by
      rw [integral_finsetSum _ fun j _ =>
        (((exists_standardNormal cs.length).gaussian.eval j).integrable.const_mul _)]
      refine Finset.sum_eq_zero fun j _ => ?_
      rw [integral_const_mul, (exists_standardNormal cs.length).mean j, mul_zero]
    have hcheb := meas_ge_le_variance_div_sq hf2 ht
    rw [hmean] at hcheb
    simp only [sub_zero] at hcheb
    have hv : Var[f; normals cs.length] = shockCov p.cholesky cs (alternativeAt cs i) (alternativeAt cs i) := by
      rw [← covariance_self hfm.aemeasurable, covariance_linear, fullFactor_gram]
    rw [hv, ← marginal_numbers Q hZ, Measure.map_apply hZm (measurableSet_le measurable_const (by fun_prop))] at hcheb
    have hnn : 0 ≤ shockCov p.cholesky cs (alternativeAt cs i) (alternativeAt cs i) / t ^ 2 := by
      refine div_nonneg ?_ (by positivity)
      rw [← hv]
      exact variance_nonneg _ _
    exact ENNReal.toReal_le_of_le_ofReal hnn hcheb
  calc Q.real {ω | OutOfBounds p.lo p.hi p.cholesky p.nWagesRaw cs (numbersOf (Z ω))}
      ≤ Q.real (⋃ i : Fin (cs.count true), {ω | alternativeAt cs i < p.nWagesRaw ∧ t ≤ |X i ω|}) := by
        refine measureReal_mono fun ω hω => ?_
        obtain ⟨b, hb, hav, hcon⟩ := hω
        have hlt := positionIn_lt cs b hav
        rw [Set.mem_iUnion]
        refine ⟨⟨positionIn cs b, hlt⟩, ?_, ?_⟩
        · simp only [alternativeAt_positionIn b hav]
          exact hb
        · have h1 := hX ⟨positionIn cs b, hlt⟩ ω
          simp only [alternativeAt_positionIn b hav] at h1
          rw [← h1]
          by_contra hlt'
          rw [not_le, abs_lt] at hlt'
          exact hcon ⟨by linarith [hlt'.1], by linarith [hlt'.2]⟩
    _ ≤ ∑ i : Fin (cs.count true), Q.real {ω | alternativeAt cs i < p.nWagesRaw ∧ t ≤ |X i ω|} := measureReal_iUnion_fintype_le _
    _ ≤ ∑ i : Fin (cs.count true), if alternativeAt cs i < p.nWagesRaw then
          shockCov p.cholesky cs (alternativeAt cs i) (alternativeAt cs i) / t ^ 2 else 0 := by
        refine Finset.sum_le_sum fun i _ => ?_
        split
        · rename_i hw
          simp only [hw, true_and]
          exact hvar i
        · rename_i hw
          simp [hw]
    _ = _ := by rw [overAvailable_sum rfl]

omit [IsProbabilityMeasure Q] in
/-- C108: if the factor of the covariance matrix is lower triangular without zeros on the diagonal and no wage is zero,
ties have probability zero, unless shocks are out of bounds. -/
theorem C108_no_ties (hexp : p.exp = Real.exp) (hZ : SimulationNumbers Q Z Y)
    (hlow : ∀ i j, i < j → entry p.cholesky i j = 0) (hdiag : ∀ b, cs[b]? = some true → entry p.cholesky b b ≠ 0)
    (hw : ∀ b, cs[b]? = some true → w b ≠ 0) (hcs : true ∈ cs) :
    Q {ω | Tied cs (utilityWith p cs w m c (numbersOf (Z ω))) ∧
      ¬ OutOfBounds p.lo p.hi p.cholesky p.nWagesRaw cs (numbersOf (Z ω))} = 0 := by
  have hZm : Measurable Z := measurable_fst.comp hZ.measurable
  let u : Nat → (Fin cs.length → ℝ) → ℝ := fun b z => w b * (if b < p.nWagesRaw then
    Real.exp (latentShock p.cholesky cs (numbersOf z) b) else latentShock p.cholesky cs (numbersOf z) b) + m b +
      p.betaDelta * c b
  have hum : ∀ b, Measurable (u b) := by
    intro b
    have h1 := latentShock_measurable (cs := cs) p.cholesky b
    simp only [u]
    split <;> fun_prop
  have hu : ∀ ω, ¬ OutOfBounds p.lo p.hi p.cholesky p.nWagesRaw cs (numbersOf (Z ω)) → ∀ b, cs[b]? = some true →
      utilityWith p cs w m c (numbersOf (Z ω)) b = u b (Z ω) := by
    intro ω hω b hb
    simp only [u, utilityWith, shockOf, hexp]
    split
    · rename_i hbw
      have h1 : p.lo ≤ latentShock p.cholesky cs (numbersOf (Z ω)) b ∧ latentShock p.cholesky cs (numbersOf (Z ω)) b ≤ p.hi := by
        by_contra hcon
        exact hω ⟨b, hbw, hb, hcon⟩
      rw [max_eq_left h1.1, min_eq_left h1.2]
    · rfl
  have hpair : ∀ a b : Nat, a < b → cs[a]? = some true → cs[b]? = some true → Q {ω | u a (Z ω) = u b (Z ω)} = 0 := by
    intro a b hab ha hb
    obtain ⟨hlt, _⟩ := List.getElem?_eq_some_iff.1 hb
    have hm : MeasurableSet {z | u a z = u b z} := measurableSet_eq_fun (hum a) (hum b)
    have h1 : Q {ω | u a (Z ω) = u b (Z ω)} = normals cs.length {z | u a z = u b z} := by
      rw [← marginal_numbers Q hZ, Measure.map_apply hZm hm]
      rfl
    rw [h1]
    refine normals_null ⟨b, hlt⟩ _ hm fun z z' hz hz' hj => ?_
    have hj' : ∀ j : Fin cs.length, (j : Nat) ≠ b → z j = z' j := fun j hjb => hj j fun he => hjb (by rw [he])
    have h2 := latentShock_lower (cs := cs) p.cholesky hlow a b hlt hab z z' hj'
    have h3 := latentShock_own p.cholesky b hb hlt z z' hj'
    have h4 : u a z = u a z' := by simp only [u, h2]
    have h5 : u b z = u b z' := by
      have e1 : u a z = u b z := hz
      have e2 : u a z' = u b z' := hz'
      rw [← e1, ← e2, h4]
    have h6 : latentShock p.cholesky cs (numbersOf z) b = latentShock p.cholesky cs (numbersOf z') b := by
      simp only [u, add_left_inj] at h5
      have h7 := mul_left_cancel₀ (hw b hb) h5
      split at h7
      · exact Real.exp_injective h7
      · exact h7
    rw [h6, sub_self] at h3
    have := (mul_eq_zero.1 h3.symm).resolve_left (hdiag b hb)
    linarith
  refine measure_mono_null (t := ⋃ a : Nat, ⋃ b : Nat, ⋃ _ : a < b ∧ cs[a]? = some true ∧ cs[b]? = some true,
    {ω | u a (Z ω) = u b (Z ω)}) ?_ ?_
  · rintro ω ⟨ht, hω⟩
    obtain ⟨best, hbest, hmax⟩ : ∃ a, cs[a]? = some true ∧ ∀ b, cs[b]? = some true → u b (Z ω) ≤ u a (Z ω) := by
      obtain ⟨i, hi⟩ := List.mem_iff_getElem?.1 hcs
      have hne : ((Finset.range cs.length).filter fun a => cs[a]? = some true).Nonempty :=
        ⟨i, Finset.mem_filter.2 ⟨Finset.mem_range.2 (List.getElem?_eq_some_iff.1 hi).1, hi⟩⟩
      obtain ⟨a, ha, hmax⟩ := Finset.exists_max_image _ (fun a => u a (Z ω)) hne
      exact ⟨a, (Finset.mem_filter.1 ha).2, fun b hb => hmax b (Finset.mem_filter.2
        ⟨Finset.mem_range.2 (List.getElem?_eq_some_iff.1 hb).1, hb⟩)⟩
    obtain ⟨b, hne, hb, hle⟩ := ht best hbest
    rw [hu ω hω best hbest, hu ω hω b hb] at hle
    have heq := le_antisymm hle (hmax b hb)
    simp only [Set.mem_iUnion, exists_prop]
    rcases lt_or_gt_of_ne hne with hlt | hlt
    · exact ⟨b, best, ⟨hlt, hb, hbest⟩, heq.symm⟩
    · exact ⟨best, b, ⟨hlt, hbest, hb⟩, heq⟩
  · refine measure_iUnion_null fun a => measure_iUnion_null fun b => measure_iUnion_null fun h => ?_
    exact hpair a b h.1 h.2.1 h.2.2

/-- C108: the conditions together. With a lower triangular factor without zeros on the diagonal and positive wages, the
distribution of choices and wages in simulations is the limit of the distributions of the likelihood for smoothing
parameters which tend to zero, up to the variances of shocks of wages divided by the square of the bound `t` for arguments
of the exponential function. -/
theorem C108_simulations_follow_the_likelihood (h : SimulatesState p cs) (hZ : SimulationNumbers Q Z Y)
    (hlow : ∀ i j, i < j → entry p.cholesky i j = 0) (hdiag : ∀ b, cs[b]? = some true → entry p.cholesky b b ≠ 0)
    (hw : ∀ b, cs[b]? = some true → 0 < w b) {t : ℝ} (ht : 0 < t) (hlo : p.lo ≤ -t) (hhi : t ≤ p.hi) {ε : ℝ} (hε : 0 < ε) :
    ∃ tau₀ > 0, ∀ tau, 0 < tau → tau < tau₀ → ∃ prob : Nat → Option ℝ → ℝ, ∀ a, cs[a]? = some true →
      (∀ wage : Option ℝ, (wage.isSome = true → a < p.nWagesRaw) →
        IsExpectedChoiceProbability p.hi tau p.betaDelta p.nWagesRaw p.cholesky cs (fun b => p.measError.getD b 0)
          w m c a wage (prob a wage)) ∧
      |Q.real {ω | ∃ o, simulateIndividual p cs ((validChoices cs).map w) ((validChoices cs).map m)
          ((validChoices cs).map c) (List.ofFn (Z ω)) (List.ofFn (Y ω)) = some o ∧ o.choice = a} - prob a none| ≤
        overAvailable cs (fun b => if b < p.nWagesRaw then shockCov p.cholesky cs b b / t ^ 2 else 0) + ε ∧
      (a < p.nWagesRaw → ∀ B : Set ℝ, MeasurableSet B → B ⊆ Set.Ioi 0 →
        |Q.real {ω | ∃ o, simulateIndividual p cs ((validChoices cs).map w) ((validChoices cs).map m)
            ((validChoices cs).map c) (List.ofFn (Z ω)) (List.ofFn (Y ω)) = some o ∧ o.choice = a ∧
              ∃ x ∈ B, o.wage = some x} -
            ∫ x in B, prob a (some x) * densityOf p.cholesky cs (fun b => p.measError.getD b 0) w a (some x)| ≤
          overAvailable cs (fun b => if b < p.nWagesRaw then shockCov p.cholesky cs b b / t ^ 2 else 0) + ε) := by
  have hvar : ∀ a, cs[a]? = some true → 0 < shockCov p.cholesky cs a a + p.measError.getD a 0 ^ 2 := by
    intro a ha
    have hlt := positionIn_lt cs a ha
    have : 0 < shockCov p.cholesky cs a a := by
      rw [shockCov, overAvailable_sum rfl]
      refine Finset.sum_pos' (fun i _ => mul_self_nonneg _) ⟨⟨positionIn cs a, hlt⟩, Finset.mem_univ _, ?_⟩
      simp only [alternativeAt_positionIn a ha]
      exact mul_self_pos.2 (hdiag a ha)
    positivity
  have hbad : Q.real {ω | OutOfBounds p.lo p.hi p.cholesky p.nWagesRaw cs (numbersOf (Z ω)) ∨
      Tied cs (utilityWith p cs w m c (numbersOf (Z ω)))} ≤
        overAvailable cs (fun b => if b < p.nWagesRaw then shockCov p.cholesky cs b b / t ^ 2 else 0) := by
    refine le_trans ?_ (C108_shocks_out_of_bounds (p := p) (cs := cs) Q hZ ht hlo hhi)
    have h1 := C108_no_ties (w := w) (m := m) (c := c) Q h.exp hZ hlow hdiag (fun b hb => (hw b hb).ne') h.available
    refine (measureReal_mono (s₂ := {ω | OutOfBounds p.lo p.hi p.cholesky p.nWagesRaw cs (numbersOf (Z ω))} ∪
      {ω | Tied cs (utilityWith p cs w m c (numbersOf (Z ω))) ∧
        ¬ OutOfBounds p.lo p.hi p.cholesky p.nWagesRaw cs (numbersOf (Z ω))}) ?_).trans ((measureReal_union_le _ _).trans ?_)
    · intro ω hω
      by_cases hb : OutOfBounds p.lo p.hi p.cholesky p.nWagesRaw cs (numbersOf (Z ω))
      · exact Or.inl hb
      · exact Or.inr ⟨hω.resolve_left hb, hb⟩
    · have h2 := congrArg ENNReal.toReal h1
      rw [ENNReal.toReal_zero, ← measureReal_def] at h2
      rw [h2, add_zero]
  obtain ⟨tau₀, h0, hmain⟩ := C108_small_smoothing_parameters (w := w) (m := m) (c := c) Q h hZ hε
  refine ⟨tau₀, h0, fun tau htau hlt => ?_⟩
  have hex : ∀ a wage, ∃ q : ℝ, cs[a]? = some true → IsExpectedChoiceProbability p.hi tau p.betaDelta p.nWagesRaw
      p.cholesky cs (fun b => p.measError.getD b 0) w m c a wage q := by
    intro a wage
    by_cases ha : cs[a]? = some true
    · cases wage with
      | none => exact ⟨_, fun _ => ⟨entry p.cholesky, fun a _ b _ => rfl, rfl⟩⟩
      | some x =>
        obtain ⟨C, hC⟩ := exists_factorGiven p.cholesky cs a (Real.log x - Real.log (w a)) (p.measError.getD a 0) (hvar a ha)
        exact ⟨_, fun _ => ⟨C, hC, rfl⟩⟩
    · exact ⟨0, fun h => absurd h ha⟩
  choose prob hprob using hex
  refine ⟨prob, fun a ha => ⟨fun wage _ => hprob a wage ha, ?_, fun hwage B hB hB0 => ?_⟩⟩
  · have := (hmain tau htau hlt a ha).1 _ _ (hprob a none ha)
    linarith
  · have := (hmain tau htau hlt a ha).2 hwage (hw a ha) (hvar a ha) (fun x => prob a (some x))
      (fun x => hprob a (some x) ha) B hB hB0
    linarith

/-! ### Hypotheses are met -/

/-- A simulation with two occupations, correlated shocks and measurement errors. -/
def sharesExample : RewardParams ℝ where
  exp := Real.exp
  lo := -460
  hi := 460
  cholesky := [[1, 0, 0], [1 / 2, 1, 0], [0, 0, 1]]
  nWagesRaw := 2
  measError := [1 / 10, 1 / 5, 0]
  betaDelta := 19 / 20

theorem sharesExample_state : SimulatesState sharesExample [true, true, true] where
  exp := rfl
  rows := le_refl _
  columns := by simp [sharesExample]
  errors := rfl
  available := by simp
  codes := by
    intro a ha
    left
    intro b hb
    have : a < 3 := (List.getElem?_eq_some_iff.1 ha).1
    interval_cases a <;> interval_cases b <;> rfl

/-- Independent standard normal numbers for shocks and measurement errors. -/
theorem exists_simulationNumbers (N : Nat) :
    SimulationNumbers ((normals N).prod (normals N)) (Prod.fst : (Fin N → ℝ) × (Fin N → ℝ) → Fin N → ℝ) Prod.snd where
  measurable := measurable_id
  law := Measure.map_id

theorem sharesExample_lower : ∀ i j, i < j → entry sharesExample.cholesky i j = 0 := by
  intro i j hij
  match i, j with
  | 0, 1 => rfl
  | 0, 2 => rfl
  | 1, 2 => rfl
  | i, j + 3 =>
    unfold entry
    match i with
    | 0 => rfl
    | 1 => rfl
    | 2 => rfl
    | i + 3 => rfl
  | 1, 1 => omega
  | i + 2, 2 => omega

theorem sharesExample_diagonal : ∀ b, [true, true, true][b]? = some true → entry sharesExample.cholesky b b ≠ 0 := by
  intro b hb
  have : b < 3 := (List.getElem?_eq_some_iff.1 hb).1
  interval_cases b <;> simp [entry, sharesExample]

/-- `C108_simulations_follow_the_likelihood`: with wages of 3, the share of each choice differs from the choice probability
of the likelihood by less than 2 / 100000 for small smoothing parameters. -/
example : ∃ tau₀ > 0, ∀ tau, 0 < tau → tau < tau₀ → ∃ prob : Nat → ℝ, ∀ a < 3,
    IsExpectedChoiceProbability 460 tau (19 / 20) 2 sharesExample.cholesky [true, true, true]
      (fun b => sharesExample.measError.getD b 0) (fun _ => 3) (fun _ => 0) (fun a => a) a none (prob a) ∧
    |((normals 3).prod (normals 3)).real {ω | ∃ o, simulateIndividual sharesExample [true, true, true] [3, 3, 3]
      [0, 0, 0] [0, 1, 2] (List.ofFn ω.1) (List.ofFn ω.2) = some o ∧ o.choice = a} - prob a| ≤ 2 / 100000 := by
  obtain ⟨tau₀, h0, h⟩ := C108_simulations_follow_the_likelihood (w := fun _ => 3) (m := fun _ => 0) (c := fun a => a)
    _ sharesExample_state (exists_simulationNumbers 3) sharesExample_lower sharesExample_diagonal
    (fun _ _ => by norm_num) (t := 460) (by norm_num) (le_refl _) (le_refl _) (ε := 1 / 1000000) (by norm_num)
  refine ⟨tau₀, h0, fun tau ht hlt => ?_⟩
  obtain ⟨prob, hp⟩ := h tau ht hlt
  refine ⟨fun a => prob a none, fun a ha => ?_⟩
  obtain ⟨h1, h2, _⟩ := hp a (by interval_cases a <;> rfl)
  refine ⟨h1 none (by simp), ?_⟩
  have h3 : ∀ f : Nat → ℝ, (validChoices [true, true, true]).map f = [f 0, f 1, f 2] := fun f => rfl
  rw [h3, h3, h3] at h2
  have h4 : overAvailable [true, true, true] (fun b => if b < sharesExample.nWagesRaw then
      shockCov sharesExample.cholesky [true, true, true] b b / 460 ^ 2 else 0) = (9 / 4) / 460 ^ 2 := by
    simp only [overAvailable, shockCov, List.length_cons, List.length_nil, List.range, List.range.loop, List.map_cons,
      List.map_nil, entry, sharesExample, List.sum_cons, List.sum_nil, List.getElem?_cons_zero, List.getElem?_cons_succ]
    norm_num
  rw [h4] at h2
  refine le_trans (le_of_eq ?_) (h2.trans (by norm_num))
  norm_num

end

end Respy
