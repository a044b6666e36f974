import Verif.Props.ChoiceProbability
import Verif.Props.SimulateModel
import Verif.Props.SimulatedShares
import Verif.Spec.Histories

/-! Helper lemmas: simulated histories of individuals. -/

open MeasureTheory ProbabilityTheory

namespace Respy

noncomputable section

/-! ### One period -/

section Period

variable {p : RewardParams ℝ} {cs : List Bool} {w m c : Nat → ℝ}

/-- The first of the best available alternatives. -/
def FirstBest (cs : List Bool) (u : Nat → ℝ) (a : Nat) : Prop :=
  cs[a]? = some true ∧ ∀ b, cs[b]? = some true → u b ≤ u a ∧ (b < a → u b < u a)

theorem FirstBest.unique {u : Nat → ℝ} {a a' : Nat} (h : FirstBest cs u a) (h' : FirstBest cs u a') : a = a' := by
  rcases lt_trichotomy a a' with hlt | rfl | hlt
  · have := (h'.2 a h.1).2 hlt
    have := (h.2 a' h'.1).1
    linarith
  · rfl
  · have := (h.2 a' h'.1).2 hlt
    have := (h'.2 a h.1).1
    linarith

/-- The wage which is recorded for alternative `a`. -/
def recordedWage (p : RewardParams ℝ) (cs : List Bool) (w : Nat → ℝ) (z y : Nat → ℝ) (a : Nat) : ℝ :=
  w a * shockOf Real.exp p.lo p.hi p.cholesky p.nWagesRaw cs z a * Real.exp (y a * p.measError.getD a 0)

theorem simulated_first {N : Nat} (hN : cs.length = N) (h : SimulatesState p cs) (z y : Fin N → ℝ) :
    ∃ o, simulateIndividual p cs ((validChoices cs).map w) ((validChoices cs).map m) ((validChoices cs).map c)
        (List.ofFn z) (List.ofFn y) = some o ∧ FirstBest cs (utilityWith p cs w m c (numbersOf z)) o.choice ∧
      o.wage = if o.choice < p.nWagesRaw then some (recordedWage p cs w (numbersOf z) (numbersOf y) o.choice) else none := by
  subst hN
  have hlen : ∀ f : Nat → ℝ, ((validChoices cs).map f).length = cs.count true := fun f => by
    rw [List.length_map, length_validChoices]
  obtain ⟨o, ho⟩ := simulateIndividual_total p cs ((validChoices cs).map w) ((validChoices cs).map m)
    ((validChoices cs).map c) (List.ofFn z) (List.ofFn y) h.rows h.columns h.errors (by simp) (by simp) (hlen _) (hlen _)
    (hlen _) (List.count_pos_iff.2 h.available)
  obtain ⟨a, wa, ⟨v, ⟨ha, ma, ca, h1, h2, h3, h4⟩, h5⟩, h6, h7, _⟩ := simulateIndividual_spec p cs _ _ _ _ _ o ho
  have hch : o.choice = a := by rw [h7]; exact (remap_validChoices_iff cs a ha).2 (h.codes a ha)
  rw [map_validChoices_get w a ha] at h1
  rw [map_validChoices_get m a ha] at h2
  rw [map_validChoices_get c a ha] at h3
  cases h1
  cases h2
  cases h3
  refine ⟨o, ho, ⟨by rw [hch]; exact ha, fun b hb => ?_⟩, ?_⟩
  · rw [hch]
    have := h5 b (w b) _ ⟨hb, m b, c b, map_validChoices_get w b hb, map_validChoices_get m b hb,
      map_validChoices_get c b hb, rfl⟩
    rw [h4] at this
    exact this
  · rw [h6, hch, wageOf, h.exp, recordedWage]
    simp only [List.getD_eq_getElem?_getD]
    rfl

/-- Choice `a` and a wage in `O` are simulated with the numbers `z` and `y`. -/
def PeriodEvent (p : RewardParams ℝ) (cs : List Bool) (w m c : Nat → ℝ) (a : Nat) (O : Option (Set ℝ)) {N : Nat}
    (z y : Fin N → ℝ) : Prop :=
  ∃ o, simulateIndividual p cs ((validChoices cs).map w) ((validChoices cs).map m) ((validChoices cs).map c)
    (List.ofFn z) (List.ofFn y) = some o ∧ o.choice = a ∧ ∀ B, O = some B → ∃ x ∈ B, o.wage = some x

theorem periodEvent_iff {N : Nat} (hN : cs.length = N) (h : SimulatesState p cs) (a : Nat) (O : Option (Set ℝ))
    (z y : Fin N → ℝ) : PeriodEvent p cs w m c a O z y ↔ FirstBest cs (utilityWith p cs w m c (numbersOf z)) a ∧
      ∀ B, O = some B → a < p.nWagesRaw ∧ recordedWage p cs w (numbersOf z) (numbersOf y) a ∈ B := by
  obtain ⟨o, ho, h1, h2⟩ := simulated_first (w := w) (m := m) (c := c) hN h z y
  constructor
  · rintro ⟨o', ho', rfl, h3⟩
    rw [ho] at ho'
    cases ho'
    refine ⟨h1, fun B hB => ?_⟩
    obtain ⟨x, hx, hw⟩ := h3 B hB
    rw [h2] at hw
    split at hw
    · rename_i hlt
      cases hw
      exact ⟨hlt, hx⟩
    · cases hw
  · rintro ⟨h3, h4⟩
    have hc := h1.unique h3
    refine ⟨o, ho, hc, fun B hB => ?_⟩
    obtain ⟨h5, h6⟩ := h4 B hB
    exact ⟨_, h6, by rw [h2, hc, if_pos h5]⟩

theorem periodEvent_measurable {N : Nat} (hN : cs.length = N) (h : SimulatesState p cs) (a : Nat) (O : Option (Set ℝ))
    (hO : ∀ B, O = some B → MeasurableSet B) :
    MeasurableSet {zy : (Fin N → ℝ) × (Fin N → ℝ) | PeriodEvent p cs w m c a O zy.1 zy.2} := by
  subst hN
  have hZ := exists_simulationNumbers cs.length
  have hu : ∀ b, Measurable fun zy : (Fin cs.length → ℝ) × (Fin cs.length → ℝ) =>
      utilityWith p cs w m c (numbersOf zy.1) b := fun b => utilityWith_measurable _ h.exp hZ b
  have hrec : Measurable fun zy : (Fin cs.length → ℝ) × (Fin cs.length → ℝ) =>
      recordedWage p cs w (numbersOf zy.1) (numbersOf zy.2) a := by
    have h1 : Measurable fun zy : (Fin cs.length → ℝ) × (Fin cs.length → ℝ) =>
        latentShock p.cholesky cs (numbersOf zy.1) a :=
      (latentShock_measurable (cs := cs) p.cholesky a).comp measurable_fst
    have h2 : Measurable fun zy : (Fin cs.length → ℝ) × (Fin cs.length → ℝ) => numbersOf zy.2 a := by
      unfold numbersOf
      by_cases ha : a < cs.length
      · simp only [List.getElem?_ofFn, ha, dite_true, Option.getD_some]
        fun_prop
      · simp only [List.getElem?_ofFn, ha, dite_false, Option.getD_none]
        fun_prop
    have h3 := (h1.max (measurable_const (a := p.lo))).min (measurable_const (a := p.hi))
    unfold recordedWage shockOf
    split <;> fun_prop
  have heq : {zy : (Fin cs.length → ℝ) × (Fin cs.length → ℝ) | PeriodEvent p cs w m c a O zy.1 zy.2} =
      ({_zy | cs[a]? = some true} ∩ ⋂ b : Nat, ⋂ _ : cs[b]? = some true,
        ({zy | utilityWith p cs w m c (numbersOf zy.1) b ≤ utilityWith p cs w m c (numbersOf zy.1) a} ∩
          ({_zy | ¬ b < a} ∪
            {zy | utilityWith p cs w m c (numbersOf zy.1) b < utilityWith p cs w m c (numbersOf zy.1) a}))) ∩
      ⋂ B : Set ℝ, ⋂ _ : O = some B, ({_zy | a < p.nWagesRaw} ∩
        {zy | recordedWage p cs w (numbersOf zy.1) (numbersOf zy.2) a ∈ B}) := by
    ext zy
    simp only [Set.mem_ofPred_eq, periodEvent_iff rfl h, FirstBest, Set.mem_inter_iff, Set.mem_iInter, Set.mem_union,
      imp_iff_not_or]
  rw [heq]
  refine ((MeasurableSet.const _).inter (MeasurableSet.iInter fun b => MeasurableSet.iInter fun _ =>
    (measurableSet_le (hu b) (hu a)).inter ((MeasurableSet.const _).union (measurableSet_lt (hu b) (hu a))))).inter ?_
  cases O with
  | none => simp
  | some B0 =>
    simp only [Option.some.injEq, Set.iInter_iInter_eq_right]
    exact (MeasurableSet.const _).inter (hrec (hO B0 rfl))

variable {Ω : Type} [MeasurableSpace Ω] (Q : Measure Ω) [IsProbabilityMeasure Q]

omit [IsProbabilityMeasure Q] in
theorem exceptional_eq (h : SimulatesState p cs) {Z Y : Ω → Fin cs.length → ℝ} (hZ : SimulationNumbers Q Z Y)
    (tau κ : ℝ) : exceptional p κ tau cs w m c = Q.real {ω | OutOfBounds p.lo p.hi p.cholesky p.nWagesRaw cs
      (numbersOf (Z ω)) ∨ Undecided κ cs (utilityWith p cs w m c (numbersOf (Z ω)))} +
        cs.count true * Real.exp (-κ / tau) := by
  have hZm : Measurable Z := measurable_fst.comp hZ.measurable
  have h0 := exists_simulationNumbers cs.length
  have hset : MeasurableSet {z : Fin cs.length → ℝ | OutOfBounds p.lo p.hi p.cholesky p.nWagesRaw cs (numbersOf z) ∨
      Undecided κ cs (utilityWith p cs w m c (numbersOf z))} := by
    have := ((outOfBounds_measurable (p := p) (cs := cs) _ h0).union
      (undecided_measurable (w := w) (m := m) (c := c) (p := p) (cs := cs) _ h.exp h0 κ))
    exact measurable_prodMk_right (y := (0 : Fin cs.length → ℝ)) this
  have hmap := marginal_numbers Q hZ
  unfold normals at hmap
  rw [exceptional, ← hmap, map_measureReal_apply hZm hset]
  rfl

theorem periodEvent_close {N : Nat} (hN : cs.length = N) (h : SimulatesState p cs) {Z Y : Ω → Fin N → ℝ}
    (hZ : SimulationNumbers Q Z Y) {tau κ : ℝ} (ht : 0 < tau) (hκ : 0 < κ) (a : Nat) (ha : cs[a]? = some true)
    (O : Option (Set ℝ)) (hO : ObservableWage p cs w a O) (l : ℝ) (hl : IsObservedProbability p tau cs w m c a O l) :
    |Q.real {ω | PeriodEvent p cs w m c a O (Z ω) (Y ω)} - l| ≤ exceptional p κ tau cs w m c := by
  subst hN
  rw [exceptional_eq Q h hZ]
  cases O with
  | none =>
    have := C108_shares_of_choices (w := w) (m := m) (c := c) Q h hZ ht hκ a ha l _ hl
    simpa [PeriodEvent] using this
  | some B =>
    obtain ⟨h1, h2, h3, h4, h5⟩ := hO B rfl
    obtain ⟨prob, hp, rfl⟩ := hl
    have := C108_shares_of_choices_and_wages (w := w) (m := m) (c := c) Q h hZ ht hκ a ha h1 h2 h3 prob hp B h4 h5
    simpa [PeriodEvent] using this

theorem observedProbability_bounds (tau : ℝ) (hcs : true ∈ cs) (a : Nat) (ha : cs[a]? = some true)
    (hv : ∀ b < p.nWagesRaw, cs[b]? = some true → 0 < shockCov p.cholesky cs b b + p.measError.getD b 0 ^ 2)
    (O : Option (Set ℝ)) (hO : ObservableWage p cs w a O) (l : ℝ) (hl : IsObservedProbability p tau cs w m c a O l) :
    0 ≤ l ∧ l ≤ 1 := by
  obtain ⟨prob, h1, h2, _⟩ := C107_distribution_of_choices_and_wages p.hi tau p.betaDelta p.nWagesRaw p.cholesky cs
    (fun b => p.measError.getD b 0) w m c hcs hv
  cases O with
  | none =>
    obtain ⟨h3, h4, h5⟩ := h1 a ha none (by simp)
    rw [(h3 l).1 hl]
    exact ⟨h4.le, h5⟩
  | some B =>
    obtain ⟨hw, _, _, hB, hB0⟩ := hO B rfl
    obtain ⟨q, hq, rfl⟩ := hl
    have hqe : ∀ x, q x = prob a (some x) := fun x => ((h1 a ha (some x) fun _ => hw).1 _).1 (hq x)
    have hnn : ∀ x ∈ Set.Ioi (0 : ℝ), 0 ≤ q x * densityOf p.cholesky cs (fun b => p.measError.getD b 0) w a (some x) := by
      intro x hx
      refine mul_nonneg (by rw [hqe]; exact (h1 a ha (some x) fun _ => hw).2.1.le) ?_
      exact div_nonneg (Real.exp_pos _).le (mul_nonneg (Set.mem_Ioi.1 hx).le (Real.sqrt_nonneg _))
    have htot : ∫ x in Set.Ioi 0, q x * densityOf p.cholesky cs (fun b => p.measError.getD b 0) w a (some x) =
        prob a none := by
      rw [← h2 a hw ha]
      simp only [hqe]
    obtain ⟨_, h4, h5⟩ := h1 a ha none (by simp)
    have hint : IntegrableOn (fun x => q x * densityOf p.cholesky cs (fun b => p.measError.getD b 0) w a (some x))
        (Set.Ioi 0) := by
      by_contra hcon
      rw [IntegrableOn] at hcon
      rw [integral_undef hcon] at htot
      linarith
    refine ⟨setIntegral_nonneg hB fun x hx => hnn x (hB0 hx), ?_⟩
    refine le_trans (setIntegral_mono_set hint (ae_restrict_of_forall_mem measurableSet_Ioi hnn)
      (Filter.Eventually.of_forall hB0)) ?_
    rw [htot]
    exact h5

end Period

/-- Products of numbers between zero and one which are close to each other. -/
theorem abs_prod_sub_prod_le (x y : Nat → ℝ) (T : Nat) (hx : ∀ t < T, 0 ≤ x t ∧ x t ≤ 1)
    (hy : ∀ t < T, 0 ≤ y t ∧ y t ≤ 1) :
    |∏ t ∈ Finset.range T, x t - ∏ t ∈ Finset.range T, y t| ≤ ∑ t ∈ Finset.range T, |x t - y t| := by
  induction T with
  | zero => simp
  | succ T ih =>
    rw [Finset.prod_range_succ, Finset.prod_range_succ, Finset.sum_range_succ]
    have ih := ih (fun t ht => hx t (by omega)) fun t ht => hy t (by omega)
    have h1 : 0 ≤ ∏ t ∈ Finset.range T, x t ∧ ∏ t ∈ Finset.range T, x t ≤ 1 :=
      ⟨Finset.prod_nonneg fun t ht => (hx t (by have := Finset.mem_range.1 ht; omega)).1,
        Finset.prod_le_one (fun t ht => (hx t (by have := Finset.mem_range.1 ht; omega)).1)
          fun t ht => (hx t (by have := Finset.mem_range.1 ht; omega)).2⟩
    have h2 := hy T (by omega)
    set X := ∏ t ∈ Finset.range T, x t
    set Y := ∏ t ∈ Finset.range T, y t
    have e : X * x T - Y * y T = X * (x T - y T) + (X - Y) * y T := by ring
    rw [e]
    refine (abs_add_le _ _).trans ?_
    rw [abs_mul, abs_mul, abs_of_nonneg h1.1, abs_of_nonneg h2.1]
    have h3 : X * |x T - y T| ≤ |x T - y T| := mul_le_of_le_one_left (abs_nonneg _) h1.2
    have h4 : |X - Y| * y T ≤ |X - Y| := mul_le_of_le_one_right (abs_nonneg _) h2.2
    linarith

/-! ### Rows of samples -/

theorem BuildSpec.HasIndex.unique {b : BuildSpec} (hgrid : b.GridNodup) {dense : List Nat} {d d' : Option Nat}
    (h : b.HasIndex dense d) (h' : b.HasIndex dense d') : d = d' := by
  unfold BuildSpec.HasIndex at h h'
  cases hg : b.grid with
  | none =>
    rw [hg] at h h'
    rw [show d = none from h, show d' = none from h']
  | some grid =>
    rw [hg] at h h'
    obtain ⟨i, rfl, hi⟩ := h
    obtain ⟨i', rfl, hi'⟩ := h'
    rw [(List.getElem?_inj (List.getElem?_eq_some_iff.1 hi).1 (hgrid grid hg)).1 (hi.trans hi'.symm)]

/-- What a row which follows the model records. -/
theorem row_iff_periodEvent {b : BuildSpec} {core : List CoreState} (hgrid : b.GridNodup) {p : RewardParams ℝ}
    {w m : Option Nat → CoreState → Nat → ℝ} {V : Option Nat → CoreState → ℝ} {row : SimRow ℝ}
    (hrow : RowFollows b core p w m (fun d _ => [(d, 1)]) V row) {d : Option Nat} (hd : b.HasIndex row.state.dense d)
    (h : SimulatesState p (b.choiceSetAt d row.state.core)) {N : Nat} (hN : p.measError.length = N)
    (z y : Fin N → ℝ) (hz : row.base = List.ofFn z) (hy : row.baseWage = List.ofFn y) (a : Nat) (O : Option (Set ℝ)) :
    (row.outcome.choice = a ∧ ∀ B, O = some B → ∃ x ∈ B, row.outcome.wage = some x) ↔
      PeriodEvent p (b.choiceSetAt d row.state.core) (w d row.state.core) (m d row.state.core)
        (expectedNext b V d row.state.core) a O z y := by
  obtain ⟨_, d', _, hd', _, _, a', ha', hbest, hch, hwage⟩ := hrow
  obtain rfl := hd.unique hgrid hd'
  have hu : ∀ a, simulatedValue b p w m (fun d _ => [(d, 1)]) V d row.state.core row.base a =
      utilityWith p (b.choiceSetAt d row.state.core) (w d row.state.core) (m d row.state.core)
        (expectedNext b V d row.state.core) (numbersOf z) a := by
    intro a
    unfold simulatedValue utilityWith expectedNext simulatedShock
    rw [hz]
    simp only [List.map_cons, List.map_nil, List.sum_cons, List.sum_nil, one_mul, add_zero]
    rfl
  have hfb : FirstBest (b.choiceSetAt d row.state.core) (utilityWith p (b.choiceSetAt d row.state.core)
      (w d row.state.core) (m d row.state.core) (expectedNext b V d row.state.core) (numbersOf z)) a' :=
    ⟨ha', fun x hx => by rw [← hu, ← hu]; exact hbest x hx⟩
  have hc : row.outcome.choice = a' := hch.2 (h.codes a' ha')
  have hw : row.outcome.wage = if a' < p.nWagesRaw then some (recordedWage p (b.choiceSetAt d row.state.core)
      (w d row.state.core) (numbersOf z) (numbersOf y) a') else none := by
    rw [hwage, simulatedShock, recordedWage, hz, hy, h.exp]
    simp only [List.getD_eq_getElem?_getD]
    rfl
  rw [periodEvent_iff (h.errors.trans hN) h, hc, hw]
  constructor
  · rintro ⟨rfl, h1⟩
    refine ⟨hfb, fun B hB => ?_⟩
    obtain ⟨x, hx, he⟩ := h1 B hB
    split at he
    · rename_i hlt
      cases he
      exact ⟨hlt, hx⟩
    · cases he
  · rintro ⟨h1, h2⟩
    obtain rfl := hfb.unique h1
    refine ⟨rfl, fun B hB => ?_⟩
    obtain ⟨h3, h4⟩ := h2 B hB
    exact ⟨_, h4, by rw [if_pos h3]⟩

/-- Histories in a sample which follows the model. -/
theorem hasHistory_iff {b : BuildSpec} {core : List CoreState} (hgrid : b.GridNodup) {G P : Type}
    {w m : Option Nat → CoreState → Nat → ℝ} {V : Option Nat → CoreState → ℝ} (sim : Simulation ℝ G P)
    (hrs : sim.rs.Contract) (params : P) (g g' : G) {out : List (SimRow ℝ)} (hrun : sim.run params g = (some out, g'))
    (hrows : ∀ row ∈ out, RowFollows b core (sim.rewards params) w m (fun d _ => [(d, 1)]) V row)
    (hsteps : ∀ row ∈ out, ∀ row' ∈ out, row'.id = row.id →
      row'.state.core.period = row.state.core.period + 1 → StepFollows b (fun d _ => [(d, (1 : ℝ))]) row row')
    {R N : Nat} (hN : (sim.rewards params).measError.length = N) (Z Y : Fin R → Fin N → ℝ)
    (hZ : sim.draws = List.ofFn fun r => List.ofFn (Z r)) (hY : sim.drawsWage = List.ofFn fun r => List.ofFn (Y r))
    (j : Nat) (hj : j < sim.input.length) {s : CoreState} {d : Option Nat}
    (hfirst : ∀ row ∈ out, row.id = j → row.state.core.period = 0 → row.state.core = s ∧ b.HasIndex row.state.dense d)
    (a : Nat → Nat)
    (hsim : ∀ t < sim.nPeriods, SimulatesState (sim.rewards params) (b.choiceSetAt d (coreAlong s a t)))
    (O : Nat → Option (Set ℝ)) :
    HasHistory out j sim.nPeriods a O ↔ ∀ t < sim.nPeriods, ∃ r : Fin R, (r : Nat) = sim.input.length * t + j ∧
      PeriodEvent (sim.rewards params) (b.choiceSetAt d (coreAlong s a t)) (w d (coreAlong s a t))
        (m d (coreAlong s a t)) (expectedNext b V d (coreAlong s a t)) (a t) (O t) (Z r) (Y r) := by
  obtain ⟨sp, fp, g1, states, data, hsp, hfp, hst, hlen, rfl, hdl, hdata, _⟩ := run_spec sim hrs params g g' out hrun
  -- the rows of the individual
  have hex : ∀ t < sim.nPeriods, ∃ row ∈ processOutput data, row.id = j ∧ row.state.core.period = t ∧
      (∃ r : Fin R, (r : Nat) = sim.input.length * t + j ∧ row.base = List.ofFn (Z r) ∧
        row.baseWage = List.ofFn (Y r)) ∧
      ∀ row' ∈ processOutput data, row'.id = j → row'.state.core.period = t → row' = row := by
    intro t ht
    have h1 : data[t]? = some data[t] := List.getElem?_eq_getElem (by omega)
    obtain ⟨h2, h3⟩ := hdata t _ h1
    have h4 : data[t][j]? = some data[t][j] := List.getElem?_eq_getElem (by omega)
    obtain ⟨e1, e2, _, e3, e4, _⟩ := h3 j _ h4
    refine ⟨data[t][j], (mem_processOutput data _).2 ⟨t, j, _, h1, h4⟩, e1, e2, ?_, ?_⟩
    · rw [hZ, List.getElem?_ofFn] at e3
      rw [hY, List.getElem?_ofFn] at e4
      split at e3
      · rename_i hlt
        rw [dif_pos hlt] at e4
        exact ⟨⟨_, hlt⟩, rfl, (Option.some.inj e3).symm, (Option.some.inj e4).symm⟩
      · cases e3
    · intro row' hrow' hid hper
      obtain ⟨t', i', rows', k1, k2⟩ := (mem_processOutput data row').1 hrow'
      obtain ⟨f1, f2, _⟩ := (hdata t' rows' k1).2 i' row' k2
      have hi : i' = j := f1.symm.trans hid
      have htt : t' = t := f2.symm.trans hper
      subst hi htt
      rw [h1] at k1
      cases k1
      rw [h4] at k2
      exact (Option.some.inj k2).symm
  have : Inhabited (SimRow ℝ) := ⟨⟨0, ⟨s, []⟩, 0, 0, [], [], ⟨0, none, [], []⟩⟩⟩
  choose! rowAt hmem hid hper hnum huniq using hex
  have hiff : ∀ t, t < sim.nPeriods → (rowAt t).state.core = coreAlong s a t → b.HasIndex (rowAt t).state.dense d →
      (((rowAt t).outcome.choice = a t ∧ ∀ B, O t = some B → ∃ x ∈ B, (rowAt t).outcome.wage = some x) ↔
        ∃ r : Fin R, (r : Nat) = sim.input.length * t + j ∧
          PeriodEvent (sim.rewards params) (b.choiceSetAt d (coreAlong s a t)) (w d (coreAlong s a t))
            (m d (coreAlong s a t)) (expectedNext b V d (coreAlong s a t)) (a t) (O t) (Z r) (Y r)) := by
    intro t ht hs hd
    obtain ⟨r, hr, hb, hbw⟩ := hnum t ht
    have := row_iff_periodEvent hgrid (hrows _ (hmem t ht)) hd (by rw [hs]; exact hsim t ht) hN (Z r) (Y r) hb hbw
      (a t) (O t)
    rw [hs] at this
    rw [this]
    refine ⟨fun hp => ⟨r, hr, hp⟩, ?_⟩
    rintro ⟨r', hr', hp⟩
    rwa [show r' = r from Fin.ext (hr'.trans hr.symm)] at hp
  have hstep : ∀ t, t + 1 < sim.nPeriods → (rowAt t).state.core = coreAlong s a t →
      b.HasIndex (rowAt t).state.dense d → (rowAt t).outcome.choice = a t →
      (rowAt (t + 1)).state.core = coreAlong s a (t + 1) ∧ b.HasIndex (rowAt (t + 1)).state.dense d := by
    intro t ht hs hd hc
    obtain ⟨_, h1, d1, d2, q, h2, h3, h4, _⟩ := hsteps _ (hmem t (by omega)) _ (hmem (t + 1) ht)
      (by rw [hid _ ht, hid t (by omega)]) (by rw [hper _ ht, hper t (by omega)])
    refine ⟨by rw [h1, hs, hc]; rfl, ?_⟩
    simp only [List.mem_singleton, Prod.mk.injEq] at h4
    rw [hd.unique hgrid h2, ← h4.1]
    exact h3
  constructor
  · intro hh
    have hall : ∀ t < sim.nPeriods, (rowAt t).outcome.choice = a t ∧
        ∀ B, O t = some B → ∃ x ∈ B, (rowAt t).outcome.wage = some x := by
      intro t ht
      obtain ⟨row, h1, h2, h3, h4⟩ := hh t ht
      rw [← huniq t ht row h1 h2 h3]
      exact h4
    have hstate : ∀ t < sim.nPeriods, (rowAt t).state.core = coreAlong s a t ∧ b.HasIndex (rowAt t).state.dense d := by
      intro t
      induction t with
      | zero => exact fun ht => hfirst _ (hmem 0 ht) (hid 0 ht) (hper 0 ht)
      | succ t ih =>
        intro ht
        obtain ⟨h1, h2⟩ := ih (by omega)
        exact hstep t ht h1 h2 (hall t (by omega)).1
    exact fun t ht => (hiff t ht (hstate t ht).1 (hstate t ht).2).1 (hall t ht)
  · intro hh
    have hstate : ∀ t < sim.nPeriods, (rowAt t).state.core = coreAlong s a t ∧ b.HasIndex (rowAt t).state.dense d := by
      intro t
      induction t with
      | zero => exact fun ht => hfirst _ (hmem 0 ht) (hid 0 ht) (hper 0 ht)
      | succ t ih =>
        intro ht
        obtain ⟨h1, h2⟩ := ih (by omega)
        exact hstep t ht h1 h2 ((hiff t (by omega) h1 h2).2 (hh t (by omega))).1
    exact fun t ht => ⟨rowAt t, hmem t ht, hid t ht, hper t ht,
      (hiff t ht (hstate t ht).1 (hstate t ht).2).2 (hh t ht)⟩

end

end Respy
