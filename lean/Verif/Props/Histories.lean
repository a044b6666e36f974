import Verif.Lemmas.Histories

/-!
# The probability of simulated histories and the likelihood

C110: the probability that an individual makes certain choices and earns certain wages in all periods of a simulated
sample is the one which the likelihood assigns to this history, up to smoothing, ties and bounds of the exponential
function.
-/

open MeasureTheory ProbabilityTheory

namespace Respy

noncomputable section

variable {G P : Type} {b : BuildSpec} {core : List CoreState} {w m : Option Nat → CoreState → Nat → ℝ}
  {V : Option Nat → CoreState → ℝ}

theorem coreAlong_period (s : CoreState) (a : Nat → Nat) (t : Nat) : (coreAlong s a t).period = s.period + t := by
  induction t with
  | zero => rfl
  | succ t ih =>
    show (coreAlong s a t).period + 1 = s.period + (t + 1)
    omega

theorem coreAlong_mem (wf : b.WF core) {s : CoreState} (hs : s ∈ core) (hs0 : s.period = 0) {d : Option Nat}
    (hd : d ∈ b.denseIndices) (a : Nat → Nat) {T : Nat} (hT : T ≤ b.core.nPeriods)
    (ha : ∀ t < T, b.Admissible d (coreAlong s a t) (a t)) : ∀ t < T, coreAlong s a t ∈ core := by
  intro t
  induction t with
  | zero => exact fun _ => hs
  | succ t ih =>
    intro ht
    have h1 := ih (by omega)
    exact wf.closed _ h1 (by rw [coreAlong_period]; omega) d hd (a t) (ha t (by omega))

variable {Ω : Type} [MeasurableSpace Ω] (Q : Measure Ω) [IsProbabilityMeasure Q]

theorem simulatesState_of_wf {p : RewardParams ℝ} (hwf : p.WF b core) (hexp : p.exp = Real.exp)
    (hcodes : b.RecordsBest core) {d : Option Nat} (hd : d ∈ b.denseIndices) {s : CoreState} (hs : s ∈ core) :
    SimulatesState p (b.choiceSetAt d s) where
  exp := hexp
  rows := by rw [hwf.choices d hd s hs]; exact hwf.rows
  columns := fun row hrow => by rw [hwf.choices d hd s hs]; exact hwf.cols row hrow
  errors := hwf.choices d hd s hs
  available := by
    obtain ⟨a, ha⟩ := hwf.nonempty d hd s hs
    exact List.mem_of_getElem? ha
  codes := hcodes d hd s hs

omit [MeasurableSpace Ω] in
/-- The initial state of an individual does not depend on the random numbers of the shocks. -/
theorem initial_state_of_samples (sim : Simulation ℝ G P) (hrs : sim.rs.Contract) (params : P) (g : G) {R N : Nat}
    {Z Y : Fin R → Ω → Fin N → ℝ}
    (hsample : ∀ ω, SampleFollows b core w m (fun d _ => [(d, 1)]) V
      (sim.withNumbers (fun r => Z r ω) (fun r => Y r ω)) params g) (hT : 0 < sim.nPeriods) (j : Nat)
    (hj : j < sim.input.length) [Nonempty Ω] :
    ∃ s ∈ core, s.period = 0 ∧ ∃ d ∈ b.denseIndices, ∀ ω out g',
      (sim.withNumbers (fun r => Z r ω) (fun r => Y r ω)).run params g = (some out, g') →
        ∀ row ∈ out, row.id = j → row.state.core.period = 0 → row.state.core = s ∧ b.HasIndex row.state.dense d := by
  obtain ⟨ω₀⟩ := (inferInstance : Nonempty Ω)
  obtain ⟨out₀, g₀, hrun₀, _, hrows₀, _⟩ := hsample ω₀
  obtain ⟨sp, fp, g1, states, data, hsp, hfp, hst, hlen, rfl, hdl, hdata, _⟩ :=
    run_spec (sim.withNumbers (fun r => Z r ω₀) (fun r => Y r ω₀)) hrs params g g₀ out₀ hrun₀
  have hdl' : data.length = sim.nPeriods := hdl
  have h1 : data[0]? = some data[0] := List.getElem?_eq_getElem (by omega)
  obtain ⟨h2, h3⟩ := hdata 0 _ h1
  have h2' : data[0].length = sim.input.length := h2
  have h4 : data[0][j]? = some data[0][j] := List.getElem?_eq_getElem (by omega)
  obtain ⟨e1, e2, e3, _⟩ := h3 j _ h4
  obtain ⟨r1, d, r2, r3, _⟩ := hrows₀ _ ((mem_processOutput data _).2 ⟨0, j, _, h1, h4⟩)
  refine ⟨_, r1, e2, d, r2, fun ω out g' hrun row hrow hid hper => ?_⟩
  obtain ⟨sp', fp', g1', states', data', _, hfp', hst', _, rfl, _, hdata', _⟩ :=
    run_spec (sim.withNumbers (fun r => Z r ω) (fun r => Y r ω)) hrs params g g' out hrun
  have e4 : some (fp', g1') = some (fp, g1) := hfp'.symm.trans hfp
  cases e4
  have e5 : some states' = some states := hst'.symm.trans hst
  cases e5
  obtain ⟨t', i', rows', k1, k2⟩ := (mem_processOutput data' row).1 hrow
  obtain ⟨f1, f2, f3, _⟩ := (hdata' t' rows' k1).2 i' row k2
  have e6 : row.state = data[0][j].state := by
    have hi : i' = j := f1.symm.trans hid
    have h5 := f3 (f2.symm.trans hper)
    rw [hi, e3 rfl] at h5
    exact (Option.some.inj h5).symm
  rw [e6]
  exact ⟨rfl, r3⟩

/-- The random numbers for which individual `j` out of `n`, who starts in state `s`, has the history. -/
def historyEvent (b : BuildSpec) (w m : Option Nat → CoreState → Nat → ℝ) (V : Option Nat → CoreState → ℝ)
    (p : RewardParams ℝ) (s : CoreState) (d : Option Nat) (a : Nat → Nat) (O : Nat → Option (Set ℝ)) (n j T : Nat)
    (R N : Nat) : Set (Fin R → (Fin N → ℝ) × (Fin N → ℝ)) :=
  {zy | ∀ t < T, ∃ r : Fin R, (r : Nat) = n * t + j ∧
    PeriodEvent p (b.choiceSetAt d (coreAlong s a t)) (w d (coreAlong s a t)) (m d (coreAlong s a t))
      (expectedNext b V d (coreAlong s a t)) (a t) (O t) (zy r).1 (zy r).2}

/-- What is needed of a history. -/
theorem historyEvent_parts {p : RewardParams ℝ} (hwf : p.WF b core) (hexp : p.exp = Real.exp)
    (hcodes : b.RecordsBest core) (wf : b.WF core) {s : CoreState} (hs : s ∈ core) (hs0 : s.period = 0) {d : Option Nat}
    (hd : d ∈ b.denseIndices) {a : Nat → Nat} {O : Nat → Option (Set ℝ)} {n j T R N : Nat} (hT : T ≤ b.core.nPeriods)
    (hj : j < n) (hR : n * T ≤ R) (hN : p.measError.length = N)
    (hl : ∀ t < T, b.Admissible d (coreAlong s a t) (a t) ∧
      ∀ B, O t = some B → MeasurableSet B) :
    ∃ r : Fin T → Fin R, Function.Injective r ∧
      (∀ t : Fin T, MeasurableSet {zy : (Fin N → ℝ) × (Fin N → ℝ) | PeriodEvent p (b.choiceSetAt d (coreAlong s a t))
        (w d (coreAlong s a t)) (m d (coreAlong s a t)) (expectedNext b V d (coreAlong s a t)) (a t) (O t) zy.1 zy.2}) ∧
      historyEvent b w m V p s d a O n j T R N = ⋂ t : Fin T, (fun zy => zy (r t)) ⁻¹' {zy |
        PeriodEvent p (b.choiceSetAt d (coreAlong s a t)) (w d (coreAlong s a t)) (m d (coreAlong s a t))
          (expectedNext b V d (coreAlong s a t)) (a t) (O t) zy.1 zy.2} := by
  have hmem := coreAlong_mem wf hs hs0 hd a hT fun t ht => (hl t ht).1
  have hlt : ∀ t : Fin T, n * t + j < R := by
    intro t
    have h1 : n * (t + 1) ≤ n * T := Nat.mul_le_mul_left _ t.2
    rw [Nat.mul_succ] at h1
    omega
  refine ⟨fun t => ⟨n * t + j, hlt t⟩, ?_, fun t => ?_, ?_⟩
  · intro t t' he
    have h1 : n * (t : Nat) + j = n * t' + j := congrArg Fin.val he
    have h2 : n * (t : Nat) = n * t' := by omega
    exact Fin.ext (Nat.eq_of_mul_eq_mul_left (by omega) h2)
  · exact periodEvent_measurable ((hwf.choices d hd _ (hmem t t.2)).trans hN)
      (simulatesState_of_wf hwf hexp hcodes hd (hmem t t.2)) _ _ fun B hB => (hl t t.2).2 B hB
  · ext zy
    simp only [historyEvent, Set.mem_ofPred_eq, Set.mem_iInter, Set.mem_preimage]
    constructor
    · intro h t
      obtain ⟨r, hr, hp⟩ := h t t.2
      have : r = ⟨n * t + j, hlt t⟩ := Fin.ext hr
      rw [this] at hp
      exact hp
    · intro h t ht
      exact ⟨⟨n * t + j, hlt ⟨t, ht⟩⟩, rfl, h ⟨t, ht⟩⟩

theorem historyEvent_measurable {p : RewardParams ℝ} (hwf : p.WF b core) (hexp : p.exp = Real.exp)
    (hcodes : b.RecordsBest core) (wf : b.WF core) {s : CoreState} (hs : s ∈ core) (hs0 : s.period = 0) {d : Option Nat}
    (hd : d ∈ b.denseIndices) {a : Nat → Nat} {O : Nat → Option (Set ℝ)} {n j T R N : Nat} (hT : T ≤ b.core.nPeriods)
    (hj : j < n) (hR : n * T ≤ R) (hN : p.measError.length = N)
    (hl : ∀ t < T, b.Admissible d (coreAlong s a t) (a t) ∧ ∀ B, O t = some B → MeasurableSet B) :
    MeasurableSet (historyEvent b w m V p s d a O n j T R N) := by
  obtain ⟨r, _, hE, hset⟩ := historyEvent_parts (w := w) (m := m) (V := V) hwf hexp hcodes wf hs hs0 hd hT hj hR hN hl
  rw [hset]
  exact MeasurableSet.iInter fun t => (measurable_pi_apply (r t)) (hE t)

/-- The probability of the random numbers of a history. -/
theorem historyEvent_close {p : RewardParams ℝ} (hwf : p.WF b core) (hexp : p.exp = Real.exp)
    (hcodes : b.RecordsBest core) (hvar : b.UncertainWages core p) (wf : b.WF core) {s : CoreState} (hs : s ∈ core)
    (hs0 : s.period = 0) {d : Option Nat}
    (hd : d ∈ b.denseIndices) {a : Nat → Nat} {O : Nat → Option (Set ℝ)} {n j T R N : Nat} (hT : T ≤ b.core.nPeriods)
    (hj : j < n) (hR : n * T ≤ R) (hN : p.measError.length = N) {Z Y : Fin R → Ω → Fin N → ℝ}
    (hZ : SampleNumbers Q Z Y) {tau : ℝ} (ht : 0 < tau) {κ : Nat → ℝ} (hκ : ∀ t, 0 < κ t) {l : Nat → ℝ}
    (hl : ∀ t < T, b.Admissible d (coreAlong s a t) (a t) ∧
      ObservableWage p (b.choiceSetAt d (coreAlong s a t)) (w d (coreAlong s a t)) (a t) (O t) ∧
      IsObservedProbability p tau (b.choiceSetAt d (coreAlong s a t)) (w d (coreAlong s a t))
        (m d (coreAlong s a t)) (expectedNext b V d (coreAlong s a t)) (a t) (O t) (l t)) :
    |Q.real ((fun ω r => (Z r ω, Y r ω)) ⁻¹' historyEvent b w m V p s d a O n j T R N) - ∏ t ∈ Finset.range T, l t| ≤
      ∑ t ∈ Finset.range T, exceptional p (κ t) tau (b.choiceSetAt d (coreAlong s a t))
        (w d (coreAlong s a t)) (m d (coreAlong s a t)) (expectedNext b V d (coreAlong s a t)) := by
  have hmem := coreAlong_mem wf hs hs0 hd a hT fun t ht => (hl t ht).1
  have hsim : ∀ t < T, SimulatesState p (b.choiceSetAt d (coreAlong s a t)) := fun t ht =>
    simulatesState_of_wf hwf hexp hcodes hd (hmem t ht)
  have hlenN : ∀ t < T, (b.choiceSetAt d (coreAlong s a t)).length = N := fun t ht =>
    (hwf.choices d hd _ (hmem t ht)).trans hN
  obtain ⟨r, hrinj, hE, hset⟩ := historyEvent_parts (w := w) (m := m) (V := V) (O := O) hwf hexp hcodes wf hs hs0 hd hT hj
    hR hN fun t ht => ⟨(hl t ht).1, fun B hB => ((hl t ht).2.1 B hB).2.2.2.1⟩
  let E : Nat → Set ((Fin N → ℝ) × (Fin N → ℝ)) := fun t => {zy |
    PeriodEvent p (b.choiceSetAt d (coreAlong s a t)) (w d (coreAlong s a t))
      (m d (coreAlong s a t)) (expectedNext b V d (coreAlong s a t)) (a t) (O t) zy.1 zy.2}
  have hset' : (fun ω r => (Z r ω, Y r ω)) ⁻¹' historyEvent b w m V p s d a O n j T R N =
      ⋂ t ∈ (Finset.univ : Finset (Fin T)), (fun ω => (Z (r t) ω, Y (r t) ω)) ⁻¹' E t := by
    rw [hset, Set.preimage_iInter]
    simp only [Finset.mem_univ, Set.iInter_true]
    rfl
  have hind : iIndepFun (fun t ω => (Z (r t) ω, Y (r t) ω)) Q := hZ.independent.precomp hrinj
  have hprod := hind.measure_inter_preimage_eq_mul Finset.univ (sets := fun t : Fin T => E t) fun t _ => hE t
  have hprodR : Q.real ((fun ω r => (Z r ω, Y r ω)) ⁻¹' historyEvent b w m V p s d a O n j T R N) =
      ∏ t : Fin T, Q.real ((fun ω => (Z (r t) ω, Y (r t) ω)) ⁻¹' E t) := by
    rw [hset', Measure.real, hprod, ENNReal.toReal_prod]
    rfl
  let q : Nat → ℝ := fun t => if ht : t < T then
    Q.real ((fun ω => (Z (r ⟨t, ht⟩) ω, Y (r ⟨t, ht⟩) ω)) ⁻¹' E t) else 0
  have hq : ∏ t : Fin T, Q.real ((fun ω => (Z (r t) ω, Y (r t) ω)) ⁻¹' E t) = ∏ t ∈ Finset.range T, q t := by
    rw [Finset.prod_range]
    refine Finset.prod_congr rfl fun t _ => ?_
    simp only [q, t.2, dite_true]
  rw [hprodR, hq]
  refine (abs_prod_sub_prod_le q l T (fun t ht => ?_) fun t ht => ?_).trans
    (Finset.sum_le_sum fun t ht => ?_)
  · simp only [q, ht, dite_true]
    exact ⟨measureReal_nonneg, measureReal_le_one⟩
  · exact observedProbability_bounds tau (hsim t ht).available (a t) (hl t ht).1
      (fun x hx hx' => hvar d hd _ (hmem t ht) x hx hx') (O t) (hl t ht).2.1 (l t) (hl t ht).2.2
  · have ht' := Finset.mem_range.1 ht
    simp only [q, ht', dite_true]
    exact periodEvent_close Q (hlenN t ht') (hsim t ht') (hZ.each (r ⟨t, ht'⟩)) ‹0 < tau› (hκ t) (a t) (hl t ht').1 (O t)
      (hl t ht').2.1 (l t) (hl t ht').2.2

/-- **C110.** Each individual of a simulated sample starts in a state which does not depend on the shocks. The
probability of a history of choices and wages from there differs from the probability of the likelihood, the product over
periods of choice probabilities and densities of wages in the states to which the choices lead, at most by the sum of the
probabilities of shocks out of bounds or near ties and the effects of smoothing. -/
theorem C110_histories_of_samples (wf : b.WF core) (hgrid : b.GridNodup) (sim : Simulation ℝ G P)
    (hrs : sim.rs.Contract) (params : P) (g : G) (hexp : (sim.rewards params).exp = Real.exp)
    (hwf : (sim.rewards params).WF b core) (hcodes : b.RecordsBest core)
    (hvar : b.UncertainWages core (sim.rewards params)) (hperiods : sim.nPeriods ≤ b.core.nPeriods)
    (hT : 0 < sim.nPeriods) {R N : Nat} (hR : sim.input.length * sim.nPeriods ≤ R)
    (hN : (sim.rewards params).measError.length = N) {Z Y : Fin R → Ω → Fin N → ℝ} (hZ : SampleNumbers Q Z Y)
    (hsample : ∀ ω, SampleFollows b core w m (fun d _ => [(d, 1)]) V
      (sim.withNumbers (fun r => Z r ω) (fun r => Y r ω)) params g) (j : Nat) (hj : j < sim.input.length) :
    ∃ s ∈ core, s.period = 0 ∧ ∃ d ∈ b.denseIndices,
      (∀ ω out g', (sim.withNumbers (fun r => Z r ω) (fun r => Y r ω)).run params g = (some out, g') →
        ∀ row ∈ out, row.id = j → row.state.core.period = 0 → row.state.core = s ∧ b.HasIndex row.state.dense d) ∧
      ∀ (tau : ℝ) (κ : Nat → ℝ), 0 < tau → (∀ t, 0 < κ t) → ∀ (a : Nat → Nat) (O : Nat → Option (Set ℝ)) (l : Nat → ℝ),
        (∀ t < sim.nPeriods, b.Admissible d (coreAlong s a t) (a t) ∧
          ObservableWage (sim.rewards params) (b.choiceSetAt d (coreAlong s a t)) (w d (coreAlong s a t)) (a t) (O t) ∧
          IsObservedProbability (sim.rewards params) tau (b.choiceSetAt d (coreAlong s a t)) (w d (coreAlong s a t))
            (m d (coreAlong s a t)) (expectedNext b V d (coreAlong s a t)) (a t) (O t) (l t)) →
        |Q.real {ω | ∃ out g', (sim.withNumbers (fun r => Z r ω) (fun r => Y r ω)).run params g = (some out, g') ∧
            HasHistory out j sim.nPeriods a O} - ∏ t ∈ Finset.range sim.nPeriods, l t| ≤
          ∑ t ∈ Finset.range sim.nPeriods, exceptional (sim.rewards params) (κ t) tau (b.choiceSetAt d (coreAlong s a t))
            (w d (coreAlong s a t)) (m d (coreAlong s a t)) (expectedNext b V d (coreAlong s a t)) := by
  have : Nonempty Ω := by
    by_contra hne
    rw [not_nonempty_iff] at hne
    have := IsProbabilityMeasure.measure_univ (μ := Q)
    rw [Set.univ_eq_empty_iff.2 hne, measure_empty] at this
    exact zero_ne_one this
  obtain ⟨s, hs, hs0, d, hd, hfirst⟩ := initial_state_of_samples sim hrs params g hsample hT j hj
  refine ⟨s, hs, hs0, d, hd, hfirst, fun tau κ ht hκ a O l hl => ?_⟩
  have hmem := coreAlong_mem wf hs hs0 hd a hperiods fun t ht => (hl t ht).1
  have hset : {ω | ∃ out g', (sim.withNumbers (fun r => Z r ω) (fun r => Y r ω)).run params g = (some out, g') ∧
      HasHistory out j sim.nPeriods a O} = (fun ω r => (Z r ω, Y r ω)) ⁻¹'
        historyEvent b w m V (sim.rewards params) s d a O sim.input.length j sim.nPeriods R N := by
    ext ω
    obtain ⟨out, g', hrun, _, hrows, hsteps⟩ := hsample ω
    have hiff := hasHistory_iff hgrid (sim.withNumbers (fun r => Z r ω) (fun r => Y r ω)) hrs params g g' hrun hrows
      hsteps hN (fun r => Z r ω) (fun r => Y r ω) rfl rfl j hj (hfirst ω out g' hrun) a
      (fun t ht => simulatesState_of_wf hwf hexp hcodes hd (hmem t ht)) O
    constructor
    · rintro ⟨out', g'', hrun', hh⟩
      rw [hrun] at hrun'
      cases hrun'
      exact hiff.1 hh
    · intro hh
      exact ⟨out, g', hrun, hiff.2 hh⟩
  rw [hset]
  exact historyEvent_close Q hwf hexp hcodes hvar wf hs hs0 hd hperiods hj hR hN hZ ht hκ hl

/-! ### Small smoothing parameters -/

/-- The exceptional probability for small smoothing parameters. -/
theorem exceptional_small {p : RewardParams ℝ} {cs : List Bool} {w m c : Nat → ℝ} (h : SimulatesState p cs)
    (hlow : ∀ i j, i < j → entry p.cholesky i j = 0) (hdiag : ∀ b, cs[b]? = some true → entry p.cholesky b b ≠ 0)
    (hw : ∀ b, cs[b]? = some true → 0 < w b) {t : ℝ} (ht : 0 < t) (hlo : p.lo ≤ -t) (hhi : t ≤ p.hi) {ε : ℝ} (hε : 0 < ε) :
    ∃ tau₀ > 0, ∀ tau, 0 < tau → tau < tau₀ → ∃ κ > 0, exceptional p κ tau cs w m c ≤
      overAvailable cs (fun b => if b < p.nWagesRaw then shockCov p.cholesky cs b b / t ^ 2 else 0) + ε := by
  have hZ := exists_simulationNumbers cs.length
  obtain ⟨tau₀, h0, hmain⟩ := exists_small_tau (w := w) (m := m) (c := c) _ h hZ hε
  refine ⟨tau₀, h0, fun tau htau hlt => ?_⟩
  obtain ⟨κ, hκ, hle⟩ := hmain tau htau hlt
  refine ⟨κ, hκ, ?_⟩
  rw [exceptional_eq _ h hZ]
  refine hle.trans (add_le_add ?_ le_rfl)
  refine le_trans ?_ (C108_shocks_out_of_bounds (p := p) (cs := cs) _ hZ ht hlo hhi)
  have h1 := C108_no_ties (w := w) (m := m) (c := c) _ h.exp hZ hlow hdiag (fun b hb => (hw b hb).ne') h.available
  refine (measureReal_mono (s₂ := {ω : (Fin cs.length → ℝ) × (Fin cs.length → ℝ) |
      OutOfBounds p.lo p.hi p.cholesky p.nWagesRaw cs (numbersOf ω.1)} ∪
    {ω | Tied cs (utilityWith p cs w m c (numbersOf ω.1)) ∧
      ¬ OutOfBounds p.lo p.hi p.cholesky p.nWagesRaw cs (numbersOf ω.1)}) ?_).trans ((measureReal_union_le _ _).trans ?_)
  · intro ω hω
    by_cases hb : OutOfBounds p.lo p.hi p.cholesky p.nWagesRaw cs (numbersOf ω.1)
    · exact Or.inl hb
    · exact Or.inr ⟨hω.resolve_left hb, hb⟩
  · have h2 := congrArg ENNReal.toReal h1
    rw [ENNReal.toReal_zero, ← measureReal_def] at h2
    rw [h2, add_zero]

theorem exists_common_bound {α : Type} (l : List α) (P : α → ℝ → Prop) (h : ∀ x ∈ l, ∃ c > 0, ∀ tau, 0 < tau → tau < c → P x tau) :
    ∃ c > 0, ∀ x ∈ l, ∀ tau, 0 < tau → tau < c → P x tau := by
  induction l with
  | nil => exact ⟨1, one_pos, by simp⟩
  | cons y l ih =>
    obtain ⟨c, hc, h1⟩ := ih fun x hx => h x (List.mem_cons_of_mem _ hx)
    obtain ⟨c', hc', h2⟩ := h y List.mem_cons_self
    refine ⟨min c c', lt_min hc hc', fun x hx tau ht hlt => ?_⟩
    rcases List.mem_cons.1 hx with rfl | hx
    · exact h2 tau ht (hlt.trans_le (min_le_right _ _))
    · exact h1 x hx tau ht (hlt.trans_le (min_le_left _ _))

theorem uncertainWages_of_diagonal {p : RewardParams ℝ}
    (hdiag : ∀ d ∈ b.denseIndices, ∀ s ∈ core, ∀ a, b.Admissible d s a → entry p.cholesky a a ≠ 0) :
    b.UncertainWages core p := by
  intro d hd s hs a _ ha
  have hlt := positionIn_lt _ a ha
  have : 0 < shockCov p.cholesky (b.choiceSetAt d s) a a := by
    rw [shockCov, overAvailable_sum rfl]
    refine Finset.sum_pos' (fun i _ => mul_self_nonneg _) ⟨⟨positionIn _ a, hlt⟩, Finset.mem_univ _, ?_⟩
    simp only [alternativeAt_positionIn a ha]
    exact mul_self_pos.2 (hdiag d hd s hs a ha)
  positivity

/-- **C110.** If wages are positive, shocks have a regular distribution and the smoothing parameter of the likelihood is
small, the probability of each history of each individual in simulated samples differs from the probability of the
likelihood by little more than the sum of the variances of shocks of wages divided by the square of the bound `x` for
arguments of the exponential function. How small the smoothing parameter has to be does not depend on the individual and
the history. -/
theorem C110_small_smoothing_parameters (wf : b.WF core) (hgrid : b.GridNodup) (sim : Simulation ℝ G P)
    (hrs : sim.rs.Contract) (params : P) (g : G) (hexp : (sim.rewards params).exp = Real.exp)
    (hwf : (sim.rewards params).WF b core) (hcodes : b.RecordsBest core)
    (hlow : ∀ i j, i < j → entry (sim.rewards params).cholesky i j = 0)
    (hdiag : ∀ d ∈ b.denseIndices, ∀ s ∈ core, ∀ a, b.Admissible d s a → entry (sim.rewards params).cholesky a a ≠ 0)
    (hw : ∀ d ∈ b.denseIndices, ∀ s ∈ core, ∀ a, b.Admissible d s a → 0 < w d s a)
    {x : ℝ} (hx : 0 < x) (hlo : (sim.rewards params).lo ≤ -x) (hhi : x ≤ (sim.rewards params).hi)
    (hperiods : sim.nPeriods ≤ b.core.nPeriods) (hT : 0 < sim.nPeriods) {R N : Nat}
    (hR : sim.input.length * sim.nPeriods ≤ R)
    (hN : (sim.rewards params).measError.length = N) {Z Y : Fin R → Ω → Fin N → ℝ} (hZ : SampleNumbers Q Z Y)
    (hsample : ∀ ω, SampleFollows b core w m (fun d _ => [(d, 1)]) V
      (sim.withNumbers (fun r => Z r ω) (fun r => Y r ω)) params g) {ε : ℝ} (hε : 0 < ε) :
    ∃ tau₀ > 0, ∀ j < sim.input.length, ∃ s ∈ core, s.period = 0 ∧ ∃ d ∈ b.denseIndices,
      (∀ ω out g', (sim.withNumbers (fun r => Z r ω) (fun r => Y r ω)).run params g = (some out, g') →
        ∀ row ∈ out, row.id = j → row.state.core.period = 0 → row.state.core = s ∧ b.HasIndex row.state.dense d) ∧
      ∀ tau, 0 < tau → tau < tau₀ → ∀ (a : Nat → Nat) (O : Nat → Option (Set ℝ)) (l : Nat → ℝ),
        (∀ t < sim.nPeriods, b.Admissible d (coreAlong s a t) (a t) ∧
          (∀ B, O t = some B → a t < (sim.rewards params).nWagesRaw ∧ MeasurableSet B ∧ B ⊆ Set.Ioi 0) ∧
          IsObservedProbability (sim.rewards params) tau (b.choiceSetAt d (coreAlong s a t)) (w d (coreAlong s a t))
            (m d (coreAlong s a t)) (expectedNext b V d (coreAlong s a t)) (a t) (O t) (l t)) →
        |Q.real {ω | ∃ out g', (sim.withNumbers (fun r => Z r ω) (fun r => Y r ω)).run params g = (some out, g') ∧
            HasHistory out j sim.nPeriods a O} - ∏ t ∈ Finset.range sim.nPeriods, l t| ≤
          ∑ t ∈ Finset.range sim.nPeriods, overAvailable (b.choiceSetAt d (coreAlong s a t)) (fun c =>
            if c < (sim.rewards params).nWagesRaw then
              shockCov (sim.rewards params).cholesky (b.choiceSetAt d (coreAlong s a t)) c c / x ^ 2 else 0) + ε := by
  have hvar := uncertainWages_of_diagonal hdiag
  have hTr : (0 : ℝ) < sim.nPeriods := by exact_mod_cast hT
  obtain ⟨tau₀, h0, hsmall⟩ := exists_common_bound (b.denseIndices.product core) (fun ds tau =>
      ∃ κ > 0, exceptional (sim.rewards params) κ tau (b.choiceSetAt ds.1 ds.2) (w ds.1 ds.2) (m ds.1 ds.2)
        (expectedNext b V ds.1 ds.2) ≤ overAvailable (b.choiceSetAt ds.1 ds.2) (fun c =>
          if c < (sim.rewards params).nWagesRaw then
            shockCov (sim.rewards params).cholesky (b.choiceSetAt ds.1 ds.2) c c / x ^ 2 else 0) + ε / sim.nPeriods)
    (by
      rintro ⟨d, s⟩ hds
      obtain ⟨hd, hs⟩ := List.mem_product.1 hds
      exact exceptional_small (simulatesState_of_wf hwf hexp hcodes hd hs) hlow (fun c hc => hdiag d hd s hs c hc)
        (fun c hc => hw d hd s hs c hc) hx hlo hhi (by positivity))
  refine ⟨tau₀, h0, fun j hj => ?_⟩
  obtain ⟨s, hs, hs0, d, hd, hfirst, hmain⟩ := C110_histories_of_samples Q wf hgrid sim hrs params g hexp hwf hcodes hvar
    hperiods hT hR hN hZ hsample j hj
  refine ⟨s, hs, hs0, d, hd, hfirst, fun tau ht hlt a O l hl => ?_⟩
  have : Nonempty Ω := by
    by_contra hne
    rw [not_nonempty_iff] at hne
    have := IsProbabilityMeasure.measure_univ (μ := Q)
    rw [Set.univ_eq_empty_iff.2 hne, measure_empty] at this
    exact zero_ne_one this
  have hs0 : s.period = 0 := by
    obtain ⟨ω⟩ := this
    obtain ⟨out, g', hrun, hpanel, _, _⟩ := hsample ω
    obtain ⟨sp, fp, g1, states, data, hsp, hfp, hst, hlen, rfl, hdl, hdata, _⟩ :=
      run_spec (sim.withNumbers (fun r => Z r ω) (fun r => Y r ω)) hrs params g g' out hrun
    have hdl' : data.length = sim.nPeriods := hdl
    have h1 : data[0]? = some data[0] := List.getElem?_eq_getElem (by omega)
    obtain ⟨h2, h3⟩ := hdata 0 _ h1
    have h2' : data[0].length = sim.input.length := h2
    have h4 : data[0][j]? = some data[0][j] := List.getElem?_eq_getElem (by omega)
    obtain ⟨e1, e2, _⟩ := h3 j _ h4
    rw [← (hfirst ω _ g' hrun _ ((mem_processOutput data _).2 ⟨0, j, _, h1, h4⟩) e1 e2).1]
    exact e2
  have hmem := coreAlong_mem wf hs hs0 hd a hperiods fun t ht => (hl t ht).1
  have hk : ∀ t, ∃ κ > 0, t < sim.nPeriods → exceptional (sim.rewards params) κ tau (b.choiceSetAt d (coreAlong s a t))
      (w d (coreAlong s a t)) (m d (coreAlong s a t)) (expectedNext b V d (coreAlong s a t)) ≤
        overAvailable (b.choiceSetAt d (coreAlong s a t)) (fun c => if c < (sim.rewards params).nWagesRaw then
          shockCov (sim.rewards params).cholesky (b.choiceSetAt d (coreAlong s a t)) c c / x ^ 2 else 0) +
            ε / sim.nPeriods := by
    intro t
    by_cases htT : t < sim.nPeriods
    · obtain ⟨κ, h1, h2⟩ := hsmall (d, coreAlong s a t) (List.mem_product.2 ⟨hd, hmem t htT⟩) tau ht hlt
      exact ⟨κ, h1, fun _ => h2⟩
    · exact ⟨1, one_pos, fun h => absurd h htT⟩
  choose κ hκ hle using hk
  refine (hmain tau κ ht hκ a O l fun t htT => ⟨(hl t htT).1, fun B hB => ?_, (hl t htT).2.2⟩).trans ?_
  · obtain ⟨h1, h2, h3⟩ := (hl t htT).2.1 B hB
    exact ⟨h1, hw d hd _ (hmem t htT) _ (hl t htT).1, hvar d hd _ (hmem t htT) _ h1 (hl t htT).1, h2, h3⟩
  · refine (Finset.sum_le_sum fun t htT => hle t (Finset.mem_range.1 htT)).trans ?_
    rw [Finset.sum_add_distrib, Finset.sum_const, Finset.card_range, nsmul_eq_mul, mul_div_cancel₀ _ hTr.ne']

end

end Respy
