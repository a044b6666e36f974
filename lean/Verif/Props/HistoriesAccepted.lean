import Verif.Props.Histories
import Verif.Props.OwnSamples
import Verif.Props.ProcessEstimate
import Verif.Props.ProcessSimulate

/-!
# Simulated histories of accepted models

C110 for models given by parameters and options.
-/

open MeasureTheory ProbabilityTheory

namespace Respy

noncomputable section

variable {env : ProcessEnv} {m : UserModel} {p : Processed} {ev : FormulaEval} {core : List CoreState} {G : Type}

/-- **C110 (partial).** Every supported model without exogenous processes which is accepted: the model is solved, and if
the smoothing parameter of the likelihood is small, the probability of each history of choices and wages of each
individual in simulated samples differs from the probability of the likelihood by little more than the sum of the
variances of shocks of wages divided by the square of the bound `x` for arguments of the exponential function. Missing:
exogenous processes, models whose creation fails (C86), more than one lag, and choice sets for which other alternatives
than the chosen ones are recorded (C24). -/
theorem C110_histories_of_accepted_models_partial (hp : processModel env m = some p) (hev : ev.Contract)
    (hs : p.Supported m ev core) (hcore : createCore (p.buildSpec ev).core = some core)
    (hexo : p.exogenous = []) (hkeep : env.KeepsShape) (hlow : env.LowerTriangular) (hnd : (Dict.keys m.params).Nodup)
    (hother : ∀ q ∈ m.params, mentionsShocks q.1 = true → ∃ c ∈ shockCategories, q.1.1 = c.toList)
    (senv : SolveEnv) (hfit : senv.Fits (p.buildSpec ev) core)
    (hallowed : ∀ d ∈ (p.buildSpec ev).denseIndices, ∀ s ∈ core, ∃ c ∈ p.choices.choices, p.Allowed m ev d s c)
    (hpts : (p.buildSpec ev).PointsSuffice core p.discount.delta)
    (hdiag : ∀ a < p.choices.choices.length, entry p.cholesky a a ≠ 0)
    (hcodes : (p.buildSpec ev).RecordsBest core)
    (rng : InterpolationRandom) (hrng : rng.Contract) (sqrt : ℝ → ℝ) (ols : List ℝ → List (List ℝ) → List ℝ)
    (maxLog : ℝ) (seed : Nat)
    (ev0 : Built → Dict Nat (List ℝ)) (hev0 : ∀ bt, SameShape (initialValues bt.space) (ev0 bt))
    (vc ko : List Nat → List Nat) (hvc : ∀ l x, x ∈ vc l ↔ x ∈ l) (hko : ∀ l x, x ∈ ko l ↔ x ∈ l)
    {x : ℝ} (hx : 0 < x) (hlo : senv.lo ≤ -x) (hhi : x ≤ senv.hi) {ε : ℝ} (hε : 0 < ε) :
    ∃ bt sp V, buildSpace (p.buildSpec ev) = some bt ∧
      (p.solveInput ev senv).solveModel (p.buildSpec ev) (fun _ => some []) (kw94 bt.space rng sqrt ols
        (expShocks Real.exp maxLog p.choices.wWage.length p.cholesky)) seed ev0 vc ko = some sp ∧
      IsSolution (p.buildSpec ev) core p.discount.delta (p.solveInput ev senv).wageOf
        (p.solveInput ev senv).nonpecOf (p.solveInput ev senv).shocks (fun d _ => [(d, 1)])
        (expectedShock Real.exp maxLog p.choices.wWage.length p.cholesky) sqrt ols V ∧
      ∀ e : SimulateEnv G, p.Samplable ev e.input → e.Fits p (p.buildSpec ev) → ∀ g,
        ∀ {Ω : Type} [MeasurableSpace Ω] (Q : Measure Ω) [IsProbabilityMeasure Q]
          {Z Y : Fin (p.nPeriods * e.input.length) → Ω → Fin p.choices.choices.length → ℝ}, SampleNumbers Q Z Y →
        ∃ tau₀ > 0, ∀ j < e.input.length, ∃ s ∈ core, s.period = 0 ∧ ∃ d ∈ (p.buildSpec ev).denseIndices,
          (∀ ω out g', ((p.simulation ev senv e (some sp)).withNumbers (fun r => Z r ω) (fun r => Y r ω)).run () g =
            (some out, g') → ∀ row ∈ out, row.id = j → row.state.core.period = 0 →
              row.state.core = s ∧ (p.buildSpec ev).HasIndex row.state.dense d) ∧
          ∀ tau, 0 < tau → tau < tau₀ → ∀ (a : Nat → Nat) (O : Nat → Option (Set ℝ)) (l : Nat → ℝ),
            (∀ t < p.nPeriods, (p.buildSpec ev).Admissible d (coreAlong s a t) (a t) ∧
              (∀ B, O t = some B → a t < p.choices.wWage.length ∧ MeasurableSet B ∧ B ⊆ Set.Ioi 0) ∧
              IsObservedProbability (p.rewardParams senv) tau ((p.buildSpec ev).choiceSetAt d (coreAlong s a t))
                ((p.solveInput ev senv).wageOf d (coreAlong s a t))
                ((p.solveInput ev senv).nonpecOf d (coreAlong s a t))
                (expectedNext (p.buildSpec ev) V d (coreAlong s a t)) (a t) (O t) (l t)) →
            |Q.real {ω | ∃ out g', ((p.simulation ev senv e (some sp)).withNumbers (fun r => Z r ω)
                (fun r => Y r ω)).run () g = (some out, g') ∧ HasHistory out j p.nPeriods a O} -
                ∏ t ∈ Finset.range p.nPeriods, l t| ≤
              ∑ t ∈ Finset.range p.nPeriods, overAvailable ((p.buildSpec ev).choiceSetAt d (coreAlong s a t)) (fun c =>
                if c < p.choices.wWage.length then
                  shockCov p.cholesky ((p.buildSpec ev).choiceSetAt d (coreAlong s a t)) c c / x ^ 2 else 0) + ε := by
  obtain ⟨covs, h⟩ := processModel_from env m p hp
  obtain ⟨bt, sp, V, h1, h2, h3, h4⟩ := C83_samples_of_accepted_models_partial (G := G) hp hev hs hcore hexo hkeep hnd
    hother senv hfit hallowed hpts rng hrng sqrt ols maxLog seed ev0 hev0 vc ko hvc hko
  refine ⟨bt, sp, V, h1, h2, h3, fun e hsam he g Ω _ Q _ Z Y hZ => ?_⟩
  have hcs : ∀ d ∈ (p.buildSpec ev).denseIndices, ∀ s ∈ core,
      ∃ a : Nat, ((p.buildSpec ev).choiceSetAt d s)[a]? = some true := by
    intro d hd s hmem
    obtain ⟨c, hc, hall⟩ := hallowed d hd s hmem
    obtain ⟨a, ha⟩ := List.mem_iff_getElem?.1 hc
    exact ⟨a, (C82_choice_sets_by_name hp hev hs.toDescribed hcore d hd s hmem a c ha).2 hall⟩
  have hfits := hsam.fits h hs (denseColumns_types p hexo) h.observables_ne hkeep hnd hother hcs senv e he (some sp)
  have hgrid : (p.buildSpec ev).GridNodup := (denseLevels_grid p ev).nodup (denseLevels_nodup p)
  have hsample : ∀ ω, SampleFollows (p.buildSpec ev) core (p.solveInput ev senv).wageOf (p.solveInput ev senv).nonpecOf
      (fun d _ => [(d, 1)]) V ((p.simulation ev senv e (some sp)).withNumbers (fun r => Z r ω) (fun r => Y r ω)) () g := by
    intro ω
    refine h4 { e with
      draws := List.ofFn fun r => List.ofFn (Z r ω), drawsWage := List.ofFn fun r => List.ofFn (Y r ω) } hsam
      ⟨he.source, he.individuals, ?_, ?_, ?_, ?_, he.input⟩ g
    · simp [mul_comm]
    · simp [mul_comm]
    · intro row hrow
      obtain ⟨r, rfl⟩ := List.mem_ofFn.1 hrow
      simp
    · intro row hrow
      obtain ⟨r, rfl⟩ := List.mem_ofFn.1 hrow
      simp
  exact C110_small_smoothing_parameters Q (C82_processed_models_well_formed hp hev hs hcore) hgrid
    (p.simulation ev senv e (some sp)) he.source () g rfl hfits.rewards hcodes (h.cholesky_lower hlow hnd hother)
    (fun d hd s hmem a ha => hdiag a (by
      have := (List.getElem?_eq_some_iff.1 ha).1
      rwa [choiceSetAt_length] at this))
    (fun d _ s _ a _ => processed_wageOf_pos p ev senv d s a) hx hlo hhi (le_refl _) hsam.periods
    (by rw [mul_comm]; rfl) h.measurement_length hZ hsample hε

end

end Respy
