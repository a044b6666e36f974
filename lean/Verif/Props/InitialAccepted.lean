import Verif.Lemmas.InitialLaw
import Verif.Props.HistoriesAccepted
import Verif.Props.InitialHistories
import Verif.Props.Types

/-!
# Initial characteristics and histories of accepted models

C111 and C112 for models given by parameters and options.
-/

open MeasureTheory ProbabilityTheory

namespace Respy

noncomputable section

/-! ### Characteristics -/

section
variable {env : ProcessEnv} {m : UserModel} {p : Processed} {ev : FormulaEval} {covariates : Dict Str Str}

/-- No level of a characteristic is listed twice. -/
theorem sampledVariable_nodup (h : ProcessedFrom env m p covariates) (v : SampledVariable)
    (hv : v ∈ p.sampledVariables) : v.levels.Nodup := by
  unfold Processed.sampledVariables at hv
  rw [List.mem_append, List.mem_append, List.mem_append] at hv
  rcases hv with ((hv | hv) | hv) | hv
  · obtain ⟨o, _, rfl⟩ := List.mem_map.1 hv
    exact List.nodup_range
  · obtain ⟨⟨c, e⟩, hce, rfl⟩ := List.mem_map.1 hv
    show (Dict.keys e.1).Nodup
    obtain ⟨i, hi⟩ := List.mem_iff_getElem?.1 (List.of_mem_zip hce).2
    obtain ⟨hlt, _⟩ := List.getElem?_eq_some_iff.1 hi
    have hlt' : i < p.choices.wExp.length := by rw [← h.experience_length]; exact hlt
    have := mapM_getElem? _ _ _ h.experience i _ (List.getElem?_eq_getElem hlt')
    rw [hi] at this
    have this := this.symm
    unfold parseExperience at this
    obtain ⟨parsed, h1, this⟩ := Option.bind_eq_some_iff.1 this
    obtain ⟨mx, _, this⟩ := Option.bind_eq_some_iff.1 this
    cases this
    cases hg : parseGroup env.maxFloat (experienceParams p.choices.wExp[i] m.params) with
    | error err => rw [hg] at h1; cases h1
    | ok d =>
      rw [hg] at h1
      cases h1
      cases parsed with
      | none => simp [Dict.keys]
      | some d =>
        show (Dict.keys d).Nodup
        rw [parseGroup_keys _ _ _ hg, (List.perm_insertionSort _ _).nodup_iff]
        exact List.nodup_dedup _
  · obtain ⟨x, _, rfl⟩ := List.mem_map.1 hv
    exact List.nodup_range
  · split at hv
    · rw [List.mem_singleton] at hv
      subst hv
      exact List.nodup_range
    · cases hv

/-- The characteristics of accepted models have multinomial logit distributions. -/
theorem followLaws_of_accepted (h : ProcessedFrom env m p covariates) (hc : (Dict.keys m.covariates).Nodup)
    (hchoice : p.choices.choices ≠ []) (hf : p.FormulasSound ev)
    (hid : "identifier".toList ∉ Dict.keys p.groups.all) {input : List CharRow}
    (hwidth : ∀ row ∈ input, row.length = p.stateColumns.length) (hsam : p.Samplable ev input) :
    FollowLaws input.length (p.sampledVariables.map (p.characteristic ev)) (p.sampledVariables.map (p.initialLaw ev))
      fun j row => input[j]? = some row :=
  followLaws_of_samplable h hc hchoice h.observables_ne hf hid (sampledVariable_nodup h) hwidth hsam

/-- **C111.** Every accepted model: individuals are given characteristics, independently of each other, and each
characteristic which is not known has the multinomial logit distribution of its parameters and the covariates of the
individual, which depend on the characteristics known or sampled before. -/
theorem C111_characteristics_of_accepted_models (hp : processModel env m = some p) (hc : (Dict.keys m.covariates).Nodup)
    (hchoice : p.choices.choices ≠ []) (hf : p.FormulasSound ev)
    (hid : "identifier".toList ∉ Dict.keys p.groups.all) {input : List CharRow}
    (hwidth : ∀ row ∈ input, row.length = p.stateColumns.length) (hsam : p.Samplable ev input) {Ω : Type}
    [MeasurableSpace Ω] (Q : Measure Ω) {G : Type} {rs : Ω → RandomSource ℝ G} {seed : Nat}
    {U : Fin input.length → Ω → Fin (p.sampledVariables.map (p.initialLaw ev)).length → ℝ}
    (hU : InitialNumbers Q rs seed U) (g : G) :
    (∀ ω, ∃ fp g', sampleAll (rs ω) (p.sampledVariables.map (p.characteristic ev)) seed input g = some (fp, g') ∧
      fp.length = input.length) ∧
    ∀ (J : Finset (Fin input.length)) (target : Fin input.length → CharRow),
      Q.real {ω | ∃ fp g', sampleAll (rs ω) (p.sampledVariables.map (p.characteristic ev)) seed input g =
        some (fp, g') ∧ ∀ j ∈ J, fp[(j : Nat)]? = some (target j)} =
        ∏ j ∈ J, initialProbability j (target j) (p.sampledVariables.map (p.initialLaw ev)) input[j] := by
  obtain ⟨covs, h⟩ := processModel_from env m p hp
  exact C111_distribution_of_characteristics Q (followLaws_of_accepted h hc hchoice hf hid hwidth hsam) hU g

/-- **C111.** Characteristics have a positive probability if they have the known values, and possible levels for the missing
ones which are sampled. -/
theorem C111_possible_characteristics {j : Nat} {t : CharRow} : ∀ {laws : List CharacteristicLaw} {row : CharRow},
    (∀ l ∈ laws, l.levels ≠ [] ∧ ∀ row, (l.weights j row).length = l.levels.length ∧ ∀ q ∈ l.weights j row, 0 < q) →
    (∀ i : Nat, row[i]? = t[i]? ∧ (row[i]? = some none → ∀ l ∈ laws, l.column ≠ i) ∨
      row[i]? = some none ∧ (∃ l ∈ laws, l.column = i) ∧
        ∀ l ∈ laws, l.column = i → ∃ v ∈ l.levels, t[i]? = some (some v)) →
    0 < initialProbability j t laws row := by
  intro laws
  induction laws with
  | nil =>
    intro row _ hrow
    rw [initialProbability, if_pos]
    · exact one_pos
    · refine List.ext_getElem? fun i => ((hrow i).resolve_right ?_).1
      rintro ⟨_, ⟨l, hl, _⟩, _⟩
      cases hl
  | cons l laws ih =>
    intro row hlaws hrow
    have hlaws' := fun k (hk : k ∈ laws) => hlaws k (List.mem_cons_of_mem _ hk)
    obtain ⟨hne, hw⟩ := hlaws l (List.mem_cons_self)
    obtain ⟨hlen, hpos⟩ := hw row
    have hrest : ∀ i, l.column ≠ i → (row[i]? = t[i]? ∧ (row[i]? = some none → ∀ k ∈ laws, k.column ≠ i) ∨
        row[i]? = some none ∧ (∃ k ∈ laws, k.column = i) ∧
          ∀ k ∈ laws, k.column = i → ∃ v ∈ k.levels, t[i]? = some (some v)) := by
      intro i hi
      refine (hrow i).imp (fun ⟨h1, h2⟩ => ⟨h1, fun h k hk => h2 h k (List.mem_cons_of_mem _ hk)⟩)
        fun ⟨h1, ⟨k, hk, hki⟩, h3⟩ => ⟨h1, ⟨k, ?_, hki⟩, fun k hk => h3 k (List.mem_cons_of_mem _ hk)⟩
      rcases List.mem_cons.1 hk with rfl | hk
      · exact absurd hki hi
      · exact hk
    have hterm : ∀ v ∈ l.levels, 0 ≤ initialProbability j t laws (fillColumn l.column row v) := by
      intro v _
      have hall : ∀ (laws : List CharacteristicLaw) (row : CharRow), (∀ k ∈ laws, ∀ row, ∀ q ∈ k.weights j row, 0 < q) →
          0 ≤ initialProbability j t laws row := by
        intro laws
        induction laws with
        | nil => intro row _; rw [initialProbability]; split <;> norm_num
        | cons k laws ih =>
          intro row hk
          rw [initialProbability]
          refine List.sum_nonneg fun y hy => ?_
          obtain ⟨x, hx, rfl⟩ := List.mem_map.1 hy
          exact mul_nonneg (hk k List.mem_cons_self row _ (List.of_mem_zip hx).2).le
            (ih _ fun k' hk' => hk k' (List.mem_cons_of_mem _ hk'))
      exact hall _ _ fun k hk row => ((hlaws' k hk).2 row).2
    obtain ⟨v, hv, hnext⟩ : ∃ v ∈ l.levels, 0 < initialProbability j t laws (fillColumn l.column row v) := by
      by_cases hm : row[l.column]? = some none
      · rcases hrow l.column with ⟨_, h⟩ | ⟨_, _, h⟩
        · exact absurd rfl (h hm l List.mem_cons_self)
        · obtain ⟨v, hv, htv⟩ := h l (List.mem_cons_self) rfl
          refine ⟨v, hv, ih hlaws' fun i => ?_⟩
          by_cases hi : l.column = i
          · subst hi
            left
            rw [fillColumn_getElem?_missing _ _ _ hm, htv]
            exact ⟨rfl, fun h => by cases h⟩
          · rw [fillColumn_getElem?_ne _ _ _ _ hi]
            exact hrest i hi
      · obtain ⟨v, hv⟩ := List.exists_mem_of_ne_nil _ hne
        have hfill : ∀ i : Nat, (fillColumn l.column row v)[i]? = row[i]? := by
          intro i
          by_cases hi : l.column = i
          · subst hi
            unfold fillColumn
            rw [List.getElem?_modify]
            cases hr : row[l.column]? with
            | none => rfl
            | some x =>
              cases x with
              | none => exact absurd hr hm
              | some x => simp
          · exact fillColumn_getElem?_ne _ _ _ _ hi
        refine ⟨v, hv, ih hlaws' fun i => ?_⟩
        rw [hfill]
        by_cases hi : l.column = i
        · subst hi
          left
          exact ⟨((hrow l.column).resolve_right fun h => hm h.1).1, fun h => absurd h hm⟩
        · exact hrest i hi
    obtain ⟨i, hi⟩ := List.mem_iff_getElem?.1 hv
    obtain ⟨hlt, hvi⟩ := List.getElem?_eq_some_iff.1 hi
    have hlt' : i < (l.weights j row).length := by rw [hlen]; exact hlt
    rw [initialProbability]
    refine lt_of_lt_of_le (mul_pos (hpos _ (List.getElem_mem hlt')) hnext) ?_
    refine List.single_le_sum (l := (l.levels.zip (l.weights j row)).map fun x =>
      x.2 * initialProbability j t laws (fillColumn l.column row x.1)) ?_ _ ?_
    · intro y hy
      obtain ⟨x, hx, rfl⟩ := List.mem_map.1 hy
      exact mul_nonneg (hpos _ (List.of_mem_zip hx).2).le (hterm _ (List.of_mem_zip hx).1)
    · refine List.mem_map.2 ⟨(v, (l.weights j row)[i]), List.mem_iff_getElem?.2 ⟨i, ?_⟩, rfl⟩
      rw [List.getElem?_zip_eq_some]
      exact ⟨hi, List.getElem?_eq_getElem hlt'⟩

/-- The distributions of accepted models give a positive probability to each level. -/
theorem initialLaw_pos (h : ProcessedFrom env m p covariates) (hchoice : p.choices.choices ≠ []) {input : List CharRow}
    (hsam : p.Samplable ev input) (v : SampledVariable) (hv : v ∈ p.sampledVariables) (j : Nat) :
    (p.initialLaw ev v).levels ≠ [] ∧ ∀ row, ((p.initialLaw ev v).weights j row).length = (p.initialLaw ev v).levels.length ∧
      ∀ q ∈ (p.initialLaw ev v).weights j row, 0 < q := by
  obtain ⟨g1, g2⟩ := sampledVariable_levels h hchoice h.observables_ne hsam.lags hsam.types v hv
  refine ⟨g1, fun row => ⟨?_, fun q hq => ?_⟩⟩
  · show (logit _).length = _
    rw [logit, List.length_map, List.length_map]
    exact g2.symm
  · obtain ⟨x, hx, rfl⟩ := List.mem_map.1 hq
    refine div_pos (Real.exp_pos _) (List.sum_pos _ (fun y hy => ?_) ?_)
    · obtain ⟨z, _, rfl⟩ := List.mem_map.1 hy
      exact Real.exp_pos z
    · intro h0
      rw [List.map_eq_nil_iff] at h0
      rw [h0] at hx
      cases hx

end

/-! ### Histories -/

section
variable {G P : Type} {b : BuildSpec} {core : List CoreState} {w m : Option Nat → CoreState → Nat → ℝ}
  {V : Option Nat → CoreState → ℝ} {Ω : Type} [MeasurableSpace Ω] (Q : Measure Ω) [IsProbabilityMeasure Q]

/-- **C112.** If wages are positive, shocks have a regular distribution and the smoothing parameter of the likelihood is
small: an individual whose type is not observed starts with characteristics `s` and `obs` and has a history with a
probability which is close to the probability of the characteristics times the probability of the likelihood, the average
over types. How small the smoothing parameter has to be depends neither on the individual nor on the characteristics and the
history. -/
theorem C112_small_smoothing_parameters (wf : b.WF core) (hgrid : b.GridNodup) (sim : Simulation ℝ G P) (params : P)
    (g : G) (hexp : (sim.rewards params).exp = Real.exp) (hwf : (sim.rewards params).WF b core)
    (hcodes : b.RecordsBest core)
    (hlow : ∀ i j, i < j → entry (sim.rewards params).cholesky i j = 0)
    (hdiag : ∀ d ∈ b.denseIndices, ∀ s ∈ core, ∀ a, b.Admissible d s a → entry (sim.rewards params).cholesky a a ≠ 0)
    (hw : ∀ d ∈ b.denseIndices, ∀ s ∈ core, ∀ a, b.Admissible d s a → 0 < w d s a)
    {x : ℝ} (hx : 0 < x) (hlo : (sim.rewards params).lo ≤ -x) (hhi : x ≤ (sim.rewards params).hi)
    (hperiods : sim.nPeriods ≤ b.core.nPeriods) (hT : 0 < sim.nPeriods) {R N : Nat}
    (hR : sim.input.length * sim.nPeriods ≤ R) (hN : (sim.rewards params).measError.length = N)
    {laws : List CharacteristicLaw} {types : CharacteristicLaw}
    (hlaws : FollowLaws sim.input.length (sim.chars params) (laws ++ [types]) fun j row => sim.input[j]? = some row)
    {rs : Ω → RandomSource ℝ G} (hrs : ∀ ω, (rs ω).Contract)
    {U : Fin sim.input.length → Ω → Fin (laws ++ [types]).length → ℝ}
    {Z Y : Fin R → Ω → Fin N → ℝ} (hnum : AllNumbers Q rs sim.seed U Z Y)
    (hsample : ∀ ω, SampleFollows b core w m (fun d _ => [(d, 1)]) V
      (sim.withRandom (rs ω) (fun r => Z r ω) (fun r => Y r ω)) params g)
    (hcol : types.column ∉ laws.map (·.column)) {ε : ℝ} (hε : 0 < ε) :
    ∃ tau₀ > 0, ∀ j : Fin sim.input.length, sim.input[j][types.column]? = some none → ∀ s ∈ core, s.period = 0 →
      s.exp.length = sim.nExp → s.lags.length = sim.nLags → (∀ x ∈ s.lags, x ≠ none) → ∀ obs : List Nat,
      types.column = sim.nExp + sim.nLags + obs.length → ∀ d : Nat → Option Nat,
      (∀ v ∈ types.levels, b.HasIndex (obs ++ [v]) (d v) ∧ d v ∈ b.denseIndices) →
      ∀ tau, 0 < tau → tau < tau₀ → ∀ (a : Nat → Nat) (O : Nat → Option (Set ℝ)) (l : Nat → Nat → ℝ),
        (∀ v ∈ types.levels, ∀ t < sim.nPeriods, b.Admissible (d v) (coreAlong s a t) (a t) ∧
          (∀ B, O t = some B → a t < (sim.rewards params).nWagesRaw ∧ MeasurableSet B ∧ B ⊆ Set.Ioi 0) ∧
          IsObservedProbability (sim.rewards params) tau (b.choiceSetAt (d v) (coreAlong s a t))
            (w (d v) (coreAlong s a t)) (m (d v) (coreAlong s a t)) (expectedNext b V (d v) (coreAlong s a t)) (a t)
            (O t) (l v t)) →
        ∃ ps, ps = types.weights j (rowOfState s obs ++ [none]) ∧
        (initialProbability j (rowOfState s obs ++ [none]) laws sim.input[j] ≠ 0 → IsDistribution types.levels ps) ∧
        Q.real {ω | ∃ out g', (sim.withRandom (rs ω) (fun r => Z r ω) (fun r => Y r ω)).run params g = (some out, g') ∧
          ∃ v ∈ types.levels, StartsIn out j s (obs ++ [v])} =
            initialProbability j (rowOfState s obs ++ [none]) laws sim.input[j] ∧
        |Q.real {ω | ∃ out g', (sim.withRandom (rs ω) (fun r => Z r ω) (fun r => Y r ω)).run params g = (some out, g') ∧
            (∃ v ∈ types.levels, StartsIn out j s (obs ++ [v])) ∧ HasHistory out j sim.nPeriods a O} -
            initialProbability j (rowOfState s obs ++ [none]) laws sim.input[j] *
              ((types.levels.zip ps).map fun x => x.2 * ∏ t ∈ Finset.range sim.nPeriods, l x.1 t).sum| ≤
          initialProbability j (rowOfState s obs ++ [none]) laws sim.input[j] *
            (((types.levels.zip ps).map fun y => y.2 * ∑ t ∈ Finset.range sim.nPeriods,
              overAvailable (b.choiceSetAt (d y.1) (coreAlong s a t)) (fun c =>
                if c < (sim.rewards params).nWagesRaw then
                  shockCov (sim.rewards params).cholesky (b.choiceSetAt (d y.1) (coreAlong s a t)) c c / x ^ 2
                else 0)).sum + ε) := by
  have hvar := uncertainWages_of_diagonal hdiag
  have hTr : (0 : ℝ) < sim.nPeriods := by exact_mod_cast hT
  obtain ⟨tau₀, h0, hsmall⟩ := exists_common_bound (b.denseIndices.product core) (fun ds tau =>
      ∃ κ > 0, exceptional (sim.rewards params) κ tau (b.choiceSetAt ds.1 ds.2) (w ds.1 ds.2) (m ds.1 ds.2)
        (expectedNext b V ds.1 ds.2) ≤ overAvailable (b.choiceSetAt ds.1 ds.2) (fun c =>
          if c < (sim.rewards params).nWagesRaw then
            shockCov (sim.rewards params).cholesky (b.choiceSetAt ds.1 ds.2) c c / x ^ 2 else 0) + ε / sim.nPeriods)
    (by
      rintro ⟨d, s⟩ hds
      obtain ⟨hd, hs⟩ := List.mem_product.1 hds
      exact exceptional_small (simulatesState_of_wf hwf hexp hcodes hd hs) hlow (fun c hc => hdiag d hd s hs c hc)
        (fun c hc => hw d hd s hs c hc) hx hlo hhi (by positivity))
  refine ⟨tau₀, h0, fun j hmissing s hs hs0 hse hsl hlags obs hobs d hd tau ht hlt a O l hl => ?_⟩
  have hk : ∀ v t, ∃ κ > 0, v ∈ types.levels → t < sim.nPeriods →
      exceptional (sim.rewards params) κ tau (b.choiceSetAt (d v) (coreAlong s a t))
        (w (d v) (coreAlong s a t)) (m (d v) (coreAlong s a t)) (expectedNext b V (d v) (coreAlong s a t)) ≤
        overAvailable (b.choiceSetAt (d v) (coreAlong s a t)) (fun c => if c < (sim.rewards params).nWagesRaw then
          shockCov (sim.rewards params).cholesky (b.choiceSetAt (d v) (coreAlong s a t)) c c / x ^ 2 else 0) +
            ε / sim.nPeriods := by
    intro v t
    by_cases h : v ∈ types.levels ∧ t < sim.nPeriods
    · have hmem := coreAlong_mem wf hs hs0 (hd v h.1).2 a hperiods (fun t ht => (hl v h.1 t ht).1) t h.2
      obtain ⟨κ, h1, h2⟩ := hsmall (d v, coreAlong s a t) (List.mem_product.2 ⟨(hd v h.1).2, hmem⟩) tau ht hlt
      exact ⟨κ, h1, fun _ _ => h2⟩
    · exact ⟨1, one_pos, fun h1 h2 => absurd ⟨h1, h2⟩ h⟩
  choose κ hκ hle using hk
  obtain ⟨ps, hps, hdist, hstart, hmain⟩ := C112_unobserved_types (κ := κ) Q wf hgrid sim params g hexp hwf hcodes hvar hperiods
    hT hR hN hlaws hrs hnum hsample j hmissing hcol hs hs0 hse hsl hlags hobs hd ht hκ (a := a) (O := O) (l := l)
    (fun v hv t htT => ⟨(hl v hv t htT).1, fun B hB => by
      have hmem := coreAlong_mem wf hs hs0 (hd v hv).2 a hperiods (fun t ht => (hl v hv t ht).1) t htT
      obtain ⟨h1, h2, h3⟩ := (hl v hv t htT).2.1 B hB
      exact ⟨h1, hw _ (hd v hv).2 _ hmem _ (hl v hv t htT).1, hvar _ (hd v hv).2 _ hmem _ h1 (hl v hv t htT).1, h2, h3⟩,
      (hl v hv t htT).2.2⟩)
  refine ⟨ps, hps, hdist, hstart, hmain.trans ?_⟩
  have hPn : 0 ≤ initialProbability j (rowOfState s obs ++ [none]) laws sim.input[j] := by
    rw [← hstart]; exact measureReal_nonneg
  by_cases hP : initialProbability j (rowOfState s obs ++ [none]) laws sim.input[j] = 0
  · rw [hP, zero_mul, zero_mul]
  refine mul_le_mul_of_nonneg_left ?_ hPn
  obtain ⟨d1, d2, d3⟩ := hdist hP
  have hsnd : ((types.levels.zip ps).map fun y => y.2) = ps := List.map_snd_zip (by rw [d1])
  have hε : ε = ((types.levels.zip ps).map fun y => y.2 * ε).sum := by
    rw [List.sum_map_mul_right, hsnd, d3, one_mul]
  conv_rhs => rw [hε]
  rw [← List.sum_map_add]
  refine List.sum_le_sum fun y hy => ?_
  rw [← mul_add]
  refine mul_le_mul_of_nonneg_left ?_ (d2 _ (List.of_mem_zip hy).2)
  refine (Finset.sum_le_sum fun t htT => hle y.1 t (List.of_mem_zip hy).1 (Finset.mem_range.1 htT)).trans ?_
  rw [Finset.sum_add_distrib, Finset.sum_const, Finset.card_range, nsmul_eq_mul, mul_div_cancel₀ _ hTr.ne']

end

/-! ### Accepted models -/

section
variable {env : ProcessEnv} {m : UserModel} {p : Processed} {ev : FormulaEval} {core : List CoreState} {G : Type}

/-- The distribution of types. -/
def Processed.typeLaw (p : Processed) (ev : FormulaEval) : CharacteristicLaw :=
  p.initialLaw ev ⟨"type".toList, List.range p.typeProb.length, p.typeProb.map Prod.snd⟩

/-- The distributions of the characteristics which are sampled before types. -/
def Processed.otherLaws (p : Processed) (ev : FormulaEval) : List CharacteristicLaw :=
  p.sampledVariables.dropLast.map (p.initialLaw ev)

/-- Types are sampled last. -/
theorem laws_types (h2 : 2 ≤ p.nTypes) :
    p.sampledVariables.map (p.initialLaw ev) = p.otherLaws ev ++ [p.typeLaw ev] := by
  unfold Processed.otherLaws Processed.typeLaw Processed.sampledVariables
  rw [if_pos h2, List.dropLast_concat, List.map_append]
  rfl

/-- The type is the last column. -/
theorem typeLaw_column (h2 : 2 ≤ p.nTypes) (hexo : p.exogenous = []) (hn : p.stateColumns.Nodup) :
    (p.typeLaw ev).column = p.choices.wExp.length + p.lags.length + p.observables.length ∧
    (p.typeLaw ev).column ∉ (p.otherLaws ev).map (·.column) := by
  have hsc : p.stateColumns = ((p.choices.wExp.map fun c => "exp_".toList ++ c) ++
      ((List.range p.lags.length).map fun i => "lagged_choice_".toList ++ codeText (i + 1)) ++
      Dict.keys p.observables) ++ ["type".toList] := by
    rw [List.append_assoc]
    have := denseColumns_types p hexo
    rw [if_pos h2] at this
    rw [← this]; rfl
  generalize hX : (p.choices.wExp.map fun c => "exp_".toList ++ c) ++
      ((List.range p.lags.length).map fun i => "lagged_choice_".toList ++ codeText (i + 1)) ++
      Dict.keys p.observables = X at hsc
  rw [hsc] at hn
  have htype : "type".toList ∉ X := fun hx => by
    have := (List.nodup_append.1 hn).2.2 _ hx _ (List.mem_singleton_self _)
    exact this rfl
  have hcol : (p.typeLaw ev).column = X.length := by
    show p.stateColumns.idxOf "type".toList = _
    rw [hsc, List.idxOf_append_of_notMem htype]
    simp
  refine ⟨by rw [hcol, ← hX]; simp [Dict.keys, Nat.add_assoc], fun hmem => ?_⟩
  obtain ⟨l, hl, heq⟩ := List.mem_map.1 hmem
  obtain ⟨v, hv, rfl⟩ := List.mem_map.1 hl
  have hv' : v.name ∈ X := by
    unfold Processed.sampledVariables at hv
    rw [if_pos h2, List.dropLast_concat, List.mem_append, List.mem_append] at hv
    rw [← hX]
    rcases hv with (hv | hv) | hv
    · obtain ⟨o, ho, rfl⟩ := List.mem_map.1 hv
      exact List.mem_append_right _ (List.mem_map.2 ⟨o, ho, rfl⟩)
    · obtain ⟨ce, hce, rfl⟩ := List.mem_map.1 hv
      exact List.mem_append_left _ (List.mem_append_left _ (List.mem_map.2 ⟨ce.1, (List.of_mem_zip hce).1, rfl⟩))
    · obtain ⟨⟨d, i⟩, hdi, rfl⟩ := List.mem_map.1 hv
      rw [List.mem_reverse, List.mem_zipIdx_iff_getElem?] at hdi
      exact List.mem_append_left _ (List.mem_append_right _ (List.mem_map.2
        ⟨i, List.mem_range.2 (List.getElem?_eq_some_iff.1 hdi).1, rfl⟩))
  have h1 : (p.initialLaw ev v).column < X.length := by
    show p.stateColumns.idxOf v.name < _
    rw [hsc, List.idxOf_append_of_mem hv']
    exact List.idxOf_lt_length_iff.2 hv'
  rw [← hcol] at h1
  exact absurd heq h1.ne

/-- **C112 (partial).** Every supported model with types and without exogenous processes which is accepted: the model is
solved, and if the smoothing parameter of the likelihood is small, the probability that an individual in simulated samples,
whose type is not observed, starts with given characteristics and has a given history of choices and wages is close to the
probability of the characteristics times the probability of the likelihood, the average over types with their multinomial
logit probabilities. The difference is little more than the average of the sums of the variances of shocks of wages
divided by the square of the bound `x` for arguments of the exponential function. Missing: exogenous processes, models whose
creation fails (C86), more than one lag, and choice sets for which other alternatives than the chosen ones are recorded
(C24). -/
theorem C112_accepted_models_partial (hp : processModel env m = some p) (hev : ev.Contract)
    (hs : p.Supported m ev core) (hcore : createCore (p.buildSpec ev).core = some core)
    (hexo : p.exogenous = []) (hkeep : env.KeepsShape) (hlow : env.LowerTriangular) (hnd : (Dict.keys m.params).Nodup)
    (hother : ∀ q ∈ m.params, mentionsShocks q.1 = true → ∃ c ∈ shockCategories, q.1.1 = c.toList)
    (hc : (Dict.keys m.covariates).Nodup) (hf : p.FormulasSound ev)
    (hid : "identifier".toList ∉ Dict.keys p.groups.all) (htypes : 2 ≤ p.nTypes)
    (senv : SolveEnv) (hfit : senv.Fits (p.buildSpec ev) core)
    (hallowed : ∀ d ∈ (p.buildSpec ev).denseIndices, ∀ s ∈ core, ∃ c ∈ p.choices.choices, p.Allowed m ev d s c)
    (hpts : (p.buildSpec ev).PointsSuffice core p.discount.delta)
    (hdiag : ∀ a < p.choices.choices.length, entry p.cholesky a a ≠ 0)
    (hcodes : (p.buildSpec ev).RecordsBest core)
    (rng : InterpolationRandom) (hrng : rng.Contract) (sqrt : ℝ → ℝ) (ols : List ℝ → List (List ℝ) → List ℝ)
    (maxLog : ℝ) (seed : Nat)
    (ev0 : Built → Dict Nat (List ℝ)) (hev0 : ∀ bt, SameShape (initialValues bt.space) (ev0 bt))
    (vc ko : List Nat → List Nat) (hvc : ∀ l x, x ∈ vc l ↔ x ∈ l) (hko : ∀ l x, x ∈ ko l ↔ x ∈ l)
    {x : ℝ} (hx : 0 < x) (hlo : senv.lo ≤ -x) (hhi : x ≤ senv.hi) {ε : ℝ} (hε : 0 < ε) :
    ∃ bt sp V, buildSpace (p.buildSpec ev) = some bt ∧
      (p.solveInput ev senv).solveModel (p.buildSpec ev) (fun _ => some []) (kw94 bt.space rng sqrt ols
        (expShocks Real.exp maxLog p.choices.wWage.length p.cholesky)) seed ev0 vc ko = some sp ∧
      IsSolution (p.buildSpec ev) core p.discount.delta (p.solveInput ev senv).wageOf
        (p.solveInput ev senv).nonpecOf (p.solveInput ev senv).shocks (fun d _ => [(d, 1)])
        (expectedShock Real.exp maxLog p.choices.wWage.length p.cholesky) sqrt ols V ∧
      ∀ e : SimulateEnv G, p.Samplable ev e.input → e.Fits p (p.buildSpec ev) → ∀ g,
        ∀ {Ω : Type} [MeasurableSpace Ω] (Q : Measure Ω) [IsProbabilityMeasure Q] {rs : Ω → RandomSource ℝ G}
          {U : Fin e.input.length → Ω → Fin (p.otherLaws ev ++ [p.typeLaw ev]).length → ℝ}
          {Z Y : Fin (p.nPeriods * e.input.length) → Ω → Fin p.choices.choices.length → ℝ},
          (∀ ω, (rs ω).Contract) → AllNumbers Q rs e.seed U Z Y →
        ∃ tau₀ > 0, ∀ j : Fin e.input.length, e.input[j][(p.typeLaw ev).column]? = some none → ∀ s ∈ core,
          s.period = 0 → ∀ obs : List Nat, obs.length = p.observables.length → ∀ d : Nat → Option Nat,
          (∀ v < p.nTypes, (p.buildSpec ev).HasIndex (obs ++ [v]) (d v) ∧ d v ∈ (p.buildSpec ev).denseIndices) →
          ∀ tau, 0 < tau → tau < tau₀ → ∀ (a : Nat → Nat) (O : Nat → Option (Set ℝ)) (l : Nat → Nat → ℝ),
            (∀ v < p.nTypes, ∀ t < p.nPeriods, (p.buildSpec ev).Admissible (d v) (coreAlong s a t) (a t) ∧
              (∀ B, O t = some B → a t < p.choices.wWage.length ∧ MeasurableSet B ∧ B ⊆ Set.Ioi 0) ∧
              IsObservedProbability (p.rewardParams senv) tau ((p.buildSpec ev).choiceSetAt (d v) (coreAlong s a t))
                ((p.solveInput ev senv).wageOf (d v) (coreAlong s a t))
                ((p.solveInput ev senv).nonpecOf (d v) (coreAlong s a t))
                (expectedNext (p.buildSpec ev) V (d v) (coreAlong s a t)) (a t) (O t) (l v t)) →
            ∃ ps, ps = (p.typeLaw ev).weights j (rowOfState s obs ++ [none]) ∧
            (initialProbability j (rowOfState s obs ++ [none]) (p.otherLaws ev) e.input[j] ≠ 0 →
              IsDistribution (List.range p.nTypes) ps) ∧
            Q.real {ω | ∃ out g', ((p.simulation ev senv e (some sp)).withRandom (rs ω) (fun r => Z r ω)
              (fun r => Y r ω)).run () g = (some out, g') ∧ ∃ v < p.nTypes, StartsIn out j s (obs ++ [v])} =
                initialProbability j (rowOfState s obs ++ [none]) (p.otherLaws ev) e.input[j] ∧
            |Q.real {ω | ∃ out g', ((p.simulation ev senv e (some sp)).withRandom (rs ω) (fun r => Z r ω)
                (fun r => Y r ω)).run () g = (some out, g') ∧ (∃ v < p.nTypes, StartsIn out j s (obs ++ [v])) ∧
                  HasHistory out j p.nPeriods a O} -
                initialProbability j (rowOfState s obs ++ [none]) (p.otherLaws ev) e.input[j] *
                  (((List.range p.nTypes).zip ps).map fun y =>
                    y.2 * ∏ t ∈ Finset.range p.nPeriods, l y.1 t).sum| ≤
              initialProbability j (rowOfState s obs ++ [none]) (p.otherLaws ev) e.input[j] *
                ((((List.range p.nTypes).zip ps).map fun y => y.2 * ∑ t ∈ Finset.range p.nPeriods,
                  overAvailable ((p.buildSpec ev).choiceSetAt (d y.1) (coreAlong s a t)) (fun c =>
                    if c < p.choices.wWage.length then
                      shockCov p.cholesky ((p.buildSpec ev).choiceSetAt (d y.1) (coreAlong s a t)) c c / x ^ 2
                    else 0)).sum + ε) := by
  obtain ⟨covs, h⟩ := processModel_from env m p hp
  obtain ⟨bt, sp, V, h1, h2, h3, h4⟩ := C83_samples_of_accepted_models_partial (G := G) hp hev hs hcore hexo hkeep hnd
    hother senv hfit hallowed hpts rng hrng sqrt ols maxLog seed ev0 hev0 vc ko hvc hko
  refine ⟨bt, sp, V, h1, h2, h3, fun e hsam he g Ω _ Q _ rs U Z Y hrs hnum => ?_⟩
  have hcs : ∀ d ∈ (p.buildSpec ev).denseIndices, ∀ s ∈ core,
      ∃ a : Nat, ((p.buildSpec ev).choiceSetAt d s)[a]? = some true := by
    intro d hd s hmem
    obtain ⟨c, hc, hall⟩ := hallowed d hd s hmem
    obtain ⟨a, ha⟩ := List.mem_iff_getElem?.1 hc
    exact ⟨a, (C82_choice_sets_by_name hp hev hs.toDescribed hcore d hd s hmem a c ha).2 hall⟩
  have hcols := denseColumns_types p hexo
  have hfits := hsam.fits h hs hcols h.observables_ne hkeep hnd hother hcs senv e he (some sp)
  have hgrid : (p.buildSpec ev).GridNodup := (denseLevels_grid p ev).nodup (denseLevels_nodup p)
  have hsample : ∀ ω, SampleFollows (p.buildSpec ev) core (p.solveInput ev senv).wageOf (p.solveInput ev senv).nonpecOf
      (fun d _ => [(d, 1)]) V ((p.simulation ev senv e (some sp)).withRandom (rs ω) (fun r => Z r ω) (fun r => Y r ω))
      () g := by
    intro ω
    refine h4 { e with
      rs := rs ω, draws := List.ofFn fun r => List.ofFn (Z r ω), drawsWage := List.ofFn fun r => List.ofFn (Y r ω) } hsam
      ⟨hrs ω, he.individuals, ?_, ?_, ?_, ?_, he.input⟩ g
    · simp [mul_comm]
    · simp [mul_comm]
    · intro row hrow
      obtain ⟨r, rfl⟩ := List.mem_ofFn.1 hrow
      simp
    · intro row hrow
      obtain ⟨r, rfl⟩ := List.mem_ofFn.1 hrow
      simp
  have hlaws : FollowLaws e.input.length (p.sampledVariables.map (p.characteristic ev))
      (p.otherLaws ev ++ [p.typeLaw ev]) fun j row => e.input[j]? = some row := by
    rw [← laws_types htypes]
    exact followLaws_of_accepted h hc hs.choice hf hid (fun row hrow => by
      rw [(he.input row hrow).length_eq]
      exact initialLevels_length h hcols) hsam
  obtain ⟨k1, k2⟩ := typeLaw_column (ev := ev) htypes hexo hsam.names
  have hlev : (p.typeLaw ev).levels = List.range p.nTypes := by
    show List.range p.typeProb.length = _
    have := congrArg List.length (hsam.types htypes)
    rw [List.length_range] at this
    rw [← this]
    simp [Dict.keys]
  obtain ⟨tau₀, h0, hmain⟩ := C112_small_smoothing_parameters Q (C82_processed_models_well_formed hp hev hs hcore) hgrid
    (p.simulation ev senv e (some sp)) () g rfl hfits.rewards hcodes (h.cholesky_lower hlow hnd hother)
    (fun d hd s hmem a ha => hdiag a (by
      have := (List.getElem?_eq_some_iff.1 ha).1
      rwa [choiceSetAt_length] at this))
    (fun d _ s _ a _ => processed_wageOf_pos p ev senv d s a) hx hlo hhi (le_refl _) hsam.periods
    (by rw [mul_comm]; rfl) h.measurement_length hlaws hrs hnum hsample k2 hε
  refine ⟨tau₀, h0, fun j hmissing s hmem hs0 obs hobs d hd tau ht hlt a O l hl => ?_⟩
  have hlev' : ∀ v, v ∈ (p.typeLaw ev).levels ↔ v < p.nTypes := fun v => by rw [hlev, List.mem_range]
  obtain ⟨e1, e2, e3⟩ := hs.toDescribed.shaped h hcore s hmem
  have := hmain j hmissing s hmem hs0 e1 e2
    (fun x hx h0 => by have := e3 x hx; rw [h0] at this; cases this) obs (by rw [k1, hobs]; rfl) d (fun v hv => hd v ((hlev' v).1 hv)) tau ht hlt a
    O l (fun v hv => hl v ((hlev' v).1 hv))
  simp only [hlev, List.mem_range] at this
  exact this

end

end

end Respy
