import Verif.Props.ProcessEstimate
import Verif.Props.ProcessSimulateExample
import Verif.Props.LogLike

/-!
# C84: a concrete model and data
-/

namespace Respy

/-- A test of `Graded`: the variables are ordered by the number of steps. -/
def gradedCheck (definitions : Dict Str CovariateDef) (start : List Str) (levels : List (List Str)) :
    Bool :=
  (definitions.all fun cd => decide cd.2.dependsOn.Nodup) &&
  (start.all fun k => decide (k ∈ levels.getD 0 [])) && decide (levels.Pairwise fun l l' => ∀ x ∈ l, x ∉ l') &&
  (List.range levels.length).all fun n => (levels.getD n []).all fun c =>
    ((Dict.get? definitions c).map CovariateDef.dependsOn).getD [] |>.all fun k => decide (k ∈ levels.getD (n + 1) [])

theorem graded_of_check (definitions : Dict Str CovariateDef) (start : List Str) (levels : List (List Str))
    (h : gradedCheck definitions start levels = true) : Graded definitions start levels.length := by
  unfold gradedCheck at h
  simp only [Bool.and_eq_true, List.all_eq_true, decide_eq_true_eq, List.mem_range] at h
  obtain ⟨⟨⟨h1, h2⟩, h3⟩, h4⟩ := h
  have hlev : ∀ n k, ReachedIn definitions start n k → k ∈ levels.getD n [] := by
    intro n k hr
    induction hr with
    | start k hk => exact h2 k hk
    | step n c d k _ hd hk ih =>
      have hn : n < levels.length := by
        by_contra hn
        simp [List.getElem?_eq_none (Nat.le_of_not_lt hn)] at ih
      refine h4 n hn c ih k ?_
      rw [hd]
      exact hk
  have hlt : ∀ n k, k ∈ levels.getD n [] → n < levels.length := by
    intro n k hk
    by_contra hn
    simp [List.getElem?_eq_none (Nat.le_of_not_lt hn)] at hk
  refine ⟨fun c d hd => h1 (c, d) (Dict.mem_of_get? _ _ _ hd), fun k n n' _ hn hn' => ?_,
    fun n k hn => hlt n k (hlev n k hn)⟩
  have a1 := hlev n k hn
  have a2 := hlev n' k hn'
  have b1 := hlt n k a1
  have b2 := hlt n' k a2
  simp only [List.getD_eq_getElem?_getD, List.getElem?_eq_getElem b1, List.getElem?_eq_getElem b2,
    Option.getD_some] at a1 a2
  rcases lt_trichotomy n n' with hlt | rfl | hlt
  · exact absurd a2 (List.pairwise_iff_getElem.1 h3 n n' b1 b2 hlt k a1)
  · rfl
  · exact absurd a1 (List.pairwise_iff_getElem.1 h3 n' n b2 b1 hlt k a2)

theorem textEval_accurate (d : CovariateDef) (h : textDefined d.dependsOn d.formula = true) :
    Accurate textEval.value d := by
  refine ⟨fun row hrow => textEval_defined _ _ h row hrow, fun row row' hsame => ?_⟩
  unfold textDefined at h
  unfold textEval
  dsimp only
  split
  · rfl
  · next h1 =>
    split
    · rfl
    · next h2 =>
      simp only [h1, h2, decide_false, Bool.false_or] at h
      split
      · next c n hr =>
        rw [hr] at h
        rw [hsame c (of_decide_eq_true h)]
      · next hr =>
        rw [hr] at h
        rw [hsame _ (of_decide_eq_true h)]

/-- The model of C82; the probability of the second type depends on the observable. -/
noncomputable def estimateUser : UserModel :=
  { exampleUser with params := exampleUser.params ++ [(("type_1".toList, "able".toList), 2)] }

/-- The unit matrix in place of `robust_cholesky` (for the unit matrix it is the factor). -/
noncomputable def unitEnv : ProcessEnv where
  maxFloat := 10
  minFloat := -10
  robustCholesky := fun rows => (List.range rows.length).map fun i => (List.range rows.length).map fun j =>
    if i = j then 1 else 0

theorem unitEnv_contracts : unitEnv.KeepsShape ∧ unitEnv.LowerTriangular := by
  refine ⟨fun n rows h _ => ⟨by simp [unitEnv, h], fun r hr => ?_⟩, fun rows i j hij => ?_⟩
  · obtain ⟨i, _, rfl⟩ := List.mem_map.1 hr
    simp [h]
  · unfold entry unitEnv
    by_cases hi : i < rows.length
    · by_cases hj : j < rows.length
      · simp [hi, hj, hij.ne]
      · simp [hi, hj]
    · simp [hi]

/-- Two individuals with different observables. A wage is observed for the first one in the first period. -/
noncomputable def estimateData : List EstimationRow :=
  [⟨0, ⟨⟨1, [1], [some 0]⟩, [1]⟩, 1, none⟩, ⟨0, ⟨⟨0, [0], [some 1]⟩, [1]⟩, 0, some 1⟩,
    ⟨1, ⟨⟨0, [0], [some 0]⟩, [0]⟩, 1, none⟩]

/-- The data with `hi` in place of the largest number. -/
noncomputable def estimateEnv (la : ∀ n, LinearAlgebra n) (hi : ℝ) : EstimateEnv where
  data := estimateData
  seed := 100
  base := fun n k s => List.replicate n [List.replicate k (s : ℝ), List.replicate k 0]
  tau := 1 / 2
  lo := -hi
  hi := hi
  maxLog := 100
  la := la
  order := fun _ l => l
  fuel := 10

/-- A test of the properties of the model. -/
noncomputable def estimateCheck (p : Processed) : Bool :=
  exampleCheck estimateUser p && decide (p.exogenous.length = 0) &&
  decide (denseGrid p.denseSpec = some [[0, 0], [0, 1], [1, 0], [1, 1]]) && decide (p.nTypes = 2) &&
  decide (p.nStatic = 1) && decide (p.measurement.1 = false) && decide (p.choices.wWage = ["b".toList]) &&
  decide ((denseColumns p.denseSpec).length = 2) &&
  (p.groups.all.all fun cd => textDefined cd.2.dependsOn cd.2.formula &&
    (!decide (cd.2.dependsOn = []) || decide (cd.1 ∉ denseBaseColumns (Dict.keys p.observables) p.nTypes))) &&
  decide (∀ x ∈ coreColumns p.choices.wExp p.lags.length ++ (denseColumns p.denseSpec).map String.toList,
    x ∉ Dict.keys p.groups.all) &&
  decide ((denseColumns p.denseSpec).map String.toList).Nodup &&
  decide ("identifier".toList ∉ Dict.keys p.groups.all) &&
  decide (Dict.keys p.typeProb = [0, 1]) &&
  decide (p.typeProb.map (fun kv => kv.2.map Prod.fst) = [["constant".toList], ["constant".toList, "able".toList]]) &&
  gradedCheck p.groups.all ["constant".toList] [["constant".toList]] &&
  gradedCheck p.groups.all ["constant".toList, "able".toList] [["constant".toList, "able".toList], ["iq".toList]] &&
  decide ("constant".toList ∈ p.columns true) && decide ("able".toList ∈ p.columns true) &&
  (p.experience.all fun e => decide (e.2 = 2)) &&
  ((createCore (p.buildSpec textEval).core).any fun core => estimateData.all fun r => decide (r.state.core ∈ core))

theorem estimateUser_check : (processModel unitEnv estimateUser).any estimateCheck = true := by decide +kernel

theorem exists_bound (w0 w1 : ℝ) (h0 : 0 < w0) (h1 : 0 < w1) :
    ∃ hi : ℝ, 1 ≤ hi ∧ ∀ w ∈ [1, w0, w1], 1 / hi ≤ w ∧ w ≤ hi := by
  have a0 : 0 < 1 / w0 := by positivity
  have a1 : 0 < 1 / w1 := by positivity
  refine ⟨1 + w0 + w1 + 1 / w0 + 1 / w1, by linarith, fun w hw => ?_⟩
  have hpos : 0 < w := by
    simp only [List.mem_cons, List.not_mem_nil, or_false] at hw
    rcases hw with rfl | rfl | rfl <;> linarith
  have hle : 1 / w ≤ 1 + w0 + w1 + 1 / w0 + 1 / w1 ∧ w ≤ 1 + w0 + w1 + 1 / w0 + 1 / w1 := by
    simp only [List.mem_cons, List.not_mem_nil, or_false] at hw
    rcases hw with rfl | rfl | rfl
    · rw [one_div_one]; constructor <;> linarith
    · constructor <;> linarith
    · constructor <;> linarith
  refine ⟨?_, hle.2⟩
  rw [div_le_iff₀ (by linarith)]
  have := mul_le_mul_of_nonneg_left hle.1 hpos.le
  rwa [mul_one_div_cancel hpos.ne'] at this

theorem shockCov_pos (L : List (List ℝ)) (cs : List Bool) (h : cs[0]? = some true) (h0 : entry L 0 0 = 1) :
    shockCov L cs 0 0 ≠ 0 := by
  have hlen : 0 < cs.length := (List.getElem?_eq_some_iff.1 h).1
  have hpos : (1 : ℝ) ≤ shockCov L cs 0 0 := by
    unfold shockCov overAvailable
    refine List.single_le_sum (fun x hx => ?_) _
      (List.mem_map.2 ⟨0, List.mem_range.2 hlen, by rw [if_pos h]; simp only [h0, one_mul]⟩)
    obtain ⟨j, _, rfl⟩ := List.mem_map.1 hx
    split
    · exact mul_self_nonneg _
    · exact le_rfl
  intro h'
  rw [h'] at hpos
  linarith

theorem estimate_cholesky (hp : processModel unitEnv estimateUser = some p)
    (hch : p.choices.choices = ["b".toList, "a".toList]) : entry p.cholesky 0 0 = 1 := by
  obtain ⟨_, _, _, sh, ⟨hdim, hent⟩, hL⟩ := C84_parameters_by_name (ev := textEval) hp (by decide +kernel)
    (exampleShocks _ (by decide +kernel)) exampleSolveEnv
  have hL := hL p.likelihoodParams.cholesky (by simp)
  have hkind : sh.kind ≠ .chol := by
    intro hk
    have := hent 0 0 "b".toList "b".toList (by rw [hch]; rfl) (by rw [hch]; rfl)
    rw [hk] at this
    have h0 := this.1 rfl
    have hnone : (Dict.get? estimateUser.params
      ("shocks_chol".toList, "chol_".toList ++ "b".toList)).isSome = false := by decide +kernel
    rw [h0] at hnone
    cases hnone
  have hch' : p.cholesky = _ := hL.2 hkind
  rw [hch', hdim, hch]
  unfold entry unitEnv
  simp

theorem estimate_holds (p : Processed) (d : Option Nat) (s : CoreState)
    (h : p.covariates textEval d s "exp_b".toList = some 0) :
    textEval.holds (p.covariates textEval d s) "exp_b == 1".toList = false := by
  have hv : textEval.value (p.covariates textEval d s) "exp_b == 1".toList =
      some (if (0 : ℝ) = ((1 : Nat) : ℝ) then 1 else 0) :=
    textEval_contract.experience_value (p.covariates textEval d s) "b".toList 1 0 (by decide) h
  unfold FormulaEval.holds
  rw [hv]
  simp

/-- The hypotheses of the theorems hold for the model: it has two types whose probability depends on an observable,
and a restriction on choices. A wage is observed. -/
theorem estimateUser_hypotheses : ∃ p core, processModel unitEnv estimateUser = some p ∧
    createCore (p.buildSpec textEval).core = some core ∧ p.Supported estimateUser textEval core ∧
    p.exogenous = [] ∧ unitEnv.KeepsShape ∧ unitEnv.LowerTriangular ∧ (Dict.keys estimateUser.params).Nodup ∧
    (∀ q ∈ estimateUser.params, mentionsShocks q.1 = true → ∃ c ∈ shockCategories, q.1.1 = c.toList) ∧
    exampleSolveEnv.Fits (p.buildSpec textEval) core ∧
    (∀ d ∈ (p.buildSpec textEval).denseIndices, ∀ s ∈ core,
      ∃ c ∈ p.choices.choices, p.Allowed estimateUser textEval d s c) ∧
    (p.buildSpec textEval).PointsSuffice core p.discount.delta ∧ (Dict.keys estimateUser.covariates).Nodup ∧
    p.FormulasSound textEval ∧ (∀ grid, denseGrid p.denseSpec = some grid → ∀ point ∈ grid,
      (denseColumns p.denseSpec).length ≤ point.length) ∧ p.TypesSound ∧ 2 ≤ p.nTypes ∧
    (∀ q ∈ estimateUser.params, (typeIndex q.1.1).isSome → q.1.2 ≠ "probability".toList ∧
      ∀ i, typeIndex q.1.1 = some i → i < p.nTypes) ∧
    ∃ la hi, (∀ n l, ((estimateEnv la hi).order n l).Perm l) ∧
      (estimateEnv la hi).Fits p estimateUser textEval core (p.solveInput textEval exampleSolveEnv).wageOf := by
  obtain ⟨p, hp, hcheck⟩ := (Option.any_eq_true _ _).1 estimateUser_check
  unfold estimateCheck at hcheck
  simp only [Bool.and_eq_true] at hcheck
  obtain ⟨⟨⟨⟨⟨⟨⟨⟨⟨⟨⟨⟨⟨⟨⟨⟨⟨⟨⟨h1, h2⟩, h3⟩, h4⟩, h5⟩, h19⟩, h20⟩, h18⟩, h6⟩, h7⟩, h8⟩, h9⟩, h10⟩, h11⟩, h12⟩, h13⟩,
    h14⟩, h15⟩, h16⟩, h17⟩ := hcheck
  obtain ⟨core, a1, a2, a3, a4, a5⟩ := example_hypotheses _ p h1
  have hnd : (Dict.keys estimateUser.params).Nodup := by decide +kernel
  have hother := exampleShocks estimateUser (by decide +kernel)
  have hc : (Dict.keys estimateUser.covariates).Nodup := by decide +kernel
  have hgrid := of_decide_eq_true h3
  have hnt := of_decide_eq_true h4
  have h6 := List.all_eq_true.1 h6
  have hf : p.FormulasSound textEval := by
    refine ⟨fun c d hcd => ?_, of_decide_eq_true h7, of_decide_eq_true h8⟩
    have := h6 _ hcd
    rw [Bool.and_eq_true] at this
    exact textEval_accurate d this.1
  unfold exampleCheck at h1
  simp only [Bool.and_eq_true, decide_eq_true_eq] at h1
  obtain ⟨⟨⟨⟨⟨⟨_, b2⟩, b3⟩, b4⟩, b5⟩, b6⟩, _⟩ := h1
  have hlen : ∀ grid, denseGrid p.denseSpec = some grid → ∀ point ∈ grid,
      (denseColumns p.denseSpec).length ≤ point.length := by
    intro grid hg point hpt
    rw [hgrid] at hg
    cases hg
    rw [of_decide_eq_true h18]
    simp only [List.mem_cons, List.not_mem_nil, or_false] at hpt
    rcases hpt with rfl | rfl | rfl | rfl <;> decide
  have htypes : p.TypesSound := by
    have hnames : ∀ t beta, Dict.get? p.typeProb t = some beta →
        beta.map Prod.fst = ["constant".toList] ∨ beta.map Prod.fst = ["constant".toList, "able".toList] := by
      intro t beta hb
      have := List.mem_map_of_mem (f := fun kv : Nat × List (Str × ℝ) => kv.2.map Prod.fst)
        (Dict.mem_of_get? _ _ _ hb)
      rw [of_decide_eq_true h11] at this
      simpa using this
    refine ⟨?_, fun t beta hb item hi => ?_, fun t beta hb => ?_, fun c d hcd hdep => ?_, of_decide_eq_true h9⟩
    · rw [of_decide_eq_true h10, hnt]; rfl
    · have hi' : item.1 = "constant".toList ∨ item.1 = "able".toList := by
        have := List.mem_map_of_mem (f := Prod.fst) hi
        rcases hnames t beta hb with h | h <;> rw [h] at this <;>
          simp only [List.mem_cons, List.not_mem_nil, or_false] at this
        · exact Or.inl this
        · exact this
      rcases hi' with h | h <;> rw [h]
      · exact ⟨of_decide_eq_true h14, by decide, by decide⟩
      · exact ⟨of_decide_eq_true h15, by decide, by decide⟩
    · rcases hnames t beta hb with h | h <;> rw [h]
      · exact ⟨_, graded_of_check _ _ _ h12⟩
      · exact ⟨_, graded_of_check _ _ _ h13⟩
    · have := h6 _ hcd
      rw [Bool.and_eq_true, Bool.or_eq_true] at this
      rcases this.2 with h | h
      · rw [hdep] at h
        cases h
      · exact of_decide_eq_true h
  have hstates : ∀ r ∈ estimateData, r.state.core ∈ core := by
    obtain ⟨core', hcore', h⟩ := (Option.any_eq_true _ _).1 h17
    rw [a1] at hcore'
    cases hcore'
    exact fun r hr => of_decide_eq_true (List.all_eq_true.1 h r hr)
  have hindices : (p.buildSpec textEval).denseIndices = [some 0, some 1, some 2, some 3] := by
    unfold BuildSpec.denseIndices
    have : (p.buildSpec textEval).grid = some [[0, 0], [0, 1], [1, 0], [1, 1]] := hgrid
    rw [this]
    rfl
  have hallowed : ∀ d ∈ (p.buildSpec textEval).denseIndices,
      p.Allowed estimateUser textEval d ⟨0, [0], [some 1]⟩ "b".toList := by
    intro d hd
    refine ⟨fun f hf' => ?_, fun i start mx e hi he hs _ => ?_⟩
    · rw [b5] at hf'
      rw [List.mem_singleton.1 hf']
      refine estimate_holds p d _ ?_
      refine (C84_covariates_by_formula hp hc hf a2 a1 hlen d hd _ (hstates
        ⟨0, ⟨⟨0, [0], [some 1]⟩, [1]⟩, 0, some 1⟩ (by simp [estimateData]))).1 _ _ ?_
      unfold Processed.stateVariables Processed.coreRow
      rw [b3]
      dsimp only [List.zip_cons_cons, List.map_cons, List.cons_append]
      rw [Dict.get?, if_neg (by decide)]
      change Dict.get? (("exp_".toList ++ "b".toList, ((0 : Nat) : ℝ)) :: _) _ = _
      rw [Dict.get?, if_pos (by decide)]
      simp
    · have := of_decide_eq_true (List.all_eq_true.1 h16 _ (List.mem_of_getElem? he))
      rw [b3] at hi
      have h0 : i = 0 := by
        rcases i with _ | i
        · rfl
        · simp at hi
      subst h0
      cases hs
      dsimp only at this
      omega
  refine ⟨p, core, hp, a1, a2, List.length_eq_zero_iff.1 (of_decide_eq_true h2), unitEnv_contracts.1,
    unitEnv_contracts.2, hnd, hother, a3, a4, a5, hc, hf, hlen, htypes, by omega, ?_, ?_⟩
  · have hall : ((estimateUser.params.map Prod.fst).all fun k => !(typeIndex k.1).isSome ||
        (decide (k.2 ≠ "probability".toList) && (typeIndex k.1).all fun i => decide (i < 2))) = true := by
      decide +kernel
    intro q hq hs
    have := List.all_eq_true.1 hall q.1 (List.mem_map.2 ⟨q, hq, rfl⟩)
    rw [hs] at this
    simp only [Bool.not_true, Bool.false_or, Bool.and_eq_true, decide_eq_true_eq] at this
    refine ⟨this.1, fun i hi => ?_⟩
    rw [hi] at this
    rw [hnt]
    exact of_decide_eq_true this.2
  · obtain ⟨la, l1, l2⟩ := exists_linearAlgebra
    have hpos : ∀ d, 0 < (p.solveInput textEval exampleSolveEnv).wageOf d ⟨0, [0], [some 1]⟩ 0 := by
      intro d
      unfold SolveInput.wageOf
      split
      · exact one_pos
      · exact Real.exp_pos _
    obtain ⟨hi, i1, i2⟩ := exists_bound _ _ (hpos (some 2)) (hpos (some 3))
    have hgrid' : (p.buildSpec textEval).grid = some [[0, 0], [0, 1], [1, 0], [1, 1]] := hgrid
    have hdense : ∀ (r : EstimationRow) (x : Nat), r.state.dense = [x] → x < 2 → ∀ t < p.typeCount,
        (p.buildSpec textEval).HasIndex (p.denseOf r t) (some (2 * x + t)) := by
      intro r x hr hx t ht
      unfold Processed.typeCount at ht
      unfold BuildSpec.HasIndex Processed.denseOf
      rw [hgrid', if_pos (by omega), hr, of_decide_eq_true h5]
      rw [if_pos (by omega), hnt] at ht
      refine ⟨_, rfl, ?_⟩
      interval_cases x <;> interval_cases t <;> rfl
    have hmeas : ∀ k, p.measurement.2.getD k 0 = 0 := by
      intro k
      obtain ⟨covs, h⟩ := processModel_from _ _ p hp
      have hno : ¬ ∃ q ∈ estimateUser.params, q.1.1 = "meas_error".toList := by
        rintro ⟨q, hq, h⟩
        have hall : ((estimateUser.params.map Prod.fst).all fun k => !decide (k.1 = "meas_error".toList)) = true := by
          decide +kernel
        have := List.all_eq_true.1 hall q.1 (List.mem_map.2 ⟨q, hq, rfl⟩)
        simp [h] at this
      obtain ⟨_, _, hm, _⟩ := C84_parameters_by_name (ev := textEval) hp hnd hother exampleSolveEnv
      rw [List.getD_eq_getElem?_getD]
      cases hk : p.choices.choices[k]? with
      | none =>
        rw [List.getElem?_eq_none (by rw [h.measurement_length]; exact List.getElem?_eq_none_iff.1 hk)]
        rfl
      | some c =>
        have : p.measurement.2[k]? = some 0 :=
          ((hm k c hk).2 p.likelihoodParams.measError (by simp)).2 (Or.inl hno)
        rw [this]
        rfl
    have hindex : ((estimateEnv la hi).data.map fun r => (r.id, r.state.core.period)).Nodup := by
      simp [estimateEnv, estimateData]
    have hfirst : ∀ r ∈ (estimateEnv la hi).data, ∃ r' ∈ (estimateEnv la hi).data,
        r'.id = r.id ∧ r'.state.core.period = 0 := by
      simp [estimateEnv, estimateData]
    refine ⟨la, hi, fun _ _ => List.Perm.refl _, l1, l2, by simp only [estimateEnv]; linarith,
      by simp only [estimateEnv]; linarith, fun n k s => ⟨by simp [estimateEnv], fun row hr => ?_⟩, hindex,
      fun _ => hfirst, fun r hr => ⟨hstates r hr, fun t ht => ?_⟩⟩
    · rw [List.eq_of_mem_replicate hr]
      refine ⟨by simp, fun z hz => ?_⟩
      simp only [List.mem_cons, List.not_mem_nil, or_false] at hz
      rcases hz with rfl | rfl <;> simp
    · have hun : ∀ d s, p.Allowed estimateUser textEval d s "a".toList :=
        fun d s => allowed_of_unrestricted _ p _ d s _ b4 (by rw [b3]; decide)
      have hr' := hr
      unfold estimateEnv estimateData at hr'
      simp only [List.mem_cons, List.not_mem_nil, or_false] at hr'
      rcases hr' with rfl | rfl | rfl
      · exact ⟨some (2 * 1 + t), "a".toList, hdense _ 1 rfl (by omega) t ht, by rw [b2]; rfl, hun _ _,
          fun y hy => by cases hy⟩
      · have ht' : t < 2 := by
          unfold Processed.typeCount at ht
          rwa [if_pos (by omega), hnt] at ht
        have hd : some (2 * 1 + t) ∈ (p.buildSpec textEval).denseIndices := by
          rw [hindices]
          interval_cases t <;> simp
        refine ⟨some (2 * 1 + t), "b".toList, hdense _ 1 rfl (by omega) t ht, by rw [b2]; rfl, hallowed _ hd,
          fun y hy => ?_⟩
        cases hy
        refine ⟨?_, i2 1 (by simp), ?_, by rw [hmeas, hmeas], fun h => ?_, fun _ => ⟨hmeas _, ?_⟩⟩
        · rw [of_decide_eq_true h20]; decide
        · refine i2 _ ?_
          interval_cases t <;> simp
        · rw [of_decide_eq_true h19] at h
          cases h
        · exact shockCov_pos _ _ ((C82_choice_sets_by_name hp textEval_contract a2.toDescribed a1 _ hd _ (hstates _ hr) 0
            "b".toList (by rw [b2]; rfl)).2 (hallowed _ hd)) (estimate_cholesky hp b2)
      · exact ⟨some (2 * 0 + t), "a".toList, hdense _ 0 rfl (by omega) t ht, by rw [b2]; rfl, hun _ _,
          fun y hy => by cases hy⟩

theorem exogenousUser_estimate_check : (processModel unitEnv exogenousUser).any (fun p =>
    exampleCheck exogenousUser p && decide (p.exogenous.length = 1) && decide (p.nTypes < 2) &&
    decide (p.observables.map (fun o => (o.1, o.2.length)) =
      [("able".toList, 2)] ++ p.exogenous.map fun o => (o.1, o.2.length)) &&
    (p.exogenous.all fun e => e.2.all fun level => level.2.all fun item => decide (item.1 ∈ p.columns true)) &&
    decide (denseGrid p.denseSpec = some [[0, 0], [0, 1], [1, 0], [1, 1]]) &&
    ((createCore (p.buildSpec textEval).core).any fun core =>
      decide ((⟨1, [1], []⟩ : CoreState) ∈ core))) = true := by
  decide +kernel

/-- The hypotheses of `C84_criterion_of_exogenous_models_partial` hold for the model and an observation in the
second period. -/
theorem exogenousUser_hypotheses : ∃ p core, processModel unitEnv exogenousUser = some p ∧
    createCore (p.buildSpec textEval).core = some core ∧ p.Supported exogenousUser textEval core ∧
    p.exogenous ≠ [] ∧ p.nTypes < 2 ∧ p.observables.map (fun o => (o.1, o.2.length)) =
      [("able".toList, 2)] ++ p.exogenous.map (fun o => (o.1, o.2.length)) ∧
    (∀ e ∈ p.exogenous, ∀ level ∈ e.2, ∀ item ∈ level.2, item.1 ∈ p.columns true) ∧
    unitEnv.KeepsShape ∧ unitEnv.LowerTriangular ∧ (Dict.keys exogenousUser.params).Nodup ∧
    (∀ q ∈ exogenousUser.params, mentionsShocks q.1 = true → ∃ c ∈ shockCategories, q.1.1 = c.toList) ∧
    exampleSolveEnv.Fits (p.buildSpec textEval) core ∧
    (∀ d ∈ (p.buildSpec textEval).denseIndices, ∀ s ∈ core,
      ∃ c ∈ p.choices.choices, p.Allowed exogenousUser textEval d s c) ∧
    (p.buildSpec textEval).PointsSuffice core p.discount.delta ∧
    ∃ la, EstimateEnv.Fits { estimateEnv la 1 with data := [⟨7, ⟨⟨1, [1], []⟩, [1, 0]⟩, 1, none⟩] } p
      exogenousUser textEval core (p.solveInput textEval exampleSolveEnv).wageOf := by
  obtain ⟨p, hp, hcheck⟩ := (Option.any_eq_true _ _).1 exogenousUser_estimate_check
  simp only [Bool.and_eq_true] at hcheck
  obtain ⟨⟨⟨⟨⟨⟨h1, h2⟩, h3⟩, h4⟩, h5⟩, h6⟩, h7⟩ := hcheck
  obtain ⟨core, a1, a2, a3, a4, a5⟩ := example_hypotheses _ p h1
  unfold exampleCheck at h1
  simp only [Bool.and_eq_true, decide_eq_true_eq] at h1
  obtain ⟨⟨⟨⟨⟨⟨_, b2⟩, b3⟩, b4⟩, _⟩, _⟩, _⟩ := h1
  have hnt := of_decide_eq_true h3
  obtain ⟨la, l1, l2⟩ := exists_linearAlgebra
  refine ⟨p, core, hp, a1, a2, fun h => ?_, hnt, of_decide_eq_true h4, fun e he level hl item hi => ?_,
    unitEnv_contracts.1, unitEnv_contracts.2, by decide +kernel, exampleShocks _ (by decide +kernel), a3, a4, a5, la,
    l1, l2, by simp [estimateEnv], by simp [estimateEnv], fun n k s => ⟨by simp [estimateEnv], fun row hr => ?_⟩,
    by simp, fun h => ?_, fun r hr => ?_⟩
  · have := of_decide_eq_true h2
    rw [h] at this
    cases this
  · exact of_decide_eq_true
      (List.all_eq_true.1 (List.all_eq_true.1 (List.all_eq_true.1 h5 e he) level hl) item hi)
  · rw [List.eq_of_mem_replicate hr]
    refine ⟨by simp, fun z hz => ?_⟩
    simp only [List.mem_cons, List.not_mem_nil, or_false] at hz
    rcases hz with rfl | rfl <;> simp
  · omega
  · rw [List.mem_singleton.1 hr]
    refine ⟨?_, fun t ht => ⟨some 2, "a".toList, ?_, by rw [b2]; rfl,
      allowed_of_unrestricted _ p _ _ _ _ b4 (by rw [b3]; decide), fun y hy => by cases hy⟩⟩
    · obtain ⟨core', hcore', h⟩ := (Option.any_eq_true _ _).1 h7
      rw [a1] at hcore'
      cases hcore'
      exact of_decide_eq_true h
    · have hg : (p.buildSpec textEval).grid = some [[0, 0], [0, 1], [1, 0], [1, 1]] := of_decide_eq_true h6
      unfold BuildSpec.HasIndex Processed.denseOf
      rw [hg, if_neg (by omega)]
      exact ⟨2, rfl, rfl⟩

end Respy
