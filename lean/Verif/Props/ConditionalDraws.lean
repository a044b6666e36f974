import Verif.Lemmas.ConditionalDraws2
import Verif.Lemmas.LogNormal
import Mathlib.Tactic.NormNum.Basic
import Mathlib.Tactic.Linarith
import Mathlib.Data.Fin.VecNotation

/-! # Properties of draws conditional on wages and of the likelihood of wages -/

open MeasureTheory ProbabilityTheory Matrix

namespace Respy

/-! ### C37 The measurement error belongs to the observed choice -/

/-- The result for an observed choice changes if the standard deviation of the measurement error of
*another* choice changes: the standard deviations are not restricted to the choice set. -/
theorem C37_own_measurement_error_false :
    ∃ (n : Nat) (la : LinearAlgebra n) (meas meas' : List ℝ) (cs : List Bool) (a : Nat)
      (wages : Fin (n + 1) → ℝ) (L : Matrix (Fin (n + 1)) (Fin (n + 1)) ℝ) (w : ℝ)
      (r r' : DrawsAndLogProb (n + 1)),
      cs[a]? = some true ∧ meas.length = cs.length ∧ meas'.length = cs.length ∧ meas[a]? = meas'[a]? ∧
      wageLogProb la 100 100 true meas 2 cs a (some w) wages L = some r ∧
      wageLogProb la 100 100 true meas' 2 cs a (some w) wages L = some r' ∧
      r.logProbWage ≠ r'.logProbWage := by
  refine ⟨0, ⟨id, id⟩, [1, 1], [2, 1], [false, true], 1, fun _ => 1, 1, 0, ?_⟩
  have hm : mapChoiceCode [false, true] 1 = some 0 := mapChoiceCode_valid [false, true] 1 rfl
  have hn : likelihoodNWages (List.range 2) [false, true] = 1 := by
    rw [selectValidChoices_range_length _ _ (by simp)]; rfl
  simp only [wageLogProb, hm, hn, createDrawsAndLogProbWages, relevantChol, Option.bind_eq_bind,
    Option.bind_some, Option.pure_def, Nat.zero_add, Nat.lt_one_iff, dif_pos, Option.isSome_some,
    if_true]
  refine ⟨_, _, rfl, rfl, rfl, rfl, rfl, rfl, ?_⟩
  have hc : shocksCov (1 : Matrix (Fin 1) (Fin 1) ℝ) 0 0 = 1 := by simp [shocksCov]
  have h1 : min (max (1 : ℝ) (1 / 100)) 100 = 1 := by norm_num
  simp only [updateMeanAndLoglike, likelihoodMeasSds, sigmaSquared, h1, Real.log_one]
  have e : (⟨0, by simp⟩ : Fin 1) = 0 := rfl
  simp only [Fin.zero_eta, hc, List.getD_cons_zero]
  intro h
  have h2 : Real.log √(1 + 1 ^ 2) = Real.log √(1 + 2 ^ 2) := by
    have : ((0 : ℝ) - 0) ^ 2 = 0 := by norm_num
    rw [this] at h
    simp only [zero_div, sub_zero] at h
    exact sub_right_inj.1 h
  have h3 := Real.log_injOn_pos (Set.mem_Ioi.2 (Real.sqrt_pos.2 (by norm_num)))
    (Set.mem_Ioi.2 (Real.sqrt_pos.2 (by norm_num))) h2
  have h4 := (Real.sqrt_inj (by norm_num) (by norm_num)).1 h3
  norm_num at h4

/-- If all alternatives before the observed choice are available, only the standard deviation of the
observed choice matters: the result is the one with this standard deviation for all alternatives.
Missing: choice sets without an earlier alternative, see `C37_own_measurement_error_false`. -/
theorem C37_own_measurement_error_partial {n : Nat} (la : LinearAlgebra n) (maxFloat bound : ℝ)
    (hasMeasError : Bool) (meas : List ℝ) (nWagesRaw : Nat) (cs : List Bool) (a : Nat)
    (hcs : cs.count true = n + 1) (hw : nWagesRaw ≤ cs.length) (ha : cs[a]? = some true)
    (hb : ∀ b < a, cs[b]? = some true) (sd : ℝ)
    (hsd : meas[a]? = some sd) (w : Option ℝ) (wages : Fin (n + 1) → ℝ)
    (L : Matrix (Fin (n + 1)) (Fin (n + 1)) ℝ) :
    ∃ h : a < n + 1, wageLogProb la maxFloat bound hasMeasError meas nWagesRaw cs a w wages L =
      createDrawsAndLogProbWages la maxFloat bound hasMeasError w wages ⟨a, h⟩ L
        (nWagesIn nWagesRaw cs) (fun _ => sd) := by
  have hpos : positionIn cs a = a := by
    have hlt := (List.getElem?_eq_some_iff.1 ha).1
    have : cs.take a = List.replicate a true := by
      apply List.ext_getElem?
      intro i
      rw [List.getElem?_take]
      by_cases hi : i < a
      · rw [if_pos hi, hb i hi, List.getElem?_replicate_of_lt hi]
      · rw [if_neg hi, List.getElem?_eq_none_iff.2 (by simpa using hi)]
    rw [positionIn, this]
    simp
  have hlt : a < n + 1 := by
    rw [← hcs, ← hpos]
    exact positionIn_lt cs a ha
  refine ⟨hlt, ?_⟩
  unfold wageLogProb
  simp only [mapChoiceCode_valid cs a ha, hpos, Option.bind_eq_bind, Option.bind_some, hlt, dif_pos,
    selectValidChoices_range_length _ _ hw]
  have hget : likelihoodMeasSds meas cs a = sd := by
    simp [likelihoodMeasSds, List.getD_eq_getElem?_getD, hsd]
  have hu : ∀ (lw : ℝ) cov, updateMeanAndLoglike w lw cov (⟨a, hlt⟩ : Fin (n + 1))
      (likelihoodMeasSds meas cs) = updateMeanAndLoglike w lw cov ⟨a, hlt⟩ fun _ => sd := by
    intro lw cov
    cases w with
    | none => rfl
    | some x => simp only [updateMeanAndLoglike, hget]
  simp only [createDrawsAndLogProbWages, hu]
  have hr : relevantChol la hasMeasError L (likelihoodMeasSds meas cs) (nWagesIn nWagesRaw cs) w
      (⟨a, hlt⟩ : Fin (n + 1)) =
      relevantChol la hasMeasError L (fun _ => sd) (nWagesIn nWagesRaw cs) w ⟨a, hlt⟩ := by
    simp only [relevantChol, updatedCholWithMeasError, hget]
  rw [hr]

/-- A choice set in which only an alternative behind the choice is missing. -/
example : ([true, true, false].count true = 1 + 1) ∧ [true, true, false][1]? = some true ∧
    (∀ b < 1, [true, true, false][b]? = some true) ∧ [(1 : ℝ), 2, 3][1]? = some 2 :=
  ⟨rfl, rfl, fun b hb => by interval_cases b; rfl, rfl⟩

/-! ### C38 Conditioning on an observed wage is the Gaussian update -/

section

variable {Ω Ω' : Type*} {mΩ : MeasurableSpace Ω} {mΩ' : MeasurableSpace Ω'} {P : Measure Ω}
  {Q : Measure Ω'} {n : Nat}

/-- With measurement error, the draws for an observed wage have the law of the shocks conditional on the
sum of the shock of the choice and the measurement error. Missing: a singular covariance matrix or a
measurement error without variance, for which the contract of `np.linalg.qr` is not sufficient, see
`C38_contract_not_sufficient`, `C38_exact_condition` and `C38_singular_covariance_false`. -/
theorem C38_measurement_error_partial (la : LinearAlgebra n) (hqr : QRContract la.qr)
    (maxFloat bound : ℝ) (wages : Fin (n + 1) → ℝ) (c : Fin (n + 1))
    (L : Matrix (Fin (n + 1)) (Fin (n + 1)) ℝ) (hL : IsLower L) (hd : ∀ k, L k k ≠ 0) (nWages : Nat)
    (hc : (c : Nat) < nWages) (measSds : Nat → ℝ) (hs : measSds c ≠ 0) [IsProbabilityMeasure P]
    {X : Fin (n + 1) → Ω → ℝ} {ε : Ω → ℝ} (hX : ShocksAndError (L * Lᵀ) (measSds c ^ 2) X ε P)
    {Z : Fin (n + 1) → Ω' → ℝ} (hZ : StandardNormal Z Q) :
    ∀ᵐ y ∂(P.map fun ω => X c ω + ε ω),
      ∃ r, createDrawsAndLogProbWages la maxFloat bound true
          (some (Real.log (min (max (wages c) (1 / maxFloat)) maxFloat) + y)) wages c L nWages measSds =
            some r ∧
        Q.map (fun ω => r.draw fun j => Z j ω) =
          (condDistrib (fun ω i => X i ω) (fun ω => X c ω + ε ω) P y).map
            (rewardShock bound nWages) := by
  have hσ : shocksCov L c c + measSds c ^ 2 ≠ 0 := by
    have := shocksCov_diag_nonneg L c
    positivity
  refine draws_condDistrib la maxFloat bound true wages c L nWages measSds _
    (fun l => ?_) (updatedCholWithMeasError_lower L hqr measSds c) hσ
    (updatedCholWithMeasError_gram L hqr measSds c hσ
      fun k => qr_diag_ne_zero L hqr (measSds c) hs hL hd c k.succ) hX hZ
  simp only [relevantChol, Option.isSome_some, if_true, hc]

/-- Without measurement error, the draws for an observed wage have the law of the shocks conditional on
the shock of the choice, for every covariance matrix with a positive variance of this shock. -/
theorem C38_no_measurement_error (la : LinearAlgebra n) (hch : CholeskyContract la.cholesky)
    (maxFloat bound : ℝ) (wages : Fin (n + 1) → ℝ) (c : Fin (n + 1))
    (L : Matrix (Fin (n + 1)) (Fin (n + 1)) ℝ) (hσ : (L * Lᵀ) c c ≠ 0) (nWages : Nat)
    (hc : (c : Nat) < nWages) (measSds : Nat → ℝ) (hs : measSds c = 0) [IsProbabilityMeasure P]
    {X : Fin (n + 1) → Ω → ℝ} (hX : Shocks (L * Lᵀ) X P)
    {Z : Fin (n + 1) → Ω' → ℝ} (hZ : StandardNormal Z Q) :
    ∀ᵐ y ∂(P.map (X c)),
      ∃ r, createDrawsAndLogProbWages la maxFloat bound false
          (some (Real.log (min (max (wages c) (1 / maxFloat)) maxFloat) + y)) wages c L nWages measSds =
            some r ∧
        Q.map (fun ω => r.draw fun j => Z j ω) =
          (condDistrib (fun ω i => X i ω) (X c) P y).map (rewardShock bound nWages) := by
  have hσ' : shocksCov L c c + measSds c ^ 2 ≠ 0 := by
    rw [hs]
    simpa [shocksCov] using hσ
  have hE : ShocksAndError (L * Lᵀ) (measSds c ^ 2) X (fun _ => 0) P := by
    rw [hs]
    simpa using hX.withoutError
  have := draws_condDistrib la maxFloat bound false wages c L nWages measSds
    (updatedCholNoMeasError la.cholesky L c)
    (fun l => by simp only [relevantChol, Option.isSome_some, if_true, hc]; rfl)
    (updatedCholNoMeasError_lower hch L c) hσ'
    (fun j k => by
      rw [updatedCholNoMeasError_gram hch L c hσ, hs]
      simp) hE hZ
  simpa using this

/-- Without an observed wage, the draws have the law of the shocks. -/
theorem C38_no_observation (la : LinearAlgebra n) (maxFloat bound : ℝ) (hasMeasError : Bool)
    (wages : Fin (n + 1) → ℝ) (c : Fin (n + 1)) (L : Matrix (Fin (n + 1)) (Fin (n + 1)) ℝ)
    (hL : IsLower L) (nWages : Nat) (measSds : Nat → ℝ) {X : Fin (n + 1) → Ω → ℝ}
    (hX : Shocks (L * Lᵀ) X P) {Z : Fin (n + 1) → Ω' → ℝ} (hZ : StandardNormal Z Q) :
    ∃ r, createDrawsAndLogProbWages la maxFloat bound hasMeasError none wages c L nWages measSds =
        some r ∧
      Q.map (fun ω => r.draw fun j => Z j ω) =
        P.map (fun ω => rewardShock bound nWages fun i => X i ω) := by
  have hr : relevantChol la hasMeasError L measSds nWages none c = some L := by
    simp [relevantChol]
  simp only [createDrawsAndLogProbWages, hr, Option.bind_eq_bind, Option.bind_some, Option.pure_def]
  refine ⟨_, rfl, ?_⟩
  have := hZ.gaussian.isProbabilityMeasure
  have hmZ : ∀ j, MemLp (Z j) 2 Q := fun j => (hZ.gaussian.eval j).memLp_two
  have hLZ := gaussian_linear hZ.gaussian L
  have hlaw := gaussian_law_eq hX.gaussian hLZ
    (fun i => by
      rw [hX.mean, integral_finsetSum _ fun j _ => ((hZ.gaussian.eval j).integrable.const_mul _)]
      symm
      apply Finset.sum_eq_zero
      intro j _
      rw [integral_const_mul, hZ.mean, mul_zero])
    (fun i j => by
      rw [hX.cov, covariance_fun_sum_fun_sum (fun k => (hmZ k).const_mul _)
        (fun k => (hmZ k).const_mul _), Matrix.mul_apply]
      refine Finset.sum_congr rfl fun k _ => ?_
      have : ∀ l, covariance (fun ω => L i k * Z k ω) (fun ω => L j l * Z l ω) Q =
          if k = l then L i k * L j l else 0 := by
        intro l
        rw [covariance_const_mul_left, covariance_const_mul_right]
        have h := hZ.cov k l
        have e : covariance (fun ω => Z k ω) (fun ω => Z l ω) Q = if k = l then 1 else 0 := h
        rw [e]
        split <;> ring
      simp only [this, Finset.sum_ite_eq, Finset.mem_univ, if_true, Matrix.transpose_apply])
  have hmX := hX.gaussian.aemeasurable
  have e1 : P.map (fun ω => rewardShock bound nWages fun i => X i ω) =
      (P.map fun ω i => X i ω).map (rewardShock bound nWages) :=
    (AEMeasurable.map_map_of_aemeasurable (measurable_rewardShock _ _).aemeasurable hmX).symm
  rw [e1, hlaw, AEMeasurable.map_map_of_aemeasurable (measurable_rewardShock _ _).aemeasurable
    hLZ.aemeasurable]
  congr 1
  funext ω
  simp only [conditionalDraw_eq, Function.comp]
  congr 1
  funext i
  rw [latentDraw_lower _ _ hL]
  simp [updateMeanAndLoglike]

end

/-- The hypotheses of C38 can be met: library functions which satisfy the contracts, two correlated
shocks, a measurement error and base draws. -/
example : ∃ la : LinearAlgebra 1, QRContract la.qr ∧ CholeskyContract la.cholesky ∧
    IsLower !![(1 : ℝ), 0; 1 / 2, 1] ∧ (∀ k, !![(1 : ℝ), 0; 1 / 2, 1] k k ≠ 0) ∧
    ShocksAndError (!![(1 : ℝ), 0; 1 / 2, 1] * (!![(1 : ℝ), 0; 1 / 2, 1])ᵀ) (3 ^ 2)
      (fun i (ω : (Fin 2 → ℝ) × ℝ) => ∑ j, !![(1 : ℝ), 0; 1 / 2, 1] i j * ω.1 j) (fun ω => ω.2)
      ((Measure.pi fun _ : Fin 2 => gaussianReal 0 1).prod (gaussianReal 0 (3 ^ 2 : ℝ).toNNReal)) ∧
    StandardNormal (fun (i : Fin 2) (ω : Fin 2 → ℝ) => ω i)
      (Measure.pi fun _ : Fin 2 => gaussianReal 0 1) := by
  obtain ⟨qr, hqr⟩ := exists_qrContract 3
  obtain ⟨ch, hch⟩ := exists_choleskyContract 1
  refine ⟨⟨qr, ch⟩, hqr, hch, ?_, ?_, exists_shocksAndError _ 3, exists_standardNormal 2⟩
  · intro i j hij
    fin_cases i <;> fin_cases j <;> simp_all
  · intro k
    fin_cases k <;> simp

/-- The square of the factor after `make_cholesky_unique` is the square of the factor if and only if columns whose
diagonal element is zero vanish. -/
theorem makeCholeskyUnique_gram_iff {n : Nat} (C : Matrix (Fin n) (Fin n) ℝ) :
    makeCholeskyUnique C * (makeCholeskyUnique C)ᵀ = C * Cᵀ ↔ ∀ k, C k k = 0 → ∀ i, C i k = 0 := by
  have hterm : ∀ i j k, makeCholeskyUnique C i k * makeCholeskyUnique C j k =
      C i k * C j k - if C k k = 0 then C i k * C j k else 0 := by
    intro i j k
    simp only [makeCholeskyUnique, mul_diagonal]
    split
    · next h => rw [h, Real.sign_zero]; ring
    · next h =>
      have := sign_mul_self h
      calc _ = C i k * C j k * (Real.sign (C k k) * Real.sign (C k k)) := by ring
        _ = _ := by rw [this]; ring
  constructor
  · intro h k hk i
    have h1 := congrFun (congrFun h i) i
    rw [mul_apply, mul_apply] at h1
    simp only [transpose_apply, hterm, Finset.sum_sub_distrib] at h1
    have h2 : ∑ k, (if C k k = 0 then C i k * C i k else 0) = 0 := by linarith
    have h3 := (Finset.sum_eq_zero_iff_of_nonneg (fun k _ => by
      split
      · exact mul_self_nonneg _
      · exact le_rfl)).1 h2 k (Finset.mem_univ k)
    rw [if_pos hk] at h3
    exact mul_self_eq_zero.1 h3
  · intro h
    ext i j
    rw [mul_apply, mul_apply]
    refine Finset.sum_congr rfl fun k _ => ?_
    rw [transpose_apply, transpose_apply, hterm]
    split
    · next hk => rw [h k hk i]; ring
    · ring

/-- **C38.** With measurement error, for all covariance matrices and measurement errors such that the observation has
a variance, the factor which is used for the draws is a factor of the conditional covariance if and only if the rows of
`np.linalg.qr` whose diagonal element is zero vanish. -/
theorem C38_exact_condition {n : Nat}
    {qr : Matrix (Fin (n + 1)) (Fin (n + 1)) ℝ → Matrix (Fin (n + 1)) (Fin (n + 1)) ℝ} (hqr : QRContract qr)
    (L : Matrix (Fin n) (Fin n) ℝ) (measSds : Nat → ℝ) (c : Fin n) (hσ : (L * Lᵀ) c c + measSds c ^ 2 ≠ 0) :
    (∀ i j, (updatedCholWithMeasError qr L measSds c * (updatedCholWithMeasError qr L measSds c)ᵀ) i j =
      (L * Lᵀ) i j - (L * Lᵀ) c i * (L * Lᵀ) c j / ((L * Lᵀ) c c + measSds c ^ 2)) ↔
    ∀ k : Fin n, qr (extendedCholcov L (measSds c) c) k.succ k.succ = 0 →
      ∀ i : Fin n, qr (extendedCholcov L (measSds c) c) k.succ i.succ = 0 := by
  have hblock := qr_block L hqr (measSds c) c hσ
  rw [show (∀ k : Fin n, qr (extendedCholcov L (measSds c) c) k.succ k.succ = 0 →
      ∀ i : Fin n, qr (extendedCholcov L (measSds c) c) k.succ i.succ = 0) ↔ _ from
    (makeCholeskyUnique_gram_iff ((qr (extendedCholcov L (measSds c) c)).submatrix Fin.succ Fin.succ)ᵀ).symm]
  have hC : ∀ i j, (((qr (extendedCholcov L (measSds c) c)).submatrix Fin.succ Fin.succ)ᵀ *
      (((qr (extendedCholcov L (measSds c) c)).submatrix Fin.succ Fin.succ)ᵀ)ᵀ) i j =
      (L * Lᵀ) i j - (L * Lᵀ) c i * (L * Lᵀ) c j / ((L * Lᵀ) c c + measSds c ^ 2) := by
    intro i j
    rw [mul_apply]
    exact hblock i j
  constructor
  · intro h
    ext i j
    rw [hC, ← h]
    rfl
  · intro h i j
    rw [← hC, ← h]
    rfl

/-- **C38.** Under this condition the draws for an observed wage have the law of the shocks conditional on the sum of
the shock of the choice and the measurement error, also for singular covariance matrices and without measurement
error for the choice. -/
theorem C38_measurement_error_any_covariance {Ω Ω' : Type*} {mΩ : MeasurableSpace Ω} {mΩ' : MeasurableSpace Ω'}
    {P : Measure Ω} {Q : Measure Ω'} {n : Nat} (la : LinearAlgebra n) (hqr : QRContract la.qr)
    (maxFloat bound : ℝ) (wages : Fin (n + 1) → ℝ) (c : Fin (n + 1))
    (L : Matrix (Fin (n + 1)) (Fin (n + 1)) ℝ) (nWages : Nat) (hc : (c : Nat) < nWages) (measSds : Nat → ℝ)
    (hσ : (L * Lᵀ) c c + measSds c ^ 2 ≠ 0)
    (hrows : ∀ k : Fin (n + 1), la.qr (extendedCholcov L (measSds c) c) k.succ k.succ = 0 →
      ∀ i : Fin (n + 1), la.qr (extendedCholcov L (measSds c) c) k.succ i.succ = 0) [IsProbabilityMeasure P]
    {X : Fin (n + 1) → Ω → ℝ} {ε : Ω → ℝ} (hX : ShocksAndError (L * Lᵀ) (measSds c ^ 2) X ε P)
    {Z : Fin (n + 1) → Ω' → ℝ} (hZ : StandardNormal Z Q) :
    ∀ᵐ y ∂(P.map fun ω => X c ω + ε ω),
      ∃ r, createDrawsAndLogProbWages la maxFloat bound true
          (some (Real.log (min (max (wages c) (1 / maxFloat)) maxFloat) + y)) wages c L nWages measSds =
            some r ∧
        Q.map (fun ω => r.draw fun j => Z j ω) =
          (condDistrib (fun ω i => X i ω) (fun ω => X c ω + ε ω) P y).map (rewardShock bound nWages) := by
  refine draws_condDistrib la maxFloat bound true wages c L nWages measSds _ (fun l => ?_)
    (updatedCholWithMeasError_lower L hqr measSds c) hσ ((C38_exact_condition hqr L measSds c hσ).2 hrows) hX hZ
  simp only [relevantChol, Option.isSome_some, if_true, hc]

/-- The condition can be met without measurement error (`C38_contract_not_sufficient` shows that it is not always met). -/
example : ∃ qr, QRContract qr ∧ (∀ k : Fin 2, qr (extendedCholcov (!![1, 0; 1 / 2, 1]) 0 0) k.succ k.succ = 0 →
      ∀ i : Fin 2, qr (extendedCholcov (!![1, 0; 1 / 2, 1]) 0 0) k.succ i.succ = 0) ∧
    qr (extendedCholcov (!![1, 0; 1 / 2, 1]) 0 0) 1 1 = 0 := by
  classical
  obtain ⟨qr, hqr⟩ := exists_qrContract 3
  let R : Matrix (Fin 3) (Fin 3) ℝ := !![1, 1, 1 / 2; 0, 0, 0; 0, 0, 1]
  let A := extendedCholcov (!![1, 0; 1 / 2, 1]) 0 0
  have hA : A = !![0, 0, 0; 1, 1, 1 / 2; 0, 0, 1] := by
    ext i j
    fin_cases i <;> fin_cases j <;> rfl
  refine ⟨fun B => if B = A then R else qr B, fun B => ?_, fun k hk i => ?_, ?_⟩
  · by_cases hB : B = A
    · simp only [if_pos hB]
      rw [hB, hA]
      constructor
      · ext i j
        fin_cases i <;> fin_cases j <;> simp [R, mul_apply, Fin.sum_univ_succ]
      · intro i j hij
        fin_cases i <;> fin_cases j <;> simp_all [R]
    · simp only [if_neg hB]
      exact hqr B
  · have hR : (if A = A then R else qr A) = R := if_pos rfl
    change (if A = A then R else qr A) k.succ k.succ = 0 at hk
    change (if A = A then R else qr A) k.succ i.succ = 0
    rw [hR] at hk ⊢
    fin_cases k <;> fin_cases i <;> simp_all [R]
  · change (if A = A then R else qr A) 1 1 = 0
    rw [show (if A = A then R else qr A) = R from if_pos rfl]
    simp [R]

/-- The reflection of Householder's method for the column `x`, which is mapped to a multiple of the first unit vector:
`v = x + |x| e` and `1 - 2 v v' / v'v`. -/
noncomputable def householderReflection {n : Nat} (v : Fin n → ℝ) : Matrix (Fin n) (Fin n) ℝ :=
  1 - (2 / (v ⬝ᵥ v)) • vecMulVec v v

/-- **C38 does not hold for singular covariance matrices.** Householder's method, with which `np.linalg.qr` decomposes
the matrix, takes one reflection for the first column (with `v = x + |x| e`); the remaining columns are zero on and
below the diagonal and need no reflection. The result meets the contract, but its second diagonal element is zero, so
that `make_cholesky_unique` removes the whole column: the draws have no variance, although the variance of the shock
given the observed wage is 144/25. -/
theorem C38_singular_covariance_false :
    ∃ (L : Matrix (Fin 2) (Fin 2) ℝ) (measSds : Nat → ℝ) (c : Fin 2) (v : Fin 3 → ℝ), IsLower L ∧ measSds c ≠ 0 ∧
      (∃ norm, 0 < norm ∧ (norm ^ 2 = ∑ i, extendedCholcov L (measSds c) c i 0 ^ 2) ∧
        v = fun i => extendedCholcov L (measSds c) c i 0 + if i = 0 then norm else 0) ∧
      let R := householderReflection v * extendedCholcov L (measSds c) c
      (Rᵀ * R = (extendedCholcov L (measSds c) c)ᵀ * extendedCholcov L (measSds c) c) ∧ (∀ i j, j < i → R i j = 0) ∧
      (∀ i j, 0 < j → j ≤ i → R i j = 0) ∧
      (∀ qr, qr (extendedCholcov L (measSds c) c) = R → updatedCholWithMeasError qr L measSds c = 0) ∧
      (L * Lᵀ) c c - (L * Lᵀ) c c * (L * Lᵀ) c c / ((L * Lᵀ) c c + measSds c ^ 2) = 144 / 25 := by
  have hA : extendedCholcov (!![0, 0; 4, 0] : Matrix (Fin 2) (Fin 2) ℝ) 3 1 = !![3, 0, 0; 4, 0, 4; 0, 0, 0] := by
    ext i j
    fin_cases i <;> fin_cases j <;> rfl
  have hR : householderReflection ![8, 4, 0] * !![3, 0, 0; 4, 0, 4; 0, 0, 0] =
      (!![-5, 0, -16 / 5; 0, 0, 12 / 5; 0, 0, 0] : Matrix (Fin 3) (Fin 3) ℝ) := by
    have hv : (2 / ((![8, 4, 0] : Fin 3 → ℝ) ⬝ᵥ ![8, 4, 0])) = 1 / 40 := by
      simp [dotProduct, Fin.sum_univ_succ]
      norm_num
    unfold householderReflection
    rw [hv]
    ext i j
    fin_cases i <;> fin_cases j <;>
      simp [mul_apply, Fin.sum_univ_succ, Matrix.sub_apply, one_apply] <;> norm_num
  refine ⟨!![0, 0; 4, 0], fun _ => 3, 1, ![8, 4, 0], ?_, by norm_num, ⟨5, by norm_num, ?_, ?_⟩, ?_⟩
  · intro i j hij
    fin_cases i <;> fin_cases j <;> simp_all
  · rw [hA]
    simp [Fin.sum_univ_succ]
    norm_num
  · rw [hA]
    ext i
    fin_cases i <;> simp
    norm_num
  · simp only [hA, hR]
    refine ⟨?_, ?_, ?_, fun qr hqr => ?_, ?_⟩
    · ext i j
      fin_cases i <;> fin_cases j <;> simp [mul_apply, Fin.sum_univ_succ] <;> norm_num
    · intro i j hij
      fin_cases i <;> fin_cases j <;> simp_all
    · intro i j h0 hij
      fin_cases i <;> fin_cases j <;> simp_all
    · unfold updatedCholWithMeasError makeCholeskyUnique
      simp only [hA, hqr]
      ext i j
      fin_cases i <;> fin_cases j <;> simp [mul_diagonal, submatrix_apply, Real.sign_zero]
    · simp [mul_apply, Fin.sum_univ_succ]
      norm_num
/-- What is missing in `C38_measurement_error_partial`: `R'R = A'A` with an upper triangular `R` does not
determine the result if the measurement error has no variance, since `make_cholesky_unique` replaces a
column by zero if its diagonal element is zero. -/
theorem C38_contract_not_sufficient :
    ∃ (qr : Matrix (Fin 3) (Fin 3) ℝ → Matrix (Fin 3) (Fin 3) ℝ) (L : Matrix (Fin 2) (Fin 2) ℝ),
      QRContract qr ∧ IsLower L ∧ (∀ k, L k k ≠ 0) ∧
      (updatedCholWithMeasError qr L (fun _ => 0) 0 *
        (updatedCholWithMeasError qr L (fun _ => 0) 0)ᵀ) 1 1 ≠
      shocksCov L 1 1 - shocksCov L 0 1 * shocksCov L 0 1 / shocksCov L 0 0 := by
  classical
  obtain ⟨qr, hqr⟩ := exists_qrContract 3
  let L : Matrix (Fin 2) (Fin 2) ℝ := !![1, 0; 1 / 2, 1]
  let R : Matrix (Fin 3) (Fin 3) ℝ := !![1, 1, 1 / 2; 0, 0, 1; 0, 0, 0]
  let A := extendedCholcov L 0 0
  have hA : A = !![0, 0, 0; 1, 1, 1 / 2; 0, 0, 1] := by
    ext i j
    fin_cases i <;> fin_cases j <;> rfl
  refine ⟨fun B => if B = A then R else qr B, L, ?_, ?_, ?_, ?_⟩
  · intro B
    by_cases hB : B = A
    · simp only [if_pos hB]
      rw [hB, hA]
      constructor
      · ext i j
        fin_cases i <;> fin_cases j <;> simp [R, mul_apply, Fin.sum_univ_succ]
      · intro i j hij
        fin_cases i <;> fin_cases j <;> simp_all [R]
    · simp only [if_neg hB]
      exact hqr B
  · intro i j hij
    fin_cases i <;> fin_cases j <;> simp_all [L]
  · intro k
    fin_cases k <;> simp [L]
  · have h1 : updatedCholWithMeasError (fun B => if B = A then R else qr B) L (fun _ => 0) 0 = 0 := by
      have hR : (fun B => if B = A then R else qr B) (extendedCholcov L 0 0) = R := if_pos rfl
      unfold updatedCholWithMeasError
      simp only [hR]
      ext i j
      rw [makeCholeskyUnique, mul_diagonal]
      fin_cases i <;> fin_cases j <;> simp [R]
    rw [h1]
    simp only [shocksCov_apply, Fin.sum_univ_succ, L]
    norm_num

/-- A lower triangular factor with a positive diagonal is determined by its square. -/
theorem cholesky_unique {n : Nat} {C D : Matrix (Fin n) (Fin n) ℝ} (hC : IsLower C) (hD : IsLower D)
    (hc : ∀ k, 0 < C k k) (hd : ∀ k, 0 < D k k) (h : C * Cᵀ = D * Dᵀ) : C = D := by
  have hent : ∀ i j, ∑ k, C i k * C j k = ∑ k, D i k * D j k := by
    intro i j
    have := congrFun (congrFun h i) j
    simpa only [mul_apply, transpose_apply] using this
  have key : ∀ m : Nat, ∀ j : Fin n, (j : Nat) < m → ∀ i, C i j = D i j := by
    intro m
    induction m with
    | zero => intro j hj; omega
    | succ m ih =>
      intro j hj
      by_cases hjm : (j : Nat) < m
      · exact ih j hjm
      · have hsplit : ∀ i, C i j * C j j = D i j * D j j := by
          intro i
          have e := hent i j
          rw [← Finset.add_sum_erase _ _ (Finset.mem_univ j),
            ← Finset.add_sum_erase _ _ (Finset.mem_univ j)] at e
          have e2 : ∑ k ∈ Finset.univ.erase j, C i k * C j k =
              ∑ k ∈ Finset.univ.erase j, D i k * D j k := by
            refine Finset.sum_congr rfl fun k hk => ?_
            rcases lt_or_gt_of_ne (Finset.ne_of_mem_erase hk) with hlt | hgt
            · have : (k : Nat) < m := by
                have : (k : Nat) < j := hlt
                omega
              rw [ih k this i, ih k this j]
            · rw [hC j k hgt, hD j k hgt, mul_zero, mul_zero]
          linarith
        have hjj : C j j = D j j := by
          have h1 := hsplit j
          have h2 := hc j
          have h3 := hd j
          nlinarith
        intro i
        have h1 := hsplit i
        rw [hjj] at h1
        exact mul_right_cancel₀ (hd j).ne' h1
  ext i j
  exact key (j + 1) j (Nat.lt_succ_self _) i

/-- The factor used with measurement error is *the* Cholesky factor of the conditional covariance: every
lower triangular matrix with a positive diagonal and this square is equal to it. It does not depend on
the signs which `np.linalg.qr` chooses. -/
theorem C38_factor_is_the_cholesky_factor {n : Nat}
    (qr : Matrix (Fin (n + 1)) (Fin (n + 1)) ℝ → Matrix (Fin (n + 1)) (Fin (n + 1)) ℝ)
    (hqr : QRContract qr) (L : Matrix (Fin n) (Fin n) ℝ) (hL : IsLower L) (hd : ∀ k, L k k ≠ 0)
    (measSds : Nat → ℝ) (c : Fin n) (hs : measSds c ≠ 0) (C : Matrix (Fin n) (Fin n) ℝ)
    (hC : IsLower C) (hpos : ∀ k, 0 < C k k)
    (hcov : ∀ i j, (C * Cᵀ) i j = (L * Lᵀ) i j -
      (L * Lᵀ) c i * (L * Lᵀ) c j / ((L * Lᵀ) c c + measSds c ^ 2)) :
    updatedCholWithMeasError qr L measSds c = C := by
  have hσ : shocksCov L c c + measSds c ^ 2 ≠ 0 := by
    have := shocksCov_diag_nonneg L c
    positivity
  have hdiag : ∀ k : Fin n, qr (extendedCholcov L (measSds c) c) k.succ k.succ ≠ 0 :=
    fun k => qr_diag_ne_zero L hqr (measSds c) hs hL hd c k.succ
  refine cholesky_unique (updatedCholWithMeasError_lower L hqr measSds c) hC (fun k => ?_) hpos ?_
  · unfold updatedCholWithMeasError
    simp only [makeCholeskyUnique, mul_diagonal, transpose_apply, submatrix_apply]
    rcases lt_or_gt_of_ne (hdiag k) with h | h
    · rw [Real.sign_of_neg h]; linarith
    · rw [Real.sign_of_pos h]; linarith
  · ext i j
    rw [updatedCholWithMeasError_gram L hqr measSds c hσ hdiag, hcov]
    rfl

/-- The hypotheses can be met: one shock with variance one and an error with variance one. -/
example : ∃ qr, QRContract qr ∧ updatedCholWithMeasError qr !![(1 : ℝ)] (fun _ => 1) 0 =
    !![√(1 / 2)] := by
  obtain ⟨qr, hqr⟩ := exists_qrContract 2
  refine ⟨qr, hqr, C38_factor_is_the_cholesky_factor qr hqr _ ?_ ?_ _ _ (by norm_num) _ ?_ ?_ ?_⟩
  · intro i j hij; fin_cases i; fin_cases j; simp at hij
  · intro k; fin_cases k; simp
  · intro i j hij; fin_cases i; fin_cases j; simp at hij
  · intro k; fin_cases k; simp
  · intro i j
    fin_cases i; fin_cases j
    show (!![√(1 / 2)] * !![√(1 / 2)]ᵀ : Matrix (Fin 1) (Fin 1) ℝ) 0 0 = _
    rw [mul_apply, Fin.sum_univ_one]
    show √(1 / 2) * √(1 / 2) = _
    rw [Real.mul_self_sqrt (by norm_num)]
    simp [mul_apply]
    norm_num

/-! ### C39 Without measurement error conditional draws reproduce the observed wage -/

/-- Without measurement error, the wage of the observed choice in every draw is the observed wage. -/
theorem C39_draws_reproduce_wage {n : Nat} (la : LinearAlgebra n) (maxFloat bound : ℝ)
    (hM : 0 < maxFloat) (wages : Fin (n + 1) → ℝ) (c : Fin (n + 1))
    (L : Matrix (Fin (n + 1)) (Fin (n + 1)) ℝ) (hσ : (L * Lᵀ) c c ≠ 0) (nWages : Nat)
    (hc : (c : Nat) < nWages) (measSds : Nat → ℝ) (hs : measSds c = 0)
    (hsys : 1 / maxFloat ≤ wages c ∧ wages c ≤ maxFloat) (w : ℝ)
    (hw : 1 / maxFloat ≤ w ∧ w ≤ maxFloat) (hb : Real.log w - Real.log (wages c) ≤ bound) :
    ∃ r, createDrawsAndLogProbWages la maxFloat bound false (logWage maxFloat (some w)) wages c L nWages
        measSds = some r ∧ ∀ base, wages c * r.draw base c = w := by
  have hr : ∀ l, relevantChol la false L measSds nWages (some l) c =
      some (updatedCholNoMeasError la.cholesky L c) := by
    intro l
    simp only [relevantChol, Option.isSome_some, if_true, hc]
    rfl
  have hpos : 0 < 1 / maxFloat := by positivity
  have hw0 : 0 < w := hpos.trans_le hw.1
  have hs0 : 0 < wages c := hpos.trans_le hsys.1
  simp only [createDrawsAndLogProbWages, logWage, Option.map_some, hr, Option.bind_eq_bind,
    Option.bind_some, Option.pure_def]
  refine ⟨_, rfl, fun base => ?_⟩
  simp only [conditionalDraw_eq, rewardShock, if_pos hc, latentDraw, updateMeanAndLoglike,
    sigmaSquared, hs, max_eq_left hw.1, min_eq_left hw.2, max_eq_left hsys.1, min_eq_left hsys.2]
  have hz : ∑ j with j ≤ c, base j * updatedCholNoMeasError la.cholesky L c c j = 0 :=
    Finset.sum_eq_zero fun j _ => by
      rw [updatedCholNoMeasError, insertZero_row, mul_zero]
  have hcc : shocksCov L c c ≠ 0 := hσ
  have hm : shocksCov L c c * (Real.log w - Real.log (wages c)) / (shocksCov L c c + 0 ^ 2) =
      Real.log w - Real.log (wages c) := by
    rw [zero_pow two_ne_zero, add_zero, mul_div_cancel_left₀ _ hcc]
  rw [hz, add_zero, hm, min_eq_left hb, Real.exp_sub, Real.exp_log hw0, Real.exp_log hs0]
  field_simp

/-- A wage above the systematic wage. -/
example : (0 : ℝ) < 1000 ∧ ((1 : Matrix (Fin 2) (Fin 2) ℝ) * (1 : Matrix (Fin 2) (Fin 2) ℝ)ᵀ) 0 0 ≠ 0 ∧
    (1 / 1000 ≤ (2 : ℝ) ∧ (2 : ℝ) ≤ 1000) ∧ Real.log 3 - Real.log 2 ≤ 460 := by
  refine ⟨by norm_num, by simp, by norm_num, ?_⟩
  have h3 : Real.log 3 ≤ 3 - 1 := Real.log_le_sub_one_of_pos (by norm_num)
  have h2 : 0 ≤ Real.log 2 := Real.log_nonneg (by norm_num)
  linarith

/-! ### C40 The wage log likelihood is the density of a log-normal wage -/

/-- The noisy observation of a wage, systematic wage times the exponential of shock plus measurement
error, has a continuous positive density, and the log probability of every wage in the representable
range is the logarithm of this density. -/
theorem C40_log_normal_density {n : Nat} {Ω : Type*} {mΩ : MeasurableSpace Ω} {P : Measure Ω}
    (L : Matrix (Fin (n + 1)) (Fin (n + 1)) ℝ) (c : Fin (n + 1)) (measSds : Nat → ℝ)
    (hσ : (L * Lᵀ) c c + measSds c ^ 2 ≠ 0) {X : Fin (n + 1) → Ω → ℝ} {ε : Ω → ℝ}
    (hX : ShocksAndError (L * Lᵀ) (measSds c ^ 2) X ε P) (maxFloat : ℝ) (hM : 0 < maxFloat)
    (wages : Fin (n + 1) → ℝ) (hsys : 1 / maxFloat ≤ wages c ∧ wages c ≤ maxFloat) :
    ∃ f : ℝ → ℝ, ContinuousOn f (Set.Ioi 0) ∧ (∀ w, 0 < w → 0 < f w) ∧
      P.map (fun ω => wages c * Real.exp (X c ω + ε ω)) =
        (volume.restrict (Set.Ioi 0)).withDensity (fun w => ENNReal.ofReal (f w)) ∧
      ∀ (la : LinearAlgebra n) (bound : ℝ) (hasMeasError : Bool) (nWages : Nat) (w : ℝ),
        (c : Nat) < nWages → 1 / maxFloat ≤ w → w ≤ maxFloat →
        ∃ r, createDrawsAndLogProbWages la maxFloat bound hasMeasError (logWage maxFloat (some w)) wages c
          L nWages measSds = some r ∧ r.logProbWage = Real.log (f w) := by
  have hP := hX.gaussian.isProbabilityMeasure
  have hpos : 0 < 1 / maxFloat := by positivity
  have hs0 : 0 < wages c := hpos.trans_le hsys.1
  have hcc : 0 ≤ (L * Lᵀ) c c := shocksCov_diag_nonneg L c
  set S := (L * Lᵀ) c c with hS
  set v : NNReal := (S + measSds c ^ 2).toNNReal with hv
  have hSv : 0 < S + measSds c ^ 2 := lt_of_le_of_ne (by positivity) (Ne.symm hσ)
  have hv0 : v ≠ 0 := by
    rw [hv, Ne, Real.toNNReal_eq_zero]
    exact not_le.2 hSv
  have hvc : (v : ℝ) = S + measSds c ^ 2 := Real.coe_toNNReal _ hSv.le
  have hXc := hX.gaussian.eval c
  have hlawX : P.map (X c) = gaussianReal 0 S.toNNReal := by
    rw [hXc.map_eq_gaussianReal, hX.mean c, ← covariance_self hXc.aemeasurable, hX.cov]
  have hlawE : P.map ε = gaussianReal 0 (measSds c ^ 2).toNNReal := by
    rw [hX.errGaussian.map_eq_gaussianReal, hX.errMean, hX.errVar]
  have hind : IndepFun (X c) ε P := hX.indep.comp (measurable_pi_apply c) measurable_id
  have hsum : P.map (X c + ε) = gaussianReal 0 v := by
    rw [gaussianReal_add_gaussianReal_of_indepFun hind hlawX hlawE, add_zero, hv,
      Real.toNNReal_add hcc (by positivity)]
  have hlog : P.map (fun ω => Real.log (wages c) + (X c ω + ε ω)) =
      gaussianReal (Real.log (wages c)) v := by
    have hm : AEMeasurable (X c + ε) P := hXc.aemeasurable.add hX.errGaussian.aemeasurable
    have : P.map (fun ω => Real.log (wages c) + (X c ω + ε ω)) =
        (P.map (X c + ε)).map (fun x => Real.log (wages c) + x) :=
      (AEMeasurable.map_map_of_aemeasurable (measurable_id.const_add _).aemeasurable hm).symm
    rw [this, hsum, gaussianReal_map_const_add, zero_add]
  refine ⟨fun w => gaussianPDFReal (Real.log (wages c)) v (Real.log w) / w, ?_, ?_, ?_, ?_⟩
  · refine ContinuousOn.div ?_ continuousOn_id fun w hw => (Set.mem_Ioi.1 hw).ne'
    have hc : Continuous (gaussianPDFReal (Real.log (wages c)) v) := by
      unfold gaussianPDFReal
      fun_prop
    exact hc.comp_continuousOn (Real.continuousOn_log.mono fun w hw => (Set.mem_Ioi.1 hw).ne')
  · intro w hw
    exact div_pos (gaussianPDFReal_pos _ _ _ hv0) hw
  · have hm : AEMeasurable (fun ω => Real.log (wages c) + (X c ω + ε ω)) P :=
      (hXc.aemeasurable.add hX.errGaussian.aemeasurable).const_add _
    have : P.map (fun ω => wages c * Real.exp (X c ω + ε ω)) =
        (P.map fun ω => Real.log (wages c) + (X c ω + ε ω)).map Real.exp := by
      rw [AEMeasurable.map_map_of_aemeasurable Real.measurable_exp.aemeasurable hm]
      congr 1
      funext ω
      simp only [Function.comp, Real.exp_add (Real.log (wages c)), Real.exp_log hs0]
    rw [this, hlog, gaussian_map_exp _ hv0]
  · intro la bound hasMeasError nWages w hc h1 h2
    have hw0 : 0 < w := hpos.trans_le h1
    have hr : ∀ l, ∃ C, relevantChol la hasMeasError L measSds nWages (some l) c = some C := by
      intro l
      simp only [relevantChol, Option.isSome_some, if_true, hc]
      exact ⟨_, rfl⟩
    obtain ⟨C, hC⟩ := hr (Real.log w)
    simp only [createDrawsAndLogProbWages, logWage, Option.map_some, max_eq_left h1, min_eq_left h2,
      max_eq_left hsys.1, min_eq_left hsys.2, hC, Option.bind_eq_bind, Option.bind_some,
      Option.pure_def]
    refine ⟨_, rfl, ?_⟩
    rw [← loglike_eq_log_density _ _ hw0 hv0]
    simp only [updateMeanAndLoglike, sigmaSquared, hvc]
    rfl

/-- The log probability is zero if no wage is observed. -/
theorem C40_no_wage {n : Nat} (la : LinearAlgebra n) (maxFloat bound : ℝ) (hasMeasError : Bool)
    (wages : Fin (n + 1) → ℝ) (c : Fin (n + 1)) (L : Matrix (Fin (n + 1)) (Fin (n + 1)) ℝ)
    (nWages : Nat) (measSds : Nat → ℝ) :
    ∃ r, createDrawsAndLogProbWages la maxFloat bound hasMeasError (logWage maxFloat none) wages c L
      nWages measSds = some r ∧ r.logProbWage = 0 := by
  have hr : relevantChol la hasMeasError L measSds nWages none c = some L := by simp [relevantChol]
  simp only [createDrawsAndLogProbWages, logWage, Option.map_none, hr, Option.bind_eq_bind,
    Option.bind_some, Option.pure_def]
  exact ⟨_, rfl, rfl⟩

/-- Shocks and a measurement error as in C40 exist. -/
example : ((1 : Matrix (Fin 2) (Fin 2) ℝ) * (1 : Matrix (Fin 2) (Fin 2) ℝ)ᵀ) 0 0 +
    (fun _ : Nat => (3 : ℝ)) (0 : Fin 2) ^ 2 ≠ 0 ∧
    ∃ (X : Fin 2 → (Fin 2 → ℝ) × ℝ → ℝ) (ε : (Fin 2 → ℝ) × ℝ → ℝ) (P : Measure ((Fin 2 → ℝ) × ℝ)),
      ShocksAndError ((1 : Matrix (Fin 2) (Fin 2) ℝ) * (1 : Matrix (Fin 2) (Fin 2) ℝ)ᵀ) (3 ^ 2) X ε P :=
  ⟨by norm_num [mul_apply], _, _, _, exists_shocksAndError 1 3⟩

end Respy
