import Mathlib.Probability.Moments.Variance
import Verif.Lemmas.ChoiceProbability
import Verif.Spec.SimulatedShares

/-! Helper lemmas for C108: the joint distribution of choices and wages. -/

open MeasureTheory ProbabilityTheory Matrix

namespace Respy

noncomputable section

/-! ### Joint distribution of an observation and shocks -/

theorem integral_cons {n : Nat} (F : ℝ × (Fin n → ℝ) → ℝ) :
    ∫ z, F (z 0, fun i => z i.succ) ∂normals (n + 1) = ∫ yz, F yz ∂(gaussianReal 0 1).prod (normals n) := by
  have hpres := measurePreserving_piFinSuccAbove (fun _ : Fin (n + 1) => gaussianReal 0 1) 0
  rw [← hpres.integral_comp' (g := F)]
  rfl

/-- The integral over an observation and what is given with it is the integral over the shocks and the error. -/
theorem integral_joint {n q : Nat} (L : Matrix (Fin n) (Fin q) ℝ) (C : Matrix (Fin n) (Fin n) ℝ) (a : Fin n) (t : ℝ)
    (v : NNReal) (hv : v ≠ 0) (hvv : (v : ℝ) = (L * Lᵀ) a a + t ^ 2)
    (h : ∀ i j, (C * Cᵀ) i j = (L * Lᵀ) i j - (L * Lᵀ) a i * (L * Lᵀ) a j / v) (F : ℝ × (Fin n → ℝ) → ℝ)
    (hF : Measurable F) (M : ℝ) (hM : ∀ x, |F x| ≤ M) :
    ∫ r, ∫ z, F (r, fun i => (L * Lᵀ) a i * r / v + ∑ j, C i j * z j) ∂normals n ∂gaussianReal 0 v =
      ∫ zy, F ((∑ j, L a j * zy.1 j) + t * zy.2, fun i => ∑ j, L i j * zy.1 j) ∂(normals q).prod (gaussianReal 0 1) := by
  have hvp : (0 : ℝ) < v := by exact_mod_cast pos_iff_ne_zero.2 hv
  have hsq := Real.mul_self_sqrt hvp.le
  have hsp := Real.sqrt_pos.2 hvp
  have hsym : ∀ i j, (L * Lᵀ) i j = (L * Lᵀ) j i := fun i j => by
    simp only [mul_apply, transpose_apply]
    exact Finset.sum_congr rfl fun k _ => mul_comm _ _
  let A : Matrix (Fin (n + 1)) (Fin (n + 1)) ℝ := Matrix.of fun i j => Fin.cases (Fin.cases (√(v : ℝ)) (fun _ => 0) j)
    (fun i => Fin.cases ((L * Lᵀ) a i / √(v : ℝ)) (fun j => C i j) j) i
  let B : Matrix (Fin (n + 1)) (Fin (q + 1)) ℝ := Matrix.of fun i j => Fin.cases (Fin.cases t (fun j => L a j) j)
    (fun i => Fin.cases 0 (fun j => L i j) j) i
  have hA0 : ∀ z : Fin (n + 1) → ℝ, ∑ j, A 0 j * z j = √(v : ℝ) * z 0 := fun z => by
    rw [Fin.sum_univ_succ]
    simp [A]
  have hA1 : ∀ (z : Fin (n + 1) → ℝ) (i : Fin n), ∑ j, A i.succ j * z j =
      (L * Lᵀ) a i * (√(v : ℝ) * z 0) / v + ∑ j, C i j * z j.succ := fun z i => by
    rw [Fin.sum_univ_succ]
    simp only [A, of_apply, Fin.cases_zero, Fin.cases_succ]
    congr 1
    have hx : (L * Lᵀ) a i / √(v : ℝ) = (L * Lᵀ) a i * √(v : ℝ) / v := by
      rw [div_eq_div_iff hsp.ne' hvp.ne', mul_assoc, hsq]
    rw [hx]
    ring
  have hB0 : ∀ z : Fin (q + 1) → ℝ, ∑ j, B 0 j * z j = (∑ j, L a j * z j.succ) + t * z 0 := fun z => by
    rw [Fin.sum_univ_succ]
    simp only [B, of_apply, Fin.cases_zero, Fin.cases_succ]
    ring
  have hB1 : ∀ (z : Fin (q + 1) → ℝ) (i : Fin n), ∑ j, B i.succ j * z j = ∑ j, L i j * z j.succ := fun z i => by
    rw [Fin.sum_univ_succ]
    simp only [B, of_apply, Fin.cases_zero, Fin.cases_succ]
    ring
  have hAB : A * Aᵀ = B * Bᵀ := by
    ext i j
    rw [mul_apply, mul_apply]
    show ∑ k, A i k * A j k = ∑ k, B i k * B j k
    refine Fin.cases ?_ (fun i => ?_) i
    · rw [hA0, hB0]
      refine Fin.cases ?_ (fun j => ?_) j
      · simp only [A, B, of_apply, Fin.cases_zero, Fin.cases_succ]
        rw [hsq, hvv, mul_apply]
        simp only [transpose_apply]
        ring
      · simp only [A, B, of_apply, Fin.cases_zero, Fin.cases_succ]
        rw [mul_div_cancel₀ _ hsp.ne', mul_apply]
        simp only [transpose_apply]
        ring
    · rw [hA1, hB1]
      refine Fin.cases ?_ (fun j => ?_) j
      · simp only [A, B, of_apply, Fin.cases_zero, Fin.cases_succ]
        rw [hsq, mul_div_cancel_right₀ _ hvp.ne', hsym a i]
        simp only [mul_zero, Finset.sum_const_zero, add_zero]
        rw [mul_apply]
        rfl
      · have hC := h i j
        rw [mul_apply] at hC
        simp only [transpose_apply] at hC
        simp only [A, B, of_apply, Fin.cases_zero, Fin.cases_succ]
        rw [hC]
        have hx : √(v : ℝ) * ((L * Lᵀ) a j / √(v : ℝ)) = (L * Lᵀ) a j := mul_div_cancel₀ _ hsp.ne'
        rw [hx, mul_apply (M := L) (N := Lᵀ) (i := i) (k := j)]
        simp only [transpose_apply]
        ring
  have hg : gaussianReal 0 v = (gaussianReal 0 1).map (fun x => √(v : ℝ) * x) := by
    rw [gaussianReal_map_const_mul, mul_zero]
    congr 1
    ext
    simp [Real.sq_sqrt hvp.le]
  have hmeas : Measurable fun rz : ℝ × (Fin n → ℝ) => F (rz.1, fun i => (L * Lᵀ) a i * rz.1 / v + ∑ j, C i j * rz.2 j) := by
    refine hF.comp (measurable_fst.prodMk ?_)
    fun_prop
  have hint : Measurable fun r : ℝ => ∫ z, F (r, fun i => (L * Lᵀ) a i * r / v + ∑ j, C i j * z j) ∂normals n :=
    (hmeas.stronglyMeasurable.integral_prod_right').measurable
  have hH : Measurable fun x : Fin (n + 1) → ℝ => F (x 0, fun i => x i.succ) := by
    refine hF.comp ((measurable_pi_apply 0).prodMk ?_)
    fun_prop
  have key := integral_linear_eq A B hAB (fun x => F (x 0, fun i => x i.succ)) hH
  simp only [hA0, hA1, hB0, hB1] at key
  rw [integral_cons (fun yz => F (√(v : ℝ) * yz.1, fun i => (L * Lᵀ) a i * (√(v : ℝ) * yz.1) / v + ∑ j, C i j * yz.2 j)),
    integral_cons (fun yz => F ((∑ j, L a j * yz.2 j) + t * yz.1, fun i => ∑ j, L i j * yz.2 j))] at key
  rw [hg, integral_map (by fun_prop) hint.aestronglyMeasurable]
  rw [integral_prod _ (Integrable.of_bound (Measurable.aestronglyMeasurable (by
    refine hF.comp (Measurable.prodMk ?_ ?_) <;> fun_prop)) M (Filter.Eventually.of_forall fun x => hM _))] at key
  rw [key, ← integral_prod_swap]
  rfl

/-! ### Leading alternatives -/

variable {cs : List Bool} {n : Nat}

theorem logitOf_behind (tau κ : ℝ) (ht : 0 < tau) (u : Nat → ℝ) (a b : Nat) (ha : cs[a]? = some true)
    (h : u b + κ ≤ u a) : logitOf tau cs u b ≤ Real.exp (-κ / tau) := by
  have hlt := positionIn_lt cs a ha
  have h1 : Real.exp (u a / tau) ≤ overAvailable cs fun j => Real.exp (u j / tau) := by
    rw [overAvailable_sum rfl]
    have := Finset.single_le_sum (f := fun i : Fin (cs.count true) => Real.exp (u (alternativeAt cs i) / tau))
      (fun i _ => (Real.exp_pos _).le) (Finset.mem_univ ⟨positionIn cs a, hlt⟩)
    simpa only [alternativeAt_positionIn a ha] using this
  unfold logitOf
  rw [div_le_iff₀ ((Real.exp_pos _).trans_le h1)]
  calc Real.exp (u b / tau) ≤ Real.exp (-κ / tau) * Real.exp (u a / tau) := by
        rw [← Real.exp_add, ← add_div, Real.exp_le_exp]
        exact div_le_div_of_nonneg_right (by linarith) ht.le
    _ ≤ _ := mul_le_mul_of_nonneg_left h1 (Real.exp_pos _).le

theorem logitOf_leading (tau κ : ℝ) (ht : 0 < tau) (u : Nat → ℝ) (a : Nat) (ha : cs[a]? = some true)
    (h : ∀ b, b ≠ a → cs[b]? = some true → u b + κ ≤ u a) :
    1 - cs.count true * Real.exp (-κ / tau) ≤ logitOf tau cs u a := by
  have hlt := positionIn_lt cs a ha
  have hmem : true ∈ cs := List.mem_of_getElem? ha
  have h1 := logitOf_sum tau u hmem
  rw [overAvailable_sum rfl, ← Finset.add_sum_erase _ _ (Finset.mem_univ ⟨positionIn cs a, hlt⟩)] at h1
  simp only [alternativeAt_positionIn a ha] at h1
  have h2 : ∑ i ∈ Finset.univ.erase (⟨positionIn cs a, hlt⟩ : Fin (cs.count true)), logitOf tau cs u (alternativeAt cs i) ≤
      ∑ _i ∈ Finset.univ.erase (⟨positionIn cs a, hlt⟩ : Fin (cs.count true)), Real.exp (-κ / tau) := by
    refine Finset.sum_le_sum fun i hi => logitOf_behind tau κ ht u a _ ha (h _ ?_ (alternativeAt_available rfl i))
    intro he
    refine (Finset.mem_erase.1 hi).1 (Fin.ext ?_)
    rw [← positionIn_alternativeAt rfl i, he]
  rw [Finset.sum_const, nsmul_eq_mul] at h2
  have h3 : ((Finset.univ.erase (⟨positionIn cs a, hlt⟩ : Fin (cs.count true))).card : ℝ) ≤ cs.count true := by
    have := Finset.card_le_univ (Finset.univ.erase (⟨positionIn cs a, hlt⟩ : Fin (cs.count true)))
    rw [Fintype.card_fin] at this
    exact_mod_cast this
  have := mul_le_mul_of_nonneg_right h3 (Real.exp_pos (-κ / tau)).le
  linarith

/-- Probabilities of events and expectations of functions which are close to their indicators. -/
theorem measure_close {Ω : Type _} [MeasurableSpace Ω] (Q : Measure Ω) [IsProbabilityMeasure Q] (h : Ω → ℝ)
    (hm : Measurable h) (hb : ∀ ω, 0 ≤ h ω ∧ h ω ≤ 1) (S T : Set Ω) (δ : ℝ) (hδ : 0 ≤ δ)
    (h1 : ∀ ω, ω ∉ T → ω ∈ S → 1 - δ ≤ h ω) (h2 : ∀ ω, ω ∉ T → ω ∉ S → h ω ≤ δ) :
    |Q.real S - ∫ ω, h ω ∂Q| ≤ Q.real T + δ := by
  have hi : Integrable h Q := Integrable.of_bound hm.aestronglyMeasurable 1
    (Filter.Eventually.of_forall fun ω => by rw [Real.norm_eq_abs, abs_of_nonneg (hb ω).1]; exact (hb ω).2)
  have hS : Q.real (toMeasurable Q S) = Q.real S := by simp [Measure.real]
  have hT : Q.real (toMeasurable Q T) = Q.real T := by simp [Measure.real]
  have hind : ∀ U : Set Ω, MeasurableSet U → Integrable (U.indicator fun _ => (1 : ℝ)) Q := fun U hU =>
    (integrable_const _).indicator hU
  rw [abs_le]
  constructor
  · have : ∫ ω, h ω ∂Q ≤ ∫ ω, ((toMeasurable Q S).indicator (fun _ => (1 : ℝ)) ω +
        ((toMeasurable Q T).indicator (fun _ => (1 : ℝ)) ω + δ)) ∂Q := by
      refine integral_mono hi ((hind _ (measurableSet_toMeasurable _ _)).add
        ((hind _ (measurableSet_toMeasurable _ _)).add (integrable_const _))) fun ω => ?_
      show h ω ≤ (toMeasurable Q S).indicator (fun _ => (1 : ℝ)) ω + ((toMeasurable Q T).indicator (fun _ => (1 : ℝ)) ω + δ)
      have hS0 : 0 ≤ (toMeasurable Q S).indicator (fun _ => (1 : ℝ)) ω := Set.indicator_nonneg (fun _ _ => zero_le_one) _
      have hT0 : 0 ≤ (toMeasurable Q T).indicator (fun _ => (1 : ℝ)) ω := Set.indicator_nonneg (fun _ _ => zero_le_one) _
      by_cases hωT : ω ∈ toMeasurable Q T
      · rw [Set.indicator_of_mem hωT]
        linarith [(hb ω).2]
      · by_cases hωS : ω ∈ toMeasurable Q S
        · rw [Set.indicator_of_mem hωS]
          linarith [(hb ω).2]
        · have := h2 ω (fun hx => hωT (subset_toMeasurable _ _ hx)) (fun hx => hωS (subset_toMeasurable _ _ hx))
          linarith
    have hTδ : Integrable (fun ω => (toMeasurable Q T).indicator (fun _ => (1 : ℝ)) ω + δ) Q :=
      (hind _ (measurableSet_toMeasurable _ _)).add (integrable_const _)
    rw [integral_add (hind _ (measurableSet_toMeasurable _ _)) hTδ,
      integral_add (hind _ (measurableSet_toMeasurable _ _)) (integrable_const _),
      integral_indicator_const _ (measurableSet_toMeasurable _ _), integral_indicator_const _ (measurableSet_toMeasurable _ _),
      hS, hT] at this
    simp only [smul_eq_mul, mul_one, integral_const, probReal_univ, one_mul] at this
    linarith
  · set V := {ω | 1 - δ ≤ h ω} with hV
    have hVm : MeasurableSet V := measurableSet_le measurable_const hm
    have hsub : Q.real S ≤ Q.real V + Q.real T := by
      refine (measureReal_mono (s₂ := V ∪ T) fun ω hω => ?_).trans (measureReal_union_le _ _)
      by_cases hT' : ω ∈ T
      · exact Or.inr hT'
      · exact Or.inl (h1 ω hT' hω)
    have hle : (1 - δ) * Q.real V ≤ ∫ ω, h ω ∂Q := by
      have : ∫ ω, V.indicator (fun _ => 1 - δ) ω ∂Q ≤ ∫ ω, h ω ∂Q := by
        refine integral_mono ((integrable_const _).indicator hVm) hi fun ω => ?_
        by_cases hω : ω ∈ V
        · show V.indicator (fun _ => 1 - δ) ω ≤ h ω
          rw [Set.indicator_of_mem hω]
          exact hω
        · show V.indicator (fun _ => 1 - δ) ω ≤ h ω
          rw [Set.indicator_of_notMem hω]
          exact (hb ω).1
      rw [integral_indicator_const _ hVm, smul_eq_mul, mul_comm] at this
      exact this
    have hV1 : Q.real V ≤ 1 := measureReal_le_one
    have hV0 : 0 ≤ Q.real V := measureReal_nonneg
    nlinarith

/-! ### Choices and wages of the model -/

theorem overAvailable_fin (cs : List Bool) (f : Nat → ℝ) :
    overAvailable cs f = ∑ j : Fin cs.length, if cs[(j : Nat)]? = some true then f j else 0 := by
  unfold overAvailable
  rw [Fin.sum_univ_eq_sum_range (fun j => if cs[j]? = some true then f j else 0)]
  generalize cs.length = l
  generalize (fun j => if cs[j]? = some true then f j else 0) = g
  induction l with
  | zero => rfl
  | succ l ih => rw [List.range_succ, List.map_append, List.sum_append, ih, Finset.sum_range_succ]; simp

/-- The coefficients of the random numbers of all choices. -/
def fullFactor (L : List (List ℝ)) (cs : List Bool) (n : Nat) : Matrix (Fin n) (Fin cs.length) ℝ :=
  Matrix.of fun i j => if cs[(j : Nat)]? = some true then entry L (alternativeAt cs i) j else 0

theorem fullFactor_gram (L : List (List ℝ)) (i k : Fin n) :
    (fullFactor L cs n * (fullFactor L cs n)ᵀ) i k = shockCov L cs (alternativeAt cs i) (alternativeAt cs k) := by
  unfold shockCov
  rw [overAvailable_fin, mul_apply]
  refine Finset.sum_congr rfl fun j _ => ?_
  simp only [fullFactor, of_apply, transpose_apply]
  split <;> simp

theorem latentShock_full (L : List (List ℝ)) (z : Fin cs.length → ℝ) (i : Fin n) :
    latentShock L cs (numbersOf z) (alternativeAt cs i) = ∑ j, fullFactor L cs n i j * z j := by
  show overAvailable cs (fun j => entry L (alternativeAt cs i) j * numbersOf z j) = _
  rw [overAvailable_fin]
  refine Finset.sum_congr rfl fun j _ => ?_
  simp only [fullFactor, of_apply, numbersOf, List.getElem?_ofFn, Fin.is_lt, dif_pos, Option.getD_some]
  split <;> simp

/-- The values of the alternatives with the shocks of the likelihood. -/
def likelihoodValue (bound delta : ℝ) (nWages : Nat) (L : List (List ℝ)) (cs : List Bool) (w m c : Nat → ℝ)
    (z : Nat → ℝ) (b : Nat) : ℝ :=
  w b * (if b < nWages then Real.exp (min (latentShock L cs z b) bound) else latentShock L cs z b) + m b + delta * c b

theorem logitAt_full (bound tau delta : ℝ) (nWages : Nat) (L : List (List ℝ)) (w m c : Nat → ℝ) (a : Nat)
    (ha : cs[a]? = some true) (z : Fin cs.length → ℝ) :
    logitAt bound tau delta nWages cs w m c a (fun i : Fin (cs.count true) => ∑ j, fullFactor L cs _ i j * z j) =
      logitOf tau cs (likelihoodValue bound delta nWages L cs w m c (numbersOf z)) a := by
  refine logitOf_congr tau _ _ (fun b hb => ?_) a ha
  have hlt := positionIn_lt cs b hb
  have h1 := onPositions_at (cs := cs) rfl
    (fun i : Fin (cs.count true) => ∑ j, fullFactor L cs _ i j * z j) ⟨positionIn cs b, hlt⟩
  rw [← latentShock_full L z] at h1
  simp only [alternativeAt_positionIn b hb] at h1
  simp only [h1, likelihoodValue]

variable (bound tau delta : ℝ) (nWages : Nat) (L : List (List ℝ)) (sd w m c : Nat → ℝ)

/-- Expectations over choices and wages according to the likelihood are expectations over shocks and errors. -/
theorem expected_joint (a : Nat) (ha : cs[a]? = some true) (hw : 0 < w a) (hv : 0 < shockCov L cs a a + sd a ^ 2)
    (prob : ℝ → ℝ) (hp : ∀ x, IsExpectedChoiceProbability bound tau delta nWages L cs sd w m c a (some x) (prob x))
    (B : Set ℝ) (hB : MeasurableSet B) (hB0 : B ⊆ Set.Ioi 0) :
    ∫ x in B, prob x * wageDensity (shockCov L cs a a + sd a ^ 2) (w a) x =
      ∫ zy, B.indicator (fun _ => (1 : ℝ)) (w a * Real.exp (latentShock L cs (numbersOf zy.1) a + sd a * zy.2)) *
        logitOf tau cs (likelihoodValue bound delta nWages L cs w m c (numbersOf zy.1)) a
          ∂(normals cs.length).prod (gaussianReal 0 1) := by
  obtain ⟨C, hC⟩ := exists_factorGiven L cs a 0 (sd a) hv
  have hlt := positionIn_lt cs a ha
  set v := shockCov L cs a a + sd a ^ 2 with hvdef
  let v' : NNReal := ⟨v, hv.le⟩
  have hv' : v' ≠ 0 := fun h => hv.ne' (congrArg NNReal.toReal h)
  let s : Fin (cs.count true) → ℝ := fun i => shockCov L cs a (alternativeAt cs i)
  let G : ℝ → ℝ := fun r => ∫ z, logitAt bound tau delta nWages cs w m c a (fun i => s i * r / (v' : ℝ) +
      ∑ j, atPositions cs (cs.count true) C i j * z j) ∂normals (cs.count true)
  have h1 : ∀ x, prob x = G (Real.log x - Real.log (w a)) := by
    intro x
    refine expected_unique bound tau delta nWages L sd w m c a ha (some x) _ _ (hp _) ⟨C, hC, ?_⟩
    simp only [logit_given bound tau delta nWages rfl w m c _ _ a ha]
    rfl
  let g : ℝ → ℝ := fun r => B.indicator (fun _ => (1 : ℝ)) (w a * Real.exp r)
  have h2 : ∫ x in B, prob x * wageDensity v (w a) x =
      ∫ x in Set.Ioi 0, (fun r => g r * G r) (Real.log x - Real.log (w a)) * wageDensity (v' : ℝ) (w a) x := by
    rw [← integral_indicator hB, ← integral_indicator measurableSet_Ioi]
    congr 1
    funext x
    by_cases hx : x ∈ Set.Ioi (0 : ℝ)
    · have hx0 : (0 : ℝ) < x := hx
      have he : w a * Real.exp (Real.log x - Real.log (w a)) = x := by
        rw [Real.exp_sub, Real.exp_log hx0, Real.exp_log hw]
        field_simp
      rw [Set.indicator_of_mem hx]
      simp only [g, he]
      by_cases hxB : x ∈ B
      · rw [Set.indicator_of_mem hxB, Set.indicator_of_mem hxB, one_mul, h1]
        rfl
      · rw [Set.indicator_of_notMem hxB, Set.indicator_of_notMem hxB]
        ring
    · rw [Set.indicator_of_notMem hx, Set.indicator_of_notMem fun h => hx (hB0 h)]
  rw [h2, integral_wageDensity v' hv' (w a) (fun r => g r * G r)]
  let F : ℝ × (Fin (cs.count true) → ℝ) → ℝ := fun rx => g rx.1 * logitAt bound tau delta nWages cs w m c a rx.2
  have hgm : Measurable g := (measurable_const.indicator hB).comp (by fun_prop)
  have hFm : Measurable F := (hgm.comp measurable_fst).mul
    ((logitAt_measurable bound tau delta nWages cs w m c a).comp measurable_snd)
  have hg1 : ∀ r, |g r| ≤ 1 := fun r => by
    simp only [g, Set.indicator]
    split <;> norm_num
  have hFb : ∀ x, |F x| ≤ 1 := fun x => by
    have := logitOf_bounds tau (cs := cs) (fun b => w b * (if b < nWages then Real.exp (min (onPositions cs x.2 b) bound)
      else onPositions cs x.2 b) + m b + delta * c b) a ha
    have h3 : |logitAt bound tau delta nWages cs w m c a x.2| ≤ 1 := (abs_of_pos this.1).trans_le this.2
    rw [abs_mul]
    nlinarith [hg1 x.1, abs_nonneg (g x.1), abs_nonneg (logitAt bound tau delta nWages cs w m c a x.2)]
  have hgr : ∀ i, (fullFactor L cs (cs.count true) * (fullFactor L cs (cs.count true))ᵀ) ⟨positionIn cs a, hlt⟩ i = s i := by
    intro i
    rw [fullFactor_gram]
    simp only [alternativeAt_positionIn a ha, s]
  have key := integral_joint (fullFactor L cs (cs.count true)) (atPositions cs (cs.count true) C) ⟨positionIn cs a, hlt⟩
    (sd a) v' hv' (by
      rw [hgr]
      simp only [s, alternativeAt_positionIn a ha]
      rfl) (fun i j => by
      rw [hgr, hgr, fullFactor_gram, atPositions_gram rfl, hC _ (alternativeAt_available rfl i) _
        (alternativeAt_available rfl j)]
      rfl) F hFm 1 hFb
  simp only [hgr, F] at key
  have h3 : ∀ r, g r * G r = ∫ z, g r * logitAt bound tau delta nWages cs w m c a (fun i => s i * r / (v' : ℝ) +
      ∑ j, atPositions cs (cs.count true) C i j * z j) ∂normals (cs.count true) := fun r => by
    rw [integral_const_mul]
  simp only [h3]
  rw [key]
  congr 1
  funext zy
  rw [logitAt_full bound tau delta nWages L w m c a ha, ← latentShock_full L zy.1]
  simp only [alternativeAt_positionIn a ha, g]

/-- Choice probabilities without an observed wage are expectations over shocks. -/
theorem expected_choice (a : Nat) (ha : cs[a]? = some true) (prob : ℝ)
    (hp : IsExpectedChoiceProbability bound tau delta nWages L cs sd w m c a none prob) :
    prob = ∫ z, logitOf tau cs (likelihoodValue bound delta nWages L cs w m c (numbersOf z)) a ∂normals cs.length := by
  have h2 : prob = ∫ z, logitAt bound tau delta nWages cs w m c a (fun i =>
      ∑ j, atPositions cs (cs.count true) (entry L) i j * z j) ∂normals (cs.count true) := by
    refine expected_unique bound tau delta nWages L sd w m c a ha none _ _ hp ⟨entry L, fun a _ b _ => rfl, ?_⟩
    simp only [logit_given bound tau delta nWages rfl w m c _ _ a ha]
    simp [shockMean, observation]
  rw [h2, integral_linear_eq (atPositions cs (cs.count true) (entry L)) (fullFactor L cs (cs.count true)) (by
    ext i j
    rw [atPositions_gram rfl, fullFactor_gram]
    rfl) _ (logitAt_measurable bound tau delta nWages cs w m c a)]
  congr 1
  funext z
  rw [logitAt_full bound tau delta nWages L w m c a ha]

theorem likelihoodLogit_measurable (a : Nat) (ha : cs[a]? = some true) :
    Measurable fun z : Fin cs.length → ℝ =>
      logitOf tau cs (likelihoodValue bound delta nWages L cs w m c (numbersOf z)) a := by
  simp only [← logitAt_full bound tau delta nWages L w m c a ha]
  exact (logitAt_measurable bound tau delta nWages cs w m c a).comp (by fun_prop)

theorem latentShock_measurable (b : Nat) : Measurable fun z : Fin cs.length → ℝ => latentShock L cs (numbersOf z) b := by
  show Measurable fun z : Fin cs.length → ℝ => overAvailable cs (fun j => entry L b j * numbersOf z j)
  simp only [overAvailable_fin]
  refine Finset.measurable_fun_sum _ fun j _ => ?_
  split
  · simp only [numbersOf, List.getElem?_ofFn, Fin.is_lt, dif_pos, Option.getD_some]
    fun_prop
  · exact measurable_const

/-! ### Ties -/

/-- A set which contains at most one point on each line parallel to an axis is null. -/
theorem normals_null {N : Nat} (k : Fin N) (S : Set (Fin N → ℝ)) (hS : MeasurableSet S)
    (h : ∀ z z' : Fin N → ℝ, z ∈ S → z' ∈ S → (∀ j, j ≠ k → z j = z' j) → z k = z' k) : normals N S = 0 := by
  cases N with
  | zero => exact k.elim0
  | succ N =>
    have hpres := measurePreserving_piFinSuccAbove (fun _ : Fin (N + 1) => gaussianReal 0 1) k
    set e := MeasurableEquiv.piFinSuccAbove (fun _ : Fin (N + 1) => ℝ) k with he
    have h1 : normals (N + 1) S = ((gaussianReal 0 1).prod (normals N)) (e.symm ⁻¹' S) := by
      rw [← hpres.symm.measure_preimage_equiv]
    have hT : MeasurableSet (e.symm ⁻¹' S) := e.symm.measurable hS
    rw [h1, ← Measure.prod_swap, Measure.map_apply measurable_swap hT, Measure.measure_prod_null (measurable_swap hT)]
    refine Filter.Eventually.of_forall fun r => ?_
    have hsub : (Prod.mk r ⁻¹' (Prod.swap ⁻¹' (e.symm ⁻¹' S))).Subsingleton := by
      intro x hx y hy
      have hx' : k.insertNth x r ∈ S := hx
      have hy' : k.insertNth y r ∈ S := hy
      have := h _ _ hx' hy' fun j hj => by
        obtain ⟨i, rfl⟩ := Fin.exists_succAbove_eq hj
        simp
      simpa using this
    have := nullSingletonClass_gaussianReal (μ := 0) (v := 1) one_ne_zero
    exact hsub.measure_zero _

/-- The shock of alternative `b` depends on the random number of `b`, but not on those of later alternatives. -/
theorem latentShock_lower {N : Nat} (L : List (List ℝ)) (hlow : ∀ i j, i < j → entry L i j = 0) (b k : Nat) (hk : k < N)
    (hbk : b < k) (z z' : Fin N → ℝ) (h : ∀ j : Fin N, (j : Nat) ≠ k → z j = z' j) :
    latentShock L cs (numbersOf z) b = latentShock L cs (numbersOf z') b := by
  unfold latentShock
  congr 1
  refine List.map_congr_left fun j _ => ?_
  by_cases hj : j = k
  · subst hj
    rw [hlow b j hbk]
    simp
  · have : numbersOf z j = numbersOf z' j := by
      unfold numbersOf
      by_cases hjN : j < N
      · simp [hjN, h ⟨j, hjN⟩ hj]
      · simp [hjN]
    rw [this]

theorem latentShock_own (L : List (List ℝ)) (k : Nat) (hk : cs[k]? = some true) (hkl : k < cs.length)
    (z z' : Fin cs.length → ℝ) (h : ∀ j : Fin cs.length, (j : Nat) ≠ k → z j = z' j) :
    latentShock L cs (numbersOf z) k - latentShock L cs (numbersOf z') k = entry L k k * (z ⟨k, hkl⟩ - z' ⟨k, hkl⟩) := by
  show overAvailable cs (fun j => entry L k j * numbersOf z j) - overAvailable cs (fun j => entry L k j * numbersOf z' j) = _
  rw [overAvailable_fin, overAvailable_fin, ← Finset.sum_sub_distrib, Finset.sum_eq_single ⟨k, hkl⟩]
  · simp only [hk, if_true, numbersOf, List.getElem?_ofFn, hkl, dif_pos, Option.getD_some]
    ring
  · intro j _ hj
    have hj' : (j : Nat) ≠ k := fun he => hj (Fin.ext he)
    simp only [numbersOf, List.getElem?_ofFn, Fin.is_lt, dif_pos, Option.getD_some, h j hj']
    ring
  · intro h
    exact absurd (Finset.mem_univ _) h

end

end Respy
