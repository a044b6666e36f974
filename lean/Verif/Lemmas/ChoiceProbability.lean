import Verif.Lemmas.GaussianExists
import Verif.Lemmas.LogLikeRow
import Verif.Spec.ChoiceProbability
import Mathlib.Probability.Moments.Covariance

/-! Helper lemmas for C107: integrals of functions of normal vectors. -/

open MeasureTheory ProbabilityTheory Matrix

namespace Respy

noncomputable section

/-! ### Linear images -/

/-- The distribution of independent standard normal numbers. -/
abbrev normals (n : Nat) : Measure (Fin n → ℝ) := Measure.pi fun _ => gaussianReal 0 1

theorem covariance_linear {p n : Nat} (A : Matrix (Fin n) (Fin p) ℝ) (i k : Fin n) :
    covariance (fun z : Fin p → ℝ => ∑ j, A i j * z j) (fun z => ∑ j, A k j * z j) (normals p) = (A * Aᵀ) i k := by
  have hZ := exists_standardNormal p
  have hm : ∀ j : Fin p, MemLp (fun z : Fin p → ℝ => z j) 2 (normals p) := fun j => (hZ.gaussian.eval j).memLp_two
  rw [covariance_fun_sum_fun_sum (fun j => (hm j).const_mul _) (fun j => (hm j).const_mul _), mul_apply]
  refine Finset.sum_congr rfl fun j _ => ?_
  rw [Finset.sum_eq_single j]
  · rw [covariance_const_mul_left, covariance_const_mul_right, hZ.cov, if_pos rfl, transpose_apply]
    ring
  · intro l _ hl
    rw [covariance_const_mul_left, covariance_const_mul_right, hZ.cov, if_neg (Ne.symm hl)]
    ring
  · intro h
    exact absurd (Finset.mem_univ j) h

/-- Linear images with the same covariances have the same distribution. -/
theorem normals_map_eq {p q n : Nat} (A : Matrix (Fin n) (Fin p) ℝ) (B : Matrix (Fin n) (Fin q) ℝ)
    (h : A * Aᵀ = B * Bᵀ) :
    (normals p).map (fun z i => ∑ j, A i j * z j) = (normals q).map (fun z i => ∑ j, B i j * z j) := by
  have hmean : ∀ {p : Nat} (A : Matrix (Fin n) (Fin p) ℝ) (i : Fin n),
      ∫ z : Fin p → ℝ, ∑ j, A i j * z j ∂normals p = 0 := by
    intro p A i
    have hZ := exists_standardNormal p
    rw [integral_finsetSum _ fun j _ => ((hZ.gaussian.eval j).integrable.const_mul _)]
    refine Finset.sum_eq_zero fun j _ => ?_
    rw [integral_const_mul, hZ.mean j, mul_zero]
  refine gaussian_law_eq (X := fun i (z : Fin p → ℝ) => ∑ j, A i j * z j)
    (Y := fun i (z : Fin q → ℝ) => ∑ j, B i j * z j)
    (gaussian_linear (exists_standardNormal p).gaussian A) (gaussian_linear (exists_standardNormal q).gaussian B)
    (fun i => by rw [hmean, hmean]) fun i j => ?_
  rw [covariance_linear, covariance_linear, h]

theorem linear_measurable {p n : Nat} (A : Matrix (Fin n) (Fin p) ℝ) :
    Measurable (fun (z : Fin p → ℝ) (i : Fin n) => ∑ j, A i j * z j) := by
  fun_prop

theorem integral_linear_eq {p q n : Nat} (A : Matrix (Fin n) (Fin p) ℝ) (B : Matrix (Fin n) (Fin q) ℝ)
    (h : A * Aᵀ = B * Bᵀ) (f : (Fin n → ℝ) → ℝ) (hf : Measurable f) :
    ∫ z, f (fun i => ∑ j, A i j * z j) ∂normals p = ∫ z, f (fun i => ∑ j, B i j * z j) ∂normals q := by
  rw [← integral_map (linear_measurable A).aemeasurable hf.aestronglyMeasurable, normals_map_eq A B h,
    integral_map (linear_measurable B).aemeasurable hf.aestronglyMeasurable]

/-! ### Integrating out an observation -/

/-- If a normal observation with variance `v`, whose covariances with the entries are `s`, is integrated out, the
distribution with factor `L` remains. -/
theorem integral_given {n q : Nat} (L : Matrix (Fin n) (Fin q) ℝ) (C : Matrix (Fin n) (Fin n) ℝ) (s : Fin n → ℝ) (v : NNReal)
    (hv : v ≠ 0) (h : ∀ i j, (C * Cᵀ) i j = (L * Lᵀ) i j - s i * s j / v) (f : (Fin n → ℝ) → ℝ) (hf : Measurable f)
    (M : ℝ) (hM : ∀ x, |f x| ≤ M) :
    ∫ r, ∫ z, f (fun i => s i * r / v + ∑ j, C i j * z j) ∂normals n ∂gaussianReal 0 v =
      ∫ z, f (fun i => ∑ j, L i j * z j) ∂normals q := by
  have hvp : (0 : ℝ) < v := by exact_mod_cast pos_iff_ne_zero.2 hv
  let A : Matrix (Fin n) (Fin (n + 1)) ℝ := Matrix.of fun i => Fin.cons (s i / √(v : ℝ)) fun j => C i j
  have hA : A * Aᵀ = L * Lᵀ := by
    ext i j
    have h1 := h i j
    rw [mul_apply] at h1 ⊢
    rw [Fin.sum_univ_succ]
    simp only [transpose_apply, A, of_apply, Fin.cons_zero, Fin.cons_succ] at h1 ⊢
    rw [h1, div_mul_div_comm, Real.mul_self_sqrt hvp.le]
    ring
  rw [← integral_linear_eq A L hA f hf]
  have hg : gaussianReal 0 v = (gaussianReal 0 1).map (fun x => √(v : ℝ) * x) := by
    rw [gaussianReal_map_const_mul, mul_zero]
    congr 1
    ext
    simp [Real.sq_sqrt hvp.le]
  have hmeas : Measurable fun rz : ℝ × (Fin n → ℝ) => f (fun i => s i * rz.1 / v + ∑ j, C i j * rz.2 j) := by
    refine hf.comp ?_
    fun_prop
  have hint : Measurable fun r : ℝ => ∫ z, f (fun i => s i * r / v + ∑ j, C i j * z j) ∂normals n :=
    (hmeas.stronglyMeasurable.integral_prod_right').measurable
  rw [hg, integral_map (by fun_prop) hint.aestronglyMeasurable]
  have hpres := measurePreserving_piFinSuccAbove (fun _ : Fin (n + 1) => gaussianReal 0 1) 0
  let g : ℝ × (Fin n → ℝ) → ℝ := fun xz => f (fun i => s i * (√(v : ℝ) * xz.1) / v + ∑ j, C i j * xz.2 j)
  have hgm : Measurable g := by
    refine hf.comp ?_
    fun_prop
  have h2 : ∫ z, f (fun i => ∑ j, A i j * z j) ∂normals (n + 1) =
      ∫ z, g (MeasurableEquiv.piFinSuccAbove (fun _ => ℝ) 0 z) ∂normals (n + 1) := by
    congr 1
    funext z
    show f _ = f _
    congr 1
    funext i
    rw [Fin.sum_univ_succ]
    simp only [A, of_apply, Fin.cons_zero, Fin.cons_succ]
    congr 1
    show _ = s i * (√(v : ℝ) * z 0) / v
    have : s i / √(v : ℝ) = s i * √(v : ℝ) / v := by
      rw [div_eq_div_iff (Real.sqrt_pos.2 hvp).ne' hvp.ne', mul_assoc, Real.mul_self_sqrt hvp.le]
    rw [this]
    ring
  rw [h2, hpres.integral_comp' (g := g),
    integral_prod _ (Integrable.of_bound hgm.aestronglyMeasurable M (Filter.Eventually.of_forall fun x => hM _))]

/-! ### Wages -/

/-- Integrating with the density of wages is integrating with the normal distribution of the residual. -/
theorem integral_wageDensity (v : NNReal) (hv : v ≠ 0) (w : ℝ) (g : ℝ → ℝ) :
    ∫ x in Set.Ioi 0, g (Real.log x - Real.log w) * wageDensity v w x = ∫ r, g r ∂gaussianReal 0 v := by
  have hvp : (0 : ℝ) < v := by exact_mod_cast pos_iff_ne_zero.2 hv
  have h1 : gaussianReal (Real.log w) v = (gaussianReal 0 v).map (Real.log w + ·) := by
    rw [gaussianReal_map_const_add, zero_add]
  have hmeas : Measurable fun x => ENNReal.ofReal (gaussianPDFReal (Real.log w) v (Real.log x) / x) := by
    have := measurable_gaussianPDFReal (Real.log w) v
    fun_prop
  have h2 : ∫ x in Set.Ioi 0, g (Real.log x - Real.log w) * wageDensity v w x =
      ∫ x, g (Real.log x - Real.log w) ∂((volume.restrict (Set.Ioi 0)).withDensity
        fun x => ENNReal.ofReal (gaussianPDFReal (Real.log w) v (Real.log x) / x)) := by
    rw [integral_withDensity_eq_integral_toReal_smul hmeas (Filter.Eventually.of_forall fun x => ENNReal.ofReal_lt_top)]
    refine setIntegral_congr_fun measurableSet_Ioi fun x hx => ?_
    have hx : (0 : ℝ) < x := hx
    have hd : gaussianPDFReal (Real.log w) v (Real.log x) / x = wageDensity v w x := by
      unfold gaussianPDFReal wageDensity
      field_simp
    rw [hd, ENNReal.toReal_ofReal (wageDensity_pos _ _ _ hvp hx).le, smul_eq_mul, mul_comm]
  rw [h2, ← gaussian_map_exp _ hv, MeasurableEmbedding.integral_map
    (Real.continuous_exp.measurableEmbedding Real.exp_injective), h1, MeasurableEmbedding.integral_map
    (measurableEmbedding_addLeft _)]
  simp

/-! ### Logit probabilities as functions of the shocks -/

variable {cs : List Bool} {n : Nat}

/-- Numbers at positions as a function of alternatives. -/
def onPositions (cs : List Bool) (x : Fin n → ℝ) (b : Nat) : ℝ :=
  if h : positionIn cs b < n then x ⟨positionIn cs b, h⟩ else 0

theorem onPositions_at (hn : cs.count true = n) (x : Fin n → ℝ) (i : Fin n) :
    onPositions cs x (alternativeAt cs i) = x i := by
  unfold onPositions
  rw [dif_pos (by rw [positionIn_alternativeAt hn]; exact i.2)]
  congr 1
  exact Fin.ext (positionIn_alternativeAt hn _)

theorem logitOf_congr (tau : ℝ) (v v' : Nat → ℝ) (h : ∀ b, cs[b]? = some true → v b = v' b) (a : Nat)
    (ha : cs[a]? = some true) : logitOf tau cs v a = logitOf tau cs v' a := by
  unfold logitOf
  rw [h a ha, overAvailable_sum rfl, overAvailable_sum rfl]
  congr 1
  exact Finset.sum_congr rfl fun i _ => by rw [h _ (alternativeAt_available rfl i)]

/-- The logit probability for the normal variables at the positions. -/
def logitAt (bound tau delta : ℝ) (nWages : Nat) (cs : List Bool) (w m c : Nat → ℝ) (a : Nat) (x : Fin n → ℝ) : ℝ :=
  logitOf tau cs (fun b => w b * (if b < nWages then Real.exp (min (onPositions cs x b) bound) else onPositions cs x b) +
    m b + delta * c b) a

theorem onPositions_measurable (cs : List Bool) (b : Nat) : Measurable fun x : Fin n → ℝ => onPositions cs x b := by
  unfold onPositions
  split
  · exact measurable_pi_apply _
  · exact measurable_const

theorem logitAt_measurable (bound tau delta : ℝ) (nWages : Nat) (cs : List Bool) (w m c : Nat → ℝ) (a : Nat) :
    Measurable (logitAt (n := n) bound tau delta nWages cs w m c a) := by
  have hv : ∀ b, Measurable fun x : Fin n → ℝ => Real.exp ((w b * (if b < nWages then
      Real.exp (min (onPositions cs x b) bound) else onPositions cs x b) + m b + delta * c b) / tau) := by
    intro b
    have h := onPositions_measurable (n := n) cs b
    split
    · have := h.min (measurable_const (a := bound))
      fun_prop
    · fun_prop
  unfold logitAt logitOf
  simp only [overAvailable_sum (rfl : cs.count true = cs.count true)]
  exact (hv a).div (Finset.measurable_fun_sum _ fun i _ => hv _)

theorem logitOf_bounds (tau : ℝ) (v : Nat → ℝ) (a : Nat) (ha : cs[a]? = some true) :
    0 < logitOf tau cs v a ∧ logitOf tau cs v a ≤ 1 := by
  have hlt := positionIn_lt cs a ha
  have hpos : 0 < overAvailable cs fun j => Real.exp (v j / tau) := by
    rw [overAvailable_sum rfl]
    exact Finset.sum_pos (fun _ _ => Real.exp_pos _) ⟨⟨_, hlt⟩, Finset.mem_univ _⟩
  refine ⟨div_pos (Real.exp_pos _) hpos, (div_le_one hpos).2 ?_⟩
  rw [overAvailable_sum rfl]
  have := Finset.single_le_sum (f := fun i : Fin (cs.count true) => Real.exp (v (alternativeAt cs i) / tau))
    (fun i _ => (Real.exp_pos _).le) (Finset.mem_univ ⟨positionIn cs a, hlt⟩)
  simpa only [alternativeAt_positionIn a ha] using this

theorem logitOf_sum (tau : ℝ) (v : Nat → ℝ) (hcs : true ∈ cs) :
    overAvailable cs (fun a => logitOf tau cs v a) = 1 := by
  have hn : 0 < cs.count true := List.count_pos_iff.2 hcs
  have hpos : 0 < overAvailable cs fun j => Real.exp (v j / tau) := by
    rw [overAvailable_sum rfl]
    exact Finset.sum_pos (fun _ _ => Real.exp_pos _) ⟨⟨0, hn⟩, Finset.mem_univ _⟩
  unfold logitOf
  rw [overAvailable_sum rfl, ← Finset.sum_div, ← overAvailable_sum rfl (fun j => Real.exp (v j / tau)), div_self hpos.ne']

/-- The factor as a matrix over positions. -/
def atPositions (cs : List Bool) (n : Nat) (C : Nat → Nat → ℝ) : Matrix (Fin n) (Fin n) ℝ :=
  Matrix.of fun i j => C (alternativeAt cs i) (alternativeAt cs j)

theorem atPositions_gram (hn : cs.count true = n) (C : Nat → Nat → ℝ) (i k : Fin n) :
    (atPositions cs n C * (atPositions cs n C)ᵀ) i k =
      overAvailable cs fun j => C (alternativeAt cs i) j * C (alternativeAt cs k) j := by
  rw [overAvailable_sum hn, mul_apply]
  rfl

theorem logit_given (bound tau delta : ℝ) (nWages : Nat) (hn : cs.count true = n) (w m c mean : Nat → ℝ)
    (C : Nat → Nat → ℝ) (a : Nat) (ha : cs[a]? = some true) (z : Fin n → ℝ) :
    logitOf tau cs (fun b => w b * rewardShockGiven bound nWages cs mean C (shocksOf cs (List.ofFn z)) b + m b +
      delta * c b) a = logitAt bound tau delta nWages cs w m c a fun i : Fin n => mean (alternativeAt cs i) +
        ∑ j, atPositions cs n C i j * z j := by
  refine logitOf_congr tau _ _ (fun b hb => ?_) a ha
  have hlt : positionIn cs b < n := by rw [← hn]; exact positionIn_lt cs b hb
  have h1 : onPositions cs (fun i : Fin n => mean (alternativeAt cs i) + ∑ j, atPositions cs n C i j * z j) b =
      mean b + overAvailable cs fun j => C b j * shocksOf cs (List.ofFn z) j := by
    unfold onPositions
    rw [dif_pos hlt, overAvailable_sum hn]
    simp only [alternativeAt_positionIn b hb, atPositions, of_apply]
    congr 1
    refine Finset.sum_congr rfl fun j _ => ?_
    rw [shocksOf, positionIn_alternativeAt hn, List.getD_eq_getElem?_getD]
    simp
  unfold rewardShockGiven
  simp only [h1]

/-! ### A factor for an observation -/

/-- A factor of the covariance matrix given an observation. -/
theorem exists_factorGiven (L : List (List ℝ)) (cs : List Bool) (a : Nat) (r s : ℝ)
    (hv : 0 < shockCov L cs a a + s ^ 2) :
    ∃ C, IsFactorGiven (shockCov L cs) cs (some ⟨a, r, shockCov L cs a a + s ^ 2⟩) C := by
  set q := shockCov L cs a a with hq
  set v := q + s ^ 2 with hvdef
  have hq0 : 0 ≤ q := by
    rw [hq, shockCov, overAvailable_sum rfl]
    exact Finset.sum_nonneg fun i _ => mul_self_nonneg _
  obtain ⟨t, ht⟩ : ∃ t : ℝ, 2 * t - t ^ 2 * q = 1 / v := by
    by_cases h0 : q = 0
    · exact ⟨1 / (2 * v), by rw [h0]; field_simp; ring⟩
    · have hqp : 0 < q := lt_of_le_of_ne hq0 (Ne.symm h0)
      have hle : q / v ≤ 1 := by
        rw [div_le_one hv]
        nlinarith [sq_nonneg s]
      have hs := Real.sq_sqrt (by linarith : (0 : ℝ) ≤ 1 - q / v)
      refine ⟨(1 - √(1 - q / v)) / q, ?_⟩
      have : 2 * ((1 - √(1 - q / v)) / q) - ((1 - √(1 - q / v)) / q) ^ 2 * q = (1 - √(1 - q / v) ^ 2) / q := by
        field_simp
        ring
      rw [this, hs]
      field_simp
      ring
  refine ⟨fun b j => entry L b j - t * shockCov L cs a b * entry L a j, fun b hb b' hb' => ?_⟩
  show _ = shockCov L cs b b' - shockCov L cs a b * shockCov L cs a b' / v
  have hex : overAvailable cs (fun j => (entry L b j - t * shockCov L cs a b * entry L a j) *
      (entry L b' j - t * shockCov L cs a b' * entry L a j)) = shockCov L cs b b' -
        t * shockCov L cs a b' * shockCov L cs a b - t * shockCov L cs a b * shockCov L cs a b' +
        t * shockCov L cs a b * (t * shockCov L cs a b') * q := by
    generalize hx : shockCov L cs a b = x
    generalize hy : shockCov L cs a b' = y
    rw [overAvailable_sum rfl]
    have h1 : ∀ i : Fin (cs.count true), (entry L b (alternativeAt cs i) - t * x * entry L a (alternativeAt cs i)) *
        (entry L b' (alternativeAt cs i) - t * y * entry L a (alternativeAt cs i)) =
        entry L b (alternativeAt cs i) * entry L b' (alternativeAt cs i) -
        t * y * (entry L a (alternativeAt cs i) * entry L b (alternativeAt cs i)) -
        t * x * (entry L a (alternativeAt cs i) * entry L b' (alternativeAt cs i)) +
        t * x * (t * y) * (entry L a (alternativeAt cs i) * entry L a (alternativeAt cs i)) := fun i => by ring
    simp only [h1]
    rw [Finset.sum_add_distrib, Finset.sum_sub_distrib, Finset.sum_sub_distrib, ← Finset.mul_sum, ← Finset.mul_sum,
      ← Finset.mul_sum]
    have h2 : ∀ d d', ∑ i : Fin (cs.count true), entry L d (alternativeAt cs i) * entry L d' (alternativeAt cs i) =
        shockCov L cs d d' := fun d d' => by rw [shockCov, overAvailable_sum rfl]
    rw [h2, h2, h2, h2, hx, hy, ← hq]
  rw [hex]
  have : shockCov L cs a b * shockCov L cs a b' / v = shockCov L cs a b * shockCov L cs a b' *
      (2 * t - t ^ 2 * q) := by rw [ht]; ring
  rw [this]
  ring

/-! ### Choice probabilities -/

variable (bound tau delta : ℝ) (nWages : Nat) (L : List (List ℝ)) (sd w m c : Nat → ℝ)

/-- The choice probability does not depend on the factor. -/
theorem expected_unique (a : Nat) (ha : cs[a]? = some true) (wage : Option ℝ) (p q : ℝ)
    (hp : IsExpectedChoiceProbability bound tau delta nWages L cs sd w m c a wage p)
    (hq : IsExpectedChoiceProbability bound tau delta nWages L cs sd w m c a wage q) : p = q := by
  obtain ⟨C, hC, rfl⟩ := hp
  obtain ⟨D, hD, rfl⟩ := hq
  simp only [logit_given bound tau delta nWages rfl w m c _ _ a ha]
  generalize hmean : shockMean (shockCov L cs) (observation L cs sd w a wage) = mean
  refine integral_linear_eq (atPositions cs _ C) (atPositions cs _ D) ?_
    (fun x => logitAt bound tau delta nWages cs w m c a fun i => mean (alternativeAt cs i) + x i) ?_
  · ext i k
    rw [atPositions_gram rfl, atPositions_gram rfl, hC _ (alternativeAt_available rfl i) _ (alternativeAt_available rfl k),
      hD _ (alternativeAt_available rfl i) _ (alternativeAt_available rfl k)]
  · exact (logitAt_measurable bound tau delta nWages cs w m c a).comp (by fun_prop)

theorem expected_bounds (a : Nat) (ha : cs[a]? = some true) (wage : Option ℝ) (p : ℝ)
    (hp : IsExpectedChoiceProbability bound tau delta nWages L cs sd w m c a wage p) : 0 < p ∧ p ≤ 1 := by
  obtain ⟨C, _, rfl⟩ := hp
  simp only [logit_given bound tau delta nWages rfl w m c _ _ a ha]
  generalize hmean : shockMean (shockCov L cs) (observation L cs sd w a wage) = mean
  set f : (Fin (cs.count true) → ℝ) → ℝ := fun z => logitAt bound tau delta nWages cs w m c a
    fun i => mean (alternativeAt cs i) + ∑ j, atPositions cs _ C i j * z j with hf
  have hb : ∀ z, 0 < f z ∧ f z ≤ 1 := fun z => logitOf_bounds tau _ a ha
  have hm : Measurable f := (logitAt_measurable bound tau delta nWages cs w m c a).comp (by fun_prop)
  have hi : Integrable f (normals (cs.count true)) := Integrable.of_bound hm.aestronglyMeasurable 1
    (Filter.Eventually.of_forall fun z => by rw [Real.norm_eq_abs, abs_of_pos (hb z).1]; exact (hb z).2)
  constructor
  · rw [integral_pos_iff_support_of_nonneg (fun z => (hb z).1.le) hi]
    have : Function.support f = Set.univ := by
      ext z
      simp [(hb z).1.ne']
    rw [this]
    simp
  · calc ∫ z, f z ∂normals (cs.count true) ≤ ∫ _, (1 : ℝ) ∂normals (cs.count true) :=
          integral_mono hi (integrable_const _) fun z => (hb z).2
      _ = 1 := by simp

/-- Without an observed wage, the choice probabilities add up to one. -/
theorem expected_sum (hcs : true ∈ cs) (prob : Nat → ℝ)
    (hp : ∀ a, cs[a]? = some true → IsExpectedChoiceProbability bound tau delta nWages L cs sd w m c a none (prob a)) :
    overAvailable cs prob = 1 := by
  have h0 : IsFactorGiven (shockCov L cs) cs none (entry L) := fun a _ b _ => rfl
  have h1 : ∀ a, cs[a]? = some true → prob a = ∫ z : Fin (cs.count true) → ℝ, logitOf tau cs (fun b =>
      w b * rewardShockGiven bound nWages cs (fun _ => 0) (entry L) (shocksOf cs (List.ofFn z)) b + m b + delta * c b) a
        ∂normals (cs.count true) := fun a ha =>
    expected_unique bound tau delta nWages L sd w m c a ha none _ _ (hp a ha) ⟨entry L, h0, rfl⟩
  rw [overAvailable_sum rfl]
  simp only [h1 _ (alternativeAt_available rfl _)]
  rw [← integral_finsetSum]
  · have h2 : ∀ v : Nat → ℝ, ∑ i : Fin (cs.count true), logitOf tau cs v (alternativeAt cs i) = 1 := fun v => by
      rw [← overAvailable_sum (rfl : cs.count true = cs.count true) (fun a => logitOf tau cs v a), logitOf_sum tau v hcs]
    simp only [h2]
    simp
  · intro i _
    have ha := alternativeAt_available (cs := cs) rfl i
    simp only [logit_given bound tau delta nWages rfl w m c _ _ _ ha]
    refine Integrable.of_bound (Measurable.aestronglyMeasurable ?_) 1 (Filter.Eventually.of_forall fun z => ?_)
    · exact (logitAt_measurable bound tau delta nWages cs w m c _).comp (by fun_prop)
    · have := logitOf_bounds tau (cs := cs) (fun b => w b * (if b < nWages then Real.exp (min (onPositions cs
        (fun k => 0 + ∑ j, atPositions cs (cs.count true) (entry L) k j * z j) b) bound) else onPositions cs
        (fun k => 0 + ∑ j, atPositions cs (cs.count true) (entry L) k j * z j) b) + m b + delta * c b) _ ha
      rw [Real.norm_eq_abs]
      exact (abs_of_pos this.1).trans_le this.2

/-- Integrating over the wages gives the choice probability. -/
theorem expected_wages (a : Nat) (ha : cs[a]? = some true) (hv : 0 < shockCov L cs a a + sd a ^ 2) (prob : Option ℝ → ℝ)
    (hp : ∀ wage, IsExpectedChoiceProbability bound tau delta nWages L cs sd w m c a wage (prob wage)) :
    ∫ x in Set.Ioi 0, prob (some x) * wageDensity (shockCov L cs a a + sd a ^ 2) (w a) x = prob none := by
  obtain ⟨C, hC⟩ := exists_factorGiven L cs a 0 (sd a) hv
  set v := shockCov L cs a a + sd a ^ 2 with hvdef
  let v' : NNReal := ⟨v, hv.le⟩
  have hv' : v' ≠ 0 := fun h => hv.ne' (congrArg NNReal.toReal h)
  let s : Fin (cs.count true) → ℝ := fun i => shockCov L cs a (alternativeAt cs i)
  let g : ℝ → ℝ := fun r => ∫ z, logitAt bound tau delta nWages cs w m c a (fun i => s i * r / (v' : ℝ) +
      ∑ j, atPositions cs (cs.count true) C i j * z j) ∂normals (cs.count true)
  have h1 : ∀ x, prob (some x) = g (Real.log x - Real.log (w a)) := by
    intro x
    refine expected_unique bound tau delta nWages L sd w m c a ha (some x) _ _ (hp _) ⟨C, hC, ?_⟩
    simp only [logit_given bound tau delta nWages rfl w m c _ _ a ha]
    rfl
  have h2 : prob none = ∫ z, logitAt bound tau delta nWages cs w m c a (fun i =>
      ∑ j, atPositions cs (cs.count true) (entry L) i j * z j) ∂normals (cs.count true) := by
    refine expected_unique bound tau delta nWages L sd w m c a ha none _ _ (hp _) ⟨entry L, fun a _ b _ => rfl, ?_⟩
    simp only [logit_given bound tau delta nWages rfl w m c _ _ a ha]
    simp [shockMean, observation]
  simp only [h1]
  have hvv : v = (v' : ℝ) := rfl
  rw [hvv, integral_wageDensity v' hv' (w a) g, h2]
  refine integral_given (atPositions cs _ (entry L)) (atPositions cs _ C) s v' hv' (fun i j => ?_) _
    (logitAt_measurable bound tau delta nWages cs w m c a) 1 fun x => ?_
  · rw [atPositions_gram rfl, atPositions_gram rfl, hC _ (alternativeAt_available rfl i) _ (alternativeAt_available rfl j)]
    rfl
  · have := logitOf_bounds tau (cs := cs) (fun b => w b * (if b < nWages then Real.exp (min (onPositions cs x b) bound)
      else onPositions cs x b) + m b + delta * c b) a ha
    exact (abs_of_pos this.1).trans_le this.2

/-! ### Logarithms of choice probabilities -/

theorem abs_log_logitOf (tau : ℝ) (v : Nat → ℝ) (a : Nat) (ha : cs[a]? = some true) :
    |Real.log (logitOf tau cs v a)| ≤ Real.log (cs.count true) +
      ∑ i : Fin (cs.count true), |v (alternativeAt cs i) / tau - v a / tau| := by
  have hlt := positionIn_lt cs a ha
  set u : Fin (cs.count true) → ℝ := fun i => v (alternativeAt cs i) / tau - v a / tau with hu
  have hk : (0 : ℝ) < cs.count true := by exact_mod_cast (Nat.zero_le _).trans_lt hlt
  have h1 : logitOf tau cs v a = (∑ i, Real.exp (u i))⁻¹ := by
    unfold logitOf
    rw [overAvailable_sum rfl, ← one_div, div_eq_div_iff, one_mul, Finset.mul_sum]
    · refine Finset.sum_congr rfl fun i _ => ?_
      rw [← Real.exp_add]
      congr 1
      simp only [hu]
      ring
    · exact (Finset.sum_pos (fun _ _ => Real.exp_pos _) ⟨⟨_, hlt⟩, Finset.mem_univ _⟩).ne'
    · exact (Finset.sum_pos (fun _ _ => Real.exp_pos _) ⟨⟨_, hlt⟩, Finset.mem_univ _⟩).ne'
  have h2 : 1 ≤ ∑ i, Real.exp (u i) := by
    have h := Finset.single_le_sum (f := fun i => Real.exp (u i)) (fun i _ => (Real.exp_pos _).le)
      (Finset.mem_univ ⟨positionIn cs a, hlt⟩)
    have h0 : u ⟨positionIn cs a, hlt⟩ = 0 := by
      simp only [hu, alternativeAt_positionIn a ha, sub_self]
    simpa only [h0, Real.exp_zero] using h
  have h3 : ∑ i, Real.exp (u i) ≤ cs.count true * Real.exp (∑ i, |u i|) := by
    calc ∑ i, Real.exp (u i) ≤ ∑ _i : Fin (cs.count true), Real.exp (∑ i, |u i|) :=
          Finset.sum_le_sum fun i _ => Real.exp_le_exp.2 ((le_abs_self _).trans
            (Finset.single_le_sum (f := fun i => |u i|) (fun _ _ => abs_nonneg _) (Finset.mem_univ i)))
      _ = _ := by simp
  rw [h1, Real.log_inv, abs_neg, abs_of_nonneg (Real.log_nonneg h2)]
  calc Real.log (∑ i, Real.exp (u i)) ≤ Real.log (cs.count true * Real.exp (∑ i, |u i|)) :=
        Real.log_le_log (by linarith) h3
    _ = _ := by rw [Real.log_mul hk.ne' (Real.exp_pos _).ne', Real.log_exp]

theorem linear_integrable {p : Nat} (x : Fin p → ℝ) (y : ℝ) :
    Integrable (fun z : Fin p → ℝ => y + ∑ j, x j * z j) (normals p) :=
  (integrable_const y).add (integrable_finsetSum _ fun j _ =>
    (((exists_standardNormal p).gaussian.eval j).integrable.const_mul _))

theorem log_logit_integrable (mean : Nat → ℝ) (C : Nat → Nat → ℝ) (a : Nat) (ha : cs[a]? = some true) :
    Integrable (fun z : Fin (cs.count true) → ℝ => Real.log (logitOf tau cs (fun b => w b * rewardShockGiven bound nWages
      cs mean C (shocksOf cs (List.ofFn z)) b + m b + delta * c b) a)) (normals (cs.count true)) := by
  have hshock : ∀ b, Integrable (fun z : Fin (cs.count true) → ℝ => rewardShockGiven bound nWages cs mean C
      (shocksOf cs (List.ofFn z)) b) (normals (cs.count true)) := by
    intro b
    have hx : ∀ z : Fin (cs.count true) → ℝ, mean b + overAvailable cs (fun j => C b j * shocksOf cs (List.ofFn z) j) =
        mean b + ∑ j : Fin (cs.count true), C b (alternativeAt cs j) * z j := by
      intro z
      rw [overAvailable_sum rfl]
      congr 1
      refine Finset.sum_congr rfl fun j _ => ?_
      rw [shocksOf, positionIn_alternativeAt rfl, List.getD_eq_getElem?_getD]
      simp
    unfold rewardShockGiven
    simp only [hx]
    have hl := linear_integrable (fun j : Fin (cs.count true) => C b (alternativeAt cs j)) (mean b)
    split
    · refine Integrable.of_bound (C := Real.exp bound) ?_ (Filter.Eventually.of_forall fun z => ?_)
      · exact (Real.continuous_exp.comp_aestronglyMeasurable
          (hl.1.inf aestronglyMeasurable_const))
      · rw [Real.norm_eq_abs, abs_of_pos (Real.exp_pos _)]
        exact Real.exp_le_exp.2 (min_le_right _ _)
    · exact hl
  have hv : ∀ b, Integrable (fun z : Fin (cs.count true) → ℝ => (w b * rewardShockGiven bound nWages cs mean C
      (shocksOf cs (List.ofFn z)) b + m b + delta * c b) / tau) (normals (cs.count true)) := fun b =>
    ((((hshock b).const_mul _).add (integrable_const _)).add (integrable_const _)).div_const _
  refine Integrable.mono' (g := fun z => Real.log (cs.count true) + ∑ i : Fin (cs.count true),
    |(w (alternativeAt cs i) * rewardShockGiven bound nWages cs mean C (shocksOf cs (List.ofFn z)) (alternativeAt cs i) +
      m (alternativeAt cs i) + delta * c (alternativeAt cs i)) / tau - (w a * rewardShockGiven bound nWages cs mean C
        (shocksOf cs (List.ofFn z)) a + m a + delta * c a) / tau|) ?_ ?_ ?_
  · exact (integrable_const _).add (integrable_finsetSum _ fun i _ => ((hv _).sub (hv _)).abs)
  · simp only [logit_given bound tau delta nWages rfl w m c _ _ a ha]
    refine Measurable.aestronglyMeasurable (Real.measurable_log.comp ?_)
    exact (logitAt_measurable bound tau delta nWages cs w m c a).comp (by fun_prop)
  · exact Filter.Eventually.of_forall fun z => abs_log_logitOf tau _ a ha

/-- The expected logarithm of an average is at most the logarithm of the expectation. -/
theorem expected_log_average {Ω : Type _} [MeasurableSpace Ω] (Q : Measure Ω) [IsProbabilityMeasure Q] {E : Type _}
    [MeasurableSpace E] {n : Nat} (hn : 0 < n) (X : Fin n → Ω → E) (hX : ∀ i, Measurable (X i)) (law : Measure E)
    [IsProbabilityMeasure law] (hlaw : ∀ i, Q.map (X i) = law) (f : E → ℝ) (hf : Measurable f)
    (hb : ∀ x, 0 < f x ∧ f x ≤ 1) (hlog : Integrable (fun x => Real.log (f x)) law) :
    Integrable (fun ω => ((List.ofFn fun i => X i ω).map f).sum / n) Q ∧
      ∫ ω, ((List.ofFn fun i => X i ω).map f).sum / n ∂Q = ∫ x, f x ∂law ∧
      Integrable (fun ω => Real.log (((List.ofFn fun i => X i ω).map f).sum / n)) Q ∧
      ∫ ω, Real.log (((List.ofFn fun i => X i ω).map f).sum / n) ∂Q ≤ Real.log (∫ x, f x ∂law) := by
  have hn' : (0 : ℝ) < n := by exact_mod_cast hn
  have hsum : ∀ ω, ((List.ofFn fun i => X i ω).map f).sum = ∑ i, f (X i ω) := fun ω => by
    rw [List.map_ofFn, List.sum_ofFn]
    rfl
  simp only [hsum]
  have hfi : Integrable f law := Integrable.of_bound hf.aestronglyMeasurable 1
    (Filter.Eventually.of_forall fun x => by rw [Real.norm_eq_abs, abs_of_pos (hb x).1]; exact (hb x).2)
  have hXi : ∀ i, Integrable (fun ω => f (X i ω)) Q := fun i =>
    Integrable.comp_measurable (by rw [hlaw i]; exact hfi) (hX i)
  have hle : ∀ ω, ∑ i, f (X i ω) ≤ n := fun ω => by
    calc ∑ i, f (X i ω) ≤ ∑ _i : Fin n, (1 : ℝ) := Finset.sum_le_sum fun i _ => (hb _).2
      _ = n := by simp
  have hge : ∀ ω, f (X ⟨0, hn⟩ ω) ≤ ∑ i, f (X i ω) := fun ω =>
    Finset.single_le_sum (f := fun i => f (X i ω)) (fun i _ => (hb _).1.le) (Finset.mem_univ (⟨0, hn⟩ : Fin n))
  have hpos : ∀ ω, 0 < (∑ i, f (X i ω)) / (n : ℝ) := fun ω => div_pos ((hb _).1.trans_le (hge ω)) hn'
  have hmean : ∫ ω, (∑ i, f (X i ω)) / (n : ℝ) ∂Q = ∫ x, f x ∂law := by
    have h1 : ∀ i, ∫ ω, f (X i ω) ∂Q = ∫ x, f x ∂law := fun i => by
      rw [← hlaw i, integral_map (hX i).aemeasurable hf.aestronglyMeasurable]
    rw [integral_div, integral_finsetSum _ fun i _ => hXi i]
    simp only [h1, Finset.sum_const, Finset.card_univ, Fintype.card_fin, nsmul_eq_mul]
    field_simp
  have hmu : 0 < ∫ x, f x ∂law := by
    rw [integral_pos_iff_support_of_nonneg (fun z => (hb z).1.le) hfi]
    have : Function.support f = Set.univ := by
      ext z
      simp [(hb z).1.ne']
    rw [this]
    simp
  have hint : Integrable (fun ω => Real.log ((∑ i, f (X i ω)) / (n : ℝ))) Q := by
    refine Integrable.mono' (g := fun ω => Real.log n + |Real.log (f (X ⟨0, hn⟩ ω))|)
      ((integrable_const _).add (Integrable.comp_measurable (g := fun x => Real.log (f x))
        (by rw [hlaw]; exact hlog) (hX _)).abs) ?_ (Filter.Eventually.of_forall fun ω => ?_)
    · refine Measurable.aestronglyMeasurable (Real.measurable_log.comp (Measurable.div_const ?_ _))
      exact Finset.measurable_fun_sum _ fun i _ => hf.comp (hX i)
    · have h1 : Real.log ((∑ i, f (X i ω)) / (n : ℝ)) ≤ 0 :=
        Real.log_nonpos (hpos ω).le ((div_le_one hn').2 (hle ω))
      have h2 : Real.log (f (X ⟨0, hn⟩ ω)) ≤ Real.log (∑ i, f (X i ω)) := Real.log_le_log (hb _).1 (hge ω)
      rw [Real.norm_eq_abs, abs_of_nonpos h1, Real.log_div ((hb _).1.trans_le (hge ω)).ne' hn'.ne']
      have := neg_abs_le (Real.log (f (X ⟨0, hn⟩ ω)))
      linarith
  have hsumint : Integrable (fun ω => (∑ i, f (X i ω)) / (n : ℝ)) Q :=
    (integrable_finsetSum _ fun i _ => hXi i).div_const _
  refine ⟨hsumint, hmean, hint, ?_⟩
  set μ := ∫ x, f x ∂law with hmudef
  calc ∫ ω, Real.log ((∑ i, f (X i ω)) / (n : ℝ)) ∂Q
      ≤ ∫ ω, (Real.log μ + ((∑ i, f (X i ω)) / (n : ℝ) / μ - 1)) ∂Q := by
        refine integral_mono hint ((integrable_const _).add ((hsumint.div_const _).sub (integrable_const _)))
          fun ω => ?_
        have := Real.log_le_sub_one_of_pos (div_pos (hpos ω) hmu)
        rw [Real.log_div (hpos ω).ne' hmu.ne'] at this
        show _ ≤ Real.log μ + _
        linarith
    _ = Real.log μ := by
        have h1 : Integrable (fun ω => (∑ i, f (X i ω)) / (n : ℝ) / μ - 1) Q :=
          (hsumint.div_const _).sub (integrable_const _)
        rw [integral_add (integrable_const _) h1, integral_sub (hsumint.div_const _) (integrable_const _), integral_div,
          hmean, div_self hmu.ne']
        simp

end

end Respy
