import Verif.Lemmas.ChoiceProbability

/-!
# Choice probabilities increase with the value of the alternative
-/

open MeasureTheory ProbabilityTheory

namespace Respy

noncomputable section

/-- If the value of one alternative increases and no other value does, the logit probability increases. -/
theorem logitOf_strict {cs : List Bool} {tau : ℝ} (ht : 0 < tau) {v v' : Nat → ℝ} {a a' : Nat}
    (ha : cs[a]? = some true) (ha' : cs[a']? = some true) (hne : a' ≠ a) (hv : v a < v' a)
    (hv' : ∀ c, c ≠ a → cs[c]? = some true → v' c ≤ v c) : logitOf tau cs v a < logitOf tau cs v' a := by
  have hpos : ∀ u : Nat → ℝ, 0 < overAvailable cs fun j => Real.exp (u j / tau) := fun u => by
    rw [overAvailable_sum rfl]
    exact Finset.sum_pos (fun _ _ => Real.exp_pos _) ⟨⟨_, positionIn_lt cs a ha⟩, Finset.mem_univ _⟩
  unfold logitOf
  rw [div_lt_div_iff₀ (hpos v) (hpos v'), overAvailable_sum rfl, overAvailable_sum rfl, Finset.mul_sum, Finset.mul_sum]
  have hterm : ∀ c, cs[c]? = some true → Real.exp (v a / tau) * Real.exp (v' c / tau) ≤
      Real.exp (v' a / tau) * Real.exp (v c / tau) ∧ (c ≠ a → Real.exp (v a / tau) * Real.exp (v' c / tau) <
      Real.exp (v' a / tau) * Real.exp (v c / tau)) := by
    intro c hc
    rw [← Real.exp_add, ← Real.exp_add, Real.exp_le_exp, Real.exp_lt_exp, ← add_div, ← add_div,
      div_le_div_iff_of_pos_right ht, div_lt_div_iff_of_pos_right ht]
    by_cases h : c = a
    · subst h
      exact ⟨(add_comm _ _).le, fun h => absurd rfl h⟩
    · have := hv' c h hc
      exact ⟨by linarith, fun _ => by linarith⟩
  refine Finset.sum_lt_sum (fun i _ => (hterm _ (alternativeAt_available rfl i)).1)
    ⟨⟨positionIn cs a', positionIn_lt cs a' ha'⟩, Finset.mem_univ _, ?_⟩
  have h1 := alternativeAt_positionIn a' ha'
  simp only [h1]
  exact (hterm a' ha').2 hne

/-- Choice probabilities increase if the expected value of the alternative increases and no other. -/
theorem expected_strict {cs : List Bool} (bound : ℝ) {tau delta : ℝ} (ht : 0 < tau) (hdelta : 0 < delta)
    (nWages : Nat) (L : List (List ℝ)) (sd w m : Nat → ℝ) {c c' : Nat → ℝ} (a a' : Nat) (ha : cs[a]? = some true)
    (ha' : cs[a']? = some true) (hne : a' ≠ a) (hc : c a < c' a)
    (hc' : ∀ b, b ≠ a → cs[b]? = some true → c' b ≤ c b) (wage : Option ℝ) (p q : ℝ)
    (hp : IsExpectedChoiceProbability bound tau delta nWages L cs sd w m c a wage p)
    (hq : IsExpectedChoiceProbability bound tau delta nWages L cs sd w m c' a wage q) : p < q := by
  obtain ⟨C, hC, rfl⟩ := hp
  obtain rfl := expected_unique bound tau delta nWages L sd w m c' a ha wage _ _ ⟨C, hC, rfl⟩ hq
  simp only [logit_given bound tau delta nWages rfl w m _ _ _ a ha]
  generalize hmean : shockMean (shockCov L cs) (observation L cs sd w a wage) = mean
  let F : (Nat → ℝ) → (Fin (cs.count true) → ℝ) → ℝ := fun c z => logitAt bound tau delta nWages cs w m c a
    fun i => mean (alternativeAt cs i) + ∑ j, atPositions cs _ C i j * z j
  have hb : ∀ c z, 0 < F c z ∧ F c z ≤ 1 := fun c z => logitOf_bounds tau _ a ha
  have hm : ∀ c, Measurable (F c) := fun c => (logitAt_measurable bound tau delta nWages cs w m c a).comp (by fun_prop)
  have hi : ∀ c, Integrable (F c) (normals (cs.count true)) := fun c => Integrable.of_bound (hm c).aestronglyMeasurable 1
    (Filter.Eventually.of_forall fun z => by rw [Real.norm_eq_abs, abs_of_pos (hb c z).1]; exact (hb c z).2)
  have hlt : ∀ z, 0 < F c' z - F c z := fun z => sub_pos.2 <| logitOf_strict ht ha ha' hne
    (by have := mul_lt_mul_of_pos_left hc hdelta; linarith)
    (fun b hb hab => by have := mul_le_mul_of_nonneg_left (hc' b hb hab) hdelta.le; linarith)
  have hpos : 0 < ∫ z, (F c' z - F c z) ∂normals (cs.count true) := by
    rw [integral_pos_iff_support_of_nonneg (fun z => (hlt z).le) ((hi c').sub (hi c))]
    have : Function.support (fun z => F c' z - F c z) = Set.univ := by
      ext z
      simp only [Function.mem_support, Set.mem_univ, iff_true]
      exact (hlt z).ne'
    rw [this]
    simp
  rw [integral_sub (hi c') (hi c)] at hpos
  exact sub_pos.1 hpos

end

end Respy
