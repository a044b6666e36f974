import Verif.Lemmas.HistoryLikelihood
import Verif.Spec.ProcessLikelihood

/-! Helper lemmas for C114: densities of paths of states. -/

open MeasureTheory ProbabilityTheory

namespace Respy

noncomputable section

variable {σ κ : Type} [Fintype κ] [MeasurableSpace κ] [MeasurableSingletonClass κ]

/-- The reference measure for an observation with a wage. -/
def keyedMeasure (κ : Type) [MeasurableSpace κ] : Measure (κ × ℝ) :=
  Measure.count.prod (volume.restrict (Set.Ioi 0) + Measure.dirac 0)

instance keyedMeasure_sigmaFinite : SigmaFinite (keyedMeasure κ) := by
  unfold keyedMeasure
  infer_instance

/-- The density of a path if `obs x` is the density of an observation in state `x`, and `next` the following state. -/
def pathDensity (obs : σ → κ × ℝ → ℝ) (next : σ → κ → σ) : (T : Nat) → σ → (Fin T → κ × ℝ) → ℝ
  | 0, _, _ => 1
  | T + 1, x, h => obs x (h 0) * pathDensity obs next T (next x (h 0).1) (Fin.tail h)

/-- The states along a path. -/
def pathState (next : σ → κ → σ) (x : σ) {T : Nat} (h : Fin T → κ × ℝ) : Nat → σ
  | 0 => x
  | t + 1 => if ht : t < T then next (pathState next x h t) (h ⟨t, ht⟩).1 else pathState next x h t

omit [Fintype κ] [MeasurableSpace κ] [MeasurableSingletonClass κ] in
theorem pathState_succ (next : σ → κ → σ) (x : σ) {T : Nat} (h : Fin (T + 1) → κ × ℝ) (t : Nat) (ht : t ≤ T) :
    pathState next x h (t + 1) = pathState next (next x (h 0).1) (Fin.tail h) t := by
  induction t with
  | zero =>
    show (if ht : 0 < T + 1 then next (pathState next x h 0) (h ⟨0, ht⟩).1 else pathState next x h 0) = _
    rw [dif_pos (Nat.succ_pos T)]
    rfl
  | succ t ih =>
    rw [pathState, dif_pos (by omega), ih (by omega), pathState, dif_pos (by omega)]
    rfl

variable (obs : σ → κ × ℝ → ℝ) (next : σ → κ → σ)

omit [Fintype κ] [MeasurableSpace κ] [MeasurableSingletonClass κ] in
theorem pathDensity_prod (T : Nat) (x : σ) (h : Fin T → κ × ℝ) :
    pathDensity obs next T x h = ∏ t : Fin T, obs (pathState next x h t) (h t) := by
  induction T generalizing x with
  | zero => simp [pathDensity]
  | succ T ih =>
    rw [Fin.prod_univ_succ, pathDensity, ih]
    congr 1
    refine Finset.prod_congr rfl fun t _ => ?_
    rw [Fin.val_succ, pathState_succ next x h t t.2.le]
    rfl

theorem pathDensity_measurable (hm : ∀ x, Measurable (obs x)) (T : Nat) (x : σ) :
    Measurable (pathDensity obs next T x) := by
  induction T generalizing x with
  | zero => exact measurable_const
  | succ T ih =>
    have h1 : Measurable fun y : κ × (Fin T → κ × ℝ) => pathDensity obs next T (next x y.1) y.2 :=
      measurable_from_prod_countable_right fun a => ih (next x a)
    have h2 : Measurable fun h : Fin (T + 1) → κ × ℝ => ((h 0).1, Fin.tail h) := by
      refine Measurable.prodMk (measurable_fst.comp (measurable_pi_apply 0)) ?_
      exact measurable_pi_lambda _ fun t => measurable_pi_apply _
    exact ((hm x).comp (measurable_pi_apply 0)).mul (h1.comp h2)

omit [Fintype κ] [MeasurableSpace κ] [MeasurableSingletonClass κ] in
theorem pathDensity_nonneg (h0 : ∀ x y, 0 ≤ obs x y) (T : Nat) (x : σ) (h : Fin T → κ × ℝ) :
    0 ≤ pathDensity obs next T x h := by
  rw [pathDensity_prod]
  exact Finset.prod_nonneg fun t _ => h0 _ _

/-- If observations have total mass `M` in all states which can be reached, paths have mass `M ^ T`. -/
theorem pathDensity_total (hm : ∀ x, Measurable (obs x)) (h0 : ∀ x y, 0 ≤ obs x y) (Good : Nat → σ → Prop)
    (M : ENNReal) (htotal : ∀ T x, Good (T + 1) x → ∫⁻ y, ENNReal.ofReal (obs x y) ∂keyedMeasure κ = M)
    (hnext : ∀ T x, Good (T + 1) x → ∀ y, 0 < obs x y → Good T (next x y.1)) (T : Nat) (x : σ)
    (hx : Good T x) : ∫⁻ h, ENNReal.ofReal (pathDensity obs next T x h) ∂(Measure.pi fun _ => keyedMeasure κ) = M ^ T := by
  induction T generalizing x with
  | zero =>
    simp only [pathDensity, ENNReal.ofReal_one, lintegral_one, Measure.pi_univ]
    simp
  | succ T ih =>
    have hpres := measurePreserving_piFinSuccAbove (fun _ : Fin (T + 1) => keyedMeasure κ) 0
    let G : (κ × ℝ) × (Fin T → κ × ℝ) → ENNReal := fun yh =>
      ENNReal.ofReal (obs x yh.1) * ENNReal.ofReal (pathDensity obs next T (next x yh.1.1) yh.2)
    have hG : Measurable G := by
      refine Measurable.mul ((hm x).comp measurable_fst).ennreal_ofReal (Measurable.ennreal_ofReal ?_)
      have h1 : Measurable fun y : κ × (Fin T → κ × ℝ) => pathDensity obs next T (next x y.1) y.2 :=
        measurable_from_prod_countable_right fun a => pathDensity_measurable obs next hm T (next x a)
      exact h1.comp ((measurable_fst.comp measurable_fst).prodMk measurable_snd)
    have h1 : ∫⁻ h, ENNReal.ofReal (pathDensity obs next (T + 1) x h) ∂(Measure.pi fun _ => keyedMeasure κ) =
        ∫⁻ yh, G yh ∂(keyedMeasure κ).prod (Measure.pi fun _ : Fin T => keyedMeasure κ) := by
      have h2 := hpres.lintegral_comp hG
      rw [← h2]
      refine lintegral_congr fun h => ?_
      rw [pathDensity, ENNReal.ofReal_mul (h0 _ _)]
      rfl
    have h3 : ∀ y, ∫⁻ h, G (y, h) ∂(Measure.pi fun _ : Fin T => keyedMeasure κ) = ENNReal.ofReal (obs x y) * M ^ T := by
      intro y
      have h4 : ∫⁻ h, G (y, h) ∂(Measure.pi fun _ : Fin T => keyedMeasure κ) = ENNReal.ofReal (obs x y) *
          ∫⁻ h, ENNReal.ofReal (pathDensity obs next T (next x y.1) h) ∂(Measure.pi fun _ => keyedMeasure κ) := by
        simp only [G]
        exact lintegral_const_mul _ (pathDensity_measurable obs next hm T (next x y.1)).ennreal_ofReal
      rw [h4]
      rcases (h0 x y).eq_or_lt with hy | hy
      · rw [← hy]
        simp
      · rw [ih _ (hnext T x hx y hy)]
    rw [h1, lintegral_prod _ hG.aemeasurable]
    simp only [h3]
    rw [lintegral_mul_const _ (hm x).ennreal_ofReal, htotal T x hx, pow_succ, mul_comm]

/-- Integrals over choices and levels. -/
theorem lintegral_levels {n E : Nat} (u : Fin n × ℝ → ℝ) (hu : Measurable u) (q : Fin E → ℝ) (hq : ∀ e, 0 ≤ q e) :
    ∫⁻ y : (Fin n × Fin E) × ℝ, ENNReal.ofReal (u (y.1.1, y.2) * q y.1.2) ∂keyedMeasure (Fin n × Fin E) =
      (∫⁻ y, ENNReal.ofReal (u y) ∂observedMeasure n) * ENNReal.ofReal (∑ e, q e) := by
  have hm : Measurable fun y : (Fin n × Fin E) × ℝ => ENNReal.ofReal (u (y.1.1, y.2) * q y.1.2) := by
    refine (Measurable.mul (hu.comp ?_) ?_).ennreal_ofReal
    · exact (measurable_fst.comp measurable_fst).prodMk measurable_snd
    · exact (measurable_of_finite q).comp (measurable_snd.comp measurable_fst)
  unfold keyedMeasure observedMeasure
  rw [lintegral_prod _ hm.aemeasurable, lintegral_count, tsum_fintype, lintegral_prod _ hu.ennreal_ofReal.aemeasurable,
    lintegral_count, tsum_fintype, ENNReal.ofReal_sum_of_nonneg fun e _ => hq e, Fintype.sum_prod_type, Finset.sum_mul_sum]
  refine Finset.sum_congr rfl fun a _ => Finset.sum_congr rfl fun e _ => ?_
  rw [← lintegral_mul_const (f := fun x => ENNReal.ofReal (u (a, x))) _ (hu.comp measurable_prodMk_left).ennreal_ofReal]
  refine lintegral_congr fun x => ?_
  rw [ENNReal.ofReal_mul' (hq e)]

end

end Respy
