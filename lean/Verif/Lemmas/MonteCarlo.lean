import Mathlib.MeasureTheory.Constructions.Pi
import Mathlib.Probability.Moments.Variance
import Verif.Lemmas.Comparative
import Verif.Spec.MonteCarlo

/-!
# Lemmas on averages of draws
-/

namespace Respy

open MeasureTheory ProbabilityTheory

/-- The maximum of zero and the values of the admissible alternatives. -/
noncomputable def bestOf (cs : List Bool) (x : Nat → ℝ) : ℝ :=
  ((List.range cs.length).filter fun a => decide (cs[a]? = some true)).foldr (fun a y => max (x a) y) 0

theorem foldr_max_isGreatest (l : List Nat) (x : Nat → ℝ) :
    IsGreatest {y | y = 0 ∨ ∃ a ∈ l, y = x a} (l.foldr (fun a y => max (x a) y) 0) := by
  induction l with
  | nil => exact ⟨Or.inl rfl, by rintro y (rfl | ⟨a, ha, _⟩) <;> simp_all⟩
  | cons b l ih =>
    obtain ⟨h1, h2⟩ := ih
    rw [List.foldr_cons]
    constructor
    · rcases le_total (x b) (l.foldr (fun a y => max (x a) y) 0) with h | h
      · rw [max_eq_right h]
        rcases h1 with h1 | ⟨a, ha, h1⟩
        · exact Or.inl h1
        · exact Or.inr ⟨a, by simp [ha], h1⟩
      · rw [max_eq_left h]
        exact Or.inr ⟨b, by simp, rfl⟩
    · rintro y (rfl | ⟨a, ha, rfl⟩)
      · exact (h2 (Or.inl rfl)).trans (le_max_right _ _)
      · rcases List.mem_cons.1 ha with rfl | ha
        · exact le_max_left _ _
        · exact (h2 (Or.inr ⟨a, ha, rfl⟩)).trans (le_max_right _ _)

theorem bestOf_isGreatest (cs : List Bool) (x : Nat → ℝ) :
    IsGreatest {y | y = 0 ∨ ∃ a : Nat, cs[a]? = some true ∧ y = x a} (bestOf cs x) := by
  have h := foldr_max_isGreatest ((List.range cs.length).filter fun a => decide (cs[a]? = some true)) x
  unfold bestOf
  convert h using 2
  ext y
  simp only [List.mem_filter, List.mem_range, decide_eq_true_eq]
  constructor
  · rintro (h | ⟨a, ha, h⟩)
    · exact Or.inl h
    · exact Or.inr ⟨a, ⟨(List.getElem?_eq_some_iff.1 ha).1, ha⟩, h⟩
  · rintro (h | ⟨a, ⟨_, ha⟩, h⟩)
    · exact Or.inl h
    · exact Or.inr ⟨a, ha, h⟩

theorem foldr_max_measurable {E : Type _} [MeasurableSpace E] (l : List Nat) (f : E → Nat → ℝ)
    (hf : ∀ a ∈ l, Measurable fun e => f e a) : Measurable fun e => l.foldr (fun a y => max (f e a) y) 0 := by
  induction l with
  | nil => exact measurable_const
  | cons b l ih =>
    simp only [List.foldr_cons]
    exact (hf b (by simp)).max (ih fun a ha => hf a (by simp [ha]))

theorem foldr_max_memLp {E : Type _} [MeasurableSpace E] (μ : Measure E) [IsFiniteMeasure μ] (l : List Nat)
    (f : E → Nat → ℝ) (hf : ∀ a ∈ l, MemLp (fun e => f e a) 2 μ) :
    MemLp (fun e => l.foldr (fun a y => max (f e a) y) 0) 2 μ := by
  induction l with
  | nil => exact memLp_const 0
  | cons b l ih =>
    simp only [List.foldr_cons]
    exact (hf b (by simp)).sup (ih fun a ha => hf a (by simp [ha]))

/-- The utility of an alternative with what follows. -/
def utilityOf (delta : ℝ) (w m c : Nat → ℝ) (e : Nat → ℝ) (a : Nat) : ℝ := w a * e a + m a + delta * c a

theorem best_measurable (cs : List Bool) (delta : ℝ) (w m c : Nat → ℝ) :
    Measurable fun e => bestOf cs (utilityOf delta w m c e) := by
  refine foldr_max_measurable _ (fun e => utilityOf delta w m c e) fun a _ => ?_
  unfold utilityOf
  exact (((measurable_pi_apply a).const_mul _).add_const _).add_const _

theorem best_memLp (cs : List Bool) (delta : ℝ) (w m c : Nat → ℝ) (law : Measure (Nat → ℝ)) [IsFiniteMeasure law]
    (h : ∀ a : Nat, cs[a]? = some true → MemLp (fun e : Nat → ℝ => e a) 2 law) :
    MemLp (fun e => bestOf cs (utilityOf delta w m c e)) 2 law := by
  refine foldr_max_memLp law _ (fun e => utilityOf delta w m c e) fun a ha => ?_
  have ha' : cs[a]? = some true := by simpa using (List.mem_filter.1 ha).2
  unfold utilityOf
  exact (((h a ha').const_mul _).add (memLp_const _)).add (memLp_const _)

/-- Chebyshev's inequality for averages of draws. -/
theorem average_close {Ω : Type _} [MeasurableSpace Ω] (P : Measure Ω) [IsProbabilityMeasure P] {E : Type _}
    [MeasurableSpace E] {n : Nat} (hn : 0 < n) (X : Fin n → Ω → E) (hX : ∀ i, Measurable (X i)) (law : Measure E)
    (hlaw : ∀ i, P.map (X i) = law) (hind : Pairwise fun i j => X i ⟂ᵢ[P] X j) (f : E → ℝ) (hf : Measurable f)
    (hf2 : MemLp f 2 law) (ε : ℝ) (hε : 0 < ε) :
    P {ω | ε ≤ |((List.ofFn fun i => X i ω).map f).sum / (n : ℝ) - ∫ e, f e ∂law|} ≤
      ENNReal.ofReal (Var[f; law] / (n * ε ^ 2)) := by
  have hn' : (0 : ℝ) < n := by exact_mod_cast hn
  have hY : ∀ i, MemLp (fun ω => f (X i ω)) 2 P := fun i =>
    (memLp_map_measure_iff (by rw [hlaw i]; exact hf2.1) (hX i).aemeasurable).1 (by rw [hlaw i]; exact hf2)
  have hsum : MemLp (fun ω => ∑ i, f (X i ω)) 2 P := memLp_finsetSum _ fun i _ => hY i
  have hvar : Var[fun ω => ∑ i, f (X i ω); P] = n * Var[f; law] := by
    have h1 := IndepFun.variance_sum (μ := P) (s := Finset.univ) (X := fun i ω => f (X i ω)) (fun i _ => hY i)
      (fun i _ j _ hij => (hind hij).comp hf hf)
    have h2 : (fun ω => ∑ i, f (X i ω)) = ∑ i, (fun i ω => f (X i ω)) i := by
      funext ω; simp
    rw [h2, h1]
    have h3 : ∀ i, Var[fun ω => f (X i ω); P] = Var[f; law] := fun i => by
      rw [← hlaw i, variance_map (by exact hf.aemeasurable) (hX i).aemeasurable]
      rfl
    simp [h3]
  have hmean : ∫ ω, ∑ i, f (X i ω) ∂P = n * ∫ e, f e ∂law := by
    rw [integral_finsetSum _ fun i _ => (hY i).integrable (by norm_num)]
    have h3 : ∀ i, ∫ ω, f (X i ω) ∂P = ∫ e, f e ∂law := fun i => by
      rw [← hlaw i, integral_map (hX i).aemeasurable hf.aestronglyMeasurable]
    simp [h3]
  have hc := meas_ge_le_variance_div_sq hsum (c := n * ε) (by positivity)
  rw [hvar, hmean] at hc
  have hset : {ω | ε ≤ |((List.ofFn fun i => X i ω).map f).sum / (n : ℝ) - ∫ e, f e ∂law|} =
      {ω | (n : ℝ) * ε ≤ |∑ i, f (X i ω) - n * ∫ e, f e ∂law|} := by
    ext ω
    have h4 : ((List.ofFn fun i => X i ω).map f).sum = ∑ i, f (X i ω) := by
      rw [List.map_ofFn, List.sum_ofFn]
      rfl
    simp only [Set.mem_ofPred_eq, h4]
    have h5 : (∑ i, f (X i ω)) / (n : ℝ) - ∫ e, f e ∂law = (∑ i, f (X i ω) - n * ∫ e, f e ∂law) / n := by
      field_simp
    rw [h5, abs_div, abs_of_pos hn', le_div_iff₀ hn', mul_comm]
  rw [hset]
  refine hc.trans (le_of_eq ?_)
  congr 1
  field_simp

end Respy
