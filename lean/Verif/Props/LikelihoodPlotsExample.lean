import Verif.Props.LikelihoodPlots
import Verif.Props.LogLike

/-!
# C92 Example

The estimations of the examples of C79, with two types and with one type.
-/

namespace Respy

/-- The same estimation without types; the type of the first estimation is an observable, which is zero. -/
noncomputable def singleEstimation (la : ∀ n, LinearAlgebra n) (sp : Option (SimSpace ℝ)) : Estimation Unit :=
  { exampleEstimation la [0] sp with nTypes := 1 }

/-- The dictionaries of both estimations can be computed, and the hypotheses of the theorems hold. -/
example : ∃ la sp, ∀ e ∈ [exampleEstimation la [] (some sp), singleEstimation la (some sp)],
    (e.data.map fun r => (r.id, r.state.core.period)).Nodup ∧ e.lo ≤ 0 ∧ 0 ≤ e.hi ∧
    (∀ r ∈ e.data, r.id < 65536 ∧ r.state.core.period < 256) ∧
    ∃ res, e.logLikeResult ["a".toList, "b".toList, "home".toList] ["a".toList, "b".toList] () = some res := by
  obtain ⟨core, wf, hl⟩ := exampleBuild_wf
  obtain ⟨la, hq, hc⟩ := exists_linearAlgebra
  have hcs : ∀ d s, exampleBuild.choiceSetAt d s = choiceSet exampleRestr s := by
    intro d s; cases d <;> rfl
  have hfits : ∀ sp, (exampleEstimation la [] sp).Fits exampleBuild core (exampleInputOf Real.exp).wageOf () := by
    refine fun sp => exampleEstimation_fits la hq hc _ _ wf rfl hcs [] ?_ sp
    intro t ht
    match t, ht with
    | 0, _ => exact ⟨0, by omega, 0, rfl, rfl⟩
    | 1, _ => exact ⟨1, by omega, 1, rfl, rfl⟩
  have hfits1 : ∀ sp, (singleEstimation la sp).Fits exampleBuild core (exampleInputOf Real.exp).wageOf () := by
    intro sp
    have h := hfits sp
    refine ⟨h.qr, h.cholesky, h.lo, h.hi, h.base, h.periods, h.rows, h.cols, h.lower, h.choices, h.wages, h.index,
      fun h2 => absurd h2 (show ¬ 2 ≤ 1 by decide), ?_⟩
    intro r hr
    have hr : r ∈ exampleData [0] := hr
    obtain ⟨r', hr', h1, h2, h3, h4⟩ : ∃ r' ∈ exampleData [], r.state.core = r'.state.core ∧
        (exampleEstimation la [] sp).stateOf r' 0 = r.state ∧ r.choice = r'.choice ∧ r.wage = r'.wage := by
      unfold exampleData at hr ⊢
      simp only [List.mem_cons, List.not_mem_nil, or_false] at hr
      rcases hr with rfl | rfl | rfl
      · exact ⟨_, List.mem_cons_self, rfl, rfl, rfl, rfl⟩
      · exact ⟨_, List.mem_cons_of_mem _ List.mem_cons_self, rfl, rfl, rfl, rfl⟩
      · exact ⟨_, List.mem_cons_of_mem _ (List.mem_cons_of_mem _ List.mem_cons_self), rfl, rfl, rfl, rfl⟩
    obtain ⟨k1, k2⟩ := h.states r' hr'
    obtain ⟨d, k3, k4, k5⟩ := k2 0 (show 0 < 2 by decide)
    rw [h2] at k3
    rw [h1, h3, h4]
    refine ⟨k1, fun t ht => ⟨d, ?_, k4, k5⟩⟩
    have : (singleEstimation la sp).stateOf r t = r.state := rfl
    rw [this]
    exact k3
  have hpts : ∀ t, (core.filter fun s => decide (s.period = t)).length * exampleBuild.denseIndices.length ≤
      exampleBuild.points := by
    intro t
    have h1 := List.length_filter_le (fun s : CoreState => decide (s.period = t)) core
    have h2 : exampleBuild.denseIndices.length = 2 := rfl
    have h3 : exampleBuild.points = 1000 := rfl
    rw [h2, h3]; omega
  have hwf := exampleInputOf_wf Real.exp exampleBuild core rfl hcs
  have hdelta : (exampleInputOf Real.exp).delta ≠ 0 := by simp only [exampleInputOf]; norm_num
  have main := fun e : Estimation Unit => C79_criterion_is_likelihood_partial exampleBuild core wf rfl [[0, 1]] rfl
    (by decide) hpts e
  let interp : Interpolation ℝ := fun _ _ _ _ => none
  obtain ⟨_, _, h0⟩ := main (exampleEstimation la [] none)
  obtain ⟨sp, _, hsp, -⟩ := h0 _ hwf hdelta interp 0 (fun bt => initialValues bt.space)
    (fun bt => SameShape.refl _) id id
  refine ⟨la, sp, fun e he => ?_⟩
  obtain ⟨hsolve, hfit, hperiods⟩ : e.solve () = some sp ∧
      e.Fits exampleBuild core (exampleInputOf Real.exp).wageOf () ∧
      ∀ r ∈ e.data, r.id < 65536 ∧ r.state.core.period < 256 := by
    rcases List.mem_cons.1 he with rfl | he
    · refine ⟨rfl, hfits _, ?_⟩
      simp [exampleEstimation, exampleData]
    · rw [List.mem_singleton.1 he]
      refine ⟨rfl, hfits1 _, ?_⟩
      simp [singleEstimation, exampleEstimation, exampleData]
  refine ⟨hfit.index, hfit.lo, hfit.hi.le, hperiods, ?_⟩
  obtain ⟨_, _, h1⟩ := main e
  obtain ⟨sp', V, hsp', -, h2⟩ := h1 _ hwf hdelta interp 0 (fun bt => initialValues bt.space)
    (fun bt => SameShape.refl _) id id
  rw [hsp] at hsp'
  cases hsp'
  obtain ⟨_, _, _, _, _, hlog, _⟩ := h2 () hsolve hfit
  have hv := (C92_value e ["a".toList, "b".toList, "home".toList] ["a".toList, "b".toList] ()).1
  rw [hlog] at hv
  obtain ⟨res, hres, _⟩ := Option.map_eq_some_iff.1 hv
  exact ⟨res, hres⟩

end Respy
