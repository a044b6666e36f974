import Verif.Props.MomentFunctions
import Verif.Props.ParameterFunctionsExample

/-!
# C90 Example

The function of moment errors is created with parameters which differ from those which generated the moments.
-/

namespace Respy

/-- A series with two moments: the number of rows of the sample and its square. -/
noncomputable def sizeMoments (df : List (SimRow ℝ)) : Moments ℝ :=
  ⟨["rows".toList, "square".toList], none, [[some (df.length : ℝ), some ((df.length : ℝ) * df.length)]]⟩

theorem sizeMoments_complete (df : List (SimRow ℝ)) : (sizeMoments df).Complete := by
  refine ⟨⟨rfl, fun col hcol => ?_⟩, fun col hcol x hx => ?_⟩
  · rw [sizeMoments] at hcol
    rw [List.mem_singleton.1 hcol]
    rfl
  · rw [sizeMoments] at hcol
    rw [List.mem_singleton.1 hcol] at hx
    rcases List.mem_cons.1 hx with rfl | hx
    · rfl
    · rw [List.mem_singleton.1 hx]
      rfl

/-- The hypotheses of the theorems on the function of moment errors hold for a model of the examples, with the moments of
a sample at the parameters of the model and a function which is created at half of these parameters: no error is found. -/
example : ∃ df f, exampleUser.halved.params ≠ exampleUser.params ∧
    getMomentErrorsFunc exampleEnv textEval exampleRoutines exampleUser.halved (exampleSimulate 4 2)
      ⟨.single fun df => some (sizeMoments df), none, .single (sizeMoments df), none⟩ = some f ∧
    ∀ g, ∃ res, (f exampleUser.params g).1 = some res ∧ res.value = some 0 := by
  obtain ⟨q, core, hq, h1, h2, h3, h4, h5, h6, h7, h8, _⟩ := exampleUser_hypotheses
  have hmax : ∀ k ∈ exampleUser.params.map Prod.fst, k.1 ≠ "maximum_exp".toList := by decide +kernel
  obtain ⟨p, hp, hst⟩ := halved_structure hq hmax
  have hr := exampleUser_sound
  rw [hq] at hr
  simp only [Option.any_some, Bool.and_eq_true, decide_eq_true_eq, List.all_eq_true] at hr
  obtain ⟨⟨⟨⟨r1, r2⟩, r3⟩, r4⟩, r5⟩ := hr
  have hf : q.FormulasSound textEval := ⟨fun c d hcd => textEval_accurate d (r2 (c, d) hcd), r3, r4⟩
  have hrep := hst.symm.reprocessable (m := exampleUser) (m' := exampleUser.halved) rfl rfl (reprocessable_of_check _ _ r1)
  have hfs := hst.symm.formulasSound hf
  have hid : "identifier".toList ∉ Dict.keys p.groups.all := hst.groups ▸ r5
  obtain ⟨simulate, sp, V, k1, _, k2⟩ := C87_samples_at_parameters_partial (m := exampleUser.halved) hp
    hrep textEval_contract
    hfs hid exampleUser.params (halved_index _ hmax) hq h2 h1 h3
    (fun _ _ h1 h2 => ⟨h1, h2⟩) (by decide +kernel) (exampleShocks _ (by decide +kernel)) exampleRoutines h4 h5 h6
    firstRandom_contract (fun _ => SameShape.refl _) (fun _ _ => Iff.rfl) (fun _ _ => Iff.rfl) (exampleSimulate 4 2) h7 h8
  obtain ⟨k3, df, g', k4, _⟩ := k2 0
  obtain ⟨c1, c2⟩ := C87_simulate_function_partial hp hrep textEval_contract hfs hid exampleRoutines (exampleSimulate 4 2)
  have hspace := c1.1 (by rw [k1]; rfl)
  obtain ⟨q', s', hq', -, -, hrun⟩ := c2 simulate k1 exampleUser.params (halved_index _ hmax)
  have hqq : q' = q := by
    have : processModel exampleEnv { exampleUser.halved with params := exampleUser.params } = some q := hq
    rw [this] at hq'
    exact (Option.some.inj hq').symm
  subst hqq
  have hdf := hrun 0
  rw [k3, k4] at hdf
  have hfit := ((C90_any_parameters_partial hp hrep textEval_contract hfs hid exampleRoutines (exampleSimulate 4 2)
    ⟨.single fun df => some (sizeMoments df), none, .single (sizeMoments df), none⟩).1).2
    ⟨⟨fun _ h => List.cons_ne_nil _ _ h, rfl⟩, hspace⟩
  obtain ⟨f, hfun⟩ := Option.isSome_iff_exists.1 hfit
  refine ⟨df, f, fun he => ?_, hfun, fun g => ?_⟩
  · have := congrArg (fun l => (l.map Prod.snd)[0]?) he
    simp only [UserModel.halved, exampleUser] at this
    norm_num at this
  · obtain ⟨res, e1, e2, -⟩ := C90_own_moments_partial hp hrep textEval_contract hfs hid exampleRoutines
      (exampleSimulate 4 2) _ f hfun exampleUser.params (halved_index _ hmax) q' hq 0 df
      (by rw [← hdf])
      (.single ⟨rfl, sizeMoments_complete df⟩) .none _ rfl (fun w hw => by cases hw) g
    exact ⟨res, e1, e2⟩

end Respy
