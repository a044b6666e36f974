import Verif.Props.SimulateModel
import Verif.Lemmas.InputFrame
import Verif.Model.LogLike

/-!
# C73 and C79: States which are not in the state space
-/

namespace Respy

section
variable {K : Type} [Field K] [LinearOrder K] {G P : Type}

theorem buildSpace_indexed {b : BuildSpec} {bt : Built} (h : buildSpace b = some bt) (s : CoreState) (l : Nat × Nat)
    (hs : bt.indexer.get? s = some l) : s ∈ bt.core := by
  unfold buildSpace at h
  simp only [Option.bind_eq_bind, Option.bind_eq_some_iff] at h
  obtain ⟨core, _, dpc, _, indices, _, transit, _, children, _, h⟩ := h
  cases h
  dsimp only at hs ⊢
  unfold createIndexer at hs
  have h2 := Dict.mem_items_of_get?_ofItems _ _ _ hs
  obtain ⟨_, _, h3⟩ := (mem_indexer_items _ _ s l.1 l.2).1 h2
  obtain ⟨i, _, h4⟩ := (mem_locRows _ _ _).1 (List.mem_of_getElem? h3)
  exact List.mem_of_getElem? h4

/-- **C73 fails** if the first state of some individual in the data is not in the state space, which can happen with
filters and with initial experiences other than those of the parameters: the simulation of all individuals raises an
exception. -/
theorem C73_start_outside (b : BuildSpec) (bt : Built) (hb : buildSpace b = some bt) (par : ParamObjects K)
    (ev : Dict Nat (List K)) (vc ko : List Nat → List Nat) (sim : Simulation K G P) (hrs : sim.rs.Contract)
    (params : P) (hsolve : sim.solve params = some (bt.simSpace b par ev vc ko)) (hT : 0 < sim.nPeriods) (i : Nat)
    (row : CharRow) (hrow : sim.input[i]? = some row) (s : SimState)
    (hs : rowToState sim.nExp sim.nLags row = some s) (hout : s.core ∉ bt.core) (g : G) :
    (sim.run params g).1 = none := by
  cases h : sim.run params g with
  | mk res g' =>
    cases res with
    | none => rfl
    | some out =>
      exfalso
      obtain ⟨sp, fp, g1, states, data, h1, h2, h3, h4, h5, h6, h7, _⟩ := run_spec sim hrs params g g' out h
      rw [hsolve] at h1
      cases h1
      obtain ⟨hfl, hk⟩ := sampleAll_spec _ _ _ _ _ _ _ h2
      have hi : i < fp.length := by rw [hfl]; exact (List.getElem?_eq_some_iff.1 hrow).1
      obtain ⟨k1, k2⟩ := hk i row fp[i] hrow (List.getElem?_eq_getElem hi)
      have heq : fp[i] = row := by
        have hvals := rowToState_values hs
        refine List.ext_getElem? fun j => ?_
        cases hj : row[j]? with
        | none => rw [List.getElem?_eq_none_iff] at hj ⊢; omega
        | some y =>
          have : y ∈ row := List.mem_of_getElem? hj
          rw [hvals] at this
          obtain ⟨v, _, rfl⟩ := List.mem_map.1 this
          exact k2 j v hj
      have hst := mapM_getElem? _ _ _ h3 i _ (List.getElem?_eq_getElem hi)
      rw [heq, hs] at hst
      have ht : 0 < data.length := by rw [h6]; exact hT
      obtain ⟨h8, h9⟩ := h7 0 _ (List.getElem?_eq_getElem ht)
      have hir : i < data[0].length := by rw [h8, ← hfl]; exact hi
      obtain ⟨_, _, hz, _, _, cvs, _, hsim⟩ := h9 i _ (List.getElem?_eq_getElem hir)
      have hstate := hz rfl
      rw [hst] at hstate
      have hstate := Option.some.inj hstate
      obtain ⟨_, _, _, _, hloc, _⟩ := simulateRow_fields _ _ _ _ _ _ _ _ _ hsim
      rw [← hstate] at hloc
      unfold SimSpace.locate at hloc
      obtain ⟨l, hl, _⟩ := Option.bind_eq_some_iff.1 hloc
      exact hout (buildSpace_indexed hb _ _ hl)

/-- **C79 fails** if the state of one observation is not in the state space: the criterion function raises an
exception at all parameters. The checks of the data (C72) do not exclude it. -/
theorem C79_state_outside (b : BuildSpec) (bt : Built) (hb : buildSpace b = some bt) (par : ParamObjects ℝ)
    (ev : Dict Nat (List ℝ)) (vc ko : List Nat → List Nat) (e : Estimation P) (params : P)
    (hsolve : e.solve params = some (bt.simSpace b par ev vc ko)) (r : EstimationRow) (hr : r ∈ e.data)
    (hout : r.state.core ∉ bt.core) : e.logLike params = none := by
  have hsorted : r ∈ e.sorted := (List.perm_insertionSort EstimationRow.le e.data).mem_iff.2 hr
  have hmem : ∃ rt ∈ e.typedRows, rt.1.state.core = r.state.core := by
    unfold Estimation.typedRows
    split
    · exact ⟨(r.withType e.nStatic 0, 0), List.mem_flatMap.2 ⟨0, List.mem_range.2 (by omega),
        List.mem_map.2 ⟨r, hsorted, rfl⟩⟩, rfl⟩
    · exact ⟨(r, 0), List.mem_map.2 ⟨r, hsorted, rfl⟩, rfl⟩
  obtain ⟨rt, hrt, hcore⟩ := hmem
  have hloc : e.located (bt.simSpace b par ev vc ko) = none := by
    cases h : e.located (bt.simSpace b par ev vc ko) with
    | none => rfl
    | some rows =>
      exfalso
      unfold Estimation.located at h
      obtain ⟨i, hi⟩ := List.getElem?_of_mem hrt
      have hl := mapM_getElem? _ _ _ h i _ hi
      have hil : i < rows.length := by
        rw [mapM_eq_some_length _ _ _ h]; exact (List.getElem?_eq_some_iff.1 hi).1
      rw [List.getElem?_eq_getElem hil] at hl
      obtain ⟨l, h1, _⟩ := Option.bind_eq_some_iff.1 hl.symm
      unfold SimSpace.locate at h1
      obtain ⟨l', h2, _⟩ := Option.bind_eq_some_iff.1 h1
      rw [hcore] at h2
      exact hout (buildSpace_indexed hb _ _ h2)
  unfold Estimation.logLike Estimation.loglikeRows
  simp only [hsolve, hloc, Option.bind_eq_bind, Option.bind_some, Option.bind_none]

end

/-- The model of C70 with a filter of states in the first period. -/
def filteredBuild : BuildSpec :=
  { exampleBuild with
    core := { exampleSpec with filters := [fun s => decide (s.period = 0 ∧ s.lags = [some 0])] } }

/-- The hypotheses of `C73_start_outside` and `C79_state_outside` are met: the state space can be created, but individuals who have the first
lagged choice have no state. Without the filter they have one. -/
example : ∃ bt bt' s, buildSpace filteredBuild = some bt ∧ buildSpace exampleBuild = some bt' ∧
    rowToState 2 1 [some 2, some 0, some 0, some 1] = some s ∧ s.core ∉ bt.core ∧ s.core ∈ bt'.core := by
  have h1 : (buildSpace filteredBuild).any (fun bt =>
      decide ((⟨0, [2, 0], [some 0]⟩ : CoreState) ∉ bt.core)) = true := by decide +kernel
  have h2 : (buildSpace exampleBuild).any (fun bt =>
      decide ((⟨0, [2, 0], [some 0]⟩ : CoreState) ∈ bt.core)) = true := by decide +kernel
  obtain ⟨bt, hb, hc⟩ := (Option.any_eq_true _ _).1 h1
  obtain ⟨bt', hb', hc'⟩ := (Option.any_eq_true _ _).1 h2
  exact ⟨bt, bt', ⟨⟨0, [2, 0], [some 0]⟩, [1]⟩, hb, hb', rfl, of_decide_eq_true hc, of_decide_eq_true hc'⟩

end Respy
