import Verif.Lemmas.Simulate
import Mathlib.Data.List.Nodup
import Mathlib.Data.List.Perm.Basic

/-! Lemmas on the output of the simulation. -/

set_option linter.unusedSectionVars false

namespace Respy

variable {K : Type _} [Field K] [LinearOrder K] {G P : Type _}

theorem sampleCharacteristic_spec (rs : RandomSource K G) (ch : Characteristic K) (seed : Nat)
    (fp fp' : List CharRow) (g : G) (h : sampleCharacteristic rs ch seed fp = some (fp', g)) :
    fp'.length = fp.length ∧ ∀ (i : Nat) (row row' : CharRow), fp[i]? = some row →
      fp'[i]? = some row' → row'.length = row.length ∧ ∀ (c v : Nat), row[c]? = some (some v) →
        row'[c]? = some (some v) := by
  unfold sampleCharacteristic at h
  obtain ⟨values, hv, h⟩ := Option.bind_eq_some_iff.1 h
  split at h
  · rename_i hl
    cases h
    refine ⟨by simp [hl], fun i row row' hi hi' => ?_⟩
    have hlt : i < values.length := by
      rw [hl]; exact (List.getElem?_eq_some_iff.1 hi).1
    rw [List.getElem?_zipWith, hi, List.getElem?_eq_getElem hlt] at hi'
    simp only [Option.some.injEq] at hi'
    subst hi'
    refine ⟨by simp [fillColumn], fun c v hc => ?_⟩
    rw [fillColumn, List.getElem?_modify, hc]
    by_cases hcc : ch.column = c <;> simp [hcc]
  · simp at h

theorem sampleAll_spec (rs : RandomSource K G) (chars : List (Characteristic K)) (seed : Nat)
    (fp fp' : List CharRow) (g g' : G) (h : sampleAll rs chars seed fp g = some (fp', g')) :
    fp'.length = fp.length ∧ ∀ (i : Nat) (row row' : CharRow), fp[i]? = some row →
      fp'[i]? = some row' → row'.length = row.length ∧ ∀ (c v : Nat), row[c]? = some (some v) →
        row'[c]? = some (some v) := by
  induction chars generalizing seed fp g with
  | nil =>
    simp only [sampleAll, Option.some.injEq, Prod.mk.injEq] at h
    obtain ⟨rfl, _⟩ := h
    refine ⟨rfl, fun i row row' h1 h2 => ?_⟩
    rw [h1] at h2
    cases h2
    exact ⟨rfl, fun _ _ hc => hc⟩
  | cons ch chars ih =>
    unfold sampleAll at h
    obtain ⟨⟨fp1, g1⟩, h1, h⟩ := Option.bind_eq_some_iff.1 h
    obtain ⟨hl1, hs1⟩ := sampleCharacteristic_spec _ _ _ _ _ _ h1
    obtain ⟨hl2, hs2⟩ := ih _ _ _ h
    refine ⟨hl2.trans hl1, fun i row row' hi hi' => ?_⟩
    have hlt : i < fp1.length := by rw [hl1]; exact (List.getElem?_eq_some_iff.1 hi).1
    obtain ⟨j1, j2⟩ := hs1 i row fp1[i] hi (List.getElem?_eq_getElem hlt)
    obtain ⟨j3, j4⟩ := hs2 i fp1[i] row' (List.getElem?_eq_getElem hlt) hi'
    exact ⟨j3.trans j1, fun c v hc => j4 c v (j2 c v hc)⟩

/-- If at least one characteristic is sampled, the state of the generator before does not matter. -/
theorem sampleAll_seeded (rs : RandomSource K G) (chars : List (Characteristic K)) (seed : Nat)
    (fp : List CharRow) (g g' : G) (h : chars ≠ []) :
    sampleAll rs chars seed fp g = sampleAll rs chars seed fp g' := by
  cases chars with
  | nil => exact absurd rfl h
  | cons ch chars => rfl

theorem bind_map_congr {α β γ : Type _} (x : Option α) (f f' : α → Option β) (m : β → γ)
    (h : ∀ a, (f a).map m = (f' a).map m) : (x.bind f).map m = (x.bind f').map m := by
  cases x with
  | none => rfl
  | some a => exact h a

theorem simulateLoop_without_exogenous (rs : RandomSource K G) (p : RewardParams K) (sp : SimSpace K)
    (hx : sp.nExog = 0) (draws drawsWage : List (List K)) (r period : Nat)
    (agents : List (Nat × SimState)) (g g' : G) :
    (simulateLoop rs p sp draws drawsWage r period agents g).map Prod.fst =
      (simulateLoop rs p sp draws drawsWage r period agents g').map Prod.fst := by
  induction r generalizing period agents g g' with
  | zero => rfl
  | succ r ih =>
    unfold simulateLoop
    simp only [nextDenseKeys, hx, if_true]
    split
    · simp only [Option.bind_eq_bind, Option.bind_some]
      refine bind_map_congr _ _ _ _ fun cvs => bind_map_congr _ _ _ _ fun rows => ?_
      split
      · rfl
      · refine bind_map_congr _ _ _ _ fun agents' => ?_
        have h1 : ∀ x : Option (List (List (SimRow K)) × G),
            (x.bind fun y => pure (rows :: y.1, y.2)).map Prod.fst =
              (x.map Prod.fst).map (rows :: ·) := by
          intro x; cases x <;> rfl
        rw [h1, h1, ih (period + 1) agents' g g']
    · rfl

/-- Identifier and period of a row. -/
def SimRow.key (r : SimRow K) : Nat × Nat := (r.id, r.state.core.period)

/-- The parts of a successful run. -/
theorem run_parts (sim : Simulation K G P) (params : P) (g g' : G) (out : List (SimRow K))
    (h : sim.run params g = (some out, g')) :
    ∃ (sp : SimSpace K) (fp : List CharRow) (g1 : G) (states : List SimState)
      (data : List (List (SimRow K))), sim.solve params = some sp ∧
      sampleAll sim.rs (sim.chars params) sim.seed sim.input g = some (fp, g1) ∧
      fp.mapM (rowToState sim.nExp sim.nLags) = some states ∧
      simulateLoop sim.rs (sim.rewards params) sp sim.draws sim.drawsWage sim.nPeriods 0
        (states.zipIdx.map fun x => (x.2, x.1)) g1 = some (data, g') ∧ out = processOutput data := by
  unfold Simulation.run at h
  split at h
  · simp at h
  · rename_i sp hsp
    split at h
    · simp at h
    · rename_i fp g1 hfp
      split at h
      · simp at h
      · rename_i states hstates
        split at h
        · simp at h
        · rename_i data g2 hdata
          simp only [Prod.mk.injEq, Option.some.injEq] at h
          obtain ⟨rfl, rfl⟩ := h
          exact ⟨sp, fp, g1, states, data, hsp, hfp, hstates, hdata, rfl⟩

theorem rowToState_period (nExp nLags : Nat) (row : CharRow) (s : SimState)
    (h : rowToState nExp nLags row = some s) : s.core.period = 0 := by
  unfold rowToState at h
  obtain ⟨values, _, h⟩ := Option.bind_eq_some_iff.1 h
  cases h
  rfl

theorem simRow_le_total (a b : SimRow K) : SimRow.le a b ∨ SimRow.le b a := by
  unfold SimRow.le; omega

theorem simRow_le_trans (a b c : SimRow K) (h1 : SimRow.le a b) (h2 : SimRow.le b c) :
    SimRow.le a c := by
  unfold SimRow.le at *; omega

instance : Std.Total (SimRow.le (K := K)) := ⟨simRow_le_total⟩
instance : IsTrans (SimRow K) SimRow.le := ⟨simRow_le_trans⟩

theorem processOutput_perm (data : List (List (SimRow K))) :
    (processOutput data).Perm data.flatten := List.perm_insertionSort _ _

theorem processOutput_sorted (data : List (List (SimRow K))) :
    (processOutput data).Pairwise SimRow.le := List.pairwise_insertionSort _ _

theorem mem_processOutput (data : List (List (SimRow K))) (r : SimRow K) :
    r ∈ processOutput data ↔ ∃ (t i : Nat) (rows : List (SimRow K)), data[t]? = some rows ∧
      rows[i]? = some r := by
  rw [(processOutput_perm data).mem_iff, List.mem_flatten]
  constructor
  · rintro ⟨rows, h1, h2⟩
    obtain ⟨t, ht⟩ := List.mem_iff_getElem?.1 h1
    obtain ⟨i, hi⟩ := List.mem_iff_getElem?.1 h2
    exact ⟨t, i, rows, ht, hi⟩
  · rintro ⟨t, i, rows, ht, hi⟩
    exact ⟨rows, List.mem_of_getElem? ht, List.mem_of_getElem? hi⟩

/-- Everything known about a successful run. `data` are the frames of the periods. -/
theorem run_spec (sim : Simulation K G P) (hrs : sim.rs.Contract) (params : P) (g g' : G)
    (out : List (SimRow K)) (h : sim.run params g = (some out, g')) :
    ∃ (sp : SimSpace K) (fp : List CharRow) (g1 : G) (states : List SimState)
      (data : List (List (SimRow K))), sim.solve params = some sp ∧
      sampleAll sim.rs (sim.chars params) sim.seed sim.input g = some (fp, g1) ∧
      fp.mapM (rowToState sim.nExp sim.nLags) = some states ∧
      states.length = sim.input.length ∧ out = processOutput data ∧ data.length = sim.nPeriods ∧
      (∀ (t : Nat) (rows : List (SimRow K)), data[t]? = some rows →
        rows.length = sim.input.length ∧
        ∀ (i : Nat) (row : SimRow K), rows[i]? = some row →
          row.id = i ∧ row.state.core.period = t ∧
          (t = 0 → states[i]? = some row.state) ∧
          sim.draws[sim.input.length * t + i]? = some row.base ∧
          sim.drawsWage[sim.input.length * t + i]? = some row.baseWage ∧
          ∃ cvs, sp.cvs t = some cvs ∧
            simulateRow (sim.rewards params) sp t cvs row.id row.state row.base row.baseWage =
              some row) ∧
      (∀ (t : Nat) (rows rows' : List (SimRow K)), data[t]? = some rows → data[t + 1]? = some rows' →
        ∀ (i : Nat) (row row' : SimRow K), rows[i]? = some row → rows'[i]? = some row' →
          IsStep sp row row'.state) := by
  obtain ⟨sp, fp, g1, states, data, hsp, hfp, hst, hdata, hout⟩ := run_parts sim params g g' out h
  have hlen : states.length = sim.input.length := by
    rw [mapM_eq_some_length _ _ _ hst, (sampleAll_spec _ _ _ _ _ _ _ hfp).1]
  have hper : ∀ a ∈ states.zipIdx.map (fun x => (x.2, x.1)), a.2.core.period = 0 := by
    intro a ha
    obtain ⟨⟨s, i⟩, hx, rfl⟩ := List.mem_map.1 ha
    have hmem : s ∈ states := List.fst_mem_of_mem_zipIdx hx
    obtain ⟨j, hj⟩ := List.mem_iff_getElem?.1 hmem
    have hjlt : j < fp.length := by
      rw [← mapM_eq_some_length _ _ _ hst]; exact (List.getElem?_eq_some_iff.1 hj).1
    have := mapM_getElem? _ _ _ hst j _ (List.getElem?_eq_getElem hjlt)
    rw [hj] at this
    exact rowToState_period _ _ _ _ this.symm
  obtain ⟨k1, k2, k3, k4⟩ := simulateLoop_spec sim.rs hrs _ _ _ _ _ _ _ _ _ _ hper hdata
  refine ⟨sp, fp, g1, states, data, hsp, hfp, hst, hlen, hout, k1, fun t rows ht => ?_, k4⟩
  obtain ⟨l1, l2⟩ := k3 t rows ht
  have hl : rows.length = sim.input.length := by
    have := congrArg List.length l1
    simpa [hlen] using this
  refine ⟨hl, fun i row hi => ?_⟩
  obtain ⟨m1, m2, m3, m4⟩ := l2 i row hi
  have hid : row.id = i := by
    have h1 : (rows.map (·.id))[i]? = some row.id := by rw [List.getElem?_map, hi]; rfl
    rw [l1, List.getElem?_map, List.getElem?_map, List.getElem?_zipIdx] at h1
    cases hs : states[i]? with
    | none => rw [hs] at h1; simp at h1
    | some s => rw [hs] at h1; simpa using h1.symm
  refine ⟨hid, by omega, fun h0 => ?_, ?_, ?_, ?_⟩
  · subst h0
    have h1 := k2 rows ht
    have h2 : (rows.map fun x => (x.id, x.state))[i]? = some (row.id, row.state) := by
      rw [List.getElem?_map, hi]; rfl
    rw [h1, List.getElem?_map, List.getElem?_zipIdx] at h2
    cases hs : states[i]? with
    | none => rw [hs] at h2; simp at h2
    | some s => rw [hs] at h2; simp at h2; rw [h2.2]
  · simpa [hlen] using m2
  · simpa [hlen] using m3
  · simpa using m4

end Respy
