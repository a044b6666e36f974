import Verif.Lemmas.SimulateSolved
import Verif.Lemmas.SamplingTotal

/-! Helper lemmas: a run of the simulation of a solved model. -/

set_option linter.unusedSectionVars false

namespace Respy

variable {K : Type} [Field K] [LinearOrder K] [IsStrictOrderedRing K] {G P : Type}

theorem BuildSpec.DenseLevels.hasIndex {b : BuildSpec} {levels : List (List Nat)}
    (h : b.DenseLevels levels) (dense : List Nat) (hd : List.Forall₂ (· ∈ ·) dense levels) :
    ∃ d, b.HasIndex dense d := by
  unfold BuildSpec.DenseLevels at h
  unfold BuildSpec.HasIndex
  cases hg : b.grid with
  | none => exact ⟨none, rfl⟩
  | some grid =>
    rw [hg] at h
    simp only at h ⊢
    rw [← mem_product, ← h] at hd
    obtain ⟨i, hi⟩ := List.mem_iff_getElem?.1 hd
    exact ⟨some i, i, rfl, hi⟩

/-- Initial values are a state of the model. -/
theorem initial_state_mem (b : BuildSpec) (core : List CoreState) (hc : createCore b.core = some core)
    (hspec : b.core.WF) (hb : b.StartsInCore)
    (levels : List (List Nat)) (values : List Nat)
    (hv : List.Forall₂ (· ∈ ·) values (b.initialLevels levels)) :
    (⟨0, values.take b.core.starts.length,
      ((values.drop b.core.starts.length).take b.core.nLags).map some⟩ : CoreState) ∈ core ∧
    List.Forall₂ (· ∈ ·) (values.drop (b.core.starts.length + b.core.nLags)) levels := by
  obtain ⟨hlags, hfil, hper, hmax⟩ := hb
  unfold BuildSpec.initialLevels at hv
  rw [List.append_assoc] at hv
  have h1 := List.forall₂_take b.core.starts.length hv
  have h2 := List.forall₂_drop b.core.starts.length hv
  rw [List.take_left] at h1
  rw [List.drop_left] at h2
  have h3 := List.forall₂_take b.core.nLags h2
  have h4 := List.forall₂_drop b.core.nLags h2
  rw [List.take_left' (by simp)] at h3
  rw [List.drop_left' (by simp), List.drop_drop] at h4
  refine ⟨?_, h4⟩
  have hl2 : (((values.drop b.core.starts.length).take b.core.nLags).map some).length = b.core.nLags := by
    rw [List.length_map, h3.length_eq]; simp
  have hl3 : ∀ l ∈ ((values.drop b.core.starts.length).take b.core.nLags).map some,
      ∃ c, c < b.core.nChoices ∧ l = some c := by
    intro l hl
    obtain ⟨c, hcm, rfl⟩ := List.mem_map.1 hl
    obtain ⟨i, hi⟩ := List.mem_iff_getElem?.1 hcm
    obtain ⟨r, hr, hcr⟩ := forall₂_getElem? h3 i c hi
    obtain ⟨_, rfl⟩ := List.mem_replicate.1 (List.mem_of_getElem? hr)
    exact ⟨c, by simpa using hcr, rfl⟩
  rw [C05_core_mem_iff b.core hspec hlags core hc]
  refine ⟨hper, ⟨values.take b.core.starts.length, List.replicate b.core.starts.length 0, h1, by simp,
    ?_, by simp, fun f hf => hfil f hf _ hl2 hl3⟩, ?_, hl2, hl3⟩
  · have hl : (values.take b.core.starts.length).length = b.core.starts.length := h1.length_eq
    simp only
    generalize values.take b.core.starts.length = xs at hl ⊢
    rw [← hl]
    clear hl h1
    induction xs with
    | nil => rfl
    | cons x xs ih => simp [List.replicate_succ, ← ih]
  · simp only
    generalize values.take b.core.starts.length = xs at h1 ⊢
    clear h2 h3 h4 hv
    generalize b.core.starts = ss at h1 hmax
    generalize b.core.maxExp = ms at hmax ⊢
    induction h1 generalizing ms with
    | nil => cases hmax; exact .nil
    | cons hx _ ih =>
      cases hmax with
      | cons hm hrest => exact .cons (hm _ hx) (ih _ hrest)

theorem Built.Solved.run {b : BuildSpec} {core : List CoreState} {bt : Built} {par : ParamObjects K}
    {w m : Option Nat → CoreState → Nat → K}
    {future : Option Nat → CoreState → List (Option Nat × K)}
    (hs : bt.Solved b core par w m future) (hspec : b.core.WF) (hb : b.StartsInCore)
    (levels : List (List Nat)) (hlev : b.DenseLevels levels) {ev : Dict Nat (List K)}
    (hev : SameShape (initialValues bt.space) ev) {V : Option Nat → CoreState → K}
    (hV : ∀ d ∈ b.denseIndices, ∀ s ∈ core, bt.ValueAt ev d s (V d s)) (vc ko : List Nat → List Nat)
    (hord : (bt.simSpace b par ev vc ko).Orders) (sim : Simulation K G P) (params : P)
    (hsolve : sim.solve params = some (bt.simSpace b par ev vc ko))
    (hfits : sim.Fits b core levels params) (g : G) :
    ∃ out g', sim.run params g = (some out, g') ∧
      (∀ row ∈ out, RowFollows b core (sim.rewards params) w m future V row) ∧
      ∀ row ∈ out, ∀ row' ∈ out, row'.id = row.id →
        row'.state.core.period = row.state.core.period + 1 → StepFollows b future row row' := by
  obtain ⟨fp, g1, h1, h2⟩ := sampleAll_total sim.rs hfits.source (sim.chars params)
    (fun ch hc => (hfits.chars ch hc).1) sim.seed sim.input (b.initialLevels levels) hfits.input
    (fun ch hc => (hfits.chars ch hc).2) g
  obtain ⟨hl, hkeep⟩ := sampleAll_spec _ _ _ _ _ _ _ h1
  have hknown : ∀ row ∈ fp, ∀ c < (b.initialLevels levels).length, row[c]? ≠ some none := by
    intro row hrow c hc hnone
    obtain ⟨i, hi⟩ := List.mem_iff_getElem?.1 hrow
    have hlt : i < sim.input.length := by rw [← hl]; exact (List.getElem?_eq_some_iff.1 hi).1
    obtain ⟨k1, k2⟩ := hkeep i _ row (List.getElem?_eq_getElem hlt) hi
    cases hv : sim.input[i][c]? with
    | none =>
      have := (List.getElem?_eq_some_iff.1 hnone).1
      rw [k1] at this
      exact absurd (List.getElem?_eq_none_iff.1 hv) (by omega)
    | some x =>
      cases x with
      | none =>
        obtain ⟨ch, hch, rfl⟩ := hfits.complete _ (List.getElem_mem hlt) c hc hv
        exact (h2 row hrow).2 ch hch hnone
      | some v => rw [k2 _ _ hv] at hnone; simp at hnone
  obtain ⟨states, hst, hstl, hstv⟩ := mapM_option_exists fp (rowToState sim.nExp sim.nLags) (by
    intro row hrow
    obtain ⟨values, _, _, hv⟩ := rowToState_total _ row (h2 row hrow).1 (hknown row hrow) sim.nExp sim.nLags
    exact ⟨_, hv⟩)
  have hgood : ∀ s ∈ states, s.core ∈ core ∧ s.core.period = 0 ∧ ∃ d, b.HasIndex s.dense d := by
    intro s hs'
    obtain ⟨i, hi⟩ := List.mem_iff_getElem?.1 hs'
    have hlt : i < fp.length := by rw [← hstl]; exact (List.getElem?_eq_some_iff.1 hi).1
    obtain ⟨s', e1, e2⟩ := hstv i _ (List.getElem?_eq_getElem hlt)
    rw [hi] at e1; cases e1
    obtain ⟨values, v1, _, v3⟩ := rowToState_total _ fp[i] (h2 _ (List.getElem_mem hlt)).1
      (hknown _ (List.getElem_mem hlt)) sim.nExp sim.nLags
    rw [e2, Option.some.injEq] at v3
    rw [hfits.nExp, hfits.nLags] at v3
    subst v3
    obtain ⟨m1, m2⟩ := initial_state_mem b core hs.wf.created hspec hb levels values v1
    exact ⟨m1, rfl, hlev.hasIndex _ m2⟩
  obtain ⟨tr, hsnd⟩ := hs.sound
  obtain ⟨draws, hfit⟩ := hs.fit
  have hal : (states.zipIdx.map fun x => (x.2, x.1)).length = sim.input.length := by
    simp [hstl, hl]
  obtain ⟨data, g', hd1, hd2, hd3⟩ := hsnd.simulation hs.wf hs.dpc hs.nodup hfit hs.future_mem hs.cont hev hV
    hfits.rewards vc ko hord (fun h => hs.poss h ev vc ko) (fun h => hs.covs h ev vc ko)
    (hs.next ev vc ko) sim.rs hfits.source sim.draws sim.drawsWage hfits.drawsRow hfits.drawsWageRow
    sim.nPeriods hfits.periods (states.zipIdx.map fun x => (x.2, x.1))
    (by
      rw [← List.length_pos_iff, hal]
      exact List.length_pos_iff.2 hfits.individuals)
    (by rw [hal]; exact hfits.draws) (by rw [hal]; exact hfits.drawsWage)
    (by
      intro a ha
      obtain ⟨⟨s, i⟩, hx, rfl⟩ := List.mem_map.1 ha
      exact hgood s (List.fst_mem_of_mem_zipIdx hx)) g1
  have hrun : sim.run params g = (some (processOutput data), g') := by
    unfold Simulation.run
    simp only [hsolve, h1, hst, hd1]
  refine ⟨processOutput data, g', hrun, ?_, ?_⟩
  · intro row hrow
    obtain ⟨t, i, rows, ht, hi⟩ := (mem_processOutput data row).1 hrow
    exact hd2 t rows ht row (List.mem_of_getElem? hi)
  · intro row hrow row' hrow' hid hp
    obtain ⟨t, i, rows, ht, hi⟩ := (mem_processOutput data row).1 hrow
    obtain ⟨t', i', rows', ht', hi'⟩ := (mem_processOutput data row').1 hrow'
    obtain ⟨q1, q2, q3, q4⟩ := simulateLoop_spec sim.rs hfits.source _ _ _ _ _ _ _ _ _ _ (by
      intro a ha
      obtain ⟨⟨s, i⟩, hx, rfl⟩ := List.mem_map.1 ha
      exact (hgood s (List.fst_mem_of_mem_zipIdx hx)).2.1) hd1
    obtain ⟨a1, a2⟩ := q3 t rows ht
    obtain ⟨b1, b2⟩ := q3 t' rows' ht'
    have hidx : ∀ (rws : List (SimRow K)), rws.map (·.id) =
        (states.zipIdx.map fun x => (x.2, x.1)).map Prod.fst → ∀ (j : Nat) r, rws[j]? = some r → r.id = j := by
      intro rws he j r hj
      have e1 : (rws.map (·.id))[j]? = some r.id := by rw [List.getElem?_map, hj]; rfl
      rw [he, List.map_map] at e1
      rw [List.getElem?_map, List.getElem?_zipIdx] at e1
      cases hsj : states[j]? with
      | none => rw [hsj] at e1; simp at e1
      | some s => rw [hsj] at e1; simp at e1; exact e1.symm
    have i1 := hidx rows a1 i row hi
    have i2 := hidx rows' b1 i' row' hi'
    have p1 := (a2 i row hi).1
    have p2 := (b2 i' row' hi').1
    have : t' = t + 1 := by omega
    subst this
    have : i' = i := by omega
    subst this
    exact hd3 t rows rows' ht ht' i' row row' hi hi'

end Respy
