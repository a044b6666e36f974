import Verif.Props.ProcessModel
import Verif.Props.Creation
import Verif.Props.FormerCode

/-!
# C105: models with the filters of Keane and Wolpin are solved

With the filters of Keane and Wolpin allowed choices do not lead to states which are filtered out, and every period has a
state. So the conditions under which models are solved, simulated and estimated (C82–C84) hold for models with these
filters.
-/

namespace Respy

/-- **C105.** In every state but those of the last period, all choices which have not reached their maximum lead to a
state of the filtered state space. -/
theorem C105_filtered_spaces_closed (spec : CoreSpec) (wf : spec.WF) (nWage : Nat) (kw : spec.KeaneWolpin nWage)
    (core : List CoreState) (hc : createCore spec = some core) (s : CoreState) (hs : s ∈ core)
    (ht : s.period + 1 < spec.nPeriods) (code : Nat) (hcode : code < spec.nChoices)
    (hadm : defaultInadmissible spec s code = false) : lawOfMotion s code ∈ core := by
  have wf' : ({ spec with filters := [] } : CoreSpec).WF := ⟨wf.1, wf.2, wf.3, wf.4, wf.5, wf.6⟩
  have hl : spec.nLags = 1 := kw.lags
  obtain ⟨core', hc', _⟩ := C01_core_nodup_sorted _ wf'
  have hs' : s ∈ core' := by
    obtain ⟨h1, ⟨init, extra, h2, h3, h4, h5, _⟩, h6⟩ := (C05_core_mem_iff spec wf (by omega) core hc s).1 hs
    exact (C05_core_mem_iff _ wf' (by show spec.nLags ≤ 1; omega) core' hc' s).2
      ⟨h1, ⟨init, extra, h2, h3, h4, h5, by simp⟩, h6⟩
  have hnext := C02_closed_under_admissible_choices _ wf' (by show spec.nLags ≤ 1; omega) rfl core' hc' s hs' ht code
    hcode (by simpa [defaultInadmissible] using hadm)
  have hle := ((C05_core_mem_iff _ wf' (by show spec.nLags ≤ 1; omega) core' hc' _).1 hnext).2.2.1
  obtain ⟨_, _, lag, _, g4, init, extra, g5, g6, g7, g8, g9⟩ := (mem_filtered_core spec wf nWage kw core hc s).1 hs
  refine (mem_filtered_core spec wf nWage kw core hc _).2 ⟨ht, hle, code, hcode, ?_, init, updateExp extra code, g5,
    by rw [length_updateExp, g6], ?_, ?_, KeptState.step g6 g8 code⟩
  · simp [lawOfMotion, updateLags, g4]
  · show updateExp s.exp code = _
    rw [g7, zipWith_updateExp]
  · have := sum_updateExp_le extra code
    show _ ≤ s.period + 1
    omega

/-- **C105.** Every period has a state if some starting level of each choice does not exceed its maximum. -/
theorem C105_filtered_periods_covered (spec : CoreSpec) (wf : spec.WF) (nWage : Nat) (kw : spec.KeaneWolpin nWage)
    (hstart : List.Forall₂ (fun l m => ∃ x ∈ l, x ≤ m) spec.starts spec.maxExp) (core : List CoreState)
    (hc : createCore spec = some core) (t : Nat) (ht : t < spec.nPeriods) : ∃ s ∈ core, s.period = t := by
  obtain ⟨init, hinit, hle⟩ : ∃ init : List Nat, List.Forall₂ (· ∈ ·) init spec.starts ∧
      List.Forall₂ (· ≤ ·) init spec.maxExp := by
    clear kw wf hc
    generalize spec.starts = ss at hstart ⊢
    generalize spec.maxExp = ms at hstart ⊢
    induction hstart with
    | nil => exact ⟨[], .nil, .nil⟩
    | cons h _ ih =>
      obtain ⟨x, h1, h2⟩ := h
      obtain ⟨init, h3, h4⟩ := ih
      exact ⟨x :: init, .cons h1 h3, .cons h2 h4⟩
  have hhome := kw.home
  have hw := kw.wage
  have hzero := zipWith_add_zero init (List.replicate spec.starts.length 0) (by simp [hinit.length_eq]) (by simp)
  refine ⟨⟨t, init, [some spec.starts.length]⟩, (mem_filtered_core spec wf nWage kw core hc _).2 ⟨ht, hle, _, hhome, rfl,
    init, List.replicate spec.starts.length 0, hinit, by simp, hzero.symm, by simp, ⟨fun _ => hw, ?_, ?_, ?_⟩⟩, rfl⟩
  · intro h c hc' he
    rw [List.getElem?_replicate, if_pos hc'] at he
    have := Option.some.inj he
    dsimp only at h this
    omega
  · intro h _
    simp only [List.sum_replicate, smul_eq_mul, Nat.mul_zero]
    dsimp only at h ⊢
    omega
  · intro _ h
    exact absurd h (Nat.lt_irrefl _)

/-- **C105.** The state space is created for any dense dimensions and restrictions under which every state has a dense
key, if choices are excluded as soon as their experience has reached its maximum. -/
theorem C105_filtered_spaces_created (b : BuildSpec) (core : List CoreState) (hg : b.Grouped core) (nWage : Nat)
    (kw : b.core.KeaneWolpin nWage)
    (hsets : ∀ s ∈ core, ∀ d ∈ b.denseIndices, ∀ a : Nat, (b.choiceSetAt d s)[a]? = some true →
      a < b.core.nChoices ∧ defaultInadmissible b.core s a = false) (hx : b.exogLevels = []) :
    b.WF core ∧ ∃ bt, buildSpace b = some bt := by
  have hclosed : ∀ s ∈ core, s.period + 1 < b.core.nPeriods → ∀ d ∈ b.denseIndices, ∀ a : Nat,
      (b.choiceSetAt d s)[a]? = some true → lawOfMotion s a ∈ core := by
    intro s hs ht d hd a ha
    obtain ⟨h1, h2⟩ := hsets s hs d hd a ha
    exact C105_filtered_spaces_closed b.core hg.spec nWage kw core hg.created s hs ht a h1 h2
  exact ⟨⟨hg.spec, hg.created, hg.periods, hg.covered, hg.several, hg.compatible, hg.distinct, hclosed⟩,
    (C86_created_iff_closed b core hg (Or.inl hx)).2 hclosed⟩

variable {env : ProcessEnv} {m : UserModel} {p : Processed} {ev : FormulaEval} {core : List CoreState}

/-- **C105.** Accepted models whose filters exclude the same states as those of Keane and Wolpin are supported: they are
solved (C82), samples are drawn from them (C83) and their likelihood is computed (C84). -/
theorem C105_filtered_models_supported (hp : processModel env m = some p)
    (hs : p.Described m ev core) (hcore : createCore (p.buildSpec ev).core = some core) (nWage : Nat)
    (kw : (p.buildSpec ev).core.KeaneWolpin nWage) : p.Supported m ev core := by
  refine { toDescribed := hs, closed := Or.inr ?_ }
  intro s hmem ht d hd a c hc hall
  obtain ⟨covs, h⟩ := processModel_from env m p hp
  have hlt : a < p.choices.choices.length := (List.getElem?_eq_some_iff.1 hc).1
  refine C105_filtered_spaces_closed _ (hs.spec h) nWage kw core hcore s hmem ht a hlt ?_
  by_contra hne
  have hne : defaultInadmissible (p.buildSpec ev).core s a = true := by simpa using hne
  unfold defaultInadmissible at hne
  split at hne
  · next start mx e h1 h2 h3 =>
    split at hne
    · next f hf' =>
      simp only [Processed.buildSpec, List.getElem?_map, Option.map_eq_some_iff] at h1 h2
      obtain ⟨x, hx, rfl⟩ := h1
      obtain ⟨y, hy, rfl⟩ := h2
      rw [hx] at hy; cases hy
      have hw : a < p.choices.wExp.length := by
        rw [← h.experience_length]; exact (List.getElem?_eq_some_iff.1 hx).1
      have hcode := h.code a _ (List.getElem?_eq_getElem hw)
      rw [hc] at hcode
      simp only [Option.some.injEq] at hcode
      obtain ⟨g1, g2⟩ := (defaultFormula_eval _ _ _ _ _ hf').1 hne
      exact hall.2 a x.1 x.2 e (by rw [List.getElem?_eq_getElem hw, hcode]) hx h3 g1 g2
    · cases hne
  · cases hne

end Respy
