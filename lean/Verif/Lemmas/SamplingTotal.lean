import Verif.Lemmas.Simulate2
import Verif.Lemmas.MapM
import Verif.Spec.SimulationInput

/-! Helper lemmas: sampling of initial characteristics succeeds and fills all gaps with levels. -/

set_option linter.unusedSectionVars false

namespace Respy

variable {K : Type} [Field K] [LinearOrder K] [IsStrictOrderedRing K] {G : Type}

theorem randomChoice_total (levels : List Nat) (probs : List K) (u : K)
    (hl : levels.length = probs.length) (hs : SumsToOne probs) :
    ∃ x ∈ levels, randomChoice levels probs u = some x := by
  cases h : randomChoice levels probs u with
  | none => exact absurd hs ((C29_rejected_iff levels probs u hl).1 h)
  | some x =>
    refine ⟨x, ?_, rfl⟩
    unfold randomChoice at h
    obtain ⟨cdf, _, h⟩ := Option.bind_eq_some_iff.1 h
    exact List.mem_of_getElem? h

theorem rowAllowed_fill (allowed : List (List Nat)) (row : CharRow) (c v : Nat)
    (h : RowAllowed allowed row) (hv : ∀ l, allowed[c]? = some l → v ∈ l) :
    RowAllowed allowed (fillColumn c row v) := by
  unfold RowAllowed at h ⊢
  rw [List.forall₂_iff_get] at h ⊢
  obtain ⟨h1, h2⟩ := h
  have hl : (fillColumn c row v).length = row.length := by simp [fillColumn]
  refine ⟨hl.trans h1, ?_⟩
  intro i hi hi' w hw
  have hir : i < row.length := by omega
  have hg : (fillColumn c row v)[i]? = some (some w) := by
    rw [List.getElem?_eq_getElem hi]; rw [List.get_eq_getElem] at hw; rw [hw]
  rw [fillColumn, List.getElem?_modify, List.getElem?_eq_getElem hir] at hg
  by_cases hc : c = i
  · subst hc
    simp only [if_true, Option.map_eq_map, Option.map_some, Option.some.injEq] at hg
    cases hr : row[c] with
    | some x =>
      rw [hr] at hg
      exact h2 c hir hi' w (by rw [List.get_eq_getElem, hr]; simpa using hg)
    | none =>
      rw [hr] at hg
      simp only [Option.some.injEq] at hg
      subst hg
      exact hv _ (by rw [List.get_eq_getElem]; exact List.getElem?_eq_getElem hi')
  · simp only [if_neg hc, Option.map_eq_map, Option.map_some, Option.some.injEq] at hg
    exact h2 i hir hi' w (by rw [List.get_eq_getElem]; exact hg)

theorem fillColumn_known (row : CharRow) (c v : Nat) : (fillColumn c row v)[c]? ≠ some none := by
  rw [fillColumn, List.getElem?_modify]
  cases h : row[c]? with
  | none => simp
  | some x => cases x <;> simp

theorem sampleCharacteristic_total (rs : RandomSource K G) (hrs : rs.Contract) (ch : Characteristic K)
    (hch : ch.WF) (seed : Nat) (fp : List CharRow) (allowed : List (List Nat))
    (hfp : ∀ row ∈ fp, RowAllowed allowed row)
    (hl : ∀ l, allowed[ch.column]? = some l → ∀ v ∈ ch.levels, v ∈ l) :
    ∃ fp' g, sampleCharacteristic rs ch seed fp = some (fp', g) ∧
      ∀ row ∈ fp', RowAllowed allowed row ∧ row[ch.column]? ≠ some none := by
  have hus := hrs.uniform_length (rs.seed seed) (ch.probs fp).length
  obtain ⟨values, hv, hvl, hval⟩ := mapM_option_exists
    ((ch.probs fp).zip (rs.uniform (rs.seed seed) (ch.probs fp).length).1)
    (fun x => randomChoice ch.levels x.1 x.2) (by
      intro x hx
      obtain ⟨h1, h2⟩ := hch.weights fp x.1 (List.of_mem_zip hx).1
      obtain ⟨y, _, hy⟩ := randomChoice_total ch.levels x.1 x.2 h1.symm h2
      exact ⟨y, hy⟩)
  have hvl' : values.length = fp.length := by
    rw [hvl, List.length_zip, hus, Nat.min_self, hch.rows]
  have hmem : ∀ v ∈ values, v ∈ ch.levels := by
    intro v hv'
    obtain ⟨i, hi⟩ := List.mem_iff_getElem?.1 hv'
    have hil : i < ((ch.probs fp).zip (rs.uniform (rs.seed seed) (ch.probs fp).length).1).length := by
      rw [← hvl]; exact (List.getElem?_eq_some_iff.1 hi).1
    obtain ⟨y, hy1, hy2⟩ := hval i _ (List.getElem?_eq_getElem hil)
    rw [hi] at hy1; cases hy1
    unfold randomChoice at hy2
    obtain ⟨cdf, _, h⟩ := Option.bind_eq_some_iff.1 hy2
    exact List.mem_of_getElem? h
  refine ⟨List.zipWith (fillColumn ch.column) fp values,
    (rs.uniform (rs.seed seed) (ch.probs fp).length).2, ?_, ?_⟩
  · unfold sampleCharacteristic
    simp only [hv, Option.bind_eq_bind, Option.bind_some, hvl', if_true]
    rfl
  · intro row hrow
    obtain ⟨i, hi⟩ := List.mem_iff_getElem?.1 hrow
    rw [List.getElem?_zipWith] at hi
    split at hi
    · rename_i r v h1 h2
      simp only [Option.some.injEq] at hi
      subst hi
      exact ⟨rowAllowed_fill _ _ _ _ (hfp _ (List.mem_of_getElem? h1))
        fun l hal => hl l hal v (hmem v (List.mem_of_getElem? h2)), fillColumn_known _ _ _⟩
    · cases hi

theorem sampleAll_total (rs : RandomSource K G) (hrs : rs.Contract) (chars : List (Characteristic K))
    (hch : ∀ ch ∈ chars, ch.WF) (seed : Nat) (fp : List CharRow) (allowed : List (List Nat))
    (hfp : ∀ row ∈ fp, RowAllowed allowed row)
    (hl : ∀ ch ∈ chars, ∀ l, allowed[ch.column]? = some l → ∀ v ∈ ch.levels, v ∈ l) (g : G) :
    ∃ fp' g', sampleAll rs chars seed fp g = some (fp', g') ∧
      ∀ row ∈ fp', RowAllowed allowed row ∧ ∀ ch ∈ chars, row[ch.column]? ≠ some none := by
  induction chars generalizing seed fp g with
  | nil => exact ⟨fp, g, rfl, fun row hr => ⟨hfp row hr, by simp⟩⟩
  | cons ch chars ih =>
    obtain ⟨fp1, g1, h1, h2⟩ := sampleCharacteristic_total rs hrs ch (hch ch (by simp)) seed fp allowed
      hfp (hl ch (by simp))
    obtain ⟨fp2, g2, h3, h4⟩ := ih (fun c hc => hch c (by simp [hc])) (seed + 1) fp1
      (fun row hr => (h2 row hr).1) (fun c hc => hl c (by simp [hc])) g1
    refine ⟨fp2, g2, ?_, ?_⟩
    · unfold sampleAll
      rw [h1]
      simpa using h3
    · intro row hrow
      obtain ⟨k1, k2⟩ := h4 row hrow
      refine ⟨k1, fun c hc => ?_⟩
      rcases List.mem_cons.1 hc with rfl | hc
      · obtain ⟨i, hi⟩ := List.mem_iff_getElem?.1 hrow
        obtain ⟨m1, m2⟩ := sampleAll_spec _ _ _ _ _ _ _ h3
        have hlt : i < fp1.length := by rw [← m1]; exact (List.getElem?_eq_some_iff.1 hi).1
        obtain ⟨m3, m4⟩ := m2 i _ row (List.getElem?_eq_getElem hlt) hi
        obtain ⟨_, n2⟩ := h2 fp1[i] (List.getElem_mem hlt)
        intro hnone
        cases hv : fp1[i][c.column]? with
        | none =>
          have := (List.getElem?_eq_some_iff.1 hnone).1
          rw [m3] at this
          exact absurd (List.getElem?_eq_none_iff.1 hv) (by omega)
        | some x =>
          cases x with
          | none => exact n2 hv
          | some v => rw [m4 _ _ hv] at hnone; simp at hnone
      · exact k2 c hc

theorem mapM_id_map_some {α : Type _} (l : List α) : (l.map some).mapM id = some l := by
  induction l with
  | nil => rfl
  | cons v vs ih => rw [List.map_cons, List.mapM_cons, ih]; rfl

/-- A completed row. -/
theorem rowToState_total (allowed : List (List Nat)) (row : CharRow) (h : RowAllowed allowed row)
    (hk : ∀ c < allowed.length, row[c]? ≠ some none) (nExp nLags : Nat) :
    ∃ values, List.Forall₂ (· ∈ ·) values allowed ∧ row = values.map some ∧
      rowToState nExp nLags row = some
        ⟨⟨0, values.take nExp, ((values.drop nExp).take nLags).map some⟩, values.drop (nExp + nLags)⟩ := by
  have hval : ∃ values, List.Forall₂ (· ∈ ·) values allowed ∧ row = values.map some := by
    unfold RowAllowed at h
    induction h with
    | nil => exact ⟨[], .nil, rfl⟩
    | cons hx hrest ih =>
      rename_i x l row allowed
      obtain ⟨vs, h1, h2⟩ := ih fun c hc => by
        have := hk (c + 1) (by simpa using hc)
        simpa using this
      cases x with
      | none => exact absurd (by simp) (hk 0 (by simp))
      | some v => exact ⟨v :: vs, .cons (hx v rfl) h1, by rw [h2]; rfl⟩
  obtain ⟨values, h1, h2⟩ := hval
  refine ⟨values, h1, h2, ?_⟩
  unfold rowToState
  rw [h2, mapM_id_map_some]
  rfl

end Respy
