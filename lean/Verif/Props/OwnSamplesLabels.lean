import Verif.Model.SampleAsData
import Verif.Lemmas.Likelihood
import Verif.Lemmas.MapM

/-!
# C99: labels of simulated samples

The labels which `simulate` writes are read by the criterion function as the codes which they stand for. Samples of
models with restrictions on types are rejected.
-/

namespace Respy

/-- The labels of a model are those of its dense columns: no label stands for two codes, and each column other than the
type belongs to one observable. -/
structure LabelParas.Unambiguous (l : LabelParas) (nTypes nStatic : Nat) : Prop where
  choices : l.choices.Nodup
  labels : ∀ o ∈ l.observables, o.2.Nodup
  type : l.typePosition = if 2 ≤ nTypes then some nStatic else none
  columns : (l.observables.map Prod.fst).Perm ((List.range (l.observables.length + if 2 ≤ nTypes then 1 else 0)).filter
    fun p => decide (some p ≠ l.typePosition))

theorem codeOf_getElem (labels : List Str) (h : labels.Nodup) (i : Nat) (hi : i < labels.length) :
    codeOf labels labels[i]? = some i := by
  rw [List.getElem?_eq_getElem hi]
  unfold codeOf
  rw [Option.bind_some, List.idxOf?_eq_map_finIdxOf?_val, Option.map_eq_some_iff]
  refine ⟨⟨i, hi⟩, ?_, rfl⟩
  rw [List.finIdxOf?_eq_some_iff]
  refine ⟨rfl, fun j hj he => ?_⟩
  have := (List.Nodup.getElem_inj_iff h).1 he
  have hlt : j.1 < i := hj
  omega

theorem filter_range_eraseIdx (x : List Nat) (k : Nat) (hk : k < x.length) :
    ((List.range x.length).filter fun p => decide (some p ≠ some k)).mapM (fun p => x[p]?) = some (x.eraseIdx k) := by
  have h1 : (List.range x.length).filter (fun p => decide (some p ≠ some k)) =
      List.range k ++ List.range' (k + 1) (x.length - (k + 1)) := by
    have h2 : List.range x.length = List.range k ++ (k :: List.range' (k + 1) (x.length - (k + 1))) := by
      have : x.length = k + (x.length - (k + 1) + 1) := by omega
      conv_lhs => rw [this]
      rw [List.range_eq_range', List.range_eq_range', ← List.range'_append_1, Nat.zero_add, List.range'_succ]
    rw [h2, List.filter_append, List.filter_cons_of_neg (by simp)]
    congr 1
    · exact List.filter_eq_self.2 fun a ha => by
        have := List.mem_range.1 ha
        simp only [ne_eq, Option.some.injEq, decide_eq_true_eq]
        omega
    · exact List.filter_eq_self.2 fun a ha => by
        obtain ⟨i, _, rfl⟩ := List.mem_range'.1 ha
        simp only [ne_eq, Option.some.injEq, decide_eq_true_eq]
        omega
  rw [h1, mapM_eq_some_iff, List.eraseIdx_eq_take_drop_succ]
  refine List.rel_append (R := fun p c => x[p]? = some c) ?_ ?_
  · rw [List.forall₂_iff_get]
    refine ⟨by simp [hk.le], fun i h1 h2 => ?_⟩
    simp only [List.length_take, lt_inf_iff] at h2
    simp [h2.2]
  · rw [List.forall₂_iff_get]
    refine ⟨by simp, fun i h1 h2 => ?_⟩
    simp only [List.length_drop] at h2
    simp only [List.get_eq_getElem, List.getElem_range', List.getElem_drop]
    rw [Nat.one_mul, List.getElem?_eq_getElem]

theorem find?_zip_map {β γ : Type _} (l : List (Nat × β)) (f : Nat × β → γ) (h : (l.map Prod.fst).Nodup)
    (o : Nat × β) (ho : o ∈ l) : (l.zip (l.map f)).find? (fun ov => ov.1.1 == o.1) = some (o, f o) := by
  induction l with
  | nil => cases ho
  | cons a as ih =>
    rw [List.map_cons, List.nodup_cons] at h
    rw [List.map_cons, List.zip_cons_cons]
    rcases List.mem_cons.1 ho with rfl | ho
    · rw [List.find?_cons_of_pos (by simp)]
    · have hne : a.1 ≠ o.1 := fun he => h.1 (he ▸ List.mem_map_of_mem ho)
      rw [List.find?_cons_of_neg (by simpa using hne)]
      exact ih h.2 ho

/-- **C99.** A row of a simulated sample with its labels is read as the same row with its codes, without the type. -/
theorem C99_labels_are_read_back (l : LabelParas) (nTypes nStatic : Nat) (hl : l.Unambiguous nTypes nStatic)
    (r : SimRow ℝ) (hchoice : r.outcome.choice < l.choices.length)
    (hlags : ∀ x ∈ r.state.core.lags, ∃ c < l.choices.length, x = some c)
    (hdense : r.state.dense.length = l.observables.length + if 2 ≤ nTypes then 1 else 0)
    (hstatic : 2 ≤ nTypes → nStatic ≤ l.observables.length)
    (hcodes : ∀ o ∈ l.observables, ∀ c, r.state.dense[o.1]? = some c → c < o.2.length) :
    l.observation (l.row r) = some (r.observation nTypes nStatic) := by
  have h1 : codeOf l.choices (l.row r).choice = some r.outcome.choice := codeOf_getElem _ hl.choices _ hchoice
  have h2 : (l.row r).lags.mapM (codeOf l.choices) = some (r.state.core.lags.map fun x => x.getD 0) := by
    unfold LabelParas.row
    rw [mapM_eq_some_iff, List.forall₂_map_left_iff]
    rw [List.forall₂_map_right_iff]
    refine List.forall₂_same.2 fun x hx => ?_
    obtain ⟨c, hc, rfl⟩ := hlags x hx
    exact codeOf_getElem _ hl.choices _ hc
  have h3 : (r.state.core.lags.map fun x => x.getD 0).map some = r.state.core.lags := by
    rw [List.map_map]
    conv_rhs => rw [← List.map_id r.state.core.lags]
    refine List.map_congr_left fun x hx => ?_
    obtain ⟨c, _, rfl⟩ := hlags x hx
    rfl
  have hnd : (l.observables.map Prod.fst).Nodup := hl.columns.nodup_iff.2 (List.nodup_range.filter _)
  have h4 : l.denseCodes (l.row r).observables = ((List.range r.state.dense.length).filter
      fun p => decide (some p ≠ l.typePosition)).mapM fun p => r.state.dense[p]? := by
    have hsome : l.typePosition.isSome = decide (2 ≤ nTypes) := by
      rw [hl.type]
      split <;> simp [*]
    unfold LabelParas.denseCodes
    rw [hsome]
    simp only [decide_eq_true_eq]
    rw [hdense]
    refine mapM_congr _ _ _ fun p hp => ?_
    obtain ⟨o, ho, rfl⟩ := List.mem_map.1 (hl.columns.mem_iff.2 hp)
    have hlt : o.1 < r.state.dense.length := by
      rw [hdense]
      exact List.mem_range.1 (List.mem_filter.1 hp).1
    have hfind : (l.observables.zip (l.row r).observables).find? (fun ov => ov.1.1 == o.1) =
        some (o, (r.state.dense[o.1]?).bind fun c => o.2[c]?) :=
      find?_zip_map _ (fun o : Nat × List Str => (r.state.dense[o.1]?).bind fun c => o.2[c]?) hnd o ho
    rw [hfind, Option.bind_some, List.getElem?_eq_getElem hlt, Option.bind_some]
    exact codeOf_getElem _ (hl.labels o ho) _ (hcodes o ho _ (List.getElem?_eq_getElem hlt))
  have h5 : l.denseCodes (l.row r).observables =
      some (if 2 ≤ nTypes then r.state.dense.eraseIdx nStatic else r.state.dense) := by
    rw [h4, hl.type]
    by_cases h : 2 ≤ nTypes
    · rw [if_pos h, if_pos h]
      refine filter_range_eraseIdx _ _ ?_
      rw [hdense, if_pos h]
      have := hstatic h
      omega
    · rw [if_neg h, if_neg h]
      rw [List.filter_eq_self.2 (by simp), mapM_eq_some_iff, List.forall₂_iff_get]
      refine ⟨by simp, fun i h1 h2 => ?_⟩
      simp
  unfold LabelParas.observation
  simp only [h1, h2, h5, Option.bind_eq_bind, Option.bind_some, h3]
  unfold SimRow.observation
  have h6 : (l.row r).exps.map Int.toNat = r.state.core.exp := by
    unfold LabelParas.row
    rw [List.map_map]
    conv_rhs => rw [← List.map_id r.state.core.exp]
    rfl
  rw [h6]
  rfl

theorem mapM_none {α β : Type _} (f : α → Option β) (l : List α) (x : α) (hx : x ∈ l) (h : f x = none) :
    l.mapM f = none := by
  cases hm : l.mapM f with
  | none => rfl
  | some r =>
    obtain ⟨i, hi⟩ := List.mem_iff_getElem?.1 hx
    obtain ⟨y, _, hy⟩ := forall₂_getElem? ((mapM_eq_some_iff f l r).1 hm) i x hi
    rw [h] at hy
    cases hy

/-- **C99 does not hold for restrictions which depend on the type.** The criterion function evaluates each observation
for all types. If someone chooses an alternative and all alternatives which are available for another type have smaller
codes, the criterion function raises an error, although the observation is possible. -/
theorem C99_restrictions_on_types_false {P : Type} (e : Estimation P) (params : P) (sp : SimSpace ℝ)
    (hsolve : e.solve params = some sp) (h2 : 2 ≤ e.nTypes) (r : EstimationRow) (hr : r ∈ e.data) (t : Nat)
    (ht : t < e.nTypes) (k i : Nat) (hloc : sp.locate (r.withType e.nStatic t).state = some (k, i)) (cx : Complex)
    (hcx : sp.complexes[k]? = some cx) (h : ∀ b, cx.choiceSet[b]? = some true → b < r.choice) :
    e.logLike params = none := by
  unfold Estimation.logLike
  rw [hsolve]
  simp only [Option.bind_eq_bind, Option.bind_some]
  suffices hrows : e.loglikeRows (e.params params) sp = none by rw [hrows]; rfl
  unfold Estimation.loglikeRows
  simp only [Option.bind_eq_bind]
  cases hl : e.located sp with
  | none => rfl
  | some rows =>
    rw [Option.bind_some]
    cases hb : e.baseDraws sp rows with
    | none => rfl
    | some base =>
      rw [Option.bind_some]
      cases hc : e.continuations sp with
      | none => rfl
      | some cvs =>
        rw [Option.bind_some]
        have hmem : (r.withType e.nStatic t, t) ∈ e.typedRows := by
          unfold Estimation.typedRows
          rw [if_pos h2, List.mem_flatMap]
          exact ⟨t, List.mem_range.2 ht, List.mem_map.2 ⟨r, (List.perm_insertionSort _ _).mem_iff.2 hr, rfl⟩⟩
        obtain ⟨j, hj⟩ := List.mem_iff_getElem?.1 hmem
        unfold Estimation.located at hl
        obtain ⟨x, hx, hx'⟩ := forall₂_getElem? ((mapM_eq_some_iff _ _ _).1 hl) j _ hj
        simp only [hloc, Option.bind_eq_bind, Option.bind_some] at hx'
        cases hx'
        refine mapM_none _ _ _ (List.mem_iff_getElem?.2 ⟨j, by rw [List.getElem?_zipIdx, hx]; rfl⟩) ?_
        rw [Option.bind_eq_none_iff]
        intro draws _
        rw [Option.bind_eq_none_iff]
        intro own _
        unfold Estimation.rowLoglike
        simp only [hcx, Option.bind_eq_bind, Option.bind_some]
        simp only [Option.bind_eq_none_iff]
        intro _ _ _ _ _ _ _ _ _ _ _ _ y hy
        exfalso
        unfold Estimation.observationLoglike at hy
        rw [show mapChoiceCode cx.choiceSet (r.withType e.nStatic t).choice = none from
          (mapChoiceCode_eq_none_iff _ _).2 h] at hy
        cases hy

end Respy
