import Verif.Spec.InputFrame
import Verif.Lemmas.Simulate2
import Verif.Lemmas.MapM
import Verif.Props.Columns

/-!
# Lemmas: data frames in simulations
-/

namespace Respy

/-- Converted values stand for the values of the data. -/
theorem ColumnKind.convert_means {kind : ColumnKind} (hd : kind.Distinct) {e : Bool} {x : Label} {v : Option Nat}
    (h : kind.convert e (some x) = some v) (he : e = true) : ∃ n, v = some n ∧ kind.Means x n := by
  subst he
  cases kind with
  | number =>
    cases x with
    | text s => simp [ColumnKind.convert] at h
    | int n =>
      simp only [ColumnKind.convert] at h
      split at h
      · rename_i hn
        cases h
        refine ⟨n.toNat, rfl, ?_⟩
        show Label.int n = Label.int _
        rw [Int.toNat_of_nonneg hn.1]
      · simp at h
  | labels levels =>
    simp only [ColumnKind.convert, if_true, Option.bind_some] at h
    obtain ⟨n, hn, rfl⟩ := Option.map_eq_some_iff.1 h
    refine ⟨n, rfl, fun hx => ?_, fun hx => ?_⟩
    · obtain ⟨i, hi⟩ := List.getElem?_of_mem hx
      rw [toCodes_label levels hd.1 hd.2 i x hi] at hn
      cases hn
      exact hi
    · have hget : (Dict.ofItems levels.zipIdx : Dict Label Nat).get? x = none := by
        rw [Dict.get?_eq_none_iff, Dict.mem_keys_ofItems]
        simpa using hx
      rw [replaceValue, hget] at hn
      cases x with
      | text s => simp [toUint8] at hn
      | int m =>
        simp only [Option.map_none, Option.getD_none, toUint8, Option.some.injEq] at hn
        refine ⟨m, rfl, ?_⟩
        rw [← hn, Int.toNat_of_nonneg (Int.emod_nonneg _ (by omega))]

/-- The rows of a converted frame. -/
theorem convertFrame_rows {choices : List Label} {kinds : List (Str × ColumnKind)} {columns : List Str}
    {rows : List InputRow} {df : List ((Nat × Nat) × CharRow)}
    (h : convertFrame choices kinds columns rows = some df) :
    List.Forall₂ (fun r x => x.1 = r.key ∧ List.Forall₂ (fun k v =>
      k.2.convert (decide (k.1 ∈ columns)) (r.value columns k.1) = some v) kinds x.2) rows df := by
  unfold convertFrame at h
  split at h
  · rw [mapM_eq_some_iff] at h
    refine h.imp fun r x hx => ?_
    obtain ⟨row, h1, h2⟩ := Option.bind_eq_some_iff.1 hx
    cases h2
    exact ⟨rfl, (mapM_eq_some_iff _ _ _).1 h1⟩
  · simp at h

/-- Values of the frame are values of the data. -/
theorem converted_value {kinds : List (Str × ColumnKind)} (hd : ∀ k ∈ kinds, k.2.Distinct) {columns : List Str}
    {r : InputRow} {row : CharRow} (h : List.Forall₂ (fun k v =>
      k.2.convert (decide (k.1 ∈ columns)) (r.value columns k.1) = some v) kinds row) (j : Nat) (c : Str)
    (kind : ColumnKind) (x : Label) (hj : kinds[j]? = some (c, kind)) (hx : r.value columns c = some x) :
    ∃ v, row[j]? = some (some v) ∧ kind.Means x v := by
  obtain ⟨v, hv, hc⟩ := forall₂_getElem? h j _ hj
  have hcol : c ∈ columns := by
    by_contra hn
    simp [InputRow.value, hn] at hx
  dsimp only at hc
  rw [hx] at hc
  obtain ⟨n, rfl, hn⟩ := ColumnKind.convert_means (hd _ (List.mem_of_getElem? hj)) hc (by simpa using hcol)
  exact ⟨n, hv, hn⟩

/-- The extended row has the index and the known values of the row. -/
def RowExtends (r r' : (Nat × Nat) × CharRow) : Prop :=
  r'.1 = r.1 ∧ r'.2.length = r.2.length ∧ ∀ c v : Nat, r.2[c]? = some (some v) → r'.2[c]? = some (some v)

theorem RowExtends.refl (r : (Nat × Nat) × CharRow) : RowExtends r r := ⟨rfl, rfl, fun _ _ h => h⟩

theorem RowExtends.trans {a b c : (Nat × Nat) × CharRow} (h : RowExtends a b) (h' : RowExtends b c) :
    RowExtends a c :=
  ⟨h'.1.trans h.1, h'.2.1.trans h.2.1, fun j v hj => h'.2.2 j v (h.2.2 j v hj)⟩

theorem forall₂_refl_extends (l : List ((Nat × Nat) × CharRow)) : List.Forall₂ RowExtends l l :=
  List.forall₂_same.2 fun r _ => RowExtends.refl r

theorem forall₂_extends_trans {a b c : List ((Nat × Nat) × CharRow)} (h : List.Forall₂ RowExtends a b)
    (h' : List.Forall₂ RowExtends b c) : List.Forall₂ RowExtends a c := by
  induction h generalizing c with
  | nil => cases h'; exact .nil
  | cons hx _ ih =>
    cases h' with
    | cons hy hr => exact .cons (hx.trans hy) (ih hr)

/-- The rows of the first period are replaced by their extensions. -/
theorem combineFirst_extends (df : List ((Nat × Nat) × CharRow)) (fp : List CharRow)
    (h : List.Forall₂ (fun x y => y.length = x.length ∧ ∀ c v : Nat, x[c]? = some (some v) → y[c]? = some (some v))
      ((df.filter fun r => decide (r.1.2 = 0)).map Prod.snd) fp) :
    List.Forall₂ RowExtends df (combineFirst df fp) := by
  induction df generalizing fp with
  | nil => exact .nil
  | cons r df ih =>
    by_cases h0 : r.1.2 = 0
    · rw [List.filter_cons_of_pos (by simpa using h0), List.map_cons] at h
      cases h with
      | cons hx hrest =>
        rw [combineFirst, if_pos h0]
        exact .cons ⟨rfl, hx⟩ (ih _ hrest)
    · rw [List.filter_cons_of_neg (by simpa using h0)] at h
      cases fp with
      | nil => rw [combineFirst]; exact forall₂_refl_extends _
      | cons x fp =>
        rw [combineFirst, if_neg h0]
        exact .cons (RowExtends.refl r) (ih _ h)

theorem forwardFill_extends (column : Nat) (last : Option Nat) (df : List ((Nat × Nat) × CharRow)) :
    List.Forall₂ RowExtends df (forwardFill column last df) := by
  induction df generalizing last with
  | nil => exact .nil
  | cons r df ih =>
    rw [forwardFill]
    refine .cons ⟨rfl, by simp, fun c v hc => ?_⟩ (ih _)
    show (r.2.set column _)[c]? = _
    by_cases hcol : column = c
    · subst hcol
      have hlt : column < r.2.length := (List.getElem?_eq_some_iff.1 hc).1
      rw [List.getElem?_set_self hlt, hc]
      rfl
    · rw [List.getElem?_set_ne hcol, hc]

section
variable {K : Type _} [Field K] [LinearOrder K] {G P : Type _}

/-- Sampling characteristics keeps the data. -/
theorem extendPanel_extends {rs : RandomSource K G} {chars : List (Characteristic K)} {seed : Nat}
    {typeColumn : Option Nat} {df df' : List ((Nat × Nat) × CharRow)} {g : G}
    (h : extendPanel rs chars seed typeColumn df g = some df') : List.Forall₂ RowExtends df df' := by
  unfold extendPanel at h
  obtain ⟨⟨fp, g'⟩, h1, h2⟩ := Option.bind_eq_some_iff.1 h
  obtain ⟨hl, hk⟩ := sampleAll_spec _ _ _ _ _ _ _ h1
  have hc := combineFirst_extends df fp (by
    rw [List.forall₂_iff_get]
    refine ⟨hl.symm, fun i hi hi' => ?_⟩
    exact hk i _ _ (List.getElem?_eq_getElem hi) (List.getElem?_eq_getElem hi'))
  cases typeColumn with
  | none => cases h2; exact hc
  | some c =>
    cases h2
    have := forwardFill_extends c none (combineFirst df fp)
    exact forall₂_extends_trans hc this

end

/-- The values of a state made from a row. -/
theorem rowToState_values {nExp nLags : Nat} {row : CharRow} {s : SimState}
    (h : rowToState nExp nLags row = some s) : row = s.values.map some := by
  unfold rowToState at h
  obtain ⟨values, h1, h2⟩ := Option.bind_eq_some_iff.1 h
  cases h2
  have hrow : row = values.map some := by
    rw [mapM_eq_some_iff] at h1
    clear h
    induction h1 with
    | nil => rfl
    | cons hx _ ih => rw [List.map_cons, ← ih]; congr 1
  rw [hrow]
  congr 1
  simp only [SimState.values, List.filterMap_map, Function.comp_def, id_eq, List.filterMap_some]
  rw [List.append_assoc, Nat.add_comm, ← List.drop_drop, List.drop_drop, Nat.add_comm, ← List.drop_drop,
    List.take_append_drop, List.take_append_drop]

/-- The states of a frame. -/
theorem frameStates_rows {nExp nLags : Nat} {df : List ((Nat × Nat) × CharRow)} {states : List (Nat × SimState)}
    (h : frameStates nExp nLags df = some states) :
    List.Forall₂ (fun r a => a.1 = r.1.1 ∧ a.2.core.period = r.1.2 ∧ r.2 = a.2.values.map some) df states := by
  unfold frameStates at h
  rw [mapM_eq_some_iff] at h
  refine h.imp fun r a ha => ?_
  obtain ⟨s, hs, rfl⟩ := Option.map_eq_some_iff.1 ha
  have hv := rowToState_values hs
  exact ⟨rfl, rfl, hv⟩

/-- Selecting by a number below a bound and joining is a rearrangement. -/
theorem flatMap_filter_perm {α : Type _} (f : α → Nat) (n : Nat) (l : List α) :
    ((List.range n).flatMap fun t => l.filter fun a => decide (f a = t)).Perm (l.filter fun a => decide (f a < n)) := by
  induction n with
  | zero => simp
  | succ n ih =>
    rw [List.range_succ, List.flatMap_append]
    simp only [List.flatMap_cons, List.flatMap_nil, List.append_nil]
    have h := List.filter_append_perm (fun a => decide (f a < n)) (l.filter fun a => decide (f a < n + 1))
    refine (List.Perm.append ih (List.Perm.refl _)).trans (List.Perm.trans (List.Perm.of_eq ?_) h)
    rw [List.filter_filter, List.filter_filter]
    congr 1
    · refine List.filter_congr fun a _ => ?_
      rw [Bool.eq_iff_iff]
      simp only [decide_eq_true_eq, Bool.and_eq_true]
      omega
    · refine List.filter_congr fun a _ => ?_
      rw [Bool.eq_iff_iff]
      simp only [decide_eq_true_eq, Bool.and_eq_true, Bool.not_eq_true', decide_eq_false_iff_not]
      omega

section
variable {K : Type _} [Field K] [LinearOrder K] {G P : Type _}

/-- Selecting positions of a list by a property of the elements. -/
theorem positions_map {α : Type _} (l : List α) (p : α → Bool) (q : Nat → Bool)
    (hq : ∀ (i : Nat) a, l[i]? = some a → q i = p a) :
    ((List.range l.length).filter q).map (fun i => l[i]?) = (l.filter p).map some := by
  have h1 : (List.range l.length).map (fun i => l[i]?) = l.map some := by
    refine List.ext_getElem? fun i => ?_
    by_cases hi : i < l.length <;> simp [hi]
  induction l using List.reverseRecOn with
  | nil => rfl
  | append_singleton l a ih =>
    rw [List.length_append, List.length_singleton, List.range_succ, List.filter_append, List.map_append,
      List.filter_append, List.map_append]
    have hl : ((List.range l.length).filter q).map (fun i => (l ++ [a])[i]?) =
        ((List.range l.length).filter q).map fun i => l[i]? := by
      refine List.map_congr_left fun i hi => ?_
      have := List.mem_range.1 (List.mem_filter.1 hi).1
      rw [List.getElem?_append_left this]
    rw [hl, ih (fun i b hb => hq i b (by
        rw [List.getElem?_append_left (List.getElem?_eq_some_iff.1 hb).1]; exact hb)) (by
      refine List.ext_getElem? fun i => ?_
      by_cases hi : i < l.length <;> simp [hi])]
    congr 1
    have ha : q l.length = p a := hq l.length a (by simp)
    by_cases hp : p a = true
    · simp [ha, hp]
    · simp [ha, hp]

/-- The rows of a one-step-ahead simulation. -/
theorem simulateOneStep_rows {p : RewardParams K} {sp : SimSpace K} {draws drawsWage : List (List K)}
    {df : List (Nat × SimState)} {periods : Nat} {data : List (List (SimRow K))}
    (h : simulateOneStep p sp draws drawsWage df periods = some data) :
    data.length = periods ∧ ∀ (t : Nat) (rows : List (SimRow K)), data[t]? = some rows →
      rows ≠ [] ∧
      rows.map (fun r => (r.id, r.state)) = df.filter (fun a => decide (a.2.core.period = t)) ∧
      ∀ row ∈ rows, ∃ (i : Nat) (cvs : Dict Nat (List (List K))), df[i]? = some (row.id, row.state) ∧ draws[i]? = some row.base ∧
        drawsWage[i]? = some row.baseWage ∧ sp.cvs t = some cvs ∧
        simulateRow p sp t cvs row.id row.state row.base row.baseWage = some row := by
  unfold simulateOneStep at h
  have hdl : data.length = periods := by rw [mapM_eq_some_length _ _ _ h]; simp
  refine ⟨hdl, fun t rows ht => ?_⟩
  have htl : t < periods := by
    have := (List.getElem?_eq_some_iff.1 ht).1
    omega
  have h1 := mapM_range_getElem? _ _ _ h t htl
  rw [ht] at h1
  obtain ⟨cvs, hcvs, h2⟩ := Option.bind_eq_some_iff.1 h1.symm
  dsimp only at h2
  split at h2
  · exact absurd h2 (by simp)
  rename_i hne
  set positions := (List.range df.length).filter fun i =>
    decide ((df[i]?.map fun a => a.2.core.period) = some t) with hpos
  have hl := mapM_eq_some_length _ _ _ h2
  have hrow : ∀ (q : Nat) row, rows[q]? = some row → ∃ i, positions[q]? = some i ∧
      df[i]? = some (row.id, row.state) ∧ draws[i]? = some row.base ∧
        drawsWage[i]? = some row.baseWage ∧
        simulateRow p sp t cvs row.id row.state row.base row.baseWage = some row := by
    intro q row hq
    have hql : q < positions.length := by rw [← hl]; exact (List.getElem?_eq_some_iff.1 hq).1
    have h3 := mapM_getElem? _ _ _ h2 q _ (List.getElem?_eq_getElem hql)
    rw [hq] at h3
    obtain ⟨a, ha, h4⟩ := Option.bind_eq_some_iff.1 h3.symm
    obtain ⟨base, hb, h4⟩ := Option.bind_eq_some_iff.1 h4
    obtain ⟨baseWage, hbw, h4⟩ := Option.bind_eq_some_iff.1 h4
    obtain ⟨f1, f2, f3, f4, _⟩ := simulateRow_fields _ _ _ _ _ _ _ _ _ h4
    refine ⟨positions[q], List.getElem?_eq_getElem hql, ?_⟩
    rw [f1, f2, f3, f4]
    exact ⟨ha, hb, hbw, h4⟩
  refine ⟨?_, ?_, ?_⟩
  · rintro rfl
    exact hne (List.length_eq_zero_iff.1 hl.symm)
  · have h5 := positions_map df (fun a => decide (a.2.core.period = t))
      (fun i => decide ((df[i]?.map fun a => a.2.core.period) = some t)) (by
        intro i a ha
        simp [ha])
    rw [← hpos] at h5
    refine List.map_injective_iff.2 (Option.some_injective _) ?_
    rw [← h5, List.map_map]
    refine List.ext_getElem? fun q => ?_
    rw [List.getElem?_map, List.getElem?_map]
    cases hq : rows[q]? with
    | none =>
      have : positions[q]? = none := by
        rw [List.getElem?_eq_none_iff] at hq ⊢
        omega
      rw [this]; rfl
    | some row =>
      obtain ⟨i, hi, hd, _⟩ := hrow q row hq
      rw [hi, Option.map_some, Option.map_some, hd]
      rfl
  · intro row hr
    obtain ⟨q, hq⟩ := List.getElem?_of_mem hr
    obtain ⟨i, _, h3, h4, h5, h6⟩ := hrow q row hq
    exact ⟨i, cvs, h3, h4, h5, hcvs, h6⟩

/-- Identifiers and states of a one-step-ahead simulation are those of the data. -/
theorem simulateOneStep_perm {p : RewardParams K} {sp : SimSpace K} {draws drawsWage : List (List K)}
    {df : List (Nat × SimState)} {periods : Nat} {data : List (List (SimRow K))}
    (h : simulateOneStep p sp draws drawsWage df periods = some data) :
    ((processOutput data).map fun r => (r.id, r.state)).Perm
      (df.filter fun a => decide (a.2.core.period < periods)) := by
  obtain ⟨hl, hrows⟩ := simulateOneStep_rows h
  refine ((processOutput_perm data).map _).trans ?_
  refine List.Perm.trans (List.Perm.of_eq ?_) (flatMap_filter_perm (fun a => a.2.core.period) periods df)
  rw [List.map_flatten, List.flatMap_def]
  congr 1
  refine List.ext_getElem? fun t => ?_
  rw [List.getElem?_map, List.getElem?_map]
  cases ht : data[t]? with
  | none =>
    have : (List.range periods)[t]? = none := by
      rw [List.getElem?_eq_none_iff] at ht ⊢
      simpa [hl] using ht
    rw [this]; rfl
  | some rows =>
    have htl : t < periods := by rw [← hl]; exact (List.getElem?_eq_some_iff.1 ht).1
    rw [List.getElem?_range htl, Option.map_some, Option.map_some, (hrows t rows ht).2.1]

end

end Respy
