import Verif.Lemmas.Moments

/-! # Lemmas about labels and orders of moments -/

set_option linter.unusedSectionVars false

namespace Respy

variable {K : Type _} [Field K]

theorem get?_perm {ν : Type _} (d d' : Dict Str ν) (h : List.Perm d d') (hd : (Dict.keys d).Nodup) (k : Str) :
    Dict.get? d k = Dict.get? d' k := by
  have hd' : (Dict.keys d').Nodup := (h.map Prod.fst).nodup_iff.1 hd
  refine Option.ext fun v => ?_
  constructor
  · intro hv
    exact Dict.get?_of_mem d' hd' k v (h.mem_iff.1 (Dict.mem_of_get? d k v hv))
  · intro hv
    exact Dict.get?_of_mem d hd k v (h.mem_iff.2 (Dict.mem_of_get? d' k v hv))

theorem idxOf?_eq_some_iff_of_nodup (own : List Str) (h : own.Nodup) (t : Str) (p : Nat) :
    own.idxOf? t = some p ↔ own[p]? = some t := by
  induction own generalizing p with
  | nil => simp
  | cons a own ih =>
    rw [List.nodup_cons] at h
    rw [List.idxOf?_cons]
    by_cases hat : a = t
    · subst hat
      simp only [beq_self_eq_true, if_true]
      cases p with
      | zero => simp
      | succ p =>
        simp only [Option.some.injEq, Nat.right_eq_add, Nat.add_eq_zero_iff, Nat.one_ne_zero, and_false,
          List.getElem?_cons_succ, false_iff]
        intro h'
        exact absurd (List.mem_of_getElem? h') h.1
    · have : (a == t) = false := by simpa using hat
      rw [this]
      simp only [Bool.false_eq_true, if_false, Option.map_eq_some_iff]
      cases p with
      | zero => simp [hat]
      | succ p => simp [ih h.2]

theorem reindexAxis_of_nodup (own target : List Str) (h : own.Nodup) :
    reindexAxis own target = some (target.map fun t => own.idxOf? t) := by
  unfold reindexAxis
  split
  · rename_i heq
    subst heq
    congr 1
    refine List.ext_getElem (by simp) fun i h1 h2 => ?_
    simp only [List.getElem_map, List.getElem_range]
    have hi : i < own.length := by simpa using h2
    exact ((idxOf?_eq_some_iff_of_nodup own h own[i] i).2 (List.getElem?_eq_getElem hi)).symm
  · rfl

theorem reindexLike_of_nodup (m other : Moments K) (h : m.columns.isSome = other.columns.isSome)
    (hi : m.index.Nodup) (hn : m.names.Nodup) :
    reindexLike m other = some ⟨other.index, other.columns,
      other.names.map fun c => other.index.map fun i => m.at (m.names.idxOf? c) (m.index.idxOf? i)⟩ := by
  unfold reindexLike
  rw [if_pos h, reindexAxis_of_nodup _ _ hi, reindexAxis_of_nodup _ _ hn]
  simp [List.map_map, Function.comp_def]

/-- Moments have a value for each column and row. -/
def Moments.Full (m : Moments K) : Prop :=
  m.values.length = m.names.length ∧ ∀ col ∈ m.values, col.length = m.index.length

instance (m : Moments K) : Decidable m.Full := inferInstanceAs (Decidable (_ ∧ _))

theorem reindexLike_labels (m other r : Moments K) (h : reindexLike m other = some r) :
    r.index = other.index ∧ r.columns = other.columns ∧ r.Full := by
  unfold reindexLike at h
  split at h
  · obtain ⟨rows, hrows, h⟩ := Option.bind_eq_some_iff.1 h
    obtain ⟨cols, hcols, h⟩ := Option.bind_eq_some_iff.1 h
    cases h
    have hlen : ∀ (own target : List Str) ps, reindexAxis own target = some ps → ps.length = target.length := by
      intro own target ps hps
      unfold reindexAxis at hps
      split at hps
      · rename_i heq
        cases hps
        simp [heq]
      · split at hps
        · cases hps
          simp
        · simp at hps
    refine ⟨rfl, rfl, ?_, ?_⟩
    · simpa [Moments.names] using hlen _ _ _ hcols
    · intro col hcol
      obtain ⟨c, -, rfl⟩ := List.mem_map.1 hcol
      simpa using hlen _ _ _ hrows
  · simp at h

/-- The labels of moments in the flat index. -/
def flatLabels (name : Str) (m : Moments K) : List Str :=
  m.names.flatMap fun c => m.index.map fun i => flatLabel name m.columns.isSome c i

theorem flattenOne_labels (name : Str) (m : Moments K) (h : m.Full) :
    (flattenOne name m).map Prod.fst = flatLabels name m := by
  unfold flattenOne flatLabels
  rw [List.map_flatMap]
  obtain ⟨h1, h2⟩ := h
  generalize m.names = ns at h1 ⊢
  generalize m.values = vs at h1 h2 ⊢
  induction ns generalizing vs with
  | nil => simp
  | cons n ns ih =>
    cases vs with
    | nil => simp at h1
    | cons v vs =>
      rw [List.zip_cons_cons, List.flatMap_cons, List.flatMap_cons,
        ih vs (by simpa using h1) fun c hc => h2 c (by simp [hc])]
      congr 1
      rw [List.map_map]
      have hv := h2 v (by simp)
      have hz : m.index = (m.index.zip v).map Prod.fst := by
        rw [List.map_fst_zip (by omega)]
      conv_rhs => rw [hz]
      rw [List.map_map]
      rfl

theorem flattenOne_values (name : Str) (m : Moments K) (h : m.Full) :
    (flattenOne name m).map Prod.snd = m.values.flatten := by
  unfold flattenOne
  rw [List.map_flatMap]
  obtain ⟨h1, h2⟩ := h
  generalize m.names = ns at h1 ⊢
  generalize m.values = vs at h1 h2 ⊢
  induction ns generalizing vs with
  | nil =>
    cases vs with
    | nil => simp
    | cons v vs => simp at h1
  | cons n ns ih =>
    cases vs with
    | nil => simp at h1
    | cons v vs =>
      rw [List.zip_cons_cons, List.flatMap_cons, List.flatten_cons,
        ih vs (by simpa using h1) fun c hc => h2 c (by simp [hc])]
      congr 1
      rw [List.map_map]
      have hv := h2 v (by simp)
      have hz : v = (m.index.zip v).map Prod.snd := by
        rw [List.map_snd_zip (by omega)]
      conv_rhs => rw [hz]
      rfl

theorem flattenIndex_perm (d d' : Dict Str (Moments K)) (h : List.Perm d d') (s : Series K)
    (hs : flattenIndex d = some s) : ∃ s', flattenIndex d' = some s' ∧ s.Perm s' := by
  unfold flattenIndex at hs ⊢
  split at hs
  · simp at hs
  · rename_i hd
    cases hs
    refine ⟨_, if_neg ?_, h.flatMap_right _⟩
    rintro rfl
    exact hd h.eq_nil

theorem subSeries_perm_perm (a a' b b' e : Series K) (ha : (a.map Prod.fst).Nodup) (hpa : a.Perm a')
    (hpb : b.Perm b') (h : subSeries a b = some e) : ∃ e', subSeries a' b' = some e' ∧ e.Perm e' := by
  have hb := subSeries_nodup a b e ha h
  have ha' : (a'.map Prod.fst).Nodup := (hpa.map _).nodup_iff.1 ha
  have hb' : (b'.map Prod.fst).Nodup := (hpb.map _).nodup_iff.1 hb
  obtain ⟨e', he'⟩ := subSeries_isSome a' b' ha' hb'
  refine ⟨e', he', ?_⟩
  refine (subSeries_perm a b e ha hb h).trans (List.Perm.trans ?_ (subSeries_perm a' b' e' ha' hb' he').symm)
  have hf : (fun l => (l, subNan (Dict.get? a l).join (Dict.get? b l).join))
      = fun l => (l, subNan (Dict.get? a' l).join (Dict.get? b' l).join) := by
    funext l
    rw [get?_perm a a' hpa ha l, get?_perm b b' hpb hb l]
  rw [hf]
  refine List.Perm.map _ ((hpa.map _).append ?_)
  have hg : (fun l => decide (l ∉ a.map Prod.fst)) = fun l => decide (l ∉ a'.map Prod.fst) := by
    funext l
    rw [Bool.eq_iff_iff, decide_eq_true_eq, decide_eq_true_eq, (hpa.map Prod.fst).mem_iff]
  rw [hg]
  exact (hpb.map _).filter _

theorem criterionValue_diag (e : List (Option K)) (ws : List K) :
    criterionValue e (diagMatrix ws) = if e.length = ws.length then
      some ((e.mapM id).map fun x => (List.zipWith (fun x w => w * x ^ 2) x ws).sum) else none := by
  unfold criterionValue
  by_cases h : e.length = ws.length
  · rw [if_pos ((fitsShape_diag_iff _ _).2 h.symm), if_pos h]
    cases hx : e.mapM id with
    | none => rfl
    | some x =>
      have := (mapM_id_eq_some_iff e x).1 hx
      simp only [Option.map_some]
      rw [vecDot_diag x ws (by rw [this] at h; simpa using h)]
  · rw [if_neg (fun h' => h ((fitsShape_diag_iff _ _).1 h').symm), if_neg h]

/-- The contribution of an error and its weight. -/
def weightedSquare (r : Option K × K) : Option K := r.1.map fun x => r.2 * x ^ 2

/-- The sum of weighted squares does not depend on the order of pairs of errors and weights. -/
theorem criterionValue_zip_perm (p p' : List (Option K × K)) (h : p.Perm p') :
    criterionValue (p.map Prod.fst) (diagMatrix (p.map Prod.snd))
      = criterionValue (p'.map Prod.fst) (diagMatrix (p'.map Prod.snd)) := by
  have key : ∀ q : List (Option K × K), criterionValue (q.map Prod.fst) (diagMatrix (q.map Prod.snd))
      = some ((q.mapM weightedSquare).map List.sum) := by
    intro q
    rw [criterionValue_diag, if_pos (by simp)]
    congr 1
    induction q with
    | nil => rfl
    | cons r q ih =>
      obtain ⟨x, w⟩ := r
      rw [List.map_cons, List.map_cons, List.mapM_cons, List.mapM_cons]
      cases x with
      | none => rfl
      | some x =>
        simp only [id_eq, weightedSquare, Option.map_some, Option.bind_eq_bind, Option.bind_some]
        cases hq : (q.map Prod.fst).mapM id with
        | none =>
          rw [hq] at ih
          cases hq' : q.mapM weightedSquare with
          | none => rfl
          | some y => rw [hq'] at ih; simp at ih
        | some y =>
          rw [hq] at ih
          cases hq' : q.mapM weightedSquare with
          | none => rw [hq'] at ih; simp at ih
          | some z =>
            rw [hq'] at ih
            simp only [Option.map_some, Option.some.injEq] at ih
            simp [ih]
  rw [key, key]
  congr 1
  cases hq : p.mapM weightedSquare with
  | none =>
    cases hq' : p'.mapM weightedSquare with
    | none => rfl
    | some y =>
      obtain ⟨z, hz, -⟩ := mapM_perm _ _ _ h.symm y hq'
      rw [hq] at hz
      simp at hz
  | some y =>
    obtain ⟨z, hz, hp⟩ := mapM_perm _ _ _ h y hq
    rw [hz]
    simp only [Option.map_some, hp.sum_eq]

end Respy
