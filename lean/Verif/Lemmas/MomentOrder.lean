import Verif.Lemmas.MomentLabels

/-! # Lemmas about moments whose keys have the same order -/

set_option linter.unusedSectionVars false

namespace Respy

variable {K : Type _} [Field K] {D : Type _}

/-- A function which replaces missing values does not change labels. -/
def LabelsKept (f : Moments K → Option (Moments K)) : Prop :=
  ∀ m r, m.Full → f m = some r → r.index = m.index ∧ r.columns = m.columns ∧ r.Full

theorem labelsKept_some : LabelsKept (K := K) some := by
  intro m r hm h
  cases h
  exact ⟨rfl, rfl, hm⟩

/-- Simulated moments have the labels of empirical ones. -/
theorem simulatedMoments_labels (funcs : Dict Str (D → Option (Moments K)))
    (replaceNans : Dict Str (Moments K → Option (Moments K))) (empirical : Dict Str (Moments K)) (df : D)
    (hkeys : Dict.keys funcs = Dict.keys empirical) (hnd : (Dict.keys empirical).Nodup)
    (hrep : ∀ k f, Dict.get? replaceNans k = some f → LabelsKept f) (sim : Dict Str (Moments K))
    (hs : simulatedMoments funcs replaceNans empirical df = some sim) :
    List.Forall₂ (fun s e => s.1 = e.1 ∧ s.2.index = e.2.index ∧ s.2.columns = e.2.columns ∧ s.2.Full)
      sim empirical := by
  have hget : ∀ e ∈ empirical, Dict.get? empirical e.1 = some e.2 :=
    fun e he => Dict.get?_of_mem empirical hnd e.1 e.2 he
  have hall : ∀ (fs : Dict Str (D → Option (Moments K))) (es : Dict Str (Moments K)) (ss : Dict Str (Moments K)),
      Dict.keys fs = Dict.keys es → (∀ e ∈ es, e ∈ empirical) →
      List.mapM (fun nf : Str × (D → Option (Moments K)) => do
        let m ← nf.2 df
        let other ← Dict.get? empirical nf.1
        let m ← reindexLike m other
        let f ← Dict.get? replaceNans nf.1
        let m ← f m
        pure (nf.1, m)) fs = some ss →
      List.Forall₂ (fun s e => s.1 = e.1 ∧ s.2.index = e.2.index ∧ s.2.columns = e.2.columns ∧ s.2.Full)
        ss es := by
    intro fs
    induction fs with
    | nil =>
      intro es ss hk hes h
      cases es with
      | nil =>
        simp only [List.mapM_nil] at h
        cases h
        exact .nil
      | cons e es => simp [Dict.keys] at hk
    | cons f fs ih =>
      intro es ss hk hes h
      cases es with
      | nil => simp [Dict.keys] at hk
      | cons e es =>
        simp only [Dict.keys, List.map_cons, List.cons.injEq] at hk
        rw [List.mapM_cons] at h
        obtain ⟨s, hs, h⟩ := Option.bind_eq_some_iff.1 h
        obtain ⟨ss', hss, h⟩ := Option.bind_eq_some_iff.1 h
        cases h
        refine .cons ?_ (ih es ss' hk.2 (fun e he => hes e (by simp [he])) hss)
        obtain ⟨m, -, hs⟩ := Option.bind_eq_some_iff.1 hs
        obtain ⟨other, hother, hs⟩ := Option.bind_eq_some_iff.1 hs
        obtain ⟨m', hm', hs⟩ := Option.bind_eq_some_iff.1 hs
        obtain ⟨g, hg, hs⟩ := Option.bind_eq_some_iff.1 hs
        obtain ⟨r, hr, hs⟩ := Option.bind_eq_some_iff.1 hs
        cases hs
        rw [hk.1, hget e (hes e (by simp))] at hother
        cases hother
        obtain ⟨h1, h2, h3⟩ := reindexLike_labels _ _ _ hm'
        obtain ⟨h4, h5, h6⟩ := hrep _ g hg m' r h3 hr
        exact ⟨hk.1, h4.trans h1, h5.trans h2, h6⟩
  exact hall funcs empirical sim hkeys (fun e he => he) hs

theorem flatten_labels_eq (sim empirical : Dict Str (Moments K))
    (h : List.Forall₂ (fun s e => s.1 = e.1 ∧ s.2.index = e.2.index ∧ s.2.columns = e.2.columns ∧ s.2.Full)
      sim empirical) (hfull : ∀ e ∈ empirical, e.2.Full) :
    (sim.flatMap fun nm => flattenOne nm.1 nm.2).map Prod.fst
      = (empirical.flatMap fun nm => flattenOne nm.1 nm.2).map Prod.fst := by
  induction h with
  | nil => rfl
  | cons hse _ ih =>
    rw [List.flatMap_cons, List.flatMap_cons, List.map_append, List.map_append,
      ih fun e he => hfull e (by simp [he]), flattenOne_labels _ _ hse.2.2.2,
      flattenOne_labels _ _ (hfull _ (by simp))]
    congr 1
    unfold flatLabels Moments.names
    rw [hse.1, hse.2.1, hse.2.2.1]

/-- The errors if functions have the order of the empirical moments: no alignment is necessary. -/
theorem momentErrors_aligned (funcs : Dict Str (D → Option (Moments K)))
    (replaceNans : Dict Str (Moments K → Option (Moments K))) (empirical : Dict Str (Moments K)) (df : D)
    (hkeys : Dict.keys funcs = Dict.keys empirical) (hnd : (Dict.keys empirical).Nodup)
    (hfull : ∀ e ∈ empirical, e.2.Full)
    (hrep : ∀ k f, Dict.get? replaceNans k = some f → LabelsKept f) :
    momentErrors funcs replaceNans empirical df
      = (simulatedMoments funcs replaceNans empirical df).bind fun sim =>
        (flattenIndex empirical).bind fun fe => (flattenIndex sim).bind fun fs =>
          some (List.zipWith (fun x y => (x.1, subNan x.2 y.2)) fe fs) := by
  unfold momentErrors
  cases hs : simulatedMoments funcs replaceNans empirical df with
  | none => rfl
  | some sim =>
    have hF := simulatedMoments_labels funcs replaceNans empirical df hkeys hnd hrep sim hs
    have hl := flatten_labels_eq sim empirical hF hfull
    simp only [Option.bind_eq_bind, Option.bind_some]
    cases hfe : flattenIndex empirical with
    | none => rfl
    | some fe =>
      simp only [Option.bind_some]
      cases hfs : flattenIndex sim with
      | none => rfl
      | some fs =>
        simp only [Option.bind_some]
        unfold flattenIndex at hfe hfs
        split at hfe
        · simp at hfe
        · split at hfs
          · simp at hfs
          · cases hfe
            cases hfs
            unfold subSeries
            rw [if_pos hl.symm]

theorem get?_by_position (s : Series K) (t : Str) :
    (((s.map Prod.fst).idxOf? t).bind fun p => (s[p]?).map Prod.snd) = Dict.get? s t := by
  induction s with
  | nil => rfl
  | cons x s ih =>
    rw [List.map_cons, List.idxOf?_cons]
    unfold Dict.get?
    by_cases h : x.1 = t
    · simp [h]
    · have : (x.1 == t) = false := by simpa using h
      rw [this]
      simp only [Bool.false_eq_true, if_false, if_neg h, ← ih, Option.bind_map]
      rfl

/-- The flat weights after reindexing (part of `diagWeights`). -/
def flatWeights (empirical weights : Dict Str (Moments K)) : Option (Series K) :=
  (weights.mapM fun nw : Str × Moments K => do
      let other ← Dict.get? empirical nw.1
      let m ← reindexLike nw.2 other
      pure (nw.1, m)).bind flattenIndex

theorem diagWeights_dict (empirical weights : Dict Str (Moments K)) (fe : Series K)
    (hfe : flattenIndex empirical = some fe) (hnd : (fe.map Prod.fst).Nodup) (r : List (Option K))
    (h : diagWeights (.dict empirical) (some (.dict weights)) = some r) :
    ∃ fw, flatWeights empirical weights = some fw ∧ (fw.map Prod.fst).Nodup ∧
      r = (fe.map Prod.fst).map fun l => (Dict.get? fw l).join := by
  unfold diagWeights at h
  simp only [harmonizeInput, hfe, Option.bind_eq_bind, Option.bind_some] at h
  obtain ⟨ri, hri, h⟩ := Option.bind_eq_some_iff.1 h
  obtain ⟨fw, hfw, h⟩ := Option.bind_eq_some_iff.1 h
  obtain ⟨ps, hps, h⟩ := Option.bind_eq_some_iff.1 h
  cases h
  have hnw : (fw.map Prod.fst).Nodup := by
    unfold reindexAxis at hps
    split at hps
    · rename_i heq
      rw [heq]
      exact hnd
    · split at hps
      · assumption
      · simp at hps
  refine ⟨fw, ?_, hnw, ?_⟩
  · unfold flatWeights
    simp only [Option.bind_eq_bind, hri, Option.bind_some, hfw]
  · rw [reindexAxis_of_nodup _ _ hnw] at hps
    cases hps
    rw [List.map_map]
    refine List.map_congr_left fun l _ => ?_
    simp only [Function.comp_apply]
    rw [get?_by_position]

theorem flatWeights_perm (empirical empirical' weights weights' : Dict Str (Moments K))
    (he : ∀ k, Dict.get? empirical k = Dict.get? empirical' k) (hw : List.Perm weights weights') (fw : Series K)
    (h : flatWeights empirical weights = some fw) :
    ∃ fw', flatWeights empirical' weights' = some fw' ∧ fw.Perm fw' := by
  unfold flatWeights at h ⊢
  obtain ⟨ri, hri, h⟩ := Option.bind_eq_some_iff.1 h
  obtain ⟨ri', hri', hp⟩ := mapM_perm _ _ _ hw ri hri
  obtain ⟨fw', hfw', hp'⟩ := flattenIndex_perm ri ri' hp fw h
  refine ⟨fw', ?_, hp'⟩
  have : (fun nw : Str × Moments K => (do
      let other ← Dict.get? empirical' nw.1
      let m ← reindexLike nw.2 other
      pure (nw.1, m) : Option (Str × Moments K))) = fun nw => (do
      let other ← Dict.get? empirical nw.1
      let m ← reindexLike nw.2 other
      pure (nw.1, m)) := by
    funext nw
    rw [he]
  rw [this, hri']
  exact hfw'

end Respy
