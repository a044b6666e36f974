import Verif.Props.MomentFunctions

/-!
# C91 Data for plots of moments

`_create_comparison_plot_data_msm` has every moment once as empirical and once as simulated moment.
-/

set_option linter.unusedSectionVars false

namespace Respy

variable {K : Type _} [Field K] {D : Type _}

theorem nodup_flatMap_tag {α β τ : Type _} (F : α → List β) (tag : α → τ) (part : β → τ) (L : List α)
    (hpart : ∀ a ∈ L, ∀ x ∈ F a, part x = tag a) (hinner : ∀ a ∈ L, (F a).Nodup) (htag : (L.map tag).Nodup) :
    (L.flatMap F).Nodup := by
  induction L with
  | nil => simp
  | cons a L ih =>
    rw [List.map_cons, List.nodup_cons] at htag
    rw [List.flatMap_cons]
    refine List.Nodup.append (hinner a (by simp)) (ih (fun b hb => hpart b (by simp [hb]))
      (fun b hb => hinner b (by simp [hb])) htag.2) ?_
    intro x hx hx'
    obtain ⟨b, hb, hx'⟩ := List.mem_flatMap.1 hx'
    refine htag.1 (List.mem_map.2 ⟨b, hb, ?_⟩)
    rw [← hpart b (by simp [hb]) x hx', hpart a (by simp) x hx]

theorem filter_unique {α κ : Type _} [DecidableEq κ] (key : α → κ) (l : List α) (hn : (l.map key).Nodup) (a : α)
    (ha : a ∈ l) : l.filter (fun b => decide (key b = key a)) = [a] := by
  induction l with
  | nil => simp at ha
  | cons b l ih =>
    rw [List.map_cons, List.nodup_cons] at hn
    rcases List.mem_cons.1 ha with rfl | ha
    · rw [List.filter_cons_of_pos (by simp), List.filter_eq_nil_iff.2]
      intro c hc hcb
      exact hn.1 (List.mem_map.2 ⟨c, hc, of_decide_eq_true hcb⟩)
    · rw [List.filter_cons_of_neg, ih hn.2 ha]
      intro hb
      exact hn.1 (List.mem_map.2 ⟨a, ha, (of_decide_eq_true hb).symm⟩)

/-- The columns of a set of moments in the data for plots: a series has one, which is named like the set. -/
def Moments.plotColumns (m : Moments K) (name : Str) : List Str := m.columns.getD [name]

/-- The value of moments in a column and row with these labels, in the data for plots. -/
def Moments.HasPlotCell (m : Moments K) (name column row : Str) (x : Option K) : Prop :=
  ∃ (p q : Nat) (col : List (Option K)), (m.plotColumns name)[p]? = some column ∧ m.index[q]? = some row ∧
    m.values[p]? = some col ∧ col[q]? = some x

theorem mem_tidyOne (name : Str) (m : Moments K) (r : TidyRow K) :
    r ∈ tidyOne name m ↔ r.set = name ∧ m.HasPlotCell name r.column r.row r.value := by
  unfold tidyOne
  rw [List.mem_flatMap]
  constructor
  · rintro ⟨⟨c, col⟩, hc, hr⟩
    obtain ⟨⟨i, x⟩, hi, rfl⟩ := List.mem_map.1 hr
    obtain ⟨p, hp⟩ := List.mem_iff_getElem?.1 hc
    obtain ⟨q, hq⟩ := List.mem_iff_getElem?.1 hi
    rw [List.getElem?_zip_eq_some] at hp hq
    exact ⟨rfl, p, q, col, hp.1, hq.1, hp.2, hq.2⟩
  · rintro ⟨hs, p, q, col, h1, h2, h3, h4⟩
    refine ⟨(r.column, col), List.mem_of_getElem? (i := p) (List.getElem?_zip_eq_some.2 ⟨h1, h3⟩),
      List.mem_map.2 ⟨(r.row, r.value), List.mem_of_getElem? (i := q) (List.getElem?_zip_eq_some.2 ⟨h2, h4⟩), ?_⟩⟩
    cases r
    cases hs
    rfl

/-- The name of the set, the column and the row. -/
def TidyRow.key (r : TidyRow K) : Str × Str × Str := (r.set, r.column, r.row)

theorem zip_fst_nodup {α β : Type _} (a : List α) (b : List β) (h : a.Nodup) : ((a.zip b).map Prod.fst).Nodup := by
  induction a generalizing b with
  | nil => simp
  | cons x a ih =>
    cases b with
    | nil => simp
    | cons y b =>
      rw [List.nodup_cons] at h
      rw [List.zip_cons_cons, List.map_cons, List.nodup_cons]
      refine ⟨fun hx => ?_, ih b h.2⟩
      obtain ⟨p, hp, rfl⟩ := List.mem_map.1 hx
      exact h.1 (List.of_mem_zip hp).1

theorem tidyOne_nodup (name : Str) (m : Moments K) (hc : (m.plotColumns name).Nodup) (hi : m.index.Nodup) :
    ((tidyOne name m).map TidyRow.key).Nodup := by
  unfold tidyOne
  rw [List.map_flatMap]
  refine nodup_flatMap_tag _ Prod.fst (fun k => k.2.1) _ ?_ ?_ (zip_fst_nodup _ _ hc)
  · intro cv _ x hx
    rw [List.map_map] at hx
    obtain ⟨iv, _, rfl⟩ := List.mem_map.1 hx
    rfl
  · intro cv _
    rw [List.map_map]
    have := (zip_fst_nodup m.index cv.2 hi).map (f := fun i => (name, cv.1, i)) fun a b h => by
      simpa using h
    rw [List.map_map] at this
    exact this

theorem tidy_nodup (d : Dict Str (Moments K)) (hd : (Dict.keys d).Nodup)
    (h : ∀ nm ∈ d, (nm.2.plotColumns nm.1).Nodup ∧ nm.2.index.Nodup) :
    ((d.flatMap fun nm => tidyOne nm.1 nm.2).map TidyRow.key).Nodup := by
  rw [List.map_flatMap]
  refine nodup_flatMap_tag _ Prod.fst (fun k => k.1) _ ?_ (fun nm hnm => tidyOne_nodup _ _ (h nm hnm).1 (h nm hnm).2) hd
  intro nm _ x hx
  obtain ⟨r, hr, rfl⟩ := List.mem_map.1 hx
  exact ((mem_tidyOne _ _ _).1 hr).1

/-- Every function finds its set of empirical moments, and the result has its labels. -/
theorem simulated_mem (funcs : Dict Str (D → Option (Moments K)))
    (replaceNans : Dict Str (Moments K → Option (Moments K))) (empirical sim : Dict Str (Moments K)) (df : D)
    (hrep : ∀ k f, Dict.get? replaceNans k = some f → LabelsKept f)
    (h : simulatedMoments funcs replaceNans empirical df = some sim) :
    List.Forall₂ (fun nf s => s.1 = nf.1 ∧ ∃ e, Dict.get? empirical nf.1 = some e ∧ s.2.index = e.index ∧
      s.2.columns = e.columns ∧ s.2.Full) funcs sim := by
  unfold simulatedMoments at h
  refine ((mapM_eq_some_iff _ _ _).1 h).imp fun nf s hs => ?_
  obtain ⟨m, -, hs⟩ := Option.bind_eq_some_iff.1 hs
  obtain ⟨e, he, hs⟩ := Option.bind_eq_some_iff.1 hs
  obtain ⟨m', hm', hs⟩ := Option.bind_eq_some_iff.1 hs
  obtain ⟨f, hf, hs⟩ := Option.bind_eq_some_iff.1 hs
  obtain ⟨m'', hm'', hs⟩ := Option.bind_eq_some_iff.1 hs
  cases hs
  obtain ⟨h1, h2, h3⟩ := reindexLike_labels m e m' hm'
  obtain ⟨k1, k2, k3⟩ := hrep nf.1 f hf m' m'' h3 hm''
  exact ⟨rfl, e, he, k1.trans h1, k2.trans h2, k3⟩

theorem full_cell (m : Moments K) (name : Str) (hm : m.Full) (column row : Str) (hc : column ∈ m.plotColumns name)
    (hr : row ∈ m.index) : ∃ x, m.HasPlotCell name column row x := by
  obtain ⟨p, hp⟩ := List.mem_iff_getElem?.1 hc
  obtain ⟨q, hq⟩ := List.mem_iff_getElem?.1 hr
  have hlen : m.names.length = (m.plotColumns name).length := by
    unfold Moments.names Moments.plotColumns
    cases m.columns <;> rfl
  obtain ⟨hp', -⟩ := List.getElem?_eq_some_iff.1 hp
  obtain ⟨hq', -⟩ := List.getElem?_eq_some_iff.1 hq
  have h1 : p < m.values.length := by rw [hm.1, hlen]; exact hp'
  have h2 : q < m.values[p].length := by rw [hm.2 _ (List.getElem_mem h1)]; exact hq'
  exact ⟨m.values[p][q], p, q, m.values[p], hp, hq, List.getElem?_eq_getElem h1, List.getElem?_eq_getElem h2⟩

/-- **C91** The data for plots have exactly two rows for every set of moments, column and row: first the empirical
moment, then the simulated one, after reindexing and replacement of missing values. The order of the functions and of the
moments does not matter. No other rows exist. -/
theorem C91_plot_data (funcs : Dict Str (D → Option (Moments K)))
    (replaceNans : Dict Str (Moments K → Option (Moments K))) (empirical sim : Dict Str (Moments K)) (df : D)
    (hrep : ∀ k f, Dict.get? replaceNans k = some f → LabelsKept f)
    (hfuncs : (Dict.keys funcs).Nodup) (hnd : (Dict.keys empirical).Nodup)
    (hlen : List.length funcs = List.length empirical)
    (htables : ∀ nm ∈ empirical, nm.2.Full ∧ (nm.2.plotColumns nm.1).Nodup ∧ nm.2.index.Nodup)
    (h : simulatedMoments funcs replaceNans empirical df = some sim)
    (plot : List (TidyRow K × MomentKind)) (hplot : comparisonPlotDataMsm empirical sim = some plot) :
    (∀ name m, (name, m) ∈ empirical → ∀ column ∈ m.plotColumns name, ∀ row ∈ m.index, ∃ m' x y,
      (name, m') ∈ sim ∧ m.HasPlotCell name column row x ∧ m'.HasPlotCell name column row y ∧
      plot.filter (fun r => decide (r.1.set = name ∧ r.1.column = column ∧ r.1.row = row)) =
        [(⟨column, row, x, name⟩, .empirical), (⟨column, row, y, name⟩, .simulated)]) ∧
    ∀ r ∈ plot, ∃ m, (r.1.set, m) ∈ empirical ∧ r.1.column ∈ m.plotColumns r.1.set ∧ r.1.row ∈ m.index := by
  have hsim := simulated_mem funcs replaceNans empirical sim df hrep h
  have hkeys : Dict.keys sim = Dict.keys funcs := by
    have : ∀ (fs : Dict Str (D → Option (Moments K))) (ss : Dict Str (Moments K)),
        List.Forall₂ (fun nf s => s.1 = nf.1 ∧ ∃ e, Dict.get? empirical nf.1 = some e ∧ s.2.index = e.index ∧
          s.2.columns = e.columns ∧ s.2.Full) fs ss → Dict.keys ss = Dict.keys fs := by
      intro fs ss hfs
      induction hfs with
      | nil => rfl
      | cons hab _ ih =>
        rw [keys_eq_map, keys_eq_map] at ih ⊢
        rw [List.map_cons, List.map_cons, hab.1, ih]
    exact this _ _ hsim
  have hfrom : ∀ s ∈ sim, ∃ e, (s.1, e) ∈ empirical ∧ s.2.index = e.index ∧ s.2.columns = e.columns ∧ s.2.Full := by
    intro s hs
    obtain ⟨i, hi, rfl⟩ := List.getElem_of_mem hs
    obtain ⟨k1, e, k2, k3⟩ := (List.forall₂_iff_get.1 hsim).2 i (by rw [hsim.length_eq]; exact hi) hi
    refine ⟨e, ?_, k3⟩
    simp only [List.get_eq_getElem] at k1 k2
    rw [k1]
    exact Dict.mem_of_get? _ _ _ k2
  have hall : ∀ name ∈ Dict.keys empirical, name ∈ Dict.keys sim := by
    have hsub : Dict.keys sim ⊆ Dict.keys empirical := by
      intro k hk
      obtain ⟨s, hs, rfl⟩ := List.mem_map.1 hk
      obtain ⟨e, he, -⟩ := hfrom s hs
      exact List.mem_map.2 ⟨_, he, rfl⟩
    have hp : (Dict.keys sim).Perm (Dict.keys empirical) := by
      refine (List.subperm_of_subset (hkeys ▸ hfuncs) hsub).perm_of_length_le ?_
      rw [hkeys, keys_eq_map, keys_eq_map, List.length_map, List.length_map]
      omega
    exact fun name hname => hp.mem_iff.2 hname
  unfold comparisonPlotDataMsm at hplot
  obtain ⟨te, hte, hplot⟩ := Option.bind_eq_some_iff.1 hplot
  obtain ⟨ts, hts, hplot⟩ := Option.bind_eq_some_iff.1 hplot
  cases hplot
  have hte : te = empirical.flatMap fun nm => tidyOne nm.1 nm.2 := by
    unfold createTidyData at hte
    split at hte
    · cases hte
    · cases hte; rfl
  have hts : ts = sim.flatMap fun nm => tidyOne nm.1 nm.2 := by
    unfold createTidyData at hts
    split at hts
    · cases hts
    · cases hts; rfl
  have hnd1 : (te.map TidyRow.key).Nodup := by
    rw [hte]
    exact tidy_nodup empirical hnd fun nm hnm => (htables nm hnm).2
  have hsame : ∀ (a b : Moments K) (name : Str), a.columns = b.columns → a.plotColumns name = b.plotColumns name := by
    intro a b name hab
    unfold Moments.plotColumns
    rw [hab]
  have hnd2 : (ts.map TidyRow.key).Nodup := by
    rw [hts]
    refine tidy_nodup sim (hkeys ▸ hfuncs) fun nm hnm => ?_
    obtain ⟨e, he, k1, k2, -⟩ := hfrom nm hnm
    rw [hsame _ _ _ k2, k1]
    exact (htables _ he).2
  constructor
  · intro name m hm column hc row hr
    obtain ⟨x, hx⟩ := full_cell m name (htables _ hm).1 column row hc hr
    obtain ⟨s, hs, hsn⟩ := List.mem_map.1 (hall name (List.mem_map_of_mem hm))
    obtain ⟨e, he, k1, k2, k3⟩ := hfrom s hs
    have hee : e = m := by
      rw [hsn] at he
      have a := Dict.get?_of_mem empirical hnd name e he
      rw [Dict.get?_of_mem empirical hnd name m hm] at a
      exact (Option.some.inj a).symm
    subst hee
    obtain ⟨y, hy⟩ := full_cell s.2 name k3 column row (by rw [hsame _ _ _ k2]; exact hc) (by rw [k1]; exact hr)
    refine ⟨s.2, x, y, ?_, hx, hy, ?_⟩
    · rw [← hsn]
      exact hs
    · have e1 := filter_unique TidyRow.key te hnd1 ⟨column, row, x, name⟩ (by
        rw [hte]
        exact List.mem_flatMap.2 ⟨_, hm, (mem_tidyOne _ _ _).2 ⟨rfl, hx⟩⟩)
      have e2 := filter_unique TidyRow.key ts hnd2 ⟨column, row, y, name⟩ (by
        rw [hts]
        exact List.mem_flatMap.2 ⟨s, hs, (mem_tidyOne _ _ _).2 ⟨hsn.symm, by rw [hsn]; exact hy⟩⟩)
      rw [List.filter_append, List.filter_map, List.filter_map]
      simp only [TidyRow.key, Prod.mk.injEq] at e1 e2
      have c1 : ((fun r : TidyRow K × MomentKind => decide (r.1.set = name ∧ r.1.column = column ∧ r.1.row = row)) ∘
          fun r => (r, MomentKind.empirical)) = fun b => decide (b.set = name ∧ b.column = column ∧ b.row = row) := rfl
      have c2 : ((fun r : TidyRow K × MomentKind => decide (r.1.set = name ∧ r.1.column = column ∧ r.1.row = row)) ∘
          fun r => (r, MomentKind.simulated)) = fun b => decide (b.set = name ∧ b.column = column ∧ b.row = row) := rfl
      rw [c1, c2, e1, e2]
      rfl
  · intro r hr
    rcases List.mem_append.1 hr with hr | hr
    · obtain ⟨t, ht, rfl⟩ := List.mem_map.1 hr
      rw [hte] at ht
      obtain ⟨nm, hnm, ht⟩ := List.mem_flatMap.1 ht
      obtain ⟨hset, p, q, col, h1, h2, -, -⟩ := (mem_tidyOne _ _ _).1 ht
      exact ⟨nm.2, by rw [hset]; exact hnm, by rw [hset]; exact List.mem_of_getElem? h1, List.mem_of_getElem? h2⟩
    · obtain ⟨t, ht, rfl⟩ := List.mem_map.1 hr
      rw [hts] at ht
      obtain ⟨nm, hnm, ht⟩ := List.mem_flatMap.1 ht
      obtain ⟨hset, p, q, col, h1, h2, -, -⟩ := (mem_tidyOne _ _ _).1 ht
      obtain ⟨e, he, k1, k2, -⟩ := hfrom nm hnm
      rw [k1] at h2
      rw [hsame _ _ _ k2] at h1
      exact ⟨e, by rw [hset]; exact he, by rw [hset]; exact List.mem_of_getElem? h1, List.mem_of_getElem? h2⟩

section Example

/-- Two functions in another order than the two sets of empirical moments. -/
def examplePlot : Option (List (TidyRow ℚ × MomentKind)) :=
  (simulatedMoments exampleFuncs.reverse exampleReplace exampleEmpirical 2).bind (comparisonPlotDataMsm exampleEmpirical)

example : examplePlot.isSome ∧ (Dict.keys exampleFuncs.reverse).Nodup ∧ (Dict.keys exampleEmpirical).Nodup ∧
    List.length exampleFuncs.reverse = List.length exampleEmpirical ∧
    (∀ nm ∈ exampleEmpirical, (nm.2.plotColumns nm.1).Nodup ∧ nm.2.index.Nodup ∧
      nm.2.values.length = nm.2.names.length ∧ ∀ col ∈ nm.2.values, col.length = nm.2.index.length) := by
  decide +kernel

example : ∀ k f, Dict.get? exampleReplace k = some f → LabelsKept f := by
  intro k f hf
  have hmem := Dict.mem_of_get? _ _ _ hf
  rcases List.mem_cons.1 hmem with h | h
  · cases h
    exact fun m r hm hr => by cases hr; exact ⟨rfl, rfl, hm⟩
  · rcases List.mem_cons.1 h with h | h
    · cases h
      exact fun m r hm hr => by cases hr; exact ⟨rfl, rfl, hm⟩
    · cases h

end Example

end Respy
