import Verif.Lemmas.MomentOrder
import Verif.Props.Moments

/-!
# Moments are compared by label (C63)
-/

set_option linter.unusedSectionVars false

namespace Respy

variable {K : Type _} [Field K] {D : Type _}

/-- The moments have the value `x` in a column and row with these labels. -/
def Moments.HasCell (m : Moments K) (column row : Str) (x : Option K) : Prop :=
  ∃ (p q : Nat) (col : List (Option K)), m.names[p]? = some column ∧ m.index[q]? = some row ∧
    m.values[p]? = some col ∧ col[q]? = some x

/-- The label of a moment: the name of the set of moments, the column if it is a frame, and the row. -/
def IsMomentLabel (name : Str) (m : Moments K) (column row label : Str) : Prop :=
  (m.columns.isSome → label = name ++ "_".toList ++ column ++ "_".toList ++ row) ∧
    (m.columns = none → label = name ++ "_".toList ++ row)

/-- C63: the flat series has exactly the moments of all sets, each with the label of its set, column and row. -/
theorem C63_flat_labels (d : Dict Str (Moments K)) (flat : Series K) (h : flattenIndex d = some flat)
    (label : Str) (x : Option K) :
    (label, x) ∈ flat ↔ ∃ name m column row, (name, m) ∈ d ∧ m.HasCell column row x ∧
      IsMomentLabel name m column row label := by
  unfold flattenIndex at h
  split at h
  · cases h
  · cases h
    rw [List.mem_flatMap]
    have key : ∀ name (m : Moments K) (column row : Str), IsMomentLabel name m column row label ↔
        label = flatLabel name m.columns.isSome column row := by
      intro name m column row
      unfold IsMomentLabel flatLabel
      cases hc : m.columns with
      | none => simp
      | some cs => simp
    simp only [key]
    constructor
    · rintro ⟨⟨name, m⟩, hm, hx⟩
      obtain ⟨⟨c, col⟩, hc, hx⟩ := List.mem_flatMap.1 hx
      obtain ⟨⟨i, y⟩, hi, hx⟩ := List.mem_map.1 hx
      cases hx
      obtain ⟨p, hp⟩ := List.mem_iff_getElem?.1 hc
      obtain ⟨q, hq⟩ := List.mem_iff_getElem?.1 hi
      rw [List.getElem?_zip_eq_some] at hp hq
      exact ⟨name, m, c, i, hm, ⟨p, q, col, hp.1, hq.1, hp.2, hq.2⟩, rfl⟩
    · rintro ⟨name, m, c, i, hm, ⟨p, q, col, h1, h2, h3, h4⟩, rfl⟩
      refine ⟨(name, m), hm, List.mem_flatMap.2 ⟨(c, col), ?_, List.mem_map.2 ⟨(i, x), ?_, rfl⟩⟩⟩
      · exact List.mem_of_getElem? (i := p) (List.getElem?_zip_eq_some.2 ⟨h1, h3⟩)
      · exact List.mem_of_getElem? (i := q) (List.getElem?_zip_eq_some.2 ⟨h2, h4⟩)

example : ("a_std_1".toList, some 4) ∈ (flattenIndex exampleEmpirical).getD [] := by decide +kernel

/-- Two tables with the same content: both are series or both are frames, no label appears twice, and the same
labels have the same values. Orders of rows and columns do not matter. -/
structure SameTable (m m' : Moments K) : Prop where
  kind : m.columns.isSome = m'.columns.isSome
  rows : m.index.Nodup
  columns : m.names.Nodup
  rows' : m'.index.Nodup
  columns' : m'.names.Nodup
  cells : ∀ c i x, m.HasCell c i x ↔ m'.HasCell c i x

theorem at_eq_some_iff (m : Moments K) (hi : m.index.Nodup) (hn : m.names.Nodup) (c i : Str) (x : K) :
    m.at (m.names.idxOf? c) (m.index.idxOf? i) = some x ↔ m.HasCell c i (some x) := by
  unfold Moments.at Moments.HasCell
  rw [Option.join_eq_some_iff]
  simp only [Option.bind_eq_some_iff, idxOf?_eq_some_iff_of_nodup _ hn, idxOf?_eq_some_iff_of_nodup _ hi]
  constructor
  · rintro ⟨p, hp, q, hq, col, hcol, hx⟩
    exact ⟨p, q, col, hp, hq, hcol, hx⟩
  · rintro ⟨p, q, col, hp, hq, hcol, hx⟩
    exact ⟨p, hp, q, hq, col, hcol, hx⟩

theorem reindexLike_sameTable (m m' other : Moments K) (h : SameTable m m') :
    reindexLike m other = reindexLike m' other := by
  by_cases hk : m.columns.isSome = other.columns.isSome
  · rw [reindexLike_of_nodup m other hk h.rows h.columns,
      reindexLike_of_nodup m' other (h.kind ▸ hk) h.rows' h.columns']
    congr 2
    refine List.map_congr_left fun c _ => List.map_congr_left fun i _ => Option.ext fun x => ?_
    rw [at_eq_some_iff m h.rows h.columns, at_eq_some_iff m' h.rows' h.columns', h.cells]
  · unfold reindexLike
    rw [if_neg hk, if_neg (h.kind ▸ hk)]

/-- C63: the criterion does not change if the functions return their moments with another order of rows and
columns. -/
theorem C63_rows (funcs funcs' : Dict Str (D → Option (Moments K)))
    (replaceNans : Dict Str (Moments K → Option (Moments K))) (empirical : Dict Str (Moments K))
    (w : List (List K)) (df : D)
    (h : List.Forall₂ (fun f f' => f.1 = f'.1 ∧
      ((f.2 df = none ∧ f'.2 df = none) ∨ ∃ m m', f.2 df = some m ∧ f'.2 df = some m' ∧ SameTable m m'))
      funcs funcs') :
    criterion funcs replaceNans empirical w df = criterion funcs' replaceNans empirical w df := by
  have hsim : simulatedMoments funcs replaceNans empirical df
      = simulatedMoments funcs' replaceNans empirical df := by
    unfold simulatedMoments
    induction h with
    | nil => rfl
    | cons hf _ ih =>
      rw [List.mapM_cons, List.mapM_cons, ih]
      congr 1
      obtain ⟨hn, hf⟩ := hf
      rw [hn]
      rcases hf with ⟨h1, h2⟩ | ⟨m, m', h1, h2, hm⟩
      · rw [h1, h2]
      · rw [h1, h2]
        simp only [Option.bind_eq_bind, Option.bind_some, reindexLike_sameTable m m' _ hm]
  unfold criterion momentErrors
  rw [hsim]

/-- A frame and the same frame with other orders of rows and columns. -/
example : SameTable (K := ℚ)
    ⟨["0".toList, "1".toList], some ["x".toList, "y".toList], [[some 1, some 2], [some 3, none]]⟩
    ⟨["1".toList, "0".toList], some ["y".toList, "x".toList], [[none, some 3], [some 2, some 1]]⟩ := by
  refine ⟨rfl, by decide +kernel, by decide +kernel, by decide +kernel, by decide +kernel, ?_⟩
  intro c i x
  constructor
  · rintro ⟨p, q, col, hp, hq, hcol, hx⟩
    refine ⟨1 - p, 1 - q, ?_⟩
    rcases p with _ | _ | p
    all_goals rcases q with _ | _ | q
    all_goals simp_all [Moments.names]
    all_goals subst hcol; simp_all
  · rintro ⟨p, q, col, hp, hq, hcol, hx⟩
    refine ⟨1 - p, 1 - q, ?_⟩
    rcases p with _ | _ | p
    all_goals rcases q with _ | _ | q
    all_goals simp_all [Moments.names]
    all_goals subst hcol; simp_all

/-! ## Orders of keys -/

theorem simulatedMoments_perm (funcs funcs' : Dict Str (D → Option (Moments K)))
    (replaceNans replaceNans' : Dict Str (Moments K → Option (Moments K)))
    (empirical empirical' : Dict Str (Moments K)) (df : D) (hf : List.Perm funcs funcs')
    (hr : ∀ k, Dict.get? replaceNans k = Dict.get? replaceNans' k)
    (he : ∀ k, Dict.get? empirical k = Dict.get? empirical' k) (s : Dict Str (Moments K))
    (hs : simulatedMoments funcs replaceNans empirical df = some s) :
    ∃ s', simulatedMoments funcs' replaceNans' empirical' df = some s' ∧ List.Perm s s' := by
  obtain ⟨s', hs', hp⟩ := mapM_perm _ _ _ hf s hs
  refine ⟨s', ?_, hp⟩
  rw [← hs']
  unfold simulatedMoments
  congr 1
  funext nf
  rw [hr, he]

theorem criterion_keys (funcs funcs' : Dict Str (D → Option (Moments K)))
    (replaceNans replaceNans' : Dict Str (Moments K → Option (Moments K)))
    (empirical empirical' : Dict Str (Moments K)) (df : D) (hf : List.Perm funcs funcs')
    (hr : ∀ k, Dict.get? replaceNans k = Dict.get? replaceNans' k)
    (he : List.Perm empirical empirical') (hkeys : (Dict.keys empirical).Nodup) (flat flat' : Series K)
    (hflat : flattenIndex empirical = some flat) (hflat' : flattenIndex empirical' = some flat')
    (hlabels : (flat.map Prod.fst).Nodup) (v : Option K)
    (h : criterion funcs replaceNans empirical (diagMatrix (flat.map fun _ => 1)) df = some v) :
    criterion funcs' replaceNans' empirical' (diagMatrix (flat'.map fun _ => 1)) df = some v := by
  unfold criterion at h ⊢
  obtain ⟨e, hme, h⟩ := Option.bind_eq_some_iff.1 h
  unfold momentErrors at hme ⊢
  obtain ⟨s, hs, hme⟩ := Option.bind_eq_some_iff.1 hme
  obtain ⟨fe, hfe, hme⟩ := Option.bind_eq_some_iff.1 hme
  obtain ⟨fs, hfs, hme⟩ := Option.bind_eq_some_iff.1 hme
  obtain ⟨s', hs', hps⟩ := simulatedMoments_perm funcs funcs' replaceNans replaceNans' empirical empirical' df
    hf hr (get?_perm _ _ he hkeys) s hs
  obtain ⟨fs', hfs', hpfs⟩ := flattenIndex_perm s s' hps fs hfs
  obtain ⟨fe', hfe', hpfe⟩ := flattenIndex_perm empirical empirical' he fe hfe
  rw [hflat] at hfe
  cases hfe
  rw [hflat'] at hfe'
  cases hfe'
  obtain ⟨e', he', hpe⟩ := subSeries_perm_perm flat flat' fs fs' e hlabels hpfe hpfs hme
  rw [hs', hflat']
  simp only [Option.bind_eq_bind, Option.bind_some, hfs', he']
  rw [← h]
  by_cases hl : e.length = flat.length
  · have h1 : ∀ (a : Series K) (b : Series K), a.length = b.length →
        b.map (fun _ => (1 : K)) = (a.map fun x => (x.2, (1 : K))).map Prod.snd := by
      intro a b hab
      rw [List.map_map]
      refine List.ext_getElem (by simp [hab]) fun i h1 h2 => by simp
    have h2 : ∀ a : Series K, a.map Prod.snd = (a.map fun x => (x.2, (1 : K))).map Prod.fst := by
      intro a
      rw [List.map_map]
      rfl
    have hl' : e'.length = flat'.length := by rw [← hpe.length_eq, ← hpfe.length_eq, hl]
    rw [h1 e flat hl, h1 e' flat' hl', h2 e, h2 e']
    exact (criterionValue_zip_perm _ _ (hpe.map _)).symm
  · have hl' : ¬ e'.length = flat'.length := by rw [← hpe.length_eq, ← hpfe.length_eq]; exact hl
    rw [criterionValue_diag, criterionValue_diag, if_neg (by simpa using hl'), if_neg (by simpa using hl)]

theorem msm_dict_default (funcs : Dict Str (D → Option (Moments K)))
    (replaceNans : Dict Str (Moments K → Option (Moments K))) (empirical : Dict Str (Moments K)) (df : D) :
    msm (.dict funcs) (some (.dict replaceNans)) (.dict empirical) none df
      = ((flattenIndex empirical).map fun s => diagMatrix (s.map fun _ => 1)).bind fun w =>
        if lengthsFit (List.length empirical) (List.length funcs) (List.length replaceNans) then
          criterion funcs replaceNans empirical w df else none := rfl

/-- C63 for the default weights: the order of keys in any of the dictionaries does not matter. Missing: weights
which differ between moments, for which the order of keys of the functions matters (`C63_keys_false`) unless it
is the same as the one of the empirical moments (`C63_common_order_partial`). -/
theorem C63_keys_partial (funcs funcs' : Dict Str (D → Option (Moments K)))
    (replaceNans replaceNans' : Dict Str (Moments K → Option (Moments K)))
    (empirical empirical' : Dict Str (Moments K)) (df : D) (hf : List.Perm funcs funcs')
    (hr : List.Perm replaceNans replaceNans') (he : List.Perm empirical empirical')
    (hkeys : (Dict.keys empirical).Nodup) (hrkeys : (Dict.keys replaceNans).Nodup) (flat : Series K)
    (hflat : flattenIndex empirical = some flat) (hlabels : (flat.map Prod.fst).Nodup) :
    msm (.dict funcs) (some (.dict replaceNans)) (.dict empirical) none df
      = msm (.dict funcs') (some (.dict replaceNans')) (.dict empirical') none df := by
  obtain ⟨flat', hflat', hpflat⟩ := flattenIndex_perm empirical empirical' he flat hflat
  rw [msm_dict_default, msm_dict_default, hflat, hflat', hf.length_eq, hr.length_eq, he.length_eq]
  simp only [Option.map_some, Option.bind_some]
  by_cases hlen : lengthsFit (List.length empirical') (List.length funcs') (List.length replaceNans') = true
  · rw [if_pos hlen, if_pos hlen]
    refine Option.ext fun v => ⟨fun h => ?_, fun h => ?_⟩
    · exact criterion_keys funcs funcs' replaceNans replaceNans' empirical empirical' df hf
        (get?_perm _ _ hr hrkeys) he hkeys flat flat' hflat hflat' hlabels v h
    · exact criterion_keys funcs' funcs replaceNans' replaceNans empirical' empirical df hf.symm
        (fun k => (get?_perm _ _ hr hrkeys k).symm) he.symm ((he.map Prod.fst).nodup_iff.1 hkeys) flat' flat
        hflat' hflat ((hpflat.map _).nodup_iff.1 hlabels) v h
  · rw [if_neg hlen, if_neg hlen]

example : List.Perm exampleFuncs exampleFuncs.reverse ∧ (Dict.keys exampleEmpirical).Nodup ∧
    msm (.dict exampleFuncs.reverse) (some (.dict exampleReplace)) (.dict exampleEmpirical) none (2 : ℚ)
      = some (some 91) :=
  ⟨(List.reverse_perm _).symm, by decide +kernel, by decide +kernel⟩

theorem pairs_by_label (a b : Series K) (hab : a.map Prod.fst = b.map Prod.fst) (hnd : (a.map Prod.fst).Nodup)
    (wt : Str → K) :
    ((List.zipWith (fun x y => (x.1, subNan x.2 y.2)) a b).map Prod.snd).zip ((a.map Prod.fst).map wt)
      = (a.map Prod.fst).map fun l => (subNan (Dict.get? a l).join (Dict.get? b l).join, wt l) := by
  have hb : (b.map Prod.fst).Nodup := hab ▸ hnd
  have hlen := congrArg List.length hab
  simp only [List.length_map] at hlen
  refine List.ext_getElem (by simp [hlen]) fun i h1 h2 => ?_
  have hi : i < a.length := by simpa using h2
  have hib : i < b.length := by omega
  have hl : a[i].1 = b[i].1 := by
    have := congrArg (fun l => l[i]?) hab
    simpa [hi, hib] using this
  simp only [List.getElem_zip, List.getElem_map, List.getElem_zipWith]
  rw [(mem_iff_get? a hnd a[i].1 a[i].2).1 (List.getElem_mem _)]
  rw [hl, (mem_iff_get? b hb b[i].1 b[i].2).1 (List.getElem_mem _)]
  rfl

/-- The criterion as a sum over labels. -/
theorem criterion_by_label (funcs : Dict Str (D → Option (Moments K)))
    (replaceNans : Dict Str (Moments K → Option (Moments K))) (empirical weights : Dict Str (Moments K)) (df : D)
    (hkeys : Dict.keys funcs = Dict.keys empirical) (hnd : (Dict.keys empirical).Nodup)
    (hfull : ∀ e ∈ empirical, e.2.Full)
    (hrep : ∀ k f, Dict.get? replaceNans k = some f → LabelsKept f) (fe : Series K)
    (hfe : flattenIndex empirical = some fe) (hlabels : (fe.map Prod.fst).Nodup) (ws : List K)
    (hws : diagWeights (.dict empirical) (some (.dict weights)) = some (ws.map some)) (v : Option K)
    (h : criterion funcs replaceNans empirical (diagMatrix ws) df = some v) :
    ∃ sim fs fw, simulatedMoments funcs replaceNans empirical df = some sim ∧ flattenIndex sim = some fs ∧
      fs.map Prod.fst = fe.map Prod.fst ∧
      flatWeights empirical weights = some fw ∧ (fw.map Prod.fst).Nodup ∧
      some v = criterionValue
        (((fe.map Prod.fst).map fun l => (subNan (Dict.get? fe l).join (Dict.get? fs l).join,
          (Dict.get? fw l).join.getD 0)).map Prod.fst)
        (diagMatrix (((fe.map Prod.fst).map fun l => (subNan (Dict.get? fe l).join (Dict.get? fs l).join,
          (Dict.get? fw l).join.getD 0)).map Prod.snd)) := by
  unfold criterion at h
  obtain ⟨e, hme, h⟩ := Option.bind_eq_some_iff.1 h
  rw [momentErrors_aligned funcs replaceNans empirical df hkeys hnd hfull hrep] at hme
  obtain ⟨sim, hsim, hme⟩ := Option.bind_eq_some_iff.1 hme
  obtain ⟨fe', hfe', hme⟩ := Option.bind_eq_some_iff.1 hme
  obtain ⟨fs, hfs, hme⟩ := Option.bind_eq_some_iff.1 hme
  rw [hfe] at hfe'
  cases hfe'
  cases hme
  obtain ⟨fw, hfw, hnw, hr⟩ := diagWeights_dict empirical weights fe hfe hlabels _ hws
  have hF := simulatedMoments_labels funcs replaceNans empirical df hkeys hnd hrep sim hsim
  have hl := flatten_labels_eq sim empirical hF hfull
  have hls : fs.map Prod.fst = fe.map Prod.fst := by
    unfold flattenIndex at hfe hfs
    split at hfe
    · simp at hfe
    · split at hfs
      · simp at hfs
      · cases hfe
        cases hfs
        exact hl
  have hws' : ws = (fe.map Prod.fst).map fun l => (Dict.get? fw l).join.getD 0 := by
    have := congrArg (List.map fun x : Option K => x.getD 0) hr
    simp only [List.map_map, Function.comp_def, Option.getD_some, List.map_id'] at this
    rw [List.map_map]
    exact this
  refine ⟨sim, fs, fw, hsim, hfs, hls, hfw, hnw, ?_⟩
  rw [← pairs_by_label fe fs hls.symm hlabels, ← hws', List.map_fst_zip, List.map_snd_zip]
  · exact h.symm
  all_goals
    have hlen := congrArg List.length hls
    simp only [List.length_map] at hlen
    simp [hws', hlen]

theorem criterion_common_order (funcs funcs' : Dict Str (D → Option (Moments K)))
    (replaceNans replaceNans' : Dict Str (Moments K → Option (Moments K)))
    (empirical empirical' weights weights' : Dict Str (Moments K)) (df : D)
    (hf : List.Perm funcs funcs') (hr : ∀ k, Dict.get? replaceNans k = Dict.get? replaceNans' k)
    (he : List.Perm empirical empirical') (hw : List.Perm weights weights')
    (hkeys : Dict.keys funcs = Dict.keys empirical) (hkeys' : Dict.keys funcs' = Dict.keys empirical')
    (hnd : (Dict.keys empirical).Nodup) (hfull : ∀ e ∈ empirical, e.2.Full)
    (hrep : ∀ k f, Dict.get? replaceNans k = some f → LabelsKept f) (fe : Series K)
    (hfe : flattenIndex empirical = some fe) (hlabels : (fe.map Prod.fst).Nodup) (ws ws' : List K)
    (hws : diagWeights (.dict empirical) (some (.dict weights)) = some (ws.map some))
    (hws' : diagWeights (.dict empirical') (some (.dict weights')) = some (ws'.map some)) (v : Option K)
    (h : criterion funcs replaceNans empirical (diagMatrix ws) df = some v) :
    criterion funcs' replaceNans' empirical' (diagMatrix ws') df = some v := by
  obtain ⟨sim, fs, fw, hsim, hfs, hls, hfw, hnw, hv⟩ := criterion_by_label funcs replaceNans empirical weights df
    hkeys hnd hfull hrep fe hfe hlabels ws hws v h
  have hnd' : (Dict.keys empirical').Nodup := (he.map Prod.fst).nodup_iff.1 hnd
  have hfull' : ∀ e ∈ empirical', e.2.Full := fun e hx => hfull e (he.mem_iff.2 hx)
  have hrep' : ∀ k f, Dict.get? replaceNans' k = some f → LabelsKept f := fun k f hk => hrep k f (hr k ▸ hk)
  obtain ⟨fe', hfe', hpe⟩ := flattenIndex_perm empirical empirical' he fe hfe
  have hlabels' : (fe'.map Prod.fst).Nodup := (hpe.map _).nodup_iff.1 hlabels
  obtain ⟨sim', hsim', hps⟩ := simulatedMoments_perm funcs funcs' replaceNans replaceNans' empirical empirical' df
    hf hr (get?_perm _ _ he hnd) sim hsim
  obtain ⟨fs', hfs', hpfs⟩ := flattenIndex_perm sim sim' hps fs hfs
  obtain ⟨fw', hfw', hpw⟩ := flatWeights_perm empirical empirical' weights weights' (get?_perm _ _ he hnd) hw fw hfw
  -- the other criterion has a value
  have hex : ∃ v', criterion funcs' replaceNans' empirical' (diagMatrix ws') df = some v' := by
    unfold criterion
    rw [momentErrors_aligned funcs' replaceNans' empirical' df hkeys' hnd' hfull' hrep', hsim', hfe']
    simp only [Option.bind_some, hfs', Option.bind_eq_bind]
    rw [criterionValue_diag, if_pos]
    · exact ⟨_, rfl⟩
    · obtain ⟨fw'', hfw'', -, hr''⟩ := diagWeights_dict empirical' weights' fe' hfe' hlabels' _ hws'
      have h1 := congrArg List.length hr''
      have h2 := congrArg List.length hls
      have h3 := hpe.length_eq
      have h4 := hpfs.length_eq
      simp only [List.length_map] at h1 h2
      simp only [List.length_map, List.length_zipWith]
      omega
  obtain ⟨v', hv'⟩ := hex
  obtain ⟨sim2, fs2, fw2, hsim2, hfs2, hls2, hfw2, hnw2, hv2⟩ := criterion_by_label funcs' replaceNans' empirical'
    weights' df hkeys' hnd' hfull' hrep' fe' hfe' hlabels' ws' hws' v' hv'
  rw [hsim'] at hsim2
  cases hsim2
  rw [hfs'] at hfs2
  cases hfs2
  rw [hfw'] at hfw2
  cases hfw2
  rw [hv', hv, hv2]
  have hnfs : (fs.map Prod.fst).Nodup := by rw [hls]; exact hlabels
  have hg : (fun l => (subNan (Dict.get? fe l).join (Dict.get? fs l).join, (Dict.get? fw l).join.getD 0))
      = fun l => (subNan (Dict.get? fe' l).join (Dict.get? fs' l).join, (Dict.get? fw' l).join.getD 0) := by
    funext l
    rw [get?_perm fe fe' hpe hlabels l, get?_perm fs fs' hpfs hnfs l, get?_perm fw fw' hpw hnw l]
  rw [hg]
  exact (criterionValue_zip_perm _ _ ((hpe.map Prod.fst).map _)).symm

/-- C63 for weights given by label: if all dictionaries are reordered such that the functions have the order of
the empirical moments, and the weighting matrix is built by `get_diag_weighting_matrix` from weights in any
order, the criterion is the same. Missing: functions in another order than the empirical moments
(`C63_keys_false`). -/
theorem C63_common_order_partial (funcs funcs' : Dict Str (D → Option (Moments K)))
    (replaceNans replaceNans' : Dict Str (Moments K → Option (Moments K)))
    (empirical empirical' weights weights' : Dict Str (Moments K)) (df : D)
    (hf : List.Perm funcs funcs') (hr : List.Perm replaceNans replaceNans')
    (he : List.Perm empirical empirical') (hw : List.Perm weights weights')
    (hkeys : Dict.keys funcs = Dict.keys empirical) (hkeys' : Dict.keys funcs' = Dict.keys empirical')
    (hnd : (Dict.keys empirical).Nodup) (hndr : (Dict.keys replaceNans).Nodup)
    (hfull : ∀ e ∈ empirical, e.2.Full) (hrep : ∀ kf ∈ replaceNans, LabelsKept kf.2) (fe : Series K)
    (hfe : flattenIndex empirical = some fe) (hlabels : (fe.map Prod.fst).Nodup) (ws ws' : List K)
    (hws : diagWeights (.dict empirical) (some (.dict weights)) = some (ws.map some))
    (hws' : diagWeights (.dict empirical') (some (.dict weights')) = some (ws'.map some)) :
    msm (.dict funcs) (some (.dict replaceNans)) (.dict empirical) (some (diagMatrix ws)) df
      = msm (.dict funcs') (some (.dict replaceNans')) (.dict empirical') (some (diagMatrix ws')) df := by
  have hm : ∀ (f : Dict Str (D → Option (Moments K))) (r : Dict Str (Moments K → Option (Moments K)))
      (e : Dict Str (Moments K)) (w : List (List K)), msm (.dict f) (some (.dict r)) (.dict e) (some w) df
        = if lengthsFit (List.length e) (List.length f) (List.length r) then criterion f r e w df else none :=
    fun _ _ _ _ => rfl
  rw [hm, hm, hf.length_eq, hr.length_eq, he.length_eq]
  obtain ⟨fe', hfe', hpe⟩ := flattenIndex_perm empirical empirical' he fe hfe
  have hrep1 : ∀ k f, Dict.get? replaceNans k = some f → LabelsKept f :=
    fun k f hk => hrep (k, f) (Dict.mem_of_get? _ _ _ hk)
  have hrep2 : ∀ k f, Dict.get? replaceNans' k = some f → LabelsKept f :=
    fun k f hk => hrep (k, f) (hr.mem_iff.2 (Dict.mem_of_get? _ _ _ hk))
  by_cases hlen : lengthsFit (List.length empirical') (List.length funcs') (List.length replaceNans') = true
  · rw [if_pos hlen, if_pos hlen]
    refine Option.ext fun v => ⟨fun h => ?_, fun h => ?_⟩
    · exact criterion_common_order funcs funcs' replaceNans replaceNans' empirical empirical' weights weights' df hf
        (get?_perm _ _ hr hndr) he hw hkeys hkeys' hnd hfull hrep1 fe hfe hlabels ws ws' hws hws' v h
    · exact criterion_common_order funcs' funcs replaceNans' replaceNans empirical' empirical weights' weights df
        hf.symm (fun k => (get?_perm _ _ hr hndr k).symm) he.symm hw.symm hkeys' hkeys
        ((he.map Prod.fst).nodup_iff.1 hnd) (fun e hx => hfull e (he.mem_iff.2 hx)) hrep2 fe' hfe'
        ((hpe.map _).nodup_iff.1 hlabels) ws' ws hws' hws v h
  · rw [if_neg hlen, if_neg hlen]

/-- Weights for the example. -/
def exampleWeights : Dict Str (Moments ℚ) :=
  [("b".toList, ⟨["1".toList, "0".toList], none, [[some 2, some 1]]⟩),
   ("a".toList, ⟨["0".toList, "1".toList], some ["mean".toList, "std".toList],
    [[some 3, some 4], [some 5, some 6]]⟩)]

/-- The hypotheses of `C63_common_order_partial` hold in the example and its reversed version. -/
example : Dict.keys exampleFuncs.reverse = Dict.keys exampleEmpirical.reverse ∧
    (∀ e ∈ exampleEmpirical, e.2.Full) ∧ (∀ kf ∈ exampleReplace, LabelsKept kf.2) ∧
    diagWeights (.dict exampleEmpirical) (some (.dict exampleWeights)) = some (([3, 4, 5, 6, 1, 2] : List ℚ).map some) ∧
    diagWeights (.dict exampleEmpirical.reverse) (some (.dict exampleWeights))
      = some (([1, 2, 3, 4, 5, 6] : List ℚ).map some) ∧
    msm (.dict exampleFuncs.reverse) (some (.dict exampleReplace)) (.dict exampleEmpirical.reverse)
      (some (diagMatrix [1, 2, 3, 4, 5, 6])) (2 : ℚ) = some (some 257) := by
  refine ⟨rfl, by decide +kernel, ?_, by decide +kernel, by decide +kernel, by decide +kernel⟩
  intro kf hkf
  simp only [exampleReplace, List.mem_cons, List.not_mem_nil, or_false] at hkf
  rcases hkf with rfl | rfl <;> exact labelsKept_some

/-- C63 is wrong for other weights: with another order of keys pandas sorts the labels while the weights belong
to the order of the empirical moments. -/
theorem C63_keys_false : ∃ (funcs funcs' : Dict Str (Unit → Option (Moments ℚ)))
    (empirical : Dict Str (Moments ℚ)) (ws : List ℚ), List.Perm funcs funcs' ∧ (Dict.keys funcs).Nodup ∧
    diagWeights (.dict empirical) (some (.dict [("b".toList, ⟨["0".toList], none, [[some 1]]⟩),
      ("a".toList, ⟨["0".toList], none, [[some 2]]⟩)])) = some (ws.map some) ∧
    msm (.dict funcs) none (.dict empirical) (some (diagMatrix ws)) () = some (some 1) ∧
    msm (.dict funcs') none (.dict empirical) (some (diagMatrix ws)) () = some (some 2) :=
  ⟨[("b".toList, fun _ => some ⟨["0".toList], none, [[some 1]]⟩),
     ("a".toList, fun _ => some ⟨["0".toList], none, [[some 0]]⟩)],
   [("a".toList, fun _ => some ⟨["0".toList], none, [[some 0]]⟩),
     ("b".toList, fun _ => some ⟨["0".toList], none, [[some 1]]⟩)],
   [("b".toList, ⟨["0".toList], none, [[some 0]]⟩), ("a".toList, ⟨["0".toList], none, [[some 0]]⟩)],
   [1, 2], List.Perm.swap _ _ _, by decide +kernel, by decide +kernel, by decide +kernel, by decide +kernel⟩

end Respy
