import Verif.Lemmas.MomentOrder
import Verif.Props.Moments

/-!
# Forms of inputs of the method of simulated moments (C64)
-/

set_option linter.unusedSectionVars false

namespace Respy

variable {K : Type _} [Field K] {D : Type _}

theorem numberText_injective : Function.Injective numberText := by
  intro m n h
  have h1 := Nat.ofDigitChars_toDigits (b := 10) (n := m) (by decide) (by decide)
  have h2 := Nat.ofDigitChars_toDigits (b := 10) (n := n) (by decide) (by decide)
  unfold numberText at h
  rw [← h1, h, h2]

/-- The names of moments in a list. -/
def listNames (n : Nat) : List Str := (List.range n).map numberText

theorem listNames_nodup (n : Nat) : (listNames n).Nodup := List.nodup_range.map numberText_injective

theorem harmonizeInput_list {α : Type _} (xs : List α) :
    harmonizeInput (.list xs) = (listNames xs.length).zip xs := by
  have h : (xs.mapIdx fun i x => (numberText i, x)) = (listNames xs.length).zip xs := by
    refine List.ext_getElem (by simp [listNames]) fun i h1 h2 => ?_
    simp [listNames]
  have hnd : ((xs.mapIdx fun i x => (numberText i, x)).map Prod.fst).Nodup := by
    rw [h, List.map_fst_zip (by simp [listNames])]
    exact listNames_nodup _
  change Dict.ofItems (xs.mapIdx fun i x => (numberText i, x)) = _
  rw [Dict.ofItems_of_nodup _ hnd, h]

theorem get?_zip {ν : Type _} (ns : List Str) (vs : List ν) (hns : ns.Nodup) (i : Nat) (h : i < ns.length) :
    Dict.get? (ns.zip vs) ns[i] = vs[i]? := by
  induction ns generalizing vs i with
  | nil => simp at h
  | cons n ns ih =>
    rw [List.nodup_cons] at hns
    cases vs with
    | nil => simp [Dict.get?]
    | cons v vs =>
      rw [List.zip_cons_cons]
      unfold Dict.get?
      cases i with
      | zero => simp
      | succ i =>
        simp only [List.getElem_cons_succ, List.getElem?_cons_succ]
        rw [if_neg, ih vs hns.2 i (by simpa using h)]
        intro hn
        exact hns.1 (hn ▸ List.getElem_mem _)

/-- One step of the simulation of moments in terms of positions. -/
def simulateAt (rs : List (Moments K → Option (Moments K))) (es : List (Moments K)) (df : D)
    (f : D → Option (Moments K)) (i : Nat) : Option (Moments K) := do
  let m ← f df
  let other ← es[i]?
  let m ← reindexLike m other
  let r ← rs[i]?
  r m

theorem simulatedMoments_zip (ns : List Str) (hns : ns.Nodup) (fs : List (D → Option (Moments K)))
    (rs : List (Moments K → Option (Moments K))) (es : List (Moments K)) (df : D)
    (hf : fs.length = ns.length) :
    simulatedMoments (ns.zip fs) (ns.zip rs) (ns.zip es) df
      = ((fs.zipIdx.mapM fun fi => simulateAt rs es df fi.1 fi.2).map fun ms => ns.zip ms) := by
  unfold simulatedMoments
  have hgen : ∀ (k : Nat) (gs : List (D → Option (Moments K))), k + gs.length = ns.length →
      ((ns.drop k).zip gs).mapM (fun nf : Str × (D → Option (Moments K)) => do
        let m ← nf.2 df
        let other ← Dict.get? (ns.zip es) nf.1
        let m ← reindexLike m other
        let f ← Dict.get? (ns.zip rs) nf.1
        let m ← f m
        pure (nf.1, m))
      = (((gs.zipIdx k).mapM fun fi => simulateAt rs es df fi.1 fi.2).map fun ms => (ns.drop k).zip ms) := by
    intro k gs
    induction gs generalizing k with
    | nil =>
      intro _
      simp
    | cons g gs ih =>
      intro hk
      simp only [List.length_cons] at hk
      have hkn : k < ns.length := by omega
      have hd : ns.drop k = ns[k] :: ns.drop (k + 1) := List.drop_eq_getElem_cons hkn
      rw [hd, List.zip_cons_cons, List.mapM_cons, ih (k + 1) (by omega), List.zipIdx_cons, List.mapM_cons]
      dsimp only
      rw [get?_zip ns es hns k hkn, get?_zip ns rs hns k hkn]
      unfold simulateAt
      simp only [Option.bind_eq_bind]
      cases g df with
      | none => rfl
      | some m =>
        simp only [Option.bind_some]
        cases es[k]? with
        | none => rfl
        | some other =>
          simp only [Option.bind_some]
          cases reindexLike m other with
          | none => rfl
          | some m' =>
            simp only [Option.bind_some]
            cases rs[k]? with
            | none => rfl
            | some r =>
              simp only [Option.bind_some]
              cases r m' with
              | none => rfl
              | some m'' =>
                simp only [Option.pure_def, Option.bind_some]
                generalize (List.mapM _ (gs.zipIdx (k + 1)) : Option (List (Moments K))) = ms
                cases ms with
                | none => rfl
                | some ms =>
                  simp only [Option.bind_some, Option.map_some]
                  rw [List.zip_cons_cons]
  have := hgen 0 fs (by omega)
  simpa using this

theorem flattenOne_snd (n n' : Str) (m : Moments K) :
    (flattenOne n m).map Prod.snd = (flattenOne n' m).map Prod.snd := by
  unfold flattenOne
  simp [List.map_flatMap, List.map_map, Function.comp_def]

theorem flatten_zip_snd (ns ns' : List Str) (ms : List (Moments K)) (h : ns.length = ns'.length) :
    ((ns.zip ms).flatMap fun nm => flattenOne nm.1 nm.2).map Prod.snd
      = ((ns'.zip ms).flatMap fun nm => flattenOne nm.1 nm.2).map Prod.snd := by
  induction ns generalizing ns' ms with
  | nil =>
    cases ns' with
    | nil => rfl
    | cons n ns' => simp at h
  | cons n ns ih =>
    cases ns' with
    | nil => simp at h
    | cons n' ns' =>
      cases ms with
      | nil => rfl
      | cons m ms =>
        simp only [List.zip_cons_cons, List.flatMap_cons, List.map_append]
        rw [ih ns' ms (by simpa using h), flattenOne_snd n n' m]

/-- The names of moments do not matter. -/
theorem criterion_names (ns ns' : List Str) (hns : ns.Nodup) (hns' : ns'.Nodup) (h : ns.length = ns'.length)
    (fs : List (D → Option (Moments K))) (rs : List (Moments K → Option (Moments K))) (es : List (Moments K))
    (w : List (List K)) (df : D) (hf : fs.length = ns.length) (he : es.length = ns.length)
    (hfull : ∀ e ∈ es, e.Full) (hrep : ∀ r ∈ rs, LabelsKept r) :
    criterion (ns.zip fs) (ns.zip rs) (ns.zip es) w df = criterion (ns'.zip fs) (ns'.zip rs) (ns'.zip es) w df := by
  have key : ∀ N : List Str, N.Nodup → N.length = ns.length →
      (momentErrors (N.zip fs) (N.zip rs) (N.zip es) df).map (List.map Prod.snd)
        = (fs.zipIdx.mapM fun fi => simulateAt rs es df fi.1 fi.2).bind fun ms =>
          if ns.length = 0 then none else
            some (List.zipWith subNan (((ns.zip es).flatMap fun nm => flattenOne nm.1 nm.2).map Prod.snd)
              (((ns.zip ms).flatMap fun nm => flattenOne nm.1 nm.2).map Prod.snd)) := by
    intro N hN hNl
    rw [momentErrors_aligned, simulatedMoments_zip N hN fs rs es df (by omega)]
    · cases hms : (fs.zipIdx.mapM fun fi => simulateAt rs es df fi.1 fi.2 : Option (List (Moments K))) with
      | none => rfl
      | some ms =>
        have hlen : ms.length = fs.length := by
          rw [mapM_eq_some_iff] at hms
          have := hms.length_eq
          simpa using this.symm
        simp only [Option.map_some, Option.bind_some]
        by_cases h0 : ns.length = 0
        · have : N.zip es = [] := by
            rw [h0, List.length_eq_zero_iff] at hNl
            simp [hNl]
          rw [this, if_pos h0]
          rfl
        · have h1 : N.zip es ≠ [] := by
            intro h'
            have := congrArg List.length h'
            simp only [List.length_zip, List.length_nil] at this
            omega
          have h2 : N.zip ms ≠ [] := by
            intro h'
            have := congrArg List.length h'
            simp only [List.length_zip, List.length_nil] at this
            omega
          rw [if_neg h0]
          unfold flattenIndex
          rw [if_neg h1, if_neg h2]
          simp only [Option.bind_some, Option.map_some]
          rw [flatten_zip_snd ns N es (by omega), flatten_zip_snd ns N ms (by omega), List.map_zipWith,
            List.zipWith_map]
    · rw [keys_eq_map, keys_eq_map, List.map_fst_zip (by omega), List.map_fst_zip (by omega)]
    · rw [keys_eq_map, List.map_fst_zip (by omega)]
      exact hN
    · intro e hx
      exact hfull e.2 (List.of_mem_zip hx).2
    · intro k f hk
      exact hrep f (List.of_mem_zip (Dict.mem_of_get? _ _ _ hk)).2
  have hc : ∀ N : List Str, criterion (N.zip fs) (N.zip rs) (N.zip es) w df
      = ((momentErrors (N.zip fs) (N.zip rs) (N.zip es) df).map (List.map Prod.snd)).bind
        fun e => criterionValue e w := by
    intro N
    unfold criterion
    cases momentErrors (N.zip fs) (N.zip rs) (N.zip es) df <;> rfl
  rw [hc, hc, key ns hns rfl, key ns' hns' h.symm]

/-- The same functions for missing values: for a list with names `ns`, or one function for all moments. -/
inductive SameReplacement (ns : List Str) :
    Option (Input (Moments K → Option (Moments K))) → Option (Input (Moments K → Option (Moments K))) →
      List (Moments K → Option (Moments K)) → Prop
  | none : SameReplacement ns none none [some]
  | single (f) : SameReplacement ns (some (.single f)) (some (.single f)) [f]
  | list (rs : List (Moments K → Option (Moments K))) (h : rs.length = ns.length) :
      SameReplacement ns (some (.list rs)) (some (.dict (ns.zip rs))) rs

theorem map_const_zip {β : Type _} (ks : List Str) (b : β) :
    (ks.map fun k => (k, b)) = ks.zip (List.replicate ks.length b) := by
  induction ks with
  | nil => rfl
  | cons k ks ih => rw [List.map_cons, ih, List.length_cons, List.replicate_succ, List.zip_cons_cons]

/-- C64: moments in a list give the same criterion as moments in a dictionary with any names, whether functions
for missing values are given in the same form, as a single function for all moments, or not at all. -/
theorem C64_list_dict (ns : List Str) (hns : ns.Nodup) (fs : List (D → Option (Moments K)))
    (es : List (Moments K)) (r r' : Option (Input (Moments K → Option (Moments K))))
    (rs : List (Moments K → Option (Moments K))) (hr : SameReplacement ns r r' rs)
    (w : Option (List (List K))) (df : D) (hf : fs.length = ns.length) (he : es.length = ns.length)
    (hfull : ∀ e ∈ es, e.Full) (hrep : ∀ f ∈ rs, LabelsKept f) :
    msm (.list fs) r (.list es) w df = msm (.dict (ns.zip fs)) r' (.dict (ns.zip es)) w df := by
  have hL : (listNames ns.length).length = ns.length := by simp [listNames]
  -- functions for missing values by position
  obtain ⟨qs, hq1, hq2, hqk⟩ : ∃ qs : List (Moments K → Option (Moments K)),
      harmonizeReplaceNans some (harmonizeInput (.list es)) r = (listNames ns.length).zip qs ∧
      harmonizeReplaceNans some (ns.zip es) r' = ns.zip qs ∧ ∀ f ∈ qs, LabelsKept f := by
    have hk1 : Dict.keys (harmonizeInput (.list es)) = listNames ns.length := by
      rw [harmonizeInput_list, keys_eq_map, List.map_fst_zip (by simp [listNames]), he]
    have hk2 : Dict.keys (ns.zip es) = ns := by
      rw [keys_eq_map, List.map_fst_zip (by omega)]
    cases hr with
    | none =>
      refine ⟨List.replicate ns.length some, ?_, ?_, ?_⟩
      · change (Dict.keys _).map (fun k => (k, some)) = _
        rw [hk1, map_const_zip, hL]
      · change (Dict.keys _).map (fun k => (k, some)) = _
        rw [hk2, map_const_zip]
      · intro f hf
        rw [List.eq_of_mem_replicate hf]
        exact labelsKept_some
    | single f =>
      refine ⟨List.replicate ns.length f, ?_, ?_, ?_⟩
      · change (Dict.keys _).map (fun k => (k, f)) = _
        rw [hk1, map_const_zip, hL]
      · change (Dict.keys _).map (fun k => (k, f)) = _
        rw [hk2, map_const_zip]
      · intro g hg
        rw [List.eq_of_mem_replicate hg]
        exact hrep f (by simp)
    | list rs h =>
      refine ⟨rs, ?_, rfl, hrep⟩
      change harmonizeInput (.list rs) = _
      rw [harmonizeInput_list, h]
  have hw : chosenWeights (harmonizeInput (.list es)) w = chosenWeights (ns.zip es) w := by
    cases w with
    | some w => rfl
    | none =>
      unfold chosenWeights
      rw [harmonizeInput_list, he]
      unfold flattenIndex
      by_cases h0 : ns.length = 0
      · rw [if_pos (by simp [h0, listNames]), if_pos (by simp [List.length_eq_zero_iff.1 h0])]
      · rw [if_neg, if_neg]
        · simp only [Option.map_some]
          have := congrArg (List.map fun _ => (1 : K)) (flatten_zip_snd (listNames ns.length) ns es hL)
          simp only [List.map_map, Function.comp_def] at this
          rw [this]
        · intro h'
          have := congrArg List.length h'
          simp only [List.length_zip, List.length_nil] at this
          omega
        · intro h'
          have := congrArg List.length h'
          simp only [List.length_zip, List.length_nil] at this
          omega
  unfold msm
  rw [hw]
  change _ = (chosenWeights (ns.zip es) w).bind _
  generalize chosenWeights (ns.zip es) w = w'
  cases w' with
  | none => rfl
  | some w' =>
    simp only [Option.bind_eq_bind, Option.bind_some]
    rw [hq1]
    change _ = if lengthsFit (List.length (ns.zip es)) (List.length (ns.zip fs))
      (List.length (harmonizeReplaceNans some (ns.zip es) r')) = true then
      criterion (ns.zip fs) (harmonizeReplaceNans some (ns.zip es) r') (ns.zip es) w' df else none
    rw [hq2, harmonizeInput_list, harmonizeInput_list, he, hf,
      criterion_names (listNames ns.length) ns (listNames_nodup _) hns hL fs qs es w' df (by omega) (by omega)
        hfull hqk]
    simp only [List.length_zip, hL]

/-- C64: a single object is the same as a list with this object. -/
theorem C64_single_list (f : D → Option (Moments K)) (e : Moments K)
    (r : Option (Input (Moments K → Option (Moments K)))) (w : Option (List (List K))) (df : D) :
    msm (.single f) r (.single e) w df = msm (.list [f]) r (.list [e]) w df := by
  unfold msm
  rw [harmonizeInput_list, harmonizeInput_list]
  rfl

/-- C64: if the criterion can be computed for dictionaries, each set of empirical moments has exactly one function
which computes it and one which replaces missing values. -/
theorem C64_complete (funcs : Dict Str (D → Option (Moments K)))
    (replaceNans : Dict Str (Moments K → Option (Moments K))) (empirical : Dict Str (Moments K))
    (w : Option (List (List K))) (df : D) (v : Option K) (hf : (Dict.keys funcs).Nodup)
    (h : msm (.dict funcs) (some (.dict replaceNans)) (.dict empirical) w df = some v) :
    List.Perm (Dict.keys funcs) (Dict.keys empirical) ∧
      List.Perm (Dict.keys replaceNans) (Dict.keys empirical) := by
  unfold msm at h
  obtain ⟨w', -, h⟩ := Option.bind_eq_some_iff.1 h
  change (if lengthsFit (List.length empirical) (List.length funcs) (List.length replaceNans) then
    criterion funcs replaceNans empirical w' df else none) = some v at h
  split at h
  · next hl =>
    unfold lengthsFit at hl
    simp only [Bool.and_eq_true, Bool.not_eq_true', Bool.or_eq_false_iff, decide_eq_true_eq,
      decide_eq_false_iff_not] at hl
    obtain ⟨⟨hl1, hl2⟩, hl3⟩ := hl
    obtain ⟨e, he', -⟩ := Option.bind_eq_some_iff.1 h
    obtain ⟨sim, hsim, -⟩ := Option.bind_eq_some_iff.1 he'
    unfold simulatedMoments at hsim
    rw [mapM_eq_some_iff] at hsim
    have hsub : ∀ k ∈ Dict.keys funcs, k ∈ Dict.keys empirical ∧ k ∈ Dict.keys replaceNans := by
      intro k hk
      obtain ⟨nf, hnf, rfl⟩ := List.mem_map.1 hk
      obtain ⟨i, hi⟩ := List.mem_iff_getElem?.1 hnf
      obtain ⟨b, -, hb⟩ := forall₂_getElem? hsim i nf hi
      obtain ⟨m, -, hb⟩ := Option.bind_eq_some_iff.1 hb
      obtain ⟨o, ho, hb⟩ := Option.bind_eq_some_iff.1 hb
      obtain ⟨m', -, hb⟩ := Option.bind_eq_some_iff.1 hb
      obtain ⟨f, hf, -⟩ := Option.bind_eq_some_iff.1 hb
      exact ⟨List.mem_map.2 ⟨_, Dict.mem_of_get? _ _ _ ho, rfl⟩, List.mem_map.2 ⟨_, Dict.mem_of_get? _ _ _ hf, rfl⟩⟩
    have l1 : (Dict.keys funcs).length = List.length funcs := List.length_map _
    have l2 : (Dict.keys empirical).length = List.length empirical := List.length_map _
    have l3 : (Dict.keys replaceNans).length = List.length replaceNans := List.length_map _
    have p1 : List.Perm (Dict.keys funcs) (Dict.keys empirical) :=
      (List.subperm_of_subset hf fun k hk => (hsub k hk).1).perm_of_length_le (by omega)
    have s2 : (Dict.keys funcs).Subperm (Dict.keys replaceNans) := List.subperm_of_subset hf fun k hk => (hsub k hk).2
    have hle := s2.length_le
    exact ⟨p1, (s2.perm_of_length_le (by omega)).symm.trans p1⟩
  · cases h

/-- C64: the form of the simulated moments for a dictionary, a single object, and a list with another number
of moments than one. Missing: lists with one element (`C64_one_element_list_false`). -/
theorem C64_returned_form_partial (ns : List Str) (hns : ns.Nodup) (fs : List (D → Option (Moments K)))
    (rs : List (Moments K → Option (Moments K))) (es : List (Moments K)) (df : D) (hf : fs.length = ns.length)
    (sim : Dict Str (Moments K)) (h : simulatedMoments (ns.zip fs) (ns.zip rs) (ns.zip es) df = some sim) :
    (∃ ds, returnedMoments true sim = .dict (ns.zip ds) ∧ ds.length = ns.length) ∧
    (ns.length = 1 → ∃ d, returnedMoments false sim = .single d) ∧
    (ns.length ≠ 1 → ∃ ds, returnedMoments false sim = .list ds ∧ ds.length = ns.length ∧ sim = ns.zip ds) := by
  rw [simulatedMoments_zip ns hns fs rs es df hf] at h
  obtain ⟨ms, hms, rfl⟩ := Option.map_eq_some_iff.1 h
  have hlen : ms.length = ns.length := by
    rw [mapM_eq_some_iff] at hms
    have := hms.length_eq
    simp only [List.length_zipIdx] at this
    omega
  have hv : Dict.values (ns.zip ms) = ms := by
    unfold Dict.values
    rw [List.map_snd_zip (by omega)]
  refine ⟨⟨ms, rfl, hlen⟩, fun h1 => ?_, fun h1 => ?_⟩
  · unfold returnedMoments reconstructInput
    rw [hv]
    match ms, hlen with
    | [d], _ => exact ⟨d, rfl⟩
    | [], h' => rw [h1] at h'; simp at h'
    | _ :: _ :: _, h' => rw [h1] at h'; simp at h'
  · refine ⟨ms, ?_, hlen, rfl⟩
    unfold returnedMoments reconstructInput
    rw [hv]
    match ms, hlen with
    | [d], h' => exact absurd h'.symm h1
    | [], _ => rfl
    | _ :: _ :: _, _ => rfl

/-- The moments of a list with one element come back as a single object. -/
theorem C64_one_element_list_false : ∃ (es : List (Moments ℚ)) (fs : List (Unit → Option (Moments ℚ))) (sim : _),
    simulatedMoments (harmonizeInput (.list fs)) (harmonizeReplaceNans some (harmonizeInput (.list es)) none)
      (harmonizeInput (.list es)) () = some sim ∧ ∃ m, returnedMoments false sim = .single m :=
  ⟨[⟨["0".toList], none, [[some 1]]⟩], [fun _ => some ⟨["0".toList], none, [[some 2]]⟩], _, rfl, _, rfl⟩

/-- A list with one function for missing values passes the check of lengths, which promises to match it with all
moments, but fails for more than one set of moments although the bare function works. -/
theorem C64_replace_list_false : ∃ (es : List (Moments ℚ)) (fs : List (Unit → Option (Moments ℚ)))
    (f : Moments ℚ → Option (Moments ℚ)), lengthsFit es.length fs.length ([f] : List _).length = true ∧
    (∃ v, msm (.list fs) (some (.single f)) (.list es) none () = some (some v)) ∧
    msm (.list fs) (some (.list [f])) (.list es) none () = none :=
  ⟨[⟨["0".toList], none, [[some 1]]⟩, ⟨["0".toList], none, [[some 3]]⟩],
   [fun _ => some ⟨["0".toList], none, [[some 2]]⟩, fun _ => some ⟨["0".toList], none, [[some 2]]⟩],
   some, by decide +kernel, ⟨2, by decide +kernel⟩, by decide +kernel⟩

/-- The hypotheses of `C64_list_dict` hold in the example. -/
example : (["a".toList, "b".toList] : List Str).Nodup ∧ (∀ e ∈ Dict.values exampleEmpirical, e.Full) ∧
    msm (.list (Dict.values exampleFuncs)) none (.list (Dict.values exampleEmpirical)) none (2 : ℚ)
      = some (some 91) := ⟨by decide +kernel, by decide +kernel, by decide +kernel⟩

/-- The hypotheses of `C64_complete` hold in the example. -/
example : (Dict.keys exampleFuncs).Nodup ∧ (Dict.keys exampleReplace).Nodup ∧ (Dict.keys exampleEmpirical).Nodup ∧
    msm (.dict exampleFuncs) (some (.dict exampleReplace)) (.dict exampleEmpirical) none (2 : ℚ)
      = some (some 91) := ⟨by decide +kernel, by decide +kernel, by decide +kernel, by decide +kernel⟩

end Respy
