import Verif.Lemmas.Parallel

/-!
# Properties of parallelization: C17, C18
-/

namespace Respy

variable {α : Type}

/-! ## C17 -/

/-- **C17.** If the integer dictionaries among the arguments have a common key, the parallelized
function returns a dictionary whose keys are exactly the common keys; its value at `k` is the value of
the plain function at the arguments of `k`. This holds for every iteration order of the set of keys
and every order in which the tasks are executed. -/
theorem C17_parallel_pointwise {R : Type} (order : List Nat → List Nat)
    (horder : ∀ l, (order l).Perm l) (func : List (PyVal α) → Option R) (args : List (PyVal α))
    (hp : PlainArgs args) (hex : ∃ k, CommonKey args k) (schedule : List Nat)
    (hsched : schedule.Perm (List.range (order (inferDenseKeys args)).length)) (r : Nat → R)
    (hr : ∀ k vs, CommonKey args k → List.Forall₂ (IsArgAt k) args vs → func vs = some (r k)) :
    ∃ d, parallelize order schedule func args = some (.split d) ∧ (Dict.keys d).Nodup ∧
      (∀ k, k ∈ Dict.keys d ↔ CommonKey args k) ∧
      ∀ k, CommonKey args k → Dict.get? d k = some (r k) := by
  have hkeys : ∀ k, k ∈ order (inferDenseKeys args) ↔ CommonKey args k := fun k => by
    rw [(horder _).mem_iff, mem_inferDenseKeys]
  have hn : (order (inferDenseKeys args)).Nodup :=
    (horder _).nodup_iff.2 (nodup_inferDenseKeys args hp)
  unfold parallelize
  generalize order (inferDenseKeys args) = keys at hkeys hn hsched
  have hne : keys.isEmpty = false := by
    obtain ⟨k, hk⟩ := hex
    rw [← hkeys] at hk
    cases keys with
    | nil => simp at hk
    | cons _ _ => rfl
  obtain ⟨tasks, htasks, -⟩ := mapM_option_exists keys
    (fun k => args.mapM (broadcastArgument keys k)) (fun k hk => by
      obtain ⟨vs, h1, _⟩ := broadcast_spec args hp keys hkeys k hk
      exact ⟨vs, h1⟩)
  have htl := mapM_eq_some_length _ _ _ htasks
  have hfunc : tasks.map func = keys.map fun k => some (r k) := by
    rw [mapM_eq_some_iff] at htasks
    have : ∀ k ∈ keys, ∀ vs, args.mapM (broadcastArgument keys k) = some vs →
        func vs = some (r k) := by
      intro k hk vs hvs
      obtain ⟨vs', h1, h2⟩ := broadcast_spec args hp keys hkeys k hk
      rw [h1] at hvs; cases hvs
      exact hr k _ ((hkeys k).1 hk) h2
    clear hkeys hn hsched hne htl
    revert this
    generalize hK : keys = K at *
    clear hK
    intro this
    have aux : ∀ (l : List Nat) (ts : List (List (PyVal α))), (∀ k ∈ l, k ∈ K) →
        List.Forall₂ (fun k vs => args.mapM (broadcastArgument K k) = some vs) l ts →
        ts.map func = l.map fun k => some (r k) := by
      intro l ts hl h
      induction h with
      | nil => rfl
      | cons h _ ih =>
        simp only [List.map_cons, List.cons.injEq]
        exact ⟨this _ (hl _ (by simp)) _ h, ih fun k hk => hl k (by simp [hk])⟩
    exact aux K tasks (fun _ h => h) htasks
  have hout : (runTasks (tasks.map func) schedule).mapM (fun r => r.bind id) =
      some (keys.map r) := by
    rw [runTasks_spec _ _ (by simpa [htl] using hsched), hfunc, mapM_eq_some_iff]
    simp only [List.map_map, List.forall₂_map_left_iff, List.forall₂_map_right_iff]
    exact List.forall₂_same.2 fun k _ => rfl
  have hitems : keys.zip (keys.map r) = keys.map fun k => (k, r k) := by
    have := List.zip_map' (f := fun k : Nat => k) (g := r) (l := keys)
    simpa using this
  have hfst : (keys.zip (keys.map r)).map Prod.fst = keys := by
    rw [hitems, List.map_map]; exact List.map_id _
  refine ⟨Dict.ofItems (keys.zip (keys.map r)), ?_, Dict.nodup_keys_ofItems _, ?_, ?_⟩
  · simp only [hne, Bool.false_eq_true, if_false, htasks, Option.bind_eq_bind, Option.bind_some,
      hout, Option.pure_def]
  · intro k
    rw [Dict.ofItems_of_nodup _ (by rw [hfst]; exact hn)]
    unfold Dict.keys
    rw [hfst, hkeys]
  · intro k hk
    apply Dict.get?_ofItems_of_mem _ (by rw [hfst]; exact hn)
    rw [hitems, List.mem_map]
    exact ⟨k, (hkeys k).2 hk, rfl⟩

/-- Two dictionaries with common keys 1 and 2 and an ordinary argument; the function adds up. -/
def exampleArgs : List (PyVal Nat) :=
  [.dict [(.int 1, .atom 10), (.int 2, .atom 20), (.int 3, .atom 30)],
   .dict [(.int 2, .atom 5), (.int 1, .atom 4)], .atom 100]

def exampleFunc (vs : List (PyVal Nat)) : Option Nat :=
  vs.foldlM (init := 0) fun acc v => match v with
    | .atom n => some (acc + n)
    | .dict _ => none

example : PlainArgs exampleArgs ∧ CommonKey exampleArgs 1 ∧
    (match parallelize List.reverse [1, 0] exampleFunc exampleArgs with
      | some (.split d) => d
      | _ => []) = [(2, 125), (1, 114)] := by
  refine ⟨?_, (mem_inferDenseKeys _ _).1 (by decide +kernel), by decide +kernel⟩
  intro items h
  simp only [exampleArgs, List.mem_cons, PyVal.dict.injEq, List.not_mem_nil, or_false,
    reduceCtorEq] at h
  rcases h with rfl | rfl <;> exact ⟨by decide, Or.inl (by simp)⟩

/-- **C17**, functions with several return values: the `i`-th dictionary contains for each key the
`i`-th return value for this key. -/
theorem C17_several_outputs {R : Type} (keys : List Nat) (hne : keys ≠ []) (hn : keys.Nodup)
    (n : Nat) (r : Nat → List R) (hr : ∀ k ∈ keys, (r k).length = n) :
    ∃ ds, tupleOfDicts keys (keys.map r) = some ds ∧ ds.length = n ∧
      ∀ (i : Nat) (d : Dict Nat R), ds[i]? = some d → Dict.keys d = keys ∧ ∀ k ∈ keys, Dict.get? d k = (r k)[i]? := by
  have hone : ∀ i < n, ∃ l, ((keys.map r).mapM fun o => o[i]?) = some l ∧
      (keys.zip l).map Prod.fst = keys ∧ ∀ k ∈ keys, ∃ v, (r k)[i]? = some v ∧ (k, v) ∈ keys.zip l := by
    intro i hi
    clear hne hn
    induction keys with
    | nil => exact ⟨[], rfl, rfl, by simp⟩
    | cons k keys ih =>
      obtain ⟨l, h1, h2, h3⟩ := ih fun k hk => hr k (by simp [hk])
      have hk := hr k (by simp)
      have hg : (r k)[i]? = some (r k)[i] := List.getElem?_eq_getElem (by omega)
      refine ⟨(r k)[i] :: l, by simp [hg, h1], by simp [h2], ?_⟩
      intro k' hk'
      rcases List.mem_cons.1 hk' with rfl | hk'
      · exact ⟨_, hg, by simp⟩
      · obtain ⟨v, h4, h5⟩ := h3 k' hk'
        exact ⟨v, h4, by simp [h5]⟩
  obtain ⟨k0, ks, rfl⟩ := List.exists_cons_of_ne_nil hne
  have hfirst : (r k0).length = n := hr k0 (by simp)
  unfold tupleOfDicts
  simp only [List.map_cons, hfirst]
  rw [← List.map_cons]
  obtain ⟨ds, hds, hlen, hget⟩ := mapM_option_exists (List.range n) (fun i => do
      let l ← ((k0 :: ks).map r).mapM fun o => o[i]?
      pure (Dict.ofItems ((k0 :: ks).zip l))) (fun i hi => by
        obtain ⟨l, h1, _⟩ := hone i (by simpa using hi)
        exact ⟨_, by rw [h1]; rfl⟩)
  refine ⟨ds, hds, by simpa using hlen, ?_⟩
  intro i d hd
  have hi : i < n := by
    have := (List.getElem?_eq_some_iff.1 hd).1
    simp at hlen; omega
  obtain ⟨b, hb, hf⟩ := hget i i (by simp [hi])
  rw [hd] at hb; cases hb
  obtain ⟨l, h1, h2, h3⟩ := hone i hi
  rw [h1] at hf
  simp only [Option.bind_eq_bind, Option.bind_some, Option.pure_def, Option.some.injEq] at hf
  subst hf
  have hnod : (((k0 :: ks).zip l).map Prod.fst).Nodup := by rw [h2]; exact hn
  refine ⟨?_, fun k hk => ?_⟩
  · rw [Dict.ofItems_of_nodup _ hnod]; exact h2
  · obtain ⟨v, h4, h5⟩ := h3 k hk
    rw [h4]
    exact Dict.get?_ofItems_of_mem _ hnod _ _ h5

example : tupleOfDicts [4, 2] [[1, 10], [3, 30]] = some [[(4, 1), (2, 3)], [(4, 10), (2, 30)]] := by
  decide +kernel

/-- **C17**, the remaining case: if the dictionaries have no common key, nothing is split and the plain
function is called once with the dictionaries themselves. -/
theorem C17_no_common_key {R : Type} (order : List Nat → List Nat)
    (horder : ∀ l, (order l).Perm l) (func : List (PyVal α) → Option R) (args : List (PyVal α))
    (hex : ¬ ∃ k, CommonKey args k) (schedule : List Nat) :
    parallelize order schedule func args = (func args).map .whole := by
  have : order (inferDenseKeys args) = [] := by
    have h0 : inferDenseKeys args = [] := List.eq_nil_iff_forall_not_mem.2 fun k hk =>
      hex ⟨k, (mem_inferDenseKeys args k).1 hk⟩
    rw [h0]
    exact (horder []).eq_nil
  simp [parallelize, this]

example : ¬ ∃ k, CommonKey ([.dict [(.int 1, .atom 10)], .dict [(.int 2, .atom 5)]] :
    List (PyVal Nat)) k := by
  rintro ⟨k, hk⟩
  rw [← mem_inferDenseKeys] at hk
  exact absurd hk (by
    have : inferDenseKeys ([.dict [(.int 1, .atom 10)], .dict [(.int 2, .atom 5)]] :
      List (PyVal Nat)) = [] := by decide +kernel
    rw [this]; simp)

/-! ## C18 -/

/-- **C18.** Let a non-empty data frame have dense keys which are known to all further dictionary
arguments, and let the function work row by row: row `r` of the group of dense key `k` becomes
`g k r` with the same label, where `g k` may depend on the arguments for `k`. Then splitting, applying
and combining gives, up to order, the transformed rows of the whole frame, and they are sorted by
their labels. If the labels of the frame are unique and increasing, it is exactly the transformed
frame. Any order of the keys, any schedule and any sorting algorithm is covered. -/
theorem C18_split_and_combine {ι ρ σ : Type} [LinearOrder ι] (sortedKeys : List Nat)
    (order : List Nat → List Nat) (horder : ∀ l, (order l).Perm l)
    (sortIndex : List (ι × σ) → List (ι × σ))
    (hsort : ∀ l, (sortIndex l).Perm l ∧ (sortIndex l).Pairwise fun a b => a.1 ≤ b.1)
    (df : List (FrameRow ι ρ)) (hdf : df ≠ [])
    (hsk : sortedKeys.Nodup ∧ ∀ k, k ∈ sortedKeys ↔ ∃ r ∈ df, r.key = k)
    (others : List (PyVal (List (FrameRow ι ρ) ⊕ α))) (hplain : PlainArgs others)
    (hknown : ∀ r ∈ df, ∀ items, .dict items ∈ others → IntDict items →
      PyKey.int r.key ∈ items.map Prod.fst)
    (schedule : List Nat) (hsched : schedule.Perm (List.range sortedKeys.length))
    (func : List (PyVal (List (FrameRow ι ρ) ⊕ α)) → Option (List (ι × σ))) (g : Nat → ρ → σ)
    (hfunc : ∀ k rows vs, List.Forall₂ (IsArgAt k) others vs →
      func (.atom (.inl rows) :: vs) = some (rows.map fun r => (r.label, g k r.content))) :
    ∃ out, splitAndCombine sortedKeys order schedule sortIndex func df others = some out ∧
      out.Perm (df.map fun r => (r.label, g r.key r.content)) ∧
      out.Pairwise (fun a b => a.1 ≤ b.1) ∧
      (df.Pairwise (fun a b => a.label < b.label) →
        out = df.map fun r => (r.label, g r.key r.content)) := by
  obtain ⟨hskn, hskm⟩ := hsk
  let items : List (PyKey × PyVal (List (FrameRow ι ρ) ⊕ α)) :=
    (splitFrame sortedKeys df).map fun kg => (.int kg.1, .atom (.inl kg.2))
  have hitems : items = sortedKeys.map fun k =>
      (PyKey.int k, PyVal.atom (Sum.inl (df.filter fun r => r.key = k))) := by
    simp [items, splitFrame, List.map_map, Function.comp_def]
  have hfst : items.map Prod.fst = sortedKeys.map PyKey.int := by
    rw [hitems, List.map_map]; rfl
  obtain ⟨r0, hr0⟩ := List.exists_mem_of_ne_nil df hdf
  have hk0 : r0.key ∈ sortedKeys := (hskm _).2 ⟨r0, hr0, rfl⟩
  have hint : IntDict items := by
    refine ⟨?_, ?_⟩
    · rw [hitems]; intro h
      rw [List.map_eq_nil_iff] at h
      rw [h] at hk0; simp at hk0
    · intro kv hkv
      rw [hitems, List.mem_map] at hkv
      obtain ⟨k, _, rfl⟩ := hkv
      exact ⟨k, rfl⟩
  have hcommon : ∀ k, CommonKey (.dict items :: others) k ↔ k ∈ sortedKeys := by
    intro k
    constructor
    · intro h
      have := h.2 items (by simp) hint
      rw [hfst, List.mem_map] at this
      obtain ⟨k', hk', he⟩ := this
      cases he; exact hk'
    · intro hk
      refine ⟨⟨items, by simp, hint⟩, ?_⟩
      intro items' hi' hint'
      rcases List.mem_cons.1 hi' with h | h
      · cases h
        rw [hfst]; exact List.mem_map_of_mem hk
      · obtain ⟨r, hr, rfl⟩ := (hskm k).1 hk
        exact hknown r hr items' h hint'
  have hpl : PlainArgs (.dict items :: others) := by
    intro items' hi'
    rcases List.mem_cons.1 hi' with h | h
    · cases h
      refine ⟨?_, Or.inl hint.2⟩
      rw [hfst]
      exact hskn.map fun a b h => by cases h; rfl
    · exact hplain items' h
  have hlen : (order (inferDenseKeys (.dict items :: others))).length = sortedKeys.length := by
    rw [(horder _).length_eq]
    apply List.Perm.length_eq
    rw [List.perm_ext_iff_of_nodup (nodup_inferDenseKeys _ hpl) hskn]
    intro k
    rw [mem_inferDenseKeys, hcommon]
  let r : Nat → List (ι × σ) := fun k =>
    (df.filter fun r => r.key = k).map fun r => (r.label, g k r.content)
  obtain ⟨d, hd1, hd2, hd3, hd4⟩ := C17_parallel_pointwise order horder func
    (.dict items :: others) hpl ⟨r0.key, (hcommon _).2 hk0⟩ schedule (by rw [hlen]; exact hsched) r (by
      intro k vs hk hvs
      cases hvs with
      | cons h1 h2 =>
        have hm := h1.1 hint
        rw [hitems, List.mem_map] at hm
        obtain ⟨k', _, he⟩ := hm
        simp only [Prod.mk.injEq, PyKey.int.injEq] at he
        obtain ⟨rfl, he⟩ := he
        rw [← he]
        exact hfunc k' _ _ h2)
  refine ⟨sortIndex (Dict.values d).flatten, ?_, ?_, (hsort _).2, ?_⟩
  · unfold splitAndCombine
    simp only [Option.bind_eq_bind]
    have : parallelize order schedule func (.dict items :: others) = some (.split d) := hd1
    simp only [items] at this
    rw [this]
    rfl
  all_goals
    have hvals : Dict.values d = (Dict.keys d).map r := by
      unfold Dict.values Dict.keys
      rw [List.map_map]
      apply List.map_congr_left
      intro kv hkv
      have h1 := Dict.get?_of_mem d hd2 kv.1 kv.2 hkv
      have h2 := hd4 kv.1 ((hd3 kv.1).1 (List.mem_map_of_mem hkv))
      rw [h1] at h2
      exact Option.some.inj h2
    have hkeysm : ∀ row ∈ df, row.key ∈ Dict.keys d := fun row hrow =>
      (hd3 _).2 ((hcommon _).2 ((hskm _).2 ⟨row, hrow, rfl⟩))
    have hperm : (Dict.values d).flatten.Perm (df.map fun r => (r.label, g r.key r.content)) := by
      have h1 := (flatten_filter_perm (fun row : FrameRow ι ρ => row.key) (Dict.keys d) hd2 df
        hkeysm).map fun row => (row.label, g row.key row.content)
      refine List.Perm.trans (List.Perm.of_eq ?_) h1
      rw [hvals, List.map_flatten, List.map_map]
      congr 1
      apply List.map_congr_left
      intro k _
      apply List.map_congr_left
      intro row hrow
      have := (List.mem_filter.1 hrow).2
      simp only [decide_eq_true_eq] at this
      rw [this]
  · exact (hsort _).1.trans hperm
  · intro hdfs
    have hp := (hsort (Dict.values d).flatten).1.trans hperm
    refine List.Perm.eq_of_pairwise (le := fun a b : ι × σ => a.1 ≤ b.1) ?_ (hsort _).2 ?_ hp
    · intro a b ha hb hab hba
      have ha' := hp.mem_iff.1 ha
      obtain ⟨ra, hra, rfl⟩ := List.mem_map.1 ha'
      obtain ⟨rb, hrb, rfl⟩ := List.mem_map.1 hb
      have heq : ra.label = rb.label := le_antisymm hab hba
      have : ra = rb := by
        by_contra hne
        obtain ⟨i, hi, hia⟩ := List.getElem_of_mem hra
        obtain ⟨j, hj, hjb⟩ := List.getElem_of_mem hrb
        have hpw := List.pairwise_iff_getElem.1 hdfs
        rcases Nat.lt_trichotomy i j with h | h | h
        · have := hpw i j hi hj h
          rw [hia, hjb, heq] at this; exact lt_irrefl _ this
        · subst h; exact hne (hia.symm.trans hjb)
        · have := hpw j i hj hi h
          rw [hia, hjb, heq] at this; exact lt_irrefl _ this
      rw [this]
    · rw [List.pairwise_map]
      exact hdfs.imp fun h => le_of_lt h

/-- A frame with three rows in two groups; the rows come back in the order of the labels. -/
example : splitAndCombine (α := Nat) [4, 7] id [1, 0]
    (List.insertionSort fun a b : Nat × Nat => a.1 ≤ b.1)
    (fun vs => match vs with
      | [.atom (.inl rows), .atom (.inr n)] => some (rows.map fun r => (r.label, r.content + n))
      | _ => none)
    [⟨0, 7, 1⟩, ⟨1, 4, 2⟩, ⟨2, 7, 3⟩]
    [.dict [(.int 7, .atom (.inr 100)), (.int 4, .atom (.inr 200)), (.int 5, .atom (.inr 300))]] =
    some [(0, 101), (1, 202), (2, 103)] := by
  decide +kernel

/-- **C18**: the hypothesis that the frame is not empty is needed. Without rows there are no groups,
the keys are inferred from the other arguments, and the function is called with the empty dictionary in
place of a data frame. -/
theorem C18_empty_frame_false :
    ∃ func : List (PyVal (List (FrameRow Nat Nat) ⊕ Nat)) → Option (List (Nat × Nat)),
      (∀ rows n, func [.atom (.inl rows), .atom (.inr n)] =
        some (rows.map fun r => (r.label, r.content + n))) ∧
      splitAndCombine (α := Nat) [] id [0] (List.insertionSort fun a b : Nat × Nat => a.1 ≤ b.1)
        func [] [.dict [(.int 7, .atom (.inr 100))]] = none := by
  refine ⟨fun vs => match vs with
      | [.atom (.inl rows), .atom (.inr n)] => some (rows.map fun r => (r.label, r.content + n))
      | _ => none, fun _ _ => rfl, by decide +kernel⟩

end Respy
