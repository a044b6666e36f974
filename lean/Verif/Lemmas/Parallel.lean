import Verif.Model.Parallel
import Verif.Lemmas.MapM
import Verif.Lemmas.Dict
import Mathlib.Data.List.Nodup
import Mathlib.Data.List.Sort

/-! Helper lemmas on parallelization. -/

namespace Respy

/-- A dictionary from which dense keys are inferred: not empty and all keys are integers. -/
def IntDict {α : Type} (items : List (PyKey × PyVal α)) : Prop :=
  items ≠ [] ∧ ∀ kv ∈ items, ∃ n, kv.1 = PyKey.int n

/-- `k` is a key of all integer dictionaries among the arguments, and there is one. -/
def CommonKey {α : Type} (args : List (PyVal α)) (k : Nat) : Prop :=
  (∃ items, .dict items ∈ args ∧ IntDict items) ∧
  ∀ items, .dict items ∈ args → IntDict items → PyKey.int k ∈ items.map Prod.fst

/-- The value of an argument for the dense key `k`: the entry of an integer dictionary, anything else
as it is. -/
def IsArgAt {α : Type} (k : Nat) (arg v : PyVal α) : Prop :=
  match arg with
  | .atom a => v = .atom a
  | .dict items => (IntDict items → (PyKey.int k, v) ∈ items) ∧ (¬ IntDict items → v = .dict items)

/-- Python dictionaries have distinct keys; dictionaries which mix integer and other keys are excluded. -/
def PlainArgs {α : Type} (args : List (PyVal α)) : Prop :=
  ∀ items, .dict items ∈ args → (items.map Prod.fst).Nodup ∧
    ((∀ kv ∈ items, ∃ n, kv.1 = PyKey.int n) ∨ ∀ kv ∈ items, ∃ s, kv.1 = PyKey.str s)

variable {α : Type}

theorem integerKeys_dict (items : List (PyKey × PyVal α)) (ks : List Nat) :
    integerKeys (.dict items) = some ks ↔
      IntDict items ∧ items.map Prod.fst = ks.map PyKey.int := by
  have key : ∀ ks, (items.mapM fun kv => kv.1.toNat?) = some ks ↔
      items.map Prod.fst = ks.map PyKey.int := by
    intro ks
    rw [mapM_eq_some_iff]
    constructor
    · intro h
      induction h with
      | nil => rfl
      | cons h _ ih =>
        rename_i a b _ _ _
        obtain ⟨k, v⟩ := a
        cases k with
        | int n => simp only [PyKey.toNat?, Option.some.injEq] at h; subst h; simp [ih]
        | str s => simp [PyKey.toNat?] at h
    · intro h
      induction items generalizing ks with
      | nil => cases ks with
        | nil => exact List.Forall₂.nil
        | cons _ _ => simp at h
      | cons a items ih =>
        cases ks with
        | nil => simp at h
        | cons k ks =>
          simp only [List.map_cons, List.cons.injEq] at h
          exact List.Forall₂.cons (by rw [h.1]; rfl) (ih ks h.2)
  unfold integerKeys
  cases items with
  | nil => simp [IntDict]
  | cons a items =>
    simp only [List.isEmpty_cons, Bool.false_eq_true, if_false]
    rw [key]
    constructor
    · intro h
      refine ⟨⟨by simp, fun kv hkv => ?_⟩, h⟩
      have : kv.1 ∈ (a :: items).map Prod.fst := List.mem_map_of_mem hkv
      rw [h, List.mem_map] at this
      obtain ⟨n, _, hn⟩ := this
      exact ⟨n, hn.symm⟩
    · exact fun h => h.2

theorem exists_integerKeys (items : List (PyKey × PyVal α)) (h : IntDict items) :
    ∃ ks, integerKeys (.dict items) = some ks := by
  have : ∃ ks : List Nat, items.map Prod.fst = ks.map PyKey.int := by
    have h2 := h.2
    clear h
    induction items with
    | nil => exact ⟨[], rfl⟩
    | cons a items ih =>
      obtain ⟨n, hn⟩ := h2 a (by simp)
      obtain ⟨ks, hks⟩ := ih fun kv hkv => h2 kv (by simp [hkv])
      exact ⟨n :: ks, by simp [hn, hks]⟩
  obtain ⟨ks, hks⟩ := this
  exact ⟨ks, (integerKeys_dict items ks).2 ⟨h, hks⟩⟩

theorem mem_inferDenseKeys (args : List (PyVal α)) (k : Nat) :
    k ∈ inferDenseKeys args ↔ CommonKey args k := by
  have hall : ∀ ks ∈ args.filterMap integerKeys, ∃ items, .dict items ∈ args ∧ IntDict items ∧
      items.map Prod.fst = ks.map PyKey.int := by
    intro ks hks
    obtain ⟨a, ha, hk⟩ := List.mem_filterMap.1 hks
    cases a with
    | atom a => simp [integerKeys] at hk
    | dict items =>
      obtain ⟨h1, h2⟩ := (integerKeys_dict items ks).1 hk
      exact ⟨items, ha, h1, h2⟩
  have hall' : ∀ items, .dict items ∈ args → IntDict items →
      ∃ ks ∈ args.filterMap integerKeys, items.map Prod.fst = ks.map PyKey.int := by
    intro items ha hi
    obtain ⟨ks, hks⟩ := exists_integerKeys items hi
    exact ⟨ks, List.mem_filterMap.2 ⟨_, ha, hks⟩, ((integerKeys_dict items ks).1 hks).2⟩
  have hinj : ∀ ks : List Nat, PyKey.int k ∈ ks.map PyKey.int ↔ k ∈ ks := by
    intro ks
    simp [List.mem_map]
  unfold inferDenseKeys CommonKey
  cases hl : args.filterMap integerKeys with
  | nil =>
    simp only [List.not_mem_nil, false_iff, not_and]
    rintro ⟨items, ha, hi⟩
    obtain ⟨ks, hks, _⟩ := hall' items ha hi
    rw [hl] at hks; simp at hks
  | cons ks0 rest =>
    rw [hl] at hall hall'
    simp only [List.mem_filter, List.all_eq_true, List.contains_iff_mem]
    constructor
    · rintro ⟨h0, hr⟩
      obtain ⟨items0, ha0, hi0, _⟩ := hall ks0 (by simp)
      refine ⟨⟨items0, ha0, hi0⟩, fun items ha hi => ?_⟩
      obtain ⟨ks, hks, he⟩ := hall' items ha hi
      rw [he, hinj]
      rcases List.mem_cons.1 hks with rfl | hks
      · exact h0
      · exact hr ks hks
    · rintro ⟨_, h⟩
      have : ∀ ks ∈ ks0 :: rest, k ∈ ks := by
        intro ks hks
        obtain ⟨items, ha, hi, he⟩ := hall ks hks
        have := h items ha hi
        rwa [he, hinj] at this
      exact ⟨this ks0 (by simp), fun ks hks => this ks (by simp [hks])⟩

theorem nodup_inferDenseKeys (args : List (PyVal α)) (h : PlainArgs args) :
    (inferDenseKeys args).Nodup := by
  unfold inferDenseKeys
  cases hl : args.filterMap integerKeys with
  | nil => simp
  | cons ks0 rest =>
    apply List.Nodup.filter
    have : ks0 ∈ args.filterMap integerKeys := by rw [hl]; simp
    obtain ⟨a, ha, hk⟩ := List.mem_filterMap.1 this
    cases a with
    | atom a => simp [integerKeys] at hk
    | dict items =>
      obtain ⟨_, h2⟩ := (integerKeys_dict items ks0).1 hk
      have := (h items ha).1
      rw [h2] at this
      exact this.of_map

/-- Broadcasting agrees with the specification. -/
theorem broadcast_spec (args : List (PyVal α)) (hp : PlainArgs args) (keys : List Nat)
    (hkeys : ∀ k, k ∈ keys ↔ CommonKey args k) (k : Nat) (hk : k ∈ keys) :
    ∃ vs, args.mapM (broadcastArgument keys k) = some vs ∧ List.Forall₂ (IsArgAt k) args vs := by
  have hone : ∀ a ∈ args, ∃ v, broadcastArgument keys k a = some v ∧ IsArgAt k a v := by
    intro a ha
    cases a with
    | atom a => exact ⟨_, rfl, rfl⟩
    | dict items =>
      by_cases hi : IntDict items
      · have hdense : isDenseDictionary keys (.dict items) = true := by
          simp only [isDenseDictionary, List.all_eq_true, List.contains_iff_mem]
          intro k' hk'
          exact ((hkeys k').1 hk').2 items ha hi
        have hmem := ((hkeys k).1 hk).2 items ha hi
        obtain ⟨kv, hkv, he⟩ := List.mem_map.1 hmem
        have hget : Dict.get? items (PyKey.int k) = some kv.2 :=
          Dict.get?_of_mem _ (hp items ha).1 _ _ (by rw [← he]; exact hkv)
        refine ⟨kv.2, by simp [broadcastArgument, hdense, hget], fun _ => ?_, fun h => absurd hi h⟩
        rw [← he]; exact hkv
      · have hdense : isDenseDictionary keys (.dict items) = false := by
          rw [Bool.eq_false_iff]
          intro hd
          simp only [isDenseDictionary, List.all_eq_true, List.contains_iff_mem] at hd
          have := hd k hk
          obtain ⟨kv, hkv, he⟩ := List.mem_map.1 this
          rcases (hp items ha).2 with h | h
          · exact hi ⟨List.ne_nil_of_mem hkv, h⟩
          · obtain ⟨s, hs⟩ := h kv hkv
            rw [hs] at he; cases he
        exact ⟨_, by simp [broadcastArgument, hdense], fun h => absurd h hi, fun _ => rfl⟩
  clear hkeys hp
  induction args with
  | nil => exact ⟨[], rfl, List.Forall₂.nil⟩
  | cons a args ih =>
    obtain ⟨v, h1, h2⟩ := hone a (by simp)
    obtain ⟨vs, h3, h4⟩ := ih fun x hx => hone x (by simp [hx])
    exact ⟨v :: vs, by simp [h1, h3], List.Forall₂.cons h2 h4⟩

/-- All slots are filled whatever the schedule. -/
theorem runTasks_spec {R : Type} (tasks : List R) (schedule : List Nat)
    (h : schedule.Perm (List.range tasks.length)) : runTasks tasks schedule = tasks.map some := by
  have key : ∀ (schedule : List Nat) (out : List (Option R)), out.length = tasks.length →
      (∀ i ∈ schedule, i < tasks.length) →
      (schedule.foldl (fun out i => out.set i tasks[i]?) out).length = tasks.length ∧
      ∀ i < tasks.length, (i ∈ schedule ∨ out[i]? = some tasks[i]?) →
        (schedule.foldl (fun out i => out.set i tasks[i]?) out)[i]? = some tasks[i]? := by
    intro schedule
    induction schedule with
    | nil => intro out hl _; exact ⟨hl, fun i _ h => by simpa using h⟩
    | cons j schedule ih =>
      intro out hl hs
      obtain ⟨i1, i2⟩ := ih (out.set j tasks[j]?) (by simpa using hl)
        fun i hi => hs i (by simp [hi])
      refine ⟨i1, fun i hi h => i2 i hi ?_⟩
      by_cases hij : i = j
      · right; subst hij
        rw [List.getElem?_set_self (by omega)]
      · rcases h with h | h
        · left; simpa [hij] using h
        · right; rw [List.getElem?_set_ne (Ne.symm hij)]; exact h
  obtain ⟨h1, h2⟩ := key schedule (tasks.map fun _ => none) (by simp)
    fun i hi => by simpa using (h.mem_iff.1 hi)
  apply List.ext_getElem?
  intro i
  by_cases hi : i < tasks.length
  · unfold runTasks
    rw [h2 i hi (Or.inl (h.mem_iff.2 (by simpa using hi)))]
    simp [hi]
  · rw [List.getElem?_eq_none (by unfold runTasks; omega), List.getElem?_eq_none (by simp; omega)]

/-- Grouping by a key and concatenating the groups in any order of the keys. -/
theorem flatten_filter_perm {ρ : Type} (key : ρ → Nat) (keys : List Nat) (hn : keys.Nodup)
    (rows : List ρ) (h : ∀ r ∈ rows, key r ∈ keys) :
    ((keys.map fun k => rows.filter fun r => key r = k).flatten).Perm rows := by
  induction keys generalizing rows with
  | nil =>
    have : rows = [] := List.eq_nil_iff_forall_not_mem.2 fun r hr => by simpa using h r hr
    subst this; simp
  | cons k keys ih =>
    rw [List.nodup_cons] at hn
    simp only [List.map_cons, List.flatten_cons]
    have h1 := List.filter_append_perm (fun r => decide (key r = k)) rows
    refine List.Perm.trans (List.Perm.append_left _ ?_) h1
    have hih := ih hn.2 (rows.filter fun r => !decide (key r = k)) (by
      intro r hr
      obtain ⟨hr1, hr2⟩ := List.mem_filter.1 hr
      have := h r hr1
      simp only [Bool.not_eq_true', decide_eq_false_iff_not] at hr2
      simpa [hr2] using this)
    refine List.Perm.trans (List.Perm.of_eq ?_) hih
    congr 1
    apply List.map_congr_left
    intro k' hk'
    rw [List.filter_filter]
    apply List.filter_congr
    intro r _
    have : k' ≠ k := fun hc => hn.1 (hc ▸ hk')
    by_cases hr : key r = k'
    · simp [hr, this]
    · simp [hr]

end Respy
