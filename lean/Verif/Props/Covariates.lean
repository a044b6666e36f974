import Verif.Lemmas.Covariates

/-! # Properties of covariates -/

namespace Respy

/-! ### C52 Exactly the needed covariates are kept -/

/-- A covariate is needed if it is the name of a parameter or if its name occurs in the formula of a needed
covariate. -/
inductive Needed (covariates : Dict Str Str) (names : List Str) : Str → Prop
  | parameter (k : Str) : k ∈ covariates.keys → k ∈ names → Needed covariates names k
  | formula (c f k : Str) : Needed covariates names c → (c, f) ∈ covariates → k <:+: f →
      k ∈ covariates.keys → Needed covariates names k

/-- The loop ends, without an error, and keeps exactly the needed covariates with their formulas. -/
theorem C52_relevant_covariates (covariates : Dict Str Str) (hc : covariates.keys.Nodup)
    (names : List Str) :
    ∃ r, removeIrrelevant covariates names = some r ∧ r.keys.Nodup ∧
      (∀ k, k ∈ r.keys ↔ Needed covariates names k) ∧
      ∀ k f, (k, f) ∈ r ↔ (k, f) ∈ covariates ∧ Needed covariates names k := by
  have h0 : SubDict covariates (covariates.filter fun kv => decide (kv.1 ∈ names)) := by
    constructor
    · exact hc.sublist (List.Sublist.map _ List.filter_sublist)
    · intro k hk
      obtain ⟨kv, hkv, rfl⟩ := List.mem_map.1 hk
      have hm := (List.mem_filter.1 hkv).1
      refine ⟨?_, List.mem_map.2 ⟨kv, hm, rfl⟩⟩
      rw [Dict.get?_of_mem _ hc kv.1 kv.2 hm]
      exact Dict.get?_of_mem _ (hc.sublist (List.Sublist.map _ List.filter_sublist)) _ _ hkv
  obtain ⟨r, h1, h2, h3, h4, h5⟩ := relevantLoop_spec hc (covariates.length + 1) _ h0 (by omega)
  have hkeys : ∀ k, k ∈ r.keys ↔ Needed covariates names k := by
    intro k
    constructor
    · refine h4 (Needed covariates names) ?_ ?_ k
      · intro c f k hN hf hm hk
        exact .formula c f k hN (Dict.mem_of_get? _ _ _ hf) (of_decide_eq_true hm) hk
      · intro k hk
        obtain ⟨kv, hkv, rfl⟩ := List.mem_map.1 hk
        obtain ⟨hm, hn⟩ := List.mem_filter.1 hkv
        exact .parameter _ (List.mem_map.2 ⟨kv, hm, rfl⟩) (of_decide_eq_true hn)
    · intro hN
      induction hN with
      | parameter k hk hn =>
        obtain ⟨kv, hkv, rfl⟩ := List.mem_map.1 hk
        exact h3 _ (List.mem_map.2 ⟨kv, List.mem_filter.2 ⟨hkv, decide_eq_true hn⟩, rfl⟩)
      | formula c f k _ hcf hm hk ih =>
        exact h5 c f k ih (Dict.get?_of_mem _ hc _ _ hcf) (decide_eq_true hm) hk
  refine ⟨r, h1, h2.nodup, hkeys, fun k f => ?_⟩
  constructor
  · intro hm
    have hk : k ∈ r.keys := List.mem_map.2 ⟨_, hm, rfl⟩
    have := Dict.get?_of_mem _ h2.nodup _ _ hm
    rw [(h2.sub k hk).1] at this
    exact ⟨Dict.mem_of_get? _ _ _ this, (hkeys k).1 hk⟩
  · rintro ⟨hm, hN⟩
    have hk := (hkeys k).2 hN
    apply Dict.mem_of_get?
    rw [(h2.sub k hk).1]
    exact Dict.get?_of_mem _ hc _ _ hm

/-- Definitions in another order give the same covariates. -/
theorem C52_order_independent (covariates covariates' : Dict Str Str) (hp : covariates.Perm covariates')
    (hc : covariates.keys.Nodup) (names names' : List Str) (hn : ∀ k, k ∈ names ↔ k ∈ names') :
    ∃ r r', removeIrrelevant covariates names = some r ∧ removeIrrelevant covariates' names' = some r' ∧
      r.Perm r' := by
  have hc' : covariates'.keys.Nodup := (hp.map Prod.fst).nodup_iff.1 hc
  obtain ⟨r, h1, h2, _, h4⟩ := C52_relevant_covariates covariates hc names
  obtain ⟨r', h1', h2', _, h4'⟩ := C52_relevant_covariates covariates' hc' names'
  refine ⟨r, r', h1, h1', ?_⟩
  have hN : ∀ (cs cs' : Dict Str Str) (ns ns' : List Str), (∀ kv, kv ∈ cs → kv ∈ cs') →
      (∀ k, k ∈ ns → k ∈ ns') → ∀ k, Needed cs ns k → Needed cs' ns' k := by
    intro cs cs' ns ns' hsub hns k h
    have hks : ∀ k, k ∈ cs.keys → k ∈ cs'.keys := by
      intro k hk
      obtain ⟨kv, hkv, rfl⟩ := List.mem_map.1 hk
      exact List.mem_map.2 ⟨kv, hsub kv hkv, rfl⟩
    induction h with
    | parameter k hk hn => exact .parameter k (hks k hk) (hns k hn)
    | formula c f k _ hcf hm hk ih => exact .formula c f k ih (hsub _ hcf) hm (hks k hk)
  refine (List.perm_ext_iff_of_nodup (h2.of_map _) (h2'.of_map _)).2 ?_
  rintro ⟨k, f⟩
  rw [h4, h4', hp.mem_iff]
  refine and_congr_right fun _ => ⟨?_, ?_⟩
  · exact hN _ _ _ _ (fun kv h => hp.mem_iff.1 h) (fun k h => (hn k).1 h) k
  · exact hN _ _ _ _ (fun kv h => hp.mem_iff.2 h) (fun k h => (hn k).2 h) k

/-- A chain of two covariates below the one in the parameters, and an irrelevant covariate. -/
example : removeIrrelevant
    [("unused".toList, "top + 1".toList), ("low".toList, "period".toList),
      ("mid".toList, "low > 2".toList), ("top".toList, "mid * 3".toList)]
    ["top".toList, "constant".toList] =
    some [("mid".toList, "low > 2".toList), ("low".toList, "period".toList),
      ("top".toList, "mid * 3".toList)] := by
  decide +kernel

end Respy
