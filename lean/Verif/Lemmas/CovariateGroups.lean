import Verif.Lemmas.Covariates

/-! Helper lemmas: groups of covariates. -/

namespace Respy

/-- A variable which is one of the given ones or a covariate whose formula mentions such a variable, directly
or through other covariates. -/
inductive Reaches (covariates : Dict Str Str) (base : List Str) : Str → Prop
  | base (k : Str) : k ∈ base → Reaches covariates base k
  | formula (c f k : Str) : (c, f) ∈ covariates → k <:+: f → Reaches covariates base k →
      Reaches covariates base c

theorem keys_insert_of_mem {κ ν : Type _} [DecidableEq κ] (d : Dict κ ν) (k : κ) (v : ν)
    (h : k ∈ d.keys) : (d.insert k v).keys = d.keys := by
  induction d with
  | nil => simp [Dict.keys] at h
  | cons kv d ih =>
    obtain ⟨a, b⟩ := kv
    unfold Dict.insert
    split
    · simp [Dict.keys]
    · rename_i hne
      have : k ∈ Dict.keys d := by
        have h' : k = a ∨ k ∈ Dict.keys d := by simpa [Dict.keys] using h
        rcases h' with h' | h'
        · exact absurd h'.symm hne
        · exact h'
      have := ih this
      simp only [Dict.keys, List.map_cons] at this ⊢
      rw [this]

structure GroupsInv (covariates : Dict Str Str) (coreBase denseBase : List Str) (g : Groups) : Prop where
  coreNodup : g.core.Nodup
  denseNodup : g.dense.Nodup
  coreSound : ∀ k ∈ g.core, Reaches covariates coreBase k
  denseSound : ∀ k ∈ g.dense, Reaches covariates denseBase k
  keys : g.detailed.keys = covariates.keys
  entry : ∀ k d, g.detailed.get? k = some d → covariates.get? k = some d.formula ∧
    ∀ x ∈ d.dependsOn, x <:+: d.formula ∧ (Reaches covariates coreBase x ∨ Reaches covariates denseBase x)
  depsNodup : ∀ k d, g.detailed.get? k = some d → d.dependsOn.Nodup

structure Grows (g new : Groups) : Prop where
  core : g.core <:+ new.core
  dense : g.dense <:+ new.dense
  entry : ∀ k d, g.detailed.get? k = some d →
    ∃ d', new.detailed.get? k = some d' ∧ ∀ x ∈ d.dependsOn, x ∈ d'.dependsOn

theorem Grows.trans {a b c : Groups} (h : Grows a b) (h' : Grows b c) : Grows a c := by
  refine ⟨h.core.trans h'.core, h.dense.trans h'.dense, fun k d hd => ?_⟩
  obtain ⟨d', h1, h2⟩ := h.entry k d hd
  obtain ⟨d'', h3, h4⟩ := h'.entry k d' h1
  exact ⟨d'', h3, fun x hx => h4 x (h2 x hx)⟩

theorem groupStep_spec {covariates : Dict Str Str} {coreBase denseBase : List Str} {g : Groups}
    (h : GroupsInv covariates coreBase denseBase g) (hc : covariates.keys.Nodup) (c f : Str)
    (hm : (c, f) ∈ covariates) :
    GroupsInv covariates coreBase denseBase (groupStep g (c, f)) ∧ Grows g (groupStep g (c, f)) ∧
      (∀ x ∈ g.core, x <:+: f → c ∈ (groupStep g (c, f)).core) ∧
      (∀ x ∈ g.dense, x <:+: f → c ∈ (groupStep g (c, f)).dense) ∧
      ∃ d, (groupStep g (c, f)).detailed.get? c = some d ∧
        ∀ x, x ∈ g.core ∨ x ∈ g.dense → x <:+: f → x ∈ d.dependsOn := by
  have hfil : ∀ (l : List Str), (l.filter fun i => mentioned i f) ≠ [] ↔ ∃ x ∈ l, x <:+: f := by
    intro l
    rw [Ne, List.filter_eq_nil_iff]
    simp [mentioned]
  have hck : c ∈ covariates.keys := List.mem_map.2 ⟨_, hm, rfl⟩
  have hcg : covariates.get? c = some f := Dict.get?_of_mem _ hc _ _ hm
  have hsuf : ∀ l : List Str, l <:+ l.insert c := by
    intro l
    by_cases hcl : c ∈ l
    · rw [List.insert_of_mem hcl]
    · rw [List.insert_of_not_mem hcl]; exact List.suffix_cons _ _
  have hset : ∀ (base l : List Str), l.Nodup → (∀ k ∈ l, Reaches covariates base k) →
      let l' := if (l.filter fun i => mentioned i f) ≠ [] then l.insert c else l
      l'.Nodup ∧ (∀ k ∈ l', Reaches covariates base k) ∧ l <:+ l' ∧ ∀ x ∈ l, x <:+: f → c ∈ l' := by
    intro base l hl hs
    dsimp only
    split
    · rename_i hne
      obtain ⟨x, hx, hxf⟩ := (hfil l).1 hne
      refine ⟨hl.insert, ?_, hsuf l, fun _ _ _ => List.mem_insert_self⟩
      intro k hk
      rcases List.mem_insert_iff.1 hk with rfl | hk
      · exact .formula k f x hm hxf (hs x hx)
      · exact hs k hk
    · rename_i hne
      refine ⟨hl, hs, List.suffix_rfl, fun x hx hxf => absurd ((hfil l).2 ⟨x, hx, hxf⟩) hne⟩
  obtain ⟨c1, c2, c3, c4⟩ := hset coreBase g.core h.coreNodup h.coreSound
  obtain ⟨d1, d2, d3, d4⟩ := hset denseBase g.dense h.denseNodup h.denseSound
  obtain ⟨old, hold⟩ : ∃ old, g.detailed.get? c = some old := by
    cases ho : g.detailed.get? c with
    | none =>
      have := (Dict.get?_eq_none_iff _ _).1 ho
      rw [h.keys] at this
      exact absurd hck this
    | some old => exact ⟨old, rfl⟩
  refine ⟨⟨c1, d1, c2, d2, ?_, ?_, ?_⟩, ⟨c3, d3, ?_⟩, c4, d4, ?_⟩
  · show (Dict.insert g.detailed c _).keys = _
    rw [keys_insert_of_mem _ _ _ (by rw [h.keys]; exact hck), h.keys]
  · intro k d hd
    change (Dict.insert g.detailed c _).get? k = some d at hd
    rw [Dict.get?_insert] at hd
    split at hd
    · rename_i hkc
      subst hkc
      cases hd
      refine ⟨hcg, fun x hx => ?_⟩
      simp only [hold, Option.map_some, Option.getD_some, List.mem_union_iff,
        List.mem_filter, mentioned, decide_eq_true_eq] at hx
      rcases hx with hx | ⟨hx, hxf⟩ | ⟨hx, hxf⟩
      · have he := h.entry c old hold
        have hf : old.formula = f := by
          have := he.1
          rw [hcg] at this
          exact (Option.some.inj this).symm
        have := he.2 x hx
        rwa [hf] at this
      · exact ⟨hxf, Or.inl (h.coreSound x hx)⟩
      · exact ⟨hxf, Or.inr (h.denseSound x hx)⟩
    · exact h.entry k d hd
  · intro k d hd
    change (Dict.insert g.detailed c _).get? k = some d at hd
    rw [Dict.get?_insert] at hd
    split at hd
    · cases hd
      exact List.Nodup.union _ (List.Nodup.union _ (h.denseNodup.filter _))
    · exact h.depsNodup k d hd
  · intro k d hd
    show ∃ d', (Dict.insert g.detailed c _).get? k = some d' ∧ _
    rw [Dict.get?_insert]
    split
    · rename_i hkc
      subst hkc
      refine ⟨_, rfl, fun x hx => ?_⟩
      simp [hd, hx]
    · exact ⟨d, hd, fun _ hx => hx⟩
  · show ∃ d, (Dict.insert g.detailed c _).get? c = some d ∧ _
    rw [Dict.get?_insert, if_pos rfl]
    refine ⟨_, rfl, fun x hx hxf => ?_⟩
    simp only [List.mem_union_iff, List.mem_filter, mentioned, decide_eq_true_eq]
    rcases hx with hx | hx
    · exact Or.inr (Or.inl ⟨hx, hxf⟩)
    · exact Or.inr (Or.inr ⟨hx, hxf⟩)

theorem groupPass_spec {covariates : Dict Str Str} {coreBase denseBase : List Str} {g : Groups}
    (h : GroupsInv covariates coreBase denseBase g) (hc : covariates.keys.Nodup) (items : Dict Str Str)
    (hi : ∀ kv ∈ items, kv ∈ covariates) :
    GroupsInv covariates coreBase denseBase (items.foldl groupStep g) ∧
      Grows g (items.foldl groupStep g) ∧
      ∀ c f, (c, f) ∈ items →
        (∀ x ∈ g.core, x <:+: f → c ∈ (items.foldl groupStep g).core) ∧
        (∀ x ∈ g.dense, x <:+: f → c ∈ (items.foldl groupStep g).dense) ∧
        ∃ d, (items.foldl groupStep g).detailed.get? c = some d ∧
          ∀ x, x ∈ g.core ∨ x ∈ g.dense → x <:+: f → x ∈ d.dependsOn := by
  induction items generalizing g with
  | nil =>
    exact ⟨h, ⟨List.suffix_rfl, List.suffix_rfl, fun k d hd => ⟨d, hd, fun _ hx => hx⟩⟩, by simp⟩
  | cons kv items ih =>
    obtain ⟨c, f⟩ := kv
    obtain ⟨h1, h2, h3, h4, d, h5, h6⟩ := groupStep_spec h hc c f (hi _ (by simp))
    obtain ⟨h1', h2', h3'⟩ := ih h1 fun kv hkv => hi kv (by simp [hkv])
    rw [List.foldl_cons]
    refine ⟨h1', h2.trans h2', fun c' f' hm => ?_⟩
    rcases List.mem_cons.1 hm with he | hm
    · cases he
      refine ⟨fun x hx hxf => h2'.core.subset (h3 x hx hxf),
        fun x hx hxf => h2'.dense.subset (h4 x hx hxf), ?_⟩
      obtain ⟨d', h7, h8⟩ := h2'.entry c d h5
      exact ⟨d', h7, fun x hx hxf => h8 x (h6 x hx hxf)⟩
    · obtain ⟨h7, h8, d', h9, h10⟩ := h3' c' f' hm
      exact ⟨fun x hx => h7 x (h2.core.subset hx), fun x hx => h8 x (h2.dense.subset hx), d', h9,
        fun x hx => h10 x (hx.imp (fun h => h2.core.subset h) fun h => h2.dense.subset h)⟩

theorem groupLoop_spec {covariates : Dict Str Str} {coreBase denseBase : List Str}
    (hc : covariates.keys.Nodup) (fuel : Nat) (g : Groups)
    (h : GroupsInv covariates coreBase denseBase g)
    (hcb : ∀ k ∈ coreBase, k ∈ g.core) (hdb : ∀ k ∈ denseBase, k ∈ g.dense)
    (hf : coreBase.dedup.length + denseBase.dedup.length + 2 * covariates.length <
      fuel + g.core.length + g.dense.length) :
    ∃ r, groupLoop covariates fuel g = some r ∧ GroupsInv covariates coreBase denseBase r ∧
      (∀ k, k ∈ r.core ↔ Reaches covariates coreBase k) ∧
      (∀ k, k ∈ r.dense ↔ Reaches covariates denseBase k) ∧
      ∀ c f, (c, f) ∈ covariates → ∃ d, r.detailed.get? c = some d ∧
        ∀ x, x ∈ r.core ∨ x ∈ r.dense → x <:+: f → x ∈ d.dependsOn := by
  have hlen : ∀ (base l : List Str), l.Nodup → (∀ k ∈ l, Reaches covariates base k) →
      l.length ≤ base.dedup.length + covariates.length := by
    intro base l hl hs
    have hsub : l ⊆ base.dedup ++ covariates.keys := by
      intro k hk
      cases hs k hk with
      | base _ hb => exact List.mem_append_left _ (List.mem_dedup.2 hb)
      | formula _ f x hm _ _ => exact List.mem_append_right _ (List.mem_map.2 ⟨_, hm, rfl⟩)
    have := (List.subperm_of_subset hl hsub).length_le
    simpa [Dict.keys] using this
  induction fuel generalizing g with
  | zero =>
    have h1 := hlen _ _ h.coreNodup h.coreSound
    have h2 := hlen _ _ h.denseNodup h.denseSound
    omega
  | succ fuel ih =>
    obtain ⟨h1, h2, h3⟩ := groupPass_spec h hc covariates fun _ hkv => hkv
    have hl1 := h2.core.length_le
    have hl2 := h2.dense.length_le
    rw [groupLoop]
    split
    · rename_i hne
      exact ih _ h1 (fun k hk => h2.core.subset (hcb k hk)) (fun k hk => h2.dense.subset (hdb k hk))
        (by omega)
    · rename_i heq
      have e1 : g.core = (covariates.foldl groupStep g).core :=
        h2.core.eq_of_length (by omega)
      have e2 : g.dense = (covariates.foldl groupStep g).dense :=
        h2.dense.eq_of_length (by omega)
      refine ⟨_, rfl, h1, fun k => ⟨h1.coreSound k, fun hk => ?_⟩,
        fun k => ⟨h1.denseSound k, fun hk => ?_⟩, fun c f hm => ?_⟩
      · induction hk with
        | base k hb => exact h2.core.subset (hcb k hb)
        | formula c f k hm hkf _ ih' =>
          rw [← e1] at ih'
          exact (h3 c f hm).1 k ih' hkf
      · induction hk with
        | base k hb => exact h2.dense.subset (hdb k hb)
        | formula c f k hm hkf _ ih' =>
          rw [← e2] at ih'
          exact (h3 c f hm).2.1 k ih' hkf
      · obtain ⟨d, hd, hx⟩ := (h3 c f hm).2.2
        refine ⟨d, hd, fun x hx' => hx x ?_⟩
        rw [← e1, ← e2] at hx'
        exact hx'

end Respy
