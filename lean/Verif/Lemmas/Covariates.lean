import Verif.Model.Covariates
import Verif.Lemmas.Dict
import Mathlib.Data.List.Nodup
import Mathlib.Data.List.Perm.Subperm

/-! Helper lemmas: relevant covariates. -/

namespace Respy

/-- The dictionary is a part of the covariates. -/
structure SubDict (covariates r : Dict Str Str) : Prop where
  nodup : r.keys.Nodup
  sub : ∀ k ∈ r.keys, r.get? k = covariates.get? k ∧ k ∈ covariates.keys

theorem SubDict.prepend {covariates r : Dict Str Str} (h : SubDict covariates r)
    (hc : covariates.keys.Nodup) (cov formula : Str) (hm : (cov, formula) ∈ covariates) :
    SubDict covariates (prependCovariate cov formula r) ∧
      ∀ k, k ∈ (prependCovariate cov formula r).keys ↔ k = cov ∨ k ∈ r.keys := by
  have hmem : ∀ k, k ∈ (prependCovariate cov formula r).keys ↔ k = cov ∨ k ∈ r.keys := by
    intro k
    unfold prependCovariate
    rw [Dict.mem_keys_update]
    simp [Dict.keys]
  refine ⟨⟨Dict.nodup_keys_update _ _ (by simp [Dict.keys]), fun k hk => ?_⟩, hmem⟩
  have hcov : covariates.get? cov = some formula := Dict.get?_of_mem _ hc _ _ hm
  have hcm : cov ∈ covariates.keys := List.mem_map.2 ⟨_, hm, rfl⟩
  unfold prependCovariate
  rw [Dict.get?_update]
  cases hf : r.reverse.find? (fun kv => decide (kv.1 = k)) with
  | none =>
    rw [List.find?_eq_none] at hf
    have hnk : k ∉ r.keys := by
      intro hk'
      obtain ⟨kv, hkv, rfl⟩ := List.mem_map.1 hk'
      exact absurd (hf kv (List.mem_reverse.2 hkv)) (by simp)
    have : k = cov := ((hmem k).1 hk).resolve_right hnk
    subst this
    simp [Dict.get?, hcov, hcm]
  | some kv =>
    have h1 : kv.1 = k := by simpa using List.find?_some hf
    have h2 : kv ∈ r := List.mem_reverse.1 (List.mem_of_find?_eq_some hf)
    have h3 := Dict.get?_of_mem r h.nodup kv.1 kv.2 h2
    have h4 := h.sub k (List.mem_map.2 ⟨kv, h2, h1⟩)
    rw [h1] at h3
    exact ⟨by rw [← h4.1, h3], h4.2⟩

theorem addMentioned_spec {covariates r : Dict Str Str} (h : SubDict covariates r)
    (hc : covariates.keys.Nodup) (cov formula : Str) (hm : (cov, formula) ∈ covariates) :
    ∃ r', addMentioned r (cov, formula) = some r' ∧ SubDict covariates r' ∧
      ∀ k, k ∈ r'.keys ↔ k ∈ r.keys ∨
        (k = cov ∧ ∃ c ∈ r.keys, ∃ g, covariates.get? c = some g ∧ mentioned cov g = true) := by
  have key : ∀ (ks : List Str) (r : Dict Str Str), SubDict covariates r → (∀ c ∈ ks, c ∈ r.keys) →
      ∃ r', ks.foldlM (fun r relevantCov => (r.get? relevantCov).map fun g =>
          if mentioned cov g then prependCovariate cov formula r else r) r = some r' ∧
        SubDict covariates r' ∧ ∀ k, k ∈ r'.keys ↔ k ∈ r.keys ∨
          (k = cov ∧ ∃ c ∈ ks, ∃ g, covariates.get? c = some g ∧ mentioned cov g = true) := by
    intro ks
    induction ks with
    | nil => intro r hr _; exact ⟨r, rfl, hr, by simp⟩
    | cons c ks ih =>
      intro r hr hks
      have hcr := hr.sub c (hks c (by simp))
      obtain ⟨g, hg⟩ : ∃ g, covariates.get? c = some g := by
        cases hg : covariates.get? c with
        | none => exact absurd hcr.2 ((Dict.get?_eq_none_iff _ _).1 hg)
        | some g => exact ⟨g, rfl⟩
      rw [List.foldlM_cons, hcr.1, hg]
      simp only [Option.map_some, Option.bind_eq_bind, Option.bind_some]
      by_cases hmg : mentioned cov g = true
      · rw [if_pos hmg]
        obtain ⟨hp1, hp2⟩ := hr.prepend hc cov formula hm
        obtain ⟨r', h1, h2, h3⟩ := ih _ hp1 fun x hx => (hp2 x).2 (Or.inr (hks x (by simp [hx])))
        refine ⟨r', h1, h2, fun k => ?_⟩
        rw [h3, hp2]
        constructor
        · rintro ((hk | hk) | ⟨hk, x, hx, hx'⟩)
          · exact Or.inr ⟨hk, c, by simp, g, hg, hmg⟩
          · exact Or.inl hk
          · exact Or.inr ⟨hk, x, by simp [hx], hx'⟩
        · rintro (hk | ⟨hk, _⟩)
          · exact Or.inl (Or.inr hk)
          · exact Or.inl (Or.inl hk)
      · rw [if_neg hmg]
        obtain ⟨r', h1, h2, h3⟩ := ih r hr fun x hx => hks x (by simp [hx])
        refine ⟨r', h1, h2, fun k => ?_⟩
        rw [h3]
        constructor
        · rintro (hk | ⟨hk, x, hx, hx'⟩)
          · exact Or.inl hk
          · exact Or.inr ⟨hk, x, by simp [hx], hx'⟩
        · rintro (hk | ⟨hk, x, hx, g', hg', hmg'⟩)
          · exact Or.inl hk
          · rcases List.mem_cons.1 hx with rfl | hx
            · rw [hg] at hg'; cases hg'; exact absurd hmg' hmg
            · exact Or.inr ⟨hk, x, hx, g', hg', hmg'⟩
  exact key r.keys r h fun _ hc => hc

/-- A predicate on covariates which contains everything mentioned by its members. -/
def ClosedUnderMention (covariates : Dict Str Str) (P : Str → Prop) : Prop :=
  ∀ c f k, P c → covariates.get? c = some f → mentioned k f = true → k ∈ covariates.keys → P k

theorem relevantPass_spec {covariates r : Dict Str Str} (h : SubDict covariates r)
    (hc : covariates.keys.Nodup) (items : Dict Str Str) (hi : ∀ kv ∈ items, kv ∈ covariates) :
    ∃ r', items.foldlM addMentioned r = some r' ∧ SubDict covariates r' ∧
      (∀ k ∈ r.keys, k ∈ r'.keys) ∧
      (∀ P, ClosedUnderMention covariates P → (∀ k ∈ r.keys, P k) → ∀ k ∈ r'.keys, P k) ∧
      (∀ kv ∈ items, ∀ c ∈ r.keys, ∀ g, covariates.get? c = some g → mentioned kv.1 g = true →
        kv.1 ∈ r'.keys) := by
  induction items generalizing r with
  | nil => exact ⟨r, rfl, h, fun _ hk => hk, fun _ _ hk => hk, by simp⟩
  | cons kv items ih =>
    obtain ⟨cov, formula⟩ := kv
    have hm := hi (cov, formula) (by simp)
    obtain ⟨r₁, h1, h2, h3⟩ := addMentioned_spec h hc cov formula hm
    obtain ⟨r', h1', h2', h3', h4', h5'⟩ := ih h2 fun kv hkv => hi kv (by simp [hkv])
    refine ⟨r', ?_, h2', fun k hk => h3' k ((h3 k).2 (Or.inl hk)), ?_, ?_⟩
    · rw [List.foldlM_cons, h1]; exact h1'
    · intro P hP hr
      refine h4' P hP fun k hk => ?_
      rcases (h3 k).1 hk with hk | ⟨rfl, c, hcr, g, hg, hmg⟩
      · exact hr k hk
      · exact hP c g k (hr c hcr) hg hmg (List.mem_map.2 ⟨_, hm, rfl⟩)
    · intro kv hkv c hcr g hg hmg
      rcases List.mem_cons.1 hkv with rfl | hkv
      · exact h3' _ ((h3 _).2 (Or.inr ⟨rfl, c, hcr, g, hg, hmg⟩))
      · exact h5' kv hkv c ((h3 c).2 (Or.inl hcr)) g hg hmg

theorem relevantLoop_spec {covariates : Dict Str Str} (hc : covariates.keys.Nodup) (fuel : Nat)
    (r : Dict Str Str) (h : SubDict covariates r) (hf : covariates.length < fuel + r.length) :
    ∃ r', relevantLoop covariates fuel r = some r' ∧ SubDict covariates r' ∧
      (∀ k ∈ r.keys, k ∈ r'.keys) ∧
      (∀ P, ClosedUnderMention covariates P → (∀ k ∈ r.keys, P k) → ∀ k ∈ r'.keys, P k) ∧
      ClosedUnderMention covariates (· ∈ r'.keys) := by
  have hlen : ∀ r, SubDict covariates r → r.length ≤ covariates.length := by
    intro r hr
    have := (List.subperm_of_subset hr.nodup fun k hk => (hr.sub k hk).2).length_le
    simpa [Dict.keys] using this
  induction fuel generalizing r with
  | zero => have := hlen r h; omega
  | succ fuel ih =>
    obtain ⟨r₁, h1, h2, h3, h4, h5⟩ := relevantPass_spec h hc covariates fun _ hkv => hkv
    rw [relevantLoop, h1]
    simp only [Option.bind_some]
    have hle : r.length ≤ r₁.length := by
      have := (List.subperm_of_subset h.nodup fun k hk => h3 k hk).length_le
      simpa [Dict.keys] using this
    split
    · rename_i hne
      obtain ⟨r', h1', h2', h3', h4', h5'⟩ := ih r₁ h2 (by omega)
      exact ⟨r', h1', h2', fun k hk => h3' k (h3 k hk), fun P hP hr => h4' P hP (h4 P hP hr), h5'⟩
    · rename_i heq
      have heq : r.length = r₁.length := not_not.1 heq
      refine ⟨r₁, rfl, h2, h3, h4, ?_⟩
      have hsame : ∀ k ∈ r₁.keys, k ∈ r.keys := by
        have hp := (List.subperm_of_subset h.nodup fun k hk => h3 k hk).perm_of_length_le
          (by simp [Dict.keys, heq])
        intro k hk
        exact hp.mem_iff.2 hk
      intro c f k hcr hf hmf hk
      obtain ⟨kv, hkv, rfl⟩ := List.mem_map.1 hk
      exact h5 kv hkv c (hsame c hcr) f hf hmf

end Respy
