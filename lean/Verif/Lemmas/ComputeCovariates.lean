import Verif.Model.Covariates
import Verif.Lemmas.Dict
import Mathlib.Data.List.Nodup

/-! Helper lemmas: computing covariates. -/

namespace Respy

/-- The dependencies are those of the formula: it can be evaluated if they are present, and its value only
depends on them. -/
structure Accurate {V : Type _} (eval : (Str → Option V) → Str → Option V) (d : CovariateDef) : Prop where
  defined : ∀ env, (∀ x ∈ d.dependsOn, (env x).isSome = true) → (eval env d.formula).isSome = true
  same : ∀ env env', (∀ x ∈ d.dependsOn, env x = env' x) → eval env d.formula = eval env' d.formula

/-- The value of a variable: the one in the frame or, if it is not a column, the value of its formula, where
the variables of the formula must have values (which are not missing). -/
inductive ColumnValue {V : Type _} (eval : (Str → Option V) → Str → Option V) (notna : V → Bool)
    (checkNans : Bool) (df : Frame V) (definitions : Dict Str CovariateDef) : Str → V → Prop
  | given (k : Str) (v : V) : df.lookup k = some v →
      ColumnValue eval notna checkNans df definitions k v
  | computed (c : Str) (d : CovariateDef) (env : Str → Option V) (v : V) : df.columns.get? c = none →
      (c, d) ∈ definitions →
      (∀ x ∈ d.dependsOn, ∃ w, env x = some w ∧ (checkNans = true → notna w = true)) →
      (∀ x ∈ d.dependsOn, ∀ w, env x = some w → ColumnValue eval notna checkNans df definitions x w) →
      eval env d.formula = some v → ColumnValue eval notna checkNans df definitions c v

section
variable {V : Type _} {eval : (Str → Option V) → Str → Option V} {notna : V → Bool} {checkNans : Bool}
  {df : Frame V} {definitions : Dict Str CovariateDef}

theorem ColumnValue.unique (hn : definitions.keys.Nodup) (hi : ∀ c ∈ definitions.keys, df.index.get? c = none)
    (ha : ∀ c d, (c, d) ∈ definitions → Accurate eval d) {k : Str} {v w : V}
    (h : ColumnValue eval notna checkNans df definitions k v)
    (h' : ColumnValue eval notna checkNans df definitions k w) : v = w := by
  induction h generalizing w with
  | given k v hk =>
    cases h' with
    | given _ _ hk' => rw [hk] at hk'; exact Option.some.inj hk'
    | computed _ d env _ hc hm _ _ _ =>
      have := hi k (List.mem_map.2 ⟨_, hm, rfl⟩)
      simp [Frame.lookup, hc, this] at hk
  | computed c d env v hc hm hex hsub hv ih =>
    cases h' with
    | given _ _ hk' =>
      have := hi c (List.mem_map.2 ⟨_, hm, rfl⟩)
      simp [Frame.lookup, hc, this] at hk'
    | computed _ d' env' _ _ hm' hex' hsub' hv' =>
      have hd : d = d' := by
        have h1 := Dict.get?_of_mem _ hn _ _ hm
        have h2 := Dict.get?_of_mem _ hn _ _ hm'
        rw [h1] at h2
        exact Option.some.inj h2
      subst hd
      have := (ha c d hm).same env env' fun x hx => by
        obtain ⟨w₁, hw₁, _⟩ := hex x hx
        obtain ⟨w₂, hw₂, _⟩ := hex' x hx
        rw [hw₁, hw₂, ih x hx w₁ hw₁ (hsub' x hx w₂ hw₂)]
      rw [hv, hv'] at this
      exact Option.some.inj this

variable (eval notna checkNans df definitions) in
/-- The frame contains only correct columns. -/
structure FrameSound (df' : Frame V) : Prop where
  index : df'.index = df.index
  old : ∀ k v, df.columns.get? k = some v → df'.columns.get? k = some v
  value : ∀ k v, df'.lookup k = some v → ColumnValue eval notna checkNans df definitions k v
  new : ∀ k ∈ df'.columns.keys, k ∈ df.columns.keys ∨ k ∈ definitions.keys

theorem computePass_spec (hi : ∀ c ∈ definitions.keys, df.index.get? c = none)
    (ha : ∀ c d, (c, d) ∈ definitions → Accurate eval d) (l : List (Str × CovariateDef))
    (hl : ∀ cd ∈ l, cd ∈ definitions) (df' : Frame V)
    (hs : FrameSound eval notna checkNans df definitions df') :
    ∃ df'' left, computePass eval notna checkNans df' l = .ok (df'', left) ∧
      FrameSound eval notna checkNans df definitions df'' ∧
      (∀ k v, df'.columns.get? k = some v → df''.columns.get? k = some v) ∧
      left.Sublist l ∧ (∀ cd ∈ l, cd ∈ left ∨ cd.1 ∈ df''.columns.keys) ∧
      (left.length = l.length → df'' = df' ∧ left = l ∧
        ∀ cd ∈ l, isReady notna checkNans df' cd.2 = false) := by
  induction l generalizing df' with
  | nil =>
    exact ⟨df', [], rfl, hs, fun _ _ h => h, .slnil, by simp, fun _ => ⟨rfl, rfl, by simp⟩⟩
  | cons cd l ih =>
    obtain ⟨c, d⟩ := cd
    have hm := hl (c, d) (by simp)
    have hl' : ∀ cd ∈ l, cd ∈ definitions := fun cd h => hl cd (by simp [h])
    rw [computePass]
    by_cases hin : c ∈ df'.columns.keys
    · rw [if_pos hin]
      obtain ⟨df'', left, h1, h2, h3, h4, h5, h6⟩ := ih hl' df' hs
      refine ⟨df'', left, h1, h2, h3, h4.cons _, ?_, ?_⟩
      · intro cd hcd
        rcases List.mem_cons.1 hcd with rfl | hcd
        · right
          cases hg : df'.columns.get? c with
          | none => exact absurd hin ((Dict.get?_eq_none_iff _ _).1 hg)
          | some v => exact List.mem_map.2 ⟨_, Dict.mem_of_get? _ _ _ (h3 c v hg), rfl⟩
        · exact h5 cd hcd
      · intro hlen
        have := h4.length_le
        simp only [List.length_cons] at hlen
        omega
    · rw [if_neg hin]
      have hnone : df'.columns.get? c = none := (Dict.get?_eq_none_iff _ _).2 hin
      have hnone0 : df.columns.get? c = none := by
        cases hg : df.columns.get? c with
        | none => rfl
        | some v => rw [hs.old c v hg] at hnone; cases hnone
      have hci : df'.index.get? c = none := by
        rw [hs.index]; exact hi c (List.mem_map.2 ⟨_, hm, rfl⟩)
      by_cases hr : isReady notna checkNans df' d = true
      · rw [if_pos hr]
        have hr' := hr
        simp only [isReady, Bool.and_eq_true, List.all_eq_true, Bool.or_eq_true,
          Bool.not_eq_true'] at hr'
        have hsome := (ha c d hm).defined df'.lookup hr'.1
        obtain ⟨v, hv⟩ := Option.isSome_iff_exists.1 hsome
        rw [hv]
        have hs' : FrameSound eval notna checkNans df definitions
            ⟨df'.columns.insert c v, df'.index⟩ := by
          refine ⟨hs.index, ?_, ?_, ?_⟩
          · intro k w hk
            have hne : c ≠ k := by
              rintro rfl
              rw [hnone0] at hk; cases hk
            show (df'.columns.insert c v).get? k = some w
            rw [Dict.get?_insert, if_neg hne]
            exact hs.old k w hk
          · intro k w hk
            by_cases hkc : c = k
            · subst hkc
              have hvw : v = w := by
                simpa [Frame.lookup, Dict.get?_insert] using hk
              subst hvw
              refine .computed c d df'.lookup v hnone0 hm (fun x hx => ?_) (fun x _ w hw => hs.value x w hw) hv
              obtain ⟨w, hw⟩ := Option.isSome_iff_exists.1 (hr'.1 x hx)
              refine ⟨w, hw, fun hcn => ?_⟩
              have := (hr'.2.resolve_left (by simp [hcn])) x hx
              simpa [hw] using this
            · apply hs.value
              simpa [Frame.lookup, Dict.get?_insert, hkc] using hk
          · intro k hk
            rw [Dict.mem_keys_insert] at hk
            rcases hk with rfl | hk
            · exact Or.inr (List.mem_map.2 ⟨_, hm, rfl⟩)
            · exact hs.new k hk
        obtain ⟨df'', left, h1, h2, h3, h4, h5, h6⟩ := ih hl' _ hs'
        have hmono : ∀ k w, df'.columns.get? k = some w → df''.columns.get? k = some w := by
          intro k w hk
          apply h3
          show (df'.columns.insert c v).get? k = some w
          have hne : c ≠ k := by rintro rfl; rw [hnone] at hk; cases hk
          rw [Dict.get?_insert, if_neg hne]
          exact hk
        refine ⟨df'', left, h1, h2, hmono, h4.cons _, ?_, ?_⟩
        · intro cd hcd
          rcases List.mem_cons.1 hcd with rfl | hcd
          · right
            have := h3 c v (by show (df'.columns.insert c v).get? c = some v; rw [Dict.get?_insert, if_pos rfl])
            exact List.mem_map.2 ⟨_, Dict.mem_of_get? _ _ _ this, rfl⟩
          · exact h5 cd hcd
        · intro hlen
          have := h4.length_le
          simp only [List.length_cons] at hlen
          omega
      · rw [if_neg hr]
        obtain ⟨df'', left, h1, h2, h3, h4, h5, h6⟩ := ih hl' df' hs
        rw [h1]
        refine ⟨df'', (c, d) :: left, rfl, h2, h3, h4.cons_cons _, ?_, ?_⟩
        · intro cd hcd
          rcases List.mem_cons.1 hcd with rfl | hcd
          · exact Or.inl (by simp)
          · exact (h5 cd hcd).imp (fun h => List.mem_cons_of_mem _ h) id
        · intro hlen
          obtain ⟨h7, h8, h9⟩ := h6 (by simpa using hlen)
          refine ⟨h7, by rw [h8], ?_⟩
          intro cd hcd
          rcases List.mem_cons.1 hcd with rfl | hcd
          · simpa using hr
          · exact h9 cd hcd

theorem computeLoop_spec (hi : ∀ c ∈ definitions.keys, df.index.get? c = none)
    (ha : ∀ c d, (c, d) ∈ definitions → Accurate eval d) (fuel : Nat) (l : List (Str × CovariateDef))
    (hl : ∀ cd ∈ l, cd ∈ definitions) (hf : l.length < fuel) (df' : Frame V)
    (hs : FrameSound eval notna checkNans df definitions df')
    (hleft : ∀ cd ∈ definitions, cd ∈ l ∨ cd.1 ∈ df'.columns.keys) :
    ∃ df'' left, computeLoop eval notna checkNans fuel df' l = .ok (df'', left) ∧
      FrameSound eval notna checkNans df definitions df'' ∧ left.Sublist l ∧
      (∀ cd ∈ definitions, cd ∈ left ∨ cd.1 ∈ df''.columns.keys) ∧
      ∀ cd ∈ left, isReady notna checkNans df'' cd.2 = false ∧ cd ∈ definitions := by
  induction fuel generalizing l df' with
  | zero => omega
  | succ fuel ih =>
    obtain ⟨df₁, left₁, h1, h2, h3, h4, h5, h6⟩ := computePass_spec hi ha l hl df' hs
    have hleft₁ : ∀ cd ∈ definitions, cd ∈ left₁ ∨ cd.1 ∈ df₁.columns.keys := by
      intro cd hcd
      rcases hleft cd hcd with h | h
      · exact h5 cd h
      · right
        cases hg : df'.columns.get? cd.1 with
        | none => exact absurd h ((Dict.get?_eq_none_iff _ _).1 hg)
        | some v => exact List.mem_map.2 ⟨_, Dict.mem_of_get? _ _ _ (h3 _ v hg), rfl⟩
    rw [computeLoop, h1]
    dsimp only
    have hle := h4.length_le
    split
    · obtain ⟨df'', left, h1', h2', h3', h4', h5'⟩ :=
        ih left₁ (fun cd h => hl cd (h4.subset h)) (by omega) df₁ h2 hleft₁
      exact ⟨df'', left, h1', h2', h3'.trans h4, h4', h5'⟩
    · rename_i heq
      obtain ⟨h7, h8, h9⟩ := h6 (by omega)
      refine ⟨df₁, left₁, rfl, h2, h4, hleft₁, fun cd hcd => ⟨?_, hl cd (h4.subset hcd)⟩⟩
      rw [h7]
      exact h9 cd (h4.subset hcd)

end

theorem computePass_left_not_column {V : Type _} (eval : (Str → Option V) → Str → Option V)
    (notna : V → Bool) (checkNans : Bool) (l : List (Str × CovariateDef)) (df df' : Frame V)
    (left : List (Str × CovariateDef)) (h : computePass eval notna checkNans df l = .ok (df', left)) :
    (∀ k ∈ df.columns.keys, k ∈ df'.columns.keys) ∧ ∀ cd ∈ left, cd.1 ∉ df.columns.keys := by
  induction l generalizing df df' left with
  | nil => cases h; exact ⟨fun _ h => h, by simp⟩
  | cons cd l ih =>
    obtain ⟨c, d⟩ := cd
    rw [computePass] at h
    split at h
    · exact ih df df' left h
    · split at h
      · split at h
        · cases h
        · obtain ⟨h1, h2⟩ := ih _ _ _ h
          have hsub : ∀ k ∈ df.columns.keys, ∀ v, k ∈ (df.columns.insert c v).keys := fun k hk v => by
            rw [Dict.mem_keys_insert]; exact Or.inr hk
          exact ⟨fun k hk => h1 k (hsub k hk _), fun cd hcd hin => h2 cd hcd (hsub _ hin _)⟩
      · rename_i hnc _
        split at h
        · cases h
        · rename_i heq
          cases h
          obtain ⟨h1, h2⟩ := ih _ _ _ heq
          refine ⟨h1, fun cd hcd => ?_⟩
          rcases List.mem_cons.1 hcd with rfl | hcd
          · exact hnc
          · exact h2 cd hcd

theorem computeLoop_left_not_column {V : Type _} (eval : (Str → Option V) → Str → Option V)
    (notna : V → Bool) (checkNans : Bool) (fuel : Nat) (df : Frame V) (l : List (Str × CovariateDef))
    (df' : Frame V) (left : List (Str × CovariateDef))
    (h : computeLoop eval notna checkNans fuel df l = .ok (df', left)) (cd : Str × CovariateDef)
    (hc : cd.1 ∈ df.columns.keys) : cd ∉ left := by
  induction fuel generalizing df l with
  | zero => cases h
  | succ fuel ih =>
    rw [computeLoop] at h
    split at h
    · cases h
    · rename_i df₁ left₁ heq
      obtain ⟨h1, h2⟩ := computePass_left_not_column eval notna checkNans _ _ _ _ heq
      split at h
      · exact ih df₁ left₁ h (h1 _ hc)
      · cases h
        intro hm
        exact h2 cd hm hc

end Respy
