import Verif.Lemmas.ComputeCovariates
import Verif.Props.CovariateGroups

/-! # Properties of computing covariates -/

namespace Respy

/-! ### C53 Covariates are computed in dependency order, whatever order they are defined in -/

section
variable {V : Type _} (eval : (Str → Option V) → Str → Option V) (notna : V → Bool) (checkNans : Bool)
  (df : Frame V) (definitions : Dict Str CovariateDef)

/-- With accurate dependencies: the loop ends without an error of `eval`, existing columns are untouched, and
the variables in the result are exactly those which have a value according to the definitions, with this
value. With `raise_errors`, there is an error iff a covariate has no value.
Missing: inaccurate dependencies, see `C53_constant_false` and `C53_substring_false`. -/
theorem C53_values_partial (hn : definitions.keys.Nodup)
    (hi : ∀ c ∈ definitions.keys, df.index.get? c = none)
    (ha : ∀ c d, (c, d) ∈ definitions → Accurate eval d) :
    ∃ df', computeCovariates eval notna checkNans false df definitions = .ok df' ∧
      df'.index = df.index ∧
      (∀ k v, df.columns.get? k = some v → df'.columns.get? k = some v) ∧
      (∀ k, k ∈ df'.columns.keys → k ∈ df.columns.keys ∨ k ∈ definitions.keys) ∧
      (∀ k v, df'.lookup k = some v ↔ ColumnValue eval notna checkNans df definitions k v) ∧
      ((∀ c ∈ definitions.keys, ∃ v, ColumnValue eval notna checkNans df definitions c v) →
        computeCovariates eval notna checkNans true df definitions = .ok df') ∧
      (∀ c ∈ definitions.keys, (¬ ∃ v, ColumnValue eval notna checkNans df definitions c v) →
        ∃ left, computeCovariates eval notna checkNans true df definitions = .error (.left left) ∧
          c ∈ left) := by
  have h0 : FrameSound eval notna checkNans df definitions df :=
    ⟨rfl, fun _ _ h => h, fun k v h => .given k v h, fun _ h => Or.inl h⟩
  obtain ⟨df', left, h1, h2, h3, h4, h5⟩ := computeLoop_spec hi ha (definitions.length + 1) definitions
    (fun _ h => h) (by omega) df h0 (fun _ h => Or.inl h)
  have hval : ∀ k v, df'.lookup k = some v ↔ ColumnValue eval notna checkNans df definitions k v := by
    intro k v
    refine ⟨h2.value k v, fun h => ?_⟩
    have hall := h
    induction h with
    | given k v hk =>
      unfold Frame.lookup at hk ⊢
      cases hc : df.columns.get? k with
      | some w =>
        rw [hc, Option.some_or] at hk
        rw [h2.old k w hc, Option.some_or]
        exact hk
      | none =>
        rw [hc, Option.none_or] at hk
        cases hc' : df'.columns.get? k with
        | none => rw [Option.none_or, h2.index]; exact hk
        | some w =>
          exfalso
          have hk' : k ∈ df'.columns.keys := List.mem_map.2 ⟨_, Dict.mem_of_get? _ _ _ hc', rfl⟩
          rcases h2.new k hk' with h | h
          · exact (Dict.get?_eq_none_iff _ _).1 hc h
          · rw [hi k h] at hk; cases hk
    | computed c d env v hc hm hex hsub hv ih =>
      have hin : c ∈ df'.columns.keys := by
        rcases h4 (c, d) hm with hl | hl
        · exfalso
          have hr := (h5 _ hl).1
          have : isReady notna checkNans df' d = true := by
            simp only [isReady, Bool.and_eq_true, List.all_eq_true, Bool.or_eq_true, Bool.not_eq_true']
            constructor
            · intro x hx
              obtain ⟨w, hw, _⟩ := hex x hx
              rw [ih x hx w hw (hsub x hx w hw)]
              rfl
            · cases checkNans with
              | false => exact Or.inl rfl
              | true =>
                right
                intro x hx
                obtain ⟨w, hw, hna⟩ := hex x hx
                rw [ih x hx w hw (hsub x hx w hw)]
                simpa using hna rfl
          rw [this] at hr
          cases hr
        · exact hl
      cases hg : df'.columns.get? c with
      | none => exact absurd hin ((Dict.get?_eq_none_iff _ _).1 hg)
      | some w =>
        have hlk : df'.lookup c = some w := by simp [Frame.lookup, hg]
        rw [hlk, (h2.value c w hlk).unique hn hi ha hall]
  have hleft : ∀ c ∈ definitions.keys, (¬ ∃ v, ColumnValue eval notna checkNans df definitions c v) ↔
      c ∈ left.map Prod.fst := by
    intro c hc
    constructor
    · intro hno
      obtain ⟨cd, hcd, rfl⟩ := List.mem_map.1 hc
      rcases h4 cd hcd with hl | hl
      · exact List.mem_map.2 ⟨_, hl, rfl⟩
      · exfalso
        cases hg : df'.columns.get? cd.1 with
        | none => exact (Dict.get?_eq_none_iff _ _).1 hg hl
        | some w => exact hno ⟨w, h2.value _ w (by simp [Frame.lookup, hg])⟩
    · intro hl ⟨v, hv⟩
      obtain ⟨⟨c', d⟩, hcd, rfl⟩ := List.mem_map.1 hl
      obtain ⟨hr, hm⟩ := h5 _ hcd
      cases hv with
      | given _ _ hk =>
        -- an existing column is never left
        have hlk := (hval c' v).2 (.given _ _ hk)
        have hin : df.columns.get? c' = some v := by
          have := hi c' (List.mem_map.2 ⟨_, hm, rfl⟩)
          simpa [Frame.lookup, this] using hk
        exact absurd hcd (computeLoop_left_not_column eval notna checkNans _ df definitions df' left h1
          (c', d) (List.mem_map.2 ⟨_, Dict.mem_of_get? _ _ _ hin, rfl⟩))
      | computed _ d' env _ hc' hm' hex hsub hv' =>
        have hd : d = d' := by
          have e1 := Dict.get?_of_mem _ hn _ _ hm
          have e2 := Dict.get?_of_mem _ hn _ _ hm'
          rw [e1] at e2
          exact Option.some.inj e2
        subst hd
        have : isReady notna checkNans df' d = true := by
          simp only [isReady, Bool.and_eq_true, List.all_eq_true, Bool.or_eq_true, Bool.not_eq_true']
          constructor
          · intro x hx
            obtain ⟨w, hw, _⟩ := hex x hx
            rw [(hval x w).2 (hsub x hx w hw)]
            rfl
          · cases checkNans with
            | false => exact Or.inl rfl
            | true =>
              right
              intro x hx
              obtain ⟨w, hw, hna⟩ := hex x hx
              rw [(hval x w).2 (hsub x hx w hw)]
              simpa using hna rfl
        rw [this] at hr
        cases hr
  refine ⟨df', ?_, h2.index, h2.old, h2.new, hval, ?_, ?_⟩
  · unfold computeCovariates
    rw [h1]
    simp
  · intro hall
    unfold computeCovariates
    rw [h1]
    have : left = [] := by
      rw [List.eq_nil_iff_forall_not_mem]
      intro cd hcd
      have hk : cd.1 ∈ definitions.keys := List.mem_map.2 ⟨_, (h5 cd hcd).2, rfl⟩
      exact (hleft cd.1 hk).2 (List.mem_map.2 ⟨_, hcd, rfl⟩) (hall cd.1 hk)
    simp [this]
  · intro c hc hno
    have hl := (hleft c hc).1 hno
    refine ⟨left.map Prod.fst, ?_, hl⟩
    unfold computeCovariates
    rw [h1]
    have : left ≠ [] := by rintro rfl; simp at hl
    simp [this]

/-- Definitions in another order give the same columns and values. -/
theorem C53_order_partial (definitions' : Dict Str CovariateDef) (hp : definitions.Perm definitions')
    (hn : definitions.keys.Nodup) (hi : ∀ c ∈ definitions.keys, df.index.get? c = none)
    (ha : ∀ c d, (c, d) ∈ definitions → Accurate eval d) :
    ∃ df₁ df₂, computeCovariates eval notna checkNans false df definitions = .ok df₁ ∧
      computeCovariates eval notna checkNans false df definitions' = .ok df₂ ∧
      (∀ k, df₁.lookup k = df₂.lookup k) ∧
      (computeCovariates eval notna checkNans true df definitions = .ok df₁ ↔
        computeCovariates eval notna checkNans true df definitions' = .ok df₂) := by
  have hk : ∀ c, c ∈ definitions.keys ↔ c ∈ definitions'.keys := fun c => (hp.map Prod.fst).mem_iff
  have hv : ∀ (d d' : Dict Str CovariateDef), (∀ cd ∈ d, cd ∈ d') → ∀ k v,
      ColumnValue eval notna checkNans df d k v → ColumnValue eval notna checkNans df d' k v := by
    intro d d' hsub k v h
    induction h with
    | given k v hk => exact .given k v hk
    | computed c d env v hc hm hex _ hv ih => exact .computed c d env v hc (hsub _ hm) hex ih hv
  have hvi : ∀ k v, ColumnValue eval notna checkNans df definitions k v ↔
      ColumnValue eval notna checkNans df definitions' k v := fun k v =>
    ⟨hv _ _ (fun cd h => hp.mem_iff.1 h) k v, hv _ _ (fun cd h => hp.mem_iff.2 h) k v⟩
  obtain ⟨df₁, h1, _, _, _, h2, h3, h4⟩ :=
    C53_values_partial eval notna checkNans df definitions hn hi ha
  obtain ⟨df₂, h1', _, _, _, h2', h3', h4'⟩ :=
    C53_values_partial eval notna checkNans df definitions' ((hp.map Prod.fst).nodup_iff.1 hn)
      (fun c hc => hi c ((hk c).2 hc)) (fun c d hcd => ha c d (hp.mem_iff.2 hcd))
  refine ⟨df₁, df₂, h1, h1', fun k => ?_, ?_⟩
  · apply Option.ext
    intro v
    rw [h2, h2', hvi]
  · by_cases hall : ∀ c ∈ definitions.keys, ∃ v, ColumnValue eval notna checkNans df definitions c v
    · exact iff_of_true (h3 hall) (h3' fun c hc => by
        obtain ⟨v, hv⟩ := hall c ((hk c).2 hc)
        exact ⟨v, (hvi c v).1 hv⟩)
    · push Not at hall
      obtain ⟨c, hc, hno⟩ := hall
      refine iff_of_false ?_ ?_
      · obtain ⟨left, hl, _⟩ := h4 c hc (by rintro ⟨v, hv⟩; exact hno v hv)
        rw [hl]; simp
      · obtain ⟨left, hl, _⟩ := h4' c ((hk c).1 hc) (by
          rintro ⟨v, hv⟩; exact hno v ((hvi c v).2 hv))
        rw [hl]; simp

/-- Without cycles and with all other variables in the frame, every covariate is computed. -/
theorem C53_acyclic_partial (hn : definitions.keys.Nodup)
    (hi : ∀ c ∈ definitions.keys, df.index.get? c = none)
    (ha : ∀ c d, (c, d) ∈ definitions → Accurate eval d) (rank : Str → Nat)
    (hrank : ∀ c d, (c, d) ∈ definitions → ∀ x ∈ d.dependsOn,
      (df.lookup x).isSome = true ∨ (x ∈ definitions.keys ∧ rank x < rank c)) :
    ∃ df', computeCovariates eval notna false true df definitions = .ok df' ∧
      ∀ c d, (c, d) ∈ definitions → df.columns.get? c = none →
        (df'.lookup c).isSome = true ∧ df'.lookup c = eval df'.lookup d.formula := by
  obtain ⟨df', h1, hidx, hold, hnew, hval, hok, _⟩ :=
    C53_values_partial eval notna false df definitions hn hi ha
  have hex : ∀ n c, rank c < n → c ∈ definitions.keys →
      ∃ v, ColumnValue eval notna false df definitions c v := by
    intro n
    induction n with
    | zero => intro c h; omega
    | succ n ih =>
      intro c hc hm
      obtain ⟨⟨c', d⟩, hcd, rfl⟩ := List.mem_map.1 hm
      cases hg : df.columns.get? c' with
      | some v => exact ⟨v, .given _ _ (by simp [Frame.lookup, hg])⟩
      | none =>
        have hx : ∀ x ∈ d.dependsOn, ∃ v, df'.lookup x = some v := by
          intro x hx
          rcases hrank c' d hcd x hx with h | ⟨h, hlt⟩
          · obtain ⟨v, hv⟩ := Option.isSome_iff_exists.1 h
            exact ⟨v, (hval x v).2 (.given _ _ hv)⟩
          · obtain ⟨v, hv⟩ := ih x (by dsimp only at hc; omega) h
            exact ⟨v, (hval x v).2 hv⟩
        have hs := (ha c' d hcd).defined df'.lookup fun x h => by
          obtain ⟨v, hv⟩ := hx x h
          rw [hv]; rfl
        obtain ⟨v, hv⟩ := Option.isSome_iff_exists.1 hs
        exact ⟨v, .computed c' d df'.lookup v hg hcd (fun x h => by
          obtain ⟨w, hw⟩ := hx x h
          exact ⟨w, hw, by simp⟩) (fun x _ w hw => (hval x w).1 hw) hv⟩
  refine ⟨df', hok fun c hc => hex _ c (Nat.lt_succ_self _) hc, ?_⟩
  intro c d hcd hnone
  obtain ⟨v, hv⟩ := hex _ c (Nat.lt_succ_self _) (List.mem_map.2 ⟨_, hcd, rfl⟩)
  have hlk := (hval c v).2 hv
  refine ⟨by rw [hlk]; rfl, ?_⟩
  rw [hlk]
  cases hv with
  | given _ _ hk =>
    have := hi c (List.mem_map.2 ⟨_, hcd, rfl⟩)
    simp [Frame.lookup, hnone, this] at hk
  | computed _ d' env _ _ hm' hex' hsub hev =>
    have hd : d = d' := by
      have e1 := Dict.get?_of_mem _ hn _ _ hcd
      have e2 := Dict.get?_of_mem _ hn _ _ hm'
      rw [e1] at e2
      exact Option.some.inj e2
    subst hd
    rw [← hev]
    apply (ha c d hcd).same
    intro x hx
    obtain ⟨w, hw, _⟩ := hex' x hx
    rw [hw, (hval x w).2 (hsub x hx w hw)]

end

/-- The dependencies found by respy are accurate if every variable used in a formula occurs in its text and
is a state variable or a covariate which depends on state variables. -/
theorem C53_dependencies_partial {V : Type _} (eval : (Str → Option V) → Str → Option V)
    (uses : Str → List Str)
    (hdef : ∀ f env, (∀ x ∈ uses f, (env x).isSome = true) → (eval env f).isSome = true)
    (hsame : ∀ f env env', (∀ x ∈ uses f, env x = env' x) → eval env f = eval env' f)
    (covariates : Dict Str Str) (hc : covariates.keys.Nodup) (coreBase denseBase : List Str)
    (hb : ∀ k ∈ coreBase, k ∈ denseBase → k ∈ covariates.keys)
    (huses : ∀ c f, (c, f) ∈ covariates → ∀ x ∈ uses f, x <:+: f ∧
      (Reaches covariates coreBase x ∨ Reaches covariates denseBase x)) :
    ∃ G, separateCovariates covariates coreBase denseBase = some G ∧
      ∀ c d, (c, d) ∈ G.all → Accurate eval d := by
  obtain ⟨G, hG, hall, hdeps, _⟩ := C68_groups covariates hc coreBase denseBase hb
  refine ⟨G, hG, fun c d hcd => ?_⟩
  have hm : (c, d.formula) ∈ covariates := by
    rw [← hall]; exact List.mem_map.2 ⟨_, hcd, rfl⟩
  have hsub : ∀ x ∈ uses d.formula, x ∈ d.dependsOn := fun x hx =>
    (hdeps c d hcd x).2 (huses c d.formula hm x hx)
  exact ⟨fun env h => hdef _ env fun x hx => h x (hsub x hx),
    fun env env' h => hsame _ env env' fun x hx => h x (hsub x hx)⟩

/-- An evaluator for the formulas of the following examples. -/
def exampleEval (env : Str → Option Nat) (f : Str) : Option Nat :=
  if f = "1".toList then some 1
  else if f = "one * 2".toList then (env "one".toList).map (· * 2)
  else if f = "exp_a + exp_b".toList then do return (← env "exp_a".toList) + (← env "exp_b".toList)
  else if f = "period + 1".toList then (env "period".toList).map (· + 1)
  else if f = "age * age".toList then (env "age".toList).map fun a => a * a
  else none

/-- A covariate which only uses a constant covariate has no dependencies. It is computed if the constant is
defined first and raises an error otherwise, although the constant can be computed. -/
theorem C53_constant_false :
    ∃ (covariates : Dict Str Str) (G : CovariateGroups) (df : Frame Nat),
      separateCovariates covariates ["period".toList] [] = some G ∧
      computeCovariates exampleEval (fun _ => true) false true df G.core.reverse =
        .ok ⟨df.columns ++ [("one".toList, 1), ("two".toList, 2)], df.index⟩ ∧
      computeCovariates exampleEval (fun _ => true) false true df G.core =
        .error (.eval "two".toList) :=
  ⟨[("two".toList, "one * 2".toList), ("one".toList, "1".toList)], _, ⟨[("period".toList, 0)], []⟩, rfl,
    by decide +kernel, by decide +kernel⟩

/-- A covariate whose name is a part of a name in its formula depends on itself and is never computed,
although its formula can be evaluated. -/
theorem C53_substring_false :
    ∃ (covariates : Dict Str Str) (G : CovariateGroups) (df : Frame Nat),
      separateCovariates covariates ["exp_a".toList, "exp_b".toList] [] = some G ∧
      (∀ c f, (c, f) ∈ covariates → (exampleEval df.lookup f).isSome = true) ∧
      computeCovariates exampleEval (fun _ => true) false true df G.core =
        .error (.left ["exp".toList]) :=
  ⟨[("exp".toList, "exp_a + exp_b".toList)], _, ⟨[("exp_a".toList, 3), ("exp_b".toList, 4)], []⟩, rfl,
    by
      intro c f h
      simp only [List.mem_singleton, Prod.mk.injEq] at h
      obtain ⟨rfl, rfl⟩ := h
      decide +kernel,
    by decide +kernel⟩

/-- Two covariates defined in the wrong order; `period` is a level of the index. -/
example :
    (separateCovariates [("sq".toList, "age * age".toList), ("age".toList, "period + 1".toList)]
      ["period".toList] []).map
      (fun G => computeCovariates exampleEval (fun _ => true) false true ⟨[], [("period".toList, 4)]⟩
        G.all) =
    some (.ok ⟨[("age".toList, 5), ("sq".toList, 25)], [("period".toList, 4)]⟩) := by
  decide +kernel

end Respy
