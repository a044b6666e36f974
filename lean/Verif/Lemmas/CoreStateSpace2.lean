import Verif.Lemmas.CoreStateSpace
import Verif.Spec.Core

/-! Helper lemmas: from the generated rows to the feasible states. -/

namespace Respy

theorem foldl_min_le (xs : List Nat) (a : Nat) :
    xs.foldl min a ≤ a ∧ (∀ x ∈ xs, xs.foldl min a ≤ x) ∧
      (xs.foldl min a = a ∨ xs.foldl min a ∈ xs) := by
  induction xs generalizing a with
  | nil => simp
  | cons b xs ih =>
    obtain ⟨h1, h2, h3⟩ := ih (min a b)
    simp only [List.foldl_cons, List.mem_cons]
    refine ⟨by omega, ?_, ?_⟩
    · rintro x (rfl | hx)
      · omega
      · exact h2 x hx
    · rcases h3 with h3 | h3
      · rw [h3]; rcases Nat.le_total a b with h | h
        · left; omega
        · right; left; omega
      · right; right; exact h3

theorem foldl_max_ge (xs : List Nat) (a : Nat) :
    a ≤ xs.foldl max a ∧ (∀ x ∈ xs, x ≤ xs.foldl max a) ∧
      (xs.foldl max a = a ∨ xs.foldl max a ∈ xs) := by
  induction xs generalizing a with
  | nil => simp
  | cons b xs ih =>
    obtain ⟨h1, h2, h3⟩ := ih (max a b)
    simp only [List.foldl_cons, List.mem_cons]
    refine ⟨by omega, ?_, ?_⟩
    · rintro x (rfl | hx)
      · omega
      · exact h2 x hx
    · rcases h3 with h3 | h3
      · rw [h3]; rcases Nat.le_total a b with h | h
        · right; left; omega
        · left; omega
      · right; right; exact h3

theorem pyMin_spec (l : List Nat) (h : l ≠ []) :
    ∃ m, pyMin l = some m ∧ m ∈ l ∧ ∀ x ∈ l, m ≤ x := by
  cases l with
  | nil => exact absurd rfl h
  | cons a xs =>
    obtain ⟨h1, h2, h3⟩ := foldl_min_le xs a
    refine ⟨_, rfl, ?_, ?_⟩
    · rcases h3 with h3 | h3
      · rw [h3]; simp
      · exact List.mem_cons_of_mem _ h3
    · intro x hx
      rcases List.mem_cons.1 hx with rfl | hx
      · exact h1
      · exact h2 x hx

theorem pyMax_spec (l : List Nat) (h : l ≠ []) :
    ∃ m, pyMax l = some m ∧ m ∈ l ∧ ∀ x ∈ l, x ≤ m := by
  cases l with
  | nil => exact absurd rfl h
  | cons a xs =>
    obtain ⟨h1, h2, h3⟩ := foldl_max_ge xs a
    refine ⟨_, rfl, ?_, ?_⟩
    · rcases h3 with h3 | h3
      · rw [h3]; simp
      · exact List.mem_cons_of_mem _ h3
    · intro x hx
      rcases List.mem_cons.1 hx with rfl | hx
      · exact h1
      · exact h2 x hx

theorem mapM_pyMin (starts : List (List Nat)) (h : ∀ l ∈ starts, l ≠ []) :
    ∃ mins, starts.mapM pyMin = some mins ∧
      List.Forall₂ (fun m l => m ∈ l ∧ ∀ x ∈ l, m ≤ x) mins starts := by
  induction starts with
  | nil => exact ⟨[], rfl, .nil⟩
  | cons l ls ih =>
    obtain ⟨mins, h1, h2⟩ := ih fun l hl => h l (List.mem_cons_of_mem _ hl)
    obtain ⟨m, hm1, hm2, hm3⟩ := pyMin_spec l (h l List.mem_cons_self)
    refine ⟨m :: mins, ?_, .cons ⟨hm2, hm3⟩ h2⟩
    simp [List.mapM_cons, hm1, h1]

theorem additionalExp_spec (spec : CoreSpec) (wf : spec.WF) :
    ∃ mins, List.Forall₂ (fun m l => m ∈ l ∧ ∀ x ∈ l, m ≤ x) mins spec.starts ∧
      additionalExp spec = some (List.zipWith uint8Sub spec.maxExp mins) := by
  obtain ⟨mins, h1, h2⟩ := mapM_pyMin spec.starts wf.nonempty
  exact ⟨mins, h2, by simp [additionalExp, h1]⟩

/-- The list of additional experiences is not empty. -/
theorem additionalExp_ne_nil (spec : CoreSpec) (wf : spec.WF) (add : List Nat) (h : additionalExp spec = some add) :
    add ≠ [] := by
  obtain ⟨mins, h1, h2⟩ := additionalExp_spec spec wf
  rw [h2, Option.some.injEq] at h
  intro hnil
  have h3 := congrArg List.length (h.trans hnil)
  have h4 : spec.starts.length ≠ 0 := fun h0 => wf.experience (List.length_eq_zero_iff.1 h0)
  have h5 := h1.length_eq
  have h6 := wf.len
  simp only [List.length_zipWith, List.length_nil] at h3
  omega

theorem uint8Sub_eq (a b : Nat) (ha : a < 256) (hb : b ≤ a) : uint8Sub a b = a - b := by
  unfold uint8Sub; omega

/-- The additional years of a feasible state are within `additional_exp`. -/
theorem extra_le_additional :
    ∀ (maxExp mins init extra : List Nat) (starts : List (List Nat)),
      List.Forall₂ (fun m l => m ∈ l ∧ ∀ x ∈ l, m ≤ x) mins starts →
      (∀ m ∈ maxExp, m < 256) → List.Forall₂ (· ∈ ·) init starts →
      extra.length = starts.length →
      List.Forall₂ (· ≤ ·) (List.zipWith (· + ·) init extra) maxExp →
      List.Forall₂ (· ≤ ·) extra (List.zipWith uint8Sub maxExp mins) := by
  intro maxExp mins init extra starts hmins
  induction hmins generalizing maxExp init extra with
  | nil =>
    intro _ hinit hlen _
    have : extra = [] := by simpa using hlen
    subst this
    simp
  | cons hm hms ih =>
    intro hlt hinit hlen hle
    cases hinit with
    | cons hi his =>
      cases extra with
      | nil => simp at hlen
      | cons x extra =>
        simp only [List.zipWith_cons_cons] at hle
        cases hle with
        | cons h1 h2 =>
          simp only [List.zipWith_cons_cons]
          refine .cons ?_ (ih _ _ _ (fun m hm => hlt m (List.mem_cons_of_mem _ hm)) his
            (by simpa using hlen) h2)
          have := hm.2 _ hi
          rw [uint8Sub_eq _ _ (hlt _ List.mem_cons_self) (by omega)]
          omega

theorem mem_addLaggedChoices_zero (nChoices : Nat) (df : List CoreState) (s : CoreState) :
    s ∈ addLaggedChoices 0 nChoices df ↔ s ∈ df := by
  simp [addLaggedChoices]

theorem mem_addLaggedChoices (nLags nChoices : Nat) (h : 0 < nLags) (h' : 0 < nChoices)
    (df : List CoreState) (s : CoreState) :
    s ∈ addLaggedChoices nLags nChoices df ↔
      ∃ lag < nLags, ∃ code < nChoices, ∃ b ∈ df,
        s = { b with lags := (List.replicate nLags none).set lag (some code) } := by
  have : ¬(nLags = 0 ∨ nChoices = 0) := by omega
  simp only [addLaggedChoices, this, if_false, List.mem_flatMap, List.mem_range, List.mem_map]
  constructor
  · rintro ⟨lag, hl, code, hc, b, hb, rfl⟩; exact ⟨lag, hl, code, hc, b, hb, rfl⟩
  · rintro ⟨lag, hl, code, hc, b, hb, rfl⟩; exact ⟨lag, hl, code, hc, b, hb, rfl⟩

theorem mem_createCore (spec : CoreSpec) (core : List CoreState)
    (additional : List Nat) (ha : additionalExp spec = some additional)
    (hc : createCore spec = some core) (s : CoreState) :
    s ∈ core ↔ ∃ init, List.Forall₂ (· ∈ ·) init spec.starts ∧
      ∃ b, (b ∈ addLaggedChoices spec.nLags spec.nChoices
          (coreFromExperiences spec.nPeriods additional) ∧ ∀ f ∈ spec.filters, f b = false) ∧
        s = addInitial init b ∧ withinMax spec.maxExp s = true := by
  simp only [createCore, ha, Option.map_some, Option.some.injEq] at hc
  subst hc
  rw [(List.perm_insertionSort _ _).mem_iff, mem_addInitialExperiences]
  simp only [mem_filterCore]

theorem zipWith_add_comm (a b : List Nat) :
    List.zipWith (· + ·) a b = List.zipWith (· + ·) b a := by
  rw [List.zipWith_comm]; congr; funext x y; omega

theorem createCore_isSome (spec : CoreSpec) (wf : spec.WF) : ∃ core, createCore spec = some core := by
  obtain ⟨mins, _, h⟩ := additionalExp_spec spec wf
  exact ⟨_, by simp [createCore, h]; rfl⟩

end Respy
