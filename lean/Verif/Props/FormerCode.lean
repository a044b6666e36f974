import Verif.Props.Reachable
import Mathlib.Data.List.Perm.Lattice

/-!
# C105: state spaces of Keane and Wolpin agree with the specialised implementations
-/

namespace Respy

theorem mem_foldl_storeNew (l data : List CoreState) (s : CoreState) :
    s ∈ l.foldl storeNew data ↔ s ∈ data ∨ s ∈ l := by
  induction l generalizing data with
  | nil => simp
  | cons x xs ih =>
    rw [List.foldl_cons, ih, List.mem_cons]
    unfold storeNew
    split
    · rename_i h
      constructor
      · rintro (h1 | h1)
        · exact Or.inl h1
        · exact Or.inr (Or.inr h1)
      · rintro (h1 | rfl | h1)
        · exact Or.inl h1
        · exact Or.inl h
        · exact Or.inr h1
    · rw [List.mem_append, List.mem_singleton, or_assoc]

theorem nodup_foldl_storeNew (l data : List CoreState) (h : data.Nodup) : (l.foldl storeNew data).Nodup := by
  induction l generalizing data with
  | nil => exact h
  | cons x xs ih =>
    rw [List.foldl_cons]
    apply ih
    unfold storeNew
    split
    · exact h
    · rename_i hx
      exact List.nodup_append.2 ⟨h, List.nodup_singleton x, by
        intro a ha b hb
        rw [List.mem_singleton.1 hb]
        rintro rfl
        exact hx ha⟩

/-- The state space of Keane and Wolpin (1994): occupations `a` and `b` start without experience, their maxima are the
default ones. -/
def kw94Spec (nPeriods : Nat) (eduStarts : List Nat) (eduMax : Nat) : CoreSpec where
  nPeriods := nPeriods
  nChoices := 4
  starts := [[0], [0], eduStarts]
  maxExp := [nPeriods - 1, nPeriods - 1, eduMax]
  nLags := 1
  filters := keaneWolpinFilters 2 3 4

/-- The state space of the basic model of Keane and Wolpin (1997). -/
def kw97BaseSpec (nPeriods : Nat) (eduStarts : List Nat) (eduMax : Nat) : CoreSpec where
  nPeriods := nPeriods
  nChoices := 5
  starts := [[0], [0], [0], eduStarts]
  maxExp := [nPeriods - 1, nPeriods - 1, nPeriods - 1, eduMax]
  nLags := 0
  filters := []

/-- The state space of the extended model of Keane and Wolpin (1997). -/
def kw97ExtendedSpec (nPeriods : Nat) (eduStarts : List Nat) (eduMax : Nat) : CoreSpec where
  nPeriods := nPeriods
  nChoices := 5
  starts := [[0], [0], [0], eduStarts]
  maxExp := [nPeriods - 1, nPeriods - 1, nPeriods - 1, eduMax]
  nLags := 1
  filters := keaneWolpinFilters 3 4 5

section
variable (nPeriods : Nat) (eduStarts : List Nat) (eduMax : Nat)

theorem kw94Spec_filters : (kw94Spec nPeriods eduStarts eduMax).KeaneWolpin 2 :=
  ⟨rfl, by simp [kw94Spec], by simp [kw94Spec], fun _ _ _ _ _ => Iff.rfl⟩

theorem kw97ExtendedSpec_filters : (kw97ExtendedSpec nPeriods eduStarts eduMax).KeaneWolpin 3 :=
  ⟨rfl, by simp [kw97ExtendedSpec], by simp [kw97ExtendedSpec], fun _ _ _ _ _ => Iff.rfl⟩

theorem kw94Spec_wf (hp : nPeriods ≤ 256) (hs : eduStarts ≠ []) (hlt : ∀ x ∈ eduStarts, x < 256) (hm : eduMax < 256) :
    (kw94Spec nPeriods eduStarts eduMax).WF := by
  refine ⟨by simp [kw94Spec], rfl, ?_, ?_, ?_, by simp [kw94Spec]⟩
  · intro l hl
    simp only [kw94Spec, List.mem_cons, List.not_mem_nil, or_false] at hl
    rcases hl with rfl | rfl | rfl
    · simp
    · simp
    · exact hs
  · intro l hl x hx
    simp only [kw94Spec, List.mem_cons, List.not_mem_nil, or_false] at hl
    rcases hl with rfl | rfl | rfl
    · simp at hx; omega
    · simp at hx; omega
    · exact hlt x hx
  · intro m hm'
    simp only [kw94Spec, List.mem_cons, List.not_mem_nil, or_false] at hm'
    omega

theorem kw97Spec_wf (hp : nPeriods ≤ 256) (hs : eduStarts ≠ []) (hlt : ∀ x ∈ eduStarts, x < 256) (hm : eduMax < 256) :
    (kw97BaseSpec nPeriods eduStarts eduMax).WF ∧ (kw97ExtendedSpec nPeriods eduStarts eduMax).WF := by
  have hstarts : ∀ l ∈ [[0], [0], [0], eduStarts], l ≠ [] ∧ ∀ x ∈ l, x < 256 := by
    intro l hl
    simp only [List.mem_cons, List.not_mem_nil, or_false] at hl
    rcases hl with rfl | rfl | rfl | rfl
    · simp
    · simp
    · simp
    · exact ⟨hs, hlt⟩
  have hmax : ∀ m ∈ [nPeriods - 1, nPeriods - 1, nPeriods - 1, eduMax], m < 256 := by
    intro m hm'
    simp only [List.mem_cons, List.not_mem_nil, or_false] at hm'
    omega
  exact ⟨⟨by simp [kw97BaseSpec], rfl, fun l hl => (hstarts l hl).1, fun l hl => (hstarts l hl).2, hmax,
    by simp [kw97BaseSpec]⟩, ⟨by simp [kw97ExtendedSpec], rfl, fun l hl => (hstarts l hl).1,
    fun l hl => (hstarts l hl).2, hmax, by simp [kw97ExtendedSpec]⟩⟩

theorem skippedKw94_iff (t a b add lag : Nat) (hl : lag < 4) (hsum : a + b + add ≤ t) :
    skippedKw94 t a b add lag = false ↔ KeptState 2 3 t [a, b, add] lag := by
  have hcases : lag = 0 ∨ lag = 1 ∨ lag = 2 ∨ lag = 3 := by omega
  constructor
  · intro h
    simp only [skippedKw94, Bool.or_eq_false_iff, Bool.and_eq_false_iff, decide_eq_false_iff_not] at h
    refine ⟨fun ht => by omega, fun ht c hc he => ?_, fun ht hlag => ?_, fun ht hlag h0 => ?_⟩
    · have : c = 0 ∨ c = 1 ∨ c = 2 := by omega
      rcases this with rfl | rfl | rfl <;> simp at he <;> omega
    · simp only [List.sum_cons, List.sum_nil]; omega
    · rcases hcases with rfl | rfl | rfl | rfl <;> simp at h0 <;> omega
  · intro h
    simp only [skippedKw94, Bool.or_eq_false_iff, Bool.and_eq_false_iff, decide_eq_false_iff_not]
    by_cases ht : 0 < t
    · have h0 : a = t → lag = 0 := fun e => h.only ht 0 (by omega) (by simp [e])
      have h1 : b = t → lag = 1 := fun e => h.only ht 1 (by omega) (by simp [e])
      have h2 : add = t → lag = 2 := fun e => h.only ht 2 (by omega) (by simp [e])
      have h3 : lag = 3 → a + b + add ≠ t := fun e => by
        have := h.without ht (by omega)
        simp only [List.sum_cons, List.sum_nil] at this
        omega
      have h4 := h.gained ht
      have h5 : (lag = 0 → a ≠ 0) ∧ (lag = 1 → b ≠ 0) ∧ (lag = 2 → add ≠ 0) := by
        refine ⟨?_, ?_, ?_⟩ <;> rintro rfl h' <;> subst h' <;> simp at h4
      omega
    · have := h.first (by omega)
      omega

theorem skippedKw97_iff (t a b mil add lag : Nat) (hl : lag < 5) (hsum : a + b + mil + add ≤ t) :
    skippedKw97 t a b mil add lag = false ↔ KeptState 3 4 t [a, b, mil, add] lag := by
  have hcases : lag = 0 ∨ lag = 1 ∨ lag = 2 ∨ lag = 3 ∨ lag = 4 := by omega
  constructor
  · intro h
    simp only [skippedKw97, Bool.or_eq_false_iff, Bool.and_eq_false_iff, decide_eq_false_iff_not] at h
    refine ⟨fun ht => by omega, fun ht c hc he => ?_, fun ht hlag => ?_, fun ht hlag h0 => ?_⟩
    · have : c = 0 ∨ c = 1 ∨ c = 2 ∨ c = 3 := by omega
      rcases this with rfl | rfl | rfl | rfl <;> simp at he <;> omega
    · simp only [List.sum_cons, List.sum_nil]; omega
    · rcases hcases with rfl | rfl | rfl | rfl | rfl <;> simp at h0 <;> omega
  · intro h
    simp only [skippedKw97, Bool.or_eq_false_iff, Bool.and_eq_false_iff, decide_eq_false_iff_not]
    by_cases ht : 0 < t
    · have h0 : a = t → lag = 0 := fun e => h.only ht 0 (by omega) (by simp [e])
      have h1 : b = t → lag = 1 := fun e => h.only ht 1 (by omega) (by simp [e])
      have h2 : mil = t → lag = 2 := fun e => h.only ht 2 (by omega) (by simp [e])
      have h2' : add = t → lag = 3 := fun e => h.only ht 3 (by omega) (by simp [e])
      have h3 : lag = 4 → a + b + mil + add ≠ t := fun e => by
        have := h.without ht (by omega)
        simp only [List.sum_cons, List.sum_nil] at this
        omega
      have h4 := h.gained ht
      have h5 : (lag = 0 → a ≠ 0) ∧ (lag = 1 → b ≠ 0) ∧ (lag = 2 → mil ≠ 0) ∧ (lag = 3 → add ≠ 0) := by
        refine ⟨?_, ?_, ?_, ?_⟩ <;> rintro rfl h' <;> subst h' <;> simp at h4
      omega
    · have := h.first (by omega)
      omega

/-- **C105.** For any number of periods, starting values and maximum of schooling, the state space which is created with
the filters shipped with Keane and Wolpin (1994) has the states of the specialised implementation. -/
theorem C105_kw94 (hp : nPeriods ≤ 256) (hs : eduStarts ≠ []) (hlt : ∀ x ∈ eduStarts, x < 256) (hm : eduMax < 256) :
    ∃ core, createCore (kw94Spec nPeriods eduStarts eduMax) = some core ∧
      core.Perm (formerKw94 nPeriods eduStarts eduMax) := by
  have wf := kw94Spec_wf nPeriods eduStarts eduMax hp hs hlt hm
  obtain ⟨core, hc, hnd, _⟩ := C01_core_nodup_sorted _ wf
  refine ⟨core, hc, (List.perm_ext_iff_of_nodup hnd (nodup_foldl_storeNew _ _ List.nodup_nil)).2 fun s => ?_⟩
  rw [mem_filtered_core _ wf 2 (kw94Spec_filters _ _ _) core hc]
  rw [mem_foldl_storeNew]
  simp only [List.not_mem_nil, false_or, List.mem_flatMap, List.mem_range, List.mem_filterMap]
  constructor
  · rintro ⟨h1, h2, lag, h3, h4, init, extra, h5, h6, h7, h8, h9⟩
    simp only [kw94Spec] at h5 h6 h1 h2 h3
    match init, h5, extra, h6 with
    | [x, y, start], h5, [a, b, add], _ =>
      simp only [List.forall₂_cons, List.mem_singleton, List.forall₂_nil_right_iff, and_true] at h5
      obtain ⟨rfl, rfl, hstart⟩ := h5
      simp only [List.zipWith_cons_cons, List.zipWith_nil_right, Nat.zero_add] at h7
      rw [h7] at h2
      simp only [List.forall₂_cons, List.forall₂_nil_right_iff, and_true] at h2
      simp only [List.sum_cons, List.sum_nil] at h8
      refine ⟨s.period, h1, start, hstart, a, by omega, b, by omega, add, by omega, lag, h3, ?_⟩
      rw [(skippedKw94_iff _ _ _ _ _ h3 (by omega)).2 h9]
      obtain ⟨p, e, l⟩ := s
      simp only at h4 h7
      subst h4; subst h7
      rfl
  · rintro ⟨t, ht, start, hstart, a, ha, b, hb, add, hadd, lag, hlag, he⟩
    split at he
    · exact absurd he (by simp)
    · rename_i hskip
      cases he
      refine ⟨ht, ?_, lag, hlag, rfl, [0, 0, start], [a, b, add], ?_, rfl, ?_, ?_,
        (skippedKw94_iff t a b add lag hlag (by omega)).1 (by simpa using hskip)⟩
      · simp only [kw94Spec, List.forall₂_cons, List.forall₂_nil_right_iff, and_true]; omega
      · simp only [kw94Spec, List.forall₂_cons, List.mem_singleton, List.forall₂_nil_right_iff, and_true, true_and]
        exact hstart
      · simp
      · change [a, b, add].sum ≤ t
        simp only [List.sum_cons, List.sum_nil]; omega

/-- **C105.** The same for the basic model of Keane and Wolpin (1997), which has no lagged choices and no filters. -/
theorem C105_kw97_basic (hp : nPeriods ≤ 256) (hs : eduStarts ≠ []) (hlt : ∀ x ∈ eduStarts, x < 256)
    (hm : eduMax < 256) :
    ∃ core, createCore (kw97BaseSpec nPeriods eduStarts eduMax) = some core ∧
      core.Perm (formerKw97Base nPeriods eduStarts eduMax) := by
  have wf := (kw97Spec_wf nPeriods eduStarts eduMax hp hs hlt hm).1
  obtain ⟨core, hc, hnd, _⟩ := C01_core_nodup_sorted _ wf
  refine ⟨core, hc, (List.perm_ext_iff_of_nodup hnd (nodup_foldl_storeNew _ _ List.nodup_nil)).2 fun s => ?_⟩
  rw [C05_core_mem_iff _ wf (by simp [kw97BaseSpec]) core hc]
  rw [mem_foldl_storeNew]
  simp only [List.not_mem_nil, false_or, List.mem_flatMap, List.mem_range, List.mem_map]
  constructor
  · rintro ⟨h1, ⟨init, extra, h5, h6, h7, h8, _⟩, h2, h4, _⟩
    simp only [kw97BaseSpec] at h5 h6 h1 h2 h4
    match init, h5, extra, h6 with
    | [x, y, z, start], h5, [a, b, mil, add], _ =>
      simp only [List.forall₂_cons, List.mem_singleton, List.forall₂_nil_right_iff, and_true] at h5
      obtain ⟨rfl, rfl, rfl, hstart⟩ := h5
      simp only [List.zipWith_cons_cons, List.zipWith_nil_right, Nat.zero_add] at h7
      rw [h7] at h2
      simp only [List.forall₂_cons, List.forall₂_nil_right_iff, and_true] at h2
      simp only [List.sum_cons, List.sum_nil] at h8
      refine ⟨s.period, h1, start, hstart, a, by omega, b, by omega, mil, by omega, add, by omega, ?_⟩
      obtain ⟨p, e, l⟩ := s
      simp only at h4 h7
      cases List.length_eq_zero_iff.1 h4
      subst h7
      rfl
  · rintro ⟨t, ht, start, hstart, a, ha, b, hb, mil, hmil, add, hadd, rfl⟩
    refine ⟨ht, ⟨[0, 0, 0, start], [a, b, mil, add], ?_, rfl, ?_, ?_, by simp [kw97BaseSpec]⟩, ?_, rfl, by simp⟩
    · simp only [kw97BaseSpec, List.forall₂_cons, List.mem_singleton, List.forall₂_nil_right_iff, and_true, true_and]
      exact hstart
    · simp
    · simp only [List.sum_cons, List.sum_nil]; omega
    · simp only [kw97BaseSpec, List.forall₂_cons, List.forall₂_nil_right_iff, and_true]; omega

/-- **C105.** The same for the extended model of Keane and Wolpin (1997) with the filters shipped with it. -/
theorem C105_kw97_extended (hp : nPeriods ≤ 256) (hs : eduStarts ≠ []) (hlt : ∀ x ∈ eduStarts, x < 256)
    (hm : eduMax < 256) :
    ∃ core, createCore (kw97ExtendedSpec nPeriods eduStarts eduMax) = some core ∧
      core.Perm (formerKw97Extended nPeriods eduStarts eduMax) := by
  have wf := (kw97Spec_wf nPeriods eduStarts eduMax hp hs hlt hm).2
  obtain ⟨core, hc, hnd, _⟩ := C01_core_nodup_sorted _ wf
  refine ⟨core, hc, (List.perm_ext_iff_of_nodup hnd (nodup_foldl_storeNew _ _ List.nodup_nil)).2 fun s => ?_⟩
  rw [mem_filtered_core _ wf 3 (kw97ExtendedSpec_filters _ _ _) core hc]
  rw [mem_foldl_storeNew]
  simp only [List.not_mem_nil, false_or, List.mem_flatMap, List.mem_range, List.mem_filterMap]
  constructor
  · rintro ⟨h1, h2, lag, h3, h4, init, extra, h5, h6, h7, h8, h9⟩
    simp only [kw97ExtendedSpec] at h5 h6 h1 h2 h3
    match init, h5, extra, h6 with
    | [x, y, z, start], h5, [a, b, mil, add], _ =>
      simp only [List.forall₂_cons, List.mem_singleton, List.forall₂_nil_right_iff, and_true] at h5
      obtain ⟨rfl, rfl, rfl, hstart⟩ := h5
      simp only [List.zipWith_cons_cons, List.zipWith_nil_right, Nat.zero_add] at h7
      rw [h7] at h2
      simp only [List.forall₂_cons, List.forall₂_nil_right_iff, and_true] at h2
      simp only [List.sum_cons, List.sum_nil] at h8
      refine ⟨s.period, h1, start, hstart, a, by omega, b, by omega, mil, by omega, add, by omega, lag, h3, ?_⟩
      rw [(skippedKw97_iff _ _ _ _ _ _ h3 (by omega)).2 h9]
      obtain ⟨p, e, l⟩ := s
      simp only at h4 h7
      subst h4; subst h7
      rfl
  · rintro ⟨t, ht, start, hstart, a, ha, b, hb, mil, hmil, add, hadd, lag, hlag, he⟩
    split at he
    · exact absurd he (by simp)
    · rename_i hskip
      cases he
      refine ⟨ht, ?_, lag, hlag, rfl, [0, 0, 0, start], [a, b, mil, add], ?_, rfl, ?_, ?_,
        (skippedKw97_iff t a b mil add lag hlag (by omega)).1 (by simpa using hskip)⟩
      · simp only [kw97ExtendedSpec, List.forall₂_cons, List.forall₂_nil_right_iff, and_true]; omega
      · simp only [kw97ExtendedSpec, List.forall₂_cons, List.mem_singleton, List.forall₂_nil_right_iff, and_true,
          true_and]
        exact hstart
      · simp
      · change [a, b, mil, add].sum ≤ t
        simp only [List.sum_cons, List.sum_nil]; omega

end

/-- The hypotheses are met by the parameters of the examples in the documentation: forty periods, ten years of schooling
at the beginning and at most twenty years. -/
example : (40 ≤ 256 ∧ ([10] : List Nat) ≠ [] ∧ (∀ x ∈ [10], x < 256) ∧ 20 < 256) ∧
    (⟨1, [0, 0, 11], [some 2]⟩ : CoreState) ∈ formerKw94 2 [10] 20 ∧
    (⟨1, [0, 0, 11], [some 3]⟩ : CoreState) ∉ formerKw94 2 [10] 20 := by
  refine ⟨by decide, by decide +kernel, by decide +kernel⟩

end Respy
