import Verif.Lemmas.DataChecking
import Mathlib.Algebra.Order.Ring.Rat

/-!
# Checks of data (C59, C60)
-/

set_option linter.unusedSectionVars false

namespace Respy

variable {K : Type _} [Field K] [LinearOrder K]

theorem checkEstimationData_parts (m : CheckParas) (s : Sample K) (h : checkEstimationData m s = true) :
    checkColumns m s.rows = true ∧ checkIdentifier s.rows = true ∧ checkValues m s.rows = true ∧
    checkLags m s = true ∧ checkObservables m s.rows = true ∧ checkMissing s.rows = true ∧
    (m.choicesExp.zipIdx.all fun ce => checkExperience s.rows ce.1 ce.2) = true ∧
    checkDuplicates s.rows = true ∧ checkSequence s.rows = true := by
  unfold checkEstimationData at h
  simp only [Bool.and_eq_true] at h
  tauto

/-! ### C59 -/

/-- Identifiers and periods of a sample of `n` individuals, where the individual `i` is observed in the
periods `0, ..., T i - 1`. -/
def histories (n : Nat) (T : Nat → Nat) : List (Int × Int) :=
  (List.range n).flatMap fun i => (List.range (T i)).map fun t : Nat => ((i : Int), (t : Int))

theorem mem_histories (n : Nat) (T : Nat → Nat) (x t : Int) :
    (x, t) ∈ histories n T ↔ ∃ i < n, x = i ∧ 0 ≤ t ∧ t < T i := by
  simp only [histories, List.mem_flatMap, List.mem_map, List.mem_range, Prod.mk.injEq]
  constructor
  · rintro ⟨i, hi, t', ht', rfl, rfl⟩
    exact ⟨i, hi, rfl, by omega, by omega⟩
  · rintro ⟨i, hi, rfl, h0, ht⟩
    exact ⟨i, hi, t.toNat, by omega, rfl, by omega⟩

theorem nodup_histories (n : Nat) (T : Nat → Nat) : (histories n T).Nodup := by
  unfold histories
  rw [List.nodup_flatMap]
  refine ⟨fun i _ => List.nodup_range.map fun a b h => ?_, ?_⟩
  · simp only [Prod.mk.injEq] at h; omega
  · refine List.pairwise_lt_range.imp fun h => ?_
    intro x hx hy
    obtain ⟨_, _, rfl⟩ := List.mem_map.1 hx
    obtain ⟨_, _, h2⟩ := List.mem_map.1 hy
    simp only [Prod.mk.injEq] at h2
    omega

/-- **C59** If a sample without negative periods is accepted, there are numbers of observations `T i`
between one and the number of periods such that identifiers and periods are exactly
`histories n T`, each once. Missing: samples with negative periods, see `C59_false`. -/
theorem C59_partial (m : CheckParas) (s : Sample K) (h : checkEstimationData m s = true)
    (h0 : ∀ r ∈ s.rows, 0 ≤ r.period) :
    ∃ (n : Nat) (T : Nat → Nat), (∀ i < n, 1 ≤ T i ∧ T i ≤ m.nPeriods) ∧
      (s.rows.map fun r => (r.id, r.period)).Perm (histories n T) := by
  obtain ⟨-, hid, hval, -, -, -, -, hdup, hseq⟩ := checkEstimationData_parts m s h
  simp only [checkIdentifier, decide_eq_true_eq] at hid
  have hdup : (s.rows.map fun r => (r.id, r.period)).Nodup := by simpa [checkDuplicates] using hdup
  set n := (s.rows.map (·.id)).eraseDups.length with hn
  have hmem : ∀ x : Int, x ∈ s.rows.map (·.id) ↔ ∃ i < n, x = (i : Int) := by
    intro x
    rw [← mem_eraseDups_iff, hid]
    simp only [List.mem_map, List.mem_range]
    constructor
    · rintro ⟨i, h1, rfl⟩; exact ⟨i, h1, rfl⟩
    · rintro ⟨i, h1, rfl⟩; exact ⟨i, h1, rfl⟩
  have hper : ∀ i < n, (periodsOf s.rows i).Perm
      ((List.range (periodsOf s.rows i).length).map fun t : Nat => (t : Int)) := by
    intro i hi
    apply perm_range_of_max
    · exact nodup_periodsOf _ _ hdup
    · intro t ht
      simp only [periodsOf, List.mem_map, List.mem_filter] at ht
      obtain ⟨r, ⟨hr, _⟩, rfl⟩ := ht
      exact h0 r hr
    · have := List.all_eq_true.1 hseq (i : Int) ((hmem _).2 ⟨i, hi, rfl⟩)
      simpa [periodsOf] using this
  have hkey : ∀ (i : Nat) (t : Int), i < n →
      (((i : Int), t) ∈ s.rows.map (fun r => (r.id, r.period)) ↔
        0 ≤ t ∧ t < (periodsOf s.rows i).length) := by
    intro i t hi
    rw [← mem_periodsOf, (hper i hi).mem_iff]
    simp only [List.mem_map, List.mem_range]
    constructor
    · rintro ⟨t', h1, rfl⟩; omega
    · intro h1; exact ⟨t.toNat, by omega, by omega⟩
  refine ⟨n, fun i => (periodsOf s.rows i).length, fun i hi => ⟨?_, ?_⟩, ?_⟩
  · obtain ⟨r, hr, hri⟩ := List.mem_map.1 ((hmem i).2 ⟨i, hi, rfl⟩)
    have h1 := (hkey i r.period hi).1 (List.mem_map.2 ⟨r, hr, by rw [hri]⟩)
    show 1 ≤ (periodsOf s.rows i).length
    omega
  · by_contra hlt
    change ¬ (periodsOf s.rows i).length ≤ m.nPeriods at hlt
    have h1 := (hkey i ((periodsOf s.rows i).length - 1 : Int) hi).2 (by omega)
    obtain ⟨r, hr, hrk⟩ := List.mem_map.1 h1
    simp only [Prod.mk.injEq] at hrk
    have h2 := List.all_eq_true.1 hval r hr
    simp only [Bool.and_eq_true, decide_eq_true_eq] at h2
    omega
  · refine (List.perm_ext_iff_of_nodup hdup (nodup_histories _ _)).2 ?_
    rintro ⟨x, t⟩
    rw [mem_histories]
    constructor
    · intro hx
      obtain ⟨r, hr, hrk⟩ := List.mem_map.1 hx
      simp only [Prod.mk.injEq] at hrk
      obtain ⟨i, hi, hxi⟩ := (hmem x).1 (List.mem_map.2 ⟨r, hr, hrk.1⟩)
      subst hxi
      exact ⟨i, hi, rfl, (hkey i t hi).1 hx⟩
    · rintro ⟨i, hi, rfl, h1⟩
      exact (hkey i t hi).2 h1

/-- A sample with experience in `a`, and two lagged choices. -/
def exampleParas : CheckParas where
  choices := ["a".toList, "h".toList]
  choicesWage := ["a".toList]
  choicesExp := ["a".toList]
  nPeriods := 3
  nLags := 2
  levels := [2]

/-- Two individuals with two and one observations. -/
def exampleSample : Sample ℚ where
  rows := [⟨0, 0, some "a".toList, some 5, [0], [some "h".toList, some "h".toList], [some "x".toList]⟩,
    ⟨0, 1, some "h".toList, none, [1], [some "a".toList, some "h".toList], [some "x".toList]⟩,
    ⟨1, 0, some "a".toList, some 2, [3], [some "a".toList, some "h".toList], [some "y".toList]⟩]
  categories := fun _ => ["a".toList, "h".toList]

/-- The hypotheses are met. -/
example : checkEstimationData exampleParas exampleSample = true ∧
    ∀ r ∈ exampleSample.rows, 0 ≤ r.period := by decide +kernel

/-- With a negative period, an individual is accepted although the first period is not observed. -/
theorem C59_false : ∃ (m : CheckParas) (s : Sample ℚ), checkEstimationData m s = true ∧
    ¬ ∃ (n : Nat) (T : Nat → Nat), (s.rows.map fun r => (r.id, r.period)).Perm (histories n T) := by
  refine ⟨{ exampleParas with nLags := 0, levels := [] },
    ⟨[⟨0, -1, some "a".toList, some 5, [0], [], []⟩, ⟨0, 1, some "a".toList, some 5, [1], [], []⟩],
      fun _ => []⟩, by decide +kernel, ?_⟩
  rintro ⟨n, T, hp⟩
  have h1 : ((0 : Int), (-1 : Int)) ∈ histories n T := hp.mem_iff.1 (by simp)
  obtain ⟨i, _, _, h2, _⟩ := (mem_histories _ _ _ _).1 h1
  omega

/-! ### C60 -/

/-- The rows of an individual are in the order of periods. -/
def SortedByPeriod (s : Sample K) : Prop :=
  s.rows.Pairwise fun r r' => r.id = r'.id → r.period < r'.period

theorem previous_row (m : CheckParas) (s : Sample K) (h : checkEstimationData m s = true)
    (h0 : ∀ r ∈ s.rows, 0 ≤ r.period) (hs : SortedByPeriod s) (p : Nat) (r : DataRow K)
    (hp : s.rows[p]? = some r) (h1 : 1 ≤ r.period) :
    ∃ r', lastBefore s.rows p r.id = some r' ∧ r' ∈ s.rows ∧ r'.id = r.id ∧
      r'.period + 1 = r.period := by
  obtain ⟨n, T, _, hperm⟩ := C59_partial m s h h0
  have hr := List.mem_of_getElem? hp
  have hmem : (r.id, r.period - 1) ∈ s.rows.map (fun r => (r.id, r.period)) := by
    rw [hperm.mem_iff, mem_histories]
    have : (r.id, r.period) ∈ histories n T := hperm.mem_iff.1 (List.mem_map.2 ⟨r, hr, rfl⟩)
    obtain ⟨i, hi, h2, h3, h4⟩ := (mem_histories _ _ _ _).1 this
    exact ⟨i, hi, h2, by omega, by omega⟩
  obtain ⟨r₁, hr₁, hk⟩ := List.mem_map.1 hmem
  simp only [Prod.mk.injEq] at hk
  obtain ⟨q, hq⟩ := List.getElem?_of_mem hr₁
  have hpl := (List.getElem?_eq_some_iff.1 hp).1
  have hql := (List.getElem?_eq_some_iff.1 hq).1
  have hsorted : ∀ (i j : Nat) (a b : DataRow K), i < j → s.rows[i]? = some a → s.rows[j]? = some b →
      a.id = b.id → a.period < b.period := by
    intro i j a b hij ha hb
    obtain ⟨hi, rfl⟩ := List.getElem?_eq_some_iff.1 ha
    obtain ⟨hj, rfl⟩ := List.getElem?_eq_some_iff.1 hb
    exact List.pairwise_iff_getElem.1 hs i j hi hj hij
  have hqp : q < p := by
    rcases Nat.lt_trichotomy q p with h2 | h2 | h2
    · exact h2
    · subst h2
      rw [hp] at hq
      simp only [Option.some.injEq] at hq
      subst hq
      omega
    · have := hsorted p q r r₁ h2 hp hq hk.1.symm
      omega
  cases hl : lastBefore s.rows p r.id with
  | none => exact absurd hk.1 (lastBefore_none s.rows p r.id (by omega) hl q hqp r₁ hq)
  | some r' =>
    obtain ⟨h2, q', h3, h4, h5⟩ := lastBefore_some s.rows p r.id r' (by omega) hl
    refine ⟨r', rfl, List.mem_of_getElem? h4, h2, ?_⟩
    have h6 := hsorted q' p r' r h3 h4 hp h2
    have h7 : r₁.period ≤ r'.period := by
      rcases Nat.lt_trichotomy q q' with h8 | h8 | h8
      · have := hsorted q q' r₁ r' h8 hq h4 (by rw [hk.1, h2]); omega
      · subst h8
        rw [hq] at h4
        simp only [Option.some.injEq] at h4
        rw [h4]
      · exact absurd hk.1 (h5 q h8 hqp r₁ hq)
    omega

theorem categoryCode_inj (cats : List Str) (x y : Str) (hx : x ∈ cats)
    (h : categoryCode cats (some x) = categoryCode cats (some y)) : x = y := by
  simp only [categoryCode, Int.natCast_inj] at h
  have h1 := List.idxOf_lt_length_of_mem hx
  have h2 : cats[cats.idxOf x]? = some x := by
    rw [List.getElem?_eq_getElem h1, List.getElem_idxOf h1]
  have h3 : cats[cats.idxOf y]? = some y := by
    rw [List.getElem?_eq_getElem (h ▸ h1), List.getElem_idxOf (h ▸ h1)]
  rw [← h, h2] at h3
  simpa using h3

theorem choiceVar_isSome (m : CheckParas) (s : Sample K) (h : checkEstimationData m s = true)
    (r : DataRow K) (hr : r ∈ s.rows) (j : Nat) (hj : j ≤ m.nLags) :
    ∃ x ∈ m.choices, r.choiceVar j = some x := by
  obtain ⟨hcol, -, hval, -, -, -, -, -, -⟩ := checkEstimationData_parts m s h
  have h1 := List.all_eq_true.1 hval r hr
  have h2 := List.all_eq_true.1 hcol r hr
  simp only [Bool.and_eq_true, decide_eq_true_eq] at h1 h2
  have hch : ∀ y : Option Str, isChoice m y = true → ∃ x ∈ m.choices, y = some x := by
    intro y hy
    cases y with
    | none => simp [isChoice] at hy
    | some x => exact ⟨x, by simpa [isChoice] using hy, rfl⟩
  unfold DataRow.choiceVar
  by_cases hj0 : j = 0
  · rw [if_pos hj0]; exact hch _ h1.1.1.2
  · rw [if_neg hj0]
    have hlt : j - 1 < r.lags.length := by omega
    rw [List.getElem?_eq_getElem hlt, Option.getD_some]
    exact hch _ (List.all_eq_true.1 h1.2 _ (List.getElem_mem hlt))

/-- **C60** In an accepted sample every lagged choice but the last is the choice of the corresponding
earlier period. The sample has no negative periods, individuals are sorted by period, the columns with
choices have the same categories and contain the choices. Missing: the last lagged choice, in particular a
single one, see `C60_last_lag_false`, and columns with different categories, see
`C60_categories_false`. -/
theorem C60_partial (m : CheckParas) (s : Sample K) (h : checkEstimationData m s = true)
    (h0 : ∀ r ∈ s.rows, 0 ≤ r.period) (hs : SortedByPeriod s)
    (cats : List Str) (hc : ∀ j, s.categories j = cats) (hcats : ∀ x ∈ m.choices, x ∈ cats)
    (k : Nat) (hk1 : 1 ≤ k) (hk : k < m.nLags) (r r' : DataRow K) (hr : r ∈ s.rows) (hr' : r' ∈ s.rows)
    (hid : r'.id = r.id) (hper : r.period = r'.period + k) :
    r.lags[k - 1]? = some r'.choice := by
  obtain ⟨hcol, -, hval, hlags, -, -, -, hdup, -⟩ := checkEstimationData_parts m s h
  have hnodup : (s.rows.map fun r => (r.id, r.period)).Nodup := by simpa [checkDuplicates] using hdup
  have hpos : 1 < m.nPeriods := by
    have h1 := List.all_eq_true.1 hval r hr
    simp only [Bool.and_eq_true, decide_eq_true_eq] at h1
    have := h0 r' hr'
    omega
  rw [checkLags, if_pos ⟨hpos, by omega⟩] at hlags
  have main : ∀ (k : Nat) (r : DataRow K), r ∈ s.rows → k < m.nLags → r'.id = r.id →
      r.period = r'.period + k → r.choiceVar k = r'.choice := by
    intro k
    induction k with
    | zero =>
      intro r hr _ hid hper
      have : r = r' := by
        refine List.inj_on_of_nodup_map hnodup hr hr' ?_
        simp only [Prod.mk.injEq]
        exact ⟨hid.symm, by simpa using hper⟩
      rw [this]; rfl
    | succ k ih =>
      intro r hr hk hid hper
      obtain ⟨p, hp⟩ := List.getElem?_of_mem hr
      have hper0 := h0 r' hr'
      obtain ⟨rp, hl, hrp, hidp, hperp⟩ := previous_row m s h h0 hs p r hp (by omega)
      have ih' := ih rp hrp (by omega) (by rw [hid, hidp]) (by omega)
      have hcheck := List.all_eq_true.1 hlags k (List.mem_range.2 (by omega))
      simp only [checkLag, decide_eq_true_eq] at hcheck
      obtain ⟨x, _, hx⟩ := choiceVar_isSome m s h rp hrp k (by omega)
      obtain ⟨y, hy, hy'⟩ := choiceVar_isSome m s h r hr (k + 1) (by omega)
      have hin : (p, categoryCode (s.categories (k + 1)) (r.choiceVar (k + 1))) ∈
          s.rows.zipIdx.filterMap fun rp =>
            if rp.1.period ≤ (k : Int) then none
            else some (rp.2, categoryCode (s.categories (k + 1)) (rp.1.choiceVar (k + 1))) := by
        refine List.mem_filterMap.2 ⟨(r, p), List.mem_zipIdx_iff_getElem?.2 hp, ?_⟩
        rw [if_neg (by simp only; omega)]
      rw [hcheck] at hin
      obtain ⟨⟨p', x'⟩, hx', heq⟩ := List.mem_map.1 hin
      simp only [Prod.mk.injEq] at heq
      obtain ⟨rfl, heq⟩ := heq
      obtain ⟨r₂, hr₂, r₃, hr₃, hx₃⟩ := (mem_shiftColumn _ _ _ _).1 hx'
      rw [hp] at hr₂
      simp only [Option.some.injEq] at hr₂
      subst hr₂
      rw [hl] at hr₃
      simp only [Option.some.injEq] at hr₃
      subst hr₃
      rw [hc, hc, hy'] at heq
      have hyx := categoryCode_inj cats y x' (hcats y hy) heq.symm
      rw [← ih', hy', hyx, hx₃]
  have hfin := main k r hr hk hid hper
  have h2 := List.all_eq_true.1 hcol r hr
  simp only [decide_eq_true_eq] at h2
  unfold DataRow.choiceVar at hfin
  rw [if_neg (by omega), List.getElem?_eq_getElem (by omega)] at hfin
  rw [List.getElem?_eq_getElem (by omega)]
  simpa using hfin

/-- The hypotheses are met by a sample with two lagged choices. -/
example : checkEstimationData exampleParas exampleSample = true ∧ SortedByPeriod exampleSample ∧
    (∀ j, exampleSample.categories j = exampleParas.choices) ∧ 1 < exampleParas.nLags := by
  refine ⟨by decide +kernel, ?_, fun _ => rfl, by decide⟩
  unfold SortedByPeriod
  decide +kernel

/-- A single lagged choice is never compared with the choice of the period before. -/
theorem C60_last_lag_false : ∃ (m : CheckParas) (s : Sample ℚ) (r r' : DataRow ℚ),
    checkEstimationData m s = true ∧ SortedByPeriod s ∧ (∀ j, s.categories j = m.choices) ∧
    (∀ r ∈ s.rows, 0 ≤ r.period) ∧ r ∈ s.rows ∧ r' ∈ s.rows ∧ r'.id = r.id ∧ r.period = r'.period + 1 ∧
    m.nLags = 1 ∧ r.lags[0]? ≠ some r'.choice := by
  refine ⟨{ exampleParas with nLags := 1, levels := [] },
    ⟨[⟨0, 0, some "a".toList, some 5, [0], [some "h".toList], []⟩,
      ⟨0, 1, some "a".toList, some 5, [1], [some "h".toList], []⟩], fun _ => exampleParas.choices⟩,
    ⟨0, 1, some "a".toList, some 5, [1], [some "h".toList], []⟩,
    ⟨0, 0, some "a".toList, some 5, [0], [some "h".toList], []⟩, by decide +kernel, ?_, fun _ => rfl, ?_⟩
  · unfold SortedByPeriod; decide +kernel
  · decide +kernel

/-- If the columns have different categories, different choices have the same code. -/
theorem C60_categories_false : ∃ (m : CheckParas) (s : Sample ℚ) (r r' : DataRow ℚ),
    checkEstimationData m s = true ∧ SortedByPeriod s ∧
    (∀ j, ∀ r ∈ s.rows, ∀ x, r.choiceVar j = some x → x ∈ s.categories j) ∧
    (∀ r ∈ s.rows, 0 ≤ r.period) ∧ r ∈ s.rows ∧ r' ∈ s.rows ∧ r'.id = r.id ∧ r.period = r'.period + 1 ∧
    m.nLags = 2 ∧ r.lags[0]? ≠ some r'.choice := by
  refine ⟨{ exampleParas with nLags := 2, levels := [] },
    ⟨[⟨0, 0, some "a".toList, some 5, [0], [some "h".toList, some "h".toList], []⟩,
      ⟨0, 1, some "a".toList, some 5, [1], [some "h".toList, some "h".toList], []⟩],
      fun j => if j = 0 then ["a".toList] else ["h".toList]⟩,
    ⟨0, 1, some "a".toList, some 5, [1], [some "h".toList, some "h".toList], []⟩,
    ⟨0, 0, some "a".toList, some 5, [0], [some "h".toList, some "h".toList], []⟩, by decide +kernel, ?_, ?_, ?_⟩
  · unfold SortedByPeriod; decide +kernel
  · intro j r hr x hx
    match j with
    | 0 =>
      revert x
      revert r
      decide +kernel
    | 1 => revert x; revert r; decide +kernel
    | 2 => revert x; revert r; decide +kernel
    | j + 3 =>
      simp only [List.mem_cons, List.not_mem_nil, or_false] at hr
      rcases hr with rfl | rfl <;> simp [DataRow.choiceVar] at hx
  · decide +kernel

end Respy
