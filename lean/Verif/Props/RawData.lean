import Verif.Model.RawData
import Verif.Lemmas.MapM
import Mathlib.Algebra.BigOperators.Group.List.Basic
import Mathlib.Algebra.Order.Ring.Rat
import Mathlib.Algebra.Field.Rat

/-!
# Experiences in the raw data (C67)
-/

namespace Respy

variable {K : Type _}

/-- Number of rows of an individual with a choice. -/
def countChoice (rows : List (RawRow K)) (choice : Str) (id : Int) : Nat :=
  rows.countP fun r => decide (r.id = id ∧ r.choice = some choice)

theorem rawBefore_succ (rows : List (RawRow K)) (p : Nat) (id : Int) (r : RawRow K) (h : rows[p]? = some r) :
    rawBefore rows (p + 1) id = if r.id = id then some r else rawBefore rows p id := by
  unfold rawBefore
  rw [List.take_add_one, h, Option.toList_some, List.reverse_append, List.reverse_singleton,
    List.singleton_append, List.find?_cons]
  by_cases hr : r.id = id <;> simp [hr]

/-- The cumulated sum up to but not including position `p`. -/
def cumsumBefore (rows : List (RawRow K)) (column : Nat → Int → Nat) (p : Nat) (id : Int) : Nat :=
  (((rows.take p).zipIdx.filter fun rj => decide (rj.1.id = id)).map fun rj => column rj.2 rj.1.id).sum

theorem cumsumBefore_succ (rows : List (RawRow K)) (column : Nat → Int → Nat) (p : Nat) (id : Int)
    (r : RawRow K) (h : rows[p]? = some r) :
    cumsumBefore rows column (p + 1) id = cumsumBefore rows column p id + if r.id = id then column p id else 0 := by
  unfold cumsumBefore
  have hp : p < rows.length := (List.getElem?_eq_some_iff.1 h).1
  have hlen : (rows.take p).length = p := by simp; omega
  rw [List.take_add_one, h, Option.toList_some, List.zipIdx_append, List.filter_append, List.map_append,
    List.sum_append, hlen, List.zipIdx_singleton, List.filter_cons]
  by_cases hr : r.id = id <;> simp [hr]

theorem cumsum_invariant (rows : List (RawRow K)) (choice : Str) (id : Int) (p : Nat) (hp : p ≤ rows.length) :
    cumsumBefore rows (shiftedIndicator rows choice) p id + shiftedIndicator rows choice p id
      = countChoice (rows.take p) choice id := by
  induction p with
  | zero => simp [cumsumBefore, shiftedIndicator, rawBefore, countChoice]
  | succ p ih =>
    have hr : rows[p]? = some rows[p] := List.getElem?_eq_getElem (by omega)
    have ih := ih (by omega)
    rw [cumsumBefore_succ rows _ p id _ hr]
    have hc : countChoice (rows.take (p + 1)) choice id = countChoice (rows.take p) choice id
        + if rows[p].id = id ∧ rows[p].choice = some choice then 1 else 0 := by
      unfold countChoice
      rw [List.take_add_one, hr, Option.toList_some, List.countP_append, List.countP_singleton]
      simp only [decide_eq_true_eq]
    rw [hc, ← ih]
    have hs : shiftedIndicator rows choice (p + 1) id = if rows[p].id = id then
        (if rows[p].choice = some choice then 1 else 0) else shiftedIndicator rows choice p id := by
      unfold shiftedIndicator
      rw [rawBefore_succ rows p id _ hr]
      split <;> rfl
    rw [hs]
    by_cases h1 : rows[p].id = id <;> by_cases h2 : rows[p].choice = some choice <;> simp [h1, h2]

/-- C67: experience in a row is the number of earlier rows of the individual with the choice. -/
theorem C67_earlier_rows (rows : List (RawRow K)) (choice : Str) (p : Nat) (r : RawRow K)
    (h : rows[p]? = some r) :
    workExperience rows choice p r
      = (rows.take p).countP fun r' => decide (r'.id = r.id ∧ r'.choice = some choice) := by
  have hp : p < rows.length := (List.getElem?_eq_some_iff.1 h).1
  have := cumsum_invariant rows choice r.id p (by omega)
  unfold countChoice at this
  rw [← this]
  have hs := cumsumBefore_succ rows (shiftedIndicator rows choice) p r.id r h
  rw [if_pos rfl] at hs
  exact hs

theorem countP_take_eq {α : Type _} (l : List α) (P Q : α → Bool) (p : Nat)
    (h1 : ∀ (i : Nat) a, l[i]? = some a → i < p → P a = Q a)
    (h2 : ∀ (i : Nat) a, l[i]? = some a → p ≤ i → Q a = false) : (l.take p).countP P = l.countP Q := by
  induction l generalizing p with
  | nil => simp
  | cons a l ih =>
    cases p with
    | zero =>
      have : (a :: l).countP Q = 0 := by
        rw [List.countP_eq_zero]
        intro b hb
        obtain ⟨i, hi⟩ := List.mem_iff_getElem?.1 hb
        rw [h2 i b hi (by omega)]
        simp
      simp [this]
    | succ p =>
      rw [List.take_succ_cons, List.countP_cons, List.countP_cons, h1 0 a rfl (by omega),
        ih p (fun i b hi hip => h1 (i + 1) b hi (by omega)) fun i b hi hip => h2 (i + 1) b hi (by omega)]

/-- C67: if the rows of an individual are sorted by age, experience is the number of earlier ages with the
choice. -/
theorem C67_earlier_ages (rows : List (RawRow K)) (choice : Str)
    (hsorted : ∀ (i j : Nat) (a b : RawRow K), rows[i]? = some a → rows[j]? = some b → i < j → a.id = b.id →
      a.age < b.age)
    (p : Nat) (r : RawRow K) (h : rows[p]? = some r) :
    workExperience rows choice p r
      = rows.countP fun r' => decide (r'.id = r.id ∧ r'.age < r.age ∧ r'.choice = some choice) := by
  rw [C67_earlier_rows rows choice p r h]
  refine countP_take_eq rows _ _ p (fun i a ha hip => ?_) (fun i a ha hip => ?_)
  · rw [Bool.eq_iff_iff, decide_eq_true_eq, decide_eq_true_eq]
    constructor
    · rintro ⟨h1, h2⟩
      exact ⟨h1, hsorted i p a r ha h hip h1, h2⟩
    · rintro ⟨h1, -, h2⟩
      exact ⟨h1, h2⟩
  · rw [decide_eq_false_iff_not]
    rintro ⟨h1, h2, -⟩
    rcases Nat.eq_or_lt_of_le hip with rfl | hlt
    · rw [h] at ha
      cases ha
      omega
    · have := hsorted p i r a h ha hlt h1.symm
      omega

/-- C67: the rows which are returned. Starting from the first period of an individual, the experience of a later
period has grown by the number of periods in between with the choice, for each choice with a wage. -/
theorem C67_periods (m : CheckParas) (rows : List (RawRow K))
    (hsorted : ∀ (i j : Nat) (a b : RawRow K), rows[i]? = some a → rows[j]? = some b → i < j → a.id = b.id →
      a.age < b.age)
    (p q : Nat) (r s : RawRow K) (hr : rows[p]? = some r) (hs : rows[q]? = some s) (hid : r.id = s.id) (hpq : p ≤ q)
    (a b : DataRow K) (ha : createRow m rows p r = some a) (hb : createRow m rows q s = some b)
    (e : Nat) (c : Str) (hc : m.choicesExp[e]? = some c) (hw : c ∈ m.choicesWage) :
    ∃ x y : Nat, a.exps[e]? = some (x : Int) ∧ b.exps[e]? = some (y : Int) ∧
      y = x + rows.countP fun r' => decide (r'.id = s.id ∧ a.period ≤ r'.age - 16 ∧ r'.age - 16 < b.period ∧
        r'.choice = some c) := by
  have hexp : ∀ (p : Nat) (r : RawRow K) (a : DataRow K), createRow m rows p r = some a →
      a.exps[e]? = some (workExperience rows c p r : Int) ∧ a.period = r.age - 16 := by
    intro p r a ha
    unfold createRow at ha
    obtain ⟨exps, hexps, ha⟩ := Option.bind_eq_some_iff.1 ha
    split at ha
    · cases ha
      rw [mapM_eq_some_iff] at hexps
      obtain ⟨he, rfl⟩ := List.getElem?_eq_some_iff.1 hc
      have hlen := hexps.length_eq
      have := hexps.get he (by omega)
      simp only [List.get_eq_getElem] at this
      unfold rawExperience at this
      rw [if_pos hw] at this
      exact ⟨by rw [List.getElem?_eq_getElem (by simp only; omega), ← this], rfl⟩
    · simp at ha
  obtain ⟨hae, hap⟩ := hexp p r a ha
  obtain ⟨hbe, hbp⟩ := hexp q s b hb
  refine ⟨_, _, hae, hbe, ?_⟩
  rw [C67_earlier_ages rows c hsorted p r hr, C67_earlier_ages rows c hsorted q s hs, hap, hbp]
  have hage : r.age ≤ s.age := by
    rcases Nat.eq_or_lt_of_le hpq with rfl | hlt
    · rw [hr] at hs
      cases hs
      omega
    · exact (hsorted p q r s hr hs hlt hid).le
  rw [hid]
  clear hr hs hsorted hae hbe ha hb hexp
  induction rows with
  | nil => simp
  | cons x rows ih =>
    simp only [List.countP_cons, ih, decide_eq_true_eq]
    generalize List.countP _ rows = n1
    generalize List.countP _ rows = n2
    have h5 : r.age - 16 ≤ x.age - 16 ↔ ¬ x.age < r.age := by omega
    have h6 : x.age - 16 < s.age - 16 ↔ x.age < s.age := by omega
    simp only [h5, h6]
    by_cases h1 : x.id = s.id <;> by_cases h2 : x.choice = some c <;> by_cases h3 : x.age < r.age <;>
      by_cases h4 : x.age < s.age <;> simp [h1, h2, h3, h4] <;> omega

/-- The row at position `q` is the row of the individual before position `p`. -/
def IsPreviousRow (rows : List (RawRow K)) (p q : Nat) (id : Int) (s : RawRow K) : Prop :=
  rows[q]? = some s ∧ s.id = id ∧ q < p ∧ ∀ (i : Nat) (a : RawRow K), rows[i]? = some a → q < i → i < p → a.id ≠ id

theorem rawBefore_eq_some_iff (rows : List (RawRow K)) (p : Nat) (hp : p ≤ rows.length) (id : Int) (s : RawRow K) :
    rawBefore rows p id = some s ↔ ∃ q, IsPreviousRow rows p q id s := by
  induction p with
  | zero => simp [rawBefore, IsPreviousRow]
  | succ p ih =>
    have hr : rows[p]? = some rows[p] := List.getElem?_eq_getElem (by omega)
    rw [rawBefore_succ rows p id _ hr]
    by_cases h : rows[p].id = id
    · rw [if_pos h]
      constructor
      · rintro ⟨⟩
        exact ⟨p, hr, h, by omega, fun i a ha h1 h2 => by omega⟩
      · rintro ⟨q, h1, h2, h3, h4⟩
        rcases Nat.lt_or_ge q p with hq | hq
        · exact absurd h (h4 p _ hr hq (by omega))
        · have : q = p := by omega
          subst this
          rw [hr] at h1
          exact h1
    · rw [if_neg h, ih (by omega)]
      refine exists_congr fun q => ⟨fun ⟨h1, h2, h3, h4⟩ => ⟨h1, h2, by omega, fun i a ha hi1 hi2 => ?_⟩,
        fun ⟨h1, h2, h3, h4⟩ => ⟨h1, h2, ?_, fun i a ha hi1 hi2 => h4 i a ha hi1 (by omega)⟩⟩
      · rcases Nat.lt_or_ge i p with hq | hq
        · exact h4 i a ha hi1 hq
        · have : i = p := by omega
          subst this
          rw [hr] at ha
          cases ha
          exact h
      · rcases Nat.lt_or_ge q p with hq | hq
        · exact hq
        · have : q = p := by omega
          subst this
          rw [hr] at h1
          cases h1
          exact absurd h2 h

/-- C67: the result has a row for each row of the file with an age of at least 16 and no other rows, in the same
order. Identifiers are numbered from zero by size, choices and wages are those of the file and the lagged choice
is the choice of the individual in the row before, which is missing in the first row. -/
theorem C67_rows (m : CheckParas) (rows : List (RawRow K)) (out : List (DataRow K))
    (h : createKw97 m rows = some out) :
    List.Forall₂ (fun (rp : RawRow K × Nat) (a : DataRow K) =>
        a.id = ((rows.map (·.id)).eraseDups.countP fun x => decide (x < rp.1.id) : Nat) ∧
        a.period = rp.1.age - 16 ∧ a.choice = rp.1.choice ∧ a.wage = rp.1.wage ∧
        a.lags.length = m.nLags ∧
        ∀ l, a.lags[0]? = some l →
          (∀ q s, IsPreviousRow rows rp.2 q rp.1.id s → l = s.choice) ∧
          ((∀ q s, ¬ IsPreviousRow rows rp.2 q rp.1.id s) → l = none))
      (rows.zipIdx.filter fun rp => decide (¬ rp.1.age < 16)) out := by
  unfold createKw97 at h
  rw [mapM_eq_some_iff] at h
  have hfil : (rows.zipIdx.filter fun rp => decide (¬ rp.1.age < 16))
      = rows.zipIdx.filter fun rp => decide (16 ≤ rp.1.age) :=
    List.filter_congr fun rp _ => by simp
  rw [hfil, List.forall₂_iff_get]
  rw [List.forall₂_iff_get] at h
  refine ⟨h.1, fun i h1 h2 => ?_⟩
  have hc := h.2 i h1 h2
  have hmem := List.mem_of_mem_filter (List.get_mem _ ⟨i, h1⟩)
  generalize List.get _ ⟨i, h1⟩ = rp at hc hmem ⊢
  generalize List.get _ ⟨i, h2⟩ = a at hc ⊢
  obtain ⟨r, p⟩ := rp
  have hp : rows[p]? = some r := List.mem_zipIdx_iff_getElem?.1 hmem
  have hlt : p < rows.length := (List.getElem?_eq_some_iff.1 hp).1
  unfold createRow at hc
  obtain ⟨exps, -, hc⟩ := Option.bind_eq_some_iff.1 hc
  split at hc
  · next hl =>
    cases hc
    refine ⟨by simp only [groupNumber, List.countP_eq_length_filter], rfl, rfl, rfl, ?_, fun l hl' => ?_⟩
    · simp only [List.length_take, List.length_singleton]
      omega
    · have hl1 : l = (rawBefore rows p r.id).bind RawRow.choice := by
        simp only [List.getElem?_take] at hl'
        split at hl' <;> simp_all
      subst hl1
      refine ⟨fun q s hs => ?_, fun hn => ?_⟩
      · rw [(rawBefore_eq_some_iff rows p hlt.le r.id s).2 ⟨q, hs⟩]
        rfl
      · cases hb : rawBefore rows p r.id with
        | none => rfl
        | some s =>
          obtain ⟨q, hq⟩ := (rawBefore_eq_some_iff rows p hlt.le r.id s).1 hb
          exact absurd hq (hn q s)
  · simp at hc

/-- The codes of choices in the file of Keane and Wolpin (1997); other codes are missing choices. -/
theorem C67_choice_codes (r : RawRow K) :
    (r.choice = some "school".toList ↔ r.code = some "1".toList) ∧
    (r.choice = some "home".toList ↔ r.code = some "2".toList) ∧
    (r.choice = some "white_collar".toList ↔ r.code = some "3".toList) ∧
    (r.choice = some "blue_collar".toList ↔ r.code = some "4".toList) ∧
    (r.choice = some "military".toList ↔ r.code = some "5".toList) ∧
    (r.choice = none ↔ ∀ c ∈ r.code, c ∉ ["1".toList, "2".toList, "3".toList, "4".toList, "5".toList]) := by
  unfold RawRow.choice
  cases r.code with
  | none => simp
  | some c =>
    rw [Option.bind_some]
    by_cases h3 : c = "3".toList
    · subst h3; decide +kernel
    by_cases h4 : c = "4".toList
    · subst h4; decide +kernel
    by_cases h5 : c = "5".toList
    · subst h5; decide +kernel
    by_cases h1 : c = "1".toList
    · subst h1; decide +kernel
    by_cases h2 : c = "2".toList
    · subst h2; decide +kernel
    have hnone : Dict.get? codesToChoices c = none := by
      rw [Dict.get?_eq_none_iff]
      have : Dict.keys codesToChoices = ["3".toList, "4".toList, "5".toList, "1".toList, "2".toList] := rfl
      rw [this]
      simp only [List.mem_cons, List.not_mem_nil, or_false, not_or]
      exact ⟨h3, h4, h5, h1, h2⟩
    rw [hnone]
    simp only [Option.some.injEq, reduceCtorEq, false_iff, true_iff, Option.mem_def, forall_eq', List.mem_cons,
      List.not_mem_nil, or_false, not_or]
    exact ⟨h1, h2, h3, h4, h5, h1, h2, h3, h4, h5⟩

/-- Schooling is taken from the file if it has no wage; the experience of other choices without a wage is not
available. -/
theorem C67_schooling (m : CheckParas) (rows : List (RawRow K)) (p : Nat) (r : RawRow K) (e : Nat) (c : Str)
    (hc : m.choicesExp[e]? = some c) (hw : c ∉ m.choicesWage) :
    (∀ a, createRow m rows p r = some a → c = "school".toList ∧ a.exps[e]? = some r.school) := by
  intro a ha
  unfold createRow at ha
  obtain ⟨exps, hexps, ha⟩ := Option.bind_eq_some_iff.1 ha
  split at ha
  · cases ha
    have := mapM_getElem? _ _ _ hexps e c hc
    unfold rawExperience at this
    rw [if_neg hw] at this
    split at this
    · next hs => exact ⟨hs, this⟩
    · exfalso
      have hlen := (List.forall₂_iff_get.1 ((mapM_eq_some_iff _ _ _).1 hexps)).1
      have hlt : e < exps.length := by rw [← hlen]; exact (List.getElem?_eq_some_iff.1 hc).1
      rw [List.getElem?_eq_getElem hlt] at this
      cases this
  · cases ha

/-- Two individuals, one of whom starts to work at age 16. -/
def exampleRaw : List (RawRow ℚ) :=
  [⟨6, 15, 10, some "1".toList, none⟩, ⟨6, 16, 11, some "3".toList, some 100⟩,
   ⟨6, 17, 11, some "3".toList, some 110⟩, ⟨6, 18, 11, some "4".toList, some 90⟩, ⟨6, 19, 11, some "3".toList, none⟩,
   ⟨9, 15, 8, some "2".toList, none⟩, ⟨9, 16, 8, some "4".toList, some 80⟩, ⟨9, 17, 8, some "1".toList, none⟩]

/-- The choices of Keane and Wolpin (1997). -/
def kw97Paras : CheckParas where
  choices := ["white_collar".toList, "blue_collar".toList, "military".toList, "school".toList, "home".toList]
  choicesWage := ["white_collar".toList, "blue_collar".toList, "military".toList]
  choicesExp := ["white_collar".toList, "blue_collar".toList, "military".toList, "school".toList]
  nPeriods := 50
  nLags := 1
  levels := []

example : ((createKw97 kw97Paras exampleRaw).map fun rows => rows.map fun r => (r.id, r.period, r.exps))
    = some [(0, 0, [0, 0, 0, 11]), (0, 1, [1, 0, 0, 11]), (0, 2, [2, 0, 0, 11]), (0, 3, [2, 1, 0, 11]),
      (1, 0, [0, 0, 0, 8]), (1, 1, [0, 1, 0, 8])] := by decide +kernel

example : (createKw97 kw97Paras exampleRaw).map (fun rows => checkEstimationData kw97Paras ⟨rows, fun _ => []⟩)
    = some true := by decide +kernel

example : ∀ i ∈ List.range 8, ∀ j ∈ List.range 8, ∀ a ∈ exampleRaw[i]?, ∀ b ∈ exampleRaw[j]?, i < j → a.id = b.id →
    a.age < b.age := by decide +kernel

end Respy
