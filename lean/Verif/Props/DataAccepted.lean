import Verif.Props.DataChecking
import Verif.Lemmas.CoreStateSpace

/-!
# Consistent samples are accepted (C69)
-/

set_option linter.unusedSectionVars false

namespace Respy

variable {K : Type _} [Field K] [LinearOrder K]

/-- The next row of a sample is the next period of the same individual or the first period of the next
individual. -/
def Follows (a b : Int × Int) : Prop :=
  (b.1 = a.1 ∧ b.2 = a.2 + 1) ∨ (b.1 = a.1 + 1 ∧ b.2 = 0)

/-- The specification of a sample without errors: complete histories in order of identifiers and periods,
in which experiences and lagged choices follow from the choices of the row before. -/
structure ConsistentSample (m : CheckParas) (s : Sample K) : Prop where
  first : ∀ r, s.rows[0]? = some r → r.id = 0 ∧ r.period = 0
  next : ∀ (p : Nat) (a b : DataRow K), s.rows[p]? = some a → s.rows[p + 1]? = some b →
    Follows (a.id, a.period) (b.id, b.period)
  period : ∀ r ∈ s.rows, r.period < m.nPeriods
  choice : ∀ r ∈ s.rows, ∃ c ∈ m.choices, r.choice = some c
  lags : ∀ r ∈ s.rows, r.lags.length = m.nLags ∧ ∀ l ∈ r.lags, ∃ c ∈ m.choices, l = some c
  wage : ∀ r ∈ s.rows, ∀ w, r.wage = some w → 0 < w
  exps : ∀ r ∈ s.rows, r.exps.length = m.choicesExp.length
  observables : ∀ r ∈ s.rows, r.observables.length = m.levels.length ∧ ∀ o ∈ r.observables, o ≠ none
  levels : ∀ (i n : Nat), m.levels[i]? = some n → ∃ values : List Str, values.length ≤ n ∧
    ∀ r ∈ s.rows, ∀ v, r.observables[i]? = some (some v) → v ∈ values
  experience : ∀ (p : Nat) (a b : DataRow K), s.rows[p]? = some a → s.rows[p + 1]? = some b → a.id = b.id →
    ∀ (e : Nat) (c : Str) (x : Int), m.choicesExp[e]? = some c → a.exps[e]? = some x →
      b.exps[e]? = some (x + if a.choice = some c then 1 else 0)
  lagged : ∀ (p : Nat) (a b : DataRow K), s.rows[p]? = some a → s.rows[p + 1]? = some b → a.id = b.id →
    b.lags = (a.choice :: a.lags).take m.nLags
  categories : ∀ i j, s.categories i = s.categories j

/-- Identifier and period of each row follow each other. -/
def InOrder (keys : List (Int × Int)) : Prop :=
  (∀ k, keys[0]? = some k → k = (0, 0)) ∧
    ∀ (p : Nat) (a b : Int × Int), keys[p]? = some a → keys[p + 1]? = some b → Follows a b

theorem InOrder.prefix (keys rest : List (Int × Int)) (h : InOrder (keys ++ rest)) : InOrder keys := by
  refine ⟨fun k hk => h.1 k ?_, fun p a b ha hb => h.2 p a b ?_ ?_⟩
  · rw [List.getElem?_append_left (List.getElem?_eq_some_iff.1 hk).1, hk]
  · rw [List.getElem?_append_left (List.getElem?_eq_some_iff.1 ha).1, ha]
  · rw [List.getElem?_append_left (List.getElem?_eq_some_iff.1 hb).1, hb]

/-- The periods of an individual. -/
def periodsOfKeys (keys : List (Int × Int)) (id : Int) : List Int :=
  (keys.filter fun k => decide (k.1 = id)).map (·.2)

theorem inOrder_facts (keys : List (Int × Int)) (h : InOrder keys) :
    (∀ id, ∃ n : Nat, periodsOfKeys keys id = (List.range n).map fun t : Nat => (t : Int)) ∧
    (∃ n : Nat, (keys.map (·.1)).eraseDups = (List.range n).map (fun i : Nat => (i : Int)) ∧
      (∀ k ∈ keys, k.1 < n) ∧
      ∀ k, keys.getLast? = some k → k.1 + 1 = n ∧ (periodsOfKeys keys k.1).length = k.2 + 1) ∧
    keys.Nodup := by
  induction keys using List.reverseRecOn with
  | nil =>
    refine ⟨fun id => ⟨0, rfl⟩, ⟨0, rfl, by simp, by simp⟩, List.nodup_nil⟩
  | append_singleton keys k ih =>
    obtain ⟨h1, ⟨n, h2, h3, h4⟩, h5⟩ := ih (h.prefix keys [k])
    have hper : ∀ id, periodsOfKeys (keys ++ [k]) id =
        periodsOfKeys keys id ++ if k.1 = id then [k.2] else [] := by
      intro id
      by_cases hk : k.1 = id <;> simp [periodsOfKeys, hk]
    have hlastpos : (keys ++ [k])[keys.length]? = some k := by simp
    rcases List.eq_nil_or_concat keys with hnil | ⟨init, l, hl⟩
    · subst hnil
      have hk : k = (0, 0) := h.1 k (by simp)
      subst hk
      refine ⟨fun id => ?_, ⟨1, by decide, by simp, by simp [periodsOfKeys]⟩, by simp⟩
      by_cases hid : (0 : Int) = id
      · exact ⟨1, by simp [periodsOfKeys, ← hid]⟩
      · exact ⟨0, by simp [periodsOfKeys, hid]⟩
    · rw [List.concat_eq_append] at hl
      have hlast : keys.getLast? = some l := by rw [hl]; simp
      obtain ⟨h6, h7⟩ := h4 l hlast
      have hf : Follows l k := by
        refine h.2 (keys.length - 1) l k ?_ ?_
        · rw [hl]; simp
        · have : keys.length - 1 + 1 = keys.length := by rw [hl]; simp
          rw [this, hlastpos]
      have hids : (keys ++ [k]).map (·.1) = keys.map (·.1) ++ [k.1] := by simp
      rcases hf with ⟨hf1, hf2⟩ | ⟨hf1, hf2⟩
      · -- the same individual
        obtain ⟨c, hc⟩ := h1 k.1
        have hcl : (c : Int) = k.2 := by
          rw [← hf1, hc] at h7
          simp only [List.length_map, List.length_range] at h7
          omega
        have hlk : l ∈ keys := by rw [hl]; simp
        refine ⟨fun id => ?_, ⟨n, ?_, ?_, ?_⟩, ?_⟩
        · rw [hper]
          by_cases hk : k.1 = id
          · subst hk
            refine ⟨c + 1, ?_⟩
            rw [if_pos rfl, hc, List.range_succ, List.map_append, List.map_singleton, hcl]
          · rw [if_neg hk, List.append_nil]
            exact h1 id
        · rw [hids, List.eraseDups_append, h2]
          have : List.removeAll [k.1] (keys.map (·.1)) = [] := by
            have : k.1 ∈ keys.map (·.1) := List.mem_map.2 ⟨l, hlk, hf1.symm⟩
            simp only [List.removeAll, List.filter_cons, List.filter_nil]
            rw [if_neg (by simpa using this)]
          rw [this]; simp
        · intro x hx
          rcases List.mem_append.1 hx with hx | hx
          · exact h3 x hx
          · simp only [List.mem_singleton] at hx
            subst hx
            omega
        · intro x hx
          simp only [List.getLast?_append, List.getLast?_singleton, Option.some_or,
            Option.some.injEq] at hx
          subst hx
          refine ⟨by omega, ?_⟩
          rw [hper, if_pos rfl, List.length_append, hc]
          simp only [List.length_map, List.length_range, List.length_singleton]
          omega
        · rw [List.nodup_append]
          refine ⟨h5, by simp, ?_⟩
          intro a ha b hb
          simp only [List.mem_singleton] at hb
          subst hb
          intro hab
          subst hab
          have : a.2 ∈ periodsOfKeys keys a.1 := by
            simp only [periodsOfKeys, List.mem_map, List.mem_filter, decide_eq_true_eq]
            exact ⟨a, ⟨ha, rfl⟩, rfl⟩
          rw [hc] at this
          simp only [List.mem_map, List.mem_range] at this
          obtain ⟨t, ht, hta⟩ := this
          omega
      · -- the next individual
        have hkn : k.1 = n := by omega
        have hempty : periodsOfKeys keys k.1 = [] := by
          simp only [periodsOfKeys, List.map_eq_nil_iff, List.filter_eq_nil_iff, decide_eq_true_eq]
          intro a ha
          have := h3 a ha
          omega
        refine ⟨fun id => ?_, ⟨n + 1, ?_, ?_, ?_⟩, ?_⟩
        · rw [hper]
          by_cases hk : k.1 = id
          · subst hk
            exact ⟨1, by rw [hempty, if_pos rfl, hf2]; rfl⟩
          · rw [if_neg hk, List.append_nil]
            exact h1 id
        · rw [hids, List.eraseDups_append, h2]
          have : List.removeAll [k.1] (keys.map (·.1)) = [k.1] := by
            have : k.1 ∉ keys.map (·.1) := by
              rintro hmem
              obtain ⟨a, ha, hak⟩ := List.mem_map.1 hmem
              have := h3 a ha
              omega
            simp only [List.removeAll, List.filter_cons, List.filter_nil]
            rw [if_pos (by simpa using this)]
          rw [this, List.range_succ, List.map_append, List.map_singleton, hkn]
          rfl
        · intro x hx
          rcases List.mem_append.1 hx with hx | hx
          · have := h3 x hx; push_cast; omega
          · simp only [List.mem_singleton] at hx
            subst hx
            push_cast; omega
        · intro x hx
          simp only [List.getLast?_append, List.getLast?_singleton, Option.some_or,
            Option.some.injEq] at hx
          subst hx
          refine ⟨by push_cast; omega, ?_⟩
          rw [hper, if_pos rfl, hempty, hf2]
          rfl
        · rw [List.nodup_append]
          refine ⟨h5, by simp, ?_⟩
          intro a ha b hb
          simp only [List.mem_singleton] at hb
          subst hb
          intro hab
          have := h3 a ha
          rw [hab] at this
          omega

theorem ConsistentSample.inOrder (m : CheckParas) (s : Sample K) (h : ConsistentSample m s) :
    InOrder (s.rows.map fun r => (r.id, r.period)) := by
  refine ⟨fun k hk => ?_, fun p a b ha hb => ?_⟩
  · rw [List.getElem?_map, Option.map_eq_some_iff] at hk
    obtain ⟨r, hr, rfl⟩ := hk
    obtain ⟨h1, h2⟩ := h.first r hr
    rw [h1, h2]
  · rw [List.getElem?_map, Option.map_eq_some_iff] at ha hb
    obtain ⟨ra, hra, rfl⟩ := ha
    obtain ⟨rb, hrb, rfl⟩ := hb
    exact h.next p ra rb hra hrb

/-- The row before is the last one of the same individual, unless this is the first period. -/
theorem lastBefore_consistent (m : CheckParas) (s : Sample K) (h : ConsistentSample m s) (p : Nat)
    (r : DataRow K) (hp : s.rows[p]? = some r) :
    (r.period = 0 ∧ lastBefore s.rows p r.id = none) ∨
    (1 ≤ r.period ∧ ∃ q a, p = q + 1 ∧ s.rows[q]? = some a ∧ a.id = r.id ∧ a.period + 1 = r.period ∧
      lastBefore s.rows p r.id = some a) := by
  have hpl := (List.getElem?_eq_some_iff.1 hp).1
  -- identifiers do not decrease and periods are not negative
  have hmono : ∀ (q : Nat) (b : DataRow K), s.rows[q]? = some b → 0 ≤ b.period ∧
      ∀ (q' : Nat), q' ≤ q → ∀ a, s.rows[q']? = some a → a.id ≤ b.id := by
    intro q
    induction q with
    | zero =>
      intro b hb
      have := h.first b hb
      refine ⟨by omega, fun q' hq' a ha => ?_⟩
      have : q' = 0 := by omega
      subst this
      rw [hb] at ha
      simp only [Option.some.injEq] at ha
      rw [ha]
    | succ q ih =>
      intro b hb
      have hql := (List.getElem?_eq_some_iff.1 hb).1
      have hq : s.rows[q]? = some s.rows[q] := List.getElem?_eq_getElem (by omega)
      obtain ⟨i1, i2⟩ := ih _ hq
      have hf := h.next q _ b hq hb
      simp only [Follows] at hf
      refine ⟨by omega, fun q' hq' a ha => ?_⟩
      rcases Nat.lt_or_ge q' (q + 1) with h1 | h1
      · have := i2 q' (by omega) a ha
        omega
      · have : q' = q + 1 := by omega
        subst this
        rw [hb] at ha
        simp only [Option.some.injEq] at ha
        rw [ha]
  cases p with
  | zero => exact Or.inl ⟨(h.first r hp).2, lastBefore_zero _ _⟩
  | succ q =>
    have hq : s.rows[q]? = some s.rows[q] := List.getElem?_eq_getElem (by omega)
    have hf := h.next q _ r hq hp
    obtain ⟨i1, i2⟩ := hmono q _ hq
    simp only [Follows] at hf
    rcases hf with ⟨f1, f2⟩ | ⟨f1, f2⟩
    · refine Or.inr ⟨by omega, q, _, rfl, hq, f1.symm, by omega, ?_⟩
      rw [lastBefore_succ _ _ _ _ hq, if_pos f1.symm]
    · refine Or.inl ⟨f2, ?_⟩
      cases hl : lastBefore s.rows (q + 1) r.id with
      | none => rfl
      | some a =>
        obtain ⟨h1, q', h2, h3, _⟩ := lastBefore_some s.rows (q + 1) r.id a (by omega) hl
        have := i2 q' (by omega) a h3
        omega

theorem consistent_checks (m : CheckParas) (s : Sample K) (h : ConsistentSample m s) (hw : (0 : K) < 1) :
    checkEstimationData m s = checkLags m s := by
  have hfacts := inOrder_facts _ (h.inOrder m s)
  obtain ⟨hper, ⟨n, hids, -, -⟩, hnd⟩ := hfacts
  have hids : (s.rows.map (·.id)).eraseDups = (List.range n).map (fun i : Nat => (i : Int)) := by
    simpa [List.map_map, Function.comp_def] using hids
  have c1 : checkColumns m s.rows = true := by
    refine List.all_eq_true.2 fun r hr => ?_
    simp [h.exps r hr, (h.lags r hr).1, (h.observables r hr).1]
  have c2 : checkIdentifier s.rows = true := by
    simp [checkIdentifier, hids]
  have c3 : checkValues m s.rows = true := by
    refine List.all_eq_true.2 fun r hr => ?_
    have h1 := h.period r hr
    obtain ⟨c, h2, h3⟩ := h.choice r hr
    have h4 : 0 < r.wage.getD 1 := by
      cases hwr : r.wage with
      | none => exact hw
      | some w => exact h.wage r hr w hwr
    have h5 : r.lags.all (isChoice m) = true := by
      refine List.all_eq_true.2 fun l hl => ?_
      obtain ⟨c', h6, rfl⟩ := (h.lags r hr).2 l hl
      simp [isChoice, h6]
    simp only [Bool.and_eq_true, decide_eq_true_eq, h4, h5, and_true]
    exact ⟨by omega, by rw [h3]; simp [isChoice, h2]⟩
  have c4 : checkObservables m s.rows = true := by
    refine List.all_eq_true.2 ?_
    rintro ⟨k, i⟩ hki
    obtain ⟨values, hv1, hv2⟩ := h.levels i k (by simpa using List.mem_zipIdx_iff_getElem?.1 hki)
    rw [decide_eq_true_eq]
    refine le_trans ?_ hv1
    have hsub : (s.rows.filterMap fun r => (r.observables[i]?).getD none).eraseDups ⊆ values := by
      intro v hv
      rw [mem_eraseDups_iff, List.mem_filterMap] at hv
      obtain ⟨r, hr, hrv⟩ := hv
      cases ho : r.observables[i]? with
      | none => rw [ho] at hrv; simp at hrv
      | some o =>
        rw [ho, Option.getD_some] at hrv
        exact hv2 r hr v (by rw [ho, hrv])
    refine (List.Nodup.subperm ?_ hsub).length_le
    exact nodup_eraseDups _
  have c5 : checkMissing s.rows = true := by
    refine List.all_eq_true.2 fun r hr => ?_
    obtain ⟨c, _, h3⟩ := h.choice r hr
    simp only [Bool.and_eq_true, List.all_eq_true]
    refine ⟨⟨by rw [h3]; rfl, fun l hl => ?_⟩, fun o ho => ?_⟩
    · obtain ⟨c', _, rfl⟩ := (h.lags r hr).2 l hl
      rfl
    · exact Option.isSome_iff_ne_none.2 ((h.observables r hr).2 o ho)
  have c6 : (m.choicesExp.zipIdx.all fun ce => checkExperience s.rows ce.1 ce.2) = true := by
    refine List.all_eq_true.2 ?_
    rintro ⟨c, e⟩ hce
    have hce := List.mem_zipIdx_iff_getElem?.1 hce
    refine List.all_eq_true.2 ?_
    rintro ⟨p, x⟩ hpx
    obtain ⟨r, hr, r', hl, hx⟩ := (mem_shiftColumn _ _ _ _).1 hpx
    rcases lastBefore_consistent m s h p r hr with ⟨_, hn⟩ | ⟨_, q, a, rfl, ha, hid, _, hla⟩
    · rw [hn] at hl; simp at hl
    · rw [hla] at hl
      simp only [Option.some.injEq] at hl
      subst hl
      obtain ⟨y, hy, rfl⟩ := Option.map_eq_some_iff.1 hx
      have := h.experience q a r ha hr hid e c y (by simpa using hce) hy
      rw [decide_eq_true_eq, hr, Option.bind_some, this]
  have c7 : checkDuplicates s.rows = true := by
    simpa [checkDuplicates] using hnd
  have c8 : checkSequence s.rows = true := by
    refine List.all_eq_true.2 fun id hid => ?_
    rw [decide_eq_true_eq]
    obtain ⟨k, hk⟩ := hper id
    have heq : (s.rows.filter fun r => decide (r.id = id)).map (·.period) =
        (List.range k).map fun t : Nat => (t : Int) := by
      rw [← hk, periodsOfKeys, List.filter_map, List.map_map]
      rfl
    rw [heq]
    obtain ⟨r, hr, hrid⟩ := List.mem_map.1 hid
    have hkpos : 0 < k := by
      have : r.period ∈ (s.rows.filter fun r => decide (r.id = id)).map (·.period) :=
        List.mem_map.2 ⟨r, by simp [hr, hrid], rfl⟩
      rw [heq] at this
      simp only [List.mem_map, List.mem_range] at this
      obtain ⟨t, ht, _⟩ := this
      omega
    have hmax : ((List.range k).map fun t : Nat => (t : Int)).max? = some ((k - 1 : Nat) : Int) := by
      rw [List.max?_eq_some_iff]
      refine ⟨List.mem_map.2 ⟨k - 1, by simp; omega, rfl⟩, ?_⟩
      intro b hb
      obtain ⟨t, ht, rfl⟩ := List.mem_map.1 hb
      simp only [List.mem_range] at ht
      omega
    rw [hmax]
    simp only [Option.map_some, List.length_map, List.length_range, Option.some.injEq]
    omega
  unfold checkEstimationData
  rw [c1, c2, c3, c4, c5, c6, c7, c8]
  simp

/-- **C69** A consistent sample with at most two lagged choices is accepted. Missing: more lagged choices,
see `C69_three_lags_false`. -/
theorem C69_partial [IsStrictOrderedRing K] (m : CheckParas) (s : Sample K) (h : ConsistentSample m s)
    (hl : m.nLags ≤ 2) : checkEstimationData m s = true := by
  rw [consistent_checks m s h one_pos, checkLags]
  by_cases hc : 1 < m.nPeriods ∧ 0 < m.nLags
  · rw [if_pos hc, List.all_eq_true]
    intro i hi
    have hi0 : i = 0 := by
      have := List.mem_range.1 hi
      omega
    have hl2 : m.nLags = 2 := by
      have := List.mem_range.1 hi
      omega
    subst hi0
    rw [checkLag, decide_eq_true_eq, shiftColumn, List.map_filterMap]
    refine List.filterMap_congr ?_
    rintro ⟨r, p⟩ hrp
    have hp := List.mem_zipIdx_iff_getElem?.1 hrp
    simp only at hp ⊢
    rcases lastBefore_consistent m s h p r hp with ⟨h1, hn⟩ | ⟨h1, q, a, rfl, ha, hid, _, hla⟩
    · rw [hn, if_pos (by rw [h1]; simp)]
      rfl
    · obtain ⟨c, _, hc⟩ := h.choice a (List.mem_of_getElem? ha)
      have hlag := h.lagged q a r ha hp hid
      rw [if_neg (by simp only [Nat.cast_zero]; omega), hla]
      simp only [Option.bind_some, DataRow.choiceVar, if_true, hc, Option.map_some, zero_add]
      rw [if_neg (by decide), hlag, hl2, h.categories 1 0]
      simp [hc]
  · rw [if_neg hc]

/-- A consistent sample with three or more lagged choices is always rejected if an individual is observed
twice: the compared series have different indices. -/
theorem C69_three_lags_false (m : CheckParas) (s : Sample K) (h : ConsistentSample m s)
    (hl : 3 ≤ m.nLags) (r : DataRow K) (hr : r ∈ s.rows) (hper : r.period = 1) :
    checkEstimationData m s = false := by
  by_contra hacc
  rw [Bool.not_eq_false] at hacc
  obtain ⟨-, -, -, hlags, -⟩ := checkEstimationData_parts m s hacc
  have hpos := h.period r hr
  rw [checkLags, if_pos ⟨by omega, by omega⟩, List.all_eq_true] at hlags
  have h1 := hlags 1 (List.mem_range.2 (by omega))
  rw [checkLag, decide_eq_true_eq] at h1
  obtain ⟨p, hp⟩ := List.getElem?_of_mem hr
  rcases lastBefore_consistent m s h p r hp with ⟨h2, _⟩ | ⟨_, q, a, rfl, ha, hid, _, hla⟩
  · omega
  · have ham := List.mem_of_getElem? ha
    obtain ⟨hlen, hch⟩ := h.lags a ham
    have h0 : 0 < a.lags.length := by omega
    obtain ⟨c, _, hc⟩ := hch _ (List.getElem_mem h0)
    have hin : (q + 1, c) ∈ shiftColumn s.rows fun r => r.choiceVar 1 := by
      refine (mem_shiftColumn _ _ _ _).2 ⟨r, hp, a, hla, ?_⟩
      simp only [DataRow.choiceVar]
      rw [if_neg (by decide), List.getElem?_eq_getElem (by simpa using h0), Option.getD_some]
      exact hc
    have hin2 := List.mem_map_of_mem (f := fun x : Nat × Str =>
      (x.1, categoryCode (s.categories 1) (some x.2))) hin
    rw [← h1, List.mem_filterMap] at hin2
    obtain ⟨⟨r', p'⟩, hrp', heq⟩ := hin2
    have hrp' := List.mem_zipIdx_iff_getElem?.1 hrp'
    simp only at hrp' heq
    by_cases hle : r'.period ≤ ((1 : Nat) : Int)
    · rw [if_pos hle] at heq; simp at heq
    · rw [if_neg hle] at heq
      simp only [Option.some.injEq, Prod.mk.injEq] at heq
      rw [heq.1, hp] at hrp'
      simp only [Option.some.injEq] at hrp'
      rw [← hrp', hper] at hle
      simp at hle

/-- A consistent sample with three lagged choices and two periods exists, so that data are rejected although
they are consistent. -/
theorem C69_false : ∃ (m : CheckParas) (s : Sample ℚ), ConsistentSample m s ∧
    checkEstimationData m s = false := by
  refine ⟨{ exampleParas with nLags := 3, levels := [], choicesExp := [] },
    ⟨[⟨0, 0, some "a".toList, none, [], [some "a".toList, some "h".toList, some "h".toList], []⟩,
      ⟨0, 1, some "h".toList, none, [], [some "a".toList, some "a".toList, some "h".toList], []⟩],
      fun _ => exampleParas.choices⟩, ?_, by decide +kernel⟩
  refine ⟨?_, ?_, by decide +kernel, by decide +kernel, by decide +kernel, by simp, by decide +kernel,
    by decide +kernel, by simp, by simp, ?_, fun _ _ => rfl⟩
  · intro r hr
    simp only [List.getElem?_cons_zero, Option.some.injEq] at hr
    rw [← hr]; exact ⟨rfl, rfl⟩
  · intro p a b ha hb
    match p with
    | 0 =>
      simp only [List.getElem?_cons_zero, List.getElem?_cons_succ, Option.some.injEq, zero_add] at ha hb
      rw [← ha, ← hb]
      left; exact ⟨rfl, rfl⟩
    | p + 1 => simp at hb
  · intro p a b ha hb _
    match p with
    | 0 =>
      simp only [List.getElem?_cons_zero, List.getElem?_cons_succ, Option.some.injEq, zero_add] at ha hb
      rw [← ha, ← hb]
      rfl
    | p + 1 => simp at hb

/-- The hypotheses of `C69_partial` are met by `exampleSample`. -/
example : ConsistentSample exampleParas exampleSample ∧ exampleParas.nLags ≤ 2 := by
  refine ⟨⟨?_, ?_, by decide +kernel, by decide +kernel, by decide +kernel, ?_, by decide +kernel,
    by decide +kernel, ?_, ?_, ?_, fun _ _ => rfl⟩, by decide⟩
  · intro r hr
    simp only [exampleSample, List.getElem?_cons_zero, Option.some.injEq] at hr
    rw [← hr]; exact ⟨rfl, rfl⟩
  · intro p a b ha hb
    match p with
    | 0 =>
      simp only [exampleSample, List.getElem?_cons_zero, List.getElem?_cons_succ, Option.some.injEq, zero_add] at ha hb
      rw [← ha, ← hb]
      left; exact ⟨rfl, rfl⟩
    | 1 =>
      simp only [exampleSample, List.getElem?_cons_zero, List.getElem?_cons_succ, Option.some.injEq,
        Nat.reduceAdd] at ha hb
      rw [← ha, ← hb]
      right; exact ⟨rfl, rfl⟩
    | p + 2 => simp [exampleSample] at hb
  · intro r hr w hw
    simp only [exampleSample, List.mem_cons, List.not_mem_nil, or_false] at hr
    rcases hr with rfl | rfl | rfl <;> simp at hw <;> rw [← hw] <;> decide +kernel
  · intro i n hi
    match i with
    | 0 =>
      simp only [exampleParas, List.getElem?_cons_zero, Option.some.injEq] at hi
      refine ⟨["x".toList, "y".toList], by rw [← hi]; decide, ?_⟩
      intro r hr v hv
      simp only [exampleSample, List.mem_cons, List.not_mem_nil, or_false] at hr
      rcases hr with rfl | rfl | rfl <;>
        simp only [List.getElem?_cons_zero, Option.some.injEq] at hv <;> rw [← hv] <;> decide +kernel
    | i + 1 => simp [exampleParas] at hi
  · intro p a b ha hb hid e c x hc hx
    match p with
    | 0 =>
      simp only [exampleSample, List.getElem?_cons_zero, List.getElem?_cons_succ, Option.some.injEq, zero_add] at ha hb
      match e with
      | 0 =>
        simp only [exampleParas, List.getElem?_cons_zero, Option.some.injEq] at hc
        rw [← ha] at hx ⊢
        rw [← hb, ← hc]
        simp only [List.getElem?_cons_zero, Option.some.injEq] at hx
        rw [← hx]
        decide +kernel
      | e + 1 => simp [exampleParas] at hc
    | 1 =>
      simp only [exampleSample, List.getElem?_cons_zero, List.getElem?_cons_succ, Option.some.injEq,
        Nat.reduceAdd] at ha hb
      rw [← ha, ← hb] at hid
      simp at hid
    | p + 2 => simp [exampleSample] at hb
  · intro p a b ha hb hid
    match p with
    | 0 =>
      simp only [exampleSample, List.getElem?_cons_zero, List.getElem?_cons_succ, Option.some.injEq, zero_add] at ha hb
      rw [← ha, ← hb]
      rfl
    | 1 =>
      simp only [exampleSample, List.getElem?_cons_zero, List.getElem?_cons_succ, Option.some.injEq,
        Nat.reduceAdd] at ha hb
      rw [← ha, ← hb] at hid
      simp at hid
    | p + 2 => simp [exampleSample] at hb

end Respy
