import Verif.Model.ParseParams
import Verif.Props.Types
import Verif.Props.Choices
import Verif.Props.Levels
import Verif.Lemmas.CoreStateSpace2
import Verif.Lemmas.DictUpdate

/-!
# C78: lagged choices

The number of lags is inferred from the formulas of covariates, the distribution of the lags from the parameters.
-/

namespace Respy

/-! ### The search without word boundaries -/

theorem findAllPlainFuel_sound (pre : Str) (cls : Char → Bool) (fuel : Nat) (s g : Str)
    (h : g ∈ findAllPlainFuel pre cls fuel s) :
    pre ++ g <:+: s ∧ g ≠ [] ∧ ∀ c ∈ g, cls c = true := by
  induction fuel generalizing s with
  | zero => simp [findAllPlainFuel] at h
  | succ fuel ih =>
    unfold findAllPlainFuel at h
    split at h
    · next hm =>
      obtain ⟨h1, h2⟩ := hm
      rw [List.isPrefixOf_iff_prefix] at h1
      obtain ⟨t, rfl⟩ := h1
      rw [List.drop_left] at h h2
      rcases List.mem_cons.1 h with rfl | h
      · refine ⟨⟨[], t.dropWhile cls, ?_⟩, h2, fun c hc => List.all_eq_true.1 List.all_takeWhile c hc⟩
        rw [List.nil_append, List.append_assoc, List.takeWhile_append_dropWhile]
      · obtain ⟨h4, h5, h6⟩ := ih _ h
        refine ⟨h4.trans ?_, h5, h6⟩
        exact ((List.dropWhile_suffix cls).trans (List.suffix_append pre t)).isInfix
    · split at h
      · simp at h
      · next c s' _ =>
        obtain ⟨h4, h5, h6⟩ := ih s' h
        exact ⟨h4.trans (List.suffix_cons c s').isInfix, h5, h6⟩

theorem takeWhile_run (cls : Char → Bool) (g r : Str) (hg : ∀ c ∈ g, cls c = true)
    (hr : ∀ c, r.head? = some c → cls c = false) :
    (g ++ r).takeWhile cls = g ∧ (g ++ r).dropWhile cls = r := by
  induction g with
  | nil =>
    cases r with
    | nil => simp
    | cons c r => simp [hr c rfl]
  | cons c g ih =>
    have := ih (fun c' h' => hg c' (by simp [h']))
    simp [hg c (by simp), this]

/-- Occurrences do not overlap if the first character of the prefix occurs nowhere else in a match. -/
theorem findAllPlainFuel_complete (x : Char) (pre : Str) (cls : Char → Bool) (hx : x ∉ pre)
    (hcls : cls x = false) (fuel : Nat) (a g r : Str) (hg0 : g ≠ []) (hg : ∀ c ∈ g, cls c = true)
    (hr : ∀ c, r.head? = some c → cls c = false) (hf : (a ++ (x :: pre) ++ g ++ r).length < fuel) :
    g ∈ findAllPlainFuel (x :: pre) cls fuel (a ++ (x :: pre) ++ g ++ r) := by
  induction fuel generalizing a with
  | zero => omega
  | succ fuel ih =>
    unfold findAllPlainFuel
    split
    · next hm =>
      obtain ⟨h1, h2⟩ := hm
      rw [List.isPrefixOf_iff_prefix] at h1
      cases a with
      | nil =>
        rw [List.nil_append, List.append_assoc, List.drop_left, (takeWhile_run cls g r hg hr).1]
        exact List.mem_cons_self
      | cons y a =>
        -- the earlier match ends before the occurrence
        refine List.mem_cons_of_mem _ ?_
        obtain ⟨t, ht⟩ := h1
        have hy : y = x := by simpa using congrArg List.head? ht.symm
        subst hy
        have ht' : pre ++ t = a ++ (y :: pre) ++ g ++ r := by simpa using ht
        -- `pre` is a prefix of `a`, as it does not contain `y`
        have hpa : pre <+: a := by
          rcases List.prefix_or_prefix_of_prefix (List.prefix_append pre t)
            (show a <+: pre ++ t by rw [ht', List.append_assoc, List.append_assoc]; exact List.prefix_append _ _)
            with h | h
          · exact h
          · obtain ⟨u, hu⟩ := h
            cases u with
            | nil => rw [← hu, List.append_nil]
            | cons z u =>
              exfalso
              rw [← hu, List.append_assoc, List.append_assoc, List.append_assoc,
                List.append_cancel_left_eq] at ht'
              have : z = y := by simpa using congrArg List.head? ht'
              exact hx (by rw [← hu, this]; simp)
        obtain ⟨u, hu⟩ := hpa
        have hdrop : (y :: a ++ (y :: pre) ++ g ++ r).drop (y :: pre).length = u ++ (y :: pre) ++ g ++ r := by
          rw [← hu]; simp
        rw [hdrop]
        have hw : ∃ u', (u ++ (y :: pre) ++ g ++ r).dropWhile cls = u' ++ (y :: pre) ++ g ++ r ∧
            u'.length ≤ u.length := by
          clear hdrop hu
          induction u with
          | nil => exact ⟨[], by simp [hcls], le_rfl⟩
          | cons z u ihu =>
            by_cases hz : cls z = true
            · obtain ⟨u', h3, h4⟩ := ihu
              exact ⟨u', by simpa [hz] using h3, by simp; omega⟩
            · exact ⟨z :: u, by simp [hz], le_rfl⟩
        obtain ⟨u', h3, h4⟩ := hw
        rw [h3]
        refine ih u' ?_
        have hul : u.length ≤ a.length := by rw [← hu]; simp
        simp only [List.length_append, List.length_cons] at hf ⊢
        omega
    · next hm =>
      cases a with
      | nil =>
        exfalso
        apply hm
        rw [List.nil_append, List.append_assoc, List.drop_left, (takeWhile_run cls g r hg hr).1]
        exact ⟨isPrefixOf_append_self _ _, hg0⟩
      | cons y a =>
        simp only [List.cons_append]
        have := ih a (by simp only [List.length_append, List.length_cons] at hf ⊢; omega)
        simpa using this

theorem digitsValue_toDigits (i : Nat) : digitsValue (Nat.toDigits 10 i) = i := by
  have := Nat.ofDigitChars_toDigits (b := 10) (n := i) (by omega) (by omega)
  rw [Nat.ofDigitChars_eq_foldl] at this
  exact this

/-! ### The number of lags -/

/-- C78 (number of lags). For all covariates: a lag mentioned in a formula as `lagged_choice_{k}` is at most the
number of lags, and the number of lags is mentioned in a formula unless it is zero. -/
theorem C78_number_of_lags (covariates : Dict Str Str) :
    (∀ cf ∈ covariates, ∀ (k : Nat) (a r : Str),
      cf.2 = a ++ "lagged_choice_".toList ++ Nat.toDigits 10 k ++ r →
      (∀ c, r.head? = some c → c.isDigit = false) → k ≤ numberOfLags covariates) ∧
    (numberOfLags covariates = 0 ∨ ∃ cf ∈ covariates, ∃ ds : Str, ds ≠ [] ∧
      (∀ c ∈ ds, c.isDigit = true) ∧ "lagged_choice_".toList ++ ds <:+: cf.2 ∧
      digitsValue ds = numberOfLags covariates) := by
  obtain ⟨_, hle, hmem⟩ := foldl_max_ge ((covariates.flatMap fun cf =>
    findAllPlain "lagged_choice_".toList Char.isDigit cf.2).map digitsValue) 0
  constructor
  · intro cf hcf k a r he hr
    refine hle k ?_
    refine List.mem_map.2 ⟨Nat.toDigits 10 k, List.mem_flatMap.2 ⟨cf, hcf, ?_⟩, digitsValue_toDigits k⟩
    unfold findAllPlain
    rw [he]
    exact findAllPlainFuel_complete 'l' "agged_choice_".toList Char.isDigit (by decide) (by decide) _ a _ r
      Nat.toDigits_ne_nil (fun c hc => Nat.isDigit_of_mem_toDigits (by omega) (by omega) hc) hr
      (Nat.lt_succ_self _)
  · rcases hmem with h | h
    · exact .inl h
    · right
      obtain ⟨ds, hds, e⟩ := List.mem_map.1 h
      obtain ⟨cf, hcf, hds⟩ := List.mem_flatMap.1 hds
      obtain ⟨h1, h2, h3⟩ := findAllPlainFuel_sound _ _ _ _ _ hds
      exact ⟨cf, hcf, ds, h2, h3, h1, e⟩

/-- Two lags, the second one is mentioned in the second formula. -/
example : numberOfLags [("was_edu".toList, "lagged_choice_1 == 'edu'".toList),
    ("long_edu".toList, "lagged_choice_1 == 'edu' and lagged_choice_2 == 'edu'".toList)] = 2 := by decide

/-! ### The distributions -/

/-- The category of the parameters of a lag and a choice, as documented. -/
def lagCategory (lag : Nat) (choice : Str) : Str :=
  "lagged_choice_".toList ++ Nat.toDigits 10 lag ++ ['_'] ++ choice

/-- The parsed level of a category. -/
def lagLevel (lag : Nat) (cat : Str) : Option Str :=
  (findAllPlain ("lagged_choice_".toList ++ Nat.toDigits 10 lag ++ ['_']) isNameChar cat).head?

theorem lagLevel_own (lag : Nat) (c : Str) (hc : c ≠ []) (hn : ∀ x ∈ c, isNameChar x = true) :
    lagLevel lag (lagCategory lag c) = some c := by
  unfold lagLevel findAllPlain lagCategory findAllPlainFuel
  rw [List.drop_left]
  have h := (takeWhile_run isNameChar c [] hn (by simp)).1
  rw [List.append_nil] at h
  rw [h, if_pos ⟨isPrefixOf_append_self _ _, hc⟩]
  rfl

theorem dropWhile_append_neg (p : Char → Bool) (a b : Str) (x : Char) (hx : p x = false) :
    ∃ t, (a ++ x :: b).dropWhile p = t ++ x :: b := by
  induction a with
  | nil => exact ⟨[], by simp [hx]⟩
  | cons y a ih =>
    by_cases hy : p y = true
    · obtain ⟨t, ht⟩ := ih
      exact ⟨t, by simpa [hy] using ht⟩
    · exact ⟨y :: a, by simp [hy]⟩

theorem toDigits_digit (k : Nat) (c : Char) (hc : c ∈ Nat.toDigits 10 k) : c.isDigit = true :=
  Nat.isDigit_of_mem_toDigits (by omega) (by omega) hc

theorem not_digit_of_name (c : Char) (h : isNameChar c = true) : c.isDigit = false := by
  simp only [isNameChar, Bool.or_eq_true, decide_eq_true_eq, Char.isAlpha, Char.isUpper, Char.isLower] at h
  rw [Bool.eq_false_iff]
  intro hd
  simp only [Char.isDigit, Bool.and_eq_true, decide_eq_true_eq] at hd h
  rcases h with (h | h) | h
  · have h1 := h.1
    have h2 := hd.2
    rw [ge_iff_le, UInt32.le_iff_toNat_le] at h1
    rw [UInt32.le_iff_toNat_le] at h2
    have a1 : 'A'.val.toNat = 65 := rfl
    have a2 : '9'.val.toNat = 57 := rfl
    omega
  · have h1 := h.1
    have h2 := hd.2
    rw [ge_iff_le, UInt32.le_iff_toNat_le] at h1
    rw [UInt32.le_iff_toNat_le] at h2
    have a1 : 'a'.val.toNat = 97 := rfl
    have a2 : '9'.val.toNat = 57 := rfl
    omega
  · rw [h] at hd
    exact absurd hd (by decide)

/-- Only categories of the same lag contain the text of the lag. -/
theorem lagCategory_infix (lag k : Nat) (c : Str) (hn : ∀ x ∈ c, isNameChar x = true)
    (h : "lagged_choice_".toList ++ Nat.toDigits 10 lag ++ ['_'] <:+: lagCategory k c) : lag = k := by
  have hnd : ∀ x ∈ '_' :: c, x.isDigit = false := by
    intro x hx
    rcases List.mem_cons.1 hx with rfl | hx
    · decide
    · exact not_digit_of_name x (hn x hx)
  have hL : ∀ x ∈ "lagged_choice_".toList, (!x.isDigit) = true := by decide
  obtain ⟨a, b, e⟩ := h
  have hD : ∃ d ds, Nat.toDigits 10 lag = d :: ds := List.exists_cons_of_ne_nil Nat.toDigits_ne_nil
  have hD' : ∃ d ds, Nat.toDigits 10 k = d :: ds := List.exists_cons_of_ne_nil Nat.toDigits_ne_nil
  obtain ⟨d, ds, hd⟩ := hD
  obtain ⟨d', ds', hd'⟩ := hD'
  -- the text before the first digit
  have hrun' : (lagCategory k c).takeWhile (fun x => !x.isDigit) = "lagged_choice_".toList ∧
      (lagCategory k c).dropWhile (fun x => !x.isDigit) = Nat.toDigits 10 k ++ '_' :: c := by
    have := takeWhile_run (fun x => !x.isDigit) "lagged_choice_".toList (Nat.toDigits 10 k ++ '_' :: c) hL
      (by
        intro x hx
        rw [hd'] at hx
        have : x = d' := by simpa using hx.symm
        have h2 := toDigits_digit k d' (by rw [hd']; simp)
        rw [this, h2]; rfl)
    have e2 : lagCategory k c = "lagged_choice_".toList ++ (Nat.toDigits 10 k ++ '_' :: c) := by
      unfold lagCategory
      rw [List.append_assoc, List.append_assoc]
      rfl
    rw [e2]
    exact this
  have hrest : (Nat.toDigits 10 k ++ '_' :: c).dropWhile Char.isDigit = '_' :: c :=
    (takeWhile_run Char.isDigit (Nat.toDigits 10 k) ('_' :: c) (fun x hx => toDigits_digit k x hx)
      (by intro x hx; have : x = '_' := by simpa using hx.symm
          rw [this]; decide)).2
  by_cases hdig : ∃ x ∈ a, x.isDigit = true
  · exfalso
    -- the digits of `lag` would follow a text which is not made of digits
    have hfind : ∃ a1 x a2, a = a1 ++ x :: a2 ∧ x.isDigit = true ∧ ∀ y ∈ a1, (!y.isDigit) = true := by
      clear e
      induction a with
      | nil => obtain ⟨x, hx, _⟩ := hdig; simp at hx
      | cons y a ih =>
        by_cases hy : y.isDigit = true
        · exact ⟨[], y, a, rfl, hy, by simp⟩
        · have hex : ∃ x ∈ a, x.isDigit = true := by
            obtain ⟨x, hx, hxd⟩ := hdig
            rcases List.mem_cons.1 hx with rfl | hx
            · exact absurd hxd hy
            · exact ⟨x, hx, hxd⟩
          obtain ⟨a1, x, a2, rfl, h1, h2⟩ := ih hex
          refine ⟨y :: a1, x, a2, rfl, h1, ?_⟩
          intro z hz
          rcases List.mem_cons.1 hz with rfl | hz
          · simpa using hy
          · exact h2 z hz
    obtain ⟨a1, x, a2, rfl, hx, ha1⟩ := hfind
    have e3 : lagCategory k c = a1 ++ (x :: a2 ++ 'l' :: ("agged_choice_".toList ++ Nat.toDigits 10 lag ++
        '_' :: b)) := by
      rw [← e]; simp
    have h4 := (takeWhile_run (fun x => !x.isDigit) a1 (x :: a2 ++ 'l' :: ("agged_choice_".toList ++
      Nat.toDigits 10 lag ++ '_' :: b)) ha1 (by
        intro y hy
        have : y = x := by simpa using hy.symm
        rw [this, hx]; rfl)).2
    rw [← e3, hrun'.2] at h4
    obtain ⟨t, ht⟩ := dropWhile_append_neg Char.isDigit (x :: a2) ("agged_choice_".toList ++
      Nat.toDigits 10 lag ++ '_' :: b) 'l' (by decide)
    rw [← h4, hrest] at ht
    have hmem : d ∈ '_' :: c := by
      rw [ht, hd]; simp
    have h5 := hnd d hmem
    have h6 := toDigits_digit lag d (by rw [hd]; simp)
    rw [h6] at h5
    cases h5
  · push Not at hdig
    have ha : ∀ x ∈ a ++ "lagged_choice_".toList, (!x.isDigit) = true := by
      intro x hx
      rcases List.mem_append.1 hx with hx | hx
      · have := hdig x hx
        simpa using this
      · exact hL x hx
    have e3 : lagCategory k c = (a ++ "lagged_choice_".toList) ++ (Nat.toDigits 10 lag ++ '_' :: b) := by
      rw [← e]; simp
    have h4 := takeWhile_run (fun x => !x.isDigit) (a ++ "lagged_choice_".toList)
      (Nat.toDigits 10 lag ++ '_' :: b) ha (by
        intro y hy
        rw [hd] at hy
        have : y = d := by simpa using hy.symm
        have h2 := toDigits_digit lag d (by rw [hd]; simp)
        rw [this, h2]; rfl)
    rw [← e3, hrun'.2] at h4
    have h5 := (takeWhile_run Char.isDigit (Nat.toDigits 10 lag) ('_' :: b)
      (fun x hx => toDigits_digit lag x hx) (by intro x hx; have : x = '_' := by simpa using hx.symm
                                                rw [this]; decide)).1
    have h6 := (takeWhile_run Char.isDigit (Nat.toDigits 10 k) ('_' :: c)
      (fun x hx => toDigits_digit k x hx) (by intro x hx; have : x = '_' := by simpa using hx.symm
                                              rw [this]; decide)).1
    rw [← h4.2, h6] at h5
    have := congrArg digitsValue h5
    rw [digitsValue_toDigits, digitsValue_toDigits] at this
    exact this.symm

theorem lagLevel_sound (lag : Nat) (cat l : Str) (h : lagLevel lag cat = some l) :
    "lagged_choice_".toList ++ Nat.toDigits 10 lag ++ ['_'] <:+: cat := by
  obtain ⟨h1, _, _⟩ := findAllPlainFuel_sound _ _ _ _ _ (List.mem_of_head? h)
  exact (List.prefix_append _ l).isInfix.trans h1

/-- The categories of lagged choices in the parameters are as documented. -/
def LagCategoriesWF (params : List ((Str × Str) × ℝ)) : Prop :=
  ∀ p ∈ params, "lagged_choice_".toList <:+: p.1.1 →
    ∃ k c, p.1.1 = lagCategory k c ∧ c ≠ [] ∧ ∀ x ∈ c, isNameChar x = true

theorem lagCategory_inj {k k' : Nat} {c c' : Str} (h : lagCategory k c = lagCategory k' c')
    (hn' : ∀ x ∈ c', isNameChar x = true) : k = k' ∧ c = c' := by
  have hk : k = k' := by
    apply lagCategory_infix k k' c' hn'
    rw [← h]
    exact (List.prefix_append _ c).isInfix
  subst hk
  exact ⟨rfl, List.append_cancel_left h⟩

theorem lagLevel_iff (params : List ((Str × Str) × ℝ)) (hwf : LagCategoriesWF params) (lag : Nat)
    (p : (Str × Str) × ℝ) (hp : p ∈ params) (l : Str) :
    lagLevel lag p.1.1 = some l ↔
      p.1.1 = lagCategory lag l ∧ l ≠ [] ∧ ∀ x ∈ l, isNameChar x = true := by
  constructor
  · intro h
    have hin := lagLevel_sound lag _ _ h
    have hpre : "lagged_choice_".toList <:+: p.1.1 := by
      refine List.IsInfix.trans ?_ hin
      rw [List.append_assoc]
      exact (List.prefix_append _ _).isInfix
    obtain ⟨k, c, e, hc, hn⟩ := hwf p hp hpre
    rw [e] at hin
    have hk := lagCategory_infix lag k c hn hin
    subst hk
    rw [e, lagLevel_own lag c hc hn] at h
    injection h with h
    subst h
    exact ⟨e, hc, hn⟩
  · rintro ⟨e, hc, hn⟩
    rw [e]
    exact lagLevel_own lag l hc hn

theorem lagParams_eq (lag : Nat) (params : List ((Str × Str) × ℝ)) :
    lagParams lag params = params.filterMap fun p => (lagLevel lag p.1.1).map fun l => ⟨l, p.1.2, p.2⟩ := rfl

theorem lagParams_filter (lag : Nat) (l : Str) (params : List ((Str × Str) × ℝ)) :
    ((lagParams lag params).filter fun r => r.level = l).map (fun r => (r.name, r.value)) =
      (params.filter fun p => lagLevel lag p.1.1 = some l).map fun p => (p.1.2, p.2) := by
  rw [lagParams_eq]
  induction params with
  | nil => rfl
  | cons p params ih =>
    cases hj : lagLevel lag p.1.1 with
    | none => simpa [hj] using ih
    | some j =>
      by_cases hji : j = l
      · subst hji; simpa [hj] using ih
      · simpa [hj, hji] using ih

theorem mem_lagParams_levels (lag : Nat) (params : List ((Str × Str) × ℝ)) (l : Str) :
    l ∈ (lagParams lag params).map GroupParam.level ↔ ∃ p ∈ params, lagLevel lag p.1.1 = some l := by
  rw [lagParams_eq]
  simp only [List.mem_map, List.mem_filterMap, Option.map_eq_some_iff]
  constructor
  · rintro ⟨r, ⟨p, hp, l', h, rfl⟩, rfl⟩
    exact ⟨p, hp, h⟩
  · rintro ⟨p, hp, h⟩
    exact ⟨_, ⟨p, hp, l, h, rfl⟩, rfl⟩

/-- C78 (distributions of lags). For all choices and all parameters whose categories of lagged choices are
`lagged_choice_{k}_{choice}`: the distribution of a lag has an entry for every choice, in the order of choices, and
then an entry for every other label in the parameters of this lag. Without parameters for the lag all choices have
the same weight. With parameters for the lag a choice without own parameters has the weight `MIN_FLOAT`, and every
label with logit coefficients has exactly its own coefficients. -/
theorem C78_distribution (maxFloat minFloat : ℝ) (choices : List Str) (hch : choices.Nodup) (lag : Nat)
    (params : List ((Str × Str) × ℝ)) (hwf : LagCategoriesWF params) (d : Dict Str (List (Str × ℝ)))
    (h : lagDistribution maxFloat minFloat choices lag params = .ok d) :
    choices <+: Dict.keys d ∧ (Dict.keys d).Nodup ∧
    (∀ l, l ∈ Dict.keys d ↔ l ∈ choices ∨
      (l ≠ [] ∧ (∀ x ∈ l, isNameChar x = true) ∧ ∃ p ∈ params, p.1.1 = lagCategory lag l)) ∧
    ((∀ p ∈ params, ∀ l, p.1.1 ≠ lagCategory lag l) →
      ∀ c ∈ choices, Dict.get? d c = some [("constant".toList, 0)]) ∧
    ((∃ p ∈ params, ∃ l, p.1.1 = lagCategory lag l) →
      ∀ c ∈ choices, (∀ p ∈ params, p.1.1 ≠ lagCategory lag c) →
        Dict.get? d c = some [("constant".toList, minFloat)]) ∧
    ((∀ p ∈ params, (∃ l, p.1.1 = lagCategory lag l) → p.1.2 ≠ "probability".toList) →
      ∀ l, (∃ p ∈ params, p.1.1 = lagCategory lag l) →
        Dict.get? d l = some ((params.filter fun p => p.1.1 = lagCategory lag l).map fun p => (p.1.2, p.2))) := by
  -- a category of this lag is well formed
  have hcat : ∀ p ∈ params, ∀ l, p.1.1 = lagCategory lag l → l ≠ [] ∧ ∀ x ∈ l, isNameChar x = true := by
    intro p hp l e
    have hin : "lagged_choice_".toList ++ Nat.toDigits 10 lag ++ ['_'] <:+: p.1.1 := by
      rw [e]; exact (List.prefix_append _ l).isInfix
    have hpre : "lagged_choice_".toList <:+: p.1.1 := by
      refine List.IsInfix.trans ?_ hin
      rw [List.append_assoc]
      exact (List.prefix_append _ _).isInfix
    obtain ⟨k, c, e', hc, hn⟩ := hwf p hp hpre
    rw [e'] at hin
    have hk := lagCategory_infix lag k c hn hin
    subst hk
    rw [e] at e'
    have : l = c := List.append_cancel_left e'
    subst this
    exact ⟨hc, hn⟩
  have hiff : ∀ p ∈ params, ∀ l, lagLevel lag p.1.1 = some l ↔ p.1.1 = lagCategory lag l := by
    intro p hp l
    rw [lagLevel_iff params hwf lag p hp l]
    exact ⟨fun h => h.1, fun e => ⟨e, hcat p hp l e⟩⟩
  have hkeys0 : ∀ v : List (Str × ℝ), Dict.keys (Dict.ofItems (choices.map fun c => (c, v))) = choices := by
    intro v
    rw [Dict.ofItems_of_nodup _ (by simpa [Function.comp_def] using hch)]
    simp [Dict.keys, Function.comp_def]
  have hget0 : ∀ (v : List (Str × ℝ)), ∀ c ∈ choices,
      Dict.get? (Dict.ofItems (choices.map fun c => (c, v))) c = some v := by
    intro v c hc
    apply Dict.get?_ofItems_of_mem
    · simpa [Function.comp_def] using hch
    · exact List.mem_map.2 ⟨c, hc, rfl⟩
  unfold lagDistribution at h
  cases hg : parseGroup maxFloat (lagParams lag params) with
  | error e => rw [hg] at h; cases h
  | ok r =>
    rw [hg] at h
    cases r with
    | none =>
      have hd : Dict.ofItems (choices.map fun c => (c, [("constant".toList, (0 : ℝ))])) = d :=
        Except.ok.inj h
      have hempty : lagParams lag params = [] := by
        unfold parseGroup at hg
        split at hg
        · next h0 => exact List.length_eq_zero_iff.1 h0
        · dsimp only at hg
          split at hg
          · cases hg
          · split at hg <;> cases hg
      have hno : ∀ p ∈ params, ∀ l, p.1.1 ≠ lagCategory lag l := by
        intro p hp l e
        have := (mem_lagParams_levels lag params l).2 ⟨p, hp, (hiff p hp l).2 e⟩
        rw [hempty] at this
        simp at this
      subst hd
      refine ⟨?_, Dict.nodup_keys_ofItems _, ?_, ?_, ?_, ?_⟩
      · rw [hkeys0]
      · intro l
        rw [hkeys0]
        refine ⟨.inl, ?_⟩
        rintro (h | ⟨_, _, p, hp, e⟩)
        · exact h
        · exact absurd e (hno p hp l)
      · intro _ c hc
        exact hget0 _ c hc
      · rintro ⟨p, hp, l, e⟩
        exact absurd e (hno p hp l)
      · rintro _ l ⟨p, hp, e⟩
        exact absurd e (hno p hp l)
    | some parsed =>
      have hd : (Dict.ofItems (choices.map fun c => (c, [("constant".toList, minFloat)]))).update parsed = d :=
        Except.ok.inj h
      have hk := parseGroup_keys _ _ _ hg
      have hpk : ∀ l, l ∈ Dict.keys parsed ↔ ∃ p ∈ params, p.1.1 = lagCategory lag l := by
        intro l
        rw [hk]
        rw [mem_insertionSort_dedup, mem_lagParams_levels]
        exact exists_congr fun p => and_congr_right fun hp => hiff p hp l
      have hpn : (Dict.keys parsed).Nodup := by
        rw [hk]
        refine ((List.perm_insertionSort _ _).nodup_iff).2 ?_
        exact @List.nodup_dedup _ (fun a b => LinearOrder.toDecidableEq a b) _
      have hsome : ∃ p ∈ params, ∃ l, p.1.1 = lagCategory lag l := by
        have hne : lagParams lag params ≠ [] := by
          intro h0
          rw [h0] at hg
          unfold parseGroup at hg
          cases hg
        obtain ⟨r, rs, hr⟩ := List.exists_cons_of_ne_nil hne
        have : r.level ∈ (lagParams lag params).map GroupParam.level := by rw [hr]; simp
        obtain ⟨p, hp, h1⟩ := (mem_lagParams_levels lag params r.level).1 this
        exact ⟨p, hp, r.level, (hiff p hp _).1 h1⟩
      subst hd
      refine ⟨?_, ?_, ?_, ?_, ?_, ?_⟩
      · have := keys_prefix_update
          (Dict.ofItems (choices.map fun c => (c, [("constant".toList, minFloat)]))) parsed
        rwa [hkeys0] at this
      · exact Dict.nodup_keys_update _ _ (Dict.nodup_keys_ofItems _)
      · intro l
        rw [Dict.mem_keys_update, hkeys0]
        have : l ∈ List.map Prod.fst parsed ↔ ∃ p ∈ params, p.1.1 = lagCategory lag l := hpk l
        rw [this]
        constructor
        · rintro (h | ⟨p, hp, e⟩)
          · exact .inl h
          · exact .inr ⟨(hcat p hp l e).1, (hcat p hp l e).2, p, hp, e⟩
        · rintro (h | ⟨_, _, h⟩)
          · exact .inl h
          · exact .inr h
      · intro hno
        obtain ⟨p, hp, l, e⟩ := hsome
        exact absurd e (hno p hp l)
      · intro _ c hc hno
        rw [get?_update_of_not_mem _ _ _ (by rw [hpk]; rintro ⟨p, hp, e⟩; exact hno p hp e)]
        exact hget0 _ c hc
      · intro hprob l hl
        have hown := parseGroup_own maxFloat (lagParams lag params) parsed ?_ hg l ?_
        · rw [get?_update_of_mem _ _ hpn _ _ hown]
          refine congrArg some (Eq.trans (by convert lagParams_filter lag l params) ?_)
          congr 1
          apply List.filter_congr
          intro p hp
          rw [Bool.eq_iff_iff, decide_eq_true_eq, decide_eq_true_eq]
          exact hiff p hp l
        · intro r hr
          rw [lagParams_eq] at hr
          obtain ⟨p, hp, h1⟩ := List.mem_filterMap.1 hr
          obtain ⟨l', h2, rfl⟩ := Option.map_eq_some_iff.1 h1
          exact hprob p hp ⟨l', (hiff p hp l').1 h2⟩
        · rw [mem_lagParams_levels]
          obtain ⟨p, hp, e⟩ := hl
          exact ⟨p, hp, (hiff p hp l).2 e⟩

/-- C78 (codes are choices). For all parameters as in `C78_distribution` where every label of the lag is a choice:
the positions in the distribution, which are the sampled codes, are the codes of choices. Partial: other labels are not
rejected, see `C78_unknown_label_false`. -/
theorem C78_codes_of_choices_partial (maxFloat minFloat : ℝ) (choices : List Str) (hch : choices.Nodup)
    (lag : Nat) (params : List ((Str × Str) × ℝ)) (hwf : LagCategoriesWF params)
    (hlabels : ∀ p ∈ params, ∀ l, p.1.1 = lagCategory lag l → l ∈ choices) (d : Dict Str (List (Str × ℝ)))
    (h : lagDistribution maxFloat minFloat choices lag params = .ok d) : Dict.keys d = choices := by
  obtain ⟨⟨t, ht⟩, hnd, hmem, _⟩ := C78_distribution maxFloat minFloat choices hch lag params hwf d h
  cases t with
  | nil => rw [← ht, List.append_nil]
  | cons x t =>
    exfalso
    have hx : x ∈ Dict.keys d := by rw [← ht]; simp
    have hx' : x ∈ choices := by
      rcases (hmem x).1 hx with h | ⟨_, _, p, hp, e⟩
      · exact h
      · exact hlabels p hp x e
    rw [← ht] at hnd
    exact (List.disjoint_of_nodup_append hnd) hx' (by simp)

theorem mapM_ok_forall {α β ε : Type _} (f : α → Except ε β) : ∀ (l : List α) (r : List β),
    l.mapM f = .ok r → List.Forall₂ (fun a b => f a = .ok b) l r := by
  intro l
  induction l with
  | nil =>
    intro r h
    rw [List.mapM_nil] at h
    cases h
    exact .nil
  | cons a l ih =>
    intro r h
    rw [List.mapM_cons] at h
    cases hf : f a with
    | error e => rw [hf] at h; cases h
    | ok b =>
      rw [hf] at h
      cases hr : l.mapM f with
      | error e =>
        have h' : (l.mapM f >>= fun bs => pure (b :: bs)) = Except.ok r := h
        rw [hr] at h'
        cases h'
      | ok bs =>
        have h' : (l.mapM f >>= fun bs => pure (b :: bs)) = Except.ok r := h
        rw [hr] at h'
        cases h'
        exact .cons hf (ih bs hr)

/-- C78 (all lags). For all choices, covariates and parameters: if the lagged choices are accepted, there is one
distribution for each of the lags `1, …, n` where `n` is the number of lags, and it is the one of this lag. With
parameters only for choices the codes of all lags are the codes of choices. -/
theorem C78_all_lags_partial (maxFloat minFloat : ℝ) (choices : List Str) (covariates : Dict Str Str)
    (params : List ((Str × Str) × ℝ)) (ds : List (Dict Str (List (Str × ℝ))))
    (h : parseLaggedChoices maxFloat minFloat choices covariates params = .ok ds) :
    ds.length = numberOfLags covariates ∧
    (∀ i (hi : i < ds.length), lagDistribution maxFloat minFloat choices (i + 1) params = .ok ds[i]) ∧
    (choices.Nodup → LagCategoriesWF params →
      (∀ p ∈ params, ∀ k l, p.1.1 = lagCategory k l → l ∈ choices) → ∀ d ∈ ds, Dict.keys d = choices) := by
  have hf := mapM_ok_forall _ _ _ h
  have hlen : ds.length = numberOfLags covariates := by
    rw [← hf.length_eq, List.length_range]
  have hget : ∀ i (hi : i < ds.length),
      lagDistribution maxFloat minFloat choices (i + 1) params = .ok ds[i] := by
    intro i hi
    have := hf.get (i := i) (by rw [hf.length_eq]; exact hi) hi
    simpa using this
  refine ⟨hlen, hget, ?_⟩
  intro hch hwf hl d hd
  obtain ⟨i, hi, rfl⟩ := List.mem_iff_getElem.1 hd
  exact C78_codes_of_choices_partial maxFloat minFloat choices hch (i + 1) params hwf
    (fun p hp l => hl p hp (i + 1) l) _ (hget i hi)

/-- C78 (other labels). A label which is not a choice, here a misspelt one, is accepted and gets a position behind the
choices: with a large enough coefficient, almost all simulated individuals start with a lagged choice which is no code
of a choice. -/
theorem C78_unknown_label_false :
    ¬ ∀ (maxFloat minFloat : ℝ) (choices : List Str) (lag : Nat) (params : List ((Str × Str) × ℝ))
      (d : Dict Str (List (Str × ℝ))), choices.Nodup → LagCategoriesWF params →
      lagDistribution maxFloat minFloat choices lag params = .ok d → Dict.keys d = choices := by
  intro h
  have hwf : LagCategoriesWF [(("lagged_choice_1_hom".toList, "constant".toList), (1 : ℝ))] := by
    intro p hp _
    rw [List.mem_singleton] at hp
    subst hp
    exact ⟨1, "hom".toList, by decide, by decide, by decide⟩
  have hd : lagDistribution 2 (-2) ["edu".toList, "home".toList] 1
      [(("lagged_choice_1_hom".toList, "constant".toList), (1 : ℝ))] =
      .ok [("edu".toList, [("constant".toList, -2)]), ("home".toList, [("constant".toList, -2)]),
        ("hom".toList, [("constant".toList, 1)])] := by
    have hl : lagParams 1 [(("lagged_choice_1_hom".toList, "constant".toList), (1 : ℝ))] =
        [⟨"hom".toList, "constant".toList, 1⟩] := by
      rw [lagParams_eq]
      have : lagLevel 1 "lagged_choice_1_hom".toList = some "hom".toList := by decide
      simp only [List.filterMap_cons, List.filterMap_nil, this, Option.map_some]
    unfold lagDistribution
    rw [hl]
    rfl
  have := h _ _ _ _ _ _ (by decide) hwf hd
  revert this
  decide

/-- The hypotheses of `C78_distribution` and `C78_codes_of_choices_partial` are met by two choices and coefficients of
one of them. -/
example : ∃ d, lagDistribution 2 (-2) ["edu".toList, "home".toList] 1
    [(("delta".toList, "delta".toList), 1), (("lagged_choice_1_edu".toList, "constant".toList), (1 : ℝ)),
     (("lagged_choice_1_edu".toList, "not_finished".toList), (3 : ℝ))] = .ok d ∧
    Dict.keys d = ["edu".toList, "home".toList] ∧
    Dict.get? d "edu".toList = some [("constant".toList, 1), ("not_finished".toList, 3)] ∧
    Dict.get? d "home".toList = some [("constant".toList, -2)] := by
  have hl : lagParams 1 [(("delta".toList, "delta".toList), 1),
      (("lagged_choice_1_edu".toList, "constant".toList), (1 : ℝ)),
      (("lagged_choice_1_edu".toList, "not_finished".toList), (3 : ℝ))] =
      [⟨"edu".toList, "constant".toList, 1⟩, ⟨"edu".toList, "not_finished".toList, 3⟩] := by
    rw [lagParams_eq]
    have h1 : lagLevel 1 "lagged_choice_1_edu".toList = some "edu".toList := by decide
    have h2 : lagLevel 1 "delta".toList = none := by decide
    simp only [List.filterMap_cons, List.filterMap_nil, h1, h2, Option.map_some, Option.map_none]
  refine ⟨[("edu".toList, [("constant".toList, 1), ("not_finished".toList, 3)]),
    ("home".toList, [("constant".toList, -2)])], ?_, rfl, rfl, rfl⟩
  unfold lagDistribution
  rw [hl]
  rfl

end Respy
