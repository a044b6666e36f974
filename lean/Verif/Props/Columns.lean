import Verif.Props.Labels
import Batteries.Data.Char.AsciiCasing

/-! # Properties of names and labels in data -/

namespace Respy

/-! ### C57 Processing options twice is the same as once: labels in formulas -/

theorem wellQuoted_resolve (sep : Char → Bool) (codes : List (Str × Nat)) (ps : List Piece) (b : Bool)
    (h : WellQuoted sep b ps) : WellQuoted sep b (ps.map (resolve codes)) := by
  induction ps generalizing b with
  | nil => trivial
  | cons p ps ih =>
    cases p with
    | plain t => exact ⟨h.1, ih _ h.2⟩
    | quoted q' l =>
      simp only [List.map_cons, resolve]
      split
      · exact ⟨noQuotes_codeText _, WellQuoted.mono _ _ _ (ih _ h.2.2.2)⟩
      · exact ⟨h.1, h.2.1, h.2.2.1, ih _ h.2.2.2⟩

/-- Replacing labels in a formula whose labels are already replaced does not change it. -/
theorem C57_labels (sep : Char → Bool) (choices : List Str) (observables : List (Str × List (Option Str)))
    (hlabels : ∀ lc ∈ labelCodes choices observables, NoQuotes lc.1 ∧ lc.1.any sep = false)
    (ps : List Piece) (h : WellQuoted sep true ps) :
    replaceLabels choices observables (replaceLabels choices observables (formulaText ps)) =
      replaceLabels choices observables (formulaText ps) := by
  rw [C49_first_code sep choices observables hlabels ps h,
    C49_first_code sep choices observables hlabels _ (wellQuoted_resolve sep _ ps true h), List.map_map]
  congr 1
  apply List.map_congr_left
  intro p _
  cases p with
  | plain t => rfl
  | quoted q l =>
    simp only [Function.comp, resolve]
    cases hf : (labelCodes choices observables).find? (fun lc => decide (lc.1 = l)) with
    | none => simp [hf]
    | some lc => rfl

/-! ### C50 Column names survive the round trip between internal and public form -/

/-- There is no upper-case letter. -/
def LowerCase (s : Str) : Prop := ∀ c ∈ s, c.toLower = c

/-- The text `exp` only occurs at the beginning of a run of letters. The flag tells whether the character
before the text is a letter. -/
def ExpStartsWord (prev : Bool) (s : Str) : Prop :=
  ∀ a b, s = a ++ "exp".toList ++ b → (a = [] → prev = false) ∧
    ∀ c, a.getLast? = some c → c.isAlpha = false

theorem lowerCase_of_all (s : Str) (h : s.all (fun c => decide (c.toLower = c)) = true) : LowerCase s := by
  intro c hc
  simpa using List.all_eq_true.1 h c hc

theorem map_toLower_titleFrom (b : Bool) (s : Str) :
    (titleFrom b s).map Char.toLower = s.map Char.toLower := by
  induction s generalizing b with
  | nil => rfl
  | cons c s ih =>
    simp only [titleFrom, List.map_cons, ih]
    congr 1
    cases c.isAlpha <;> cases b <;> simp

theorem head_of_replaced (x : Char) (hx : x ≠ 'e') (s t : Str) (hl : LowerCase s) (fuel : Nat)
    (hf : s.length < fuel)
    (h : (replaceAllFuel "exp".toList "Experience".toList fuel s).map Char.toLower = x :: t) :
    ∃ s' fuel', s = x :: s' ∧ s'.length < fuel' ∧
      (replaceAllFuel "exp".toList "Experience".toList fuel' s').map Char.toLower = t := by
  cases fuel with
  | zero => omega
  | succ fuel =>
    by_cases hp : "exp".toList <+: s
    · obtain ⟨r, rfl⟩ := hp
      rw [replaceAllFuel_match, List.map_append] at h
      have he : ("Experience".toList).map Char.toLower = 'e' :: "xperience".toList := by decide +kernel
      rw [he, List.cons_append] at h
      exact absurd (List.cons.inj h).1.symm hx
    · cases s with
      | nil => simp [replaceAllFuel] at h
      | cons c s =>
        rw [replaceAllFuel_cons _ _ _ _ hp, List.map_cons] at h
        obtain ⟨h1, h2⟩ := List.cons.inj h
        rw [hl c (by simp)] at h1
        subst h1
        exact ⟨s, fuel, rfl, by simpa using hf, h2⟩

theorem rename_round_trip (fuel fuel' : Nat) (prev : Bool) (s : Str) (hl : LowerCase s)
    (he : ExpStartsWord prev s) (hf : s.length < fuel)
    (hf' : (titleFrom prev (replaceAllFuel "exp".toList "Experience".toList fuel s)).length < fuel') :
    (replaceAllFuel "Experience".toList "exp".toList fuel'
      (titleFrom prev (replaceAllFuel "exp".toList "Experience".toList fuel s))).map Char.toLower = s := by
  induction fuel generalizing fuel' prev s with
  | zero => omega
  | succ fuel ih =>
    by_cases hp : "exp".toList <+: s
    · obtain ⟨r, rfl⟩ := hp
      have hprev : prev = false := (he [] r (by simp)).1 rfl
      subst hprev
      rw [replaceAllFuel_match] at hf' ⊢
      have ht : ∀ R, titleFrom false ("Experience".toList ++ R) =
          "Experience".toList ++ titleFrom true R := by
        intro R
        have e : "Experience".toList = ['E', 'x', 'p', 'e', 'r', 'i', 'e', 'n', 'c', 'e'] := by
          decide +kernel
        rw [e]
        rfl
      rw [ht] at hf' ⊢
      cases fuel' with
      | zero => omega
      | succ fuel' =>
        rw [replaceAllFuel_match, List.map_append, ih]
        · have : ("exp".toList).map Char.toLower = "exp".toList := by decide +kernel
          rw [this]
        · exact fun c hc => hl c (by simp [hc])
        · intro a b hab
          have h := he ("exp".toList ++ a) b (by rw [hab]; simp)
          refine ⟨fun ha => ?_, fun c hc => h.2 c ?_⟩
          · exfalso
            subst ha
            have h2 := h.2 'p' (by decide +kernel)
            revert h2
            decide
          · rw [List.getLast?_append, hc]; rfl
        · have : ("exp".toList).length = 3 := by decide +kernel
          rw [List.length_append] at hf
          omega
        · rw [List.length_append] at hf'
          have : ("Experience".toList).length = 10 := by decide +kernel
          omega
    · cases s with
      | nil =>
        cases fuel' with
        | zero => omega
        | succ fuel' => simp [replaceAllFuel, titleFrom]
      | cons c s =>
        rw [replaceAllFuel_cons _ _ _ _ hp] at hf' ⊢
        rw [titleFrom] at hf' ⊢
        have hlow : (if c.isAlpha then (if prev then c.toLower else c.toUpper) else c).toLower = c := by
          rw [← hl c (by simp)]
          cases c.toLower.isAlpha <;> cases prev <;> simp
        cases fuel' with
        | zero => omega
        | succ fuel' =>
          rw [replaceAllFuel_cons, List.map_cons, hlow, ih]
          · exact fun d hd => hl d (by simp [hd])
          · intro a b hab
            have h := he (c :: a) b (by rw [hab]; simp)
            refine ⟨fun ha => h.2 c (by rw [ha]; rfl), fun d hd => h.2 d ?_⟩
            rw [List.getLast?_cons, hd]; rfl
          · simpa using hf
          · simpa using hf'
          · intro hpre
            obtain ⟨t, ht⟩ := hpre
            have h1 := congrArg (List.map Char.toLower) ht
            rw [List.map_append, List.map_cons, hlow, map_toLower_titleFrom] at h1
            have e : ("Experience".toList).map Char.toLower = 'e' :: 'x' :: 'p' :: "erience".toList := by
              decide +kernel
            rw [e] at h1
            obtain ⟨h2, h3⟩ := List.cons.inj h1
            obtain ⟨s₁, f₁, rfl, hf₁, h4⟩ := head_of_replaced 'x' (by decide) s _
              (fun d hd => hl d (by simp [hd])) fuel (by simpa using hf) h3.symm
            obtain ⟨s₂, f₂, rfl, _, _⟩ := head_of_replaced 'p' (by decide) s₁ _
              (fun d hd => hl d (by simp [hd])) f₁ hf₁ h4
            apply hp
            have e' : "exp".toList = ['e', 'x', 'p'] := by decide +kernel
            rw [e', ← h2]
            exact ⟨s₂, rfl⟩

/-- Lower-case names in which `exp` only occurs at the beginning of a run of letters survive the round trip,
for example all names of respy unless a name given by the user contains `exp` elsewhere.
Missing: other names, see `C50_false`. -/
theorem C50_partial (s : Str) (hl : LowerCase s) (he : ExpStartsWord false s) :
    renameToInternal (renameFromInternal s) = s := by
  unfold renameToInternal renameFromInternal replaceAll
  exact rename_round_trip _ _ false s hl he (by omega) (by omega)

/-- `exp` inside of a word. -/
theorem C50_false : ∃ s : Str, LowerCase s ∧ renameToInternal (renameFromInternal s) ≠ s :=
  ⟨"unexplained".toList, lowerCase_of_all _ (by decide +kernel), by decide +kernel⟩

/-- The name of an experience meets the hypotheses. -/
example : LowerCase "exp_white_collar".toList ∧ ExpStartsWord false "exp_white_collar".toList ∧
    renameFromInternal "exp_white_collar".toList = "Experience_White_Collar".toList := by
  refine ⟨lowerCase_of_all _ (by decide +kernel), ?_, by decide +kernel⟩
  intro a b hab
  have hlen : a.length ≤ 13 := by
    have := congrArg List.length hab
    simp only [List.length_append] at this
    have e1 : ("exp_white_collar".toList).length = 16 := by decide +kernel
    have e2 : ("exp".toList).length = 3 := by decide +kernel
    omega
  have hdrop : ("exp_white_collar".toList).drop a.length = "exp".toList ++ b := by
    rw [hab, List.append_assoc, List.drop_left]
  have hpre : "exp".toList.isPrefixOf (("exp_white_collar".toList).drop a.length) = true := by
    rw [hdrop]; exact List.isPrefixOf_iff_prefix.2 (List.prefix_append _ _)
  have hzero : ∀ n ≤ 13, "exp".toList.isPrefixOf (("exp_white_collar".toList).drop n) = true → n = 0 := by
    decide +kernel
  have ha : a = [] := List.length_eq_zero_iff.1 (hzero _ hlen hpre)
  exact ⟨fun _ => rfl, by simp [ha]⟩

/-! ### C51 Labels of choices and observables survive the round trip through codes -/

theorem toCodes_label (labels : List Label) (hn : labels.Nodup) (hle : labels.length ≤ 256) (i : Nat)
    (x : Label) (hx : labels[i]? = some x) :
    toUint8 (replaceValue (Dict.ofItems labels.zipIdx) x) = some i := by
  have hi : i < labels.length := (List.getElem?_eq_some_iff.1 hx).1
  have : (Dict.ofItems labels.zipIdx : Dict Label Nat).get? x = some i := by
    apply Dict.get?_ofItems_of_mem
    · simpa using hn
    · exact List.mem_zipIdx_iff_getElem?.2 hx
  simp only [replaceValue, this, Option.map_some, Option.getD_some, toUint8]
  congr 1
  omega

/-- With at most 256 labels, a column of labels is converted to codes which are converted back to the column,
for choices and for observables. Missing: more than 256 labels, see `C51_many_labels_false`. -/
theorem C51_labels_partial (labels : List Label) (hn : labels.Nodup) (hle : labels.length ≤ 256)
    (column : List Label) (hc : ∀ x ∈ column, x ∈ labels) :
    ∃ codes, toCodes labels column = some codes ∧ (∀ c ∈ codes, c < labels.length) ∧
      choiceLabels labels codes = column.map some ∧ observableLabels labels codes = column := by
  unfold toCodes
  induction column with
  | nil => exact ⟨[], rfl, by simp, rfl, rfl⟩
  | cons x column ih =>
    obtain ⟨codes, h1, h2, h3, h4⟩ := ih fun y hy => hc y (by simp [hy])
    obtain ⟨i, hi⟩ := List.getElem?_of_mem (hc x (by simp))
    refine ⟨i :: codes, ?_, ?_, ?_, ?_⟩
    · rw [List.mapM_cons, toCodes_label labels hn hle i x hi, h1]
      rfl
    · intro c hcc
      rcases List.mem_cons.1 hcc with rfl | hcc
      · exact (List.getElem?_eq_some_iff.1 hi).1
      · exact h2 c hcc
    · simp [choiceLabels] at h3 ⊢
      exact ⟨hi, h3⟩
    · simp [observableLabels] at h4 ⊢
      exact ⟨by rw [hi]; rfl, h4⟩

/-- Codes are converted to labels which are converted back to the codes. -/
theorem C51_codes_partial (labels : List Label) (hn : labels.Nodup) (hle : labels.length ≤ 256)
    (codes : List Nat) (hc : ∀ c ∈ codes, c < labels.length) :
    toCodes labels (observableLabels labels codes) = some codes ∧
      choiceLabels labels codes = (observableLabels labels codes).map some := by
  unfold toCodes
  induction codes with
  | nil => exact ⟨rfl, rfl⟩
  | cons c codes ih =>
    obtain ⟨h1, h2⟩ := ih fun y hy => hc y (by simp [hy])
    have hi : labels[c]? = some (labels[c]'(hc c (by simp))) :=
      List.getElem?_eq_getElem (hc c (by simp))
    constructor
    · unfold observableLabels at h1 ⊢
      rw [List.map_cons, List.mapM_cons, hi, Option.getD_some,
        toCodes_label labels hn hle c _ hi, h1]
      rfl
    · unfold choiceLabels observableLabels at h2 ⊢
      rw [List.map_cons, h2, List.map_cons, List.map_cons, hi, Option.getD_some]

/-- A text which is not a label is rejected. -/
theorem C51_unknown_label (labels : List Label) (s : Str) (hs : Label.text s ∉ labels)
    (column : List Label) (hc : Label.text s ∈ column) : toCodes labels column = none := by
  unfold toCodes
  have hget : (Dict.ofItems labels.zipIdx : Dict Label Nat).get? (.text s) = none := by
    rw [Dict.get?_eq_none_iff, Dict.mem_keys_ofItems]
    simpa using hs
  induction column with
  | nil => simp at hc
  | cons x column ih =>
    rw [List.mapM_cons]
    rcases List.mem_cons.1 hc with rfl | hc
    · simp only [replaceValue, hget]; rfl
    · rw [ih hc]
      cases toUint8 (replaceValue (Dict.ofItems labels.zipIdx) x) <;> rfl

/-- With 257 labels, the last one gets the code of the first one. -/
theorem C51_many_labels_false :
    ∃ (labels column : List Label) (codes : List Nat), labels.Nodup ∧ (∀ x ∈ column, x ∈ labels) ∧
      toCodes labels column = some codes ∧ observableLabels labels codes ≠ column := by
  have hnd : ((List.range 257).map fun (n : Nat) => Label.int (n + 1000)).Nodup := by
    refine List.Nodup.map ?_ List.nodup_range
    intro a b h
    simp only [Label.int.injEq] at h
    omega
  have h256 : ((List.range 257).map fun (n : Nat) => Label.int (n + 1000))[256]? =
      some (.int 1256) := by
    rw [List.getElem?_map, List.getElem?_range (by omega)]
    rfl
  refine ⟨(List.range 257).map fun (n : Nat) => .int (n + 1000), [.int 1256], [0], hnd, ?_, ?_, ?_⟩
  · intro x hx
    rw [List.mem_singleton.1 hx]
    exact List.mem_of_getElem? h256
  · unfold toCodes
    have : (Dict.ofItems ((List.range 257).map fun (n : Nat) => Label.int (n + 1000)).zipIdx :
        Dict Label Nat).get? (.int 1256) = some 256 := by
      apply Dict.get?_ofItems_of_mem
      · rw [List.zipIdx_map_fst]
        exact hnd
      · exact List.mem_zipIdx_iff_getElem?.2 h256
    rw [List.mapM_cons, replaceValue, this]
    rfl
  · have h0 : ((List.range 257).map fun (n : Nat) => Label.int (n + 1000))[0]? =
        some (.int 1000) := by
      rw [List.getElem?_map, List.getElem?_range (by omega)]
      rfl
    unfold observableLabels
    rw [List.map_cons, h0]
    intro h
    have := (List.cons.inj h).1
    simp at this

/-- Choices and an observable with integers as levels in another order. -/
example : toCodes [.text "a".toList, .text "home".toList] [.text "home".toList, .text "a".toList] =
    some [1, 0] ∧ toCodes [.int 3, .int 0, .int 1] [.int 0, .int 1, .int 3] = some [1, 2, 0] := by
  decide +kernel

end Respy
