import Verif.Model.Labels
import Verif.Lemmas.Dict
import Verif.Lemmas.MapM
import Mathlib.Data.List.Nodup

/-! # Properties of labels and codes -/

namespace Respy

/-! ### C49 Labels in formulas are replaced by the code of the variable they are compared with -/

/-- A part of a formula: text without quotes or a label in quotes. -/
inductive Piece
  | plain (text : Str)
  | quoted (quote : Char) (label : Str)
deriving DecidableEq, Repr

/-- The text of a part. -/
def Piece.text : Piece → Str
  | .plain t => t
  | .quoted q l => q :: l ++ [q]

/-- The text of a formula. -/
def formulaText (ps : List Piece) : Str := ps.flatMap Piece.text

def IsQuote (c : Char) : Prop := c = '\'' ∨ c = '"'

def NoQuotes (s : Str) : Prop := ∀ c ∈ s, ¬ IsQuote c

/-- The parts of a formula are a reading of its text: there are no quotes inside of the parts, and the text
between two labels contains a character of the class `sep`, for example a blank or an operator. The flag
tells whether there was such a character since the last label. -/
def WellQuoted (sep : Char → Bool) : Bool → List Piece → Prop
  | _, [] => True
  | b, .plain t :: ps => NoQuotes t ∧ WellQuoted sep (b || t.any sep) ps
  | b, .quoted q l :: ps => b = true ∧ IsQuote q ∧ NoQuotes l ∧ WellQuoted sep false ps

/-- The label in quotes is replaced by its first code; other parts are unchanged. -/
def resolve (codes : List (Str × Nat)) : Piece → Piece
  | .plain t => .plain t
  | .quoted q l =>
    match codes.find? fun lc => lc.1 = l with
    | some lc => .plain (codeText lc.2)
    | none => .quoted q l

theorem WellQuoted.mono (sep : Char → Bool) (b : Bool) (ps : List Piece) (h : WellQuoted sep false ps) :
    WellQuoted sep b ps := by
  induction ps generalizing b with
  | nil => trivial
  | cons p ps ih =>
    cases p with
    | plain t =>
      refine ⟨h.1, ?_⟩
      have h2 := h.2
      rw [Bool.false_or] at h2
      cases ht : t.any sep with
      | true => rw [ht] at h2; simpa using h2
      | false => rw [ht] at h2; exact ih _ h2
    | quoted q l => exact absurd h.1 (by simp)

theorem no_match_after_label (sep : Char → Bool) (ps : List Piece) (h : WellQuoted sep false ps)
    (label : Str) (hs : label.any sep = false) (hq : NoQuotes label) (q : Char) (hqq : IsQuote q) :
    ¬ (label ++ [q]) <+: formulaText ps := by
  induction ps generalizing label with
  | nil => simp [formulaText]
  | cons p ps ih =>
    cases p with
    | quoted q l => exact absurd h.1 (by simp)
    | plain t =>
      intro hp
      have hp' : label ++ [q] <+: t ++ formulaText ps := by
        simpa [formulaText, Piece.text] using hp
      rcases Nat.lt_or_ge label.length t.length with hlt | hge
      · have : label ++ [q] <+: t := by
          refine List.prefix_of_prefix_length_le hp' (List.prefix_append _ _) ?_
          simp; omega
        exact h.1 q (this.subset (by simp)) hqq
      · have htl : t <+: label := by
          have h1 : t <+: label ++ [q] := by
            refine List.prefix_of_prefix_length_le (List.prefix_append _ _) hp' ?_
            simp; omega
          refine List.prefix_of_prefix_length_le h1 (List.prefix_append _ _) hge
        obtain ⟨rest, rfl⟩ := htl
        rw [List.any_append, Bool.or_eq_false_iff] at hs
        have h2 := h.2
        rw [hs.1] at h2
        refine ih h2 rest hs.2 (fun c hc => hq c (by simp [hc])) ?_
        rw [List.append_assoc, List.prefix_append_right_inj] at hp'
        exact hp'

/-- One replacement on the parts. -/
def resolveOne (q : Char) (label new : Str) : Piece → Piece
  | .plain t => .plain t
  | .quoted q' l => if q' = q ∧ l = label then .plain new else .quoted q' l

theorem replaceAllFuel_match (old new s : Str) (fuel : Nat) :
    replaceAllFuel old new (fuel + 1) (old ++ s) = new ++ replaceAllFuel old new fuel s := by
  conv_lhs => unfold replaceAllFuel
  rw [if_pos (List.isPrefixOf_iff_prefix.2 (List.prefix_append _ _)), List.drop_left]

theorem replaceAllFuel_cons (old new : Str) (c : Char) (s : Str) (h : ¬ old <+: c :: s) (fuel : Nat) :
    replaceAllFuel old new (fuel + 1) (c :: s) = c :: replaceAllFuel old new fuel s := by
  conv_lhs => unfold replaceAllFuel
  rw [if_neg (by rwa [List.isPrefixOf_iff_prefix])]

theorem replaceAllFuel_skip (x : Char) (old new t : Str) (ht : x ∉ t) (s : Str) (fuel : Nat)
    (hf : t.length ≤ fuel) :
    replaceAllFuel (x :: old) new fuel (t ++ s) =
      t ++ replaceAllFuel (x :: old) new (fuel - t.length) s := by
  induction t generalizing fuel with
  | nil => simp
  | cons c t ih =>
    cases fuel with
    | zero => simp at hf
    | succ fuel =>
      have hne : x ≠ c := by rintro rfl; exact ht (by simp)
      rw [List.cons_append, replaceAllFuel_cons _ _ _ _ (by
          intro hp; exact hne (List.cons_prefix_cons.1 hp).1),
        ih (fun hc => ht (by simp [hc])) fuel (by simpa using hf)]
      simp

theorem replaceAllFuel_plain (q : Char) (hq : IsQuote q) (label new t : Str) (ht : NoQuotes t) (s : Str)
    (fuel : Nat) (hf : t.length ≤ fuel) :
    replaceAllFuel (q :: label ++ [q]) new fuel (t ++ s) =
      t ++ replaceAllFuel (q :: label ++ [q]) new (fuel - t.length) s := by
  exact replaceAllFuel_skip q (label ++ [q]) new t (fun h => ht q h hq) s fuel hf

theorem replaceAllFuel_pieces (sep : Char → Bool) (q : Char) (hq : IsQuote q) (label new : Str)
    (hl : NoQuotes label) (hs : label.any sep = false) (ps : List Piece) (b : Bool)
    (h : WellQuoted sep b ps) (fuel : Nat) (hf : (formulaText ps).length < fuel) :
    replaceAllFuel (q :: label ++ [q]) new fuel (formulaText ps) =
      formulaText (ps.map (resolveOne q label new)) := by
  induction ps generalizing b fuel with
  | nil =>
    cases fuel with
    | zero => simp at hf
    | succ fuel => simp [formulaText, replaceAllFuel]
  | cons p ps ih =>
    cases p with
    | plain t =>
      have e : formulaText (.plain t :: ps) = t ++ formulaText ps := by simp [formulaText, Piece.text]
      rw [e] at hf ⊢
      rw [List.length_append] at hf
      rw [replaceAllFuel_plain q hq label new t h.1 _ fuel (by omega),
        ih _ h.2 _ (by omega)]
      simp [formulaText, Piece.text, resolveOne]
    | quoted q' l =>
      obtain ⟨_, hq', hnl, hps⟩ := h
      have e : formulaText (.quoted q' l :: ps) = (q' :: l ++ [q']) ++ formulaText ps := by
        simp [formulaText, Piece.text]
      rw [e] at hf ⊢
      cases fuel with
      | zero => simp at hf
      | succ fuel =>
        have hlen : (formulaText ps).length + l.length + 2 ≤ fuel := by
          simp only [List.length_append, List.length_cons, List.length_nil] at hf
          omega
        by_cases hm : q' = q ∧ l = label
        · obtain ⟨rfl, rfl⟩ := hm
          rw [replaceAllFuel_match, ih _ hps fuel (by omega)]
          simp [formulaText, Piece.text, resolveOne]
        · have hnp : ¬ (q :: label ++ [q] <+: q' :: (l ++ ([q'] ++ formulaText ps))) := by
            intro hp
            simp only [List.cons_append, List.nil_append] at hp
            obtain ⟨rfl, hp2⟩ := List.cons_prefix_cons.1 hp
            apply hm
            refine ⟨rfl, ?_⟩
            -- the first quote ends both labels
            have key : ∀ (a b : Str) (r : Str), NoQuotes a → NoQuotes b → a ++ [q] <+: b ++ (q :: r) →
                b = a := by
              intro a
              induction a with
              | nil =>
                intro b r _ hb hp
                cases b with
                | nil => rfl
                | cons x b =>
                  simp only [List.nil_append, List.cons_append] at hp
                  obtain ⟨rfl, _⟩ := List.cons_prefix_cons.1 hp
                  exact absurd hq (hb q (by simp))
              | cons y a iha =>
                intro b r ha hb hp
                cases b with
                | nil =>
                  simp only [List.nil_append, List.cons_append] at hp
                  obtain ⟨rfl, _⟩ := List.cons_prefix_cons.1 hp
                  exact absurd hq (ha y (by simp))
                | cons x b =>
                  simp only [List.cons_append] at hp
                  obtain ⟨rfl, hp2⟩ := List.cons_prefix_cons.1 hp
                  rw [iha b r (fun c hc => ha c (by simp [hc])) (fun c hc => hb c (by simp [hc])) hp2]
            exact key label l _ hl hnl hp2
          have e2 : (q' :: l ++ [q']) ++ formulaText ps = q' :: (l ++ ([q'] ++ formulaText ps)) := by
            simp
          rw [e2, replaceAllFuel_cons _ _ _ _ hnp, replaceAllFuel_plain q hq label new l hnl _ fuel (by omega)]
          obtain ⟨fuel', hfu⟩ : ∃ f', fuel - l.length = f' + 1 := ⟨fuel - l.length - 1, by omega⟩
          have hnp2 : ¬ (q :: label ++ [q] <+: q' :: formulaText ps) := by
            intro hp
            simp only [List.cons_append] at hp
            obtain ⟨rfl, hp2⟩ := List.cons_prefix_cons.1 hp
            exact no_match_after_label sep ps hps label hs hl q hq hp2
          rw [hfu, List.singleton_append, replaceAllFuel_cons _ _ _ _ hnp2, ih _ hps fuel' (by omega)]
          simp [formulaText, Piece.text, resolveOne, hm]

theorem wellQuoted_resolveOne (sep : Char → Bool) (q : Char) (label new : Str) (ht : NoQuotes new)
    (ps : List Piece) (b : Bool) (h : WellQuoted sep b ps) :
    WellQuoted sep b (ps.map (resolveOne q label new)) := by
  induction ps generalizing b with
  | nil => trivial
  | cons p ps ih =>
    cases p with
    | plain t => exact ⟨h.1, ih _ h.2⟩
    | quoted q' l =>
      simp only [List.map_cons, resolveOne]
      split
      · refine ⟨ht, WellQuoted.mono _ _ _ (ih _ h.2.2.2)⟩
      · exact ⟨h.1, h.2.1, h.2.2.1, ih _ h.2.2.2⟩

theorem noQuotes_codeText (n : Nat) : NoQuotes (codeText n) := by
  intro c hc hq
  have := Nat.isDigit_of_mem_toDigits (b := 10) (by omega) (by omega) hc
  rcases hq with rfl | rfl <;> revert this <;> decide

/-- Both replacements of one label. -/
theorem replaceInQuotes_pieces (sep : Char → Bool) (label : Str) (n : Nat)
    (hl : NoQuotes label) (hs : label.any sep = false) (ps : List Piece) (b : Bool)
    (h : WellQuoted sep b ps) :
    replaceInQuotes (formulaText ps) label (codeText n) =
        formulaText (ps.map (resolve [(label, n)])) ∧
      WellQuoted sep b (ps.map (resolve [(label, n)])) := by
  have h1 := wellQuoted_resolveOne sep '\'' label (codeText n) (noQuotes_codeText n) ps b h
  have h2 := wellQuoted_resolveOne sep '"' label (codeText n) (noQuotes_codeText n) _ b h1
  have he : ∀ (ps : List Piece) (b : Bool), WellQuoted sep b ps →
      (ps.map (resolveOne '\'' label (codeText n))).map (resolveOne '"' label (codeText n)) =
      ps.map (resolve [(label, n)]) := by
    intro ps
    induction ps with
    | nil => intros; rfl
    | cons p ps ih =>
      intro b hw
      cases p with
      | plain t => simp only [List.map_cons, resolveOne, resolve]; rw [ih _ hw.2]
      | quoted q l =>
        simp only [List.map_cons, ih _ hw.2.2.2]
        congr 1
        rcases hw.2.1 with rfl | rfl
        · by_cases hll : l = label
          · simp [resolveOne, resolve, hll]
          · simp [resolveOne, resolve, hll, Ne.symm hll]
        · by_cases hll : l = label
          · simp [resolveOne, resolve, hll]
          · simp [resolveOne, resolve, hll, Ne.symm hll]
  rw [he ps b h] at h2
  refine ⟨?_, h2⟩
  unfold replaceInQuotes replaceAll
  rw [replaceAllFuel_pieces sep '\'' (Or.inl rfl) label _ hl hs ps b h _ (by omega),
    replaceAllFuel_pieces sep '"' (Or.inr rfl) label _ hl hs _ b h1 _ (by omega), he ps b h]

/-- Every label in quotes is replaced by its first code in the order of choices and observables; nothing else
is changed. -/
theorem C49_first_code (sep : Char → Bool) (choices : List Str)
    (observables : List (Str × List (Option Str)))
    (hlabels : ∀ lc ∈ labelCodes choices observables, NoQuotes lc.1 ∧ lc.1.any sep = false)
    (ps : List Piece) (h : WellQuoted sep true ps) :
    replaceLabels choices observables (formulaText ps) =
      formulaText (ps.map (resolve (labelCodes choices observables))) := by
  unfold replaceLabels
  generalize labelCodes choices observables = codes at hlabels
  induction codes generalizing ps with
  | nil =>
    rw [List.foldl_nil]
    congr 1
    symm
    rw [List.map_congr_left (g := id), List.map_id]
    intro p _
    cases p <;> simp [resolve]
  | cons lc codes ih =>
    obtain ⟨h1, h2⟩ := replaceInQuotes_pieces sep lc.1 lc.2 (hlabels lc (by simp)).1
      (hlabels lc (by simp)).2 ps true h
    rw [List.foldl_cons, h1, ih _ h2 (fun lc' hlc' => hlabels lc' (List.mem_cons_of_mem _ hlc')), List.map_map]
    congr 1
    apply List.map_congr_left
    intro p _
    cases p with
    | plain t => rfl
    | quoted q l =>
      by_cases hll : lc.1 = l
      · simp [resolve, hll]
      · simp [resolve, hll]

/-- A label which only belongs to one variable is replaced by its code for this variable, wherever it is
compared. Missing: labels shared by several variables, see `C49_shared_label_false`. -/
theorem C49_unique_label_partial (sep : Char → Bool) (choices : List Str)
    (observables : List (Str × List (Option Str)))
    (hlabels : ∀ lc ∈ labelCodes choices observables, NoQuotes lc.1 ∧ lc.1.any sep = false)
    (before after : List Piece) (q : Char) (label : Str)
    (h : WellQuoted sep true (before ++ .quoted q label :: after)) (code : Nat)
    (hcode : choices[code]? = some label ∨
      ∃ o ∈ observables, o.2[code]? = some (some label))
    (hunique : ∀ i, (choices[i]? = some label ∨ ∃ o ∈ observables, o.2[i]? = some (some label)) →
      i = code) :
    ∃ before' after', replaceLabels choices observables
        (formulaText (before ++ .quoted q label :: after)) =
      formulaText before' ++ codeText code ++ formulaText after' ∧
      before' = before.map (resolve (labelCodes choices observables)) ∧
      after' = after.map (resolve (labelCodes choices observables)) := by
  have hmem : ∀ i, (label, i) ∈ labelCodes choices observables ↔
      (choices[i]? = some label ∨ ∃ o ∈ observables, o.2[i]? = some (some label)) := by
    intro i
    unfold labelCodes
    rw [List.mem_append, List.mem_zipIdx_iff_getElem?, List.mem_flatMap]
    refine or_congr Iff.rfl ?_
    constructor
    · rintro ⟨o, ho, hm⟩
      obtain ⟨⟨l, j⟩, hlj, he⟩ := List.mem_filterMap.1 hm
      obtain ⟨l', hl', he'⟩ := Option.map_eq_some_iff.1 he
      cases he'
      dsimp only at hl'
      rw [List.mem_zipIdx_iff_getElem?] at hlj
      exact ⟨o, ho, by rw [hlj]; exact congrArg some hl'⟩
    · rintro ⟨o, ho, hm⟩
      exact ⟨o, ho, List.mem_filterMap.2 ⟨(some label, i), List.mem_zipIdx_iff_getElem?.2 hm, rfl⟩⟩
  have hres : resolve (labelCodes choices observables) (.quoted q label) = .plain (codeText code) := by
    unfold resolve
    cases hf : (labelCodes choices observables).find? (fun lc => decide (lc.1 = label)) with
    | none =>
      rw [List.find?_eq_none] at hf
      exact absurd (hf _ ((hmem code).2 hcode)) (by simp)
    | some lc =>
      obtain ⟨l, i⟩ := lc
      have h1 : l = label := by simpa using List.find?_some hf
      have h2 := List.mem_of_find?_eq_some hf
      subst h1
      have := hunique i ((hmem i).1 h2)
      subst this
      simp only [hf]
  refine ⟨_, _, ?_, rfl, rfl⟩
  rw [C49_first_code sep choices observables hlabels _ h]
  simp only [List.map_append, List.map_cons, hres]
  simp [formulaText, Piece.text]

/-- A label of an observable which is also a choice gets the code of the choice. -/
theorem C49_shared_label_false :
    ∃ (choices : List Str) (observables : List (Str × List (Option Str))) (formula : Str),
      (("school".toList, [some "none".toList, some "home".toList]) ∈ observables) ∧
      formula = "school == 'home'".toList ∧
      replaceLabels choices observables formula = "school == 2".toList :=
  ⟨["a".toList, "edu".toList, "home".toList],
    [("school".toList, [some "none".toList, some "home".toList])], _, by decide +kernel, rfl,
    by decide +kernel⟩

theorem replaceAll_template (x : Char) (old new first : Str) (parts : List Str)
    (hparts : ∀ s ∈ first :: parts, x ∉ s) :
    replaceAll (x :: old) new (first ++ parts.flatMap ((x :: old) ++ ·)) =
      first ++ parts.flatMap (new ++ ·) := by
  unfold replaceAll
  have key : ∀ (parts : List Str) (first : Str) (fuel : Nat), (∀ s ∈ first :: parts, x ∉ s) →
      (first ++ parts.flatMap ((x :: old) ++ ·)).length < fuel →
      replaceAllFuel (x :: old) new fuel (first ++ parts.flatMap ((x :: old) ++ ·)) =
        first ++ parts.flatMap (new ++ ·) := by
    intro parts
    induction parts with
    | nil =>
      intro first fuel h hf
      simp only [List.flatMap_nil, List.append_nil] at hf ⊢
      have := replaceAllFuel_skip x old new first (h first (by simp)) [] fuel (by omega)
      rw [List.append_nil] at this
      rw [this]
      obtain ⟨f', hf'⟩ : ∃ f', fuel - first.length = f' + 1 := ⟨fuel - first.length - 1, by omega⟩
      rw [hf']
      simp [replaceAllFuel]
    | cons p parts ih =>
      intro first fuel h hf
      rw [List.length_append] at hf
      rw [replaceAllFuel_skip x old new first (h first (by simp)) _ fuel (by omega),
        List.flatMap_cons, List.append_assoc]
      simp only [List.flatMap_cons, List.append_assoc, List.length_append, List.length_cons] at hf
      obtain ⟨f', hf'⟩ : ∃ f', fuel - first.length = f' + 1 := ⟨fuel - first.length - 1, by omega⟩
      rw [hf', replaceAllFuel_match, ih p f' (fun s hs => h s (List.mem_cons_of_mem _ hs)) (by
        simp only [List.length_append]; omega)]
      simp
  exact key parts first _ hparts (by omega)

theorem infix_template (x : Char) (old y first : Str) (parts : List Str)
    (hparts : ∀ s ∈ first :: parts, x ∉ s) (ho : x ∉ old)
    (h : x :: y <:+: first ++ parts.flatMap ((x :: old) ++ ·)) :
    x :: y <+: x :: old ∨ x :: old <+: x :: y := by
  have skip : ∀ (t s : Str), x ∉ t → x :: y <:+: t ++ s → x :: y <:+: s := by
    intro t
    induction t with
    | nil => intro s _ h; exact h
    | cons c t ih =>
      intro s hn h
      rw [List.cons_append, List.infix_cons_iff] at h
      rcases h with h | h
      · exact absurd (List.cons_prefix_cons.1 h).1 (by rintro rfl; exact hn (by simp))
      · exact ih s (fun hc => hn (by simp [hc])) h
  induction parts generalizing first with
  | nil =>
    rw [List.flatMap_nil] at h
    have := skip first [] (hparts first (by simp)) h
    simp at this
  | cons p parts ih =>
    have h1 := skip first _ (hparts first (by simp)) h
    rw [List.flatMap_cons, List.append_assoc, List.cons_append, List.infix_cons_iff] at h1
    rcases h1 with h1 | h1
    · rw [← List.cons_append] at h1
      rcases Nat.le_total (x :: y).length (x :: old).length with hle | hle
      · exact Or.inl (List.prefix_of_prefix_length_le h1 (List.prefix_append _ _) hle)
      · exact Or.inr (List.prefix_of_prefix_length_le (List.prefix_append _ _) h1 hle)
    · exact ih p (fun s hs => hparts s (List.mem_cons_of_mem _ hs)) (skip old _ ho h1)

/-- Templates in filters: one filter for each choice of the kind, with the name of the choice in the place of
each template. The parts are the texts between the templates. -/
theorem C49_filters (choices : List Str) (observables : List (Str × List (Option Str)))
    (kinds : ChoiceKinds) (template : Str) (names : List Str)
    (hk : (template, names) ∈ [("{choices_w_exp}".toList, kinds.wExp),
      ("{choices_wo_exp}".toList, kinds.woExp), ("{choices_w_wage}".toList, kinds.wWage)])
    (first : Str) (parts : List Str) (hne : parts ≠ [])
    (hparts : ∀ s ∈ first :: parts, '{' ∉ s) :
    convertFilter choices observables kinds (first ++ parts.flatMap (template ++ ·)) =
      some (names.map fun choice =>
        replaceLabels choices observables (first ++ parts.flatMap (choice ++ ·))) := by
  have hno : ∀ (old y : Str), '{' ∉ old →
      ('{' :: y).isPrefixOf ('{' :: old) = false → ('{' :: old).isPrefixOf ('{' :: y) = false →
      containsText ('{' :: y) (first ++ parts.flatMap (('{' :: old) ++ ·)) = false := by
    intro old y ho h1 h2
    by_contra hc
    rw [Bool.not_eq_false] at hc
    rcases infix_template '{' old y first parts hparts ho (of_decide_eq_true hc) with h | h
    · rw [List.isPrefixOf_iff_prefix.2 h] at h1; cases h1
    · rw [List.isPrefixOf_iff_prefix.2 h] at h2; cases h2
  have hyes : ∀ T : Str, containsText T (first ++ parts.flatMap (T ++ ·)) = true := by
    intro T
    apply decide_eq_true
    cases parts with
    | nil => exact absurd rfl hne
    | cons p parts =>
      rw [List.flatMap_cons]
      exact ⟨first, p ++ parts.flatMap (T ++ ·), by simp⟩
  have hold : ∀ old : Str, '{' ∉ old →
      '{' :: "i}".toList ≠ [] →
      (∀ y ∈ ["i}".toList, "j}".toList, "k}".toList],
        ('{' :: y).isPrefixOf ('{' :: old) = false ∧ ('{' :: old).isPrefixOf ('{' :: y) = false) →
      (["{i}", "{j}", "{k}"].any fun t => containsText t.toList
        (first ++ parts.flatMap (('{' :: old) ++ ·))) = false := by
    intro old ho _ hy
    simp only [List.any_cons, List.any_nil, Bool.or_false, Bool.or_eq_false_iff]
    refine ⟨?_, ?_, ?_⟩
    · exact hno old "i}".toList ho (hy _ (by simp)).1 (hy _ (by simp)).2
    · exact hno old "j}".toList ho (hy _ (by simp)).1 (hy _ (by simp)).2
    · exact hno old "k}".toList ho (hy _ (by simp)).1 (hy _ (by simp)).2
  have e1 : "{choices_w_exp}".toList = '{' :: "choices_w_exp}".toList := by decide +kernel
  have e2 : "{choices_wo_exp}".toList = '{' :: "choices_wo_exp}".toList := by decide +kernel
  have e3 : "{choices_w_wage}".toList = '{' :: "choices_w_wage}".toList := by decide +kernel
  unfold convertFilter
  simp only [List.mem_cons, Prod.mk.injEq, List.not_mem_nil, or_false] at hk
  rcases hk with ⟨rfl, rfl⟩ | ⟨rfl, rfl⟩ | ⟨rfl, rfl⟩
  · rw [e1]
    have h1 := hold "choices_w_exp}".toList (by decide +kernel) (by simp) (by decide +kernel)
    dsimp only
    rw [h1, if_neg (by simp), if_pos (hyes _)]
    congr 1
    apply List.map_congr_left
    intro c _
    rw [replaceAll_template _ _ _ _ _ hparts]
  · rw [e1, e2]
    have h1 := hold "choices_wo_exp}".toList (by decide +kernel) (by simp) (by decide +kernel)
    have h2 := hno "choices_wo_exp}".toList "choices_w_exp}".toList (by decide +kernel)
      (by decide +kernel) (by decide +kernel)
    dsimp only
    rw [h1, if_neg (by simp), h2, if_neg (by simp), if_pos (hyes _)]
    congr 1
    apply List.map_congr_left
    intro c _
    rw [replaceAll_template _ _ _ _ _ hparts]
  · rw [e1, e2, e3]
    have h1 := hold "choices_w_wage}".toList (by decide +kernel) (by simp) (by decide +kernel)
    have h2 := hno "choices_w_wage}".toList "choices_w_exp}".toList (by decide +kernel)
      (by decide +kernel) (by decide +kernel)
    have h3 := hno "choices_w_wage}".toList "choices_wo_exp}".toList (by decide +kernel)
      (by decide +kernel) (by decide +kernel)
    dsimp only
    rw [h1, if_neg (by simp), h2, if_neg (by simp), h3, if_neg (by simp), if_pos (hyes _)]
    congr 1
    apply List.map_congr_left
    intro c _
    rw [replaceAll_template _ _ _ _ _ hparts]

/-- What a filter of the user stands for: itself without templates, otherwise one filter for each choice of the kind. -/
inductive FilterMeaning (choices : List Str) (observables : List (Str × List (Option Str))) (kinds : ChoiceKinds) :
    Str → List Str → Prop
  | plain (f : Str) : '{' ∉ f → FilterMeaning choices observables kinds f [replaceLabels choices observables f]
  | template (t : Str) (names : List Str) (first : Str) (parts : List Str) :
      (t, names) ∈ [("{choices_w_exp}".toList, kinds.wExp), ("{choices_wo_exp}".toList, kinds.woExp),
        ("{choices_w_wage}".toList, kinds.wWage)] → parts ≠ [] → (∀ s ∈ first :: parts, '{' ∉ s) →
      FilterMeaning choices observables kinds (first ++ parts.flatMap (t ++ ·))
        (names.map fun choice => replaceLabels choices observables (first ++ parts.flatMap (choice ++ ·)))

/-- All filters of the user are converted, in their order. -/
theorem C49_all_filters (choices : List Str) (observables : List (Str × List (Option Str))) (kinds : ChoiceKinds)
    (filters : List Str) (out : List (List Str))
    (h : List.Forall₂ (FilterMeaning choices observables kinds) filters out) :
    convertFilters choices observables kinds filters = some out.flatten := by
  have hone : ∀ f l, FilterMeaning choices observables kinds f l →
      convertFilter choices observables kinds f = some l := by
    intro f l hf
    cases hf with
    | template t names first parts hk hne hparts =>
      exact C49_filters choices observables kinds t names hk first parts hne hparts
    | plain _ hplain =>
      have hno : ∀ t : Str, '{' ∈ t → containsText t f = false := by
        intro t ht
        apply decide_eq_false
        rintro ⟨a, b, rfl⟩
        exact hplain (by simp [ht])
      unfold convertFilter
      dsimp only
      rw [if_neg, if_neg, if_neg, if_neg]
      · rw [hno _ (by decide)]; simp
      · rw [hno _ (by decide)]; simp
      · rw [hno _ (by decide)]; simp
      · simp only [List.any_cons, List.any_nil, Bool.or_false]
        rw [hno _ (by decide), hno _ (by decide), hno _ (by decide)]
        simp
  have hall : filters.mapM (convertFilter choices observables kinds) = some out := by
    induction h with
    | nil => rfl
    | cons hx _ ih => rw [List.mapM_cons, hone _ _ hx, ih]; rfl
  unfold convertFilters
  rw [hall]
  rfl

/-- Two filters of different kinds. -/
example : List.Forall₂ (FilterMeaning ["a".toList, "edu".toList] [] ⟨["a".toList, "edu".toList], [], ["a".toList]⟩)
    ["period > 0".toList, "exp_{choices_w_wage} == 0".toList]
    [["period > 0".toList], ["exp_a == 0".toList]] := by
  refine .cons ?_ (.cons ?_ .nil)
  · exact .plain _ (by decide)
  · exact .template "{choices_w_wage}".toList ["a".toList] "exp_".toList [" == 0".toList] (by simp) (by simp)
      (by decide)

/-- A formula with labels in both kinds of quotes, and a filter with a template. -/
example : replaceLabels ["a".toList, "home".toList] [("region".toList, [none, some "high".toList])]
    "lagged_choice_1 == 'home' and region == \"high\"".toList =
    "lagged_choice_1 == 1 and region == 1".toList := by
  decide +kernel

example : WellQuoted (· = ' ') true [.plain "lagged_choice_1 == ".toList, .quoted '\'' "home".toList,
    .plain " and region == ".toList, .quoted '"' "high".toList] := by
  simp [WellQuoted, NoQuotes, IsQuote]

example : convertFilters ["a".toList, "edu".toList, "home".toList] []
    ⟨["a".toList, "edu".toList], ["home".toList], ["a".toList]⟩
    ["lagged_choice_1 == '{choices_w_exp}' and exp_{choices_w_exp} == 0".toList] =
    some ["lagged_choice_1 == 0 and exp_a == 0".toList, "lagged_choice_1 == 1 and exp_edu == 0".toList] := by
  decide +kernel

end Respy
