import Verif.Lemmas.Text
import Mathlib.Data.List.Basic
import Mathlib.Tactic.Push

/-! # Regular expressions find whole words -/

namespace Respy

/-- `w` occurs in `s` as a whole word: the characters before and after it are no word characters. `prev`
is the character before `s`. -/
def WholeWord (prev : Option Char) (w s : Str) : Prop :=
  ∃ a b, s = a ++ w ++ b ∧ (∀ c, (a.getLast?.or prev) = some c → isWordChar c = false) ∧
    ∀ c, b.head? = some c → isWordChar c = false

theorem not_word_of_boundary_right {prev : Option Char} {c : Char} (hc : isWordChar c = true) :
    isBoundary prev (some c) = true ↔ ∀ d, prev = some d → isWordChar d = false := by
  cases prev with
  | none => simp [isBoundary, hc]
  | some d => simp [isBoundary, hc]

theorem not_word_of_boundary_left {next : Option Char} {c : Char} (hc : isWordChar c = true) :
    isBoundary (some c) next = true ↔ ∀ d, next = some d → isWordChar d = false := by
  cases next with
  | none => simp [isBoundary, hc]
  | some d => simp [isBoundary, hc]

section

variable {pre : Str} {cls : Char → Bool} (hpre : pre ≠ []) (hw : ∀ c ∈ pre, isWordChar c = true)
  (hcls : ∀ c, cls c = true → isWordChar c = true)

include hpre hw hcls

theorem matchHere_iff (prev : Option Char) (s g r : Str) :
    matchHere pre cls prev s = some (g, r) ↔ s = pre ++ g ++ r ∧ g ≠ [] ∧
      (∀ c ∈ g, cls c = true) ∧ (∀ c, prev = some c → isWordChar c = false) ∧
      ∀ c, r.head? = some c → isWordChar c = false := by
  obtain ⟨c0, pre', hp⟩ := List.exists_cons_of_ne_nil hpre
  have hc0 : isWordChar c0 = true := hw c0 (by simp [hp])
  constructor
  · intro h
    obtain ⟨h1, h2, h3⟩ := matchHere_some pre cls prev s g r h
    refine ⟨h1, h2, h3, ?_⟩
    unfold matchHere at h
    split at h
    · rename_i hb
      simp only at h
      split at h
      · rename_i hb'
        simp only [Option.some.injEq, Prod.mk.injEq] at h
        obtain ⟨hg, hr⟩ := h
        rw [hg, hr] at hb'
        simp only [Bool.and_eq_true] at hb hb'
        have hhead : s.head? = some c0 := by rw [h1, hp]; rfl
        rw [hhead, not_word_of_boundary_right hc0] at hb
        have hl : g.getLast? = some (g.getLast h2) := List.getLast?_eq_some_getLast h2
        rw [hl, not_word_of_boundary_left (hcls _ (h3 _ (List.getLast_mem h2)))] at hb'
        exact ⟨hb.2, hb'.2⟩
      · cases h
    · cases h
  · rintro ⟨rfl, h2, h3, h4, h5⟩
    obtain ⟨e1, e2⟩ := takeWhile_append_of_all cls g r h3 (fun x hx => by
      by_contra hne
      have := hcls x (by simpa using hne)
      rw [h5 x hx] at this
      cases this)
    have hhead : (pre ++ g ++ r).head? = some c0 := by rw [hp]; rfl
    have hl : g.getLast? = some (g.getLast h2) := List.getLast?_eq_some_getLast h2
    have hb1 : isBoundary prev (pre ++ g ++ r).head? = true := by
      rw [hhead]; exact (not_word_of_boundary_right hc0).2 h4
    have hb2 : isBoundary g.getLast? r.head? = true := by
      rw [hl]
      exact (not_word_of_boundary_left (hcls _ (h3 _ (List.getLast_mem h2)))).2 h5
    unfold matchHere
    rw [hb1, List.append_assoc, isPrefixOf_append_self]
    simp only [Bool.and_self, if_true, List.drop_left, e1, e2, hb2]
    simp [h2]

theorem mem_findAllFuel (fuel : Nat) (prev : Option Char) (s x : Str) (hf : s.length < fuel) :
    x ∈ findAllFuel pre cls fuel prev s ↔
      x ≠ [] ∧ (∀ c ∈ x, cls c = true) ∧ WholeWord prev (pre ++ x) s := by
  have hpos : 0 < pre.length := List.length_pos_iff.2 hpre
  induction fuel generalizing prev s with
  | zero => omega
  | succ fuel ih =>
    unfold findAllFuel
    split
    · rename_i g r hm
      obtain ⟨h1, h2, h3, h4, h5⟩ := (matchHere_iff hpre hw hcls prev s g r).1 hm
      have hlen : r.length < fuel := by
        have := congrArg List.length h1
        simp only [List.length_append] at this
        omega
      rw [List.mem_cons, show _ ↔ _ from ih g.getLast? r hlen]
      have hword : ∀ c ∈ pre ++ g, isWordChar c = true := by
        intro c hc
        rcases List.mem_append.1 hc with h | h
        · exact hw c h
        · exact hcls c (h3 c h)
      constructor
      · rintro (rfl | ⟨hx, hxc, a, b, he, ha, hb⟩)
        · exact ⟨h2, h3, [], r, by simpa using h1, by simpa using h4, h5⟩
        · refine ⟨hx, hxc, pre ++ g ++ a, b, ?_, ?_, hb⟩
          · rw [h1, he]; simp
          · intro c hc
            apply ha c
            rcases List.eq_nil_or_concat' a with rfl | ⟨a', c', rfl⟩
            · rw [List.append_nil, List.getLast?_append_of_ne_nil _ h2] at hc
              simpa [h2] using hc
            · rw [← List.append_assoc] at hc
              simpa using hc
      · rintro ⟨hx, hxc, a, b, he, ha, hb⟩
        by_cases hal : a.length < (pre ++ g).length
        · left
          have hanil : a = [] := by
            by_contra hne
            have hmem : a.getLast hne ∈ pre ++ g := by
              have hpfx : a <+: pre ++ g := by
                refine List.prefix_of_prefix_length_le (l₃ := s) ⟨pre ++ x ++ b, ?_⟩ ⟨r, ?_⟩ (Nat.le_of_lt hal)
                · rw [he]; simp
                · rw [h1]
              exact hpfx.subset (List.getLast_mem hne)
            have := ha _ (by rw [List.getLast?_eq_some_getLast hne]; rfl)
            rw [hword _ hmem] at this
            cases this
          subst hanil
          have heq : x ++ b = g ++ r := by
            have : pre ++ (x ++ b) = pre ++ (g ++ r) := by
              rw [← List.append_assoc, ← List.append_assoc, ← h1, he]; simp
            exact List.append_cancel_left this
          have e1 := (takeWhile_append_of_all isWordChar x b (fun c hc => hcls c (hxc c hc)) hb).1
          have e2 := (takeWhile_append_of_all isWordChar g r (fun c hc => hcls c (h3 c hc)) h5).1
          rw [← e1, ← e2, heq]
        · right
          refine ⟨hx, hxc, ?_⟩
          have hpfx : pre ++ g <+: a := by
            refine List.prefix_of_prefix_length_le (l₃ := s) ⟨r, ?_⟩ ⟨pre ++ x ++ b, ?_⟩ (by omega)
            · rw [h1]
            · rw [he]; simp
          obtain ⟨a', rfl⟩ := hpfx
          refine ⟨a', b, ?_, ?_, hb⟩
          · have : (pre ++ g) ++ r = (pre ++ g) ++ (a' ++ (pre ++ x) ++ b) := by
              rw [← h1, he]; simp
            exact List.append_cancel_left this
          · intro c hc
            apply ha c
            rcases List.eq_nil_or_concat' a' with rfl | ⟨a'', c', rfl⟩
            · rw [List.append_nil, List.getLast?_append_of_ne_nil _ h2]
              simp only [List.getLast?_nil, Option.none_or] at hc
              rw [hc]; rfl
            · rw [← List.append_assoc]
              simpa using hc
    · rename_i hm
      have hno : ∀ b, x ≠ [] → (∀ c ∈ x, cls c = true) → s = [] ++ (pre ++ x) ++ b →
          (∀ c, prev = some c → isWordChar c = false) →
          (∀ c, b.head? = some c → isWordChar c = false) → False := by
        intro b hx hxc he hp hb
        have := (matchHere_iff hpre hw hcls prev s x b).2 ⟨by simpa using he, hx, hxc, hp, hb⟩
        rw [this] at hm
        cases hm
      split
      · constructor
        · simp
        · rintro ⟨hx, hxc, a, b, he, ha, hb⟩
          have := congrArg List.length he
          simp only [List.length_append, List.length_nil] at this
          omega
      · rename_i c s'
        rw [show _ ↔ _ from ih (some c) s' (by simpa using hf)]
        constructor
        · rintro ⟨hx, hxc, a, b, he, ha, hb⟩
          refine ⟨hx, hxc, c :: a, b, by rw [he]; rfl, ?_, hb⟩
          intro d hd
          apply ha d
          rcases List.eq_nil_or_concat' a with rfl | ⟨a', c', rfl⟩
          · simpa using hd
          · rw [← List.cons_append, List.getLast?_concat] at hd
            simpa using hd
        · rintro ⟨hx, hxc, a, b, he, ha, hb⟩
          cases a with
          | nil => exact absurd (hno b hx hxc he (by simpa using ha) hb) id
          | cons c' a =>
            simp only [List.cons_append, List.cons.injEq] at he
            obtain ⟨rfl, he⟩ := he
            refine ⟨hx, hxc, a, b, he, ?_, hb⟩
            intro d hd
            apply ha d
            rcases List.eq_nil_or_concat' a with rfl | ⟨a', c', rfl⟩
            · simpa using hd
            · rw [← List.cons_append, List.getLast?_concat]
              simpa using hd

/-- `re.findall(r"\bprefix([class]+)\b", s)` finds `x` exactly if `prefix` followed by `x` is a whole word
of `s` and `x` consists of characters of the class. -/
theorem mem_findAll (s x : Str) :
    x ∈ findAll pre cls s ↔ x ≠ [] ∧ (∀ c ∈ x, cls c = true) ∧ WholeWord none (pre ++ x) s :=
  mem_findAllFuel hpre hw hcls _ _ _ _ (Nat.lt_succ_self _)

end

end Respy
