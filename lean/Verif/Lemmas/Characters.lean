import Verif.Spec.Characters
import Verif.Lemmas.Words

/-!
# The characters of the regular expressions are those of the documentation
-/

namespace Respy

theorem char_mem_of_range (l : Str) (lo hi : Nat) (h : ∀ n ∈ List.range' lo (hi + 1 - lo), Char.ofNat n ∈ l)
    (c : Char) (h1 : lo ≤ c.toNat) (h2 : c.toNat ≤ hi) : c ∈ l := by
  have := h c.toNat (List.mem_range'_1.2 ⟨h1, by omega⟩)
  rwa [Char.ofNat_toNat] at this

theorem isNameChar_iff (c : Char) : isNameChar c = true ↔ c ∈ nameCharacters := by
  constructor
  · intro h
    simp only [isNameChar, Char.isAlpha, Char.isUpper, Char.isLower, Bool.or_eq_true, Bool.and_eq_true,
      decide_eq_true_eq] at h
    rcases h with (⟨h1, h2⟩ | ⟨h1, h2⟩) | rfl
    · exact char_mem_of_range _ 65 90 (by decide +kernel)
        c (UInt32.le_iff_toNat_le.1 h1) (UInt32.le_iff_toNat_le.1 h2)
    · exact char_mem_of_range _ 97 122 (by decide +kernel)
        c (UInt32.le_iff_toNat_le.1 h1) (UInt32.le_iff_toNat_le.1 h2)
    · decide
  · exact (by decide +kernel : ∀ c ∈ nameCharacters, isNameChar c = true) c

theorem isWordChar_iff (c : Char) : isWordChar c = true ↔ c ∈ wordCharacters := by
  constructor
  · intro h
    simp only [isWordChar, Char.isAlphanum, Char.isAlpha, Char.isUpper, Char.isLower, Char.isDigit,
      Bool.or_eq_true, Bool.and_eq_true, decide_eq_true_eq] at h
    rcases h with ((⟨h1, h2⟩ | ⟨h1, h2⟩) | ⟨h1, h2⟩) | rfl
    · exact char_mem_of_range _ 65 90 (by decide +kernel)
        c (UInt32.le_iff_toNat_le.1 h1) (UInt32.le_iff_toNat_le.1 h2)
    · exact char_mem_of_range _ 97 122 (by decide +kernel)
        c (UInt32.le_iff_toNat_le.1 h1) (UInt32.le_iff_toNat_le.1 h2)
    · exact char_mem_of_range _ 48 57 (by decide +kernel)
        c (UInt32.le_iff_toNat_le.1 h1) (UInt32.le_iff_toNat_le.1 h2)
    · decide
  · exact (by decide +kernel : ∀ c ∈ wordCharacters, isWordChar c = true) c

theorem wholeWord_iff (w s : Str) : WholeWord none w s ↔ WordOf w s := by
  simp only [WholeWord, WordOf, Option.or_none, ← isWordChar_iff, Bool.not_eq_true]

/-- The only word of a text of word characters is the text. -/
theorem WordOf.eq {w s : Str} (h : WordOf w s) (hs : ∀ c ∈ s, c ∈ wordCharacters) : s = w := by
  obtain ⟨a, b, rfl, ha, hb⟩ := h
  cases b with
  | cons c b => exact absurd (hs c (by simp)) (hb c rfl)
  | nil =>
    rcases a.eq_nil_or_concat with rfl | ⟨a', c, rfl⟩
    · simp
    · exact absurd (hs c (by simp)) (ha c (by simp))

end Respy
