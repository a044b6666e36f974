import Verif.Model.Simulate
import Verif.Lemmas.Shocks

/-! Lemmas on the simulation of one individual in one period. -/

set_option linter.unusedSectionVars false

namespace Respy

variable {K : Type _} [Field K] [LinearOrder K]

theorem argmaxFrom_spec (best : K) (pos i : Nat) (xs : List K) :
    (argmaxFrom best pos i xs = pos ∧ ∀ x ∈ xs, x ≤ best) ∨
    ∃ (j : Nat) (v : K), argmaxFrom best pos i xs = i + j ∧ xs[j]? = some v ∧ best < v ∧
      (∀ x ∈ xs, x ≤ v) ∧ ∀ (j' : Nat) (v' : K), j' < j → xs[j']? = some v' → v' < v := by
  induction xs generalizing best pos i with
  | nil => left; simp [argmaxFrom]
  | cons x xs ih =>
    unfold argmaxFrom
    by_cases hx : best < x
    · rw [if_pos hx]
      right
      rcases ih x i (i + 1) with ⟨h1, h2⟩ | ⟨j, v, h1, h2, h3, h4, h5⟩
      · refine ⟨0, x, by simpa using h1, rfl, hx, ?_, by simp⟩
        intro y hy
        rcases List.mem_cons.1 hy with rfl | hy
        · exact le_refl _
        · exact h2 y hy
      · refine ⟨j + 1, v, by rw [h1]; omega, by simpa using h2, hx.trans h3, ?_, ?_⟩
        · intro y hy
          rcases List.mem_cons.1 hy with rfl | hy
          · exact h3.le
          · exact h4 y hy
        · intro j' v' hj hv
          cases j' with
          | zero =>
            simp only [List.getElem?_cons_zero, Option.some.injEq] at hv
            rw [← hv]; exact h3
          | succ j' => exact h5 j' v' (by omega) (by simpa using hv)
    · rw [if_neg hx]
      rcases ih best pos (i + 1) with ⟨h1, h2⟩ | ⟨j, v, h1, h2, h3, h4, h5⟩
      · left
        refine ⟨h1, ?_⟩
        intro y hy
        rcases List.mem_cons.1 hy with rfl | hy
        · exact not_lt.1 hx
        · exact h2 y hy
      · right
        refine ⟨j + 1, v, by rw [h1]; omega, by simpa using h2, h3, ?_, ?_⟩
        · intro y hy
          rcases List.mem_cons.1 hy with rfl | hy
          · exact (not_lt.1 hx).trans h3.le
          · exact h4 y hy
        · intro j' v' hj hv
          cases j' with
          | zero =>
            simp only [List.getElem?_cons_zero, Option.some.injEq] at hv
            rw [← hv]; exact (not_lt.1 hx).trans_lt h3
          | succ j' => exact h5 j' v' (by omega) (by simpa using hv)

/-- The first position of the maximum. -/
theorem argmax_spec (xs : List K) (q : Nat) (h : argmax xs = some q) :
    ∃ v, xs[q]? = some v ∧ (∀ x ∈ xs, x ≤ v) ∧
      ∀ (j : Nat) (x : K), j < q → xs[j]? = some x → x < v := by
  cases xs with
  | nil => simp [argmax] at h
  | cons x xs =>
    simp only [argmax, Option.some.injEq] at h
    rcases argmaxFrom_spec x 0 1 xs with ⟨h1, h2⟩ | ⟨j, v, h1, h2, h3, h4, h5⟩
    · rw [h1] at h
      subst h
      refine ⟨x, rfl, ?_, by simp⟩
      intro y hy
      rcases List.mem_cons.1 hy with rfl | hy
      · exact le_refl _
      · exact h2 y hy
    · rw [h1] at h
      subst h
      refine ⟨v, by rw [Nat.add_comm]; simpa using h2, ?_, ?_⟩
      · intro y hy
        rcases List.mem_cons.1 hy with rfl | hy
        · exact h3.le
        · exact h4 y hy
      · intro j' y hj hy
        cases j' with
        | zero =>
          simp only [List.getElem?_cons_zero, Option.some.injEq] at hy
          rw [← hy]; exact h3
        | succ j' => exact h5 j' y (by omega) (by simpa using hy)

theorem argmax_isSome (xs : List K) (h : xs ≠ []) : ∃ q, argmax xs = some q := by
  cases xs with
  | nil => exact absurd rfl h
  | cons x xs => exact ⟨_, rfl⟩

/-! ### The loop which maps positions to codes -/

/-- The loop started at position `k`. -/
def remapFrom (k : Nat) (ps : List Nat) (c : Nat) : Nat :=
  (ps.zipIdx k).foldl (fun c vp => if c = vp.2 then vp.1 else c) c

theorem remapFrom_cons (k p : Nat) (ps : List Nat) (c : Nat) :
    remapFrom k (p :: ps) c = remapFrom (k + 1) ps (if c = k then p else c) := rfl

theorem remapFrom_outside (k : Nat) (ps : List Nat) (c : Nat) (h : c < k ∨ k + ps.length ≤ c) :
    remapFrom k ps c = c := by
  induction ps generalizing k c with
  | nil => rfl
  | cons p ps ih =>
    simp only [List.length_cons] at h
    rw [remapFrom_cons, if_neg (by omega)]
    exact ih (k + 1) c (by omega)

theorem remapFrom_mem (k : Nat) (ps : List Nat) (c : Nat) :
    (remapFrom k ps c = c ∨ remapFrom k ps c ∈ ps) ∧
      (k ≤ c → c < k + ps.length → remapFrom k ps c ∈ ps) := by
  induction ps generalizing k c with
  | nil => exact ⟨Or.inl rfl, fun h1 h2 => absurd h2 (by simp only [List.length_nil]; omega)⟩
  | cons p ps ih =>
    rw [remapFrom_cons]
    by_cases hc : c = k
    · rw [if_pos hc]
      have : remapFrom (k + 1) ps p ∈ p :: ps := by
        rcases (ih (k + 1) p).1 with h | h
        · rw [h]; simp
        · exact List.mem_cons_of_mem _ h
      exact ⟨Or.inr this, fun _ _ => this⟩
    · rw [if_neg hc]
      refine ⟨?_, fun h1 h2 => List.mem_cons_of_mem _ ((ih (k + 1) c).2 (by omega) ?_)⟩
      · rcases (ih (k + 1) c).1 with h | h
        · exact Or.inl h
        · exact Or.inr (List.mem_cons_of_mem _ h)
      · simp only [List.length_cons] at h2; omega

/-- With positions at least as large as their index the loop never decreases a code. -/
theorem remapFrom_ge (k : Nat) (ps : List Nat) (c : Nat)
    (h : ∀ (j : Nat) v, ps[j]? = some v → k + j ≤ v) : c ≤ remapFrom k ps c := by
  induction ps generalizing k c with
  | nil => exact le_refl _
  | cons p ps ih =>
    rw [remapFrom_cons]
    have hp := h 0 p rfl
    have := ih (k + 1) (if c = k then p else c) (fun j v hv => by
      have := h (j + 1) v (by simpa using hv); omega)
    refine le_trans ?_ this
    split <;> omega

/-- The code at the position is passed on to the rest of the loop. -/
theorem remapFrom_at (k : Nat) (ps : List Nat) (j v : Nat) (h : ps[j]? = some v) :
    remapFrom k ps (k + j) = remapFrom (k + j + 1) (ps.drop (j + 1)) v := by
  induction ps generalizing k j with
  | nil => simp at h
  | cons p ps ih =>
    rw [remapFrom_cons]
    cases j with
    | zero =>
      simp only [List.getElem?_cons_zero, Option.some.injEq] at h
      subst h
      simp
    | succ j =>
      rw [if_neg (by omega), show k + (j + 1) = (k + 1) + j by omega]
      rw [ih (k + 1) j (by simpa using h)]
      simp

theorem remapChoice_eq (ps : List Nat) (c : Nat) : remapChoice ps c = remapFrom 0 ps c := rfl

theorem sorted_ge_index (ps : List Nat) (hs : ps.Pairwise (· < ·)) (i j v w : Nat) (hij : i ≤ j)
    (hv : ps[i]? = some v) (hw : ps[j]? = some w) : v + (j - i) ≤ w := by
  induction j generalizing w with
  | zero =>
    obtain rfl : i = 0 := by omega
    rw [hv] at hw
    cases hw
    omega
  | succ j ih =>
    rcases Nat.lt_or_ge i (j + 1) with hlt | hge
    · have hj : j < ps.length := by
        have := (List.getElem?_eq_some_iff.1 hw).1; omega
      have h1 := ih (ps[j]) (by omega) (List.getElem?_eq_getElem hj)
      obtain ⟨h2, h3⟩ := List.getElem?_eq_some_iff.1 hw
      have := List.pairwise_iff_getElem.1 hs j (j + 1) hj h2 (by omega)
      omega
    · obtain rfl : i = j + 1 := by omega
      rw [hv] at hw
      cases hw
      omega

/-- The loop maps position `q` to its code exactly if the code is the position itself or not a position
at all. -/
theorem remapChoice_iff (ps : List Nat) (hs : ps.Pairwise (· < ·)) (q a : Nat)
    (hq : ps[q]? = some a) : remapChoice ps q = a ↔ a = q ∨ ps.length ≤ a := by
  have hge : ∀ (j : Nat) v, ps[j]? = some v → j ≤ v := by
    intro j v hv
    have hpos : 0 < ps.length := by have := (List.getElem?_eq_some_iff.1 hv).1; omega
    have := sorted_ge_index ps hs 0 j _ v (by omega) (List.getElem?_eq_getElem hpos) hv
    omega
  have hqa := hge q a hq
  have hqlt := (List.getElem?_eq_some_iff.1 hq).1
  rw [remapChoice_eq]
  have h0 := remapFrom_at 0 ps q a hq
  rw [Nat.zero_add] at h0
  rw [h0]
  constructor
  · intro h
    by_contra hne
    obtain ⟨h1, h2⟩ : a ≠ q ∧ a < ps.length := by omega
    have ha : ps[a]? = some ps[a] := List.getElem?_eq_getElem h2
    have h3 := sorted_ge_index ps hs q a a _ hqa hq ha
    have hdrop : (ps.drop (q + 1))[a - (q + 1)]? = some ps[a] := by
      rw [List.getElem?_drop, show q + 1 + (a - (q + 1)) = a by omega, ha]
    have h4 := remapFrom_at (q + 1) (ps.drop (q + 1)) (a - (q + 1)) ps[a] hdrop
    rw [show q + 1 + (a - (q + 1)) = a by omega] at h4
    rw [h4] at h
    have h5 := remapFrom_ge (a + 1) ((ps.drop (q + 1)).drop (a - (q + 1) + 1)) ps[a] (fun j v hv => by
      rw [List.getElem?_drop, List.getElem?_drop] at hv
      have := hge _ v hv
      omega)
    omega
  · rintro (rfl | h)
    · exact remapFrom_outside _ _ _ (by omega)
    · refine remapFrom_outside _ _ _ (Or.inr ?_)
      rw [List.length_drop]; omega

end Respy
