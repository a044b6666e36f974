import Verif.Model.LawOfMotion

/-! Helper lemmas on the law of motion. -/

namespace Respy

theorem updateExp_getElem? (exp : List Nat) (c i : Nat) :
    (updateExp exp c)[i]? = exp[i]?.map (· + if c = i then 1 else 0) := by
  simp [updateExp, List.getElem?_mapIdx]

theorem updateExp_cons_zero (a : Nat) (l : List Nat) : updateExp (a :: l) 0 = (a + 1) :: l := by
  apply List.ext_getElem?
  intro i
  rw [updateExp_getElem?]
  cases i <;> simp

theorem updateExp_cons_succ (a : Nat) (l : List Nat) (c : Nat) :
    updateExp (a :: l) (c + 1) = a :: updateExp l c := by
  apply List.ext_getElem?
  intro i
  rw [updateExp_getElem?]
  cases i <;> simp [updateExp_getElem?]

theorem length_updateExp (l : List Nat) (c : Nat) : (updateExp l c).length = l.length := by
  simp [updateExp]

theorem sum_updateExp_le (l : List Nat) (c : Nat) : (updateExp l c).sum ≤ l.sum + 1 := by
  induction l generalizing c with
  | nil => simp [updateExp]
  | cons a l ih =>
    cases c with
    | zero => rw [updateExp_cons_zero]; simp; omega
    | succ c => rw [updateExp_cons_succ]; have := ih c; simp; omega

theorem le_sum_of_mem (l : List Nat) (x : Nat) (h : x ∈ l) : x ≤ l.sum := by
  induction l with
  | nil => simp at h
  | cons a l ih =>
    rcases List.mem_cons.1 h with rfl | h
    · simp
    · have := ih h; simp; omega

end Respy
