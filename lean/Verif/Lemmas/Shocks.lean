import Verif.Model.Shocks
import Verif.Spec.Shocks
import Verif.Lemmas.MapM
import Verif.Lemmas.Exogenous
import Verif.Lemmas.Solve4
import Mathlib.Tactic.Ring

/-! Lemmas on the transformation of shocks. -/

set_option linter.unusedSectionVars false

namespace Respy

variable {K : Type _} [Field K] [LinearOrder K]

theorem boolIndex_length {α : Type _} (mask : List Bool) (xs ys : List α)
    (h : boolIndex mask xs = some ys) : mask.length = xs.length ∧ ys.length = mask.count true := by
  unfold boolIndex at h
  split at h
  · rename_i hl
    refine ⟨hl, ?_⟩
    simp only [Option.some.injEq] at h
    subst h
    induction mask generalizing xs with
    | nil => simp
    | cons b mask ih =>
      cases xs with
      | nil => simp at hl
      | cons x xs =>
        have := ih xs (by simpa using hl)
        cases b <;> simp [this]
  · simp at h

theorem boolIndex_at {α : Type _} (mask : List Bool) (xs ys : List α)
    (h : boolIndex mask xs = some ys) (a : Nat) (ha : mask[a]? = some true) :
    ys[positionIn mask a]? = xs[a]? := by
  unfold boolIndex at h
  split at h
  · rename_i hl
    simp only [Option.some.injEq] at h
    subst h
    induction mask generalizing xs a with
    | nil => simp at ha
    | cons b mask ih =>
      cases xs with
      | nil => simp at hl
      | cons x xs =>
        cases a with
        | zero =>
          simp only [List.getElem?_cons_zero, Option.some.injEq] at ha
          subst ha
          simp [positionIn]
        | succ a =>
          have := ih xs a (by simpa using ha) (by simpa using hl)
          rw [List.getElem?_cons_succ, ← this]
          cases b <;> simp [positionIn]
  · simp at h

/-- A position of a choice set belongs to an alternative. -/
theorem exists_of_lt_count (cs : List Bool) (q : Nat) (h : q < cs.count true) :
    ∃ a : Nat, cs[a]? = some true ∧ positionIn cs a = q := by
  rw [← length_validChoices] at h
  have hq : (validChoices cs)[q]? = some (validChoices cs)[q] := List.getElem?_eq_getElem h
  have ha := (mem_validChoices cs _).1 (List.getElem_mem h)
  refine ⟨_, ha, ?_⟩
  have h2 := validChoices_positionIn cs _ ha
  obtain ⟨h3, h4⟩ := List.getElem?_eq_some_iff.1 h2
  exact (List.Nodup.getElem_inj_iff (validChoices_nodup cs)).1 h4

theorem positionIn_inj (cs : List Bool) (a b : Nat) (ha : cs[a]? = some true)
    (hb : cs[b]? = some true) (h : positionIn cs a = positionIn cs b) : a = b := by
  have h1 := validChoices_positionIn cs a ha
  have h2 := validChoices_positionIn cs b hb
  rw [h, h2] at h1
  exact (Option.some.inj h1).symm

theorem positionIn_mono (cs : List Bool) (a b : Nat) (h : a ≤ b) :
    positionIn cs a ≤ positionIn cs b := by
  unfold positionIn
  exact ((List.take_sublist_take_left h).count_le _)

theorem positionIn_succ (cs : List Bool) (a : Nat) (ha : cs[a]? = some true) :
    positionIn cs (a + 1) = positionIn cs a + 1 := by
  obtain ⟨hlt, h2⟩ := List.getElem?_eq_some_iff.1 ha
  unfold positionIn
  rw [List.take_succ_eq_append_getElem hlt, List.count_append, h2]
  simp

theorem positionIn_lt_iff (cs : List Bool) (a b : Nat) (ha : cs[a]? = some true) :
    positionIn cs a < positionIn cs b ↔ a < b := by
  constructor
  · intro h
    by_contra hba
    have := positionIn_mono cs b a (by omega)
    omega
  · intro h
    have h1 := positionIn_mono cs (a + 1) b h
    have h2 := positionIn_succ cs a ha
    omega

/-- Among the positions of a choice set those of alternatives with a wage come first. -/
theorem positionIn_lt_nWagesIn (n : Nat) (cs : List Bool) (a : Nat) (ha : cs[a]? = some true) :
    positionIn cs a < nWagesIn n cs ↔ a < n := positionIn_lt_iff cs a n ha

theorem positionIn_le (cs : List Bool) (a : Nat) : positionIn cs a ≤ a := by
  unfold positionIn
  exact List.count_le_length.trans (by simp)

theorem subsetCholesky_spec (L : List (List K)) (cs : List Bool) (f : List (List K))
    (h : subsetCholesky L cs = some f) :
    f.length = cs.count true ∧ ∀ a : Nat, cs[a]? = some true →
      ∃ row frow : List K, L[a]? = some row ∧ f[positionIn cs a]? = some frow ∧
        frow.length = cs.count true ∧
        ∀ b : Nat, cs[b]? = some true → ∃ x, frow[positionIn cs b]? = some x ∧ row[b]? = some x := by
  unfold subsetCholesky at h
  have hlen := mapM_eq_some_length _ _ _ h
  rw [length_validChoices] at hlen
  refine ⟨hlen, fun a ha => ?_⟩
  have h1 := mapM_getElem? _ _ _ h _ _ (validChoices_positionIn cs a ha)
  have hlt : positionIn cs a < f.length := by rw [hlen]; exact positionIn_lt cs a ha
  rw [List.getElem?_eq_getElem hlt] at h1
  obtain ⟨row, hrow, h2⟩ := Option.bind_eq_some_iff.1 h1.symm
  have hl2 := mapM_eq_some_length _ _ _ h2
  rw [length_validChoices] at hl2
  refine ⟨row, _, hrow, List.getElem?_eq_getElem hlt, hl2, fun b hb => ?_⟩
  have h3 := mapM_getElem? _ _ _ h2 _ _ (validChoices_positionIn cs b hb)
  have hlt2 : positionIn cs b < (f[positionIn cs a]).length := by
    rw [hl2]; exact positionIn_lt cs b hb
  rw [List.getElem?_eq_getElem hlt2] at h3
  exact ⟨_, List.getElem?_eq_getElem hlt2, h3.symm⟩

/-- A dot product over the positions of a choice set is a sum over the alternatives. -/
theorem dotList_eq_sum (cs : List Bool) (xs ys : List K) (hx : xs.length = cs.count true)
    (hy : ys.length = cs.count true) :
    dotList xs ys = ((List.range cs.length).map fun j =>
      if cs[j]? = some true then
        (xs[positionIn cs j]?).getD 0 * (ys[positionIn cs j]?).getD 0 else 0).sum := by
  unfold dotList
  induction cs generalizing xs ys with
  | nil =>
    simp only [List.count_nil] at hx hy
    rw [List.length_eq_zero_iff.1 hx]
    simp
  | cons b cs ih =>
    rw [List.length_cons, List.range_succ_eq_map, List.map_cons, List.sum_cons, List.map_map]
    cases b with
    | false =>
      simp only [List.count_cons, beq_iff_eq, Bool.false_eq_true, if_false, Nat.add_zero] at hx hy
      rw [ih xs ys hx hy]
      simp [positionIn, Function.comp_def]
    | true =>
      cases xs with
      | nil => simp at hx
      | cons x xs =>
        cases ys with
        | nil => simp at hy
        | cons y ys =>
          have := ih xs ys (by simpa using hx) (by simpa using hy)
          simp only [List.zipWith_cons_cons, List.sum_cons, this]
          simp [positionIn, Function.comp_def]

theorem valueFunctions_getElem? (delta : K) (w m c e : List K) (j : Nat) (v : K) :
    (valueFunctions delta w m c e)[j]? = some v ↔ ∃ (wj mj cj ej : K), w[j]? = some wj ∧
      m[j]? = some mj ∧ c[j]? = some cj ∧ e[j]? = some ej ∧ v = wj * ej + mj + delta * cj := by
  induction w generalizing m c e j with
  | nil => simp [valueFunctions]
  | cons w0 w ih =>
    cases m with
    | nil => simp [valueFunctions]
    | cons m0 m =>
      cases c with
      | nil => simp [valueFunctions]
      | cons c0 c =>
        cases e with
        | nil => simp [valueFunctions]
        | cons e0 e =>
          cases j with
          | zero =>
            simp only [valueFunctions, kwUtility, List.getElem?_cons_zero, Option.some.injEq]
            constructor
            · rintro rfl; exact ⟨_, _, _, _, rfl, rfl, rfl, rfl, rfl⟩
            · rintro ⟨_, _, _, _, rfl, rfl, rfl, rfl, rfl⟩; rfl
          | succ j => simpa [valueFunctions] using ih m c e j

theorem valueFunctions_length (delta : K) (w m c e : List K) (hm : m.length = w.length)
    (hc : c.length = w.length) (he : e.length = w.length) :
    (valueFunctions delta w m c e).length = w.length := by
  induction w generalizing m c e with
  | nil => simp [valueFunctions]
  | cons w0 w ih =>
    cases m with
    | nil => simp at hm
    | cons m0 m =>
      cases c with
      | nil => simp at hc
      | cons c0 c =>
        cases e with
        | nil => simp at he
        | cons e0 e =>
          simp only [valueFunctions, List.length_cons, Nat.add_right_cancel_iff]
          exact ih m c e (by simpa using hm) (by simpa using hc) (by simpa using he)

/-- The transformed draw of alternative `a`; `z j` is the draw at the position of alternative `j`. -/
theorem transformDraw_spec (exp : K → K) (lo hi : K) (L : List (List K)) (n : Nat) (cs : List Bool)
    (draw e : List K) (h : transformDraw exp lo hi L n cs draw = some e) (z : Nat → K)
    (hz : ∀ j : Nat, cs[j]? = some true → draw[positionIn cs j]? = some (z j)) :
    e.length = cs.count true ∧ draw.length = cs.count true ∧ ∀ a : Nat, cs[a]? = some true →
      e[positionIn cs a]? = some (shockOf exp lo hi L n cs z a) := by
  unfold transformDraw at h
  obtain ⟨f, hf, h⟩ := Option.bind_eq_some_iff.1 h
  obtain ⟨hfl, hfs⟩ := subsetCholesky_spec L cs f hf
  split at h
  · rename_i hl
    cases h
    refine ⟨by simp [hfl], by omega, fun a ha => ?_⟩
    obtain ⟨row, frow, hrow, hfrow, hfrl, hx⟩ := hfs a ha
    have hdot : dotList draw frow = latentShock L cs z a := by
      rw [dotList_eq_sum cs draw frow (by omega) hfrl]
      unfold latentShock
      congr 1
      refine List.map_congr_left fun j _ => ?_
      by_cases hj : cs[j]? = some true
      · obtain ⟨x, hx1, hx2⟩ := hx j hj
        simp only [if_pos hj, hz j hj, hx1, entry, hrow, Option.bind_some, hx2, Option.getD_some]
        ring
      · simp only [if_neg hj]
    rw [List.getElem?_mapIdx, List.getElem?_map, hfrow]
    simp only [Option.map_some, hdot, shockOf, positionIn_lt_nWagesIn n cs a ha, clip]
  · simp at h

end Respy
