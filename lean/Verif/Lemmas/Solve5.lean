import Verif.Lemmas.Solve4
import Mathlib.Data.Option.Basic

/-! Helper lemmas: the shape of continuation values; discount factor zero. -/

set_option linter.unusedSectionVars false

namespace Respy

theorem optRel_bind {α β γ δ : Type _} {R : α → β → Prop} {S : γ → δ → Prop} {x : Option α}
    {y : Option β} {f : α → Option γ} {g : β → Option δ} (h : Option.Rel R x y)
    (hf : ∀ a b, R a b → Option.Rel S (f a) (g b)) : Option.Rel S (x.bind f) (y.bind g) := by
  cases h with
  | none => exact Option.Rel.none
  | some h => exact hf _ _ h

theorem optRel_refl {α : Type _} {R : α → α → Prop} (hR : ∀ a, R a a) (x : Option α) :
    Option.Rel R x x := by
  cases x with
  | none => exact Option.Rel.none
  | some a => exact Option.Rel.some (hR a)

theorem optRel_mapM {α β γ : Type _} {R : β → γ → Prop} (l : List α) (f : α → Option β)
    (g : α → Option γ) (h : ∀ x ∈ l, Option.Rel R (f x) (g x)) :
    Option.Rel (List.Forall₂ R) (l.mapM f) (l.mapM g) := by
  induction l with
  | nil => simp only [List.mapM_nil]; exact Option.Rel.some List.Forall₂.nil
  | cons x l ih =>
    simp only [List.mapM_cons]
    refine optRel_bind (h x (by simp)) fun a b hab => ?_
    refine optRel_bind (ih fun y hy => h y (by simp [hy])) fun as bs habs => ?_
    exact Option.Rel.some (List.Forall₂.cons hab habs)

theorem optRel_getElem? {α β : Type _} {R : α → β → Prop} {l : List α} {l' : List β}
    (h : List.Forall₂ R l l') (i : Nat) : Option.Rel R l[i]? l'[i]? := by
  induction h generalizing i with
  | nil => exact Option.Rel.none
  | cons h0 _ ih =>
    cases i with
    | zero => exact Option.Rel.some h0
    | succ i => simpa using ih i

theorem optRel_isSome {α β : Type _} {R : α → β → Prop} {x : Option α} {y : Option β}
    (h : Option.Rel R x y) : x.isSome = y.isSome := by
  cases h <;> rfl

theorem optRel_mono {α β : Type _} {R S : α → β → Prop} {x : Option α} {y : Option β}
    (h : Option.Rel R x y) (hRS : ∀ a b, R a b → S a b) : Option.Rel S x y := by
  cases h with
  | none => exact Option.Rel.none
  | some h => exact Option.Rel.some (hRS _ _ h)

variable {K : Type _}

/-- Matrices of the same shape. -/
def MatShape (a b : List (List K)) : Prop := List.Forall₂ (fun r r' => r.length = r'.length) a b

theorem matShape_iff (a b : List (List K)) :
    MatShape a b ↔ a.map List.length = b.map List.length := by
  constructor
  · intro h
    induction h with
    | nil => rfl
    | cons h _ ih => simp only [List.map_cons, h, ih]
  · intro h
    induction a generalizing b with
    | nil => cases b with
      | nil => exact List.Forall₂.nil
      | cons _ _ => simp at h
    | cons x a ih => cases b with
      | nil => simp at h
      | cons y b =>
        simp only [List.map_cons, List.cons.injEq] at h
        exact List.Forall₂.cons h.1 (ih b h.2)

theorem MatShape.refl (a : List (List K)) : MatShape a a := (matShape_iff a a).2 rfl

/-- Dictionaries with the same keys in the same order and related values. -/
def DictRel {ν : Type _} (R : ν → ν → Prop) (a b : Dict Nat ν) : Prop :=
  List.Forall₂ (fun x y => x.1 = y.1 ∧ R x.2 y.2) a b

theorem optRel_get? {ν : Type _} {R : ν → ν → Prop} {a b : Dict Nat ν} (h : DictRel R a b)
    (k : Nat) : Option.Rel R (Dict.get? a k) (Dict.get? b k) := by
  induction h with
  | nil => exact Option.Rel.none
  | cons h0 _ ih =>
    rename_i x y l l' _
    obtain ⟨x1, x2⟩ := x
    obtain ⟨y1, y2⟩ := y
    obtain ⟨rfl, h2⟩ := h0
    simp only [Dict.get?]
    split
    · exact Option.Rel.some h2
    · exact ih

theorem optRel_keyed {ν : Type _} {R : ν → ν → Prop} (k : Nat) {x y : Option ν}
    (h : Option.Rel R x y) :
    Option.Rel (fun x y => x.1 = y.1 ∧ R x.2 y.2) (x.bind fun a => some (k, a))
      (y.bind fun a => some (k, a)) :=
  optRel_bind h fun _ _ hab => Option.Rel.some ⟨rfl, hab⟩

variable [Field K] [LinearOrder K]

theorem optRel_boolIndex (mask : List Bool) (r r' : List K) (h : r.length = r'.length) :
    Option.Rel (fun a b : List K => a.length = b.length) (boolIndex mask r) (boolIndex mask r') := by
  unfold boolIndex
  rw [h]
  split
  · refine Option.Rel.some ?_
    rename_i hl
    clear hl
    induction mask generalizing r r' with
    | nil => simp
    | cons b mask ih =>
      cases r with
      | nil =>
        have : r' = [] := List.length_eq_zero_iff.1 (by simpa using h.symm)
        subst this; rfl
      | cons x r =>
        cases r' with
        | nil => simp at h
        | cons y r' =>
          simp only [List.length_cons, Nat.add_right_cancel_iff] at h
          have := ih r r' h
          cases b <;> simpa using this
  · exact Option.Rel.none

theorem length_foldl_zipWith (rest : List (List K)) (x : List K)
    (h : ∀ y ∈ rest, y.length = x.length) :
    (rest.foldl (List.zipWith (· + ·)) x).length = x.length := by
  induction rest generalizing x with
  | nil => rfl
  | cons y rest ih =>
    have hy := h y (by simp)
    have hlen : (List.zipWith (· + ·) x y).length = x.length := by simp [hy]
    rw [List.foldl_cons, ih, hlen]
    intro z hz
    rw [hlen]
    exact h z (by simp [hz])

theorem optRel_reduceAdd (as bs : List (List K)) (h : MatShape as bs) :
    Option.Rel (fun a b : List K => a.length = b.length) (reduceAdd as) (reduceAdd bs) := by
  cases h with
  | nil => exact Option.Rel.none
  | cons h0 hrest =>
    rename_i x y rest rest'
    have hiff : (∀ z ∈ rest, z.length = x.length) ↔ ∀ z ∈ rest', z.length = y.length := by
      have := (matShape_iff rest rest').1 hrest
      constructor
      · intro hz z hz'
        have : z.length ∈ rest.map List.length := by rw [this]; exact List.mem_map_of_mem hz'
        obtain ⟨z0, hz0, he⟩ := List.mem_map.1 this
        rw [← he, hz z0 hz0, h0]
      · intro hz z hz'
        have : z.length ∈ rest'.map List.length := by rw [← this]; exact List.mem_map_of_mem hz'
        obtain ⟨z0, hz0, he⟩ := List.mem_map.1 this
        rw [← he, hz z0 hz0, h0]
    simp only [reduceAdd]
    by_cases hc : ∀ z ∈ rest, z.length = x.length
    · rw [if_pos hc, if_pos (hiff.1 hc)]
      refine Option.Rel.some ?_
      rw [length_foldl_zipWith _ _ hc, length_foldl_zipWith _ _ (hiff.1 hc), h0]
    · rw [if_neg hc, if_neg fun h => hc (hiff.2 h)]
      exact Option.Rel.none

theorem optRel_weightRow (cs : List Bool) (reps : Dict Nat (List Bool))
    (raw raw' : Dict Nat (List (List K))) (h : DictRel MatShape raw raw')
    (cols : List (Nat × List K)) (i : Nat) :
    Option.Rel (fun a b : List K => a.length = b.length) (weightRow cs reps raw cols i)
      (weightRow cs reps raw' cols i) := by
  unfold weightRow
  refine optRel_bind (R := MatShape) (optRel_mapM _ _ _ fun col _ => ?_) fun a b hab =>
    optRel_reduceAdd a b hab
  refine optRel_bind (optRel_refl (R := Eq) (fun _ => rfl) _) ?_
  rintro rep _ rfl
  refine optRel_bind (optRel_refl (R := Eq) (fun _ => rfl) _) ?_
  rintro mask _ rfl
  refine optRel_bind (optRel_get? h col.1) fun cv cv' hcv => ?_
  refine optRel_bind (optRel_getElem? hcv i) fun r r' hr => ?_
  refine optRel_bind (optRel_boolIndex mask r r' hr) fun a a' ha => ?_
  refine optRel_bind (optRel_refl (R := Eq) (fun _ => rfl) _) ?_
  rintro p _ rfl
  exact Option.Rel.some (by simpa using ha)

theorem optRel_evNext (ss : SolveSpace) (ev ev' : Dict Nat (List K)) (h : SameShape ev ev')
    (t k : Nat) : Option.Rel (fun a b : List K => a.length = b.length)
      (Dict.get? (ss.attributeOfPeriod ev t) k) (Dict.get? (ss.attributeOfPeriod ev' t) k) := by
  rw [get?_attributeOfPeriod, get?_attributeOfPeriod]
  split
  · have := h.2 k
    cases hx : Dict.get? ev k <;> cases hy : Dict.get? ev' k <;> rw [hx, hy] at this <;>
      simp at this
    · exact Option.Rel.none
    · exact Option.Rel.some this
  · exact Option.Rel.none

theorem optRel_continuationArray (ss : SolveSpace) (e e' : Dict Nat (List K))
    (h : ∀ k, Option.Rel (fun a b : List K => a.length = b.length) (Dict.get? e k) (Dict.get? e' k))
    (k : Nat) : Option.Rel MatShape (continuationArray ss e k) (continuationArray ss e' k) := by
  unfold continuationArray
  refine optRel_bind (optRel_refl (R := Eq) (fun _ => rfl) _) ?_
  rintro c _ rfl
  refine optRel_bind (optRel_refl (R := Eq) (fun _ => rfl) _) ?_
  rintro cs _ rfl
  refine optRel_bind (optRel_refl (R := Eq) (fun _ => rfl) _) ?_
  rintro n _ rfl
  refine optRel_bind (optRel_refl (R := Eq) (fun _ => rfl) _) ?_
  rintro children _ rfl
  refine optRel_mapM _ _ _ fun i _ => ?_
  have : Option.Rel (List.Forall₂ fun _ _ : K => True)
      ((List.range (cs.count true)).mapM fun j => do
        let childRow ← children[i]?
        let child ← childRow[j]?
        let denseChoice ← ss.lookup.get? (child.1, c.dense.getD 0)
        let values ← e.get? denseChoice
        values[child.2]?)
      ((List.range (cs.count true)).mapM fun j => do
        let childRow ← children[i]?
        let child ← childRow[j]?
        let denseChoice ← ss.lookup.get? (child.1, c.dense.getD 0)
        let values ← e'.get? denseChoice
        values[child.2]?) := by
    refine optRel_mapM _ _ _ fun j _ => ?_
    refine optRel_bind (optRel_refl (R := Eq) (fun _ => rfl) _) ?_
    rintro childRow _ rfl
    refine optRel_bind (optRel_refl (R := Eq) (fun _ => rfl) _) ?_
    rintro child _ rfl
    refine optRel_bind (optRel_refl (R := Eq) (fun _ => rfl) _) ?_
    rintro dk _ rfl
    refine optRel_bind (h dk) fun vs vs' hvs => ?_
    by_cases hl : child.2 < vs.length
    · rw [List.getElem?_eq_getElem hl, List.getElem?_eq_getElem (by omega)]
      exact Option.Rel.some trivial
    · rw [List.getElem?_eq_none (by omega), List.getElem?_eq_none (by omega)]
      exact Option.Rel.none
  exact optRel_mono this fun _ _ h => h.length_eq

theorem optRel_continuationValues (ss : SolveSpace) (tr : Dict Nat (List (Nat × List K)))
    (ev ev' : Dict Nat (List K)) (h : SameShape ev ev') (t : Nat) :
    Option.Rel (DictRel MatShape) (continuationValues ss tr ev t)
      (continuationValues ss tr ev' t) := by
  unfold continuationValues
  split
  · refine optRel_refl (fun a => ?_) _
    induction a with
    | nil => exact List.Forall₂.nil
    | cons x l ih => exact List.Forall₂.cons ⟨rfl, MatShape.refl _⟩ ih
  · refine optRel_bind (R := DictRel MatShape) (optRel_mapM _ _ _ fun k _ => optRel_keyed k
      (optRel_continuationArray ss _ _ (optRel_evNext ss ev ev' h (t + 1)) k)) ?_
    intro cvs cvs' hcvs
    split
    · exact Option.Rel.some hcvs
    · refine optRel_mapM _ _ _ fun k _ => ?_
      refine optRel_bind (optRel_refl (R := Eq) (fun _ => rfl) _) ?_
      rintro c _ rfl
      refine optRel_bind (optRel_refl (R := Eq) (fun _ => rfl) _) ?_
      rintro n _ rfl
      refine optRel_bind (optRel_refl (R := Eq) (fun _ => rfl) _) ?_
      rintro cols _ rfl
      exact optRel_keyed k (optRel_mapM _ _ _ fun i _ => optRel_weightRow _ _ _ _ hcvs _ _)

theorem valueFunctions_zero (w m c c' d : List K) (h : c.length = c'.length) :
    valueFunctions 0 w m c d = valueFunctions 0 w m c' d := by
  induction w generalizing m c c' d with
  | nil => rfl
  | cons w0 w ih =>
    cases m with
    | nil => rfl
    | cons m0 m =>
      cases c with
      | nil =>
        have : c' = [] := List.length_eq_zero_iff.1 (by simpa using h.symm)
        subst this; rfl
      | cons c0 c =>
        cases c' with
        | nil => simp at h
        | cons c0' c' =>
          cases d with
          | nil => rfl
          | cons d0 d =>
            simp only [List.length_cons, Nat.add_right_cancel_iff] at h
            simp only [valueFunctions, kwUtility, zero_mul, add_zero]
            rw [ih m c c' d h]

theorem backwardLoop_delta_zero (ss : SolveSpace) (interp interp' : Interpolation K)
    (par : ParamObjects K) (hd : par.delta = 0) (ts : List Nat) (ev : Dict Nat (List K))
    (seed : Nat) :
    backwardLoop ss interp par ts ev seed = backwardLoop ss interp' par ts ev seed := by
  induction ts generalizing ev seed with
  | nil => rfl
  | cons t ts ih =>
    unfold backwardLoop
    simp only [periodValues, hd, if_true, ih]

/-- With a discount factor of zero all stored values are zero. -/
theorem solve_delta_zero (ss : SolveSpace) (hwf : ss.WF) (interp : Interpolation K)
    (par : ParamObjects K) (hd : par.delta = 0) (seed : Nat) (ev0 : Dict Nat (List K))
    (hs : SameShape (initialValues ss) ev0)
    (hok : (solveBackward ss interp par seed ev0).2 = true) (k n : Nat)
    (hn : ss.nStates[k]? = some n) :
    Dict.get? (solveBackward ss interp par seed ev0).1 k = some (List.replicate n 0) := by
  unfold solveBackward at hok ⊢
  rw [backwardLoop_delta_zero ss interp (fun _ _ _ _ => none) par hd] at hok ⊢
  obtain ⟨_, h2⟩ := backwardLoop_spec ss (fun _ _ _ _ => none) (fun _ _ _ _ _ _ h => by cases h)
    par ss.nPeriods ev0 seed hok
  have hkl : k < ss.complexes.length := by
    rw [← hwf.shape]; exact (List.getElem?_eq_some_iff.1 hn).1
  have hc : ss.complexes[k]? = some ss.complexes[k] := List.getElem?_eq_getElem hkl
  obtain ⟨s1, vals, s2, hp, hall⟩ := h2 _ (hwf.periods _ (List.getElem_mem hkl))
  simp only [periodValues, hd, if_true, Option.some.injEq, Prod.mk.injEq] at hp
  obtain ⟨old, new, ho, ha, hg⟩ := hall k (.scalar 0) (by
    rw [← hp.1, List.mem_map]
    exact ⟨k, (mem_keysOfPeriod _ _ _).2 ⟨_, hc, rfl⟩, rfl⟩)
  obtain ⟨old', ho', hl'⟩ := sameShape_initial_length ss ev0 hs k n hn
  rw [ho] at ho'; cases ho'
  simp only [assignInPlace, Option.some.injEq] at ha
  rw [hg, ← ha, hl']

end Respy
