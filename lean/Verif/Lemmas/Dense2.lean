import Verif.Lemmas.Dense
import Verif.Lemmas.CoreStateSpace

/-! Helper lemmas on the dense grid and dense keys. -/

namespace Respy

theorem product_nodup {α : Type _} (ls : List (List α)) (h : ∀ l ∈ ls, l.Nodup) :
    (product ls).Nodup := by
  induction ls with
  | nil => simp [product]
  | cons l ls ih =>
    have hl := h l (by simp)
    have ih' := ih fun l' hl' => h l' (List.mem_cons_of_mem _ hl')
    simp only [product]
    rw [List.nodup_flatMap]
    constructor
    · intro x _
      exact ih'.map (fun a b hab => by simpa using hab)
    · refine hl.imp_of_mem ?_
      intro a b _ _ hne
      rw [Function.onFun, List.disjoint_left]
      intro y hy hy'
      obtain ⟨_, _, rfl⟩ := List.mem_map.1 hy
      obtain ⟨_, _, h2⟩ := List.mem_map.1 hy'
      simp at h2
      exact hne h2.1.symm

theorem get?_zip_of_map (names : List String) (hn : names.Nodup) (a : String → Nat) (x : String)
    (hx : x ∈ names) : Dict.get? (names.zip (names.map a)) x = some (a x) := by
  induction names with
  | nil => simp at hx
  | cons y names ih =>
    simp only [List.map_cons, List.zip_cons_cons, Dict.get?]
    by_cases h : y = x
    · simp [h]
    · simp only [h, if_false]
      rw [List.nodup_cons] at hn
      rcases List.mem_cons.1 hx with rfl | hx
      · exact absurd rfl h
      · exact ih hn.2 hx

theorem point_eq_of_values (names : List String) (hn : names.Nodup) (d : List Nat)
    (hd : d.length = names.length) (a : String → Nat)
    (h : ∀ x ∈ names, Dict.get? (names.zip d) x = some (a x)) : d = names.map a := by
  induction names generalizing d with
  | nil => simpa using hd
  | cons y names ih =>
    cases d with
    | nil => simp at hd
    | cons v d =>
      rw [List.nodup_cons] at hn
      have h0 := h y (by simp)
      simp [Dict.get?] at h0
      simp only [List.map_cons, List.cons.injEq]
      refine ⟨h0, ih hn.2 d (by simpa using hd) ?_⟩
      intro x hx
      have hne : y ≠ x := by rintro rfl; exact hn.1 hx
      have := h x (List.mem_cons_of_mem _ hx)
      simpa [Dict.get?, hne] using this

/-- No two core keys of a period get the same choice set under the same dense index. -/
def NoCollision (groups : List ((Nat × List Bool) × List Nat))
    (cs : Nat → ((Nat × List Bool) × List Nat) → List Bool) (nDense : Nat) : Prop :=
  ∀ d < nDense, ∀ (k : Nat) g (k' : Nat) g', groups[k]? = some g → groups[k']? = some g' →
    g.1.1 = g'.1.1 → cs d g = cs d g' → k = k'

theorem nodup_of_getElem? {α : Type _} (l : List α)
    (h : ∀ (i j : Nat) a, l[i]? = some a → l[j]? = some a → i = j) : l.Nodup := by
  rw [List.nodup_iff_injective_get]
  intro i j hij
  have := h i j (l.get i) (by simp) (by rw [hij]; simp)
  exact Fin.ext this

theorem mem_dpcItems (groups : List ((Nat × List Bool) × List Nat))
    (cs : Nat → ((Nat × List Bool) × List Nat) → List Bool) (nDense : Nat) (c : Complex) (k : Nat) :
    (c, k) ∈ dpcItems groups cs nDense ↔
      ∃ d < nDense, ∃ g, groups[k]? = some g ∧ c = ⟨g.1.1, cs d g, some d⟩ := by
  simp only [dpcItems, List.mem_flatMap, List.mem_range, List.mem_map]
  constructor
  · rintro ⟨d, hd, ⟨g, k'⟩, h1, h2⟩
    rw [List.mem_zipIdx_iff_getElem?] at h1
    simp only [Prod.mk.injEq] at h2
    obtain ⟨h2, rfl⟩ := h2
    exact ⟨d, hd, g, h1, h2.symm⟩
  · rintro ⟨d, hd, g, h1, h2⟩
    exact ⟨d, hd, (g, k), List.mem_zipIdx_iff_getElem?.2 h1, by rw [h2]⟩

theorem dpcItems_keys_nodup (groups : List ((Nat × List Bool) × List Nat))
    (cs : Nat → ((Nat × List Bool) × List Nat) → List Bool) (nDense : Nat)
    (hno : NoCollision groups cs nDense) : ((dpcItems groups cs nDense).map Prod.fst).Nodup := by
  simp only [dpcItems, List.map_flatMap, List.map_map]
  rw [List.nodup_flatMap]
  constructor
  · intro d hd
    apply nodup_of_getElem?
    intro i j a hi hj
    simp only [List.getElem?_map, Option.map_eq_some_iff, List.getElem?_zipIdx] at hi hj
    obtain ⟨x, ⟨g, hg, hx⟩, hxa⟩ := hi
    obtain ⟨y, ⟨g', hg', hy⟩, hya⟩ := hj
    subst hx; subst hy
    simp only [Function.comp] at hxa hya
    rw [← hya] at hxa
    simp only [Complex.mk.injEq] at hxa
    exact hno d (List.mem_range.1 hd) i g j g' hg hg' hxa.1 hxa.2.1
  · refine List.nodup_range.imp_of_mem ?_
    intro d d' _ _ hne
    rw [Function.onFun, List.disjoint_left]
    intro c hc hc'
    obtain ⟨g, _, rfl⟩ := List.mem_map.1 hc
    obtain ⟨g', _, h'⟩ := List.mem_map.1 hc'
    simp at h'
    exact hne h'.2.2.symm

theorem eraseDups_of_nodup {α : Type _} [BEq α] [LawfulBEq α] (l : List α) (h : l.Nodup) :
    l.eraseDups = l := by
  induction l with
  | nil => rfl
  | cons a l ih =>
    rw [List.nodup_cons] at h
    rw [List.eraseDups_cons]
    have : l.filter (fun b => !b == a) = l := by
      rw [List.filter_eq_self]
      intro b hb
      have hne : b ≠ a := by rintro rfl; exact h.1 hb
      simpa using hne
    rw [this, ih h.2]

end Respy
