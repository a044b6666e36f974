import Verif.Lemmas.ChoiceSets
import Verif.Model.Dense

/-! Helper lemmas on dense keys and file names. -/

namespace Respy

/-- The items inserted into `dense_period_choice`, in order; `cs d g` is the choice set of the
group `g` under dense index `d`. -/
def dpcItems (groups : List ((Nat × List Bool) × List Nat))
    (cs : Nat → ((Nat × List Bool) × List Nat) → List Bool) (nDense : Nat) :
    List (Complex × Nat) :=
  (List.range nDense).flatMap fun d =>
    groups.zipIdx.map fun g => (⟨g.1.1.1, cs d g.1, some d⟩, g.2)

theorem dpc_inner (core : List CoreState) (restr : List (List (FrameFormula CoreState)))
    (denseIdx : Nat) (gs : List (((Nat × List Bool) × List Nat) × Nat)) (d0 : Dict Complex Nat) :
    (∀ cs : ((Nat × List Bool) × List Nat) → List Bool,
      (∀ g ∈ gs, setsInGroup restr core g.1.2 = [cs g.1]) →
      (gs.foldlM (init := d0) fun d g =>
        match setsInGroup restr core g.1.2 with
        | [cs] => Except.ok (d.insert ⟨g.1.1.1, cs, some denseIdx⟩ g.2)
        | _ => Except.error
            "Choice restrictions cannot interact between core and dense information") =
      .ok (d0.update (gs.map fun g => (⟨g.1.1.1, cs g.1, some denseIdx⟩, g.2)))) ∧
    ((∃ g ∈ gs, ∀ cs, setsInGroup restr core g.1.2 ≠ [cs]) →
      (gs.foldlM (init := d0) fun d g =>
        match setsInGroup restr core g.1.2 with
        | [cs] => Except.ok (d.insert ⟨g.1.1.1, cs, some denseIdx⟩ g.2)
        | _ => Except.error
            "Choice restrictions cannot interact between core and dense information") =
      .error "Choice restrictions cannot interact between core and dense information") := by
  induction gs generalizing d0 with
  | nil =>
    refine ⟨fun cs _ => rfl, ?_⟩
    rintro ⟨g, hg, _⟩; simp at hg
  | cons g gs ih =>
    constructor
    · intro cs h
      have h0 := h g (by simp)
      simp only [List.foldlM_cons, h0]
      have := (ih (d0.insert ⟨g.1.1.1, cs g.1, some denseIdx⟩ g.2)).1 cs
        (fun g' hg' => h g' (List.mem_cons_of_mem _ hg'))
      simp only [Dict.update, List.map_cons, List.foldl_cons] at this ⊢
      exact this
    · rintro ⟨g', hg', hne⟩
      simp only [List.foldlM_cons]
      by_cases hs : ∃ cs, setsInGroup restr core g.1.2 = [cs]
      · obtain ⟨cs, hcs⟩ := hs
        simp only [hcs]
        rcases List.mem_cons.1 hg' with rfl | hg'
        · exact absurd hcs (hne cs)
        · exact (ih _).2 ⟨g', hg', hne⟩
      · split
        · rename_i cs hcs; exact absurd ⟨cs, hcs⟩ hs
        · rfl

theorem densePeriodChoice_ok (core : List CoreState)
    (groups : List ((Nat × List Bool) × List Nat))
    (restr : Nat → List (List (FrameFormula CoreState))) (nDense : Nat)
    (cs : Nat → ((Nat × List Bool) × List Nat) → List Bool)
    (h : ∀ d < nDense, ∀ g ∈ groups, setsInGroup (restr d) core g.2 = [cs d g]) :
    densePeriodChoice core groups restr nDense = .ok (Dict.ofItems (dpcItems groups cs nDense)) := by
  have key : ∀ (ds : List Nat) (d0 : Dict Complex Nat), (∀ d ∈ ds, d < nDense) →
      (ds.foldlM (init := d0) fun d denseIdx =>
        (groups.zipIdx).foldlM (init := d) fun d g =>
          match setsInGroup (restr denseIdx) core g.1.2 with
          | [cs] => Except.ok (d.insert ⟨g.1.1.1, cs, some denseIdx⟩ g.2)
          | _ => Except.error
              "Choice restrictions cannot interact between core and dense information") =
      .ok (d0.update (ds.flatMap fun d =>
        groups.zipIdx.map fun g => (⟨g.1.1.1, cs d g.1, some d⟩, g.2))) := by
    intro ds
    induction ds with
    | nil => intro d0 _; rfl
    | cons d ds ih =>
      intro d0 hd
      rw [List.foldlM_cons]
      rw [(dpc_inner core (restr d) d groups.zipIdx d0).1 (cs d)
        (fun g hg => h d (hd d (by simp)) g.1 (List.fst_mem_of_mem_zipIdx hg))]
      have := ih (d0.update (groups.zipIdx.map fun g => (⟨g.1.1.1, cs d g.1, some d⟩, g.2)))
        (fun d' hd' => hd d' (List.mem_cons_of_mem _ hd'))
      show (ds.foldlM _ _) = _
      rw [this]
      simp [Dict.update, List.foldl_append]
  exact key (List.range nDense) [] (fun d hd => List.mem_range.1 hd)

theorem densePeriodChoice_error (core : List CoreState)
    (groups : List ((Nat × List Bool) × List Nat))
    (restr : Nat → List (List (FrameFormula CoreState))) (nDense : Nat)
    (h : ∃ d < nDense, ∃ g ∈ groups, ∀ cs, setsInGroup (restr d) core g.2 ≠ [cs]) :
    densePeriodChoice core groups restr nDense =
      .error "Choice restrictions cannot interact between core and dense information" := by
  have key : ∀ (ds : List Nat) (d0 : Dict Complex Nat),
      (∃ d ∈ ds, ∃ g ∈ groups, ∀ cs, setsInGroup (restr d) core g.2 ≠ [cs]) →
      (ds.foldlM (init := d0) fun d denseIdx =>
        (groups.zipIdx).foldlM (init := d) fun d g =>
          match setsInGroup (restr denseIdx) core g.1.2 with
          | [cs] => Except.ok (d.insert ⟨g.1.1.1, cs, some denseIdx⟩ g.2)
          | _ => Except.error
              "Choice restrictions cannot interact between core and dense information") =
      .error "Choice restrictions cannot interact between core and dense information" := by
    intro ds
    induction ds with
    | nil => rintro d0 ⟨d, hd, _⟩; simp at hd
    | cons d ds ih =>
      intro d0 hex
      rw [List.foldlM_cons]
      by_cases hbad : ∃ g ∈ groups, ∀ cs, setsInGroup (restr d) core g.2 ≠ [cs]
      · obtain ⟨g, hg, hne⟩ := hbad
        obtain ⟨i, hi, rfl⟩ := List.mem_iff_getElem.1 hg
        rw [(dpc_inner core (restr d) d groups.zipIdx d0).2 ⟨(groups[i], i), by
          rw [List.mem_zipIdx_iff_getElem?]; simp [hi], hne⟩]
        rfl
      · have hall : ∀ g ∈ groups, ∃ cs, setsInGroup (restr d) core g.2 = [cs] := by
          intro g hg
          by_contra hc
          exact hbad ⟨g, hg, fun cs h => hc ⟨cs, h⟩⟩
        classical
        have h2 := (dpc_inner core (restr d) d groups.zipIdx d0).1
          (fun g => if hg : g ∈ groups then (hall g hg).choose else [])
          (fun g hg => by
            have hg' := List.fst_mem_of_mem_zipIdx hg
            simp only [hg', dif_pos]
            exact (hall g.1 hg').choose_spec)
        rw [h2]
        refine ih _ ?_
        obtain ⟨d', hd', hg⟩ := hex
        rcases List.mem_cons.1 hd' with rfl | hd'
        · exact absurd hg hbad
        · exact ⟨d', hd', hg⟩
  obtain ⟨d, hd, hg⟩ := h
  exact key (List.range nDense) [] ⟨d, List.mem_range.2 hd, hg⟩

theorem eraseDups_eq_singleton {α : Type _} [BEq α] [LawfulBEq α] (l : List α) (a : α) :
    l.eraseDups = [a] ↔ l ≠ [] ∧ ∀ x ∈ l, x = a := by
  constructor
  · intro h
    refine ⟨?_, ?_⟩
    · rintro rfl; simp at h
    · intro x hx
      have : x ∈ l.eraseDups := List.mem_eraseDups.2 hx
      rw [h] at this; simpa using this
  · rintro ⟨hne, hall⟩
    cases l with
    | nil => exact absurd rfl hne
    | cons b l =>
      have hb := hall b (by simp)
      subst hb
      rw [List.eraseDups_cons]
      have : l.filter (fun x => !x == b) = [] := by
        rw [List.filter_eq_nil_iff]
        intro x hx
        simp [hall x (List.mem_cons_of_mem _ hx)]
      simp [this]

/-- Unique decomposition of a text at the first character outside a class. -/
theorem split_unique {α : Type _} (p : α → Prop) (a a' : List α) (c c' : α) (r r' : List α)
    (ha : ∀ x ∈ a, p x) (ha' : ∀ x ∈ a', p x) (hc : ¬ p c) (hc' : ¬ p c')
    (h : a ++ c :: r = a' ++ c' :: r') : a = a' ∧ c = c' ∧ r = r' := by
  induction a generalizing a' with
  | nil =>
    cases a' with
    | nil => simpa using h
    | cons b a' =>
      simp at h
      exact absurd (ha' b (by simp)) (h.1 ▸ hc)
  | cons b a ih =>
    cases a' with
    | nil =>
      simp at h
      exact absurd (ha b (by simp)) (h.1 ▸ hc')
    | cons b' a' =>
      simp at h
      have := ih a' (fun x hx => ha x (List.mem_cons_of_mem _ hx))
        (fun x hx => ha' x (List.mem_cons_of_mem _ hx)) h.2
      exact ⟨by rw [h.1, this.1], this.2⟩

theorem strNat_injective (m n : Nat) (h : strNat m = strNat n) : m = n := by
  have h1 := Nat.ofDigitChars_toDigits (b := 10) (n := m) (by decide) (by decide)
  have h2 := Nat.ofDigitChars_toDigits (b := 10) (n := n) (by decide) (by decide)
  unfold strNat at h
  rw [h] at h1
  omega

theorem strNat_isDigit (n : Nat) : ∀ c ∈ strNat n, c.isDigit = true := fun _ hc =>
  Nat.isDigit_of_mem_toDigits (by decide) (by decide) hc

theorem bits_injective (a b : List Bool) (h : a.map bit = b.map bit) : a = b := by
  have hb : ∀ x y, bit x = bit y → x = y := by decide
  exact List.map_injective_iff.2 (fun x y hxy => hb x y hxy) h

theorem bits_isDigit (a : List Bool) : ∀ c ∈ a.map bit, c.isDigit = true := by
  intro c hc
  obtain ⟨b, _, rfl⟩ := List.mem_map.1 hc
  cases b <;> decide

end Respy
