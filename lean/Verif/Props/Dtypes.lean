import Verif.Model.Dtypes
import Verif.Lemmas.MapM
import Mathlib.Algebra.Order.Field.Rat
import Mathlib.Algebra.Order.Field.Basic
import Mathlib.Algebra.Order.Ring.Abs
import Mathlib.Data.Int.Cast.Lemmas
import Mathlib.Algebra.Order.Ring.Cast
import Mathlib.Tactic.Linarith
import Mathlib.Tactic.NormNum

/-!
# Downcasting never changes an integer (C66)
-/

namespace Respy

theorem wrap_eq_iff (t : IntType) (ht : 1 ≤ t.bytes) (v : Int) : t.wrap v = v ↔ t.Holds v := by
  obtain ⟨signed, b⟩ := t
  unfold IntType.wrap IntType.Holds
  cases signed with
  | false =>
    simp only [Bool.false_eq_true, if_false]
    have hp : (0 : Int) < 2 ^ (8 * b) := by positivity
    constructor
    · intro h
      rw [← h]
      exact ⟨Int.emod_nonneg _ hp.ne', Int.emod_lt_of_pos _ hp⟩
    · rintro ⟨h1, h2⟩
      exact Int.emod_eq_of_lt h1 h2
  | true =>
    simp only [if_true]
    have hb : 8 * b = (8 * b - 1) + 1 := by simp only at ht; omega
    have hm : ((2 ^ (8 * b) : Nat) : Int) = 2 * 2 ^ (8 * b - 1) := by
      push_cast
      conv_lhs => rw [hb, pow_succ]
      ring
    have hpos : 0 < 2 ^ (8 * b) := by positivity
    constructor
    · intro h
      rw [← h]
      have h1 := Int.le_bmod (x := v) hpos
      have h2 := Int.bmod_lt (x := v) hpos
      rw [hm] at h1 h2
      constructor <;> omega
    · rintro ⟨h1, h2⟩
      exact Int.bmod_eq_of_le_mul_two (by rw [hm]; omega) (by rw [hm]; omega)

theorem allClose_ints (t s : IntType) (f : Int → Int) (vs : List Int) :
    allClose (.ints t (vs.map f)) (.ints s vs) = true ↔ ∀ v ∈ vs, f v = v := by
  unfold allClose
  rw [decide_eq_true_eq]
  simp only [Column.numbers]
  induction vs with
  | nil => simp
  | cons v vs ih =>
    rw [List.map_cons, List.map_cons, List.map_cons, List.forall₂_cons, ih]
    simp only [Option.mem_def, Option.some.injEq, exists_eq_left', List.mem_cons, forall_eq_or_imp]
    refine and_congr ⟨fun h => ?_, fun h => ?_⟩ Iff.rfl
    · by_contra hne
      have h1 : 1 ≤ |f v - v| := Int.one_le_abs (sub_ne_zero.2 hne)
      have h2 : (1 : ℚ) ≤ |(f v : ℚ) - (v : ℚ)| := by exact_mod_cast h1
      have h3 : (1 : ℚ) / 10 ^ 8 < 1 := by norm_num
      linarith
    · rw [h, sub_self, abs_zero]
      norm_num

theorem maybeDowncast_ints (cf : IntType → ℚ → Int) (t s : IntType) (ht : 1 ≤ t.bytes) (vs : List Int) :
    maybeDowncast cf t (.ints s vs) = if ∀ v ∈ vs, t.Holds v then .ints t vs else .ints s vs := by
  unfold maybeDowncast
  simp only [Column.astype]
  by_cases h : ∀ v ∈ vs, t.Holds v
  · have h' : ∀ v ∈ vs, t.wrap v = v := fun v hv => (wrap_eq_iff t ht v).2 (h v hv)
    rw [if_pos ((allClose_ints t s t.wrap vs).2 h'), if_pos h]
    congr 1
    conv_rhs => rw [← List.map_id vs]
    exact List.map_congr_left fun v hv => h' v hv
  · rw [if_neg, if_neg h]
    intro hc
    exact h fun v hv => (wrap_eq_iff t ht v).1 ((allClose_ints t s t.wrap vs).1 hc v hv)

theorem downcastLoop_ints (cf : IntType → ℚ → Int) (signed : Bool) (t : IntType) (vs : List Int)
    (hvs : ∀ v ∈ vs, t.Holds v) (bs : List Nat) (hbs : ∀ b ∈ bs, 1 ≤ b) :
    downcastLoop cf signed (.ints t vs) bs
      = match bs.find? (fun b => decide (b ≤ t.bytes ∧ ∀ v ∈ vs, (⟨signed, b⟩ : IntType).Holds v)) with
        | some b => .ints ⟨signed, b⟩ vs
        | none => .ints t vs := by
  induction bs with
  | nil => rfl
  | cons b bs ih =>
    have hb := hbs b (by simp)
    have ih := ih fun b hb => hbs b (by simp [hb])
    rw [downcastLoop, List.find?_cons]
    by_cases hsize : b ≤ t.bytes
    · rw [if_pos (show b ≤ (Column.ints t vs).itemsize from hsize), maybeDowncast_ints cf _ _ hb]
      by_cases h : ∀ v ∈ vs, (⟨signed, b⟩ : IntType).Holds v
      · rw [if_pos h, decide_eq_true ⟨hsize, h⟩]
        simp
      · rw [if_neg h, decide_eq_false fun h' => h h'.2]
        simp only
        rw [if_neg, ih]
        rintro rfl
        exact h hvs
    · rw [if_neg (show ¬ b ≤ (Column.ints t vs).itemsize from hsize), decide_eq_false fun h' => hsize h'.1, ih]

/-- The type found for a column of integers. -/
theorem toNumeric_ints (cf : IntType → ℚ → Int) (signed : Bool) (t : IntType) (vs : List Int)
    (hvs : ∀ v ∈ vs, t.Holds v) :
    ∃ s : IntType, toNumeric cf signed (.ints t vs) = .ints s vs ∧ (∀ v ∈ vs, s.Holds v) ∧
      (s = t ∨ (s.signed = signed ∧ 1 ≤ s.bytes ∧ s.bytes ≤ t.bytes)) := by
  unfold toNumeric
  split
  · rw [downcastLoop_ints cf signed t vs hvs _ (by decide)]
    cases h : [1, 2, 4, 8].find? (fun b => decide (b ≤ t.bytes ∧ ∀ v ∈ vs, (⟨signed, b⟩ : IntType).Holds v)) with
    | none => exact ⟨t, rfl, hvs, .inl rfl⟩
    | some b =>
      have hb := List.find?_some h
      rw [decide_eq_true_eq] at hb
      have hm := List.mem_of_find?_eq_some h
      refine ⟨⟨signed, b⟩, rfl, hb.2, .inr ⟨rfl, ?_, hb.1⟩⟩
      simp only [List.mem_cons, List.not_mem_nil, or_false] at hm
      simp only
      omega
  · exact ⟨t, rfl, hvs, .inl rfl⟩

theorem downcast_ints (cf : IntType → ℚ → Int) (t : IntType) (ht : 1 ≤ t.bytes) (vs : List Int)
    (hvs : ∀ v ∈ vs, t.Holds v) : ∃ s : IntType,
      smallestDType cf (.ints t vs) (.int t) [false, true] = .int s ∧ 1 ≤ s.bytes ∧ (∀ v ∈ vs, s.Holds v) ∧
      downcast cf (.ints t vs) = some (.ints s vs) := by
  have main : ∃ s : IntType, smallestDType cf (.ints t vs) (.int t) [false, true] = .int s ∧ 1 ≤ s.bytes ∧
      ∀ v ∈ vs, s.Holds v := by
    obtain ⟨s1, h1, h1v, h1b⟩ := toNumeric_ints cf false t vs hvs
    obtain ⟨s2, h2, h2v, h2b⟩ := toNumeric_ints cf true t vs hvs
    have hb1 : 1 ≤ s1.bytes := by
      rcases h1b with rfl | ⟨-, h, -⟩
      · exact ht
      · exact h
    have hb2 : 1 ≤ s2.bytes := by
      rcases h2b with rfl | ⟨-, h, -⟩
      · exact ht
      · exact h
    simp only [smallestDType, h1, h2, Column.dtype]
    split_ifs
    all_goals first
      | exact ⟨s1, rfl, hb1, h1v⟩
      | exact ⟨s2, rfl, hb2, h2v⟩
      | exact ⟨t, rfl, ht, hvs⟩
  obtain ⟨s, hs, hsb, hsv⟩ := main
  refine ⟨s, hs, hsb, hsv, ?_⟩
  have : downcast cf (.ints t vs) = match smallestDType cf (.ints t vs) (.int t) [false, true] with
      | .int t' => (Column.ints t vs).astype cf t'
      | _ => some (.ints t vs) := rfl
  rw [this, hs]
  simp only [Column.astype]
  congr 2
  conv_rhs => rw [← List.map_id vs]
  exact List.map_congr_left fun v hv => (wrap_eq_iff s hsb v).2 (hsv v hv)

/-- C66: a column of integers keeps its values, and the new type can hold each of them. -/
theorem C66_integers (cf : IntType → ℚ → Int) (t : IntType) (ht : 1 ≤ t.bytes) (vs : List Int)
    (hvs : ∀ v ∈ vs, t.Holds v) :
    ∃ s : IntType, downcast cf (.ints t vs) = some (.ints s vs) ∧ ∀ v ∈ vs, s.Holds v := by
  obtain ⟨s, -, -, hsv, h⟩ := downcast_ints cf t ht vs hvs
  exact ⟨s, h, hsv⟩

theorem find?_le (p : Nat → Bool) (b : Nat) (h : [1, 2, 4, 8].find? p = some b) (c : Nat)
    (hc : c ∈ [1, 2, 4, 8]) (hp : p c = true) : b ≤ c := by
  simp only [List.find?_cons] at h
  simp only [List.mem_cons, List.not_mem_nil, or_false] at hc
  rcases hc with rfl | rfl | rfl | rfl
  all_goals
    split at h
    · cases h
      omega
    · split at h
      · cases h
        first | omega | simp_all
      · split at h
        · cases h
          first | omega | simp_all
        · split at h
          · cases h
            first | omega | simp_all
          · simp at h

theorem Holds_mono (s t : IntType) (v : Int) (hs : s.signed = t.signed) (hb : s.bytes ≤ t.bytes)
    (h : s.Holds v) : t.Holds v := by
  obtain ⟨ss, sb⟩ := s
  obtain ⟨ts, tb⟩ := t
  simp only at hs hb
  subst hs
  unfold IntType.Holds at h ⊢
  simp only at h ⊢
  cases ss with
  | false =>
    simp only [Bool.false_eq_true, if_false] at h ⊢
    have : (2 : Int) ^ (8 * sb) ≤ 2 ^ (8 * tb) := pow_le_pow_right₀ (by norm_num) (by omega)
    exact ⟨h.1, by omega⟩
  | true =>
    simp only [if_true] at h ⊢
    have : (2 : Int) ^ (8 * sb - 1) ≤ 2 ^ (8 * tb - 1) := pow_le_pow_right₀ (by norm_num) (by omega)
    exact ⟨by omega, by omega⟩

theorem Holds_unsigned (s : IntType) (v : Int) (hv : 0 ≤ v) (h : s.Holds v) :
    (⟨false, s.bytes⟩ : IntType).Holds v := by
  obtain ⟨ss, sb⟩ := s
  unfold IntType.Holds at h ⊢
  cases ss with
  | false => exact h
  | true =>
    simp only [if_true, Bool.false_eq_true, if_false] at h ⊢
    have : (2 : Int) ^ (8 * sb - 1) ≤ 2 ^ (8 * sb) := pow_le_pow_right₀ (by norm_num) (by omega)
    exact ⟨hv, by omega⟩

/-- C66: no other integer type which can hold all values is smaller. -/
theorem C66_smallest (cf : IntType → ℚ → Int) (t : IntType) (ht : t.bytes ∈ [1, 2, 4, 8]) (vs : List Int)
    (hvs : ∀ v ∈ vs, t.Holds v) (s : IntType) (h : downcast cf (.ints t vs) = some (.ints s vs))
    (r : IntType) (hr : r.bytes ∈ [1, 2, 4, 8]) (hrv : ∀ v ∈ vs, r.Holds v) : s.bytes ≤ r.bytes := by
  have ht1 : 1 ≤ t.bytes := by
    simp only [List.mem_cons, List.not_mem_nil, or_false] at ht
    omega
  obtain ⟨s', hs', -, -, hd⟩ := downcast_ints cf t ht1 vs hvs
  rw [h] at hd
  have hss : s = s' := by
    simp only [Option.some.injEq, Column.ints.injEq, and_true] at hd
    exact hd
  subst hss
  -- the result of `to_numeric` has a size not larger than `r`
  have key : ∀ signed, (signed = true ∨ ∀ v ∈ vs, 0 ≤ v) → (∀ v ∈ vs, (⟨signed, r.bytes⟩ : IntType).Holds v) →
      (∀ v ∈ vs, (⟨signed, t.bytes⟩ : IntType).Holds v) →
      ∃ b, toNumeric cf signed (.ints t vs) = .ints ⟨signed, b⟩ vs ∧ b ≤ r.bytes ∧ b ≤ t.bytes := by
    intro signed hsg hr' ht'
    unfold toNumeric
    rw [if_pos, downcastLoop_ints cf signed t vs hvs _ (by decide)]
    · have hfind : ∃ b, [1, 2, 4, 8].find?
          (fun b => decide (b ≤ t.bytes ∧ ∀ v ∈ vs, (⟨signed, b⟩ : IntType).Holds v)) = some b := by
        cases h' : [1, 2, 4, 8].find?
          (fun b => decide (b ≤ t.bytes ∧ ∀ v ∈ vs, (⟨signed, b⟩ : IntType).Holds v)) with
        | some b => exact ⟨b, rfl⟩
        | none =>
          rw [List.find?_eq_none] at h'
          have := h' t.bytes ht
          rw [decide_eq_true_eq] at this
          exact absurd ⟨le_refl _, ht'⟩ this
      obtain ⟨b, hb⟩ := hfind
      rw [hb]
      refine ⟨b, rfl, ?_, ?_⟩
      · by_cases hrt : r.bytes ≤ t.bytes
        · exact find?_le _ b hb r.bytes hr (decide_eq_true ⟨hrt, hr'⟩)
        · have := find?_le _ b hb t.bytes ht (decide_eq_true ⟨le_refl _, ht'⟩)
          omega
      · exact find?_le _ b hb t.bytes ht (decide_eq_true ⟨le_refl _, ht'⟩)
    · rcases hsg with h' | h'
      · exact .inl h'
      · right
        intro x hx
        obtain ⟨v, hv, rfl⟩ := List.mem_map.1 hx
        exact ⟨(v : ℚ), rfl, by exact_mod_cast h' v hv⟩
  by_cases hneg : ∀ v ∈ vs, 0 ≤ v
  · obtain ⟨b, hb, hbr, -⟩ := key false (.inr hneg) (fun v hv => Holds_unsigned r v (hneg v hv) (hrv v hv))
      (fun v hv => Holds_unsigned t v (hneg v hv) (hvs v hv))
    simp only [smallestDType, hb, Column.dtype, DType.unsigned, Bool.not_false, if_true, DType.int.injEq] at hs'
    rw [← hs']
    exact hbr
  · have hsigned : ∀ q : IntType, (∀ v ∈ vs, q.Holds v) → q = ⟨true, q.bytes⟩ := by
      intro q hq
      obtain ⟨qs, qb⟩ := q
      cases qs with
      | true => rfl
      | false =>
        exfalso
        apply hneg
        intro v hv
        have := hq v hv
        unfold IntType.Holds at this
        simp only [Bool.false_eq_true, if_false] at this
        exact this.1
    obtain ⟨s1, h1, h1v, -⟩ := toNumeric_ints cf false t vs hvs
    have h1t : toNumeric cf false (.ints t vs) = .ints t vs := by
      unfold toNumeric
      rw [if_neg]
      rintro (h' | h')
      · simp at h'
      · apply hneg
        intro v hv
        obtain ⟨y, hy, hy0⟩ := h' (some (v : ℚ)) (List.mem_map.2 ⟨v, hv, rfl⟩)
        simp only [Option.mem_def, Option.some.injEq] at hy
        subst hy
        exact_mod_cast hy0
    have htsig := hsigned t hvs
    have hrsig := hsigned r hrv
    obtain ⟨b, hb, hbr, hbt⟩ := key true (.inl rfl) (fun v hv => by rw [← hrsig]; exact hrv v hv)
      (fun v hv => by rw [← htsig]; exact hvs v hv)
    have htu : (DType.int t).unsigned = false := by rw [htsig]; rfl
    simp only [smallestDType, h1t, hb, Column.dtype, htu, DType.itemsize, lt_irrefl] at hs'
    simp only [DType.unsigned, Bool.not_true, Bool.false_eq_true, if_false] at hs'
    split at hs'
    · cases hs'
      exact hbr
    · cases hs'
      omega

/-- Boundaries of types, a column with negative values, and a column which already is as small as possible. -/
example :
    let cf : IntType → ℚ → Int := fun _ q => ⌊q⌋
    (∀ v ∈ [255, 0], (⟨true, 8⟩ : IntType).Holds v) ∧ (∀ v ∈ [-129, 127], (⟨true, 8⟩ : IntType).Holds v) ∧
    downcast cf (.ints ⟨true, 8⟩ [255, 0]) = some (.ints ⟨false, 1⟩ [255, 0]) ∧
    downcast cf (.ints ⟨true, 8⟩ [256, 0]) = some (.ints ⟨false, 2⟩ [256, 0]) ∧
    downcast cf (.ints ⟨true, 8⟩ [-128, 127]) = some (.ints ⟨true, 1⟩ [-128, 127]) ∧
    downcast cf (.ints ⟨true, 8⟩ [-129, 127]) = some (.ints ⟨true, 2⟩ [-129, 127]) := by
  refine ⟨by decide, by decide, ?_, ?_, ?_, ?_⟩ <;> decide +kernel

theorem downcastLoop_close (cf : IntType → ℚ → Int) (signed : Bool) (c : Column) (hc : ∀ t vs, c ≠ .ints t vs)
    (bs : List Nat) (t : IntType) (vs : List Int) (h : downcastLoop cf signed c bs = .ints t vs) :
    c.astype cf t = some (.ints t vs) ∧ allClose (.ints t vs) c = true := by
  induction bs with
  | nil => exact absurd h (hc t vs)
  | cons b bs ih =>
    rw [downcastLoop] at h
    split at h
    · split at h
      · rename_i t' vs' hm
        split at h
        · rename_i ht
          simp only [Column.ints.injEq] at h
          obtain ⟨rfl, rfl⟩ := h
          unfold maybeDowncast at hm
          split at hm
          · exact absurd hm (hc _ _)
          · rename_i new hnew
            split at hm
            · rename_i hclose
              subst hm
              rw [← ht] at hnew
              exact ⟨hnew, hclose⟩
            · exact absurd hm (hc _ _)
        · exact ih h
      · exact ih h
    · exact ih h

/-- C66 for floating point numbers: a column keeps its length and missing values, and no value changes by more
than the tolerance of `np.allclose`. -/
theorem C66_floats_close (cf : IntType → ℚ → Int) (bytes : Nat) (vs : List (Option ℚ)) (c : Column)
    (h : downcast cf (.floats bytes vs) = some c) :
    c = .floats bytes vs ∨
      List.Forall₂ (fun a b => ∃ x ∈ a, ∃ y ∈ b, |x - y| ≤ 1 / 10 ^ 8) c.numbers vs := by
  have hne : ∀ t us, Column.floats bytes vs ≠ .ints t us := by intro t us h'; cases h'
  have hnum : ∀ signed t, (toNumeric cf signed (.floats bytes vs)).dtype = .int t →
      ∃ us, (Column.floats bytes vs).astype cf t = some (.ints t us) ∧
        allClose (.ints t us) (.floats bytes vs) = true := by
    intro signed t hd
    unfold toNumeric at hd
    split at hd
    · cases hl : downcastLoop cf signed (.floats bytes vs) [1, 2, 4, 8] with
      | category codes => rw [hl] at hd; simp [Column.dtype] at hd
      | floats b us => rw [hl] at hd; simp [Column.dtype] at hd
      | ints t' us =>
        rw [hl] at hd
        simp only [Column.dtype, DType.int.injEq] at hd
        subst hd
        exact ⟨us, downcastLoop_close cf signed _ hne _ _ _ hl⟩
    · simp [Column.dtype] at hd
  have hsm : ∀ t, smallestDType cf (.floats bytes vs) (.float bytes) [false, true] = .int t →
      ∃ us, (Column.floats bytes vs).astype cf t = some (.ints t us) ∧
        allClose (.ints t us) (.floats bytes vs) = true := by
    intro t ht
    simp only [smallestDType] at ht
    split_ifs at ht <;> exact hnum _ t ht
  have hd : downcast cf (.floats bytes vs)
      = match smallestDType cf (.floats bytes vs) (.float bytes) [false, true] with
        | .int t => (Column.floats bytes vs).astype cf t
        | _ => some (.floats bytes vs) := rfl
  rw [hd] at h
  split at h
  · rename_i t ht
    obtain ⟨us, hu, hclose⟩ := hsm t ht
    rw [hu] at h
    cases h
    right
    unfold allClose at hclose
    rw [decide_eq_true_eq] at hclose
    exact hclose
  · cases h
    exact .inl rfl

/-- Floating point numbers can change: a column with a value close to an integer becomes an integer column. -/
theorem C66_floats_change : ∃ vs, downcast (fun _ q => ⌊q⌋) (.floats 8 vs) = some (.ints ⟨false, 1⟩ [1, 2]) ∧
    (Column.floats 8 vs).numbers ≠ (Column.ints ⟨false, 1⟩ [1, 2]).numbers :=
  ⟨[some (1 + 1 / 10 ^ 9), some 2], by decide +kernel, by decide +kernel⟩

end Respy
