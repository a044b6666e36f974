import Verif.Model.Solve
import Verif.Lemmas.MapM

/-! Helper lemmas on backward induction. -/

set_option linter.unusedSectionVars false

namespace Respy

namespace Dict
variable {κ ν : Type _} [DecidableEq κ]

theorem keys_insert_of_mem (d : Dict κ ν) (k : κ) (v : ν) (h : k ∈ d.keys) :
    (d.insert k v).keys = d.keys := by
  induction d with
  | nil => simp [keys] at h
  | cons kv d ih =>
    obtain ⟨a, b⟩ := kv
    unfold insert
    split
    · rfl
    · rename_i hne
      simp only [keys, List.map_cons, List.mem_cons] at h ⊢
      rcases h with rfl | h
      · exact absurd rfl hne
      · rw [show List.map Prod.fst (Dict.insert d k v) = List.map Prod.fst d from ih h]

theorem get?_filter_key (d : Dict κ ν) (p : κ → Bool) (k : κ) :
    get? (d.filter fun kv => p kv.1) k = if p k then get? d k else none := by
  induction d with
  | nil => simp [get?]
  | cons kv d ih =>
    obtain ⟨a, b⟩ := kv
    by_cases ha : p a = true
    · simp only [List.filter_cons, ha, if_true, get?]
      by_cases hk : a = k
      · subst hk; simp [ha]
      · simp only [hk, if_false]; exact ih
    · simp only [List.filter_cons, ha, get?]
      by_cases hk : a = k
      · subst hk
        simp only [ha] at ih ⊢
        simpa using ih
      · simp only [hk, if_false]; simpa using ih

theorem isSome_get?_iff (d : Dict κ ν) (k : κ) : (d.get? k).isSome = true ↔ k ∈ d.keys := by
  rw [Option.isSome_iff_ne_none, Ne, get?_eq_none_iff, not_not]

theorem ext_get? (a b : Dict κ ν) (hk : a.keys = b.keys) (hn : a.keys.Nodup)
    (h : ∀ k ∈ a.keys, a.get? k = b.get? k) : a = b := by
  induction a generalizing b with
  | nil =>
    cases b with
    | nil => rfl
    | cons _ _ => simp [keys] at hk
  | cons x a ih =>
    cases b with
    | nil => simp [keys] at hk
    | cons y b =>
      obtain ⟨x1, x2⟩ := x
      obtain ⟨y1, y2⟩ := y
      simp only [keys, List.map_cons, List.cons.injEq] at hk
      obtain ⟨rfl, hk⟩ := hk
      have hn' : (x1 :: keys a).Nodup := hn
      rw [List.nodup_cons] at hn'
      have h0 := h x1 (by simp [keys])
      simp [get?] at h0
      subst h0
      congr 1
      refine ih b hk hn'.2 ?_
      intro k hk'
      have hne : x1 ≠ k := by rintro rfl; exact hn'.1 hk'
      have := h k (by simp only [keys, List.map_cons, List.mem_cons]; exact Or.inr hk')
      simpa [get?, hne] using this

end Dict

theorem mem_keysOfPeriod (ss : SolveSpace) (t k : Nat) :
    k ∈ ss.keysOfPeriod t ↔ ∃ c, ss.complexes[k]? = some c ∧ c.period = t := by
  simp only [SolveSpace.keysOfPeriod, List.mem_filter, List.mem_range, decide_eq_true_eq,
    Option.map_eq_some_iff]
  constructor
  · rintro ⟨_, h⟩; exact h
  · rintro ⟨c, hc, h⟩
    exact ⟨(List.getElem?_eq_some_iff.1 hc).1, c, hc, h⟩

theorem nodup_keysOfPeriod (ss : SolveSpace) (t : Nat) : (ss.keysOfPeriod t).Nodup :=
  List.nodup_range.filter _

theorem get?_attributeOfPeriod {ν : Type _} (ss : SolveSpace) (d : Dict Nat ν) (t k : Nat) :
    (ss.attributeOfPeriod d t).get? k = if k ∈ ss.keysOfPeriod t then d.get? k else none := by
  rw [SolveSpace.attributeOfPeriod, Dict.get?_filter_key d (fun k => (ss.keysOfPeriod t).contains k)]
  simp

variable {K : Type _} [Field K] [LinearOrder K]

/-- Same keys, same lengths of the arrays. -/
def SameShape (a b : Dict Nat (List K)) : Prop :=
  Dict.keys a = Dict.keys b ∧ ∀ k, (Dict.get? a k).map List.length = (Dict.get? b k).map List.length

theorem SameShape.refl (a : Dict Nat (List K)) : SameShape a a := ⟨rfl, fun _ => rfl⟩
theorem SameShape.symm {a b : Dict Nat (List K)} (h : SameShape a b) : SameShape b a :=
  ⟨h.1.symm, fun k => (h.2 k).symm⟩
theorem SameShape.trans {a b c : Dict Nat (List K)} (h : SameShape a b) (h' : SameShape b c) :
    SameShape a c := ⟨h.1.trans h'.1, fun k => (h.2 k).trans (h'.2 k)⟩

theorem continuationArray_congr (ss : SolveSpace) (a b : Dict Nat (List K)) (k : Nat)
    (h : ∀ k, Dict.get? a k = Dict.get? b k) :
    continuationArray ss a k = continuationArray ss b k := by
  unfold continuationArray
  simp only [h]

theorem continuationValues_congr (ss : SolveSpace) (tr : Dict Nat (List (Nat × List K)))
    (a b : Dict Nat (List K)) (t : Nat)
    (h : ∀ k ∈ ss.keysOfPeriod (t + 1), Dict.get? a k = Dict.get? b k) :
    continuationValues ss tr a t = continuationValues ss tr b t := by
  have h' : ∀ k, Dict.get? (ss.attributeOfPeriod a (t + 1)) k =
      Dict.get? (ss.attributeOfPeriod b (t + 1)) k := by
    intro k
    rw [get?_attributeOfPeriod, get?_attributeOfPeriod]
    split
    · rename_i hk; exact h k hk
    · rfl
  unfold continuationValues
  simp only [continuationArray_congr ss _ _ _ h']

theorem periodValues_congr (ss : SolveSpace) (interp : Interpolation K) (par : ParamObjects K)
    (a b : Dict Nat (List K)) (t seed : Nat)
    (h : ∀ k ∈ ss.keysOfPeriod (t + 1), Dict.get? a k = Dict.get? b k) :
    periodValues ss interp par a t seed = periodValues ss interp par b t seed := by
  unfold periodValues
  rw [continuationValues_congr ss par.transition a b t h]

theorem assignInPlace_length (old new : List K) (v : PeriodValue K)
    (h : assignInPlace old v = some new) : new.length = old.length := by
  cases v with
  | scalar x => simp only [assignInPlace, Option.some.injEq] at h; subst h; simp
  | array xs =>
    simp only [assignInPlace] at h
    split at h
    · cases h; assumption
    · split at h
      · simp only [Option.some.injEq] at h; subst h; simp
      · cases h

theorem assignInPlace_congr (old old' : List K) (v : PeriodValue K)
    (h : old.length = old'.length) : assignInPlace old v = assignInPlace old' v := by
  cases v <;> simp [assignInPlace, h]

theorem sameShape_insert (ev : Dict Nat (List K)) (k : Nat) (old new : List K)
    (hold : Dict.get? ev k = some old) (hlen : new.length = old.length) :
    SameShape ev (Dict.insert ev k new) := by
  constructor
  · rw [Dict.keys_insert_of_mem]
    rw [← Dict.isSome_get?_iff, hold]; rfl
  · intro k'
    rw [Dict.get?_insert]
    split
    · rename_i h; subst h; simp [hold, hlen]
    · rfl

theorem setAttribute_shape (vals : List (Nat × PeriodValue K)) (ev : Dict Nat (List K)) :
    SameShape ev (setAttribute ev vals).1 := by
  induction vals generalizing ev with
  | nil => exact SameShape.refl _
  | cons kv vals ih =>
    obtain ⟨k, v⟩ := kv
    unfold setAttribute
    split
    · exact SameShape.refl _
    · rename_i new hnew
      obtain ⟨old, hold, has⟩ := Option.bind_eq_some_iff.1 hnew
      exact (sameShape_insert ev k old new hold (assignInPlace_length _ _ _ has)).trans (ih _)

theorem setAttribute_other (vals : List (Nat × PeriodValue K)) (ev : Dict Nat (List K)) (k : Nat)
    (hk : k ∉ vals.map Prod.fst) : Dict.get? (setAttribute ev vals).1 k = Dict.get? ev k := by
  induction vals generalizing ev with
  | nil => rfl
  | cons kv vals ih =>
    obtain ⟨k', v⟩ := kv
    simp only [List.map_cons, List.mem_cons, not_or] at hk
    unfold setAttribute
    split
    · rfl
    · rw [ih _ hk.2, Dict.get?_insert, if_neg (Ne.symm hk.1)]

theorem setAttribute_set (vals : List (Nat × PeriodValue K)) (ev : Dict Nat (List K))
    (hn : (vals.map Prod.fst).Nodup) (hok : (setAttribute ev vals).2 = true)
    (k : Nat) (v : PeriodValue K) (h : (k, v) ∈ vals) :
    ∃ old new, Dict.get? ev k = some old ∧ assignInPlace old v = some new ∧
      Dict.get? (setAttribute ev vals).1 k = some new := by
  induction vals generalizing ev with
  | nil => simp at h
  | cons kv vals ih =>
    obtain ⟨k', v'⟩ := kv
    simp only [List.map_cons, List.nodup_cons] at hn
    unfold setAttribute at hok ⊢
    split at hok
    · cases hok
    · rename_i new hnew
      obtain ⟨old, hold, has⟩ := Option.bind_eq_some_iff.1 hnew
      rcases List.mem_cons.1 h with heq | hmem
      · cases heq
        refine ⟨old, new, hold, has, ?_⟩
        rw [setAttribute_other _ _ _ hn.1, Dict.get?_insert, if_pos rfl]
      · have hne : k' ≠ k := by
          rintro rfl
          exact hn.1 (List.mem_map.2 ⟨_, hmem, rfl⟩)
        obtain ⟨old', new', h1, h2, h3⟩ := ih _ hn.2 hok hmem
        rw [Dict.get?_insert, if_neg hne] at h1
        exact ⟨old', new', h1, h2, h3⟩

theorem setAttribute_agree (vals : List (Nat × PeriodValue K)) (a b : Dict Nat (List K))
    (hs : SameShape a b) :
    (setAttribute a vals).2 = (setAttribute b vals).2 ∧
    ((setAttribute a vals).2 = true → ∀ k, (k ∈ vals.map Prod.fst ∨ Dict.get? a k = Dict.get? b k) →
      Dict.get? (setAttribute a vals).1 k = Dict.get? (setAttribute b vals).1 k) := by
  induction vals generalizing a b with
  | nil => simp [setAttribute]
  | cons kv vals ih =>
    obtain ⟨k', v⟩ := kv
    have hb : ((Dict.get? a k').bind fun old => assignInPlace old v) =
        ((Dict.get? b k').bind fun old => assignInPlace old v) := by
      have := hs.2 k'
      cases ha : Dict.get? a k' with
      | none =>
        rw [ha] at this
        cases hb : Dict.get? b k' with
        | none => rfl
        | some _ => rw [hb] at this; simp at this
      | some x =>
        rw [ha] at this
        cases hb : Dict.get? b k' with
        | none => rw [hb] at this; simp at this
        | some y =>
          rw [hb] at this
          simp only [Option.map_some, Option.some.injEq] at this
          simp only [Option.bind_some]
          exact assignInPlace_congr _ _ _ this
    unfold setAttribute
    rw [← hb]
    cases hnew : (Dict.get? a k').bind fun old => assignInPlace old v with
    | none => simp
    | some new =>
      simp only
      obtain ⟨oa, hoa, hasa⟩ := Option.bind_eq_some_iff.1 hnew
      obtain ⟨ob, hob, hasb⟩ := Option.bind_eq_some_iff.1 (hb ▸ hnew)
      have hsa := sameShape_insert a k' oa new hoa (assignInPlace_length _ _ _ hasa)
      have hsb := sameShape_insert b k' ob new hob (assignInPlace_length _ _ _ hasb)
      obtain ⟨ih1, ih2⟩ := ih (a.insert k' new) (b.insert k' new)
        ((hsa.symm.trans hs).trans hsb)
      refine ⟨ih1, fun hok k hk => ih2 hok k ?_⟩
      by_cases hkk : k' = k
      · subst hkk; right; simp [Dict.get?_insert]
      · rcases hk with hk | hk
        · simp only [List.map_cons, List.mem_cons] at hk
          rcases hk with rfl | hk
          · exact absurd rfl hkk
          · exact Or.inl hk
        · right; simp [Dict.get?_insert, hkk, hk]

/-- The contract of the interpolation: it returns values for exactly the keys of the period. -/
def InterpolationKeys (ss : SolveSpace) (interp : Interpolation K) : Prop :=
  ∀ par cvs t seed values seed', interp par cvs t seed = some (values, seed') →
    Dict.keys values = ss.keysOfPeriod t

theorem periodValues_keys (ss : SolveSpace) (interp : Interpolation K)
    (hint : InterpolationKeys ss interp) (par : ParamObjects K) (ev : Dict Nat (List K))
    (t seed : Nat) (vals : List (Nat × PeriodValue K)) (seed' : Nat)
    (h : periodValues ss interp par ev t seed = some (vals, seed')) :
    vals.map Prod.fst = ss.keysOfPeriod t := by
  unfold periodValues at h
  split at h
  · simp only [Option.some.injEq, Prod.mk.injEq] at h
    rw [← h.1, List.map_map]
    exact List.map_id _
  · split at h
    · obtain ⟨cvs, _, h⟩ := Option.bind_eq_some_iff.1 h
      obtain ⟨⟨values, s⟩, hi, h⟩ := Option.bind_eq_some_iff.1 h
      simp only [Option.pure_def, Option.some.injEq, Prod.mk.injEq] at h
      rw [← h.1, List.map_map]
      exact hint _ _ _ _ _ _ hi
    · split at h
      · cases h
      obtain ⟨cvs, _, h⟩ := Option.bind_eq_some_iff.1 h
      obtain ⟨values, hv, h⟩ := Option.bind_eq_some_iff.1 h
      simp only [Option.pure_def, Option.some.injEq, Prod.mk.injEq] at h
      rw [← h.1]
      have hv' : ((ss.keysOfPeriod t).mapM fun k => do
          let a ← (fullSolution ss par cvs k).map PeriodValue.array; pure (k, a)) = some values := by
        rw [← hv]
        apply mapM_congr
        intro k _
        cases fullSolution ss par cvs k <;> rfl
      exact (mapM_keyed _ (fun k => (fullSolution ss par cvs k).map PeriodValue.array) _ hv').1

theorem range_succ_reverse (m : Nat) : (List.range (m + 1)).reverse = m :: (List.range m).reverse := by
  simp [List.range_succ]

theorem backwardLoop_shape (ss : SolveSpace) (interp : Interpolation K) (par : ParamObjects K)
    (ts : List Nat) (ev : Dict Nat (List K)) (seed : Nat) :
    SameShape ev (backwardLoop ss interp par ts ev seed).1 := by
  induction ts generalizing ev seed with
  | nil => exact SameShape.refl _
  | cons t ts ih =>
    unfold backwardLoop
    split
    · exact SameShape.refl _
    · rename_i values seed' _
      have hs := setAttribute_shape values ev
      split
      · rename_i ev' he
        rw [he] at hs
        exact hs.trans (ih _ _)
      · rename_i ev' he
        rw [he] at hs
        exact hs

/-- The result of the loop does not depend on the values stored before. -/
theorem backwardLoop_agree (ss : SolveSpace) (interp : Interpolation K)
    (hint : InterpolationKeys ss interp) (par : ParamObjects K) (m : Nat)
    (a b : Dict Nat (List K)) (seed : Nat) (hs : SameShape a b)
    (hab : ∀ k c, ss.complexes[k]? = some c → m ≤ c.period → Dict.get? a k = Dict.get? b k) :
    (backwardLoop ss interp par (List.range m).reverse a seed).2 =
      (backwardLoop ss interp par (List.range m).reverse b seed).2 ∧
    ((backwardLoop ss interp par (List.range m).reverse a seed).2 = true →
      ∀ k c, ss.complexes[k]? = some c →
        Dict.get? (backwardLoop ss interp par (List.range m).reverse a seed).1 k =
          Dict.get? (backwardLoop ss interp par (List.range m).reverse b seed).1 k) := by
  induction m generalizing a b seed with
  | zero =>
    refine ⟨rfl, fun _ k c hc => ?_⟩
    exact hab k c hc (Nat.zero_le _)
  | succ m ih =>
    rw [range_succ_reverse]
    unfold backwardLoop
    rw [periodValues_congr ss interp par a b m seed (by
      intro k hk
      obtain ⟨c, hc, hp⟩ := (mem_keysOfPeriod _ _ _).1 hk
      exact hab k c hc (by omega))]
    cases hp : periodValues ss interp par b m seed with
    | none => simp
    | some r =>
      obtain ⟨vals, seed'⟩ := r
      have hkeys := periodValues_keys ss interp hint par b m seed vals seed' hp
      obtain ⟨h1, h2⟩ := setAttribute_agree vals a b hs
      have hsa := setAttribute_shape vals a
      have hsb := setAttribute_shape vals b
      simp only
      rcases hA : setAttribute a vals with ⟨a', fa⟩
      rcases hB : setAttribute b vals with ⟨b', fb⟩
      rw [hA, hB] at h1 h2
      rw [hA] at hsa; rw [hB] at hsb
      simp only at h1 h2 hsa hsb
      subst h1
      cases fa with
      | false => simp
      | true =>
        simp only
        refine ih a' b' seed' ((hsa.symm.trans hs).trans hsb) ?_
        intro k c hc hle
        refine h2 rfl k ?_
        by_cases hcp : c.period = m
        · left; rw [hkeys]; exact (mem_keysOfPeriod _ _ _).2 ⟨c, hc, hcp⟩
        · right; exact hab k c hc (by omega)

/-- After a successful loop over the periods `m - 1, ..., 0`: values of later periods are unchanged
and in each period the stored values are the values of the period computed from the final arrays. The seed before
each period satisfies every relation which is kept by periods. -/
theorem backwardLoop_seeds (ss : SolveSpace) (interp : Interpolation K)
    (hint : InterpolationKeys ss interp) (par : ParamObjects K) (m : Nat)
    (ev : Dict Nat (List K)) (seed : Nat) (R : Nat → Nat → Prop) (hR : R m seed)
    (hstep : ∀ ev t s vals s', R (t + 1) s → periodValues ss interp par ev t s = some (vals, s') → R t s')
    (hok : (backwardLoop ss interp par (List.range m).reverse ev seed).2 = true) :
    let ev' := (backwardLoop ss interp par (List.range m).reverse ev seed).1
    (∀ k c, ss.complexes[k]? = some c → m ≤ c.period → Dict.get? ev' k = Dict.get? ev k) ∧
    ∀ t < m, ∃ seed1 vals seed2, R (t + 1) seed1 ∧ periodValues ss interp par ev' t seed1 = some (vals, seed2) ∧
      ∀ k v, (k, v) ∈ vals → ∃ old new, Dict.get? ev k = some old ∧
        assignInPlace old v = some new ∧ Dict.get? ev' k = some new := by
  induction m generalizing ev seed with
  | zero => exact ⟨fun _ _ _ _ => rfl, fun t ht => absurd ht (Nat.not_lt_zero _)⟩
  | succ m ih =>
    rw [range_succ_reverse] at hok ⊢
    unfold backwardLoop at hok ⊢
    cases hp : periodValues ss interp par ev m seed with
    | none => rw [hp] at hok; cases hok
    | some r =>
      obtain ⟨vals, seed'⟩ := r
      rw [hp] at hok
      simp only at hok ⊢
      have hkeys := periodValues_keys ss interp hint par ev m seed vals seed' hp
      have hn : (vals.map Prod.fst).Nodup := by rw [hkeys]; exact nodup_keysOfPeriod _ _
      have hset := setAttribute_set vals ev hn
      have hoth := setAttribute_other vals ev
      have hshape := setAttribute_shape vals ev
      rcases hA : setAttribute ev vals with ⟨ev1, f⟩
      rw [hA] at hok hset hoth hshape
      cases f with
      | false => simp at hok
      | true =>
        simp only at hok ⊢
        obtain ⟨ih1, ih2⟩ := ih ev1 seed' (hstep _ _ _ _ _ hR hp) hok
        have hkeep : ∀ k c, ss.complexes[k]? = some c → m + 1 ≤ c.period →
            Dict.get? (backwardLoop ss interp par (List.range m).reverse ev1 seed').1 k =
              Dict.get? ev k := by
          intro k c hc hle
          rw [ih1 k c hc (by omega)]
          apply hoth
          rw [hkeys]
          intro hmem
          obtain ⟨c', hc', hcp⟩ := (mem_keysOfPeriod _ _ _).1 hmem
          rw [hc] at hc'; cases hc'; omega
        refine ⟨hkeep, ?_⟩
        intro t ht
        rcases Nat.lt_succ_iff_lt_or_eq.1 ht with ht | rfl
        · obtain ⟨s1, v, s2, hr, hv, hall⟩ := ih2 t ht
          refine ⟨s1, v, s2, hr, hv, ?_⟩
          intro k x hkx
          obtain ⟨old, new, ho, ha, hg⟩ := hall k x hkx
          have hlen := hshape.2 k
          rw [ho] at hlen
          cases hek : Dict.get? ev k with
          | none => rw [hek] at hlen; simp at hlen
          | some old' =>
            rw [hek] at hlen
            simp only [Option.map_some, Option.some.injEq] at hlen
            exact ⟨old', new, rfl, by rw [assignInPlace_congr _ _ _ hlen]; exact ha, hg⟩
        · refine ⟨seed, vals, seed', hR, ?_, ?_⟩
          · rw [← hp]
            apply periodValues_congr
            intro k hk
            obtain ⟨c, hc, hcp⟩ := (mem_keysOfPeriod _ _ _).1 hk
            exact hkeep k c hc (by omega)
          · intro k v hkv
            obtain ⟨old, new, ho, ha, hg⟩ := hset rfl k v hkv
            refine ⟨old, new, ho, ha, ?_⟩
            have hkm : k ∈ vals.map Prod.fst := List.mem_map.2 ⟨_, hkv, rfl⟩
            rw [hkeys] at hkm
            obtain ⟨c, hc, hcp⟩ := (mem_keysOfPeriod _ _ _).1 hkm
            rw [ih1 k c hc (by omega)]
            exact hg

theorem backwardLoop_spec (ss : SolveSpace) (interp : Interpolation K)
    (hint : InterpolationKeys ss interp) (par : ParamObjects K) (m : Nat)
    (ev : Dict Nat (List K)) (seed : Nat)
    (hok : (backwardLoop ss interp par (List.range m).reverse ev seed).2 = true) :
    let ev' := (backwardLoop ss interp par (List.range m).reverse ev seed).1
    (∀ k c, ss.complexes[k]? = some c → m ≤ c.period → Dict.get? ev' k = Dict.get? ev k) ∧
    ∀ t < m, ∃ seed1 vals seed2, periodValues ss interp par ev' t seed1 = some (vals, seed2) ∧
      ∀ k v, (k, v) ∈ vals → ∃ old new, Dict.get? ev k = some old ∧
        assignInPlace old v = some new ∧ Dict.get? ev' k = some new := by
  obtain ⟨h1, h2⟩ := backwardLoop_seeds ss interp hint par m ev seed (fun _ _ => True) trivial
    (fun _ _ _ _ _ _ _ => trivial) hok
  refine ⟨h1, fun t ht => ?_⟩
  obtain ⟨s1, v, s2, -, h⟩ := h2 t ht
  exact ⟨s1, v, s2, h⟩

end Respy
