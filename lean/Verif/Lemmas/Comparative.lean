import Mathlib.Algebra.BigOperators.Group.Finset.Basic
import Mathlib.Algebra.BigOperators.Ring.Finset
import Mathlib.Algebra.Order.Field.Basic
import Mathlib.Tactic.Linarith
import Verif.Lemmas.EndToEnd
import Verif.Spec.Comparative

/-!
# Lemmas on comparisons of models
-/

namespace Respy

variable {K : Type _} [Field K] [LinearOrder K] [IsStrictOrderedRing K]

theorem sum_le_sum_add {α β : Type _} {l : List α} {l' : List β} {f : α → K} {g : β → K} {x : K}
    (h : List.Forall₂ (fun e e' => f e ≤ g e' + x) l l') :
    (l.map f).sum ≤ (l'.map g).sum + (l'.length : K) * x := by
  induction h with
  | nil => simp
  | cons ha _ ih =>
    simp only [List.map_cons, List.sum_cons, List.length_cons, Nat.cast_add, Nat.cast_one]
    linarith

theorem IsBellman.le_add {delta delta' : K} {adm : Nat → Prop} {w m c w' m' c' : Nat → K}
    {draws draws' : List (Nat → K)} {v v' x : K} (hx : 0 ≤ x) (h : IsBellman delta adm w m c draws v)
    (h' : IsBellman delta' adm w' m' c' draws' v')
    (hle : List.Forall₂ (fun e e' => ∀ a, adm a →
      w a * e a + m a + delta * c a ≤ w' a * e' a + m' a + delta' * c' a + x) draws draws') : v ≤ v' + x := by
  obtain ⟨f, hf, rfl⟩ := h
  obtain ⟨g, hg, rfl⟩ := h'
  have key : List.Forall₂ (fun e e' => f e ≤ g e' + x) draws draws' := by
    have : ∀ {l l' : List (Nat → K)}, List.Forall₂ (fun e e' => ∀ a, adm a →
        w a * e a + m a + delta * c a ≤ w' a * e' a + m' a + delta' * c' a + x) l l' → (∀ e ∈ l, e ∈ draws) →
        (∀ e ∈ l', e ∈ draws') → List.Forall₂ (fun e e' => f e ≤ g e' + x) l l' := by
      intro l l' hll
      induction hll with
      | nil => intro _ _; exact .nil
      | @cons e e' l l' ha _ ih =>
        intro h1 h2
        refine .cons ?_ (ih (fun y hy => h1 y (by simp [hy])) fun y hy => h2 y (by simp [hy]))
        have he := (hf e (h1 e (by simp))).1
        have hge := (hg e' (h2 e' (by simp))).2
        rcases he with h0 | ⟨a, haa, hv⟩
        · have : (0 : K) ≤ g e' := hge (Or.inl rfl)
          rw [h0]; linarith
        · have h3 := hge (Or.inr ⟨a, haa, rfl⟩)
          have h4 := ha a haa
          rw [hv]; linarith
    exact this hle (fun _ h => h) fun _ h => h
  have hsum := sum_le_sum_add key
  rw [hle.length_eq]
  rcases Nat.eq_zero_or_pos draws'.length with h0 | hpos
  · rw [h0]; simpa using hx
  · have hp : (0 : K) < draws'.length := by exact_mod_cast hpos
    rw [div_le_iff₀ hp, add_mul, div_mul_cancel₀ _ hp.ne']
    linarith

theorem IsBellman.nonneg {delta : K} {adm : Nat → Prop} {w m c : Nat → K} {draws : List (Nat → K)} {v : K}
    (h : IsBellman delta adm w m c draws v) : 0 ≤ v := by
  obtain ⟨f, hf, rfl⟩ := h
  refine div_nonneg (List.sum_nonneg ?_) (Nat.cast_nonneg _)
  intro y hy
  obtain ⟨e, he, rfl⟩ := List.mem_map.1 hy
  exact (hf e he).2 (Or.inl rfl)

theorem expectation_le_add {α : Type _} (l : List (α × K)) (f g : α → K) (x : K)
    (hp : ∀ fp ∈ l, 0 ≤ fp.2) (hsum : (l.map Prod.snd).sum = 1) (h : ∀ fp ∈ l, f fp.1 ≤ g fp.1 + x) :
    (l.map fun fp => fp.2 * f fp.1).sum ≤ (l.map fun fp => fp.2 * g fp.1).sum + x := by
  have : (l.map fun fp => fp.2 * f fp.1).sum ≤
      (l.map fun fp => fp.2 * g fp.1).sum + (l.map Prod.snd).sum * x := by
    clear hsum
    induction l with
    | nil => simp
    | cons y l ih =>
      have h1 := ih (fun fp hfp => hp fp (by simp [hfp])) fun fp hfp => h fp (by simp [hfp])
      have h2 := mul_le_mul_of_nonneg_left (h y (by simp)) (hp y (by simp))
      simp only [List.map_cons, List.sum_cons, add_mul]
      linarith
  rw [hsum, one_mul] at this
  exact this

/-- One model has utilities which exceed those of another model by at least `- η`, and a discount factor which is not
smaller: its value is lower by at most `η (1 + δ + δ² + …)`. -/
theorem IsValueFunction.le_add {b : BuildSpec} {core : List CoreState} (wf : b.WF core) {delta delta' eta : K}
    (h0 : 0 ≤ delta) (hdd : delta ≤ delta') (heta : 0 ≤ eta)
    {w m w' m' : Option Nat → CoreState → Nat → K} {shocks shocks' : Nat → List Bool → List (Nat → K)}
    {future : Option Nat → CoreState → List (Option Nat × K)} (hfut : IsTransition b core future)
    (hflow : FlowsRelated (fun x y => x ≤ y + eta) b core w m shocks w' m' shocks')
    {V V' : Option Nat → CoreState → K} (h : IsValueFunction b core delta w m shocks future V)
    (h' : IsValueFunction b core delta' w' m' shocks' future V') (d : Option Nat) (hd : d ∈ b.denseIndices)
    (s : CoreState) (hs : s ∈ core) :
    V d s ≤ V' d s + eta * ∑ k ∈ Finset.range (b.core.nPeriods - s.period), delta ^ k := by
  have hgeo : ∀ n, 0 ≤ ∑ k ∈ Finset.range n, delta ^ k :=
    fun n => Finset.sum_nonneg fun k _ => pow_nonneg h0 k
  have main : ∀ r : Nat, ∀ d ∈ b.denseIndices, ∀ s ∈ core, s.period + r + 1 = b.core.nPeriods →
      V d s ≤ V' d s + eta * ∑ k ∈ Finset.range (r + 1), delta ^ k := by
    intro r
    induction r with
    | zero =>
      intro d hd s hs hr
      simp only [Nat.add_zero] at hr
      refine (h d hd s hs).le_add (by simpa using heta) (h' d hd s hs) ?_
      refine (hflow d hd s hs).imp fun e e' he a ha => ?_
      have := he a ha
      simp only [flowUtility] at this
      simp only [hr, if_true]
      simp
      linarith
    | succ r ih =>
      intro d hd s hs hr
      refine (h d hd s hs).le_add (mul_nonneg heta (hgeo _)) (h' d hd s hs) ?_
      refine (hflow d hd s hs).imp fun e e' he a ha => ?_
      have h1 := he a ha
      simp only [flowUtility] at h1
      have hne : s.period + 1 ≠ b.core.nPeriods := by omega
      simp only [hne, if_false]
      obtain ⟨hf, hsum⟩ := hfut d hd s hs
      have hcl := wf.closed s hs (by omega) d hd a ha
      have h2 := expectation_le_add (future d s) (fun d => V d (lawOfMotion s a)) (fun d => V' d (lawOfMotion s a))
        (eta * ∑ k ∈ Finset.range (r + 1), delta ^ k) (fun fp hfp => (hf fp hfp).2) hsum
        fun fp hfp => ih fp.1 (hf fp hfp).1 _ hcl (by simp only [lawOfMotion]; omega)
      have h3 : 0 ≤ ((future d s).map fun fp => fp.2 * V' fp.1 (lawOfMotion s a)).sum := by
        refine List.sum_nonneg fun y hy => ?_
        obtain ⟨fp, hfp, rfl⟩ := List.mem_map.1 hy
        exact mul_nonneg (hf fp hfp).2 (h' fp.1 (hf fp hfp).1 _ hcl).nonneg
      have h4 := mul_le_mul_of_nonneg_left h2 h0
      have h5 := mul_le_mul_of_nonneg_right hdd h3
      have h6 : ∑ k ∈ Finset.range (r + 1 + 1), delta ^ k = 1 + delta * ∑ k ∈ Finset.range (r + 1), delta ^ k := by
        rw [Finset.sum_range_succ', Finset.mul_sum, add_comm]
        simp [pow_succ']
      rw [h6]
      have h7 : eta * (1 + delta * ∑ k ∈ Finset.range (r + 1), delta ^ k) =
          eta + delta * (eta * ∑ k ∈ Finset.range (r + 1), delta ^ k) := by ring
      rw [h7]
      rw [mul_add] at h4
      linarith
  have hlt := createCore_period _ _ wf.created s hs
  have := main (b.core.nPeriods - 1 - s.period) d hd s hs (by omega)
  rwa [show b.core.nPeriods - 1 - s.period + 1 = b.core.nPeriods - s.period by omega] at this

end Respy
